import Verif.Props.Channel
import Verif.Props.GenRpc
import Verif.Props.StreamE2E
/-! # C112: channel messages over concurrent connections

The senders and receivers of the channel package (`Model/Channel.lean`) on top of the write paths, the bytes in between, the frame reader
and the streams of the other side (C93). -/
namespace Qrpc
open Spec

/-- A message of a channel: command, value, its encoding, and whether it was passed to Send as the last one. -/
structure Spec.ChMsg (M : Type) where
  cmd : Cmd
  val : M
  bytes : Bytes
  last : Bool
deriving DecidableEq, Repr

def Spec.ChMsg.arg {M : Type} (m : ChMsg M) : Cmd × Bytes × Bool := (m.cmd, m.bytes, m.last)

/-- The frames submitted by successive Sends on stream `id`: of a Sender from `Pipe` whose first Send returned nil (then nothing is assumed
about the results of the others), or of the Sender of a handler. -/
inductive Spec.ChannelSent (id : UInt64) (ms : List (Cmd × Bytes × Bool)) : List Bytes → Prop where
  | opened {ε : Type} (codec : Option Codec) (write : DFW → Option ε) (pooled : DFW) (hp : pooled.Clean) (resp : Nat)
      (h : (ChSender.sends codec write pooled id resp { writer := none, closed := false } ms).head?.map Prod.snd = some false) :
      ChannelSent id ms ((ChSender.sends codec write pooled id resp { writer := none, closed := false } ms).filterMap fun r => r.1.map (·.wbuf))
  | handler {ε : Type} (codec : Option Codec) (write : DFW → Option ε) (w : DFW) (hw : w.Clean) :
      ChannelSent id ms ((chServeSends codec write id w ms).filterMap fun r => r.1.map (·.wbuf))

/-- Receive, called as often as there are frames and each time with a place for the command, returns exactly the messages `ms`: for
the Receiver of a handler (which gets the first frame with its request) as for that of a `Pipe`. -/
def Spec.ChannelGot {M : Type} (dec : Bytes → Option M) (fs : List Frame) (ms : List (ChMsg M)) : Prop :=
  serveReceives dec fs.head? (fs.tail.map .frame) (List.replicate fs.length true) = ms.map (fun m => { cmd := some m.cmd, msg := some m.val, err := none }) ∧
  clientReceives dec false (fs.map .frame) (List.replicate fs.length true) = ms.map (fun m => { cmd := some m.cmd, msg := some m.val, err := none })

/-! ## What is submitted -/

theorem send_first_any {ε} (codec : Option Codec) (write : DFW → Option ε) {pooled : DFW} (hp : pooled.Clean)
    (id : UInt64) (resp : Nat) (cmd : Cmd) (b : Bytes) (e : Bool)
    (hr : (ChSender.send codec write pooled id resp { writer := none, closed := false } cmd b e).2.2 = false) :
    ∃ s' sub, ChSender.send codec write pooled id resp { writer := none, closed := false } cmd b e = (s', some sub, false) ∧
      sub.wbuf = layout id cmd (chFlag e) b ∧ s'.Ready id (chFlag e) := by
  simp only [ChSender.send, streamRequest, writeFirstFrame, chFlag_toStream, chFlag_noPush, Bool.false_eq_true, if_false] at hr ⊢
  have hl : 16 ≤ ({ pooled.fromPool with resp := some resp } : DFW).wbuf.length := by
    unfold DFW.Clean at hp; simp only [DFW.fromPool]; omega
  have hp0 : ({ pooled.fromPool with resp := some resp } : DFW).payload = [] := hp.payload_nil
  obtain ⟨h1, h2⟩ := (DFW.startWrite_holds _ id cmd (chFlag e) hl).writeBytes b
  rw [DFW.startWrite_payload _ _ _ _ hl, hp0, List.nil_append] at h2
  obtain ⟨sub, e1, e2, _, _, e3, e4, e5⟩ := endWrite_ok h1 codec write (sentAs_noCodec codec _ _ (chFlag_noCodec e))
  rw [h2] at e2
  generalize DFW.endWrite codec write _ = r at e1 e3 e4 e5 hr ⊢
  obtain ⟨rd, rs, re⟩ := r
  simp only at e1 e4 e5 hr
  cases re with
  | some x => simp at hr
  | none =>
    subst e1
    exact ⟨_, sub, rfl, e2, rfl, _, cmd, rfl, e4, e5⟩

theorem send_next_any {ε} (codec : Option Codec) (write : DFW → Option ε) (pooled : DFW)
    (id : UInt64) (resp : Nat) {s : ChSender} {f : FrameFlag} (hf : FrameFlag.isCodec f = false) (hs : s.Ready id f) (cmd : Cmd) (b : Bytes) (e : Bool) :
    ∃ s' sub r, s.send codec write pooled id resp cmd b e = (s', some sub, r) ∧ sub.wbuf = layout id cmd f b ∧ s'.Ready id f := by
  obtain ⟨hc, d, c, hd, hh, hp⟩ := hs
  simp only [ChSender.send, hc, hd, swStep, DFW.streamEndWrite, Bool.false_eq_true, if_false]
  obtain ⟨h1, h1'⟩ := hh.setCmd cmd
  obtain ⟨h2, h3⟩ := h1.writeBytes b
  rw [h1', hp, List.nil_append] at h3
  obtain ⟨sub, e1, e2, _, _, e3, e4, e5⟩ := endWrite_ok h2 codec write (sentAs_noCodec codec _ _ hf)
  rw [h3] at e2
  generalize DFW.endWrite codec write _ = r at e1 e3 e4 e5 ⊢
  obtain ⟨rd, rs, re⟩ := r
  simp only at e1 e4 e5
  subst e1
  exact ⟨_, sub, _, rfl, e2, rfl, _, cmd, rfl, e4, e5⟩

theorem sends_next_any {ε} (codec : Option Codec) (write : DFW → Option ε) (pooled : DFW) (id : UInt64) (resp : Nat) (f : FrameFlag)
    (hf : FrameFlag.isCodec f = false) (ms : List (Cmd × Bytes × Bool)) : ∀ s : ChSender, s.Ready id f →
    (s.sends codec write pooled id resp ms).filterMap (fun r => r.1.map (·.wbuf)) = ms.map (fun m => layout id m.1 f m.2.1) := by
  induction ms with
  | nil => intro s _; rfl
  | cons m ms ih =>
    intro s hs
    obtain ⟨s', sub, r, h1, h2, h3⟩ := send_next_any codec write pooled id resp hf hs m.1 m.2.1 m.2.2
    simp only [ChSender.sends, h1, List.filterMap_cons, Option.map_some, h2, ih s' h3, List.map_cons]

theorem serveSends_any {ε} (codec : Option Codec) (write : DFW → Option ε) (id : UInt64) (ms : List (Cmd × Bytes × Bool)) : ∀ w : DFW, w.Clean →
    (chServeSends codec write id w ms).filterMap (fun r => r.1.map (·.wbuf)) = ms.map (fun m => layout id m.1 (chFlag m.2.2) m.2.1) := by
  induction ms with
  | nil => intro w _; rfl
  | cons m ms ih =>
    intro w hw'
    have hl : 16 ≤ w.wbuf.length := by unfold DFW.Clean at hw'; omega
    obtain ⟨h1, h2⟩ := (DFW.startWrite_holds w id m.1 (chFlag m.2.2) hl).writeBytes m.2.1
    rw [DFW.startWrite_payload w _ _ _ hl, hw'.payload_nil, List.nil_append] at h2
    obtain ⟨sub, e1, e2, _, _, e3, e4, e5⟩ := endWrite_ok h1 codec write (sentAs_noCodec codec _ _ (chFlag_noCodec _))
    rw [h2] at e2
    simp only [chServeSends, chServeSend, List.filterMap_cons, List.map_cons, e1, Option.map_some, e2]
    rw [ih _ (Holds_clean e4 e5)]

/-- The flags of the frames: those of their own message, or all those of the first one. -/
theorem channelSent_frames {id : UInt64} {ms : List (Cmd × Bytes × Bool)} {bs : List Bytes} (h : ChannelSent id ms bs)
    (hend : ∀ m ∈ ms.dropLast, m.2.2 = false) :
    ∃ e : Cmd × Bytes × Bool → Bool, bs = ms.map (fun m => layout id m.1 (chFlag (e m)) m.2.1) ∧ ∀ m ∈ ms.dropLast, e m = false := by
  cases h with
  | handler codec write w hw => exact ⟨fun m => m.2.2, serveSends_any codec write id ms w hw, hend⟩
  | opened codec write pooled hp resp h =>
    cases ms with
    | nil => exact ⟨fun m => m.2.2, rfl, hend⟩
    | cons m ms =>
      obtain ⟨s', sub, h1, h2, h3⟩ := send_first_any codec write hp id resp m.1 m.2.1 m.2.2 (by simpa [ChSender.sends] using h)
      refine ⟨fun _ => m.2.2, ?_, fun x hx => ?_⟩
      · simp only [ChSender.sends, h1, List.filterMap_cons, Option.map_some, h2, List.map_cons]
        rw [sends_next_any codec write pooled id resp _ (chFlag_noCodec _) ms s' h3]
      · cases ms with
        | nil => simp at hx
        | cons m' ms => exact hend m (by simp)

/-! ## What is received -/

theorem channelGot_of {M : Type} (dec : Bytes → Option M) (fs : List Frame) (ms : List (ChMsg M))
    (h : fs.map (chReceived dec) = ms.map (fun m => { cmd := some m.cmd, msg := some m.val, err := none })) : ChannelGot dec fs ms := by
  cases fs with
  | nil =>
    cases ms with
    | nil => exact ⟨rfl, rfl⟩
    | cons m ms => simp at h
  | cons f fs =>
    have h1 := C56_server_receive_partial dec f fs 0
    have h2 := C56_client_receive dec (f :: fs) (by simp) 0
    simp only [Nat.add_zero, List.replicate_zero, List.append_nil] at h1 h2
    exact ⟨by simpa using h1.trans h, h2.trans h⟩

/-- The numbers of the frames of stream `id` among `n` submissions. -/
def Spec.streamNums (fr : Nat → Frame) (n : Nat) (id : UInt64) : List Nat :=
  (List.range n).filter fun k => decide ((fr k).key = (id, false))

theorem pairwise_sublist_range {us : List Nat} {n : Nat} (hp : us.Pairwise (· < ·)) (hlt : ∀ u ∈ us, u < n) : us.Sublist (List.range n) := by
  induction n generalizing us with
  | zero =>
    cases us with
    | nil => simp
    | cons a us => exact absurd (hlt a (by simp)) (by omega)
  | succ n ih =>
    rw [List.range_succ]
    rcases List.eq_nil_or_concat us with rfl | ⟨vs, x, rfl⟩
    · simp
    · rw [List.concat_eq_append] at hp hlt ⊢
      obtain ⟨p1, -, p3⟩ := List.pairwise_append.1 hp
      have hx := hlt x (by simp)
      have hvs : ∀ t ∈ vs, t < x := fun t ht => p3 t ht x (by simp)
      by_cases hxn : x = n
      · subst hxn
        exact List.Sublist.append (ih p1 hvs) (List.Sublist.refl _)
      · refine List.Sublist.trans (ih hp ?_) (List.sublist_append_left _ _)
        intro t ht
        rcases List.mem_append.1 ht with ht | ht
        · have := hvs t ht; omega
        · simp at ht; omega

/-- The frame of a message. -/
def chFrameOf (id : UInt64) (e : Cmd × Bytes × Bool → Bool) (m : Cmd × Bytes × Bool) : Frame :=
  ⟨id, chFlag (e m), UInt32.ofNat (m.1.toNat % 2 ^ 24), m.2.1⟩

theorem chan_frames {cfg : FrameReaderCfg} {bytes : Nat → Bytes} {fr : Nat → Frame} {nums : List Nat} (henc : ∀ k ∈ nums, Encodes cfg (bytes k) (fr k))
    {id : UInt64} {e : Cmd × Bytes × Bool → Bool} {ms : List (Cmd × Bytes × Bool)}
    (h : nums.map bytes = ms.map (fun m => layout id m.1 (chFlag (e m)) m.2.1)) : nums.map fr = ms.map (chFrameOf id e) := by
  induction nums generalizing ms with
  | nil => cases ms <;> simp_all
  | cons k ks ih =>
    cases ms with
    | nil => simp at h
    | cons m ms =>
      simp only [List.map_cons, List.cons.injEq] at h ⊢
      refine ⟨?_, ih (fun k hk => henc k (by simp [hk])) h.2⟩
      have := henc k (by simp)
      rw [h.1] at this
      exact encodes_layout_flags (chFlag_noCodec _) this

theorem chan_wellFormed {id : UInt64} {e : Cmd × Bytes × Bool → Bool} {ms : List (Cmd × Bytes × Bool)} (he : ∀ m ∈ ms.dropLast, e m = false) :
    WellFormed (ms.map (chFrameOf id e)) := by
  refine ⟨fun f hf => ?_, fun f hf => ?_⟩
  · obtain ⟨m, -, rfl⟩ := List.mem_map.1 hf
    simp only [chFrameOf]; cases e m <;> rfl
  · rw [← List.map_dropLast] at hf
    obtain ⟨m, hm, rfl⟩ := List.mem_map.1 hf
    simp only [chFrameOf, he m hm]; rfl

theorem chan_core {M : Type} {dec : Bytes → Option M} {fr : Nat → Frame} {nums us : List Nat} (hus : us.Sublist nums) (hnd : nums.Nodup)
    {id : UInt64} {e : Cmd × Bytes × Bool → Bool} {msgs : List (ChMsg M)} (hfr : nums.map fr = (msgs.map ChMsg.arg).map (chFrameOf id e))
    (hdec : ∀ m ∈ msgs, dec m.bytes = some m.val) (hcmd : ∀ m ∈ msgs, m.cmd.toNat < 2 ^ 24) {fs tl : List Frame} (hfs : fs ++ tl = us.map fr) :
    ∃ got, got.Sublist msgs ∧ ChannelGot dec fs got ∧ (tl = [] → (∀ k ∈ nums, k ∈ us) → got = msgs) := by
  have h1 : fs.Sublist (msgs.map fun m => chFrameOf id e m.arg) := by
    have : (msgs.map fun m => chFrameOf id e m.arg) = nums.map fr := by rw [hfr, List.map_map]; rfl
    rw [this]
    exact ((List.sublist_append_left fs tl).trans (by rw [hfs]; exact List.Sublist.refl _)).trans (hus.map fr)
  obtain ⟨got, hg, rfl⟩ := List.sublist_map_iff.1 h1
  refine ⟨got, hg, channelGot_of _ _ _ ?_, fun ht hall => ?_⟩
  · rw [List.map_map]
    refine List.map_congr_left fun m hm => ?_
    have hm' := hg.mem hm
    simp only [Function.comp, chReceived, chFrameOf, ChMsg.arg, hdec m hm', Option.isSome_some, if_true]
    rw [Nat.mod_eq_of_lt (hcmd m hm'), UInt32.ofNat_toNat]
  · refine hg.eq_of_length ?_
    have e1 : us = nums := hus.eq_of_length_le (List.Nodup.length_le_of_subset hnd hall)
    rw [ht, List.append_nil, e1, hfr] at hfs
    have := congrArg List.length hfs
    simpa using this

theorem streamNums_nodup (fr : Nat → Frame) (n : Nat) (id : UInt64) : (streamNums fr n id).Nodup := List.nodup_range.filter _

theorem streamNums_map (fr : Nat → Frame) (n : Nat) (id : UInt64) :
    ((List.range n).map fr).filter (fun f => decide (f.key = (id, false))) = (streamNums fr n id).map fr := by
  rw [streamNums, List.filter_map]; rfl

/-- **C112, from a client.** In every execution of a client connection with submitted frames `fr t`: if the frames on stream `id` are those of
successive Sends of messages `msgs`, none but the last marked as last, then - whatever else is submitted, however writes fail, whatever has arrived at
the other end of transport connection `g` in whatever pieces - Receive there has returned, for the frames handed over, messages sent, in the order
sent, none repeated, each with its command and value; and if all Sends returned nil, over this one transport connection, and everything has arrived
and been handed over, it has returned exactly the messages sent. -/
theorem C112_client {c : CConf} {d : Bool} {acts : List CAct} {s : CSt} (hrun : cRun c d acts = some s) (cfg : Nat → FrameReaderCfg)
    (fr : Nat → Frame) (henc : ∀ (g t : Nat) (f : CFrame), s.frames[t]? = some f → Encodes (cfg g) f.bytes (fr t))
    {M : Type} (dec : Bytes → Option M) (id : UInt64) (msgs : List (ChMsg M)) (hdec : ∀ m ∈ msgs, dec m.bytes = some m.val)
    (hcmd : ∀ m ∈ msgs, m.cmd.toNat < 2 ^ 24) (hlast : ∀ m ∈ msgs.dropLast, m.last = false)
    (hsent : ChannelSent id (msgs.map ChMsg.arg)
      ((streamNums fr s.frames.length id).map fun k => ((s.frames[k]?).map (·.bytes)).getD []))
    (g : Nat) (t : SSt) (whole : Prop) (hr : Receives (cfg g) (s.wires g) t whole) :
    ∃ fs got, HandedOver t (id, false) fs ∧ got.Sublist msgs ∧ ChannelGot dec fs got ∧
      (whole → inHand t (id, false) = [] → (∀ k ∈ streamNums fr s.frames.length id, (k, CRes.ok) ∈ s.rets) →
        (∀ g', g' ≠ g → s.wires g' = []) → got = msgs) := by
  obtain ⟨e, he1, he2⟩ := channelSent_frames hsent (by
    rw [← List.map_dropLast]; rintro m hm; obtain ⟨x, hx, rfl⟩ := List.mem_map.1 hm; exact hlast x hx)
  have hlen : ∀ k ∈ streamNums fr s.frames.length id, k < s.frames.length := fun k hk => List.mem_range.1 (List.mem_filter.1 hk).1
  have hfr := chan_frames (cfg := cfg g) (fun k hk => by
    rw [List.getElem?_eq_getElem (hlen k hk)]
    exact henc g k _ (List.getElem?_eq_getElem (hlen k hk))) he1
  obtain ⟨outs, ho1, ho0, ho2, ho3⟩ := C93_client hrun cfg fr henc
  obtain ⟨fs, us, a1, a2, a3, -, a5⟩ := ho3 g (id, false) t whole (by
    rw [streamNums_map, hfr]; exact chan_wellFormed he2) hr
  have hus : us.Sublist (streamNums fr s.frames.length id) :=
    a3.sublist.trans ((pairwise_sublist_range (ho1 g) (ho0 g)).filter _)
  obtain ⟨got, b1, b2, b3⟩ := chan_core hus (streamNums_nodup _ _ _) hfr hdec hcmd a2
  refine ⟨fs, got, a1, b1, b2, fun hw hi hok hone => b3 hi fun k hk => ?_⟩
  obtain ⟨g', pre, post, q1, q2⟩ := (ho2 k _ (hok k hk)).1 rfl
  by_cases hg : g' = g
  · subst hg
    exact a5 hw pre k post q1 q2 (by simpa using (List.mem_filter.1 hk).2)
  · rw [hone g' hg] at q2
    have h0 := List.eq_nil_of_prefix_nil q2
    have hb := (henc g k _ (List.getElem?_eq_getElem (hlen k hk))).length_pos
    have := congrArg List.length h0
    simp only [Spec.frames, List.filterMap_append, List.filterMap_cons, List.getElem?_eq_getElem (hlen k hk), Option.map_some,
      List.filterMap_nil, List.flatten_append, List.flatten_cons, List.length_append, List.length_nil] at this
    omega

/-- **C112, from a server**: the same for the frames submitted on a server connection, by a handler's Sender or by one from `Pipe`. -/
theorem C112_server {cap : Nat} {acts : List GAct} {s : GSt} (hrun : gRun cap acts = some s) (cfg : FrameReaderCfg)
    (fr : Nat → Frame) (henc : ∀ (t : Nat) (f : SFrame), s.frames[t]? = some f → Encodes cfg f.bytes (fr t))
    {M : Type} (dec : Bytes → Option M) (id : UInt64) (msgs : List (ChMsg M)) (hdec : ∀ m ∈ msgs, dec m.bytes = some m.val)
    (hcmd : ∀ m ∈ msgs, m.cmd.toNat < 2 ^ 24) (hlast : ∀ m ∈ msgs.dropLast, m.last = false)
    (hsent : ChannelSent id (msgs.map ChMsg.arg)
      ((streamNums fr s.frames.length id).map fun k => ((s.frames[k]?).map (·.bytes)).getD []))
    (t : SSt) (whole : Prop) (hr : Receives cfg s.wire t whole) :
    ∃ fs got, HandedOver t (id, false) fs ∧ got.Sublist msgs ∧ ChannelGot dec fs got ∧
      (whole → inHand t (id, false) = [] → (∀ k ∈ streamNums fr s.frames.length id, (k, SRes.ok) ∈ s.rets) → got = msgs) := by
  obtain ⟨e, he1, he2⟩ := channelSent_frames hsent (by
    rw [← List.map_dropLast]; rintro m hm; obtain ⟨x, hx, rfl⟩ := List.mem_map.1 hm; exact hlast x hx)
  have hlen : ∀ k ∈ streamNums fr s.frames.length id, k < s.frames.length := fun k hk => List.mem_range.1 (List.mem_filter.1 hk).1
  have hfr := chan_frames (cfg := cfg) (fun k hk => by
    rw [List.getElem?_eq_getElem (hlen k hk)]
    exact henc k _ (List.getElem?_eq_getElem (hlen k hk))) he1
  obtain ⟨ts, ho1, ho0, -, ho3⟩ := C93_server hrun cfg fr henc
  obtain ⟨fs, us, a1, a2, a3, -, a5⟩ := ho3 (id, false) t whole (by
    rw [streamNums_map, hfr]; exact chan_wellFormed he2) hr
  have hus : us.Sublist (streamNums fr s.frames.length id) :=
    a3.sublist.trans ((pairwise_sublist_range ho1 ho0).filter _)
  obtain ⟨got, b1, b2, b3⟩ := chan_core hus (streamNums_nodup _ _ _) hfr hdec hcmd a2
  exact ⟨fs, got, a1, b1, b2, fun hw hi hok => b3 hi fun k hk => a5 hw k (hok k hk) (by simpa using (List.mem_filter.1 hk).2)⟩

/-- **C112, the end.** Once a frame with the end flag - a handler's Send of its last message - has been handed over and the reader has gone on, the
channel of the stream is closed, so that Receive returns ErrStreamFinished from then on. -/
theorem C112_end {t : SSt} {sacts : List SAct} (hrun : sRun SSt.init sacts = some t) (hidle : t.r = .idle) {K : SKey} {fs : List Frame}
    (h : HandedOver t K fs) (hd : ∃ f ∈ fs, FrameFlag.isDone f.flags = true) :
    ∃ r, (t.str r).key = K ∧ (Spec.outs r t.log).map Prod.snd = fs ∧ (t.str r).chCloses = 1 := by
  obtain ⟨f, hf, hd⟩ := hd
  rcases h with ⟨rfl, -⟩ | ⟨r, first, rest, rfl, h1, h2, -⟩
  · cases hf
  · refine ⟨r, h1, by rw [h2]; simp [Function.comp_def], ?_⟩
    have hm : ∃ b, (b, f) ∈ Spec.outs r t.log := by
      rw [h2]
      rcases List.mem_cons.1 hf with rfl | hf
      · exact ⟨true, by simp⟩
      · exact ⟨false, by simp [hf]⟩
    obtain ⟨b, hm⟩ := hm
    have hI := SInv.reach hrun
    rcases hI.e.doneClosed r b f hm hd with h | h
    · rcases hI.b.chp (by simp [hidle]) r h with h | h
      · exact h
      · simp [hidle, RPc.closing] at h
    · simp [hidle, RPc.donePending] at h

/-! ### Example: a handler sends three messages while a push with the same id goes the same way -/

def chExMsgs : List (ChMsg UInt8) := [⟨1, 1, [1], false⟩, ⟨1, 2, [2], false⟩, ⟨1, 3, [3], true⟩]

/-- All hypotheses of C112_server hold of the execution of C93's example, and the client receives 1, 2, 3. -/
example : ∃ (s : GSt) (t : SSt) (fs : List Frame), gRun 4 (exE2E ++ [.go 0]) = some s ∧ sRun SSt.init exStreamActs = some t ∧
    HandedOver t (7, false) fs ∧ ChannelGot List.head? fs chExMsgs := by
  obtain ⟨s, hs, hfs, hw, hrets⟩ : ∃ s, gRun 4 (exE2E ++ [.go 0]) = some s ∧
      s.frames.map (·.bytes) = [layout 7 1 StreamFlag [1], layout 7 2 PushFlag [9], layout 7 1 StreamFlag [2],
        layout 7 1 (StreamFlag ||| StreamEndFlag) [3]] ∧ s.wire = exE2EWire ∧ s.rets = [(1, .ok), (2, .ok), (3, .ok), (0, .ok)] := by
    have h : (gRun 4 (exE2E ++ [.go 0])).map (fun s => (s.frames.map (·.bytes), s.wire, s.rets)) =
      some ([layout 7 1 StreamFlag [1], layout 7 2 PushFlag [9], layout 7 1 StreamFlag [2],
        layout 7 1 (StreamFlag ||| StreamEndFlag) [3]], exE2EWire, [(1, .ok), (2, .ok), (3, .ok), (0, .ok)]) := by decide +kernel
    generalize gRun 4 (exE2E ++ [.go 0]) = o at h
    cases o with
    | none => cases h
    | some s => simp only [Option.map_some, Option.some.injEq, Prod.mk.injEq] at h; exact ⟨s, rfl, h⟩
  obtain ⟨t, ht, h1, h2, h3⟩ : ∃ t, sRun SSt.init exStreamActs = some t ∧ t.recv = (List.range 4).map exE2EFrame ∧ t.connCancelled = false ∧
      inHand t (7, false) = [] := by
    have h : (sRun SSt.init exStreamActs).map (fun t => (t.recv, t.connCancelled, inHand t (7, false))) =
        some ((List.range 4).map exE2EFrame, false, []) := by rfl
    generalize sRun SSt.init exStreamActs = o at h
    cases o with
    | none => cases h
    | some s => simp only [Option.map_some, Option.some.injEq, Prod.mk.injEq] at h; exact ⟨s, rfl, h⟩
  have hlen : s.frames.length = 4 := by simpa using congrArg List.length hfs
  have hbytes : ∀ k : Nat, (s.frames[k]?).map (fun f : SFrame => f.bytes) = [layout 7 1 StreamFlag [1], layout 7 2 PushFlag [9], layout 7 1 StreamFlag [2],
        layout 7 1 (StreamFlag ||| StreamEndFlag) [3]][k]? := fun k => by rw [← hfs, List.getElem?_map]
  have henc : ∀ (k : Nat) (f : SFrame), s.frames[k]? = some f → Encodes ⟨0, none⟩ f.bytes (exE2EFrame k) := by
    intro k f hf
    have := hbytes k
    rw [hf, Option.map_some] at this
    rcases k with _ | _ | _ | _ | k
    · rw [Option.some.inj this]; exact ⟨1, [1], rfl, by decide, by decide, .inl (by decide), rfl⟩
    · rw [Option.some.inj this]; exact ⟨2, [9], rfl, by decide, by decide, .inl (by decide), rfl⟩
    · rw [Option.some.inj this]; exact ⟨1, [2], rfl, by decide, by decide, .inl (by decide), rfl⟩
    · rw [Option.some.inj this]; exact ⟨1, [3], rfl, by decide, by decide, .inl (by decide), rfl⟩
    · simp at this
  have hread : (readN ⟨0, none⟩ 4 exE2ESrc).1 = .ok t.recv := by
    have h : okFrames (readN ⟨0, none⟩ 4 exE2ESrc).1 = some ((List.range 4).map exE2EFrame) := by decide +kernel
    rw [h1]
    generalize (readN ⟨0, none⟩ 4 exE2ESrc).1 = o at h
    cases o with
    | error e => cases h
    | ok l => simp only [okFrames, Option.some.injEq] at h; rw [h]
  have hstop : ∃ err, (readN ⟨0, none⟩ 5 exE2ESrc).1 = .error err := by
    have h : okFrames (readN ⟨0, none⟩ 5 exE2ESrc).1 = none := by decide +kernel
    generalize (readN ⟨0, none⟩ 5 exE2ESrc).1 = o at h
    cases o with
    | error e => exact ⟨e, rfl⟩
    | ok l => cases h
  have hsrc : srcBytes exE2ESrc = s.wire := by rw [hw]; decide +kernel
  have hnums : streamNums exE2EFrame s.frames.length 7 = [0, 2, 3] := by rw [hlen]; decide +kernel
  obtain ⟨fs, got, a1, a2, a3, a4⟩ := C112_server hs ⟨0, none⟩ exE2EFrame henc List.head? 7 chExMsgs (by decide) (by decide) (by decide)
    (by
      have := ChannelSent.handler (ε := Unit) (id := 7) (ms := chExMsgs.map ChMsg.arg) none (fun _ => none) DFW.new new_clean
      rw [serveSends_any _ _ _ _ _ new_clean] at this
      rw [hnums]
      simp only [hbytes]
      exact this)
    t True ⟨⟨exE2ESrc, 4, exStreamActs, by rw [hsrc]; exact List.prefix_rfl, hread, ht, fun _ => ⟨hsrc, hstop⟩⟩, h2⟩
  have hgot := a4 trivial h3 (by rw [hnums, hrets]; decide)
  subst hgot
  exact ⟨s, t, fs, hs, ht, a1, a3⟩

/-- At the end of that execution the reader has gone on and the stream's channel is closed. -/
example : (sRun SSt.init exStreamActs).map (fun t => (t.r, (t.str 0).key, ((Spec.outs 0 t.log).map Prod.snd).map fun f =>
      (f.payload, FrameFlag.isDone f.flags), (t.str 0).chCloses)) =
    some (.idle, (7, false), [([1], false), ([2], false), ([3], true)], 1) := by rfl

/-- A Sender from `Pipe` on a client connection: two Sends, the second of which is meant to end the stream, both returning nil, over one transport
connection; the frames submitted are those of `ChannelSent` (hypotheses of C112_client). -/
def exChClient : List CAct :=
  [.lGo, .lGo, .lGo, .request 0 false (layout 3 1 StreamFlag [1]), .go 0, .go 0, .go 0, .enq 0, .wDeq true true, .wGo, .wGo,
   .wWrite 17 true, .wGo, .wGo, .recv 0,
   .send 0 ⟨3, layout 3 2 StreamFlag [2, 3], false, false, false, false⟩, .go 0, .enq 0, .wDeq true true, .wGo,
   .wGo, .wWrite 18 true, .wGo, .wGo, .recv 0]

example : (cRun cfg2 true exChClient).map (fun s => (s.frames.map (·.bytes), s.wires 0, s.wires 1, s.rets)) =
      some ([layout 3 1 StreamFlag [1], layout 3 2 StreamFlag [2, 3]], [], layout 3 1 StreamFlag [1] ++ layout 3 2 StreamFlag [2, 3],
        [(0, .ok), (1, .ok)]) ∧
    ChannelSent 3 [(1, [1], false), (2, [2, 3], true)] [layout 3 1 StreamFlag [1], layout 3 2 StreamFlag [2, 3]] := by
  refine ⟨by rfl, ?_⟩
  have := ChannelSent.opened (ε := Unit) (id := 3) (ms := [(1, [1], false), (2, [2, 3], true)]) none (fun _ => none) DFW.new new_clean 0 (by decide +kernel)
  have e : (ChSender.sends none (fun _ => (none : Option Unit)) DFW.new 3 0 { writer := none, closed := false } [(1, [1], false), (2, [2, 3], true)]).filterMap
    (fun r => r.1.map (·.wbuf)) = [layout 3 1 StreamFlag [1], layout 3 2 StreamFlag [2, 3]] := by decide +kernel
  rw [e] at this
  exact this

end Qrpc
