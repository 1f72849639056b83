import Verif.Lemmas.EndToEnd
import Verif.Props.ClientWire
import Verif.Props.ServeWrite
import Verif.Props.Codec
import Verif.Props.Wire
/-! # Requests, answers and the transport between them: C82, C83, C84 -/
namespace Qrpc
open Spec

/-! ## Specification -/

/-- The first of the frames a server sent that answers the request with this id. -/
def Spec.firstAnswer (rid : UInt64) : List InFrame → Option InFrame
  | [] => none
  | f :: fs => if f.push = false ∧ f.rid = rid then some f else firstAnswer rid fs

theorem firstAnswer_some {rid : UInt64} {fs : List InFrame} {f : InFrame} (pre post : List InFrame) (h : fs = pre ++ f :: post)
    (hp : f.push = false) (hr : f.rid = rid) (hn : ∀ p ∈ pre, p.push = false → p.rid ≠ rid) : firstAnswer rid fs = some f := by
  subst h
  induction pre with
  | nil => simp [firstAnswer, hp, hr]
  | cons p pre ih =>
    have := hn p (by simp)
    simp only [List.cons_append, firstAnswer]
    rw [if_neg (by rintro ⟨h1, h2⟩; exact this h1 h2)]
    exact ih fun q hq => hn q (by simp [hq])

theorem firstAnswer_mem {rid : UInt64} {fs : List InFrame} {f : InFrame} (h : firstAnswer rid fs = some f) :
    f ∈ fs ∧ f.push = false ∧ f.rid = rid := by
  induction fs with
  | nil => simp [firstAnswer] at h
  | cons x xs ih =>
    simp only [firstAnswer] at h
    split at h
    · next hx => cases h; exact ⟨by simp, hx⟩
    · have := ih h; exact ⟨by simp [this.1], this.2⟩

/-! ## C82 An answer belongs to the request it is given to -/

/-- **C82.** In every execution of a client connection with its peers - any number of callers and reconnects, answers in any order,
late, repeated or missing -, the frame the response object of request `t` got is one that a server wrote with the id of the
request, after it had read the request `t` itself, on the same transport connection, and it is the first such frame. -/
theorem C82 {c : CConf} {d : Bool} {acts : List EAct} {e : ESt} (hrun : eRun c d acts = some e) (hr : e.c.ridGen < 2 ^ 63)
    {t : Nat} {f : InFrame} (h : REv.frame f ∈ e.c.revs t) :
    ∃ g n pre post fr, e.down g = pre ++ (f, n) :: post ∧ t ∈ (e.c.outs g).take n ∧ e.c.frames[t]? = some fr ∧ f.rid = fr.rid ∧
      f.push = false ∧ ∀ p ∈ pre, p.1.push = false → p.1.rid ≠ f.rid := by
  have hA := EAll.reach hrun
  obtain ⟨g, n, pre, post, h1, h2, h3, h4, h5, h6⟩ := (hA.e hr).ans t f h
  have htl : t < e.c.frames.length := Nat.lt_of_lt_of_le (hA.w.lt g t (List.mem_of_mem_take h5)) hA.i.a.deq
  refine ⟨g, n, pre, post, e.c.frames[t], h1, h5, List.getElem?_eq_getElem htl, ?_, h3, h6⟩
  rw [h4]; simp [cframeOf, List.getD, List.getElem?_eq_getElem htl]

/-! ## C83 No answer is lost -/

/-- **C83.** On the current transport connection, as long as it is up, whenever the reader is about to read: the response object of
every request written on this connection has got exactly the first answer among the frames read, and nothing if there is none. -/
theorem C83 {c : CConf} {d : Bool} {acts : List EAct} {e : ESt} (hrun : eRun c d acts = some e) (hr : e.c.ridGen < 2 ^ 63)
    (hup : e.c.rwc = true) (hrd : e.c.rd = .read) {t : Nat} {fr : CFrame} (ht : t ∈ e.c.outs e.c.gen) (hf : e.c.frames[t]? = some fr)
    (hresp : fr.resp = true) :
    e.c.revs t = match firstAnswer fr.rid (((e.down e.c.gen).map Prod.fst).take (e.read e.c.gen)) with
      | none => []
      | some f => [if f.rst then REv.closed else REv.frame f] := by
  have hA := EAll.reach hrun
  have hE := hA.e hr
  have hcf : cframeOf e.c.frames t = fr := by simp [cframeOf, List.getD, hf]
  have hlen := hA.i.c.len t
  have first : ∀ f n, Answers e.c e.down e.read e.c.gen t f n →
      firstAnswer fr.rid (((e.down e.c.gen).map Prod.fst).take (e.read e.c.gen)) = some f := by
    rintro f n ⟨pre, post, h1, h2, h3, h4, h5, h6⟩
    rw [hcf] at h4
    refine firstAnswer_some (pre.map Prod.fst) ((post.map Prod.fst).take (e.read e.c.gen - pre.length - 1)) ?_ h3 h4 ?_
    · rw [h1, List.map_append, List.take_append, List.take_of_length_le (by simpa using Nat.le_of_lt h2)]
      obtain ⟨k, hk⟩ : ∃ k, e.read e.c.gen - pre.length = k + 1 := ⟨e.read e.c.gen - pre.length - 1, by omega⟩
      simp [hk]
    · intro p hp hpush hid
      obtain ⟨q, hq, rfl⟩ := List.mem_map.1 hp
      exact h6 q hq hpush (by rw [hid, h4])
  have uniq : ∀ x, x ∈ e.c.revs t → e.c.revs t = [x] := by
    intro x hx
    match hl : e.c.revs t, hlen, hx with
    | [y], _, hx => simp at hx; rw [hx]
    | [], _, hx => simp at hx
  cases hfa : firstAnswer fr.rid (((e.down e.c.gen).map Prod.fst).take (e.read e.c.gen)) with
  | none =>
    simp only []
    apply Classical.byContradiction
    intro hne
    obtain ⟨x, hx⟩ := List.exists_mem_of_ne_nil _ hne
    cases x with
    | frame f =>
      obtain ⟨g, n, h⟩ := hE.ans t f hx
      obtain ⟨pre, post, h1, h2, h3, h4, h5, h6⟩ := h
      have hg := hA.w.disj g e.c.gen t (List.mem_of_mem_take h5) ht
      subst hg
      rw [first f n ⟨pre, post, h1, h2, h3, h4, h5, h6⟩] at hfa
      cases hfa
    | closed =>
      obtain ⟨f, n, -, h⟩ := hE.clos hup t (.inl ht) hx
      rw [first f n h] at hfa
      cases hfa
  | some f =>
    simp only []
    obtain ⟨hm, hp, hid⟩ := firstAnswer_mem hfa
    rw [← List.map_take] at hm
    obtain ⟨q, hq, rfl⟩ := List.mem_map.1 hm
    have hne : e.c.revs t ≠ [] := by
      rcases hE.lost q (by rw [hrd]; exact hq) hp t ht (by rw [hcf]; exact hresp) (by rw [hcf, hid]) with h | ⟨f', h⟩
      · exact h
      · rw [hrd] at h; cases h
    obtain ⟨x, hx⟩ := List.exists_mem_of_ne_nil _ hne
    rw [uniq x hx]
    cases x with
    | frame f =>
      obtain ⟨g, n, h⟩ := hE.ans t f hx
      obtain ⟨pre, post, h1, h2, h3, h4, h5, h6⟩ := h
      have hg := hA.w.disj g e.c.gen t (List.mem_of_mem_take h5) ht
      subst hg
      rw [first f n ⟨pre, post, h1, h2, h3, h4, h5, h6⟩] at hfa
      cases hfa
      simp [hA.g.rst t _ hx]
    | closed =>
      obtain ⟨f, n, h0, h⟩ := hE.clos hup t (.inl ht) hx
      rw [first f n h] at hfa
      cases hfa
      simp [h0]

/-- Two requests (ids 3 and 5) are written in one batch, the server reads both and answers the second one first, the first one twice. -/
def exPeer : List EAct :=
  ([.lGo, .lGo, .lGo, .rGo, .rGo,
    .request 0 false [1], .go 0, .go 0, .go 0, .enq 0,
    .request 1 false [2], .go 1, .go 1, .go 1, .enq 1,
    .wDeq true true, .wDeq true true, .wGo, .wGo, .wWrite 2 true] : List CAct).map .cl ++
  [.sRead 1, .sRead 1, .sSend 1 ⟨5, false, true, false⟩, .sSend 1 ⟨3, false, false, false⟩, .sSend 1 ⟨3, false, false, true⟩,
   .sSend 1 ⟨3, true, false, true⟩, .recv, .cl .rGo, .cl .rGo, .recv, .cl .rGo, .cl .rGo, .recv, .cl .rGo]

/-- The hypotheses of C82 and C83 hold in it, for both requests. -/
example : (eRun cfg2 true exPeer).map (fun e => (e.c.revs 0, e.c.revs 1, e.down 1, e.read 1, e.c.outs 1)) =
    some ([.frame ⟨3, false, false, false⟩], [.closed],
      [(⟨5, false, true, false⟩, 2), (⟨3, false, false, false⟩, 2), (⟨3, false, false, true⟩, 2), (⟨3, true, false, true⟩, 2)], 3, [0, 1]) ∧
    (eRun cfg2 true exPeer).map (fun e => (e.c.rwc, decide (e.c.rd = .read), e.c.gen, e.c.ridGen)) = some (true, true, 1, 2) := by
  constructor <;> rfl

/-- The server cannot answer what it has not read. -/
example : eRun cfg2 true (exPeer.take 21 ++ [.sSend 1 ⟨5, false, false, false⟩]) = none := by rfl

/-! ## C84 Through the transport -/

/-- The bytes `b` on the wire are a frame that a reader with configuration `cfg` returns as `fr`: the documented layout, of an
admitted size, with a payload that decodes to the frame's. -/
def Spec.Encodes (cfg : FrameReaderCfg) (b : Bytes) (fr : Frame) : Prop :=
  ∃ cmd p, b = layout fr.requestID cmd fr.flags p ∧ fr.cmd = UInt32.ofNat (cmd.toNat % 2 ^ 24) ∧ 12 + p.length < 2 ^ 32 ∧
    Admits cfg (12 + p.length) ∧ decodePayload cfg fr.flags p = .ok fr.payload

/-- The same for a list of frames. -/
inductive Spec.EncodesAll (cfg : FrameReaderCfg) : List Bytes → List Frame → Prop where
  | nil : EncodesAll cfg [] []
  | cons {b fr bs fs} : Encodes cfg b fr → EncodesAll cfg bs fs → EncodesAll cfg (b :: bs) (fr :: fs)

theorem encodesAll_length {cfg : FrameReaderCfg} {bs : List Bytes} {fs : List Frame} (h : EncodesAll cfg bs fs) : bs.length = fs.length := by
  induction h with
  | nil => rfl
  | cons _ _ ih => simp [ih]

theorem Spec.Encodes.length_pos {cfg : FrameReaderCfg} {b : Bytes} {fr : Frame} (h : Encodes cfg b fr) : 16 ≤ b.length := by
  obtain ⟨cmd, p, rfl, -⟩ := h
  rw [layout_length]; omega

theorem Spec.Encodes.read {cfg : FrameReaderCfg} {b : Bytes} {fr : Frame} (h : Encodes cfg b fr) (s : Src) (rest : Bytes)
    (hs : srcBytes s = b ++ rest) : ∃ s', readFrame cfg s = (.ok fr, s') ∧ srcBytes s' = rest ∧ srcEnd s' = srcEnd s := by
  obtain ⟨cmd, p, rfl, h2, h3, h4, h5⟩ := h
  obtain ⟨s', e1, e2, e3⟩ := readFrame_layout cfg s _ cmd _ p rest h3 h4 hs
  refine ⟨s', ?_, e1, e2⟩
  rw [e3, h5, ← h2]
  rfl

theorem Spec.Encodes.short {cfg : FrameReaderCfg} {b : Bytes} {fr : Frame} (h : Encodes cfg b fr) (s : Src)
    (hs : srcBytes s <+: b) (hlt : (srcBytes s).length < b.length) : ∃ e, (readFrame cfg s).1 = .error (.read e) := by
  obtain ⟨cmd, p, rfl, h2, h3, h4, h5⟩ := h
  obtain ⟨s', g, e1, -⟩ := readFrame_truncated cfg s _ cmd _ p _ hlt h3 h4 (List.prefix_iff_eq_take.1 hs)
  exact ⟨_, by rw [e1]⟩

/-- Reading what is there of the frames `bs`: nothing but these frames is returned, in order. -/
theorem readN_sound (cfg : FrameReaderCfg) (n : Nat) : ∀ (bs : List Bytes) (fs : List Frame) (s : Src) (got : List Frame),
    EncodesAll cfg bs fs → srcBytes s <+: bs.flatten → (readN cfg n s).1 = .ok got → n ≤ fs.length ∧ got = fs.take n := by
  induction n with
  | zero =>
    intro bs fs s got _ _ h
    simp only [readN, Except.ok.injEq] at h
    exact ⟨Nat.zero_le _, by simp [← h]⟩
  | succ n ih =>
    intro bs fs s got hf hp h
    cases hf with
    | nil =>
      have h0 : srcBytes s = [] := by simpa using hp
      obtain ⟨s', e⟩ := readBytes_error 16 s (by simp [h0])
      simp [readN, readFrame, e] at h
    | @cons b fr bs fs h1 h2 =>
      by_cases hlt : (srcBytes s).length < b.length
      · have hpb : srcBytes s <+: b := List.prefix_of_prefix_length_le hp (by simp) (Nat.le_of_lt hlt)
        obtain ⟨e, he⟩ := h1.short s hpb hlt
        simp only [readN] at h
        split at h
        · simp at h
        · next hr => rw [hr] at he; simp at he
      · have hb : b <+: srcBytes s := List.prefix_of_prefix_length_le (by simp) hp (by omega)
        obtain ⟨rest, hrest⟩ := hb
        obtain ⟨s', e1, e2, -⟩ := h1.read s rest hrest.symm
        simp only [readN, e1] at h
        have hp' : srcBytes s' <+: bs.flatten := by
          rw [e2]
          rw [← hrest, List.flatten_cons, List.prefix_append_right_inj] at hp
          exact hp
        cases hr : readN cfg n s' with
        | mk r s2 =>
          rw [hr] at h
          cases r with
          | error e => simp at h
          | ok gs =>
            simp only [Except.ok.injEq] at h
            obtain ⟨i1, i2⟩ := ih bs fs s' gs h2 hp' (by rw [hr])
            exact ⟨by simp; omega, by rw [← h, i2]; simp⟩

/-- And all bytes of the frames returned are there. -/
theorem readN_taken (cfg : FrameReaderCfg) (n : Nat) : ∀ (bs : List Bytes) (fs : List Frame) (s : Src) (got : List Frame),
    EncodesAll cfg bs fs → srcBytes s <+: bs.flatten → (readN cfg n s).1 = .ok got → (bs.take n).flatten <+: srcBytes s := by
  induction n with
  | zero => intro bs fs s got _ _ _; simp
  | succ n ih =>
    intro bs fs s got hf hp h
    cases hf with
    | nil => simp
    | @cons b fr bs fs h1 h2 =>
      by_cases hlt : (srcBytes s).length < b.length
      · have hpb : srcBytes s <+: b := List.prefix_of_prefix_length_le hp (by simp) (Nat.le_of_lt hlt)
        obtain ⟨e, he⟩ := h1.short s hpb hlt
        simp only [readN] at h
        split at h
        · simp at h
        · next hr => rw [hr] at he; simp at he
      · have hb : b <+: srcBytes s := List.prefix_of_prefix_length_le (by simp) hp (by omega)
        obtain ⟨rest, hrest⟩ := hb
        obtain ⟨s', e1, e2, -⟩ := h1.read s rest hrest.symm
        simp only [readN, e1] at h
        have hp' : srcBytes s' <+: bs.flatten := by
          rw [e2]
          rw [← hrest, List.flatten_cons, List.prefix_append_right_inj] at hp
          exact hp
        cases hr : readN cfg n s' with
        | mk r s2 =>
          rw [hr] at h
          cases r with
          | error e => simp at h
          | ok gs =>
            have := ih bs fs s' gs h2 hp' (by rw [hr])
            rw [e2] at this
            rw [← hrest, List.take_succ_cons, List.flatten_cons, List.prefix_append_right_inj]
            exact this

/-- Reading what is there of the frames `bs`: all complete ones are returned. -/
theorem readN_complete (cfg : FrameReaderCfg) (n : Nat) : ∀ (bs : List Bytes) (fs : List Frame) (s : Src),
    EncodesAll cfg bs fs → (bs.take n).flatten <+: srcBytes s → n ≤ bs.length →
      (readN cfg n s).1 = .ok (fs.take n) := by
  induction n with
  | zero => intro bs fs s _ _ _; simp [readN]
  | succ n ih =>
    intro bs fs s hf hp hn
    cases hf with
    | nil => simp at hn
    | @cons b fr bs fs h1 h2 =>
      simp only [List.take_succ_cons, List.flatten_cons] at hp
      obtain ⟨rest, hrest⟩ := hp
      rw [List.append_assoc] at hrest
      obtain ⟨s', e1, e2, -⟩ := h1.read s _ hrest.symm
      have := ih bs fs s' h2 (by rw [e2]; exact List.prefix_append _ _) (by simpa using hn)
      simp only [readN, e1]
      cases hr : readN cfg n s' with
      | mk r s2 =>
        rw [hr] at this
        simp only at this
        subst this
        simp

theorem forall₂_filterMap {cfg : FrameReaderCfg} (get : Nat → Option Bytes) (fr : Nat → Frame) (ts : List Nat)
    (h : ∀ t ∈ ts, ∃ b, get t = some b ∧ Encodes cfg b (fr t)) : EncodesAll cfg (ts.filterMap get) (ts.map fr) := by
  induction ts with
  | nil => exact .nil
  | cons t ts ih =>
    obtain ⟨b, h1, h2⟩ := h t (by simp)
    rw [List.filterMap_cons, h1]
    exact .cons h2 (ih fun u hu => h u (by simp [hu]))

/-- **C84, client to server.** In every execution of a client connection whose submitted frames are encoded frames `fr t`: whatever
part of what it wrote on a transport connection has arrived (`src`, in any fragmentation, ending in any way), a reader returns
nothing but the frames submitted, in the order of submission, none repeated, and returns all those that have arrived completely. -/
theorem C84_client {c : CConf} {d : Bool} {acts : List CAct} {s : CSt} (hrun : cRun c d acts = some s) (cfg : FrameReaderCfg)
    (fr : Nat → Frame) (henc : ∀ (t : Nat) (f : CFrame), s.frames[t]? = some f → Encodes cfg f.bytes (fr t)) (g : Nat) :
    ∃ ts : List Nat, ts.Pairwise (· < ·) ∧ (∀ t ∈ ts, t < s.frames.length) ∧
      ∀ src : Src, srcBytes src <+: s.wires g →
        (∀ n got, (readN cfg n src).1 = .ok got → n ≤ ts.length ∧ got = (ts.take n).map fr) ∧
        (∀ n, n ≤ ts.length → Spec.frames s.frames (ts.take n) <+: srcBytes src → (readN cfg n src).1 = .ok ((ts.take n).map fr)) := by
  obtain ⟨ts, h1, h2, h3, -⟩ := C21_client hrun g
  have hall : ∀ us : List Nat, (∀ t ∈ us, t ∈ ts) →
      EncodesAll cfg (us.filterMap fun t => (s.frames[t]?).map (·.bytes)) (us.map fr) := by
    intro us hus
    apply forall₂_filterMap
    intro t ht
    have hl := h2 t (hus t ht)
    exact ⟨s.frames[t].bytes, by simp [List.getElem?_eq_getElem hl], henc t _ (List.getElem?_eq_getElem hl)⟩
  refine ⟨ts, h1, h2, fun src hsrc => ⟨fun n got hg => ?_, fun n hn hp => ?_⟩⟩
  · have := readN_sound cfg n _ _ src got (hall ts fun _ h => h) (hsrc.trans h3) hg
    rw [List.length_map, ← List.map_take] at this
    exact this
  · have hf := hall (ts.take n) fun t ht => List.mem_of_mem_take ht
    have hl : n = ((ts.take n).filterMap fun t => (s.frames[t]?).map (·.bytes)).length := by
      rw [encodesAll_length hf]; simp; omega
    have := readN_complete cfg n _ _ src hf (by
      rw [List.take_of_length_le (Nat.le_of_eq hl.symm)]; exact hp) (Nat.le_of_eq hl)
    rw [this, List.take_of_length_le (by simp; omega)]

/-- **C84, server to client.** The same for the frames submitted on a server connection. -/
theorem C84_server {cap : Nat} {acts : List GAct} {s : GSt} (hrun : gRun cap acts = some s) (cfg : FrameReaderCfg)
    (fr : Nat → Frame) (henc : ∀ (t : Nat) (f : SFrame), s.frames[t]? = some f → Encodes cfg f.bytes (fr t)) :
    ∃ ts : List Nat, ts.Pairwise (· < ·) ∧ (∀ t ∈ ts, t < s.frames.length) ∧
      ∀ src : Src, srcBytes src <+: s.wire →
        (∀ n got, (readN cfg n src).1 = .ok got → n ≤ ts.length ∧ got = (ts.take n).map fr) ∧
        (∀ n, n ≤ ts.length → concat s.frames (ts.take n) <+: srcBytes src → (readN cfg n src).1 = .ok ((ts.take n).map fr)) := by
  obtain ⟨ts, h1, h2, h3, -⟩ := C21 hrun
  have hall : ∀ us : List Nat, (∀ t ∈ us, t ∈ ts) →
      EncodesAll cfg (us.filterMap fun t => (s.frames[t]?).map (·.bytes)) (us.map fr) := by
    intro us hus
    apply forall₂_filterMap
    intro t ht
    have hl := h2 t (hus t ht)
    exact ⟨s.frames[t].bytes, by simp [List.getElem?_eq_getElem hl], henc t _ (List.getElem?_eq_getElem hl)⟩
  refine ⟨ts, h1, h2, fun src hsrc => ⟨fun n got hg => ?_, fun n hn hp => ?_⟩⟩
  · have := readN_sound cfg n _ _ src got (hall ts fun _ h => h) (hsrc.trans h3) hg
    rw [List.length_map, ← List.map_take] at this
    exact this
  · have hf := hall (ts.take n) fun t ht => List.mem_of_mem_take ht
    have hl : n = ((ts.take n).filterMap fun t => (s.frames[t]?).map (·.bytes)).length := by
      rw [encodesAll_length hf]; simp; omega
    have := readN_complete cfg n _ _ src hf (by
      rw [List.take_of_length_le (Nat.le_of_eq hl.symm)]; exact hp) (Nat.le_of_eq hl)
    rw [this, List.take_of_length_le (by simp; omega)]

/-- **C84, what writers submit** is an encoded frame: without the codec flag for any reader, ... -/
theorem C84_encodes {ε} (codec : Option Codec) (write : DFW → Option ε) (d : DFW) (hd : d.Clean) (u : UFrame) (sub : DFW)
    (hsub : ((u.chunks.foldl DFW.writeBytes (d.startWrite u.id u.cmd u.flags)).endWrite codec write).submitted = some sub)
    (hc : u.wantsCodec = false) (cfg : FrameReaderCfg) (hsize : 12 + u.payload.length < 2 ^ 32) (hadm : Admits cfg (12 + u.payload.length)) :
    Encodes cfg sub.wbuf u.expected := by
  have hlen : 16 ≤ d.wbuf.length := by unfold DFW.Clean at hd; omega
  obtain ⟨f, p, h1, h2⟩ := C02_layout codec write d hlen u sub hsub
  obtain ⟨rfl, rfl⟩ := h2 hc
  rw [hd.payload_nil, List.nil_append] at h1
  refine ⟨u.cmd, u.payload, h1, rfl, hsize, hadm, ?_⟩
  have hcu : FrameFlag.isCodec u.flags = false := by rw [isCodec_testBit]; exact hc
  simp only [UFrame.expected, decodePayload]
  split
  · next hp => rw [hp]
  · simp [hcu]

/-- ... and with it for a reader with the same lossless codec (see C08 for the hypotheses on the codec). -/
theorem C84_encodes_codec {ε} (c : Codec) (hl : c.Lossless) (hne : ∀ p e, p ≠ [] → (c.encode p).2 = some e → e ≠ [])
    (hpure : ∀ p e, (c.encode p).2 = some e → p.length < e.length → (c.encode p).1 = p) (mx : Int)
    (write : DFW → Option ε) (d : DFW) (hd : d.Clean) (u : UFrame) (sub : DFW)
    (hsub : ((u.chunks.foldl DFW.writeBytes (d.startWrite u.id u.cmd u.flags)).endWrite (some c) write).submitted = some sub)
    (hok : u.wantsCodec = true → u.payload ≠ [] → (c.encode u.payload).2.isSome)
    (hsize : 12 + u.payload.length < 2 ^ 32) (hadm : Admits ⟨mx, some c⟩ (12 + u.payload.length)) :
    ∃ f', FrameFlag.toNonCodec f' = FrameFlag.toNonCodec u.flags ∧ Encodes ⟨mx, some c⟩ sub.wbuf { u.expected with flags := f' } := by
  have hlen : 16 ≤ d.wbuf.length := by unfold DFW.Clean at hd; omega
  obtain ⟨h1, h2⟩ := foldl_writeBytes (DFW.startWrite_holds d u.id u.cmd u.flags hlen) u.chunks
  rw [DFW.startWrite_payload d _ _ _ hlen, hd.payload_nil, List.nil_append] at h2
  change _ = u.payload at h2
  obtain ⟨f', p', s1, s2, s3, s4, -, -⟩ := sentAs_decode c hl hne hpure mx u.flags u.payload
    (fun h => hok (by rw [isCodec_testBit] at h; exact h))
  obtain ⟨sub', e1, e2, _⟩ := endWrite_ok h1 (some c) write (by rw [h2]; exact s1)
  rw [e1] at hsub
  cases hsub
  refine ⟨f', s4, u.cmd, p', e2, rfl, by omega, ?_, s3⟩
  rcases hadm with h | h
  · exact .inl h
  · exact .inr (by omega)

/-- A request with payload [7] and one with payload [8, 9], submitted in one batch. -/
def exLayouts : List CAct :=
  [.lGo, .lGo, .lGo, .request 0 false (layout 3 1 8 [7]), .go 0, .go 0, .go 0, .enq 0,
   .request 1 false (layout 5 2 0 [8, 9]), .go 1, .go 1, .go 1, .enq 1,
   .wDeq true true, .wDeq true true, .wGo, .wGo, .wWrite 35 true]

/-- The hypotheses of C84 hold for it, ... -/
example : (cRun cfg2 true exLayouts).map (fun s => (s.frames.map fun f => (f.rid, f.bytes), s.outs 1)) =
      some ([(3, layout 3 1 8 [7]), (5, layout 5 2 0 [8, 9])], [0, 1]) ∧
    Encodes ⟨100, none⟩ (layout 3 1 8 [7]) ⟨3, 8, 1, [7]⟩ ∧ Encodes ⟨100, none⟩ (layout 5 2 0 [8, 9]) ⟨5, 0, 2, [8, 9]⟩ :=
  ⟨by decide +kernel, ⟨1, [7], rfl, by decide, by decide, .inr (by decide), rfl⟩,
    ⟨2, [8, 9], rfl, by decide, by decide, .inr (by decide), rfl⟩⟩

end Qrpc
