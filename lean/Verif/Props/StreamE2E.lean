import Verif.Props.Push
import Verif.Props.ServeWire
/-! # Property C93: the frames of a stream, from the writer at one end to the reader of the stream at the other

The write path (`Model/Client.lean`, `Model/ServeWrite.lean`), the bytes in between, the frame reader (`Model/FrameReader.lean`) and
the streams (`Model/Stream.lean`) of the other side. -/
namespace Qrpc
open Spec

/-- The user at the receiving end has got exactly the frames `fs` for key `K`, in this order: the first one from `ReadFrame` (as
request, response or push), the others from `FrameCh` of the same stream. -/
def Spec.HandedOver (t : SSt) (K : SKey) (fs : List Frame) : Prop :=
  (fs = [] ∧ ∀ r, (t.str r).key = K → outs r t.log = []) ∨
  ∃ r first rest, fs = first :: rest ∧ (t.str r).key = K ∧ outs r t.log = (true, first) :: rest.map (fun f => (false, f)) ∧
    ∀ r', r' ≠ r → (t.str r').key = K → outs r' t.log = []

/-- The receiving end of a transport connection that took the bytes `wire`: some of them have arrived, cut into pieces in some way;
the frame reader has returned frames, which were given to the streams, with result `t`; the connection is not being torn down.
`whole`: everything has arrived, and the frame reader has read until there was no further frame. -/
structure Spec.Receives (cfg : FrameReaderCfg) (wire : Bytes) (t : SSt) (whole : Prop) : Prop where
  data : ∃ (src : Src) (n : Nat) (sacts : List SAct), srcBytes src <+: wire ∧ (readN cfg n src).1 = .ok t.recv ∧
    sRun SSt.init sacts = some t ∧ (whole → srcBytes src = wire ∧ ∃ err, (readN cfg (n + 1) src).1 = .error err)
  live : t.connCancelled = false

/-- What is read are the first of the frames written; all that were taken completely, if everything has arrived. -/
theorem arrived {cfg : FrameReaderCfg} {bytes : Nat → Option Bytes} {fr : Nat → Frame} {ts : List Nat}
    (henc : ∀ t ∈ ts, ∃ b, bytes t = some b ∧ Encodes cfg b (fr t)) {wire : Bytes} (hw : wire <+: (ts.filterMap bytes).flatten)
    {src : Src} {n : Nat} {got : List Frame} (hsrc : srcBytes src <+: wire) (hread : (readN cfg n src).1 = .ok got) :
    got = (ts.take n).map fr ∧ ∀ err, srcBytes src = wire → (readN cfg (n + 1) src).1 = .error err →
      ∀ pre k post, ts = pre ++ k :: post → ((pre ++ [k]).filterMap bytes).flatten <+: wire → k ∈ ts.take n := by
  have hall : EncodesAll cfg (ts.filterMap bytes) (ts.map fr) := forall₂_filterMap _ _ _ henc
  refine ⟨by rw [List.map_take]; exact (readN_sound cfg n _ _ src got hall (hsrc.trans hw) hread).2, ?_⟩
  intro err hs hend pre k post e1 e2
  have htk : ts.take (pre.length + 1) = pre ++ [k] := by
    rw [e1, List.take_append, List.take_of_length_le (by omega)]; simp
  have hlen : pre.length + 1 ≤ ts.length := by rw [e1]; simp
  have hall' : EncodesAll cfg ((ts.take (pre.length + 1)).filterMap bytes) ((ts.take (pre.length + 1)).map fr) :=
    forall₂_filterMap _ _ _ fun t ht => henc t (List.mem_of_mem_take ht)
  have hl' := encodesAll_length hall'
  simp only [List.length_map, List.length_take, Nat.min_eq_left hlen] at hl'
  have hok := readN_complete cfg (pre.length + 1) _ _ src hall'
    (by rw [List.take_of_length_le (by omega), htk, hs]; exact e2) (by omega)
  have hn : pre.length + 1 ≤ n := by
    apply Classical.byContradiction
    intro hlt
    obtain ⟨got', h⟩ := readN_le cfg _ (n + 1) src _ hok (by omega)
    rw [h] at hend
    cases hend
  exact (List.take_subset_take_left _ hn) (by rw [htk]; simp)

theorem WellFormed.sublist {l l' : List Frame} (h : WellFormed l) (hs : l'.Sublist l) : WellFormed l' := by
  refine ⟨fun f hf => h.1 f (hs.mem hf), ?_⟩
  have : l'.dropLast.Sublist l.dropLast := by
    rcases List.eq_nil_or_concat l' with rfl | ⟨a, x, rfl⟩
    · simp
    · rcases List.eq_nil_or_concat l with rfl | ⟨b, y, rfl⟩
      · simp at hs
      · simp only [List.concat_eq_append, List.dropLast_concat] at hs ⊢
        rw [List.sublist_append_iff] at hs
        obtain ⟨l1, l2, e, s1, s2⟩ := hs
        rcases List.eq_nil_or_concat l2 with rfl | ⟨c, z, rfl⟩
        · rw [List.append_nil] at e
          rw [← e] at s1
          exact (List.sublist_append_left _ _).trans s1
        · have hc : c = [] := by
            have := s2.length_le
            simp at this
            exact this
          subst hc
          have := List.append_inj' e (by simp)
          rw [this.1]
          exact s1
  exact fun f hf => h.2 f (this.mem hf)

theorem handed_over {t : SSt} {sacts : List SAct} (hrun : sRun SSt.init sacts = some t) (hcc : t.connCancelled = false) (K : SKey)
    (hwf : WellFormed (received t K)) : ∃ fs, HandedOver t K fs ∧ fs ++ inHand t K = received t K := by
  rcases C11_in_order_exactly_once hrun hcc K hwf with ⟨h1, h2⟩ | ⟨r, first, rest, h1, h2, h3, h4⟩
  · exact ⟨[], .inl ⟨rfl, h2⟩, by rw [List.nil_append, h1]⟩
  · exact ⟨first :: rest, .inr ⟨r, first, rest, rfl, h1, h2, h4⟩, h3.symm⟩

/-- Nothing follows the end of a well-formed stream. -/
theorem WellFormed.ended {fr : Nat → Frame} {us l : List Nat} (h : WellFormed (l.map fr)) (hp : us <+: l)
    (hd : ∃ f ∈ us.map fr, FrameFlag.isDone f.flags = true) : us = l := by
  obtain ⟨f, hf, hd⟩ := hd
  obtain ⟨post, rfl⟩ := hp
  rcases List.eq_nil_or_concat post with rfl | ⟨p, x, rfl⟩
  · rw [List.append_nil]
  · have := h.2 f (by
      rw [List.concat_eq_append, ← List.append_assoc, List.map_append, List.map_singleton, List.dropLast_concat, List.map_append]
      exact List.mem_append_left _ hf)
    rw [hd] at this
    cases this

/-- The frames of one key, from the tickets given to a transport connection to the user at the other end. -/
theorem stream_core {cfg : FrameReaderCfg} {bytes : Nat → Option Bytes} {fr : Nat → Frame} {ts : List Nat} {N : Nat}
    (hpw : ts.Pairwise (· < ·)) (hlt : ∀ t ∈ ts, t < N)
    (henc : ∀ t ∈ ts, ∃ b, bytes t = some b ∧ Encodes cfg b (fr t)) {wire : Bytes} (hw : wire <+: (ts.filterMap bytes).flatten)
    {K : SKey} (hwf : WellFormed (((List.range N).map fr).filter fun f => decide (f.key = K)))
    {t : SSt} {whole : Prop} (hr : Receives cfg wire t whole) :
    ∃ fs us, HandedOver t K fs ∧ fs ++ inHand t K = us.map fr ∧ us <+: ts.filter (fun k => decide ((fr k).key = K)) ∧
      ((∃ f ∈ fs ++ inHand t K, FrameFlag.isDone f.flags = true) → us = ts.filter fun k => decide ((fr k).key = K)) ∧
      (whole → ∀ pre k post, ts = pre ++ k :: post → ((pre ++ [k]).filterMap bytes).flatten <+: wire → (fr k).key = K → k ∈ us) := by
  obtain ⟨⟨src, n, sacts, h1, h2, h3, h4⟩, hcc⟩ := hr
  obtain ⟨k1, k2⟩ := arrived henc hw h1 h2
  have hrec : received t K = ((ts.take n).filter fun k => decide ((fr k).key = K)).map fr := by
    rw [received, k1, List.filter_map]; rfl
  have hsub : ts.Sublist (List.range N) := by
    clear k1 k2 hrec henc hw hwf
    induction N generalizing ts with
    | zero =>
      cases ts with
      | nil => simp
      | cons a ts => exact absurd (hlt a (by simp)) (by omega)
    | succ N ih =>
      rw [List.range_succ]
      rcases List.eq_nil_or_concat ts with rfl | ⟨us, x, rfl⟩
      · simp
      · rw [List.concat_eq_append] at hpw hlt ⊢
        obtain ⟨p1, -, p3⟩ := List.pairwise_append.1 hpw
        have hx := hlt x (by simp)
        have hus : ∀ t ∈ us, t < x := fun t ht => p3 t ht x (by simp)
        by_cases hxN : x = N
        · subst hxN
          exact List.Sublist.append (ih p1 hus) (List.Sublist.refl _)
        · refine List.Sublist.trans ?_ (List.sublist_append_left _ _)
          refine ih hpw ?_ 
          intro t ht
          rcases List.mem_append.1 ht with ht | ht
          · have := hus t ht; omega
          · simp at ht; omega
  have hwf0 : WellFormed ((ts.filter fun k => decide ((fr k).key = K)).map fr) := by
    refine WellFormed.sublist hwf ?_
    rw [List.filter_map]
    exact (hsub.filter _).map fr
  have hwf' : WellFormed (received t K) := by
    refine WellFormed.sublist hwf0 ?_
    rw [hrec]
    exact ((List.take_sublist n ts).filter _).map fr
  obtain ⟨fs, e1, e2⟩ := handed_over h3 hcc K hwf'
  refine ⟨fs, _, e1, e2.trans hrec, (List.take_prefix n ts).filter _,
    fun hd => WellFormed.ended hwf0 ((List.take_prefix n ts).filter _) (by rw [← hrec, ← e2]; exact hd), ?_⟩
  intro hwh pre k post q1 q2 q3
  obtain ⟨w1, err, w2⟩ := h4 hwh
  exact List.mem_filter.2 ⟨k2 err w1 w2 pre k post q1 q2, by simpa using q3⟩

/-- **C93, client to server.** In every execution of a client connection with submitted frames `fr t` there are lists `outs g` of the
submissions given to transport connection `g` - in order of submission; a write returned nil just in case one of them took all
bytes of its frame -, such that for every stream `K` whose submitted frames are well formed (no reset, nothing after the end), and
whatever has arrived at the server of connection `g`, in whatever pieces: the handler has got the first frames of those of `K` in
`outs g`, in this order, none missing or repeated, up to the one (`inHand`) the reader is about to hand over; and once everything
has arrived, all that were taken completely. -/
theorem C93_client {c : CConf} {d : Bool} {acts : List CAct} {s : CSt} (hrun : cRun c d acts = some s) (cfg : Nat → FrameReaderCfg)
    (fr : Nat → Frame) (henc : ∀ (g t : Nat) (f : CFrame), s.frames[t]? = some f → Encodes (cfg g) f.bytes (fr t)) :
    ∃ outs : Nat → List Nat, (∀ g, (outs g).Pairwise (· < ·)) ∧ (∀ g, ∀ t ∈ outs g, t < s.frames.length) ∧ (∀ t r, (t, r) ∈ s.rets → (r = .ok ↔ Took s.frames outs s.wires t)) ∧
      ∀ (g : Nat) (K : SKey) (t : SSt) (whole : Prop),
        WellFormed (((List.range s.frames.length).map fr).filter fun f => decide (f.key = K)) → Receives (cfg g) (s.wires g) t whole →
        ∃ fs us, HandedOver t K fs ∧ fs ++ inHand t K = us.map fr ∧ us <+: (outs g).filter (fun k => decide ((fr k).key = K)) ∧
          ((∃ f ∈ fs ++ inHand t K, FrameFlag.isDone f.flags = true) → us = (outs g).filter fun k => decide ((fr k).key = K)) ∧
          (whole → ∀ pre k post, outs g = pre ++ k :: post → Spec.frames s.frames (pre ++ [k]) <+: s.wires g → (fr k).key = K → k ∈ us) := by
  have hW := CInvW.reach hrun
  have hA := (CInv.reach hrun).a
  have hlt : ∀ g, ∀ t ∈ s.outs g, t < s.frames.length := fun g t ht => Nat.lt_of_lt_of_le (hW.lt g t ht) hA.deq
  refine ⟨s.outs, hW.sorted, hlt, fun t r ht => ?_, fun g K t whole hwf hr => ?_⟩
  · rw [took_iff hA hW]
    constructor
    · rintro rfl
      exact hW.okRets t ht
    · rintro ⟨g, hd⟩
      apply Classical.byContradiction
      intro hne
      exact (CInvX.reach hrun).rets t r ht hne g hd
  · have hpre : s.wires g <+: ((s.outs g).filterMap fun t => (s.frames[t]?).map (·.bytes)).flatten := by
      have := hW.pre g
      rw [cflat_eq_frames (hlt g)] at this
      exact this
    exact stream_core (hW.sorted g) (hlt g)
      (fun t ht => ⟨s.frames[t]'(hlt g t ht) |>.bytes, by simp [List.getElem?_eq_getElem (hlt g t ht)],
        henc g t _ (List.getElem?_eq_getElem (hlt g t ht))⟩) hpre hwf hr

/-- **C93, server to client.** The same for the frames submitted on a server connection (responses, pushes, requests): `ts` are those
given to the transport; a write returned nil just in case the transport took all its bytes. -/
theorem C93_server {cap : Nat} {acts : List GAct} {s : GSt} (hrun : gRun cap acts = some s) (cfg : FrameReaderCfg)
    (fr : Nat → Frame) (henc : ∀ (t : Nat) (f : SFrame), s.frames[t]? = some f → Encodes cfg f.bytes (fr t)) :
    ∃ ts : List Nat, ts.Pairwise (· < ·) ∧ (∀ t ∈ ts, t < s.frames.length) ∧
      (∀ t r, (t, r) ∈ s.rets → (r = .ok ↔ ∃ pre post, ts = pre ++ t :: post ∧ concat s.frames (pre ++ [t]) <+: s.wire)) ∧
      ∀ (K : SKey) (t : SSt) (whole : Prop),
        WellFormed (((List.range s.frames.length).map fr).filter fun f => decide (f.key = K)) → Receives cfg s.wire t whole →
        ∃ fs us, HandedOver t K fs ∧ fs ++ inHand t K = us.map fr ∧ us <+: ts.filter (fun k => decide ((fr k).key = K)) ∧
          ((∃ f ∈ fs ++ inHand t K, FrameFlag.isDone f.flags = true) → us = ts.filter fun k => decide ((fr k).key = K)) ∧
          (whole → ∀ k, (k, SRes.ok) ∈ s.rets → (fr k).key = K → k ∈ us) := by
  have hI := GInv.reach hrun
  have hpre : s.wire <+: concat s.frames s.sent := by
    rw [← flatOf_eq_concat hI.sentLt, hI.d.wire]; exact List.take_prefix _ _
  have hrets := sent_rets hrun
  refine ⟨s.sent, hI.d.sorted, hI.sentLt, hrets, fun K t whole hwf hr => ?_⟩
  obtain ⟨fs, us, h1, h2, h3, h3', h4⟩ := stream_core hI.d.sorted hI.sentLt
    (fun t ht => ⟨s.frames[t]'(hI.sentLt t ht) |>.bytes, by simp [List.getElem?_eq_getElem (hI.sentLt t ht)],
        henc t _ (List.getElem?_eq_getElem (hI.sentLt t ht))⟩) hpre hwf hr
  refine ⟨fs, us, h1, h2, h3, h3', fun hwh k hk hkey => ?_⟩
  obtain ⟨pre, post, e1, e2⟩ := (hrets k _ hk).1 rfl
  exact h4 hwh pre k post e1 e2 hkey

/-- Three frames of a stream and a push with the same id, each submitted by a goroutine of its own and written together; ... -/
def exE2E : List GAct :=
  [.call 0 ⟨layout 7 1 StreamFlag [1], true, false, false, false⟩, .call 1 ⟨layout 7 2 PushFlag [9], false, false, true, false⟩,
   .call 2 ⟨layout 7 1 StreamFlag [2], false, false, false, false⟩,
   .call 3 ⟨layout 7 1 (StreamFlag ||| StreamEndFlag) [3], false, false, false, false⟩,
   .enq 0, .enq 1, .enq 2, .enq 3, .lock 0, .go 0, .go 0, .deq 0 true true, .deq 0 true true, .deq 0 true true, .deq 0 true true,
   .go 0, .go 0, .write 0 68 true, .go 0, .go 0, .go 0, .go 0, .go 0, .go 0, .go 0, .recv 1, .recv 2, .recv 3]

def exE2EFrame (t : Nat) : Frame :=
  match t with
  | 0 => ⟨7, StreamFlag, 1, [1]⟩
  | 1 => ⟨7, PushFlag, 2, [9]⟩
  | 2 => ⟨7, StreamFlag, 1, [2]⟩
  | _ => ⟨7, StreamFlag ||| StreamEndFlag, 1, [3]⟩

def exE2EWire : Bytes :=
  layout 7 1 StreamFlag [1] ++ layout 7 2 PushFlag [9] ++ layout 7 1 StreamFlag [2] ++ layout 7 1 (StreamFlag ||| StreamEndFlag) [3]

def exE2ESrc : Src := ⟨[], [.data (exE2EWire.take 5), .data (exE2EWire.drop 5)]⟩

/-- ... the frames are encoded by their bytes, those of the stream and those of the push are well formed, the other side reads all
four frames and nothing more, and its streams take them: all hypotheses of C93_server hold, and the user gets 1, 2, 3. -/
example : (gRun 4 exE2E).map (fun s => (s.frames.map (·.bytes), s.wire, s.sent, s.rets)) =
      some ([layout 7 1 StreamFlag [1], layout 7 2 PushFlag [9], layout 7 1 StreamFlag [2],
        layout 7 1 (StreamFlag ||| StreamEndFlag) [3]], exE2EWire, [0, 1, 2, 3], [(1, .ok), (2, .ok), (3, .ok)]) ∧
    srcBytes exE2ESrc = exE2EWire ∧ okFrames (readN ⟨0, none⟩ 4 exE2ESrc).1 = some ((List.range 4).map exE2EFrame) ∧
    okFrames (readN ⟨0, none⟩ 5 exE2ESrc).1 = none ∧
    (sRun SSt.init exStreamActs).map (fun t => (t.recv, t.connCancelled, inHand t (7, false),
        (outs 0 t.log).map fun x => (x.1, x.2.payload))) =
      some ((List.range 4).map exE2EFrame, false, [], [(true, [1]), (false, [2]), (false, [3])]) := by
  refine ⟨by decide +kernel, by decide +kernel, by decide +kernel, by decide +kernel, by rfl⟩

example : (∀ K ∈ [((7, false) : SKey), (7, true)],
      WellFormed (((List.range 4).map exE2EFrame).filter fun f => decide (f.key = K))) ∧
    ∀ t, t < 4 → ∃ b, [layout 7 1 StreamFlag [1], layout 7 2 PushFlag [9], layout 7 1 StreamFlag [2],
      layout 7 1 (StreamFlag ||| StreamEndFlag) [3]][t]? = some b ∧ Encodes ⟨0, none⟩ b (exE2EFrame t) := by
  refine ⟨by unfold WellFormed; decide +kernel, fun t ht => ?_⟩
  rcases t with _ | _ | _ | _ | t
  · exact ⟨_, rfl, 1, [1], rfl, by decide, by decide, .inl (by decide), rfl⟩
  · exact ⟨_, rfl, 2, [9], rfl, by decide, by decide, .inl (by decide), rfl⟩
  · exact ⟨_, rfl, 1, [2], rfl, by decide, by decide, .inl (by decide), rfl⟩
  · exact ⟨_, rfl, 1, [3], rfl, by decide, by decide, .inl (by decide), rfl⟩
  · omega

/-- With 40 bytes arrived, it is the first frame and the push, and the next cannot be read yet. -/
example : okFrames (readN ⟨0, none⟩ 2 ⟨[], [.data (exE2EWire.take 40)]⟩).1 = some ((List.range 2).map exE2EFrame) ∧
    okFrames (readN ⟨0, none⟩ 3 ⟨[], [.data (exE2EWire.take 40)]⟩).1 = none ∧
    (sRun SSt.init (exStreamActs.take 13)).map (fun t => (t.recv, inHand t (7, false), (outs 0 t.log).map fun x => (x.1, x.2.payload))) =
      some ((List.range 2).map exE2EFrame, [], [(true, [1])]) := by
  refine ⟨by decide +kernel, by decide +kernel, by decide +kernel⟩

/-- The same frames from a client that opens the stream with its first request. -/
def exE2EClient : List CAct :=
  [.lGo, .lGo, .lGo, .request 0 false (layout 3 1 StreamFlag [1]), .go 0, .go 0, .go 0, .enq 0, .wDeq true true, .wGo, .wGo,
   .wWrite 17 true, .wGo, .wGo, .recv 0,
   .send 0 ⟨3, layout 3 1 (StreamFlag ||| StreamEndFlag) [2, 3], false, false, false, false⟩, .go 0, .enq 0, .wDeq true true, .wGo,
   .wGo, .wWrite 18 true, .wGo, .wGo, .recv 0]

example : (cRun cfg2 true exE2EClient).map (fun s => (s.frames.map fun f => (f.rid, f.bytes), s.outs 1, s.wires 1, s.rets)) =
    some ([(3, layout 3 1 StreamFlag [1]), (3, layout 3 1 (StreamFlag ||| StreamEndFlag) [2, 3])], [0, 1],
      layout 3 1 StreamFlag [1] ++ layout 3 1 (StreamFlag ||| StreamEndFlag) [2, 3], [(0, .ok), (1, .ok)]) := by rfl

end Qrpc
