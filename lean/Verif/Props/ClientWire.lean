import Verif.Props.Client
import Verif.Lemmas.ClientW
/-! # What a client connection gives to its transport: C21, C22 (client side), C25 (progress), C80 -/
namespace Qrpc

/-! ## Specification -/

/-- The bytes of the frames submitted under the given numbers, one frame after the other. -/
def Spec.frames (fs : List CFrame) (ts : List Nat) : Bytes := (ts.filterMap fun t => (fs[t]?).map (·.bytes)).flatten

theorem cflat_eq_frames {fs : List CFrame} {ts : List Nat} (h : ∀ t ∈ ts, t < fs.length) : cflat fs ts = Spec.frames fs ts := by
  induction ts with
  | nil => rfl
  | cons t ts ih =>
    have ht := h t (by simp)
    have := ih (fun u hu => h u (by simp [hu]))
    simp only [cflat, Spec.frames] at this ⊢
    simp only [List.map_cons, List.flatten_cons, this, List.filterMap_cons, List.getElem?_eq_getElem ht, Option.map_some]
    simp [cframeOf, List.getD, List.getElem?_eq_getElem ht]

/-! ## C21 Frames are not interleaved and keep submission order -/

/-- **C21, client.** On each of the successive transport connections (number `g`) there is a strictly increasing list `ts` of
submission numbers such that the bytes given to the transport are the frames `ts`, whole, one after the other. Only when a write
failed - the writer goroutine of this connection is ending or has ended - may the tail be missing. -/
theorem C21_client {c : CConf} {d : Bool} {acts : List CAct} {s : CSt} (hrun : cRun c d acts = some s) (g : Nat) :
    ∃ ts : List Nat, ts.Pairwise (· < ·) ∧ (∀ t ∈ ts, t < s.frames.length) ∧ s.wires g <+: Spec.frames s.frames ts ∧
      (g = s.gen → s.wr = .first → s.wires g = Spec.frames s.frames ts) := by
  have hW := CInvW.reach hrun
  have hlt : ∀ t ∈ s.outs g, t < s.frames.length := fun t ht => Nat.lt_of_lt_of_le (hW.lt g t ht) (CInv.reach hrun).a.deq
  refine ⟨s.outs g, hW.sorted g, hlt, ?_, ?_⟩
  · rw [← cflat_eq_frames hlt]; exact hW.pre g
  · rintro rfl hw
    rw [← cflat_eq_frames hlt]; exact hW.whole (by simp [hw, CWr.whole])

/-! ## C22 Success means transmitted -/

/-- **C22, client (transports honouring the `net.Conn` contract).** If a write on a client connection returned nil and the frame had
to be sent, all its bytes were taken, contiguously, by one transport connection. -/
theorem C22_client_partial {c : CConf} {d : Bool} {acts : List CAct} {s : CSt} (hrun : cRun c d acts = some s) {t : Nat}
    (ht : (t, CRes.ok) ∈ s.rets) : ∃ f g, s.frames[t]? = some f ∧ f.bytes ≠ [] ∧ f.bytes <:+: s.wires g := by
  have hW := CInvW.reach hrun
  obtain ⟨g, pre, post, h1, h2⟩ := hW.okRets t ht
  have htl : t < s.frames.length := Nat.lt_of_lt_of_le (hW.lt g t (by simp [h1])) (CInv.reach hrun).a.deq
  refine ⟨s.frames[t], g, List.getElem?_eq_getElem htl, hW.bytes _ (List.getElem_mem htl), ?_⟩
  have hp : cflat s.frames (pre ++ [t]) <+: cflat s.frames (s.outs g) := by
    rw [h1, show pre ++ t :: post = (pre ++ [t]) ++ post by simp, cflat_append _ (pre ++ [t]) post]
    exact List.prefix_append _ _
  have hq : cflat s.frames (pre ++ [t]) <+: s.wires g := List.prefix_of_prefix_length_le hp (hW.pre g) h2
  rw [cflat_append] at hq
  have : cflat s.frames [t] = s.frames[t].bytes := by simp [cflat, cframeOf, List.getD, List.getElem?_eq_getElem htl]
  rw [this] at hq
  exact (List.suffix_append _ _).isInfix.trans hq.isInfix

/-! ## C80 A frame is transmitted at most once -/

/-- **C80.** Over all transport connections of a client connection together, every submitted frame is given to the transport at most
once - a reconnect never repeats a request -, frames of an earlier connection were submitted before those of a later one, and what
the transport took is made of these frames only. -/
theorem C80 {c : CConf} {d : Bool} {acts : List CAct} {s : CSt} (hrun : cRun c d acts = some s) :
    ∃ outs : Nat → List Nat, (∀ g, (outs g).Pairwise (· < ·)) ∧ (∀ g, s.wires g <+: Spec.frames s.frames (outs g)) ∧
      (∀ g g' t t', g < g' → t ∈ outs g → t' ∈ outs g' → t < t') ∧
      (∀ g g' t, t ∈ outs g → t ∈ outs g' → g = g') ∧ (∀ g, s.gen < g → outs g = []) := by
  have hW := CInvW.reach hrun
  refine ⟨s.outs, hW.sorted, fun g => ?_, hW.order, hW.disj, fun g hg => (hW.future g hg).1⟩
  have hlt : ∀ t ∈ s.outs g, t < s.frames.length := fun t ht => Nat.lt_of_lt_of_le (hW.lt g t ht) (CInv.reach hrun).a.deq
  rw [← cflat_eq_frames hlt]
  exact hW.pre g

/-! ## C81 The result of a write tells whether it was transmitted -/

/-- All bytes of the frame submitted under number `t` were taken by one of the transport connections, given the frames that were
given to each of them. -/
def Spec.Took (fs : List CFrame) (outs : Nat → List Nat) (wires : Nat → Bytes) (t : Nat) : Prop :=
  ∃ g pre post, outs g = pre ++ t :: post ∧ Spec.frames fs (pre ++ [t]) <+: wires g

theorem took_iff {s : CSt} (hA : CInvA s) (hW : CInvW s) (t : Nat) :
    Spec.Took s.frames s.outs s.wires t ↔ ∃ g, CDelivered s.frames (s.outs g) (s.wires g).length t := by
  have hlt : ∀ g, ∀ t ∈ s.outs g, t < s.frames.length := fun g t ht => Nat.lt_of_lt_of_le (hW.lt g t ht) hA.deq
  have hsub : ∀ g pre post, s.outs g = pre ++ t :: post → ∀ u ∈ pre ++ [t], u < s.frames.length := by
    intro g pre post h u hu
    apply hlt g
    rw [h]
    simp only [List.mem_append, List.mem_cons, List.not_mem_nil, or_false] at hu ⊢
    grind
  constructor
  · rintro ⟨g, pre, post, h1, h2⟩
    refine ⟨g, pre, post, h1, ?_⟩
    rw [cflat_eq_frames (hsub g pre post h1)]
    exact h2.length_le
  · rintro ⟨g, pre, post, h1, h2⟩
    refine ⟨g, pre, post, h1, ?_⟩
    rw [← cflat_eq_frames (hsub g pre post h1)]
    refine List.prefix_of_prefix_length_le ?_ (hW.pre g) h2
    rw [h1, show pre ++ t :: post = (pre ++ [t]) ++ post by simp, cflat_append _ (pre ++ [t]) post]
    exact List.prefix_append _ _

/-- **C81.** In every execution of a client connection over transports honouring the `net.Conn` contract, a caller that got a result
for its write knows whether it was transmitted: with nil all bytes of the frame were taken by a transport connection, with an error -
or when a reset was not needed - they were not, on none of them, so that the peer never sees the frame. -/
theorem C81 {c : CConf} {d : Bool} {acts : List CAct} {s : CSt} (hrun : cRun c d acts = some s) :
    ∃ outs : Nat → List Nat, (∀ g, (outs g).Pairwise (· < ·)) ∧ (∀ g, s.wires g <+: Spec.frames s.frames (outs g)) ∧
      ∀ t r, (t, r) ∈ s.rets → (r = .ok ↔ Spec.Took s.frames outs s.wires t) := by
  have hW := CInvW.reach hrun
  have hA := (CInv.reach hrun).a
  refine ⟨s.outs, hW.sorted, fun g => ?_, fun t r ht => ?_⟩
  · have hlt : ∀ t ∈ s.outs g, t < s.frames.length := fun t ht => Nat.lt_of_lt_of_le (hW.lt g t ht) hA.deq
    rw [← cflat_eq_frames hlt]
    exact hW.pre g
  · rw [took_iff hA hW]
    constructor
    · rintro rfl
      exact hW.okRets t ht
    · rintro ⟨g, hd⟩
      apply Classical.byContradiction
      intro hr
      exact (CInvX.reach hrun).rets t r ht hr g hd

/-- **C81 is false for a caller that stops waiting**: without reconnect, a caller whose connection is lost is told the context's
error although its frame was transmitted (clientconn.go:409-416: both cases of the `select` are ready). -/
theorem C81_refuted_ctx :
    (cRun cfg2 true [.lGo, .lGo, .lGo, .request 0 false [1, 2], .go 0, .go 0, .go 0, .enq 0, .wDeq true true, .wGo, .wGo,
      .wWrite 2 true, .close, .cancel, .waitDone 0]).map (fun s => (s.pc 0, s.rets, s.wires 1)) =
    some (.idle, [], [1, 2]) := by rfl

/-- Two transport connections: the second frame is cut off by a failing write, the third goes to the second connection. -/
def exTwoWires : List CAct :=
  [.lGo, .lGo, .lGo, .request 0 false [1, 2], .go 0, .go 0, .go 0, .enq 0, .wDeq true true, .wGo, .wGo, .wWrite 2 true, .wGo, .wGo,
   .request 1 false [3, 4], .go 1, .go 1, .go 1, .enq 1, .wDeq true true, .wGo, .wGo, .wWrite 1 false, .wGo, .wGo, .wGo,
   .request 2 false [5, 6], .go 2, .go 2, .go 2, .enq 2,
   .rGo, .lGo, .lGo, .rGo, .rGo, .lGo, .lGo, .lGo, .lGo, .dialOk, .lGo, .wDeq true true, .wGo, .wGo, .wWrite 2 true]

example : (cRun ⟨1, true, 1, false⟩ true exTwoWires).map
    (fun s => ([s.wires 1, s.wires 2], [s.outs 1, s.outs 2], s.slot 0, s.slot 1, s.slot 2)) =
    some ([[1, 2, 3], [5, 6]], [[0, 1], [2]], some .ok, some .transport, none) := by rfl

/-! ## C25 Progress -/

def CWr.phase : CWr → Nat
  | .more n => 2 * n + 5
  | .register => 4
  | .write => 3
  | .dist _ => 2
  | .first => 1
  | .exit => 0
  | .off => 0

/-- Bounds the number of steps the writer makes before write `t` has its result. -/
def CSt.toGo (c : CConf) (s : CSt) (t : Nat) : Nat :=
  (2 * c.cap + 10) * (t + 1 - s.deq) + s.wr.phase + s.batch.length + s.toSend.length

theorem toGo_step {c : CConf} {s s' : CSt} {a : CAct} {t : Nat} (hA : CInvA s) (hY : CInvY s) (hs : cStep c s a = some s')
    (hw : s.wr ≠ .off) (ht : t ∉ s.sends) (hidle : s.loop.running = false → s.wr = .off) :
    s'.wr = .off ∨ s'.toGo c t + (if a.writer then 1 else 0) ≤ s.toGo c t := by
  have hz := fun (ok : Bool) (k : Nat) => Nat.le_trans (Nat.le_of_eq (List.length_zip (l₁ := s.batch)
    (l₂ := (batchResults ok (consume k (s.batch.map fun t => (cframeOf s.frames t).bytes))).map SRes.toC))) (Nat.min_le_left _ _)
  have hf := fun p : Nat → Bool => List.length_filter_le p s.batch
  have hB := hA.noBatch
  have hT := hA.noSend
  have hdq := hA.deq
  have hy := hY t
  have hm : ∀ n, t + 1 - n = t + 1 - (n + 1) + 1 ∨ t + 1 - n = 0 := by intro n; omega
  have hmul : ∀ n, t + 1 - n = t + 1 - (n + 1) + 1 →
      (2 * c.cap + 10) * (t + 1 - n) = (2 * c.cap + 10) * (t + 1 - (n + 1)) + (2 * c.cap + 10) := by
    intro n h; rw [h, Nat.mul_add]; simp
  have hmul0 : ∀ n, t + 1 - n = 0 → (2 * c.cap + 10) * (t + 1 - n) = 0 ∧ (2 * c.cap + 10) * (t + 1 - (n + 1)) = 0 := by
    intro n h
    have : t + 1 - (n + 1) = 0 := by omega
    rw [h, this]; simp
  have hcase : ((2 * c.cap + 10) * (t + 1 - s.deq) = (2 * c.cap + 10) * (t + 1 - (s.deq + 1)) + (2 * c.cap + 10)) ∨
      (t < s.deq ∧ (2 * c.cap + 10) * (t + 1 - s.deq) = 0 ∧ (2 * c.cap + 10) * (t + 1 - (s.deq + 1)) = 0) := by
    rcases hm s.deq with h | h
    · exact .inl (hmul _ h)
    · exact .inr ⟨by omega, hmul0 _ h⟩
  clear hA hY hm hmul hmul0
  cstep_cases hs a
  all_goals simp only [CAct.writer, CSt.toGo, if_true, Bool.false_eq_true, if_false]
  all_goals try first
    | (right; omega)
    | grind [CWr.phase, CWr.collecting, CWr.distributing, CLp.running]

/-- **C25, progress (reconnect).** A write in the queue of a connection with a running writer goroutine gets its result within a
number of steps of the writer that depends on the queue before it and the batch size alone, in every execution and whatever the
others do in between, unless the writer goroutine ends first, because the connection is lost or closed (`pre`: the execution until
then); the writer can always make a step (`C25_writer_runs`), and the write stays in the queue for the next connection
(`C25_not_dropped_partial`). -/
theorem C25_progress {c : CConf} {d : Bool} {acts more : List CAct} {s s' : CSt} (hrun : cRun c d acts = some s)
    (hc : c.reconnect = true) {t : Nat} (ht : t < s.frames.length) (hw : s.wr ≠ .off)
    (hmore : runActs (cStep c) s more = some s')
    (hlen : (2 * c.cap + 10) * (t + 1 - s.deq) + 2 * c.cap + 5 + s.batch.length + s.toSend.length < (more.filter (·.writer)).length) :
    t ∈ s'.sends ∨ ∃ pre post mid, more = pre ++ post ∧ runActs (cStep c) s pre = some mid ∧ mid.wr = .off := by
  have hI := CInv.reach hrun
  have hY := CInvY.reach hc hrun
  have hP : ∀ n, s.wr = .more n → n ≤ c.cap := by
    have : ∀ n, s.wr = .more n → n < c.cap ∨ n = 0 := by
      refine runActs_inv (P := fun s : CSt => ∀ n, s.wr = .more n → n < c.cap ∨ n = 0) ?_ (by simp [CSt.init]) hrun
      intro s a s' h hs
      cstep_cases hs a
      all_goals try simp only []
      all_goals try first
        | assumption
        | grind
    intro n hn
    rcases this n hn with h | h <;> omega
  have hle : s.toGo c t < (more.filter (·.writer)).length := by
    refine Nat.lt_of_le_of_lt ?_ hlen
    have : s.wr.phase ≤ 2 * c.cap + 5 := by
      cases h : s.wr <;> simp only [CWr.phase] <;> try omega
      have := hP _ h
      omega
    simp only [CSt.toGo]
    omega
  clear hlen hP hrun
  induction more generalizing s with
  | nil => simp at hle
  | cons a as ih =>
    by_cases hin : t ∈ s.sends
    · left
      refine runActs_inv (P := fun u : CSt => t ∈ u.sends) ?_ hin hmore
      intro s a s' h hs
      clear ih hmore
      cstep_cases hs a
      all_goals try simp only []
      all_goals try first
        | assumption
        | grind
    · obtain ⟨s1, h1, h2⟩ := runActs_cons_some hmore
      rcases toGo_step hI.a hY h1 hw hin (fun h => (hI.l.idle h).2.1) with hoff | hdec
      · exact .inr ⟨[a], as, s1, rfl, by simp only [runActs, h1], hoff⟩
      · by_cases hoff : s1.wr = .off
        · exact .inr ⟨[a], as, s1, rfl, by simp only [runActs, h1], hoff⟩
        have ht1 : t < s1.frames.length := by
          clear ih hmore hdec
          cstep_cases h1 a
          all_goals try simp only []
          all_goals try first
            | assumption
            | grind
        rcases ih ht1 hoff h2 (hI.step h1) (hY.step hc hI.a h1) (by
            cases ha : a.writer <;> simp [ha] at hdec hle <;> omega) with h | ⟨pre, post, mid, e1, e2, e3⟩
        · exact .inl h
        · exact .inr ⟨a :: pre, post, mid, by simp [e1], by simp only [runActs, h1]; exact e2, e3⟩

/-- **C25, progress**: a running writer goroutine waits only for a frame or the end of the connection. -/
theorem C25_writer_runs {c : CConf} {d : Bool} {acts : List CAct} {s : CSt} (hrun : cRun c d acts = some s) (hw : s.wr ≠ .off)
    (hq : s.wr = .first → s.deq < s.frames.length) : ∃ a s', cStep c s a = some s' ∧ a.writer = true :=
  writer_not_stuck (CInv.reach hrun).a hw hq

example : (cRun ⟨1, true, 1, false⟩ true exTwoWires).map (fun s => (s.sends, s.toGo ⟨1, true, 1, false⟩ 2)) =
    some ([0, 1], 3) := by rfl

end Qrpc
