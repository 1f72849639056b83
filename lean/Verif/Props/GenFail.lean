import Verif.Model.GenFail
import Verif.Props.Codegen
/-!
# C141 A generated call is answered whatever the other calls of its connection return
-/
namespace Qrpc
open Spec

/-- The answers the transport took for call `i`. -/
def Spec.answersTo (i : Nat) (out : List (Nat × Bytes)) : List Bytes := (out.filter (·.1 = i)).map (·.2)

/-- Call `i` succeeds with result `r`: its request decodes, and the method it names returns `r`. -/
def Spec.Succeeds (cf : GfConf) (i : Nat) (r : Bytes) : Prop :=
  ∃ m f, pbUnmarshal cf.stack (cf.req i).payload = .ok m ∧ cf.callback (fqMethod m.ns m.method) = some f ∧ f m.params = .ok r

theorem Succeeds.res {cf : GfConf} {i : Nat} {r : Bytes} (h : Succeeds cf i r) :
    (cf.res i).closed = false ∧ ∃ fr, (cf.res i).frames = [fr] ∧ fr.wbuf = layout (cf.req i).id (cf.req i).cmd 0 r := by
  obtain ⟨m, f, h1, h2, h3⟩ := h
  have := C52_response cf.codec (fun _ => (none : Option Unit)) cf.stack cf.etext cf.errCmd cf.callback DFW.new (by simp [DFW.Clean, DFW.new, headerSize])
    (cf.req i).id (cf.req i).cmd (cf.req i).payload (by simp [h1, PbRes.Proper]) (by
      intro m' f' e1 e2; rw [h1] at e1; cases e1; rw [h2] at e2; cases e2; rw [h3]; simp)
  obtain ⟨-, fr, c, p, e1, e2, -, e3⟩ := this
  obtain ⟨-, e3⟩ := e3 m h1
  obtain ⟨-, -, e3⟩ := e3 f h2
  obtain ⟨rfl, rfl, e4⟩ := e3 r h3
  exact ⟨e4, fr, e1, e2⟩

theorem answersTo_append (i : Nat) (a b : List (Nat × Bytes)) : answersTo i (a ++ b) = answersTo i a ++ answersTo i b := by
  simp [answersTo]

theorem answersTo_self (i : Nat) (l : List DFW) : answersTo i (gfOut i l) = l.map (·.wbuf) := by
  induction l with
  | nil => rfl
  | cons a l ih => simpa [answersTo, gfOut] using ih

theorem answersTo_other {i j : Nat} (h : j ≠ i) (l : List DFW) : answersTo i (gfOut j l) = [] := by
  simp [answersTo, gfOut, List.filter_map, Function.comp_def, h]

/-- The calls' answers, as long as the connection is not closed. -/
structure GfInv (cf : GfConf) (s : GfSt) : Prop where
  none : ∀ i, s.pc i = .none ∨ s.pc i = .run → answersTo i s.out = []
  ans : s.closed = false → ∀ i, s.pc i = .failing ∨ s.pc i = .done → answersTo i s.out = (cf.res i).frames.map (·.wbuf)
  done : s.closed = false → ∀ i, s.pc i = .done → (cf.res i).closed = false
  fail : ∀ i, s.pc i = .failing → (cf.res i).closed = true

theorem GfInv.init (cf : GfConf) : GfInv cf GfSt.init := by
  constructor <;> simp [GfSt.init, answersTo]

theorem GfInv.step {cf : GfConf} {s s' : GfSt} {a : GfAct} (h : GfInv cf s) (hs : gfStep cf s a = some s') : GfInv cf s' := by
  obtain ⟨h1, h2, h3, h4⟩ := h
  cases a <;> simp only [gfStep] at hs
  all_goals (try split at hs)
  all_goals (first | (cases hs; done) | skip)
  all_goals (simp only [Option.some.injEq] at hs; subst hs)
  all_goals constructor
  all_goals grind [setC, answersTo_append, answersTo_self, answersTo_other]

theorem GfInv.reach {cf : GfConf} {acts : List GfAct} {s : GfSt} (h : gfRun cf acts = some s) : GfInv cf s :=
  runActs_inv (P := GfInv cf) (fun _ _ _ h hs => h.step hs) (.init cf) h

/-- **C141**, for calls none of which fails, on a connection that nobody else closes: each call that is done has been answered with its method's result, once, and each other one can still be. -/
theorem C141_partial {cf : GfConf} {acts : List GfAct} {s : GfSt} (h : gfRun cf acts = some s) (hd : .drop ∉ acts) (r : Nat → Bytes)
    (hok : ∀ i, .start i ∈ acts → Succeeds cf i (r i)) :
    s.closed = false ∧ ∀ i, .start i ∈ acts →
      (s.pc i = .done ∧ answersTo i s.out = [layout (cf.req i).id (cf.req i).cmd 0 (r i)]) ∨
      (s.pc i = .run ∧ answersTo i s.out = [] ∧ ∃ s', gfStep cf s (.answer i) = some s' ∧ answersTo i s'.out = [layout (cf.req i).id (cf.req i).cmd 0 (r i)]) := by
  have key : ∀ (acts : List GfAct) (t : GfSt) (s : GfSt), runActs (gfStep cf) t acts = some s → .drop ∉ acts → (∀ i, .start i ∈ acts → Succeeds cf i (r i)) →
      t.closed = false → (∀ i, t.pc i ≠ .none → Succeeds cf i (r i)) → (∀ i, t.pc i ≠ .failing) →
      s.closed = false ∧ (∀ i, s.pc i ≠ .failing) ∧ ∀ i, (.start i ∈ acts ∨ t.pc i ≠ .none) → s.pc i ≠ .none := by
    intro acts
    induction acts with
    | nil => intro t s hr _ _ h1 _ h2; simp only [runActs, Option.some.injEq] at hr; subst hr; exact ⟨h1, h2, by simp⟩
    | cons a acts ih =>
      intro t s hr hd hok h1 h2 h3
      simp only [runActs] at hr
      split at hr
      · cases hr
      · next t' ht =>
        have hres : ∀ i, t.pc i ≠ .none → (cf.res i).closed = false := fun i hi => (Succeeds.res (h2 i hi)).1
        have hd' : .drop ∉ acts := fun hm => hd (by simp [hm])
        have hok' : ∀ i, .start i ∈ acts → Succeeds cf i (r i) := fun i hi => hok i (by simp [hi])
        have hst := hok
        have hx : t'.closed = false ∧ (∀ i, t'.pc i ≠ .none → Succeeds cf i (r i)) ∧ (∀ i, t'.pc i ≠ .failing) ∧
            ∀ i, (a = .start i ∨ t.pc i ≠ .none) → t'.pc i ≠ .none := by
          clear ih hok'
          cases a <;> simp only [gfStep] at ht
          all_goals (try split at ht)
          all_goals (first | (cases ht; done) | skip)
          all_goals (simp only [Option.some.injEq] at ht; subst ht)
          all_goals first
            | (exact absurd (List.mem_cons_self ..) hd)
            | grind [setC]
        obtain ⟨x1, x2, x3, x4⟩ := hx
        obtain ⟨y1, y2, y3⟩ := ih t' s hr hd' hok' x1 x2 x3
        refine ⟨y1, y2, fun i hi => ?_⟩
        rcases hi with hi | hi
        · rcases List.mem_cons.1 hi with hi | hi
          · exact y3 i (.inr (x4 i (.inl hi.symm)))
          · exact y3 i (.inl hi)
        · exact y3 i (.inr (x4 i (.inr hi)))
  obtain ⟨k1, k2, k3⟩ := key acts _ s h hd hok rfl (by simp [GfSt.init]) (by simp [GfSt.init])
  have hI := GfInv.reach h
  refine ⟨k1, fun i hi => ?_⟩
  obtain ⟨e1, fr, e2, e3⟩ := Succeeds.res (hok i hi)
  cases hp : s.pc i with
  | none => exact absurd hp (k3 i (.inl hi))
  | failing => exact absurd hp (k2 i)
  | done => exact .inl ⟨rfl, by rw [hI.ans k1 i (.inr hp), e2, ← e3]; rfl⟩
  | run =>
    have h0 := hI.none i (.inr hp)
    refine .inr ⟨rfl, h0, _, by simp [gfStep, hp, k1]; rfl, ?_⟩
    simp only [answersTo_append, h0, answersTo_self, e2, ← e3]; rfl

/-- Nothing is taken by the transport of a closed connection. -/
theorem gf_closed {cf : GfConf} {acts : List GfAct} {s s' : GfSt} (hc : s.closed = true) (h : runActs (gfStep cf) s acts = some s') :
    s'.closed = true ∧ s'.out = s.out := by
  refine runActs_inv (P := fun t => t.closed = true ∧ t.out = s.out) ?_ ⟨hc, rfl⟩ h
  rintro t a t' ⟨h1, h2⟩ ht
  cases a <;> simp only [gfStep] at ht
  all_goals (try split at ht)
  all_goals (first | (cases ht; done) | skip)
  all_goals (simp only [Option.some.injEq] at ht; subst ht)
  all_goals grind

/-- **C141 is false**: once a call that failed is done, the connection is closed, and no call that was running then or is started later is ever answered, whatever its method returns. -/
theorem C141_refuted {cf : GfConf} {acts : List GfAct} {s : GfSt} (h : gfRun cf acts = some s) {i : Nat} (hi : s.pc i = .done) (hf : (cf.res i).closed = true)
    {j : Nat} (hj : s.pc j = .none ∨ s.pc j = .run) :
    s.closed = true ∧ ∀ more s', runActs (gfStep cf) s more = some s' → answersTo j s'.out = [] := by
  have hI := GfInv.reach h
  have hc : s.closed = true := by
    cases hc : s.closed
    · rw [hI.done hc i hi] at hf; cases hf
    · rfl
  exact ⟨hc, fun more s' hr => by rw [(gf_closed hc hr).2]; exact hI.none j hj⟩

/-- The failing call's own answer is taken by the transport before it closes the connection, unless the connection was closed already. -/
theorem C141_error {cf : GfConf} {acts : List GfAct} {s s' : GfSt} (h : gfRun cf acts = some s) (hc : s.closed = false) {i : Nat}
    (hs : gfStep cf s (.close i) = some s') : answersTo i s'.out = (cf.res i).frames.map (·.wbuf) := by
  have hI := GfInv.reach h
  simp only [gfStep] at hs
  split at hs
  · next hp => simp only [Option.some.injEq] at hs; subst hs; exact hI.ans hc i (.inl hp)
  · cases hs

/-- A service "a" with two methods: "b" returns its argument twice, "c" an error. -/
def gfDemo (m0 m1 : UInt8) : GfConf :=
  { codec := none, stack := 5, etext := fun _ => [], errCmd := 11,
    callback := genTable [([0x61], [0x62], fun p => CallRes.ok (p ++ p)), ([0x61], [0x63], fun _ => CallRes.err [9])],
    req := fun i => { id := 2 * i.toUInt64 + 1, cmd := 10, payload := Spec.encode { ns := [0x61], method := [if i = 0 then m0 else m1], params := [1, 2], unrec := [] } } }

/-- The hypotheses of `C141_partial`, with two calls of "b", both answered. -/
example : (∀ i, Succeeds (gfDemo 0x62 0x62) i [1, 2, 1, 2]) ∧
    (gfRun (gfDemo 0x62 0x62) [.start 0, .start 1, .answer 1, .answer 0]).map (fun s => (answersTo 0 s.out, answersTo 1 s.out, s.closed)) =
      some ([layout 1 10 0 [1, 2, 1, 2]], [layout 3 10 0 [1, 2, 1, 2]], false) := by
  refine ⟨fun i => ⟨{ ns := [0x61], method := [0x62], params := [1, 2], unrec := [] }, fun p => CallRes.ok (p ++ p), ?_, ?_, rfl⟩, by decide +kernel⟩
  · have : (gfDemo 0x62 0x62).req i = { id := 2 * i.toUInt64 + 1, cmd := 10, payload := Spec.encode { ns := [0x61], method := [0x62], params := [1, 2], unrec := [] } } := by
      simp [gfDemo]
    rw [this]
    show pbUnmarshal 5 (Spec.encode { ns := [0x61], method := [0x62], params := [1, 2], unrec := [] }) = _
    decide +kernel
  · rfl

/-- A call of "c" fails while one of "b" is running: the latter's answer is lost. -/
theorem C141_refuted_example : Succeeds (gfDemo 0x63 0x62) 1 [1, 2, 1, 2] ∧
    (gfRun (gfDemo 0x63 0x62) [.start 1, .start 0, .answer 0, .close 0, .lost 1]).map (fun s => (answersTo 0 s.out, answersTo 1 s.out, s.pc 1, (gfDemo 0x63 0x62).res 0 |>.closed)) =
      some ([layout 1 11 0 [9]], [], .done, true) :=
  ⟨⟨{ ns := [0x61], method := [0x62], params := [1, 2], unrec := [] }, fun p => CallRes.ok (p ++ p), by decide +kernel, rfl, rfl⟩, by decide +kernel⟩

end Qrpc
