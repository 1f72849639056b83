import Verif.Props.ServeRead
import Verif.Lemmas.Measure
/-! # C31: after the end of a connection its goroutines end -/
namespace Qrpc

/-- A step of one of the goroutines of the connection, other than `ReadFrame` returning a frame; a handler returning is one. -/
def RAct.inner : RAct → Bool
  | .rErr | .rLookup _ | .rGo | .rSend | .rCtx | .rGate | .mRecv | .mCtx | .mGo | .mEnd | .mRst _ | .hEnd _ | .hDec _ | .hTest _
  | .hRst _ _ => true
  | _ => false

def RAct.frame : RAct → Bool
  | .rFrame _ => true
  | _ => false

def RRd.left : RRd → Nat
  | .off => 0 | .exit => 1 | .close => 2 | .nbCheck => 2 | .read => 3 | .sub => 4 | .throttle => 4 | .gate => 5
  | .send _ => 16 | .lookup _ => 17

def MPc.left : MPc → Nat
  | .ended => 0 | .onClose => 1 | .waitWG => 2 | .closing => 3 | .select => 4 | .readMore => 5 | .rst _ => 6 | .test _ => 7
  | .cleanup _ => 8 | .handling _ => 9 | .spawn _ => 9 | .check _ => 10

/-- Steps left until all goroutines have ended. -/
def RSt.left (s : RSt) : Nat :=
  s.rd.left + s.main.left + 10 * s.ch.length + 4 * s.running.length + 3 * s.ending.length + 2 * s.cleaning.length + s.resetting.length

set_option maxHeartbeats 8000000 in
theorem left_step {c : RConf} {s s' : RSt} {a : RAct} (hx : s.ctx = true) (hs : rdStep c s a = some s') :
    s'.ctx = true ∧ s'.left + (if a.inner then 1 else 0) ≤ s.left + (if a.frame then 14 else 0) := by
  have he : ∀ (l : List Nat) k, k ∈ l → (l.erase k).length + 1 = l.length := by
    intro l k h
    have := List.length_erase_of_mem h
    have := List.length_pos_of_mem h
    omega
  unfold RSt.left
  rdstep_cases hs a
  all_goals simp only [RAct.inner, RAct.frame, Bool.false_eq_true, if_true, if_false, List.length_append, List.length_cons, List.length_nil]
  all_goals refine ⟨by simp_all, ?_⟩
  all_goals try grind [RRd.left, MPc.left]

/-- No goroutine of the connection can take a step. -/
def RSt.AtRest (c : RConf) (s : RSt) : Prop := ∀ a, a.inner = true → rdStep c s a = none

/-- **C31, what holds: everybody ends.** After the context of a connection has been cancelled, in every continuation (frames
still arriving, handlers finishing their streams, the clock, the throttle, further Close calls, any order) the goroutines of the
connection take at most `s.left` steps, plus fourteen for every frame `ReadFrame` still returns; and when none of them can take
a step any more, all have ended: the reader, every handler, and `serve`, which has called OnClose exactly once. Missing: that
`ReadFrame` returns an error or a frame when the connection is closed (false: `C31_refuted_reader_stuck`) and that handlers
return; both are steps here. -/
theorem C31_all_end_partial {c : RConf} {t0 : Nat} {acts more : List RAct} {s s' : RSt} (hrun : rdRun c t0 acts = some s)
    (hx : s.ctx = true) (hm : runActs (rdStep c) s more = some s') :
    more.countP RAct.inner ≤ s.left + 14 * more.countP RAct.frame ∧
    (s'.AtRest c → s'.rd = .off ∧ s'.main = .ended ∧ s'.onClosed = 1 ∧ s'.running = [] ∧ s'.ending = [] ∧ s'.cleaning = [] ∧
      s'.resetting = []) := by
  have key : ∀ (more : List RAct) (s : RSt), s.ctx = true → runActs (rdStep c) s more = some s' →
      s'.ctx = true ∧ more.countP RAct.inner + s'.left ≤ s.left + 14 * more.countP RAct.frame := by
    intro more
    induction more with
    | nil => intro s hx h; simp only [runActs, Option.some.injEq] at h; subst h; simp [hx]
    | cons a as ih =>
      intro s hx h
      rw [runActs] at h
      cases h1 : rdStep c s a with
      | none => rw [h1] at h; simp at h
      | some s1 =>
        rw [h1] at h
        obtain ⟨h2, h3⟩ := left_step hx h1
        obtain ⟨h4, h5⟩ := ih s1 h2 h
        refine ⟨h4, ?_⟩
        rw [List.countP_cons, List.countP_cons]
        cases hi : a.inner <;> cases hf : a.frame <;> simp only [hi, hf, if_true, if_false, Bool.false_eq_true] at h3 ⊢ <;> omega
  obtain ⟨hx', hb⟩ := key more s hx hm
  refine ⟨by omega, fun hq => ?_⟩
  have hrun' : rdRun c t0 (acts ++ more) = some s' := by
    unfold rdRun at hrun ⊢; rw [runActs_append, hrun]; exact hm
  have hI := RInv.reach hrun'
  have hrd : s'.rd = .off := by
    cases hd : decide (s'.rd = .off) with
    | true => exact of_decide_eq_true hd
    | false =>
      obtain ⟨a, s2, ha, h2⟩ := C31_reader_not_stuck_partial (c := c) hx' (of_decide_eq_false hd)
      rw [hq a (by cases a <;> simp_all [RAct.reader, RAct.inner])] at h2
      simp at h2
  have hempty : ∀ (l : List Nat), (∀ k, k ∉ l) → l = [] := by
    intro l h
    cases l with
    | nil => rfl
    | cons k l => exact absurd List.mem_cons_self (h k)
  have h1 : s'.running = [] := hempty _ fun k hk => by
    have := hq (.hEnd k) rfl
    simp [rdStep, hk] at this
  have h2 : s'.ending = [] := hempty _ fun k hk => by
    have := hq (.hDec k) rfl
    simp only [rdStep, hk, if_true] at this
    split at this <;> simp at this
  have h3 : s'.cleaning = [] := hempty _ fun k hk => by
    have := hq (.hTest k) rfl
    simp only [rdStep, hk, if_true] at this
    split at this <;> simp at this
  have h4 : s'.resetting = [] := hempty _ fun k hk => by
    have := hq (.hRst k true) rfl
    simp [rdStep, hk] at this
  have hend : s'.main = .ended := by
    have hg := hq .mGo rfl
    cases hp : s'.main with
    | ended => rfl
    | select => have := hq .mCtx rfl; simp [rdStep, hp, hx'] at this
    | handling k => have := hq .mEnd rfl; simp [rdStep, hp] at this
    | rst k => have := hq (.mRst true) rfl; simp [rdStep, hp] at this
    | readMore =>
      obtain ⟨s2, h2, _⟩ := C27_gate_opens hrun' hp
      rw [hg] at h2; simp at h2
    | cleanup k => simp only [rdStep, hp] at hg; split at hg <;> simp at hg
    | test k => simp only [rdStep, hp] at hg; split at hg <;> simp at hg
    | check k =>
      simp only [rdStep, hp] at hg
      repeat' (split at hg)
      all_goals simp at hg
    | spawn k => simp [rdStep, hp] at hg
    | closing => simp [rdStep, hp] at hg
    | waitWG => simp [rdStep, hp, hrd, h1, h2, h3, h4] at hg
    | onClose => simp [rdStep, hp] at hg
  refine ⟨hrd, hend, ?_, h1, h2, h3, h4⟩
  have := hI.d.once
  simpa [hend] using this

/-- Its hypotheses: a blocking handler runs and the reader waits at the gate when the connection is closed; ten steps later all
have ended. -/
example : (rdRun ⟨1, 0, 0, false⟩ 0 [.rFrame blkF, .rSend, .mRecv, .extClose]).map (fun s => (s.ctx, s.rd, s.main, s.left)) =
    some (true, .gate, .handling 0, 14) := by rfl
example : (rdRun ⟨1, 0, 0, false⟩ 0 ([.rFrame blkF, .rSend, .mRecv, .extClose] ++
    [.mEnd, .rCtx, .mGo, .rGo, .mGo, .mRst false, .mGo, .mCtx, .mGo, .mGo, .mGo])).map (fun s => (s.rd, s.main, s.onClosed, s.left)) =
    some (.off, .ended, 1, 0) := by rfl

end Qrpc
