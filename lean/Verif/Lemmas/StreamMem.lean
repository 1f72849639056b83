import Verif.Model.StreamMem
import Verif.Lemmas.Mem
/-! # Streams and frames: where they are (for C137) -/
namespace Qrpc
open Spec

/-- Events of one goroutine that knows all earlier accesses they conflict with make no race. -/
theorem emits_ok {G O X : Type} {g : G} (L : List (MemEv G O X)) : ∀ (tr : List (MemEv G O X)), (∀ x, RaceFree tr x) → (∀ e ∈ L, e.g = g) →
    (∀ e ∈ L, ∀ (i : Nat) (a : MemEv G O X) (x : X), tr[i]? = some a → Conflict x a e → Knows tr g i) → ∀ x, RaceFree (tr ++ L) x := by
  induction L with
  | nil => intro tr h _ _; simpa using h
  | cons e L ih =>
    intro tr h hg hk
    have h1 : ∀ x, RaceFree (tr ++ [e]) x := by
      intro x i j hr
      rcases new_race hr with hr | ⟨_, a, ha, hc, hn⟩
      · exact h x i j hr
      · exact hn (by rw [hg e (by simp)]; exact hk e (by simp) i a x ha hc)
    have := ih (tr ++ [e]) h1 (fun e' h' => hg e' (by simp [h'])) (by
      intro e' h' i a x ha hc
      rcases getElem?_snoc ha with ha | ⟨rfl, rfl⟩
      · exact (hk e' (by simp [h']) i a x ha hc).mono _
      · exact Knows.own' (a := a) (by simp) (hg a (by simp)))
    simpa using this

def YmSt.KnowF (s : YmSt) (f i : Nat) : Prop :=
  ((s.pc 0).frm = some f → Knows s.tr 0 i) ∧ (∀ g, s.has g f = true → Knows s.tr g i) ∧ (s.given f ≠ none → KnowsO s.tr (.frame f) i)

def YmSt.KnowS (s : YmSt) (r i : Nat) : Prop :=
  (∀ g, (s.pc g).str = some r → Knows s.tr g i) ∧ (∀ k, s.tbl k = some r → KnowsO s.tr (.entry r) i) ∧ (∀ f, s.strOf f = some r → s.KnowF f i)

/-- Where things are. -/
structure YmCtl (s : YmSt) : Prop where
  frm0 : ∀ g, (s.pc g).frm ≠ none → g = 0
  sent0 : ∀ g f r, s.pc g = .sent f r → g = 0
  strLt : ∀ g r, (s.pc g).str = some r → r < s.ns
  tblLt : ∀ k r, s.tbl k = some r → r < s.ns
  sofLt : ∀ f r, s.strOf f = some r → r < s.ns
  frmLt : ∀ f, (s.pc 0).frm = some f → f < s.nf
  givLt : ∀ f, s.given f ≠ none → f < s.nf
  frmG : ∀ f, (s.pc 0).frm = some f → s.given f = none
  hasG : ∀ g f, s.has g f = true → s.given f ≠ none
  sofN : ∀ f, s.strOf f ≠ none → s.pc 0 = .ret f ∨ s.given f = some true
  retS : ∀ f, s.pc 0 = .ret f → s.strOf f ≠ none
  givT : ∀ f, s.given f = some true → s.strOf f ≠ none
  inN : ∀ f r, s.pc 0 = .inF f r → s.strOf f = none
  keyT : ∀ k r, s.tbl k = some r → s.key r = k
  keyP : ∀ f r, s.pc 0 = .bind f r ∨ s.pc 0 = .bind2 f r ∨ s.pc 0 = .inF f r → s.key r = s.fkey f
  keyN : ∀ g f k r, s.pc g = .new f k r → s.key r = k ∧ ∀ f', f = some f' → s.fkey f' = k
  keyF : ∀ f r, s.strOf f = some r → s.key r = s.fkey f

theorem YmCtl.init : YmCtl YmSt.init := by
  constructor <;> simp [YmSt.init, YmPc.frm, YmPc.str]

macro "ym_cases" h:ident : tactic => `(tactic| (
  simp only [ymStep] at $h:ident
  repeat' split at $h:ident
  all_goals (first | (cases $h:ident; done) | skip)
  all_goals (try (simp only [Option.some.injEq] at $h:ident; subst $h:ident))))

theorem ym_frm0 {s s' : YmSt} {a : YmAct} (hs : ymStep s a = some s') (frm0 : ∀ g, (s.pc g).frm ≠ none → g = 0) :
    ∀ g, (s'.pc g).frm ≠ none → g = 0 := by
  cases a <;> ym_cases hs <;> (try simp only [YmSt.emit, YmSt.to, ymSet, YmSt.gets]) <;> grind [YmPc.frm, YmPc.str, YmPc.meth]

theorem ym_sent0 {s s' : YmSt} {a : YmAct} (hs : ymStep s a = some s') (sent0 : ∀ g f r, s.pc g = .sent f r → g = 0) :
    ∀ g f r, s'.pc g = .sent f r → g = 0 := by
  cases a <;> ym_cases hs <;> (try simp only [YmSt.emit, YmSt.to, ymSet, YmSt.gets]) <;> grind [YmPc.frm, YmPc.str, YmPc.meth]

theorem ym_strLt {s s' : YmSt} {a : YmAct} (hs : ymStep s a = some s') (strLt : ∀ g r, (s.pc g).str = some r → r < s.ns) (tblLt : ∀ k r, s.tbl k = some r → r < s.ns) :
    ∀ g r, (s'.pc g).str = some r → r < s'.ns := by
  cases a <;> ym_cases hs <;> (try simp only [YmSt.emit, YmSt.to, ymSet, YmSt.gets]) <;> grind [YmPc.frm, YmPc.str, YmPc.meth]

theorem ym_tblLt {s s' : YmSt} {a : YmAct} (hs : ymStep s a = some s') (tblLt : ∀ k r, s.tbl k = some r → r < s.ns) (k1 : ∀ g f k r, s.pc g = .new f k r → r < s.ns ∧ ∀ f', f = some f' → f' < s.nf ∧ g = 0) :
    ∀ k r, s'.tbl k = some r → r < s'.ns := by
  cases a <;> ym_cases hs <;> (try simp only [YmSt.emit, YmSt.to, ymSet, YmSt.gets]) <;> grind [YmPc.frm, YmPc.str, YmPc.meth]

theorem ym_sofLt {s s' : YmSt} {a : YmAct} (hs : ymStep s a = some s') (sofLt : ∀ f r, s.strOf f = some r → r < s.ns) (k3 : ∀ f r, s.pc 0 = .bind2 f r → r < s.ns ∧ f < s.nf) :
    ∀ f r, s'.strOf f = some r → r < s'.ns := by
  cases a <;> ym_cases hs <;> (try simp only [YmSt.emit, YmSt.to, ymSet, YmSt.gets]) <;> grind [YmPc.frm, YmPc.str, YmPc.meth]

theorem ym_frmLt {s s' : YmSt} {a : YmAct} (hs : ymStep s a = some s') (frmLt : ∀ f, (s.pc 0).frm = some f → f < s.nf) (k1 : ∀ g f k r, s.pc g = .new f k r → r < s.ns ∧ ∀ f', f = some f' → f' < s.nf ∧ g = 0) (frm0 : ∀ g, (s.pc g).frm ≠ none → g = 0) :
    ∀ f, (s'.pc 0).frm = some f → f < s'.nf := by
  cases a <;> ym_cases hs <;> (try simp only [YmSt.emit, YmSt.to, ymSet, YmSt.gets]) <;> grind [YmPc.frm, YmPc.str, YmPc.meth]

theorem ym_givLt {s s' : YmSt} {a : YmAct} (hs : ymStep s a = some s') (givLt : ∀ f, s.given f ≠ none → f < s.nf) (k4 : ∀ f r, s.pc 0 = .inF f r → r < s.ns ∧ f < s.nf) (k5 : ∀ f, s.pc 0 = .ret f → f < s.nf) :
    ∀ f, s'.given f ≠ none → f < s'.nf := by
  cases a <;> ym_cases hs <;> (try simp only [YmSt.emit, YmSt.to, ymSet, YmSt.gets]) <;> grind [YmPc.frm, YmPc.str, YmPc.meth]

theorem ym_frmG {s s' : YmSt} {a : YmAct} (hs : ymStep s a = some s') (frmG : ∀ f, (s.pc 0).frm = some f → s.given f = none) (givLt : ∀ f, s.given f ≠ none → f < s.nf) (frmLt : ∀ f, (s.pc 0).frm = some f → f < s.nf) (frm0 : ∀ g, (s.pc g).frm ≠ none → g = 0) :
    ∀ f, (s'.pc 0).frm = some f → s'.given f = none := by
  cases a <;> ym_cases hs <;> (try simp only [YmSt.emit, YmSt.to, ymSet, YmSt.gets]) <;> grind [YmPc.frm, YmPc.str, YmPc.meth]

theorem ym_hasG {s s' : YmSt} {a : YmAct} (hs : ymStep s a = some s') (hasG : ∀ g f, s.has g f = true → s.given f ≠ none) :
    ∀ g f, s'.has g f = true → s'.given f ≠ none := by
  cases a <;> ym_cases hs <;> (try simp only [YmSt.emit, YmSt.to, ymSet, YmSt.gets]) <;> grind [YmPc.frm, YmPc.str, YmPc.meth]

theorem ym_sofN {s s' : YmSt} {a : YmAct} (hs : ymStep s a = some s') (sofN : ∀ f, s.strOf f ≠ none → s.pc 0 = .ret f ∨ s.given f = some true) (inN : ∀ f r, s.pc 0 = .inF f r → s.strOf f = none) :
    ∀ f, s'.strOf f ≠ none → s'.pc 0 = .ret f ∨ s'.given f = some true := by
  cases a <;> ym_cases hs <;> (try simp only [YmSt.emit, YmSt.to, ymSet, YmSt.gets]) <;> grind [YmPc.frm, YmPc.str, YmPc.meth]

theorem ym_retS {s s' : YmSt} {a : YmAct} (hs : ymStep s a = some s') (retS : ∀ f, s.pc 0 = .ret f → s.strOf f ≠ none) :
    ∀ f, s'.pc 0 = .ret f → s'.strOf f ≠ none := by
  cases a <;> ym_cases hs <;> (try simp only [YmSt.emit, YmSt.to, ymSet, YmSt.gets]) <;> grind [YmPc.frm, YmPc.str, YmPc.meth]

theorem ym_givT {s s' : YmSt} {a : YmAct} (hs : ymStep s a = some s') (givT : ∀ f, s.given f = some true → s.strOf f ≠ none) (retS : ∀ f, s.pc 0 = .ret f → s.strOf f ≠ none) :
    ∀ f, s'.given f = some true → s'.strOf f ≠ none := by
  cases a <;> ym_cases hs <;> (try simp only [YmSt.emit, YmSt.to, ymSet, YmSt.gets]) <;> grind [YmPc.frm, YmPc.str, YmPc.meth]

theorem ym_inN {s s' : YmSt} {a : YmAct} (hs : ymStep s a = some s') (inN : ∀ f r, s.pc 0 = .inF f r → s.strOf f = none) (sofN : ∀ f, s.strOf f ≠ none → s.pc 0 = .ret f ∨ s.given f = some true) (frmG : ∀ f, (s.pc 0).frm = some f → s.given f = none) :
    ∀ f r, s'.pc 0 = .inF f r → s'.strOf f = none := by
  cases a <;> ym_cases hs <;> (try simp only [YmSt.emit, YmSt.to, ymSet, YmSt.gets]) <;> grind [YmPc.frm, YmPc.str, YmPc.meth]

theorem ym_keyT {s s' : YmSt} {a : YmAct} (hs : ymStep s a = some s') (keyT : ∀ k r, s.tbl k = some r → s.key r = k) (keyN : ∀ g f k r, s.pc g = .new f k r → s.key r = k ∧ ∀ f', f = some f' → s.fkey f' = k) (tblLt : ∀ k r, s.tbl k = some r → r < s.ns) (k1 : ∀ g f k r, s.pc g = .new f k r → r < s.ns ∧ ∀ f', f = some f' → f' < s.nf ∧ g = 0) :
    ∀ k r, s'.tbl k = some r → s'.key r = k := by
  cases a <;> ym_cases hs <;> (try simp only [YmSt.emit, YmSt.to, ymSet, YmSt.gets]) <;> grind [YmPc.frm, YmPc.str, YmPc.meth]

theorem ym_keyP {s s' : YmSt} {a : YmAct} (hs : ymStep s a = some s') (keyP : ∀ f r, s.pc 0 = .bind f r ∨ s.pc 0 = .bind2 f r ∨ s.pc 0 = .inF f r → s.key r = s.fkey f) (keyT : ∀ k r, s.tbl k = some r → s.key r = k) (keyN : ∀ g f k r, s.pc g = .new f k r → s.key r = k ∧ ∀ f', f = some f' → s.fkey f' = k) (k1 : ∀ g f k r, s.pc g = .new f k r → r < s.ns ∧ ∀ f', f = some f' → f' < s.nf ∧ g = 0) (k2 : ∀ f r, s.pc 0 = .bind f r → r < s.ns ∧ f < s.nf) (k3 : ∀ f r, s.pc 0 = .bind2 f r → r < s.ns ∧ f < s.nf) (k4 : ∀ f r, s.pc 0 = .inF f r → r < s.ns ∧ f < s.nf) (frm0 : ∀ g, (s.pc g).frm ≠ none → g = 0) :
    ∀ f r, s'.pc 0 = .bind f r ∨ s'.pc 0 = .bind2 f r ∨ s'.pc 0 = .inF f r → s'.key r = s'.fkey f := by
  cases a <;> ym_cases hs <;> (try simp only [YmSt.emit, YmSt.to, ymSet, YmSt.gets]) <;> grind [YmPc.frm, YmPc.str, YmPc.meth]

theorem ym_keyN {s s' : YmSt} {a : YmAct} (hs : ymStep s a = some s') (keyN : ∀ g f k r, s.pc g = .new f k r → s.key r = k ∧ ∀ f', f = some f' → s.fkey f' = k) (k1 : ∀ g f k r, s.pc g = .new f k r → r < s.ns ∧ ∀ f', f = some f' → f' < s.nf ∧ g = 0) (k7 : ∀ f b, s.pc 0 = .gotF f b → f < s.nf) (frm0 : ∀ g, (s.pc g).frm ≠ none → g = 0) :
    ∀ g f k r, s'.pc g = .new f k r → s'.key r = k ∧ ∀ f', f = some f' → s'.fkey f' = k := by
  cases a <;> ym_cases hs <;> (try simp only [YmSt.emit, YmSt.to, ymSet, YmSt.gets]) <;> grind [YmPc.frm, YmPc.str, YmPc.meth]

theorem ym_keyF {s s' : YmSt} {a : YmAct} (hs : ymStep s a = some s') (keyF : ∀ f r, s.strOf f = some r → s.key r = s.fkey f) (sofLt : ∀ f r, s.strOf f = some r → r < s.ns) (k6 : ∀ f, s.strOf f ≠ none → f < s.nf) (keyP : ∀ f r, s.pc 0 = .bind f r ∨ s.pc 0 = .bind2 f r ∨ s.pc 0 = .inF f r → s.key r = s.fkey f) (k3 : ∀ f r, s.pc 0 = .bind2 f r → r < s.ns ∧ f < s.nf) :
    ∀ f r, s'.strOf f = some r → s'.key r = s'.fkey f := by
  cases a <;> ym_cases hs <;> (try simp only [YmSt.emit, YmSt.to, ymSet, YmSt.gets]) <;> grind [YmPc.frm, YmPc.str, YmPc.meth]

theorem YmCtl.step {s s' : YmSt} {a : YmAct} (h : YmCtl s) (hs : ymStep s a = some s') : YmCtl s' := by
  obtain ⟨frm0, sent0, strLt, tblLt, sofLt, frmLt, givLt, frmG, hasG, sofN, retS, givT, inN, keyT, keyP, keyN, keyF⟩ := h
  have k1 : ∀ g f k r, s.pc g = .new f k r → r < s.ns ∧ ∀ f', f = some f' → f' < s.nf ∧ g = 0 := by
    intro g f k r h
    refine ⟨strLt g r (by rw [h]; rfl), ?_⟩
    rintro f' rfl
    have h0 := frm0 g (by rw [h]; simp [YmPc.frm])
    subst h0
    exact ⟨frmLt f' (by rw [h]; rfl), rfl⟩
  have k2 : ∀ f r, s.pc 0 = .bind f r → r < s.ns ∧ f < s.nf := fun f r h => ⟨strLt 0 r (by rw [h]; rfl), frmLt f (by rw [h]; rfl)⟩
  have k3 : ∀ f r, s.pc 0 = .bind2 f r → r < s.ns ∧ f < s.nf := fun f r h => ⟨strLt 0 r (by rw [h]; rfl), frmLt f (by rw [h]; rfl)⟩
  have k4 : ∀ f r, s.pc 0 = .inF f r → r < s.ns ∧ f < s.nf := fun f r h => ⟨strLt 0 r (by rw [h]; rfl), frmLt f (by rw [h]; rfl)⟩
  have k5 : ∀ f, s.pc 0 = .ret f → f < s.nf := fun f h => frmLt f (by rw [h]; rfl)
  have k7 : ∀ f b, s.pc 0 = .gotF f b → f < s.nf := fun f b h => frmLt f (by rw [h]; rfl)
  have k6 : ∀ f, s.strOf f ≠ none → f < s.nf := by
    intro f h
    rcases sofN f h with h | h
    · exact k5 f h
    · exact givLt f (by rw [h]; simp)
  exact ⟨ym_frm0 hs frm0, ym_sent0 hs sent0, ym_strLt hs strLt tblLt, ym_tblLt hs tblLt k1, ym_sofLt hs sofLt k3, ym_frmLt hs frmLt k1 frm0, ym_givLt hs givLt k4 k5, ym_frmG hs frmG givLt frmLt frm0, ym_hasG hs hasG, ym_sofN hs sofN inN, ym_retS hs retS, ym_givT hs givT retS, ym_inN hs inN sofN frmG, ym_keyT hs keyT keyN tblLt k1, ym_keyP hs keyP keyT keyN k1 k2 k3 k4 frm0, ym_keyN hs keyN k1 k7 frm0, ym_keyF hs keyF sofLt k6 keyP k3⟩

end Qrpc
