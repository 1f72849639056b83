import Verif.Lemmas.ApiC
namespace Qrpc

set_option maxHeartbeats 1000000 in
theorem AInvG.del_step {s s' : ASt} {a : AAct}
    (h : ∀ j c, (s.pc j).dels = some c → s.cClosed c = true)
    (hs : aStep s a = some s') : ∀ j c, (s'.pc j).dels = some c → s'.cClosed c = true := by
  astep_cases hs a
  all_goals try simp only []
  all_goals try first | assumption | grind [setAt, APc.dels]

set_option maxHeartbeats 1000000 in
theorem AInvG.gone_step {s s' : ASt} {a : AAct} (hm : AInvM s) (hp : ∀ j i, (s.pc j).miss = some i → s.conns i = none)
    (h1 : ∀ j c, (s.pc j).dels = some c → s.cClosed c = true)
    (h : ∀ c, s.made c = true → s.active c = none → s.cClosed c = true ∨ (s.pc s.owner).fresh = some c)
    (hs : aStep s a = some s') :
    ∀ c, s'.made c = true → s'.active c = none → s'.cClosed c = true ∨ (s'.pc s'.owner).fresh = some c := by
  have e1 : ∀ i x, (s.pc i).fresh = some x → s.mu = some i := fun i _ hi => hm.holds i (APc.fresh_holds hi)
  have e2 : ∀ i m x, s.pc i = .ncDial m x → s.mu = some i := fun i _ _ hi => hm.holds i (by rw [hi]; rfl)
  have e4 : ∀ i, s.mu = some i → s.owner = i := fun i hi => (hm.held i hi).2
  clear hm
  astep_cases hs a
  all_goals try simp only []
  all_goals try first | assumption | grind [setAt, APc.dels, APc.fresh, APc.miss]

theorem APc.loop_holds {p : APc} {l : List Nat} (h : p.loop = some l) : p.holds = true := by
  cases p <;> simp [APc.loop, APc.holds] at *

set_option maxHeartbeats 1000000 in
theorem AInvG.loop_step {s s' : ASt} {a : AAct} (hm : AInvM s) (h2 : ∀ c, s.made c = true → c < s.nextC)
    (h1 : ∀ c, s.made c = true → s.active c = none → s.cClosed c = true ∨ (s.pc s.owner).fresh = some c)
    (h : ∀ j l, (s.pc j).loop = some l → ∀ c, s.made c = true → s.cClosed c = true ∨ c ∈ l)
    (hs : aStep s a = some s') :
    ∀ j l, (s'.pc j).loop = some l → ∀ c, s'.made c = true → s'.cClosed c = true ∨ c ∈ l := by
  have e1 : ∀ i x, (s.pc i).loop = some x → s.mu = some i := fun i _ hi => hm.holds i (APc.loop_holds hi)
  have e2 : ∀ i m x, s.pc i = .ncDial m x → s.mu = some i := fun i _ _ hi => hm.holds i (by rw [hi]; rfl)
  have e3 : ∀ i, s.pc i = .clRange → s.mu = some i := fun i hi => hm.holds i (by rw [hi]; rfl)
  have e4 : ∀ i, s.mu = some i → s.owner = i := fun i hi => (hm.held i hi).2
  clear hm
  astep_cases hs a
  all_goals try simp only []
  all_goals try first | assumption | grind [setAt, APc.fresh, APc.loop]
  next i _ hq =>
    have ho := e4 i (e3 i hq)
    intro j l hl c hc
    by_cases hj : j = i
    · subst hj
      simp only [setAt, if_true, APc.loop, Option.some.injEq] at hl
      subst hl
      cases ha : s.active c with
      | some x => right; simp [List.mem_filter, ha, h2 c hc]
      | none =>
        rcases h1 c hc ha with h3 | h3
        · exact .inl h3
        · rw [ho, hq] at h3; simp [APc.fresh] at h3
    · simp only [setAt, hj, if_false] at hl
      exact h j l hl c hc

theorem AInvG.done_step {s s' : ASt} {a : AAct} (hc : AInvC s)
    (h1 : ∀ j l, (s.pc j).loop = some l → ∀ c, s.made c = true → s.cClosed c = true ∨ c ∈ l)
    (h : s.done = true → ∀ c, s.made c = true → s.cClosed c = true)
    (hs : aStep s a = some s') :
    s'.done = true → ∀ c, s'.made c = true → s'.cClosed c = true := by
  have e1 : ∀ i m x, s.pc i = .ncDial m x → s.done = false := by
    intro i m x hi
    cases hd : s.done with
    | false => rfl
    | true =>
      have hcl := hc.done hd
      have := hc.dial i (by rw [hi]; rfl) hcl
      have := (hc.clo s.closer (by rw [this]; rfl)).2.2
      simp [hd] at this
  have e2 : ∀ i, s.pc i = .clUn → ∀ c, s.made c = true → s.cClosed c = true := by
    intro i hi c hm
    rcases h1 i [] (by rw [hi]; rfl) c hm with h | h
    · exact h
    · cases h
  clear hc h1
  astep_cases hs a
  all_goals try simp only []
  all_goals try first | assumption | grind [setAt]

structure AInv (s : ASt) : Prop where
  m : AInvM s
  c : AInvC s
  t : AInvT s
  g : AInvG s

theorem AInv.step {s s' : ASt} {a : AAct} (h : AInv s) (hs : aStep s a = some s') : AInv s' where
  m := h.m.step hs
  c := h.c.step h.m hs
  t := h.t.step h.m hs
  g :=
    { del := AInvG.del_step h.g.del hs
      gone := AInvG.gone_step h.m h.t.miss h.g.del h.g.gone hs
      loop := AInvG.loop_step h.m h.t.lt h.g.gone h.g.loop hs
      done := AInvG.done_step h.c h.g.loop h.g.done hs }

theorem AInv.init (n : Nat) (ok : Nat → Bool) : AInv (ASt.init n ok) where
  m := by constructor <;> simp [ASt.init, APc.holds]
  c := by constructor <;> simp [ASt.init, APc.dials, APc.closing]
  t := by constructor <;> simp [ASt.init, APc.miss, APc.ref, APc.fresh1, APc.fresh2, APc.atDel2] <;> grind
  g := by constructor <;> simp [ASt.init, APc.dels, APc.fresh, APc.loop] <;> grind

theorem AInv.reach {n ok acts s} (h : aRun n ok acts = some s) : AInv s :=
  runActs_inv (fun _ _ _ h hs => h.step hs) (.init n ok) h

end Qrpc
