import Verif.Props.GenNet
/-! # C115, which connections a generated call tries -/
namespace Qrpc
open Spec

/-- Every call of `Request` on a connection in an execution (codegen/client.go:53), with the call of the client that made it. -/
def Spec.gnTries (conf : CConf) (n : Nat) (cmd : Cmd) : GNSt → List GNAct → List (Nat × Nat)
  | _, [] => []
  | s, a :: as => match gnStep conf n cmd s a with
    | none => []
    | some s' => (match a with
        | .con c (.cl (.request i _ _)) => [(s.no i, c)]
        | _ => []) ++ gnTries conf n cmd s' as

/-- The connections that call `q` tried, in order. -/
def Spec.triesOf (q : Nat) (T : List (Nat × Nat)) : List Nat := (T.filter fun x => x.1 == q).map (·.2)

/-- Iterations in which Request has been called. -/
def GNPc.tried : GNPc → Nat
  | .idle => 0
  | .top _ k | .req _ k => k
  | .asked _ k | .sub _ k _ | .wait _ k _ | .rst _ k _ | .rsting _ k _ => k + 1

structure GNTried (n : Nat) (s : GNSt) (T : List (Nat × Nat)) : Prop where
  le : ∀ i, (s.pc i).tried ≤ n
  now : ∀ i idx k, (s.pc i).turn = some (idx, k) → triesOf (s.no i) T = (List.range (s.pc i).tried).map (genPos n idx)
  past : ∀ q, ∃ idx k, k ≤ n ∧ triesOf q T = (List.range k).map (genPos n idx) ∧ ((q, GNRes.na) ∈ s.out → k = n)
  lt : ∀ q c, (q, c) ∈ T → q < s.calls.length

theorem triesOf_other {q q' c : Nat} {T : List (Nat × Nat)} (h : q' ≠ q) : triesOf q (T ++ [(q', c)]) = triesOf q T := by
  simp [triesOf, List.filter_append, h]

theorem triesOf_same {q c : Nat} {T : List (Nat × Nat)} : triesOf q (T ++ [(q, c)]) = triesOf q T ++ [c] := by
  simp [triesOf, List.filter_append]

theorem triesOf_new {q : Nat} {T : List (Nat × Nat)} (h : ∀ x ∈ T, x.1 ≠ q) : triesOf q T = [] := by
  simp only [triesOf, List.map_eq_nil_iff, List.filter_eq_nil_iff, beq_iff_eq]
  exact h

/-- What a step adds. -/
def Spec.gnTry (s : GNSt) : GNAct → List (Nat × Nat)
  | .con c (.cl (.request i _ _)) => [(s.no i, c)]
  | _ => []

theorem GNTried.pcs {n : Nat} {s s' : GNSt} {T : List (Nat × Nat)} (h : GNTried n s T) (hno : s'.no = s.no) (hc : s'.calls = s.calls)
    (ho : ∀ q, (q, GNRes.na) ∈ s'.out → (q, GNRes.na) ∈ s.out)
    (hpc : ∀ i, s'.pc i = .idle ∨ ((s'.pc i).turn = (s.pc i).turn ∧ (s'.pc i).tried = (s.pc i).tried) ∨
      ((s'.pc i).tried = (s.pc i).tried ∧ ∃ idx k k', (s'.pc i).turn = some (idx, k) ∧ (s.pc i).turn = some (idx, k'))) : GNTried n s' T := by
  refine ⟨fun i => ?_, fun i idx k hk => ?_, fun q => ?_, fun q c hq => hc ▸ h.lt q c hq⟩
  · rcases hpc i with e | ⟨-, e⟩ | ⟨e, -⟩
    · rw [e]; exact Nat.zero_le _
    · rw [e]; exact h.le i
    · rw [e]; exact h.le i
  · rw [hno]
    rcases hpc i with e | ⟨e1, e⟩ | ⟨e, idx', k1, k2, e1, e2⟩
    · rw [e] at hk; cases hk
    · rw [e]; exact h.now i idx k (e1 ▸ hk)
    · rw [e1] at hk; cases hk
      rw [e]; exact h.now i _ _ e2
  · obtain ⟨idx, k, h1, h2, h3⟩ := h.past q
    exact ⟨idx, k, h1, h2, fun hq => h3 (ho q hq)⟩

theorem GNTried.step {conf : CConf} {n : Nat} {cmd : Cmd} {dialed : Nat → Bool} {s s' : GNSt} {a : GNAct} {T : List (Nat × Nat)}
    (inv : GNInv conf n cmd dialed s) (h : GNTried n s T) (hs : gnStep conf n cmd s a = some s') : GNTried n s' (T ++ gnTry s a) := by
  cases a with
  | con c a =>
    simp only [gnStep] at hs
    obtain ⟨e', he, ⟨rfl, h1, h2, h3, h4⟩ | ⟨i, b, idx, k, rfl, h1, h2, rfl⟩ | ⟨i, f, g, idx, k, rfl, h1, h2, h3, rfl⟩ | ⟨i, idx, k, t, rfl, h1, h2, rfl⟩⟩ :=
      gnCon_cases hs
    · have : gnTry s (.con c a) = [] := by
        cases a with
        | cl a => cases a with
          | request i p b => exact absurd rfl (h1 i p b)
          | _ => rfl
        | _ => rfl
      rw [this, List.append_nil]
      exact h.pcs rfl rfl (fun _ hq => hq) (fun i => .inr (.inl ⟨rfl, rfl⟩))
    · have hk := inv.kLt i idx k (by rw [h1]; rfl) (by rw [h1]; rfl)
      have hT := h.now i idx k (by rw [h1]; rfl)
      rw [h1] at hT
      have hT' : triesOf (s.no i) (T ++ [(s.no i, c)]) = (List.range (k + 1)).map (genPos n idx) := by
        rw [triesOf_same, hT, List.range_succ, List.map_append, ← h2]; rfl
      refine ⟨fun j => ?_, fun j idx' k' hj => ?_, fun q => ?_, fun q c' hq => ?_⟩
      · by_cases e : j = i
        · subst e; simp only [setAt, if_true, GNPc.tried]; omega
        · simpa [setAt, e] using h.le j
      · by_cases e : j = i
        · subst e
          simp only [setAt, if_true, GNPc.turn] at hj
          cases hj
          simp only [setAt, if_true, GNPc.tried]
          exact hT'
        · simp only [setAt, if_neg e] at hj ⊢
          have hne : s.no i ≠ s.no j := fun he => e (inv.noInj j i (fun e0 => by rw [e0] at hj; cases hj) (by rw [h1]; simp) he.symm)
          exact (triesOf_other hne).trans (h.now j idx' k' hj)
      · by_cases e : s.no i = q
        · subst e
          exact ⟨idx, k + 1, hk, hT', fun hq => absurd rfl ((inv.outQ _ _ hq).2 i (by rw [h1]; simp))⟩
        · obtain ⟨idx', k', g1, g2, g3⟩ := h.past q
          exact ⟨idx', k', g1, (triesOf_other e).trans g2, g3⟩
      · rcases List.mem_append.1 hq with hq | hq
        · exact h.lt q c' hq
        · cases List.mem_singleton.1 hq
          exact inv.noLt i (by rw [h1]; simp)
    · rw [show gnTry s (.con c (.cl (.enq i))) = [] from rfl, List.append_nil]
      refine h.pcs rfl rfl (fun _ hq => hq) (fun j => ?_)
      by_cases e : j = i
      · subst e; exact .inr (.inl (by simp [setAt, h3, GNPc.turn, GNPc.tried]))
      · exact .inr (.inl (by simp [setAt, e]))
    · rw [show gnTry s (.con c (.cl (.send i _))) = [] from rfl, List.append_nil]
      refine h.pcs rfl rfl (fun _ hq => hq) (fun j => ?_)
      by_cases e : j = i
      · subst e; exact .inr (.inl (by simp [setAt, h1, GNPc.turn, GNPc.tried]))
      · exact .inr (.inl (by simp [setAt, e]))
  | call i m =>
    rw [show gnTry s (.call i m) = [] from rfl, List.append_nil]
    simp only [gnStep] at hs
    split at hs
    · cases hs
      have hno : ∀ j, s.pc j ≠ .idle → s.no j ≠ s.calls.length := fun j hj => Nat.ne_of_lt (inv.noLt j hj)
      refine ⟨fun j => ?_, fun j idx k hj => ?_, h.past, fun q c hq => ?_⟩
      · by_cases e : j = i
        · subst e; simp [setAt, GNPc.tried]
        · simpa [setAt, e] using h.le j
      · by_cases e : j = i
        · subst e
          simp only [setAt, if_true, GNPc.tried, List.range_zero, List.map_nil]
          exact triesOf_new fun x hx => Nat.ne_of_lt (h.lt x.1 x.2 hx)
        · simp only [setAt, if_neg e] at hj ⊢
          exact h.now j idx k hj
      · have := h.lt q c hq
        simp only [List.length_append]; omega
    · cases hs
  | go i =>
    rw [show gnTry s (.go i) = [] from rfl, List.append_nil]
    simp only [gnStep] at hs
    split at hs
    · next idx k hp =>
      split at hs
      · cases hs
        refine h.pcs rfl rfl (fun _ hq => hq) (fun j => ?_)
        by_cases e : j = i
        · subst e; exact .inr (.inl (by simp [setAt, hp, GNPc.turn, GNPc.tried]))
        · exact .inr (.inl (by simp [setAt, e]))
      · next hk =>
        cases hs
        have hle := h.le i
        rw [hp] at hle
        have hkn : k = n := Nat.le_antisymm hle (Nat.le_of_not_lt hk)
        refine ⟨fun j => ?_, fun j idx' k' hj => ?_, fun q => ?_, h.lt⟩
        · by_cases e : j = i
          · subst e; simp [setAt, GNPc.tried]
          · simpa [setAt, e] using h.le j
        · by_cases e : j = i
          · subst e; simp [setAt, GNPc.turn] at hj
          · simp only [setAt, if_neg e] at hj ⊢
            exact h.now j idx' k' hj
        · by_cases e : s.no i = q
          · subst e
            have := h.now i idx k (by rw [hp]; rfl)
            rw [hp] at this
            exact ⟨idx, n, Nat.le_refl _, by rw [this, ← hkn]; rfl, fun _ => rfl⟩
          · obtain ⟨idx', k', g1, g2, g3⟩ := h.past q
            refine ⟨idx', k', g1, g2, fun hq => ?_⟩
            rcases List.mem_append.1 hq with hq | hq
            · exact g3 hq
            · cases List.mem_singleton.1 hq; exact absurd rfl e
    · cases hs
  | failed i =>
    rw [show gnTry s (.failed i) = [] from rfl, List.append_nil]
    simp only [gnStep] at hs
    split at hs
    · next idx k hp =>
      split at hs
      · cases hs
        refine h.pcs rfl rfl (fun _ hq => hq) (fun j => ?_)
        by_cases e : j = i
        · subst e; exact .inr (.inr (by simp [setAt, hp, GNPc.turn, GNPc.tried]))
        · exact .inr (.inl (by simp [setAt, e]))
      · cases hs
    · next idx k t hp =>
      split at hs
      · cases hs
        refine h.pcs rfl rfl (fun _ hq => hq) (fun j => ?_)
        by_cases e : j = i
        · subst e; exact .inr (.inr (by simp [setAt, hp, GNPc.turn, GNPc.tried]))
        · exact .inr (.inl (by simp [setAt, e]))
      · cases hs
    · cases hs
  | sent i =>
    rw [show gnTry s (.sent i) = [] from rfl, List.append_nil]
    simp only [gnStep] at hs
    split at hs
    · next idx k t hp =>
      split at hs
      · cases hs
        refine h.pcs rfl rfl (fun _ hq => hq) (fun j => ?_)
        by_cases e : j = i
        · subst e; exact .inr (.inl (by simp [setAt, hp, GNPc.turn, GNPc.tried]))
        · exact .inr (.inl (by simp [setAt, e]))
      · cases hs
    · cases hs
  | gaveUp i =>
    rw [show gnTry s (.gaveUp i) = [] from rfl, List.append_nil]
    simp only [gnStep] at hs
    split at hs
    · next idx k t hp =>
      cases hs
      refine h.pcs rfl rfl (fun _ hq => hq) (fun j => ?_)
      by_cases e : j = i
      · subst e; exact .inr (.inl (by simp [setAt, hp, GNPc.turn, GNPc.tried]))
      · exact .inr (.inl (by simp [setAt, e]))
    · cases hs
  | got i f =>
    rw [show gnTry s (.got i f) = [] from rfl, List.append_nil]
    simp only [gnStep] at hs
    split at hs
    · split at hs
      · cases hs
        refine h.pcs rfl rfl (fun q hq => by simpa using hq) (fun j => ?_)
        by_cases e : j = i
        · subst e; exact .inl (by simp [setAt])
        · exact .inr (.inl (by simp [setAt, e]))
      · cases hs
    · cases hs
  | reset i =>
    rw [show gnTry s (.reset i) = [] from rfl, List.append_nil]
    simp only [gnStep] at hs
    split at hs
    · split at hs
      · cases hs
        refine h.pcs rfl rfl (fun q hq => by simpa using hq) (fun j => ?_)
        by_cases e : j = i
        · subst e; exact .inl (by simp [setAt])
        · exact .inr (.inl (by simp [setAt, e]))
      · cases hs
    · cases hs

theorem gnTries_cons {conf : CConf} {n : Nat} {cmd : Cmd} {s s' : GNSt} {a : GNAct} {as : List GNAct} (h : gnStep conf n cmd s a = some s') :
    gnTries conf n cmd s (a :: as) = gnTry s a ++ gnTries conf n cmd s' as := by
  simp only [gnTries, h]
  rfl

theorem GNTried.reach {conf : CConf} {n : Nat} {cmd : Cmd} {dialed : Nat → Bool} : ∀ {acts : List GNAct} {s s' : GNSt} {T : List (Nat × Nat)},
    GNInv conf n cmd dialed s → GNTried n s T → runActs (gnStep conf n cmd) s acts = some s' → GNTried n s' (T ++ gnTries conf n cmd s acts)
  | [], s, s', T, _, h, hr => by cases hr; simpa [gnTries] using h
  | a :: as, s, s', T, inv, h, hr => by
    simp only [runActs] at hr
    split at hr
    · cases hr
    · next s1 hs =>
      rw [gnTries_cons hs, ← List.append_assoc]
      exact GNTried.reach (inv.step hs) (h.step inv hs) hr

/-- **C115, connections tried.** In every execution each call tries some of the connections one after the other, none twice, going round
from a starting point; and it returns ErrServiceNA only when it has tried every one. -/
theorem C115_tries {conf : CConf} {n : Nat} {cmd : Cmd} {dialed : Nat → Bool} {acts : List GNAct} {s : GNSt}
    (hrun : gnRun conf n cmd dialed acts = some s) (q : Nat) :
    (triesOf q (gnTries conf n cmd (GNSt.init dialed) acts)).Nodup ∧
    (∃ start, ∀ p c, (triesOf q (gnTries conf n cmd (GNSt.init dialed) acts))[p]? = some c → c = (start + p) % n) ∧
    ((q, .na) ∈ s.out → ∀ c, c < n → c ∈ triesOf q (gnTries conf n cmd (GNSt.init dialed) acts)) := by
  have h := GNTried.reach (T := []) (GNInv.init conf n cmd dialed) ⟨fun _ => Nat.zero_le _, by simp [GNSt.init, GNPc.turn],
    fun q => ⟨0, 0, Nat.zero_le _, rfl, by simp [GNSt.init]⟩, by simp⟩ hrun
  obtain ⟨idx, k, h1, h2, h3⟩ := h.past q
  rw [List.nil_append] at h2
  rw [h2]
  refine ⟨?_, ⟨idx.toNat, fun p c hp => ?_⟩, fun hq c hc => ?_⟩
  · rw [List.nodup_iff_pairwise_ne, List.pairwise_map]
    refine List.pairwise_lt_range.imp_of_mem fun {a b} ha hb hab e => ?_
    have ha := List.mem_range.1 ha
    have hb := List.mem_range.1 hb
    exact absurd (genPos_inj (by omega) (by omega) e) (Nat.ne_of_lt hab)
  · simp only [List.getElem?_map, Option.map_eq_some_iff] at hp
    obtain ⟨p', hp, rfl⟩ := hp
    obtain ⟨hp1, hp2⟩ := List.getElem?_eq_some_iff.1 hp
    simp only [List.getElem_range] at hp2
    subst hp2
    simp [genPos, Nat.add_comm]
  · rw [h3 hq]
    have hn : 0 < n := by omega
    refine List.mem_map.2 ⟨(c + (n - idx.toNat % n)) % n, List.mem_range.2 (Nat.mod_lt _ hn), ?_⟩
    have hm := Nat.mod_lt idx.toNat hn
    simp only [genPos, Nat.mod_add_mod]
    have hd := Nat.div_add_mod idx.toNat n
    have he : c + (n - idx.toNat % n) + idx.toNat = c + n * (idx.toNat / n + 1) := by
      rw [Nat.mul_add]; omega
    rw [he, Nat.add_mul_mod_self_left, Nat.mod_eq_of_lt hc]

/-- The call of `gnOne` tries connection 1, where the transport fails, and then connection 0; a call for which both fail returns
ErrServiceNA. -/
example : triesOf 0 (gnTries cfgR 2 1 (GNSt.init fun _ => true) gnOne) = [1, 0] := by decide +kernel
example : triesOf 0 (gnTries cfgR 2 1 (GNSt.init fun _ => true) ([.call 0 gnA, .go 0] ++ gnBreak 1 ++ [.go 0] ++ gnBreak 0 ++ [.go 0])) = [1, 0] ∧
    (gnRun cfgR 2 1 (fun _ => true) ([.call 0 gnA, .go 0] ++ gnBreak 1 ++ [.go 0] ++ gnBreak 0 ++ [.go 0])).map (·.out) = some [(0, .na)] := by
  decide +kernel

end Qrpc
