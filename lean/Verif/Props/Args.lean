import Verif.Lemmas.GroupInv
import Verif.Model.Args
import Verif.Props.Api
/-! # C135: what a caller does with the slices it has given -/
namespace Qrpc

theorem getElem?_snoc_old {α : Type} {l : List α} {x : α} {k : Nat} {a : α} (h : l[k]? = some a) : (l ++ [x])[k]? = some a := by
  rw [List.getElem?_append_left (List.getElem?_eq_some_iff.1 h).1]; exact h

/-- What the objects have: their own copies. -/
structure ArgInv (s : ArgSt) : Prop where
  eps : ∀ a ∈ s.apis, a.eps = a.given.1 ∧ (a.given.2 = none ↔ a.ws = none)
  addrs : ∀ c ∈ s.conns, c.addrs.Perm c.given
  picked : ∀ (k idx t : Nat) (ep : Option Nat), .picked k idx t ep ∈ s.log → ∃ a, s.apis[k]? = some a ∧ ep = a.given.1[idx]? ∧
    (a.given.2 = none → idx = (getIdx (List.replicate a.given.1.length 1) t).1)
  dialled : ∀ (k x : Nat), .dialled k x ∈ s.log → ∃ c, s.conns[k]? = some c ∧ x ∈ c.given

theorem ArgInv.step {s s' : ArgSt} {a : ArgAct} (h : ArgInv s) (hs : argStep s a = some s') : ArgInv s' := by
  obtain ⟨h1, h2, h3, h4⟩ := h
  cases a <;> simp only [argStep] at hs
  case setStr => simp only [Option.some.injEq] at hs; subst hs; exact ⟨h1, h2, h3, h4⟩
  case setInt => simp only [Option.some.injEq] at hs; subst hs; exact ⟨h1, h2, h3, h4⟩
  case setBind => simp only [Option.some.injEq] at hs; subst hs; exact ⟨h1, h2, h3, h4⟩
  case newSrv => simp only [Option.some.injEq] at hs; subst hs; exact ⟨h1, h2, h3, h4⟩
  case newApi r w =>
    simp only [Option.some.injEq] at hs; subst hs
    refine ⟨fun a ha => ?_, h2, fun k idx t ep he => ?_, h4⟩
    · rcases List.mem_append.1 ha with ha | ha
      · exact h1 a ha
      · rw [List.mem_singleton.1 ha]; exact ⟨rfl, by simp⟩
    · obtain ⟨a, ha, hr⟩ := h3 k idx t ep he
      exact ⟨a, getElem?_snoc_old ha, hr⟩
  case call k t =>
    split at hs
    · next a ha =>
      split at hs
      · simp only [Option.some.injEq] at hs; subst hs
        refine ⟨h1, h2, fun k' idx t' ep he => ?_, fun k' x hx => h4 k' x (by simpa using hx)⟩
        simp only [List.mem_append, List.mem_singleton, ArgEv.picked.injEq] at he
        rcases he with he | ⟨rfl, rfl, rfl, rfl⟩
        · exact h3 k' idx t' ep he
        · obtain ⟨e1, e2⟩ := h1 a (List.mem_of_getElem? ha)
          refine ⟨a, ha, by rw [e1], fun hg => ?_⟩
          rw [ArgSt.weights, e2.1 hg, e1]
      · cases hs
    · cases hs
  case newConn r l =>
    split at hs
    · next hl =>
      split at hs
      · next a ha =>
        simp only [Option.some.injEq] at hs; subst hs
        refine ⟨h1, fun c hc => ?_, fun k idx t ep he => h3 k idx t ep (by simpa using he), fun k x he => ?_⟩
        · rcases List.mem_append.1 hc with hc | hc
          · exact h2 c hc
          · rw [List.mem_singleton.1 hc]; exact hl
        · simp only [List.mem_append, List.mem_singleton, ArgEv.dialled.injEq] at he
          rcases he with he | ⟨rfl, rfl⟩
          · obtain ⟨c, hc, hr⟩ := h4 k x he
            exact ⟨c, getElem?_snoc_old hc, hr⟩
          · exact ⟨⟨l, 0, s.strs r⟩, by simp, hl.mem_iff.1 (List.mem_of_getLast? ha)⟩
      · cases hs
    · cases hs
  case dial k =>
    split at hs
    · next c hc =>
      split at hs
      · next a ha =>
        simp only [Option.some.injEq] at hs; subst hs
        have hmem := List.mem_of_getElem? hc
        have hset : ∀ (k' : Nat) (c' : ConnO), s.conns[k']? = some c' →
            ∃ c'', (s.conns.set k { c with idx := c.idx + 1 })[k']? = some c'' ∧ c''.given = c'.given := by
          intro k' c' hc'
          rw [List.getElem?_set]
          by_cases e : k = k'
          · subst e
            rw [hc] at hc'; injection hc' with e; subst e
            exact ⟨{ c with idx := c.idx + 1 }, by simp [(List.getElem?_eq_some_iff.1 hc).1], rfl⟩
          · exact ⟨c', by simp [e, hc'], rfl⟩
        refine ⟨h1, fun c' hc' => ?_, fun k' idx t' ep he => h3 k' idx t' ep (by simpa using he), fun k' x hx => ?_⟩
        · rcases List.mem_or_eq_of_mem_set hc' with hc' | rfl
          · exact h2 c' hc'
          · exact h2 c hmem
        · simp only [List.mem_append, List.mem_singleton, ArgEv.dialled.injEq] at hx
          rcases hx with hx | ⟨rfl, rfl⟩
          · obtain ⟨c', hc', hr⟩ := h4 k' x hx
            obtain ⟨c'', e1, e2⟩ := hset k' c' hc'
            exact ⟨c'', e1, e2 ▸ hr⟩
          · obtain ⟨c'', e1, e2⟩ := hset k' c hc
            exact ⟨c'', e1, e2 ▸ (h2 c hmem).mem_iff.1 (List.mem_of_getElem? ha)⟩
      · cases hs
    · cases hs
  case listen k i l =>
    repeat' split at hs
    all_goals try cases hs
    exact ⟨h1, h2, fun k' idx t' ep he => h3 k' idx t' ep (by simpa using he), fun k' x hx => h4 k' x (by simpa using hx)⟩
  case serve k i =>
    repeat' split at hs
    all_goals try cases hs
    exact ⟨h1, h2, fun k' idx t' ep he => h3 k' idx t' ep (by simpa using he), fun k' x hx => h4 k' x (by simpa using hx)⟩

theorem ArgInv.reach {strs : Nat → List Nat} {ints : Nat → List Int} {binds : Nat → List Slot} {acts : List ArgAct} {s : ArgSt}
    (h : argRun (.init strs ints binds) acts = some s) : ArgInv s :=
  runActs_inv (P := ArgInv) (fun _ _ _ h hs => h.step hs) ⟨by simp [ArgSt.init], by simp [ArgSt.init], by simp [ArgSt.init], by simp [ArgSt.init]⟩ h

/-- The objects made are not lost. -/
theorem apis_keep {s s' : ArgSt} {a : ArgAct} (hs : argStep s a = some s') {k : Nat} {x : ApiO} (h : s.apis[k]? = some x) : s'.apis[k]? = some x := by
  cases a <;> simp only [argStep] at hs
  case newApi r w => simp only [Option.some.injEq] at hs; subst hs; exact getElem?_snoc_old h
  all_goals repeat' split at hs
  all_goals simp only [Option.some.injEq, reduceCtorEq] at hs
  all_goals subst hs
  all_goals exact h

/-- Whatever the caller does, a connection once made keeps its addresses. -/
theorem conns_keep {s s' : ArgSt} {a : ArgAct} (hs : argStep s a = some s') {k : Nat} {x : ConnO} (h : s.conns[k]? = some x) :
    ∃ y, s'.conns[k]? = some y ∧ y.given = x.given := by
  cases a <;> simp only [argStep] at hs
  case newConn r l =>
    split at hs
    · split at hs
      · simp only [Option.some.injEq] at hs; subst hs; exact ⟨x, getElem?_snoc_old h, rfl⟩
      · cases hs
    · cases hs
  case dial k' =>
    repeat' split at hs
    all_goals try cases hs
    next c hc _ _ _ =>
    simp only []
    rw [List.getElem?_set]
    by_cases e : k' = k
    · subst e
      rw [hc] at h; injection h with h; subst h
      exact ⟨{ c with idx := c.idx + 1 }, by simp [(List.getElem?_eq_some_iff.1 hc).1], rfl⟩
    · exact ⟨x, by simp [e, h], rfl⟩
  all_goals repeat' split at hs
  all_goals simp only [Option.some.injEq, reduceCtorEq] at hs
  all_goals subst hs
  all_goals exact ⟨x, h, rfl⟩

/-- **C135, endpoints.** Let an API be made from the caller's array `r` of endpoints, when it holds `(s0.strs r)`. Whatever is assigned to the
caller's arrays before and afterwards, a call for which the API chose index `idx` goes to the endpoint that was there at `idx`; and if no
weights were given, the choice is the one for equal weights. -/
theorem C135 {strs : Nat → List Nat} {ints : Nat → List Int} {binds : Nat → List Slot} {as bs : List ArgAct} {r : Nat} {w : Option Nat}
    {s0 s : ArgSt} (h0 : argRun (.init strs ints binds) as = some s0) (h : argRun (.init strs ints binds) (as ++ .newApi r w :: bs) = some s)
    {idx t : Nat} {ep : Option Nat} (he : .picked s0.apis.length idx t ep ∈ s.log) :
    ep = (s0.strs r)[idx]? ∧ (w = none → idx = (getIdx (List.replicate (s0.strs r).length 1) t).1) := by
  obtain ⟨a, ha, h1, h2⟩ := (ArgInv.reach h).picked _ _ _ _ he
  rw [argRun, runActs_append, show runActs argStep (.init strs ints binds) as = some s0 from h0] at h
  simp only [Option.bind_some, runActs, argStep] at h
  have hk := runActs_inv (P := fun s => s.apis[s0.apis.length]? =
    some ⟨s0.strs r, w, (apiWeights (s0.strs r).length (w.map s0.ints)).sum, (s0.strs r, w.map s0.ints)⟩)
    (fun _ _ _ h hs => apis_keep hs h) (by simp) h
  rw [hk] at ha; injection ha with ha; subst ha
  exact ⟨h1, fun hw => h2 (by simp [hw])⟩

/-- **C135, addresses.** A connection made from the caller's array `r` of addresses dials only addresses that were in it then. -/
theorem C135_addrs {strs : Nat → List Nat} {ints : Nat → List Int} {binds : Nat → List Slot} {as bs : List ArgAct} {r : Nat} {l : List Nat}
    {s0 s : ArgSt} (h0 : argRun (.init strs ints binds) as = some s0) (h : argRun (.init strs ints binds) (as ++ .newConn r l :: bs) = some s)
    {x : Nat} (he : .dialled s0.conns.length x ∈ s.log) : x ∈ s0.strs r := by
  obtain ⟨c, hc, h1⟩ := (ArgInv.reach h).dialled _ _ he
  rw [argRun, runActs_append, show runActs argStep (.init strs ints binds) as = some s0 from h0] at h
  simp only [Option.bind_some, runActs, argStep] at h
  by_cases hl : l.Perm (s0.strs r)
  · simp only [hl, if_true] at h
    split at h
    · cases h
    next s1 hs1 =>
    split at hs1
    case h_2 => cases hs1
    simp only [Option.some.injEq] at hs1
    subst hs1
    have hk := runActs_inv (P := fun s => ∃ y, s.conns[s0.conns.length]? = some y ∧ y.given = s0.strs r)
      (fun _ _ _ ⟨y, h1, h2⟩ hs => by
        obtain ⟨z, h3, h4⟩ := conns_keep hs h1
        exact ⟨z, h3, h4.trans h2⟩) ⟨⟨l, 0, s0.strs r⟩, by simp, rfl⟩ h
    obtain ⟨y, h2, h3⟩ := hk
    rw [hc] at h2; injection h2 with h2; subst h2
    exact h3 ▸ h1
  · simp only [hl, if_false] at h; cases h

/-- The action does not assign to the array `r` of weights. -/
def ArgAct.sparesInt (r : Nat) : ArgAct → Bool
  | .setInt r' _ _ => r' != r
  | _ => true

/-- **C135, weights, partial**: only as long as the caller does not assign to the weights it gave. Then the choice is the one for these
weights, it is an index into them, and the fallback branch is not taken. Without this the property fails (`C135_refuted_weights`). -/
theorem C135_weights_partial {strs : Nat → List Nat} {ints : Nat → List Int} {binds : Nat → List Slot} {as bs : List ArgAct} {r w : Nat}
    {s0 s : ArgSt} (h0 : argRun (.init strs ints binds) as = some s0) (h : argRun (.init strs ints binds) (as ++ .newApi r (some w) :: bs) = some s)
    (hb : ∀ a ∈ bs, a.sparesInt w = true) {idx t : Nat} {ep : Option Nat} (he : .picked s0.apis.length idx t ep ∈ s.log) :
    getIdx (s0.ints w) t = (idx, false) ∧ idx < (s0.ints w).length := by
  have hI0 := ArgInv.reach h0
  rw [argRun, runActs_append, show runActs argStep (.init strs ints binds) as = some s0 from h0] at h
  simp only [Option.bind_some, runActs, argStep] at h
  have key : s.apis[s0.apis.length]? = some ⟨s0.strs r, some w, (s0.ints w).sum, (s0.strs r, some (s0.ints w))⟩ ∧ s.ints w = s0.ints w ∧
      ∀ (idx t : Nat) (ep : Option Nat), .picked s0.apis.length idx t ep ∈ s.log →
        idx = (getIdx (s0.ints w) t).1 ∧ (t : Int) < (s0.ints w).sum := by
    clear he
    have gen : ∀ (bs : List ArgAct) (u v : ArgSt), (∀ a ∈ bs, a.sparesInt w = true) → runActs argStep u bs = some v →
        (u.apis[s0.apis.length]? = some ⟨s0.strs r, some w, (s0.ints w).sum, (s0.strs r, some (s0.ints w))⟩ ∧ u.ints w = s0.ints w ∧
          ∀ (idx t : Nat) (ep : Option Nat), .picked s0.apis.length idx t ep ∈ u.log →
            idx = (getIdx (s0.ints w) t).1 ∧ (t : Int) < (s0.ints w).sum) →
        (v.apis[s0.apis.length]? = some ⟨s0.strs r, some w, (s0.ints w).sum, (s0.strs r, some (s0.ints w))⟩ ∧ v.ints w = s0.ints w ∧
          ∀ (idx t : Nat) (ep : Option Nat), .picked s0.apis.length idx t ep ∈ v.log →
            idx = (getIdx (s0.ints w) t).1 ∧ (t : Int) < (s0.ints w).sum) := by
      intro bs
      induction bs with
      | nil => intro u v _ hr hu; simp only [runActs, Option.some.injEq] at hr; subst hr; exact hu
      | cons a bs ih =>
        intro u v hb hr hu
        rw [runActs] at hr
        cases hs : argStep u a with
        | none => rw [hs] at hr; cases hr
        | some u' =>
          rw [hs] at hr
          refine ih u' v (fun b hb' => hb b (by simp [hb'])) hr ⟨apis_keep hs hu.1, ?_, ?_⟩
          · have ha := hb a (by simp)
            cases a <;> simp only [argStep] at hs
            case setInt r' i x =>
              simp only [Option.some.injEq] at hs; subst hs
              simp only []
              rw [setAt_other _ _ (by rintro rfl; simp [ArgAct.sparesInt] at ha)]
              exact hu.2.1
            all_goals repeat' split at hs
            all_goals simp only [Option.some.injEq, reduceCtorEq] at hs
            all_goals subst hs
            all_goals exact hu.2.1
          · cases a <;> simp only [argStep] at hs
            case call k t =>
              repeat' split at hs
              all_goals try cases hs
              next x hx ht =>
              intro idx t' ep he
              simp only [List.mem_append, List.mem_singleton, ArgEv.picked.injEq] at he
              rcases he with he | ⟨rfl, rfl, rfl, rfl⟩
              · exact hu.2.2 idx t' ep he
              · rw [hu.1] at hx; injection hx with hx; subst hx
                exact ⟨by simp [ArgSt.weights, hu.2.1], ht⟩
            all_goals repeat' split at hs
            all_goals simp only [Option.some.injEq, reduceCtorEq] at hs
            all_goals subst hs
            all_goals intro idx t ep he
            all_goals exact hu.2.2 idx t ep (by simpa using he)
    refine gen bs _ s hb h ⟨by simp [apiWeights], rfl, fun idx t ep he => ?_⟩
    obtain ⟨a, ha, -⟩ := hI0.picked _ _ _ _ he
    have := (List.getElem?_eq_some_iff.1 ha).1
    omega
  obtain ⟨-, -, hp⟩ := key
  obtain ⟨rfl, ht⟩ := hp idx t ep he
  obtain ⟨h1, h2⟩ := C48_no_fallback ht
  exact ⟨Prod.ext rfl h1, h2⟩

/-! ## Servers -/

/-- The action does not assign to the array `r` of bindings. -/
def ArgAct.sparesBind (r : Nat) : ArgAct → Bool
  | .setBind r' _ _ => r' != r
  | _ => true

/-- Every listener in array `r`, and every one served from there, was opened by a server made from this array, for the same binding; and
apart from the listeners and queue sizes below 1 the array is as the caller gave it. -/
structure BindInv (r : Nat) (given : List Slot) (s : ArgSt) : Prop where
  ln : ∀ (i : Nat) (b : Slot) (l : Nat), (s.binds r)[i]? = some b → b.ln = some l → ∃ k : Nat, s.srvs[k]? = some ⟨r⟩ ∧ .opened k i l ∈ s.log
  served : ∀ k i l : Nat, s.srvs[k]? = some ⟨r⟩ → .served k i (some l) ∈ s.log → ∃ k' : Nat, s.srvs[k']? = some ⟨r⟩ ∧ .opened k' i l ∈ s.log
  known : ∀ (k i : Nat) (o : Option Nat), .served k i o ∈ s.log → ∃ v, s.srvs[k]? = some v
  rest : (s.binds r).map (fun b => (b.rest, max b.write 1)) = given.map fun b => (b.rest, max b.write 1)
  made : (∃ k : Nat, s.srvs[k]? = some ⟨r⟩) → ∀ b ∈ s.binds r, 1 ≤ b.write

theorem atLeast1_spec (b : Slot) : b.atLeast1.ln = b.ln ∧ b.atLeast1.rest = b.rest ∧ b.atLeast1.write = max b.write 1 := by
  unfold Slot.atLeast1
  split
  · next h => exact ⟨rfl, rfl, by show (1 : Int) = _; omega⟩
  · exact ⟨rfl, rfl, by omega⟩

theorem map_set_same {α β : Type} {f : α → β} {l : List α} {n : Nat} {x y : α} (h : l[n]? = some x) (he : f y = f x) :
    (l.set n y).map f = l.map f := by
  rw [List.map_set, he]
  apply List.ext_getElem?
  intro m
  rw [List.getElem?_set]
  split
  · next e =>
    subst e
    rw [if_pos (by rw [List.length_map]; exact (List.getElem?_eq_some_iff.1 h).1), List.getElem?_map, h]; rfl
  · rfl

theorem BindInv.step {r : Nat} {given : List Slot} {s s' : ArgSt} {a : ArgAct} (h : BindInv r given s) (ha : a.sparesBind r = true)
    (hs : argStep s a = some s') : BindInv r given s' := by
  obtain ⟨h1, h2, h3, h4, h5⟩ := h
  cases a <;> simp only [argStep] at hs
  case setBind r' i v =>
    simp only [Option.some.injEq] at hs; subst hs
    have hr : r ≠ r' := by rintro rfl; simp [ArgAct.sparesBind] at ha
    refine ⟨?_, h2, h3, ?_, ?_⟩
    all_goals simp only [setAt_other _ _ hr]
    · exact h1
    · exact h4
    · exact h5
  case newSrv r' =>
    simp only [Option.some.injEq] at hs; subst hs
    have hold : ∀ k : Nat, (s.srvs ++ [⟨r'⟩])[k]? = some ⟨r⟩ → s.srvs[k]? = some ⟨r⟩ ∨ k = s.srvs.length ∧ r' = r := by
      intro k hk
      rw [List.getElem?_append] at hk
      split at hk
      · exact .inl hk
      · next hge =>
        rw [List.getElem?_singleton] at hk
        split at hk
        · next he => exact .inr ⟨by omega, by injection hk with hk; injection hk⟩
        · cases hk
    have hserved : ∀ k i l : Nat, (s.srvs ++ [⟨r'⟩])[k]? = some ⟨r⟩ → .served k i (some l) ∈ s.log →
        ∃ k' : Nat, (s.srvs ++ [⟨r'⟩])[k']? = some ⟨r⟩ ∧ .opened k' i l ∈ s.log := by
      intro k i l hk he
      rcases hold k hk with hk | ⟨hk, -⟩
      · obtain ⟨k', e1, e2⟩ := h2 k i l hk he
        exact ⟨k', getElem?_snoc_old e1, e2⟩
      · obtain ⟨v, hv⟩ := h3 k i _ he
        have := (List.getElem?_eq_some_iff.1 hv).1
        omega
    by_cases hr : r = r'
    · subst hr
      refine ⟨?_, hserved, fun k i o he => ?_, ?_, ?_⟩
      all_goals simp only [setAt_same]
      · intro i b l hb hl
        rw [List.getElem?_map] at hb
        obtain ⟨b0, e1, rfl⟩ := Option.map_eq_some_iff.1 hb
        rw [(atLeast1_spec b0).1] at hl
        obtain ⟨k, e2, e3⟩ := h1 i b0 l e1 hl
        exact ⟨k, getElem?_snoc_old e2, e3⟩
      · obtain ⟨v, hv⟩ := h3 k i o he
        exact ⟨v, getElem?_snoc_old hv⟩
      · rw [← h4, List.map_map]
        refine List.map_congr_left fun b _ => ?_
        obtain ⟨-, e1, e2⟩ := atLeast1_spec b
        simp only [Function.comp, e1, e2]
        congr 1
        omega
      · intro _ b hb
        obtain ⟨b0, -, rfl⟩ := List.mem_map.1 hb
        rw [(atLeast1_spec b0).2.2]
        omega
    · refine ⟨?_, hserved, fun k i o he => ?_, ?_, ?_⟩
      all_goals simp only [setAt_other _ _ hr]
      · intro i b l hb hl
        obtain ⟨k, e2, e3⟩ := h1 i b l hb hl
        exact ⟨k, getElem?_snoc_old e2, e3⟩
      · obtain ⟨v, hv⟩ := h3 k i o he
        exact ⟨v, getElem?_snoc_old hv⟩
      · exact h4
      · rintro ⟨k, hk⟩
        rcases hold k hk with hk | ⟨-, e⟩
        · exact h5 ⟨k, hk⟩
        · exact absurd e.symm hr
  case listen k i l =>
    split at hs
    · next v hv =>
      split at hs
      · next b hb =>
        split at hs
        · cases hs
        · simp only [Option.some.injEq] at hs; subst hs
          refine ⟨?_, fun k' i' l' hk' he => ?_, fun k' i' o he => h3 k' i' o (by simpa using he), ?_, ?_⟩
          · intro i' b' l' hb' hl'
            simp only [] at hb' ⊢
            by_cases hr : r = v.ref
            · subst hr
              rw [setAt_same, List.getElem?_set] at hb'
              by_cases hi : i = i'
              · subst hi
                rw [if_pos rfl, if_pos (List.getElem?_eq_some_iff.1 hb).1] at hb'
                injection hb' with hb'; subst hb'
                simp only [Option.some.injEq] at hl'
                subst hl'
                exact ⟨k, hv, by simp⟩
              · rw [if_neg hi] at hb'
                obtain ⟨k', e1, e2⟩ := h1 i' b' l' hb' hl'
                exact ⟨k', e1, by simp [e2]⟩
            · rw [setAt_other _ _ hr] at hb'
              obtain ⟨k', e1, e2⟩ := h1 i' b' l' hb' hl'
              exact ⟨k', e1, by simp [e2]⟩
          · obtain ⟨k'', e1, e2⟩ := h2 k' i' l' hk' (by simpa using he)
            exact ⟨k'', e1, by simp [e2]⟩
          · by_cases hr : r = v.ref
            · subst hr
              simp only [setAt_same]
              rw [← h4]
              exact map_set_same hb rfl
            · simp only [setAt_other _ _ hr]; exact h4
          · intro hex b' hb'
            by_cases hr : r = v.ref
            · subst hr
              simp only [setAt_same] at hb'
              rcases List.mem_or_eq_of_mem_set hb' with hb' | rfl
              · exact h5 hex b' hb'
              · exact h5 hex b (List.mem_of_getElem? hb)
            · simp only [setAt_other _ _ hr] at hb'; exact h5 hex b' hb'
      · cases hs
    · cases hs
  case serve k i =>
    split at hs
    · next v hv =>
      split at hs
      · next b hb =>
        simp only [Option.some.injEq] at hs; subst hs
        refine ⟨fun i' b' l' hb' hl' => ?_, fun k' i' l' hk' he => ?_, fun k' i' o he => ?_, h4, h5⟩
        · obtain ⟨k', e1, e2⟩ := h1 i' b' l' hb' hl'
          exact ⟨k', e1, by simp [e2]⟩
        · simp only [List.mem_append, List.mem_singleton, ArgEv.served.injEq] at he
          rcases he with he | ⟨rfl, rfl, e⟩
          · obtain ⟨k'', e1, e2⟩ := h2 k' i' l' hk' he
            exact ⟨k'', e1, by simp [e2]⟩
          · rw [hv] at hk'; injection hk' with hk'; subst hk'
            obtain ⟨k'', e1, e2⟩ := h1 i' b l' hb e.symm
            exact ⟨k'', e1, by simp [e2]⟩
        · simp only [List.mem_append, List.mem_singleton, ArgEv.served.injEq] at he
          rcases he with he | ⟨rfl, rfl, e⟩
          · exact h3 k' i' o he
          · exact ⟨v, hv⟩
      · cases hs
    · cases hs
  all_goals repeat' split at hs
  all_goals simp only [Option.some.injEq, reduceCtorEq] at hs
  all_goals subst hs
  all_goals first
    | exact ⟨h1, h2, h3, h4, h5⟩
    | (refine ⟨fun i b l hb hl => ?_, fun k i l hk he => ?_, fun k i o he => h3 k i o (by simpa using he), h4, h5⟩
       · obtain ⟨k', e1, e2⟩ := h1 i b l hb hl
         exact ⟨k', e1, by simp [e2]⟩
       · obtain ⟨k', e1, e2⟩ := h2 k i l hk (by simpa using he)
         exact ⟨k', e1, by simp [e2]⟩)

/-- **C135, bindings, partial**: only as long as the caller does not assign to the bindings it gave, and does not make a second server from
the same slice. Then a server serves a binding with a listener that it has opened itself for this binding, or with none (ServeAll without
ListenAll), and uses the caller's configuration, with queue sizes of at least 1. Without this the property fails (`C135_refuted_servers`). -/
theorem C135_servers_partial {strs : Nat → List Nat} {ints : Nat → List Int} {binds : Nat → List Slot} {acts : List ArgAct} {s : ArgSt}
    {r k : Nat} (hfresh : ∀ b ∈ binds r, b.ln = none) (h : argRun (.init strs ints binds) acts = some s)
    (ha : ∀ a ∈ acts, a.sparesBind r = true) (hk : s.srvs[k]? = some ⟨r⟩) (hone : ∀ k', s.srvs[k']? = some ⟨r⟩ → k' = k) :
    (∀ (i : Nat) (o : Option Nat), .served k i o ∈ s.log → o = none ∨ ∃ l, o = some l ∧ .opened k i l ∈ s.log) ∧
    (s.binds r).map (fun b => (b.rest, b.write)) = (binds r).map fun b => (b.rest, max b.write 1) := by
  have hI : BindInv r (binds r) s := by
    have gen : ∀ (acts : List ArgAct) (u v : ArgSt), (∀ a ∈ acts, a.sparesBind r = true) → runActs argStep u acts = some v →
        BindInv r (binds r) u → BindInv r (binds r) v := by
      intro acts
      induction acts with
      | nil => intro u v _ hr hu; simp only [runActs, Option.some.injEq] at hr; subst hr; exact hu
      | cons a acts ih =>
        intro u v hb hr hu
        rw [runActs] at hr
        cases hs : argStep u a with
        | none => rw [hs] at hr; cases hr
        | some u' =>
          rw [hs] at hr
          exact ih u' v (fun b hb' => hb b (by simp [hb'])) hr (hu.step (hb a (by simp)) hs)
    refine gen acts _ s ha h ⟨?_, by simp [ArgSt.init], by simp [ArgSt.init], rfl, by simp [ArgSt.init]⟩
    intro i b l hb hl
    rw [hfresh b (List.mem_of_getElem? hb)] at hl; cases hl
  constructor
  · intro i o he
    cases o with
    | none => exact .inl rfl
    | some l =>
      obtain ⟨k', e1, e2⟩ := hI.served k i l hk he
      rw [hone k' e1] at e2
      exact .inr ⟨l, rfl, e2⟩
  · rw [← hI.rest]
    refine List.map_congr_left fun b hb => ?_
    have := hI.made ⟨k, hk⟩ b hb
    congr 1
    omega

/-! ## Where it fails, and examples -/

/-- **C135 fails for weights**: endpoints 10 and 20 with weights 0 and 5, so that every call goes to 20. The caller then sets the second
weight to 0, in its own slice, and every call goes to 10, by way of the branch "getIdx bug". -/
theorem C135_refuted_weights :
    (argRun (.init (fun _ => [10, 20]) (fun _ => [0, 5]) (fun _ => [])) [.newApi 0 (some 0), .call 0 3, .setInt 0 1 0, .call 0 3]).map (·.log) =
      some [.picked 0 1 3 (some 20), .picked 0 0 3 (some 10)] ∧
    (getIdx [0, 0] 3).2 = true := by decide +kernel

theorem opened_once {s s' : ArgSt} {a : ArgAct} (hs : argStep s a = some s')
    (h : ∀ k i k' i' l : Nat, .opened k i l ∈ s.log → .opened k' i' l ∈ s.log → k = k' ∧ i = i') :
    ∀ k i k' i' l : Nat, .opened k i l ∈ s'.log → .opened k' i' l ∈ s'.log → k = k' ∧ i = i' := by
  cases a <;> simp only [argStep] at hs
  case listen k0 i0 l0 =>
    repeat' split at hs
    all_goals first | (cases hs; done) | skip
    next hn =>
      simp only [Option.some.injEq] at hs; subst hs
      have hn' : ∀ k i : Nat, .opened k i l0 ∉ s.log := fun k i hm => hn (List.any_eq_true.2 ⟨_, hm, by simp [ArgEv.opens]⟩)
      intro k i k' i' l h1 h2
      simp only [List.mem_append, List.mem_singleton, ArgEv.opened.injEq] at h1 h2
      rcases h1 with h1 | ⟨rfl, rfl, rfl⟩ <;> rcases h2 with h2 | ⟨h2, h3, h4⟩
      · exact h k i k' i' l h1 h2
      · subst h4; exact absurd h1 (hn' _ _)
      · exact absurd h2 (hn' _ _)
      · exact ⟨h2.symm, h3.symm⟩
  all_goals repeat' split at hs
  all_goals first | (cases hs; done) | skip
  all_goals simp only [Option.some.injEq] at hs
  all_goals subst hs
  all_goals first
    | exact h
    | (intro k i k' i' l h1 h2; exact h k i k' i' l (by simpa using h1) (by simpa using h2))

/-- **C135, listeners, partial** (under the hypotheses of `C135_servers_partial`, for both servers): no two bindings, of one server or of two, are served with the
same listener. -/
theorem C135_listeners_partial {strs : Nat → List Nat} {ints : Nat → List Int} {binds : Nat → List Slot} {acts : List ArgAct} {s : ArgSt}
    {r k r' k' : Nat} (hfresh : ∀ b ∈ binds r, b.ln = none) (hfresh' : ∀ b ∈ binds r', b.ln = none) (h : argRun (.init strs ints binds) acts = some s)
    (ha : ∀ a ∈ acts, a.sparesBind r = true) (ha' : ∀ a ∈ acts, a.sparesBind r' = true)
    (hk : s.srvs[k]? = some ⟨r⟩) (hone : ∀ j, s.srvs[j]? = some ⟨r⟩ → j = k)
    (hk' : s.srvs[k']? = some ⟨r'⟩) (hone' : ∀ j, s.srvs[j]? = some ⟨r'⟩ → j = k')
    {i i' l : Nat} (h1 : .served k i (some l) ∈ s.log) (h2 : .served k' i' (some l) ∈ s.log) : k = k' ∧ i = i' := by
  have hO := runActs_inv (P := fun s : ArgSt => ∀ k i k' i' l : Nat, .opened k i l ∈ s.log → .opened k' i' l ∈ s.log → k = k' ∧ i = i')
    (fun _ _ _ hi hs => opened_once hs hi) (by simp [ArgSt.init]) h
  rcases (C135_servers_partial hfresh h ha hk hone).1 i _ h1 with e | ⟨m, e, o⟩
  · cases e
  rcases (C135_servers_partial hfresh' h ha' hk' hone').1 i' _ h2 with e' | ⟨m', e', o'⟩
  · cases e'
  injection e with e; injection e' with e'
  subst e e'
  exact hO _ _ _ _ _ o o'

/-- **C135 fails for bindings**: two servers made from one slice, each of which listens and serves: the first serves the second's listener
too, its own (7) is served by nobody; and the caller's slice has been changed. -/
theorem C135_refuted_servers :
    (argRun (.init (fun _ => []) (fun _ => []) (fun _ => [⟨0, none, 1⟩])) [.newSrv 0, .newSrv 0, .listen 0 0 7, .listen 1 0 8, .serve 0 0, .serve 1 0]).map
      (fun s => (s.log, s.binds 0)) =
      some ([.opened 0 0 7, .opened 1 0 8, .served 0 0 (some 8), .served 1 0 (some 8)], [⟨1, some 8, 1⟩]) := by decide +kernel

/-- An API whose caller changes both of its slices, and a connection with its addresses: they go on as before. -/
example : (argRun (.init (fun _ => [10, 20]) (fun _ => [1, 5]) (fun _ => []))
      [.newApi 0 none, .newConn 0 [20, 10], .setStr 0 1 30, .setInt 0 1 0, .call 0 1, .dial 0, .dial 0, .newApi 0 (some 3), .setInt 0 0 9, .call 1 5]).map (·.log) =
    some [.dialled 0 10, .picked 0 1 1 (some 20), .dialled 0 20, .dialled 0 10, .picked 1 1 5 (some 30)] := by decide +kernel

/-- A server of its own slice, with two bindings; the hypotheses of `C135_servers_partial`. -/
example : (argRun (.init (fun _ => []) (fun _ => []) (fun _ => [⟨0, none, 1⟩, ⟨4, none, 2⟩]))
      [.newSrv 0, .newSrv 1, .listen 0 0 7, .listen 1 0 8, .listen 0 1 9, .serve 0 1, .serve 0 0, .serve 1 1]).map (fun s => (s.log, s.binds 0, s.srvs)) =
    some ([.opened 0 0 7, .opened 1 0 8, .opened 0 1 9, .served 0 1 (some 9), .served 0 0 (some 7), .served 1 1 none],
      [⟨1, some 7, 1⟩, ⟨4, some 9, 2⟩], [⟨0⟩, ⟨1⟩]) := by decide +kernel

end Qrpc
