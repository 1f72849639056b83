import Verif.Model.GenImports
/-! # Property C104: package names in generated code -/
namespace Qrpc

/-- protoc-gen-gogo's RegisterUniquePackageName: a new name every time; a proposed name that needs no change of characters is given if it
is free; "context" needs none. -/
structure Spec.GivesNames (reg : List Bytes → Bytes → Bytes) : Prop where
  fresh : ∀ used n, reg used n ∉ used
  own : ∀ used n, reg [] n = n → n ∉ used → reg used n = n
  plain : reg [] (ascii "context") = ascii "context"

structure ImpInv (used0 : List Bytes) (s : Imports) : Prop where
  paths : (s.all.map (·.1)).Nodup
  names : (s.all.map (·.2)).Nodup
  used : s.used = used0 ++ s.all.map (·.2)
  new : ∀ x ∈ s.all, x.2 ∉ used0

theorem ImpInv.add {reg used0 s} (hr : Spec.GivesNames reg) (h : ImpInv used0 s) (p : Bytes) : ImpInv used0 (s.add reg p) := by
  unfold Imports.add
  split
  · exact h
  · rename_i hp
    have hf := hr.fresh s.used (pkgLastName p)
    rw [h.used, List.mem_append, not_or] at hf
    rw [← h.used] at hf
    refine ⟨?_, ?_, ?_, ?_⟩
    · simp only [List.map_append, List.map_cons, List.map_nil]
      rw [List.nodup_append]
      exact ⟨h.paths, by simp, by intro a ha b hb; simp only [List.mem_singleton] at hb; exact fun e => hp (by rw [← hb, ← e]; exact ha)⟩
    · simp only [List.map_append, List.map_cons, List.map_nil]
      rw [List.nodup_append]
      exact ⟨h.names, by simp, by intro a ha b hb; simp only [List.mem_singleton] at hb; exact fun e => hf.2 (by rw [← hb, ← e]; exact ha)⟩
    · simp [h.used]
    · intro x hx
      rcases List.mem_append.1 hx with hx | hx
      · exact h.new x hx
      · cases List.mem_singleton.1 hx; exact hf.1

theorem imports_inv {reg} (hr : Spec.GivesNames reg) (used : List Bytes) (l : List Bytes) {s : Imports} (h : ImpInv used s) :
    ImpInv used (l.foldl (Imports.add reg) s) := by
  induction l generalizing s with
  | nil => exact h
  | cons p l ih => exact ih (h.add hr p)

theorem add_mono (reg) (s : Imports) (p : Bytes) : ∀ x ∈ s.all, x ∈ (s.add reg p).all := by
  intro x hx
  unfold Imports.add
  split
  · exact hx
  · exact List.mem_append.2 (.inl hx)

theorem foldl_mono (reg) (l : List Bytes) (s : Imports) : ∀ x ∈ s.all, x ∈ (l.foldl (Imports.add reg) s).all := by
  induction l generalizing s with
  | nil => exact fun _ h => h
  | cons p l ih => exact fun x hx => ih _ x (add_mono reg s p x hx)

theorem foldl_has (reg) (l : List Bytes) (s : Imports) (p : Bytes) (hp : p ∈ l) : p ∈ ((l.foldl (Imports.add reg) s).all.map (·.1)) := by
  induction l generalizing s with
  | nil => cases hp
  | cons q l ih =>
    rcases List.mem_cons.1 hp with rfl | hp
    · have : p ∈ (s.add reg p).all.map (·.1) := by
        unfold Imports.add
        split
        · assumption
        · simp
      obtain ⟨x, hx, he⟩ := List.mem_map.1 this
      exact List.mem_map.2 ⟨x, foldl_mono reg l _ x hx, he⟩
    · exact ih _ hp

/-- Where a name of an imported package comes from. -/
theorem foldl_only (reg) (l : List Bytes) (s : Imports) : ∀ x ∈ (l.foldl (Imports.add reg) s).all, x ∈ s.all ∨ x.1 ∈ l := by
  induction l generalizing s with
  | nil => exact fun _ h => .inl h
  | cons q l ih =>
    intro x hx
    rcases ih _ x hx with h | h
    · unfold Imports.add at h
      split at h
      · exact .inl h
      · rcases List.mem_append.1 h with h | h
        · exact .inl h
        · cases List.mem_singleton.1 h; exact .inr (List.mem_cons_self ..)
    · exact .inr (List.mem_cons_of_mem _ h)

theorem alias_mem {s : Imports} {p : Bytes} (h : p ∈ s.all.map (·.1)) : (p, s.alias p) ∈ s.all := by
  obtain ⟨x, hx, rfl⟩ := List.mem_map.1 h
  unfold Imports.alias
  cases hf : s.all.find? (·.1 == x.1) with
  | none => rw [List.find?_eq_none] at hf; exact absurd (by simp) (hf x hx)
  | some y =>
    have h1 := List.mem_of_find?_eq_some hf
    have h2 := List.find?_some hf
    have : y.1 = x.1 := by simpa using h2
    simp [← this, h1]

theorem imp_map_inj {l : List (Bytes × Bytes)} {f : Bytes × Bytes → Bytes} (h : (l.map f).Nodup) {x y} (hx : x ∈ l) (hy : y ∈ l)
    (e : f x = f y) : x = y := by
  induction l with
  | nil => cases hx
  | cons a l ih =>
    simp only [List.map_cons, List.nodup_cons, List.mem_map, not_exists, not_and] at h
    rcases List.mem_cons.1 hx with hx' | hx' <;> rcases List.mem_cons.1 hy with hy' | hy'
    · rw [hx', hy']
    · exact absurd (hx' ▸ e.symm) (h.1 y hy')
    · exact absurd (hy' ▸ e) (h.1 x hx')
    · exact ih h.2 hx' hy'

theorem means_iff {used : List Bytes} {s : Imports} (h : ImpInv used s) (name p : Bytes) : s.means name p = true ↔ (p, name) ∈ s.all := by
  unfold Imports.means
  constructor
  · intro hm
    cases hf : s.all.find? (·.2 == name) with
    | none => rw [hf] at hm; simp at hm
    | some y =>
      rw [hf] at hm
      have h1 := List.mem_of_find?_eq_some hf
      have h2 : y.2 = name := by simpa using List.find?_some hf
      have h3 : y.1 = p := by simpa using hm
      rw [← h2, ← h3]; exact h1
  · intro hm
    cases hf : s.all.find? (·.2 == name) with
    | none => rw [List.find?_eq_none] at hf; exact absurd (by simp) (hf _ hm)
    | some y =>
      have h1 := List.mem_of_find?_eq_some hf
      have h2 : y.2 = name := by simpa using List.find?_some hf
      have := imp_map_inj h.names h1 hm h2
      simp [this]

/-- **C104 (partial).** No package and no name is imported twice, and every package name printed by its alias means the package it stands
for; the text's package names all do if and only if the two written literally do. -/
theorem C104_partial {reg} (hr : Spec.GivesNames reg) (used types : List Bytes) :
    let s := generateImports reg used types
    (s.all.map (·.1)).Nodup ∧ (s.all.map (·.2)).Nodup ∧
    (∀ p ∈ types, p ≠ [] → s.means (s.alias p) p = true) ∧
    (∀ p ∈ [contextPkg, qrpcPkg, codegenPkg, fmtPkg, jsonPkg], s.means (s.alias p) p = true) ∧
    ((∀ x ∈ printedRefs s types, s.means x.2 x.1 = true) ↔
      s.alias contextPkg = ascii "context" ∧ s.alias qrpcPkg = ascii "qrpc") := by
  intro s
  have hI : ImpInv used s := imports_inv hr used _ ⟨by simp, by simp, by simp, by simp⟩
  have has : ∀ p, p ∈ types.filter (· ≠ []) ++ [contextPkg, qrpcPkg, codegenPkg, fmtPkg, jsonPkg] → (p, s.alias p) ∈ s.all :=
    fun p hp => alias_mem (foldl_has reg _ _ p hp)
  have h1 : ∀ p ∈ types, p ≠ [] → s.means (s.alias p) p = true := fun p hp hn =>
    (means_iff hI _ _).2 (has p (List.mem_append.2 (.inl (List.mem_filter.2 ⟨hp, by simpa using hn⟩))))
  have h2 : ∀ p ∈ [contextPkg, qrpcPkg, codegenPkg, fmtPkg, jsonPkg], s.means (s.alias p) p = true := fun p hp =>
    (means_iff hI _ _).2 (has p (List.mem_append.2 (.inr hp)))
  have lit : ∀ p n, (p, s.alias p) ∈ s.all → (s.means n p = true ↔ s.alias p = n) := by
    intro p n hp
    rw [means_iff hI]
    constructor
    · intro h; exact congrArg Prod.snd (imp_map_inj hI.paths hp h rfl)
    · rintro rfl; exact hp
  have hc := lit contextPkg (ascii "context") (has _ (List.mem_append.2 (.inr (by simp))))
  have hq := lit qrpcPkg (ascii "qrpc") (has _ (List.mem_append.2 (.inr (by simp))))
  refine ⟨hI.paths, hI.names, h1, h2, ?_⟩
  rw [← hc, ← hq]
  constructor
  · intro h
    exact ⟨h (contextPkg, ascii "context") (List.mem_append.2 (.inr (by simp))), h (qrpcPkg, ascii "qrpc") (List.mem_append.2 (.inr (by simp)))⟩
  · rintro ⟨ha, hb⟩ x hx
    simp only [printedRefs, List.mem_append] at hx
    rcases hx with (hx | hx) | hx
    · obtain ⟨p, hp, rfl⟩ := List.mem_map.1 hx
      have := List.mem_filter.1 hp
      exact h1 p this.1 (by simpa using this.2)
    · obtain ⟨p, hp, rfl⟩ := List.mem_map.1 hx
      exact h2 p hp
    · simp only [List.mem_cons, List.not_mem_nil, or_false] at hx
      rcases hx with rfl | rfl
      · exact ha
      · exact hb

/-- Packages whose last names are all different and free get their last names. -/
theorem foldl_own {reg} (hr : Spec.GivesNames reg) (l : List Bytes) (s : Imports)
    (hs : ∀ x ∈ s.all, x.2 = pkgLastName x.1) (hu : ∀ n ∈ s.used, ∀ p ∈ l, p ∉ s.all.map (·.1) → pkgLastName p ≠ n)
    (hd : ∀ p ∈ l, ∀ q ∈ l, pkgLastName p = pkgLastName q → p = q) (hc : ∀ p ∈ l, reg [] (pkgLastName p) = pkgLastName p) :
    ∀ x ∈ (l.foldl (Imports.add reg) s).all, x.2 = pkgLastName x.1 := by
  induction l generalizing s with
  | nil => exact hs
  | cons p l ih =>
    simp only [List.foldl_cons]
    have hd' : ∀ a ∈ l, ∀ b ∈ l, pkgLastName a = pkgLastName b → a = b :=
      fun a ha b hb => hd a (List.mem_cons_of_mem _ ha) b (List.mem_cons_of_mem _ hb)
    by_cases hp : p ∈ s.all.map (·.1)
    · have e : s.add reg p = s := by simp only [Imports.add, if_pos hp]
      rw [e]
      exact ih s hs (fun n hn q hq => hu n hn q (List.mem_cons_of_mem _ hq)) hd'
        (fun q hq => hc q (List.mem_cons_of_mem _ hq))
    · have hn : pkgLastName p ∉ s.used := fun h => hu _ h p (List.mem_cons_self ..) hp rfl
      have e : s.add reg p = ⟨s.all ++ [(p, pkgLastName p)], s.used ++ [pkgLastName p]⟩ := by
        simp only [Imports.add, if_neg hp, hr.own _ _ (hc p (List.mem_cons_self ..)) hn]
      rw [e]
      refine ih _ ?_ ?_ hd' (fun q hq => hc q (List.mem_cons_of_mem _ hq))
      · intro x hx
        rcases List.mem_append.1 hx with hx | hx
        · exact hs x hx
        · cases List.mem_singleton.1 hx; rfl
      · intro n hn q hq hqs hqn
        simp only [List.map_append, List.map_cons, List.map_nil, List.mem_append, List.mem_singleton, not_or] at hqs
        rcases List.mem_append.1 hn with hn | hn
        · exact hu n hn q (List.mem_cons_of_mem _ hq) hqs.1 hqn
        · rw [List.mem_singleton.1 hn] at hqn
          exact hqs.2 (hd q (List.mem_cons_of_mem _ hq) p (List.mem_cons_self ..) hqn)

/-- **C104 (partial), when all is well**: if the last names of all imported packages are different and none was given out before in this
process or needs a change of characters, every package name in the text means the package it stands for. -/
theorem C104_distinct_partial {reg} (hr : Spec.GivesNames reg) (used types : List Bytes)
    (hfree : ∀ p ∈ types.filter (· ≠ []) ++ [contextPkg, qrpcPkg, codegenPkg, fmtPkg, jsonPkg], pkgLastName p ∉ used)
    (hd : ∀ p ∈ types.filter (· ≠ []) ++ [contextPkg, qrpcPkg, codegenPkg, fmtPkg, jsonPkg],
      ∀ q ∈ types.filter (· ≠ []) ++ [contextPkg, qrpcPkg, codegenPkg, fmtPkg, jsonPkg], pkgLastName p = pkgLastName q → p = q)
    (hc : ∀ p ∈ types.filter (· ≠ []) ++ [contextPkg, qrpcPkg, codegenPkg, fmtPkg, jsonPkg], reg [] (pkgLastName p) = pkgLastName p) :
    ∀ x ∈ printedRefs (generateImports reg used types) types, (generateImports reg used types).means x.2 x.1 = true := by
  have h := foldl_own hr _ ⟨[], used⟩ (by simp) (fun n hn p hp _ e => hfree p hp (e ▸ hn)) hd hc
  have has : ∀ p, p ∈ [contextPkg, qrpcPkg, codegenPkg, fmtPkg, jsonPkg] → (generateImports reg used types).alias p = pkgLastName p :=
    fun p hp => h _ (alias_mem (foldl_has reg _ _ p (List.mem_append.2 (.inr hp))))
  refine (C104_partial hr used types).2.2.2.2.2 ⟨?_, ?_⟩
  · rw [has _ (by simp)]; rfl
  · rw [has _ (by simp)]; rfl

/-- **C104 is false of the code** for the second file generated in a process: the name "context" was given out for the first, the package
gets another one, and the text's `context.Context` means nothing. -/
theorem C104_refuted_second {reg} (hr : Spec.GivesNames reg) (used types : List Bytes) (h : ascii "context" ∈ used) :
    ∃ x ∈ printedRefs (generateImports reg used types) types, ∀ p, (generateImports reg used types).means x.2 p = false := by
  refine ⟨(contextPkg, ascii "context"), List.mem_append.2 (.inr (by simp)), fun p => ?_⟩
  have hI : ImpInv used (generateImports reg used types) := imports_inv hr used _ ⟨by simp, by simp, by simp, by simp⟩
  cases hm : (generateImports reg used types).means (ascii "context") p with
  | false => rfl
  | true => exact absurd h (hI.new _ ((means_iff hI _ _).1 hm))

/-- **C104 is false of the code** for types of a package whose last name is "context" (or "qrpc"): the text's `context.Context` then
means that package. -/
theorem C104_refuted_clash {reg} (hr : Spec.GivesNames reg) (p : Bytes) (hp : p ≠ contextPkg) (hl : pkgLastName p = ascii "context")
    (rest : List Bytes) : (generateImports reg [] (p :: rest)).means (ascii "context") p = true := by
  have hne : p ≠ [] := by rintro rfl; cases hl
  have hI : ImpInv [] (generateImports reg [] (p :: rest)) := imports_inv hr [] _ ⟨by simp, by simp, by simp, by simp⟩
  rw [means_iff hI]
  have e : generateImports reg [] (p :: rest) = (rest.filter (· ≠ []) ++ [contextPkg, qrpcPkg, codegenPkg, fmtPkg, jsonPkg]).foldl
      (Imports.add reg) ⟨[(p, ascii "context")], [ascii "context"]⟩ := by
    simp [generateImports, hne, Imports.add, hl, hr.plain]
  rw [e]
  exact foldl_mono reg _ _ _ (by simp)

/-- A way of giving names: the proposed one, or underscores after all names in use. -/
def exNames (used : List Bytes) (n : Bytes) : Bytes := if n ∈ used then used.flatten ++ n ++ [0x5f] else n

theorem mem_length_flatten {x : Bytes} {l : List Bytes} (h : x ∈ l) : x.length ≤ l.flatten.length := by
  induction l with
  | nil => cases h
  | cons a l ih =>
    simp only [List.flatten_cons, List.length_append]
    rcases List.mem_cons.1 h with rfl | h
    · omega
    · have := ih h; omega

theorem exNames_gives : Spec.GivesNames exNames := by
  constructor
  · intro used n
    unfold exNames
    split
    · intro h
      have := mem_length_flatten h
      simp only [List.length_append, List.length_cons, List.length_nil] at this
      omega
    · assumption
  · intro used n _ h
    simp [exNames, h]
  · simp [exNames]

/-- Two types of a package of the user. -/
example : ∀ x ∈ printedRefs (generateImports exNames [] [ascii "my/api", [], ascii "my/api"]) [ascii "my/api", [], ascii "my/api"],
    (generateImports exNames [] [ascii "my/api", [], ascii "my/api"]).means x.2 x.1 = true :=
  C104_distinct_partial exNames_gives _ _ (by simp) (by decide) (by decide)

example : pkgLastName (ascii "my/context") = ascii "context" ∧ ascii "my/context" ≠ contextPkg := by decide

end Qrpc
