import Verif.Model.Mem
/-!
# Happens-before, one event at a time

`Knows tr g i`: event `i` happens before whatever goroutine `g` does next. `KnowsO tr o i`: and before whatever follows the next `acq o`.
-/
namespace Qrpc
open Spec
variable {G O X : Type}

theorem getElem?_append_of_some {α : Type} {l : List α} {i : Nat} {a : α} (h : l[i]? = some a) (m : List α) : (l ++ m)[i]? = some a := by
  have hi : i < l.length := (List.getElem?_eq_some_iff.1 h).1
  rw [List.getElem?_append_left hi]; exact h

theorem getElem?_snoc {α : Type} {l : List α} {e a : α} {i : Nat} (h : (l ++ [e])[i]? = some a) :
    l[i]? = some a ∨ (i = l.length ∧ a = e) := by
  rcases Nat.lt_trichotomy i l.length with hi | hi | hi
  · rw [List.getElem?_append_left hi] at h; exact .inl h
  · subst hi; simp at h; exact .inr ⟨rfl, h.symm⟩
  · have : (l ++ [e])[i]? = none := List.getElem?_eq_none (by simp; omega)
    rw [this] at h; cases h

theorem snocs {α : Type} {l m : List α} {i : Nat} {a : α} (h : (l ++ m)[i]? = some a) : l[i]? = some a ∨ a ∈ m := by
  rcases Nat.lt_or_ge i l.length with hi | hi
  · rw [List.getElem?_append_left hi] at h; exact .inl h
  · rw [List.getElem?_append_right hi] at h; exact .inr (List.mem_of_getElem? h)

theorem HB.mono {tr : List (MemEv G O X)} {i j : Nat} (h : HB tr i j) (m : List (MemEv G O X)) : HB (tr ++ m) i j := by
  induction h with
  | program h1 h2 h3 h4 => exact .program h1 (getElem?_append_of_some h2 m) (getElem?_append_of_some h3 m) h4
  | sync h1 h2 h3 h4 h5 => exact .sync h1 (getElem?_append_of_some h2 m) (getElem?_append_of_some h3 m) h4 h5
  | start h1 h2 h3 h4 => exact .start h1 (getElem?_append_of_some h2 m) (getElem?_append_of_some h3 m) h4
  | trans _ _ h1 h2 => exact .trans h1 h2

def HBEq (tr : List (MemEv G O X)) (i k : Nat) : Prop := k = i ∨ HB tr i k

theorem HBEq.mono {tr : List (MemEv G O X)} {i k : Nat} (h : HBEq tr i k) (m : List (MemEv G O X)) : HBEq (tr ++ m) i k :=
  h.imp id (HB.mono · m)

def Knows (tr : List (MemEv G O X)) (g : G) (i : Nat) : Prop :=
  ∃ k a, HBEq tr i k ∧ tr[k]? = some a ∧ (a.g = g ∨ a.op = .go g)

def KnowsO (tr : List (MemEv G O X)) (o : O) (i : Nat) : Prop :=
  ∃ k a, HBEq tr i k ∧ tr[k]? = some a ∧ a.op = .rel o

theorem Knows.mono {tr : List (MemEv G O X)} {g : G} {i : Nat} (h : Knows tr g i) (m : List (MemEv G O X)) : Knows (tr ++ m) g i := by
  obtain ⟨k, a, h1, h2, h3⟩ := h
  exact ⟨k, a, h1.mono m, getElem?_append_of_some h2 m, h3⟩

theorem KnowsO.mono {tr : List (MemEv G O X)} {o : O} {i : Nat} (h : KnowsO tr o i) (m : List (MemEv G O X)) : KnowsO (tr ++ m) o i := by
  obtain ⟨k, a, h1, h2, h3⟩ := h
  exact ⟨k, a, h1.mono m, getElem?_append_of_some h2 m, h3⟩

theorem Knows.own {tr : List (MemEv G O X)} {i : Nat} {a : MemEv G O X} (h : tr[i]? = some a) : Knows tr a.g i :=
  ⟨i, a, .inl rfl, h, .inl rfl⟩

theorem Knows.own' {tr : List (MemEv G O X)} {i : Nat} {a : MemEv G O X} {g : G} (h : tr[i]? = some a) (hg : a.g = g) : Knows tr g i :=
  ⟨i, a, .inl rfl, h, .inl hg⟩

theorem HBEq.to {tr : List (MemEv G O X)} {i k j : Nat} (h : HBEq tr i k) (h2 : HB tr k j) : HB tr i j := by
  rcases h with rfl | h
  · exact h2
  · exact .trans h h2

/-- What `g` knows happens before what it does now. -/
theorem Knows.now {tr : List (MemEv G O X)} {g : G} {i : Nat} (h : Knows tr g i) {e : MemEv G O X} (he : e.g = g) :
    HB (tr ++ [e]) i tr.length := by
  obtain ⟨k, a, h1, h2, h3⟩ := h
  have hk : k < tr.length := (List.getElem?_eq_some_iff.1 h2).1
  have hn : (tr ++ [e])[tr.length]? = some e := by simp
  refine (h1.mono [e]).to ?_
  rcases h3 with h3 | h3
  · exact .program hk (getElem?_append_of_some h2 _) hn (h3.trans he.symm)
  · exact .start hk (getElem?_append_of_some h2 _) hn (by rw [h3, he])

theorem KnowsO.acq {tr : List (MemEv G O X)} {o : O} {i : Nat} (h : KnowsO tr o i) {e : MemEv G O X} (he : e.op = .acq o) :
    Knows (tr ++ [e]) e.g i := by
  obtain ⟨k, a, h1, h2, h3⟩ := h
  have hk : k < tr.length := (List.getElem?_eq_some_iff.1 h2).1
  have hn : (tr ++ [e])[tr.length]? = some e := by simp
  exact ⟨tr.length, e, .inr ((h1.mono [e]).to (.sync hk (getElem?_append_of_some h2 _) hn h3 he)), hn, .inl rfl⟩

theorem Knows.rel {tr : List (MemEv G O X)} {o : O} {i : Nat} {e : MemEv G O X} (h : Knows tr e.g i) (he : e.op = .rel o) :
    KnowsO (tr ++ [e]) o i :=
  ⟨tr.length, e, .inr (h.now rfl), by simp, he⟩

theorem Knows.go {tr : List (MemEv G O X)} {g : G} {i : Nat} {e : MemEv G O X} (h : Knows tr e.g i) (he : e.op = .go g) :
    Knows (tr ++ [e]) g i :=
  ⟨tr.length, e, .inr (h.now rfl), by simp, .inr he⟩

theorem Knows.go_in {tr l : List (MemEv G O X)} {g : G} {i : Nat} {e : MemEv G O X} (h : Knows tr e.g i) (he : e.op = .go g) (hm : e ∈ l) :
    Knows (tr ++ l) g i := by
  obtain ⟨p, q, rfl⟩ := List.append_of_mem hm
  simpa using ((h.mono p).go he).mono q

theorem KnowsO.acq_in {tr l : List (MemEv G O X)} {o : O} {i : Nat} {e : MemEv G O X} (h : KnowsO tr o i) (he : e.op = .acq o) (hm : e ∈ l) :
    Knows (tr ++ l) e.g i := by
  obtain ⟨p, q, rfl⟩ := List.append_of_mem hm
  simpa using ((h.mono p).acq he).mono q

theorem Knows.rel_in {tr l : List (MemEv G O X)} {o : O} {i : Nat} {e : MemEv G O X} (h : Knows tr e.g i) (he : e.op = .rel o) (hm : e ∈ l) :
    KnowsO (tr ++ l) o i := by
  obtain ⟨p, q, rfl⟩ := List.append_of_mem hm
  simpa using ((h.mono p).rel he).mono q

/-- A race of a longer execution is an old one, or one of the new event with an access its goroutine does not know. -/
theorem new_race {tr : List (MemEv G O X)} {e : MemEv G O X} {x : X} {i j : Nat} (h : Race (tr ++ [e]) x i j) :
    Race tr x i j ∨ (j = tr.length ∧ ∃ a, tr[i]? = some a ∧ Conflict x a e ∧ ¬ Knows tr e.g i) := by
  obtain ⟨hij, ⟨a, b, ha, hb, hc⟩, hn⟩ := h
  rcases getElem?_snoc hb with hb | ⟨rfl, rfl⟩
  · have ha' : tr[i]? = some a := by
      have hj : j < tr.length := (List.getElem?_eq_some_iff.1 hb).1
      rw [List.getElem?_append_left (by omega)] at ha; exact ha
    exact .inl ⟨hij, ⟨a, b, ha', hb, hc⟩, fun h => hn (HB.mono h _)⟩
  · rcases getElem?_snoc ha with ha | ⟨rfl, _⟩
    · exact .inr ⟨rfl, a, ha, hc, fun h => hn (h.now rfl)⟩
    · omega

/-! ## For concrete executions -/

/-- A set closed under happens-before that contains what follows `i` and not `j`. -/
theorem not_HB {tr : List (MemEv G O X)} {i j : Nat} (S : Nat → Prop)
    (h : ∀ a b ea eb, a < b → tr[a]? = some ea → tr[b]? = some eb → (a = i ∨ S a) →
      (ea.g = eb.g ∨ (∃ o, ea.op = .rel o ∧ eb.op = .acq o) ∨ ea.op = .go eb.g) → S b)
    (hj : ¬ S j) : ¬ HB tr i j := by
  have key : ∀ a b, HB tr a b → (a = i ∨ S a) → S b := by
    intro a b hb
    induction hb with
    | program h1 h2 h3 h4 => exact fun ha => h _ _ _ _ h1 h2 h3 ha (.inl h4)
    | sync h1 h2 h3 h4 h5 => exact fun ha => h _ _ _ _ h1 h2 h3 ha (.inr (.inl ⟨_, h4, h5⟩))
    | start h1 h2 h3 h4 => exact fun ha => h _ _ _ _ h1 h2 h3 ha (.inr (.inr h4))
    | trans _ _ i1 i2 => exact fun ha => i2 (.inr (i1 ha))
  exact fun hb => hj (key i j hb (.inl rfl))

/-- The same, to be computed. -/
def relAcq [DecidableEq O] : MemOp G O X → MemOp G O X → Bool
  | .rel o, .acq o' => o == o'
  | _, _ => false

def goes [DecidableEq G] : MemOp G O X → G → Bool
  | .go g, g' => g == g'
  | _, _ => false

def edge [DecidableEq G] [DecidableEq O] (ea eb : MemEv G O X) : Bool :=
  ea.g == eb.g || relAcq ea.op eb.op || goes ea.op eb.g

def closedSet [DecidableEq G] [DecidableEq O] (tr : List (MemEv G O X)) (i : Nat) (S : List Nat) : Bool :=
  (List.range tr.length).all fun b => S.contains b || (List.range b).all fun a =>
    !(a == i || S.contains a) || match tr[a]?, tr[b]? with
      | some ea, some eb => !edge ea eb
      | _, _ => true

theorem not_HB_of_closed [DecidableEq G] [DecidableEq O] {tr : List (MemEv G O X)} {i j : Nat} (S : List Nat)
    (h : closedSet tr i S = true) (hj : S.contains j = false) : ¬ HB tr i j := by
  refine not_HB (fun k => S.contains k = true) ?_ (by simp only [hj]; decide)
  intro a b ea eb hab ha hb hi he
  have hbl : b < tr.length := (List.getElem?_eq_some_iff.1 hb).1
  have h1 := List.all_eq_true.1 h b (List.mem_range.2 hbl)
  rcases Bool.or_eq_true _ _ ▸ h1 with h1 | h1
  · exact h1
  · exfalso
    have h2 := List.all_eq_true.1 h1 a (List.mem_range.2 hab)
    rw [ha, hb] at h2
    have hi' : (a == i || S.contains a) = true := by
      rcases hi with rfl | hi
      · simp
      · rw [hi]; simp
    rw [hi'] at h2
    have he' : edge ea eb = true := by
      unfold edge
      rcases he with he | ⟨o, h3, h4⟩ | he
      · simp [he]
      · rw [h3, h4]; simp [relAcq]
      · rw [he]; simp [goes]
    simp [he'] at h2

end Qrpc
