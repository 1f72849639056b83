import Verif.Props.GenTries
/-! # C115, where a generated call begins -/
namespace Qrpc
open Spec

/-- The number a call drew from the counter of the client. -/
def GNPc.drew : GNPc → Option UInt32
  | .idle => none
  | .top idx _ | .req idx _ | .asked idx _ | .sub idx _ _ | .wait idx _ _ | .rst idx _ _ | .rsting idx _ _ => some idx

structure GNStart (s : GNSt) : Prop where
  idx : s.idx = UInt32.ofNat s.calls.length
  drew : ∀ i x, (s.pc i).drew = some x → x = UInt32.ofNat (s.no i + 1)

theorem GNStart.same {s s' : GNSt} (h : GNStart s) (h1 : s'.idx = s.idx) (h2 : s'.calls = s.calls) (h3 : s'.no = s.no)
    (h4 : ∀ i x, (s'.pc i).drew = some x → (s.pc i).drew = some x) : GNStart s' :=
  ⟨by rw [h1, h2]; exact h.idx, fun i x hx => by rw [h3]; exact h.drew i x (h4 i x hx)⟩

theorem drew_setAt {s : GNSt} {i : Nat} {p : GNPc} (hp : ∀ x, p.drew = some x → (s.pc i).drew = some x) :
    ∀ j x, ((setAt s.pc i p) j).drew = some x → (s.pc j).drew = some x := by
  intro j x hx
  simp only [setAt] at hx
  split at hx
  · subst_vars; exact hp x hx
  · exact hx

theorem GNStart.con {conf : CConf} {n : Nat} {cmd : Cmd} {s s' : GNSt} {c : Nat} {a : EAct} (h : GNStart s) (hs : gnCon conf n cmd s c a = some s') :
    GNStart s' := by
  unfold gnCon at hs
  repeat' split at hs
  all_goals first
    | cases hs; done
    | (simp only [Option.map_eq_some_iff] at hs
       obtain ⟨e, -, rfl⟩ := hs
       first
         | exact h.same rfl rfl rfl (fun _ _ hx => hx)
         | exact h.same rfl rfl rfl (drew_setAt (by simp_all [GNPc.drew])))

theorem GNStart.step {conf : CConf} {n : Nat} {cmd : Cmd} {s s' : GNSt} {a : GNAct} (h : GNStart s) (hs : gnStep conf n cmd s a = some s') :
    GNStart s' := by
  cases a with
  | con c a => exact h.con hs
  | call i m =>
    simp only [gnStep] at hs
    split at hs
    · cases hs
      have hn : s.idx + 1 = UInt32.ofNat (s.calls.length + 1) := by
        rw [h.idx]; apply UInt32.toNat_inj.mp; simp [UInt32.toNat_add, UInt32.toNat_ofNat']
      refine ⟨by rw [List.length_append]; exact hn, fun j x hx => ?_⟩
      simp only [setAt] at hx ⊢
      split at hx
      · rename_i e
        rw [if_pos e]
        simp only [GNPc.drew, Option.some.injEq] at hx
        rw [← hx]; exact hn
      · rename_i e
        rw [if_neg e]
        exact h.drew j x hx
    · cases hs
  | _ =>
    simp only [gnStep] at hs
    repeat' split at hs
    all_goals first
      | cases hs; done
      | (cases hs; exact h.same rfl rfl rfl (drew_setAt (by simp_all [GNPc.drew])))

/-- **C115, rotation.** Whatever the goroutines do at the same time, the call with number `q` (counted from 0 in the order in which calls
begin) tries in its iteration `k` connection `k + (q + 1 mod 2^32)` modulo the number of connections: calls that begin one after the other begin
with connections one after the other. -/
theorem C115_start {conf : CConf} {n : Nat} {cmd : Cmd} {dialed : Nat → Bool} {acts : List GNAct} {s s' : GNSt}
    (hrun : gnRun conf n cmd dialed acts = some s) {c i : Nat} {push : Bool} {b : Bytes}
    (hs : gnStep conf n cmd s (.con c (.cl (.request i push b))) = some s') :
    ∃ idx k, s.pc i = .req idx k ∧ c = (k + (s.no i + 1) % 2 ^ 32) % n := by
  have h : GNStart s := runActs_inv (P := GNStart) (fun _ _ _ h hs => h.step hs) ⟨rfl, fun i x hx => by cases hx⟩ hrun
  simp only [gnStep, gnCon] at hs
  split at hs
  · rename_i idx k hp
    split at hs
    · rename_i hc
      refine ⟨idx, k, hp, ?_⟩
      rw [← hc.1, genPos, h.drew i idx (by rw [hp]; rfl), UInt32.toNat_ofNat']
    · cases hs
  · cases hs

/-- The first call begins with connection 1 of 2, the second one with connection 0. -/
example : (gnRun cfgR 2 1 (fun _ => true) [.call 0 gnA, .call 1 gnA, .go 0, .go 1]).map (fun s => (s.no 0, s.no 1,
      (gnStep cfgR 2 1 s (.con 1 (.cl (.request 0 false (layout 3 1 8 grA))))).isSome, (gnStep cfgR 2 1 s (.con 0 (.cl (.request 1 false (layout 3 1 8 grA))))).isSome,
      (gnStep cfgR 2 1 s (.con 1 (.cl (.request 1 false (layout 3 1 8 grA))))).isSome)) = some (0, 1, true, true, false) := by decide +kernel

end Qrpc
