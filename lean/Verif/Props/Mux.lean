import Verif.Model.Mux
/-! # C38-C40: dispatch, duplicate registration, middleware -/
namespace Qrpc

namespace Spec

/-- The handler that should get a command: the last accepted registration whose low 16 bits are `low`. -/
def latest {ρ : Type} (low : Nat) : List (Reg ρ × HandleRes) → Option (HEntry ρ)
  | [] => none
  | (r, o) :: rest =>
    match latest low rest with
    | some e => some e
    | none =>
      match o, r.handler with
      | .ok, some h => if r.cmd.toNat % 65536 = low then some ⟨h, r.mws⟩ else none
      | _, _ => none

/-- What should run: the middleware up to and including the first one that refuses, then the handler iff none refused. -/
def mwTrace {ρ : Type} (r : ρ) (e : HEntry ρ) : List MEv :=
  ((e.mws.takeWhile (·.pass r)) ++ (e.mws.dropWhile (·.pass r)).take 1).map (fun f => .mw f.name) ++
    if ∀ f ∈ e.mws, f.pass r = true then [.handler e.handler] else []

end Spec
open Spec

theorem routing_toNat (c : Cmd) : c.routing.toNat = c.toNat % 65536 := by
  simp only [Cmd.routing, UInt32.toNat_and, UInt32.reduceToNat]
  exact Nat.and_two_pow_sub_one_eq_mod c.toNat 16

theorem routing_eq_iff (c d : Cmd) : c.routing = d.routing ↔ c.toNat % 65536 = d.toNat % 65536 := by
  rw [← routing_toNat, ← routing_toNat]
  exact ⟨fun h => by rw [h], fun h => UInt32.toNat_inj.mp h⟩

theorem routing_idem (c : Cmd) : c.routing.routing = c.routing := by
  apply UInt32.toNat_inj.mp
  rw [routing_toNat, routing_toNat]; omega

/-- **C40.** For all middleware lists, verdicts and requests. -/
theorem C40 {ρ : Type} (r : ρ) (e : HEntry ρ) : runMws r e.handler e.mws = mwTrace r e := by
  obtain ⟨h, mws⟩ := e
  induction mws with
  | nil => simp [runMws, mwTrace]
  | cons f fs ih =>
    simp only [mwTrace] at ih
    rw [runMws]
    cases hf : f.pass r with
    | true =>
      simp only [if_true, mwTrace, List.takeWhile_cons, List.dropWhile_cons, hf, List.mem_cons, forall_eq_or_imp, true_and]
      rw [ih]; simp
    | false => simp [mwTrace, hf]

/-- The middleware that runs is a prefix of the list, and the handler runs iff every middleware passed the request. -/
theorem C40_handler_iff {ρ : Type} (r : ρ) (e : HEntry ρ) :
    MEv.handler e.handler ∈ runMws r e.handler e.mws ↔ ∀ f ∈ e.mws, f.pass r = true := by
  rw [C40, mwTrace]
  constructor
  · intro h
    by_cases hall : ∀ f ∈ e.mws, f.pass r = true
    · exact hall
    · rw [if_neg hall, List.append_nil] at h
      obtain ⟨f, _, hf⟩ := List.mem_map.mp h
      cases hf
  · intro h; simp [if_pos h]

example : runMws (5 : Nat) 7 [⟨0, fun _ => true⟩, ⟨1, fun r => r > 9⟩, ⟨2, fun _ => true⟩] = [.mw 0, .mw 1] := by decide
example : runMws (15 : Nat) 7 [⟨0, fun _ => true⟩, ⟨1, fun r => r > 9⟩] = [.mw 0, .mw 1, .handler 7] := by decide

theorem muxRun_latest {ρ : Type} (regs : List (Reg ρ)) (m : MuxMap ρ) (c : Cmd) :
    (muxRun regs m).1 c.routing =
      match latest (c.toNat % 65536) (regs.zip (muxRun regs m).2) with
      | some e => some e
      | none => m c.routing := by
  induction regs generalizing m with
  | nil => simp [muxRun, latest]
  | cons r rs ih =>
    simp only [muxRun, List.zip_cons_cons, latest]
    rw [ih]
    cases latest (c.toNat % 65536) (rs.zip (muxRun rs (muxHandle m r.cmd r.handler r.mws).1).2) with
    | some e => rfl
    | none =>
      simp only []
      cases r.handler with
      | none => simp [muxHandle]
      | some h =>
        simp only [muxHandle]
        by_cases h1 : r.cmd > MaxCmd
        · simp [h1]
        · by_cases h2 : (m r.cmd).isSome = true
          · simp [h1, h2]
          · simp only [h1, h2, if_false]
            by_cases h3 : r.cmd.toNat % 65536 = c.toNat % 65536
            · simp [(routing_eq_iff c r.cmd).mpr h3.symm, h3]
            · have : ¬ c.routing = r.cmd.routing := fun hh => h3 ((routing_eq_iff c r.cmd).mp hh).symm
              simp [this, h3]

/-- **C38.** For every history of registrations, every command and every request: the request goes through the middleware of
the most recent accepted registration with the same low 16 bits (and to its handler if all pass); if there is none, no handler
or middleware runs and the connection is closed. -/
theorem C38 {ρ : Type} (regs : List (Reg ρ)) (c : Cmd) (r : ρ) :
    muxServe (muxRun regs muxEmpty).1 c r =
      match latest (c.toNat % 65536) (regs.zip (muxRun regs muxEmpty).2) with
      | some e => mwTrace r e
      | none => [.close] := by
  rw [muxServe, muxRun_latest]
  cases latest (c.toNat % 65536) (regs.zip (muxRun regs muxEmpty).2) with
  | some e => exact C40 r e
  | none => rfl

/-- The opaque byte makes no difference. -/
theorem C38_opaque {ρ : Type} (m : MuxMap ρ) (c d : Cmd) (r : ρ) (h : c.toNat % 65536 = d.toNat % 65536) :
    muxServe m c r = muxServe m d r := by
  rw [muxServe, muxServe, (routing_eq_iff c d).mpr h]

/-- Keys of the table have no opaque byte. -/
theorem muxRun_keys {ρ : Type} (regs : List (Reg ρ)) (m : MuxMap ρ) (hm : ∀ c, (m c).isSome = true → c.toNat < 65536) :
    ∀ c, ((muxRun regs m).1 c).isSome = true → c.toNat < 65536 := by
  induction regs generalizing m with
  | nil => exact hm
  | cons r rs ih =>
    simp only [muxRun]
    apply ih
    intro c hc
    cases hr : r.handler with
    | none => rw [hr] at hc; exact hm c hc
    | some h =>
      simp only [hr, muxHandle] at hc
      split at hc
      · exact hm c hc
      · split at hc
        · exact hm c hc
        · simp only [] at hc
          split at hc
          · next he => rw [he, routing_toNat]; omega
          · exact hm c hc

/-- **C39**, what holds: for every history, a refused registration leaves the table unchanged; nil handlers and commands above
MaxCmd are refused; and a second registration of a command is refused if the command has no opaque byte.
Missing: commands with an opaque byte, see `C39_refuted` and `C39_opaque_never_refused`. -/
theorem C39_partial {ρ : Type} (regs : List (Reg ρ)) (cmd : Cmd) (h : Option Nat) (mws : List (MwFn ρ)) :
    let m := (muxRun regs muxEmpty).1
    ((muxHandle m cmd h mws).2 ≠ .ok → (muxHandle m cmd h mws).1 = m) ∧
    (h = none → (muxHandle m cmd h mws).2 = .nilHandler) ∧
    (h ≠ none → cmd.toNat > 0xffffff → (muxHandle m cmd h mws).2 = .tooBig) ∧
    (h ≠ none → cmd.toNat < 65536 →
      ((muxHandle m cmd h mws).2 = .dup ↔ latest cmd.toNat (regs.zip (muxRun regs muxEmpty).2) ≠ none)) := by
  intro m
  refine ⟨?_, ?_, ?_, ?_⟩
  · cases h with
    | none => simp [muxHandle]
    | some h =>
      simp only [muxHandle]
      split
      · simp
      · split <;> simp
  · rintro rfl; rfl
  · intro hn hc
    cases h with
    | none => exact absurd rfl hn
    | some h =>
      have : cmd > MaxCmd := by rw [gt_iff_lt, UInt32.lt_iff_toNat_lt]; simpa [MaxCmd] using hc
      simp [muxHandle, this]
  · intro hn hc
    cases h with
    | none => exact absurd rfl hn
    | some h =>
      have h1 : ¬ cmd > MaxCmd := by
        rw [gt_iff_lt, UInt32.lt_iff_toNat_lt]
        have : MaxCmd.toNat = 16777215 := rfl
        omega
      have h2 : cmd.routing = cmd := by
        apply UInt32.toNat_inj.mp; rw [routing_toNat]; omega
      have h3 := muxRun_latest regs muxEmpty cmd
      rw [h2, Nat.mod_eq_of_lt hc] at h3
      have h4 : m cmd = latest cmd.toNat (regs.zip (muxRun regs muxEmpty).2) := by
        show (muxRun regs muxEmpty).1 cmd = _
        rw [h3]
        cases latest cmd.toNat (regs.zip (muxRun regs muxEmpty).2) <;> rfl
      simp only [muxHandle, h1, if_false, h4]
      cases latest cmd.toNat (regs.zip (muxRun regs muxEmpty).2) with
      | none => simp
      | some e => simp

/-- **C39 is false of the code**: the second registration of command 1, written with the opaque byte 1, is accepted and
replaces the first handler. -/
theorem C39_refuted :
    (muxRun [⟨1, some 7, []⟩, ⟨0x10001, some 8, []⟩] (muxEmpty (ρ := Nat))).2 = [.ok, .ok] ∧
    muxServe (muxRun [⟨1, some 7, []⟩, ⟨0x10001, some 8, []⟩] (muxEmpty (ρ := Nat))).1 1 0 = [.handler 8] := by decide

/-- A command with an opaque byte is never refused as a duplicate, whatever was registered before. -/
theorem C39_opaque_never_refused {ρ : Type} (regs : List (Reg ρ)) (cmd : Cmd) (h : Option Nat) (mws : List (MwFn ρ))
    (hc : cmd.toNat ≥ 65536) : (muxHandle (muxRun regs muxEmpty).1 cmd h mws).2 ≠ .dup := by
  have hk := muxRun_keys regs (muxEmpty (ρ := ρ)) (by simp [muxEmpty]) cmd
  cases h with
  | none => simp [muxHandle]
  | some h =>
    simp only [muxHandle]
    split
    · simp
    · split
      · next h2 => have := hk h2; omega
      · simp

/-- A nontrivial history: two commands, a duplicate, a nil handler, one too big, and a replacement. -/
example : (muxRun [⟨1, some 7, []⟩, ⟨2, some 8, []⟩, ⟨1, some 9, []⟩, ⟨3, none, []⟩, ⟨0x1000000, some 5, []⟩, ⟨0x50002, some 6, []⟩]
    (muxEmpty (ρ := Nat))).2 = [.ok, .ok, .dup, .nilHandler, .tooBig, .ok] := by decide
example : (let m := (muxRun [⟨1, some 7, []⟩, ⟨2, some 8, []⟩, ⟨0x50002, some 6, []⟩] (muxEmpty (ρ := Nat))).1
    (muxServe m 0xff0001 0, muxServe m 2 0, muxServe m 3 0)) = ([.handler 7], [.handler 6], [.close]) := by decide

end Qrpc
