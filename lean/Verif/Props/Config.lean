import Verif.Model.Config
/-! # C123: a configuration that is accepted does not panic later, and a refused one leaves nothing behind -/
namespace Qrpc

namespace Spec

/-- The sizes that work, for a server binding: a reading queue of at most 2^44 - 6 frames, a writing queue of at most 2^48 / 24. -/
def SizesFit (b : BindSizes) : Prop := 0 ≤ b.read ∧ b.read ≤ 17592186044410 ∧ b.write ≤ 11728124029610

end Spec
open Spec

theorem chanOk_iff (e : Nat) (n : Int) : chanOk e n = true ↔ 0 ≤ n ∧ n * e ≤ 281474976710560 := by
  unfold chanOk; rw [decide_eq_true_eq]; rfl

theorem sliceOk_iff (e : Nat) (n : Int) : sliceOk e n = true ↔ 0 ≤ n ∧ n * e ≤ 281474976710656 := by
  unfold sliceOk; rw [decide_eq_true_eq]; rfl

theorem newConnOk_iff (b : BindSizes) : newConnOk (newServerSizes b) = true ↔ SizesFit b := by
  simp only [newConnOk, newServerSizes, SizesFit, Bool.and_eq_true, chanOk_iff, sliceOk_iff]
  split <;> omega

/-- **C123, server, partial.** Take any binding passed to NewServer and anything that may happen on an accepted connection except
what ends the process anyway (C103). The connection's goroutine does not end the process if and only if the sizes of the queues
are in range: the writing queue may have any size that is not too large (NewServer corrects those below 1), the reading queue must
not be negative. Missing for the full claim: bindings out of range are accepted, see `C123_refuted_server`. -/
theorem C123_server_partial (b : BindSizes) (c : ConnIn) (here : Bool) (hc : (srvConn c here).crashes = false) :
    (acceptedConn (newServerSizes b) c here).crashes = false ↔ SizesFit b := by
  rw [← newConnOk_iff]
  simp only [Gp.crashes, Bool.or_eq_false_iff] at hc
  simp only [acceptedConn, Gp.crashes, Gp.escapes, Gp.kills, hc.1, hc.2]
  cases newConnOk (newServerSizes b) <;> simp

/-- A connection on which a request is handled, and the default sizes. -/
example : (srvConn ⟨[(false, false, .blocking false false)], false, [], false⟩ false).crashes = false ∧ SizesFit ⟨0, 0⟩ := by
  refine ⟨rfl, ?_⟩; simp [SizesFit]

/-- **C123 is false of the server.** NewServer accepts a negative ReadFrameChSize, and then each accepted connection ends the process,
whatever the peer and the handlers do. -/
theorem C123_refuted_server (b : BindSizes) (hb : b.read < 0) (c : ConnIn) (here : Bool) :
    (acceptedConn (newServerSizes b) c here).crashes = true := by
  have h : newConnOk (newServerSizes b) = false := by
    cases h : newConnOk (newServerSizes b) with
    | false => rfl
    | true => have := (newConnOk_iff b).1 h; unfold SizesFit at this; omega
  simp [acceptedConn, Gp.crashes, Gp.escapes, Gp.kills, h]

example : (⟨-1, 16⟩ : BindSizes).read < 0 := by decide

/-- The writing queues of clients that work. -/
def Spec.ClientFits (write : Int) : Prop := 0 ≤ write ∧ write ≤ 11728124029610

theorem newConnectionOk_iff (w : Int) : newConnectionOk w = true ↔ ClientFits w := by
  simp only [newConnectionOk, ClientFits, Bool.and_eq_true, chanOk_iff, sliceOk_iff]
  omega

/-- **C123, client.** Both constructors return a connection exactly when the size of the queue is in range and, for the second one,
there is an address (for the first one, the dial has to succeed); and a connection that was returned finds an address in each
attempt to reconnect. Otherwise the constructor panics in its caller's goroutine, nothing does later. -/
theorem C123_client (w : Int) (dialed : Bool) (n : Nat) :
    (buildConnection w dialed = .conn ↔ dialed = true ∧ ClientFits w) ∧
    (buildReconnect n w dialed = .conn ↔ n ≠ 0 ∧ ClientFits w) ∧
    (buildReconnect n w dialed = .conn → ∀ idx, addrOk n idx = true) ∧
    (buildConnection w dialed = .error ↔ dialed = false) ∧
    buildReconnect n w dialed ≠ .error := by
  rw [← newConnectionOk_iff]
  refine ⟨?_, ?_, ?_, ?_, ?_⟩
  · unfold buildConnection; cases dialed <;> simp
  · unfold buildReconnect; split <;> simp_all
  · intro h idx
    have hn : n ≠ 0 := by
      intro h0; subst h0; simp [buildReconnect] at h
    simp only [addrOk, decide_eq_true_eq]
    exact ⟨hn, Nat.mod_lt _ (by omega)⟩
  · unfold buildConnection; cases dialed <;> simp; split <;> simp
  · unfold buildReconnect; split
    · simp
    · split <;> simp

/-- Default sizes; two addresses, the dial fails. -/
example : buildConnection 0 true = .conn ∧ buildReconnect 2 0 false = .conn ∧ buildReconnect 0 0 true = .panics 0 := by decide

/-- **C123 is false of the client: something is left behind.** With a negative WriteFrameChSize the constructors dial first and panic
afterwards, and the transport connection stays open. -/
theorem C123_refuted_leak (w : Int) (hw : w < 0) (n : Nat) (hn : n ≠ 0) :
    buildConnection w true = .panics 1 ∧ buildReconnect n w true = .panics 1 ∧ buildAPI w [true] = .panics 1 := by
  have h : newConnectionOk w = false := by
    cases h : newConnectionOk w with
    | false => rfl
    | true => have := (newConnectionOk_iff w).1 h; unfold ClientFits at this; omega
  refine ⟨?_, ?_, ?_⟩ <;> simp [buildConnection, buildReconnect, buildAPI, h, hn]

example : (-1 : Int) < 0 ∧ (2 : Nat) ≠ 0 := by decide

theorem sum_nonneg_of : ∀ (l : List Int), (∀ w ∈ l, 0 ≤ w) → 0 ≤ l.sum
  | [], _ => by simp
  | x :: xs, h => by
    have h1 := sum_nonneg_of xs (fun w hw => h w (by simp [hw]))
    have h2 := h x (by simp)
    simp only [List.sum_cons]; omega

/-- The sum of weights, computed with 64 bits, is the sum if nothing overflows. -/
theorem wrapSum_eq (ws : List Int) (hw : ∀ w ∈ ws, 0 ≤ w) (hs : ws.sum < 2 ^ 63) : wrapSum ws = ws.sum := by
  suffices H : ∀ (ws : List Int) (t : Int64), (∀ w ∈ ws, 0 ≤ w) → 0 ≤ t.toInt → t.toInt + ws.sum < 2 ^ 63 →
      (ws.foldl (fun (t : Int64) w => t + Int64.ofInt w) t).toInt = t.toInt + ws.sum by
    have := H ws 0 hw (by simp) (by simpa using hs)
    unfold wrapSum; rw [this]; simp
  clear hw hs ws
  intro ws
  induction ws with
  | nil => intro t _ _ _; simp
  | cons w ws ih =>
    intro t hw ht hs
    have hw0 := hw w (by simp)
    have hsum : 0 ≤ ws.sum := sum_nonneg_of ws (fun w hw' => hw w (by simp [hw']))
    simp only [List.sum_cons] at hs
    have e : (t + Int64.ofInt w).toInt = t.toInt + w := by
      rw [Int64.toInt_add, Int64.toInt_ofInt]
      simp only [Int.add_bmod_bmod]
      have h1 : (Int64.size : Int) = 2 ^ 64 := rfl
      apply Int.bmod_eq_of_le <;> omega
    rw [List.foldl_cons, ih _ (fun w hw' => hw w (by simp [hw'])) (by omega) (by omega), e, List.sum_cons]; omega

/-- **C123, API, partial.** If there are endpoints and no weights are given, or weights that are not negative, of positive sum below
2^63, then `Call` does not panic when it draws an endpoint; if all are 0, or there are no endpoints and no weights, it always does.
Missing for the full claim: NewAPI accepts these, see `C123_refuted_api`. -/
theorem C123_api_partial (n : Nat) :
    (apiCallOk n none = true ↔ n ≠ 0) ∧
    (∀ ws : List Int, (∀ w ∈ ws, 0 ≤ w) → ws.sum < 2 ^ 63 → (apiCallOk n (some ws) = true ↔ ∃ w ∈ ws, w ≠ 0)) := by
  refine ⟨?_, ?_⟩
  · have : apiCallOk n none = true ↔ 0 < (n : Int) := decide_eq_true_iff
    rw [this]; omega
  · intro ws hw hs
    simp only [apiCallOk, apiTotal, decide_eq_true_eq, wrapSum_eq ws hw hs]
    clear hs
    induction ws with
    | nil => simp
    | cons x xs ih =>
      have hx := hw x (by simp)
      have hxs : ∀ w ∈ xs, 0 ≤ w := fun w hw' => hw w (by simp [hw'])
      have ih := ih hxs
      have hsum : 0 ≤ xs.sum := sum_nonneg_of xs hxs
      simp only [List.sum_cons, List.mem_cons]
      constructor
      · intro h
        by_cases h0 : x = 0
        · obtain ⟨w, hw1, hw2⟩ := ih.1 (by omega); exact ⟨w, Or.inr hw1, hw2⟩
        · exact ⟨x, Or.inl rfl, h0⟩
      · rintro ⟨w, rfl | hw1, hw2⟩
        · omega
        · have := ih.2 ⟨w, hw1, hw2⟩; omega

example : ∀ w ∈ [3, 0, 1], (0 : Int) ≤ w := by decide
example : apiCallOk 3 (some [3, 0, 1]) = true ∧ apiCallOk 2 (some [0, 0]) = false := by decide

/-- **C123 is false of the API.** NewAPI returns, and every `Call` panics: without endpoints, with weights that are all 0, with negative
ones, and with two weights of 2^62 whose sum overflows. -/
theorem C123_refuted_api (write : Int) : buildAPI write [] = .conn ∧ buildAPI 0 [true, true] = .conn ∧
    apiCallOk 0 none = false ∧ apiCallOk 2 (some [0, 0]) = false ∧ apiCallOk 2 (some [1, -2]) = false ∧
    apiCallOk 2 (some [2 ^ 62, 2 ^ 62]) = false := by
  refine ⟨rfl, ?_, ?_, ?_, ?_, ?_⟩ <;> decide +kernel

end Qrpc
