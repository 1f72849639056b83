import Verif.Lemmas.GroupX
import Verif.Props.ServeWrite
/-! # C81 on server connections -/
namespace Qrpc
open Spec

theorem GInvX.reach {cap acts s} (h : gRun cap acts = some s) : GInvX s := by
  suffices GInv cap s ∧ GInvX s from this.2
  exact runActs_inv (P := fun s => GInv cap s ∧ GInvX s)
    (fun _ _ _ hp hs => ⟨hp.1.step hs, hp.2.step hp.1.a hp.1.b hp.1.c hp.1.d hs⟩) ⟨GInv.init cap, GInvX.init⟩ h

/-- A result is nil just in case the transport has taken the whole frame, in terms of the frames given to it. -/
theorem sent_rets {cap : Nat} {acts : List GAct} {s : GSt} (h : gRun cap acts = some s) (t : Nat) (r : SRes) (hr : (t, r) ∈ s.rets) :
    r = .ok ↔ ∃ pre post, s.sent = pre ++ t :: post ∧ concat s.frames (pre ++ [t]) <+: s.wire := by
  have hI := GInv.reach h
  have hpre : s.wire <+: flatOf s.frames s.sent := by
    rw [hI.d.wire]; exact List.take_prefix _ _
  have hsub : ∀ pre post, s.sent = pre ++ t :: post → ∀ u ∈ pre ++ [t], u < s.frames.length := by
    intro pre post h1 u hu
    apply hI.sentLt
    rw [h1]
    simp only [List.mem_append, List.mem_cons, List.not_mem_nil, or_false] at hu ⊢
    grind
  constructor
  · rintro rfl
    obtain ⟨pre, post, h1, h2⟩ := hI.e.rets t hr
    refine ⟨pre, post, h1, ?_⟩
    rw [← flatOf_eq_concat (hsub pre post h1)]
    refine List.prefix_of_prefix_length_le ?_ hpre h2
    rw [h1, show pre ++ t :: post = (pre ++ [t]) ++ post by simp, flatOf_append _ (pre ++ [t]) post]
    exact List.prefix_append _ _
  · rintro ⟨pre, post, h1, h2⟩
    apply Classical.byContradiction
    intro hne
    refine (GInvX.reach h).rets t r hr hne ⟨pre, post, h1, ?_⟩
    rw [flatOf_eq_concat (hsub pre post h1)]
    exact h2.length_le

/-- **C81, server.** In every execution of the write path of a server connection, over transports honouring the `net.Conn` contract,
a caller that got a result for its write knows whether it was transmitted: with nil all bytes of the frame were taken by the
transport, with an error (or if a reset was not needed) they were not. -/
theorem C81_server {cap : Nat} {acts : List GAct} {s : GSt} (h : gRun cap acts = some s) :
    ∃ ts : List Nat, ts.Pairwise (· < ·) ∧ s.wire <+: concat s.frames ts ∧
      ∀ t r, (t, r) ∈ s.rets → (r = .ok ↔ ∃ pre post, ts = pre ++ t :: post ∧ concat s.frames (pre ++ [t]) <+: s.wire) := by
  have hI := GInv.reach h
  refine ⟨s.sent, hI.d.sorted, ?_, sent_rets h⟩
  rw [← flatOf_eq_concat hI.sentLt, hI.d.wire]
  exact List.take_prefix _ _

/-- Both kinds of results occur: the second frame of goroutine 1 is cut off after one byte. -/
example : (gRun 2 exFail).map (fun s => (s.rets, s.wire, s.sent)) =
    some ([(0, .ok), (1, .ok), (2, .fail .transport)], [4, 5, 1, 2, 3, 4], [0, 1, 2]) := by decide +kernel

/-- **C81 is false for a caller that stops waiting** when its connection is closed: its frame was transmitted by the goroutine that
held the write lock, and it returns the context's error (serveconn.go:466-479: several cases of the `select` are ready). -/
theorem C81_refuted_server_ctx :
    (gRun 2 [.call 0 exF0, .call 1 exF1, .enq 1, .enq 0, .lock 0, .go 0, .go 0, .deq 0 true true, .deq 0 false true, .go 0, .go 0,
      .write 0 5 true, .go 0, .close, .cancel, .waitCtx 1]).map (fun s => (s.pc 1, s.rets, s.wire)) =
    some (.idle, [], [4, 5, 1, 2, 3]) := by decide +kernel

end Qrpc
