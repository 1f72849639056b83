import Verif.Model.LoopCtx
import Verif.Lemmas.ClientN
/-!
# C144 The contexts of a client's transport connections do not pile up
-/
namespace Qrpc

structure LcInv (c : CConf) (x : LcSt) : Prop where
  base : CInv c x.s
  kids : x.kids = if x.s.gen ≠ 0 ∧ x.s.lctx = false ∧ x.s.ctx = false then [x.s.gen] else []
  up : x.s.loop.running = true ∨ x.s.loop = .spawn → x.s.gen ≠ 0
  fresh : x.s.loop = .spawn ∨ (x.s.loop = .connect ∧ x.s.rwc = true) → x.s.lctx = false
  both : x.s.loop.running = true → x.s.rd ≠ .off → x.s.wr ≠ .off → x.s.lctx = false

theorem LcInv.step {c : CConf} {x x' : LcSt} {a : CAct} (h : LcInv c x) (hs : lcStep c x a = some x') : LcInv c x' := by
  obtain ⟨h1, h2, h3, h4, h5⟩ := h
  simp only [lcStep] at hs
  split at hs
  · simp at hs
  · next s' hc =>
    cases hs
    have hb := h1.step hc
    have l1 := h1.l.done
    have l2 := h1.l.idle
    have l3 := h1.l.noConn
    have l4 := h1.l.gen
    clear h1
    cstep_cases hc a
    all_goals refine ⟨hb, ?_, ?_, ?_, ?_⟩
    all_goals clear hb
    all_goals simp only [lcKids, h2]
    all_goals try grind [CSt.done, CLp.after, CLp.running, CLp.connected]

theorem LcInv.reach {c : CConf} {d : Bool} {acts : List CAct} {x : LcSt} (h : lcRun c d acts = some x) : LcInv c x :=
  runActs_inv (P := LcInv c) (fun _ _ _ hp hs => hp.step hs) ⟨.init c d, by cases d <;> simp [CSt.init], by simp [CSt.init, CLp.running], by simp [CSt.init], by simp [CSt.init]⟩ h

theorem lcRun_of {c : CConf} {acts : List CAct} : ∀ {x : LcSt} {s : CSt}, runActs (cStep c) x.s acts = some s →
    ∃ x', runActs (lcStep c) x acts = some x' ∧ x'.s = s := by
  induction acts with
  | nil => intro x s h; simp only [runActs, Option.some.injEq] at h; exact ⟨x, rfl, h⟩
  | cons a acts ih =>
    intro x s h
    simp only [runActs] at h
    split at h
    · simp at h
    · next s1 hs =>
      obtain ⟨x', h1, h2⟩ := ih (x := ⟨s1, lcKids x a⟩) h
      exact ⟨x', by simp only [runActs, lcStep, hs]; exact h1, h2⟩

/-- **C144.** In every execution of a client connection, after any number of reconnects: at most one context of a transport connection is
registered with that of the connection, and it is that of the current one; none is when the loop has seen the end of the transport
connection (until it has made the next one), nor after the connection's context has been cancelled; and while the current transport
connection is up, its context is registered, so that Close reaches it. -/
theorem C144 {c : CConf} {d : Bool} {acts : List CAct} {x : LcSt} (hrun : lcRun c d acts = some x) :
    x.kids.length ≤ 1 ∧ (∀ g ∈ x.kids, g = x.s.gen) ∧
    (x.s.loop = .closeRwc ∨ x.s.loop = .onDisconnect ∨ x.s.loop = .waitWG ∨ x.s.loop = .endLoop ∨ x.s.loop = .selfClose ∨ x.s.loop = .ended →
      x.kids = []) ∧
    (x.s.ctx = true → x.kids = []) ∧
    (x.s.loop = .waitDone → x.s.rd ≠ .off → x.s.wr ≠ .off → x.s.ctx = false → x.kids = [x.s.gen]) := by
  obtain ⟨h1, h2, h3, _, h5⟩ := LcInv.reach hrun
  have l1 := h1.l.done
  refine ⟨?_, ?_, ?_, ?_, ?_⟩
  · rw [h2]; split <;> simp
  · intro g hg; rw [h2] at hg; split at hg <;> simp at hg; exact hg
  · intro hl
    rw [h2, if_neg]
    rintro ⟨a, b, c⟩
    have := l1 (by rcases hl with h | h | h | h | h | h <;> simp [h, CLp.after]) a
    simp [CSt.done, b, c] at this
  · intro hl; rw [h2, if_neg]; simp [hl]
  · intro hl hr hw hx
    have hu : x.s.loop.running = true := by simp [hl, CLp.running]
    rw [h2, if_pos ⟨h3 (.inl hu), h5 hu hr hw, hx⟩]

/-- The list only follows the client: every execution of the client is one of this model. -/
theorem C144_all {c : CConf} {d : Bool} {acts : List CAct} {s : CSt} (hrun : cRun c d acts = some s) : ∃ x, lcRun c d acts = some x ∧ x.s = s :=
  lcRun_of (x := ⟨CSt.init d, if d then [1] else []⟩) hrun

/-- A client whose first dial failed connects, loses the connection, connects again, and is closed. -/
def exLcUp : List CAct := [.lGo, .dialFail, .lGo, .dialOk, .lGo, .lGo, .rGo, .rGo]
def exLcAgain : List CAct := [.rErr, .rGo, .lGo, .lGo, .lGo, .wDone, .wGo, .lGo, .lGo, .lGo, .dialOk, .lGo, .lGo, .rGo, .rGo]
example : (lcRun ⟨1, true, 1, false⟩ false exLcUp).map (fun x => (x.kids, x.s.gen, x.s.loop, x.s.ctx)) = some ([1], 1, .waitDone, false) ∧
    (lcRun ⟨1, true, 1, false⟩ false (exLcUp ++ exLcAgain.take 4)).map (fun x => (x.kids, x.s.gen, x.s.loop)) = some ([], 1, .onDisconnect) ∧
    (lcRun ⟨1, true, 1, false⟩ false (exLcUp ++ exLcAgain)).map (fun x => (x.kids, x.s.gen, x.s.loop)) = some ([2], 2, .waitDone) ∧
    (lcRun ⟨1, true, 1, false⟩ false (exLcUp ++ exLcAgain ++ [.close, .cancel])).map (fun x => (x.kids, x.s.ctx)) = some ([], true) :=
  ⟨by rfl, by rfl, by rfl, by rfl⟩

end Qrpc
