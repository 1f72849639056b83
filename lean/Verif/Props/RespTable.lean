import Verif.Props.Client
import Verif.Lemmas.ClientR
import Verif.Props.ServeResp
/-! # Property C106: the table of outstanding requests -/
namespace Qrpc

/-- **C106 (partial), exact content.** The table holds a request's response object exactly from the moment its frame is about to be written
until an answer for it is read or the connection is closed: the object was entered, nothing happened to it, and the reader is not just delivering
to it. No request is in it twice. -/
theorem C106_partial {c : CConf} {d : Bool} {acts : List CAct} {s : CSt} (hrun : cRun c d acts = some s) :
    (∀ t, t ∈ s.respes.map Prod.snd ↔ t ∈ s.regd ∧ s.revs t = [] ∧ ∀ f, s.rd ≠ .deliver t f) ∧
    (s.respes.map Prod.fst).Nodup ∧ (s.rwc = false → s.respes = []) := by
  have h := (CInv.reach hrun).c
  refine ⟨fun t => ⟨fun ht => ?_, fun ⟨h1, h2, h3⟩ => ?_⟩, h.fstNodup, h.noConn⟩
  · obtain ⟨p, hp, rfl⟩ := List.mem_map.1 ht
    exact ⟨(h.mem p hp).1, (h.mem p hp).2.2, fun f e => (h.hand _ f e).2.1 p hp rfl⟩
  · rcases h.regd t h1 with h4 | h4 | ⟨f, h4⟩
    · exact List.mem_map.2 ⟨_, h4, rfl⟩
    · exact absurd h2 h4
    · exact absurd h4 (h3 f)

/-- One request that nobody answers. -/
def reqOnce : List CAct :=
  [.request 0 false [1], .go 0, .go 0, .go 0, .enq 0, .wDeq true true, .wGo, .wGo, .wWrite 1 true, .wGo, .wGo, .recv 0]

structure RtGood (n : Nat) (s : CSt) : Prop where
  pc : s.pc 0 = .idle
  closed : s.closed = false
  ctx : s.ctx = false
  lctx : s.lctx = false
  gen : s.gen = 1
  rwc : s.rwc = true
  wr : s.wr = .first
  rd : s.rd = .read
  deq : s.deq = n
  frames : s.frames.length = n
  slot : ∀ t, s.slot t = none
  toSend : s.toSend = []
  rid : s.ridGen = n
  respes : s.respes = (List.range n).map fun k => (clientRid (k + 1), k)
  rets : s.rets = (List.range n).map fun k => (k, .ok)

theorem RtGood.more {c : CConf} {n : Nat} {s : CSt} (h : RtGood n s) (hn : n + 1 < 2 ^ 63) :
    ∃ s', runActs (cStep c) s reqOnce = some s' ∧ RtGood (n + 1) s' := by
  obtain ⟨h1, h2, h3, h4, h5, h6, h7, h8, h9, h10, h11, h12, h13, h14, h15⟩ := h
  have hfree : (s.respes.any fun p => p.1 == clientRid (n + 1)) = false := by
    rw [h14, List.any_eq_false]
    intro p hp
    obtain ⟨k, hk, rfl⟩ := List.mem_map.1 hp
    have := List.mem_range.1 hk
    simp only [beq_iff_eq]
    intro e
    have := clientRid_inj (by omega) hn e
    omega
  have hfree' : ((List.map (fun k => (clientRid (k + 1), k)) (List.range n)).any fun p => p.1 == clientRid (n + 1)) = false := by
    rw [← h14]; exact hfree
  have hcf : cframeOf (s.frames ++ [⟨clientRid (n + 1), [1], true, false, false, false⟩]) n = ⟨clientRid (n + 1), [1], true, false, false, false⟩ := by
    simp [cframeOf, List.getD, ← h10]
  have hcap : 0 < max c.cap 1 := by omega
  have hreg : registerAll (s.frames ++ [⟨clientRid (n + 1), [1], true, false, false, false⟩]) s.respes [n] =
      (s.respes ++ [(clientRid (n + 1), n)], []) := by
    simp only [registerAll, hcf, if_true, hfree, Bool.false_eq_true, if_false]
  obtain ⟨closed, ctx, closeOks, gen, lctx, rwc, loop, wr, rd, handlers, subs, handled, refused, idx, dials, cbs, ridGen, frames, deq, slot, batch, toSend,
    sends, respes, regd, revs, crash, nilDeref, pc, rets, outs, wires⟩ := s
  simp only at h1 h2 h3 h4 h5 h6 h7 h8 h9 h10 h11 h12 h13 h14 h15 hfree hcf hreg
  subst h2 h3 h4 h5 h6 h7 h8 h9 h12 h13 h15
  cases hm : c.cap - 1 <;>
  · simp [reqOnce, runActs, cStep, h1, setAt, h10, hcap, CSt.done, hcf, clientDecideFirst, serveDecide, CFrame.toS, hm, hreg, h11, consume, batchResults]
    constructor <;> simp only [setAt, SRes.toC]
    all_goals first
      | rfl
      | (simp [h10]; done)
      | (intro t; split <;> rfl)
      | (rw [h14, List.range_succ, List.map_append]; rfl)
      | (rw [List.range_succ, List.map_append]; rfl)

/-- A connection that is up. -/
def rtStart : List CAct := [.lGo, .lGo, .lGo, .rGo, .rGo]

theorem RtGood.start (c : CConf) : ∃ s, cRun c true rtStart = some s ∧ RtGood 0 s := by
  refine ⟨_, by simp [cRun, rtStart, runActs, cStep, CSt.init]; rfl, ?_⟩
  constructor <;> simp

/-- **C106 is false of the code**: the table has no bound but the number of request ids. Any number of requests can be in it although every
caller has returned, and only an answer or the end of the connection removes one (`C17_refuted_wait_goes_on`): a caller that stops waiting
(`GetFrameWithContext`) does not. -/
theorem C106_refuted (c : CConf) (n : Nat) (hn : n < 2 ^ 63) :
    ∃ acts s, cRun c true acts = some s ∧ s.respes.length = n ∧ s.rwc = true ∧ s.pc 0 = .idle ∧
      (∀ t, t < n → (t, CRes.ok) ∈ s.rets) ∧ (∀ a ∈ acts, ∀ i push b, a = CAct.request i push b → i = 0) := by
  have key : ∀ n, n < 2 ^ 63 → ∃ acts s, cRun c true acts = some s ∧ RtGood n s ∧
      (∀ a ∈ acts, ∀ i push b, a = CAct.request i push b → i = 0) := by
    intro n
    induction n with
    | zero =>
      intro _
      obtain ⟨s, h1, h2⟩ := RtGood.start c
      exact ⟨_, s, h1, h2, by simp [rtStart]⟩
    | succ n ih =>
      intro hn
      obtain ⟨acts, s, h1, h2, h3⟩ := ih (by omega)
      obtain ⟨s', h4, h5⟩ := h2.more (c := c) hn
      refine ⟨acts ++ reqOnce, s', ?_, h5, ?_⟩
      · unfold cRun at h1 ⊢
        rw [runActs_append, h1]; exact h4
      · intro a ha
        rcases List.mem_append.1 ha with ha | ha
        · exact h3 a ha
        · intro i push b e
          subst e
          simp [reqOnce] at ha
          exact ha.1
  obtain ⟨acts, s, h1, h2, h3⟩ := key n hn
  refine ⟨acts, s, h1, by simp [h2.respes], h2.rwc, h2.pc, fun t ht => ?_, h3⟩
  rw [h2.rets]
  exact List.mem_map.2 ⟨t, List.mem_range.2 ht, rfl⟩

/-- Two requests in the table, one answered and out of it. -/
example : (cRun cfg2 true (exSwap.take 28)).map (fun s => (s.respes, s.regd, s.revs 1)) =
    some ([(3, 0)], [0, 1], [.frame ⟨5, false, false, false⟩]) := by rfl

/-- **C106 (partial), server.** The same for the table of a server connection; an object taken out by `Close` is about to be closed. -/
theorem C106_server_partial {acts : List VAct} {s : VSt} (hrun : vRun acts = some s) :
    (∀ t, t ∈ s.respes.map Prod.snd ↔ t ∈ s.regd ∧ s.revs t = [] ∧ (∀ f, s.rd ≠ .deliver t f) ∧ ∀ i ts, s.cl i = .closing ts → t ∉ ts) ∧
    (s.respes.map Prod.fst).Nodup ∧ (s.closed = true → s.respes = []) := by
  have h := (VInv.reach hrun).c
  refine ⟨fun t => ⟨fun ht => ?_, fun ⟨h1, h2, h3, h4⟩ => ?_⟩, h.fstNodup, h.closed⟩
  · obtain ⟨p, hp, rfl⟩ := List.mem_map.1 ht
    refine ⟨(h.mem p hp).1, (h.mem p hp).2.2, fun f e => (h.hand _ f e).2.1 p hp rfl, fun i ts e => ?_⟩
    have := h.closed (h.cl i ts e).2.1
    rw [this] at hp; cases hp
  · rcases h.regd t h1 with h5 | h5 | ⟨f, h5⟩ | ⟨i, ts, h5, h6⟩
    · exact List.mem_map.2 ⟨_, h5, rfl⟩
    · exact absurd h2 h5
    · exact absurd h5 (h3 f)
    · exact absurd h6 (h4 i ts h5)

/-- Two requests to the client, one answered. -/
example : (vRun [.request [1], .request [2], .register [0, 1], .frame ⟨4, false, false, false⟩, .rGo, .rGo]).map
    (fun s => (s.respes, s.regd, s.revs 1)) = some ([(2, 0)], [0, 1], [.frame ⟨4, false, false, false⟩]) := by rfl

end Qrpc
