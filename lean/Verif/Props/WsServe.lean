import Verif.Model.WsServe
import Verif.Props.WsOverlay
/-! # Property C99: the WebSocket listener goes on after a failed Accept -/
namespace Qrpc

theorem whStep_wo {cap : Nat} {s s' : WhSt} {a : WoAct} (h : whStep cap s (.wo a) = some s') :
    woStep cap s.wo a = some s'.wo ∧ s'.http = s.http ∧ s'.tcp = s.tcp ∧ (a = .upgrade → s.wo.conns.length < s.tcp) := by
  simp only [whStep] at h
  split at h
  · cases h
  · next hc =>
    split at h
    · next w hw =>
      cases h
      exact ⟨hw, rfl, rfl, fun e => by simp [e] at hc; omega⟩
    · cases h

theorem woStep_len {cap : Nat} {s s' : WoSt} {a : WoAct} (hs : woStep cap s a = some s') :
    s'.conns.length = s.conns.length + if a = .upgrade then 1 else 0 := by
  wostep_cases hs a
  all_goals simp

theorem woStep_close {cap : Nat} {s s' : WoSt} {a : WoAct} (hs : woStep cap s a = some s') (ha : a ≠ .close) :
    s'.ctx = s.ctx ∧ s'.lnClosed = s.lnClosed := by
  wostep_cases hs a
  all_goals simp_all

/-- The part of the state that concerns upgraded connections is one of the overlay; every upgraded connection is one of the TCP
connections; the listener is open unless it was closed or failed. -/
structure WhInv (cap : Nat) (s : WhSt) : Prop where
  wo : WoInv cap s.wo
  len : s.wo.conns.length ≤ s.tcp
  up : s.wo.ctx = false → s.http = true → s.wo.lnClosed = false

theorem WhInv.step {cap : Nat} {s s' : WhSt} {a : WhAct} (h : WhInv cap s) (hs : whStep cap s a = some s') : WhInv cap s' := by
  obtain ⟨h1, h2, h3⟩ := h
  cases a with
  | wo a =>
    obtain ⟨k1, k2, k3, k4⟩ := whStep_wo hs
    refine ⟨h1.step k1, ?_, ?_⟩
    · rw [woStep_len k1, k3]
      split
      · next e => have := k4 e; omega
      · omega
    · intro hc hh
      by_cases e : a = .close
      · subst e
        simp only [woStep, Option.some.injEq] at k1
        rw [← k1] at hc
        cases hc
      · obtain ⟨e1, e2⟩ := woStep_close k1 e
        rw [e2]
        exact h3 (by rw [← e1]; exact hc) (by rw [← k2]; exact hh)
  | tcpConn =>
    simp only [whStep] at hs
    split at hs
    · cases hs; exact ⟨h1, by simp only; omega, h3⟩
    · cases hs
  | err t =>
    simp only [whStep] at hs
    split at hs
    · split at hs
      · cases hs; exact ⟨h1, h2, h3⟩
      · cases hs
        exact ⟨⟨h1.order, h1.nodup, h1.len, h1.lt, h1.off, h1.q, h1.a, h1.d⟩, h2, by simp⟩
    · cases hs

theorem WhInv.reach {cap : Nat} {acts : List WhAct} {s : WhSt} (h : whRun cap acts = some s) : WhInv cap s :=
  runActs_inv (fun _ _ _ h hs => WhInv.step h hs)
    ⟨by constructor <;> simp [WhSt.init, WoSt.init], by simp [WhSt.init, WoSt.init], by simp [WhSt.init, WoSt.init]⟩ h

/-- A run of the overlay without upgrades and Close is one here. -/
theorem whRun_lift {cap : Nat} {more : List WoAct} {s : WhSt} {w : WoSt} (hm : ∀ a ∈ more, a ≠ .upgrade ∧ a ≠ .close)
    (h : runActs (woStep cap) s.wo more = some w) : runActs (whStep cap) s (more.map .wo) = some { s with wo := w } := by
  induction more generalizing s with
  | nil => simp only [runActs, Option.some.injEq] at h; subst h; rfl
  | cons a more ih =>
    cases h1 : woStep cap s.wo a with
    | none => simp [runActs, h1] at h
    | some w1 =>
      simp only [runActs, h1] at h
      have ha := hm a (.head _)
      have : whStep cap s (.wo a) = some { s with wo := w1 } := by
        simp [whStep, ha.1, h1]
      simp only [List.map_cons, runActs, this]
      exact ih (s := { s with wo := w1 }) (fun b hb => hm b (.tail _ hb)) h

theorem whRun_state {cap : Nat} {acts : List WhAct} {s : WhSt} (h : whRun cap acts = some s)
    (hf : WhAct.err false ∉ acts) (hc : WhAct.wo .close ∉ acts) : s.http = true ∧ s.wo.ctx = false ∧ s.wo.lnClosed = false := by
  have key : ∀ (acts : List WhAct) (s0 s : WhSt), runActs (whStep cap) s0 acts = some s → WhAct.err false ∉ acts →
      WhAct.wo .close ∉ acts → s0.http = true ∧ s0.wo.ctx = false ∧ s0.wo.lnClosed = false →
      s.http = true ∧ s.wo.ctx = false ∧ s.wo.lnClosed = false := by
    intro acts
    induction acts with
    | nil => intro s0 s h _ _ hp; simp only [runActs, Option.some.injEq] at h; exact h ▸ hp
    | cons a acts ih =>
      intro s0 s h hf hc hp
      cases h1 : whStep cap s0 a with
      | none => simp [runActs, h1] at h
      | some s1 =>
        simp only [runActs, h1] at h
        refine ih s1 s h (fun x => hf (.tail _ x)) (fun x => hc (.tail _ x)) ?_
        cases a with
        | wo a =>
          obtain ⟨k1, k2, -, -⟩ := whStep_wo h1
          obtain ⟨e1, e2⟩ := woStep_close k1 (fun e => hc (by rw [e]; exact .head _))
          exact ⟨by rw [k2]; exact hp.1, by rw [e1]; exact hp.2.1, by rw [e2]; exact hp.2.2⟩
        | tcpConn =>
          simp only [whStep] at h1
          split at h1
          · cases h1; exact hp
          · cases h1
        | err t =>
          cases t with
          | false => exact absurd (List.mem_cons_self ..) hf
          | true =>
            simp only [whStep, hp.1, if_true, Option.some.injEq] at h1
            exact h1 ▸ hp
  exact key acts WhSt.init s h hf hc ⟨rfl, rfl, rfl⟩

/-- **C99 (partial).** As long as the inner listener's Accept has failed only temporarily, and the listener is not closed, a new
connection is taken and, with calls of Accept, returned by one of them. -/
theorem C99_partial {cap : Nat} (hcap : 0 < cap) {acts : List WhAct} {s : WhSt} (h : whRun cap acts = some s)
    (hf : WhAct.err false ∉ acts) (hc : WhAct.wo .close ∉ acts) :
    ∃ more s', runActs (whStep cap) s ([.tcpConn, .wo .upgrade] ++ more) = some s' ∧ s.wo.conns.length ∈ s'.wo.accepts := by
  obtain ⟨e1, e2, e3⟩ := whRun_state h hf hc
  have hI := WhInv.reach h
  let s1 : WhSt := { s with tcp := s.tcp + 1, wo := { s.wo with conns := s.wo.conns ++ [.offering] } }
  have h1 : runActs (whStep cap) s [.tcpConn, .wo .upgrade] = some s1 := by
    have hlen := hI.len
    have : whStep cap s .tcpConn = some { s with tcp := s.tcp + 1 } := by simp [whStep, e1, e3]
    simp only [runActs, this]
    have : whStep cap { s with tcp := s.tcp + 1 } (.wo .upgrade) = some s1 := by
      simp only [whStep]
      rw [if_neg (by simp; omega)]
      rfl
    simp only [this]
  have hI1 : WhInv cap s1 := runActs_inv (fun _ _ _ h hs => WhInv.step h hs) hI h1
  have hlt : s.wo.conns.length < s1.wo.conns.length := by simp [s1]
  have hoff : s1.wo.conns[s.wo.conns.length]? = some .offering := by simp [s1]
  have hns := hI1.wo.off _ hoff
  rcases hI1.wo.accepted e2 hlt with k | k | ⟨-, k⟩
  · exact absurd (by rw [← hI1.wo.order]; exact List.mem_append_left _ k) hns
  · exact absurd (by rw [← hI1.wo.order]; exact List.mem_append_right _ k) hns
  · obtain ⟨more, w, k1, k2, k3⟩ := k hcap
    refine ⟨more.map .wo, { s1 with wo := w }, ?_, k3⟩
    rw [runActs_append, h1]
    exact whRun_lift k1 k2

/-- **C99 is false of the code**: after one error that is not temporary no connection is ever taken again, and Accept does not report
it: as long as nobody closes the listener, in every continuation Accept returns at most the connections there were before, and
never an error (so that `Server.Serve`, which would try again, waits for ever). -/
theorem C99_refuted {cap : Nat} {acts : List WhAct} {s s1 : WhSt} (hrun : whRun cap acts = some s) (hctx : s.wo.ctx = false)
    (h1 : whStep cap s (.err false) = some s1) :
    ∀ more s', WhAct.wo .close ∉ more → runActs (whStep cap) s1 more = some s' →
      s'.tcp = s.tcp ∧ s'.wo.accepts.length ≤ s.tcp ∧ whStep cap s' .tcpConn = none ∧ whStep cap s' (.wo .acceptErr) = none := by
  have hI1 : WhInv cap s1 := (WhInv.reach hrun).step h1
  have hs1 : s1.http = false ∧ s1.wo.ctx = false ∧ s1.tcp = s.tcp := by
    simp only [whStep] at h1
    split at h1
    · simp only [Bool.false_eq_true, if_false, Option.some.injEq] at h1
      subst h1
      exact ⟨rfl, hctx, rfl⟩
    · cases h1
  intro more
  have key : ∀ (more : List WhAct) (t s' : WhSt), WhInv cap t → t.http = false ∧ t.wo.ctx = false ∧ t.tcp = s.tcp →
      WhAct.wo .close ∉ more → runActs (whStep cap) t more = some s' →
      WhInv cap s' ∧ s'.http = false ∧ s'.wo.ctx = false ∧ s'.tcp = s.tcp := by
    intro more
    induction more with
    | nil => intro t s' hi hp _ h; simp only [runActs, Option.some.injEq] at h; exact h ▸ ⟨hi, hp⟩
    | cons a more ih =>
      intro t s' hi hp hc h
      cases h2 : whStep cap t a with
      | none => simp [runActs, h2] at h
      | some t1 =>
        simp only [runActs, h2] at h
        refine ih t1 s' (hi.step h2) ?_ (fun x => hc (.tail _ x)) h
        cases a with
        | wo a =>
          obtain ⟨k1, k2, k3, -⟩ := whStep_wo h2
          obtain ⟨e1, -⟩ := woStep_close k1 (fun e => hc (by rw [e]; exact .head _))
          exact ⟨by rw [k2]; exact hp.1, by rw [e1]; exact hp.2.1, by rw [k3]; exact hp.2.2⟩
        | tcpConn => simp [whStep, hp.1] at h2
        | err t => simp [whStep, hp.1] at h2
  intro s' hc h
  obtain ⟨hi, k1, k2, k3⟩ := key more s1 s' hI1 hs1 hc h
  refine ⟨k3, ?_, by simp [whStep, k1], by simp [whStep, woStep, k2]⟩
  have hnd : s'.wo.accepts.Nodup := by
    have := hi.wo.nodup
    rw [← hi.wo.order] at this
    exact (List.nodup_append.mp this).1
  have hlt : ∀ c ∈ s'.wo.accepts, c < s'.wo.conns.length :=
    fun c hc => hi.wo.lt c (by rw [← hi.wo.order]; exact List.mem_append_left _ hc)
  have := hnd.length_le_of_subset (l₂ := List.range s'.wo.conns.length) (fun c hc => List.mem_range.2 (hlt c hc))
  rw [List.length_range] at this
  have := hi.len
  omega

/-- One connection is accepted, then the inner listener fails; two more calls of Accept: one gets the connection upgraded
meanwhile, the other waits. -/
def exWh : List WhAct := [.tcpConn, .err true, .tcpConn, .wo .upgrade, .wo (.offer 0), .wo .accept]

example : (whRun 128 exWh).map (fun s => (s.wo.accepts, s.http, s.tcp)) = some ([0], true, 2) := by decide +kernel

example : ∃ s s1, whRun 128 exWh = some s ∧ whStep 128 s (.err false) = some s1 ∧
    (runActs (whStep 128) s1 [.wo .upgrade, .wo (.offer 1), .wo .accept]).map (fun s => s.wo.accepts) = some [0, 1] ∧
    runActs (whStep 128) s1 [.wo .upgrade, .wo (.offer 1), .wo .accept, .wo .accept] = none := ⟨_, _, rfl, rfl, by decide +kernel, by decide +kernel⟩

example : ∃ s, whRun 128 exWh = some s ∧ ∃ more s', runActs (whStep 128) s ([.tcpConn, .wo .upgrade] ++ more) = some s' ∧ 1 ∈ s'.wo.accepts :=
  ⟨_, rfl, C99_partial (by decide) (acts := exWh) rfl (by decide) (by decide)⟩

end Qrpc
