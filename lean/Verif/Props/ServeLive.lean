import Verif.Props.ServeReadEnd
import Verif.Lemmas.ServeReadG
/-! # C126: a live server connection serves every request -/
namespace Qrpc

/-- A step of one of the goroutines of the connection that does not wait for the peer; a handler returning is one. -/
def RAct.serving : RAct → Bool
  | .rLookup _ | .rGo | .rSend | .rCtx | .rGate | .mRecv | .mCtx | .mGo | .mEnd | .mRst _ | .hEnd _ | .hDec _ | .hTest _ | .hRst _ _ => true
  | _ => false

/-- `ReadFrame` returns. -/
def RAct.arrives : RAct → Bool
  | .rFrame _ | .rErr => true
  | _ => false

def RRd.todo : RRd → Nat
  | .read => 0 | .throttle => 1 | .sub => 1 | .close => 2 | .nbCheck => 2 | .gate => 2 | .send _ => 10 | .lookup _ => 11 | .exit => 1 | .off => 0

def MPc.todo : MPc → Nat
  | .select => 0 | .readMore => 1 | .rst _ => 2 | .test _ => 3 | .cleanup _ => 4 | .handling _ => 5 | .spawn _ => 5 | .check _ => 6
  | .closing => 1 | .waitWG => 0 | .onClose => 0 | .ended => 0

/-- Steps left until everything read so far is served. -/
def RSt.todo (s : RSt) : Nat :=
  s.rd.todo + s.main.todo + 7 * s.ch.length + 4 * s.running.length + 3 * s.ending.length + 2 * s.cleaning.length + s.resetting.length

set_option maxHeartbeats 8000000 in
theorem todo_step {c : RConf} {s s' : RSt} {a : RAct} (hi : RInv c s) (hs : rdStep c s a = some s') (hx : s'.ctx = false) :
    s.ctx = false ∧ s'.todo + (if a.serving then 1 else 0) ≤ s.todo + (if a.arrives then 11 else 0) := by
  have he : ∀ (l : List Nat) k, k ∈ l → (l.erase k).length + 1 = l.length := by
    intro l k h
    have := List.length_erase_of_mem h
    have := List.length_pos_of_mem h
    omega
  have hd := hi.d.closing
  unfold RSt.todo
  rdstep_cases hs a
  all_goals simp only [RAct.serving, RAct.arrives, Bool.false_eq_true, if_true, if_false, List.length_append, List.length_cons, List.length_nil]
  all_goals refine ⟨by simp_all, ?_⟩
  all_goals try grind [RRd.todo, MPc.todo, MPc.down]

/-- Where the frames are that were read. -/
def RInvH (s : RSt) : Prop :=
  ∀ k < s.arr.length, (frameAt s.arr k).push = true ∨ HEv.resp k ∈ s.log ∨ k ∈ s.ch ∨ s.main.item = some k ∨ s.rd.item = some k ∨
    HEv.start k ∈ s.log ∨ s.ctx = true ∨ s.main = .closing

theorem RInvH.init (t : Nat) : RInvH (RSt.init t) := by
  intro k hk; simp [RSt.init] at hk

set_option maxHeartbeats 4000000 in
theorem RInvH.step {c s a s'} (h : RInvH s) (hs : rdStep c s a = some s') : RInvH s' := by
  intro k hk
  rdstep_cases hs a
  all_goals first
    | (have := h k hk; simp_all [MPc.item, RRd.item]; done)
    | (have := h k hk; simp_all [MPc.item, RRd.item]; grind)
    | (by_cases hl : k < s.arr.length
       · have := h k hl; simp only [frameAt_append _ hl]; simp_all [MPc.item, RRd.item]; done
       · have he : k = s.arr.length := by simp at hk; omega
         subst he; simp_all [frameAt_last, RRd.item])
    | (by_cases hl : k < s.arr.length
       · have := h k hl; simp only [frameAt_append _ hl]; simp_all [MPc.item, RRd.item]; grind
       · have he : k = s.arr.length := by simp at hk; omega
         subst he; simp_all [frameAt_last, RRd.item])

/-- No goroutine of the connection can take a step except by reading on. -/
def RSt.Served (c : RConf) (s : RSt) : Prop := ∀ a, a.serving = true → rdStep c s a = none

/-- **C126.** While a server connection is open, its goroutines never wait for each other in a circle. In every continuation that
leaves it open (frames arriving, handlers finishing their streams, the clock, the throttle, in any order) they take at most `s.todo`
steps, plus eleven for every return of `ReadFrame`. When none of them can take a step any more and the server is not throttled, the
reader is reading, the main goroutine is ready, the queue is empty, no handler is running, and every request that was read - every
frame that is neither a push nor a response - was given to a handler, and its stream is closed on this side: it was answered or reset. -/
theorem C126 {c : RConf} {t0 : Nat} {acts more : List RAct} {s s' : RSt} (hrun : rdRun c t0 acts = some s)
    (hm : runActs (rdStep c) s more = some s') (hx : s'.ctx = false) :
    more.countP RAct.serving ≤ s.todo + 11 * more.countP RAct.arrives ∧
    (s'.Served c → s'.throttled = false →
      s'.rd = .read ∧ s'.main = .select ∧ s'.ch = [] ∧ s'.running = [] ∧ s'.ending = [] ∧ s'.cleaning = [] ∧ s'.resetting = [] ∧
      ∀ k < s'.arr.length, (frameAt s'.arr k).push = false → HEv.resp k ∉ s'.log →
        HEv.start k ∈ s'.log ∧ k ∈ s'.finished ∧ s'.closedSelf k = true) := by
  have key : ∀ (more : List RAct) (acts : List RAct) (s : RSt), rdRun c t0 acts = some s → runActs (rdStep c) s more = some s' →
      s.ctx = false ∧ more.countP RAct.serving + s'.todo ≤ s.todo + 11 * more.countP RAct.arrives := by
    intro more
    induction more with
    | nil => intro acts s _ h; simp only [runActs, Option.some.injEq] at h; subst h; simp [hx]
    | cons a as ih =>
      intro acts s hrun h
      rw [runActs] at h
      cases h1 : rdStep c s a with
      | none => rw [h1] at h; simp at h
      | some s1 =>
        rw [h1] at h
        have hrun1 : rdRun c t0 (acts ++ [a]) = some s1 := by
          unfold rdRun at hrun ⊢; rw [runActs_append, hrun]; simp [runActs, h1]
        obtain ⟨h4, h5⟩ := ih _ s1 hrun1 h
        obtain ⟨h2, h3⟩ := todo_step (RInv.reach hrun) h1 h4
        refine ⟨h2, ?_⟩
        rw [List.countP_cons, List.countP_cons]
        cases hi : a.serving <;> cases hf : a.arrives <;> simp only [hi, hf, if_true, if_false, Bool.false_eq_true] at h3 ⊢ <;> omega
  refine ⟨by have := (key more acts s hrun hm).2; omega, fun hq hth => ?_⟩
  have hrun' : rdRun c t0 (acts ++ more) = some s' := by
    unfold rdRun at hrun ⊢; rw [runActs_append, hrun]; exact hm
  have hI := RInv.reach hrun'
  have hG : RInvG s' := runActs_inv (P := RInvG) (fun _ _ _ h hs => h.step hs) (.init t0) hrun'
  have hH : RInvH s' := runActs_inv (P := RInvH) (fun _ _ _ h hs => h.step hs) (RInvH.init t0) hrun'
  have hempty : ∀ (l : List Nat), (∀ k, k ∉ l) → l = [] := by
    intro l h
    cases l with
    | nil => rfl
    | cons k l => exact absurd List.mem_cons_self (h k)
  have h1 : s'.running = [] := hempty _ fun k hk => by
    have := hq (.hEnd k) rfl
    simp [rdStep, hk] at this
  have h2 : s'.ending = [] := hempty _ fun k hk => by
    have := hq (.hDec k) rfl
    simp only [rdStep, hk, if_true] at this
    split at this <;> simp at this
  have h3 : s'.cleaning = [] := hempty _ fun k hk => by
    have := hq (.hTest k) rfl
    simp only [rdStep, hk, if_true] at this
    split at this <;> simp at this
  have h4 : s'.resetting = [] := hempty _ fun k hk => by
    have := hq (.hRst k true) rfl
    simp [rdStep, hk] at this
  have hsel : s'.main = .select := by
    have hg := hq .mGo rfl
    have hdown := hG.down
    cases hp : s'.main with
    | select => rfl
    | ended => simp [hp, MPc.down, hx] at hdown
    | waitWG => simp [hp, MPc.down, hx] at hdown
    | onClose => simp [hp, MPc.down, hx] at hdown
    | handling k => have := hq .mEnd rfl; simp [rdStep, hp] at this
    | rst k => have := hq (.mRst true) rfl; simp [rdStep, hp] at this
    | readMore =>
      obtain ⟨s2, h2, _⟩ := C27_gate_opens hrun' hp
      rw [hg] at h2; simp at h2
    | cleanup k => simp only [rdStep, hp] at hg; split at hg <;> simp at hg
    | test k => simp only [rdStep, hp] at hg; split at hg <;> simp at hg
    | check k =>
      simp only [rdStep, hp] at hg
      repeat' (split at hg)
      all_goals simp at hg
    | spawn k => simp [rdStep, hp] at hg
    | closing => simp [rdStep, hp] at hg
  have hch : s'.ch = [] := by
    have hg := hq .mRecv rfl
    cases hc : s'.ch with
    | nil => rfl
    | cons k rest =>
      simp only [rdStep, hsel, hc] at hg
      split at hg <;> simp at hg
  have hrd : s'.rd = .read := by
    have hg := hq .rGo rfl
    cases hr : s'.rd with
    | read => rfl
    | sub => simp [rdStep, hr] at hg
    | close => simp [rdStep, hr] at hg
    | exit => have := hG.gone (.inl hr); simp [hx] at this
    | off => have := hG.gone (.inr hr); simp [hx] at this
    | lookup k => have := hq (.rLookup true) rfl; simp [rdStep, hr] at this
    | send k =>
      have hg := hq .rSend rfl
      simp only [rdStep, hr, hsel, hch] at hg
      repeat' (split at hg)
      all_goals simp_all
      all_goals omega
    | nbCheck => simp [rdStep, hr, hx] at hg
    | throttle => simp [rdStep, hr, hth] at hg
    | gate =>
      cases ht : s'.tok with
      | true => have := hq .rGate rfl; simp [rdStep, hr, ht] at this
      | false =>
        have := hG.gate hr ht
        simp [hsel, MPc.busy, hch] at this
  refine ⟨hrd, hsel, hch, h1, h2, h3, h4, fun k hk hp hr => ?_⟩
  have hst : HEv.start k ∈ s'.log := by
    have := hH k hk
    simpa [hp, hr, hch, hsel, hrd, MPc.item, RRd.item, hx] using this
  have hfin : k ∈ s'.finished := by
    have := hI.d.whereAbouts k hst
    simpa [h1, h2, h3, h4, hsel, MPc.blk] using this
  refine ⟨hst, hfin, ?_⟩
  have := hI.d.fin k hfin
  simpa [hx] using this

/-- Its hypotheses: a blocking and two nonblocking requests, one of which does not answer, a push and a response have arrived; the
server was throttled for a while; everything is served and the connection is still open. -/
def exServed : List RAct :=
  [.rFrame nbF, .rSend, .setThrottle true, .rGo, .mRecv, .mGo, .mGo, .setThrottle false, .rGo, .rFrame nbF, .rSend, .rGo, .rGo,
   .rFrame ⟨9, true, false⟩, .rGo, .rFrame ⟨2, false, false⟩, .rLookup true, .rFrame blkF, .rSend, .mRecv, .mGo, .mGo, .hFinal 0, .hEnd 0,
   .mRecv, .mFinal, .hEnd 1, .hDec 0, .hDec 1, .hTest 0, .hTest 1, .hRst 1 true, .mEnd, .mGo, .mGo, .mGo, .rGate, .rGo]

example : (rdRun ⟨2, 0, 0, true⟩ 100 exServed).map (fun s => (s.rd, s.main, s.ch, s.throttled, s.ctx)) = some (.read, .select, [], false, false) ∧
    (rdRun ⟨2, 0, 0, true⟩ 100 exServed).map (fun s => (s.log, s.finished)) =
      some ([.start 0, .push 2, .resp 3, .start 1, .finish 0, .start 4, .finish 1, .finish 4], [0, 1, 4]) := by
  constructor <;> rfl

example : ∀ s, rdRun ⟨2, 0, 0, true⟩ 100 exServed = some s → s.Served ⟨2, 0, 0, true⟩ := by
  intro s hs
  have h1 : s = (rdRun ⟨2, 0, 0, true⟩ 100 exServed).getD (RSt.init 0) := by rw [hs]; rfl
  have hr : s.rd = .read := by rw [h1]; rfl
  have hm : s.main = .select := by rw [h1]; rfl
  have hc : s.ch = [] := by rw [h1]; rfl
  have hx : s.ctx = false := by rw [h1]; rfl
  have hl : s.running = [] ∧ s.ending = [] ∧ s.cleaning = [] ∧ s.resetting = [] := by rw [h1]; exact ⟨rfl, rfl, rfl, rfl⟩
  clear hs h1
  intro a ha
  cases a <;> simp_all [RAct.serving, rdStep]

end Qrpc
