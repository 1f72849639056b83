import Verif.Props.ServeRead
import Verif.Props.Stream
/-! # Property C85: a stream does not hold up the others; C14: how much is leaked -/
namespace Qrpc
open Spec

/-! ## C85 -/

/-- The reader offers a frame that nobody takes. -/
structure RHold (r : Nat) (f : Frame) (n : Nat) (s : SSt) : Prop where
  pc : s.r = .addSelect r f
  lt : r < s.next
  peer : (s.str r).closedPeer = false
  can : (s.str r).cancelled = false
  cc : s.connCancelled = false
  w : s.w.inAd r = false
  recv : s.recv.length = n

set_option maxHeartbeats 1000000 in
theorem RHold.step {r f n s a s'} (h : RHold r f n s) (ha : a ≠ .consume) (hb : a ≠ .cancelConn)
    (hs : sStep s a = some s') : RHold r f n s' := by
  obtain ⟨h1, h2, h3, h4, h5, h6, h7⟩ := h
  sstep_cases hs a
  all_goals constructor
  all_goals try simp only []
  all_goals try first
    | assumption
    | grind [WPc.inAd]

/-- **C85 is false**: `ReadFrame` offers a frame on an unbuffered channel, and while nobody takes it no frame of the connection
is read. In *every* continuation in which the user of this one stream does not receive from its `FrameCh` and the connection is
not closed - whatever is written meanwhile, a reset of this very stream included, and whatever the peer sends, its reset
included - the reader stays where it is, and no frame of any stream is read. -/
theorem C85_refuted {acts more : List SAct} {s s' : SSt} (hrun : sRun SSt.init acts = some s) {r : Nat} {f : Frame}
    (hpc : s.r = .addSelect r f) (hcc : s.connCancelled = false)
    (hno : ∀ a ∈ more, a ≠ .consume ∧ a ≠ .cancelConn) (hmore : sRun s more = some s') :
    s'.r = .addSelect r f ∧ s'.recv.length = s.recv.length := by
  have hI := SInv.reach hrun
  have had : adPeer s :=
    (runActs_inv (P := fun u => SInvA u ∧ adPeer u) (fun _ _ _ hp hs => ⟨hp.1.step hs, adPeer_step hp.1 hp.2 hs⟩)
      ⟨SInvA.init, fun r h => by simp [SSt.init, WPc.inAd] at h⟩ hrun).2
  have hrel : s.released = false := by
    cases h : s.released with
    | false => rfl
    | true => rcases (hI.a.rel h).1 with h | h <;> rw [hpc] at h <;> cases h
  have hlt : r < s.next := by have := hI.a.rok; rw [hpc] at this; exact this
  have hp : (s.str r).closedPeer = false := by have := hI.b.rch; rw [hpc] at this; exact this.1
  have hcan : (s.str r).cancelled = false := by
    cases h : (s.str r).cancelled with
    | false => rfl
    | true => rw [hI.e.can hrel r h] at hp; cases hp
  have hw : s.w.inAd r = false := by
    cases h : s.w.inAd r with
    | false => rfl
    | true => rw [had r h] at hp; cases hp
  have key : ∀ (more : List SAct) (t t' : SSt), (∀ a ∈ more, a ≠ .consume ∧ a ≠ .cancelConn) →
      RHold r f s.recv.length t → sRun t more = some t' → RHold r f s.recv.length t' := by
    intro more
    induction more with
    | nil => intro t t' _ h hr; cases hr; exact h
    | cons a as ih =>
      intro t t' hno h hr
      simp only [sRun, runActs] at hr
      cases ht : sStep t a with
      | none => rw [ht] at hr; cases hr
      | some t1 =>
        rw [ht] at hr
        exact ih t1 t' (fun b hb => hno b (List.mem_cons_of_mem _ hb))
          (h.step (hno a (by simp)).1 (hno a (by simp)).2 ht) hr
  have h := key more s s' hno ⟨hpc, hlt, hp, hcan, hcc, hw, rfl⟩ hmore
  exact ⟨h.pc, h.recv⟩

/-- The hypotheses are met on a server by a handler that returns (or panics) without reading all of its stream: the peer's first
frame is given to the handler, the handler returns, the library sends the reset (serveconn.go:268-272), and the second frame of
the peer, under way meanwhile, is offered to nobody. -/
theorem C85_refuted_example :
    (sRun SSt.init
      [.recv { requestID := 1, flags := StreamFlag, cmd := 0, payload := [] }, .rstep, .rstep,
       .wstart 1 StreamRstFlag false, .wstep, .wstep,
       .recv { requestID := 1, flags := StreamFlag, cmd := 0, payload := [] }, .rstep, .rstep]).map
      (fun s => (s.r, s.connCancelled, s.w, s.log.getLast?)) =
    some (.addSelect 0 { requestID := 1, flags := StreamFlag, cmd := 0, payload := [] }, false, .idle,
      some (.accepted 0 StreamRstFlag)) := by rfl

/-- **C85, what holds**: on a connection that is not closed, as long as the peer keeps to the protocol (no frame of a stream after
its end, no resets), offering a frame to the user of its stream is the only thing the reader ever waits for: whenever it is
not between two frames it can go on at once, if necessary by the user's receiving from `FrameCh`. -/
theorem C85_partial {acts : List SAct} {s : SSt} (hrun : sRun SSt.init acts = some s) (hcc : s.connCancelled = false)
    (hwf : ∀ K, WellFormed (Spec.received s K)) (hidle : s.r ≠ .idle) :
    (∃ s', sStep s .rstep = some s') ∨ (∃ r f s', s.r = .addSelect r f ∧ sStep s .consume = some s' ∧
      s'.log = s.log ++ [.delivered r f]) := by
  have hI := SInv.reach hrun
  have hnr : ∀ f ∈ s.recv, FrameFlag.isRst f.flags = false := fun f hf =>
    (hwf f.key).1 f (List.mem_filter.2 ⟨hf, by simp⟩)
  have hpan := C13_no_reset_no_panic_partial hrun hnr
  cases hpc : s.r with
  | idle => exact absurd hpc hidle
  | panicked => exact absurd hpc hpan
  | addSelect r f =>
    have hp := hI.b.rch
    rw [hpc] at hp
    have h0 := hI.b.ch0 r hp.1
    exact .inr ⟨r, f, _, rfl, by simp only [sStep, hpc, h0, if_true]; rfl, rfl⟩
  | waitDone r f =>
    exfalso
    have hrel : s.released = false := by
      cases h : s.released with
      | false => rfl
      | true => rcases (hI.a.rel h).1 with h | h <;> rw [hpc] at h <;> cases h
    have h1 := hI.e.rl
    rw [hpc] at h1
    rcases h1 with h1 | h1
    · rw [hcc] at h1; cases h1
    · have hk : f.key = (s.str r).key := by have := hI.b.key; rw [hpc] at this; exact this
      have hrecv : Spec.received s f.key = (s.log.filterMap resFrame).filter (fun g => decide (g.key = f.key)) ++ [f] := by
        rw [Spec.received, ← hI.d.res, hpc]
        simp [RPc.pend]
      rcases hI.e.ended hrel r h1 with ⟨b, g, hg, hd⟩ | ⟨g, hg⟩
      · have hgk := (outs_key hI hg).2
        have := (hwf f.key).2 g (by
          rw [hrecv, List.dropLast_append_of_ne_nil (by simp)]
          exact List.mem_append.2 (.inl (List.mem_filter.2 ⟨outs_res hg, by simp [hgk, hk]⟩)))
        rw [hd] at this; cases this
      · have hm : g ∈ s.recv := by
          rw [← hI.d.res]; exact List.mem_append.2 (.inl (List.mem_filterMap.2 ⟨_, hg, rfl⟩))
        have := hnr g hm
        rw [hI.f.rstF _ _ hg] at this; cases this
  | bindTest r f => left; simp only [sStep, rStep, hpc]; split <;> exact ⟨_, rfl⟩
  | addLoad r f => left; simp only [sStep, rStep, hpc]; split <;> exact ⟨_, rfl⟩
  | cpPush r fl => left; simp only [sStep, rStep, hpc]; split <;> exact ⟨_, rfl⟩
  | cpStorePeer r => left; simp only [sStep, rStep, hpc]; exact ⟨_, rfl⟩
  | cpCloseCh r => left; simp only [sStep, rStep, hpc]; split <;> exact ⟨_, rfl⟩
  | cpLoadSelf r => left; simp only [sStep, rStep, hpc]; split <;> exact ⟨_, rfl⟩
  | ad r pc => left; cases pc <;> simp only [sStep, rStep, hpc] <;> first | exact ⟨_, rfl⟩ | (split <;> exact ⟨_, rfl⟩)
  | rstCas r => left; simp only [sStep, rStep, hpc]; split <;> exact ⟨_, rfl⟩
  | rstCloseCh r => left; simp only [sStep, rStep, hpc]; split <;> exact ⟨_, rfl⟩
  | rstCancel r => left; simp only [sStep, rStep, hpc]; exact ⟨_, rfl⟩

/-- A stream of two frames and a request, the reader in between and offering. -/
example : (sRun SSt.init
      [.recv { requestID := 1, flags := StreamFlag, cmd := 0, payload := [] }, .rstep, .rstep,
       .recv { requestID := 3, flags := 0, cmd := 0, payload := [] }, .rstep, .rstep, .rstep, .rstep, .rstep,
       .recv { requestID := 1, flags := StreamEndFlag, cmd := 0, payload := [] }, .rstep, .rstep]).map
      (fun s => (s.r, s.connCancelled, (Spec.received s (1, false)).map (·.flags), (Spec.received s (3, false)).map (·.flags))) =
    some (.addSelect 0 { requestID := 1, flags := StreamEndFlag, cmd := 0, payload := [] }, false,
      [StreamFlag, StreamEndFlag], [0]) := by rfl

/-! ## C14: any number of streams can be left behind -/

/-- A local request with this id, reset by the peer. -/
def leakActs (id : UInt64) : List SAct :=
  [.wstart id 0 true, .wstep, .wstep, .wstep,
   .recv { requestID := id, flags := StreamRstFlag, cmd := 0, payload := [] }, .rstep, .rstep, .rstep]

/-- Stream `k` is finished on both sides and still in the table. -/
def Leaked (s : SSt) (k : Nat) : Prop :=
  s.tbl (UInt64.ofNat k, false) = some k ∧ (s.str k).closedSelf = true ∧ (s.str k).closedPeer = true ∧
    (s.str k).doneCloses = 0

theorem leakActs_run {s : SSt} {id : UInt64} (hr : s.r = .idle) (hw : s.w = .idle) (hrel : s.released = false)
    (ht : s.tbl (id, false) = none) :
    ∃ s', sRun s (leakActs id) = some s' ∧ s'.r = .idle ∧ s'.w = .idle ∧ s'.released = false ∧ s'.next = s.next + 1 ∧
      (∀ k, s'.tbl k = if k = (id, false) then some s.next else s.tbl k) ∧
      (∀ r, r ≠ s.next → s'.str r = s.str r) ∧ (s'.str s.next).closedSelf = true ∧ (s'.str s.next).closedPeer = true ∧
      (s'.str s.next).doneCloses = 0 := by
  have e1 : FrameFlag.isRst (0 : FrameFlag) = false := rfl
  have e2 : FrameFlag.isPush (0 : FrameFlag) = false := rfl
  have e3 : FrameFlag.isDone (0 : FrameFlag) = true := rfl
  have e4 : FrameFlag.isRst StreamRstFlag = true := rfl
  have e5 : FrameFlag.isPush StreamRstFlag = false := rfl
  simp [leakActs, sRun, runActs, sStep, wStep, rStep, hr, hw, hrel, ht, SSt.createOrGet, e1, e2, e3, e4, e5, SSt.upd, Frame.key]
  grind

/-- **C14 is false without bound**: for every number there is an execution of one connection after which that many streams are
finished on both sides and still in the table, with reader and writer at rest. -/
theorem C14_refuted_unbounded (n : Nat) (hn : n ≤ 2 ^ 64) :
    ∃ acts s, sRun SSt.init acts = some s ∧ s.r = .idle ∧ s.w = .idle ∧ ∀ k, k < n → Leaked s k := by
  have key : ∀ n : Nat, n ≤ 2 ^ 64 → ∃ acts s, sRun SSt.init acts = some s ∧ s.r = .idle ∧ s.w = .idle ∧ s.released = false ∧
      s.next = n ∧ (∀ k, k < n → Leaked s k) ∧ ∀ k, n ≤ k → k < 2 ^ 64 → s.tbl (UInt64.ofNat k, false) = none := by
    intro n
    induction n with
    | zero => intro _; exact ⟨[], SSt.init, rfl, rfl, rfl, rfl, rfl, fun _ h => by omega, fun _ _ _ => rfl⟩
    | succ n ih =>
      intro hle
      obtain ⟨acts, s, hrun, hr, hw, hrel, hnx, hL, hT⟩ := ih (by omega)
      obtain ⟨s', h1, h2, h3, h4, h5, h6, h7, h8, h9, h10⟩ := leakActs_run (id := UInt64.ofNat n) hr hw hrel
        (hT n (Nat.le_refl _) (by omega))
      have inj : ∀ a b : Nat, a < 2 ^ 64 → b < 2 ^ 64 → UInt64.ofNat a = UInt64.ofNat b → a = b := by
        intro a b ha hb h
        have := congrArg UInt64.toNat h
        simp only [UInt64.toNat_ofNat'] at this
        rwa [Nat.mod_eq_of_lt ha, Nat.mod_eq_of_lt hb] at this
      refine ⟨acts ++ leakActs (UInt64.ofNat n), s', ?_, h2, h3, h4, by omega, fun k hk => ?_, fun k hk hk2 => ?_⟩
      · rw [sRun, runActs_append, show runActs sStep SSt.init acts = some s from hrun]; exact h1
      · by_cases e : k = n
        · subst e
          rw [hnx] at h8 h9 h10
          exact ⟨by rw [h6]; simp [hnx], h8, h9, h10⟩
        · obtain ⟨p1, p2, p3, p4⟩ := hL k (by omega)
          have : s'.str k = s.str k := h7 k (by omega)
          refine ⟨?_, by rw [this]; exact p2, by rw [this]; exact p3, by rw [this]; exact p4⟩
          rw [h6, if_neg, p1]
          intro h
          exact e (inj k n (by omega) (by omega) (by simpa using h))
      · rw [h6, if_neg]
        · exact hT k (by omega) hk2
        · intro h
          have := inj k n (by omega) (by omega) (by simpa using h)
          omega
  obtain ⟨acts, s, h1, h2, h3, _, _, h4, _⟩ := key n hn
  exact ⟨acts, s, h1, h2, h3, h4⟩

/-! ## C62 What is counted -/

/-- Every frame that went to a stream's channel, or was thrown away for it, belongs to a stream that is bound. -/
def Bnd (s : SSt) : Prop := ∀ r f, SEv.delivered r f ∈ s.log ∨ SEv.dropped r f ∈ s.log → (s.str r).binded = true

set_option maxHeartbeats 1000000 in
theorem Bnd.step {s s' : SSt} {a : SAct} (hI : SInv s) (h : Bnd s) (hs : sStep s a = some s') : Bnd s' := by
  have h1 := hI.b.rch
  have h2 : ∀ r f, SEv.delivered r f ∈ s.log ∨ SEv.dropped r f ∈ s.log → r < s.next := by
    intro r f hm
    rcases hm with hm | hm
    · exact (hI.d.ev _ hm r f rfl rfl).1
    · exact (hI.d.ev _ hm r f rfl rfl).1
  simp only [Bnd] at h ⊢
  sstep_cases hs a
  all_goals try simp only []
  all_goals try first
    | assumption
    | grind [RPc.chOK, releaseStream]

theorem Bnd.reach {acts : List SAct} {s : SSt} (hrun : sRun SSt.init acts = some s) : Bnd s := by
  have : SInv s ∧ Bnd s := runActs_inv (P := fun s => SInv s ∧ Bnd s)
    (fun _ _ _ h hs => ⟨h.1.step hs, h.2.step h.1 hs⟩) ⟨.init, by intro r f; simp [SSt.init]⟩ hrun
  exact this.2

/-- **C62, what is counted.** In every execution every frame received (but the one being processed) is either returned by
`ReadFrame` - and then counted for the rate limit -, or a reset, or a frame of a stream whose first frame was returned. Missing:
the last two are not counted (`C62_refuted`). -/
theorem C62_partial {acts : List SAct} {s : SSt} (hrun : sRun SSt.init acts = some s) :
    s.log.filterMap resFrame ++ s.r.pend = s.recv ∧
    ∀ e ∈ s.log, ∀ f, resFrame e = some f → (∃ r, e = .bound r f) ∨ (∃ r, e = .rst r f) ∨
      ∃ r f0, (e = .delivered r f ∨ e = .dropped r f) ∧ .bound r f0 ∈ s.log ∧ f0.key = f.key := by
  have hI := SInv.reach hrun
  refine ⟨hI.d.res, fun e he f hf => ?_⟩
  have key : ∀ r, evRef e = some r → (s.str r).binded = true → ∃ f0, SEv.bound r f0 ∈ s.log ∧ f0.key = f.key := by
    intro r hr hb
    have h1 := hI.d.ftr r
    rw [hb] at h1
    simp only [FirstThenRest, if_true] at h1
    obtain ⟨f0, fs, h1⟩ := h1
    have hm : (true, f0) ∈ outs r s.log := by rw [h1]; simp
    simp only [outs, List.mem_filterMap] at hm
    obtain ⟨e0, h2, h3⟩ := hm
    have h4 : e0 = .bound r f0 := by
      cases e0 <;> simp only [streamOut, Option.ite_none_right_eq_some, Option.some.injEq, Prod.mk.injEq, reduceCtorEq, and_false,
        false_and] at h3
      next r' f' => obtain ⟨rfl, _, rfl⟩ := h3; rfl
    subst h4
    exact ⟨f0, h2, (hI.d.ev _ h2 r f0 rfl rfl).2.trans (hI.d.ev e he r f hr hf).2.symm⟩
  cases e with
  | bound r g => simp only [resFrame, Option.some.injEq] at hf; exact .inl ⟨r, by rw [hf]⟩
  | rst r g => simp only [resFrame, Option.some.injEq] at hf; exact .inr (.inl ⟨r, by rw [hf]⟩)
  | delivered r g =>
    simp only [resFrame, Option.some.injEq] at hf
    subst hf
    obtain ⟨f0, h1, h2⟩ := key r rfl (Bnd.reach hrun r g (.inl he))
    exact .inr (.inr ⟨r, f0, .inl rfl, h1, h2⟩)
  | dropped r g =>
    simp only [resFrame, Option.some.injEq] at hf
    subst hf
    obtain ⟨f0, h1, h2⟩ := key r rfl (Bnd.reach hrun r g (.inr he))
    exact .inr (.inr ⟨r, f0, .inr rfl, h1, h2⟩)
  | _ => simp [resFrame] at hf

/-- A first frame (returned), a second one (given to the stream), a reset. -/
example : (sRun SSt.init [.recv midF, .rstep, .rstep, .recv midF, .rstep, .rstep, .consume, .rstep,
      .recv { midF with flags := StreamRstFlag }]).map (fun s => s.log) =
    some [.bound 0 midF, .delivered 0 midF, .rst (some 0) { midF with flags := StreamRstFlag }] := by decide +kernel

end Qrpc
