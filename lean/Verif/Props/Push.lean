import Verif.Props.Handled
import Verif.Lemmas.StreamPush
/-! # Property C92: pushes reach the subscriber, requests of the server the client's handler, in order and at most once

The way of a frame from a server connection to the client: the write path of the server (`Model/ServeWrite.lean`), the bytes in
between, the client's frame reader (`Model/FrameReader.lean`), its streams (`Model/Stream.lean`) and its reader goroutine
(`Model/Client.lean`, `Model/EndToEnd.lean`). -/
namespace Qrpc
open Spec

/-- What the client's reader goroutine looks at. -/
def Frame.toIn (f : Frame) : InFrame :=
  ⟨f.requestID, FrameFlag.isPush f.flags, FrameFlag.isRst f.flags, FrameFlag.isNonBlock f.flags⟩

/-- The frames `ReadFrame` returned to the client on its transport connections so far, in order. -/
def Spec.readOf (e : ESt) : List InFrame :=
  (List.range (e.c.gen + 1)).flatMap fun g => ((e.down g).map Prod.fst).take (e.read g)

/-- The client's end of a transport connection at some moment: `wire` is what the server's transport has taken. Some of the bytes
have arrived, cut into pieces in some way (`src`); the frame reader has returned `got`; the streams have been given these, and
`ReadFrame` has returned `ret`. -/
def Spec.Arrives (cfg : FrameReaderCfg) (wire : Bytes) (got ret : List Frame) : Prop :=
  ∃ (src : Src) (n : Nat) (sacts : List SAct) (t : SSt),
    srcBytes src <+: wire ∧ (readN cfg n src).1 = .ok got ∧ sRun SSt.init sacts = some t ∧ t.recv = got ∧ ret = returned t.log

theorem arrives_not_rst {cfg : FrameReaderCfg} {wire : Bytes} {got ret : List Frame} (h : Arrives cfg wire got ret) {f : Frame}
    (hf : f ∈ ret) : FrameFlag.isRst f.flags = false := by
  obtain ⟨src, n, sacts, t, -, -, h1, -, rfl⟩ := h
  exact returned_not_rst h1 hf

/-! ## What the reader goroutine does with the frames -/

def CRd.held : CRd → List InFrame
  | .lookup f => [f]
  | _ => []

theorem cStep_reads {c : CConf} {s s' : CSt} {a : CAct} (hs : cStep c s a = some s') (ha : ∀ f, a ≠ .rFrame f) :
    s'.subs = s.subs ∧ (s'.gen = s.gen ∨ s'.gen = s.gen + 1) ∧ (s'.handled ++ s'.rd.held).Sublist (s.handled ++ s.rd.held) := by
  cstep_cases hs a
  all_goals try first
    | exact absurd rfl (ha _)
    | (refine ⟨rfl, .inl rfl, ?_⟩; simp_all [CRd.held]; done)
    | (refine ⟨rfl, .inr rfl, ?_⟩; simp_all [CRd.held]; done)
    | (refine ⟨rfl, .inl rfl, ?_⟩; rename_i h _ _; simp_all [CRd.held]; done)

theorem cStep_rFrame {c : CConf} {s s' : CSt} {f : InFrame} (hs : cStep c s (.rFrame f) = some s') :
    s'.gen = s.gen ∧ s'.handled = s.handled ∧ s.rd.held = [] ∧
    ((f.push = true ∧ s'.subs = s.subs ++ [f] ∧ s'.rd.held = []) ∨ (f.push = false ∧ s'.subs = s.subs ∧ s'.rd.held = [f])) := by
  simp only [cStep] at hs
  repeat' split at hs
  all_goals first
    | (cases hs; done)
    | (cases hs; simp_all [CRd.held]; done)

structure PuInv (e : ESt) : Prop where
  future : ∀ g, e.c.gen < g → e.read g = 0
  readLe : ∀ g, e.read g ≤ (e.down g).length
  subs : e.c.subs = (readOf e).filter (·.push)
  handled : (e.c.handled ++ e.c.rd.held).Sublist ((readOf e).filter fun f => !f.push)

theorem PuInv.init (d : Bool) : PuInv (ESt.init d) := by
  constructor <;> simp [ESt.init, CSt.init, readOf, CRd.held]

theorem readOf_succ (e : ESt) : readOf e =
    ((List.range e.c.gen).flatMap fun g => ((e.down g).map Prod.fst).take (e.read g)) ++
      ((e.down e.c.gen).map Prod.fst).take (e.read e.c.gen) := by
  simp [readOf, List.range_succ]

theorem PuInv.step {c : CConf} {e e' : ESt} {a : EAct} (h : PuInv e) (hs : eStep c e a = some e') : PuInv e' := by
  obtain ⟨h1, h2, h3, h4⟩ := h
  cases a with
  | cl a =>
    simp only [eStep] at hs
    split at hs
    case isFalse => cases hs
    next hp =>
    obtain ⟨s, k0, rfl⟩ := Option.map_eq_some_iff.1 hs
    have ha : ∀ f, a ≠ .rFrame f := by rintro f rfl; simp [CAct.proper] at hp
    obtain ⟨k1, k2, k3⟩ := cStep_reads k0 ha
    have hr : readOf { e with c := s } = readOf e := by
      rcases k2 with k2 | k2
      · simp [readOf, k2]
      · rw [readOf_succ]
        simp only [k2]
        rw [h1 _ (by omega)]
        simp [readOf]
    refine ⟨fun g hg => h1 g ?_, h2, ?_, ?_⟩
    · simp only at hg; omega
    · rw [hr]; simp only [k1]; exact h3
    · rw [hr]; exact k3.trans h4
  | sRead g =>
    simp only [eStep] at hs
    split at hs
    · cases hs; exact ⟨h1, h2, h3, h4⟩
    · cases hs
  | sSend g f =>
    simp only [eStep] at hs
    split at hs
    case isFalse => cases hs
    cases hs
    have hr : ∀ g', ((setAt e.down g (e.down g ++ [(f, e.srv g)]) g').map Prod.fst).take (e.read g') =
        ((e.down g').map Prod.fst).take (e.read g') := by
      intro g'
      simp only [setAt]
      split
      · next hg =>
        subst hg
        rw [List.map_append, List.take_append_of_le_length (by simpa using h2 g')]
      · rfl
    have hr' : readOf { e with down := setAt e.down g (e.down g ++ [(f, e.srv g)]) } = readOf e := by
      simp only [readOf, hr]
    refine ⟨h1, fun g' => ?_, by rw [hr']; exact h3, by rw [hr']; exact h4⟩
    simp only [setAt]
    split
    · next hg => subst hg; have := h2 g'; simp; omega
    · exact h2 g'
  | recv =>
    simp only [eStep] at hs
    split at hs
    case h_2 => cases hs
    next p hp =>
    obtain ⟨s, k0, rfl⟩ := Option.map_eq_some_iff.1 hs
    obtain ⟨k1, k2, k3, k4⟩ := cStep_rFrame k0
    have hlt : e.read e.c.gen < (e.down e.c.gen).length := (List.getElem?_eq_some_iff.1 hp).1
    have hr : readOf { e with c := s, read := setAt e.read e.c.gen (e.read e.c.gen + 1) } = readOf e ++ [p.1] := by
      rw [readOf_succ, readOf_succ]
      simp only [k1]
      rw [List.append_assoc]
      congr 1
      · apply congrArg List.flatten
        apply List.map_congr_left
        intro g hg
        have : g ≠ e.c.gen := by have := List.mem_range.1 hg; omega
        simp [setAt, this]
      · simp only [setAt, if_true]
        rw [List.take_succ]
        simp [hp]
    refine ⟨fun g hg => ?_, fun g => ?_, ?_, ?_⟩
    · simp only [k1] at hg
      have : g ≠ e.c.gen := by omega
      simp only [setAt, this, if_false]
      exact h1 g hg
    · simp only [setAt]
      split
      · next hg => subst hg; omega
      · exact h2 g
    · rw [hr, List.filter_append, ← h3]
      rcases k4 with ⟨k4, k5, k6⟩ | ⟨k4, k5, k6⟩ <;> simp [k4, k5]
    · rw [hr, List.filter_append]
      rw [k3, List.append_nil] at h4
      rcases k4 with ⟨k4, k5, k6⟩ | ⟨k4, k5, k6⟩
      · simp [k4, k6, k2]; simpa using h4
      · simp only [k4, k6, k2]
        exact List.Sublist.append h4 (by simp [k4])

theorem PuInv.reach {c : CConf} {d : Bool} {acts : List EAct} {e : ESt} (h : eRun c d acts = some e) : PuInv e :=
  runActs_inv (P := PuInv) (fun _ _ _ hp hs => hp.step hs) (PuInv.init d) h

/-! ## C92 -/

/-- Submission `b` is a later one than `a`: on a later transport connection, or later on the same one. -/
def Spec.later (a b : Nat × Nat) : Prop := a.1 < b.1 ∨ (a.1 = b.1 ∧ a.2 < b.2)

theorem arrived_sublist {cap : Nat} {gacts : List GAct} {gs : GSt} (hg : gRun cap gacts = some gs) {cfg : FrameReaderCfg}
    {fr : Nat → Frame} (henc : ∀ (t : Nat) (f : SFrame), gs.frames[t]? = some f → Encodes cfg f.bytes (fr t))
    {got ret : List Frame} (h : Arrives cfg gs.wire got ret) :
    ∃ us : List Nat, us.Pairwise (· < ·) ∧ (∀ t ∈ us, t < gs.frames.length) ∧ ret = us.map fr := by
  obtain ⟨src, n, sacts, t, h1, h2, h3, h4, rfl⟩ := h
  obtain ⟨ts, k1, k2, k3⟩ := C84_server hg cfg fr henc
  obtain ⟨-, k4⟩ := (k3 src h1).1 n got h2
  have hsub : (returned t.log).Sublist (ts.map fr) := by
    refine (returned_sublist h3).trans ?_
    rw [h4, k4]
    exact (List.take_sublist _ _).map fr
  obtain ⟨us, h8, h9⟩ := List.sublist_map_iff.1 hsub
  exact ⟨us, k1.sublist h8, fun t ht => k2 t (h8.mem ht), h9⟩

theorem pairwise_later (us : Nat → List Nat) (hu : ∀ g, (us g).Pairwise (· < ·)) : ∀ n,
    ((List.range n).flatMap fun g => (us g).map fun t => (g, t)).Pairwise later := by
  intro n
  induction n with
  | zero => simp
  | succ n ih =>
    rw [List.range_succ, List.flatMap_append, List.pairwise_append]
    refine ⟨ih, ?_, ?_⟩
    · simp only [List.flatMap_cons, List.flatMap_nil, List.append_nil, List.pairwise_map]
      exact (hu n).imp fun h => .inr ⟨rfl, h⟩
    · intro a ha b hb
      simp only [List.mem_flatMap, List.mem_range, List.mem_map, List.mem_singleton] at ha hb
      obtain ⟨g, hg, t, -, rfl⟩ := ha
      obtain ⟨g', rfl, t', -, rfl⟩ := hb
      exact .inl hg

/-- **C92.** In every execution of a client connection whose peers are server connections with submitted frames `fr g t` (on
transport connection `g`), whatever part of what they wrote has arrived, in whatever pieces: the subscriber has been called for
`ps`, and the handler for `hs`, where both are lists of submissions in the order of submission, none twice, those on an earlier
connection before those on a later one; the frames are the submitted ones; the subscriber is called for pushes only, the handler
for frames that are not pushes. -/
theorem C92 {c : CConf} {d : Bool} {acts : List EAct} {e : ESt} (hrun : eRun c d acts = some e)
    (cap : Nat → Nat) (gacts : Nat → List GAct) (gs : Nat → GSt) (hg : ∀ g, gRun (cap g) (gacts g) = some (gs g))
    (cfg : Nat → FrameReaderCfg) (fr : Nat → Nat → Frame)
    (henc : ∀ (g t : Nat) (f : SFrame), (gs g).frames[t]? = some f → Encodes (cfg g) f.bytes (fr g t))
    (got ret : Nat → List Frame) (harr : ∀ g, Arrives (cfg g) (gs g).wire (got g) (ret g))
    (hdown : ∀ g, (e.down g).map Prod.fst = (ret g).map Frame.toIn) :
    ∃ ps hs : List (Nat × Nat), e.c.subs = ps.map (fun p => (fr p.1 p.2).toIn) ∧ e.c.handled = hs.map (fun p => (fr p.1 p.2).toIn) ∧
      ps.Pairwise later ∧ hs.Pairwise later ∧ (∀ p ∈ ps ++ hs, p.2 < (gs p.1).frames.length) ∧
      (∀ p ∈ ps, FrameFlag.isPush (fr p.1 p.2).flags = true) ∧ ∀ p ∈ hs, FrameFlag.isPush (fr p.1 p.2).flags = false := by
  obtain ⟨-, -, h3, h4⟩ := PuInv.reach hrun
  have key := fun g => arrived_sublist (hg g) (henc g) (harr g)
  let us : Nat → List Nat := fun g => (Classical.choose (key g)).take (e.read g)
  have hus : ∀ g, (us g).Pairwise (· < ·) ∧ (∀ t ∈ us g, t < (gs g).frames.length) ∧
      ((e.down g).map Prod.fst).take (e.read g) = (us g).map fun t => (fr g t).toIn := by
    intro g
    obtain ⟨k1, k2, k3⟩ := Classical.choose_spec (key g)
    refine ⟨k1.sublist (List.take_sublist _ _), fun t ht => k2 t (List.mem_of_mem_take ht), ?_⟩
    rw [hdown, k3, List.map_map]
    simp only [us]
    rw [← List.map_take]
    rfl
  let all := (List.range (e.c.gen + 1)).flatMap fun g => (us g).map fun t => (g, t)
  have hall : readOf e = all.map fun p => (fr p.1 p.2).toIn := by
    simp only [readOf, all, List.map_flatMap, List.map_map]
    congr 1
    funext g
    rw [(hus g).2.2]
    rfl
  have hpw : all.Pairwise later := pairwise_later us (fun g => (hus g).1) _
  have hlt : ∀ p ∈ all, p.2 < (gs p.1).frames.length := by
    intro p hp
    simp only [all, List.mem_flatMap, List.mem_map] at hp
    obtain ⟨g, -, t, ht, rfl⟩ := hp
    exact (hus g).2.1 t ht
  rw [hall, List.filter_map] at h3 h4
  obtain ⟨hs, k1, k2⟩ := List.sublist_map_iff.1 ((List.sublist_append_left _ _).trans h4)
  have k3 := k1.trans List.filter_sublist
  refine ⟨_, hs, h3, k2, hpw.sublist List.filter_sublist, hpw.sublist k3, ?_, ?_, ?_⟩
  · intro p hp
    rcases List.mem_append.1 hp with hp | hp
    · exact hlt p (List.mem_filter.1 hp).1
    · exact hlt p (k3.mem hp)
  · intro p hp
    exact (List.mem_filter.1 hp).2
  · intro p hp
    have := (List.mem_filter.1 (k1.mem hp)).2
    simpa [Frame.toIn] using this

/-! ## C92 No push is lost -/

theorem PlInv.reach {acts : List SAct} {s : SSt} (ha : ∀ a ∈ acts, a.plain = true) (hrun : sRun SSt.init acts = some s) : PlInv s := by
  have gen : ∀ (acts : List SAct) (s0 s : SSt), (∀ a ∈ acts, a.plain = true) → SInv s0 → PlInv s0 → sRun s0 acts = some s → PlInv s := by
    intro acts
    induction acts with
    | nil => intro s0 s _ _ hp h; simp only [sRun, runActs, Option.some.injEq] at h; exact h ▸ hp
    | cons a acts ih =>
      intro s0 s ha hi hp h
      simp only [sRun, runActs] at h
      split at h
      · cases h
      · next s1 hs => exact ih s1 s (fun b hb => ha b (by simp [hb])) (hi.step hs) (hp.step (ha a (by simp)) hi hs) h
  exact gen acts _ _ ha .init .init hrun

/-- **C92, the streams.** If the pushes are not streamed (and not resets), and the client does not reset push streams itself,
`ReadFrame` returns every push read, in the order of reading - whether or not an id is used again. -/
theorem C92_returned {acts : List SAct} {s : SSt} (hrun : sRun SSt.init acts = some s) (ha : ∀ a ∈ acts, a.plain = true) :
    (returned s.log).filter (fun f => FrameFlag.isPush f.flags) ++ (held s).filter (fun f => FrameFlag.isPush f.flags) =
      s.recv.filter fun f => FrameFlag.isPush f.flags := by
  have h1 := (PlInv.reach ha hrun).ev
  rw [held_eq, ← (SInv.reach hrun).d.res, List.filter_append]
  congr 1
  revert h1
  generalize s.log = l
  intro h1
  induction l with
  | nil => rfl
  | cons e l ih =>
    have ih := ih fun x hx => h1 x (by simp [hx])
    have h := h1 e (by simp)
    simp only [returned, List.filterMap_cons] at ih ⊢
    cases e <;> simp only [resFrame, Option.some.injEq, reduceCtorEq, exists_false, false_implies, forall_eq', implies_true] at h ⊢ <;>
      first
      | exact ih
      | (rw [List.filter_cons, List.filter_cons, ih]; done)
      | (rw [List.filter_cons, if_neg h]; exact ih)

/-- Frames that could be read can be read one after the other. -/
theorem readN_le (cfg : FrameReaderCfg) : ∀ (n m : Nat) (s : Src) (got : List Frame), (readN cfg n s).1 = .ok got → m ≤ n →
    ∃ got', (readN cfg m s).1 = .ok got' := by
  intro n
  induction n with
  | zero => intro m s got h hm; exact ⟨got, by rw [Nat.le_zero.1 hm]; exact h⟩
  | succ n ih =>
    intro m s got h hm
    cases m with
    | zero => exact ⟨[], by simp [readN]⟩
    | succ m =>
      simp only [readN] at h ⊢
      split at h
      · cases h
      · next f s1 h1 =>
        split at h
        · cases h
        · next fs s2 h2 =>
          obtain ⟨got', h3⟩ := ih m s1 fs (by rw [h2]) (by omega)
          split
          · next e s3 h4 => rw [h4] at h3; cases h3
          · exact ⟨_, rfl⟩

/-- On a server connection with submitted frames `fr t`, once all that was written has arrived, in whatever pieces, and the client's
frame reader has read until there was no further frame: the pushes it has read are `us.map fr` for a strictly increasing list `us` of
submissions that has every push whose write returned nil. -/
theorem pushes_arrive {cap : Nat} {gacts : List GAct} {gs : GSt} (hg : gRun cap gacts = some gs) {cfg : FrameReaderCfg}
    {fr : Nat → Frame} (henc : ∀ (t : Nat) (f : SFrame), gs.frames[t]? = some f → Encodes cfg f.bytes (fr t))
    {src : Src} (hsrc : srcBytes src = gs.wire) {n : Nat} {got : List Frame} {err : FrameErr} (hread : (readN cfg n src).1 = .ok got)
    (hend : (readN cfg (n + 1) src).1 = .error err) :
    ∃ us : List Nat, us.Pairwise (· < ·) ∧ (∀ u ∈ us, u < gs.frames.length) ∧ got.filter (fun f => FrameFlag.isPush f.flags) = us.map fr ∧
      ∀ k, (k, SRes.ok) ∈ gs.rets → FrameFlag.isPush (fr k).flags = true → k ∈ us := by
  obtain ⟨ts, h1, h2, h3, -, h5⟩ := C21 hg
  have hall : EncodesAll cfg (ts.filterMap fun t => (gs.frames[t]?).map (·.bytes)) (ts.map fr) := by
    apply forall₂_filterMap
    intro t ht
    have hl := h2 t ht
    exact ⟨gs.frames[t].bytes, by simp [List.getElem?_eq_getElem hl], henc t _ (List.getElem?_eq_getElem hl)⟩
  have hgot := (readN_sound cfg n _ _ src got hall (by rw [hsrc]; exact h3) hread).2
  have hret := hgot
  rw [← List.map_take] at hret
  replace hret := congrArg (List.filter fun f => FrameFlag.isPush f.flags) hret
  rw [List.filter_map] at hret
  refine ⟨_, (h1.sublist (List.take_sublist n _)).sublist List.filter_sublist,
    fun u hu => h2 u (List.mem_of_mem_take (List.mem_filter.1 hu).1), hret, ?_⟩
  intro k hk hpush
  obtain ⟨pre, post, e1, e2⟩ := h5 k hk
  refine List.mem_filter.2 ⟨?_, hpush⟩
  have hpre : ((ts.take (pre.length + 1)).filterMap fun t => (gs.frames[t]?).map (·.bytes)).flatten <+: srcBytes src := by
    rw [hsrc, e1]
    have : (pre ++ k :: post).take (pre.length + 1) = pre ++ [k] := by
      rw [List.take_append, List.take_of_length_le (by omega)]; simp
    rw [this]
    exact e2
  have hlen : pre.length + 1 ≤ ts.length := by rw [e1]; simp
  have hall' : EncodesAll cfg ((ts.take (pre.length + 1)).filterMap fun t => (gs.frames[t]?).map (·.bytes))
      ((ts.take (pre.length + 1)).map fr) := by
    apply forall₂_filterMap
    intro t ht
    have hl := h2 t (List.mem_of_mem_take ht)
    exact ⟨gs.frames[t].bytes, by simp [List.getElem?_eq_getElem hl], henc t _ (List.getElem?_eq_getElem hl)⟩
  have hl' := encodesAll_length hall'
  simp only [List.length_map, List.length_take, Nat.min_eq_left hlen] at hl'
  have hok := readN_complete cfg (pre.length + 1) _ _ src hall' (by rw [List.take_of_length_le (by omega)]; exact hpre) (by omega)
  have hn : pre.length + 1 ≤ n := by
    apply Classical.byContradiction
    intro hlt
    obtain ⟨got', h⟩ := readN_le cfg _ (n + 1) src _ hok (by omega)
    rw [h] at hend
    cases hend
  have hm : k ∈ ts.take (pre.length + 1) := by
    rw [e1, List.take_append, List.take_of_length_le (by omega)]; simp
  exact (List.take_subset_take_left _ hn) hm

/-- **C92, no push is lost (plain pushes).** On a server connection with submitted frames `fr t`, once all that was written has arrived, in
whatever pieces, and the client's frame reader has read until there was no further frame: if the pushes are not streamed (and not
resets) and the client does not reset push streams itself, the pushes returned by `ReadFrame` are `us.map fr` for a strictly
increasing list `us` of submissions that has every push whose write returned nil. Missing: streamed pushes, for which see
C92_streamed_partial, and C92_refuted_race. -/
theorem C92_all_partial {cap : Nat} {gacts : List GAct} {gs : GSt} (hg : gRun cap gacts = some gs) {cfg : FrameReaderCfg}
    {fr : Nat → Frame} (henc : ∀ (t : Nat) (f : SFrame), gs.frames[t]? = some f → Encodes cfg f.bytes (fr t))
    {src : Src} (hsrc : srcBytes src = gs.wire) {n : Nat} {got : List Frame} {err : FrameErr} (hread : (readN cfg n src).1 = .ok got)
    (hend : (readN cfg (n + 1) src).1 = .error err) {sacts : List SAct} {t : SSt} (hs : sRun SSt.init sacts = some t)
    (hrecv : t.recv = got) (hheld : held t = []) (hplain : ∀ a ∈ sacts, a.plain = true) :
    ∃ us : List Nat, us.Pairwise (· < ·) ∧ (∀ u ∈ us, u < gs.frames.length) ∧
      (returned t.log).filter (fun f => FrameFlag.isPush f.flags) = us.map fr ∧
      ∀ k, (k, SRes.ok) ∈ gs.rets → FrameFlag.isPush (fr k).flags = true → k ∈ us := by
  obtain ⟨us, h1, hl, h2, h3⟩ := pushes_arrive hg henc hsrc hread hend
  have hret := C92_returned hs hplain
  rw [hheld, List.filter_nil, List.append_nil, hrecv, h2] at hret
  exact ⟨us, h1, hl, hret, h3⟩

/-- **C92, no push is lost, at the subscriber**: all pushes among the frames of a transport connection that the reader goroutine has
got were given to the subscriber, as often as they were got. -/
theorem C92_subscriber {c : CConf} {d : Bool} {acts : List EAct} {e : ESt} (hrun : eRun c d acts = some e) (f : InFrame)
    (hf : f.push = true) : e.c.subs.count f = (readOf e).count f := by
  rw [(PuInv.reach hrun).subs, List.count_filter hf]

/-- Two pushes with the same id, submitted by two goroutines; ... -/
def exPush : List GAct :=
  [.call 0 ⟨layout 9 1 PushFlag [7], false, false, true, false⟩, .call 1 ⟨layout 9 2 PushFlag [8, 9], false, false, true, false⟩,
   .enq 1, .enq 0, .lock 0, .go 0, .go 0, .deq 0 true true, .deq 0 true true, .go 0, .go 0,
   .write 0 35 true, .go 0, .recv 1, .go 0, .go 0, .go 0, .go 0, .go 0]

def exPushSrc : Src :=
  ⟨[], [.data ((layout 9 2 PushFlag [8, 9]).take 3), .data ((layout 9 2 PushFlag [8, 9]).drop 3 ++ layout 9 1 PushFlag [7])]⟩

def exPushStreams : List SAct :=
  [.recv ⟨9, PushFlag, 2, [8, 9]⟩, .rstep, .rstep, .rstep, .rstep, .rstep, .rstep, .rstep, .rstep, .rstep,
   .recv ⟨9, PushFlag, 1, [7]⟩, .rstep, .rstep]

/-- ... both writes return nil, the client reads both (and nothing more), and the hypotheses of C92_all_partial hold; -/
example : (gRun 2 exPush).map (fun s => (s.rets, s.wire, s.frames.map (·.bytes))) =
      some ([(0, .ok), (1, .ok)], srcBytes exPushSrc, [layout 9 2 PushFlag [8, 9], layout 9 1 PushFlag [7]]) ∧
    okFrames (readN ⟨0, none⟩ 2 exPushSrc).1 = some [⟨9, PushFlag, 2, [8, 9]⟩, ⟨9, PushFlag, 1, [7]⟩] ∧
    okFrames (readN ⟨0, none⟩ 3 exPushSrc).1 = none ∧
    (sRun SSt.init exPushStreams).map (fun t => (t.recv, held t, returned t.log)) =
      some ([⟨9, PushFlag, 2, [8, 9]⟩, ⟨9, PushFlag, 1, [7]⟩], [], [⟨9, PushFlag, 2, [8, 9]⟩, ⟨9, PushFlag, 1, [7]⟩]) ∧
    exPushStreams.all (·.plain) = true ∧
    Encodes ⟨0, none⟩ (layout 9 1 PushFlag [7]) ⟨9, PushFlag, 1, [7]⟩ := by
  refine ⟨by decide +kernel, by decide +kernel, by decide +kernel, by decide +kernel, by decide +kernel, ?_⟩
  exact ⟨1, [7], rfl, by decide, by decide, .inl (by decide), rfl⟩

/-- ... and the subscriber gets both; a request of the server in between goes to the handler. -/
example : (eRun { cfg2 with handler := true } true ([.cl .lGo, .cl .lGo, .cl .lGo, .cl .rGo, .cl .rGo,
      .sSend 1 (Frame.toIn ⟨9, PushFlag, 2, [8, 9]⟩), .sSend 1 (Frame.toIn ⟨2, NBFlag, 3, []⟩), .sSend 1 (Frame.toIn ⟨9, PushFlag, 1, [7]⟩),
      .recv, .recv, .cl .rGo, .recv])).map (fun e => (e.c.subs, e.c.handled, readOf e)) =
    some ([⟨9, true, false, false⟩, ⟨9, true, false, false⟩], [⟨2, false, false, true⟩],
      [⟨9, true, false, false⟩, ⟨2, false, false, true⟩, ⟨9, true, false, false⟩]) := by decide +kernel

/-- **C92 is false if the client resets the push stream itself** (its handlers' writers take any id and flags): its writer goroutine
and its reader goroutine both go about closing the stream of the first push, the reader leaves that to the writer, reads the next
push with the same id, finds the old stream still in the table, and throws the push away. -/
theorem C92_refuted_race : (sRun SSt.init
    [.recv ⟨9, PushFlag, 2, [8, 9]⟩, .rstep, .rstep, .rstep, .wstart 9 (PushFlag ||| StreamRstFlag) false, .wstep, .wstep, .wstep,
     .rstep, .rstep, .rstep, .recv ⟨9, PushFlag, 1, [7]⟩, .rstep, .rstep, .wstep, .wstep, .wstep, .rdone]).map
      (fun s => (s.connCancelled, returned s.log, s.log.filterMap fun e => match e with | .dropped _ f => some f | _ => none)) =
    some (false, [⟨9, PushFlag, 2, [8, 9]⟩], [⟨9, PushFlag, 1, [7]⟩]) := by decide +kernel

end Qrpc
