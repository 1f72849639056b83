import Verif.Props.EndToEnd
import Verif.Props.ServeRead
/-! # Property C86: a request is handled at most once

The whole way of a request: the write path of the client (`Model/Client.lean`), the bytes in between, the server's frame reader
(`Model/FrameReader.lean`), its streams (`Model/Stream.lean`) and its dispatch to handlers (`Model/ServeRead.lean`). -/
namespace Qrpc
open Spec

/-- The frames that `ReadFrame` returned, in order (the first frames of streams). -/
def Spec.returned (log : List SEv) : List Frame := log.filterMap fun e => match e with
  | .bound _ f => some f
  | _ => none

/-- What the dispatch looks at. -/
def Frame.toR (f : Frame) : RFrame := ⟨f.requestID, FrameFlag.isPush f.flags, FrameFlag.isNonBlock f.flags⟩

/-- A server connection at the other end of a transport connection, at some moment: `wire` is what the client's transport has
taken, `served` the frames handlers were started for, in order. Some of the bytes have arrived, cut into pieces in some way
(`src`); the frame reader has returned `got`; the streams have been given these; the dispatch has been given the frames that
`ReadFrame` returned (not the last ones, when it has not come to them or the rate limit closed the connection). -/
def Spec.Serves (cfg : FrameReaderCfg) (wire : Bytes) (served : List Frame) : Prop :=
  ∃ (src : Src) (n : Nat) (got : List Frame) (sacts : List SAct) (t : SSt) (rc : RConf) (t0 : Nat) (racts : List RAct) (u : RSt),
    srcBytes src <+: wire ∧ (readN cfg n src).1 = .ok got ∧ sRun SSt.init sacts = some t ∧ t.recv = got ∧
    rdRun rc t0 racts = some u ∧ u.arr.map Prod.fst <+: (returned t.log).map Frame.toR ∧
    served = (u.log.filterMap startOf).filterMap fun k => (returned t.log)[k]?

/-- `ReadFrame` returns no resets. -/
theorem returned_not_rst {acts : List SAct} {t : SSt} (hrun : sRun SSt.init acts = some t) {f : Frame} (h : f ∈ returned t.log) :
    FrameFlag.isRst f.flags = false := by
  obtain ⟨e, he, hf⟩ := List.mem_filterMap.1 h
  cases e <;> simp at hf
  all_goals subst hf; exact (SInv.reach hrun).f.outF _ _ (.inl he)

/-- No handler is started for a reset. -/
theorem served_not_rst {cfg : FrameReaderCfg} {wire : Bytes} {served : List Frame} (h : Serves cfg wire served) {f : Frame}
    (hf : f ∈ served) : FrameFlag.isRst f.flags = false := by
  obtain ⟨src, n, got, sacts, t, rc, t0, racts, u, -, -, h1, -, -, -, rfl⟩ := h
  obtain ⟨k, -, hk⟩ := List.mem_filterMap.1 hf
  exact returned_not_rst h1 (List.mem_of_getElem? hk)

theorem returned_sublist {acts : List SAct} {t : SSt} (hrun : sRun SSt.init acts = some t) :
    (returned t.log).Sublist t.recv := by
  have h := (SInv.reach hrun).d.res
  rw [← h]
  refine List.Sublist.trans ?_ (List.sublist_append_left _ _)
  generalize t.log = l
  induction l with
  | nil => exact .slnil
  | cons e l ih =>
    simp only [returned, List.filterMap_cons] at ih ⊢
    cases e <;> simp only [resFrame] <;> first | exact ih | exact .cons _ ih | exact .cons_cons _ ih

/-- Picking the elements at increasing positions gives a sublist. -/
theorem filterMap_get_sublist {α : Type} (l : List α) : ∀ ks : List Nat, ks.Pairwise (· < ·) →
    (ks.filterMap fun k => l[k]?).Sublist l := by
  induction l with
  | nil => intro ks _; simp
  | cons x l ih =>
    intro ks hk
    cases ks with
    | nil => simp
    | cons k ks =>
      obtain ⟨h1, h2⟩ := List.pairwise_cons.1 hk
      have hshift : ∀ js : List Nat, (∀ j ∈ js, 0 < j) →
          (js.filterMap fun k => (x :: l)[k]?) = (js.map (· - 1)).filterMap fun k => l[k]? := by
        intro js hj
        rw [List.filterMap_map]
        induction js with
        | nil => rfl
        | cons j js ihj =>
          have := hj j (by simp)
          obtain ⟨i, rfl⟩ : ∃ i, j = i + 1 := ⟨j - 1, by omega⟩
          simp only [List.filterMap_cons, List.getElem?_cons_succ, Function.comp_apply, Nat.add_sub_cancel]
          rw [ihj fun j hm => hj j (by simp [hm])]
      have hsorted : ∀ js : List Nat, (∀ j ∈ js, 0 < j) → js.Pairwise (· < ·) → (js.map (· - 1)).Pairwise (· < ·) := by
        intro js hj hp
        rw [List.pairwise_map]
        refine hp.imp_of_mem ?_
        intro a b ha hb hab
        have := hj a ha
        omega
      have hks : ∀ j ∈ ks, 0 < j := fun j hj => by have := h1 j hj; omega
      cases k with
      | zero =>
        rw [List.filterMap_cons]
        simp only [List.getElem?_cons_zero]
        rw [hshift ks hks]
        exact .cons_cons _ (ih _ (hsorted ks hks h2))
      | succ k =>
        have hpos : ∀ j ∈ (k + 1) :: ks, 0 < j := fun j hj => (List.mem_cons.1 hj).elim (fun h => by omega) (hks j)
        rw [hshift _ hpos]
        exact .cons _ (ih _ (hsorted _ hpos hk))

theorem take_filterMap {α β} {f : α → Option β} (n : Nat) : ∀ (l : List α), (∀ x ∈ l, (f x).isSome = true) →
    (l.filterMap f).take n = (l.take n).filterMap f := by
  induction n with
  | zero => simp
  | succ n ih =>
    intro l h
    cases l with
    | nil => simp
    | cons a l =>
      obtain ⟨b, hb⟩ := Option.isSome_iff_exists.1 (h a (by simp))
      simp only [List.filterMap_cons, hb, List.take_succ_cons]
      rw [ih l (fun x hx => h x (by simp [hx]))]

/-- The frames handled on a transport connection were given to the transport there, and all their bytes were taken. -/
theorem served_taken {c : CConf} {d : Bool} {acts : List CAct} {s : CSt} (hrun : cRun c d acts = some s) (cfg : Nat → FrameReaderCfg)
    (fr : Nat → Frame) (henc : ∀ (g t : Nat) (f : CFrame), s.frames[t]? = some f → Encodes (cfg g) f.bytes (fr t))
    {g : Nat} {served : List Frame} (hsrv : Serves (cfg g) (s.wires g) served) :
    ∃ ts : List Nat, ts.Sublist (s.outs g) ∧ served = ts.map fr ∧ ∀ t ∈ ts, CDelivered s.frames (s.outs g) (s.wires g).length t := by
  have hW := CInvW.reach hrun
  have hlt : ∀ g, ∀ t ∈ s.outs g, t < s.frames.length := fun g t ht =>
    Nat.lt_of_lt_of_le (hW.lt g t ht) (CInv.reach hrun).a.deq
  obtain ⟨src, n, got, sacts, t, rc, t0, racts, u, h1, h2, h3, h4, h5, h6, h7⟩ := hsrv
  have hall : EncodesAll (cfg g) ((s.outs g).filterMap fun t => (s.frames[t]?).map (·.bytes)) ((s.outs g).map fr) := by
    apply forall₂_filterMap
    intro t ht
    have hl := hlt g t ht
    exact ⟨s.frames[t].bytes, by simp [List.getElem?_eq_getElem hl], henc g t _ (List.getElem?_eq_getElem hl)⟩
  have hpre : s.wires g <+: ((s.outs g).filterMap fun t => (s.frames[t]?).map (·.bytes)).flatten := by
    have := hW.pre g
    rw [cflat_eq_frames (hlt g)] at this
    exact this
  have hgot := (readN_sound (cfg g) n _ _ src got hall (h1.trans hpre) h2).2
  have htk := (readN_taken (cfg g) n _ _ src got hall (h1.trans hpre) h2).trans h1
  have hsub : served.Sublist (((s.outs g).take n).map fr) := by
    rw [h7, List.map_take, ← hgot, ← h4]
    exact (filterMap_get_sublist _ _ (C27_order h5)).trans (returned_sublist h3)
  obtain ⟨ts, h8, h9⟩ := List.sublist_map_iff.1 hsub
  refine ⟨ts, h8.trans (List.take_sublist _ _), h9, fun t ht => ?_⟩
  have hm := h8.mem ht
  obtain ⟨pre, post, hp⟩ := List.append_of_mem hm
  refine ⟨pre, post ++ (s.outs g).drop n, by rw [← List.cons_append, ← List.append_assoc, ← hp, List.take_append_drop], ?_⟩
  have hl1 : ∀ u ∈ pre ++ [t], u < s.frames.length := fun u hu => hlt g u (List.mem_of_mem_take (i := n) (by rw [hp]; grind))
  have hl2 : ∀ u ∈ (s.outs g).take n, u < s.frames.length := fun u hu => hlt g u (List.mem_of_mem_take hu)
  have e1 : (((s.outs g).filterMap fun t => (s.frames[t]?).map (·.bytes)).take n).flatten = cflat s.frames ((s.outs g).take n) := by
    rw [cflat_eq_frames hl2]
    unfold Spec.frames
    congr 1
    apply take_filterMap
    intro u hu
    simp [List.getElem?_eq_getElem (hlt g u hu)]
  rw [e1] at htk
  have e2 : (cflat s.frames ((s.outs g).take n)) = cflat s.frames (pre ++ [t]) ++ cflat s.frames post := by
    rw [hp, ← cflat_append, List.append_assoc]; rfl
  have := htk.length_le
  rw [e2, List.length_append] at this
  omega

/-- **C86.** In every execution of a client connection whose submitted frames are the encoded frames `fr t`, and whatever its
servers do: the frames for which handlers are started on the server of transport connection `g` are `(ts g).map fr`, where the
numbers `ts g` of the submissions are strictly increasing; and all numbers on a later transport connection are greater than those
on an earlier one. So what a handler gets is a frame that was submitted, unchanged; on each connection in the order of submission;
and no submission is handled twice, not even after a reconnect. -/
theorem C86 {c : CConf} {d : Bool} {acts : List CAct} {s : CSt} (hrun : cRun c d acts = some s) (cfg : Nat → FrameReaderCfg)
    (fr : Nat → Frame) (henc : ∀ (g t : Nat) (f : CFrame), s.frames[t]? = some f → Encodes (cfg g) f.bytes (fr t))
    (served : Nat → List Frame) (hsrv : ∀ g, Serves (cfg g) (s.wires g) (served g)) :
    ∃ ts : Nat → List Nat, (∀ g, served g = (ts g).map fr) ∧ (∀ g, (ts g).Pairwise (· < ·)) ∧
      (∀ g, ∀ t ∈ ts g, t < s.frames.length) ∧ ∀ g g' t t', g < g' → t ∈ ts g → t' ∈ ts g' → t < t' := by
  have hW := CInvW.reach hrun
  have hlt : ∀ g, ∀ t ∈ s.outs g, t < s.frames.length := fun g t ht =>
    Nat.lt_of_lt_of_le (hW.lt g t ht) (CInv.reach hrun).a.deq
  have key : ∀ g, ∃ ts : List Nat, ts.Sublist (s.outs g) ∧ served g = ts.map fr :=
    fun g => (served_taken hrun cfg fr henc (hsrv g)).imp fun _ h => ⟨h.1, h.2.1⟩
  refine ⟨fun g => Classical.choose (key g), fun g => (Classical.choose_spec (key g)).2,
    fun g => (hW.sorted g).sublist (Classical.choose_spec (key g)).1,
    fun g t ht => hlt g t ((Classical.choose_spec (key g)).1.mem ht), fun g g' t t' hgg ht ht' => ?_⟩
  exact hW.order g g' t t' hgg ((Classical.choose_spec (key g)).1.mem ht) ((Classical.choose_spec (key g')).1.mem ht')

/-- **C86, a failed write is not handled.** If the write of a submission returned an error to its caller, no handler is ever started for
it: on all transport connections, the submissions handled are among those whose result, if there is one, is nil. -/
theorem C86_failed {c : CConf} {d : Bool} {acts : List CAct} {s : CSt} (hrun : cRun c d acts = some s) (cfg : Nat → FrameReaderCfg)
    (fr : Nat → Frame) (henc : ∀ (g t : Nat) (f : CFrame), s.frames[t]? = some f → Encodes (cfg g) f.bytes (fr t))
    (served : Nat → List Frame) (hsrv : ∀ g, Serves (cfg g) (s.wires g) (served g)) :
    ∃ ts : Nat → List Nat, (∀ g, served g = (ts g).map fr) ∧ (∀ g, (ts g).Pairwise (· < ·)) ∧
      (∀ g g' t, t ∈ ts g → t ∈ ts g' → g = g') ∧ ∀ g, ∀ t ∈ ts g, ∀ r, (t, r) ∈ s.rets → r = .ok := by
  have hW := CInvW.reach hrun
  have key := fun g => served_taken hrun cfg fr henc (hsrv g)
  refine ⟨fun g => Classical.choose (key g), fun g => (Classical.choose_spec (key g)).2.1,
    fun g => (hW.sorted g).sublist (Classical.choose_spec (key g)).1,
    fun g g' t h h' => hW.disj g g' t ((Classical.choose_spec (key g)).1.mem h) ((Classical.choose_spec (key g')).1.mem h'),
    fun g t ht r hr => ?_⟩
  apply Classical.byContradiction
  intro hne
  exact (CInvX.reach hrun).rets t r hr hne g ((Classical.choose_spec (key g)).2.2 t ht)

/-- **C86, nothing else.** Each handler is started for the frame that arrived at that place: every start has its frame. -/
theorem C86_each {rc : RConf} {t0 : Nat} {racts : List RAct} {u : RSt} (h : rdRun rc t0 racts = some u) {fs : List Frame}
    (hp : u.arr.map Prod.fst <+: fs.map Frame.toR) {k : Nat} (hk : HEv.start k ∈ u.log) :
    ∃ f, fs[k]? = some f ∧ FrameFlag.isPush f.flags = false := by
  have h1 := (RInv.reach h).a.startsLt k hk
  have h2 := (C27_dispatch h k).2 (.inl hk)
  have hl := hp.length_le
  simp only [List.length_map] at hl
  refine ⟨fs[k]'(by omega), List.getElem?_eq_getElem _, ?_⟩
  obtain ⟨post, hpost⟩ := hp
  have h3 : (fs.map Frame.toR)[k]? = (u.arr.map Prod.fst)[k]? := by
    rw [← hpost, List.getElem?_append_left (by simpa using h1)]
  rw [List.getElem?_map, List.getElem?_map, List.getElem?_eq_getElem (by omega), List.getElem?_eq_getElem h1] at h3
  simp only [Option.map_some, Option.some.injEq] at h3
  have h4 : frameAt u.arr k = u.arr[k].1 := by simp [frameAt, List.getD, List.getElem?_eq_getElem h1]
  rw [h4, ← h3] at h2
  exact h2

/-- The result of a read without error. -/
def okFrames : Except FrameErr (List Frame) → Option (List Frame)
  | .ok fs => some fs
  | .error _ => none

def hTwo : Bytes := layout 3 1 8 [7] ++ layout 5 2 0 [8, 9]

def hSrc : Src := ⟨[], [.data (hTwo.take 20), .data (hTwo.drop 20)]⟩

def hStreams : List SAct :=
  [.recv ⟨3, 8, 1, [7]⟩, .rstep, .rstep, .rstep, .rstep, .rstep, .recv ⟨5, 0, 2, [8, 9]⟩, .rstep]

def hDispatch : List RAct :=
  [.rFrame (Frame.toR ⟨3, 8, 1, [7]⟩), .rSend, .mGo, .mGo, .rGo, .rGo, .rFrame (Frame.toR ⟨5, 0, 2, [8, 9]⟩), .rSend]

/-- The hypothesis of C86 holds, e.g., for the client of `exLayouts` with two requests written: the server reads both, in two
pieces, and starts a handler for each. -/
theorem Serves_example : Serves ⟨100, none⟩ hTwo [⟨3, 8, 1, [7]⟩, ⟨5, 0, 2, [8, 9]⟩] := by
  have h1 : okFrames (readN ⟨100, none⟩ 2 hSrc).1 = some [⟨3, 8, 1, [7]⟩, ⟨5, 0, 2, [8, 9]⟩] := by decide +kernel
  have h2 : (sRun SSt.init hStreams).map (fun t => (t.recv, returned t.log)) =
      some ([⟨3, 8, 1, [7]⟩, ⟨5, 0, 2, [8, 9]⟩], [⟨3, 8, 1, [7]⟩, ⟨5, 0, 2, [8, 9]⟩]) := by decide +kernel
  have h3 : (rdRun ⟨0, 0, 0, false⟩ 0 hDispatch).map (fun u => (u.arr.map Prod.fst, u.log.filterMap startOf)) =
      some ([Frame.toR ⟨3, 8, 1, [7]⟩, Frame.toR ⟨5, 0, 2, [8, 9]⟩], [0, 1]) := by decide +kernel
  have h4 : (readN ⟨100, none⟩ 2 hSrc).1 = .ok [⟨3, 8, 1, [7]⟩, ⟨5, 0, 2, [8, 9]⟩] := by
    cases h : (readN ⟨100, none⟩ 2 hSrc).1 with
    | ok fs => rw [h] at h1; simp only [okFrames, Option.some.injEq] at h1; rw [h1]
    | error e => rw [h] at h1; simp [okFrames] at h1
  obtain ⟨t, h5, h6⟩ := Option.map_eq_some_iff.1 h2
  obtain ⟨u, h7, h8⟩ := Option.map_eq_some_iff.1 h3
  simp only [Prod.mk.injEq] at h6 h8
  refine ⟨hSrc, 2, _, hStreams, t, _, 0, hDispatch, u, ?_, h4, h5, h6.1, h7, ?_, ?_⟩
  · exact (by decide +kernel : srcBytes hSrc = hTwo) ▸ List.prefix_refl _
  · rw [h8.1, h6.2]; exact List.prefix_refl _
  · rw [h8.2, h6.2]; rfl

/-- The wires of that client: `hTwo` on the first transport connection. -/
example : (cRun cfg2 true exLayouts).map (fun s => (s.wires 1, s.wires 0, s.frames.length)) = some (hTwo, [], 2) := by
  decide +kernel

end Qrpc
