import Verif.Props.EndToEnd
/-! # The peer of the composed model reads only what has arrived: C82, C84

`Model/EndToEnd.lean` counts the frames a server has read; here the count is tied to the bytes. -/
namespace Qrpc
open Spec

theorem wires_grow {c : CConf} {s s' : CSt} {a : CAct} (hs : cStep c s a = some s') : ∀ g, s.wires g <+: s'.wires g := by
  cstep_cases hs a
  all_goals try simp only []
  all_goals try first
    | exact fun _ => List.prefix_refl _
    | (intro g; simp only [setAt]; split <;> simp_all; done)

theorem cflat_prefix {fs fs' : List CFrame} {ts : List Nat} (h : fs <+: fs') (hl : ∀ t ∈ ts, t < fs.length) : cflat fs' ts = cflat fs ts := by
  unfold cflat
  congr 1
  exact List.map_congr_left fun t ht => by rw [cframeOf_prefix h (hl t ht)]

/-- What a server has read, and had read when it wrote a frame, was taken by the transport before. -/
structure ETaken (e : ESt) : Prop where
  srvLe : ∀ g, e.srv g ≤ (e.c.outs g).length
  taken : ∀ g, (cflat e.c.frames ((e.c.outs g).take (e.srv g))).length ≤ (e.c.wires g).length
  down : ∀ g p, p ∈ e.down g → p.2 ≤ e.srv g

theorem ETaken.grow {c : CConf} {e : ESt} {a : CAct} {s' : CSt} (hA : EAll c e) (h : ETaken e) (hs : cStep c e.c a = some s') :
    (∀ g, e.srv g ≤ (s'.outs g).length) ∧ ∀ g, (cflat s'.frames ((s'.outs g).take (e.srv g))).length ≤ (s'.wires g).length := by
  obtain ⟨h1, h2, -⟩ := cgrow hs
  refine ⟨fun g => Nat.le_trans (h.srvLe g) (h2 g).length_le, fun g => ?_⟩
  rw [take_of_prefix (h2 g) (h.srvLe g), cflat_prefix h1]
  · exact Nat.le_trans (h.taken g) (wires_grow hs g).length_le
  · exact fun t ht => Nat.lt_of_lt_of_le (hA.w.lt g t (List.mem_of_mem_take ht)) hA.i.a.deq

theorem ETaken.step {c : CConf} {e e' : ESt} {a : EAct} (hA : EAll c e) (h : ETaken e) (hs : eStep c e a = some e') : ETaken e' := by
  cases a with
  | cl a =>
    simp only [eStep] at hs
    split at hs
    · obtain ⟨s, k, rfl⟩ := Option.map_eq_some_iff.1 hs
      obtain ⟨h1, h2⟩ := h.grow hA k
      exact ⟨h1, h2, h.down⟩
    · cases hs
  | sRead g =>
    simp only [eStep] at hs
    split at hs <;> cases hs
    next hg =>
    obtain ⟨h1, h2, h3⟩ := h
    refine ⟨fun g' => ?_, fun g' => ?_, fun g' p hp => ?_⟩
    · simp only [setAt]; split
      · next he => subst he; omega
      · exact h1 g'
    · simp only [setAt]; split
      · next he => subst he; exact hg.2
      · exact h2 g'
    · have := h3 g' p hp
      simp only [setAt]; split
      · next he => subst he; omega
      · exact this
  | sSend g f =>
    simp only [eStep] at hs
    split at hs <;> cases hs
    obtain ⟨h1, h2, h3⟩ := h
    refine ⟨h1, h2, fun g' p hp => ?_⟩
    simp only [setAt] at hp
    split at hp
    · next he =>
      subst he
      rcases List.mem_append.1 hp with hp | hp
      · exact h3 _ p hp
      · rw [List.mem_singleton.1 hp]; exact Nat.le_refl _
    · exact h3 g' p hp
  | recv =>
    simp only [eStep] at hs
    split at hs
    · obtain ⟨s, k, rfl⟩ := Option.map_eq_some_iff.1 hs
      obtain ⟨h1, h2⟩ := h.grow hA k
      exact ⟨h1, h2, h.down⟩
    · cases hs

theorem ETaken.reach {c : CConf} {d : Bool} {acts : List EAct} {e : ESt} (hrun : eRun c d acts = some e) : EAll c e ∧ ETaken e := by
  refine runActs_inv (P := fun e => EAll c e ∧ ETaken e) ?_ ⟨EAll.init c d, ?_⟩ hrun
  · exact fun e a e' h hs => ⟨h.1.step hs, h.2.step h.1 hs⟩
  · constructor <;> simp [ESt.init, CSt.init, cflat]

theorem ETaken.pre {c : CConf} {e : ESt} (hA : EAll c e) (h : ETaken e) (g n : Nat) (hn : n ≤ e.srv g) :
    Spec.frames e.c.frames ((e.c.outs g).take n) <+: e.c.wires g := by
  have hlt : ∀ m, ∀ t ∈ (e.c.outs g).take m, t < e.c.frames.length := fun m t ht =>
    Nat.lt_of_lt_of_le (hA.w.lt g t (List.mem_of_mem_take ht)) hA.i.a.deq
  have hpre : ∀ m, cflat e.c.frames ((e.c.outs g).take m) <+: cflat e.c.frames (e.c.outs g) := fun m => by
    refine ⟨cflat e.c.frames ((e.c.outs g).drop m), ?_⟩
    rw [← cflat_append, List.take_append_drop]
  have hle : cflat e.c.frames ((e.c.outs g).take n) <+: cflat e.c.frames ((e.c.outs g).take (e.srv g)) := by
    refine ⟨cflat e.c.frames (((e.c.outs g).take (e.srv g)).drop n), ?_⟩
    have : (e.c.outs g).take n = ((e.c.outs g).take (e.srv g)).take n := by rw [List.take_take, Nat.min_eq_left hn]
    rw [this, ← cflat_append, List.take_append_drop]
  rw [← cflat_eq_frames (hlt n)]
  exact hle.trans (List.prefix_of_prefix_length_le (hpre _) (hA.w.pre g) (h.taken g))

/-- **C82, the request was transmitted.** When a call `t` has got a frame, its own bytes and those of all frames before it on its
transport connection `g` were taken by the transport: the frame was written after the server had read `n` whole frames there, `t`
among them. -/
theorem C82_transmitted {c : CConf} {d : Bool} {acts : List EAct} {e : ESt} (hrun : eRun c d acts = some e) (hr : e.c.ridGen < 2 ^ 63)
    {t : Nat} {f : InFrame} (h : REv.frame f ∈ e.c.revs t) :
    ∃ g n, (f, n) ∈ e.down g ∧ t ∈ (e.c.outs g).take n ∧ Spec.frames e.c.frames ((e.c.outs g).take n) <+: e.c.wires g := by
  obtain ⟨hA, hT⟩ := ETaken.reach hrun
  obtain ⟨g, n, pre, post, fr, h1, h2, -⟩ := C82 hrun hr h
  have hm : (f, n) ∈ e.down g := by rw [h1]; simp
  exact ⟨g, n, hm, h2, hT.pre hA g n (hT.down g _ hm)⟩

/-- In `exPeer` the first call has its answer, and two frames were read from the two bytes taken; with only the first byte taken, only
the first frame can be read. -/
example : (eRun cfg2 true exPeer).map (fun e => (e.c.revs 0, e.srv 1, e.c.wires 1)) =
      some ([.frame ⟨3, false, false, false⟩], 2, [1, 2]) ∧
    eRun cfg2 true (exPeer.take 19 ++ [.cl (.wWrite 1 false), .sRead 1, .sRead 1]) = none ∧
    ((eRun cfg2 true (exPeer.take 19 ++ [.cl (.wWrite 1 false), .sRead 1])).map fun e => (e.srv 1, e.c.wires 1)) = some (1, [1]) := by
  refine ⟨rfl, rfl, rfl⟩

/-- **C84, for the peer of the composed model.** The frames a server has read there are the ones its frame reader returns, from
whatever has arrived of the bytes taken by the transport as soon as it covers them, in any fragmentation. (`rpc_example` of Props/Rpc.lean is an execution with such frames.) -/
theorem C84_peer {c : CConf} {d : Bool} {acts : List EAct} {e : ESt} (hrun : eRun c d acts = some e) (cfg : FrameReaderCfg)
    (fr : Nat → Frame) (henc : ∀ (t : Nat) (f : CFrame), e.c.frames[t]? = some f → Encodes cfg f.bytes (fr t)) (g : Nat) :
    ((e.c.outs g).take (e.srv g)).length = e.srv g ∧
    ∀ src : Src, srcBytes src = e.c.wires g → (readN cfg (e.srv g) src).1 = .ok (((e.c.outs g).take (e.srv g)).map fr) := by
  obtain ⟨hA, hT⟩ := ETaken.reach hrun
  have hlen : ((e.c.outs g).take (e.srv g)).length = e.srv g := by simp [Nat.min_eq_left (hT.srvLe g)]
  refine ⟨hlen, fun src hsrc => ?_⟩
  have hf : EncodesAll cfg (((e.c.outs g).take (e.srv g)).filterMap fun t => (e.c.frames[t]?).map (·.bytes))
      (((e.c.outs g).take (e.srv g)).map fr) := by
    apply forall₂_filterMap
    intro t ht
    have hl : t < e.c.frames.length := Nat.lt_of_lt_of_le (hA.w.lt g t (List.mem_of_mem_take ht)) hA.i.a.deq
    exact ⟨e.c.frames[t].bytes, by simp [List.getElem?_eq_getElem hl], henc t _ (List.getElem?_eq_getElem hl)⟩
  have hl := encodesAll_length hf
  rw [List.length_map, hlen] at hl
  have := readN_complete cfg (e.srv g) _ _ src hf (by
    rw [List.take_of_length_le (Nat.le_of_eq hl), hsrc]; exact hT.pre hA g _ (Nat.le_refl _)) (Nat.le_of_eq hl.symm)
  rw [this, List.take_of_length_le (by rw [List.length_map, hlen]; exact Nat.le_refl _)]

end Qrpc
