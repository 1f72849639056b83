import Verif.Props.StreamE2E
import Verif.Props.Rpc
import Verif.Props.ServeLive
/-! # Property C127: every call is answered

Both directions at rest: the client's write path, the bytes in between, the server's frame reader, streams, dispatch and handlers, its
write path, the bytes in between, and the client's frame reader, streams, reader goroutine and table of response objects. That the
two sides come to rest is C108 and C126. -/
namespace Qrpc
open Spec

/-- A client connection that is up and its server are at rest: everything written has arrived at the other end and been read.
`fr t` is the frame of the `t`-th submission of the client, `ts` and `tc` are the streams of server and client, `u` is the dispatch
of the server, `gs` its write path and `frs k` the frame of its `k`-th submission. -/
structure Spec.RpcRest (e : ESt) (fr frs : Nat → Frame) (ts tc : SSt) (rc : RConf) (u : RSt) (gs : GSt) : Prop where
  there : ∃ cfg : FrameReaderCfg, (∀ (t : Nat) (f : CFrame), e.c.frames[t]? = some f → Encodes cfg f.bytes (fr t)) ∧
    Receives cfg (e.c.wires e.c.gen) ts True
  ids : ∀ (t : Nat) (f : CFrame), e.c.frames[t]? = some f → f.rid = (fr t).requestID
  idleS : held ts = []
  disp : ∃ t0 racts, rdRun rc t0 racts = some u ∧ u.Served rc ∧ u.throttled = false ∧ u.ctx = false
  given : u.arr.map Prod.fst = (returned ts.log).map Frame.toR
  back : ∃ (cap : Nat) (gacts : List GAct) (cfg : FrameReaderCfg), gRun cap gacts = some gs ∧
    (∀ (k : Nat) (f : SFrame), gs.frames[k]? = some f → Encodes cfg f.bytes (frs k)) ∧ Receives cfg gs.wire tc True
  idleC : held tc = []
  down : (e.down e.c.gen).map Prod.fst = (returned tc.log).map Frame.toIn
  up : e.c.rwc = true
  rd : e.c.rd = .read
  read : e.read e.c.gen = (e.down e.c.gen).length

/-- The server gives only frames with its own (even) ids to callers of its own. -/
structure RInvO (s : RSt) : Prop where
  looked : ∀ k, s.rd = .lookup k → k < s.arr.length ∧ (frameAt s.arr k).rid % 2 = 0
  resp : ∀ k, HEv.resp k ∈ s.log → k < s.arr.length ∧ (frameAt s.arr k).rid % 2 = 0

theorem RInvO.step {c : RConf} {s s' : RSt} {a : RAct} (h : RInvO s) (hs : rdStep c s a = some s') : RInvO s' := by
  obtain ⟨h1, h2⟩ := h
  have hx : ∀ (k : Nat) (x : RFrame × Nat), k < s.arr.length → frameAt (s.arr ++ [x]) k = frameAt s.arr k := by
    intro k x hk
    simp [frameAt, List.getD, List.getElem?_append_left hk]
  rdstep_cases hs a
  all_goals constructor <;> intro k hk
  all_goals simp_all [RFrame.fromServer]
  all_goals first
    | (obtain ⟨q1, q2⟩ := h2 k hk; exact ⟨by omega, by rw [hx _ _ q1]; exact q2⟩)
    | (subst hk; simp_all [frameAt, List.getD])
    | grind

/-- Every handler that has finished answered: a frame with the id of its request, not a push, was written successfully. -/
def Spec.Answered (u : RSt) (gs : GSt) (frs : Nat → Frame) : Prop :=
  ∀ k ∈ u.finished, ∃ j, (j, SRes.ok) ∈ gs.rets ∧ (frs j).key = ((frameAt u.arr k).rid, false)

theorem returned_of_outs {r : Nat} {f : Frame} {l : List SEv} (h : (true, f) ∈ outs r l) : f ∈ returned l := by
  obtain ⟨ev, he, h1⟩ := List.mem_filterMap.1 h
  refine List.mem_filterMap.2 ⟨ev, he, ?_⟩
  cases ev <;> simp only [streamOut] at h1 <;> try cases h1
  all_goals split at h1 <;> simp_all

/-- A stream of which something was received and nothing is held has a first frame, which `ReadFrame` returned. -/
theorem handed_first {t : SSt} {K : SKey} {fs us : List Frame} (h : HandedOver t K fs) (hh : held t = []) (he : fs ++ inHand t K = us)
    (hne : us ≠ []) : ∃ F ∈ returned t.log, F ∈ us := by
  have h0 : inHand t K = [] := by rw [inHand, hh]; rfl
  rw [h0, List.append_nil] at he
  subst he
  rcases h with ⟨rfl, -⟩ | ⟨r, first, rest, rfl, -, h1, -⟩
  · exact absurd rfl hne
  · exact ⟨first, returned_of_outs (by rw [h1]; exact List.mem_cons_self), List.mem_cons_self⟩

/-- **C127.** A client connection that is up and its server are at rest, every handler that has finished answered. Then for every
call whose write returned nil on this connection - and whose stream, like that of the answer, has no resets and nothing after its end -
a handler was started for a frame of the call's stream and has finished, and the call has got exactly one thing: a frame with its id
that was submitted on the server. -/
theorem C127 {c : CConf} {d : Bool} {acts : List EAct} {e : ESt} (hrun : eRun c d acts = some e) (hr : e.c.ridGen < 2 ^ 63)
    {fr frs : Nat → Frame} {ts tc : SSt} {rc : RConf} {u : RSt} {gs : GSt} (hq : RpcRest e fr frs ts tc rc u gs)
    (hans : Answered u gs frs)
    {t : Nat} {ft : CFrame} (ht : t ∈ e.c.outs e.c.gen) (hok : (t, CRes.ok) ∈ e.c.rets) (hf : e.c.frames[t]? = some ft)
    (hresp : ft.resp = true) (hpush : FrameFlag.isPush (fr t).flags = false)
    (hwf : WellFormed (((List.range e.c.frames.length).map fr).filter fun f => decide (f.key = (ft.rid, false))))
    (hwfs : WellFormed (((List.range gs.frames.length).map frs).filter fun f => decide (f.key = (ft.rid, false)))) :
    ∃ k v j, (returned ts.log)[k]? = some (fr v) ∧ v ∈ e.c.outs e.c.gen ∧ (fr v).requestID = ft.rid ∧
      HEv.start k ∈ u.log ∧ k ∈ u.finished ∧
      j < gs.frames.length ∧ (frs j).key = (ft.rid, false) ∧ e.c.revs t = [REv.frame (frs j).toIn] := by
  obtain ⟨cacts, hc⟩ := eRun_client hrun
  have hW := CInvW.reach hc
  have hA := (CInv.reach hc).a
  have hlt : ∀ g, ∀ t ∈ e.c.outs g, t < e.c.frames.length := fun g t ht => Nat.lt_of_lt_of_le (hW.lt g t ht) hA.deq
  have hkey : (fr t).key = (ft.rid, false) := Prod.ext (hq.ids t ft hf).symm hpush
  -- there
  obtain ⟨cfg, henc, hthere⟩ := hq.there
  have hpre : e.c.wires e.c.gen <+: ((e.c.outs e.c.gen).filterMap fun t => (e.c.frames[t]?).map (·.bytes)).flatten := by
    have := hW.pre e.c.gen
    rw [cflat_eq_frames (hlt e.c.gen)] at this
    exact this
  obtain ⟨fs, us, h1, h2, h3, -, h4⟩ := stream_core (hW.sorted e.c.gen) (hlt e.c.gen)
    (fun t ht => ⟨e.c.frames[t]'(hlt _ t ht) |>.bytes, by simp [List.getElem?_eq_getElem (hlt _ t ht)],
      henc t _ (List.getElem?_eq_getElem (hlt _ t ht))⟩) hpre hwf hthere
  have htook : Took e.c.frames e.c.outs e.c.wires t := (took_iff hA hW t).2 (hW.okRets t hok)
  obtain ⟨g, pre, post, e1, e2⟩ := htook
  have hg : g = e.c.gen := hW.disj g e.c.gen t (by rw [e1]; simp) ht
  subst hg
  have htu : t ∈ us := h4 trivial pre t post e1 e2 hkey
  obtain ⟨F, hF, hFu⟩ := handed_first h1 hq.idleS h2 (List.ne_nil_of_mem (List.mem_map.2 ⟨t, htu, rfl⟩))
  obtain ⟨v, hv, rfl⟩ := List.mem_map.1 hFu
  have hv' := List.mem_filter.1 (h3.subset hv)
  have hvk : (fr v).key = (ft.rid, false) := by simpa using hv'.2
  obtain ⟨k, hk⟩ := List.getElem?_of_mem hF
  -- dispatch
  obtain ⟨t0, racts, hu, hserved, hthr, hctx⟩ := hq.disp
  have hka : (u.arr.map Prod.fst)[k]? = some (fr v).toR := by rw [hq.given, List.getElem?_map, hk]; rfl
  have hkl : k < u.arr.length := by
    have := (List.getElem?_eq_some_iff.1 hka).1
    simpa using this
  have hka' : frameAt u.arr k = (fr v).toR := by
    rw [List.getElem?_map, List.getElem?_eq_getElem hkl] at hka
    simp only [Option.map_some, Option.some.injEq] at hka
    simpa [frameAt, List.getD, List.getElem?_eq_getElem hkl] using hka
  have hid : (fr v).requestID = ft.rid := congrArg Prod.fst hvk
  obtain ⟨m, -, -, hm⟩ := (EAll.reach hrun).i.i.inFrames ft (List.mem_of_getElem? hf) hresp
  have hodd : ft.rid % 2 = 1 := by rw [hm]; exact (C20_parity m 0).1
  have hC := (C126 (more := []) hu rfl hctx).2 hserved hthr
  obtain ⟨hst, hfin, -⟩ := hC.2.2.2.2.2.2.2 k hkl (by rw [hka']; exact congrArg Prod.snd hvk) (by
    intro h
    have hO : RInvO u := runActs_inv (P := RInvO) (fun _ _ _ h hs => h.step hs) ⟨by simp [RSt.init], by simp [RSt.init]⟩ hu
    have := (hO.resp k h).2
    rw [hka'] at this
    simp only [Frame.toR, hid] at this
    rw [hodd] at this
    exact absurd this (by decide))
  -- back
  obtain ⟨j, hj, hjk⟩ := hans k hfin
  rw [hka'] at hjk
  simp only [Frame.toR, hid] at hjk
  obtain ⟨cap, gacts, cfg', hg, hencS, hback⟩ := hq.back
  obtain ⟨ws, -, hws, -, h5⟩ := C93_server hg cfg' frs hencS
  obtain ⟨fs', us', k1, k2, k3, -, k4⟩ := h5 (ft.rid, false) tc True hwfs hback
  obtain ⟨F', hF', hFu'⟩ := handed_first k1 hq.idleC k2 (List.ne_nil_of_mem (List.mem_map.2 ⟨j, k4 trivial j hj hjk, rfl⟩))
  obtain ⟨w, hw, rfl⟩ := List.mem_map.1 hFu'
  have hw' := List.mem_filter.1 (k3.subset hw)
  have hwk : (frs w).key = (ft.rid, false) := by simpa using hw'.2
  have h6 := C83 hrun hr hq.up hq.rd ht hf hresp
  rw [hq.read, List.take_of_length_le (by simp), hq.down] at h6
  cases hfa : firstAnswer ft.rid ((returned tc.log).map Frame.toIn) with
  | none =>
    exfalso
    have := firstAnswer_none hfa _ (List.mem_map.2 ⟨_, hF', rfl⟩) (congrArg Prod.snd hwk)
    exact this (congrArg Prod.fst hwk)
  | some f =>
    obtain ⟨q1, q2, q3⟩ := firstAnswer_mem hfa
    obtain ⟨G, q4, rfl⟩ := List.mem_map.1 q1
    obtain ⟨src, n, sacts, b1, b2, b3, -⟩ := hback.data
    have hn := returned_not_rst b3 q4
    obtain ⟨us2, z1, z2, z3⟩ := arrived_sublist hg hencS ⟨src, n, sacts, tc, b1, b2, b3, rfl, rfl⟩
    rw [z3] at q4
    obtain ⟨x, hx, rfl⟩ := List.mem_map.1 q4
    refine ⟨k, v, x, hk, hv'.1, hid, hst, hfin, z2 x hx, ?_, ?_⟩
    · exact Prod.ext q3 q2
    · rw [h6, hfa]
      simp [Frame.toIn, hn]

/-- **C127, with the right result.** If moreover the handlers answer by `R` (as in C107) and the call has no further frames but resets,
the one thing it has got answers its frame by `R`. -/
theorem C127_result {c : CConf} {d : Bool} {acts : List EAct} {e : ESt} (hrun : eRun c d acts = some e) (hr : e.c.ridGen < 2 ^ 63)
    {fr frs : Nat → Frame} {ts tc : SSt} {rc : RConf} {u : RSt} {gs : GSt} (hq : RpcRest e fr frs ts tc rc u gs)
    (hans : Answered u gs frs)
    {served : Nat → List Frame} {frs' : Nat → Nat → Frame} {cnt : Nat → Nat} {ret : Nat → List Frame}
    (hw : Wired e fr served frs' cnt ret) {R : Frame → Frame → Prop} (hR : ∀ g, AnswerBy R (served g) (frs' g) (cnt g))
    {t : Nat} {ft : CFrame} (ht : t ∈ e.c.outs e.c.gen) (hok : (t, CRes.ok) ∈ e.c.rets) (hf : e.c.frames[t]? = some ft)
    (hresp : ft.resp = true) (hpush : FrameFlag.isPush (fr t).flags = false)
    (hwf : WellFormed (((List.range e.c.frames.length).map fr).filter fun f => decide (f.key = (ft.rid, false))))
    (hwfs : WellFormed (((List.range gs.frames.length).map frs).filter fun f => decide (f.key = (ft.rid, false))))
    (huniq : ∀ (u : Nat) (fu : CFrame), e.c.frames[u]? = some fu → fu.rid = ft.rid → u = t ∨ FrameFlag.isRst (fr u).flags = true) :
    ∃ G : Frame, e.c.revs t = [REv.frame G.toIn] ∧ R (fr t) G := by
  obtain ⟨k, v, j, -, -, -, -, -, -, -, h⟩ := C127 hrun hr hq hans ht hok hf hresp hpush hwf hwfs
  obtain ⟨g, i, k', -, -, -, h2, -, h3, -⟩ := C107 hrun hr hw hR (t := t) (f := (frs j).toIn) (by rw [h]; simp)
    (fun u fu ft' h1 h2 h3 => huniq u fu h1 (by rw [hf] at h2; cases h2; exact h3))
  exact ⟨_, by rw [h, h2], h3⟩

/-! ## An execution at rest

That of `rpc_example`, once everybody has come to rest: both handlers have finished, the callers have got the results of their
writes. -/

def restClient : List EAct := rpcClient ++ [.cl .wGo, .cl .wGo, .cl .wGo, .cl (.recv 0), .cl (.recv 1)]

def restDispatch : List RAct :=
  [.rFrame (Frame.toR ⟨3, 8, 1, [7]⟩), .rSend, .mGo, .mGo, .rGo, .rGo, .rFrame (Frame.toR ⟨5, 0, 2, [8, 9]⟩), .rSend, .mFinal, .hFinal 0,
   .hEnd 0, .hDec 0, .hTest 0, .mEnd, .mGo, .mGo, .mGo, .rGate, .rGo]

theorem restDispatch_served : ∀ u, rdRun ⟨0, 0, 0, false⟩ 0 restDispatch = some u → u.Served ⟨0, 0, 0, false⟩ := by
  intro s hs
  have h1 : s = (rdRun ⟨0, 0, 0, false⟩ 0 restDispatch).getD (RSt.init 0) := by rw [hs]; rfl
  have hr : s.rd = .read := by rw [h1]; rfl
  have hm : s.main = .select := by rw [h1]; rfl
  have hc : s.ch = [] := by rw [h1]; rfl
  have hx : s.ctx = false := by rw [h1]; rfl
  have hl : s.running = [] ∧ s.ending = [] ∧ s.cleaning = [] ∧ s.resetting = [] := by rw [h1]; exact ⟨rfl, rfl, rfl, rfl⟩
  clear hs h1
  intro a ha
  cases a <;> simp_all [RAct.serving, rdStep]

/-- All hypotheses of C127 hold in it, for both calls. -/
theorem rest_example : ∃ e ts tc u gs, eRun cfg2 true restClient = some e ∧ e.c.ridGen = 2 ∧
    RpcRest e rpcFr (rpcFrs 1) ts tc ⟨0, 0, 0, false⟩ u gs ∧ Answered u gs (rpcFrs 1) ∧
    e.c.outs e.c.gen = [0, 1] ∧ e.c.rets = [(0, .ok), (1, .ok)] ∧ e.c.frames.map (fun f => (f.rid, f.resp)) = [(3, true), (5, true)] ∧
    gs.frames.length = 2 := by
  have h1 : (eRun cfg2 true restClient).map (fun e => (e.down 1, (e.c.frames.map fun f => (f.rid, f.bytes)), e.c.wires 1, e.c.ridGen)) =
      some ([(Frame.toIn ⟨5, 0, 2, [8, 9, 8, 9]⟩, 2), (Frame.toIn ⟨3, 0, 1, [7, 7]⟩, 2)],
        [(3, layout 3 1 8 [7]), (5, layout 5 2 0 [8, 9])], hTwo, 2) := by rfl
  have h2 : (eRun cfg2 true restClient).map (fun e => (e.c.rwc, decide (e.c.rd = .read), e.c.gen, e.read 1, e.c.outs 1, e.c.rets,
        e.c.frames.map (fun f => (f.rid, f.resp)))) =
      some (true, true, 1, 2, [0, 1], [(0, .ok), (1, .ok)], [(3, true), (5, true)]) := by rfl
  obtain ⟨e, h3, h4⟩ := Option.map_eq_some_iff.1 h1
  rw [h3] at h2
  simp only [Prod.mk.injEq, Option.map_some, Option.some.injEq, decide_eq_true_eq] at h2 h4
  obtain ⟨d1, d2, d3, d4⟩ := h4
  obtain ⟨r1, r2, r3, r4, r5, r6, r7⟩ := h2
  have s1 : (sRun SSt.init hStreams).map (fun t => (t.recv, returned t.log, held t, t.connCancelled)) =
      some ([⟨3, 8, 1, [7]⟩, ⟨5, 0, 2, [8, 9]⟩], [⟨3, 8, 1, [7]⟩, ⟨5, 0, 2, [8, 9]⟩], [], false) := by decide +kernel
  obtain ⟨ts, s2, s3⟩ := Option.map_eq_some_iff.1 s1
  have c1 : (sRun SSt.init rpcStreams).map (fun t => (t.recv, returned t.log, held t, t.connCancelled)) =
      some (rpcAnswers, rpcAnswers, [], false) := by decide +kernel
  obtain ⟨tc, c2, c3⟩ := Option.map_eq_some_iff.1 c1
  have u1 : (rdRun ⟨0, 0, 0, false⟩ 0 restDispatch).map (fun u => (u.arr.map Prod.fst, u.finished, u.throttled, u.ctx)) =
      some ([Frame.toR ⟨3, 8, 1, [7]⟩, Frame.toR ⟨5, 0, 2, [8, 9]⟩], [0, 1], false, false) := by decide +kernel
  obtain ⟨u, u2, u3⟩ := Option.map_eq_some_iff.1 u1
  have g1 : (gRun 2 rpcServer).map (fun s => (s.wire, s.frames.map (·.bytes), s.rets)) =
      some (rpcWire, [layout 5 2 0 [8, 9, 8, 9], layout 3 1 0 [7, 7]], [(0, .ok), (1, .ok)]) := by decide +kernel
  obtain ⟨gs, g2, g3⟩ := Option.map_eq_some_iff.1 g1
  simp only [Prod.mk.injEq] at s3 c3 u3 g3
  have n1 : okFrames (readN ⟨100, none⟩ 2 hSrc).1 = some [⟨3, 8, 1, [7]⟩, ⟨5, 0, 2, [8, 9]⟩] := by decide +kernel
  have n2 : okFrames (readN ⟨0, none⟩ 2 rpcSrc).1 = some rpcAnswers := by decide +kernel
  have err : ∀ {r : Except FrameErr (List Frame)}, okFrames r = none → ∃ err, r = .error err := by
    intro r h
    cases r with
    | ok fs => simp [okFrames] at h
    | error e => exact ⟨e, rfl⟩
  refine ⟨e, ts, tc, u, gs, h3, d4, ⟨⟨⟨100, none⟩, ?_, ?_⟩, ?_, s3.2.2.1, ⟨0, restDispatch, u2, restDispatch_served u u2, u3.2.2.1, u3.2.2.2⟩, ?_,
    ⟨2, rpcServer, ⟨0, none⟩, g2, ?_, ?_⟩, c3.2.2.1, ?_, r1, r2, ?_⟩, ?_, by rw [r3]; exact r5, r6, r7, ?_⟩
  · intro t f ht
    have h5 : (e.c.frames.map fun f => (f.rid, f.bytes))[t]? = some (f.rid, f.bytes) := by rw [List.getElem?_map, ht]; rfl
    rw [d2] at h5
    match t, h5 with
    | 0, h5 => simp at h5; rw [← h5.2]; exact ⟨1, [7], rfl, by decide, by decide, .inr (by decide), rfl⟩
    | 1, h5 => simp at h5; rw [← h5.2]; exact ⟨2, [8, 9], rfl, by decide, by decide, .inr (by decide), rfl⟩
    | t + 2, h5 => simp at h5
  · rw [r3, d3]
    refine ⟨⟨hSrc, 2, hStreams, (by decide +kernel : srcBytes hSrc = hTwo) ▸ List.prefix_refl _, ?_, s2, fun _ =>
      ⟨by decide +kernel, err (by decide +kernel)⟩⟩, s3.2.2.2⟩
    rw [okFrames_ok n1, s3.1]
  · intro t f ht
    have h5 : (e.c.frames.map fun f => (f.rid, f.bytes))[t]? = some (f.rid, f.bytes) := by rw [List.getElem?_map, ht]; rfl
    rw [d2] at h5
    match t, h5 with
    | 0, h5 => simp at h5; rw [← h5.1]; rfl
    | 1, h5 => simp at h5; rw [← h5.1]; rfl
    | t + 2, h5 => simp at h5
  · rw [u3.1, s3.2.1]; rfl
  · intro k f hk
    have h5 : (gs.frames.map (·.bytes))[k]? = some f.bytes := by rw [List.getElem?_map, hk]; rfl
    rw [g3.2.1] at h5
    match k, h5 with
    | 0, h5 => simp at h5; rw [← h5]; exact ⟨2, [8, 9, 8, 9], rfl, by decide, by decide, .inl (by decide), rfl⟩
    | 1, h5 => simp at h5; rw [← h5]; exact ⟨1, [7, 7], rfl, by decide, by decide, .inl (by decide), rfl⟩
    | k + 2, h5 => simp at h5
  · rw [g3.1]
    refine ⟨⟨rpcSrc, 2, rpcStreams, (by decide +kernel : srcBytes rpcSrc = rpcWire) ▸ List.prefix_refl _, ?_, c2, fun _ =>
      ⟨by decide +kernel, err (by decide +kernel)⟩⟩, c3.2.2.2⟩
    rw [okFrames_ok n2, c3.1]
  · rw [r3, d1, c3.2.1]; rfl
  · rw [r3, r4, d1]; rfl
  · intro k hk
    rw [u3.2.1] at hk
    have hfa : ∀ k, frameAt u.arr k = ((u.arr.map Prod.fst)[k]?).getD ⟨0, false, false⟩ := by
      intro k
      rw [List.getElem?_map]
      simp only [frameAt, List.getD]
      cases u.arr[k]? <;> rfl
    rw [hfa, u3.1, g3.2.2]
    simp only [List.mem_cons, List.not_mem_nil, or_false] at hk
    rcases hk with rfl | rfl
    · exact ⟨1, by simp, by decide⟩
    · exact ⟨0, by simp, by decide⟩
  · have := congrArg List.length g3.2.1
    simpa using this

example : ∀ K ∈ [((3, false) : SKey), (5, false)],
    WellFormed (((List.range 2).map rpcFr).filter fun f => decide (f.key = K)) ∧
    WellFormed (((List.range 2).map (rpcFrs 1)).filter fun f => decide (f.key = K)) := by
  unfold WellFormed; decide +kernel

end Qrpc
