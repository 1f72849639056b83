import Verif.Props.Push
/-! # Property C107: a call gets what its handler answered

The whole way there and back: the client's write path, the bytes in between, the server's frame reader, streams and dispatch
(`Spec.Serves`, Props/Handled.lean), the handler, the server's write path, the bytes in between, and the client's frame reader,
streams, reader goroutine and table of response objects (`Spec.Arrives`, Props/Push.lean, and `Model/EndToEnd.lean`). -/
namespace Qrpc
open Spec

/-- The client connection in state `e` and the servers at the other ends of its transport connections, at some moment.
`fr t` is the frame of the `t`-th submission of the client, `served g` are the frames for which the server of transport connection
`g` has started handlers, `frs g k` (`k < cnt g`) are the frames submitted on that server connection, and `ret g` those of them
that `ReadFrame` has returned to the client. -/
structure Spec.Wired (e : ESt) (fr : Nat → Frame) (served : Nat → List Frame) (frs : Nat → Nat → Frame) (cnt : Nat → Nat)
    (ret : Nat → List Frame) : Prop where
  there : ∃ cfg : Nat → FrameReaderCfg, (∀ (g t : Nat) (f : CFrame), e.c.frames[t]? = some f → Encodes (cfg g) f.bytes (fr t)) ∧
    ∀ g, Serves (cfg g) (e.c.wires g) (served g)
  ids : ∀ (t : Nat) (f : CFrame), e.c.frames[t]? = some f → f.rid = (fr t).requestID
  back : ∀ g, ∃ (cap : Nat) (gacts : List GAct) (gs : GSt) (cfg : FrameReaderCfg) (got : List Frame), gRun cap gacts = some gs ∧
    gs.frames.length = cnt g ∧ (∀ (k : Nat) (f : SFrame), gs.frames[k]? = some f → Encodes cfg f.bytes (frs g k)) ∧
    Arrives cfg gs.wire got (ret g)
  read : ∀ g, (e.down g).map Prod.fst = (ret g).map Frame.toIn

/-- The handlers of a server connection answer with `R`: a frame they submit with the id of a client's request (that is, an odd
one; pushes apart) is an answer, by `R`, to a frame with this id for which a handler was started. -/
def Spec.AnswerBy (R : Frame → Frame → Prop) (served : List Frame) (frs : Nat → Frame) (cnt : Nat) : Prop :=
  ∀ k, k < cnt → FrameFlag.isPush (frs k).flags = false → (frs k).requestID % 2 = 1 →
    ∃ F ∈ served, F.requestID = (frs k).requestID ∧ R F (frs k)

/-- What the client does in an execution with its peers is an execution of the client. -/
theorem eRun_client {c : CConf} {d : Bool} {acts : List EAct} {e : ESt} (h : eRun c d acts = some e) :
    ∃ cacts, cRun c d cacts = some e.c := by
  refine runActs_inv (P := fun e => ∃ cacts, cRun c d cacts = some e.c) ?_ ⟨[], rfl⟩ h
  rintro e a e' ⟨cacts, hc⟩ hs
  have app : ∀ b s', cStep c e.c b = some s' → ∃ cacts, cRun c d cacts = some s' := by
    intro b s' hb
    refine ⟨cacts ++ [b], ?_⟩
    unfold cRun at hc ⊢
    rw [runActs_append, hc]
    simp [runActs, hb]
  cases a with
  | cl a =>
    simp only [eStep] at hs
    split at hs
    · obtain ⟨s, k, rfl⟩ := Option.map_eq_some_iff.1 hs
      exact app _ _ k
    · cases hs
  | sRead g =>
    simp only [eStep] at hs
    split at hs <;> cases hs
    exact ⟨cacts, hc⟩
  | sSend g f =>
    simp only [eStep] at hs
    split at hs <;> cases hs
    exact ⟨cacts, hc⟩
  | recv =>
    simp only [eStep] at hs
    split at hs
    · obtain ⟨s, k, rfl⟩ := Option.map_eq_some_iff.1 hs
      exact app _ _ k
    · cases hs

/-- What is returned to the client at a place was submitted on the server connection. -/
theorem wired_back {e : ESt} {fr : Nat → Frame} {served : Nat → List Frame} {frs : Nat → Nat → Frame} {cnt : Nat → Nat}
    {ret : Nat → List Frame} (hw : Wired e fr served frs cnt ret) {g i : Nat} {p : InFrame × Nat} (hp : (e.down g)[i]? = some p) :
    ∃ k, k < cnt g ∧ (ret g)[i]? = some (frs g k) ∧ p.1 = (frs g k).toIn := by
  obtain ⟨cap, gacts, gs, cfg, got, h1, h2, h3, h4⟩ := hw.back g
  obtain ⟨us, -, k2, k3⟩ := arrived_sublist h1 h3 h4
  have h5 : ((e.down g).map Prod.fst)[i]? = some p.1 := by rw [List.getElem?_map, hp]; rfl
  rw [hw.read g, k3, List.map_map, List.getElem?_map] at h5
  obtain ⟨k, h6, h7⟩ := Option.map_eq_some_iff.1 h5
  refine ⟨k, ?_, ?_, h7.symm⟩
  · rw [← h2]; exact k2 k (List.mem_of_getElem? h6)
  · rw [k3, List.getElem?_map, h6]; rfl

/-- The frame a server submitted with the id of a request of the client that has a response object answers a frame that the client
submitted with this id. -/
theorem wired_answers {c : CConf} {d : Bool} {acts : List EAct} {e : ESt} (hrun : eRun c d acts = some e)
    {fr : Nat → Frame} {served : Nat → List Frame} {frs : Nat → Nat → Frame} {cnt : Nat → Nat}
    {ret : Nat → List Frame} (hw : Wired e fr served frs cnt ret) {R : Frame → Frame → Prop}
    (hR : ∀ g, AnswerBy R (served g) (frs g) (cnt g)) {g k : Nat} (hk : k < cnt g) (hp : FrameFlag.isPush (frs g k).flags = false)
    {t : Nat} {ft : CFrame} (hf : e.c.frames[t]? = some ft) (hresp : ft.resp = true) (hid : (frs g k).requestID = ft.rid) :
    ∃ (u : Nat) (fu : CFrame), e.c.frames[u]? = some fu ∧ fu.rid = ft.rid ∧ fr u ∈ served g ∧ R (fr u) (frs g k) := by
  obtain ⟨cacts, hc⟩ := eRun_client hrun
  obtain ⟨m, -, -, hm⟩ := (EAll.reach hrun).i.i.inFrames ft (List.mem_of_getElem? hf) hresp
  have hodd : (frs g k).requestID % 2 = 1 := by rw [hid, hm]; exact (C20_parity m 0).1
  obtain ⟨F, h1, h2, h3⟩ := hR g k hk hp hodd
  obtain ⟨cfg, h4, h5⟩ := hw.there
  obtain ⟨ts, h6, -, h7, -⟩ := C86 hc cfg fr h4 served h5
  rw [h6 g] at h1
  obtain ⟨u, h8, rfl⟩ := List.mem_map.1 h1
  have h9 := List.getElem?_eq_getElem (h7 g u h8)
  refine ⟨u, _, h9, ?_, ?_, h3⟩
  · rw [hw.ids u _ h9, h2, hid]
  · rw [h6 g]; exact List.mem_map.2 ⟨u, h8, rfl⟩

theorem wired_served_not_rst {e : ESt} {fr : Nat → Frame} {served : Nat → List Frame} {frs : Nat → Nat → Frame} {cnt : Nat → Nat}
    {ret : Nat → List Frame} (hw : Wired e fr served frs cnt ret) {g : Nat} {F : Frame} (h : F ∈ served g) :
    FrameFlag.isRst F.flags = false := by
  obtain ⟨cfg, -, h1⟩ := hw.there
  exact served_not_rst (h1 g) h

theorem wired_ret_not_rst {e : ESt} {fr : Nat → Frame} {served : Nat → List Frame} {frs : Nat → Nat → Frame} {cnt : Nat → Nat}
    {ret : Nat → List Frame} (hw : Wired e fr served frs cnt ret) {g : Nat} {F : Frame} (h : F ∈ ret g) :
    FrameFlag.isRst F.flags = false := by
  obtain ⟨_, _, _, _, _, -, -, -, h1⟩ := hw.back g
  exact arrives_not_rst h1 h

theorem firstAnswer_none {rid : UInt64} {fs : List InFrame} (h : firstAnswer rid fs = none) :
    ∀ f ∈ fs, f.push = false → f.rid ≠ rid := by
  induction fs with
  | nil => simp
  | cons x fs ih =>
    simp only [firstAnswer] at h
    split at h
    · cases h
    · next hx =>
      intro f hf hp
      rcases List.mem_cons.1 hf with rfl | hf
      · exact fun hr => hx ⟨hp, hr⟩
      · exact ih h f hf hp

/-- **C107.** In every execution of a client connection with its servers - any number of callers, handlers and reconnects, any
batching on both sides, any fragmentation of what is on the way, answers in any order - the frame the response object of call `t`
got is one that a handler submitted in answer to the very frame of `t`, unchanged, on the transport connection on which `t` was
handled, and it is the first frame returned to the client with this id. (`t` is the only submission with its id, apart from resets: a
call without further frames of a stream.) -/
theorem C107 {c : CConf} {d : Bool} {acts : List EAct} {e : ESt} (hrun : eRun c d acts = some e) (hr : e.c.ridGen < 2 ^ 63)
    {fr : Nat → Frame} {served : Nat → List Frame} {frs : Nat → Nat → Frame} {cnt : Nat → Nat} {ret : Nat → List Frame}
    (hw : Wired e fr served frs cnt ret) {R : Frame → Frame → Prop} (hR : ∀ g, AnswerBy R (served g) (frs g) (cnt g))
    {t : Nat} {f : InFrame} (h : REv.frame f ∈ e.c.revs t)
    (huniq : ∀ (u : Nat) (fu ft : CFrame), e.c.frames[u]? = some fu → e.c.frames[t]? = some ft → fu.rid = ft.rid →
      u = t ∨ FrameFlag.isRst (fr u).flags = true) :
    ∃ g i k : Nat, k < cnt g ∧ (ret g)[i]? = some (frs g k) ∧ ((e.down g)[i]?).map Prod.fst = some f ∧ f = (frs g k).toIn ∧
      fr t ∈ served g ∧ R (fr t) (frs g k) ∧ FrameFlag.isRst (frs g k).flags = false ∧
      ∀ j < i, ∀ F, (ret g)[j]? = some F → FrameFlag.isPush F.flags = false → F.requestID ≠ (frs g k).requestID := by
  have hA := EAll.reach hrun
  obtain ⟨g, n, pre, post, ft, h1, -, h3, h4, h5, h6⟩ := C82 hrun hr h
  have hp : (e.down g)[pre.length]? = some (f, n) := by rw [h1]; simp
  obtain ⟨k, k1, k2, k3⟩ := wired_back hw hp
  simp only at k3
  have hresp : ft.resp = true := by
    have := (hA.i.c.regdLt t (hA.i.c.revs t (List.ne_nil_of_mem h))).2
    simpa [cframeOf, List.getD, h3] using this
  have hrid : (frs g k).requestID = f.rid := by rw [k3]; rfl
  have hpush : FrameFlag.isPush (frs g k).flags = false := by rw [← h5, k3]; rfl
  obtain ⟨u, fu, e1, e2, e3, e4⟩ := wired_answers hrun hw hR k1 hpush h3 hresp (by rw [hrid, h4])
  have := (huniq u fu ft e1 h3 e2).resolve_right (by rw [wired_served_not_rst hw e3]; decide)
  subst this
  refine ⟨g, pre.length, k, k1, k2, (congrArg _ hp).trans rfl, k3, e3, e4, wired_ret_not_rst hw (List.mem_of_getElem? k2), ?_⟩
  intro j hj F hF hFp
  have h7 : ((e.down g).map Prod.fst)[j]? = some F.toIn := by rw [hw.read g, List.getElem?_map, hF]; rfl
  rw [h1, List.map_append, List.getElem?_append_left (by simpa using hj), List.getElem?_map] at h7
  obtain ⟨q, h8, h9⟩ := Option.map_eq_some_iff.1 h7
  have := h6 q (List.mem_of_getElem? h8) (by rw [h9]; exact hFp)
  rw [h9] at this
  rw [hrid]
  exact this

/-- **C107, streams.** For a call with further frames of a stream: the frame it got answers a frame of that stream. -/
theorem C107_stream {c : CConf} {d : Bool} {acts : List EAct} {e : ESt} (hrun : eRun c d acts = some e) (hr : e.c.ridGen < 2 ^ 63)
    {fr : Nat → Frame} {served : Nat → List Frame} {frs : Nat → Nat → Frame} {cnt : Nat → Nat} {ret : Nat → List Frame}
    (hw : Wired e fr served frs cnt ret) {R : Frame → Frame → Prop} (hR : ∀ g, AnswerBy R (served g) (frs g) (cnt g))
    {t : Nat} {f : InFrame} (h : REv.frame f ∈ e.c.revs t) :
    ∃ (g i k u : Nat) (fu ft : CFrame), k < cnt g ∧ (ret g)[i]? = some (frs g k) ∧ ((e.down g)[i]?).map Prod.fst = some f ∧ f = (frs g k).toIn ∧
      e.c.frames[t]? = some ft ∧ e.c.frames[u]? = some fu ∧ fu.rid = ft.rid ∧ fr u ∈ served g ∧ R (fr u) (frs g k) := by
  have hA := EAll.reach hrun
  obtain ⟨g, n, pre, post, ft, h1, -, h3, h4, h5, h6⟩ := C82 hrun hr h
  have hp : (e.down g)[pre.length]? = some (f, n) := by rw [h1]; simp
  obtain ⟨k, k1, k2, k3⟩ := wired_back hw hp
  simp only at k3
  have hresp : ft.resp = true := by
    have := (hA.i.c.regdLt t (hA.i.c.revs t (List.ne_nil_of_mem h))).2
    simpa [cframeOf, List.getD, h3] using this
  have hrid : (frs g k).requestID = f.rid := by rw [k3]; rfl
  have hpush : FrameFlag.isPush (frs g k).flags = false := by rw [← h5, k3]; rfl
  obtain ⟨u, fu, e1, e2, e3, e4⟩ := wired_answers hrun hw hR k1 hpush h3 hresp (by rw [hrid, h4])
  exact ⟨g, pre.length, k, u, fu, ft, k1, k2, (congrArg _ hp).trans rfl, k3, h3, e1, e2, e3, e4⟩

/-- **C107, it gets the answer.** While the transport connection is up and the client has read all that was returned to it: a call written
on it for which a frame with its id was returned has got exactly one thing - the first such frame, which answers the frame of the
call. -/
theorem C107_gets {c : CConf} {d : Bool} {acts : List EAct} {e : ESt} (hrun : eRun c d acts = some e) (hr : e.c.ridGen < 2 ^ 63)
    {fr : Nat → Frame} {served : Nat → List Frame} {frs : Nat → Nat → Frame} {cnt : Nat → Nat} {ret : Nat → List Frame}
    (hw : Wired e fr served frs cnt ret) {R : Frame → Frame → Prop} (hR : ∀ g, AnswerBy R (served g) (frs g) (cnt g))
    (hup : e.c.rwc = true) (hrd : e.c.rd = .read) (hread : e.read e.c.gen = (e.down e.c.gen).length)
    {t : Nat} {ft : CFrame} (ht : t ∈ e.c.outs e.c.gen) (hf : e.c.frames[t]? = some ft) (hresp : ft.resp = true)
    (huniq : ∀ (u : Nat) (fu : CFrame), e.c.frames[u]? = some fu → fu.rid = ft.rid → u = t ∨ FrameFlag.isRst (fr u).flags = true)
    {F : Frame} (hF : F ∈ ret e.c.gen) (hFp : FrameFlag.isPush F.flags = false) (hFid : F.requestID = ft.rid) :
    ∃ k, k < cnt e.c.gen ∧ frs e.c.gen k ∈ ret e.c.gen ∧ (frs e.c.gen k).requestID = ft.rid ∧ fr t ∈ served e.c.gen ∧
      R (fr t) (frs e.c.gen k) ∧
      FrameFlag.isRst (frs e.c.gen k).flags = false ∧ e.c.revs t = [REv.frame (frs e.c.gen k).toIn] := by
  have h1 := C83 hrun hr hup hrd ht hf hresp
  rw [hread, List.take_of_length_le (by simp)] at h1
  cases hfa : firstAnswer ft.rid ((e.down e.c.gen).map Prod.fst) with
  | none =>
    exfalso
    have hm : F.toIn ∈ (e.down e.c.gen).map Prod.fst := by rw [hw.read]; exact List.mem_map.2 ⟨F, hF, rfl⟩
    exact firstAnswer_none hfa _ hm (by simp [Frame.toIn, hFp]) (by simp [Frame.toIn, hFid])
  | some f =>
    obtain ⟨hm, hp, hid⟩ := firstAnswer_mem hfa
    obtain ⟨q, hq, rfl⟩ := List.mem_map.1 hm
    obtain ⟨i, hi⟩ := List.getElem?_of_mem hq
    obtain ⟨k, k1, k2, k3⟩ := wired_back hw hi
    have hrid : (frs e.c.gen k).requestID = ft.rid := by rw [← hid, k3]; rfl
    obtain ⟨u, fu, e1, e2, e3, e4⟩ := wired_answers hrun hw hR k1 (by rw [← hp, k3]; rfl) hf hresp hrid
    have := (huniq u fu e1 e2).resolve_right (by rw [wired_served_not_rst hw e3]; decide)
    subst this
    have hn := wired_ret_not_rst hw (List.mem_of_getElem? k2)
    refine ⟨k, k1, List.mem_of_getElem? k2, hrid, e3, e4, hn, ?_⟩
    rw [h1, hfa, k3]
    simp [Frame.toIn, hn]

/-! ## An execution

Two calls, with the frames of `exLayouts`; the server reads both and starts a handler for each (`Serves_example`), the handlers
answer with the payload doubled, the second one first, and the caller gets the answers. -/

def rpcDouble (F r : Frame) : Prop := r.payload = F.payload ++ F.payload

def rpcAnswers : List Frame := [⟨5, 0, 2, [8, 9, 8, 9]⟩, ⟨3, 0, 1, [7, 7]⟩]

def rpcWire : Bytes := layout 5 2 0 [8, 9, 8, 9] ++ layout 3 1 0 [7, 7]

def rpcServer : List GAct :=
  [.call 0 ⟨layout 3 1 0 [7, 7], false, false, false, false⟩, .call 1 ⟨layout 5 2 0 [8, 9, 8, 9], false, false, false, false⟩,
   .enq 1, .enq 0, .lock 0, .go 0, .go 0, .deq 0 true true, .deq 0 true true, .go 0, .go 0,
   .write 0 38 true, .go 0, .recv 1, .go 0, .go 0, .go 0, .go 0, .go 0]

def rpcSrc : Src := ⟨[], [.data (rpcWire.take 18), .data (rpcWire.drop 18)]⟩

def rpcStreams : List SAct :=
  [.wstart 3 8 true, .wstep, .wstep, .wstep, .wstart 5 0 true, .wstep, .wstep, .wstep,
   .recv ⟨5, 0, 2, [8, 9, 8, 9]⟩, .rstep, .rstep, .rstep, .rstep, .rstep, .rstep, .rstep, .rstep, .rstep,
   .recv ⟨3, 0, 1, [7, 7]⟩, .rstep, .rstep]

def rpcClient : List EAct :=
  exLayouts.map .cl ++ [.cl .rGo, .cl .rGo, .sRead 1, .sRead 1, .sSend 1 (Frame.toIn ⟨5, 0, 2, [8, 9, 8, 9]⟩), .sSend 1 (Frame.toIn ⟨3, 0, 1, [7, 7]⟩),
    .recv, .cl .rGo, .cl .rGo, .recv, .cl .rGo, .cl .rGo]

def rpcFr : Nat → Frame
  | 0 => ⟨3, 8, 1, [7]⟩
  | _ => ⟨5, 0, 2, [8, 9]⟩

def rpcFrs : Nat → Nat → Frame
  | _, 0 => ⟨5, 0, 2, [8, 9, 8, 9]⟩
  | _, _ => ⟨3, 0, 1, [7, 7]⟩

theorem Serves_none (cfg : FrameReaderCfg) (wire : Bytes) : Serves cfg wire [] :=
  ⟨⟨[], []⟩, 0, [], [], SSt.init, ⟨0, 0, 0, false⟩, 0, [], _, List.nil_prefix, rfl, rfl, rfl, rfl, List.nil_prefix, rfl⟩

theorem okFrames_ok {r : Except FrameErr (List Frame)} {fs : List Frame} (h : okFrames r = some fs) : r = .ok fs := by
  cases r with
  | ok gs => simp only [okFrames, Option.some.injEq] at h; rw [h]
  | error e => simp [okFrames] at h

theorem Arrives_example : ∃ (gs : GSt), gRun 2 rpcServer = some gs ∧ gs.frames.map (·.bytes) = [layout 5 2 0 [8, 9, 8, 9], layout 3 1 0 [7, 7]] ∧
    Arrives ⟨0, none⟩ gs.wire rpcAnswers rpcAnswers := by
  have h1 : (gRun 2 rpcServer).map (fun s => (s.wire, s.frames.map (·.bytes))) =
      some (rpcWire, [layout 5 2 0 [8, 9, 8, 9], layout 3 1 0 [7, 7]]) := by decide +kernel
  have h2 : okFrames (readN ⟨0, none⟩ 2 rpcSrc).1 = some rpcAnswers := by decide +kernel
  have h3 : (sRun SSt.init rpcStreams).map (fun t => (t.recv, returned t.log)) = some (rpcAnswers, rpcAnswers) := by decide +kernel
  obtain ⟨gs, h4, h5⟩ := Option.map_eq_some_iff.1 h1
  obtain ⟨t, h6, h7⟩ := Option.map_eq_some_iff.1 h3
  simp only [Prod.mk.injEq] at h5 h7
  refine ⟨gs, h4, h5.2, rpcSrc, 2, rpcStreams, t, ?_, okFrames_ok h2, h6, h7.1, h7.2.symm⟩
  rw [h5.1]
  exact (by decide +kernel : srcBytes rpcSrc = rpcWire) ▸ List.prefix_refl _

/-- The hypotheses of C107, C107_stream and C107_gets hold in it (for both calls). -/
theorem rpc_example : ∃ e, eRun cfg2 true rpcClient = some e ∧ e.c.ridGen = 2 ∧
    Wired e rpcFr (fun g => if g = 1 then [⟨3, 8, 1, [7]⟩, ⟨5, 0, 2, [8, 9]⟩] else []) rpcFrs (fun g => if g = 1 then 2 else 0)
      (fun g => if g = 1 then rpcAnswers else []) ∧
    (∀ g, AnswerBy rpcDouble (if g = 1 then [⟨3, 8, 1, [7]⟩, ⟨5, 0, 2, [8, 9]⟩] else []) (rpcFrs g) (if g = 1 then 2 else 0)) ∧
    e.c.revs 0 = [.frame (Frame.toIn ⟨3, 0, 1, [7, 7]⟩)] ∧ e.c.revs 1 = [.frame (Frame.toIn ⟨5, 0, 2, [8, 9, 8, 9]⟩)] ∧
    e.c.frames.map (·.rid) = [3, 5] ∧ e.c.rwc = true ∧ e.c.rd = .read ∧ e.c.gen = 1 ∧ e.read 1 = (e.down 1).length ∧
    e.c.outs 1 = [0, 1] := by
  have h1 : (eRun cfg2 true rpcClient).map (fun e => (e.down, (e.c.frames.map fun f => (f.rid, f.bytes)), e.c.wires 1, e.c.ridGen)) =
      some (setAt (setAt (fun _ => []) 1 [(Frame.toIn ⟨5, 0, 2, [8, 9, 8, 9]⟩, 2)]) 1
        [(Frame.toIn ⟨5, 0, 2, [8, 9, 8, 9]⟩, 2), (Frame.toIn ⟨3, 0, 1, [7, 7]⟩, 2)],
        [(3, layout 3 1 8 [7]), (5, layout 5 2 0 [8, 9])], hTwo, 2) := by rfl
  have h2 : (eRun cfg2 true rpcClient).map (fun e => (e.c.revs 0, e.c.revs 1, e.c.rwc, decide (e.c.rd = .read), e.c.gen, e.read 1, e.c.outs 1)) =
      some ([.frame (Frame.toIn ⟨3, 0, 1, [7, 7]⟩)], [.frame (Frame.toIn ⟨5, 0, 2, [8, 9, 8, 9]⟩)], true, true, 1, 2, [0, 1]) := by rfl
  obtain ⟨e, h3, h4⟩ := Option.map_eq_some_iff.1 h1
  rw [h3] at h2
  simp only [Prod.mk.injEq, Option.map_some, Option.some.injEq, decide_eq_true_eq] at h2 h4
  obtain ⟨d1, d2, d3, d4⟩ := h4
  obtain ⟨r1, r2, r3, r4, r5, r6, r7⟩ := h2
  have hfr : ∀ (t : Nat) (f : CFrame), e.c.frames[t]? = some f →
      (t = 0 ∧ f.rid = 3 ∧ f.bytes = layout 3 1 8 [7]) ∨ (t = 1 ∧ f.rid = 5 ∧ f.bytes = layout 5 2 0 [8, 9]) := by
    intro t f ht
    have h5 : (e.c.frames.map fun f => (f.rid, f.bytes))[t]? = some (f.rid, f.bytes) := by rw [List.getElem?_map, ht]; rfl
    rw [d2] at h5
    match t, h5 with
    | 0, h5 => simp at h5; exact .inl ⟨rfl, h5.1.symm, h5.2.symm⟩
    | 1, h5 => simp at h5; exact .inr ⟨rfl, h5.1.symm, h5.2.symm⟩
    | t + 2, h5 => simp at h5
  obtain ⟨gs, g1, g2, g3⟩ := Arrives_example
  refine ⟨e, h3, d4, ⟨⟨fun _ => ⟨100, none⟩, ?_, ?_⟩, ?_, ?_, ?_⟩, ?_, r1, r2, ?_, r3, r4, r5, ?_, r7⟩
  · intro g t f ht
    rcases hfr t f ht with ⟨rfl, -, h⟩ | ⟨rfl, -, h⟩
    · rw [h]; show Encodes ⟨100, none⟩ _ _; exact ⟨1, [7], rfl, by decide, by decide, .inr (by decide), rfl⟩
    · rw [h]; show Encodes ⟨100, none⟩ _ _; exact ⟨2, [8, 9], rfl, by decide, by decide, .inr (by decide), rfl⟩
  · intro g
    split
    · next hg => subst hg; rw [d3]; exact Serves_example
    · exact Serves_none _ _
  · intro t f ht
    rcases hfr t f ht with ⟨rfl, h, -⟩ | ⟨rfl, h, -⟩ <;> rw [h] <;> rfl
  · intro g
    by_cases hg : g = 1
    · subst hg
      have hl := congrArg List.length g2
      simp only [List.length_map, List.length_cons, List.length_nil] at hl
      refine ⟨2, rpcServer, gs, ⟨0, none⟩, rpcAnswers, g1, hl, ?_, g3⟩
      intro k f hk
      have h5 : (gs.frames.map (·.bytes))[k]? = some f.bytes := by rw [List.getElem?_map, hk]; rfl
      rw [g2] at h5
      match k, h5 with
      | 0, h5 => simp at h5; rw [← h5]; exact ⟨2, [8, 9, 8, 9], rfl, by decide, by decide, .inl (by decide), rfl⟩
      | 1, h5 => simp at h5; rw [← h5]; exact ⟨1, [7, 7], rfl, by decide, by decide, .inl (by decide), rfl⟩
      | k + 2, h5 => simp at h5
    · simp only [hg, if_false]
      exact ⟨0, [], _, ⟨0, none⟩, [], rfl, rfl, by simp [GSt.init], ⟨[], []⟩, 0, [], SSt.init, List.nil_prefix, rfl, rfl, rfl, rfl⟩
  · intro g
    rw [d1]
    by_cases hg : g = 1
    · subst hg; rfl
    · simp [setAt, hg]
  · intro g k hk _ _
    by_cases hg : g = 1
    · subst hg
      match k, hk with
      | 0, _ => exact ⟨⟨5, 0, 2, [8, 9]⟩, by simp, rfl, rfl⟩
      | 1, _ => exact ⟨⟨3, 8, 1, [7]⟩, by simp, rfl, rfl⟩
    · simp [hg] at hk
  · have := congrArg (List.map Prod.fst) d2
    rw [List.map_map] at this
    exact this
  · rw [r6, d1]; rfl

end Qrpc
