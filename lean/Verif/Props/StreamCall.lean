import Verif.Props.CallLive
import Verif.Model.Readme
/-! # Property C130: a streamed call gets what the handler made of the whole stream

C127 for calls and answers of several frames, and the two streaming programs of README.md (`流式请求`, `流式响应`). -/
namespace Qrpc
open Spec

/-- The frames of stream `K` among the first `n` submissions. -/
def Spec.streamOf (fr : Nat → Frame) (n : Nat) (K : SKey) : List Frame := ((List.range n).map fr).filter fun f => decide (f.key = K)

/-- What handlers make of the requests of clients (odd ids), by `R`: the frames they submit for a stream that was handed over to them are
an answer to its frames. -/
def Spec.StreamAnswerBy (R : List Frame → List Frame → Prop) (ts : SSt) (frs : Nat → Frame) (n : Nat) : Prop :=
  ∀ K fs, K.2 = false → K.1 % 2 = 1 → fs ≠ [] → HandedOver ts K fs → R fs (streamOf frs n K)

theorem eq_of_sublist_of_mem {l l' : List Nat} (h : l'.Sublist l) (hn : l.Pairwise (· < ·)) (hm : ∀ x ∈ l, x ∈ l') : l' = l := by
  induction h with
  | slnil => rfl
  | cons x h ih =>
    exfalso
    have hx := hm x (by simp)
    have := (List.pairwise_cons.1 hn).1 x (h.mem hx)
    omega
  | cons_cons x h ih =>
    obtain ⟨h1, h2⟩ := List.pairwise_cons.1 hn
    congr 1
    refine ih h2 fun y hy => ?_
    have := hm y (by simp [hy])
    rcases List.mem_cons.1 this with rfl | h'
    · have := h1 y hy; omega
    · exact h'

theorem sublist_range {l : List Nat} (hpw : l.Pairwise (· < ·)) {n : Nat} (hlt : ∀ t ∈ l, t < n) : l.Sublist (List.range n) := by
  induction n generalizing l with
  | zero =>
    cases l with
    | nil => simp
    | cons a l => exact absurd (hlt a (by simp)) (by omega)
  | succ n ih =>
    rw [List.range_succ]
    rcases List.eq_nil_or_concat l with rfl | ⟨us, x, rfl⟩
    · simp
    · rw [List.concat_eq_append] at hpw hlt ⊢
      obtain ⟨p1, -, p3⟩ := List.pairwise_append.1 hpw
      have hx := hlt x (by simp)
      have hus : ∀ t ∈ us, t < x := fun t ht => p3 t ht x (by simp)
      by_cases hxn : x = n
      · subst hxn
        exact List.Sublist.append (ih p1 hus) (List.Sublist.refl _)
      · refine List.Sublist.trans (ih hpw ?_) (List.sublist_append_left _ _)
        intro t ht
        rcases List.mem_append.1 ht with ht | ht
        · have := hus t ht; omega
        · simp at ht; omega

/-- If everything of a stream was taken completely and nothing is held, the user has got all of it. -/
theorem handed_all {fr : Nat → Frame} {n : Nat} {ts us : List Nat} {t : SSt} {K : SKey} {fs : List Frame}
    (hpw : ts.Pairwise (· < ·)) (hlt : ∀ k ∈ ts, k < n) (h : HandedOver t K fs) (hh : held t = []) (he : fs ++ inHand t K = us.map fr)
    (hpre : us <+: ts.filter fun k => decide ((fr k).key = K)) (hall : ∀ k < n, (fr k).key = K → k ∈ us) :
    HandedOver t K (streamOf fr n K) := by
  have h0 : inHand t K = [] := by rw [inHand, hh]; rfl
  rw [h0, List.append_nil] at he
  have : us = (List.range n).filter fun k => decide ((fr k).key = K) := by
    refine eq_of_sublist_of_mem (hpre.sublist.trans ((sublist_range hpw hlt).filter _)) ?_ ?_
    · exact List.pairwise_lt_range.sublist List.filter_sublist
    · intro x hx
      obtain ⟨h1, h2⟩ := List.mem_filter.1 hx
      exact hall x (List.mem_range.1 h1) (by simpa using h2)
  rw [streamOf, List.filter_map]
  rw [he, this] at h
  exact h

/-- What `ReadFrame` returned for a key is the first frame handed over. -/
theorem returned_first {sacts : List SAct} {t : SSt} (hrun : sRun SSt.init sacts = some t) {K : SKey} {G : Frame} {rest : List Frame}
    (h : HandedOver t K (G :: rest)) {F : Frame} (hF : F ∈ returned t.log) (hk : F.key = K) : F = G := by
  obtain ⟨ev, he, h1⟩ := List.mem_filterMap.1 hF
  have hev : ∃ r, ev = .bound r F := by cases ev <;> simp_all
  obtain ⟨r, rfl⟩ := hev
  have h2 := ((SInv.reach hrun).d.ev _ he r F rfl rfl).2
  have h3 : (true, F) ∈ outs r t.log := List.mem_filterMap.2 ⟨_, he, by simp [streamOut]⟩
  rcases h with ⟨h, -⟩ | ⟨r', first, rest', h4, -, h5, h6⟩
  · cases h
  · cases h4
    by_cases hr : r = r'
    · subst hr
      rw [h5] at h3
      simpa using h3
    · rw [h6 r hr (by rw [← h2, hk])] at h3
      cases h3

/-- **C130.** A client connection that is up and its server are at rest, every handler that has finished answered, and handlers answer
by `R`. Then for every call all of whose frames were written successfully on this connection, with an answer all of whose frames were
written successfully - both without resets and without anything after their end -: the handler has got exactly the frames of the call,
in order; the frames it submitted for it are an answer to them by `R`; the call's response object has got exactly one thing, the first of
these; and its user has got exactly these frames, in order. -/
theorem C130 {c : CConf} {d : Bool} {acts : List EAct} {e : ESt} (hrun : eRun c d acts = some e) (hr : e.c.ridGen < 2 ^ 63)
    {fr frs : Nat → Frame} {ts tc : SSt} {rc : RConf} {u : RSt} {gs : GSt} (hq : RpcRest e fr frs ts tc rc u gs)
    (hans : Answered u gs frs) {R : List Frame → List Frame → Prop} (hR : StreamAnswerBy R ts frs gs.frames.length)
    {t : Nat} {ft : CFrame} (hf : e.c.frames[t]? = some ft) (hresp : ft.resp = true) (hpush : FrameFlag.isPush (fr t).flags = false)
    (hall : ∀ k < e.c.frames.length, (fr k).key = (ft.rid, false) → k ∈ e.c.outs e.c.gen ∧ (k, CRes.ok) ∈ e.c.rets)
    (halls : ∀ k < gs.frames.length, (frs k).key = (ft.rid, false) → (k, SRes.ok) ∈ gs.rets)
    (hwf : WellFormed (streamOf fr e.c.frames.length (ft.rid, false)))
    (hwfs : WellFormed (streamOf frs gs.frames.length (ft.rid, false))) :
    HandedOver ts (ft.rid, false) (streamOf fr e.c.frames.length (ft.rid, false)) ∧
    R (streamOf fr e.c.frames.length (ft.rid, false)) (streamOf frs gs.frames.length (ft.rid, false)) ∧
    HandedOver tc (ft.rid, false) (streamOf frs gs.frames.length (ft.rid, false)) ∧
    ∃ G rest, streamOf frs gs.frames.length (ft.rid, false) = G :: rest ∧ e.c.revs t = [REv.frame G.toIn] := by
  obtain ⟨cacts, hc⟩ := eRun_client hrun
  have hW := CInvW.reach hc
  have hA := (CInv.reach hc).a
  have hlt : ∀ g, ∀ t ∈ e.c.outs g, t < e.c.frames.length := fun g t ht => Nat.lt_of_lt_of_le (hW.lt g t ht) hA.deq
  have hkey : (fr t).key = (ft.rid, false) := Prod.ext (hq.ids t ft hf).symm hpush
  have htl : t < e.c.frames.length := (List.getElem?_eq_some_iff.1 hf).1
  obtain ⟨ht, hok⟩ := hall t htl hkey
  obtain ⟨-, -, j, -, -, -, -, -, hj, hjk, hrev⟩ := C127 hrun hr hq hans ht hok hf hresp hpush hwf hwfs
  -- there
  obtain ⟨cfg, henc, hthere⟩ := hq.there
  have hpre : e.c.wires e.c.gen <+: ((e.c.outs e.c.gen).filterMap fun t => (e.c.frames[t]?).map (·.bytes)).flatten := by
    have := hW.pre e.c.gen
    rw [cflat_eq_frames (hlt e.c.gen)] at this
    exact this
  obtain ⟨fs, us, h1, h2, h3, -, h4⟩ := stream_core (hW.sorted e.c.gen) (hlt e.c.gen)
    (fun t ht => ⟨e.c.frames[t]'(hlt _ t ht) |>.bytes, by simp [List.getElem?_eq_getElem (hlt _ t ht)],
      henc t _ (List.getElem?_eq_getElem (hlt _ t ht))⟩) hpre hwf hthere
  have hts : HandedOver ts (ft.rid, false) (streamOf fr e.c.frames.length (ft.rid, false)) := by
    refine handed_all (hW.sorted _) (hlt _) h1 hq.idleS h2 h3 fun k hk hkk => ?_
    obtain ⟨hko, hkr⟩ := hall k hk hkk
    obtain ⟨g, pre, post, e1, e2⟩ := (took_iff hA hW k).2 (hW.okRets k hkr)
    have hg : g = e.c.gen := hW.disj g e.c.gen k (by rw [e1]; simp) hko
    subst hg
    exact h4 trivial pre k post e1 e2 hkk
  have hne : streamOf fr e.c.frames.length (ft.rid, false) ≠ [] := by
    refine List.ne_nil_of_mem (a := fr t) (List.mem_filter.2 ⟨List.mem_map.2 ⟨t, List.mem_range.2 htl, rfl⟩, by simpa using hkey⟩)
  obtain ⟨m, -, -, hm⟩ := (EAll.reach hrun).i.i.inFrames ft (List.mem_of_getElem? hf) hresp
  have hodd : ft.rid % 2 = 1 := by rw [hm]; exact (C20_parity m 0).1
  -- back
  obtain ⟨cap, gacts, cfg', hg, hencS, hback⟩ := hq.back
  obtain ⟨ws, hws1, hws2, -, h5⟩ := C93_server hg cfg' frs hencS
  obtain ⟨fs', us', k1, k2, k3, -, k4⟩ := h5 (ft.rid, false) tc True hwfs hback
  have htc : HandedOver tc (ft.rid, false) (streamOf frs gs.frames.length (ft.rid, false)) :=
    handed_all hws1 hws2 k1 hq.idleC k2 k3 fun k hk hkk => k4 trivial k (halls k hk hkk) hkk
  refine ⟨hts, hR _ _ rfl hodd hne hts, htc, ?_⟩
  cases hG : streamOf frs gs.frames.length (ft.rid, false) with
  | nil =>
    exfalso
    have : frs j ∈ streamOf frs gs.frames.length (ft.rid, false) :=
      List.mem_filter.2 ⟨List.mem_map.2 ⟨j, List.mem_range.2 hj, rfl⟩, by simpa using hjk⟩
    rw [hG] at this
    cases this
  | cons G rest =>
    refine ⟨G, rest, rfl, ?_⟩
    have h6 := C83 hrun hr hq.up hq.rd ht hf hresp
    rw [hq.read, List.take_of_length_le (by simp), hq.down, hrev] at h6
    obtain ⟨src, n, sacts, b1, b2, b3, -⟩ := hback.data
    cases hfa : firstAnswer ft.rid ((returned tc.log).map Frame.toIn) with
    | none => rw [hfa] at h6; simp at h6
    | some f =>
      obtain ⟨q1, q2, q3⟩ := firstAnswer_mem hfa
      obtain ⟨H, q4, rfl⟩ := List.mem_map.1 q1
      rw [hG] at htc
      have := returned_first b3 htc q4 (Prod.ext q3 q2)
      subst this
      rw [hrev, h6, hfa]
      simp [Frame.toIn, returned_not_rst b3 q4]

/-! ## The programs of README.md -/

/-- What the example of `流式请求` is to answer: one frame, with the payloads of all frames in order. -/
def Spec.collected : List Frame → List Frame
  | [] => []
  | first :: rest =>
    [⟨first.requestID, 0, 1, txt "first frame " ++ first.payload ++ (rest.map fun f => txt " continue frame " ++ f.payload).flatten⟩]

/-- What the example of `流式响应` is to answer: a frame for each frame, the last one ending the stream. -/
def Spec.echoed : List Frame → List Frame
  | [] => []
  | first :: rest =>
    ⟨first.requestID, StreamFlag, 1, txt "first frame " ++ first.payload⟩ ::
      rest.map fun f => ⟨first.requestID, if FrameFlag.isDone f.flags then StreamEndFlag else StreamFlag, 1, txt " continue frame " ++ f.payload⟩

theorem writeFrame_encodes {ε : Type} (codec : Option Codec) (write : DFW → Option ε) {d : DFW} (hd : d.Clean) (id : UInt64) (flags : FrameFlag)
    (hfl : FrameFlag.isCodec flags = false) (chunks : List Bytes) (cfg : FrameReaderCfg)
    (hsize : 12 + chunks.flatten.length < 2 ^ 32) (hadm : Admits cfg (12 + chunks.flatten.length)) :
    ∃ sub, ((chunks.foldl DFW.writeBytes (d.startWrite id helloRespCmd flags)).endWrite codec write).submitted = some sub ∧
      Encodes cfg sub.wbuf ⟨id, flags, 1, chunks.flatten⟩ ∧
      ((chunks.foldl DFW.writeBytes (d.startWrite id helloRespCmd flags)).endWrite codec write).dfw.Clean := by
  have hlen : 16 ≤ d.wbuf.length := by unfold DFW.Clean at hd; omega
  obtain ⟨h1, h2⟩ := foldl_writeBytes (DFW.startWrite_holds d id helloRespCmd flags hlen) chunks
  rw [DFW.startWrite_payload d _ _ _ hlen, hd.payload_nil, List.nil_append] at h2
  have hs : ∃ f' p', sentAs codec flags (chunks.foldl DFW.writeBytes (d.startWrite id helloRespCmd flags)).payload = .ok (f', p') := by
    unfold sentAs
    split
    · exact ⟨_, _, rfl⟩
    · rw [hfl]; exact ⟨_, _, rfl⟩
  obtain ⟨f', p', hs⟩ := hs
  obtain ⟨sub, e1, e2, -, -, -, e3, e4⟩ := endWrite_ok h1 codec write hs
  refine ⟨sub, e1, ?_, Holds_clean e3 e4⟩
  exact C84_encodes codec write d hd ⟨id, helloRespCmd, flags, chunks⟩ sub e1
    (by show flags.toNat.testBit 5 = false; rw [← isCodec_testBit]; exact hfl) cfg hsize hadm

/-- **C130, README `流式请求`.** Called with a writer ready for a frame, the handler submits exactly what it is to answer. -/
theorem C130_collect {ε : Type} (codec : Option Codec) (write : DFW → Option ε) {d : DFW} (hd : d.Clean) (first : Frame) (rest : List Frame)
    (cfg : FrameReaderCfg) {G : Frame} (hG : collected (first :: rest) = [G]) (hsize : 12 + G.payload.length < 2 ^ 32)
    (hadm : Admits cfg (12 + G.payload.length)) :
    ∃ sub, ((readmeCollect d first rest).endWrite codec write).submitted = some sub ∧ Encodes cfg sub.wbuf G ∧
      ((readmeCollect d first rest).endWrite codec write).dfw.Clean := by
  have hp : readmeCollect d first rest = ((txt "first frame " ++ first.payload) :: rest.map fun f => txt " continue frame " ++ f.payload).foldl
      DFW.writeBytes (d.startWrite first.requestID helloRespCmd 0) := by
    simp only [readmeCollect, List.foldl_cons, List.foldl_map]
  simp only [collected, List.cons.injEq, and_true] at hG
  subst hG
  rw [hp]
  have := writeFrame_encodes codec write hd first.requestID 0 (by decide)
    ((txt "first frame " ++ first.payload) :: rest.map fun f => txt " continue frame " ++ f.payload) cfg
    (by simpa [List.flatten_cons] using hsize) (by simpa [List.flatten_cons] using hadm)
  simpa [List.flatten_cons] using this

/-- **C130, README `流式响应`.** Called with a writer ready for a frame, the handler submits exactly the frames it is to answer, in order; ... -/
theorem C130_echo {ε : Type} (codec : Option Codec) (write : DFW → Option ε) {d : DFW} (hd : d.Clean) (first : Frame) (rest : List Frame)
    (cfg : FrameReaderCfg) (hsize : ∀ G ∈ echoed (first :: rest), 12 + G.payload.length < 2 ^ 32 ∧ Admits cfg (12 + G.payload.length)) :
    EncodesAll cfg (readmeEcho codec write d first rest) (echoed (first :: rest)) := by
  have hgo : ∀ (rest : List Frame) (d : DFW), d.Clean →
      (∀ f ∈ rest, 12 + (txt " continue frame " ++ f.payload).length < 2 ^ 32 ∧ Admits cfg (12 + (txt " continue frame " ++ f.payload).length)) →
      EncodesAll cfg (readmeEchoRest codec write first.requestID d rest) (rest.map fun f =>
        ⟨first.requestID, if FrameFlag.isDone f.flags then StreamEndFlag else StreamFlag, 1, txt " continue frame " ++ f.payload⟩) := by
    intro rest
    induction rest with
    | nil => intro d _ _; exact .nil
    | cons f rest ih =>
      intro d hd hs
      obtain ⟨s1, s2⟩ := hs f (by simp)
      obtain ⟨sub, e1, e2, e3⟩ := writeFrame_encodes codec write hd first.requestID
        (if FrameFlag.isDone f.flags then StreamEndFlag else StreamFlag) (by split <;> decide) [txt " continue frame " ++ f.payload] cfg
        (by simpa using s1) (by simpa using s2)
      simp only [List.foldl_cons, List.foldl_nil, List.flatten_cons, List.flatten_nil, List.append_nil] at e1 e2 e3
      simp only [readmeEchoRest, e1, Option.toList_some, List.map_cons, List.map_nil, List.cons_append, List.nil_append]
      exact .cons e2 (ih _ e3 fun f' hf' => hs f' (by simp [hf']))
  obtain ⟨s1, s2⟩ := hsize ⟨first.requestID, StreamFlag, 1, txt "first frame " ++ first.payload⟩ (by simp [echoed])
  obtain ⟨sub, e1, e2, e3⟩ := writeFrame_encodes codec write hd first.requestID StreamFlag (by decide) [txt "first frame " ++ first.payload] cfg
    (by simpa using s1) (by simpa using s2)
  simp only [List.foldl_cons, List.foldl_nil, List.flatten_cons, List.flatten_nil, List.append_nil] at e1 e2 e3
  simp only [readmeEcho, e1, Option.toList_some, List.map_cons, List.map_nil, List.cons_append, List.nil_append, echoed]
  refine .cons e2 (hgo rest _ e3 fun f hf => ?_)
  exact hsize ⟨first.requestID, if FrameFlag.isDone f.flags then StreamEndFlag else StreamFlag, 1, txt " continue frame " ++ f.payload⟩
    (by simp only [echoed, List.mem_cons, List.mem_map]; exact .inr ⟨f, hf, rfl⟩)

/-- ... and these form a proper stream that ends when the request's does: the answer to a well-formed stream of at least two frames is
well formed, and its last frame ends it just in case the last one of the request does. -/
theorem C130_echo_ends {first l : Frame} {rest : List Frame} (hwf : WellFormed (first :: (rest ++ [l]))) :
    WellFormed (echoed (first :: (rest ++ [l]))) ∧
    ∃ es E, echoed (first :: (rest ++ [l])) = es ++ [E] ∧ FrameFlag.isDone E.flags = FrameFlag.isDone l.flags := by
  have hdl : (first :: (rest ++ [l])).dropLast = first :: rest := by
    rw [← List.cons_append, List.dropLast_concat]
  obtain ⟨-, h2⟩ := hwf
  rw [hdl] at h2
  have hfl : ∀ b : Bool, FrameFlag.isDone (if b = true then StreamEndFlag else StreamFlag) = b := by decide
  have he : echoed (first :: (rest ++ [l])) = (⟨first.requestID, StreamFlag, 1, txt "first frame " ++ first.payload⟩ ::
      rest.map fun f => ⟨first.requestID, if FrameFlag.isDone f.flags then StreamEndFlag else StreamFlag, 1, txt " continue frame " ++ f.payload⟩) ++
      [⟨first.requestID, if FrameFlag.isDone l.flags then StreamEndFlag else StreamFlag, 1, txt " continue frame " ++ l.payload⟩] := by
    simp [echoed]
  refine ⟨⟨?_, ?_⟩, _, _, he, hfl _⟩
  · intro f hf
    rw [echoed] at hf
    rcases List.mem_cons.1 hf with rfl | hf
    · exact (by decide : FrameFlag.isRst StreamFlag = false)
    · obtain ⟨g, -, rfl⟩ := List.mem_map.1 hf
      simp only
      split <;> decide
  · rw [he, List.dropLast_concat]
    intro f hf
    rcases List.mem_cons.1 hf with rfl | hf
    · exact (by decide : FrameFlag.isDone StreamFlag = false)
    · obtain ⟨g, hg, rfl⟩ := List.mem_map.1 hf
      rw [hfl]
      exact h2 g (by simp [hg])

/-- A request of at least two frames, and what is to be answered to it. -/
example : WellFormed [⟨3, StreamFlag, 1, [1]⟩, ⟨3, StreamFlag ||| StreamEndFlag, 1, [2, 3]⟩] ∧
    (echoed [⟨3, StreamFlag, 1, [1]⟩, ⟨3, StreamFlag ||| StreamEndFlag, 1, [2, 3]⟩]).map (fun f => (f.requestID, f.flags, f.payload.length)) =
      [(3, StreamFlag, 13), (3, StreamEndFlag, 18)] := by
  unfold WellFormed; decide +kernel

/-- For a request that is not a stream, README's handler leaves the stream of its answer open: C130_echo_ends needs two frames. -/
example : FrameFlag.isDone (0 : FrameFlag) = true ∧ (echoed [⟨3, 0, 1, [1]⟩]).map (fun f => FrameFlag.isDone f.flags) = [false] := by
  decide +kernel

/-! ## An execution at rest

A call of two frames on connection 1, to the handler of README's `流式请求`. -/

def strReq : Nat → Frame
  | 0 => ⟨3, StreamFlag, 1, [1]⟩
  | _ => ⟨3, StreamFlag ||| StreamEndFlag, 1, [2, 3]⟩

def strAns : Frame := ⟨3, 0, 1, txt "first frame " ++ [1] ++ (txt " continue frame " ++ [2, 3])⟩

def strClient : List EAct :=
  exE2EClient.map .cl ++ [.cl .rGo, .cl .rGo, .sRead 1, .sSend 1 strAns.toIn, .recv, .cl .rGo, .cl .rGo]

def strDispatch : List RAct :=
  [.rFrame (strReq 0).toR, .rSend, .mGo, .mGo, .rGo, .rGo, .hFinal 0, .hEnd 0, .hDec 0, .hTest 0]

def strTo : List SAct :=
  [.recv (strReq 0), .rstep, .rstep, .recv (strReq 1), .rstep, .rstep, .consume, .rstep, .rstep, .rstep, .rstep]

def strBack : List SAct :=
  [.wstart 3 StreamFlag true, .wstep, .wstart 3 (StreamFlag ||| StreamEndFlag) false, .wstep, .wstep, .wstep, .recv strAns, .rstep, .rstep,
   .rstep, .rstep, .rstep, .rstep, .rstep, .rstep, .rstep]

def strServer : List GAct :=
  [.call 0 ⟨layout 3 1 0 strAns.payload, false, false, false, false⟩, .enq 0, .lock 0, .go 0, .go 0, .deq 0 true true, .go 0, .go 0,
   .write 0 47 true, .go 0, .go 0, .go 0, .go 0, .go 0]

def strSrc : Src := ⟨[], [.data (layout 3 1 StreamFlag [1]), .data (layout 3 1 (StreamFlag ||| StreamEndFlag) [2, 3])]⟩

def strBackSrc : Src := ⟨[], [.data ((layout 3 1 0 strAns.payload).take 20), .data ((layout 3 1 0 strAns.payload).drop 20)]⟩

theorem strDispatch_served : ∀ u, rdRun ⟨0, 0, 0, false⟩ 0 strDispatch = some u → u.Served ⟨0, 0, 0, false⟩ := by
  intro s hs
  have h1 : s = (rdRun ⟨0, 0, 0, false⟩ 0 strDispatch).getD (RSt.init 0) := by rw [hs]; rfl
  have hr : s.rd = .read := by rw [h1]; rfl
  have hm : s.main = .select := by rw [h1]; rfl
  have hc : s.ch = [] := by rw [h1]; rfl
  have hx : s.ctx = false := by rw [h1]; rfl
  have hl : s.running = [] ∧ s.ending = [] ∧ s.cleaning = [] ∧ s.resetting = [] := by rw [h1]; exact ⟨rfl, rfl, rfl, rfl⟩
  clear hs h1
  intro a ha
  cases a <;> simp_all [RAct.serving, rdStep]

/-- All hypotheses of C130 hold in it, with the answer README's handler is to give. -/
theorem str_example : ∃ e ts tc u gs, eRun cfg2 true strClient = some e ∧ e.c.ridGen = 1 ∧
    RpcRest e strReq (fun _ => strAns) ts tc ⟨0, 0, 0, false⟩ u gs ∧ Answered u gs (fun _ => strAns) ∧
    StreamAnswerBy (fun fs gs => gs = collected fs) ts (fun _ => strAns) gs.frames.length ∧
    e.c.outs e.c.gen = [0, 1] ∧ e.c.rets = [(0, .ok), (1, .ok)] ∧ e.c.frames.map (fun f => (f.rid, f.resp)) = [(3, true), (3, false)] ∧
    gs.frames.length = 1 ∧ gs.rets = [(0, .ok)] := by
  have h1 : (eRun cfg2 true strClient).map (fun e => (e.down 1, (e.c.frames.map fun f => (f.rid, f.bytes)), e.c.wires 1, e.c.ridGen)) =
      some ([(strAns.toIn, 1)], [(3, layout 3 1 StreamFlag [1]), (3, layout 3 1 (StreamFlag ||| StreamEndFlag) [2, 3])],
        layout 3 1 StreamFlag [1] ++ layout 3 1 (StreamFlag ||| StreamEndFlag) [2, 3], 1) := by rfl
  have h2 : (eRun cfg2 true strClient).map (fun e => (e.c.rwc, decide (e.c.rd = .read), e.c.gen, e.read 1, e.c.outs 1, e.c.rets,
        e.c.frames.map (fun f => (f.rid, f.resp)))) =
      some (true, true, 1, 1, [0, 1], [(0, .ok), (1, .ok)], [(3, true), (3, false)]) := by rfl
  obtain ⟨e, h3, h4⟩ := Option.map_eq_some_iff.1 h1
  rw [h3] at h2
  simp only [Prod.mk.injEq, Option.map_some, Option.some.injEq, decide_eq_true_eq] at h2 h4
  obtain ⟨d1, d2, d3, d4⟩ := h4
  obtain ⟨r1, r2, r3, r4, r5, r6, r7⟩ := h2
  have s1 : (sRun SSt.init strTo).map (fun t => (t.recv, returned t.log, held t, t.connCancelled)) =
      some ([strReq 0, strReq 1], [strReq 0], [], false) := by decide +kernel
  have s4 : (sRun SSt.init strTo).map (fun t => (t.log.filter fun ev => match ev with | .bound .. | .delivered .. => true | _ => false,
        (t.str 0).key)) = some ([.bound 0 (strReq 0), .delivered 0 (strReq 1)], (3, false)) := by decide +kernel
  obtain ⟨ts, s2, s3⟩ := Option.map_eq_some_iff.1 s1
  rw [s2] at s4
  simp only [Option.map_some, Option.some.injEq, Prod.mk.injEq] at s4
  have c1 : (sRun SSt.init strBack).map (fun t => (t.recv, returned t.log, held t, t.connCancelled)) =
      some ([strAns], [strAns], [], false) := by decide +kernel
  obtain ⟨tc, c2, c3⟩ := Option.map_eq_some_iff.1 c1
  have u1 : (rdRun ⟨0, 0, 0, false⟩ 0 strDispatch).map (fun u => (u.arr.map Prod.fst, u.finished, u.throttled, u.ctx)) =
      some ([(strReq 0).toR], [0], false, false) := by decide +kernel
  obtain ⟨u, u2, u3⟩ := Option.map_eq_some_iff.1 u1
  have g1 : (gRun 2 strServer).map (fun s => (s.wire, s.frames.map (·.bytes), s.rets)) =
      some (layout 3 1 0 strAns.payload, [layout 3 1 0 strAns.payload], [(0, .ok)]) := by decide +kernel
  obtain ⟨gs, g2, g3⟩ := Option.map_eq_some_iff.1 g1
  simp only [Prod.mk.injEq] at s3 c3 u3 g3
  have hlen : gs.frames.length = 1 := by simpa using congrArg List.length g3.2.1
  have n1 : okFrames (readN ⟨100, none⟩ 2 strSrc).1 = some [strReq 0, strReq 1] := by decide +kernel
  have n2 : okFrames (readN ⟨0, none⟩ 1 strBackSrc).1 = some [strAns] := by decide +kernel
  have err : ∀ {r : Except FrameErr (List Frame)}, okFrames r = none → ∃ err, r = .error err := by
    intro r h
    cases r with
    | ok fs => simp [okFrames] at h
    | error e => exact ⟨e, rfl⟩
  refine ⟨e, ts, tc, u, gs, h3, d4, ⟨⟨⟨100, none⟩, ?_, ?_⟩, ?_, s3.2.2.1, ⟨0, strDispatch, u2, strDispatch_served u u2, u3.2.2.1, u3.2.2.2⟩, ?_,
    ⟨2, strServer, ⟨0, none⟩, g2, ?_, ?_⟩, c3.2.2.1, ?_, r1, r2, ?_⟩, ?_, ?_, by rw [r3]; exact r5, r6, r7, hlen, g3.2.2⟩
  · intro t f ht
    have h5 : (e.c.frames.map fun f => (f.rid, f.bytes))[t]? = some (f.rid, f.bytes) := by rw [List.getElem?_map, ht]; rfl
    rw [d2] at h5
    match t, h5 with
    | 0, h5 => simp at h5; rw [← h5.2]; exact ⟨1, [1], rfl, by decide, by decide, .inr (by decide), rfl⟩
    | 1, h5 => simp at h5; rw [← h5.2]; exact ⟨1, [2, 3], rfl, by decide, by decide, .inr (by decide), rfl⟩
    | t + 2, h5 => simp at h5
  · rw [r3, d3]
    refine ⟨⟨strSrc, 2, strTo, ?_, ?_, s2, fun _ => ⟨by decide +kernel, err (by decide +kernel)⟩⟩, s3.2.2.2⟩
    · exact (by decide +kernel : srcBytes strSrc = layout 3 1 StreamFlag [1] ++ layout 3 1 (StreamFlag ||| StreamEndFlag) [2, 3]) ▸ List.prefix_refl _
    · rw [okFrames_ok n1, s3.1]
  · intro t f ht
    have h5 : (e.c.frames.map fun f => (f.rid, f.bytes))[t]? = some (f.rid, f.bytes) := by rw [List.getElem?_map, ht]; rfl
    rw [d2] at h5
    match t, h5 with
    | 0, h5 => simp at h5; rw [← h5.1]; rfl
    | 1, h5 => simp at h5; rw [← h5.1]; rfl
    | t + 2, h5 => simp at h5
  · rw [u3.1, s3.2.1]; rfl
  · intro k f hk
    have h5 : (gs.frames.map (·.bytes))[k]? = some f.bytes := by rw [List.getElem?_map, hk]; rfl
    rw [g3.2.1] at h5
    match k, h5 with
    | 0, h5 => simp at h5; rw [← h5]; exact ⟨1, strAns.payload, rfl, by decide, by decide +kernel, .inl (by decide), rfl⟩
    | k + 1, h5 => simp at h5
  · rw [g3.1]
    refine ⟨⟨strBackSrc, 1, strBack, (by decide +kernel : srcBytes strBackSrc = layout 3 1 0 strAns.payload) ▸ List.prefix_refl _, ?_, c2, fun _ =>
      ⟨by decide +kernel, err (by decide +kernel)⟩⟩, c3.2.2.2⟩
    rw [okFrames_ok n2, c3.1]
  · rw [r3, d1, c3.2.1]; rfl
  · rw [r3, r4, d1]; rfl
  · intro k hk
    rw [u3.2.1] at hk
    have hfa : ∀ k, frameAt u.arr k = ((u.arr.map Prod.fst)[k]?).getD ⟨0, false, false⟩ := by
      intro k
      rw [List.getElem?_map]
      simp only [frameAt, List.getD]
      cases u.arr[k]? <;> rfl
    rw [hfa, u3.1, g3.2.2]
    simp only [List.mem_cons, List.not_mem_nil, or_false] at hk
    subst hk
    exact ⟨0, by simp, by decide⟩
  · have ho : ∀ r, outs r ts.log = if r = 0 then [(true, strReq 0), (false, strReq 1)] else [] := by
      intro r
      have hfil : ∀ l : List SEv, outs r l = outs r (l.filter fun ev => match ev with | .bound .. | .delivered .. => true | _ => false) := by
        intro l
        induction l with
        | nil => rfl
        | cons ev l ih => cases ev <;> simp_all [outs, List.filterMap_cons, streamOut]
      rw [hfil, s4.1]
      by_cases hr : r = 0
      · subst hr; rfl
      · have hr' : ¬ 0 = r := fun h => hr h.symm
        simp [outs, streamOut, hr, hr']
    intro K fs hK1 hK2 hne hh
    rcases hh with ⟨h, -⟩ | ⟨r, first, rest, rfl, hk, hx, -⟩
    · exact absurd h hne
    · rw [ho r] at hx
      split at hx
      · next hr =>
        subst hr
        rw [s4.2] at hk
        subst hk
        rw [hlen]
        simp only [List.cons.injEq, Prod.mk.injEq, true_and] at hx
        obtain ⟨rfl, hx⟩ := hx
        have hrest : rest = [strReq 1] := by
          match rest, hx with
          | [f], hx => simp at hx; rw [hx]
        subst hrest
        decide +kernel
      · cases hx

example : (∀ k < 2, (strReq k).key = (3, false)) ∧ WellFormed (streamOf strReq 2 (3, false)) ∧ WellFormed (streamOf (fun _ => strAns) 1 (3, false)) := by
  unfold WellFormed; decide +kernel

end Qrpc
