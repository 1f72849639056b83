import Verif.Lemmas.ServerCall
import Verif.Props.Rpc
import Verif.Props.ServeResp
/-! # Property C109: a call of the server gets what the client's handler answered

The other direction of C82, C83 and C107: a server connection calls `Request` or `StreamRequest`, the client's handler answers. -/
namespace Qrpc
open Spec

/-- **C109, whose answer.** In every execution of a server connection with its client - any number of requesters and closers, answers in any
order, late, repeated or missing -, the frame the response object of request `t` got is one that the client wrote with the id of the
request, after it had read the request `t` itself, and it is the first such frame. -/
theorem C109_belongs {acts : List UAct} {u : USt} (hrun : uRun acts = some u) (hr : u.v.ridGen < 2 ^ 63) {t : Nat} {f : InFrame}
    (h : REv.frame f ∈ u.v.revs t) :
    ∃ pre n post fr, u.up = pre ++ (f, n) :: post ∧ t ∈ u.got.take n ∧ u.v.reqs[t]? = some fr ∧ f.rid = fr.rid ∧ f.push = false ∧
      ∀ p ∈ pre, p.1.push = false → p.1.rid ≠ f.rid := by
  have hA := UAll.reach hrun
  obtain ⟨-, pre, n, post, h1, -, h3, h4, h5, h6⟩ := (hA.i hr).ans t f h
  have htl := hA.v.a.takenLt t (hA.v.a.regd t ((hA.i hr).gotRegd t (List.mem_of_mem_take h5)))
  have htl' : t < u.v.reqs.length := hA.v.a.len ▸ htl
  refine ⟨pre, n, post, u.v.reqs[t], h1, h5, List.getElem?_eq_getElem htl', ?_, h3, h6⟩
  rw [h4, ← hA.v.a.rid t htl]; simp [cframeOf, List.getD, List.getElem?_eq_getElem htl']

/-- **C109, no answer is lost.** As long as the connection is not closed, whenever the reader is about to read: the response object of every
request that was sent has got exactly the first answer among the frames read, and nothing if there is none. -/
theorem C109_first {acts : List UAct} {u : USt} (hrun : uRun acts = some u) (hr : u.v.ridGen < 2 ^ 63) (hop : u.v.closed = false)
    (hrd : u.v.rd = .read) {t : Nat} (ht : t ∈ u.v.regd) :
    u.v.revs t = match firstAnswer (serverRid (t + 1)) ((u.up.map Prod.fst).take u.read) with
      | none => []
      | some f => [if f.rst then REv.closed else REv.frame f] := by
  have hA := UAll.reach hrun
  have hI := hA.i hr
  have hd : u.done = u.read := by simp [USt.done, hrd, VRd.looking]
  have first : ∀ f, UFirst u.up u.got u.done t f →
      firstAnswer (serverRid (t + 1)) ((u.up.map Prod.fst).take u.read) = some f := by
    rintro f ⟨pre, n, post, h1, h2, h3, h4, h5, h6⟩
    rw [hd] at h2
    refine firstAnswer_some (pre.map Prod.fst) ((post.map Prod.fst).take (u.read - pre.length - 1)) ?_ h3 h4 ?_
    · rw [h1, List.map_append, List.take_append, List.take_of_length_le (by simpa using Nat.le_of_lt h2)]
      obtain ⟨k, hk⟩ : ∃ k, u.read - pre.length = k + 1 := ⟨u.read - pre.length - 1, by omega⟩
      simp [hk]
    · intro p hp hpush hid
      obtain ⟨q, hq, rfl⟩ := List.mem_map.1 hp
      exact h6 q hq hpush (by rw [hid, h4])
  cases hfa : firstAnswer (serverRid (t + 1)) ((u.up.map Prod.fst).take u.read) with
  | none =>
    simp only []
    apply Classical.byContradiction
    intro hne
    obtain ⟨x, hx⟩ := List.exists_mem_of_ne_nil _ hne
    cases x with
    | frame f => rw [first f (hI.ans t f hx).2] at hfa; cases hfa
    | closed => obtain ⟨f, -, h⟩ := hI.clos hop t hx; rw [first f h] at hfa; cases hfa
  | some f =>
    simp only []
    obtain ⟨hm, hp, hid⟩ := firstAnswer_mem hfa
    rw [← List.map_take] at hm
    obtain ⟨q, hq, rfl⟩ := List.mem_map.1 hm
    have hne : u.v.revs t ≠ [] := by
      rcases hI.lost hop q (by rw [hd]; exact hq) hp t ht hid with h | ⟨f', h⟩
      · exact h
      · rw [hrd] at h; cases h
    have hlen := hA.v.c.len t
    match hl : u.v.revs t, hlen, hne with
    | [.frame f], _, _ =>
      obtain ⟨h0, h1⟩ := hI.ans t f (by simp [hl])
      rw [first f h1] at hfa; cases hfa; simp [h0]
    | [.closed], _, _ =>
      obtain ⟨f, h0, h1⟩ := hI.clos hop t (by simp [hl])
      rw [first f h1] at hfa; cases hfa; simp [h0]

/-- **C109, answers are not requests.** As long as the connection is not closed, a frame with an even id that the server takes for a request of
the client is a further answer: the client had written one with the same id before. -/
theorem C109_dispatched {acts : List UAct} {u : USt} (hrun : uRun acts = some u) (hr : u.v.ridGen < 2 ^ 63) (hop : u.v.closed = false)
    {f : InFrame} (h : f ∈ u.v.passed) : ∃ pre n post, u.up = pre ++ (f, n) :: post ∧ ∃ q ∈ pre, q.1.push = false ∧ q.1.rid = f.rid := by
  rcases ((UAll.reach hrun).i hr).passed f h with h | h
  · rw [hop] at h; cases h
  · exact h

/-! ## Through the transport -/

/-- The server connection in state `u` and its client, at some moment. `fr k` (`k < n`) are the frames submitted on the server
connection, `handled` those for which the client has started handlers, `frs k` (`k < cnt`) are the frames submitted on the client
connection, and `ret` those of them that `ReadFrame` has returned to the server. -/
structure Spec.WiredBack (u : USt) (fr : Nat → Frame) (n : Nat) (handled : List Frame) (frs : Nat → Frame) (cnt : Nat)
    (ret : List Frame) : Prop where
  there : ∃ (cap : Nat) (gacts : List GAct) (gs : GSt) (cfg : FrameReaderCfg) (got arr : List Frame), gRun cap gacts = some gs ∧
    gs.frames.length = n ∧ (∀ (k : Nat) (f : SFrame), gs.frames[k]? = some f → Encodes cfg f.bytes (fr k)) ∧
    Arrives cfg gs.wire got arr ∧ ∀ F ∈ handled, F ∈ arr
  back : ∃ (c : CConf) (d : Bool) (cacts : List CAct) (s : CSt) (g : Nat) (cfg : FrameReaderCfg) (got : List Frame), cRun c d cacts = some s ∧
    s.frames.length = cnt ∧ (∀ (k : Nat) (f : CFrame), s.frames[k]? = some f → Encodes cfg f.bytes (frs k)) ∧
    Arrives cfg (s.wires g) got ret
  read : u.up.map Prod.fst = ret.map Frame.toIn

/-- The handlers of a client answer with `R`: a frame they submit with the id of a server's request (that is, an even one; pushes
apart) is an answer, by `R`, to a frame with this id for which a handler was started. -/
def Spec.ClientAnswerBy (R : Frame → Frame → Prop) (handled : List Frame) (frs : Nat → Frame) (cnt : Nat) : Prop :=
  ∀ k, k < cnt → FrameFlag.isPush (frs k).flags = false → (frs k).requestID % 2 = 0 →
    ∃ F ∈ handled, F.requestID = (frs k).requestID ∧ R F (frs k)

theorem arrived_sublist_client {c : CConf} {d : Bool} {cacts : List CAct} {s : CSt} (hc : cRun c d cacts = some s) {cfg : FrameReaderCfg}
    {fr : Nat → Frame} (henc : ∀ (t : Nat) (f : CFrame), s.frames[t]? = some f → Encodes cfg f.bytes (fr t)) {g : Nat}
    {got ret : List Frame} (h : Arrives cfg (s.wires g) got ret) :
    ∃ us : List Nat, us.Pairwise (· < ·) ∧ (∀ t ∈ us, t < s.frames.length) ∧ ret = us.map fr := by
  obtain ⟨src, n, sacts, t, h1, h2, h3, h4, rfl⟩ := h
  obtain ⟨ts, k1, k2, k3⟩ := C84_client hc cfg fr henc g
  obtain ⟨-, k4⟩ := (k3 src h1).1 n got h2
  have hsub : (returned t.log).Sublist (ts.map fr) := by
    refine (returned_sublist h3).trans ?_
    rw [h4, k4]
    exact (List.take_sublist _ _).map fr
  obtain ⟨us, h8, h9⟩ := List.sublist_map_iff.1 hsub
  exact ⟨us, k1.sublist h8, fun t ht => k2 t (h8.mem ht), h9⟩

/-- What the server has read at a place was submitted by the client; if it has an even id, it answers a submission of the server. -/
theorem wiredBack_at {u : USt} {fr : Nat → Frame} {n : Nat} {handled : List Frame} {frs : Nat → Frame} {cnt : Nat} {ret : List Frame}
    (hw : WiredBack u fr n handled frs cnt ret) {R : Frame → Frame → Prop} (hR : ClientAnswerBy R handled frs cnt)
    {i : Nat} {p : InFrame × Nat} (hp : u.up[i]? = some p) (hpush : p.1.push = false) (heven : p.1.rid % 2 = 0) :
    ∃ k j : Nat, k < cnt ∧ j < n ∧ ret[i]? = some (frs k) ∧ p.1 = (frs k).toIn ∧ fr j ∈ handled ∧ (fr j).requestID = p.1.rid ∧ R (fr j) (frs k) := by
  obtain ⟨c, d, cacts, s, g, cfg, got, h1, h2, h3, h4⟩ := hw.back
  obtain ⟨us, -, k2, k3⟩ := arrived_sublist_client h1 h3 h4
  have h5 : (u.up.map Prod.fst)[i]? = some p.1 := by rw [List.getElem?_map, hp]; rfl
  rw [hw.read, k3, List.map_map, List.getElem?_map] at h5
  obtain ⟨k, h6, h7⟩ := Option.map_eq_some_iff.1 h5
  have h7' : p.1 = (frs k).toIn := h7.symm
  have hk : k < cnt := by rw [← h2]; exact k2 k (List.mem_of_getElem? h6)
  obtain ⟨F, e1, e2, e3⟩ := hR k hk (by rw [← hpush, h7']; rfl) (by rw [← heven, h7']; rfl)
  obtain ⟨cap, gacts, gs, cfg', got', arr, f1, f2, f3, f4, f5⟩ := hw.there
  obtain ⟨ws, -, m2, m3⟩ := arrived_sublist f1 f3 f4
  have := f5 F e1
  rw [m3] at this
  obtain ⟨j, j1, rfl⟩ := List.mem_map.1 this
  refine ⟨k, j, hk, by rw [← f2]; exact m2 j j1, ?_, h7', e1, ?_, e3⟩
  · rw [k3, List.getElem?_map, h6]; rfl
  · rw [e2, h7']; rfl

/-- **C109.** In every execution of a server connection with its client - any number of requesters, handlers and closers, any batching on
both sides, any fragmentation of what is on the way, answers in any order - the frame the response object of request `t` got is one that
a handler of the client submitted, unchanged, in answer to a frame that was submitted on the server connection with the id of `t`
(if `t` is a call without further frames of a stream, that is the frame of `t`); and it is the first frame with this id that was returned
to the server. -/
theorem C109 {acts : List UAct} {u : USt} (hrun : uRun acts = some u) (hr : u.v.ridGen < 2 ^ 63)
    {fr : Nat → Frame} {n : Nat} {handled : List Frame} {frs : Nat → Frame} {cnt : Nat} {ret : List Frame}
    (hw : WiredBack u fr n handled frs cnt ret) {R : Frame → Frame → Prop} (hR : ClientAnswerBy R handled frs cnt)
    {t : Nat} {f : InFrame} (h : REv.frame f ∈ u.v.revs t) :
    ∃ i k j : Nat, k < cnt ∧ j < n ∧ ret[i]? = some (frs k) ∧ f = (frs k).toIn ∧ fr j ∈ handled ∧ (fr j).requestID = serverRid (t + 1) ∧
      R (fr j) (frs k) ∧ ∀ i' < i, ∀ F, ret[i']? = some F → FrameFlag.isPush F.flags = false → F.requestID ≠ serverRid (t + 1) := by
  have hA := UAll.reach hrun
  obtain ⟨-, pre, m, post, h1, -, h3, h4, -, h6⟩ := (hA.i hr).ans t f h
  have hp : u.up[pre.length]? = some (f, m) := by rw [h1]; simp
  obtain ⟨k, j, k1, k2, k3, k4, k5, k6, k7⟩ := wiredBack_at hw hR hp h3 (by simp only; rw [h4]; exact serverRid_even _)
  refine ⟨pre.length, k, j, k1, k2, k3, k4, k5, by rw [k6, h4], k7, ?_⟩
  intro j hj F hF hFp
  have h7 : (u.up.map Prod.fst)[j]? = some F.toIn := by rw [hw.read, List.getElem?_map, hF]; rfl
  rw [h1, List.map_append, List.getElem?_append_left (by simpa using hj), List.getElem?_map] at h7
  obtain ⟨q, h8, h9⟩ := Option.map_eq_some_iff.1 h7
  have := h6 q (List.mem_of_getElem? h8) (by rw [h9]; exact hFp)
  rw [h9, h4] at this
  exact this

/-- **C109, it gets the answer.** As long as the connection is not closed and when the server has read all that was returned to it: a
request that was sent, for which a frame with its id was returned, has got exactly one thing - the first such frame, which answers a
frame submitted with the id of the request. -/
theorem C109_gets {acts : List UAct} {u : USt} (hrun : uRun acts = some u) (hr : u.v.ridGen < 2 ^ 63)
    {fr : Nat → Frame} {n : Nat} {handled : List Frame} {frs : Nat → Frame} {cnt : Nat} {ret : List Frame}
    (hw : WiredBack u fr n handled frs cnt ret) {R : Frame → Frame → Prop} (hR : ClientAnswerBy R handled frs cnt)
    (hop : u.v.closed = false) (hrd : u.v.rd = .read) (hread : u.read = u.up.length) {t : Nat} (ht : t ∈ u.v.regd)
    {F : Frame} (hF : F ∈ ret) (hFp : FrameFlag.isPush F.flags = false) (hFid : F.requestID = serverRid (t + 1)) :
    ∃ k j : Nat, k < cnt ∧ j < n ∧ frs k ∈ ret ∧ (frs k).requestID = serverRid (t + 1) ∧ fr j ∈ handled ∧
      (fr j).requestID = serverRid (t + 1) ∧ R (fr j) (frs k) ∧
      FrameFlag.isRst (frs k).flags = false ∧ u.v.revs t = [REv.frame (frs k).toIn] := by
  have h1 := C109_first hrun hr hop hrd ht
  rw [hread, List.take_of_length_le (by simp)] at h1
  cases hfa : firstAnswer (serverRid (t + 1)) (u.up.map Prod.fst) with
  | none =>
    exfalso
    have hm : F.toIn ∈ u.up.map Prod.fst := by rw [hw.read]; exact List.mem_map.2 ⟨F, hF, rfl⟩
    exact firstAnswer_none hfa _ hm (by simp [Frame.toIn, hFp]) (by simp [Frame.toIn, hFid])
  | some f =>
    obtain ⟨hm, hp, hid⟩ := firstAnswer_mem hfa
    obtain ⟨q, hq, rfl⟩ := List.mem_map.1 hm
    obtain ⟨i, hi⟩ := List.getElem?_of_mem hq
    obtain ⟨k, j, k1, k2, k3, k4, k5, k6, k7⟩ := wiredBack_at hw hR hi hp (by rw [hid]; exact serverRid_even _)
    have hrid : (frs k).requestID = serverRid (t + 1) := by rw [← hid, k4]; rfl
    have hn : FrameFlag.isRst (frs k).flags = false := by
      obtain ⟨_, _, _, _, _, _, _, -, -, -, h5⟩ := hw.back
      exact arrives_not_rst h5 (List.mem_of_getElem? k3)
    refine ⟨k, j, k1, k2, List.mem_of_getElem? k3, hrid, k5, by rw [k6, hid], k7, hn, ?_⟩
    rw [h1, hfa, k4]
    simp [Frame.toIn, hn]

/-! ## An execution

The server sends two requests in one batch; the client starts a handler for each, they answer with the payload doubled, the second one
first, and the requesters get the answers. -/

def cbServer : List GAct :=
  [.call 0 ⟨layout 2 1 8 [7], true, false, false, false⟩, .call 1 ⟨layout 4 2 8 [8, 9], true, false, false, false⟩,
   .enq 0, .enq 1, .lock 0, .go 0, .go 0, .deq 0 true true, .deq 0 true true, .go 0, .go 0, .write 0 35 true]

def cbCalled : List SAct :=
  [.recv ⟨2, 8, 1, [7]⟩, .rstep, .rstep, .rstep, .rstep, .rstep, .recv ⟨4, 8, 2, [8, 9]⟩, .rstep, .rstep, .rstep, .rstep, .rstep]

def cbClient : List CAct :=
  [.lGo, .lGo, .lGo, .send 0 ⟨4, layout 4 2 0 [8, 9, 8, 9], false, false, false, false⟩, .go 0, .enq 0,
   .send 1 ⟨2, layout 2 1 0 [7, 7], false, false, false, false⟩, .go 1, .enq 1,
   .wDeq true true, .wDeq true true, .wGo, .wGo, .wWrite 38 true]

def cbStreams : List SAct :=
  [.wstart 2 8 true, .wstep, .wstep, .wstep, .wstart 4 8 true, .wstep, .wstep, .wstep,
   .recv ⟨4, 0, 2, [8, 9, 8, 9]⟩, .rstep, .rstep, .rstep, .rstep, .rstep, .rstep, .rstep, .rstep, .rstep,
   .recv ⟨2, 0, 1, [7, 7]⟩, .rstep, .rstep]

def cbRun : List UAct :=
  [.srv (.request [1]), .srv (.request [2]), .srv (.register [0, 1]), .cRead 0, .cRead 1,
   .cSend (Frame.toIn ⟨4, 0, 2, [8, 9, 8, 9]⟩), .cSend (Frame.toIn ⟨2, 0, 1, [7, 7]⟩), .recv, .srv .rGo, .srv .rGo, .recv, .srv .rGo, .srv .rGo]

def cbFr : Nat → Frame
  | 0 => ⟨2, 8, 1, [7]⟩
  | _ => ⟨4, 8, 2, [8, 9]⟩

def cbFrs : Nat → Frame
  | 0 => ⟨4, 0, 2, [8, 9, 8, 9]⟩
  | _ => ⟨2, 0, 1, [7, 7]⟩

def cbThere : Bytes := layout 2 1 8 [7] ++ layout 4 2 8 [8, 9]
def cbBack : Bytes := layout 4 2 0 [8, 9, 8, 9] ++ layout 2 1 0 [7, 7]
def cbThereSrc : Src := ⟨[], [.data (cbThere.take 20), .data (cbThere.drop 20)]⟩
def cbBackSrc : Src := ⟨[], [.data (cbBack.take 3), .data (cbBack.drop 3)]⟩

theorem arrives_of {cfg : FrameReaderCfg} {wire : Bytes} {fs : List Frame} (src : Src) (sacts : List SAct) (h1 : srcBytes src = wire)
    (h2 : okFrames (readN cfg fs.length src).1 = some fs)
    (h3 : (sRun SSt.init sacts).map (fun t => (t.recv, returned t.log)) = some (fs, fs)) : Arrives cfg wire fs fs := by
  obtain ⟨t, h6, h7⟩ := Option.map_eq_some_iff.1 h3
  simp only [Prod.mk.injEq] at h7
  exact ⟨src, _, sacts, t, h1 ▸ List.prefix_refl _, okFrames_ok h2, h6, h7.1, h7.2.symm⟩

/-- The hypotheses of C109 and C109_gets (and those of C109_belongs and C109_first) hold in it, for both requests. -/
theorem callback_example : ∃ u, uRun cbRun = some u ∧ u.v.ridGen = 2 ∧
    WiredBack u cbFr 2 [⟨2, 8, 1, [7]⟩, ⟨4, 8, 2, [8, 9]⟩] cbFrs 2 [⟨4, 0, 2, [8, 9, 8, 9]⟩, ⟨2, 0, 1, [7, 7]⟩] ∧
    ClientAnswerBy rpcDouble [⟨2, 8, 1, [7]⟩, ⟨4, 8, 2, [8, 9]⟩] cbFrs 2 ∧
    u.v.revs 0 = [.frame (Frame.toIn ⟨2, 0, 1, [7, 7]⟩)] ∧ u.v.revs 1 = [.frame (Frame.toIn ⟨4, 0, 2, [8, 9, 8, 9]⟩)] ∧
    u.v.closed = false ∧ u.v.rd = .read ∧ u.read = u.up.length ∧ u.v.regd = [0, 1] ∧ u.v.passed = [] := by
  have h1 : (uRun cbRun).map (fun u => (u.up, u.v.ridGen, u.v.closed, u.v.rd, u.read, u.v.regd, u.v.passed)) =
      some ([(Frame.toIn ⟨4, 0, 2, [8, 9, 8, 9]⟩, 2), (Frame.toIn ⟨2, 0, 1, [7, 7]⟩, 2)], 2, false, .read, 2, [0, 1], []) := by rfl
  have h2 : (uRun cbRun).map (fun u => (u.v.revs 0, u.v.revs 1)) =
      some ([.frame (Frame.toIn ⟨2, 0, 1, [7, 7]⟩)], [.frame (Frame.toIn ⟨4, 0, 2, [8, 9, 8, 9]⟩)]) := by rfl
  obtain ⟨u, h3, h4⟩ := Option.map_eq_some_iff.1 h1
  rw [h3] at h2
  simp only [Prod.mk.injEq, Option.map_some, Option.some.injEq] at h2 h4
  obtain ⟨d1, d2, d3, d4, d5, d6, d7⟩ := h4
  have g1 : (gRun 2 cbServer).map (fun s => (s.wire, s.frames.map (·.bytes))) = some (cbThere, [layout 2 1 8 [7], layout 4 2 8 [8, 9]]) := by
    decide +kernel
  obtain ⟨gs, g2, g3⟩ := Option.map_eq_some_iff.1 g1
  have c1 : (cRun cfg2 true cbClient).map (fun s => (s.wires 1, s.frames.map (·.bytes))) =
      some (cbBack, [layout 4 2 0 [8, 9, 8, 9], layout 2 1 0 [7, 7]]) := by decide +kernel
  obtain ⟨s, c2, c3⟩ := Option.map_eq_some_iff.1 c1
  simp only [Prod.mk.injEq] at g3 c3
  refine ⟨u, h3, d2, ⟨⟨2, cbServer, gs, ⟨100, none⟩, [⟨2, 8, 1, [7]⟩, ⟨4, 8, 2, [8, 9]⟩], [⟨2, 8, 1, [7]⟩, ⟨4, 8, 2, [8, 9]⟩], g2, ?_, ?_, ?_, fun F hF => hF⟩,
    ⟨cfg2, true, cbClient, s, 1, ⟨100, none⟩, [⟨4, 0, 2, [8, 9, 8, 9]⟩, ⟨2, 0, 1, [7, 7]⟩], c2, ?_, ?_, ?_⟩, by rw [d1]; rfl⟩, ?_, h2.1, h2.2, d3, d4, by rw [d5, d1]; rfl, d6, d7⟩
  · simpa using congrArg List.length g3.2
  · intro k f hk
    have h5 : (gs.frames.map (·.bytes))[k]? = some f.bytes := by rw [List.getElem?_map, hk]; rfl
    rw [g3.2] at h5
    match k, h5 with
    | 0, h5 => simp at h5; rw [← h5]; exact ⟨1, [7], rfl, by decide, by decide, .inr (by decide), rfl⟩
    | 1, h5 => simp at h5; rw [← h5]; exact ⟨2, [8, 9], rfl, by decide, by decide, .inr (by decide), rfl⟩
    | k + 2, h5 => simp at h5
  · rw [g3.1]
    exact arrives_of cbThereSrc cbCalled (by decide +kernel) (by decide +kernel) (by decide +kernel)
  · simpa using congrArg List.length c3.2
  · intro k f hk
    have h5 : (s.frames.map (·.bytes))[k]? = some f.bytes := by rw [List.getElem?_map, hk]; rfl
    rw [c3.2] at h5
    match k, h5 with
    | 0, h5 => simp at h5; rw [← h5]; exact ⟨2, [8, 9, 8, 9], rfl, by decide, by decide, .inr (by decide), rfl⟩
    | 1, h5 => simp at h5; rw [← h5]; exact ⟨1, [7, 7], rfl, by decide, by decide, .inr (by decide), rfl⟩
    | k + 2, h5 => simp at h5
  · rw [c3.1]
    exact arrives_of cbBackSrc cbStreams (by decide +kernel) (by decide +kernel) (by decide +kernel)
  · intro k hk _ _
    match k, hk with
    | 0, _ => exact ⟨⟨4, 8, 2, [8, 9]⟩, by simp, rfl, rfl⟩
    | 1, _ => exact ⟨⟨2, 8, 1, [7]⟩, by simp, rfl, rfl⟩

/-- A client that answers twice: the second answer is taken for a request (C109_dispatched describes all such frames). -/
example : (uRun (cbRun ++ [.cSend ⟨2, false, false, true⟩, .recv, .srv .rGo])).map (fun u => (u.v.closed, u.v.passed)) =
    some (false, [⟨2, false, false, true⟩]) := by rfl

/-- The client cannot answer what it has not read, nor read what was not sent. -/
example : uRun [.srv (.request [1]), .srv (.register [0]), .cSend ⟨2, false, false, false⟩] = none ∧
    uRun [.srv (.request [1]), .cRead 0] = none := by constructor <;> rfl

end Qrpc
