import Verif.Props.CallLive
import Verif.Props.ServerCall
/-! # Property C129: every call of the server is answered

The mirror of C127: the server's write path, the bytes in between, the client's frame reader, streams, reader goroutine and handlers,
its write path, the bytes in between, and the server's frame reader, streams, reader goroutine and table of response objects. -/
namespace Qrpc
open Spec

/-! ## The client starts a handler for every request of the server -/

def CRd.live : CRd → Bool
  | .off | .exit => false
  | _ => true

/-- The reader goroutine of a client with a handler has started a handler for every frame of the current transport connection that it
has got with a server's id, or it has ended. -/
structure HdInv (e : ESt) : Prop where
  fresh : e.c.loop = .spawn ∨ (e.c.loop = .connect ∧ e.c.rwc = true) → e.read e.c.gen = 0
  all : e.c.rd.live = true → ∀ f ∈ ((e.down e.c.gen).map Prod.fst).take (e.read e.c.gen), f.push = false → f.rid % 2 = 0 →
    f ∈ e.c.handled ∨ e.c.rd = .lookup f

theorem HdInv.init (d : Bool) : HdInv (ESt.init d) := by
  constructor <;> simp [ESt.init, CSt.init, CRd.live]

/-- The steps of the client that are not the receipt of a frame. -/
theorem hd_cl {c : CConf} (hc : c.handler = true) {s s' : CSt} {a : CAct} (hi : CInv c s) (hs : cStep c s a = some s') (ha : ∀ f, a ≠ .rFrame f)
    {L : Nat → List InFrame} {n : Nat → Nat} (hL : ∀ g, n g = 0 → L g = []) (hfut : ∀ g, s.gen < g → n g = 0)
    (h1 : s.loop = .spawn ∨ (s.loop = .connect ∧ s.rwc = true) → n s.gen = 0)
    (h2 : s.rd.live = true → ∀ f ∈ L s.gen, f.push = false → f.rid % 2 = 0 → f ∈ s.handled ∨ s.rd = .lookup f) :
    (s'.loop = .spawn ∨ (s'.loop = .connect ∧ s'.rwc = true) → n s'.gen = 0) ∧
    (s'.rd.live = true → ∀ f ∈ L s'.gen, f.push = false → f.rid % 2 = 0 → f ∈ s'.handled ∨ s'.rd = .lookup f) := by
  have hnc := hi.l.noConn
  have hid := hi.l.idle
  have hodd : ∀ p ∈ s.respes, p.1 % 2 ≠ 0 := by
    intro p hp
    obtain ⟨k1, k2, -⟩ := hi.c.mem p hp
    obtain ⟨k3, k4⟩ := hi.c.regdLt _ k1
    have hlt := Nat.lt_of_lt_of_le k3 hi.a.deq
    have hcf : cframeOf s.frames p.2 = s.frames[p.2] := by simp [cframeOf, List.getD, List.getElem?_eq_getElem hlt]
    rw [hcf] at k4 k2
    obtain ⟨m, -, -, hm⟩ := hi.i.inFrames _ (List.getElem_mem hlt) k4
    rw [k2, hm, (C20_parity m 0).1]
    decide
  clear hi
  cstep_cases hs a
  all_goals first
    | exact absurd rfl (ha _)
    | exact ⟨h1, h2⟩
    | skip
  all_goals refine ⟨?_, ?_⟩
  all_goals grind [CRd.live, CLp.connected, CLp.running]

theorem HdInv.step {c : CConf} (hc : c.handler = true) {e e' : ESt} {a : EAct} (hA : EAll c e) (hP : PuInv e) (h : HdInv e)
    (hs : eStep c e a = some e') : HdInv e' := by
  obtain ⟨h1, h2⟩ := h
  cases a with
  | cl a =>
    simp only [eStep] at hs
    split at hs
    case isFalse => cases hs
    next hp =>
    obtain ⟨s, k0, rfl⟩ := Option.map_eq_some_iff.1 hs
    have ha : ∀ f, a ≠ .rFrame f := by rintro f rfl; simp [CAct.proper] at hp
    obtain ⟨k1, k2⟩ := hd_cl hc hA.i k0 ha (L := fun g => ((e.down g).map Prod.fst).take (e.read g)) (n := e.read)
      (fun g hg => by simp [hg]) hP.future h1 h2
    exact ⟨k1, k2⟩
  | sRead g =>
    simp only [eStep] at hs
    split at hs <;> cases hs
    exact ⟨h1, h2⟩
  | sSend g f =>
    simp only [eStep] at hs
    split at hs <;> cases hs
    refine ⟨h1, ?_⟩
    simp only [setAt]
    split
    · next hg =>
      rw [hg, List.map_append, List.take_append_of_le_length (by simpa using hP.readLe g)]
      rw [← hg]
      exact h2
    · exact h2
  | recv =>
    simp only [eStep] at hs
    split at hs
    case h_2 => cases hs
    next p hp =>
    obtain ⟨s, k0, rfl⟩ := Option.map_eq_some_iff.1 hs
    have hlt : e.read e.c.gen < (e.down e.c.gen).length := (List.getElem?_eq_some_iff.1 hp).1
    have hid := hA.i.l.idle
    have hx : ((e.down e.c.gen).map Prod.fst).take (e.read e.c.gen + 1) = ((e.down e.c.gen).map Prod.fst).take (e.read e.c.gen) ++ [p.1] := by
      rw [List.take_add_one, List.getElem?_map, hp]; rfl
    have hn := hA.i.l.noConn
    simp only [cStep] at k0
    split at k0
    case h_2 => cases k0
    next hrd =>
    have hrun : e.c.loop.running = true := by
      cases hl : e.c.loop.running with
      | true => rfl
      | false => have := (hid hl).1; rw [hrd] at this; cases this
    have hne : ¬ (e.c.loop = .spawn ∨ (e.c.loop = .connect ∧ e.c.rwc = true)) := by
      rintro (h | ⟨h, -⟩) <;> rw [h] at hrun <;> cases hrun
    have h2' := h2 (by rw [hrd]; rfl)
    split at k0
    · next hpu =>
      cases k0
      refine ⟨fun h => absurd h hne, fun _ f hf hfp hfe => ?_⟩
      simp only [setAt, if_true, hx, List.mem_append, List.mem_singleton] at hf
      rcases hf with hf | rfl
      · exact h2' f hf hfp hfe
      · rw [hpu] at hfp; cases hfp
    · next hpu =>
      cases k0
      refine ⟨fun h => absurd h hne, fun _ f hf hfp hfe => ?_⟩
      simp only [setAt, if_true, hx, List.mem_append, List.mem_singleton] at hf
      rcases hf with hf | rfl
      · rcases h2' f hf hfp hfe with h | h
        · exact .inl h
        · rw [hrd] at h; cases h
      · exact .inr rfl

theorem HdInv.reach {c : CConf} (hc : c.handler = true) {d : Bool} {acts : List EAct} {e : ESt} (h : eRun c d acts = some e) : HdInv e :=
  (runActs_inv (P := fun e => EAll c e ∧ PuInv e ∧ HdInv e) (fun _ _ _ hp hs => ⟨hp.1.step hs, hp.2.1.step hs, hp.2.2.step hc hp.1 hp.2.1 hs⟩)
    ⟨EAll.init c d, PuInv.init d, HdInv.init d⟩ h).2.2

/-- **C129, no request of the server is lost.** As long as the reader goroutine of a client with a handler has not ended, whenever it is
about to read: it has started a handler for every frame of the current transport connection that `ReadFrame` has returned to it with a
server's id (pushes apart). -/
theorem C129_handled {c : CConf} {d : Bool} {acts : List EAct} {e : ESt} (hrun : eRun c d acts = some e) (hc : c.handler = true)
    (hrd : e.c.rd = .read) {f : InFrame} (hf : f ∈ ((e.down e.c.gen).map Prod.fst).take (e.read e.c.gen)) (hpush : f.push = false)
    (heven : f.rid % 2 = 0) : f ∈ e.c.handled := by
  rcases (HdInv.reach hc hrun).all (by rw [hrd]; rfl) f hf hpush heven with h | h
  · exact h
  · rw [hrd] at h; cases h

/-! ## Through the transport -/

/-- A server connection that is open and its client are at rest: everything written has arrived at the other end and been read. `frs j`
is the frame of the `j`-th submission on the server connection, `tc` and `ts` are the streams of client and server, `frc k` is the
frame of the `k`-th submission of the client. -/
structure Spec.BackRest (gs : GSt) (frs : Nat → Frame) (tc : SSt) (e : ESt) (frc : Nat → Frame) (ts : SSt) (u : USt) : Prop where
  there : ∃ (cap : Nat) (gacts : List GAct) (cfg : FrameReaderCfg), gRun cap gacts = some gs ∧
    (∀ (j : Nat) (f : SFrame), gs.frames[j]? = some f → Encodes cfg f.bytes (frs j)) ∧ Receives cfg gs.wire tc True
  idleC : held tc = []
  down : (e.down e.c.gen).map Prod.fst = (returned tc.log).map Frame.toIn
  rdC : e.c.rd = .read
  readC : e.read e.c.gen = (e.down e.c.gen).length
  back : ∃ cfg : FrameReaderCfg, (∀ (k : Nat) (f : CFrame), e.c.frames[k]? = some f → Encodes cfg f.bytes (frc k)) ∧
    Receives cfg (e.c.wires e.c.gen) ts True
  idleS : held ts = []
  up : u.up.map Prod.fst = (returned ts.log).map Frame.toIn
  openS : u.v.closed = false
  rdS : u.v.rd = .read
  readS : u.read = u.up.length

/-- Every handler of the client that was started for a request on the current transport connection answered: a frame with the id of its
request, not a push, was written successfully on this connection. -/
def Spec.ClientAnswered (e : ESt) (frc : Nat → Frame) : Prop :=
  ∀ f ∈ e.c.handled, f ∈ (e.down e.c.gen).map Prod.fst →
    ∃ k, k ∈ e.c.outs e.c.gen ∧ (k, CRes.ok) ∈ e.c.rets ∧ (frc k).key = (f.rid, false)

/-- **C129.** A server connection that is open and its client, which has a handler, are at rest, and every handler of the client
answered. Then for every request `t` of the server whose write returned nil - and whose stream, like that of the answer, has no resets
and nothing after its end - the client has started a handler for a frame of the request's stream, and the request has got exactly one
thing: a frame with its id that was submitted on the client. -/
theorem C129 {c : CConf} {d : Bool} {acts : List EAct} {e : ESt} (hrun : eRun c d acts = some e) (hc : c.handler = true)
    {uacts : List UAct} {u : USt} (hu : uRun uacts = some u) (hr : u.v.ridGen < 2 ^ 63)
    {gs : GSt} {frs frc : Nat → Frame} {tc ts : SSt} (hq : BackRest gs frs tc e frc ts u) (hans : ClientAnswered e frc)
    {t j : Nat} (ht : t ∈ u.v.regd) (hok : (j, SRes.ok) ∈ gs.rets) (hkey : (frs j).key = (serverRid (t + 1), false))
    (hwfs : WellFormed (((List.range gs.frames.length).map frs).filter fun f => decide (f.key = (serverRid (t + 1), false))))
    (hwf : WellFormed (((List.range e.c.frames.length).map frc).filter fun f => decide (f.key = (serverRid (t + 1), false)))) :
    ∃ w k, w < gs.frames.length ∧ (frs w).key = (serverRid (t + 1), false) ∧ frs w ∈ returned tc.log ∧ (frs w).toIn ∈ e.c.handled ∧
      k ∈ e.c.outs e.c.gen ∧ (frc k).key = (serverRid (t + 1), false) ∧ u.v.revs t = [REv.frame (frc k).toIn] := by
  -- there
  obtain ⟨cap, gacts, cfg, hg, hencS, hthere⟩ := hq.there
  obtain ⟨ws, -, hws, -, h5⟩ := C93_server hg cfg frs hencS
  obtain ⟨fs, us, k1, k2, k3, -, k4⟩ := h5 (serverRid (t + 1), false) tc True hwfs hthere
  obtain ⟨F, hF, hFu⟩ := handed_first k1 hq.idleC k2 (List.ne_nil_of_mem (List.mem_map.2 ⟨j, k4 trivial j hok hkey, rfl⟩))
  obtain ⟨w, hw, rfl⟩ := List.mem_map.1 hFu
  have hw' := List.mem_filter.1 (k3.subset hw)
  have hwk : (frs w).key = (serverRid (t + 1), false) := by simpa using hw'.2
  have hdown : (frs w).toIn ∈ (e.down e.c.gen).map Prod.fst := by rw [hq.down]; exact List.mem_map.2 ⟨_, hF, rfl⟩
  have hrid : (frs w).toIn.rid = serverRid (t + 1) := congrArg Prod.fst hwk
  have hhd := C129_handled hrun hc hq.rdC (f := (frs w).toIn) (by rw [hq.readC, List.take_of_length_le (by simp)]; exact hdown)
    (congrArg Prod.snd hwk) (by rw [hrid]; exact serverRid_even _)
  -- back
  obtain ⟨k, hko, hkr, hkk⟩ := hans _ hhd hdown
  rw [hrid] at hkk
  obtain ⟨cacts, hcr⟩ := eRun_client hrun
  have hW := CInvW.reach hcr
  have hA := (CInv.reach hcr).a
  have hlt : ∀ g, ∀ t ∈ e.c.outs g, t < e.c.frames.length := fun g t ht => Nat.lt_of_lt_of_le (hW.lt g t ht) hA.deq
  obtain ⟨cfg', henc, hback⟩ := hq.back
  have hpre : e.c.wires e.c.gen <+: ((e.c.outs e.c.gen).filterMap fun t => (e.c.frames[t]?).map (·.bytes)).flatten := by
    have := hW.pre e.c.gen
    rw [cflat_eq_frames (hlt e.c.gen)] at this
    exact this
  obtain ⟨fs', us', m1, m2, m3, -, m4⟩ := stream_core (hW.sorted e.c.gen) (hlt e.c.gen)
    (fun t ht => ⟨e.c.frames[t]'(hlt _ t ht) |>.bytes, by simp [List.getElem?_eq_getElem (hlt _ t ht)],
      henc t _ (List.getElem?_eq_getElem (hlt _ t ht))⟩) hpre hwf hback
  obtain ⟨g, pre, post, e1, e2⟩ := (took_iff hA hW k).2 (hW.okRets k hkr)
  have hgen : g = e.c.gen := hW.disj g e.c.gen k (by rw [e1]; simp) hko
  subst hgen
  obtain ⟨G, hG, hGu⟩ := handed_first m1 hq.idleS m2 (List.ne_nil_of_mem (List.mem_map.2 ⟨k, m4 trivial pre k post e1 e2 hkk, rfl⟩))
  obtain ⟨v, hv, rfl⟩ := List.mem_map.1 hGu
  have hv' := List.mem_filter.1 (m3.subset hv)
  have hvk : (frc v).key = (serverRid (t + 1), false) := by simpa using hv'.2
  have h6 := C109_first hu hr hq.openS hq.rdS ht
  rw [hq.readS, List.take_of_length_le (by simp), hq.up] at h6
  cases hfa : firstAnswer (serverRid (t + 1)) ((returned ts.log).map Frame.toIn) with
  | none =>
    exfalso
    have := firstAnswer_none hfa _ (List.mem_map.2 ⟨_, hG, rfl⟩) (congrArg Prod.snd hvk)
    exact this (congrArg Prod.fst hvk)
  | some f =>
    obtain ⟨q1, q2, q3⟩ := firstAnswer_mem hfa
    obtain ⟨H, q4, rfl⟩ := List.mem_map.1 q1
    obtain ⟨src, n, sacts, b1, b2, b3, -⟩ := hback.data
    have hn := returned_not_rst b3 q4
    have hx : ∃ x ∈ e.c.outs e.c.gen, frc x = H := by
      have q5 : H ∈ ts.recv := (returned_sublist b3).mem q4
      obtain ⟨z1, -⟩ := arrived (fun t ht => ⟨e.c.frames[t]'(hlt _ t ht) |>.bytes, by simp [List.getElem?_eq_getElem (hlt _ t ht)],
        henc t _ (List.getElem?_eq_getElem (hlt _ t ht))⟩) hpre b1 b2
      rw [z1] at q5
      obtain ⟨x, hx, rfl⟩ := List.mem_map.1 q5
      exact ⟨x, List.mem_of_mem_take hx, rfl⟩
    obtain ⟨x, hxo, rfl⟩ := hx
    refine ⟨w, x, hws w hw'.1, hwk, hF, hhd, hxo, Prod.ext q3 q2, ?_⟩
    rw [h6, hfa]
    simp [Frame.toIn, hn]

/-- **C129, with the right result.** If moreover the client's handlers answer by `R` (as in C109) and the request has no further frames,
the one thing it has got answers its frame by `R`. -/
theorem C129_result {c : CConf} {d : Bool} {acts : List EAct} {e : ESt} (hrun : eRun c d acts = some e) (hc : c.handler = true)
    {uacts : List UAct} {u : USt} (hu : uRun uacts = some u) (hr : u.v.ridGen < 2 ^ 63)
    {gs : GSt} {frs frc : Nat → Frame} {tc ts : SSt} (hq : BackRest gs frs tc e frc ts u) (hans : ClientAnswered e frc)
    {n cnt : Nat} {handled ret : List Frame} {frc' : Nat → Frame} (hw : WiredBack u frs n handled frc' cnt ret) {R : Frame → Frame → Prop}
    (hR : ClientAnswerBy R handled frc' cnt)
    {t j : Nat} (ht : t ∈ u.v.regd) (hok : (j, SRes.ok) ∈ gs.rets) (hkey : (frs j).key = (serverRid (t + 1), false))
    (hwfs : WellFormed (((List.range gs.frames.length).map frs).filter fun f => decide (f.key = (serverRid (t + 1), false))))
    (hwf : WellFormed (((List.range e.c.frames.length).map frc).filter fun f => decide (f.key = (serverRid (t + 1), false))))
    (huniq : ∀ j' < n, (frs j').requestID = serverRid (t + 1) → j' = j) :
    ∃ G : Frame, u.v.revs t = [REv.frame G.toIn] ∧ R (frs j) G := by
  obtain ⟨w, k, -, -, -, -, -, -, h⟩ := C129 hrun hc hu hr hq hans ht hok hkey hwfs hwf
  obtain ⟨i, k', j', -, h2, -, h4, -, h6, h7, -⟩ := C109 hu hr hw hR (t := t) (f := (frc k).toIn) (by rw [h]; simp)
  rw [huniq j' h2 h6] at h7
  exact ⟨_, by rw [h, h4], h7⟩

/-! ## An execution at rest

That of `callback_example`, once everybody has come to rest. -/

def cfgH : CConf := { cfg2 with handler := true }

def backServer : List GAct := cbServer ++ [.go 0, .go 0, .go 0, .go 0, .go 0, .go 0, .recv 1]

def backClient : List EAct :=
  [.cl .lGo, .cl .lGo, .cl .lGo, .cl .rGo, .cl .rGo, .sSend 1 (Frame.toIn ⟨2, 8, 1, [7]⟩), .sSend 1 (Frame.toIn ⟨4, 8, 2, [8, 9]⟩),
   .recv, .cl .rGo, .recv, .cl .rGo] ++ (cbClient.drop 3).map .cl ++
  [.cl .wGo, .cl .wGo, .cl .wGo, .cl (.recv 0), .cl (.recv 1), .cl .handlerDone, .cl .handlerDone]

/-- All hypotheses of C129 hold in it, for both requests. -/
theorem back_example : ∃ gs tc e ts u, eRun cfgH true backClient = some e ∧ uRun cbRun = some u ∧ u.v.ridGen = 2 ∧
    BackRest gs cbFr tc e cbFrs ts u ∧ ClientAnswered e cbFrs ∧ u.v.regd = [0, 1] ∧ gs.rets = [(0, .ok), (1, .ok)] ∧
    gs.frames.length = 2 ∧ e.c.frames.length = 2 ∧ e.c.handlers = 0 := by
  have h1 : (eRun cfgH true backClient).map (fun e => (e.down 1, (e.c.frames.map fun f => f.bytes), e.c.wires 1, e.c.handled)) =
      some ([(Frame.toIn ⟨2, 8, 1, [7]⟩, 0), (Frame.toIn ⟨4, 8, 2, [8, 9]⟩, 0)],
        [layout 4 2 0 [8, 9, 8, 9], layout 2 1 0 [7, 7]], cbBack, [Frame.toIn ⟨2, 8, 1, [7]⟩, Frame.toIn ⟨4, 8, 2, [8, 9]⟩]) := by rfl
  have h2 : (eRun cfgH true backClient).map (fun e => (decide (e.c.rd = .read), e.c.gen, e.read 1, e.c.outs 1, e.c.rets, e.c.handlers)) =
      some (true, 1, 2, [0, 1], [(0, .ok), (1, .ok)], 0) := by rfl
  obtain ⟨e, h3, h4⟩ := Option.map_eq_some_iff.1 h1
  rw [h3] at h2
  simp only [Prod.mk.injEq, Option.map_some, Option.some.injEq, decide_eq_true_eq] at h2 h4
  obtain ⟨d1, d2, d3, d4⟩ := h4
  obtain ⟨r1, r2, r3, r4, r5, r6⟩ := h2
  have u1 : (uRun cbRun).map (fun u => (u.up, u.v.ridGen, u.v.closed, u.v.rd, u.read, u.v.regd)) =
      some ([(Frame.toIn ⟨4, 0, 2, [8, 9, 8, 9]⟩, 2), (Frame.toIn ⟨2, 0, 1, [7, 7]⟩, 2)], 2, false, .read, 2, [0, 1]) := by rfl
  obtain ⟨u, u2, u3⟩ := Option.map_eq_some_iff.1 u1
  simp only [Prod.mk.injEq] at u3
  obtain ⟨v1, v2, v3, v4, v5, v6⟩ := u3
  have s1 : (sRun SSt.init cbStreams).map (fun t => (t.recv, returned t.log, held t, t.connCancelled)) =
      some ([⟨4, 0, 2, [8, 9, 8, 9]⟩, ⟨2, 0, 1, [7, 7]⟩], [⟨4, 0, 2, [8, 9, 8, 9]⟩, ⟨2, 0, 1, [7, 7]⟩], [], false) := by decide +kernel
  obtain ⟨ts, s2, s3⟩ := Option.map_eq_some_iff.1 s1
  have c1 : (sRun SSt.init cbCalled).map (fun t => (t.recv, returned t.log, held t, t.connCancelled)) =
      some ([⟨2, 8, 1, [7]⟩, ⟨4, 8, 2, [8, 9]⟩], [⟨2, 8, 1, [7]⟩, ⟨4, 8, 2, [8, 9]⟩], [], false) := by decide +kernel
  obtain ⟨tc, c2, c3⟩ := Option.map_eq_some_iff.1 c1
  have g1 : (gRun 2 backServer).map (fun s => (s.wire, s.frames.map (·.bytes), s.rets)) =
      some (cbThere, [layout 2 1 8 [7], layout 4 2 8 [8, 9]], [(0, .ok), (1, .ok)]) := by decide +kernel
  obtain ⟨gs, g2, g3⟩ := Option.map_eq_some_iff.1 g1
  simp only [Prod.mk.injEq] at s3 c3 g3
  have n1 : okFrames (readN ⟨100, none⟩ 2 cbThereSrc).1 = some [⟨2, 8, 1, [7]⟩, ⟨4, 8, 2, [8, 9]⟩] := by decide +kernel
  have n2 : okFrames (readN ⟨100, none⟩ 2 cbBackSrc).1 = some [⟨4, 0, 2, [8, 9, 8, 9]⟩, ⟨2, 0, 1, [7, 7]⟩] := by decide +kernel
  have err : ∀ {r : Except FrameErr (List Frame)}, okFrames r = none → ∃ err, r = .error err := by
    intro r h
    cases r with
    | ok fs => simp [okFrames] at h
    | error e => exact ⟨e, rfl⟩
  refine ⟨gs, tc, e, ts, u, h3, u2, v2, ⟨⟨2, backServer, ⟨100, none⟩, g2, ?_, ?_⟩, c3.2.2.1, ?_, r1, ?_, ⟨⟨100, none⟩, ?_, ?_⟩, s3.2.2.1, ?_, v3, v4, ?_⟩,
    ?_, v6, g3.2.2, by simpa using congrArg List.length g3.2.1, by simpa using congrArg List.length d2, r6⟩
  · intro k f hk
    have h5 : (gs.frames.map (·.bytes))[k]? = some f.bytes := by rw [List.getElem?_map, hk]; rfl
    rw [g3.2.1] at h5
    match k, h5 with
    | 0, h5 => simp at h5; rw [← h5]; exact ⟨1, [7], rfl, by decide, by decide, .inr (by decide), rfl⟩
    | 1, h5 => simp at h5; rw [← h5]; exact ⟨2, [8, 9], rfl, by decide, by decide, .inr (by decide), rfl⟩
    | k + 2, h5 => simp at h5
  · rw [g3.1]
    refine ⟨⟨cbThereSrc, 2, cbCalled, (by decide +kernel : srcBytes cbThereSrc = cbThere) ▸ List.prefix_refl _, ?_, c2, fun _ =>
      ⟨by decide +kernel, err (by decide +kernel)⟩⟩, c3.2.2.2⟩
    rw [okFrames_ok n1, c3.1]
  · rw [r2, d1, c3.2.1]; rfl
  · rw [r2, r3, d1]; rfl
  · intro k f hk
    have h5 : (e.c.frames.map (·.bytes))[k]? = some f.bytes := by rw [List.getElem?_map, hk]; rfl
    rw [d2] at h5
    match k, h5 with
    | 0, h5 => simp at h5; rw [← h5]; exact ⟨2, [8, 9, 8, 9], rfl, by decide, by decide, .inr (by decide), rfl⟩
    | 1, h5 => simp at h5; rw [← h5]; exact ⟨1, [7, 7], rfl, by decide, by decide, .inr (by decide), rfl⟩
    | k + 2, h5 => simp at h5
  · rw [r2, d3]
    refine ⟨⟨cbBackSrc, 2, cbStreams, (by decide +kernel : srcBytes cbBackSrc = cbBack) ▸ List.prefix_refl _, ?_, s2, fun _ =>
      ⟨by decide +kernel, err (by decide +kernel)⟩⟩, s3.2.2.2⟩
    rw [okFrames_ok n2, s3.1]
  · rw [v1, s3.2.1]; rfl
  · rw [v5, v1]; rfl
  · intro f hf _
    rw [d4] at hf
    rw [r2, r4, r5]
    simp only [List.mem_cons, List.not_mem_nil, or_false] at hf
    rcases hf with rfl | rfl
    · exact ⟨1, by simp, by simp, by decide⟩
    · exact ⟨0, by simp, by simp, by decide⟩

example : ∀ K ∈ [((serverRid 1, false) : SKey), (serverRid 2, false)],
    WellFormed (((List.range 2).map cbFr).filter fun f => decide (f.key = K)) ∧
    WellFormed (((List.range 2).map cbFrs).filter fun f => decide (f.key = K)) := by
  unfold WellFormed; decide +kernel

example : (cbFr 0).key = (serverRid 1, false) ∧ (cbFr 1).key = (serverRid 2, false) := by decide

/-- Without a handler (`conf.Handler == nil`) the client drops the requests of the server (clientconn.go:514, 532-534): the hypothesis
`c.handler = true` of C129 is needed. -/
example : (eRun cfg2 true (backClient.take 11)).map (fun e => (decide (e.c.rd = .read), e.read 1, e.c.handled)) = some (true, 2, []) := by rfl

end Qrpc
