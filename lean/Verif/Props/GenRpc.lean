import Verif.Props.Generator
import Verif.Props.Rpc
/-! # Property C110: calls of generated methods over real connections

C107 with generated clients and services at the ends: many callers on one connection, several calls in flight, answers in any
order. -/
namespace Qrpc
open Spec

/-- A service: the names (namespace and method) registered, and what a method may return for its parameters. It need not return the same
every time. -/
structure Spec.Service where
  names : List (Bytes × Bytes)
  may : Bytes → Bytes → Bytes → CallRes → Prop

/-- A table of callbacks is one of the service's. -/
def Spec.Service.Has (S : Service) (l : List (Bytes × Bytes × (Bytes → CallRes))) : Prop :=
  l.map (fun e => (e.1, e.2.1)) = S.names ∧ ∀ e ∈ l, ∀ p, S.may e.1 e.2.1 p (e.2.2 p)

/-- What the caller of a service may get for a request. -/
inductive Spec.Service.Gives (S : Service) (m : RpcReq) : GenResult → Prop where
  | none : (m.ns, m.method) ∉ S.names → S.Gives m (.remote "no such service".toUTF8.toList)
  | err {t} : (m.ns, m.method) ∈ S.names → S.may m.ns m.method m.params (.err t) → S.Gives m (.remote t)
  | ok {out} : (m.ns, m.method) ∈ S.names → S.may m.ns m.method m.params (.ok out) → S.Gives m (.ok out)

/-- How a server with the service handler `NewServiceHandler(errCmd)` for the command `cmd` answers the frame `F`: for this command the
answer is a frame that the handler writes, with a fresh writer, or a reset (of the connection, when the handler panicked). Other
commands may be handled by anything. -/
def Spec.ServiceAnswers (S : Service) (stack : Nat) (etext : PbErr → Bytes) (errCmd cmd : Cmd) (F A : Frame) : Prop :=
  F.cmd = cmd → FrameFlag.isRst A.flags = true ∨ ∃ (codec : Option Codec) (write : DFW → Option Bytes) (w sub : DFW)
    (l : List (Bytes × Bytes × (Bytes → CallRes))) (cfg : FrameReaderCfg), w.Clean ∧ S.Has l ∧
    sub ∈ (genServe codec write stack etext errCmd (genTable l) w F.requestID F.cmd F.payload).frames ∧ Encodes cfg sub.wbuf A

theorem registered_name {ns m : Bytes} {l : List (Bytes × Bytes × (Bytes → CallRes))} :
    (registered ns m l = none ↔ (ns, m) ∉ l.map (fun e => (e.1, e.2.1))) ∧
      ∀ f, registered ns m l = some f → ∃ e ∈ l, e.1 = ns ∧ e.2.1 = m ∧ e.2.2 = f := by
  induction l with
  | nil => simp [registered]
  | cons e l ih =>
    cases hr : registered ns m l with
    | some g =>
      have h1 : (ns, m) ∈ l.map (fun e => (e.1, e.2.1)) := by
        apply Decidable.byContradiction
        intro h
        rw [ih.1.2 h] at hr
        cases hr
      refine ⟨?_, ?_⟩
      · simp only [registered, hr, List.map_cons, List.mem_cons, reduceCtorEq, false_iff]
        exact fun h => h (.inr h1)
      · intro f hf
        simp only [registered, hr, Option.some.injEq] at hf
        obtain ⟨e', k1, k2⟩ := ih.2 g hr
        exact ⟨e', List.mem_cons_of_mem _ k1, hf ▸ k2⟩
    | none =>
      have h1 := ih.1.1 hr
      by_cases he : e.1 = ns ∧ e.2.1 = m
      · refine ⟨?_, ?_⟩
        · simp [registered, hr, he]
        · intro f hf
          simp only [registered, hr, he, and_self, if_true, Option.some.injEq] at hf
          exact ⟨e, List.mem_cons_self .., he.1, he.2, hf⟩
      · refine ⟨?_, ?_⟩
        · simp only [registered, hr, he, if_false, true_iff, List.map_cons, List.mem_cons, not_or, Prod.mk.injEq]
          exact ⟨fun h => he ⟨h.1.symm, h.2.symm⟩, h1⟩
        · intro f hf
          simp [registered, hr, he] at hf

/-- The bytes of an uncompressed frame are read as that frame, whatever the reader. -/
theorem encodes_layout_flags {cfg : FrameReaderCfg} {id : UInt64} {c : Cmd} {f : FrameFlag} {p : Bytes} {A : Frame}
    (hf : FrameFlag.isCodec f = false) (h : Encodes cfg (layout id c f p) A) : A = ⟨id, f, UInt32.ofNat (c.toNat % 2 ^ 24), p⟩ := by
  have hs : srcBytes ⟨layout id c f p, []⟩ = layout id c f p ++ [] := by simp [srcBytes, segBytes]
  obtain ⟨s1, r1, -, -⟩ := h.read ⟨layout id c f p, []⟩ [] hs
  obtain ⟨cmd, p', e1, -, e2, e3, -⟩ := h
  have hl := congrArg List.length e1
  rw [layout_length, layout_length] at hl
  have hpl : p.length = p'.length := by omega
  obtain ⟨s2, -, -, r2⟩ := readFrame_layout cfg _ id c f p [] (by rw [hpl]; exact e2) (by rw [hpl]; exact e3) hs
  have hdec : decodePayload cfg f p = .ok p := by
    unfold decodePayload
    split
    · next hp => rw [hp]
    · rw [if_neg (by rw [hf]; simp)]
  rw [r1, hdec] at r2
  simp only [Except.map, Prod.mk.injEq, Except.ok.injEq] at r2
  exact r2.1

theorem encodes_layout {cfg : FrameReaderCfg} {id : UInt64} {c : Cmd} {p : Bytes} {A : Frame} (h : Encodes cfg (layout id c 0 p) A) :
    A = ⟨id, 0, UInt32.ofNat (c.toNat % 2 ^ 24), p⟩ := encodes_layout_flags (by decide) h

/-- The answer to a marshalled request, read from the bytes written by the service handler, shows what the service gives. -/
theorem serviceAnswers_gives {S : Service} {stack : Nat} {etext : PbErr → Bytes} {errCmd cmd : Cmd}
    (hS : ∀ n ∈ S.names, (0x3a : UInt8) ∉ n.1 ∧ (0x3a : UInt8) ∉ n.2) (hcmd : cmd.toNat < 2 ^ 24) (herr : errCmd.toNat < 2 ^ 24)
    (hne : cmd ≠ errCmd) {F A : Frame} (h : ServiceAnswers S stack etext errCmd cmd F A) (hF : F.cmd = cmd)
    (hA : FrameFlag.isRst A.flags = false) {m : RpcReq} (hu : m.unrec = []) (hm : (Spec.encode m).length < 2 ^ 63)
    (hp : m.marshal = some F.payload) : S.Gives m (clientSees errCmd A) ∧ A.requestID = F.requestID := by
  rcases h hF with h | ⟨codec, write, w, sub, l, cfg, hw, ⟨hn, hmay⟩, hsub, henc⟩
  · rw [hA] at h; cases h
  have hl : ∀ e ∈ l, (0x3a : UInt8) ∉ e.1 ∧ (0x3a : UInt8) ∉ e.2.1 := fun e he =>
    hS (e.1, e.2.1) (hn ▸ List.mem_map.2 ⟨e, he, rfl⟩)
  obtain ⟨d, h1, h2⟩ := C53 stack hu hm
  rw [hp] at h1
  cases h1
  have hdis := C52_dispatch l hl m.ns m.method
  have key : ∀ (c : Cmd) (p : Bytes), c.toNat < 2 ^ 24 → sub ∈ genReply codec write w F.requestID c p →
      A = ⟨F.requestID, 0, c, p⟩ := by
    intro c p hc hs
    obtain ⟨f, e1, e2⟩ := genReply_eq codec write hw F.requestID c p
    rw [e1, List.mem_singleton] at hs
    subst hs
    rw [e2] at henc
    have := encodes_layout henc
    rwa [Nat.mod_eq_of_lt hc, UInt32.ofNat_toNat] at this
  simp only [genServe, h2, hdis] at hsub
  have hreg := registered_name (ns := m.ns) (m := m.method) (l := l)
  rw [hn] at hreg
  cases hr : registered m.ns m.method l with
  | none =>
    rw [hr] at hsub
    have := key errCmd _ herr hsub
    subst this
    exact ⟨by simpa [clientSees] using Service.Gives.none (S := S) (hreg.1.1 hr), rfl⟩
  | some f =>
    rw [hr] at hsub
    simp only [] at hsub
    obtain ⟨e, k1, k2, k3, k4⟩ := hreg.2 f hr
    have hin : (m.ns, m.method) ∈ S.names := by rw [← hn, ← k2, ← k3]; exact List.mem_map.2 ⟨e, k1, rfl⟩
    have hm' := hmay e k1 m.params
    rw [k2, k3, k4] at hm'
    cases hf : f m.params with
    | panic => rw [hf] at hsub; simp at hsub
    | err t =>
      rw [hf] at hsub hm'
      have := key errCmd t herr hsub
      subst this
      exact ⟨by simpa [clientSees] using Service.Gives.err hin hm', rfl⟩
    | ok out =>
      rw [hf] at hsub hm'
      have := key F.cmd out (by rw [hF]; exact hcmd) hsub
      subst this
      exact ⟨by simpa [clientSees, hF, hne] using Service.Gives.ok hin hm', rfl⟩

/-- **C110.** In every execution of a client connection with its servers, which serve the command `cmd` with the generated service: if
call `t` submitted the marshalled request `m`, then the frame its response object got is, unchanged, one that a server submitted, and
what the generated client makes of it is what the service gives for `m` - the result of the method registered for the namespace and the
method of `m`, on the parameters of `m`; or the error it returned; or that there is no such service. However many calls are in flight
and in whichever order they are answered. (The generated client submits nothing else with this id but, possibly, a reset.) -/
theorem C110 {c : CConf} {d : Bool} {acts : List EAct} {e : ESt} (hrun : eRun c d acts = some e) (hr : e.c.ridGen < 2 ^ 63)
    {fr : Nat → Frame} {served : Nat → List Frame} {frs : Nat → Nat → Frame} {cnt : Nat → Nat} {ret : Nat → List Frame}
    (hw : Wired e fr served frs cnt ret) {S : Service} {stack : Nat} {etext : PbErr → Bytes} {errCmd cmd : Cmd}
    (hS : ∀ n ∈ S.names, (0x3a : UInt8) ∉ n.1 ∧ (0x3a : UInt8) ∉ n.2) (hcmd : cmd.toNat < 2 ^ 24) (herr : errCmd.toNat < 2 ^ 24)
    (hne : cmd ≠ errCmd) (hR : ∀ g, AnswerBy (ServiceAnswers S stack etext errCmd cmd) (served g) (frs g) (cnt g))
    {t : Nat} {f : InFrame} (h : REv.frame f ∈ e.c.revs t)
    (huniq : ∀ (u : Nat) (fu ft : CFrame), e.c.frames[u]? = some fu → e.c.frames[t]? = some ft → fu.rid = ft.rid →
      u = t ∨ FrameFlag.isRst (fr u).flags = true)
    (ht : (fr t).cmd = cmd) {m : RpcReq} (hu : m.unrec = []) (hm : (Spec.encode m).length < 2 ^ 63)
    (hp : m.marshal = some (fr t).payload) :
    ∃ g i k : Nat, k < cnt g ∧ (ret g)[i]? = some (frs g k) ∧ ((e.down g)[i]?).map Prod.fst = some f ∧ f = (frs g k).toIn ∧
      fr t ∈ served g ∧ S.Gives m (clientSees errCmd (frs g k)) := by
  obtain ⟨g, i, k, h1, h2, h3, h4, h5, h6, h7, -⟩ := C107 hrun hr hw hR h huniq
  exact ⟨g, i, k, h1, h2, h3, h4, h5, (serviceAnswers_gives hS hcmd herr hne h6 ht h7 hu hm hp).1⟩

/-- **C110, it gets the result.** While the transport connection is up and the client has read all that was returned to it: a call written
on it for which a frame with its id was returned has got exactly one frame, which shows what the service gives for it. -/
theorem C110_gets {c : CConf} {d : Bool} {acts : List EAct} {e : ESt} (hrun : eRun c d acts = some e) (hr : e.c.ridGen < 2 ^ 63)
    {fr : Nat → Frame} {served : Nat → List Frame} {frs : Nat → Nat → Frame} {cnt : Nat → Nat} {ret : Nat → List Frame}
    (hw : Wired e fr served frs cnt ret) {S : Service} {stack : Nat} {etext : PbErr → Bytes} {errCmd cmd : Cmd}
    (hS : ∀ n ∈ S.names, (0x3a : UInt8) ∉ n.1 ∧ (0x3a : UInt8) ∉ n.2) (hcmd : cmd.toNat < 2 ^ 24) (herr : errCmd.toNat < 2 ^ 24)
    (hne : cmd ≠ errCmd) (hR : ∀ g, AnswerBy (ServiceAnswers S stack etext errCmd cmd) (served g) (frs g) (cnt g))
    (hup : e.c.rwc = true) (hrd : e.c.rd = .read) (hread : e.read e.c.gen = (e.down e.c.gen).length)
    {t : Nat} {ft : CFrame} (ht : t ∈ e.c.outs e.c.gen) (hf : e.c.frames[t]? = some ft) (hresp : ft.resp = true)
    (huniq : ∀ (u : Nat) (fu : CFrame), e.c.frames[u]? = some fu → fu.rid = ft.rid → u = t ∨ FrameFlag.isRst (fr u).flags = true)
    {F : Frame} (hF : F ∈ ret e.c.gen) (hFp : FrameFlag.isPush F.flags = false) (hFid : F.requestID = ft.rid)
    (hc : (fr t).cmd = cmd) {m : RpcReq} (hu : m.unrec = []) (hm : (Spec.encode m).length < 2 ^ 63)
    (hp : m.marshal = some (fr t).payload) :
    ∃ k, k < cnt e.c.gen ∧ frs e.c.gen k ∈ ret e.c.gen ∧ e.c.revs t = [REv.frame (frs e.c.gen k).toIn] ∧
      S.Gives m (clientSees errCmd (frs e.c.gen k)) := by
  obtain ⟨k, h1, h2, -, -, h5, h6, h7⟩ := C107_gets hrun hr hw hR hup hrd hread ht hf hresp huniq hF hFp hFid
  exact ⟨k, h1, h2, h7, (serviceAnswers_gives hS hcmd herr hne h5 hc h6 hu hm hp).1⟩

/-! ## With the generated methods -/

/-- What `Client.Request` returns for the frame it read (client.go:63-71). -/
def Spec.reqResult (errCmd : Cmd) (f : Frame) : Except Bytes Bytes := if f.cmd = errCmd then .error f.payload else .ok f.payload

/-- The service printed by the generator for the methods `ms` of the main service; `may n v r`: the method `n` may return `r` for `v`
(`none`: it panics). -/
def Spec.printedService {V} (ms : List (GoMethod V)) (may : Bytes → V → Option V → Prop) : Service where
  names := ms.map fun m => ([], m.name)
  may := fun _ n p r => ∃ m ∈ ms, m.name = n ∧ ∃ impl : V → Option V, (∀ v, may n v (impl v)) ∧ r = srvMethod m impl p

/-- **C110, generated methods.** If call `t` was made by the generated method `m` with the argument `input`: what this method returns for
the frame that `t` got is something that the service's method of this name may return for `input`; provided the argument's encoding gives
it back, JSON gives back the results, the result's type does not implement Marshaler, and no method name contains a colon. -/
theorem C110_typed {V} {c : CConf} {d : Bool} {acts : List EAct} {e : ESt} (hrun : eRun c d acts = some e) (hr : e.c.ridGen < 2 ^ 63)
    {fr : Nat → Frame} {served : Nat → List Frame} {frs : Nat → Nat → Frame} {cnt : Nat → Nat} {ret : Nat → List Frame}
    (hw : Wired e fr served frs cnt ret) {ms : List (GoMethod V)} {may : Bytes → V → Option V → Prop} {stack : Nat}
    {etext : PbErr → Bytes} {errCmd cmd : Cmd} (hid : ∀ m ∈ ms, (0x3a : UInt8) ∉ m.name) (hnd : (ms.map (·.name)).Nodup)
    (hcmd : cmd.toNat < 2 ^ 24) (herr : errCmd.toNat < 2 ^ 24) (hne : cmd ≠ errCmd)
    (hR : ∀ g, AnswerBy (ServiceAnswers (printedService ms may) stack etext errCmd cmd) (served g) (frs g) (cnt g))
    {t : Nat} {f : InFrame} (h : REv.frame f ∈ e.c.revs t)
    (huniq : ∀ (u : Nat) (fu ft : CFrame), e.c.frames[u]? = some fu → e.c.frames[t]? = some ft → fu.rid = ft.rid →
      u = t ∨ FrameFlag.isRst (fr u).flags = true)
    {m : GoMethod V} (hm : m ∈ ms) {input : V} {inB : Bytes} (hlen : (Spec.encode ⟨[], m.name, inB, []⟩).length < 2 ^ 63)
    (ht : (fr t).cmd = cmd) (hp : RpcReq.marshal ⟨[], m.name, inB, []⟩ = some (fr t).payload)
    (hin : RoundTrips (if m.inT.ptrMarshaler then m.inT.own else m.inT.json) m.inT.zero input inB)
    (hctx : m.ctxPtrMarshaler = false) (hout : m.outT.ptrMarshaler = false)
    (hjson : ∀ o, may m.name input (some o) → ∃ outB, RoundTrips m.outT.json m.outT.zero o outB) :
    ∃ (g i k : Nat) (output : V), k < cnt g ∧ (ret g)[i]? = some (frs g k) ∧ ((e.down g)[i]?).map Prod.fst = some f ∧
      f = (frs g k).toIn ∧ fr t ∈ served g ∧ may m.name input (some output) ∧
      cliMethod m (fun _ => reqResult errCmd (frs g k)) input = output := by
  have hS : ∀ n ∈ (printedService ms may).names, (0x3a : UInt8) ∉ n.1 ∧ (0x3a : UInt8) ∉ n.2 := by
    intro n hn
    obtain ⟨m', h1, rfl⟩ := List.mem_map.1 hn
    exact ⟨by simp, hid m' h1⟩
  obtain ⟨g, i, k, h1, h2, h3, h4, h5, h6⟩ := C110 hrun hr hw hS hcmd herr hne hR h huniq ht rfl hlen hp
  have hname : (([] : Bytes), m.name) ∈ (printedService ms may).names := List.mem_map.2 ⟨m, hm, rfl⟩
  have hres : ∀ r, (printedService ms may).may [] m.name inB r → ∃ o outB, may m.name input o ∧
      (o = none → r = .panic) ∧ ∀ v, o = some v → r = .ok outB ∧ RoundTrips m.outT.json m.outT.zero v outB := by
    rintro r ⟨m', k1, k2, impl, k3, rfl⟩
    have hmm : m' = m := by
      obtain ⟨a, ha⟩ := List.getElem?_of_mem k1
      obtain ⟨b, hb⟩ := List.getElem?_of_mem hm
      have hab : a = b := by
        have e1 : (ms.map (·.name))[a]? = some m.name := by rw [List.getElem?_map, ha, ← k2]; rfl
        have e2 : (ms.map (·.name))[b]? = some m.name := by rw [List.getElem?_map, hb]; rfl
        have hlt : a < (ms.map (·.name)).length := (List.getElem?_eq_some_iff.1 e1).1
        exact (List.getElem?_inj hlt hnd).1 (by rw [e1, e2])
      rw [hab, hb] at ha
      exact (Option.some.inj ha).symm
    subst hmm
    have hv := k3 input
    cases ho : impl input with
    | none =>
      rw [ho] at hv
      exact ⟨none, [], hv, fun _ => by simp [srvMethod, GoMethod.inEnc, hin.2, ho], by simp⟩
    | some o =>
      rw [ho] at hv
      obtain ⟨outB, hj⟩ := hjson o hv
      refine ⟨some o, outB, hv, by simp, ?_⟩
      intro v hv'
      cases hv'
      exact ⟨by simp [srvMethod, GoMethod.inEnc, hin.2, ho, GoMethod.outEnc, hctx, hj.1], hj⟩
  have hi : m.inEnc.marshal input = .ok inB := hin.1
  generalize hx : clientSees errCmd (frs g k) = x at h6
  cases h6 with
  | none hn => exact absurd hname hn
  | err _ hmay =>
    obtain ⟨o, outB, -, e2, e3⟩ := hres _ hmay
    cases o with
    | none => exact absurd (e2 rfl) (by simp)
    | some v => exact absurd (e3 v rfl).1 (by simp)
  | @ok out _ hmay =>
    obtain ⟨o, outB, e1, e2, e3⟩ := hres _ hmay
    cases o with
    | none => exact absurd (e2 rfl) (by simp)
    | some v =>
      obtain ⟨e4, e5⟩ := e3 v rfl
      injection e4 with e4
      subst e4
      refine ⟨g, i, k, v, h1, h2, h3, h4, h5, e1, ?_⟩
      have hq : reqResult errCmd (frs g k) = .ok out := by
        unfold clientSees at hx
        unfold reqResult
        split at hx
        · cases hx
        · next hc => cases hx; rw [if_neg hc]
      simp [cliMethod, hi, hq, GoMethod.outDec, hout, e5.2]

/-! ## An execution

The client calls the methods "a" and "b"; only "a" is registered, and doubles its parameters. The second call is answered first. -/

def grA : Bytes := [0x12, 1, 0x61, 0x1a, 1, 7]
def grB : Bytes := [0x12, 1, 0x62, 0x1a, 1, 8]
def grNo : Bytes := "no such service".toUTF8.toList

def grReqs : List Frame := [⟨3, 8, 1, grA⟩, ⟨5, 0, 1, grB⟩]
def grAnswers : List Frame := [⟨5, 0, 11, grNo⟩, ⟨3, 0, 1, [7, 7]⟩]

def grService : Service := ⟨[([], [0x61])], fun _ _ p r => r = .ok (p ++ p)⟩

def grTable : List (Bytes × Bytes × (Bytes → CallRes)) := [([], [0x61], fun p => .ok (p ++ p))]

theorem grService_has : grService.Has grTable := ⟨rfl, by simp [grTable, grService]⟩

def grUp : Bytes := layout 3 1 8 grA ++ layout 5 1 0 grB
def grDown : Bytes := layout 5 11 0 grNo ++ layout 3 1 0 [7, 7]

def grSrcUp : Src := ⟨[], [.data (grUp.take 20), .data (grUp.drop 20)]⟩
def grSrcDown : Src := ⟨[], [.data (grDown.take 18), .data (grDown.drop 18)]⟩

def grStreamsUp : List SAct :=
  [.recv ⟨3, 8, 1, grA⟩, .rstep, .rstep, .rstep, .rstep, .rstep, .recv ⟨5, 0, 1, grB⟩, .rstep]

def grStreamsDown : List SAct :=
  [.wstart 3 8 true, .wstep, .wstep, .wstep, .wstart 5 0 true, .wstep, .wstep, .wstep,
   .recv ⟨5, 0, 11, grNo⟩, .rstep, .rstep, .rstep, .rstep, .rstep, .rstep, .rstep, .rstep, .rstep,
   .recv ⟨3, 0, 1, [7, 7]⟩, .rstep, .rstep]

def grServer : List GAct :=
  [.call 0 ⟨layout 3 1 0 [7, 7], false, false, false, false⟩, .call 1 ⟨layout 5 11 0 grNo, false, false, false, false⟩,
   .enq 1, .enq 0, .lock 0, .go 0, .go 0, .deq 0 true true, .deq 0 true true, .go 0, .go 0,
   .write 0 49 true, .go 0, .recv 1, .go 0, .go 0, .go 0, .go 0, .go 0]

def grClient : List EAct :=
  [.lGo, .lGo, .lGo, .request 0 false (layout 3 1 8 grA), .go 0, .go 0, .go 0, .enq 0,
   .request 1 false (layout 5 1 0 grB), .go 1, .go 1, .go 1, .enq 1,
   .wDeq true true, .wDeq true true, .wGo, .wGo, .wWrite 44 true].map .cl ++
  [.cl .rGo, .cl .rGo, .sRead 1, .sRead 1, .sSend 1 (Frame.toIn ⟨5, 0, 11, grNo⟩), .sSend 1 (Frame.toIn ⟨3, 0, 1, [7, 7]⟩),
    .recv, .cl .rGo, .cl .rGo, .recv, .cl .rGo, .cl .rGo]

def grFr : Nat → Frame
  | 0 => ⟨3, 8, 1, grA⟩
  | _ => ⟨5, 0, 1, grB⟩

def grFrs : Nat → Nat → Frame
  | _, 0 => ⟨5, 0, 11, grNo⟩
  | _, _ => ⟨3, 0, 1, [7, 7]⟩

theorem grServes : Serves ⟨100, none⟩ grUp grReqs := by
  have h1 : okFrames (readN ⟨100, none⟩ 2 grSrcUp).1 = some grReqs := by decide +kernel
  have h2 : (sRun SSt.init grStreamsUp).map (fun t => (t.recv, returned t.log)) = some (grReqs, grReqs) := by decide +kernel
  have h3 : (rdRun ⟨0, 0, 0, false⟩ 0 hDispatch).map (fun u => (u.arr.map Prod.fst, u.log.filterMap startOf)) =
      some (grReqs.map Frame.toR, [0, 1]) := by decide +kernel
  obtain ⟨t, h5, h6⟩ := Option.map_eq_some_iff.1 h2
  obtain ⟨u, h7, h8⟩ := Option.map_eq_some_iff.1 h3
  simp only [Prod.mk.injEq] at h6 h8
  refine ⟨grSrcUp, 2, _, grStreamsUp, t, _, 0, hDispatch, u, ?_, okFrames_ok h1, h5, h6.1, h7, ?_, ?_⟩
  · exact (by decide +kernel : srcBytes grSrcUp = grUp) ▸ List.prefix_refl _
  · rw [h8.1, h6.2]; exact List.prefix_refl _
  · rw [h8.2, h6.2]; rfl

theorem grArrives : ∃ (gs : GSt), gRun 2 grServer = some gs ∧ gs.frames.map (·.bytes) = [layout 5 11 0 grNo, layout 3 1 0 [7, 7]] ∧
    Arrives ⟨0, none⟩ gs.wire grAnswers grAnswers := by
  have h1 : (gRun 2 grServer).map (fun s => (s.wire, s.frames.map (·.bytes))) =
      some (grDown, [layout 5 11 0 grNo, layout 3 1 0 [7, 7]]) := by decide +kernel
  have h2 : okFrames (readN ⟨0, none⟩ 2 grSrcDown).1 = some grAnswers := by decide +kernel
  have h3 : (sRun SSt.init grStreamsDown).map (fun t => (t.recv, returned t.log)) = some (grAnswers, grAnswers) := by decide +kernel
  obtain ⟨gs, h4, h5⟩ := Option.map_eq_some_iff.1 h1
  obtain ⟨t, h6, h7⟩ := Option.map_eq_some_iff.1 h3
  simp only [Prod.mk.injEq] at h5 h7
  refine ⟨gs, h4, h5.2, grSrcDown, 2, grStreamsDown, t, ?_, okFrames_ok h2, h6, h7.1, h7.2.symm⟩
  rw [h5.1]
  exact (by decide +kernel : srcBytes grSrcDown = grDown) ▸ List.prefix_refl _

theorem grEncA : Encodes ⟨100, none⟩ (layout 3 1 8 grA) ⟨3, 8, 1, grA⟩ := ⟨1, grA, rfl, by decide, by decide, .inr (by decide), rfl⟩
theorem grEncB : Encodes ⟨100, none⟩ (layout 5 1 0 grB) ⟨5, 0, 1, grB⟩ := ⟨1, grB, rfl, by decide, by decide, .inr (by decide), rfl⟩
theorem grEncNo : Encodes ⟨0, none⟩ (layout 5 11 0 grNo) ⟨5, 0, 11, grNo⟩ :=
  ⟨11, grNo, rfl, by decide, by decide +kernel, .inl (by decide), by
    show decodePayload _ 0 grNo = .ok grNo
    rw [decodePayload, if_neg (by decide +kernel), if_neg (by decide)]⟩
theorem grEncOk : Encodes ⟨0, none⟩ (layout 3 1 0 [7, 7]) ⟨3, 0, 1, [7, 7]⟩ := ⟨1, [7, 7], rfl, by decide, by decide, .inl (by decide), rfl⟩

/-- The answers are the service's. -/
theorem grServed {S : Service} (hS : S.Has grTable) : ServiceAnswers S 5 (fun _ => []) 11 1 ⟨5, 0, 1, grB⟩ ⟨5, 0, 11, grNo⟩ ∧
    ServiceAnswers S 5 (fun _ => []) 11 1 ⟨3, 8, 1, grA⟩ ⟨3, 0, 1, [7, 7]⟩ := by
  constructor
  · intro _
    obtain ⟨f, e1, e2⟩ := genReply_eq none (fun _ => (none : Option Bytes)) new_clean 5 11 grNo
    refine .inr ⟨none, fun _ => none, DFW.new, f, grTable, ⟨0, none⟩, new_clean, hS, ?_, by rw [e2]; exact grEncNo⟩
    have h : (genServe none (fun _ => (none : Option Bytes)) 5 (fun _ => []) 11 (genTable grTable) DFW.new 5 1 grB).frames = [f] := by
      rw [← e1]; rfl
    show f ∈ (genServe none (fun _ => (none : Option Bytes)) 5 (fun _ => []) 11 (genTable grTable) DFW.new 5 1 grB).frames
    rw [h]; exact List.mem_singleton.2 rfl
  · intro _
    obtain ⟨f, e1, e2⟩ := genReply_eq none (fun _ => (none : Option Bytes)) new_clean 3 1 [7, 7]
    refine .inr ⟨none, fun _ => none, DFW.new, f, grTable, ⟨0, none⟩, new_clean, hS, ?_, by rw [e2]; exact grEncOk⟩
    have h : (genServe none (fun _ => (none : Option Bytes)) 5 (fun _ => []) 11 (genTable grTable) DFW.new 3 1 grA).frames = [f] := by
      rw [← e1]; rfl
    show f ∈ (genServe none (fun _ => (none : Option Bytes)) 5 (fun _ => []) 11 (genTable grTable) DFW.new 3 1 grA).frames
    rw [h]; exact List.mem_singleton.2 rfl

/-- The payloads are the marshalled requests. -/
theorem grMarshal : RpcReq.marshal ⟨[], [0x61], [7], []⟩ = some grA ∧ RpcReq.marshal ⟨[], [0x62], [8], []⟩ = some grB := by decide +kernel

/-- The method "a" as a method from byte strings to byte strings which doubles. -/
def grT : GoType Bytes :=
  let id : GoEnc Bytes := ⟨fun v => .ok v, fun b _ => (b, none)⟩
  { name := ascii "T", ptrMarshaler := false, own := id, json := id, zero := [], setError := fun e _ => e }

def grMeth : GoMethod Bytes :=
  { name := [0x61], nIn := 2, ctxOk := true, ctxPtrMarshaler := false, inT := grT, nOut := 1, outT := grT, outOk := true }

def grMay (_ : Bytes) (v : Bytes) (r : Option Bytes) : Prop := r = some (v ++ v)

/-- The hypotheses of C110_typed about the service and the method hold of it. -/
theorem grPrinted : (printedService [grMeth] grMay).Has grTable ∧ RoundTrips grT.json grT.zero [7] [7] ∧
    (∀ o, grMay [0x61] [7] (some o) → ∃ outB, RoundTrips grT.json grT.zero o outB) ∧ grMay [0x61] [7] (some [7, 7]) ∧
    cliMethod grMeth (fun _ => reqResult 11 ⟨3, 0, 1, [7, 7]⟩) [7] = [7, 7] := by
  refine ⟨⟨rfl, ?_⟩, ⟨rfl, rfl⟩, fun o _ => ⟨o, rfl, rfl⟩, rfl, by decide +kernel⟩
  intro e he p
  obtain rfl := List.mem_singleton.1 he
  exact ⟨grMeth, by simp, rfl, fun v => some (v ++ v), fun v => rfl, rfl⟩

/-- The hypotheses of C110, C110_gets and C110_typed hold in it (for both calls; those of C110_typed for the first). -/
theorem gr_wired {e : ESt}
    (d1 : e.down = setAt (setAt (fun _ => []) 1 [(Frame.toIn ⟨5, 0, 11, grNo⟩, 2)]) 1
        [(Frame.toIn ⟨5, 0, 11, grNo⟩, 2), (Frame.toIn ⟨3, 0, 1, [7, 7]⟩, 2)])
    (d2 : (e.c.frames.map fun f => (f.rid, f.bytes)) = [(3, layout 3 1 8 grA), (5, layout 5 1 0 grB)]) (d3 : e.c.wires 1 = grUp) :
    Wired e grFr (fun g => if g = 1 then grReqs else []) grFrs (fun g => if g = 1 then 2 else 0)
      (fun g => if g = 1 then grAnswers else []) := by
  have hfr : ∀ (t : Nat) (f : CFrame), e.c.frames[t]? = some f →
      (t = 0 ∧ f.rid = 3 ∧ f.bytes = layout 3 1 8 grA) ∨ (t = 1 ∧ f.rid = 5 ∧ f.bytes = layout 5 1 0 grB) := by
    intro t f ht
    have h5 : (e.c.frames.map fun f => (f.rid, f.bytes))[t]? = some (f.rid, f.bytes) := by rw [List.getElem?_map, ht]; rfl
    rw [d2] at h5
    match t, h5 with
    | 0, h5 => simp at h5; exact .inl ⟨rfl, h5.1.symm, h5.2.symm⟩
    | 1, h5 => simp at h5; exact .inr ⟨rfl, h5.1.symm, h5.2.symm⟩
    | t + 2, h5 => simp at h5
  obtain ⟨gs, g1, g2, g3⟩ := grArrives
  refine ⟨⟨fun _ => ⟨100, none⟩, ?_, ?_⟩, ?_, ?_, ?_⟩
  · intro g t f ht
    rcases hfr t f ht with ⟨rfl, -, h⟩ | ⟨rfl, -, h⟩
    · rw [h]; exact grEncA
    · rw [h]; exact grEncB
  · intro g
    split
    · next hg => subst hg; rw [d3]; exact grServes
    · exact Serves_none _ _
  · intro t f ht
    rcases hfr t f ht with ⟨rfl, h, -⟩ | ⟨rfl, h, -⟩ <;> rw [h] <;> rfl
  · intro g
    by_cases hg : g = 1
    · subst hg
      have hl := congrArg List.length g2
      simp only [List.length_map, List.length_cons, List.length_nil] at hl
      refine ⟨2, grServer, gs, ⟨0, none⟩, grAnswers, g1, hl, ?_, g3⟩
      intro k f hk
      have h5 : (gs.frames.map (·.bytes))[k]? = some f.bytes := by rw [List.getElem?_map, hk]; rfl
      rw [g2] at h5
      match k, h5 with
      | 0, h5 => simp at h5; rw [← h5]; exact grEncNo
      | 1, h5 => simp at h5; rw [← h5]; exact grEncOk
      | k + 2, h5 => simp at h5
    · simp only [hg, if_false]
      exact ⟨0, [], _, ⟨0, none⟩, [], rfl, rfl, by simp [GSt.init], ⟨[], []⟩, 0, [], SSt.init, List.nil_prefix, rfl, rfl, rfl, rfl⟩
  · intro g
    rw [d1]
    by_cases hg : g = 1
    · subst hg; rfl
    · simp [setAt, hg]

theorem gr_answers (S : Service) (hS : S.Has grTable) (g : Nat) :
    AnswerBy (ServiceAnswers S 5 (fun _ => []) 11 1) (if g = 1 then grReqs else []) (grFrs g) (if g = 1 then 2 else 0) := by
  intro k hk _ _
  by_cases hg : g = 1
  · subst hg
    match k, hk with
    | 0, _ => exact ⟨⟨5, 0, 1, grB⟩, by simp [grReqs], rfl, (grServed hS).1⟩
    | 1, _ => exact ⟨⟨3, 8, 1, grA⟩, by simp [grReqs], rfl, (grServed hS).2⟩
  · simp [hg] at hk

theorem gr_example : ∃ e, eRun cfg2 true grClient = some e ∧ e.c.ridGen = 2 ∧
    Wired e grFr (fun g => if g = 1 then grReqs else []) grFrs (fun g => if g = 1 then 2 else 0)
      (fun g => if g = 1 then grAnswers else []) ∧
    (∀ S : Service, S.Has grTable → ∀ g, AnswerBy (ServiceAnswers S 5 (fun _ => []) 11 1) (if g = 1 then grReqs else []) (grFrs g) (if g = 1 then 2 else 0)) ∧
    e.c.revs 0 = [.frame (Frame.toIn ⟨3, 0, 1, [7, 7]⟩)] ∧ e.c.revs 1 = [.frame (Frame.toIn ⟨5, 0, 11, grNo⟩)] ∧
    e.c.frames.map (·.rid) = [3, 5] ∧ e.c.rwc = true ∧ e.c.rd = .read ∧ e.c.gen = 1 ∧ e.read 1 = (e.down 1).length ∧
    e.c.outs 1 = [0, 1] := by
  have h1 : (eRun cfg2 true grClient).map (fun e => (e.down, (e.c.frames.map fun f => (f.rid, f.bytes)), e.c.wires 1, e.c.ridGen)) =
      some (setAt (setAt (fun _ => []) 1 [(Frame.toIn ⟨5, 0, 11, grNo⟩, 2)]) 1
        [(Frame.toIn ⟨5, 0, 11, grNo⟩, 2), (Frame.toIn ⟨3, 0, 1, [7, 7]⟩, 2)],
        [(3, layout 3 1 8 grA), (5, layout 5 1 0 grB)], grUp, 2) := by rfl
  have h2 : (eRun cfg2 true grClient).map (fun e => (e.c.revs 0, e.c.revs 1, e.c.rwc, decide (e.c.rd = .read), e.c.gen, e.read 1, e.c.outs 1)) =
      some ([.frame (Frame.toIn ⟨3, 0, 1, [7, 7]⟩)], [.frame (Frame.toIn ⟨5, 0, 11, grNo⟩)], true, true, 1, 2, [0, 1]) := by rfl
  obtain ⟨e, h3, h4⟩ := Option.map_eq_some_iff.1 h1
  rw [h3] at h2
  simp only [Prod.mk.injEq, Option.map_some, Option.some.injEq, decide_eq_true_eq] at h2 h4
  obtain ⟨d1, d2, d3, d4⟩ := h4
  obtain ⟨r1, r2, r3, r4, r5, r6, r7⟩ := h2
  refine ⟨e, h3, d4, gr_wired d1 d2 d3, gr_answers, r1, r2, ?_, r3, r4, r5, ?_, r7⟩
  · have := congrArg (List.map Prod.fst) d2
    rw [List.map_map] at this
    exact this
  · rw [r6, d1]; rfl

end Qrpc
