import Verif.Lemmas.WriteFrame
import Verif.Model.WriterPool
import Verif.Model.FirstFrame
import Verif.Props.Flags
/-! # C09 (payload is what was written), C10 (stream writer identity) -/
namespace Qrpc
open Spec

/-! ## C09 -/

/-- What the user asked for on handle `h`: arguments of the last `StartWrite` and everything written since, read off the
history of calls alone. -/
def Spec.lastFrame (h : Nat) : List PAct → Option (UInt64 × Cmd × FrameFlag × Bytes) → Option (UInt64 × Cmd × FrameFlag × Bytes)
  | [], acc => acc
  | .start k id c f :: as, acc => lastFrame h as (if k = h then some (id, c, f, []) else acc)
  | .write k v :: as, acc => lastFrame h as (if k = h then acc.map (fun (i, c, f, p) => (i, c, f, p ++ v)) else acc)
  | .reset k id r :: as, acc => lastFrame h as (if k = h then some (id, r, StreamRstFlag, []) else acc)
  | _ :: as, acc => lastFrame h as acc

/-- The handle that submitted the last action's frame. -/
def Spec.actHandle : PAct → Nat
  | .get h _ | .start h _ _ _ | .write h _ | .endWrite h | .reset h _ _ | .finalize h | .mark h _ _ => h

/-- A history in which every frame begun on a handed-out writer is finished before the next one is begun or the writer
is given back, and nothing is written outside a frame. `opn` = handles with an unfinished frame. -/
def Spec.disciplined : List PAct → (Nat → Bool) → Bool
  | [], _ => true
  | .get _ _ :: as, opn => disciplined as opn
  | .start h _ _ _ :: as, opn => !opn h && disciplined as (fun k => if k = h then true else opn k)
  | .write h _ :: as, opn => opn h && disciplined as opn
  | .endWrite h :: as, opn => opn h && disciplined as (fun k => if k = h then false else opn k)
  | .reset h _ _ :: as, opn => !opn h && disciplined as opn
  | .finalize h :: as, opn => !opn h && disciplined as opn
  | .mark _ _ _ :: as, opn => disciplined as opn

theorem lastFrame_append (h : Nat) (as bs : List PAct) (acc) :
    lastFrame h (as ++ bs) acc = lastFrame h bs (lastFrame h as acc) := by
  induction as generalizing acc with
  | nil => rfl
  | cons a as ih => cases a <;> simp only [List.cons_append, lastFrame, ih]

/-- Invariant of disciplined histories: pooled and idle writers are clean, a writer with a frame under way holds exactly it. -/
structure PoolInv (s : PoolSt) (past : List PAct) (opn : Nat → Bool) : Prop where
  free : ∀ d ∈ s.free, d.Clean
  closed : ∀ h d, s.live h = some d → opn h = false → d.Clean
  opened : ∀ h d, s.live h = some d → opn h = true →
    ∃ id c f, d.Holds id c f ∧ lastFrame h past none = some (id, c, f, d.payload)
  liveOpen : ∀ h, opn h = true → s.live h ≠ none

theorem lastFrame_other (k : Nat) (past : List PAct) (a : PAct) (h : actHandle a ≠ k) :
    lastFrame k (past ++ [a]) none = lastFrame k past none := by
  rw [lastFrame_append]
  cases a <;> simp_all [lastFrame, actHandle]

/-- Updating one handle preserves the invariant if the new writer satisfies it. -/
theorem PoolInv.update {s : PoolSt} {past : List PAct} {opn : Nat → Bool} (inv : PoolInv s past opn)
    (a : PAct) (h : Nat) (ha : actHandle a = h) (d' : DFW) (o : Bool) (fr : List DFW) (hfr : ∀ d ∈ fr, d.Clean)
    (hc : o = false → d'.Clean)
    (ho : o = true → ∃ id c f, d'.Holds id c f ∧ lastFrame h (past ++ [a]) none = some (id, c, f, d'.payload)) :
    PoolInv ({ s with free := fr }.set h (some d')) (past ++ [a]) (fun k => if k = h then o else opn k) := by
  constructor
  · exact hfr
  · intro k d hl hk
    simp only [PoolSt.set] at hl hk
    by_cases e : k = h
    · rw [if_pos e] at hl hk; simp only [Option.some.injEq] at hl; subst hl; exact hc hk
    · rw [if_neg e] at hl hk; exact inv.closed k d hl hk
  · intro k d hl hk
    simp only [PoolSt.set] at hl hk
    by_cases e : k = h
    · rw [if_pos e] at hl hk; simp only [Option.some.injEq] at hl; subst hl; subst e; exact ho hk
    · rw [if_neg e] at hl hk
      obtain ⟨id, c, f, h1, h2⟩ := inv.opened k d hl hk
      exact ⟨id, c, f, h1, by rw [lastFrame_other k past a (by rw [ha]; exact fun x => e x.symm)]; exact h2⟩
  · intro k hk
    simp only [PoolSt.set] at hk ⊢
    by_cases e : k = h
    · simp [e]
    · rw [if_neg e] at hk ⊢; exact inv.liveOpen k hk

/-- **C09, partial.** In every history of calls on handed-out writers, with arbitrary recycling through the pool, in which
frames are properly finished (`disciplined`) and the codec does not report errors, every frame submitted carries exactly
the id, command and flags of the matching `StartWrite` and the concatenation of the `WriteBytes` since then (passed
through the codec iff its flag is set, see C08).
Missing for the full claim: histories with unfinished frames (handlers that return or panic before `EndWrite`, `EndWrite`
failing with a codec error) — false, see `C09_refuted_*`. -/
theorem C09_payload_partial (codec : Option Codec) (acts : List PAct) (sent : List (List PAct × DFW))
    (hcodec : ∀ c, codec = some c → ∀ p, (c.encode p).2.isSome)
    (hnone : codec = none → ∀ h id c f, PAct.start h id c f ∈ acts → FrameFlag.isCodec f = false)
    (hdisc : disciplined acts (fun _ => false) = true)
    (hrun : poolRun codec PoolSt.init [] acts = some sent) :
    ∀ past sub, (past, sub) ∈ sent → ∃ a id c f p f' p', past.getLast? = some a ∧
      lastFrame (actHandle a) past none = some (id, c, f, p) ∧
      sub.wbuf = layout id c f' p' ∧
      (FrameFlag.isCodec f = false → f' = f ∧ p' = p) ∧ sentAs codec f p = .ok (f', p') := by
  suffices H : ∀ (acts : List PAct) (s : PoolSt) (past : List PAct) (opn : Nat → Bool) (sent : List (List PAct × DFW)),
      PoolInv s past opn →
      (codec = none → ∀ h id c f p, lastFrame h past none = some (id, c, f, p) → FrameFlag.isCodec f = false) →
      (codec = none → ∀ h id c f, PAct.start h id c f ∈ acts → FrameFlag.isCodec f = false) →
      disciplined acts opn = true → poolRun codec s past acts = some sent →
      ∀ pst sub, (pst, sub) ∈ sent → ∃ a id c f p f' p', pst.getLast? = some a ∧
        lastFrame (actHandle a) pst none = some (id, c, f, p) ∧ sub.wbuf = layout id c f' p' ∧
        (FrameFlag.isCodec f = false → f' = f ∧ p' = p) ∧ sentAs codec f p = .ok (f', p') from
    H acts PoolSt.init [] _ sent ⟨by simp [PoolSt.init], by simp [PoolSt.init], by simp [PoolSt.init], by simp⟩
      (by simp [lastFrame]) hnone hdisc hrun
  clear hdisc hrun hnone sent acts
  have sentOk : ∀ f p, (codec = none → FrameFlag.isCodec f = false) →
      ∃ f' p', sentAs codec f p = .ok (f', p') ∧ (FrameFlag.isCodec f = false → f' = f ∧ p' = p) := by
    intro f p hf
    unfold sentAs
    split
    · next hp => exact ⟨_, _, rfl, fun h => ⟨toNonCodec_of_not f h, hp.symm⟩⟩
    · split
      · next hc =>
        cases hcd : codec with
        | none => rw [hf hcd] at hc; simp at hc
        | some cd =>
          simp only
          have := hcodec cd hcd p
          cases he : (cd.encode p).2 with
          | none => simp [he] at this
          | some e =>
            simp only
            split
            · exact ⟨_, _, rfl, by simp [hc]⟩
            · exact ⟨_, _, rfl, by simp [hc]⟩
      · exact ⟨_, _, rfl, fun _ => ⟨rfl, rfl⟩⟩
  intro acts
  induction acts with
  | nil => intro s past opn sent _ _ _ _ hrun; simp only [poolRun, Option.some.injEq] at hrun; subst hrun; simp
  | cons a as ih =>
    intro s past opn sent inv hpast hnone hdisc hrun
    simp only [poolRun] at hrun
    cases hst : poolStep codec s a with
    | none => rw [hst] at hrun; simp at hrun
    | some r =>
      obtain ⟨s', sub⟩ := r
      rw [hst] at hrun; simp only at hrun
      cases hrest : poolRun codec s' (past ++ [a]) as with
      | none => rw [hrest] at hrun; simp at hrun
      | some rest =>
        rw [hrest] at hrun; simp only [Option.some.injEq] at hrun; subst hrun
        have hnone' : codec = none → ∀ h id c f, PAct.start h id c f ∈ as → FrameFlag.isCodec f = false :=
          fun hc h id c f hm => hnone hc h id c f (by simp [hm])
        -- it suffices to re-establish the invariant and to describe the frame submitted now
        suffices K : ∃ opn', PoolInv s' (past ++ [a]) opn' ∧ disciplined as opn' = true ∧
            (codec = none → ∀ h id c f p, lastFrame h (past ++ [a]) none = some (id, c, f, p) → FrameFlag.isCodec f = false) ∧
            (∀ d, sub = some d → ∃ id c f p f' p', lastFrame (actHandle a) (past ++ [a]) none = some (id, c, f, p) ∧
              d.wbuf = layout id c f' p' ∧ (FrameFlag.isCodec f = false → f' = f ∧ p' = p) ∧
              sentAs codec f p = .ok (f', p')) by
          obtain ⟨opn', k1, k2, k3, k4⟩ := K
          intro pst d hm
          rw [List.mem_append] at hm
          rcases hm with hm | hm
          · cases sub with
            | none => simp at hm
            | some d' =>
              simp only [List.mem_singleton, Prod.mk.injEq] at hm; obtain ⟨rfl, rfl⟩ := hm
              obtain ⟨id, c, f, p, f', p', q1, q2, q3, q4⟩ := k4 d rfl
              exact ⟨a, id, c, f, p, f', p', by simp, q1, q2, q3, q4⟩
          · exact ih s' (past ++ [a]) opn' rest k1 k3 hnone' k2 hrest pst d hm
        have hpast' : (∀ h id c f, a = PAct.start h id c f → codec = none → FrameFlag.isCodec f = false) →
            codec = none → ∀ h id c f p, lastFrame h (past ++ [a]) none = some (id, c, f, p) → FrameFlag.isCodec f = false := by
          intro hst hcn h id c f p hlf
          rw [lastFrame_append] at hlf
          cases a with
          | get => exact hpast hcn h id c f p hlf
          | endWrite => exact hpast hcn h id c f p hlf
          | finalize => exact hpast hcn h id c f p hlf
          | mark => exact hpast hcn h id c f p hlf
          | start k id' c' f' =>
            simp only [lastFrame] at hlf
            split at hlf
            · simp only [Option.some.injEq, Prod.mk.injEq] at hlf
              rw [← hlf.2.2.1]; exact hst _ _ _ _ rfl hcn
            · exact hpast hcn h id c f p hlf
          | reset k id' c' =>
            simp only [lastFrame] at hlf
            split at hlf
            · simp only [Option.some.injEq, Prod.mk.injEq] at hlf
              rw [← hlf.2.2.1]; decide
            · exact hpast hcn h id c f p hlf
          | write k v =>
            simp only [lastFrame] at hlf
            split at hlf
            · rw [Option.map_eq_some_iff] at hlf
              obtain ⟨⟨i, c', f', p'⟩, q1, q2⟩ := hlf
              simp only [Prod.mk.injEq] at q2
              rw [← q2.2.2.1]; exact hpast hcn h i c' f' p' q1
            · exact hpast hcn h id c f p hlf
        have hpast'' := hpast' (fun h id c f e hcn => hnone hcn h id c f (by rw [e]; simp))
        clear hpast'
        cases a with
        | get h which =>
          simp only [disciplined] at hdisc
          simp only [poolStep] at hst
          cases hlv : s.live h with
          | some _ => rw [hlv] at hst; simp at hst
          | none =>
            rw [hlv] at hst; simp only at hst
            have hopn : opn h = false := by
              cases ho : opn h with
              | false => rfl
              | true => exact absurd hlv (inv.liveOpen h ho)
            have heq : (fun k => if k = h then false else opn k) = opn := by
              funext k; split
              · next e => rw [e, hopn]
              · rfl
            cases which with
            | none =>
              simp only [Option.some.injEq, Prod.mk.injEq] at hst; obtain ⟨rfl, rfl⟩ := hst
              refine ⟨opn, ?_, hdisc, hpast'', by simp⟩
              have := inv.update (.get h none) h rfl DFW.new.fromPool false s.free inv.free (fun _ => rfl) (by simp)
              rwa [heq] at this
            | some i =>
              simp only at hst
              cases hi : s.free[i]? with
              | none => rw [hi] at hst; simp at hst
              | some d =>
                rw [hi] at hst; simp only [Option.some.injEq, Prod.mk.injEq] at hst; obtain ⟨rfl, rfl⟩ := hst
                refine ⟨opn, ?_, hdisc, hpast'', by simp⟩
                have := inv.update (.get h (some i)) h rfl d.fromPool false (s.free.eraseIdx i)
                  (fun x hx => inv.free x (List.mem_of_mem_eraseIdx hx))
                  (fun _ => inv.free d (List.mem_of_getElem? hi)) (by simp)
                rwa [heq] at this
        | start h id c f =>
          simp only [disciplined, Bool.and_eq_true, Bool.not_eq_true'] at hdisc
          simp only [poolStep, Option.map_eq_some_iff, Prod.mk.injEq] at hst
          obtain ⟨d, hl, rfl, rfl⟩ := hst
          have hcl := inv.closed h d hl hdisc.1
          have hlen : 16 ≤ d.wbuf.length := by unfold DFW.Clean at hcl; omega
          refine ⟨_, inv.update (.start h id c f) h rfl (d.startWrite id c f) true s.free inv.free (by simp) ?_,
            hdisc.2, hpast'', by simp⟩
          intro _
          refine ⟨id, c, f, DFW.startWrite_holds d id c f hlen, ?_⟩
          rw [lastFrame_append, DFW.startWrite_payload d id c f hlen, hcl.payload_nil]; simp [lastFrame]
        | write h v =>
          simp only [disciplined, Bool.and_eq_true] at hdisc
          simp only [poolStep, Option.map_eq_some_iff, Prod.mk.injEq] at hst
          obtain ⟨d, hl, rfl, rfl⟩ := hst
          obtain ⟨id, c, f, h1, h2⟩ := inv.opened h d hl hdisc.1
          have heq : (fun k => if k = h then true else opn k) = opn := by
            funext k; split
            · next e => rw [e, hdisc.1]
            · rfl
          refine ⟨opn, ?_, hdisc.2, hpast'', by simp⟩
          have := inv.update (.write h v) h rfl (d.writeBytes v) true s.free inv.free (by simp) (by
            intro _
            obtain ⟨h3, h4⟩ := h1.writeBytes v
            refine ⟨id, c, f, h3, ?_⟩
            rw [lastFrame_append, h2, h4]; simp [lastFrame])
          rwa [heq] at this
        | endWrite h =>
          simp only [disciplined, Bool.and_eq_true] at hdisc
          simp only [poolStep, Option.map_eq_some_iff, Prod.mk.injEq] at hst
          obtain ⟨d, hl, rfl, rfl⟩ := hst
          obtain ⟨id, c, f, h1, h2⟩ := inv.opened h d hl hdisc.1
          obtain ⟨f', p', hs, hs'⟩ := sentOk f d.payload (fun hcn => hpast hcn h id c f d.payload h2)
          obtain ⟨sub, e1, e2, _, _, _, e3, e4⟩ := endWrite_ok h1 codec (fun _ => (none : Option Empty)) hs
          refine ⟨_, inv.update (.endWrite h) h rfl _ false s.free inv.free (fun _ => Holds_clean e3 e4) (by simp),
            hdisc.2, hpast'', ?_⟩
          intro d' hd'
          rw [e1] at hd'; simp only [Option.some.injEq] at hd'; subst hd'
          exact ⟨id, c, f, d.payload, f', p', by rw [lastFrame_append]; exact h2, e2, hs', hs⟩
        | reset h id r =>
          simp only [disciplined, Bool.and_eq_true, Bool.not_eq_true'] at hdisc
          simp only [poolStep, Option.map_eq_some_iff, Prod.mk.injEq] at hst
          obtain ⟨d, hl, rfl, rfl⟩ := hst
          have hcl := inv.closed h d hl hdisc.1
          have hlen : 16 ≤ d.wbuf.length := by unfold DFW.Clean at hcl; omega
          have heq : (fun k => if k = h then false else opn k) = opn := by
            funext k; split
            · next e => rw [e, hdisc.1]
            · rfl
          have h1 := DFW.startWrite_holds d id r StreamRstFlag hlen
          have hp : (d.startWrite id r StreamRstFlag).payload = [] := by
            rw [DFW.startWrite_payload d id r _ hlen, hcl.payload_nil]
          have hs : sentAs codec StreamRstFlag (d.startWrite id r StreamRstFlag).payload = .ok (StreamRstFlag, []) := by
            rw [hp]; rfl
          obtain ⟨sub, e1, e2, _, _, _, e3, e4⟩ := endWrite_ok h1 codec (fun _ => (none : Option Empty)) hs
          refine ⟨opn, ?_, hdisc.2, hpast'', ?_⟩
          · have := inv.update (.reset h id r) h rfl (d.resetFrame codec (fun _ => (none : Option Empty)) id r).dfw
              false s.free inv.free (fun _ => Holds_clean e3 e4) (by simp)
            rwa [heq] at this
          · intro d' hd'
            have : (d.resetFrame codec (fun _ => (none : Option Empty)) id r).submitted = some sub := e1
            rw [this] at hd'; simp only [Option.some.injEq] at hd'; subst hd'
            refine ⟨id, r, StreamRstFlag, [], StreamRstFlag, [], ?_, e2, fun _ => ⟨rfl, rfl⟩, rfl⟩
            rw [lastFrame_append]; simp [lastFrame, actHandle]
        | mark h r ce =>
          simp only [disciplined] at hdisc
          simp only [poolStep, Option.map_eq_some_iff, Prod.mk.injEq] at hst
          obtain ⟨d, hl, rfl, rfl⟩ := hst
          refine ⟨opn, ?_, hdisc, hpast'', by simp⟩
          have heq : (fun k => if k = h then opn h else opn k) = opn := by
            funext k; split
            · next e => rw [e]
            · rfl
          have := inv.update (.mark h r ce) h rfl { d with resp := r, checkExist := ce } (opn h) s.free inv.free
            (fun ho => inv.closed h d hl ho) (fun ho => by
              obtain ⟨id, c, f, h1, h2⟩ := inv.opened h d hl ho
              exact ⟨id, c, f, h1, by rw [lastFrame_append]; exact h2⟩)
          rwa [heq] at this
        | finalize h =>
          simp only [disciplined, Bool.and_eq_true, Bool.not_eq_true'] at hdisc
          simp only [poolStep, Option.map_eq_some_iff, Prod.mk.injEq] at hst
          obtain ⟨d, hl, rfl, rfl⟩ := hst
          have hcl := inv.closed h d hl hdisc.1
          refine ⟨opn, ?_, hdisc.2, hpast'', by simp⟩
          constructor
          · intro x hx
            simp only [PoolSt.set, List.mem_cons] at hx
            rcases hx with rfl | hx
            · exact hcl
            · exact inv.free x hx
          · intro k x hx hk
            simp only [PoolSt.set] at hx
            split at hx
            · simp at hx
            · exact inv.closed k x hx hk
          · intro k x hx hk
            simp only [PoolSt.set] at hx
            split at hx
            · simp at hx
            · next e =>
              obtain ⟨id, c, f, q1, q2⟩ := inv.opened k x hx hk
              exact ⟨id, c, f, q1, by rw [lastFrame_append]; exact q2⟩
          · intro k hk
            simp only [PoolSt.set]
            split
            · next e => rw [e, hdisc.1] at hk; simp at hk
            · exact inv.liveOpen k hk

/-- Non-trivial disciplined history: two writers interleaved, one recycled, a reset; it runs and sends four frames. -/
example :
    let acts : List PAct := [.get 0 none, .start 0 3 1 0, .get 1 none, .write 0 [1], .start 1 5 2 8, .write 1 [7], .endWrite 1,
      .write 0 [2], .endWrite 0, .finalize 0, .get 2 (some 0), .start 2 9 4 0, .write 2 [8], .endWrite 2, .reset 1 5 0]
    disciplined acts (fun _ => false) = true ∧
    (poolRun none PoolSt.init [] acts).map (fun l => l.map fun x => x.2.payload) = some [[7], [1, 2], [8], []] := by
  decide

/-! ### What else a pooled writer carries

`resp` (the response object the connection will register for the request id) and `checkExist` are fields of the pooled object. -/

/-- The two fields as set by the current owner of handle `h`, read off the history; a newly handed out writer has neither. -/
def Spec.lastMark (h : Nat) : List PAct → Option Nat × Bool → Option Nat × Bool
  | [], acc => acc
  | .get k _ :: as, acc => lastMark h as (if k = h then (none, false) else acc)
  | .mark k r ce :: as, acc => lastMark h as (if k = h then (r, ce) else acc)
  | _ :: as, acc => lastMark h as acc

theorem lastMark_append (h : Nat) (as bs : List PAct) (acc) :
    lastMark h (as ++ bs) acc = lastMark h bs (lastMark h as acc) := by
  induction as generalizing acc with
  | nil => rfl
  | cons a as ih => cases a <;> simp only [List.cons_append, lastMark, ih]

def DFW.marks (d : DFW) : Option Nat × Bool := (d.resp, d.checkExist)

theorem DFW.endWriteRaw_marks {ε} (write : DFW → Option ε) (d : DFW) :
    (d.endWriteRaw write).dfw.marks = d.marks ∧ ∀ s, (d.endWriteRaw write).submitted = some s → s.marks = d.marks := by
  refine ⟨rfl, ?_⟩
  intro s hs
  simp only [DFW.endWriteRaw, Option.some.injEq] at hs
  subst hs; rfl

theorem DFW.endWrite_marks {ε} (codec : Option Codec) (write : DFW → Option ε) (d : DFW) :
    (d.endWrite codec write).dfw.marks = d.marks ∧ ∀ s, (d.endWrite codec write).submitted = some s → s.marks = d.marks := by
  unfold DFW.endWrite
  dsimp only
  split
  · exact DFW.endWriteRaw_marks write _
  · split
    · split
      · exact ⟨rfl, by simp⟩
      · split
        · exact ⟨rfl, by simp⟩
        · split
          · exact DFW.endWriteRaw_marks write _
          · exact DFW.endWriteRaw_marks write _
    · exact DFW.endWriteRaw_marks write _

/-- **C09, ownership marks.** In every history whatsoever (finished frames or not), a submitted frame carries exactly the
response object and the stream-existence check that the current owner of the writer set: recycling through the pool never
passes on a previous owner's. -/
theorem C09_marks (codec : Option Codec) (acts : List PAct) (sent : List (List PAct × DFW))
    (hrun : poolRun codec PoolSt.init [] acts = some sent) :
    ∀ past sub, (past, sub) ∈ sent → ∃ a, past.getLast? = some a ∧
      (sub.resp, sub.checkExist) = lastMark (actHandle a) past (none, false) := by
  suffices H : ∀ (acts : List PAct) (s : PoolSt) (past : List PAct) (sent : List (List PAct × DFW)),
      (∀ d ∈ s.free, d.resp = none) → (∀ h d, s.live h = some d → d.marks = lastMark h past (none, false)) →
      poolRun codec s past acts = some sent → ∀ pst sub, (pst, sub) ∈ sent → ∃ a, pst.getLast? = some a ∧
      sub.marks = lastMark (actHandle a) pst (none, false) from
    H acts PoolSt.init [] sent (by simp [PoolSt.init]) (by simp [PoolSt.init]) hrun
  clear hrun sent acts
  intro acts
  induction acts with
  | nil => intro s past sent _ _ hrun; simp only [poolRun, Option.some.injEq] at hrun; subst hrun; simp
  | cons a as ih =>
    intro s past sent hfree hlive hrun
    simp only [poolRun] at hrun
    cases hst : poolStep codec s a with
    | none => rw [hst] at hrun; simp at hrun
    | some r =>
      obtain ⟨s', sub⟩ := r
      rw [hst] at hrun; simp only at hrun
      cases hrest : poolRun codec s' (past ++ [a]) as with
      | none => rw [hrest] at hrun; simp at hrun
      | some rest =>
        rw [hrest] at hrun; simp only [Option.some.injEq] at hrun; subst hrun
        suffices K : (∀ d ∈ s'.free, d.resp = none) ∧
            (∀ h d, s'.live h = some d → d.marks = lastMark h (past ++ [a]) (none, false)) ∧
            (∀ d, sub = some d → d.marks = lastMark (actHandle a) (past ++ [a]) (none, false)) by
          obtain ⟨k1, k2, k3⟩ := K
          intro pst d hm
          rw [List.mem_append] at hm
          rcases hm with hm | hm
          · cases sub with
            | none => simp at hm
            | some d' =>
              simp only [List.mem_singleton, Prod.mk.injEq] at hm; obtain ⟨rfl, rfl⟩ := hm
              exact ⟨a, by simp, k3 d rfl⟩
          · exact ih s' (past ++ [a]) rest k1 k2 hrest pst d hm
        clear ih hrest
        simp only [lastMark_append]
        cases a with
        | get h which =>
          simp only [poolStep] at hst
          cases hlv : s.live h with
          | some _ => rw [hlv] at hst; simp at hst
          | none =>
            rw [hlv] at hst; simp only at hst
            cases which with
            | none =>
              simp only [Option.some.injEq, Prod.mk.injEq] at hst; obtain ⟨rfl, rfl⟩ := hst
              refine ⟨hfree, ?_, by simp⟩
              intro k d hk
              simp only [PoolSt.set] at hk
              simp only [lastMark]
              split at hk
              · next e => subst e; simp only [Option.some.injEq] at hk; subst hk; simp [DFW.marks, DFW.new, DFW.fromPool]
              · next e => rw [if_neg (fun x => e x.symm)]; exact hlive k d hk
            | some i =>
              simp only at hst
              cases hi : s.free[i]? with
              | none => rw [hi] at hst; simp at hst
              | some d0 =>
                rw [hi] at hst; simp only [Option.some.injEq, Prod.mk.injEq] at hst; obtain ⟨rfl, rfl⟩ := hst
                refine ⟨fun x hx => hfree x (List.mem_of_mem_eraseIdx hx), ?_, by simp⟩
                intro k d hk
                simp only [PoolSt.set] at hk
                simp only [lastMark]
                split at hk
                · next e =>
                  subst e; simp only [Option.some.injEq] at hk; subst hk
                  simp [DFW.marks, DFW.fromPool, hfree d0 (List.mem_of_getElem? hi)]
                · next e => rw [if_neg (fun x => e x.symm)]; exact hlive k d hk
        | finalize h =>
          simp only [poolStep, Option.map_eq_some_iff, Prod.mk.injEq] at hst
          obtain ⟨d, hl, rfl, rfl⟩ := hst
          refine ⟨?_, ?_, by simp⟩
          · intro x hx
            simp only [PoolSt.set, List.mem_cons] at hx
            rcases hx with rfl | hx
            · rfl
            · exact hfree x hx
          · intro k x hx
            simp only [PoolSt.set] at hx
            split at hx
            · simp at hx
            · exact hlive k x hx
        | mark h r ce =>
          simp only [poolStep, Option.map_eq_some_iff, Prod.mk.injEq] at hst
          obtain ⟨d, hl, rfl, rfl⟩ := hst
          refine ⟨hfree, ?_, by simp⟩
          intro k x hx
          simp only [PoolSt.set] at hx
          simp only [lastMark]
          split at hx
          · next e => subst e; simp only [Option.some.injEq] at hx; subst hx; simp [DFW.marks]
          · next e => rw [if_neg (fun y => e y.symm)]; exact hlive k x hx
        | start h id c f =>
          simp only [poolStep, Option.map_eq_some_iff, Prod.mk.injEq] at hst
          obtain ⟨d, hl, rfl, rfl⟩ := hst
          refine ⟨hfree, ?_, by simp⟩
          intro k x hx
          simp only [PoolSt.set] at hx
          simp only [lastMark]
          split at hx
          · next e => subst e; simp only [Option.some.injEq] at hx; subst hx; exact hlive _ d hl
          · exact hlive k x hx
        | write h v =>
          simp only [poolStep, Option.map_eq_some_iff, Prod.mk.injEq] at hst
          obtain ⟨d, hl, rfl, rfl⟩ := hst
          refine ⟨hfree, ?_, by simp⟩
          intro k x hx
          simp only [PoolSt.set] at hx
          simp only [lastMark]
          split at hx
          · next e => subst e; simp only [Option.some.injEq] at hx; subst hx; exact hlive _ d hl
          · exact hlive k x hx
        | endWrite h =>
          simp only [poolStep, Option.map_eq_some_iff, Prod.mk.injEq] at hst
          obtain ⟨d, hl, rfl, rfl⟩ := hst
          obtain ⟨m1, m2⟩ := DFW.endWrite_marks codec (fun _ => (none : Option Empty)) d
          refine ⟨hfree, ?_, ?_⟩
          · intro k x hx
            simp only [PoolSt.set] at hx
            simp only [lastMark]
            split at hx
            · next e => subst e; simp only [Option.some.injEq] at hx; subst hx; rw [m1]; exact hlive _ d hl
            · exact hlive k x hx
          · intro x hx; rw [m2 x hx]; exact hlive _ d hl
        | reset h id r =>
          simp only [poolStep, Option.map_eq_some_iff, Prod.mk.injEq] at hst
          obtain ⟨d, hl, rfl, rfl⟩ := hst
          obtain ⟨m1, m2⟩ := DFW.endWrite_marks codec (fun _ => (none : Option Empty)) (d.startWrite id r StreamRstFlag)
          refine ⟨hfree, ?_, ?_⟩
          · intro k x hx
            simp only [PoolSt.set] at hx
            simp only [lastMark]
            split at hx
            · next e =>
              subst e; simp only [Option.some.injEq] at hx; subst hx
              exact m1.trans (hlive _ d hl)
            · exact hlive k x hx
          · intro x hx; exact (m2 x hx).trans (hlive _ d hl)

/-- A stream writer with a response is given back and reused: the new owner's frame has neither mark. -/
example : (poolRun none PoolSt.init []
    [.get 0 none, .mark 0 (some 7) true, .start 0 3 1 0, .endWrite 0, .finalize 0, .get 1 (some 0), .start 1 5 2 0, .endWrite 1]).map
      (fun l => l.map fun x => (x.2.resp, x.2.checkExist)) = some [(some 7, true), (none, false)] := by decide

/-- Numeric value of a big-endian byte string. -/
def Spec.beValue : Bytes → Nat := List.foldl (fun n b => n * 256 + b.toNat) 0

/-- **C09, typed writes.** `WriteUint64/32/16/8` append 8/4/2/1 bytes whose big-endian value is the argument, and change
nothing else (with C09_payload_partial, which is about the bytes appended, this covers every way of writing a payload). -/
theorem C09_typed (d : DFW) :
    (∀ v : UInt64, ∃ b, d.writeUint64 v = d.writeBytes b ∧ b.length = 8 ∧ beValue b = v.toNat) ∧
    (∀ v : UInt32, ∃ b, d.writeUint32 v = d.writeBytes b ∧ b.length = 4 ∧ beValue b = v.toNat) ∧
    (∀ v : UInt16, ∃ b, d.writeUint16 v = d.writeBytes b ∧ b.length = 2 ∧ beValue b = v.toNat) ∧
    (∀ v : UInt8, ∃ b, d.writeUint8 v = d.writeBytes b ∧ b.length = 1 ∧ beValue b = v.toNat) := by
  refine ⟨fun v => ⟨_, rfl, rfl, ?_⟩, fun v => ⟨_, rfl, rfl, ?_⟩, fun v => ⟨_, rfl, rfl, ?_⟩, fun v => ⟨_, rfl, rfl, ?_⟩⟩
  · have := v.toNat_lt
    simp [beValue, putUint64, UInt64.toNat_shiftRight, Nat.shiftRight_eq_div_pow]; omega
  · have := v.toNat_lt
    simp [beValue, putUint32, UInt32.toNat_shiftRight, Nat.shiftRight_eq_div_pow]; omega
  · have := v.toNat_lt
    simp [beValue, UInt16.toNat_shiftRight, Nat.shiftRight_eq_div_pow]; omega
  · simp [beValue]

example : (DFW.new.writeUint16 0x1234).payload = [0x12, 0x34] := by decide

/-- **C09 refuted, 1**: a handler that writes but does not finish its frame; its writer goes back to the pool
(serveconn.go:207-214) and the next user's frame — possibly on another connection — starts with the stale bytes. -/
theorem C09_refuted_recycled :
    ∃ acts sent past sub, poolRun none PoolSt.init [] acts = some sent ∧ (past, sub) ∈ sent ∧
      lastFrame 1 past none = some (5, 2, 0, [2]) ∧ sub.payload = [1, 2] :=
  ⟨[.get 0 none, .start 0 3 1 0, .write 0 [1], .finalize 0,
    .get 1 (some 0), .start 1 5 2 0, .write 1 [2], .endWrite 1], _, _, _, rfl, List.mem_singleton.mpr rfl, by decide, by decide⟩

/-- **C09 refuted, 2**: same writer (the one shared by all blocking handlers of a connection, serveconn.go:175, 203): the
first handler's `EndWrite` fails for lack of a codec, the second frame carries both payloads. -/
theorem C09_refuted_failed_end :
    ∃ acts sent past sub, poolRun none PoolSt.init [] acts = some sent ∧ (past, sub) ∈ sent ∧
      lastFrame 0 past none = some (5, 2, 0, [2]) ∧ sub.payload = [1, 2] :=
  ⟨[.get 0 none, .start 0 3 1 CodecFlag, .write 0 [1], .endWrite 0,
    .start 0 5 2 0, .write 0 [2], .endWrite 0], _, _, _, rfl, List.mem_singleton.mpr rfl, by decide, by decide⟩

/-! ## C10 -/

/-- The command a `StreamWriter` user has chosen: the last `StartWrite`/`ResetFrame`, initially that of `StreamRequest`. -/
def Spec.chosenCmd : List SwOp → Cmd → Cmd
  | [], c => c
  | .startWrite c :: ops, _ => chosenCmd ops c
  | .resetFrame r :: ops, _ => chosenCmd ops r
  | _ :: ops, c => chosenCmd ops c

theorem chosenCmd_append (as bs : List SwOp) (c : Cmd) : chosenCmd (as ++ bs) c = chosenCmd bs (chosenCmd as c) := by
  induction as generalizing c with
  | nil => rfl
  | cons a as ih => cases a <;> simp only [List.cons_append, chosenCmd, ih]

theorem sentAs_flags {codec : Option Codec} {f p f' p'} (hs : sentAs codec f p = .ok (f', p')) :
    f' = f ∨ f' = FrameFlag.toNonCodec f := by
  unfold sentAs at hs
  split at hs
  · simp only [Except.ok.injEq, Prod.mk.injEq] at hs; exact Or.inr hs.1.symm
  · split at hs
    · split at hs
      · simp at hs
      · split at hs
        · simp at hs
        · split at hs
          · simp only [Except.ok.injEq, Prod.mk.injEq] at hs; exact Or.inr hs.1.symm
          · simp only [Except.ok.injEq, Prod.mk.injEq] at hs; exact Or.inl hs.1.symm
    · simp only [Except.ok.injEq, Prod.mk.injEq] at hs; exact Or.inl hs.1.symm

/-- The reset op is not used. -/
def SwOp.isReset : SwOp → Bool
  | .resetFrame _ => true
  | _ => false

theorem flag0_kept (f : FrameFlag) (h : f.toNat.testBit 0 = true) :
    (FrameFlag.toNonCodec f).toNat.testBit 0 = true ∧ (FrameFlag.toEndStream f).toNat.testBit 0 = true ∧
    (FrameFlag.toCodec f).toNat.testBit 0 = true := by
  revert f
  suffices H : ∀ n : Fin 256, (UInt8.ofFin n).toNat.testBit 0 = true →
      (FrameFlag.toNonCodec (UInt8.ofFin n)).toNat.testBit 0 = true ∧
      (FrameFlag.toEndStream (UInt8.ofFin n)).toNat.testBit 0 = true ∧
      (FrameFlag.toCodec (UInt8.ofFin n)).toNat.testBit 0 = true from fun f h => H f.toFin h
  decide +kernel

theorem flag1_end (f : FrameFlag) :
    (FrameFlag.toEndStream f).toNat.testBit 1 = true ∧
    (FrameFlag.toNonCodec (FrameFlag.toEndStream f)).toNat.testBit 1 = true := by
  suffices H : ∀ n : Fin 256, (FrameFlag.toEndStream (UInt8.ofFin n)).toNat.testBit 1 = true ∧
    (FrameFlag.toNonCodec (FrameFlag.toEndStream (UInt8.ofFin n))).toNat.testBit 1 = true from H f.toFin
  decide +kernel

/-- One call: identity is kept; what is submitted carries it. `F` is any property of flags that the conversions keep. -/
theorem swStep_holds {ε} (codec : Option Codec) (write : DFW → Option ε) {d : DFW} {id c f} (h : d.Holds id c f)
    (op : SwOp) :
    ∃ f', (swStep codec write d op).1.Holds id (chosenCmd [op] c) f' ∧
      (op.isReset = false → f.toNat.testBit 0 = true → f'.toNat.testBit 0 = true) ∧
      (∀ sub, (swStep codec write d op).2 = some sub → ∃ p, sub.wbuf = layout id (chosenCmd [op] c) f' p) ∧
      (op = .endWrite true → (swStep codec write d op).2.isSome → f'.toNat.testBit 1 = true) ∧
      (op.isReset = true → (swStep codec write d op).2.isSome → f'.toNat.testBit 2 = true) := by
  cases op with
  | startWrite c' =>
    exact ⟨f, (h.setCmd c').1, fun _ h => h, by simp [swStep], by simp, by simp [SwOp.isReset]⟩
  | writeBytes v => exact ⟨f, (h.writeBytes v).1, fun _ h => h, by simp [swStep], by simp, by simp [SwOp.isReset]⟩
  | endWriteCompressed =>
    obtain ⟨h1, h2⟩ := h.setFlags (FrameFlag.toCodec f)
    obtain ⟨sub, e1, e2, _, _, _, e3, _⟩ := h1.endWriteRaw write
    have hd : d.endWriteCompressed write = (d.setFlags (FrameFlag.toCodec f)).endWriteRaw write := by
      unfold DFW.endWriteCompressed; rw [h.flags_eq]
    refine ⟨FrameFlag.toCodec f, ?_, fun _ hb => (flag0_kept f hb).2.2, ?_, by simp, by simp [SwOp.isReset]⟩
    · simp only [swStep, hd]; exact e3
    · intro s hs; simp only [swStep, hd, e1, Option.some.injEq] at hs; subst hs; exact ⟨_, e2⟩
  | endWrite end_ =>
    -- the frame just before EndWrite
    obtain ⟨f0, d0, h0, hd0, hf0⟩ : ∃ f0 d0, DFW.Holds d0 id c f0 ∧
        d.streamEndWrite codec write end_ = d0.endWrite codec write ∧
        f0 = (if end_ then FrameFlag.toEndStream f else f) := by
      cases end_ with
      | false => exact ⟨f, d, h, rfl, rfl⟩
      | true =>
        refine ⟨_, d.setFlags (FrameFlag.toEndStream d.flags), ?_, rfl, rfl⟩
        rw [h.flags_eq]; exact (h.setFlags _).1
    have hb0 : f.toNat.testBit 0 = true → f0.toNat.testBit 0 = true := by
      intro hb; rw [hf0]; split
      · exact (flag0_kept f hb).2.1
      · exact hb
    cases hs : sentAs codec f0 d0.payload with
    | error e =>
      obtain ⟨e1, _, e3⟩ := endWrite_error h0 codec write hs
      refine ⟨f0, ?_, fun _ => hb0, ?_, ?_, by simp [SwOp.isReset]⟩
      · simp only [swStep, hd0]; exact e3
      · intro s hs'; simp only [swStep, hd0, e1] at hs'; simp at hs'
      · intro _ hs'; simp only [swStep, hd0, e1] at hs'; simp at hs'
    | ok fp =>
      obtain ⟨f', p'⟩ := fp
      obtain ⟨sub, e1, e2, _, _, _, e3, _⟩ := endWrite_ok h0 codec write hs
      refine ⟨f', ?_, ?_, ?_, ?_, by simp [SwOp.isReset]⟩
      · simp only [swStep, hd0]; exact e3
      · intro _ hb
        rcases sentAs_flags hs with rfl | rfl
        · exact hb0 hb
        · exact (flag0_kept f0 (hb0 hb)).1
      · intro s hs'; simp only [swStep, hd0, e1, Option.some.injEq] at hs'; subst hs'; exact ⟨_, e2⟩
      · intro he _
        simp only [SwOp.endWrite.injEq] at he; subst he
        simp only [if_true] at hf0; subst hf0
        rcases sentAs_flags hs with rfl | rfl
        · exact (flag1_end f).1
        · exact (flag1_end f).2
  | resetFrame reason =>
    have h1 := DFW.startWrite_holds d d.requestID reason StreamRstFlag h.len
    rw [h.requestID_eq] at h1
    have hd : d.streamResetFrame codec write reason = (d.startWrite id reason StreamRstFlag).endWrite codec write := by
      unfold DFW.streamResetFrame DFW.resetFrame; rw [h.requestID_eq]
    cases hs : sentAs codec StreamRstFlag (d.startWrite id reason StreamRstFlag).payload with
    | error e =>
      obtain ⟨e1, _, e3⟩ := endWrite_error h1 codec write hs
      refine ⟨StreamRstFlag, ?_, by simp [SwOp.isReset], ?_, by simp, fun _ _ => by decide⟩
      · simp only [swStep, hd]; exact e3
      · intro s hs'; simp only [swStep, hd, e1] at hs'; simp at hs'
    | ok fp =>
      obtain ⟨f', p'⟩ := fp
      obtain ⟨sub, e1, e2, _, _, _, e3, _⟩ := endWrite_ok h1 codec write hs
      refine ⟨f', ?_, by simp [SwOp.isReset], ?_, by simp, ?_⟩
      · simp only [swStep, hd]; exact e3
      · intro s hs'; simp only [swStep, hd, e1, Option.some.injEq] at hs'; subst hs'; exact ⟨_, e2⟩
      · intro _ _
        rcases sentAs_flags hs with rfl | rfl <;> decide

theorem swRun_spec {ε} (codec : Option Codec) (write : DFW → Option ε) (id : UInt64) (c0 : Cmd) (ops : List SwOp) :
    ∀ (past : List SwOp) (d : DFW) (f : FrameFlag), d.Holds id (chosenCmd past c0) f →
      (past.any SwOp.isReset = false → f.toNat.testBit 0 = true) →
      ∀ hist sub, (hist, sub) ∈ swRun codec write d past ops →
        ∃ op f' p, hist.getLast? = some op ∧ sub.wbuf = layout id (chosenCmd hist c0) f' p ∧
          (hist.any SwOp.isReset = false → f'.toNat.testBit 0 = true) ∧
          (op = .endWrite true → f'.toNat.testBit 1 = true) ∧ (op.isReset = true → f'.toNat.testBit 2 = true) := by
  induction ops with
  | nil => intro past d f _ _ hist sub hm; simp [swRun] at hm
  | cons op ops ih =>
    intro past d f h hb hist sub hm
    obtain ⟨f', h1, h2, h3, h4, h5⟩ := swStep_holds codec write h op
    have hcc : chosenCmd (past ++ [op]) c0 = chosenCmd [op] (chosenCmd past c0) := chosenCmd_append _ _ _
    have hb' : (past ++ [op]).any SwOp.isReset = false → f'.toNat.testBit 0 = true := by
      intro hn
      simp only [List.any_append, List.any_cons, List.any_nil, Bool.or_false, Bool.or_eq_false_iff] at hn
      exact h2 hn.2 (hb hn.1)
    simp only [swRun, List.mem_append] at hm
    rcases hm with hm | hm
    · cases hs : (swStep codec write d op).2 with
      | none => rw [hs] at hm; simp at hm
      | some s' =>
        rw [hs] at hm; simp only [List.mem_singleton, Prod.mk.injEq] at hm; obtain ⟨rfl, rfl⟩ := hm
        obtain ⟨p, hp⟩ := h3 sub hs
        refine ⟨op, f', p, by simp, by rw [hcc]; exact hp, hb', ?_, ?_⟩
        · intro he; exact h4 he (by simp [hs])
        · intro he; exact h5 he (by simp [hs])
    · exact ih (past ++ [op]) _ f' (by rw [hcc]; exact h1) hb' hist sub hm

/-- **C10, partial.** After a successful `StreamRequest` (of either side) with request id `id`, every frame sent by any
sequence of `StreamWriter` calls carries `id` and the command last chosen; the frame sent by `EndWrite(true)` has the
stream-end bit, one sent by `ResetFrame` the reset bit; and every frame up to the first `ResetFrame` has the stream bit.
Missing for the full claim: the stream bit on the reset frame itself and on frames sent after it (false, below). -/
theorem C10_identity_partial {ε} (codec : Option Codec) (write : DFW → Option ε) (pooled : DFW)
    (hp : 16 ≤ pooled.wbuf.length) (id : UInt64) (r : Nat) (c : Cmd) (f : FrameFlag) (p : Bytes)
    (hok : (streamRequest codec write pooled id r c f p).submitted.isSome) (ops : List SwOp) :
    ∀ hist sub, (hist, sub) ∈ swRun codec write (streamRequest codec write pooled id r c f p).dfw [] ops →
      ∃ op f' q, hist.getLast? = some op ∧ sub.wbuf = layout id (chosenCmd hist c) f' q ∧
        (hist.any SwOp.isReset = false → f'.toNat.testBit 0 = true) ∧
        (op = .endWrite true → f'.toNat.testBit 1 = true) ∧ (op.isReset = true → f'.toNat.testBit 2 = true) := by
  have hstream : ∀ f : FrameFlag, (FrameFlag.toStream f).toNat.testBit 0 = true := by
    intro f
    have : ∀ n : Fin 256, (FrameFlag.toStream (UInt8.ofFin n)).toNat.testBit 0 = true := by decide +kernel
    exact this f.toFin
  obtain ⟨f', hh, hb⟩ : ∃ f', (streamRequest codec write pooled id r c f p).dfw.Holds id c f' ∧ f'.toNat.testBit 0 = true := by
    unfold streamRequest writeFirstFrame at hok ⊢
    simp only at hok ⊢
    generalize hw : (if FrameFlag.isPush (FrameFlag.toStream f) then pooled.fromPool
      else { pooled.fromPool with resp := some r }) = w at hok ⊢
    have hl : w.wbuf = pooled.wbuf := by rw [← hw]; split <;> rfl
    obtain ⟨h1, _⟩ := (DFW.startWrite_holds w id c (FrameFlag.toStream f) (by rw [hl]; exact hp)).writeBytes p
    cases hs : sentAs codec (FrameFlag.toStream f) ((w.startWrite id c (FrameFlag.toStream f)).writeBytes p).payload with
    | error e => rw [(endWrite_error h1 codec write hs).1] at hok; simp at hok
    | ok fp =>
      obtain ⟨f', p'⟩ := fp
      obtain ⟨sub, _, _, _, _, _, e3, _⟩ := endWrite_ok h1 codec write hs
      refine ⟨f', e3, ?_⟩
      rcases sentAs_flags hs with rfl | rfl
      · exact hstream f
      · exact (flag0_kept _ (hstream f)).1
  intro hist sub hm
  exact swRun_spec codec write id c ops [] _ f' hh (fun _ => hb) hist sub hm

/-- Non-trivial case: two data frames with a command change, then the end frame. -/
example : (swRun none (fun _ => (none : Option Unit))
      (streamRequest none (fun _ => (none : Option Unit)) DFW.new 5 0 1 0 [9]).dfw []
      [.startWrite 2, .writeBytes [1], .endWrite false, .writeBytes [2], .endWrite true]).map (fun x => x.2.wbuf) =
    [[0,0,0,13, 0,0,0,0,0,0,0,5, 1, 0,0,2, 1], [0,0,0,13, 0,0,0,0,0,0,0,5, 3, 0,0,2, 2]] := by decide

/-- **C10 refuted**: after `ResetFrame` the writer's flag byte stays `StreamRstFlag`, so a later data frame has the reset bit
and not the stream bit. -/
theorem C10_refuted_after_reset :
    ∃ hist sub, (hist, sub) ∈ swRun none (fun _ => (none : Option Unit))
      (streamRequest none (fun _ => (none : Option Unit)) DFW.new 5 0 1 0 []).dfw []
      [.resetFrame 0, .startWrite 2, .writeBytes [1], .endWrite false] ∧
      hist.getLast? = some (.endWrite false) ∧ sub.flags = StreamRstFlag ∧ sub.payload = [1] := by
  refine ⟨[.resetFrame 0, .startWrite 2, .writeBytes [1], .endWrite false], _, List.mem_cons_of_mem _ (List.mem_singleton.mpr rfl), ?_⟩
  decide

/-! ## C24: the writer of a streamed request -/

theorem swStep_marks {ε} (codec : Option Codec) (write : DFW → Option ε) (d : DFW) (op : SwOp) :
    (swStep codec write d op).1.marks = d.marks ∧ ∀ s, (swStep codec write d op).2 = some s → s.marks = d.marks := by
  cases op with
  | startWrite c => exact ⟨rfl, by simp [swStep]⟩
  | writeBytes v => exact ⟨rfl, by simp [swStep]⟩
  | endWriteCompressed => exact DFW.endWriteRaw_marks write _
  | endWrite e =>
    simp only [swStep, DFW.streamEndWrite]
    split
    · exact DFW.endWrite_marks codec write _
    · exact DFW.endWrite_marks codec write _
  | resetFrame r => exact DFW.endWrite_marks codec write _

theorem swRun_marks {ε} (codec : Option Codec) (write : DFW → Option ε) (ops : List SwOp) :
    ∀ (past : List SwOp) (d : DFW), ∀ x ∈ swRun codec write d past ops, x.2.marks = d.marks := by
  induction ops with
  | nil => intro _ _ x hx; simp [swRun] at hx
  | cons op ops ih =>
    intro past d x hx
    obtain ⟨m1, m2⟩ := swStep_marks codec write d op
    simp only [swRun, List.mem_append] at hx
    rcases hx with hx | hx
    · cases hs : (swStep codec write d op).2 with
      | none => rw [hs] at hx; simp at hx
      | some s =>
        rw [hs] at hx; simp only [List.mem_singleton] at hx; subst hx
        exact m2 s hs
    · exact (ih _ _ x hx).trans m1

/-- **C24, the writers.** The first frame of a request — streamed or not — is submitted without the existence check (it is what
creates the stream) and with the fresh response object unless it is a push; every later frame written through the
`StreamWriter` that `StreamRequest` returned has the check set (so C24_server / C24_client_first_partial apply to it). -/
theorem C24_stream_writer {ε} (codec : Option Codec) (write : DFW → Option ε) (pooled : DFW) (hpool : pooled.resp = none)
    (id : UInt64) (respId : Nat) (cmd : Cmd) (flags : FrameFlag) (payload : Bytes) :
    (∀ s, (streamRequest codec write pooled id respId cmd flags payload).submitted = some s →
      s.checkExist = false ∧ s.resp = if FrameFlag.isPush flags then none else some respId) ∧
    (∀ s, (clientRequest codec write pooled id respId cmd flags payload).submitted = some s →
      s.checkExist = false ∧ s.resp = if FrameFlag.isPush flags then none else some respId) ∧
    ∀ ops, ∀ x ∈ swRun codec write (streamRequest codec write pooled id respId cmd flags payload).dfw [] ops,
      x.2.checkExist = true := by
  have hw : ∀ fl s, (writeFirstFrame codec write pooled id respId cmd fl payload).submitted = some s →
      s.checkExist = false ∧ s.resp = if FrameFlag.isPush fl then none else some respId := by
    intro fl s hs
    rw [writeFirstFrame] at hs
    have := (DFW.endWrite_marks codec write _).2 s hs
    simp only [DFW.marks, DFW.startWrite, DFW.writeBytes, Prod.mk.injEq] at this
    rw [this.1, this.2]
    split <;> simp_all [DFW.fromPool]
  refine ⟨?_, ?_, ?_⟩
  · intro s hs
    have := hw (FrameFlag.toStream flags) s (by simpa only [streamRequest] using hs)
    rwa [show FrameFlag.isPush (FrameFlag.toStream flags) = FrameFlag.isPush flags by
      rw [(C06_predicates _).2.2.2.2.1, (C06_predicates _).2.2.2.2.1, (C06_conversions_partial flags).1 4 (by decide)]; simp] at this
  · intro s hs
    rw [clientRequest, C06_refuted_toNonStream] at hs
    exact hw flags s hs
  · intro ops x hx
    have := swRun_marks codec write ops [] _ x hx
    simp only [DFW.marks, Prod.mk.injEq] at this
    rw [this.2]; rfl

example : (streamRequest none (fun _ => (none : Option Empty)) DFW.new.fromPool 3 0 1 0 [9]).submitted.map (·.checkExist) = some false ∧
    (swRun none (fun _ => (none : Option Empty)) (streamRequest none (fun _ => (none : Option Empty)) DFW.new.fromPool 3 0 1 0 [9]).dfw []
      [.writeBytes [1], .endWrite false, .endWrite true]).map (fun x => x.2.checkExist) = [true, true] := by decide

end Qrpc
