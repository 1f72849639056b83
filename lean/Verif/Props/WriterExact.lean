import Verif.Props.Writer
/-!
# C09 without conditions on the history

`C09_payload_partial` asks for histories in which every frame is finished. Here: what is submitted in *every* history, with
abandoned frames, failing codecs, calls outside a frame and any recycling. Each writer object is a draft: a header and a text.
`StartWrite` replaces the header and keeps the text, only a submission empties it.
-/
namespace Qrpc
open Spec

/-- A frame under construction. -/
structure Spec.Draft where
  id : UInt64
  cmd : Cmd
  flags : FrameFlag
  text : Bytes
deriving Repr, DecidableEq

/-- The drafts of the writers in the pool and of those handed out. -/
structure Spec.Drafts where
  free : List Draft
  live : Nat → Option Draft

def Spec.Drafts.put (s : Drafts) (h : Nat) (d : Option Draft) : Drafts :=
  { s with live := fun k => if k = h then d else s.live k }

/-- A draft after `EndWrite`: empty if the frame was submitted, otherwise as the codec left it. -/
def Spec.Draft.ended (codec : Option Codec) (d : Draft) : Draft :=
  match sentAs codec d.flags d.text with
  | .ok (f', _) => { d with flags := f', text := [] }
  | .error _ => match codec with
    | none => d
    | some c => { d with text := (c.encode d.text).1 }

/-- What one call does to the drafts. -/
def Spec.Drafts.next (codec : Option Codec) (s : Drafts) : PAct → Drafts
  | .get h none => s.put h (some ⟨0, 0, 0, []⟩)
  | .get h (some i) => { s with free := s.free.eraseIdx i }.put h s.free[i]?
  | .start h id c f => s.put h ((s.live h).map fun d => { d with id := id, cmd := c, flags := f })
  | .write h v => s.put h ((s.live h).map fun d => { d with text := d.text ++ v })
  | .endWrite h => s.put h ((s.live h).map (Draft.ended codec))
  | .reset h id r => s.put h ((s.live h).map fun d => Draft.ended codec { d with id := id, cmd := r, flags := StreamRstFlag })
  | .finalize h => { s with free := (s.live h).toList ++ s.free }.put h none
  | .mark _ _ _ => s

/-- The drafts after a history. -/
def Spec.draftsAfter (codec : Option Codec) (past : List PAct) : Drafts :=
  past.foldl (Drafts.next codec) ⟨[], fun _ => none⟩

/-- The draft that the call `a` submits or tries to submit, after `past`. -/
def Spec.draftFor (codec : Option Codec) (past : List PAct) : PAct → Option Draft
  | .endWrite h => (draftsAfter codec past).live h
  | .reset h id r => ((draftsAfter codec past).live h).map fun d => { d with id := id, cmd := r, flags := StreamRstFlag }
  | _ => none

/-- A writer object contains a draft. -/
def DFW.Has (d : DFW) (t : Draft) : Prop := d.Holds t.id t.cmd t.flags ∧ d.payload = t.text

/-- Both there and related, or both missing. -/
def Has? : Option DFW → Option Draft → Prop
  | some d, some t => d.Has t
  | none, none => True
  | _, _ => False

structure DraftInv (s : PoolSt) (t : Drafts) : Prop where
  free : ∀ i : Nat, Has? s.free[i]? t.free[i]?
  live : ∀ h, Has? (s.live h) (t.live h)

theorem DFW.new_has : DFW.new.fromPool.Has ⟨0, 0, 0, []⟩ := by
  refine ⟨⟨[0, 0, 0, 0], rfl, ?_⟩, ?_⟩ <;> decide

theorem DFW.Has.start {d : DFW} {t : Draft} (h : d.Has t) (id : UInt64) (c : Cmd) (f : FrameFlag) :
    (d.startWrite id c f).Has { t with id := id, cmd := c, flags := f } :=
  ⟨DFW.startWrite_holds d id c f h.1.len, by rw [DFW.startWrite_payload d id c f h.1.len]; exact h.2⟩

theorem endWrite_error_payload {ε} {d : DFW} {id c f} (h : d.Holds id c f) (codec : Option Codec) (write : DFW → Option ε)
    {e : FwErr Empty} (hs : sentAs codec f d.payload = .error e) :
    (d.endWrite codec write).dfw.payload = match codec with
      | none => d.payload
      | some cd => (cd.encode d.payload).1 := by
  have hf := h.flags_eq
  unfold sentAs at hs
  unfold DFW.endWrite
  simp only [hf]
  by_cases hp : d.payload = []
  · rw [if_pos hp] at hs; simp at hs
  · rw [if_neg hp] at hs
    rw [if_neg (by simpa using hp)]
    by_cases hc : FrameFlag.isCodec f
    · rw [if_pos hc] at hs; rw [if_pos hc]
      cases codec with
      | none => rfl
      | some cd =>
        simp only at hs ⊢
        cases he : (cd.encode d.payload).2 with
        | none => exact (h.setPayload (cd.encode d.payload).1).2
        | some e' => rw [he] at hs; simp only at hs; split at hs <;> simp at hs
    · rw [if_neg hc] at hs; simp at hs

/-- `EndWrite` on a writer that contains a draft. -/
theorem DFW.Has.end {d : DFW} {t : Draft} (h : d.Has t) (codec : Option Codec) :
    (d.endWrite codec (fun _ => (none : Option Empty))).dfw.Has (t.ended codec) ∧
    (match (d.endWrite codec (fun _ => (none : Option Empty))).submitted with
      | none => ∃ e, sentAs codec t.flags t.text = .error e
      | some sub => ∃ f' p', sentAs codec t.flags t.text = .ok (f', p') ∧ sub.wbuf = layout t.id t.cmd f' p') := by
  cases hs : sentAs codec t.flags t.text with
  | ok r =>
    obtain ⟨f', p'⟩ := r
    have hs' : sentAs codec t.flags d.payload = .ok (f', p') := by rw [h.2]; exact hs
    obtain ⟨sub, e1, e2, _, _, _, e3, e4⟩ := endWrite_ok h.1 codec (fun _ => (none : Option Empty)) hs'
    refine ⟨?_, ?_⟩
    · unfold Draft.ended; rw [hs]; exact ⟨e3, e4⟩
    · rw [e1]; exact ⟨f', p', rfl, e2⟩
  | error e =>
    have hs' : sentAs codec t.flags d.payload = .error e := by rw [h.2]; exact hs
    obtain ⟨e1, _, e3⟩ := endWrite_error h.1 codec (fun _ => (none : Option Empty)) hs'
    have e4 := endWrite_error_payload h.1 codec (fun _ => (none : Option Empty)) hs'
    refine ⟨?_, ?_⟩
    · unfold Draft.ended; rw [hs]
      cases codec with
      | none => exact ⟨e3, by rw [e4]; exact h.2⟩
      | some cd => exact ⟨e3, by rw [e4]; simp only [h.2]⟩
    · rw [e1]; exact ⟨e, rfl⟩

theorem DraftInv.put {s : PoolSt} {t : Drafts} {fr : List DFW} {gr : List Draft} (hf : ∀ i : Nat, Has? fr[i]? gr[i]?)
    (hl : ∀ h, Has? (s.live h) (t.live h)) (h : Nat) (d : Option DFW) (u : Option Draft) (hd : Has? d u) :
    DraftInv ({ s with free := fr }.set h d) ({ t with free := gr }.put h u) := by
  constructor
  · exact hf
  · intro k
    simp only [PoolSt.set, Drafts.put]
    split
    · exact hd
    · exact hl k

theorem Has?.some_left {d : DFW} {u : Option Draft} (h : Has? (some d) u) : ∃ t, u = some t ∧ d.Has t := by
  cases u with
  | none => exact h.elim
  | some t => exact ⟨t, rfl, h⟩

/-- What a call submits, given the draft it tries to submit. -/
def SubmittedOf (codec : Option Codec) (t : Option Draft) : Option DFW → Prop
  | none => ∀ d, t = some d → ∃ e, sentAs codec d.flags d.text = .error e
  | some w => ∃ d f' p', t = some d ∧ sentAs codec d.flags d.text = .ok (f', p') ∧ w.wbuf = layout d.id d.cmd f' p'

/-- One call: the objects stay in step with the drafts, and what is submitted is the draft. -/
theorem DraftInv.step {codec : Option Codec} {s s' : PoolSt} {past : List PAct} {a : PAct} {sub : Option DFW}
    (inv : DraftInv s (draftsAfter codec past)) (hst : poolStep codec s a = some (s', sub)) :
    DraftInv s' (draftsAfter codec (past ++ [a])) ∧
    SubmittedOf codec (draftFor codec past a) sub := by
  have hda : draftsAfter codec (past ++ [a]) = (draftsAfter codec past).next codec a := by
    simp [draftsAfter, List.foldl_append]
  rw [hda]
  generalize hT : draftsAfter codec past = t at inv
  cases a with
  | get h which =>
    simp only [poolStep] at hst
    split at hst
    · simp at hst
    · cases which with
      | none =>
        simp only [Option.some.injEq, Prod.mk.injEq] at hst; obtain ⟨rfl, rfl⟩ := hst
        exact ⟨DraftInv.put inv.free inv.live h _ _ DFW.new_has, by simp [draftFor, SubmittedOf]⟩
      | some i =>
        simp only at hst
        cases hi : s.free[i]? with
        | none => rw [hi] at hst; simp at hst
        | some d =>
          rw [hi] at hst; simp only [Option.some.injEq, Prod.mk.injEq] at hst; obtain ⟨rfl, rfl⟩ := hst
          have hfi := inv.free i
          rw [hi] at hfi
          refine ⟨DraftInv.put ?_ inv.live h _ _ ?_, by simp [draftFor, SubmittedOf]⟩
          · intro j
            rw [List.getElem?_eraseIdx, List.getElem?_eraseIdx]
            split
            · exact inv.free j
            · exact inv.free (j + 1)
          · obtain ⟨u, hu, hd⟩ := hfi.some_left
            rw [hu]; exact hd
  | start h id c f =>
    simp only [poolStep, Option.map_eq_some_iff, Prod.mk.injEq] at hst
    obtain ⟨d, hl, rfl, rfl⟩ := hst
    have hlh := inv.live h
    rw [hl] at hlh
    obtain ⟨u, hu, hd⟩ := hlh.some_left
    refine ⟨DraftInv.put inv.free inv.live h _ _ ?_, by simp [draftFor, SubmittedOf]⟩
    rw [hu]; exact hd.start id c f
  | write h v =>
    simp only [poolStep, Option.map_eq_some_iff, Prod.mk.injEq] at hst
    obtain ⟨d, hl, rfl, rfl⟩ := hst
    have hlh := inv.live h
    rw [hl] at hlh
    obtain ⟨u, hu, hd⟩ := hlh.some_left
    refine ⟨DraftInv.put inv.free inv.live h _ _ ?_, by simp [draftFor, SubmittedOf]⟩
    rw [hu]; exact ⟨(hd.1.writeBytes v).1, by rw [(hd.1.writeBytes v).2, hd.2]⟩
  | endWrite h =>
    simp only [poolStep, Option.map_eq_some_iff, Prod.mk.injEq] at hst
    obtain ⟨d, hl, rfl, rfl⟩ := hst
    have hlh := inv.live h
    rw [hl] at hlh
    obtain ⟨u, hu, hd⟩ := hlh.some_left
    obtain ⟨h1, h2⟩ := hd.end codec
    refine ⟨DraftInv.put inv.free inv.live h _ _ (by rw [hu]; exact h1), ?_⟩
    simp only [draftFor, hT, hu]
    revert h2
    generalize DFW.EndResult.submitted _ = sub
    intro h2
    cases sub with
    | none => intro d' hd'; simp only [Option.some.injEq] at hd'; subst hd'; exact h2
    | some w => obtain ⟨f', p', q1, q2⟩ := h2; exact ⟨u, f', p', rfl, q1, q2⟩
  | reset h id r =>
    simp only [poolStep, Option.map_eq_some_iff, Prod.mk.injEq] at hst
    obtain ⟨d, hl, rfl, rfl⟩ := hst
    have hlh := inv.live h
    rw [hl] at hlh
    obtain ⟨u, hu, hd⟩ := hlh.some_left
    obtain ⟨h1, h2⟩ := (hd.start id r StreamRstFlag).end codec
    refine ⟨DraftInv.put inv.free inv.live h _ _ (by rw [hu]; exact h1), ?_⟩
    simp only [draftFor, hT, hu, Option.map_some, DFW.resetFrame]
    revert h2
    generalize DFW.EndResult.submitted _ = sub
    intro h2
    cases sub with
    | none => intro d' hd'; simp only [Option.some.injEq] at hd'; subst hd'; exact h2
    | some w => obtain ⟨f', p', q1, q2⟩ := h2; exact ⟨_, f', p', rfl, q1, q2⟩
  | finalize h =>
    simp only [poolStep, Option.map_eq_some_iff, Prod.mk.injEq] at hst
    obtain ⟨d, hl, rfl, rfl⟩ := hst
    have hlh := inv.live h
    rw [hl] at hlh
    obtain ⟨u, hu, hd⟩ := hlh.some_left
    refine ⟨DraftInv.put ?_ inv.live h _ _ trivial, by simp [draftFor, SubmittedOf]⟩
    intro i
    rw [hu]
    cases i with
    | zero => exact hd
    | succ j => exact inv.free j
  | mark h r ce =>
    simp only [poolStep, Option.map_eq_some_iff, Prod.mk.injEq] at hst
    obtain ⟨d, hl, rfl, rfl⟩ := hst
    have hlh := inv.live h
    refine ⟨⟨inv.free, ?_⟩, by simp [draftFor, SubmittedOf]⟩
    intro k
    simp only [PoolSt.set, Drafts.next]
    split
    · next e =>
      subst e; rw [hl] at hlh
      obtain ⟨u, hu, hd⟩ := hlh.some_left
      rw [hu]; exact hd
    · exact inv.live k

/-- **C09, for all histories.** Whatever the users of the writers do and whatever the codec does: a frame is submitted by
`EndWrite` or `ResetFrame` exactly when the codec accepts the draft of the writer, and what is submitted is that draft: the
header of the last `StartWrite`, and the text, which is everything written to the writer object, by any of its owners, since
the last frame that was submitted from it. -/
theorem C09_exact (codec : Option Codec) (acts : List PAct) (sent : List (List PAct × DFW))
    (hrun : poolRun codec PoolSt.init [] acts = some sent) :
    (∀ pst sub, (pst, sub) ∈ sent → ∃ past a d f' p', pst = past ++ [a] ∧ draftFor codec past a = some d ∧
      sentAs codec d.flags d.text = .ok (f', p') ∧ sub.wbuf = layout d.id d.cmd f' p') ∧
    (∀ past a rest d r, acts = past ++ a :: rest → draftFor codec past a = some d →
      sentAs codec d.flags d.text = .ok r → ∃ sub, (past ++ [a], sub) ∈ sent) := by
  suffices H : ∀ (acts : List PAct) (s : PoolSt) (past : List PAct) (sent : List (List PAct × DFW)),
      DraftInv s (draftsAfter codec past) → poolRun codec s past acts = some sent →
      (∀ pst sub, (pst, sub) ∈ sent → ∃ past a d f' p', pst = past ++ [a] ∧ draftFor codec past a = some d ∧
        sentAs codec d.flags d.text = .ok (f', p') ∧ sub.wbuf = layout d.id d.cmd f' p') ∧
      (∀ mid a rest d r, acts = mid ++ a :: rest → draftFor codec (past ++ mid) a = some d →
        sentAs codec d.flags d.text = .ok r → ∃ sub, (past ++ mid ++ [a], sub) ∈ sent) from
    H acts PoolSt.init [] sent ⟨fun i => by simp [PoolSt.init, draftsAfter, Has?], fun h => trivial⟩ hrun
  clear hrun sent acts
  intro acts
  induction acts with
  | nil =>
    intro s past sent _ hrun
    simp only [poolRun, Option.some.injEq] at hrun; subst hrun
    exact ⟨by simp, by simp⟩
  | cons a as ih =>
    intro s past sent inv hrun
    simp only [poolRun] at hrun
    cases hst : poolStep codec s a with
    | none => rw [hst] at hrun; simp at hrun
    | some r =>
      obtain ⟨s', sub⟩ := r
      rw [hst] at hrun; simp only at hrun
      cases hrest : poolRun codec s' (past ++ [a]) as with
      | none => rw [hrest] at hrun; simp at hrun
      | some rest =>
        rw [hrest] at hrun; simp only [Option.some.injEq] at hrun; subst hrun
        obtain ⟨inv', hsub⟩ := inv.step hst
        obtain ⟨i1, i2⟩ := ih s' (past ++ [a]) rest inv' hrest
        constructor
        · intro pst w hm
          rw [List.mem_append] at hm
          rcases hm with hm | hm
          · cases sub with
            | none => simp at hm
            | some w' =>
              simp only [List.mem_singleton, Prod.mk.injEq] at hm; obtain ⟨rfl, rfl⟩ := hm
              obtain ⟨d, f', p', q1, q2, q3⟩ := hsub
              exact ⟨past, a, d, f', p', rfl, q1, q2, q3⟩
          · exact i1 pst w hm
        · intro mid b rest' d r hacts hd hr
          cases mid with
          | nil =>
            simp only [List.nil_append, List.cons.injEq] at hacts
            obtain ⟨rfl, rfl⟩ := hacts
            rw [List.append_nil] at hd
            cases sub with
            | none => obtain ⟨e, he⟩ := hsub d hd; rw [he] at hr; simp at hr
            | some w => exact ⟨w, by simp⟩
          | cons m ms =>
            simp only [List.cons_append, List.cons.injEq] at hacts
            obtain ⟨rfl, rfl⟩ := hacts
            obtain ⟨w, hw⟩ := i2 ms b rest' d r rfl (by simpa using hd) hr
            exact ⟨w, List.mem_append_right _ (by simpa using hw)⟩

/-! ### What this means for one frame -/

/-- The bytes written on handle `h`. -/
def Spec.textOn (h : Nat) : List PAct → Bytes
  | [] => []
  | .write k v :: as => (if k = h then v else []) ++ textOn h as
  | _ :: as => textOn h as

/-- Between its `StartWrite` and its `EndWrite` the user of handle `h` only writes bytes. -/
def Spec.onlyWrites (h : Nat) (as : List PAct) : Bool :=
  as.all fun a => actHandle a != h || match a with | .write _ _ | .mark _ _ _ => true | _ => false

theorem next_other (codec : Option Codec) (t : Drafts) (a : PAct) (h : Nat) (ha : actHandle a ≠ h) :
    (t.next codec a).live h = t.live h := by
  have ha' : h ≠ actHandle a := fun e => ha e.symm
  cases a with
  | get k w => cases w <;> simp_all [Drafts.next, Drafts.put, actHandle]
  | _ => simp_all [Drafts.next, Drafts.put, actHandle]

theorem onlyWrites_live (codec : Option Codec) (h : Nat) : ∀ (mid : List PAct) (t : Drafts) (d : Draft),
    onlyWrites h mid = true → t.live h = some d →
    (mid.foldl (Drafts.next codec) t).live h = some { d with text := d.text ++ textOn h mid }
  | [], t, d, _, hl => by simpa [textOn] using hl
  | a :: as, t, d, ho, hl => by
    simp only [onlyWrites, List.all_cons, Bool.and_eq_true] at ho
    obtain ⟨ho1, ho2⟩ := ho
    rw [List.foldl_cons]
    by_cases ha : actHandle a = h
    · cases a with
      | write k v =>
        simp only [actHandle] at ha; subst ha
        rw [onlyWrites_live codec k as _ { d with text := d.text ++ v } ho2 (by simp [Drafts.next, Drafts.put, hl])]
        simp [textOn]
      | mark k r ce =>
        exact onlyWrites_live codec h as _ d ho2 hl
      | _ => simp_all [actHandle]
    · rw [onlyWrites_live codec h as _ d ho2 (by rw [next_other codec t a h ha]; exact hl)]
      cases a with
      | write k v => simp only [actHandle] at ha; simp [textOn, ha]
      | _ => rfl

/-- **C09, for one frame in any history.** A user of handle `h` starts a frame, writes and ends it, whatever everybody else
does before and meanwhile. If a frame without the codec flag is submitted, then its header is that of the `StartWrite` and its
payload is `left`, the text that was in the writer at the `StartWrite`, followed by what was written. So it is exactly what was
written if and only if the writer was empty at the `StartWrite`. -/
theorem C09_one (codec : Option Codec) (past mid rest : List PAct) (h : Nat) (id : UInt64) (c : Cmd) (f : FrameFlag)
    (sent : List (List PAct × DFW)) (d : Draft)
    (hrun : poolRun codec PoolSt.init [] (past ++ .start h id c f :: mid ++ .endWrite h :: rest) = some sent)
    (hmid : onlyWrites h mid = true) (hd : (draftsAfter codec past).live h = some d) (hf : FrameFlag.isCodec f = false) :
    ∃ sub, (past ++ .start h id c f :: mid ++ [.endWrite h], sub) ∈ sent ∧
      sub.wbuf = layout id c f (d.text ++ textOn h mid) ∧
      (sub.wbuf = layout id c f (textOn h mid) ↔ d.text = []) := by
  obtain ⟨e1, e2⟩ := C09_exact codec _ sent hrun
  have hdf : draftFor codec (past ++ .start h id c f :: mid) (.endWrite h) = some ⟨id, c, f, d.text ++ textOn h mid⟩ := by
    simp only [draftFor, draftsAfter, List.foldl_append, List.foldl_cons]
    rw [onlyWrites_live codec h mid _ ⟨id, c, f, d.text⟩ hmid]
    simp only [Drafts.next, Drafts.put, if_pos]
    have : (draftsAfter codec past).live h = some d := hd
    simp only [draftsAfter] at this
    rw [this]; rfl
  have hs : sentAs codec f (d.text ++ textOn h mid) = .ok (f, d.text ++ textOn h mid) := by
    unfold sentAs
    split
    · next hp => rw [toNonCodec_of_not f hf, hp]
    · rw [if_neg (by rw [hf]; simp)]
  obtain ⟨sub, hsub⟩ := e2 _ _ rest _ _ rfl hdf hs
  obtain ⟨past', a, d', f', p', q0, q1, q2, q3⟩ := e1 _ _ hsub
  obtain ⟨rfl, q5⟩ := List.append_inj' q0 rfl
  obtain rfl := (List.cons.inj q5).1
  rw [hdf] at q1; simp only [Option.some.injEq] at q1; subst q1
  simp only at q2 q3
  rw [hs] at q2; simp only [Except.ok.injEq, Prod.mk.injEq] at q2; obtain ⟨rfl, rfl⟩ := q2
  refine ⟨sub, hsub, q3, ?_⟩
  rw [q3]
  constructor
  · intro e
    have := congrArg List.length e
    simp [layout, be_length] at this
    exact this
  · intro e; rw [e]; rfl

/-- A frame abandoned by one user (handle 0) goes out with the next frame of another one (handle 1) who is given the same
writer; and the frame after that is right. -/
def exLeft : List PAct :=
  [.get 0 none, .start 0 7 1 0, .write 0 [65, 66], .finalize 0, .get 1 (some 0), .start 1 9 2 0, .write 1 [67], .endWrite 1,
   .start 1 9 3 0, .write 1 [68], .endWrite 1]

example : (draftsAfter none (exLeft.take 5)).live 1 = some ⟨7, 1, 0, [65, 66]⟩ := by decide
example : onlyWrites 1 [.write 1 [67]] = true := by decide
example : (poolRun none PoolSt.init [] exLeft).map (·.map fun q => (q.1.length, q.2.wbuf)) =
    some [(8, layout 9 2 0 [65, 66, 67]), (11, layout 9 3 0 [68])] := by decide +kernel

end Qrpc
