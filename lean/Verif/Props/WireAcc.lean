import Verif.Props.Wire
/-! # C02: the writer's accessors (framewriter.go:57-81, 145-147) agree with what is submitted -/
namespace Qrpc
open Spec

theorem DFW.Holds.setRequestID {d : DFW} {id c f} (h : d.Holds id c f) (id' : UInt64) :
    (d.setRequestID id').Holds id' c f ∧ (d.setRequestID id').payload = d.payload := by
  obtain ⟨l4, h4, hw⟩ := h
  match l4, h4 with
  | [a, b, c', e], _ =>
    have hp : (d.setRequestID id').payload = d.payload := by
      unfold DFW.setRequestID DFW.payload; rw [hw]; simp [putUint64_be, putAt, be]
    refine ⟨⟨[a, b, c', e], rfl, ?_⟩, hp⟩
    rw [hp]; unfold DFW.setRequestID; simp only [putUint64_be]
    generalize d.payload = p at hw
    rw [hw]; simp [putAt, be]

/-- What can be done to the header of a frame that was started. -/
inductive HdrSet where
  | id (v : UInt64) | cmd (v : Cmd) | flags (v : FrameFlag)
deriving DecidableEq, Repr

def HdrSet.apply (d : DFW) : HdrSet → DFW
  | .id v => d.setRequestID v
  | .cmd v => d.setCmd v
  | .flags v => d.setFlags v

/-- The id, command and flags set last. -/
def HdrSet.last (x : UInt64 × Cmd × FrameFlag) : HdrSet → UInt64 × Cmd × FrameFlag
  | .id v => (v, x.2)
  | .cmd v => (x.1, v, x.2.2)
  | .flags v => (x.1, x.2.1, v)

theorem HdrSet.holds (l : List HdrSet) : ∀ (d : DFW) (x : UInt64 × Cmd × FrameFlag), d.Holds x.1 x.2.1 x.2.2 →
    (l.foldl HdrSet.apply d).Holds (l.foldl HdrSet.last x).1 (l.foldl HdrSet.last x).2.1 (l.foldl HdrSet.last x).2.2 ∧
    (l.foldl HdrSet.apply d).payload = d.payload := by
  induction l with
  | nil => intro d x h; exact ⟨h, rfl⟩
  | cons a l ih =>
    intro d x h
    have h1 : (HdrSet.apply d a).Holds (HdrSet.last x a).1 (HdrSet.last x a).2.1 (HdrSet.last x a).2.2 ∧ (HdrSet.apply d a).payload = d.payload := by
      cases a with
      | id v => exact h.setRequestID v
      | cmd v => exact h.setCmd v
      | flags v => exact h.setFlags v
    obtain ⟨h2, h3⟩ := ih _ _ h1.1
    exact ⟨h2, h3.trans h1.2⟩

theorem getUint32_layout (id : UInt64) (c : Cmd) (f : FrameFlag) (p : Bytes) :
    (getUint32 (layout id c f p)).toNat = (12 + p.length) % 2 ^ 32 := by
  have e : layout id c f p = be 4 (12 + p.length) ++ (be 8 id.toNat ++ (f :: (be 3 c.toNat ++ p))) := by simp [layout]
  rw [e, getUint32_be, UInt32.toNat_ofNat']

/-- **C02**, the accessors. After StartWrite, any writing of payload and any sequence of SetRequestID, SetCmd and SetFlags, the accessors give
what was set last, the payload is as written, and a frame ended without compression is the documented layout of exactly that; Length, read
then or afterwards, is the length of all that follows the length field. -/
theorem C02_accessors {ε} (write : DFW → Option ε) (d : DFW) (hd : 16 ≤ d.wbuf.length) (u : UFrame) (l : List HdrSet) :
    let x := l.foldl HdrSet.last (u.id, u.cmd, u.flags)
    let w := l.foldl HdrSet.apply (u.chunks.foldl DFW.writeBytes (d.startWrite u.id u.cmd u.flags))
    w.requestID = x.1 ∧ w.cmd.toNat = x.2.1.toNat % 2 ^ 24 ∧ w.flags = x.2.2 ∧ w.payload = d.payload ++ u.payload ∧
    ∃ sub, (w.endWriteRaw write).submitted = some sub ∧ sub.wbuf = layout x.1 x.2.1 x.2.2 (d.payload ++ u.payload) ∧
      sub.length = (sub.wbuf.length - 4) % 2 ^ 32 ∧ (w.endWriteRaw write).dfw.length = sub.length := by
  intro x w
  obtain ⟨h1, h2⟩ := foldl_writeBytes (DFW.startWrite_holds d u.id u.cmd u.flags hd) u.chunks
  rw [DFW.startWrite_payload d _ _ _ hd] at h2
  obtain ⟨h3, h4⟩ := HdrSet.holds l _ (u.id, u.cmd, u.flags) h1
  have h5 : w.payload = d.payload ++ u.payload := h4.trans h2
  obtain ⟨sub, e1, e2, -⟩ := h3.endWriteRaw write
  have e2' : sub.wbuf = layout x.1 x.2.1 x.2.2 (d.payload ++ u.payload) := by rw [← h5]; exact e2
  refine ⟨h3.requestID_eq, h3.cmd_eq, h3.flags_eq, h5, sub, e1, e2', ?_, ?_⟩
  · unfold DFW.length
    rw [e2', getUint32_layout]
    have : (layout x.1 x.2.1 x.2.2 (d.payload ++ u.payload)).length - 4 = 12 + (d.payload ++ u.payload).length := by
      simp only [layout, List.length_append, be_length, List.length_cons]; omega
    rw [this]
  · have hs : sub = w.fillLength := by
      have : (w.endWriteRaw write).submitted = some w.fillLength := rfl
      rw [this] at e1; exact (Option.some.inj e1).symm
    have hl : 16 ≤ sub.wbuf.length := by
      rw [e2']; simp only [layout, List.length_append, be_length, List.length_cons]; omega
    show ({ w.fillLength with wbuf := w.fillLength.wbuf.take 16 } : DFW).length = sub.length
    rw [← hs]
    unfold DFW.length
    obtain ⟨a0, a1, a2, a3, a4, a5, a6, a7, a8, a9, a10, a11, a12, a13, a14, a15, r, hw⟩ := exists16 _ hl
    simp only [hw]
    rfl

/-- The id and the command changed after the payload was written. -/
example :
    let w := [HdrSet.id 9, .cmd 0x01020304].foldl HdrSet.apply ([[0xaa, 0xbb]].foldl DFW.writeBytes (DFW.new.startWrite 3 7 1))
    (w.requestID, w.cmd, w.flags, w.payload) = (9, 0x020304, 1, [0xaa, 0xbb]) ∧
    ((w.endWriteRaw fun _ => (none : Option Unit)).submitted.map DFW.wbuf) =
      some [0, 0, 0, 14, 0, 0, 0, 0, 0, 0, 0, 9, 1, 2, 3, 4, 0xaa, 0xbb] ∧
    (w.endWriteRaw fun _ => (none : Option Unit)).dfw.length = 14 := by decide

end Qrpc
