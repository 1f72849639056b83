import Verif.Props.Push
import Verif.Lemmas.StreamedPush
/-! # Property C92, streamed pushes -/
namespace Qrpc
open Spec

theorem StInv.reach {acts : List SAct} {s : SSt} (ha : ∀ a ∈ acts, a.noRst = true) (hrun : sRun SSt.init acts = some s) : StInv s := by
  have gen : ∀ (acts : List SAct) (s0 s : SSt), (∀ a ∈ acts, a.noRst = true) → SInv s0 → StInv s0 → sRun s0 acts = some s → StInv s := by
    intro acts
    induction acts with
    | nil => intro s0 s _ _ hp h; simp only [sRun, runActs, Option.some.injEq] at h; exact h ▸ hp
    | cons a acts ih =>
      intro s0 s ha hi hp h
      simp only [sRun, runActs] at h
      split at h
      · cases h
      · next s1 hs => exact ih s1 s (fun b hb => ha b (by simp [hb])) (hi.step hs) (hp.step (ha a (by simp)) hi hs) h
  exact gen acts _ _ ha .init .init hrun

/-- **C92, the streams, streamed pushes too.** If no push read is a reset and the client does not reset push streams itself: of the
pushes read (but for one the reader is at), each whose id has no stream open has been returned by `ReadFrame`, each other one has been
received from its stream; in the order of reading, none dropped - whether or not ids are used again, and also if the connection is
being closed. -/
theorem C92_streams {acts : List SAct} {s : SSt} (hrun : sRun SSt.init acts = some s) (ha : ∀ a ∈ acts, a.noRst = true) :
    ∃ done, done ++ (held s).filter (fun f => FrameFlag.isPush f.flags) = s.recv.filter (fun f => FrameFlag.isPush f.flags) ∧
      pushLog s.log = pushFates [] done := by
  refine ⟨settled s.log, ?_, (StInv.reach ha hrun).fates⟩
  rw [held_eq, ← (SInv.reach hrun).d.res, List.filter_append, settled]

/-- **C92, no push is lost.** On a server connection with submitted frames `fr t`, once all that was written has arrived, in whatever
pieces, and the client's frame reader has read until there was no further frame: if no push is a reset and the client does not reset
push streams itself, there is a strictly increasing list `us` of submissions that has every push whose write returned nil, and of each
`fr t` in `us`, in this order, the client got the first of a stream from `ReadFrame`, and the others from their stream. Missing:
resets, for which see C92_refuted_race. -/
theorem C92_streamed_partial {cap : Nat} {gacts : List GAct} {gs : GSt} (hg : gRun cap gacts = some gs) {cfg : FrameReaderCfg}
    {fr : Nat → Frame} (henc : ∀ (t : Nat) (f : SFrame), gs.frames[t]? = some f → Encodes cfg f.bytes (fr t))
    {src : Src} (hsrc : srcBytes src = gs.wire) {n : Nat} {got : List Frame} {err : FrameErr} (hread : (readN cfg n src).1 = .ok got)
    (hend : (readN cfg (n + 1) src).1 = .error err) {sacts : List SAct} {t : SSt} (hs : sRun SSt.init sacts = some t)
    (hrecv : t.recv = got) (hheld : held t = []) (hrst : ∀ a ∈ sacts, a.noRst = true) :
    ∃ us : List Nat, us.Pairwise (· < ·) ∧ (∀ u ∈ us, u < gs.frames.length) ∧ pushLog t.log = pushFates [] (us.map fr) ∧
      ∀ k, (k, SRes.ok) ∈ gs.rets → FrameFlag.isPush (fr k).flags = true → k ∈ us := by
  obtain ⟨us, h1, hl, h2, h3⟩ := pushes_arrive hg henc hsrc hread hend
  obtain ⟨done, k1, k2⟩ := C92_streams hs hrst
  rw [hheld, List.filter_nil, List.append_nil, hrecv, h2] at k1
  subst k1
  exact ⟨us, h1, hl, k2, h3⟩

/-- A push streamed in three frames, with a plain push of another id in between and the id used again afterwards, both by a streamed
push: the two first frames and the plain push are returned, the others are received from the streams. -/
def exStreamedPush : List SAct :=
  [.recv ⟨9, PushFlag ||| StreamFlag, 2, [1]⟩, .rstep, .rstep,
   .recv ⟨8, PushFlag, 1, [7]⟩, .rstep, .rstep, .rstep, .rstep, .rstep, .rstep, .rstep, .rstep, .rstep,
   .recv ⟨9, PushFlag ||| StreamFlag, 2, [2]⟩, .rstep, .rstep, .consume, .rstep,
   .recv ⟨9, PushFlag ||| StreamFlag ||| StreamEndFlag, 2, [3]⟩, .rstep, .rstep, .consume, .rstep, .rstep, .rstep, .rstep, .rstep, .rstep, .rstep, .rstep,
   .recv ⟨9, PushFlag ||| StreamFlag, 2, [4]⟩, .rstep, .rstep]

example : (sRun SSt.init exStreamedPush).map (fun s => (held s, (pushLog s.log).map fun p => (p.1.payload, p.2))) =
      some ([], [([1], some true), ([7], some true), ([2], some false), ([3], some false), ([4], some true)]) ∧
    exStreamedPush.all (·.noRst) = true := by decide +kernel

end Qrpc
