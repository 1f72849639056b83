import Verif.Model.Deadline
/-! # C58: deadlines -/
namespace Qrpc

/-- A timeout that fits into a `time.Duration`: at most 9223372036 seconds (292 years). -/
def Spec.Fits (timeout : Int) : Prop := timeout ≤ 9223372036

theorem seconds_of {n : Int} (h0 : 0 ≤ n) (h : Spec.Fits n) : seconds n = n * 1000000000 := by
  unfold Spec.Fits at h
  rw [seconds, second]
  exact Int.bmod_eq_of_le (by omega) (by omega)

theorem payloadMax_eq : payloadReadMaxTimeoutSecond = 3 := rfl
theorem ctxCheck_eq : ctxCheckMaxInterval = 3000000000 := rfl

/-! ## Reading -/

/-- Header: the configured timeout, none if it is not positive. -/
theorem C58_header (timeout now : Int) (h : Spec.Fits timeout) :
    headerDeadline timeout now = if timeout > 0 then some (now + timeout * 1000000000) else none := by
  simp only [headerDeadline, readDeadline, show ¬ (0 : Int) > 0 from by omega, false_and, if_false]
  split
  · rw [seconds_of (by omega) h]
  · rfl

/-- **C58, payload (partial).** With a positive read timeout - of any size - the payload's deadline is at most 3 seconds and at most
the configured timeout away. -/
theorem C58_payload_partial (timeout now : Int) (h : 0 < timeout) : ∃ d, payloadDeadline timeout now = some d ∧ now < d ∧
    d ≤ now + 3000000000 ∧ d ≤ now + timeout * 1000000000 := by
  have hp := payloadMax_eq
  simp only [payloadDeadline, readDeadline]
  by_cases h3 : timeout > 3
  · have hc : payloadReadMaxTimeoutSecond > 0 ∧ timeout > payloadReadMaxTimeoutSecond := by omega
    simp only [if_pos hc]
    rw [if_pos (by omega)]
    refine ⟨_, rfl, ?_⟩
    have : seconds payloadReadMaxTimeoutSecond = 3000000000 := by decide
    rw [this]; omega
  · have hc : ¬ (payloadReadMaxTimeoutSecond > 0 ∧ timeout > payloadReadMaxTimeoutSecond) := by omega
    simp only [if_neg hc]
    rw [if_pos h]
    refine ⟨_, rfl, ?_⟩
    rw [seconds_of (by omega) (by unfold Spec.Fits; omega)]
    omega

/-- **C58 is false of the code** without a (positive) read timeout, which is the default: the payload has no deadline either. -/
theorem C58_refuted_payload (timeout now : Int) (h : timeout ≤ 0) : payloadDeadline timeout now = none := by
  have hp := payloadMax_eq
  have hc : ¬ (payloadReadMaxTimeoutSecond > 0 ∧ timeout > payloadReadMaxTimeoutSecond) := by omega
  simp only [payloadDeadline, readDeadline, if_neg hc]
  rw [if_neg (by omega)]

/-- A connection that honours its read deadline: a Read called before the deadline returns by then, one called after it fails at
once; between two Reads pass at most `lat`. -/
def Spec.ReadsOnTime (d : Option Int) (lat : Int) : Int → List TRead → Prop
  | _, [] => True
  | prev, r :: rs => prev ≤ r.start ∧ r.start ≤ prev + lat ∧
    (∀ D, d = some D → if r.start ≤ D then r.ret ≤ D else r.ret = r.start ∧ r.fail = true) ∧ ReadsOnTime d lat r.ret rs

/-- On such a connection reading a buffer ends by the deadline, up to the latency. -/
theorem C58_read_ends {D lat : Int} (hlat : 0 ≤ lat) : ∀ (rs : List TRead) (now : Int), now ≤ D → Spec.ReadsOnTime (some D) lat now rs →
    ∀ t, readLoopT rs = some t → t ≤ D + lat := by
  intro rs
  induction rs with
  | nil => intro now _ _ t h; simp [readLoopT] at h
  | cons r rs ih =>
    intro now hn ho t ht
    obtain ⟨h1, h2, h3, h4⟩ := ho
    have h3 := h3 D rfl
    rw [readLoopT] at ht
    split at ht
    · simp only [Option.some.injEq] at ht
      subst ht
      split at h3
      · omega
      · omega
    · next hf =>
      split at h3
      · exact ih r.ret h3 h4 t ht
      · rw [h3.2] at hf; simp at hf

/-- The two together: the payload's read ends within 3 seconds of its start (with a positive timeout). -/
theorem C58_payload_ends_partial (timeout now : Int) (h : 0 < timeout) {lat : Int} (hlat : 0 ≤ lat) (rs : List TRead)
    (ho : Spec.ReadsOnTime (payloadDeadline timeout now) lat now rs) : ∀ t, readLoopT rs = some t → t ≤ now + 3000000000 + lat := by
  obtain ⟨d, h1, h2, h3, _⟩ := C58_payload_partial timeout now h
  rw [h1] at ho
  intro t ht
  have := C58_read_ends hlat rs now (by omega) ho t ht
  omega

/-- The hypotheses of the two theorems before: with a timeout of 2 seconds a payload comes in two pieces, the second one late. -/
example : Spec.ReadsOnTime (payloadDeadline 2 0) 10 0 [⟨0, 1500000000, false, true⟩, ⟨1500000000, 2000000000, true, true⟩] ∧
    readLoopT [⟨0, 1500000000, false, true⟩, ⟨1500000000, 2000000000, true, true⟩] = some 2000000000 := by
  refine ⟨?_, by decide⟩
  rw [show payloadDeadline 2 0 = some 2000000000 from by decide]
  simp [Spec.ReadsOnTime]

/-- Without a timeout a peer can keep the payload's read waiting for any time, on a connection that honours all its deadlines. -/
theorem C58_refuted_wait (timeout now : Int) (h : timeout ≤ 0) (T : Int) : ∃ rs,
    Spec.ReadsOnTime (payloadDeadline timeout now) 0 now rs ∧ ∃ t, readLoopT rs = some t ∧ t = now + T := by
  rw [C58_refuted_payload timeout now h]
  exact ⟨[{ start := now, ret := now + T, fail := false, more := false }], ⟨by simp, by simp, by simp, trivial⟩, _, rfl, rfl⟩

/-- **C58 is false of the code for a very large timeout**: the product overflows and the header's deadline lies in the past. -/
theorem C58_refuted_overflow (now : Int) : ∃ d, headerDeadline 9223372037 now = some d ∧ d < now := by
  refine ⟨now + seconds 9223372037, rfl, ?_⟩
  rw [show seconds 9223372037 = -9223372036709551616 from by decide]
  omega

/-! ## Writing -/

/-- **C58, write rounds.** Whatever the configuration, no write is given a deadline more than 3 seconds away, nor - with a timeout - later
than the end of the timeout (plus the time between the two readings of the clock). -/
theorem C58_round (timeout endTime t51 t59 : Int) : writeDeadline timeout endTime t51 t59 ≤ t59 + 3000000000 ∧
    (timeout > 0 → writeDeadline timeout endTime t51 t59 ≤ endTime + (t59 - t51)) := by
  have hc := ctxCheck_eq
  simp only [writeDeadline]
  split
  · split
    · omega
    · omega
  · omega

/-- A connection that honours its write deadlines (a write returns by its deadline, or at once if that is past; it reports no error only
when everything was written), and code that takes at most `lat` per round outside the write. -/
def Spec.WritesOnTime (timeout endTime lat : Int) (size : Nat) : Int → Nat → List TRound → Prop
  | _, _, [] => True
  | prev, off, r :: rs => prev ≤ r.t51 ∧ r.t51 ≤ r.t59 ∧ r.t59 ≤ r.ret ∧ r.ret ≤ r.t65 ∧
    (r.ret ≤ r.t59 ∨ r.ret ≤ writeDeadline timeout endTime r.t51 r.t59) ∧
    (r.t59 - prev) + (r.t65 - r.ret) ≤ lat ∧
    (r.err = none → off + r.n ≥ size) ∧
    WritesOnTime timeout endTime lat size r.t65 (off + r.n) rs

theorem writeLoopT_timed {timeout endTime lat : Int} {size : Nat} (ht : timeout > 0) : ∀ (rs : List TRound) (prev : Int) (off : Nat),
    prev ≤ endTime → Spec.WritesOnTime timeout endTime lat size prev off rs →
    ∀ res t, writeLoopT timeout endTime size off rs = some (res, t) → t ≤ endTime + lat := by
  intro rs
  induction rs with
  | nil => intro prev off _ _ res t h; simp [writeLoopT] at h
  | cons r rs ih =>
    intro prev off hp ho res t h
    obtain ⟨h1, h2, h3, h4, h5, h6, h7, h8⟩ := ho
    have hd := (C58_round timeout endTime r.t51 r.t59).2 ht
    have hb : r.t65 ≤ endTime + lat := by rcases h5 with h5 | h5 <;> omega
    simp only [writeLoopT] at h
    split at h
    · simp only [Option.some.injEq, Prod.mk.injEq] at h
      omega
    · next ha =>
      refine ih r.t65 _ ?_ h8 res t h
      -- the loop goes on only after a timeout that is not past the end
      apply Classical.byContradiction
      intro hgt
      cases he : r.err with
      | none =>
        have := h7 he
        simp [afterWrite, he, this] at ha
      | some e =>
        cases e with
        | timeout =>
          rw [he, afterWrite] at ha
          rw [if_pos (by simp [ht]; omega)] at ha
          simp at ha
        | other c => simp [afterWrite, he] at ha
        | ctx => simp [afterWrite, he] at ha

/-- **C58, writes give up.** With a positive timeout, a write loop started at `now` returns by the end of the timeout, up to the
latency of one round. -/
theorem C58_write_ends {timeout now lat : Int} {size : Nat} (ht : timeout > 0) (hf : Spec.Fits timeout) (rs : List TRound)
    (ho : Spec.WritesOnTime timeout (writeEnd timeout now) lat size now 0 rs) (res : WRes) (t : Int)
    (h : writeLoopT timeout (writeEnd timeout now) size 0 rs = some (res, t)) : t ≤ now + timeout * 1000000000 + lat := by
  have he : writeEnd timeout now = now + timeout * 1000000000 := by rw [writeEnd, seconds_of (by omega) hf]
  rw [he] at ho h
  exact writeLoopT_timed ht rs now 0 (by omega) ho res t h

/-- It does not go on once the clock has passed the end: a round seen to end later returns. -/
theorem C58_write_stops {timeout endTime : Int} {size : Nat} (ht : timeout > 0) (off : Nat) (r : TRound) (rs : List TRound)
    (hc : r.err = none → off + r.n ≥ size) (hl : r.t65 > endTime) : ∃ res, writeLoopT timeout endTime size off (r :: rs) = some (res, r.t65) := by
  simp only [writeLoopT]
  cases he : r.err with
  | none => simp only [afterWrite, hc he, if_true]; exact ⟨_, rfl⟩
  | some e =>
    cases e with
    | timeout => rw [afterWrite, if_pos (by simp [ht, hl])]; exact ⟨_, rfl⟩
    | other c => exact ⟨_, rfl⟩
    | ctx => exact ⟨_, rfl⟩

/-- **C58, cancellation.** For every configuration of the timeout: if the context is done from `tc` on, the loop returns at most 3
seconds (plus the latency of one round) after `tc` or its start, whichever is later. -/
theorem C58_cancel {timeout endTime lat tc : Int} {size : Nat} : ∀ (rs : List TRound) (prev : Int) (off : Nat),
    Spec.WritesOnTime timeout endTime lat size prev off rs → (∀ r ∈ rs, tc ≤ r.t65 → r.done = true) →
    ∀ res t, writeLoopT timeout endTime size off rs = some (res, t) → t ≤ max prev tc + 3000000000 + lat := by
  intro rs
  induction rs with
  | nil => intro prev off _ _ res t h; simp [writeLoopT] at h
  | cons r rs ih =>
    intro prev off ho hdone res t h
    obtain ⟨h1, h2, h3, h4, h5, h6, h7, h8⟩ := ho
    have hd := (C58_round timeout endTime r.t51 r.t59).1
    have hb : r.t65 ≤ prev + 3000000000 + lat := by rcases h5 with h5 | h5 <;> omega
    simp only [writeLoopT] at h
    split at h
    · simp only [Option.some.injEq, Prod.mk.injEq] at h
      omega
    · next ha =>
      have hlt : r.t65 < tc := by
        apply Classical.byContradiction
        intro hge
        have hdn := hdone r (List.mem_cons_self ..) (by omega)
        rw [hdn] at ha
        unfold afterWrite at ha
        split at ha
        · split at ha
          · simp at ha
          · split at ha <;> simp at ha
        · simp at ha
        · split at ha <;> simp at ha
      have := ih r.t65 _ h8 (fun x hx => hdone x (List.mem_cons_of_mem _ hx)) res t h
      omega

/-- It checks: the first round that ends after `tc` returns. -/
theorem C58_cancel_stops {timeout endTime : Int} {size : Nat} (off : Nat) (r : TRound) (rs : List TRound) (hd : r.done = true) :
    ∃ res, writeLoopT timeout endTime size off (r :: rs) = some (res, r.t65) := by
  simp only [writeLoopT, hd]
  unfold afterWrite
  cases r.err with
  | none =>
    by_cases h : off + r.n ≥ size
    · simp only [if_pos h]; exact ⟨_, rfl⟩
    · simp only [if_neg h, if_true]; exact ⟨_, rfl⟩
  | some e =>
    cases e with
    | timeout =>
      simp only []
      split
      · next h => exact ⟨_, rfl⟩
      · next h =>
        exfalso; revert h; split
        · simp
        · split <;> simp
    | other c => exact ⟨_, rfl⟩
    | ctx => exact ⟨_, rfl⟩

/-- **C58 is false of the code for a very large write timeout**: the end lies in the past, so the first deadline does too and the first
timeout ends the write. -/
theorem C58_refuted_write_overflow (now : Int) : writeEnd 9223372037 now < now ∧ writeDeadline 9223372037 (writeEnd 9223372037 now) now now < now := by
  have h : seconds 9223372037 = -9223372036709551616 := by decide
  have hc : ctxCheckMaxInterval = 3000000000 := by decide
  simp only [writeDeadline, writeEnd, h, hc]
  constructor
  · omega
  · rw [if_pos (by omega), if_neg (by omega)]; omega

/-- A write with a timeout of 5 seconds that times out twice and gives up: the hypotheses of C58_write_ends hold. -/
def exTRounds : List TRound :=
  [{ t51 := 0, t59 := 0, ret := 3000000000, t65 := 3000000000, n := 4, err := some .timeout, done := false },
   { t51 := 3000000000, t59 := 3000000000, ret := 5000000000, t65 := 5000000001, n := 0, err := some .timeout, done := false }]
example : Spec.WritesOnTime 5 (writeEnd 5 0) 10 9 0 0 exTRounds ∧
    writeLoopT 5 (writeEnd 5 0) 9 0 exTRounds = some (⟨4, some .timeout⟩, 5000000001) := by
  refine ⟨?_, by decide⟩
  simp only [exTRounds, Spec.WritesOnTime, show writeEnd 5 0 = 5000000000 from by decide, show writeDeadline 5 5000000000 0 0 = 3000000000 from by decide,
    show writeDeadline 5 5000000000 3000000000 3000000000 = 5000000000 from by decide]
  simp

/-- The same write, its context cancelled after one second: found when the first round times out, after 3 seconds. The hypotheses of
C58_cancel (with `tc` = 1 second) and C58_cancel_stops hold; and those of C58_write_stops do for the last round of `exTRounds`. -/
def exTCancel : List TRound :=
  [{ t51 := 0, t59 := 0, ret := 3000000000, t65 := 3000000000, n := 4, err := some .timeout, done := true }]
example : Spec.WritesOnTime 5 (writeEnd 5 0) 10 9 0 0 exTCancel ∧ (∀ r ∈ exTCancel, (1000000000 : Int) ≤ r.t65 → r.done = true) ∧
    writeLoopT 5 (writeEnd 5 0) 9 0 exTCancel = some (⟨4, some .ctx⟩, 3000000000) ∧
    (∀ r ∈ exTRounds.drop 1, (r.err = none → 4 + r.n ≥ 9) ∧ r.t65 > writeEnd 5 0) := by
  refine ⟨?_, by decide, by decide, by decide⟩
  simp only [exTCancel, Spec.WritesOnTime, show writeEnd 5 0 = 5000000000 from by decide, show writeDeadline 5 5000000000 0 0 = 3000000000 from by decide]
  simp

end Qrpc
