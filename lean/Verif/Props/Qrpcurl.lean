import Verif.Model.Qrpcurl
import Verif.Props.ServeResp
/-! # C91: the command-line tool sends what it is told to send -/
namespace Qrpc
open Spec

/-- A number in decimal. -/
def Spec.dec (n : Nat) : Bytes := if n < 10 then [UInt8.ofNat (48 + n)] else dec (n / 10) ++ [UInt8.ofNat (48 + n % 10)]
termination_by n
decreasing_by omega

/-- The value of decimal digits. -/
def Spec.decVal : Bytes → Nat
  | [] => 0
  | c :: r => (c.toNat - 48) * 10 ^ r.length + decVal r

theorem atoiDigits_spec : ∀ (l : Bytes) (n m : Nat), atoiDigits n l = some m →
    (∀ c ∈ l, 0x30 ≤ c ∧ c ≤ 0x39) ∧ m = n * 10 ^ l.length + decVal l := by
  intro l
  induction l with
  | nil => intro n m h; simp only [atoiDigits, Option.some.injEq] at h; subst h; simp [decVal]
  | cons c r ih =>
    intro n m h
    rw [atoiDigits] at h
    split at h
    · next hc =>
      obtain ⟨h1, h2⟩ := ih _ _ h
      refine ⟨?_, ?_⟩
      · intro x hx
        rcases List.mem_cons.mp hx with rfl | hx
        · exact hc
        · exact h1 x hx
      · rw [h2, decVal, List.length_cons, Nat.pow_succ, Nat.add_mul, Nat.mul_comm 10 n, Nat.mul_assoc, Nat.mul_comm (10 ^ r.length) 10]
        omega
    · simp at h

theorem atoiDigits_append (a b : Bytes) : ∀ n, atoiDigits n (a ++ b) = (atoiDigits n a).bind fun m => atoiDigits m b := by
  induction a with
  | nil => intro n; rfl
  | cons c r ih =>
    intro n
    rw [List.cons_append, atoiDigits, atoiDigits]
    split
    · exact ih _
    · rfl

theorem digit_byte {d : Nat} (h : d < 10) : (0x30 : UInt8) ≤ UInt8.ofNat (48 + d) ∧ UInt8.ofNat (48 + d) ≤ 0x39 ∧
    (UInt8.ofNat (48 + d)).toNat = 48 + d := by
  have : ∀ d : Fin 10, (0x30 : UInt8) ≤ UInt8.ofNat (48 + d) ∧ UInt8.ofNat (48 + d) ≤ 0x39 ∧ (UInt8.ofNat (48 + d)).toNat = 48 + d := by
    decide
  exact this ⟨d, h⟩

theorem atoiDigits_dec (n : Nat) : atoiDigits 0 (dec n) = some n := by
  induction n using Nat.strongRecOn with
  | _ n ih =>
    rw [dec]
    split
    · next h =>
      obtain ⟨h1, h2, h3⟩ := digit_byte h
      simp only [atoiDigits, h1, h2, and_self, if_true, h3, Option.some.injEq]
      omega
    · next h =>
      obtain ⟨h1, h2, h3⟩ := digit_byte (d := n % 10) (by omega)
      rw [atoiDigits_append, ih (n / 10) (by omega)]
      simp only [Option.bind_some, atoiDigits, h1, h2, and_self, if_true, h3, Option.some.injEq]
      omega

theorem dec_digits (n : Nat) : dec n ≠ [] ∧ ∀ c ∈ dec n, 0x30 ≤ c ∧ c ≤ 0x39 := by
  refine ⟨?_, (atoiDigits_spec _ _ _ (atoiDigits_dec n)).1⟩
  rw [dec]; split <;> simp

theorem atoi_dec {n : Nat} (h : n < 2 ^ 63) : atoi (dec n) = some (n : Int) := by
  obtain ⟨h1, h2⟩ := dec_digits n
  have h3 := atoiDigits_dec n
  cases hd : dec n with
  | nil => exact absurd hd h1
  | cons c r =>
    rw [hd] at h2 h3
    have hc := h2 c (by simp)
    have : c ≠ 0x2d ∧ c ≠ 0x2b := by
      constructor <;> (rintro rfl; revert hc; decide)
    simp [atoi, this, h3, h]

/-- A number as Atoi reads it: an optional sign and digits. -/
def Spec.IsInt (s : Bytes) (v : Int) : Prop :=
  ∃ ds, ds ≠ [] ∧ (∀ c ∈ ds, 0x30 ≤ c ∧ c ≤ 0x39) ∧
    ((s = 0x2d :: ds ∧ v = -(decVal ds : Int)) ∨ ((s = ds ∨ s = 0x2b :: ds) ∧ v = decVal ds))

theorem atoi_sound {s : Bytes} {v : Int} (h : atoi s = some v) : IsInt s v := by
  cases s with
  | nil => simp [atoi] at h
  | cons c r =>
    have key : ∀ ds n, ds ≠ [] → atoiDigits 0 ds = some n → (∀ c ∈ ds, 0x30 ≤ c ∧ c ≤ 0x39) ∧ n = decVal ds := by
      intro ds n _ hn
      obtain ⟨h1, h2⟩ := atoiDigits_spec _ _ _ hn
      exact ⟨h1, by simpa using h2⟩
    by_cases hc : c = 0x2d
    · simp only [atoi, hc, if_true] at h
      by_cases hr : r = []
      · simp [hr] at h
      · cases hd : atoiDigits 0 r with
        | none => simp [hr, hd] at h
        | some n =>
          obtain ⟨h1, h2⟩ := key r n hr hd
          rw [if_neg hr, hd] at h
          simp only at h
          by_cases hn : n ≤ 2 ^ 63
          · rw [if_pos hn] at h
            simp only [Option.some.injEq] at h
            exact ⟨r, hr, h1, .inl ⟨by rw [hc], by rw [← h, h2]⟩⟩
          · rw [if_neg hn] at h; exact absurd h (by simp)
    · simp only [atoi, hc, if_false] at h
      generalize hds : (if c = 0x2b then r else c :: r) = ds at h
      by_cases hr : ds = []
      · simp [hr] at h
      · cases hd : atoiDigits 0 ds with
        | none => simp [hr, hd] at h
        | some n =>
          obtain ⟨h1, h2⟩ := key ds n hr hd
          rw [if_neg hr, hd] at h
          simp only at h
          by_cases hn : n < 2 ^ 63
          · rw [if_pos hn] at h
            simp only [Option.some.injEq] at h
            refine ⟨ds, hr, h1, .inr ⟨?_, by rw [← h, h2]⟩⟩
            by_cases hp : c = 0x2b
            · right; rw [hp, ← hds, if_pos hp]
            · left; rw [← hds, if_neg hp]
          · rw [if_neg hn] at h; exact absurd h (by simp)

theorem splitByte_none {c : UInt8} {s : Bytes} (h : c ∉ s) : splitByte c s = [s] := by
  induction s with
  | nil => rfl
  | cons x r ih =>
    simp only [List.mem_cons, not_or] at h
    rw [splitByte, if_neg (fun e => h.1 e.symm), ih h.2]

theorem splitByte_append {c : UInt8} {a b : Bytes} (h : c ∉ a) : splitByte c (a ++ c :: b) = a :: splitByte c b := by
  induction a with
  | nil => simp [splitByte]
  | cons x r ih =>
    simp only [List.mem_cons, not_or] at h
    rw [List.cons_append, splitByte, if_neg (fun e => h.1 e.symm), ih h.2]

theorem splitByte_sound {c : UInt8} : ∀ (s p : Bytes) (ps : List Bytes), splitByte c s = p :: ps →
    c ∉ p ∧ ((ps = [] ∧ s = p) ∨ ∃ t, s = p ++ c :: t ∧ splitByte c t = ps) := by
  intro s
  induction s with
  | nil => intro p ps h; simp only [splitByte, List.cons.injEq] at h; obtain ⟨rfl, rfl⟩ := h; simp
  | cons x r ih =>
    intro p ps h
    rw [splitByte] at h
    by_cases hx : x = c
    · rw [if_pos hx] at h
      obtain ⟨rfl, rfl⟩ := List.cons.inj h
      exact ⟨by simp, .inr ⟨r, by simp [hx], rfl⟩⟩
    · rw [if_neg hx] at h
      cases hr : splitByte c r with
      | nil =>
        exfalso
        cases r with
        | nil => simp [splitByte] at hr
        | cons y r' =>
          rw [splitByte] at hr
          split at hr
          · simp at hr
          · split at hr <;> simp at hr
      | cons q qs =>
        rw [hr] at h
        obtain ⟨rfl, rfl⟩ := List.cons.inj h
        obtain ⟨h1, h2⟩ := ih q qs hr
        refine ⟨by simp [h1, Ne.symm hx], ?_⟩
        rcases h2 with ⟨h2, h3⟩ | ⟨t, h2, h3⟩
        · exact .inl ⟨h2, by rw [h3]⟩
        · exact .inr ⟨t, by rw [h2]; simp, h3⟩

theorem splitByte_two {c : UInt8} {s : Bytes} : (splitByte c s).length = 2 ↔ ∃ a b, s = a ++ c :: b ∧ c ∉ a ∧ c ∉ b := by
  constructor
  · intro h
    cases h1 : splitByte c s with
    | nil => rw [h1] at h; simp at h
    | cons a ps =>
      cases ps with
      | nil => rw [h1] at h; simp at h
      | cons b qs =>
        cases qs with
        | cons _ _ => rw [h1] at h; simp at h
        | nil =>
          obtain ⟨k1, k2⟩ := splitByte_sound s a [b] h1
          rcases k2 with ⟨k2, _⟩ | ⟨t, k2, k3⟩
          · simp at k2
          · obtain ⟨k4, k5⟩ := splitByte_sound t b [] k3
            rcases k5 with ⟨_, k5⟩ | ⟨u, k5, k6⟩
            · exact ⟨a, b, by rw [k2, k5], k1, k4⟩
            · exfalso
              cases u with
              | nil => simp [splitByte] at k6
              | cons y r' =>
                rw [splitByte] at k6
                split at k6
                · simp at k6
                · split at k6 <;> simp at k6
  · rintro ⟨a, b, rfl, ha, hb⟩
    rw [splitByte_append ha, splitByte_none hb]; rfl

theorem clientRequest_plain {ε} (codec : Option Codec) (write : DFW → Option ε) (pooled : DFW) (hd : pooled.Clean) (id : UInt64) (r : Nat)
    (c : Cmd) (f : FrameFlag) (p : Bytes) (hc : FrameFlag.isCodec f = false) :
    ∃ sub, (clientRequest codec write pooled id r c f p).submitted = some sub ∧ sub.wbuf = layout id c f p ∧
      (clientRequest codec write pooled id r c f p).err = (write sub).map .write := by
  have h0 : FrameFlag.toNonStream f = f := C06_refuted_toNonStream f
  unfold clientRequest writeFirstFrame
  rw [h0]
  simp only
  generalize hw : (if FrameFlag.isPush f then pooled.fromPool else { pooled.fromPool with resp := some r }) = w
  have hl : w.wbuf = pooled.wbuf := by rw [← hw]; split <;> rfl
  have hwl : 16 ≤ w.wbuf.length := by rw [hl]; unfold DFW.Clean at hd; omega
  obtain ⟨h1, h2⟩ := (DFW.startWrite_holds w id c f hwl).writeBytes p
  rw [DFW.startWrite_payload w id c f hwl] at h2
  have hwp : w.payload = [] := by unfold DFW.payload; rw [hl]; exact hd.payload_nil
  rw [hwp, List.nil_append] at h2
  obtain ⟨sub, e1, e2, _, _, e3, _⟩ := endWrite_ok h1 codec write (by rw [h2]; exact sentAs_noCodec codec _ _ hc)
  exact ⟨sub, e1, e2, e3⟩

/-- What the tool does with `host:port/cmd payload` before it looks at the flag. -/
theorem qrpcurl_parsed {ε} {host port payload : Bytes} {n : Nat} {flag : Int} (hh : 0x2f ∉ host ∧ 0x3a ∉ host) (hp : 0x2f ∉ port ∧ 0x3a ∉ port)
    (hn : n ≤ 0xffffff) {dial : Bytes → Bool} (hdial : dial (host ++ 0x3a :: port) = true) (write : DFW → Option ε)
    (pooled : DFW) (id : UInt64) (r : Nat) (resp : Option Frame) :
    qrpcurl [host ++ 0x3a :: port ++ 0x2f :: dec n, payload] flag dial write pooled id r resp =
      if flag < 0 ∨ flag > 0xff then { dialled := some (host ++ 0x3a :: port), out := .flagRange }
      else
        let res := clientRequest none write pooled id r (UInt32.ofNat n) (UInt8.ofNat flag.toNat) payload
        match res.err with
        | some _ => { dialled := some (host ++ 0x3a :: port), submitted := res.submitted, out := .requestFail }
        | none => if FrameFlag.isPush (UInt8.ofNat flag.toNat) then { dialled := some (host ++ 0x3a :: port), submitted := res.submitted, out := .panic }
          else match resp with
            | some f => { dialled := some (host ++ 0x3a :: port), submitted := res.submitted, out := .response f }
            | none => { dialled := some (host ++ 0x3a :: port), submitted := res.submitted, out := .responseFail } := by
  have hslash : (0x2f : UInt8) ∉ host ++ 0x3a :: port := by
    simp only [List.mem_append, List.mem_cons, not_or]
    exact ⟨hh.1, by decide, hp.1⟩
  have hdec : (0x2f : UInt8) ∉ dec n := by
    intro h
    have := (dec_digits n).2 _ h
    revert this; decide
  have e1 : splitByte 0x2f (host ++ 0x3a :: port ++ 0x2f :: dec n) = [host ++ 0x3a :: port, dec n] := by
    rw [splitByte_append hslash, splitByte_none hdec]
  have e2 : (splitByte 0x3a (host ++ 0x3a :: port)).length = 2 := splitByte_two.mpr ⟨host, port, rfl, hh.2, hp.2⟩
  have e3 : ¬ ((n : Int) < 0 ∨ (n : Int) > 0xffffff) := by omega
  simp only [qrpcurl, e1, atoi_dec (n := n) (by omega), if_neg e3, e2, hdial, C06_refuted_toNonStream, Int.toNat_natCast]
  rfl

/-- **C91, partial**: `qrpcurl -f flag host:port/cmd payload` with a command of 24 bits in decimal, a flag byte without the push and codec
bits, and a server that accepts connections sends exactly one frame, with that command, flag byte and payload, and prints the
response. (`flag` in decimal is parsed by the option library.) -/
theorem C91_partial {ε} {host port payload : Bytes} {n flag : Nat} (hh : 0x2f ∉ host ∧ 0x3a ∉ host) (hp : 0x2f ∉ port ∧ 0x3a ∉ port)
    (hn : n ≤ 0xffffff) (hf : flag < 256) (hpush : flag.testBit 4 = false) (hcodec : flag.testBit 5 = false)
    {dial : Bytes → Bool} (hdial : dial (host ++ 0x3a :: port) = true) {write : DFW → Option ε} (hwrite : ∀ d, write d = none)
    {pooled : DFW} (hd : pooled.Clean) (id : UInt64) (r : Nat) (resp : Option Frame) :
    ∃ sub, qrpcurl [host ++ 0x3a :: port ++ 0x2f :: dec n, payload] flag dial write pooled id r resp =
        { dialled := some (host ++ 0x3a :: port), submitted := some sub,
          out := match resp with | some f => .response f | none => .responseFail } ∧
      sub.wbuf = layout id (UInt32.ofNat n) (UInt8.ofNat flag) payload := by
  have hfl : ∀ k : Fin 256, FrameFlag.isCodec (UInt8.ofNat k) = Nat.testBit k 5 ∧ FrameFlag.isPush (UInt8.ofNat k) = Nat.testBit k 4 := by decide +kernel
  obtain ⟨h5, h4⟩ := hfl ⟨flag, hf⟩
  simp only at h5 h4
  obtain ⟨sub, e1, e2, e3⟩ := clientRequest_plain none write pooled hd id r (UInt32.ofNat n) (UInt8.ofNat flag) payload (by rw [h5, hcodec])
  refine ⟨sub, ?_, e2⟩
  rw [qrpcurl_parsed hh hp hn hdial, if_neg (by omega)]
  simp only [Int.toNat_natCast, e1, e3, hwrite, Option.map_none, h4, hpush, Bool.false_eq_true, if_false]
  cases resp <;> rfl

/-- **C91, nothing else is sent.** Whatever the arguments: a frame is sent only if there are two, the first of the form
`host:port/cmd` with one slash, one colon before it and a number from 0 to 2^24 - 1 after it, and the flag is a byte; the frame
then has that command, the flag byte (possibly without its codec bit), and the tool has dialled `host:port`. -/
theorem C91_only {ε} {args : List Bytes} {flag : Int} {dial : Bytes → Bool} {write : DFW → Option ε} {pooled : DFW} (hd : pooled.Clean)
    {id : UInt64} {r : Nat} {resp : Option Frame} {sub : DFW} (h : (qrpcurl args flag dial write pooled id r resp).submitted = some sub) :
    ∃ host port cmdStr payload n, args = [host ++ 0x3a :: port ++ 0x2f :: cmdStr, payload] ∧
      (0x2f ∉ host ∧ 0x3a ∉ host) ∧ (0x2f ∉ port ∧ 0x3a ∉ port) ∧ IsInt cmdStr n ∧ 0 ≤ n ∧ n ≤ 0xffffff ∧ 0 ≤ flag ∧ flag ≤ 0xff ∧
      dial (host ++ 0x3a :: port) = true ∧ (qrpcurl args flag dial write pooled id r resp).dialled = some (host ++ 0x3a :: port) ∧
      ∃ f' p', sub.wbuf = layout id (UInt32.ofNat n.toNat) f' p' ∧
        (f' = UInt8.ofNat flag.toNat ∨ f' = FrameFlag.toNonCodec (UInt8.ofNat flag.toNat)) := by
  unfold qrpcurl at h ⊢
  split at h
  case h_2 => simp at h
  case h_1 url payload =>
  split at h
  case h_2 => simp at h
  case h_3 => simp at h
  case h_1 hp cmdStr hsplit =>
  split at h
  case h_1 => simp at h
  case h_2 n hatoi =>
  split at h
  · simp at h
  · next h1 =>
    split at h
    · simp at h
    · next h2 =>
      split at h
      · simp at h
      · next h3 =>
        split at h
        · simp at h
        · next h4 =>
          obtain ⟨a, b, hab, ha, hb⟩ := splitByte_two.mp (Decidable.not_not.mp h2)
          obtain ⟨u, v, huv, hu, hv⟩ := splitByte_two (c := 0x2f).mp (by rw [hsplit]; rfl : (splitByte 0x2f url).length = 2)
          have huv' := hsplit
          rw [huv, splitByte_append hu, splitByte_none hv] at huv'
          simp only [List.cons.injEq, and_true] at huv'
          obtain ⟨rfl, rfl⟩ := huv'
          have hres : (clientRequest none write pooled id r (UInt32.ofNat n.toNat) (UInt8.ofNat flag.toNat) payload).submitted = some sub := by
            simp only at h
            split at h
            · exact h
            · split at h
              · exact h
              · split at h <;> exact h
          obtain ⟨f', p', k1, k2⟩ := clientRequest_layout none write pooled hd id r _ _ payload sub hres
          rw [hab] at hu
          simp only [List.mem_append, List.mem_cons, not_or] at hu
          refine ⟨a, b, v, payload, n, by rw [huv, hab], ⟨hu.1, ha⟩, ⟨hu.2.2, hb⟩, atoi_sound hatoi, by omega, by omega, by omega, by omega,
            by rw [← hab]; simpa using h3, ?_, f', p', k1, k2⟩
          simp only [hsplit, hatoi, if_neg h1, if_neg h2, if_neg h3, if_neg h4, ← hab]
          split
          · rfl
          · split
            · rfl
            · split <;> rfl

/-- **C91 is false for flag bytes with the push bit**: the frame is sent, then the tool calls GetFrame on a nil Response and panics. -/
theorem C91_refuted_push {ε} {host port payload : Bytes} {n flag : Nat} (hh : 0x2f ∉ host ∧ 0x3a ∉ host) (hp : 0x2f ∉ port ∧ 0x3a ∉ port)
    (hn : n ≤ 0xffffff) (hf : flag < 256) (hpush : flag.testBit 4 = true) (hcodec : flag.testBit 5 = false)
    {dial : Bytes → Bool} (hdial : dial (host ++ 0x3a :: port) = true) {write : DFW → Option ε} (hwrite : ∀ d, write d = none)
    {pooled : DFW} (hd : pooled.Clean) (id : UInt64) (r : Nat) (resp : Option Frame) :
    ∃ sub, qrpcurl [host ++ 0x3a :: port ++ 0x2f :: dec n, payload] flag dial write pooled id r resp =
      { dialled := some (host ++ 0x3a :: port), submitted := some sub, out := .panic } := by
  have hfl : ∀ k : Fin 256, FrameFlag.isCodec (UInt8.ofNat k) = Nat.testBit k 5 ∧ FrameFlag.isPush (UInt8.ofNat k) = Nat.testBit k 4 := by decide +kernel
  obtain ⟨h5, h4⟩ := hfl ⟨flag, hf⟩
  simp only at h5 h4
  obtain ⟨sub, e1, e2, e3⟩ := clientRequest_plain none write pooled hd id r (UInt32.ofNat n) (UInt8.ofNat flag) payload (by rw [h5, hcodec])
  refine ⟨sub, ?_⟩
  rw [qrpcurl_parsed hh hp hn hdial, if_neg (by omega)]
  simp only [Int.toNat_natCast, e1, e3, hwrite, Option.map_none, h4, hpush, if_true]

/-- **C91, a flag outside the range** is refused only after the server has been dialled. -/
theorem C91_refuted_flag {ε} {host port payload : Bytes} {n : Nat} {flag : Int} (hh : 0x2f ∉ host ∧ 0x3a ∉ host) (hp : 0x2f ∉ port ∧ 0x3a ∉ port)
    (hn : n ≤ 0xffffff) (hf : flag < 0 ∨ 0xff < flag) {dial : Bytes → Bool} (hdial : dial (host ++ 0x3a :: port) = true)
    (write : DFW → Option ε) (pooled : DFW) (id : UInt64) (r : Nat) (resp : Option Frame) :
    qrpcurl [host ++ 0x3a :: port ++ 0x2f :: dec n, payload] flag dial write pooled id r resp =
      { dialled := some (host ++ 0x3a :: port), out := .flagRange } := by
  rw [qrpcurl_parsed hh hp hn hdial, if_pos (by omega)]

/-- `qrpcurl h:1/10 hi`, by hand: 10 is "10", and the frame sent is the one of C02. -/
example : ([0x68] : Bytes) ++ 0x3a :: [0x31] ++ 0x2f :: dec 10 = [0x68, 0x3a, 0x31, 0x2f, 0x31, 0x30] ∧
    (qrpcurl [[0x68, 0x3a, 0x31, 0x2f, 0x31, 0x30], [0x68, 0x69]] 8 (fun _ => true) (fun _ => (none : Option Unit)) DFW.new 1 0 none).submitted.map
      DFW.wbuf = some [0, 0, 0, 14, 0, 0, 0, 0, 0, 0, 0, 1, 8, 0, 0, 10, 0x68, 0x69] := by
  refine ⟨?_, by decide⟩
  rw [dec, if_neg (by omega), dec, if_pos (by omega)]; decide

end Qrpc
