import Verif.Model.ChannelEncode
import Verif.Spec.Wire
/-! # Property C98: what a channel sends, the other end receives -/
namespace Qrpc

/-- Each of the two encodings, taken alone, gives back the message. -/
structure Spec.Faithful {α : Type} (t : MsgType α) : Prop where
  own : ∀ m b, t.ownEnc m = some b → t.ownDec b = some m
  json : ∀ m b, t.jsonEnc m = some b → t.jsonDec b = some m

/-- Sender and receiver use the same encoding: the receiver decodes into a pointer, whose methods are all of them, so the sender's
argument must show its `Marshal` exactly if the type has an `Unmarshal`, on the pointer. -/
def Spec.SameEncoding (marshal unmarshal : Recv) (k : ArgKind) : Prop :=
  (unmarshal = .onPtr ∧ (marshal = .onValue ∨ (marshal = .onPtr ∧ k = .ptr))) ∨
  (unmarshal = .no ∧ (marshal = .no ∨ (marshal = .onPtr ∧ k = .value)))

/-- **C98 (partial).** If both ends use the same encoding, a message that was encoded is received as it was sent. -/
theorem C98_partial {α : Type} (t : MsgType α) (hf : Spec.Faithful t) (k : ArgKind) (hk : Spec.SameEncoding t.marshalRecv t.unmarshalRecv k)
    (m old : α) (b : Bytes) (hb : chMarshal t k m = some b) : chUnmarshal t .ptr b old = some m := by
  unfold chMarshal at hb
  unfold chUnmarshal
  rcases hk with ⟨hu, hm⟩ | ⟨hu, hm⟩
  · have : t.marshalRecv.inSet k = true := by
      rcases hm with hm | ⟨hm, rfl⟩ <;> rw [hm] <;> rfl
    rw [if_pos this] at hb
    simp [hu, Recv.inSet, hf.own m b hb]
  · have : t.marshalRecv.inSet k = false := by
      rcases hm with hm | ⟨hm, rfl⟩ <;> rw [hm] <;> rfl
    rw [this] at hb
    simp only [Bool.false_eq_true, if_false] at hb
    simp [hu, Recv.inSet, hf.json m b hb]

/-- **C98 is false of the code** wherever the ends differ: for every other declaration of the methods and kind of argument there is a
message type, whose encodings are both faithful and never fail, with a message that arrives as another one. -/
theorem C98_refuted (mr ur : Recv) (k : ArgKind) (h : ¬ Spec.SameEncoding mr ur k) :
    ∃ t : MsgType Bool, t.marshalRecv = mr ∧ t.unmarshalRecv = ur ∧ Spec.Faithful t ∧
      (∀ m, (t.ownEnc m).isSome ∧ (t.jsonEnc m).isSome) ∧
      ∃ m old b, chMarshal t k m = some b ∧ chUnmarshal t .ptr b old ≠ some m := by
  let t : MsgType Bool := ⟨mr, ur, fun m => some [if m then 1 else 0], fun b => some (b == [1]),
    fun m => some [if m then 0 else 1], fun b => some (b == [0])⟩
  refine ⟨t, rfl, rfl, ⟨?_, ?_⟩, fun _ => ⟨rfl, rfl⟩, true, false, ?_⟩
  · intro m b hb; cases m <;> simp [t] at hb ⊢ <;> simp [← hb]
  · intro m b hb; cases m <;> simp [t] at hb ⊢ <;> simp [← hb]
  · cases mr <;> cases ur <;> cases k <;> simp [Spec.SameEncoding] at h <;>
      simp [t, chMarshal, chUnmarshal, Recv.inSet]

/-- The common case: generated code declares both methods on the pointer. Sending a pointer works; sending the value sends JSON, which
the other end takes for the generated encoding. -/
def exMsg : MsgType Bool := ⟨.onPtr, .onPtr, fun m => some [if m then 8 else 0], fun b => if b = [8] then some true else if b = [0] then some false else none,
  fun m => some [if m then 116 else 102], fun b => if b = [116] then some true else if b = [102] then some false else none⟩

example : Spec.Faithful exMsg ∧ chUnmarshal exMsg .ptr [8] false = some true ∧ chMarshal exMsg .value true = some [116] ∧
    chUnmarshal exMsg .ptr [116] false = none := by
  refine ⟨⟨?_, ?_⟩, by decide, by decide, by decide⟩ <;>
  · intro m b hb
    cases m <;> simp [exMsg] at hb ⊢ <;> simp [← hb]

example : chUnmarshal exMsg .ptr [8] false = some true :=
  C98_partial exMsg ⟨by intro m b hb; cases m <;> simp [exMsg] at hb ⊢ <;> simp [← hb],
    by intro m b hb; cases m <;> simp [exMsg] at hb ⊢ <;> simp [← hb]⟩ .ptr (.inl ⟨rfl, .inr ⟨rfl, rfl⟩⟩) true false [8] (by decide)

end Qrpc
