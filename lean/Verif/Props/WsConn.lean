import Verif.Model.WsConn
/-! # C55: the WebSocket overlay is a byte stream -/
namespace Qrpc

/-- The bytes that are to come before the first error: the concatenation of the binary messages. -/
def Spec.wsStream : List WsIn → Bytes
  | [] => []
  | .err _ :: _ => []
  | .msg .binary b _ :: l => b ++ wsStream l
  | .msg _ _ (some _) :: _ => []
  | .msg _ _ none :: l => wsStream l

/-- How the stream ends. -/
def Spec.wsEnd : List WsIn → ReadErr
  | [] => .eof
  | .err e :: _ => .conn e
  | .msg .binary _ _ :: l => wsEnd l
  | .msg _ _ (some e) :: _ => .conn e
  | .msg _ _ none :: l => wsEnd l

open Spec

def WsConn.pending (c : WsConn) : Bytes := c.buffer ++ wsStream c.inbox

theorem readBuffer_spec (c : WsConn) (n : Nat) (h : c.buffer ≠ []) : ∃ b c', c.readBuffer n = (.ok b, c') ∧
    b = c.pending.take b.length ∧ b ++ c'.pending = c.pending ∧ b.length ≤ n ∧ (0 < n → b ≠ []) ∧ wsEnd c'.inbox = wsEnd c.inbox := by
  refine ⟨_, _, rfl, ?_, ?_, ?_, ?_, rfl⟩
  · simp only [WsConn.pending, List.length_take]
    rw [List.take_append_of_le_length (by omega), List.take_eq_take_iff]
    omega
  · simp only [WsConn.pending]
    rw [← List.append_assoc, List.take_append_drop]
  · simp; omega
  · intro hn hb
    rw [List.take_eq_nil_iff] at hb
    rcases hb with hb | hb
    · omega
    · exact h hb

/-- The result of one Read, in terms of the stream alone. -/
def ReadSpec (n : Nat) (pend : Bytes) (en : ReadErr) (r : Except ReadErr Bytes × WsConn) : Prop :=
  (∃ b, r.1 = .ok b ∧ b = pend.take b.length ∧ b ++ r.2.pending = pend ∧ b.length ≤ n ∧ (0 < n → b ≠ []) ∧ pend ≠ [] ∧ wsEnd r.2.inbox = en) ∨
  (r.1 = .error en ∧ pend = [] ∧ r.2.buffer = [])

theorem wsLoop_spec (n : Nat) (l : List WsIn) : ReadSpec n (wsStream l) (wsEnd l) (wsLoop n l) := by
  induction l with
  | nil => exact .inr ⟨rfl, rfl, rfl⟩
  | cons x l ih =>
    cases x with
    | err e => exact .inr ⟨rfl, rfl, rfl⟩
    | msg ty b ce =>
      by_cases hb : ty = .binary
      · subst hb
        by_cases hl : b = []
        · subst hl
          simpa [wsLoop, wsStream, wsEnd] using ih
        · have hl' : ¬ b.length = 0 := by simpa using hl
          simp only [wsLoop, if_neg hl', wsStream, wsEnd]
          obtain ⟨b', c', h1, h2, h3, h4, h5, h6⟩ := readBuffer_spec { buffer := b, inbox := l } n hl
          exact .inl ⟨b', by rw [h1], h2, by rw [h1]; exact h3, h4, h5, by simp [hl], by rw [h1]; exact h6⟩
      · cases ce with
        | none => cases ty <;> first | contradiction | simpa [wsLoop, wsStream, wsEnd] using ih
        | some e => cases ty <;> first | contradiction | exact .inr ⟨rfl, rfl, rfl⟩

/-- **C55, one Read.** With any buffer size, a Read returns the next bytes of the stream - at least one if there is room - or, only
when every byte has been returned, the error with which the stream ends. -/
theorem C55_read (c : WsConn) (n : Nat) : ReadSpec n c.pending (wsEnd c.inbox) (c.read n) := by
  unfold WsConn.read
  split
  · next h =>
    have hb : c.buffer ≠ [] := by intro h'; rw [h'] at h; simp at h
    obtain ⟨b, c', h1, h2, h3, h4, h5, h6⟩ := readBuffer_spec c n hb
    exact .inl ⟨b, by rw [h1], h2, by rw [h1]; exact h3, h4, h5, by simp [WsConn.pending, hb], by rw [h1]; exact h6⟩
  · next h =>
    have hb : c.buffer = [] := List.length_eq_zero_iff.mp (by omega)
    have := wsLoop_spec n c.inbox
    rwa [WsConn.pending, hb, List.nil_append]

/-- **C55.** For every sequence of messages and every sequence of buffer sizes: what the Reads return, one after the other, followed
by what is still to come, is the concatenation of the binary messages; an error comes only at its end. -/
theorem C55 (c : WsConn) (ns : List Nat) :
    let r := c.reads ns
    (r.2.1 = none ∧ r.1.flatten ++ r.2.2.pending = c.pending) ∨
      ∃ e, r.2.1 = some e ∧ e = wsEnd c.inbox ∧ r.1.flatten = c.pending := by
  induction ns generalizing c with
  | nil => left; simp [WsConn.reads]
  | cons n ns ih =>
    simp only [WsConn.reads]
    have h := C55_read c n
    rcases hr : c.read n with ⟨res, c'⟩
    rw [hr] at h
    rcases h with ⟨b, h1, h2, h3, h4, h5, h6, h7⟩ | ⟨h1, h2, h3⟩
    · simp only at h1 h3 h7
      subst h1
      simp only [List.flatten_cons]
      rcases ih c' with ⟨h8, h9⟩ | ⟨e, h8, h9, h10⟩
      · left
        exact ⟨h8, by rw [List.append_assoc, h9, h3]⟩
      · right
        exact ⟨e, h8, by rw [h9, h7], by rw [h10, h3]⟩
    · simp only at h1
      subst h1
      right
      exact ⟨_, rfl, rfl, by simp [h2]⟩

/-- Reading goes on: as long as bytes are to come, a Read with room returns some of them; so a sufficient number of Reads returns
everything. -/
theorem C55_complete (c : WsConn) (ns : List Nat) (hpos : ∀ n ∈ ns, 0 < n) (hlen : c.pending.length ≤ ns.length) :
    (c.reads ns).1.flatten = c.pending := by
  induction ns generalizing c with
  | nil => simp only [List.length_nil, Nat.le_zero, List.length_eq_zero_iff] at hlen; simp [WsConn.reads, hlen]
  | cons n ns ih =>
    simp only [WsConn.reads]
    have h := C55_read c n
    rcases hr : c.read n with ⟨res, c'⟩
    rw [hr] at h
    rcases h with ⟨b, h1, h2, h3, h4, h5, h6, h7⟩ | ⟨h1, h2, h3⟩
    · simp only at h1 h3
      subst h1
      have hb := h5 (hpos n (List.mem_cons_self ..))
      have hbl : 0 < b.length := List.length_pos_iff.mpr hb
      have hl : b.length + c'.pending.length = c.pending.length := by rw [← List.length_append, h3]
      simp only [List.flatten_cons]
      rw [ih c' (fun x hx => hpos x (List.mem_cons_of_mem _ hx)) (by simp only [List.length_cons] at hlen; omega), h3]
    · simp only at h1
      subst h1
      simp [h2]

/-- What one side writes, whatever the sizes, is what the other side reads. -/
theorem C55_transparent (l : List Bytes) (ns : List Nat) :
    ∃ rest, (WsConn.reads { buffer := [], inbox := wsWrites l } ns).1.flatten ++ rest = l.flatten := by
  have hs : wsStream (wsWrites l) = l.flatten := by
    induction l with
    | nil => rfl
    | cons b l ih => simp only [wsWrites, List.map_cons, wsStream, List.flatten_cons] at ih ⊢; rw [ih]
  have hp : WsConn.pending { buffer := [], inbox := wsWrites l } = l.flatten := by simp [WsConn.pending, hs]
  rcases C55 { buffer := [], inbox := wsWrites l } ns with ⟨_, h⟩ | ⟨e, _, _, h⟩
  · exact ⟨_, h.trans hp⟩
  · exact ⟨[], by rw [List.append_nil, h, hp]⟩

/-! ### The overlay refines the connection of Model/Reader.lean, so that everything proved about reading frames holds over it -/

def wsSegs : List WsIn → List Seg
  | [] => []
  | .err e :: _ => [.err e]
  | .msg .binary b _ :: l => if b = [] then wsSegs l else .data b :: wsSegs l
  | .msg _ _ (some e) :: _ => [.err e]
  | .msg _ _ none :: l => wsSegs l

def WsConn.segs (c : WsConn) : List Seg := if c.buffer = [] then wsSegs c.inbox else .data c.buffer :: wsSegs c.inbox

theorem readBuffer_refines (c : WsConn) (n : Nat) (h : c.buffer ≠ []) :
    connRead n c.segs = ((c.readBuffer n).1, (c.readBuffer n).2.segs) := by
  simp only [WsConn.segs, if_neg h, connRead, WsConn.readBuffer]
  split
  · next hl => simp [List.drop_of_length_le hl, List.take_of_length_le hl]
  · next hl =>
    have : c.buffer.drop n ≠ [] := by intro h'; rw [List.drop_eq_nil_iff] at h'; omega
    simp [this]

theorem wsLoop_refines (n : Nat) (l : List WsIn) :
    (connRead n (wsSegs l)).1 = (wsLoop n l).1 ∧
    (∀ b, (wsLoop n l).1 = .ok b → (connRead n (wsSegs l)).2 = (wsLoop n l).2.segs) := by
  induction l with
  | nil => exact ⟨rfl, fun b h => by simp [wsLoop] at h⟩
  | cons x l ih =>
    cases x with
    | err e => exact ⟨rfl, fun b h => by simp [wsLoop] at h⟩
    | msg ty b ce =>
      by_cases hb : ty = .binary
      · subst hb
        by_cases hl : b = []
        · subst hl; simpa [wsLoop, wsSegs] using ih
        · have hl' : ¬ b.length = 0 := by simpa using hl
          simp only [wsLoop, if_neg hl', wsSegs, if_neg hl]
          have := readBuffer_refines { buffer := b, inbox := l } n hl
          simp only [WsConn.segs, if_neg hl] at this
          rw [this]
          exact ⟨rfl, fun _ _ => rfl⟩
      · cases ce with
        | none => cases ty <;> first | contradiction | simpa [wsLoop, wsSegs] using ih
        | some e => cases ty <;> first | contradiction | exact ⟨rfl, fun b h => by simp [wsLoop] at h⟩

/-- **C55, refinement.** Each Read of the overlay gives the result the reader's model of a connection gives for the binary messages. -/
theorem C55_refines (c : WsConn) (n : Nat) :
    (connRead n c.segs).1 = (c.read n).1 ∧ (∀ b, (c.read n).1 = .ok b → (connRead n c.segs).2 = (c.read n).2.segs) := by
  unfold WsConn.read
  split
  · next h =>
    have hb : c.buffer ≠ [] := by intro h'; rw [h'] at h; simp at h
    rw [readBuffer_refines c n hb]
    exact ⟨rfl, fun _ _ => rfl⟩
  · next h =>
    have hb : c.buffer = [] := List.length_eq_zero_iff.mp (by omega)
    rw [WsConn.segs, if_pos hb]
    exact wsLoop_refines n c.inbox

example : (WsConn.reads { buffer := [], inbox := [.msg .binary [1, 2, 3] none, .msg .binary [] none, .msg .text [9] none, .msg .binary [4] none, .err 5] } [2, 2, 9, 1]) =
    ([[1, 2], [3], [4]], some (.conn 5), { buffer := [], inbox := [.err 5] }) := by decide

theorem wsLoop_stays (n : Nat) (l : List WsIn) (hc : ∀ ty b ce, .msg ty b ce ∈ l → ce = none) (e : ReadErr) (c' : WsConn)
    (h : wsLoop n l = (.error e, c')) : ∀ k, c'.read k = (.error e, c') := by
  induction l with
  | nil => simp only [wsLoop, Prod.mk.injEq, Except.error.injEq] at h; obtain ⟨rfl, rfl⟩ := h; intro k; simp [WsConn.read, wsLoop]
  | cons x l ih =>
    have ih := ih (fun ty b ce hm => hc ty b ce (.tail _ hm))
    cases x with
    | err k0 => simp only [wsLoop, Prod.mk.injEq, Except.error.injEq] at h; obtain ⟨rfl, rfl⟩ := h; intro k; simp [WsConn.read, wsLoop]
    | msg ty b ce =>
      obtain rfl := hc ty b ce (.head _)
      cases ty <;> simp only [wsLoop] at h
      case binary =>
        split at h
        · exact ih h
        · simp [WsConn.readBuffer] at h
      all_goals exact ih h

/-- **C55, an error stays.** Unless closing the connection failed on an unexpected message: once a Read has failed, every later Read,
of whatever size, fails in the same way and nothing is delivered any more. -/
theorem C55_stays (c : WsConn) (hc : ∀ ty b ce, .msg ty b ce ∈ c.inbox → ce = none) (n : Nat) (e : ReadErr) (c' : WsConn)
    (h : c.read n = (.error e, c')) : ∀ k, c'.read k = (.error e, c') := by
  unfold WsConn.read at h
  split at h
  · simp [WsConn.readBuffer] at h
  · exact wsLoop_stays n _ hc e c' h

example : ∀ k, WsConn.read { buffer := [], inbox := [.err 5, .msg .binary [1] none] } k
    = (.error (.conn 5), { buffer := [], inbox := [.err 5, .msg .binary [1] none] }) :=
  C55_stays { buffer := [], inbox := [.msg .binary [] none, .err 5, .msg .binary [1] none] } (by simp; grind) 3 _ _ rfl

end Qrpc
