import Verif.Model.Bytes
/-!
# reader.go: `Reader` on top of `bufio.Reader` and `io.ReadFull`

The connection is the list of results its `Read` calls will give: pieces of data (a `Read` with a smaller
buffer takes a prefix and leaves the rest) or an error (timeout, reset, ...). When the list is exhausted the peer has
closed: `io.EOF`. Simplification: a `Read` returns either data or an error, never both (true of `net.TCPConn`,
`tls.Conn` and the WebSocket overlay). Deadlines show up only as error results; the choice of the deadline is in
`Model/Deadline.lean`.
-/
namespace Qrpc

/-- Errors of the read path. -/
inductive ReadErr where
  | eof                -- io.EOF
  | unexpectedEOF      -- io.ErrUnexpectedEOF
  | conn (code : Nat)  -- any other error of the connection (timeout, reset, ...)
deriving Repr, DecidableEq

/-- One future result of `net.Conn.Read`. -/
inductive Seg where
  | data (b : Bytes)
  | err (code : Nat)
deriving Repr, DecidableEq

/-- `net.Conn.Read` into a buffer of length `n`. -/
def connRead (n : Nat) : List Seg → Except ReadErr Bytes × List Seg
  | [] => (.error .eof, [])
  | .err c :: rest => (.error (.conn c), .err c :: rest)
  | .data b :: rest =>
    if b.length ≤ n then (.ok b, rest) else (.ok (b.take n), .data (b.drop n) :: rest)

/-- reader.go:14-19 `Reader`: the unread part of the `bufio.Reader` and the connection. -/
structure Src where
  buf : Bytes
  conn : List Seg
deriving Repr, DecidableEq

/-- reader.go:25 `ReadBufSize` -/
def readBufSize : Nat := 1024

/-- Go `bufio.Reader.Read(p)` with `len p = n > 0` (bufio/bufio.go): serve from the buffer; if empty, read directly
for large `p`, else refill the buffer with one `Read`. -/
def bufioRead (n : Nat) (s : Src) : Except ReadErr Bytes × Src :=
  if s.buf = [] then
    if readBufSize ≤ n then
      match connRead n s.conn with
      | (.error e, c) => (.error e, { s with conn := c })
      | (.ok b, c) => (.ok b, { s with conn := c })
    else
      match connRead readBufSize s.conn with
      | (.error e, c) => (.error e, { s with conn := c })
      | (.ok b, c) => (.ok (b.take n), { buf := b.drop n, conn := c })
  else (.ok (s.buf.take n), { s with buf := s.buf.drop n })

/-- What `bufioRead` leaves to do decreases. -/
theorem bufioRead_measure (n : Nat) (s : Src) (b : Bytes) (s' : Src)
    (h : bufioRead (n + 1) s = (.ok b, s')) :
    (n + 1 - b.length) + s'.conn.length < (n + 1) + s.conn.length := by
  unfold bufioRead at h
  split at h
  · split at h
    · split at h
      · simp at h
      · next hc =>
        simp only [Prod.mk.injEq, Except.ok.injEq] at h; obtain ⟨rfl, rfl⟩ := h
        revert hc; cases hs : s.conn with
        | nil => simp [connRead]
        | cons x xs =>
          cases x with
          | err c => simp [connRead]
          | data d =>
            simp only [connRead]; split
            · rintro ⟨⟩; simp; omega
            · intro hh; simp only [Prod.mk.injEq, Except.ok.injEq] at hh
              obtain ⟨rfl, rfl⟩ := hh; simp; omega
    · split at h
      · simp at h
      · next hc =>
        simp only [Prod.mk.injEq, Except.ok.injEq] at h; obtain ⟨rfl, rfl⟩ := h
        revert hc; cases hs : s.conn with
        | nil => simp [connRead]
        | cons x xs =>
          cases x with
          | err c => simp [connRead]
          | data d =>
            simp only [connRead]; split
            · rintro ⟨⟩; simp; omega
            · intro hh; simp only [Prod.mk.injEq, Except.ok.injEq] at hh
              obtain ⟨rfl, rfl⟩ := hh
              have : 0 < readBufSize := by decide
              simp; omega
  · next hb =>
    simp only [Prod.mk.injEq, Except.ok.injEq] at h; obtain ⟨rfl, rfl⟩ := h
    have : 0 < s.buf.length := by
      cases hs : s.buf with
      | nil => exact absurd hs hb
      | cons _ _ => simp
    simp; omega

/-- Go `io.ReadFull(r, p)`, `len p = n` (io/io.go `ReadAtLeast`): loop until full; an `EOF` after some bytes becomes
`ErrUnexpectedEOF`. `got` is what has been read so far. -/
def readFullAux (n : Nat) (s : Src) (got : Bytes) : Except ReadErr Bytes × Src :=
  match n with
  | 0 => (.ok got, s)
  | n + 1 =>
    match _h : bufioRead (n + 1) s with
    | (.error .eof, s') => (.error (if got = [] then .eof else .unexpectedEOF), s')
    | (.error e, s') => (.error e, s')
    | (.ok b, s') => readFullAux (n + 1 - b.length) s' (got ++ b)
termination_by n + s.conn.length
decreasing_by exact bufioRead_measure n s b s' _h

/-- reader.go:72-113 `ReadBytes` / `ReadBytesWithMaxTimeout` filling a buffer of `n` bytes. `io.ReadFull` returns either
the full buffer or an error, so the `for` loop (lines 94-111) runs exactly once: after success `offset >= size`. -/
def readBytes (n : Nat) (s : Src) : Except ReadErr Bytes × Src := readFullAux n s []

end Qrpc
