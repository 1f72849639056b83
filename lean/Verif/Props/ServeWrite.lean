import Verif.Lemmas.GroupA
import Verif.Lemmas.GroupB
import Verif.Lemmas.GroupC
import Verif.Lemmas.GroupE
import Verif.Lemmas.GroupF
import Verif.Lemmas.GroupG
import Verif.Lemmas.GroupH
import Verif.Props.WriteBuf
/-! # Properties C21-C24, C26: the server's write path

All statements quantify over `acts`: every interleaving of any number of goroutines inside `writeFrameBytes`, of the reader
goroutine and of closing the connection, every batch size `cap ≥ 1`, every answer of the stream table and of the transport. -/
namespace Qrpc

/-- Everything known about reachable states. -/
structure GInv (cap : Nat) (s : GSt) : Prop where
  a : GInvA cap s
  b : GInvB s
  c : GInvC s
  d : GInvD s
  e : GInvE s
  f : GInvF s
  g : GInvG s
  h : GInvH s

theorem GInv.step {cap s a s'} (h : GInv cap s) (hs : gStep cap s a = some s') : GInv cap s' :=
  ⟨h.a.step hs, h.b.step h.a hs, h.c.step h.a h.b hs, h.d.step h.a h.b hs, h.e.step h.a h.b h.d hs, h.f.step h.a hs,
   h.g.step h.a h.f hs, h.h.step h.b hs⟩

theorem GInv.init (cap : Nat) : GInv cap GSt.init :=
  ⟨.init cap, .init, .init, .init, .init, .init, .init, .init⟩

theorem GInv.reach {cap acts s} (h : gRun cap acts = some s) : GInv cap s :=
  runActs_inv (P := GInv cap) (fun _ _ _ hp hs => hp.step hs) (GInv.init cap) h

/-! ## Specification vocabulary -/

/-- The bytes of the submitted frames with the given submission numbers, one after the other. -/
def Spec.concat (frames : List SFrame) (ts : List Nat) : Bytes :=
  (ts.filterMap fun t => (frames[t]?).map SFrame.bytes).flatten

open Spec

theorem flatOf_eq_concat {fs : List SFrame} {ts : List Nat} (h : ∀ t ∈ ts, t < fs.length) : flatOf fs ts = concat fs ts := by
  induction ts with
  | nil => rfl
  | cons t ts ih =>
    have ht : t < fs.length := h t (by simp)
    have := ih (fun u hu => h u (by simp [hu]))
    simp only [flatOf, concat, List.map_cons, List.flatten_cons, List.filterMap_cons,
      List.getElem?_eq_getElem ht, Option.map_some] at *
    rw [this]
    simp [frameOf, List.getD, List.getElem?_eq_getElem ht]

theorem GInv.sentLt {cap s} (h : GInv cap s) : ∀ t ∈ s.sent, t < s.frames.length :=
  fun t ht => Nat.lt_of_lt_of_le (h.d.sentLt t ht) h.a.deq

theorem holds_healthy_or_keeps (p : TPc) : p.holds = true → p.healthy = true ∨ p.keeps = true := by
  cases p <;> simp [TPc.holds, TPc.healthy, TPc.keeps]

theorem GInv.broken_closing {cap s} (h : GInv cap s) (hb : s.broken = true) : s.closing = true := by
  cases hl : s.lock with
  | free => have := h.d.unlocked hl; simp_all
  | dead => exact h.g.dead hl
  | held i =>
    rcases holds_healthy_or_keeps _ ((h.a.lock i).1 hl) with hh | hk
    · have := h.d.healthy i hh; simp_all
    · exact h.g.keeps i hk

/-! ## C21 Frames are not interleaved and keep submission order -/

/-- **C21.** There is a strictly increasing list `ts` of submission numbers such that the bytes given to the transport are
the frames `ts`, whole, one after the other (strictly increasing: in submission order, each at most once). Only if the
connection is being closed may the tail be missing. Every frame whose caller was told nil (and that had to be sent) is in
`ts`, every byte of it transmitted. -/
theorem C21 {cap : Nat} {acts : List GAct} {s : GSt} (h : gRun cap acts = some s) :
    ∃ ts : List Nat, ts.Pairwise (· < ·) ∧ (∀ t ∈ ts, t < s.frames.length) ∧
      s.wire <+: concat s.frames ts ∧ (s.closing = false → s.wire = concat s.frames ts) ∧
      ∀ t, (t, SRes.ok) ∈ s.rets →
        ∃ pre post, ts = pre ++ t :: post ∧ concat s.frames (pre ++ [t]) <+: s.wire := by
  have hI := GInv.reach h
  refine ⟨s.sent, hI.d.sorted, hI.sentLt, ?_, ?_, ?_⟩
  · rw [← flatOf_eq_concat hI.sentLt, hI.d.wire]; exact List.take_prefix _ _
  · intro hc
    rw [← flatOf_eq_concat hI.sentLt]
    apply hI.d.whole
    cases hb : s.broken with
    | false => rfl
    | true => have := hI.broken_closing hb; simp_all
  · intro t ht
    obtain ⟨pre, post, h1, h2⟩ := hI.e.rets t ht
    have hlt := hI.sentLt
    rw [h1] at hlt
    refine ⟨pre, post, h1, ?_⟩
    rw [← flatOf_eq_concat (fun u hu => hlt u (by simp only [List.mem_append, List.mem_cons, List.not_mem_nil, or_false] at *; grind))]
    rw [hI.d.wire, h1]
    have : flatOf s.frames (pre ++ t :: post) = flatOf s.frames (pre ++ [t]) ++ flatOf s.frames post := by
      rw [← flatOf_append]; simp
    rw [this]
    exact List.prefix_of_prefix_length_le (List.prefix_append _ _) (List.take_prefix _ _)
      (by rw [List.length_take, List.length_append]; omega)

/-- Two goroutines write on one connection (batch size 2). Goroutine 0 sends both frames in one batch; then goroutine 1
submits another one whose write fails after 1 of 2 bytes. -/
def exF0 : SFrame := ⟨[1, 2, 3], true, false, false, false⟩
def exF1 : SFrame := ⟨[4, 5], false, false, false, false⟩
def exTwo : List GAct :=
  [.call 0 exF0, .call 1 exF1, .enq 1, .enq 0, .lock 0, .go 0, .go 0, .deq 0 true true, .deq 0 false true, .go 0, .go 0,
   .write 0 5 true, .go 0, .recv 1, .go 0, .go 0, .go 0, .go 0, .go 0]
def exFail : List GAct :=
  exTwo ++ [.call 1 exF1, .enq 1, .lock 1, .go 1, .go 1, .deq 1 true true, .go 1, .go 1, .write 1 1 false, .go 1, .go 1,
    .go 1, .go 1, .go 1]

example : (gRun 2 exTwo).map (fun s => (s.wire, s.rets, decide (s.lock = .free), s.closing)) =
    some ([4, 5, 1, 2, 3], [(0, .ok), (1, .ok)], true, false) := by rfl

example : (gRun 2 exFail).map (fun s => (s.wire, s.rets, decide (s.lock = .dead), s.closing)) =
    some ([4, 5, 1, 2, 3, 4], [(0, .ok), (1, .ok), (2, .fail .transport)], true, true) := by rfl

/-! ## C22 nil means: handed to the transport -/

/-- The write action of the model is what `Writer.writeBuffers` and `net.Buffers` do on a transport honouring the contract:
the environment's freedom is only `k` and whether there was an error. -/
theorem write_refines (timed : Bool) (bufs : List Bytes) (rounds : List (WRound WTo)) (h : HonestVec bufs rounds)
    (res : WRes) (hres : (writerWriteBuffers timed (totalLen bufs) [] bufs 0 rounds).1 = some res) :
    ∃ k, k ≤ bufs.flatten.length ∧ (res.err = none → k = bufs.flatten.length) ∧
      (writerWriteBuffers timed (totalLen bufs) [] bufs 0 rounds).2 = (bufs.flatten.take k, consume k bufs) := by
  obtain ⟨k, h1, h2, h3, h4⟩ := writerWriteBuffers_prefix timed (totalLen bufs) [] bufs rounds 0
    (by rw [totalLen_eq]; omega) h
  exact ⟨k, h1, (h4 res hres).2, Prod.ext h2 (by simpa using h3)⟩

/-- **C22 (transports honouring the `net.Conn` contract).** If a write returned nil and the frame had to be sent, all its
bytes were taken by the transport, contiguously, whatever happened to the batch it was in. -/
theorem C22_partial {cap : Nat} {acts : List GAct} {s : GSt} (h : gRun cap acts = some s) {t : Nat}
    (ht : (t, SRes.ok) ∈ s.rets) : ∃ f, s.frames[t]? = some f ∧ f.bytes <:+: s.wire := by
  obtain ⟨ts, -, hlt, -, -, hr⟩ := C21 h
  obtain ⟨pre, post, h1, h2⟩ := hr t ht
  have htl : t < s.frames.length := hlt t (by simp [h1])
  refine ⟨s.frames[t], List.getElem?_eq_getElem htl, ?_⟩
  have : concat s.frames (pre ++ [t]) = concat s.frames pre ++ s.frames[t].bytes := by
    simp [concat, List.filterMap_append, List.getElem?_eq_getElem htl]
  rw [this] at h2
  exact (List.suffix_append _ _).isInfix.trans h2.isInfix

/-- The same for one vectored write and the batch rule alone, server and client alike (serveconn.go:602-616,
clientconn.go:752-771). -/
theorem C22_batch (timed : Bool) (bufs : List Bytes) (rounds : List (WRound WTo)) (h : HonestVec bufs rounds)
    (res : WRes) (hres : (writerWriteBuffers timed (totalLen bufs) [] bufs 0 rounds).1 = some res)
    (i : Nat) (hi : i < bufs.length) (hne : bufs.getD i [] ≠ [])
    (hok : (batchResults res.err.isNone (writerWriteBuffers timed (totalLen bufs) [] bufs 0 rounds).2.2)[i]? = some .ok) :
    (bufs.take (i + 1)).flatten <+: (writerWriteBuffers timed (totalLen bufs) [] bufs 0 rounds).2.1 := by
  obtain ⟨k, h1, h2, h3⟩ := write_refines timed bufs rounds h res hres
  rw [h3] at hok ⊢
  simp only [batchResults, List.getElem?_map, Option.map_eq_some_iff] at hok ⊢
  obtain ⟨b, hb, hr⟩ := hok
  have hle : (bufs.take (i + 1)).flatten.length ≤ k := by
    cases he : res.err with
    | none =>
      rw [h2 he]
      have : bufs.flatten.length = (bufs.take (i + 1)).flatten.length + (bufs.drop (i + 1)).flatten.length := by
        rw [← List.length_append, ← List.flatten_append, List.take_append_drop]
      omega
    | some e =>
      rw [← consume_empty_iff k bufs i hi hne]
      simp only [he] at hr
      have : b = [] := by
        cases b with
        | nil => rfl
        | cons x xs => simp at hr
      simp [List.getD, hb, this]
  have hp : (bufs.take (i + 1)).flatten <+: bufs.flatten := by
    conv => rhs; rw [← List.take_append_drop (i + 1) bufs, List.flatten_append]
    exact List.prefix_append _ _
  exact List.prefix_of_prefix_length_le hp (List.take_prefix _ _) (by rw [List.length_take]; omega)

/-- **C22 is false over the WebSocket overlay**: its `Write` returns `len(b)` together with the error (ws/server/conn.go:66-68), so
the frame whose transmission failed counts as written: nothing reached the transport and the caller is told nil. -/
theorem C22_refuted_websocket :
    let bufs : List Bytes := [[1, 2, 3], [4, 5]]
    let r := writerWriteBuffers false (totalLen bufs) [] bufs 0 [⟨.each [⟨3, some (.other 1), 0⟩], false, false⟩]
    r.2.1 = [] ∧ r.1 = some ⟨3, some (.other 1)⟩ ∧ batchResults false r.2.2 = [.ok, .fail .transport] := by
  refine ⟨rfl, rfl, rfl⟩

example : (2, SRes.ok) ∉ ((gRun 2 exFail).map (·.rets)).getD [] ∧ (1, SRes.ok) ∈ ((gRun 2 exFail).map (·.rets)).getD [] := by
  decide

/-! ## C23 Progress -/

/-- The goroutine an action belongs to. -/
def GAct.who : GAct → Option Nat
  | .call i _ | .enq i | .enqCtx i | .lock i | .recv i | .waitCtx i | .go i | .deq i _ _ | .collCtx i | .write i _ _ => some i
  | _ => none

/-- **C23, the lock holder never blocks** (except on a connection being closed): it can always take its next step, whatever
the others do; in particular the result it waits for at the end is there, and its sends of results never block. -/
theorem C23_holder {cap : Nat} {acts : List GAct} {s : GSt} (h : gRun cap acts = some s) {i : Nat}
    (hh : s.lock = .held i) : (∃ a s', a.who = some i ∧ gStep cap s a = some s') ∨ s.closing = true := by
  have hI := GInv.reach h
  have hhold := (hI.a.lock i).1 hh
  cases hp : s.pc i with
  | idle => simp [hp, TPc.holds] at hhold
  | enq f => simp [hp, TPc.holds] at hhold
  | wait t => simp [hp, TPc.holds] at hhold
  | take t => simp [hp, TPc.holds] at hhold
  | locked t => left; refine ⟨.go i, ?_⟩; simp only [GAct.who, gStep, goStep, hp, true_and]; split <;> exact ⟨_, rfl⟩
  | unlockTake t => left; exact ⟨.go i, _, rfl, by simp only [gStep, goStep, hp]; rfl⟩
  | infl t => left; refine ⟨.go i, ?_⟩; simp only [GAct.who, gStep, goStep, hp, true_and]; split <;> exact ⟨_, rfl⟩
  | inflUndo => left; exact ⟨.go i, _, rfl, by simp only [gStep, goStep, hp]; rfl⟩
  | stuck => right; exact hI.g.keeps i (by simp [hp, TPc.keeps])
  | collect t n =>
    by_cases hc : s.closing = true
    · exact .inr hc
    left
    cases n with
    | zero => exact ⟨.go i, _, rfl, by simp only [gStep, goStep, hp]; rfl⟩
    | succ n =>
      by_cases hd : s.deq < s.frames.length
      · refine ⟨.deq i true true, ?_⟩
        simp only [GAct.who, gStep, hp, hd, if_true, true_and]
        have := hI.b.queued s.deq (Nat.le_refl _)
        split
        · exact ⟨_, by simp only [this, if_true]; rfl⟩
        · exact ⟨_, rfl⟩
      · have h1 : s.deq = s.frames.length := by have := hI.a.deq; omega
        have h2 : s.ctx = false := by
          cases hx : s.ctx with
          | false => rfl
          | true => exact absurd (hI.g.ctx hx) hc
        exact ⟨.go i, _, rfl, by simp only [gStep, goStep, hp, h1, h2]; simp; rfl⟩
  | register t =>
    left; refine ⟨.go i, ?_⟩
    simp only [GAct.who, gStep, goStep, hp, true_and]
    repeat' split
    all_goals exact ⟨_, rfl⟩
  | write t =>
    left
    refine ⟨.write i s.bufs.flatten.length true, ?_⟩
    simp [GAct.who, gStep, hp]
  | dist t rel =>
    left; refine ⟨.go i, ?_⟩
    simp only [GAct.who, gStep, goStep, hp, true_and]
    split
    · exact ⟨_, rfl⟩
    · next u r rest hs =>
      have := hI.b.sendSlot (u, r) (by rw [hs]; simp)
      exact ⟨_, by simp only [this, if_true]; rfl⟩
  | own t rel =>
    left
    have hpend := hI.c.pending i t (by simp [hp, TPc.tk])
    have hcl := hI.b.clean i (by simp [hp, TPc.clean])
    have hd := hI.c.collDone i t (.inr (.inr (.inr ⟨rel, hp⟩)))
    have hs : s.slot t ≠ none := by
      rcases hpend with h | h | h | h
      · omega
      · exact h
      · simp [hcl.1] at h
      · simp [hcl.2] at h
    obtain ⟨r, hr⟩ := Option.ne_none_iff_exists'.1 hs
    exact ⟨.go i, _, rfl, by simp only [gStep, goStep, hp, hr]; rfl⟩
  | free rel t r => left; refine ⟨.go i, ?_⟩; simp only [GAct.who, gStep, goStep, hp, true_and]; split <;> exact ⟨_, rfl⟩
  | release rel t r => left; exact ⟨.go i, _, rfl, by simp only [gStep, goStep, hp]; rfl⟩
  | unlock rel t r => left; exact ⟨.go i, _, rfl, by simp only [gStep, goStep, hp]; rfl⟩

/-- **C23, no lost wake-up.** A goroutine waiting in `writeFrameBytes` on a connection that is not being closed can receive
its result, or can take the free lock, or another goroutine holds the lock (and can take a step, by `C23_holder`). -/
theorem C23_waiter {cap : Nat} {acts : List GAct} {s : GSt} (h : gRun cap acts = some s) (hc : s.closing = false) {i t : Nat}
    (hw : s.pc i = .wait t) :
    (∃ s', gStep cap s (.recv i) = some s' ∧ ∃ r, s'.rets = s.rets ++ [(t, r)]) ∨
    (∃ s', gStep cap s (.lock i) = some s' ∧ s'.lock = .held i) ∨
    (∃ j, j ≠ i ∧ s.lock = .held j) := by
  have hI := GInv.reach h
  cases hl : s.lock with
  | free => right; left; simp [gStep, hw, hl]
  | dead => have := hI.g.dead hl; simp_all
  | held j =>
    right; right
    refine ⟨j, ?_, rfl⟩
    rintro rfl
    have := (hI.a.lock j).1 hl
    simp [hw, TPc.holds] at this

/-- Its hypotheses and its three cases: goroutine 1 can take the lock; then goroutine 0 holds it; then the result is there. -/
example : ((gRun 2 (exTwo.take 4)).map fun s => (s.closing, s.pc 1, decide (s.lock = .free), s.slot 0)) = some (false, .wait 0, true, none) ∧
    ((gRun 2 (exTwo.take 5)).map fun s => (s.closing, s.pc 1, decide (s.lock = .held 0), s.slot 0)) = some (false, .wait 0, true, none) ∧
    ((gRun 2 (exTwo.take 13)).map fun s => (s.closing, s.pc 1, s.slot 0)) = some (false, .wait 0, some .ok) := ⟨by rfl, by rfl, by rfl⟩

/-- A goroutine that found its request already handled gets its result without waiting. -/
theorem C23_take {cap : Nat} {acts : List GAct} {s : GSt} (h : gRun cap acts = some s) {i t : Nat} (hw : s.pc i = .take t) :
    ∃ s' r, gStep cap s (.go i) = some s' ∧ s'.rets = s.rets ++ [(t, r)] := by
  have hI := GInv.reach h
  obtain ⟨r, hr⟩ := Option.ne_none_iff_exists'.1 (hI.c.taking i t (.inl hw))
  exact ⟨_, r, by simp only [gStep, goStep, hw, hr]; rfl, rfl⟩

/-- Its hypothesis: goroutine 1 gets the lock after its frame was written by goroutine 0. -/
example : ((gRun 2 (exTwo.take 13 ++ [.go 0, .go 0, .go 0, .go 0, .go 0, .lock 1, .go 1, .go 1])).map fun s =>
    (s.pc 1, s.slot 0)) = some (.take 0, some .ok) := by rfl

/-- **C23, results before release.** Whenever the lock is free, every request that was taken out of the channel and whose
caller is still waiting has its result. -/
theorem C23_results {cap : Nat} {acts : List GAct} {s : GSt} (h : gRun cap acts = some s) (hl : s.lock = .free) {i t : Nat}
    (hw : s.pc i = .wait t) (ht : t < s.deq) : s.slot t ≠ none := by
  have hI := GInv.reach h
  have := hI.b.unlocked hl
  rcases hI.c.pending i t (by simp [hw, TPc.tk]) with h | h | h | h
  · omega
  · exact h
  · simp [this.1] at h
  · simp [this.2] at h

/-- Its hypotheses: the lock is free again, goroutine 1 still waits, and its frame has left the queue. -/
example : ((gRun 2 (exTwo.take 13 ++ [.go 0, .go 0, .go 0, .go 0, .go 0])).map fun s =>
    (decide (s.lock = .free), s.pc 1, s.deq, s.slot 0)) = some (true, .wait 0, 2, some .ok) := by rfl

/-- How many steps the lock holder still has to take at most. -/
def holderRank (cap batch toSend : Nat) : TPc → Nat
  | .unlock _ _ _ => 1
  | .release _ _ _ => 2
  | .free _ _ _ => 3
  | .own _ _ => 4
  | .dist _ _ => 5 + toSend
  | .write _ => 6 + batch
  | .register _ => 7 + batch
  | .collect _ n => 8 + 2 * n + batch
  | .infl _ => 9 + 2 * cap
  | .locked _ => 10 + 2 * cap
  | .unlockTake _ => 1
  | .stuck => 1
  | .inflUndo => 2
  | _ => 0

set_option maxHeartbeats 4000000 in
theorem holderRank_step {cap : Nat} {s s' : GSt} {a : GAct} {i : Nat} (hI : GInv cap s) (hi : (s.pc i).holds = true)
    (hs : gStep cap s a = some s') :
    if a.who = some i then holderRank cap s'.batch.length s'.toSend.length (s'.pc i) < holderRank cap s.batch.length s.toSend.length (s.pc i) else
      s'.pc i = s.pc i ∧ holderRank cap s'.batch.length s'.toSend.length (s'.pc i) = holderRank cap s.batch.length s.toSend.length (s.pc i) := by
  have u := hI.a.unique
  have hlen : ∀ ok k, (s.batch.zip (batchResults ok (consume k s.bufs))).length = s.batch.length := by
    intro ok k
    have := congrArg List.length (map_fst_zip_batch s ok k)
    simpa using this
  have hb := hI.b.clean
  have ht := hI.b.coll
  clear hI
  gstep_cases hs a
  all_goals simp only [GAct.who]
  all_goals grind [setAt, TPc.holds, TPc.clean, TPc.collecting, holderRank]

set_option maxHeartbeats 4000000 in
theorem collect_le_cap {cap : Nat} {acts : List GAct} {s : GSt} (h : gRun cap acts = some s) :
    ∀ i t n, s.pc i = .collect t n → n ≤ cap := by
  refine runActs_inv (P := fun s => ∀ i t n, s.pc i = .collect t n → n ≤ cap) ?_ (by simp [GSt.init]) h
  intro s a s' hP hs
  gstep_cases hs a
  all_goals simp only []
  all_goals first
    | assumption
    | grind [setAt]

/-- `i` holds the lock in `s` and after every action of `as`. -/
def holdsThrough (cap i : Nat) (s : GSt) : List GAct → Prop
  | [] => s.lock = .held i
  | a :: as => s.lock = .held i ∧ ∃ s', gStep cap s a = some s' ∧ holdsThrough cap i s' as

/-- **C23, the critical section is bounded**: while it holds the lock, a goroutine takes at most `2 * cap + 10` steps, in
any execution, whatever the others do in between. With `C23_holder` (it can always take its next step) the lock is always
released, or the connection is closed. -/
theorem C23_bounded {cap : Nat} {acts : List GAct} {s : GSt} (h : gRun cap acts = some s) {i : Nat} {more : List GAct}
    (hm : holdsThrough cap i s more) : (more.filter fun a => a.who = some i).length ≤ 2 * cap + 10 + s.batch.length + s.toSend.length := by
  have key : ∀ (more : List GAct) (s : GSt), GInv cap s → holdsThrough cap i s more →
      (more.filter fun a => a.who = some i).length ≤ holderRank cap s.batch.length s.toSend.length (s.pc i) := by
    intro more
    induction more with
    | nil => simp
    | cons a as ih =>
      rintro s hI ⟨hl, s', hs, hm⟩
      have := ih s' (hI.step hs) hm
      have hr := holderRank_step (a := a) hI ((hI.a.lock i).1 hl) hs
      by_cases hw : a.who = some i
      · simp only [hw, if_true] at hr
        simp only [List.filter_cons, hw, decide_true, if_true, List.length_cons]
        omega
      · simp only [hw, if_false] at hr
        simp only [List.filter_cons, hw, decide_false, Bool.false_eq_true, if_false]
        omega
  have hI := GInv.reach h
  refine Nat.le_trans (key more s hI hm) ?_
  have hcn : ∀ t n, s.pc i = .collect t n → n ≤ cap := by
    intro t n hp
    exact (collect_le_cap h i t n hp)
  cases hp : s.pc i <;> simp only [holderRank] <;> try omega
  have := hcn _ _ hp
  omega

/-- Non-vacuity: in `exTwo` goroutine 0 holds the lock from its 5th action on; here it has collected both requests. -/
example : ((gRun 2 (exTwo.take 9)).map fun s => (decide (s.lock = .held 0), s.batch, decide (s.pc 1 = .wait 0))) =
    some (true, [0, 1], true) := by rfl

example : ∃ s, gRun 2 (exTwo.take 9) = some s ∧ holdsThrough 2 0 s [.go 0, .go 0, .write 0 5 true, .go 0, .recv 1, .go 0] := by
  refine ⟨_, rfl, ?_⟩
  repeat refine ⟨rfl, _, rfl, ?_⟩
  rfl

/-! ## C24 Writes to finished streams (server side) -/

theorem Refused.run {cap t r} {more : List GAct} {s s' : GSt} (h : Refused t r s) (hr : runActs (gStep cap) s more = some s') :
    Refused t r s' :=
  runActs_inv (P := Refused t r) (fun _ _ _ hp hs => hp.step hs) h hr

/-- **C24, server.** If, when a write request leaves the queue, its stream is gone (`ex = false`) and it came from a
`StreamWriter` (`checkExist`), or the stream refuses it (`add = false`: the local side is already closed), then the frame is
never sent, at whatever position of a batch it is, and the only results its caller can see are the corresponding error and
(if the connection is closed) the context's error. -/
theorem C24_server {cap : Nat} {acts more : List GAct} {s s1 s2 : GSt} {i : Nat} {ex add : Bool} (h : gRun cap acts = some s)
    (hf : (s.frame s.deq).rst = false) (hp : (s.frame s.deq).push = false)
    (hgone : ((s.frame s.deq).checkExist = true ∧ ex = false) ∨ add = false)
    (hd : gStep cap s (.deq i ex add) = some s1) (hr : runActs (gStep cap) s1 more = some s2) :
    s.deq ∉ s2.sent ∧ ∀ r, (s.deq, r) ∈ s2.rets →
      r = (if (s.frame s.deq).checkExist && !ex then .fail .streamNotExists else .fail .writeAfterClose) ∨ r = .fail .ctx := by
  have hI := GInv.reach h
  generalize hres : (if (s.frame s.deq).checkExist && !ex then SRes.fail SErr.streamNotExists else .fail .writeAfterClose) = r0
  have hdec : serveDecide (s.frame s.deq) ex add = some r0 := by
    subst hres
    simp only [serveDecide, hf, hp, Bool.false_eq_true, if_false]
    rcases hgone with ⟨h1, h2⟩ | h2
    · simp [h1, h2]
    · simp only [h2, Bool.not_false, if_true]; split <;> rfl
  have hstart : Refused s.deq r0 s1 := by
    simp only [gStep] at hd
    split at hd
    · split at hd
      · rw [hdec] at hd
        simp only at hd
        split at hd
        · simp only [Option.some.injEq] at hd
          subst hd
          constructor
          · simp
          · intro hm; have := hI.d.sentLt _ hm; omega
          · intro hm; have := hI.b.batchLt _ hm; omega
          · intro hm
            simp only [List.mem_map] at hm
            obtain ⟨p, hp1, hp2⟩ := hm
            have := hI.b.sendLt p hp1
            omega
          · simp
          · intro j r' hj
            simp only [setAt] at hj
            split at hj
            · simp [TPc.res] at hj
            · rcases hI.h.pc j _ _ hj with h | h
              · exact .inr h
              · omega
          · intro r' hj
            rcases hI.h.rets _ _ hj with h | h
            · exact .inr h
            · omega
        · simp at hd
      · simp at hd
    · simp at hd
  have hend := hstart.run hr
  exact ⟨hend.sent, fun r hm => hend.rets r hm⟩

/-- A batch of two: the second request is on a stream that is gone. -/
def exGone : List GAct :=
  [.call 0 exF1, .call 1 ⟨[7], false, false, false, true⟩, .enq 0, .enq 1, .lock 0, .go 0, .go 0, .deq 0 true true]
example : ((gRun 2 exGone).bind fun s => (gStep 2 s (.deq 0 false true)).bind fun s1 =>
      (runActs (gStep 2) s1 [.go 0, .go 0, .write 0 2 true, .recv 1, .go 0, .go 0, .go 0, .go 0, .go 0]).map fun s2 =>
        ((s.frame s.deq).checkExist, s2.wire, s2.sent, s2.rets)) =
    some (true, [4, 5], [0], [(1, .fail .streamNotExists), (0, .ok)]) := by rfl

/-! ## C26 Release of the stream tables -/

/-- **C26.** In every state: the stream tables have been released (or their release has begun) exactly if the reader is done
with them and no writer is between its `addAndCheckInflight` and its `tryFreeStreams`; they are released at most once; and
as long as the reader works or a writer uses them they are not released (so nothing is created in them afterwards). -/
theorem C26 {cap : Nat} {acts : List GAct} {s : GSt} (h : gRun cap acts = some s) :
    s.releases ≤ 1 ∧
    (s.reader = .running → s.releases = 0) ∧
    (∀ i t n, s.pc i = .collect t n → s.releases = 0) ∧
    (s.releases = 1 ↔ s.reader ≠ .running ∧ s.reader ≠ .quitting ∧ ∀ i, (s.pc i).using = false) := by
  have hI := GInv.reach h
  have honce := hI.f.once
  have huse : ∀ i, (s.pc i).using = true → heldBy s.lock s.pc TPc.using = true := by
    intro i hi
    have : s.lock = .held i := by
      rw [hI.a.lock]
      revert hi
      cases s.pc i <;> simp [TPc.using, TPc.holds]
    rw [this, heldBy_held]
    exact hi
  have hall : heldBy s.lock s.pc TPc.using = false ↔ ∀ i, (s.pc i).using = false := by
    constructor
    · intro hf i
      cases hx : (s.pc i).using with
      | false => rfl
      | true => have := huse i hx; simp_all
    · intro ha
      cases hl : s.lock with
      | held i => exact ha i
      | free => rfl
      | dead => rfl
  refine ⟨by rw [honce]; split <;> omega, ?_, ?_, ?_⟩
  · intro hr; rw [honce, hr]; simp [RdPc.alive]
  · intro i t n hp
    have := huse i (by simp [hp, TPc.using])
    rw [honce, this]; simp
  · have : s.reader.alive = false ↔ s.reader ≠ .running ∧ s.reader ≠ .quitting := by cases s.reader <;> simp [RdPc.alive]
    rw [← and_assoc, ← this, ← hall, honce]
    split <;> simp_all

/-- Once released, never used again, in any continuation. -/
theorem C26_no_use_after {cap : Nat} {acts more : List GAct} {s s' : GSt} (h : gRun cap acts = some s) (hrel : s.releases = 1)
    (hr : runActs (gStep cap) s more = some s') : s'.releases = 1 ∧ s'.reader ≠ .running ∧ ∀ i, (s'.pc i).using = false := by
  have h' : gRun cap (acts ++ more) = some s' := by rw [gRun, runActs_append]; simp only [gRun] at h; rw [h]; exact hr
  have hmono : s.releases ≤ s'.releases := by
    refine runActs_inv (P := fun x => s.releases ≤ x.releases) ?_ (Nat.le_refl _) hr
    intro x a x' hP hs
    gstep_cases hs a
    all_goals simp only []
    all_goals omega
  have h1 := (C26 h').1
  have h2 : s'.releases = 1 := by omega
  exact ⟨h2, ((C26 h').2.2.2.1 h2).1, ((C26 h').2.2.2.1 h2).2.2⟩

/-- The reader quits while a writer is collecting: the writer releases the tables, and the next writer is refused. -/
def exRelease : List GAct :=
  [.call 0 exF1, .enq 0, .lock 0, .go 0, .go 0, .deq 0 true true, .readerQuit, .readerGo, .go 0, .go 0, .write 0 2 true,
   .go 0, .go 0, .go 0, .go 0]
example : (gRun 2 exRelease).map (fun s => (s.releases, s.inflight, decide (s.reader = .gone))) = some (1, 0, true) := by rfl
example : (gRun 2 (exRelease ++ [.go 0, .go 0, .call 1 exF1, .enq 1, .lock 1, .go 1, .go 1, .go 1])).map (fun s =>
    (s.releases, s.inflight, decide (s.pc 1 = .stuck))) = some (1, 0, true) := by rfl

end Qrpc
