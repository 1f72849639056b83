import Verif.Props.ServeWrite
import Verif.Props.Client
import Verif.Props.ServeRead
import Verif.Props.WsOverlay
/-! # C122 Queues hold no more than they are configured for -/
namespace Qrpc

/-- Server: what is left of the batch. -/
structure GBatch (cap : Nat) (s : GSt) : Prop where
  coll : ∀ i t n, s.pc i = .collect t n → s.batch.length + n ≤ cap
  le : s.batch.length ≤ cap

theorem GBatch.step {cap : Nat} {s s' : GSt} {a : GAct} (hA : GInvA cap s) (h : GBatch cap s) (hs : gStep cap s a = some s') : GBatch cap s' := by
  have hu := hA.unique
  have e1 : ∀ i t n, s.pc i = .collect t n → (s.pc i).holds = true := fun i t n hi => by rw [hi]; rfl
  obtain ⟨h1, h2⟩ := h
  gstep_cases hs a
  all_goals constructor
  all_goals try first | assumption | grind [setAt, TPc.holds]

/-- **C122, server, writing.** In every execution `writeFrameCh` holds at most WriteFrameChSize requests, and so does a batch. -/
theorem C122_server {cap : Nat} {acts : List GAct} {s : GSt} (h : gRun cap acts = some s) :
    s.frames.length - s.deq ≤ cap ∧ s.batch.length ≤ cap := by
  have : GInv cap s ∧ GBatch cap s := runActs_inv (P := fun s => GInv cap s ∧ GBatch cap s)
    (fun s a s' hi hs => ⟨hi.1.step hs, hi.2.step hi.1.a hs⟩) ⟨GInv.init cap, by constructor <;> simp [GSt.init]⟩ h
  exact ⟨this.1.a.cap, this.2.le⟩

structure CBatch (cap : Nat) (s : CSt) : Prop where
  q : s.frames.length - s.deq ≤ max cap 1
  more : ∀ n, s.wr = .more n → s.batch.length + n ≤ max cap 1
  le : s.batch.length ≤ max cap 1

theorem CBatch.step {c : CConf} {s s' : CSt} {a : CAct} (h : CBatch c.cap s) (hs : cStep c s a = some s') : CBatch c.cap s' := by
  obtain ⟨h1, h2, h3⟩ := h
  cstep_cases hs a
  all_goals constructor
  all_goals try first | assumption | grind

/-- **C122, client, writing.** The same; a size below one counts as one (with size zero, the one request that the writer is just taking). -/
theorem C122_client {c : CConf} {dialed : Bool} {acts : List CAct} {s : CSt} (h : cRun c dialed acts = some s) :
    s.frames.length - s.deq ≤ max c.cap 1 ∧ s.batch.length ≤ max c.cap 1 := by
  have := runActs_inv (P := CBatch c.cap) (fun s a s' hi hs => hi.step hs) (by constructor <;> simp [CSt.init]) h
  exact ⟨this.q, this.le⟩

/-- **C122, server, reading.** `readFrameCh` holds at most ReadFrameChSize frames. -/
theorem C122_read {c : RConf} {t0 : Nat} {acts : List RAct} {s : RSt} (h : rdRun c t0 acts = some s) : s.ch.length ≤ c.cap := by
  refine runActs_inv (P := fun s => s.ch.length ≤ c.cap) (fun s a s' hi hs => ?_) (by simp [RSt.init]) h
  rdstep_cases hs a
  all_goals try first | assumption | grind

/-- **C122, the WebSocket listener.** `acceptCh` holds at most `backlog` connections. -/
theorem C122_accept {cap : Nat} {acts : List WoAct} {s : WoSt} (h : woRun cap acts = some s) : s.acceptCh.length ≤ cap := by
  refine runActs_inv (P := fun s => s.acceptCh.length ≤ cap) (fun s a s' hi hs => ?_) (by simp [WoSt.init]) h
  cases a <;> simp only [woStep] at hs <;> grind

/-! Executions in which the queues are full: two requests queued and then in one batch (size 2), on either side; two frames read ahead; two
connections waiting to be accepted, a third being offered. -/

def bndF (n : UInt8) : SFrame := ⟨[n], false, false, true, false⟩
example : (gRun 2 [.call 0 (bndF 1), .call 1 (bndF 2), .call 2 (bndF 3), .enq 0, .enq 1]).map
    (fun s => (s.frames.length - s.deq, (gStep 2 s (.enq 2)).isSome)) = some (2, false) := by rfl
example : (gRun 2 [.call 0 (bndF 1), .call 1 (bndF 2), .call 2 (bndF 3), .enq 0, .enq 1, .lock 0, .go 0, .go 0, .deq 0 true true, .enq 2,
    .deq 0 true true]).map (fun s => (s.batch, s.frames.length - s.deq, (gStep 2 s (.deq 0 true true)).isSome)) = some ([0, 1], 1, false) := by rfl
def bndC (n : UInt8) : CFrame := ⟨2, [n], false, false, true, false⟩
example : (cRun ⟨2, false, 1, false⟩ true [.lGo, .lGo, .lGo, .send 0 (bndC 1), .send 1 (bndC 2), .send 2 (bndC 3), .go 0, .go 1, .go 2, .enq 0,
    .enq 1]).map (fun s => (s.frames.length - s.deq, (cStep ⟨2, false, 1, false⟩ s (.enq 2)).isSome)) = some (2, false) := by rfl
example : (cRun ⟨2, false, 1, false⟩ true [.lGo, .lGo, .lGo, .send 0 (bndC 1), .send 1 (bndC 2), .send 2 (bndC 3), .go 0, .go 1, .go 2, .enq 0,
    .enq 1, .wDeq true true, .enq 2, .wDeq true true]).map (fun s => (s.batch, (cStep ⟨2, false, 1, false⟩ s (.wDeq true true)).isSome)) =
    some ([0, 1], false) := by rfl
def bndR : RFrame := ⟨1, false, true⟩
example : (rdRun ⟨2, 0, 0, false⟩ 0 [.rFrame bndR, .rSend, .rGo, .rGo, .rFrame bndR, .rSend, .rGo, .rGo, .rFrame bndR]).map
    (fun s => (s.ch, (rdStep ⟨2, 0, 0, false⟩ s .rSend).isSome)) = some ([0, 1], false) := by rfl
example : (woRun 2 [.upgrade, .upgrade, .upgrade, .offer 0, .offer 2]).map (fun s => (s.acceptCh, (woStep 2 s (.offer 1)).isSome)) =
    some ([0, 2], false) := by rfl

end Qrpc
