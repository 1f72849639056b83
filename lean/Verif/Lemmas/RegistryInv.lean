import Verif.Model.Registry
/-! Invariants of registering, kicking and closing connections (`Model/Registry.lean`). -/
namespace Qrpc

macro "qstep_cases" hs:ident a:ident : tactic => `(tactic|
  (cases $a:ident <;>
   simp only [qStep] at $hs:ident <;>
   (repeat' (split at $hs:ident)) <;>
   (try simp only [Option.some.injEq, reduceCtorEq] at $hs:ident) <;>
   (try contradiction) <;>
   (try subst $hs:ident)))

/-- The goroutine is untracking this connection. -/
def QPc.own : QPc → Option Nat
  | .utGetId v _ | .utDel v _ _ | .utActive v _ | .utKick v _ | .utCloseCh v _ => some v
  | _ => none

def QPc.preDel : QPc → Option Nat
  | .utGetId v _ | .utDel v _ _ => some v
  | _ => none

def QPc.postDel : QPc → Option Nat
  | .utActive v _ | .utKick v _ | .utCloseCh v _ => some v
  | _ => none

def QPc.preKick : QPc → Option Nat
  | .utGetId v _ | .utDel v _ _ | .utActive v _ | .utKick v _ => some v
  | _ => none

def QPc.postActive : QPc → Option Nat
  | .utKick v _ | .utCloseCh v _ => some v
  | _ => none

/-- The goroutine is inside closeUntracked. -/
def QPc.past : QPc → Option Nat
  | .cuLock v _ | .cuCancel v _ _ | .cuNotify v _ _ => some v
  | _ => none

def QPc.cu : QPc → Option Nat
  | .cuCancel v _ _ | .cuNotify v _ _ => some v
  | _ => none

def QPc.target : QPc → Option Nat
  | .notifyLock v | .utCas v _ | .utWait v _ | .utGetId v _ | .utDel v _ _ | .utActive v _ | .utKick v _ | .utCloseCh v _
  | .cuLock v _ | .cuCancel v _ _ | .cuNotify v _ _ => some v
  | .setLock c _ | .bind c _ _ | .loadKo c _ _ | .addKick c _ => some c
  | _ => none

def QPc.cont : QPc → Option QK
  | .utCas _ k | .utWait _ k | .utGetId _ k | .utDel _ k _ | .utActive _ k | .utKick _ k | .utCloseCh _ k
  | .cuLock _ k | .cuCancel _ k _ | .cuNotify _ k _ => some k
  | _ => none

/-- Callbacks the goroutine is about to call. -/
def QPc.hold : QPc → List Nat
  | .callNow t => [t]
  | .cuCancel _ _ l | .cuNotify _ _ l => l
  | _ => []

def QK.setter : QK → Option (Nat × Nat)
  | .close => none
  | .kick c id => some (c, id)

def QK.kicking (v : Nat) : QK → Option (Nat × Nat)
  | .close => none
  | .kick c _ => some (c, v)

def QK.flag : QK → Option (Nat × Bool)
  | .close => none
  | .kick c _ => some (c, true)

def QK.owes : QK → Option (Nat × Nat)
  | .close => none
  | .kick c _ => some (c, 1)

/-- The connection and id of the SetID call that has set the id but not stored the connection yet. -/
def QPc.setter : QPc → Option (Nat × Nat)
  | .bind c id _ | .addKick c id => some (c, id)
  | .utCas _ k | .utWait _ k | .utGetId _ k | .utDel _ k _ | .utActive _ k | .utKick _ k | .utCloseCh _ k
  | .cuLock _ k | .cuCancel _ k _ | .cuNotify _ k _ => k.setter
  | _ => none

/-- The SetID call of `c` is displacing `v`. -/
def QPc.kicking : QPc → Option (Nat × Nat)
  | .utCas v k | .utWait v k | .utGetId v k | .utDel v k _ | .utActive v k | .utKick v k | .utCloseCh v k
  | .cuLock v k | .cuCancel v k _ | .cuNotify v k _ => k.kicking v
  | _ => none

/-- The state of `kick` in bindID. -/
def QPc.kickFlag : QPc → Option (Nat × Bool)
  | .bind c _ k | .loadKo c _ k => some (c, k)
  | .addKick c _ => some (c, true)
  | .utCas _ k | .utWait _ k | .utGetId _ k | .utDel _ k _ | .utActive _ k | .utKick _ k | .utCloseCh _ k
  | .cuLock _ k | .cuCancel _ k _ | .cuNotify _ k _ => k.flag
  | _ => none

/-- Before (`1`) or after (`0`) the increment of kickOrder that follows a displacement. -/
def QPc.owes : QPc → Option (Nat × Nat)
  | .bind c _ _ | .loadKo c _ _ => some (c, 0)
  | .addKick c _ => some (c, 1)
  | .utCas _ k | .utWait _ k | .utGetId _ k | .utDel _ k _ | .utActive _ k | .utKick _ k | .utCloseCh _ k
  | .cuLock _ k | .cuCancel _ k _ | .cuNotify _ k _ => k.owes
  | _ => none

def QPc.loading : QPc → Option (Nat × Nat)
  | .loadKo c id _ => some (c, id)
  | _ => none

def QPc.delId : QPc → Option (Nat × Option Nat)
  | .utDel v _ id => some (v, id)
  | _ => none

def QPc.waits : QPc → Option Nat
  | .utWait v _ => some v
  | _ => none

theorem QPc.own_of_postActive {p : QPc} {v : Nat} (h : p.postActive = some v) : p.own = some v := by
  cases p <;> simp_all [QPc.postActive, QPc.own]

theorem QPc.own_of_preDel {p : QPc} {v : Nat} (h : p.preDel = some v) : p.own = some v := by
  cases p <;> simp_all [QPc.preDel, QPc.own]

theorem QPc.own_of_postDel {p : QPc} {v : Nat} (h : p.postDel = some v) : p.own = some v := by
  cases p <;> simp_all [QPc.postDel, QPc.own]

theorem QPc.own_of_preKick {p : QPc} {v : Nat} (h : p.preKick = some v) : p.own = some v := by
  cases p <;> simp_all [QPc.preKick, QPc.own]

theorem QPc.setter_of_kickFlag {p : QPc} {c : Nat} {k : Bool} (h : p.kickFlag = some (c, k)) :
    (∃ id, p.setter = some (c, id)) ∨ (∃ id, p.loading = some (c, id)) := by
  cases p <;> simp_all [QPc.kickFlag, QPc.setter, QPc.loading]
  all_goals first
    | (rename_i k; cases k <;> simp_all [QK.flag, QK.setter]; done)
    | (rename_i k _; cases k <;> simp_all [QK.flag, QK.setter]; done)

theorem QPc.setter_of_kicking {p : QPc} {c v : Nat} (h : p.kicking = some (c, v)) : ∃ id, p.setter = some (c, id) := by
  cases p <;> simp_all [QPc.kicking, QPc.setter]
  all_goals first
    | (rename_i k; cases k <;> simp_all [QK.kicking, QK.setter]; done)
    | (rename_i k _; cases k <;> simp_all [QK.kicking, QK.setter]; done)
    | (rename_i k _ _; cases k <;> simp_all [QK.kicking, QK.setter]; done)

theorem QPc.setter_of_owes {p : QPc} {c d : Nat} (h : p.owes = some (c, d)) :
    (∃ id, p.setter = some (c, id)) ∨ (∃ id, p.loading = some (c, id)) := by
  cases p <;> simp_all [QPc.owes, QPc.setter, QPc.loading]
  all_goals first
    | (rename_i k; cases k <;> simp_all [QK.owes, QK.setter]; done)
    | (rename_i k _; cases k <;> simp_all [QK.owes, QK.setter]; done)

/-- The untracking protocol. -/
structure QInvA (s : QSt) : Prop where
  own_owner : ∀ i v, (s.pc i).own = some v → s.owner v = i
  own_un : ∀ i v, (s.pc i).own = some v → s.untrack v = true ∧ s.chCloses v = 0
  un_own : ∀ v, s.untrack v = true → s.chCloses v = 1 ∨ (s.pc (s.owner v)).own = some v
  notun : ∀ v, s.untrack v = false →
    s.chCloses v = 0 ∧ s.kicks v = 0 ∧ s.untracks v = 0 ∧ s.deleted v = false ∧ s.closed v = false
  ch_le : ∀ v, s.chCloses v ≤ 1
  untr : ∀ v, s.untrack v = true → s.untracks v = 1
  pre : ∀ i v, (s.pc i).preKick = some v → s.kicks v = 0
  kicks_le : ∀ v, s.kicks v ≤ 1
  past_ch : ∀ i v, (s.pc i).past = some v → s.chCloses v = 1
  cl_ch : ∀ v, s.closed v = true → s.chCloses v = 1
  cu_cl : ∀ i v, (s.pc i).cu = some v → s.closed v = true
  ret : ∀ v, .closeRet v ∈ s.log → s.chCloses v = 1 ∧ s.closed v = true
  wait : ∀ i v, (s.pc i).waits = some v → s.untrack v = true

/-- What untracking has done at each point. -/
structure QInvD (s : QSt) : Prop where
  lt : ∀ i v, (s.pc i).target = some v → v < s.n
  un_lt : ∀ v, s.untrack v = true → v < s.n
  act : ∀ v, s.chCloses v = 1 → s.active v = false
  act' : ∀ i v, (s.pc i).postActive = some v → s.active v = false
  act_lt : ∀ v, s.active v = true → v < s.n
  pre_del : ∀ i v, (s.pc i).preDel = some v → s.deleted v = false
  post_del : ∀ i v, (s.pc i).postDel = some v → s.deleted v = true
  ch_del : ∀ v, s.chCloses v = 1 → s.deleted v = true
  lt_c : ∀ i c id, (s.pc i).setter = some (c, id) → c < s.n
  tbl_lt : ∀ id v, s.tbl id = some v → v < s.n

/-- Close callbacks. -/
structure QInvB (s : QSt) : Prop where
  reg : ∀ v t, t ∈ s.notify v → t < s.nextT ∧ s.regOf t = v
  hold_lt : ∀ i t, t ∈ (s.pc i).hold → t < s.nextT ∧ s.closed (s.regOf t) = true
  called_lt : ∀ t, t ∈ s.called → t < s.nextT ∧ s.closed (s.regOf t) = true
  keep : ∀ i t, t ∈ (s.pc i).hold → s.keeper t = i
  nd_n : ∀ v, (s.notify v).Nodup
  nd_h : ∀ i, (s.pc i).hold.Nodup
  nd_c : s.called.Nodup
  cl_nil : ∀ v, s.closed v = true → s.notify v = []
  dis : ∀ i t, t ∈ (s.pc i).hold → t ∉ s.called
  all : ∀ t, t < s.nextT → t ∈ s.notify (s.regOf t) ∨ t ∈ s.called ∨ t ∈ (s.pc (s.keeper t)).hold

def dispBy (c : Nat) : QEv → Bool
  | .displaced c' _ _ => c' == c
  | _ => false

def dispOf (c : Nat) : QEv → Option Nat
  | .displaced c' v _ => if c' = c then some v else none
  | _ => none

/-- Ids and the table. -/
structure QInvC (s : QSt) : Prop where
  tbl_id : ∀ id v, s.tbl id = some v → s.idOf v = some id ∧ s.stored v = true
  set_own : ∀ i c id, (s.pc i).setter = some (c, id) → s.setBy c = i ∧ s.idOf c = some id ∧ s.stored c = false
  load : ∀ i c id, (s.pc i).loading = some (c, id) → s.idOf c = some id ∧ s.stored c = true
  st_id : ∀ c, s.stored c = true → s.idOf c ≠ none
  del_id : ∀ i v id, (s.pc i).delId = some (v, some id) → s.idOf v = some id
  ret_st : ∀ c id k x, .setRet c id k x ∈ s.log → s.stored c = true ∧ s.idOf c = some id
  flag : ∀ i c k, (s.pc i).kickFlag = some (c, k) → k = s.log.any (dispBy c)
  flag0 : ∀ c, s.idOf c = none → s.log.any (dispBy c) = false
  flagR : ∀ c id k x, .setRet c id k x ∈ s.log → k = s.log.any (dispBy c)
  disp : ∀ c v id, .displaced c v id ∈ s.log →
    (s.chCloses v = 1 ∧ s.closed v = true) ∨ (s.pc (s.setBy c)).kicking = some (c, v)
  disp_id : ∀ c v id, .displaced c v id ∈ s.log → s.idOf c = some id ∧ v < s.n

/-- As long as no connection was closed before or during its SetID. -/
structure QInvL (s : QSt) : Prop where
  un_st : ∀ v id, s.untrack v = true → s.idOf v = some id → s.stored v = true
  del_none : ∀ i v, (s.pc i).delId = some (v, none) → s.idOf v = none
  tbl_of : ∀ v id, s.stored v = true → s.deleted v = false → s.idOf v = some id → s.tbl id = some v
  tbl_del : ∀ id v, s.tbl id = some v → s.deleted v = false
  disp_nd : ∀ c, (s.log.filterMap (dispOf c)).Nodup

def QPc.cancels : QPc → Option Nat
  | .cuCancel v _ _ => some v
  | _ => none

def QPc.notifies : QPc → Option Nat
  | .cuNotify v _ _ => some v
  | _ => none

/-- Contexts. -/
structure QInvX (s : QSt) : Prop where
  canc : ∀ v, s.closed v = true → s.cancelled v = true ∨ (s.pc (s.closer v)).cancels = some v
  ncanc : ∀ v, s.cancelled v = true → s.closed v = true
  noti : ∀ i v, (s.pc i).notifies = some v → s.cancelled v = true

/-- Kick order. -/
structure QInvK (s : QSt) : Prop where
  fl : ∀ c, s.floor c ≤ s.ko + 1
  fl0 : ∀ c, s.idOf c = none → s.floor c = 0
  owe : ∀ i c d, (s.pc i).owes = some (c, d) → s.floor c ≤ s.ko + d
  ret : ∀ c id k x, .setRet c id k x ∈ s.log → s.floor c ≤ x ∧ x ≤ s.ko

end Qrpc
