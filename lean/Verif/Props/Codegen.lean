import Verif.Model.Codegen
import Verif.Props.Pb
import Verif.Props.Wire
/-! # C51, C52, C66: generated clients and services -/
namespace Qrpc
open Spec

/-! ## C51 -/

theorem genLoop_spec (errCmd : Cmd) (n : Nat) (idx : UInt32) (env : Nat → GenTry) : ∀ k i,
    ∃ m, m ≤ k ∧ (genLoop errCmd n idx env k i).tried = (List.range' i m).map (genPos n idx) ∧
      ((m = k ∧ (∀ a, i ≤ a → a < i + k → env a = .refused) ∧ genLoop errCmd n idx env k i =
          { tried := (List.range' i k).map (genPos n idx), sent := [], reset := [], result := .serviceNA }) ∨
        ∃ m', m = m' + 1 ∧ (∀ a, i ≤ a → a < i + m' → env a = .refused) ∧ env (i + m') ≠ .refused ∧
          (genLoop errCmd n idx env k i).sent = [genPos n idx (i + m')] ∧
          (genLoop errCmd n idx env k i).reset = (if env (i + m') = .noAnswer then [genPos n idx (i + m')] else []) ∧
          (genLoop errCmd n idx env k i).result = (match env (i + m') with
            | .answer cmd p => if cmd = errCmd then .remote p else .ok p
            | _ => .failed)) := by
  intro k
  induction k with
  | zero => intro i; exact ⟨0, by omega, rfl, .inl ⟨rfl, by intro a _ _; omega, rfl⟩⟩
  | succ k ih =>
    intro i
    cases he : env i with
    | refused =>
      obtain ⟨m, h1, h2, h3⟩ := ih (i + 1)
      refine ⟨m + 1, by omega, ?_, ?_⟩
      · simp only [genLoop, he, h2, List.range'_succ, List.map_cons]
      · rcases h3 with ⟨h3, h4, h5⟩ | ⟨m', h3, h4, h5, h6, h7, h8⟩
        · refine .inl ⟨by omega, ?_, ?_⟩
          · intro a ha hb
            by_cases hai : a = i
            · rw [hai]; exact he
            · exact h4 a (by omega) (by omega)
          · simp only [genLoop, he, h5, List.range'_succ, List.map_cons]
        · refine .inr ⟨m' + 1, by omega, ?_, ?_, ?_, ?_, ?_⟩
          · intro a ha hb
            by_cases hai : a = i
            · rw [hai]; exact he
            · exact h4 a (by omega) (by omega)
          · rw [show i + (m' + 1) = i + 1 + m' by omega]; exact h5
          · simp only [genLoop, he]; rw [h6, show i + (m' + 1) = i + 1 + m' by omega]
          · simp only [genLoop, he]; rw [h7, show i + (m' + 1) = i + 1 + m' by omega]
          · simp only [genLoop, he]; rw [h8, show i + (m' + 1) = i + 1 + m' by omega]
    | noAnswer =>
      refine ⟨1, by omega, ?_, .inr ⟨0, rfl, by intro a _ _; omega, ?_⟩⟩
      · simp [genLoop, he]
      · simp [genLoop, he]
    | answer cmd p =>
      refine ⟨1, by omega, ?_, .inr ⟨0, rfl, by intro a _ _; omega, ?_⟩⟩
      · simp [genLoop, he]
      · simp [genLoop, he]

/-- The order in which connections are to be tried: all of them, once each, starting after `c`. -/
def Spec.rotation (n c : Nat) : List Nat := (List.range n).map (fun i => (c + 1 + i) % n)

theorem rotation_nodup (n c : Nat) : (rotation n c).Nodup := by
  rw [rotation, List.nodup_iff_pairwise_ne, List.pairwise_map]
  refine List.Pairwise.imp_of_mem (R := (· < ·)) ?_ List.pairwise_lt_range
  intro a b ha hb hlt h
  rw [List.mem_range] at ha hb
  have h2 : (c + 1 + b - (c + 1 + a)) % n = 0 := Nat.sub_mod_eq_zero_of_mod_eq h.symm
  rw [Nat.mod_eq_of_lt (by omega)] at h2
  omega

theorem mem_rotation {n c j : Nat} : j ∈ rotation n c ↔ j < n := by
  simp only [rotation, List.mem_map, List.mem_range]
  constructor
  · rintro ⟨i, hi, rfl⟩; exact Nat.mod_lt _ (by omega)
  · intro hj
    refine ⟨(j + (n - (c + 1) % n)) % n, Nat.mod_lt _ (by omega), ?_⟩
    have hm : (c + 1) % n < n := Nat.mod_lt _ (by omega)
    rw [Nat.add_mod, Nat.mod_mod, ← Nat.add_mod]
    rw [show c + 1 + (j + (n - (c + 1) % n)) = j + (c + 1 - (c + 1) % n) + n by
      have := Nat.mod_le (c + 1) n; omega, Nat.add_mod_right]
    have hd : c + 1 - (c + 1) % n = n * ((c + 1) / n) := by have := Nat.mod_add_div (c + 1) n; omega
    rw [hd, Nat.add_mul_mod_self_left, Nat.mod_eq_of_lt hj]

/-- **C51.** For any number of connections, any value of the counter (below its wrap-around, see `C51_wrap`) and any outcomes:
connections are tried in rotation order, beginning after the counter, each at most once; the request is accepted by at most one
connection; ErrServiceNA is returned exactly if every connection was tried and refused; otherwise the last one tried accepted it,
all tried before refused, and a reset is sent iff no answer was received. -/
theorem C51 (errCmd : Cmd) (n : Nat) (c : UInt32) (hc : c.toNat + 1 < 2 ^ 32) (env : Nat → GenTry) :
    let r := (genRequest errCmd n c env).2
    (∃ m, r.tried = (rotation n c.toNat).take m) ∧ r.tried.Nodup ∧ (∀ j ∈ r.tried, j < n) ∧
    r.sent.length ≤ 1 ∧
    (r.result = .serviceNA ↔ ∀ i < n, env i = .refused) ∧
    (r.result = .serviceNA → r.sent = [] ∧ ∀ j < n, j ∈ r.tried) ∧
    (r.result ≠ .serviceNA → ∃ i, i < n ∧ (∀ a < i, env a = .refused) ∧ env i ≠ .refused ∧ r.sent = [(c.toNat + 1 + i) % n] ∧
      r.tried.getLast? = some ((c.toNat + 1 + i) % n) ∧
      r.reset = (if env i = .noAnswer then r.sent else []) ∧
      ∀ cmd p, env i = .answer cmd p → r.result = if cmd = errCmd then .remote p else .ok p) := by
  have hidx : (c + 1).toNat = c.toNat + 1 := by
    rw [UInt32.toNat_add]; exact Nat.mod_eq_of_lt (by simpa using hc)
  have hpos : ∀ i, genPos n (c + 1) i = (c.toNat + 1 + i) % n := by
    intro i; rw [genPos, hidx, Nat.add_comm]
  have hrot : (List.range' 0 n).map (genPos n (c + 1)) = rotation n c.toNat := by
    rw [rotation, List.range_eq_range']
    exact List.map_congr_left (fun i _ => hpos i)
  have htake : ∀ m, m ≤ n → (List.range' 0 m).map (genPos n (c + 1)) = (rotation n c.toNat).take m := by
    intro m hm
    rw [← hrot, ← List.map_take, ← List.range_eq_range', ← List.range_eq_range', List.take_range, Nat.min_eq_left hm]
  simp only [genRequest]
  obtain ⟨m, h1, h2, h3⟩ := genLoop_spec errCmd n (c + 1) env n 0
  rw [htake m h1] at h2
  have hnd : ((rotation n c.toNat).take m).Nodup := (List.take_sublist _ _).nodup (rotation_nodup n c.toNat)
  have hmem : ∀ j ∈ (rotation n c.toNat).take m, j < n := fun j hj => mem_rotation.mp (List.mem_of_mem_take hj)
  refine ⟨⟨m, h2⟩, by rw [h2]; exact hnd, by rw [h2]; exact hmem, ?_⟩
  rcases h3 with ⟨h3, h4, h5⟩ | ⟨m', h3, h4, h5, h6, h7, h8⟩
  · rw [h5]
    refine ⟨by simp, ?_, ?_, by simp⟩
    · simp only [true_iff]; intro i hi; exact h4 i (by omega) (by omega)
    · intro _
      refine ⟨rfl, ?_⟩
      intro j hj
      rw [hrot]; exact mem_rotation.mpr hj
  · have hne : (genLoop errCmd n (c + 1) env n 0).result ≠ .serviceNA := by
      rw [h8]
      split
      · split <;> simp
      · simp
    simp only [Nat.zero_add] at h4 h5 h6 h7 h8
    refine ⟨by rw [h6]; simp, ?_, fun h => absurd h hne, ?_⟩
    · constructor
      · intro h; exact absurd h hne
      · intro h; exact absurd (h m' (by omega)) h5
    · intro _
      refine ⟨m', by omega, fun a ha => h4 a (by omega) ha, h5, by rw [h6, hpos], ?_, ?_, ?_⟩
      · rw [h2, List.getLast?_take, if_neg (by omega), h3]
        simp only [Nat.add_sub_cancel]
        rw [rotation, List.getElem?_map, List.getElem?_range (by omega)]
        rfl
      · rw [h7, h6]
      · intro cmd p hp; rw [h8, hp]

/-- At the wrap-around of the counter the same holds with the start position 0. -/
theorem C51_wrap (errCmd : Cmd) (n : Nat) (env : Nat → GenTry) :
    let r := (genRequest errCmd n 0xffffffff env).2
    (∃ m, r.tried = (List.range n).take m) ∧ r.tried.Nodup ∧ (∀ j ∈ r.tried, j < n) ∧ r.sent.length ≤ 1 ∧
    (r.result = .serviceNA ↔ ∀ i < n, env i = .refused) := by
  have hpos : ∀ i, i < n → genPos n (0xffffffff + 1) i = i := by
    intro i hi; rw [genPos]; simp only [show (0xffffffff + 1 : UInt32).toNat = 0 from rfl, Nat.add_zero]; exact Nat.mod_eq_of_lt hi
  have htake : ∀ m, m ≤ n → (List.range' 0 m).map (genPos n (0xffffffff + 1)) = (List.range n).take m := by
    intro m hm
    rw [List.take_range, Nat.min_eq_left hm, List.range_eq_range']
    conv => rhs; rw [← List.map_id (List.range' 0 m)]
    refine List.map_congr_left (fun i hi => ?_)
    rw [List.mem_range'_1] at hi
    exact hpos i (by omega)
  simp only [genRequest]
  obtain ⟨m, h1, h2, h3⟩ := genLoop_spec errCmd n (0xffffffff + 1) env n 0
  rw [htake m h1] at h2
  refine ⟨⟨m, h2⟩, by rw [h2]; exact (List.take_sublist _ _).nodup List.nodup_range, ?_, ?_⟩
  · rw [h2]; intro j hj; exact List.mem_range.mp (List.mem_of_mem_take hj)
  rcases h3 with ⟨h3, h4, h5⟩ | ⟨m', h3, h4, h5, h6, h7, h8⟩
  · rw [h5]
    refine ⟨by simp, ?_⟩
    simp only [true_iff]; intro i hi; exact h4 i (by omega) (by omega)
  · have hne : (genLoop errCmd n (0xffffffff + 1) env n 0).result ≠ .serviceNA := by
      rw [h8]
      split
      · split <;> simp
      · simp
    simp only [Nat.zero_add] at h5
    refine ⟨by rw [h6]; simp, ?_⟩
    constructor
    · intro h; exact absurd h hne
    · intro h; exact absurd (h m' (by omega)) h5

/-- Consecutive requests start at consecutive connections, except at the wrap-around. -/
theorem C51_rotates (n : Nat) (c : UInt32) (hc : c.toNat + 2 < 2 ^ 32) :
    genPos n (c + 1 + 1) 0 = (genPos n (c + 1) 0 + 1) % n := by
  have h1 : (c + 1).toNat = c.toNat + 1 := by rw [UInt32.toNat_add]; exact Nat.mod_eq_of_lt (by simp; omega)
  have h2 : (c + 1 + 1).toNat = c.toNat + 2 := by rw [UInt32.toNat_add, h1]; exact Nat.mod_eq_of_lt (by simp; omega)
  rw [genPos, genPos, h1, h2, Nat.mod_add_mod]
  congr 1

/-- With three connections the first is preferred twice in a row when the counter wraps. -/
theorem C51_wrap_repeats : genPos 3 (0xfffffffe + 1) 0 = 0 ∧ genPos 3 (0xfffffffe + 1 + 1) 0 = 0 := by decide

/-- **C51 is false on 32-bit platforms**: from the 2^31-th request on the position is negative, and indexing panics. -/
theorem C51_refuted_32bit : genPos32 3 0x80000000 0 = -2 := by decide

example : (genRequest 9 3 4 (fun i => if i < 2 then .refused else .answer 1 [7])).2 =
    { tried := [2, 0, 1], sent := [1], reset := [], result := .ok [7] } := by decide
example : (genRequest 9 3 4 (fun _ => .refused)).2.result = .serviceNA := by decide

/-! ## C52 -/

theorem fqMethod_inj {a b c d : Bytes} (ha : (0x3a : UInt8) ∉ a) (hc : (0x3a : UInt8) ∉ c) (h : fqMethod a b = fqMethod c d) : a = c ∧ b = d := by
  induction a generalizing c with
  | nil =>
    cases c with
    | nil => simpa [fqMethod] using h
    | cons x c => simp only [fqMethod, List.nil_append, List.cons_append, List.cons.injEq] at h; simp [← h.1] at hc
  | cons y a ih =>
    cases c with
    | nil => simp only [fqMethod, List.nil_append, List.cons_append, List.cons.injEq] at h; simp [h.1] at ha
    | cons x c =>
      simp only [fqMethod, List.cons_append, List.cons.injEq] at h
      simp only [List.mem_cons, not_or] at ha hc
      have := ih ha.2 hc.2 h.2
      exact ⟨by rw [h.1, this.1], this.2⟩

/-- A name without colons (as any Go identifier) after a colon-free namespace determines both, whatever the other pair is. -/
theorem fqMethod_ident {a b c d : Bytes} (ha : (0x3a : UInt8) ∉ a) (hb : (0x3a : UInt8) ∉ b) (h : fqMethod a b = fqMethod c d) : a = c ∧ b = d := by
  have hc : (0x3a : UInt8) ∉ c := by
    intro hc
    have h1 : (fqMethod a b).count 0x3a = 1 := by
      simp [fqMethod, List.count_append, List.count_eq_zero_of_not_mem ha, List.count_eq_zero_of_not_mem hb]
    rw [h, fqMethod, List.count_append, List.count_cons_self] at h1
    have := List.count_pos_iff.mpr hc
    omega
  exact fqMethod_inj ha hc h

/-- The method registered last for the pair. -/
def Spec.registered (ns method : Bytes) : List (Bytes × Bytes × (Bytes → CallRes)) → Option (Bytes → CallRes)
  | [] => none
  | e :: l => match registered ns method l with
    | some f => some f
    | none => if e.1 = ns ∧ e.2.1 = method then some e.2.2 else none

theorem genTable_fold (l : List (Bytes × Bytes × (Bytes → CallRes))) (t : Bytes → Option (Bytes → CallRes)) (ns m : Bytes)
    (h : ∀ e ∈ l, (0x3a : UInt8) ∉ e.1 ∧ (0x3a : UInt8) ∉ e.2.1) :
    l.foldl (fun t e k => if k = fqMethod e.1 e.2.1 then some e.2.2 else t k) t (fqMethod ns m) =
      (match registered ns m l with | some f => some f | none => t (fqMethod ns m)) := by
  induction l generalizing t with
  | nil => rfl
  | cons e l ih =>
    rw [List.foldl_cons, ih _ (fun x hx => h x (List.mem_cons_of_mem _ hx))]
    simp only [registered]
    cases hr : registered ns m l with
    | some f => rfl
    | none =>
      have he := h e (List.mem_cons_self ..)
      by_cases hp : e.1 = ns ∧ e.2.1 = m
      · simp [hp]
      · have : ¬ fqMethod ns m = fqMethod e.1 e.2.1 := fun hk => hp (fqMethod_ident he.1 he.2 hk.symm)
        simp only [hp, if_false, this]

/-- **C52, dispatch.** If the registered namespaces and methods contain no colon - names of Go identifiers never do - then for
every request, colons or not, the table gives exactly the method registered for its namespace and method, or none. -/
theorem C52_dispatch (l : List (Bytes × Bytes × (Bytes → CallRes))) (h : ∀ e ∈ l, (0x3a : UInt8) ∉ e.1 ∧ (0x3a : UInt8) ∉ e.2.1) (ns m : Bytes) :
    genTable l (fqMethod ns m) = registered ns m l := by
  rw [genTable, genTable_fold l _ ns m h]
  cases registered ns m l <;> rfl

/-- **C52 is false of the code in general**: ("a:b", "c") and ("a", "b:c") have the same key. -/
theorem C52_refuted : fqMethod [0x61, 0x3a, 0x62] [0x63] = fqMethod [0x61] [0x62, 0x3a, 0x63] ∧
    genTable [([0x61, 0x3a, 0x62], [0x63], fun _ => .ok [1])] (fqMethod [0x61] [0x62, 0x3a, 0x63]) ≠
      registered [0x61] [0x62, 0x3a, 0x63] [([0x61, 0x3a, 0x62], [0x63], fun _ => .ok [1])] := by
  refine ⟨by decide, ?_⟩
  simp [genTable, registered, fqMethod]

theorem genReply_eq {ε} (codec : Option Codec) (write : DFW → Option ε) {w : DFW} (hw : w.Clean) (id : UInt64) (cmd : Cmd) (p : Bytes) :
    ∃ f, genReply codec write w id cmd p = [f] ∧ f.wbuf = layout id cmd 0 p := by
  have hl : 16 ≤ w.wbuf.length := by unfold DFW.Clean at hw; omega
  obtain ⟨h1, h2⟩ := foldl_writeBytes (DFW.startWrite_holds w id cmd 0 hl) [p]
  rw [DFW.startWrite_payload w _ _ _ hl, hw.payload_nil] at h2
  simp only [List.foldl_cons, List.foldl_nil, List.flatten_cons, List.flatten_nil, List.append_nil, List.nil_append] at h1 h2
  obtain ⟨sub, e1, e2, _⟩ := endWrite_ok h1 codec write (f' := 0) (p' := p) (by
    rw [h2]; unfold sentAs
    split
    · next h => rw [h]; rfl
    · rw [if_neg (by decide)])
  exact ⟨sub, by rw [genReply, e1]; rfl, e2⟩

/-- **C52, response.** If neither decoding nor the method panics: exactly one frame is written, with the request's id and no flags.
The method found is called once with the decoded parameters, and nothing is called if there is none. On success the frame carries
the request's command and the method's result and the connection stays open; on every failure it carries the error command and the
connection is closed. -/
theorem C52_response {ε} (codec : Option Codec) (write : DFW → Option ε) (stack : Nat) (etext : PbErr → Bytes) (errCmd : Cmd)
    (callback : Bytes → Option (Bytes → CallRes)) (w : DFW) (hw : w.Clean) (id : UInt64) (cmd : Cmd) (payload : Bytes) :
    let r := genServe codec write stack etext errCmd callback w id cmd payload
    (pbUnmarshal stack payload).Proper →
    (∀ m f, pbUnmarshal stack payload = .ok m → callback (fqMethod m.ns m.method) = some f → f m.params ≠ .panic) →
    r.crash = none ∧ ∃ fr c p, r.frames = [fr] ∧ fr.wbuf = layout id c 0 p ∧
      (∀ e, pbUnmarshal stack payload = .err e → c = errCmd ∧ r.closed = true ∧ r.call = none) ∧
      (∀ m, pbUnmarshal stack payload = .ok m →
        (callback (fqMethod m.ns m.method) = none → c = errCmd ∧ r.closed = true ∧ r.call = none) ∧
        (∀ f, callback (fqMethod m.ns m.method) = some f → r.call = some (fqMethod m.ns m.method, m.params) ∧
          (∀ t, f m.params = .err t → c = errCmd ∧ p = t ∧ r.closed = true) ∧
          (∀ out, f m.params = .ok out → c = cmd ∧ p = out ∧ r.closed = false))) := by
  intro r hp hcb
  simp only [r]
  unfold genServe
  cases hu : pbUnmarshal stack payload with
  | panic => rw [hu] at hp; exact hp.elim
  | fatal => rw [hu] at hp; exact hp.elim
  | err e =>
    obtain ⟨f, h1, h2⟩ := genReply_eq codec write hw id errCmd (etext e)
    exact ⟨rfl, f, _, _, h1, h2, by simp, by simp⟩
  | ok m =>
    simp only []
    cases hc : callback (fqMethod m.ns m.method) with
    | none =>
      obtain ⟨f, h1, h2⟩ := genReply_eq codec write hw id errCmd "no such service".toUTF8.toList
      refine ⟨rfl, f, _, _, h1, h2, by simp, ?_⟩
      intro m' hm
      cases hm
      simp [hc]
    | some g =>
      simp only []
      have hnp := hcb m g hu hc
      cases hr : g m.params with
      | panic => exact absurd hr hnp
      | err t =>
        obtain ⟨f, h1, h2⟩ := genReply_eq codec write hw id errCmd t
        refine ⟨rfl, f, _, _, h1, h2, by simp, ?_⟩
        intro m' hm
        cases hm
        refine ⟨by simp [hc], ?_⟩
        intro f' hf'
        rw [hc] at hf'; cases hf'
        simp [hr]
      | ok out =>
        obtain ⟨f, h1, h2⟩ := genReply_eq codec write hw id cmd out
        refine ⟨rfl, f, _, _, h1, h2, by simp, ?_⟩
        intro m' hm
        cases hm
        refine ⟨by simp [hc], ?_⟩
        intro f' hf'
        rw [hc] at hf'; cases hf'
        simp [hr]

/-- **C52 is false of the code** for the payloads of C54: the handler panics and no response is written. -/
theorem C52_refuted_no_response (codec : Option Codec) (write : DFW → Option Unit) (etext : PbErr → Bytes) (errCmd : Cmd)
    (callback : Bytes → Option (Bytes → CallRes)) (w : DFW) (id : UInt64) (cmd : Cmd) :
    let r := genServe codec write 100 etext errCmd callback w id cmd [0x0a, 0xff, 0xff, 0xff, 0xff, 0xff, 0xff, 0xff, 0xff, 0x7f]
    r.frames.length = 0 ∧ r.crash = some .panic := by
  simp [genServe, C54_refuted]

/-! ## C66: a generated call, end to end -/

/-- What the generated client makes of the first frame it reads (client.go:63-71). -/
def Spec.clientSees (errCmd : Cmd) (f : Frame) : GenResult := if f.cmd = errCmd then .remote f.payload else .ok f.payload

theorem genReply_read {ε} (codec : Option Codec) (write : DFW → Option ε) {w : DFW} (hw : w.Clean) (id : UInt64) (c : Cmd) (p : Bytes)
    (cfg : FrameReaderCfg) (s : Src) (rest : Bytes) : ∃ fr, genReply codec write w id c p = [fr] ∧
      (srcBytes s = fr.wbuf ++ rest → fr.wbuf.length < 2 ^ 32 → Admits cfg (fr.wbuf.length - 4) →
        ∃ resp s', readFrame cfg s = (.ok resp, s') ∧ srcBytes s' = rest ∧ resp.requestID = id ∧ resp.cmd.toNat = c.toNat % 2 ^ 24 ∧ resp.payload = p) := by
  obtain ⟨fr, e1, e2⟩ := genReply_eq codec write hw id c p
  refine ⟨fr, e1, ?_⟩
  intro hs hlen hadm
  rw [e2] at hs hlen hadm
  have hll : (layout id c 0 p).length = 16 + p.length := layout_length id c 0 p
  rw [hll] at hlen hadm
  obtain ⟨s1, g1, g2, g3⟩ := readFrame_layout cfg s id c 0 p rest (by omega) (by rwa [show 16 + p.length - 4 = 12 + p.length by omega] at hadm) hs
  have hdec : decodePayload cfg 0 p = .ok p := by
    unfold decodePayload
    split
    · next hp => rw [hp]
    · rw [if_neg (by decide)]
  rw [hdec] at g3
  refine ⟨_, s1, g3, g1, rfl, ?_, rfl⟩
  simp only [UInt32.toNat_ofNat']
  omega

/-- **C66.** A generated client's request for (ns, method, params), delivered to a generated service whose names contain no colon,
whose answer is delivered in any fragmentation: the client returns the method's result if the method registered for (ns, method)
returns one for `params`, and a remote error if it returns an error or if there is none; provided the error command has 24 bits and differs
from the request's command. -/
theorem C66 {ε} (codec : Option Codec) (write : DFW → Option ε) (stack : Nat) (etext : PbErr → Bytes) (errCmd cmd : Cmd)
    (l : List (Bytes × Bytes × (Bytes → CallRes))) (hl : ∀ e ∈ l, (0x3a : UInt8) ∉ e.1 ∧ (0x3a : UInt8) ∉ e.2.1)
    (w : DFW) (hw : w.Clean) (id : UInt64) (m : RpcReq) (hu : m.unrec = []) (hm : (Spec.encode m).length < 2 ^ 63)
    (hcmd : cmd.toNat < 2 ^ 24) (herr : errCmd.toNat < 2 ^ 24) (hne : cmd ≠ errCmd)
    (cfg : FrameReaderCfg) (s : Src) (rest : Bytes) :
    ∃ d, m.marshal = some d ∧
      let r := genServe codec write stack etext errCmd (genTable l) w id cmd d
      ((∀ f, registered m.ns m.method l = some f → f m.params ≠ .panic) → ∃ fr, r.frames = [fr] ∧
        (srcBytes s = fr.wbuf ++ rest → fr.wbuf.length < 2 ^ 32 → Admits cfg (fr.wbuf.length - 4) →
          ∃ resp s', readFrame cfg s = (.ok resp, s') ∧ srcBytes s' = rest ∧ resp.requestID = id ∧
            (registered m.ns m.method l = none → clientSees errCmd resp = .remote "no such service".toUTF8.toList) ∧
            (∀ f t, registered m.ns m.method l = some f → f m.params = .err t → clientSees errCmd resp = .remote t) ∧
            (∀ f out, registered m.ns m.method l = some f → f m.params = .ok out → clientSees errCmd resp = .ok out))) := by
  obtain ⟨d, h1, h2⟩ := C53 stack hu hm
  refine ⟨d, h1, ?_⟩
  have key := fun c p => genReply_read codec write hw id c p cfg s rest
  have hd := C52_dispatch l hl m.ns m.method
  have r4' : ∀ (c : Cmd) (r : Frame), c.toNat < 2 ^ 24 → r.cmd.toNat = c.toNat % 2 ^ 24 → r.cmd = c := by
    intro c r hc h; rw [Nat.mod_eq_of_lt hc] at h; exact UInt32.toNat_inj.mp h
  simp only [genServe, h2, hd]
  intro hnp
  cases hr : registered m.ns m.method l with
  | none =>
    obtain ⟨fr, e1, e2⟩ := key errCmd "no such service".toUTF8.toList
    refine ⟨fr, e1, fun a b c => ?_⟩
    obtain ⟨resp, s', r1, r2, r3, r4, r5⟩ := e2 a b c
    exact ⟨resp, s', r1, r2, r3, by simp [clientSees, r4' errCmd _ herr r4, r5], by simp, by simp⟩
  | some f =>
    simp only []
    cases hf : f m.params with
    | panic => exact absurd hf (hnp f hr)
    | err t =>
      obtain ⟨fr, e1, e2⟩ := key errCmd t
      refine ⟨fr, e1, fun a b c => ?_⟩
      obtain ⟨resp, s', r1, r2, r3, r4, r5⟩ := e2 a b c
      refine ⟨resp, s', r1, r2, r3, by simp, ?_, ?_⟩
      · intro f' t' h3 h4; cases h3; rw [hf] at h4; cases h4; simp [clientSees, r4' errCmd _ herr r4, r5]
      · intro f' t' h3 h4; cases h3; rw [hf] at h4; cases h4
    | ok out =>
      obtain ⟨fr, e1, e2⟩ := key cmd out
      refine ⟨fr, e1, fun a b c => ?_⟩
      obtain ⟨resp, s', r1, r2, r3, r4, r5⟩ := e2 a b c
      refine ⟨resp, s', r1, r2, r3, by simp, ?_, ?_⟩
      · intro f' t' h3 h4; cases h3; rw [hf] at h4; cases h4
      · intro f' t' h3 h4; cases h3; rw [hf] at h4; cases h4; simp [clientSees, r4' cmd _ hcmd r4, r5, hne]

/-- **C66 is false of the code for an error command above 24 bits**, which NewClient and NewServiceHandler accept: the command is
cut on the wire, the comparison fails and the error's text is returned as the result. -/
theorem C66_refuted {ε} (codec : Option Codec) (write : DFW → Option ε) (w : DFW) (hw : w.Clean) (errCmd : Cmd) (herr : 2 ^ 24 ≤ errCmd.toNat)
    (id : UInt64) (t : Bytes) (cfg : FrameReaderCfg) (s : Src) (rest : Bytes) : ∃ fr, genReply codec write w id errCmd t = [fr] ∧
      (srcBytes s = fr.wbuf ++ rest → fr.wbuf.length < 2 ^ 32 → Admits cfg (fr.wbuf.length - 4) →
        ∃ resp s', readFrame cfg s = (.ok resp, s') ∧ clientSees errCmd resp = .ok t) := by
  obtain ⟨fr, h1, h2⟩ := genReply_read codec write hw id errCmd t cfg s rest
  refine ⟨fr, h1, fun a b c => ?_⟩
  obtain ⟨resp, s', r1, _, _, r4, r5⟩ := h2 a b c
  refine ⟨resp, s', r1, ?_⟩
  have : resp.cmd ≠ errCmd := by
    intro h; rw [h] at r4
    have := Nat.mod_lt errCmd.toNat (show 2 ^ 24 > 0 by omega)
    omega
  rw [clientSees, if_neg this, r5]

/-- The hypotheses of C66 hold of a table with two services and a request for one of them. -/
example : (∀ e ∈ [([0x61], [0x62], fun p => CallRes.ok (p ++ p)), ([], [0x63], fun _ => CallRes.err [])],
      (0x3a : UInt8) ∉ (e : Bytes × Bytes × (Bytes → CallRes)).1 ∧ (0x3a : UInt8) ∉ e.2.1) ∧
    (registered [0x61] [0x62] [([0x61], [0x62], fun p => CallRes.ok (p ++ p)), ([], [0x63], fun _ => CallRes.err [])]).isSome ∧
    (Spec.encode { ns := [0x61], method := [0x62], params := [1, 2], unrec := [] }).length < 2 ^ 63 ∧
    (genServe none (fun _ => (none : Option Unit)) 5 (fun _ => []) 11 (genTable [([0x61], [0x62], fun p => CallRes.ok (p ++ p))]) DFW.new 7 10
      (Spec.encode { ns := [0x61], method := [0x62], params := [1, 2], unrec := [] })).frames.map (·.wbuf) = [layout 7 10 0 [1, 2, 1, 2]] := by
  decide +kernel

end Qrpc
