import Verif.Model.Generator
import Verif.Props.Codegen
/-! # C90: generated methods, end to end -/
namespace Qrpc
open Qrpc.Spec

/-! ## Names -/

theorem forallByte {P : UInt8 → Prop} (h : ∀ n : Fin 256, P (UInt8.ofFin n)) (c : UInt8) : P c := h c.toFin

theorem digit_facts (c : UInt8) : isDigitB c = true → isLowerB c = false ∧ c ≠ 0x5f :=
  forallByte (P := fun c => isDigitB c = true → isLowerB c = false ∧ c ≠ 0x5f) (by decide +kernel) c

theorem lower_facts (c : UInt8) : isLowerB c = true → isLowerB (c ^^^ 0x20) = false ∧ isDigitB (c ^^^ 0x20) = false ∧ c ^^^ 0x20 ≠ 0x5f :=
  forallByte (P := fun c => isLowerB c = true → isLowerB (c ^^^ 0x20) = false ∧ isDigitB (c ^^^ 0x20) = false ∧ c ^^^ 0x20 ≠ 0x5f)
    (by decide +kernel) c

theorem camelLoop_false_head (s : Bytes) : headLower (camelLoop false s) = false := by
  induction s with
  | nil => rfl
  | cons c r ih => grind [camelLoop, headLower, digit_facts c, lower_facts c]

theorem camelLoop_true_head {s : Bytes} (h : headLower s = false) : camelLoop true s = camelLoop false s := by
  cases s with
  | nil => rfl
  | cons c r => grind [camelLoop, headLower]

theorem camelLoop_idem : ∀ (s : Bytes) (run : Bool), camelLoop run (camelLoop run s) = camelLoop run s := by
  intro s
  induction s with
  | nil => intro run; rfl
  | cons c r ih =>
    intro run
    have h1 := camelLoop_false_head r
    have h2 := @camelLoop_true_head r
    have h3 := @camelLoop_true_head (camelLoop false r) h1
    have h4 := digit_facts c
    have h5 := lower_facts c
    have h6 := ih true
    have h7 := ih false
    cases run <;> grind [camelLoop, headLower]

theorem camelLoop_first {c : UInt8} {r : Bytes} (hc : c ≠ 0x5f) : ∃ d t, camelLoop false (c :: r) = d :: t ∧ d ≠ 0x5f := by
  have h1 := digit_facts c
  have h2 := lower_facts c
  rw [camelLoop]
  simp only [Bool.false_and, Bool.false_eq_true, if_false, beq_eq_false_iff_ne.mpr hc]
  split
  · exact ⟨_, _, rfl, hc⟩
  · refine ⟨_, _, rfl, ?_⟩
    split
    · exact (h2 (by assumption)).2.2
    · exact hc

theorem camelCase_idem (s : Bytes) : camelCase (camelCase s) = camelCase s := by
  cases s with
  | nil => rfl
  | cons c r =>
    by_cases hc : c = 0x5f
    · have e : camelCase (c :: r) = 0x58 :: camelLoop false r := by simp [camelCase, hc]
      rw [e, camelCase, if_neg (by decide)]
      have : camelLoop false (0x58 :: camelLoop false r) = 0x58 :: camelLoop true (camelLoop false r) := by
        rw [camelLoop]; simp [isDigitB, isLowerB]
      rw [this, camelLoop_true_head (camelLoop_false_head r), camelLoop_idem]
    · have e : camelCase (c :: r) = camelLoop false (c :: r) := by simp [camelCase, hc]
      obtain ⟨d, t, h, hd⟩ := camelLoop_first (r := r) hc
      rw [e]
      rw [h, camelCase, if_neg hd, ← h, camelLoop_idem]

theorem camelCase_eq_nil {s : Bytes} : camelCase s = [] ↔ s = [] := by
  constructor
  · intro h
    cases s with
    | nil => rfl
    | cons c r =>
      by_cases hc : c = 0x5f
      · simp [camelCase, hc] at h
      · obtain ⟨d, t, h', _⟩ := camelLoop_first (r := r) hc
        rw [camelCase, if_neg hc, h'] at h; cases h
  · rintro rfl; rfl

/-! ## Registration -/

/-- What was registered by a caller: `none` for `Register`, a name for `RegisterSub`. -/
def Gen.registerAll {V} (g : Gen V) : List (Option Bytes × List (GoMethod V)) → Option (Gen V)
  | [] => some g
  | (none, ms) :: r => (g.register ms).bind (·.registerAll r)
  | (some ns, ms) :: r => (g.registerSub ns ms).bind (·.registerAll r)

/-- The key of a registration. -/
def Spec.regKey {V} (r : Option Bytes × List (GoMethod V)) : Bytes × List (GoMethod V) := ((r.1.map camelCase).getD [], r.2)

/-- **C90, registration.** A sequence of registrations succeeds exactly if every one has methods, all with a context and one more
input and one output that takes errors, no sub service has the empty name, and no two names are equal after CamelCase; the generator
then has exactly the services registered, in that order. In particular only `Register` sets the main service. -/
theorem C90_register {V} (name : Bytes) (l : List (Option Bytes × List (GoMethod V))) (g : Gen V) :
    (Gen.new name).registerAll l = some g ↔
      (∀ r ∈ l, r.1 ≠ some [] ∧ r.2 ≠ [] ∧ ∀ m ∈ r.2, m.nIn = 2 ∧ m.ctxOk = true ∧ m.nOut = 1 ∧ m.outOk = true) ∧
      (l.map fun r => (regKey r).1).Nodup ∧ g = { serviceName := camelCase name, services := l.map regKey } := by
  have key : ∀ (l : List (Option Bytes × List (GoMethod V))) (g0 : Gen V), g0.registerAll l = some g ↔
      (∀ r ∈ l, r.1 ≠ some [] ∧ r.2 ≠ [] ∧ ∀ m ∈ r.2, m.nIn = 2 ∧ m.ctxOk = true ∧ m.nOut = 1 ∧ m.outOk = true) ∧
      (l.map fun r => (regKey r).1).Nodup ∧ (∀ r ∈ l, (regKey r).1 ∉ g0.services.map (·.1)) ∧
      g = { serviceName := g0.serviceName, services := g0.services ++ l.map regKey } := by
    intro l
    induction l with
    | nil =>
      intro g0
      simp only [Gen.registerAll, Option.some.injEq]
      constructor
      · rintro rfl; simp
      · rintro ⟨_, _, _, rfl⟩; simp
    | cons r l ih =>
      intro g0
      have one : ∀ g1 : Gen V, (match r with
          | (none, ms) => g0.register ms
          | (some ns, ms) => g0.registerSub ns ms) = some g1 ↔
          (r.1 ≠ some [] ∧ r.2 ≠ [] ∧ ∀ m ∈ r.2, m.nIn = 2 ∧ m.ctxOk = true ∧ m.nOut = 1 ∧ m.outOk = true) ∧
          (regKey r).1 ∉ g0.services.map (·.1) ∧ g1 = { serviceName := g0.serviceName, services := g0.services ++ [regKey r] } := by
        intro g1
        obtain ⟨o, ms⟩ := r
        cases o with
        | none =>
          simp only [Gen.register, Gen.registerSub', regKey, checkFuncIO, List.all_eq_true, Bool.and_eq_true, decide_eq_true_eq]
          repeat' split
          all_goals grind [camelCase]
        | some ns =>
          simp only [Gen.registerSub, Gen.registerSub', regKey, checkFuncIO, List.all_eq_true, Bool.and_eq_true, decide_eq_true_eq]
          repeat' split
          all_goals grind
      have step : g0.registerAll (r :: l) = (match r with
          | (none, ms) => g0.register ms
          | (some ns, ms) => g0.registerSub ns ms).bind (·.registerAll l) := by
        obtain ⟨o, ms⟩ := r
        cases o <;> rfl
      rw [step, Option.bind_eq_some_iff]
      constructor
      · rintro ⟨g1, h1, h2⟩
        obtain ⟨a1, a2, rfl⟩ := (one g1).mp h1
        obtain ⟨b1, b2, b3, b4⟩ := (ih _).mp h2
        refine ⟨?_, ?_, ?_, ?_⟩
        · intro x hx; rcases List.mem_cons.mp hx with rfl | hx
          · exact a1
          · exact b1 x hx
        · rw [List.map_cons, List.nodup_cons]
          refine ⟨?_, b2⟩
          intro hm
          obtain ⟨x, hx, e⟩ := List.mem_map.mp hm
          exact b3 x hx (by simp [e])
        · intro x hx; rcases List.mem_cons.mp hx with rfl | hx
          · exact a2
          · intro hm; exact b3 x hx (by simp only [List.map_append, List.mem_append]; exact .inl hm)
        · rw [b4]; simp
      · rintro ⟨a1, a2, a3, a4⟩
        rw [List.map_cons, List.nodup_cons] at a2
        refine ⟨_, (one _).mpr ⟨a1 r (by simp), a3 r (by simp), rfl⟩, (ih _).mpr ⟨fun x hx => a1 x (by simp [hx]), a2.2, ?_, ?_⟩⟩
        · intro x hx hm
          simp only [List.map_append, List.mem_append, List.map_cons, List.map_nil, List.mem_singleton] at hm
          rcases hm with hm | hm
          · exact a3 x (by simp [hx]) hm
          · exact a2.1 (List.mem_map.mpr ⟨x, hx, hm⟩)
        · rw [a4]; simp
  rw [key]
  simp [Gen.new]

/-! ## Output -/

theorem dropWhile_not_mem {p : UInt8 → Bool} {a : Bytes} {c : UInt8} {r : Bytes} (ha : ∀ x ∈ a, p x = true) (hc : p c = false) :
    (a ++ c :: r).dropWhile p = c :: r := by
  rw [List.dropWhile_append_of_pos (by simpa using ha)]
  simp [List.dropWhile_cons, hc]

theorem takeWhile_ident {a : Bytes} {c : UInt8} {r : Bytes} (ha : ∀ x ∈ a, isIdent x = true) (hc : isIdent c = false) :
    (a ++ c :: r).takeWhile isIdent = a := by
  rw [List.takeWhile_append_of_pos (by simpa using ha)]
  simp [List.takeWhile_cons, hc]

theorem ident_facts (c : UInt8) : isIdent c = true → c ≠ 0x29 ∧ c ≠ 0x20 :=
  forallByte (P := fun c => isIdent c = true → c ≠ 0x29 ∧ c ≠ 0x20) (by decide +kernel) c

theorem headerOk_shape {recv name rest : Bytes} {d : UInt8} {k : Nat} (hr : ∀ x ∈ recv, x ≠ 0x29) (hn : ∀ x ∈ name, isIdent x = true)
    (hne : name ≠ []) (hd : isIdent d = false) :
    headerOk (ascii "func (" ++ (recv ++ 0x29 :: (List.replicate k 0x20 ++ (name ++ d :: rest)))) = (d == 0x28) := by
  have e1 : (ascii "func (" ++ (recv ++ 0x29 :: (List.replicate k 0x20 ++ (name ++ d :: rest)))).drop 6 =
      recv ++ 0x29 :: (List.replicate k 0x20 ++ (name ++ d :: rest)) := rfl
  have e2 := dropWhile_not_mem (p := fun x => x != 0x29) (a := recv) (c := 0x29)
    (r := List.replicate k 0x20 ++ (name ++ d :: rest)) (by simpa using hr) (by simp)
  obtain ⟨n0, nr, rfl⟩ : ∃ n0 nr, name = n0 :: nr := by
    cases name with
    | nil => exact absurd rfl hne
    | cons a b => exact ⟨a, b, rfl⟩
  have e3 := dropWhile_not_mem (p := fun x => x == 0x20) (a := List.replicate k 0x20) (c := n0) (r := nr ++ d :: rest)
    (by intro x hx; simp [(List.mem_replicate.mp hx).2]) (by simpa using (ident_facts n0 (hn n0 (by simp))).2)
  have e4 := takeWhile_ident (a := n0 :: nr) (c := d) (r := rest) hn hd
  have e5 := dropWhile_not_mem (p := isIdent) (a := n0 :: nr) (c := d) (r := rest) hn hd
  have hp : (ascii "func (").isPrefixOf (ascii "func (" ++ (recv ++ 0x29 :: (List.replicate k 0x20 ++ (n0 :: nr ++ d :: rest)))) = true := by
    rw [List.isPrefixOf_iff_prefix]; exact List.prefix_append _ _
  simp only [headerOk, hp, Bool.true_and, e1, e2, List.drop_succ_cons, List.drop_zero]
  simp only [List.cons_append] at e3 e4 e5 ⊢
  rw [e3, e4, e5]
  simp

/-- The bytes of a Go identifier. -/
def Spec.Ident (s : Bytes) : Prop := s ≠ [] ∧ ∀ x ∈ s, isIdent x = true

theorem unexport_ident {s t : Bytes} (hs : Ident s) (h : unexport s = some t) : Ident t := by
  cases s with
  | nil => cases h
  | cons c r =>
    simp only [unexport, Option.some.injEq] at h
    subst h
    refine ⟨by simp, ?_⟩
    intro x hx
    rcases List.mem_cons.mp hx with rfl | hx
    · have : ∀ c : UInt8, isIdent c = true → isIdent (if 0x41 ≤ c ∧ c ≤ 0x5a then c ^^^ 0x20 else c) = true :=
        forallByte (by decide +kernel)
      exact this c (hs.2 c (by simp))
    · exact hs.2 x (by simp [hx])

theorem subHeader_bad {svc ns : Bytes} (h1 : Ident svc) (h2 : Ident ns) : headerOk (subHeader svc ns) = false := by
  have e : subHeader svc ns = ascii "func (" ++ ((ascii "c " ++ svc ++ ascii "Client") ++ 0x29 ::
      (List.replicate 1 0x20 ++ ((ns ++ ascii "Client") ++ 0x20 :: [0x7b]))) := by
    simp [subHeader, show ascii "func (c " = ascii "func (" ++ ascii "c " by decide, show ascii "Client) " = ascii "Client" ++ [0x29, 0x20] by decide,
      show ascii "Client {" = ascii "Client" ++ [0x20, 0x7b] by decide]
  rw [e, headerOk_shape]
  · decide
  · intro x hx
    simp only [List.mem_append] at hx
    rcases hx with (hx | hx) | hx
    · revert x; decide
    · exact (ident_facts x (h1.2 x hx)).1
    · revert x; decide
  · intro x hx
    rcases List.mem_append.mp hx with hx | hx
    · exact h2.2 x hx
    · exact (by decide : ∀ x ∈ ascii "Client", isIdent x = true) x hx
  · simp [h2.1]
  · decide

theorem methodHeader_ok {svc ns name rest : Bytes} (h1 : ∀ x ∈ svc, isIdent x = true) (h2 : ∀ x ∈ ns, isIdent x = true) (h3 : Ident name) :
    headerOk (methodHeader svc ns name rest) = true := by
  have e : methodHeader svc ns name rest = ascii "func (" ++ ((ascii "c " ++ svc ++ ns ++ ascii "Client") ++ 0x29 ::
      (List.replicate 0 0x20 ++ (name ++ 0x28 :: (ascii "ctx " ++ rest)))) := by
    simp [methodHeader, show ascii "func (c " = ascii "func (" ++ ascii "c " by decide, show ascii "Client)" = ascii "Client" ++ [0x29] by decide,
      show ascii "(ctx " = 0x28 :: ascii "ctx " by decide]
  rw [e, headerOk_shape]
  · decide
  · intro x hx
    simp only [List.mem_append] at hx
    rcases hx with ((hx | hx) | hx) | hx
    · revert x; decide
    · exact (ident_facts x (h1 x hx)).1
    · exact (ident_facts x (h2 x hx)).1
    · revert x; decide
  · exact h3.2
  · exact h3.1
  · decide

/-- **C90 is false with sub services**: if any is registered, the generator prints a method header without a parameter list, and
`Output` panics. -/
theorem C90_refuted_sub {V} (g : Gen V) (rest : GoMethod V → Bytes) (hs : Ident g.serviceName) {s : Bytes × List (GoMethod V)}
    (hmem : s ∈ g.services) (hns : Ident s.1) : g.outputs rest = false := by
  unfold Gen.outputs Gen.headers
  cases hu : unexport g.serviceName with
  | none => rfl
  | some svc =>
    simp only [Option.map_some, Bool.and_eq_false_iff]
    left
    rw [List.all_eq_false]
    refine ⟨subHeader svc s.1, ?_, by simp [subHeader_bad (unexport_ident hs hu) hns]⟩
    simp only [List.mem_append]
    exact .inl (.inr (List.mem_map.mpr ⟨s, List.mem_filter.mpr ⟨hmem, by simp [hns.1]⟩, rfl⟩))

/-- With only a main service, whose methods and types have names, the printed headers are well formed. With an unnamed input type
(a pointer or slice, which checkFuncIO lets pass) they are not. -/
theorem C90_output {V} (g : Gen V) (rest : GoMethod V → Bytes) (hs : Ident g.serviceName) (hmain : ∀ s ∈ g.services, s.1 = [])
    (hm : ∀ s ∈ g.services, ∀ m ∈ s.2, Ident m.name) :
    g.outputs rest = true ↔ ∀ s ∈ g.services, ∀ m ∈ s.2, m.inT.name ≠ [] ∧ m.outT.name ≠ [] := by
  unfold Gen.outputs Gen.headers
  cases hu : unexport g.serviceName with
  | none =>
    exfalso
    cases h : g.serviceName with
    | nil => exact hs.1 h
    | cons c r => rw [h] at hu; cases hu
  | some svc =>
    have hsvc := unexport_ident hs hu
    have hf : g.services.filter (fun s => s.1 ≠ []) = [] := by
      rw [List.filter_eq_nil_iff]; intro s h; simp [hmain s h]
    have ha : (((g.services.filter (·.1 = [])).flatMap (fun s => s.2.map fun m => methodHeader svc [] m.name (rest m)) ++
        (g.services.filter (·.1 ≠ [])).map (fun s => subHeader svc s.1) ++
        (g.services.filter (·.1 ≠ [])).flatMap (fun s => s.2.map fun m => methodHeader svc s.1 m.name (rest m))).all headerOk) = true := by
      rw [hf]
      simp only [List.map_nil, List.flatMap_nil, List.append_nil, List.all_eq_true, List.mem_flatMap, List.mem_map, List.mem_filter]
      rintro h ⟨s, ⟨hs1, _⟩, m, hm1, rfl⟩
      exact methodHeader_ok hsvc.2 (by simp) (hm s hs1 m hm1)
    simp only [Option.map_some, ha, Bool.true_and, List.all_eq_true, Bool.and_eq_true, bne_iff_ne]

/-! ## A generated call -/

/-- The network delivers a frame unchanged: what the client reads is read, in some fragmentation, from the bytes written. -/
def Spec.Delivers (deliver : DFW → Option Frame) : Prop :=
  ∀ fr f, deliver fr = some f → ∃ cfg s rest s', srcBytes s = fr.wbuf ++ rest ∧ fr.wbuf.length < 2 ^ 32 ∧ Admits cfg (fr.wbuf.length - 4) ∧
    readFrame cfg s = (.ok f, s')

theorem registered_none {V} {ms : List (GoMethod V)} {impl : Bytes → V → Option V} {n : Bytes} (h : n ∉ ms.map (·.name)) :
    registered [] n (srvTable ms impl) = none := by
  induction ms with
  | nil => rfl
  | cons a ms ih =>
    simp only [List.map_cons, List.mem_cons, not_or] at h
    have := ih h.2
    simp only [srvTable, List.map_cons, registered] at this ⊢
    rw [this]
    simp only [true_and]
    rw [if_neg (fun e => h.1 e.symm)]

theorem registered_table {V} {ms : List (GoMethod V)} {impl : Bytes → V → Option V} {m : GoMethod V} (hm : m ∈ ms)
    (hnd : (ms.map (·.name)).Nodup) : registered [] m.name (srvTable ms impl) = some (srvMethod m (impl m.name)) := by
  induction ms with
  | nil => cases hm
  | cons a ms ih =>
    rw [List.map_cons, List.nodup_cons] at hnd
    simp only [srvTable, List.map_cons, registered]
    rcases List.mem_cons.mp hm with rfl | hm
    · have := registered_none (impl := impl) hnd.1
      rw [srvTable] at this
      rw [this]
      simp
    · have := ih hm hnd.2
      rw [srvTable] at this
      rw [this]

/-- What the request of a generated client method returns: the answer of the callback of the method with that name, if it arrives. -/
theorem genNet_spec {V ε} (codec : Option Codec) (write : DFW → Option ε) (stack : Nat) (etext : PbErr → Bytes) (errCmd cmd : Cmd)
    (hcmd : cmd.toNat < 2 ^ 24) (herr : errCmd.toNat < 2 ^ 24) (hne : cmd ≠ errCmd) (w : DFW) (hw : w.Clean) (id : UInt64)
    {ms : List (GoMethod V)} {impl : Bytes → V → Option V} (hid : ∀ m ∈ ms, (0x3a : UInt8) ∉ m.name) (hnd : (ms.map (·.name)).Nodup)
    {m : GoMethod V} (hm : m ∈ ms) (inBytes : Bytes) (hlen : (Spec.encode ⟨[], m.name, inBytes, []⟩).length < 2 ^ 63)
    (deliver : DFW → Option Frame) (hd : Delivers deliver) :
    let r := genNet codec write stack etext errCmd (srvTable ms impl) w id cmd deliver [] m.name inBytes
    match srvMethod m (impl m.name) inBytes with
    | .ok out => ∃ fr, r = if deliver fr = none then .error (ascii "context canceled") else .ok out
    | .err t => ∃ fr, r = if deliver fr = none then .error (ascii "context canceled") else .error t
    | .panic => r = .error (ascii "context canceled") := by
  have hl : ∀ e ∈ srvTable ms impl, (0x3a : UInt8) ∉ e.1 ∧ (0x3a : UInt8) ∉ e.2.1 := by
    intro e he
    obtain ⟨m', h1, rfl⟩ := List.mem_map.mp he
    exact ⟨by simp, hid m' h1⟩
  have hreg := registered_table (impl := impl) hm hnd
  obtain ⟨d, h1, h2⟩ := C53 stack (m := ⟨[], m.name, inBytes, []⟩) rfl hlen
  have hdis := C52_dispatch (srvTable ms impl) hl [] m.name
  rw [hreg] at hdis
  have hread : ∀ (c : Cmd) (p : Bytes), c.toNat < 2 ^ 24 → ∃ fr, genReply codec write w id c p = [fr] ∧
      ∀ f, deliver fr = some f → f.cmd = c ∧ f.payload = p := by
    intro c p hc
    obtain ⟨fr, e1, -⟩ := genReply_eq codec write hw id c p
    refine ⟨fr, e1, fun f hf => ?_⟩
    obtain ⟨cfg, s, rest, s', k1, k2, k3, k4⟩ := hd fr f hf
    obtain ⟨fr', e1', e3⟩ := genReply_read codec write hw id c p cfg s rest
    rw [e1] at e1'
    cases e1'
    obtain ⟨resp, s'', r1, r2, r3, r4, r5⟩ := e3 k1 k2 k3
    rw [k4] at r1
    cases r1
    rw [Nat.mod_eq_of_lt hc] at r4
    exact ⟨UInt32.toNat_inj.mp r4, r5⟩
  simp only [genNet, h1, genServe, h2, hdis]
  cases hs : srvMethod m (impl m.name) inBytes with
  | panic => rfl
  | ok out =>
    obtain ⟨fr, e1, e2⟩ := hread cmd out hcmd
    refine ⟨fr, ?_⟩
    simp only [e1]
    cases hdl : deliver fr with
    | none => simp
    | some f => obtain ⟨a, b⟩ := e2 f hdl; simp [a, b, hne]
  | err t =>
    obtain ⟨fr, e1, e2⟩ := hread errCmd t herr
    refine ⟨fr, ?_⟩
    simp only [e1]
    cases hdl : deliver fr with
    | none => simp
    | some f => obtain ⟨a, b⟩ := e2 f hdl; simp [a, b]

/-- An encoding that gives back, from `z`, the value `v` it was given. -/
def Spec.RoundTrips {V} (enc : GoEnc V) (z v : V) (b : Bytes) : Prop := enc.marshal v = .ok b ∧ enc.unmarshal b z = (v, none)

/-- **C90, partial**: a call of a generated method of the main service returns what the service's method returns for the argument, or - if
no answer arrives - an output with the context's error; provided the argument's encoding gives it back, JSON gives back the
result, the result's type does not implement Marshaler, and no method name contains a colon. -/
theorem C90_partial {V ε} (codec : Option Codec) (write : DFW → Option ε) (stack : Nat) (etext : PbErr → Bytes) (errCmd cmd : Cmd)
    (hcmd : cmd.toNat < 2 ^ 24) (herr : errCmd.toNat < 2 ^ 24) (hne : cmd ≠ errCmd) (w : DFW) (hw : w.Clean) (id : UInt64)
    {ms : List (GoMethod V)} {impl : Bytes → V → Option V} (hid : ∀ m ∈ ms, (0x3a : UInt8) ∉ m.name) (hnd : (ms.map (·.name)).Nodup)
    {m : GoMethod V} (hm : m ∈ ms) {input output : V} {inB outB : Bytes} (hlen : (Spec.encode ⟨[], m.name, inB, []⟩).length < 2 ^ 63)
    (hin : RoundTrips (if m.inT.ptrMarshaler then m.inT.own else m.inT.json) m.inT.zero input inB)
    (himpl : impl m.name input = some output) (hctx : m.ctxPtrMarshaler = false) (hout : m.outT.ptrMarshaler = false)
    (hjson : RoundTrips m.outT.json m.outT.zero output outB) (deliver : DFW → Option Frame) (hd : Delivers deliver) :
    ∃ fr, cliMethod m (genNet codec write stack etext errCmd (srvTable ms impl) w id cmd deliver [] m.name) input =
      if deliver fr = none then m.outT.setError (ascii "context canceled") m.outT.zero else output := by
  have hs : srvMethod m (impl m.name) inB = .ok outB := by
    simp [srvMethod, GoMethod.inEnc, hin.2, himpl, GoMethod.outEnc, hctx, hjson.1]
  have hg := genNet_spec codec write stack etext errCmd cmd hcmd herr hne w hw id (impl := impl) hid hnd hm inB hlen deliver hd
  simp only [hs] at hg
  obtain ⟨fr, hr⟩ := hg
  refine ⟨fr, ?_⟩
  have hi : m.inEnc.marshal input = .ok inB := hin.1
  simp only [cliMethod, hi, hr]
  by_cases hn : deliver fr = none
  · simp [hn]
  · simp [hn, GoMethod.outDec, hout, hjson.2]

/-- **C90, errors.** Whatever the types: if the argument cannot be encoded, or the callback cannot decode it, or cannot encode the
result, the caller gets an output on which SetError was called with that error (or the context's error, if no answer arrives); a service
method that panics gives the context's error. -/
theorem C90_errors {V ε} (codec : Option Codec) (write : DFW → Option ε) (stack : Nat) (etext : PbErr → Bytes) (errCmd cmd : Cmd)
    (hcmd : cmd.toNat < 2 ^ 24) (herr : errCmd.toNat < 2 ^ 24) (hne : cmd ≠ errCmd) (w : DFW) (hw : w.Clean) (id : UInt64)
    {ms : List (GoMethod V)} {impl : Bytes → V → Option V} (hid : ∀ m ∈ ms, (0x3a : UInt8) ∉ m.name) (hnd : (ms.map (·.name)).Nodup)
    {m : GoMethod V} (hm : m ∈ ms) (input : V) (deliver : DFW → Option Frame) (hd : Delivers deliver) :
    let call := cliMethod m (genNet codec write stack etext errCmd (srvTable ms impl) w id cmd deliver [] m.name) input
    let lost := m.outT.setError (ascii "context canceled") m.outT.zero
    let enc := if m.inT.ptrMarshaler then m.inT.own else m.inT.json
    (∀ e, enc.marshal input = .error e → call = m.outT.setError e m.outT.zero) ∧
    (∀ b, enc.marshal input = .ok b → (Spec.encode ⟨[], m.name, b, []⟩).length < 2 ^ 63 →
      (∀ v e, enc.unmarshal b m.inT.zero = (v, some e) → call = lost ∨ call = m.outT.setError e m.outT.zero) ∧
      (∀ v, enc.unmarshal b m.inT.zero = (v, none) →
        (impl m.name v = none → call = lost) ∧
        (∀ o e, impl m.name v = some o → m.ctxPtrMarshaler = false → m.outT.json.marshal o = .error e →
          call = lost ∨ call = m.outT.setError e m.outT.zero))) := by
  intro call lost enc
  have henc : m.inEnc = enc := rfl
  refine ⟨fun e he => by simp [call, cliMethod, henc, he], fun b hb hlen => ?_⟩
  have hg := genNet_spec codec write stack etext errCmd cmd hcmd herr hne w hw id (impl := impl) hid hnd hm b hlen deliver hd
  have herrs : ∀ t, srvMethod m (impl m.name) b = .err t → call = lost ∨ call = m.outT.setError t m.outT.zero := by
    intro t ht
    simp only [ht] at hg
    obtain ⟨fr, hr⟩ := hg
    simp only [call, cliMethod, henc, hb, hr]
    by_cases hn : deliver fr = none
    · left; simp [hn, lost]
    · right; simp [hn]
  refine ⟨fun v e hv => herrs e (by simp [srvMethod, henc, hv]), fun v hv => ⟨fun hp => ?_, fun o e ho hc he => ?_⟩⟩
  · have : srvMethod m (impl m.name) b = .panic := by simp [srvMethod, henc, hv, hp]
    simp only [this] at hg
    simp [call, cliMethod, henc, hb, hg, lost]
  · exact herrs e (by simp [srvMethod, henc, hv, ho, GoMethod.outEnc, hc, he])

/-- **C90 is false for results that implement Marshaler**: the callback encodes the result with JSON, the client decodes it with
Unmarshal. -/
theorem C90_marshaler {V ε} (codec : Option Codec) (write : DFW → Option ε) (stack : Nat) (etext : PbErr → Bytes) (errCmd cmd : Cmd)
    (hcmd : cmd.toNat < 2 ^ 24) (herr : errCmd.toNat < 2 ^ 24) (hne : cmd ≠ errCmd) (w : DFW) (hw : w.Clean) (id : UInt64)
    {ms : List (GoMethod V)} {impl : Bytes → V → Option V} (hid : ∀ m ∈ ms, (0x3a : UInt8) ∉ m.name) (hnd : (ms.map (·.name)).Nodup)
    {m : GoMethod V} (hm : m ∈ ms) {input output : V} {inB outB : Bytes} (hlen : (Spec.encode ⟨[], m.name, inB, []⟩).length < 2 ^ 63)
    (hin : RoundTrips (if m.inT.ptrMarshaler then m.inT.own else m.inT.json) m.inT.zero input inB)
    (himpl : impl m.name input = some output) (hctx : m.ctxPtrMarshaler = false) (hout : m.outT.ptrMarshaler = true)
    (hjson : m.outT.json.marshal output = .ok outB) (deliver : DFW → Option Frame) (hd : Delivers deliver) :
    ∃ fr, cliMethod m (genNet codec write stack etext errCmd (srvTable ms impl) w id cmd deliver [] m.name) input =
      if deliver fr = none then m.outT.setError (ascii "context canceled") m.outT.zero
      else match m.outT.own.unmarshal outB m.outT.zero with
        | (v, none) => v
        | (v, some e) => m.outT.setError e v := by
  have hs : srvMethod m (impl m.name) inB = .ok outB := by
    simp [srvMethod, GoMethod.inEnc, hin.2, himpl, GoMethod.outEnc, hctx, hjson]
  have hg := genNet_spec codec write stack etext errCmd cmd hcmd herr hne w hw id (impl := impl) hid hnd hm inB hlen deliver hd
  simp only [hs] at hg
  obtain ⟨fr, hr⟩ := hg
  refine ⟨fr, ?_⟩
  have hi : m.inEnc.marshal input = .ok inB := hin.1
  simp only [cliMethod, hi, hr]
  by_cases hn : deliver fr = none
  · simp [hn]
  · simp only [hn, GoMethod.outDec, hout, if_true, if_false]
    rcases m.outT.own.unmarshal outB m.outT.zero with ⟨v, _ | e⟩ <;> rfl

/-! A service with one method "Echo" from byte strings to byte strings, whose values may carry an error. "JSON" puts a string in quotes;
the type's own encoding is the string itself. Both give every value back. -/
namespace GenEx
abbrev Val := Bytes × Option Bytes
def raw : GoEnc Val := { marshal := fun v => .ok v.1, unmarshal := fun b v => ((b, v.2), none) }
def quoted : GoEnc Val :=
  { marshal := fun v => .ok (0x22 :: v.1 ++ [0x22])
    unmarshal := fun b v => if b.head? = some 0x22 ∧ 2 ≤ b.length then (((b.drop 1).dropLast, v.2), none) else (v, some [0]) }
def ty (mar : Bool) : GoType Val :=
  { name := ascii "T", ptrMarshaler := mar, own := raw, json := quoted, zero := ([], none), setError := fun e v => (v.1, some e) }
def echo (mar : Bool) : GoMethod Val :=
  { name := ascii "Echo", nIn := 2, ctxOk := true, ctxPtrMarshaler := false, inT := ty mar, nOut := 1, outT := ty mar, outOk := true }
def impl (_ : Bytes) (v : Val) : Option Val := some (v.1 ++ v.1, none)
/-- The whole answer, in one piece. -/
def deliver (fr : DFW) : Option Frame :=
  if fr.wbuf.length < 2 ^ 32 then
    match readFrame { codec := none, maxFrameSize := 0 } ⟨[], [.data fr.wbuf]⟩ with
    | (.ok f, _) => some f
    | _ => none
  else none
def call (mar : Bool) (v : Val) : Val :=
  cliMethod (echo mar) (genNet none (fun _ => (none : Option Unit)) 5 (fun _ => []) 11 (srvTable [echo mar] impl) DFW.new 7 10 deliver []
    (ascii "Echo")) v
theorem deliver_delivers : Delivers deliver := by
  intro fr f h
  unfold deliver at h
  split at h
  · split at h
    · next f' s' hr =>
      cases h
      exact ⟨_, _, [], s', by simp [srcBytes, segBytes], by assumption, .inl (by simp), hr⟩
    · cases h
  · cases h
end GenEx

open GenEx in
/-- **C90 is false of the code**: types both of whose encodings give every value back, an echo service, a network that delivers; with JSON
the call returns the echo, with Marshaler types it returns the JSON text as the value. -/
theorem C90_refuted_marshaler : (∀ mar b, RoundTrips (ty mar).own (ty mar).zero (b, none) b) ∧
    (∀ mar b, RoundTrips (ty mar).json (ty mar).zero (b, none) (0x22 :: b ++ [0x22])) ∧ Delivers deliver ∧
    impl (ascii "Echo") ([1, 2], none) = some ([1, 2, 1, 2], none) ∧
    call false ([1, 2], none) = ([1, 2, 1, 2], none) ∧ call true ([1, 2], none) = ([0x22, 1, 2, 1, 2, 0x22], none) := by
  refine ⟨fun _ _ => ⟨rfl, rfl⟩, fun mar b => ⟨rfl, ?_⟩, deliver_delivers, rfl, by decide +kernel, by decide +kernel⟩
  simp [ty, quoted]

/-- The generator accepts this service, refuses it twice, and cannot print it as a sub service; "get_user" and "GetUser" are one name. -/
example : (((Gen.new (ascii "my_svc")).registerAll [(none, [GenEx.echo true])]).map fun g => (g.serviceName, g.outputs fun _ => [])) =
      some (ascii "MySvc", true) ∧
    ((Gen.new (ascii "svc")).registerAll [(none, [GenEx.echo true]), (none, [GenEx.echo true])]).isNone = true ∧
    ((Gen.new (ascii "svc")).registerAll [(none, [GenEx.echo true]), (some (ascii "sub"), [GenEx.echo true])]).map
      (fun g => (g.services.map (·.1), g.outputs fun _ => [])) = some ([[], ascii "Sub"], false) ∧
    ((Gen.new (ascii "svc")).registerAll [(some (ascii "get_user"), [GenEx.echo true]), (some (ascii "GetUser"), [GenEx.echo true])]).isNone = true ∧
    camelCase (ascii "_get_user_2x__y") = ascii "XGetUser_2X_Y" := by
  decide +kernel

/-- Hypotheses of C90_partial and C90_errors. -/
example : DFW.new.Clean ∧ (∀ m ∈ [GenEx.echo false], (0x3a : UInt8) ∉ m.name) ∧ ([GenEx.echo false].map (·.name)).Nodup ∧
    (Spec.encode ⟨[], ascii "Echo", [0x22, 1, 2, 0x22], []⟩).length < 2 ^ 63 := by
  refine ⟨?_, by decide, by decide, by decide +kernel⟩
  constructor <;> decide

end Qrpc
