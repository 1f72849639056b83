import Verif.Model.EndToEnd
import Verif.Props.Client
/-! Invariants of a client connection with its peer. -/
namespace Qrpc

/-- P: frames with a client's id belong to a request submitted before. -/
structure EInvP (s : CSt) : Prop where
  own : ∀ (i : Nat) (f : CFrame), (s.pc i).own = some f → f.push = false → f.rid % 2 ≠ 0 →
    f.resp = true ∨ ∃ f' ∈ s.frames, f'.resp = true ∧ f'.rid = f.rid
  fr : ∀ (t : Nat) (f : CFrame), s.frames[t]? = some f → f.push = false → f.rid % 2 ≠ 0 →
    ∃ (t0 : Nat) (f0 : CFrame), t0 ≤ t ∧ s.frames[t0]? = some f0 ∧ f0.resp = true ∧ f0.rid = f.rid

theorem EInvP.init (d : Bool) : EInvP (CSt.init d) := by
  constructor <;> simp [CSt.init, CPc.own]

set_option maxHeartbeats 4000000 in
theorem EInvP.step {c s a s'} (ha : a.proper s.frames = true ∨ ∃ f, a = .rFrame f) (h : EInvP s) (hs : cStep c s a = some s') : EInvP s' := by
  obtain ⟨h1, h2⟩ := h
  have hpro : ∀ i f, a = .send i f → f.rid % 2 = 0 ∨ ∃ f' ∈ s.frames, f'.resp = true ∧ f'.rid = f.rid := by
    rintro i f rfl
    rcases ha with ha | ⟨f, hf⟩
    · simpa [CAct.proper] using ha
    · cases hf
  clear ha
  have hap : ∀ i f g, s.pc i = .enq f g → ∀ (t : Nat) (f' : CFrame), (s.frames ++ [f])[t]? = some f' → f'.push = false → f'.rid % 2 ≠ 0 →
      ∃ (t0 : Nat) (f0 : CFrame), t0 ≤ t ∧ (s.frames ++ [f])[t0]? = some f0 ∧ f0.resp = true ∧ f0.rid = f'.rid := by
    intro i f g hi t f' ht hp hr
    by_cases hlt : t < s.frames.length
    · rw [List.getElem?_append_left hlt] at ht
      obtain ⟨t0, f0, e1, e2, e3⟩ := h2 t f' ht hp hr
      exact ⟨t0, f0, e1, by rw [List.getElem?_append_left (by omega)]; exact e2, e3⟩
    · have e : t = s.frames.length := by
        have := (List.getElem?_eq_some_iff.1 ht).1
        simp at this; omega
      subst e
      simp at ht
      subst ht
      rcases h1 i f (by simp [hi, CPc.own]) hp hr with h | ⟨f', hm, h⟩
      · exact ⟨_, f, Nat.le_refl _, by simp, h, rfl⟩
      · obtain ⟨t0, ht0, e⟩ := List.mem_iff_getElem.1 hm
        refine ⟨t0, f', Nat.le_of_lt ht0, ?_, h.1, h.2⟩
        rw [List.getElem?_append_left ht0, List.getElem?_eq_getElem ht0, e]
  cstep_cases hs a
  all_goals constructor
  all_goals try first
    | assumption
    | exact hap _ _ _ (by assumption)
    | grind [setAt, CPc.own]

/-- G: an unanswered response object belongs to a frame of the current transport connection. -/
structure EInvG (s : CSt) : Prop where
  cur : ∀ t ∈ s.regd, s.revs t = [] → t ∈ s.outs s.gen ∨ (s.wr = .write ∧ t ∈ s.batch)
  out : ∀ g, ∀ t ∈ s.outs g, (cframeOf s.frames t).resp = true → t ∈ s.regd
  rst : ∀ t f, REv.frame f ∈ s.revs t → f.rst = false

theorem EInvG.init (d : Bool) : EInvG (CSt.init d) := by
  constructor <;> simp [CSt.init]

set_option maxHeartbeats 4000000 in
theorem EInvG.step {c s a s'} (hi : CInv c s) (hW : CInvW s) (h : EInvG s) (hs : cStep c s a = some s') : EInvG s' := by
  obtain ⟨h1, h2, h3⟩ := h
  have hL := hi.l.noConn
  have hI := hi.l.idle
  have hC := hi.c.noConn
  have hR := hi.c.regd
  have hB := hi.d.batch
  have hlt : ∀ g, ∀ t ∈ s.outs g, t < s.frames.length := fun g t ht => Nat.lt_of_lt_of_le (hW.lt g t ht) hi.a.deq
  have hgr : ∀ f g, ∀ t ∈ s.outs g, cframeOf (s.frames ++ [f]) t = cframeOf s.frames t := fun f g t ht => cframeOf_append f (hlt g t ht)
  have hset : ∀ u e t, setAt s.revs u (s.revs u ++ [e]) t = [] → s.revs t = [] := by
    intro u e t h
    unfold setAt at h
    split at h <;> simp_all
  have hcl : ∀ (l : List Nat) e t, (if t ∈ l then s.revs t ++ [e] else s.revs t) = [] → s.revs t = [] := by
    intro l e t h
    split at h <;> simp_all
  clear hi hW
  cstep_cases hs a
  all_goals constructor
  all_goals try simp only []
  all_goals try first
    | assumption
    | grind [setAt, CLp.connected, CLp.running]
    | exact fun t ht he => h1 t ht (hset _ _ _ he)
    | exact fun t ht he => h1 t ht (hcl _ _ _ he)

/-- Frame `(f, n)` of the server, read by the client, is the first one on connection `g` that answers frame `t`, which the server
had read. -/
def Answers (s : CSt) (down : Nat → List (InFrame × Nat)) (read : Nat → Nat) (g t : Nat) (f : InFrame) (n : Nat) : Prop :=
  ∃ pre post, down g = pre ++ (f, n) :: post ∧ pre.length < read g ∧ f.push = false ∧ f.rid = (cframeOf s.frames t).rid ∧ t ∈ (s.outs g).take n ∧
    ∀ p ∈ pre, p.1.push = false → p.1.rid ≠ f.rid

def CRd.looking : CRd → Nat
  | .lookup _ => 1
  | _ => 0

/-- E: what the server sends and what becomes of it. -/
structure EInv (e : ESt) : Prop where
  srvLe : ∀ g, e.srv g ≤ (e.c.outs g).length
  sent : ∀ g f n, (f, n) ∈ e.down g → n ≤ (e.c.outs g).length ∧
    (f.push = true ∨ f.rid % 2 = 0 ∨ ∃ t ∈ (e.c.outs g).take n, (cframeOf e.c.frames t).push = false ∧ (cframeOf e.c.frames t).rid = f.rid)
  readLe : ∀ g, e.read g ≤ (e.down g).length
  future : ∀ g, e.c.gen < g → e.read g = 0
  look : ∀ f, e.c.rd = .lookup f → f.push = false ∧ ∃ k n, e.read e.c.gen = k + 1 ∧ (e.down e.c.gen)[k]? = some (f, n)
  hand : ∀ t f, e.c.rd = .deliver t f → ∃ n, Answers e.c e.down e.read e.c.gen t f n
  ans : ∀ t f, REv.frame f ∈ e.c.revs t → ∃ g n, Answers e.c e.down e.read g t f n
  lost : ∀ p ∈ (e.down e.c.gen).take (e.read e.c.gen - e.c.rd.looking), p.1.push = false → ∀ t ∈ e.c.outs e.c.gen,
    (cframeOf e.c.frames t).resp = true → (cframeOf e.c.frames t).rid = p.1.rid → e.c.revs t ≠ [] ∨ ∃ f, e.c.rd = .deliver t f
  clos : e.c.rwc = true → ∀ t, (t ∈ e.c.outs e.c.gen ∨ (e.c.wr = .write ∧ t ∈ e.c.batch)) → REv.closed ∈ e.c.revs t →
    ∃ f n, f.rst = true ∧ Answers e.c e.down e.read e.c.gen t f n

theorem EInv.init (d : Bool) : EInv (ESt.init d) := by
  constructor <;> simp [ESt.init, CSt.init]

/-- A request with the id of an answer was read by the server before the answer. -/
theorem sent_request {c : CConf} {e : ESt} (hi : CInv c e.c) (hW : CInvW e.c) (hP : EInvP e.c) (h : EInv e)
    (hr : e.c.ridGen < 2 ^ 63) {g n t : Nat} {f : InFrame} (hf : (f, n) ∈ e.down g) (hp : f.push = false) (ht : t < e.c.frames.length)
    (hresp : (cframeOf e.c.frames t).resp = true) (hid : (cframeOf e.c.frames t).rid = f.rid) :
    ∃ t' ∈ (e.c.outs g).take n, t ≤ t' := by
  have hcf : ∀ t (h : t < e.c.frames.length), cframeOf e.c.frames t = e.c.frames[t] := fun t h => by
    simp [cframeOf, List.getD, List.getElem?_eq_getElem h]
  rw [hcf t ht] at hresp hid
  obtain ⟨g', -, -, hg'⟩ := hi.i.inFrames _ (List.getElem_mem ht) hresp
  have hodd : f.rid % 2 ≠ 0 := by
    rw [← hid, hg']
    rw [(C20_parity g' 0).1]
    decide
  obtain ⟨-, h | h | ⟨t', ht', hp', hid'⟩⟩ := h.sent g f n hf
  · simp [hp] at h
  · exact absurd h hodd
  · have hlt' : t' < e.c.frames.length := Nat.lt_of_lt_of_le (hW.lt g t' (List.mem_of_mem_take ht')) hi.a.deq
    rw [hcf t' hlt'] at hp' hid'
    obtain ⟨t0, f0, h0, h1, h2, h3⟩ := hP.fr t' _ (List.getElem?_eq_getElem hlt') hp' (by rw [hid']; exact hodd)
    obtain ⟨hlt0, rfl⟩ := List.getElem?_eq_some_iff.1 h1
    refine ⟨t', ht', ?_⟩
    suffices t = t0 by omega
    apply Classical.byContradiction
    intro hne
    have hpw := List.pairwise_iff_getElem.1 (hi.i.framesInj hr)
    rcases Nat.lt_or_gt_of_ne hne with hlt | hlt
    · exact hpw t t0 ht hlt0 hlt hresp h2 (by rw [hid, h3, hid'])
    · exact hpw t0 t hlt0 ht hlt h2 hresp (by rw [hid, h3, hid'])

/-- What only grows. -/
theorem cgrow {c : CConf} {s s' : CSt} {a : CAct} (hs : cStep c s a = some s') :
    s.frames <+: s'.frames ∧ (∀ g, s.outs g <+: s'.outs g) ∧ s.gen ≤ s'.gen ∧ s.ridGen ≤ s'.ridGen := by
  cstep_cases hs a
  all_goals try simp only []
  all_goals refine ⟨?_, ?_, ?_, ?_⟩
  all_goals try first
    | exact List.prefix_refl _
    | exact fun _ => List.prefix_refl _
    | exact Nat.le_refl _
    | exact Nat.le_succ _
    | exact List.prefix_append _ _
  intro g
  unfold setAt
  split
  · subst g; exact List.prefix_append _ _
  · exact List.prefix_refl _

theorem take_of_prefix {α : Type} {l l' : List α} {n : Nat} (h : l <+: l') (hn : n ≤ l.length) : l'.take n = l.take n := by
  obtain ⟨x, rfl⟩ := h
  rw [List.take_append_of_le_length hn]

theorem cframeOf_prefix {l l' : List CFrame} {t : Nat} (h : l <+: l') (ht : t < l.length) : cframeOf l' t = cframeOf l t := by
  obtain ⟨x, rfl⟩ := h
  simp [cframeOf, List.getElem?_append_left ht, List.getD]

theorem Answers.mono {s s' : CSt} {down : Nat → List (InFrame × Nat)} {read : Nat → Nat} {g t n : Nat} {f : InFrame} (hf : s.frames <+: s'.frames)
    (ho : ∀ g, s.outs g <+: s'.outs g) (hlt : ∀ g, ∀ t ∈ s.outs g, t < s.frames.length)
    (h : Answers s down read g t f n) : Answers s' down read g t f n := by
  obtain ⟨pre, post, h1, h0, h2, h3, h4, h5⟩ := h
  refine ⟨pre, post, h1, h0, h2, ?_, ?_, h5⟩
  · rw [cframeOf_prefix hf (hlt g t (List.mem_of_mem_take h4))]; exact h3
  · obtain ⟨x, hx⟩ := ho g
    rw [← hx, List.take_append]
    exact List.mem_append_left _ h4

theorem Answers.down {s : CSt} {down down' : Nat → List (InFrame × Nat)} {read : Nat → Nat} {g t n : Nat} {f : InFrame}
    (hd : ∀ g, down g <+: down' g) (h : Answers s down read g t f n) : Answers s down' read g t f n := by
  obtain ⟨pre, post, h1, h2⟩ := h
  obtain ⟨x, hx⟩ := hd g
  exact ⟨pre, post ++ x, by rw [← hx, h1]; simp, h2⟩

/-- A response object that is being given its answer: the answer is the first one. -/
theorem answers_of_found {c : CConf} {e : ESt} (hi : CInv c e.c) (hW : CInvW e.c) (hP : EInvP e.c) (hG : EInvG e.c) (h : EInv e)
    (hr : e.c.ridGen < 2 ^ 63) {f : InFrame} (hl : e.c.rd = .lookup f) {p : UInt64 × Nat}
    (hp : e.c.respes.find? (fun p => p.1 == f.rid) = some p) : ∃ n, Answers e.c e.down e.read e.c.gen p.2 f n := by
  have hm := List.mem_of_find?_eq_some hp
  have hid : p.1 = f.rid := by simpa using List.find?_some hp
  obtain ⟨hreg, hpid, hrev⟩ := hi.c.mem p hm
  obtain ⟨hlt, hresp⟩ := hi.c.regdLt _ hreg
  have hid' : (cframeOf e.c.frames p.2).rid = f.rid := by rw [← hpid, hid]
  obtain ⟨hpush, k, n, hk, hkf⟩ := h.look f hl
  obtain ⟨hkl, hkf⟩ := List.getElem?_eq_some_iff.1 hkf
  have hmem : (f, n) ∈ e.down e.c.gen := hkf ▸ List.getElem_mem hkl
  have hlen := Nat.lt_of_lt_of_le hlt hi.a.deq
  obtain ⟨t', ht', hle⟩ := sent_request hi hW hP h hr hmem hpush hlen hresp hid'
  have hn := (h.sent _ _ _ hmem).1
  have hout : p.2 ∈ e.c.outs e.c.gen := by
    rcases hG.cur _ hreg hrev with h1 | ⟨-, h1⟩
    · exact h1
    · have := hW.above _ t' (List.mem_of_mem_take ht') _ h1
      omega
  have htake : p.2 ∈ (e.c.outs e.c.gen).take n := by
    rw [← List.take_append_drop n (e.c.outs e.c.gen)] at hout
    rcases List.mem_append.1 hout with h1 | h1
    · exact h1
    · have hs := hW.sorted e.c.gen
      rw [← List.take_append_drop n (e.c.outs e.c.gen), List.pairwise_append] at hs
      have := hs.2.2 t' ht' _ h1
      omega
  refine ⟨n, (e.down e.c.gen).take k, (e.down e.c.gen).drop (k + 1), ?_, by simp; omega, hpush, hid'.symm, htake, ?_⟩
  · rw [← hkf, List.getElem_cons_drop, List.take_append_drop]
  · intro q hq hqp hqr
    have hls : e.read e.c.gen - e.c.rd.looking = k := by simp [hk, hl, CRd.looking]
    rcases h.lost q (by rw [hls]; exact hq) hqp p.2 hout hresp (by rw [hid', hqr]) with h1 | ⟨f', h1⟩
    · exact h1 hrev
    · rw [hl] at h1; cases h1

/-- An answer whose request is not outstanding any more: it was answered before or the connection was given up. -/
theorem answered_of_not_found {c : CConf} {e : ESt} (hi : CInv c e.c) (hG : EInvG e.c)
    {f : InFrame} (hl : e.c.rd = .lookup f) (hp : e.c.respes.find? (fun p => p.1 == f.rid) = none) {t : Nat}
    (ht : t ∈ e.c.outs e.c.gen) (hresp : (cframeOf e.c.frames t).resp = true) (hid : (cframeOf e.c.frames t).rid = f.rid) :
    e.c.revs t ≠ [] := by
  rcases hi.c.regd t (hG.out _ t ht hresp) with h1 | h1 | ⟨f', h1⟩
  · rw [List.find?_eq_none] at hp
    have := hp _ h1
    simp [hid] at this
  · exact h1
  · rw [hl] at h1; cases h1

theorem EInv.hand_step {c : CConf} {e : ESt} {a : CAct} {s' : CSt} (hi : CInv c e.c) (hW : CInvW e.c) (hP : EInvP e.c) (hG : EInvG e.c)
    (h : EInv e) (hr : e.c.ridGen < 2 ^ 63) (hs : cStep c e.c a = some s') (t : Nat) (f : InFrame) (hd : s'.rd = .deliver t f) :
    ∃ n, Answers e.c e.down e.read e.c.gen t f n ∧ s'.gen = e.c.gen := by
  have hf := fun f hl p hp => answers_of_found (f := f) hi hW hP hG h hr hl (p := p) hp
  have hh := h.hand
  have hidle := hi.l.idle
  clear hi hW hP hG h
  obtain ⟨s, srv, down, read⟩ := e
  simp only [] at *
  cstep_cases hs a
  all_goals try simp only [] at hd
  all_goals try first
    | exact (hh t f hd).imp fun n h1 => ⟨h1, rfl⟩
    | contradiction
    | grind [CLp.running]

theorem EInv.ans_step {c : CConf} {e : ESt} {a : CAct} {s' : CSt} (h : EInv e) (hs : cStep c e.c a = some s') (t : Nat) (f : InFrame)
    (hd : REv.frame f ∈ s'.revs t) : ∃ g n, Answers e.c e.down e.read g t f n := by
  have ha := h.ans
  have hh := h.hand
  clear h
  obtain ⟨s, srv, down, read⟩ := e
  simp only [] at *
  cstep_cases hs a
  all_goals try simp only [] at hd
  all_goals try first
    | exact ha t f hd
    | grind [setAt]

set_option maxHeartbeats 1000000 in
theorem EInv.clos_step {c : CConf} {e : ESt} {a : CAct} {s' : CSt} (hi : CInv c e.c) (hW : CInvW e.c) (h : EInv e)
    (hs : cStep c e.c a = some s') (hr : s'.rwc = true) (t : Nat) (ht : t ∈ s'.outs s'.gen ∨ (s'.wr = .write ∧ t ∈ s'.batch))
    (hd : REv.closed ∈ s'.revs t) : s'.gen = e.c.gen ∧ ∃ f n, f.rst = true ∧ Answers e.c e.down e.read e.c.gen t f n := by
  have ha := h.clos
  have hh := h.hand
  have hfut := hW.future
  have hidle := hi.l.idle
  have hfr := hi.c.fresh
  have hrv := hi.c.revs
  clear h hW hi
  obtain ⟨s, srv, down, read⟩ := e
  simp only [] at *
  cstep_cases hs a
  all_goals try simp only [] at hd ht hr
  all_goals try first
    | exact ⟨rfl, ha hr t ht hd⟩
    | grind [setAt, CWr.preReg, CLp.running]

theorem rd_trans {c : CConf} {s s' : CSt} {a : CAct} (ha : ∀ f, a ≠ .rFrame f) (hidle : s.loop.running = false → s.rd = .off)
    (hs : cStep c s a = some s') :
    s'.rd = s.rd ∨ (s.rd.looking = 0 ∧ s'.rd.looking = 0 ∧ ∀ t f, s.rd = .deliver t f → s'.revs t ≠ []) ∨
    ∃ f, s.rd = .lookup f ∧ s'.rd.looking = 0 ∧ (s.respes.find? (fun p => p.1 == f.rid) = none ∨
      ∃ q, s.respes.find? (fun p => p.1 == f.rid) = some q ∧ s'.rd = .deliver q.2 f) := by
  cstep_cases hs a
  all_goals try first
    | (left; rfl)
    | exact absurd rfl (ha _)
    | grind [CRd.looking, setAt, CLp.running]
    | (right; left; refine ⟨by simp [*, CRd.looking], rfl, ?_⟩; intro t f hd; simp_all [setAt])

theorem revs_mono {c : CConf} {s s' : CSt} {a : CAct} (hs : cStep c s a = some s') (t : Nat) (h : s.revs t ≠ []) : s'.revs t ≠ [] := by
  cstep_cases hs a
  all_goals try first
    | exact h
    | (simp only [setAt]; split <;> simp_all; done)

theorem outs_trans {c : CConf} {s s' : CSt} {a : CAct} (hs : cStep c s a = some s') (t : Nat) (h : t ∈ s'.outs s.gen) :
    t ∈ s.outs s.gen ∨ t ∈ s.batch := by
  cstep_cases hs a
  all_goals try first
    | exact .inl h
    | grind [setAt]

theorem look_trans {c : CConf} {s s' : CSt} {a : CAct} (ha : ∀ f, a ≠ .rFrame f) (hidle : s.loop.running = false → s.rd = .off)
    (hs : cStep c s a = some s') (f : InFrame) (h : s'.rd = .lookup f) : s.rd = .lookup f ∧ s'.gen = s.gen := by
  cstep_cases hs a
  all_goals try first
    | exact ⟨h, rfl⟩
    | exact absurd rfl (ha _)
    | contradiction
    | grind [CLp.running]

theorem EInv.cl_step {c : CConf} {e : ESt} {a : CAct} {s' : CSt} (ha : ∀ f, a ≠ .rFrame f) (hi : CInv c e.c) (hW : CInvW e.c)
    (hP : EInvP e.c) (hG : EInvG e.c) (h : EInv e) (hr : e.c.ridGen < 2 ^ 63) (hs : cStep c e.c a = some s') :
    EInv { e with c := s' } := by
  obtain ⟨hf, ho, hg, -⟩ := cgrow hs
  have hlt : ∀ g, ∀ t ∈ e.c.outs g, t < e.c.frames.length := fun g t ht => Nat.lt_of_lt_of_le (hW.lt g t ht) hi.a.deq
  have hrd : e.c.loop.running = false → e.c.rd = .off := fun h => (hi.l.idle h).1
  constructor <;> simp only []
  · intro g
    exact Nat.le_trans (h.srvLe g) (ho g).length_le
  · intro g f n hm
    obtain ⟨h1, h2⟩ := h.sent g f n hm
    refine ⟨Nat.le_trans h1 (ho g).length_le, ?_⟩
    rw [take_of_prefix (ho g) h1]
    refine h2.imp_right fun h2 => h2.imp_right ?_
    rintro ⟨t, ht, h3⟩
    exact ⟨t, ht, by rw [cframeOf_prefix hf (hlt g t (List.mem_of_mem_take ht))]; exact h3⟩
  · exact h.readLe
  · intro g hgt; exact h.future g (by omega)
  · intro f hl
    obtain ⟨h1, h2⟩ := look_trans ha hrd hs f hl
    rw [h2]; exact h.look f h1
  · intro t f hd
    obtain ⟨n, h1, h2⟩ := h.hand_step hi hW hP hG hr hs t f hd
    exact ⟨n, h2 ▸ h1.mono hf ho hlt⟩
  · intro t f hd
    obtain ⟨g, n, h1⟩ := h.ans_step hs t f hd
    exact ⟨g, n, h1.mono hf ho hlt⟩
  · intro p hp hpush t ht hresp hid
    by_cases hgen : s'.gen = e.c.gen
    · rw [hgen] at hp ht
      have hpd := List.mem_of_mem_take hp
      have ht' : t ∈ e.c.outs e.c.gen := by
        rcases outs_trans hs t ht with h1 | h1
        · exact h1
        · have hl := Nat.lt_of_lt_of_le (hi.a.batchLt t h1) hi.a.deq
          rw [cframeOf_prefix hf hl] at hresp hid
          obtain ⟨t', h2, h3⟩ := sent_request hi hW hP h hr (n := p.2) (f := p.1) hpd hpush hl hresp hid
          have := hW.above _ t' (List.mem_of_mem_take h2) t h1
          omega
      rw [cframeOf_prefix hf (hlt _ t ht')] at hresp hid
      rcases rd_trans ha hrd hs with h1 | ⟨h1, h2, h3⟩ | ⟨f, h1, h2, h3⟩
      · rw [h1] at hp ⊢
        exact (h.lost p hp hpush t ht' hresp hid).imp_left (revs_mono hs t)
      · rw [h2] at hp
        rcases h.lost p (by rw [h1]; exact hp) hpush t ht' hresp hid with h4 | ⟨f, h4⟩
        · exact .inl (revs_mono hs t h4)
        · exact .inl (h3 t f h4)
      · obtain ⟨-, k, n, hk, hkf⟩ := h.look f h1
        rw [h2, hk, Nat.sub_zero, List.take_add_one, hkf] at hp
        simp only [Option.toList_some, List.mem_append, List.mem_singleton] at hp
        rcases hp with hp | rfl
        · rcases h.lost p (by rw [h1, hk]; simpa [CRd.looking] using hp) hpush t ht' hresp hid with h4 | ⟨f', h4⟩
          · exact .inl (revs_mono hs t h4)
          · rw [h1] at h4; cases h4
        · rcases h3 with h3 | ⟨q, h3, h4⟩
          · exact .inl (revs_mono hs t (answered_of_not_found hi hG h1 h3 ht' hresp hid))
          · right
            refine ⟨f, ?_⟩
            rw [h4]
            obtain ⟨m1, m2, -⟩ := hi.c.mem q (List.mem_of_find?_eq_some h3)
            obtain ⟨m3, m4⟩ := hi.c.regdLt _ m1
            have hqid : q.1 = f.rid := by simpa using List.find?_some h3
            have hq := Nat.lt_of_lt_of_le m3 hi.a.deq
            have hcf : ∀ t (h : t < e.c.frames.length), cframeOf e.c.frames t = e.c.frames[t] := fun t h => by
              simp [cframeOf, List.getD, List.getElem?_eq_getElem h]
            have htl := hlt _ t ht'
            rw [hcf _ hq] at m2 m4
            rw [hcf _ htl] at hresp hid
            have hpw := List.pairwise_iff_getElem.1 (hi.i.framesInj hr)
            have : q.2 = t := by
              apply Classical.byContradiction
              intro hne
              rcases Nat.lt_or_gt_of_ne hne with hl | hl
              · exact hpw _ _ hq htl hl m4 hresp (by rw [hid, ← m2, hqid])
              · exact hpw _ _ htl hq hl hresp m4 (by rw [hid, ← m2, hqid])
            rw [this]
    · rw [h.future s'.gen (by omega)] at hp
      simp at hp
  · intro hrw t ht hd
    obtain ⟨h1, f, n, h2, h3⟩ := h.clos_step hi hW hs hrw t ht hd
    exact ⟨f, n, h2, by rw [h1]; exact h3.mono hf ho hlt⟩

theorem rFrame_trans {c : CConf} {s s' : CSt} {f : InFrame} (hs : cStep c s (.rFrame f) = some s') :
    s.rd = .read ∧ s'.frames = s.frames ∧ s'.outs = s.outs ∧ s'.gen = s.gen ∧ s'.revs = s.revs ∧ s'.ridGen = s.ridGen ∧
      s'.rwc = s.rwc ∧ s'.wr = s.wr ∧ s'.batch = s.batch ∧ (if f.push then s'.rd = .read else s'.rd = .lookup f) := by
  simp only [cStep] at hs
  repeat' split at hs
  all_goals simp at hs
  all_goals subst hs
  all_goals simp_all

theorem EInv.recv_step {c : CConf} {e : ESt} {s' : CSt} {f : InFrame} {n : Nat} (h : EInv e)
    (hf : (e.down e.c.gen)[e.read e.c.gen]? = some (f, n)) (hs : cStep c e.c (.rFrame f) = some s') :
    EInv { e with c := s', read := setAt e.read e.c.gen (e.read e.c.gen + 1) } := by
  obtain ⟨r1, r2, r3, r4, r5, -, r8, r9, r10, r7⟩ := rFrame_trans hs
  have hA : ∀ g t f n, Answers e.c e.down e.read g t f n →
      Answers s' e.down (setAt e.read e.c.gen (e.read e.c.gen + 1)) g t f n := by
    rintro g t f n ⟨pre, post, h1, h2, h3⟩
    refine ⟨pre, post, h1, ?_, by rw [r2, r3]; exact h3⟩
    unfold setAt
    split
    · subst g; omega
    · exact h2
  obtain ⟨hlt, hfe⟩ := List.getElem?_eq_some_iff.1 hf
  have hnd : ∀ t f, s'.rd ≠ .deliver t f := by
    intro t f' h1
    split at r7 <;> simp [r7] at h1
  constructor <;> simp only [r2, r3, r4, r5, r8, r9, r10]
  · exact h.srvLe
  · exact h.sent
  · intro g
    unfold setAt
    split
    · subst g; omega
    · exact h.readLe g
  · intro g hg
    unfold setAt
    rw [if_neg (by omega)]; exact h.future g hg
  · intro f' hl
    split at r7
    · rw [hl] at r7; cases r7
    · rw [hl] at r7
      cases r7
      refine ⟨by simp_all, e.read e.c.gen, n, by simp [setAt], hf⟩
  · intro t f' h1; exact absurd h1 (hnd t f')
  · intro t f' h1
    obtain ⟨g, n, h2⟩ := h.ans t f' h1
    exact ⟨g, n, hA _ _ _ _ h2⟩
  · intro p hp hpush t ht hresp hid
    have hp' : p ∈ (e.down e.c.gen).take (e.read e.c.gen) := by
      simp only [setAt, if_true] at hp
      split at r7
      · next hpu =>
        rw [r7] at hp
        simp only [CRd.looking, Nat.sub_zero, List.take_add_one, hf, Option.toList_some, List.mem_append, List.mem_singleton] at hp
        rcases hp with hp | rfl
        · exact hp
        · rw [hpu] at hpush; cases hpush
      · rw [r7] at hp
        simpa [CRd.looking] using hp
    rcases h.lost p (by rw [r1]; exact hp') hpush t ht hresp hid with h1 | ⟨f', h1⟩
    · exact .inl h1
    · rw [r1] at h1; cases h1
  · intro hrw t ht hd
    obtain ⟨f', n', h1, h2⟩ := h.clos hrw t ht hd
    exact ⟨f', n', h1, hA _ _ _ _ h2⟩

theorem EInv.sRead_step {e : ESt} {g : Nat} (h : EInv e) (hlt : e.srv g < (e.c.outs g).length) :
    EInv { e with srv := setAt e.srv g (e.srv g + 1) } := by
  obtain ⟨h1, h2, h3, h4, h5, h6, h7, h8, h9⟩ := h
  refine ⟨?_, h2, h3, h4, h5, h6, h7, h8, h9⟩
  intro g'
  simp only [setAt]
  split
  · subst g'; omega
  · exact h1 g'

theorem EInv.sSend_step {e : ESt} {g : Nat} {f : InFrame} (h : EInv e)
    (ha : answers e.c.frames ((e.c.outs g).take (e.srv g)) f = true) :
    EInv { e with down := setAt e.down g (e.down g ++ [(f, e.srv g)]) } := by
  have hpre : ∀ g', e.down g' <+: setAt e.down g (e.down g ++ [(f, e.srv g)]) g' := by
    intro g'
    unfold setAt
    split
    · subst g'; exact List.prefix_append _ _
    · exact List.prefix_refl _
  obtain ⟨h1, h2, h3, h4, h5, h6, h7, h8, h9⟩ := h
  constructor <;> simp only []
  · exact h1
  · intro g' f' n hm
    by_cases hg : g' = g
    · subst hg
      simp only [setAt, if_true, List.mem_append, List.mem_singleton] at hm
      rcases hm with hm | hm
      · exact h2 _ _ _ hm
      · cases hm
        refine ⟨h1 _, ?_⟩
        simp only [answers, Bool.or_eq_true, beq_iff_eq, List.any_eq_true, Bool.and_eq_true, Bool.not_eq_true'] at ha
        rcases ha with (ha | ha) | ⟨t, ha⟩
        · exact .inl ha
        · exact .inr (.inl ha)
        · exact .inr (.inr ⟨t, ha⟩)
    · simp only [setAt, hg, if_false] at hm
      exact h2 _ _ _ hm
  · intro g'; exact Nat.le_trans (h3 g') (hpre g').length_le
  · exact h4
  · intro f' hl
    obtain ⟨e1, k, n, e2, e3⟩ := h5 f' hl
    refine ⟨e1, k, n, e2, ?_⟩
    obtain ⟨x, hx⟩ := hpre e.c.gen
    rw [← hx, List.getElem?_append_left (List.getElem?_eq_some_iff.1 e3).1]
    exact e3
  · intro t f' hd
    exact (h6 t f' hd).imp fun n h => h.down hpre
  · intro t f' hd
    obtain ⟨g', n, h⟩ := h7 t f' hd
    exact ⟨g', n, h.down hpre⟩
  · intro p hp
    refine h8 p ?_
    rwa [take_of_prefix (hpre _) (Nat.le_trans (Nat.sub_le _ _) (h3 _))] at hp
  · intro hrw t ht hd
    obtain ⟨f', n', e1, e2⟩ := h9 hrw t ht hd
    exact ⟨f', n', e1, e2.down hpre⟩

structure EAll (c : CConf) (e : ESt) : Prop where
  i : CInv c e.c
  w : CInvW e.c
  p : EInvP e.c
  g : EInvG e.c
  e : e.c.ridGen < 2 ^ 63 → EInv e

theorem EAll.init (c : CConf) (d : Bool) : EAll c (ESt.init d) :=
  ⟨CInv.init c d, CInvW.init d, EInvP.init d, EInvG.init d, fun _ => EInv.init d⟩

theorem EAll.step {c : CConf} {e e' : ESt} {a : EAct} (h : EAll c e) (hs : eStep c e a = some e') : EAll c e' := by
  cases a with
  | cl a =>
    simp only [eStep] at hs
    split at hs
    · next ha =>
      cases hc : cStep c e.c a with
      | none => simp [hc] at hs
      | some s' =>
        simp only [hc, Option.map_some, Option.some.injEq] at hs
        subst hs
        have hne : ∀ f, a ≠ .rFrame f := by rintro f rfl; simp [CAct.proper] at ha
        refine ⟨h.i.step hc, h.w.step h.i.a h.i.l hc, h.p.step (.inl ha) hc, h.g.step h.i h.w hc, fun hr => ?_⟩
        have hr' : e.c.ridGen < 2 ^ 63 := Nat.lt_of_le_of_lt (cgrow hc).2.2.2 hr
        exact (h.e hr').cl_step hne h.i h.w h.p h.g hr' hc
    · simp at hs
  | sRead g =>
    simp only [eStep] at hs
    split at hs
    · next hg =>
      simp only [Option.some.injEq] at hs
      subst hs
      exact ⟨h.i, h.w, h.p, h.g, fun hr => (h.e hr).sRead_step hg.1⟩
    · simp at hs
  | sSend g f =>
    simp only [eStep] at hs
    split at hs
    · next hg =>
      simp only [Option.some.injEq] at hs
      subst hs
      exact ⟨h.i, h.w, h.p, h.g, fun hr => (h.e hr).sSend_step hg⟩
    · simp at hs
  | recv =>
    simp only [eStep] at hs
    split at hs
    · next p hp =>
      cases hc : cStep c e.c (.rFrame p.1) with
      | none => simp [hc] at hs
      | some s' =>
        simp only [hc, Option.map_some, Option.some.injEq] at hs
        subst hs
        refine ⟨h.i.step hc, h.w.step h.i.a h.i.l hc, h.p.step (.inr ⟨_, rfl⟩) hc, h.g.step h.i h.w hc, fun hr => ?_⟩
        exact (h.e (Nat.lt_of_le_of_lt (cgrow hc).2.2.2 hr)).recv_step (n := p.2) hp hc
    · simp at hs

theorem EAll.reach {c : CConf} {d : Bool} {acts : List EAct} {e : ESt} (h : eRun c d acts = some e) : EAll c e :=
  runActs_inv (P := EAll c) (fun _ _ _ hp hs => hp.step hs) (EAll.init c d) h

end Qrpc
