import Verif.Props.Pb
/-!
# C145: decoding the concatenation of two encodings

A message decoded from the concatenation of two encodings is the message obtained by decoding the second one into the message
decoded from the first (the rule of the protocol-buffer encoding by which messages are merged and unknown fields are carried).
-/
namespace Qrpc

/-- m.Unmarshal(d) (codegen/pb/rpc.pb.go:171-310) on a message that may already have contents. -/
def RpcReq.unmarshal (stack : Nat) (m : RpcReq) (d : Bytes) : PbRes RpcReq := pbLoop stack d.length d.length m 0 d

theorem pbVarint_append (b d : Bytes) : ∀ (shift : Nat) (acc v : UInt64) (d' : Bytes), pbVarint d shift acc = .ok (v, d') →
    pbVarint (d ++ b) shift acc = .ok (v, d' ++ b) ∧ d'.length < d.length := by
  induction d with
  | nil => intro shift acc v d' h; rw [pbVarint] at h; split at h <;> simp at h
  | cons x d ih =>
    intro shift acc v d' h
    rw [pbVarint] at h
    rw [List.cons_append, pbVarint]
    split at h
    · simp at h
    · rename_i hs
      rw [if_neg hs]
      simp only at h ⊢
      split at h
      · rename_i hx
        simp only [PbRes.ok.injEq, Prod.mk.injEq] at h
        obtain ⟨rfl, rfl⟩ := h
        simp [hx]
      · rename_i hx
        rw [if_neg hx]
        have := ih _ _ _ _ h
        exact ⟨this.1, by simp; omega⟩

theorem pbVarint_suffix (d : Bytes) : ∀ (shift : Nat) (acc v : UInt64) (d' : Bytes), pbVarint d shift acc = .ok (v, d') → d' <:+ d := by
  induction d with
  | nil => intro shift acc v d' h; rw [pbVarint] at h; split at h <;> simp at h
  | cons x d ih =>
    intro shift acc v d' h
    rw [pbVarint] at h
    split at h
    · simp at h
    · simp only at h
      split at h
      · simp only [PbRes.ok.injEq, Prod.mk.injEq] at h
        obtain ⟨rfl, rfl⟩ := h
        exact List.suffix_cons _ _
      · exact (ih _ _ _ _ h).trans (List.suffix_cons _ _)

theorem pbBytes_suffix {l pos p : Nat} {d c r : Bytes} (h : pbBytes l pos d = .ok (c, p, r)) : r <:+ d := by
  unfold pbBytes at h
  cases hv : pbVarint d 0 0 with
  | err e => simp [hv] at h
  | panic => simp [hv] at h
  | fatal => simp [hv] at h
  | ok q =>
    obtain ⟨v, d'⟩ := q
    rw [hv] at h
    simp only at h
    split at h
    · simp at h
    split at h
    · simp at h
    split at h
    · simp at h
    simp only [PbRes.ok.injEq, Prod.mk.injEq] at h
    rw [← h.2.2]
    exact (List.drop_suffix _ _).trans (pbVarint_suffix d _ _ _ _ hv)

theorem pbSkipVarint_append (b d : Bytes) : ∀ (shift : Nat) (d' : Bytes), pbSkipVarint d shift = .ok d' →
    pbSkipVarint (d ++ b) shift = .ok (d' ++ b) ∧ d'.length < d.length := by
  induction d with
  | nil => intro shift d' h; rw [pbSkipVarint] at h; split at h <;> simp at h
  | cons x d ih =>
    intro shift d' h
    rw [pbSkipVarint] at h
    rw [List.cons_append, pbSkipVarint]
    split at h
    · simp at h
    · rename_i hs
      rw [if_neg hs]
      split at h
      · rename_i hx
        simp only [PbRes.ok.injEq] at h
        subst h
        simp [hx]
      · rename_i hx
        rw [if_neg hx]
        have := ih _ _ h
        exact ⟨this.1, by simp; omega⟩

theorem wrap64_range (x : Int) (h0 : 0 ≤ x) (h1 : x < 2 ^ 64) :
    (wrap64 x = x ∧ x < 2 ^ 63) ∨ (wrap64 x = x - 2 ^ 64 ∧ 2 ^ 63 ≤ x) := by
  unfold wrap64; rw [Int.bmod_def]; omega

theorem wrap64_neg (x : Int) (h0 : -2 ^ 63 ≤ x) (h1 : x < 0) : wrap64 x = x := by
  unfold wrap64; rw [Int.bmod_def]; omega

/-- What skipRpc can return for `d`: an index, or a negative number after an overflow. -/
def SkipRange (d : Bytes) (n : Int) : Prop := (0 < n ∧ n < 2 ^ 63) ∨ (-2 ^ 63 ≤ n ∧ n < d.length - 2 ^ 63)

theorem pbGroup_append (b : Bytes) {skip skip' : Bytes → PbRes Int} (l : Nat) (hl : l < 2 ^ 62)
    (hskip : ∀ d n, d.length ≤ l → skip d = .ok n → skip' (d ++ b) = .ok n ∧ SkipRange d n) :
    ∀ (fuel fuel' pos : Nat) (d : Bytes) (n : Int), fuel ≤ fuel' → pos + d.length = l → pbGroup skip l fuel pos d = .ok n →
      pbGroup skip' (l + b.length) fuel' pos (d ++ b) = .ok n ∧ pos ≤ n ∧ n ≤ l := by
  intro fuel
  induction fuel with
  | zero => intro fuel' pos d n _ _ h; simp [pbGroup] at h
  | succ fuel ih =>
    intro fuel' pos d n hf hp h
    obtain ⟨fuel', rfl⟩ : ∃ k, fuel' = k + 1 := ⟨fuel' - 1, by omega⟩
    rw [pbGroup] at h
    rw [pbGroup]
    cases hv : pbVarint d 0 0 with
    | err e => simp [hv] at h
    | panic => simp [hv] at h
    | fatal => simp [hv] at h
    | ok p =>
      obtain ⟨w, d'⟩ := p
      obtain ⟨hv', hlt⟩ := pbVarint_append b d _ _ _ _ hv
      rw [hv] at h
      rw [hv']
      simp only at h ⊢
      split at h
      · rename_i hw
        rw [if_pos hw]
        simp only [PbRes.ok.injEq, List.length_append] at h ⊢
        omega
      · rename_i hw
        rw [if_neg hw]
        cases hs : skip d with
        | err e => simp [hs] at h
        | panic => simp [hs] at h
        | fatal => simp [hs] at h
        | ok next =>
          obtain ⟨hs', hr⟩ := hskip d next (by omega) hs
          rw [hs] at h
          rw [hs']
          simp only at h ⊢
          split at h
          · simp at h
          · rename_i hi
            split at h
            · simp at h
            · rename_i hi'
              have hge : (pos : Int) ≤ wrap64 (pos + next) := by
                rcases hr with ⟨h0, h1⟩ | ⟨h0, h1⟩
                · rcases wrap64_range (pos + next) (by omega) (by omega) with h2 | h2 <;> omega
                · have := wrap64_neg (pos + next) (by omega) (by omega); omega
              rw [if_neg hi, if_neg (by push_cast; omega)]
              have hk : (wrap64 (pos + next)).toNat - pos ≤ d.length := by omega
              rw [List.drop_append_of_le_length hk]
              have := ih fuel' _ _ n (by omega) (by rw [List.length_drop]; omega) h
              exact ⟨this.1, by omega, this.2.2⟩

theorem pbSkip_append (b : Bytes) (stack : Nat) : ∀ (d : Bytes) (n : Int), d.length < 2 ^ 62 → pbSkip stack d = .ok n →
    pbSkip stack (d ++ b) = .ok n ∧ SkipRange d n := by
  induction stack with
  | zero => intro d n _ h; simp [pbSkip] at h
  | succ stack ih =>
    intro d n hl h
    rw [pbSkip] at h
    rw [pbSkip]
    split at h
    · simp at h
    · rename_i h0
      rw [if_neg (by simp only [List.length_append]; omega)]
      cases hv : pbVarint d 0 0 with
      | err e => simp [hv] at h
      | panic => simp [hv] at h
      | fatal => simp [hv] at h
      | ok p =>
        obtain ⟨w, d'⟩ := p
        obtain ⟨hv', hlt⟩ := pbVarint_append b d _ _ _ _ hv
        rw [hv] at h
        rw [hv']
        have hpos : (d ++ b).length - (d' ++ b).length = d.length - d'.length := by simp only [List.length_append]; omega
        simp only [hpos] at h ⊢
        split at h
        · cases hs : pbSkipVarint d' 0 with
          | err e => simp [hs] at h
          | panic => simp [hs] at h
          | fatal => simp [hs] at h
          | ok d'' =>
            obtain ⟨hs', hlt'⟩ := pbSkipVarint_append b d' _ _ hs
            rw [hs] at h
            rw [hs']
            simp only [PbRes.ok.injEq, List.length_append] at h ⊢
            exact ⟨by omega, .inl (by omega)⟩
        · simp only [PbRes.ok.injEq] at h ⊢
          exact ⟨h, .inl (by omega)⟩
        · cases hs : pbVarint d' 0 0 with
          | err e => simp [hs] at h
          | panic => simp [hs] at h
          | fatal => simp [hs] at h
          | ok p =>
            obtain ⟨v, d''⟩ := p
            obtain ⟨hs', hlt'⟩ := pbVarint_append b d' _ _ _ _ hs
            have hpos' : (d ++ b).length - (d'' ++ b).length = d.length - d''.length := by simp only [List.length_append]; omega
            rw [hs] at h
            rw [hs']
            simp only [hpos'] at h ⊢
            split at h
            · simp at h
            · rename_i hn
              rw [if_neg hn]
              refine ⟨h, ?_⟩
              simp only [PbRes.ok.injEq] at h
              have hv64 := Int64.toInt_lt v.toInt64
              rcases wrap64_range (((d.length - d''.length : Nat) : Int) + v.toInt64.toInt) (by omega) (by omega) with h2 | h2
              · exact .inl (by omega)
              · exact .inr (by omega)
        · have := pbGroup_append b (skip' := pbSkip stack) d.length hl (fun e n he hh => ih e n (by omega) hh) (d'.length + 1)
            ((d' ++ b).length + 1) (d.length - d'.length) d' n (by simp) (by omega) h
          rw [List.length_append (as := d)]
          exact ⟨this.1, .inl (by omega)⟩
        · simp only [PbRes.ok.injEq] at h ⊢
          exact ⟨h, .inl (by omega)⟩
        · simp only [PbRes.ok.injEq] at h ⊢
          exact ⟨h, .inl (by omega)⟩
        · simp at h

theorem pbBytes_append (k : Nat) (b : Bytes) {l pos p : Nat} {d c r : Bytes} (hl : k + l + b.length < 2 ^ 62) (hp : pos + d.length = l)
    (h : pbBytes l pos d = .ok (c, p, r)) :
    pbBytes (k + l + b.length) (k + pos) (d ++ b) = .ok (c, k + p, r ++ b) ∧ p + r.length = l ∧ r.length < d.length := by
  unfold pbBytes at h ⊢
  cases hv : pbVarint d 0 0 with
  | err e => simp [hv] at h
  | panic => simp [hv] at h
  | fatal => simp [hv] at h
  | ok q =>
    obtain ⟨v, d'⟩ := q
    obtain ⟨hv', hlt⟩ := pbVarint_append b d _ _ _ _ hv
    rw [hv] at h
    rw [hv']
    have hpos : (d ++ b).length - (d' ++ b).length = d.length - d'.length := by simp only [List.length_append]; omega
    simp only [hpos] at h ⊢
    split at h
    · simp at h
    · rename_i hn
      rw [if_neg hn]
      split at h
      · simp at h
      · rename_i h1
        split at h
        · simp at h
        · rename_i h2
          have hv64 := Int64.toInt_lt v.toInt64
          have e1 : wrap64 (((pos + (d.length - d'.length) : Nat) : Int) + v.toInt64.toInt)
              = ((pos + (d.length - d'.length) : Nat) : Int) + v.toInt64.toInt := by
            rcases wrap64_range (((pos + (d.length - d'.length) : Nat) : Int) + v.toInt64.toInt) (by omega) (by omega) with h3 | h3
            · exact h3.1
            · omega
          rw [e1] at h1 h2 h
          have e2 : wrap64 (((k + pos + (d.length - d'.length) : Nat) : Int) + v.toInt64.toInt)
              = ((k + pos + (d.length - d'.length) : Nat) : Int) + v.toInt64.toInt := by
            rcases wrap64_range (((k + pos + (d.length - d'.length) : Nat) : Int) + v.toInt64.toInt) (by omega) (by omega) with h3 | h3
            · exact h3.1
            · omega
          rw [e2, if_neg (by push_cast at *; omega), if_neg (by omega)]
          simp only [PbRes.ok.injEq, Prod.mk.injEq] at h ⊢
          obtain ⟨rfl, rfl, rfl⟩ := h
          have e3 : (((k + pos + (d.length - d'.length) : Nat) : Int) + v.toInt64.toInt).toNat - (k + pos + (d.length - d'.length))
              = (((pos + (d.length - d'.length) : Nat) : Int) + v.toInt64.toInt).toNat - (pos + (d.length - d'.length)) := by omega
          have hle : (((pos + (d.length - d'.length) : Nat) : Int) + v.toInt64.toInt).toNat - (pos + (d.length - d'.length))
              ≤ d'.length := by omega
          rw [e3, List.take_append_of_le_length hle, List.drop_append_of_le_length hle]
          refine ⟨⟨rfl, by omega, rfl⟩, ?_, ?_⟩
          · rw [List.length_drop]; omega
          · rw [List.length_drop]; omega

theorem pbLoop_append (stack k : Nat) (b : Bytes) (l : Nat) (hl : k + l + b.length < 2 ^ 62) : ∀ (fuel fuel' : Nat) (m m1 : RpcReq) (pos : Nat)
    (d : Bytes), d.length ≤ fuel → d.length ≤ fuel' → pos + d.length = l → pbLoop stack l fuel m pos d = .ok m1 →
    ∃ f, fuel' - d.length ≤ f ∧
      pbLoop stack (k + l + b.length) fuel' m (k + pos) (d ++ b) = pbLoop stack (k + l + b.length) f m1 (k + l) b := by
  intro fuel
  induction fuel with
  | zero =>
    intro fuel' m m1 pos d h0 _ hp h
    obtain rfl : d = [] := List.length_eq_zero_iff.mp (by omega)
    simp only [pbLoop, PbRes.ok.injEq] at h
    subst h
    simp only [List.length_nil, Nat.add_zero] at hp
    subst hp
    exact ⟨fuel', by omega, rfl⟩
  | succ fuel ih =>
    intro fuel' m m1 pos d h0 h0' hp h
    rw [pbLoop] at h
    split at h
    · obtain rfl : d = [] := List.length_eq_zero_iff.mp (by omega)
      simp only [PbRes.ok.injEq] at h
      subst h
      simp only [List.length_nil, Nat.add_zero] at hp
      subst hp
      exact ⟨fuel', by omega, rfl⟩
    · rename_i hlt
      obtain ⟨fuel', rfl⟩ : ∃ j, fuel' = j + 1 := ⟨fuel' - 1, by omega⟩
      rw [pbLoop, if_neg (by omega)]
      cases hv : pbVarint d 0 0 with
      | err e => simp [hv] at h
      | panic => simp [hv] at h
      | fatal => simp [hv] at h
      | ok q =>
        obtain ⟨w, d'⟩ := q
        obtain ⟨hv', hlt'⟩ := pbVarint_append b d _ _ _ _ hv
        rw [hv] at h
        rw [hv']
        have hpos : (d ++ b).length - (d' ++ b).length = d.length - d'.length := by simp only [List.length_append]; omega
        simp only [hpos] at h ⊢
        split at h
        · simp at h
        rename_i hw4
        rw [if_neg hw4]
        split at h
        · simp at h
        rename_i hf0
        rw [if_neg hf0]
        split at h
        · rename_i hf
          rw [if_pos hf]
          split at h
          · simp at h
          rename_i hw2
          rw [if_neg hw2]
          cases hb : pbBytes l (pos + (d.length - d'.length)) d' with
          | err e => simp [hb] at h
          | panic => simp [hb] at h
          | fatal => simp [hb] at h
          | ok q =>
            obtain ⟨c, p, r⟩ := q
            obtain ⟨hb', hpr, hr⟩ := pbBytes_append k b hl (by omega) hb
            rw [hb] at h
            rw [show k + pos + (d.length - d'.length) = k + (pos + (d.length - d'.length)) by omega, hb']
            obtain ⟨f, hf1, hf2⟩ := ih fuel' _ _ _ _ (by omega) (by omega) hpr h
            exact ⟨f, by omega, hf2⟩
        · rename_i hf
          rw [if_neg hf]
          cases hs : pbSkip stack d with
          | err e => simp [hs] at h
          | panic => simp [hs] at h
          | fatal => simp [hs] at h
          | ok n =>
            obtain ⟨hs', hr⟩ := pbSkip_append b stack d n (by omega) hs
            rw [hs] at h
            rw [hs']
            simp only at h ⊢
            split at h
            · simp at h
            rename_i hn
            rw [if_neg hn]
            split at h
            · simp at h
            rename_i h1
            split at h
            · simp at h
            rename_i h2
            have hn' : 0 < n ∧ n < 2 ^ 63 := by rcases hr with hr | hr <;> omega
            have e1 : wrap64 ((pos : Int) + n) = pos + n := by
              rcases wrap64_range ((pos : Int) + n) (by omega) (by omega) with h3 | h3 <;> omega
            rw [e1] at h1 h2 h
            have e2 : wrap64 (((k + pos : Nat) : Int) + n) = ((k + pos : Nat) : Int) + n := by
              rcases wrap64_range (((k + pos : Nat) : Int) + n) (by omega) (by omega) with h3 | h3 <;> omega
            rw [e2, if_neg (by push_cast at *; omega), if_neg (by omega)]
            have e3 : (((k + pos : Nat) : Int) + n).toNat - (k + pos) = ((pos : Int) + n).toNat - pos := by omega
            have hle : ((pos : Int) + n).toNat - pos ≤ d.length := by omega
            rw [e3, List.take_append_of_le_length hle, List.drop_append_of_le_length hle,
              show (((k + pos : Nat) : Int) + n).toNat = k + ((pos : Int) + n).toNat by omega]
            have hdl : (d.drop (((pos : Int) + n).toNat - pos)).length = d.length - (((pos : Int) + n).toNat - pos) := List.length_drop
            obtain ⟨f, hf1, hf2⟩ := ih fuel' _ _ _ _ (by omega) (by omega) (by omega) h
            exact ⟨f, by omega, hf2⟩

/-- **C145**: if `a` decodes into the message `m` giving `m1` and `b` decodes into `m1` giving `m2`, the concatenation decodes into
`m` giving `m2`. -/
theorem C145 (stack : Nat) {m m1 m2 : RpcReq} {a b : Bytes} (hl : a.length + b.length < 2 ^ 62)
    (ha : m.unmarshal stack a = .ok m1) (hb : m1.unmarshal stack b = .ok m2) : m.unmarshal stack (a ++ b) = .ok m2 := by
  unfold RpcReq.unmarshal at *
  obtain ⟨f, hf, h1⟩ := pbLoop_append stack 0 b a.length (by omega) a.length (a ++ b).length m m1 0 a (by omega)
    (by simp) (by omega) ha
  obtain ⟨g, hg, h2⟩ := pbLoop_append stack a.length [] b.length (by simpa using hl) b.length f m1 m2 0 b (by omega)
    (by simp only [List.length_append] at hf; omega) (by omega) hb
  simp only [Nat.zero_add, Nat.add_zero, List.append_nil, List.length_nil] at h1 h2
  rw [List.length_append] at h1 ⊢
  rw [h1, h2]
  cases g <;> simp [pbLoop]

/-- A request followed by any bytes that decode without one of its three fields is decoded as that request, with the added fields
kept aside: what a peer that knows more fields adds does not disturb the call. -/
theorem C145_unknown (stack : Nat) {r : RpcReq} {b : Bytes} {u : Bytes} (hu : r.unrec = [])
    (hl : (Spec.encode r).length + b.length < 2 ^ 62) (hb : r.unmarshal stack b = .ok { r with unrec := u }) :
    ∃ d, r.marshal = some d ∧ pbUnmarshal stack (d ++ b) = .ok { r with unrec := u } := by
  have hs : r.Small := by
    have hl' := hl
    simp only [Spec.encode, List.length_append] at hl'
    have key : ∀ tag c, c.length ≤ (Spec.optField tag c).length := by
      intro tag c
      rw [Spec.optField]
      split
      · next h => simp [h]
      · simp [Spec.field]; omega
    have k1 := key 0x0a r.ns
    have k2 := key 0x12 r.method
    have k3 := key 0x1a r.params
    exact ⟨by omega, by omega, by omega⟩
  obtain ⟨d, hd, hr⟩ := C53 stack hu (by omega)
  refine ⟨d, hd, C145 stack (m := .zero) ?_ hr hb⟩
  rw [RpcReq.marshal_eq hs] at hd
  cases hd
  exact hl

theorem pbLoop_kept (stack l : Nat) : ∀ (fuel : Nat) (m m1 : RpcReq) (pos : Nat) (d : Bytes), pbLoop stack l fuel m pos d = .ok m1 →
    ∃ u, m1.unrec = m.unrec ++ u ∧ u.Sublist d := by
  intro fuel
  induction fuel with
  | zero => intro m m1 pos d h; simp only [pbLoop, PbRes.ok.injEq] at h; subst h; exact ⟨[], by simp, List.nil_sublist _⟩
  | succ fuel ih =>
    intro m m1 pos d h
    rw [pbLoop] at h
    split at h
    · simp only [PbRes.ok.injEq] at h; subst h; exact ⟨[], by simp, List.nil_sublist _⟩
    cases hv : pbVarint d 0 0 with
    | err e => simp [hv] at h
    | panic => simp [hv] at h
    | fatal => simp [hv] at h
    | ok q =>
      obtain ⟨w, d'⟩ := q
      have hd' : d'.Sublist d := (pbVarint_suffix d _ _ _ _ hv).sublist
      rw [hv] at h
      simp only at h
      split at h
      · simp at h
      split at h
      · simp at h
      split at h
      · split at h
        · simp at h
        cases hb : pbBytes l (pos + (d.length - d'.length)) d' with
        | err e => simp [hb] at h
        | panic => simp [hb] at h
        | fatal => simp [hb] at h
        | ok q =>
          obtain ⟨c, p, r⟩ := q
          rw [hb] at h
          obtain ⟨u, h1, h2⟩ := ih _ _ _ _ h
          refine ⟨u, ?_, h2.trans ((pbBytes_suffix hb).sublist.trans hd')⟩
          rw [h1]
          split
          · rfl
          · split <;> rfl
      · cases hs : pbSkip stack d with
        | err e => simp [hs] at h
        | panic => simp [hs] at h
        | fatal => simp [hs] at h
        | ok n =>
          rw [hs] at h
          simp only at h
          split at h
          · simp at h
          split at h
          · simp at h
          split at h
          · simp at h
          obtain ⟨u, h1, h2⟩ := ih _ _ _ _ h
          refine ⟨_, by rw [h1, List.append_assoc], ?_⟩
          conv => rhs; rw [← List.take_append_drop ((wrap64 (pos + n)).toNat - pos) d]
          exact List.Sublist.append (List.Sublist.refl _) h2

/-- Decoding into a message drops none of the unknown fields it holds, and adds only bytes of the input. -/
theorem C145_kept (stack : Nat) {m m1 : RpcReq} {a : Bytes} (h : m.unmarshal stack a = .ok m1) :
    ∃ u, m1.unrec = m.unrec ++ u ∧ u.Sublist a := pbLoop_kept _ _ _ _ _ _ _ h

/-- The hypothesis about the first part is needed: a first part cut short takes its missing bytes from the second one. -/
theorem C145_cut : (∃ e, RpcReq.zero.unmarshal 10 [0x0a, 2, 97] = .err e) ∧
    RpcReq.zero.unmarshal 10 ([0x0a, 2, 97] ++ [0x12, 0x0a, 1, 98]) = .ok { RpcReq.zero with ns := [98] } := by
  exact ⟨⟨.eof, by decide +kernel⟩, by decide +kernel⟩

/-- Name space "a", then an unknown field 4 and the name space again: the last one counts, the unknown field is kept. -/
example : RpcReq.zero.unmarshal 10 ([0x0a, 1, 97, 0x12, 1, 120] ++ [0x20, 5, 0x0a, 1, 98])
    = .ok { ns := [98], method := [120], params := [], unrec := [0x20, 5] } :=
  C145 10 (m1 := { ns := [97], method := [120], params := [], unrec := [] }) (by decide) (by decide +kernel) (by decide +kernel)

example : ∃ u : Bytes, ([9, 0x20, 5] : Bytes) = [9] ++ u ∧ u.Sublist [0x20, 5, 0x0a, 1, 98] :=
  C145_kept 10 (m := { ns := [97], method := [], params := [], unrec := [9] }) (m1 := { ns := [98], method := [], params := [], unrec := [9, 0x20, 5] })
    (by decide +kernel)

/-- An unknown group (field 4) after a request. -/
example : ∃ d, RpcReq.marshal { ns := [97], method := [120], params := [1], unrec := [] } = some d ∧
    pbUnmarshal 10 (d ++ [0x23, 0x28, 1, 0x24]) = .ok { ns := [97], method := [120], params := [1], unrec := [0x23, 0x28, 1, 0x24] } :=
  C145_unknown 10 (r := { ns := [97], method := [120], params := [1], unrec := [] }) rfl (by decide +kernel) (by decide +kernel)

end Qrpc
