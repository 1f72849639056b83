import Verif.Model.Panic
import Verif.Props.Stream
/-! # Property C103: a panic stays on its connection -/
namespace Qrpc

/-- Calls whose panic nothing recovers: subscriber, and the metrics of a non-blocking request (they are called by the very function that
recovers from the handler's panic). -/
def Spec.FrIn.exposed : FrIn → Prop
  | .push sub => sub = true
  | .nonBlocking _ metric => metric = true
  | _ => False

def Spec.ConnIn.exposed (c : ConnIn) : Prop :=
  c.endMetric = true ∨ c.onClose = true ∨ true ∈ c.notify ∨
    ∃ x ∈ c.frames, x.1 = true ∨ x.2.1 = true ∨ Spec.FrIn.exposed x.2.2

def Spec.AcceptIn.exposed : AcceptIn → Prop
  | .refused oa oc => oa = true ∨ oc = true
  | .served oa c _ => oa = true ∨ Spec.ConnIn.exposed c

/-- The metrics of blocking requests do not panic. -/
def Spec.metricsFine : AcceptIn → Prop
  | .refused _ _ => True
  | .served _ c _ => ∀ x ∈ c.frames, ∀ h, x.2.2 ≠ .blocking h true

theorem Gp.all_escapes (gs : List Gp) : (Gp.all gs).escapes = gs.any Gp.escapes := by
  induction gs with
  | nil => rfl
  | cons g gs ih => simp [Gp.all, Gp.escapes, ih]

/-- The process survives a sequence in which no part crashes; it does not survive one in which a part crashes. -/
theorem Gp.all_crashes (gs : List Gp) : (Gp.all gs).crashes = gs.any Gp.crashes := by
  induction gs with
  | nil => rfl
  | cons g gs ih =>
    simp only [Gp.crashes, Gp.all, Gp.escapes, Gp.kills, List.any_cons] at ih ⊢
    rw [← ih]
    cases g.escapes <;> cases g.kills <;> simp

/-- A sequence whose parts let no panic out: its goroutines are those of its parts. -/
theorem Gp.all_kills {gs : List Gp} (h : ∀ g ∈ gs, g.escapes = false) : (Gp.all gs).kills = gs.any Gp.kills := by
  induction gs with
  | nil => rfl
  | cons g gs ih =>
    simp [Gp.all, Gp.kills, ih (fun x hx => h x (List.mem_cons_of_mem _ hx)), h g (List.mem_cons_self ..)]

theorem Gp.all_kills_le {gs : List Gp} (h : (Gp.all gs).kills = true) : ∃ g ∈ gs, g.kills = true := by
  induction gs with
  | nil => cases h
  | cons g gs ih =>
    simp only [Gp.all, Gp.kills, Bool.or_eq_true, Bool.and_eq_true] at h
    rcases h with h | ⟨_, h⟩
    · exact ⟨g, List.mem_cons_self .., h⟩
    · obtain ⟨x, hx, h⟩ := ih h
      exact ⟨x, List.mem_cons_of_mem _ hx, h⟩

theorem crashes_seq (a b : Gp) : (Gp.seq a b).crashes = (a.crashes || b.crashes) := by
  simp only [Gp.crashes, Gp.escapes, Gp.kills]
  cases a.escapes <;> cases a.kills <;> simp

theorem crashes_ensure (a b : Gp) : (Gp.ensure a b).crashes = (a.crashes || b.crashes) := by
  simp only [Gp.crashes, Gp.escapes, Gp.kills]
  cases a.escapes <;> cases a.kills <;> cases b.escapes <;> simp

theorem crashes_guard (a b : Gp) : (Gp.guard a b).crashes = (a.kills || b.crashes) := by
  simp only [Gp.crashes, Gp.escapes, Gp.kills]
  cases a.kills <;> cases b.escapes <;> simp

theorem crashes_go (g : Gp) : (Gp.go g).crashes = g.crashes := by simp [Gp.crashes, Gp.escapes, Gp.kills]
theorem crashes_call (p : Bool) : (Gp.call p).crashes = p := by simp [Gp.crashes, Gp.escapes, Gp.kills]
theorem crashes_nop : Gp.nop.crashes = false := rfl

theorem crashes_calls (bs : List Bool) : (Gp.all (bs.map .call)).crashes = true ↔ true ∈ bs := by
  rw [Gp.all_crashes, List.any_map, List.any_eq_true]
  constructor
  · rintro ⟨b, hb, h⟩
    have : b = true := (crashes_call b).symm.trans h
    exact this ▸ hb
  · exact fun h => ⟨true, h, rfl⟩

theorem srvReader_crashes (c : ConnIn) (here : Bool) : (srvReader c here).crashes = true ↔
    c.endMetric = true ∨ (here = true ∧ true ∈ c.notify) ∨ ∃ x ∈ c.frames, x.1 = true ∨ x.2.1 = true ∨ x.2.2 = .push true := by
  simp only [srvReader, crashes_ensure, crashes_seq, crashes_call, Bool.or_eq_true, Gp.all_crashes, List.any_map, List.any_eq_true,
    Function.comp]
  constructor
  · rintro ((⟨x, hx, h⟩ | h) | h)
    · refine .inr (.inr ⟨x, hx, ?_⟩)
      rcases h with h | h | h
      · exact .inl h
      · exact .inr (.inl h)
      · obtain ⟨d, r, f⟩ := x
        cases f <;> simp_all [crashes_call, crashes_nop]
    · cases here
      · cases h
      · exact .inr (.inl ⟨rfl, (crashes_calls _).1 h⟩)
    · exact .inl h
  · rintro (h | ⟨rfl, h⟩ | ⟨x, hx, h⟩)
    · exact .inr h
    · exact .inl (.inr ((crashes_calls _).2 h))
    · refine .inl (.inl ⟨x, hx, ?_⟩)
      rcases h with h | h | h
      · exact .inl h
      · exact .inr (.inl h)
      · obtain ⟨d, r, f⟩ := x
        subst h
        simp [crashes_call]

theorem srvDispatch_kills (f : FrIn) : (srvDispatch f).kills = true ↔ ∃ h, f = .nonBlocking h true := by
  cases f <;> simp [srvDispatch, Gp.kills, Gp.escapes]

theorem srvDispatch_escapes (f : FrIn) : (srvDispatch f).escapes = true ↔ ∃ h, f = .blocking h true := by
  cases f <;> simp [srvDispatch, Gp.escapes]

theorem srvConn_crashes (c : ConnIn) (here : Bool) : (srvConn c here).crashes = true ↔
    (srvReader c here).crashes = true ∨ (Gp.all (c.frames.map fun (_, _, f) => srvDispatch f)).kills = true ∨
      (here = false ∧ true ∈ c.notify) ∨ c.onClose = true := by
  simp only [srvConn, crashes_guard, crashes_seq, crashes_call, Bool.or_eq_true, Gp.kills, Gp.escapes]
  have : ((if here = true then Gp.nop else Gp.all (c.notify.map .call)).crashes = true) ↔ here = false ∧ true ∈ c.notify := by
    cases here
    · simpa using crashes_calls c.notify
    · simp [crashes_nop]
  rw [this]
  simp [Gp.crashes, or_assoc]

/-- **C103 (partial), server.** Whatever handlers do (including blocking ones whose metrics panic), on any number of connections: if
none of the calls listed in `exposed` panics, the process goes on. -/
theorem C103_partial (ins : List AcceptIn) (h : ∀ a ∈ ins, ¬ Spec.AcceptIn.exposed a) : (srvServe ins).crashes = false := by
  cases hc : (srvServe ins).crashes with
  | false => rfl
  | true =>
    simp only [srvServe, Gp.all_crashes, List.any_map, List.any_eq_true, Function.comp] at hc
    obtain ⟨a, ha, hc⟩ := hc
    refine absurd ?_ (h a ha)
    cases a with
    | refused oa oc => simpa [Spec.AcceptIn.exposed, crashes_seq, crashes_call] using hc
    | served oa c here =>
      simp only [crashes_seq, crashes_call, crashes_go, Bool.or_eq_true] at hc
      rcases hc with hc | hc
      · exact .inl hc
      · refine .inr ?_
        rcases (srvConn_crashes c here).1 hc with hc | hc | ⟨_, hc⟩ | hc
        · rcases (srvReader_crashes c here).1 hc with hc | ⟨_, hc⟩ | ⟨x, hx, hc⟩
          · exact .inl hc
          · exact .inr (.inr (.inl hc))
          · refine .inr (.inr (.inr ⟨x, hx, ?_⟩))
            rcases hc with hc | hc | hc
            · exact .inl hc
            · exact .inr (.inl hc)
            · exact .inr (.inr (by rw [hc]; rfl))
        · obtain ⟨g, hg, hk⟩ := Gp.all_kills_le hc
          obtain ⟨x, hx, rfl⟩ := List.mem_map.1 hg
          obtain ⟨b, hf⟩ := (srvDispatch_kills x.2.2).1 hk
          exact .inr (.inr (.inr ⟨x, hx, .inr (.inr (by rw [hf]; rfl))⟩))
        · exact .inr (.inr (.inl hc))
        · exact .inr (.inl hc)

/-- **C103 is false of the code**: a panic in any of the calls listed in `exposed` ends the whole process, whatever else goes on in
this and all other connections (as long as the metrics of blocking requests do not panic, which would end the connection before). -/
theorem C103_refuted (ins : List AcceptIn) (hm : ∀ a ∈ ins, Spec.metricsFine a) (h : ∃ a ∈ ins, Spec.AcceptIn.exposed a) :
    (srvServe ins).crashes = true := by
  obtain ⟨a, ha, h⟩ := h
  simp only [srvServe, Gp.all_crashes, List.any_map, List.any_eq_true, Function.comp]
  refine ⟨a, ha, ?_⟩
  have hm := hm a ha
  cases a with
  | refused oa oc => simpa [Spec.AcceptIn.exposed, crashes_seq, crashes_call] using h
  | served oa c here =>
    simp only [crashes_seq, crashes_call, crashes_go, Bool.or_eq_true]
    rcases h with h | h
    · exact .inl h
    · refine .inr ((srvConn_crashes c here).2 ?_)
      rcases h with h | h | h | ⟨x, hx, h⟩
      · exact .inl ((srvReader_crashes c here).2 (.inl h))
      · exact .inr (.inr (.inr h))
      · cases here with
        | true => exact .inl ((srvReader_crashes c true).2 (.inr (.inl ⟨rfl, h⟩)))
        | false => exact .inr (.inr (.inl ⟨rfl, h⟩))
      · have rd : (x.1 = true ∨ x.2.1 = true ∨ x.2.2 = .push true) → (srvReader c here).crashes = true :=
          fun h => (srvReader_crashes c here).2 (.inr (.inr ⟨x, hx, h⟩))
        rcases h with h | h | h
        · exact .inl (rd (.inl h))
        · exact .inl (rd (.inr (.inl h)))
        · cases hf : x.2.2 with
          | push sub => rw [hf] at h; cases h; exact .inl (rd (.inr (.inr hf)))
          | answer => rw [hf] at h; cases h
          | blocking a b => rw [hf] at h; cases h
          | nonBlocking a b =>
            rw [hf] at h
            cases h
            refine .inr (.inl ?_)
            rw [Gp.all_kills, List.any_map, List.any_eq_true]
            · exact ⟨x, hx, (srvDispatch_kills _).2 ⟨a, hf⟩⟩
            · intro g hg
              obtain ⟨y, hy, rfl⟩ := List.mem_map.1 hg
              cases he : (srvDispatch y.2.2).escapes with
              | false => rfl
              | true =>
                obtain ⟨b, hb⟩ := (srvDispatch_escapes _).1 he
                exact absurd hb (hm y hy b)

/-- The reader of a connection panics after these events on its streams. -/
def Spec.readPanics (acts : List SAct) : Bool := match sRun SSt.init acts with
  | some s => decide (s.r = .panicked)
  | none => false

/-- **C103, from outside**: one peer that answers a request of the server after having reset it (C13) brings down the server with
all its connections. -/
theorem C103_refuted_remote : ∃ acts, Spec.readPanics acts = true ∧
    ∀ (ins : List AcceptIn) (oa : Bool) (c : ConnIn) (here : Bool) (f : FrIn), (∀ a ∈ ins, Spec.metricsFine a) →
      .served oa c here ∈ ins → (false, Spec.readPanics acts, f) ∈ c.frames → (srvServe ins).crashes = true := by
  refine ⟨panicActs, by rfl, fun ins oa c here f hm hi hf => ?_⟩
  refine C103_refuted ins hm ⟨_, hi, .inr (.inr (.inr (.inr ⟨_, hf, .inr (.inl ?_)⟩)))⟩
  rfl

/-- **C103, client.** The program that uses a connection ends exactly if OnConnect, OnDisconnect, the subscriber, the codec or the reader
panics; handlers never end it. -/
theorem C103_client (rounds : List (Bool × Bool × List (Bool × Bool × FrIn))) : (cliLoop rounds).crashes = true ↔
    ∃ r ∈ rounds, r.1 = true ∨ r.2.1 = true ∨ ∃ x ∈ r.2.2, x.1 = true ∨ x.2.1 = true ∨ x.2.2 = .push true := by
  simp only [cliLoop, Gp.all_crashes, List.any_map, List.any_eq_true, Function.comp, crashes_seq, crashes_go, crashes_call, cliReader,
    crashes_ensure, crashes_nop, Bool.or_eq_true, Bool.or_false]
  have key : ∀ f : FrIn, ((cliDispatch f).crashes = true) ↔ f = .push true := by
    intro f
    cases f <;> simp [cliDispatch, crashes_call, crashes_nop, crashes_go, crashes_guard, Gp.kills]
  simp only [key]
  constructor
  · rintro ⟨r, hr, h | h | h⟩
    · exact ⟨r, hr, .inr (.inr h)⟩
    · exact ⟨r, hr, .inl h⟩
    · exact ⟨r, hr, .inr (.inl h)⟩
  · rintro ⟨r, hr, h | h | h⟩
    · exact ⟨r, hr, .inr (.inl h)⟩
    · exact ⟨r, hr, .inr (.inr h)⟩
    · exact ⟨r, hr, .inl h⟩

/-- Two connections; panicking handlers of both kinds, one with panicking metrics; nothing exposed panics. -/
def exPanics : List AcceptIn :=
  [.served false ⟨[(false, false, .blocking true true), (false, false, .nonBlocking true false), (false, false, .push false)], false,
      [false, false], false⟩ true,
   .refused false false,
   .served false ⟨[(false, false, .nonBlocking true false)], false, [], false⟩ false]

example : ∀ a ∈ exPanics, ¬ Spec.AcceptIn.exposed a := by
  simp [exPanics, Spec.AcceptIn.exposed, Spec.ConnIn.exposed, Spec.FrIn.exposed]

example : (srvServe exPanics).crashes = false := by rfl

/-- A third connection whose subscriber panics: all three are gone. -/
example : (srvServe (exPanics ++ [.served false ⟨[(false, false, .push true)], false, [], false⟩ true])).crashes = true := by rfl

end Qrpc
