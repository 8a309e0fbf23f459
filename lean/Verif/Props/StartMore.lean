import Verif.Props.StartRuns
/-
C74: references, phases and documented values of the components; C76: starting with the results.
-/
namespace Tespy
variable {K : Type} [Field K] [LinearOrder K]

/-! ### C74: references -/

/-- a property established by one step and kept by the others, if all end without exception -/
theorem pyForEach_est2 {S α : Type} (f : α → PyStep S) (P Q : S → Prop) (l : List α) (a : α) (ha : a ∈ l)
    (hQ : ∀ b ∈ l, ∀ s, Q s → Q (f b s).1)
    (hest : ∀ s, Q s → (f a s).2 = none → P (f a s).1)
    (hk : ∀ b ∈ l, b ≠ a → ∀ s, Q s → P s → P (f b s).1) (s : S) (hs : Q s)
    (hok : (PyStep.forEach f l s).2 = none) : P (PyStep.forEach f l s).1 := by
  have main : ∀ (l' : List α), (∀ b ∈ l', b ∈ l) → ∀ s, Q s → (PyStep.forEach f l' s).2 = none →
      (P s ∨ a ∈ l') → P (PyStep.forEach f l' s).1 := by
    intro l'
    induction l' with
    | nil =>
      rintro _ s _ _ (h | h)
      · exact h
      · cases h
    | cons b l' ih =>
      intro hsub s hs hok h
      obtain ⟨h1, h2, h3⟩ := pyAndThen_ok hok
      have h4 : (PyStep.forEach f (b :: l') s).1 = (PyStep.forEach f l' (f b s).1).1 := h3
      rw [h4]
      refine ih (fun d hd => hsub d (by simp [hd])) _ (hQ b (hsub b (by simp)) s hs) h2 ?_
      by_cases hb : b = a
      · subst hb
        exact Or.inl (hest s hs h1)
      · rcases h with h | h
        · exact Or.inl (hk b (hsub b (by simp)) hb s hs h)
        · rcases List.mem_cons.mp h with h | h
          · exact absurd h.symm hb
          · exact Or.inr h
  exact main l (fun _ h => h) s hs hok (Or.inr ha)

/-- containers of kind `k` -/
theorem startRef_other (c : StartConn K) (k k' : PropKind) (hk : k' ≠ k) (i : ℕ) (s : StartState K) :
    (startRef c k' s).1.box k i = s.box k i := by
  simp only [startRef]
  cases c.ref k' with
  | none => rfl
  | some r =>
    simp only
    split
    · rfl
    · rw [StartState.putSI, put_box, if_neg (fun h => hk h.1.symm)]

theorem startRef_noerr (c : StartConn K) (k : PropKind) (s : StartState K) : (startRef c k s).2 = none := by
  simp only [startRef]
  cases c.ref k with
  | none => rfl
  | some r => simp only; split <;> rfl

theorem startRef_good (c : StartConn K) (k : PropKind) (s : StartState K) : (startRef c k s).1.good = s.good := by
  simp only [startRef]
  cases c.ref k with
  | none => rfl
  | some r => simp only; split <;> rfl

theorem startRefs_good (c : StartConn K) (s : StartState K) :
    (PyStep.forEach (startRef c) [.m, .p, .h] s).1.good = s.good :=
  pyForEach_keep (startRef c) (fun s1 => s1.good = s.good) _ (fun k _ s1 h => (startRef_good c k s1).trans h) s rfl

theorem startRefs_noerr (c : StartConn K) (s : StartState K) : (PyStep.forEach (startRef c) [.m, .p, .h] s).2 = none := by
  simp only [PyStep.forEach, PyStep.andThen]
  rcases h1 : startRef c .m s with ⟨s1, _ | e⟩
  · simp only
    rcases h2 : startRef c .p s1 with ⟨s2, _ | e⟩
    · simp only
      rcases h3 : startRef c .h s2 with ⟨s3, _ | e⟩
      · rfl
      · have := startRef_noerr c .h s2; rw [h3] at this; cases this
    · have := startRef_noerr c .p s1; rw [h2] at this; cases this
  · have := startRef_noerr c .m s; rw [h1] at this; cases this

/-- the second loop of a connection without good starting values: references, then the rest -/
theorem startSecond_split (E : StartEnv K) (c : StartConn K) (s : StartState K) (hg : s.good c.id = false) :
    (startSecond E c s).1 =
      (startSecond E { c with ref := fun _ => none } (PyStep.forEach (startRef c) [.m, .p, .h] s).1).1 := by
  have hg' : (PyStep.forEach (startRef c) [.m, .p, .h] s).1.good c.id = false := by rw [startRefs_good]; exact hg
  have hn := startRefs_noerr c s
  simp only [startSecond, hg, hg', Bool.false_eq_true, if_false]
  generalize hr : PyStep.forEach (startRef c) [.m, .p, .h] s = r at hn hg'
  obtain ⟨s1, _ | e⟩ := r
  · simp only [PyStep.andThen, hr]
    rfl
  · cases hn

/-- flags of all containers and `good_starting_values` are kept -/
def FlagsKept (s s' : StartState K) : Prop :=
  s'.good = s.good ∧ ∀ k i, (s'.box k i).isSet = (s.box k i).isSet ∧ (s'.box k i).isVar = (s.box k i).isVar

theorem flagsKept_refl (s : StartState K) : FlagsKept s s := ⟨rfl, fun _ _ => ⟨rfl, rfl⟩⟩

theorem flagsKept_trans (a b c : StartState K) (h1 : FlagsKept a b) (h2 : FlagsKept b c) : FlagsKept a c :=
  ⟨h2.1.trans h1.1, fun k i => ⟨((h2.2 k i).1).trans (h1.2 k i).1, ((h2.2 k i).2).trans (h1.2 k i).2⟩⟩

theorem flagsKept_put (s : StartState K) (k : PropKind) (i : ℕ) (b : StartBox K) (h1 : b.isSet = (s.box k i).isSet)
    (h2 : b.isVar = (s.box k i).isVar) : FlagsKept s (s.put k i b) := by
  refine ⟨rfl, fun k' i' => ?_⟩
  rw [put_box]
  split
  · next h => obtain ⟨rfl, rfl⟩ := h; exact ⟨h1, h2⟩
  · exact ⟨rfl, rfl⟩

theorem startTry_flags (c : StartConn K) (r : PyRes K) (s : StartState K) : FlagsKept s (startTry c r s).1 := by
  unfold startTry
  split
  · exact flagsKept_put s _ _ _ rfl rfl
  · exact flagsKept_refl s
  · exact flagsKept_refl s

theorem startSecond_flags (E : StartEnv K) (c : StartConn K) (s : StartState K) : FlagsKept s (startSecond E c s).1 := by
  simp only [startSecond]
  refine PyStep.Rel.andThen (R := FlagsKept) flagsKept_trans ?_ ?_ s
  · split
    · exact flagsKept_refl
    · refine PyStep.Rel.andThen (R := FlagsKept) flagsKept_trans
        (PyStep.Rel.forEach (R := FlagsKept) flagsKept_refl flagsKept_trans _ _ ?_) ?_
      · intro k _ s
        simp only [startRef]
        cases c.ref k with
        | none => exact flagsKept_refl s
        | some r =>
          simp only
          split
          · exact flagsKept_refl s
          · exact flagsKept_put s _ _ _ rfl rfl
      · intro s
        simp only [startPrecalc]
        split
        · refine PyStep.Rel.andThen (R := FlagsKept) flagsKept_trans ?_ ?_ s
          · intro s
            unfold startX
            split
            · exact flagsKept_refl s
            · exact startTry_flags c _ s
          · intro s
            unfold startT
            split
            · exact flagsKept_refl s
            · exact startTry_flags c _ s
        · exact flagsKept_refl s
  · intro s
    simp only [startPhase]
    split
    · split
      · cases E.hpQ c.id (s.box .p (c.box .p)).si 1 with
        | error e => exact flagsKept_refl s
        | ok h =>
          simp only
          split
          · exact flagsKept_put s _ _ _ rfl rfl
          · exact flagsKept_refl s
      · split
        · cases E.hpQ c.id (s.box .p (c.box .p)).si 0 with
          | error e => exact flagsKept_refl s
          | ok h =>
            simp only
            split
            · exact flagsKept_put s _ _ _ rfl rfl
            · exact flagsKept_refl s
        · exact flagsKept_refl s
    · exact flagsKept_refl s

theorem startOne_flags (E : StartEnv K) (c : StartConn K) (k : PropKind) (s : StartState K) :
    FlagsKept s (startOne E c k s).1 := by
  simp only [startOne]
  split
  · refine PyStep.Rel.andThen (R := FlagsKept) flagsKept_trans ?_
      (fun s => flagsKept_put s k (c.box k) { s.box k (c.box k) with
        si := (s.box k (c.box k)).val0.map (· * E.factor k (s.box k (c.box k)).unit) } rfl rfl) s
    split
    · exact flagsKept_refl
    · intro s
      refine ⟨initVal0_good E c k s, fun k' i => ?_⟩
      exact ⟨(initVal0_fixed E c k s k' i).2.1, (initVal0_fixed E c k s k' i).2.2.1⟩
  · exact flagsKept_refl s

theorem firstLoop_flags (E : StartEnv K) (conns : List (StartConn K)) (hfile : ∀ c ∈ conns, E.file c.id = none)
    (s : StartState K) : FlagsKept s (PyStep.forEach (startFirst E) conns s).1 := by
  refine PyStep.Rel.forEach (R := FlagsKept) flagsKept_refl flagsKept_trans _ _ ?_ s
  intro c hc s
  rw [startFirst_nofile E c (hfile c hc)]
  exact PyStep.Rel.forEach (R := FlagsKept) flagsKept_refl flagsKept_trans _ _ (fun k _ s => startOne_flags E c k s) s

/-- a container which is not the one of connection `d` is not touched in the second loop by `d` -/
theorem startSecond_foreign (E : StartEnv K) (d : StartConn K) (hfile : E.file d.id = none) (k : PropKind) (i : ℕ)
    (hne : d.box k ≠ i) (s : StartState K) : (startSecond E d s).1.box k i = s.box k i :=
  startSecond_keep E [d] k i
    ⟨fun c hc => by simp only [List.mem_singleton] at hc; rw [hc]; exact hfile,
     fun c hc h => by simp only [List.mem_singleton] at hc; subst hc; exact absurd h hne,
     fun c hc h1 h2 => by simp only [List.mem_singleton] at hc; subst hc; subst h1; exact absurd h2 hne⟩ d (by simp) s

/-- C74, references: a variable with a reference (and no specified value, no results of a former calculation) starts
with the starting value of the referenced connection times the factor plus the delta, if vapour fraction,
temperature and phase do not determine the value. Assumption: the referenced value is not itself specified by a
reference, temperature, vapour fraction or phase. -/
theorem C74_reference_partial (E : StartEnv K) (conns : List (StartConn K)) (s : StartState K) (k : PropKind)
    (c : StartConn K) (hc : c ∈ conns) (j : ℕ) (f δ : K) (hr : c.ref k = some (j, f, δ)) (hj : j ≠ c.box k)
    (hown : ∀ d ∈ conns, d ≠ c → d.box k ≠ c.box k) (hp : Spec.Plain E conns k j)
    (hh : k = .h → c.x = none ∧ c.T = none ∧ c.Td = none ∧ c.state = none)
    (hset : (s.box k (c.box k)).isSet = false) (hg : s.good c.id = false)
    (hok : (initProperties E conns s).2 = none) :
    ((initProperties E conns s).1.box k (c.box k)).si =
      ((initProperties E conns s).1.box k j).si.map (fun v => v * f + δ) := by
  obtain ⟨h1, h2, h3⟩ := pyAndThen_ok hok
  have h4 : (initProperties E conns s).1 = _ := h3
  rw [h4]
  have hfl := firstLoop_flags E conns hp.file s
  generalize (PyStep.forEach (startFirst E) conns s).1 = s1 at h2 hfl
  have hkj : ∀ d ∈ conns, ∀ s, (startSecond E d s).1.box k j = s.box k j := fun d hd s => startSecond_keep E conns k j hp d hd s
  refine pyForEach_est2 (startSecond E) (fun s => (s.box k (c.box k)).si = (s.box k j).si.map (fun v => v * f + δ))
    (fun s => (s.box k (c.box k)).isSet = false ∧ s.good c.id = false) conns c hc ?_ ?_ ?_ s1 ?_ h2
  · intro d hd s hs
    have := startSecond_flags E d s
    exact ⟨((this.2 _ _).1).trans hs.1, by rw [this.1]; exact hs.2⟩
  · intro s hs _
    have e1 := hkj c hc s
    rw [startSecond_split E c s hs.2] at e1 ⊢
    have e2 : ∀ s, (startSecond E { c with ref := fun _ => none } s).1.box k (c.box k) = s.box k (c.box k) := by
      intro s
      refine startSecond_keep E [{ c with ref := fun _ => none }] k (c.box k) ⟨?_, ?_, ?_⟩ _ (by simp) s
      · intro d hd
        simp only [List.mem_singleton] at hd
        subst hd
        exact hp.file c hc
      · intro d hd _
        simp only [List.mem_singleton] at hd
        subst hd; rfl
      · intro d hd hk _
        simp only [List.mem_singleton] at hd
        subst hd
        exact hh hk
    rw [e1, e2]
    refine (pyForEach_est (startRef c) (fun s' => (s'.box k (c.box k)).si = (s.box k j).si.map (fun v => v * f + δ))
      (fun s' => (s'.box k (c.box k)).isSet = false ∧ (s'.box k j).si = (s.box k j).si) [.m, .p, .h] k
      (by cases k <;> simp) ?_ ?_ ?_ s ⟨hs.1, rfl⟩ (startRefs_noerr c s))
    · intro k' _ s2 hs2
      by_cases hk : k' = k
      · subst hk
        simp only [startRef, hr, hs2.1, Bool.false_eq_true, if_false, StartState.putSI, put_box, and_self, if_true]
        rw [if_neg (fun h => hj h.2)]
        exact ⟨trivial, hs2.2⟩
      · rw [startRef_other c k k' hk, startRef_other c k k' hk]
        exact hs2
    · intro s2 hs2 _
      simp only [startRef, hr, hs2.1, Bool.false_eq_true, if_false, StartState.putSI, put_box, and_self, if_true, hs2.2]
    · intro k' _ s2 hs2 hP
      by_cases hk : k' = k
      · subst hk
        simp only [startRef, hr, hs2.1, Bool.false_eq_true, if_false, StartState.putSI, put_box, and_self, if_true, hs2.2]
      · rw [startRef_other c k k' hk]
        exact hP
  · intro d hd hdc s _ hP
    rw [hkj d hd, startSecond_foreign E d (hp.file d hd) k _ (hown d hd hdc)]
    exact hP
  · exact ⟨((hfl.2 _ _).1).trans hset, by rw [hfl.1]; exact hg⟩

/-- C76, references: with `init_previous=False` references determine the starting values again, also after a former
calculation. -/
theorem C76_reference_partial (E : StartEnv K) (conns : List (StartConn K)) (s : StartState K) (k : PropKind)
    (c : StartConn K) (hc : c ∈ conns) (j : ℕ) (f δ : K) (hr : c.ref k = some (j, f, δ)) (hj : j ≠ c.box k)
    (hown : ∀ d ∈ conns, d ≠ c → d.box k ≠ c.box k) (hp : Spec.Plain E conns k j)
    (hh : k = .h → c.x = none ∧ c.T = none ∧ c.Td = none ∧ c.state = none)
    (hset : (s.box k (c.box k)).isSet = false)
    (hok : (initProperties E conns (setProperties E false s)).2 = none) :
    ((initProperties E conns (setProperties E false s)).1.box k (c.box k)).si =
      ((initProperties E conns (setProperties E false s)).1.box k j).si.map (fun v => v * f + δ) :=
  C74_reference_partial E conns (setProperties E false s) k c hc j f δ hr hj hown hp hh hset rfl hok

-- non-vacuity: pressure of connection 1 is a tenth of the one of connection 0 plus 1 kPa; second calculation
example : let conns := [startConn 0 .other .turbine,
      { startConn 1 .turbine .other with ref := fun k => if k = .p then some (0, 1 / 10, 1000) else none }]
    let s1 := (calculation startEnv false conns (fun _ _ => 7) freshState).1
    (calculation startEnv false conns (fun _ _ => 7) freshState).2 = none ∧
    (initProperties startEnv conns (setProperties startEnv false freshState)).2 = none ∧
    ((initProperties startEnv conns (setProperties startEnv false freshState)).1.box .p 1).si = some 251000 ∧
    (initProperties startEnv conns (setProperties startEnv false s1)).2 = none ∧
    ((initProperties startEnv conns (setProperties startEnv false s1)).1.box .p 1).si = some (7 / 10 + 1000) ∧
    ((initProperties startEnv conns (setProperties startEnv true s1)).1.box .p 1).si = some 7 := by decide +kernel

/-! ### C74: phases -/

/-- C74, phase: the enthalpy of a connection specified as gas does not start below the enthalpy of saturated vapour
at the starting value of the pressure, the enthalpy of one specified as liquid not above the one of saturated
liquid (if these are not negative). -/
theorem C74_phase_partial [IsStrictOrderedRing K] (E : StartEnv K) (conns : List (StartConn K)) (s : StartState K)
    (c : StartConn K) (hc : c ∈ conns) (hown : ∀ d ∈ conns, d ≠ c → d.box .h ≠ c.box .h)
    (hp : Spec.Plain E conns .p (c.box .p)) (hvar : (s.box .h (c.box .h)).isVar = true)
    (hok : (initProperties E conns s).2 = none) (h : K)
    (hh : ((initProperties E conns s).1.box .h (c.box .h)).si = some h) :
    ((∃ T, c.Td = some T ∧ 0 < T) ∨ c.state = some "g" →
      ∀ hs, E.hpQ c.id ((initProperties E conns s).1.box .p (c.box .p)).si 1 = .ok hs → 0 ≤ hs → hs ≤ h) ∧
    (¬ ((∃ T, c.Td = some T ∧ 0 < T) ∨ c.state = some "g") → (∃ T, c.Td = some T ∧ T < 0) ∨ c.state = some "l" →
      ∀ hs, E.hpQ c.id ((initProperties E conns s).1.box .p (c.box .p)).si 0 = .ok hs → 0 ≤ hs → h ≤ hs) := by
  have hgt : (optGt c.Td 0 = true ∨ c.state = some "g") ↔ ((∃ T, c.Td = some T ∧ 0 < T) ∨ c.state = some "g") := by
    cases c.Td <;> simp [optGt]
  have hlt : (optLt c.Td 0 = true ∨ c.state = some "l") ↔ ((∃ T, c.Td = some T ∧ T < 0) ∨ c.state = some "l") := by
    cases c.Td <;> simp [optLt]
  rw [← hgt, ← hlt]
  obtain ⟨h1, h2, h3⟩ := pyAndThen_ok hok
  have h4 : (initProperties E conns s).1 = _ := h3
  rw [h4] at hh ⊢
  have hfl := firstLoop_flags E conns hp.file s
  generalize (PyStep.forEach (startFirst E) conns s).1 = s1 at h2 hfl hh
  have hkp : ∀ d ∈ conns, ∀ s, (startSecond E d s).1.box .p (c.box .p) = s.box .p (c.box .p) :=
    fun d hd s => startSecond_keep E conns .p _ hp d hd s
  refine pyForEach_est2 (startSecond E) (fun s => ∀ h, (s.box .h (c.box .h)).si = some h →
      (optGt c.Td 0 = true ∨ c.state = some "g" → ∀ hs, E.hpQ c.id (s.box .p (c.box .p)).si 1 = .ok hs → 0 ≤ hs → hs ≤ h) ∧
      (¬ (optGt c.Td 0 = true ∨ c.state = some "g") → optLt c.Td 0 = true ∨ c.state = some "l" →
        ∀ hs, E.hpQ c.id (s.box .p (c.box .p)).si 0 = .ok hs → 0 ≤ hs → h ≤ hs))
    (fun s => (s.box .h (c.box .h)).isVar = true) conns c hc ?_ ?_ ?_ s1 ?_ h2 h hh
  · intro d hd s hs
    exact (((startSecond_flags E d s).2 _ _).2).trans hs
  · have key : ∀ s, (s.box .h (c.box .h)).isVar = true → (startPhase E c s).2 = none →
        ∀ h, ((startPhase E c s).1.box .h (c.box .h)).si = some h →
        (optGt c.Td 0 = true ∨ c.state = some "g" → ∀ hs, E.hpQ c.id (s.box .p (c.box .p)).si 1 = .ok hs → 0 ≤ hs → hs ≤ h) ∧
        (¬ (optGt c.Td 0 = true ∨ c.state = some "g") → optLt c.Td 0 = true ∨ c.state = some "l" →
          ∀ hs, E.hpQ c.id (s.box .p (c.box .p)).si 0 = .ok hs → 0 ≤ hs → h ≤ hs) := by
      intro s hv hok h hh
      constructor
      · intro hgas hs hhs h0
        simp only [startPhase, hv, if_true, if_pos hgas, hhs] at hh hok
        by_cases hl : optLt (s.box .h (c.box .h)).si hs = true
        · rw [if_pos hl] at hh
          simp only [StartState.putSI, put_box, and_self, if_true, Option.some.injEq] at hh
          rw [← hh]; linarith
        · rw [if_neg hl] at hh
          simp only at hh
          rw [hh] at hl
          simpa [optLt] using hl
      · intro hng hliq hs hhs h0
        simp only [startPhase, hv, if_true, if_neg hng, if_pos hliq, hhs] at hh hok
        by_cases hl : optGt (s.box .h (c.box .h)).si hs = true
        · rw [if_pos hl] at hh
          simp only [StartState.putSI, put_box, and_self, if_true, Option.some.injEq] at hh
          rw [← hh]; linarith
        · rw [if_neg hl] at hh
          simp only at hh
          rw [hh] at hl
          simpa [optGt] using hl
    intro s hs hok' h hh
    obtain ⟨a1, a2, a3⟩ := pyAndThen_ok (s := s) (b := startPhase E c) (a := (if s.good c.id then PyStep.skip else
      (PyStep.forEach (startRef c) [.m, .p, .h]).andThen (startPrecalc E c))) hok'
    have a4 : (startSecond E c s).1 = _ := a3
    rw [a4] at hh ⊢
    generalize hg : ((if s.good c.id then PyStep.skip else
      (PyStep.forEach (startRef c) [.m, .p, .h]).andThen (startPrecalc E c)) s).1 = s2 at a2 a4 hh
    have hv2 : (s2.box .h (c.box .h)).isVar = true := by
      have f1 := ((startSecond_flags E c s).2 .h (c.box .h)).2
      rw [a4] at f1
      have f2 := ((startPhase_fixed E c s2) .h (c.box .h)).2.2.1
      exact (f2.symm.trans f1).trans hs
    have hp2 : (startPhase E c s2).1.box .p (c.box .p) = s2.box .p (c.box .p) := by
      have hput : ∀ v, (s2.putSI .h (c.box .h) v).box .p (c.box .p) = s2.box .p (c.box .p) := by
        intro v
        rw [StartState.putSI, put_box, if_neg (fun h => by cases h.1)]
      simp only [startPhase, hv2, if_true]
      split
      · cases E.hpQ c.id (s2.box .p (c.box .p)).si 1 with
        | error e => rfl
        | ok h => simp only; split <;> first | exact hput _ | rfl
      · split
        · cases E.hpQ c.id (s2.box .p (c.box .p)).si 0 with
          | error e => rfl
          | ok h => simp only; split <;> first | exact hput _ | rfl
        · rfl
    rw [hp2]
    exact key s2 hv2 a2 h hh
  · intro d hd hdc s hs hP
    rw [hkp d hd, startSecond_foreign E d (hp.file d hd) .h _ (hown d hd hdc)]
    exact hP
  · exact ((hfl.2 _ _).2).trans hvar

-- non-vacuity: gas at a connection with generic starting value 1 MJ/kg, saturated vapour at 2.4 MJ/kg; liquid
example : let conns := [{ startConn 0 .other .other with state := some "g" }, { startConn 1 .other .other with Td := some (-5) }]
    Spec.Plain startEnv conns .p 0 ∧ (initProperties startEnv conns freshState).2 = none ∧
    ((initProperties startEnv conns freshState).1.box .h 0).si = some 2402400 ∧
    ((initProperties startEnv conns freshState).1.box .h 1).si = some 399600 := by
  refine ⟨⟨fun _ _ => rfl, ?_, fun c _ h => by cases h⟩, by decide +kernel, by decide +kernel, by decide +kernel⟩
  intro c hc _
  simp only [List.mem_cons, List.not_mem_nil, or_false] at hc
  rcases hc with rfl | rfl <;> rfl

/-! ### C74: documented values -/

/-- Values at outlets according to the docstrings (`initialise_source`, `initialise_Source`), first outlet or not:
pressure, enthalpy. -/
def Spec.docOutlet : StartClass → Bool → ℚ × StartHint ℚ
  | .compressor, _ => (1000000, .number 600000)
  | .pump, _ => (1000000, .number 300000)
  | .turbine, _ => (50000, .number 1500000)
  | .valve, _ => (400000, .number 500000)
  | .node, _ => (100000, .number 500000)
  | .dropletSeparator, true => (1000000, .sat 1)
  | .dropletSeparator, false => (1000000, .sat 0)
  | .drum, true => (1000000, .sat 1)
  | .drum, false => (1000000, .sat 0)
  | .heatExchanger, true => (400000, .temp 200)
  | .heatExchanger, false => (400000, .temp 250)
  | .simple none, _ => (100000, .number 300000)
  | .simple (some false), _ => (100000, .number 100000)
  | .simple (some true), _ => (100000, .number 500000)
  | .combustion, _ => (500000, .number 1000000)
  | .fuelCell, _ => (500000, .temp (29315 / 100))
  | .electrolyzer, _ => (500000, .temp (32315 / 100))
  | .other, _ => (100000, .number 1000000)

/-- Values at inlets according to the docstrings (`initialise_target`), first inlet or not. -/
def Spec.docInlet : StartClass → Bool → ℚ × StartHint ℚ
  | .compressor, _ => (100000, .number 400000)
  | .pump, _ => (100000, .number 290000)
  | .turbine, _ => (2500000, .number 2000000)
  | .valve, _ => (500000, .number 500000)
  | .node, _ => (100000, .number 500000)
  | .dropletSeparator, _ => (1000000, .sat (1 / 2))
  | .drum, true => (1000000, .sat 0)
  | .drum, false => (1000000, .sat (7 / 10))
  | .heatExchanger, true => (400000, .temp 300)
  | .heatExchanger, false => (400000, .temp 220)
  | .simple none, _ => (100000, .number 300000)
  | .simple (some false), _ => (100000, .number 500000)
  | .simple (some true), _ => (100000, .number 100000)
  | .combustion, _ => (500000, .number 500000)
  | .fuelCell, _ => (500000, .temp (32315 / 100))
  | .electrolyzer, _ => (500000, .temp (29315 / 100))
  | .other, _ => (100000, .number 1000000)

/-- What the code uses instead at outlets: nothing for turbomachines, liquid at the first and vapour at the second
outlet of drums and droplet separators, 50 bar and temperatures in degrees Celsius for heat exchangers. -/
def Spec.usedOutlet : StartClass → Bool → ℚ × StartHint ℚ
  | .compressor, _ => (100000, .number 1000000)
  | .pump, _ => (100000, .number 1000000)
  | .turbine, _ => (100000, .number 1000000)
  | .dropletSeparator, true => (1000000, .sat 0)
  | .dropletSeparator, false => (1000000, .sat 1)
  | .drum, true => (1000000, .sat 0)
  | .drum, false => (1000000, .sat 1)
  | .heatExchanger, true => (5000000, .temp (47315 / 100))
  | .heatExchanger, false => (5000000, .temp (52315 / 100))
  | cls, first => Spec.docOutlet cls first

/-- What the code uses at inlets. -/
def Spec.usedInlet : StartClass → Bool → ℚ × StartHint ℚ
  | .heatExchanger, true => (5000000, .temp (57315 / 100))
  | .heatExchanger, false => (5000000, .temp (49315 / 100))
  | cls, first => Spec.docInlet cls first

/-- a network with one new connection, all values variable -/
def newState (E : StartEnv ℚ) : StartState ℚ where
  box := fun k _ => ⟨none, none, some 0, E.netUnit k, false, true⟩
  good := fun _ => false

/-- one connection: starting values in terms of the values of the components -/
theorem single_start (E : StartEnv ℚ) (c : StartConn ℚ) (hfile : E.file c.id = none) (href : ∀ k, c.ref k = none)
    (hx : c.x = none ∧ c.T = none ∧ c.Td = none ∧ c.state = none)
    (hfp : E.factor .p (E.netUnit .p) ≠ 0) (hfh : E.factor .h (E.netUnit .h) ≠ 0) (pa pb ha hb : ℚ)
    (hpa : c.src .p = .number pa) (hpb : c.tgt .p = .number pb)
    (hha : (c.src .h).eval E c.id (some (genericStart .p pa pb)) = .ok ha)
    (hhb : (c.tgt .h).eval E c.id (some (genericStart .p pa pb)) = .ok hb) :
    (initProperties E [c] (newState E)).2 = none ∧
    ((initProperties E [c] (newState E)).1.box .p (c.box .p)).si = some (genericStart .p pa pb) ∧
    ((initProperties E [c] (newState E)).1.box .h (c.box .h)).si = some (genericStart .h ha hb) := by
  have hpp : genericStart .p pa pb / E.factor .p (E.netUnit .p) * E.factor .p (E.netUnit .p) = genericStart .p pa pb :=
    div_mul_cancel₀ _ hfp
  have hhh : genericStart .h ha hb / E.factor .h (E.netUnit .h) * E.factor .h (E.netUnit .h) = genericStart .h ha hb :=
    div_mul_cancel₀ _ hfh
  obtain ⟨x1, x2, x3, x4⟩ := hx
  have hnum : ∀ (p : Option ℚ) v, (StartHint.number v : StartHint ℚ).eval E c.id p = .ok v := fun _ _ => rfl
  simp [initProperties, PyStep.forEach, PyStep.andThen, PyStep.skip, startFirst, fromFile, hfile, startOne, initVal0,
    newState, StartState.putSI, StartState.put, startSecond, startRef, href, startPrecalc, startX, startT, startPhase,
    x1, x2, x3, x4, optLt, optGt, hpa, hpb, hnum, hpp, hhh, hha, hhb]

/-- C74, documented values at outlets: a new connection from component class `cls` (to a component without values of
its own) starts with the documented pressure and enthalpy, except for turbomachines, drums and droplet separators
and heat exchangers (see `Spec.usedOutlet`). -/
theorem C74_outlet_partial (E : StartEnv ℚ) (hfile : ∀ i, E.file i = none) (hfp : E.factor .p (E.netUnit .p) ≠ 0)
    (hfh : E.factor .h (E.netUnit .h) ≠ 0) (cls : StartClass) (first : Bool) (h : ℚ) (h0 : h ≠ 0)
    (heval : (Spec.usedOutlet cls first).2.eval E 0 (some (Spec.usedOutlet cls first).1) = .ok h) :
    let c : StartConn ℚ := { startConn 0 cls .other with src := sourceHint cls first }
    (initProperties E [c] (newState E)).2 = none ∧
    ((initProperties E [c] (newState E)).1.box .p 0).si = some (Spec.usedOutlet cls first).1 ∧
    ((initProperties E [c] (newState E)).1.box .h 0).si = some h := by
  intro c
  have hgen : ∀ k (a : ℚ), a ≠ 0 → genericStart k a 0 = a := by
    intro k a ha
    simp [genericStart, ha]
  have hzero : genericStart .p (0 : ℚ) 0 = 100000 ∧ genericStart .h (0 : ℚ) 0 = 1000000 := by simp [genericStart]
  have key : ∀ pa ha : ℚ, c.src .p = .number pa → genericStart .p pa 0 = (Spec.usedOutlet cls first).1 →
      (c.src .h).eval E 0 (some (Spec.usedOutlet cls first).1) = .ok ha → genericStart .h ha 0 = h →
      (initProperties E [c] (newState E)).2 = none ∧
      ((initProperties E [c] (newState E)).1.box .p 0).si = some (Spec.usedOutlet cls first).1 ∧
      ((initProperties E [c] (newState E)).1.box .h 0).si = some h := by
    intro pa ha h1 h2 h3 h4
    have := single_start E c (hfile 0) (fun _ => rfl) ⟨rfl, rfl, rfl, rfl⟩ hfp hfh pa 0 ha 0 h1 rfl (by rw [h2]; exact h3) rfl
    rw [h2, h4] at this
    exact this
  rcases cls with _ | _ | _ | _ | _ | _ | _ | _ | (_ | _ | _) | _ | _ | _ | _ <;> cases first <;>
    first
    | exact key _ h rfl (hgen _ _ (by norm_num)) heval (hgen _ _ h0)
    | (have h1 : (1000000 : ℚ) = h := by simpa [Spec.usedOutlet, Spec.docOutlet, StartHint.eval] using heval
       exact key 0 0 rfl hzero.1 rfl (hzero.2.trans h1))

/-- C74, documented values at inlets: a new connection to component class `cls` (from a component without values of
its own) starts with the documented pressure and enthalpy, except for heat exchangers (see `Spec.usedInlet`). -/
theorem C74_inlet_partial (E : StartEnv ℚ) (hfile : ∀ i, E.file i = none) (hfp : E.factor .p (E.netUnit .p) ≠ 0)
    (hfh : E.factor .h (E.netUnit .h) ≠ 0) (cls : StartClass) (first : Bool) (h : ℚ) (h0 : h ≠ 0)
    (heval : (Spec.usedInlet cls first).2.eval E 0 (some (Spec.usedInlet cls first).1) = .ok h) :
    let c : StartConn ℚ := { startConn 0 .other cls with tgt := targetHint cls first }
    (initProperties E [c] (newState E)).2 = none ∧
    ((initProperties E [c] (newState E)).1.box .p 0).si = some (Spec.usedInlet cls first).1 ∧
    ((initProperties E [c] (newState E)).1.box .h 0).si = some h := by
  intro c
  have hgen : ∀ k (a : ℚ), a ≠ 0 → genericStart k 0 a = a := by
    intro k a ha
    simp [genericStart, ha]
  have hzero : genericStart .p (0 : ℚ) 0 = 100000 ∧ genericStart .h (0 : ℚ) 0 = 1000000 := by simp [genericStart]
  have key : ∀ pa ha : ℚ, c.tgt .p = .number pa → genericStart .p 0 pa = (Spec.usedInlet cls first).1 →
      (c.tgt .h).eval E 0 (some (Spec.usedInlet cls first).1) = .ok ha → genericStart .h 0 ha = h →
      (initProperties E [c] (newState E)).2 = none ∧
      ((initProperties E [c] (newState E)).1.box .p 0).si = some (Spec.usedInlet cls first).1 ∧
      ((initProperties E [c] (newState E)).1.box .h 0).si = some h := by
    intro pa ha h1 h2 h3 h4
    have := single_start E c (hfile 0) (fun _ => rfl) ⟨rfl, rfl, rfl, rfl⟩ hfp hfh 0 pa 0 ha rfl h1 rfl (by rw [h2]; exact h3)
    rw [h2, h4] at this
    exact this
  rcases cls with _ | _ | _ | _ | _ | _ | _ | _ | (_ | _ | _) | _ | _ | _ | _ <;> cases first <;>
    first
    | exact key _ h rfl (hgen _ _ (by norm_num)) heval (hgen _ _ h0)
    | (have h1 : (1000000 : ℚ) = h := by simpa [Spec.usedInlet, Spec.docInlet, StartHint.eval] using heval
       exact key 0 0 rfl hzero.1 rfl (hzero.2.trans h1))

/-- C74, heat exchangers and separators: the documented pressure of heat exchangers is not used, and the documented
phases at the outlets of drums and droplet separators are swapped. -/
theorem C74_documented_false : ¬ ∀ (E : StartEnv ℚ) (cls : StartClass) (first : Bool) (h : ℚ),
    (∀ i, E.file i = none) → E.factor .p (E.netUnit .p) ≠ 0 → E.factor .h (E.netUnit .h) ≠ 0 → h ≠ 0 →
    (cls = .heatExchanger ∨ cls = .drum) →
    (Spec.docOutlet cls first).2.eval E 0 (some (Spec.docOutlet cls first).1) = .ok h →
    ((initProperties E [{ startConn 0 cls .other with src := sourceHint cls first }] (newState E)).1.box .h 0).si = some h := by
  intro hall
  have h1 := hall startEnv .drum true 2400000 (fun _ => rfl) (by decide +kernel) (by decide +kernel) (by decide +kernel) (Or.inr rfl) (by decide +kernel)
  revert h1
  decide +kernel

-- non-vacuity of C74_outlet_partial and C74_inlet_partial: drum (vapour), turbine
example : (Spec.usedOutlet .drum false).2.eval startEnv 0 (some (Spec.usedOutlet .drum false).1) = .ok 2400000 ∧
    (Spec.usedInlet .turbine true).2.eval startEnv 0 (some (Spec.usedInlet .turbine true).1) = .ok 2000000 ∧
    startEnv.factor .p (startEnv.netUnit .p) ≠ 0 ∧ startEnv.factor .h (startEnv.netUnit .h) ≠ 0 := by decide +kernel

/-! ### C76: starting with the results -/

/-- loops over connections doing the same -/
theorem pyForEach_map {S α β : Type} (f : α → PyStep S) (g : β → PyStep S) (φ : α → β) (Q : S → Prop) (l : List α)
    (hQ : ∀ a ∈ l, ∀ s, Q s → Q (f a s).1) (h : ∀ a ∈ l, ∀ s, Q s → f a s = g (φ a) s) (s : S) (hs : Q s) :
    PyStep.forEach f l s = PyStep.forEach g (l.map φ) s := by
  induction l generalizing s with
  | nil => rfl
  | cons a l ih =>
    have h1 := h a (by simp) s hs
    have h2 := hQ a (by simp) s hs
    simp only [PyStep.forEach, List.map_cons, PyStep.andThen]
    rw [← h1]
    rcases hr : f a s with ⟨s1, _ | e⟩
    · rw [hr] at h2
      exact ih (fun b hb => hQ b (by simp [hb])) (fun b hb => h b (by simp [hb])) s1 h2
    · rfl

/-- C76, `init_previous=True`: a calculation after a successful calculation starts with its results: all variables of
all connections (except enthalpies of connections with specified phase) start with the values of the last
calculation, references, temperatures and vapour fractions do not matter. -/
theorem C76_results_partial (E : StartEnv K) (prev : Bool) (conns : List (StartConn K)) (sol : PropKind → ℕ → K)
    (s : StartState K) (hf : ∀ k, E.factor k (E.netUnit k) ≠ 0) (hfile : ∀ i, E.file i = none)
    (hok : (calculation E prev conns sol s).2 = none) (k : PropKind) (c : StartConn K) (hc : c ∈ conns)
    (hphase : k = .h → ∀ d ∈ conns, d.box .h = c.box .h → d.Td = none ∧ d.state = none)
    (hvar : (s.box k (c.box k)).isVar = true)
    (hok2 : (initProperties E conns (setProperties E true (calculation E prev conns sol s).1)).2 = none) :
    ((calculation E prev conns sol s).1.box k (c.box k)).si = some (sol k (c.box k)) ∧
    ((initProperties E conns (setProperties E true (calculation E prev conns sol s).1)).1.box k (c.box k)).si =
      some (sol k (c.box k)) := by
  -- result of the first calculation
  have hunit := initProperties_unit E conns (fun i row h => by rw [hfile i] at h; cases h) (setProperties E prev s) (fun _ _ => rfl)
  have hflags : FlagsKept (setProperties E prev s) (initProperties E conns (setProperties E prev s)).1 :=
    PyStep.Rel.andThen (R := FlagsKept) flagsKept_trans (fun s => firstLoop_flags E conns (fun c _ => hfile c.id) s)
      (PyStep.Rel.forEach (R := FlagsKept) flagsKept_refl flagsKept_trans _ _ (fun d _ s => startSecond_flags E d s)) _
  have hres : ((calculation E prev conns sol s).1.box k (c.box k)).si = some (sol k (c.box k)) ∧
      ((calculation E prev conns sol s).1.box k (c.box k)).val0 = some (sol k (c.box k) / E.factor k (E.netUnit k)) ∧
      ((calculation E prev conns sol s).1.box k (c.box k)).isVar = true ∧
      (∀ i, (calculation E prev conns sol s).1.good i = true) := by
    simp only [calculation] at hok ⊢
    rcases hr : initProperties E conns (setProperties E prev s) with ⟨s1, _ | e⟩
    · rw [hr] at hunit hflags
      have hv : (s1.box k (c.box k)).isVar = true := ((hflags.2 k (c.box k)).2).trans hvar
      have hu : (s1.box k (c.box k)).unit = E.netUnit k := hunit k (c.box k)
      simp [storeResults, solveVariables, hv, hu]
    · rw [hr] at hok; cases hok
  refine ⟨hres.1, ?_⟩
  obtain ⟨r1, r2, r3, r4⟩ := hres
  generalize (calculation E prev conns sol s).1 = s1 at r1 r2 r3 r4 hok2
  -- references, temperatures and vapour fractions are not used
  have hgood : ∀ i, (setProperties E true s1).good i = true := by
    intro i
    simp only [setProperties, Bool.true_and]
    exact r4 i
  have hflag1 : ∀ d ∈ conns, ∀ s : StartState K, (∀ i, s.good i = true) → ∀ i, (startFirst E d s).1.good i = true := by
    intro d hd s hs i
    have := firstLoop_flags E [d] (fun c _ => hfile c.id) s
    have h1 : (PyStep.forEach (startFirst E) [d] s).1 = (startFirst E d s).1 := by
      simp only [PyStep.forEach, PyStep.andThen, PyStep.skip]
      rcases startFirst E d s with ⟨s1, _ | e⟩ <;> rfl
    rw [h1] at this
    rw [this.1]; exact hs i
  have hflag2 : ∀ d ∈ conns, ∀ s : StartState K, (∀ i, s.good i = true) → ∀ i, (startSecond E d s).1.good i = true := by
    intro d hd s hs i
    rw [(startSecond_flags E d s).1]; exact hs i
  have hsame : initProperties E conns (setProperties E true s1) =
      initProperties E (conns.map (fun d => { d with ref := fun _ => none, x := none, T := none })) (setProperties E true s1) := by
    have e1 := pyForEach_map (startFirst E) (startFirst E)
      (fun d => { d with ref := fun _ => none, x := none, T := none }) (fun s : StartState K => ∀ i, s.good i = true) conns
      hflag1 (fun d hd s hs => rfl) (setProperties E true s1) hgood
    have e2 : ∀ s : StartState K, (∀ i, s.good i = true) → PyStep.forEach (startSecond E) conns s =
        PyStep.forEach (startSecond E) (conns.map (fun d => { d with ref := fun _ => none, x := none, T := none })) s :=
      fun s hs => pyForEach_map (startSecond E) (startSecond E)
        (fun d => { d with ref := fun _ => none, x := none, T := none }) (fun s : StartState K => ∀ i, s.good i = true) conns
        hflag2 (fun d hd s hs => by simp only [startSecond, hs, if_true]; rfl) s hs
    have e3 := pyForEach_keep (startFirst E) (fun s : StartState K => ∀ i, s.good i = true) conns hflag1 _ hgood
    simp only [initProperties, PyStep.andThen]
    rw [← e1]
    rcases hr : PyStep.forEach (startFirst E) conns (setProperties E true s1) with ⟨s2, _ | e⟩
    · rw [hr] at e3
      exact e2 s2 e3
    · rfl
  rw [hsame] at hok2 ⊢
  have hmem : ({ c with ref := fun _ => none, x := none, T := none } : StartConn K) ∈
      conns.map (fun d => { d with ref := fun _ => none, x := none, T := none }) := List.mem_map.mpr ⟨c, hc, rfl⟩
  have hplain : Spec.Plain E (conns.map (fun d => { d with ref := fun _ => none, x := none, T := none })) k (c.box k) := by
    refine ⟨fun d _ => hfile d.id, ?_, ?_⟩
    · intro d hd _
      obtain ⟨d', _, rfl⟩ := List.mem_map.mp hd
      rfl
    · intro d hd hk hb
      obtain ⟨d', hd', rfl⟩ := List.mem_map.mp hd
      subst hk
      exact ⟨rfl, rfl, hphase rfl d' hd' hb⟩
  have := C74_user_partial E _ (setProperties E true s1) k _ hmem hplain _ r2 r3 hok2
  refine Eq.trans this ?_
  simp only [setProperties]
  rw [div_mul_cancel₀ _ (hf k)]

-- non-vacuity: see the example after C76_reference_partial (7 with `init_previous=True`)

end Tespy
