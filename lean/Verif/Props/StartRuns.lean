import Verif.Props.StartValues
/-
C74: all variables have starting values, exceptions from the documented choice; C75: `init_path`;
C76: `init_previous=False`.
-/
namespace Tespy
variable {K : Type} [Field K] [LinearOrder K]

/-! ### C74: all variables get a number -/

/-- containers of connections with values of a former calculation or a file have starting values -/
def GoodHasVal0 (conns : List (StartConn K)) (s : StartState K) : Prop :=
  ∀ c ∈ conns, s.good c.id = true → ∀ k, (s.box k (c.box k)).val0 ≠ none

/-- numbers stay numbers -/
def StartMono (s s' : StartState K) : Prop :=
  ∀ k i, ((s.box k i).val0 ≠ none → (s'.box k i).val0 ≠ none) ∧ ((s.box k i).si ≠ none → (s'.box k i).si ≠ none) ∧
    (s'.box k i).isVar = (s.box k i).isVar

theorem startMono_refl (s : StartState K) : StartMono s s := fun _ _ => ⟨id, id, rfl⟩

theorem startMono_trans (a b c : StartState K) (h1 : StartMono a b) (h2 : StartMono b c) : StartMono a c :=
  fun k i => ⟨(h2 k i).1 ∘ (h1 k i).1, (h2 k i).2.1 ∘ (h1 k i).2.1, (h2 k i).2.2.trans (h1 k i).2.2⟩

theorem startMono_put (s : StartState K) (k : PropKind) (i : ℕ) (b : StartBox K)
    (h1 : (s.box k i).val0 ≠ none → b.val0 ≠ none) (h2 : (s.box k i).si ≠ none → b.si ≠ none)
    (h3 : b.isVar = (s.box k i).isVar) : StartMono s (s.put k i b) := by
  intro k' i'
  rw [put_box]
  split
  · next h =>
    obtain ⟨rfl, rfl⟩ := h
    exact ⟨h1, h2, h3⟩
  · exact ⟨id, id, rfl⟩

/-- relation for the first loop -/
def FirstRel (conns : List (StartConn K)) (s s' : StartState K) : Prop :=
  GoodHasVal0 conns s → GoodHasVal0 conns s' ∧ StartMono s s'

theorem firstRel_refl (conns : List (StartConn K)) (s : StartState K) : FirstRel conns s s :=
  fun h => ⟨h, startMono_refl s⟩

theorem firstRel_trans (conns : List (StartConn K)) (a b c : StartState K) (h1 : FirstRel conns a b)
    (h2 : FirstRel conns b c) : FirstRel conns a c :=
  fun h => ⟨(h2 (h1 h).1).1, startMono_trans _ _ _ (h1 h).2 (h2 (h1 h).1).2⟩

theorem firstRel_of (conns : List (StartConn K)) (s s' : StartState K) (hg : s'.good = s.good) (hm : StartMono s s') :
    FirstRel conns s s' :=
  fun h => ⟨fun c hc h1 k => (hm k _).1 (h c hc (by rw [← hg]; exact h1) k), hm⟩

theorem initVal0_mono (E : StartEnv K) (c : StartConn K) (k : PropKind) (s : StartState K) :
    StartMono s (initVal0 E c k s).1 ∧
    ((initVal0 E c k s).2 = none → ((initVal0 E c k s).1.box k (c.box k)).val0 ≠ none) := by
  have hput : ∀ v, StartMono s (s.put k (c.box k) { s.box k (c.box k) with val0 := some v }) ∧
      ((s.put k (c.box k) { s.box k (c.box k) with val0 := some v }).box k (c.box k)).val0 ≠ none := by
    intro v
    refine ⟨startMono_put s k _ _ (fun _ => by simp) id rfl, ?_⟩
    rw [put_box, if_pos ⟨rfl, rfl⟩]
    simp
  simp only [initVal0]
  cases hv : (s.box k (c.box k)).val0 with
  | some v => exact ⟨startMono_refl s, fun _ => by rw [hv]; simp⟩
  | none =>
    simp only
    split
    · exact ⟨(hput _).1, fun _ => (hput _).2⟩
    · cases (c.src k).eval E c.id (s.box .p (c.box .p)).si with
      | error e => exact ⟨startMono_refl s, fun h => by cases h⟩
      | ok a =>
        simp only
        cases (c.tgt k).eval E c.id (s.box .p (c.box .p)).si with
        | error e => exact ⟨startMono_refl s, fun h => by cases h⟩
        | ok b => exact ⟨(hput _).1, fun _ => (hput _).2⟩

theorem startOne_first (E : StartEnv K) (conns : List (StartConn K)) (c : StartConn K) (hc : c ∈ conns) (k : PropKind)
    (s : StartState K) : FirstRel conns s (startOne E c k s).1 ∧
    (GoodHasVal0 conns s → (startOne E c k s).2 = none → (s.box k (c.box k)).isVar = true →
      ((startOne E c k s).1.box k (c.box k)).si ≠ none) := by
  simp only [startOne]
  split
  · next hv =>
    have h1 : StartMono s ((if s.good c.id then PyStep.skip else initVal0 E c k) s).1 ∧
        ((if s.good c.id then PyStep.skip else initVal0 E c k) s).1.good = s.good ∧
        (GoodHasVal0 conns s → ((if s.good c.id then PyStep.skip else initVal0 E c k) s).2 = none →
          (((if s.good c.id then PyStep.skip else initVal0 E c k) s).1.box k (c.box k)).val0 ≠ none) := by
      split
      · next hg => exact ⟨startMono_refl s, rfl, fun h _ => h c hc hg k⟩
      · exact ⟨(initVal0_mono E c k s).1, initVal0_good E c k s, fun _ h => (initVal0_mono E c k s).2 h⟩
    simp only [PyStep.andThen]
    rcases hr : (if s.good c.id then PyStep.skip else initVal0 E c k) s with ⟨s1, _ | e⟩
    · rw [hr] at h1
      obtain ⟨g1, g2, g3⟩ := h1
      constructor
      · intro hG
        have h0 := g3 hG rfl
        refine firstRel_of conns s _ g2 (startMono_trans _ _ _ g1 (startMono_put s1 k _ _ id (fun _ => ?_) rfl)) hG
        cases h : (s1.box k (c.box k)).val0 with
        | none => exact absurd h h0
        | some v => simp
      · intro hG _ _
        have h0 := g3 hG rfl
        simp only [StartState.putSI, put_box, and_self, if_true]
        cases h : (s1.box k (c.box k)).val0 with
        | none => exact absurd h h0
        | some v => simp
    · rw [hr] at h1
      exact ⟨firstRel_of conns s _ h1.2.1 h1.1, fun _ h => by cases h⟩
  · next hv => exact ⟨firstRel_refl conns s, fun _ _ h => absurd h hv⟩

theorem fromFile_first (E : StartEnv K) (conns : List (StartConn K)) (c : StartConn K)
    (hid : ∀ d ∈ conns, d.id = c.id → d = c)
    (hfile : ∀ id row, E.file id = some row → ∀ k, (row k).1 ≠ none) (s : StartState K) :
    FirstRel conns s (fromFile E c s).1 := by
  simp only [fromFile]
  cases hr : E.file c.id with
  | none => exact firstRel_refl conns s
  | some row =>
    have hrow := hfile _ row hr
    intro hG
    have hm : StartMono s (PyStep.forEach (fileOne c row) [.m, .p, .h] s).1 :=
      PyStep.Rel.forEach (R := StartMono) startMono_refl startMono_trans _ _
        (fun k _ s => startMono_put s k (c.box k) { s.box k (c.box k) with val0 := (row k).1, unit := (row k).2 }
          (fun _ => hrow k) id rfl) s
    have hg : (PyStep.forEach (fileOne c row) [.m, .p, .h] s).1.good = s.good := rfl
    have hv : ∀ k, ((PyStep.forEach (fileOne c row) [.m, .p, .h] s).1.box k (c.box k)).val0 ≠ none := by
      intro k
      cases k <;>
        simp [PyStep.forEach, PyStep.andThen, fileOne, PyStep.skip, StartState.put, hrow]
    have hn : (PyStep.forEach (fileOne c row) [.m, .p, .h] s).2 = none := rfl
    simp only [PyStep.andThen]
    rcases hq : PyStep.forEach (fileOne c row) [.m, .p, .h] s with ⟨s1, _ | e⟩
    · rw [hq] at hm hg hv
      refine ⟨?_, hm⟩
      intro d hd hgood k
      simp only at hgood
      by_cases hdc : d.id = c.id
      · rw [hid d hd hdc]
        exact hv k
      · rw [if_neg hdc] at hgood
        exact (hm k _).1 (hG d hd (by rw [← hg]; exact hgood) k)
    · rw [hq] at hn
      cases hn

theorem startFirst_first (E : StartEnv K) (conns : List (StartConn K))
    (hid : ∀ c ∈ conns, ∀ d ∈ conns, d.id = c.id → d = c)
    (hfile : ∀ id row, E.file id = some row → ∀ k, (row k).1 ≠ none) (c : StartConn K) (hc : c ∈ conns)
    (s : StartState K) : FirstRel conns s (startFirst E c s).1 :=
  PyStep.Rel.andThen (R := FirstRel conns) (firstRel_trans conns)
    (fromFile_first E conns c (hid c hc) hfile)
    (PyStep.Rel.forEach (R := FirstRel conns) (firstRel_refl conns) (firstRel_trans conns) _ _
      (fun k _ s => (startOne_first E conns c hc k s).1)) s

theorem startFirst_number (E : StartEnv K) (conns : List (StartConn K))
    (hid : ∀ c ∈ conns, ∀ d ∈ conns, d.id = c.id → d = c)
    (hfile : ∀ id row, E.file id = some row → ∀ k, (row k).1 ≠ none) (c : StartConn K) (hc : c ∈ conns) (k : PropKind)
    (s : StartState K) (hG : GoodHasVal0 conns s) (hv : (s.box k (c.box k)).isVar = true)
    (hok : (startFirst E c s).2 = none) : ((startFirst E c s).1.box k (c.box k)).si ≠ none := by
  obtain ⟨h1, h2, h3⟩ := pyAndThen_ok hok
  have h4 : (startFirst E c s).1 = _ := h3
  rw [h4]
  have h5 := fromFile_first E conns c (hid c hc) hfile s hG
  refine pyForEach_est (startOne E c) (fun s => (s.box k (c.box k)).si ≠ none)
    (fun s => GoodHasVal0 conns s ∧ (s.box k (c.box k)).isVar = true) [.m, .p, .h] k (by cases k <;> simp) ?_ ?_ ?_ _
    ⟨h5.1, ((h5.2 k _).2.2).trans hv⟩ h2
  · intro k' _ s1 hs1
    have := (startOne_first E conns c hc k' s1).1 hs1.1
    exact ⟨this.1, ((this.2 k _).2.2).trans hs1.2⟩
  · intro s1 hs1 hok1
    exact (startOne_first E conns c hc k s1).2 hs1.1 hok1 hs1.2
  · intro k' _ s1 hs1 hP
    exact (((startOne_first E conns c hc k' s1).1 hs1.1).2 k _).2.1 hP

theorem startTry_mono (c : StartConn K) (r : PyRes K) (s : StartState K) : StartMono s (startTry c r s).1 := by
  unfold startTry
  split
  · exact startMono_put s _ _ _ id (fun _ => by simp) rfl
  · exact startMono_refl s
  · exact startMono_refl s

/-- second loop: references have numbers -/
theorem startSecond_mono (E : StartEnv K) (c : StartConn K) (s : StartState K)
    (href : ∀ k r, c.ref k = some r → (s.box k r.1).si ≠ none) : StartMono s (startSecond E c s).1 := by
  have hR : ∀ s, (∀ k r, c.ref k = some r → (s.box k r.1).si ≠ none) → ∀ k, StartMono s (startRef c k s).1 := by
    intro s hs k
    simp only [startRef]
    cases hr : c.ref k with
    | none => exact startMono_refl s
    | some r =>
      obtain ⟨j, f, d⟩ := r
      simp only
      split
      · exact startMono_refl s
      · refine startMono_put s k _ _ id (fun _ => ?_) rfl
        have := hs k _ hr
        cases h : (s.box k j).si with
        | none => exact absurd h this
        | some v => simp
  have hP : PyStep.Rel StartMono (startPhase E c) := by
    intro s
    simp only [startPhase]
    split
    · split
      · cases E.hpQ c.id (s.box .p (c.box .p)).si 1 with
        | error e => exact startMono_refl s
        | ok h =>
          simp only
          split
          · exact startMono_put s _ _ _ id (fun _ => by simp) rfl
          · exact startMono_refl s
      · split
        · cases E.hpQ c.id (s.box .p (c.box .p)).si 0 with
          | error e => exact startMono_refl s
          | ok h =>
            simp only
            split
            · exact startMono_put s _ _ _ id (fun _ => by simp) rfl
            · exact startMono_refl s
        · exact startMono_refl s
    · exact startMono_refl s
  have hC : PyStep.Rel StartMono (startPrecalc E c) := by
    intro s
    simp only [startPrecalc]
    split
    · refine PyStep.Rel.andThen (R := StartMono) startMono_trans ?_ ?_ s
      · intro s
        unfold startX
        split
        · exact startMono_refl s
        · exact startTry_mono c _ s
      · intro s
        unfold startT
        split
        · exact startMono_refl s
        · exact startTry_mono c _ s
    · exact startMono_refl s
  have hA : PyStep.Rel (fun s s' => (∀ k r, c.ref k = some r → (s.box k r.1).si ≠ none) → StartMono s s')
      (PyStep.forEach (startRef c) [.m, .p, .h]) := by
    refine PyStep.Rel.forEach (R := fun s s' => (∀ k r, c.ref k = some r → (s.box k r.1).si ≠ none) → StartMono s s')
      (fun s _ => startMono_refl s) ?_ _ _ (fun k _ s h => hR s h k)
    intro a b d h1 h2 h
    exact startMono_trans _ _ _ (h1 h) (h2 (fun k r hr => ((h1 h) k _).2.1 (h k r hr)))
  have hB : StartMono s ((if s.good c.id then PyStep.skip else (PyStep.forEach (startRef c) [.m, .p, .h]).andThen (startPrecalc E c)) s).1 := by
    split
    · exact startMono_refl s
    · simp only [PyStep.andThen]
      have h1 := hA s href
      rcases hr : PyStep.forEach (startRef c) [.m, .p, .h] s with ⟨s1, _ | e⟩
      · rw [hr] at h1
        exact startMono_trans _ _ _ h1 (hC s1)
      · rw [hr] at h1
        exact h1
  simp only [startSecond, PyStep.andThen]
  rcases hr : (if s.good c.id then PyStep.skip else (PyStep.forEach (startRef c) [.m, .p, .h]).andThen (startPrecalc E c)) s with ⟨s1, _ | e⟩
  · rw [hr] at hB
    exact startMono_trans _ _ _ hB (hP s1)
  · rw [hr] at hB
    exact hB

/-- C74, all variables: if the initialisation ends without an exception, every variable mass flow, pressure and
enthalpy of every connection has a number to start with, whatever the user has specified. -/
theorem C74_number (E : StartEnv K) (conns : List (StartConn K)) (s : StartState K)
    (hid : ∀ c ∈ conns, ∀ d ∈ conns, d.id = c.id → d = c)
    (hfile : ∀ id row, E.file id = some row → ∀ k, (row k).1 ≠ none)
    (hgood : ∀ c ∈ conns, s.good c.id = true → ∀ k, (s.box k (c.box k)).val0 ≠ none)
    (href : ∀ c ∈ conns, ∀ k r, c.ref k = some r →
      (∃ d ∈ conns, d.box k = r.1 ∧ (s.box k r.1).isVar = true) ∨ (s.box k r.1).si ≠ none)
    (hok : (initProperties E conns s).2 = none) :
    ∀ c ∈ conns, ∀ k, (s.box k (c.box k)).isVar = true → ((initProperties E conns s).1.box k (c.box k)).si ≠ none := by
  obtain ⟨h1, h2, h3⟩ := pyAndThen_ok hok
  have h4 : (initProperties E conns s).1 = _ := h3
  rw [h4]
  have hF : FirstRel conns s (PyStep.forEach (startFirst E) conns s).1 :=
    PyStep.Rel.forEach (R := FirstRel conns) (firstRel_refl conns) (firstRel_trans conns) _ _
      (fun c hc s => startFirst_first E conns hid hfile c hc s) s
  have hN : ∀ c ∈ conns, ∀ k, (s.box k (c.box k)).isVar = true →
      ((PyStep.forEach (startFirst E) conns s).1.box k (c.box k)).si ≠ none := by
    intro c hc k hv
    refine pyForEach_est (startFirst E) (fun s => (s.box k (c.box k)).si ≠ none)
      (fun s => GoodHasVal0 conns s ∧ (s.box k (c.box k)).isVar = true) conns c hc ?_ ?_ ?_ s ⟨hgood, hv⟩ h1
    · intro d hd s1 hs1
      have := startFirst_first E conns hid hfile d hd s1 hs1.1
      exact ⟨this.1, ((this.2 k _).2.2).trans hs1.2⟩
    · intro s1 hs1 hok1
      exact startFirst_number E conns hid hfile c hc k s1 hs1.1 hs1.2 hok1
    · intro d hd s1 hs1 hP
      exact ((startFirst_first E conns hid hfile d hd s1 hs1.1).2 k _).2.1 hP
  have hRef : ∀ c ∈ conns, ∀ k r, c.ref k = some r → ((PyStep.forEach (startFirst E) conns s).1.box k r.1).si ≠ none := by
    intro c hc k r hr
    rcases href c hc k r hr with ⟨d, hd, hdr, hv⟩ | hsi
    · rw [← hdr] at hv ⊢
      exact hN d hd k hv
    · exact ((hF hgood).2 k _).2.1 hsi
  have hS : StartMono (PyStep.forEach (startFirst E) conns s).1
      (PyStep.forEach (startSecond E) conns (PyStep.forEach (startFirst E) conns s).1).1 := by
    have hrel := PyStep.Rel.forEach
      (R := fun s s' : StartState K => (∀ c ∈ conns, ∀ k r, c.ref k = some r → (s.box k r.1).si ≠ none) → StartMono s s')
      (fun s _ => startMono_refl s)
      (fun a b d g1 g2 h => startMono_trans _ _ _ (g1 h) (g2 (fun c hc k r hr => ((g1 h) k _).2.1 (h c hc k r hr))))
      (startSecond E) conns (fun c hc s h => startSecond_mono E c s (h c hc))
    exact hrel _ hRef
  intro c hc k hv
  exact (hS k _).2.1 (hN c hc k hv)

-- non-vacuity: two connections, vapour fraction and reference specified
example : let conns := [{ startConn 0 .other .turbine with x := some (1 : ℚ) },
      { startConn 1 .turbine .other with ref := fun k => if k = .p then some (0, 1 / 10, 0) else none }]
    (initProperties startEnv conns freshState).2 = none ∧
    ((initProperties startEnv conns freshState).1.box .m 0).si = some (3 / 2) ∧
    ((initProperties startEnv conns freshState).1.box .p 0).si = some 2500000 ∧
    ((initProperties startEnv conns freshState).1.box .h 0).si = some 2400000 ∧
    ((initProperties startEnv conns freshState).1.box .p 1).si = some 250000 ∧
    ((initProperties startEnv conns freshState).1.box .h 1).si = some 1000000 := by decide +kernel

-- non-vacuity of C74_user_partial (10 bar), C74_generic_partial (heat exchanger, valve), C74_mass_partial
example : let conns := [startConn 0 .valve (.simple none)]
    let s : StartState ℚ := { freshState with box := fun k i =>
      if k = .p ∧ i = 0 then ⟨none, some 10, some 0, "bar", false, true⟩ else freshState.box k i }
    Spec.Plain startEnv conns .p 0 ∧ Spec.Plain startEnv conns .h 0 ∧ Spec.Plain startEnv conns .m 0 ∧
    (initProperties startEnv conns s).2 = none ∧ ((initProperties startEnv conns s).1.box .p 0).si = some 1000000 ∧
    ((initProperties startEnv conns s).1.box .h 0).si = some 400000 ∧
    ((initProperties startEnv conns s).1.box .m 0).si = some (3 / 2) := by
  have hp : ∀ k, Spec.Plain startEnv [startConn 0 .valve (.simple none)] k 0 := by
    intro k
    refine ⟨fun _ _ => rfl, ?_, ?_⟩
    · intro c hc _
      simp only [List.mem_singleton] at hc
      subst hc; rfl
    · intro c hc _ _
      simp only [List.mem_singleton] at hc
      subst hc
      exact ⟨rfl, rfl, rfl, rfl⟩
  exact ⟨hp _, hp _, hp _, by decide +kernel, by decide +kernel, by decide +kernel, by decide +kernel⟩

/-! ### C74: exceptions -/

/-- C74, unit of the mass flow: "starting value for mass flow is random between 1 and 2 kg/s" is false in a network
with another unit of mass flow. -/
theorem C74_mass_unit_false : ¬ ∀ (E : StartEnv ℚ) (conns : List (StartConn ℚ)) (s : StartState ℚ) (c : StartConn ℚ),
    c ∈ conns → (∀ i, 0 ≤ E.rand i ∧ E.rand i < 1) → E.factor .m "kg / s" = 1 →
    Spec.Plain E conns .m (c.box .m) → (s.box .m (c.box .m)).val0 = none → (s.box .m (c.box .m)).isVar = true →
    (initProperties E conns s).2 = none →
    ∃ v, ((initProperties E conns s).1.box .m (c.box .m)).si = some v ∧ 1 ≤ v ∧ v ≤ 2 := by
  intro h
  have hplain : Spec.Plain { startEnv with netUnit := fun k => if k = .m then "t / h" else startEnv.netUnit k }
      [startConn 0 .other .other] .m 0 := by
    refine ⟨fun _ _ => rfl, ?_, ?_⟩
    · intro c hc _
      simp only [List.mem_singleton] at hc
      subst hc; rfl
    · intro c hc hm
      cases hm
  have h1 := h { startEnv with netUnit := fun k => if k = .m then "t / h" else startEnv.netUnit k }
    [startConn 0 .other .other]
    { freshState with box := fun k _ => ⟨none, none, some 0, if k = .m then "t / h" else startEnv.netUnit k, false, true⟩ }
    (startConn 0 .other .other) (by simp) (fun _ => by simp only [startEnv]; norm_num) rfl hplain rfl rfl (by decide +kernel)
  obtain ⟨v, hv, h2, _⟩ := h1
  have h3 : (some (5 / 12) : Option ℚ) = some v := by rw [← hv]; decide +kernel
  cases h3
  norm_num at h2

/-- C74, branches: the starting value of a mass flow given by the user at a connection which is not the first one
of its branch is not used: the mass flow of all connections of the branch is the one of the first connection. -/
theorem C74_branch_false : ∃ (H : MHeap ℚ) (E : StartEnv ℚ) (conns : List (StartConn ℚ)) (s : StartState ℚ) (c : StartConn ℚ) (v : ℚ),
    (H.presolve (fun _ => none) [[0, 1]]).2 = none ∧ c ∈ conns ∧
    (∀ d ∈ conns, d.box .m = (H.presolve (fun _ => none) [[0, 1]]).1.ref d.id) ∧
    (s.box .m (H.ref c.id)).val0 = some v ∧ (∀ d ∈ conns, d ≠ c → (s.box .m (H.ref d.id)).val0 = none) ∧
    (∀ d ∈ conns, (s.box .m (d.box .m)).isVar = true) ∧ (∀ d ∈ conns, s.good d.id = false) ∧
    (initProperties E conns s).2 = none ∧
    ((initProperties E conns s).1.box .m (c.box .m)).si ≠ some (v * E.factor .m (s.box .m (H.ref c.id)).unit) := by
  refine ⟨⟨fun _ => ⟨false, 0, 0, "kg / s"⟩, id, fun _ => none⟩, startEnv,
    [startConn 0 .other .valve, { startConn 1 .valve .other with box := fun k => if k = .m then 0 else 1 }],
    { freshState with box := fun k i => if k = .m ∧ i = 1 then ⟨none, some 10, some 0, "kg / s", false, true⟩ else freshState.box k i },
    { startConn 1 .valve .other with box := fun k => if k = .m then 0 else 1 }, 10, rfl, by simp, ?_, rfl, ?_, ?_, ?_,
    by decide +kernel, by decide +kernel⟩
  · intro d hd
    simp only [List.mem_cons, List.not_mem_nil, or_false] at hd
    rcases hd with rfl | rfl <;> rfl
  · intro d hd hne
    simp only [List.mem_cons, List.not_mem_nil, or_false] at hd
    rcases hd with rfl | rfl
    · rfl
    · exact absurd rfl hne
  · intro d hd
    simp only [List.mem_cons, List.not_mem_nil, or_false] at hd
    rcases hd with rfl | rfl <;> rfl
  · intro d hd
    rfl

/-- Documented starting values at the outlet of turbomachines (docstrings compressor.py 604-612, pump.py 456-464,
turbine.py 476-484), pressure and enthalpy. -/
def Spec.turbomachineOutlet : StartClass → Option (ℚ × ℚ)
  | .compressor => some (1000000, 600000)
  | .pump => some (1000000, 300000)
  | .turbine => some (50000, 1500000)
  | _ => none

/-- C74, turbomachines: the documented starting values at the outlet of compressors, pumps and turbines are never
used. -/
theorem C74_turbomachine_false (cls : StartClass) (p h : ℚ) (hd : Spec.turbomachineOutlet cls = some (p, h)) :
    (initProperties startEnv [startConn 0 cls .other] freshState).2 = none ∧
    ((initProperties startEnv [startConn 0 cls .other] freshState).1.box .p 0).si ≠ some p ∧
    ((initProperties startEnv [startConn 0 cls .other] freshState).1.box .h 0).si ≠ some h := by
  cases cls <;> simp only [Spec.turbomachineOutlet, Option.some.injEq, Prod.mk.injEq, reduceCtorEq] at hd <;>
    obtain ⟨rfl, rfl⟩ := hd <;> decide +kernel

/-! ### C75 -/

/-- units of containers stay the units of the network if the units of the file are the same -/
theorem initProperties_unit (E : StartEnv K) (conns : List (StartConn K))
    (hfile : ∀ id row, E.file id = some row → ∀ k, (row k).2 = E.netUnit k) (s : StartState K)
    (hs : ∀ k i, (s.box k i).unit = E.netUnit k) : ∀ k i, ((initProperties E conns s).1.box k i).unit = E.netUnit k := by
  have hput : ∀ (s : StartState K) k i b, b.unit = E.netUnit k → (∀ k i, (s.box k i).unit = E.netUnit k) →
      ∀ k' i', ((s.put k i b).box k' i').unit = E.netUnit k' := by
    intro s k i b hb h k' i'
    rw [put_box]
    split
    · next hk => rw [hb, hk.1]
    · exact h k' i'
  have hseq : ∀ a b : PyStep (StartState K), (∀ s, (∀ k i, (s.box k i).unit = E.netUnit k) → ∀ k i, ((a s).1.box k i).unit = E.netUnit k) →
      (∀ s, (∀ k i, (s.box k i).unit = E.netUnit k) → ∀ k i, ((b s).1.box k i).unit = E.netUnit k) →
      ∀ s, (∀ k i, (s.box k i).unit = E.netUnit k) → ∀ k i, ((a.andThen b s).1.box k i).unit = E.netUnit k := by
    intro a b ha hb s hs
    have h1 := ha s hs
    simp only [PyStep.andThen]
    rcases hr : a s with ⟨s1, _ | e⟩
    · rw [hr] at h1
      exact hb s1 h1
    · rw [hr] at h1
      exact h1
  have hI : ∀ c k s, (∀ k i, (s.box k i).unit = E.netUnit k) → ∀ k' i, ((initVal0 E c k s).1.box k' i).unit = E.netUnit k' := by
    intro c k s hs
    simp only [initVal0]
    cases (s.box k (c.box k)).val0 with
    | some _ => exact hs
    | none =>
      simp only
      split
      · exact hput s k _ _ (hs _ _) hs
      · cases (c.src k).eval E c.id (s.box .p (c.box .p)).si with
        | error e => exact hs
        | ok a =>
          simp only
          cases (c.tgt k).eval E c.id (s.box .p (c.box .p)).si with
          | error e => exact hs
          | ok b => exact hput s k _ _ (hs _ _) hs
  have hO : ∀ c k s, (∀ k i, (s.box k i).unit = E.netUnit k) → ∀ k' i, ((startOne E c k s).1.box k' i).unit = E.netUnit k' := by
    intro c k s hs
    simp only [startOne]
    split
    · refine hseq _ _ ?_ ?_ s hs
      · intro s1 hs1
        split
        · exact hs1
        · exact hI c k s1 hs1
      · intro s1 hs1
        exact hput s1 k _ _ (hs1 _ _) hs1
    · exact hs
  have hT : ∀ (c : StartConn K) r s, (∀ k i, (s.box k i).unit = E.netUnit k) → ∀ k' i, ((startTry c r s).1.box k' i).unit = E.netUnit k' := by
    intro c r s hs
    unfold startTry
    split
    · exact hput s _ _ _ (hs _ _) hs
    · exact hs
    · exact hs
  refine hseq _ _ ?_ ?_ s hs
  · intro s hs
    refine pyForEach_keep (startFirst E) (fun s => ∀ k i, (s.box k i).unit = E.netUnit k) conns ?_ s hs
    intro c _ s hs
    refine hseq _ _ ?_ ?_ s hs
    · intro s hs
      simp only [fromFile]
      cases hr : E.file c.id with
      | none => exact hs
      | some row =>
        simp only
        refine hseq _ _ ?_ (fun s hs => hs) s hs
        intro s hs
        exact pyForEach_keep (fileOne c row) (fun s => ∀ k i, (s.box k i).unit = E.netUnit k) _
          (fun k _ s hs => hput s k _ _ (hfile _ row hr k) hs) s hs
    · intro s hs
      exact pyForEach_keep (startOne E c) (fun s => ∀ k i, (s.box k i).unit = E.netUnit k) _ (fun k _ s hs => hO c k s hs) s hs
  · intro s hs
    refine pyForEach_keep (startSecond E) (fun s => ∀ k i, (s.box k i).unit = E.netUnit k) conns ?_ s hs
    intro c _ s hs
    simp only [startSecond]
    refine hseq _ _ ?_ ?_ s hs
    · intro s hs
      split
      · exact hs
      · refine hseq _ _ ?_ ?_ s hs
        · intro s hs
          refine pyForEach_keep (startRef c) (fun s => ∀ k i, (s.box k i).unit = E.netUnit k) _ ?_ s hs
          intro k _ s hs
          simp only [startRef]
          cases c.ref k with
          | none => exact hs
          | some r =>
            simp only
            split
            · exact hs
            · exact hput s _ _ _ (hs _ _) hs
        · intro s hs
          simp only [startPrecalc]
          split
          · refine hseq _ _ ?_ ?_ s hs
            · intro s hs
              unfold startX
              split
              · exact hs
              · exact hT c _ s hs
            · intro s hs
              unfold startT
              split
              · exact hs
              · exact hT c _ s hs
          · exact hs
    · intro s hs
      simp only [startPhase]
      split
      · split
        · cases E.hpQ c.id (s.box .p (c.box .p)).si 1 with
          | error e => exact hs
          | ok h =>
            simp only
            split
            · exact hput s _ _ _ (hs _ _) hs
            · exact hs
        · split
          · cases E.hpQ c.id (s.box .p (c.box .p)).si 0 with
            | error e => exact hs
            | ok h =>
              simp only
              split
              · exact hput s _ _ _ (hs _ _) hs
              · exact hs
          · exact hs
      · exact hs

/-- C75, one unit system: if the file of `init_path` uses the units of the network, a specified value is the same
after the calculation, its unit is the one of the network and the next calculation works with the same value. -/
theorem C75_units_partial (E : StartEnv K) (prev prev' : Bool) (conns : List (StartConn K)) (sol : PropKind → ℕ → K)
    (s : StartState K) (hfile : ∀ id row, E.file id = some row → ∀ k, (row k).2 = E.netUnit k)
    (hno : Spec.NoPresolvedRef conns (setProperties E prev s)) (k : PropKind) (i : ℕ) (v : K)
    (hset : (s.box k i).isSet = true) (hvar : (s.box k i).isVar = false) (hval : (s.box k i).val = some v)
    (hf : E.factor k (E.netUnit k) ≠ 0) (hok : (calculation E prev conns sol s).2 = none) :
    ((calculation E prev conns sol s).1.box k i).val = some v ∧
    ((calculation E prev conns sol s).1.box k i).unit = E.netUnit k ∧
    ((setProperties E prev' (calculation E prev conns sol s).1).box k i).si = some (v * E.factor k (E.netUnit k)) := by
  have hu := initProperties_unit E conns hfile (setProperties E prev s) (fun _ _ => rfl) k i
  obtain ⟨f1, f2, f3, f4⟩ := C73_fixed_partial E conns (setProperties E prev s) hno k i
  have hsi : ((setProperties E prev s).box k i).si = some (v * E.factor k (E.netUnit k)) := by
    simp only [setProperties, hset, if_true, hval, Option.map_some]
  simp only [calculation] at hok ⊢
  rcases hr : initProperties E conns (setProperties E prev s) with ⟨s1, _ | e⟩
  · rw [hr] at hu f1 f2 f3 f4
    have hs1 : (s1.box k i).isVar = false := f3.trans hvar
    have hb : ((storeResults E (solveVariables sol s1)).box k i).val = some v := by
      simp only [storeResults, solveVariables, hs1, Bool.false_eq_true, if_false]
      rw [f4 hvar, hsi, hu, Option.map_some, mul_div_cancel_right₀ _ hf]
    have hun : ((storeResults E (solveVariables sol s1)).box k i).unit = E.netUnit k := by
      simp only [storeResults, solveVariables, hs1, Bool.false_eq_true, if_false]
      exact hu
    have hst : ((storeResults E (solveVariables sol s1)).box k i).isSet = true := by
      simp only [storeResults, solveVariables, hs1, Bool.false_eq_true, if_false]
      exact f2.trans hset
    refine ⟨hb, hun, ?_⟩
    simp only [setProperties, hst, if_true]
    rw [hb, Option.map_some]
  · rw [hr] at hok
    cases hok

/-- C75, values of the calculation: whatever the file contains, values which are no variables of the calculation are
the same with and without the file. -/
theorem C75_values_partial (E : StartEnv K) (file : ℕ → Option (PropKind → Option K × String)) (conns : List (StartConn K))
    (s : StartState K) (hno : Spec.NoPresolvedRef conns s) (k : PropKind) (i : ℕ) (hvar : (s.box k i).isVar = false) :
    ((initProperties { E with file := file } conns s).1.box k i).si = ((initProperties E conns s).1.box k i).si := by
  rw [(C73_fixed_partial { E with file := file } conns s hno k i).2.2.2 hvar, (C73_fixed_partial E conns s hno k i).2.2.2 hvar]

/-- C75, other units: with a file in another unit the specified pressure of 5 bar is 500000 after the calculation
and the next calculation takes it as 500000 bar. -/
theorem C75_next_run_false : ∃ (E : StartEnv ℚ) (conns : List (StartConn ℚ)) (s : StartState ℚ) (sol : PropKind → ℕ → ℚ) (v : ℚ),
    (s.box .p 0).isSet = true ∧ (s.box .p 0).isVar = false ∧ (s.box .p 0).val = some v ∧
    Spec.NoPresolvedRef conns (setProperties E true s) ∧
    (calculation E true conns sol s).2 = none ∧
    ((setProperties E true s).box .p 0).si = some (v * E.factor .p (E.netUnit .p)) ∧
    ((calculation E true conns sol s).1.box .p 0).si = some (v * E.factor .p (E.netUnit .p)) ∧
    ((calculation E true conns sol s).1.box .p 0).val ≠ some v ∧
    ((setProperties { E with file := fun _ => none } true (calculation E true conns sol s).1).box .p 0).si ≠
      some (v * E.factor .p (E.netUnit .p)) := by
  refine ⟨{ startEnv with file := fun _ => some fun k => match k with
      | .m => (some 1, "kg / s")
      | .p => (some 200000, "Pa")
      | .h => (some 500, "kJ / kg") },
    [startConn 0 .other .other],
    { freshState with box := fun k i => if k = .p ∧ i = 0 then ⟨some 5, none, some 0, "bar", true, false⟩ else freshState.box k i },
    fun _ _ => 1, 5, rfl, rfl, rfl, ?_, by decide +kernel, by decide +kernel, by decide +kernel, by decide +kernel, by decide +kernel⟩
  intro c hc k hk
  simp only [List.mem_singleton] at hc
  subst hc
  exact absurd rfl hk

-- non-vacuity of C75_units_partial
example : let E : StartEnv ℚ := { startEnv with file := fun _ => some fun k => match k with
      | .m => (some 1, "kg / s")
      | .p => (some 2, "bar")
      | .h => (some 500, "kJ / kg") }
    let s : StartState ℚ := { freshState with box := fun k i =>
      if k = .p ∧ i = 0 then ⟨some 5, none, some 0, "bar", true, false⟩ else freshState.box k i }
    (calculation E true [startConn 0 .other .other] (fun _ _ => 1) s).2 = none ∧
    ((calculation E true [startConn 0 .other .other] (fun _ _ => 1) s).1.box .p 0).val = some 5 ∧
    ((initProperties E [startConn 0 .other .other] s).1.box .h 0).si = some 500000 := by decide +kernel

/-! ### C76 -/

/-- The two states differ in the SI values of variables only, and not for those in `V`. -/
structure SameStart (V : PropKind → ℕ → Prop) (s s' : StartState K) : Prop where
  good : s'.good = s.good
  val0 : ∀ k i, (s'.box k i).val0 = (s.box k i).val0
  unit : ∀ k i, (s'.box k i).unit = (s.box k i).unit
  isSet : ∀ k i, (s'.box k i).isSet = (s.box k i).isSet
  isVar : ∀ k i, (s'.box k i).isVar = (s.box k i).isVar
  si : ∀ k i, (s.box k i).isVar = false ∨ V k i → (s'.box k i).si = (s.box k i).si

/-- the step does the same in both states -/
def StartSim (V V' : PropKind → ℕ → Prop) (a : PyStep (StartState K)) : Prop :=
  ∀ s s', SameStart V s s' → (a s').2 = (a s).2 ∧ ((a s).2 = none → SameStart V' (a s).1 (a s').1)

theorem StartSim.andThen {V V' V'' : PropKind → ℕ → Prop} {a b : PyStep (StartState K)} (ha : StartSim V V' a)
    (hb : StartSim V' V'' b) : StartSim V V'' (a.andThen b) := by
  intro s s' h
  obtain ⟨h1, h2⟩ := ha s s' h
  simp only [PyStep.andThen]
  rcases hr : a s with ⟨s1, _ | e⟩
  · rcases hr' : a s' with ⟨s1', _ | e'⟩
    · rw [hr, hr'] at h2
      exact hb s1 s1' (h2 rfl)
    · rw [hr, hr'] at h1; cases h1
  · rcases hr' : a s' with ⟨s1', _ | e'⟩
    · rw [hr, hr'] at h1; cases h1
    · rw [hr, hr'] at h1
      exact ⟨h1, fun h => by cases h⟩

theorem startSim_forEach {α : Type} {V : PropKind → ℕ → Prop} (f : α → PyStep (StartState K)) (l : List α)
    (hf : ∀ a ∈ l, StartSim V V (f a)) : StartSim V V (PyStep.forEach f l) := by
  induction l with
  | nil => exact fun s s' h => ⟨rfl, fun _ => h⟩
  | cons a l ih => exact StartSim.andThen (hf a (by simp)) (ih (fun b hb => hf b (by simp [hb])))

theorem SameStart.weaken {V V' : PropKind → ℕ → Prop} {s s' : StartState K} (h : SameStart V s s')
    (hV : ∀ k i, V' k i → V k i) : SameStart V' s s' :=
  ⟨h.good, h.val0, h.unit, h.isSet, h.isVar, fun k i hi => h.si k i (hi.imp id (hV k i))⟩

theorem SameStart.put {V V' : PropKind → ℕ → Prop} {s s' : StartState K} (h : SameStart V s s') (k : PropKind) (i : ℕ)
    (b b' : StartBox K) (h1 : b'.val0 = b.val0) (h2 : b'.unit = b.unit) (h3 : b'.isSet = b.isSet)
    (h4 : b'.isVar = b.isVar) (h5 : b.isVar = false ∨ V' k i → b'.si = b.si)
    (hV : ∀ k' i', ¬ (k' = k ∧ i' = i) → V' k' i' → V k' i') : SameStart V' (s.put k i b) (s'.put k i b') := by
  refine ⟨h.good, ?_, ?_, ?_, ?_, ?_⟩
  · intro k' i'; rw [put_box, put_box]; split
    · exact h1
    · exact h.val0 k' i'
  · intro k' i'; rw [put_box, put_box]; split
    · exact h2
    · exact h.unit k' i'
  · intro k' i'; rw [put_box, put_box]; split
    · exact h3
    · exact h.isSet k' i'
  · intro k' i'; rw [put_box, put_box]; split
    · exact h4
    · exact h.isVar k' i'
  · intro k' i'; rw [put_box, put_box]; split
    · next hk =>
      obtain ⟨rfl, rfl⟩ := hk
      exact h5
    · next hk => exact fun hi => h.si k' i' (hi.imp id (hV k' i' hk))

theorem SameStart.putSI {V V' : PropKind → ℕ → Prop} {s s' : StartState K} (h : SameStart V s s') (k : PropKind) (i : ℕ)
    (v : Option K) (hV : ∀ k' i', ¬ (k' = k ∧ i' = i) → V' k' i' → V k' i') :
    SameStart V' (s.putSI k i v) (s'.putSI k i v) :=
  h.put k i _ _ (h.val0 k i) (h.unit k i) (h.isSet k i) (h.isVar k i) (fun _ => rfl) hV

/-- The suggestions for pressures are numbers (true for all components: `sourceHint`, `targetHint`). -/
def Spec.PressureNumbers (conns : List (StartConn K)) : Prop :=
  ∀ c ∈ conns, (∃ a, c.src .p = .number a) ∧ ∃ b, c.tgt .p = .number b

theorem initVal0_sim (E : StartEnv K) (V : PropKind → ℕ → Prop) (c : StartConn K) (k : PropKind)
    (hnum : (∃ a, c.src .p = .number a) ∧ ∃ b, c.tgt .p = .number b) (s s' : StartState K) (h : SameStart V s s')
    (hp : k = .h → (s.box .p (c.box .p)).isVar = false ∨ V .p (c.box .p)) :
    (initVal0 E c k s').2 = (initVal0 E c k s).2 ∧ SameStart V (initVal0 E c k s).1 (initVal0 E c k s').1 := by
  have hput : ∀ v, SameStart V (s.put k (c.box k) { s.box k (c.box k) with val0 := v })
      (s'.put k (c.box k) { s'.box k (c.box k) with val0 := v }) :=
    fun v => h.put k _ _ _ rfl (h.unit _ _) (h.isSet _ _) (h.isVar _ _) (h.si _ _) (fun _ _ _ => id)
  have hev : k ≠ .m → (c.src k).eval E c.id (s'.box .p (c.box .p)).si = (c.src k).eval E c.id (s.box .p (c.box .p)).si ∧
      (c.tgt k).eval E c.id (s'.box .p (c.box .p)).si = (c.tgt k).eval E c.id (s.box .p (c.box .p)).si := by
    intro hk
    cases k with
    | m => exact absurd rfl hk
    | p =>
      obtain ⟨⟨a, ha⟩, b, hb⟩ := hnum
      rw [ha, hb]
      exact ⟨rfl, rfl⟩
    | h => rw [h.si .p _ (hp rfl)]; exact ⟨rfl, rfl⟩
  simp only [initVal0, h.val0]
  cases (s.box k (c.box k)).val0 with
  | some _ => exact ⟨rfl, h⟩
  | none =>
    simp only
    by_cases hk : k = .m
    · rw [if_pos hk, if_pos hk]
      exact ⟨rfl, hput _⟩
    · rw [if_neg hk, if_neg hk, (hev hk).1, (hev hk).2]
      cases (c.src k).eval E c.id (s.box .p (c.box .p)).si with
      | error e => exact ⟨rfl, h⟩
      | ok a =>
        simp only
        cases (c.tgt k).eval E c.id (s.box .p (c.box .p)).si with
        | error e => exact ⟨rfl, h⟩
        | ok b => exact ⟨rfl, hput _⟩

theorem startOne_sim (E : StartEnv K) (V V' : PropKind → ℕ → Prop) (c : StartConn K) (k : PropKind)
    (hnum : (∃ a, c.src .p = .number a) ∧ ∃ b, c.tgt .p = .number b) (hp : k = .h → V .p (c.box .p))
    (hV : ∀ k' i', ¬ (k' = k ∧ i' = c.box k) → V' k' i' → V k' i') : StartSim V V' (startOne E c k) := by
  intro s s' h
  simp only [startOne, h.isVar, h.good]
  by_cases hv : (s.box k (c.box k)).isVar = true
  · rw [if_pos hv, if_pos hv]
    have h1 : StartSim V V (if s.good c.id then PyStep.skip else initVal0 E c k) := by
      split
      · exact fun s s' h => ⟨rfl, fun _ => h⟩
      · intro s1 s1' h'
        have := initVal0_sim E V c k hnum s1 s1' h' (fun hk => Or.inr (hp hk))
        exact ⟨this.1, fun _ => this.2⟩
    refine StartSim.andThen h1 ?_ s s' h
    intro s1 s1' g
    refine ⟨rfl, fun _ => ?_⟩
    simp only [g.val0, g.unit]
    exact g.putSI k _ _ hV
  · rw [if_neg hv, if_neg hv]
    refine ⟨rfl, fun _ => ⟨h.good, h.val0, h.unit, h.isSet, h.isVar, ?_⟩⟩
    intro k' i' hi
    by_cases hk : k' = k ∧ i' = c.box k
    · obtain ⟨rfl, rfl⟩ := hk
      exact h.si _ _ (Or.inl (by simpa using hv))
    · exact h.si k' i' (hi.imp id (hV k' i' hk))

theorem startFirst_sim (E : StartEnv K) (V : PropKind → ℕ → Prop) (c : StartConn K)
    (hnum : (∃ a, c.src .p = .number a) ∧ ∃ b, c.tgt .p = .number b) :
    StartSim V (fun k i => V k i ∨ i = c.box k) (startFirst E c) := by
  have hf : StartSim V V (fromFile E c) := by
    simp only [fromFile]
    cases E.file c.id with
    | none => exact fun s s' h => ⟨rfl, fun _ => h⟩
    | some row =>
      refine StartSim.andThen (startSim_forEach _ _ ?_) ?_
      · intro k _ s s' h
        exact ⟨rfl, fun _ => h.put k _ _ _ rfl rfl (h.isSet _ _) (h.isVar _ _) (h.si _ _) (fun _ _ _ => id)⟩
      · intro s s' h
        refine ⟨rfl, fun _ => ⟨?_, h.val0, h.unit, h.isSet, h.isVar, h.si⟩⟩
        simp only [h.good]
  refine StartSim.andThen hf ?_
  have h1 : StartSim V (fun k i => V k i ∨ k = .m ∧ i = c.box k) (startOne E c .m) :=
    startOne_sim E V _ c .m hnum (fun h => by cases h) (by
      rintro k' i' hn (h | ⟨rfl, h⟩)
      · exact h
      · exact absurd ⟨rfl, h⟩ hn)
  have h2 : StartSim (fun k i => V k i ∨ k = .m ∧ i = c.box k) (fun k i => V k i ∨ (k = .m ∨ k = .p) ∧ i = c.box k) (startOne E c .p) :=
    startOne_sim E _ _ c .p hnum (fun h => by cases h) (by
      rintro k' i' hn (h | ⟨rfl | rfl, h⟩)
      · exact Or.inl h
      · exact Or.inr ⟨rfl, h⟩
      · exact absurd ⟨rfl, h⟩ hn)
  have h3 : StartSim (fun k i => V k i ∨ (k = .m ∨ k = .p) ∧ i = c.box k) (fun k i => V k i ∨ i = c.box k) (startOne E c .h) :=
    startOne_sim E _ _ c .h hnum (fun _ => Or.inr ⟨Or.inr rfl, rfl⟩) (by
      rintro k' i' hn (h | h)
      · exact Or.inl h
      · cases k' with
        | m => exact Or.inr ⟨Or.inl rfl, h⟩
        | p => exact Or.inr ⟨Or.inr rfl, h⟩
        | h => exact absurd ⟨rfl, h⟩ hn)
  exact h1.andThen (h2.andThen (h3.andThen (fun s s' h => ⟨rfl, fun _ => h⟩)))

theorem startFirstAll_sim (E : StartEnv K) (conns : List (StartConn K)) (hnum : Spec.PressureNumbers conns)
    (V : PropKind → ℕ → Prop) :
    StartSim V (fun k i => V k i ∨ ∃ c ∈ conns, i = c.box k) (PyStep.forEach (startFirst E) conns) := by
  induction conns generalizing V with
  | nil =>
    intro s s' h
    exact ⟨rfl, fun _ => h.weaken (by
      rintro k i (h | ⟨c, hc, _⟩)
      · exact h
      · cases hc)⟩
  | cons c l ih =>
    have h1 := startFirst_sim E V c (hnum c (by simp))
    have h2 := ih (fun c hc => hnum c (by simp [hc])) (fun k i => V k i ∨ i = c.box k)
    intro s s' h
    have h3 := h1.andThen h2 s s' h
    refine ⟨h3.1, fun hn => (h3.2 hn).weaken ?_⟩
    rintro k i (hv | ⟨d, hd, hi⟩)
    · exact Or.inl (Or.inl hv)
    · rcases List.mem_cons.mp hd with rfl | hd
      · exact Or.inl (Or.inr hi)
      · exact Or.inr ⟨d, hd, hi⟩

theorem startTry_sim (V : PropKind → ℕ → Prop) (c : StartConn K) (r : PyRes K) : StartSim V V (startTry c r) := by
  intro s s' h
  unfold startTry
  split
  · exact ⟨rfl, fun _ => h.putSI _ _ _ (fun _ _ _ => id)⟩
  · exact ⟨rfl, fun _ => h⟩
  · exact ⟨rfl, fun _ => h⟩

theorem startSecond_sim (E : StartEnv K) (V : PropKind → ℕ → Prop) (c : StartConn K) (hV : ∀ k, V k (c.box k))
    (href : ∀ k r, c.ref k = some r → V k r.1) : StartSim V V (startSecond E c) := by
  have hR : ∀ k, StartSim V V (startRef c k) := by
    intro k s s' h
    simp only [startRef]
    cases hr : c.ref k with
    | none => exact ⟨rfl, fun _ => h⟩
    | some r =>
      obtain ⟨j, f, d⟩ := r
      simp only [h.isSet, h.si k j (Or.inr (href k _ hr))]
      split
      · exact ⟨rfl, fun _ => h⟩
      · exact ⟨rfl, fun _ => h.putSI _ _ _ (fun _ _ _ => id)⟩
  have hX : StartSim V V (startX E c) := by
    intro s s' h
    simp only [startX, h.si .p _ (Or.inr (hV .p))]
    split
    · exact ⟨rfl, fun _ => h⟩
    · exact startTry_sim V c _ s s' h
  have hT : StartSim V V (startT E c) := by
    intro s s' h
    simp only [startT, h.si .p _ (Or.inr (hV .p))]
    split
    · exact ⟨rfl, fun _ => h⟩
    · exact startTry_sim V c _ s s' h
  have hC : StartSim V V (startPrecalc E c) := by
    intro s s' h
    simp only [startPrecalc, h.isVar]
    split
    · exact hX.andThen hT s s' h
    · exact ⟨rfl, fun _ => h⟩
  have hP : StartSim V V (startPhase E c) := by
    intro s s' h
    simp only [startPhase, h.isVar, h.si .p _ (Or.inr (hV .p)), h.si .h _ (Or.inr (hV .h))]
    split
    · split
      · cases E.hpQ c.id (s.box .p (c.box .p)).si 1 with
        | error e => exact ⟨rfl, fun _ => h⟩
        | ok v =>
          simp only
          split
          · exact ⟨rfl, fun _ => h.putSI _ _ _ (fun _ _ _ => id)⟩
          · exact ⟨rfl, fun _ => h⟩
      · split
        · cases E.hpQ c.id (s.box .p (c.box .p)).si 0 with
          | error e => exact ⟨rfl, fun _ => h⟩
          | ok v =>
            simp only
            split
            · exact ⟨rfl, fun _ => h.putSI _ _ _ (fun _ _ _ => id)⟩
            · exact ⟨rfl, fun _ => h⟩
        · exact ⟨rfl, fun _ => h⟩
    · exact ⟨rfl, fun _ => h⟩
  intro s s' h
  simp only [startSecond, h.good]
  refine StartSim.andThen (V' := V) ?_ hP s s' h
  split
  · exact fun s s' h => ⟨rfl, fun _ => h⟩
  · exact (startSim_forEach _ _ (fun k _ => hR k)).andThen hC

/-- C76, left over values: the values which the variables have before the initialisation, for example those of a
calculation which was aborted, do not influence the starting values: two states which differ in the values of
variables only have the same values of all connections afterwards, and the same exception. -/
theorem C76_left_over_partial (E : StartEnv K) (conns : List (StartConn K)) (s s' : StartState K)
    (hnum : Spec.PressureNumbers conns)
    (href : ∀ c ∈ conns, ∀ k r, c.ref k = some r → ∃ d ∈ conns, r.1 = d.box k)
    (hgood : s'.good = s.good)
    (hbox : ∀ k i, s'.box k i = { s.box k i with si := (s'.box k i).si })
    (hfix : ∀ k i, (s.box k i).isVar = false → s'.box k i = s.box k i) :
    (initProperties E conns s').2 = (initProperties E conns s).2 ∧
    ((initProperties E conns s).2 = none → ∀ c ∈ conns, ∀ k,
      ((initProperties E conns s').1.box k (c.box k)).si = ((initProperties E conns s).1.box k (c.box k)).si) := by
  have h0 : SameStart (fun _ _ => False) s s' := by
    refine ⟨hgood, ?_, ?_, ?_, ?_, ?_⟩
    · intro k i; rw [hbox k i]
    · intro k i; rw [hbox k i]
    · intro k i; rw [hbox k i]
    · intro k i; rw [hbox k i]
    · intro k i hi
      rcases hi with hi | hi
      · rw [hfix k i hi]
      · exact hi.elim
  have h1 := startFirstAll_sim E conns hnum (fun _ _ => False)
  have h2 : StartSim (fun k i => False ∨ ∃ c ∈ conns, i = c.box k) (fun k i => False ∨ ∃ c ∈ conns, i = c.box k)
      (PyStep.forEach (startSecond E) conns) :=
    startSim_forEach _ _ (fun c hc => startSecond_sim E _ c (fun k => Or.inr ⟨c, hc, rfl⟩)
      (fun k r hr => Or.inr (href c hc k r hr)))
  have h3 := h1.andThen h2 s s' h0
  exact ⟨h3.1, fun hn c hc k => (h3.2 hn).si k _ (Or.inr (Or.inr ⟨c, hc, rfl⟩))⟩

/-- all components suggest numbers for pressures -/
theorem pressureNumbers (conns : List (StartConn ℚ))
    (h : ∀ c ∈ conns, ∃ a b o i, c.src = sourceHint a o ∧ c.tgt = targetHint b i) : Spec.PressureNumbers conns := by
  intro c hc
  obtain ⟨a, b, o, i, h1, h2⟩ := h c hc
  rw [h1, h2]
  constructor
  · cases a <;> exact ⟨_, rfl⟩
  · cases b <;> exact ⟨_, rfl⟩

-- non-vacuity of C76_left_over_partial: other values of the variables, same start
example : let s' : StartState ℚ := { freshState with box := fun k i => { freshState.box k i with si := some 77 } }
    (∀ k i, s'.box k i = { freshState.box k i with si := (s'.box k i).si }) ∧
    ((initProperties startEnv [startConn 0 .valve .other] s').1.box .p 0).si = some 400000 ∧
    ((initProperties startEnv [startConn 0 .valve .other] freshState).1.box .p 0).si = some 400000 :=
  ⟨fun _ _ => rfl, by decide +kernel, by decide +kernel⟩

/-- C76, results: with `init_previous=False` the calculation starts with the results of the former calculation and
not with the starting values of the user; a new network with the same specifications starts elsewhere. -/
theorem C76_previous_false : ∃ (E : StartEnv ℚ) (conns : List (StartConn ℚ)) (s : StartState ℚ) (sol : PropKind → ℕ → ℚ) (v : ℚ),
    (∀ id, E.file id = none) ∧ Spec.Plain E conns .m 0 ∧ (s.box .m 0).val0 = some v ∧
    (initProperties E conns (setProperties E false s)).2 = none ∧
    ((initProperties E conns (setProperties E false s)).1.box .m 0).si = some (v * E.factor .m (E.netUnit .m)) ∧
    (calculation E false conns sol s).2 = none ∧
    (initProperties E conns (setProperties E false (calculation E false conns sol s).1)).2 = none ∧
    ((initProperties E conns (setProperties E false (calculation E false conns sol s).1)).1.box .m 0).si =
      some (sol .m 0) ∧ sol .m 0 ≠ v * E.factor .m (E.netUnit .m) := by
  refine ⟨startEnv, [startConn 0 .valve .other],
    { freshState with box := fun k i => if k = .m ∧ i = 0 then ⟨none, some 10, some 0, "kg / s", false, true⟩ else freshState.box k i },
    fun _ _ => 3, 10, fun _ => rfl, ⟨fun _ _ => rfl, ?_, ?_⟩, rfl, by decide +kernel, by decide +kernel, by decide +kernel,
    by decide +kernel, by decide +kernel, by decide +kernel⟩
  · intro c hc _
    simp only [List.mem_singleton] at hc
    subst hc; rfl
  · intro c _ h
    cases h

end Tespy
