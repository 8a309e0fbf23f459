import Mathlib.Algebra.Order.Field.Rat
import Mathlib.Algebra.Order.Archimedean.Basic
import Mathlib.Tactic.Linarith
import Mathlib.Tactic.NormNum
import Mathlib.Tactic.Ring
import Verif.Model.Checks
/-
C69: the checks of an iteration change variables only.
-/
namespace Tespy
variable {K : Type} [Field K] [LinearOrder K]

/-! ### specification -/

/-- Nothing but variables differs between two states. -/
def Spec.OnlyVariables (E : ChkEnv K) (s s' : ChkState K) : Prop :=
  (∀ k i, E.isVar k i = false → s'.val k i = s.val k i) ∧
  (∀ i f, f ∉ E.fvar i → s'.frac i f = s.frac i f)

/-! ### general lemmas -/

/-- the relation `R` holds between the states before and after a step -/
def ChkStep.Rel (R : ChkState K → ChkState K → Prop) (a : ChkStep K) : Prop := ∀ s, R s (a s).1

theorem ChkStep.Rel.andThen {R : ChkState K → ChkState K → Prop} (ht : ∀ a b c, R a b → R b c → R a c)
    {a b : ChkStep K} (ha : a.Rel R) (hb : b.Rel R) : (a.andThen b).Rel R := by
  intro s
  have h1 := ha s
  simp only [ChkStep.andThen]
  rcases h : a s with ⟨s1, _ | e⟩
  · rw [h] at h1
    exact ht _ _ _ h1 (hb s1)
  · rw [h] at h1
    exact h1

theorem ChkStep.Rel.skip {R : ChkState K → ChkState K → Prop} (hr : ∀ a, R a a) :
    (ChkStep.skip : ChkStep K).Rel R := fun s => hr s

theorem ChkStep.Rel.forEach {α : Type} {R : ChkState K → ChkState K → Prop} (hr : ∀ a, R a a)
    (ht : ∀ a b c, R a b → R b c → R a c) (f : α → ChkStep K) (l : List α)
    (hf : ∀ a ∈ l, (f a).Rel R) : (ChkStep.forEach f l).Rel R := by
  induction l with
  | nil => exact ChkStep.Rel.skip hr
  | cons a l ih =>
    exact ChkStep.Rel.andThen ht (hf a (by simp)) (ih (fun b hb => hf b (by simp [hb])))

/-! ### C69 -/

namespace Spec.OnlyVariables
variable {E : ChkEnv K}

theorem refl (s : ChkState K) : Spec.OnlyVariables E s s := ⟨fun _ _ _ => rfl, fun _ _ _ => rfl⟩

theorem trans (a b c : ChkState K) (h1 : Spec.OnlyVariables E a b) (h2 : Spec.OnlyVariables E b c) :
    Spec.OnlyVariables E a c :=
  ⟨fun k i h => (h2.1 k i h).trans (h1.1 k i h), fun i f h => (h2.2 i f h).trans (h1.2 i f h)⟩

theorem put (s : ChkState K) (c : ChkConn K) (k : PropKind) (v : K) (h : E.var c k = true) :
    Spec.OnlyVariables E s (s.put c k v) := by
  refine ⟨fun k' i hi => ?_, fun _ _ _ => rfl⟩
  simp only [ChkState.put]
  split
  · next hc =>
    obtain ⟨rfl, rfl⟩ := hc
    simp only [ChkEnv.var] at h
    rw [h] at hi; cases hi
  · rfl

theorem putFrac (s : ChkState K) (i : ℕ) (f : String) (v : K) (h : f ∈ E.fvar i) :
    Spec.OnlyVariables E s (s.putFrac i f v) := by
  refine ⟨fun _ _ _ => rfl, fun j g hg => ?_⟩
  simp only [ChkState.putFrac]
  split
  · next hc =>
    obtain ⟨rfl, rfl⟩ := hc
    exact absurd h hg
  · rfl

end Spec.OnlyVariables

theorem only_adjust (E : ChkEnv K) (c : ChkConn K) (k : PropKind) (cond : ChkState K → Bool)
    (value : ChkState K → K) : (adjust E c k cond value).Rel (Spec.OnlyVariables E) := by
  intro s
  simp only [adjust]
  split
  · next h => exact Spec.OnlyVariables.put s c k _ h.1
  · exact Spec.OnlyVariables.refl s

section
variable {R : ChkState K → ChkState K → Prop} (hr : ∀ a, R a a) (ht : ∀ a b c, R a b → R b c → R a c)

include hr in
theorem rel_pressure (fl : PureFluid K) (c : ChkConn K) (h : ∀ s v, R s (s.put c .p v)) :
    (checkPressure fl c).Rel R := by
  intro s
  simp only [checkPressure]
  split
  · exact h s _
  · split
    · cases fl.T_ph (s.get c .p) (s.get c .h) with
      | ok _ => exact hr s
      | error _ => exact h s _
    · exact hr s

include hr in
theorem rel_enthalpy (fuel : ℕ) (fl : PureFluid K) (c : ChkConn K) (h : ∀ s v, R s (s.put c .h v)) :
    (checkEnthalpy fuel fl c).Rel R := by
  intro s
  simp only [checkEnthalpy]
  cases lowerEnthalpy fl (s.get c .p) with
  | error e => exact hr s
  | ok hmin =>
    simp only
    split
    · split <;> exact h s _
    · rcases upperEnthalpy fl (s.get c .p) fuel fl.TMax with _ | (e | hmax)
      · exact hr s
      · exact hr s
      · simp only
        split
        · exact h s _
        · exact hr s

include hr in
theorem rel_twoPhase (fl : PureFluid K) (c : ChkConn K) (h : ∀ s v, R s (s.put c .h v)) :
    (checkTwoPhase fl c).Rel R := by
  intro s
  simp only [checkTwoPhase]
  split
  · cases fl.h_pQ (s.get c .p) 1 with
    | error e => exact hr s
    | ok x =>
      simp only
      split
      · exact h s _
      · exact hr s
  · split
    · cases fl.h_pQ (s.get c .p) 0 with
      | error e => exact hr s
      | ok x =>
        simp only
        split
        · exact h s _
        · exact hr s
    · exact hr s

include hr ht in
theorem rel_temperature (E : ChkEnv K) (c : ChkConn K) (h : ∀ s v, R s (s.put c .h v)) :
    (checkTemperature E c).Rel R := by
  intro s
  simp only [checkTemperature]
  rcases E.mixRange s c with e | ⟨hmin, hmax⟩
  · exact hr s
  · simp only
    have h1 : R s (if s.get c .h < hmin then s.put c .h hmin else s) := by
      split
      · exact h s _
      · exact hr s
    split_ifs at h1 ⊢ <;>
    first
    | exact h1
    | exact ht _ _ _ h1 (h _ _)

include hr in
theorem rel_clip (E : ChkEnv K) (c : ChkConn K) (k : PropKind) (h : ∀ s v, R s (s.put c k v)) :
    (clipRange E c k).Rel R := by
  intro s
  simp only [clipRange]
  split
  · exact h s _
  · split
    · exact h s _
    · exact hr s

include hr ht in
theorem rel_state (E : ChkEnv K) (fuel iter : ℕ) (c : ChkConn K)
    (hp : E.var c .p = true → ∀ s v, R s (s.put c .p v))
    (hh : E.var c .h = true → ∀ s v, R s (s.put c .h v)) : (checkState E fuel iter c).Rel R := by
  have hs := ChkStep.Rel.skip (K := K) hr
  intro s
  simp only [checkState]
  cases E.single s c with
  | some fl =>
    refine ChkStep.Rel.andThen ht ?_ ?_ s
    · split
      · next h => exact rel_pressure hr fl c (hp h)
      · exact hs
    · split
      · next h =>
        refine ChkStep.Rel.andThen ht (rel_enthalpy hr fuel fl c (hh h)) ?_
        split
        · exact rel_twoPhase hr fl c (hh h)
        · exact hs
      · exact hs
  | none =>
    simp only
    split
    · refine ChkStep.Rel.andThen ht ?_ ?_ s
      · split
        · next h => exact rel_clip hr E c _ (hp h)
        · exact hs
      · split
        · next h =>
          refine ChkStep.Rel.andThen ht (rel_clip hr E c _ (hh h)) ?_
          split
          · exact rel_temperature hr ht E c (hh h)
          · exact hs
        · exact hs
    · exact hr s

include hr ht in
theorem rel_connection (E : ChkEnv K) (fuel iter : ℕ) (c : ChkConn K)
    (h : ∀ k, E.var c k = true → ∀ s v, R s (s.put c k v)) : (checkConnection E fuel iter c).Rel R := by
  refine ChkStep.Rel.andThen ht (rel_state hr ht E fuel iter c (h .p) (h .h)) ?_
  split
  · next hv => exact rel_clip hr E c _ (h .m hv)
  · exact ChkStep.Rel.skip hr

end

theorem only_connection (E : ChkEnv K) (fuel iter : ℕ) (c : ChkConn K) :
    (checkConnection E fuel iter c).Rel (Spec.OnlyVariables E) :=
  rel_connection Spec.OnlyVariables.refl Spec.OnlyVariables.trans E fuel iter c
    (fun _ h s v => Spec.OnlyVariables.put s c _ v h)

theorem only_pumpFlow (E : ChkEnv K) (i : ChkConn K) (vol : ChkState K → PyRes K) (x : List K) :
    (pumpFlow E i vol x).Rel (Spec.OnlyVariables E) := by
  intro s
  simp only [pumpFlow]
  cases vol s with
  | error e => exact Spec.OnlyVariables.refl s
  | ok v =>
    simp only
    cases pyGet x (-1) with
    | error e => exact Spec.OnlyVariables.refl s
    | ok last =>
      simp only
      split
      · next h =>
        split
        · exact Spec.OnlyVariables.refl s
        · exact Spec.OnlyVariables.put s i _ _ h.2
      · rcases pyGet x 1 with _ | second
        · exact Spec.OnlyVariables.refl s
        · rcases pyGet x 0 with _ | first
          · exact Spec.OnlyVariables.refl s
          · simp only
            split
            · next h =>
              split
              · exact Spec.OnlyVariables.refl s
              · exact Spec.OnlyVariables.put s i _ _ h.2
            · exact Spec.OnlyVariables.refl s

theorem only_checkMass (E : ChkEnv K) (inl : List (ChkConn K)) (s : ChkState K) :
    Spec.OnlyVariables E s (checkMass E inl s).1 := by
  induction inl generalizing s with
  | nil => exact Spec.OnlyVariables.refl s
  | cons i inl ih =>
    simp only [checkMass]
    refine Spec.OnlyVariables.trans _ _ _ ?_ (ih _)
    split
    · next h => exact Spec.OnlyVariables.put s i _ _ h.2
    · exact Spec.OnlyVariables.refl s

theorem only_normalise (E : ChkEnv K) (c : ChkConn K) :
    (normaliseFluids E c).Rel (Spec.OnlyVariables E) := by
  intro s
  simp only [normaliseFluids]
  split
  · exact Spec.OnlyVariables.refl s
  · split
    · exact Spec.OnlyVariables.refl s
    · refine ⟨fun _ _ _ => rfl, fun i f hf => ?_⟩
      simp only
      split
      · next h =>
        obtain ⟨rfl, h2⟩ := h
        exact absurd h2 hf
      · rfl

/-- the fuel inlet found has a variable mass flow -/
theorem fuelSearch_var (E : ChkEnv K) (F : CombFluids K) (s : ChkState K) (inl : List (ChkConn K))
    (r : Bool × Option (ChkConn K) × Option K) (hr : ∀ i, r.2.1 = some i → E.var i .m = true) :
    ∀ i, (fuelSearch E F s inl r).2.1 = some i → E.var i .m = true := by
  induction inl generalizing r with
  | nil => exact hr
  | cons j inl ih =>
    simp only [fuelSearch]
    split
    · exact ih _ hr
    · apply ih
      have hj : ∀ h1 : (F.fuels.map (s.frac j.fid)).sum > 3 / 4 ∧ E.var j .m = true,
          ∀ i, some j = some i → E.var i .m = true := by
        rintro h1 i hi
        cases hi
        exact h1.2
      split_ifs with h2 h1 h1
      · exact hj h1
      · exact hr
      · exact hj h1
      · exact hr

theorem only_fuelGuess (E : ChkEnv K) (F : CombFluids K) (inl : List (ChkConn K)) :
    (fuelGuess E F inl).Rel (Spec.OnlyVariables E) := by
  intro s
  simp only [fuelGuess]
  cases F.lamb with
  | none => exact Spec.OnlyVariables.refl s
  | some l =>
    simp only
    split
    · have hv := fuelSearch_var E F s inl (false, none, none) (by simp)
      generalize fuelSearch E F s inl (false, none, none) = r at hv
      obtain ⟨_ | _, _ | i, _ | air⟩ := r <;> simp only <;>
        first
        | exact Spec.OnlyVariables.refl s
        | exact Spec.OnlyVariables.put s i _ _ (hv i rfl)
    · exact Spec.OnlyVariables.refl s

theorem only_component (E : ChkEnv K) (cp : ChkComp K) : (cp.check E).Rel (Spec.OnlyVariables E) := by
  have hr := ChkStep.Rel.skip (K := K) (Spec.OnlyVariables.refl (E := E))
  have ht := Spec.OnlyVariables.trans (E := E)
  cases cp with
  | compressor i o =>
    exact .andThen ht (only_adjust _ _ _ _ _) (.andThen ht (only_adjust _ _ _ _ _) (.andThen ht (only_adjust _ _ _ _ _) (only_adjust _ _ _ _ _)))
  | pump i o flow =>
    refine .andThen ht (.andThen ht (only_adjust _ _ _ _ _) (.andThen ht (only_adjust _ _ _ _ _)
      (.andThen ht (only_adjust _ _ _ _ _) (only_adjust _ _ _ _ _)))) ?_
    rcases flow with _ | ⟨vol, x⟩
    · exact hr
    · exact only_pumpFlow E i vol x
  | turbine i o =>
    refine .andThen ht ?_ (.andThen ht (only_adjust _ _ _ _ _) (only_adjust _ _ _ _ _))
    split
    · exact hr
    · exact .andThen ht (only_adjust _ _ _ _ _) (.andThen ht (only_adjust _ _ _ _ _) (only_adjust _ _ _ _ _))
  | combustion F inl o =>
    intro s
    refine ht _ _ _ (only_checkMass E inl s) ?_
    refine ChkStep.Rel.andThen ht (ChkStep.Rel.forEach (Spec.OnlyVariables.refl (E := E)) ht _ _ ?_) ?_ _
    · intro f hf s
      simp only [combFluid]
      cases combFrac F inl _ s f (s.frac o.fid f) with
      | none => exact Spec.OnlyVariables.refl s
      | some x => exact Spec.OnlyVariables.putFrac s _ _ _ hf
    · refine .andThen ht (only_normalise E o) (.andThen ht (only_adjust _ _ _ _ _) (.andThen ht ?_ (only_fuelGuess E F inl)))
      split
      · exact hr
      · exact only_adjust _ _ _ _ _
  | other => exact hr

/-- C69: the checks after an iteration (limits of the connections, checks of the components) change
variables of the calculation only, for every network, iteration and state, also if they are aborted by
an exception. In particular specified mass flows, pressures, enthalpies and mass fractions keep their
values. -/
theorem C69_fixed (E : ChkEnv K) (fuel iter : ℕ) (conns : List (ChkConn K)) (comps : List (ChkComp K))
    (s : ChkState K) : Spec.OnlyVariables E s (checkBounds E fuel iter conns comps s).1 := by
  have hr := ChkStep.Rel.skip (K := K) (Spec.OnlyVariables.refl (E := E))
  have hre := Spec.OnlyVariables.refl (E := E)
  have ht := Spec.OnlyVariables.trans (E := E)
  refine ChkStep.Rel.andThen ht (ChkStep.Rel.forEach hre ht _ _ ?_) ?_ s
  · intro c _
    exact .andThen ht (only_normalise E c) (only_connection E fuel iter c)
  · split
    · exact .andThen ht (.forEach hre ht _ _ fun cp _ => only_component E cp)
        (.forEach hre ht _ _ fun c _ => only_connection E fuel iter c)
    · exact hr

/-! ### an example -/

/-- a fluid with constant limits; `h = T`, everything within [300 K, 400 K] is accepted -/
def demoFluid : PureFluid ℚ where
  pMin := 1
  pMax := 100
  TMin := 300
  TMax := 400
  T_ph := fun p h => if p < 1 then .error .valueError else .ok h
  h_pT := fun _ T => if T ≤ 390 then .ok T else .error .valueError
  h_pQ := fun _ q => .ok (340 + 20 * q)

/-- connection number `n` with containers of its own -/
def demoConn (n : ℕ) : ChkConn ℚ := ⟨fun _ => n, n, false, false, 0, none, false⟩

/-- pure fluid; all quantities of connection 1 are fixed, those of the others are variables -/
def demoEnv : ChkEnv ℚ where
  isVar := fun _ i => i ≠ 1
  fluids := fun _ => ["water"]
  fvar := fun _ => []
  single := fun _ _ => some demoFluid
  mixRange := fun _ _ => .error .valueError
  range := fun k => match k with
    | .m => (-10, 10)
    | .p => (2, 50)
    | .h => (310, 350)

/-- connection 0 enters, connection 1 leaves a compressor -/
def demoState : ChkState ℚ where
  val := fun k i => match k, i with
    | .m, _ => 20
    | .p, 0 => 30
    | .p, _ => 10
    | .h, 0 => 395
    | .h, _ => 200
  frac := fun _ _ => 1

-- non-vacuity: variables at the inlet are changed, the values at the outlet stay, although they violate
-- all limits
example : let r := checkBounds demoEnv 9 0 [demoConn 0, demoConn 1] [.compressor (demoConn 0) (demoConn 1)] demoState
    r.2 = none ∧ r.1.val .p 0 = 9 ∧ r.1.val .h 0 = 30013001 / 100000 ∧ r.1.val .m 0 = 10 ∧
    r.1.val .p 1 = 10 ∧ r.1.val .h 1 = 200 ∧ r.1.val .m 1 = 20 := by decide +kernel

end Tespy
