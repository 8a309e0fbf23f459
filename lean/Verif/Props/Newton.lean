import Mathlib.Tactic.Linarith
import Mathlib.Tactic.Ring
import Mathlib.Tactic.FieldSimp
import Mathlib.Algebra.Order.Field.Rat
import Mathlib.Algebra.Order.AbsoluteValue.Basic
import Verif.Model.Newton
/-
C08: the scalar Newton solver, for arbitrary functions, derivatives, bounds,
targets and tolerances.
-/
namespace Tespy
variable {K : Type _} [Field K] [LinearOrder K] [IsStrictOrderedRing K]

theorem newtonLoop_total (a : NewtonArgs K) : ∀ (n : ℕ) (x : K) (it mx : ℤ) (r : K),
    13 ≤ (n : ℤ) + it → 0 ≤ it → (5 ≤ it → mx = 12) → it ≤ 12 →
    ∃ o, newtonLoop a n x it mx r = some o ∧ ∀ out, o = .ok out → out.iterations ≤ 13 := by
  intro n
  induction n with
  | zero => intro x it mx r h1 h0 h2 h3; push_cast at h1; omega
  | succ n ih =>
    intro x it mx r h1 h0 h2 h3
    unfold newtonLoop
    cases a.f x with
    | error e => exact ⟨_, rfl, by simp⟩
    | ok fx =>
      dsimp only
      cases a.df x with
      | error e => exact ⟨_, rfl, by simp⟩
      | ok d =>
        dsimp only
        by_cases hd : d = 0
        · rw [if_pos hd]; exact ⟨_, rfl, by simp⟩
        rw [if_neg hd]
        by_cases hm : it + 1 > nextMaxIter (it + 1) mx
        · rw [if_pos hm]
          exact ⟨_, rfl, by simp; omega⟩
        rw [if_neg hm]
        by_cases hc : a.continue (a.target - fx)
        · rw [if_pos hc]
          apply ih
          · push_cast at h1; omega
          · omega
          · intro h5
            unfold nextMaxIter
            split
            · rfl
            · apply h2; omega
          · by_cases h5 : it + 1 = 5
            · omega
            · rw [nextMaxIter, if_neg h5] at hm
              by_cases h6 : 5 ≤ it
              · have := h2 h6; omega
              · omega
        · rw [if_neg hc]; exact ⟨_, rfl, by simp; omega⟩

/-- More passes than needed do not change the result. -/
theorem newtonLoop_mono (a : NewtonArgs K) : ∀ (n : ℕ) (x : K) (it mx : ℤ) (r : K) o,
    newtonLoop a n x it mx r = some o → newtonLoop a (n + 1) x it mx r = some o := by
  intro n
  induction n with
  | zero => intro x it mx r o h; simp [newtonLoop] at h
  | succ n ih =>
    intro x it mx r o h
    unfold newtonLoop at h ⊢
    cases hf : a.f x with
    | error e => simpa [hf] using h
    | ok fx =>
      simp only [hf] at h ⊢
      cases hdf : a.df x with
      | error e => simpa [hdf] using h
      | ok d =>
        simp only [hdf] at h ⊢
        split
        · simpa [*] using h
        rename_i hd
        rw [if_neg hd] at h
        split
        · rename_i hm; rw [if_pos hm] at h; exact h
        rename_i hm
        rw [if_neg hm] at h
        split
        · rename_i hc; rw [if_pos hc] at h; exact ih _ _ _ _ _ h
        · rename_i hc; rw [if_neg hc] at h; exact h

/-- C08: the loop ends after at most 13 evaluations of the residual, for every
function, derivative, start value, target, bounds, tolerances and `max_iter`; the
number of passes granted to the model beyond 13 is irrelevant. -/
theorem C08_newton_terminates (a : NewtonArgs K) :
    ∃ o, (∀ passes, 13 ≤ passes → newton a passes = some o) ∧
      ∀ out, o = .ok out → out.iterations ≤ 13 := by
  obtain ⟨o, ho, hi⟩ := newtonLoop_total a 13 a.val0 0 a.maxIter 1 (by norm_num) (le_refl _)
    (by omega) (by omega)
  refine ⟨o, fun passes hp => ?_, hi⟩
  obtain ⟨k, rfl⟩ := Nat.exists_eq_add_of_le hp
  induction k with
  | zero => exact ho
  | succ k ih => exact newtonLoop_mono a _ _ _ _ _ _ (ih (by omega))

theorem clamp_mem (lo hi x : K) (h : lo ≤ hi) : lo ≤ clamp lo hi x ∧ clamp lo hi x ≤ hi := by
  unfold clamp
  dsimp only
  split <;> split <;> constructor <;>
    first
      | exact le_refl _
      | assumption
      | (rename_i h1 h2; exact not_lt.mp h1)
      | (rename_i h1 h2; exact not_lt.mp h2)

theorem newtonLoop_spec (a : NewtonArgs K) : ∀ (n : ℕ) (x : K) (it mx : ℤ) (r : K) out,
    newtonLoop a n x it mx r = some (.ok out) →
      (a.valmin ≤ a.valmax → a.valmin ≤ out.x ∧ out.x ≤ a.valmax) ∧
      (∃ fx d rel, a.f out.xLast = .ok fx ∧ out.residual = a.target - fx ∧
        a.df out.xLast = .ok d ∧ d ≠ 0 ∧
        out.x = clamp a.valmin a.valmax (out.xLast + out.residual / d * rel)) ∧
      (out.limit = false → a.continue out.residual = false) := by
  intro n
  induction n with
  | zero => intro x it mx r out h; simp [newtonLoop] at h
  | succ n ih =>
    intro x it mx r out h
    unfold newtonLoop at h
    cases hf : a.f x with
    | error e => simp [hf] at h
    | ok fx =>
      simp only [hf] at h
      cases hdf : a.df x with
      | error e => simp [hdf] at h
      | ok d =>
        simp only [hdf] at h
        by_cases hd : d = 0
        · simp [hd] at h
        rw [if_neg hd] at h
        split at h
        · simp only [Option.some.injEq, Except.ok.injEq] at h
          subst h
          exact ⟨fun hb => clamp_mem _ _ _ hb, ⟨fx, d, r, hf, rfl, hdf, hd, rfl⟩, by simp⟩
        · split at h
          · exact ih _ _ _ _ _ h
          · rename_i hc
            simp only [Option.some.injEq, Except.ok.injEq] at h
            subst h
            exact ⟨fun hb => clamp_mem _ _ _ hb, ⟨fx, d, r, hf, rfl, hdf, hd, rfl⟩, by simpa using hc⟩

/-- C08: a returned value is within the value range. -/
theorem C08_newton_in_range (a : NewtonArgs K) (hb : a.valmin ≤ a.valmax) (passes : ℕ) out
    (h : newton a passes = some (.ok out)) : a.valmin ≤ out.x ∧ out.x ≤ a.valmax :=
  (newtonLoop_spec a _ _ _ _ _ _ h).1 hb

/-- The documented stopping rule. -/
def Spec.newtonConverged (mode : TolMode) (target residual tolRel tolAbs : K) : Prop :=
  match mode with
  | .abs => |residual| < tolAbs
  | .rel => if target = 0 ∨ |target| ≤ 2 * tolRel then |residual| < tolAbs
            else |residual / target| < tolRel
  | .both => if target = 0 then |residual| < tolAbs
             else |residual / target| < tolRel ∧ |residual| < tolAbs

/-- C08: if the solver stops without the iteration limit, the residual evaluated last
meets the selected tolerance, and it is the residual of the function at the point
evaluated last. -/
theorem C08_newton_tolerance (a : NewtonArgs K) (passes : ℕ) out
    (h : newton a passes = some (.ok out)) (hl : out.limit = false) :
    (∃ fx, a.f out.xLast = .ok fx ∧ out.residual = a.target - fx) ∧
    Spec.newtonConverged a.mode a.target out.residual a.tolRel a.tolAbs := by
  obtain ⟨_, ⟨fx, d, rel, h1, h2, _⟩, hc⟩ := newtonLoop_spec a _ _ _ _ _ _ h
  refine ⟨⟨fx, h1, h2⟩, ?_⟩
  have hc := hc hl
  unfold NewtonArgs.continue NewtonArgs.effMode at hc
  unfold Spec.newtonConverged
  cases hm : a.mode
  · simpa [hm] using hc
  · simp only [hm, true_and] at hc ⊢
    by_cases h1 : |a.target| ≤ 2 * a.tolRel
    · simp [h1] at hc ⊢; exact hc
    · by_cases h2 : a.target = 0
      · simp [h2] at hc ⊢; exact hc
      · simp only [h1, h2, if_false, or_self, reduceCtorEq, if_true] at hc ⊢; simpa using hc
  · by_cases h2 : a.target = 0
    · simp [hm, h2] at hc ⊢; exact hc
    · simp [hm, h2] at hc ⊢; exact hc

/-- Limiting a value to a range. -/
def Spec.limited (lo hi x y : K) : Prop :=
  (x < lo → y = lo) ∧ (hi < x → y = hi) ∧ (lo ≤ x → x ≤ hi → y = x)

theorem newtonLoop_relax (a : NewtonArgs K) : ∀ (n : ℕ) (x : K) (it mx : ℤ) (r : K) out,
    (r = 1 ∨ r = 3 / 4) → newtonLoop a n x it mx r = some (.ok out) →
      ∃ d rel, a.df out.xLast = .ok d ∧ d ≠ 0 ∧ (rel = 1 ∨ rel = 3 / 4) ∧
        out.x = clamp a.valmin a.valmax (out.xLast + out.residual / d * rel) := by
  intro n
  induction n with
  | zero => intro x it mx r out _ h; simp [newtonLoop] at h
  | succ n ih =>
    intro x it mx r out hr h
    unfold newtonLoop at h
    cases hf : a.f x with
    | error e => simp [hf] at h
    | ok fx =>
      simp only [hf] at h
      cases hdf : a.df x with
      | error e => simp [hdf] at h
      | ok d =>
        simp only [hdf] at h
        by_cases hd : d = 0
        · simp [hd] at h
        rw [if_neg hd] at h
        split at h
        · simp only [Option.some.injEq, Except.ok.injEq] at h
          subst h
          exact ⟨d, r, hdf, hd, hr, rfl⟩
        · split at h
          · refine ih _ _ _ _ _ ?_ h
            unfold nextRelax; split
            · exact Or.inr rfl
            · exact hr
          · simp only [Option.some.injEq, Except.ok.injEq] at h
            subst h
            exact ⟨d, r, hdf, hd, hr, rfl⟩

/-- C08: the returned value is the (possibly damped) Newton step from the point evaluated
last, limited to the value range. -/
theorem C08_newton_last_step (a : NewtonArgs K) (hb : a.valmin ≤ a.valmax) (passes : ℕ) out
    (h : newton a passes = some (.ok out)) :
    ∃ d rel, a.df out.xLast = .ok d ∧ d ≠ 0 ∧ (rel = 1 ∨ rel = 3 / 4) ∧
      Spec.limited a.valmin a.valmax (out.xLast + rel * out.residual / d) out.x := by
  obtain ⟨d, rel, h1, h2, h3, h4⟩ := newtonLoop_relax a _ _ _ _ _ _ (Or.inl rfl) h
  refine ⟨d, rel, h1, h2, h3, ?_⟩
  have e : out.xLast + rel * out.residual / d = out.xLast + out.residual / d * rel := by ring
  rw [e, h4]
  generalize out.xLast + out.residual / d * rel = y
  unfold clamp
  dsimp only
  refine ⟨fun hy => ?_, fun hy => ?_, fun h1 h2 => ?_⟩
  · rw [if_pos hy, if_neg (not_lt.mpr hb)]
  · rw [if_neg (not_lt.mpr (hb.trans hy.le)), if_pos hy]
  · rw [if_neg (not_lt.mpr h1), if_neg (not_lt.mpr h2)]

/-- C08: for an affine function with its exact derivative and a solution inside of the
value range the first step already returns the solution. -/
theorem C08_newton_affine (a : NewtonArgs K) (m b root : K) (hm : m ≠ 0)
    (hf : ∀ x, a.f x = .ok (m * x + b)) (hdf : ∀ x, a.df x = .ok m)
    (hroot : m * root + b = a.target) (hin : a.valmin ≤ root ∧ root ≤ a.valmax)
    (hmax : 1 ≤ a.maxIter) (hta : 0 < a.tolAbs) (htr : 0 < a.tolRel) :
    ∃ out, newton a 13 = some (.ok out) ∧ out.x = root := by
  have step : ∀ x : K, clamp a.valmin a.valmax (x + (a.target - (m * x + b)) / m * 1) = root := by
    intro x
    have : x + (a.target - (m * x + b)) / m * 1 = root := by
      rw [← hroot]; field_simp; ring
    rw [this]; unfold clamp; simp [not_lt.mpr hin.1, not_lt.mpr hin.2]
  have hz : a.continue (a.target - (m * root + b)) = false := by
    rw [hroot]
    unfold NewtonArgs.continue
    simp [hta, htr]
  unfold newton
  rw [newtonLoop, hf, hdf]
  simp only [hm, if_false, step]
  rw [if_neg (by norm_num [nextMaxIter]; omega)]
  have hr : nextRelax (0 + 1) (1 : K) = 1 := by norm_num [nextRelax]
  rw [hr]
  split
  · rw [newtonLoop, hf, hdf]
    simp only [hm, if_false, step]
    split
    · exact ⟨_, rfl, rfl⟩
    · rw [if_neg (by simp [hz])]
      exact ⟨_, rfl, rfl⟩
  · exact ⟨_, rfl, rfl⟩

/-- `central_difference` is exact for affine functions. -/
theorem centralDifference_affine (f : K → PyRes K) (m b delta x : K) (hd : delta ≠ 0)
    (hf : ∀ x, f x = .ok (m * x + b)) : centralDifference f delta x = .ok m := by
  unfold centralDifference
  have h2 : (2 : K) * delta ≠ 0 := mul_ne_zero two_ne_zero hd
  simp only [hf, bind, Except.bind, if_neg h2, Except.ok.injEq]
  field_simp; ring

-- non-vacuity: a jumping function runs into the limit, an affine one converges
example : (match newton (K := ℚ) ⟨fun x => .ok (if x < 100 then 0 else 10), fun _ => .ok 1, 5,
    300, 70, 3000, 10, 1/10^6, 1/10^12, .rel⟩ 13 with
    | some (.ok out) => out.limit && decide (out.iterations = 13) | _ => false) = true := by
  decide +kernel
example : (match newton (K := ℚ) ⟨fun x => .ok (2 * x), fun _ => .ok 2, 1000,
    300, 70, 3000, 10, 1/10^6, 1/10^12, .rel⟩ 13 with
    | some (.ok out) => !out.limit && decide (out.x = 500) | _ => false) = true := by
  decide +kernel

end Tespy
