/-
C10: error of the numerical derivatives for residuals which are not linear.
-/
import Mathlib.Analysis.Calculus.MeanValue
import Mathlib.Analysis.Calculus.Deriv.MeanValue
import Mathlib.Analysis.Calculus.Deriv.Pow
import Mathlib.Analysis.Calculus.Deriv.Mul
import Mathlib.Analysis.Calculus.Deriv.Add
import Verif.Props.NumericDeriv

namespace Tespy
open Set

/-! ### Specification -/

/-- Step width of the numerical derivative: the one of the component parameter, 1e-5
for mass fractions, 1e-4 kg/s for mass flows, 0.1 Pa and 0.1 J/kg for pressures and
enthalpies. -/
noncomputable def Spec.width : DX ℝ → ℝ
  | .comp _ d => d
  | .conn c name => if name ∈ c.isVar then 1 / 100000 else if name = "m" then 1 / 10000 else 1 / 10

/-- Present value of the quantity. -/
def Spec.present (s : NState ℝ) : DX ℝ → ℝ
  | .comp name _ => s.comp name
  | .conn c name =>
    if name ∈ c.isVar then s.fluid c.fluidId name
    else if name = "m" then s.prop c.mVar
    else if name = "p" then s.prop c.pVar
    else s.prop c.hVar

/-- A quantity which is not a mass fraction: a component parameter, the mass flow,
the pressure or the enthalpy of a connection. -/
def Spec.NoFraction : DX ℝ → Prop
  | .comp _ _ => True
  | .conn c name => name ∉ c.isVar ∧ (name = "m" ∨ name = "p" ∨ name = "h")

/-- While the quantity has values in the interval `I` the residual is `f`. -/
def Spec.ResidualIs (func : NState ℝ → PyRes ℝ) (dx : DX ℝ) (s : NState ℝ) (I : Set ℝ)
    (f : ℝ → ℝ) : Prop :=
  ∀ t ∈ I, func (dx.assign s t) = .ok (f t)

/-! ### The quotient -/

theorem numericDeriv_quotient (func : NState ℝ → PyRes ℝ) (dx : DX ℝ) (s : NState ℝ)
    (hn : Spec.NoFraction dx) (hd : 0 < Spec.width dx) (f : ℝ → ℝ)
    (hf : Spec.ResidualIs func dx s
      (Icc (Spec.present s dx - Spec.width dx) (Spec.present s dx + Spec.width dx)) f) :
    (numericDeriv func dx s).2 = .ok ((f (Spec.present s dx + Spec.width dx)
      - f (Spec.present s dx - Spec.width dx)) / (2 * Spec.width dx)) := by
  have hup := hf (Spec.present s dx + Spec.width dx) ⟨by linarith, le_rfl⟩
  have hlo := hf (Spec.present s dx - Spec.width dx) ⟨le_rfl, by linarith⟩
  have prop : ∀ (id : ℕ) (d : ℝ), func (s.setProp id (s.prop id + d)) = .ok (f (s.prop id + d)) →
      func (s.setProp id (s.prop id - d)) = .ok (f (s.prop id - d)) →
      (derivProp func id d s).2 = .ok ((f (s.prop id + d) - f (s.prop id - d)) / (2 * d)) := by
    intro id d h1 h2
    unfold derivProp
    have e : (s.setProp id (s.prop id + d)).prop id - 2 * d = s.prop id - d := by
      simp [NState.setProp]; ring
    simp only [h1, e, setProp_setProp, h2]
  cases dx with
  | comp name d =>
    simp only [Spec.present, Spec.width, DX.assign] at hup hlo hd ⊢
    have e : (s.setComp name (s.comp name + d)).comp name - 2 * d = s.comp name - d := by
      simp [NState.setComp]; ring
    have h2 : 2 * d ≠ 0 := by positivity
    unfold numericDeriv derivComp
    simp only [hup, e, setComp_setComp, hlo, if_neg h2]
  | conn c name =>
    obtain ⟨h0, h⟩ := hn
    unfold numericDeriv
    simp only [Spec.present, Spec.width, DX.assign, h0, if_false] at hup hlo ⊢
    rcases h with rfl | rfl | rfl
    · simp only [if_true] at hup hlo ⊢
      exact prop _ _ hup hlo
    · simp only [String.reduceEq, if_true, if_false] at hup hlo ⊢
      exact prop _ _ hup hlo
    · simp only [String.reduceEq, if_true, if_false] at hup hlo ⊢
      exact prop _ _ hup hlo

/-! ### The error of central differences -/

theorem central_error {f f1 f2 f3 : ℝ → ℝ} {x d B : ℝ} (hd : 0 < d)
    (h1 : ∀ t ∈ Icc (x - d) (x + d), HasDerivAt f (f1 t) t)
    (h2 : ∀ t ∈ Icc (x - d) (x + d), HasDerivAt f1 (f2 t) t)
    (h3 : ∀ t ∈ Icc (x - d) (x + d), HasDerivAt f2 (f3 t) t)
    (hB : ∀ t ∈ Icc (x - d) (x + d), |f3 t| ≤ B) :
    |(f (x + d) - f (x - d)) / (2 * d) - f1 x| ≤ B * d ^ 2 / 6 := by
  have up : ∀ t ∈ Icc 0 d, x + t ∈ Icc (x - d) (x + d) := fun t ht =>
    ⟨by linarith [ht.1], by linarith [ht.2]⟩
  have lo : ∀ t ∈ Icc 0 d, x - t ∈ Icc (x - d) (x + d) := fun t ht =>
    ⟨by linarith [ht.2], by linarith [ht.1]⟩
  have hplus : ∀ {g g' : ℝ → ℝ}, (∀ t ∈ Icc (x - d) (x + d), HasDerivAt g (g' t) t) →
      ∀ t ∈ Icc 0 d, HasDerivAt (fun t => g (x + t)) (g' (x + t)) t := by
    intro g g' hg t ht
    exact ((hg (x + t) (up t ht)).comp t ((hasDerivAt_id t).const_add x)).congr_deriv (by ring)
  have hminus : ∀ {g g' : ℝ → ℝ}, (∀ t ∈ Icc (x - d) (x + d), HasDerivAt g (g' t) t) →
      ∀ t ∈ Icc 0 d, HasDerivAt (fun t => g (x - t)) (-g' (x - t)) t := by
    intro g g' hg t ht
    exact ((hg (x - t) (lo t ht)).comp t ((hasDerivAt_id t).const_sub x)).congr_deriv (by ring)
  have fence : ∀ {g g' b b' : ℝ → ℝ}, (∀ t ∈ Icc 0 d, HasDerivAt g (g' t) t) → g 0 = 0 →
      (∀ t, HasDerivAt b (b' t) t) → b 0 = 0 → (∀ t ∈ Icc 0 d, |g' t| ≤ b' t) →
      ∀ t ∈ Icc 0 d, |g t| ≤ b t := by
    intro g g' b b' hg hg0 hb hb0 hle t ht
    refine image_norm_le_of_norm_deriv_right_le_deriv_boundary (f := g) (f' := g')
      (fun u hu => (hg u hu).continuousAt.continuousWithinAt)
      (fun u hu => (hg u ⟨hu.1, hu.2.le⟩).hasDerivWithinAt) ?_ hb
      (fun u hu => hle u ⟨hu.1, hu.2.le⟩) ht
    rw [hg0, hb0]; simp
  -- second differences
  have s2 : ∀ t ∈ Icc 0 d, |f2 (x + t) - f2 (x - t)| ≤ 2 * B * t := by
    refine fence (g := fun t => f2 (x + t) - f2 (x - t)) (g' := fun t => f3 (x + t) + f3 (x - t))
      (b' := fun _ => 2 * B) ?_ (by simp) ?_ (by simp) ?_
    · intro t ht
      exact ((hplus h3 t ht).sub (hminus h3 t ht)).congr_deriv (by ring)
    · intro t
      exact ((hasDerivAt_id t).const_mul (2 * B)).congr_deriv (by ring)
    · intro t ht
      have a := hB _ (up t ht)
      have b := hB _ (lo t ht)
      have := abs_add_le (f3 (x + t)) (f3 (x - t))
      linarith
  have s1 : ∀ t ∈ Icc 0 d, |f1 (x + t) + f1 (x - t) - 2 * f1 x| ≤ B * t ^ 2 := by
    refine fence (g := fun t => f1 (x + t) + f1 (x - t) - 2 * f1 x)
      (g' := fun t => f2 (x + t) - f2 (x - t)) (b' := fun t => 2 * B * t) ?_ (by simp; ring) ?_
      (by simp) s2
    · intro t ht
      exact (((hplus h2 t ht).add (hminus h2 t ht)).sub_const (2 * f1 x)).congr_deriv (by ring)
    · intro t
      exact ((hasDerivAt_pow 2 t).const_mul B).congr_deriv (by norm_num; ring)
  have s0 : ∀ t ∈ Icc 0 d, |f (x + t) - f (x - t) - 2 * f1 x * t| ≤ B / 3 * t ^ 3 := by
    refine fence (g := fun t => f (x + t) - f (x - t) - 2 * f1 x * t)
      (g' := fun t => f1 (x + t) + f1 (x - t) - 2 * f1 x) (b' := fun t => B * t ^ 2) ?_ (by simp) ?_
      (by simp) s1
    · intro t ht
      exact (((hplus h1 t ht).sub (hminus h1 t ht)).sub
        ((hasDerivAt_id t).const_mul (2 * f1 x))).congr_deriv (by ring)
    · intro t
      exact ((hasDerivAt_pow 3 t).const_mul (B / 3)).congr_deriv (by norm_num; ring)
  have := s0 d ⟨hd.le, le_rfl⟩
  have e : (f (x + d) - f (x - d)) / (2 * d) - f1 x
      = (f (x + d) - f (x - d) - 2 * f1 x * d) / (2 * d) := by
    field_simp
  rw [e, abs_div, abs_of_pos (show 0 < 2 * d by positivity), div_le_iff₀ (by positivity)]
  calc _ ≤ B / 3 * d ^ 3 := this
    _ = B * d ^ 2 / 6 * (2 * d) := by ring

/-- **C10 (error).**  For component parameters, mass flow, pressure and enthalpy: if
the residual is three times differentiable between the two points at which it is
evaluated and its third derivative is at most `B` there, the numerical derivative
differs from the derivative by at most `B d² / 6` with the step width `d`. -/
theorem C10_error (func : NState ℝ → PyRes ℝ) (dx : DX ℝ) (s : NState ℝ)
    (hn : Spec.NoFraction dx) (hd : 0 < Spec.width dx) (f f1 f2 f3 : ℝ → ℝ) (B : ℝ)
    (hf : Spec.ResidualIs func dx s
      (Icc (Spec.present s dx - Spec.width dx) (Spec.present s dx + Spec.width dx)) f)
    (h1 : ∀ t ∈ Icc (Spec.present s dx - Spec.width dx) (Spec.present s dx + Spec.width dx),
      HasDerivAt f (f1 t) t)
    (h2 : ∀ t ∈ Icc (Spec.present s dx - Spec.width dx) (Spec.present s dx + Spec.width dx),
      HasDerivAt f1 (f2 t) t)
    (h3 : ∀ t ∈ Icc (Spec.present s dx - Spec.width dx) (Spec.present s dx + Spec.width dx),
      HasDerivAt f2 (f3 t) t)
    (hB : ∀ t ∈ Icc (Spec.present s dx - Spec.width dx) (Spec.present s dx + Spec.width dx),
      |f3 t| ≤ B) :
    ∃ r, (numericDeriv func dx s).2 = .ok r ∧
      |r - f1 (Spec.present s dx)| ≤ B * Spec.width dx ^ 2 / 6 :=
  ⟨_, numericDeriv_quotient func dx s hn hd f hf, central_error hd h1 h2 h3 hB⟩

theorem slope_between {f f1 : ℝ → ℝ} {a b : ℝ} (hab : a < b)
    (h1 : ∀ t ∈ Icc a b, HasDerivAt f (f1 t) t) :
    ∃ ξ ∈ Ioo a b, (f b - f a) / (b - a) = f1 ξ := by
  obtain ⟨ξ, hξ, he⟩ := exists_hasDerivAt_eq_slope f f1 hab
    (fun t ht => (h1 t ht).continuousAt.continuousWithinAt)
    (fun t ht => h1 t ⟨ht.1.le, ht.2.le⟩)
  exact ⟨ξ, hξ, he.symm⟩

/-- **C10 (mean value).**  For component parameters, mass flow, pressure and
enthalpy and any differentiable residual, the numerical derivative is the
derivative at a point less than the step width away. -/
theorem C10_mean_value (func : NState ℝ → PyRes ℝ) (dx : DX ℝ) (s : NState ℝ)
    (hn : Spec.NoFraction dx) (hd : 0 < Spec.width dx) (f f1 : ℝ → ℝ)
    (hf : Spec.ResidualIs func dx s
      (Icc (Spec.present s dx - Spec.width dx) (Spec.present s dx + Spec.width dx)) f)
    (h1 : ∀ t ∈ Icc (Spec.present s dx - Spec.width dx) (Spec.present s dx + Spec.width dx),
      HasDerivAt f (f1 t) t) :
    ∃ ξ, |ξ - Spec.present s dx| < Spec.width dx ∧ (numericDeriv func dx s).2 = .ok (f1 ξ) := by
  obtain ⟨ξ, hξ, he⟩ := slope_between
    (show Spec.present s dx - Spec.width dx < Spec.present s dx + Spec.width dx by linarith) h1
  refine ⟨ξ, abs_lt.mpr ⟨by linarith [hξ.1], by linarith [hξ.2]⟩, ?_⟩
  rw [numericDeriv_quotient func dx s hn hd f hf, ← he]
  congr 2
  ring

/-- Upper point of the numerical derivative for a mass fraction. -/
noncomputable def Spec.fractionUp (x : ℝ) : ℝ := min (x + 1 / 100000) 1

/-- Lower point of the numerical derivative for a mass fraction. -/
noncomputable def Spec.fractionLow (x : ℝ) : ℝ := max (Spec.fractionUp x - 2 / 100000) 0

theorem numericDeriv_fraction (func : NState ℝ → PyRes ℝ) (c : NConn) (name : String)
    (hv : name ∈ c.isVar) (s : NState ℝ) (f : ℝ → ℝ)
    (hx : 0 ≤ s.fluid c.fluidId name)
    (hf : Spec.ResidualIs func (.conn c name) s (Icc 0 1) f) :
    (numericDeriv func (.conn c name) s).2 = .ok ((f (Spec.fractionUp (s.fluid c.fluidId name))
      - f (Spec.fractionLow (s.fluid c.fluidId name))) / (2 / 100000)) := by
  unfold Spec.ResidualIs at hf
  unfold numericDeriv
  simp only [DX.assign, hv, if_true] at hf ⊢
  unfold derivFluid
  generalize s.fluid c.fluidId name = x at hx ⊢
  dsimp only
  have e : (if x + 1 / 100000 ≤ 1 then s.setFluid c.fluidId name (x + 1 / 100000)
      else s.setFluid c.fluidId name 1).build c
      = (s.setFluid c.fluidId name (Spec.fractionUp x)).build c := by
    unfold Spec.fractionUp
    by_cases h : x + 1 / 100000 ≤ 1
    · rw [if_pos h, min_eq_left h]
    · rw [if_neg h, min_eq_right (not_le.mp h).le]
  have hu : Spec.fractionUp x ∈ Icc (0:ℝ) 1 := by
    refine ⟨le_min (by linarith) (by norm_num), min_le_right _ _⟩
  have hl : Spec.fractionLow x ∈ Icc (0:ℝ) 1 := by
    refine ⟨le_max_right _ _, max_le (by linarith [hu.2]) (by norm_num)⟩
  rw [e, hf _ hu]
  dsimp only
  have ev : ((s.setFluid c.fluidId name (Spec.fractionUp x)).build c).fluid
      c.fluidId name = Spec.fractionUp x := by
    simp [NState.build, NState.setFluid]
  rw [ev]
  have e2 : ∀ t : NState ℝ, (if 0 ≤ Spec.fractionUp x - 2 * (1 / 100000) then
      t.setFluid c.fluidId name (Spec.fractionUp x - 2 * (1 / 100000))
        else t.setFluid c.fluidId name 0).build c
      = (t.setFluid c.fluidId name (Spec.fractionLow x)).build c := by
    intro t
    have e3 : Spec.fractionUp x - 2 * (1 / 100000) = Spec.fractionUp x - 2 / 100000 := by ring
    rw [e3]
    unfold Spec.fractionLow
    by_cases h : 0 ≤ Spec.fractionUp x - 2 / 100000
    · rw [if_pos h, max_eq_left h]
    · rw [if_neg h, max_eq_right (not_le.mp h).le]
  rw [e2, setFluid_build_setFluid, hf _ hl]
  dsimp only
  congr 2
  norm_num

/-- **C10 (mass fractions).**  For a mass fraction of at least 1e-5 and any
differentiable residual the numerical derivative is the derivative at a fraction
within 0 and 1 and less than 2e-5 away; for a smaller fraction `x` it is the
derivative at a fraction between 0 and `x` + 1e-5, times (`x` + 1e-5) / 2e-5. -/
theorem C10_fraction_partial (func : NState ℝ → PyRes ℝ) (c : NConn) (name : String)
    (hv : name ∈ c.isVar) (s : NState ℝ) (f f1 : ℝ → ℝ) (x : ℝ)
    (hx : s.fluid c.fluidId name = x) (hx0 : 0 ≤ x) (hx1 : x ≤ 1)
    (hf : Spec.ResidualIs func (.conn c name) s (Icc 0 1) f)
    (h1 : ∀ t ∈ Icc (0:ℝ) 1, HasDerivAt f (f1 t) t) :
    ∃ ξ ∈ Icc (0:ℝ) 1, |ξ - x| < 2 / 100000 ∧
      (numericDeriv func (.conn c name) s).2 =
        .ok (if 1 / 100000 ≤ x then f1 ξ else f1 ξ * ((x + 1 / 100000) / (2 / 100000))) := by
  have hq := numericDeriv_fraction func c name hv s f (hx ▸ hx0) hf
  rw [hx] at hq
  have hu : Spec.fractionUp x ∈ Icc (0:ℝ) 1 :=
    ⟨le_min (by linarith) (by norm_num), min_le_right _ _⟩
  have hl : Spec.fractionLow x ∈ Icc (0:ℝ) 1 :=
    ⟨le_max_right _ _, max_le (by linarith [hu.2]) (by norm_num)⟩
  by_cases hb : 1 / 100000 ≤ x
  · have hlow : Spec.fractionLow x = Spec.fractionUp x - 2 / 100000 := by
      apply max_eq_left
      unfold Spec.fractionUp
      rcases min_choice (x + 1 / 100000) (1:ℝ) with h | h <;> rw [h]
      · linarith
      · norm_num
    have hlt : Spec.fractionLow x < Spec.fractionUp x := by rw [hlow]; linarith
    obtain ⟨ξ, hξ, he⟩ := slope_between hlt
      (fun t ht => h1 t ⟨hl.1.trans ht.1, ht.2.trans hu.2⟩)
    refine ⟨ξ, ⟨hl.1.trans hξ.1.le, hξ.2.le.trans hu.2⟩, ?_, ?_⟩
    · have a := hξ.1
      have b := hξ.2
      rw [hlow] at a
      have c1 : Spec.fractionUp x ≤ x + 1 / 100000 := min_le_left _ _
      have c2 : x ≤ Spec.fractionUp x := le_min (by linarith) hx1
      exact abs_lt.mpr ⟨by linarith, by linarith⟩
    · rw [hq, if_pos hb, ← he, hlow]
      congr 2
      ring
  · have hup : Spec.fractionUp x = x + 1 / 100000 := by
      apply min_eq_left
      push Not at hb
      linarith
    have hlow : Spec.fractionLow x = 0 := by
      apply max_eq_right
      rw [hup]
      push Not at hb
      linarith
    have hpos : 0 < x + 1 / 100000 := by linarith
    rw [hup, hlow] at hq
    obtain ⟨ξ, hξ, he⟩ := slope_between hpos
      (fun t ht => h1 t ⟨ht.1, ht.2.trans (hup ▸ hu.2)⟩)
    refine ⟨ξ, ⟨hξ.1.le, hξ.2.le.trans (hup ▸ hu.2)⟩, ?_, ?_⟩
    · push Not at hb
      exact abs_lt.mpr ⟨by linarith [hξ.1], by linarith [hξ.2]⟩
    · rw [hq, if_neg hb, ← he]
      congr 1
      rw [sub_zero]
      field_simp

/-- **C10 (error, sharp).**  The bound is attained: for a residual with the cube of
the enthalpy the error is exactly `B d² / 6` with `B = 6` and `d = 0.1`, in every
state. -/
theorem C10_error_sharp (c : NConn) (hc : "h" ∉ c.isVar) (s : NState ℝ) :
    (numericDeriv (fun s => .ok (s.prop c.hVar ^ 3)) (.conn c "h") s).2
      = .ok (3 * s.prop c.hVar ^ 2 + 6 * (1 / 10) ^ 2 / 6) := by
  have hw : Spec.width (.conn c "h") = 1 / 10 := by simp [Spec.width, hc]
  have hp : Spec.present s (.conn c "h") = s.prop c.hVar := by simp [Spec.present, hc]
  rw [numericDeriv_quotient _ (.conn c "h") _ (show _ ∧ _ from ⟨hc, Or.inr (Or.inr rfl)⟩) (by rw [hw]; norm_num)
    (fun t => t ^ 3) (by intro t _; simp [DX.assign, hc, NState.setProp]), hw, hp]
  congr 1
  ring

-- non-vacuity: the cube satisfies the hypotheses of `C10_error`
example (c : NConn) (hc : "h" ∉ c.isVar) (s : NState ℝ) :
    ∃ r, (numericDeriv (fun s => .ok (s.prop c.hVar ^ 3)) (.conn c "h") s).2 = .ok r ∧
      |r - 3 * (Spec.present s (.conn c "h")) ^ 2| ≤ 6 * Spec.width (.conn c "h") ^ 2 / 6 := by
  refine C10_error _ (.conn c "h") s (show _ ∧ _ from ⟨hc, Or.inr (Or.inr rfl)⟩) (by simp [Spec.width, hc])
    (fun t => t ^ 3) (fun t => 3 * t ^ 2) (fun t => 6 * t) (fun _ => 6) 6 ?_ ?_ ?_ ?_ ?_
  · intro t _; simp [DX.assign, hc, NState.setProp]
  · intro t _; exact (hasDerivAt_pow 3 t).congr_deriv (by norm_num)
  · intro t _
    exact ((hasDerivAt_pow 2 t).const_mul 3).congr_deriv (by norm_num; ring)
  · intro t _; exact ((hasDerivAt_id t).const_mul 6).congr_deriv (by norm_num)
  · intro t _; norm_num

-- non-vacuity for a mass fraction: a residual with the square of the fraction
example : ∃ ξ ∈ Icc (0:ℝ) 1, |ξ - 1 / 2| < 2 / 100000 ∧
    (numericDeriv (fun s : NState ℝ => .ok (s.fluid 0 "N2" ^ 2)) (.conn ⟨0, 0, 1, 2, 0, ["N2"]⟩ "N2")
      ⟨fun _ => 0, fun _ => 5, fun _ _ => 1 / 2, fun _ _ => 1 / 2⟩).2
      = .ok (if (1:ℝ) / 100000 ≤ 1 / 2 then 2 * ξ
        else 2 * ξ * ((1 / 2 + 1 / 100000) / (2 / 100000))) := by
  refine C10_fraction_partial _ _ "N2" (by simp) _ (fun t => t ^ 2) (fun t => 2 * t) (1 / 2) rfl
    (by norm_num) (by norm_num) ?_ ?_
  · intro t _; simp [DX.assign, NState.build, NState.setFluid]
  · intro t _; exact (hasDerivAt_pow 2 t).congr_deriv (by norm_num)

end Tespy
