import Mathlib.Tactic.Linarith
import Mathlib.Tactic.Ring
import Mathlib.Tactic.FieldSimp
import Mathlib.Tactic.NormNum
import Mathlib.Algebra.Order.Field.Rat
import Verif.Model.NumericDeriv
/-
C09, C10: numerical differentiation.
-/
namespace Tespy
variable {K : Type _} [Field K] [LinearOrder K] [IsStrictOrderedRing K]

theorem NState.ext' {s t : NState K} (h1 : s.comp = t.comp) (h2 : s.prop = t.prop)
    (h3 : s.fluid = t.fluid) (h4 : s.data = t.data) : s = t := by
  cases s; cases t; simp_all

/-- The cached fluid data of the connection are up to date. -/
def NState.Fresh (s : NState K) (c : NConn) : Prop := ∀ f, s.data c.id f = s.fluid c.fluidId f

theorem derivComp_restores (func : NState K → PyRes K) (name : String) (d : K) (s s' : NState K)
    (r : K) (h : derivComp func name d s = (s', .ok r)) : s' = s := by
  unfold derivComp at h
  dsimp only at h
  split at h
  · simp at h
  split at h
  · simp at h
  split at h
  · simp at h
  simp only [Prod.mk.injEq] at h
  rw [← h.1]
  apply NState.ext' <;> try rfl
  funext n
  by_cases hn : n = name
  · subst hn; simp [NState.setComp]; ring
  · simp [NState.setComp, hn]

theorem derivProp_restores (func : NState K → PyRes K) (id : ℕ) (d : K) (s s' : NState K)
    (r : K) (h : derivProp func id d s = (s', .ok r)) : s' = s := by
  unfold derivProp at h
  dsimp only at h
  split at h
  · simp at h
  split at h
  · simp at h
  simp only [Prod.mk.injEq] at h
  rw [← h.1]
  apply NState.ext' <;> try rfl
  funext n
  by_cases hn : n = id
  · subst hn; simp [NState.setProp]; ring
  · simp [NState.setProp, hn]

theorem derivFluid_restores (func : NState K → PyRes K) (c : NConn) (name : String)
    (s s' : NState K) (hs : s.Fresh c) (r : K) (h : derivFluid func c name s = (s', .ok r)) :
    s' = s := by
  have fin : ∀ t : NState K, t.comp = s.comp → t.prop = s.prop →
      (∀ n f, ¬ (n = c.fluidId ∧ f = name) → t.fluid n f = s.fluid n f) →
      (∀ n f, n ≠ c.id → t.data n f = s.data n f) →
      (t.setFluid c.fluidId name (s.fluid c.fluidId name)).build c = s := by
    intro t h1 h2 h3 h4
    have hf : ∀ n f, (if n = c.fluidId ∧ f = name then s.fluid c.fluidId name else t.fluid n f)
        = s.fluid n f := by
      intro n f
      by_cases hnf : n = c.fluidId ∧ f = name
      · rw [if_pos hnf, hnf.1, hnf.2]
      · rw [if_neg hnf]; exact h3 n f hnf
    apply NState.ext'
    · exact h1
    · exact h2
    · funext n f; exact hf n f
    · funext n f
      unfold NState.build NState.setFluid
      dsimp only
      by_cases hn : n = c.id
      · rw [if_pos hn, hf, hn]; exact (hs f).symm
      · rw [if_neg hn]; exact h4 n f hn
  unfold derivFluid at h
  dsimp only at h
  split at h
  · simp at h
  split at h
  · simp at h
  simp only [Prod.mk.injEq] at h
  rw [← h.1]
  apply fin
  · split <;> split <;> rfl
  · split <;> split <;> rfl
  · intro n f hnf
    split <;> split <;> simp [NState.build, NState.setFluid, hnf]
  · intro n f hn
    split <;> split <;> simp [NState.build, NState.setFluid, hn]

/-- The connection whose variable is perturbed has an up-to-date cache (always the case
after `preprocess` or a variable update, which call `build_fluid_data`). -/
def DX.Fresh (dx : DX K) (s : NState K) : Prop :=
  match dx with
  | .comp _ _ => True
  | .conn c _ => s.Fresh c

/-- C09: whenever the derivative is returned, the whole state is exactly the state
before the call, for every residual function. -/
theorem C09_state_restored (func : NState K → PyRes K) (dx : DX K) (s s' : NState K)
    (hs : dx.Fresh s) (r : K) (h : numericDeriv func dx s = (s', .ok r)) : s' = s := by
  unfold numericDeriv at h
  cases dx with
  | comp name d => exact derivComp_restores _ _ _ _ _ _ h
  | conn c name =>
    simp only at h
    split at h
    · exact derivFluid_restores _ _ _ _ _ hs _ h
    split at h
    · exact derivProp_restores _ _ _ _ _ _ h
    split at h
    · exact derivProp_restores _ _ _ _ _ _ h
    split at h
    · exact derivProp_restores _ _ _ _ _ _ h
    · simp at h

/-- C09: an inadmissible variable name is rejected without touching the state. -/
theorem C09_invalid_name (func : NState K → PyRes K) (c : NConn) (name : String) (s : NState K)
    (h1 : name ∉ c.isVar) (h2 : name ≠ "m") (h3 : name ≠ "p") (h4 : name ≠ "h") :
    numericDeriv func (.conn c name) s = (s, .error .valueError) := by
  simp [numericDeriv, h1, h2, h3, h4]

/-- C09, the part that fails: if the residual function raises (for example because the
perturbed state is outside of the validity of the property functions) the perturbation
is not taken back. -/
theorem C09_not_restored_on_exception :
    ∃ (func : NState ℚ → PyRes ℚ) (c : NConn) (s : NState ℚ),
      (numericDeriv func (.conn c "p") s).2 = .error .valueError ∧
      (numericDeriv func (.conn c "p") s).1.prop c.pVar ≠ s.prop c.pVar := by
  refine ⟨fun s => if s.prop 1 ≤ 5 then .ok (s.prop 1) else .error .valueError,
    ⟨0, 0, 1, 2, 0, []⟩, ⟨fun _ => 0, fun _ => 5, fun _ _ => 0, fun _ _ => 0⟩, ?_, ?_⟩
  · decide +kernel
  · decide +kernel

/-- Value assignment to the differentiated quantity, as a specification: nothing else
changes, apart from the cached data of the connection. -/
def DX.assign (dx : DX K) (s : NState K) (t : K) : NState K :=
  match dx with
  | .comp name _ => s.setComp name t
  | .conn c name =>
    if name ∈ c.isVar then (s.setFluid c.fluidId name t).build c
    else if name = "m" then s.setProp c.mVar t
    else if name = "p" then s.setProp c.pVar t
    else s.setProp c.hVar t

/-- The residual is affine in the differentiated quantity with slope `b`. -/
def AffineIn (func : NState K → PyRes K) (dx : DX K) (s : NState K) (b : K) : Prop :=
  ∃ a, ∀ t, func (dx.assign s t) = .ok (a + b * t)

theorem setProp_setProp (s : NState K) (id : ℕ) (u v : K) :
    (s.setProp id u).setProp id v = s.setProp id v := by
  apply NState.ext' <;> try rfl
  funext n; by_cases h : n = id <;> simp [NState.setProp, h]

theorem setComp_setComp (s : NState K) (id : String) (u v : K) :
    (s.setComp id u).setComp id v = s.setComp id v := by
  apply NState.ext' <;> try rfl
  funext n; by_cases h : n = id <;> simp [NState.setComp, h]

theorem setFluid_build_setFluid (s : NState K) (c : NConn) (name : String) (u v : K) :
    (((s.setFluid c.fluidId name u).build c).setFluid c.fluidId name v).build c
      = (s.setFluid c.fluidId name v).build c := by
  apply NState.ext' <;> try rfl
  · funext n f; simp only [NState.build, NState.setFluid]; split <;> rfl
  · funext n f
    simp only [NState.build, NState.setFluid]
    by_cases hn : n = c.id
    · simp only [hn, if_true]; split <;> rfl
    · simp [hn]

theorem derivProp_affine (func : NState K → PyRes K) (id : ℕ) (d : K) (s : NState K) (a b : K)
    (hd : d ≠ 0) (h : ∀ t, func (s.setProp id t) = .ok (a + b * t)) :
    (derivProp func id d s).2 = .ok b := by
  have h2 : (2 : K) * d ≠ 0 := mul_ne_zero two_ne_zero hd
  unfold derivProp
  simp only [h, setProp_setProp]
  simp only [Except.ok.injEq, NState.setProp, if_true]
  field_simp; ring

/-- C10: exact derivative for mass flow, pressure and enthalpy, in every state. -/
theorem C10_exact_properties (func : NState K → PyRes K) (c : NConn) (name : String)
    (hn : name = "m" ∨ name = "p" ∨ name = "h") (hf : name ∉ c.isVar) (s : NState K) (b : K)
    (h : AffineIn func (.conn c name) s b) : (numericDeriv func (.conn c name) s).2 = .ok b := by
  obtain ⟨a, ha⟩ := h
  unfold numericDeriv
  simp only [DX.assign, hf, if_false] at ha ⊢
  rcases hn with rfl | rfl | rfl
  · simp only [if_true] at ha ⊢
    exact derivProp_affine func c.mVar _ s a b (by norm_num) ha
  · simp only [String.reduceEq, if_false, if_true] at ha ⊢
    exact derivProp_affine func c.pVar _ s a b (by norm_num) ha
  · simp only [String.reduceEq, if_false, if_true] at ha ⊢
    exact derivProp_affine func c.hVar _ s a b (by norm_num) ha

/-- C10: exact derivative for component parameters (nonzero step width). -/
theorem C10_exact_component (func : NState K → PyRes K) (name : String) (d : K) (hd : d ≠ 0)
    (s : NState K) (b : K) (h : AffineIn func (.comp name d) s b) :
    (numericDeriv func (.comp name d) s).2 = .ok b := by
  obtain ⟨a, ha⟩ := h
  have h2 : (2 : K) * d ≠ 0 := mul_ne_zero two_ne_zero hd
  unfold numericDeriv
  simp only [DX.assign] at ha ⊢
  unfold derivComp
  simp only [ha, setComp_setComp, if_neg h2]
  simp only [Except.ok.injEq, NState.setComp, if_true]
  field_simp; ring

/-- C10 (mass fractions, what is true): for a fraction of at least `1e-5` the derivative
is exact; for a smaller fraction `x` it is the slope times `(x + 1e-5)/2e-5`. -/
theorem C10_fluid_partial (func : NState K → PyRes K) (c : NConn) (name : String)
    (hv : name ∈ c.isVar) (s : NState K) (b : K)
    (h : AffineIn func (.conn c name) s b) (hx : 0 ≤ s.fluid c.fluidId name) :
    (numericDeriv func (.conn c name) s).2 =
      .ok (if 1 / 100000 ≤ s.fluid c.fluidId name then b
           else b * ((s.fluid c.fluidId name + 1 / 100000) / (2 / 100000))) := by
  obtain ⟨a, ha⟩ := h
  unfold numericDeriv
  simp only [DX.assign, hv, if_true] at ha ⊢
  unfold derivFluid
  generalize s.fluid c.fluidId name = x at hx ⊢
  dsimp only
  have e : (if x + 1 / 100000 ≤ 1 then s.setFluid c.fluidId name (x + 1 / 100000)
      else s.setFluid c.fluidId name 1).build c
      = (s.setFluid c.fluidId name (if x + 1 / 100000 ≤ 1 then x + 1 / 100000 else 1)).build c := by
    split <;> rfl
  rw [e, ha]
  dsimp only
  have ev : ((s.setFluid c.fluidId name (if x + 1 / 100000 ≤ 1 then x + 1 / 100000 else 1)).build c).fluid
      c.fluidId name = (if x + 1 / 100000 ≤ 1 then x + 1 / 100000 else 1) := by
    simp [NState.build, NState.setFluid]
  rw [ev]
  generalize hu : (if x + 1 / 100000 ≤ 1 then x + 1 / 100000 else (1:K)) = u
  have e2 : ∀ t : NState K, (if 0 ≤ u - 2 * (1 / 100000) then
      t.setFluid c.fluidId name (u - 2 * (1 / 100000)) else t.setFluid c.fluidId name 0).build c
      = (t.setFluid c.fluidId name (if 0 ≤ u - 2 * (1 / 100000) then u - 2 * (1 / 100000) else 0)).build c := by
    intro t; split <;> rfl
  rw [e2, setFluid_build_setFluid, ha]
  simp only [Except.ok.injEq]
  by_cases h1 : x + 1 / 100000 ≤ 1
  · rw [if_pos h1] at hu
    subst hu
    by_cases h3 : 1 / 100000 ≤ x
    · rw [if_pos (by linarith), if_pos h3]; field_simp; ring
    · rw [if_neg (by linarith), if_neg h3]; field_simp; ring
  · rw [if_neg h1] at hu
    subst hu
    have h3 : 1 / 100000 ≤ x := by
      push Not at h1
      have : (1:K) - 1/100000 ≤ x := by linarith
      refine le_trans ?_ this
      norm_num
    rw [if_pos (by norm_num), if_pos h3]; field_simp; ring

/-- C10, the part that fails: at mass fraction zero the computed derivative is half the
slope. -/
theorem C10_half_slope_at_zero :
    ∃ (func : NState ℚ → PyRes ℚ) (c : NConn) (s : NState ℚ),
      AffineIn func (.conn c "N2") s 1 ∧ s.fluid c.fluidId "N2" = 0 ∧
      (numericDeriv func (.conn c "N2") s).2 = .ok (1 / 2) := by
  refine ⟨fun s => .ok (s.fluid 0 "N2"), ⟨0, 0, 1, 2, 0, ["N2"]⟩,
    ⟨fun _ => 0, fun _ => 5, fun _ _ => 0, fun _ _ => 0⟩, ⟨0, ?_⟩, rfl, ?_⟩
  · intro t
    simp [DX.assign, NState.build, NState.setFluid]
  · decide +kernel

-- non-vacuity: the residual of an energy balance, affine in the mass flow
example : AffineIn (fun s : NState ℚ => .ok (s.prop 0 * (s.prop 2 - 100) - 5)) (.conn
    ⟨0, 0, 1, 2, 0, []⟩ "m") ⟨fun _ => 0, fun _ => 300, fun _ _ => 0, fun _ _ => 0⟩ 200 :=
  ⟨-5, fun t => by simp [DX.assign, NState.setProp]; ring⟩

end Tespy
