import Verif.Model.EngineRows
import Verif.Props.CombRows

/-!
C102: the rows of the combustion engine.
-/
namespace Tespy

namespace Spec

/-- The central difference quotient of a function of the state for a variable, with the documented increment. -/
noncomputable def diffQuotient (f : EqState ℝ → ℝ) (s : EqState ℝ) (v : Var) : ℝ :=
  (f (stateWith s v (s.val v + combStep v)) - f (stateWith s v (s.val v - combStep v))) / (2 * combStep v)

/-- Inlet and outlet of a cooling loop are different connections. -/
def OwnLoop (i o : Port) : Prop := i.h ≠ o.h

/-- Around the current load no characteristic line has a support point: it is a straight line in the range of the increment
of the power. Without design value the load is constant. -/
def StraightLines (E : EngineComp) (s : EqState ℝ) : Prop :=
  ∀ Pd, E.Pdesign = some Pd → ∀ f ∈ [E.c.tiP, E.c.q1, E.c.q2, E.c.qloss],
    ∃ a b, ∀ P, |P - s.val (.par "P")| ≤ 1 → f (P / Pd) = a + b * P

/-- Connections which do not share the variables of an energy flow: gases for thermal input, power and heat loss, both
loops for the total heat, one loop for its heat. -/
def OwnForBus (q : EnginePorts) (param : String) : Prop :=
  (param = "TI" ∨ param = "P" ∨ param = "Qloss" →
    ([q.i2, q.i3, q.o2].map (·.m)).Nodup ∧ ([q.i2, q.i3, q.o2].map (·.fl)).Nodup) ∧
  (param = "Q" → q.i0.m ≠ q.i1.m ∧ [q.i0.h, q.o0.h, q.i1.h, q.o1.h].Nodup) ∧
  (param = "Q1" → q.i0.h ≠ q.o0.h) ∧ (param = "Q2" → q.i1.h ≠ q.o1.h)

end Spec

/-! ### what the residuals depend on -/

/-- The values of an engine depend on these variables only. -/
private def SameVals (E : EngineComp) (s s' : EqState ℝ) : Prop :=
  (∀ c ∈ E.gas, s.mv c = s'.mv c ∧ ∀ f ∈ E.d.fuels, s.xv c f = s'.xv c f)

private theorem ti_same (E : EngineComp) (s s' : EqState ℝ) (h : SameVals E s s') : (E.vals s).ti E.d = (E.vals s').ti E.d := by
  have h2 := h E.q.i2 (by simp [EngineComp.gas])
  have h3 := h E.q.i3 (by simp [EngineComp.gas])
  have h4 := h E.q.o2 (by simp [EngineComp.gas])
  simp only [EngineVals.ti, EngineComp.vals, engineOf, combTi, streamOf, List.map_cons, List.map_nil, List.sum_cons,
    List.sum_nil]
  apply Finset.sum_congr rfl
  intro f hf
  rw [h2.1, h2.2 f hf, h3.1, h3.2 f hf, h4.1, h4.2 f hf]

private theorem fuelMX_same (E : EngineComp) (s s' : EqState ℝ) (hk : Spec.KnownFluids s) (l : List (Var × CEntry))
    (hl : ∀ en ∈ E.gas.flatMap (fuelMX E s), en ∈ l)
    (h : ∀ v, s.val v ≠ s'.val v → s.isVar v = true ∧ ∀ en ∈ l, en.1 ≠ v) : SameVals E s s' := by
  intro c hc
  constructor
  · by_contra hn
    exact (h (.m c.m) hn).2 (.m c.m, .num) (hl _ (List.mem_flatMap.2 ⟨c, hc, by simp [fuelMX]⟩)) rfl
  · intro f hf
    by_contra hn
    have hv := h (.x c.fl f) hn
    refine hv.2 (.x c.fl f, .num) (hl _ (List.mem_flatMap.2 ⟨c, hc, ?_⟩)) rfl
    have : f ∈ s.varFluids c := by
      simp only [EqState.varFluids, List.mem_filter]
      exact ⟨hk _ _ hv.1, hv.1⟩
    simp [fuelMX, this, hf]

private theorem val_same (s s' : EqState ℝ) (l : List (Var × CEntry))
    (h : ∀ v, s.val v ≠ s'.val v → s.isVar v = true ∧ ∀ en ∈ l, en.1 ≠ v) (v : Var) (en : CEntry) (hm : (v, en) ∈ l) :
    s.val v = s'.val v := by
  by_contra hn
  exact (h v hn).2 _ hm rfl

/-- Two states which differ only in variables the row does not name have the same residual: no variable is missing. -/
theorem C102_complete (E : EngineComp) (e : EngineEq) (s s' : EqState ℝ) (hk : Spec.KnownFluids s)
    (h : ∀ v, s.val v ≠ s'.val v → s.isVar v = true ∧ ∀ en ∈ e.row E s, en.1 ≠ v) : e.res E s = e.res E s' := by
  have hv := val_same s s' _ h
  have hti : (∀ en ∈ E.gas.flatMap (fuelMX E s), en ∈ e.row E s) → (E.vals s).ti E.d = (E.vals s').ti E.d :=
    fun hl => ti_same E s s' (fuelMX_same E s s' hk _ hl h)
  have hload : (Var.par "P", CEntry.num) ∈ e.row E s → (E.vals s).load = (E.vals s').load := by
    intro hm
    simp only [EngineVals.load, EngineComp.vals, engineOf]
    rw [hv _ _ hm]
  cases e with
  | specQ1 =>
    have h1 := hv (.m E.q.i0.m) (.val (s.hv E.q.o0 - s.hv E.q.i0)) (by simp [EngineEq.row, specQPart])
    have h2 := hv (.h E.q.i0.h) (.val (-s.mv E.q.i0)) (by simp [EngineEq.row, specQPart])
    have h3 := hv (.h E.q.o0.h) (.val (s.mv E.q.i0)) (by simp [EngineEq.row, specQPart])
    simp only [EngineEq.res, engineHeatSpecRes, EngineComp.vals, engineOf, loopOf, EqState.mv, EqState.hv, h1, h2, h3]
  | specQ2 =>
    have h1 := hv (.m E.q.i1.m) (.val (s.hv E.q.o1 - s.hv E.q.i1)) (by simp [EngineEq.row, specQPart])
    have h2 := hv (.h E.q.i1.h) (.val (-s.mv E.q.i1)) (by simp [EngineEq.row, specQPart])
    have h3 := hv (.h E.q.o1.h) (.val (s.mv E.q.i1)) (by simp [EngineEq.row, specQPart])
    simp only [EngineEq.res, engineHeatSpecRes, EngineComp.vals, engineOf, loopOf, EqState.mv, EqState.hv, h1, h2, h3]
  | power =>
    simp only [EngineEq.res, enginePowerRes]
    rw [hti (fun en hen => by simp only [EngineEq.row, List.mem_append]; exact Or.inl hen),
      hload (by simp [EngineEq.row])]
    congr 2
    exact hv (.par "P") .num (by simp [EngineEq.row])
  | heat1 =>
    have h1 := hv (.m E.q.i0.m) .num (by simp [EngineEq.row, loopPart])
    have h2 := hv (.h E.q.i0.h) .num (by simp [EngineEq.row, loopPart])
    have h3 := hv (.h E.q.o0.h) .num (by simp [EngineEq.row, loopPart])
    simp only [EngineEq.res, engineHeat1Res]
    rw [hti (fun en hen => by simp only [EngineEq.row, List.mem_append]; exact Or.inl (Or.inr hen)),
      hload (by simp [EngineEq.row])]
    simp only [EngineComp.vals, engineOf, loopOf, EqState.mv, EqState.hv, h1, h2, h3]
  | heat2 =>
    have h1 := hv (.m E.q.i1.m) .num (by simp [EngineEq.row, loopPart])
    have h2 := hv (.h E.q.i1.h) .num (by simp [EngineEq.row, loopPart])
    have h3 := hv (.h E.q.o1.h) .num (by simp [EngineEq.row, loopPart])
    simp only [EngineEq.res, engineHeat2Res]
    rw [hti (fun en hen => by simp only [EngineEq.row, List.mem_append]; exact Or.inl (Or.inr hen)),
      hload (by simp [EngineEq.row])]
    simp only [EngineComp.vals, engineOf, loopOf, EqState.mv, EqState.hv, h1, h2, h3]
  | loss =>
    simp only [EngineEq.res, engineLossRes]
    rw [hti (fun en hen => by simp only [EngineEq.row, List.mem_append]; exact Or.inl hen),
      hload (by simp [EngineEq.row])]
    congr 2
    exact hv (.par "Qloss") .num (by simp [EngineEq.row])

private theorem cEval_ok (g : EqState ℝ → ℝ) (s : EqState ℝ) (l : List (Var × CEntry)) :
    ∃ r, cEval (fun s => .ok (g s)) s l = .ok r := by
  induction l with
  | nil => exact ⟨[], rfl⟩
  | cons e l ih =>
    obtain ⟨r, hr⟩ := ih
    unfold cEval
    rw [hr]
    by_cases h : s.isVar e.1 = true
    · rw [if_pos h]
      cases he : e.2 with
      | num => simp [cValue, cNumeric]
      | val x => simp [cValue]
    · rw [if_neg h]; exact ⟨r, rfl⟩

private theorem cNumeric_ok (g : EqState ℝ → ℝ) (s : EqState ℝ) (v : Var) (hi : Spec.Inner s v) :
    cNumeric (fun s => .ok (g s)) s v = .ok (Spec.diffQuotient g s v) := by
  unfold cNumeric Spec.diffQuotient
  rw [cUp_inner s v hi, cLow_inner s v hi, cWidth_eq v]
  simp only [stateWith_cPut]

private theorem stateWith_ne (s : EqState ℝ) (v w : Var) (t : ℝ) (h : w ≠ v) : (Spec.stateWith s v t).val w = s.val w := by
  simp [Spec.stateWith, h]

private theorem stateWith_self (s : EqState ℝ) (v : Var) (t : ℝ) : (Spec.stateWith s v t).val v = t := by
  simp [Spec.stateWith]

private theorem loop_quot (s : EqState ℝ) (i o : Port) (Q : ℝ) (ho : Spec.OwnLoop i o) (v : Var) (x : ℝ)
    (hx : (v, CEntry.val x) ∈ specQPart s i o) :
    Spec.diffQuotient (fun s => s.mv i * (s.hv o - s.hv i) + Q) s v = x := by
  have h0 := combStep_pos v
  simp only [specQPart, List.mem_cons, Prod.mk.injEq, CEntry.val.injEq, List.not_mem_nil, or_false] at hx
  unfold Spec.diffQuotient
  rcases hx with ⟨rfl, rfl⟩ | ⟨rfl, rfl⟩ | ⟨rfl, rfl⟩
  · simp only [EqState.mv, EqState.hv, stateWith_self, stateWith_ne _ (.m i.m) (.h o.h) _ (by simp),
      stateWith_ne _ (.m i.m) (.h i.h) _ (by simp)]
    field_simp; ring
  · have : Var.h o.h ≠ .h i.h := fun h => ho (by simpa using h.symm)
    simp only [EqState.mv, EqState.hv, stateWith_self, stateWith_ne _ (.h i.h) (.h o.h) _ this,
      stateWith_ne _ (.h i.h) (.m i.m) _ (by simp)]
    field_simp; ring
  · have : Var.h i.h ≠ .h o.h := fun h => ho (by simpa using h)
    simp only [EqState.mv, EqState.hv, stateWith_self, stateWith_ne _ (.h o.h) (.h i.h) _ this,
      stateWith_ne _ (.h o.h) (.m i.m) _ (by simp)]
    field_simp; ring

private theorem row_num (E : EngineComp) (e : EngineEq) (s : EqState ℝ) (h1 : e ≠ .specQ1) (h2 : e ≠ .specQ2) (v : Var)
    (x : ℝ) : (v, CEntry.val x) ∉ e.row E s := by
  cases e <;> simp_all [EngineEq.row, fuelMX, loopPart]

/-- Every entry of a row, written or not, is the central difference quotient of the residual for its variable. For the
specified heat this is the exact partial derivative, see `C102_exact`. -/
theorem C102_quotient (E : EngineComp) (e : EngineEq) (s : EqState ℝ) (hk : Spec.KnownFluids s)
    (h1 : e = .specQ1 → Spec.OwnLoop E.q.i0 E.q.o0) (h2 : e = .specQ2 → Spec.OwnLoop E.q.i1 E.q.o1) :
    ∃ row, e.jac E s = .ok row ∧ ∀ v, s.isVar v = true → Spec.Inner s v →
      rowValue row v = Spec.diffQuotient (fun s => e.res E s) s v := by
  obtain ⟨row, hrow⟩ := cEval_ok (fun s => e.res E s) s (e.row E s)
  refine ⟨row, hrow, fun v hv hi => ?_⟩
  have hall : ∀ y, (v, y) ∈ row → y = Spec.diffQuotient (fun s => e.res E s) s v := by
    intro y hy
    obtain ⟨_, en, h3, h4⟩ := cEval_mem _ s _ row hrow v y hy
    cases en with
    | num =>
      rw [cValue, cNumeric_ok _ s v hi] at h4
      exact (Except.ok.inj h4).symm
    | val x =>
      rw [cValue] at h4
      rw [← Except.ok.inj h4]
      by_cases e1 : e = .specQ1
      · subst e1
        exact (loop_quot s _ _ E.Q1 (h1 rfl) v x h3).symm
      by_cases e2 : e = .specQ2
      · subst e2
        exact (loop_quot s _ _ E.Q2 (h2 rfl) v x h3).symm
      exact absurd h3 (row_num E e s e1 e2 v x)
  rcases rowValue_fold row v _ 0 hall with ⟨h3, _⟩ | ⟨h3, h4⟩
  · exact h3
  · unfold rowValue
    rw [h3]
    have hc : ∀ t, e.res E s = e.res E (Spec.stateWith s v t) := by
      intro t
      apply C102_complete E e s _ hk
      intro w hw
      have hwv : w = v := by
        by_contra hwv
        exact hw (by simp [Spec.stateWith, hwv])
      subst hwv
      refine ⟨hv, fun en hen heq => ?_⟩
      obtain ⟨x, hx⟩ := cEval_has _ s _ row hrow en hen (by rw [heq]; exact hv)
      rw [heq] at hx
      exact h4 x hx
    simp only [Spec.diffQuotient, ← hc]
    simp

/-! ### exact derivatives -/

/-- quadratic in the range of the increment -/
private def QuadNear (g : EqState ℝ → ℝ) (s : EqState ℝ) (v : Var) : Prop :=
  ∃ a b c, ∀ t, |t - s.val v| ≤ Spec.combStep v → g (Spec.stateWith s v t) = a + b * t + c * t ^ 2

private theorem quad_exact (g : EqState ℝ → ℝ) (s : EqState ℝ) (v : Var) (h : QuadNear g s v) :
    Spec.PartialDerivative (fun s => .ok (g s)) s v (Spec.diffQuotient g s v) := by
  obtain ⟨a, b, c, h⟩ := h
  have h0 := combStep_pos v
  refine ⟨fun t => a + b * t + c * t ^ 2, fun t ht => by simp only [h t ht], ?_⟩
  have hq : Spec.diffQuotient g s v = b + c * (2 * s.val v) := by
    unfold Spec.diffQuotient
    rw [h _ (by simp [abs_of_pos h0]), h _ (by simp [abs_of_pos h0])]
    field_simp; ring
  rw [hq]
  have h1 := ((hasDerivAt_id (s.val v)).const_mul b).const_add a
  have h2 := ((hasDerivAt_id (s.val v)).pow 2).const_mul c
  have h3 := h1.add h2
  refine (h3.congr_deriv ?_).congr_of_eventuallyEq (Filter.Eventually.of_forall fun t => ?_)
  · simp
    try ring
  · simp

private theorem AffR.quad {g : EqState ℝ → ℝ} {s : EqState ℝ} {v : Var} (h : AffR (fun t => g (Spec.stateWith s v t))) :
    QuadNear g s v := by
  obtain ⟨a, b, h⟩ := h
  exact ⟨a, b, 0, fun t _ => by have := h t; simp only at this; rw [this]; ring⟩

private theorem ti_aff (E : EngineComp) (s : EqState ℝ) (v : Var) :
    AffR (fun t => (E.vals (Spec.stateWith s v t)).ti E.d) := by
  simp only [EngineVals.ti, EngineComp.vals, engineOf, combTi, streamOf, List.map_cons, List.map_nil, List.sum_cons,
    List.sum_nil, EqState.mv, EqState.xv]
  apply AffR.finSum
  intro f
  apply AffR.mulc
  exact ((aff_mul s v _ _ (by simp)).add ((aff_mul s v _ _ (by simp)).add (AffR.const 0))).sub (aff_mul s v _ _ (by simp))

private theorem heat_aff (s : EqState ℝ) (v : Var) (i o : Port) :
    AffR (fun t => (Spec.stateWith s v t).mv i * ((Spec.stateWith s v t).hv o - (Spec.stateWith s v t).hv i)) := by
  simp only [mul_sub, EqState.mv, EqState.hv]
  exact (aff_mul s v _ _ (by simp)).sub (aff_mul s v _ _ (by simp))

private theorem load_const (E : EngineComp) (s : EqState ℝ) (v : Var) (h : v = .par "P" → E.Pdesign = none) (t : ℝ) :
    (E.vals (Spec.stateWith s v t)).load = (E.vals s).load := by
  simp only [EngineVals.load, EngineComp.vals, engineOf]
  cases hd : E.Pdesign with
  | none => rfl
  | some Pd =>
    have : Var.par "P" ≠ v := fun hv => by rw [h hv.symm] at hd; simp at hd
    simp only [stateWith_ne s v (.par "P") t this]

private theorem res_aff (E : EngineComp) (e : EngineEq) (s : EqState ℝ) (v : Var) (hc : v = .par "P" → E.Pdesign = none) :
    AffR (fun t => e.res E (Spec.stateWith s v t)) := by
  have hl := load_const E s v hc
  cases e with
  | specQ1 => exact (heat_aff s v E.q.i0 E.q.o0).add (AffR.const _)
  | specQ2 => exact (heat_aff s v E.q.i1 E.q.o1).add (AffR.const _)
  | power =>
    simp only [EngineEq.res, enginePowerRes, hl]
    exact (ti_aff E s v).add ((aff_val s v (.par "P")).cmul _)
  | heat1 =>
    simp only [EngineEq.res, engineHeat1Res, hl, mul_assoc]
    exact ((ti_aff E s v).mulc _).sub ((heat_aff s v E.q.i0 E.q.o0).cmul _)
  | heat2 =>
    simp only [EngineEq.res, engineHeat2Res, hl, mul_assoc]
    exact ((ti_aff E s v).mulc _).sub ((heat_aff s v E.q.i1 E.q.o1).cmul _)
  | loss =>
    simp only [EngineEq.res, engineLossRes, hl]
    exact ((ti_aff E s v).mulc _).add ((aff_val s v (.par "Qloss")).cmul _)

/-- The entries are the exact partial derivatives of the equations, for the power unless a support point of a characteristic
line lies within the increment. -/
theorem C102_exact (E : EngineComp) (e : EngineEq) (s : EqState ℝ) (hk : Spec.KnownFluids s)
    (h1 : e = .specQ1 → Spec.OwnLoop E.q.i0 E.q.o0) (h2 : e = .specQ2 → Spec.OwnLoop E.q.i1 E.q.o1) :
    ∃ row, e.jac E s = .ok row ∧ ∀ v, s.isVar v = true → Spec.Inner s v → (v = .par "P" → Spec.StraightLines E s) →
      Spec.PartialDerivative (fun s => .ok (e.res E s)) s v (rowValue row v) := by
  obtain ⟨row, hrow, hq⟩ := C102_quotient E e s hk h1 h2
  refine ⟨row, hrow, fun v hv hi hs => ?_⟩
  rw [hq v hv hi]
  apply quad_exact
  by_cases hc : v = .par "P" → E.Pdesign = none
  · exact (res_aff E e s v hc).quad
  · push Not at hc
    obtain ⟨rfl, hn⟩ := hc
    obtain ⟨Pd, hPd⟩ := Option.ne_none_iff_exists'.1 hn
    have hst := hs rfl Pd hPd
    have hti : ∀ t, (E.vals (Spec.stateWith s (.par "P") t)).ti E.d = (E.vals s).ti E.d := by
      intro t
      apply ti_same
      intro c _
      simp [EqState.mv, EqState.xv, Spec.stateWith]
    have hld : ∀ t, (E.vals (Spec.stateWith s (.par "P") t)).load = t / Pd := by
      intro t
      simp [EngineVals.load, EngineComp.vals, engineOf, hPd, stateWith_self]
    have hP : ∀ t, (E.vals (Spec.stateWith s (.par "P") t)).P = t := fun t => stateWith_self s (.par "P") t
    have hQ : ∀ t, (E.vals (Spec.stateWith s (.par "P") t)).Qloss = (E.vals s).Qloss :=
      fun t => stateWith_ne s (.par "P") (.par "Qloss") t (by simp)
    have hl1 : ∀ t, (E.vals (Spec.stateWith s (.par "P") t)).loop1 = (E.vals s).loop1 := by
      intro t; simp [EngineComp.vals, engineOf, loopOf, EqState.mv, EqState.hv, EqState.pv, Spec.stateWith]
    have hl2 : ∀ t, (E.vals (Spec.stateWith s (.par "P") t)).loop2 = (E.vals s).loop2 := by
      intro t; simp [EngineComp.vals, engineOf, loopOf, EqState.mv, EqState.hv, EqState.pv, Spec.stateWith]
    obtain ⟨a0, b0, ht⟩ := hst E.c.tiP (by simp)
    obtain ⟨a1, b1, hq1⟩ := hst E.c.q1 (by simp)
    obtain ⟨a2, b2, hq2⟩ := hst E.c.q2 (by simp)
    obtain ⟨a3, b3, hq3⟩ := hst E.c.qloss (by simp)
    cases e with
    | specQ1 =>
      apply AffR.quad
      exact (heat_aff s (.par "P") E.q.i0 E.q.o0).add (AffR.const _)
    | specQ2 =>
      apply AffR.quad
      exact (heat_aff s (.par "P") E.q.i1 E.q.o1).add (AffR.const _)
    | power =>
      refine ⟨(E.vals s).ti E.d, a0, b0, fun t h => ?_⟩
      simp only [EngineEq.res, enginePowerRes, hti, hld, hP, ht t h]
      ring
    | heat1 =>
      refine ⟨(E.vals s).ti E.d * a1 - a0 * ((E.vals s).loop1.m * ((E.vals s).loop1.hOut - (E.vals s).loop1.hIn)),
        (E.vals s).ti E.d * b1 - b0 * ((E.vals s).loop1.m * ((E.vals s).loop1.hOut - (E.vals s).loop1.hIn)), 0, fun t h => ?_⟩
      simp only [EngineEq.res, engineHeat1Res, hti, hld, hl1, ht t h, hq1 t h]
      ring
    | heat2 =>
      refine ⟨(E.vals s).ti E.d * a2 - a0 * ((E.vals s).loop2.m * ((E.vals s).loop2.hOut - (E.vals s).loop2.hIn)),
        (E.vals s).ti E.d * b2 - b0 * ((E.vals s).loop2.m * ((E.vals s).loop2.hOut - (E.vals s).loop2.hIn)), 0, fun t h => ?_⟩
      simp only [EngineEq.res, engineHeat2Res, hti, hld, hl2, ht t h, hq2 t h]
      ring
    | loss =>
      refine ⟨(E.vals s).ti E.d * a3 + a0 * (E.vals s).Qloss, (E.vals s).ti E.d * b3 + b0 * (E.vals s).Qloss, 0,
        fun t h => ?_⟩
      simp only [EngineEq.res, engineLossRes, hti, hld, hQ, ht t h, hq3 t h]
      ring

/-! ### busses -/

private theorem engGas_nodup (E : EngineComp) (s : EqState ℝ) (hm : (E.gas.map (·.m)).Nodup) (hf : (E.gas.map (·.fl)).Nodup)
    (hkn : ∀ i, (s.keys i).Nodup) : ((E.gas.flatMap (numMX s)).map Prod.fst).Nodup := by
  rw [List.map_flatMap, List.nodup_flatMap]
  constructor
  · intro c _
    simp only [numMX, List.map_cons, List.map_map, Function.comp_def, List.nodup_cons, List.mem_map, not_exists, not_and]
    refine ⟨fun f _ h => by simp at h, ?_⟩
    refine List.Nodup.map (fun a b h => by simpa using h) ?_
    exact (hkn c.fl).filter _
  · rw [List.Nodup, List.pairwise_map] at hm hf
    refine (hm.and hf).imp ?_
    rintro c c' ⟨hm, hf⟩
    simp only [Function.onFun, numMX, List.map_cons, List.map_map, Function.comp_def]
    intro w hw hw'
    simp only [List.mem_cons, List.mem_map] at hw hw'
    rcases hw with hw | ⟨f, _, hw⟩ <;> rcases hw' with hw' | ⟨f', _, hw'⟩
    · rw [hw] at hw'; exact hm (by simpa using hw')
    · rw [hw] at hw'; simp at hw'
    · rw [← hw] at hw'; simp at hw'
    · rw [← hw'] at hw; simp only [Var.x.injEq] at hw; exact hf hw.1

private theorem gasPar_nodup (E : EngineComp) (s : EqState ℝ) (h : ((E.gas.flatMap (numMX s)).map Prod.fst).Nodup) :
    ((E.gas.flatMap (numMX s) ++ [(Var.par "P", CEntry.num)]).map Prod.fst).Nodup := by
  rw [List.map_append, List.nodup_append]
  refine ⟨h, by simp, ?_⟩
  intro a ha b hb
  simp only [List.map_cons, List.map_nil, List.mem_singleton] at hb
  subst hb
  rintro rfl
  simp [numMX] at ha

/-- The parameters of a bus and the derivatives taken for them. -/
private theorem busRow_cases (E : EngineComp) (param : String) (s : EqState ℝ) (l : List (Var × CEntry))
    (h : engineBusRow E param s = .ok l) :
    (param = "TI" ∧ l = E.gas.flatMap (numMX s)) ∨
    ((param = "P" ∨ param = "Qloss") ∧ l = E.gas.flatMap (numMX s) ++ [(.par "P", .num)]) ∨
    (param = "Q" ∧ l = loopPart E.q.i0 E.q.o0 ++ loopPart E.q.i1 E.q.o1) ∨
    (param = "Q1" ∧ l = loopPart E.q.i0 E.q.o0) ∨ (param = "Q2" ∧ l = loopPart E.q.i1 E.q.o1) := by
  unfold engineBusRow at h
  by_cases h1 : param = "TI"
  · rw [if_pos h1] at h; exact Or.inl ⟨h1, (Except.ok.inj h).symm⟩
  rw [if_neg h1] at h
  by_cases h2 : param = "P" ∨ param = "Qloss"
  · rw [if_pos h2] at h; exact Or.inr (Or.inl ⟨h2, (Except.ok.inj h).symm⟩)
  rw [if_neg h2] at h
  by_cases h3 : param = "Q"
  · rw [if_pos h3] at h; exact Or.inr (Or.inr (Or.inl ⟨h3, (Except.ok.inj h).symm⟩))
  rw [if_neg h3] at h
  by_cases h4 : param = "Q1"
  · rw [if_pos h4] at h; exact Or.inr (Or.inr (Or.inr (Or.inl ⟨h4, (Except.ok.inj h).symm⟩)))
  rw [if_neg h4] at h
  by_cases h5 : param = "Q2"
  · rw [if_pos h5] at h; exact Or.inr (Or.inr (Or.inr (Or.inr ⟨h5, (Except.ok.inj h).symm⟩)))
  rw [if_neg h5] at h
  simp at h

private theorem numMX_same (E : EngineComp) (s s' : EqState ℝ) (hk : Spec.KnownFluids s) (l : List (Var × CEntry))
    (hl : ∀ en ∈ E.gas.flatMap (numMX s), en ∈ l)
    (h : ∀ v, s.val v ≠ s'.val v → s.isVar v = true ∧ ∀ en ∈ l, en.1 ≠ v) : SameVals E s s' := by
  intro c hc
  constructor
  · by_contra hn
    exact (h (.m c.m) hn).2 (.m c.m, .num) (hl _ (List.mem_flatMap.2 ⟨c, hc, by simp [numMX]⟩)) rfl
  · intro f hf
    by_contra hn
    have hv := h (.x c.fl f) hn
    refine hv.2 (.x c.fl f, .num) (hl _ (List.mem_flatMap.2 ⟨c, hc, ?_⟩)) rfl
    have : f ∈ s.varFluids c := by
      simp only [EqState.varFluids, List.mem_filter]
      exact ⟨hk _ _ hv.1, hv.1⟩
    simp [numMX, this]

/-- The value of the engine on a bus depends only on variables a derivative is taken for. -/
theorem C102_bus_complete (E : EngineComp) (g : ℝ → PyRes ℝ) (param : String) (s s' : EqState ℝ) (hk : Spec.KnownFluids s)
    (l : List (Var × CEntry)) (hl : engineBusRow E param s = .ok l)
    (h : ∀ v, s.val v ≠ s'.val v → s.isVar v = true ∧ ∀ en ∈ l, en.1 ≠ v) :
    engineBusValue E g param s = engineBusValue E g param s' := by
  have hv := val_same s s' _ h
  have hb : engineBus E.d E.c (E.vals s) param = engineBus E.d E.c (E.vals s') param := by
    have hloop1 : (∀ en ∈ loopPart E.q.i0 E.q.o0, en ∈ l) → (E.vals s).loop1.m = (E.vals s').loop1.m ∧
        (E.vals s).loop1.hIn = (E.vals s').loop1.hIn ∧ (E.vals s).loop1.hOut = (E.vals s').loop1.hOut := fun hl =>
      ⟨hv (.m E.q.i0.m) .num (hl _ (by simp [loopPart])), hv (.h E.q.i0.h) .num (hl _ (by simp [loopPart])),
        hv (.h E.q.o0.h) .num (hl _ (by simp [loopPart]))⟩
    have hloop2 : (∀ en ∈ loopPart E.q.i1 E.q.o1, en ∈ l) → (E.vals s).loop2.m = (E.vals s').loop2.m ∧
        (E.vals s).loop2.hIn = (E.vals s').loop2.hIn ∧ (E.vals s).loop2.hOut = (E.vals s').loop2.hOut := fun hl =>
      ⟨hv (.m E.q.i1.m) .num (hl _ (by simp [loopPart])), hv (.h E.q.i1.h) .num (hl _ (by simp [loopPart])),
        hv (.h E.q.o1.h) .num (hl _ (by simp [loopPart]))⟩
    rcases busRow_cases E param s l hl with ⟨rfl, rfl⟩ | ⟨hp, rfl⟩ | ⟨rfl, rfl⟩ | ⟨rfl, rfl⟩ | ⟨rfl, rfl⟩
    · have ht := ti_same E s s' (numMX_same E s s' hk _ (fun _ h => h) h)
      simp only [engineBus, if_true, ht]
    · have ht := ti_same E s s' (numMX_same E s s' hk _ (fun _ h => List.mem_append_left _ h) h)
      have hload : (E.vals s).load = (E.vals s').load := by
        simp only [EngineVals.load, EngineComp.vals, engineOf]
        rw [hv (.par "P") .num (by simp)]
      rcases hp with rfl | rfl
      · simp [engineBus, engineCalcP, ht, hload]
      · simp [engineBus, engineCalcQloss, ht, hload]
    · obtain ⟨a1, a2, a3⟩ := hloop1 (fun _ h => List.mem_append_left _ h)
      obtain ⟨b1, b2, b3⟩ := hloop2 (fun _ h => List.mem_append_right _ h)
      simp [engineBus, a1, a2, a3, b1, b2, b3]
    · obtain ⟨a1, a2, a3⟩ := hloop1 (fun _ h => h)
      simp [engineBus, a1, a2, a3]
    · obtain ⟨a1, a2, a3⟩ := hloop2 (fun _ h => h)
      simp [engineBus, a1, a2, a3]
  unfold engineBusValue
  rw [hb]

private theorem busRow_num (E : EngineComp) (param : String) (s : EqState ℝ) (l : List (Var × CEntry))
    (hl : engineBusRow E param s = .ok l) (v : Var) (x : ℝ) : (v, CEntry.val x) ∉ l := by
  rcases busRow_cases E param s l hl with ⟨rfl, rfl⟩ | ⟨hp, rfl⟩ | ⟨rfl, rfl⟩ | ⟨rfl, rfl⟩ | ⟨rfl, rfl⟩ <;>
    simp [numMX, loopPart]

/-- For every variable the entry of a bus is minus the central difference quotient of the value of the engine on the bus, if
the connections do not share the variables of the energy flow. -/
theorem C102_bus_partial (E : EngineComp) (g : ℝ → PyRes ℝ) (param : String) (s : EqState ℝ) (hk : Spec.KnownFluids s)
    (hkn : ∀ i, (s.keys i).Nodup) (ho : Spec.OwnForBus E.q param) (w : List (Var × ℝ))
    (hw : engineBusWrites E g param s = .ok w) (v : Var) (hv : s.isVar v = true) (hi : Spec.Inner s v) :
    (∃ up low, engineBusValue E g param (Spec.stateWith s v (s.val v + Spec.combStep v)) = .ok up
      ∧ engineBusValue E g param (Spec.stateWith s v (s.val v - Spec.combStep v)) = .ok low
      ∧ busEntry w v = -((up - low) / (2 * Spec.combStep v)))
    ∨ (busEntry w v = 0 ∧ ∀ t, engineBusValue E g param (Spec.stateWith s v t) = engineBusValue E g param s) := by
  unfold engineBusWrites at hw
  cases hl : engineBusRow E param s with
  | error e => rw [hl] at hw; simp at hw
  | ok l =>
    rw [hl] at hw
    simp only at hw
    have hnd : (l.map Prod.fst).Nodup := by
      rcases busRow_cases E param s l hl with ⟨rfl, rfl⟩ | ⟨hp, rfl⟩ | ⟨rfl, rfl⟩ | ⟨rfl, rfl⟩ | ⟨rfl, rfl⟩
      · obtain ⟨h1, h2⟩ := ho.1 (by simp)
        exact engGas_nodup E s h1 h2 hkn
      · obtain ⟨h1, h2⟩ := ho.1 (Or.inr hp)
        exact gasPar_nodup E s (engGas_nodup E s h1 h2 hkn)
      · obtain ⟨h1, h2⟩ := ho.2.1 rfl
        simp only [List.nodup_cons, List.mem_cons, List.not_mem_nil, or_false, not_or] at h2
        simp [loopPart, h1, h2.1, h2.2.1, h2.2.2.1]
      · have h1 := ho.2.2.1 rfl
        simp [loopPart, h1]
      · have h1 := ho.2.2.2 rfl
        simp [loopPart, h1]
    by_cases h : ∃ en, (v, en) ∈ l
    · left
      obtain ⟨en, hen⟩ := h
      obtain ⟨x, hx⟩ := cEval_has _ s _ w hw (v, en) hen hv
      obtain ⟨_, en', h1, h2⟩ := cEval_mem _ s _ w hw v x hx
      have hb : busEntry w v = -x := by
        unfold busEntry
        rw [busEntry_fold, filter_nodup w v x ((cEval_sublist _ s _ w hw).nodup hnd) hx]
        simp
      cases en' with
      | val y => exact absurd h1 (busRow_num E param s l hl v y)
      | num =>
        simp only [cValue, cNumeric, cUp_inner s v hi, cLow_inner s v hi, cWidth_eq v, ← stateWith_cPut] at h2
        cases h3 : engineBusValue E g param (Spec.stateWith s v (s.val v + Spec.combStep v)) with
        | error e => rw [h3] at h2; simp at h2
        | ok up =>
          rw [h3] at h2
          cases h4 : engineBusValue E g param (Spec.stateWith s v (s.val v - Spec.combStep v)) with
          | error e => rw [h4] at h2; simp at h2
          | ok low =>
            rw [h4] at h2
            simp only [Except.ok.injEq] at h2
            exact ⟨up, low, rfl, rfl, by rw [hb, ← h2]⟩
    · right
      simp only [not_exists] at h
      constructor
      · have : w.filter (fun e => e.1 = v) = [] := by
          rw [List.filter_eq_nil_iff]
          intro e he h'
          obtain ⟨_, en, h1, _⟩ := cEval_mem _ s _ w hw e.1 e.2 he
          simp only [decide_eq_true_eq] at h'
          rw [h'] at h1
          exact h en h1
        unfold busEntry
        rw [busEntry_fold, this]
        simp
      · intro t
        symm
        apply C102_bus_complete E g param s _ hk l hl
        intro u hu
        have huv : u = v := by
          by_contra huv
          exact hu (by simp [Spec.stateWith, huv])
        subst huv
        exact ⟨hv, fun en hen heq => h en.2 (by rw [← heq]; exact hen)⟩

/-- Both cooling loops in series share one mass flow: the entry of the total heat on a bus for this mass flow is twice the
derivative, for every such engine and state. -/
theorem C102_bus_series_false (E : EngineComp) (s : EqState ℝ) (hs : E.q.i0.m = E.q.i1.m)
    (hv : s.isVar (.m E.q.i0.m) = true) : ∃ w D, engineBusWrites E .ok "Q" s = .ok w ∧
      D = (s.hv E.q.i0 - s.hv E.q.o0) + (s.hv E.q.i1 - s.hv E.q.o1) ∧
      (∀ t, engineBusValue E .ok "Q" (Spec.stateWith s (.m E.q.i0.m) t) = .ok (D * t)) ∧
      busEntry w (.m E.q.i0.m) = -(2 * D) := by
  have hval : ∀ t, engineBusValue E .ok "Q" (Spec.stateWith s (.m E.q.i0.m) t)
      = .ok (((s.hv E.q.i0 - s.hv E.q.o0) + (s.hv E.q.i1 - s.hv E.q.o1)) * t) := by
    intro t
    simp [engineBusValue, engineBus, EngineComp.vals, engineOf, loopOf, EqState.mv, EqState.hv, Spec.stateWith, ← hs]
    ring
  have hnum : cNumeric (engineBusValue E .ok "Q") s (.m E.q.i0.m)
      = .ok ((s.hv E.q.i0 - s.hv E.q.o0) + (s.hv E.q.i1 - s.hv E.q.o1)) := by
    unfold cNumeric
    rw [← stateWith_cPut, ← stateWith_cPut, hval, hval]
    simp only [cUp, cLow, cWidth, Except.ok.injEq]
    ring
  have hrow : engineBusRow E "Q" s = .ok (loopPart E.q.i0 E.q.o0 ++ loopPart E.q.i1 E.q.o1) := by
    simp [engineBusRow]
  have hok : ∀ l, ∃ w, cEval (engineBusValue E .ok "Q") s l = .ok w := by
    intro l
    have : engineBusValue E .ok "Q" = fun s => .ok (0 - (E.vals s).loop1.m * ((E.vals s).loop1.hOut - (E.vals s).loop1.hIn)
        - (E.vals s).loop2.m * ((E.vals s).loop2.hOut - (E.vals s).loop2.hIn)) := by
      funext s; simp [engineBusValue, engineBus]
    rw [this]
    exact cEval_ok _ s l
  have hother : ∀ (h h' : ℕ) (e : Var × CEntry) (l w), e = (.h h, .num) → cEval (engineBusValue E .ok "Q") s (e :: l) = .ok w →
      ∃ w', cEval (engineBusValue E .ok "Q") s l = .ok w' ∧
        ((w.filter (fun e => e.1 = .m h')).map Prod.snd).sum = ((w'.filter (fun e => e.1 = .m h')).map Prod.snd).sum := by
    intro h h' e l w he hw
    subst he
    unfold cEval at hw
    by_cases hq : s.isVar (.h h) = true
    · rw [if_pos hq] at hw
      cases hx : cValue (engineBusValue E .ok "Q") s (.h h) .num with
      | error e => rw [hx] at hw; simp at hw
      | ok x =>
        rw [hx] at hw
        cases hy : cEval (engineBusValue E .ok "Q") s l with
        | error e => rw [hy] at hw; simp at hw
        | ok r =>
          rw [hy] at hw
          simp only [Except.ok.injEq] at hw
          exact ⟨r, rfl, by rw [← hw]; simp⟩
    · rw [if_neg hq] at hw
      exact ⟨w, hw, rfl⟩
  have hflow : ∀ l w, cEval (engineBusValue E .ok "Q") s ((.m E.q.i0.m, .num) :: l) = .ok w →
      ∃ w', cEval (engineBusValue E .ok "Q") s l = .ok w' ∧
        ((w.filter (fun e => e.1 = .m E.q.i0.m)).map Prod.snd).sum
          = ((s.hv E.q.i0 - s.hv E.q.o0) + (s.hv E.q.i1 - s.hv E.q.o1))
            + ((w'.filter (fun e => e.1 = .m E.q.i0.m)).map Prod.snd).sum := by
    intro l w hw
    unfold cEval at hw
    rw [if_pos hv] at hw
    simp only [cValue, hnum] at hw
    cases hy : cEval (engineBusValue E .ok "Q") s l with
    | error e => rw [hy] at hw; simp at hw
    | ok r =>
      rw [hy] at hw
      simp only [Except.ok.injEq] at hw
      exact ⟨r, rfl, by rw [← hw]; simp⟩
  obtain ⟨w, hw⟩ := hok (loopPart E.q.i0 E.q.o0 ++ loopPart E.q.i1 E.q.o1)
  refine ⟨w, _, by unfold engineBusWrites; rw [hrow]; exact hw, rfl, hval, ?_⟩
  unfold busEntry
  rw [busEntry_fold]
  simp only [loopPart, List.cons_append, List.nil_append, ← hs] at hw
  obtain ⟨w1, h1, e1⟩ := hflow _ w hw
  obtain ⟨w2, h2, e2⟩ := hother _ E.q.i0.m _ _ w1 rfl h1
  obtain ⟨w3, h3, e3⟩ := hother _ E.q.i0.m _ _ w2 rfl h2
  obtain ⟨w4, h4, e4⟩ := hflow _ w3 h3
  obtain ⟨w5, h5, e5⟩ := hother _ E.q.i0.m _ _ w4 rfl h4
  obtain ⟨w6, h6, e6⟩ := hother _ E.q.i0.m _ _ w5 rfl h5
  simp only [cEval, Except.ok.injEq] at h6
  subst h6
  rw [e1, e2, e3, e4, e5, e6]
  simp
  ring

/-- At the lower end of its range a mass fraction is moved in one direction only, but the difference is divided by the full
width: for a fraction of zero, as that of the fuel in the flue gas, the entry is half of the derivative. -/
theorem C102_edge_false (E : EngineComp) (e : EngineEq) (s : EqState ℝ) (hk : Spec.KnownFluids s) (i : ℕ) (k : String)
    (hv : s.isVar (.x i k) = true) (h0 : s.val (.x i k) = 0) :
    ∃ row b, e.jac E s = .ok row ∧ Spec.PartialDerivative (fun s => .ok (e.res E s)) s (.x i k) b ∧
      rowValue row (.x i k) = b / 2 := by
  obtain ⟨row, hrow⟩ := cEval_ok (fun s => e.res E s) s (e.row E s)
  obtain ⟨a, b, hab⟩ := res_aff E e s (.x i k) (by simp)
  refine ⟨row, b, hrow, ⟨fun t => a + b * t, fun t _ => by simpa using hab t, ?_⟩, ?_⟩
  · simpa using ((hasDerivAt_id (s.val (.x i k))).const_mul b).const_add a
  have hnum : cNumeric (fun s => .ok (e.res E s)) s (.x i k) = .ok (b / 2) := by
    have e1 := hab (1 / 100000)
    have e2 := hab 0
    simp only at e1 e2
    unfold cNumeric
    rw [← stateWith_cPut, ← stateWith_cPut, h0]
    have hu : cUp 0 (.x i k) = 1 / 100000 := by simp only [cUp]; norm_num
    have hl : cLow 0 (.x i k) = 0 := by simp only [cLow, hu]; norm_num
    rw [hu, hl]
    simp only [e1, e2, Except.ok.injEq, cWidth]
    ring
  have hall : ∀ y, (.x i k, y) ∈ row → y = b / 2 := by
    intro y hy
    obtain ⟨_, en, h2, h3⟩ := cEval_mem _ s _ row hrow _ y hy
    cases en with
    | num => rw [cValue, hnum] at h3; exact (Except.ok.inj h3).symm
    | val x => cases e <;> simp [EngineEq.row, specQPart, fuelMX, loopPart] at h2
  rcases rowValue_fold row (.x i k) _ 0 hall with ⟨h2, _⟩ | ⟨h2, h3⟩
  · exact h2
  · have hc : ∀ t, e.res E s = e.res E (Spec.stateWith s (.x i k) t) := by
      intro t
      apply C102_complete E e s _ hk
      intro w hw
      have hwv : w = .x i k := by
        by_contra hwv
        exact hw (by simp [Spec.stateWith, hwv])
      subst hwv
      refine ⟨hv, fun en hen heq => ?_⟩
      obtain ⟨x, hx⟩ := cEval_has _ s _ row hrow en hen (by rw [heq]; exact hv)
      rw [heq] at hx
      exact h3 x hx
    have hz : b = 0 := by
      have e1 := hab 1
      have e2 := hab 0
      simp only [← hc] at e1 e2
      linarith
    unfold rowValue
    rw [h2, hz]
    simp

/-! ### the hypotheses can be met -/

/-- An engine which burns methane; the loops are connected in series through a third component. -/
noncomputable def engineToy : EngineComp where
  d := combToy.d
  hr := fun _ => 0
  q := ⟨⟨0, 0, 0, 0⟩, ⟨0, 2, 2, 0⟩, ⟨1, 4, 4, 1⟩, ⟨2, 5, 5, 2⟩, ⟨0, 1, 1, 0⟩, ⟨0, 3, 3, 0⟩, ⟨3, 6, 6, 3⟩⟩
  c := ⟨fun x => 3 - x / 2, fun _ => 1 / 4, fun _ => 1 / 4, fun _ => 1 / 10⟩
  Pdesign := some (-10)
  Q1 := -100
  Q2 := -100

/-- A state of it: all flows, enthalpies and the power are variable, and the fuel in the flue gas. -/
noncomputable def engineToyS : EqState ℝ where
  val := fun v => match v with
    | .m 0 => 2 | .m 1 => 40 | .m 2 => 1 | .m 3 => 41
    | .x 2 "CH4" => 1 | .x 3 "CH4" => 1 / 100
    | .x _ _ => 0
    | .h 0 => 100 | .h 1 => 150 | .h 2 => 150 | .h 3 => 200
    | .par "P" => -12
    | _ => 100
  isVar := fun v => match v with | .x i f => i = 3 && f = "CH4" | _ => true
  col := fun _ => none
  keys := fun i => if i = 3 then ["CH4"] else []
  fixed := fun _ => []

theorem engineToy_known : Spec.KnownFluids engineToyS := by
  intro i f h
  simp [engineToyS] at h ⊢
  simp [h]

example : Spec.KnownFluids engineToyS ∧ Spec.OwnLoop engineToy.q.i0 engineToy.q.o0 ∧ Spec.OwnLoop engineToy.q.i1 engineToy.q.o1 ∧
    Spec.StraightLines engineToy engineToyS ∧ Spec.Inner engineToyS (.x 3 "CH4") ∧ engineToyS.isVar (.x 3 "CH4") = true ∧
    Spec.OwnForBus engineToy.q "P" ∧ Spec.OwnForBus engineToy.q "Q1" ∧ ¬ Spec.OwnForBus engineToy.q "Q" := by
  refine ⟨engineToy_known, ?_, ?_, ?_, ?_, ?_, ?_, ?_, ?_⟩
  · simp [Spec.OwnLoop, engineToy]
  · simp [Spec.OwnLoop, engineToy]
  · intro Pd _ f hf
    simp only [engineToy, List.mem_cons, List.not_mem_nil, or_false] at hf
    rcases hf with rfl | rfl | rfl | rfl
    · exact ⟨3, -(1 / Pd) / 2, fun P _ => by ring⟩
    · exact ⟨1 / 4, 0, fun P _ => by ring⟩
    · exact ⟨1 / 4, 0, fun P _ => by ring⟩
    · exact ⟨1 / 10, 0, fun P _ => by ring⟩
  · simp [Spec.Inner, engineToyS]
    norm_num
  · simp [engineToyS]
  · simp [Spec.OwnForBus, engineToy]
  · simp [Spec.OwnForBus, engineToy]
  · simp [Spec.OwnForBus, engineToy]

/-- The entry of the total heat of this engine on a bus is 200 instead of 100. -/
example : ∃ w, engineBusWrites engineToy .ok "Q" engineToyS = .ok w ∧ busEntry w (.m 0) = 200 ∧
    ∀ t, engineBusValue engineToy .ok "Q" (Spec.stateWith engineToyS (.m 0) t) = .ok (-100 * t) := by
  obtain ⟨w, D, h1, h2, h3, h4⟩ := C102_bus_series_false engineToy engineToyS rfl (by simp [engineToyS])
  have hD : D = -100 := by rw [h2]; simp [engineToy, engineToyS, EqState.hv]; norm_num
  subst hD
  exact ⟨w, h1, by rw [show (Var.m 0) = .m engineToy.q.i0.m from rfl, h4]; norm_num, h3⟩

end Tespy
