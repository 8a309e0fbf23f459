import Verif.Model.Engine
import Verif.Props.JacobianExamples
import Mathlib.Tactic.FieldSimp
import Mathlib.Tactic.Linarith
import Mathlib.Tactic.NormNum
import Mathlib.Tactic.Positivity
import Mathlib.Algebra.Order.Field.Rat
/-!
C81: combustion engines.
-/
namespace Tespy

namespace Spec

section
variable {F K : Type} [DecidableEq F] [Field K]

/-- Enthalpy flow of a combustion gas above the reference state (25 °C, 1 bar). -/
def aboveRef (c : CombStream F K) : K := c.m * (c.h - c.href)

/-- Heat released by the fuel burnt: lower heating values times the fuel mass flows which enter and do
not leave. -/
def fuelHeat (d : CombData F K) (e : EngineVals F K) : K :=
  ∑ f ∈ d.fuels, ((e.inl.map (fun i => i.m * i.x f)).sum - e.out.m * e.out.x f) * d.LHV f

/-- Load: power over the power in the design case, 1 without design case. -/
def engineLoad (e : EngineVals F K) : K := (e.Pdesign.map fun d => e.P / d).getD 1

/-- First law for an engine: heat of the fuel plus enthalpy flows entering equals
power, heat loss (both positive here) and enthalpy flows leaving. -/
def FirstLaw (d : CombData F K) (e : EngineVals F K) : Prop :=
  fuelHeat d e + (e.inl.map aboveRef).sum + e.loop1.m * e.loop1.hIn + e.loop2.m * e.loop2.hIn
    = (-e.P) + (-e.Qloss) + aboveRef e.out + e.loop1.m * e.loop1.hOut + e.loop2.m * e.loop2.hOut

/-- The mandatory equations of an engine which determine its energy flows are satisfied. -/
structure EngineSolved (d : CombData F K) (c : EngineChars K) (e : EngineVals F K) : Prop where
  energy : engineEnergyRes d e = 0
  power : enginePowerRes d c e = 0
  heat1 : engineHeat1Res d c e = 0
  heat2 : engineHeat2Res d c e = 0
  loss : engineLossRes d c e = 0
end

end Spec

section
variable {F K : Type} [DecidableEq F] [Field K]

/-- C81 (first law): the energy balance equation is satisfied exactly if energy is conserved. -/
theorem C81_energy (d : CombData F K) (e : EngineVals F K) :
    engineEnergyRes d e = 0 ↔ Spec.FirstLaw d e := by
  have h : engineEnergyRes d e
      = (Spec.fuelHeat d e + (e.inl.map Spec.aboveRef).sum + e.loop1.m * e.loop1.hIn
          + e.loop2.m * e.loop2.hIn)
        - ((-e.P) + (-e.Qloss) + Spec.aboveRef e.out + e.loop1.m * e.loop1.hOut
          + e.loop2.m * e.loop2.hOut) := by
    have hs : (e.inl.map Spec.aboveRef).sum = (e.inl.map (fun i => i.m * (i.h - i.href))).sum := rfl
    rw [hs]
    simp only [engineEnergyRes, combEnergyRes, CoolLoop.heat, combTi, Spec.fuelHeat, Spec.aboveRef]
    ring
  rw [h, sub_eq_zero]
  rfl

theorem engineLoad_eq (e : EngineVals F K) : Spec.engineLoad e = e.load := by
  unfold Spec.engineLoad EngineVals.load
  cases e.Pdesign <;> rfl

/-- C81 (shares): in a solved engine the power is the thermal input divided by the value of `tiP_char`
at the load, heat of the loops and heat loss are the power times `Q1_char`, `Q2_char`, `Qloss_char`,
and the rest of the thermal input heats the flue gas. -/
theorem C81_shares (d : CombData F K) (c : EngineChars K) (e : EngineVals F K)
    (h : Spec.EngineSolved d c e) (hf : c.tiP (Spec.engineLoad e) ≠ 0) :
    -e.P = Spec.fuelHeat d e / c.tiP (Spec.engineLoad e)
    ∧ e.loop1.m * (e.loop1.hOut - e.loop1.hIn) = -e.P * c.q1 (Spec.engineLoad e)
    ∧ e.loop2.m * (e.loop2.hOut - e.loop2.hIn) = -e.P * c.q2 (Spec.engineLoad e)
    ∧ -e.Qloss = -e.P * c.qloss (Spec.engineLoad e)
    ∧ Spec.aboveRef e.out = (e.inl.map Spec.aboveRef).sum
        + Spec.fuelHeat d e * (1 - (1 + c.q1 (Spec.engineLoad e) + c.q2 (Spec.engineLoad e) + c.qloss (Spec.engineLoad e)) / c.tiP (Spec.engineLoad e)) := by
  rw [engineLoad_eq] at hf ⊢
  obtain ⟨h0, h1, h2, h3, h4⟩ := h
  have hti : e.ti d = Spec.fuelHeat d e := rfl
  unfold enginePowerRes at h1
  unfold engineHeat1Res at h2
  unfold engineHeat2Res at h3
  unfold engineLossRes at h4
  rw [hti] at h1 h2 h3 h4
  rw [C81_energy] at h0
  unfold Spec.FirstLaw at h0
  have hP : -e.P = Spec.fuelHeat d e / c.tiP e.load := by
    rw [eq_div_iff hf]; linear_combination -h1
  have hq1 : e.loop1.m * (e.loop1.hOut - e.loop1.hIn) = -e.P * c.q1 e.load := by
    have : c.tiP e.load * (e.loop1.m * (e.loop1.hOut - e.loop1.hIn))
        = c.tiP e.load * (-e.P * c.q1 e.load) := by linear_combination c.q1 e.load * h1 - h2
    exact mul_left_cancel₀ hf this
  have hq2 : e.loop2.m * (e.loop2.hOut - e.loop2.hIn) = -e.P * c.q2 e.load := by
    have : c.tiP e.load * (e.loop2.m * (e.loop2.hOut - e.loop2.hIn))
        = c.tiP e.load * (-e.P * c.q2 e.load) := by linear_combination c.q2 e.load * h1 - h3
    exact mul_left_cancel₀ hf this
  have hql : -e.Qloss = -e.P * c.qloss e.load := by
    have : c.tiP e.load * -e.Qloss = c.tiP e.load * (-e.P * c.qloss e.load) := by
      linear_combination c.qloss e.load * h1 - h4
    exact mul_left_cancel₀ hf this
  refine ⟨hP, hq1, hq2, hql, ?_⟩
  have : Spec.fuelHeat d e * (1 - (1 + c.q1 e.load + c.q2 e.load + c.qloss e.load) / c.tiP e.load)
      = Spec.fuelHeat d e
        - Spec.fuelHeat d e / c.tiP e.load * (1 + c.q1 e.load + c.q2 e.load + c.qloss e.load) := by
    ring
  rw [this, ← hP]
  linear_combination -h0 - hq1 - hq2 - hql

/-- C81 (reported values): the values reported after the calculation are those of the solved
equations; in particular a specified power, heat loss or heat of a loop is reported as specified. -/
theorem C81_reported (d : CombData F K) (c : EngineChars K) (e : EngineVals F K)
    (h : Spec.EngineSolved d c e) (hf : c.tiP (Spec.engineLoad e) ≠ 0) :
    (engineReport d c e).P = e.P ∧ (engineReport d c e).Qloss = e.Qloss
    ∧ (engineReport d c e).ti = Spec.fuelHeat d e
    ∧ (∀ Q, (engineReport d c e).Q1 = Q ↔ engineHeatSpecRes e.loop1 Q = 0)
    ∧ (∀ Q, (engineReport d c e).Q2 = Q ↔ engineHeatSpecRes e.loop2 Q = 0) := by
  rw [engineLoad_eq] at hf
  obtain ⟨-, h1, -, -, h4⟩ := h
  have hP : engineCalcP d c e = e.P := by
    unfold engineCalcP
    unfold enginePowerRes at h1
    rw [div_eq_iff hf]; linear_combination -h1
  have he : { e with P := engineCalcP d c e } = e := by rw [hP]
  refine ⟨hP, ?_, ?_, ?_, ?_⟩
  · change engineCalcQloss d c { e with P := engineCalcP d c e } = e.Qloss
    rw [he]
    unfold engineCalcQloss
    unfold engineLossRes at h4
    rw [div_eq_iff hf]; linear_combination -h4
  · change EngineVals.ti d { e with P := engineCalcP d c e } = _
    rw [he]; rfl
  · intro Q
    change -e.loop1.m * (e.loop1.hOut - e.loop1.hIn) = Q ↔ _
    unfold engineHeatSpecRes
    constructor <;> intro h <;> linear_combination -h
  · intro Q
    change -e.loop2.m * (e.loop2.hOut - e.loop2.hIn) = Q ↔ _
    unfold engineHeatSpecRes
    constructor <;> intro h <;> linear_combination -h

/-- C81 (busses): the values which a solved engine gives to busses are its energy flows, and they
add up: thermal input, power, heat and heat loss leave the enthalpy rise of the gases. -/
theorem C81_bus (d : CombData F K) (c : EngineChars K) (e : EngineVals F K)
    (h : Spec.EngineSolved d c e) (hf : c.tiP (Spec.engineLoad e) ≠ 0) :
    ∃ ti p q q1 q2 ql, engineBus d c e "TI" = .ok ti ∧ engineBus d c e "P" = .ok p
      ∧ engineBus d c e "Q" = .ok q ∧ engineBus d c e "Q1" = .ok q1 ∧ engineBus d c e "Q2" = .ok q2
      ∧ engineBus d c e "Qloss" = .ok ql
      ∧ ti = Spec.fuelHeat d e ∧ p = e.P ∧ ql = e.Qloss
      ∧ -q1 = e.loop1.m * (e.loop1.hOut - e.loop1.hIn)
      ∧ -q2 = e.loop2.m * (e.loop2.hOut - e.loop2.hIn)
      ∧ q = q1 + q2
      ∧ ti + p + q + ql = Spec.aboveRef e.out - (e.inl.map Spec.aboveRef).sum := by
  rw [engineLoad_eq] at hf
  obtain ⟨h0, h1, -, -, h4⟩ := h
  have hP : engineCalcP d c e = e.P := by
    unfold engineCalcP
    unfold enginePowerRes at h1
    rw [div_eq_iff hf]; linear_combination -h1
  have hQ : engineCalcQloss d c e = e.Qloss := by
    unfold engineCalcQloss
    unfold engineLossRes at h4
    rw [div_eq_iff hf]; linear_combination -h4
  rw [C81_energy] at h0
  unfold Spec.FirstLaw at h0
  refine ⟨_, _, _, _, _, _, rfl, rfl, rfl, rfl, rfl, rfl, rfl, hP, hQ, by ring, by ring, by ring, ?_⟩
  rw [hP, hQ]
  have hti : e.ti d = Spec.fuelHeat d e := rfl
  rw [hti]
  linear_combination h0

/-- C81 (bus parameters): exactly six parameters are accepted by busses, any other raises
`ValueError`. -/
theorem C81_bus_params (d : CombData F K) (c : EngineChars K) (e : EngineVals F K) (p : String) :
    (p ∈ ["TI", "P", "Q", "Q1", "Q2", "Qloss"] → ∃ x, engineBus d c e p = .ok x)
    ∧ (p ∉ ["TI", "P", "Q", "Q1", "Q2", "Qloss"] → engineBus d c e p = .error .valueError) := by
  constructor
  · intro h
    simp only [List.mem_cons, List.not_mem_nil, or_false] at h
    rcases h with rfl | rfl | rfl | rfl | rfl | rfl <;> exact ⟨_, rfl⟩
  · intro h
    simp only [List.mem_cons, List.not_mem_nil, or_false, not_or] at h
    simp [engineBus, h]

end

/-! ### Second law -/

section
variable {K : Type} [Field K] [LinearOrder K] [IsStrictOrderedRing K]

/-- C81 is false for the entropy balance: an engine which delivers power has a negative
entropy production by internal irreversibility, the negative of the documented value
`(1 - 1/eta_mech) · P / T_v_inner`. -/
theorem C81_entropy_internal_false (r : EngineReport K) (m1 m2 : K) (l1 l2 : LoopEntropy K)
    (SQcomb : K) (Ts : Option K) (Tf eta : K) (hP : r.P < 0) (h0 : 0 < eta) (h1 : eta < 1)
    (hTs : ∀ t, Ts = some t → 0 < t) (hT : 0 < Tf) :
    (engineEntropy r m1 m2 l1 l2 SQcomb Ts Tf eta).S_irr_i < 0
    ∧ (engineEntropy r m1 m2 l1 l2 SQcomb Ts Tf eta).S_irr_i
      = -((1 - 1 / eta) * r.P / (Ts.getD Tf)) := by
  have hTv : engineTv Ts Tf = Ts.getD Tf := by cases Ts <;> rfl
  have hTp : 0 < Ts.getD Tf := by
    cases hs : Ts with
    | none => simpa using hT
    | some t => simpa using hTs t hs
  have he : (engineEntropy r m1 m2 l1 l2 SQcomb Ts Tf eta).S_irr_i
      = (1 / eta - 1) * r.P / Ts.getD Tf := by
    simp only [engineEntropy, hTv]
  rw [he]
  constructor
  · apply div_neg_of_neg_of_pos _ hTp
    apply mul_neg_of_pos_of_neg _ hP
    rw [sub_pos, lt_div_iff₀ h0]
    linarith
  · rw [← neg_div, ← neg_mul, neg_sub]

/-- C81 (heat transfer to the loops): entropy production reported for a heater, in terms of
the heat `Q > 0` absorbed by the loop and its mean temperature `Tm = Q / S_Q12`: it is
`Q/Tm + Q/T`, not `Q/Tm - Q/T`. -/
theorem C81_entropy_heater_false (r : EngineReport K) (m1 m2 : K) (l1 l2 : LoopEntropy K)
    (SQcomb : K) (Ts : Option K) (Tf eta Q Tm : K) (hQ : 0 < Q) (hr : r.Q1 = -Q)
    (hTm : m1 * (l1.sOutStar - l1.sInStar) = Q / Tm) (hT : 0 < Ts.getD Tf) :
    (engineEntropy r m1 m2 l1 l2 SQcomb Ts Tf eta).S_Q1irr = Q / Tm + Q / Ts.getD Tf
    ∧ (engineEntropy r m1 m2 l1 l2 SQcomb Ts Tf eta).S_Q1irr ≠ Q / Tm - Q / Ts.getD Tf
    ∧ (Tm = Ts.getD Tf → (engineEntropy r m1 m2 l1 l2 SQcomb Ts Tf eta).S_Q1irr ≠ 0) := by
  have hTv : engineTv Ts Tf = Ts.getD Tf := by cases Ts <;> rfl
  have he : (engineEntropy r m1 m2 l1 l2 SQcomb Ts Tf eta).S_Q1irr = Q / Tm + Q / Ts.getD Tf := by
    simp only [engineEntropy, hTv, hTm, hr]
    ring
  have hpos : 0 < Q / Ts.getD Tf := div_pos hQ hT
  rw [he]
  refine ⟨rfl, ?_, ?_⟩
  · intro h; linarith
  · rintro rfl; linarith

/-- C81 (entropy, what is right): the entropy production reported for the pressure losses
of a loop and the heat transported into it add up to the entropy rise of the loop, and the total
is the sum of the parts. -/
theorem C81_entropy_partial (r : EngineReport K) (m1 m2 : K) (l1 l2 : LoopEntropy K) (SQcomb : K)
    (Ts : Option K) (Tf eta : K) :
    let s := engineEntropy r m1 m2 l1 l2 SQcomb Ts Tf eta
    s.S_irr1 + s.S_Q12 = m1 * (l1.sOut - l1.sIn) ∧ s.S_irr2 + s.S_Q22 = m2 * (l2.sOut - l2.sIn)
    ∧ s.S_irr = s.S_irr_i + s.S_irr1 + s.S_irr2 + s.S_Q1irr + s.S_Q2irr
    ∧ SQcomb = s.S_comb + s.S_Q11 + s.S_Q21 + s.S_Qloss + s.S_irr_i
    ∧ s.S_Q11 = r.Q1 / Ts.getD Tf ∧ s.S_Q21 = r.Q2 / Ts.getD Tf ∧ s.S_Qloss = r.Qloss / Ts.getD Tf := by
  have hTv : engineTv Ts Tf = Ts.getD Tf := by cases Ts <;> rfl
  simp only [engineEntropy, hTv]
  exact ⟨by ring, by ring, by ring, by ring, trivial, trivial, trivial⟩

omit [LinearOrder K] [IsStrictOrderedRing K] in
/-- C81 is false for the exergy balance: it raises `TypeError` for every engine. -/
theorem C81_exergy_false (exOut exIn4 exIn3 P : K) :
    engineExergy exOut exIn4 exIn3 P = .error .typeError := rfl

end

/-! ### Derivatives of the energy balance -/

/-- sum of all values written for a variable -/
def contrib (L : List (Var × ℝ)) (v : Var) : ℝ := (L.map (fun e => if e.1 = v then e.2 else 0)).sum

theorem contrib_nil (v : Var) : contrib [] v = 0 := rfl

theorem contrib_cons (e : Var × ℝ) (L : List (Var × ℝ)) (v : Var) :
    contrib (e :: L) v = (if e.1 = v then e.2 else 0) + contrib L v := by simp [contrib]

theorem contrib_append (L M : List (Var × ℝ)) (v : Var) :
    contrib (L ++ M) v = contrib L v + contrib M v := by simp [contrib]

theorem contrib_notMem (L : List (Var × ℝ)) (v : Var) (h : v ∉ L.map Prod.fst) :
    contrib L v = 0 := by
  induction L with
  | nil => rfl
  | cons e L ih =>
    simp only [List.map_cons, List.mem_cons, not_or] at h
    rw [contrib_cons, if_neg (fun h' => h.1 h'.symm), ih h.2, add_zero]

/-- without repetitions the last value is the sum -/
theorem lastOf_contrib (L : List (Var × ℝ)) (h : (L.map Prod.fst).Nodup) (v : Var) :
    lastOf L v 0 = contrib L v := by
  induction L with
  | nil => rfl
  | cons e L ih =>
    simp only [List.map_cons, List.nodup_cons] at h
    rw [contrib_cons]
    have hc : lastOf (e :: L) v 0 = lastOf L v (if e.1 = v then e.2 else 0) := rfl
    rw [hc]
    split
    · rename_i hv
      have hn : v ∉ L.map Prod.fst := hv ▸ h.1
      rw [lastOf_notMem L v _ hn, contrib_notMem L v hn, add_zero]
    · rw [ih h.2, zero_add]

/-- `L` lists the partial derivatives of `f`, which add up -/
def RowC (s : EqState ℝ) (f : EqState ℝ → ℝ) (L : List (Var × ℝ)) : Prop :=
  ∀ v, s.isVar v = true → HasDerivAt (fun t => f (s.put v t)) (contrib L v) (s.val v)

theorem RowC.add {s : EqState ℝ} {f g : EqState ℝ → ℝ} {L M : List (Var × ℝ)} (hf : RowC s f L)
    (hg : RowC s g M) : RowC s (fun s => f s + g s) (L ++ M) := by
  intro v hv
  rw [contrib_append]
  exact (hf v hv).add (hg v hv)

theorem contrib_scale (c : ℝ) (L : List (Var × ℝ)) (v : Var) :
    contrib (scaleL c L) v = c * contrib L v := by
  induction L with
  | nil => simp [contrib, scaleL]
  | cons e L ih =>
    have hcc : scaleL c (e :: L) = (e.1, c * e.2) :: scaleL c L := rfl
    rw [hcc, contrib_cons, contrib_cons, mul_add, ih]
    split <;> simp

theorem RowC.smul {s : EqState ℝ} {f : EqState ℝ → ℝ} {L : List (Var × ℝ)} (c : ℝ)
    (hf : RowC s f L) : RowC s (fun s => c * f s) (scaleL c L) := by
  intro v hv
  rw [contrib_scale]
  exact (hf v hv).const_mul c

theorem RowC.val (s : EqState ℝ) (a : Var) : RowC s (fun s => s.val a) [(a, 1)] := by
  intro v hv
  rw [← lastOf_contrib _ (by simp)]
  exact RowOK.val s a v hv

theorem RowC.mul (s : EqState ℝ) (a b : Var) (hab : a ≠ b) :
    RowC s (fun s => s.val a * s.val b) [(a, s.val b), (b, s.val a)] := by
  intro v hv
  rw [← lastOf_contrib _ (by simpa using hab)]
  exact RowOK.mul s a b hab v hv

theorem RowC.congr {s : EqState ℝ} {f g : EqState ℝ → ℝ} {L M : List (Var × ℝ)} (hf : RowC s f L)
    (h : ∀ v, s.isVar v = true → ∀ t, g (s.put v t) = f (s.put v t))
    (hL : ∀ v, s.isVar v = true → contrib M v = contrib L v) : RowC s g M := by
  intro v hv
  rw [hL v hv]
  have : (fun t => g (s.put v t)) = fun t => f (s.put v t) := funext (h v hv)
  rw [this]
  exact hf v hv

/-- Heat of the fuels in a stream. -/
theorem fuel_row (s : EqState ℝ) (c : Port) (LHV : String → ℝ) (l : List String) :
    RowC s (fun s => (l.map (fun f => s.mv c * s.xv c f * LHV f)).sum)
      ((Var.m c.m, (l.map (fun f => s.xv c f * LHV f)).sum)
        :: l.map (fun f => (Var.x c.fl f, s.mv c * LHV f))) := by
  induction l with
  | nil =>
    intro v _
    simpa [contrib] using hasDerivAt_const (s.val v) (0 : ℝ)
  | cons f l ih =>
    have h1 := (RowC.mul s (.m c.m) (.x c.fl f) (by simp)).smul (LHV f)
    refine RowC.congr (h1.add ih) (fun v _ t => ?_) (fun v _ => ?_)
    · simp only [List.map_cons, List.sum_cons, EqState.mv, EqState.xv]
      ring
    · simp only [scaleL, List.map_cons, List.map_nil, List.sum_cons, contrib_cons, contrib_append,
        contrib_nil, EqState.mv, EqState.xv]
      split_ifs <;> ring

/-- The reference enthalpy of a stream does not depend on the variables of the system. -/
def Spec.FixedRef (hr : (String → ℝ) → ℝ) (s : EqState ℝ) (c : Port) : Prop :=
  ∀ v, s.isVar v = true → ∀ t, hr ((s.put v t).xv c) = hr (s.xv c)

/-- The part of a combustion gas in the energy balance. -/
noncomputable def gasTerm (d : CombData String ℝ) (hr : (String → ℝ) → ℝ) (c : Port)
    (s : EqState ℝ) : ℝ :=
  s.mv c * (s.hv c - hr (s.xv c)) + (d.fuels.toList.map (fun f => s.mv c * s.xv c f * d.LHV f)).sum

/-- its derivatives -/
noncomputable def gasList (d : CombData String ℝ) (hr : (String → ℝ) → ℝ) (c : Port)
    (s : EqState ℝ) : List (Var × ℝ) :=
  [(Var.m c.m, s.hv c), (Var.h c.h, s.mv c)] ++ [(Var.m c.m, -(hr (s.xv c)))]
  ++ ((Var.m c.m, (d.fuels.toList.map (fun f => s.xv c f * d.LHV f)).sum)
    :: d.fuels.toList.map (fun f => (Var.x c.fl f, s.mv c * d.LHV f)))

theorem gas_row (d : CombData String ℝ) (hr : (String → ℝ) → ℝ) (c : Port) (s : EqState ℝ)
    (h : Spec.FixedRef hr s c) : RowC s (gasTerm d hr c) (gasList d hr c s) := by
  have h1 := RowC.mul s (.m c.m) (.h c.h) (by simp)
  have h2 := (RowC.val s (.m c.m)).smul (-(hr (s.xv c)))
  have h3 := fuel_row s c d.LHV d.fuels.toList
  refine RowC.congr ((h1.add h2).add h3) (fun v hv t => ?_) (fun v _ => ?_)
  · simp only [gasTerm, h v hv t]
    simp only [EqState.mv, EqState.hv]
    ring
  · simp only [gasList, scaleL, List.map_cons, List.map_nil, mul_one, EqState.hv, EqState.mv]

/-- The part of a cooling loop. -/
theorem loop_row (s : EqState ℝ) (i o : Port) :
    RowC s (fun s => s.mv i * (s.hv o - s.hv i))
      [(Var.m i.m, s.hv o), (Var.h o.h, s.mv i), (Var.m i.m, -(s.hv i)), (Var.h i.h, -(s.mv i))] := by
  have h1 := RowC.mul s (.m i.m) (.h o.h) (by simp)
  have h2 := (RowC.mul s (.m i.m) (.h i.h) (by simp)).smul (-1)
  refine RowC.congr (h1.add h2) (fun v hv t => ?_) (fun v _ => ?_)
  · simp only [EqState.mv, EqState.hv]
    ring
  · simp only [scaleL, List.map_cons, List.map_nil, EqState.hv, EqState.mv, List.cons_append,
      List.nil_append, neg_mul, one_mul]

/-- The energy balance as a sum. -/
theorem engineEnergy_sum (d : CombData String ℝ) (hr : (String → ℝ) → ℝ) (q : EnginePorts)
    (s : EqState ℝ) :
    engineEnergyRes d (engineOf hr s q none)
      = gasTerm d hr q.i2 s + gasTerm d hr q.i3 s + (-1) * gasTerm d hr q.o2 s
        + (-1) * (s.mv q.i0 * (s.hv q.o0 - s.hv q.i0)) + (-1) * (s.mv q.i1 * (s.hv q.o1 - s.hv q.i1))
        + s.val (.par "P") + s.val (.par "Qloss") := by
  have hs : ∀ g : String → ℝ, ∑ f ∈ d.fuels, g f = (d.fuels.toList.map g).sum :=
    fun g => (Finset.sum_map_toList d.fuels g).symm
  have ht : ∑ f ∈ d.fuels, ((s.mv q.i2 * s.xv q.i2 f + s.mv q.i3 * s.xv q.i3 f)
        - s.mv q.o2 * s.xv q.o2 f) * d.LHV f
      = ∑ f ∈ d.fuels, s.mv q.i2 * s.xv q.i2 f * d.LHV f
        + ∑ f ∈ d.fuels, s.mv q.i3 * s.xv q.i3 f * d.LHV f
        - ∑ f ∈ d.fuels, s.mv q.o2 * s.xv q.o2 f * d.LHV f := by
    rw [← Finset.sum_add_distrib, ← Finset.sum_sub_distrib]
    exact Finset.sum_congr rfl (fun f _ => by ring)
  simp only [engineEnergyRes, combEnergyRes, combTi, engineOf, streamOf, loopOf, CoolLoop.heat,
    List.map_cons, List.map_nil, List.sum_cons, List.sum_nil, add_zero, gasTerm]
  rw [ht, hs, hs, hs]
  ring

/-- the derivatives of all parts -/
noncomputable def engineList (d : CombData String ℝ) (hr : (String → ℝ) → ℝ) (q : EnginePorts)
    (s : EqState ℝ) : List (Var × ℝ) :=
  gasList d hr q.i2 s ++ gasList d hr q.i3 s ++ scaleL (-1) (gasList d hr q.o2 s)
  ++ scaleL (-1) [(Var.m q.i0.m, s.hv q.o0), (Var.h q.o0.h, s.mv q.i0), (Var.m q.i0.m, -(s.hv q.i0)),
    (Var.h q.i0.h, -(s.mv q.i0))]
  ++ scaleL (-1) [(Var.m q.i1.m, s.hv q.o1), (Var.h q.o1.h, s.mv q.i1), (Var.m q.i1.m, -(s.hv q.i1)),
    (Var.h q.i1.h, -(s.mv q.i1))]
  ++ [(Var.par "P", 1)] ++ [(Var.par "Qloss", 1)]

theorem engine_row (d : CombData String ℝ) (hr : (String → ℝ) → ℝ) (q : EnginePorts)
    (s : EqState ℝ) (h2 : Spec.FixedRef hr s q.i2) (h3 : Spec.FixedRef hr s q.i3)
    (ho : Spec.FixedRef hr s q.o2) :
    RowC s (fun s => engineEnergyRes d (engineOf hr s q none)) (engineList d hr q s) := by
  refine RowC.congr (((((((gas_row d hr q.i2 s h2).add (gas_row d hr q.i3 s h3)).add
    ((gas_row d hr q.o2 s ho).smul (-1))).add ((loop_row s q.i0 q.o0).smul (-1))).add
    ((loop_row s q.i1 q.o1).smul (-1))).add (RowC.val s (.par "P"))).add (RowC.val s (.par "Qloss")))
    (fun v hv t => ?_) (fun v _ => rfl)
  exact engineEnergy_sum d hr q (s.put v t)

/-- The function is affine in the variable. -/
def Aff (s : EqState ℝ) (v : Var) (f : EqState ℝ → ℝ) : Prop := ∃ A B, ∀ t, f (s.put v t) = A + B * t

theorem Aff.add {s : EqState ℝ} {v : Var} {f g : EqState ℝ → ℝ} (hf : Aff s v f) (hg : Aff s v g) :
    Aff s v (fun s => f s + g s) := by
  obtain ⟨A, B, h⟩ := hf
  obtain ⟨A', B', h'⟩ := hg
  exact ⟨A + A', B + B', fun t => by simp only [h t, h' t]; ring⟩

theorem Aff.mul {s : EqState ℝ} {v : Var} {f g : EqState ℝ → ℝ} (hf : Aff s v f)
    (hg : ∀ t, g (s.put v t) = g s) : Aff s v (fun s => f s * g s) := by
  obtain ⟨A, B, h⟩ := hf
  exact ⟨A * g s, B * g s, fun t => by simp only [h t, hg t]; ring⟩

theorem Aff.val (s : EqState ℝ) (v u : Var) : Aff s v (fun s => s.val u) := by
  by_cases h : u = v
  · subst h
    exact ⟨0, 1, fun t => by dsimp only; rw [put_val_self]; ring⟩
  · exact ⟨s.val u, 0, fun t => by dsimp only; rw [put_val_ne _ _ _ _ h]; ring⟩

/-- the central difference of an affine function is its derivative -/
theorem centralDiff_aff {s : EqState ℝ} {v : Var} {f : EqState ℝ → ℝ} (hf : Aff s v f) (δ b : ℝ)
    (hδ : δ ≠ 0) (h : HasDerivAt (fun t => f (s.put v t)) b (s.val v)) : centralDiff f s v δ = b := by
  obtain ⟨A, B, hAB⟩ := hf
  have h1 : HasDerivAt (fun t => A + B * t) B (s.val v) := by
    simpa using ((hasDerivAt_id' (s.val v)).const_mul B).const_add A
  have h2 : (fun t => f (s.put v t)) = fun t => A + B * t := funext hAB
  rw [h2] at h
  rw [h.unique h1]
  have h3 : f { s with val := Function.update s.val v (s.val v + δ) } = A + B * (s.val v + δ) :=
    hAB _
  have h4 : f { s with val := Function.update s.val v (s.val v - δ) } = A + B * (s.val v - δ) :=
    hAB _
  unfold centralDiff
  rw [h3, h4]
  field_simp
  ring

theorem gasTerm_eq (d : CombData String ℝ) (hr : (String → ℝ) → ℝ) (c : Port) (s : EqState ℝ) :
    gasTerm d hr c s = s.val (.m c.m) * ((s.hv c - hr (s.xv c))
      + (d.fuels.toList.map (fun f => s.xv c f * d.LHV f)).sum) := by
  have : (d.fuels.toList.map (fun f => s.mv c * s.xv c f * d.LHV f)).sum
      = s.mv c * (d.fuels.toList.map (fun f => s.xv c f * d.LHV f)).sum := by
    rw [← List.sum_map_mul_left]
    simp only [mul_assoc]
  rw [gasTerm, this]
  simp only [EqState.mv]
  ring

/-- the energy balance is affine in each mass flow and each pressure -/
theorem engine_aff (d : CombData String ℝ) (hr : (String → ℝ) → ℝ) (q : EnginePorts)
    (s : EqState ℝ) (v : Var) (hv : (∃ j, v = .m j) ∨ ∃ j, v = .p j) :
    Aff s v (fun s => engineEnergyRes d (engineOf hr s q none)) := by
  have hh : ∀ j t, (s.put v t).val (.h j) = s.val (.h j) := by
    intro j t
    rcases hv with ⟨i, rfl⟩ | ⟨i, rfl⟩ <;> exact put_val_ne _ _ _ _ (by simp)
  have hx : ∀ j f t, (s.put v t).val (.x j f) = s.val (.x j f) := by
    intro j f t
    rcases hv with ⟨i, rfl⟩ | ⟨i, rfl⟩ <;> exact put_val_ne _ _ _ _ (by simp)
  have hxv : ∀ c t, (s.put v t).xv c = s.xv c := fun c t => funext (fun f => hx _ _ _)
  have hg : ∀ c, Aff s v (gasTerm d hr c) := by
    intro c
    have h := Aff.mul (Aff.val s v (.m c.m)) (g := fun s => (s.hv c - hr (s.xv c))
      + (d.fuels.toList.map (fun f => s.xv c f * d.LHV f)).sum)
      (fun t => by simp only [hxv, EqState.hv, hh])
    obtain ⟨A, B, hAB⟩ := h
    exact ⟨A, B, fun t => by rw [gasTerm_eq]; exact hAB t⟩
  have hl : ∀ i o : Port, Aff s v (fun s => (-1) * (s.mv i * (s.hv o - s.hv i))) := by
    intro i o
    have h := Aff.mul (Aff.val s v (.m i.m)) (g := fun s => -(s.hv o - s.hv i))
      (fun t => by simp only [EqState.hv, hh])
    obtain ⟨A, B, hAB⟩ := h
    refine ⟨A, B, fun t => ?_⟩
    rw [← hAB t]
    simp only [EqState.mv]
    ring
  have hn : Aff s v (fun s => (-1) * gasTerm d hr q.o2 s) := by
    obtain ⟨A, B, hAB⟩ := hg q.o2
    exact ⟨-A, -B, fun t => by simp only [hAB t]; ring⟩
  obtain ⟨A, B, hAB⟩ := ((((((hg q.i2).add (hg q.i3)).add hn).add (hl q.i0 q.o0)).add
    (hl q.i1 q.o1)).add (Aff.val s v (.par "P"))).add (Aff.val s v (.par "Qloss"))
  exact ⟨A, B, fun t => by dsimp only; rw [engineEnergy_sum]; exact hAB t⟩

/-- what is written to the Jacobian -/
noncomputable def engineWritten (d : CombData String ℝ) (hr : (String → ℝ) → ℝ) (δm δp : ℝ)
    (s : EqState ℝ) (q : EnginePorts) : List (Var × ℝ) :=
  let f := fun s => engineEnergyRes d (engineOf hr s q none)
  [(Var.m q.i0.m, -(s.hv q.o0 - s.hv q.i0)), (Var.m q.i1.m, -(s.hv q.o1 - s.hv q.i1))]
  ++ [q.i2, q.i3, q.o2].flatMap (fun c =>
    [(Var.m c.m, centralDiff f s (.m c.m) δm), (Var.p c.p, centralDiff f s (.p c.p) δp)])
  ++ [q.i0, q.i1, q.i2, q.i3].flatMap (fun i => [(Var.h i.h, s.mv i)])
  ++ [q.o0, q.o1, q.o2].flatMap (fun o => [(Var.h o.h, -(s.mv o))])
  ++ [q.i2, q.i3].flatMap (fun c =>
    d.fuels.toList.flatMap (fun fl => [(Var.x c.fl fl, s.mv c * d.LHV fl)]))
  ++ d.fuels.toList.flatMap (fun fl => [(Var.x q.o2.fl fl, -(s.mv q.o2) * d.LHV fl)])
  ++ [(Var.par "P", 1), (Var.par "Qloss", 1)]

theorem engineEnergyD_wrs (d : CombData String ℝ) (hr : (String → ℝ) → ℝ) (δm δp : ℝ)
    (s : EqState ℝ) (q : EnginePorts) (k : ℕ) :
    engineEnergyD d hr δm δp s q k = wrs s k (engineWritten d hr δm δp s q) := by
  simp only [engineEnergyD, engineWritten, wrs_append, wrs_flatMap, wrs_one, wrs_two]

theorem contrib_map_x_ne (l : List String) (i : ℕ) (g : String → ℝ) (v : Var)
    (hv : ∀ f, v ≠ .x i f) : contrib (l.map (fun f => (Var.x i f, g f))) v = 0 := by
  refine contrib_notMem _ _ ?_
  simp only [List.map_map, List.mem_map, Function.comp_apply, not_exists, not_and]
  intro f _ h
  exact hv f h.symm

theorem flatMap_one {α : Type} (l : List α) (g : α → Var × ℝ) :
    l.flatMap (fun a => [g a]) = l.map g := by
  induction l with
  | nil => rfl
  | cons a l ih => simp [ih]

theorem map_x_scale (l : List String) (i : ℕ) (c : ℝ) (g : String → ℝ) :
    scaleL c (l.map (fun f => (Var.x i f, g f))) = l.map (fun f => (Var.x i f, c * g f)) := by
  simp [scaleL, Function.comp_def]

/-- The keys of what is written are different. -/
theorem engineWritten_nodup (d : CombData String ℝ) (hr : (String → ℝ) → ℝ) (δm δp : ℝ)
    (s : EqState ℝ) (q : EnginePorts)
    (hm : DistinctM [q.i0, q.i1, q.i2, q.i3, q.o2]) (hp : ([q.i2, q.i3, q.o2].map (·.p)).Nodup)
    (hh : DistinctH [q.i0, q.i1, q.i2, q.i3, q.o0, q.o1, q.o2]) (hx : DistinctX [q.i2, q.i3, q.o2]) :
    ((engineWritten d hr δm δp s q).map Prod.fst).Nodup := by
  have hfu : d.fuels.toList.Nodup := d.fuels.nodup_toList
  have hkey : ∀ i, (d.fuels.toList.map (fun f => Var.x i f)).Nodup := fun i =>
    hfu.map (fun a b h => by injection h)
  simp only [DistinctM, DistinctH, DistinctX, List.map_cons, List.map_nil, List.nodup_cons,
    List.mem_cons, List.not_mem_nil, or_false, not_or, List.nodup_nil, and_true,
    not_false_eq_true] at hm hp hh hx
  simp only [engineWritten, flatMap_one, List.flatMap_cons, List.flatMap_nil, List.append_nil,
    List.map_append, List.map_cons, List.map_nil, List.map_map, Function.comp_def,
    List.cons_append, List.nil_append, List.append_assoc]
  have hk2 := hkey q.i2.fl
  have hk3 := hkey q.i3.fl
  have hko := hkey q.o2.fl
  obtain ⟨⟨a1, a2, a3, a4⟩, ⟨b1, b2, b3⟩, ⟨c1, c2⟩, e1⟩ := hm
  obtain ⟨⟨p1, p2⟩, p3⟩ := hp
  obtain ⟨⟨x1, x2⟩, x3⟩ := hx
  obtain ⟨⟨h1, h2, h3, h4, h5, h6⟩, ⟨h7, h8, h9, h10, h11⟩, ⟨h12, h13, h14, h15⟩, ⟨h16, h17, h18⟩,
    ⟨h19, h20⟩, h21⟩ := hh
  simp [List.nodup_cons, List.nodup_append, hk2, hk3, hko, a1, a2, a3, a4, b1, b2, b3, c1, c2, e1,
    p1, p2, p3, x1, x2, x3, h1, h2, h3, h4, h5, h6, h7, h8, h9, h10, h11, h12, h13, h14, h15, h16,
    h17, h18, h19, h20, h21]
  constructor
  · rintro a _ b (⟨_, _, rfl⟩ | rfl | rfl) h
    · exact x3 (by injection h)
    · cases h
    · cases h
  · rintro a _ b (⟨_, _, rfl⟩ | ⟨_, _, rfl⟩ | rfl | rfl) h
    · exact x1 (by injection h)
    · exact x2 (by injection h)
    · cases h
    · cases h

/-- the entries for compositions, for every reference enthalpy -/
theorem contrib_x (d : CombData String ℝ) (hr hr' : (String → ℝ) → ℝ) (δm δp : ℝ) (s : EqState ℝ)
    (q : EnginePorts) (i : ℕ) (f : String) :
    contrib (engineWritten d hr δm δp s q) (.x i f) = contrib (engineList d hr' q s) (.x i f) := by
  simp only [engineWritten, engineList, gasList, flatMap_one, List.flatMap_cons, List.flatMap_nil,
      List.append_nil,
      List.cons_append, List.nil_append, List.append_assoc, List.map_cons, List.map_nil,
      contrib_append, contrib_cons, contrib_nil, neg_mul, reduceCtorEq, if_false]
  have : (d.fuels.toList.map (fun f => (Var.x q.o2.fl f, -(s.mv q.o2 * d.LHV f))))
      = scaleL (-1) (d.fuels.toList.map (fun f => (Var.x q.o2.fl f, s.mv q.o2 * d.LHV f))) := by
    rw [map_x_scale]
    simp
  rw [this]
  simp only [contrib_scale, contrib_append, contrib_cons, contrib_nil, reduceCtorEq, if_false]
  ring

/-- C81 (derivatives): the Jacobian row of the energy balance holds the partial derivatives for all
variables if the loops and the combustion gases have mass flows of their own, no connection
appears twice, and no fluid composition on which a reference enthalpy depends is a variable.
Full statement: for all engines; false for loops in series (`C81_series_false`), for a loop which feeds
the other one directly (`C81_direct_false`), and for variable fuel compositions
(`C81_composition_false`). -/
theorem C81_derivative_partial (d : CombData String ℝ) (hr : (String → ℝ) → ℝ) (δm δp : ℝ)
    (hδm : δm ≠ 0) (hδp : δp ≠ 0) (s : EqState ℝ) (hc : Spec.ColsInjective s) (q : EnginePorts)
    (hm : DistinctM [q.i0, q.i1, q.i2, q.i3, q.o2]) (hml : q.o0.m = q.i0.m ∧ q.o1.m = q.i1.m)
    (hp : ([q.i2, q.i3, q.o2].map (·.p)).Nodup)
    (hh : DistinctH [q.i0, q.i1, q.i2, q.i3, q.o0, q.o1, q.o2]) (hx : DistinctX [q.i2, q.i3, q.o2])
    (h2 : Spec.FixedRef hr s q.i2) (h3 : Spec.FixedRef hr s q.i3) (ho : Spec.FixedRef hr s q.o2) :
    Spec.IsJacobian (fun s => [engineEnergyRes d (engineOf hr s q none)])
      (fun s k => engineEnergyD d hr δm δp s q k) s := by
  have hrow := engine_row d hr q s h2 h3 ho
  refine isJacobian_of_row s hc (fun s => engineEnergyRes d (engineOf hr s q none)) _
    (engineWritten d hr δm δp s q) (engineEnergyD_wrs d hr δm δp s q) (fun v hv => ?_)
  rw [lastOf_contrib _ (engineWritten_nodup d hr δm δp s q hm hp hh hx)]
  have hd := hrow v hv
  suffices h : contrib (engineWritten d hr δm δp s q) v = contrib (engineList d hr q s) v by
    rw [h]; exact hd
  have hcd : ∀ δ, δ ≠ 0 → ((∃ j, v = .m j) ∨ ∃ j, v = .p j) →
      centralDiff (fun s => engineEnergyRes d (engineOf hr s q none)) s v δ
        = contrib (engineList d hr q s) v := fun δ hδ hv' =>
    centralDiff_aff (engine_aff d hr q s v hv') δ _ hδ hd
  cases v with
  | m j =>
    have hcd' := hcd δm hδm (.inl ⟨j, rfl⟩)
    simp only [DistinctM, List.map_cons, List.map_nil, List.nodup_cons, List.mem_cons,
      List.not_mem_nil, or_false, not_or, List.nodup_nil, and_true, not_false_eq_true] at hm
    obtain ⟨⟨a1, a2, a3, a4⟩, ⟨b1, b2, b3⟩, ⟨c1, c2⟩, e1⟩ := hm
    have hW : contrib (engineWritten d hr δm δp s q) (.m j)
        = (if q.i0.m = j then -(s.hv q.o0 - s.hv q.i0) else 0)
          + (if q.i1.m = j then -(s.hv q.o1 - s.hv q.i1) else 0)
          + (if q.i2.m = j then contrib (engineList d hr q s) (.m j) else 0)
          + (if q.i3.m = j then contrib (engineList d hr q s) (.m j) else 0)
          + (if q.o2.m = j then contrib (engineList d hr q s) (.m j) else 0) := by
      have hcd'' : ∀ c : Port, (if c.m = j then centralDiff (fun s =>
          engineEnergyRes d (engineOf hr s q none)) s (.m c.m) δm else 0)
          = if c.m = j then contrib (engineList d hr q s) (.m j) else 0 := by
        intro c
        split
        · rename_i h
          rw [h, hcd']
        · rfl
      simp only [engineWritten, flatMap_one, List.flatMap_cons, List.flatMap_nil, List.append_nil,
        List.cons_append, List.nil_append, List.append_assoc, List.map_cons, List.map_nil,
        contrib_append, contrib_cons, contrib_nil, contrib_map_x_ne _ _ _ (.m j) (by simp),
        Var.m.injEq, reduceCtorEq, if_false, hcd'']
      ring
    rw [hW]
    by_cases k2 : q.i2.m = j
    · subst k2
      simp [a2, b1, Ne.symm c1, Ne.symm c2]
    by_cases k3 : q.i3.m = j
    · subst k3
      simp [a3, b2, c1, Ne.symm e1]
    by_cases ko : q.o2.m = j
    · subst ko
      simp [a4, b3, c2, e1]
    have hL : contrib (engineList d hr q s) (.m j)
        = (if q.i0.m = j then -(s.hv q.o0 - s.hv q.i0) else 0)
          + (if q.i1.m = j then -(s.hv q.o1 - s.hv q.i1) else 0) := by
      simp only [engineList, gasList, List.append_nil,
        List.cons_append, List.nil_append, List.append_assoc,
        contrib_append, contrib_cons, contrib_nil, contrib_scale,
        contrib_map_x_ne _ _ _ (.m j) (by simp),
        Var.m.injEq, reduceCtorEq, if_false, k2, k3, ko]
      split_ifs <;> ring
    rw [hL]
    simp [k2, k3, ko]
  | p j =>
    have hcd' := hcd δp hδp (.inr ⟨j, rfl⟩)
    have hL : contrib (engineList d hr q s) (.p j) = 0 := by
      simp only [engineList, gasList, List.append_nil,
        List.cons_append, List.nil_append, List.append_assoc,
        contrib_append, contrib_cons, contrib_nil, contrib_scale,
        contrib_map_x_ne _ _ _ (.p j) (by simp), reduceCtorEq, if_false]
      ring
    have hcd'' : ∀ c : Port, (if c.p = j then centralDiff (fun s =>
          engineEnergyRes d (engineOf hr s q none)) s (.p c.p) δp else 0) = 0 := by
      intro c
      split
      · rename_i h
        rw [h, hcd', hL]
      · rfl
    rw [hL]
    simp only [engineWritten, flatMap_one, List.flatMap_cons, List.flatMap_nil, List.append_nil,
        List.cons_append, List.nil_append, List.append_assoc, List.map_cons, List.map_nil,
        contrib_append, contrib_cons, contrib_nil, contrib_map_x_ne _ _ _ (.p j) (by simp),
        Var.p.injEq, reduceCtorEq, if_false, hcd'']
    ring
  | h j =>
    simp only [engineWritten, engineList, gasList, flatMap_one, List.flatMap_cons, List.flatMap_nil,
        List.append_nil,
        List.cons_append, List.nil_append, List.append_assoc, List.map_cons, List.map_nil,
        contrib_append, contrib_cons, contrib_nil, contrib_scale,
        contrib_map_x_ne _ _ _ (.h j) (by simp),
        Var.h.injEq, reduceCtorEq, if_false, EqState.mv, hml.1, hml.2]
    split_ifs <;> ring
  | x i f => exact contrib_x d hr hr δm δp s q i f
  | par n =>
    simp only [engineWritten, engineList, gasList, flatMap_one, List.flatMap_cons, List.flatMap_nil,
        List.append_nil,
        List.cons_append, List.nil_append, List.append_assoc, List.map_cons, List.map_nil,
        contrib_append, contrib_cons, contrib_nil, contrib_scale,
        contrib_map_x_ne _ _ _ (.par n) (by simp), reduceCtorEq, if_false]
    ring

/-- C81 is false for loops in series: if the same mass flow passes both loops, the entry for it lacks
the heat of the first loop. -/
theorem C81_series_false (d : CombData String ℝ) (hr : (String → ℝ) → ℝ) (δm δp : ℝ) (s : EqState ℝ)
    (hc : Spec.ColsInjective s) (q : EnginePorts) (hm : q.i0.m = q.i1.m) (h2 : q.i2.m ≠ q.i0.m)
    (h3 : q.i3.m ≠ q.i0.m) (ho : q.o2.m ≠ q.i0.m) (hv : s.isVar (.m q.i0.m) = true)
    (r2 : Spec.FixedRef hr s q.i2) (r3 : Spec.FixedRef hr s q.i3) (ro : Spec.FixedRef hr s q.o2)
    (hne : s.hv q.o0 ≠ s.hv q.i0) :
    ¬ Spec.IsJacobian (fun s => [engineEnergyRes d (engineOf hr s q none)])
      (fun s k => engineEnergyD d hr δm δp s q k) s := by
  intro h
  have h1 := (h 0).2 0 (by simp) (.m q.i0.m) hv
  have hd := engine_row d hr q s r2 r3 ro (.m q.i0.m) hv
  have he : entry (engineEnergyD d hr δm δp s q 0) (0 + 0) (s.col (.m q.i0.m))
      = -(s.hv q.o1 - s.hv q.i1) := by
    rw [engineEnergyD_wrs]
    refine (entryFrom_wrs s hc 0 _ (.m q.i0.m) hv 0).trans ?_
    have hsplit : engineWritten d hr δm δp s q
        = [(Var.m q.i0.m, -(s.hv q.o0 - s.hv q.i0)), (Var.m q.i1.m, -(s.hv q.o1 - s.hv q.i1))]
          ++ (engineWritten d hr δm δp s q).drop 2 := rfl
    rw [hsplit, lastOf_append, lastOf_notMem]
    · simp [lastOf, hm]
    · simp only [engineWritten, flatMap_one, List.flatMap_cons, List.flatMap_nil, List.append_nil,
        List.cons_append, List.nil_append, List.append_assoc, List.map_cons, List.map_nil,
        List.drop_succ_cons, List.drop_zero, List.map_append, List.map_map, Function.comp_def]
      simp [Ne.symm h2, Ne.symm h3, Ne.symm ho]
  rw [he] at h1
  have hu := h1.unique hd
  have hL : contrib (engineList d hr q s) (.m q.i0.m)
      = -(s.hv q.o0 - s.hv q.i0) - (s.hv q.o1 - s.hv q.i1) := by
    simp only [engineList, gasList, List.append_nil, List.cons_append, List.nil_append,
      List.append_assoc, contrib_append, contrib_cons, contrib_nil, contrib_scale,
      contrib_map_x_ne _ _ _ (.m q.i0.m) (by simp), Var.m.injEq, reduceCtorEq, if_false, h2, h3, ho,
      ← hm, if_true]
    ring
  rw [hL] at hu
  exact hne (by linarith)

/-- C81 is false if the first loop feeds the second one directly (`out1` is `in2`): the entry for the
enthalpy between the loops is the negative mass flow, the derivative is 0. -/
theorem C81_direct_false (d : CombData String ℝ) (hr : (String → ℝ) → ℝ) (δm δp : ℝ) (s : EqState ℝ)
    (hc : Spec.ColsInjective s) (q : EnginePorts) (hq : q.o0 = q.i1) (hml : q.o0.m = q.i0.m)
    (hh : DistinctH [q.i0, q.i1, q.i2, q.i3, q.o1, q.o2]) (hv : s.isVar (.h q.i1.h) = true)
    (r2 : Spec.FixedRef hr s q.i2) (r3 : Spec.FixedRef hr s q.i3) (ro : Spec.FixedRef hr s q.o2)
    (hne : s.mv q.i0 ≠ 0) :
    ¬ Spec.IsJacobian (fun s => [engineEnergyRes d (engineOf hr s q none)])
      (fun s k => engineEnergyD d hr δm δp s q k) s := by
  intro h
  have h1 := (h 0).2 0 (by simp) (.h q.i1.h) hv
  have hd := engine_row d hr q s r2 r3 ro (.h q.i1.h) hv
  simp only [DistinctH, List.map_cons, List.map_nil, List.nodup_cons,
    List.mem_cons, List.not_mem_nil, or_false, not_or, List.nodup_nil, and_true,
    not_false_eq_true] at hh
  obtain ⟨⟨a1, a2, a3, a4, a5⟩, ⟨b1, b2, b3, b4⟩, -⟩ := hh
  have hmv : s.mv q.i1 = s.mv q.i0 := by simp only [EqState.mv, ← hq, hml]
  have he : entry (engineEnergyD d hr δm δp s q 0) (0 + 0) (s.col (.h q.i1.h)) = -(s.mv q.i0) := by
    rw [engineEnergyD_wrs]
    refine (entryFrom_wrs s hc 0 _ (.h q.i1.h) hv 0).trans ?_
    have hsplit : engineWritten d hr δm δp s q
        = (engineWritten d hr δm δp s q).take 13 ++ (engineWritten d hr δm δp s q).drop 13 := by
      rw [List.take_append_drop]
    rw [hsplit, lastOf_append, lastOf_notMem ((engineWritten d hr δm δp s q).drop 13)]
    · simp only [engineWritten, flatMap_one, List.flatMap_cons, List.flatMap_nil, List.append_nil,
        List.cons_append, List.nil_append, List.append_assoc, List.map_cons, List.map_nil,
        List.take_succ_cons, List.take_zero]
      simp [lastOf, hq, hmv]
    · simp only [engineWritten, flatMap_one, List.flatMap_cons, List.flatMap_nil, List.append_nil,
        List.cons_append, List.nil_append, List.append_assoc, List.map_cons, List.map_nil,
        List.drop_succ_cons, List.drop_zero, List.map_append, List.map_map, Function.comp_def]
      simp [b3, b4]
  rw [he] at h1
  have hu := h1.unique hd
  have hL : contrib (engineList d hr q s) (.h q.i1.h) = 0 := by
    simp only [engineList, gasList, List.append_nil, List.cons_append, List.nil_append,
      List.append_assoc, contrib_append, contrib_cons, contrib_nil, contrib_scale,
      contrib_map_x_ne _ _ _ (.h q.i1.h) (by simp), Var.h.injEq, reduceCtorEq, if_false, hq, hmv,
      if_true, a1, Ne.symm b1, Ne.symm b2, Ne.symm b3, Ne.symm b4]
    ring
  rw [hL] at hu
  exact hne (by linarith)

/-- C81 is false for variable flue gas compositions: the entries neglect that the enthalpy
at reference conditions depends on the composition. -/
theorem C81_composition_false (d : CombData String ℝ) (hr : (String → ℝ) → ℝ) (δm δp : ℝ)
    (s : EqState ℝ) (hc : Spec.ColsInjective s) (q : EnginePorts)
    (hm : DistinctM [q.i0, q.i1, q.i2, q.i3, q.o2]) (hp : ([q.i2, q.i3, q.o2].map (·.p)).Nodup)
    (hh : DistinctH [q.i0, q.i1, q.i2, q.i3, q.o0, q.o1, q.o2]) (hx : DistinctX [q.i2, q.i3, q.o2])
    (f : String) (hv : s.isVar (.x q.o2.fl f) = true) (D : ℝ)
    (hD : HasDerivAt (fun t => hr (Function.update (s.xv q.o2) f t)) D (s.xv q.o2 f)) (hD0 : D ≠ 0)
    (hm0 : s.mv q.o2 ≠ 0) :
    ¬ Spec.IsJacobian (fun s => [engineEnergyRes d (engineOf hr s q none)])
      (fun s k => engineEnergyD d hr δm δp s q k) s := by
  intro h
  have h1 := (h 0).2 0 (by simp) (.x q.o2.fl f) hv
  have he : entry (engineEnergyD d hr δm δp s q 0) (0 + 0) (s.col (.x q.o2.fl f))
      = contrib (engineList d (fun _ => 0) q s) (.x q.o2.fl f) := by
    rw [engineEnergyD_wrs]
    refine (entryFrom_wrs s hc 0 _ (.x q.o2.fl f) hv 0).trans ?_
    rw [lastOf_contrib _ (engineWritten_nodup d hr δm δp s q hm hp hh hx),
      contrib_x d hr (fun _ => 0)]
  have hd0 := engine_row d (fun _ => 0) q s (fun _ _ _ => rfl) (fun _ _ _ => rfl) (fun _ _ _ => rfl)
    (.x q.o2.fl f) hv
  simp only [DistinctX, List.map_cons, List.map_nil, List.nodup_cons,
    List.mem_cons, List.not_mem_nil, or_false, not_or, List.nodup_nil, and_true,
    not_false_eq_true] at hx
  obtain ⟨⟨-, x2⟩, x3⟩ := hx
  have hfun : (fun t => ([engineEnergyRes d (engineOf hr (s.put (.x q.o2.fl f) t) q none)]).getD 0 0)
      = fun t => engineEnergyRes d (engineOf (fun _ => 0) (s.put (.x q.o2.fl f) t) q none)
        + (s.mv q.o2 * hr (Function.update (s.xv q.o2) f t)
          - (s.mv q.i2 * hr (s.xv q.i2) + s.mv q.i3 * hr (s.xv q.i3))) := by
    funext t
    have e1 : (s.put (.x q.o2.fl f) t).xv q.o2 = Function.update (s.xv q.o2) f t := by
      funext g
      by_cases hg : g = f
      · subst hg
        simp [EqState.xv, EqState.put]
      · simp [EqState.xv, EqState.put, hg]
    have e2 : (s.put (.x q.o2.fl f) t).xv q.i2 = s.xv q.i2 := by
      funext g
      exact put_val_ne _ _ _ _ (by simp [x2])
    have e3 : (s.put (.x q.o2.fl f) t).xv q.i3 = s.xv q.i3 := by
      funext g
      exact put_val_ne _ _ _ _ (by simp [x3])
    have em : ∀ c : Port, (s.put (.x q.o2.fl f) t).mv c = s.mv c := fun c =>
      put_val_ne _ _ _ _ (by simp)
    simp only [List.getD_cons_zero, engineEnergy_sum, gasTerm, e1, e2, e3, em]
    ring
  simp only [] at h1
  rw [hfun, he] at h1
  have h2 := hd0.add ((hD.const_mul (s.mv q.o2)).sub_const
    (s.mv q.i2 * hr (s.xv q.i2) + s.mv q.i3 * hr (s.xv q.i3)))
  have hu := h1.unique h2
  have : s.mv q.o2 * D = 0 := by linarith
  rcases mul_eq_zero.mp this with h | h
  · exact hm0 h
  · exact hD0 h

/-! ### Examples -/

/-- methane with a heating value of 50 -/
def engData (K : Type) [Field K] : CombData String K where
  o2 := "O2"
  co2 := "CO2"
  h2o := "H2O"
  fuels := {"CH4"}
  C := fun _ => 1
  H := fun _ => 4
  M := fun _ => 16
  LHV := fun _ => 50

/-- characteristics at full load: 40 % of the thermal input become power -/
def engChars : EngineChars ℚ where
  tiP := fun x => 5 / 2 + (1 - x)
  q1 := fun _ => 1 / 2
  q2 := fun _ => 1 / 4
  qloss := fun _ => 1 / 10

/-- an engine with a thermal input of 50: power 20, heat 10 and 5, loss 2, the rest in the flue gas -/
def engSolved : EngineVals String ℚ where
  inl := [⟨1, fun f => if f = "CH4" then 1 else 0, 0, 0⟩, ⟨20, fun _ => 0, 7, 7⟩]
  out := ⟨21, fun _ => 0, 13 / 21 + 4, 4⟩
  loop1 := ⟨2, 3, 2, 10, 15⟩
  loop2 := ⟨1, 3, 2, 15, 20⟩
  P := -20
  Qloss := -2
  Pdesign := some (-20)

theorem engSolved_solved : Spec.EngineSolved (engData ℚ) engChars engSolved := by
  constructor <;>
  · simp [engineEnergyRes, combEnergyRes, enginePowerRes, engineHeat1Res, engineHeat2Res,
      engineLossRes, EngineVals.ti, combTi, EngineVals.load, CoolLoop.heat, engData, engChars, engSolved]
    norm_num

example := C81_shares (engData ℚ) engChars engSolved engSolved_solved
  (by norm_num [engChars, engSolved, Spec.engineLoad])
example := C81_reported (engData ℚ) engChars engSolved engSolved_solved
  (by norm_num [engChars, engSolved, Spec.engineLoad])
example := C81_bus (engData ℚ) engChars engSolved engSolved_solved
  (by norm_num [engChars, engSolved, Spec.engineLoad])
example : (engineReport (engData ℚ) engChars engSolved).P = -20 :=
  (C81_reported (engData ℚ) engChars engSolved engSolved_solved
    (by norm_num [engChars, engSolved, Spec.engineLoad])).1
/- entropy: the engine above at 1000 K with a mechanical efficiency of 0.8 -/
example := C81_entropy_internal_false (engineReport (engData ℚ) engChars engSolved) 2 1
  ⟨0, 3 / 100, 0, 2 / 100⟩ ⟨0, 2 / 100, 0, 1 / 100⟩ 3 none 1000 (8 / 10)
  (by
    rw [(C81_reported (engData ℚ) engChars engSolved engSolved_solved
      (by norm_num [engChars, engSolved, Spec.engineLoad])).1]
    norm_num [engSolved]) (by norm_num) (by norm_num) (by simp) (by norm_num)
example := C81_entropy_heater_false (engineReport (engData ℚ) engChars engSolved) 2 1
  ⟨0, 3 / 100, 0, 1 / 100⟩ ⟨0, 2 / 100, 0, 1 / 100⟩ 3 none 500 (8 / 10) 10 500
  (by norm_num) (by norm_num [engineReport, engSolved]) (by norm_num) (by norm_num)
/- derivatives: loops of their own, loops in series, `out1` is `in2`, variable flue gas -/
example := C81_derivative_partial (engData ℝ) (fun _ => 3) 1 1 one_ne_zero one_ne_zero jacState
  jacState_cols ⟨jp 1, jp 2, jp 3, jp 4, ⟨1, 5, 5, 1⟩, ⟨2, 6, 6, 2⟩, jp 7⟩
  (by simp [DistinctM, jp]) ⟨rfl, rfl⟩ (by simp [jp]) (by simp [DistinctH, jp])
  (by simp [DistinctX, jp]) (fun _ _ _ => rfl) (fun _ _ _ => rfl) (fun _ _ _ => rfl)
example := C81_series_false (engData ℝ) (fun _ => 3) 1 1 jacState
  jacState_cols ⟨jp 1, ⟨1, 2, 2, 1⟩, jp 3, jp 4, ⟨1, 5, 5, 1⟩, ⟨1, 6, 6, 1⟩, jp 7⟩
  rfl (by simp [jp]) (by simp [jp]) (by simp [jp]) rfl (fun _ _ _ => rfl) (fun _ _ _ => rfl)
  (fun _ _ _ => rfl) (by norm_num [EqState.hv, jacState, jp])
example := C81_direct_false (engData ℝ) (fun _ => 3) 1 1 jacState
  jacState_cols ⟨jp 1, ⟨1, 2, 2, 1⟩, jp 3, jp 4, ⟨1, 2, 2, 1⟩, ⟨1, 6, 6, 1⟩, jp 7⟩
  rfl rfl (by simp [DistinctH, jp]) rfl (fun _ _ _ => rfl) (fun _ _ _ => rfl)
  (fun _ _ _ => rfl) (by norm_num [EqState.mv, jacState, jp])
example := C81_composition_false (engData ℝ) (fun x => 2 * x "N2") 1 1 jacState
  jacState_cols ⟨jp 1, jp 2, jp 3, jp 4, ⟨1, 5, 5, 1⟩, ⟨2, 6, 6, 2⟩, jp 12⟩
  (by simp [DistinctM, jp]) (by simp [jp]) (by simp [DistinctH, jp])
  (by simp [DistinctX, jp]) "N2" (by simp [jacState, jp]) 2
  (by simpa using (hasDerivAt_id' (jacState.xv (jp 12) "N2")).const_mul 2) (by norm_num)
  (by norm_num [EqState.mv, jacState, jp])

end Tespy
