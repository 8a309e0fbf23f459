import Verif.Model.NumRows
import Verif.Props.MovingBoundary
import Verif.Props.OffDesign
import Verif.Props.NumRows

/-!
C93: solved characteristic equations mean what the documentation says.
-/
namespace Tespy

namespace Spec

/-- The quantities a characteristic can be linked to: mass flow at inlet or outlet, volumetric flow at the inlet, pressure
ratio. -/
noncomputable def loadQuantity (i o : HStream) : CharParam → ℝ
  | .m => i.m
  | .mOut => o.m
  | .v => i.m * i.vol
  | .pr => o.p / i.p
  | .other => 0

/-- The same quantity in the design case. -/
noncomputable def designQuantity (di d_o : HDesign) : CharParam → ℝ
  | .m => di.m
  | .mOut => d_o.m
  | .v => di.v
  | .pr => d_o.p / di.p
  | .other => 0

/-- Load: the quantity relative to the design case, or its absolute value. -/
noncomputable def load (F : NumProps) (C : NComp) (q : CharSel) (s : EqState ℝ) : ℝ :=
  let x := loadQuantity (nStream F s (C.inl q.inconn)) (nStream F s (C.outl q.outconn)) q.param
  if q.rel then x / designQuantity (C.dIn q.inconn) (C.dOut q.outconn) q.param else x

/-- The load is defined: a valid parameter, pressures and design values are not zero. -/
structure LoadDefined (F : NumProps) (C : NComp) (q : CharSel) (s : EqState ℝ) : Prop where
  valid : q.param ≠ .other
  p : s.pv (C.inl q.inconn) ≠ 0
  m : (C.dIn q.inconn).m ≠ 0
  mOut : (C.dOut q.outconn).m ≠ 0
  v : (C.dIn q.inconn).v ≠ 0
  pIn : (C.dIn q.inconn).p ≠ 0
  pOut : (C.dOut q.outconn).p ≠ 0

end Spec

/-- C93 (load): the argument of a characteristic is the quantity it is linked to, relative to the design case or
absolute. -/
theorem C93_load (F : NumProps) (C : NComp) (q : CharSel) (s : EqState ℝ) (h : Spec.LoadDefined F C q s) :
    nCharExpr F C q s = .ok (Spec.load F C q s) := by
  obtain ⟨h1, h2, h3, h4, h5, h6, h7⟩ := h
  have h2' : (nStream F s (C.inl q.inconn)).p ≠ 0 := h2
  unfold nCharExpr Spec.load
  obtain ⟨p, rel, a, b⟩ := q
  simp only at *
  cases rel with
  | false =>
    cases p <;> simp_all [Spec.loadQuantity, rdiv]
  | true =>
    cases p
    · simp [charExprRel, Spec.loadQuantity, Spec.designQuantity, rdiv, h3]
    · simp [charExprRel, Spec.loadQuantity, Spec.designQuantity, rdiv, h4]
    · simp [charExprRel, Spec.loadQuantity, Spec.designQuantity, rdiv, h5]
    · simp only [charExprRel, Spec.loadQuantity, Spec.designQuantity, rdiv, if_neg (mul_ne_zero h2' h7), if_true]
      congr 1
      field_simp
    · exact absurd rfl h1

/-- C93 (pumps): the flow characteristic gives the pressure rise. -/
theorem C93_flow_char (F : NumProps) (C : NComp) (q : CharSel) (s : EqState ℝ) (h : Spec.LoadDefined F C q s) (c : ℝ)
    (hc : C.char "flow_char" (Spec.load F C q s) = .ok c) :
    NEq.res F C s (.flowChar q) = .ok 0 ↔ s.pv (C.outl 0) = s.pv (C.inl 0) + c := by
  simp only [NEq.res, C93_load F C q s h, nChar, hc, nMap, Except.ok.injEq]
  constructor <;> intro h <;> linarith

/-- C93 (valves): the characteristic gives the pressure drop; without load the calculation fails. -/
theorem C93_dp_char (F : NumProps) (C : NComp) (q : CharSel) (s : EqState ℝ) (h : Spec.LoadDefined F C q s) (c : ℝ)
    (hc : C.char "dp_char" (Spec.load F C q s) = .ok c) :
    (Spec.load F C q s ≠ 0 →
      (NEq.res F C s (.dpChar q) = .ok 0 ↔ s.pv (C.outl 0) = s.pv (C.inl 0) - c)) ∧
    (Spec.load F C q s = 0 → NEq.res F C s (.dpChar q) = .error .valueError) := by
  constructor
  · intro h0
    simp only [NEq.res, C93_load F C q s h, charFactor, if_neg h0, hc, nMap, Except.ok.injEq]
    constructor <;> intro h <;> linarith
  · intro h0
    simp only [NEq.res, C93_load F C q s h, charFactor, if_pos h0, nMap]

/-- C93 (pumps and compressors): the isentropic efficiency is the design value times the characteristic. -/
theorem C93_pump_eta_char (F : NumProps) (C : NComp) (q : CharSel) (s : EqState ℝ) (h : Spec.LoadDefined F C q s) (c : ℝ)
    (hc : C.char "eta_s_char" (Spec.load F C q s) = .ok c) (h0 : Spec.load F C q s ≠ 0)
    (hh : s.hv (C.outl 0) ≠ s.hv (C.inl 0)) :
    NEq.res F C s (.pumpEtaChar q) = .ok 0 ↔
      (F.isen (s.xv (C.inl 0)) (s.pv (C.inl 0)) (s.hv (C.inl 0)) (s.pv (C.outl 0)) - s.hv (C.inl 0))
        / (s.hv (C.outl 0) - s.hv (C.inl 0)) = C.design "eta_s" * c := by
  simp only [NEq.res, C93_load F C q s h, charFactor, if_neg h0, hc, nMap, Except.ok.injEq]
  rw [div_eq_iff (sub_ne_zero.2 hh)]
  constructor <;> intro h <;> linarith

/-- C93 (turbines): likewise, in the direction of expansion. The connections chosen for the characteristic are ignored,
the load is always the one of the first inlet and outlet relative to the design case. -/
theorem C93_turbine_eta_char (F : NumProps) (C : NComp) (p : CharParam) (s : EqState ℝ)
    (h : Spec.LoadDefined F C ⟨p, true, 0, 0⟩ s) (c : ℝ)
    (hc : C.char "eta_s_char" (Spec.load F C ⟨p, true, 0, 0⟩ s) = .ok c) (h0 : Spec.load F C ⟨p, true, 0, 0⟩ s ≠ 0)
    (hh : F.isen (s.xv (C.inl 0)) (s.pv (C.inl 0)) (s.hv (C.inl 0)) (s.pv (C.outl 0)) ≠ s.hv (C.inl 0)) :
    NEq.res F C s (.turbineEtaChar p) = .ok 0 ↔
      (s.hv (C.outl 0) - s.hv (C.inl 0))
        / (F.isen (s.xv (C.inl 0)) (s.pv (C.inl 0)) (s.hv (C.inl 0)) (s.pv (C.outl 0)) - s.hv (C.inl 0))
        = C.design "eta_s" * c := by
  have hl : charExprRel p (nStream F s (C.inl 0)) (nStream F s (C.outl 0)) (C.dIn 0) (C.dOut 0)
      = .ok (Spec.load F C ⟨p, true, 0, 0⟩ s) := by
    have := C93_load F C ⟨p, true, 0, 0⟩ s h
    simpa [nCharExpr] using this
  exact ((C41_eta_s_char (C.char "eta_s_char") p (nStream F s (C.inl 0)) (nStream F s (C.outl 0)) (C.dIn 0) (C.dOut 0)
    (F.isen (s.xv (C.inl 0)) (s.pv (C.inl 0)) (s.hv (C.inl 0)) (s.pv (C.outl 0))) (C.design "eta_s") _ c _ hl h0 hc).2
    (rdiv_of_ne (sub_ne_zero.2 hh)))

private theorem nKAChar_ok (f1 f2 : ℝ → PyRes ℝ) (x1 x2 c1 c2 td m dh kA : ℝ) (h1 : f1 x1 = .ok c1) (h2 : f2 x2 = .ok c2)
    (hc1 : 0 < c1) (hc2 : 0 < c2) :
    nKAChar f1 f2 (.ok x1) (.ok x2) (.ok td) m dh kA = .ok (m * dh + kA * (2 / (1 / c1 + 1 / c2)) * td) := by
  have hs : (1 / c1 + 1 / c2) ≠ 0 := by positivity
  simp only [nKAChar, h1, h2, if_neg (show ¬(c1 = 0 ∨ c2 = 0 ∨ 1 / c1 + 1 / c2 = 0) by
    rintro (h | h | h)
    · exact hc1.ne' h
    · exact hc2.ne' h
    · exact hs h)]

/-- C93 (turbines): the cone law relates mass flow and pressures to those of the inlet in the design case. -/
theorem C93_cone (F : NumProps) (C : NComp) (s : EqState ℝ) (hm : 0 ≤ s.mv (C.inl 0)) (hp : 0 < s.pv (C.inl 0))
    (hv : 0 < F.vol (s.xv (C.inl 0)) (s.pv (C.inl 0)) (s.hv (C.inl 0))) (hdm : 0 < (C.dIn 0).m) (hdp : 0 < (C.dIn 0).p)
    (hdv : 0 < (C.dIn 0).vol) (hpr : C.design "pr" ^ 2 ≠ 1) :
    NEq.cone.res F C s = .ok 0 ↔
      (s.mv (C.inl 0) / (C.dIn 0).m) ^ 2
        = (s.pv (C.inl 0) * (C.dIn 0).vol) / ((C.dIn 0).p * F.vol (s.xv (C.inl 0)) (s.pv (C.inl 0)) (s.hv (C.inl 0)))
          * |(1 - (s.pv (C.outl 0) / s.pv (C.inl 0)) ^ 2) / (1 - C.design "pr" ^ 2)| :=
  C41_cone (nStream F s (C.inl 0)) (nStream F s (C.outl 0)) (C.dIn 0) (C.design "pr") hm hdm hp hdp hv hdv hpr

/-- C93 (heat exchangers): with positive terminal temperature differences the heat given off by the hot side is the design
heat transfer coefficient, times the harmonic mean of the two characteristics, times the logarithmic mean temperature
difference. -/
theorem C93_kA_char (F : NumProps) (C : NComp) (q1 q2 : CharSel) (s : EqState ℝ) (h1 : Spec.LoadDefined F C q1 s)
    (h2 : Spec.LoadDefined F C q2 s) (c1 c2 : ℝ) (hc1 : C.char "kA_char1" (Spec.load F C q1 s) = .ok c1)
    (hc2 : C.char "kA_char2" (Spec.load F C q2 s) = .ok c2) (h1' : 0 < c1) (h2' : 0 < c2)
    (hl : 0 < (nStream F s (C.outl 0)).T - (nStream F s (C.inl 1)).T) :
    (0 < (nStream F s (C.inl 0)).T - (nStream F s (C.outl 1)).T →
      (NEq.res F C s (.hexKAChar q1 q2) = .ok 0 ↔
        s.mv (C.inl 0) * (s.hv (C.inl 0) - s.hv (C.outl 0)) = C.design "kA" * (2 / (1 / c1 + 1 / c2))
          * Spec.logMean ((nStream F s (C.inl 0)).T - (nStream F s (C.outl 1)).T)
              ((nStream F s (C.outl 0)).T - (nStream F s (C.inl 1)).T))) ∧
    (0 < F.Tsat (s.xv (C.inl 0)) (s.pv (C.inl 0)) - (nStream F s (C.outl 1)).T →
      (NEq.res F C s (.condKAChar q1 q2) = .ok 0 ↔
        s.mv (C.inl 0) * (s.hv (C.inl 0) - s.hv (C.outl 0)) = C.design "kA" * (2 / (1 / c1 + 1 / c2))
          * Spec.logMean (F.Tsat (s.xv (C.inl 0)) (s.pv (C.inl 0)) - (nStream F s (C.outl 1)).T)
              ((nStream F s (C.outl 0)).T - (nStream F s (C.inl 1)).T))) := by
  constructor
  · intro hu
    obtain ⟨td, htd, htd', -⟩ := C40_heat_exchanger (nStream F s (C.inl 0)).T (nStream F s (C.inl 1)).T
      (nStream F s (C.outl 0)).T (nStream F s (C.outl 1)).T
    unfold Spec.guarded at htd'
    rw [if_pos hu, if_pos hl] at htd'
    rw [← htd']
    simp only [NEq.res, C93_load F C q1 s h1, C93_load F C q2 s h2, nHex, htd]
    rw [nKAChar_ok _ _ _ _ c1 c2 td _ _ _ hc1 hc2 h1' h2', Except.ok.injEq]
    simp only [nStream]
    constructor <;> intro h <;> linarith
  · intro hu
    obtain ⟨td, htd, htd', -⟩ := C40_condenser_partial C.tset (F.Tsat (s.xv (C.inl 0)) (s.pv (C.inl 0)))
      (nStream F s (C.inl 1)).T (nStream F s (C.outl 0)).T (nStream F s (C.outl 1)).T
      (.inl (by linarith)) (.inl (by linarith))
    unfold Spec.guarded at htd'
    rw [if_pos hu, if_pos hl] at htd'
    rw [← htd']
    simp only [NEq.res, C93_load F C q1 s h1, C93_load F C q2 s h2, nHex, htd]
    rw [nKAChar_ok _ _ _ _ c1 c2 td _ _ _ hc1 hc2 h1' h2', Except.ok.injEq]
    simp only [nStream]
    constructor <;> intro h <;> linarith

/-- C93 (simple heat exchangers and pipes): with both temperatures above the ambient temperature the heat given off is the
design heat transfer coefficient, times `2 / (1 + 1 / f)`, times the logarithmic mean temperature difference; below the
ambient temperature the heat taken up. -/
theorem C93_simple_kA_char (F : NumProps) (C : NComp) (q : CharSel) (s : EqState ℝ) (h : Spec.LoadDefined F C q s) (c : ℝ)
    (hc : C.char "kA_char" (Spec.load F C q s) = .ok c) (h0 : 0 < c) :
    (C.Tamb < (nStream F s (C.inl 0)).T → C.Tamb < (nStream F s (C.outl 0)).T →
      (NEq.res F C s (.simpleKAChar q) = .ok 0 ↔
        s.mv (C.inl 0) * (s.hv (C.inl 0) - s.hv (C.outl 0)) = C.design "kA" * (2 / (1 + 1 / c))
          * Spec.logMean ((nStream F s (C.inl 0)).T - C.Tamb) ((nStream F s (C.outl 0)).T - C.Tamb))) ∧
    ((nStream F s (C.inl 0)).T < C.Tamb → (nStream F s (C.outl 0)).T < C.Tamb →
      (NEq.res F C s (.simpleKAChar q) = .ok 0 ↔
        s.mv (C.inl 0) * (s.hv (C.outl 0) - s.hv (C.inl 0)) = C.design "kA" * (2 / (1 + 1 / c))
          * Spec.logMean (C.Tamb - (nStream F s (C.inl 0)).T) (C.Tamb - (nStream F s (C.outl 0)).T))) := by
  have hs : ¬ (c = 0 ∨ 1 + 1 / c = 0) := by
    rintro (h | h)
    · exact h0.ne' h
    · have : 0 < 1 + 1 / c := by positivity
      exact this.ne' h
  constructor
  · intro h1 h2
    simp only [NEq.res, C93_load F C q s h, (C40_simple_value _ _ _).1 h1 h2, hc, if_neg hs, Except.ok.injEq]
    constructor <;> intro h <;> linarith
  · intro h1 h2
    simp only [NEq.res, C93_load F C q s h, (C40_simple_value _ _ _).2 h1 h2, hc, if_neg hs, Except.ok.injEq]
    constructor <;> intro h <;> linarith

/-- C93 (electrolyzers): the power needed for the hydrogen produced is the ideal one divided by the design efficiency times
the characteristic. -/
theorem C93_eta_char (F : NumProps) (C : NComp) (q : CharSel) (s : EqState ℝ) (h : Spec.LoadDefined F C q s) (c : ℝ)
    (hc : C.char "eta_char" (Spec.load F C q s) = .ok c) (h0 : Spec.load F C q s ≠ 0) (hd : C.design "eta" ≠ 0)
    (hc0 : c ≠ 0) :
    NEq.res F C s (.etaChar q) = .ok 0 ↔ s.val (.par "P") * (C.design "eta" * c) = s.mv (C.outl 2) * C.e0 := by
  have hz := mul_ne_zero hd hc0
  simp only [NEq.res, C93_load F C q s h, charFactor, if_neg h0, hc, nMap, rdiv_of_ne hz, Except.ok.injEq]
  rw [sub_eq_zero, eq_div_iff hz]

/-- C93 (compressor maps): pressure ratio and isentropic efficiency are the design values times the value of the map at the
speed line and at the flow corrected for inlet temperature and pressure. -/
theorem C93_maps (F : NumProps) (C : NComp) (s : EqState ℝ) (x y f g : ℝ)
    (hx : x = Real.sqrt ((C.dIn 0).T / (nStream F s (C.inl 0)).T))
    (hy : y = (s.mv (C.inl 0) / (C.dIn 0).m) / (s.pv (C.inl 0) / (C.dIn 0).p * x))
    (hpd : (C.dIn 0).p ≠ 0)
    (hf : C.map "char_map_pr" x y (s.val (.par "igva")) = .ok f)
    (hg : C.map "char_map_eta_s" x y (s.val (.par "igva")) = .ok g) :
    (NEq.res F C s .mapPr = .ok 0 ↔ s.pv (C.outl 0) / s.pv (C.inl 0) = f * C.design "pr") ∧
    (NEq.res F C s .mapEta = .ok 0 ↔
      (F.isen (s.xv (C.inl 0)) (s.pv (C.inl 0)) (s.hv (C.inl 0)) (s.pv (C.outl 0)) - s.hv (C.inl 0))
        / (s.hv (C.outl 0) - s.hv (C.inl 0)) = g * C.design "eta_s") := by
  have hy' : y = (s.mv (C.inl 0) * (C.dIn 0).p) / ((C.dIn 0).m * s.pv (C.inl 0) * x) := by
    rw [hy, div_mul_eq_mul_div, div_div_div_eq]
    ring_nf
  have e : ∀ n, nMapEval C n (nStream F s (C.inl 0)) (s.val (.par "igva")) = C.map n x y (s.val (.par "igva")) := by
    intro n
    rw [hy', hx]
    rfl
  constructor
  · simp only [NEq.res, e, hf, nMap, Except.ok.injEq, sub_eq_zero]
  · simp only [NEq.res, e, hg, nMap, Except.ok.injEq, sub_eq_zero]

/-- C93 (moving boundary heat exchangers): in the counter-current balance of a hot and a cold stream, saturation of the
condensing stream (at the pressure of its outlet) and of the evaporating stream (at the pressure of its inlet) are
boundaries of the sections from which UA and the pinch are determined. -/
theorem C93_boundaries (F : NumProps) (C : NComp) (s : EqState ℝ) (Q : ℝ)
    (h : Spec.Balanced (nSide F s (C.inl 0) (C.outl 0)) (nSide F s (C.inl 1) (C.outl 1)) Q) (l g x : ℝ)
    (hx : x = l ∨ x = g) :
    (F.sat (s.xv (C.outl 0)) (s.pv (C.outl 0)) = some (l, g) → s.hv (C.outl 0) + 1e-6 < x → x + 1e-6 < s.hv (C.inl 0) →
      s.mv (C.inl 0) * (x - s.hv (C.outl 0))
        ∈ mbSections (nSide F s (C.inl 0) (C.outl 0)) (nSide F s (C.inl 1) (C.outl 1))) ∧
    (F.sat (s.xv (C.inl 1)) (s.pv (C.inl 1)) = some (l, g) → s.hv (C.inl 1) + 1e-6 < x → x + 1e-6 < s.hv (C.outl 1) →
      s.mv (C.inl 1) * (x - s.hv (C.inl 1))
        ∈ mbSections (nSide F s (C.inl 0) (C.outl 0)) (nSide F s (C.inl 1) (C.outl 1))) := by
  obtain ⟨-, -, -, hh, hc, -⟩ := C48_sections _ _ Q h
  constructor
  · intro hs h1 h2
    refine hh x ?_ h1 h2
    have : s.hv (C.inl 0) > s.hv (C.outl 0) := by norm_num at h1 h2; linarith
    refine ⟨l, g, ?_, hx⟩
    simp only [nSide, if_pos this, hs]
  · intro hs h1 h2
    refine hc x ?_ h1 h2
    have : ¬ s.hv (C.inl 1) > s.hv (C.outl 1) := by norm_num at h1 h2; intro h; linarith
    refine ⟨l, g, ?_, hx⟩
    simp only [nSide, if_neg this, hs]

/-- C93 is false for characteristics of absolute quantities with an invalid parameter: no error is raised, the
characteristic is evaluated at zero (pump flow and heat transfer characteristics), whatever the state. Relative to the
design case the invalid parameter is reported. -/
theorem C93_invalid_false (F : NumProps) (C : NComp) (a b : ℕ) (s : EqState ℝ) (c : ℝ)
    (hc : C.char "flow_char" 0 = .ok c) :
    (NEq.res F C s (.flowChar ⟨.other, false, a, b⟩) = .ok 0 ↔ s.pv (C.outl 0) = s.pv (C.inl 0) + c) ∧
    NEq.res F C s (.flowChar ⟨.other, true, a, b⟩) = .error .valueError ∧
    NEq.res F C s (.dpChar ⟨.other, false, a, b⟩) = .error .valueError ∧
    NEq.res F C s (.dpChar ⟨.other, true, a, b⟩) = .error .valueError := by
  refine ⟨?_, ?_, ?_, ?_⟩
  · simp [NEq.res, nCharExpr, nChar, hc, nMap]
    constructor <;> intro h <;> linarith
  · simp [NEq.res, nCharExpr, charExprRel, nChar, nMap]
  · simp [NEq.res, nCharExpr, charFactor, nMap]
  · simp [NEq.res, nCharExpr, charExprRel, charFactor, nMap]

/-- C93 at standstill is false for the equations which check the load: with no flow (relative to the design case or not)
efficiency and pressure loss characteristics end the calculation with an error. -/
theorem C93_standstill_false (F : NumProps) (C : NComp) (rel : Bool) (a b : ℕ) (s : EqState ℝ)
    (hd : (C.dIn a).m ≠ 0) (hm : s.mv (C.inl a) = 0) :
    NEq.res F C s (.dpChar ⟨.m, rel, a, b⟩) = .error .valueError ∧
    NEq.res F C s (.pumpEtaChar ⟨.m, rel, a, b⟩) = .error .valueError ∧
    NEq.res F C s (.etaChar ⟨.m, rel, a, b⟩) = .error .valueError := by
  have h : nCharExpr F C ⟨.m, rel, a, b⟩ s = .ok 0 := by
    cases rel <;> simp [nCharExpr, charExprRel, nStream, hm, rdiv, hd]
  simp [NEq.res, h, charFactor, nMap]

/-! ### Non-trivial cases -/

/-- A valve: at the state of the example (2 and 1 Pa) with the characteristic `f x = x` of the relative mass flow the
pressure drop is 1 and the equation is satisfied. -/
example : Spec.LoadDefined rowToyF rowToyC ⟨.m, true, 0, 0⟩ (rowToyS fun _ => true)
    ∧ Spec.load rowToyF rowToyC ⟨.m, true, 0, 0⟩ (rowToyS fun _ => true) = 1
    ∧ NEq.res rowToyF rowToyC (rowToyS fun _ => true) (.dpChar ⟨.m, true, 0, 0⟩) = .ok 0
    ∧ NEq.res rowToyF rowToyC (rowToyS fun _ => true) (.flowChar ⟨.m, true, 0, 0⟩) = .ok (-2) := by
  have hd : Spec.LoadDefined rowToyF rowToyC ⟨.m, true, 0, 0⟩ (rowToyS fun _ => true) := by
    constructor <;> simp [rowToyC, rowToyS, EqState.pv]
  have hl : Spec.load rowToyF rowToyC ⟨.m, true, 0, 0⟩ (rowToyS fun _ => true) = 1 := by
    simp [Spec.load, Spec.loadQuantity, Spec.designQuantity, nStream, rowToyC, rowToyS, EqState.mv]
  refine ⟨hd, hl, ?_, ?_⟩
  · refine ((C93_dp_char _ _ _ _ hd 1 (by rw [hl]; rfl)).1 (by rw [hl]; norm_num)).2 ?_
    simp [rowToyC, rowToyS, EqState.pv]; norm_num
  · have hp : (rowToyS fun _ => true).pv (rowToyC.outl 0) = 1 ∧ (rowToyS fun _ => true).pv (rowToyC.inl 0) = 2 := by
      simp [rowToyC, rowToyS, EqState.pv]
    have hc : rowToyC.char "flow_char" 1 = .ok 1 := rfl
    simp only [NEq.res, C93_load _ _ _ _ hd, hl, nChar, nMap, hc, hp.1, hp.2]
    norm_num

/-- The cone law holds in the design case: inlet pressure 2, outlet pressure 1. -/
example : NEq.cone.res rowToyF { rowToyC with dIn := fun _ => ⟨1, 2, 1, 1, 1⟩, design := fun _ => 1 / 2 }
    (rowToyS fun _ => true) = .ok 0 := by
  refine (C93_cone _ _ _ ?_ ?_ ?_ ?_ ?_ ?_ ?_).2 ?_ <;>
    simp [rowToyC, rowToyF, rowToyS, EqState.mv, EqState.pv] <;> norm_num

/-- A counter-current heat exchanger: the hot stream cools from 30 to 20, the cold one is heated from 10 to 15
(temperatures equal enthalpies), loads 1 and characteristics 1 on both sides: the heat 10 exceeds `kA · ΔT`. -/
example : 0 < (nStream rowToyF (rowToyS fun _ => true) (rowToyC.outl 0)).T
        - (nStream rowToyF (rowToyS fun _ => true) (rowToyC.inl 1)).T
    ∧ 0 < (nStream rowToyF (rowToyS fun _ => true) (rowToyC.inl 0)).T
        - (nStream rowToyF (rowToyS fun _ => true) (rowToyC.outl 1)).T
    ∧ Spec.LoadDefined rowToyF rowToyC ⟨.v, true, 0, 0⟩ (rowToyS fun _ => true)
    ∧ Spec.LoadDefined rowToyF rowToyC ⟨.mOut, false, 1, 1⟩ (rowToyS fun _ => true) := by
  refine ⟨?_, ?_, ?_, ?_⟩
  · simp [nStream, rowToyF, rowToyC, rowToyS, EqState.hv, EqState.xv]; norm_num
  · simp [nStream, rowToyF, rowToyC, rowToyS, EqState.hv, EqState.xv]; norm_num
  · constructor <;> simp [rowToyC, rowToyS, EqState.pv]
  · constructor <;> simp [rowToyC, rowToyS, EqState.pv]

/-- A condensing stream (from 30 to 20, saturation between 22 and 28 at the outlet pressure) against a cold stream heated
from 10 to 20. -/
example : ∃ (F : NumProps) (s : EqState ℝ),
    Spec.Balanced (nSide F s (rowToyC.inl 0) (rowToyC.outl 0)) (nSide F s (rowToyC.inl 1) (rowToyC.outl 1)) 10
    ∧ F.sat (s.xv (rowToyC.outl 0)) (s.pv (rowToyC.outl 0)) = some (22, 28) := by
  refine ⟨{ rowToyF with sat := fun _ p => if p = 1 then some (22, 28) else none },
    { rowToyS (fun _ => true) with val := fun
      | .m _ => 1
      | .p n => if n = 1 then 1 else 2
      | .h n => if n = 0 then 30 else if n = 1 then 20 else if n = 2 then 10 else 20
      | _ => 1 }, ?_, ?_⟩
  · constructor <;> simp [nSide, rowToyC, EqState.hv, EqState.mv, EqState.pv, Spec.satOrdered] <;> norm_num
  · simp [rowToyC, EqState.pv]

end Tespy
