import Verif.Props.CharMeaning
import Verif.Props.CharLine
import Verif.Props.ZetaFlow
import Verif.Props.NumRows
import Mathlib.Tactic.Linarith

/-!
C05: falling characteristic lines. C117: the operating point of a pump.
-/
namespace Tespy

section
variable {K : Type} [Field K] [LinearOrder K]

theorem pyGet_map_neg (l : List K) (i : Int) : pyGet (l.map (fun t => -t)) i = (pyGet l i).map (fun t => -t) := by
  unfold pyGet
  simp only [List.length_map, List.getElem?_map]
  split
  · cases l[i.toNat]? <;> rfl
  · split
    · cases l[((l.length : Int) + i).toNat]? <;> rfl
    · rfl

theorem interpAt_map_neg (x y : List K) (i : Int) (v : K) :
    interpAt x (y.map (fun t => -t)) i v = (interpAt x y i v).map (fun t => -t) := by
  unfold interpAt
  rw [pyGet_map_neg, pyGet_map_neg]
  cases pyGet x (i - 1) with
  | error e => rfl
  | ok x0 =>
    cases pyGet x i with
    | error e => rfl
    | ok x1 =>
      simp only [bind, Except.bind]
      by_cases h : x1 - x0 = 0
      · simp [h, Except.map]
      · simp only [h, if_false]
        cases pyGet y (i - 1) with
        | error e => rfl
        | ok y0 =>
          cases pyGet y i with
          | error e => rfl
          | ok y1 =>
            simp only [Except.map, Except.ok.injEq]
            ring

/-- The line with negative values has the negative values everywhere. -/
theorem evaluate_map_neg (c : CharLine K) (v : K) :
    ({ c with y := c.y.map (fun t => -t) } : CharLine K).evaluate v = (c.evaluate v).map (fun t => -t) := by
  unfold CharLine.evaluate
  simp only [interpAt_map_neg, pyGet_map_neg]
  split
  · split <;> rfl
  · split
    · split <;> rfl
    · rfl

end

section
variable {K : Type} [Field K] [LinearOrder K] [IsStrictOrderedRing K]

/-- C05: values that do not rise make a line that does not rise anywhere. -/
theorem C05_antitone (c : CharLine K) (h : c.Valid) (hne : 0 < c.x.length) (hex : c.extrapolate = false)
    (hy : c.y.Pairwise (· ≥ ·)) (v w r s : K) (hvw : v ≤ w) (hr : c.evaluate v = .ok r) (hs : c.evaluate w = .ok s) :
    s ≤ r := by
  have hv : ({ c with y := c.y.map (fun t => -t) } : CharLine K).Valid := ⟨by simpa using h.len, h.sorted⟩
  have := C05_monotone ({ c with y := c.y.map (fun t => -t) } : CharLine K) hv hne hex
    (by
      rw [List.pairwise_map]
      exact hy.imp (fun h => neg_le_neg h)) v w (-r) (-s) hvw
    (by rw [evaluate_map_neg, hr]; rfl) (by rw [evaluate_map_neg, hs]; rfl)
  linarith

end

/-! ### Specification of the circuit -/

/-- A solved pump with a flow characteristic (over the volumetric flow, as preset) that feeds a solved component with a
zeta value; both carry the same flow. -/
structure Spec.PumpCircuit (F : NumProps) (P C : NComp) (s : EqState ℝ) : Prop where
  joined : C.inl 0 = P.outl 0
  flow : s.mv (C.inl 0) = s.mv (P.inl 0)
  pump : NEq.res F P s (.flowChar ⟨.v, false, 0, 0⟩) = .ok 0
  pipe : NEq.res F C s (.zeta "zeta" 0 0) = .ok 0

/-- Specific volume at a connection. -/
def Spec.volAt (F : NumProps) (s : EqState ℝ) (c : Port) : ℝ := F.vol (s.xv c) (s.pv c) (s.hv c)

/-- The loss at the flow `m` with a zeta value, `V` is the sum of the volumes at inlet and outlet. -/
def Spec.ZetaLoss (zeta V m d : ℝ) : Prop :=
  (|m| < 1 / 10000 ∧ d = 0) ∨ (1 / 10000 ≤ |m| ∧ d * Real.pi ^ 2 = zeta * (8 * |m| * m * (V / 2)))

theorem abs_mul_lt {a b : ℝ} (h : a < b) : |a| * a < |b| * b := by
  rcases le_or_gt 0 a with ha | ha
  · have hb : 0 < b := lt_of_le_of_lt ha h
    rw [abs_of_nonneg ha, abs_of_pos hb]
    exact mul_lt_mul'' h h ha ha
  · rcases le_or_gt b 0 with hb | hb
    · rw [abs_of_neg ha, abs_of_nonpos hb]
      have := mul_lt_mul'' (neg_lt_neg h) (neg_lt_neg h) (neg_nonneg.2 hb) (neg_nonneg.2 hb)
      linarith
    · rw [abs_of_neg ha, abs_of_pos hb]
      have := mul_pos hb hb
      have := mul_pos (neg_pos.2 ha) (neg_pos.2 ha)
      linarith

theorem zetaLoss_strict {zeta V m m' d d' : ℝ} (hz : 0 < zeta) (hV : 0 < V) (h : Spec.ZetaLoss zeta V m d)
    (h' : Spec.ZetaLoss zeta V m' d') (hlt : m < m') (hbig : 1 / 10000 ≤ |m| ∨ 1 / 10000 ≤ |m'|) : d < d' := by
  have hpi : 0 < Real.pi ^ 2 := by have := Real.pi_pos; positivity
  have hk : 0 < zeta * (8 * (V / 2)) := by positivity
  rcases h with ⟨hm, hd⟩ | ⟨hm, hd⟩ <;> rcases h' with ⟨hm', hd'⟩ | ⟨hm', hd'⟩
  · rcases hbig with hb | hb
    · exact absurd hm (not_lt.2 hb)
    · exact absurd hm' (not_lt.2 hb)
  · have hpos : 0 < m' := by
      by_contra hn
      rw [abs_of_nonpos (not_lt.1 hn)] at hm'
      have := (abs_lt.1 hm).1
      linarith
    have h1 : 0 < d' * Real.pi ^ 2 := by
      rw [hd', abs_of_pos hpos]
      have := mul_pos hk (mul_pos hpos hpos)
      linarith
    rw [hd]
    exact (pos_iff_pos_of_mul_pos h1).2 hpi
  · have hneg : m < 0 := by
      by_contra hn
      rw [abs_of_nonneg (not_lt.1 hn)] at hm
      have := (abs_lt.1 hm').2
      linarith
    have h1 : 0 < -d * Real.pi ^ 2 := by
      have h2 := mul_pos hk (mul_pos (neg_pos.2 hneg) (neg_pos.2 hneg))
      rw [neg_mul, hd, abs_of_neg hneg]
      linarith
    have := (pos_iff_pos_of_mul_pos h1).2 hpi
    rw [hd']
    linarith
  · have h1 := mul_lt_mul_of_pos_left (abs_mul_lt hlt) hk
    have h2 : d * Real.pi ^ 2 < d' * Real.pi ^ 2 := by
      rw [hd, hd']
      linarith
    exact lt_of_mul_lt_mul_right h2 hpi.le

/-- What the two solved equations say about flow and pressures. -/
theorem pumpCircuit_point {F : NumProps} {P C : NComp} {s : EqState ℝ} (h : Spec.PumpCircuit F P C s)
    (hV : 0 < Spec.volAt F s (C.inl 0) + Spec.volAt F s (C.outl 0)) :
    ∃ c, P.char "flow_char" (s.mv (P.inl 0) * Spec.volAt F s (P.inl 0)) = .ok c ∧
      Spec.ZetaLoss (s.val (.par "zeta")) (Spec.volAt F s (C.inl 0) + Spec.volAt F s (C.outl 0)) (s.mv (P.inl 0))
        (c - (s.pv (C.outl 0) - s.pv (P.inl 0))) := by
  have hp := h.pump
  have hz := h.pipe
  simp only [NEq.res] at hp hz
  rw [C59_zeta_meaning _ _ _ hV] at hz
  have hx : nCharExpr F P ⟨.v, false, 0, 0⟩ s = .ok (s.mv (P.inl 0) * Spec.volAt F s (P.inl 0)) := rfl
  rw [hx] at hp
  cases hc : P.char "flow_char" (s.mv (P.inl 0) * Spec.volAt F s (P.inl 0)) with
  | error e =>
    simp only [nChar, hc, nMap] at hp
    cases hp
  | ok c =>
    simp only [nChar, hc, nMap, Except.ok.injEq] at hp
    refine ⟨c, rfl, ?_⟩
    have e1 : (nStream F s (C.inl 0)).m = s.mv (P.inl 0) := h.flow
    have e2 : (nStream F s (C.inl 0)).p = s.pv (P.outl 0) := by rw [h.joined]; rfl
    have e3 : (nStream F s (C.outl 0)).p = s.pv (C.outl 0) := rfl
    have e4 : (nStream F s (C.inl 0)).vol = Spec.volAt F s (C.inl 0) := rfl
    have e5 : (nStream F s (C.outl 0)).vol = Spec.volAt F s (C.outl 0) := rfl
    rw [e1, e2, e3, e4, e5] at hz
    have ec : c - (s.pv (C.outl 0) - s.pv (P.inl 0)) = s.pv (P.outl 0) - s.pv (C.outl 0) := by linarith
    unfold Spec.ZetaLoss
    rw [ec, sub_eq_zero]
    exact hz

/-- C117: a pump with a characteristic that does not rise has one operating point: two solved states with the same
component, static head and volumes have the same flow, if one of them has a flow of at least 0.0001. -/
theorem C117_operating_point_partial (F : NumProps) (P C : NComp) (s s' : EqState ℝ) (line : CharLine ℝ)
    (hline : P.char "flow_char" = line.evaluate) (hv : line.Valid) (hne : 0 < line.x.length)
    (hex : line.extrapolate = false) (hy : line.y.Pairwise (· ≥ ·))
    (h : Spec.PumpCircuit F P C s) (h' : Spec.PumpCircuit F P C s')
    (hz : 0 < s.val (.par "zeta")) (hz' : s'.val (.par "zeta") = s.val (.par "zeta"))
    (hV : 0 < Spec.volAt F s (C.inl 0) + Spec.volAt F s (C.outl 0))
    (hV' : Spec.volAt F s' (C.inl 0) + Spec.volAt F s' (C.outl 0) = Spec.volAt F s (C.inl 0) + Spec.volAt F s (C.outl 0))
    (hvp : 0 < Spec.volAt F s (P.inl 0)) (hvp' : Spec.volAt F s' (P.inl 0) = Spec.volAt F s (P.inl 0))
    (hstat : s'.pv (C.outl 0) - s'.pv (P.inl 0) = s.pv (C.outl 0) - s.pv (P.inl 0))
    (hbig : 1 / 10000 ≤ |s.mv (P.inl 0)|) : s.mv (P.inl 0) = s'.mv (P.inl 0) := by
  obtain ⟨c, hc, hl⟩ := pumpCircuit_point h hV
  obtain ⟨c', hc', hl'⟩ := pumpCircuit_point h' (by rw [hV']; exact hV)
  rw [hz', hV', hstat] at hl'
  rw [hvp'] at hc'
  rw [hline] at hc hc'
  rcases lt_trichotomy (s.mv (P.inl 0)) (s'.mv (P.inl 0)) with hlt | heq | hgt
  · have h1 := zetaLoss_strict hz hV hl hl' hlt (.inl hbig)
    have h2 := C05_antitone line hv hne hex hy _ _ _ _ (mul_le_mul_of_nonneg_right hlt.le hvp.le) hc hc'
    linarith
  · exact heq
  · have h1 := zetaLoss_strict hz hV hl' hl hgt (.inr hbig)
    have h2 := C05_antitone line hv hne hex hy _ _ _ _ (mul_le_mul_of_nonneg_right hgt.le hvp.le) hc' hc
    linarith

/-- C117: closing a valve behind the pump (a larger zeta value, all else equal) gives a smaller flow. -/
theorem C117_throttle (F : NumProps) (P C : NComp) (s s' : EqState ℝ) (line : CharLine ℝ)
    (hline : P.char "flow_char" = line.evaluate) (hv : line.Valid) (hne : 0 < line.x.length)
    (hex : line.extrapolate = false) (hy : line.y.Pairwise (· ≥ ·))
    (h : Spec.PumpCircuit F P C s) (h' : Spec.PumpCircuit F P C s')
    (hz : 0 < s.val (.par "zeta")) (hz' : s.val (.par "zeta") < s'.val (.par "zeta"))
    (hV : 0 < Spec.volAt F s (C.inl 0) + Spec.volAt F s (C.outl 0))
    (hV' : Spec.volAt F s' (C.inl 0) + Spec.volAt F s' (C.outl 0) = Spec.volAt F s (C.inl 0) + Spec.volAt F s (C.outl 0))
    (hvp : 0 < Spec.volAt F s (P.inl 0)) (hvp' : Spec.volAt F s' (P.inl 0) = Spec.volAt F s (P.inl 0))
    (hstat : s'.pv (C.outl 0) - s'.pv (P.inl 0) = s.pv (C.outl 0) - s.pv (P.inl 0))
    (hbig : 1 / 10000 ≤ s.mv (P.inl 0)) : s'.mv (P.inl 0) < s.mv (P.inl 0) := by
  obtain ⟨c, hc, hl⟩ := pumpCircuit_point h hV
  obtain ⟨c', hc', hl'⟩ := pumpCircuit_point h' (by rw [hV']; exact hV)
  rw [hV', hstat] at hl'
  rw [hvp'] at hc'
  rw [hline] at hc hc'
  by_contra hn
  have hle := not_lt.1 hn
  have h2 := C05_antitone line hv hne hex hy _ _ _ _ (mul_le_mul_of_nonneg_right hle hvp.le) hc hc'
  have hm : 0 < s.mv (P.inl 0) := by linarith
  have hm' : 0 < s'.mv (P.inl 0) := by linarith
  rcases hl with ⟨hs, -⟩ | ⟨-, hd⟩
  · rw [abs_of_pos hm] at hs; linarith
  rcases hl' with ⟨hs, -⟩ | ⟨-, hd'⟩
  · rw [abs_of_pos hm'] at hs; linarith
  rw [abs_of_pos hm] at hd
  rw [abs_of_pos hm'] at hd'
  have hpi : 0 < Real.pi ^ 2 := by have := Real.pi_pos; positivity
  have hq := mul_le_mul hle hle hm.le hm'.le
  have hw := half_pos hV
  have hq1 := mul_le_mul_of_nonneg_right hq (mul_nonneg (by norm_num : (0 : ℝ) ≤ 8) hw.le)
  have hq0 : 0 < s'.mv (P.inl 0) * s'.mv (P.inl 0)
      * (8 * ((Spec.volAt F s (C.inl 0) + Spec.volAt F s (C.outl 0)) / 2)) := by positivity
  have h3 := mul_le_mul_of_nonneg_left hq1 hz.le
  have h4 := mul_lt_mul_of_pos_right hz' hq0
  have h5 : (c - (s.pv (C.outl 0) - s.pv (P.inl 0))) * Real.pi ^ 2
      < (c' - (s.pv (C.outl 0) - s.pv (P.inl 0))) * Real.pi ^ 2 := by
    rw [hd, hd']
    linarith
  have := lt_of_mul_lt_mul_right h5 hpi.le
  linarith

/-- C117: a higher pressure to overcome (all else equal) gives a smaller flow. -/
theorem C117_head (F : NumProps) (P C : NComp) (s s' : EqState ℝ) (line : CharLine ℝ)
    (hline : P.char "flow_char" = line.evaluate) (hv : line.Valid) (hne : 0 < line.x.length)
    (hex : line.extrapolate = false) (hy : line.y.Pairwise (· ≥ ·))
    (h : Spec.PumpCircuit F P C s) (h' : Spec.PumpCircuit F P C s')
    (hz : 0 < s.val (.par "zeta")) (hz' : s'.val (.par "zeta") = s.val (.par "zeta"))
    (hV : 0 < Spec.volAt F s (C.inl 0) + Spec.volAt F s (C.outl 0))
    (hV' : Spec.volAt F s' (C.inl 0) + Spec.volAt F s' (C.outl 0) = Spec.volAt F s (C.inl 0) + Spec.volAt F s (C.outl 0))
    (hvp : 0 < Spec.volAt F s (P.inl 0)) (hvp' : Spec.volAt F s' (P.inl 0) = Spec.volAt F s (P.inl 0))
    (hstat : s.pv (C.outl 0) - s.pv (P.inl 0) < s'.pv (C.outl 0) - s'.pv (P.inl 0)) :
    s'.mv (P.inl 0) < s.mv (P.inl 0) := by
  obtain ⟨c, hc, hl⟩ := pumpCircuit_point h hV
  obtain ⟨c', hc', hl'⟩ := pumpCircuit_point h' (by rw [hV']; exact hV)
  rw [hz', hV'] at hl'
  rw [hvp'] at hc'
  rw [hline] at hc hc'
  by_contra hn
  have hle := not_lt.1 hn
  have h2 := C05_antitone line hv hne hex hy _ _ _ _ (mul_le_mul_of_nonneg_right hle hvp.le) hc hc'
  have h3 : c - (s.pv (C.outl 0) - s.pv (P.inl 0)) ≤ c' - (s'.pv (C.outl 0) - s'.pv (P.inl 0)) := by
    by_cases hb : 1 / 10000 ≤ |s.mv (P.inl 0)| ∨ 1 / 10000 ≤ |s'.mv (P.inl 0)|
    · rcases hle.lt_or_eq with hlt | heq
      · exact (zetaLoss_strict hz hV hl hl' hlt hb).le
      · rw [← heq] at hl' hb
        have hpi : 0 < Real.pi ^ 2 := by have := Real.pi_pos; positivity
        rcases hl with ⟨hs, -⟩ | ⟨-, hd⟩
        · rcases hb with hb | hb <;> exact absurd hs (not_lt.2 hb)
        rcases hl' with ⟨hs, -⟩ | ⟨-, hd'⟩
        · rcases hb with hb | hb <;> exact absurd hs (not_lt.2 hb)
        exact (mul_right_cancel₀ hpi.ne' (hd.trans hd'.symm)).le
    · rw [not_or] at hb
      rcases hl with ⟨-, hd⟩ | ⟨hs, -⟩
      · rcases hl' with ⟨-, hd'⟩ | ⟨hs, -⟩
        · rw [hd, hd']
        · exact absurd hs hb.2
      · exact absurd hs hb.1
  linarith

/-! ### Examples -/

/-- A pump between connections 0 and 1 with a line of two values. -/
noncomputable def pumpToyP (y0 y1 : ℝ) : NComp :=
  { rowToyC with char := fun _ => ({ x := [1, 2], y := [y0, y1], extrapolate := false } : CharLine ℝ).evaluate }

/-- A pipe between connections 1 and 2. -/
noncomputable def pumpToyC : NComp :=
  { rowToyC with inl := fun _ => ⟨0, 1, 1, 0⟩, outl := fun _ => ⟨0, 2, 2, 0⟩ }

/-- Flow `m`, pressures 0, `p` and `q`, zeta value `k · π² / 8`. -/
noncomputable def pumpToyS (k m p q : ℝ) : EqState ℝ :=
  { rowToyS (fun _ => true) with val := fun
      | .m _ => m
      | .p n => if n = 0 then 0 else if n = 1 then p else q
      | .h _ => 1
      | .x _ _ => 1
      | .par _ => k * (Real.pi ^ 2 / 8) }

theorem pumpToy_line (y0 y1 : ℝ) :
    (pumpToyP y0 y1).char "flow_char" 1 = .ok y0 ∧ (pumpToyP y0 y1).char "flow_char" 2 = .ok y1 := by
  have hv : ({ x := [1, 2], y := [y0, y1], extrapolate := false } : CharLine ℝ).Valid :=
    ⟨rfl, by simp⟩
  have hc := fun v => C05_constant_outside _ hv (by simp) rfl v
  exact ⟨(hc 1).1 (by simp), (hc 2).2 (by simp)⟩

/-- The circuit is solved with flow `m ≥ 0.0001` if the line delivers the loss `k m²` and the head `q`. -/
theorem pumpToy_solved (k m q y0 y1 : ℝ) (hm : 1 / 10000 ≤ m)
    (hc : (pumpToyP y0 y1).char "flow_char" m = .ok (k * m ^ 2 + q)) :
    Spec.PumpCircuit rowToyF (pumpToyP y0 y1) pumpToyC (pumpToyS k m (k * m ^ 2 + q) q) := by
  have hm0 : 0 < m := by linarith
  refine ⟨rfl, rfl, ?_, ?_⟩
  · have hx : nCharExpr rowToyF (pumpToyP y0 y1) ⟨.v, false, 0, 0⟩ (pumpToyS k m (k * m ^ 2 + q) q) = .ok (m * 1) := rfl
    simp only [NEq.res]
    rw [hx, mul_one]
    simp only [nChar, hc, nMap, Except.ok.injEq]
    simp [pumpToyS, pumpToyP, rowToyC, EqState.pv]
  · simp only [NEq.res]
    rw [C59_zeta_meaning _ _ _ (by simp only [nStream, rowToyF]; norm_num)]
    refine .inr ⟨?_, ?_⟩
    · have : (nStream rowToyF (pumpToyS k m (k * m ^ 2 + q) q) (pumpToyC.inl 0)).m = m := rfl
      rw [this, abs_of_pos hm0]; exact hm
    · have e1 : (nStream rowToyF (pumpToyS k m (k * m ^ 2 + q) q) (pumpToyC.inl 0)).m = m := rfl
      rw [e1, abs_of_pos hm0]
      simp [nStream, rowToyF, pumpToyS, pumpToyC, EqState.pv]
      ring

/-- C117: with a rising characteristic (1 at the flow 1, 4 at the flow 2) two flows solve the same circuit. -/
theorem C117_rising_false :
    ∃ (F : NumProps) (P C : NComp) (s s' : EqState ℝ) (line : CharLine ℝ), P.char "flow_char" = line.evaluate
      ∧ line.Valid ∧ line.extrapolate = false ∧ Spec.PumpCircuit F P C s ∧ Spec.PumpCircuit F P C s'
      ∧ 0 < s.val (.par "zeta") ∧ s'.val (.par "zeta") = s.val (.par "zeta")
      ∧ (∀ c, Spec.volAt F s c = 1 ∧ Spec.volAt F s' c = 1)
      ∧ s'.pv (C.outl 0) = s.pv (C.outl 0) ∧ s'.pv (P.inl 0) = s.pv (P.inl 0)
      ∧ s.mv (P.inl 0) = 1 ∧ s'.mv (P.inl 0) = 2 := by
  refine ⟨rowToyF, pumpToyP 1 4, pumpToyC, _, _, _, rfl, ⟨rfl, by simp⟩, rfl,
    pumpToy_solved 1 1 0 1 4 (by norm_num) ?_, pumpToy_solved 1 2 0 1 4 (by norm_num) ?_, ?_, rfl,
    fun c => ⟨rfl, rfl⟩, rfl, rfl, rfl, rfl⟩
  · rw [(pumpToy_line 1 4).1]; norm_num
  · rw [(pumpToy_line 1 4).2]; norm_num
  · have := Real.pi_pos
    simp only [pumpToyS]
    positivity

/-- A falling characteristic (8 at the flow 1, 4 at the flow 2): the flow is 2 for the resistance 1, and 1 for the
resistance 8 or for the resistance 1 with the head 7. -/
example : ([8, 4] : List ℝ).Pairwise (· ≥ ·)
    ∧ Spec.PumpCircuit rowToyF (pumpToyP 8 4) pumpToyC (pumpToyS 1 2 (1 * 2 ^ 2 + 0) 0)
    ∧ Spec.PumpCircuit rowToyF (pumpToyP 8 4) pumpToyC (pumpToyS 8 1 (8 * 1 ^ 2 + 0) 0)
    ∧ Spec.PumpCircuit rowToyF (pumpToyP 8 4) pumpToyC (pumpToyS 1 1 (1 * 1 ^ 2 + 7) 7) := by
  refine ⟨by simp; norm_num, pumpToy_solved 1 2 0 8 4 (by norm_num) ?_, pumpToy_solved 8 1 0 8 4 (by norm_num) ?_,
    pumpToy_solved 1 1 7 8 4 (by norm_num) ?_⟩
  · rw [(pumpToy_line 8 4).2]; norm_num
  · rw [(pumpToy_line 8 4).1]; norm_num
  · rw [(pumpToy_line 8 4).1]; norm_num

/-- C117: flows below 0.0001 have no loss: a falling characteristic that delivers just the head is solved by several
of them. -/
theorem C117_small_flow_false :
    ∃ (F : NumProps) (P C : NComp) (s s' : EqState ℝ) (line : CharLine ℝ), P.char "flow_char" = line.evaluate
      ∧ line.Valid ∧ line.extrapolate = false ∧ line.y.Pairwise (· ≥ ·)
      ∧ Spec.PumpCircuit F P C s ∧ Spec.PumpCircuit F P C s'
      ∧ 0 < s.val (.par "zeta") ∧ s'.val (.par "zeta") = s.val (.par "zeta")
      ∧ (∀ c, Spec.volAt F s c = 1 ∧ Spec.volAt F s' c = 1)
      ∧ s'.pv (C.outl 0) = s.pv (C.outl 0) ∧ s'.pv (P.inl 0) = s.pv (P.inl 0)
      ∧ s.mv (P.inl 0) = 0 ∧ s'.mv (P.inl 0) = 1 / 20000 := by
  have hv : ({ x := [1, 2], y := [8, 4], extrapolate := false } : CharLine ℝ).Valid := ⟨rfl, by simp⟩
  have key : ∀ m : ℝ, |m| < 1 / 10000 → Spec.PumpCircuit rowToyF (pumpToyP 8 4) pumpToyC (pumpToyS 1 m 8 8) := by
    intro m hm
    have hc : (pumpToyP 8 4).char "flow_char" m = .ok 8 :=
      (C05_constant_outside _ hv (by simp) rfl m).1 (by
        have := (abs_lt.1 hm).2
        show m ≤ 1
        linarith)
    refine ⟨rfl, rfl, ?_, ?_⟩
    · have hx : nCharExpr rowToyF (pumpToyP 8 4) ⟨.v, false, 0, 0⟩ (pumpToyS 1 m 8 8) = .ok (m * 1) := rfl
      simp only [NEq.res]
      rw [hx, mul_one]
      simp only [nChar, hc, nMap, Except.ok.injEq]
      simp [pumpToyS, pumpToyP, rowToyC, EqState.pv]
    · simp only [NEq.res]
      rw [C59_zeta_meaning _ _ _ (by simp only [nStream, rowToyF]; norm_num)]
      exact .inl ⟨hm, by simp [nStream, pumpToyS, pumpToyC, EqState.pv]⟩
  refine ⟨rowToyF, pumpToyP 8 4, pumpToyC, _, _, _, rfl, hv, rfl, by simp; norm_num,
    key 0 (by norm_num), key (1 / 20000) (by rw [abs_of_pos] <;> norm_num), ?_, rfl,
    fun c => ⟨rfl, rfl⟩, rfl, rfl, rfl, rfl⟩
  have := Real.pi_pos
  simp only [pumpToyS]
  positivity

end Tespy
