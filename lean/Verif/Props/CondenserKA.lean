import Verif.Props.HexSpec

/-!
C88: the pressure of a condenser with given heat transfer coefficient.
-/
namespace Tespy

/-- A condenser without subcooling which heats the cold stream from `s.i2.T` to `s.o2.T` and transfers the heat `q`. -/
structure Spec.Condensing (s : HexState) (q : ℝ) : Prop where
  saturated : s.o1.T = s.Tsat
  heat : s.i1.m * (s.i1.h - s.o1.h) = q
  pos : 0 < q
  heated : s.i2.T < s.o2.T

theorem condKARes_value (f : TSet) (s : HexState) (q kA : ℝ) (h : Spec.Condensing s q)
    (hu : s.o2.T < s.Tsat ∨ f.i1 = false ∨ f.o2 = false) (hl : s.i2.T < s.Tsat ∨ f.o1 = false ∨ f.i2 = false) :
    condKARes f s kA = .ok (-q + kA * Spec.logMean (Spec.guarded (s.Tsat - s.o2.T) 0.5)
      (Spec.guarded (s.Tsat - s.i2.T) 1)) := by
  obtain ⟨td, h1, h2, -⟩ := C40_condenser_partial f s.Tsat s.i2.T s.o1.T s.o2.T hu (by rw [h.saturated]; exact hl)
  unfold condKARes
  rw [h1, h2, h.saturated, ← h.heat]
  simp only [Except.ok.injEq]
  ring

/-- The logarithmic mean with a difference of `d` between both ends. -/
theorem logMean_shift {a d : ℝ} (ha : 0 < a) (hd : 0 < d) :
    Spec.logMean a (a + d) = d / Real.log ((a + d) / a) := by
  unfold Spec.logMean
  rw [if_neg (by linarith), Real.log_div (by linarith) ha.ne']
  rw [show a - (a + d) = -d by ring, show Real.log a - Real.log (a + d) = -(Real.log (a + d) - Real.log a) by ring,
    neg_div_neg_eq]

/-- C88 for condensers: among states above the outlet temperature of the cooling water the equation of `kA` has exactly one
solution for given heat and cooling water, and this is its saturation temperature. -/
theorem C88_condenser_partial (f : TSet) (s : HexState) (q kA : ℝ) (h : Spec.Condensing s q) (hk : 0 < kA)
    (hf : s.o2.T < s.Tsat) :
    condKARes f s kA = .ok 0 ↔
      s.Tsat = s.o2.T + (s.o2.T - s.i2.T) / (Real.exp (kA * (s.o2.T - s.i2.T) / q) - 1) := by
  have hq := h.pos
  have hd : 0 < s.o2.T - s.i2.T := sub_pos.2 h.heated
  have ha : 0 < s.Tsat - s.o2.T := sub_pos.2 hf
  have hb : 0 < s.Tsat - s.i2.T := by linarith
  rw [condKARes_value f s q kA h (.inl hf) (.inl (by linarith))]
  simp only [Spec.guarded, if_pos ha, if_pos hb]
  obtain ⟨a, hae⟩ : ∃ a, a = s.Tsat - s.o2.T := ⟨_, rfl⟩
  obtain ⟨d, hde⟩ : ∃ d, d = s.o2.T - s.i2.T := ⟨_, rfl⟩
  have hbe : s.Tsat - s.i2.T = a + d := by rw [hae, hde]; ring
  have hT : ∀ x, s.Tsat = s.o2.T + x ↔ a = x := fun x => by
    rw [hae]; constructor <;> intro hx <;> linarith
  rw [hT, hbe, ← hae, ← hde]
  rw [← hae] at ha
  rw [← hde] at hd
  rw [logMean_shift ha hd, Except.ok.injEq]
  have hr : 1 < (a + d) / a := by rw [lt_div_iff₀ ha]; linarith
  have hlog : 0 < Real.log ((a + d) / a) := Real.log_pos hr
  have hE : 1 < Real.exp (kA * d / q) := Real.one_lt_exp_iff.2 (by positivity)
  have hE1 : 0 < Real.exp (kA * d / q) - 1 := by linarith
  constructor
  · intro h0
    have hl : Real.log ((a + d) / a) = kA * d / q := by
      have h1 : kA * (d / Real.log ((a + d) / a)) = q := by linarith
      rw [← h1]; field_simp
    rw [← hl, Real.exp_log (by linarith), show (a + d) / a - 1 = d / a by field_simp; ring]
    field_simp
  · intro h0
    have hl : (a + d) / a = Real.exp (kA * d / q) := by
      have : a * (Real.exp (kA * d / q) - 1) = d := by rw [h0]; exact div_mul_cancel₀ _ hE1.ne'
      rw [div_eq_iff ha.ne']
      linear_combination -this
    rw [hl, Real.log_exp]
    field_simp
    ring

/-- C88 for condensers: a larger heat transfer coefficient condenses at a lower temperature. -/
theorem C88_condenser_better (f f' : TSet) (s s' : HexState) (q kA kA' : ℝ) (h : Spec.Condensing s q) (h' : Spec.Condensing s' q)
    (hi : s'.i2.T = s.i2.T) (ho : s'.o2.T = s.o2.T) (hk : 0 < kA) (hlt : kA < kA')
    (hf : s.o2.T < s.Tsat) (hf' : s'.o2.T < s'.Tsat)
    (hs : condKARes f s kA = .ok 0) (hs' : condKARes f' s' kA' = .ok 0) : s'.Tsat < s.Tsat := by
  rw [C88_condenser_partial f s q kA h hk hf] at hs
  rw [C88_condenser_partial f' s' q kA' h' (lt_trans hk hlt) hf', hi, ho] at hs'
  have hq := h.pos
  have hd : 0 < s.o2.T - s.i2.T := sub_pos.2 h.heated
  have hE : 0 < Real.exp (kA * (s.o2.T - s.i2.T) / q) - 1 := by
    have : 1 < Real.exp (kA * (s.o2.T - s.i2.T) / q) := Real.one_lt_exp_iff.2 (by positivity)
    linarith
  have hEE : Real.exp (kA * (s.o2.T - s.i2.T) / q) < Real.exp (kA' * (s.o2.T - s.i2.T) / q) := by
    rw [Real.exp_lt_exp]
    exact div_lt_div_of_pos_right (mul_lt_mul_of_pos_right hlt hd) hq
  have := div_lt_div_of_pos_left hd hE (show _ - 1 < Real.exp (kA' * (s.o2.T - s.i2.T) / q) - 1 by linarith)
  linarith

/-- A condenser in cooling water from 300 to 310 K. -/
noncomputable def exCondensing (Ts q : ℝ) : HexState :=
  ⟨⟨1, 1, q, 400, 1⟩, ⟨1, 1, 0, 300, 1⟩, ⟨1, 1, 0, Ts, 1⟩, ⟨1, 1, q, 310, 1⟩, none, none, Ts⟩

theorem exCondensing_ok (Ts q : ℝ) (hq : 0 < q) : Spec.Condensing (exCondensing Ts q) q :=
  ⟨rfl, by simp [exCondensing], hq, by norm_num [exCondensing]⟩

/-- C88 is false for condensers: if the saturation temperature is not specified, a temperature of 305 K, below that of the
water at the outlet, satisfies the equation as well, with the difference of 0.5 K it is replaced by. -/
theorem C88_condenser_false :
    ∃ (f : TSet) (s s' : HexState) (q kA : ℝ), Spec.Condensing s q ∧ Spec.Condensing s' q ∧ 0 < kA ∧
      s'.i2 = s.i2 ∧ s'.o2 = s.o2 ∧ s'.i1 = s.i1 ∧ condKARes f s kA = .ok 0 ∧ condKARes f s' kA = .ok 0 ∧
      s.o2.T < s.Tsat ∧ s'.Tsat < s'.o2.T := by
  have hq : 0 < Spec.logMean 0.5 5 := Spec.logMean_pos (by norm_num) (by norm_num)
  set q := Spec.logMean 0.5 5 with hqd
  have hE : 1 < Real.exp (1 * 10 / q) := Real.one_lt_exp_iff.2 (by positivity)
  set Ts := 310 + 10 / (Real.exp (1 * 10 / q) - 1) with hTs
  have hlt : 310 < Ts := by
    have : 0 < 10 / (Real.exp (1 * 10 / q) - 1) := div_pos (by norm_num) (by linarith)
    linarith
  refine ⟨⟨false, false, false, false⟩, exCondensing Ts q, exCondensing 305 q, q, 1, exCondensing_ok _ _ hq,
    exCondensing_ok _ _ hq, one_pos, rfl, rfl, rfl, ?_, ?_, hlt, by norm_num [exCondensing]⟩
  · rw [C88_condenser_partial _ _ q 1 (exCondensing_ok _ _ hq) one_pos hlt]
    show Ts = 310 + (310 - 300) / (Real.exp (1 * (310 - 300) / q) - 1)
    rw [hTs, show (310 - 300 : ℝ) = 10 by norm_num]
  · rw [condKARes_value _ _ q 1 (exCondensing_ok _ _ hq) (.inr (.inl rfl)) (.inr (.inl rfl))]
    have e1 : Spec.guarded ((exCondensing 305 q).Tsat - (exCondensing 305 q).o2.T) 0.5 = 0.5 := by
      norm_num [Spec.guarded, exCondensing]
    have e2 : Spec.guarded ((exCondensing 305 q).Tsat - (exCondensing 305 q).i2.T) 1 = 5 := by
      norm_num [Spec.guarded, exCondensing]
    rw [e1, e2, ← hqd, Except.ok.injEq]
    ring

end Tespy
