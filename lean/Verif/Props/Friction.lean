import Verif.Lemmas.Friction
import Verif.Props.Reported
import Mathlib.Analysis.Complex.ExponentialBounds
import Mathlib.Topology.Order.IntermediateValue
import Mathlib.Tactic.NormNum.Pow

/-!
C80: the Darcy friction factor of pipes.
-/
namespace Tespy
open Real

/-! ### Independent specification -/

/-- The law of Prandtl and v. Kármán for smooth pipes. -/
def Spec.SmoothLaw (re f : ℝ) : Prop := 1 / √f = 2 * logb 10 (re * √f) - 8 / 10

/-- The law of Colebrook and White. -/
def Spec.ColebrookLaw (re ks d f : ℝ) : Prop :=
  1 / √f = -2 * logb 10 (251 / 100 / (re * √f) + ks / (371 / 100 * d))

/-! ### Values of the functions -/

theorem colebrook_ok {re ks d x : ℝ} (hre : 0 < re) (hks : 0 ≤ ks) (hd : 0 < d) (hx : 0 < x) :
    colebrook re ks d x = .ok (cbFun (251 / 100 / re) (ks / (371 / 100 * d)) x) := by
  have hs := Real.sqrt_pos.2 hx
  have hA : 0 < 251 / 100 / (re * √x) + ks / (371 / 100 * d) := by positivity
  have hrs : re * √x ≠ 0 := by positivity
  have hdd : 371 / 100 * d ≠ 0 := by positivity
  unfold colebrook pyLog10
  simp only [if_neg (not_lt.2 hx.le), rdiv_of_ne hrs, rdiv_of_ne hdd, rdiv_of_ne hs.ne', if_pos hA]
  unfold cbFun cbArg
  rw [div_div (251 / 100) re]

theorem colebrook_law {re ks d x : ℝ} :
    Spec.ColebrookLaw re ks d x ↔ cbFun (251 / 100 / re) (ks / (371 / 100 * d)) x = 0 := by
  unfold Spec.ColebrookLaw cbFun cbArg
  rw [div_div (251 / 100)]
  constructor <;> intro h <;> linarith

theorem colebrook_diff {re ks d x : ℝ} (hre : 0 < re) (hks : 0 ≤ ks) (hd : 0 < d)
    (hx : 1 / 1000 < x) :
    centralDifference (colebrook re ks d) (1 / 1000) x
      = .ok ((cbFun (251 / 100 / re) (ks / (371 / 100 * d)) (x + 1 / 1000)
          - cbFun (251 / 100 / re) (ks / (371 / 100 * d)) (x - 1 / 1000)) / (2 * (1 / 1000))) := by
  have h0 : (0 : ℝ) < 1 / 1000 := by norm_num
  unfold centralDifference
  rw [colebrook_ok hre hks hd (by linarith), colebrook_ok hre hks hd (by linarith)]
  have : (2 * (1 / 1000) : ℝ) ≠ 0 := by norm_num
  simp only [bind, Except.bind, if_neg this]

theorem cbSlope_pos {a b x : ℝ} (ha : 0 < a) (hb : 0 ≤ b) (hx : 0 < x) : 0 < cbSlope a b x := by
  have := log_ten_pos
  have := Real.sqrt_pos.2 hx
  unfold cbSlope
  positivity

/-- Slope of the function of Colebrook up to 0.2. -/
theorem cbFun_gap {a b x y : ℝ} (ha : 0 < a) (hb : 0 ≤ b) (hx : 0 < x) (h : x ≤ y)
    (hy : y ≤ 2 / 10) : 5 * (y - x) ≤ cbFun a b x - cbFun a b y := by
  have h3 : logb 10 (cbArg a b y) ≤ logb 10 (cbArg a b x) := by
    have hp := Real.sqrt_pos.2 hx
    have h1 : a / √y ≤ a / √x := div_le_div_of_nonneg_left ha.le hp (Real.sqrt_le_sqrt h)
    exact Real.logb_le_logb_of_le (by norm_num) (cbArg_pos ha hb (hx.trans_le h))
      (by unfold cbArg; linarith)
  have hp : 0 < √x := Real.sqrt_pos.2 hx
  have hq : 0 < √y := Real.sqrt_pos.2 (hx.trans_le h)
  have hpq := Real.sqrt_le_sqrt h
  have ex := Real.sq_sqrt hx.le
  have ey := Real.sq_sqrt (hx.le.trans h)
  have hq1 : √y ≤ 45 / 100 := Real.sqrt_le_iff.2 ⟨by norm_num, by norm_num; linarith⟩
  have key : 5 * (y - x) ≤ 1 / √x - 1 / √y := by
    have e : 1 / √x - 1 / √y = (√y - √x) / (√x * √y) := by field_simp
    rw [e, le_div_iff₀ (by positivity)]
    have e2 : y - x = (√y - √x) * (√y + √x) := by nlinarith
    rw [e2]
    have h4 : √x * √y ≤ 2 / 10 := by nlinarith
    have h5 : (√y + √x) * (√x * √y) ≤ 9 / 10 * (2 / 10) := by
      apply mul_le_mul (by linarith) h4 (by positivity) (by norm_num)
    nlinarith [sub_nonneg.2 hpq]
  unfold cbFun
  linarith

theorem sqrt_start : √(2 / 1000 : ℝ) ≤ 448 / 10000 :=
  Real.sqrt_le_iff.2 ⟨by norm_num, by norm_num⟩

/-- Up to a Reynolds number of `10^12` the start value is left of the solution. -/
theorem cbFun_start {re b : ℝ} (hre : 0 < re) (hre' : re ≤ 10 ^ 12) (hb : 0 ≤ b) :
    0 ≤ cbFun (251 / 100 / re) b (2 / 1000) := by
  have hs : 0 < √(2 / 1000 : ℝ) := Real.sqrt_pos.2 (by norm_num)
  have h1 : (10 : ℝ) ^ (-11 : ℝ) ≤ cbArg (251 / 100 / re) b (2 / 1000) := by
    have e : (10 : ℝ) ^ (-11 : ℝ) = 1 / 10 ^ 11 := by
      rw [show (-11 : ℝ) = ((-11 : ℤ) : ℝ) by norm_num, Real.rpow_intCast]
      norm_num
    rw [e]
    unfold cbArg
    have : 1 / 10 ^ 11 ≤ 251 / 100 / re / √(2 / 1000 : ℝ) := by
      rw [div_div, div_le_div_iff₀ (by positivity) (by positivity)]
      have : re * √(2 / 1000 : ℝ) ≤ 10 ^ 12 * (448 / 10000) := by
        apply mul_le_mul hre' sqrt_start hs.le (by positivity)
      norm_num at this ⊢
      linarith
    linarith
  have h2 : -11 ≤ logb 10 (cbArg (251 / 100 / re) b (2 / 1000)) := by
    rw [Real.le_logb_iff_rpow_le (by norm_num) (cbArg_pos (by positivity) hb (by norm_num))]
    exact h1
  have h3 : 22 ≤ 1 / √(2 / 1000 : ℝ) := by
    rw [le_div_iff₀ hs]
    linarith [sqrt_start]
  unfold cbFun
  linarith

/-- The iteration in the rough regime. -/
theorem colebrook_run {re ks d : ℝ} (hre : 0 < re) (hre' : re ≤ 10 ^ 12) (hks : 0 ≤ ks)
    (hd : 0 < d) :
    ∃ out, newton (colebrookArgs re ks d) 13 = some (.ok out) ∧
      2 / 1000 ≤ out.x ∧ out.x ≤ 2 / 10 ∧
      0 ≤ cbFun (251 / 100 / re) (ks / (371 / 100 * d)) out.x ∧
      2 / 1000 ≤ out.xLast ∧ out.xLast ≤ out.x ∧
      out.residual = -cbFun (251 / 100 / re) (ks / (371 / 100 * d)) out.xLast := by
  have ha : 0 < 251 / 100 / re := by positivity
  have hb : 0 ≤ ks / (371 / 100 * d) := by positivity
  obtain ⟨o, ho⟩ : ∃ o, newton (colebrookArgs re ks d) 13 = some o := by
    obtain ⟨o, ho⟩ := C08_newton_terminates (colebrookArgs re ks d)
    exact ⟨o, ho.1 13 le_rfl⟩
  have := newtonLoop_left (colebrookArgs re ks d) (cbFun (251 / 100 / re) (ks / (371 / 100 * d)))
    (fun x => (cbFun (251 / 100 / re) (ks / (371 / 100 * d)) (x + 1 / 1000)
          - cbFun (251 / 100 / re) (ks / (371 / 100 * d)) (x - 1 / 1000)) / (2 * (1 / 1000)))
    (2 / 1000) rfl (by norm_num [colebrookArgs]) (by norm_num [colebrookArgs])
    (fun x h1 h2 => colebrook_ok hre hks hd (by linarith))
    (fun x h1 h2 => by
      refine ⟨colebrook_diff hre hks hd (by linarith), ?_⟩
      apply div_neg_of_neg_of_pos _ (by norm_num)
      have := cbFun_strictAnti ha hb (x := x - 1 / 1000) (y := x + 1 / 1000) (by linarith)
        (by linarith)
      linarith)
    (fun x y h1 h2 => cbFun_anti ha hb (by linarith) h2)
    (fun x s h1 h2 h3 h4 h5 => by
      have k1 := cbFun_tangent ha hb (x := x) (y := x + s) (by linarith) (by linarith)
      have k2 := cbFun_difference ha hb (x := x) (δ := 1 / 1000) (by norm_num) (by linarith)
      have k3 : cbSlope (251 / 100 / re) (ks / (371 / 100 * d)) x * s
          ≤ cbFun (251 / 100 / re) (ks / (371 / 100 * d)) x := by
        refine le_trans ?_ h5
        rw [mul_comm]
        refine mul_le_mul_of_nonneg_left (k2.trans (le_of_eq ?_)) h4
        ring
      have e : x + s - x = s := by ring
      rw [e] at k1
      linarith)
    13 (2 / 1000) 0 10 1 le_rfl (by norm_num [colebrookArgs]) (cbFun_start hre hre' hb)
    zero_le_one le_rfl
  rcases this with h | ⟨out, h, h'⟩
  · unfold newton at ho
    rw [show (colebrookArgs re ks d).val0 = 2 / 1000 from rfl,
      show (colebrookArgs re ks d).maxIter = 10 from rfl, h] at ho
    cases ho
  · exact ⟨out, h, h'⟩

/-! ### The function of Prandtl and v. Kármán -/

noncomputable def pkFun (re x : ℝ) : ℝ := 2 * logb 10 (re * √x) - 8 / 10 - 1 / √x

theorem prandtlKarman_ok {re x : ℝ} (hre : 0 < re) (hx : 0 < x) :
    prandtlKarman re x = .ok (pkFun re x) := by
  have hs := Real.sqrt_pos.2 hx
  have : 0 < re * √x := by positivity
  unfold prandtlKarman pyLog10
  simp only [if_neg (not_lt.2 hx.le), if_pos this, if_neg hx.ne']
  rfl

theorem prandtlKarmanDeriv_ok {x : ℝ} (hx : 0 < x) :
    ∃ d, prandtlKarmanDeriv x = .ok d ∧ 0 < d ∧ (x ≤ 2 / 10 → 2 ≤ d) := by
  have := log_ten_pos
  refine ⟨1 / (x * log 10) + 1 / 2 * x ^ (-(3 / 2) : ℝ), ?_, ?_, ?_⟩
  · unfold prandtlKarmanDeriv
    rw [if_neg hx.ne']
  · positivity
  · intro h
    have h1 : log 10 ≤ 25 / 10 := by
      rw [Real.log_le_iff_le_exp (by norm_num)]
      have h2 : (2.7 : ℝ) ≤ Real.exp 1 := by have := Real.exp_one_gt_d9; linarith
      have h3 : (1.5 : ℝ) ≤ Real.exp (1 / 2) := by have := Real.add_one_le_exp (1 / 2 : ℝ); linarith
      have e : Real.exp (25 / 10) = Real.exp 1 * Real.exp 1 * Real.exp (1 / 2) := by
        rw [← Real.exp_add, ← Real.exp_add]; norm_num
      rw [e]
      have : (2.7 : ℝ) * 2.7 * 1.5 ≤ Real.exp 1 * Real.exp 1 * Real.exp (1 / 2) := by gcongr
      norm_num at this ⊢
      linarith
    have h2 : 2 ≤ 1 / (x * log 10) := by
      rw [le_div_iff₀ (by positivity)]
      nlinarith
    have : 0 ≤ 1 / 2 * x ^ (-(3 / 2) : ℝ) := by positivity
    linarith

theorem pkFun_gap {re x y : ℝ} (hre : 0 < re) (hx : 0 < x) (h : x ≤ y) (hy : y ≤ 2 / 10) :
    5 * (y - x) ≤ pkFun re y - pkFun re x := by
  have hp : 0 < √x := Real.sqrt_pos.2 hx
  have hq : 0 < √y := Real.sqrt_pos.2 (hx.trans_le h)
  have hpq := Real.sqrt_le_sqrt h
  have h3 : logb 10 (re * √x) ≤ logb 10 (re * √y) :=
    Real.logb_le_logb_of_le (by norm_num) (by positivity) (by gcongr)
  have ex := Real.sq_sqrt hx.le
  have ey := Real.sq_sqrt (hx.le.trans h)
  have hq1 : √y ≤ 45 / 100 := Real.sqrt_le_iff.2 ⟨by norm_num, by norm_num; linarith⟩
  have key : 5 * (y - x) ≤ 1 / √x - 1 / √y := by
    have e : 1 / √x - 1 / √y = (√y - √x) / (√x * √y) := by field_simp
    rw [e, le_div_iff₀ (by positivity)]
    have e2 : y - x = (√y - √x) * (√y + √x) := by nlinarith
    rw [e2]
    have h4 : √x * √y ≤ 2 / 10 := by nlinarith
    have h5 : (√y + √x) * (√x * √y) ≤ 9 / 10 * (2 / 10) := by
      apply mul_le_mul (by linarith) h4 (by positivity) (by norm_num)
    nlinarith [sub_nonneg.2 hpq]
  unfold pkFun
  linarith

theorem pkFun_strictMono {re x y : ℝ} (hre : 0 < re) (hx : 0 < x) (h : x < y) :
    pkFun re x < pkFun re y := by
  have hp : 0 < √x := Real.sqrt_pos.2 hx
  have hpq := Real.sqrt_lt_sqrt hx.le h
  have h3 : logb 10 (re * √x) ≤ logb 10 (re * √y) :=
    Real.logb_le_logb_of_le (by norm_num) (by positivity) (by gcongr)
  have h2 : 1 / √y < 1 / √x := div_lt_div_of_pos_left one_pos hp hpq
  unfold pkFun
  linarith

theorem smooth_law {re x : ℝ} : Spec.SmoothLaw re x ↔ pkFun re x = 0 := by
  unfold Spec.SmoothLaw pkFun
  constructor <;> intro h <;> linarith

theorem newtonLoop_safe (a : NewtonArgs ℝ) (hb : a.valmin ≤ a.valmax)
    (hf : ∀ x, a.valmin ≤ x → x ≤ a.valmax → ∃ y, a.f x = .ok y)
    (hd : ∀ x, a.valmin ≤ x → x ≤ a.valmax → ∃ d, a.df x = .ok d ∧ d ≠ 0) :
    ∀ (n : ℕ) (x : ℝ) (it mx : ℤ) (r : ℝ), a.valmin ≤ x → x ≤ a.valmax →
      newtonLoop a n x it mx r = none ∨ ∃ out, newtonLoop a n x it mx r = some (.ok out) ∧
        a.valmin ≤ out.xLast ∧ out.xLast ≤ a.valmax := by
  intro n
  induction n with
  | zero => intros; left; rfl
  | succ n ih =>
    intro x it mx r h1 h2
    obtain ⟨y, hy⟩ := hf x h1 h2
    obtain ⟨d, hd1, hd2⟩ := hd x h1 h2
    obtain ⟨c1, c2⟩ := clamp_mem a.valmin a.valmax (x + (a.target - y) / d * r) hb
    unfold newtonLoop
    simp only [hy, hd1, if_neg hd2]
    split
    · exact Or.inr ⟨_, rfl, h1, h2⟩
    · split
      · exact ih _ _ _ _ c1 c2
      · exact Or.inr ⟨_, rfl, h1, h2⟩

theorem prandtl_run {re : ℝ} (hre : 0 < re) :
    ∃ out, newton (prandtlArgs re) 13 = some (.ok out) ∧
      1 / 100000 ≤ out.xLast ∧ out.xLast ≤ 2 / 10 := by
  obtain ⟨o, ho⟩ : ∃ o, newton (prandtlArgs re) 13 = some o := by
    obtain ⟨o, ho⟩ := C08_newton_terminates (prandtlArgs re)
    exact ⟨o, ho.1 13 le_rfl⟩
  have hv : (prandtlArgs re).valmin = 1 / 100000 := rfl
  have := newtonLoop_safe (prandtlArgs re) (by norm_num [prandtlArgs])
    (fun x h1 h2 => ⟨_, prandtlKarman_ok hre (by rw [hv] at h1; linarith)⟩)
    (fun x h1 h2 => by
      obtain ⟨d, k1, k2, _⟩ := prandtlKarmanDeriv_ok (x := x) (by rw [hv] at h1; linarith)
      exact ⟨d, k1, k2.ne'⟩) 13 (2 / 100) 0 10 1 (by norm_num [prandtlArgs])
    (by norm_num [prandtlArgs])
  rcases this with h | ⟨out, h, h'⟩
  · unfold newton at ho
    rw [show (prandtlArgs re).val0 = 2 / 100 from rfl,
      show (prandtlArgs re).maxIter = 10 from rfl, h] at ho
    cases ho
  · exact ⟨out, h, h'⟩

/-! ### The property -/

theorem newtonReturn_ok {a : NewtonArgs ℝ} {out : NewtonOut ℝ} (h : newton a 13 = some (.ok out)) :
    newtonReturn a = .ok out.x := by
  unfold newtonReturn; rw [h]

/-- C80: for every Reynolds number up to `10^12`, every roughness and every diameter the friction
factor is computed without exception and positive; in turbulent flow it does not exceed 0.2. -/
theorem C80_positive (re ks d : ℝ) (hre : 0 < re) (hre' : re ≤ 10 ^ 12) (hks : 0 ≤ ks)
    (hd : 0 < d) :
    ∃ f, darcyFriction re ks d = .ok f ∧ 0 < f ∧ (2320 < re → f ≤ 2 / 10) := by
  unfold darcyFriction
  split
  · next h => exact ⟨_, rdiv_of_ne hre.ne', by positivity, fun h' => absurd h' (not_lt.2 h)⟩
  · next h =>
    push Not at h
    rw [rdiv_of_ne hd.ne']
    dsimp only
    split
    · split
      · refine ⟨_, rfl, ?_, fun _ => ?_⟩
        · unfold blasius; positivity
        · unfold blasius
          have : re ^ (-(1 / 4) : ℝ) ≤ (1 : ℝ) ^ (-(1 / 4) : ℝ) → re ^ (-(1 / 4) : ℝ) ≤ 1 := by simp
          have h1 : re ^ (-(1 / 4) : ℝ) ≤ (16 : ℝ) ^ (-(1 / 4) : ℝ) :=
            Real.rpow_le_rpow_of_nonpos (by norm_num) (by linarith) (by norm_num)
          have h2 : (16 : ℝ) ^ (-(1 / 4) : ℝ) = 1 / 2 := by
            rw [show (16 : ℝ) = 2 ^ (4 : ℝ) by norm_num, ← Real.rpow_mul (by norm_num)]
            rw [show (4 : ℝ) * -(1 / 4) = ((-1 : ℤ) : ℝ) by norm_num, Real.rpow_intCast]
            norm_num
          rw [h2] at h1
          linarith
      · next h4 =>
        push Not at h4
        have hlog : 4 ≤ logb 10 re := by
          rw [Real.le_logb_iff_rpow_le (by norm_num) hre]
          norm_num at h4 ⊢
          linarith
        split
        · refine ⟨_, rfl, ?_, fun _ => ?_⟩
          · unfold hanakov
            have : 0 < 18 / 10 * logb 10 re - 15 / 10 := by linarith
            positivity
          · unfold hanakov
            have h5 : (5 : ℝ) ≤ 18 / 10 * logb 10 re - 15 / 10 := by linarith
            rw [zpow_neg, ← one_div, div_le_iff₀ (by positivity)]
            have : ((18 / 10 * logb 10 re - 15 / 10) ^ (2 : ℤ) : ℝ)
                = (18 / 10 * logb 10 re - 15 / 10) ^ 2 := by norm_cast
            rw [this]
            nlinarith
        · obtain ⟨out, h1, -⟩ := prandtl_run hre
          obtain ⟨h2, h3⟩ := C08_newton_in_range (prandtlArgs re) (by norm_num [prandtlArgs]) 13 out h1
          refine ⟨_, newtonReturn_ok h1, lt_of_lt_of_le ?_ h2, fun _ => h3⟩
          norm_num [prandtlArgs]
    · obtain ⟨out, h1, h2, h3, -⟩ := colebrook_run hre hre' hks hd
      exact ⟨_, newtonReturn_ok h1, by linarith, fun _ => h3⟩

example : ∃ f, darcyFriction (10 ^ 5) (1 / 1000) (1 / 10) = .ok f ∧ 0 < f ∧
    ((2320 : ℝ) < 10 ^ 5 → f ≤ 2 / 10) :=
  C80_positive _ _ _ (by norm_num) (by norm_num) (by norm_num) (by norm_num)

/-- C80, explicit regimes: laminar flow, Blasius and Hanakov. -/
theorem C80_explicit (re ks d : ℝ) (hre : 0 < re) (hd : 0 < d) (h : re ≤ 2320 ∨ re * ks / d < 65)
    (h6 : re < 10 ^ 6) :
    ∃ f, darcyFriction re ks d = .ok f ∧ 0 < f ∧
      (re ≤ 2320 → f * re = 64) ∧
      (2320 < re → re ≤ 10 ^ 4 → f ^ 4 * re = (3164 / 10000) ^ 4) ∧
      (10 ^ 4 < re → 1 / √f = 18 / 10 * logb 10 re - 15 / 10) := by
  unfold darcyFriction
  split
  · next hl =>
    refine ⟨_, rdiv_of_ne hre.ne', by positivity, fun _ => by field_simp, fun h' => absurd h' (not_lt.2 hl),
      fun h' => ?_⟩
    norm_num at h'
    linarith
  · next hl =>
    have hq := h.resolve_left hl
    push Not at hl
    rw [rdiv_of_ne hd.ne']
    dsimp only
    rw [if_pos hq]
    split
    · next h4 =>
      refine ⟨_, rfl, by unfold blasius; positivity, fun h' => absurd h' (not_le.2 hl), fun _ _ => ?_,
        fun h' => absurd h' (not_lt.2 h4)⟩
      unfold blasius
      rw [mul_pow, ← Real.rpow_natCast (re ^ _), ← Real.rpow_mul hre.le, mul_assoc]
      rw [show (-(1 / 4) : ℝ) * ((4 : ℕ) : ℝ) = -1 by norm_num, Real.rpow_neg_one,
        inv_mul_cancel₀ hre.ne', mul_one]
    · next h4 =>
      push Not at h4
      have hlog : 4 ≤ logb 10 re := by
        rw [Real.le_logb_iff_rpow_le (by norm_num) hre]
        norm_num at h4 ⊢
        linarith
      have hB : 0 < 18 / 10 * logb 10 re - 15 / 10 := by linarith
      refine ⟨_, rfl, by unfold hanakov; positivity, fun h' => absurd h' (not_le.2 hl),
        fun _ h' => absurd h' (not_le.2 h4), fun _ => ?_⟩
      unfold hanakov
      rw [zpow_neg, show ((18 / 10 * logb 10 re - 15 / 10) ^ (2 : ℤ) : ℝ)
        = (18 / 10 * logb 10 re - 15 / 10) ^ 2 by norm_cast, Real.sqrt_inv, Real.sqrt_sq hB.le]
      simp

/-- Existence of the solution of the law of Prandtl and v. Kármán. -/
theorem smooth_root {re : ℝ} (h6 : 10 ^ 6 ≤ re) (h12 : re ≤ 10 ^ 12) :
    ∃ r, 1 / 100000 ≤ r ∧ r ≤ 2 / 10 ∧ Spec.SmoothLaw re r := by
  have hre : 0 < re := lt_of_lt_of_le (by positivity) h6
  have hcont : ContinuousOn (pkFun re) (Set.Icc (1 / 100000) (2 / 10)) := by
    unfold pkFun Real.logb
    have hs : ContinuousOn (fun x : ℝ => √x) (Set.Icc (1 / 100000) (2 / 10)) :=
      Real.continuous_sqrt.continuousOn
    have hpos : ∀ x ∈ Set.Icc (1 / 100000 : ℝ) (2 / 10), 0 < √x := fun x hx =>
      Real.sqrt_pos.2 (lt_of_lt_of_le (by norm_num) hx.1)
    apply ContinuousOn.sub
    · apply ContinuousOn.sub _ continuousOn_const
      apply ContinuousOn.mul continuousOn_const
      apply ContinuousOn.div_const
      apply ContinuousOn.log (continuousOn_const.mul hs)
      intro x hx
      exact (mul_pos hre (hpos x hx)).ne'
    · exact continuousOn_const.div hs (fun x hx => (hpos x hx).ne')
  have hlo : pkFun re (1 / 100000) ≤ 0 := by
    unfold pkFun
    have hs : √(1 / 100000 : ℝ) ≤ 1 / 100 := Real.sqrt_le_iff.2 ⟨by norm_num, by norm_num⟩
    have hs0 : 0 < √(1 / 100000 : ℝ) := Real.sqrt_pos.2 (by norm_num)
    have h1 : logb 10 (re * √(1 / 100000)) ≤ 12 := by
      rw [Real.logb_le_iff_le_rpow (by norm_num) (by positivity)]
      have : re * √(1 / 100000) ≤ 10 ^ 12 * 1 := by
        apply mul_le_mul h12 (by linarith) hs0.le (by positivity)
      norm_num at this ⊢
      linarith
    have h2 : 100 ≤ 1 / √(1 / 100000 : ℝ) := by
      rw [le_div_iff₀ hs0]; linarith
    linarith
  have hhi : 0 ≤ pkFun re (2 / 10) := by
    unfold pkFun
    have hs : 4 / 10 ≤ √(2 / 10 : ℝ) := Real.le_sqrt_of_sq_le (by norm_num)
    have hs0 : 0 < √(2 / 10 : ℝ) := Real.sqrt_pos.2 (by norm_num)
    have h1 : 5 ≤ logb 10 (re * √(2 / 10)) := by
      rw [Real.le_logb_iff_rpow_le (by norm_num) (by positivity)]
      have : 10 ^ 6 * (4 / 10) ≤ re * √(2 / 10) := by
        apply mul_le_mul h6 hs (by norm_num) hre.le
      norm_num at this ⊢
      linarith
    have h2 : 1 / √(2 / 10 : ℝ) ≤ 25 / 10 := by
      rw [div_le_iff₀ hs0]; linarith
    linarith
  obtain ⟨r, hr, h0⟩ := intermediate_value_Icc (by norm_num : (1 / 100000 : ℝ) ≤ 2 / 10) hcont ⟨hlo, hhi⟩
  exact ⟨r, hr.1, hr.2, smooth_law.2 h0⟩

/-- C80, smooth pipe at high Reynolds numbers: the law of Prandtl and v. Kármán has exactly one
solution, the returned value is that of the Newton run, and it equals the solution up to `10^-12`
if the run meets its tolerance. Missing: that the run meets the tolerance (the iteration is
stopped after 13 steps, damped from the fifth on); `C80_smooth` bounds the error without it. -/
theorem C80_smooth_partial (re ks d : ℝ) (h6 : 10 ^ 6 ≤ re) (h12 : re ≤ 10 ^ 12) (hd : 0 < d)
    (h : re * ks / d < 65) :
    ∃ r, Spec.SmoothLaw re r ∧ (∀ r', 0 < r' → Spec.SmoothLaw re r' → r' = r) ∧
      ∃ out, newton (prandtlArgs re) 13 = some (.ok out) ∧ darcyFriction re ks d = .ok out.x ∧
        1 / 100000 ≤ out.x ∧ out.x ≤ 2 / 10 ∧ (out.limit = false → |out.x - r| ≤ 1 / 10 ^ 12) := by
  have hre : 0 < re := lt_of_lt_of_le (by positivity) h6
  obtain ⟨r, hr1, hr2, hr⟩ := smooth_root h6 h12
  obtain ⟨out, ho, hl1, hl2⟩ := prandtl_run hre
  obtain ⟨h2, h3⟩ := C08_newton_in_range (prandtlArgs re) (by norm_num [prandtlArgs]) 13 out ho
  have hr0 : 0 < r := lt_of_lt_of_le (by norm_num) hr1
  have hl0 : 0 < out.xLast := lt_of_lt_of_le (by norm_num) hl1
  refine ⟨r, hr, ?_, out, ho, ?_, h2, h3, ?_⟩
  · intro r' h0 hr'
    rcases lt_trichotomy r' r with hlt | heq | hgt
    · have := pkFun_strictMono hre h0 hlt
      rw [smooth_law.1 hr, smooth_law.1 hr'] at this
      exact absurd this (lt_irrefl _)
    · exact heq
    · have := pkFun_strictMono hre hr0 hgt
      rw [smooth_law.1 hr, smooth_law.1 hr'] at this
      exact absurd this (lt_irrefl _)
  · unfold darcyFriction
    rw [if_neg (by norm_num at h6 ⊢; linarith), rdiv_of_ne hd.ne']
    dsimp only
    rw [if_pos h, if_neg (by norm_num at h6 ⊢; linarith), if_neg (not_lt.2 h6)]
    exact newtonReturn_ok ho
  · intro hlim
    obtain ⟨⟨fx, hf, hres⟩, hc⟩ := C08_newton_tolerance (prandtlArgs re) 13 out ho hlim
    have hf' : prandtlKarman re out.xLast = .ok fx := hf
    rw [prandtlKarman_ok hre hl0] at hf'
    have hfx : fx = pkFun re out.xLast := (Except.ok.inj hf').symm
    have hres' : out.residual = -pkFun re out.xLast := by
      rw [hres, hfx]; simp [prandtlArgs]
    have hc' : |out.residual| < 1 / 10 ^ 12 := by
      have : |out.residual| < (1 / 1000000) ^ 2 := by
        simpa [Spec.newtonConverged, prandtlArgs] using hc
      norm_num at this ⊢
      exact this
    -- the last iterate
    have hgap : 5 * |out.xLast - r| ≤ |out.residual| := by
      rw [hres', abs_neg]
      have hr00 := smooth_law.1 hr
      rcases le_total out.xLast r with hle | hle
      · have := pkFun_gap hre hl0 hle hr2
        rw [abs_of_nonpos (by linarith : out.xLast - r ≤ 0), abs_of_nonpos (by linarith)]
        linarith
      · have := pkFun_gap hre hr0 hle hl2
        rw [abs_of_nonneg (by linarith : 0 ≤ out.xLast - r), abs_of_nonneg (by linarith)]
        linarith
    obtain ⟨dd, rel, hdf, hdn, hrel, hlimd⟩ := C08_newton_last_step (prandtlArgs re)
      (by norm_num [prandtlArgs]) 13 out ho
    obtain ⟨d', hd', hdp, hdl⟩ := prandtlKarmanDeriv_ok hl0
    have hdd : dd = d' := by
      have h1 : prandtlKarmanDeriv out.xLast = .ok dd := hdf
      rw [hd'] at h1
      exact (Except.ok.inj h1).symm
    have hd2 : 2 ≤ dd := by rw [hdd]; exact hdl hl2
    have hstep : |rel * out.residual / dd| ≤ |out.residual| / 2 := by
      rw [abs_div, abs_mul, abs_of_pos (by linarith : 0 < dd)]
      have hrel' : |rel| ≤ 1 := by
        rcases hrel with h | h <;> rw [h] <;> norm_num
      rw [div_le_div_iff₀ (by linarith) (by norm_num)]
      have := abs_nonneg out.residual
      nlinarith [abs_nonneg rel, mul_le_mul_of_nonneg_right hrel' this]
    have hmove : |out.x - out.xLast| ≤ |rel * out.residual / dd| := by
      obtain ⟨c1, c2, c3⟩ := hlimd
      change (_ < (1 / 100000 : ℝ) → out.x = 1 / 100000) at c1
      change ((2 / 10 : ℝ) < _ → out.x = 2 / 10) at c2
      change ((1 / 100000 : ℝ) ≤ _ → _ ≤ (2 / 10 : ℝ) → _) at c3
      generalize rel * out.residual / dd = s at *
      rcases lt_or_ge (out.xLast + s) (1 / 100000) with k | k
      · rw [c1 k, abs_of_nonpos (by linarith), abs_of_nonpos (by linarith)]; linarith
      · rcases lt_or_ge (2 / 10) (out.xLast + s) with k' | k'
        · rw [c2 k', abs_of_nonneg (by linarith), abs_of_nonneg (by linarith)]; linarith
        · rw [c3 k k']; simp
    have htri : |out.x - r| ≤ |out.x - out.xLast| + |out.xLast - r| := abs_sub_le _ _ _
    linarith

/-- C80, rough pipe and transition: the returned value never exceeds a solution of the law of
Colebrook and White, and is within `10^-12` of a solution up to 0.2 if the run meets its
tolerance. For a roughness of at most a tenth of the diameter there is exactly one solution.
Missing: that the run meets the tolerance; it does not for friction factors of 0.02 and more
(`C80_rough_tolerance_false`), `C80_rough` bounds the error without it. -/
theorem C80_rough_partial (re ks d : ℝ) (hre : 2320 < re) (h12 : re ≤ 10 ^ 12) (hd : 0 < d)
    (hks : 0 ≤ ks) (h : 65 ≤ re * ks / d) :
    (∃ out, newton (colebrookArgs re ks d) 13 = some (.ok out) ∧
      darcyFriction re ks d = .ok out.x ∧ 2 / 1000 ≤ out.x ∧ out.x ≤ 2 / 10 ∧
      (∀ r, 0 < r → Spec.ColebrookLaw re ks d r → out.x ≤ r) ∧
      (∀ r, 0 < r → r ≤ 2 / 10 → Spec.ColebrookLaw re ks d r → out.limit = false →
        |out.x - r| ≤ 1 / 10 ^ 12)) ∧
    (ks ≤ d / 10 → ∃ r, 0 < r ∧ r ≤ 2 / 10 ∧ Spec.ColebrookLaw re ks d r ∧
      ∀ r', 0 < r' → Spec.ColebrookLaw re ks d r' → r' = r) := by
  have hre0 : 0 < re := by linarith
  have ha : 0 < 251 / 100 / re := by positivity
  have hb : 0 ≤ ks / (371 / 100 * d) := by positivity
  constructor
  · obtain ⟨out, ho, h1, h2, h3, h4, h5, h6⟩ := colebrook_run hre0 h12 hks hd
    have habove : ∀ r, 0 < r → Spec.ColebrookLaw re ks d r → out.x ≤ r := by
      intro r hr hl
      by_contra hc
      push Not at hc
      have := cbFun_strictAnti ha hb hr hc
      rw [colebrook_law.1 hl] at this
      linarith
    refine ⟨out, ho, ?_, h1, h2, habove, ?_⟩
    · unfold darcyFriction
      rw [if_neg (not_le.2 hre), rdiv_of_ne hd.ne']
      dsimp only
      rw [if_neg (not_lt.2 h)]
      exact newtonReturn_ok ho
    · intro r hr hr2 hl hlim
      obtain ⟨-, hc⟩ := C08_newton_tolerance (colebrookArgs re ks d) 13 out ho hlim
      have hc' : |out.residual| < 1 / 10 ^ 12 := by
        have : |out.residual| < (1 / 1000000) ^ 2 := by
          simpa [Spec.newtonConverged, colebrookArgs] using hc
        norm_num at this ⊢
        exact this
      have hle := habove r hr hl
      have hgap := cbFun_gap ha hb (x := out.xLast) (by linarith) (h5.trans hle) hr2
      rw [colebrook_law.1 hl] at hgap
      rw [h6, abs_neg] at hc'
      have := le_abs_self (cbFun (251 / 100 / re) (ks / (371 / 100 * d)) out.xLast)
      rw [abs_of_nonpos (by linarith)]
      linarith
  · intro hkd
    have hcont : ContinuousOn (cbFun (251 / 100 / re) (ks / (371 / 100 * d)))
        (Set.Icc (2 / 1000) (2 / 10)) := by
      unfold cbFun Real.logb
      have hs : ContinuousOn (fun x : ℝ => √x) (Set.Icc (2 / 1000) (2 / 10)) :=
        Real.continuous_sqrt.continuousOn
      have hpos : ∀ x ∈ Set.Icc (2 / 1000 : ℝ) (2 / 10), 0 < √x := fun x hx =>
        Real.sqrt_pos.2 (lt_of_lt_of_le (by norm_num) hx.1)
      apply ContinuousOn.add
      · apply ContinuousOn.mul continuousOn_const
        apply ContinuousOn.div_const
        apply ContinuousOn.log
        · unfold cbArg
          exact (continuousOn_const.div hs (fun x hx => (hpos x hx).ne')).add continuousOn_const
        · intro x hx
          exact (cbArg_pos ha hb (lt_of_lt_of_le (by norm_num) hx.1)).ne'
      · exact continuousOn_const.div hs (fun x hx => (hpos x hx).ne')
    have hlo := cbFun_start hre0 h12 hb
    have hhi : cbFun (251 / 100 / re) (ks / (371 / 100 * d)) (2 / 10) ≤ 0 := by
      have hs : 4 / 10 ≤ √(2 / 10 : ℝ) := Real.le_sqrt_of_sq_le (by norm_num)
      have hs0 : 0 < √(2 / 10 : ℝ) := Real.sqrt_pos.2 (by norm_num)
      have hA := cbArg_pos ha hb (by norm_num : (0 : ℝ) < 2 / 10)
      have h1 : cbArg (251 / 100 / re) (ks / (371 / 100 * d)) (2 / 10) ≤ 31 / 1000 := by
        unfold cbArg
        have k1 : 251 / 100 / re / √(2 / 10) ≤ 3 / 1000 := by
          rw [div_div, div_le_iff₀ (by positivity)]
          nlinarith
        have k2 : ks / (371 / 100 * d) ≤ 27 / 1000 := by
          rw [div_le_iff₀ (by positivity)]
          linarith
        linarith
      have h2 : 2 * logb 10 (cbArg (251 / 100 / re) (ks / (371 / 100 * d)) (2 / 10)) ≤ -3 := by
        have e : 2 * logb 10 (cbArg (251 / 100 / re) (ks / (371 / 100 * d)) (2 / 10))
            = logb 10 (cbArg (251 / 100 / re) (ks / (371 / 100 * d)) (2 / 10) ^ 2) := by
          rw [Real.logb_pow]; norm_num
        rw [e, Real.logb_le_iff_le_rpow (by norm_num) (by positivity),
          show (-3 : ℝ) = ((-3 : ℤ) : ℝ) by norm_num, Real.rpow_intCast]
        have : cbArg (251 / 100 / re) (ks / (371 / 100 * d)) (2 / 10) ^ 2 ≤ (31 / 1000) ^ 2 := by
          gcongr
        norm_num at this ⊢
        linarith
      have h3 : 1 / √(2 / 10 : ℝ) ≤ 25 / 10 := by
        rw [div_le_iff₀ hs0]; linarith
      unfold cbFun
      linarith
    obtain ⟨r, hr, h0⟩ := intermediate_value_Icc' (by norm_num : (2 / 1000 : ℝ) ≤ 2 / 10) hcont
      ⟨hhi, hlo⟩
    have hr0 : 0 < r := lt_of_lt_of_le (by norm_num) hr.1
    refine ⟨r, hr0, hr.2, colebrook_law.2 h0, ?_⟩
    intro r' h0' hr'
    rcases lt_trichotomy r' r with hlt | heq | hgt
    · have := cbFun_strictAnti ha hb h0' hlt
      rw [h0, colebrook_law.1 hr'] at this
      exact absurd this (lt_irrefl _)
    · exact heq
    · have := cbFun_strictAnti ha hb hr0 hgt
      rw [h0, colebrook_law.1 hr'] at this
      exact absurd this (lt_irrefl _)

/-- C80, pipes: with positive viscosities, length, diameter and specific volumes and a Reynolds
number up to `10^12` the Darcy equation has a residual in every state (flow in either direction
included), and if it is met the pressure falls in the direction of the flow. -/
theorem C80_pipe (i o : HStream) (viscI viscO L ks D : ℝ) (hvi : 0 < viscI) (hvo : 0 < viscO)
    (hL : 0 < L) (hks : 0 ≤ ks) (hD : 0 < D) (hv : 0 < i.vol + o.vol)
    (hRe : 4 * |i.m| / (π * D * (viscI + viscO) / 2) ≤ 10 ^ 12) :
    (∃ res, darcyFunc i o viscI viscO L ks D = .ok res) ∧
    (darcyFunc i o viscI viscO L ks D = .ok 0 →
      (1 / 10000 ≤ i.m → o.p < i.p) ∧ (i.m ≤ -(1 / 10000) → i.p < o.p) ∧
      (|i.m| < 1 / 10000 → i.p = o.p)) := by
  have hpi := Real.pi_pos
  have hden : 0 < π * D * (viscI + viscO) / 2 := by positivity
  by_cases hm : |i.m| < 1 / 10000
  · have e : darcyFunc i o viscI viscO L ks D = .ok (i.p - o.p) := by
      unfold darcyFunc; rw [if_pos hm]
    refine ⟨⟨_, e⟩, fun h => ?_⟩
    rw [e] at h
    have h0 := Except.ok.inj h
    obtain ⟨m1, m2⟩ := abs_lt.1 hm
    exact ⟨fun h1 => absurd h1 (not_le.2 m2), fun h1 => absurd h1 (not_le.2 m1), fun _ => by linarith⟩
  · have hm0 : 0 < |i.m| := lt_of_lt_of_le (by norm_num) (not_lt.1 hm)
    obtain ⟨f, hf, hf0, -⟩ := C80_positive (4 * |i.m| / (π * D * (viscI + viscO) / 2)) ks D
      (by positivity) hRe hks hD
    have e : darcyFunc i o viscI viscO L ks D = darcyRes i o L D f := by
      unfold darcyFunc pipeReynolds
      rw [if_neg hm, rdiv_of_ne hden.ne']
      simp only [hf]
    rw [e]
    refine ⟨?_, fun h => C59_darcy i o L D f hL hD hf0 hv h⟩
    unfold darcyRes
    rw [if_neg hm, rdiv_of_ne (by positivity : π ^ 2 * D ^ 5 ≠ 0)]
    exact ⟨_, rfl⟩

/-! ### Limits of the property -/

/-- The friction factor is not a decreasing function of the Reynolds number: it jumps up at the
end of the laminar regime. -/
theorem C80_monotone_false :
    ¬ ∀ re re' ks d f f', 0 < re → re ≤ re' → 0 ≤ ks → 0 < d → darcyFriction re ks d = .ok f →
      darcyFriction re' ks d = .ok f' → f' ≤ f := by
  intro hall
  obtain ⟨f', h', -, -, hb, -⟩ := C80_explicit 2401 0 1 (by norm_num) (by norm_num)
    (Or.inr (by norm_num)) (by norm_num)
  obtain ⟨f, h, hf0, hl, -⟩ := C80_explicit 2320 0 1 (by norm_num) (by norm_num)
    (Or.inr (by norm_num)) (by norm_num)
  have hle := hall _ _ _ _ _ _ (by norm_num) (by norm_num) le_rfl one_pos h h'
  have h1 := hl le_rfl
  have h2 := hb (by norm_num) (by norm_num)
  have hf : f = 64 / 2320 := by linarith
  obtain ⟨f'', k, kpos, -⟩ := C80_positive 2401 0 1 (by norm_num) (by norm_num) le_rfl one_pos
  have : f'' = f' := by rw [k] at h'; exact Except.ok.inj h'
  have hpos : 0 < f' := this ▸ kpos
  have h4 : f' ^ 4 ≤ (64 / 2320) ^ 4 := by rw [← hf]; gcongr
  norm_num at h2 h4
  linarith

/-- Standing water: the friction factor of the Reynolds number zero is a division by zero. -/
theorem C80_zero_false (ks d : ℝ) : darcyFriction 0 ks d = .error .zeroDivision := by
  unfold darcyFriction rdiv
  norm_num

/-- The documentation gives `0.03164 re^(-1/4)` for smooth pipes up to `re = 10^4`; ten times as
much is returned. -/
theorem C80_documented_false (re ks d : ℝ) (hre : 2320 < re) (h4 : re ≤ 10 ^ 4) (hd : 0 < d)
    (h : re * ks / d < 65) :
    ∃ f, darcyFriction re ks d = .ok f ∧ f = 10 * (3164 / 100000 * re ^ (-(1 / 4) : ℝ)) ∧
      f ≠ 3164 / 100000 * re ^ (-(1 / 4) : ℝ) := by
  refine ⟨blasius re, ?_, by unfold blasius; ring, ?_⟩
  · unfold darcyFriction
    rw [if_neg (not_le.2 hre), rdiv_of_ne hd.ne']
    dsimp only
    rw [if_pos h, if_pos h4]
  · have : 0 < re ^ (-(1 / 4) : ℝ) := Real.rpow_pos_of_pos (by linarith) _
    unfold blasius
    intro hc
    linarith

/-- Beyond the range of `C80_positive` the rough regime may fail: the iterates fall below the
step width 0.001 of the central difference, and the square root of a negative number is complex
(`re = 10^20`, relative roughness `10^-18`). -/
theorem C80_large_false : darcyFriction (10 ^ 20) (1 / 10 ^ 18) 1 = .error .typeError := by
  have hre : (0 : ℝ) < 10 ^ 20 := by positivity
  have hks : (0 : ℝ) ≤ 1 / 10 ^ 18 := by positivity
  set a : ℝ := 251 / 100 / 10 ^ 20 with ha
  set b : ℝ := 1 / 10 ^ 18 / (371 / 100 * 1) with hb
  have ha0 : 0 < a := by positivity
  have hb0 : 0 ≤ b := by positivity
  have up : ∀ (n : ℕ) (y : ℝ), 0 < y → y ≤ 1 / 10 ^ n → logb 10 y ≤ -n := by
    intro n y hy h
    rw [Real.logb_le_iff_le_rpow (by norm_num) hy, Real.rpow_neg (by norm_num), Real.rpow_natCast]
    simpa using h
  have lowb : ∀ (n : ℕ) (y : ℝ), 0 < y → 1 / 10 ^ n ≤ y → -n ≤ logb 10 y := by
    intro n y hy h
    rw [Real.le_logb_iff_rpow_le (by norm_num) hy, Real.rpow_neg (by norm_num), Real.rpow_natCast]
    simpa using h
  -- values at the start
  have s2l : 447 / 10000 ≤ √(2 / 1000 : ℝ) := Real.le_sqrt_of_sq_le (by norm_num)
  have s2 : 0 < √(2 / 1000 : ℝ) := by linarith
  have s1l : 316 / 10000 ≤ √(2 / 1000 - 1 / 1000 : ℝ) := Real.le_sqrt_of_sq_le (by norm_num)
  have s1 : 0 < √(2 / 1000 - 1 / 1000 : ℝ) := by linarith
  have s3u : √(2 / 1000 + 1 / 1000 : ℝ) ≤ 55 / 1000 := Real.sqrt_le_iff.2 ⟨by norm_num, by norm_num⟩
  have s3 : 0 < √(2 / 1000 + 1 / 1000 : ℝ) := Real.sqrt_pos.2 (by norm_num)
  have A2 : logb 10 (cbArg a b (2 / 1000)) ≤ -18 := by
    have := up 18 (cbArg a b (2 / 1000)) (cbArg_pos ha0 hb0 (by norm_num)) (by
      unfold cbArg
      have : a / √(2 / 1000 : ℝ) ≤ 57 / 10 ^ 20 := by
        rw [div_le_iff₀ s2, ha]
        have : 57 / 10 ^ 20 * (447 / 10000) ≤ 57 / 10 ^ 20 * √(2 / 1000 : ℝ) := by gcongr
        refine le_trans ?_ this
        norm_num
      have hb1 : b ≤ 28 / 10 ^ 20 := by rw [hb]; norm_num
      refine le_trans (add_le_add this hb1) ?_
      norm_num)
    simpa using this
  have A1 : logb 10 (cbArg a b (2 / 1000 - 1 / 1000)) ≤ -17 := by
    have := up 17 (cbArg a b (2 / 1000 - 1 / 1000)) (cbArg_pos ha0 hb0 (by norm_num)) (by
      unfold cbArg
      have : a / √(2 / 1000 - 1 / 1000 : ℝ) ≤ 80 / 10 ^ 20 := by
        rw [div_le_iff₀ s1, ha]
        have : 80 / 10 ^ 20 * (316 / 10000) ≤ 80 / 10 ^ 20 * √(2 / 1000 - 1 / 1000 : ℝ) := by gcongr
        refine le_trans ?_ this
        norm_num
      have hb1 : b ≤ 28 / 10 ^ 20 := by rw [hb]; norm_num
      refine le_trans (add_le_add this hb1) ?_
      norm_num)
    simpa using this
  have A3 : -19 ≤ logb 10 (cbArg a b (2 / 1000 + 1 / 1000)) := by
    have := lowb 19 (cbArg a b (2 / 1000 + 1 / 1000)) (cbArg_pos ha0 hb0 (by norm_num)) (by
      unfold cbArg
      have : 0 ≤ a / √(2 / 1000 + 1 / 1000 : ℝ) := by positivity
      have : 1 / 10 ^ 19 ≤ b := by rw [hb]; norm_num
      linarith)
    simpa using this
  have g0 : cbFun a b (2 / 1000) ≤ -13 := by
    have : 1 / √(2 / 1000 : ℝ) ≤ 23 := by rw [div_le_iff₀ s2]; linarith
    unfold cbFun
    linarith
  have gd : cbFun a b (2 / 1000 - 1 / 1000) - cbFun a b (2 / 1000 + 1 / 1000) ≤ 20 := by
    have k1 : 1 / √(2 / 1000 - 1 / 1000 : ℝ) ≤ 32 := by rw [div_le_iff₀ s1]; linarith
    have k2 : 18 ≤ 1 / √(2 / 1000 + 1 / 1000 : ℝ) := by rw [le_div_iff₀ s3]; linarith
    unfold cbFun
    linarith
  have gd' := cbFun_strictAnti ha0 hb0 (x := 2 / 1000 - 1 / 1000) (y := 2 / 1000 + 1 / 1000)
    (by norm_num) (by norm_num)
  have hf0 := colebrook_ok hre hks one_pos (by norm_num : (0 : ℝ) < 2 / 1000)
  have hd0 := colebrook_diff hre hks one_pos (by norm_num : (1 / 1000 : ℝ) < 2 / 1000)
  rw [← ha, ← hb] at hf0 hd0
  set D : ℝ := (cbFun a b (2 / 1000 + 1 / 1000) - cbFun a b (2 / 1000 - 1 / 1000)) / (2 * (1 / 1000))
    with hD
  have hDneg : D < 0 := div_neg_of_neg_of_pos (by linarith) (by norm_num)
  have hDlow : -10000 ≤ D := by
    rw [hD, le_div_iff₀ (by norm_num)]
    linarith
  have hstep : (0 - cbFun a b (2 / 1000)) / D * 1 ≤ -(13 / 10000) := by
    rw [mul_one, div_le_iff_of_neg hDneg]
    nlinarith
  set x' : ℝ := clamp (1 / 10000) (2 / 10) (2 / 1000 + (0 - cbFun a b (2 / 1000)) / D * 1) with hx'
  have hx1 : 1 / 10000 ≤ x' := (clamp_mem _ _ _ (by norm_num)).1
  have hx2 : x' < 1 / 1000 := by
    rw [hx']
    unfold clamp
    dsimp only
    generalize (0 - cbFun a b (2 / 1000)) / D * 1 = s at *
    split
    · rw [if_neg (by norm_num)]; norm_num
    · rw [if_neg (by linarith)]; linarith
  have hf1 := colebrook_ok hre hks one_pos (by linarith : (0 : ℝ) < x')
  have hd1 : centralDifference (colebrook (10 ^ 20) (1 / 10 ^ 18) 1) (1 / 1000) x'
      = .error .typeError := by
    unfold centralDifference
    rw [colebrook_ok hre hks one_pos (by linarith)]
    have : colebrook (10 ^ 20) (1 / 10 ^ 18) 1 (x' - 1 / 1000) = .error .typeError := by
      unfold colebrook; rw [if_pos (by linarith)]
    rw [this]
    rfl
  have hrun : newton (colebrookArgs (10 ^ 20) (1 / 10 ^ 18) 1) 13 = some (.error .typeError) := by
    unfold newton newtonLoop
    have e1 : (colebrookArgs (10 ^ 20) (1 / 10 ^ 18) 1).f = colebrook (10 ^ 20) (1 / 10 ^ 18) 1 := rfl
    have e2 : (colebrookArgs (10 ^ 20) (1 / 10 ^ 18) 1).df
      = centralDifference (colebrook (10 ^ 20) (1 / 10 ^ 18) 1) (1 / 1000) := rfl
    have e3 : (colebrookArgs (10 ^ 20) (1 / 10 ^ 18) 1).val0 = 2 / 1000 := rfl
    have e4 : (colebrookArgs (10 ^ 20) (1 / 10 ^ 18) 1).target = 0 := rfl
    have e5 : (colebrookArgs (10 ^ 20) (1 / 10 ^ 18) 1).valmin = 1 / 10000 := rfl
    have e6 : (colebrookArgs (10 ^ 20) (1 / 10 ^ 18) 1).valmax = 2 / 10 := rfl
    have e7 : (colebrookArgs (10 ^ 20) (1 / 10 ^ 18) 1).maxIter = 10 := rfl
    have hcont : (colebrookArgs (10 ^ 20) (1 / 10 ^ 18) 1).continue (0 - cbFun a b (2 / 1000))
        = true := by
      unfold NewtonArgs.continue
      rw [if_pos (Or.inr e4)]
      have e8 : (colebrookArgs (10 ^ 20) (1 / 10 ^ 18) 1).tolAbs = (1 / 1000000) ^ 2 := rfl
      rw [e8, abs_of_nonneg (by linarith)]
      simp only [decide_eq_true_eq]
      norm_num
      linarith
    simp only [e1, e2, e3, e4, e5, e6, e7, hf0, hd0, if_neg hDneg.ne, ← hx', hcont]
    rw [if_neg (by norm_num [nextMaxIter]), if_pos trivial]
    unfold newtonLoop
    simp only [e1, e2, hf1, hd1]
  unfold darcyFriction newtonReturn
  rw [if_neg (by norm_num), rdiv_of_ne one_ne_zero]
  dsimp only
  rw [if_neg (by norm_num), hrun]

end Tespy
