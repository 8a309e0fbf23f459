import Verif.Model.HeatTransfer
import Mathlib.Algebra.BigOperators.Group.Finset.Basic
import Mathlib.Algebra.BigOperators.Intervals
import Mathlib.Tactic.IntervalCases
import Mathlib.Tactic.Linarith
import Mathlib.Tactic.FieldSimp
import Mathlib.Tactic.Ring
import Mathlib.Tactic.NormNum

/-!
C119: machines divided into stages.
-/
namespace Tespy

/-! ### Specification -/

/-- Pressures `P` and enthalpies `H` of a fluid with entropy `s`, where `isen p h p'` is the enthalpy after the isentropic
change of state to the pressure `p'` (CoolProp): entropy rises with enthalpy, enthalpy rises with pressure along an
isentrope, and the isentropes diverge towards higher entropy. -/
structure Spec.Isentropes (s : ℝ → ℝ → ℝ) (isen : ℝ → ℝ → ℝ → ℝ) (P H : Set ℝ) : Prop where
  rises : ∀ p ∈ P, ∀ h ∈ H, ∀ h' ∈ H, h < h' → s p h < s p h'
  mem : ∀ p ∈ P, ∀ p' ∈ P, ∀ h ∈ H, isen p h p' ∈ H
  entropy : ∀ p ∈ P, ∀ p' ∈ P, ∀ h ∈ H, s p' (isen p h p') = s p h
  direction : ∀ p ∈ P, ∀ p' ∈ P, ∀ h ∈ H, p ≤ p' → h ≤ isen p h p'
  diverges : ∀ p ∈ P, ∀ p' ∈ P, ∀ h ∈ H, ∀ h' ∈ H, p ≤ p' → h ≤ h' → isen p h p' - h ≤ isen p h' p' - h'

/-- The states `st 0`, …, `st n` between the stages of a machine: within the range of the fluid, with one mass flow. -/
structure Spec.StageStates (P H : Set ℝ) (st : ℕ → HStream) (n : ℕ) : Prop where
  pressure : ∀ k ≤ n, (st k).p ∈ P
  enthalpy : ∀ k ≤ n, (st k).h ∈ H
  flow : ∀ k ≤ n, (st k).m = (st 0).m

/-- All stages of a turbine have the isentropic efficiency `eta`. -/
def Spec.TurbineStages (isen : ℝ → ℝ → ℝ → ℝ) (eta : ℝ) (st : ℕ → HStream) (n : ℕ) : Prop :=
  ∀ k < n, (st (k + 1)).p ≤ (st k).p
    ∧ turbineEtaRes (st k) (st (k + 1)) (isen (st k).p (st k).h (st (k + 1)).p) eta = 0

/-- All stages of a pump or compressor have the isentropic efficiency `eta`. -/
def Spec.CompressorStages (isen : ℝ → ℝ → ℝ → ℝ) (eta : ℝ) (st : ℕ → HStream) (n : ℕ) : Prop :=
  ∀ k < n, (st k).p ≤ (st (k + 1)).p
    ∧ pumpEtaRes (st k) (st (k + 1)) (isen (st k).p (st k).h (st (k + 1)).p) eta = 0

section
variable {s : ℝ → ℝ → ℝ} {isen : ℝ → ℝ → ℝ → ℝ} {P H : Set ℝ}

theorem isentropes_inj (F : Spec.Isentropes s isen P H) {p h h' : ℝ} (hp : p ∈ P) (hh : h ∈ H) (hh' : h' ∈ H)
    (he : s p h = s p h') : h = h' := by
  rcases lt_trichotomy h h' with hlt | heq | hgt
  · exact absurd he (F.rises p hp h hh h' hh' hlt).ne
  · exact heq
  · exact absurd he (F.rises p hp h' hh' h hh hgt).ne'

theorem isentropes_trans (F : Spec.Isentropes s isen P H) {p p' p'' h : ℝ} (hp : p ∈ P) (hp' : p' ∈ P) (hp'' : p'' ∈ P)
    (hh : h ∈ H) : isen p' (isen p h p') p'' = isen p h p'' := by
  have h1 := F.mem p hp p' hp' h hh
  refine isentropes_inj F hp'' (F.mem p' hp' p'' hp'' _ h1) (F.mem p hp p'' hp'' h hh) ?_
  rw [F.entropy p' hp' p'' hp'' _ h1, F.entropy p hp p' hp' h hh, F.entropy p hp p'' hp'' h hh]

theorem isentropes_self (F : Spec.Isentropes s isen P H) {p h : ℝ} (hp : p ∈ P) (hh : h ∈ H) : isen p h p = h :=
  isentropes_inj F hp (F.mem p hp p hp h hh) hh (F.entropy p hp p hp h hh)

theorem isentropes_mono (F : Spec.Isentropes s isen P H) {p p' h h' : ℝ} (hp : p ∈ P) (hp' : p' ∈ P) (hh : h ∈ H)
    (hh' : h' ∈ H) (hle : h ≤ h') : isen p h p' ≤ isen p h' p' := by
  by_contra hn
  have h1 := F.rises p' hp' _ (F.mem p hp p' hp' h' hh') _ (F.mem p hp p' hp' h hh) (not_le.1 hn)
  rw [F.entropy p hp p' hp' h hh, F.entropy p hp p' hp' h' hh'] at h1
  rcases hle.lt_or_eq with hlt | heq
  · exact absurd (F.rises p hp h hh h' hh' hlt) (not_lt.2 h1.le)
  · rw [heq] at h1; exact lt_irrefl _ h1

/-- Expansion from a higher enthalpy delivers more. -/
theorem isentropes_expand (F : Spec.Isentropes s isen P H) {p p' h h' : ℝ} (hp : p ∈ P) (hp' : p' ∈ P) (hh : h ∈ H)
    (hh' : h' ∈ H) (hpp : p' ≤ p) (hle : h ≤ h') : h - isen p h p' ≤ h' - isen p h' p' := by
  have h1 := F.mem p hp p' hp' h hh
  have h2 := F.mem p hp p' hp' h' hh'
  have := F.diverges p' hp' p hp _ h1 _ h2 hpp (isentropes_mono F hp hp' hh hh' hle)
  rwa [isentropes_trans F hp hp' hp hh, isentropes_trans F hp hp' hp hh', isentropes_self F hp hh,
    isentropes_self F hp hh'] at this

theorem isentropes_falls (F : Spec.Isentropes s isen P H) {p p' h : ℝ} (hp : p ∈ P) (hp' : p' ∈ P) (hh : h ∈ H)
    (hpp : p' ≤ p) : isen p h p' ≤ h := by
  have h1 := F.mem p hp p' hp' h hh
  have := F.direction p' hp' p hp _ h1 hpp
  rwa [isentropes_trans F hp hp' hp hh, isentropes_self F hp hh] at this

theorem turbine_stages_aux (F : Spec.Isentropes s isen P H) {eta : ℝ} (h0 : 0 ≤ eta) (h1 : eta ≤ 1) (st : ℕ → HStream)
    (n : ℕ) (hst : Spec.StageStates P H st n) (ht : Spec.TurbineStages isen eta st n) :
    ∀ k ≤ n, isen (st 0).p (st 0).h (st k).p ≤ (st k).h
      ∧ eta * ((st 0).h - isen (st 0).p (st 0).h (st k).p) ≤ (st 0).h - (st k).h := by
  intro k
  induction k with
  | zero =>
    intro _
    rw [isentropes_self F (hst.pressure 0 (Nat.zero_le _)) (hst.enthalpy 0 (Nat.zero_le _))]
    simp
  | succ k ih =>
    intro hk
    obtain ⟨ih1, ih2⟩ := ih (by omega)
    obtain ⟨hp, hr⟩ := ht k (by omega)
    have p0 := hst.pressure 0 (Nat.zero_le _)
    have e0 := hst.enthalpy 0 (Nat.zero_le _)
    have pk := hst.pressure k (by omega)
    have ek := hst.enthalpy k (by omega)
    have pk' := hst.pressure (k + 1) hk
    have g := F.mem _ p0 _ pk _ e0
    have hx := isentropes_expand F pk pk' g ek hp ih1
    have hm := isentropes_mono F pk pk' g ek ih1
    have hf := isentropes_falls F pk pk' ek hp
    rw [isentropes_trans F p0 pk pk' e0] at hx hm
    unfold turbineEtaRes at hr
    have h2 := mul_le_mul_of_nonneg_left hx h0
    have h3 := mul_nonneg (sub_nonneg.2 h1) (sub_nonneg.2 hf)
    constructor
    · linarith
    · linarith

theorem compressor_stages_aux (F : Spec.Isentropes s isen P H) {eta : ℝ} (h0 : 0 < eta) (h1 : eta ≤ 1) (st : ℕ → HStream)
    (n : ℕ) (hst : Spec.StageStates P H st n) (ht : Spec.CompressorStages isen eta st n) :
    ∀ k ≤ n, isen (st 0).p (st 0).h (st k).p ≤ (st k).h
      ∧ isen (st 0).p (st 0).h (st k).p - (st 0).h ≤ ((st k).h - (st 0).h) * eta := by
  intro k
  induction k with
  | zero =>
    intro _
    rw [isentropes_self F (hst.pressure 0 (Nat.zero_le _)) (hst.enthalpy 0 (Nat.zero_le _))]
    simp
  | succ k ih =>
    intro hk
    obtain ⟨ih1, ih2⟩ := ih (by omega)
    obtain ⟨hp, hr⟩ := ht k (by omega)
    have p0 := hst.pressure 0 (Nat.zero_le _)
    have e0 := hst.enthalpy 0 (Nat.zero_le _)
    have pk := hst.pressure k (by omega)
    have ek := hst.enthalpy k (by omega)
    have pk' := hst.pressure (k + 1) hk
    have g := F.mem _ p0 _ pk _ e0
    have hx := F.diverges _ pk _ pk' _ g _ ek hp ih1
    have hm := isentropes_mono F pk pk' g ek ih1
    have hf := F.direction _ pk _ pk' _ ek hp
    rw [isentropes_trans F p0 pk pk' e0] at hx hm
    unfold pumpEtaRes at hr
    constructor
    · have h2 : 0 ≤ (st (k + 1)).h - (st k).h := by
        have : 0 ≤ ((st (k + 1)).h - (st k).h) * eta := by linarith
        exact nonneg_of_mul_nonneg_left this h0
      have h3 := mul_nonneg h2 (sub_nonneg.2 h1)
      linarith
    · linarith

/-- C119: a turbine divided into any number of stages of the efficiency `eta` delivers at least as much power as one
turbine of this efficiency between the same pressures, and at most that of an isentropic one. -/
theorem C119_turbine (F : Spec.Isentropes s isen P H) {eta : ℝ} (h0 : 0 ≤ eta) (h1 : eta ≤ 1) (st : ℕ → HStream)
    (n : ℕ) (hst : Spec.StageStates P H st n) (ht : Spec.TurbineStages isen eta st n) (hm : 0 ≤ (st 0).m) (o oi : HStream)
    (ho : turbineEtaRes (st 0) o (isen (st 0).p (st 0).h (st n).p) eta = 0)
    (hoi : turbineEtaRes (st 0) oi (isen (st 0).p (st 0).h (st n).p) 1 = 0) :
    turboPReported (st 0) oi ≤ ∑ k ∈ Finset.range n, turboPReported (st k) (st (k + 1))
      ∧ ∑ k ∈ Finset.range n, turboPReported (st k) (st (k + 1)) ≤ turboPReported (st 0) o := by
  obtain ⟨a, b⟩ := turbine_stages_aux F h0 h1 st n hst ht n le_rfl
  have hsum : ∑ k ∈ Finset.range n, turboPReported (st k) (st (k + 1)) = (st 0).m * ((st n).h - (st 0).h) := by
    rw [← Finset.sum_range_sub (fun k => (st k).h), Finset.mul_sum]
    refine Finset.sum_congr rfl (fun k hk => ?_)
    have := Finset.mem_range.1 hk
    unfold turboPReported
    rw [hst.flow k (by omega)]
  rw [hsum]
  unfold turbineEtaRes at ho hoi
  unfold turboPReported
  exact ⟨mul_le_mul_of_nonneg_left (by linarith) hm, mul_le_mul_of_nonneg_left (by linarith) hm⟩

/-- C119: a pump or compressor divided into any number of stages of the efficiency `eta` needs at least as much power as
one machine of this efficiency between the same pressures. -/
theorem C119_compressor (F : Spec.Isentropes s isen P H) {eta : ℝ} (h0 : 0 < eta) (h1 : eta ≤ 1) (st : ℕ → HStream)
    (n : ℕ) (hst : Spec.StageStates P H st n) (ht : Spec.CompressorStages isen eta st n) (hm : 0 ≤ (st 0).m) (o : HStream)
    (ho : pumpEtaRes (st 0) o (isen (st 0).p (st 0).h (st n).p) eta = 0) :
    turboPReported (st 0) o ≤ ∑ k ∈ Finset.range n, turboPReported (st k) (st (k + 1)) := by
  obtain ⟨a, b⟩ := compressor_stages_aux F h0 h1 st n hst ht n le_rfl
  have hsum : ∑ k ∈ Finset.range n, turboPReported (st k) (st (k + 1)) = (st 0).m * ((st n).h - (st 0).h) := by
    rw [← Finset.sum_range_sub (fun k => (st k).h), Finset.mul_sum]
    refine Finset.sum_congr rfl (fun k hk => ?_)
    have := Finset.mem_range.1 hk
    unfold turboPReported
    rw [hst.flow k (by omega)]
  rw [hsum]
  unfold pumpEtaRes at ho
  unfold turboPReported
  have : (o.h - (st 0).h) * eta ≤ ((st n).h - (st 0).h) * eta := by linarith
  exact mul_le_mul_of_nonneg_left (le_of_mul_le_mul_right this h0) hm

/-- C119: isentropic stages give exactly the outlet state of one isentropic machine. -/
theorem C119_ideal (F : Spec.Isentropes s isen P H) (st : ℕ → HStream) (n : ℕ) (hst : Spec.StageStates P H st n)
    (ht : Spec.TurbineStages isen 1 st n ∨ Spec.CompressorStages isen 1 st n) :
    (st n).h = isen (st 0).p (st 0).h (st n).p := by
  have key : ∀ k ≤ n, (st k).h = isen (st 0).p (st 0).h (st k).p := by
    intro k
    induction k with
    | zero =>
      intro _
      exact (isentropes_self F (hst.pressure 0 (Nat.zero_le _)) (hst.enthalpy 0 (Nat.zero_le _))).symm
    | succ k ih =>
      intro hk
      have p0 := hst.pressure 0 (Nat.zero_le _)
      have e0 := hst.enthalpy 0 (Nat.zero_le _)
      rw [← isentropes_trans F p0 (hst.pressure k (by omega)) (hst.pressure (k + 1) hk) e0, ← ih (by omega)]
      rcases ht with ht | ht
      · have := (ht k (by omega)).2
        unfold turbineEtaRes at this
        linarith
      · have := (ht k (by omega)).2
        unfold pumpEtaRes at this
        linarith
  exact key n le_rfl

/-- C119 (intercooling): a pump or compressor needs less power, the lower the enthalpy at its inlet. -/
theorem C119_intercooling (F : Spec.Isentropes s isen P H) {eta : ℝ} (h0 : 0 < eta) (i o i' o' : HStream)
    (hp : i.p ∈ P) (ho : o.p ∈ P) (hh : i.h ∈ H) (hh' : i'.h ∈ H) (hpi : i'.p = i.p) (hpo : o'.p = o.p) (hm : i'.m = i.m)
    (hmp : 0 ≤ i.m) (hup : i.p ≤ o.p) (hcool : i'.h ≤ i.h)
    (h : pumpEtaRes i o (isen i.p i.h o.p) eta = 0) (h' : pumpEtaRes i' o' (isen i'.p i'.h o'.p) eta = 0) :
    turboPReported i' o' ≤ turboPReported i o := by
  have hx := F.diverges _ hp _ ho _ hh' _ hh hup hcool
  unfold pumpEtaRes at h h'
  rw [hpi, hpo] at h'
  unfold turboPReported
  rw [hm]
  have : (o'.h - i'.h) * eta ≤ (o.h - i.h) * eta := by linarith
  exact mul_le_mul_of_nonneg_left (le_of_mul_le_mul_right this h0) hmp

/-- C119 (reheating): a turbine delivers more power, the higher the enthalpy at its inlet. -/
theorem C119_reheating (F : Spec.Isentropes s isen P H) {eta : ℝ} (h0 : 0 ≤ eta) (i o i' o' : HStream)
    (hp : i.p ∈ P) (ho : o.p ∈ P) (hh : i.h ∈ H) (hh' : i'.h ∈ H) (hpi : i'.p = i.p) (hpo : o'.p = o.p) (hm : i'.m = i.m)
    (hmp : 0 ≤ i.m) (hdown : o.p ≤ i.p) (hheat : i.h ≤ i'.h)
    (h : turbineEtaRes i o (isen i.p i.h o.p) eta = 0) (h' : turbineEtaRes i' o' (isen i'.p i'.h o'.p) eta = 0) :
    turboPReported i' o' ≤ turboPReported i o := by
  have hx := mul_le_mul_of_nonneg_right (isentropes_expand F hp ho hh hh' hdown hheat) h0
  unfold turbineEtaRes at h h'
  rw [hpi, hpo] at h'
  unfold turboPReported
  rw [hm]
  exact mul_le_mul_of_nonneg_left (by linarith) hmp

end

/-! ### Examples -/

/-- A gas with enthalpies proportional to the pressure along an isentrope. -/
theorem stageToy : Spec.Isentropes (fun p h => h / p) (fun p h p' => h / p * p') (Set.Ioi 0) (Set.Ioi 0) := by
  constructor
  · intro p hp h _ h' _ hlt
    exact div_lt_div_of_pos_right hlt hp
  · intro p hp p' hp' h hh
    exact mul_pos (div_pos (Set.mem_Ioi.1 hh) (Set.mem_Ioi.1 hp)) (Set.mem_Ioi.1 hp')
  · intro p hp p' hp' h hh
    have : p' ≠ 0 := ne_of_gt hp'
    field_simp
  · intro p hp p' _ h hh hle
    have h1 := mul_le_mul_of_nonneg_left hle (div_pos hh hp).le
    have : h / p * p = h := div_mul_cancel₀ _ (ne_of_gt hp)
    linarith
  · intro p hp p' _ h _ h' _ hle hhh
    have hq : h / p ≤ h' / p := div_le_div_of_nonneg_right hhh (le_of_lt hp)
    have h1 := mul_le_mul_of_nonneg_right hq (sub_nonneg.2 hle)
    have a : h / p * p = h := div_mul_cancel₀ _ (ne_of_gt hp)
    have b : h' / p * p = h' := div_mul_cancel₀ _ (ne_of_gt hp)
    linarith

/-- C119: the efficiency of the stages is not the efficiency of the machine: two stages of the efficiency one half from 4
over 2 to 1 lead from the enthalpy 16 to 9, one turbine to 10. -/
theorem C119_stage_efficiency_false : ∃ (s : ℝ → ℝ → ℝ) (isen : ℝ → ℝ → ℝ → ℝ) (P H : Set ℝ) (st : ℕ → HStream)
    (o : HStream), Spec.Isentropes s isen P H ∧ Spec.StageStates P H st 2 ∧ Spec.TurbineStages isen (1 / 2) st 2
      ∧ (st 0).m = 1 ∧ o.p = (st 2).p ∧ turbineEtaRes (st 0) o (isen (st 0).p (st 0).h (st 2).p) (1 / 2) = 0
      ∧ (st 2).h = 9 ∧ o.h = 10 := by
  refine ⟨_, _, _, _, fun k => if k = 0 then ⟨1, 4, 16, 0, 0⟩ else if k = 1 then ⟨1, 2, 12, 0, 0⟩ else ⟨1, 1, 9, 0, 0⟩,
    ⟨1, 1, 10, 0, 0⟩, stageToy, ⟨?_, ?_, ?_⟩, ?_, rfl, rfl, ?_, rfl, rfl⟩
  · intro k _; rw [Set.mem_Ioi]; split_ifs <;> norm_num
  · intro k _; rw [Set.mem_Ioi]; split_ifs <;> norm_num
  · intro k _; split_ifs <;> rfl
  · intro k hk
    interval_cases k
    · simp [turbineEtaRes]; norm_num
    · simp [turbineEtaRes]; norm_num
  · simp [turbineEtaRes]; norm_num

/-- Two stages of a compressor of the efficiency one half, from 1 over 2 to 4: the enthalpy rises from 1 over 3 to 9, in
one machine to 7. -/
example : Spec.StageStates (Set.Ioi 0) (Set.Ioi 0)
      (fun k => if k = 0 then ⟨1, 1, 1, 0, 0⟩ else if k = 1 then ⟨1, 2, 3, 0, 0⟩ else ⟨1, 4, 9, 0, 0⟩) 2
    ∧ Spec.CompressorStages (fun p h p' => h / p * p') (1 / 2)
      (fun k => if k = 0 then ⟨1, 1, 1, 0, 0⟩ else if k = 1 then ⟨1, 2, 3, 0, 0⟩ else ⟨1, 4, 9, 0, 0⟩) 2
    ∧ pumpEtaRes ⟨1, 1, 1, 0, 0⟩ ⟨1, 4, 7, 0, 0⟩ (1 / 1 * 4) (1 / 2) = 0 := by
  refine ⟨⟨?_, ?_, ?_⟩, ?_, ?_⟩
  · intro k _; rw [Set.mem_Ioi]; split_ifs <;> norm_num
  · intro k _; rw [Set.mem_Ioi]; split_ifs <;> norm_num
  · intro k _; split_ifs <;> rfl
  · intro k hk
    interval_cases k
    · simp [pumpEtaRes]; norm_num
    · simp [pumpEtaRes]; norm_num
  · simp [pumpEtaRes]; norm_num

/-- The second stage of this compressor, and the same after cooling from 3 to 2: 6 and 4. -/
example : pumpEtaRes ⟨1, 2, 3, 0, 0⟩ ⟨1, 4, 9, 0, 0⟩ (3 / 2 * 4) (1 / 2) = 0
    ∧ pumpEtaRes ⟨1, 2, 2, 0, 0⟩ ⟨1, 4, 6, 0, 0⟩ (2 / 2 * 4) (1 / 2) = 0 := by
  constructor <;> norm_num [pumpEtaRes]

/-- A turbine from 2 to 1 with the efficiency one half, at the inlet enthalpies 12 and 16: 3 and 4. -/
example : turbineEtaRes ⟨1, 2, 12, 0, 0⟩ ⟨1, 1, 9, 0, 0⟩ (12 / 2 * 1) (1 / 2) = 0
    ∧ turbineEtaRes ⟨1, 2, 16, 0, 0⟩ ⟨1, 1, 12, 0, 0⟩ (16 / 2 * 1) (1 / 2) = 0 := by
  constructor <;> norm_num [turbineEtaRes]

end Tespy
