import Verif.Props.SimpleKA
import Verif.Props.ZetaFlow
import Mathlib.Algebra.BigOperators.Group.Finset.Basic
import Mathlib.Algebra.BigOperators.Intervals
import Mathlib.Analysis.SpecialFunctions.Exp

/-!
C120: pipes divided into sections.
-/
namespace Tespy

/-! ### Specification -/

/-- The states `st 0`, …, `st n` at the ends of the sections of a pipe: one mass flow, and the specific volume `v`. -/
structure Spec.Sections (st : ℕ → HStream) (v : ℝ) (n : ℕ) : Prop where
  flow : ∀ k ≤ n, (st k).m = (st 0).m
  vol : ∀ k ≤ n, (st k).vol = v

theorem sections_drop (st : ℕ → HStream) (L : ℕ → ℝ) (c : ℝ) (n : ℕ) (h : ∀ k < n, (st k).p - (st (k + 1)).p = L k * c) :
    (st 0).p - (st n).p = (∑ k ∈ Finset.range n, L k) * c := by
  rw [← Finset.sum_range_sub' (fun k => (st k).p) n, Finset.sum_mul]
  exact Finset.sum_congr rfl (fun k hk => h k (Finset.mem_range.1 hk))

theorem darcyRes_iff (i o : HStream) (L D f v : ℝ) (hD : D ≠ 0) (hi : i.vol = v) (ho : o.vol = v) :
    darcyRes i o L D f = .ok 0 ↔
      i.p - o.p = L * (if |i.m| < 1 / 10000 then 0 else 8 * |i.m| * i.m * v * f / (Real.pi ^ 2 * D ^ 5)) := by
  unfold darcyRes
  by_cases hm : |i.m| < 1 / 10000
  · rw [if_pos hm, if_pos hm, Except.ok.injEq, mul_zero]
  · have hne : Real.pi ^ 2 * D ^ 5 ≠ 0 := mul_ne_zero (pow_ne_zero 2 Real.pi_ne_zero) (pow_ne_zero 5 hD)
    rw [if_neg hm, if_neg hm]
    simp only [rdiv, if_neg hne, Except.ok.injEq, hi, ho]
    rw [sub_eq_zero]
    have : 8 * |i.m| * i.m * (v + v) / 2 * L * f / (Real.pi ^ 2 * D ^ 5)
        = L * (8 * |i.m| * i.m * v * f / (Real.pi ^ 2 * D ^ 5)) := by ring
    rw [this]

/-- C120 (Darcy-Weisbach): sections with one diameter and friction factor act as one pipe with the total length. -/
theorem C120_darcy (st : ℕ → HStream) (L : ℕ → ℝ) (D f v : ℝ) (n : ℕ) (hD : D ≠ 0) (hs : Spec.Sections st v n)
    (h : ∀ k < n, darcyRes (st k) (st (k + 1)) (L k) D f = .ok 0) :
    darcyRes (st 0) (st n) (∑ k ∈ Finset.range n, L k) D f = .ok 0 := by
  rw [darcyRes_iff _ _ _ D f v hD (hs.vol 0 (Nat.zero_le _)) (hs.vol n le_rfl)]
  refine sections_drop st L _ n (fun k hk => ?_)
  have := (darcyRes_iff _ _ _ D f v hD (hs.vol k (by omega)) (hs.vol (k + 1) (by omega))).1 (h k hk)
  rwa [hs.flow k (by omega)] at this

theorem hazenRes_iff (i o : HStream) (L ks D v : ℝ) (hi : i.vol = v) (ho : o.vol = v) (hm : 0 ≤ i.m) (hp : o.p ≤ i.p) :
    hazenRes i o L ks D = 0 ↔
      i.p - o.p = L * (if |i.m| < 1 / 10000 then 0 else hazenLoss i.m v v 1 ks D) := by
  unfold hazenRes copysign
  by_cases hs : |i.m| < 1 / 10000
  · rw [if_pos hs, if_pos hs, mul_zero]
  · rw [if_neg hs, if_neg hs, if_pos hm, abs_of_nonneg (sub_nonneg.2 hp), hi, ho, sub_eq_zero]
    have : hazenLoss i.m v v L ks D = L * hazenLoss i.m v v 1 ks D := by unfold hazenLoss; ring
    rw [this]

/-- C120 (Hazen-Williams): likewise, if the pressure falls along the pipe. -/
theorem C120_hazen_partial (st : ℕ → HStream) (L : ℕ → ℝ) (ks D v : ℝ) (n : ℕ) (hs : Spec.Sections st v n)
    (hm : 0 ≤ (st 0).m) (hp : ∀ k < n, (st (k + 1)).p ≤ (st k).p)
    (h : ∀ k < n, hazenRes (st k) (st (k + 1)) (L k) ks D = 0) :
    hazenRes (st 0) (st n) (∑ k ∈ Finset.range n, L k) ks D = 0 := by
  have hp0 : ∀ j ≤ n, (st j).p ≤ (st 0).p := by
    intro j
    induction j with
    | zero => intro _; exact le_rfl
    | succ j ih => intro hj; exact (hp j (by omega)).trans (ih (by omega))
  rw [hazenRes_iff _ _ _ ks D v (hs.vol 0 (Nat.zero_le _)) (hs.vol n le_rfl) hm (hp0 n le_rfl)]
  refine sections_drop st L _ n (fun k hk => ?_)
  have := (hazenRes_iff _ _ _ ks D v (hs.vol k (by omega)) (hs.vol (k + 1) (by omega))
    (by rw [hs.flow k (by omega)]; exact hm) (hp k hk)).1 (h k hk)
  rwa [hs.flow k (by omega)] at this

/-- C120 (heat losses): sections with constant heat capacity and one ambient temperature, which is not passed along the
pipe, act as one pipe with the total heat transfer coefficient. -/
theorem C120_kA_partial (st : ℕ → HStream) (kA : ℕ → ℝ) (c Tamb : ℝ) (n : ℕ) (hn : 0 < n)
    (hflow : ∀ k ≤ n, (st k).m = (st 0).m) (hcp : ∀ k < n, Spec.ConstCp (st k) (st (k + 1)) c) (hk : ∀ k < n, 0 < kA k)
    (hside : ∀ k < n, 0 < ((st k).T - Tamb) * ((st (k + 1)).T - Tamb))
    (h : ∀ k < n, simpleKARes (st k) (st (k + 1)) Tamb (kA k) = .ok 0) :
    simpleKARes (st 0) (st n) Tamb (∑ k ∈ Finset.range n, kA k) = .ok 0 := by
  have hstep : ∀ k < n, (st (k + 1)).T - Tamb = ((st k).T - Tamb) * Real.exp (-kA k / ((st 0).m * c)) := by
    intro k hkn
    have hne : (st k).T ≠ Tamb := by
      intro h0
      have := hside k hkn
      rw [h0, sub_self, zero_mul] at this
      exact lt_irrefl _ this
    rcases (C88_simple_kA_partial _ _ c Tamb _ (hcp k hkn) (hk k hkn) hne).1 (h k hkn) with h1 | ⟨h1, h2⟩
    · rw [h1, hflow k (by omega)]; ring
    · exfalso
      have hw : 0 < (st k).m * c := mul_pos (hcp k hkn).flow (hcp k hkn).cp
      have hs := hside k hkn
      rw [h2] at hs
      have hq : (2 * ((st k).m * c) - kA k) / (2 * ((st k).m * c) + kA k) < 0 :=
        div_neg_of_neg_of_pos (by linarith) (by linarith)
      have hsq : 0 < ((st k).T - Tamb) * ((st k).T - Tamb) := mul_self_pos.2 (sub_ne_zero.2 hne)
      have := mul_neg_of_pos_of_neg hsq hq
      linarith
  have hall : ∀ j ≤ n, (st j).T - Tamb
      = ((st 0).T - Tamb) * Real.exp (-(∑ k ∈ Finset.range j, kA k) / ((st 0).m * c)) := by
    intro j
    induction j with
    | zero => intro _; simp
    | succ j ih =>
      intro hj
      rw [hstep j (by omega), ih (by omega), mul_assoc, ← Real.exp_add, Finset.sum_range_succ]
      congr 2
      ring
  have hchange : ∀ j ≤ n, (st j).h - (st 0).h = c * ((st j).T - (st 0).T) := by
    intro j
    induction j with
    | zero => intro _; simp
    | succ j ih =>
      intro hj
      have h1 := (hcp j (by omega)).change
      have h2 := ih (by omega)
      linear_combination h1 + h2
  have hne : (st 0).T ≠ Tamb := by
    intro h0
    have := hside 0 hn
    rw [h0, sub_self, zero_mul] at this
    exact lt_irrefl _ this
  have hsum : 0 < ∑ k ∈ Finset.range n, kA k := by
    have hle : ∀ k ∈ Finset.range n, 0 ≤ kA k := fun k hk' => (hk k (Finset.mem_range.1 hk')).le
    exact lt_of_lt_of_le (hk 0 hn) (Finset.single_le_sum hle (Finset.mem_range.2 hn))
  refine (C88_simple_kA_partial _ _ c Tamb _ ⟨(hcp 0 hn).cp, (hcp 0 hn).flow, hchange n le_rfl⟩ hsum hne).2 (.inl ?_)
  have := hall n le_rfl
  linarith

/-! ### Counterexamples and examples -/

/-- C120: sections that pass the ambient temperature do not act as one pipe: with the heat capacity flow 1 two sections of
`kA = 4` lead from 9 K above the ambient temperature to 3 K below and 1 K above, which one pipe of `kA = 8` cannot. -/
theorem C120_ambient_false : ∃ (st : ℕ → HStream), (∀ k, (st k).m = 1)
    ∧ (∀ k < 2, Spec.ConstCp (st k) (st (k + 1)) 1 ∧ simpleKARes (st k) (st (k + 1)) 0 4 = .ok 0)
    ∧ simpleKARes (st 0) (st 2) 0 8 ≠ .ok 0 := by
  have key : ∀ a b : ℝ, a ≠ 0 → b = a * (-(1 / 3)) →
      Spec.ConstCp ⟨1, 1, a, a, 1⟩ ⟨1, 1, b, b, 1⟩ 1 ∧ simpleKARes ⟨1, 1, a, a, 1⟩ ⟨1, 1, b, b, 1⟩ 0 4 = .ok 0 := by
    intro a b ha hb
    have hc : Spec.ConstCp ⟨1, 1, a, a, 1⟩ ⟨1, 1, b, b, 1⟩ 1 := ⟨by norm_num, by norm_num, by simp⟩
    refine ⟨hc, (C88_simple_kA_partial _ _ 1 0 4 hc (by norm_num) ha).2 (.inr ⟨by norm_num, ?_⟩)⟩
    simp only [hb]
    norm_num
  refine ⟨fun k => if k = 0 then ⟨1, 1, 9, 9, 1⟩ else if k = 1 then ⟨1, 1, -3, -3, 1⟩ else ⟨1, 1, 1, 1, 1⟩,
    fun k => by dsimp only; split_ifs <;> rfl, ?_, ?_⟩
  · intro k hk
    have : k = 0 ∨ k = 1 := by omega
    rcases this with rfl | rfl
    · exact key 9 (-3) (by norm_num) (by norm_num)
    · exact key (-3) 1 (by norm_num) (by norm_num)
  · intro h
    have hc : Spec.ConstCp ⟨1, 1, 9, 9, 1⟩ ⟨1, 1, 1, 1, 1⟩ 1 := ⟨by norm_num, by norm_num, by simp⟩
    rcases (C88_simple_kA_partial _ _ 1 0 8 hc (by norm_num) (by norm_num)).1 h with h1 | ⟨-, h1⟩
    · have h2 : Real.exp (-8) < 1 / 9 := by
        rw [Real.exp_neg, one_div]
        have := Real.add_one_lt_exp (show (8 : ℝ) ≠ 0 by norm_num)
        exact inv_strictAnti₀ (by norm_num) (by linarith)
      norm_num at h1 h2
      linarith
    · norm_num at h1

/-- C120: sections with Hazen-Williams in which the pressure rises and falls by the same amount, both solved, do not act
as one pipe. -/
theorem C120_hazen_false : ∃ (st : ℕ → HStream) (L : ℝ), 0 < L ∧ Spec.Sections st 1 2 ∧ (st 0).m = 1
    ∧ (∀ k < 2, hazenRes (st k) (st (k + 1)) L 1 1 = 0) ∧ hazenRes (st 0) (st 2) (L + L) 1 1 ≠ 0 := by
  have hl : hazenLoss 1 1 1 (100000 / 1046727) 1 1 = 10 := by
    unfold hazenLoss
    norm_num
  refine ⟨fun k => if k = 1 then ⟨1, 30, 0, 0, 1⟩ else ⟨1, 20, 0, 0, 1⟩, 100000 / 1046727, by norm_num,
    ⟨fun k _ => by split_ifs <;> rfl, fun k _ => by split_ifs <;> rfl⟩, rfl, ?_, ?_⟩
  · intro k hk
    have : k = 0 ∨ k = 1 := by omega
    rcases this with rfl | rfl
    · simp only [hazenRes, copysign]; norm_num [hl]
    · simp only [hazenRes, copysign]; norm_num [hl]
  · have h2 : hazenLoss 1 1 1 (100000 / 1046727 + 100000 / 1046727) 1 1 = 20 := by
      unfold hazenLoss
      norm_num
    simp only [hazenRes, copysign]
    norm_num at h2 ⊢
    rw [h2]
    norm_num

/-- Any number of sections in which the pressure falls by 10, for both laws. -/
example (n : ℕ) : Spec.Sections (fun k => ⟨1, 100 - 10 * k, 0, 0, 1⟩) 1 n
    ∧ (∀ k < n, darcyRes ⟨1, 100 - 10 * k, 0, 0, 1⟩ ⟨1, 100 - 10 * (k + 1 : ℕ), 0, 0, 1⟩ 10 1 (Real.pi ^ 2 / 8) = .ok 0)
    ∧ ∀ k < n, hazenRes ⟨1, 100 - 10 * k, 0, 0, 1⟩ ⟨1, 100 - 10 * (k + 1 : ℕ), 0, 0, 1⟩ (100000 / 1046727) 1 1 = 0 := by
  have hpi := Real.pi_ne_zero
  refine ⟨⟨fun _ _ => rfl, fun _ _ => rfl⟩, fun k _ => ?_, fun k _ => ?_⟩
  · rw [darcyRes_iff _ _ _ 1 _ 1 (by norm_num) rfl rfl]
    push_cast
    norm_num
    field_simp
    norm_num
  · rw [hazenRes_iff _ _ _ 1 1 1 rfl rfl (by norm_num) (by push_cast; linarith)]
    push_cast
    unfold hazenLoss
    norm_num
    ring

/-- Any number of sections of `kA = 1` with the heat capacity flow 1 in an environment of temperature 0. -/
example (n : ℕ) : ∀ k < n, Spec.ConstCp ⟨1, 1, Real.exp (-k), Real.exp (-k), 1⟩
      ⟨1, 1, Real.exp (-(k + 1 : ℕ)), Real.exp (-(k + 1 : ℕ)), 1⟩ 1
    ∧ 0 < (Real.exp (-k) - 0) * (Real.exp (-(k + 1 : ℕ)) - 0)
    ∧ simpleKARes ⟨1, 1, Real.exp (-k), Real.exp (-k), 1⟩
      ⟨1, 1, Real.exp (-(k + 1 : ℕ)), Real.exp (-(k + 1 : ℕ)), 1⟩ 0 1 = .ok 0 := by
  intro k _
  have hc : Spec.ConstCp ⟨1, 1, Real.exp (-k), Real.exp (-k), 1⟩
      ⟨1, 1, Real.exp (-(k + 1 : ℕ)), Real.exp (-(k + 1 : ℕ)), 1⟩ 1 := ⟨by norm_num, by norm_num, by simp⟩
  refine ⟨hc, by simp only [sub_zero]; positivity, ?_⟩
  refine (C88_simple_kA_partial _ _ 1 0 1 hc (by norm_num) (Real.exp_pos _).ne').2 (.inl ?_)
  simp only [sub_zero, zero_add]
  rw [← Real.exp_add]
  congr 1
  push_cast
  ring

end Tespy
