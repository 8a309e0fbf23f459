import Verif.Props.Carnot
import Mathlib.Algebra.BigOperators.Group.Finset.Basic

/-!
C121: closed circuits with internal heat exchangers.
-/
namespace Tespy

/-! ### Specification -/

/-- A solved heat exchanger with the hot side from `i1` to `o1` and the cold side from `i2` to `o2`: the heat released by
one side is taken up by the other, pressures do not rise, and the hot side is nowhere colder than the cold one
(`q` is the heat transferred between the cold end and the place looked at). -/
structure Spec.Exchanger (T : ℝ → ℝ → ℝ) (i1 o1 i2 o2 : EntStream) : Prop where
  balance : i1.m * (o1.h - i1.h) + i2.m * (o2.h - i2.h) = 0
  cooled : o1.h ≤ i1.h
  hotFalls : o1.p ≤ i1.p
  coldFalls : o2.p ≤ i2.p
  hotter : ∀ q, 0 ≤ q → q ≤ i2.m * (o2.h - i2.h) →
    T (i2.p * √(o2.p / i2.p)) (i2.h + q / i2.m) ≤ T (i1.p * √(o1.p / i1.p)) (o1.h + q / i1.m)

/-- The components of the circuit which are not sides of internal heat exchangers: `A` are the hot sides, `f` gives the
cold side to a hot side. -/
def Spec.outerPart (n : ℕ) (A : Finset ℕ) (f : ℕ → ℕ) : Finset ℕ := Finset.range n \ (A ∪ A.image f)

/-- A closed circuit of `n` components some of which are the sides of internal heat exchangers. -/
structure Spec.CycleX (s T : ℝ → ℝ → ℝ) (P H : Set ℝ) (n : ℕ) (A : Finset ℕ) (f : ℕ → ℕ) (c : ℕ → EntStream)
    (θ q w : ℕ → ℝ) : Prop where
  closed : c n = c 0
  fluid : ∀ k ≤ n, Spec.StreamOf s P H (c k)
  flow : ∀ k ≤ n, (c k).m = (c 0).m
  pos : 0 < (c 0).m
  hot : ∀ a ∈ A, a < n
  cold : ∀ a ∈ A, f a < n ∧ f a ∉ A
  inj : ∀ a ∈ A, ∀ b ∈ A, f a = f b → a = b
  exchanger : ∀ a ∈ A, Spec.Exchanger T (c a) (c (a + 1)) (c (f a)) (c (f a + 1))
  temperature : ∀ k ∈ Spec.outerPart n A f, 0 < θ k
  component : ∀ k ∈ Spec.outerPart n A f, Spec.Component s T H 1 (θ k) (c k) (c (k + 1)) (q k) (w k)

variable {s T : ℝ → ℝ → ℝ} {P H : Set ℝ}

theorem sum_external {n : ℕ} {A : Finset ℕ} {f : ℕ → ℕ} (hot : ∀ a ∈ A, a < n) (cold : ∀ a ∈ A, f a < n ∧ f a ∉ A)
    (inj : ∀ a ∈ A, ∀ b ∈ A, f a = f b → a = b) (g : ℕ → ℝ) :
    ∑ k ∈ Finset.range n, g k = ∑ k ∈ Spec.outerPart n A f, g k + ∑ a ∈ A, (g a + g (f a)) := by
  have hsub : A ∪ A.image f ⊆ Finset.range n := by
    intro k hk
    rw [Finset.mem_union, Finset.mem_image] at hk
    rcases hk with hk | ⟨a, ha, rfl⟩
    · exact Finset.mem_range.2 (hot k hk)
    · exact Finset.mem_range.2 (cold a ha).1
  have hdis : Disjoint A (A.image f) := by
    rw [Finset.disjoint_right]
    intro k hk
    obtain ⟨a, ha, rfl⟩ := Finset.mem_image.1 hk
    exact (cold a ha).2
  rw [← Finset.sum_sdiff hsub, Finset.sum_union hdis, Finset.sum_image (fun a ha b hb => inj a ha b hb),
    ← Finset.sum_add_distrib]
  rfl

/-- C121 (Clausius) for circuits with any number of internal heat exchangers: the inequality holds for the heat exchanged
with the surroundings, and the power is the difference of this heat. -/
theorem C121_internal (F : Spec.Fluid s T P H) (n : ℕ) (A : Finset ℕ) (f : ℕ → ℕ) (c : ℕ → EntStream) (θ q w : ℕ → ℝ)
    (h : Spec.CycleX s T P H n A f c θ q w) :
    ∑ k ∈ Spec.outerPart n A f, q k / θ k ≤ 0
      ∧ ∑ k ∈ Spec.outerPart n A f, q k + ∑ k ∈ Spec.outerPart n A f, w k = 0 := by
  have hlt : ∀ k ∈ Spec.outerPart n A f, k < n := fun k hk => Finset.mem_range.1 (Finset.mem_sdiff.1 hk).1
  constructor
  · have h1 : ∀ k ∈ Spec.outerPart n A f, q k / θ k ≤ (c 0).m * ((c (k + 1)).s - (c k).s) := by
      intro k hk
      have hkn := hlt k hk
      have hf := h.flow k (by omega)
      have := component_entropy F (h.fluid k (by omega)) (h.fluid (k + 1) (by omega)) (by rw [hf]; exact h.pos)
        (h.temperature k hk) (h.component k hk)
      rwa [hf] at this
    have h2 : 0 ≤ ∑ a ∈ A, ((c 0).m * ((c (a + 1)).s - (c a).s) + (c 0).m * ((c (f a + 1)).s - (c (f a)).s)) := by
      refine Finset.sum_nonneg (fun a ha => ?_)
      have ha1 := h.hot a ha
      have ha2 := (h.cold a ha).1
      have e := h.exchanger a ha
      have f1 := h.flow a (by omega)
      have f2 := h.flow (f a) (by omega)
      obtain ⟨x, y⟩ := C107_heat_exchanger F F _ _ _ _ (h.fluid a (by omega)) (h.fluid (a + 1) (by omega))
        (h.fluid (f a) (by omega)) (h.fluid (f a + 1) (by omega)) (by rw [f1]; exact h.pos) (by rw [f2]; exact h.pos)
      have z := y e.hotFalls e.coldFalls e.cooled e.balance e.hotter
      rwa [x, f1, f2] at z
    have h3 := sum_external h.hot h.cold h.inj (fun k => (c 0).m * ((c (k + 1)).s - (c k).s))
    rw [← Finset.mul_sum, Finset.sum_range_sub (fun k => (c k).s), h.closed, sub_self, mul_zero] at h3
    have h4 := Finset.sum_le_sum h1
    linarith
  · have h1 : ∀ k ∈ Spec.outerPart n A f, q k + w k = (c 0).m * ((c (k + 1)).h - (c k).h) := by
      intro k hk
      have hkn := hlt k hk
      rw [component_energy (h.component k hk), h.flow k (by omega)]
    have h2 : ∑ a ∈ A, ((c 0).m * ((c (a + 1)).h - (c a).h) + (c 0).m * ((c (f a + 1)).h - (c (f a)).h)) = 0 := by
      refine Finset.sum_eq_zero (fun a ha => ?_)
      have e := (h.exchanger a ha).balance
      have ha1 := h.hot a ha
      have ha2 := (h.cold a ha).1
      rwa [h.flow a (by omega), h.flow (f a) (by omega)] at e
    have h3 := sum_external h.hot h.cold h.inj (fun k => (c 0).m * ((c (k + 1)).h - (c k).h))
    rw [← Finset.mul_sum, Finset.sum_range_sub (fun k => (c k).h), h.closed, sub_self, mul_zero] at h3
    rw [← Finset.sum_add_distrib, Finset.sum_congr rfl h1]
    linarith

/-- C121 (Carnot) for circuits with internal heat exchangers. -/
theorem C121_internal_carnot (F : Spec.Fluid s T P H) (n : ℕ) (A : Finset ℕ) (f : ℕ → ℕ) (c : ℕ → EntStream)
    (θ q w : ℕ → ℝ) (h : Spec.CycleX s T P H n A f c θ q w) (Th Tc : ℝ) (hTc : 0 < Tc)
    (hh : ∀ k ∈ Spec.outerPart n A f, 0 < q k → θ k ≤ Th) (hc : ∀ k ∈ Spec.outerPart n A f, q k < 0 → Tc ≤ θ k) :
    -∑ k ∈ Spec.outerPart n A f, w k ≤ (∑ k ∈ Spec.outerPart n A f, max (q k) 0) * (1 - Tc / Th) := by
  obtain ⟨h1, h2⟩ := C121_internal F n A f c θ q w h
  have h3 : (∑ k ∈ Spec.outerPart n A f, max (q k) 0) / Th - (∑ k ∈ Spec.outerPart n A f, max (-q k) 0) / Tc
      ≤ ∑ k ∈ Spec.outerPart n A f, q k / θ k := by
    rw [Finset.sum_div, Finset.sum_div, ← Finset.sum_sub_distrib]
    refine Finset.sum_le_sum (fun k hk => ?_)
    rcases lt_trichotomy (q k) 0 with hq | hq | hq
    · rw [max_eq_right hq.le, max_eq_left (by linarith), zero_div]
      have : -q k / θ k ≤ -q k / Tc := div_le_div_of_nonneg_left (by linarith) hTc (hc k hk hq)
      rw [neg_div] at this
      linarith
    · rw [hq]; simp
    · rw [max_eq_left hq.le, max_eq_right (by linarith), zero_div, sub_zero]
      exact div_le_div_of_nonneg_left hq.le (h.temperature k hk) (hh k hk hq)
  have h4 : ∑ k ∈ Spec.outerPart n A f, q k
      = ∑ k ∈ Spec.outerPart n A f, max (q k) 0 - ∑ k ∈ Spec.outerPart n A f, max (-q k) 0 := by
    rw [← Finset.sum_sub_distrib]
    refine Finset.sum_congr rfl (fun k _ => ?_)
    rcases le_total (q k) 0 with h | h
    · rw [max_eq_right h, max_eq_left (by linarith)]; ring
    · rw [max_eq_left h, max_eq_right (by linarith)]; ring
  have h5 := mul_le_mul_of_nonneg_right (h3.trans h1) hTc.le
  rw [sub_mul, div_mul_cancel₀ _ hTc.ne', zero_mul] at h5
  have h6 : (∑ k ∈ Spec.outerPart n A f, max (q k) 0) * (1 - Tc / Th)
      = (∑ k ∈ Spec.outerPart n A f, max (q k) 0) - (∑ k ∈ Spec.outerPart n A f, max (q k) 0) / Th * Tc := by ring
  rw [h6]
  linarith

/-- A recuperated gas turbine: compression from 1 to 2, heating to 3 in the recuperator and to 12 by the heat source, expansion to
6, cooling to 5 in the recuperator and to 1 by the heat sink. -/
example : ∃ (c : ℕ → EntStream) (q w : ℕ → ℝ),
    Spec.CycleX entGas (fun _ h => h) (Set.Ioi 0) (Set.Ioi 0) 6 {4} (fun _ => 1) c (fun k => if k = 2 then 12 else 1) q w
      ∧ q 2 = 9 ∧ q 5 = -4 ∧ w 0 = 1 ∧ w 3 = -6 := by
  refine ⟨fun k => if k = 1 then gasStream 1 2 2 else if k = 2 then gasStream 1 2 3 else if k = 3 then gasStream 1 2 12
      else if k = 4 then gasStream 1 1 6 else if k = 5 then gasStream 1 1 5 else gasStream 1 1 1,
    fun k => if k = 2 then 9 else if k = 5 then -4 else 0, fun k => if k = 0 then 1 else if k = 3 then -6 else 0,
    ⟨rfl, fun k _ => ?_, fun k _ => ?_, ?_, ?_, ?_, ?_, ?_, fun k _ => ?_, ?_⟩, by norm_num, by norm_num, by norm_num,
    by norm_num⟩
  · split_ifs <;> exact gasStream_of (by norm_num) (by norm_num)
  · split_ifs <;> rfl
  · norm_num [gasStream]
  · intro a ha; rw [Finset.mem_singleton] at ha; omega
  · intro a _; exact ⟨by norm_num, by decide⟩
  · intro a ha b hb _; rw [Finset.mem_singleton] at ha hb; omega
  · intro a ha
    rw [Finset.mem_singleton] at ha
    subst ha
    constructor
    · norm_num [gasStream]
    · norm_num [gasStream]
    · norm_num [gasStream]
    · norm_num [gasStream]
    · intro q _ _
      norm_num [gasStream]
  · split_ifs <;> norm_num
  · intro k hk
    have hk' : k = 0 ∨ k = 2 ∨ k = 3 ∨ k = 5 := by
      simp only [Spec.outerPart, Finset.mem_sdiff, Finset.mem_range, Finset.mem_union, Finset.mem_singleton,
        Finset.mem_image, not_or, not_exists, not_and] at hk
      have := hk.2.2 4 rfl
      omega
    rcases hk' with rfl | rfl | rfl | rfl
    · have hs : entGas 2 2 = entGas 1 1 := by simpa using entGas_eq 1 1 one_pos one_pos
      have := Spec.Component.compressor (s := entGas) (T := fun _ h => h) (H := Set.Ioi 0) (etaMax := 1) (θ := 1)
        (i := gasStream 1 1 1) (o := gasStream 1 2 2) 2 1 (by norm_num) hs (by norm_num [gasStream]) (by norm_num)
        (by norm_num) (by norm_num [pumpEtaRes, Spec.hstream, gasStream])
      norm_num [turboPReported, Spec.hstream, gasStream] at this ⊢
      exact this
    · have := Spec.Component.heater (s := entGas) (T := fun _ h => h) (H := Set.Ioi 0) (etaMax := 1) (θ := 12)
        (i := gasStream 1 2 3) (o := gasStream 1 2 12) (by norm_num [gasStream]) (by norm_num [gasStream])
        (by intro p _ _; norm_num [gasStream])
      norm_num [gasStream] at this ⊢
      exact this
    · have hs : entGas 1 6 = entGas 2 12 := by have := entGas_eq 1 6 one_pos (by norm_num); norm_num at this; exact this.symm
      have := Spec.Component.turbine (s := entGas) (T := fun _ h => h) (H := Set.Ioi 0) (etaMax := 1) (θ := 1)
        (i := gasStream 1 2 12) (o := gasStream 1 1 6) 6 1 (by norm_num) hs (by norm_num [gasStream]) (by norm_num)
        (by norm_num) (by norm_num [turbineEtaRes, Spec.hstream, gasStream])
      norm_num [turboPReported, Spec.hstream, gasStream] at this ⊢
      exact this
    · have := Spec.Component.cooler (s := entGas) (T := fun _ h => h) (H := Set.Ioi 0) (etaMax := 1) (θ := 1)
        (i := gasStream 1 1 5) (o := gasStream 1 1 1) (by norm_num [gasStream]) (by norm_num [gasStream])
        (by intro p _ _; norm_num [gasStream])
      norm_num [gasStream] at this ⊢
      exact this

/-- The temperatures of this example meet the hypotheses of `C121_internal_carnot` with `Th = 12` and `Tc = 1`; the
bound is `9 * (1 - 1 / 12) = 8.25`, the power delivered is `6 - 1 = 5`. -/
example : (0 : ℝ) < 1 ∧ (∀ k : ℕ, (if k = 2 then (12 : ℝ) else 1) ≤ 12) ∧ (∀ k : ℕ, (1 : ℝ) ≤ if k = 2 then 12 else 1)
    ∧ -((1 : ℝ) + -6) ≤ 9 * (1 - 1 / 12) := by
  refine ⟨by norm_num, fun k => ?_, fun k => ?_, by norm_num⟩ <;> split_ifs <;> norm_num

end Tespy
