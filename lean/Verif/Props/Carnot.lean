import Verif.Props.EntropyBal
import Verif.Model.HeatTransfer
import Mathlib.Algebra.BigOperators.Field
import Mathlib.Algebra.BigOperators.Intervals
import Mathlib.Algebra.Order.BigOperators.Group.Finset

/-!
C121: the second law for closed circuits.
-/
namespace Tespy

/-! ### Specification -/

/-- The stream at a connection in the equations of the components. -/
def Spec.hstream (c : EntStream) : HStream := ⟨c.m, c.p, c.h, 0, 0⟩

/-- A solved component between the connections `i` and `o` of a circuit, with the heat `q` it takes up and the power `w` it
consumes, in an environment of temperature `θ`. Machines fulfil the equation of the isentropic efficiency, `his` is the
enthalpy after the isentropic change of state. The pressure does not rise in valves and heat exchangers. A heater is not
hotter than its heat source at its outlet, a cooler not colder than its heat sink. -/
inductive Spec.Component (s T : ℝ → ℝ → ℝ) (H : Set ℝ) (etaMax θ : ℝ) (i o : EntStream) : ℝ → ℝ → Prop
  | compressor (his eta : ℝ) (hH : his ∈ H) (isentropic : s o.p his = s i.p i.h) (up : i.h ≤ his) (pos : 0 < eta)
      (le : eta ≤ etaMax) (eq : pumpEtaRes (Spec.hstream i) (Spec.hstream o) his eta = 0) :
      Component s T H etaMax θ i o 0 (turboPReported (Spec.hstream i) (Spec.hstream o))
  | turbine (his eta : ℝ) (hH : his ∈ H) (isentropic : s o.p his = s i.p i.h) (down : his ≤ i.h) (pos : 0 ≤ eta)
      (le : eta ≤ etaMax) (eq : turbineEtaRes (Spec.hstream i) (Spec.hstream o) his eta = 0) :
      Component s T H etaMax θ i o 0 (turboPReported (Spec.hstream i) (Spec.hstream o))
  | valve (eq : o.h = i.h) (falls : o.p ≤ i.p) : Component s T H etaMax θ i o 0 0
  | heater (heated : i.h ≤ o.h) (falls : o.p ≤ i.p) (source : ∀ p, o.p ≤ p → p ≤ i.p → T p o.h ≤ θ) :
      Component s T H etaMax θ i o (i.m * (o.h - i.h)) 0
  | cooler (cooled : o.h ≤ i.h) (falls : o.p ≤ i.p) (sink : ∀ p, o.p ≤ p → p ≤ i.p → θ ≤ T p o.h) :
      Component s T H etaMax θ i o (i.m * (o.h - i.h)) 0

/-- A closed circuit of `n` components: the last connection is the first one. -/
structure Spec.Cycle (s T : ℝ → ℝ → ℝ) (P H : Set ℝ) (etaMax : ℝ) (n : ℕ) (c : ℕ → EntStream) (θ q w : ℕ → ℝ) : Prop where
  closed : c n = c 0
  fluid : ∀ k ≤ n, Spec.StreamOf s P H (c k)
  flow : ∀ k ≤ n, (c k).m = (c 0).m
  pos : 0 < (c 0).m
  temperature : ∀ k < n, 0 < θ k
  component : ∀ k < n, Spec.Component s T H etaMax (θ k) (c k) (c (k + 1)) (q k) (w k)

variable {s T : ℝ → ℝ → ℝ} {P H : Set ℝ}

theorem component_energy {etaMax θ q w : ℝ} {i o : EntStream} (h : Spec.Component s T H etaMax θ i o q w) :
    q + w = i.m * (o.h - i.h) := by
  cases h with
  | compressor his eta hH hs up pos le eq => simp [turboPReported, Spec.hstream]
  | turbine his eta hH hs down pos le eq => simp [turboPReported, Spec.hstream]
  | valve eq falls => rw [eq]; simp
  | heater heated falls source => simp
  | cooler cooled falls sink => simp

theorem component_entropy (F : Spec.Fluid s T P H) {θ q w : ℝ} {i o : EntStream} (hi : Spec.StreamOf s P H i)
    (ho : Spec.StreamOf s P H o) (hm : 0 < i.m) (hθ : 0 < θ) (h : Spec.Component s T H 1 θ i o q w) :
    q / θ ≤ i.m * (o.s - i.s) := by
  cases h with
  | compressor his eta hH hs up pos le eq =>
    rw [zero_div]
    refine (C107_machine F i o hi ho hm his hH hs).2 ?_
    simp only [pumpEtaRes, Spec.hstream] at eq
    have h1 : 0 ≤ (o.h - i.h) * eta := by linarith
    have h2 : 0 ≤ o.h - i.h := nonneg_of_mul_nonneg_left h1 pos
    have h3 := mul_nonneg h2 (sub_nonneg.2 le)
    linarith
  | turbine his eta hH hs down pos le eq =>
    rw [zero_div]
    refine (C107_machine F i o hi ho hm his hH hs).2 ?_
    simp only [turbineEtaRes, Spec.hstream] at eq
    have h3 := mul_nonneg (sub_nonneg.2 down) (sub_nonneg.2 le)
    linarith
  | valve eq falls =>
    rw [zero_div]
    exact C107_valve F i o hi ho hm.le eq falls
  | heater heated falls source =>
    obtain ⟨h1, h2, h3, h4, h5⟩ := C107_stream F i o hi ho hm falls
    obtain ⟨hP, hle, hge⟩ := pStar_mem F.pconv hi.pr ho.pr (F.ppos _ ho.pr) falls
    by_cases hne : o.h = i.h
    · rw [hne, sub_self, mul_zero, zero_div]
      have := (h5 hne).2
      linarith
    · obtain ⟨t, -, ht, -, htu⟩ := h4 hne
      have hSQ : 0 ≤ (simpleEnt i o).SQ := h3.2 (mul_nonneg hm.le (sub_nonneg.2 heated))
      rw [max_eq_right (F.warmer _ hP hi.en ho.en heated)] at htu
      have h6 := mul_le_mul_of_nonneg_right (htu.trans (source _ hle hge)) hSQ
      rw [div_le_iff₀ hθ]
      rw [ht] at h6
      have h7 := mul_nonneg h2 hθ.le
      rw [← h1]
      linarith
  | cooler cooled falls sink =>
    obtain ⟨h1, h2, h3, h4, h5⟩ := C107_stream F i o hi ho hm falls
    obtain ⟨hP, hle, hge⟩ := pStar_mem F.pconv hi.pr ho.pr (F.ppos _ ho.pr) falls
    by_cases hne : o.h = i.h
    · rw [hne, sub_self, mul_zero, zero_div]
      have := (h5 hne).2
      linarith
    · obtain ⟨t, -, ht, htl, -⟩ := h4 hne
      have hq : i.m * (o.h - i.h) < 0 := mul_neg_of_pos_of_neg hm (sub_neg.2 (lt_of_le_of_ne cooled hne))
      have hSQ : (simpleEnt i o).SQ ≤ 0 := by
        by_contra hn
        exact absurd (h3.1 (not_le.1 hn).le) (not_le.2 hq)
      rw [min_eq_right (F.warmer _ hP ho.en hi.en cooled)] at htl
      have h6 := mul_le_mul_of_nonpos_right ((sink _ hle hge).trans htl) hSQ
      rw [div_le_iff₀ hθ]
      rw [ht] at h6
      have h7 := mul_nonneg h2 hθ.le
      rw [← h1]
      linarith

/-- C121 (Clausius): in every closed circuit of machines with efficiencies up to one, valves, heaters and coolers the sum of the
heat divided by the temperature of its source or sink is not positive, and the power is the difference of the heat. -/
theorem C121_clausius (F : Spec.Fluid s T P H) (n : ℕ) (c : ℕ → EntStream) (θ q w : ℕ → ℝ)
    (h : Spec.Cycle s T P H 1 n c θ q w) :
    ∑ k ∈ Finset.range n, q k / θ k ≤ 0 ∧ ∑ k ∈ Finset.range n, q k + ∑ k ∈ Finset.range n, w k = 0 := by
  constructor
  · have h1 : ∀ k ∈ Finset.range n, q k / θ k ≤ (c 0).m * ((c (k + 1)).s - (c k).s) := by
      intro k hk
      have hkn := Finset.mem_range.1 hk
      have hf := h.flow k (by omega)
      have := component_entropy F (h.fluid k (by omega)) (h.fluid (k + 1) (by omega)) (by rw [hf]; exact h.pos)
        (h.temperature k hkn) (h.component k hkn)
      rwa [hf] at this
    refine (Finset.sum_le_sum h1).trans ?_
    rw [← Finset.mul_sum, Finset.sum_range_sub (fun k => (c k).s), h.closed, sub_self, mul_zero]
  · have h1 : ∀ k ∈ Finset.range n, q k + w k = (c 0).m * ((c (k + 1)).h - (c k).h) := by
      intro k hk
      have hkn := Finset.mem_range.1 hk
      rw [component_energy (h.component k hkn), h.flow k (by omega)]
    rw [← Finset.sum_add_distrib, Finset.sum_congr rfl h1, ← Finset.mul_sum, Finset.sum_range_sub (fun k => (c k).h),
      h.closed, sub_self, mul_zero]

theorem carnot_aux (n : ℕ) (θ q : ℕ → ℝ) (Th Tc : ℝ) (hTc : 0 < Tc)
    (hθ : ∀ k < n, 0 < θ k) (hh : ∀ k < n, 0 < q k → θ k ≤ Th) (hc : ∀ k < n, q k < 0 → Tc ≤ θ k) :
    (∑ k ∈ Finset.range n, max (q k) 0) / Th - (∑ k ∈ Finset.range n, max (-q k) 0) / Tc
      ≤ ∑ k ∈ Finset.range n, q k / θ k := by
  rw [Finset.sum_div, Finset.sum_div, ← Finset.sum_sub_distrib]
  refine Finset.sum_le_sum (fun k hk => ?_)
  have hkn := Finset.mem_range.1 hk
  rcases lt_trichotomy (q k) 0 with hq | hq | hq
  · rw [max_eq_right hq.le, max_eq_left (by linarith), zero_div]
    have : -q k / θ k ≤ -q k / Tc := div_le_div_of_nonneg_left (by linarith) hTc (hc k hkn hq)
    rw [neg_div] at this
    linarith
  · rw [hq]; simp
  · rw [max_eq_left hq.le, max_eq_right (by linarith), zero_div, sub_zero]
    exact div_le_div_of_nonneg_left hq.le (hθ k hkn) (hh k hkn hq)

theorem sum_max_sub (n : ℕ) (q : ℕ → ℝ) : ∑ k ∈ Finset.range n, q k
    = ∑ k ∈ Finset.range n, max (q k) 0 - ∑ k ∈ Finset.range n, max (-q k) 0 := by
  rw [← Finset.sum_sub_distrib]
  refine Finset.sum_congr rfl (fun k _ => ?_)
  rcases le_total (q k) 0 with h | h
  · rw [max_eq_right h, max_eq_left (by linarith)]; ring
  · rw [max_eq_left h, max_eq_right (by linarith)]; ring

/-- C121 (Carnot): the power delivered by a circuit that takes up heat at temperatures up to `Th` and releases heat at
temperatures from `Tc` is at most the share `1 - Tc / Th` of the heat taken up. -/
theorem C121_carnot (F : Spec.Fluid s T P H) (n : ℕ) (c : ℕ → EntStream) (θ q w : ℕ → ℝ)
    (h : Spec.Cycle s T P H 1 n c θ q w) (Th Tc : ℝ) (hTc : 0 < Tc)
    (hh : ∀ k < n, 0 < q k → θ k ≤ Th) (hc : ∀ k < n, q k < 0 → Tc ≤ θ k) :
    -∑ k ∈ Finset.range n, w k ≤ (∑ k ∈ Finset.range n, max (q k) 0) * (1 - Tc / Th) := by
  obtain ⟨h1, h2⟩ := C121_clausius F n c θ q w h
  have h3 := (carnot_aux n θ q Th Tc hTc h.temperature hh hc).trans h1
  rw [sum_max_sub n q] at h2
  have h4 := mul_le_mul_of_nonneg_right h3 hTc.le
  rw [sub_mul, div_mul_cancel₀ _ hTc.ne', zero_mul] at h4
  have h5 : (∑ k ∈ Finset.range n, max (q k) 0) * (1 - Tc / Th)
      = (∑ k ∈ Finset.range n, max (q k) 0) - (∑ k ∈ Finset.range n, max (q k) 0) / Th * Tc := by ring
  rw [h5]
  linarith

/-- C121 (heat pumps): a circuit that takes up heat at temperatures up to `Tc` and releases heat at temperatures from `Th`
needs at least the share `1 - Tc / Th` of the heat released as power. -/
theorem C121_heat_pump (F : Spec.Fluid s T P H) (n : ℕ) (c : ℕ → EntStream) (θ q w : ℕ → ℝ)
    (h : Spec.Cycle s T P H 1 n c θ q w) (Th Tc : ℝ) (hTh : 0 < Th) (hTc : 0 < Tc)
    (hc : ∀ k < n, 0 < q k → θ k ≤ Tc) (hh : ∀ k < n, q k < 0 → Th ≤ θ k) :
    (∑ k ∈ Finset.range n, max (-q k) 0) * (1 - Tc / Th) ≤ ∑ k ∈ Finset.range n, w k := by
  obtain ⟨h1, h2⟩ := C121_clausius F n c θ q w h
  have h3 := (carnot_aux n θ q Tc Th hTh h.temperature hc hh).trans h1
  rw [sum_max_sub n q] at h2
  have h4 := mul_le_mul_of_nonneg_right h3 hTc.le
  rw [sub_mul, div_mul_cancel₀ _ hTc.ne', zero_mul] at h4
  have h5 : (∑ k ∈ Finset.range n, max (-q k) 0) * (1 - Tc / Th)
      = (∑ k ∈ Finset.range n, max (-q k) 0) - (∑ k ∈ Finset.range n, max (-q k) 0) / Th * Tc := by ring
  rw [h5]
  linarith

/-! ### Examples -/

theorem entGas_eq (a b : ℝ) (ha : 0 < a) (hb : 0 < b) : entGas (2 * a) (2 * b) = entGas a b := by
  simp only [entGas]
  rw [Real.log_mul (by norm_num) ha.ne', Real.log_mul (by norm_num) hb.ne']
  ring

/-- A gas turbine: isentropic compression, heating to 4, isentropic expansion, cooling to 1. -/
example : ∃ (c : ℕ → EntStream) (q w : ℕ → ℝ),
    Spec.Cycle entGas (fun _ h => h) (Set.Ioi 0) (Set.Ioi 0) 1 4 c (fun k => if k = 1 then 4 else 1) q w
      ∧ q 1 = 2 ∧ q 3 = -1 ∧ w 0 = 1 ∧ w 2 = -2 := by
  refine ⟨fun k => if k = 1 then gasStream 1 2 2 else if k = 2 then gasStream 1 2 4 else if k = 3 then gasStream 1 1 2
      else gasStream 1 1 1, fun k => if k = 1 then 2 else if k = 3 then -1 else 0,
    fun k => if k = 0 then 1 else if k = 2 then -2 else 0,
    ⟨rfl, fun k _ => ?_, fun k _ => ?_, ?_, fun k _ => ?_, ?_⟩, by norm_num, by norm_num, by norm_num, by norm_num⟩
  · split_ifs <;> exact gasStream_of (by norm_num) (by norm_num)
  · split_ifs <;> rfl
  · norm_num [gasStream]
  · split_ifs <;> norm_num
  · intro k hk
    have : k = 0 ∨ k = 1 ∨ k = 2 ∨ k = 3 := by omega
    rcases this with rfl | rfl | rfl | rfl
    · have hs : entGas 2 2 = entGas 1 1 := by simpa using entGas_eq 1 1 one_pos one_pos
      have := Spec.Component.compressor (s := entGas) (T := fun _ h => h) (H := Set.Ioi 0) (etaMax := 1) (θ := 1)
        (i := gasStream 1 1 1) (o := gasStream 1 2 2) 2 1 (by norm_num) hs (by norm_num [gasStream]) (by norm_num)
        (by norm_num) (by norm_num [pumpEtaRes, Spec.hstream, gasStream])
      norm_num [turboPReported, Spec.hstream, gasStream] at this ⊢
      exact this
    · have := Spec.Component.heater (s := entGas) (T := fun _ h => h) (H := Set.Ioi 0) (etaMax := 1) (θ := 4)
        (i := gasStream 1 2 2) (o := gasStream 1 2 4) (by norm_num [gasStream]) (by norm_num [gasStream])
        (by intro p _ _; norm_num [gasStream])
      norm_num [gasStream] at this ⊢
      exact this
    · have hs : entGas 1 2 = entGas 2 4 := by have := entGas_eq 1 2 one_pos two_pos; norm_num at this; exact this.symm
      have := Spec.Component.turbine (s := entGas) (T := fun _ h => h) (H := Set.Ioi 0) (etaMax := 1) (θ := 1)
        (i := gasStream 1 2 4) (o := gasStream 1 1 2) 2 1 (by norm_num) hs (by norm_num [gasStream]) (by norm_num)
        (by norm_num) (by norm_num [turbineEtaRes, Spec.hstream, gasStream])
      norm_num [turboPReported, Spec.hstream, gasStream] at this ⊢
      exact this
    · have := Spec.Component.cooler (s := entGas) (T := fun _ h => h) (H := Set.Ioi 0) (etaMax := 1) (θ := 1)
        (i := gasStream 1 1 2) (o := gasStream 1 1 1) (by norm_num [gasStream]) (by norm_num [gasStream])
        (by intro p _ _; norm_num [gasStream])
      norm_num [gasStream] at this ⊢
      exact this

/-- C121: with an isentropic efficiency of 1.5 of a turbine a circuit of three components turns all the heat into power; the
equations do not exclude it. -/
theorem C121_efficiency_false : ∃ (c : ℕ → EntStream) (q w : ℕ → ℝ),
    Spec.Cycle entGas (fun _ h => h) (Set.Ioi 0) (Set.Ioi 0) (3 / 2) 3 c (fun _ => 4) q w
      ∧ (∀ k, 0 ≤ q k) ∧ -∑ k ∈ Finset.range 3, w k = 2 ∧ ∑ k ∈ Finset.range 3, q k = 2 := by
  refine ⟨fun k => if k = 1 then gasStream 1 2 2 else if k = 2 then gasStream 1 2 4 else gasStream 1 1 1,
    fun k => if k = 1 then 2 else 0, fun k => if k = 0 then 1 else if k = 2 then -3 else 0,
    ⟨rfl, fun k _ => ?_, fun k _ => ?_, ?_, fun k _ => ?_, ?_⟩, ?_, ?_, ?_⟩
  · split_ifs <;> exact gasStream_of (by norm_num) (by norm_num)
  · split_ifs <;> rfl
  · norm_num [gasStream]
  · norm_num
  · intro k hk
    have : k = 0 ∨ k = 1 ∨ k = 2 := by omega
    rcases this with rfl | rfl | rfl
    · have hs : entGas 2 2 = entGas 1 1 := by simpa using entGas_eq 1 1 one_pos one_pos
      have := Spec.Component.compressor (s := entGas) (T := fun _ h => h) (H := Set.Ioi 0) (etaMax := 3 / 2) (θ := 4)
        (i := gasStream 1 1 1) (o := gasStream 1 2 2) 2 1 (by norm_num) hs (by norm_num [gasStream]) (by norm_num)
        (by norm_num) (by norm_num [pumpEtaRes, Spec.hstream, gasStream])
      norm_num [turboPReported, Spec.hstream, gasStream] at this ⊢
      exact this
    · have := Spec.Component.heater (s := entGas) (T := fun _ h => h) (H := Set.Ioi 0) (etaMax := 3 / 2) (θ := 4)
        (i := gasStream 1 2 2) (o := gasStream 1 2 4) (by norm_num [gasStream]) (by norm_num [gasStream])
        (by intro p _ _; norm_num [gasStream])
      norm_num [gasStream] at this ⊢
      exact this
    · have hs : entGas 1 2 = entGas 2 4 := by have := entGas_eq 1 2 one_pos two_pos; norm_num at this; exact this.symm
      have := Spec.Component.turbine (s := entGas) (T := fun _ h => h) (H := Set.Ioi 0) (etaMax := 3 / 2) (θ := 4)
        (i := gasStream 1 2 4) (o := gasStream 1 1 1) 2 (3 / 2) (by norm_num) hs (by norm_num [gasStream]) (by norm_num)
        (by norm_num) (by norm_num [turbineEtaRes, Spec.hstream, gasStream])
      norm_num [turboPReported, Spec.hstream, gasStream] at this ⊢
      exact this
  · intro k; dsimp only; split_ifs <;> norm_num
  · norm_num [Finset.sum_range_succ]
  · norm_num [Finset.sum_range_succ]

end Tespy
