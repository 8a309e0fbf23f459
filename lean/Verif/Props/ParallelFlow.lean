import Verif.Props.PumpPoint
import Mathlib.Algebra.Order.BigOperators.Group.Finset
import Mathlib.Data.Fintype.BigOperators

/-!
C118: distribution of a flow to parallel branches.
-/
namespace Tespy

/-! ### Specification -/

/-- Branches with zeta values between two nodes: every branch is solved and has the pressures `pi` and `po` of the nodes
at its ends (the pressure equality of splitter and merge). -/
structure Spec.Parallel {ι : Type} (i o : ι → HStream) (zeta : ι → ℝ) (pi po : ℝ) : Prop where
  solved : ∀ j, zetaRes (i j) (o j) (zeta j) = .ok 0
  inlet : ∀ j, (i j).p = pi
  outlet : ∀ j, (o j).p = po

/-- Resistances and specific volumes for which the loss is meaningful, the same in both states. -/
structure Spec.SameBranches {ι : Type} (i o i' o' : ι → HStream) (zeta : ι → ℝ) : Prop where
  zeta : ∀ j, 0 < zeta j
  vol : ∀ j, 0 < (i j).vol + (o j).vol
  same : ∀ j, (i' j).vol + (o' j).vol = (i j).vol + (o j).vol

variable {ι : Type} {i o i' o' : ι → HStream} {zeta : ι → ℝ} {pi po pi' po' : ℝ}

theorem parallel_loss (h : Spec.Parallel i o zeta pi po) (hv : ∀ j, 0 < (i j).vol + (o j).vol) (j : ι) :
    Spec.ZetaLoss (zeta j) ((i j).vol + (o j).vol) (i j).m (pi - po) := by
  have := (C59_zeta_meaning _ _ _ (hv j)).1 (h.solved j)
  rw [h.inlet, h.outlet] at this
  unfold Spec.ZetaLoss
  rw [sub_eq_zero]
  exact this

/-- A larger loss needs a larger flow. -/
theorem zetaLoss_lt_flow {z V m m' d d' : ℝ} (hz : 0 < z) (hV : 0 < V) (h : Spec.ZetaLoss z V m d)
    (h' : Spec.ZetaLoss z V m' d') (hd : d < d') : m < m' := by
  by_contra hn
  rcases (not_lt.1 hn).lt_or_eq with hlt | heq
  · by_cases hb : 1 / 10000 ≤ |m'| ∨ 1 / 10000 ≤ |m|
    · exact absurd (zetaLoss_strict hz hV h' h hlt hb) (not_lt.2 hd.le)
    · rw [not_or] at hb
      rcases h with ⟨-, h0⟩ | ⟨hs, -⟩
      · rcases h' with ⟨-, h0'⟩ | ⟨hs, -⟩
        · rw [h0, h0'] at hd; exact lt_irrefl _ hd
        · exact hb.1 hs
      · exact hb.2 hs
  · subst heq
    have hpi : 0 < Real.pi ^ 2 := by have := Real.pi_pos; positivity
    rcases h with ⟨hs, h0⟩ | ⟨hs, h0⟩ <;> rcases h' with ⟨hs', h0'⟩ | ⟨hs', h0'⟩
    · rw [h0, h0'] at hd; exact lt_irrefl _ hd
    · exact absurd hs (not_lt.2 hs')
    · exact absurd hs' (not_lt.2 hs)
    · exact hd.ne (mul_right_cancel₀ hpi.ne' (h0.trans h0'.symm))

/-- A loss different from zero determines the flow. -/
theorem zetaLoss_flow_eq {z V m m' d : ℝ} (hz : 0 < z) (hV : 0 < V) (h : Spec.ZetaLoss z V m d)
    (h' : Spec.ZetaLoss z V m' d) (hd : d ≠ 0) : m = m' := by
  have hb : 1 / 10000 ≤ |m| := by
    rcases h with ⟨-, h0⟩ | ⟨hs, -⟩
    · exact absurd h0 hd
    · exact hs
  rcases lt_trichotomy m m' with hlt | heq | hgt
  · exact absurd (zetaLoss_strict hz hV h h' hlt (.inl hb)) (lt_irrefl _)
  · exact heq
  · exact absurd (zetaLoss_strict hz hV h' h hgt (.inr hb)) (lt_irrefl _)

/-- A flow of at least 0.0001 has a loss. -/
theorem zetaLoss_ne {z V m d : ℝ} (hz : 0 < z) (hV : 0 < V) (h : Spec.ZetaLoss z V m d) (hb : 1 / 10000 ≤ |m|) :
    d ≠ 0 := by
  rcases h with ⟨hs, -⟩ | ⟨-, h0⟩
  · exact absurd hs (not_lt.2 hb)
  · intro hd
    have hm : |m| ≠ 0 := by
      have : 0 < |m| := by linarith
      exact this.ne'
    rw [hd, zero_mul] at h0
    have hm' : m ≠ 0 := abs_ne_zero.1 hm
    have : z * (8 * |m| * m * (V / 2)) ≠ 0 := by
      refine mul_ne_zero hz.ne' (mul_ne_zero (mul_ne_zero (mul_ne_zero (by norm_num) hm) hm') (half_pos hV).ne')
    exact this h0.symm

section
variable [Fintype ι]

/-- C118: parallel branches share a flow in one way: two solved states with the same total flow have the same flow in
every branch and the same loss of pressure, if one of the branches has a flow of at least 0.0001. -/
theorem C118_distribution_partial (h : Spec.Parallel i o zeta pi po) (h' : Spec.Parallel i' o' zeta pi' po')
    (hs : Spec.SameBranches i o i' o' zeta) (htotal : ∑ j, (i j).m = ∑ j, (i' j).m)
    (hbig : ∃ j, 1 / 10000 ≤ |(i j).m|) : pi - po = pi' - po' ∧ ∀ j, (i j).m = (i' j).m := by
  obtain ⟨j0, hj0⟩ := hbig
  have hl := parallel_loss h hs.vol
  have hl' := parallel_loss h' (fun j => by rw [hs.same]; exact hs.vol j)
  simp only [hs.same] at hl'
  rcases lt_trichotomy (pi - po) (pi' - po') with hlt | heq | hgt
  · have := Finset.sum_lt_sum_of_nonempty ⟨j0, Finset.mem_univ j0⟩
      (fun j _ => zetaLoss_lt_flow (hs.zeta j) (hs.vol j) (hl j) (hl' j) hlt)
    exact absurd htotal this.ne
  · refine ⟨heq, fun j => ?_⟩
    have hne := zetaLoss_ne (hs.zeta j0) (hs.vol j0) (hl j0) hj0
    have h2 := hl' j
    rw [← heq] at h2
    exact zetaLoss_flow_eq (hs.zeta j) (hs.vol j) (hl j) h2 hne
  · have := Finset.sum_lt_sum_of_nonempty ⟨j0, Finset.mem_univ j0⟩
      (fun j _ => zetaLoss_lt_flow (hs.zeta j) (hs.vol j) (hl' j) (hl j) hgt)
    exact absurd htotal this.ne'

/-- C118: a larger total flow is larger in every branch and has a larger loss. -/
theorem C118_more_flow (h : Spec.Parallel i o zeta pi po) (h' : Spec.Parallel i' o' zeta pi' po')
    (hs : Spec.SameBranches i o i' o' zeta) (htotal : ∑ j, (i j).m < ∑ j, (i' j).m)
    (hbig : ∃ j, 1 / 10000 ≤ |(i j).m|) : pi - po < pi' - po' ∧ ∀ j, (i j).m < (i' j).m := by
  obtain ⟨j0, hj0⟩ := hbig
  have hl := parallel_loss h hs.vol
  have hl' := parallel_loss h' (fun j => by rw [hs.same]; exact hs.vol j)
  simp only [hs.same] at hl'
  rcases lt_trichotomy (pi - po) (pi' - po') with hlt | heq | hgt
  · exact ⟨hlt, fun j => zetaLoss_lt_flow (hs.zeta j) (hs.vol j) (hl j) (hl' j) hlt⟩
  · have hne := zetaLoss_ne (hs.zeta j0) (hs.vol j0) (hl j0) hj0
    have : ∑ j, (i j).m = ∑ j, (i' j).m := Finset.sum_congr rfl (fun j _ => by
      have h2 := hl' j
      rw [← heq] at h2
      exact zetaLoss_flow_eq (hs.zeta j) (hs.vol j) (hl j) h2 hne)
    exact absurd htotal (this ▸ lt_irrefl _)
  · have := Finset.sum_lt_sum_of_nonempty ⟨j0, Finset.mem_univ j0⟩
      (fun j _ => zetaLoss_lt_flow (hs.zeta j) (hs.vol j) (hl' j) (hl j) hgt)
    exact absurd htotal (not_lt.2 this.le)

end

/-- C118: with a loss of pressure no branch stands still, all flow towards the lower pressure, and the squares of the
flows are in the inverse ratio of resistance times volume. -/
theorem C118_share (h : Spec.Parallel i o zeta pi po) (hz : ∀ j, 0 < zeta j) (hv : ∀ j, 0 < (i j).vol + (o j).vol)
    (hd : po < pi) (j k : ι) : 1 / 10000 ≤ (i j).m
      ∧ zeta j * ((i j).vol + (o j).vol) * (i j).m ^ 2 = zeta k * ((i k).vol + (o k).vol) * (i k).m ^ 2 := by
  have hpi : 0 < Real.pi ^ 2 := by have := Real.pi_pos; positivity
  have key : ∀ j, 1 / 10000 ≤ (i j).m
      ∧ 4 * (zeta j * ((i j).vol + (o j).vol) * (i j).m ^ 2) = (pi - po) * Real.pi ^ 2 := by
    intro j
    rcases parallel_loss h hv j with ⟨-, h0⟩ | ⟨hb, h0⟩
    · linarith
    · have hpos : 0 < (i j).m := by
        by_contra hn
        have hle := not_lt.1 hn
        have h1 : 0 < (pi - po) * Real.pi ^ 2 := mul_pos (by linarith) hpi
        have h2 : 0 ≤ zeta j * (8 * |(i j).m| * -(i j).m * (((i j).vol + (o j).vol) / 2)) :=
          mul_nonneg (hz j).le (mul_nonneg (mul_nonneg (by positivity) (by linarith)) (half_pos (hv j)).le)
        rw [h0] at h1
        linarith
      rw [abs_of_pos hpos] at hb h0
      refine ⟨hb, ?_⟩
      rw [h0]; ring
  refine ⟨(key j).1, ?_⟩
  have := (key j).2.trans (key k).2.symm
  linarith

/-- A larger resistance with a loss that is not larger has a smaller flow. -/
theorem zetaLoss_throttle {z z' V m m' d d' : ℝ} (hz : 0 < z) (hzz : z < z') (hV : 0 < V) (h : Spec.ZetaLoss z V m d)
    (h' : Spec.ZetaLoss z' V m' d') (hd : 0 < d) (hle : d' ≤ d) : m' < m := by
  have hpi : 0 < Real.pi ^ 2 := by have := Real.pi_pos; positivity
  have hk : 0 < 8 * (V / 2) := by positivity
  rcases h with ⟨-, h0⟩ | ⟨hb, h0⟩
  · linarith
  by_contra hn
  have hmm := not_lt.1 hn
  have hpos : 0 < m := by
    by_contra hm
    have h1 : 0 < d * Real.pi ^ 2 := mul_pos hd hpi
    have h2 : 0 ≤ z * (8 * |m| * -m * (V / 2)) :=
      mul_nonneg hz.le (mul_nonneg (mul_nonneg (by positivity) (by linarith)) (half_pos hV).le)
    rw [h0] at h1
    linarith
  have hpos' : 0 < m' := lt_of_lt_of_le hpos hmm
  rw [abs_of_pos hpos] at hb h0
  rcases h' with ⟨hs, -⟩ | ⟨-, h0'⟩
  · rw [abs_of_pos hpos'] at hs; linarith
  rw [abs_of_pos hpos'] at h0'
  have h1 := mul_le_mul hmm hmm hpos.le hpos'.le
  have h2 := mul_le_mul_of_nonneg_right h1 hk.le
  have h3 := mul_le_mul_of_nonneg_left h2 hz.le
  have h4 := mul_lt_mul_of_pos_right hzz (mul_pos (mul_pos hpos' hpos') hk)
  have h5 := mul_le_mul_of_nonneg_right hle hpi.le
  rw [h0, h0'] at h5
  linarith

/-- C118: closing a valve in one of several branches at constant total flow lowers the flow of this branch, and raises the
flow of all others and the loss of pressure. -/
theorem C118_throttle [Fintype ι] {zeta' : ι → ℝ} (h : Spec.Parallel i o zeta pi po)
    (h' : Spec.Parallel i' o' zeta' pi' po') (hs : Spec.SameBranches i o i' o' zeta)
    (htotal : ∑ j, (i j).m = ∑ j, (i' j).m) (hd : po < pi) (j0 j1 : ι) (hj : j1 ≠ j0) (hz : zeta j0 < zeta' j0)
    (hother : ∀ j, j ≠ j0 → zeta' j = zeta j) :
    pi - po < pi' - po' ∧ (i' j0).m < (i j0).m ∧ ∀ j, j ≠ j0 → (i j).m < (i' j).m := by
  have hl := parallel_loss h hs.vol
  have hl' := parallel_loss h' (fun j => by rw [hs.same]; exact hs.vol j)
  simp only [hs.same] at hl'
  have hd0 : 0 < pi - po := by linarith
  have hloss : pi - po < pi' - po' := by
    by_contra hn
    have hle := not_lt.1 hn
    have h0 : (i' j0).m < (i j0).m := zetaLoss_throttle (hs.zeta j0) hz (hs.vol j0) (hl j0) (hl' j0) hd0 hle
    have hrest : ∀ j ∈ Finset.univ, (i' j).m ≤ (i j).m := by
      intro j _
      by_cases hjj : j = j0
      · rw [hjj]; exact h0.le
      · have h2 := hl' j
        rw [hother j hjj] at h2
        rcases hle.lt_or_eq with hlt | heq
        · exact (zetaLoss_lt_flow (hs.zeta j) (hs.vol j) h2 (hl j) hlt).le
        · rw [heq] at h2
          exact (zetaLoss_flow_eq (hs.zeta j) (hs.vol j) h2 (hl j) hd0.ne').le
    exact absurd htotal (Finset.sum_lt_sum hrest ⟨j0, Finset.mem_univ _, h0⟩).ne'
  have hmore : ∀ j, j ≠ j0 → (i j).m < (i' j).m := by
    intro j hjj
    have h2 := hl' j
    rw [hother j hjj] at h2
    exact zetaLoss_lt_flow (hs.zeta j) (hs.vol j) (hl j) h2 hloss
  refine ⟨hloss, ?_, hmore⟩
  by_contra hn
  have hall : ∀ j ∈ Finset.univ, (i j).m ≤ (i' j).m := by
    intro j _
    by_cases hjj : j = j0
    · rw [hjj]; exact not_lt.1 hn
    · exact (hmore j hjj).le
  exact absurd htotal (Finset.sum_lt_sum hall ⟨j1, Finset.mem_univ _, hmore j1 hj⟩).ne

/-- C118: two resistances in series with the same volumes act as the sum of the resistances. -/
theorem C118_series (i c o : HStream) (z w : ℝ) (hm : c.m = i.m) (hv : 0 < i.vol) (hc : c.vol = i.vol) (ho : o.vol = i.vol)
    (h1 : zetaRes i c z = .ok 0) (h2 : zetaRes c o w = .ok 0) : zetaRes i o (z + w) = .ok 0 := by
  rw [C59_zeta_meaning _ _ _ (by rw [hc]; linarith)] at h1
  rw [C59_zeta_meaning _ _ _ (by rw [hc, ho]; linarith)] at h2
  rw [C59_zeta_meaning _ _ _ (by rw [ho]; linarith)]
  rw [hc] at h1
  rw [hc, ho, hm] at h2
  rw [ho]
  rcases h1 with ⟨a, b⟩ | ⟨a, b⟩ <;> rcases h2 with ⟨a', b'⟩ | ⟨a', b'⟩
  · exact .inl ⟨a, b.trans b'⟩
  · exact absurd a (not_lt.2 a')
  · exact absurd a' (not_lt.2 a)
  · exact .inr ⟨a, by linear_combination b + b'⟩

/-! ### Examples -/

/-- Two branches, the second with four times the resistance, share the flow 3 as 2 and 1. -/
example : Spec.Parallel (fun j : Bool => ⟨if j then 2 else 1, 4, 0, 0, 1⟩) (fun j => ⟨if j then 2 else 1, 0, 0, 0, 1⟩)
      (fun j => (if j then 1 else 4) * (Real.pi ^ 2 / 8)) 4 0
    ∧ Spec.SameBranches (fun j : Bool => ⟨if j then 2 else 1, 4, 0, 0, 1⟩) (fun j => ⟨if j then 2 else 1, 0, 0, 0, 1⟩)
      (fun j : Bool => ⟨if j then 2 else 1, 4, 0, 0, 1⟩) (fun j => ⟨if j then 2 else 1, 0, 0, 0, 1⟩)
      (fun j => (if j then 1 else 4) * (Real.pi ^ 2 / 8)) := by
  have hpi := Real.pi_pos
  refine ⟨⟨fun j => ?_, fun _ => rfl, fun _ => rfl⟩, ⟨fun j => ?_, fun j => by norm_num, fun _ => rfl⟩⟩
  · rw [C59_zeta_meaning _ _ _ (by norm_num)]
    refine .inr ?_
    cases j <;> simp <;> constructor <;> norm_num <;> ring
  · cases j <;> simp <;> positivity

/-- The same total flow 3 after the resistance of the first branch has grown from 1 to 16: 1 and 2, the loss is 16. -/
example : Spec.Parallel (fun j : Bool => ⟨if j then 1 else 2, 16, 0, 0, 1⟩) (fun j => ⟨if j then 1 else 2, 0, 0, 0, 1⟩)
      (fun j => (if j then 16 else 4) * (Real.pi ^ 2 / 8)) 16 0 := by
  have hpi := Real.pi_pos
  refine ⟨fun j => ?_, fun _ => rfl, fun _ => rfl⟩
  rw [C59_zeta_meaning _ _ _ (by norm_num)]
  refine .inr ?_
  cases j <;> simp <;> constructor <;> norm_num <;> ring

/-- C118: flows below 0.0001 have no loss and are not determined: the total 0.00005 flows through one branch or the
other. -/
theorem C118_small_flow_false : ∃ (i o i' o' : Bool → HStream) (zeta : Bool → ℝ) (p : ℝ),
    Spec.Parallel i o zeta p p ∧ Spec.Parallel i' o' zeta p p ∧ Spec.SameBranches i o i' o' zeta
      ∧ (∑ j, (i j).m = ∑ j, (i' j).m) ∧ (i true).m ≠ (i' true).m := by
  refine ⟨fun j => ⟨if j then 1 / 20000 else 0, 1, 0, 0, 1⟩, fun j => ⟨if j then 1 / 20000 else 0, 1, 0, 0, 1⟩,
    fun j => ⟨if j then 0 else 1 / 20000, 1, 0, 0, 1⟩, fun j => ⟨if j then 0 else 1 / 20000, 1, 0, 0, 1⟩, fun _ => 1, 1,
    ⟨fun j => ?_, fun _ => rfl, fun _ => rfl⟩, ⟨fun j => ?_, fun _ => rfl, fun _ => rfl⟩,
    ⟨fun j => by norm_num, fun j => by norm_num, fun _ => rfl⟩, ?_, ?_⟩
  · rw [C59_zeta_meaning _ _ _ (by norm_num)]
    refine .inl ⟨?_, rfl⟩
    cases j
    · norm_num
    · simp only [if_true]; rw [abs_of_pos] <;> norm_num
  · rw [C59_zeta_meaning _ _ _ (by norm_num)]
    refine .inl ⟨?_, rfl⟩
    cases j
    · simp only [Bool.false_eq_true, if_false]; rw [abs_of_pos] <;> norm_num
    · norm_num
  · simp
  · norm_num

end Tespy
