import Verif.Props.Balance
import Mathlib.Algebra.Order.Field.Basic
import Mathlib.Algebra.Order.Field.Rat
import Mathlib.Algebra.Order.BigOperators.Group.List
import Mathlib.Tactic.Linarith
import Mathlib.Tactic.LinearCombination
import Mathlib.Tactic.NormNum
import Mathlib.Tactic.Ring

/-!
C34: the outlet of a merge is a mixture of its inlets.
-/
namespace Tespy

section
variable {K : Type} [Field K] [LinearOrder K] [IsStrictOrderedRing K]

/-- A weighted sum with nonnegative weights is at least the lower bound times the weights. -/
theorem weighted_lower {α : Type} (w a : α → K) (lo : K) :
    ∀ l : List α, (∀ i ∈ l, 0 ≤ w i) → (∀ i ∈ l, 0 < w i → lo ≤ a i) →
      lo * (l.map w).sum ≤ (l.map (fun i => w i * a i)).sum
  | [], _, _ => by simp
  | i :: l, hw, ha => by
    have ih := weighted_lower w a lo l (fun j hj => hw j (List.mem_cons_of_mem _ hj))
      (fun j hj => ha j (List.mem_cons_of_mem _ hj))
    simp only [List.map_cons, List.sum_cons]
    have h0 := hw i List.mem_cons_self
    have h1 : lo * w i ≤ w i * a i := by
      rcases h0.eq_or_lt with h | h
      · rw [← h]; simp
      · rw [mul_comm]; exact mul_le_mul_of_nonneg_left (ha i List.mem_cons_self h) h0
    linarith

/-- C34: with flows into the merge its outlet is a mixture: enthalpy and every mass fraction lie within any bounds that
hold for the inlets with flow, whatever the number of inlets. -/
theorem C34_mixture (F : PropFuncs K) (s : EqState K) (i0 : Port) (inl : List Port)
    (o : Port) (hk : ∀ i ∈ i0 :: inl, s.keys i.fl = s.keys o.fl)
    (h1 : ∀ c ∈ i0 :: inl ++ [o], Spec.SumOne s c)
    (h : Spec.Solved F s (.merge i0 inl o))
    (hm : ∀ i ∈ i0 :: inl, 0 ≤ s.mv i) (hpos : ∃ i ∈ i0 :: inl, 0 < s.mv i) (lo hi : K) :
    0 < s.mv o ∧
    ((∀ i ∈ i0 :: inl, 0 < s.mv i → lo ≤ s.hv i ∧ s.hv i ≤ hi) → lo ≤ s.hv o ∧ s.hv o ≤ hi) ∧
    (∀ f ∈ s.keys o.fl, (∀ i ∈ i0 :: inl, 0 < s.mv i → lo ≤ s.xv i f ∧ s.xv i f ≤ hi) →
      lo ≤ s.xv o f ∧ s.xv o f ≤ hi) := by
  obtain ⟨bm, bs, be, -⟩ := C34_merge_balances F s i0 inl o hk h1 h
  have bm' : ((i0 :: inl).map s.mv).sum = s.mv o := by
    have := bm
    unfold Spec.MassBalance at this
    simpa only [List.map_cons, List.map_nil, List.sum_cons, List.sum_nil, add_zero] using this
  have be' : ((i0 :: inl).map (fun c => s.mv c * s.hv c)).sum = s.mv o * s.hv o := by
    have := be
    unfold Spec.EnergyBalance at this
    simpa only [List.map_cons, List.map_nil, List.sum_cons, List.sum_nil, add_zero] using this
  have hmo : 0 < s.mv o := by
    rw [← bm']
    obtain ⟨i, hi', hp⟩ := hpos
    refine lt_of_lt_of_le hp (List.single_le_sum ?_ _ (List.mem_map_of_mem hi'))
    intro x hx
    obtain ⟨j, hj, rfl⟩ := List.mem_map.1 hx
    exact hm j hj
  have key : ∀ (a : Port → K), ((i0 :: inl).map (fun c => s.mv c * a c)).sum = s.mv o * a o →
      (∀ i ∈ i0 :: inl, 0 < s.mv i → lo ≤ a i ∧ a i ≤ hi) → lo ≤ a o ∧ a o ≤ hi := by
    intro a hs hb
    have l1 := weighted_lower s.mv a lo (i0 :: inl) hm (fun i hi' hp => (hb i hi' hp).1)
    have l2 := weighted_lower s.mv (fun c => -a c) (-hi) (i0 :: inl) hm
      (fun i hi' hp => neg_le_neg (hb i hi' hp).2)
    have e2 : ((i0 :: inl).map (fun c => s.mv c * -a c)).sum = -(s.mv o * a o) := by
      rw [← hs]
      generalize i0 :: inl = l
      induction l with
      | nil => simp
      | cons c l ih => simp only [List.map_cons, List.sum_cons, ih]; ring
    rw [bm', hs] at l1
    rw [bm', e2] at l2
    constructor
    · exact le_of_mul_le_mul_left (by linarith) hmo
    · exact le_of_mul_le_mul_left (by linarith) hmo
  refine ⟨hmo, key s.hv be', fun f hf => key (fun c => s.xv c f) ?_⟩
  have := bs f hf
  unfold Spec.SpeciesBalance at this
  simp only [List.map_cons, List.map_nil, List.sum_cons, List.sum_nil, add_zero] at this ⊢
  simpa only [mul_comm] using this

end

/-- A merge with a flow out of its second inlet. -/
def exBackflow : EqState ℚ :=
  exState (fun i => if i = 0 then 2 else if i = 1 then -1 else 1) (fun _ => 1)
    (fun i => if i = 0 then 3 else if i = 1 then 1 else 5) (fun _ _ => 1) (fun _ => ["water"]) (fun _ => [])
    (fun _ => true)

/-- C34: that the outlet is a mixture is false with backflow at an inlet: the merge is solved with an outlet of higher
enthalpy than both inlets. -/
theorem C34_backflow_false : ∃ (F : PropFuncs ℚ) (s : EqState ℚ) (i0 i1 o : Port),
    (∀ i ∈ [i0, i1], s.keys i.fl = s.keys o.fl) ∧ (∀ c ∈ [i0, i1, o], Spec.SumOne s c) ∧
    Spec.Solved F s (.merge i0 [i1] o) ∧ 0 < s.mv i0 ∧ 0 < s.mv o ∧ s.hv i0 < s.hv o ∧ s.hv i1 < s.hv o := by
  refine ⟨exProps, exBackflow, port 0, port 1, port 2, by decide +kernel, ?_,
    ⟨[0, 0, 0, 0], by decide +kernel, by simp⟩, ?_, ?_, ?_, ?_⟩
  · intro c _
    show (["water"].map _).sum = _
    simp [exBackflow, EqState.xv, exState]
  all_goals decide +kernel

-- non-vacuity: a merge of two inlets
example : ∃ (s : EqState ℚ) (i0 i1 o : Port), (∀ i ∈ [i0, i1], s.keys i.fl = s.keys o.fl) ∧
    (∀ c ∈ [i0, i1, o], Spec.SumOne s c) ∧ Spec.Solved exProps s (.merge i0 [i1] o) ∧ (∀ i ∈ [i0, i1], 0 ≤ s.mv i) ∧
    0 < s.mv i0 ∧ s.hv i0 ≠ s.hv i1 := by
  refine ⟨exState (fun i => if i = 0 then 2 else if i = 1 then 1 else 3) (fun _ => 1)
    (fun i => if i = 0 then 3 else if i = 1 then 6 else 4) (fun _ _ => 1) (fun _ => ["water"]) (fun _ => [])
    (fun _ => true), port 0, port 1, port 2, by decide +kernel, ?_,
    ⟨[0, 0, 0, 0], by decide +kernel, by simp⟩, ?_, ?_, ?_⟩
  · intro c _
    show (["water"].map _).sum = _
    simp [EqState.xv, exState]
  all_goals decide +kernel

end Tespy
