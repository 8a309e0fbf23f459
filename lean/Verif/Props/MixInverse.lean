import Verif.Model.MixInverse
import Verif.Props.MixtureRules
import Verif.Props.Newton
import Mathlib.Tactic.Positivity
/-
C79: temperature, entropy, volume and viscosity of a mixture from pressure and enthalpy are those of
the state with this pressure and enthalpy.
-/
set_option linter.unusedSectionVars false
namespace Tespy
variable {K : Type} [Field K] [LinearOrder K] [IsStrictOrderedRing K]

namespace Spec

/-- The range of temperatures of a mixture: 0.1 K above the largest minimum, 0.1 K below the smallest
maximum of its species (those with a mass fraction above 1e-6). -/
structure TempRange (r : PureFns K) (fd : FluidData K) (lo hi : K) : Prop where
  min : ∀ q ∈ fd, 1 / 1000000 < q.2.y → r.tMin q.2.w + 1 / 10 ≤ lo
  minEq : ∃ q ∈ fd, 1 / 1000000 < q.2.y ∧ lo = r.tMin q.2.w + 1 / 10
  max : ∀ q ∈ fd, 1 / 1000000 < q.2.y → hi ≤ r.tMax q.2.w - 1 / 10
  maxEq : ∃ q ∈ fd, 1 / 1000000 < q.2.y ∧ hi = r.tMax q.2.w - 1 / 10

/-- Mixing rules with reverse functions. -/
def HasReverse (rule : Option String) : Prop :=
  rule = some "ideal" ∨ rule = some "ideal-cond" ∨ rule = some "incompressible"

/-- Two values agree within the tolerance of the Newton iteration: 1e-6 relative to the target, or
1e-12 if the target is very small. -/
def WithinTolerance (target value : K) : Prop :=
  if |target| ≤ 2 / 1000000 then |target - value| < (1 / 1000000) ^ 2
  else |(target - value) / target| < 1 / 1000000

end Spec

theorem reverseRule_iff (rule : Option String) : reverseRule rule = true ↔ Spec.HasReverse rule := by
  unfold reverseRule Spec.HasReverse
  split <;> simp_all

section folds
variable {α : Type}

theorem invFoldMax_spec (f : α → K) (es : List α) : ∀ a : K,
    a ≤ es.foldl (fun a x => max a (f x)) a ∧
    (∀ x ∈ es, f x ≤ es.foldl (fun a x => max a (f x)) a) ∧
    (es.foldl (fun a x => max a (f x)) a = a ∨ ∃ x ∈ es, es.foldl (fun a x => max a (f x)) a = f x) := by
  induction es with
  | nil => intro a; exact ⟨le_rfl, by simp, Or.inl rfl⟩
  | cons e es ih =>
    intro a
    obtain ⟨h1, h2, h3⟩ := ih (max a (f e))
    refine ⟨(le_max_left _ _).trans h1, ?_, ?_⟩
    · intro x hx
      rcases List.mem_cons.mp hx with rfl | hx
      · exact (le_max_right _ _).trans h1
      · exact h2 x hx
    · rcases h3 with h3 | ⟨x, hx, h3⟩
      · rcases le_total a (f e) with h | h
        · right; exact ⟨e, List.mem_cons_self, by rw [List.foldl_cons, h3, max_eq_right h]⟩
        · left; rw [List.foldl_cons, h3, max_eq_left h]
      · right; exact ⟨x, List.mem_cons_of_mem _ hx, h3⟩

theorem invFoldMin_spec (f : α → K) (es : List α) : ∀ a : K,
    es.foldl (fun a x => min a (f x)) a ≤ a ∧
    (∀ x ∈ es, es.foldl (fun a x => min a (f x)) a ≤ f x) ∧
    (es.foldl (fun a x => min a (f x)) a = a ∨ ∃ x ∈ es, es.foldl (fun a x => min a (f x)) a = f x) := by
  induction es with
  | nil => intro a; exact ⟨le_rfl, by simp, Or.inl rfl⟩
  | cons e es ih =>
    intro a
    obtain ⟨h1, h2, h3⟩ := ih (min a (f e))
    refine ⟨h1.trans (min_le_left _ _), ?_, ?_⟩
    · intro x hx
      rcases List.mem_cons.mp hx with rfl | hx
      · exact h1.trans (min_le_right _ _)
      · exact h2 x hx
    · rcases h3 with h3 | ⟨x, hx, h3⟩
      · rcases le_total a (f e) with h | h
        · left; rw [List.foldl_cons, h3, min_eq_left h]
        · right; exact ⟨e, List.mem_cons_self, by rw [List.foldl_cons, h3, min_eq_right h]⟩
      · right; exact ⟨x, List.mem_cons_of_mem _ hx, h3⟩

end folds

theorem mem_presentFluids {fd : FluidData K} {e : FluidEntry K} :
    e ∈ presentFluids fd ↔ ∃ q ∈ fd, 1 / 1000000 < q.2.y ∧ q.2 = e := by
  unfold presentFluids
  rw [filter_detected]
  simp only [List.mem_map, List.mem_filter, decide_eq_true_eq]
  constructor
  · rintro ⟨q, ⟨h1, h2⟩, h3⟩; exact ⟨q, h1, h2, h3⟩
  · rintro ⟨q, h1, h2, h3⟩; exact ⟨q, ⟨h1, h2⟩, h3⟩

theorem tempRange_spec (r : PureFns K) (fd : FluidData K) (lo hi : K) :
    tempRange r fd = .ok (lo, hi) ↔ Spec.TempRange r fd lo hi := by
  unfold tempRange
  cases hl : presentFluids fd with
  | nil =>
    constructor
    · intro h; cases h
    · intro h
      obtain ⟨q, h1, h2, _⟩ := h.minEq
      have : q.2 ∈ presentFluids fd := mem_presentFluids.mpr ⟨q, h1, h2, rfl⟩
      rw [hl] at this
      cases this
  | cons e es =>
    obtain ⟨a1, a2, a3⟩ := invFoldMax_spec (fun x : FluidEntry K => r.tMin x.w) es (r.tMin e.w)
    obtain ⟨b1, b2, b3⟩ := invFoldMin_spec (fun x : FluidEntry K => r.tMax x.w) es (r.tMax e.w)
    have hmem : ∀ q ∈ fd, 1 / 1000000 < q.2.y → q.2 = e ∨ q.2 ∈ es := by
      intro q h1 h2
      have : q.2 ∈ presentFluids fd := mem_presentFluids.mpr ⟨q, h1, h2, rfl⟩
      rw [hl] at this
      exact List.mem_cons.mp this
    have hback : ∀ x, x = e ∨ x ∈ es → ∃ q ∈ fd, 1 / 1000000 < q.2.y ∧ q.2 = x := by
      intro x hx
      apply mem_presentFluids.mp
      rw [hl]
      exact List.mem_cons.mpr hx
    dsimp only
    generalize es.foldl (fun a x => max a (r.tMin x.w)) (r.tMin e.w) = A at *
    generalize es.foldl (fun a x => min a (r.tMax x.w)) (r.tMax e.w) = B at *
    have key : Spec.TempRange r fd (A + 1 / 10) (B - 1 / 10) := by
      refine ⟨?_, ?_, ?_, ?_⟩
      · intro q h1 h2
        rcases hmem q h1 h2 with h | h
        · rw [h]; linarith
        · have := a2 _ h; linarith
      · rcases a3 with h | ⟨x, hx, h⟩
        · obtain ⟨q, h1, h2, h3⟩ := hback e (Or.inl rfl)
          exact ⟨q, h1, h2, by rw [h3, h]⟩
        · obtain ⟨q, h1, h2, h3⟩ := hback x (Or.inr hx)
          exact ⟨q, h1, h2, by rw [h3, h]⟩
      · intro q h1 h2
        rcases hmem q h1 h2 with h | h
        · rw [h]; linarith
        · have := b2 _ h; linarith
      · rcases b3 with h | ⟨x, hx, h⟩
        · obtain ⟨q, h1, h2, h3⟩ := hback e (Or.inl rfl)
          exact ⟨q, h1, h2, by rw [h3, h]⟩
        · obtain ⟨q, h1, h2, h3⟩ := hback x (Or.inr hx)
          exact ⟨q, h1, h2, by rw [h3, h]⟩
    constructor
    · intro h
      have h := Except.ok.inj h
      rw [← (Prod.mk.inj h).1, ← (Prod.mk.inj h).2]
      exact key
    · intro h
      have h1 : A + 1 / 10 = lo := by
        apply le_antisymm
        · obtain ⟨q, q1, q2, q3⟩ := key.minEq; rw [q3]; exact h.min q q1 q2
        · obtain ⟨q, q1, q2, q3⟩ := h.minEq; rw [q3]; exact key.min q q1 q2
      have h2 : B - 1 / 10 = hi := by
        apply le_antisymm
        · obtain ⟨q, q1, q2, q3⟩ := h.maxEq; rw [q3]; exact key.max q q1 q2
        · obtain ⟨q, q1, q2, q3⟩ := key.maxEq; rw [q3]; exact h.max q q1 q2
      rw [h1, h2]

theorem within_of_converged {h h' : K}
    (hc : Spec.newtonConverged .rel h (h - h') ERR (ERR ^ 2)) : Spec.WithinTolerance h h' := by
  unfold Spec.newtonConverged at hc
  unfold Spec.WithinTolerance
  have hE : (2 : K) * ERR = 2 / 1000000 := by unfold ERR; ring
  dsimp only at hc
  rw [hE] at hc
  by_cases hs : |h| ≤ 2 / 1000000
  · simp only [hs, or_true, if_true] at hc ⊢
    exact hc
  · have h0 : h ≠ 0 := by
      rintro rfl; apply hs; rw [abs_zero]; positivity
    simp only [hs, h0, or_self, if_false] at hc ⊢
    exact hc

/-- Value of the iteration for affine functions. -/
theorem newtonValue_affine (f : K → PyRes K) (c b T lo hi : K) (T0 : Option K) (hc : c ≠ 0)
    (hf : ∀ x, f x = .ok (c * x + b)) (hlo : lo ≤ T) (hhi : T ≤ hi * 2) :
    newtonValue (invArgs f (c * T + b) lo hi T0) = .ok T := by
  obtain ⟨out, h1, h2⟩ := C08_newton_affine (invArgs f (c * T + b) lo hi T0) c b T hc hf
    (fun x => centralDifference_affine f c b (1 / 100) x (by norm_num) hf) rfl ⟨hlo, hhi⟩
    (by norm_num [invArgs])
    (by show (0 : K) < ERR ^ 2; unfold ERR; positivity)
    (by show (0 : K) < ERR; unfold ERR; positivity)
  unfold newtonValue
  rw [h1]
  exact congrArg Except.ok h2

section
variable (r : PureFns K) (water rule : Option String)

theorem tMixPH_mixture {fd : FluidData K} (h2 : numFluids fd ≠ 1) (hr : Spec.HasReverse rule)
    {lo hi : K} (ht : Spec.TempRange r fd lo hi) (p h : K) (T0 : Option K) :
    tMixPH r water rule p h fd T0 =
      newtonValue (invArgs (fun T => hMixPT water rule p T fd) h lo hi T0) := by
  unfold tMixPH inverseTemp
  rw [if_neg h2, if_pos ((reverseRule_iff rule).mpr hr), (tempRange_spec r fd lo hi).mpr ht]

theorem tMixPS_mixture {fd : FluidData K} (h2 : numFluids fd ≠ 1) (hr : Spec.HasReverse rule)
    {lo hi : K} (ht : Spec.TempRange r fd lo hi) (p s : K) (T0 : Option K) :
    tMixPS r water rule p s fd T0 =
      newtonValue (invArgs (fun T => sMixPT water rule p T fd) s lo hi T0) := by
  unfold tMixPS inverseTemp
  rw [if_neg h2, if_pos ((reverseRule_iff rule).mpr hr), (tempRange_spec r fd lo hi).mpr ht]

/-- What a value found by the Newton iteration satisfies. -/
theorem newtonValue_ok {f : K → PyRes K} {target lo hi : K} {T0 : Option K} {T : K}
    (h : newtonValue (invArgs f target lo hi T0) = .ok T) :
    ∃ out, newton (invArgs f target lo hi T0) 13 = some (.ok out) ∧ out.x = T := by
  unfold newtonValue at h
  cases hn : newton (invArgs f target lo hi T0) 13 with
  | none => rw [hn] at h; cases h
  | some x =>
    rw [hn] at h
    cases x with
    | error e => cases h
    | ok out => exact ⟨out, rfl, Except.ok.inj h⟩

/-- C79: the temperature of a mixture, from enthalpy or entropy, is within its range of
temperatures, the upper limit doubled. -/
theorem C79_range {fd : FluidData K} (h2 : Spec.AtLeastTwo fd) {lo hi : K}
    (ht : Spec.TempRange r fd lo hi) (hle : lo ≤ 2 * hi) (p x T : K) (T0 : Option K)
    (h : tMixPH r water rule p x fd T0 = .ok T ∨ tMixPS r water rule p x fd T0 = .ok T) :
    lo ≤ T ∧ T ≤ 2 * hi := by
  have hn := numFluids_ne_one h2
  by_cases hr : Spec.HasReverse rule
  · rw [tMixPH_mixture r water rule hn hr ht, tMixPS_mixture r water rule hn hr ht] at h
    rcases h with h | h <;>
    · obtain ⟨out, h1, rfl⟩ := newtonValue_ok h
      have := C08_newton_in_range _ (show lo ≤ hi * 2 by rw [mul_comm]; exact hle) 13 out h1
      exact ⟨this.1, by rw [mul_comm]; exact this.2⟩
  · have : reverseRule rule = false := by
      rw [Bool.eq_false_iff]; exact fun h => hr ((reverseRule_iff rule).mp h)
    unfold tMixPH tMixPS at h
    rw [if_neg hn, if_neg hn, this] at h
    rcases h with h | h <;> cases h

/-- C79: the temperature found for an enthalpy. Unless the iteration stopped at its limit of 12
steps, the returned temperature is the last Newton step, limited to the range, from a temperature
whose enthalpy agrees with the given one within the tolerance. Missing: nothing is reported when
the limit of iterations is reached (`C79_out_of_range_false`). -/
theorem C79_inverse_partial {fd : FluidData K} (h2 : Spec.AtLeastTwo fd) {lo hi : K}
    (ht : Spec.TempRange r fd lo hi) (hle : lo ≤ 2 * hi) (hr : Spec.HasReverse rule)
    (p h T : K) (T0 : Option K) (hT : tMixPH r water rule p h fd T0 = .ok T) :
    ∃ out : NewtonOut K,
      newton (invArgs (fun T => hMixPT water rule p T fd) h lo hi T0) 13 = some (.ok out) ∧
      out.x = T ∧ out.iterations ≤ 13 ∧ (out.limit = false →
      ∃ T' h' slope rel, hMixPT water rule p T' fd = .ok h' ∧ Spec.WithinTolerance h h' ∧
        centralDifference (fun T => hMixPT water rule p T fd) (1 / 100) T' = .ok slope ∧
        slope ≠ 0 ∧ (rel = 1 ∨ rel = 3 / 4) ∧
        Spec.limited lo (hi * 2) (T' + rel * (h - h') / slope) T) := by
  rw [tMixPH_mixture r water rule (numFluids_ne_one h2) hr ht] at hT
  obtain ⟨out, h1, rfl⟩ := newtonValue_ok hT
  refine ⟨out, h1, rfl, ?_, ?_⟩
  · obtain ⟨o, ho, hi⟩ := C08_newton_terminates
      (invArgs (fun T => hMixPT water rule p T fd) h lo hi T0)
    rw [ho 13 le_rfl] at h1
    exact hi out (Option.some.inj h1)
  · intro hl
    obtain ⟨⟨h', e1, e2⟩, hconv⟩ := C08_newton_tolerance _ 13 out h1 hl
    obtain ⟨d, rel, d1, d2, d3, d4⟩ := C08_newton_last_step _
      (show lo ≤ hi * 2 by rw [mul_comm]; exact hle) 13 out h1
    refine ⟨out.xLast, h', d, rel, e1, ?_, d1, d2, d3, ?_⟩
    · rw [e2] at hconv
      exact within_of_converged hconv
    · rw [e2] at d4
      exact d4

/-- C79, constant heat capacity: if the enthalpy of the mixture is linear in the temperature, the
functions of pressure and enthalpy return exactly the temperature, the entropy, the volume and the
viscosity of the state, from any starting temperature. -/
theorem C79_roundtrip {fd : FluidData K} (h2 : Spec.AtLeastTwo fd) {lo hi : K}
    (ht : Spec.TempRange r fd lo hi) (hr : Spec.HasReverse rule) (p c b T : K)
    (hc : c ≠ 0) (hlin : ∀ T, hMixPT water rule p T fd = .ok (c * T + b))
    (hlo : lo ≤ T) (hhi : T ≤ 2 * hi) (T0 : Option K) :
    tMixPH r water rule p (c * T + b) fd T0 = .ok T ∧
    sMixPH r water rule p (c * T + b) fd T0 = sMixPT water rule p T fd ∧
    vMixPH r water rule p (c * T + b) fd T0 = vMixPT water rule p T fd ∧
    viscMixPH r water rule p (c * T + b) fd T0 = viscMixPT rule p T fd := by
  have hn := numFluids_ne_one h2
  have h1 : tMixPH r water rule p (c * T + b) fd T0 = .ok T := by
    rw [tMixPH_mixture r water rule hn hr ht]
    exact newtonValue_affine _ c b T lo hi T0 hc hlin hlo (by rw [mul_comm]; exact hhi)
  unfold sMixPH vMixPH viscMixPH
  simp only [if_neg hn, h1]
  exact ⟨trivial, trivial, trivial, trivial⟩

/-- C79: derivatives of the temperature, constant heat capacity: those of the enthalpy inverted. -/
theorem C79_temperature_derivatives {fd : FluidData K} (h2 : Spec.AtLeastTwo fd) {lo hi : K}
    (ht : Spec.TempRange r fd lo hi) (hr : Spec.HasReverse rule) (p c b k T : K)
    (hc : c ≠ 0) (hlin : ∀ p T, hMixPT water rule p T fd = .ok (c * T + (b + k * p)))
    (hlo : lo ≤ T - |1 / 10 / c| - |k * (1 / 10) / c|)
    (hhi : T + |1 / 10 / c| + |k * (1 / 10) / c| ≤ 2 * hi) (T0 : Option K) :
    dTdh r water rule p (c * T + (b + k * p)) fd T0 = .ok (1 / c) ∧
    dTdp r water rule p (c * T + (b + k * p)) fd T0 = .ok (-(k / c)) := by
  have ha := abs_nonneg (1 / 10 / c)
  have hb := abs_nonneg (k * (1 / 10) / c)
  have ha1 := le_abs_self (1 / 10 / c)
  have ha2 := neg_abs_le (1 / 10 / c)
  have hb1 := le_abs_self (k * (1 / 10) / c)
  have hb2 := neg_abs_le (k * (1 / 10) / c)
  constructor
  · unfold dTdh diffChained
    have e1 : c * T + (b + k * p) + 1 / 10 = c * (T + 1 / 10 / c) + (b + k * p) := by
      field_simp; ring
    have e2 : c * T + (b + k * p) - 1 / 10 = c * (T - 1 / 10 / c) + (b + k * p) := by
      field_simp; ring
    have h1 := (C79_roundtrip r water rule h2 ht hr p c (b + k * p) (T + 1 / 10 / c) hc (hlin p)
      (by linarith) (by linarith) T0).1
    have h3 := (C79_roundtrip r water rule h2 ht hr p c (b + k * p) (T - 1 / 10 / c) hc (hlin p)
      (by linarith) (by linarith) (some (T + 1 / 10 / c))).1
    simp only [e1, e2, h1, h3]
    congr 1
    field_simp
    ring
  · unfold dTdp diffChained
    have e1 : c * T + (b + k * p) = c * (T - k * (1 / 10) / c) + (b + k * (p + 1 / 10)) := by
      field_simp; ring
    have e2 : c * T + (b + k * p) = c * (T + k * (1 / 10) / c) + (b + k * (p - 1 / 10)) := by
      field_simp; ring
    have h1 := (C79_roundtrip r water rule h2 ht hr (p + 1 / 10) c (b + k * (p + 1 / 10))
      (T - k * (1 / 10) / c) hc (hlin _) (by linarith) (by linarith) T0).1
    have h3 := (C79_roundtrip r water rule h2 ht hr (p - 1 / 10) c (b + k * (p - 1 / 10))
      (T + k * (1 / 10) / c) hc (hlin _) (by linarith) (by linarith)
      (some (T - k * (1 / 10) / c))).1
    rw [← e1] at h1
    rw [← e2] at h3
    simp only [h1, h3]
    congr 1
    field_simp
    ring

/-- C79: the isentropic change of state of a mixture. The enthalpy returned is that of a temperature
within the range of temperatures at the new pressure; unless an iteration limit is reached, a
Newton step before the entropy agreed with that of the first state within the tolerance. -/
theorem C79_isentropic_partial {fd : FluidData K} (h2 : Spec.AtLeastTwo fd) {lo hi : K}
    (ht : Spec.TempRange r fd lo hi) (hle : lo ≤ 2 * hi) (hr : Spec.HasReverse rule)
    (p1 h1 pn hn : K) (h : isentropicMix r water rule p1 h1 pn fd = .ok hn) :
    ∃ (T1 s1 T2 : K) (out : NewtonOut K), tMixPH r water rule p1 h1 fd none = .ok T1 ∧
      sMixPT water rule p1 T1 fd = .ok s1 ∧ lo ≤ T2 ∧ T2 ≤ 2 * hi ∧
      hMixPT water rule pn T2 fd = .ok hn ∧
      newton (invArgs (fun T => sMixPT water rule pn T fd) s1 lo hi none) 13 = some (.ok out) ∧
      out.x = T2 ∧
      (out.limit = false → ∃ s', sMixPT water rule pn out.xLast fd = .ok s' ∧
        out.residual = s1 - s' ∧ Spec.WithinTolerance s1 s') := by
  have hnf := numFluids_ne_one h2
  unfold isentropicMix sMixPH at h
  simp only [if_neg hnf] at h
  cases h3 : tMixPH r water rule p1 h1 fd none with
  | error e => rw [h3] at h; cases h
  | ok T1 =>
    rw [h3] at h
    cases h4 : sMixPT water rule p1 T1 fd with
    | error e => simp only [h4] at h; cases h
    | ok s1 =>
      simp only [h4] at h
      cases h5 : tMixPS r water rule pn s1 fd none with
      | error e => rw [h5] at h; cases h
      | ok T2 =>
        rw [h5] at h
        have hrange := C79_range r water rule h2 ht hle pn s1 T2 none (Or.inr h5)
        rw [tMixPS_mixture r water rule hnf hr ht] at h5
        obtain ⟨out, g1, g2⟩ := newtonValue_ok h5
        refine ⟨T1, s1, T2, out, rfl, h4, hrange.1, hrange.2, h, g1, g2, ?_⟩
        intro hl
        obtain ⟨⟨s', e1, e2⟩, hconv⟩ := C08_newton_tolerance _ 13 out g1 hl
        refine ⟨s', e1, e2, ?_⟩
        rw [e2] at hconv
        exact within_of_converged hconv

/-- C79: pure fluids need no iteration: the library is asked directly, without regard to mixing rule
and starting value. -/
theorem C79_pure {fd : FluidData K} (e : FluidEntry K)
    (hp : (fd.filter fun q => decide (1 / 1000000 < q.2.y)).map Prod.snd = [e])
    (p h : K) (T0 : Option K) :
    tMixPH r water rule p h fd T0 = r.tPH e.w p h ∧
    tMixPS r water rule p h fd T0 = r.tPS e.w p h ∧
    sMixPH r water rule p h fd T0 = r.sPH e.w p h ∧
    viscMixPH r water rule p h fd T0 = r.viscPH e.w p h := by
  obtain ⟨q, hq⟩ : ∃ q, fd.filter detected = [q] := by
    rw [filter_detected]
    have : (fd.filter fun q => decide (1 / 1000000 < q.2.y)).length = 1 := by
      have := congrArg List.length hp
      simpa using this
    exact List.length_eq_one_iff.mp this
  rw [← filter_detected, hq] at hp
  have he : q.2 = e := by simpa using hp
  have hn : numFluids fd = 1 := by unfold numFluids; rw [hq]; rfl
  have hpf : pureFluid fd = some e := by
    unfold pureFluid
    rw [hq]
    simp [he]
  unfold tMixPH tMixPS sMixPH viscMixPH
  simp only [if_pos hn, hpf]
  exact ⟨trivial, trivial, trivial, trivial⟩

/-- C79: without a mixing rule, or with "forced-gas", functions of pressure and enthalpy of a mixture
raise `KeyError`. -/
theorem C79_no_rule {fd : FluidData K} (h2 : Spec.AtLeastTwo fd) (hr : ¬ Spec.HasReverse rule)
    (p h : K) (T0 : Option K) :
    tMixPH r water rule p h fd T0 = .error .keyError ∧
    tMixPS r water rule p h fd T0 = .error .keyError ∧
    sMixPH r water rule p h fd T0 = .error .keyError ∧
    vMixPH r water rule p h fd T0 = .error .keyError ∧
    viscMixPH r water rule p h fd T0 = .error .keyError := by
  have hn := numFluids_ne_one h2
  have : reverseRule rule = false := by
    rw [Bool.eq_false_iff]; exact fun h => hr ((reverseRule_iff rule).mp h)
  unfold sMixPH vMixPH viscMixPH tMixPH tMixPS
  simp only [if_neg hn, this]
  exact ⟨rfl, rfl, rfl, rfl, rfl⟩

/-- C79 is false for the volumetric flow of mixtures: with the pressure or the enthalpy of the
connection variable, the derivative of the equation raises `KeyError`, whatever mixing rule the
connection has, although the equation itself can be evaluated. -/
theorem C79_volume_flow_false (c : VolConn K) (h2 : Spec.AtLeastTwo c.fluidData)
    (hv : c.pVar = true ∨ c.hVar = true) (v res : K) (hres : volRes r water c v = .ok res) :
    volDeriv r water c = .error .keyError := by
  have hnr : ¬ Spec.HasReverse none := by
    unfold Spec.HasReverse; simp
  have key := fun p h T0 => (C79_no_rule r water none h2 hnr p h T0).2.2.2.1
  have hp : dvdp r water none c.p c.h c.fluidData none = .error .keyError := by
    unfold dvdp diffChained
    simp only [key]
  have hh : dvdh r water none c.p c.h c.fluidData none = .error .keyError := by
    unfold dvdh diffChained
    simp only [key]
  unfold volRes at hres
  cases hvol : vMixPH r water c.rule c.p c.h c.fluidData c.T0 with
  | error e => rw [hvol] at hres; cases hres
  | ok vol =>
    have hm : ∃ x, volEntry c.mVar (.ok vol : PyRes K) = .ok x := by
      unfold volEntry; split <;> exact ⟨_, rfl⟩
    obtain ⟨x, hm⟩ := hm
    unfold volDeriv
    rw [hvol, hm, hp, hh]
    cases hpv : c.pVar with
    | true => rfl
    | false =>
      rw [hpv] at hv
      simp only [Bool.false_eq_true, false_or] at hv
      rw [hv]
      rfl

end

/-- Adding to a mass fraction and subtracting it again. -/
theorem addFraction_add (fd : FluidData K) (f : String) (a b : K) :
    addFraction (addFraction fd f a) f b = addFraction fd f (a + b) := by
  unfold addFraction
  rw [List.map_map]
  apply List.map_congr_left
  intro q _
  simp only [Function.comp_apply]
  by_cases h : q.1 = f
  · simp only [if_pos h, add_assoc]
  · simp only [if_neg h]

theorem addFraction_zero (fd : FluidData K) (f : String) : addFraction fd f 0 = fd := by
  unfold addFraction
  conv_rhs => rw [← List.map_id fd]
  apply List.map_congr_left
  intro q _
  by_cases h : q.1 = f
  · simp only [if_pos h, add_zero, id]
  · simp only [if_neg h, id]

/-- C79: the derivative with respect to a mass fraction leaves the composition as it was (exact
arithmetic), if no exception is raised. Missing: after an exception the mass fraction stays changed
(`C79_fraction_false`). -/
theorem C79_fraction_partial (r : PureFns K) (water rule : Option String) (p h : K) (f : String)
    (fd : FluidData K) (T0 : Option K) (x : K)
    (hx : (dTdfluid r water rule p h f fd T0).2 = .ok x) :
    (dTdfluid r water rule p h f fd T0).1 = fd := by
  unfold dTdfluid at hx ⊢
  dsimp only at hx ⊢
  cases h1 : tMixPH r water rule p h (addFraction fd f (1 / 100000)) T0 with
  | error e => rw [h1] at hx; cases hx
  | ok u =>
    rw [h1] at hx
    dsimp only at hx ⊢
    cases h3 : tMixPH r water rule p h
        (addFraction (addFraction fd f (1 / 100000)) f (-(2 / 100000))) (some u) with
    | error e => rw [h3] at hx; cases hx
    | ok l =>
      dsimp only
      rw [addFraction_add, addFraction_add]
      have : (1 / 100000 + (-(2 / 100000) + 1 / 100000) : K) = 0 := by norm_num
      rw [this, addFraction_zero]

/-- C79 is false for the composition after an exception: the derivative with respect to a mass
fraction of a mixture without mixing rule leaves the mass fraction increased by 1e-5. -/
theorem C79_fraction_false (r : PureFns K) (water : Option String) (p h : K) (f : String)
    (fd : FluidData K) (T0 : Option K)
    (h2 : Spec.AtLeastTwo (addFraction fd f (1 / 100000))) :
    dTdfluid r water none p h f fd T0 = (addFraction fd f (1 / 100000), .error .keyError) := by
  unfold dTdfluid
  dsimp only
  rw [(C79_no_rule r water none h2 (by unfold Spec.HasReverse; simp) p h T0).1]

/-- C79 (starting value): a starting temperature of zero counts as none; without one the iteration starts in the middle of
the range of temperatures, otherwise at the given value. -/
theorem C79_start (r : PureFns K) (water rule : Option String) (fd : FluidData K) (p h : K) :
    tMixPH r water rule p h fd (some 0) = tMixPH r water rule p h fd none ∧
    tMixPS r water rule p h fd (some 0) = tMixPS r water rule p h fd none ∧
    ∀ (f : K → PyRes K) (target lo hi T0 : K), T0 ≠ 0 →
      (invArgs f target lo hi (some T0)).val0 = T0 ∧ (invArgs f target lo hi none).val0 = (lo + hi) / 2 := by
  have key : ∀ lo hi : K, invStart lo hi (some 0) = invStart lo hi none := fun lo hi => by simp [invStart]
  refine ⟨?_, ?_, fun f target lo hi T0 h0 => ⟨by simp [invArgs, invStart, h0], rfl⟩⟩
  · simp only [tMixPH, inverseTemp, invArgs, key]
  · simp only [tMixPS, inverseTemp, invArgs, key]

/-! A concrete mixture: two fluids of constant heat capacity. -/

/-- Fluid with heat capacity `c`: enthalpy `c T + p / 1000`, density `1000 - T`; with `bad` the
enthalpy below 100 K is constant. -/
def invWrapper (c : ℚ) (bad : Bool) : Wrapper ℚ where
  M := 1
  sqrtM := 1
  pMin := 0
  hPT p T := if bad && decide (T < 100) then 1000000000 else c * T + p / 1000
  sPT p T := T / 100 - p
  dPT _ T := 1000 - T
  viscPT _ _ := 1
  hQT _ _ := 0
  sQT _ _ := 0
  dQT _ _ := 1
  pSat _ := 0
  tSat _ := 0
  belowTcrit _ := true

/-- Ranges of temperature of the concrete fluids, 200 K to 500 K. -/
def invPure : PureFns ℚ where
  tMin _ := 200
  tMax _ := 500
  tPH _ _ h := .ok h
  tPS _ _ s := .ok s
  sPH _ _ h := .ok h
  dPH _ _ _ := .ok 1
  viscPH _ _ _ := .ok 1
  isentropic _ _ h _ := .ok h

/-- The mixture: 1/4 and 3/4 of two fluids. -/
def invMix (bad : Bool) : FluidData ℚ :=
  [("A", ⟨1 / 4, invWrapper 2000 bad⟩), ("B", ⟨3 / 4, invWrapper 4000 bad⟩)]

theorem invMix_two (bad : Bool) : Spec.AtLeastTwo (invMix bad) :=
  ⟨_, List.mem_cons_self, _, List.mem_cons_of_mem _ List.mem_cons_self,
    (by decide : "A" ≠ "B"), by norm_num, by norm_num⟩

theorem invMix_range (bad : Bool) : Spec.TempRange invPure (invMix bad) (2001 / 10) (4999 / 10) where
  min q _ _ := by norm_num [invPure]
  minEq := ⟨_, List.mem_cons_self, by norm_num, by norm_num [invPure]⟩
  max q _ _ := by norm_num [invPure]
  maxEq := ⟨_, List.mem_cons_self, by norm_num, by norm_num [invPure]⟩

theorem invMix_filter (bad : Bool) :
    (invMix bad).filter (fun q => decide (1 / 1000000 < q.2.y)) = invMix bad := by
  apply List.filter_eq_self.mpr
  intro q hq
  simp only [invMix, List.mem_cons, List.not_mem_nil, or_false] at hq
  rcases hq with rfl | rfl <;> norm_num

theorem invMix_enthalpy (p T : ℚ) :
    hMixPT none (some "incompressible") p T (invMix false) = .ok (3500 * T + (0 + 1 / 1000 * p)) := by
  have hn := numFluids_ne_one (invMix_two false)
  simp only [hMixPT, if_neg hn, hMixIncomp, sumDetected, filter_detected]
  rw [invMix_filter]
  simp [invMix, invWrapper]
  ring

/-- The mixture meets the hypotheses: temperature of 300 K from the enthalpy, from a starting value
of 450 K, and the derivatives. -/
example : tMixPH invPure none (some "incompressible") 1000 (3500 * 300 + 1) (invMix false)
      (some 450) = .ok 300 ∧
    dTdh invPure none (some "incompressible") 1000 (3500 * 300 + 1) (invMix false) none =
      .ok (1 / 3500) := by
  constructor
  · have := (C79_roundtrip invPure none (some "incompressible") (invMix_two false)
      (invMix_range false) (Or.inr (Or.inr rfl)) 1000 3500 1 300 (by norm_num)
      (fun T => by rw [invMix_enthalpy]; norm_num) (by norm_num) (by norm_num) (some 450)).1
    exact this
  · have := (C79_temperature_derivatives invPure none (some "incompressible") (invMix_two false)
      (invMix_range false) (Or.inr (Or.inr rfl)) 1000 3500 0 (1 / 1000) 300 (by norm_num)
      (fun p T => invMix_enthalpy p T)
      (by norm_num [abs_of_pos]) (by norm_num [abs_of_pos]) none).1
    norm_num at this ⊢
    exact this

/-- C79 is false outside of the range of temperatures: the enthalpy of 10000 K yields 999.8 K without
any exception. -/
theorem C79_out_of_range_false :
    hMixPT none (some "incompressible") 1000 10000 (invMix false) = .ok 35000001 ∧
    tMixPH invPure none (some "incompressible") 1000 35000001 (invMix false) none =
      .ok (9998 / 10) := by
  constructor
  · rw [invMix_enthalpy]; norm_num
  · decide +kernel

/-- C79 is false for the derivatives of the volume: two mixtures with the same properties at all
temperatures above 100 K, within their ranges of temperature (200 K to 500 K), have different
derivatives: one has a value, the other one an exception, as the iteration starts at a temperature
of less than 1 K, the value of the volume. -/
theorem C79_volume_start_false :
    (∀ p T, 100 ≤ T → hMixPT none (some "incompressible") p T (invMix true) =
      hMixPT none (some "incompressible") p T (invMix false)) ∧
    (∃ x, dvdh invPure none (some "incompressible") 1000 (3500 * 300 + 1) (invMix false)
      (some 300) = .ok x) ∧
    dvdh invPure none (some "incompressible") 1000 (3500 * 300 + 1) (invMix true) (some 300) =
      .error .zeroDivision := by
  refine ⟨?_, ?_, by decide +kernel⟩
  · intro p T hT
    have hT' : ¬ T < 100 := not_lt.mpr hT
    simp only [hMixPT, if_neg (numFluids_ne_one (invMix_two true)),
      if_neg (numFluids_ne_one (invMix_two false)), hMixIncomp, sumDetected, filter_detected]
    rw [invMix_filter, invMix_filter]
    simp [invMix, invWrapper, hT']
  · have : ((dvdh invPure none (some "incompressible") 1000 (3500 * 300 + 1) (invMix false)
        (some 300)).toOption).isSome = true := by decide +kernel
    cases h : dvdh invPure none (some "incompressible") 1000 (3500 * 300 + 1) (invMix false)
        (some 300) with
    | ok x => exact ⟨x, rfl⟩
    | error er => rw [h] at this; cases this

/-- A connection of this mixture with specified volumetric flow: the equation has a value, the
derivative raises an exception. -/
example : (∃ res, volRes invPure none ⟨2, 1000, 3500 * 300 + 1, some 300, true, true, true,
      some "incompressible", invMix false⟩ 1 = .ok res) ∧
    volDeriv invPure none ⟨2, 1000, 3500 * 300 + 1, some 300, true, true, true,
      some "incompressible", invMix false⟩ = .error .keyError := by
  have h : ∃ res, volRes invPure none ⟨2, 1000, 3500 * 300 + 1, some 300, true, true, true,
      some "incompressible", invMix false⟩ 1 = .ok res := by
    refine ⟨-(698 / 700), ?_⟩
    decide +kernel
  obtain ⟨res, hres⟩ := h
  exact ⟨⟨res, hres⟩, C79_volume_flow_false invPure none _ (invMix_two false) (Or.inl rfl) 1 res hres⟩

end Tespy
