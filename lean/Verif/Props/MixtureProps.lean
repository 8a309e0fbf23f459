import Verif.Props.Mixture

/-
C44 (mixture functions), C55 (enthalpy and entropy of condensing mixtures) and C56 (specific
volume of condensing mixtures).
-/
namespace Tespy
variable {K : Type} [Field K] [LinearOrder K] [IsStrictOrderedRing K]

theorem ERR_pos : (0 : K) < ERR := by unfold ERR; positivity

theorem ERR_lt_one : (ERR : K) < 1 := by unfold ERR; norm_num

theorem detected_iff (q : String × FluidEntry K) : detected q = true ↔ ERR < q.2.y := by
  simp [detected]

/-! ## The loops as sums -/

theorem sumPartial_eq (g : FluidEntry K → K → K) (p : K) (xs : Dict String K) (ξ : String → K)
    (l : FluidData K) (hx : ∀ q ∈ l, Dict.get? xs q.1 = some (ξ q.1)) :
    sumPartial g p xs l = .ok ((l.filter detected).map fun q => g q.2 (p * ξ q.1)).sum := by
  induction l with
  | nil => rfl
  | cons q l ih =>
    obtain ⟨f, e⟩ := q
    have h1 := hx (f, e) (by simp)
    have ih' := ih fun q hq => hx q (by simp [hq])
    simp only [sumPartial, Dict.getItem]
    simp only at h1
    by_cases hd : detected (f, e) = true
    · rw [if_pos hd, h1, ih', List.filter_cons_of_pos hd]
      simp
    · rw [if_neg hd, List.filter_cons_of_neg hd, ih']

theorem sumForced_eq (T p : K) (xs : Dict String K) (ξ : String → K)
    (l : FluidData K) (hx : ∀ q ∈ l, Dict.get? xs q.1 = some (ξ q.1)) :
    sumForced T p xs l
      = .ok ((l.filter detected).map fun q => hForced T q.1 q.2 (p * ξ q.1)).sum := by
  induction l with
  | nil => rfl
  | cons q l ih =>
    obtain ⟨f, e⟩ := q
    have h1 := hx (f, e) (by simp)
    have ih' := ih fun q hq => hx q (by simp [hq])
    simp only [sumForced, Dict.getItem]
    simp only at h1
    by_cases hd : detected (f, e) = true
    · rw [if_pos hd, h1, ih', List.filter_cons_of_pos hd]
      simp
    · rw [if_neg hd, List.filter_cons_of_neg hd, ih']

theorem sumCond_eq (w : String) (liq vap : FluidEntry K → K) (g : FluidEntry K → K → K) (p : K)
    (c : CondRes K) (η ξ : String → K) (l : FluidData K)
    (hy : ∀ q ∈ l, Dict.get? c.massGas q.1 = some (η q.1))
    (hx : ∀ q ∈ l, Dict.get? c.molarGas q.1 = some (ξ q.1)) :
    sumCond w liq vap g p c l = .ok ((l.filter detected).map fun q =>
      if q.1 = w then liq q.2 * c.massLiquid + vap q.2 * η q.1 * (1 - c.massLiquid)
      else g q.2 (p * ξ q.1) * η q.1 * (1 - c.massLiquid)).sum := by
  induction l with
  | nil => rfl
  | cons q l ih =>
    obtain ⟨f, e⟩ := q
    have h1 := hy (f, e) (by simp)
    have h2 := hx (f, e) (by simp)
    have ih' := ih (fun q hq => hy q (by simp [hq])) (fun q hq => hx q (by simp [hq]))
    simp only [sumCond, Dict.getItem]
    simp only at h1 h2
    by_cases hd : detected (f, e) = true
    · rw [if_pos hd, h1, h2, ih', List.filter_cons_of_pos hd]
      simp only [List.map_cons, List.sum_cons]
      split <;> rfl
    · rw [if_neg hd, List.filter_cons_of_neg hd, ih']

theorem sumCondD_eq (w : String) (p T : K) (c : CondRes K) (ξ : String → K) (l : FluidData K)
    (hx : ∀ q ∈ l, Dict.get? c.molarGas q.1 = some (ξ q.1)) :
    sumCondD w p T c l = .ok ((l.filter detected).map fun q =>
      if q.1 = w then q.2.w.dQT 0 T * c.massLiquid + q.2.w.dQT 1 T * (1 - c.massLiquid)
      else q.2.w.dPT (p * ξ q.1) T * (1 - c.massLiquid)).sum := by
  induction l with
  | nil => rfl
  | cons q l ih =>
    obtain ⟨f, e⟩ := q
    have h2 := hx (f, e) (by simp)
    have ih' := ih (fun q hq => hx q (by simp [hq]))
    simp only [sumCondD, Dict.getItem]
    simp only at h2
    by_cases hd : detected (f, e) = true
    · rw [if_pos hd, ih', List.filter_cons_of_pos hd]
      simp only [List.map_cons, List.sum_cons, h2]
      split <;> rfl
    · rw [if_neg hd, List.filter_cons_of_neg hd, ih']

/-! ## One species -/

/-- exactly one species above the precision -/
def Spec.OnlySpecies (fd : FluidData K) (f : String) (e : FluidEntry K) : Prop :=
  (Dict.keys fd).Nodup ∧ (f, e) ∈ fd ∧ ERR < e.y ∧ ∀ q ∈ fd, q.1 ≠ f → q.2.y ≤ ERR

theorem filter_only {fd : FluidData K} {f : String} {e : FluidEntry K}
    (h : Spec.OnlySpecies fd f e) : fd.filter detected = [(f, e)] := by
  obtain ⟨hn, hm, he, ho⟩ := h
  induction fd with
  | nil => simp at hm
  | cons q fd ih =>
    obtain ⟨k, b⟩ := q
    have hn' : k ∉ Dict.keys fd ∧ (Dict.keys fd).Nodup := by simpa [Dict.keys] using hn
    rcases List.mem_cons.1 hm with hm | hm
    · cases hm
      rw [List.filter_cons_of_pos (by rw [detected_iff]; exact he)]
      congr 1
      rw [List.filter_eq_nil_iff]
      intro q hq
      have : q.1 ≠ f := fun hh => hn'.1 (hh ▸ List.mem_map_of_mem (f := Prod.fst) hq)
      rw [detected_iff]
      exact not_lt.2 (ho q (by simp [hq]) this)
    · have hk : k ≠ f := fun hh => hn'.1 (hh ▸ List.mem_map_of_mem (f := Prod.fst) hm)
      have hb := ho (k, b) (by simp) hk
      rw [List.filter_cons_of_neg (by rw [detected_iff]; exact not_lt.2 hb)]
      exact ih hn'.2 hm fun q hq => ho q (by simp [hq])

/-- **C44, pure fluids.** If exactly one species is above the precision, the properties are those
of the pure fluid at the full pressure, whatever the mixing rule is. -/
theorem C44_pure_fluid (fd : FluidData K) (f : String) (e : FluidEntry K)
    (h : Spec.OnlySpecies fd f e) (water rule : Option String) (p T : K) :
    hMixPT water rule p T fd = .ok (e.w.hPT p T) ∧ sMixPT water rule p T fd = .ok (e.w.sPT p T) ∧
      vMixPT water rule p T fd = fdiv 1 (e.w.dPT p T) ∧
      viscMixPT rule p T fd = .ok (e.w.viscPT p T) := by
  have hf := filter_only h
  have hn : numFluids fd = 1 := by simp [numFluids, hf]
  have hp : pureFluid fd = some e := by simp [pureFluid, hf]
  refine ⟨?_, ?_, ?_, ?_⟩
  · simp only [hMixPT, hn, hp, if_true]
  · simp only [sMixPT, hn, hp, if_true]
  · simp only [vMixPT, hn, hp, if_true]
  · simp only [viscMixPT, hn, hp, if_true]

/-- mole fraction as function of the name -/
def molarOf (fd : FluidData K) (S : K) (f : String) : K :=
  match Dict.get? fd f with
  | some e => e.y / e.w.M / S
  | none => 0

theorem molarOf_spec (fd : FluidData K) (hn : (Dict.keys fd).Nodup) (S : K) :
    ∀ q ∈ fd, Dict.get? (fd.map fun e => (e.1, e.2.y / e.2.w.M / S)) q.1
      = some (molarOf fd S q.1) := by
  intro q hq
  have hg := Dict.get?_of_mem hn hq
  rw [get?_map_val fd (fun e => e.2.y / e.2.w.M / S) q.1 q.2 hg]
  simp [molarOf, hg]

/-- the ideal mixing functions as sums over the species above the precision -/
theorem ideal_sums (fd : FluidData K) (h : Spec.Composition fd) (p T : K) :
    hMixIdeal p T fd = .ok ((fd.filter detected).map fun q =>
        q.2.w.hPT (p * molarOf fd (fd.map fun e => e.2.y / e.2.w.M).sum q.1) T * q.2.y).sum ∧
      sMixIdeal p T fd = .ok ((fd.filter detected).map fun q =>
        q.2.w.sPT (p * molarOf fd (fd.map fun e => e.2.y / e.2.w.M).sum q.1) T * q.2.y).sum ∧
      vMixIdeal p T fd = fdiv 1 ((fd.filter detected).map fun q =>
        q.2.w.dPT (p * molarOf fd (fd.map fun e => e.2.y / e.2.w.M).sum q.1) T).sum := by
  have hx := molarFractions_eq h
  have hs := molarOf_spec fd h.nodup (fd.map fun e => e.2.y / e.2.w.M).sum
  refine ⟨?_, ?_, ?_⟩
  · simp only [hMixIdeal, hx]
    rw [sumPartial_eq _ p _ _ fd hs]
  · simp only [sMixIdeal, hx]
    rw [sumPartial_eq _ p _ _ fd hs]
  · simp only [vMixIdeal, hx]
    rw [sumPartial_eq _ p _ _ fd hs]

/-- **C44.** The mixture formulas themselves agree with the pure fluid: for a composition with a
single species (mass fraction one) the ideal and incompressible mixing functions give the
properties of the pure fluid at the full pressure. -/
theorem C44_single_species (fd : FluidData K) (h : Spec.Composition fd) (f : String)
    (e : FluidEntry K) (hf : (f, e) ∈ fd) (he : e.y = 1) (p T : K) :
    hMixIdeal p T fd = .ok (e.w.hPT p T) ∧ sMixIdeal p T fd = .ok (e.w.sPT p T) ∧
      vMixIdeal p T fd = fdiv 1 (e.w.dPT p T) ∧ hMixIncomp p T fd = e.w.hPT p T ∧
      sMixIncomp p T fd = e.w.sPT p T ∧ vMixIncomp p T fd = 1 / e.w.dPT p T ∧
      viscMixIncomp p T fd = e.w.viscPT p T := by
  -- all other species have mass fraction zero
  have hrest : ∀ (l : FluidData K), (∀ q ∈ l, 0 ≤ q.2.y) → (Dict.keys l).Nodup → (f, e) ∈ l →
      (l.map fun q => q.2.y).sum = 1 → ∀ q ∈ l, q.1 ≠ f → q.2.y = 0 := by
    intro l
    induction l with
    | nil => intro _ _ h; simp at h
    | cons q l ih =>
      intro h1 hn hm hs q' hq' hne
      obtain ⟨k, b⟩ := q
      have hn' : k ∉ Dict.keys l ∧ (Dict.keys l).Nodup := by simpa [Dict.keys] using hn
      have h1' := fun q hq => h1 q (List.mem_cons_of_mem _ hq)
      have hb : 0 ≤ b.y := h1 (k, b) (by simp)
      simp only [List.map_cons, List.sum_cons] at hs
      have hnn : ∀ x ∈ l.map (fun q => q.2.y), 0 ≤ x := by
        intro x hx
        obtain ⟨q, hq, rfl⟩ := List.mem_map.1 hx
        exact h1' q hq
      rcases List.mem_cons.1 hm with hm | hm
      · cases hm
        have hz : (l.map fun q => q.2.y).sum = 0 := by linarith
        rcases List.mem_cons.1 hq' with hq' | hq'
        · exact absurd (by rw [hq']) hne
        · have := List.single_le_sum hnn _ (List.mem_map_of_mem (f := fun q => q.2.y) hq')
          rw [hz] at this
          exact le_antisymm this (h1' q' hq')
      · have hle := List.single_le_sum hnn _ (List.mem_map_of_mem (f := fun q => q.2.y) hm)
        simp only [he] at hle
        have hb0 : b.y = 0 := le_antisymm (by linarith) hb
        rcases List.mem_cons.1 hq' with hq' | hq'
        · cases hq'; exact hb0
        · exact ih h1' hn'.2 hm (by rw [hb0, zero_add] at hs; exact hs) q' hq' hne
  have h0 := hrest fd h.nonneg h.nodup hf h.total
  have honly : Spec.OnlySpecies fd f e :=
    ⟨h.nodup, hf, by rw [he]; exact ERR_lt_one,
      fun q hq hne => by rw [h0 q hq hne]; exact ERR_pos.le⟩
  have hfil := filter_only honly
  -- mole fraction one
  have hM := (h.molar (f, e) hf).ne'
  have hS : (fd.map fun q => q.2.y / q.2.w.M).sum = 1 / e.w.M := by
    have : (fd.map fun q => q.2.y / q.2.w.M)
        = fd.map fun q => (if q.1 = f then (1 : K) / e.w.M else 0) * 1 := by
      refine List.map_congr_left fun q hq => ?_
      by_cases hq1 : q.1 = f
      · have h1 := Dict.get?_of_mem h.nodup hq
        have h2 := Dict.get?_of_mem h.nodup hf
        rw [hq1, h2] at h1
        cases h1
        rw [if_pos hq1, he]
        ring
      · rw [if_neg hq1, h0 q hq hq1]
        ring
    rw [this, sum_replace fd (fun _ => 0) f e (fun _ => 1) (1 / e.w.M) h.nodup
      (Dict.get?_of_mem h.nodup hf)]
    simp
  have hx : molarOf fd (fd.map fun q => q.2.y / q.2.w.M).sum f = 1 := by
    rw [molarOf, Dict.get?_of_mem h.nodup hf, hS]
    simp only [he]
    simp only at hM
    field_simp
  obtain ⟨s1, s2, s3⟩ := ideal_sums fd h p T
  refine ⟨?_, ?_, ?_, ?_, ?_, ?_, ?_⟩
  · rw [s1, hfil]; simp [hx, he]
  · rw [s2, hfil]; simp [hx, he]
  · rw [s3, hfil]; simp [hx]
  · simp [hMixIncomp, sumDetected, hfil, he]
  · simp [sMixIncomp, sumDetected, hfil, he]
  · simp [vMixIncomp, sumDetected, hfil, he]
  · simp [viscMixIncomp, sumDetected, hfil, he]

/-! ## Mass weighted means -/

theorem sum_bounds (l : FluidData K) (g : FluidEntry K → K) (a b : K)
    (hy : ∀ q ∈ l, 0 ≤ q.2.y) (hg : ∀ q ∈ l, a ≤ g q.2 ∧ g q.2 ≤ b) :
    a * (l.map fun q => q.2.y).sum ≤ (l.map fun q => g q.2 * q.2.y).sum ∧
      (l.map fun q => g q.2 * q.2.y).sum ≤ b * (l.map fun q => q.2.y).sum := by
  induction l with
  | nil => simp
  | cons q l ih =>
    obtain ⟨i1, i2⟩ := ih (fun q hq => hy q (by simp [hq])) (fun q hq => hg q (by simp [hq]))
    have h1 := hy q (by simp)
    obtain ⟨h2, h3⟩ := hg q (by simp)
    simp only [List.map_cons, List.sum_cons]
    constructor
    · nlinarith
    · nlinarith

/-- species at zero or above the precision: the species above it make up the whole mass -/
theorem detected_total (fd : FluidData K) (hd : ∀ q ∈ fd, q.2.y = 0 ∨ ERR < q.2.y) :
    ((fd.filter detected).map fun q => q.2.y).sum = (fd.map fun q => q.2.y).sum := by
  induction fd with
  | nil => rfl
  | cons q fd ih =>
    have ih' := ih fun q hq => hd q (by simp [hq])
    rcases hd q (by simp) with h0 | h0
    · have : ¬ detected q = true := by
        rw [detected_iff, h0]; exact not_lt.2 ERR_pos.le
      rw [List.filter_cons_of_neg this, List.map_cons, List.sum_cons, h0, zero_add, ih']
    · rw [List.filter_cons_of_pos (by rw [detected_iff]; exact h0), List.map_cons,
        List.sum_cons, List.map_cons, List.sum_cons, ih']

/-- species with mass fraction zero do not contribute to sums that vanish for them -/
theorem present_sum (fd : FluidData K) (g : FluidEntry K → K)
    (hg : ∀ e : FluidEntry K, e.y = 0 → g e = 0) :
    ((fd.filter fun q => decide (q.2.y ≠ 0)).map fun q => g q.2).sum
      = (fd.map fun q => g q.2).sum := by
  induction fd with
  | nil => rfl
  | cons q fd ih =>
    by_cases h0 : q.2.y = 0
    · rw [List.filter_cons_of_neg (by simp [h0]), ih, List.map_cons, List.sum_cons, hg _ h0,
        zero_add]
    · rw [List.filter_cons_of_pos (by simp [h0]), List.map_cons, List.sum_cons, ih,
        List.map_cons, List.sum_cons]

/-- **C44, incompressible mixtures.** Enthalpy, entropy, specific volume and viscosity are the
mass weighted sums over the species above the precision; if these make up the whole mixture they
lie between the smallest and the largest value of the species. -/
theorem C44_incompressible_mean (fd : FluidData K) (h : Spec.Composition fd)
    (hd : ∀ q ∈ fd, q.2.y = 0 ∨ ERR < q.2.y) (p T a b : K) :
    ((∀ q ∈ fd, a ≤ q.2.w.hPT p T ∧ q.2.w.hPT p T ≤ b) →
        a ≤ hMixIncomp p T fd ∧ hMixIncomp p T fd ≤ b) ∧
      ((∀ q ∈ fd, a ≤ q.2.w.sPT p T ∧ q.2.w.sPT p T ≤ b) →
        a ≤ sMixIncomp p T fd ∧ sMixIncomp p T fd ≤ b) ∧
      ((∀ q ∈ fd, a ≤ 1 / q.2.w.dPT p T ∧ 1 / q.2.w.dPT p T ≤ b) →
        a ≤ vMixIncomp p T fd ∧ vMixIncomp p T fd ≤ b) ∧
      ((∀ q ∈ fd, a ≤ q.2.w.viscPT p T ∧ q.2.w.viscPT p T ≤ b) →
        a ≤ viscMixIncomp p T fd ∧ viscMixIncomp p T fd ≤ b) := by
  have htot : ((fd.filter detected).map fun q => q.2.y).sum = 1 := by
    rw [← h.total]; exact detected_total fd hd
  have key : ∀ g : FluidEntry K → K, (∀ q ∈ fd, a ≤ g q.2 ∧ g q.2 ≤ b) →
      a ≤ ((fd.filter detected).map fun q => g q.2 * q.2.y).sum ∧
        ((fd.filter detected).map fun q => g q.2 * q.2.y).sum ≤ b := by
    intro g hg
    have := sum_bounds (fd.filter detected) g a b
      (fun q hq => h.nonneg q (List.mem_of_mem_filter hq))
      (fun q hq => hg q (List.mem_of_mem_filter hq))
    rw [htot] at this
    simpa using this
  exact ⟨key fun e => e.w.hPT p T, key fun e => e.w.sPT p T, key fun e => 1 / e.w.dPT p T,
    key fun e => e.w.viscPT p T⟩

/-- **C44, species below the precision.** The incompressible mixing functions depend on the
species above the precision only. -/
theorem C44_precision_incompressible (fd fd' : FluidData K)
    (h : fd.filter detected = fd'.filter detected) (p T : K) :
    hMixIncomp p T fd = hMixIncomp p T fd' ∧ sMixIncomp p T fd = sMixIncomp p T fd' ∧
      vMixIncomp p T fd = vMixIncomp p T fd' ∧ viscMixIncomp p T fd = viscMixIncomp p T fd' := by
  simp only [hMixIncomp, sMixIncomp, vMixIncomp, viscMixIncomp, sumDetected, h, and_self]

/-- **C44, absent species.** Species with mass fraction zero have no influence on the ideal mixing
functions. -/
theorem C44_absent_species_partial (fd : FluidData K) (h : Spec.Composition fd) (p T : K) :
    hMixIdeal p T fd = hMixIdeal p T (fd.filter fun q => decide (q.2.y ≠ 0)) ∧
      sMixIdeal p T fd = sMixIdeal p T (fd.filter fun q => decide (q.2.y ≠ 0)) ∧
      vMixIdeal p T fd = vMixIdeal p T (fd.filter fun q => decide (q.2.y ≠ 0)) := by
  set fd' := fd.filter fun q => decide (q.2.y ≠ 0) with hfd'
  have hsum : ∀ g : FluidEntry K → K, (∀ e : FluidEntry K, e.y = 0 → g e = 0) →
      (fd'.map fun q => g q.2).sum = (fd.map fun q => g q.2).sum := present_sum fd
  have hsub : ∀ q ∈ fd', q ∈ fd := fun q hq => List.mem_of_mem_filter hq
  have h' : Spec.Composition fd' := by
    refine ⟨?_, fun q hq => h.nonneg q (hsub q hq), ?_, fun q hq => h.molar q (hsub q hq)⟩
    · exact List.Nodup.sublist (List.Sublist.map _ List.filter_sublist) h.nodup
    · rw [hsum (fun e => e.y) (fun e he => he)]; exact h.total
  have hS : (fd'.map fun e => e.2.y / e.2.w.M).sum = (fd.map fun e => e.2.y / e.2.w.M).sum :=
    hsum (fun e => e.y / e.w.M) (fun e he => by rw [he, zero_div])
  have hfil : fd'.filter detected = fd.filter detected := by
    rw [hfd', List.filter_filter]
    refine List.filter_congr fun q _ => ?_
    by_cases hd : detected q = true
    · have : q.2.y ≠ 0 := by
        rw [detected_iff] at hd
        exact (lt_trans ERR_pos hd).ne'
      simp [hd, this]
    · simp [hd]
  have hmol : ∀ q ∈ fd'.filter detected, molarOf fd' (fd'.map fun e => e.2.y / e.2.w.M).sum q.1
      = molarOf fd (fd.map fun e => e.2.y / e.2.w.M).sum q.1 := by
    intro q hq
    have hq' := List.mem_of_mem_filter hq
    rw [hS, molarOf, molarOf, Dict.get?_of_mem h'.nodup hq',
      Dict.get?_of_mem h.nodup (hsub q hq')]
  obtain ⟨a1, a2, a3⟩ := ideal_sums fd h p T
  obtain ⟨b1, b2, b3⟩ := ideal_sums fd' h' p T
  refine ⟨?_, ?_, ?_⟩
  · rw [a1, b1, hfil]
    congr 2
    refine List.map_congr_left fun q hq => ?_
    rw [hmol q (by rw [hfil]; exact hq)]
  · rw [a2, b2, hfil]
    congr 2
    refine List.map_congr_left fun q hq => ?_
    rw [hmol q (by rw [hfil]; exact hq)]
  · rw [a3, b3, hfil]
    congr 2
    refine List.map_congr_left fun q hq => ?_
    rw [hmol q (by rw [hfil]; exact hq)]

/-- **C44, ideal gases.** If the density of every species follows the ideal gas law at its partial
pressure, the specific volume of the mixture follows the ideal gas law with the molar mass of the
mixture. -/
theorem C44_ideal_gas (fd : FluidData K) (h : Spec.Composition fd)
    (hd : ∀ q ∈ fd, q.2.y = 0 ∨ ERR < q.2.y) (p T R m : K) (hp : 0 < p) (hT : 0 < T) (hR : 0 < R)
    (hgas : ∀ q ∈ fd, ∀ pp, q.2.w.dPT pp T = pp * q.2.w.M / (R * T)) (xs : Dict String K)
    (hx : molarFractions fd = .ok xs) (hm : molarMass fd xs = .ok m) :
    vMixIdeal p T fd = .ok (R * T / (p * m)) := by
  have hS := molar_sum_pos h
  obtain ⟨_, _, a3⟩ := ideal_sums fd h p T
  have hx' := molarFractions_eq h
  set S := (fd.map fun e => e.2.y / e.2.w.M).sum with hSdef
  rw [hx'] at hx
  cases hx
  have hm' : m = 1 / S := by
    rw [molarMass_map fd _ fd fun e he => Dict.get?_of_mem h.nodup he] at hm
    have : (fd.map fun e => e.2.y / e.2.w.M / S * e.2.w.M) = fd.map fun e => e.2.y / S := by
      refine List.map_congr_left fun e he => ?_
      have := (h.molar e he).ne'
      field_simp
    rw [this, sum_div, h.total] at hm
    exact (Except.ok.inj hm).symm
  have hsum : ((fd.filter detected).map fun q => q.2.w.dPT (p * molarOf fd S q.1) T).sum
      = p / (R * T * S) := by
    have h1 : ((fd.filter detected).map fun q => q.2.w.dPT (p * molarOf fd S q.1) T)
        = (fd.filter detected).map fun q => q.2.y / (R * T * S / p) := by
      refine List.map_congr_left fun q hq => ?_
      have hq' := List.mem_of_mem_filter hq
      rw [hgas q hq', molarOf, Dict.get?_of_mem h.nodup hq']
      have := (h.molar q hq').ne'
      field_simp
    have h2 : ((fd.filter detected).map fun q => q.2.y).sum = 1 := by
      rw [← h.total]; exact detected_total fd hd
    rw [h1, sum_div, h2]
    field_simp
  rw [a3, hsum, hm']
  have : p / (R * T * S) ≠ 0 := by positivity
  rw [fdiv, if_neg this]
  congr 1
  field_simp

/-! ## Condensing mixtures -/

theorem condSplit_molarGas {p ps : K} {fd : FluidData K} {w : String} {e : FluidEntry K}
    {xs : Dict String K} {xw : K} {c : CondRes K} (h : condSplit p ps fd w e xs xw = .ok c) :
    c.molarGas = Dict.set (xs.map fun q => (q.1, q.2 / (1 - c.molarLiquid))) w
      ((xw - c.molarLiquid) / (1 - c.molarLiquid)) := by
  unfold condSplit at h
  simp only at h
  split at h
  · cases h
  · split at h
    · cases h
    · rename_i r _ gas _
      split at h
      · cases h
      · split at h
        · cases h
        · split at h
          · cases h
          · split at h
            · cases h
            · split at h
              · cases h
              · have h0 := Except.ok.inj h
                subst h0
                simp

section
variable (fd : FluidData K) (h : Spec.Composition fd) (p T : K) (w : String)
  (e : FluidEntry K) (hw : Dict.get? fd w = some e) (hy : e.y < 1) (hp : 0 < p)
  (hs : 0 < e.w.pSat T) (hc : e.w.belowTcrit T = true) (xs : Dict String K) (xw : K)
  (hx : molarFractions fd = .ok xs) (hxw : Dict.get? xs w = some xw)
  (hcond : e.w.pSat T < p * xw)
include h hw hy hp hs hc hx hxw hcond

/-- gas phase fractions and liquid fraction of a condensing mixture, by species name -/
theorem cond_lookup :
    ∃ c, condCheck p T fd w = .ok c ∧ 0 < c.massLiquid ∧ c.massLiquid < e.y ∧
      ∃ η ξ : String → K,
        (∀ q ∈ fd, Dict.get? c.massGas q.1 = some (η q.1)) ∧
        (∀ q ∈ fd, Dict.get? c.molarGas q.1 = some (ξ q.1)) ∧
        (c.massLiquid + (1 - c.massLiquid) * η w = e.y) ∧
        (∀ q ∈ fd, q.1 ≠ w → (1 - c.massLiquid) * η q.1 = q.2.y) ∧
        ((fd.map fun q => ξ q.1).sum = 1 ∧ p * ξ w = e.w.pSat T) := by
  obtain ⟨c, c1, c2, c3, c4, c5, c6, c7, ⟨xg, g1, g2⟩, ⟨yg, y1, y2⟩, c8⟩ :=
    C43_condensation fd h p T w e hw hy hp hs hc xs xw hx hxw hcond
  have hmem : (w, e) ∈ fd := Dict.mem_of_get? hw
  have hcform : c.molarGas = Dict.set (xs.map fun q => (q.1, q.2 / (1 - c.molarLiquid))) w
      ((xw - c.molarLiquid) / (1 - c.molarLiquid)) := by
    have hgi := c1
    unfold condCheck at hgi
    simp only [hx, Dict.getItem, hw, hxw] at hgi
    rw [if_pos ⟨hc, hcond⟩] at hgi
    exact condSplit_molarGas hgi
  refine ⟨c, c1, c4, c5, fun f => (Dict.get? c.massGas f).getD 0,
    fun f => (Dict.get? c.molarGas f).getD 0, ?_, ?_, ?_, ?_, ?_, ?_⟩
  · intro q hq
    by_cases hqw : q.1 = w
    · simp only [hqw, y1, Option.getD_some]
    · obtain ⟨y', hy', _⟩ := c8 q.1 q.2 hqw (Dict.get?_of_mem h.nodup hq)
      simp only [hy', Option.getD_some]
  · intro q hq
    have hxs := molarFractions_eq h
    rw [hxs] at hx
    cases hx
    have : (Dict.get? c.molarGas q.1).isSome := by
      rw [hcform, Dict.get?_set]
      split
      · rfl
      · rw [List.map_map]
        have := get?_map_val fd (fun e => e.2.y / e.2.w.M /
          (fd.map fun e => e.2.y / e.2.w.M).sum / (1 - c.molarLiquid)) q.1 q.2
          (Dict.get?_of_mem h.nodup hq)
        exact Option.isSome_iff_exists.2 ⟨_, this⟩
    obtain ⟨v, hv⟩ := Option.isSome_iff_exists.1 this
    simp only [hv, Option.getD_some]
  · simp only [y1, Option.getD_some]
    exact y2
  · intro q hq hqw
    obtain ⟨y', hy', hy2⟩ := c8 q.1 q.2 hqw (Dict.get?_of_mem h.nodup hq)
    simp only [hy', Option.getD_some]
    exact hy2
  · -- the names of the gas fractions are those of the mixture
    have hxs := molarFractions_eq h
    rw [hxs] at hx
    cases hx
    have hwk : w ∈ Dict.keys fd := List.mem_map_of_mem (f := Prod.fst) hmem
    rw [List.map_map] at hcform
    have hset := set_map_val fd (fun e => e.2.y / e.2.w.M /
      (fd.map fun e => e.2.y / e.2.w.M).sum / (1 - c.molarLiquid)) w
      ((xw - c.molarLiquid) / (1 - c.molarLiquid)) h.nodup hwk
    have hform := hcform.trans hset
    rw [← c6.2, hform, List.map_map]
    congr 1
    refine List.map_congr_left fun q hq => ?_
    have hg := get?_map_val fd (fun q => if q.1 = w then
      (xw - c.molarLiquid) / (1 - c.molarLiquid) else q.2.y / q.2.w.M /
      (fd.map fun e => e.2.y / e.2.w.M).sum / (1 - c.molarLiquid)) q.1 q.2
      (Dict.get?_of_mem h.nodup hq)
    simp only [hg, Option.getD_some, Function.comp]
  · simp only [g1, Option.getD_some]
    exact g2

/-- **C55, partial (enthalpy).** If the liquid mass fraction exceeds the precision, the enthalpy of
a condensing mixture is that of the liquid water, the saturated vapour and the other species at
their partial pressures, each weighted with its mass. -/
theorem C55_enthalpy_partial :
    ∃ c, condCheck p T fd w = .ok c ∧ 0 < c.massLiquid ∧
      (ERR < c.massLiquid → ERR < e.y → ∃ ξ : String → K,
        (fd.map fun q => ξ q.1).sum = 1 ∧ p * ξ w = e.w.pSat T ∧
        hMixCond (some w) p T fd = .ok ((fd.filter detected).map fun q =>
          if q.1 = w then
            q.2.w.hQT 0 T * c.massLiquid + q.2.w.hQT 1 T * (q.2.y - c.massLiquid)
          else q.2.w.hPT (p * ξ q.1) T * q.2.y).sum) := by
  obtain ⟨c, c1, c2, _, η, ξ, h1, h2, h3, h4, h5, h6⟩ :=
    cond_lookup fd h p T w e hw hy hp hs hc xs xw hx hxw hcond
  refine ⟨c, c1, c2, fun hE _ => ⟨ξ, h5, h6, ?_⟩⟩
  have hno : ¬ ¬ ERR < c.massLiquid := not_not.2 hE
  simp only [hMixCond, c1]
  rw [if_neg hno, sumCond_eq w _ _ _ p c η ξ fd h1 h2]
  congr 2
  refine List.map_congr_left fun q hq => ?_
  have hq' := List.mem_of_mem_filter hq
  by_cases hqw : q.1 = w
  · have hqe : q.2 = e := by
      have := Dict.get?_of_mem h.nodup hq'
      rw [hqw, hw] at this
      exact (Option.some.inj this).symm
    rw [if_pos hqw, if_pos hqw, hqw, hqe, ← h3]
    ring
  · rw [if_neg hqw, if_neg hqw]
    have := h4 q hq' hqw
    linear_combination (q.2.w.hPT (p * ξ q.1) T) * this

/-- **C55 (entropy).** The entropy of a condensing mixture is that of the liquid water, the
saturated vapour and the other species at their partial pressures, each weighted with its mass,
for every positive amount of liquid. -/
theorem C55_entropy :
    ∃ c, condCheck p T fd w = .ok c ∧ 0 < c.massLiquid ∧ ∃ ξ : String → K,
      (fd.map fun q => ξ q.1).sum = 1 ∧ p * ξ w = e.w.pSat T ∧
      sMixCond (some w) p T fd = .ok ((fd.filter detected).map fun q =>
        if q.1 = w then
          q.2.w.sQT 0 T * c.massLiquid + q.2.w.sQT 1 T * (q.2.y - c.massLiquid)
        else q.2.w.sPT (p * ξ q.1) T * q.2.y).sum := by
  obtain ⟨c, c1, c2, _, η, ξ, h1, h2, h3, h4, h5, h6⟩ :=
    cond_lookup fd h p T w e hw hy hp hs hc xs xw hx hxw hcond
  refine ⟨c, c1, c2, ξ, h5, h6, ?_⟩
  simp only [sMixCond, c1]
  rw [if_neg c2.ne', sumCond_eq w _ _ _ p c η ξ fd h1 h2]
  congr 2
  refine List.map_congr_left fun q hq => ?_
  have hq' := List.mem_of_mem_filter hq
  by_cases hqw : q.1 = w
  · have hqe : q.2 = e := by
      have := Dict.get?_of_mem h.nodup hq'
      rw [hqw, hw] at this
      exact (Option.some.inj this).symm
    rw [if_pos hqw, if_pos hqw, hqw, hqe, ← h3]
    ring
  · rw [if_neg hqw, if_neg hqw]
    have := h4 q hq' hqw
    linear_combination (q.2.w.sPT (p * ξ q.1) T) * this

/-- **C55 is false for the enthalpy.** As long as the liquid mass fraction does not exceed the
precision, all water is evaluated at its (supersaturated) partial pressure, where it is liquid:
the vapour is counted with the enthalpy of the liquid. -/
theorem C55_onset_false :
    ∃ c, condCheck p T fd w = .ok c ∧ 0 < c.massLiquid ∧
      (c.massLiquid ≤ ERR →
        hMixCond (some w) p T fd = .ok ((fd.filter detected).map fun q =>
          q.2.w.hPT (p * molarOf fd (fd.map fun e => e.2.y / e.2.w.M).sum q.1) T * q.2.y).sum) := by
  obtain ⟨c, c1, c2, _⟩ := cond_lookup fd h p T w e hw hy hp hs hc xs xw hx hxw hcond
  refine ⟨c, c1, c2, fun hE => ?_⟩
  simp only [hMixCond, c1]
  rw [if_pos (not_lt.2 hE)]
  exact (ideal_sums fd h p T).1

/-- **C56 is false.** What `v_mix_pT` computes for a condensing mixture is the reciprocal of a sum
of densities weighted with the mass fractions of liquid and gas, not the sum of the volumes of
liquid and gas. -/
theorem C56_densities :
    ∃ c, condCheck p T fd w = .ok c ∧ 0 < c.massLiquid ∧ ∃ ξ : String → K,
      vMixCond (some w) p T fd = fdiv 1 ((fd.filter detected).map fun q =>
        if q.1 = w then q.2.w.dQT 0 T * c.massLiquid + q.2.w.dQT 1 T * (1 - c.massLiquid)
        else q.2.w.dPT (p * ξ q.1) T * (1 - c.massLiquid)).sum := by
  obtain ⟨c, c1, c2, _, η, ξ, h1, h2, _⟩ :=
    cond_lookup fd h p T w e hw hy hp hs hc xs xw hx hxw hcond
  refine ⟨c, c1, c2, ξ, ?_⟩
  simp only [vMixCond, c1]
  rw [if_neg c2.ne', sumCondD_eq w p T c ξ fd h2]

end

/-! ## Concrete mixtures -/

/-- water: saturation pressure 1, liquid (enthalpy 100, density 1000) above it, vapour (enthalpy
2600, density = pressure) below it -/
def mxWater : Wrapper ℚ where
  M := 18
  sqrtM := 4
  pMin := 0
  hPT := fun p _ => if 1 < p then 100 else 2600
  sPT := fun p _ => if 1 < p then 1 else 8
  dPT := fun p _ => if 1 < p then 1000 else p
  viscPT := fun _ _ => 1
  hQT := fun q _ => if q = 0 then 100 else 2600
  sQT := fun q _ => if q = 0 then 1 else 8
  dQT := fun q _ => if q = 0 then 1000 else 1
  pSat := fun _ => 1
  tSat := fun _ => 373
  belowTcrit := fun T => decide (T < 647)

/-- a gas with constant properties and density proportional to the pressure -/
def mxGas : Wrapper ℚ where
  M := 36
  sqrtM := 6
  pMin := 0
  hPT := fun _ T => T
  sPT := fun _ T => T
  dPT := fun p _ => 2 * p
  viscPT := fun _ _ => 2
  hQT := fun _ T => T
  sQT := fun _ T => T
  dQT := fun _ _ => 1
  pSat := fun _ => 50
  tSat := fun _ => 100
  belowTcrit := fun T => decide (T < 150)

/-- equal masses: mole fraction 2/3 of the water -/
def mxHalf : FluidData ℚ := [("H2O", ⟨1 / 2, mxWater⟩), ("gas", ⟨1 / 2, mxGas⟩)]

theorem mxHalf_ok : Spec.Composition mxHalf := by
  refine ⟨by decide, ?_, ?_, ?_⟩
  · intro q hq
    simp only [mxHalf, List.mem_cons, List.not_mem_nil, or_false] at hq
    rcases hq with rfl | rfl <;> norm_num
  · norm_num [mxHalf]
  · intro q hq
    simp only [mxHalf, List.mem_cons, List.not_mem_nil, or_false] at hq
    rcases hq with rfl | rfl <;> norm_num [mxWater, mxGas]

/- mole fractions 2/3 and 1/3 -/
example : molarFractions mxHalf = .ok [("H2O", 2 / 3), ("gas", 1 / 3)] := by decide +kernel
/- at pressure 3: gas phase with water at 1, half of the mole fraction of the gas -/
example : (condCheck 3 300 mxHalf "H2O").toOption.map
    (fun c => (c.molarGas, c.molarLiquid)) = some ([("H2O", 1 / 3), ("gas", 2 / 3)], 1 / 2) := by
  decide +kernel
/- hypotheses of the condensation theorems -/
example : mxWater.pSat 300 < 3 * (2 / 3) ∧ mxWater.belowTcrit 300 = true ∧ (1 / 2 : ℚ) < 1 := by
  decide +kernel
/- hypotheses of the dry case: pressure 3/2 -/
example : (3 / 2 : ℚ) * (2 / 3) ≤ mxWater.pSat 300 := by decide +kernel
/- hypotheses of the means -/
example : ∀ q ∈ mxHalf, q.2.y = 0 ∨ ERR < q.2.y := by decide +kernel
example : ∀ q ∈ mxHalf, (100 : ℚ) ≤ q.2.w.hPT 3 300 ∧ q.2.w.hPT 3 300 ≤ 300 := by decide +kernel
/- one species above the precision -/
example : Spec.OnlySpecies [("H2O", ⟨1, mxWater⟩), ("gas", ⟨0, mxGas⟩)] "H2O" ⟨1, mxWater⟩ := by
  refine ⟨by decide, by simp, by norm_num [ERR], ?_⟩
  intro q hq hne
  simp only [List.mem_cons, List.not_mem_nil, or_false] at hq
  rcases hq with rfl | rfl
  · exact absurd rfl hne
  · norm_num [ERR]

/-- equal masses of water and gas but for a trace of another species -/
def mxTrace (f : String) (M : ℚ) : FluidData ℚ :=
  [("H2O", ⟨1 / 2, mxWater⟩), ("gas", ⟨1 / 2 - 1 / 1000000, mxGas⟩)]
    ++ [(f, ⟨1 / 1000000, { mxGas with M := M }⟩)]

theorem mxTrace_ok (f : String) (M : ℚ) (hM : 0 < M) (h1 : f ≠ "H2O") (h2 : f ≠ "gas") :
    Spec.Composition (mxTrace f M) := by
  refine ⟨?_, ?_, ?_, ?_⟩
  · show ["H2O", "gas", f].Nodup
    simp [h1.symm, h2.symm]
  · intro q hq
    simp only [mxTrace, List.cons_append, List.nil_append, List.mem_cons, List.not_mem_nil,
      or_false] at hq
    rcases hq with rfl | rfl | rfl <;> norm_num
  · norm_num [mxTrace]
  · intro q hq
    simp only [mxTrace, List.cons_append, List.nil_append, List.mem_cons, List.not_mem_nil,
      or_false] at hq
    rcases hq with rfl | rfl | rfl
    · norm_num [mxWater]
    · norm_num [mxGas]
    · exact hM

/-- **C44 is false for ideal mixtures.** Two compositions which differ in a species below the
precision only (a trace of a light or of a heavy one) have different enthalpies: the trace enters
the mole fractions, which decide whether the water is evaluated as liquid or vapour. -/
theorem C44_precision_ideal_false : ∃ (fd fd' : FluidData ℚ) (p T : ℚ),
    Spec.Composition fd ∧ Spec.Composition fd' ∧ fd.filter detected = fd'.filter detected ∧
    hMixIdeal p T fd = .ok (1999997 / 10000) ∧ hMixIdeal p T fd' = .ok (14499997 / 10000) := by
  refine ⟨mxTrace "a" 1000, mxTrace "b" 1, 1500005 / 1000000, 300,
    mxTrace_ok _ _ (by norm_num) (by decide) (by decide),
    mxTrace_ok _ _ (by norm_num) (by decide) (by decide), ?_, ?_, ?_⟩
  · have h1 : ∀ (f : String) (M : ℚ), ([(f, ⟨1 / 1000000, { mxGas with M := M }⟩)] :
        FluidData ℚ).filter detected = [] := by
      intro f M
      rw [List.filter_cons_of_neg (by rw [detected_iff]; norm_num [ERR])]
      rfl
    rw [mxTrace, mxTrace, List.filter_append, List.filter_append, h1, h1]
  all_goals decide +kernel

/-- **C55 is false: the size of the error.** With a liquid mass fraction below the precision the
enthalpy of a mixture of equal masses of water and gas is that of liquid water (50 + 150) instead
of that of vapour (about 1300 + 150). -/
theorem C55_onset_value : ∃ p c : _, condCheck p 300 mxHalf "H2O" = .ok c ∧ 0 < c.massLiquid ∧
    c.massLiquid ≤ (ERR : ℚ) ∧ hMixCond (some "H2O") p 300 mxHalf = .ok 200 ∧
    sMixCond (some "H2O") p 300 mxHalf ≠ sMixIdeal p 300 mxHalf := by
  refine ⟨(15000001 / 10000000 : ℚ), ((condCheck (15000001 / 10000000 : ℚ) 300 mxHalf
    "H2O").toOption.getD ⟨[], [], 0, 0⟩), ?_, ?_, ?_, ?_, ?_⟩
  all_goals decide +kernel

/-- **C56 is false: the size of the error.** Half a kilogram of each, pressure 3: 3/8 kg liquid
water (volume 0.000375), 1/8 kg vapour and 1/2 kg gas in a common volume of 1/8 per unit density
of the vapour (density 1) and 1/4 for the gas at partial pressure 2 (density 4), i.e. a volume of
1/8; the code gives less than 1/300. -/
theorem C56_value : ∃ v c, condCheck (3 : ℚ) 300 mxHalf "H2O" = .ok c ∧ c.massLiquid = 3 / 8 ∧
    vMixCond (some "H2O") 3 300 mxHalf = .ok v ∧ v < 1 / 300 ∧
    1 / 8 ≤ (1 / 2 - c.massLiquid) / mxWater.dQT 1 300 ∧
    1 / 8 ≤ (1 / 2) / mxGas.dPT (3 * (2 / 3)) 300 := by
  refine ⟨((vMixCond (some "H2O") (3 : ℚ) 300 mxHalf).toOption.getD 0), ((condCheck (3 : ℚ) 300
    mxHalf "H2O").toOption.getD ⟨[], [], 0, 0⟩), ?_, ?_, ?_, ?_, ?_, ?_⟩
  all_goals decide +kernel

end Tespy
