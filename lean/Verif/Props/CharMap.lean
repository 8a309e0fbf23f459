import Verif.Props.CharLine
/-
C07: characteristic maps of any size.
-/
namespace Tespy
open Tespy.Spec
variable {K : Type _} [Field K] [LinearOrder K] [IsStrictOrderedRing K]

/-- A well-formed map: `w` columns, x and every row of y strictly ascending. -/
structure CharMap.Valid (c : CharMap K) (w : ℕ) : Prop where
  leny : c.y.length = c.x.length
  lenz : c.z.length = c.x.length
  sorted : c.x.Pairwise (· < ·)
  roww : ∀ r ∈ c.y, r.length = w
  rowz : ∀ r ∈ c.z, r.length = w
  rows : ∀ r ∈ c.y, r.Pairwise (· < ·)

theorem evaluateY_eq (v : K) (ya za : List K) (hl : za.length = ya.length) (h0 : 0 < ya.length) :
    CharMap.evaluateY v ya za = CharLine.evaluate ⟨ya, za, false⟩ v := by
  unfold CharMap.evaluateY CharLine.evaluate
  simp only [Bool.false_eq_true, if_false]
  split
  · rename_i h
    rw [h, pyGet_pred _ _ h0 (by omega), pyGet_neg_one _ (by omega)]
    simp [hl]
  · rfl

theorem rowInterp_length (f : K) (a b : List K) (w : ℕ) (ha : a.length = w) (hb : b.length = w) :
    (rowInterp f a b).length = w := by simp [rowInterp, ha, hb]

theorem rowInterp_sorted (f : K) (a b : List K) (h0 : 0 ≤ f) (h1 : f ≤ 1)
    (ha : a.Pairwise (· < ·)) (hb : b.Pairwise (· < ·)) :
    (rowInterp f a b).Pairwise (· < ·) := by
  rw [List.pairwise_iff_getElem] at *
  intro i j hi hj hij
  simp only [rowInterp, List.length_zipWith, lt_inf_iff] at hi hj
  simp only [rowInterp, List.getElem_zipWith]
  have h2 := ha i j hi.1 hj.1 hij
  have h3 := hb i j hi.2 hj.2 hij
  rcases h1.lt_or_eq with h1 | h1
  · nlinarith [mul_pos (sub_pos.mpr h1) (sub_pos.mpr h2), mul_nonneg h0 (sub_pos.mpr h3).le]
  · subst h1; linarith

theorem rowInterp_bounds (f : K) (a b : List K) (h0 : 0 ≤ f) (h1 : f ≤ 1) (lo hi : K)
    (ha : ∀ t ∈ a, lo ≤ t ∧ t ≤ hi) (hb : ∀ t ∈ b, lo ≤ t ∧ t ≤ hi) :
    ∀ t ∈ rowInterp f a b, lo ≤ t ∧ t ≤ hi := by
  intro t ht
  obtain ⟨i, hi', rfl⟩ := List.getElem_of_mem ht
  simp only [rowInterp, List.length_zipWith, lt_inf_iff] at hi'
  simp only [rowInterp, List.getElem_zipWith]
  have h2 := ha _ (List.getElem_mem hi'.1)
  have h3 := hb _ (List.getElem_mem hi'.2)
  constructor
  · nlinarith [mul_nonneg h0 (sub_nonneg.mpr h3.1), mul_nonneg (sub_nonneg.mpr h1) (sub_nonneg.mpr h2.1)]
  · nlinarith [mul_nonneg h0 (sub_nonneg.mpr h3.2), mul_nonneg (sub_nonneg.mpr h1) (sub_nonneg.mpr h2.2)]

theorem CharMap.evaluateX_inner (c : CharMap K) {w : ℕ} (h : c.Valid w) (i : ℕ) (v : K)
    (hi : i + 1 < c.x.length) (h1 : c.x[i] < v) (h2 : v ≤ c.x[i+1]) :
    c.evaluateX v = .ok
      (rowInterp ((v - c.x[i]) / (c.x[i+1] - c.x[i])) (c.y[i]'(by rw [h.leny]; omega))
        (c.y[i+1]'(by rw [h.leny]; omega)),
       rowInterp ((v - c.x[i]) / (c.x[i+1] - c.x[i])) (c.z[i]'(by rw [h.lenz]; omega))
        (c.z[i+1]'(by rw [h.lenz]; omega))) := by
  have hle : c.x.Pairwise (· ≤ ·) := h.sorted.imp (fun h => le_of_lt h)
  have hs := searchsorted_le c.x v
  have a := (lt_searchsorted_iff c.x v hle i (by omega)).mpr h1
  have b : ¬ (i + 1 < searchsorted c.x v) := by
    rw [lt_searchsorted_iff c.x v hle (i+1) hi]; exact not_lt.mpr h2
  have e : searchsorted c.x v = i + 1 := by omega
  have hlt : c.x[i] < c.x[i+1] :=
    List.pairwise_iff_getElem.mp h.sorted i (i+1) (by omega) hi (by omega)
  have hn : c.x[i+1] - c.x[i] ≠ 0 := sub_ne_zero.mpr hlt.ne'
  have hly := h.leny
  have hlz := h.lenz
  unfold CharMap.evaluateX
  simp only [e]
  rw [if_neg (by omega), if_neg (by omega)]
  rw [pyGet_pred c.x _ (by omega) (by omega), pyGet_nat c.x _ hi,
    pyGet_pred c.y _ (by omega) (by omega), pyGet_nat c.y _ (by omega),
    pyGet_pred c.z _ (by omega) (by omega), pyGet_nat c.z _ (by omega)]
  simp only [bind, Except.bind, Nat.add_sub_cancel, if_neg hn]

theorem CharMap.evaluateX_left (c : CharMap K) {w : ℕ} (h : c.Valid w) (v : K)
    (hn : 0 < c.x.length) (h1 : v ≤ c.x[0]) :
    c.evaluateX v = .ok (c.y[0]'(by rw [h.leny]; omega), c.z[0]'(by rw [h.lenz]; omega)) := by
  have hle : c.x.Pairwise (· ≤ ·) := h.sorted.imp (fun h => le_of_lt h)
  have b : ¬ (0 < searchsorted c.x v) := by
    rw [lt_searchsorted_iff c.x v hle 0 hn]; exact not_lt.mpr h1
  have e : searchsorted c.x v = 0 := by omega
  have hly := h.leny
  have hlz := h.lenz
  unfold CharMap.evaluateX
  simp only [e]
  rw [if_neg (by omega), if_pos trivial, pyGet_zero _ (by omega), pyGet_zero _ (by omega)]
  rfl

theorem CharMap.evaluateX_right (c : CharMap K) {w : ℕ} (h : c.Valid w) (v : K)
    (hn : 0 < c.x.length) (h1 : c.x[c.x.length - 1] < v) :
    c.evaluateX v = .ok (c.y[c.x.length - 1]'(by rw [h.leny]; omega),
      c.z[c.x.length - 1]'(by rw [h.lenz]; omega)) := by
  have hle : c.x.Pairwise (· ≤ ·) := h.sorted.imp (fun h => le_of_lt h)
  have b := (lt_searchsorted_iff c.x v hle (c.x.length - 1) (by omega)).mpr h1
  have hs := searchsorted_le c.x v
  have e : searchsorted c.x v = c.x.length := by omega
  have hly := h.leny
  have hlz := h.lenz
  unfold CharMap.evaluateX
  simp only [e]
  rw [if_pos trivial, pyGet_pred _ _ (by omega) (by omega), pyGet_pred _ _ (by omega) (by omega)]
  rfl

/-- The intermediate arrays are a valid line for every x. -/
theorem CharMap.evaluateX_valid (c : CharMap K) {w : ℕ} (h : c.Valid w)
    (hn : 0 < c.x.length) (lo hi : K) (hb : ∀ r ∈ c.z, ∀ t ∈ r, lo ≤ t ∧ t ≤ hi) (v : K) :
    ∃ ya za, c.evaluateX v = .ok (ya, za) ∧ ya.length = w ∧ za.length = w ∧
      ya.Pairwise (· < ·) ∧ ∀ t ∈ za, lo ≤ t ∧ t ≤ hi := by
  have hly := h.leny
  have hlz := h.lenz
  have ry : ∀ i, (hi : i < c.y.length) → c.y[i].length = w ∧ c.y[i].Pairwise (· < ·) :=
    fun i hi => ⟨h.roww _ (List.getElem_mem _), h.rows _ (List.getElem_mem _)⟩
  have rz : ∀ i, (hi' : i < c.z.length) → c.z[i].length = w ∧ ∀ t ∈ c.z[i], lo ≤ t ∧ t ≤ hi :=
    fun i hi => ⟨h.rowz _ (List.getElem_mem _), hb _ (List.getElem_mem _)⟩
  rcases CharLine.locate (⟨c.x, c.x, false⟩ : CharLine K) v hn with hv | hv | ⟨i, hi', h1, h2⟩
  · exact ⟨_, _, c.evaluateX_left h v hn hv, (ry _ _).1, (rz _ _).1, (ry _ _).2, (rz _ _).2⟩
  · exact ⟨_, _, c.evaluateX_right h v hn hv, (ry _ _).1, (rz _ _).1, (ry _ _).2, (rz _ _).2⟩
  · simp only at hi' h1 h2
    have hlt : c.x[i] < c.x[i+1] :=
      List.pairwise_iff_getElem.mp h.sorted i (i+1) (by omega) hi' (by omega)
    have hd : 0 < c.x[i+1] - c.x[i] := sub_pos.mpr hlt
    have f0 : 0 ≤ (v - c.x[i]) / (c.x[i+1] - c.x[i]) := div_nonneg (sub_nonneg.mpr h1.le) hd.le
    have f1 : (v - c.x[i]) / (c.x[i+1] - c.x[i]) ≤ 1 := by
      rw [div_le_one hd]; linarith
    exact ⟨_, _, c.evaluateX_inner h i v hi' h1 h2,
      rowInterp_length _ _ _ w (ry _ _).1 (ry _ _).1,
      rowInterp_length _ _ _ w (rz _ _).1 (rz _ _).1,
      rowInterp_sorted _ _ _ f0 f1 (ry _ _).2 (ry _ _).2,
      rowInterp_bounds _ _ _ f0 f1 lo hi (rz _ _).2 (rz _ _).2⟩

/-- C07: for all x and y the map returns a value within all bounds of its z values. -/
theorem C07_bounded (c : CharMap K) (w : ℕ) (h : c.Valid w) (hn : 0 < c.x.length) (hw : 0 < w)
    (lo hi : K) (hb : ∀ r ∈ c.z, ∀ t ∈ r, lo ≤ t ∧ t ≤ hi) (x y : K) :
    ∃ r, c.evaluate x y = .ok r ∧ lo ≤ r ∧ r ≤ hi := by
  obtain ⟨ya, za, he, hya, hza, hs, hbz⟩ := c.evaluateX_valid h hn lo hi hb x
  obtain ⟨r, hr, hr'⟩ := C05_bounded (⟨ya, za, false⟩ : CharLine K)
    ⟨by simp [hya, hza], hs⟩ (by simpa [hya] using hw) rfl lo hi hbz y
  refine ⟨r, ?_, hr'⟩
  unfold CharMap.evaluate
  rw [he]
  simp only [bind, Except.bind]
  rw [evaluateY_eq _ _ _ (by omega) (by omega)]; exact hr

theorem CharMap.evaluateX_support (c : CharMap K) {w : ℕ} (h : c.Valid w) (i : ℕ)
    (hi : i < c.x.length) :
    c.evaluateX c.x[i] = .ok (c.y[i]'(by rw [h.leny]; exact hi), c.z[i]'(by rw [h.lenz]; exact hi)) := by
  cases i with
  | zero => exact c.evaluateX_left h _ hi (le_refl _)
  | succ i =>
    have hly := h.leny
    have hlz := h.lenz
    have hlt : c.x[i] < c.x[i+1] :=
      List.pairwise_iff_getElem.mp h.sorted i (i+1) (by omega) hi (by omega)
    rw [c.evaluateX_inner h i _ hi hlt (le_refl _)]
    have e : (c.x[i+1] - c.x[i]) / (c.x[i+1] - c.x[i]) = 1 := div_self (sub_ne_zero.mpr hlt.ne')
    have hrow : ∀ a b : List K, a.length = b.length → rowInterp 1 a b = b := by
      intro a b hab
      apply List.ext_getElem
      · simp [rowInterp, hab]
      · intro k h1 h2; simp [rowInterp]
    rw [e, hrow, hrow]
    · rw [h.rowz _ (List.getElem_mem _), h.rowz _ (List.getElem_mem _)]
    · rw [h.roww _ (List.getElem_mem _), h.roww _ (List.getElem_mem _)]

/-- C07: grid points are reproduced exactly. -/
theorem C07_grid_points (c : CharMap K) (w : ℕ) (h : c.Valid w) (i j : ℕ)
    (hi : i < c.x.length) (hiy : i < c.y.length) (hiz : i < c.z.length)
    (hj : j < c.y[i].length) (hjz : j < c.z[i].length) :
    c.evaluate c.x[i] c.y[i][j] = .ok c.z[i][j] := by
  have l1 := h.roww _ (List.getElem_mem hiy)
  have l2 := h.rowz _ (List.getElem_mem hiz)
  unfold CharMap.evaluate
  rw [c.evaluateX_support h i hi]
  simp only [bind, Except.bind]
  rw [evaluateY_eq _ _ _ (by omega) (by omega)]
  have hv : (⟨c.y[i], c.z[i], false⟩ : CharLine K).Valid :=
    ⟨by simp only [l1, l2], h.rows _ (List.getElem_mem _)⟩
  by_cases h2 : 2 ≤ c.y[i].length
  · exact C04_support_points (⟨c.y[i], c.z[i], false⟩ : CharLine K) hv h2 j hj
  · have hj0 : j = 0 := by omega
    subst hj0
    exact (C05_constant_outside (⟨c.y[i], c.z[i], false⟩ : CharLine K) hv hj rfl _).1 (le_refl _)

/-- C07: for every fixed x the map is a characteristic line in y (constant outside). -/
theorem C07_row_is_line (c : CharMap K) (w : ℕ) (h : c.Valid w) (hn : 0 < c.x.length)
    (hw : 0 < w) (x : K) : ∃ ya za, c.evaluateX x = .ok (ya, za) ∧
      (⟨ya, za, false⟩ : CharLine K).Valid ∧
      ∀ y, c.evaluate x y = CharLine.evaluate ⟨ya, za, false⟩ y := by
  have key : ∃ ya za, c.evaluateX x = .ok (ya, za) ∧ ya.length = w ∧ za.length = w ∧
      ya.Pairwise (· < ·) := by
    have hex : ∃ lo hi : K, ∀ r ∈ c.z, ∀ t ∈ r, lo ≤ t ∧ t ≤ hi := by
      have one : ∀ l : List K, ∃ lo hi : K, ∀ t ∈ l, lo ≤ t ∧ t ≤ hi := by
        intro l
        induction l with
        | nil => exact ⟨0, 0, by simp⟩
        | cons a l ih =>
          obtain ⟨lo, hi, hl⟩ := ih
          refine ⟨min a lo, max a hi, ?_⟩
          intro t ht
          rcases List.mem_cons.mp ht with rfl | ht
          · exact ⟨min_le_left _ _, le_max_left _ _⟩
          · exact ⟨(min_le_right _ _).trans (hl t ht).1, (hl t ht).2.trans (le_max_right _ _)⟩
      obtain ⟨lo, hi, hl⟩ := one c.z.flatten
      exact ⟨lo, hi, fun r hr t ht => hl t (List.mem_flatten.mpr ⟨r, hr, ht⟩)⟩
    obtain ⟨lo, hi, hb⟩ := hex
    obtain ⟨ya, za, a, b, d, e, _⟩ := c.evaluateX_valid h hn lo hi hb x
    exact ⟨ya, za, a, b, d, e⟩
  obtain ⟨ya, za, he, hya, hza, hs⟩ := key
  refine ⟨ya, za, he, ⟨by simp [hya, hza], hs⟩, fun y => ?_⟩
  unfold CharMap.evaluate
  rw [he]
  exact evaluateY_eq _ _ _ (by omega) (by omega)

/-- C07: the first-dimension domain check warns exactly outside of the x range and
returns the same y array as `evaluate_x` (maps with at least two rows). -/
theorem C07_domain_errors_x (c : CharMap K) (w : ℕ) (h : c.Valid w) (hn : 2 ≤ c.x.length)
    (v : K) : ∃ ya za wn, c.evaluateX v = .ok (ya, za) ∧ c.getDomainErrorsX v = .ok (ya, wn) ∧
      (wn = none ↔ c.x[0] ≤ v ∧ v ≤ c.x[c.x.length - 1]) := by
  have hle : c.x.Pairwise (· ≤ ·) := h.sorted.imp (fun h => le_of_lt h)
  have hly := h.leny
  have hlz := h.lenz
  have h0l : c.x[0] < c.x[c.x.length - 1] :=
    List.pairwise_iff_getElem.mp h.sorted 0 (c.x.length-1) (by omega) (by omega) (by omega)
  rcases CharLine.locate (⟨c.x, c.x, false⟩ : CharLine K) v (by simp only; omega) with hv | hv | ⟨i, hi', h1, h2⟩
  · simp only at hv
    have b : ¬ (0 < searchsorted c.x v) := by
      rw [lt_searchsorted_iff c.x v hle 0 (by omega)]; exact not_lt.mpr hv
    have e : searchsorted c.x v = 0 := by omega
    refine ⟨_, _, if v = c.x[0] then none else some (.below c.x[0]), c.evaluateX_left h v (by omega) hv, ?_, ?_⟩
    · unfold CharMap.getDomainErrorsX
      rw [pyGet_neg_one _ (by omega), pyGet_zero c.x (by omega)]
      simp only [bind, Except.bind, e]
      rw [if_neg (by omega)]
      by_cases hv0 : v = c.x[0]
      · rw [if_neg (by simp [hv0])]
        have e1 : (0 : Int) - 1 = -1 := by norm_num
        have e2 : ((0 : ℕ) : Int) = 0 := by norm_num
        have hn' : c.x[0] - c.x[c.x.length - 1] ≠ 0 := sub_ne_zero.mpr h0l.ne
        simp only [e2, e1, pyGet_neg_one c.x (by omega), pyGet_zero c.x (by omega),
          pyGet_neg_one c.y (by omega), pyGet_zero c.y (by omega), if_neg hn', hv0, div_self hn',
          if_true]
        have hrow : ∀ a b : List K, a.length = b.length → rowInterp 1 a b = b := by
          intro a b hab
          apply List.ext_getElem
          · simp [rowInterp, hab]
          · intro k h1 h2; simp [rowInterp]
        rw [hrow]
        rw [h.roww _ (List.getElem_mem _), h.roww _ (List.getElem_mem _)]
      · rw [if_pos ⟨trivial, hv0⟩, if_neg hv0]
        rw [pyGet_zero c.y (by omega)]
    · by_cases hv0 : v = c.x[0]
      · simp [hv0, h0l.le]
      · simp only [hv0, if_false, reduceCtorEq, false_iff, not_and]
        intro hc; exact absurd (le_antisymm hv hc) hv0
  · simp only at hv
    have b := (lt_searchsorted_iff c.x v hle (c.x.length - 1) (by omega)).mpr hv
    have hs := searchsorted_le c.x v
    have e : searchsorted c.x v = c.x.length := by omega
    refine ⟨_, _, some (.above c.x[c.x.length - 1]), c.evaluateX_right h v (by omega) hv, ?_, ?_⟩
    · unfold CharMap.getDomainErrorsX
      rw [pyGet_neg_one _ (by omega), pyGet_zero c.x (by omega)]
      simp only [bind, Except.bind, e]
      rw [if_pos ⟨trivial, hv.ne'⟩, pyGet_pred _ _ (by omega) (by omega)]
    · simp [hv]
  · simp only at hi' h1 h2
    have a := (lt_searchsorted_iff c.x v hle i (by omega)).mpr h1
    have b : ¬ (i + 1 < searchsorted c.x v) := by
      rw [lt_searchsorted_iff c.x v hle (i+1) hi']; exact not_lt.mpr h2
    have hs := searchsorted_le c.x v
    have e : searchsorted c.x v = i + 1 := by omega
    have hlt : c.x[i] < c.x[i+1] :=
      List.pairwise_iff_getElem.mp h.sorted i (i+1) (by omega) hi' (by omega)
    have hn' : c.x[i+1] - c.x[i] ≠ 0 := sub_ne_zero.mpr hlt.ne'
    refine ⟨_, _, none, c.evaluateX_inner h i v hi' h1 h2, ?_, ?_⟩
    · unfold CharMap.getDomainErrorsX
      rw [pyGet_neg_one _ (by omega), pyGet_zero c.x (by omega)]
      simp only [bind, Except.bind, e]
      rw [if_neg (by omega), if_neg (by omega)]
      rw [pyGet_pred c.x _ (by omega) (by omega), pyGet_nat c.x _ hi',
        pyGet_pred c.y _ (by omega) (by omega), pyGet_nat c.y _ (by omega)]
      simp only [Nat.add_sub_cancel, if_neg hn']
    · simp only [true_iff]
      constructor
      · have : c.x[0] ≤ c.x[i] := by
          rcases Nat.eq_zero_or_pos i with rfl | hp
          · exact le_refl _
          · exact List.pairwise_iff_getElem.mp hle 0 i (by omega) (by omega) hp
        exact this.trans h1.le
      · have : c.x[i+1] ≤ c.x[c.x.length - 1] := by
          rcases Nat.lt_or_ge (i+1) (c.x.length - 1) with hp | hp
          · exact List.pairwise_iff_getElem.mp hle (i+1) _ (by omega) (by omega) hp
          · have : c.x.length - 1 = i + 1 := by omega
            simp [this]
        exact h2.trans this

-- non-vacuity
def exampleMap : CharMap ℚ := ⟨[0, 1, 2], [[0, 1], [1, 3], [2, 4]], [[5, 6], [7, 8], [1, 9]]⟩
example : exampleMap.Valid 2 :=
  ⟨rfl, rfl, by decide +kernel, by decide +kernel, by decide +kernel, by decide +kernel⟩
example : exampleMap.evaluate (1/2) 1 = .ok (19/3) := by decide +kernel
example : exampleMap.getDomainErrorsX 0 = .ok ([0, 1], none) := by decide +kernel

end Tespy
