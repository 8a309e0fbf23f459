import Mathlib.Algebra.Order.Field.Rat
import Verif.Props.CharMap
import Verif.Model.CompressorMap
/-
C63: evaluating a compressor map.
-/
namespace Tespy
variable {K : Type _} [Field K] [LinearOrder K] [IsStrictOrderedRing K]

theorem pyGet_map {α β : Type _} (g : α → β) (l : List α) (i : Int) :
    pyGet (l.map g) i = (pyGet l i).map g := by
  unfold pyGet
  simp only [List.getElem?_map, List.length_map]
  split
  · cases l[i.toNat]? <;> rfl
  · split
    · cases l[(l.length + i).toNat]? <;> rfl
    · rfl

theorem searchsorted_scale {f : K} (hf : 0 < f) (a : List K) (v : K) :
    searchsorted (scaleRow f a) v = searchsorted a (v / f) := by
  unfold searchsorted scaleRow
  rw [List.takeWhile_map, List.length_map]
  congr 2
  funext t
  simp only [Function.comp_apply, decide_eq_decide]
  exact (lt_div_iff₀ hf).symm

theorem interpAt_scale {fy : K} (hf : 0 < fy) (fz : K) (ya za : List K) (i : Int) (v : K) :
    interpAt (scaleRow fy ya) (scaleRow fz za) i v = (interpAt ya za i (v / fy)).map (· * fz) := by
  unfold interpAt scaleRow
  rw [pyGet_map, pyGet_map, pyGet_map, pyGet_map]
  cases pyGet ya (i - 1) with
  | error e => rfl
  | ok x0 =>
    cases pyGet ya i with
    | error e => rfl
    | ok x1 =>
      simp only [Except.map, bind, Except.bind]
      have hz : x1 * fy - x0 * fy = 0 ↔ x1 - x0 = 0 := by
        rw [← sub_mul, mul_eq_zero]
        exact or_iff_left hf.ne'
      by_cases h : x1 - x0 = 0
      · rw [if_pos (hz.mpr h), if_pos h]
      · rw [if_neg (fun hh => h (hz.mp hh)), if_neg h]
        cases pyGet za (i - 1) with
        | error e => rfl
        | ok y0 =>
          cases pyGet za i with
          | error e => rfl
          | ok y1 =>
            simp only [Except.ok.injEq]
            have hfn : fy ≠ 0 := hf.ne'
            field_simp

theorem evaluateY_scale {fy : K} (hf : 0 < fy) (fz : K) (ya za : List K) (v : K) :
    CharMap.evaluateY v (scaleRow fy ya) (scaleRow fz za) =
      (CharMap.evaluateY (v / fy) ya za).map (· * fz) := by
  unfold CharMap.evaluateY
  rw [searchsorted_scale hf]
  simp only [show (scaleRow fy ya).length = ya.length from List.length_map ..]
  split
  · exact pyGet_map _ _ _
  · split
    · exact pyGet_map _ _ _
    · exact interpAt_scale hf fz ya za _ v

/-- The value of one evaluation: the map at the mass flow divided by the factor, times the factor. -/
theorem scaledEval_value (c : CharMap K) {fy : K} (hf : 0 < fy) (fz x y : K) :
    (c.scaledEval fy fz x y).2 = (c.evaluate x (y / fy)).map (· * fz) := by
  unfold CharMap.scaledEval CharMap.evaluate
  cases c.evaluateX x with
  | error e => rfl
  | ok r => exact evaluateY_scale hf fz r.1 r.2 y

omit [LinearOrder K] [IsStrictOrderedRing K] in
theorem scaleRow_scaleRow (a b : K) (row : List K) :
    scaleRow b (scaleRow a row) = scaleRow (a * b) row := by
  unfold scaleRow
  rw [List.map_map]
  congr 1
  funext t
  simp [mul_assoc]

omit [LinearOrder K] [IsStrictOrderedRing K] in
theorem scaleRow_one (row : List K) : scaleRow 1 row = row := by
  unfold scaleRow; simp

omit [LinearOrder K] [IsStrictOrderedRing K] in
theorem modify_one (l : List (List K)) (i : ℕ) : l.modify i (scaleRow 1) = l := by
  have : (scaleRow (1 : K)) = id := by funext r; exact scaleRow_one r
  rw [this, List.modify_id]

omit [LinearOrder K] [IsStrictOrderedRing K] in
theorem modify_scale (l : List (List K)) (i : ℕ) (a b : K) :
    (l.modify i (scaleRow a)).modify i (scaleRow b) = l.modify i (scaleRow (a * b)) := by
  rw [List.modify_modify_eq]
  congr 1
  funext r
  exact scaleRow_scaleRow a b r

/-- The shape of a map: as many rows as speed lines, at least one. -/
structure CharMap.Shape (c : CharMap K) : Prop where
  some : 0 < c.x.length
  leny : c.y.length = c.x.length
  lenz : c.z.length = c.x.length

omit [IsStrictOrderedRing K] in
theorem evaluateX_view {c : CharMap K} (hs : c.Shape) {x : K} {i : ℕ} (hv : c.viewRow x = some i) :
    ∃ (hy : i < c.y.length) (hz : i < c.z.length), c.evaluateX x = .ok (c.y[i], c.z[i]) := by
  have h0 := hs.some
  have hy := hs.leny
  have hz := hs.lenz
  unfold CharMap.viewRow at hv
  simp only at hv
  unfold CharMap.evaluateX
  simp only
  by_cases h1 : searchsorted c.x x = c.x.length
  · rw [if_pos h1] at hv ⊢
    injection hv with hv
    rw [h1] at hv ⊢
    subst hv
    refine ⟨by omega, by omega, ?_⟩
    rw [pyGet_pred _ _ (by omega) (by omega), pyGet_pred _ _ (by omega) (by omega)]
    rfl
  · rw [if_neg h1] at hv ⊢
    by_cases h2 : searchsorted c.x x = 0
    · rw [if_pos h2] at hv ⊢
      injection hv with hv
      subst hv
      refine ⟨by omega, by omega, ?_⟩
      rw [pyGet_zero _ (by omega), pyGet_zero _ (by omega)]
      rfl
    · rw [if_neg h2] at hv; cases hv

/-- The map after its row `i` has been scaled. -/
def CharMap.withRow (c : CharMap K) (i : ℕ) (fy fz : K) : CharMap K :=
  { c with y := c.y.modify i (scaleRow fy), z := c.z.modify i (scaleRow fz) }

omit [IsStrictOrderedRing K] in
theorem withRow_shape {c : CharMap K} (hs : c.Shape) (i : ℕ) (fy fz : K) : (c.withRow i fy fz).Shape :=
  ⟨hs.some, by simp [CharMap.withRow, hs.leny], by simp [CharMap.withRow, hs.lenz]⟩

omit [LinearOrder K] [IsStrictOrderedRing K] in
theorem withRow_withRow (c : CharMap K) (i : ℕ) (a b a' b' : K) :
    (c.withRow i a b).withRow i a' b' = c.withRow i (a * a') (b * b') := by
  unfold CharMap.withRow
  simp only [modify_scale]

/-- One evaluation at the edge of the map, whose row has been scaled before. -/
theorem scaledEval_edge {c : CharMap K} (hs : c.Shape) {x : K} {i : ℕ} (hv : c.viewRow x = some i)
    {fy : K} (hf : 0 < fy) (fz y : K) {gy : K} (hg : 0 < gy) (gz : K) :
    (c.withRow i gy gz).scaledEval fy fz x y =
      (c.withRow i (gy * fy) (gz * fz), (c.evaluate x (y / (gy * fy))).map (· * (gz * fz))) := by
  have hv' : (c.withRow i gy gz).viewRow x = some i := hv
  obtain ⟨hy, hz, he⟩ := evaluateX_view (withRow_shape hs i gy gz) hv'
  obtain ⟨hy0, hz0, he0⟩ := evaluateX_view hs hv
  have r1 : (c.withRow i gy gz).y[i] = scaleRow gy c.y[i] := by simp [CharMap.withRow]
  have r2 : (c.withRow i gy gz).z[i] = scaleRow gz c.z[i] := by simp [CharMap.withRow]
  unfold CharMap.scaledEval
  rw [he]
  simp only [r1, r2]
  rw [scaleRow_scaleRow, scaleRow_scaleRow, evaluateY_scale (mul_pos hg hf)]
  refine Prod.ext ?_ ?_
  · simp only [CharMap.scaled, hv']
    exact withRow_withRow c i gy gz fy fz
  · simp only [CharMap.evaluate, he0]
    rfl

/-- The factors of the two maps. -/
def prFactor (q : CompressorPoint K) : K := 1 - q.igva / 100
def etaFactor (q : CompressorPoint K) : K := 1 - q.igva ^ 2 / 10000

/-- C63: the residual of the map for the pressure ratio as documented, for a given map. -/
def prResidual (c : CharMap K) (q : CompressorPoint K) (n : ℕ) : PyRes K :=
  (c.evaluate q.x (q.y / prFactor q ^ n)).map
    (fun pr => q.pOut / q.pIn - pr * prFactor q ^ n * q.prDesign)

/-- C63: the residual of the map for the isentropic efficiency as documented, for a given map. -/
def etaResidual (c : CharMap K) (q : CompressorPoint K) (n : ℕ) : PyRes K :=
  (c.evaluate q.x (q.y / prFactor q ^ n)).map
    (fun eta => q.dhIs / q.dh - eta * etaFactor q ^ n * q.etaDesign)

/-- C63: one evaluation gives the documented residual, in every state of the map. -/
theorem C63_residual (c : CharMap K) (q : CompressorPoint K) (hi : q.igva < 100) :
    (mapPrFunc c q).2 = prResidual c q 1 ∧ (mapEtaFunc c q).2 = etaResidual c q 1 := by
  have hf : 0 < prFactor q := by
    unfold prFactor
    rw [sub_pos, div_lt_one (by norm_num)]; exact hi
  constructor
  · have h := scaledEval_value c hf (prFactor q) q.x q.y
    unfold mapPrFunc prResidual
    rw [pow_one]
    change (match c.scaledEval (prFactor q) (prFactor q) q.x q.y with
      | (c1, .error e) => (c1, .error e)
      | (c1, .ok pr) => (c1, .ok (q.pOut / q.pIn - pr * q.prDesign)) : CharMap K × PyRes K).2 = _
    cases he : c.scaledEval (prFactor q) (prFactor q) q.x q.y with
    | mk c1 r =>
      rw [he] at h
      simp only at h
      subst h
      cases c.evaluate q.x (q.y / prFactor q) <;> rfl
  · have h := scaledEval_value c hf (etaFactor q) q.x q.y
    unfold mapEtaFunc etaResidual
    rw [pow_one, pow_one]
    change (match c.scaledEval (prFactor q) (etaFactor q) q.x q.y with
      | (c1, .error e) => (c1, .error e)
      | (c1, .ok eta) => (c1, .ok (q.dhIs / q.dh - eta * q.etaDesign)) : CharMap K × PyRes K).2 = _
    cases he : c.scaledEval (prFactor q) (etaFactor q) q.x q.y with
    | mk c1 r =>
      rw [he] at h
      simp only at h
      subst h
      cases c.evaluate q.x (q.y / prFactor q) <;> rfl

theorem viewRow_inner {c : CharMap K} (hs : c.Shape) (hx : c.x.Pairwise (· < ·)) {x : K}
    (h0 : c.x[0]'hs.some < x) (h1 : x ≤ c.x[c.x.length - 1]'(by have := hs.some; omega)) :
    c.viewRow x = none := by
  have hp := hs.some
  have hle : c.x.Pairwise (· ≤ ·) := hx.imp (fun h => le_of_lt h)
  have a := (lt_searchsorted_iff c.x x hle 0 hp).mpr h0
  have b : ¬ (c.x.length - 1 < searchsorted c.x x) := by
    rw [lt_searchsorted_iff c.x x hle _ (by omega)]; exact not_lt.mpr h1
  unfold CharMap.viewRow
  simp only
  rw [if_neg (by omega), if_neg (by omega)]

omit [IsStrictOrderedRing K] in
theorem scaled_one (c : CharMap K) (x : K) : c.scaled x 1 1 = c := by
  unfold CharMap.scaled
  split
  · rw [modify_one, modify_one]
  · rfl

omit [IsStrictOrderedRing K] in
theorem map_state (c : CharMap K) (q : CompressorPoint K) :
    ((mapPrFunc c q).1 = c ∨ (mapPrFunc c q).1 = c.scaled q.x (prFactor q) (prFactor q)) ∧
    ((mapEtaFunc c q).1 = c ∨ (mapEtaFunc c q).1 = c.scaled q.x (prFactor q) (etaFactor q)) := by
  unfold mapPrFunc mapEtaFunc CharMap.scaledEval
  cases c.evaluateX q.x with
  | error e => exact ⟨.inl rfl, .inl rfl⟩
  | ok r =>
    constructor
    · refine .inr ?_
      simp only
      cases CharMap.evaluateY q.y (scaleRow (1 - q.igva / 100) r.1) (scaleRow (1 - q.igva / 100) r.2) <;> rfl
    · refine .inr ?_
      simp only
      cases CharMap.evaluateY q.y (scaleRow (1 - q.igva / 100) r.1)
        (scaleRow (1 - q.igva ^ 2 / 10000) r.2) <;> rfl

/-- C63: strictly within the range of speed lines, or with vanishing inlet guide vane angle, the
map stays as it is during evaluation and checks: any number of evaluations gives the same
documented value. -/
theorem C63_unchanged_partial (c : CharMap K) (hs : c.Shape) (hx : c.x.Pairwise (· < ·))
    (q : CompressorPoint K) (hi : q.igva < 100)
    (h : q.igva = 0 ∨ (c.x[0]'hs.some < q.x ∧
      q.x ≤ c.x[c.x.length - 1]'(by have := hs.some; omega))) :
    (∀ n, mapRuns mapPrFunc q n c = (c, List.replicate n (prResidual c q 1))) ∧
    (∀ n, mapRuns mapEtaFunc q n c = (c, List.replicate n (etaResidual c q 1))) ∧
    mapCheck c q = c := by
  have hsc : ∀ fy fz, (q.igva = 0 → fy = 1 ∧ fz = 1) → c.scaled q.x fy fz = c := by
    intro fy fz hff
    rcases h with h | h
    · obtain ⟨rfl, rfl⟩ := hff h
      exact scaled_one c q.x
    · unfold CharMap.scaled
      rw [viewRow_inner hs hx h.1 h.2]
  have hpf : q.igva = 0 → prFactor q = 1 := fun h => by unfold prFactor; rw [h]; simp
  have hef : q.igva = 0 → etaFactor q = 1 := fun h => by unfold etaFactor; rw [h]; simp
  have hst : (mapPrFunc c q).1 = c ∧ (mapEtaFunc c q).1 = c := by
    obtain ⟨h1, h2⟩ := map_state c q
    rw [hsc _ _ (fun h => ⟨hpf h, hpf h⟩)] at h1
    rw [hsc _ _ (fun h => ⟨hpf h, hef h⟩)] at h2
    exact ⟨h1.elim id id, h2.elim id id⟩
  obtain ⟨hr1, hr2⟩ := C63_residual c q hi
  refine ⟨fun n => ?_, fun n => ?_, ?_⟩
  · induction n with
    | zero => rfl
    | succ n ih => simp only [mapRuns, hst.1, ih, hr1, List.replicate_succ]
  · induction n with
    | zero => rfl
    | succ n ih => simp only [mapRuns, hst.2, ih, hr2, List.replicate_succ]
  · unfold mapCheck
    split
    · rfl
    · rcases h with h | h
      · split
        · rw [show (1 : K) - q.igva / 100 = 1 by rw [h]; simp, modify_one]
        · rfl
      · have hv := viewRow_inner hs hx h.1 h.2
        have hve : c.viewRowErrors q.x = none := by
          unfold CharMap.viewRow at hv
          simp only at hv
          unfold CharMap.viewRowErrors
          simp only
          by_cases h1 : searchsorted c.x q.x = c.x.length
          · rw [if_pos h1] at hv; cases hv
          · rw [if_neg h1] at hv
            by_cases h2 : searchsorted c.x q.x = 0
            · rw [if_pos h2] at hv; cases hv
            · rw [if_neg (fun h => h1 h.1), if_neg (fun h => h2 h.1)]
        rw [hve]

/-- C63 at the edges of the map: after `n` evaluations at one operating point the outermost row of
the map has been scaled `n` times, and the residuals are those of the map scaled once, twice, ...:
the value depends on the number of preceding evaluations. -/
theorem C63_drift (c : CharMap K) (hs : c.Shape) (q : CompressorPoint K) (hi : q.igva < 100) {i : ℕ}
    (hv : c.viewRow q.x = some i) (n : ℕ) :
    mapRuns mapPrFunc q n c = (c.withRow i (prFactor q ^ n) (prFactor q ^ n),
      (List.range n).map (fun k => prResidual c q (k + 1))) ∧
    mapRuns mapEtaFunc q n c = (c.withRow i (prFactor q ^ n) (etaFactor q ^ n),
      (List.range n).map (fun k => etaResidual c q (k + 1))) := by
  have hf : 0 < prFactor q := by
    unfold prFactor
    rw [sub_pos, div_lt_one (by norm_num)]; exact hi
  have key1 : ∀ (m j : ℕ), mapRuns mapPrFunc q m (c.withRow i (prFactor q ^ j) (prFactor q ^ j)) =
      (c.withRow i (prFactor q ^ (j + m)) (prFactor q ^ (j + m)),
        (List.range m).map (fun k => prResidual c q (j + k + 1))) := by
    intro m
    induction m with
    | zero => intro j; rfl
    | succ m ih =>
      intro j
      have hstep : mapPrFunc (c.withRow i (prFactor q ^ j) (prFactor q ^ j)) q =
          (c.withRow i (prFactor q ^ (j + 1)) (prFactor q ^ (j + 1)), prResidual c q (j + 1)) := by
        have h := scaledEval_edge hs hv hf (prFactor q) q.y (pow_pos hf j) (prFactor q ^ j)
        rw [← pow_succ] at h
        unfold mapPrFunc
        change (match (c.withRow i (prFactor q ^ j) (prFactor q ^ j)).scaledEval (prFactor q)
            (prFactor q) q.x q.y with
          | (c1, .error e) => (c1, .error e)
          | (c1, .ok pr) => (c1, .ok (q.pOut / q.pIn - pr * q.prDesign)) : CharMap K × PyRes K) = _
        rw [h]
        unfold prResidual
        cases c.evaluate q.x (q.y / prFactor q ^ (j + 1)) <;> rfl
      simp only [mapRuns, hstep, ih (j + 1), List.range_succ_eq_map, List.map_cons, List.map_map]
      refine Prod.ext ?_ ?_
      · simp only; rw [show j + 1 + m = j + (m + 1) by omega]
      · simp only [Nat.add_zero, List.cons.injEq, true_and]
        apply List.map_congr_left
        intro k _
        simp only [Function.comp_apply]
        rw [show j + 1 + k + 1 = j + (k + 1) + 1 by omega]
  have key2 : ∀ (m j : ℕ), mapRuns mapEtaFunc q m (c.withRow i (prFactor q ^ j) (etaFactor q ^ j)) =
      (c.withRow i (prFactor q ^ (j + m)) (etaFactor q ^ (j + m)),
        (List.range m).map (fun k => etaResidual c q (j + k + 1))) := by
    intro m
    induction m with
    | zero => intro j; rfl
    | succ m ih =>
      intro j
      have hstep : mapEtaFunc (c.withRow i (prFactor q ^ j) (etaFactor q ^ j)) q =
          (c.withRow i (prFactor q ^ (j + 1)) (etaFactor q ^ (j + 1)), etaResidual c q (j + 1)) := by
        have h := scaledEval_edge hs hv hf (etaFactor q) q.y (pow_pos hf j) (etaFactor q ^ j)
        rw [← pow_succ, ← pow_succ] at h
        unfold mapEtaFunc
        change (match (c.withRow i (prFactor q ^ j) (etaFactor q ^ j)).scaledEval (prFactor q)
            (etaFactor q) q.x q.y with
          | (c1, .error e) => (c1, .error e)
          | (c1, .ok eta) => (c1, .ok (q.dhIs / q.dh - eta * q.etaDesign)) : CharMap K × PyRes K) = _
        rw [h]
        unfold etaResidual
        cases c.evaluate q.x (q.y / prFactor q ^ (j + 1)) <;> rfl
      simp only [mapRuns, hstep, ih (j + 1), List.range_succ_eq_map, List.map_cons, List.map_map]
      refine Prod.ext ?_ ?_
      · simp only; rw [show j + 1 + m = j + (m + 1) by omega]
      · simp only [Nat.add_zero, List.cons.injEq, true_and]
        apply List.map_congr_left
        intro k _
        simp only [Function.comp_apply]
        rw [show j + 1 + k + 1 = j + (k + 1) + 1 by omega]
  have h1 := key1 n 0
  have h2 := key2 n 0
  have hc : c.withRow i 1 1 = c := by unfold CharMap.withRow; rw [modify_one, modify_one]
  simp only [pow_zero, hc, Nat.zero_add] at h1 h2
  exact ⟨h1, h2⟩

/-! ### witnesses -/

/-- two speed lines with three points each -/
def cmMap : CharMap ℚ := ⟨[9 / 10, 1], [[1, 2, 3], [2, 3, 4]], [[3, 2, 1], [4, 3, 2]]⟩
/-- warm inlet: the speed line index is below those of the map -/
def cmPoint : CompressorPoint ℚ := ⟨8 / 10, 1, 1, 10, 300, 400, 10, 5, 9 / 10⟩

-- non-vacuity of C63_drift and, for x within the map, of C63_unchanged_partial
example : cmMap.Shape ∧ cmMap.x.Pairwise (· < ·) ∧ cmPoint.igva < 100 ∧ cmMap.viewRow cmPoint.x = some 0 ∧
    cmMap.viewRow (95 / 100) = none :=
  ⟨⟨by decide, by decide, by decide⟩, by decide +kernel, by decide +kernel, by decide +kernel, by decide +kernel⟩

/-- C63 is false: two evaluations at the same operating point give different residuals. -/
theorem C63_false : (mapRuns mapPrFunc cmPoint 2 cmMap).2.map Except.toOption =
    [some (-3), some (-6 / 5)] := by
  decide +kernel

/-- C63 is false for derivatives: the pressure ratio's residual does not depend on the enthalpy at
the outlet of the compressor - both evaluations have the same operating point -, yet its numerical
derivative for it (components/turbomachinery/compressor.py 445-446) is not zero. -/
theorem C63_derivative_false :
    ∃ v, (mapDeriv mapPrFunc cmPoint cmPoint (1 / 10) cmMap).2.toOption = some v ∧ v ≠ 0 := by
  refine ⟨((mapDeriv mapPrFunc cmPoint cmPoint (1 / 10) cmMap).2.toOption).getD 0, ?_, ?_⟩
  · decide +kernel
  · decide +kernel

/-- C63, numerical derivatives: without turned guide vanes the derivative of a map's residual is the
central difference of its values at the two shifted operating points, and the map is not changed; for a
quantity the operating point does not depend on it is zero. -/
theorem C63_derivative_partial (c : CharMap K) (up low : CompressorPoint K) (d : K)
    (hu : up.igva = 0) (hl : low.igva = 0) :
    (∀ a b, (mapPrFunc c up).2 = .ok a → (mapPrFunc c low).2 = .ok b →
      mapDeriv mapPrFunc up low d c = (c, .ok ((a - b) / (2 * d)))) ∧
    (∀ a b, (mapEtaFunc c up).2 = .ok a → (mapEtaFunc c low).2 = .ok b →
      mapDeriv mapEtaFunc up low d c = (c, .ok ((a - b) / (2 * d)))) ∧
    (∀ a, (mapPrFunc c up).2 = .ok a → mapDeriv mapPrFunc up up d c = (c, .ok 0)) ∧
    (∀ a, (mapEtaFunc c up).2 = .ok a → mapDeriv mapEtaFunc up up d c = (c, .ok 0)) := by
  have key : ∀ (c : CharMap K) (x y : K), (c.scaledEval 1 1 x y).1 = c := by
    intro c x y
    unfold CharMap.scaledEval
    cases c.evaluateX x with
    | error e => rfl
    | ok r => exact scaled_one c x
  have k1 : ∀ q : CompressorPoint K, q.igva = 0 → (mapPrFunc c q).1 = c := by
    intro q hq
    have := key c q.x q.y
    unfold mapPrFunc
    rw [hq, zero_div, sub_zero]
    revert this
    rcases c.scaledEval 1 1 q.x q.y with ⟨c1, e | v⟩ <;> exact fun h => h
  have k2 : ∀ q : CompressorPoint K, q.igva = 0 → (mapEtaFunc c q).1 = c := by
    intro q hq
    have := key c q.x q.y
    unfold mapEtaFunc
    rw [hq, zero_div, sub_zero, show (1 : K) - 0 ^ 2 / 10000 = 1 by norm_num]
    revert this
    rcases c.scaledEval 1 1 q.x q.y with ⟨c1, e | v⟩ <;> exact fun h => h
  have gen : ∀ (f : CharMap K → CompressorPoint K → CharMap K × PyRes K) (p q : CompressorPoint K) (a b : K),
      (f c p).1 = c → (f c q).1 = c → (f c p).2 = .ok a → (f c q).2 = .ok b →
      mapDeriv f p q d c = (c, .ok ((a - b) / (2 * d))) := by
    intro f p q a b h1 h2 h3 h4
    have e1 : f c p = (c, .ok a) := Prod.ext h1 h3
    have e2 : f c q = (c, .ok b) := Prod.ext h2 h4
    unfold mapDeriv
    rw [e1]
    simp only
    rw [e2]
  refine ⟨fun a b h1 h2 => gen _ _ _ a b (k1 _ hu) (k1 _ hl) h1 h2,
    fun a b h1 h2 => gen _ _ _ a b (k2 _ hu) (k2 _ hl) h1 h2, fun a h1 => ?_, fun a h1 => ?_⟩
  · rw [gen _ _ _ a a (k1 _ hu) (k1 _ hu) h1 h1, sub_self, zero_div]
  · rw [gen _ _ _ a a (k2 _ hu) (k2 _ hu) h1 h1, sub_self, zero_div]

-- non-vacuity: at the lower edge of the map, without turned guide vanes
example : (mapDeriv mapPrFunc { cmPoint with igva := 0, y := 3 / 2 } { cmPoint with igva := 0 } (1 / 4) cmMap).2.toOption =
    some 5 := by decide +kernel

/-- C63 is false for the check of parameter limits after a calculation: it scales the mass flow
indices of the outermost speed line but not its values, the next calculation uses another map. -/
theorem C63_check_false : (mapCheck cmMap cmPoint).y ≠ cmMap.y ∧ (mapCheck cmMap cmPoint).z = cmMap.z := by
  constructor
  · decide +kernel
  · decide +kernel

end Tespy
