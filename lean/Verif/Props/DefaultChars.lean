import Verif.Model.DefaultChars
import Verif.Props.Engine
import Verif.Props.CompressorMap
import Verif.Props.OffDesign
import Verif.Lemmas.DictLemmas
import Mathlib.Data.Rat.Cast.Order
/-
C109: the characteristics a component uses if the user gives none.
-/
namespace Tespy
open Tespy.Spec
variable {K : Type _} [Field K] [LinearOrder K] [IsStrictOrderedRing K]

/-! ### transport of the data to other fields -/

/-- a line with the numbers of the file, in the field `K` -/
def castLine (K : Type _) [Field K] (l : CharLine ℚ) : CharLine K :=
  ⟨l.x.map (fun q : ℚ => (q : K)), l.y.map (fun q : ℚ => (q : K)), l.extrapolate⟩

/-- a map with the numbers of the file, in the field `K` -/
def castMap (K : Type _) [Field K] (m : CharMap ℚ) : CharMap K :=
  ⟨m.x.map (fun q : ℚ => (q : K)), m.y.map (List.map (fun q : ℚ => (q : K))),
    m.z.map (List.map (fun q : ℚ => (q : K)))⟩

theorem get?_mapVals {κ β γ : Type _} [DecidableEq κ] (g : β → γ) (d : Dict κ β) (k : κ) :
    Dict.get? (d.map fun c => (c.1, g c.2)) k = (Dict.get? d k).map g := by
  induction d with
  | nil => rfl
  | cons a d ih =>
    obtain ⟨k', b⟩ := a
    simp only [List.map_cons, Dict.get?]
    split
    · rfl
    · exact ih

theorem lookup3_mapVals {β γ : Type _} (g : β → γ) (d : Dict String (Dict String (Dict String β)))
    (a b c : String) :
    lookup3 (d.map fun c => (c.1, c.2.map fun p => (p.1, p.2.map fun n => (n.1, g n.2)))) a b c =
      (lookup3 d a b c).map g := by
  unfold lookup3 Dict.getItem
  rw [get?_mapVals (fun v : Dict String (Dict String β) => v.map fun p => (p.1, p.2.map fun n => (n.1, g n.2))) d a]
  cases d.get? a with
  | none => rfl
  | some v =>
    simp only [Option.map_some]
    rw [get?_mapVals (fun v : Dict String β => v.map fun n => (n.1, g n.2)) v b]
    cases v.get? b with
    | none => rfl
    | some w =>
      simp only [Option.map_some]
      rw [get?_mapVals g w c]
      cases w.get? c <;> rfl

theorem loadDefaultLine_cast (a b c : String) :
    loadDefaultLine (lineFile K) a b c = (loadDefaultLine lineFileQ a b c).map (castLine K) := by
  unfold loadDefaultLine lineFile
  rw [lookup3_mapVals (fun v : List ℚ × List ℚ => (v.1.map (fun q : ℚ => (q : K)),
    v.2.map (fun q : ℚ => (q : K)))) lineFileQ a b c]
  cases lookup3 lineFileQ a b c with
  | error e => rfl
  | ok v =>
    simp only [Except.map, CharLine.init, List.length_map]
    split <;> rfl

theorem preprocessLine_cast (a k : String) (l : CharLine ℚ)
    (h : preprocessLine lineFileQ a k none = .ok (.line l)) :
    preprocessLine (lineFile K) a k none = .ok (.line (castLine K l)) := by
  unfold preprocessLine at h ⊢
  simp only at h ⊢
  rw [loadDefaultLine_cast]
  cases e : loadDefaultLine lineFileQ a k "DEFAULT" with
  | ok l' =>
    rw [e] at h
    simp only [Except.ok.injEq, CharFn.line.injEq] at h
    simp [Except.map, h]
  | error e' =>
    rw [e] at h
    cases e' <;> simp only [Except.map, reduceCtorEq, Except.ok.injEq, CharFn.line.injEq] at h ⊢
    subst h
    simp [constantOne, castLine]

theorem loadDefaultMap_cast (a b c : String) (m : CharMap ℚ)
    (h : loadDefaultMap mapFileQ a b c = .ok m) :
    loadDefaultMap (mapFile K) a b c = .ok (castMap K m) := by
  unfold loadDefaultMap mapFile at *
  rw [lookup3_mapVals (fun v : List ℚ × List (List ℚ) × List (List ℚ) =>
    (v.1.map (fun q : ℚ => (q : K)), v.2.1.map (List.map (fun q : ℚ => (q : K))),
      v.2.2.map (List.map (fun q : ℚ => (q : K))))) mapFileQ a b c]
  cases e : lookup3 mapFileQ a b c with
  | error e' => rw [e] at h; cases h
  | ok v =>
    rw [e] at h
    obtain ⟨x, y, z⟩ := v
    have hd : ∀ l : List (List ℚ), ((l.map (List.map (fun q : ℚ => (q : K)))).headD []).length =
        (l.headD []).length := by intro l; cases l <;> simp
    have hq : ∀ (l : List (List ℚ)) (w : ℕ), (∀ r ∈ l.map (List.map (fun q : ℚ => (q : K))),
        r.length = w) ↔ ∀ r ∈ l, r.length = w := by intro l w; simp
    simp only [Except.map, CharMap.init, hd, hq, List.length_map] at h ⊢
    split_ifs at h ⊢
    cases h
    rfl

theorem searchsorted_cast (a : List ℚ) (v : ℚ) :
    searchsorted (a.map (fun q : ℚ => (q : K))) (v : K) = searchsorted a v := by
  unfold searchsorted
  rw [List.takeWhile_map, List.length_map]
  congr 2
  funext t
  simp [Function.comp]

theorem interpAt_cast (x y : List ℚ) (i : Int) (v : ℚ) :
    interpAt (x.map (fun q : ℚ => (q : K))) (y.map (fun q : ℚ => (q : K))) i (v : K) =
      (interpAt x y i v).map (fun q : ℚ => (q : K)) := by
  unfold interpAt
  simp only [pyGet_map]
  cases pyGet x (i - 1) with
  | error e => rfl
  | ok a =>
    cases pyGet x i with
    | error e => rfl
    | ok b =>
      simp only [bind, Except.bind, Except.map]
      by_cases hz : b - a = 0
      · rw [if_pos hz, if_pos (by rw [← Rat.cast_sub, hz, Rat.cast_zero])]
      · rw [if_neg hz, if_neg (by rw [← Rat.cast_sub]; exact_mod_cast hz)]
        cases pyGet y (i - 1) with
        | error e => rfl
        | ok c =>
          cases pyGet y i with
          | error e => rfl
          | ok d => simp

/-- evaluating at a rational load gives the same number in every field -/
theorem evaluate_cast (l : CharLine ℚ) (v : ℚ) :
    (castLine K l).evaluate (v : K) = (l.evaluate v).map (fun q : ℚ => (q : K)) := by
  unfold CharLine.evaluate castLine
  simp only [searchsorted_cast, List.length_map, pyGet_map, interpAt_cast]
  split_ifs <;> rfl

theorem rowInterp_cast (f : ℚ) (a b : List ℚ) :
    rowInterp (f : K) (a.map (fun q : ℚ => (q : K))) (b.map (fun q : ℚ => (q : K))) =
      (rowInterp f a b).map (fun q : ℚ => (q : K)) := by
  unfold rowInterp
  rw [List.zipWith_map, List.map_zipWith]
  congr 1
  funext a b
  push_cast
  rfl

theorem map_evaluate_cast (m : CharMap ℚ) (x y : ℚ) :
    (castMap K m).evaluate (x : K) (y : K) = (m.evaluate x y).map (fun q : ℚ => (q : K)) := by
  have hx : (castMap K m).evaluateX (x : K) = (m.evaluateX x).map (fun r =>
      (r.1.map (fun q : ℚ => (q : K)), r.2.map (fun q : ℚ => (q : K)))) := by
    unfold CharMap.evaluateX castMap
    simp only [searchsorted_cast, List.length_map, pyGet_map]
    split_ifs with h1 h2
    · cases pyGet m.y ((searchsorted m.x x : Int) - 1) with
      | error e => rfl
      | ok a => cases pyGet m.z ((searchsorted m.x x : Int) - 1) <;> rfl
    · cases pyGet m.y 0 with
      | error e => rfl
      | ok a => cases pyGet m.z 0 <;> rfl
    · cases pyGet m.x ((searchsorted m.x x : Int) - 1) with
      | error e => rfl
      | ok a =>
        cases pyGet m.x (searchsorted m.x x : Int) with
        | error e => rfl
        | ok b =>
          simp only [bind, Except.bind, Except.map]
          by_cases hz : b - a = 0
          · rw [if_pos hz, if_pos (by rw [← Rat.cast_sub, hz, Rat.cast_zero])]
          · rw [if_neg hz, if_neg (by rw [← Rat.cast_sub]; exact_mod_cast hz)]
            cases pyGet m.y ((searchsorted m.x x : Int) - 1) with
            | error e => rfl
            | ok y0 =>
              cases pyGet m.y (searchsorted m.x x : Int) with
              | error e => rfl
              | ok y1 =>
                cases pyGet m.z ((searchsorted m.x x : Int) - 1) with
                | error e => rfl
                | ok z0 =>
                  cases pyGet m.z (searchsorted m.x x : Int) with
                  | error e => rfl
                  | ok z1 =>
                    simp only [← rowInterp_cast]
                    push_cast
                    rfl
  unfold CharMap.evaluate
  rw [hx]
  cases m.evaluateX x with
  | error e => rfl
  | ok r =>
    obtain ⟨ya, za⟩ := r
    simp only [bind, Except.bind, Except.map]
    unfold CharMap.evaluateY
    simp only [searchsorted_cast, List.length_map, pyGet_map, interpAt_cast]
    split_ifs <;> rfl

/-! ### rows with repeated values -/

/-- As `CharLine.Valid`, but x values may be repeated. -/
structure CharLine.Ascending (c : CharLine K) : Prop where
  len : c.y.length = c.x.length
  sorted : c.x.Pairwise (· ≤ ·)

/-- C109, lines with repeated x values: without extrapolation every load has a value, within all
bounds of the y values; the interpolation never divides by zero. -/
theorem C109_repeated_points (c : CharLine K) (h : c.Ascending) (hne : 0 < c.x.length)
    (hex : c.extrapolate = false) (lo hi : K) (hb : ∀ t ∈ c.y, lo ≤ t ∧ t ≤ hi) (v : K) :
    ∃ r, c.evaluate v = .ok r ∧ lo ≤ r ∧ r ≤ hi := by
  have hl := h.len
  have hb' : ∀ i, (hi' : i < c.y.length) → lo ≤ c.y[i] ∧ c.y[i] ≤ hi :=
    fun i hi' => hb _ (List.getElem_mem _)
  have hs := searchsorted_le c.x v
  rcases c.locate v hne with hv | hv | ⟨i, hi', h1, h2⟩
  · have b : ¬ (0 < searchsorted c.x v) := by
      rw [lt_searchsorted_iff c.x v h.sorted 0 hne]; exact not_lt.mpr hv
    refine ⟨c.y[0]'(by omega), ?_, hb' _ _⟩
    unfold CharLine.evaluate
    simp only [show searchsorted c.x v = 0 by omega, hex]
    rw [if_neg (by omega)]
    simp [pyGet_zero c.y (by omega)]
  · have b := (lt_searchsorted_iff c.x v h.sorted (c.x.length - 1) (by omega)).mpr hv
    refine ⟨c.y[c.y.length - 1]'(by omega), ?_, hb' _ _⟩
    unfold CharLine.evaluate
    simp only [show searchsorted c.x v = c.x.length by omega, hex, if_true]
    simp [pyGet_neg_one c.y (by omega)]
  · have a := (lt_searchsorted_iff c.x v h.sorted i (by omega)).mpr h1
    have b : ¬ (i + 1 < searchsorted c.x v) := by
      rw [lt_searchsorted_iff c.x v h.sorted (i+1) hi']; exact not_lt.mpr h2
    have hlt := lt_of_lt_of_le h1 h2
    refine ⟨_, ?_, lineThrough_mem c.x[i] (c.y[i]'(by omega)) c.x[i+1] (c.y[i+1]'(by omega)) v lo hi
      hlt h1.le h2 (hb' _ _).1 (hb' _ _).2 (hb' _ _).1 (hb' _ _).2⟩
    have := interpAt_eq c.x c.y i v hi' (by omega) hlt
    unfold CharLine.evaluate
    simp only [show searchsorted c.x v = i + 1 by omega]
    rw [if_neg (by omega), if_neg (by omega)]
    push_cast
    exact this

/-- As `CharMap.Valid`, but the y values of a row may be repeated. -/
structure CharMap.Ascending (c : CharMap K) (w : ℕ) : Prop where
  leny : c.y.length = c.x.length
  lenz : c.z.length = c.x.length
  sorted : c.x.Pairwise (· < ·)
  roww : ∀ r ∈ c.y, r.length = w
  rowz : ∀ r ∈ c.z, r.length = w
  rows : ∀ r ∈ c.y, r.Pairwise (· ≤ ·)

theorem rowInterp_ascending (f : K) (a b : List K) (h0 : 0 ≤ f) (h1 : f ≤ 1)
    (ha : a.Pairwise (· ≤ ·)) (hb : b.Pairwise (· ≤ ·)) :
    (rowInterp f a b).Pairwise (· ≤ ·) := by
  rw [List.pairwise_iff_getElem] at *
  intro i j hi hj hij
  simp only [rowInterp, List.length_zipWith, lt_inf_iff] at hi hj
  simp only [rowInterp, List.getElem_zipWith]
  have h2 := ha i j hi.1 hj.1 hij
  have h3 := hb i j hi.2 hj.2 hij
  nlinarith [mul_nonneg (sub_nonneg.mpr h1) (sub_nonneg.mpr h2), mul_nonneg h0 (sub_nonneg.mpr h3)]

/-- C109, maps whose rows have repeated y values, as those of the package: every pair of arguments
has a value, within all bounds of the z values. -/
theorem C109_repeated_map_points (c : CharMap K) (w : ℕ) (h : c.Ascending w) (hn : 0 < c.x.length)
    (hw : 0 < w) (lo hi : K) (hb : ∀ r ∈ c.z, ∀ t ∈ r, lo ≤ t ∧ t ≤ hi) (x y : K) :
    ∃ r, c.evaluate x y = .ok r ∧ lo ≤ r ∧ r ≤ hi := by
  have hly := h.leny
  have hlz := h.lenz
  have ry : ∀ i, (hi : i < c.y.length) → c.y[i].length = w ∧ c.y[i].Pairwise (· ≤ ·) :=
    fun i hi => ⟨h.roww _ (List.getElem_mem _), h.rows _ (List.getElem_mem _)⟩
  have rz : ∀ i, (hi' : i < c.z.length) → c.z[i].length = w ∧ ∀ t ∈ c.z[i], lo ≤ t ∧ t ≤ hi :=
    fun i hi => ⟨h.rowz _ (List.getElem_mem _), hb _ (List.getElem_mem _)⟩
  have main : ∃ ya za, c.evaluateX x = .ok (ya, za) ∧ ya.length = w ∧ za.length = w ∧
      ya.Pairwise (· ≤ ·) ∧ ∀ t ∈ za, lo ≤ t ∧ t ≤ hi := by
    have hle : c.x.Pairwise (· ≤ ·) := h.sorted.imp (fun h => le_of_lt h)
    have hs := searchsorted_le c.x x
    by_cases e1 : searchsorted c.x x = c.x.length
    · refine ⟨_, _, ?_, (ry (c.x.length - 1) (by omega)).1, (rz (c.x.length - 1) (by omega)).1,
        (ry (c.x.length - 1) (by omega)).2, (rz (c.x.length - 1) (by omega)).2⟩
      unfold CharMap.evaluateX
      simp only [e1, if_true]
      rw [pyGet_pred _ _ hn (by omega), pyGet_pred _ _ hn (by omega)]
      rfl
    by_cases e0 : searchsorted c.x x = 0
    · refine ⟨_, _, ?_, (ry 0 (by omega)).1, (rz 0 (by omega)).1, (ry 0 (by omega)).2,
        (rz 0 (by omega)).2⟩
      unfold CharMap.evaluateX
      simp only [if_neg e1, if_pos e0]
      rw [pyGet_zero _ (by omega), pyGet_zero _ (by omega)]
      rfl
    obtain ⟨i, hi'⟩ : ∃ i, searchsorted c.x x = i + 1 := ⟨searchsorted c.x x - 1, by omega⟩
    have hil : i + 1 < c.x.length := by omega
    have h1 : c.x[i] < x := (lt_searchsorted_iff c.x x hle i (by omega)).mp (by omega)
    have h2 : x ≤ c.x[i+1] := not_lt.mp (fun hc => by
      have := (lt_searchsorted_iff c.x x hle (i+1) hil).mpr hc; omega)
    have hd : 0 < c.x[i+1] - c.x[i] := by linarith
    have f0 : 0 ≤ (x - c.x[i]) / (c.x[i+1] - c.x[i]) := div_nonneg (sub_nonneg.mpr h1.le) hd.le
    have f1 : (x - c.x[i]) / (c.x[i+1] - c.x[i]) ≤ 1 := by rw [div_le_one hd]; linarith
    refine ⟨rowInterp ((x - c.x[i]) / (c.x[i+1] - c.x[i])) (c.y[i]'(by omega)) (c.y[i+1]'(by omega)),
      rowInterp ((x - c.x[i]) / (c.x[i+1] - c.x[i])) (c.z[i]'(by omega)) (c.z[i+1]'(by omega)), ?_,
      rowInterp_length _ _ _ w (ry _ _).1 (ry _ _).1, rowInterp_length _ _ _ w (rz _ _).1 (rz _ _).1,
      rowInterp_ascending _ _ _ f0 f1 (ry _ _).2 (ry _ _).2,
      rowInterp_bounds _ _ _ f0 f1 lo hi (rz _ _).2 (rz _ _).2⟩
    unfold CharMap.evaluateX
    simp only [hi']
    rw [if_neg (by omega), if_neg (by omega)]
    have ei : (((i + 1 : ℕ) : Int) - 1) = (i : Int) := by omega
    rw [ei, pyGet_nat _ _ (by omega), pyGet_nat _ _ hil, pyGet_nat _ _ (by omega),
      pyGet_nat _ _ (by omega), pyGet_nat _ _ (by omega), pyGet_nat _ _ (by omega)]
    simp only [bind, Except.bind, if_neg hd.ne']
  obtain ⟨ya, za, he, hya, hza, hs, hbz⟩ := main
  obtain ⟨r, hr, hr'⟩ := C109_repeated_points (⟨ya, za, false⟩ : CharLine K)
    ⟨by simp [hya, hza], hs⟩ (by simpa [hya] using hw) rfl lo hi hbz y
  refine ⟨r, ?_, hr'⟩
  unfold CharMap.evaluate
  rw [he]
  simp only [bind, Except.bind]
  rw [evaluateY_eq _ _ _ (by omega) (by omega)]; exact hr

/-! ### facts about the numbers of the files -/

/-- the line a parameter of a component gets, rational numbers -/
def rawLine (component key : String) : CharLine ℚ :=
  match preprocessLine lineFileQ component key none with
  | .ok (.line l) => l
  | _ => ⟨[], [], true⟩

theorem rawLine_spec : ∀ c ∈ charClasses, ∀ k ∈ c.lines,
    preprocessLine lineFileQ c.component k none = .ok (.line (rawLine c.component k)) ∧
    (rawLine c.component k).y.length = (rawLine c.component k).x.length ∧
    (rawLine c.component k).x.Pairwise (· < ·) ∧ 2 ≤ (rawLine c.component k).x.length ∧
    (rawLine c.component k).extrapolate = false ∧ (∀ t ∈ (rawLine c.component k).y, 1 / 100 ≤ t ∧ t ≤ 303 / 100) := by
  decide +kernel

theorem rawLine_one : ∀ c ∈ charClasses, c.component ≠ "combustion engine" → ∀ k ∈ c.lines,
    (rawLine c.component k).evaluate 1 = .ok 1 := by
  decide +kernel

theorem rawLine_eta : ∀ c ∈ charClasses, "eta_s_char" ∈ c.lines →
    ∀ t ∈ (rawLine c.component "eta_s_char").y, 1 / 4 ≤ t ∧ t ≤ 1 := by
  decide +kernel

theorem rawLine_kA : ∀ c ∈ charClasses, ∀ k ∈ c.lines, k ∈ ["kA_char", "kA_char1", "kA_char2"] →
    (∀ t ∈ (rawLine c.component k).y, 1 / 100 ≤ t ∧ t ≤ 1645 / 1000) ∧
    (rawLine c.component k).y.Pairwise (· ≤ ·) := by
  decide +kernel

theorem fileLines_spec : ∀ e ∈ lineFileQ, ∀ p ∈ e.2, ∀ n ∈ p.2, n.2.2.length = n.2.1.length ∧
    n.2.1.Pairwise (· < ·) ∧ 2 ≤ n.2.1.length ∧ (∀ t ∈ n.2.2, (0 : ℚ) ≤ t ∧ t ≤ 303 / 100) ∧
    (e.1 ≠ "combustion engine" → (⟨n.2.1, n.2.2, false⟩ : CharLine ℚ).evaluate 1 = .ok 1) := by
  decide +kernel

theorem cast_mem_bounds {l : List ℚ} {lo hi : ℚ} (h : ∀ t ∈ l, lo ≤ t ∧ t ≤ hi) :
    ∀ t ∈ l.map (fun q : ℚ => (q : K)), (lo : K) ≤ t ∧ t ≤ (hi : K) := by
  intro t ht
  obtain ⟨q, hq, rfl⟩ := List.mem_map.mp ht
  exact ⟨by exact_mod_cast (h q hq).1, by exact_mod_cast (h q hq).2⟩

theorem castLine_valid {l : CharLine ℚ} (h1 : l.y.length = l.x.length) (h2 : l.x.Pairwise (· < ·)) :
    (castLine K l).Valid := by
  refine ⟨by simp [castLine, h1], ?_⟩
  simp only [castLine, List.pairwise_map]
  exact h2.imp (fun h => by exact_mod_cast h)

theorem castLine_one {l : CharLine ℚ} (h : l.evaluate 1 = .ok 1) :
    (castLine K l).evaluate 1 = .ok 1 := by
  have := evaluate_cast (K := K) l 1
  rw [h, Rat.cast_one] at this
  simpa [Except.map] using this

/-! ### the property -/

/-- The characteristic line `l` is what parameter `key` of a component of class `cls` uses if the
user gives none. -/
def Spec.DefaultLine (cls key : String) (l : CharLine K) : Prop :=
  ∃ c ∈ charClasses, c.cls = cls ∧ key ∈ c.lines ∧
    preprocessLine (lineFile K) c.component key none = .ok (.line l)

/-- The same for maps. -/
def Spec.DefaultMap (cls key : String) (m : CharMap K) : Prop :=
  ∃ c ∈ charClasses, c.cls = cls ∧ key ∈ c.maps ∧
    preprocessMap (mapFile K) c.component key none = .ok (.map m)

theorem defaultLine_raw {cls key : String} {l : CharLine K} (h : Spec.DefaultLine cls key l) :
    ∃ c ∈ charClasses, c.cls = cls ∧ key ∈ c.lines ∧ l = castLine K (rawLine c.component key) := by
  obtain ⟨c, hc, hcls, hk, hl⟩ := h
  have hr := rawLine_spec c hc key hk
  rw [preprocessLine_cast c.component key _ hr.1] at hl
  cases hl
  exact ⟨c, hc, hcls, hk, rfl⟩

/-- C109: a characteristic the user has given is never replaced. -/
theorem C109_given (fl : LineFile K) (fm : MapFile K) (component key : String) (g : CharFn K) :
    preprocessLine fl component key (some g) = .ok g ∧
    preprocessMap fm component key (some g) = .ok g := ⟨rfl, rfl⟩

/-- C109: every characteristic parameter of every class gets a well-formed line, and this line has
a positive value at every load. -/
theorem C109_usable (c : CharClass) (hc : c ∈ charClasses) (key : String) (hk : key ∈ c.lines) :
    ∃ l : CharLine K, Spec.DefaultLine c.cls key l ∧
      preprocessLine (lineFile K) c.component key none = .ok (.line l) ∧ l.Valid ∧
      2 ≤ l.x.length ∧ l.extrapolate = false ∧
      ∀ v, ∃ r, l.evaluate v = .ok r ∧ 1 / 100 ≤ r ∧ r ≤ 303 / 100 := by
  obtain ⟨h0, h1, h2, h3, h4, h5⟩ := rawLine_spec c hc key hk
  have hp := preprocessLine_cast (K := K) c.component key _ h0
  have hv := castLine_valid (K := K) h1 h2
  refine ⟨castLine K (rawLine c.component key), ⟨c, hc, rfl, hk, hp⟩, hp, hv, by simpa [castLine] using h3, h4, ?_⟩
  intro v
  have := C05_bounded _ hv (by simp only [castLine, List.length_map]; omega) h4 _ _
    (cast_mem_bounds h5) v
  simpa using this

/-- C109: apart from those of the combustion engine, every default characteristic is 1 at the
design load. -/
theorem C109_design_point (cls key : String) (l : CharLine K) (h : Spec.DefaultLine cls key l)
    (hcls : cls ≠ "CombustionEngine") : l.evaluate 1 = .ok 1 := by
  obtain ⟨c, hc, rfl, hk, rfl⟩ := defaultLine_raw h
  have : ∀ c ∈ charClasses, c.cls ≠ "CombustionEngine" → c.component ≠ "combustion engine" := by
    decide +kernel
  exact castLine_one (rawLine_one c hc (this c hc hcls) key hk)

/-- C109: with the default characteristic the isentropic efficiency is at no load larger than the
design value, and at no load smaller than a quarter of it. -/
theorem C109_efficiency (cls : String) (l : CharLine K) (h : Spec.DefaultLine cls "eta_s_char" l)
    (v : K) : ∃ r, l.evaluate v = .ok r ∧ 1 / 4 ≤ r ∧ r ≤ 1 := by
  obtain ⟨c, hc, rfl, hk, rfl⟩ := defaultLine_raw h
  obtain ⟨_, h1, h2, h3, h4, _⟩ := rawLine_spec c hc _ hk
  have := C05_bounded (castLine K (rawLine c.component "eta_s_char")) (castLine_valid h1 h2)
    (by simp only [castLine, List.length_map]; omega) h4 _ _ (cast_mem_bounds (rawLine_eta c hc hk)) v
  simpa using this

/-- C109: the default characteristics of heat transfer coefficients stay positive and bounded and
never decrease with the load. -/
theorem C109_kA (cls key : String) (l : CharLine K) (h : Spec.DefaultLine cls key l)
    (hkey : key = "kA_char" ∨ key = "kA_char1" ∨ key = "kA_char2") :
    (∀ v, ∃ r, l.evaluate v = .ok r ∧ 1 / 100 ≤ r ∧ r ≤ 1645 / 1000) ∧
    ∀ v w r s, v ≤ w → l.evaluate v = .ok r → l.evaluate w = .ok s → r ≤ s := by
  obtain ⟨c, hc, rfl, hk, rfl⟩ := defaultLine_raw h
  obtain ⟨_, h1, h2, h3, h4, _⟩ := rawLine_spec c hc _ hk
  obtain ⟨hb, hm⟩ := rawLine_kA c hc key hk (by simpa using hkey)
  have hv := castLine_valid (K := K) h1 h2
  have hn : 0 < (castLine K (rawLine c.component key)).x.length := by
    simp only [castLine, List.length_map]; omega
  constructor
  · intro v
    have := C05_bounded _ hv hn h4 _ _ (cast_mem_bounds hb) v
    simpa using this
  · intro v w r s hvw hr hs
    refine C05_monotone _ hv hn h4 ?_ v w r s hvw hr hs
    simp only [castLine, List.pairwise_map]
    exact hm.imp (fun h => by exact_mod_cast h)

/-- C109: the default of the absolute characteristics, pressure rise of a pump over volume flow and
pressure drop of a valve over mass flow, is 1 (Pascal) at all loads. -/
theorem C109_absolute (cls key : String) (l : CharLine K) (h : Spec.DefaultLine cls key l)
    (hkey : key = "flow_char" ∨ key = "dp_char") (v : K) : l.evaluate v = .ok 1 := by
  obtain ⟨c, hc, rfl, hk, rfl⟩ := defaultLine_raw h
  have e : ∀ c ∈ charClasses, ∀ k ∈ c.lines, k ∈ ["flow_char", "dp_char"] →
      rawLine c.component k = constantOne := by decide +kernel
  rw [e c hc key hk (by simpa using hkey)]
  obtain ⟨r, hr, h1, h2⟩ := C05_bounded (castLine K (constantOne (K := ℚ)))
    (castLine_valid rfl (by decide +kernel)) (by simp [castLine, constantOne]) rfl 1 1
    (by simp [castLine, constantOne]) v
  rw [hr, le_antisymm h2 h1]

/-- C109, all lines of the file: a name, parameter and component either lead to a well-formed line,
which is defined, not negative and bounded at every load and, apart from those of the combustion engine,
1 at the design load, or to a `KeyError`. -/
theorem C109_file_lines (component parameter name : String) :
    loadDefaultLine (lineFile K) component parameter name = .error .keyError ∨
    ∃ l, loadDefaultLine (lineFile K) component parameter name = .ok l ∧ l.Valid ∧
      2 ≤ l.x.length ∧ (∀ v, ∃ r, l.evaluate v = .ok r ∧ 0 ≤ r ∧ r ≤ 303 / 100) ∧
      (component ≠ "combustion engine" → l.evaluate 1 = .ok 1) := by
  rw [loadDefaultLine_cast]
  cases e : loadDefaultLine lineFileQ component parameter name with
  | error e' =>
    left
    unfold loadDefaultLine lookup3 Dict.getItem at e
    cases e1 : lineFileQ.get? component with
    | none => rw [e1] at e; cases e; rfl
    | some p =>
      rw [e1] at e
      simp only at e
      cases e2 : p.get? parameter with
      | none => rw [e2] at e; cases e; rfl
      | some n =>
        rw [e2] at e
        simp only at e
        cases e3 : n.get? name with
        | none => rw [e3] at e; cases e; rfl
        | some v =>
          rw [e3] at e
          have := fileLines_spec _ (Dict.mem_of_get? e1) _ (Dict.mem_of_get? e2) _ (Dict.mem_of_get? e3)
          simp only [CharLine.init, this.1, ne_eq, not_true, if_false, reduceCtorEq] at e
  | ok l =>
    right
    refine ⟨castLine K l, rfl, ?_⟩
    unfold loadDefaultLine lookup3 Dict.getItem at e
    cases e1 : lineFileQ.get? component with
    | none => rw [e1] at e; cases e
    | some p =>
      rw [e1] at e
      simp only at e
      cases e2 : p.get? parameter with
      | none => rw [e2] at e; cases e
      | some n =>
        rw [e2] at e
        simp only at e
        cases e3 : n.get? name with
        | none => rw [e3] at e; cases e
        | some v =>
          rw [e3] at e
          obtain ⟨h1, h2, h3, h4, h5⟩ :=
            fileLines_spec _ (Dict.mem_of_get? e1) _ (Dict.mem_of_get? e2) _ (Dict.mem_of_get? e3)
          simp only [CharLine.init, h1, ne_eq, not_true, if_false, Except.ok.injEq] at e
          subst e
          have hv := castLine_valid (K := K) (l := ⟨v.1, v.2, false⟩) h1 h2
          refine ⟨hv, by simpa [castLine] using h3, fun w => ?_, fun hc => castLine_one (h5 hc)⟩
          have h3' : 2 ≤ v.1.length := h3
          have := C05_bounded _ hv (by simp only [castLine, List.length_map]; omega) rfl _ _
            (cast_mem_bounds h4) w
          simpa using this

/-- C109 with C41: with the default characteristic and the efficiency reported by the design
calculation the off-design equations of turbines, steam turbines, compressors and pumps hold at the
design state. -/
theorem C109_design_state (cls : String) (l : CharLine ℝ) (h : Spec.DefaultLine cls "eta_s_char" l)
    (p : CharParam) (i o : HStream) (his eta : ℝ) (hp : p ≠ .other) (him : i.m ≠ 0)
    (hom : o.m ≠ 0) (hv : i.vol ≠ 0) (hip : i.p ≠ 0) (hop : o.p ≠ 0) :
    (pumpEtaReported i o his = .ok eta →
      pumpEtaCharRes l.evaluate p i o (designOf i) (designOf o) his eta = .ok 0) ∧
    (turbineEtaReported i o his = .ok eta →
      turbineEtaCharRes l.evaluate p i o (designOf i) (designOf o) his eta = .ok 0) := by
  have hcls : cls ≠ "CombustionEngine" := by
    obtain ⟨c, hc, rfl, hk, _⟩ := h
    have : ∀ c ∈ charClasses, "eta_s_char" ∈ c.lines → c.cls ≠ "CombustionEngine" := by decide +kernel
    exact this c hc hk
  have h1 := C109_design_point cls _ l h hcls
  have hl := C41_load_one p i o hp him hom hv hip hop
  have := C41_eta_s_char l.evaluate p i o (designOf i) (designOf o) his eta 1 1 eta hl one_ne_zero h1
  exact ⟨fun h => (this.1 h).2 (by ring), fun h => (this.2 h).2 (by ring)⟩

/-- C109 with C41: with the default characteristics and the reported kA of the design calculation
the off-design equation of heat exchangers holds at the design state. -/
theorem C109_design_state_kA (cls : String) (l1 l2 : CharLine ℝ)
    (h1 : Spec.DefaultLine cls "kA_char1" l1) (h2 : Spec.DefaultLine cls "kA_char2" l2)
    (p1 p2 : CharParam) (s : HexState) (r : HexResults) (kA : ℝ)
    (hp1 : p1 ≠ .other) (hp2 : p2 ≠ .other)
    (hm1 : s.i1.m ≠ 0) (hm2 : s.i2.m ≠ 0) (hmo1 : s.o1.m ≠ 0) (hmo2 : s.o2.m ≠ 0)
    (hvol1 : s.i1.vol ≠ 0) (hvol2 : s.i2.vol ≠ 0) (hpi1 : s.i1.p ≠ 0) (hpi2 : s.i2.p ≠ 0)
    (hpo1 : s.o1.p ≠ 0) (hpo2 : s.o2.p ≠ 0)
    (hr : hexCalc false s = .ok r) (hu : 0 < s.i1.T - s.o2.T) (hl : 0 < s.o1.T - s.i2.T)
    (hkA : r.kA = some kA) :
    hexKACharRes l1.evaluate l2.evaluate
      (charExprRel p1 s.i1 s.o1 (designOf s.i1) (designOf s.o1))
      (charExprRel p2 s.i2 s.o2 (designOf s.i2) (designOf s.o2)) s kA = .ok 0 := by
  have hcls : cls ≠ "CombustionEngine" := by
    obtain ⟨c, hc, rfl, hk, _⟩ := h1
    have : ∀ c ∈ charClasses, "kA_char1" ∈ c.lines → c.cls ≠ "CombustionEngine" := by decide +kernel
    exact this c hc hk
  rw [C41_load_one p1 _ _ hp1 hm1 hmo1 hvol1 hpi1 hpo1,
    C41_load_one p2 _ _ hp2 hm2 hmo2 hvol2 hpi2 hpo2,
    C41_kA_char _ _ 1 1 1 1 kA s r (C109_design_point cls _ l1 h1 hcls)
      (C109_design_point cls _ l2 h2 hcls) one_pos one_pos hr hu hl, hkA]
  norm_num

/-- C109 with C41, off the design point: with the default characteristics the kA of a heat
exchanger is, at every pair of loads, between 1 % and 165 % of the design value. -/
theorem C109_kA_range (cls : String) (l1 l2 : CharLine ℝ)
    (h1 : Spec.DefaultLine cls "kA_char1" l1) (h2 : Spec.DefaultLine cls "kA_char2" l2)
    (x1 x2 kAD : ℝ) (hkAD : 0 ≤ kAD) (s : HexState) (r : HexResults)
    (hr : hexCalc false s = .ok r) (hu : 0 < s.i1.T - s.o2.T) (hl : 0 < s.o1.T - s.i2.T)
    (heq : hexKACharRes l1.evaluate l2.evaluate (.ok x1) (.ok x2) s kAD = .ok 0) :
    ∃ kA, r.kA = some kA ∧ kAD / 100 ≤ kA ∧ kA ≤ 1645 / 1000 * kAD := by
  obtain ⟨c1, e1, a1, b1⟩ := (C109_kA cls _ l1 h1 (by simp)).1 x1
  obtain ⟨c2, e2, a2, b2⟩ := (C109_kA cls _ l2 h2 (by simp)).1 x2
  have p1 : 0 < c1 := by linarith
  have p2 : 0 < c2 := by linarith
  refine ⟨_, (C41_kA_char _ _ x1 x2 c1 c2 kAD s r e1 e2 p1 p2 hr hu hl).mp heq, ?_⟩
  have hm : (2 : ℝ) / (1 / c1 + 1 / c2) = 2 * c1 * c2 / (c1 + c2) := by field_simp; ring
  have hs : 0 < c1 + c2 := by linarith
  have lo : 1 / 100 ≤ (2 : ℝ) / (1 / c1 + 1 / c2) := by
    rw [hm, le_div_iff₀ hs]; nlinarith
  have hi : (2 : ℝ) / (1 / c1 + 1 / c2) ≤ 1645 / 1000 := by
    rw [hm, div_le_iff₀ hs]; nlinarith
  constructor
  · nlinarith [mul_le_mul_of_nonneg_left lo hkAD]
  · nlinarith [mul_le_mul_of_nonneg_left hi hkAD]

/-! ### maps -/

/-- the map a parameter of a component gets, rational numbers -/
def rawMap (component key : String) : CharMap ℚ :=
  match preprocessMap mapFileQ component key none with
  | .ok (.map m) => m
  | _ => ⟨[], [], []⟩

theorem rawMap_spec : ∀ c ∈ charClasses, ∀ k ∈ c.maps,
    loadDefaultMap mapFileQ c.component k "DEFAULT" = .ok (rawMap c.component k) ∧
    (rawMap c.component k).y.length = (rawMap c.component k).x.length ∧
    (rawMap c.component k).z.length = (rawMap c.component k).x.length ∧
    (rawMap c.component k).x.Pairwise (· < ·) ∧ 0 < (rawMap c.component k).x.length ∧
    (∀ r ∈ (rawMap c.component k).y, r.length = 10 ∧ r.Pairwise (· ≤ ·)) ∧
    (∀ r ∈ (rawMap c.component k).z, r.length = 10) ∧
    (rawMap c.component k).evaluate 1 1 = .ok 1 := by
  decide +kernel

theorem rawMap_range : (∀ r ∈ (rawMap "compressor" "char_map_pr").z, ∀ t ∈ r,
      (276 / 1000 : ℚ) ≤ t ∧ t ≤ 1441 / 1000) ∧
    ∀ r ∈ (rawMap "compressor" "char_map_eta_s").z, ∀ t ∈ r, (868 / 1000 : ℚ) ≤ t ∧ t ≤ 1015 / 1000 := by
  decide +kernel

theorem defaultMap_raw {cls key : String} {m : CharMap K} (h : Spec.DefaultMap cls key m) :
    cls = "Compressor" ∧ (key = "char_map_pr" ∨ key = "char_map_eta_s") ∧
    m = castMap K (rawMap "compressor" key) ∧ m.Ascending 10 ∧ 0 < m.x.length ∧
    m.evaluate 1 1 = .ok 1 := by
  obtain ⟨c, hc, hcls, hk, hm⟩ := h
  have hcc : ∀ c ∈ charClasses, ∀ k ∈ c.maps, c.cls = "Compressor" ∧ c.component = "compressor" ∧
      (k = "char_map_pr" ∨ k = "char_map_eta_s") := by decide +kernel
  obtain ⟨g1, g2, g3⟩ := hcc c hc key hk
  obtain ⟨h0, h1, h2, h3, h4, h5, h6, h7⟩ := rawMap_spec c hc key hk
  unfold preprocessMap at hm
  simp only [loadDefaultMap_cast (K := K) _ _ _ _ h0] at hm
  rw [g2] at *
  cases hm
  refine ⟨by rw [← hcls, g1], g3, rfl, ⟨by simpa [castMap] using h1, by simpa [castMap] using h2, ?_, ?_, ?_, ?_⟩,
    by simpa [castMap] using h4, ?_⟩
  · simp only [castMap, List.pairwise_map]
    exact h3.imp (fun h => by exact_mod_cast h)
  · simp only [castMap, List.mem_map]
    rintro r ⟨q, hq, rfl⟩
    simpa using (h5 q hq).1
  · simp only [castMap, List.mem_map]
    rintro r ⟨q, hq, rfl⟩
    simpa using h6 q hq
  · simp only [castMap, List.mem_map]
    rintro r ⟨q, hq, rfl⟩
    rw [List.pairwise_map]
    exact (h5 q hq).2.imp (fun h => by exact_mod_cast h)
  · have := map_evaluate_cast (K := K) (rawMap "compressor" key) 1 1
    rw [h7, Rat.cast_one] at this
    simpa [Except.map] using this

/-- C109: the default maps of compressors exist, have a value for every pair of arguments and are 1
at the design point; the pressure ratio stays between 27.6 % and 144.1 %, the efficiency between 86.8 %
and 101.5 % of the design value. -/
theorem C109_maps :
    (∃ m : CharMap K, Spec.DefaultMap "Compressor" "char_map_pr" m) ∧
    (∃ m : CharMap K, Spec.DefaultMap "Compressor" "char_map_eta_s" m) ∧
    ∀ (cls key : String) (m : CharMap K), Spec.DefaultMap cls key m →
      m.evaluate 1 1 = .ok 1 ∧
      ∀ x y, ∃ r, m.evaluate x y = .ok r ∧
        (key = "char_map_pr" → 276 / 1000 ≤ r ∧ r ≤ 1441 / 1000) ∧
        (key = "char_map_eta_s" → 868 / 1000 ≤ r ∧ r ≤ 1015 / 1000) := by
  have ex : ∀ c ∈ charClasses, ∀ k ∈ c.maps, ∃ m : CharMap K, Spec.DefaultMap c.cls k m := by
    intro c hc k hk
    have h0 := (rawMap_spec c hc k hk).1
    refine ⟨castMap K (rawMap c.component k), c, hc, rfl, hk, ?_⟩
    unfold preprocessMap
    simp only [loadDefaultMap_cast (K := K) _ _ _ _ h0]
  have hb : ∀ (m : CharMap ℚ) (lo hi : ℚ), (∀ r ∈ m.z, ∀ t ∈ r, lo ≤ t ∧ t ≤ hi) →
      ∀ r ∈ (castMap K m).z, ∀ t ∈ r, (lo : K) ≤ t ∧ t ≤ (hi : K) := by
    intro m lo hi h r hr
    simp only [castMap, List.mem_map] at hr
    obtain ⟨q, hq, rfl⟩ := hr
    exact cast_mem_bounds (h q hq)
  refine ⟨ex ⟨"Compressor", "Turbomachine", "compressor", ["eta_s_char"], ["char_map_eta_s", "char_map_pr"]⟩
    (by decide +kernel) "char_map_pr" (by decide +kernel),
    ex ⟨"Compressor", "Turbomachine", "compressor", ["eta_s_char"], ["char_map_eta_s", "char_map_pr"]⟩
    (by decide +kernel) "char_map_eta_s" (by decide +kernel), ?_⟩
  intro cls key m hm
  obtain ⟨_, hk, hmr, ha, hn, h1⟩ := defaultMap_raw hm
  refine ⟨h1, fun x y => ?_⟩
  rcases hk with rfl | rfl
  · obtain ⟨r, hr, a, b⟩ := C109_repeated_map_points m 10 ha hn (by norm_num) _ _
      (by rw [hmr]; exact hb _ _ _ rawMap_range.1) x y
    refine ⟨r, hr, fun _ => ?_, fun h => absurd h (by decide)⟩
    push_cast at a b
    exact ⟨a, b⟩
  · obtain ⟨r, hr, a, b⟩ := C109_repeated_map_points m 10 ha hn (by norm_num) _ _
      (by rw [hmr]; exact hb _ _ _ rawMap_range.2) x y
    refine ⟨r, hr, fun h => absurd h (by decide), fun _ => ?_⟩
    push_cast at a b
    exact ⟨a, b⟩

/-- C109: the default map of the efficiency leads to efficiencies above the design value, other than
the default line of the efficiency (`C109_efficiency`). -/
theorem C109_map_efficiency_false (m : CharMap K) (h : Spec.DefaultMap "Compressor" "char_map_eta_s" m) :
    ∃ x y r, m.evaluate x y = .ok r ∧ 1 < r := by
  obtain ⟨_, _, rfl, _⟩ := defaultMap_raw h
  refine ⟨((946 / 1000 : ℚ) : K), ((878 / 1000 : ℚ) : K), ((1015 / 1000 : ℚ) : K), ?_, by norm_num⟩
  rw [map_evaluate_cast, show (rawMap "compressor" "char_map_eta_s").evaluate (946 / 1000) (878 / 1000) =
    .ok (1015 / 1000) by decide +kernel]
  rfl

/-- C109: a class which is derived from a class of the package does not use its default
characteristic: whatever the load, the efficiency of a steam turbine and the heat transfer
coefficients of a moving boundary heat exchanger are those of the design, while those of turbine and
heat exchanger depend on the load. -/
theorem C109_inherited_false :
    (∀ (key : String) (l : CharLine K), Spec.DefaultLine "SteamTurbine" key l →
      ∀ v, l.evaluate v = .ok 1) ∧
    (∀ (key : String) (l : CharLine K), Spec.DefaultLine "MovingBoundaryHeatExchanger" key l →
      ∀ v, l.evaluate v = .ok 1) ∧
    (∀ l : CharLine K, Spec.DefaultLine "Turbine" "eta_s_char" l → l.evaluate 0 = .ok (95 / 100)) ∧
    (∀ (key : String) (l : CharLine K), Spec.DefaultLine "HeatExchanger" key l →
      l.evaluate 0 = .ok (1 / 100)) := by
  have e : ∀ c ∈ charClasses, c.cls = "SteamTurbine" ∨ c.cls = "MovingBoundaryHeatExchanger" →
      ∀ k ∈ c.lines, rawLine c.component k = constantOne := by decide +kernel
  have hone : ∀ v : K, (castLine K (constantOne (K := ℚ))).evaluate v = .ok 1 := by
    intro v
    obtain ⟨r, hr, h1, h2⟩ := C05_bounded (castLine K (constantOne (K := ℚ)))
      (castLine_valid rfl (by decide +kernel)) (by simp [castLine, constantOne]) rfl 1 1
      (by simp [castLine, constantOne]) v
    rw [hr, le_antisymm h2 h1]
  refine ⟨?_, ?_, ?_, ?_⟩
  · intro key l h v
    obtain ⟨c, hc, hcls, hk, rfl⟩ := defaultLine_raw h
    rw [e c hc (Or.inl hcls) key hk, hone]
  · intro key l h v
    obtain ⟨c, hc, hcls, hk, rfl⟩ := defaultLine_raw h
    rw [e c hc (Or.inr hcls) key hk, hone]
  · intro l h
    obtain ⟨c, hc, hcls, hk, rfl⟩ := defaultLine_raw h
    have f : ∀ c ∈ charClasses, c.cls = "Turbine" → (rawLine c.component "eta_s_char").evaluate 0 =
        .ok (95 / 100) := by decide +kernel
    have := evaluate_cast (K := K) (rawLine c.component "eta_s_char") 0
    rw [f c hc hcls, Rat.cast_zero] at this
    rw [this]
    simp [Except.map]
  · intro key l h
    obtain ⟨c, hc, hcls, hk, rfl⟩ := defaultLine_raw h
    have f : ∀ c ∈ charClasses, c.cls = "HeatExchanger" → ∀ k ∈ c.lines,
        (rawLine c.component k).evaluate 0 = .ok (1 / 100) := by decide +kernel
    have := evaluate_cast (K := K) (rawLine c.component key) 0
    rw [f c hc hcls key hk, Rat.cast_zero] at this
    rw [this]
    simp [Except.map]

/-- C109: for a class of the user with a name of its own there is no default map but a line, with
which the equations of maps cannot be evaluated. -/
theorem C109_map_fallback_false (component key : String) (h : component ≠ "compressor") :
    ∃ g : CharFn K, preprocessMap (mapFile K) component key none = .ok g ∧
      ∀ x y, g.evaluate2 x y = .error .attributeError := by
  refine ⟨.line constantOne, ?_, fun _ _ => rfl⟩
  unfold preprocessMap loadDefaultMap lookup3 Dict.getItem mapFile mapFileQ
  simp [Dict.get?, h]

/-- C109: a map given for a parameter which is a line, or a line given for one which is a map, is
accepted (components/component.py 209-213) and kept; the equations cannot be evaluated with it. -/
theorem C109_wrong_kind_false (fl : LineFile K) (fm : MapFile K) (component key : String)
    (m : CharMap K) (l : CharLine K) :
    (∃ g, preprocessLine fl component key (some (.map m)) = .ok g ∧
      ∀ v, g.evaluate1 v = .error .typeError) ∧
    (∃ g, preprocessMap fm component key (some (.line l)) = .ok g ∧
      ∀ x y, g.evaluate2 x y = .error .attributeError) :=
  ⟨⟨_, rfl, fun _ => rfl⟩, ⟨_, rfl, fun _ _ => rfl⟩⟩

/-- C109, custom characteristics: a line stored in the user's file passes through the stored points;
without this file there is an error. -/
theorem C109_custom (d : Dict String (List K × List K)) (name : String) (x y : List K)
    (h : d.get? name = some (x, y)) (hl : y.length = x.length) (hs : x.Pairwise (· < ·))
    (hn : 2 ≤ x.length) :
    loadCustomLine none name = (.error .nameError : PyRes (CharLine K)) ∧
    ∃ l, loadCustomLine (some d) name = .ok l ∧
      ∀ i (hi : i < x.length), l.evaluate x[i] = .ok (y[i]'(by omega)) := by
  refine ⟨rfl, ⟨x, y, false⟩, ?_, fun i hi => C04_support_points ⟨x, y, false⟩ ⟨hl, hs⟩ hn i hi⟩
  simp [loadCustomLine, Dict.getItem, h, CharLine.init, hl]

/-- C109 with C63: with the default maps, without turned guide vanes, the equations of both maps hold
at the design point. -/
theorem C109_design_state_maps (m1 m2 : CharMap K) (h1 : Spec.DefaultMap "Compressor" "char_map_pr" m1)
    (h2 : Spec.DefaultMap "Compressor" "char_map_eta_s" m2) (q : CompressorPoint K) (hx : q.x = 1)
    (hy : q.y = 1) (hi : q.igva = 0) :
    (q.pOut / q.pIn = q.prDesign → mapPrFunc m1 q = (m1, .ok 0)) ∧
    (q.dhIs / q.dh = q.etaDesign → mapEtaFunc m2 q = (m2, .ok 0)) := by
  have ev : ∀ m : CharMap K, m.evaluate 1 1 = .ok 1 → m.scaledEval 1 1 1 1 = (m, .ok 1) := by
    intro m hm
    have hv := scaledEval_value m (one_pos (α := K)) 1 1 1
    rw [div_one, hm] at hv
    have hs : (m.scaledEval 1 1 1 1).1 = m := by
      unfold CharMap.scaledEval
      cases m.evaluateX 1 with
      | error e => rfl
      | ok r => exact scaled_one m 1
    refine Prod.ext hs ?_
    rw [hv]
    simp [Except.map]
  constructor
  · intro h
    unfold mapPrFunc
    rw [hx, hy, hi, zero_div, sub_zero, ev m1 (defaultMap_raw h1).2.2.2.2.2, h]
    simp
  · intro h
    unfold mapEtaFunc
    rw [hx, hy, hi, zero_div, sub_zero, show (1 : K) - 0 ^ 2 / 10000 = 1 by norm_num,
      ev m2 (defaultMap_raw h2).2.2.2.2.2, h]
    simp

/-! ### combustion engines -/

theorem bounded_of_eval (c : CharLine K) (v r lo hi : K) (he : c.evaluate v = .ok r) (hv : c.Valid)
    (hn : 0 < c.x.length) (hex : c.extrapolate = false) (hb : ∀ t ∈ c.y, lo ≤ t ∧ t ≤ hi) :
    lo ≤ r ∧ r ≤ hi := by
  obtain ⟨r', hr', g⟩ := C05_bounded c hv hn hex lo hi hb v
  rw [hr'] at he
  cases he
  exact g

/-- sums of lines with the same x values -/
theorem evaluate_comb (x y1 y2 : List K) (a b : K) (h1 : y1.length = x.length) (h2 : y2.length = x.length)
    (hs : x.Pairwise (· < ·)) (hn : 0 < x.length) (v r1 r2 : K)
    (e1 : (⟨x, y1, false⟩ : CharLine K).evaluate v = .ok r1)
    (e2 : (⟨x, y2, false⟩ : CharLine K).evaluate v = .ok r2) :
    (⟨x, List.zipWith (fun s t => a * s + b * t) y1 y2, false⟩ : CharLine K).evaluate v =
      .ok (a * r1 + b * r2) := by
  have v1 : (⟨x, y1, false⟩ : CharLine K).Valid := ⟨h1, hs⟩
  have v2 : (⟨x, y2, false⟩ : CharLine K).Valid := ⟨h2, hs⟩
  have v3 : (⟨x, List.zipWith (fun s t => a * s + b * t) y1 y2, false⟩ : CharLine K).Valid :=
    ⟨by simp [h1, h2], hs⟩
  rcases CharLine.locate (⟨x, x, false⟩ : CharLine K) v hn with hv | hv | ⟨i, hi', g1, g2⟩
  · rw [(C05_constant_outside _ v1 hn rfl v).1 hv] at e1
    rw [(C05_constant_outside _ v2 hn rfl v).1 hv] at e2
    cases e1; cases e2
    rw [(C05_constant_outside _ v3 hn rfl v).1 hv]
    simp
  · rw [(C05_constant_outside _ v1 hn rfl v).2 hv.le] at e1
    rw [(C05_constant_outside _ v2 hn rfl v).2 hv.le] at e2
    cases e1; cases e2
    rw [(C05_constant_outside _ v3 hn rfl v).2 hv.le]
    simp [h1, h2]
  · rw [CharLine.evaluate_inner _ v1 i v hi' g1 g2] at e1
    rw [CharLine.evaluate_inner _ v2 i v hi' g1 g2] at e2
    cases e1; cases e2
    rw [CharLine.evaluate_inner _ v3 i v hi' g1 g2]
    simp only [List.getElem_zipWith, lineThrough, Except.ok.injEq]
    ring

theorem engine_raw :
    rawLine "combustion engine" "tiP_char" =
      ⟨[1 / 2, 5 / 8, 3 / 4, 7 / 8, 1], [303 / 100, 2875 / 1000, 274 / 100, 2625 / 1000, 253 / 100], false⟩ ∧
    rawLine "combustion engine" "Q1_char" =
      ⟨[1 / 2, 5 / 8, 3 / 4, 7 / 8, 1], [699 / 1000, 645 / 1000, 593 / 1000, 544 / 1000, 498 / 1000], false⟩ ∧
    rawLine "combustion engine" "Q2_char" =
      ⟨[1 / 2, 5 / 8, 3 / 4, 7 / 8, 1], [524 / 1000, 484 / 1000, 445 / 1000, 409 / 1000, 374 / 1000], false⟩ ∧
    rawLine "combustion engine" "Qloss_char" =
      ⟨[1 / 2, 5 / 8, 3 / 4, 7 / 8, 1], [147 / 1000, 153 / 1000, 166 / 1000, 187 / 1000, 215 / 1000], false⟩ := by
  decide +kernel

theorem engine_line {key : String} {l : CharLine K} (h : Spec.DefaultLine "CombustionEngine" key l) :
    l = castLine K (rawLine "combustion engine" key) := by
  obtain ⟨c, hc, hcls, hk, rfl⟩ := defaultLine_raw h
  have : ∀ c ∈ charClasses, c.cls = "CombustionEngine" → c.component = "combustion engine" := by
    decide +kernel
  rw [this c hc hcls]

/-- C109 with C81: in an engine which uses the default characteristics, at every load between 1/3.03
and 1/2.53 of the heat of the fuel become power, both cooling loops and the heat loss take up heat, and
at least 17.5 % of the heat of the fuel remain in the flue gas: the shares never add up to more than
what the fuel provides. -/
theorem C109_engine {F K : Type} [DecidableEq F] [Field K] [LinearOrder K] [IsStrictOrderedRing K]
    (lT l1 l2 lL : CharLine K)
    (hT : Spec.DefaultLine "CombustionEngine" "tiP_char" lT)
    (h1 : Spec.DefaultLine "CombustionEngine" "Q1_char" l1)
    (h2 : Spec.DefaultLine "CombustionEngine" "Q2_char" l2)
    (hL : Spec.DefaultLine "CombustionEngine" "Qloss_char" lL)
    (c : EngineChars K) (cT : ∀ v, lT.evaluate v = .ok (c.tiP v)) (c1 : ∀ v, l1.evaluate v = .ok (c.q1 v))
    (c2 : ∀ v, l2.evaluate v = .ok (c.q2 v)) (cL : ∀ v, lL.evaluate v = .ok (c.qloss v))
    (d : CombData F K) (e : EngineVals F K) (hs : Spec.EngineSolved d c e) (hf : 0 < Spec.fuelHeat d e) :
    Spec.fuelHeat d e / (303 / 100) ≤ -e.P ∧ -e.P ≤ Spec.fuelHeat d e / (253 / 100) ∧
    0 < e.loop1.m * (e.loop1.hOut - e.loop1.hIn) ∧ 0 < e.loop2.m * (e.loop2.hOut - e.loop2.hIn) ∧
    0 < -e.Qloss ∧
    (e.inl.map Spec.aboveRef).sum + 175 / 1000 * Spec.fuelHeat d e ≤ Spec.aboveRef e.out := by
  obtain ⟨rT, r1, r2, rL⟩ := engine_raw
  rw [engine_line hT, rT] at cT
  rw [engine_line h1, r1] at c1
  rw [engine_line h2, r2] at c2
  rw [engine_line hL, rL] at cL
  generalize hv : Spec.engineLoad e = v
  simp only [castLine] at cT c1 c2 cL
  have cT := cT v
  have c1 := c1 v
  have c2 := c2 v
  have cL := cL v
  have hsort : (([1 / 2, 5 / 8, 3 / 4, 7 / 8, 1] : List ℚ).map (fun q : ℚ => (q : K))).Pairwise (· < ·) := by
    rw [List.pairwise_map]
    exact (show ([1 / 2, 5 / 8, 3 / 4, 7 / 8, 1] : List ℚ).Pairwise (· < ·) by decide +kernel).imp
      (fun h => by exact_mod_cast h)
  have bd : ∀ (y : List ℚ) (lo hi : ℚ) (r : K), y.length = 5 → (∀ t ∈ y, lo ≤ t ∧ t ≤ hi) →
      (⟨([1 / 2, 5 / 8, 3 / 4, 7 / 8, 1] : List ℚ).map (fun q : ℚ => (q : K)),
        y.map (fun q : ℚ => (q : K)), false⟩ : CharLine K).evaluate v = .ok r → (lo : K) ≤ r ∧ r ≤ (hi : K) := by
    intro y lo hi r hy hb he
    exact bounded_of_eval _ v r _ _ he ⟨by simp [hy], hsort⟩ (by simp) rfl (cast_mem_bounds (K := K) hb)
  have bT := bd _ (253 / 100) (303 / 100) _ rfl (by decide +kernel) cT
  have b1 := bd _ (498 / 1000) (699 / 1000) _ rfl (by decide +kernel) c1
  have b2 := bd _ (374 / 1000) (524 / 1000) _ rfl (by decide +kernel) c2
  have bL := bd _ (147 / 1000) (215 / 1000) _ rfl (by decide +kernel) cL
  -- the rest of the heat
  have s1 := evaluate_comb _ _ _ (825 / 1000) (-1) (by simp) (by simp) hsort (by simp) v _ _ cT c1
  have s2 := evaluate_comb _ _ _ 1 (-1) (by simp) (by simp) hsort (by simp) v _ _ s1 c2
  have s3 := evaluate_comb _ _ _ 1 (-1) (by simp) (by simp) hsort (by simp) v _ _ s2 cL
  have g1 := (bounded_of_eval _ v _ (1 : K) 10 s3 ⟨by simp, hsort⟩ (by simp) rfl (by
    simp only [List.map_cons, List.map_nil, List.zipWith_cons_cons, List.zipWith_nil_right, List.mem_cons,
      List.not_mem_nil, or_false]
    rintro t (rfl | rfl | rfl | rfl | rfl) <;> norm_num)).1
  push_cast at bT b1 b2 bL
  have hTpos : 0 < c.tiP v := by
    have : (0 : K) < 253 / 100 := by norm_num
    linarith [bT.1]
  obtain ⟨g2, g3, g4, g5, g6⟩ := C81_shares d c e hs (by rw [hv]; exact hTpos.ne')
  rw [hv] at g2 g3 g4 g5 g6
  have hP : 0 < -e.P := by rw [g2]; exact div_pos hf hTpos
  refine ⟨?_, ?_, ?_, ?_, ?_, ?_⟩
  · rw [g2]; exact div_le_div_of_nonneg_left hf.le hTpos bT.2
  · rw [g2]; exact div_le_div_of_nonneg_left hf.le (by norm_num) bT.1
  · rw [g3]; refine mul_pos hP ?_; linarith [b1.1, show (0 : K) < 498 / 1000 by norm_num]
  · rw [g4]; refine mul_pos hP ?_; linarith [b2.1, show (0 : K) < 374 / 1000 by norm_num]
  · rw [g5]; refine mul_pos hP ?_; linarith [bL.1, show (0 : K) < 147 / 1000 by norm_num]
  · rw [g6, mul_comm (175 / 1000 : K)]
    have : (175 / 1000 : K) ≤ 1 - (1 + c.q1 v + c.q2 v + c.qloss v) / c.tiP v := by
      rw [le_sub_iff_add_le, ← le_sub_iff_add_le', div_le_iff₀ hTpos]
      linarith
    linarith [mul_le_mul_of_nonneg_left this hf.le]

/-! ### concrete cases -/

/-- the default line of the turbine, between two of its points: at 65 % load 99.45 % of the efficiency -/
example : ∃ l : CharLine ℚ, Spec.DefaultLine "Turbine" "eta_s_char" l ∧
    l.evaluate (65 / 100) = .ok (9945 / 10000) := by
  obtain ⟨l, h, hp, _⟩ := C109_usable (K := ℚ)
    ⟨"Turbine", "Turbomachine", "turbine", ["eta_s_char"], []⟩ (by decide +kernel) "eta_s_char" (by simp)
  refine ⟨l, h, ?_⟩
  rw [preprocessLine_cast "turbine" "eta_s_char" (rawLine "turbine" "eta_s_char") (by decide +kernel)] at hp
  cases hp
  decide +kernel

/-- every class has the default lines the theorems speak of -/
example : (∃ l : CharLine ℝ, Spec.DefaultLine "Condenser" "kA_char1" l) ∧
    (∃ l : CharLine ℝ, Spec.DefaultLine "Condenser" "kA_char2" l) ∧
    (∃ l : CharLine ℝ, Spec.DefaultLine "SteamTurbine" "eta_s_char" l) ∧
    (∃ l : CharLine ℝ, Spec.DefaultLine "Valve" "dp_char" l) ∧
    (∃ l : CharLine ℝ, Spec.DefaultLine "CombustionEngine" "tiP_char" l) := by
  have h : ∀ cls key, (∃ c ∈ charClasses, c.cls = cls ∧ key ∈ c.lines) →
      ∃ l : CharLine ℝ, Spec.DefaultLine cls key l := by
    rintro cls key ⟨c, hc, rfl, hk⟩
    obtain ⟨l, hl, _⟩ := C109_usable (K := ℝ) c hc key hk
    exact ⟨l, hl⟩
  exact ⟨h _ _ (by decide +kernel), h _ _ (by decide +kernel), h _ _ (by decide +kernel),
    h _ _ (by decide +kernel), h _ _ (by decide +kernel)⟩

/-- a map with a repeated y value in a row is not `Valid`, but its value at and around it is defined -/
example : (⟨[1, 2], [[0, 1, 1, 2], [0, 1, 2, 3]], [[5, 6, 7, 8], [1, 2, 3, 4]]⟩ : CharMap ℚ).Ascending 4 ∧
    (⟨[1, 2], [[0, 1, 1, 2], [0, 1, 2, 3]], [[5, 6, 7, 8], [1, 2, 3, 4]]⟩ : CharMap ℚ).evaluate 1 1 = .ok 6 ∧
    (⟨[1, 2], [[0, 1, 1, 2], [0, 1, 2, 3]], [[5, 6, 7, 8], [1, 2, 3, 4]]⟩ : CharMap ℚ).evaluate 1 (3 / 2) =
      .ok (15 / 2) := by
  refine ⟨⟨rfl, rfl, by decide +kernel, by decide +kernel, by decide +kernel, by decide +kernel⟩,
    by decide +kernel, by decide +kernel⟩

/-- an engine which runs at its design load: 253 units of heat from the fuel, power 100, heat of the
loops 49.8 and 37.4, heat loss 21.5; the flue gas keeps 44.3 -/
def defaultEngine : EngineVals String ℚ where
  inl := [⟨506 / 100, fun f => if f = "CH4" then 1 else 0, 0, 0⟩, ⟨20, fun _ => 0, 7, 7⟩]
  out := ⟨443 / 10, fun _ => 0, 5, 4⟩
  loop1 := ⟨1, 3, 2, 10, 598 / 10⟩
  loop2 := ⟨2, 3, 2, 15, 337 / 10⟩
  P := -100
  Qloss := -215 / 10
  Pdesign := some (-100)

/-- `C109_engine` applies to it -/
example : ∃ (lT l1 l2 lL : CharLine ℚ) (c : EngineChars ℚ),
    Spec.DefaultLine "CombustionEngine" "tiP_char" lT ∧ Spec.DefaultLine "CombustionEngine" "Q1_char" l1 ∧
    Spec.DefaultLine "CombustionEngine" "Q2_char" l2 ∧ Spec.DefaultLine "CombustionEngine" "Qloss_char" lL ∧
    (∀ v, lT.evaluate v = .ok (c.tiP v)) ∧ (∀ v, l1.evaluate v = .ok (c.q1 v)) ∧
    (∀ v, l2.evaluate v = .ok (c.q2 v)) ∧ (∀ v, lL.evaluate v = .ok (c.qloss v)) ∧
    Spec.EngineSolved (engData ℚ) c defaultEngine ∧ Spec.fuelHeat (engData ℚ) defaultEngine = 253 := by
  have h : ∀ key ∈ ["tiP_char", "Q1_char", "Q2_char", "Qloss_char"], ∃ (l : CharLine ℚ) (f : ℚ → ℚ),
      Spec.DefaultLine "CombustionEngine" key l ∧ (∀ v, l.evaluate v = .ok (f v)) ∧
      (rawLine "combustion engine" key).evaluate 1 = .ok (f 1) := by
    intro key hk
    obtain ⟨l, hl, _, _, _, _, he⟩ := C109_usable (K := ℚ) ⟨"CombustionEngine", "CombustionChamber",
      "combustion engine", ["tiP_char", "Q1_char", "Q2_char", "Qloss_char"], []⟩ (by decide +kernel) key hk
    choose f hf using he
    refine ⟨l, f, hl, fun v => (hf v).1, ?_⟩
    have := (hf 1).1
    rw [engine_line hl] at this
    have e := evaluate_cast (K := ℚ) (rawLine "combustion engine" key) 1
    rw [Rat.cast_one, this] at e
    rw [e]
    cases (rawLine "combustion engine" key).evaluate 1 <;> simp [Except.map]
  obtain ⟨lT, fT, hT, eT, oT⟩ := h "tiP_char" (by simp)
  obtain ⟨l1, f1, h1, e1, o1⟩ := h "Q1_char" (by simp)
  obtain ⟨l2, f2, h2, e2, o2⟩ := h "Q2_char" (by simp)
  obtain ⟨lL, fL, hL, eL, oL⟩ := h "Qloss_char" (by simp)
  rw [show (rawLine "combustion engine" "tiP_char").evaluate 1 = .ok (253 / 100) by decide +kernel,
    Except.ok.injEq] at oT
  rw [show (rawLine "combustion engine" "Q1_char").evaluate 1 = .ok (498 / 1000) by decide +kernel,
    Except.ok.injEq] at o1
  rw [show (rawLine "combustion engine" "Q2_char").evaluate 1 = .ok (374 / 1000) by decide +kernel,
    Except.ok.injEq] at o2
  rw [show (rawLine "combustion engine" "Qloss_char").evaluate 1 = .ok (215 / 1000) by decide +kernel,
    Except.ok.injEq] at oL
  refine ⟨lT, l1, l2, lL, ⟨fT, f1, f2, fL⟩, hT, h1, h2, hL, eT, e1, e2, eL, ?_, ?_⟩
  · constructor <;>
    · simp [engineEnergyRes, combEnergyRes, enginePowerRes, engineHeat1Res, engineHeat2Res,
        engineLossRes, EngineVals.ti, combTi, EngineVals.load, CoolLoop.heat, engData, defaultEngine,
        ← oT, ← o1, ← o2, ← oL]
      try norm_num
  · norm_num [Spec.fuelHeat, engData, defaultEngine]

end Tespy
