import Verif.Model.Mixture
import Verif.Lemmas.DictLemmas
import Mathlib.Algebra.BigOperators.Ring.List
import Mathlib.Algebra.Order.BigOperators.Group.List
import Mathlib.Algebra.Order.Field.Rat
import Mathlib.Tactic.Linarith
import Mathlib.Tactic.FieldSimp
import Mathlib.Tactic.Ring
import Mathlib.Tactic.Positivity
import Mathlib.Tactic.NormNum
import Mathlib.Tactic.LinearCombination

/-
C43 and C44: mole fractions, condensation and mixture properties.
-/
namespace Tespy
namespace Spec
variable {K : Type} [Field K] [LinearOrder K]

/-- A composition: distinct names, mass fractions not negative with sum one, positive molar
masses. -/
structure Composition (fd : FluidData K) : Prop where
  nodup : (Dict.keys fd).Nodup
  nonneg : ∀ e ∈ fd, 0 ≤ e.2.y
  total : (fd.map fun e => e.2.y).sum = 1
  molar : ∀ e ∈ fd, 0 < e.2.w.M

/-- the values of a dictionary are not negative and sum up to one -/
def Partition (d : Dict String K) : Prop := (∀ e ∈ d, 0 ≤ e.2) ∧ (d.map Prod.snd).sum = 1

end Spec

variable {K : Type} [Field K] [LinearOrder K] [IsStrictOrderedRing K]

/-! ## Lists over the species -/

theorem get?_map_val {β γ : Type} (fd : Dict String β) (φ : String × β → γ) (f : String) (b : β)
    (h : Dict.get? fd f = some b) :
    Dict.get? (fd.map fun e => (e.1, φ e)) f = some (φ (f, b)) := by
  induction fd with
  | nil => simp [Dict.get?] at h
  | cons e fd ih =>
    obtain ⟨k, v⟩ := e
    simp only [List.map_cons, Dict.get?] at h ⊢
    split at h
    · rename_i hk
      subst hk
      cases h
      simp
    · rename_i hk
      rw [if_neg hk]
      exact ih h

theorem set_map_val {β γ : Type} (fd : Dict String β) (φ : String × β → γ) (w : String) (v : γ)
    (hn : (Dict.keys fd).Nodup) (hw : w ∈ Dict.keys fd) :
    Dict.set (fd.map fun e => (e.1, φ e)) w v
      = fd.map fun e => (e.1, if e.1 = w then v else φ e) := by
  induction fd with
  | nil => simp [Dict.keys] at hw
  | cons e fd ih =>
    obtain ⟨k, b⟩ := e
    have hn' : k ∉ Dict.keys fd ∧ (Dict.keys fd).Nodup := by simpa [Dict.keys] using hn
    simp only [List.map_cons, Dict.set]
    by_cases hk : w = k
    · subst hk
      rw [if_pos rfl]
      simp only [if_true]
      congr 1
      refine List.map_congr_left fun e he => ?_
      have : e.1 ≠ w := fun hh => hn'.1 (hh ▸ List.mem_map_of_mem (f := Prod.fst) he)
      rw [if_neg this]
    · rw [if_neg hk, if_neg (Ne.symm hk)]
      congr 1
      refine ih hn'.2 ?_
      simpa [Dict.keys, hk] using hw

theorem molarMass_map (fd : FluidData K) (φ : String × FluidEntry K → K)
    (l : FluidData K) (hl : ∀ e ∈ l, Dict.get? fd e.1 = some e.2) :
    molarMass fd (l.map fun e => (e.1, φ e)) = .ok (l.map fun e => φ e * e.2.w.M).sum := by
  induction l with
  | nil => rfl
  | cons e l ih =>
    have he := hl e (by simp)
    have ih' := ih fun e he => hl e (by simp [he])
    simp only [List.map_cons, molarMass, Dict.getItem, he, ih', List.sum_cons]

theorem gasMass_map (fd : FluidData K) (m : K) (hm : m ≠ 0) (φ : String × FluidEntry K → K)
    (l : FluidData K) (hl : ∀ e ∈ l, Dict.get? fd e.1 = some e.2) :
    gasMass fd m (l.map fun e => (e.1, φ e))
      = .ok (l.map fun e => (e.1, φ e / m * e.2.w.M)) := by
  induction l with
  | nil => rfl
  | cons e l ih =>
    have he := hl e (by simp)
    have ih' := ih fun e he => hl e (by simp [he])
    simp only [List.map_cons, gasMass, Dict.getItem, he, ih', fdiv, if_neg hm]

theorem sum_replace (fd : FluidData K) (φ : String × FluidEntry K → K) (w : String)
    (e : FluidEntry K) (g : String × FluidEntry K → K) (v : K) (hn : (Dict.keys fd).Nodup)
    (hw : Dict.get? fd w = some e) :
    (fd.map fun q => (if q.1 = w then v else φ q) * g q).sum
      = (fd.map fun q => φ q * g q).sum + (v - φ (w, e)) * g (w, e) := by
  induction fd with
  | nil => simp [Dict.get?] at hw
  | cons q fd ih =>
    obtain ⟨k, b⟩ := q
    have hn' : k ∉ Dict.keys fd ∧ (Dict.keys fd).Nodup := by simpa [Dict.keys] using hn
    simp only [Dict.get?] at hw
    simp only [List.map_cons, List.sum_cons]
    by_cases hk : w = k
    · subst hk
      rw [if_pos rfl] at hw
      cases hw
      have : (fd.map fun q => (if q.1 = w then v else φ q) * g q) = fd.map fun q => φ q * g q := by
        refine List.map_congr_left fun q hq => ?_
        have : q.1 ≠ w := fun hh => hn'.1 (hh ▸ List.mem_map_of_mem (f := Prod.fst) hq)
        rw [if_neg this]
      rw [this]
      simp only [if_true]
      ring
    · rw [if_neg hk] at hw
      rw [ih hn'.2 hw, if_neg (Ne.symm hk)]
      ring

theorem sum_div (l : List (String × FluidEntry K)) (φ : String × FluidEntry K → K) (s : K) :
    (l.map fun e => φ e / s).sum = (l.map φ).sum / s := by
  induction l with
  | nil => simp
  | cons e l ih => simp only [List.map_cons, List.sum_cons, ih]; ring

theorem molar_sum_pos {fd : FluidData K} (h : Spec.Composition fd) :
    0 < (fd.map fun e => e.2.y / e.2.w.M).sum := by
  obtain ⟨_, hy, ht, hM⟩ := h
  have key : ∀ l : FluidData K, (∀ e ∈ l, 0 ≤ e.2.y) → (∀ e ∈ l, 0 < e.2.w.M) →
      0 ≤ (l.map fun e => e.2.y / e.2.w.M).sum ∧
        (0 < (l.map fun e => e.2.y).sum → 0 < (l.map fun e => e.2.y / e.2.w.M).sum) := by
    intro l
    induction l with
    | nil => simp
    | cons e l ih =>
      intro h1 h2
      obtain ⟨i1, i2⟩ := ih (fun e he => h1 e (by simp [he])) (fun e he => h2 e (by simp [he]))
      have hy := h1 e (by simp)
      have hm := h2 e (by simp)
      have h0 : 0 ≤ e.2.y / e.2.w.M := div_nonneg hy hm.le
      simp only [List.map_cons, List.sum_cons]
      refine ⟨by linarith, fun hs => ?_⟩
      rcases hy.lt_or_eq with hy' | hy'
      · have := div_pos hy' hm
        linarith
      · rw [← hy', zero_add] at hs
        have := i2 hs
        linarith
  exact (key fd hy hM).2 (by rw [ht]; exact one_pos)

/-- the mole fractions of a composition -/
theorem molarFractions_eq {fd : FluidData K} (h : Spec.Composition fd) :
    molarFractions fd = .ok (fd.map fun e =>
      (e.1, e.2.y / e.2.w.M / (fd.map fun e => e.2.y / e.2.w.M).sum)) := by
  unfold molarFractions
  rw [if_neg (molar_sum_pos h).ne']

/-- **C43, mole fractions.** For every composition the mole fractions are defined, belong to the
same species, are not negative and sum up to one; weighted with the molar masses they give back
the mass fractions. -/
theorem C43_molar_fractions (fd : FluidData K) (h : Spec.Composition fd) :
    ∃ xs m, molarFractions fd = .ok xs ∧ Dict.keys xs = Dict.keys fd ∧ Spec.Partition xs ∧
      molarMass fd xs = .ok m ∧ 0 < m ∧
      ∀ f e, Dict.get? fd f = some e → ∃ x, Dict.get? xs f = some x ∧ x * e.w.M = e.y * m := by
  have hS := molar_sum_pos h
  set S := (fd.map fun e => e.2.y / e.2.w.M).sum with hSdef
  refine ⟨_, 1 / S, molarFractions_eq h, ?_, ⟨?_, ?_⟩, ?_, by positivity, ?_⟩
  · simp [Dict.keys, Function.comp_def]
  · intro e he
    obtain ⟨q, hq, rfl⟩ := List.mem_map.1 he
    exact div_nonneg (div_nonneg (h.nonneg q hq) (h.molar q hq).le) hS.le
  · rw [List.map_map]
    show (fd.map fun e => e.2.y / e.2.w.M / S).sum = 1
    rw [sum_div, ← hSdef, div_self hS.ne']
  · rw [molarMass_map fd _ fd fun e he => Dict.get?_of_mem h.nodup he]
    congr 1
    have : (fd.map fun e => e.2.y / e.2.w.M / S * e.2.w.M) = fd.map fun e => e.2.y / S := by
      refine List.map_congr_left fun e he => ?_
      have := (h.molar e he).ne'
      field_simp
    rw [this, sum_div, h.total]
  · intro f e hf
    refine ⟨_, get?_map_val fd _ f e hf, ?_⟩
    have := (h.molar (f, e) (Dict.mem_of_get? hf)).ne'
    simp only [← hSdef] at this ⊢
    field_simp

/-- mole fraction of a species below one if its mass fraction is -/
theorem molar_lt_one {fd : FluidData K} (h : Spec.Composition fd) {w : String} {e : FluidEntry K}
    (hw : Dict.get? fd w = some e) (hy : e.y < 1) :
    e.y / e.w.M < (fd.map fun e => e.2.y / e.2.w.M).sum := by
  have key : ∀ l : FluidData K, (Dict.keys l).Nodup → (∀ e ∈ l, 0 ≤ e.2.y) →
      (∀ e ∈ l, 0 < e.2.w.M) → Dict.get? l w = some e → e.y < (l.map fun e => e.2.y).sum →
      e.y / e.w.M < (l.map fun e => e.2.y / e.2.w.M).sum := by
    have nn : ∀ l : FluidData K, (∀ e ∈ l, 0 ≤ e.2.y) → (∀ e ∈ l, 0 < e.2.w.M) →
        0 ≤ (l.map fun e => e.2.y / e.2.w.M).sum := by
      intro l h1 h2
      refine List.sum_nonneg fun x hx => ?_
      obtain ⟨q, hq, rfl⟩ := List.mem_map.1 hx
      exact div_nonneg (h1 q hq) (h2 q hq).le
    have pos : ∀ l : FluidData K, (∀ e ∈ l, 0 ≤ e.2.y) → (∀ e ∈ l, 0 < e.2.w.M) →
        0 < (l.map fun e => e.2.y).sum → 0 < (l.map fun e => e.2.y / e.2.w.M).sum := by
      intro l
      induction l with
      | nil => simp
      | cons e l ih =>
        intro h1 h2 hs
        have hn := nn l (fun e he => h1 e (by simp [he])) (fun e he => h2 e (by simp [he]))
        have hm := h2 e (by simp)
        have hy := h1 e (by simp)
        simp only [List.map_cons, List.sum_cons] at hs ⊢
        rcases hy.lt_or_eq with hy' | hy'
        · have := div_pos hy' hm
          linarith
        · rw [← hy', zero_add] at hs
          have := ih (fun e he => h1 e (by simp [he])) (fun e he => h2 e (by simp [he])) hs
          rw [← hy']
          simpa using this
    intro l
    induction l with
    | nil => intro _ _ _ h; simp [Dict.get?] at h
    | cons q l ih =>
      intro hn h1 h2 hg hs
      obtain ⟨k, b⟩ := q
      have hn' : k ∉ Dict.keys l ∧ (Dict.keys l).Nodup := by simpa [Dict.keys] using hn
      have h1' := fun e he => h1 e (List.mem_cons_of_mem _ he)
      have h2' := fun e he => h2 e (List.mem_cons_of_mem _ he)
      simp only [Dict.get?] at hg
      simp only [List.map_cons, List.sum_cons] at hs ⊢
      by_cases hk : w = k
      · rw [if_pos hk] at hg
        cases hg
        have := pos l h1' h2' (by linarith)
        linarith
      · rw [if_neg hk] at hg
        have hb : 0 ≤ b.y := h1 (k, b) (by simp)
        have hbM : 0 < b.w.M := h2 (k, b) (by simp)
        rcases hb.lt_or_eq with hb' | hb'
        · have h3 : e.y / e.w.M ≤ (l.map fun e => e.2.y / e.2.w.M).sum := by
            refine List.single_le_sum ?_ _ ?_
            · intro x hx
              obtain ⟨q, hq, rfl⟩ := List.mem_map.1 hx
              exact div_nonneg (h1' q hq) (h2' q hq).le
            · exact List.mem_map.2 ⟨(w, e), Dict.mem_of_get? hg, rfl⟩
          have := div_pos hb' hbM
          linarith
        · have := ih hn'.2 h1' h2' hg (by linarith)
          rw [← hb']
          simpa using this
  exact key fd h.nodup h.nonneg h.molar hw (by rw [h.total]; exact hy)

/-- **C43, condensation.** If the partial pressure of the water exceeds the saturation pressure
and water is not the only species: the liquid mole fraction lies between zero and the mole
fraction of the water; the gas phase mole and mass fractions each are a partition of unity; the
gas phase is saturated; liquid and vapour give the total mass of the water, and the mass of every
other species is in the gas phase. -/
theorem C43_condensation (fd : FluidData K) (h : Spec.Composition fd) (p T : K) (w : String)
    (e : FluidEntry K) (hw : Dict.get? fd w = some e) (hy : e.y < 1) (hp : 0 < p)
    (hs : 0 < e.w.pSat T) (hc : e.w.belowTcrit T = true) (xs : Dict String K) (xw : K)
    (hx : molarFractions fd = .ok xs) (hxw : Dict.get? xs w = some xw)
    (hcond : e.w.pSat T < p * xw) :
    ∃ c, condCheck p T fd w = .ok c ∧ 0 < c.molarLiquid ∧ c.molarLiquid < xw ∧
      0 < c.massLiquid ∧ c.massLiquid < e.y ∧
      Spec.Partition c.molarGas ∧ Spec.Partition c.massGas ∧
      (∃ xg, Dict.get? c.molarGas w = some xg ∧ p * xg = e.w.pSat T) ∧
      (∃ yg, Dict.get? c.massGas w = some yg ∧ c.massLiquid + (1 - c.massLiquid) * yg = e.y) ∧
      ∀ f e', f ≠ w → Dict.get? fd f = some e' →
        ∃ yg, Dict.get? c.massGas f = some yg ∧ (1 - c.massLiquid) * yg = e'.y := by
  have hS := molar_sum_pos h
  have hlt := molar_lt_one h hw hy
  set S := (fd.map fun e => e.2.y / e.2.w.M).sum with hSdef
  have hxs := molarFractions_eq h
  rw [← hSdef] at hxs
  rw [hxs] at hx
  cases hx
  have hMw : 0 < e.w.M := h.molar (w, e) (Dict.mem_of_get? hw)
  have hxw' := get?_map_val fd (fun e => e.2.y / e.2.w.M / S) w e hw
  rw [hxw'] at hxw
  have hxwe : xw = e.y / e.w.M / S := (Option.some.inj hxw).symm
  have hxw1 : xw < 1 := by rw [hxwe, div_lt_one hS]; exact hlt
  set ps := e.w.pSat T with hps
  have hxwpos : 0 < xw := by
    by_contra hneg
    have : p * xw ≤ 0 := mul_nonpos_of_nonneg_of_nonpos hp.le (not_lt.1 hneg)
    linarith
  have hpps : ps < p := by nlinarith
  have hden : 0 < p - ps := by linarith
  have hr : p / ps - 1 = (p - ps) / ps := by field_simp
  have hr0 : p / ps - 1 ≠ 0 := by rw [hr]; positivity
  set gas := (1 - xw) / (p / ps - 1) with hgas
  have hgas' : gas = (1 - xw) * ps / (p - ps) := by rw [hgas, hr]; field_simp
  have hgpos : 0 < gas := by
    rw [hgas']
    have : 0 < 1 - xw := by linarith
    positivity
  have hglt : gas < xw := by
    rw [hgas', div_lt_iff₀ hden]
    nlinarith
  have hsum : 1 - (xw - gas) = (1 - xw) * p / (p - ps) := by
    rw [hgas']
    field_simp
    ring
  have hsumpos : 0 < 1 - (xw - gas) := by linarith
  set G := 1 - (xw - gas) with hG
  have hlook : ∀ q ∈ fd, Dict.get? fd q.1 = some q.2 := fun q hq => Dict.get?_of_mem h.nodup hq
  have hwk : w ∈ Dict.keys fd := by
    have := (Dict.get?_isSome_iff fd w).1 (by rw [hw]; rfl)
    exact this
  -- the gas mole fractions
  have hmap : ((fd.map fun e => (e.1, e.2.y / e.2.w.M / S)).map fun q => (q.1, q.2 / G))
      = fd.map fun e => (e.1, e.2.y / e.2.w.M / S / G) := by
    rw [List.map_map]; rfl
  set φ : String × FluidEntry K → K := fun q => if q.1 = w then gas / G else q.2.y / q.2.w.M / S / G
    with hφ
  have hmg : Dict.set ((fd.map fun e => (e.1, e.2.y / e.2.w.M / S)).map fun q => (q.1, q.2 / G)) w
      (gas / G) = fd.map fun q => (q.1, φ q) := by
    rw [hmap, set_map_val fd _ w _ h.nodup hwk]
  have hm1 : molarMass fd (fd.map fun e => (e.1, e.2.y / e.2.w.M / S)) = .ok (1 / S) := by
    rw [molarMass_map fd _ fd hlook]
    congr 1
    have : (fd.map fun e => e.2.y / e.2.w.M / S * e.2.w.M) = fd.map fun e => e.2.y / S := by
      refine List.map_congr_left fun e he => ?_
      have := (h.molar e he).ne'
      field_simp
    rw [this, sum_div, h.total]
  -- sums with the changed entry
  have hsumφ : ∀ g : String × FluidEntry K → K, (fd.map fun q => φ q * g q).sum
      = (fd.map fun q => q.2.y / q.2.w.M / S / G * g q).sum + (gas / G - xw / G) * g (w, e) := by
    intro g
    rw [sum_replace fd (fun q => q.2.y / q.2.w.M / S / G) w e g (gas / G) h.nodup hw]
    simp only
    rw [← hxwe]
  have hmg1 : (fd.map fun q => φ q).sum = 1 := by
    have h1 := hsumφ (fun _ => 1)
    simp only [mul_one] at h1
    rw [h1]
    have h2 : (fd.map fun q => q.2.y / q.2.w.M / S / G).sum = 1 / G := by
      rw [sum_div, sum_div, ← hSdef, div_self hS.ne']
    rw [h2, hG]
    have : 1 - (xw - gas) ≠ 0 := hsumpos.ne'
    field_simp
    ring
  set mg := (fd.map fun q => φ q * q.2.w.M).sum with hmgdef
  have hmgval : mg = (1 / S - (xw - gas) * e.w.M) / G := by
    rw [hmgdef, hsumφ (fun q => q.2.w.M)]
    have : (fd.map fun q => q.2.y / q.2.w.M / S / G * q.2.w.M) = fd.map fun q => q.2.y / S / G := by
      refine List.map_congr_left fun e he => ?_
      have := (h.molar e he).ne'
      field_simp
    rw [this, sum_div, sum_div, h.total]
    simp only
    field_simp
    ring
  have hey : e.y = xw * e.w.M * S := by rw [hxwe]; field_simp
  have hmgpos : 0 < mg := by
    rw [hmgval]
    refine div_pos ?_ hsumpos
    have h1 : (xw - gas) * e.w.M < xw * e.w.M := by nlinarith
    have h2 : xw * e.w.M < 1 / S := by
      rw [lt_div_iff₀ hS, ← hey]; exact hy
    linarith
  set ml := (xw - gas) * e.w.M / (1 / S) with hml
  have hml' : ml = (xw - gas) * e.w.M * S := by rw [hml]; field_simp
  have h1ml : 1 - ml = S * (mg * G) := by
    rw [hml', hmgval]
    field_simp
  have hgm : gasMass fd mg (fd.map fun q => (q.1, φ q))
      = .ok (fd.map fun q => (q.1, φ q / mg * q.2.w.M)) :=
    gasMass_map fd mg hmgpos.ne' φ fd hlook
  have hφnn : ∀ q ∈ fd, 0 ≤ φ q := by
    intro q hq
    simp only [hφ]
    split
    · exact (div_pos hgpos hsumpos).le
    · exact div_nonneg (div_nonneg (div_nonneg (h.nonneg q hq) (h.molar q hq).le) hS.le) hsumpos.le
  refine ⟨⟨fd.map fun q => (q.1, φ q / mg * q.2.w.M), fd.map fun q => (q.1, φ q), ml, xw - gas⟩,
    ?_, by simp only; linarith, by simp only; linarith, ?_, ?_, ⟨?_, ?_⟩, ⟨?_, ?_⟩, ?_, ?_, ?_⟩
  · unfold condCheck
    simp only [hxs, Dict.getItem, hw, hxw', ← hxwe, ← hps]
    rw [if_pos ⟨hc, hcond⟩]
    unfold condSplit
    simp only [fdiv, if_neg hs.ne', if_neg hr0, ← hgas, ← hG, if_neg hsumpos.ne', hmg, hm1]
    have hS1 : (1 : K) / S ≠ 0 := by positivity
    simp only [if_neg hS1, molarMass_map fd φ fd hlook, ← hmgdef, hgm, ← hml]
  · simp only
    rw [hml']
    have : 0 < xw - gas := by linarith
    positivity
  · simp only
    rw [hml', hey]
    have : 0 < gas * e.w.M * S := by positivity
    nlinarith
  · intro q hq
    obtain ⟨q', hq', rfl⟩ := List.mem_map.1 hq
    exact hφnn q' hq'
  · rw [List.map_map]; exact hmg1
  · intro q hq
    obtain ⟨q', hq', rfl⟩ := List.mem_map.1 hq
    exact mul_nonneg (div_nonneg (hφnn q' hq') hmgpos.le) (h.molar q' hq').le
  · rw [List.map_map]
    have : (fd.map fun q => φ q / mg * q.2.w.M) = fd.map fun q => φ q * q.2.w.M / mg := by
      refine List.map_congr_left fun q _ => ?_
      ring
    show (fd.map fun q => φ q / mg * q.2.w.M).sum = 1
    rw [this, sum_div, ← hmgdef, div_self hmgpos.ne']
  · refine ⟨gas / G, ?_, ?_⟩
    · have := get?_map_val fd φ w e hw
      simpa [hφ] using this
    · rw [hsum, hgas']
      have : 1 - xw ≠ 0 := by linarith
      have := hden.ne'
      field_simp
  · refine ⟨gas / G / mg * e.w.M, ?_, ?_⟩
    · have := get?_map_val fd (fun q => φ q / mg * q.2.w.M) w e hw
      simpa [hφ] using this
    · simp only
      rw [h1ml, hml', hey]
      have := hmgpos.ne'
      have := hsumpos.ne'
      field_simp
      ring
  · intro f e' hfw hf
    refine ⟨e'.y / e'.w.M / S / G / mg * e'.w.M, ?_, ?_⟩
    · have := get?_map_val fd (fun q => φ q / mg * q.2.w.M) f e' hf
      simpa [hφ, hfw] using this
    · simp only
      rw [h1ml]
      have := hmgpos.ne'
      have := hsumpos.ne'
      have := (h.molar (f, e') (Dict.mem_of_get? hf)).ne'
      simp only at this
      field_simp

/-- **C43, no condensation.** Above the critical temperature of water or if the partial pressure
does not exceed the saturation pressure, everything is gas and the fractions are those of the
mixture. -/
theorem C43_dry (fd : FluidData K) (p T : K) (w : String) (e : FluidEntry K)
    (hw : Dict.get? fd w = some e) (xs : Dict String K) (xw : K)
    (hx : molarFractions fd = .ok xs) (hxw : Dict.get? xs w = some xw)
    (hd : e.w.belowTcrit T = false ∨ p * xw ≤ e.w.pSat T) :
    condCheck p T fd w = .ok ⟨fd.map fun q => (q.1, q.2.y), xs, 0, 0⟩ := by
  unfold condCheck
  simp only [hx, Dict.getItem, hw, hxw]
  rw [if_neg]
  rintro ⟨h1, h2⟩
  rcases hd with hd | hd
  · rw [hd] at h1; cases h1
  · exact absurd h2 (not_lt.2 hd)

/-- **C43.** The restriction to mixtures is necessary: for pure water that condenses the split is
a division by zero. -/
theorem C43_pure_water (e : FluidEntry K) (p T : K) (hy : e.y = 1) (hM : 0 < e.w.M)
    (hs : 0 < e.w.pSat T) (hp : e.w.pSat T < p) (hc : e.w.belowTcrit T = true) :
    condCheck p T [("H2O", e)] "H2O" = .error .zeroDivision := by
  have hcomp : Spec.Composition [("H2O", e)] :=
    ⟨by simp [Dict.keys], by simp [hy], by simp [hy], by simpa using hM⟩
  have hx := molarFractions_eq hcomp
  have h1 : (1 : K) / e.w.M ≠ 0 := by positivity
  simp only [List.map_cons, List.map_nil, List.sum_cons, List.sum_nil, add_zero, hy,
    div_self h1] at hx
  unfold condCheck
  simp only [hx, Dict.getItem, Dict.get?, if_true]
  rw [if_pos ⟨hc, by simpa using hp⟩]
  unfold condSplit
  have hr : p / e.w.pSat T - 1 ≠ 0 := by
    intro h0
    have : p / e.w.pSat T = 1 := by linarith
    rw [div_eq_one_iff_eq hs.ne'] at this
    linarith
  simp [fdiv, hs.ne', hr]

end Tespy
