import Mathlib.Data.List.Basic
import Mathlib.Data.List.Nodup
import Mathlib.Algebra.BigOperators.Group.List.Basic
import Mathlib.Algebra.Order.Field.Rat
import Verif.Model.Component
import Verif.Model.Eqs
/-
C30: the number of equations announced by a component is the number of rows it fills.
-/
namespace Tespy

/-! ## Specification -/
namespace Spec

/-- A parameter is active: a group of parameters if all its elements are specified, any
other parameter if it is specified itself. -/
def Active (ps : List PParam) (p : PParam) : Prop :=
  if p.kind = .gcp then ∀ e ∈ p.elements, ∃ q ∈ ps, q.name = e ∧ q.isSet = true
  else p.isSet = true

/-- Parameter names are different and elements of groups are no groups. -/
structure WellFormed (ps : List PParam) : Prop where
  nodup : (ps.map (·.name)).Nodup
  flat : ∀ p ∈ ps, p.kind = .gcp → ∀ e ∈ p.elements, ∀ q ∈ ps, q.name = e → q.kind ≠ .gcp

open Classical in
/-- Equations of the parameters. -/
noncomputable def paramEqs (ps : List PParam) : ℕ :=
  (ps.map (fun p => if Active ps p ∧ p.hasFunc = true then p.numEq else 0)).sum

end Spec

/-! ## Groups of parameters and the rows of the parameters -/

/-- the parameter after preprocessing, given the parameters before -/
def prepared (ps : List PParam) (p : PParam) : PParam :=
  if p.kind = .gcp then { p with isSet := groupSet ps p.elements } else p

theorem prepared_name (ps : List PParam) (p : PParam) : (prepared ps p).name = p.name := by
  unfold prepared; split <;> rfl

theorem prepared_kind (ps : List PParam) (p : PParam) : (prepared ps p).kind = p.kind := by
  unfold prepared; split <;> simp_all

theorem flagOf_prepared (ps all : List PParam) (e : String)
    (h : ∀ q ∈ ps, q.name = e → q.kind ≠ .gcp) (rest : List PParam) :
    flagOf (ps.map (prepared all) ++ rest) e = flagOf (ps ++ rest) e := by
  induction ps with
  | nil => rfl
  | cons p ps ih =>
    have ih' := ih (fun q hq => h q (List.mem_cons_of_mem _ hq))
    unfold flagOf at ih' ⊢
    simp only [List.map_cons, List.cons_append, List.find?_cons, prepared_name]
    by_cases hp : p.name = e
    · have : p.kind ≠ .gcp := h p (by simp) hp
      simp [hp, prepared, this]
    · simpa [hp] using ih'

theorem groupSet_prepared (ps all : List PParam) (es : List String)
    (h : ∀ e ∈ es, ∀ q ∈ ps, q.name = e → q.kind ≠ .gcp) (rest : List PParam) :
    groupSet (ps.map (prepared all) ++ rest) es = groupSet (ps ++ rest) es := by
  unfold groupSet
  rw [Bool.eq_iff_iff, List.all_eq_true, List.all_eq_true]
  constructor
  · intro h1 e he
    rw [← flagOf_prepared ps all e (h e he) rest]
    exact h1 e he
  · intro h1 e he
    rw [flagOf_prepared ps all e (h e he) rest]
    exact h1 e he

theorem flagOf_iff (ps : List PParam) (hn : (ps.map (·.name)).Nodup) (e : String) :
    (flagOf ps e).getD false = true ↔ ∃ q ∈ ps, q.name = e ∧ q.isSet = true := by
  induction ps with
  | nil => simp [flagOf]
  | cons p ps ih =>
    simp only [List.map_cons, List.nodup_cons] at hn
    have ih' := ih hn.2
    unfold flagOf at ih' ⊢
    by_cases hp : p.name = e
    · simp only [List.find?_cons, hp, decide_true, Option.map_some, Option.getD_some,
        List.mem_cons]
      constructor
      · intro h; exact ⟨p, Or.inl rfl, hp, h⟩
      · rintro ⟨q, hq, hqe, hs⟩
        rcases hq with rfl | hq
        · exact hs
        · exact absurd (List.mem_map.mpr ⟨q, hq, by rw [hqe, hp]⟩) hn.1
    · simp only [List.find?_cons, hp, decide_false, List.mem_cons]
      rw [ih']
      constructor
      · rintro ⟨q, hq, h⟩; exact ⟨q, Or.inr hq, h⟩
      · rintro ⟨q, hq, hqe, hs⟩
        rcases hq with rfl | hq
        · exact absurd hqe hp
        · exact ⟨q, hq, hqe, hs⟩

theorem groupSet_iff (ps : List PParam) (hn : (ps.map (·.name)).Nodup) (es : List String) :
    groupSet ps es = true ↔ ∀ e ∈ es, ∃ q ∈ ps, q.name = e ∧ q.isSet = true := by
  unfold groupSet
  rw [List.all_eq_true]
  constructor
  · intro h e he; exact (flagOf_iff ps hn e).mp (h e he)
  · intro h e he; exact (flagOf_iff ps hn e).mpr (h e he)

theorem prepared_isSet (ps : List PParam) (hn : (ps.map (·.name)).Nodup) (p : PParam) :
    (prepared ps p).isSet = true ↔ Spec.Active ps p := by
  unfold prepared Spec.Active
  split
  · exact groupSet_iff ps hn p.elements
  · rfl

/-- equations counted for one prepared parameter -/
def eqsOf (p : PParam) : ℕ := if p.isSet ∧ p.hasFunc then p.numEq else 0

theorem map_replace (done : List PParam) (p p' : PParam) (rest : List PParam)
    (hd : ∀ q ∈ done, q.name ≠ p.name) (hr : ∀ q ∈ rest, q.name ≠ p.name) :
    (done ++ p :: rest).map (fun q => if q.name = p.name then p' else q) = done ++ p' :: rest := by
  have h : ∀ l : List PParam, (∀ q ∈ l, q.name ≠ p.name) →
      l.map (fun q => if q.name = p.name then p' else q) = l := by
    intro l hl
    conv_rhs => rw [← List.map_id l]
    apply List.map_congr_left
    intro q hq; simp [hl q hq]
  simp [h done hd, h rest hr]

theorem preprocess_fold (all : List PParam) (hw : Spec.WellFormed all) (done todo : List PParam)
    (hall : all = done ++ todo) (n : ℕ) (vs : List String) :
    todo.foldl prepOne ⟨done.map (prepared all) ++ todo, n, vs⟩ =
      ⟨all.map (prepared all), n + (todo.map (fun p => eqsOf (prepared all p))).sum,
        vs ++ (todo.filter (fun p => p.kind = .cp ∧ p.isVar)).map (·.name)⟩ := by
  induction todo generalizing done n vs with
  | nil => simp [hall]
  | cons p todo ih =>
    have hp : p ∈ all := by simp [hall]
    have hg : groupSet (done.map (prepared all) ++ p :: todo) p.elements
        = groupSet all p.elements ∨ p.kind ≠ .gcp := by
      by_cases hk : p.kind = .gcp
      · left
        rw [groupSet_prepared, ← hall]
        intro e he q hq
        exact hw.flat p hp hk e he q (by simp [hall, hq])
      · right; exact hk
    have hp' : (if p.kind = .gcp then
        { p with isSet := groupSet (done.map (prepared all) ++ p :: todo) p.elements } else p)
        = prepared all p := by
      rcases hg with hg | hg
      · rw [hg]; rfl
      · simp [prepared, hg]
    have hnd := hw.nodup
    rw [hall, List.map_append, List.map_cons] at hnd
    have hd : ∀ q ∈ done.map (prepared all), q.name ≠ p.name := by
      intro q hq heq
      obtain ⟨q0, hq0, rfl⟩ := List.mem_map.mp hq
      rw [prepared_name] at heq
      exact (List.disjoint_of_nodup_append hnd) (List.mem_map.mpr ⟨q0, hq0, rfl⟩) (by simp [heq])
    have hr : ∀ q ∈ todo, q.name ≠ p.name := by
      intro q hq heq
      have := (List.nodup_append.mp hnd).2.1
      rw [List.nodup_cons] at this
      exact this.1 (List.mem_map.mpr ⟨q, hq, heq⟩)
    have hstep : prepOne ⟨done.map (prepared all) ++ p :: todo, n, vs⟩ p =
        ⟨(done ++ [p]).map (prepared all) ++ todo, n + eqsOf (prepared all p),
          vs ++ ([p].filter (fun p => p.kind = .cp ∧ p.isVar)).map (·.name)⟩ := by
      unfold prepOne
      simp only [hp', map_replace _ p _ todo hd hr]
      refine congr (congr (congrArg _ ?_) ?_) ?_
      · simp
      · unfold eqsOf; split <;> simp
      · by_cases hc : p.kind = .cp ∧ p.isVar = true <;> simp [hc]
    rw [List.foldl_cons, hstep, ih (done ++ [p]) (by simp [hall])]
    simp only [List.map_cons, List.sum_cons, Nat.add_assoc, List.append_assoc]
    congr 2
    rw [← List.map_append, ← List.filter_append]
    rfl

theorem preprocess_eq (cs : List ℕ) (ps : List PParam) (hw : Spec.WellFormed ps) :
    preprocess cs ps = ⟨ps.map (prepared ps), cs.sum + (ps.map (fun p => eqsOf (prepared ps p))).sum,
        (ps.filter (fun p => p.kind = .cp ∧ p.isVar)).map (·.name)⟩ := by
  have := preprocess_fold ps hw [] ps rfl cs.sum []
  simpa [preprocess] using this

/-- C30 (groups): after preprocessing exactly the groups with all elements specified are
active; all other specifications are as the user made them. -/
theorem C30_groups (cs : List ℕ) (ps : List PParam) (hw : Spec.WellFormed ps) :
    (preprocess cs ps).params.length = ps.length ∧
    ∀ (i : ℕ) (p q : PParam), ps[i]? = some p → (preprocess cs ps).params[i]? = some q →
      (q.isSet = true ↔ Spec.Active ps p) ∧ { q with isSet := p.isSet } = p := by
  rw [preprocess_eq cs ps hw]
  refine ⟨by simp, ?_⟩
  intro i p q hp hq
  simp only [List.getElem?_map, hp, Option.map_some, Option.some.injEq] at hq
  subst hq
  refine ⟨prepared_isSet ps hw.nodup p, ?_⟩
  unfold prepared
  split <;> rfl

/-- C30 (announced): the number of equations announced is the number of equations of the
mandatory constraints plus that of all active parameters with an equation. -/
theorem C30_announced (cs : List ℕ) (ps : List PParam) (hw : Spec.WellFormed ps) :
    (preprocess cs ps).numEq = cs.sum + Spec.paramEqs ps := by
  rw [preprocess_eq cs ps hw]
  simp only [Nat.add_left_cancel_iff, Spec.paramEqs]
  congr 1
  apply List.map_congr_left
  intro p _
  unfold eqsOf
  have h1 := prepared_isSet ps hw.nodup p
  have h2 : (prepared ps p).hasFunc = p.hasFunc := by unfold prepared; split <;> rfl
  have h3 : (prepared ps p).numEq = p.numEq := by unfold prepared; split <;> rfl
  rw [h2, h3]
  by_cases ha : Spec.Active ps p
  · simp [h1.mpr ha, ha]
  · have : (prepared ps p).isSet ≠ true := fun h => ha (h1.mp h)
    simp [this, ha]

/-- the rows of a list of blocks -/
def blockRows (bs : List (ℕ × ℕ)) : List ℕ := bs.flatMap (fun b => List.range' b.1 b.2)

theorem cons_rows (s : ℕ) (ns : List ℕ) :
    blockRows (solveRows.cons s ns) = List.range' s ns.sum := by
  induction ns generalizing s with
  | nil => simp [solveRows.cons, blockRows]
  | cons n ns ih =>
    have := ih (s + n)
    simp only [blockRows] at this
    simp [solveRows.cons, blockRows, this, List.range'_append_1]

theorem par_rows (s : ℕ) (ps : List PParam) :
    blockRows (solveRows.par s ps) = List.range' s (ps.map eqsOf).sum := by
  induction ps generalizing s with
  | nil => simp [solveRows.par, blockRows]
  | cons p ps ih =>
    unfold solveRows.par
    by_cases h : p.isSet ∧ p.hasFunc
    · have h1 := ih (s + p.numEq)
      simp only [blockRows] at h1
      have h2 : eqsOf p = p.numEq := if_pos h
      simp [h, blockRows, h1, h2, List.range'_append_1]
    · have h1 := ih s
      simp only [blockRows] at h1
      have h2 : eqsOf p = 0 := if_neg h
      simp only [h, if_false, blockRows, h1, List.map_cons, List.sum_cons, h2, Nat.zero_add]

/-- C30 (rows): the rows filled in an iteration are exactly the announced ones, every row is
filled once and in order. -/
theorem C30_rows (cs : List ℕ) (ps : List PParam) (hw : Spec.WellFormed ps) :
    blockRows (solveRows cs (preprocess cs ps).params) = List.range (preprocess cs ps).numEq := by
  rw [preprocess_eq cs ps hw]
  unfold solveRows blockRows
  rw [List.flatMap_append]
  have h1 := cons_rows 0 cs
  have h2 := par_rows cs.sum (ps.map (prepared ps))
  unfold blockRows at h1 h2
  rw [h1, h2, List.range_eq_range']
  have := @List.range'_append_1 0 cs.sum ((ps.map (prepared ps)).map eqsOf).sum
  simp only [Nat.zero_add] at this
  rw [this]
  simp [List.map_map, Function.comp_def]

/-- The example of a heat exchanger with kA and ambient temperature: the group is active. -/
def exParams : List PParam :=
  [⟨"Q", .cp, true, false, [], true, 1⟩, ⟨"kA", .cp, true, true, [], false, 0⟩,
   ⟨"Tamb", .cp, true, false, [], false, 0⟩, ⟨"L", .cp, true, false, [], false, 0⟩,
   ⟨"D", .cp, false, false, [], false, 0⟩, ⟨"kA_group", .gcp, false, false, ["kA", "Tamb"], true, 1⟩,
   ⟨"darcy_group", .gcp, true, false, ["L", "D"], true, 1⟩]

example : Spec.WellFormed exParams :=
  ⟨by decide, by
    intro p hp hk e he q hq hqe
    simp only [exParams, List.mem_cons, List.not_mem_nil, or_false] at hp hq
    rcases hp with rfl | rfl | rfl | rfl | rfl | rfl | rfl <;> simp at hk he <;>
      rcases he with rfl | rfl <;> rcases hq with rfl | rfl | rfl | rfl | rfl | rfl | rfl <;>
      simp_all⟩

example : (preprocess [1, 2] exParams).numEq = 5 ∧ (preprocess [1, 2] exParams).vars = ["kA"] ∧
    (preprocess [1, 2] exParams).params.map (·.isSet) = [true, true, true, true, false, true, false] := by
  decide

/-! ## Mandatory constraints -/

namespace Spec
/-- Every constraint with equations returns as many values as it announced. -/
def Matching {K : Type} (cs : List (Cons K)) : Prop :=
  ∀ c ∈ cs, c.1 = 0 ∨ c.2.len = c.1
end Spec

section
variable {K : Type} [CommRing K]

/-- a merge or a fuel cell -/
def Dev.irregular : Dev K → Bool
  | .merge .. => true
  | .fuelCell .. => true
  | _ => false

/-- C30 (mandatory constraints): all components except merges and fuel cells return as many
residuals as they announce, for all states. -/
theorem C30_mandatory (F : PropFuncs K) (s : EqState K) (d : Dev K) (hd : d.irregular = false)
    (cs : List (Cons K)) (h : d.constraints F s = .ok cs) : Spec.Matching cs := by
  intro c hc
  cases d with
  | merge => simp [Dev.irregular] at hd
  | fuelCell => simp [Dev.irregular] at hd
  | splitter i outl =>
    simp only [Dev.constraints, Except.ok.injEq] at h; subst h
    simp only [List.mem_cons, List.not_mem_nil, or_false] at hc
    rcases hc with rfl | rfl | rfl <;> simp [nodeMass, splitEnergy, nodePressure, Resid.len]
  | separator i outl =>
    simp only [Dev.constraints] at h
    have key : ∀ fl : List String, c ∈ [(1, nodeMass s [i] outl), (fl.length, sepFluid s fl i outl),
        (outl.length, sepEnergy F s i outl),
        ([i].length + outl.length - 1, nodePressure s i [] outl)] → c.1 = 0 ∨ c.2.len = c.1 := by
      intro fl hc
      simp only [List.mem_cons, List.not_mem_nil, or_false] at hc
      rcases hc with rfl | rfl | rfl | rfl <;>
        simp [nodeMass, sepFluid, sepEnergy, nodePressure, Resid.len]
    split at h
    · split at h
      · simp only [Except.ok.injEq] at h; subst h; exact key _ hc
      · cases h
    · simp only [Except.ok.injEq] at h; subst h; exact key _ hc
  | drum i0 i1 o0 o1 =>
    simp only [Dev.constraints, Except.ok.injEq] at h; subst h
    simp only [List.mem_cons, List.not_mem_nil, or_false] at hc
    rcases hc with rfl | rfl | rfl | rfl
    · by_cases hm : i1.m = o0.m <;> simp [drumMass, nodeMass, Resid.len, hm]
    · by_cases hm : i1.m = o0.m <;> simp [drumEnergy, nodeEnergy, Resid.len, hm]
    · simp [nodePressure, Resid.len]
    · simp [outletStates, Resid.len]
  | electrolyzer i0 i1 o0 o1 o2 ratio energy =>
    simp only [Dev.constraints, Except.ok.injEq] at h; subst h
    simp only [List.mem_cons, List.not_mem_nil, or_false] at hc
    rcases hc with rfl | rfl | rfl | rfl
    · right
      cases h1 : s.isVar (.m i1.m) <;> cases h2 : s.isVar (.m o1.m) <;>
        cases h3 : s.isVar (.m o2.m) <;> simp [elecMass, Resid.len, h1, h2, h3]
    · simp [Resid.len]
    · simp [elecPressure, Resid.len]
    · simp [Resid.len]
  | combustionEngine c0 c1 i0 i1 d0 d1 o stoich energy tiP q1 q2 qloss =>
    simp only [Dev.constraints, Except.ok.injEq] at h; subst h
    simp only [List.mem_cons, List.not_mem_nil, or_false] at hc
    rcases hc with rfl | rfl | rfl | rfl | rfl | rfl | rfl | rfl <;>
      simp [combMass, combPressure, Resid.len]
  | combustionChamber i0 i1 o stoich energy =>
    simp only [Dev.constraints, Except.ok.injEq] at h; subst h
    simp only [List.mem_cons, List.not_mem_nil, or_false] at hc
    rcases hc with rfl | rfl | rfl | rfl <;> simp [combMass, combPressure, Resid.len]
  | diabaticCombustionChamber i0 i1 o stoich =>
    simp only [Dev.constraints, Except.ok.injEq] at h; subst h
    simp only [List.mem_cons, List.not_mem_nil, or_false] at hc
    rcases hc with rfl | rfl <;> simp [combMass, Resid.len]
  | dropletSeparator i o0 o1 =>
    simp only [Dev.constraints, Except.ok.injEq] at h; subst h
    simp only [List.mem_cons, List.not_mem_nil, or_false] at hc
    rcases hc with rfl | rfl | rfl | rfl <;>
      simp [nodeMass, nodeEnergy, nodePressure, outletStates, Resid.len]
  | subsystemInterface io =>
    simp only [Dev.constraints, Except.ok.injEq] at h; subst h
    simp only [List.mem_cons, List.not_mem_nil, or_false] at hc
    rcases hc with rfl | rfl <;> simp [eqPressure, eqEnthalpy, Resid.len]
  | cycleCloser i o =>
    simp only [Dev.constraints, Except.ok.injEq] at h; subst h
    simp only [List.mem_cons, List.not_mem_nil, or_false] at hc
    rcases hc with rfl | rfl <;> simp [eqPressure, eqEnthalpy, Resid.len]
  | valve i o =>
    simp only [Dev.constraints, Except.ok.injEq] at h; subst h
    simp only [List.mem_cons, List.not_mem_nil, or_false] at hc
    subst hc; simp [eqEnthalpy, Resid.len]
  | heatExchanger i0 i1 o0 o1 =>
    simp only [Dev.constraints, Except.ok.injEq] at h; subst h
    simp only [List.mem_cons, List.not_mem_nil, or_false] at hc
    subst hc; simp [hexEnergy, Resid.len]
  | desuperheater i0 i1 o0 o1 =>
    simp only [Dev.constraints, Except.ok.injEq] at h; subst h
    simp only [List.mem_cons, List.not_mem_nil, or_false] at hc
    rcases hc with rfl | rfl <;> simp [hexEnergy, desuperSat, Resid.len]
  | other =>
    simp only [Dev.constraints, Except.ok.injEq] at h; subst h
    simp at hc

/-- matching constraints fill exactly the announced rows -/
theorem fillAll_length {K : Type} (cs : List (Cons K)) (h : Spec.Matching cs) :
    ∃ rows, fillAll cs = .ok rows ∧ rows.length = (cs.map Prod.fst).sum := by
  induction cs with
  | nil => exact ⟨[], rfl, rfl⟩
  | cons c cs ih =>
    obtain ⟨rows, hr, hl⟩ := ih (fun d hd => h d (List.mem_cons_of_mem _ hd))
    obtain ⟨n, r⟩ := c
    have hc : n = 0 ∨ r.len = n := h (n, r) (by simp)
    by_cases hn : n > 0
    · have hlen : r.len = n := by omega
      cases r with
      | scalar x =>
        refine ⟨List.replicate n x ++ rows, ?_, ?_⟩
        · simp [fillAll, hn, fillRows, hr]
        · simp [hl]
      | vec l =>
        refine ⟨l ++ rows, ?_, ?_⟩
        · simp only [Resid.len] at hlen
          simp [fillAll, hn, fillRows, hr, hlen]
        · simp only [Resid.len] at hlen
          simp [hl, hlen]
    · refine ⟨rows, ?_, ?_⟩
      · simp [fillAll, hn, hr]
      · have : n = 0 := by omega
        simp [hl, this]

/-- C30 (rows of the mandatory constraints): for all components except merges and fuel cells
the assignment of the residuals never fails and fills exactly the announced rows. -/
theorem C30_mandatory_rows (F : PropFuncs K) (s : EqState K) (d : Dev K)
    (hd : d.irregular = false) (n : ℕ) (h : d.announced F s = .ok n) :
    ∃ rows, d.rows F s = .ok rows ∧ rows.length = n := by
  unfold Dev.announced at h
  unfold Dev.rows
  cases hc : d.constraints F s with
  | error e => rw [hc] at h; cases h
  | ok cs =>
    rw [hc] at h
    simp only [Except.ok.injEq] at h
    obtain ⟨rows, h1, h2⟩ := fillAll_length cs (C30_mandatory F s d hd cs hc)
    exact ⟨rows, h1, h2.trans h⟩

end

/-! ### a state with values given by functions -/

/-- A state over ℚ: variable mass flows, pressures and enthalpies; composition `x` given by
the container, the listed fluids variable. -/
def exState (m p h : ℕ → ℚ) (x : ℕ → String → ℚ) (keys : ℕ → List String)
    (varX : ℕ → List String) (varM : ℕ → Bool) : EqState ℚ where
  val
    | .m i => m i
    | .p i => p i
    | .h i => h i
    | .x i f => x i f
    | .par _ => 0
  isVar
    | .m i => varM i
    | .p _ => true
    | .h _ => true
    | .x i f => f ∈ varX i
    | .par _ => false
  col
    | .m i => some (5 * i)
    | .p i => some (5 * i + 1)
    | .h i => some (5 * i + 2)
    | .x i _ => some (5 * i + 3)
    | .par _ => none
  keys
  fixed i := (keys i).filter (· ∉ varX i)

/-- trivial property functions for examples -/
def exProps : PropFuncs ℚ where
  hPQ _ p b := if b then p + 1 else p
  dhPQ _ _ _ := 1
  tPH _ p h := p + h
  dTdp _ _ _ := 1
  dTdh _ _ _ := 1

/-- connection number `i` with containers of its own -/
def port (i : ℕ) : Port := ⟨i, i, i, i⟩

example : (Dev.splitter (port 0) [port 1, port 2, port 3]).announced exProps
    (exState (fun _ => 1) (fun _ => 1) (fun _ => 1) (fun _ _ => 1) (fun _ => ["N2"])
      (fun _ => []) (fun _ => true)) = .ok 7 := by decide

/-- C30 (merge): the number of residuals of a merge is the number of announced rows exactly if
no fluid or as many fluids are variable as the outlet has. -/
theorem C30_merge_iff {K : Type} [CommRing K] (F : PropFuncs K) (s : EqState K) (i0 : Port)
    (inl : List Port) (o : Port) (hk : ∀ i ∈ i0 :: inl, s.keys i.fl = s.keys o.fl)
    (cs : List (Cons K)) (h : (Dev.merge i0 inl o).constraints F s = .ok cs) :
    Spec.Matching cs ↔
      (varSet s (i0 :: inl ++ [o])).length = 0
        ∨ (varSet s (i0 :: inl ++ [o])).length = (s.keys o.fl).length := by
  have hall : ((i0 :: inl).all fun i => (s.keys o.fl).all fun f => (s.keys i.fl).contains f)
      = true := by
    rw [List.all_eq_true]
    intro i hi
    rw [hk i hi]
    simp
  have hk0 := hk i0 (by simp)
  simp only [Dev.constraints, mergeFluid, if_pos hall, Except.ok.injEq] at h
  subst h
  generalize hv : (varSet s (i0 :: inl ++ [o])).length = v
  unfold Spec.Matching
  simp only [List.mem_cons, List.not_mem_nil, or_false, forall_eq_or_imp, forall_eq]
  by_cases h0 : v = 0
  · simp [h0, nodeMass, mergeEnergy, nodePressure, Resid.len, hk0]
  · simp only [h0, if_false, false_or, nodeMass, mergeEnergy, nodePressure, Resid.len]
    simp only [List.length_map, List.length_append, List.length_cons, List.length_nil]
    constructor
    · rintro ⟨-, h2, -⟩; omega
    · intro h2; refine ⟨by simp, by omega, by simp, by omega⟩

/-- A merge of two streams of three components where the fraction of N2 is fixed at all
connections and the other fractions of one inlet and the outlet are variable. -/
def exMergeState : EqState ℚ :=
  exState (fun i => if i = 2 then 2 else 1) (fun _ => 1) (fun _ => 1)
    (fun _ f => if f = "N2" then 1/2 else 1/4) (fun _ => ["N2", "O2", "CO2"])
    (fun i => if i = 0 then [] else ["O2", "CO2"]) (fun _ => true)

/-- C30 is false for a merge: six equations are announced, but the residuals of the fluid
balances do not fit into the rows and the calculation stops with an error. -/
theorem C30_merge_mismatch :
    (Dev.merge (port 0) [port 1] (port 2)).announced exProps exMergeState = .ok 6 ∧
    (Dev.merge (port 0) [port 1] (port 2)).rows exProps exMergeState = .error .valueError := by
  constructor <;> decide

/-- C30 is false for a fuel cell: with a specified oxygen mass flow the number of equations
cannot be determined. -/
theorem C30_fuel_cell_error {K : Type} [CommRing K] (F : PropFuncs K) (s : EqState K)
    (i0 i1 i2 o0 o1 : Port) (r : K) (energy : EqState K → K) (h : s.isVar (.m i1.m) = false) :
    (Dev.fuelCell i0 i1 i2 o0 o1 r energy).announced F s = .error .indexError := by
  simp [Dev.announced, Dev.constraints, h]

/-- C30 is false for a fuel cell: with specified hydrogen and water mass flows two mass flow
equations are announced but only one is there; its residual is written to both rows. -/
theorem C30_fuel_cell_rows {K : Type} [CommRing K] (F : PropFuncs K) (s : EqState K)
    (i0 i1 i2 o0 o1 : Port) (r : K) (energy : EqState K → K) (h1 : s.isVar (.m i1.m) = true)
    (h2 : s.isVar (.m i2.m) = false) (h3 : s.isVar (.m o1.m) = false) :
    ∃ rest, (Dev.fuelCell i0 i1 i2 o0 o1 r energy).rows F s =
      .ok ((r * s.mv o1 - s.mv i1) :: (r * s.mv o1 - s.mv i1) :: rest) := by
  refine ⟨[energy s, s.pv o1 - s.pv i1, s.pv o1 - s.pv i2], ?_⟩
  simp [Dev.rows, Dev.constraints, h1, h2, h3, cellMass, cellPressure, fillAll, fillRows,
    List.replicate]

end Tespy
