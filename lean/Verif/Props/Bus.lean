import Mathlib.Algebra.Order.Field.Rat
import Mathlib.Data.List.Forall2
import Mathlib.Tactic.NormNum
import Mathlib.Tactic.Linarith
import Verif.Model.Bus
import Verif.Props.Newton
import Verif.Lemmas.DictLemmas
/-
C32, C33, C52: energy flow busses.
-/
namespace Tespy
variable {K : Type} [Field K] [LinearOrder K] [IsStrictOrderedRing K]

/-! ## Specification -/
namespace Spec

/-- `vs` are the bus values of the components of the bus, in their order. -/
def BusValues (comps : Dict ℕ (BusRow K)) (val : ℕ → BusRow K → PyRes K) (vs : List K) : Prop :=
  List.Forall₂ (fun c v => val c.1 c.2 = .ok v) comps vs

/-- The sum of the derivatives of all components in column `c`. -/
def busDerivative (comps : Dict ℕ (BusRow K)) (der : ℕ → List (ℕ × K)) (c : ℕ) : K :=
  (comps.map (fun a => (((der a.1).filter (fun e => e.1 = c)).map Prod.snd).sum)).sum

/-- Value of an entry of a sparse row. -/
def rowEntry (row : Dict ℕ K) (c : ℕ) : K := (Dict.get? row c).getD 0

/-- Specified value of the bus after one keyword: none for "not specified". -/
def specAfter (p : Option K) (key : String) (v : BVal K) : Option K :=
  if key = "P" then
    match v with
    | .num x => some x
    | .bool t => some (if t then 1 else 0)
    | .nan => none
    | .none => none
    | _ => p
  else p

/-- The load ratio at which the characteristic is evaluated for base 'component': 1 without
reference value. -/
def componentLoad (compVal : K) : Option K → K
  | none => 1
  | some ref => if ref = 0 then 1 else |compVal / ref|

end Spec

/-! ## C32: balance of a bus -/

theorem solve_foldlM (val : ℕ → BusRow K → PyRes K) (der : ℕ → List (ℕ × K))
    (comps : Dict ℕ (BusRow K)) (p : K) (j : Dict ℕ K) (r : K) (j' : Dict ℕ K) :
    comps.foldlM (busStep val der) (p, j) = .ok (r, j') ↔
    (∃ vs, Spec.BusValues comps val vs ∧ r = p - vs.sum) ∧
      j' = comps.foldl (fun j c => jacSubs j (der c.1)) j := by
  induction comps generalizing p j with
  | nil =>
    simp only [List.foldlM_nil, Spec.BusValues, List.forall₂_nil_left_iff, List.foldl_nil]
    constructor
    · intro h
      cases h
      exact ⟨⟨[], rfl, by simp⟩, rfl⟩
    · rintro ⟨⟨vs, rfl, hr⟩, rfl⟩
      simp at hr; subst hr; rfl
  | cons c comps ih =>
    rw [List.foldlM_cons]
    cases hv : val c.1 c.2 with
    | error e =>
      constructor
      · intro h; rw [busStep, hv] at h; cases h
      · rintro ⟨⟨vs, hvs, -⟩, -⟩
        cases hvs with
        | cons h _ => rw [hv] at h; cases h
    | ok v =>
      have : busStep val der (p, j) c = .ok (p - v, jacSubs j (der c.1)) := by
        rw [busStep, hv]
      rw [this]
      change (comps.foldlM _ _ = _) ↔ _
      rw [ih]
      constructor
      · rintro ⟨⟨vs, h1, h2⟩, h3⟩
        exact ⟨⟨v :: vs, List.Forall₂.cons hv h1, by rw [h2, List.sum_cons]; ring⟩, h3⟩
      · rintro ⟨⟨vs, h1, h2⟩, h3⟩
        cases h1 with
        | cons h4 h5 =>
          rw [hv] at h4; cases h4
          exact ⟨⟨_, h5, by rw [h2, List.sum_cons]; ring⟩, h3⟩

/-- C32: the residual of a bus is the specified value minus the sum of the bus values of its
components, for any number of components; it vanishes exactly if the two agree. -/
theorem C32_residual (b : Bus K) (p : K) (val : ℕ → BusRow K → PyRes K) (der : ℕ → List (ℕ × K))
    (r : K) (j : Dict ℕ K) (h : b.solve p val der = .ok (r, j)) :
    ∃ vs, Spec.BusValues b.comps val vs ∧ r = p - vs.sum ∧ (r = 0 ↔ p = vs.sum) := by
  obtain ⟨⟨vs, h1, h2⟩, -⟩ := (solve_foldlM val der b.comps p b.jac r j).mp h
  exact ⟨vs, h1, h2, by rw [h2, sub_eq_zero]⟩

theorem rowEntry_jacSub (j : Dict ℕ K) (c c' : ℕ) (x : K) :
    Spec.rowEntry (jacSub j c x) c' = Spec.rowEntry j c' - if c = c' then x else 0 := by
  unfold Spec.rowEntry jacSub
  rw [Dict.get?_set]
  by_cases h : c = c'
  · subst h; simp
  · simp [h, Ne.symm h]

theorem rowEntry_jacSubs (l : List (ℕ × K)) (j : Dict ℕ K) (c : ℕ) :
    Spec.rowEntry (jacSubs j l) c
      = Spec.rowEntry j c - ((l.filter (fun e => e.1 = c)).map Prod.snd).sum := by
  induction l generalizing j with
  | nil => simp [jacSubs]
  | cons e l ih =>
    rw [jacSubs, List.foldl_cons]
    change Spec.rowEntry (jacSubs _ _) c = _
    rw [ih, rowEntry_jacSub]
    by_cases h : e.1 = c
    · simp [h]; ring
    · simp [h]

/-- C32: the entries of the row of a bus are minus the derivatives of the sum of the bus values:
contributions of several components, or of several connections, to one variable add up. The
entries of the previous calculation have to be cleared, which `solveBusses` does. -/
theorem C32_derivatives (b : Bus K) (p : K) (val : ℕ → BusRow K → PyRes K)
    (der : ℕ → List (ℕ × K)) (r : K) (j : Dict ℕ K) (h : b.solve p val der = .ok (r, j))
    (hz : ∀ e ∈ b.jac, e.2 = 0) (c : ℕ) :
    Spec.rowEntry j c = -(Spec.busDerivative b.comps der c) := by
  obtain ⟨-, rfl⟩ := (solve_foldlM val der b.comps p b.jac r j).mp h
  have key : ∀ (comps : Dict ℕ (BusRow K)) (j : Dict ℕ K),
      Spec.rowEntry (comps.foldl (fun j a => jacSubs j (der a.1)) j) c
        = Spec.rowEntry j c - Spec.busDerivative comps der c := by
    intro comps
    induction comps with
    | nil => intro j; simp [Spec.busDerivative]
    | cons a comps ih =>
      intro j
      rw [List.foldl_cons, ih, rowEntry_jacSubs]
      simp only [Spec.busDerivative, List.map_cons, List.sum_cons]
      ring
  rw [key]
  have : Spec.rowEntry b.jac c = 0 := by
    unfold Spec.rowEntry
    cases hg : Dict.get? b.jac c with
    | none => rfl
    | some x => exact hz _ (Dict.mem_of_get? hg)
  rw [this]; ring

theorem jacSub_keys (j : Dict ℕ K) (c : ℕ) (x : K) (k : ℕ) :
    k ∈ (jacSub j c x).keys ↔ k ∈ j.keys ∨ k = c := by
  rw [← Dict.get?_isSome_iff, jacSub, Dict.get?_set, ← Dict.get?_isSome_iff]
  by_cases h : k = c <;> simp [h]

theorem jacSubs_keys (l : List (ℕ × K)) (j : Dict ℕ K) (k : ℕ) :
    k ∈ (jacSubs j l).keys ↔ k ∈ j.keys ∨ k ∈ l.map Prod.fst := by
  induction l generalizing j with
  | nil => simp [jacSubs]
  | cons e l ih =>
    rw [jacSubs, List.foldl_cons]
    change k ∈ (jacSubs _ _).keys ↔ _
    rw [ih, jacSub_keys]
    simp only [List.map_cons, List.mem_cons]
    tauto

/-- The columns of a bus row: those of earlier calculations and those of the derivatives. -/
theorem solve_keys (b : Bus K) (p : K) (val : ℕ → BusRow K → PyRes K) (der : ℕ → List (ℕ × K))
    (r : K) (j : Dict ℕ K) (h : b.solve p val der = .ok (r, j)) (k : ℕ) :
    k ∈ j.keys ↔ k ∈ b.jac.keys ∨ ∃ a ∈ b.comps, k ∈ (der a.1).map Prod.fst := by
  obtain ⟨-, rfl⟩ := (solve_foldlM val der b.comps p b.jac r j).mp h
  have key : ∀ (comps : Dict ℕ (BusRow K)) (j : Dict ℕ K),
      k ∈ (comps.foldl (fun j a => jacSubs j (der a.1)) j).keys
        ↔ k ∈ j.keys ∨ ∃ a ∈ comps, k ∈ (der a.1).map Prod.fst := by
    intro comps
    induction comps with
    | nil => intro j; simp
    | cons a comps ih =>
      intro j
      rw [List.foldl_cons, ih, jacSubs_keys]
      simp only [List.mem_cons, exists_eq_or_imp]
      tauto
  exact key _ _

/-- C32: the equation system gets one row per bus with specified value, and none for the other
busses; the busses keep their specification and the derivatives are cleared. -/
theorem C32_rows (numVars : ℕ) (val : ℕ → BusRow K → PyRes K) (der : ℕ → List (ℕ × K))
    (bs : List (Bus K)) (eqs : List (BusEq K)) (bs' : List (Bus K))
    (h : solveBusses numVars val der bs = .ok (eqs, bs')) :
    eqs.length = (bs.filter (·.pSet)).length ∧ numBusEq bs = eqs.length ∧
    List.Forall₂ (fun b e => ∃ p vs, b.pVal = some p ∧ Spec.BusValues b.comps val vs ∧
        (e : BusEq K).residual = p - vs.sum) (bs.filter (·.pSet)) eqs ∧
    List.Forall₂ (fun b b' => b'.pVal = b.pVal ∧ b'.pSet = b.pSet ∧ b'.comps = b.comps ∧
        (b.pSet = true → ∀ e ∈ (b' : Bus K).jac, e.2 = 0)) bs bs' := by
  induction bs generalizing eqs bs' with
  | nil =>
    simp only [solveBusses, Except.ok.injEq, Prod.mk.injEq] at h
    obtain ⟨rfl, rfl⟩ := h
    simp [numBusEq]
  | cons b bs ih =>
    unfold solveBusses at h
    by_cases hs : b.pSet = true
    · rw [if_pos hs] at h
      cases hp : b.pVal with
      | none => rw [hp] at h; cases h
      | some p =>
        rw [hp] at h
        simp only at h
        cases hsol : b.solve p val der with
        | error e => rw [hsol] at h; cases h
        | ok rj =>
          obtain ⟨r, j⟩ := rj
          rw [hsol] at h
          simp only at h
          by_cases hk : ∀ e ∈ j, e.1 < numVars
          · rw [if_pos hk] at h
            cases hrec : solveBusses numVars val der bs with
            | error e => rw [hrec] at h; cases h
            | ok out =>
              obtain ⟨eqs0, bs0⟩ := out
              rw [hrec] at h
              cases h
              obtain ⟨h1, -, h2, h3⟩ := ih _ _ hrec
              obtain ⟨vs, hv1, hv2, -⟩ := C32_residual b p val der r j hsol
              refine ⟨?_, ?_, ?_, ?_⟩
              · simp [hs, h1]
              · simp [numBusEq, hs, h1]
              · rw [List.filter_cons_of_pos hs]
                exact List.Forall₂.cons ⟨p, vs, hp, hv1, hv2⟩ h2
              · refine List.Forall₂.cons ⟨hp.symm, rfl, rfl, fun _ e he => ?_⟩ h3
                simp only [Bus.clearJac, List.mem_map] at he
                obtain ⟨_, _, rfl⟩ := he
                rfl
          · rw [if_neg hk] at h; cases h
    · rw [if_neg hs] at h
      cases hrec : solveBusses numVars val der bs with
      | error e => rw [hrec] at h; cases h
      | ok out =>
        obtain ⟨eqs0, bs0⟩ := out
        rw [hrec] at h
        cases h
        obtain ⟨h1, -, h2, h3⟩ := ih _ _ hrec
        refine ⟨?_, ?_, ?_, ?_⟩
        · simp [hs, h1]
        · simp [numBusEq, hs, h1]
        · rw [List.filter_cons_of_neg hs]; exact h2
        · exact List.Forall₂.cons ⟨rfl, rfl, rfl, fun h => absurd h hs⟩ h3

/-- C32: keywords determine the specification, for every sequence of keywords: numbers specify
the value, `None` and nan remove the specification, other keywords leave it alone. -/
theorem C32_set_attr (b b' : Bus K) (kws : List (String × BVal K))
    (hb : b.pSet = true → b.pVal ≠ none) (h : b.setAttr kws = (b', none)) :
    (if b'.pSet then b'.pVal else none)
      = kws.foldl (fun p kv => Spec.specAfter p kv.1 kv.2) (if b.pSet then b.pVal else none) ∧
    b'.comps = b.comps := by
  induction kws generalizing b with
  | nil => simp only [Bus.setAttr, Prod.mk.injEq, and_true] at h; subst h; simp
  | cons kv kws ih =>
    obtain ⟨k, v⟩ := kv
    unfold Bus.setAttr at h
    rw [List.foldl_cons]
    unfold Bus.setKw at h
    by_cases hP : k = "P"
    · subst hP
      rw [if_pos rfl] at h
      cases v <;> simp only at h
      case num x =>
        have := ih { b with pVal := some x, pSet := true } (by simp) h
        simpa [Spec.specAfter] using this
      case nan =>
        have := ih { b with pSet := false } (by simp) h
        simpa [Spec.specAfter] using this
      case none =>
        have := ih { b with pSet := false } (by simp) h
        simpa [Spec.specAfter] using this
      case bool t =>
        have := ih { b with pVal := some (if t then 1 else 0), pSet := true } (by simp) h
        simpa [Spec.specAfter] using this
      all_goals simp at h
    · rw [if_neg hP] at h
      have hs : ∀ p : Option K, Spec.specAfter p k v = p := by
        intro p
        unfold Spec.specAfter
        rw [if_neg hP]
      simp only [hs]
      by_cases hq : k = "printout"
      · subst hq
        rw [if_pos rfl] at h
        cases v <;> simp only at h
        case bool t => exact ih { b with printout := t } hb h
        all_goals simp at h
      · rw [if_neg hq] at h
        simp at h

theorem processRow_ok (design : Bool) (compVal : ℕ → Option String → PyRes K) (i : ℕ) (r : BusRow K)
    (res : BusResult K) (r' : BusRow K) (h : processRow design compVal i r = .ok (res, r')) :
    compVal i r.param = .ok res.comp ∧ calcBusValue res.comp r = .ok res.bus ∧
    calcBusEfficiency res.comp r = .ok res.eff ∧ r'.param = r.param ∧ r'.char = r.char ∧
    r'.base = r.base ∧ r'.pref = res.design ∧
    (design = true → res.design = some (designValue r.base res.comp res.bus)) ∧
    (design = false → res.design = r.pref) := by
  unfold processRow at h
  cases hc : compVal i r.param with
  | error e => rw [hc] at h; cases h
  | ok c =>
    rw [hc] at h
    simp only at h
    cases hv : calcBusValue c r with
    | error e => rw [hv] at h; cases h
    | ok v =>
      rw [hv] at h
      simp only at h
      cases he : calcBusEfficiency c r with
      | error e => rw [he] at h; cases h
      | ok eff =>
        rw [he] at h
        cases design
        · cases h; exact ⟨rfl, hv, he, rfl, rfl, rfl, rfl, by simp, by simp⟩
        · cases h; exact ⟨rfl, hv, he, rfl, rfl, rfl, rfl, by simp, by simp⟩

/-- C32: the value reported for a bus is the sum of the reported bus values of its components,
which are the bus values the equation uses. The specification itself is replaced by this sum. -/
theorem C32_reported (design : Bool) (compVal : ℕ → Option String → PyRes K) (b b' : Bus K)
    (res : List (BusResult K)) (h : processBus design compVal b = .ok (res, b')) :
    Spec.BusValues b.comps (fun i r => do let c ← compVal i r.param; calcBusValue c r)
      (res.map (·.bus)) ∧
    b'.pVal = some ((res.map (·.bus)).sum) ∧ b'.pSet = b.pSet := by
  unfold processBus at h
  cases hm : processRows design compVal b.comps with
  | error e => rw [hm] at h; cases h
  | ok rows =>
    rw [hm] at h
    cases h
    refine ⟨?_, rfl, rfl⟩
    generalize b.comps = comps at hm
    induction comps generalizing rows with
    | nil => cases hm; exact List.Forall₂.nil
    | cons c comps ih =>
      unfold processRows at hm
      cases hr : processRow design compVal c.1 c.2 with
      | error e => rw [hr] at hm; cases hm
      | ok x =>
        rw [hr] at hm
        simp only at hm
        cases hrec : processRows design compVal comps with
        | error e => rw [hrec] at hm; cases hm
        | ok xs =>
          rw [hrec] at hm
          cases hm
          obtain ⟨h1, h2, -⟩ := processRow_ok _ _ _ _ x.1 x.2 hr
          refine List.Forall₂.cons ?_ (ih _ hrec)
          change (do let c' ← compVal c.1 c.2.param; calcBusValue c' c.2) = _
          rw [h1]; exact h2

/-- C32 does not extend to the specification: a calculation that ends at the iteration limit
replaces the specified value of the bus by the sum reached so far. -/
theorem C32_specification_replaced :
    ∃ (b b' : Bus ℚ) (res : List (BusResult ℚ)) (compVal : ℕ → Option String → PyRes ℚ),
      b.pSet = true ∧ b.pVal = some 1000 ∧ processBus true compVal b = .ok (res, b') ∧
      b'.pSet = true ∧ b'.pVal = some 900 := by
  refine ⟨{ (Bus.new (K := ℚ)) with pVal := some 1000, pSet := true, comps := [(0, BusRow.default)] },
    { (Bus.new (K := ℚ)) with pVal := some 900, pSet := true, comps :=
        [(0, { (BusRow.default : BusRow ℚ) with pref := some 900 })] },
    [⟨900, 900, 1, some 900⟩], fun _ _ => .ok 900, rfl, rfl, ?_, rfl, rfl⟩
  have h : calcBusValue (900 : ℚ) BusRow.default = .ok 900 := by decide +kernel
  have h' : calcBusEfficiency (900 : ℚ) BusRow.default = .ok 1 := by decide +kernel
  have hrow : processRow true (fun _ _ => .ok 900) 0 (BusRow.default : BusRow ℚ)
      = .ok (⟨900, 900, 1, some 900⟩, { (BusRow.default : BusRow ℚ) with pref := some 900 }) := by
    simp only [processRow, h, h']; rfl
  simp [processBus, processRows, hrow]

/-! ## C52: rows of busses after a change of the specifications -/

/-- C52 holds for the first calculation: if all derivatives are with respect to variables of the
system, there is no index error. Full statement: for every calculation; false, see
`C52_stale_columns`. -/
theorem C52_first_calculation_partial (numVars : ℕ) (val : ℕ → BusRow K → PyRes K)
    (der : ℕ → List (ℕ × K)) (bs : List (Bus K)) (hj : ∀ b ∈ bs, b.jac = [])
    (hd : ∀ b ∈ bs, ∀ a ∈ b.comps, ∀ e ∈ der a.1, e.1 < numVars)
    (hv : ∀ b ∈ bs, ∀ a ∈ b.comps, val a.1 a.2 ≠ .error .indexError) :
    solveBusses numVars val der bs ≠ .error .indexError := by
  induction bs with
  | nil => simp [solveBusses]
  | cons b bs ih =>
    have ih' := ih (fun b h => hj b (by simp [h])) (fun b h => hd b (by simp [h]))
      (fun b h => hv b (by simp [h]))
    unfold solveBusses
    by_cases hs : b.pSet = true
    · rw [if_pos hs]
      cases hp : b.pVal with
      | none => simp
      | some p =>
        simp only
        cases hsol : b.solve p val der with
        | error e =>
          simp only
          intro he
          have he' : e = .indexError := by cases he; rfl
          subst he'
          have key : ∀ (comps : Dict ℕ (BusRow K)) (a : K × Dict ℕ K),
              (∀ a ∈ comps, val a.1 a.2 ≠ .error .indexError) →
              comps.foldlM (busStep val der) a ≠ .error .indexError := by
            intro comps
            induction comps with
            | nil => intro a _ h; cases h
            | cons c comps ih =>
              intro a hc
              rw [List.foldlM_cons]
              cases hvc : val c.1 c.2 with
              | error e =>
                intro h
                rw [busStep, hvc] at h
                have : e = .indexError := by cases h; rfl
                subst this
                exact hc c (by simp) hvc
              | ok v =>
                rw [busStep, hvc]
                exact ih _ (fun a ha => hc a (by simp [ha]))
          exact key _ _ (hv b (by simp)) hsol
        | ok rj =>
          obtain ⟨r, j⟩ := rj
          simp only
          have hk : ∀ e ∈ j, e.1 < numVars := by
            intro e he
            have : e.1 ∈ Dict.keys j := List.mem_map.mpr ⟨e, he, rfl⟩
            rw [solve_keys b p val der r j hsol] at this
            rcases this with h | ⟨a, ha, h⟩
            · rw [hj b (by simp)] at h; simp [Dict.keys] at h
            · obtain ⟨e', he', heq⟩ := List.mem_map.mp h
              rw [← heq]
              exact hd b (by simp) a ha e' he'
          rw [if_pos hk]
          cases hrec : solveBusses numVars val der bs with
          | error e =>
            intro h
            have : e = .indexError := by cases h; rfl
            subst this
            exact ih' hrec
          | ok out => intro h; cases h
    · rw [if_neg hs]
      cases hrec : solveBusses numVars val der bs with
      | error e =>
        intro h
        have : e = .indexError := by cases h; rfl
        subst this
        exact ih' hrec
      | ok out => intro h; cases h

/-- C52: the columns of the derivatives of a calculation are kept by the bus. -/
theorem C52_columns_kept (numVars : ℕ) (val : ℕ → BusRow K → PyRes K) (der : ℕ → List (ℕ × K))
    (b : Bus K) (bs : List (Bus K)) (eqs : List (BusEq K)) (b' : Bus K) (bs' : List (Bus K))
    (hs : b.pSet = true)
    (h : solveBusses numVars val der (b :: bs) = .ok (eqs, b' :: bs')) (k : ℕ) :
    k ∈ b'.jac.keys ↔ k ∈ b.jac.keys ∨ ∃ a ∈ b.comps, k ∈ (der a.1).map Prod.fst := by
  unfold solveBusses at h
  rw [if_pos hs] at h
  cases hp : b.pVal with
  | none => rw [hp] at h; cases h
  | some p =>
    rw [hp] at h
    simp only at h
    cases hsol : b.solve p val der with
    | error e => rw [hsol] at h; cases h
    | ok rj =>
      obtain ⟨r, j⟩ := rj
      rw [hsol] at h
      simp only at h
      by_cases hk : ∀ e ∈ j, e.1 < numVars
      · rw [if_pos hk] at h
        cases hrec : solveBusses numVars val der bs with
        | error e => rw [hrec] at h; cases h
        | ok out =>
          rw [hrec] at h
          cases h
          rw [← solve_keys b p val der r j hsol]
          simp [Bus.clearJac, Dict.keys, Function.comp_def]
      · rw [if_neg hk] at h; cases h

/-- C52 is false: a later calculation with fewer variables fails with `IndexError` if an earlier
calculation had a derivative of the bus in a column that no longer exists. -/
theorem C52_stale_columns (numVars : ℕ) (val : ℕ → BusRow K → PyRes K) (der : ℕ → List (ℕ × K))
    (b : Bus K) (bs : List (Bus K)) (p : K) (hs : b.pSet = true) (hp : b.pVal = some p)
    (k : ℕ) (hk : k ∈ b.jac.keys) (hn : numVars ≤ k)
    (vs : List K) (hv : Spec.BusValues b.comps val vs) :
    solveBusses numVars val der (b :: bs) = .error .indexError := by
  unfold solveBusses
  rw [if_pos hs, hp]
  have hsol := (solve_foldlM val der b.comps p b.jac (p - vs.sum) _).mpr ⟨⟨vs, hv, rfl⟩, rfl⟩
  change b.solve p val der = _ at hsol
  have hkeys := (solve_keys b p val der _ _ hsol k).mpr (Or.inl hk)
  simp only
  rw [hsol]
  have hnot : ¬ (∀ e ∈ (b.comps.foldl (fun j c => jacSubs j (der c.1))
      b.jac), e.1 < numVars) := by
    intro h
    obtain ⟨e, he, rfl⟩ := List.mem_map.mp hkeys
    exact absurd (h e he) (by omega)
  simp only
  rw [if_neg hnot]

/-! ## C33: conversion factors -/

/-- C33 (base 'component'): bus value = component value times efficiency, the efficiency is the
value of the characteristic at the ratio of component value and reference value. -/
theorem C33_component (compVal : K) (r : BusRow K) (hb : r.base = .component) (v : K) :
    calcBusValue compVal r = .ok v ↔
      ∃ eff, calcBusEfficiency compVal r = .ok eff ∧
        r.char.evaluate (Spec.componentLoad compVal r.pref) = .ok eff ∧ v = compVal * eff := by
  have he : calcBusExpr compVal r = .ok (Spec.componentLoad compVal r.pref) := by
    unfold calcBusExpr Spec.componentLoad
    cases r.pref with
    | none => rfl
    | some ref =>
      simp only [hb]
      split <;> rfl
  unfold calcBusValue calcBusEfficiency
  rw [he, hb]
  simp only [bind, Except.bind]
  cases r.char.evaluate (Spec.componentLoad compVal r.pref) with
  | error e => simp
  | ok c => simp [eq_comm]

/-- C33 (base 'bus'): component value = bus value times efficiency. -/
theorem C33_bus (compVal : K) (r : BusRow K) (hb : r.base = .bus) (v : K)
    (h : calcBusValue compVal r = .ok v) :
    ∃ eff, calcBusEfficiency compVal r = .ok eff ∧ eff ≠ 0 ∧ compVal = v * eff := by
  unfold calcBusValue at h
  unfold calcBusEfficiency
  cases he : calcBusExpr compVal r with
  | error e => rw [he] at h; cases h
  | ok e =>
    rw [he] at h
    simp only [bind, Except.bind] at h ⊢
    cases hc : r.char.evaluate e with
    | error e' => rw [hc] at h; cases h
    | ok c =>
      rw [hc, hb] at h
      simp only [pyDiv] at h
      by_cases hz : c = 0
      · rw [if_pos hz] at h; cases h
      · rw [if_neg hz] at h
        cases h
        exact ⟨c, rfl, hz, by field_simp⟩

/-- C33: when a calculation in design mode begins, reference values of former calculations are forgotten: every
component is at full load, whatever its value; parameter, characteristic and base stay. -/
theorem C33_design_load (b : Bus K) :
    List.Forall₂ (fun c c' => c'.1 = c.1 ∧ c'.2.param = c.2.param ∧ c'.2.char = c.2.char ∧ c'.2.base = c.2.base ∧
      ∀ compVal : K, calcBusExpr compVal c'.2 = .ok 1) b.comps b.resetRef.comps := by
  simp only [Bus.resetRef, List.forall₂_map_right_iff]
  exact List.forall₂_same.mpr (fun c _ => ⟨rfl, rfl, rfl, rfl, fun _ => rfl⟩)

example : ({ (Bus.new (K := ℚ)) with comps := [(3, { BusRow.default with pref := some 900 })] } : Bus ℚ).resetRef.comps.length = 1 ∧
    calcBusExpr (450 : ℚ) { BusRow.default with pref := some 900 } = .ok (1 / 2) := by decide +kernel


/-- C33: a numeric characteristic is a constant factor at every load. -/
theorem C33_numeric (v x : K) : (constChar v).evaluate x = .ok v := by
  have h3 : (3 : K) ≠ 0 := by norm_num
  unfold CharLine.evaluate constChar searchsorted
  by_cases h0 : (0 : K) < x
  · by_cases h1 : (3 : K) < x
    · simp [h0, h1, pyGet]
    · simp [h0, h1, interpAt, pyGet, bind, Except.bind]
  · simp [h0, pyGet]

/-- C33: with a numeric characteristic the base 'bus' gives the component value divided by the
number, for every reference value and every component value in the range of the iteration. -/
theorem C33_bus_numeric (compVal v : K) (r : BusRow K) (hb : r.base = .bus)
    (hc : r.char = constChar v) (hv : v ≠ 0)
    (hr : -1000000000000000 ≤ compVal / v ∧ compVal / v ≤ 1000000000000000) :
    calcBusValue compVal r = .ok (compVal / v) ∧ calcBusEfficiency compVal r = .ok v ∧
    (∀ ref, r.pref = some ref → ref ≠ 0 →
      calcBusExpr compVal r = .ok (compVal / v / ref)) := by
  have hnew : ∀ ref : K, ref ≠ 0 → ∃ out, newton (busNewton compVal r.char ref) busPasses
      = some (.ok out) ∧ out.x = compVal / v := by
    intro ref href
    have hf : ∀ x, (busNewton compVal r.char ref).f x = .ok (1 * x + -(compVal / v)) := by
      intro x
      simp only [busNewton, busCharEval, pyDiv, if_neg href, hc, bind, Except.bind, C33_numeric,
        if_neg hv]
      congr 1; ring
    have hdf : ∀ x, (busNewton compVal r.char ref).df x = .ok 1 := by
      intro x
      simp only [busNewton, busCharDeriv, pyDiv, if_neg href, hc, bind, Except.bind, C33_numeric,
        if_neg hv]
      congr 1; ring
    obtain ⟨out, h1, h2⟩ := C08_newton_affine (busNewton compVal r.char ref) 1 (-(compVal / v))
      (compVal / v) one_ne_zero hf hdf (by simp [busNewton]) hr (by simp [busNewton])
      (by simp [busNewton]) (by simp [busNewton])
    refine ⟨out, ?_, h2⟩
    obtain ⟨o, ho, -⟩ := C08_newton_terminates (busNewton compVal r.char ref)
    rw [ho busPasses (by decide), ← ho 13 (le_refl _), h1]
  have hexpr : ∃ e, calcBusExpr compVal r = .ok e := by
    unfold calcBusExpr
    cases hp : r.pref with
    | none => exact ⟨_, rfl⟩
    | some ref =>
      simp only [hb]
      by_cases href : ref = 0
      · exact ⟨_, by rw [if_pos href]⟩
      · obtain ⟨out, h1, -⟩ := hnew ref href
        exact ⟨_, by rw [if_neg href, h1]⟩
  obtain ⟨e, he⟩ := hexpr
  refine ⟨?_, ?_, ?_⟩
  · unfold calcBusValue
    rw [he, hb]
    simp only [bind, Except.bind, hc, C33_numeric, pyDiv, if_neg hv]
  · unfold calcBusEfficiency
    rw [he]
    simp only [bind, Except.bind, hc, C33_numeric]
  · intro ref hp href
    unfold calcBusExpr
    obtain ⟨out, h1, h2⟩ := hnew ref href
    simp only [hp, hb, if_neg href, h1, h2]

/-- C33 (base 'bus', load ratio): if the iteration for the bus value stops before its limit, the
bus value it was checked at solves the implicit equation within the tolerance. Full statement:
the efficiency is that at the ratio of the bus value and the reference value; false in
general, see `C33_bus_load_false`. -/
theorem C33_bus_load_partial (compVal ref : K) (char : CharLine K) (out : NewtonOut K)
    (h : newton (busNewton compVal char ref) busPasses = some (.ok out)) (hl : out.limit = false) :
    ∃ eff, char.evaluate (out.xLast / ref) = .ok eff ∧ ref ≠ 0 ∧ eff ≠ 0 ∧
      |out.xLast - compVal / eff| < 1 / 1000000000000 := by
  obtain ⟨⟨fx, h1, h2⟩, h3⟩ := C08_newton_tolerance _ _ _ h hl
  simp only [busNewton, busCharEval, pyDiv] at h1
  by_cases href : ref = 0
  · rw [if_pos href] at h1; cases h1
  rw [if_neg href] at h1
  simp only [bind, Except.bind] at h1
  cases hc : char.evaluate (out.xLast / ref) with
  | error e => rw [hc] at h1; cases h1
  | ok c =>
    rw [hc] at h1
    simp only at h1
    by_cases hz : c = 0
    · rw [if_pos hz] at h1; cases h1
    · rw [if_neg hz] at h1
      cases h1
      refine ⟨c, rfl, href, hz, ?_⟩
      simp [Spec.newtonConverged, busNewton] at h3
      rw [h2] at h3
      simp only [busNewton, zero_sub, abs_neg] at h3
      simpa using h3

/-- A characteristic with a step shortly above the reference load. -/
def stepRow : BusRow ℚ :=
  ⟨none, some 1000000, ⟨[0, 1 + 1 / 1000000, 1 + 2 / 1000000, 3], [1, 1, 2, 2], false⟩, .bus⟩

/-- C33 is false for the load ratio of base 'bus': here the load at which the efficiency is
evaluated differs from the ratio of the reported bus value and the reference value (by 15 W
of 1 MW), although the implicit equation has a solution. The derivative used by the iteration lacks
the component value and the iteration ends at its limit. -/
theorem C33_bus_load_false :
    calcBusValue 2000000 stepRow = .ok (1000000 : ℚ) ∧
    calcBusExpr 2000000 stepRow = .ok (65537 / 65536 : ℚ) ∧
    (65537 / 65536 : ℚ) ≠ 1000000 / 1000000 := by
  decide +kernel

/-! ## C33: the design point -/

/-- C33: in an off-design calculation at the state of the design calculation, with the reference
values stored by it, the bus value and the efficiency are those of the design calculation. -/
theorem C33_design_point (compVal : ℕ → Option String → PyRes K) (i : ℕ) (r r' : BusRow K)
    (res : BusResult K) (hr : r.pref = none)
    (h : processRow true compVal i r = .ok (res, r'))
    (hd : r.base = .bus → res.bus ≠ 0 → |res.bus| ≤ 1000000000000000 ∧
      ∃ d, busCharDeriv r.char res.bus res.bus = .ok d ∧ d ≠ 0) :
    calcBusValue res.comp r' = .ok res.bus ∧ calcBusEfficiency res.comp r' = .ok res.eff := by
  obtain ⟨h1, h2, h3, h4, h5, h6, h7, h8, -⟩ := processRow_ok _ _ _ _ _ _ h
  have h8 := h8 rfl
  have hex0 : calcBusExpr res.comp r = .ok 1 := by simp [calcBusExpr, hr]
  -- the load ratio is one again
  have hex : calcBusExpr res.comp r' = .ok 1 := by
    unfold calcBusExpr
    rw [h7, h6]
    cases hb : r.base with
    | component =>
      have hd8 : res.design = some res.comp := by rw [h8, hb]; rfl
      rw [hd8]
      simp only
      by_cases hz : res.comp = 0
      · rw [if_pos hz]
      · rw [if_neg hz, div_self hz, abs_one]
    | bus =>
      have hd8 : res.design = some res.bus := by rw [h8, hb]; rfl
      rw [hd8]
      simp only
      by_cases hz : res.bus = 0
      · rw [if_pos hz]
      · rw [if_neg hz]
        obtain ⟨hr, d, hd1, hd2⟩ := hd hb hz
        have hf : (busNewton res.comp r'.char res.bus).f res.bus = .ok 0 := by
          have hv := h2
          unfold calcBusValue at hv
          rw [hex0, hb] at hv
          simp only [bind, Except.bind] at hv
          simp only [busNewton, busCharEval, pyDiv, if_neg hz, div_self hz, bind, Except.bind, h5]
          cases hc : r.char.evaluate 1 with
          | error e => rw [hc] at hv; cases hv
          | ok c =>
            rw [hc] at hv
            simp only [pyDiv] at hv ⊢
            by_cases hcz : c = 0
            · rw [if_pos hcz] at hv; cases hv
            · rw [if_neg hcz] at hv ⊢
              have hv' : res.comp / c = res.bus := Except.ok.inj hv
              simp [hv']
        have hdf : (busNewton res.comp r'.char res.bus).df res.bus = .ok d := by
          simp only [busNewton, h5]; exact hd1
        have hn : newton (busNewton res.comp r'.char res.bus) busPasses
            = some (.ok ⟨res.bus, 1, 0, res.bus, false⟩) := by
          unfold newton busPasses
          have hv0 : (busNewton res.comp r'.char res.bus).val0 = res.bus := rfl
          have ht : (busNewton res.comp r'.char res.bus).target = 0 := rfl
          have hcl : clamp (busNewton res.comp r'.char res.bus).valmin
              (busNewton res.comp r'.char res.bus).valmax res.bus = res.bus := by
            rw [abs_le] at hr
            have e1 : ¬ res.bus < (busNewton res.comp r'.char res.bus).valmin := not_lt.mpr hr.1
            have e2 : ¬ res.bus > (busNewton res.comp r'.char res.bus).valmax := not_lt.mpr hr.2
            unfold clamp
            simp only [if_neg e1, if_neg e2]
          have hcont : (busNewton res.comp r'.char res.bus).continue 0 = false := by
            simp [NewtonArgs.continue, busNewton]
          rw [newtonLoop, hv0, hf, hdf]
          simp only [hd2, if_false, ht, sub_self, zero_div, zero_mul, add_zero, hcl, hcont,
            nextMaxIter]
          simp [busNewton]
        rw [hn]
        simp only [div_self hz]
  constructor
  · rw [← h2]
    unfold calcBusValue
    rw [hex, hex0, h5, h6]
  · rw [← h3]
    unfold calcBusEfficiency
    rw [hex, hex0, h5]

/-! ## C33: adding components -/

/-- C33: adding a component changes the entry of this component only, and the entry is that of the
dictionary applied to the defaults (no earlier entry of the component survives). -/
theorem C33_add_comps (b b' : Bus K) (d : List (String × BVal K)) (i : ℕ)
    (hi : Dict.get? d "comp" = some (.comp i)) (h : b.addComps [some d] = (b', none)) :
    (∃ r, Dict.get? b'.comps i = some r ∧ BusRow.fields BusRow.default d = (r, none)) ∧
    (∀ k, k ≠ i → Dict.get? b'.comps k = Dict.get? b.comps k) := by
  unfold Bus.addComps Bus.addOne at h
  simp only [hi] at h
  cases hf : (BusRow.fields BusRow.default d).2 with
  | some e => rw [hf] at h; simp at h
  | none =>
    rw [hf] at h
    simp only [Bus.addComps, Prod.mk.injEq, and_true] at h
    subst h
    refine ⟨⟨_, by rw [Dict.get?_set, if_pos rfl], ?_⟩, fun k hk => ?_⟩
    · rw [← hf]
    · simp only [Dict.get?_set, if_neg hk]

/-- C33 is not atomic: after a rejected argument the component is on the bus all the same. -/
theorem C33_add_comps_not_atomic (b : Bus K) (i : ℕ) :
    ∃ b', b.addComps [some [("comp", .comp i), ("param", .num 1)]] = (b', some .typeError) ∧
      Dict.get? b'.comps i = some BusRow.default := by
  refine ⟨_, rfl, ?_⟩
  rw [Dict.get?_set, if_pos rfl]
  rfl

/-! ## Examples -/

/-- turbine and generator with efficiency 0.95, pump with motor efficiency 0.9 -/
def exBus : Bus ℚ :=
  { (Bus.new (K := ℚ)) with
    pVal := some (-800), pSet := true,
    comps := [(0, ⟨none, none, constChar (95 / 100), .component⟩),
      (1, ⟨none, some 90, constChar (9 / 10), .bus⟩)] }

/-- values of the components -/
def exCompVal : ℕ → Option String → PyRes ℚ
  | 0, _ => .ok (-1000)
  | _, _ => .ok 90

/-- derivatives: both depend on the variable of column 2 -/
def exDer : ℕ → List (ℕ × ℚ)
  | 0 => [(2, -1), (5, 3)]
  | _ => [(2, 1 / 2)]

def exVal (i : ℕ) (r : BusRow ℚ) : PyRes ℚ :=
  match exCompVal i r.param with
  | .ok c => calcBusValue c r
  | .error e => .error e

theorem exVal_values : Spec.BusValues exBus.comps exVal [-950, 100] := by
  refine List.Forall₂.cons ?_ (List.Forall₂.cons ?_ List.Forall₂.nil) <;> decide +kernel

/- residual: -800 + 950 - 100 = 50 -/
example : exBus.solve (-800) exVal exDer = .ok (50, [(2, 1 / 2), (5, -3)]) := by decide +kernel
example : (solveBusses 6 exVal exDer [exBus]).isOk = true := by decide +kernel
/- the next calculation has five variables only; column 5 belongs to the previous calculation -/
example : ∃ eqs b', solveBusses 6 exVal exDer [exBus] = .ok (eqs, [b']) ∧
    solveBusses 5 exVal (fun _ => [(2, 1)]) [b'] = .error .indexError := by
  have h : exBus.solve (-800) exVal exDer = .ok (50, [(2, 1 / 2), (5, -3)]) := by decide +kernel
  refine ⟨[⟨50, [(2, 1 / 2), (5, -3)]⟩], { exBus with jac := [(2, 0), (5, 0)] }, ?_, ?_⟩
  · have hp : exBus.pSet = true := rfl
    have hq : exBus.pVal = some (-800) := rfl
    rw [solveBusses, if_pos hp]
    simp only [hq, h]
    rfl
  · exact C52_stale_columns 5 exVal _ _ [] (-800) rfl rfl 5 (by decide) (by decide) _ exVal_values
example : ∀ b ∈ [exBus], b.jac = [] := by decide +kernel
/- characteristic with part load behaviour, reference value 100 -/
def exPartLoad : BusRow ℚ := ⟨none, some 100, ⟨[0, 1, 2], [1 / 2, 1, 1], false⟩, .component⟩
example : calcBusValue 50 exPartLoad = .ok (75 / 2) := by decide +kernel
example : calcBusEfficiency 50 exPartLoad = .ok (3 / 4) := by decide +kernel
example : (calcBusValue 50 { exPartLoad with base := .bus }).isOk = true := by decide +kernel
example : -1000000000000000 ≤ (90 : ℚ) / (9 / 10) ∧ (90 : ℚ) / (9 / 10) ≤ 1000000000000000 := by
  norm_num
/- design calculation of the second component: the reference value becomes 100 -/
example : (processRow true exCompVal 1 ⟨none, none, constChar (9 / 10), .bus⟩).toOption.map
    (fun x => (x.1.bus, x.2.pref)) = some (100, some 100) := by decide +kernel
example : busCharDeriv (constChar (9 / 10 : ℚ)) 100 100 = .ok 1 := by decide +kernel
example : (Bus.new (K := ℚ)).setAttr [("P", .num 5), ("printout", .bool false), ("P", .none)]
    = ({ (Bus.new (K := ℚ)) with pVal := some 5, printout := false }, none) := rfl
example : Dict.get? [("comp", BVal.comp (K := ℚ) 3), ("base", .str "bus")] "comp"
    = some (.comp 3) := rfl

end Tespy
