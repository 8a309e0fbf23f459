import Mathlib.Algebra.BigOperators.Group.List.Basic
import Mathlib.Algebra.Order.Field.Rat
import Mathlib.Tactic.Ring
import Verif.Model.ParamTables
import Verif.Props.CompAttr
import Verif.Props.EqCount
/-
C104: every parameter specified for a component takes part in the calculation.
-/
namespace Tespy
variable {K : Type} [Zero K] [DecidableEq K]

/-! ### specification -/

/-- Equations a component adds to the problem minus variables it adds. -/
def Spec.netEqs (cls : CompClass) (cs : List ℕ) (c : Comp K) : ℤ :=
  ((cls.setup cs c).numEq : ℤ) - (cls.setup cs c).vars.length

/-- the parameter is specified when the set-up begins, by the user or by the component -/
def Spec.given (cls : CompClass) (c : Comp K) (p : String) : Bool := (cls.flags c p).1

/-- Equations which become active when `x` is specified in addition: its own one, and those of the groups of parameters `x`
completes. -/
def Spec.gain (tab : List PEntry) (given : String → Bool) (x : String) : ℕ :=
  (tab.map (fun e => if e.hasFunc = true ∧
    (if e.kind = .gcp then x ∈ e.elements ∧ ∀ y ∈ e.elements, y ≠ x → given y = true else e.name = x)
    then e.numEq else 0)).sum

/-- Settings of components: they change no number of equations. -/
def Spec.settings : List (CompClass × String) :=
  [(.subsystemInterface, "num_inter"), (.splitter, "num_out"), (.merge, "num_in"), (.separator, "num_out"),
    (.pipe, "dissipative"), (.simpleHeatExchanger, "dissipative"), (.solarCollector, "dissipative"),
    (.parabolicTrough, "dissipative"), (.combustionEngine, "eta_mech"), (.combustionEngine, "T_v_inner")]

/-- Properties of components which appear in no equation: results, and heat transfer coefficients and area of the moving boundary
heat exchanger. -/
def Spec.unused : List (CompClass × String) :=
  [(.cycleCloser, "mass_deviation"), (.cycleCloser, "fluid_deviation"),
    (.heatExchanger, "td_log"), (.condenser, "td_log"), (.desuperheater, "td_log"), (.movingBoundaryHeatExchanger, "td_log"),
    (.movingBoundaryHeatExchanger, "U_gas_gas"), (.movingBoundaryHeatExchanger, "U_gas_twophase"),
    (.movingBoundaryHeatExchanger, "U_gas_liquid"), (.movingBoundaryHeatExchanger, "U_liquid_gas"),
    (.movingBoundaryHeatExchanger, "U_liquid_twophase"), (.movingBoundaryHeatExchanger, "U_liquid_liquid"),
    (.movingBoundaryHeatExchanger, "U_twophase_gas"), (.movingBoundaryHeatExchanger, "U_twophase_twophase"),
    (.movingBoundaryHeatExchanger, "U_twophase_liquid"), (.movingBoundaryHeatExchanger, "A"),
    (.solarCollector, "Q_loss"), (.parabolicTrough, "Q_loss"), (.diabaticCombustionChamber, "Q_loss")]

/-! ### the tables -/

/-- all component classes -/
def Spec.classes : List CompClass :=
  [.turbomachine, .pump, .compressor, .turbine, .steamTurbine, .subsystemInterface, .sink, .source, .cycleCloser, .pipe, .valve,
    .splitter, .merge, .separator, .dropletSeparator, .drum, .heatExchanger, .condenser, .desuperheater,
    .movingBoundaryHeatExchanger, .simpleHeatExchanger, .solarCollector, .parabolicTrough, .combustionChamber,
    .diabaticCombustionChamber, .combustionEngine, .fuelCell, .waterElectrolyzer]

theorem classes_all (cls : CompClass) : cls ∈ Spec.classes := by cases cls <;> decide

/-- the conditions on the tables used below -/
def tabOk (tab : List PEntry) : Bool :=
  (tab.map (·.name)).Nodup &&
  tab.all (fun e => e.kind ≠ .gcp || e.elements.all (fun x =>
    tab.any (fun q => q.name = x) && tab.all (fun q => q.name ≠ x || q.kind ≠ .gcp)))

theorem tables_ok (cls : CompClass) : tabOk cls.params = true := by
  have : Spec.classes.all (fun cls => tabOk cls.params) = true := by decide +kernel
  exact List.all_eq_true.mp this cls (classes_all cls)

theorem tab_nodup (cls : CompClass) : (cls.params.map (·.name)).Nodup := by
  have := tables_ok cls
  simp only [tabOk, Bool.and_eq_true, decide_eq_true_eq] at this
  exact this.1

theorem tab_elements (cls : CompClass) (e : PEntry) (he : e ∈ cls.params) (hk : e.kind = .gcp) (x : String)
    (hx : x ∈ e.elements) : (∃ q ∈ cls.params, q.name = x) ∧ ∀ q ∈ cls.params, q.name = x → q.kind ≠ .gcp := by
  have := tables_ok cls
  simp only [tabOk, Bool.and_eq_true, decide_eq_true_eq, List.all_eq_true, Bool.or_eq_true, ne_eq, decide_not,
    Bool.not_eq_true', decide_eq_false_iff_not, List.any_eq_true] at this
  rcases this.2 e he with h | h
  · exact absurd hk h
  · obtain ⟨h1, h2⟩ := h x hx
    refine ⟨h1, fun q hq hn => ?_⟩
    rcases h2 q hq with h | h
    · exact absurd hn h
    · exact h

theorem tabParams_wf (cls : CompClass) (f : String → Bool × Bool) : Spec.WellFormed (tabParams cls.params f) := by
  refine ⟨?_, ?_⟩
  · rw [tabParams, List.map_map]; exact tab_nodup cls
  · intro p hp hk e he q hq hn
    simp only [tabParams, List.mem_map] at hp hq
    obtain ⟨a, ha, rfl⟩ := hp
    obtain ⟨b, hb, rfl⟩ := hq
    exact (tab_elements cls a ha hk e he).2 b hb hn

/-- equations of the parameters, from the table -/
theorem paramEqs_tab (cls : CompClass) (f : String → Bool × Bool) :
    Spec.paramEqs (tabParams cls.params f) = (cls.params.map (fun e => if e.hasFunc = true ∧
      (if e.kind = .gcp then ∀ y ∈ e.elements, (f y).1 = true else (f e.name).1 = true) then e.numEq else 0)).sum := by
  unfold Spec.paramEqs
  rw [tabParams, List.map_map]
  congr 1
  apply List.map_congr_left
  intro e he
  simp only [Function.comp]
  have : Spec.Active (tabParams cls.params f) ⟨e.name, e.kind, (f e.name).1, (f e.name).2, e.elements, e.hasFunc, e.numEq⟩ ↔
      (if e.kind = .gcp then ∀ y ∈ e.elements, (f y).1 = true else (f e.name).1 = true) := by
    unfold Spec.Active
    by_cases hk : e.kind = .gcp
    · simp only [hk, if_true]
      constructor
      · intro h y hy
        obtain ⟨q, hq, hn, hs⟩ := h y hy
        simp only [tabParams, List.mem_map] at hq
        obtain ⟨a, _, rfl⟩ := hq
        simp only at hn hs
        rw [← hn]; exact hs
      · intro h y hy
        obtain ⟨a, ha, rfl⟩ := (tab_elements cls e he hk y hy).1
        exact ⟨_, List.mem_map.mpr ⟨a, ha, rfl⟩, rfl, h _ hy⟩
    · simp only [hk, if_false]
  have hw := this
  unfold tabParams at hw
  have hw2 := (and_congr_left' (c := e.hasFunc = true) hw).trans and_comm
  by_cases h : e.hasFunc = true ∧
      (if e.kind = .gcp then ∀ y ∈ e.elements, (f y).1 = true else (f e.name).1 = true)
  · rw [if_pos h, if_pos (hw2.mpr h)]
  · rw [if_neg h, if_neg (fun h' => h (hw2.mp h'))]

theorem setup_numEq (cls : CompClass) (cs : List ℕ) (c : Comp K) :
    (cls.setup cs c).numEq = cs.sum + (cls.params.map (fun e => if e.hasFunc = true ∧
      (if e.kind = .gcp then ∀ y ∈ e.elements, (cls.flags c y).1 = true else (cls.flags c e.name).1 = true)
        then e.numEq else 0)).sum := by
  rw [CompClass.setup, C30_announced cs _ (tabParams_wf cls _), paramEqs_tab]

theorem setup_vars (cls : CompClass) (cs : List ℕ) (c : Comp K) :
    (cls.setup cs c).vars.length =
      (cls.params.map (fun e => if e.kind = .cp ∧ (cls.flags c e.name).2 = true then 1 else 0)).sum := by
  rw [CompClass.setup, preprocess_eq cs _ (tabParams_wf cls _)]
  simp only [List.length_map]
  generalize cls.params = tab
  unfold tabParams
  induction tab with
  | nil => rfl
  | cons e tab ih =>
    simp only [List.map_cons, List.filter_cons, List.sum_cons]
    rw [← ih]
    by_cases h : e.kind = .cp ∧ (cls.flags c e.name).2 = true
    · simp [h]; omega
    · rw [if_neg h, if_neg (by simpa using h)]; simp

/-- changing the flags of one parameter which was not given -/
theorem eqs_gain (tab : List PEntry) (f f' : String → Bool) (x : String) (hx : f x = false) (hx' : f' x = true)
    (hf : ∀ y, y ≠ x → f' y = f y) :
    (tab.map (fun e => if e.hasFunc = true ∧
      (if e.kind = .gcp then ∀ y ∈ e.elements, f' y = true else f' e.name = true) then e.numEq else 0)).sum =
    (tab.map (fun e => if e.hasFunc = true ∧
      (if e.kind = .gcp then ∀ y ∈ e.elements, f y = true else f e.name = true) then e.numEq else 0)).sum +
    Spec.gain tab f x := by
  induction tab with
  | nil => rfl
  | cons e tab ih =>
    have hg : Spec.gain (e :: tab) f x = (if e.hasFunc = true ∧
        (if e.kind = .gcp then x ∈ e.elements ∧ ∀ y ∈ e.elements, y ≠ x → f y = true else e.name = x)
        then e.numEq else 0) + Spec.gain tab f x := by simp [Spec.gain]
    rw [List.map_cons, List.sum_cons, List.map_cons, List.sum_cons, ih, hg]
    suffices h : (if e.hasFunc = true ∧
        (if e.kind = .gcp then ∀ y ∈ e.elements, f' y = true else f' e.name = true) then e.numEq else 0) =
        (if e.hasFunc = true ∧ (if e.kind = .gcp then ∀ y ∈ e.elements, f y = true else f e.name = true)
          then e.numEq else 0) +
        (if e.hasFunc = true ∧
          (if e.kind = .gcp then x ∈ e.elements ∧ ∀ y ∈ e.elements, y ≠ x → f y = true else e.name = x)
          then e.numEq else 0) by rw [h]; omega
    by_cases hF : e.hasFunc = true
    swap
    · simp [hF]
    by_cases hk : e.kind = .gcp
    · simp only [hF, hk, true_and, if_true]
      by_cases hm : x ∈ e.elements
      · have h1 : ¬ ∀ y ∈ e.elements, f y = true := fun h => by have := h x hm; rw [hx] at this; simp at this
        have h2 : (∀ y ∈ e.elements, f' y = true) ↔ ∀ y ∈ e.elements, y ≠ x → f y = true := by
          constructor
          · intro h y hy hn; rw [← hf y hn]; exact h y hy
          · intro h y hy
            by_cases hyx : y = x
            · rw [hyx]; exact hx'
            · rw [hf y hyx]; exact h y hy hyx
        simp only [h1, if_false, h2, hm, true_and, Nat.zero_add]
      · have h2 : (∀ y ∈ e.elements, f' y = true) ↔ ∀ y ∈ e.elements, f y = true := by
          have : ∀ y ∈ e.elements, f' y = f y := fun y hy => hf y (by rintro rfl; exact hm hy)
          constructor
          · intro h y hy; rw [← this y hy]; exact h y hy
          · intro h y hy; rw [this y hy]; exact h y hy
        simp only [h2, hm, false_and, if_false, Nat.add_zero]
    · simp only [hF, hk, true_and, if_false]
      by_cases hn : e.name = x
      · simp [hn, hx, hx']
      · simp [hn, hf e.name hn]

/-- what `set_attr` with one keyword leaves in the flags of the parameters -/
theorem setKey_flag (c : Comp K) (x a : String) (v : CArg K) (p : String) (hp : p ≠ x) :
    (c.setKey x v).1.flagAttr p a = c.flagAttr p a := by
  unfold Comp.flagAttr
  rw [setKey_param_ne c x p v hp]

theorem setKey_flag_self (c : Comp K) (x a : String) (v : CArg K) (d : Cont K) (hd : c.param x = some d) :
    (c.setKey x v).1.flagAttr x a = ((d.specify v).1.attr a).truthy := by
  unfold Comp.flagAttr Comp.setKey
  rw [hd]; simp

theorem flags_ne (cls : CompClass) (c : Comp K) (x : String) (v : CArg K) (p : String) (hp : p ≠ x) :
    cls.flags (c.setKey x v).1 p = cls.flags c p := by
  unfold CompClass.flags
  simp only [setKey_flag c x _ v p hp]

theorem specify_number (d : Cont K) (v : PyV K) (hk : d.kind = .cp) (hv : Spec.number v) :
    (d.specify (.val v)).1.attr "is_set" = .bool true ∧ (d.specify (.val v)).1.attr "is_var" = .bool false := by
  rcases d with ⟨kind, attr⟩
  subst hk
  cases v <;> simp [Spec.number] at hv <;>
    simp [Cont.specify, PyV.isNumeric, Cont.setAttr, DcKind.attrs]

theorem specify_var (d : Cont K) (hk : d.kind = .cp) :
    (d.specify (.val (.str "var"))).1.attr "is_set" = .bool true ∧
    (d.specify (.val (.str "var"))).1.attr "is_var" = .bool true := by
  rcases d with ⟨kind, attr⟩
  subst hk
  simp [Cont.specify, PyV.isNumeric, Cont.setAttr, DcKind.attrs]

/-- the number of variables changes with the flags of one parameter only -/
theorem vars_change (tab : List PEntry) (hnd : (tab.map (·.name)).Nodup) (f f' : String → Bool) (e : PEntry) (he : e ∈ tab)
    (hf : ∀ y, y ≠ e.name → f' y = f y) :
    (tab.map (fun q => if q.kind = .cp ∧ f' q.name = true then 1 else 0)).sum + (if e.kind = .cp ∧ f e.name = true then 1 else 0) =
    (tab.map (fun q => if q.kind = .cp ∧ f q.name = true then 1 else 0)).sum +
      (if e.kind = .cp ∧ f' e.name = true then 1 else 0) := by
  induction tab with
  | nil => simp at he
  | cons q tab ih =>
    simp only [List.map_cons, List.nodup_cons] at hnd
    simp only [List.map_cons, List.sum_cons]
    rcases List.mem_cons.mp he with rfl | he'
    · have : tab.map (fun q => if q.kind = .cp ∧ f' q.name = true then 1 else 0) =
          tab.map (fun q => if q.kind = .cp ∧ f q.name = true then 1 else 0) := by
        apply List.map_congr_left
        intro q hq
        rw [hf q.name (fun h => hnd.1 (List.mem_map.mpr ⟨q, hq, h⟩))]
      rw [this]; omega
    · have hq : q.name ≠ e.name := fun h => hnd.1 (h ▸ List.mem_map.mpr ⟨e, he', rfl⟩)
      have := ih hnd.2 he'
      rw [hf q.name hq]; omega

/-- C104: specifying one more property of a component with a number makes exactly its own equation and the equations of the
groups of parameters it completes part of the calculation, for every class of components, whatever else is specified. -/
theorem C104_value (cls : CompClass) (cs : List ℕ) (c : Comp K) (e : PEntry) (he : e ∈ cls.params) (hk : e.kind = .cp)
    (d : Cont K) (hd : c.param e.name = some d) (hdk : d.kind = e.kind) (v : PyV K) (hv : Spec.number v)
    (hown : e.name ∉ cls.ownVars) (hs : c.flagAttr e.name "is_set" = false) (hvar : c.flagAttr e.name "is_var" = false) :
    Spec.netEqs cls cs (c.setKey e.name (.val v)).1 = Spec.netEqs cls cs c + Spec.gain cls.params (Spec.given cls c) e.name := by
  obtain ⟨s1, s2⟩ := specify_number d v (hdk.trans hk) hv
  have hsub : ¬ (cls = .condenser ∧ e.name = "subcooling") := by
    rintro ⟨rfl, hn⟩
    have : ∀ q ∈ CompClass.condenser.params, q.name = "subcooling" → q.kind ≠ .cp := by decide +kernel
    exact this e he hn hk
  have f0 : cls.flags c e.name = (false, false) := by
    simp [CompClass.flags, hsub, hown, hs, hvar]
  have f1 : cls.flags (c.setKey e.name (.val v)).1 e.name = (true, false) := by
    simp [CompClass.flags, hsub, hown, setKey_flag_self c e.name _ _ d hd, s1, s2, PyV.truthy]
  unfold Spec.netEqs
  rw [setup_numEq, setup_numEq, setup_vars, setup_vars]
  have g := eqs_gain cls.params (fun y => (cls.flags c y).1) (fun y => (cls.flags (c.setKey e.name (.val v)).1 y).1) e.name
    (by simp [f0]) (by simp [f1]) (fun y hy => by simp only [flags_ne cls c e.name _ y hy])
  have w := vars_change cls.params (tab_nodup cls) (fun y => (cls.flags c y).2)
    (fun y => (cls.flags (c.setKey e.name (.val v)).1 y).2) e he (fun y hy => by simp only [flags_ne cls c e.name _ y hy])
  simp only [f0, f1, Bool.false_eq_true, and_false, if_false, Nat.add_zero] at g w
  rw [g, w]
  change _ = _ + ((Spec.gain cls.params (fun y => (cls.flags c y).1) e.name : ℕ) : ℤ)
  push_cast
  ring

/-- C104: a component property specified as variable takes part in the same way, and adds one variable. -/
theorem C104_variable (cls : CompClass) (cs : List ℕ) (c : Comp K) (e : PEntry) (he : e ∈ cls.params) (hk : e.kind = .cp)
    (d : Cont K) (hd : c.param e.name = some d) (hdk : d.kind = e.kind)
    (hown : e.name ∉ cls.ownVars) (hs : c.flagAttr e.name "is_set" = false) (hvar : c.flagAttr e.name "is_var" = false) :
    Spec.netEqs cls cs (c.setKey e.name (.val (.str "var"))).1 =
      Spec.netEqs cls cs c + Spec.gain cls.params (Spec.given cls c) e.name - 1 := by
  obtain ⟨s1, s2⟩ := specify_var d (hdk.trans hk)
  have hsub : ¬ (cls = .condenser ∧ e.name = "subcooling") := by
    rintro ⟨rfl, hn⟩
    have : ∀ q ∈ CompClass.condenser.params, q.name = "subcooling" → q.kind ≠ .cp := by decide +kernel
    exact this e he hn hk
  have f0 : cls.flags c e.name = (false, false) := by
    simp [CompClass.flags, hsub, hown, hs, hvar]
  have f1 : cls.flags (c.setKey e.name (.val (.str "var"))).1 e.name = (true, true) := by
    simp [CompClass.flags, hsub, hown, setKey_flag_self c e.name _ _ d hd, s1, s2, PyV.truthy]
  unfold Spec.netEqs
  rw [setup_numEq, setup_numEq, setup_vars, setup_vars]
  have g := eqs_gain cls.params (fun y => (cls.flags c y).1) (fun y => (cls.flags (c.setKey e.name (.val (.str "var"))).1 y).1)
    e.name (by simp [f0]) (by simp [f1]) (fun y hy => by simp only [flags_ne cls c e.name _ y hy])
  have w := vars_change cls.params (tab_nodup cls) (fun y => (cls.flags c y).2)
    (fun y => (cls.flags (c.setKey e.name (.val (.str "var"))).1 y).2) e he
    (fun y hy => by simp only [flags_ne cls c e.name _ y hy])
  simp only [f0, f1, Bool.false_eq_true, and_false, if_false, Nat.add_zero, hk, and_true, if_true] at g w
  rw [g, w]
  change _ = _ + ((Spec.gain cls.params (fun y => (cls.flags c y).1) e.name : ℕ) : ℤ) - 1
  push_cast
  ring

/-- entries of a table with one fitting element -/
theorem sum_one_entry (tab : List PEntry) (hnd : (tab.map (·.name)).Nodup) (e : PEntry) (he : e ∈ tab) (P : PEntry → Prop)
    [DecidablePred P] (hP : ∀ q ∈ tab, P q ↔ q.name = e.name) :
    (tab.map (fun q => if P q then q.numEq else 0)).sum = e.numEq := by
  induction tab with
  | nil => simp at he
  | cons q tab ih =>
    simp only [List.map_cons, List.nodup_cons] at hnd
    simp only [List.map_cons, List.sum_cons]
    rcases List.mem_cons.mp he with rfl | he'
    · rw [if_pos ((hP e List.mem_cons_self).mpr rfl)]
      have : (tab.map (fun q => if P q then q.numEq else 0)).sum = 0 := by
        apply List.sum_eq_zero
        intro n hn
        obtain ⟨q, hq, rfl⟩ := List.mem_map.mp hn
        rw [if_neg]
        intro h
        exact hnd.1 (List.mem_map.mpr ⟨q, hq, (hP q (List.mem_cons_of_mem _ hq)).mp h⟩)
      omega
    · rw [if_neg (fun h => hnd.1 (List.mem_map.mpr ⟨e, he', ((hP q List.mem_cons_self).mp h).symm⟩)),
        ih hnd.2 he' (fun q hq => hP q (List.mem_cons_of_mem _ hq)), Nat.zero_add]

/-- C104: for every class, a property with an equation of its own takes exactly one degree of freedom. -/
theorem C104_own_equation (cls : CompClass) (given : String → Bool) (e : PEntry) (he : e ∈ cls.params)
    (hk : e.kind ≠ .gcp) (hf : e.hasFunc = true) : Spec.gain cls.params given e.name = 1 := by
  have tab : Spec.classes.all (fun cls => cls.params.all (fun e => e.hasFunc = false || (e.numEq = 1 &&
      cls.params.all (fun g => g.kind ≠ .gcp || e.name ∉ g.elements)))) = true := by decide +kernel
  have h := List.all_eq_true.mp (List.all_eq_true.mp tab cls (classes_all cls)) e he
  simp only [hf, Bool.or_eq_true, Bool.and_eq_true, decide_eq_true_eq, List.all_eq_true, ne_eq, decide_not,
    Bool.not_eq_true', decide_eq_false_iff_not, Bool.true_eq_false, false_or] at h
  obtain ⟨h1, h2⟩ := h
  unfold Spec.gain
  rw [sum_one_entry cls.params (tab_nodup cls) e he, h1]
  intro q hq
  constructor
  · rintro ⟨_, h⟩
    by_cases hg : q.kind = .gcp
    · rw [if_pos hg] at h
      rcases h2 q hq with h3 | h3
      · exact absurd hg h3
      · exact absurd h.1 h3
    · rw [if_neg hg] at h; exact h
  · intro hn
    have : q = e := List.inj_on_of_nodup_map (tab_nodup cls) hq he hn
    subst this
    exact ⟨hf, by rw [if_neg hk]⟩

/-- C104: a number for the power or heat loss of an engine, fuel cell or electrolyzer takes the variable the component would
have added. -/
theorem C104_power (cls : CompClass) (cs : List ℕ) (c : Comp K) (x : String) (hx : x ∈ cls.ownVars)
    (d : Cont K) (hd : c.param x = some d) (hdk : d.kind = .cp) (v : PyV K) (hv : Spec.number v)
    (hs : c.flagAttr x "is_set" = false) :
    Spec.netEqs cls cs (c.setKey x (.val v)).1 = Spec.netEqs cls cs c + 1 := by
  obtain ⟨s1, s2⟩ := specify_number d v hdk hv
  have tab : Spec.classes.all (fun cls => cls.ownVars.all (fun x => (cls.params.any (fun e => e.name = x && e.kind = .cp)) &&
      cls.params.all (fun g => (g.name ≠ x || g.hasFunc = false) && x ∉ g.elements) && cls ≠ .condenser)) = true := by decide +kernel
  have h := List.all_eq_true.mp (List.all_eq_true.mp tab cls (classes_all cls)) x hx
  simp only [Bool.and_eq_true, List.any_eq_true, decide_eq_true_eq, List.all_eq_true, Bool.or_eq_true, ne_eq, decide_not,
    Bool.not_eq_true', decide_eq_false_iff_not] at h
  obtain ⟨⟨⟨e, he, hn, hk⟩, hall⟩, hcond⟩ := h
  subst hn
  have f0 : cls.flags c e.name = (true, true) := by
    simp [CompClass.flags, hcond, hx, hs]
  have f1 : cls.flags (c.setKey e.name (.val v)).1 e.name = (true, false) := by
    simp [CompClass.flags, hcond, setKey_flag_self c e.name _ _ d hd, s1, s2, PyV.truthy]
  unfold Spec.netEqs
  rw [setup_numEq, setup_numEq, setup_vars, setup_vars]
  have w := vars_change cls.params (tab_nodup cls) (fun y => (cls.flags c y).2)
    (fun y => (cls.flags (c.setKey e.name (.val v)).1 y).2) e he (fun y hy => by simp only [flags_ne cls c e.name _ y hy])
  simp only [f0, f1, Bool.false_eq_true, and_false, if_false, hk, and_true, if_true, Nat.add_zero] at w
  have g : ∀ y, (cls.flags (c.setKey e.name (.val v)).1 y).1 = (cls.flags c y).1 := by
    intro y
    by_cases hy : y = e.name
    · rw [hy, f0, f1]
    · rw [flags_ne cls c e.name _ y hy]
  simp only [g, ← w]
  push_cast
  ring

/-- C104: every property and setting of every class has an equation of its own, belongs to a group of parameters with an
equation, is a variable of the component, or is listed in the specification. -/
theorem C104_takes_part (cls : CompClass) (e : PEntry) (he : e ∈ cls.params) (hk : e.kind = .cp ∨ e.kind = .simple) :
    (e.hasFunc = true ∧ e.numEq = 1) ∨ (∃ g ∈ cls.params, g.kind = .gcp ∧ g.hasFunc = true ∧ e.name ∈ g.elements) ∨
    e.name ∈ cls.ownVars ∨ (cls, e.name) ∈ Spec.settings ∨ (cls, e.name) ∈ Spec.unused := by
  have tab : Spec.classes.all (fun cls => cls.params.all (fun e => (e.kind ≠ .cp && e.kind ≠ .simple) ||
      (e.hasFunc && e.numEq = 1) || cls.params.any (fun g => g.kind = .gcp && g.hasFunc && e.name ∈ g.elements) ||
      e.name ∈ cls.ownVars || (cls, e.name) ∈ Spec.settings || (cls, e.name) ∈ Spec.unused)) = true := by decide +kernel
  have h := List.all_eq_true.mp (List.all_eq_true.mp tab cls (classes_all cls)) e he
  simp only [Bool.or_eq_true, Bool.and_eq_true, decide_eq_true_eq, List.any_eq_true, ne_eq, decide_not,
    Bool.not_eq_true', decide_eq_false_iff_not] at h
  rcases h with ((((h | h) | ⟨g, hg, h⟩) | h) | h) | h
  · exact absurd hk (by tauto)
  · exact Or.inl h
  · exact Or.inr (Or.inl ⟨g, hg, h.1.1, h.1.2, h.2⟩)
  · exact Or.inr (Or.inr (Or.inl h))
  · exact Or.inr (Or.inr (Or.inr (Or.inl h)))
  · exact Or.inr (Or.inr (Or.inr (Or.inr h)))

/-- C104, refuted part: a number for one of the unused properties is accepted, and neither an equation nor a variable of the
calculation changes: the specification is ignored. -/
theorem C104_ignored_false (cls : CompClass) (x : String) (hx : (cls, x) ∈ Spec.unused) (cs : List ℕ) (c : Comp K)
    (d : Cont K) (hd : c.param x = some d) (hdk : d.kind = .cp) (v : PyV K) (hv : Spec.number v)
    (hvar : c.flagAttr x "is_var" = false) :
    (c.setKey x (.val v)).2 = none ∧ (c.setKey x (.val v)).1.flagAttr x "is_set" = true ∧
    (cls.setup cs (c.setKey x (.val v)).1).numEq = (cls.setup cs c).numEq ∧
    (cls.setup cs (c.setKey x (.val v)).1).vars.length = (cls.setup cs c).vars.length := by
  obtain ⟨s1, s2⟩ := specify_number d v hdk hv
  have tab : Spec.unused.all (fun z => (z.1.params.any (fun e => e.name = z.2 && e.kind = .cp)) &&
      z.1.params.all (fun g => (g.name ≠ z.2 || g.hasFunc = false) && z.2 ∉ g.elements) && z.2 ∉ z.1.ownVars &&
      z.2 ≠ "subcooling") = true := by decide +kernel
  have h := List.all_eq_true.mp tab _ hx
  simp only [Bool.and_eq_true, List.any_eq_true, decide_eq_true_eq, List.all_eq_true, Bool.or_eq_true, ne_eq, decide_not,
    Bool.not_eq_true', decide_eq_false_iff_not] at h
  obtain ⟨⟨⟨⟨e, he, hn, hk⟩, hall⟩, hown⟩, hsub⟩ := h
  subst hn
  have f0 : (cls.flags c e.name).2 = false := by
    simp [CompClass.flags, hsub, hown, hvar]
  have f1 : (cls.flags (c.setKey e.name (.val v)).1 e.name).2 = false := by
    simp [CompClass.flags, hsub, hown, setKey_flag_self c e.name _ _ d hd, s2, PyV.truthy]
  refine ⟨?_, ?_, ?_, ?_⟩
  · unfold Comp.setKey
    rw [hd]
    rcases d with ⟨kind, attr⟩
    simp only at hdk
    subst hdk
    cases v <;> simp [Spec.number] at hv <;> simp [Cont.specify, PyV.isNumeric, Cont.setAttr, DcKind.attrs]
  · rw [setKey_flag_self c e.name _ _ d hd, s1]; rfl
  · rw [setup_numEq, setup_numEq]
    congr 2
    apply List.map_congr_left
    intro g hg
    obtain ⟨g1, g2⟩ := hall g hg
    have e1 : ∀ y ∈ g.elements, (cls.flags (c.setKey e.name (.val v)).1 y).1 = (cls.flags c y).1 := by
      intro y hy
      rw [flags_ne cls c e.name _ y (by rintro rfl; exact g2 hy)]
    have e2 : (∀ y ∈ g.elements, (cls.flags (c.setKey e.name (.val v)).1 y).1 = true) ↔
        ∀ y ∈ g.elements, (cls.flags c y).1 = true := by
      constructor
      · intro h y hy; rw [← e1 y hy]; exact h y hy
      · intro h y hy; rw [e1 y hy]; exact h y hy
    simp only [e2]
    by_cases hgn : g.name = e.name
    · rcases g1 with g1 | g1
      · exact absurd hgn g1
      · simp [g1]
    · rw [flags_ne cls c e.name _ _ hgn]
  · rw [setup_vars, setup_vars]
    have w := vars_change cls.params (tab_nodup cls) (fun y => (cls.flags c y).2)
      (fun y => (cls.flags (c.setKey e.name (.val v)).1 y).2) e he (fun y hy => by simp only [flags_ne cls c e.name _ y hy])
    simp only [f0, f1, Bool.false_eq_true, and_false, if_false, Nat.add_zero] at w
    exact w

theorem specify_simple (d : Cont K) (v : PyV K) (hk : d.kind = .simple) (hv : v ≠ .none) :
    (d.specify (.val v)).1.attr "is_set" = .bool true ∧ (d.specify (.val v)).1.attr "val" = v ∧
    (d.specify (.val v)).1.attr "is_var" = d.attr "is_var" ∧ (d.specify (.val v)).2 = none := by
  rcases d with ⟨kind, attr⟩
  subst hk
  cases v <;> first | (exact absurd rfl hv) | simp [Cont.specify, Cont.setAttr, DcKind.attrs]

/-- C104, refuted part: `cone=False` does not leave the cone law of a turbine out, it adds its equation. -/
theorem C104_cone_false (cls : CompClass) (hc : cls = .turbine ∨ cls = .steamTurbine) (cs : List ℕ) (c : Comp K)
    (d : Cont K) (hd : c.param "cone" = some d) (hdk : d.kind = .simple) (hs : c.flagAttr "cone" "is_set" = false) :
    (c.setKey "cone" (.val (.bool false))).2 = none ∧
    Spec.netEqs cls cs (c.setKey "cone" (.val (.bool false))).1 = Spec.netEqs cls cs c + 1 := by
  obtain ⟨s1, _, s3, s4⟩ := specify_simple d (.bool false) hdk (by simp)
  have hown : "cone" ∉ cls.ownVars := by rcases hc with rfl | rfl <;> decide
  have hcond : cls ≠ .condenser := by rcases hc with rfl | rfl <;> decide
  have he : (⟨"cone", .simple, [], true, 1⟩ : PEntry) ∈ cls.params := by rcases hc with rfl | rfl <;> decide
  have f0 : (cls.flags c "cone").1 = false := by simp [CompClass.flags, hcond, hown, hs]
  have f1 : (cls.flags (c.setKey "cone" (.val (.bool false))).1 "cone").1 = true := by
    simp [CompClass.flags, hcond, hown, setKey_flag_self c "cone" _ _ d hd, s1, PyV.truthy]
  refine ⟨by unfold Comp.setKey; rw [hd]; exact s4, ?_⟩
  unfold Spec.netEqs
  rw [setup_numEq, setup_numEq, setup_vars, setup_vars]
  have g := eqs_gain cls.params (fun y => (cls.flags c y).1)
    (fun y => (cls.flags (c.setKey "cone" (.val (.bool false))).1 y).1) "cone"
    f0 f1 (fun y hy => by simp only [flags_ne cls c "cone" _ y hy])
  have w := vars_change cls.params (tab_nodup cls) (fun y => (cls.flags c y).2)
    (fun y => (cls.flags (c.setKey "cone" (.val (.bool false))).1 y).2) _ he
    (fun y hy => by simp only [flags_ne cls c "cone" _ y hy])
  simp only [reduceCtorEq, false_and, if_false, Nat.add_zero] at w
  have hg := C104_own_equation cls (fun y => (cls.flags c y).1) _ he (by simp) rfl
  simp only at hg g
  rw [g, w, hg]
  push_cast
  ring

/-- C104: a condenser without specification of the subcooling has the equation of saturated liquid at its hot outlet;
`subcooling=True` removes it, `subcooling=False` keeps it. -/
theorem C104_subcooling (cs : List ℕ) (c : Comp K) (d : Cont K) (hd : c.param "subcooling" = some d) (hdk : d.kind = .simple)
    (hs : c.flagAttr "subcooling" "val" = false) (b : Bool) :
    Spec.netEqs .condenser cs (c.setKey "subcooling" (.val (.bool b))).1 =
      Spec.netEqs .condenser cs c - (if b then 1 else 0) := by
  obtain ⟨_, s2, _, _⟩ := specify_simple d (.bool b) hdk (by simp)
  have he : (⟨"subcooling", .simple, [], true, 1⟩ : PEntry) ∈ CompClass.condenser.params := by decide
  have f0 : (CompClass.condenser.flags c "subcooling").1 = true := by simp [CompClass.flags, hs]
  have f1 : (CompClass.condenser.flags (c.setKey "subcooling" (.val (.bool b))).1 "subcooling").1 = !b := by
    simp [CompClass.flags, setKey_flag_self c "subcooling" _ _ d hd, s2, PyV.truthy]
  unfold Spec.netEqs
  rw [setup_numEq, setup_numEq, setup_vars, setup_vars]
  have w := vars_change CompClass.condenser.params (tab_nodup _) (fun y => (CompClass.condenser.flags c y).2)
    (fun y => (CompClass.condenser.flags (c.setKey "subcooling" (.val (.bool b))).1 y).2) _ he
    (fun y hy => by simp only [flags_ne CompClass.condenser c "subcooling" _ y hy])
  simp only [reduceCtorEq, false_and, if_false, Nat.add_zero] at w
  rw [w]
  cases b with
  | false =>
    have g : ∀ y, (CompClass.condenser.flags (c.setKey "subcooling" (.val (.bool false))).1 y).1 =
        (CompClass.condenser.flags c y).1 := by
      intro y
      by_cases hy : y = "subcooling"
      · rw [hy, f0, f1]; rfl
      · rw [flags_ne CompClass.condenser c "subcooling" _ y hy]
    simp only [g]
    simp
  | true =>
    have g := eqs_gain CompClass.condenser.params
      (fun y => (CompClass.condenser.flags (c.setKey "subcooling" (.val (.bool true))).1 y).1)
      (fun y => (CompClass.condenser.flags c y).1) "subcooling" (by simpa using f1) f0
      (fun y hy => by simp only [flags_ne CompClass.condenser c "subcooling" _ y hy])
    have hg := C104_own_equation .condenser
      (fun y => (CompClass.condenser.flags (c.setKey "subcooling" (.val (.bool true))).1 y).1) _ he (by simp) rfl
    simp only at hg g
    rw [g, hg]
    push_cast
    simp
    ring

/-- C104: a characteristic line or map given for a parameter becomes its line, and specifies nothing. -/
theorem C104_line (cls : CompClass) (cs : List ℕ) (c : Comp K) (x : String) (d : Cont K)
    (hd : c.param x = some d) (hdk : d.kind = .cc ∨ d.kind = .cm) (v : PyV K) (hv : Spec.isChar v)
    (hx : x ≠ "subcooling") :
    ((c.setKey x (.val v)).1.param x).map (·.attr "char_func") = some v ∧
    cls.setup cs (c.setKey x (.val v)).1 = cls.setup cs c := by
  have hsp : (d.specify (.val v)).1 = { d with attr := Function.update d.attr "char_func" v } := by
    rcases d with ⟨kind, attr⟩
    simp only at hdk
    rcases hdk with rfl | rfl <;> cases v <;> simp [Spec.isChar] at hv <;> rfl
  constructor
  · unfold Comp.setKey; rw [hd]; simp [hsp]
  · unfold CompClass.setup
    have : cls.flags (c.setKey x (.val v)).1 = cls.flags c := by
      funext y
      by_cases hy : y = x
      · subst hy
        have h1 : ∀ a, a ≠ "char_func" → (c.setKey y (.val v)).1.flagAttr y a = c.flagAttr y a := by
          intro a ha
          rw [setKey_flag_self c y _ _ d hd, hsp]
          simp [Comp.flagAttr, hd, Function.update_of_ne ha]
        simp [CompClass.flags, hx, h1 "is_set" (by decide), h1 "is_var" (by decide)]
      · rw [flags_ne cls c x _ y hy]
    rw [this]

/-! ### examples -/

/-- a pipe with length and diameter -/
def dofPipe : Comp ℚ := (CompClass.pipe.new : Comp ℚ).run [("L", .val (.num (some 10))), ("D", .val (.num (some 1)))]

/-- the roughness completes the group of the Darcy equation: a third parameter, one equation; the pipe has two mandatory
equations here -/
example : (∃ e ∈ CompClass.pipe.params, e.name = "ks" ∧ e.kind = .cp) ∧ "ks" ∉ CompClass.pipe.ownVars ∧
    dofPipe.flagAttr "ks" "is_set" = false ∧ dofPipe.flagAttr "ks" "is_var" = false ∧
    Spec.gain CompClass.pipe.params (Spec.given .pipe dofPipe) "ks" = 1 ∧
    Spec.netEqs .pipe [1, 1] dofPipe = 2 ∧
    Spec.netEqs .pipe [1, 1] (dofPipe.setKey "ks" (.val (.num (some 1)))).1 = 3 ∧
    Spec.netEqs .pipe [1, 1] (dofPipe.setKey "ks" (.val (.str "var"))).1 = 2 ∧
    Spec.netEqs .pipe [1, 1] (dofPipe.setKey "kA" (.val (.num (some 1)))).1 = 2 := by
  decide +kernel
/-- power of an engine -/
example : (((CompClass.combustionEngine.new : Comp ℚ).param "P").map (·.kind)) = some .cp ∧
    Spec.netEqs .combustionEngine [4] (CompClass.combustionEngine.new : Comp ℚ) = 2 ∧
    Spec.netEqs .combustionEngine [4] ((CompClass.combustionEngine.new : Comp ℚ).setKey "P" (.val (.num (some 1)))).1 = 3 := by
  decide +kernel
/-- logarithmic temperature difference of a heat exchanger, cone law of a turbine, condenser, characteristic line -/
example : (((CompClass.heatExchanger.new : Comp ℚ).param "td_log").map (·.kind)) = some .cp ∧
    (((CompClass.turbine.new : Comp ℚ).param "cone").map (·.kind)) = some .simple ∧
    (((CompClass.condenser.new : Comp ℚ).param "subcooling").map (·.kind)) = some .simple ∧
    (((CompClass.pump.new : Comp ℚ).param "eta_s_char").map (·.kind)) = some .cc ∧
    (CompClass.turbine.new : Comp ℚ).flagAttr "cone" "is_set" = false ∧
    (CompClass.condenser.new : Comp ℚ).flagAttr "subcooling" "val" = false := by
  decide +kernel

end Tespy
