import Mathlib.Algebra.Order.Field.Rat
import Mathlib.Tactic.Linarith
import Mathlib.Tactic.FinCases
import Verif.Model.Connection
import Verif.Model.Units
/-
C28: simplification of the specifications of a connection before the calculation.
-/
namespace Tespy
variable {K : Type}

/-- Free variables and equations of a connection: simplification, variable space and
preprocessing, and the flags left behind. -/
def connSetup [Add K] (F : FluidFuncs K) (s : SimpState K) : PyRes (List PName × List ConnEq × SimpState K) :=
  match simplify F s with
  | (_, some e) => .error e
  | (s1, none) =>
    let (vars, s2) := connVars s1
    let (eqs, s3) := connEqs s2
    .ok (vars, eqs, s3)

/-! ### specification -/

/-- number of true entries -/
def Spec.num (l : List Bool) : ℕ := l.countP (· = true)

/-- Degrees of freedom as the user counts them: unknown mass flow, pressure and enthalpy
minus one equation for every specified temperature, volumetric flow, steam quality, boiling
temperature difference, reference and fluid balance. -/
def Spec.degrees (s : SimpState K) : ℤ :=
  3 - Spec.num [s.isSet .m, s.isSet .p, s.isSet .h]
    - Spec.num [s.isSet .T, s.isSet .v, s.isSet .x, s.isSet .Td_bp]
    - Spec.num [s.refSet .m, s.refSet .p, s.refSet .h, s.refSet .T, s.refSet .v] - Spec.num [s.balance]

/-- number of specified properties -/
def Spec.numSpecs (s : SimpState K) : ℕ :=
  Spec.num [s.isSet .m, s.isSet .p, s.isSet .h, s.isSet .T, s.isSet .v, s.isSet .x, s.isSet .Td_bp]

/-- no flag of an earlier simplification is left -/
def Spec.clean (s : SimpState K) : Prop := ∀ q, s.solved q = false

/-! ### proofs -/

theorem simplify_specs [Add K] (F : FluidFuncs K) (s s1 : SimpState K) (h : simplify F s = (s1, none)) :
    s1.isSet = s.isSet ∧ s1.refSet = s.refSet ∧ s1.balance = s.balance ∧ s1.TdVal = s.TdVal ∧
    (∀ q, s.isSet q = true → s1.SI q = s.SI q) ∧
    ((s1.solved = s.solved) ∨
      (∃ r, r ∈ [PName.T, .Td_bp, .x] ∧ s.isSet r = true ∧ s.isSet .p = true ∧ s.isSet .h = false ∧
        s1.solved = fun q => if q = .h ∨ q = r then true else s.solved q) ∨
      (s.isSet .p = false ∧ s.isSet .h = false ∧ s.isSet .T = true ∧ s.isSet .x = true ∧
        s1.solved = fun q => if q = .T ∨ q = .x ∨ q = .p ∨ q = .h then true else s.solved q)) := by
  have hupd : ∀ (a : PName) (x : K) (g : PName → K), s.isSet a = false →
      ∀ q, s.isSet q = true → Function.update g a x q = g q := by
    intro a x g ha q hq
    apply Function.update_of_ne
    rintro rfl; rw [ha] at hq; simp at hq
  unfold simplify at h
  split at h
  · simp at h
  split at h
  · rename_i h1
    obtain ⟨hh, hp⟩ := h1
    split at h
    · rename_i hT
      split at h
      · simp at h
      · simp only [Prod.mk.injEq, and_true] at h
        subst h
        exact ⟨rfl, rfl, rfl, rfl, fun q hq => hupd .h _ _ hh q hq, Or.inr (Or.inl ⟨.T, by simp, hT, hp, hh, rfl⟩)⟩
    split at h
    · rename_i hT
      split at h
      · simp at h
      · split at h
        · simp at h
        · simp only [Prod.mk.injEq, and_true] at h
          subst h
          exact ⟨rfl, rfl, rfl, rfl, fun q hq => hupd .h _ _ hh q hq, Or.inr (Or.inl ⟨.Td_bp, by simp, hT, hp, hh, rfl⟩)⟩
    split at h
    · rename_i hT
      split at h
      · simp at h
      · simp only [Prod.mk.injEq, and_true] at h
        subst h
        exact ⟨rfl, rfl, rfl, rfl, fun q hq => hupd .h _ _ hh q hq, Or.inr (Or.inl ⟨.x, by simp, hT, hp, hh, rfl⟩)⟩
    · simp only [Prod.mk.injEq, and_true] at h
      subst h
      exact ⟨rfl, rfl, rfl, rfl, fun _ _ => rfl, Or.inl rfl⟩
  split at h
  · rename_i h1
    obtain ⟨hh, hp⟩ := h1
    split at h
    · rename_i hT
      split at h
      · simp at h
      · dsimp only at h
        split at h
        · simp at h
        · simp only [Prod.mk.injEq, and_true] at h
          subst h
          refine ⟨rfl, rfl, rfl, rfl, fun q hq => ?_, Or.inr (Or.inr ⟨hp, hh, hT.1, hT.2, rfl⟩)⟩
          exact (hupd .h _ _ hh q hq).trans (hupd .p _ _ hp q hq)
    · simp only [Prod.mk.injEq, and_true] at h
      subst h
      exact ⟨rfl, rfl, rfl, rfl, fun _ _ => rfl, Or.inl rfl⟩
  · simp only [Prod.mk.injEq, and_true] at h
    subst h
    exact ⟨rfl, rfl, rfl, rfl, fun _ _ => rfl, Or.inl rfl⟩

theorem num_cons (b : Bool) (l : List Bool) : Spec.num (b :: l) = (if b then 1 else 0) + Spec.num l := by
  cases b <;> simp [Spec.num]; omega
@[simp] theorem num_nil : Spec.num [] = 0 := rfl

theorem len_filter_cons {α : Type} (a : α) (l : List α) (p : α → Prop) [DecidablePred p] :
    ((a :: l).filter (fun x => decide (p x))).length = (if p a then 1 else 0) + (l.filter (fun x => decide (p x))).length := by
  rw [List.filter_cons]
  by_cases h : p a <;> simp [h]; omega

theorem ite_false_eq (b : Bool) : (if b = false then 1 else 0 : ℕ) + (if b = true then 1 else 0) = 1 := by
  cases b <;> rfl

theorem degrees_counts (s t : SimpState K) (h1 : t.isSet = s.isSet) (h2 : t.refSet = s.refSet)
    (h3 : t.balance = s.balance)
    (hsol : t.solved .m = false ∧ t.solved .v = false)
    (hbal : (if s.isSet .p = false ∧ t.solved .p = true then 1 else 0) +
        (if s.isSet .h = false ∧ t.solved .h = true then 1 else 0) =
      (if s.isSet .T = true ∧ t.solved .T = true then 1 else 0) + (if s.isSet .x = true ∧ t.solved .x = true then 1 else 0) +
      (if s.isSet .Td_bp = true ∧ t.solved .Td_bp = true then 1 else 0)) :
    ((connVars t).1.length : ℤ) - (connEqs (connVars t).2).1.length = Spec.degrees s := by
  have split0 : ∀ a b : Bool, (if a = false ∧ b = false then 1 else 0 : ℕ) + (if a = false ∧ b = true then 1 else 0) +
      (if a = true then 1 else 0) = 1 := by decide
  have split1 : ∀ a b : Bool, (if a = true ∧ b = false then 1 else 0 : ℕ) + (if a = true ∧ b = true then 1 else 0) =
      (if a = true then 1 else 0) := by decide
  have e1 := split0 (s.isSet .p) (t.solved .p)
  have e2 := split0 (s.isSet .h) (t.solved .h)
  have e3 := split1 (s.isSet .T) (t.solved .T)
  have e4 := split1 (s.isSet .x) (t.solved .x)
  have e5 := split1 (s.isSet .Td_bp) (t.solved .Td_bp)
  have e6 := ite_false_eq (s.isSet .m)
  have e7 : (if s.balance then [ConnEq.balance] else []).length = if s.balance = true then 1 else 0 := by
    cases s.balance <;> rfl
  unfold connVars connEqs Spec.degrees
  simp only [List.length_append, List.length_map, len_filter_cons, List.filter_nil, List.length_nil, num_cons, num_nil,
    h1, h2, h3, hsol.1, hsol.2, PName.primary, Bool.false_eq_true, false_and, if_false, and_true, e7]
  have e8 : ∀ l : List RName, (l.filter (fun k => s.refSet k)).length = Spec.num (l.map s.refSet) := by
    intro l; induction l with
    | nil => rfl
    | cons a l ih => rw [List.map_cons, num_cons, ← ih, List.filter_cons]; cases s.refSet a <;> simp; omega
  rw [e8]
  simp only [List.map_cons, List.map_nil, num_cons, num_nil]
  omega

/-- C28: the simplification keeps the degrees of freedom, whatever is specified: the number
of free variables minus the number of equations of the connection is what the user's
specifications say. No flag is left for the next calculation. -/
theorem C28_degrees_of_freedom [Add K] (F : FluidFuncs K) (s : SimpState K) (hc : Spec.clean s) vars eqs s'
    (h : connSetup F s = .ok (vars, eqs, s')) :
    (vars.length : ℤ) - eqs.length = Spec.degrees s ∧ Spec.clean s' := by
  unfold connSetup at h
  rcases hs : simplify F s with ⟨s1, o⟩
  rw [hs] at h
  cases o with
  | some e => simp at h
  | none =>
    simp only [Except.ok.injEq, Prod.mk.injEq] at h
    obtain ⟨rfl, rfl, rfl⟩ := h
    obtain ⟨h1, h2, h3, h4, h5, h6⟩ := simplify_specs F s s1 hs
    rcases h6 with h6 | ⟨r, hr, hrs, hp, hh, h6⟩ | ⟨hp, hh, hT, hx, h6⟩
    · constructor
      · apply degrees_counts s s1 h1 h2 h3 <;> simp [h6, hc _]
      · intro q; simp [connEqs, connVars, h6, hc _]
    · constructor
      · apply degrees_counts s s1 h1 h2 h3
        · simp only [List.mem_cons, List.not_mem_nil, or_false] at hr
          rcases hr with rfl | rfl | rfl <;> simp [h6, hc _]
        · simp only [List.mem_cons, List.not_mem_nil, or_false] at hr
          rcases hr with rfl | rfl | rfl <;> simp [h6, hc _, hp, hh, hrs]
      · intro q
        simp only [List.mem_cons, List.not_mem_nil, or_false] at hr
        rcases hr with rfl | rfl | rfl <;> cases q <;> simp [connEqs, connVars, h6, h1, hc _, PName.primary, hh]
    · constructor
      · apply degrees_counts s s1 h1 h2 h3 <;> simp [h6, hc _, hp, hh, hT, hx]
      · intro q
        cases q <;> simp [connEqs, connVars, h6, h1, hc _, PName.primary, hh, hp]

/-- C28: more than three specified properties are rejected and nothing is changed; up to
three are accepted if the fluid property functions return values. -/
theorem C28_rejected_iff [Add K] (F : FluidFuncs K) (s : SimpState K)
    (h1 : ∀ p T, ∃ h, F.h_pT p T = .ok h) (h2 : ∀ p x, ∃ h, F.h_pQ p x = .ok h)
    (h3 : ∀ p, ∃ T, F.T_sat p = .ok T) (h4 : ∀ T, ∃ p, F.p_sat T = .ok p) :
    ((∃ e, (simplify F s).2 = some e) ↔ 3 < Spec.numSpecs s) ∧
    (3 < Spec.numSpecs s → simplify F s = (s, some .networkError)) := by
  have e8 : ∀ l : List PName, (l.filter (fun k => s.isSet k)).length = Spec.num (l.map s.isSet) := by
    intro l; induction l with
    | nil => rfl
    | cons a l ih => rw [List.map_cons, num_cons, ← ih, List.filter_cons]; cases s.isSet a <;> simp; omega
  have e9 : (countedSpecs.filter (s.isSet ·)).length = Spec.numSpecs s := by rw [e8]; rfl
  by_cases hn : 3 < Spec.numSpecs s
  · have : simplify F s = (s, some .networkError) := by
      unfold simplify; rw [e9, if_pos hn]
    exact ⟨⟨fun _ => hn, fun _ => ⟨_, by rw [this]⟩⟩, fun _ => this⟩
  · refine ⟨⟨fun ⟨e, he⟩ => ?_, fun h => absurd h hn⟩, fun h => absurd h hn⟩
    exfalso
    unfold simplify at he
    rw [e9, if_neg hn] at he
    obtain ⟨a, ha⟩ := h1 (s.SI .p) (s.SI .T)
    obtain ⟨b, hb⟩ := h3 (s.SI .p)
    obtain ⟨c, hc⟩ := h1 (s.SI .p) (b + s.TdVal)
    obtain ⟨d, hd⟩ := h2 (s.SI .p) (s.SI .x)
    obtain ⟨g, hg⟩ := h4 (s.SI .T)
    obtain ⟨k, hk⟩ := h2 g (s.SI .x)
    simp only [ha, hb, hc, hd, hg, hk] at he
    repeat' (split at he)
    all_goals simp at he

/-- The equations of the specifications (connections/connection.py 744, 851, 873-874): what
the user's values (in SI units) demand of pressure and enthalpy. -/
def Spec.demand [Sub K] (F : FluidFuncs K) (T_ph : K → K → K) (s : SimpState K) : PName → Prop
  | .T => T_ph (s.SI .p) (s.SI .h) = s.SI .T
  | .x => F.h_pQ (s.SI .p) (s.SI .x) = .ok (s.SI .h)
  | .Td_bp => ∃ Ts, F.T_sat (s.SI .p) = .ok Ts ∧ T_ph (s.SI .p) (s.SI .h) - Ts = s.SI .Td_bp
  | _ => True

/-- C28, values, the part that holds: the values put in place of a specification satisfy it,
and the values the user specified are kept. Missing: the boiling temperature difference in a
unit other than K or C (see `C28_boiling_difference_wrong`). -/
theorem C28_values_partial {K : Type} [AddCommGroup K] (F : FluidFuncs K) (T_ph : K → K → K)
    (s s1 : SimpState K) (hc : Spec.clean s) (h : simplify F s = (s1, none))
    (hT : ∀ p T h, F.h_pT p T = .ok h → T_ph p h = T)
    (hsat : ∀ T x p h, F.p_sat T = .ok p → F.h_pQ p x = .ok h → T_ph p h = T)
    (hunit : s.TdVal = s.SI .Td_bp) :
    (∀ q, s1.solved q = true → Spec.demand F T_ph s1 q) ∧ (∀ q, s.isSet q = true → s1.SI q = s.SI q) := by
  refine ⟨?_, (simplify_specs F s s1 h).2.2.2.2.1⟩
  intro q hq
  unfold simplify at h
  split at h
  · simp at h
  split at h
  · split at h
    · split at h
      · simp at h
      · rename_i hh
        simp only [Prod.mk.injEq, and_true] at h
        subst h
        cases q <;> simp [hc _] at hq <;> simp [Spec.demand]
        exact hT _ _ _ hh
    split at h
    · split at h
      · simp at h
      · rename_i hTs
        split at h
        · simp at h
        · rename_i hh
          simp only [Prod.mk.injEq, and_true] at h
          subst h
          cases q <;> simp [hc _] at hq <;> simp [Spec.demand]
          refine ⟨_, hTs, ?_⟩
          rw [hT _ _ _ hh, hunit, add_sub_cancel_left]
    split at h
    · split at h
      · simp at h
      · rename_i hh
        simp only [Prod.mk.injEq, and_true] at h
        subst h
        cases q <;> simp [hc _] at hq <;> simp [Spec.demand]
        exact hh
    · simp only [Prod.mk.injEq, and_true] at h
      subst h; rw [hc q] at hq; simp at hq
  split at h
  · split at h
    · split at h
      · simp at h
      · rename_i hp
        dsimp only at h
        split at h
        · simp at h
        · rename_i hh
          simp only [Prod.mk.injEq, and_true] at h
          subst h
          cases q <;> simp [hc _] at hq <;> simp [Spec.demand]
          · exact hsat _ _ _ _ hp hh
          · exact hh
    · simp only [Prod.mk.injEq, and_true] at h
      subst h; rw [hc q] at hq; simp at hq
  · simp only [Prod.mk.injEq, and_true] at h
    subst h; rw [hc q] at hq; simp at hq

/-! ### examples and what fails -/

/-- a fluid with `h = T`, `T_sat = p` -/
def toyFluid : FluidFuncs ℚ where
  h_pT := fun _ T => .ok T
  h_pQ := fun p x => .ok (p + x)
  T_sat := fun p => .ok p
  p_sat := fun T => .ok T

/-- a connection with pressure and boiling temperature difference of 9 in the unit F -/
def boilingF : SimpState ℚ where
  isSet := fun q => q = .p ∨ q = .Td_bp
  refSet := fun _ => false
  balance := false
  solved := fun _ => false
  SI := fun q => match q with | .p => 100 | .Td_bp => 5 | _ => 0
  TdVal := 9

/-- C28, refuted part: with temperatures in F a boiling temperature difference of 9 (5 K) is
replaced by an enthalpy for a difference of 9 K. -/
theorem C28_boiling_difference_wrong :
    convertToSI .Td_bp boilingF.TdVal "F" = .ok (boilingF.SI .Td_bp) ∧ Spec.clean boilingF ∧
    (simplify toyFluid boilingF).2 = none ∧ (simplify toyFluid boilingF).1.solved .Td_bp = true ∧
    ¬ Spec.demand toyFluid (fun _ h => h) (simplify toyFluid boilingF).1 .Td_bp := by
  refine ⟨by decide +kernel, fun _ => rfl, by decide +kernel, by decide +kernel, ?_⟩
  rintro ⟨Ts, h1, h2⟩
  have e1 : (simplify toyFluid boilingF).1.SI .p = 100 := by decide +kernel
  have e2 : (simplify toyFluid boilingF).1.SI .h = 109 := by decide +kernel
  have e3 : (simplify toyFluid boilingF).1.SI .Td_bp = 5 := by decide +kernel
  rw [e1] at h1
  simp only [toyFluid, Except.ok.injEq] at h1
  rw [e2, e3, ← h1] at h2
  norm_num at h2

/-- pressure, temperature and steam quality specified -/
def threeState : SimpState ℚ where
  isSet := fun q => q = .p ∨ q = .T ∨ q = .x
  refSet := fun _ => false
  balance := false
  solved := fun _ => false
  SI := fun q => match q with | .p => 100 | .T => 50 | .x => 1/2 | _ => 0
  TdVal := 0

/-- C28, refuted part: three specifications of the state (two determine it) are accepted;
the equation of the steam quality is left without any variable it depends on. -/
theorem C28_overdetermined_accepted :
    (connSetup toyFluid threeState).map (fun r => (r.1, r.2.1)) = .ok ([.m], [.prop .x]) := by
  decide +kernel

example : Spec.clean boilingF := fun _ => rfl
example : ∃ r, connSetup toyFluid threeState = .ok r := by
  simp only [connSetup]
  rcases h : simplify toyFluid threeState with ⟨a, o⟩
  have : (simplify toyFluid threeState).2 = none := by decide +kernel
  rw [h] at this
  simp only at this
  subst this
  exact ⟨_, rfl⟩

end Tespy
