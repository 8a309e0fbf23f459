import Mathlib.Algebra.Order.Field.Rat
import Mathlib.Tactic.Linarith
import Mathlib.Tactic.NormNum
import Mathlib.Tactic.FieldSimp
import Mathlib.Tactic.Ring
import Verif.Model.StartValues
import Verif.Model.Presolve
/-
C73: starting values and specified or presolved values; C74: choice of starting values; C75:
`init_path`; C76: `init_previous`.
-/
namespace Tespy
variable {K : Type} [Field K] [LinearOrder K]

/-! ### general lemmas -/

/-- the relation `R` holds between the states before and after a step -/
def PyStep.Rel {S : Type} (R : S → S → Prop) (a : PyStep S) : Prop := ∀ s, R s (a s).1

theorem PyStep.Rel.andThen {S : Type} {R : S → S → Prop} (ht : ∀ a b c, R a b → R b c → R a c)
    {a b : PyStep S} (ha : a.Rel R) (hb : b.Rel R) : (a.andThen b).Rel R := by
  intro s
  have h1 := ha s
  simp only [PyStep.andThen]
  rcases h : a s with ⟨s1, _ | e⟩
  · rw [h] at h1
    exact ht _ _ _ h1 (hb s1)
  · rw [h] at h1
    exact h1

theorem PyStep.Rel.forEach {S α : Type} {R : S → S → Prop} (hr : ∀ a, R a a)
    (ht : ∀ a b c, R a b → R b c → R a c) (f : α → PyStep S) (l : List α)
    (hf : ∀ a ∈ l, (f a).Rel R) : (PyStep.forEach f l).Rel R := by
  induction l with
  | nil => exact fun s => hr s
  | cons a l ih =>
    exact PyStep.Rel.andThen ht (hf a (by simp)) (ih (fun b hb => hf b (by simp [hb])))

/-! ### C73 -/

/-- Values which are no variables are the same in both states, and so are the specifications. -/
def Spec.FixedKept (s s' : StartState K) : Prop :=
  ∀ k i, (s'.box k i).val = (s.box k i).val ∧ (s'.box k i).isSet = (s.box k i).isSet ∧
    (s'.box k i).isVar = (s.box k i).isVar ∧
    ((s.box k i).isVar = false → (s'.box k i).si = (s.box k i).si)

namespace Spec.FixedKept

theorem refl (s : StartState K) : Spec.FixedKept s s := fun _ _ => ⟨rfl, rfl, rfl, fun _ => rfl⟩

theorem trans (a b c : StartState K) (h1 : Spec.FixedKept a b) (h2 : Spec.FixedKept b c) :
    Spec.FixedKept a c := by
  intro k i
  obtain ⟨a1, a2, a3, a4⟩ := h1 k i
  obtain ⟨b1, b2, b3, b4⟩ := h2 k i
  exact ⟨b1.trans a1, b2.trans a2, b3.trans a3, fun h => (b4 (a3.trans h)).trans (a4 h)⟩

theorem put (s : StartState K) (k : PropKind) (i : ℕ) (b : StartBox K) (h1 : b.val = (s.box k i).val)
    (h2 : b.isSet = (s.box k i).isSet) (h3 : b.isVar = (s.box k i).isVar)
    (h4 : (s.box k i).isVar = false → b.si = (s.box k i).si) : Spec.FixedKept s (s.put k i b) := by
  intro k' i'
  simp only [StartState.put]
  split
  · next h =>
    obtain ⟨rfl, rfl⟩ := h
    exact ⟨h1, h2, h3, h4⟩
  · exact ⟨rfl, rfl, rfl, fun _ => rfl⟩

theorem putSI (s : StartState K) (k : PropKind) (i : ℕ) (v : Option K) (h : (s.box k i).isVar = true) :
    Spec.FixedKept s (s.putSI k i v) :=
  put s k i _ rfl rfl rfl (fun h' => by rw [h] at h'; cases h')

end Spec.FixedKept

theorem initVal0_fixed (E : StartEnv K) (c : StartConn K) (k : PropKind) :
    (initVal0 E c k).Rel Spec.FixedKept := by
  intro s
  simp only [initVal0]
  cases (s.box k (c.box k)).val0 with
  | some _ => exact Spec.FixedKept.refl s
  | none =>
    simp only
    split
    · exact Spec.FixedKept.put s k _ _ rfl rfl rfl (fun _ => rfl)
    · cases (c.src k).eval E c.id (s.box .p (c.box .p)).si with
      | error e => exact Spec.FixedKept.refl s
      | ok a =>
        simp only
        cases (c.tgt k).eval E c.id (s.box .p (c.box .p)).si with
        | error e => exact Spec.FixedKept.refl s
        | ok b => exact Spec.FixedKept.put s k _ _ rfl rfl rfl (fun _ => rfl)

theorem startOne_fixed (E : StartEnv K) (c : StartConn K) (k : PropKind) :
    (startOne E c k).Rel Spec.FixedKept := by
  intro s
  simp only [startOne]
  split
  · next hv =>
    have h1 : Spec.FixedKept s ((if s.good c.id then PyStep.skip else initVal0 E c k) s).1 := by
      split
      · exact Spec.FixedKept.refl s
      · exact initVal0_fixed E c k s
    simp only [PyStep.andThen]
    rcases hr : (if s.good c.id then PyStep.skip else initVal0 E c k) s with ⟨s1, _ | e⟩
    · rw [hr] at h1
      exact Spec.FixedKept.trans _ _ _ h1 (Spec.FixedKept.putSI s1 k _ _ (((h1 k (c.box k)).2.2.1).trans hv))
    · rw [hr] at h1
      exact h1
  · exact Spec.FixedKept.refl s

theorem fromFile_fixed (E : StartEnv K) (c : StartConn K) : (fromFile E c).Rel Spec.FixedKept := by
  intro s
  simp only [fromFile]
  cases E.file c.id with
  | none => exact Spec.FixedKept.refl s
  | some row =>
    refine PyStep.Rel.andThen Spec.FixedKept.trans (PyStep.Rel.forEach Spec.FixedKept.refl Spec.FixedKept.trans _ _ ?_) ?_ s
    · intro k _ s
      exact Spec.FixedKept.put s k _ _ rfl rfl rfl (fun _ => rfl)
    · intro s
      exact fun _ _ => ⟨rfl, rfl, rfl, fun _ => rfl⟩

theorem startTry_fixed (c : StartConn K) (r : PyRes K) (s : StartState K) (h : (s.box .h (c.box .h)).isVar = true) :
    Spec.FixedKept s (startTry c r s).1 := by
  unfold startTry
  split
  · exact Spec.FixedKept.putSI s _ _ _ h
  · exact Spec.FixedKept.refl s
  · exact Spec.FixedKept.refl s

theorem startX_fixed (E : StartEnv K) (c : StartConn K) (s : StartState K) (h : (s.box .h (c.box .h)).isVar = true) :
    Spec.FixedKept s (startX E c s).1 := by
  unfold startX
  split
  · exact Spec.FixedKept.refl s
  · exact startTry_fixed c _ s h

theorem startT_fixed (E : StartEnv K) (c : StartConn K) (s : StartState K) (h : (s.box .h (c.box .h)).isVar = true) :
    Spec.FixedKept s (startT E c s).1 := by
  unfold startT
  split
  · exact Spec.FixedKept.refl s
  · exact startTry_fixed c _ s h

theorem startPrecalc_fixed (E : StartEnv K) (c : StartConn K) : (startPrecalc E c).Rel Spec.FixedKept := by
  intro s
  simp only [startPrecalc]
  split
  · next hv =>
    have h1 := startX_fixed E c s hv
    simp only [PyStep.andThen]
    rcases hr : startX E c s with ⟨s1, _ | e⟩
    · rw [hr] at h1
      exact Spec.FixedKept.trans _ _ _ h1 (startT_fixed E c s1 (((h1 .h (c.box .h)).2.2.1).trans hv))
    · rw [hr] at h1
      exact h1
  · exact Spec.FixedKept.refl s

theorem startPhase_fixed (E : StartEnv K) (c : StartConn K) : (startPhase E c).Rel Spec.FixedKept := by
  intro s
  simp only [startPhase]
  split
  · next hv =>
    split
    · cases E.hpQ c.id (s.box .p (c.box .p)).si 1 with
      | error e => exact Spec.FixedKept.refl s
      | ok h =>
        simp only
        split
        · exact Spec.FixedKept.putSI s _ _ _ hv
        · exact Spec.FixedKept.refl s
    · split
      · cases E.hpQ c.id (s.box .p (c.box .p)).si 0 with
        | error e => exact Spec.FixedKept.refl s
        | ok h =>
          simp only
          split
          · exact Spec.FixedKept.putSI s _ _ _ hv
          · exact Spec.FixedKept.refl s
      · exact Spec.FixedKept.refl s
  · exact Spec.FixedKept.refl s

/-- No connection references a property which is neither specified nor a variable (that is: a value found
before the calculation). -/
def Spec.NoPresolvedRef (conns : List (StartConn K)) (s : StartState K) : Prop :=
  ∀ c ∈ conns, ∀ k, c.ref k ≠ none → (s.box k (c.box k)).isSet = true ∨ (s.box k (c.box k)).isVar = true

theorem startRef_fixed (c : StartConn K) (k : PropKind) (s : StartState K)
    (h : c.ref k ≠ none → (s.box k (c.box k)).isSet = true ∨ (s.box k (c.box k)).isVar = true) :
    Spec.FixedKept s (startRef c k s).1 := by
  simp only [startRef]
  cases hr : c.ref k with
  | none => exact Spec.FixedKept.refl s
  | some r =>
    obtain ⟨j, f, d⟩ := r
    simp only
    split
    · exact Spec.FixedKept.refl s
    · next hns =>
      rcases h (by rw [hr]; simp) with h1 | h1
      · exact absurd h1 hns
      · exact Spec.FixedKept.putSI s _ _ _ h1

/-- flags stay, so the assumption on references stays -/
theorem NoPresolvedRef.step {conns : List (StartConn K)} {s s' : StartState K} (h : Spec.NoPresolvedRef conns s)
    (hf : Spec.FixedKept s s') : Spec.NoPresolvedRef conns s' := by
  intro c hc k hk
  obtain ⟨_, h2, h3, _⟩ := hf k (c.box k)
  rw [h2, h3]
  exact h c hc k hk

/-- the relation used for the second loop -/
def FixedIf (conns : List (StartConn K)) (s s' : StartState K) : Prop :=
  Spec.NoPresolvedRef conns s → Spec.FixedKept s s'

theorem FixedIf.trans (conns : List (StartConn K)) (a b c : StartState K) (h1 : FixedIf conns a b)
    (h2 : FixedIf conns b c) : FixedIf conns a c :=
  fun h => Spec.FixedKept.trans _ _ _ (h1 h) (h2 (NoPresolvedRef.step h (h1 h)))

/-- C73: the initialisation of starting values (also from a file, also if it fails) changes neither
specified values nor values found before the calculation, if no property with such a value is specified by
a reference. -/
theorem C73_fixed_partial (E : StartEnv K) (conns : List (StartConn K)) (s : StartState K)
    (href : Spec.NoPresolvedRef conns s) : Spec.FixedKept s (initProperties E conns s).1 := by
  have hr : ∀ a, FixedIf conns a a := fun a _ => Spec.FixedKept.refl a
  have ht := FixedIf.trans conns
  refine PyStep.Rel.andThen ht (PyStep.Rel.forEach hr ht _ _ ?_) (PyStep.Rel.forEach hr ht _ _ ?_) s href
  · intro c _ s _
    exact PyStep.Rel.andThen Spec.FixedKept.trans (fromFile_fixed E c)
      (PyStep.Rel.forEach Spec.FixedKept.refl Spec.FixedKept.trans _ _ (fun k _ => startOne_fixed E c k)) s
  · intro c hc s
    simp only [startSecond]
    refine PyStep.Rel.andThen ht ?_ (fun s _ => startPhase_fixed E c s) s
    split
    · exact fun s => hr s
    · refine PyStep.Rel.andThen ht (PyStep.Rel.forEach hr ht _ _ ?_) (fun s _ => startPrecalc_fixed E c s)
      intro k _ s hn
      exact startRef_fixed c k s (hn c hc k)

/-! ### examples -/

/-- units kg/s and t/h, Pa and bar, J/kg and kJ/kg; h(p, T) = 1000 T, h(p, Q) = 400000 + 2000000 Q -/
def startEnv : StartEnv ℚ where
  factor := fun _ u => if u = "t / h" then 5 / 18 else if u = "bar" then 100000 else if u = "kJ / kg" then 1000 else 1
  netUnit := fun k => match k with
    | .m => "kg / s"
    | .p => "bar"
    | .h => "kJ / kg"
  rand := fun _ => 1 / 2
  hpQ := fun _ p q => if p = none then .error .valueError else .ok (400000 + 2000000 * q)
  hpT := fun _ p T => if p = none then .error .valueError else .ok (1000 * T)
  file := fun _ => none

/-- connection number `n` with containers of its own between two components -/
def startConn (n : ℕ) (a b : StartClass) : StartConn ℚ where
  id := n
  box := fun _ => n
  src := sourceHint a true
  tgt := targetHint b true
  ref := fun _ => none
  x := none
  T := none
  Td := none
  state := none

/-- everything variable and without starting values -/
def freshState : StartState ℚ where
  box := fun k _ => ⟨none, none, some 0, startEnv.netUnit k, false, true⟩
  good := fun _ => false

/-- C73, references: the enthalpy of connection 1 has been found from specified pressure and temperature
(it is neither specified nor a variable) and references the enthalpy of connection 0. The starting value of
connection 0 overwrites it, so the calculation continues with a wrong temperature at connection 1. -/
theorem C73_reference_false : ∃ (E : StartEnv ℚ) (conns : List (StartConn ℚ)) (c : StartConn ℚ) (s : StartState ℚ) (T : ℚ),
    c ∈ conns ∧ c.T = some T ∧ (s.box .p (c.box .p)).isSet = true ∧ (s.box .h (c.box .h)).isSet = false ∧
    (s.box .h (c.box .h)).isVar = false ∧
    (∃ h, E.hpT c.id (s.box .p (c.box .p)).si T = .ok h ∧ (s.box .h (c.box .h)).si = some h) ∧
    (initProperties E conns s).2 = none ∧
    (∃ h, ((initProperties E conns s).1.box .h (c.box .h)).si = some h ∧
      E.hpT c.id ((initProperties E conns s).1.box .p (c.box .p)).si T ≠ .ok h) := by
  refine ⟨startEnv, [startConn 0 .other .other,
      { startConn 1 .other .other with T := some 350, ref := fun k => if k = .h then some (0, 1, 0) else none }],
    { startConn 1 .other .other with T := some 350, ref := fun k => if k = .h then some (0, 1, 0) else none },
    { freshState with box := fun k i => if i = 1 then
        (match k with
        | .m => ⟨none, none, some 0, "kg / s", false, true⟩
        | .p => ⟨some 1, none, some 100000, "bar", true, false⟩
        | .h => ⟨none, none, some 350000, "kJ / kg", false, false⟩) else freshState.box k i },
    350, by simp, rfl, rfl, rfl, rfl, ⟨350000, by decide +kernel, by decide +kernel⟩, by decide +kernel,
    ⟨1000000, by decide +kernel, by decide +kernel⟩⟩

-- non-vacuity of C73_fixed_partial: reference of a variable, specified pressure is kept
example : let conns := [startConn 0 .other .pump, { startConn 1 .pump .other with ref := fun k => if k = .h then some (0, 2, 0) else none }]
    let s : StartState ℚ := { freshState with box := fun k i => if i = 1 ∧ k = .p then
      ⟨some 5, none, some 500000, "bar", true, false⟩ else freshState.box k i }
    Spec.NoPresolvedRef conns s ∧ (initProperties startEnv conns s).2 = none ∧
    ((initProperties startEnv conns s).1.box .p 1).si = some 500000 ∧
    ((initProperties startEnv conns s).1.box .h 1).si = some 580000 ∧
    ((initProperties startEnv conns s).1.box .p 0).si = some 100000 := by
  refine ⟨?_, by decide +kernel, by decide +kernel, by decide +kernel, by decide +kernel⟩
  intro c hc k hk
  simp only [List.mem_cons, List.not_mem_nil, or_false] at hc
  rcases hc with rfl | rfl
  · exact absurd rfl hk
  · cases k
    · exact absurd rfl hk
    · exact absurd rfl hk
    · right; rfl

/-! ### C74 -/

theorem pyAndThen_ok {S : Type} {a b : PyStep S} {s : S} (h : (a.andThen b s).2 = none) :
    (a s).2 = none ∧ (b (a s).1).2 = none ∧ (a.andThen b s).1 = (b (a s).1).1 := by
  simp only [PyStep.andThen] at h ⊢
  rcases ha : a s with ⟨s1, _ | e⟩
  · rw [ha] at h
    exact ⟨rfl, h, rfl⟩
  · rw [ha] at h
    cases h

/-- a property kept by all steps holds afterwards -/
theorem pyForEach_keep {S α : Type} (f : α → PyStep S) (P : S → Prop) (l : List α)
    (hk : ∀ a ∈ l, ∀ s, P s → P (f a s).1) (s : S) (hs : P s) : P (PyStep.forEach f l s).1 := by
  induction l generalizing s with
  | nil => exact hs
  | cons a l ih =>
    have h1 := hk a (by simp) s hs
    simp only [PyStep.forEach, PyStep.andThen]
    rcases ha : f a s with ⟨s1, _ | e⟩
    · rw [ha] at h1
      exact ih (fun b hb => hk b (by simp [hb])) s1 h1
    · rw [ha] at h1
      exact h1

/-- a property established by one step and kept by the others holds afterwards, `Q` is an invariant -/
theorem pyForEach_est {S α : Type} (f : α → PyStep S) (P Q : S → Prop) (l : List α) (a : α) (ha : a ∈ l)
    (hQ : ∀ b ∈ l, ∀ s, Q s → Q (f b s).1)
    (hest : ∀ s, Q s → (f a s).2 = none → P (f a s).1)
    (hk : ∀ b ∈ l, ∀ s, Q s → P s → P (f b s).1) (s : S) (hs : Q s)
    (hok : (PyStep.forEach f l s).2 = none) : P (PyStep.forEach f l s).1 := by
  induction l generalizing s with
  | nil => cases ha
  | cons b l ih =>
    obtain ⟨h1, h2, h3⟩ := pyAndThen_ok hok
    have h4 : (PyStep.forEach f (b :: l) s).1 = (PyStep.forEach f l (f b s).1).1 := h3
    rw [h4]
    rcases List.mem_cons.mp ha with rfl | ha
    · exact (pyForEach_keep f (fun s => Q s ∧ P s) l
        (fun b hb s hs => ⟨hQ b (by simp [hb]) s hs.1, hk b (by simp [hb]) s hs.1 hs.2⟩) _
        ⟨hQ a (by simp) s hs, hest s hs h1⟩).2
    · exact ih ha (fun b hb => hQ b (by simp [hb])) (fun b hb => hk b (by simp [hb])) _ (hQ b (by simp) s hs) h2

/-- The starting value of container `i` of kind `k` is chosen from `val0`: no file, and for every connection
with this container no reference of the property and, for enthalpies, no specification of vapour fraction,
temperature or phase. -/
structure Spec.Plain (E : StartEnv K) (conns : List (StartConn K)) (k : PropKind) (i : ℕ) : Prop where
  file : ∀ c ∈ conns, E.file c.id = none
  ref : ∀ c ∈ conns, c.box k = i → c.ref k = none
  x : ∀ c ∈ conns, k = .h → c.box .h = i → c.x = none ∧ c.T = none ∧ c.Td = none ∧ c.state = none

/-- container (k, i): unit, flag and starting value `w`, which is already there or (if `A`) still missing -/
def StartInv (A : Prop) (k : PropKind) (i : ℕ) (u : String) (w : K) (s : StartState K) : Prop :=
  (s.box k i).unit = u ∧ (s.box k i).isVar = true ∧ ((s.box k i).val0 = some w ∨ A ∧ (s.box k i).val0 = none)

theorem put_box (s : StartState K) (k k' : PropKind) (i i' : ℕ) (b : StartBox K) :
    (s.put k i b).box k' i' = if k' = k ∧ i' = i then b else s.box k' i' := rfl

theorem initVal0_inv (E : StartEnv K) (A : Prop) (k : PropKind) (i : ℕ) (u : String) (w : K) (c : StartConn K)
    (hA : A → c.box k = i → ∀ s : StartState K, (s.box k i).val0 = none →
      initVal0 E c k s = (s.put k i { s.box k i with val0 := some w }, none))
    (k' : PropKind) (s : StartState K) (hs : StartInv A k i u w s) :
    StartInv A k i u w (initVal0 E c k' s).1 ∧ ((initVal0 E c k' s).1.box k i).si = (s.box k i).si ∧
    (k' = k → c.box k = i → ((initVal0 E c k' s).1.box k i).val0 = some w) := by
  by_cases hki : k' = k ∧ c.box k = i
  · obtain ⟨rfl, rfl⟩ := hki
    rcases hs.2.2 with h0 | ⟨ha, h0⟩
    · have h1 : initVal0 E c k' s = (s, none) := by simp only [initVal0, h0]
      rw [h1]
      exact ⟨hs, rfl, fun _ _ => h0⟩
    · rw [hA ha rfl s h0]
      simp only [put_box, StartInv]
      simp only [and_self, if_true]
      exact ⟨⟨hs.1, hs.2.1, Or.inl trivial⟩, trivial, fun _ _ => trivial⟩
  · have hne : ∀ b, (s.put k' (c.box k') b).box k i = s.box k i := by
      intro b
      rw [put_box, if_neg]
      rintro ⟨rfl, h2⟩
      exact hki ⟨rfl, h2.symm⟩
    have h1 : (initVal0 E c k' s).1.box k i = s.box k i := by
      simp only [initVal0]
      cases (s.box k' (c.box k')).val0 with
      | some _ => rfl
      | none =>
        simp only
        split
        · exact hne _
        · cases (c.src k').eval E c.id (s.box .p (c.box .p)).si with
          | error e => rfl
          | ok a =>
            simp only
            cases (c.tgt k').eval E c.id (s.box .p (c.box .p)).si with
            | error e => rfl
            | ok b => exact hne _
    refine ⟨?_, by rw [h1], fun h2 h3 => absurd ⟨h2, h3⟩ hki⟩
    simp only [StartInv, h1]
    exact hs

theorem initVal0_good (E : StartEnv K) (c : StartConn K) (k : PropKind) (s : StartState K) :
    (initVal0 E c k s).1.good = s.good := by
  simp only [initVal0]
  cases (s.box k (c.box k)).val0 with
  | some _ => rfl
  | none =>
    simp only
    split
    · rfl
    · cases (c.src k).eval E c.id (s.box .p (c.box .p)).si with
      | error e => rfl
      | ok a =>
        simp only
        cases (c.tgt k).eval E c.id (s.box .p (c.box .p)).si with
        | error e => rfl
        | ok b => rfl

theorem initVal0_ok (E : StartEnv K) (A : Prop) (k : PropKind) (i : ℕ) (u : String) (w : K) (c : StartConn K)
    (hA : A → c.box k = i → ∀ s : StartState K, (s.box k i).val0 = none →
      initVal0 E c k s = (s.put k i { s.box k i with val0 := some w }, none))
    (hc : c.box k = i) (s : StartState K) (hs : StartInv A k i u w s) : (initVal0 E c k s).2 = none := by
  rcases hs.2.2 with h0 | ⟨ha, h0⟩
  · subst hc
    simp only [initVal0, h0]
  · rw [hA ha hc s h0]

/-- one variable of one connection: invariant kept, value established for container (k, i); `A` excludes
connections with values of a former calculation -/
theorem startOne_inv (E : StartEnv K) (A : Prop) (k : PropKind) (i : ℕ) (u : String) (w : K) (c : StartConn K)
    (hA : A → c.box k = i → ∀ s : StartState K, (s.box k i).val0 = none →
      initVal0 E c k s = (s.put k i { s.box k i with val0 := some w }, none))
    (k' : PropKind) (s : StartState K) (hg : A → s.good c.id = false) (hs : StartInv A k i u w s) :
    StartInv A k i u w (startOne E c k' s).1 ∧ (startOne E c k' s).1.good = s.good ∧
    ((s.box k i).si = some (w * E.factor k u) → ((startOne E c k' s).1.box k i).si = some (w * E.factor k u)) ∧
    (k' = k → c.box k = i → ((startOne E c k' s).1.box k i).si = some (w * E.factor k u)) := by
  simp only [startOne]
  split
  · next hv =>
    have h1 := initVal0_inv E A k i u w c hA k' s hs
    have hgd := initVal0_good E c k' s
    have h2 : StartInv A k i u w ((if s.good c.id then PyStep.skip else initVal0 E c k') s).1 ∧
        (((if s.good c.id then PyStep.skip else initVal0 E c k') s).1.box k i).si = (s.box k i).si ∧
        (k' = k → c.box k = i →
          (((if s.good c.id then PyStep.skip else initVal0 E c k') s).1.box k i).val0 = some w) ∧
        ((if s.good c.id then PyStep.skip else initVal0 E c k') s).1.good = s.good := by
      split
      · next hgood =>
        refine ⟨hs, rfl, fun _ _ => ?_, rfl⟩
        rcases hs.2.2 with h0 | ⟨ha, _⟩
        · exact h0
        · rw [hg ha] at hgood; cases hgood
      · exact ⟨h1.1, h1.2.1, h1.2.2, hgd⟩
    have hok : k' = k → c.box k = i → ((if s.good c.id then PyStep.skip else initVal0 E c k') s).2 = none := by
      rintro rfl hb
      split
      · rfl
      · exact initVal0_ok E A k' i u w c hA hb s hs
    simp only [PyStep.andThen]
    rcases hr : (if s.good c.id then PyStep.skip else initVal0 E c k') s with ⟨s1, _ | e⟩
    · rw [hr] at h2
      obtain ⟨g1, g2, g3, g4⟩ := h2
      simp only [StartState.putSI]
      by_cases hki : k' = k ∧ c.box k = i
      · obtain ⟨rfl, rfl⟩ := hki
        have g3' := g3 rfl rfl
        simp only at g3' g1
        have hres : ((s1.put k' (c.box k') { s1.box k' (c.box k') with
            si := (s1.box k' (c.box k')).val0.map (· * E.factor k' (s1.box k' (c.box k')).unit) }).box k' (c.box k')).si
            = some (w * E.factor k' u) := by
          simp only [put_box, and_self, if_true, g3', g1.1]
          rfl
        refine ⟨?_, g4, fun _ => hres, fun _ _ => hres⟩
        simp only [StartInv, put_box, and_self, if_true]
        exact g1
      · have hne : ∀ b, (s1.put k' (c.box k') b).box k i = s1.box k i := by
          intro b
          rw [put_box, if_neg]
          rintro ⟨rfl, h2⟩
          exact hki ⟨rfl, h2.symm⟩
        refine ⟨?_, g4, fun h => ?_, fun h3 h4 => absurd ⟨h3, h4⟩ hki⟩
        · simp only [StartInv, hne]; exact g1
        · rw [hne]; exact g2.trans h
    · rw [hr] at h2 hok
      obtain ⟨g1, g2, g3, g4⟩ := h2
      exact ⟨g1, g4, fun h => g2.trans h, fun h3 h4 => by cases hok h3 h4⟩
  · next hv =>
    refine ⟨hs, rfl, fun h => h, ?_⟩
    rintro rfl rfl
    exact absurd hs.2.1 hv

theorem startFirst_nofile (E : StartEnv K) (c : StartConn K) (h : E.file c.id = none) :
    startFirst E c = PyStep.forEach (startOne E c) [.m, .p, .h] := by
  simp only [startFirst, fromFile, h]
  rfl

/-- container (k, i) is the same in both states -/
def BoxKept (k : PropKind) (i : ℕ) (a b : StartState K) : Prop := b.box k i = a.box k i

theorem boxKept_trans (k : PropKind) (i : ℕ) (a b c : StartState K) (h : BoxKept k i a b) (h' : BoxKept k i b c) :
    BoxKept k i a c := Eq.trans h' h

/-- container (k, i) is not touched by the second loop -/
theorem startSecond_keep (E : StartEnv K) (conns : List (StartConn K)) (k : PropKind) (i : ℕ)
    (hp : Spec.Plain E conns k i) (c : StartConn K) (hc : c ∈ conns) (s : StartState K) :
    (startSecond E c s).1.box k i = s.box k i := by
  have hne : ∀ (s : StartState K) (k' : PropKind) b, ¬ (k' = k ∧ c.box k = i) → (s.put k' (c.box k') b).box k i = s.box k i := by
    intro s k' b hki
    rw [put_box, if_neg]
    rintro ⟨rfl, h2⟩
    exact hki ⟨rfl, h2.symm⟩
  have ht := boxKept_trans (K := K) k i
  have hh : ∀ (s : StartState K) v, ¬ (PropKind.h = k ∧ c.box .h = i) → (StartState.putSI s .h (c.box .h) v).box k i = s.box k i := by
    intro s v h
    refine hne s .h _ ?_
    rintro ⟨h1, h2⟩
    exact h ⟨h1, by rw [h1]; exact h2⟩
  have htry : ∀ r (s : StartState K), ¬ (PropKind.h = k ∧ c.box .h = i) → (startTry c r s).1.box k i = s.box k i := by
    intro r s h
    unfold startTry
    split
    · exact hh s _ h
    · rfl
    · rfl
  simp only [startSecond]
  refine PyStep.Rel.andThen (R := BoxKept k i) ht ?_ ?_ s
  · split
    · exact fun _ => rfl
    · refine PyStep.Rel.andThen (R := BoxKept k i) ht
        (PyStep.Rel.forEach (R := BoxKept k i) (fun _ => rfl) ht _ _ ?_) ?_
      · intro k' _ s
        simp only [startRef]
        cases hr : c.ref k' with
        | none => rfl
        | some r =>
          obtain ⟨j, f, d⟩ := r
          simp only
          split
          · rfl
          · refine hne s k' _ ?_
            rintro ⟨rfl, h2⟩
            rw [hp.ref c hc h2] at hr
            cases hr
      · intro s
        simp only [startPrecalc]
        split
        · refine PyStep.Rel.andThen (R := BoxKept k i) ht ?_ ?_ s
          · intro s
            unfold startX
            split
            · rfl
            · next x hx =>
              refine htry _ s ?_
              rintro ⟨h1, h2⟩
              rw [(hp.x c hc h1.symm h2).1] at hx
              cases hx
          · intro s
            unfold startT
            split
            · rfl
            · next x hx =>
              refine htry _ s ?_
              rintro ⟨h1, h2⟩
              rw [(hp.x c hc h1.symm h2).2.1] at hx
              cases hx
        · rfl
  · intro s
    by_cases hki : PropKind.h = k ∧ c.box .h = i
    · obtain ⟨_, _, h3, h4⟩ := hp.x c hc hki.1.symm hki.2
      simp only [startPhase, h3, h4, optGt, optLt]
      split <;> simp [BoxKept]
    · simp only [startPhase]
      split
      · split
        · cases E.hpQ c.id (s.box .p (c.box .p)).si 1 with
          | error e => rfl
          | ok h =>
            simp only
            split
            · exact hh s _ hki
            · rfl
        · split
          · cases E.hpQ c.id (s.box .p (c.box .p)).si 0 with
            | error e => rfl
            | ok h =>
              simp only
              split
              · exact hh s _ hki
              · rfl
          · rfl
      · rfl

/-- the general form -/
theorem start_value (E : StartEnv K) (conns : List (StartConn K)) (s : StartState K) (A : Prop) (k : PropKind) (i : ℕ)
    (u : String) (w : K) (c : StartConn K) (hc : c ∈ conns) (hci : c.box k = i) (hp : Spec.Plain E conns k i)
    (hA : A → ∀ c ∈ conns, c.box k = i → ∀ s : StartState K, (s.box k i).val0 = none →
      initVal0 E c k s = (s.put k i { s.box k i with val0 := some w }, none))
    (hg : A → ∀ c ∈ conns, s.good c.id = false) (hs : StartInv A k i u w s)
    (hok : (initProperties E conns s).2 = none) :
    ((initProperties E conns s).1.box k i).si = some (w * E.factor k u) := by
  obtain ⟨h1, h2, h3⟩ := pyAndThen_ok hok
  have h4 : (initProperties E conns s).1 = _ := h3
  rw [h4]
  have hkeep : ∀ s1 : StartState K, ((PyStep.forEach (startSecond E) conns s1).1.box k i) = s1.box k i := by
    intro s1
    exact PyStep.Rel.forEach (R := BoxKept k i) (fun _ => rfl) (boxKept_trans k i) _ _
      (fun d hd s => startSecond_keep E conns k i hp d hd s) s1
  rw [hkeep]
  have inner : ∀ d ∈ conns, ∀ s1, StartInv A k i u w s1 ∧ (A → ∀ c ∈ conns, s1.good c.id = false) →
      (StartInv A k i u w (startFirst E d s1).1 ∧ (A → ∀ c ∈ conns, (startFirst E d s1).1.good c.id = false)) := by
    intro d hd s1 hs1
    rw [startFirst_nofile E d (hp.file d hd)]
    refine pyForEach_keep (startOne E d) (fun s => StartInv A k i u w s ∧ (A → ∀ c ∈ conns, s.good c.id = false)) _ ?_ s1 hs1
    intro k' _ s2 hs2
    have := startOne_inv E A k i u w d (fun ha => hA ha d hd) k' s2 (fun ha => hs2.2 ha d hd) hs2.1
    exact ⟨this.1, fun ha c hc => by rw [this.2.1]; exact hs2.2 ha c hc⟩
  refine pyForEach_est (startFirst E) (fun s => (s.box k i).si = some (w * E.factor k u))
    (fun s => StartInv A k i u w s ∧ (A → ∀ c ∈ conns, s.good c.id = false)) conns c hc inner ?_ ?_ s ⟨hs, hg⟩ h1
  · intro s1 hs1 hok1
    rw [startFirst_nofile E c (hp.file c hc)] at hok1 ⊢
    refine pyForEach_est (startOne E c) (fun s => (s.box k i).si = some (w * E.factor k u)) (fun s => StartInv A k i u w s ∧ (A → ∀ c ∈ conns, s.good c.id = false))
      [.m, .p, .h] k (by cases k <;> simp) ?_ ?_ ?_ s1 hs1 hok1
    · intro k' _ s2 hs2
      have := startOne_inv E A k i u w c (fun ha => hA ha c hc) k' s2 (fun ha => hs2.2 ha c hc) hs2.1
      exact ⟨this.1, fun ha c hc => by rw [this.2.1]; exact hs2.2 ha c hc⟩
    · intro s2 hs2 _
      exact (startOne_inv E A k i u w c (fun ha => hA ha c hc) k s2 (fun ha => hs2.2 ha c hc) hs2.1).2.2.2 rfl hci
    · intro k' _ s2 hs2 hP
      exact (startOne_inv E A k i u w c (fun ha => hA ha c hc) k' s2 (fun ha => hs2.2 ha c hc) hs2.1).2.2.1 hP
  · intro d hd s1 hs1 hP
    rw [startFirst_nofile E d (hp.file d hd)]
    refine (pyForEach_keep (startOne E d) (fun s => (StartInv A k i u w s ∧ (A → ∀ c ∈ conns, s.good c.id = false)) ∧
      (s.box k i).si = some (w * E.factor k u)) _ ?_ s1 ⟨hs1, hP⟩).2
    intro k' _ s2 hs2
    have := startOne_inv E A k i u w d (fun ha => hA ha d hd) k' s2 (fun ha => hs2.1.2 ha d hd) hs2.1.1
    exact ⟨⟨this.1, fun ha c hc => by rw [this.2.1]; exact hs2.1.2 ha c hc⟩, this.2.2.1 hs2.2⟩

/-- C74, starting values of the user: a starting value `v` of a variable, given in the unit of its container, is
the value the calculation starts with, whatever the components suggest, if no other rule applies
(reference, file, for enthalpies vapour fraction, temperature, phase). -/
theorem C74_user_partial (E : StartEnv K) (conns : List (StartConn K)) (s : StartState K) (k : PropKind) (c : StartConn K)
    (hc : c ∈ conns) (hp : Spec.Plain E conns k (c.box k)) (v : K)
    (hv : (s.box k (c.box k)).val0 = some v) (hvar : (s.box k (c.box k)).isVar = true)
    (hok : (initProperties E conns s).2 = none) :
    ((initProperties E conns s).1.box k (c.box k)).si = some (v * E.factor k (s.box k (c.box k)).unit) :=
  start_value E conns s False k (c.box k) _ v c hc rfl hp (fun h => h.elim) (fun h => h.elim) ⟨rfl, hvar, Or.inl hv⟩ hok

/-- C74, generic values: without a starting value pressure and enthalpy start with the values suggested by the
components: the mean of both values, the only value, or 1 bar and 1 MJ/kg if there is none. -/
theorem C74_generic_partial (E : StartEnv K) (conns : List (StartConn K)) (s : StartState K) (k : PropKind) (hk : k ≠ .m)
    (c : StartConn K) (hc : c ∈ conns) (hp : Spec.Plain E conns k (c.box k))
    (hown : ∀ d ∈ conns, d.box k = c.box k → d = c) (a b : K) (ha : c.src k = .number a) (hb : c.tgt k = .number b)
    (hv : (s.box k (c.box k)).val0 = none) (hvar : (s.box k (c.box k)).isVar = true)
    (hunit : (s.box k (c.box k)).unit = E.netUnit k) (hf : E.factor k (E.netUnit k) ≠ 0)
    (hg : ∀ c ∈ conns, s.good c.id = false) (hok : (initProperties E conns s).2 = none) :
    ((initProperties E conns s).1.box k (c.box k)).si =
      some (if a = 0 ∧ b = 0 then (if k = .p then 100000 else 1000000)
        else if a = 0 then b else if b = 0 then a else (a + b) / 2) := by
  have h := start_value E conns s True k (c.box k) (E.netUnit k) (genericStart k a b / E.factor k (E.netUnit k)) c hc rfl hp
    (fun _ d hd hdi s1 h0 => by
      have hdc := hown d hd hdi
      subst hdc
      simp only [initVal0, h0, if_neg hk, ha, hb, StartHint.eval]) (fun _ => hg) ⟨hunit, hvar, Or.inr ⟨trivial, hv⟩⟩ hok
  rw [h, div_mul_cancel₀ _ hf]
  simp only [genericStart]
  cases k with
  | m => exact absurd rfl hk
  | p => simp
  | h => simp

/-- C74, mass flow: without a starting value the mass flow starts with a number between 1 and 2, in the unit of the
network. -/
theorem C74_mass_partial (E : StartEnv K) (conns : List (StartConn K)) (s : StartState K)
    (c : StartConn K) (hc : c ∈ conns) (hp : Spec.Plain E conns .m (c.box .m))
    (hown : ∀ d ∈ conns, d.box .m = c.box .m → d = c)
    (hv : (s.box .m (c.box .m)).val0 = none) (hvar : (s.box .m (c.box .m)).isVar = true)
    (hg : ∀ c ∈ conns, s.good c.id = false) (hok : (initProperties E conns s).2 = none) :
    ((initProperties E conns s).1.box .m (c.box .m)).si =
      some ((E.rand c.id + 1) * E.factor .m (s.box .m (c.box .m)).unit) :=
  start_value E conns s True .m (c.box .m) _ (E.rand c.id + 1) c hc rfl hp
    (fun _ d hd hdi s1 h0 => by
      have hdc := hown d hd hdi
      subst hdc
      simp only [initVal0, h0, if_true]) (fun _ => hg) ⟨rfl, hvar, Or.inr ⟨trivial, hv⟩⟩ hok

end Tespy
