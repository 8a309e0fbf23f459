import Verif.Model.CombRows
import Verif.Props.NumRows
import Verif.Props.Combustion
import Mathlib.Tactic.FieldSimp
import Mathlib.Tactic.Positivity

/-!
C91: the rows of the combustion chambers.
-/
namespace Tespy

namespace Spec

/-- Documented increments of numerical derivatives. -/
noncomputable def combStep : Var → ℝ
  | .m _ => 1e-4
  | .p _ => 0.1
  | .h _ => 0.1
  | .x _ _ => 1e-5
  | .par _ => 1

/-- A mass fraction is at least one increment away from 0 and 1. -/
def Inner (s : EqState ℝ) : Var → Prop
  | .x i f => 1e-5 ≤ s.val (.x i f) ∧ s.val (.x i f) ≤ 1 - 1e-5
  | _ => True

/-- Only fluids of a composition are variables. -/
def KnownFluids (s : EqState ℝ) : Prop := ∀ i f, s.isVar (.x i f) = true → f ∈ s.keys i

/-- All connections of the chamber. -/
def combConns (C : CombComp) : List Port := C.inl ++ [C.out]

/-- No two connections of the chamber share their mass flow or their composition. -/
def OwnFlows (C : CombComp) : Prop :=
  ((combConns C).map (·.m)).Nodup ∧ ((combConns C).map (·.fl)).Nodup

/-- No two connections of the chamber share their enthalpy. -/
def OwnEnthalpies (C : CombComp) : Prop := ((combConns C).map (·.h)).Nodup

/-- `x` is the partial derivative of the residual `g` for `v`. The residual need not exist far away from the state. -/
def PartialDerivative (g : EqState ℝ → PyRes ℝ) (s : EqState ℝ) (v : Var) (x : ℝ) : Prop :=
  ∃ h : ℝ → ℝ, (∀ t, |t - s.val v| ≤ combStep v → g (stateWith s v t) = .ok (h t)) ∧ HasDerivAt h x (s.val v)

/-- The reaction is not short of oxygen, or the amount of the fluid does not depend on what is short: lambda is specified
and at least 1, or it is specified and the fluid is no fuel, or it is not specified and at least 1 in the range of the
increment of `v`. -/
def Burns (C : CombComp) (s : EqState ℝ) (v : Var) (f : String) : Prop :=
  (∃ l, C.lam = some l ∧ (1 ≤ l ∨ f ∉ C.d.fuels)) ∨
  (C.lam = none ∧ ∀ t, |t - s.val v| ≤ combStep v →
    oxygenDemand C.d (C.inl.map (cStream C (stateWith s v t))) ≠ 0 ∧
    1 ≤ airRatio C.d (C.inl.map (cStream C (stateWith s v t))))

end Spec

theorem stateWith_cPut (s : EqState ℝ) (v : Var) (t : ℝ) : Spec.stateWith s v t = cPut s v t := stateWith_eq s v t

/-! ### the residuals depend on mass flows and compositions -/

private theorem nIn_map (C : CombComp) (s : EqState ℝ) (f : String) :
    nIn C.d (C.inl.map (cStream C s)) f = (C.inl.map (fun c => s.mv c * s.xv c f / C.d.M f)).sum := by
  simp [nIn, cStream, Function.comp_def]

private theorem stoich_congr (d : CombData String ℝ) (inl inl' : List (CombStream String ℝ)) (o o' : CombStream String ℝ)
    (lam : Option ℝ) (f : String) (h1 : ∀ f, nIn d inl f = nIn d inl' f)
    (h2 : (inl.map (fun i => i.x f * i.m)).sum = (inl'.map (fun i => i.x f * i.m)).sum)
    (h3 : o.x f = o'.x f) (h4 : o.m = o'.m) : stoichRes d inl o lam f = stoichRes d inl' o' lam f := by
  have hf : nIn d inl = nIn d inl' := funext h1
  have hl : calcLambda d inl = calcLambda d inl' := by
    unfold calcLambda nStoich nH nC nO2; rw [hf]
  have hd : ∀ l, combDm d inl l f = combDm d inl' l f := by
    intro l; unfold combDm fuelExc hExc cExc nStoich nO2 nH nC; rw [hf]
  have hv : lambdaVal d inl lam = lambdaVal d inl' lam := by
    unfold lambdaVal; rw [hl]
  unfold stoichRes
  rw [hv]
  cases lambdaVal d inl' lam with
  | error e => rfl
  | ok l => simp only [hd, h2, h3, h4]

private theorem lambda_congr (d : CombData String ℝ) (inl inl' : List (CombStream String ℝ)) (l : ℝ)
    (h1 : ∀ f, nIn d inl f = nIn d inl' f) : lambdaRes d inl l = lambdaRes d inl' l := by
  have hf : nIn d inl = nIn d inl' := funext h1
  unfold lambdaRes calcLambda nStoich nH nC nO2; rw [hf]

/-- Mass flows and compositions agree on a list of connections. -/
private def SameMX (L : List Port) (s s' : EqState ℝ) : Prop :=
  ∀ c ∈ L, s.mv c = s'.mv c ∧ s.xv c = s'.xv c

private theorem nIn_same (C : CombComp) (s s' : EqState ℝ) (h : SameMX C.inl s s') (f : String) :
    nIn C.d (C.inl.map (cStream C s)) f = nIn C.d (C.inl.map (cStream C s')) f := by
  rw [nIn_map, nIn_map]
  congr 1
  apply List.map_congr_left
  intro c hc
  rw [(h c hc).1, (h c hc).2]

private theorem sameMX_of_numMX (L : List Port) (s s' : EqState ℝ) (hk : Spec.KnownFluids s)
    (h : ∀ v, s.val v ≠ s'.val v → s.isVar v = true ∧ ∀ en ∈ L.flatMap (numMX s), en.1 ≠ v) : SameMX L s s' := by
  intro c hc
  constructor
  · by_contra hn
    refine (h (.m c.m) hn).2 (.m c.m, .num) ?_ rfl
    exact List.mem_flatMap.2 ⟨c, hc, by simp [numMX]⟩
  · funext f
    by_contra hn
    have hv := (h (.x c.fl f) hn)
    refine hv.2 (.x c.fl f, .num) ?_ rfl
    refine List.mem_flatMap.2 ⟨c, hc, ?_⟩
    have : f ∈ s.varFluids c := by
      simp only [EqState.varFluids, List.mem_filter]
      exact ⟨hk _ _ hv.1, hv.1⟩
    simp [numMX, this]

/-- Two states which differ only in variables the row does not name have the same residual: no variable is missing.
In the row of the energy balance this is true of mass flows, pressures and enthalpies. -/
theorem C91_complete_partial (C : CombComp) (e : CombEq) (s s' : EqState ℝ) (hk : Spec.KnownFluids s)
    (h : ∀ v, s.val v ≠ s'.val v → s.isVar v = true ∧ (e = .energy → Spec.FlowVar v) ∧ ∀ en ∈ e.row C s, en.1 ≠ v) :
    e.res C s = e.res C s' := by
  cases e with
  | stoich f =>
    have hs : SameMX (C.inl ++ [C.out]) s s' :=
      sameMX_of_numMX _ s s' hk (fun v hv => ⟨(h v hv).1, fun en hen => (h v hv).2.2 en hen⟩)
    have hi : SameMX C.inl s s' := fun c hc => hs c (by simp [hc])
    have ho := hs C.out (by simp)
    refine stoich_congr _ _ _ _ _ _ _ (nIn_same C s s' hi) ?_ ?_ ?_
    · simp only [List.map_map, Function.comp_def]
      congr 1
      apply List.map_congr_left
      intro c hc
      simp [cStream, hi c hc]
    · simp [cStream, ho.2]
    · simp [cStream, ho.1]
  | energy =>
    have hx : ∀ c : Port, s.xv c = s'.xv c := by
      intro c; funext f
      by_contra hn
      rcases (h (.x c.fl f) hn).2.1 rfl with ⟨c, h1⟩ | ⟨c, h1⟩ | ⟨c, h1⟩ <;> simp at h1
    have hc : ∀ c ∈ C.inl ++ [C.out], s.mv c = s'.mv c ∧ s.hv c = s'.hv c := by
      intro c hc
      constructor
      · by_contra hn
        refine (h (.m c.m) hn).2.2 (.m c.m, .num) ?_ rfl
        rcases List.mem_append.1 hc with hc | hc
        · exact List.mem_append_left _ (List.mem_flatMap.2 ⟨c, hc, by simp [energyPart]⟩)
        · simp only [List.mem_singleton] at hc; subst hc
          exact List.mem_append_right _ (by simp [energyPart])
      · by_contra hn
        rcases List.mem_append.1 hc with hc | hc
        · refine (h (.h c.h) hn).2.2 (.h c.h, .val (1 * s.mv c)) ?_ rfl
          exact List.mem_append_left _ (List.mem_flatMap.2 ⟨c, hc, by simp [energyPart]⟩)
        · simp only [List.mem_singleton] at hc; subst hc
          refine (h (.h C.out.h) hn).2.2 (.h C.out.h, .val (-1 * s.mv C.out)) ?_ rfl
          exact List.mem_append_right _ (by simp [energyPart])
    have hst : ∀ c ∈ C.inl ++ [C.out], cStream C s c = cStream C s' c := by
      intro c hcm; simp [cStream, hc c hcm, hx]
    have hm : C.inl.map (cStream C s) = C.inl.map (cStream C s') :=
      List.map_congr_left (fun c hc => hst c (by simp [hc]))
    simp only [CombEq.res, hm, hst C.out (by simp)]
  | lambda l =>
    have hi : SameMX C.inl s s' :=
      sameMX_of_numMX _ s s' hk (fun v hv => ⟨(h v hv).1, fun en hen => (h v hv).2.2 en hen⟩)
    exact lambda_congr _ _ _ _ (nIn_same C s s' hi)
  | ti =>
    have hc : ∀ c ∈ C.inl ++ [C.out], s.mv c = s'.mv c ∧ ∀ f ∈ C.d.fuels, s.xv c f = s'.xv c f := by
      intro c hc
      have hmem : ∀ v, (∃ σ, ∃ en ∈ tiPart C s σ c, en.1 = v) → ∃ en ∈ CombEq.ti.row C s, en.1 = v := by
        rintro v ⟨σ, en, h1, h2⟩
        have key : ∀ σ', ∃ en ∈ tiPart C s σ' c, en.1 = v := by
          intro σ'
          simp only [tiPart, List.mem_cons, List.mem_map] at h1 ⊢
          rcases h1 with h1 | ⟨f, h1, h3⟩
          · exact ⟨_, .inl rfl, by rw [← h2, h1]⟩
          · exact ⟨_, .inr ⟨f, h1, rfl⟩, by rw [← h2, ← h3]⟩
        rcases List.mem_append.1 hc with hc | hc
        · obtain ⟨en, h3, h4⟩ := key (-1)
          exact ⟨en, List.mem_append_left _ (List.mem_flatMap.2 ⟨c, hc, h3⟩), h4⟩
        · simp only [List.mem_singleton] at hc; subst hc
          obtain ⟨en, h3, h4⟩ := key 1
          exact ⟨en, List.mem_append_right _ h3, h4⟩
      constructor
      · by_contra hn
        obtain ⟨en, h1, h2⟩ := hmem (.m c.m) ⟨1, _, List.mem_cons_self, rfl⟩
        exact (h (.m c.m) hn).2.2 en h1 h2
      · intro f hf
        by_contra hn
        have hv := h (.x c.fl f) hn
        have : f ∈ s.varFluids c := by
          simp only [EqState.varFluids, List.mem_filter]
          exact ⟨hk _ _ hv.1, hv.1⟩
        obtain ⟨en, h1, h2⟩ := hmem (.x c.fl f) ⟨1, (.x c.fl f, .val (1 * s.mv c * C.d.LHV f)), by
          simp only [tiPart, List.mem_cons, List.mem_map, List.mem_filter]
          exact .inr ⟨f, ⟨this, by simpa using hf⟩, rfl⟩, rfl⟩
        exact hv.2.2 en h1 h2
    have ht : combTi C.d (C.inl.map (cStream C s)) (cStream C s C.out)
        = combTi C.d (C.inl.map (cStream C s')) (cStream C s' C.out) := by
      unfold combTi
      apply Finset.sum_congr rfl
      intro f hf
      simp only [List.map_map, Function.comp_def, cStream]
      have h1 := hc C.out (by simp)
      rw [h1.1, h1.2 f hf]
      congr 3
      apply List.map_congr_left
      intro c hcm
      have h2 := hc c (by simp [hcm])
      rw [h2.1, h2.2 f hf]
    simp only [CombEq.res, ht]

/-! ### evaluation of rows -/

theorem cEval_mem (g : EqState ℝ → PyRes ℝ) (s : EqState ℝ) (l : List (Var × CEntry))
    (r : List (Var × ℝ)) (h : cEval g s l = .ok r) (v : Var) (x : ℝ) (hm : (v, x) ∈ r) :
    s.isVar v = true ∧ ∃ en, (v, en) ∈ l ∧ cValue g s v en = .ok x := by
  induction l generalizing r with
  | nil => simp [cEval] at h; subst h; simp at hm
  | cons e l ih =>
    unfold cEval at h
    by_cases hv : s.isVar e.1 = true
    · rw [if_pos hv] at h
      cases hx : cValue g s e.1 e.2 with
      | error e => rw [hx] at h; simp at h
      | ok y =>
        rw [hx] at h
        cases hl : cEval g s l with
        | error e => rw [hl] at h; simp at h
        | ok r' =>
          rw [hl] at h
          simp only [Except.ok.injEq] at h
          subst h
          rcases List.mem_cons.1 hm with hm | hm
          · obtain ⟨h1, h2⟩ := Prod.mk.inj hm
            subst h1 h2
            exact ⟨hv, e.2, by simp, hx⟩
          · obtain ⟨h1, en, h2, h3⟩ := ih r' hl hm
            exact ⟨h1, en, List.mem_cons_of_mem _ h2, h3⟩
    · rw [if_neg hv] at h
      obtain ⟨h1, en, h2, h3⟩ := ih r h hm
      exact ⟨h1, en, List.mem_cons_of_mem _ h2, h3⟩

theorem cEval_has (g : EqState ℝ → PyRes ℝ) (s : EqState ℝ) (l : List (Var × CEntry))
    (r : List (Var × ℝ)) (h : cEval g s l = .ok r) (en : Var × CEntry) (hl : en ∈ l) (hv : s.isVar en.1 = true) :
    ∃ x, (en.1, x) ∈ r := by
  induction l generalizing r with
  | nil => simp at hl
  | cons e l ih =>
    unfold cEval at h
    by_cases he : s.isVar e.1 = true
    · rw [if_pos he] at h
      cases hx : cValue g s e.1 e.2 with
      | error e => rw [hx] at h; simp at h
      | ok y =>
        rw [hx] at h
        cases hl' : cEval g s l with
        | error e => rw [hl'] at h; simp at h
        | ok r' =>
          rw [hl'] at h
          simp only [Except.ok.injEq] at h
          subst h
          rcases List.mem_cons.1 hl with hm | hm
          · subst hm; exact ⟨y, by simp⟩
          · obtain ⟨x, hx'⟩ := ih r' hl' hm
            exact ⟨x, List.mem_cons_of_mem _ hx'⟩
    · rw [if_neg he] at h
      rcases List.mem_cons.1 hl with hm | hm
      · subst hm; exact absurd hv he
      · exact ih r h hm

/-- If the residual changes with a variable of the system, the row has an entry for it. -/
theorem C91_named_partial (C : CombComp) (e : CombEq) (s : EqState ℝ) (hk : Spec.KnownFluids s)
    (row : List (Var × ℝ)) (hj : e.jac C s = .ok row) (v : Var) (hv : s.isVar v = true)
    (he : e = .energy → Spec.FlowVar v) (t : ℝ) (hne : e.res C (Spec.stateWith s v t) ≠ e.res C s) :
    ∃ x, (v, x) ∈ row := by
  by_contra hn
  apply hne
  symm
  apply C91_complete_partial C e s _ hk
  intro w hw
  have hwv : w = v := by
    by_contra hwv
    exact hw (by simp [Spec.stateWith, hwv])
  subst hwv
  refine ⟨hv, he, ?_⟩
  intro en hen heq
  apply hn
  subst heq
  exact cEval_has _ s _ row hj en hen hv

theorem rowValue_fold (w : List (Var × ℝ)) (v : Var) (x a : ℝ) (h : ∀ y, (v, y) ∈ w → y = x) :
    (w.foldl (fun a e => if e.1 = v then e.2 else a) a = x ∧ ∃ y, (v, y) ∈ w) ∨
    (w.foldl (fun a e => if e.1 = v then e.2 else a) a = a ∧ ∀ y, (v, y) ∉ w) := by
  induction w generalizing a with
  | nil => right; simp
  | cons e w ih =>
    have h' : ∀ y, (v, y) ∈ w → y = x := fun y hy => h y (List.mem_cons_of_mem _ hy)
    by_cases he : e.1 = v
    · left
      have hex : e.2 = x := h e.2 (by rw [← he]; simp)
      refine ⟨?_, e.2, by rw [← he]; simp⟩
      simp only [List.foldl_cons, he, if_true]
      rcases ih e.2 h' with h1 | h1
      · exact h1.1
      · rw [h1.1, hex]
    · simp only [List.foldl_cons, he, if_false]
      rcases ih a h' with ⟨h1, y, hy⟩ | ⟨h1, hy⟩
      · left; exact ⟨h1, y, List.mem_cons_of_mem _ hy⟩
      · right
        refine ⟨h1, fun y hy' => ?_⟩
        rcases List.mem_cons.1 hy' with h2 | h2
        · exact he (by rw [← h2])
        · exact hy y h2

theorem combStep_pos (v : Var) : 0 < Spec.combStep v := by
  cases v <;> simp only [Spec.combStep] <;> norm_num

theorem cUp_inner (s : EqState ℝ) (v : Var) (hi : Spec.Inner s v) :
    cUp (s.val v) v = s.val v + Spec.combStep v := by
  cases v with
  | x i f =>
    obtain ⟨h1, h2⟩ := hi
    have : s.val (.x i f) + 1 / 100000 ≤ 1 := by norm_num at h2 ⊢; linarith
    simp only [cUp, if_pos this, Spec.combStep]
    norm_num
  | _ => simp only [cUp, Spec.combStep]; try norm_num

theorem cLow_inner (s : EqState ℝ) (v : Var) (hi : Spec.Inner s v) :
    cLow (s.val v) v = s.val v - Spec.combStep v := by
  cases v with
  | x i f =>
    have hu := cUp_inner s (.x i f) hi
    obtain ⟨h1, h2⟩ := hi
    simp only [cLow, hu]
    have : 0 ≤ s.val (.x i f) + Spec.combStep (.x i f) - 2 * (1 / 100000) := by
      simp only [Spec.combStep]; norm_num at h1 ⊢; linarith
    rw [if_pos this]
    simp only [Spec.combStep]
    norm_num
    ring
  | _ => simp only [cLow, Spec.combStep]; try norm_num

theorem cWidth_eq (v : Var) : cWidth v = 2 * Spec.combStep v := by
  cases v <;> simp only [cWidth, Spec.combStep] <;> norm_num

private theorem cNumeric_affine (g : EqState ℝ → PyRes ℝ) (s : EqState ℝ) (v : Var) (hi : Spec.Inner s v)
    (hp : ∀ n, v ≠ .par n) (a b : ℝ)
    (ha : ∀ t, |t - s.val v| ≤ Spec.combStep v → g (Spec.stateWith s v t) = .ok (a + b * t)) :
    cNumeric g s v = .ok b := by
  have h0 := combStep_pos v
  unfold cNumeric
  rw [cUp_inner s v hi, cLow_inner s v hi, cWidth_eq v, ← stateWith_cPut, ← stateWith_cPut,
    ha _ (by simp [abs_of_pos h0]), ha _ (by simp [abs_of_pos h0])]
  simp only [Except.ok.injEq]
  field_simp
  ring

/-- The value left in the row for a variable in which the residual is affine. -/
private theorem rowValue_affine (g : EqState ℝ → PyRes ℝ) (s : EqState ℝ) (l : List (Var × CEntry))
    (r : List (Var × ℝ)) (hr : cEval g s l = .ok r) (v : Var) (hv : s.isVar v = true) (hi : Spec.Inner s v)
    (hp : ∀ en ∈ l, ∀ n, en.1 ≠ .par n) (a b : ℝ)
    (ha : ∀ t, |t - s.val v| ≤ Spec.combStep v → g (Spec.stateWith s v t) = .ok (a + b * t))
    (hval : ∀ x, (v, .val x) ∈ l → x = b) (hno : (∀ en, (v, en) ∉ l) → b = 0) : rowValue r v = b := by
  have hall : ∀ y, (v, y) ∈ r → y = b := by
    intro y hy
    obtain ⟨_, en, h1, h2⟩ := cEval_mem g s l r hr v y hy
    cases en with
    | num =>
      rw [cValue, cNumeric_affine g s v hi (hp _ h1) a b ha] at h2
      exact (Except.ok.inj h2).symm
    | val x =>
      rw [cValue] at h2
      rw [← Except.ok.inj h2]; exact hval x h1
  rcases rowValue_fold r v b 0 hall with ⟨h1, _⟩ | ⟨h1, h2⟩
  · exact h1
  · unfold rowValue
    rw [h1]
    symm
    apply hno
    intro en hen
    obtain ⟨x, hx⟩ := cEval_has g s l r hr (v, en) hen hv
    exact h2 x hx

private theorem partialDerivative_affine (g : EqState ℝ → PyRes ℝ) (s : EqState ℝ) (v : Var) (a b : ℝ)
    (ha : ∀ t, |t - s.val v| ≤ Spec.combStep v → g (Spec.stateWith s v t) = .ok (a + b * t)) :
    Spec.PartialDerivative g s v b := by
  refine ⟨fun t => a + b * t, ha, ?_⟩
  have h := ((hasDerivAt_id (s.val v)).const_mul b).const_add a
  simpa using h

/-! ### affine functions -/

/-- affine function -/
def AffR (g : ℝ → ℝ) : Prop := ∃ a b, ∀ t, g t = a + b * t

theorem AffR.const (c : ℝ) : AffR (fun _ => c) := ⟨c, 0, fun t => by ring⟩
theorem AffR.id : AffR (fun t => t) := ⟨0, 1, fun t => by ring⟩
theorem AffR.add {g h : ℝ → ℝ} (hg : AffR g) (hh : AffR h) : AffR (fun t => g t + h t) := by
  obtain ⟨a, b, h1⟩ := hg; obtain ⟨c, d, h2⟩ := hh
  exact ⟨a + c, b + d, fun t => by simp only [h1, h2]; ring⟩
theorem AffR.sub {g h : ℝ → ℝ} (hg : AffR g) (hh : AffR h) : AffR (fun t => g t - h t) := by
  obtain ⟨a, b, h1⟩ := hg; obtain ⟨c, d, h2⟩ := hh
  exact ⟨a - c, b - d, fun t => by simp only [h1, h2]; ring⟩
theorem AffR.cmul {g : ℝ → ℝ} (hg : AffR g) (c : ℝ) : AffR (fun t => c * g t) := by
  obtain ⟨a, b, h1⟩ := hg
  exact ⟨c * a, c * b, fun t => by simp only [h1]; ring⟩
theorem AffR.mulc {g : ℝ → ℝ} (hg : AffR g) (c : ℝ) : AffR (fun t => g t * c) := by
  obtain ⟨a, b, h1⟩ := hg
  exact ⟨a * c, b * c, fun t => by simp only [h1]; ring⟩
theorem AffR.divc {g : ℝ → ℝ} (hg : AffR g) (c : ℝ) : AffR (fun t => g t / c) := by
  obtain ⟨a, b, h1⟩ := hg
  exact ⟨a / c, b / c, fun t => by simp only [h1]; ring⟩
theorem AffR.neg {g : ℝ → ℝ} (hg : AffR g) : AffR (fun t => -g t) := by
  obtain ⟨a, b, h1⟩ := hg
  exact ⟨-a, -b, fun t => by simp only [h1]; ring⟩
theorem AffR.listSum {α : Type} (L : List α) (g : α → ℝ → ℝ) (h : ∀ c, AffR (g c)) :
    AffR (fun t => (L.map (fun c => g c t)).sum) := by
  induction L with
  | nil => simpa using AffR.const 0
  | cons c L ih => simpa using (h c).add ih
theorem AffR.finSum {α : Type} (S : Finset α) (g : α → ℝ → ℝ) (h : ∀ c, AffR (g c)) :
    AffR (fun t => ∑ c ∈ S, g c t) := by
  choose a b hab using h
  refine ⟨∑ c ∈ S, a c, ∑ c ∈ S, b c, fun t => ?_⟩
  rw [Finset.sum_mul, ← Finset.sum_add_distrib]
  exact Finset.sum_congr rfl (fun c _ => hab c t)

theorem aff_val (s : EqState ℝ) (v w : Var) : AffR (fun t => (Spec.stateWith s v t).val w) := by
  by_cases h : w = v
  · simpa [Spec.stateWith, h] using AffR.id
  · simpa [Spec.stateWith, h] using AffR.const _

theorem aff_mul (s : EqState ℝ) (v w w' : Var) (hne : w ≠ w') :
    AffR (fun t => (Spec.stateWith s v t).val w * (Spec.stateWith s v t).val w') := by
  by_cases h : w = v
  · have : ∀ t, (Spec.stateWith s v t).val w' = s.val w' := by
      have hw : w' ≠ v := fun h' => hne (h.trans h'.symm)
      intro t; simp [Spec.stateWith, hw]
    simp only [this]
    exact (aff_val s v w).mulc _
  · have : ∀ t, (Spec.stateWith s v t).val w = s.val w := by
      intro t; simp [Spec.stateWith, h]
    simp only [this]
    exact (aff_val s v w').cmul _

private theorem aff_mx (s : EqState ℝ) (v : Var) (c : Port) (f : String) :
    AffR (fun t => (Spec.stateWith s v t).mv c * (Spec.stateWith s v t).xv c f) :=
  aff_mul s v _ _ (by simp)

private theorem aff_nIn (C : CombComp) (s : EqState ℝ) (v : Var) (f : String) :
    AffR (fun t => nIn C.d (C.inl.map (cStream C (Spec.stateWith s v t))) f) := by
  simp only [nIn_map]
  exact AffR.listSum _ _ (fun c => (aff_mx s v c f).divc _)

private theorem aff_nH (C : CombComp) (s : EqState ℝ) (v : Var) :
    AffR (fun t => nH C.d (C.inl.map (cStream C (Spec.stateWith s v t)))) :=
  AffR.finSum _ _ (fun f => (aff_nIn C s v f).mulc _)

private theorem aff_nC (C : CombComp) (s : EqState ℝ) (v : Var) :
    AffR (fun t => nC C.d (C.inl.map (cStream C (Spec.stateWith s v t)))) :=
  AffR.finSum _ _ (fun f => (aff_nIn C s v f).mulc _)

private theorem aff_nO2 (C : CombComp) (s : EqState ℝ) (v : Var) :
    AffR (fun t => nO2 C.d (C.inl.map (cStream C (Spec.stateWith s v t)))) := aff_nIn C s v _

private theorem aff_nStoich (C : CombComp) (s : EqState ℝ) (v : Var) :
    AffR (fun t => nStoich C.d (C.inl.map (cStream C (Spec.stateWith s v t)))) :=
  ((aff_nH C s v).divc 4).add (aff_nC C s v)

private theorem aff_flows (C : CombComp) (s : EqState ℝ) (v : Var) (f : String) :
    AffR (fun t => ((C.inl.map (cStream C (Spec.stateWith s v t))).map (fun i => i.x f * i.m)).sum
      - (cStream C (Spec.stateWith s v t) C.out).x f * (cStream C (Spec.stateWith s v t) C.out).m) := by
  refine AffR.sub ?_ ?_
  · simp only [List.map_map, Function.comp_def, cStream]
    refine AffR.listSum _ (fun c t => (Spec.stateWith s v t).xv c f * (Spec.stateWith s v t).mv c) (fun c => ?_)
    simpa only [mul_comm] using aff_mx s v c f
  · simpa only [mul_comm, cStream] using aff_mx s v C.out f

private theorem aff_combDm (C : CombComp) (s : EqState ℝ) (v : Var) (f : String) (l : ℝ)
    (h : 1 ≤ l ∨ f ∉ C.d.fuels) :
    AffR (fun t => combDm C.d (C.inl.map (cStream C (Spec.stateWith s v t))) l f) := by
  unfold combDm
  by_cases h1 : f = C.d.co2
  · simp only [h1, if_true]
    unfold cExc
    by_cases hl : l < 1
    · simp only [hl, if_true]
      exact ((aff_nC C s v).sub ((aff_nStoich C s v).sub (aff_nO2 C s v))).mulc _
    · simp only [hl, if_false]
      exact ((aff_nC C s v).sub (AffR.const 0)).mulc _
  by_cases h2 : f = C.d.h2o
  · simp only [h1, h2, if_true, if_false]
    rw [h2] at h1
    simp only [h1, if_false]
    unfold hExc
    by_cases hl : l < 1
    · simp only [hl, if_true]
      exact (((aff_nH C s v).sub (((aff_nStoich C s v).sub (aff_nO2 C s v)).mulc _)).divc _).mulc _
    · simp only [hl, if_false]
      exact (((aff_nH C s v).sub (AffR.const 0)).divc _).mulc _
  by_cases h3 : f = C.d.o2
  · simp only [h1, h2, if_false, if_pos h3]
    by_cases hl : l < 1
    · simp only [hl, if_true]
      exact ((aff_nO2 C s v).neg).mulc _
    · simp only [hl, if_false]
      exact (((aff_nO2 C s v).neg).divc _).mulc _
  simp only [h1, h2, h3, if_false]
  by_cases h4 : f ∈ C.d.fuels
  · simp only [h4, if_true]
    have hl : ¬ l < 1 := by
      rcases h with h | h
      · exact not_lt.2 h
      · exact absurd h4 h
    unfold fuelExc
    simp only [hl, if_false]
    exact (((aff_nIn C s v f).sub (AffR.const 0)).neg).mulc _
  · simp only [h4, if_false]
    exact AffR.const 0

/-- Change of mass flow by complete combustion. -/
private noncomputable def fullDm (d : CombData String ℝ) (inl : List (CombStream String ℝ)) (f : String) : ℝ :=
  if f = d.co2 then nC d inl * d.M d.co2
  else if f = d.h2o then nH d inl / 2 * d.M d.h2o
  else if f = d.o2 then -nStoich d inl * d.M d.o2
  else if f ∈ d.fuels then -nIn d inl f * d.M f
  else 0

private theorem combDm_full (d : CombData String ℝ) (inl : List (CombStream String ℝ)) (f : String) (l : ℝ)
    (hc : calcLambda d inl = .ok l) (hl : 1 ≤ l) : combDm d inl l f = fullDm d inl f := by
  have hn : ¬ l < 1 := not_lt.2 hl
  unfold calcLambda at hc
  split at hc
  · simp at hc
  rename_i h0
  have hle := Except.ok.inj hc
  unfold combDm fullDm cExc hExc fuelExc
  simp only [hn, if_false, sub_zero]
  by_cases h1 : f = d.co2
  · simp [h1]
  by_cases h2 : f = d.h2o
  · simp only [h1, if_false]; rw [if_pos h2, if_pos h2]
  simp only [h1, h2, if_false]
  by_cases h3 : f = d.o2
  · rw [if_pos h3, if_pos h3]
    have ho : nO2 d inl ≠ 0 := by
      intro ho
      rw [ho, zero_div] at hle
      linarith
    rw [← hle]
    congr 1
    field_simp
  · simp [h3]

private theorem aff_fullDm (C : CombComp) (s : EqState ℝ) (v : Var) (f : String) :
    AffR (fun t => fullDm C.d (C.inl.map (cStream C (Spec.stateWith s v t))) f) := by
  unfold fullDm
  split
  · exact (aff_nC C s v).mulc _
  split
  · exact ((aff_nH C s v).divc _).mulc _
  split
  · exact ((aff_nStoich C s v).neg).mulc _
  split
  · exact ((aff_nIn C s v f).neg).mulc _
  · exact AffR.const 0

private theorem stoich_affine (C : CombComp) (s : EqState ℝ) (v : Var) (f : String) (hb : Spec.Burns C s v f) :
    ∃ a b, ∀ t, |t - s.val v| ≤ Spec.combStep v →
      (CombEq.stoich f).res C (Spec.stateWith s v t) = .ok (a + b * t) := by
  rcases hb with ⟨l, h1, h2⟩ | ⟨h1, h2⟩
  · obtain ⟨a, b, hab⟩ := (aff_combDm C s v f l h2).add (aff_flows C s v f)
    refine ⟨a, b, fun t _ => ?_⟩
    simp only [CombEq.res, stoichRes, lambdaVal, h1]
    rw [← hab t, add_sub_assoc]
  · obtain ⟨a, b, hab⟩ := (aff_fullDm C s v f).add (aff_flows C s v f)
    refine ⟨a, b, fun t ht => ?_⟩
    obtain ⟨h3', h4⟩ := h2 t ht
    have h3 : calcLambda C.d (C.inl.map (cStream C (Spec.stateWith s v t))) = .ok (Spec.airRatio C.d (C.inl.map (cStream C (Spec.stateWith s v t)))) :=
      if_neg h3'
    simp only [CombEq.res, stoichRes, lambdaVal, h1, h3]
    rw [← hab t, add_sub_assoc, combDm_full _ _ _ _ h3 h4]

private theorem numMX_par (s : EqState ℝ) (L : List Port) : ∀ en ∈ L.flatMap (numMX s), ∀ n, en.1 ≠ .par n := by
  intro en hen n
  obtain ⟨c, _, h⟩ := List.mem_flatMap.1 hen
  simp only [numMX, List.mem_cons, List.mem_map] at h
  rcases h with h | ⟨f, _, h⟩ <;> subst_vars <;> simp

private theorem numMX_val (s : EqState ℝ) (L : List Port) (v : Var) (x : ℝ) : (v, CEntry.val x) ∉ L.flatMap (numMX s) := by
  intro hen
  obtain ⟨c, _, h⟩ := List.mem_flatMap.1 hen
  simp [numMX] at h

/-- slope zero for a variable which is not named -/
private theorem slope_zero (C : CombComp) (e : CombEq) (s : EqState ℝ) (hk : Spec.KnownFluids s) (v : Var)
    (hv : s.isVar v = true) (he : e = .energy → Spec.FlowVar v) (a b : ℝ)
    (ha : ∀ t, |t - s.val v| ≤ Spec.combStep v → e.res C (Spec.stateWith s v t) = .ok (a + b * t))
    (hn : ∀ en, (v, en) ∉ e.row C s) : b = 0 := by
  have h0 := combStep_pos v
  have hc : ∀ t, e.res C s = e.res C (Spec.stateWith s v t) := by
    intro t
    apply C91_complete_partial C e s _ hk
    intro w hw
    have hwv : w = v := by
      by_contra hwv
      exact hw (by simp [Spec.stateWith, hwv])
    subst hwv
    exact ⟨hv, he, fun en hen heq => hn en.2 (by rw [← heq]; exact hen)⟩
  have h1 := (hc (s.val v)).symm.trans (hc (s.val v + Spec.combStep v))
  rw [ha _ (by simp [h0.le]), ha _ (by simp [abs_of_pos h0])] at h1
  have h2 := Except.ok.inj h1
  have h3 : b * Spec.combStep v = 0 := by linarith
  rcases mul_eq_zero.1 h3 with h | h
  · exact h
  · exact absurd h h0.ne'

/-- Reaction balance of every fluid: what the row holds for a variable is the partial derivative, if the reaction is not
short of oxygen (or the fluid is no fuel) and the mass fraction is not at the end of its range. -/
theorem C91_stoich_exact_partial (C : CombComp) (s : EqState ℝ) (hk : Spec.KnownFluids s) (f : String)
    (row : List (Var × ℝ)) (hj : (CombEq.stoich f).jac C s = .ok row) (v : Var) (hv : s.isVar v = true)
    (hi : Spec.Inner s v) (hb : Spec.Burns C s v f) :
    Spec.PartialDerivative (fun s => (CombEq.stoich f).res C s) s v (rowValue row v) := by
  obtain ⟨a, b, hab⟩ := stoich_affine C s v f hb
  have h := rowValue_affine _ s _ row hj v hv hi (numMX_par s _) a b hab
    (fun x hx => absurd hx (numMX_val s _ v x)) (slope_zero C _ s hk v hv (by simp) a b hab)
  rw [h]
  exact partialDerivative_affine _ s v a b hab

/-! ### thermal input -/

private theorem combTi_signed (C : CombComp) (s : EqState ℝ) :
    combTi C.d (C.inl.map (cStream C s)) (cStream C s C.out)
      = ∑ f ∈ C.d.fuels, ((C.inl.map (fun c => s.mv c * s.xv c f)).sum - s.mv C.out * s.xv C.out f) * C.d.LHV f := by
  simp [combTi, cStream, Function.comp_def]

private theorem aff_combTi (C : CombComp) (s : EqState ℝ) (v : Var) :
    AffR (fun t => combTi C.d (C.inl.map (cStream C (Spec.stateWith s v t))) (cStream C (Spec.stateWith s v t) C.out)) := by
  simp only [combTi_signed]
  exact AffR.finSum _ _ (fun f => ((AffR.listSum _ _ (fun c => aff_mx s v c f)).sub (aff_mx s v C.out f)).mulc _)

private theorem sum_change {α : Type} [DecidableEq α] (L : List Port) (key : Port → α) (k : α) (g h : Port → ℝ)
    (y : ℝ) (hn : (L.map key).Nodup) (c : Port) (hc : c ∈ L) (hck : key c = k) (h1 : g c - h c = y)
    (h2 : ∀ c ∈ L, key c ≠ k → g c = h c) : (L.map g).sum - (L.map h).sum = y := by
  induction L with
  | nil => simp at hc
  | cons e L ih =>
    simp only [List.map_cons, List.nodup_cons, List.mem_map, not_exists, not_and] at hn
    simp only [List.map_cons, List.sum_cons]
    rcases List.mem_cons.1 hc with he | he
    · subst he
      have : L.map g = L.map h := by
        apply List.map_congr_left
        intro c' hc'
        apply h2 c' (List.mem_cons_of_mem _ hc')
        intro h'
        exact hn.1 c' hc' (h'.trans hck.symm)
      rw [this]; linarith
    · have h3 := ih hn.2 he (fun c' hc' => h2 c' (List.mem_cons_of_mem _ hc'))
      have h4 : g e = h e := h2 e List.mem_cons_self (fun h' => hn.1 c he (hck.trans h'.symm))
      rw [h4]; linarith

private theorem sum_same (L : List Port) (g h : Port → ℝ) (h2 : ∀ c ∈ L, g c = h c) : (L.map g).sum = (L.map h).sum := by
  rw [List.map_congr_left h2]

private theorem ti_slope_m (C : CombComp) (s : EqState ℝ) (ho : Spec.OwnFlows C) (σ : ℝ) (c : Port)
    (hc : (c ∈ C.inl ∧ σ = -1) ∨ (c = C.out ∧ σ = 1)) (t : ℝ) (f : String) :
    ((C.inl.map (fun c' => (Spec.stateWith s (.m c.m) t).mv c' * (Spec.stateWith s (.m c.m) t).xv c' f)).sum
        - (Spec.stateWith s (.m c.m) t).mv C.out * (Spec.stateWith s (.m c.m) t).xv C.out f)
      - ((C.inl.map (fun c' => s.mv c' * s.xv c' f)).sum - s.mv C.out * s.xv C.out f)
      = -σ * (t - s.mv c) * s.xv c f := by
  have hx : ∀ c', (Spec.stateWith s (.m c.m) t).xv c' f = s.xv c' f := by
    intro c'; simp [Spec.stateWith, EqState.xv]
  have hm1 : ∀ c', c'.m = c.m → (Spec.stateWith s (.m c.m) t).mv c' = t := by
    intro c' h; simp [Spec.stateWith, EqState.mv, h]
  have hm2 : ∀ c', c'.m ≠ c.m → (Spec.stateWith s (.m c.m) t).mv c' = s.mv c' := by
    intro c' h; simp [Spec.stateWith, EqState.mv, h]
  have hnd := ho.1
  unfold Spec.combConns at hnd
  simp only [List.map_append, List.map_cons, List.map_nil, List.nodup_append, List.mem_map, List.mem_singleton] at hnd
  simp only [hx]
  rcases hc with ⟨hc, hσ⟩ | ⟨hc, hσ⟩
  · have hout : C.out.m ≠ c.m := fun h => hnd.2.2 c.m ⟨c, hc, rfl⟩ C.out.m rfl h.symm
    have := sum_change C.inl (·.m) c.m (fun c' => (Spec.stateWith s (.m c.m) t).mv c' * s.xv c' f)
      (fun c' => s.mv c' * s.xv c' f) ((t - s.mv c) * s.xv c f) hnd.1 c hc rfl
      (by rw [hm1 c rfl]; ring) (fun c' _ h => by rw [hm2 c' h])
    rw [hm2 C.out hout, hσ]
    linarith
  · have hin : ∀ c' ∈ C.inl, c'.m ≠ c.m := by
      intro c' hc' h
      rw [hc] at h
      exact hnd.2.2 c'.m ⟨c', hc', rfl⟩ C.out.m rfl h
    have := sum_same C.inl (fun c' => (Spec.stateWith s (.m c.m) t).mv c' * s.xv c' f) (fun c' => s.mv c' * s.xv c' f)
      (fun c' hc' => by rw [hm2 c' (hin c' hc')])
    rw [this, hm1 C.out (by rw [hc]), hσ, hc]
    ring

private theorem ti_slope_x (C : CombComp) (s : EqState ℝ) (ho : Spec.OwnFlows C) (σ : ℝ) (c : Port)
    (hc : (c ∈ C.inl ∧ σ = -1) ∨ (c = C.out ∧ σ = 1)) (t : ℝ) (k f : String) :
    ((C.inl.map (fun c' => (Spec.stateWith s (.x c.fl k) t).mv c' * (Spec.stateWith s (.x c.fl k) t).xv c' f)).sum
        - (Spec.stateWith s (.x c.fl k) t).mv C.out * (Spec.stateWith s (.x c.fl k) t).xv C.out f)
      - ((C.inl.map (fun c' => s.mv c' * s.xv c' f)).sum - s.mv C.out * s.xv C.out f)
      = if f = k then -σ * (t - s.xv c k) * s.mv c else 0 := by
  have hm : ∀ c', (Spec.stateWith s (.x c.fl k) t).mv c' = s.mv c' := by
    intro c'; simp [Spec.stateWith, EqState.mv]
  simp only [hm]
  by_cases hf : f = k
  · subst hf
    rw [if_pos rfl]
    have hm1 : ∀ c', c'.fl = c.fl → (Spec.stateWith s (.x c.fl f) t).xv c' f = t := by
      intro c' h; simp [Spec.stateWith, EqState.xv, h]
    have hm2 : ∀ c', c'.fl ≠ c.fl → (Spec.stateWith s (.x c.fl f) t).xv c' f = s.xv c' f := by
      intro c' h; simp [Spec.stateWith, EqState.xv, h]
    have hnd := ho.2
    unfold Spec.combConns at hnd
    simp only [List.map_append, List.map_cons, List.map_nil, List.nodup_append, List.mem_map, List.mem_singleton] at hnd
    rcases hc with ⟨hc, hσ⟩ | ⟨hc, hσ⟩
    · have hout : C.out.fl ≠ c.fl := fun h => hnd.2.2 c.fl ⟨c, hc, rfl⟩ C.out.fl rfl h.symm
      have := sum_change C.inl (·.fl) c.fl (fun c' => s.mv c' * (Spec.stateWith s (.x c.fl f) t).xv c' f)
        (fun c' => s.mv c' * s.xv c' f) ((t - s.xv c f) * s.mv c) hnd.1 c hc rfl
        (by rw [hm1 c rfl]; ring) (fun c' _ h => by rw [hm2 c' h])
      rw [hm2 C.out hout, hσ]
      linarith
    · have hin : ∀ c' ∈ C.inl, c'.fl ≠ c.fl := by
        intro c' hc' h
        rw [hc] at h
        exact hnd.2.2 c'.fl ⟨c', hc', rfl⟩ C.out.fl rfl h
      have := sum_same C.inl (fun c' => s.mv c' * (Spec.stateWith s (.x c.fl f) t).xv c' f) (fun c' => s.mv c' * s.xv c' f)
        (fun c' hc' => by rw [hm2 c' (hin c' hc')])
      rw [this, hm1 C.out (by rw [hc]), hσ, hc]
      ring
  · rw [if_neg hf]
    have hm2 : ∀ c', (Spec.stateWith s (.x c.fl k) t).xv c' f = s.xv c' f := by
      intro c'; simp [Spec.stateWith, EqState.xv, hf]
    simp only [hm2]
    ring

private theorem tiPart_mem (C : CombComp) (s : EqState ℝ) (en : Var × CEntry) (h : en ∈ CombEq.ti.row C s) :
    ∃ c σ, ((c ∈ C.inl ∧ σ = -1) ∨ (c = C.out ∧ σ = 1)) ∧ en ∈ tiPart C s σ c := by
  rcases List.mem_append.1 h with h | h
  · obtain ⟨c, hc, h⟩ := List.mem_flatMap.1 h
    exact ⟨c, -1, .inl ⟨hc, rfl⟩, h⟩
  · exact ⟨C.out, 1, .inr ⟨rfl, rfl⟩, h⟩

/-- Specified thermal input: what the row holds for a variable is the partial derivative, if the connections have their
own mass flows and compositions. -/
theorem C91_ti_exact_partial (C : CombComp) (s : EqState ℝ) (hk : Spec.KnownFluids s) (ho : Spec.OwnFlows C)
    (row : List (Var × ℝ)) (hj : CombEq.ti.jac C s = .ok row) (v : Var) (hv : s.isVar v = true) :
    Spec.PartialDerivative (fun s => CombEq.ti.res C s) s v (rowValue row v) := by
  obtain ⟨a, b, hab⟩ := (AffR.const C.ti).sub (aff_combTi C s v)
  have hres : ∀ t, CombEq.ti.res C (Spec.stateWith s v t) = .ok (a + b * t) := by
    intro t; simp only [CombEq.res]; rw [← hab t]
  have hself : Spec.stateWith s v (s.val v) = s := by
    unfold Spec.stateWith
    congr 1
    funext w
    by_cases h : w = v
    · simp [h]
    · simp [h]
  -- slope
  have hb : combTi C.d (C.inl.map (cStream C (Spec.stateWith s v (s.val v + 1))))
        (cStream C (Spec.stateWith s v (s.val v + 1)) C.out)
      - combTi C.d (C.inl.map (cStream C s)) (cStream C s C.out) = -b := by
    have h1 := hab (s.val v + 1)
    have h2 := hab (s.val v)
    simp only [hself] at h1 h2
    linarith
  rw [combTi_signed, combTi_signed, ← Finset.sum_sub_distrib] at hb
  simp only [← sub_mul] at hb
  have hall : ∀ y, (v, y) ∈ row → y = b := by
    intro y hy
    obtain ⟨_, en, h1, h2⟩ := cEval_mem _ s _ row hj v y hy
    obtain ⟨c, σ, hc, h3⟩ := tiPart_mem C s _ h1
    simp only [tiPart, List.mem_cons, List.mem_map, List.mem_filter, Prod.mk.injEq] at h3
    rcases h3 with ⟨h3, h4⟩ | ⟨f, ⟨_, hf⟩, h3, h4⟩
    · subst h3 h4
      have h5 := Except.ok.inj h2
      simp only [ti_slope_m C s ho σ c hc] at hb
      have h6 : s.val (.m c.m) = s.mv c := rfl
      rw [h6, add_sub_cancel_left] at hb
      rw [← h5, ← neg_neg b, ← hb, ← Finset.sum_neg_distrib]
      exact Finset.sum_congr rfl (fun f _ => by ring)
    · subst h3 h4
      have h5 := Except.ok.inj h2
      simp only [ti_slope_x C s ho σ c hc] at hb
      have h6 : s.val (.x c.fl f) = s.xv c f := rfl
      rw [h6, add_sub_cancel_left] at hb
      simp only [ite_mul, zero_mul] at hb
      rw [Finset.sum_ite_eq' C.d.fuels f, if_pos (by simpa using hf)] at hb
      rw [← h5]
      linarith
  have hval : rowValue row v = b := by
    rcases rowValue_fold row v b 0 hall with ⟨h1, _⟩ | ⟨h1, h2⟩
    · exact h1
    · unfold rowValue
      rw [h1]
      symm
      refine slope_zero C .ti s hk v hv (by simp) a b (fun t _ => hres t) ?_
      intro en hen
      obtain ⟨x, hx⟩ := cEval_has _ s _ row hj (v, en) hen hv
      exact h2 x hx
  rw [hval]
  exact partialDerivative_affine _ s v a b (fun t _ => hres t)

/-! ### energy balance -/

private theorem energy_map (C : CombComp) (s : EqState ℝ) :
    combEnergyRes C.d (C.inl.map (cStream C s)) (cStream C s C.out) C.eta
      = (C.inl.map (fun c => s.mv c * (s.hv c - C.href (s.xv c)))).sum - s.mv C.out * (s.hv C.out - C.href (s.xv C.out))
        + combTi C.d (C.inl.map (cStream C s)) (cStream C s C.out) * C.eta := by
  simp [combEnergyRes, cStream, Function.comp_def]

private theorem flow_xv (s : EqState ℝ) (v : Var) (hf : Spec.FlowVar v) (t : ℝ) (c : Port) :
    (Spec.stateWith s v t).xv c = s.xv c := by
  funext f
  rcases hf with ⟨i, h⟩ | ⟨i, h⟩ | ⟨i, h⟩ <;> subst h <;> simp [Spec.stateWith, EqState.xv]

private theorem aff_energy (C : CombComp) (s : EqState ℝ) (v : Var) (hf : Spec.FlowVar v) :
    AffR (fun t => combEnergyRes C.d (C.inl.map (cStream C (Spec.stateWith s v t)))
      (cStream C (Spec.stateWith s v t) C.out) C.eta) := by
  have hterm : ∀ c : Port, AffR (fun t => (Spec.stateWith s v t).mv c
      * ((Spec.stateWith s v t).hv c - C.href ((Spec.stateWith s v t).xv c))) := by
    intro c
    simp only [flow_xv s v hf, mul_sub]
    exact (aff_mul s v (.m c.m) (.h c.h) (by simp)).sub ((aff_val s v (.m c.m)).mulc _)
  simp only [energy_map]
  exact ((AffR.listSum _ _ hterm).sub (hterm C.out)).add ((aff_combTi C s v).mulc _)

private theorem energy_slope_h (C : CombComp) (s : EqState ℝ) (ho : Spec.OwnEnthalpies C) (σ : ℝ) (c : Port)
    (hc : (c ∈ C.inl ∧ σ = 1) ∨ (c = C.out ∧ σ = -1)) (t : ℝ) :
    combEnergyRes C.d (C.inl.map (cStream C (Spec.stateWith s (.h c.h) t)))
        (cStream C (Spec.stateWith s (.h c.h) t) C.out) C.eta
      - combEnergyRes C.d (C.inl.map (cStream C s)) (cStream C s C.out) C.eta = σ * s.mv c * (t - s.hv c) := by
  have hx : ∀ c', (Spec.stateWith s (.h c.h) t).xv c' = s.xv c' := by
    intro c'; funext f; simp [Spec.stateWith, EqState.xv]
  have hm : ∀ c', (Spec.stateWith s (.h c.h) t).mv c' = s.mv c' := by
    intro c'; simp [Spec.stateWith, EqState.mv]
  have hm1 : ∀ c', c'.h = c.h → (Spec.stateWith s (.h c.h) t).hv c' = t := by
    intro c' h; simp [Spec.stateWith, EqState.hv, h]
  have hm2 : ∀ c', c'.h ≠ c.h → (Spec.stateWith s (.h c.h) t).hv c' = s.hv c' := by
    intro c' h; simp [Spec.stateWith, EqState.hv, h]
  have hnd := ho
  unfold Spec.OwnEnthalpies Spec.combConns at hnd
  simp only [List.map_append, List.map_cons, List.map_nil, List.nodup_append, List.mem_map, List.mem_singleton] at hnd
  rw [energy_map, energy_map, combTi_signed, combTi_signed]
  simp only [hx, hm]
  rcases hc with ⟨hc, hσ⟩ | ⟨hc, hσ⟩
  · have hout : C.out.h ≠ c.h := fun h => hnd.2.2 c.h ⟨c, hc, rfl⟩ C.out.h rfl h.symm
    have := sum_change C.inl (·.h) c.h (fun c' => s.mv c' * ((Spec.stateWith s (.h c.h) t).hv c' - C.href (s.xv c')))
      (fun c' => s.mv c' * (s.hv c' - C.href (s.xv c'))) (s.mv c * (t - s.hv c)) hnd.1 c hc rfl
      (by rw [hm1 c rfl]; ring) (fun c' _ h => by rw [hm2 c' h])
    rw [hm2 C.out hout, hσ]
    linarith
  · have hin : ∀ c' ∈ C.inl, c'.h ≠ c.h := by
      intro c' hc' h
      rw [hc] at h
      exact hnd.2.2 c'.h ⟨c', hc', rfl⟩ C.out.h rfl h
    have := sum_same C.inl (fun c' => s.mv c' * ((Spec.stateWith s (.h c.h) t).hv c' - C.href (s.xv c')))
      (fun c' => s.mv c' * (s.hv c' - C.href (s.xv c'))) (fun c' hc' => by rw [hm2 c' (hin c' hc')])
    rw [this, hm1 C.out (by rw [hc]), hσ, hc]
    ring

/-- Energy balance: what the row holds for a mass flow, a pressure or an enthalpy is the partial derivative, if the
connections have their own enthalpies. -/
theorem C91_energy_exact_partial (C : CombComp) (s : EqState ℝ) (hk : Spec.KnownFluids s) (ho : Spec.OwnEnthalpies C)
    (row : List (Var × ℝ)) (hj : CombEq.energy.jac C s = .ok row) (v : Var) (hv : s.isVar v = true)
    (hf : Spec.FlowVar v) :
    Spec.PartialDerivative (fun s => CombEq.energy.res C s) s v (rowValue row v) := by
  obtain ⟨a, b, hab⟩ := aff_energy C s v hf
  have hres : ∀ t, CombEq.energy.res C (Spec.stateWith s v t) = .ok (a + b * t) := by
    intro t; simp only [CombEq.res]; rw [← hab t]
  have hi : Spec.Inner s v := by
    rcases hf with ⟨i, h⟩ | ⟨i, h⟩ | ⟨i, h⟩ <;> subst h <;> trivial
  have hself : Spec.stateWith s v (s.val v) = s := by
    unfold Spec.stateWith
    congr 1
    funext w
    by_cases h : w = v
    · simp [h]
    · simp [h]
  have hpart : ∀ en ∈ CombEq.energy.row C s, ∃ c σ, ((c ∈ C.inl ∧ σ = 1) ∨ (c = C.out ∧ σ = -1)) ∧ en ∈ energyPart s σ c := by
    intro en h
    rcases List.mem_append.1 h with h | h
    · obtain ⟨c, hc, h⟩ := List.mem_flatMap.1 h
      exact ⟨c, 1, .inl ⟨hc, rfl⟩, h⟩
    · exact ⟨C.out, -1, .inr ⟨rfl, rfl⟩, h⟩
  have h := rowValue_affine _ s _ row hj v hv hi (by
      intro en hen n
      obtain ⟨c, σ, _, h⟩ := hpart en hen
      simp only [energyPart, List.mem_cons, List.not_mem_nil, or_false] at h
      rcases h with h | h | h <;> subst h <;> simp) a b (fun t _ => hres t) (by
      intro x hx
      obtain ⟨c, σ, hc, h⟩ := hpart _ hx
      simp only [energyPart, List.mem_cons, List.not_mem_nil, or_false, Prod.mk.injEq, reduceCtorEq, and_false,
        false_or, CEntry.val.injEq] at h
      obtain ⟨h1, h2⟩ := h
      subst h1 h2
      have h3 := energy_slope_h C s ho σ c hc (s.val (.h c.h) + 1)
      have h4 := hab (s.val (.h c.h) + 1)
      have h5 := hab (s.val (.h c.h))
      simp only [hself] at h5
      simp only at h4
      rw [h4, h5] at h3
      have h6 : s.val (.h c.h) = s.hv c := rfl
      rw [h6] at h3
      linarith)
      (slope_zero C .energy s hk v hv (fun _ => hf) a b (fun t _ => hres t))
  rw [h]
  exact partialDerivative_affine _ s v a b (fun t _ => hres t)

/-! ### ends of the range of a mass fraction -/

/-- At the lower end of its range a mass fraction is moved in one direction only, but the difference is divided by the
full width: the entry is too small. It is half of the partial derivative for a mass fraction of zero, as that of the fuel
in the flue gas. -/
theorem C91_edge_partial (C : CombComp) (s : EqState ℝ) (hk : Spec.KnownFluids s) (f : String)
    (row : List (Var × ℝ)) (hj : (CombEq.stoich f).jac C s = .ok row) (i : ℕ) (k : String)
    (hv : s.isVar (.x i k) = true) (h0 : 0 ≤ s.val (.x i k)) (h1 : s.val (.x i k) ≤ 1e-5)
    (hb : Spec.Burns C s (.x i k) f) :
    ∃ b, Spec.PartialDerivative (fun s => (CombEq.stoich f).res C s) s (.x i k) b ∧
      rowValue row (.x i k) = b * ((s.val (.x i k) + 1e-5) / 2e-5) := by
  obtain ⟨a, b, hab⟩ := stoich_affine C s (.x i k) f hb
  refine ⟨b, partialDerivative_affine _ s _ a b hab, ?_⟩
  have hup : cUp (s.val (.x i k)) (.x i k) = s.val (.x i k) + 1 / 100000 := by
    simp only [cUp]; rw [if_pos]; norm_num at h1 ⊢; linarith
  have hlow : cLow (s.val (.x i k)) (.x i k) = 0 := by
    simp only [cLow, hup]
    by_cases h : s.val (.x i k) = 1 / 100000
    · rw [h]; norm_num
    · rw [if_neg]
      have : s.val (.x i k) < 1 / 100000 := lt_of_le_of_ne (by norm_num at h1 ⊢; linarith) h
      norm_num at this ⊢; linarith
  have hstep : Spec.combStep (.x i k) = 1 / 100000 := by simp only [Spec.combStep]; norm_num
  have hnum : cNumeric (fun s => (CombEq.stoich f).res C s) s (.x i k)
      = .ok (b * ((s.val (.x i k) + 1e-5) / 2e-5)) := by
    have e1 := hab (s.val (.x i k) + 1 / 100000) (by rw [hstep, add_sub_cancel_left]; norm_num)
    have e2 := hab 0 (by rw [hstep, zero_sub, abs_neg, abs_of_nonneg h0]; norm_num at h1 ⊢; linarith)
    unfold cNumeric
    rw [hup, hlow, ← stateWith_cPut, ← stateWith_cPut]
    simp only [e1, e2]
    simp only [Except.ok.injEq, cWidth]
    norm_num
    ring
  have hall : ∀ y, (.x i k, y) ∈ row → y = b * ((s.val (.x i k) + 1e-5) / 2e-5) := by
    intro y hy
    obtain ⟨_, en, h2, h3⟩ := cEval_mem _ s _ row hj _ y hy
    cases en with
    | num => rw [cValue, hnum] at h3; exact (Except.ok.inj h3).symm
    | val x => exact absurd h2 (numMX_val s _ _ x)
  rcases rowValue_fold row (.x i k) _ 0 hall with ⟨h2, _⟩ | ⟨h2, h3⟩
  · exact h2
  · have hz : b = 0 := by
      refine slope_zero C (.stoich f) s hk _ hv (by simp) a b hab ?_
      intro en hen
      obtain ⟨x, hx⟩ := cEval_has _ s _ row hj (.x i k, en) hen hv
      exact h3 x hx
    unfold rowValue
    rw [h2, hz, zero_mul]

/-! ### busses -/

theorem busEntry_fold (w : List (Var × ℝ)) (v : Var) (a : ℝ) :
    w.foldl (fun a e => if e.1 = v then a - e.2 else a) a
      = a - ((w.filter (fun e => e.1 = v)).map Prod.snd).sum := by
  induction w generalizing a with
  | nil => simp
  | cons e w ih =>
    by_cases he : e.1 = v
    · simp only [List.foldl_cons, he, if_true, List.filter_cons, decide_true, List.map_cons, List.sum_cons]
      rw [ih]; ring
    · simp only [List.foldl_cons, he, if_false, List.filter_cons, decide_false]
      rw [ih]; simp

theorem filter_nodup (w : List (Var × ℝ)) (v : Var) (x : ℝ) (h : (w.map Prod.fst).Nodup) (hm : (v, x) ∈ w) :
    w.filter (fun e => e.1 = v) = [(v, x)] := by
  induction w with
  | nil => simp at hm
  | cons e w ih =>
    simp only [List.map_cons, List.nodup_cons] at h
    rcases List.mem_cons.1 hm with he | he
    · subst he
      simp only [List.filter_cons, decide_true, if_true, List.cons.injEq, true_and]
      rw [List.filter_eq_nil_iff]
      intro a ha h'
      exact h.1 (List.mem_map.2 ⟨a, ha, by simpa using h'⟩)
    · have : ¬ e.1 = v := fun h' => h.1 (List.mem_map.2 ⟨(v, x), he, h'.symm⟩)
      simp only [List.filter_cons, this, decide_false]
      exact ih h.2 he

theorem cEval_sublist (g : EqState ℝ → PyRes ℝ) (s : EqState ℝ) (l : List (Var × CEntry))
    (r : List (Var × ℝ)) (h : cEval g s l = .ok r) : (r.map Prod.fst).Sublist (l.map Prod.fst) := by
  induction l generalizing r with
  | nil => simp [cEval] at h; subst h; simp
  | cons e l ih =>
    unfold cEval at h
    by_cases hv : s.isVar e.1 = true
    · rw [if_pos hv] at h
      cases hx : cValue g s e.1 e.2 with
      | error e => rw [hx] at h; simp at h
      | ok y =>
        rw [hx] at h
        cases hl : cEval g s l with
        | error e => rw [hl] at h; simp at h
        | ok r' =>
          rw [hl] at h
          simp only [Except.ok.injEq] at h
          subst h
          exact (ih r' hl).cons_cons _
    · rw [if_neg hv] at h
      exact (ih r h).cons _

private theorem numMX_nodup (C : CombComp) (s : EqState ℝ) (ho : Spec.OwnFlows C) (hkn : ∀ i, (s.keys i).Nodup) :
    (((C.inl ++ [C.out]).flatMap (numMX s)).map Prod.fst).Nodup := by
  rw [List.map_flatMap, List.nodup_flatMap]
  constructor
  · intro c _
    simp only [numMX, List.map_cons, List.map_map, Function.comp_def, List.nodup_cons, List.mem_map, not_exists, not_and]
    refine ⟨fun f _ h => by simp at h, ?_⟩
    refine List.Nodup.map (fun a b h => by simpa using h) ?_
    exact (hkn c.fl).filter _
  · have h1 := ho.1
    have h2 := ho.2
    unfold Spec.combConns at h1 h2
    rw [List.Nodup, List.pairwise_map] at h1 h2
    refine (h1.and h2).imp ?_
    rintro c c' ⟨hm, hf⟩
    simp only [Function.onFun, numMX, List.map_cons, List.map_map, Function.comp_def]
    intro w hw hw'
    simp only [List.mem_cons, List.mem_map] at hw hw'
    rcases hw with hw | ⟨f, _, hw⟩ <;> rcases hw' with hw' | ⟨f', _, hw'⟩
    · rw [hw] at hw'; exact hm (by simpa using hw')
    · rw [hw] at hw'; simp at hw'
    · rw [← hw] at hw'; simp at hw'
    · rw [← hw'] at hw; simp only [Var.x.injEq] at hw; exact hf hw.1

/-- Energy bus: for every variable the entry of the bus is minus the central difference quotient of the bus value, if the
connections have their own mass flows and compositions and the mass fraction is not at the end of its range. -/
theorem C91_bus_partial (C : CombComp) (g : ℝ → PyRes ℝ) (s : EqState ℝ) (hk : Spec.KnownFluids s)
    (hkn : ∀ i, (s.keys i).Nodup) (ho : Spec.OwnFlows C) (w : List (Var × ℝ)) (hw : combBusWrites C g s = .ok w)
    (v : Var) (hv : s.isVar v = true) (hi : Spec.Inner s v) :
    (∃ up low, combBusValue C g (Spec.stateWith s v (s.val v + Spec.combStep v)) = .ok up
      ∧ combBusValue C g (Spec.stateWith s v (s.val v - Spec.combStep v)) = .ok low
      ∧ busEntry w v = -((up - low) / (2 * Spec.combStep v)))
    ∨ (busEntry w v = 0 ∧ ∀ t, combBusValue C g (Spec.stateWith s v t) = combBusValue C g s) := by
  by_cases h : ∃ en, (v, en) ∈ (C.inl ++ [C.out]).flatMap (numMX s)
  · left
    obtain ⟨en, hen⟩ := h
    obtain ⟨x, hx⟩ := cEval_has _ s _ w hw (v, en) hen hv
    have hp := numMX_par s _ _ hen
    obtain ⟨_, en', h1, h2⟩ := cEval_mem _ s _ w hw v x hx
    have hb : busEntry w v = -x := by
      unfold busEntry
      rw [busEntry_fold, filter_nodup w v x ((cEval_sublist _ s _ w hw).nodup (numMX_nodup C s ho hkn)) hx]
      simp
    cases en' with
    | val y => exact absurd h1 (numMX_val s _ v y)
    | num =>
      simp only [cValue, cNumeric, cUp_inner s v hi, cLow_inner s v hi, cWidth_eq v, ← stateWith_cPut] at h2
      cases h3 : combBusValue C g (Spec.stateWith s v (s.val v + Spec.combStep v)) with
      | error e => rw [h3] at h2; simp at h2
      | ok up =>
        rw [h3] at h2
        cases h4 : combBusValue C g (Spec.stateWith s v (s.val v - Spec.combStep v)) with
        | error e => rw [h4] at h2; simp at h2
        | ok low =>
          rw [h4] at h2
          simp only [Except.ok.injEq] at h2
          exact ⟨up, low, rfl, rfl, by rw [hb, ← h2]⟩
  · right
    simp only [not_exists] at h
    constructor
    · have : w.filter (fun e => e.1 = v) = [] := by
        rw [List.filter_eq_nil_iff]
        intro e he h'
        obtain ⟨_, en, h1, _⟩ := cEval_mem _ s _ w hw e.1 e.2 he
        simp only [decide_eq_true_eq] at h'
        rw [h'] at h1
        exact h en h1
      unfold busEntry
      rw [busEntry_fold, this]
      simp
    · intro t
      have hs : SameMX (C.inl ++ [C.out]) s (Spec.stateWith s v t) := by
        apply sameMX_of_numMX _ _ _ hk
        intro w hw
        have hwv : w = v := by
          by_contra hwv
          exact hw (by simp [Spec.stateWith, hwv])
        subst hwv
        exact ⟨hv, fun en hen heq => h en.2 (by rw [← heq]; exact hen)⟩
      unfold combBusValue
      congr 1
      rw [combTi_signed, combTi_signed]
      apply Finset.sum_congr rfl
      intro f _
      have h1 := hs C.out (by simp)
      rw [h1.1, h1.2]
      congr 2
      apply sum_same
      intro c hc
      have h2 := hs c (by simp [hc])
      rw [h2.1, h2.2]

/-! ### what does not hold -/

/-- The row of the energy balance has no entry for any mass fraction. -/
theorem C91_energy_fractions (C : CombComp) (s : EqState ℝ) (row : List (Var × ℝ))
    (hj : CombEq.energy.jac C s = .ok row) (i : ℕ) (f : String) (x : ℝ) : (.x i f, x) ∉ row := by
  intro hx
  obtain ⟨_, en, h1, _⟩ := cEval_mem _ s _ row hj _ x hx
  rcases List.mem_append.1 h1 with h | h
  · obtain ⟨c, hc, h⟩ := List.mem_flatMap.1 h
    simp [energyPart] at h
  · simp [energyPart] at h

/-- Two inlets with air and methane and an outlet. -/
def combToy : CombComp where
  d := { o2 := "O2", co2 := "CO2", h2o := "H2O", fuels := {"CH4"}, C := fun _ => 1, H := fun _ => 4,
         M := fun f => if f = "O2" then 32 else if f = "CO2" then 44 else if f = "H2O" then 18 else 16,
         LHV := fun _ => 50 }
  inl := [⟨0, 0, 0, 0⟩, ⟨1, 1, 1, 1⟩]
  out := ⟨2, 2, 2, 2⟩
  href := fun _ => 0
  eta := 1
  lam := none
  ti := 50

/-- A state of it: 40 of air, 1 of methane; the composition of the flue gas is variable, as are mass flow, pressure and
enthalpy of the flue gas. -/
noncomputable def combToyS : EqState ℝ where
  val := fun v => match v with
    | .m 0 => 40 | .m 1 => 1 | .m 2 => 41
    | .x 0 "O2" => 1 / 4 | .x 0 "N2" => 3 / 4 | .x 1 "CH4" => 1
    | .x 2 "CH4" => 0 | .x 2 _ => 1 / 4
    | .x _ _ => 0
    | _ => 100
  isVar := fun v => v = .m 2 || v = .p 2 || v = .h 2 || v = .x 2 "CH4" || v = .x 2 "CO2"
  col := fun _ => none
  keys := fun i => if i = 2 then ["CH4", "CO2", "H2O", "O2", "N2"] else []
  fixed := fun _ => []

theorem combToy_own : Spec.OwnFlows combToy ∧ Spec.OwnEnthalpies combToy ∧ Spec.KnownFluids combToyS := by
  refine ⟨⟨?_, ?_⟩, ?_, ?_⟩
  · simp [Spec.combConns, combToy]
  · simp [Spec.combConns, combToy]
  · simp [Spec.OwnEnthalpies, Spec.combConns, combToy]
  · intro i f h
    simp [combToyS] at h ⊢
    rcases h with ⟨h1, h2⟩ | ⟨h1, h2⟩ <;> subst h1 h2 <;> simp

private theorem energy_jac_ok (C : CombComp) (s : EqState ℝ) : ∃ row, CombEq.energy.jac C s = .ok row := by
  unfold CombEq.jac
  generalize CombEq.energy.row C s = l
  induction l with
  | nil => exact ⟨[], rfl⟩
  | cons e l ih =>
    obtain ⟨r, hr⟩ := ih
    unfold cEval
    rw [hr]
    by_cases h : s.isVar e.1 = true
    · rw [if_pos h]
      cases he : e.2 with
      | num => simp [cValue, cNumeric, CombEq.res]
      | val x => simp [cValue]
    · rw [if_neg h]; exact ⟨r, rfl⟩

/-- The energy balance depends on the fuel in the flue gas, which is a variable, but its row has no entry for it. -/
theorem C91_energy_composition_false : ∃ (C : CombComp) (s : EqState ℝ) (row : List (Var × ℝ)) (v : Var) (t : ℝ),
    Spec.KnownFluids s ∧ Spec.OwnFlows C ∧ Spec.OwnEnthalpies C ∧ CombEq.energy.jac C s = .ok row ∧ s.isVar v = true ∧
    CombEq.energy.res C (Spec.stateWith s v t) ≠ CombEq.energy.res C s ∧ ∀ x, (v, x) ∉ row := by
  obtain ⟨row, hrow⟩ := energy_jac_ok combToy combToyS
  refine ⟨combToy, combToyS, row, .x 2 "CH4", 1, combToy_own.2.2, combToy_own.1, combToy_own.2.1, hrow, ?_, ?_,
    C91_energy_fractions _ _ row hrow 2 "CH4"⟩
  · simp [combToyS]
  · simp [CombEq.res, combEnergyRes, combTi, cStream, combToy, combToyS, Spec.stateWith, EqState.mv, EqState.xv, EqState.hv]
    try norm_num

/-- Two inlets which share one composition (they leave the same splitter), with a variable content of fuel. -/
def combShared : CombComp := { combToy with inl := [⟨0, 0, 0, 0⟩, ⟨1, 1, 1, 0⟩] }

/-- A state of it. -/
noncomputable def combSharedS : EqState ℝ where
  val := fun v => match v with
    | .m 0 => 1 | .m 1 => 2 | .m 2 => 3
    | .x 0 "CH4" => 1 / 2 | .x 0 "O2" => 1 / 2
    | .x _ _ => 0
    | _ => 100
  isVar := fun v => v = .x 0 "CH4"
  col := fun _ => none
  keys := fun i => if i = 0 then ["CH4", "O2"] else []
  fixed := fun _ => []

/-- If two inlets share one composition, the row of the thermal input holds the derivative of the last inlet only. -/
theorem C91_ti_shared_false : ∃ (C : CombComp) (s : EqState ℝ) (row : List (Var × ℝ)) (v : Var),
    Spec.KnownFluids s ∧ CombEq.ti.jac C s = .ok row ∧ s.isVar v = true ∧
    ¬ Spec.PartialDerivative (fun s => CombEq.ti.res C s) s v (rowValue row v) := by
  have hf : ∀ f, combSharedS.isVar (.x 0 f) = decide (f = "CH4") := by intro f; simp [combSharedS]
  refine ⟨combShared, combSharedS, [(.x 0 "CH4", -50), (.x 0 "CH4", -100)], .x 0 "CH4", ?_, ?_, ?_, ?_⟩
  · intro i f h
    simp [combSharedS] at h ⊢
    simp [h]
  · simp [CombEq.jac, CombEq.row, tiPart, combShared, combToy, combSharedS, cEval, cValue, EqState.varFluids,
      EqState.mv, EqState.xv]
    norm_num
  · simp [combSharedS]
  · rintro ⟨h, h1, h2⟩
    have hv : combSharedS.val (.x 0 "CH4") = 1 / 2 := by simp [combSharedS]
    have hr : rowValue [(.x 0 "CH4", -50), (.x 0 "CH4", -100)] (.x 0 "CH4") = -100 := by simp [rowValue]
    rw [hv, hr] at h2
    have h3 : ∀ t, |t - 1 / 2| ≤ (1e-5 : ℝ) → h t = 50 - 150 * t := by
      intro t ht
      have h4 := h1 t (by rw [hv]; exact ht)
      simp [CombEq.res, combTi, cStream, combShared, combToy, combSharedS, Spec.stateWith, EqState.mv, EqState.xv] at h4
      linarith
    have h5 : HasDerivAt (fun t : ℝ => 50 - 150 * t) (-150) (1 / 2) := by
      have := ((hasDerivAt_id (1 / 2 : ℝ)).const_mul 150).const_sub 50
      simpa using this
    have h6 : h =ᶠ[nhds (1 / 2)] (fun t : ℝ => 50 - 150 * t) := by
      have : Metric.ball (1 / 2 : ℝ) 1e-5 ∈ nhds (1 / 2 : ℝ) := Metric.ball_mem_nhds _ (by norm_num)
      filter_upwards [this] with t ht
      apply h3
      rw [Metric.mem_ball, Real.dist_eq] at ht
      exact ht.le
    have h7 := (h5.congr_of_eventuallyEq h6).unique h2
    norm_num at h7

/-- If two inlets share one composition, the entry of an energy bus is twice the derivative. -/
theorem C91_bus_shared_false : ∃ (C : CombComp) (s : EqState ℝ) (w : List (Var × ℝ)) (v : Var),
    Spec.KnownFluids s ∧ combBusWrites C .ok s = .ok w ∧ s.isVar v = true ∧ busEntry w v = -300 ∧
    ∀ t, combBusValue C .ok (Spec.stateWith s v t) = .ok (150 * t) := by
  refine ⟨combShared, combSharedS, [(.x 0 "CH4", 150), (.x 0 "CH4", 150)], .x 0 "CH4", ?_, ?_, ?_, ?_, ?_⟩
  · intro i f h
    simp [combSharedS] at h ⊢
    simp [h]
  · have hn : cNumeric (combBusValue combShared .ok) combSharedS (.x 0 "CH4") = .ok 150 := by
      simp [cNumeric, combBusValue, combTi, cStream, combShared, combToy, combSharedS, cPut, EqState.mv, EqState.xv, cUp,
        cLow, cWidth]
      norm_num
    have hr : (combShared.inl ++ [combShared.out]).flatMap (numMX combSharedS)
        = [(.m 0, .num), (.x 0 "CH4", .num), (.m 1, .num), (.x 0 "CH4", .num), (.m 2, .num)] := by
      simp [combShared, combToy, numMX, EqState.varFluids, combSharedS]
    unfold combBusWrites
    rw [hr]
    have h0 : ∀ i, combSharedS.isVar (.m i) = false := by intro i; simp [combSharedS]
    have h1 : combSharedS.isVar (.x 0 "CH4") = true := by simp [combSharedS]
    simp [cEval, cValue, h0, h1, hn]
  · simp [combSharedS]
  · simp [busEntry]; norm_num
  · intro t
    simp [combBusValue, combTi, cStream, combShared, combToy, combSharedS, Spec.stateWith, EqState.mv, EqState.xv]
    ring

/-! ### the hypotheses can be met -/

private theorem toy_stoich (f : String) : ∃ row, (CombEq.stoich f).jac { combToy with lam := some 2 } combToyS = .ok row := by
  unfold CombEq.jac
  generalize (CombEq.stoich f).row { combToy with lam := some 2 } combToyS = l
  induction l with
  | nil => exact ⟨[], rfl⟩
  | cons e l ih =>
    obtain ⟨r, hr⟩ := ih
    unfold cEval
    rw [hr]
    by_cases h : combToyS.isVar e.1 = true
    · rw [if_pos h]
      cases he : e.2 with
      | num => simp [cValue, cNumeric, CombEq.res, stoichRes, lambdaVal]
      | val x => simp [cValue]
    · rw [if_neg h]; exact ⟨r, rfl⟩

/-- With a specified air ratio of 2 the entry for carbon dioxide in the flue gas is the derivative. -/
example : ∃ row, (CombEq.stoich "CO2").jac { combToy with lam := some 2 } combToyS = .ok row ∧
    Spec.PartialDerivative (fun s => (CombEq.stoich "CO2").res { combToy with lam := some 2 } s) combToyS (.x 2 "CO2")
      (rowValue row (.x 2 "CO2")) := by
  obtain ⟨row, h⟩ := toy_stoich "CO2"
  refine ⟨row, h, C91_stoich_exact_partial _ _ combToy_own.2.2 _ row h _ (by simp [combToyS]) ?_
    (.inl ⟨2, rfl, .inl (by norm_num)⟩)⟩
  simp [Spec.Inner, combToyS]; norm_num

/-- The entry for methane in the flue gas, of which there is none, is half of the derivative. -/
example : ∃ row b, (CombEq.stoich "CH4").jac { combToy with lam := some 2 } combToyS = .ok row ∧
    Spec.PartialDerivative (fun s => (CombEq.stoich "CH4").res { combToy with lam := some 2 } s) combToyS (.x 2 "CH4") b
    ∧ rowValue row (.x 2 "CH4") = b / 2 := by
  obtain ⟨row, h⟩ := toy_stoich "CH4"
  have h0 : combToyS.val (.x 2 "CH4") = 0 := by simp [combToyS]
  obtain ⟨b, h1, h2⟩ := C91_edge_partial { combToy with lam := some 2 } combToyS combToy_own.2.2 "CH4" row h 2 "CH4"
    (by simp [combToyS]) (by rw [h0]) (by rw [h0]; norm_num) (.inl ⟨2, rfl, .inl (by norm_num)⟩)
  refine ⟨row, b, h, h1, ?_⟩
  rw [h2, h0]
  norm_num
  ring

/-- Without specification the air ratio of the state is 2.5. -/
example : calcLambda combToy.d (combToy.inl.map (cStream combToy combToyS)) = .ok (5 / 2) := by
  simp [calcLambda, nStoich, nH, nC, nO2, nIn, combToy, combToyS, cStream, EqState.mv, EqState.xv]
  norm_num

/-- Enthalpy and mass flow of the flue gas in the energy balance. -/
example : ∃ row, CombEq.energy.jac combToy combToyS = .ok row ∧
    Spec.PartialDerivative (fun s => CombEq.energy.res combToy s) combToyS (.m 2) (rowValue row (.m 2)) ∧
    Spec.PartialDerivative (fun s => CombEq.energy.res combToy s) combToyS (.h 2) (rowValue row (.h 2)) := by
  obtain ⟨row, h⟩ := energy_jac_ok combToy combToyS
  exact ⟨row, h,
    C91_energy_exact_partial _ _ combToy_own.2.2 combToy_own.2.1 row h _ (by simp [combToyS]) (.inl ⟨2, rfl⟩),
    C91_energy_exact_partial _ _ combToy_own.2.2 combToy_own.2.1 row h _ (by simp [combToyS]) (.inr (.inr ⟨2, rfl⟩))⟩

/-- Methane in the flue gas in the equation of the thermal input. -/
example : ∃ row, CombEq.ti.jac combToy combToyS = .ok row ∧
    Spec.PartialDerivative (fun s => CombEq.ti.res combToy s) combToyS (.x 2 "CH4") (rowValue row (.x 2 "CH4")) := by
  have h : CombEq.ti.jac combToy combToyS = .ok [(.m 2, 0), (.x 2 "CH4", 41 * 50)] := by
    simp [CombEq.jac, CombEq.row, tiPart, combToy, combToyS, cEval, cValue, EqState.varFluids, EqState.mv, EqState.xv,
      List.filter_cons]
  exact ⟨_, h, C91_ti_exact_partial _ _ combToy_own.2.2 combToy_own.1 _ h _ (by simp [combToyS])⟩

/-- Energy bus of the chamber. -/
example : ∃ w, combBusWrites combToy .ok combToyS = .ok w ∧ busEntry w (.m 2) =
    -((50 * (1 - (41 + 1e-4) * 0) - 50 * (1 - (41 - 1e-4) * 0)) / (2 * 1e-4)) := by
  have hw : ∃ w, combBusWrites combToy .ok combToyS = .ok w := by
    unfold combBusWrites
    generalize (combToy.inl ++ [combToy.out]).flatMap (numMX combToyS) = l
    induction l with
    | nil => exact ⟨[], rfl⟩
    | cons e l ih =>
      obtain ⟨r, hr⟩ := ih
      unfold cEval
      rw [hr]
      by_cases h : combToyS.isVar e.1 = true
      · rw [if_pos h]
        cases he : e.2 with
        | num => simp [cValue, cNumeric, combBusValue]
        | val x => simp [cValue]
      · rw [if_neg h]; exact ⟨r, rfl⟩
  obtain ⟨w, hw⟩ := hw
  refine ⟨w, hw, ?_⟩
  rcases C91_bus_partial combToy .ok combToyS combToy_own.2.2 (by intro i; simp only [combToyS]; split <;> simp)
    combToy_own.1 w hw (.m 2) (by simp [combToyS]) trivial with ⟨up, low, h1, h2, h3⟩ | ⟨h, _⟩
  · simp [combBusValue, combTi, combToy, cStream, EqState.mv, EqState.xv, Spec.stateWith, combToyS] at h1 h2
    rw [h3, ← h1, ← h2]
    norm_num
  · rw [h]; norm_num

end Tespy
