import Verif.Model.NumRows
import Mathlib.Analysis.Calculus.Deriv.Basic
import Mathlib.Analysis.Calculus.Deriv.Add
import Mathlib.Analysis.Calculus.Deriv.Mul
import Mathlib.Tactic.NormNum
import Mathlib.Tactic.Ring
import Mathlib.Tactic.Linarith

/-!
C90: the rows of equations with numerical derivatives name every variable the equation depends on.
-/
namespace Tespy

namespace Spec

/-- Mass flow, pressure or enthalpy of a connection. -/
def FlowVar (v : Var) : Prop := (∃ c, v = .m c) ∨ (∃ c, v = .p c) ∨ (∃ c, v = .h c)

/-- The same state with another value `t` of the quantity `v`. -/
def stateWith (s : EqState ℝ) (v : Var) (t : ℝ) : EqState ℝ := { s with val := fun w => if w = v then t else s.val w }

/-- Documented increments of numerical derivatives: 1e-4 for mass flow, 0.1 for pressure and enthalpy, a number given per
parameter. -/
noncomputable def increment (C : NComp) : Var → ℝ
  | .m _ => 1e-4
  | .p _ => 0.1
  | .h _ => 0.1
  | .x _ _ => 1e-5
  | .par n => C.d n

/-- `x` is a right entry of the equation `f` for `v`: the partial derivative, or the central difference quotient. -/
def RightEntry (C : NComp) (f : EqState ℝ → PyRes ℝ) (s : EqState ℝ) (v : Var) (x : ℝ) : Prop :=
  (∃ g : ℝ → ℝ, (∀ t, f (stateWith s v t) = .ok (g t)) ∧ HasDerivAt g x (s.val v)) ∨
  (∃ up low, f (stateWith s v (s.val v + increment C v)) = .ok up
    ∧ f (stateWith s v (s.val v - increment C v)) = .ok low
    ∧ increment C v ≠ 0 ∧ x = (up - low) / (2 * increment C v))

/-- Inlet `n` and outlet `n` have the same mass flow variable (one branch of the network). -/
def OneBranch (C : NComp) (n : ℕ) : Prop := (C.outl n).m = (C.inl n).m

/-- The connections have their own pressures and enthalpies. -/
structure OwnStates (C : NComp) : Prop where
  hin : ∀ a b, a ≠ b → (C.inl a).h ≠ (C.inl b).h
  hout : ∀ a b, a ≠ b → (C.outl a).h ≠ (C.outl b).h
  hio : ∀ a b, (C.inl a).h ≠ (C.outl b).h
  pio : ∀ a b, (C.inl a).p ≠ (C.outl b).p

/-- A characteristic linked to quantities of connection number 0. -/
def Sel0 (C : NComp) (q : CharSel) : Prop := q.inconn = 0 ∧ q.outconn = 0 ∧ (q.param = .mOut → OneBranch C 0)

/-- A characteristic linked to quantities of one of two streams. -/
def Sel01 (C : NComp) (q : CharSel) : Prop :=
  (q.inconn = 0 ∨ q.inconn = 1) ∧ (q.outconn = 0 ∨ q.outconn = 1) ∧
    (q.param = .mOut → OneBranch C 0 ∧ OneBranch C 1)

/-- The choices of characteristic parameters for which the row is complete. -/
def Covered (C : NComp) : NEq → Prop
  | .hexKAChar q1 q2 => Sel01 C q1 ∧ Sel01 C q2
  | .condKAChar q1 q2 => Sel01 C q1 ∧ Sel01 C q2
  | .simpleKAChar q => Sel0 C q
  | .dpChar q => Sel0 C q
  | .pumpEtaChar q => Sel0 C q
  | .flowChar q => Sel0 C q
  | .turbineEtaChar p => p = .mOut → OneBranch C 0
  | .etaChar q => q.param = .mOut ∧ q.outconn = 2
  | _ => True

end Spec

theorem stateWith_eq (s : EqState ℝ) (v : Var) (t : ℝ) : Spec.stateWith s v t = nPut s v t := by
  unfold Spec.stateWith nPut
  congr 1
  funext w
  by_cases h : w = v
  · subst h; simp
  · simp [h]

theorem increment_eq (C : NComp) (v : Var) : Spec.increment C v = nStep C v := by
  cases v <;> simp [Spec.increment, nStep] <;> norm_num

/-- The quantities named by a row do not depend on the state. -/
theorem nRow_vars (F : NumProps) (C : NComp) (s s' : EqState ℝ) (e : NEq) :
    (e.row F C s).map Prod.fst = (e.row F C s').map Prod.fst := by
  cases e <;> simp [NEq.row]

private theorem nCharExpr_congr0 (F : NumProps) (C : NComp) (q : CharSel) (s s' : EqState ℝ) (hq : Spec.Sel0 C q)
    (hx : ∀ c, s.xv c = s'.xv c) (hm : s.mv (C.inl 0) = s'.mv (C.inl 0))
    (hpi : s.pv (C.inl 0) = s'.pv (C.inl 0))
    (hhi : q.param = .v → s.hv (C.inl 0) = s'.hv (C.inl 0))
    (hpo : s.pv (C.outl 0) = s'.pv (C.outl 0)) :
    nCharExpr F C q s = nCharExpr F C q s' := by
  obtain ⟨p, r, a, b⟩ := q
  obtain ⟨h1, h2, h3⟩ := hq
  simp only at h1 h2 h3 hhi
  subst h1 h2
  have ho : p = .mOut → s.mv (C.outl 0) = s'.mv (C.outl 0) := by
    intro h
    have := h3 h
    unfold Spec.OneBranch at this
    simp only [EqState.mv] at hm ⊢
    rw [this, hm]
  cases p <;> cases r <;>
    simp_all [nCharExpr, charExprRel, nStream]

private theorem nCharExpr_congr01 (F : NumProps) (C : NComp) (q : CharSel) (s s' : EqState ℝ) (hq : Spec.Sel01 C q)
    (hx : ∀ c, s.xv c = s'.xv c) (hm0 : s.mv (C.inl 0) = s'.mv (C.inl 0)) (hm1 : s.mv (C.inl 1) = s'.mv (C.inl 1))
    (hpi0 : s.pv (C.inl 0) = s'.pv (C.inl 0)) (hpi1 : s.pv (C.inl 1) = s'.pv (C.inl 1))
    (hhi0 : s.hv (C.inl 0) = s'.hv (C.inl 0)) (hhi1 : s.hv (C.inl 1) = s'.hv (C.inl 1))
    (hpo0 : s.pv (C.outl 0) = s'.pv (C.outl 0)) (hpo1 : s.pv (C.outl 1) = s'.pv (C.outl 1)) :
    nCharExpr F C q s = nCharExpr F C q s' := by
  obtain ⟨p, r, a, b⟩ := q
  obtain ⟨h1, h2, h3⟩ := hq
  simp only at h1 h2 h3
  have ho : p = .mOut → s.mv (C.outl 0) = s'.mv (C.outl 0) ∧ s.mv (C.outl 1) = s'.mv (C.outl 1) := by
    intro h
    have := h3 h
    unfold Spec.OneBranch at this
    simp only [EqState.mv] at hm0 hm1 ⊢
    rw [this.1, this.2, hm0, hm1]
    exact ⟨rfl, rfl⟩
  rcases h1 with h1 | h1 <;> rcases h2 with h2 | h2 <;> subst h1 h2 <;> cases p <;> cases r <;>
    simp_all [nCharExpr, charExprRel, nStream]

private theorem coneRes_congr (i o o' : HStream) (d : HDesign) (pr : ℝ) (h : o.p = o'.p) :
    coneRes i o d pr = coneRes i o' d pr := by
  unfold coneRes
  rw [h]

/-- If two states agree in the compositions, the parameters and all quantities named by the row, the residuals agree. -/
theorem nRes_congr (F : NumProps) (C : NComp) (e : NEq) (hc : Spec.Covered C e) (s s' : EqState ℝ)
    (hx : ∀ c f, s.val (.x c f) = s'.val (.x c f)) (hp : ∀ n, s.val (.par n) = s'.val (.par n))
    (hr : ∀ en ∈ e.row F C s, s.val en.1 = s'.val en.1) : e.res F C s = e.res F C s' := by
  have hxv : ∀ c : Port, s.xv c = s'.xv c := fun c => funext fun f => hx c.fl f
  have hm : ∀ c : Port, s.val (.m c.m) = s.mv c := fun _ => rfl
  have hpp : ∀ c : Port, s.val (.p c.p) = s.pv c := fun _ => rfl
  have hh : ∀ c : Port, s.val (.h c.h) = s.hv c := fun _ => rfl
  have hm' : ∀ c : Port, s'.val (.m c.m) = s'.mv c := fun _ => rfl
  have hpp' : ∀ c : Port, s'.val (.p c.p) = s'.pv c := fun _ => rfl
  have hh' : ∀ c : Port, s'.val (.h c.h) = s'.hv c := fun _ => rfl
  cases e
  case hexKAChar q1 q2 =>
    simp only [NEq.row, numPH, numMPH, List.cons_append, List.nil_append, List.mem_cons, List.not_mem_nil, or_false,
      forall_eq_or_imp, forall_eq, hm, hpp, hh, hm', hpp', hh'] at hr
    have e1 := nCharExpr_congr01 F C q1 s s' hc.1 hxv (by tauto) (by tauto) (by tauto) (by tauto) (by tauto) (by tauto)
      (by tauto) (by tauto)
    have e2 := nCharExpr_congr01 F C q2 s s' hc.2 hxv (by tauto) (by tauto) (by tauto) (by tauto) (by tauto) (by tauto)
      (by tauto) (by tauto)
    simp [NEq.res, e1, e2, nHex, nStream, hxv, hr]
  case condKAChar q1 q2 =>
    simp only [NEq.row, numPH, numMPH, List.cons_append, List.nil_append, List.mem_cons, List.not_mem_nil, or_false,
      forall_eq_or_imp, forall_eq, hm, hpp, hh, hm', hpp', hh'] at hr
    have e1 := nCharExpr_congr01 F C q1 s s' hc.1 hxv (by tauto) (by tauto) (by tauto) (by tauto) (by tauto) (by tauto)
      (by tauto) (by tauto)
    have e2 := nCharExpr_congr01 F C q2 s s' hc.2 hxv (by tauto) (by tauto) (by tauto) (by tauto) (by tauto) (by tauto)
      (by tauto) (by tauto)
    simp [NEq.res, e1, e2, nHex, nStream, hxv, hr]
  case simpleKAChar q =>
    simp only [NEq.row, numPH, numMPH, List.cons_append, List.nil_append, List.mem_cons, List.not_mem_nil, or_false,
      forall_eq_or_imp, forall_eq, hm, hpp, hh, hm', hpp', hh'] at hr
    have e1 := nCharExpr_congr0 F C q s s' hc hxv (by tauto) (by tauto) (by tauto) (by tauto)
    simp [NEq.res, e1, nStream, hxv, hr]
  case pumpEtaChar q =>
    simp only [NEq.row, numPH, numMPH, List.cons_append, List.nil_append, List.mem_cons, List.not_mem_nil, or_false,
      forall_eq_or_imp, forall_eq, hm, hpp, hh, hm', hpp', hh'] at hr
    have e1 := nCharExpr_congr0 F C q s s' hc hxv (by tauto) (by tauto) (by tauto) (by tauto)
    simp [NEq.res, e1, hxv, hr]
  case flowChar q =>
    simp only [NEq.row, numPH, numMPH, List.cons_append, List.nil_append, List.mem_cons, List.not_mem_nil, or_false,
      forall_eq_or_imp, forall_eq, hm, hpp, hh, hm', hpp', hh'] at hr
    have e1 := nCharExpr_congr0 F C q s s' hc hxv (by tauto) (by tauto) (by tauto) (by tauto)
    simp [NEq.res, e1, hr]
  case dpChar q =>
    by_cases hv : q.param = .v
    · simp only [NEq.row, hv, if_true, numPH, numMPH, List.cons_append, List.nil_append, List.mem_cons,
        List.not_mem_nil, or_false, forall_eq_or_imp, forall_eq, hm, hpp, hh, hm', hpp', hh'] at hr
      have e1 := nCharExpr_congr0 F C q s s' hc hxv (by tauto) (by tauto) (by tauto) (by tauto)
      simp [NEq.res, e1, hr]
    · simp only [NEq.row, hv, if_false, numPH, numMPH, List.cons_append, List.nil_append, List.mem_cons,
        List.not_mem_nil, or_false, forall_eq_or_imp, forall_eq, hm, hpp, hh, hm', hpp', hh'] at hr
      have e1 := nCharExpr_congr0 F C q s s' hc hxv (by tauto) (by tauto) (by tauto) (by tauto)
      simp [NEq.res, e1, hr]
  case etaChar q =>
    obtain ⟨p, r, a, b⟩ := q
    obtain ⟨h1, h2⟩ := hc
    simp only at h1 h2
    subst h1 h2
    simp only [NEq.row, numPH, numMPH, List.cons_append, List.nil_append, List.mem_cons, List.not_mem_nil, or_false,
      forall_eq_or_imp, forall_eq, hm, hpp, hh, hm', hpp', hh'] at hr
    cases r <;> simp [NEq.res, nCharExpr, charExprRel, nStream, hp, hr]
  case turbineEtaChar p =>
    simp only [NEq.row, numPH, numMPH, List.cons_append, List.nil_append, List.mem_cons, List.not_mem_nil, or_false,
      forall_eq_or_imp, forall_eq, hm, hpp, hh, hm', hpp', hh'] at hr
    have ho : p = .mOut → s.mv (C.outl 0) = s'.mv (C.outl 0) := by
      intro h
      have h1 := hc h
      unfold Spec.OneBranch at h1
      have h2 := hr.1
      simp only [EqState.mv] at h2 ⊢
      rw [h1, h2]
    cases p <;> simp_all [NEq.res, turbineEtaCharRes, charExprRel, nStream]
  case UA =>
    simp only [NEq.row, numPH, numMPH, List.cons_append, List.nil_append, List.mem_cons, List.not_mem_nil, or_false,
      forall_eq_or_imp, forall_eq, hm, hpp, hh, hm', hpp', hh'] at hr
    have hs : nSameFluid C s ↔ nSameFluid C s' := by unfold nSameFluid; simp only [hxv]
    by_cases h : nSameFluid C s'
    · simp [NEq.res, hs.2 h, h, nSide, hxv, hr, hp]
    · simp [NEq.res, mt hs.1 h, h]
  case tdPinch =>
    simp only [NEq.row, numPH, numMPH, List.cons_append, List.nil_append, List.mem_cons, List.not_mem_nil, or_false,
      forall_eq_or_imp, forall_eq, hm, hpp, hh, hm', hpp', hh'] at hr
    have hs : nSameFluid C s ↔ nSameFluid C s' := by unfold nSameFluid; simp only [hxv]
    by_cases h : nSameFluid C s'
    · simp [NEq.res, hs.2 h, h, nSide, hxv, hr, hp]
    · simp [NEq.res, mt hs.1 h, h]
  case cone =>
    simp only [NEq.row, numPH, numMPH, List.cons_append, List.nil_append, List.mem_cons, List.not_mem_nil, or_false,
      forall_eq_or_imp, forall_eq, hm, hpp, hh, hm', hpp', hh'] at hr
    have h1 : nStream F s (C.inl 0) = nStream F s' (C.inl 0) := by simp [nStream, hxv, hr]
    simp only [NEq.res]
    rw [h1]
    exact coneRes_congr _ _ _ _ _ (by simp [nStream, hr])
  all_goals
    simp only [NEq.row, steamDerivVars, List.map_cons, List.map_nil, numPH, numMPH, List.cons_append, List.nil_append,
      List.mem_cons, List.not_mem_nil, or_false,
      forall_eq_or_imp, forall_eq, hm, hpp, hh, hm', hpp', hh'] at hr
    simp [NEq.res, zetaRes, hexKARes, condKARes, hexTtdURes, hexTtdLRes, hexTtdMinRes, hexEffColdRes, hexEffHotRes,
      hexEffMaxRes, HexState.Tu, darcyRes, hazenRes, simpleKARes, pumpEtaRes, turbineEtaRes, nMapEval,
      nHex, nStream, hxv, hr, hp]


private theorem nEval_mem (C : NComp) (f : EqState ℝ → PyRes ℝ) (s : EqState ℝ) (l : List (Var × NEntry))
    (r : List (Var × ℝ)) (h : nEval C f s l = .ok r) (v : Var) (x : ℝ) (hm : (v, x) ∈ r) :
    s.isVar v = true ∧ ∃ en, (v, en) ∈ l ∧ nValue C f s v en = .ok x := by
  induction l generalizing r with
  | nil => simp [nEval] at h; subst h; simp at hm
  | cons e l ih =>
    unfold nEval at h
    by_cases hv : s.isVar e.1 = true
    · rw [if_pos hv] at h
      cases hx : nValue C f s e.1 e.2 with
      | error e => rw [hx] at h; simp at h
      | ok y =>
        rw [hx] at h
        cases hl : nEval C f s l with
        | error e => rw [hl] at h; simp at h
        | ok r' =>
          rw [hl] at h
          simp only [Except.ok.injEq] at h
          subst h
          rcases List.mem_cons.1 hm with hm | hm
          · obtain ⟨h1, h2⟩ := Prod.mk.inj hm
            subst h1 h2
            exact ⟨hv, e.2, by simp, hx⟩
          · obtain ⟨h1, en, h2, h3⟩ := ih r' hl hm
            exact ⟨h1, en, List.mem_cons_of_mem _ h2, h3⟩
    · rw [if_neg hv] at h
      obtain ⟨h1, en, h2, h3⟩ := ih r h hm
      exact ⟨h1, en, List.mem_cons_of_mem _ h2, h3⟩

private theorem nEval_has (C : NComp) (f : EqState ℝ → PyRes ℝ) (s : EqState ℝ) (l : List (Var × NEntry))
    (r : List (Var × ℝ)) (h : nEval C f s l = .ok r) (en : Var × NEntry) (hl : en ∈ l) (hv : s.isVar en.1 = true) :
    ∃ x, (en.1, x) ∈ r := by
  induction l generalizing r with
  | nil => simp at hl
  | cons e l ih =>
    unfold nEval at h
    by_cases he : s.isVar e.1 = true
    · rw [if_pos he] at h
      cases hx : nValue C f s e.1 e.2 with
      | error e => rw [hx] at h; simp at h
      | ok y =>
        rw [hx] at h
        cases hl' : nEval C f s l with
        | error e => rw [hl'] at h; simp at h
        | ok r' =>
          rw [hl'] at h
          simp only [Except.ok.injEq] at h
          subst h
          rcases List.mem_cons.1 hl with hm | hm
          · subst hm; exact ⟨y, by simp⟩
          · obtain ⟨x, hx'⟩ := ih r' hl' hm
            exact ⟨x, List.mem_cons_of_mem _ hx'⟩
    · rw [if_neg he] at h
      rcases List.mem_cons.1 hl with hm | hm
      · subst hm; exact absurd hv he
      · exact ih r h hm

private theorem numeric_right (C : NComp) (f : EqState ℝ → PyRes ℝ) (s : EqState ℝ) (v : Var) (x : ℝ)
    (h : nNumeric C f s v = .ok x) : Spec.RightEntry C f s v x := by
  right
  unfold nNumeric at h
  cases h1 : f (nPut s v (s.val v + nStep C v)) with
  | error e => rw [h1] at h; simp at h
  | ok up =>
    rw [h1] at h
    cases h2 : f (nPut s v (s.val v - nStep C v)) with
    | error e => rw [h2] at h; simp at h
    | ok low =>
      rw [h2] at h
      simp only [rdiv] at h
      split at h
      · simp at h
      · rename_i h0
        simp only [Except.ok.injEq] at h
        refine ⟨up, low, ?_, ?_, ?_, ?_⟩
        · rw [stateWith_eq, increment_eq]; exact h1
        · rw [stateWith_eq, increment_eq]; exact h2
        · rw [increment_eq]; intro h'; exact h0 (by rw [h']; ring)
        · rw [increment_eq]; exact h.symm

/-- Two states which differ only in mass flows, pressures and enthalpies of connections the row does not name have the
same residual: no variable of a connection is missing in the row. -/
theorem C90_complete_partial (F : NumProps) (C : NComp) (e : NEq) (hc : Spec.Covered C e) (s s' : EqState ℝ)
    (h : ∀ v, s.val v ≠ s'.val v → Spec.FlowVar v ∧ ∀ en ∈ e.row F C s, en.1 ≠ v) :
    e.res F C s = e.res F C s' := by
  apply nRes_congr F C e hc
  · intro c f
    by_contra hn
    rcases (h _ hn).1 with ⟨c, h1⟩ | ⟨c, h1⟩ | ⟨c, h1⟩ <;> simp at h1
  · intro n
    by_contra hn
    rcases (h _ hn).1 with ⟨c, h1⟩ | ⟨c, h1⟩ | ⟨c, h1⟩ <;> simp at h1
  · intro en hen
    by_contra hn
    exact (h _ hn).2 en hen rfl

/-- If a mass flow, pressure or enthalpy is a variable of the system and the residual changes with it, the row written to
the Jacobian has an entry for it. -/
theorem C90_named_partial (F : NumProps) (C : NComp) (e : NEq) (hc : Spec.Covered C e) (s : EqState ℝ)
    (row : List (Var × ℝ)) (hj : e.jac F C s = .ok row) (v : Var) (hf : Spec.FlowVar v) (hv : s.isVar v = true)
    (t : ℝ) (hd : e.res F C (Spec.stateWith s v t) ≠ e.res F C s) : ∃ x, (v, x) ∈ row := by
  by_cases hr : ∃ en ∈ e.row F C s, en.1 = v
  · obtain ⟨en, h1, h2⟩ := hr
    subst h2
    exact nEval_has C _ s _ row hj en h1 hv
  · exfalso
    apply hd
    symm
    apply C90_complete_partial F C e hc
    intro w hw
    have : w = v := by
      by_contra hne
      exact hw (by simp [Spec.stateWith, hne])
    subst this
    exact ⟨hf, fun en hen h => hr ⟨en, hen, h⟩⟩


private theorem affine_right (C : NComp) (f : EqState ℝ → PyRes ℝ) (s : EqState ℝ) (v : Var) (x r : ℝ)
    (h : ∀ t, f (nPut s v t) = .ok (r + x * (t - s.val v))) : Spec.RightEntry C f s v x := by
  left
  refine ⟨fun t => r + x * (t - s.val v), fun t => by rw [stateWith_eq]; exact h t, ?_⟩
  have h1 : HasDerivAt (fun t : ℝ => x * (t - s.val v)) (x * 1) (s.val v) :=
    ((hasDerivAt_id' (s.val v)).sub_const (s.val v)).const_mul x
  rw [mul_one] at h1
  exact h1.const_add r

private theorem nPut_val (s : EqState ℝ) (v w : Var) (t : ℝ) : (nPut s v t).val w = if w = v then t else s.val w := by
  simp [nPut, Function.update_apply]

private theorem nPut_xv_m (s : EqState ℝ) (k : ℕ) (t : ℝ) (c : Port) : (nPut s (.m k) t).xv c = s.xv c := by
  funext f; simp [EqState.xv, nPut_val]
private theorem nPut_xv_p (s : EqState ℝ) (k : ℕ) (t : ℝ) (c : Port) : (nPut s (.p k) t).xv c = s.xv c := by
  funext f; simp [EqState.xv, nPut_val]
private theorem nPut_xv_h (s : EqState ℝ) (k : ℕ) (t : ℝ) (c : Port) : (nPut s (.h k) t).xv c = s.xv c := by
  funext f; simp [EqState.xv, nPut_val]
private theorem nPut_xv_par (s : EqState ℝ) (k : String) (t : ℝ) (c : Port) : (nPut s (.par k) t).xv c = s.xv c := by
  funext f; simp [EqState.xv, nPut_val]

/-- Every entry is written for a variable of the system and is the partial derivative of the residual or its central
difference quotient. Excluded are valves whose characteristic is linked to the pressure ratio. -/
theorem C90_entries_partial (F : NumProps) (C : NComp) (e : NEq) (ho : Spec.OwnStates C)
    (hpr : ∀ q, e = .dpChar q → q.param ≠ .pr) (s : EqState ℝ) (r : ℝ) (hr : e.res F C s = .ok r)
    (row : List (Var × ℝ)) (hj : e.jac F C s = .ok row) (v : Var) (x : ℝ) (hm : (v, x) ∈ row) :
    s.isVar v = true ∧ Spec.RightEntry C (fun s => e.res F C s) s v x := by
  obtain ⟨hv, en, hen, hx⟩ := nEval_mem C _ s _ row hj v x hm
  refine ⟨hv, ?_⟩
  cases en with
  | num => exact numeric_right C _ s v x hx
  | val y =>
    simp only [nValue, Except.ok.injEq] at hx
    subst hx
    have h10 := ho.hin 1 0 (by norm_num)
    have h01 := ho.hin 0 1 (by norm_num)
    cases e
    case hexKA =>
      simp [NEq.row, numPH, numMPH] at hen
      obtain ⟨rfl, rfl⟩ := hen
      apply affine_right C _ s _ _ r
      intro t
      simp only [NEq.res, hexKARes] at hr ⊢
      have hT : ∀ c, (nStream F (nPut s (.m (C.inl 0).m) t) c).T = (nStream F s c).T := by
        intro c; simp [nStream, nPut_xv_m, nPut_xv_p, nPut_xv_h, nPut_xv_par, EqState.pv, EqState.hv, nPut_val]
      simp only [nHex, hT] at hr ⊢
      cases htd : hexTdLog (nStream F s (C.inl 0)).T (nStream F s (C.inl 1)).T (nStream F s (C.outl 0)).T
          (nStream F s (C.outl 1)).T with
      | error e => rw [htd] at hr; simp at hr
      | ok td =>
        rw [htd] at hr
        simp only [Except.ok.injEq] at hr
        simp only [Except.ok.injEq]
        rw [← hr]
        simp [nStream, EqState.mv, EqState.hv, nPut_val]
        ring
    case condKA =>
      simp [NEq.row, numPH, numMPH] at hen
      obtain ⟨rfl, rfl⟩ := hen
      apply affine_right C _ s _ _ r
      intro t
      simp only [NEq.res, condKARes] at hr ⊢
      have hT : ∀ c, (nStream F (nPut s (.m (C.inl 0).m) t) c).T = (nStream F s c).T := by
        intro c; simp [nStream, nPut_xv_m, nPut_xv_p, nPut_xv_h, nPut_xv_par, EqState.pv, EqState.hv, nPut_val]
      have hS : F.Tsat ((nPut s (.m (C.inl 0).m) t).xv (C.inl 0)) ((nPut s (.m (C.inl 0).m) t).pv (C.inl 0))
          = F.Tsat (s.xv (C.inl 0)) (s.pv (C.inl 0)) := by
        simp [nPut_xv_m, nPut_xv_p, nPut_xv_h, nPut_xv_par, EqState.pv, nPut_val]
      simp only [nHex, hT, hS] at hr ⊢
      cases htd : condTdLog C.tset (F.Tsat (s.xv (C.inl 0)) (s.pv (C.inl 0))) (nStream F s (C.inl 1)).T
          (nStream F s (C.outl 0)).T (nStream F s (C.outl 1)).T with
      | error e => rw [htd] at hr; simp at hr
      | ok td =>
        rw [htd] at hr
        simp only [Except.ok.injEq] at hr
        simp only [Except.ok.injEq]
        rw [← hr]
        simp [nStream, EqState.mv, EqState.hv, nPut_val]
        ring
    case simpleKA =>
      simp [NEq.row, numPH, numMPH] at hen
      obtain ⟨rfl, rfl⟩ := hen
      apply affine_right C _ s _ _ r
      intro t
      simp only [NEq.res, simpleKARes] at hr ⊢
      have hT : ∀ c, (nStream F (nPut s (.m (C.inl 0).m) t) c).T = (nStream F s c).T := by
        intro c; simp [nStream, nPut_xv_m, nPut_xv_p, nPut_xv_h, nPut_xv_par, EqState.pv, EqState.hv, nPut_val]
      simp only [hT] at hr ⊢
      cases htd : simpleTd (nStream F s (C.inl 0)).T (nStream F s (C.outl 0)).T C.Tamb with
      | error e => rw [htd] at hr; simp at hr
      | ok td =>
        rw [htd] at hr
        simp only [Except.ok.injEq] at hr
        simp only [Except.ok.injEq]
        rw [← hr]
        simp [nStream, EqState.mv, EqState.hv, nPut_val]
        ring
    case effCold =>
      simp [NEq.row, numPH, numMPH] at hen
      obtain ⟨rfl, rfl⟩ := hen
      apply affine_right C _ s _ _ r
      intro t
      simp only [NEq.res, hexEffColdRes] at hr ⊢
      have hT : (nStream F (nPut s (.h (C.inl 1).h) t) (C.inl 0)).T = (nStream F s (C.inl 0)).T := by
        simp [nStream, nPut_xv_m, nPut_xv_p, nPut_xv_h, nPut_xv_par, EqState.pv, EqState.hv, nPut_val, h01]
      have hX : (nPut s (.h (C.inl 1).h) t).xv (C.outl 1) = s.xv (C.outl 1) := by
        exact nPut_xv_h _ _ _ _
      have hP : (nPut s (.h (C.inl 1).h) t).pv (C.outl 1) = s.pv (C.outl 1) := by simp [EqState.pv, nPut_val]
      simp only [nHex, hT, hX, hP] at hr ⊢
      cases hmax : F.hPT (s.xv (C.outl 1)) (s.pv (C.outl 1)) (nStream F s (C.inl 0)).T with
      | none => rw [hmax] at hr; simp at hr
      | some h =>
        rw [hmax] at hr
        simp only [Except.ok.injEq] at hr
        simp only [Except.ok.injEq]
        rw [← hr]
        simp [nStream, EqState.hv, nPut_val, (ho.hio 1 1).symm, effColdEntry]
        ring
    case effHot =>
      simp [NEq.row, numPH, numMPH] at hen
      obtain ⟨rfl, rfl⟩ := hen
      apply affine_right C _ s _ _ r
      intro t
      simp only [NEq.res, hexEffHotRes] at hr ⊢
      have hT : (nStream F (nPut s (.h (C.inl 0).h) t) (C.inl 1)).T = (nStream F s (C.inl 1)).T := by
        simp [nStream, nPut_xv_m, nPut_xv_p, nPut_xv_h, nPut_xv_par, EqState.pv, EqState.hv, nPut_val, h10]
      have hX : (nPut s (.h (C.inl 0).h) t).xv (C.outl 0) = s.xv (C.outl 0) := by
        exact nPut_xv_h _ _ _ _
      have hP : (nPut s (.h (C.inl 0).h) t).pv (C.outl 0) = s.pv (C.outl 0) := by simp [EqState.pv, nPut_val]
      simp only [nHex, hT, hX, hP] at hr ⊢
      cases hmax : F.hPT (s.xv (C.outl 0)) (s.pv (C.outl 0)) (nStream F s (C.inl 1)).T with
      | none => rw [hmax] at hr; simp at hr
      | some h =>
        rw [hmax] at hr
        simp only [Except.ok.injEq] at hr
        simp only [Except.ok.injEq]
        rw [← hr]
        simp [nStream, EqState.hv, nPut_val, (ho.hio 0 0).symm, effHotEntry]
        ring
    case subcooling =>
      simp [NEq.row] at hen
      rcases hen with ⟨rfl, rfl⟩ | ⟨rfl, rfl⟩
      · right
        refine ⟨_, _, rfl, rfl, by simp only [Spec.increment]; norm_num, ?_⟩
        simp [stateWith_eq, EqState.hv, EqState.pv, nPut_xv_m, nPut_xv_p, nPut_xv_h, nPut_xv_par, nPut_val, Spec.increment, nDhPQ, Var.p.injEq]
        ring_nf
      · apply affine_right C _ s _ _ r
        intro t
        simp only [NEq.res, Except.ok.injEq] at hr ⊢
        rw [← hr]
        simp [EqState.hv, EqState.pv, nPut_xv_m, nPut_xv_p, nPut_xv_h, nPut_xv_par, nPut_val]
    case satGas =>
      simp [NEq.row] at hen
      rcases hen with ⟨rfl, rfl⟩ | ⟨rfl, rfl⟩
      · right
        refine ⟨_, _, rfl, rfl, by simp only [Spec.increment]; norm_num, ?_⟩
        simp [stateWith_eq, EqState.hv, EqState.pv, nPut_xv_m, nPut_xv_p, nPut_xv_h, nPut_xv_par, nPut_val, Spec.increment, nDhPQ, Var.p.injEq]
        ring_nf
      · apply affine_right C _ s _ _ r
        intro t
        simp only [NEq.res, Except.ok.injEq] at hr ⊢
        rw [← hr]
        simp [EqState.hv, EqState.pv, nPut_xv_m, nPut_xv_p, nPut_xv_h, nPut_xv_par, nPut_val]
    case dpChar q =>
      have hq := hpr q rfl
      have hchar : ∀ c t, q.param ≠ .v ∨ c = (C.outl 0).p → nCharExpr F C q (nPut s (.p c) t) = nCharExpr F C q s := by
        intro c t hc
        obtain ⟨p, b, a, d⟩ := q
        have hpo : ∀ a, (C.inl a).p ≠ (C.outl 0).p := fun a => ho.pio a 0
        cases p <;> cases b <;> simp_all [nCharExpr, charExprRel, nStream, EqState.mv, EqState.pv, EqState.hv,
          nPut_xv_m, nPut_xv_p, nPut_xv_h, nPut_xv_par, nPut_val]
      have hne := ho.pio 0 0
      have hcase : (v = .p (C.inl 0).p ∧ y = 1 ∧ q.param ≠ .v) ∨ (v = .p (C.outl 0).p ∧ y = -1) := by
        by_cases h : q.param = .v
        · simp [NEq.row, h, numPH] at hen
          exact Or.inr hen
        · simp [NEq.row, h] at hen
          tauto
      simp only [NEq.res] at hr
      cases hc : charFactor (C.char "dp_char") (nCharExpr F C q s) with
      | error e => rw [hc] at hr; simp [nMap] at hr
      | ok c =>
        rw [hc] at hr
        simp only [nMap, Except.ok.injEq] at hr
        rcases hcase with ⟨rfl, rfl, hnv⟩ | ⟨rfl, rfl⟩
        · apply affine_right C _ s _ _ r
          intro t
          simp only [NEq.res]
          rw [hchar _ _ (Or.inl hnv), hc]
          simp only [nMap, Except.ok.injEq]
          rw [← hr]
          simp [EqState.pv, nPut_val, hne.symm]
          ring
        · apply affine_right C _ s _ _ r
          intro t
          simp only [NEq.res]
          rw [hchar _ _ (Or.inr rfl), hc]
          simp only [nMap, Except.ok.injEq]
          rw [← hr]
          simp [EqState.pv, nPut_val, hne]
          ring
    case etaChar q =>
      simp [NEq.row] at hen
      obtain ⟨rfl, rfl⟩ := hen
      apply affine_right C _ s _ _ r
      intro t
      have hchar : nCharExpr F C q (nPut s (.par "P") t) = nCharExpr F C q s := by
        obtain ⟨p, b, a, d⟩ := q
        cases p <;> cases b <;> simp [nCharExpr, charExprRel, nStream, EqState.mv, EqState.pv, EqState.hv,
          nPut_xv_m, nPut_xv_p, nPut_xv_h, nPut_xv_par, nPut_val]
      simp only [NEq.res] at hr ⊢
      rw [hchar]
      cases hc : charFactor (C.char "eta_char") (nCharExpr F C q s) with
      | error e => rw [hc] at hr; simp at hr
      | ok c =>
        rw [hc] at hr
        simp only [EqState.mv, nPut_val, reduceCtorEq, if_false] at hr ⊢
        cases hd : rdiv (s.val (.m (C.outl 2).m) * C.e0) (C.design "eta" * c) with
        | error e => rw [hd] at hr; simp [nMap] at hr
        | ok z =>
          rw [hd] at hr
          simp only [nMap, Except.ok.injEq] at hr ⊢
          rw [← hr]
          simp
    case pumpEta =>
      simp [NEq.row] at hen
      obtain ⟨rfl, rfl⟩ := hen
      apply affine_right C _ s _ _ r
      intro t
      simp only [NEq.res, Except.ok.injEq] at hr ⊢
      rw [← hr]
      simp [pumpEtaRes, nStream, EqState.hv, EqState.pv, nPut_xv_m, nPut_xv_p, nPut_xv_h, nPut_xv_par, nPut_val, ho.hio 0 0]
      ring
    case turbineEta =>
      simp [NEq.row] at hen
      obtain ⟨rfl, rfl⟩ := hen
      apply affine_right C _ s _ _ r
      intro t
      simp only [NEq.res, Except.ok.injEq] at hr ⊢
      rw [← hr]
      simp [turbineEtaRes, nStream, EqState.hv, EqState.pv, nPut_xv_m, nPut_xv_p, nPut_xv_h, nPut_xv_par, nPut_val, ho.hio 0 0]
      ring
    case mapPr =>
      simp [NEq.row, numPH, numMPH] at hen
      obtain ⟨rfl, rfl⟩ := hen
      apply affine_right C _ s _ _ r
      intro t
      have hS : nStream F (nPut s (.p (C.outl 0).p) t) (C.inl 0) = nStream F s (C.inl 0) := by
        simp [nStream, EqState.mv, nPut_xv_m, nPut_xv_p, nPut_xv_h, nPut_xv_par, EqState.pv, EqState.hv, nPut_val, ho.pio 0 0]
      have hI : (nPut s (.p (C.outl 0).p) t).val (.par "igva") = s.val (.par "igva") := by simp [nPut_val]
      simp only [NEq.res, hS, hI] at hr ⊢
      cases hd : nMapEval C "char_map_pr" (nStream F s (C.inl 0)) (s.val (.par "igva")) with
      | error e => rw [hd] at hr; simp [nMap] at hr
      | ok z =>
        rw [hd] at hr
        simp only [nMap, Except.ok.injEq] at hr ⊢
        rw [← hr]
        simp [EqState.pv, nPut_val, ho.pio 0 0]
        ring
    case cone =>
      simp [NEq.row, numPH] at hen
      obtain ⟨rfl, rfl⟩ := hen
      apply affine_right C _ s _ _ r
      intro t
      simp only [NEq.res, coneRes] at hr ⊢
      have hi : nStream F (nPut s (.m (C.inl 0).m) t) (C.inl 0) = { nStream F s (C.inl 0) with m := t } := by
        simp [nStream, EqState.mv, nPut_xv_m, nPut_xv_p, nPut_xv_h, nPut_xv_par, EqState.pv, EqState.hv, nPut_val]
      have hop : (nStream F (nPut s (.m (C.inl 0).m) t) (C.outl 0)).p = (nStream F s (C.outl 0)).p := by
        simp [nStream, EqState.pv, nPut_val]
      rw [hi, hop]
      split at hr
      · simp at hr
      · rename_i h1
        rw [if_neg h1]
        split at hr
        · simp at hr
        · rename_i h2
          rw [if_neg h2]
          simp only [Except.ok.injEq] at hr ⊢
          rw [← hr]
          simp [nStream, EqState.mv]
          ring
    all_goals simp [NEq.row, numPH, numMPH] at hen


/-- An entry for a quantity the residual does not depend on is zero. -/
theorem C90_zero_partial (F : NumProps) (C : NComp) (e : NEq) (ho : Spec.OwnStates C)
    (hpr : ∀ q, e = .dpChar q → q.param ≠ .pr) (s : EqState ℝ) (r : ℝ)
    (row : List (Var × ℝ)) (hj : e.jac F C s = .ok row) (v : Var) (x : ℝ) (hm : (v, x) ∈ row)
    (hi : ∀ t, e.res F C (Spec.stateWith s v t) = .ok r) : x = 0 := by
  have hr : e.res F C s = .ok r := by
    have h1 := hi (s.val v)
    have h2 : Spec.stateWith s v (s.val v) = s := by
      unfold Spec.stateWith
      have : (fun w => if w = v then s.val v else s.val w) = s.val := by
        funext w
        by_cases h : w = v
        · subst h; simp
        · simp [h]
      rw [this]
    rwa [h2] at h1
  rcases (C90_entries_partial F C e ho hpr s r hr row hj v x hm).2 with ⟨g, h1, h2⟩ | ⟨up, low, h1, h2, h3, h4⟩
  · have hg : g = fun _ => r := by
      funext t
      have h3 := h1 t
      simp only [hi t, Except.ok.injEq] at h3
      exact h3.symm
    subst hg
    exact h2.unique (hasDerivAt_const _ _)
  · simp only [hi, Except.ok.injEq] at h1 h2
    rw [h4, ← h1, ← h2]
    simp

/-! ### Examples -/

/-- A component with own containers for all connections and common mass flows of the streams. -/
noncomputable def rowToyC : NComp where
  inl n := ⟨n, 2 * n, 2 * n, n⟩
  outl n := ⟨n, 2 * n + 1, 2 * n + 1, n⟩
  dIn _ := ⟨1, 1, 1, 1, 1⟩
  dOut _ := ⟨1, 1, 1, 1, 1⟩
  design _ := 1
  char _ x := .ok x
  map _ _ _ _ := .ok 1
  tset := ⟨false, false, false, false⟩
  e0 := 1
  Tamb := 0
  d _ := 1

/-- Linear properties. -/
noncomputable def rowToyF : NumProps where
  T x _ h := h * x "W"
  vol _ _ _ := 1
  visc _ _ _ := 1
  Tsat _ _ := 1
  hPQ _ p _ := p
  hPT _ _ T := some T
  isen _ p h p' := h - (p - p')
  sat _ _ := none
  fric _ _ _ := 1
  rnd x := x
  steam _ := ⟨fun _ _ => "g", fun _ _ => 1, fun _ _ _ => 1, fun _ => .ok 1, fun _ => .ok 1⟩

/-- Everything is a variable. -/
noncomputable def rowToyS (iv : Var → Bool) : EqState ℝ where
  val
    | .m _ => 1
    | .p n => if n = 0 then 2 else 1
    | .h n => if n = 0 then 30 else if n = 1 then 20 else if n = 2 then 10 else 15
    | .x _ _ => 1
    | .par _ => 1
  isVar := iv
  col _ := none
  keys _ := []
  fixed _ := []

theorem rowToy_own : Spec.OwnStates rowToyC := by
  constructor <;> intro a b <;> simp [rowToyC] <;> omega

/-- Steam turbine with isentropic efficiency: the hypotheses of the theorems are met, and the row is the gradient. -/
example : NEq.res rowToyF rowToyC (rowToyS fun _ => true) .turbineEta = .ok 9
    ∧ NEq.jac rowToyF rowToyC (rowToyS fun _ => true) .turbineEta
      = .ok [(.p 0, -1), (.p 1, 1), (.h 0, 1), (.h 1, -1)] := by
  constructor
  · simp [NEq.res, turbineEtaRes, nStream, rowToyF, rowToyC, rowToyS, EqState.hv, EqState.pv]
    norm_num
  · simp [NEq.jac, NEq.row, nEval, nValue, nNumeric, NEq.res, turbineEtaRes, nStream, rowToyF, rowToyC, rowToyS,
      EqState.hv, EqState.pv, nPut_val, nStep, rdiv]
    norm_num

/-- Lower terminal temperature difference: residual and row; the mass flow and the other connections are not named, the
residual does not depend on them (`C90_complete_partial`). -/
example : NEq.res rowToyF rowToyC (rowToyS fun _ => true) .ttdL = .ok (-9)
    ∧ NEq.jac rowToyF rowToyC (rowToyS fun v => v = .h 1) .ttdL = .ok [(.h 1, -1)]
    ∧ Spec.Covered rowToyC .ttdL
    ∧ NEq.res rowToyF rowToyC (Spec.stateWith (rowToyS fun v => v = .h 1) (.h 1) 0) .ttdL = .ok 11 := by
  refine ⟨?_, ?_, trivial, ?_⟩
  · simp [NEq.res, hexTtdLRes, nHex, nStream, rowToyF, rowToyC, rowToyS, EqState.hv, EqState.pv, EqState.xv]
    norm_num
  · simp [NEq.jac, NEq.row, numPH, nEval, nValue, nNumeric, NEq.res, hexTtdLRes, nHex, nStream, rowToyF, rowToyC,
      rowToyS, EqState.hv, EqState.pv, EqState.xv, nPut_val, nStep, rdiv]
    norm_num
  · simp [NEq.res, hexTtdLRes, nHex, nStream, rowToyF, rowToyC, rowToyS, EqState.hv, EqState.pv, EqState.xv,
      Spec.stateWith]
    norm_num

/-- A heat exchanger with characteristics of both streams, a pump characteristic and an electrolyzer with its default
characteristic are covered. -/
example : Spec.Covered rowToyC (.hexKAChar ⟨.m, true, 0, 0⟩ ⟨.mOut, true, 1, 1⟩)
    ∧ Spec.Covered rowToyC (.flowChar ⟨.v, false, 0, 0⟩) ∧ Spec.Covered rowToyC (.etaChar ⟨.mOut, true, 0, 2⟩)
    ∧ Spec.Covered rowToyC (.turbineEtaChar .mOut) := by
  simp [Spec.Covered, Spec.Sel01, Spec.Sel0, Spec.OneBranch, rowToyC]

/-- The equations of a moving boundary heat exchanger give no residual if the composition changes on one of the two sides,
whatever the other side is: `ValueError`. -/
theorem C90_moving_fluid (F : NumProps) (C : NComp) (s : EqState ℝ) (i : ℕ) (hi : i = 0 ∨ i = 1)
    (hx : s.xv (C.inl i) ≠ s.xv (C.outl i)) :
    NEq.res F C s .UA = .error .valueError ∧ NEq.res F C s .tdPinch = .error .valueError := by
  have h : ¬ nSameFluid C s := by
    rintro ⟨h0, h1⟩
    rcases hi with rfl | rfl
    · exact hx h0
    · exact hx h1
  simp only [NEq.res, if_neg h, and_self]

/-- A heat exchanger with a change of the composition between inlet and outlet of the second side. -/
example : ∃ (C : NComp) (s : EqState ℝ), s.xv (C.inl 1) ≠ s.xv (C.outl 1) ∧ s.xv (C.inl 0) = s.xv (C.outl 0) := by
  refine ⟨{ rowToyC with outl := fun n => ⟨n, 2 * n + 1, 2 * n + 1, 2 * n⟩ },
    Spec.stateWith (rowToyS fun _ => true) (.x 1 "water") 0, fun h => ?_, ?_⟩
  · have := congrFun h "water"
    simp [rowToyC, rowToyS, Spec.stateWith, EqState.xv] at this
  · funext f
    simp [rowToyC, rowToyS, Spec.stateWith, EqState.xv]

/-- The pressure loss characteristic of a valve linked to the pressure ratio: the entry for the outlet pressure is neither
the derivative of the residual nor its difference quotient, the slope of the characteristic is missing. -/
theorem C90_dp_char_false : ∃ (F : NumProps) (C : NComp) (q : CharSel) (s : EqState ℝ) (r : ℝ) (row : List (Var × ℝ))
    (v : Var) (x : ℝ), Spec.OwnStates C ∧ Spec.Covered C (.dpChar q) ∧ NEq.res F C s (.dpChar q) = .ok r
      ∧ NEq.jac F C s (.dpChar q) = .ok row ∧ (v, x) ∈ row
      ∧ ¬ Spec.RightEntry C (fun s => NEq.res F C s (.dpChar q)) s v x := by
  refine ⟨rowToyF, rowToyC, ⟨.pr, false, 0, 0⟩, rowToyS fun v => v = .p 1, 1 / 2, [(.p 1, -1)], .p 1, -1, rowToy_own,
    by simp [Spec.Covered, Spec.Sel0], ?_, ?_, by simp, ?_⟩
  · simp [NEq.res, nMap, charFactor, nCharExpr, nStream, rdiv, rowToyC, rowToyS, EqState.pv]
    norm_num
  · simp [NEq.jac, NEq.row, nEval, nValue, rowToyC, rowToyS]
  · have hf : ∀ t, t ≠ 0 → NEq.res rowToyF rowToyC (Spec.stateWith (rowToyS fun v => v = .p 1) (.p 1) t)
        (.dpChar ⟨.pr, false, 0, 0⟩) = .ok (2 - t - t / 2) := by
      intro t ht
      simp [NEq.res, nMap, charFactor, nCharExpr, nStream, rdiv, rowToyC, rowToyS, EqState.pv, Spec.stateWith, ht]
    have hv : (rowToyS fun v => v = .p 1).val (.p 1) = 1 := by simp [rowToyS]
    rintro (⟨g, h1, h2⟩ | ⟨up, low, h1, h2, h3, h4⟩)
    · rw [hv] at h2
      have hg : g =ᶠ[nhds 1] fun t => 2 - t - t / 2 := by
        filter_upwards [isOpen_ne.mem_nhds (show (1 : ℝ) ≠ 0 by norm_num)] with t ht
        have h5 : Except.ok (2 - t - t / 2) = Except.ok (g t) := (hf t ht).symm.trans (h1 t)
        exact (Except.ok.inj h5).symm
      have h6 : HasDerivAt (fun t : ℝ => 2 - t - t / 2) (-1 - 1 / 2) 1 := by
        have := (((hasDerivAt_id' (1 : ℝ)).const_sub 2).sub ((hasDerivAt_id' (1 : ℝ)).div_const 2))
        exact this
      have h7 := (h6.congr_of_eventuallyEq hg).unique h2
      norm_num at h7
    · rw [hv] at h1 h2
      simp only [Spec.increment] at h1 h2 h4
      rw [hf _ (by norm_num)] at h1 h2
      simp only [Except.ok.injEq] at h1 h2
      rw [← h1, ← h2] at h4
      norm_num at h4

/-- The efficiency characteristic of an electrolyzer linked to the feed water: the residual changes with the mass flow of
the feed water, the row has no entry for it. -/
theorem C90_eta_char_false : ∃ (F : NumProps) (C : NComp) (q : CharSel) (s : EqState ℝ) (row : List (Var × ℝ))
    (v : Var) (t : ℝ), Spec.OwnStates C ∧ NEq.jac F C s (.etaChar q) = .ok row ∧ Spec.FlowVar v ∧ s.isVar v = true
      ∧ NEq.res F C (Spec.stateWith s v t) (.etaChar q) ≠ NEq.res F C s (.etaChar q) ∧ ∀ x, (v, x) ∉ row := by
  refine ⟨rowToyF, rowToyC, ⟨.m, true, 1, 2⟩, rowToyS fun v => v = .m 1, [], .m 1, 2, rowToy_own, ?_, ?_, ?_, ?_, ?_⟩
  · simp [NEq.jac, NEq.row, nEval, rowToyC, rowToyS]
  · exact Or.inl ⟨1, rfl⟩
  · simp [rowToyS]
  · simp [NEq.res, nMap, charFactor, nCharExpr, charExprRel, nStream, rdiv, rowToyC, rowToyS, EqState.mv,
      Spec.stateWith]
    norm_num
  · simp

/-- No row of these equations names a mass fraction, whatever the state: with variable compositions the residual may
change with a variable the row does not name. -/
theorem C90_composition_false : (∀ (F : NumProps) (C : NComp) (e : NEq) (s : EqState ℝ) (row : List (Var × ℝ)),
      e.jac F C s = .ok row → ∀ c f x, (Var.x c f, x) ∉ row) ∧
    ∃ (F : NumProps) (C : NComp) (e : NEq) (s : EqState ℝ) (row : List (Var × ℝ)) (c : ℕ) (f : String) (t : ℝ),
      Spec.OwnStates C ∧ Spec.Covered C e ∧ e.jac F C s = .ok row ∧ s.isVar (.x c f) = true
      ∧ e.res F C (Spec.stateWith s (.x c f) t) ≠ e.res F C s := by
  constructor
  · intro F C e s row hj c f x hm
    obtain ⟨-, en, hen, -⟩ := nEval_mem C _ s _ row hj _ x hm
    cases e <;> simp [NEq.row, numPH, numMPH, steamDerivVars] at hen
    split at hen <;> simp at hen
  · refine ⟨rowToyF, rowToyC, .ttdL, rowToyS fun v => v = .x 0 "W", [], 0, "W", 2, rowToy_own, trivial, ?_, ?_, ?_⟩
    · simp [NEq.jac, NEq.row, numPH, nEval, rowToyC, rowToyS]
    · simp [rowToyS]
    · simp [NEq.res, hexTtdLRes, nHex, nStream, rowToyF, rowToyC, rowToyS, EqState.hv, EqState.pv, EqState.xv,
        Spec.stateWith]

/-- The component parameters a row can name: the pressure loss coefficient, length, roughness and diameter of pipes, the
heat transfer coefficient of simple heat exchangers, the guide vane angle of compressors and the power of electrolyzers.
Every other parameter is accepted as a variable by `set_attr(...="var")`, but no equation has an entry for it although
the residual changes with it, for example the heat transfer coefficient of a heat exchanger. -/
theorem C90_parameter_false : (∀ (F : NumProps) (C : NComp) (e : NEq) (s : EqState ℝ) (row : List (Var × ℝ)),
      e.jac F C s = .ok row → ∀ n x, (Var.par n, x) ∈ row →
        (∃ a b, e = .zeta n a b) ∨ (e = .darcy ∧ (n = "L" ∨ n = "ks" ∨ n = "D"))
        ∨ (e = .hazen ∧ (n = "L" ∨ n = "ks_HW" ∨ n = "D")) ∨ (e = .simpleKA ∧ n = "kA")
        ∨ ((e = .mapPr ∨ e = .mapEta) ∧ n = "igva") ∨ (∃ q, e = .etaChar q ∧ n = "P")) ∧
    ∃ (F : NumProps) (C : NComp) (s : EqState ℝ) (row : List (Var × ℝ)) (t : ℝ),
      Spec.OwnStates C ∧ NEq.jac F C s .hexKA = .ok row ∧ s.isVar (.par "kA") = true ∧ (∀ x, (Var.par "kA", x) ∉ row)
      ∧ NEq.res F C (Spec.stateWith s (.par "kA") t) .hexKA ≠ NEq.res F C s .hexKA := by
  constructor
  · intro F C e s row hj n x hm
    obtain ⟨-, en, hen, -⟩ := nEval_mem C _ s _ row hj _ x hm
    cases e <;> simp [NEq.row, numPH, numMPH, steamDerivVars] at hen ⊢ <;> try tauto
    split at hen <;> simp at hen
  · refine ⟨rowToyF, rowToyC, { rowToyS (fun v => v = .par "kA") with
      val := fun v => match v with
        | .h n => if n = 0 then 40 else if n = 1 then 20 else if n = 2 then 10 else 30
        | _ => 1 }, [], 2, rowToy_own, ?_, ?_, by simp, ?_⟩
    · simp [NEq.jac, NEq.row, numPH, nEval, rowToyC, rowToyS]
    · simp [rowToyS]
    · simp [NEq.res, hexKARes, hexTdLog, hexAdjust, tdLogOf, nHex, nStream, rowToyF, rowToyC, EqState.mv,
        EqState.hv, EqState.pv, EqState.xv, Spec.stateWith]
      norm_num

/-- The parameters which may be variables of an equation: resistance, pipe geometry and roughness, heat transfer
coefficient of simple heat exchangers, guide vane angle and power have an entry whenever they are variables. -/
theorem C90_parameter_named_partial (F : NumProps) (C : NComp) (e : NEq) (s : EqState ℝ) (row : List (Var × ℝ))
    (hj : e.jac F C s = .ok row) (n : String) (hv : s.isVar (.par n) = true)
    (hn : (∃ a b, e = .zeta n a b) ∨ (e = .darcy ∧ (n = "L" ∨ n = "ks" ∨ n = "D"))
        ∨ (e = .hazen ∧ (n = "L" ∨ n = "ks_HW" ∨ n = "D")) ∨ (e = .simpleKA ∧ n = "kA")
        ∨ ((e = .mapPr ∨ e = .mapEta) ∧ n = "igva") ∨ (∃ q, e = .etaChar q ∧ n = "P")) :
    ∃ x, (Var.par n, x) ∈ row := by
  have key : ∃ en, (Var.par n, en) ∈ e.row F C s := by
    rcases hn with ⟨a, b, h⟩ | ⟨h, h' | h' | h'⟩ | ⟨h, h' | h' | h'⟩ | ⟨h, h'⟩ | ⟨h | h, h'⟩ | ⟨q, h, h'⟩ <;>
      subst_vars <;> simp [NEq.row, numPH, numMPH]
  obtain ⟨en, hen⟩ := key
  exact nEval_has C _ s _ row hj _ hen hv

/-- The power of an electrolyzer is a variable. -/
example : ∃ row, NEq.jac rowToyF rowToyC (rowToyS (fun v => v = .par "P")) (.etaChar ⟨.mOut, false, 0, 2⟩) = .ok row
    ∧ ∃ x, (Var.par "P", x) ∈ row := by
  have h : NEq.jac rowToyF rowToyC (rowToyS (fun v => v = .par "P")) (.etaChar ⟨.mOut, false, 0, 2⟩)
      = .ok [(.par "P", 1)] := by
    simp [NEq.jac, NEq.row, nEval, rowToyS, nValue]
  exact ⟨_, h, C90_parameter_named_partial _ _ _ _ _ h "P" (by simp [rowToyS]) (by simp)⟩

end Tespy
