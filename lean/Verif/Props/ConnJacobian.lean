import Verif.Props.Jacobian
/-
C49, C50: Jacobian entries of equations containing fluid property functions.
-/
namespace Tespy

/-! ## Rows of fluid property functions -/

theorem put_xv (s : EqState ℝ) (c : Port) (v : Var) (t : ℝ) (h : ∀ f, v ≠ .x c.fl f) :
    (s.put v t).xv c = s.xv c := by
  funext f
  exact put_val_ne s _ v t (fun e => h f e.symm)

theorem put_xv_self (s : EqState ℝ) (c : Port) (f : String) (t : ℝ) :
    (s.put (.x c.fl f) t).xv c = Function.update (s.xv c) f t := by
  funext g
  by_cases h : g = f
  · subst h
    simp only [EqState.xv, put_val_self, Function.update_self]
  · rw [Function.update_of_ne h]
    exact put_val_ne s _ _ t (fun e => h (by injection e))

namespace Spec
/-- `gp`, `gh` and `gx f` are the partial derivatives of the property function `G` at the state
of connection `c` with respect to pressure, enthalpy and the variable mass fractions. -/
structure PropDeriv (s : EqState ℝ) (c : Port) (G : (String → ℝ) → ℝ → ℝ → ℝ) (gp gh : ℝ)
    (gx : String → ℝ) : Prop where
  p : HasDerivAt (fun p => G (s.xv c) p (s.hv c)) gp (s.pv c)
  h : HasDerivAt (fun h => G (s.xv c) (s.pv c) h) gh (s.hv c)
  x : ∀ f, s.isVar (.x c.fl f) = true → f ∈ s.keys c.fl ∧
    HasDerivAt (fun x => G (Function.update (s.xv c) f x) (s.pv c) (s.hv c)) (gx f) (s.xv c f)
end Spec

theorem lastOf_keys (ks : List String) (i : ℕ) (gx : String → ℝ) (f : String) (d : ℝ) (h : f ∈ ks) :
    lastOf (ks.map (fun f => (Var.x i f, gx f))) (.x i f) d = gx f := by
  induction ks generalizing d with
  | nil => simp at h
  | cons g ks ih =>
    simp only [List.map_cons, lastOf, List.foldl_cons]
    change lastOf _ _ _ = _
    by_cases hm : f ∈ ks
    · exact ih _ hm
    · have : f = g := by simpa [hm] using h
      subst this
      rw [lastOf_notMem _ _ _ (by simpa using hm)]
      simp

/-- row of a property function of pressure, enthalpy and composition -/
theorem state_row (s : EqState ℝ) (c : Port) (G : (String → ℝ) → ℝ → ℝ → ℝ) (gp gh : ℝ)
    (gx : String → ℝ) (hG : Spec.PropDeriv s c G gp gh gx) :
    RowOK s (fun s => G (s.xv c) (s.pv c) (s.hv c))
      ([(.p c.p, gp), (.h c.h, gh)] ++ (s.keys c.fl).map (fun f => (.x c.fl f, gx f))) := by
  intro v hv
  rw [lastOf_append]
  by_cases hp : v = .p c.p
  · subst hp
    rw [lastOf_notMem _ _ _ (by simp)]
    have : (fun t => G ((s.put (.p c.p) t).xv c) ((s.put (.p c.p) t).pv c) ((s.put (.p c.p) t).hv c))
        = fun t => G (s.xv c) t (s.hv c) := by
      funext t
      rw [put_xv _ _ _ _ (by simp)]
      simp only [EqState.pv, EqState.hv, put_val_self]
      rw [put_val_ne _ _ _ _ (by simp)]
    rw [this]
    simpa [lastOf, EqState.pv] using hG.p
  · by_cases hh : v = .h c.h
    · subst hh
      rw [lastOf_notMem _ _ _ (by simp)]
      have : (fun t => G ((s.put (.h c.h) t).xv c) ((s.put (.h c.h) t).pv c)
          ((s.put (.h c.h) t).hv c)) = fun t => G (s.xv c) (s.pv c) t := by
        funext t
        rw [put_xv _ _ _ _ (by simp)]
        simp only [EqState.pv, EqState.hv, put_val_self]
        rw [put_val_ne _ _ _ _ (by simp)]
      rw [this]
      simpa [lastOf, EqState.hv] using hG.h
    · by_cases hx : ∃ f, v = .x c.fl f
      · obtain ⟨f, rfl⟩ := hx
        obtain ⟨hk, hd⟩ := hG.x f hv
        rw [lastOf_keys _ _ _ _ _ hk]
        have : (fun t => G ((s.put (.x c.fl f) t).xv c) ((s.put (.x c.fl f) t).pv c)
            ((s.put (.x c.fl f) t).hv c))
            = fun t => G (Function.update (s.xv c) f t) (s.pv c) (s.hv c) := by
          funext t
          rw [put_xv_self]
          simp only [EqState.pv, EqState.hv]
          rw [put_val_ne _ _ _ _ (by simp), put_val_ne _ _ _ _ (by simp)]
        rw [this]
        exact hd
      · have : (fun t => G ((s.put v t).xv c) ((s.put v t).pv c) ((s.put v t).hv c))
            = fun _ => G (s.xv c) (s.pv c) (s.hv c) := by
          funext t
          rw [put_xv _ _ _ _ (fun f e => hx ⟨f, e⟩)]
          simp only [EqState.pv, EqState.hv]
          rw [put_val_ne _ _ _ _ (fun e => hp e.symm), put_val_ne _ _ _ _ (fun e => hh e.symm)]
        rw [this, lastOf_notMem, lastOf_notMem]
        · exact hasDerivAt_const _ _
        · simp only [List.map_cons, List.map_nil, List.mem_cons, List.not_mem_nil, or_false, not_or]
          exact ⟨hp, hh⟩
        · simp only [List.map_map, List.mem_map, Function.comp_apply, not_exists, not_and]
          exact fun f _ e => hx ⟨f, e.symm⟩

theorem wrs_keys (s : EqState ℝ) (k : ℕ) (ks : List String) (i : ℕ) (gx : String → ℝ) :
    wrs s k (ks.map (fun f => (Var.x i f, gx f))) = ks.flatMap (fun f => wr s k (.x i f) (gx f)) := by
  simp [wrs, List.flatMap_map]

/-- the composition of the connection is not part of the problem's variables -/
def FixedFluid (s : EqState ℝ) (c : Port) : Prop := ∀ f, s.isVar (.x c.fl f) = false

/-- row of a property function for a connection without variable fluids -/
theorem state_row_fixed (s : EqState ℝ) (c : Port) (G : (String → ℝ) → ℝ → ℝ → ℝ) (gp gh : ℝ)
    (gx : String → ℝ) (hG : Spec.PropDeriv s c G gp gh gx) (hf : FixedFluid s c) :
    RowOK s (fun s => G (s.xv c) (s.pv c) (s.hv c)) [(.p c.p, gp), (.h c.h, gh)] := by
  refine RowOK.congr (state_row s c G gp gh gx hG) (fun _ _ _ => rfl) (fun v hv => ?_)
  rw [lastOf_append, lastOf_notMem (List.map _ _)]
  simp only [List.map_map, List.mem_map, Function.comp_apply, not_exists, not_and]
  intro f _ e
  rw [← e, hf f] at hv
  cases hv

/-! ## C49: references -/

/-- C49 (`m`, `p` and `h` references): different containers. Full statement: all sharing
patterns; false for shared containers, see `C49_primary_shared`. -/
theorem C49_primary_partial (s : EqState ℝ) (hc : Spec.ColsInjective s) (a b : Var) (hab : a ≠ b)
    (factor delta : ℝ) :
    Spec.IsJacobian (fun s => [refFunc s a b factor delta]) (fun s k => refDeriv s a b factor k)
      s := by
  refine isJacobian_of_row s hc _ _ ([(a, 1)] ++ [(b, -factor)]) ?_
    (RowOK.congr ((RowOK.val s a).add (((RowOK.smul (-factor) (RowOK.val s b)).add
      (RowOK.const s (-delta)) (fun v _ h => by simp at h))) ?_) (fun v _ t => ?_) (fun v _ => ?_))
  · intro k
    simp only [refDeriv, wrs_append, wrs_one]
  · intro v hv hv'
    simp only [scaleL, List.map_cons, List.map_nil, List.append_nil, List.mem_singleton] at hv hv'
    exact hab (hv ▸ hv')
  · simp only [refFunc]; ring
  · simp [scaleL]

/-- C49 is false if the connection refers to its own container: the second assignment replaces
the first. -/
theorem C49_primary_shared (s : EqState ℝ) (a : Var) (hv : s.isVar a = true) (factor delta : ℝ) :
    ¬ Spec.IsJacobian (fun s => [refFunc s a a factor delta]) (fun s k => refDeriv s a a factor k)
      s := by
  intro h
  have h1 := (h 0).2 0 (by simp) a hv
  have hent : entry (refDeriv s a a factor 0) (0 + 0) (s.col a) = -factor := by
    simp [refDeriv, wr, hv, entry]
  have hfun : (fun t => ([refFunc (s.put a t) a a factor delta]).getD 0 0)
      = fun t => t * (1 - factor) - delta := by
    funext t
    simp only [List.getD_cons_zero, refFunc, put_val_self]; ring
  simp only [] at h1
  rw [hfun, hent] at h1
  have := h1.unique (((hasDerivAt_id' (s.val a)).mul_const (1 - factor)).sub_const delta)
  linarith

/-- C50 (temperature of a connection) -/
theorem C50_temperature (F : ConnFuncs ℝ) (s : EqState ℝ) (hc : Spec.ColsInjective s) (c : Port)
    (spec : ℝ) (hT : Spec.PropDeriv s c F.tPH (F.dTdp (s.xv c) (s.pv c) (s.hv c))
      (F.dTdh (s.xv c) (s.pv c) (s.hv c)) (fun f => F.dTdx (s.xv c) f (s.pv c) (s.hv c))) :
    Spec.IsJacobian (fun s => [tFunc F s c spec]) (fun s k => tDeriv F s c k) s := by
  refine isJacobian_of_row s hc _ _ _ ?_ (RowOK.congr ((state_row s c _ _ _ _ hT).add
    (RowOK.const s (-spec)) (fun v _ h => by simp at h)) (fun v _ t => ?_) (fun v _ => rfl))
  · intro k
    simp only [tDeriv, List.append_nil, wrs_append, wrs_two, wrs_keys]
  · simp only [tFunc, EqState.tv]; ring

/-- two connections with pressures and enthalpies of their own -/
def OwnState (c d : Port) : Prop := c.p ≠ d.p ∧ c.h ≠ d.h

theorem wr_fixed (s : EqState ℝ) (c : Port) (hf : FixedFluid s c) (k : ℕ) (gx : String → ℝ)
    (ks : List String) : ks.flatMap (fun f => wr s k (.x c.fl f) (gx f)) = [] := by
  simp [wr, hf _]

/-- C49 (`T` references) without variable fluids and with pressures and enthalpies of their
own. Full statement: all states; false for variable fluids, see `C49_T_fluid`. -/
theorem C49_T_partial (F : ConnFuncs ℝ) (s : EqState ℝ) (hc : Spec.ColsInjective s) (c d : Port)
    (factor delta : ℝ) (hcd : OwnState c d) (hfc : FixedFluid s c) (hfd : FixedFluid s d)
    (gx gx' : String → ℝ)
    (hT : Spec.PropDeriv s c F.tPH (F.dTdp (s.xv c) (s.pv c) (s.hv c))
      (F.dTdh (s.xv c) (s.pv c) (s.hv c)) gx)
    (hT' : Spec.PropDeriv s d F.tPH (F.dTdp (s.xv d) (s.pv d) (s.hv d))
      (F.dTdh (s.xv d) (s.pv d) (s.hv d)) gx') :
    Spec.IsJacobian (fun s => [tRefFunc F s c d factor delta]) (fun s k => tRefDeriv F s c d factor k)
      s := by
  refine isJacobian_of_row s hc _ _
    ([(.p c.p, F.dTdp (s.xv c) (s.pv c) (s.hv c)), (.h c.h, F.dTdh (s.xv c) (s.pv c) (s.hv c))]
      ++ [(.p d.p, -(F.dTdp (s.xv d) (s.pv d) (s.hv d)) * factor),
        (.h d.h, -(F.dTdh (s.xv d) (s.pv d) (s.hv d)) * factor)]) ?_
    (RowOK.congr ((state_row_fixed s c _ _ _ _ hT hfc).add
      ((RowOK.smul (-factor) (state_row_fixed s d _ _ _ _ hT' hfd)).add
    (RowOK.const s (-delta)) (fun v _ h => by simp at h)) ?_) (fun v _ t => ?_) (fun v _ => ?_))
  · intro k
    simp only [tRefDeriv, tDeriv, wr_fixed s c hfc, wr_fixed s d hfd, List.append_nil, wrs_append,
      wrs_two, List.append_assoc]
  · intro v hv hv'
    simp only [scaleL, List.map_cons, List.map_nil, List.append_nil, List.mem_cons,
      List.not_mem_nil, or_false] at hv hv'
    obtain ⟨h1, h2⟩ := hcd
    rcases hv with rfl | rfl <;> rcases hv' with hv' | hv' <;> simp_all
  · simp only [tRefFunc, EqState.tv]; ring
  · have e1 : ∀ x : ℝ, -factor * x = -x * factor := fun x => by ring
    simp only [scaleL, List.map_cons, List.map_nil, List.append_nil, e1]

/-- C49 is false for `T` references to a connection with variable composition: the factor is
missing in the entry for the fluid. -/
theorem C49_T_fluid (F : ConnFuncs ℝ) (s : EqState ℝ) (hc : Spec.ColsInjective s) (c d : Port)
    (factor delta : ℝ) (hfl : c.fl ≠ d.fl) (f : String) (hv : s.isVar (.x d.fl f) = true)
    (hk : f ∈ s.keys d.fl) (hfac : factor ≠ 1)
    (hx : HasDerivAt (fun x => F.tPH (Function.update (s.xv d) f x) (s.pv d) (s.hv d))
      (F.dTdx (s.xv d) f (s.pv d) (s.hv d)) (s.xv d f))
    (hne : F.dTdx (s.xv d) f (s.pv d) (s.hv d) ≠ 0) :
    ¬ Spec.IsJacobian (fun s => [tRefFunc F s c d factor delta])
      (fun s k => tRefDeriv F s c d factor k) s := by
  intro h
  have h1 := (h 0).2 0 (by simp) (.x d.fl f) hv
  have hent : entry (tRefDeriv F s c d factor 0) (0 + 0) (s.col (.x d.fl f))
      = -(F.dTdx (s.xv d) f (s.pv d) (s.hv d)) := by
    have hw : tRefDeriv F s c d factor 0 = wrs s 0 ((([(.p c.p, F.dTdp (s.xv c) (s.pv c) (s.hv c)),
        (.h c.h, F.dTdh (s.xv c) (s.pv c) (s.hv c))]
        ++ (s.keys c.fl).map (fun f => (.x c.fl f, F.dTdx (s.xv c) f (s.pv c) (s.hv c))))
        ++ [(.p d.p, -(F.dTdp (s.xv d) (s.pv d) (s.hv d)) * factor),
          (.h d.h, -(F.dTdh (s.xv d) (s.pv d) (s.hv d)) * factor)])
        ++ (s.keys d.fl).map (fun f => (.x d.fl f, -(F.dTdx (s.xv d) f (s.pv d) (s.hv d))))) := by
      simp only [tRefDeriv, tDeriv, wrs_append, wrs_two, wrs_keys s 0 _ _
        (fun f => F.dTdx (s.xv c) f (s.pv c) (s.hv c)), wrs_keys s 0 _ _
        (fun f => -(F.dTdx (s.xv d) f (s.pv d) (s.hv d))), List.append_assoc]
    rw [hw]
    refine (entryFrom_wrs s hc 0 _ (.x d.fl f) hv 0).trans ?_
    rw [lastOf_append]
    exact lastOf_keys _ _ (fun f => -(F.dTdx (s.xv d) f (s.pv d) (s.hv d))) _ _ hk
  have hfun : (fun t => ([tRefFunc F (s.put (.x d.fl f) t) c d factor delta]).getD 0 0)
      = fun t => s.tv F.toPropFuncs c
        - (F.tPH (Function.update (s.xv d) f t) (s.pv d) (s.hv d) * factor + delta) := by
    funext t
    simp only [List.getD_cons_zero, tRefFunc, EqState.tv]
    rw [put_xv_self, put_xv _ _ _ _ (by simp [hfl.symm])]
    simp only [EqState.pv, EqState.hv]
    rw [put_val_ne _ _ _ _ (by simp), put_val_ne _ _ _ _ (by simp), put_val_ne _ _ _ _ (by simp),
      put_val_ne _ _ _ _ (by simp)]
  simp only [] at h1
  rw [hfun, hent] at h1
  have h2 := h1.unique (((hx.mul_const factor).add_const delta).const_sub _)
  have : F.dTdx (s.xv d) f (s.pv d) (s.hv d) * (factor - 1) = 0 := by linarith
  rcases mul_eq_zero.mp this with h | h
  · exact hne h
  · exact hfac (by linarith)

/-- row of mass flow times property function -/
theorem flow_state_row (s : EqState ℝ) (c : Port) (G : (String → ℝ) → ℝ → ℝ → ℝ) (gp gh : ℝ)
    (gx : String → ℝ) (hG : Spec.PropDeriv s c G gp gh gx) (hf : FixedFluid s c) :
    RowOK s (fun s => G (s.xv c) (s.pv c) (s.hv c) * s.mv c)
      [(.m c.m, G (s.xv c) (s.pv c) (s.hv c)), (.p c.p, gp * s.mv c), (.h c.h, gh * s.mv c)] := by
  intro v hv
  by_cases hm : v = .m c.m
  · subst hm
    have : (fun t => G ((s.put (.m c.m) t).xv c) ((s.put (.m c.m) t).pv c)
        ((s.put (.m c.m) t).hv c) * (s.put (.m c.m) t).mv c)
        = fun t => G (s.xv c) (s.pv c) (s.hv c) * t := by
      funext t
      rw [put_xv _ _ _ _ (by simp)]
      simp only [EqState.pv, EqState.hv, EqState.mv, put_val_self]
      rw [put_val_ne _ _ _ _ (by simp), put_val_ne _ _ _ _ (by simp)]
    rw [this]
    simpa [lastOf] using (hasDerivAt_id' (s.val (.m c.m))).const_mul (G (s.xv c) (s.pv c) (s.hv c))
  · have h1 := (state_row_fixed s c G gp gh gx hG hf) v hv
    have : (fun t => G ((s.put v t).xv c) ((s.put v t).pv c) ((s.put v t).hv c) * (s.put v t).mv c)
        = fun t => G ((s.put v t).xv c) ((s.put v t).pv c) ((s.put v t).hv c) * s.mv c := by
      funext t
      simp only [EqState.mv]
      rw [put_val_ne s (.m c.m) v t (fun e => hm e.symm)]
    rw [this]
    have h2 := h1.mul_const (s.mv c)
    refine h2.congr_deriv ?_
    simp only [lastOf, List.foldl_cons, List.foldl_nil]
    have hm' : ¬ Var.m c.m = v := fun e => hm e.symm
    by_cases hp : Var.p c.p = v <;> by_cases hh : Var.h c.h = v <;> simp [hp, hh, hm']

/-- C50 (volumetric flow of a connection) without variable fluids. Full statement: all states;
false for variable fluids, see `C50_volume_fluid`. -/
theorem C50_volume_partial (F : ConnFuncs ℝ) (s : EqState ℝ) (hc : Spec.ColsInjective s) (c : Port)
    (spec : ℝ) (hf : FixedFluid s c) (gx : String → ℝ)
    (hG : Spec.PropDeriv s c F.vol (F.dvdp (s.xv c) (s.pv c) (s.hv c))
      (F.dvdh (s.xv c) (s.pv c) (s.hv c)) gx) :
    Spec.IsJacobian (fun s => [vFunc F s c spec]) (fun s k => vDeriv F s c k) s := by
  refine isJacobian_of_row s hc _ _ _ ?_ (RowOK.congr ((flow_state_row s c _ _ _ _ hG hf).add
    (RowOK.const s (-spec)) (fun v _ h => by simp at h)) (fun v _ t => ?_) (fun v _ => rfl))
  · intro k
    simp only [vDeriv, wrs, List.append_nil, List.flatMap_cons, List.flatMap_nil, List.append_assoc]
  · simp only [vFunc]; ring

/-- C50 is false for the volumetric flow of a connection with variable composition: the column
of the mass fraction stays empty. -/
theorem C50_volume_fluid (F : ConnFuncs ℝ) (s : EqState ℝ) (hc : Spec.ColsInjective s) (c : Port)
    (spec : ℝ) (f : String) (hv : s.isVar (.x c.fl f) = true) (g : ℝ)
    (hx : HasDerivAt (fun x => F.vol (Function.update (s.xv c) f x) (s.pv c) (s.hv c)) g (s.xv c f))
    (hne : g * s.mv c ≠ 0) :
    ¬ Spec.IsJacobian (fun s => [vFunc F s c spec]) (fun s k => vDeriv F s c k) s := by
  intro h
  have h1 := (h 0).2 0 (by simp) (.x c.fl f) hv
  have hent : entry (vDeriv F s c 0) (0 + 0) (s.col (.x c.fl f)) = 0 := by
    have hw : vDeriv F s c 0 = wrs s 0 [(.m c.m, F.vol (s.xv c) (s.pv c) (s.hv c)),
        (.p c.p, F.dvdp (s.xv c) (s.pv c) (s.hv c) * s.mv c),
        (.h c.h, F.dvdh (s.xv c) (s.pv c) (s.hv c) * s.mv c)] := by
      simp only [vDeriv, wrs, List.append_nil, List.flatMap_cons, List.flatMap_nil,
        List.append_assoc]
    rw [hw]
    exact (entryFrom_wrs s hc 0 _ (.x c.fl f) hv 0).trans (lastOf_notMem _ _ _ (by simp))
  have hfun : (fun t => ([vFunc F (s.put (.x c.fl f) t) c spec]).getD 0 0)
      = fun t => F.vol (Function.update (s.xv c) f t) (s.pv c) (s.hv c) * s.mv c - spec := by
    funext t
    simp only [List.getD_cons_zero, vFunc]
    rw [put_xv_self]
    simp only [EqState.pv, EqState.hv, EqState.mv]
    rw [put_val_ne _ _ _ _ (by simp), put_val_ne _ _ _ _ (by simp), put_val_ne _ _ _ _ (by simp)]
  simp only [] at h1
  rw [hfun, hent] at h1
  exact hne (h1.unique ((hx.mul_const _).sub_const _)).symm

/-- C49 (`v` references) without variable fluids, with mass flow, pressure and enthalpy of their
own. Full statement: all sharing patterns; false on one branch, see `C49_v_same_branch`. -/
theorem C49_v_partial (F : ConnFuncs ℝ) (s : EqState ℝ) (hc : Spec.ColsInjective s) (c d : Port)
    (factor delta : ℝ) (hcd : OwnState c d) (hm : c.m ≠ d.m) (hfc : FixedFluid s c)
    (hfd : FixedFluid s d) (gx gx' : String → ℝ)
    (hG : Spec.PropDeriv s c F.vol (F.dvdp (s.xv c) (s.pv c) (s.hv c))
      (F.dvdh (s.xv c) (s.pv c) (s.hv c)) gx)
    (hG' : Spec.PropDeriv s d F.vol (F.dvdp (s.xv d) (s.pv d) (s.hv d))
      (F.dvdh (s.xv d) (s.pv d) (s.hv d)) gx') :
    Spec.IsJacobian (fun s => [vRefFunc F s c d factor delta]) (fun s k => vRefDeriv F s c d factor k)
      s := by
  refine isJacobian_of_row s hc _ _
    ([(.m c.m, F.vol (s.xv c) (s.pv c) (s.hv c)),
        (.p c.p, F.dvdp (s.xv c) (s.pv c) (s.hv c) * s.mv c),
        (.h c.h, F.dvdh (s.xv c) (s.pv c) (s.hv c) * s.mv c)]
      ++ [(.m d.m, -(F.vol (s.xv d) (s.pv d) (s.hv d) * factor)),
        (.p d.p, -(F.dvdp (s.xv d) (s.pv d) (s.hv d) * s.mv d * factor)),
        (.h d.h, -(F.dvdh (s.xv d) (s.pv d) (s.hv d) * s.mv d * factor))]) ?_
    (RowOK.congr ((flow_state_row s c _ _ _ _ hG hfc).add
      ((RowOK.smul (-factor) (flow_state_row s d _ _ _ _ hG' hfd)).add
    (RowOK.const s (-delta)) (fun v _ h => by simp at h)) ?_) (fun v _ t => ?_) (fun v _ => ?_))
  · intro k
    simp only [vRefDeriv, vDeriv, wrs, List.flatMap_append, List.flatMap_cons, List.flatMap_nil,
      List.append_nil, List.append_assoc]
  · intro v hv hv'
    simp only [scaleL, List.map_cons, List.map_nil, List.append_nil, List.mem_cons,
      List.not_mem_nil, or_false] at hv hv'
    obtain ⟨h1, h2⟩ := hcd
    rcases hv with rfl | rfl | rfl <;> rcases hv' with hv' | hv' | hv' <;> simp_all
  · simp only [vRefFunc]; ring
  · have e1 : ∀ x : ℝ, -factor * x = -(x * factor) := fun x => by ring
    simp only [scaleL, List.map_cons, List.map_nil, List.append_nil, e1]

/-- C49 is false for `v` references between two connections of one branch: the entry for the
common mass flow lacks the part of the referring connection. -/
theorem C49_v_same_branch (F : ConnFuncs ℝ) (s : EqState ℝ) (c d : Port)
    (factor delta : ℝ) (hm : c.m = d.m)
    (hc : Spec.ColsInjective s) (hv : s.isVar (.m c.m) = true)
    (hne : F.vol (s.xv c) (s.pv c) (s.hv c) ≠ 0) :
    ¬ Spec.IsJacobian (fun s => [vRefFunc F s c d factor delta])
      (fun s k => vRefDeriv F s c d factor k) s := by
  intro h
  have h1 := (h 0).2 0 (by simp) (.m c.m) hv
  have hent : entry (vRefDeriv F s c d factor 0) (0 + 0) (s.col (.m c.m))
      = -(F.vol (s.xv d) (s.pv d) (s.hv d) * factor) := by
    have hw : vRefDeriv F s c d factor 0 = wrs s 0
      ([(.m c.m, F.vol (s.xv c) (s.pv c) (s.hv c)),
        (.p c.p, F.dvdp (s.xv c) (s.pv c) (s.hv c) * s.mv c),
        (.h c.h, F.dvdh (s.xv c) (s.pv c) (s.hv c) * s.mv c)]
      ++ [(.m d.m, -(F.vol (s.xv d) (s.pv d) (s.hv d) * factor)),
        (.p d.p, -(F.dvdp (s.xv d) (s.pv d) (s.hv d) * s.mv d * factor)),
        (.h d.h, -(F.dvdh (s.xv d) (s.pv d) (s.hv d) * s.mv d * factor))]) := by
      simp only [vRefDeriv, vDeriv, wrs, List.flatMap_append, List.flatMap_cons, List.flatMap_nil,
        List.append_nil, List.append_assoc]
    rw [hw]
    refine (entryFrom_wrs s hc 0 _ (.m c.m) hv 0).trans ?_
    simp [lastOf, hm]
  have hfun : (fun t => ([vRefFunc F (s.put (.m c.m) t) c d factor delta]).getD 0 0)
      = fun t => t * (F.vol (s.xv c) (s.pv c) (s.hv c)
        - F.vol (s.xv d) (s.pv d) (s.hv d) * factor) - delta := by
    funext t
    simp only [List.getD_cons_zero, vRefFunc]
    rw [put_xv _ c _ _ (by simp), put_xv _ d _ _ (by simp)]
    simp only [EqState.pv, EqState.hv, EqState.mv, ← hm, put_val_self]
    rw [put_val_ne _ _ _ _ (by simp), put_val_ne _ _ _ _ (by simp), put_val_ne _ _ _ _ (by simp),
      put_val_ne _ _ _ _ (by simp)]
    ring
  simp only [] at h1
  rw [hfun, hent] at h1
  have h2 := h1.unique (((hasDerivAt_id' (s.val (.m c.m))).mul_const _).sub_const delta)
  apply hne
  linarith

/-! ## C50: vapour mass fraction, boiling point distance, fluid balance -/

/-- row of a property function of pressure alone -/
theorem pressure_row (s : EqState ℝ) (c : Port) (G : (String → ℝ) → ℝ → ℝ) (g : ℝ)
    (hf : FixedFluid s c) (hG : HasDerivAt (fun p => G (s.xv c) p) g (s.pv c)) :
    RowOK s (fun s => G (s.xv c) (s.pv c)) [(.p c.p, g)] := by
  have h := state_row_fixed s c (fun x p _ => G x p) g 0 0
    ⟨hG, hasDerivAt_const _ _, fun f hv => by rw [hf f] at hv; cases hv⟩ hf
  refine RowOK.congr h (fun _ _ _ => rfl) (fun v _ => ?_)
  simp only [lastOf, List.foldl_cons, List.foldl_nil]
  by_cases hp : Var.p c.p = v
  · subst hp; simp
  · simp [hp]

/-- C50 (vapour mass fraction of a connection) -/
theorem C50_quality (F : ConnFuncs ℝ) (s : EqState ℝ) (hc : Spec.ColsInjective s) (c : Port)
    (spec : ℝ) (hf : FixedFluid s c)
    (hG : HasDerivAt (fun p => F.hQ (s.xv c) p spec) (F.dhQ (s.xv c) (s.pv c) spec) (s.pv c)) :
    Spec.IsJacobian (fun s => [xFunc F s c spec]) (fun s k => xDeriv F s c spec k) s := by
  refine isJacobian_of_row s hc _ _ ([(.p c.p, -(F.dhQ (s.xv c) (s.pv c) spec))] ++ [(.h c.h, 1)]) ?_
    (RowOK.congr ((RowOK.smul (-1) (pressure_row s c (fun x p => F.hQ x p spec) _ hf hG)).add
      (RowOK.val s (.h c.h)) ?_) (fun v _ t => ?_) (fun v _ => ?_))
  · intro k
    simp only [xDeriv, wrs_append, wrs_one]
  · intro v hv hv'
    simp only [scaleL, List.map_cons, List.map_nil, List.mem_singleton] at hv hv'
    rw [hv] at hv'; cases hv'
  · simp only [xFunc, EqState.hv]; ring
  · simp [scaleL]

/-- C50 (distance to the boiling point) -/
theorem C50_boiling_distance (F : ConnFuncs ℝ) (s : EqState ℝ) (hc : Spec.ColsInjective s)
    (c : Port) (spec : ℝ) (hf : FixedFluid s c) (gx : String → ℝ)
    (hT : Spec.PropDeriv s c F.tPH (F.dTdp (s.xv c) (s.pv c) (s.hv c))
      (F.dTdh (s.xv c) (s.pv c) (s.hv c)) gx)
    (hG : HasDerivAt (fun p => F.tSat (s.xv c) p) (F.dtSat (s.xv c) (s.pv c)) (s.pv c)) :
    Spec.IsJacobian (fun s => [tdFunc F s c spec]) (fun s k => tdDeriv F s c k) s := by
  have hG2 : Spec.PropDeriv s c (fun x p h => F.tPH x p h - F.tSat x p)
      (F.dTdp (s.xv c) (s.pv c) (s.hv c) - F.dtSat (s.xv c) (s.pv c))
      (F.dTdh (s.xv c) (s.pv c) (s.hv c)) gx :=
    ⟨hT.p.sub hG, hT.h.sub_const _, fun f hv => by rw [hf f] at hv; cases hv⟩
  refine isJacobian_of_row s hc _ _ _ ?_ (RowOK.congr ((state_row_fixed s c _ _ _ _ hG2 hf).add
    (RowOK.const s (-spec)) (fun v _ h => by simp at h)) (fun v _ t => ?_) (fun v _ => rfl))
  · intro k
    simp only [tdDeriv, List.append_nil, wrs_two]
  · simp only [tdFunc, EqState.tv]; ring

/-- C50 is false for the fluid balance of a connection: the derivative of `1 - Σ x` is written
as `-x` instead of `-1`. It is correct for a fraction of one only. -/
theorem C50_fluid_balance (s : EqState ℝ) (hc : Spec.ColsInjective s) (c : Port) (f : String)
    (hv : s.isVar (.x c.fl f) = true) (hk : f ∈ s.keys c.fl) (hnd : (s.keys c.fl).Nodup)
    (hset : f ∉ s.fixed c.fl) :
    entry (fluidBalanceD s c 0) 0 (s.col (.x c.fl f)) = -(s.xv c f) ∧
    HasDerivAt (fun t => fluidBalance (s.put (.x c.fl f) t) c) (-1) (s.xv c f) ∧
    (s.xv c f ≠ 1 → ¬ Spec.IsJacobian (fun s => [fluidBalance s c]) (fun s k => fluidBalanceD s c k)
      s) := by
  have hent : entry (fluidBalanceD s c 0) 0 (s.col (.x c.fl f)) = -(s.xv c f) := by
    have hw : fluidBalanceD s c 0 = wrs s 0 ((s.keys c.fl).map (fun f => (.x c.fl f, -(s.xv c f)))) := by
      rw [wrs_keys s 0 _ _ (fun f => -(s.xv c f))]; rfl
    rw [hw]
    exact (entryFrom_wrs s hc 0 _ (.x c.fl f) hv 0).trans
      (lastOf_keys _ _ (fun f => -(s.xv c f)) _ _ hk)
  have hvar : ∀ t, (s.put (.x c.fl f) t).varFluids c = s.varFluids c := fun t => rfl
  have hmem : f ∈ s.varFluids c := by
    simp [EqState.varFluids, hk, hv]
  have hnd' : (s.varFluids c).Nodup := by
    unfold EqState.varFluids
    exact hnd.filter _
  have hsum : ∀ (l : List String), l.Nodup → f ∈ l →
      ∀ t, (l.map ((s.put (.x c.fl f) t).xv c)).sum = (l.map (s.xv c)).sum - s.xv c f + t := by
    intro l
    induction l with
    | nil => intro _ h; simp at h
    | cons g l ih =>
      intro hn h t
      rw [List.nodup_cons] at hn
      simp only [List.map_cons, List.sum_cons]
      by_cases hg : f = g
      · subst hg
        have hrest : l.map ((s.put (.x c.fl f) t).xv c) = l.map (s.xv c) := by
          refine List.map_congr_left (fun a ha => ?_)
          rw [put_xv_self, Function.update_of_ne (fun e : a = f => hn.1 (e ▸ ha))]
        rw [hrest, put_xv_self, Function.update_self]; ring
      · have hl : f ∈ l := by simpa [hg] using h
        rw [ih hn.2 hl t, put_xv_self, Function.update_of_ne (Ne.symm hg)]; ring
  have hfix : ∀ t, ((s.fixed c.fl).map ((s.put (.x c.fl f) t).xv c)) = (s.fixed c.fl).map (s.xv c) := by
    intro t
    refine List.map_congr_left (fun a ha => ?_)
    rw [put_xv_self, Function.update_of_ne (fun e : a = f => hset (e ▸ ha))]
  have hder : HasDerivAt (fun t => fluidBalance (s.put (.x c.fl f) t) c) (-1) (s.xv c f) := by
    have : (fun t => fluidBalance (s.put (.x c.fl f) t) c) = fun t =>
        1 - ((s.fixed c.fl).map (s.xv c)).sum - (((s.varFluids c).map (s.xv c)).sum - s.xv c f + t) := by
      funext t
      unfold fluidBalance
      rw [hvar, hsum _ hnd' hmem, show (s.put (.x c.fl f) t).fixed c.fl = s.fixed c.fl from rfl, hfix]
    rw [this]
    exact ((hasDerivAt_id' (s.xv c f)).const_add _).const_sub _
  refine ⟨hent, hder, fun hne h => ?_⟩
  have h1 := (h 0).2 0 (by simp) (.x c.fl f) hv
  simp only [List.getD_cons_zero, Nat.zero_add] at h1
  rw [hent] at h1
  have := h1.unique hder
  exact hne (by linarith)

/-! ## C50: droplet separator, separator, electrolyzer -/

/-- C50 (states at the outlets of droplet separators and drums) -/
theorem C50_outlet_states (F : PropFuncs ℝ) (s : EqState ℝ) (hc : Spec.ColsInjective s)
    (o0 o1 : Port) (hf0 : FixedFluid s o0) (hf1 : FixedFluid s o1)
    (h0 : HasDerivAt (fun p => F.hPQ (s.xv o0) p false) (F.dhPQ (s.xv o0) (s.pv o0) false) (s.pv o0))
    (h1 : HasDerivAt (fun p => F.hPQ (s.xv o1) p true) (F.dhPQ (s.xv o1) (s.pv o1) true) (s.pv o1)) :
    Spec.IsJacobian (fun s => (outletStates F s o0 o1).toList)
      (fun s k => outletStatesD F s o0 o1 k) s := by
  refine isJacobian_of_list s hc [(o0, false), (o1, true)] _ _
    (fun c s => F.hPQ (s.xv c.1) (s.pv c.1) c.2 - s.hv c.1)
    (fun c => [(.p c.1.p, F.dhPQ (s.xv c.1) (s.pv c.1) c.2), (.h c.1.h, -1)]) (fun v t => rfl)
    (by simp [outletStates, Resid.toList]) (fun k => ?_) ?_
  · simp [outletStatesD, rowsW, wrs]
  · intro c hcm
    have hrow : ∀ (o : Port) (b : Bool), FixedFluid s o →
        HasDerivAt (fun p => F.hPQ (s.xv o) p b) (F.dhPQ (s.xv o) (s.pv o) b) (s.pv o) →
        RowOK s (fun s => F.hPQ (s.xv o) (s.pv o) b - s.hv o)
          [(.p o.p, F.dhPQ (s.xv o) (s.pv o) b), (.h o.h, -1)] := by
      intro o b hf hd
      refine RowOK.congr ((pressure_row s o (fun x p => F.hPQ x p b) _ hf hd).add
        (RowOK.negVal s (.h o.h)) ?_) (fun v _ t => ?_) (fun v _ => rfl)
      · intro v hv hv'
        simp only [List.map_cons, List.map_nil, List.mem_singleton] at hv hv'
        rw [hv] at hv'; cases hv'
      · rw [sub_eq_add_neg]; rfl
    simp only [List.mem_cons, List.not_mem_nil, or_false] at hcm
    rcases hcm with rfl | rfl
    · exact hrow o0 false hf0 h0
    · exact hrow o1 true hf1 h1

/-- C50 (temperature equality of separators) if pressure and enthalpy of the outlets are
variables and the compositions are not. Full statement: all variability patterns; false, see
`C50_separator_specified`. -/
theorem C50_separator_energy_partial (F : PropFuncs ℝ) (s : EqState ℝ) (hc : Spec.ColsInjective s)
    (i : Port) (outl : List Port) (hi : FixedFluid s i) (ho : ∀ o ∈ outl, FixedFluid s o)
    (hp : ∀ o ∈ outl, s.isVar (.p o.p) = true ∧ s.isVar (.h o.h) = true)
    (hio : ∀ o ∈ outl, OwnState i o) (gx : Port → String → ℝ)
    (hT : ∀ c ∈ i :: outl, Spec.PropDeriv s c F.tPH (F.dTdp (s.xv c) (s.pv c) (s.hv c))
      (F.dTdh (s.xv c) (s.pv c) (s.hv c)) (gx c)) :
    Spec.IsJacobian (fun s => (sepEnergy F s i outl).toList) (fun s k => sepEnergyD F s i outl k)
      s := by
  refine isJacobian_of_list s hc outl _ _ (fun o s => s.tv F i - s.tv F o)
    (fun o => [(.p i.p, F.dTdp (s.xv i) (s.pv i) (s.hv i)),
      (.h i.h, F.dTdh (s.xv i) (s.pv i) (s.hv i))]
      ++ [(.p o.p, -(F.dTdp (s.xv o) (s.pv o) (s.hv o))),
        (.h o.h, -(F.dTdh (s.xv o) (s.pv o) (s.hv o)))]) (fun v t => rfl)
    (by simp [sepEnergy, Resid.toList]) (fun k => ?_) ?_
  · unfold sepEnergyD
    have : ∀ (cs : List Port) (k : ℕ), (∀ o ∈ cs, o ∈ outl) →
        enumW (fun k o =>
          wr s k (.p i.p) (F.dTdp (s.xv i) (s.pv i) (s.hv i))
          ++ wr s k (.h i.h) (F.dTdh (s.xv i) (s.pv i) (s.hv i))
          ++ [(k, s.col (.p o.p), -(F.dTdp (s.xv o) (s.pv o) (s.hv o))),
            (k, s.col (.h o.h), -(F.dTdh (s.xv o) (s.pv o) (s.hv o)))]) k cs
        = rowsW s k (cs.map (fun o => [(.p i.p, F.dTdp (s.xv i) (s.pv i) (s.hv i)),
            (.h i.h, F.dTdh (s.xv i) (s.pv i) (s.hv i))]
            ++ [(.p o.p, -(F.dTdp (s.xv o) (s.pv o) (s.hv o))),
              (.h o.h, -(F.dTdh (s.xv o) (s.pv o) (s.hv o)))])) := by
      intro cs
      induction cs with
      | nil => intro k _; rfl
      | cons o cs ih =>
        intro k hcs
        obtain ⟨h1, h2⟩ := hp o (hcs o (by simp))
        rw [enumW, List.map_cons, rowsW, ih (k + 1) (fun o ho => hcs o (by simp [ho])), wrs_append,
          wrs_two, wrs_two]
        congr 2
        simp [wr, h1, h2]
    exact this outl k (fun _ h => h)
  · intro o hom
    refine RowOK.congr ((state_row_fixed s i _ _ _ _ (hT i (by simp)) hi).add
      (RowOK.smul (-1) (state_row_fixed s o _ _ _ _ (hT o (by simp [hom])) (ho o hom))) ?_)
      (fun v _ t => ?_) (fun v _ => ?_)
    · intro v hv hv'
      simp only [scaleL, List.map_cons, List.map_nil, List.mem_cons,
        List.not_mem_nil, or_false] at hv hv'
      obtain ⟨h1, h2⟩ := hio o hom
      rcases hv with rfl | rfl <;> rcases hv' with hv' | hv' <;> simp_all
    · simp only [EqState.tv]; ring
    · simp [scaleL]

/-- C50 is false for separators with a specified pressure or enthalpy at an outlet: an entry
is written for a quantity that is not a variable (it has no column, or a stale one). -/
theorem C50_separator_specified (F : PropFuncs ℝ) (s : EqState ℝ) (i : Port) (o : Port)
    (outl : List Port) (k : ℕ) :
    (∃ x, (k, s.col (.p o.p), x) ∈ sepEnergyD F s i (o :: outl) k) ∧
    (∃ x, (k, s.col (.h o.h), x) ∈ sepEnergyD F s i (o :: outl) k) ∧
    ((∀ v, s.isVar v = true → s.col v ≠ none) → s.col (.p o.p) = none →
      ¬ Spec.IsJacobian (fun s => (sepEnergy F s i (o :: outl)).toList)
        (fun s k => sepEnergyD F s i (o :: outl) k) s) := by
  have h1 : (k, s.col (.p o.p), -(F.dTdp (s.xv o) (s.pv o) (s.hv o)))
      ∈ sepEnergyD F s i (o :: outl) k := by simp [sepEnergyD, enumW]
  have h2 : (k, s.col (.h o.h), -(F.dTdh (s.xv o) (s.pv o) (s.hv o)))
      ∈ sepEnergyD F s i (o :: outl) k := by simp [sepEnergyD, enumW]
  refine ⟨⟨_, h1⟩, ⟨_, h2⟩, fun hcol hp h => ?_⟩
  obtain ⟨-, -, v, hv, he⟩ := (h k).1 _ h1
  simp only [hp] at he
  exact hcol v hv he.symm

/-- C50 (mass flow equations of electrolyzers), for all variability patterns -/
theorem C50_electrolyzer_mass (s : EqState ℝ) (hc : Spec.ColsInjective s) (w : ℝ)
    (i1 o1 o2 : Port) (hm : DistinctM [i1, o1, o2]) :
    Spec.IsJacobian (fun s => (elecMass s w i1 o1 o2).toList) (fun s k => elecMassD s w i1 o1 o2 k)
      s := by
  simp only [DistinctM, List.map_cons, List.map_nil, List.nodup_cons, List.mem_cons,
    List.not_mem_nil, or_false, not_or, List.nodup_nil, and_true, not_false_eq_true] at hm
  have hrow : ∀ (c : ℝ) (a b : ℕ), a ≠ b →
      RowOK s (fun s => c * s.val (.m a) - s.val (.m b)) [(.m a, c), (.m b, -1)] := by
    intro c a b hab
    refine RowOK.congr ((RowOK.smul c (RowOK.val s (.m a))).add (RowOK.negVal s (.m b)) ?_)
      (fun v _ t => by rw [sub_eq_add_neg]) (fun v _ => by simp [scaleL])
    intro v hv hv'
    simp only [scaleL, List.map_cons, List.map_nil, List.mem_singleton] at hv hv'
    rw [hv] at hv'
    exact hab (m_inj hv')
  have hput : ∀ v t u, (s.put v t).isVar u = s.isVar u := fun _ _ _ => rfl
  refine isJacobian_of_list s hc
    ((if s.isVar (.m i1.m) ∨ s.isVar (.m o1.m) then [(w, o1)] else [])
      ++ (if s.isVar (.m i1.m) ∨ s.isVar (.m o2.m) then [(1 - w, o2)] else [])) _ _
    (fun c s => c.1 * s.mv i1 - s.mv c.2) (fun c => [(.m i1.m, c.1), (.m c.2.m, -1)])
    (fun v t => ?_) ?_ (fun k => ?_) ?_
  · simp only [elecMass, Resid.toList, hput]
    by_cases h1 : s.isVar (.m i1.m) = true <;> by_cases h2 : s.isVar (.m o1.m) = true <;>
      by_cases h3 : s.isVar (.m o2.m) = true <;> simp [h1, h2, h3]
  · simp only [elecMass, Resid.toList]
    by_cases h1 : s.isVar (.m i1.m) = true <;> by_cases h2 : s.isVar (.m o1.m) = true <;>
      by_cases h3 : s.isVar (.m o2.m) = true <;> simp [h1, h2, h3]
  · simp only [elecMassD]
    by_cases h1 : s.isVar (.m i1.m) = true <;> by_cases h2 : s.isVar (.m o1.m) = true <;>
      by_cases h3 : s.isVar (.m o2.m) = true <;> simp [h1, h2, h3, wr, rowsW, wrs]
  · intro c hcm
    have hc2 : c.2 = o1 ∨ c.2 = o2 := by
      rw [List.mem_append] at hcm
      rcases hcm with h | h
      · split at h
        · left; simp at h; rw [h]
        · simp at h
      · split at h
        · right; simp at h; rw [h]
        · simp at h
    rcases hc2 with h | h <;> rw [h]
    · exact hrow c.1 i1.m o1.m hm.1.1
    · exact hrow c.1 i1.m o2.m hm.1.2

end Tespy
