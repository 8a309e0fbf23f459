import Verif.Props.ConnJacobian
/-
C49, C50: states that meet the hypotheses of the theorems on Jacobian entries.
-/
namespace Tespy

/-- All mass flows, pressures and enthalpies and the nitrogen fractions `x` of containers from
10 on are variables; the pressure ratio `pr` and the power `P` are variables. -/
def jacState : EqState ℝ where
  val := fun v => match v with
    | .m i => i + 1
    | .p i => 10 + i
    | .h i => 100 + 7 * i
    | .x _ f => if f = "N2" then 0.75 else 0.25
    | .par _ => 2
  isVar := fun v => match v with
    | .m _ => true
    | .p _ => true
    | .h _ => true
    | .x i f => decide (10 ≤ i ∧ f = "N2")
    | .par n => decide (n = "pr")
  col := fun v => match v with
    | .m i => some (4 * i)
    | .p i => some (4 * i + 1)
    | .h i => some (4 * i + 2)
    | .x i _ => some (4 * i + 3)
    | .par _ => some 3
  keys := fun _ => ["N2", "O2"]
  fixed := fun _ => ["O2"]

theorem jacState_cols : Spec.ColsInjective jacState := by
  intro u v hu hv h
  cases u <;> cases v <;> simp_all [jacState] <;> omega

/-- connection with containers of its own, without variable fluids for `i < 10` -/
def jp (i : ℕ) : Port := ⟨i, i, i, i⟩

/-- Property functions with their derivatives. -/
def jacFuncs : ConnFuncs ℝ where
  hPQ := fun _ p b => 3 * p + (if b then 50 else 0)
  dhPQ := fun _ _ _ => 3
  tPH := fun x p h => 5 * p + 2 * h + 8 * x "N2"
  dTdp := fun _ _ _ => 5
  dTdh := fun _ _ _ => 2
  vol := fun x p h => 6 * p + 4 * h + 9 * x "N2"
  dvdp := fun _ _ _ => 6
  dvdh := fun _ _ _ => 4
  tSat := fun _ p => 7 * p
  dtSat := fun _ _ => 7
  hQ := fun _ p q => 3 * p + q
  dhQ := fun _ _ _ => 3
  dTdx := fun _ f _ _ => if f = "N2" then 8 else 0

theorem jacFixed (i : ℕ) (hi : i < 10) : FixedFluid jacState (jp i) := by
  intro f
  have : ¬ 10 ≤ i := by omega
  simp [jacState, jp, this]

theorem jacProp_T (i : ℕ) : Spec.PropDeriv jacState (jp i) jacFuncs.tPH 5 2
    (fun f => if f = "N2" then 8 else 0) := by
  refine ⟨?_, ?_, ?_⟩
  · have := (((hasDerivAt_id' (jacState.pv (jp i))).const_mul 5).add_const
      (2 * jacState.hv (jp i))).add_const (8 * jacState.xv (jp i) "N2")
    simpa [jacFuncs] using this
  · have := (((hasDerivAt_id' (jacState.hv (jp i))).const_mul 2).const_add
      (5 * jacState.pv (jp i))).add_const (8 * jacState.xv (jp i) "N2")
    simpa [jacFuncs] using this
  · intro f hf
    have hf' : f = "N2" := by
      simp [jacState] at hf; exact hf.2
    subst hf'
    refine ⟨by simp [jacState], ?_⟩
    have := ((hasDerivAt_id' (jacState.xv (jp i) "N2")).const_mul 8).const_add
      (5 * jacState.pv (jp i) + 2 * jacState.hv (jp i))
    simpa [jacFuncs] using this

theorem jacProp_v (i : ℕ) : Spec.PropDeriv jacState (jp i) jacFuncs.vol 6 4
    (fun f => if f = "N2" then 9 else 0) := by
  refine ⟨?_, ?_, ?_⟩
  · have := (((hasDerivAt_id' (jacState.pv (jp i))).const_mul 6).add_const
      (4 * jacState.hv (jp i))).add_const (9 * jacState.xv (jp i) "N2")
    simpa [jacFuncs] using this
  · have := (((hasDerivAt_id' (jacState.hv (jp i))).const_mul 4).const_add
      (6 * jacState.pv (jp i))).add_const (9 * jacState.xv (jp i) "N2")
    simpa [jacFuncs] using this
  · intro f hf
    have hf' : f = "N2" := by
      simp [jacState] at hf; exact hf.2
    subst hf'
    refine ⟨by simp [jacState], ?_⟩
    have := ((hasDerivAt_id' (jacState.xv (jp i) "N2")).const_mul 9).const_add
      (6 * jacState.pv (jp i) + 4 * jacState.hv (jp i))
    simpa [jacFuncs] using this

/- merge of three streams, node of two inlets and two outlets, separator, splitter -/
example := C50_node_mass jacState jacState_cols [jp 1, jp 2] [jp 3, jp 4]
  (by simp [DistinctM, jp])
example := C50_node_energy jacState jacState_cols [jp 1] [jp 3, jp 4]
  (by simp [DistinctM, jp]) (by simp [DistinctH, jp])
example := C50_merge_energy jacState jacState_cols [jp 10, jp 11, jp 12] (jp 13)
  (by simp [DistinctM, jp]) (by simp [DistinctH, jp])
example := C50_merge_fluid jacState jacState_cols [jp 10, jp 11, jp 12] (jp 13)
  (by simp [DistinctM, jp]) (by simp [DistinctX, jp])
example := C50_separator_fluid jacState jacState_cols ["N2", "O2"] (jp 13) [jp 10, jp 11, jp 12]
  (by simp [DistinctM, jp]) (by simp [DistinctX, jp])
example := C50_node_pressure jacState jacState_cols (jp 1) [jp 2] [jp 3, jp 4] (by simp [jp])
example := C50_splitter_energy jacState jacState_cols (jp 1) [jp 2, jp 3] (by simp [jp])
example := C50_equality jacState jacState_cols [(jp 1, jp 2), (jp 3, jp 4)] (by simp [jp])
  (by simp [jp])
/- heat exchangers and the recuperator -/
example := C50_heat_exchanger_partial jacState jacState_cols (jp 1) (jp 2) (jp 3) (jp 4)
  (by simp [jp]) (by simp [DistinctH, jp])
example := C50_recuperator jacState jacState_cols ⟨0, 1, 1, 0⟩ ⟨0, 2, 2, 0⟩ ⟨0, 3, 3, 0⟩ ⟨0, 4, 4, 0⟩
  rfl rfl (by norm_num [EqState.hv, jacState])
example := C50_flow_energy jacState jacState_cols "P" (jp 1) (jp 2) (by simp [jp])
/- drum with natural circulation and in general -/
example := C50_drum jacState jacState_cols ⟨0, 1, 1, 0⟩ ⟨1, 2, 2, 0⟩ ⟨1, 3, 3, 0⟩ ⟨0, 4, 4, 0⟩
  (by simp [DistinctH]) (Or.inl (by simp))
example := C50_drum jacState jacState_cols (jp 1) (jp 2) (jp 3) (jp 4)
  (by simp [DistinctH, jp]) (Or.inr (by simp [DistinctM, jp]))
example := C50_pressure_ratio_partial jacState jacState_cols "pr" (jp 1) [jp 2] 0 (jp 2) rfl
  (by simp [jp]) (Or.inl rfl)
example := C50_pressure_ratio_error jacState "pr" (jp 1) [jp 2] 0 (by simp) (by simp [jacState]) 0
example := C50_pressure_drop_partial jacState jacState_cols "dp" (jp 1) (jp 2) (by simp [jp])
  (by simp [jacState])
example := C50_pressure_drop_variable jacState jacState_cols "pr" (jp 1) (jp 2) (by simp [jacState])
example := C50_outlet_states jacFuncs.toPropFuncs jacState jacState_cols (jp 1) (jp 2)
  (jacFixed 1 (by omega)) (jacFixed 2 (by omega))
  (by simpa [jacFuncs] using (hasDerivAt_id' (jacState.pv (jp 1))).const_mul 3)
  (by simpa [jacFuncs] using ((hasDerivAt_id' (jacState.pv (jp 2))).const_mul 3).add_const 50)
example := C50_separator_energy_partial jacFuncs.toPropFuncs jacState jacState_cols (jp 1)
  [jp 2, jp 3] (jacFixed 1 (by omega))
  (by
    intro o ho
    simp only [List.mem_cons, List.not_mem_nil, or_false] at ho
    rcases ho with rfl | rfl
    · exact jacFixed 2 (by omega)
    · exact jacFixed 3 (by omega))
  (by simp [jacState]) (by simp [OwnState, jp]) (fun _ f => if f = "N2" then 8 else 0)
  (by
    intro c hc
    simp only [List.mem_cons, List.not_mem_nil, or_false] at hc
    rcases hc with rfl | rfl | rfl
    · exact jacProp_T 1
    · exact jacProp_T 2
    · exact jacProp_T 3)
example := C50_electrolyzer_mass jacState jacState_cols (8 / 9) (jp 1) (jp 2) (jp 3)
  (by simp [DistinctM, jp])
/- connections -/
example := C50_temperature jacFuncs jacState jacState_cols (jp 10) 300 (jacProp_T 10)
example := C50_volume_partial jacFuncs jacState jacState_cols (jp 1) 300 (jacFixed 1 (by omega)) _
  (jacProp_v 1)
example := C50_volume_fluid jacFuncs jacState jacState_cols (jp 10) 300 "N2" (by simp [jacState, jp])
  9 (((jacProp_v 10).x "N2" (by simp [jacState, jp])).2)
  (by norm_num [EqState.mv, jacState, jp])
example := C49_primary_partial jacState jacState_cols (.m 1) (.m 2) (by simp) 2 3
example := C49_primary_shared jacState (.p 1) rfl 2 3
example := C49_T_partial jacFuncs jacState jacState_cols (jp 1) (jp 2) 2 3 (by simp [OwnState, jp])
  (jacFixed 1 (by omega)) (jacFixed 2 (by omega)) _ _ (jacProp_T 1) (jacProp_T 2)
example := C49_T_fluid jacFuncs jacState jacState_cols (jp 1) (jp 10) 2 3 (by simp [jp]) "N2"
  (by simp [jacState, jp]) (by simp [jacState]) (by norm_num)
  (by simpa [jacFuncs] using ((jacProp_T 10).x "N2" (by simp [jacState, jp])).2)
  (by norm_num [jacFuncs])
example := C49_v_partial jacFuncs jacState jacState_cols (jp 1) (jp 2) 2 3 (by simp [OwnState, jp])
  (by simp [jp]) (jacFixed 1 (by omega)) (jacFixed 2 (by omega)) _ _ (jacProp_v 1) (jacProp_v 2)
example := C49_v_same_branch jacFuncs jacState ⟨1, 1, 1, 1⟩ ⟨1, 2, 2, 1⟩ 2 3 rfl jacState_cols rfl
  (by norm_num [jacFuncs, EqState.pv, EqState.hv, EqState.xv, jacState])
example := C50_quality jacFuncs jacState jacState_cols (jp 1) (1 / 2) (jacFixed 1 (by omega))
  (by simpa [jacFuncs] using ((hasDerivAt_id' (jacState.pv (jp 1))).const_mul 3).add_const (1 / 2))
example := C50_boiling_distance jacFuncs jacState jacState_cols (jp 1) (1 / 2)
  (jacFixed 1 (by omega)) _ (jacProp_T 1)
  (by simpa [jacFuncs] using (hasDerivAt_id' (jacState.pv (jp 1))).const_mul 7)
example := (C50_fluid_balance jacState jacState_cols (jp 10) "N2" (by simp [jacState, jp])
  (by simp [jacState]) (by simp [jacState]) (by simp [jacState])).2.2
  (by norm_num [EqState.xv, jacState])

end Tespy
