import Verif.Props.Deriv
/-
C49, C50: Jacobian entries of the equations of components and connections.
-/
namespace Tespy

theorem RowOK.negVal (s : EqState ℝ) (a : Var) : RowOK s (fun s => -(s.val a)) [(a, -1)] := by
  refine RowOK.congr (RowOK.smul (-1) (RowOK.val s a)) (fun v _ t => by ring) (fun v _ => ?_)
  simp [scaleL]

theorem RowOK.negMul (s : EqState ℝ) (a b : Var) (hab : a ≠ b) :
    RowOK s (fun s => -(s.val a * s.val b)) [(a, -(s.val b)), (b, -(s.val a))] := by
  refine RowOK.congr (RowOK.smul (-1) (RowOK.mul s a b hab)) (fun v _ t => by ring) (fun v _ => ?_)
  simp [scaleL]

theorem wrs_append (s : EqState ℝ) (k : ℕ) (L M : List (Var × ℝ)) :
    wrs s k (L ++ M) = wrs s k L ++ wrs s k M := by simp [wrs]

theorem wrs_flatMap {α : Type} (s : EqState ℝ) (k : ℕ) (l : List α) (L : α → List (Var × ℝ)) :
    wrs s k (l.flatMap L) = l.flatMap (fun a => wrs s k (L a)) := by
  simp [wrs, List.flatMap_assoc]

theorem wrs_one (s : EqState ℝ) (k : ℕ) (v : Var) (x : ℝ) : wrs s k [(v, x)] = wr s k v x := by
  simp [wrs]

theorem wrs_two (s : EqState ℝ) (k : ℕ) (v u : Var) (x y : ℝ) :
    wrs s k [(v, x), (u, y)] = wr s k v x ++ wr s k u y := by
  simp [wrs]

theorem wrs_nil (s : EqState ℝ) (k : ℕ) : wrs s k [] = [] := rfl

/-- pairwise different keys give disjoint singletons -/
theorem pairwise_one {α : Type} (l : List α) (g : α → Var) (x : α → ℝ) (h : (l.map g).Nodup) :
    l.Pairwise (fun a b => Disj [(g a, x a)] [(g b, x b)]) := by
  rw [List.Nodup, List.pairwise_map] at h
  refine h.imp ?_
  intro a b hab v hv hv'
  simp only [List.map_cons, List.map_nil, List.mem_singleton] at hv hv'
  exact hab (hv ▸ hv')

theorem pairwise_two {α : Type} (l : List α) (g g' : α → Var) (x y : α → ℝ)
    (h : (l.map g).Nodup) (h' : (l.map g').Nodup) (hne : ∀ a b, g a ≠ g' b) :
    l.Pairwise (fun a b => Disj [(g a, x a), (g' a, y a)] [(g b, x b), (g' b, y b)]) := by
  rw [List.Nodup, List.pairwise_map] at h h'
  refine (h.and h').imp ?_
  rintro a b ⟨hab, hab'⟩ v hv hv'
  simp only [List.map_cons, List.map_nil, List.mem_cons, List.not_mem_nil, or_false] at hv hv'
  rcases hv with rfl | rfl <;> rcases hv' with hv' | hv'
  · exact hab hv'
  · exact hne _ _ hv'
  · exact hne _ _ hv'.symm
  · exact hab' hv'

theorem sum_map_neg' {α : Type} (l : List α) (f : α → ℝ) :
    (l.map (fun a => -(f a))).sum = -(l.map f).sum := by
  induction l with
  | nil => simp
  | cons a l ih => simp only [List.map_cons, List.sum_cons, ih]; ring

theorem nodup_map_of_inj {α β γ : Type} {l : List α} {g : α → β} {c : β → γ}
    (hc : Function.Injective c) (h : (l.map g).Nodup) : (l.map (fun a => c (g a))).Nodup := by
  have : l.map (fun a => c (g a)) = (l.map g).map c := by simp [Function.comp_def]
  rw [this]
  exact h.map hc

theorem m_inj : Function.Injective Var.m := fun _ _ h => by injection h
theorem p_inj : Function.Injective Var.p := fun _ _ h => by injection h
theorem h_inj : Function.Injective Var.h := fun _ _ h => by injection h
theorem x_inj (f : String) : Function.Injective (fun i => Var.x i f) := fun _ _ h => by injection h

/-- The connections hold different mass flows. -/
def DistinctM (cs : List Port) : Prop := (cs.map (·.m)).Nodup
/-- The connections hold different enthalpies. -/
def DistinctH (cs : List Port) : Prop := (cs.map (·.h)).Nodup
/-- The connections hold different compositions. -/
def DistinctX (cs : List Port) : Prop := (cs.map (·.fl)).Nodup

/-! ## C50: mass flow and energy balances of nodes -/

/-- C50 (mass flow balance of nodes) -/
theorem C50_node_mass (s : EqState ℝ) (hc : Spec.ColsInjective s) (inl outl : List Port)
    (hm : DistinctM (inl ++ outl)) :
    Spec.IsJacobian (fun s => (nodeMass s inl outl).toList) (fun s k => nodeMassD s inl outl k) s := by
  refine isJacobian_of_row s hc
    (fun s => outl.foldl (fun r o => r - s.mv o) (inl.foldl (fun r i => r + s.mv i) 0)) _
    (inl.flatMap (fun i => [(Var.m i.m, 1)]) ++ outl.flatMap (fun o => [(Var.m o.m, -1)])) ?_ ?_
  · intro k
    simp only [nodeMassD, wrs_append, wrs_flatMap, wrs_one]
  · have hnd := nodup_map_of_inj m_inj hm
    rw [List.map_append] at hnd
    have h1 := RowOK.sum (s := s) inl (fun i s => s.val (.m i.m)) (fun i => [(Var.m i.m, 1)])
      (fun i _ => RowOK.val s _) (pairwise_one inl _ _ (List.nodup_append.mp hnd).1)
    have h2 := RowOK.sum (s := s) outl (fun o s => -(s.val (.m o.m))) (fun o => [(Var.m o.m, -1)])
      (fun i _ => RowOK.negVal s _) (pairwise_one outl _ _ (List.nodup_append.mp hnd).2.1)
    refine RowOK.congr (h1.add h2 ?_) (fun v _ t => ?_) (fun v _ => rfl)
    · intro v hv hv'
      simp only [List.map_flatMap, List.map_cons, List.map_nil, List.mem_flatMap,
        List.mem_singleton] at hv hv'
      obtain ⟨a, ha, rfl⟩ := hv
      obtain ⟨b, hb, hab⟩ := hv'
      exact (List.nodup_append.mp hnd).2.2 _ (List.mem_map.mpr ⟨a, ha, rfl⟩) _
        (List.mem_map.mpr ⟨b, hb, rfl⟩) hab
    · simp only [foldl_add_map, foldl_sub_map, sum_map_neg', EqState.mv, zero_add]
      rfl

/-- rows of terms `±a*b` over inlets and outlets -/
theorem bilinear_row (s : EqState ℝ) (inl outl : List Port) (g g' : Port → Var)
    (hne : ∀ a b, g a ≠ g' b) (hg : ((inl ++ outl).map g).Nodup)
    (hg' : ((inl ++ outl).map g').Nodup) :
    RowOK s (fun s => (inl.map (fun i => s.val (g i) * s.val (g' i))).sum
        - (outl.map (fun o => s.val (g o) * s.val (g' o))).sum)
      (inl.flatMap (fun i => [(g i, s.val (g' i)), (g' i, s.val (g i))])
        ++ outl.flatMap (fun o => [(g o, -(s.val (g' o))), (g' o, -(s.val (g o)))])) := by
  rw [List.map_append] at hg hg'
  have h1 := RowOK.sum (s := s) inl (fun i s => s.val (g i) * s.val (g' i)) _
    (fun i _ => RowOK.mul s (g i) (g' i) (hne i i))
    (pairwise_two inl g g' _ _ (List.nodup_append.mp hg).1 (List.nodup_append.mp hg').1 hne)
  have h2 := RowOK.sum (s := s) outl (fun i s => -(s.val (g i) * s.val (g' i))) _
    (fun i _ => RowOK.negMul s (g i) (g' i) (hne i i))
    (pairwise_two outl g g' _ _ (List.nodup_append.mp hg).2.1 (List.nodup_append.mp hg').2.1 hne)
  refine RowOK.congr (h1.add h2 ?_) (fun v _ t => ?_) (fun v _ => rfl)
  · intro v hv hv'
    simp only [List.map_flatMap, List.map_cons, List.map_nil, List.mem_flatMap,
      List.mem_cons, List.not_mem_nil, or_false] at hv hv'
    obtain ⟨a, ha, h1⟩ := hv
    obtain ⟨b, hb, h2⟩ := hv'
    rcases h1 with rfl | rfl <;> rcases h2 with h2 | h2
    · exact (List.nodup_append.mp hg).2.2 _ (List.mem_map.mpr ⟨a, ha, rfl⟩) _
        (List.mem_map.mpr ⟨b, hb, rfl⟩) h2
    · exact hne _ _ h2
    · exact hne _ _ h2.symm
    · exact (List.nodup_append.mp hg').2.2 _ (List.mem_map.mpr ⟨a, ha, rfl⟩) _
        (List.mem_map.mpr ⟨b, hb, rfl⟩) h2
  · rw [sum_map_neg', sub_eq_add_neg]

/-- C50 (energy balance of droplet separators and drums) -/
theorem C50_node_energy (s : EqState ℝ) (hc : Spec.ColsInjective s) (inl outl : List Port)
    (hm : DistinctM (inl ++ outl)) (hh : DistinctH (inl ++ outl)) :
    Spec.IsJacobian (fun s => (nodeEnergy s inl outl).toList) (fun s k => nodeEnergyD s inl outl k)
      s := by
  refine isJacobian_of_row s hc
    (fun s => outl.foldl (fun r o => r - s.mv o * s.hv o)
      (inl.foldl (fun r i => r + s.mv i * s.hv i) 0)) _ _ ?_
    (RowOK.congr (bilinear_row s inl outl (fun c => .m c.m) (fun c => .h c.h) (by simp)
      (nodup_map_of_inj m_inj hm) (nodup_map_of_inj h_inj hh)) (fun v _ t => ?_) (fun v _ => rfl))
  · intro k
    simp only [nodeEnergyD, wrs_append, wrs_flatMap, wrs_two, EqState.mv, EqState.hv]
  · simp only [foldl_add_map, foldl_sub_map, EqState.mv, EqState.hv, zero_add]

/-- C50 (energy balance of merges) -/
theorem C50_merge_energy (s : EqState ℝ) (hc : Spec.ColsInjective s) (inl : List Port) (o : Port)
    (hm : DistinctM (inl ++ [o])) (hh : DistinctH (inl ++ [o])) :
    Spec.IsJacobian (fun s => (mergeEnergy s inl o).toList) (fun s k => mergeEnergyD s inl o k) s := by
  refine isJacobian_of_row s hc
    (fun s => inl.foldl (fun r i => r + s.mv i * s.hv i) (-(s.mv o) * s.hv o)) _ _ ?_
    (RowOK.congr (bilinear_row s inl [o] (fun c => .m c.m) (fun c => .h c.h) (by simp)
      (nodup_map_of_inj m_inj hm) (nodup_map_of_inj h_inj hh)) (fun v _ t => ?_) (fun v _ => rfl))
  · intro k
    simp only [mergeEnergyD, wrs_append, wrs_flatMap, wrs_two, EqState.mv, EqState.hv,
      List.flatMap_cons, List.flatMap_nil, List.append_nil]
  · simp only [foldl_add_map, EqState.mv, EqState.hv, List.map_cons, List.map_nil, List.sum_cons,
      List.sum_nil]
    ring

/-- the loop over the fluids as rows -/
theorem enumF_rows (s : EqState ℝ) (g : String → ℕ → Writes ℝ) (L : String → List (Var × ℝ))
    (h : ∀ f k, g f k = wrs s k (L f)) (fl : List String) (k : ℕ) :
    enumF g k fl = rowsW s k (fl.map L) := by
  induction fl generalizing k with
  | nil => rfl
  | cons f fl ih => simp [enumF, rowsW, h, ih]

/-- rows given by a list -/
theorem isJacobian_of_list {α : Type} (s : EqState ℝ) (hc : Spec.ColsInjective s) (l : List α)
    (r : EqState ℝ → List ℝ) (w : EqState ℝ → ℕ → Writes ℝ) (f : α → EqState ℝ → ℝ)
    (L : α → List (Var × ℝ)) (hr : ∀ v t, r (s.put v t) = l.map (fun a => f a (s.put v t)))
    (hrs : (r s).length = l.length) (hw : ∀ k, w s k = rowsW s k (l.map L))
    (h : ∀ a ∈ l, RowOK s (f a) (L a)) : Spec.IsJacobian r w s := by
  refine isJacobian_of_rows s hc r w (l.map L) (l.map f) (by simp) (fun v t => ?_) (by simp [hrs])
    hw ?_
  · rw [hr v t]; simp [Function.comp_def]
  · intro j g M hg hM
    simp only [List.getElem?_map] at hg hM
    cases hl : l[j]? with
    | none => rw [hl] at hg; simp at hg
    | some a =>
      rw [hl] at hg hM
      simp only [Option.map_some, Option.some.injEq] at hg hM
      subst hg; subst hM
      exact h a (List.mem_of_getElem? hl)

/-- C50 (species balances of merges) -/
theorem C50_merge_fluid (s : EqState ℝ) (hc : Spec.ColsInjective s) (inl : List Port) (o : Port)
    (hm : DistinctM (inl ++ [o])) (hx : DistinctX (inl ++ [o])) :
    Spec.IsJacobian (fun s => (s.keys o.fl).map (fun f =>
        inl.foldl (fun r i => r + s.xv i f * s.mv i) (-(s.xv o f) * s.mv o)))
      (fun s k => mergeFluidD s inl o k) s := by
  refine isJacobian_of_list s hc (s.keys o.fl) _ _
    (fun f s => inl.foldl (fun r i => r + s.xv i f * s.mv i) (-(s.xv o f) * s.mv o))
    (fun f => inl.flatMap (fun i => [(Var.m i.m, s.xv i f), (Var.x i.fl f, s.mv i)])
        ++ [o].flatMap (fun o => [(Var.m o.m, -(s.xv o f)), (Var.x o.fl f, -(s.mv o))]))
    (fun v t => rfl) (by simp) (fun k => ?_) ?_
  · refine enumF_rows s _ _ (fun f k => ?_) _ _
    simp only [mergeFluidD1, wrs_append, wrs_flatMap, wrs_two, List.flatMap_cons, List.flatMap_nil,
      List.append_nil]
  · intro f _
    refine RowOK.congr (bilinear_row s inl [o] (fun c => .m c.m) (fun c => .x c.fl f) (by simp)
      (nodup_map_of_inj m_inj hm) (nodup_map_of_inj (x_inj f) hx)) (fun v _ t => ?_) (fun v _ => rfl)
    simp only [foldl_add_map, EqState.mv, EqState.xv, List.map_cons, List.map_nil, List.sum_cons,
      List.sum_nil]
    have : (fun i : Port => (s.put v t).val (.x i.fl f) * (s.put v t).val (.m i.m))
        = fun i => (s.put v t).val (.m i.m) * (s.put v t).val (.x i.fl f) :=
      funext fun i => mul_comm _ _
    rw [this]
    ring

theorem lastOf_comm_disj (L M : List (Var × ℝ)) (h : Disj L M) (v : Var) :
    lastOf (L ++ M) v 0 = lastOf (M ++ L) v 0 := by
  rw [lastOf_disj L M h, lastOf_disj M L (fun v h1 h2 => h v h2 h1), add_comm]

/-- C50 (species balances of separators) -/
theorem C50_separator_fluid (s : EqState ℝ) (hc : Spec.ColsInjective s) (fl : List String)
    (i : Port) (outl : List Port) (hm : DistinctM (i :: outl)) (hx : DistinctX (i :: outl)) :
    Spec.IsJacobian (fun s => (sepFluid s fl i outl).toList) (fun s k => sepFluidD s fl i outl k)
      s := by
  refine isJacobian_of_list s hc fl _ _
    (fun f s => outl.foldl (fun r o => r - s.xv o f * s.mv o) (s.xv i f * s.mv i))
    (fun f => outl.flatMap (fun o => [(Var.m o.m, -(s.xv o f)), (Var.x o.fl f, -(s.mv o))])
      ++ [i].flatMap (fun i => [(Var.m i.m, s.xv i f), (Var.x i.fl f, s.mv i)]))
    (fun v t => rfl) (by simp [sepFluid, Resid.toList]) (fun k => ?_) ?_
  · refine enumF_rows s _ _ (fun f k => ?_) _ _
    simp only [sepFluidD1, wrs_append, wrs_flatMap, wrs_two, List.flatMap_cons, List.flatMap_nil,
      List.append_nil]
  · intro f _
    have hm' := nodup_map_of_inj m_inj hm
    have hx' := nodup_map_of_inj (x_inj f) hx
    refine RowOK.congr (bilinear_row s [i] outl (fun c => .m c.m) (fun c => .x c.fl f) (by simp)
      hm' hx') (fun v _ t => ?_) (fun v _ => ?_)
    · simp only [foldl_sub_map, EqState.mv, EqState.xv, List.map_cons, List.map_nil, List.sum_cons,
        List.sum_nil]
      have : (fun i : Port => (s.put v t).val (.x i.fl f) * (s.put v t).val (.m i.m))
          = fun i => (s.put v t).val (.m i.m) * (s.put v t).val (.x i.fl f) :=
        funext fun i => mul_comm _ _
      rw [this]
      ring
    · refine lastOf_comm_disj _ _ ?_ v
      intro v hv hv'
      simp only [List.map_flatMap, List.map_cons, List.map_nil, List.mem_flatMap,
        List.mem_cons, List.not_mem_nil, or_false] at hv hv'
      obtain ⟨a, ha, h1⟩ := hv
      obtain ⟨b, rfl, h2⟩ := hv'
      simp only [List.map_cons, List.nodup_cons] at hm' hx'
      rcases h1 with rfl | rfl <;> rcases h2 with h2 | h2
      · exact hm'.1 (List.mem_map.mpr ⟨a, ha, h2⟩)
      · cases h2
      · cases h2
      · exact hx'.1 (List.mem_map.mpr ⟨a, ha, h2⟩)

/-! ## C50: equality equations -/

theorem diff_row (s : EqState ℝ) (a b : Var) (hab : a ≠ b) :
    RowOK s (fun s => s.val a - s.val b) [(a, 1), (b, -1)] := by
  refine RowOK.congr ((RowOK.val s a).add (RowOK.negVal s b) ?_) (fun v _ t => ?_) (fun v _ => rfl)
  · intro v hv hv'
    simp only [List.map_cons, List.map_nil, List.mem_singleton] at hv hv'
    exact hab (hv ▸ hv')
  · rw [sub_eq_add_neg]

theorem enumW_rows (s : EqState ℝ) (g : ℕ → Port → Writes ℝ) (L : Port → List (Var × ℝ))
    (h : ∀ c k, g k c = wrs s k (L c)) (cs : List Port) (k : ℕ) :
    enumW g k cs = rowsW s k (cs.map L) := by
  induction cs generalizing k with
  | nil => rfl
  | cons c cs ih => simp [enumW, rowsW, h, ih]

/-- C50 (pressure equality of nodes) -/
theorem C50_node_pressure (s : EqState ℝ) (hc : Spec.ColsInjective s) (i0 : Port)
    (inl outl : List Port) (hp : ∀ c ∈ inl ++ outl, i0.p ≠ c.p) :
    Spec.IsJacobian (fun s => (nodePressure s i0 inl outl).toList)
      (fun s k => nodePressureD s i0 inl outl k) s := by
  refine isJacobian_of_list s hc (inl ++ outl) _ _ (fun c s => s.pv i0 - s.pv c)
    (fun c => [(.p i0.p, 1), (.p c.p, -1)]) (fun v t => rfl)
    (by simp [nodePressure, Resid.toList]) (fun k => ?_) ?_
  · exact enumW_rows s _ _ (fun c k => by simp only [wrs_two]) _ _
  · intro c hcm
    exact diff_row s _ _ (fun h => hp c hcm (p_inj h))

/-- C50 (energy balance of splitters) -/
theorem C50_splitter_energy (s : EqState ℝ) (hc : Spec.ColsInjective s) (i : Port)
    (outl : List Port) (hh : ∀ c ∈ outl, i.h ≠ c.h) :
    Spec.IsJacobian (fun s => (splitEnergy s i outl).toList) (fun s k => splitEnergyD s i outl k)
      s := by
  refine isJacobian_of_list s hc outl _ _ (fun c s => s.hv i - s.hv c)
    (fun c => [(.h i.h, 1), (.h c.h, -1)]) (fun v t => rfl)
    (by simp [splitEnergy, Resid.toList]) (fun k => ?_) ?_
  · exact enumW_rows s _ _ (fun c k => by simp only [wrs_two]) _ _
  · intro c hcm
    exact diff_row s _ _ (fun h => hh c hcm (h_inj h))

theorem eqPressureD_rows (s : EqState ℝ) (io : List (Port × Port)) (k : ℕ) :
    eqPressureD s k io
      = rowsW s k (io.map (fun c => [(Var.p c.1.p, (1 : ℝ)), (Var.p c.2.p, -1)])) := by
  induction io generalizing k with
  | nil => rfl
  | cons c io ih => simp [eqPressureD, rowsW, wrs_two, ih]

theorem eqEnthalpyD_rows (s : EqState ℝ) (io : List (Port × Port)) (k : ℕ) :
    eqEnthalpyD s k io
      = rowsW s k (io.map (fun c => [(Var.h c.1.h, (1 : ℝ)), (Var.h c.2.h, -1)])) := by
  induction io generalizing k with
  | nil => rfl
  | cons c io ih => simp [eqEnthalpyD, rowsW, wrs_two, ih]

/-- C50 (pressure and enthalpy equality of components) -/
theorem C50_equality (s : EqState ℝ) (hc : Spec.ColsInjective s) (io : List (Port × Port))
    (hp : ∀ c ∈ io, c.1.p ≠ c.2.p) (hh : ∀ c ∈ io, c.1.h ≠ c.2.h) :
    Spec.IsJacobian (fun s => (eqPressure s io).toList) (fun s k => eqPressureD s k io) s ∧
    Spec.IsJacobian (fun s => (eqEnthalpy s io).toList) (fun s k => eqEnthalpyD s k io) s := by
  constructor
  · refine isJacobian_of_list s hc io _ _ (fun c s => s.pv c.1 - s.pv c.2)
      (fun c => [(.p c.1.p, 1), (.p c.2.p, -1)]) (fun v t => rfl)
      (by simp [eqPressure, Resid.toList]) (fun k => eqPressureD_rows s io k) ?_
    intro c hcm
    exact diff_row s _ _ (fun h => hp c hcm (p_inj h))
  · refine isJacobian_of_list s hc io _ _ (fun c s => s.hv c.1 - s.hv c.2)
      (fun c => [(.h c.1.h, 1), (.h c.2.h, -1)]) (fun v t => rfl)
      (by simp [eqEnthalpy, Resid.toList]) (fun k => eqEnthalpyD_rows s io k) ?_
    intro c hcm
    exact diff_row s _ _ (fun h => hh c hcm (h_inj h))

/-! ## C50: heat exchangers and turbomachines -/

/-- row of `m * (a - b)` -/
theorem flow_row (s : EqState ℝ) (m a b : Var) (hma : m ≠ a) (hmb : m ≠ b) (hab : a ≠ b) :
    RowOK s (fun s => s.val m * (s.val a - s.val b))
      [(m, s.val a - s.val b), (b, -(s.val m)), (a, s.val m)] := by
  intro v hv
  by_cases hm : m = v
  · subst hm
    have : (fun t => (s.put m t).val m * ((s.put m t).val a - (s.put m t).val b))
        = fun t => t * (s.val a - s.val b) := by
      funext t
      rw [put_val_self, put_val_ne _ _ _ _ hma.symm, put_val_ne _ _ _ _ hmb.symm]
    rw [this]
    simpa [lastOf, hma.symm, hmb.symm] using
      (hasDerivAt_id' (s.val m)).mul_const (s.val a - s.val b)
  · by_cases ha : a = v
    · subst ha
      have : (fun t => (s.put a t).val m * ((s.put a t).val a - (s.put a t).val b))
          = fun t => s.val m * (t - s.val b) := by
        funext t
        rw [put_val_self, put_val_ne _ _ _ _ hma, put_val_ne _ _ _ _ hab.symm]
      rw [this]
      simpa [lastOf] using
        ((hasDerivAt_id' (s.val a)).sub_const (s.val b)).const_mul (s.val m)
    · by_cases hb : b = v
      · subst hb
        have : (fun t => (s.put b t).val m * ((s.put b t).val a - (s.put b t).val b))
            = fun t => s.val m * (s.val a - t) := by
          funext t
          rw [put_val_self, put_val_ne _ _ _ _ hmb, put_val_ne _ _ _ _ hab]
        rw [this]
        simpa [lastOf, hab] using
          ((hasDerivAt_id' (s.val b)).const_sub (s.val a)).const_mul (s.val m)
      · have : (fun t => (s.put v t).val m * ((s.put v t).val a - (s.put v t).val b))
            = fun _ => s.val m * (s.val a - s.val b) := by
          funext t
          rw [put_val_ne _ _ _ _ hm, put_val_ne _ _ _ _ ha, put_val_ne _ _ _ _ hb]
        rw [this]
        simpa [lastOf, hm, ha, hb] using hasDerivAt_const (s.val v) (s.val m * (s.val a - s.val b))

/-- C50 (energy balance of heat exchangers) if both sides have mass flows of their own.
Full statement: for all sharing patterns; false if one stream passes both sides, see
`C50_recuperator`. -/
theorem C50_heat_exchanger_partial (s : EqState ℝ) (hc : Spec.ColsInjective s)
    (i0 i1 o0 o1 : Port) (hm : i0.m ≠ i1.m) (hh : DistinctH [i0, i1, o0, o1]) :
    Spec.IsJacobian (fun s => (hexEnergy s i0 i1 o0 o1).toList)
      (fun s k => hexEnergyD s i0 i1 o0 o1 k) s := by
  have hh' := nodup_map_of_inj h_inj hh
  simp only [List.map_cons, List.map_nil, List.nodup_cons, List.mem_cons, List.not_mem_nil,
    or_false, not_or, List.nodup_nil, and_true, not_false_eq_true] at hh'
  obtain ⟨⟨h1, h2, h3⟩, ⟨h4, h5⟩, h6⟩ := hh'
  refine isJacobian_of_row s hc
    (fun s => s.mv i0 * (s.hv o0 - s.hv i0) + s.mv i1 * (s.hv o1 - s.hv i1)) _ _ ?_
    ((flow_row s (.m i0.m) (.h o0.h) (.h i0.h) (by simp) (by simp) (Ne.symm h2)).add
      (flow_row s (.m i1.m) (.h o1.h) (.h i1.h) (by simp) (by simp) (Ne.symm h5)) ?_)
  · intro k
    simp only [hexEnergyD, wrs, List.flatMap_append, List.flatMap_cons, List.flatMap_nil,
      List.append_nil, EqState.mv, EqState.hv, List.append_assoc]
  · intro v hv hv'
    simp only [List.map_cons, List.map_nil, List.mem_cons, List.not_mem_nil, or_false] at hv hv'
    rcases hv with rfl | rfl | rfl <;> rcases hv' with hv' | hv' | hv' <;>
      simp_all

/-- C50 is false for a heat exchanger whose hot and cold side belong to one branch, as in a
cycle with internal heat recovery: the entry for the common mass flow is overwritten by that
of the second side. -/
theorem C50_recuperator (s : EqState ℝ) (hc : Spec.ColsInjective s) (i0 i1 o0 o1 : Port)
    (hm : i0.m = i1.m) (hv : s.isVar (.m i0.m) = true) (hne : s.hv o0 ≠ s.hv i0) :
    ¬ Spec.IsJacobian (fun s => (hexEnergy s i0 i1 o0 o1).toList)
      (fun s k => hexEnergyD s i0 i1 o0 o1 k) s := by
  intro h
  have h1 := (h 0).2 0 (by simp [hexEnergy, Resid.toList]) (.m i0.m) hv
  have hfun : (fun t => ((hexEnergy (s.put (.m i0.m) t) i0 i1 o0 o1).toList).getD 0 0)
      = fun t => t * (s.hv o0 - s.hv i0 + (s.hv o1 - s.hv i1)) := by
    funext t
    simp only [hexEnergy, Resid.toList, List.getD_cons_zero, EqState.mv, EqState.hv]
    rw [← hm, put_val_self, put_val_ne _ _ _ _ (by simp), put_val_ne _ _ _ _ (by simp),
      put_val_ne _ _ _ _ (by simp), put_val_ne _ _ _ _ (by simp)]
    ring
  have h2 : HasDerivAt (fun t => t * (s.hv o0 - s.hv i0 + (s.hv o1 - s.hv i1)))
      (1 * (s.hv o0 - s.hv i0 + (s.hv o1 - s.hv i1))) (s.val (.m i0.m)) :=
    (hasDerivAt_id' _).mul_const _
  simp only [] at h1
  rw [hfun] at h1
  have heq := h1.unique h2
  have hw : hexEnergyD s i0 i1 o0 o1 0 = wrs s 0
      ([(.m i0.m, s.hv o0 - s.hv i0), (.h i0.h, -(s.mv i0)), (.h o0.h, s.mv i0)]
      ++ [(.m i1.m, s.hv o1 - s.hv i1), (.h i1.h, -(s.mv i1)), (.h o1.h, s.mv i1)]) := by
    simp only [hexEnergyD, wrs, List.flatMap_append, List.flatMap_cons, List.flatMap_nil,
      List.append_nil, List.append_assoc]
  have hent : entry (hexEnergyD s i0 i1 o0 o1 0) (0 + 0) (s.col (.m i0.m)) = s.hv o1 - s.hv i1 := by
    rw [hw]
    have := entryFrom_wrs s hc 0 ([(.m i0.m, s.hv o0 - s.hv i0), (.h i0.h, -(s.mv i0)),
      (.h o0.h, s.mv i0)] ++ [(.m i1.m, s.hv o1 - s.hv i1), (.h i1.h, -(s.mv i1)),
      (.h o1.h, s.mv i1)]) (.m i0.m) hv 0
    refine this.trans ?_
    simp [lastOf, hm]
  rw [hent] at heq
  apply hne
  linarith

/-- C50 (energy balance with power or heat flow, turbomachines and simple heat exchangers) -/
theorem C50_flow_energy (s : EqState ℝ) (hc : Spec.ColsInjective s) (q : String) (i o : Port)
    (hh : i.h ≠ o.h) :
    Spec.IsJacobian (fun s => [flowEnergy s q i o]) (fun s k => flowEnergyD s q i o k) s := by
  refine isJacobian_of_row s hc _ _ _ ?_
    (RowOK.congr ((flow_row s (.m i.m) (.h o.h) (.h i.h) (by simp) (by simp)
      (fun h => hh (h_inj h).symm)).add (RowOK.negVal s (.par q)) ?_) (fun v _ t => ?_)
      (fun v _ => rfl))
  · intro k
    simp only [flowEnergyD, wrs, List.flatMap_append, List.flatMap_cons, List.flatMap_nil,
      List.append_nil, EqState.mv, EqState.hv, List.append_assoc]
  · intro v hv hv'
    simp only [List.map_cons, List.map_nil, List.mem_cons, List.not_mem_nil, or_false] at hv hv'
    subst hv'
    simp at hv
  · simp only [flowEnergy, EqState.mv, EqState.hv]
    rw [sub_eq_add_neg]

/-- C50 (drum): mass flow and energy balance, also with a shared mass flow of the
circulation. -/
theorem C50_drum (s : EqState ℝ) (hc : Spec.ColsInjective s) (i0 i1 o0 o1 : Port)
    (hh : DistinctH [i0, i1, o0, o1])
    (hm : (i1.m = o0.m ∧ i0.m = o1.m ∧ i0.m ≠ i1.m) ∨ DistinctM [i0, i1, o0, o1]) :
    Spec.IsJacobian (fun s => (drumEnergy s i0 i1 o0 o1).toList)
      (fun s k => drumEnergyD s i0 i1 o0 o1 k) s ∧
    (i1.m ≠ o0.m → Spec.IsJacobian (fun s => (drumMass s i0 i1 o0 o1).toList)
      (fun s k => drumMassD s i0 i1 o0 o1 k) s) := by
  constructor
  · by_cases hs : i1.m = o0.m
    · have hm' : i0.m = o1.m ∧ i0.m ≠ i1.m := by
        rcases hm with ⟨-, h⟩ | h
        · exact h
        · simp [DistinctM, hs] at h
      have hh' := nodup_map_of_inj h_inj hh
      simp only [List.map_cons, List.map_nil, List.nodup_cons, List.mem_cons, List.not_mem_nil,
        or_false, not_or, List.nodup_nil, and_true, not_false_eq_true] at hh'
      obtain ⟨⟨h1, h2, h3⟩, ⟨h4, h5⟩, h6⟩ := hh'
      simp only [drumEnergy, if_pos hs, drumEnergyD]
      refine isJacobian_of_row s hc
        (fun s => (s.hv i1 - s.hv o0) * s.mv o0 + (s.hv i0 - s.hv o1) * s.mv i0) _
        ([(.m o0.m, s.hv i1 - s.hv o0), (.h i1.h, s.mv o0), (.h o0.h, -(s.mv o0))]
          ++ [(.m i0.m, s.hv i0 - s.hv o1), (.h i0.h, s.mv i0), (.h o1.h, -(s.mv o1))]) ?_
        (RowOK.congr ((flow_row s (.m o0.m) (.h i1.h) (.h o0.h) (by simp) (by simp) h4).add
          (flow_row s (.m i0.m) (.h i0.h) (.h o1.h) (by simp) (by simp) h3) ?_)
          (fun v _ t => ?_) (fun v _ => ?_))
      · intro k
        simp only [wrs, List.flatMap_append, List.flatMap_cons, List.flatMap_nil,
          List.append_nil, List.append_assoc]
      · intro v hv hv'
        simp only [List.map_cons, List.map_nil, List.mem_cons, List.not_mem_nil, or_false] at hv hv'
        rcases hv with rfl | rfl | rfl <;> rcases hv' with hv' | hv' | hv' <;>
          simp_all
      · simp only [EqState.mv, EqState.hv]; ring
      · have hperm : ∀ (a b c : Var × ℝ), b.1 ≠ c.1 → ∀ d, lastOf [a, b, c] v d
            = lastOf [a, c, b] v d := by
          intro a b c hbc d
          simp only [lastOf, List.foldl_cons, List.foldl_nil]
          by_cases hb : b.1 = v <;> by_cases hcv : c.1 = v <;> simp [hb, hcv]
          exact absurd (hb.trans hcv.symm) hbc
        rw [lastOf_append, lastOf_append]
        have hmv : s.mv o1 = s.mv i0 := by simp only [EqState.mv, hm'.1]
        rw [hmv]
        rw [hperm (.m i0.m, s.hv i0 - s.hv o1) (.h i0.h, s.mv i0) (.h o1.h, -s.mv i0) h3, hperm (.m o0.m, s.hv i1 - s.hv o0) (.h i1.h, s.mv o0) (.h o0.h, -s.mv o0) h4]
        rfl
    · have hm' : DistinctM [i0, i1, o0, o1] := by
        rcases hm with ⟨h, -⟩ | h
        · exact absurd h hs
        · exact h
      simp only [drumEnergy, if_neg hs, drumEnergyD]
      exact C50_node_energy s hc [i0, i1] [o0, o1] hm' hh
  · intro hs
    have hm' : DistinctM [i0, i1, o0, o1] := by
      rcases hm with ⟨h, -⟩ | h
      · exact absurd h hs
      · exact h
    simp only [drumMass, if_neg hs, drumMassD]
    exact C50_node_mass s hc [i0, i1] [o0, o1] hm'

/-! ## C50: pressure ratio and pressure drop -/

/-- C50 (pressure ratio): correct for the parameter `pr` and for specified pressure ratios.
Full statement: also for variable `pr1`, `pr2`; there an error is raised, see
`C50_pressure_ratio_error`. -/
theorem C50_pressure_ratio_partial (s : EqState ℝ) (hc : Spec.ColsInjective s) (pr : String)
    (i : Port) (outl : List Port) (n : ℕ) (o : Port) (ho : outl[n]? = some o) (hp : i.p ≠ o.p)
    (hpr : pr = "pr" ∨ s.isVar (.par pr) = false) :
    ∃ w, (∀ k, prDeriv s pr (pr = "pr") i outl n k = .ok (w s k)) ∧
      Spec.IsJacobian (fun s => [prFunc s pr i o]) w s := by
  refine ⟨fun s k => wr s k (.p i.p) (s.val (.par pr)) ++ wr s k (.p o.p) (-1)
    ++ wr s k (.par pr) (s.pv i), ?_, ?_⟩
  · intro k
    unfold prDeriv
    rw [ho]
    rcases hpr with rfl | hpr
    · by_cases hv : s.isVar (.par "pr") = true
      · simp [hv, wr]
      · simp [hv, wr]
    · simp [hpr, wr]
  · refine isJacobian_of_row s hc _ _ ([(.p i.p, s.val (.par pr)), (.p o.p, -1)]
      ++ [(.par pr, s.pv i)]) ?_ ?_
    · intro k
      simp only [wrs_append, wrs_two, wrs_one]
    · refine RowOK.congr ((RowOK.mul s (.p i.p) (.par pr) (by simp)).add (RowOK.negVal s (.p o.p)) ?_)
        (fun v _ t => ?_) (fun v _ => ?_)
      · intro v hv hv'
        simp only [List.map_cons, List.map_nil, List.mem_cons, List.not_mem_nil, or_false] at hv hv'
        subst hv'
        rcases hv with hv | hv
        · exact hp (p_inj hv).symm
        · cases hv
      · simp only [prFunc, EqState.pv]; rw [sub_eq_add_neg]
      · simp only [lastOf, List.foldl_cons, List.foldl_nil, List.cons_append, List.nil_append,
          EqState.pv]
        by_cases h1 : Var.p i.p = v
        · subst h1
          simp [Ne.symm hp]
        · by_cases h2 : Var.p o.p = v
          · subst h2; simp
          · simp [h1, h2]

/-- C50 is false for variable pressure ratios of components with several of them: the
calculation stops with an error. -/
theorem C50_pressure_ratio_error (s : EqState ℝ) (pr : String) (i : Port) (outl : List Port) (n : ℕ)
    (hn : n < outl.length) (hv : s.isVar (.par pr) = true) (k : ℕ) :
    prDeriv s pr false i outl n k = .error .attributeError := by
  unfold prDeriv
  rw [List.getElem?_eq_getElem hn]
  simp [hv]

/-- C50 (pressure drop) for specified pressure drops. Full statement: also for a variable
pressure drop, which is false, see `C50_pressure_drop_variable`. -/
theorem C50_pressure_drop_partial (s : EqState ℝ) (hc : Spec.ColsInjective s) (dp : String)
    (i o : Port) (hp : i.p ≠ o.p) (hv : s.isVar (.par dp) = false) :
    Spec.IsJacobian (fun s => [dpFunc s dp i o]) (fun s k => dpDeriv s i o k) s := by
  refine isJacobian_of_row s hc _ _ _ ?_
    (RowOK.congr (diff_row s (.p i.p) (.p o.p) (fun h => hp (p_inj h)) |>.add
      (RowOK.const s (-(s.val (.par dp)))) (fun v _ h => by simp at h)) (fun v hv' t => ?_)
      (fun v _ => rfl))
  · intro k
    simp only [dpDeriv, List.append_nil, wrs_two]
  · have hne : Var.par dp ≠ v := fun h => by rw [h] at hv; rw [hv] at hv'; cases hv'
    simp only [dpFunc, EqState.pv]
    rw [put_val_ne s (.par dp) v t hne, sub_eq_add_neg]

/-- C50 is false for a variable pressure drop: the column of the variable stays empty. -/
theorem C50_pressure_drop_variable (s : EqState ℝ) (hc : Spec.ColsInjective s) (dp : String)
    (i o : Port) (hv : s.isVar (.par dp) = true) :
    (∀ k r, entry (dpDeriv s i o k) r (s.col (.par dp)) = 0) ∧
    ¬ Spec.IsJacobian (fun s => [dpFunc s dp i o]) (fun s k => dpDeriv s i o k) s := by
  have hz : ∀ k r, entry (dpDeriv s i o k) r (s.col (.par dp)) = 0 := by
    intro k r
    have hw : dpDeriv s i o k = wrs s k [(.p i.p, 1), (.p o.p, -1)] := by
      simp only [dpDeriv, wrs_two]
    rw [hw]
    by_cases hr : r = k
    · subst hr
      have := entryFrom_wrs s hc r [(.p i.p, 1), (.p o.p, -1)] (.par dp) hv 0
      exact this.trans (lastOf_notMem _ _ _ (by simp))
    · exact entryFrom_other 0 _ r _ (fun e he => by rw [(wrs_mem s k _ e he).1]; exact Ne.symm hr)
  refine ⟨hz, fun h => ?_⟩
  have h1 := (h 0).2 0 (by simp) (.par dp) hv
  rw [hz] at h1
  have hfun : (fun t => ([dpFunc (s.put (.par dp) t) dp i o]).getD 0 0)
      = fun t => s.pv i - s.pv o - t := by
    funext t
    simp only [List.getD_cons_zero, dpFunc, EqState.pv, put_val_self]
    rw [put_val_ne _ _ _ _ (by simp), put_val_ne _ _ _ _ (by simp)]
  simp only [] at h1
  rw [hfun] at h1
  have := h1.unique ((hasDerivAt_id' _).const_sub _)
  norm_num at this

end Tespy
