import Verif.Props.Exergy
import Mathlib.Algebra.BigOperators.Group.List.Basic
import Mathlib.Tactic.FieldSimp

/-
C57: the exergy balance of a network closes. C58: the exergy destruction of the functional groups
adds up to that of the network.
-/
namespace Tespy
variable {K : Type} [Field K] [LinearOrder K] [IsStrictOrderedRing K]

/-! ## Specification -/

/-- a connection of the network: labels of source and target component, exergy of the stream -/
structure ExConn (K : Type) where
  source : String
  target : String
  Ex : K

/-- exergy entering a component through its connections -/
def Spec.exIn (conns : List (ExConn K)) (l : String) : K :=
  ((conns.filter fun c => c.target = l).map ExConn.Ex).sum

/-- exergy leaving a component through its connections -/
def Spec.exOut (conns : List (ExConn K)) (l : String) : K :=
  ((conns.filter fun c => c.source = l).map ExConn.Ex).sum

/-- exergy a component receives from its bus: E_bus with base `bus`, -E_bus with base
`component` -/
def Spec.received (E : K) : List (OnBus K) → K
  | [] => 0
  | b :: _ => if b.baseBus then E else -E

/-- exergy the bus itself receives from outside (base `bus`) or delivers (base `component`):
the value on the other side of the conversion -/
def Spec.external (E : K) : List (OnBus K) → K
  | [] => 0
  | b :: _ => if b.baseBus then E / b.eff else -(E * b.eff)

/-- the part of it which belongs to busses of a certain role -/
def Spec.externalOf (r : ExRole) (E : K) : List (OnBus K) → K
  | [] => 0
  | b :: bs => if b.role = r then Spec.external E (b :: bs) else 0

/-- A component is in balance: destruction (zero if not available) is exergy in minus exergy out
plus exergy received from its bus; it is on one bus at most; if it is on a bus, its chemical, physical
and massless bus exergy add up to `E`. -/
structure Spec.InBalance (conns : List (ExConn K)) (c : ExComp K) (E : K) : Prop where
  one : c.on.length ≤ 1
  bus : c.on ≠ [] → ∃ ch ph ml : K, c.res.bus = some ⟨some ch, some ph, some ml⟩ ∧ ch + ph + ml = E
  balance : c.res.ED.getD 0
    = Spec.exIn conns c.label - Spec.exOut conns c.label + Spec.received E c.on

theorem busSum_some (ch ph ml : K) : busSum (⟨some ch, some ph, some ml⟩ : EBus K) = some (ch + ph + ml) := rfl

/-! ## Every connection leaves one component and enters one -/

theorem sum_filter_label (conns : List (ExConn K)) (f : ExConn K → String) (labels : List String)
    (hn : labels.Nodup) (hm : ∀ c ∈ conns, f c ∈ labels) :
    (labels.map fun l => ((conns.filter fun c => f c = l).map ExConn.Ex).sum).sum
      = (conns.map ExConn.Ex).sum := by
  induction conns with
  | nil => simp
  | cons c conns ih =>
    have ih' := ih fun c hc => hm c (by simp [hc])
    have hc := hm c (by simp)
    have step : ∀ l, (((c :: conns).filter fun c => f c = l).map ExConn.Ex).sum
        = (if f c = l then c.Ex else 0)
          + ((conns.filter fun c => f c = l).map ExConn.Ex).sum := by
      intro l
      by_cases h : f c = l
      · rw [List.filter_cons_of_pos (by simp [h]), if_pos h, List.map_cons, List.sum_cons]
      · rw [List.filter_cons_of_neg (by simp [h]), if_neg h, zero_add]
    have hone : (labels.map fun l => if f c = l then c.Ex else 0).sum = c.Ex := by
      clear ih ih' hm step
      induction labels with
      | nil => simp at hc
      | cons l labels ihl =>
        have hn' := List.nodup_cons.1 hn
        rw [List.map_cons, List.sum_cons]
        rcases List.mem_cons.1 hc with hc | hc
        · rw [if_pos hc]
          have : (labels.map fun l => if f c = l then c.Ex else 0).sum = 0 := by
            rw [List.sum_eq_zero]
            intro x hx
            obtain ⟨l', hl', rfl⟩ := List.mem_map.1 hx
            exact if_neg fun hh => hn'.1 (by rw [← hc, hh]; exact hl')
          rw [this, add_zero]
        · have : f c ≠ l := fun hh => hn'.1 (hh ▸ hc)
          rw [if_neg this, zero_add]
          exact ihl hn'.2 hc
    simp only [step]
    rw [List.sum_map_add, hone, ih', List.map_cons, List.sum_cons]

/-! ## The loop -/

theorem colSum_getD (l : List (Option K)) : colSum l = (l.map fun x => x.getD 0).sum := by
  induction l with
  | nil => rfl
  | cons x l ih =>
    cases x with
    | none =>
      simp only [colSum, List.filterMap_cons, id, List.map_cons, List.sum_cons, Option.getD_none,
        zero_add] at ih ⊢
      exact ih
    | some v =>
      simp only [colSum, List.filterMap_cons, id, List.map_cons, List.sum_cons, Option.getD_some]
        at ih ⊢
      rw [ih]

theorem label_inj {l : List (ExComp K)} (hn : (l.map ExComp.label).Nodup) {a b : ExComp K}
    (ha : a ∈ l) (hb : b ∈ l) (h : a.label = b.label) : a = b := by
  induction l with
  | nil => simp at ha
  | cons c l ih =>
    rw [List.map_cons, List.nodup_cons] at hn
    rcases List.mem_cons.1 ha with rfl | ha' <;> rcases List.mem_cons.1 hb with rfl | hb'
    · rfl
    · exact absurd (h ▸ List.mem_map_of_mem hb') hn.1
    · exact absurd (h ▸ List.mem_map_of_mem ha') hn.1
    · exact ih hn.2 ha' hb'

theorem evalBus_ok (c : ExComp K) (E : K) (b : OnBus K) (s : ExState K) (eb : EBus K)
    (hb : c.res.bus = some eb) (hE : busSum eb = some E) (f p l : K) (hF : s.EF = some f)
    (hP : s.EP = some p) (hL : s.EL = some l) :
    ∃ row, evalBus c b s = .ok ⟨some (f + Spec.externalOf .fuel E [b]),
        some (p - Spec.externalOf .product E [b]), some (l - Spec.externalOf .loss E [b]),
        s.rows ++ [row]⟩ ∧
      row.label = c.label ∧ row.group = c.group ∧
      row.ED = some (Spec.external E [b] - Spec.received E [b]) := by
  obtain ⟨role, base, eff⟩ := b
  cases s
  simp only at hF hP hL
  subst hF hP hL
  unfold evalBus
  simp only [hb, hE]
  cases base <;> cases role <;>
    exact ⟨_, by
      simp [ndiv, nadd, nsub, Spec.externalOf, Spec.external, sub_eq_add_neg] <;> rfl, rfl, rfl,
      by simp [ExBusRow.ED, nsub, ndiv, Spec.external, Spec.received] <;> ring⟩

/-- values of the loop -/
theorem loop_ok (reserved : List String) (conns : List (ExConn K)) (E : ExComp K → K) :
    ∀ (comps : List (ExComp K)) (s : ExState K) (f p l : K),
      (∀ c ∈ comps, c.group ∉ reserved) → (∀ c ∈ comps, Spec.InBalance conns c (E c)) →
      s.EF = some f → s.EP = some p → s.EL = some l →
      ∃ rows : List (ExBusRow K), analyseLoop reserved comps s =
        .ok ⟨some (f + (comps.map fun c => Spec.externalOf .fuel (E c) c.on).sum),
          some (p - (comps.map fun c => Spec.externalOf .product (E c) c.on).sum),
          some (l - (comps.map fun c => Spec.externalOf .loss (E c) c.on).sum),
          s.rows ++ rows⟩ ∧
        colSum (rows.map ExBusRow.ED)
          = (comps.map fun c => Spec.external (E c) c.on - Spec.received (E c) c.on).sum := by
  intro comps
  induction comps with
  | nil =>
    intro s f p l _ _ hF hP hL
    refine ⟨[], ?_, by simp [colSum]⟩
    cases s
    simp only at hF hP hL
    simp [analyseLoop, hF, hP, hL]
  | cons c comps ih =>
    intro s f p l hr hb hF hP hL
    have hc := hb c (by simp)
    have hr' := fun c hc => hr c (List.mem_cons_of_mem _ hc)
    have hb' := fun c hc => hb c (List.mem_cons_of_mem _ hc)
    rw [analyseLoop, if_neg (hr c (by simp))]
    match hon : c.on with
    | [] =>
      obtain ⟨rows, h1, h2⟩ := ih s f p l hr' hb' hF hP hL
      refine ⟨rows, ?_, ?_⟩
      · simp only [evaluateBusses, hon]
        rw [h1]
        simp only [List.map_cons, List.sum_cons, hon, Spec.externalOf, zero_add]
      · simp only [List.map_cons, List.sum_cons, hon, Spec.external, Spec.received, sub_self,
          zero_add]
        exact h2
    | [b] =>
      obtain ⟨ch, ph, ml, hbus, hE'⟩ := hc.bus (by simp [hon])
      have hE := busSum_some ch ph ml
      rw [hE'] at hE
      obtain ⟨row, h1, _, _, hED⟩ := evalBus_ok c (E c) b s _ hbus hE f p l hF hP hL
      obtain ⟨rows, h3, h4⟩ := ih ⟨_, _, _, _⟩ _ _ _ hr' hb' rfl rfl rfl
      refine ⟨row :: rows, ?_, ?_⟩
      · simp only [evaluateBusses, hon]
        rw [h1]
        simp only
        rw [h3]
        simp only [List.map_cons, List.sum_cons, hon, List.append_assoc, List.singleton_append]
        congr 2 <;> ring_nf
      · simp only [List.map_cons, List.sum_cons, hon, colSum_getD, hED, Option.getD_some]
        rw [colSum_getD] at h4
        rw [h4]
    | b :: b' :: bs =>
      have := hc.one
      rw [hon] at this
      simp at this

/-- **C57.** In a network of any size, let every connection leave one of its components and enter
one, every component be in exergy balance and be on one of the busses at most, and let the internal
busses be in balance. Then fuel exergy minus product exergy minus losses is the exergy destruction
of components and busses; if fuel and product exergy have the right sign, the reported residual is
zero. -/
theorem C57_balance_closes (reserved : List String) (comps : List (ExComp K))
    (conns : List (ExConn K)) (E : ExComp K → K)
    (hlabels : (comps.map ExComp.label).Nodup) (hres : ∀ c ∈ comps, c.group ∉ reserved)
    (hconn : ∀ c ∈ conns, c.source ∈ comps.map ExComp.label ∧ c.target ∈ comps.map ExComp.label)
    (hbal : ∀ c ∈ comps, Spec.InBalance conns c (E c))
    (hint : (comps.map fun c => Spec.externalOf .internal (E c) c.on).sum = 0) :
    ∃ EF EP EL ED rows,
      EF = (comps.map fun c => Spec.externalOf .fuel (E c) c.on).sum ∧
      EP = -(comps.map fun c => Spec.externalOf .product (E c) c.on).sum ∧
      EL = -(comps.map fun c => Spec.externalOf .loss (E c) c.on).sum ∧
      EF - EP - EL = ED ∧
      analyse reserved comps = .ok (⟨some |EF|, some |EP|, ED, some EL⟩, rows) ∧
      (0 ≤ EF → 0 ≤ EP → ∃ r, analyse reserved comps = .ok (r, rows) ∧ exResidual r = some 0) := by
  obtain ⟨rows, h1, h2⟩ := loop_ok reserved conns E comps ⟨some 0, some 0, some 0, []⟩ 0 0 0 hres
    hbal rfl rfl rfl
  set EF := (comps.map fun c => Spec.externalOf .fuel (E c) c.on).sum with hEF
  set EP := (comps.map fun c => Spec.externalOf .product (E c) c.on).sum with hEP
  set EL := (comps.map fun c => Spec.externalOf .loss (E c) c.on).sum with hEL
  have hdest : colSum (comps.map fun c => c.res.ED)
      = (comps.map fun c => Spec.received (E c) c.on).sum := by
    rw [colSum_getD, List.map_map]
    have e1 : (comps.map ((fun x : Option K => x.getD 0) ∘ fun c => c.res.ED))
        = comps.map fun c => (Spec.exIn conns c.label - Spec.exOut conns c.label)
          + Spec.received (E c) c.on :=
      List.map_congr_left fun c hc => (hbal c hc).balance
    have s1 := sum_filter_label conns ExConn.target (comps.map ExComp.label) hlabels
      fun c hc => (hconn c hc).2
    have s2 := sum_filter_label conns ExConn.source (comps.map ExComp.label) hlabels
      fun c hc => (hconn c hc).1
    rw [List.map_map] at s1 s2
    have e2 : (comps.map fun c => Spec.exIn conns c.label - Spec.exOut conns c.label).sum = 0 := by
      have : (comps.map fun c => Spec.exIn conns c.label - Spec.exOut conns c.label).sum
          = (comps.map fun c => Spec.exIn conns c.label).sum
            - (comps.map fun c => Spec.exOut conns c.label).sum := by
        clear hlabels hres hconn hbal hint h1 h2 e1 s1 s2 hEF hEP hEL EF EP EL
        induction comps with
        | nil => simp
        | cons c l ih => simp only [List.map_cons, List.sum_cons, ih]; ring
      rw [this, sub_eq_zero]
      exact s1.trans s2.symm
    rw [e1, List.sum_map_add, e2, zero_add]
  have hroles : (comps.map fun c => Spec.external (E c) c.on).sum = EF + EP + EL := by
    have : ∀ c : ExComp K, Spec.external (E c) c.on = Spec.externalOf .fuel (E c) c.on
        + Spec.externalOf .product (E c) c.on + Spec.externalOf .loss (E c) c.on
        + Spec.externalOf .internal (E c) c.on := by
      intro c
      match c.on with
      | [] => simp [Spec.external, Spec.externalOf]
      | ⟨role, _, _⟩ :: _ => cases role <;> simp [Spec.externalOf]
    simp only [this]
    rw [List.sum_map_add, List.sum_map_add, List.sum_map_add, hint, add_zero]
  have hrows : colSum (rows.map ExBusRow.ED)
      = EF + EP + EL - (comps.map fun c => Spec.received (E c) c.on).sum := by
    rw [h2, ← hroles]
    clear hlabels hres hconn hbal hint h1 h2 hEF hEP hEL hdest hroles EF EP EL
    induction comps with
    | nil => simp
    | cons c l ih => simp only [List.map_cons, List.sum_cons, ih]; ring
  have hana : analyse reserved comps
      = .ok (⟨some |EF|, some |-EP|, EF + EP + EL, some (-EL)⟩, rows) := by
    simp only [analyse, h1]
    rw [hdest]
    simp only [List.nil_append, hrows, Option.map_some, zero_add, zero_sub]
    congr 3
    ring
  refine ⟨EF, -EP, -EL, EF + EP + EL, rows, rfl, rfl, rfl, by ring, hana, fun hF hP => ?_⟩
  refine ⟨_, hana, ?_⟩
  simp only [exResidual, nsub, Option.map_some]
  rw [abs_of_nonneg hF, abs_of_nonneg hP]
  congr 1
  have : EF - -EP - (EF + EP + EL) - -EL = 0 := by ring
  rw [this, abs_zero]

/-! ## Groups -/

theorem sum_group (l : List (ExComp K)) (g : ExComp K → K) (groups : List String)
    (hn : groups.Nodup) (hm : ∀ c ∈ l, c.group ∈ groups) :
    (groups.map fun x => ((l.filter fun c => c.group = x).map g).sum).sum = (l.map g).sum := by
  induction l with
  | nil => simp
  | cons c l ih =>
    have ih' := ih fun c hc => hm c (by simp [hc])
    have hc := hm c (by simp)
    have step : ∀ x, (((c :: l).filter fun c => c.group = x).map g).sum
        = (if c.group = x then g c else 0) + ((l.filter fun c => c.group = x).map g).sum := by
      intro x
      by_cases h : c.group = x
      · rw [List.filter_cons_of_pos (by simp [h]), if_pos h, List.map_cons, List.sum_cons]
      · rw [List.filter_cons_of_neg (by simp [h]), if_neg h, zero_add]
    have hone : (groups.map fun x => if c.group = x then g c else 0).sum = g c := by
      clear ih ih' hm step
      induction groups with
      | nil => simp at hc
      | cons x groups ihl =>
        have hn' := List.nodup_cons.1 hn
        rw [List.map_cons, List.sum_cons]
        rcases List.mem_cons.1 hc with hc | hc
        · rw [if_pos hc]
          have : (groups.map fun x => if c.group = x then g c else 0).sum = 0 := by
            rw [List.sum_eq_zero]
            intro y hy
            obtain ⟨x', hx', rfl⟩ := List.mem_map.1 hy
            exact if_neg fun hh => hn'.1 (by rw [← hc, hh]; exact hx')
          rw [this, add_zero]
        · have : c.group ≠ x := fun hh => hn'.1 (hh ▸ hc)
          rw [if_neg this, zero_add]
          exact ihl hn'.2 hc
    simp only [step]
    rw [List.sum_map_add, hone, ih', List.map_cons, List.sum_cons]

/-- rows of `bus_data`: one per component on a bus, with its label and a destruction -/
theorem loop_rows (reserved : List String) :
    ∀ (comps : List (ExComp K)) (s s' : ExState K),
      analyseLoop reserved comps s = .ok s' →
      ∃ rows, s'.rows = s.rows ++ rows ∧ rows.map ExBusRow.label
        = (comps.filter fun c => decide (c.on ≠ [])).map ExComp.label := by
  intro comps
  induction comps with
  | nil =>
    intro s s' h
    simp only [analyseLoop, Except.ok.injEq] at h
    exact ⟨[], by rw [h]; simp, by simp⟩
  | cons c comps ih =>
    intro s s' h
    rw [analyseLoop] at h
    split at h
    · cases h
    · split at h
      · cases h
      · rename_i s1 h1
        obtain ⟨rows, hr1, hr2⟩ := ih s1 s' h
        match hon : c.on with
        | [] =>
          simp only [evaluateBusses, hon, Except.ok.injEq] at h1
          subst h1
          refine ⟨rows, hr1, ?_⟩
          rw [List.filter_cons_of_neg (by simp [hon])]
          exact hr2
        | [b] =>
          simp only [evaluateBusses, hon] at h1
          have : ∃ row : ExBusRow K, s1.rows = s.rows ++ [row] ∧ row.label = c.label := by
            unfold evalBus at h1
            split at h1
            · cases h1
            · obtain ⟨role, base, eff⟩ := b
              cases base <;> cases role <;>
                · simp only [Bool.false_eq_true, if_true, if_false, Except.ok.injEq] at h1
                  subst h1
                  exact ⟨_, rfl, rfl⟩
          obtain ⟨row, hrow, hl⟩ := this
          refine ⟨row :: rows, ?_, ?_⟩
          · rw [hr1, hrow]; simp
          · rw [List.filter_cons_of_pos (by simp [hon])]
            simp [hl, hr2]
        | b :: b' :: bs =>
          simp only [evaluateBusses, hon] at h1
          split at h1 <;> cases h1

theorem find_zip (rows : List (ExBusRow K)) (cs : List (ExComp K))
    (h : rows.map ExBusRow.label = cs.map ExComp.label) (hn : (cs.map ExComp.label).Nodup) :
    (cs.map fun c => ((rows.find? fun r => r.label = c.label).bind ExBusRow.ED).getD 0).sum
      = colSum (rows.map ExBusRow.ED) := by
  induction cs generalizing rows with
  | nil =>
    have : rows = [] := by simpa using h
    subst this
    rfl
  | cons c cs ih =>
    match rows, h with
    | r :: rows, h =>
      simp only [List.map_cons, List.cons.injEq] at h
      have hn' := List.nodup_cons.1 hn
      have ih' := ih rows h.2 hn'.2
      simp only [List.map_cons, List.sum_cons]
      rw [List.find?_cons_of_pos (by simp [h.1])]
      have e : (cs.map fun c' => (((r :: rows).find? fun r => r.label = c'.label).bind
          ExBusRow.ED).getD 0) = cs.map fun c' => ((rows.find? fun r => r.label = c'.label).bind
          ExBusRow.ED).getD 0 := by
        refine List.map_congr_left fun c' hc' => ?_
        rw [List.find?_cons_of_neg]
        simp only [decide_eq_true_eq]
        rw [h.1]
        intro hh
        exact hn'.1 (hh ▸ List.mem_map_of_mem (f := ExComp.label) hc')
      rw [e, ih', colSum_getD, colSum_getD]
      simp

/-- **C58, partial.** If every component on a bus has an exergy destruction of its own, the exergy
destruction of the functional groups adds up to the exergy destruction of the network. -/
theorem C58_groups_partial (reserved : List String) (comps : List (ExComp K)) (r : ExNetRes K)
    (rows : List (ExBusRow K)) (groups : List String) (h : analyse reserved comps = .ok (r, rows))
    (hlabels : (comps.map ExComp.label).Nodup) (hg : groups.Nodup)
    (hgm : ∀ c ∈ comps, c.group ∈ groups)
    (hED : ∀ c ∈ comps, c.on ≠ [] → (c.res.ED).isSome ∧
      ∃ ch ph ml : K, c.res.bus = some ⟨some ch, some ph, some ml⟩) :
    (groups.map (groupED rows comps)).sum = r.ED := by
  unfold analyse at h
  split at h
  · cases h
  · rename_i s hs
    simp only [Except.ok.injEq, Prod.mk.injEq] at h
    obtain ⟨hr, hrows⟩ := h
    obtain ⟨rows', hr1, hr2⟩ := loop_rows reserved comps _ _ hs
    simp only [List.nil_append] at hr1
    rw [hrows] at hr1
    subst hr1
    -- all rows have a destruction
    have hsome : ∀ q ∈ rows, q.ED.isSome := by
      have aux : ∀ (cs : List (ExComp K)) (s s' : ExState K),
          (∀ c ∈ cs, c.on ≠ [] → ∃ ch ph ml : K, c.res.bus = some ⟨some ch, some ph, some ml⟩) →
          (∀ q ∈ s.rows, q.ED.isSome) → analyseLoop reserved cs s = .ok s' →
          ∀ q ∈ s'.rows, q.ED.isSome := by
        intro cs
        induction cs with
        | nil =>
          intro s s' _ h1 h2
          simp only [analyseLoop, Except.ok.injEq] at h2
          subst h2
          exact h1
        | cons c cs ih =>
          intro s s' hb h1 h2
          rw [analyseLoop] at h2
          split at h2
          · cases h2
          · split at h2
            · cases h2
            · rename_i s1 h3
              refine ih s1 s' (fun c hc => hb c (by simp [hc])) ?_ h2
              match hon : c.on with
              | [] =>
                simp only [evaluateBusses, hon, Except.ok.injEq] at h3
                subst h3
                exact h1
              | [b] =>
                simp only [evaluateBusses, hon] at h3
                obtain ⟨ch, ph, ml, he1⟩ := hb c (by simp) (by simp [hon])
                have hE := busSum_some ch ph ml
                unfold evalBus at h3
                simp only [he1, hE] at h3
                obtain ⟨role, base, eff⟩ := b
                intro q hq
                cases base <;> cases role <;>
                  · simp only [Bool.false_eq_true, if_true, if_false, Except.ok.injEq] at h3
                    subst h3
                    rcases List.mem_append.1 hq with hq | hq
                    · exact h1 q hq
                    · simp only [List.mem_singleton] at hq
                      subst hq
                      rfl
              | b :: b' :: bs =>
                simp only [evaluateBusses, hon] at h3
                split at h3 <;> cases h3
      rw [← hrows]
      exact aux comps _ _ (fun c hc h => (hED c hc h).2) (by simp) hs
    have hfindlabel : ∀ c q, rows.find? (fun r => r.label = c) = some q → q ∈ rows :=
      fun c q hq => List.mem_of_find?_eq_some hq
    -- aggregated destruction of one component
    have hagg : ∀ c ∈ comps, (aggED rows c).getD 0 = c.res.ED.getD 0
        + ((rows.find? fun r => r.label = c.label).bind ExBusRow.ED).getD 0 := by
      intro c hc
      unfold aggED
      cases hf : rows.find? fun r => r.label = c.label with
      | none => simp
      | some q =>
        have hq := hsome q (hfindlabel _ _ hf)
        obtain ⟨x, hx⟩ := Option.isSome_iff_exists.1 hq
        have hqm : q.label ∈ rows.map ExBusRow.label := List.mem_map_of_mem (hfindlabel _ _ hf)
        rw [hr2] at hqm
        have hql : q.label = c.label := by simpa using List.find?_some hf
        obtain ⟨c', hc', hcl⟩ := List.mem_map.1 hqm
        have hcc : c' = c := by
          exact label_inj hlabels (List.mem_of_mem_filter hc') hc (hcl.trans hql)
        subst hcc
        have hon : c'.on ≠ [] := by simpa using (List.mem_filter.1 hc').2
        obtain ⟨y, hy⟩ := Option.isSome_iff_exists.1 (hED c' hc hon).1
        simp [hx, hy, nadd]
    have hgroup : ∀ g, groupED rows comps g
        = ((comps.filter fun c => c.group = g).map fun c => (aggED rows c).getD 0).sum := by
      intro g
      rw [groupED, colSum_getD, List.map_map]
      rfl
    have hmap : groups.map (groupED rows comps) = groups.map fun g =>
        ((comps.filter fun c => c.group = g).map fun c => (aggED rows c).getD 0).sum :=
      List.map_congr_left fun g _ => hgroup g
    rw [hmap, sum_group comps (fun c => (aggED rows c).getD 0) groups hg hgm,
      List.map_congr_left hagg, List.sum_map_add, ← hr, hrows]
    simp only
    rw [colSum_getD, List.map_map]
    congr 1
    have hfz := find_zip rows (comps.filter fun c => decide (c.on ≠ [])) hr2
      (List.Nodup.sublist (List.Sublist.map _ List.filter_sublist) hlabels)
    rw [← hfz]
    -- components without bus have no row
    have hno : ∀ c ∈ comps, c.on = [] → rows.find? (fun r => r.label = c.label) = none := by
      intro c hc hon
      rw [List.find?_eq_none]
      intro q hq
      simp only [decide_eq_true_eq]
      intro hql
      have hqm : q.label ∈ rows.map ExBusRow.label := List.mem_map_of_mem hq
      rw [hr2] at hqm
      obtain ⟨c', hc', hcl⟩ := List.mem_map.1 hqm
      have h1 := label_inj hlabels (List.mem_of_mem_filter hc') hc (hcl.trans hql)
      subst h1
      exact absurd hon (by simpa using (List.mem_filter.1 hc').2)
    have gen : ∀ (cs : List (ExComp K)),
        (∀ c ∈ cs, c.on = [] → rows.find? (fun r => r.label = c.label) = none) →
        (cs.map fun c => ((rows.find? fun r => r.label = c.label).bind ExBusRow.ED).getD 0).sum
        = ((cs.filter fun c => decide (c.on ≠ [])).map fun c =>
          ((rows.find? fun r => r.label = c.label).bind ExBusRow.ED).getD 0).sum := by
      intro cs
      induction cs with
      | nil => intro _; rfl
      | cons c cs ih =>
        intro hh
        have ih' := ih fun c hc => hh c (by simp [hc])
        by_cases hon : c.on = []
        · rw [List.filter_cons_of_neg (by simp [hon]), List.map_cons, List.sum_cons,
            hh c (by simp) hon, ih']
          simp
        · rw [List.filter_cons_of_pos (by simp [hon]), List.map_cons, List.sum_cons,
            List.map_cons, List.sum_cons, ih']
    exact gen comps hno

/-! ## A turbine with a generator -/

def enIn : ExStream ℚ := ⟨400, 2, 1000, 2, 300, 150, 0⟩
def enOut : ExStream ℚ := ⟨350, 2, 700, 7 / 4, 150, 75, 0⟩

/-- source - turbine - sink; the source is the fuel, the power the product (generator efficiency
9/10) and the outlet is lost -/
def enComps : List (ExComp ℚ) :=
  [⟨"source", "source", sourceExergy enIn, [⟨.fuel, true, 1⟩]⟩,
    ⟨"turbine", "turbine", turbineExergy 300 (-400) enIn enOut, [⟨.product, false, 9 / 10⟩]⟩,
    ⟨"sink", "sink", sinkExergy enOut, [⟨.loss, false, 1⟩]⟩]

def enConns : List (ExConn ℚ) := [⟨"source", "turbine", 900⟩, ⟨"turbine", "sink", 450⟩]

def enE (c : ExComp ℚ) : ℚ :=
  if c.label = "source" then 900 else if c.label = "turbine" then 400 else 450

/- the hypotheses of C57 -/
example : (∀ c ∈ enComps, Spec.InBalance enConns c (enE c)) ∧
    (enComps.map fun c => Spec.externalOf .internal (enE c) c.on).sum = 0 ∧
    (∀ c ∈ enConns, c.source ∈ enComps.map ExComp.label ∧
      c.target ∈ enComps.map ExComp.label) := by
  refine ⟨?_, by decide +kernel, by decide +kernel⟩
  intro c hc
  simp only [enComps, List.mem_cons, List.not_mem_nil, or_false] at hc
  rcases hc with rfl | rfl | rfl
  · exact ⟨by simp, fun _ => ⟨_, _, _, rfl, by decide +kernel⟩, by decide +kernel⟩
  · exact ⟨by simp, fun _ => ⟨_, _, _, rfl, by decide +kernel⟩, by decide +kernel⟩
  · exact ⟨by simp, fun _ => ⟨_, _, _, rfl, by decide +kernel⟩, by decide +kernel⟩
/- fuel 900, product 360, loss 450, destruction 50 in the turbine and 40 in the generator -/
example : (analyse [] enComps).toOption.map Prod.fst
    = some ⟨some 900, some 360, 90, some 450⟩ := by decide +kernel

/-- **C57: the sign matters.** If a product bus takes up more exergy than it delivers, its absolute
value is reported and the balance of the reported values does not close. -/
theorem C57_sign : ∃ (comps : List (ExComp ℚ)) (conns : List (ExConn ℚ)) (E : ExComp ℚ → ℚ)
    (r : ExNetRes ℚ) (rows : List (ExBusRow ℚ)),
    (∀ c ∈ comps, Spec.InBalance conns c (E c)) ∧ analyse [] comps = .ok (r, rows) ∧
      exResidual r = some 100 := by
  refine ⟨[⟨"a", "a", sourceExergy ⟨300, 1, 0, 0, 50, 0, 0⟩, [⟨.product, true, 1⟩]⟩,
    ⟨"b", "b", sinkExergy ⟨300, 1, 0, 0, 50, 0, 0⟩, [⟨.loss, false, 1⟩]⟩], [⟨"a", "b", 50⟩],
    fun _ => 50, ⟨some 0, some 50, 0, some 50⟩, [⟨"a", "a", some 50, some 50, true⟩,
      ⟨"b", "b", some 50, some 50, false⟩], ?_, by decide +kernel, by decide +kernel⟩
  intro c hc
  simp only [List.mem_cons, List.not_mem_nil, or_false] at hc
  rcases hc with rfl | rfl
  · exact ⟨by simp, fun _ => ⟨_, _, _, rfl, by decide +kernel⟩, by decide +kernel⟩
  · exact ⟨by simp, fun _ => ⟨_, _, _, rfl, by decide +kernel⟩, by decide +kernel⟩

/- hypotheses of C58: turbine alone on a bus, with a destruction -/
example : ((turbineExergy 300 (-400) enIn enOut).ED).isSome = true ∧
    (turbineExergy 300 (-400) enIn enOut).bus = some ⟨some 0, some 0, some 400⟩ := by decide +kernel

/-- **C58 is false.** The destruction of a bus with losses at a source (or sink) is part of the
destruction of the network but of no functional group: sources have no destruction of their own,
and the sum with it is not available. -/
theorem C58_groups_false : ∃ (comps : List (ExComp ℚ)) (r : ExNetRes ℚ) (rows : List (ExBusRow ℚ)),
    analyse [] comps = .ok (r, rows) ∧ r.ED = 1000 ∧
      (["source", "sink"].map (groupED rows comps)).sum = 0 := by
  refine ⟨[⟨"source", "source", sourceExergy enIn, [⟨.fuel, true, 9 / 19⟩]⟩,
    ⟨"sink", "sink", sinkExergy enIn, [⟨.product, false, 1⟩]⟩],
    ⟨some 1900, some 900, 1000, some 0⟩, [⟨"source", "source", some 1900, some 900, true⟩,
      ⟨"sink", "sink", some 900, some 900, false⟩], ?_, ?_, ?_⟩
  all_goals decide +kernel

/-- **C57, E_bus of combustion chambers and electrolyzers.** Components whose exergy balance does not
provide a dictionary abort the analysis if they are on one of its busses. -/
theorem C57_no_bus_dictionary (c : ExComp K) (b : OnBus K) (bs : List (OnBus K))
    (hon : c.on = b :: bs) (hbus : c.res.bus = none) (reserved : List String)
    (hg : c.group ∉ reserved) (comps : List (ExComp K)) (s : ExState K) :
    analyseLoop reserved (c :: comps) s = .error .attributeError := by
  have h : evalBus c b s = .error .attributeError := by unfold evalBus; rw [hbus]
  rw [analyseLoop, if_neg hg]
  cases bs with
  | nil => simp only [evaluateBusses, hon, h]
  | cons => simp only [evaluateBusses, hon, h]

example : (combustionExergy false enIn enOut enOut).bus = none ∧
    (electrolyzerExergy 1 enIn enIn enIn enIn enIn).bus = none := by decide +kernel

end Tespy
