import Verif.Props.NetworkAttr
import Verif.Lemmas.DictLemmas
import Verif.Model.Export
/-
C45: exporting and loading a network keeps the specification.
-/
namespace Tespy
open Tespy.Spec

/-! ### units and ranges -/

theorem applyUnits_ok (kw : FluidProp → Option String)
    (h : ∀ p u, kw p = some u → (siMeaning p u).isSome) (ps : List FluidProp) (s : NetAttr) :
    (applyUnits kw ps s).2 = none := by
  induction ps generalizing s with
  | nil => rfl
  | cons p ps ih =>
    unfold applyUnits
    cases hk : kw p with
    | none => exact ih s
    | some u =>
      simp only
      rw [if_pos ((table_isSome_iff p u).2 (h p u hk))]
      exact ih _

theorem listToSI_ok (p : FluidProp) (u : String) (l si : List ℚ)
    (h : List.Forall₂ (fun v s => convertToSI p v u = .ok s) l si) : listToSI p u l = .ok si := by
  induction h with
  | nil => rfl
  | cons h1 _ ih => simp [listToSI, h1, ih, bind, Except.bind]

theorem applyRanges_ok (kw : RangeProp → Option RangeArg) (ps : List RangeProp) (s : NetAttr)
    (h : ∀ r a, kw r = some a → ∃ l si, a = .list l ∧ 2 ≤ si.length ∧
      List.Forall₂ (fun v x => convertToSI r.prop v (s.unit r.prop) = .ok x) l si) :
    (applyRanges kw ps s).2 = none := by
  induction ps generalizing s with
  | nil => rfl
  | cons p ps ih =>
    unfold applyRanges
    cases hk : kw p with
    | none => exact ih s h
    | some a =>
      obtain ⟨l, si, rfl, hlen, hf⟩ := h p a hk
      simp only
      rw [listToSI_ok _ _ _ _ hf]
      simp only
      rw [if_neg (by omega)]
      exact ih _ h

theorem updateRanges_ok (ps : List RangeProp) (s : NetAttr) (hs : s.UnitsListed) :
    (updateRanges ps s).2 = none ∧ (updateRanges ps s).1.iterinfo = s.iterinfo := by
  induction ps generalizing s with
  | nil => exact ⟨rfl, rfl⟩
  | cons p ps ih =>
    unfold updateRanges
    obtain ⟨r, hr, _⟩ := listFromSI_spec p.prop (s.unit p.prop) (hs _) (s.rangeSI p)
    rw [hr]
    exact ih _ hs

theorem forall₂_fun {α β : Type} {f : α → Except PyErr β} {l : List α} {a b : List β}
    (h1 : List.Forall₂ (fun v s => f v = .ok s) l a) (h2 : List.Forall₂ (fun v s => f v = .ok s) l b) :
    a = b := by
  induction h1 generalizing b with
  | nil => cases h2; rfl
  | cons h _ ih =>
    cases h2 with
    | cons h' ht => rw [ih ht]; rw [h] at h'; rw [Except.ok.inj h']

/-- C45, network.json: for every history of `set_attr` calls (the last one successful, ranges with
two values), loading the exported network succeeds and gives the same bounds in SI units, the same
displayed ranges and the same units, apart from the units of specific volume and of the temperature
difference to boiling point, which are the defaults again, like `iterinfo`. -/
theorem C45_network_partial (calls : List NetKwargs) (kw : NetKwargs) (s : NetAttr)
    (hs : (NetAttr.defaults.run calls).setAttr kw = (s, none))
    (hlen : ∀ r, 2 ≤ (s.rangeSI r).length) :
    ∃ s', netLoad (netExport s) = .ok s' ∧ s'.rangeSI = s.rangeSI ∧ s'.range = s.range ∧
      (∀ p, p ≠ .vol → p ≠ .Td_bp → s'.unit p = s.unit p) ∧
      s'.unit .vol = siUnit .vol ∧ s'.unit .Td_bp = siUnit .Td_bp ∧ s'.iterinfo = .bool true := by
  have hrun : NetAttr.run NetAttr.defaults (calls ++ [kw]) = s := by
    have : ∀ (a : NetAttr) l, a.run (l ++ [kw]) = ((a.run l).setAttr kw).1 := by
      intro a l
      induction l generalizing a with
      | nil => rfl
      | cons k l ih => exact ih _
    rw [this, hs]
  have hl : s.UnitsListed := hrun ▸ run_listed _ defaults_listed (calls ++ [kw])
  have hm : s.RangesMean := by
    have := (C03_ranges_consistent calls kw (by rw [hs])).1
    rw [hs] at this; exact this
  have hu := applyUnits_ok (netExport s).unit (by
    intro p u h
    have : u = s.unit p := by cases p <;> simp [netExport] at h <;> exact h.symm
    rw [this]; exact hl p) fpdKeys NetAttr.defaults
  obtain ⟨u1, u2, u3, u4, u5⟩ := applyUnits_spec (netExport s).unit fpdKeys _ defaults_listed
  obtain ⟨_, u6⟩ := u5 hu
  have hunit : ∀ r : RangeProp, (applyUnits (netExport s).unit fpdKeys NetAttr.defaults).1.unit r.prop
      = s.unit r.prop := by
    intro r
    rw [u6]; cases r <;> rfl
  generalize hs1 : applyUnits (netExport s).unit fpdKeys NetAttr.defaults = a1 at *
  obtain ⟨s1, e1⟩ := a1
  simp only at hu u1 u2 u3 u4 u6 hunit
  subst hu
  have hr := applyRanges_ok (netExport s).range [.m, .p, .h] s1 (by
    intro r a h
    refine ⟨s.range r, s.rangeSI r, ?_, hlen r, ?_⟩
    · simp [netExport] at h; exact h.symm
    · rw [hunit]; exact hm r)
  obtain ⟨r1, r2, r3, _, _⟩ := applyRanges_spec (netExport s).range [.m, .p, .h] s1
  generalize hs2 : applyRanges (netExport s).range [.m, .p, .h] s1 = a2 at *
  obtain ⟨s2, e2⟩ := a2
  simp only at hr r1 r2 r3
  subst hr
  have hl2 : s2.UnitsListed := by intro p; rw [r1]; exact u1 p
  obtain ⟨v1, v2⟩ := updateRanges_ok [.m, .p, .h] s2 hl2
  generalize hs3 : updateRanges [.m, .p, .h] s2 = a3 at *
  obtain ⟨s3, e3⟩ := a3
  simp only at v1 v2
  subst v1
  have hit : s3.iterinfo = .bool true := by rw [v2, r3, u4]; rfl
  have hfin : NetAttr.defaults.setAttr (netExport s) = (s3, none) := by
    unfold NetAttr.setAttr
    rw [hs1]; simp only
    rw [hs2]; simp only
    rw [hs3]; simp only
    unfold applyIterinfo
    simp only [netExport, Option.getD_none, hit]
    rw [← hit]
  have hload : netLoad (netExport s) = .ok s3 := by
    unfold netLoad NetAttr.init; rw [hfin]
  have hC := C03_range_as_given [] (netExport s) (by
    show (NetAttr.defaults.setAttr (netExport s)).2 = none
    rw [hfin])
  have hC' := C03_ranges_consistent [] (netExport s) (by
    show (NetAttr.defaults.setAttr (netExport s)).2 = none
    rw [hfin])
  change (∀ r l, _ → (NetAttr.defaults.setAttr (netExport s)).1.range r = l) ∧
    (∀ r, _ → _) ∧ (∀ p, (NetAttr.defaults.setAttr (netExport s)).1.unit p = _) at hC
  change (NetAttr.defaults.setAttr (netExport s)).1.RangesMean ∧ _ at hC'
  rw [hfin] at hC hC'
  simp only at hC hC'
  have hrange : ∀ r, s3.range r = s.range r := fun r => hC.1 r _ rfl
  have hsu : ∀ p, p ≠ .vol → p ≠ .Td_bp → s3.unit p = s.unit p := by
    intro p h1 h2
    rw [hC.2.2 p]
    cases p <;> first | rfl | exact absurd rfl h1 | exact absurd rfl h2
  refine ⟨s3, hload, ?_, funext hrange, hsu, hC.2.2 .vol, hC.2.2 .Td_bp, hit⟩
  funext r
  have e1 := hC'.1 r
  have e2 := hm r
  rw [hrange, hsu _ (by cases r <;> simp [RangeProp.prop]) (by cases r <;> simp [RangeProp.prop])] at e1
  exact forall₂_fun e1 e2

/-- The hypotheses are met by a network with units and a range. -/
example : ∃ s, (NetAttr.defaults.run [{}]).setAttr
    { unit := fun | .m => some "t / h" | _ => none, range := fun | .m => some (.list [0, 360]) | _ => none }
      = (s, none) ∧ (∀ r, 2 ≤ (s.rangeSI r).length) ∧ s.rangeSI .m = [0, 100] := by
  refine ⟨_, rfl, ?_, ?_⟩
  · intro r; cases r <;> decide +kernel
  · decide +kernel

/-- C45 fails for the unit of specific volume: a network with litres per kilogram is loaded with
cubic metres. -/
theorem C45_vol_unit_false : ∃ s s' : NetAttr,
    NetAttr.init { unit := fun | .vol => some "l / kg" | _ => none } = (s, none) ∧
    s.unit .vol = "l / kg" ∧ netLoad (netExport s) = .ok s' ∧ s'.unit .vol = "m3 / kg" :=
  ⟨_, _, rfl, rfl, rfl, rfl⟩

/-! ### connections -/

variable {K : Type}

/-- The engine used for a fluid: CoolProp, if the user did not choose one. -/
def Spec.engineOf (f : CFluid K) (n : String) : DVal K :=
  (Dict.get? f.engine n).getD (.obj "CoolPropWrapper")
/-- The back end used for a fluid. -/
def Spec.backEndOf (f : CFluid K) (n : String) : Option String := (Dict.get? f.backEnd n).getD none

/-- Two connections with the same specification. -/
structure Spec.SameConn (e e' : EConn K) : Prop where
  source : e'.source = e.source ∧ e'.sourceId = e.sourceId
  target : e'.target = e.target ∧ e'.targetId = e.targetId
  /-- value, starting value, flag, SI value and unit of every property -/
  prop : ∀ p, (e'.c.prop p).val = (e.c.prop p).val ∧ (e'.c.prop p).val0 = (e.c.prop p).val0 ∧
    (e'.c.prop p).isSet = (e.c.prop p).isSet ∧ e'.SI p = e.SI p ∧ e'.unit p = e.unit p
  /-- composition with the specified fluids, engines and back ends -/
  fluid : e'.c.fluid.val = e.c.fluid.val ∧ e'.c.fluid.isSet = e.c.fluid.isSet
  engine : ∀ n, engineOf e'.c.fluid n = engineOf e.c.fluid n ∧ backEndOf e'.c.fluid n = backEndOf e.c.fluid n
  balance : e'.c.balance = e.c.balance
  state : e'.c.stateVal = e.c.stateVal ∧ e'.c.stateSet = e.c.stateSet
  design : e'.c.design = e.c.design ∧ e'.c.offdesign = e.c.offdesign ∧ e'.c.designPath = e.c.designPath ∧
    e'.c.localDesign = e.c.localDesign
  printout : e'.c.printout = e.c.printout
  mixing : e'.c.mixingRule = e.c.mixingRule
  /-- referenced connection, factor and delta -/
  ref : ∀ r, (e'.c.ref r).ref = (e.c.ref r).ref

/-- A connection which can be exported and rebuilt: connected components and connectors exist, the
lists name properties (as `set_attr` requires), the values are JSON values, the engines are
registered classes and references lead to connections of the network. -/
structure EConn.Good (comps : String → Bool) (outlets inlets : String → List String)
    (reg : String → Bool) (labels : List String) (e : EConn K) : Prop where
  comps : comps e.source = true ∧ comps e.target = true ∧ e.source ≠ e.target
  ports : e.sourceId ∈ outlets e.source ∧ e.targetId ∈ inlets e.target
  lists : e.c.design.all (propertyData.contains ·) = true ∧ e.c.offdesign.all (propertyData.contains ·) = true
  json : e.c.designPath.jsonable = true ∧ e.c.mixingRule.jsonable = true
  engines : ∀ x ∈ e.c.fluid.engine, ∃ n, x.2 = .obj n ∧ reg n = true
  refs : ∀ r o, (e.c.ref r).ref = some o → o.obj ∈ labels

theorem engineNames_ok (d : Dict String (DVal K)) (reg : String → Bool)
    (h : ∀ x ∈ d, ∃ n, x.2 = .obj n ∧ reg n = true) :
    ∃ en, engineNames d = .ok en ∧ en.map (fun e => (e.1, DVal.obj e.2)) = d ∧
      en.all (fun e => reg e.2) = true := by
  induction d with
  | nil => exact ⟨[], rfl, rfl, rfl⟩
  | cons x d ih =>
    obtain ⟨en, h1, h2, h3⟩ := ih (fun y hy => h y (List.mem_cons_of_mem _ hy))
    obtain ⟨k, v⟩ := x
    obtain ⟨n, hv, hn⟩ := h (k, v) (by simp)
    simp only at hv
    subst hv
    refine ⟨(k, n) :: en, ?_, ?_, ?_⟩
    · simp [engineNames, h1]
    · simp [h2]
    · simp [hn, h3]

theorem newAttrs (dp mr : CVal K (RefObj K)) (de od : List String) (ld po : Bool)
    (h1 : de.all (propertyData.contains ·) = true) (h2 : od.all (propertyData.contains ·) = true) :
    (Conn.new : Conn K (RefObj K)).setAttr [("design_path", dp), ("design", .list de),
      ("offdesign", .list od), ("local_design", .bool ld), ("printout", .bool po), ("mixing_rule", mr)]
    = ({ (Conn.new : Conn K (RefObj K)) with
          designPath := dp, design := de, offdesign := od, localDesign := ld, printout := po,
          mixingRule := mr, newDesign := true }, none) := by
  have p1 : CKey.parse "design_path" = .designPath := by decide +kernel
  have p2 : CKey.parse "design" = .design := by decide +kernel
  have p3 : CKey.parse "offdesign" = .offdesign := by decide +kernel
  have p4 : CKey.parse "local_design" = .localDesign := by decide +kernel
  have p5 : CKey.parse "printout" = .printout := by decide +kernel
  have p6 : CKey.parse "mixing_rule" = .mixingRule := by decide +kernel
  simp only [Conn.setAttr, Conn.setKey, p1, p2, p3, p4, p5, p6, h1, h2, if_true]

theorem createWrappers_spec (ns : List String) (f : CFluid K) :
    (createWrappers ns f).val = f.val ∧ (createWrappers ns f).isSet = f.isSet ∧
    (∀ n, engineOf (createWrappers ns f) n = engineOf f n ∧
      backEndOf (createWrappers ns f) n = backEndOf f n) := by
  induction ns generalizing f with
  | nil => exact ⟨rfl, rfl, fun _ => ⟨rfl, rfl⟩⟩
  | cons n ns ih =>
    unfold createWrappers
    simp only
    generalize hg : (if (Dict.get? f.engine n).isSome then f
      else { f with engine := Dict.set f.engine n (.obj coolProp) }) = g
    have g1 : g.val = f.val ∧ g.isSet = f.isSet ∧ g.backEnd = f.backEnd := by
      subst hg; split <;> exact ⟨rfl, rfl, rfl⟩
    have g2 : ∀ k, engineOf g k = engineOf f k := by
      intro k
      subst hg
      split
      · rfl
      · next hn =>
        unfold engineOf
        simp only [Dict.get?_set]
        split
        · next hk =>
          subst hk
          simp only [Bool.not_eq_true, Option.isSome_eq_false_iff, Option.isNone_iff_eq_none] at hn
          rw [hn]; rfl
        · rfl
    clear hg
    obtain ⟨h1, h2, h3⟩ := ih (if (Dict.get? g.backEnd n).isSome then g
      else { g with backEnd := Dict.set g.backEnd n none })
    refine ⟨h1.trans ?_, h2.trans ?_, fun k => ⟨(h3 k).1.trans ?_, (h3 k).2.trans ?_⟩⟩
    · rw [← g1.1]; split <;> rfl
    · rw [← g1.2.1]; split <;> rfl
    · rw [← g2]; split <;> rfl
    · unfold backEndOf
      rw [← g1.2.2]
      split
      · rfl
      · next hn =>
        simp only [Dict.get?_set]
        split
        · next hk =>
          subst hk
          simp only [Bool.not_eq_true, Option.isSome_eq_false_iff, Option.isNone_iff_eq_none] at hn
          rw [hn]; rfl
        · rfl

/-- What the first pass builds. -/
def Spec.SameButRefs (e e' : EConn K) : Prop :=
  ∀ c', c'.prop = e'.c.prop → c'.fluid = e'.c.fluid → c'.balance = e'.c.balance →
    c'.stateVal = e'.c.stateVal → c'.stateSet = e'.c.stateSet → c'.design = e'.c.design →
    c'.offdesign = e'.c.offdesign → c'.designPath = e'.c.designPath →
    c'.localDesign = e'.c.localDesign → c'.printout = e'.c.printout →
    c'.mixingRule = e'.c.mixingRule → (∀ r, (c'.ref r).ref = (e.c.ref r).ref) →
    SameConn e { e' with c := c' }

theorem ex_lift {A B : Type} {X : A} {P : A → B → Prop} (h : ∃ b, P X b) :
    ∃ a b, (Except.ok X : PyRes A) = Except.ok a ∧ P a b :=
  ⟨X, h.choose, rfl, h.choose_spec⟩

theorem load_first {comps : String → Bool} {outlets inlets : String → List String}
    {reg : String → Bool} {labels : List String} (e : EConn K)
    (h : e.Good comps outlets inlets reg labels) :
    ∃ d e', e.export = .ok d ∧ d.load comps outlets inlets reg = .ok e' ∧ SameButRefs e e' ∧
      (∀ r, d.ref r = (e.c.ref r).ref.map (fun o => ((e.c.ref r).isSet, o))) ∧
      (∀ r, e'.c.ref r = ⟨none, false⟩) ∧ e'.c.localOffdesign = false ∧ e'.listSet = true := by
  obtain ⟨en, h1, h2, h3⟩ := engineNames_ok e.c.fluid.engine reg h.engines
  unfold EConn.export
  rw [if_pos h.json, h1]
  apply ex_lift
  unfold ConnDoc.load
  simp only
  rw [if_neg (by simp [h.comps.1, h.comps.2.1]), if_neg h.comps.2.2,
    if_neg (by simp [h.ports.1, h.ports.2]), newAttrs _ _ _ _ _ _ h.lists.1 h.lists.2]
  simp only
  rw [if_pos h3]
  · refine ⟨_, rfl, ?_, by intros; trivial, fun _ => rfl, rfl, rfl⟩
    intro c' hp hf hb hs1 hs2 hd ho hdp hl hpr hm hr
    obtain ⟨w1, w2, w3⟩ := createWrappers_spec (Dict.keys e.c.fluid.val)
      ({ (Conn.new : Conn K (RefObj K)).fluid with
              val := e.c.fluid.val, isSet := e.c.fluid.isSet, backEnd := e.c.fluid.backEnd
              engine := en.map (fun e => (e.1, .obj e.2)) } : CFluid K)
    constructor
    · exact ⟨rfl, rfl⟩
    · exact ⟨rfl, rfl⟩
    · intro p
      show (c'.prop p).val = _ ∧ (c'.prop p).val0 = _ ∧ (c'.prop p).isSet = _ ∧ _
      rw [hp]
      exact ⟨rfl, rfl, rfl, rfl, rfl⟩
    · show c'.fluid.val = _ ∧ c'.fluid.isSet = _
      rw [hf]
      exact ⟨w1, w2⟩
    · intro n
      show engineOf c'.fluid n = _ ∧ backEndOf c'.fluid n = _
      rw [hf]
      obtain ⟨a, b⟩ := w3 n
      refine ⟨a.trans ?_, b⟩
      unfold engineOf
      simp only
      rw [h2]
    · exact hb
    · exact ⟨hs1, hs2⟩
    · exact ⟨hd, ho, hdp, hl⟩
    · exact hpr
    · exact hm
    · exact hr

theorem setAttr_ref (c : Conn K (RefObj K)) (r : RName) (o : RefObj K) :
    c.setAttr [(r.key, .ref o)] = (c.setRef r ⟨some o, true⟩, none) := by
  have h : CKey.parse r.key = .prop (match r with | .m => .m | .p => .p | .h => .h | .T => .T | .v => .v) := by
    cases r <;> decide +kernel
  simp only [Conn.setAttr, Conn.setKey, h]
  cases r <;> rfl

theorem loadRefs_spec (labels : List String) (ref : RName → Option (Bool × RefObj K))
    (h : ∀ r b o, ref r = some (b, o) → o.obj ∈ labels) (rs : List RName) (c : Conn K (RefObj K)) :
    loadRefs labels ref rs c = .ok { c with ref := fun r =>
      if r ∈ rs then (match ref r with | some (_, o) => ⟨some o, true⟩ | none => c.ref r) else c.ref r } := by
  induction rs generalizing c with
  | nil => simp [loadRefs]
  | cons r rs ih =>
    unfold loadRefs
    cases hr : ref r with
    | none =>
      simp only
      rw [ih]
      congr 2
      funext q
      by_cases hq : q = r
      · subst hq; simp [hr]
      · simp [hq]
    | some bo =>
      obtain ⟨b, o⟩ := bo
      simp only
      rw [if_pos (h r b o hr), setAttr_ref]
      simp only
      rw [ih]
      congr 1
      unfold Conn.setRef
      congr 1
      funext q
      by_cases hq : q = r
      · subst hq; simp [hr]
      · simp [hq, Function.update_of_ne hq]

theorem mem_allRefs (r : RName) : r ∈ allRefs := by cases r <;> decide

/-- C45, connections.json (partial): every network whose connections can be rebuilt is loaded with
the same labels in the same order and the same specification of every connection: values, starting
values, flags, units, compositions with engines and back ends, state, design and off-design lists,
references. Not kept: whether a reference is active (it is after loading), `local_offdesign` (off
after loading), and the set of specified fluids is a list. -/
theorem C45_connections_partial (comps : String → Bool) (outlets inlets : String → List String)
    (reg : String → Bool) (conns : List (String × EConn K)) (hne : conns ≠ [])
    (h : ∀ e ∈ conns, e.2.Good comps outlets inlets reg (conns.map Prod.fst)) :
    ∃ data loaded, exportConns conns = .ok data ∧
      constructConns comps outlets inlets reg data = .ok loaded ∧
      List.Forall₂ (fun a b => b.1 = a.1 ∧ SameConn a.2 b.2 ∧
        (∀ r, (b.2.c.ref r).isSet = (a.2.c.ref r).ref.isSome) ∧
        b.2.c.localOffdesign = false ∧ b.2.listSet = true) conns loaded := by
  have key : ∀ (l : List (String × EConn K)),
      (∀ e ∈ l, e.2.Good comps outlets inlets reg (conns.map Prod.fst)) →
      ∃ data es loaded, exportConns l = .ok data ∧ data.keys = l.map Prod.fst ∧
        loadConns comps outlets inlets reg data = .ok es ∧
        loadAllRefs (conns.map Prod.fst) data es = .ok loaded ∧
        List.Forall₂ (fun a b => b.1 = a.1 ∧ SameConn a.2 b.2 ∧
          (∀ r, (b.2.c.ref r).isSet = (a.2.c.ref r).ref.isSome) ∧
          b.2.c.localOffdesign = false ∧ b.2.listSet = true) l loaded := by
    intro l
    induction l with
    | nil => intro _; exact ⟨[], [], [], rfl, rfl, rfl, rfl, .nil⟩
    | cons x l ih =>
      intro hl
      obtain ⟨data, es, loaded, i1, i2, i3, i4, i5⟩ := ih (fun e he => hl e (List.mem_cons_of_mem _ he))
      obtain ⟨lab, e⟩ := x
      have hg := hl (lab, e) (by simp)
      obtain ⟨d, e', a1, a2, a3, a4, a5, a6, a7⟩ := load_first e hg
      have hrefs := loadRefs_spec (conns.map Prod.fst) d.ref (by
        intro r b o hr
        rw [a4] at hr
        cases ho : (e.c.ref r).ref with
        | none => rw [ho] at hr; cases hr
        | some o' =>
          rw [ho] at hr
          simp only [Option.map_some, Option.some.injEq, Prod.mk.injEq] at hr
          rw [← hr.2]; exact hg.refs r o' ho) allRefs e'.c
      refine ⟨(lab, d) :: data, (lab, e') :: es,
        (lab, { e' with c := { e'.c with ref := fun r => if r ∈ allRefs then
            (match d.ref r with | some (_, o) => ⟨some o, true⟩ | none => e'.c.ref r) else e'.c.ref r } })
          :: loaded, ?_, ?_, ?_, ?_, ?_⟩
      rotate_left 4
      · refine .cons ?_ i5
        refine ⟨rfl, a3 _ rfl rfl rfl rfl rfl rfl rfl rfl rfl rfl rfl ?_, ?_, a6, a7⟩
        · intro r
          simp only [mem_allRefs, if_true, a4, a5]
          cases (e.c.ref r).ref <;> rfl
        · intro r
          simp only [mem_allRefs, if_true, a4, a5]
          cases (e.c.ref r).ref <;> rfl
      · simp only [exportConns, a1, i1]
      · show lab :: data.keys = _
        rw [i2]; rfl
      · simp only [loadConns, a2, i3]
      · simp only [loadAllRefs, hrefs, i4]
  obtain ⟨data, es, loaded, k1, k2, k3, k4, k5⟩ := key conns h
  refine ⟨data, loaded, k1, ?_, k5⟩
  unfold constructConns
  cases data with
  | nil =>
    cases conns with
    | nil => exact absurd rfl hne
    | cons a b => simp [Dict.keys] at k2
  | cons a b =>
    simp only
    rw [k3]
    simp only
    rw [k2, k4]

/-- A network without connections cannot be loaded. -/
theorem C45_no_connections (comps : String → Bool) (outlets inlets : String → List String)
    (reg : String → Bool) : ∃ data, exportConns ([] : List (String × EConn K)) = .ok data ∧
      constructConns comps outlets inlets reg data = .error .indexError := ⟨[], rfl, rfl⟩

/-- On a loaded connection, specifying the mass fraction of a fluid raises an `AttributeError` (and
changes the stored value nevertheless), although the same call is fine on the exported one. -/
theorem C45_loaded_fluid_false (e e' : EConn K) (he : e.listSet = false) (he' : e'.listSet = true)
    (n : String) (hn : splitName n = some (none, n)) (x : K) :
    (e.setFluid n x).2 = none ∧ (e'.setFluid n x).2 = some .attributeError ∧
    Dict.get? (e'.setFluid n x).1.c.fluid.val n = some (.num (some x)) := by
  unfold EConn.setFluid
  rw [hn]
  simp [he, he', Dict.get?_set]

/-- A connection made from `set_attr` calls. -/
def exConn (so soId ta taId : String) (kws : List (String × CVal ℚ (RefObj ℚ))) : EConn ℚ :=
  ⟨so, soId, ta, taId, (Conn.new.setAttr kws).1, fun _ => some 0, fun _ => none, false⟩

/-- source → pipe → sink; the second connection refers to the first one. -/
def exConns (kws : List (String × CVal ℚ (RefObj ℚ))) : List (String × EConn ℚ) :=
  [("a", exConn "source" "out1" "pipe" "in1"
      [("fluid", .dict [("water", .num (some 1))]), ("p", .num (some 10)), ("T", .num (some 20)),
       ("design", .list ["p"]), ("offdesign", .list ["v"])]),
   ("b", exConn "pipe" "out1" "sink" "in1" (("T", .ref ⟨"a", 1, -5⟩) :: kws))]

theorem no_engine {d : Dict String (DVal ℚ)} {P : String × DVal ℚ → Prop} (h : d = []) : ∀ x ∈ d, P x := by
  rw [h]; simp

theorem exConns_good (kws : List (String × CVal ℚ (RefObj ℚ)))
    (h : kws = [] ∨ kws = [("T", .none)] ∨ kws = [("local_offdesign", .bool true)]) :
    ∀ e ∈ exConns kws, e.2.Good (fun l => l ∈ ["source", "pipe", "sink"]) (fun _ => ["out1"]) (fun _ => ["in1"])
      (fun n => n = "CoolPropWrapper") ((exConns kws).map Prod.fst) := by
  intro e he
  simp only [exConns, List.mem_cons, List.not_mem_nil, or_false] at he
  rcases h with rfl | rfl | rfl <;> rcases he with rfl | rfl <;>
    refine ⟨by decide +kernel, by decide +kernel, by decide +kernel, by decide +kernel,
      no_engine (by decide +kernel), ?_⟩ <;>
    intro r o ho <;>
    cases r <;>
    first
    | (exact absurd (ho.symm.trans (show _ = none by decide +kernel)) (Option.some_ne_none _))
    | (rw [show o = ⟨"a", 1, -5⟩ from (Option.some.inj (ho.symm.trans (by decide +kernel)))]; decide +kernel)

/-- The hypotheses of `C45_connections_partial` are met by networks with references. -/
example : exConns [] ≠ [] ∧ ((exConns []).map (fun e => (e.2.c.ref .T).isSet)) = [false, true] := by
  decide +kernel

/-- C45 fails for references: a reference the user removed (`T=None`) is active again after
loading. -/
theorem C45_reference_false : ∃ (data : Dict String (ConnDoc ℚ)) (loaded : Dict String (EConn ℚ)),
    exportConns (exConns [("T", .none)]) = .ok data ∧
    constructConns (fun l => l ∈ ["source", "pipe", "sink"]) (fun _ => ["out1"]) (fun _ => ["in1"])
      (fun n => n = "CoolPropWrapper") data = .ok loaded ∧
    (exConns [("T", .none)]).map (fun e => (e.2.c.ref .T).isSet) = [false, false] ∧
    loaded.map (fun e => (e.2.c.ref .T).isSet) = [false, true] := by
  obtain ⟨data, loaded, h1, h2, h3⟩ := C45_connections_partial _ _ _ _ (exConns [("T", .none)])
    (by simp [exConns]) (exConns_good _ (by simp))
  refine ⟨data, loaded, h1, h2, by decide +kernel, ?_⟩
  unfold exConns at h3
  cases h3 with
  | cons a t =>
    cases t with
    | cons b t =>
      cases t
      simp only [List.map_cons, List.map_nil, a.2.2.1 .T, b.2.2.1 .T]
      decide +kernel

/-- C45 fails for `local_offdesign` of connections. -/
theorem C45_local_offdesign_false : ∃ (data : Dict String (ConnDoc ℚ)) (loaded : Dict String (EConn ℚ)),
    exportConns (exConns [("local_offdesign", .bool true)]) = .ok data ∧
    constructConns (fun l => l ∈ ["source", "pipe", "sink"]) (fun _ => ["out1"]) (fun _ => ["in1"])
      (fun n => n = "CoolPropWrapper") data = .ok loaded ∧
    (exConns [("local_offdesign", .bool true)]).map (fun e => e.2.c.localOffdesign) = [false, true] ∧
    loaded.map (fun e => e.2.c.localOffdesign) = [false, false] := by
  obtain ⟨data, loaded, h1, h2, h3⟩ := C45_connections_partial _ _ _ _
    (exConns [("local_offdesign", .bool true)]) (by simp [exConns]) (exConns_good _ (by simp))
  refine ⟨data, loaded, h1, h2, by decide +kernel, ?_⟩
  unfold exConns at h3
  cases h3 with
  | cons a t =>
    cases t with
    | cons b t =>
      cases t
      simp only [List.map_cons, List.map_nil, a.2.2.2.1, b.2.2.2.1]

/-! ### components -/

/-- A component of the class with new instance `fresh`: same parameters of the same kinds, lists
that name parameters, characteristics of the right type. -/
structure Comp.Of (fresh c : Comp K) : Prop where
  names : c.names = fresh.names ∧ c.names.Nodup
  dom : ∀ n ∈ c.names, ∃ a b, c.param n = some a ∧ fresh.param n = some b ∧ a.kind = b.kind ∧
    (a.kind = .cc → a.attr "char_func" = .none ∨ ∃ t, a.attr "char_func" = .charLine t) ∧
    (a.kind = .cm → a.attr "char_func" = .none ∨ ∃ t, a.attr "char_func" = .charMap t)
  own : ∀ n, n ∉ fresh.names → fresh.param n = none
  reserved : ∀ n ∈ ["design", "offdesign", "local_design", "local_offdesign", "design_path", "printout",
    "fkt_group", "char_warnings"], n ∉ fresh.names
  lists : c.design.all (c.names.contains ·) = true ∧ c.offdesign.all (c.names.contains ·) = true

/-- Is an attribute of a parameter written to the file? Groups of parameters are not written, and
characteristics only if there is one. -/
def Spec.exported (a : Cont K) (k : String) : Prop :=
  match a.kind with
  | .cp => k ∈ ["val", "val_SI", "is_set", "d", "min_val", "max_val", "is_var"]
  | .simple => k ∈ ["val", "is_set"]
  | .cc => k ∈ ["is_set", "param", "char_params"] ∨ (k = "char_func" ∧ a.attr k ≠ .none)
  | .cm => k ∈ ["is_set", "param"] ∨ (k = "char_func" ∧ a.attr k ≠ .none)
  | .gcp => False
  | .gcc => False

theorem contSet_spec (l : List String) (f : String → PyV K) (c : Cont K) (h : ∀ k ∈ l, k ∈ c.kind.attrs) :
    ∃ c', c.setAttr (l.map (fun k => (k, f k))) = (c', none) ∧ c'.kind = c.kind ∧
      (∀ k ∈ l, c'.attr k = f k) ∧ ∀ k ∉ l, c'.attr k = c.attr k := by
  induction l generalizing c with
  | nil => exact ⟨c, rfl, rfl, by simp, fun _ _ => rfl⟩
  | cons k l ih =>
    obtain ⟨c', h1, h2, h3, h4⟩ := ih { c with attr := Function.update c.attr k (f k) }
      (fun q hq => h q (List.mem_cons_of_mem _ hq))
    refine ⟨c', ?_, h2, ?_, ?_⟩
    · simp only [List.map_cons, Cont.setAttr]
      rw [if_pos (h k (by simp))]; exact h1
    · intro q hq
      by_cases hql : q ∈ l
      · exact h3 q hql
      · rcases List.mem_cons.1 hq with rfl | hq
        · rw [h4 q hql]; simp
        · exact absurd hq hql
    · intro q hq
      rw [h4 q (fun hc => hq (List.mem_cons_of_mem _ hc))]
      simp only
      have hne : q ≠ k := fun e => hq (e ▸ List.mem_cons_self ..)
      rw [Function.update_of_ne hne]

theorem get?_map (l : List String) (f : String → PyV K) (k : String) :
    Dict.get? (l.map (fun q => (q, f q))) k = if k ∈ l then some (f k) else none := by
  induction l with
  | nil => simp
  | cons a l ih =>
    simp only [List.map_cons, Dict.get?]
    by_cases h : k = a
    · simp [h]
    · simp only [h, if_false, List.mem_cons, false_or]; exact ih

theorem cont_roundtrip (a b : Cont K) (hk : a.kind = b.kind)
    (hcc : a.kind = .cc → a.attr "char_func" = .none ∨ ∃ t, a.attr "char_func" = .charLine t)
    (hcm : a.kind = .cm → a.attr "char_func" = .none ∨ ∃ t, a.attr "char_func" = .charMap t) :
    ∃ d c', a.export = .ok d ∧ b.load d = .ok c' ∧ c'.kind = a.kind ∧
      (∀ k, exported a k → c'.attr k = a.attr k) ∧ (∀ k, ¬ exported a k → c'.attr k = b.attr k) := by
  have main : ∀ (l : List String), (∀ k ∈ l, k ∈ b.kind.attrs) → (∀ k, exported a k ↔ k ∈ l) →
      (b.kind = .cc → "char_func" ∈ l → ∃ t, a.attr "char_func" = .charLine t) →
      (b.kind = .cm → "char_func" ∈ l → ∃ t, a.attr "char_func" = .charMap t) →
      a.export = .ok (l.map (fun k => (k, a.attr k))) →
      ∃ d c', a.export = .ok d ∧ b.load d = .ok c' ∧ c'.kind = a.kind ∧
      (∀ k, exported a k → c'.attr k = a.attr k) ∧ (∀ k, ¬ exported a k → c'.attr k = b.attr k) := by
    intro l h1 h2 h3 h4 h5
    obtain ⟨c', e1, e2, e3, e4⟩ := contSet_spec l a.attr b h1
    refine ⟨_, c', h5, ?_, e2.trans hk.symm, fun k hkx => e3 k ((h2 k).1 hkx),
      fun k hkx => e4 k (fun hc => hkx ((h2 k).2 hc))⟩
    unfold Cont.load
    simp only [get?_map]
    have hbad : charMismatch b.kind (if "char_func" ∈ l then some (a.attr "char_func") else none) = false := by
      by_cases hc : "char_func" ∈ l
      · rw [if_pos hc]
        cases hb : b.kind <;> try rfl
        · obtain ⟨t, ht⟩ := h3 hb hc; rw [ht]; rfl
        · obtain ⟨t, ht⟩ := h4 hb hc; rw [ht]; rfl
      · rw [if_neg hc]
        cases b.kind <;> rfl
    rw [hbad, e1]
    rfl
  obtain ⟨kd, hka⟩ : ∃ kd, a.kind = kd := ⟨_, rfl⟩
  cases kd
  · refine main (DcKind.saved .cp) ?_ ?_ ?_ ?_ ?_
    · rw [← hk, hka]; decide
    · intro k; unfold exported; rw [hka]; rfl
    · intro h; rw [← hk, hka] at h; cases h
    · intro h; rw [← hk, hka] at h; cases h
    · unfold Cont.export; rw [hka]
  · refine main (DcKind.saved .simple) ?_ ?_ ?_ ?_ ?_
    · rw [← hk, hka]; decide
    · intro k; unfold exported; rw [hka]; rfl
    · intro h; rw [← hk, hka] at h; cases h
    · intro h; rw [← hk, hka] at h; cases h
    · unfold Cont.export; rw [hka]
  · rcases hcc hka with hn | ⟨t, ht⟩
    · refine main ["is_set", "param", "char_params"] ?_ ?_ ?_ ?_ ?_
      · rw [← hk, hka]; decide
      · intro k; unfold exported; rw [hka]
        simp only
        constructor
        · rintro (h | ⟨rfl, h⟩)
          · exact h
          · exact absurd hn h
        · exact Or.inl
      · intro _ h; exact absurd h (by decide)
      · intro _ h; exact absurd h (by decide)
      · unfold Cont.export; rw [hka]; simp only [hn]; rfl
    · refine main ["char_func", "is_set", "param", "char_params"] ?_ ?_ ?_ ?_ ?_
      · rw [← hk, hka]; decide
      · intro k; unfold exported; rw [hka]
        simp only [List.mem_cons]
        constructor
        · rintro (h | ⟨rfl, h⟩)
          · exact Or.inr h
          · exact Or.inl rfl
        · rintro (rfl | h)
          · exact Or.inr ⟨rfl, by rw [ht]; simp⟩
          · exact Or.inl h
      · intro _ _; exact ⟨t, ht⟩
      · intro h; rw [← hk, hka] at h; cases h
      · unfold Cont.export; rw [hka]; simp only [ht]; rfl
  · rcases hcm hka with hn | ⟨t, ht⟩
    · refine main ["is_set", "param"] ?_ ?_ ?_ ?_ ?_
      · rw [← hk, hka]; decide
      · intro k; unfold exported; rw [hka]
        simp only
        constructor
        · rintro (h | ⟨rfl, h⟩)
          · exact h
          · exact absurd hn h
        · exact Or.inl
      · intro _ h; exact absurd h (by decide)
      · intro _ h; exact absurd h (by decide)
      · unfold Cont.export; rw [hka]; simp only [hn]; rfl
    · refine main ["char_func", "is_set", "param"] ?_ ?_ ?_ ?_ ?_
      · rw [← hk, hka]; decide
      · intro k; unfold exported; rw [hka]
        simp only [List.mem_cons]
        constructor
        · rintro (h | ⟨rfl, h⟩)
          · exact Or.inr h
          · exact Or.inl rfl
        · rintro (rfl | h)
          · exact Or.inr ⟨rfl, by rw [ht]; simp⟩
          · exact Or.inl h
      · intro h; rw [← hk, hka] at h; cases h
      · intro _ _; exact ⟨t, ht⟩
      · unfold Cont.export; rw [hka]; simp only [ht]; rfl
  · refine main [] ?_ ?_ ?_ ?_ ?_
    · simp
    · intro k; unfold exported; rw [hka]; simp
    · intro _ h; cases h
    · intro _ h; cases h
    · unfold Cont.export; rw [hka]; rfl
  · refine main [] ?_ ?_ ?_ ?_ ?_
    · simp
    · intro k; unfold exported; rw [hka]; simp
    · intro _ h; cases h
    · intro _ h; cases h
    · unfold Cont.export; rw [hka]; rfl

/-- What loading makes of a parameter: exported attributes as in the exported component, all others
as in a new component. -/
def Spec.Reloaded (a b a' : Cont K) : Prop :=
  a'.kind = a.kind ∧ (∀ k, exported a k → a'.attr k = a.attr k) ∧ (∀ k, ¬ exported a k → a'.attr k = b.attr k)

theorem params_roundtrip (fresh c : Comp K) (ho : Comp.Of fresh c)
    (ns : List String) (hn : ns.Nodup) (hs : ∀ n ∈ ns, n ∈ c.names) :
    ∃ ps, exportParams c ns = .ok ps ∧ ∀ c0 : Comp K, (∀ n ∈ ns, c0.param n = fresh.param n) →
      ∃ par, loadParams c0 ps = .ok { c0 with param := par } ∧
        (∀ n ∉ ns, par n = c0.param n) ∧
        ∀ n ∈ ns, ∀ a b, c.param n = some a → fresh.param n = some b →
          ∃ a', par n = some a' ∧ Reloaded a b a' := by
  induction ns with
  | nil => exact ⟨[], rfl, fun c0 _ => ⟨c0.param, rfl, fun _ _ => rfl, by simp⟩⟩
  | cons n ns ih =>
    obtain ⟨hn1, hn2⟩ := List.nodup_cons.1 hn
    obtain ⟨ps, h1, h2⟩ := ih hn2 (fun q hq => hs q (List.mem_cons_of_mem _ hq))
    obtain ⟨a, b, ea, eb, hk, hcc, hcm⟩ := ho.dom n (hs n (by simp))
    obtain ⟨d, a', r1, r2, r3, r4, r5⟩ := cont_roundtrip a b hk hcc hcm
    refine ⟨(n, d) :: ps, by simp only [exportParams, ea, r1, h1], fun c0 hc0 => ?_⟩
    obtain ⟨par, p1, p2, p3⟩ := h2 { c0 with param := Function.update c0.param n (some a') } (by
      intro q hq
      have : q ≠ n := fun e => hn1 (e ▸ hq)
      simp only [Function.update_of_ne this]
      exact hc0 q (List.mem_cons_of_mem _ hq))
    refine ⟨par, ?_, ?_, ?_⟩
    · simp only [loadParams, hc0 n (by simp), eb, r2, p1]
    · intro q hq
      rw [p2 q (fun hc => hq (List.mem_cons_of_mem _ hc))]
      simp only
      have hne : q ≠ n := fun e => hq (e ▸ List.mem_cons_self ..)
      rw [Function.update_of_ne hne]
    · intro q hq x y hx hy
      by_cases hqn : q = n
      · subst hqn
        rw [ea] at hx; rw [eb] at hy
        cases hx; cases hy
        refine ⟨a', ?_, r3, r4, r5⟩
        rw [p2 q hn1]; simp
      · exact p3 q ((List.mem_cons.1 hq).resolve_left hqn) x y hx hy

/-- C45, components (partial): a component is loaded with the same design and off-design lists,
flags, design path and functional group, and every parameter keeps its exported attributes (value,
flags, bounds, variable or not, characteristic with its parameters). Groups of parameters are not
exported. -/
theorem C45_component_partial (fresh c : Comp K) (h : Comp.Of fresh c) :
    ∃ d c', c.export = .ok d ∧ d.load fresh = .ok c' ∧ c'.names = c.names ∧
      c'.design = c.design ∧ c'.offdesign = c.offdesign ∧
      (∀ k ∈ ["local_design", "local_offdesign", "printout", "char_warnings"], c'.flag k = c.flag k) ∧
      (∀ k ∈ ["design_path", "fkt_group"], c'.text k = c.text k) ∧
      ∀ n ∈ c.names, ∃ a b a', c.param n = some a ∧ fresh.param n = some b ∧ c'.param n = some a' ∧
        Reloaded a b a' := by
  obtain ⟨ps, h1, h2⟩ := params_roundtrip fresh c h c.names h.names.2 (fun _ hn => hn)
  have hp : ∀ n ∈ ["design", "offdesign", "local_design", "local_offdesign", "design_path", "printout",
    "fkt_group", "char_warnings"], fresh.param n = none := fun n hn => h.own n (h.reserved n hn)
  have q1 := hp "design" (by decide)
  have q2 := hp "offdesign" (by decide)
  have q3 := hp "local_design" (by decide)
  have q4 := hp "local_offdesign" (by decide)
  have q5 := hp "design_path" (by decide)
  have q6 := hp "printout" (by decide)
  have q7 := hp "fkt_group" (by decide)
  have q8 := hp "char_warnings" (by decide)
  have l1 := h.lists.1
  have l2 := h.lists.2
  rw [h.names.1] at l1 l2
  have hset : fresh.setAttr [("design", .val (.list c.design)), ("offdesign", .val (.list c.offdesign)),
      ("local_design", .val (.bool (c.flag "local_design"))),
      ("local_offdesign", .val (.bool (c.flag "local_offdesign"))),
      ("design_path", .val (c.text "design_path")),
      ("printout", .val (.bool (c.flag "printout"))),
      ("fkt_group", .val (c.text "fkt_group")),
      ("char_warnings", .val (.bool (c.flag "char_warnings")))]
      = ({ fresh with
            design := c.design, offdesign := c.offdesign, newDesign := true
            flag := Function.update (Function.update (Function.update (Function.update fresh.flag
              "local_design" (c.flag "local_design")) "local_offdesign" (c.flag "local_offdesign"))
              "printout" (c.flag "printout")) "char_warnings" (c.flag "char_warnings")
            text := Function.update (Function.update fresh.text "design_path" (c.text "design_path"))
              "fkt_group" (c.text "fkt_group") }, none) := by
    simp only [Comp.setAttr, Comp.setKey, q1, q2, q3, q4, q5, q6, q7, q8, l1, l2, compFlags, if_true,
      String.reduceEq, List.mem_cons, List.not_mem_nil, or_false, or_true, true_or, false_or, if_false]
  obtain ⟨par, e1, _, e3⟩ := h2 _ (fun n hn => (rfl :
    ({ fresh with
            design := c.design, offdesign := c.offdesign, newDesign := true
            flag := Function.update (Function.update (Function.update (Function.update fresh.flag
              "local_design" (c.flag "local_design")) "local_offdesign" (c.flag "local_offdesign"))
              "printout" (c.flag "printout")) "char_warnings" (c.flag "char_warnings")
            text := Function.update (Function.update fresh.text "design_path" (c.text "design_path"))
              "fkt_group" (c.text "fkt_group") } : Comp K).param n = fresh.param n))
  refine ⟨⟨c.design, c.offdesign, c.flag, c.text, ps⟩, { fresh with
            design := c.design, offdesign := c.offdesign, newDesign := true
            flag := Function.update (Function.update (Function.update (Function.update fresh.flag
              "local_design" (c.flag "local_design")) "local_offdesign" (c.flag "local_offdesign"))
              "printout" (c.flag "printout")) "char_warnings" (c.flag "char_warnings")
            text := Function.update (Function.update fresh.text "design_path" (c.text "design_path"))
              "fkt_group" (c.text "fkt_group")
            param := par },
    by unfold Comp.export; rw [h1], ?_⟩
  refine ⟨?_, h.names.1.symm, rfl, rfl, ?_, ?_, ?_⟩
  · unfold CompDoc.load
    simp only
    rw [hset]
    exact e1
  · intro k hk
    simp only [List.mem_cons, List.not_mem_nil, or_false] at hk
    rcases hk with rfl | rfl | rfl | rfl <;> simp [Function.update]
  · intro k hk
    simp only [List.mem_cons, List.not_mem_nil, or_false] at hk
    rcases hk with rfl | rfl <;> simp [Function.update]
  · intro n hn
    obtain ⟨a, b, ea, eb, _⟩ := h.dom n hn
    obtain ⟨a', ha', hr⟩ := e3 n hn a b ea eb
    exact ⟨a, b, a', ea, eb, ha', hr⟩

theorem exportFile_spec (rs : List (ECompRec K)) (h : ∀ r ∈ rs, ∃ d, r.comp.export = .ok d) :
    ∃ f, exportFile rs = .ok f ∧ ∀ l d, (l, d) ∈ f ↔ ∃ r ∈ rs, r.label = l ∧ r.comp.export = .ok d := by
  induction rs with
  | nil => exact ⟨[], rfl, by simp⟩
  | cons r rs ih =>
    obtain ⟨f, h1, h2⟩ := ih (fun q hq => h q (List.mem_cons_of_mem _ hq))
    obtain ⟨d, hd⟩ := h r (by simp)
    refine ⟨(r.label, d) :: f, by simp only [exportFile, hd, h1], fun l x => ?_⟩
    constructor
    · intro hx
      rcases List.mem_cons.1 hx with e | e
      · cases e; exact ⟨r, by simp, rfl, hd⟩
      · obtain ⟨q, hq, a, b⟩ := (h2 l x).1 e
        exact ⟨q, List.mem_cons_of_mem _ hq, a, b⟩
    · rintro ⟨q, hq, rfl, b⟩
      rcases List.mem_cons.1 hq with rfl | hq
      · rw [hd] at b; cases b; simp
      · exact List.mem_cons_of_mem _ ((h2 _ _).2 ⟨q, hq, rfl, b⟩)

theorem exportFiles_spec (comps : List (ECompRec K)) (h : ∀ r ∈ comps, ∃ d, r.comp.export = .ok d)
    (classes : List String) :
    ∃ files, exportFiles comps classes = .ok files ∧ ∀ cls l d,
      (∃ f, (cls, f) ∈ files ∧ (l, d) ∈ f) ↔
        cls ∈ classes ∧ ∃ r ∈ comps, r.cls = cls ∧ r.label = l ∧ r.comp.export = .ok d := by
  induction classes with
  | nil => exact ⟨[], rfl, by simp⟩
  | cons c cs ih =>
    obtain ⟨fs, h1, h2⟩ := ih
    obtain ⟨f, e1, e2⟩ := exportFile_spec (comps.filter (·.cls = c))
      (fun r hr => h r (List.mem_filter.1 hr).1)
    refine ⟨(c, f) :: fs, by simp only [exportFiles, e1, h1], fun cls l d => ?_⟩
    constructor
    · rintro ⟨g, hg, hd⟩
      rcases List.mem_cons.1 hg with e | e
      · cases e
        obtain ⟨r, hr, a, b⟩ := (e2 l d).1 hd
        obtain ⟨hr1, hr2⟩ := List.mem_filter.1 hr
        exact ⟨by simp, r, hr1, by simpa using hr2, a, b⟩
      · obtain ⟨a, b⟩ := (h2 cls l d).1 ⟨g, e, hd⟩
        exact ⟨List.mem_cons_of_mem _ a, b⟩
    · rintro ⟨hc, r, hr, a, b, x⟩
      rcases List.mem_cons.1 hc with rfl | hc
      · exact ⟨f, by simp, (e2 l d).2 ⟨r, List.mem_filter.2 ⟨hr, by simpa using a⟩, b, x⟩⟩
      · obtain ⟨g, hg, hd⟩ := (h2 cls l d).2 ⟨hc, r, hr, a, b, x⟩
        exact ⟨g, List.mem_cons_of_mem _ hg, hd⟩

theorem loadFile_spec (fresh : String → String → Comp K) (cls : String) (ds : List (String × CompDoc K))
    (acc : Dict String (String × Comp K)) (h : ∀ l d, (l, d) ∈ ds → ∃ c, d.load (fresh cls l) = .ok c) :
    ∃ acc', loadFile fresh cls ds acc = .ok acc' ∧
      (∀ l v, Dict.get? acc' l = some v → Dict.get? acc l = some v ∨
        ∃ d, (l, d) ∈ ds ∧ v.1 = cls ∧ d.load (fresh cls l) = .ok v.2) ∧
      (∀ l, (Dict.get? acc l).isSome → (Dict.get? acc' l).isSome) ∧
      (∀ l d, (l, d) ∈ ds → (Dict.get? acc' l).isSome) := by
  induction ds generalizing acc with
  | nil => exact ⟨acc, rfl, fun _ _ hv => Or.inl hv, fun _ hl => hl, by simp⟩
  | cons x ds ih =>
    obtain ⟨l0, d0⟩ := x
    obtain ⟨c, hc⟩ := h l0 d0 (by simp)
    obtain ⟨acc', h1, h2, h3, h4⟩ := ih (Dict.set acc l0 (cls, c))
      (fun l d hd => h l d (List.mem_cons_of_mem _ hd))
    refine ⟨acc', by simp only [loadFile, hc, h1], ?_, ?_, ?_⟩
    · intro l v hv
      rcases h2 l v hv with e | ⟨d, a, b, e⟩
      · rw [Dict.get?_set] at e
        split at e
        · next hl =>
          subst hl
          cases e
          exact Or.inr ⟨d0, by simp, rfl, hc⟩
        · exact Or.inl e
      · exact Or.inr ⟨d, List.mem_cons_of_mem _ a, b, e⟩
    · intro l hl
      apply h3
      rw [Dict.get?_set]
      split
      · rfl
      · exact hl
    · intro l d hd
      rcases List.mem_cons.1 hd with e | e
      · cases e
        apply h3
        rw [Dict.get?_set, if_pos rfl]; rfl
      · exact h4 l d e

theorem loadFiles_spec (registered : String → Bool) (fresh : String → String → Comp K)
    (fs : List (String × List (String × CompDoc K))) (acc : Dict String (String × Comp K))
    (h : ∀ cls f, (cls, f) ∈ fs → ∀ l d, (l, d) ∈ f → ∃ c, d.load (fresh cls l) = .ok c) :
    ∃ acc', loadFiles registered fresh fs acc = .ok acc' ∧
      (∀ l v, Dict.get? acc' l = some v → Dict.get? acc l = some v ∨
        ∃ cls f d, (cls, f) ∈ fs ∧ (l, d) ∈ f ∧ v.1 = cls ∧ d.load (fresh cls l) = .ok v.2) ∧
      (∀ l, (Dict.get? acc l).isSome → (Dict.get? acc' l).isSome) ∧
      (∀ cls f, (cls, f) ∈ fs → registered cls = true → ∀ l d, (l, d) ∈ f → (Dict.get? acc' l).isSome) := by
  induction fs generalizing acc with
  | nil => exact ⟨acc, rfl, fun _ _ hv => Or.inl hv, fun _ hl => hl, by simp⟩
  | cons x fs ih =>
    obtain ⟨cls, f⟩ := x
    have ht := fun c g hg => h c g (List.mem_cons_of_mem _ hg)
    by_cases hr : registered cls = true
    · obtain ⟨a1, b1, b2, b3, b4⟩ := loadFile_spec fresh cls f acc (h cls f (by simp))
      obtain ⟨a2, c1, c2, c3, c4⟩ := ih a1 ht
      refine ⟨a2, by simp only [loadFiles, hr, if_true, b1, c1], ?_, fun l hl => c3 l (b3 l hl), ?_⟩
      · intro l v hv
        rcases c2 l v hv with e | ⟨q, g, d, m1, m2, m3, m4⟩
        · rcases b2 l v e with e | ⟨d, m1, m2, m3⟩
          · exact Or.inl e
          · exact Or.inr ⟨cls, f, d, by simp, m1, m2, m3⟩
        · exact Or.inr ⟨q, g, d, List.mem_cons_of_mem _ m1, m2, m3, m4⟩
      · intro q g hg hq l d hd
        rcases List.mem_cons.1 hg with e | e
        · cases e; exact c3 l (b4 l d hd)
        · exact c4 q g e hq l d hd
    · obtain ⟨a2, c1, c2, c3, c4⟩ := ih acc ht
      refine ⟨a2, by simp only [loadFiles, if_neg hr, c1], ?_, c3, ?_⟩
      · intro l v hv
        rcases c2 l v hv with e | ⟨q, g, d, m1, m2, m3, m4⟩
        · exact Or.inl e
        · exact Or.inr ⟨q, g, d, List.mem_cons_of_mem _ m1, m2, m3, m4⟩
      · intro q g hg hq l d hd
        rcases List.mem_cons.1 hg with e | e
        · cases e; exact absurd hq hr
        · exact c4 q g e hq l d hd

/-- All component files of a network, read in any order: every component of a registered class is
found under its label, loaded as above. -/
theorem C45_components_partial (registered : String → Bool) (fresh : String → String → Comp K)
    (comps : List (ECompRec K)) (classes : List String)
    (hreg : ∀ r ∈ comps, registered r.cls = true ∧ r.cls ∈ classes)
    (hof : ∀ r ∈ comps, Comp.Of (fresh r.cls r.label) r.comp)
    (hlab : ∀ r ∈ comps, ∀ r' ∈ comps, r.label = r'.label → r = r') :
    ∃ files, exportFiles comps classes = .ok files ∧ ∀ files', files'.Perm files →
      ∃ loaded, loadFiles registered fresh files' [] = .ok loaded ∧
        ∀ r ∈ comps, ∃ d c', r.comp.export = .ok d ∧ d.load (fresh r.cls r.label) = .ok c' ∧
          Dict.get? loaded r.label = some (r.cls, c') := by
  have hex : ∀ r ∈ comps, ∃ d, r.comp.export = .ok d := fun r hr =>
    let ⟨d, _, h, _⟩ := C45_component_partial _ _ (hof r hr); ⟨d, h⟩
  obtain ⟨files, h1, h2⟩ := exportFiles_spec comps hex classes
  refine ⟨files, h1, fun files' hperm => ?_⟩
  have hmem : ∀ cls l d, (∃ f, (cls, f) ∈ files' ∧ (l, d) ∈ f) ↔ cls ∈ classes ∧ ∃ r ∈ comps, r.cls = cls ∧
      r.label = l ∧ r.comp.export = .ok d := by
    intro cls l d
    rw [← h2]
    constructor
    · rintro ⟨f, a, b⟩; exact ⟨f, hperm.mem_iff.1 a, b⟩
    · rintro ⟨f, a, b⟩; exact ⟨f, hperm.mem_iff.2 a, b⟩
  obtain ⟨loaded, g1, g2, _, g4⟩ := loadFiles_spec registered fresh files' [] (by
    intro cls f hf l d hd
    obtain ⟨_, r, hr, rfl, rfl, he⟩ := (hmem cls l d).1 ⟨f, hf, hd⟩
    obtain ⟨d', c', a, b, _⟩ := C45_component_partial _ _ (hof r hr)
    rw [he] at a
    cases a
    exact ⟨c', b⟩)
  refine ⟨loaded, g1, fun r hr => ?_⟩
  obtain ⟨d, hd⟩ := hex r hr
  obtain ⟨f, hf, hfd⟩ := (hmem r.cls r.label d).2 ⟨(hreg r hr).2, r, hr, rfl, rfl, hd⟩
  have hsome := g4 r.cls f hf (hreg r hr).1 r.label d hfd
  obtain ⟨v, hv⟩ := Option.isSome_iff_exists.1 hsome
  rcases g2 _ _ hv with hnil | ⟨cls, f', d', hf', hd', hcls, hload⟩
  · simp at hnil
  · obtain ⟨_, r', hr', e1, e2, e3⟩ := (hmem cls r.label d').1 ⟨f', hf', hd'⟩
    have : r' = r := hlab r' hr' r hr e2
    subst this
    rw [hd] at e3
    cases e3
    refine ⟨d, v.2, hd, ?_, ?_⟩
    · rw [e1]; exact hload
    · rw [hv, e1, ← hcls]

/-- A heat exchanger-like class with a property, a characteristic and a group of
characteristics. -/
def exFresh : Comp ℚ where
  param
    | "kA" => some ⟨.cp, fun k => if k = "is_set" then .bool false else .none⟩
    | "kA_char1" => some ⟨.cc, fun k => if k = "is_set" then .bool false else .none⟩
    | "kA_char" => some ⟨.gcc, fun k => if k = "is_set" then .bool false else .none⟩
    | _ => none
  names := ["kA", "kA_char1", "kA_char"]
  design := []
  offdesign := []
  flag := fun k => k = "printout"
  text := fun _ => .none
  newDesign := true

/-- the component after `set_attr(kA=5, kA_char1=line, kA_char={"is_set": True}, design=["kA"])` -/
def exHx : Comp ℚ := (exFresh.setAttr [("kA", .val (.num (some 5))), ("kA_char1", .val (.charLine 7)),
  ("kA_char", .dict [("is_set", .bool true)]), ("design", .val (.list ["kA"]))]).1

/-- The hypotheses of the component theorems are met. -/
theorem exHx_of : Comp.Of exFresh exHx := by
  refine ⟨⟨rfl, by decide⟩, ?_, ?_, by decide, ⟨by decide +kernel, by decide +kernel⟩⟩
  · intro n hn
    have : n = "kA" ∨ n = "kA_char1" ∨ n = "kA_char" := by
      have e : exHx.names = ["kA", "kA_char1", "kA_char"] := by decide +kernel
      rw [e] at hn
      simpa using hn
    rcases this with rfl | rfl | rfl
    · exact ⟨_, _, rfl, rfl, rfl, fun h => (by cases h), fun h => (by cases h)⟩
    · exact ⟨_, _, rfl, rfl, rfl, fun _ => Or.inr ⟨7, rfl⟩, fun h => (by cases h)⟩
    · exact ⟨_, _, rfl, rfl, rfl, fun h => (by cases h), fun h => (by cases h)⟩
  · intro n hn
    simp only [exFresh, List.mem_cons, List.not_mem_nil, or_false, not_or] at hn ⊢
    split <;> simp_all

/-- C45 fails for groups of characteristics: `kA_char` is specified in the exported heat exchanger
and not in the loaded one, so its equation is missing. -/
theorem C45_group_false : ∃ d c', exHx.export = .ok d ∧ d.load exFresh = .ok c' ∧
    (exHx.param "kA_char").map (·.attr "is_set") = some (.bool true) ∧
    (c'.param "kA_char").map (·.attr "is_set") = some (.bool false) ∧
    (c'.param "kA").map (·.attr "val") = some (.num (some 5)) := by
  obtain ⟨d, c', h1, h2, _, _, _, _, _, h3⟩ := C45_component_partial _ _ exHx_of
  refine ⟨d, c', h1, h2, by decide +kernel, ?_, ?_⟩
  · obtain ⟨a, b, a', ha, hb, ha', hk, _, hn⟩ := h3 "kA_char" (by decide +kernel)
    rw [ha']
    have : a.kind = .gcc := by
      have : some a.kind = some DcKind.gcc := by rw [← Option.map_some, ← ha]; decide +kernel
      exact Option.some.inj this
    rw [Option.map_some, hn "is_set" (by unfold exported; rw [this]; simp), ← Option.map_some
      (f := fun x : Cont ℚ => x.attr "is_set"), ← hb]
    decide +kernel
  · obtain ⟨a, b, a', ha, hb, ha', hk, he, _⟩ := h3 "kA" (by decide +kernel)
    rw [ha']
    have : a.kind = .cp := by
      have : some a.kind = some DcKind.cp := by rw [← Option.map_some, ← ha]; decide +kernel
      exact Option.some.inj this
    rw [Option.map_some, he "val" (by unfold exported; rw [this]; simp), ← Option.map_some
      (f := fun x : Cont ℚ => x.attr "val"), ← ha]
    decide +kernel

/-! ### busses -/

section busses
variable {K : Type} [Field K] [LinearOrder K]

theorem busExportRows_spec (lab : ℕ → String) (rs : Dict ℕ (BusRow K)) (d : Dict String (BusEntry K))
    (hn : (rs.map (fun e => lab e.1)).Nodup) (hd : ∀ e ∈ rs, lab e.1 ∉ d.keys) :
    busExportRows lab rs d = d ++ rs.map (fun e => (lab e.1, .comp e.2.param e.2.base e.2.char)) := by
  induction rs generalizing d with
  | nil => simp [busExportRows]
  | cons x rs ih =>
    obtain ⟨i, r⟩ := x
    simp only [List.map_cons, List.nodup_cons] at hn
    have h0 : lab i ∉ d.keys := hd (i, r) (by simp)
    unfold busExportRows
    rw [Dict.set_of_not_mem _ h0, ih _ hn.2]
    · simp
    · intro e he hc
      simp only [Dict.keys, List.map_append, List.map_cons, List.map_nil, List.mem_append,
        List.mem_singleton] at hc
      rcases hc with hc | hc
      · exact hd e (List.mem_cons_of_mem _ he) hc
      · exact hn.1 (List.mem_map.2 ⟨e, he, hc⟩)

theorem addComps_row (b : Bus K) (i : ℕ) (param : Option String) (base : BusBase) (ch : CharLine K) :
    b.addComps [some [("comp", .comp i), ("param", paramVal param),
      ("base", .str base.name), ("char", .char ch)]]
    = ({ b with comps := Dict.set b.comps i ⟨param, none, ch, base⟩ }, none) := by
  cases param <;> cases base <;> rfl

/-- C45, busses.json (partial): for components with different labels, none of them "P", a bus is
loaded with the same value, flag, components, parameters, bases and characteristic lines. Reference
powers are not exported (like `printout`). -/
theorem C45_bus_partial (lab : ℕ → String) (find : String → Option ℕ) (b : Bus K)
    (hfind : ∀ e ∈ b.comps, find (lab e.1) = some e.1)
    (hn : (b.comps.map (fun e => lab e.1)).Nodup) (hP : ∀ e ∈ b.comps, lab e.1 ≠ "P")
    (hch : ∀ e ∈ b.comps, e.2.char.x.length = e.2.char.y.length) :
    busLoad find (b.export lab) = .ok {
      pVal := b.pVal, pSet := b.pSet, printout := true
      comps := b.comps.map (fun e => (e.1, { e.2 with pref := none })), jac := [] } := by
  have key : ∀ (rs : Dict ℕ (BusRow K)) (b0 : Bus K),
      (∀ e ∈ rs, find (lab e.1) = some e.1) → (rs.map (fun e => lab e.1)).Nodup →
      (∀ e ∈ rs, lab e.1 ≠ "P") → (∀ e ∈ rs, e.2.char.x.length = e.2.char.y.length) →
      (∀ e ∈ rs, e.1 ∉ b0.comps.keys) →
      busLoadRows find (rs.map (fun e => (lab e.1, .comp e.2.param e.2.base e.2.char))) b0
      = .ok { b0 with comps := b0.comps ++ rs.map (fun e => (e.1, { e.2 with pref := none })) } := by
    intro rs
    induction rs with
    | nil => intro b0 _ _ _ _ _; simp [busLoadRows]
    | cons x rs ih =>
      intro b0 h1 h2 h3 h4 h5
      obtain ⟨i, r⟩ := x
      simp only [List.map_cons, List.nodup_cons] at h2
      have e1 : CharLine.init r.char.x r.char.y r.char.extrapolate = .ok r.char := by
        unfold CharLine.init
        rw [if_neg (by simpa using h4 (i, r) (by simp))]
      simp only [List.map_cons, busLoadRows]
      rw [if_neg (h3 (i, r) (by simp)), e1]
      simp only
      rw [h1 (i, r) (by simp)]
      simp only [addComps_row]
      rw [ih _ (fun e he => h1 e (List.mem_cons_of_mem _ he)) h2.2
        (fun e he => h3 e (List.mem_cons_of_mem _ he)) (fun e he => h4 e (List.mem_cons_of_mem _ he))]
      · simp only [Dict.set_of_not_mem _ (h5 (i, r) (by simp)), List.append_assoc, List.singleton_append]
      · intro e he
        rw [Dict.set_of_not_mem _ (h5 (i, r) (by simp))]
        simp only [Dict.keys, List.map_append, List.map_cons, List.map_nil, List.mem_append,
          List.mem_singleton, not_or]
        refine ⟨h5 e (List.mem_cons_of_mem _ he), fun hc => ?_⟩
        exact h2.1 (List.mem_map.2 ⟨e, he, by rw [hc]⟩)
  have hexp : b.export lab = ("P", .P b.pVal b.pSet) ::
      b.comps.map (fun e => (lab e.1, .comp e.2.param e.2.base e.2.char)) := by
    unfold Bus.export
    rw [busExportRows_spec lab b.comps _ hn]
    · rfl
    · intro e he
      simp [Dict.keys, hP e he]
  rw [hexp]
  unfold busLoad
  simp only [Dict.get?, if_true, busLoadRows]
  rw [key b.comps _ hfind hn hP hch (by simp [Bus.new, Dict.keys])]
  simp [Bus.new]

/-- C45 fails for a bus with a component labelled "P": the value of the bus is overwritten by the
component and loading raises a `KeyError`. -/
theorem C45_bus_label_false (lab : ℕ → String) (find : String → Option ℕ) (b : Bus K)
    (h : ∃ e ∈ b.comps, lab e.1 = "P") : busLoad find (b.export lab) = .error .keyError := by
  have key : ∀ (rs : Dict ℕ (BusRow K)) (d : Dict String (BusEntry K)),
      ((∃ e ∈ rs, lab e.1 = "P") ∨ ∃ p q r, Dict.get? d "P" = some (.comp p q r)) →
      ∃ p q r, Dict.get? (busExportRows lab rs d) "P" = some (.comp p q r) := by
    intro rs
    induction rs with
    | nil =>
      rintro d (⟨e, he, _⟩ | h)
      · cases he
      · exact h
    | cons x rs ih =>
      obtain ⟨i, r⟩ := x
      intro d hd
      unfold busExportRows
      apply ih
      by_cases hi : lab i = "P"
      · exact Or.inr ⟨_, _, _, by rw [Dict.get?_set, if_pos hi.symm]⟩
      · rcases hd with ⟨e, he, hl⟩ | ⟨p, q, s, hd⟩
        · rcases List.mem_cons.1 he with rfl | he
          · exact absurd hl hi
          · exact Or.inl ⟨e, he, hl⟩
        · exact Or.inr ⟨p, q, s, by rw [Dict.get?_set, if_neg (fun e => hi e.symm), hd]⟩
  obtain ⟨p, q, r, hr⟩ := key b.comps [("P", .P b.pVal b.pSet)] (Or.inl h)
  unfold busLoad Bus.export
  rw [hr]

/-- C45 fails if results are saved to the same path after the export: `save` writes busses.json,
too, and loading raises a `KeyError` (or a `TypeError`, if a component is labelled "P"). -/
theorem C45_save_overwrites_false (lab : ℕ → String) (find : String → Option ℕ) (b : Bus K)
    (design : ℕ → Option K) :
    busLoad find (b.saved lab design) = .error .keyError ∨ busLoad find (b.saved lab design) = .error .typeError := by
  unfold busLoad
  cases hg : Dict.get? (b.saved lab design) "P" with
  | none => exact Or.inl rfl
  | some v =>
    have := Dict.mem_of_get? hg
    unfold Bus.saved at this
    obtain ⟨e, _, he⟩ := List.mem_map.1 this
    obtain rfl : v = _ := (congrArg Prod.snd he).symm
    exact Or.inr rfl

end busses

/-- The hypotheses of the bus theorem are met by a bus with two components and different bases; its
reference power is lost. -/
example : let b : Bus ℚ := ⟨some 5, true, true, [(0, ⟨none, some 3, ⟨[0, 1], [1, 2], true⟩, .bus⟩),
      (1, ⟨some "P", none, constChar 1, .component⟩)], []⟩
    (busLoad (fun l => if l = "pump" then some 0 else if l = "turbine" then some 1 else none)
      (b.export (fun i => if i = 0 then "pump" else "turbine"))).toOption.map (fun b => b.comps.map (fun e => e.2.pref))
      = some [none, none] ∧ b.comps.map (fun e => e.2.pref) = [some 3, none] := by
  decide +kernel

end Tespy
