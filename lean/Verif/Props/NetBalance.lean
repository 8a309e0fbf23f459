import Mathlib.Tactic.Abel
import Verif.Model.NetBalance
import Verif.Props.Balance
import Verif.Props.TwoStream
/-!
C95: mass and energy balances of whole networks and of circuits within them.
-/
namespace Tespy

namespace Spec

/-- The connections of a component which exchange mass: both sides of a heat exchanger, the cooling loops of engines and
reactors and the lines of an interface are separate. -/
def groups {α : Type} (k : Cls) : List α → List α → List (List α × List α) :=
  match k with
  | .heatExchanger | .condenser | .desuperheater | .movingBoundary => fun i o => match i, o with
    | [a, b], [c, d] => [([a], [c]), ([b], [d])]
    | _, _ => [(i, o)]
  | .subsystemInterface => fun i o => (i.zip o).map (fun p => ([p.1], [p.2]))
  | .combustionEngine => fun i o => match i, o with
    | [a, b, c, d], [x, y, z] => [([a], [x]), ([b], [y]), ([c, d], [z])]
    | _, _ => [(i, o)]
  | .waterElectrolyzer => fun i o => match i, o with
    | [a, b], [x, y, z] => [([a], [x]), ([b], [y, z])]
    | _, _ => [(i, o)]
  | .fuelCell => fun i o => match i, o with
    | [a, b, c], [x, y] => [([a], [x]), ([b, c], [y])]
    | _, _ => [(i, o)]
  | _ => fun i o => [(i, o)]

variable {K : Type} [CommRing K]

/-- sum of a quantity over those connections of a list which belong to `S` -/
def sumOn (S : ConnObj → Bool) (w : ConnObj → K) (l : List ConnObj) : K := ((l.filter S).map w).sum

/-- sum over the components of a class -/
def overClass (n : BalNet K) (k : Cls) (f : CompObj → K) : K :=
  ((n.comps.filter (fun cp => Cls.ofName cp.ctype = some k)).map f).sum

/-- mass flow of a connection -/
def massOf (n : BalNet K) (s : EqState K) (c : ConnObj) : K := s.mv (n.port c)
/-- energy flow of a connection -/
def energyOf (n : BalNet K) (s : EqState K) (c : ConnObj) : K := s.mv (n.port c) * s.hv (n.port c)
/-- mass flow of a fluid -/
def speciesOf (n : BalNet K) (s : EqState K) (f : String) (c : ConnObj) : K := s.xv (n.port c) f * s.mv (n.port c)

/-- `S` is a circuit: at every component, the connections exchanging mass belong to `S` or none of them does. -/
def Circuit (n : BalNet K) (S : ConnObj → Bool) : Prop :=
  ∀ cp ∈ n.comps, ∀ k, Cls.ofName cp.ctype = some k → ∀ g ∈ groups k (inl n.conns cp) (outl n.conns cp),
    (∀ c ∈ g.1 ++ g.2, S c = true) ∨ (∀ c ∈ g.1 ++ g.2, S c = false)

/-- All mandatory equations of the network are satisfied. -/
def NetSolved (F : PropFuncs K) (s : EqState K) (n : BalNet K) : Prop :=
  ∀ cp ∈ n.comps, ∃ k d, Cls.ofName cp.ctype = some k ∧
    devOf k (n.react cp) ((inl n.conns cp).map n.port) ((outl n.conns cp).map n.port) = some d ∧ Solved F s d

/-- Structure of a network in a calculation: components are listed once, connections join listed components, connections
of a branch share their mass flow (C17). -/
structure Reduced (n : BalNet K) : Prop where
  nodup : n.comps.Nodup
  ends : ∀ c ∈ n.conns, c.source ∈ n.comps ∧ c.target ∈ n.comps
  through : ∀ cp ∈ n.comps, ∀ k, Cls.ofName cp.ctype = some k → ∀ p ∈ k.through (inl n.conns cp) (outl n.conns cp),
    (n.port p.1).m = (n.port p.2).m
  drum : ∀ cp ∈ n.comps, Cls.ofName cp.ctype = some .drum → ∀ a b c d, inl n.conns cp = [a, b] → outl n.conns cp = [c, d] →
    (n.port b).m = (n.port c).m → (n.port a).m = (n.port d).m

/-- Conditions under which single components conserve mass (C34, C38): compositions at merges are complete and known at
all connections, electrolyzers and fuel cells have enough variable mass flows. -/
structure NetBalanced (n : BalNet K) (s : EqState K) : Prop where
  merge : ∀ cp ∈ n.comps, Cls.ofName cp.ctype = some .merge → ∀ a ∈ inl n.conns cp ++ outl n.conns cp,
    ∀ b ∈ inl n.conns cp ++ outl n.conns cp, s.keys (n.port a).fl = s.keys (n.port b).fl ∧ SumOne s (n.port a)
  elec : ∀ cp ∈ n.comps, Cls.ofName cp.ctype = some .waterElectrolyzer → ∀ a b c d e, inl n.conns cp = [a, b] →
    outl n.conns cp = [c, d, e] → s.isVar (.m (n.port b).m) = true ∨
      (s.isVar (.m (n.port d).m) = true ∧ s.isVar (.m (n.port e).m) = true)
  cell : ∀ cp ∈ n.comps, Cls.ofName cp.ctype = some .fuelCell → ∀ a b c d e, inl n.conns cp = [a, b, c] →
    outl n.conns cp = [d, e] → s.isVar (.m (n.port c).m) = true ∨ s.isVar (.m (n.port e).m) = true

/-- Energy the streams of `S` receive in a component of class `k` with connections `i` and `o` according to its results: the
power of turbomachines, the heat of simple heat exchangers; heat exchangers give their heat from the first side to the
second. Where the enthalpies are not balanced by equations between connections (separators, reactions) it is the change of
the energy flow. -/
def receivedBy (k : Cls) (p : ConnObj → Port) (s : EqState K) (S : ConnObj → Bool) (i o : List ConnObj) : K :=
  match k with
  | .turbine | .steamTurbine | .pump | .compressor | .simpleHeatExchanger | .heatExchangerSimple | .solarCollector
  | .parabolicTrough | .pipe =>
    match i, o with
    | [a], [b] => if S a then energyRise s (p a) (p b) else 0
    | _, _ => 0
  | .heatExchanger | .condenser | .desuperheater | .movingBoundary =>
    match i, o with
    | [a, b], [c, _] => (if S a then energyRise s (p a) (p c) else 0) - (if S b then energyRise s (p a) (p c) else 0)
    | _, _ => 0
  | .separator | .combustionChamber | .diabaticCombustionChamber | .combustionEngine | .fuelCell | .waterElectrolyzer =>
    sumOn S (fun c => s.mv (p c) * s.hv (p c)) o - sumOn S (fun c => s.mv (p c) * s.hv (p c)) i
  | _ => 0

/-- the same for a component of a network -/
def netReceived (n : BalNet K) (s : EqState K) (S : ConnObj → Bool) (cp : CompObj) : K :=
  match Cls.ofName cp.ctype with
  | some k => receivedBy k n.port s S (inl n.conns cp) (outl n.conns cp)
  | none => 0

end Spec

section
variable {K : Type} [CommRing K]

/-! ### every connection leaves one component and enters one -/

theorem sum_filter_comp (conns : List ConnObj) (f : ConnObj → CompObj) (w : ConnObj → K) (comps : List CompObj)
    (hn : comps.Nodup) (hm : ∀ c ∈ conns, f c ∈ comps) :
    (comps.map fun cp => ((conns.filter fun c => f c = cp).map w).sum).sum = (conns.map w).sum := by
  induction conns with
  | nil => simp
  | cons c conns ih =>
    have ih' := ih fun c hc => hm c (by simp [hc])
    have hc := hm c (by simp)
    have step : ∀ cp, (((c :: conns).filter fun c => f c = cp).map w).sum
        = (if f c = cp then w c else 0) + ((conns.filter fun c => f c = cp).map w).sum := by
      intro cp
      by_cases h : f c = cp
      · rw [List.filter_cons_of_pos (by simp [h]), if_pos h, List.map_cons, List.sum_cons]
      · rw [List.filter_cons_of_neg (by simp [h]), if_neg h, zero_add]
    have hone : (comps.map fun cp => if f c = cp then w c else 0).sum = w c := by
      clear ih ih' hm step
      induction comps with
      | nil => simp at hc
      | cons l comps ihl =>
        have hn' := List.nodup_cons.1 hn
        rw [List.map_cons, List.sum_cons]
        rcases List.mem_cons.1 hc with hc | hc
        · rw [if_pos hc]
          have : (comps.map fun cp => if f c = cp then w c else 0).sum = 0 := by
            rw [List.sum_eq_zero]
            intro x hx
            obtain ⟨l', hl', rfl⟩ := List.mem_map.1 hx
            exact if_neg fun hh => hn'.1 (by rw [← hc, hh]; exact hl')
          rw [this, add_zero]
        · have : f c ≠ l := fun hh => hn'.1 (hh ▸ hc)
          rw [if_neg this, zero_add]
          exact ihl hn'.2 hc
    simp only [step]
    rw [List.sum_map_add, hone, ih', List.map_cons, List.sum_cons]

theorem sumOn_eq (S : ConnObj → Bool) (w : ConnObj → K) (l : List ConnObj) :
    Spec.sumOn S w l = (l.map (fun c => if S c then w c else 0)).sum := by
  induction l with
  | nil => rfl
  | cons c l ih =>
    unfold Spec.sumOn at ih ⊢
    by_cases h : S c = true
    · rw [List.filter_cons_of_pos h]
      simp only [List.map_cons, List.sum_cons, ih, h, if_true]
    · rw [List.filter_cons_of_neg h]
      simp only [List.map_cons, List.sum_cons, ih, h]
      simp

theorem sumOn_inl (n : BalNet K) (S : ConnObj → Bool) (w : ConnObj → K) (cp : CompObj) :
    Spec.sumOn S w (inl n.conns cp)
      = ((n.conns.filter fun c => c.target = cp).map (fun c => if S c then w c else 0)).sum := by
  rw [sumOn_eq]
  exact ((List.perm_insertionSort _ _).map _).sum_eq

theorem sumOn_outl (n : BalNet K) (S : ConnObj → Bool) (w : ConnObj → K) (cp : CompObj) :
    Spec.sumOn S w (outl n.conns cp)
      = ((n.conns.filter fun c => c.source = cp).map (fun c => if S c then w c else 0)).sum := by
  rw [sumOn_eq]
  exact ((List.perm_insertionSort _ _).map _).sum_eq

theorem list_sum_map_sub {α : Type} (l : List α) (f g : α → K) :
    (l.map (fun a => f a - g a)).sum = (l.map f).sum - (l.map g).sum := by
  induction l with
  | nil => simp
  | cons a l ih => simp only [List.map_cons, List.sum_cons, ih]; ring

/-- summed over all components, inflows and outflows cancel -/
theorem net_telescopes (n : BalNet K) (hr : Spec.Reduced n) (S : ConnObj → Bool) (w : ConnObj → K) :
    (n.comps.map (fun cp => Spec.sumOn S w (inl n.conns cp) - Spec.sumOn S w (outl n.conns cp))).sum = 0 := by
  rw [list_sum_map_sub]
  simp only [sumOn_inl, sumOn_outl]
  rw [sum_filter_comp n.conns ConnObj.target _ n.comps hr.nodup (fun c hc => (hr.ends c hc).2),
    sum_filter_comp n.conns ConnObj.source _ n.comps hr.nodup (fun c hc => (hr.ends c hc).1), sub_self]

/-! ### groups -/

theorem sumOn_cons (S : ConnObj → Bool) (w : ConnObj → K) (c : ConnObj) (l : List ConnObj) :
    Spec.sumOn S w (c :: l) = (if S c then w c else 0) + Spec.sumOn S w l := by
  rw [sumOn_eq, sumOn_eq, List.map_cons, List.sum_cons]

theorem sumOn_nil (S : ConnObj → Bool) (w : ConnObj → K) : Spec.sumOn S w [] = 0 := rfl

theorem sumOn_all (S : ConnObj → Bool) (w : ConnObj → K) (l : List ConnObj) (h : ∀ c ∈ l, S c = true) :
    Spec.sumOn S w l = (l.map w).sum := by
  unfold Spec.sumOn
  rw [List.filter_eq_self.mpr h]

theorem sumOn_none (S : ConnObj → Bool) (w : ConnObj → K) (l : List ConnObj) (h : ∀ c ∈ l, S c = false) :
    Spec.sumOn S w l = 0 := by
  unfold Spec.sumOn
  rw [List.filter_eq_nil_iff.mpr (fun c hc => by simp [h c hc])]
  rfl

theorem sum_zip_groups (S : ConnObj → Bool) (w : ConnObj → K) (i o : List ConnObj) (h : i.length = o.length) :
    Spec.sumOn S w i - Spec.sumOn S w o
      = ((i.zip o).map (fun p => Spec.sumOn S w [p.1] - Spec.sumOn S w [p.2])).sum := by
  induction i generalizing o with
  | nil =>
    cases o with
    | nil => simp
    | cons _ _ => simp at h
  | cons a i ih =>
    cases o with
    | nil => simp at h
    | cons b o =>
      have := ih o (by simpa using h)
      rw [List.zip_cons_cons, List.map_cons, List.sum_cons, ← this]
      simp only [sumOn_cons, sumOn_nil]
      ring

/-- the flows of a component are those of its groups -/
theorem sum_groups (k : Cls) (r : ReactFn K) (p : ConnObj → Port) (S : ConnObj → Bool) (w : ConnObj → K)
    (i o : List ConnObj) (d : Dev K) (hd : devOf k r (i.map p) (o.map p) = some d) :
    Spec.sumOn S w i - Spec.sumOn S w o
      = ((Spec.groups k i o).map (fun g => Spec.sumOn S w g.1 - Spec.sumOn S w g.2)).sum := by
  have triv : Spec.sumOn S w i - Spec.sumOn S w o
      = (([(i, o)] : List (List ConnObj × List ConnObj)).map (fun g => Spec.sumOn S w g.1 - Spec.sumOn S w g.2)).sum := by
    simp
  cases k <;> first | exact triv | skip
  case subsystemInterface =>
    simp only [devOf, List.length_map] at hd
    split at hd
    · next hl =>
      rw [sum_zip_groups S w i o hl]
      simp [Spec.groups, Function.comp_def]
    · cases hd
  all_goals
    simp only [Spec.groups]
    split
    · simp only [List.map_cons, List.map_nil, List.sum_cons, List.sum_nil, sumOn_cons, sumOn_nil]; ring
    · exact triv

/-! ### mass balance of a group -/

/-- conditions on one component, see `Spec.Reduced` and `Spec.NetBalanced` -/
structure CompCond (k : Cls) (p : ConnObj → Port) (s : EqState K) (i o : List ConnObj) : Prop where
  through : ∀ q ∈ k.through i o, (p q.1).m = (p q.2).m
  drum : k = .drum → ∀ a b c d, i = [a, b] → o = [c, d] → (p b).m = (p c).m → (p a).m = (p d).m
  merge : k = .merge → ∀ a ∈ i ++ o, ∀ b ∈ i ++ o, s.keys (p a).fl = s.keys (p b).fl ∧ Spec.SumOne s (p a)
  elec : k = .waterElectrolyzer → ∀ a b c d e, i = [a, b] → o = [c, d, e] → s.isVar (.m (p b).m) = true ∨
      (s.isVar (.m (p d).m) = true ∧ s.isVar (.m (p e).m) = true)
  cell : k = .fuelCell → ∀ a b c d e, i = [a, b, c] → o = [d, e] → s.isVar (.m (p c).m) = true ∨
      s.isVar (.m (p e).m) = true

theorem compCond (n : BalNet K) (s : EqState K) (hr : Spec.Reduced n) (hb : Spec.NetBalanced n s) (cp : CompObj)
    (hcp : cp ∈ n.comps) (k : Cls) (hk : Cls.ofName cp.ctype = some k) :
    CompCond k n.port s (inl n.conns cp) (outl n.conns cp) where
  through := hr.through cp hcp k hk
  drum := by rintro rfl; exact hr.drum cp hcp hk
  merge := by rintro rfl; exact hb.merge cp hcp hk
  elec := by rintro rfl; exact hb.elec cp hcp hk
  cell := by rintro rfl; exact hb.cell cp hcp hk

/-- mass balance between lists of connections -/
def GroupMass (p : ConnObj → Port) (s : EqState K) (g : List ConnObj × List ConnObj) : Prop :=
  (g.1.map (fun c => s.mv (p c))).sum = (g.2.map (fun c => s.mv (p c))).sum

theorem groupMass_pair (p : ConnObj → Port) (s : EqState K) (a b : ConnObj) (h : (p a).m = (p b).m) :
    GroupMass p s ([a], [b]) := by
  simp [GroupMass, EqState.mv, h]

theorem groupMass_of (p : ConnObj → Port) (s : EqState K) (i o : List ConnObj)
    (h : Spec.MassBalance s (i.map p) (o.map p)) : GroupMass p s (i, o) := by
  unfold Spec.MassBalance at h
  simpa [GroupMass, Function.comp_def] using h

theorem combMass_zero (s : EqState K) (i0 i1 o : Port) (h : ∀ x ∈ (combMass s i0 i1 o).toList, x = 0) :
    Spec.MassBalance s [i0, i1] [o] := by
  simp only [combMass, Resid.toList, List.mem_singleton, forall_eq, sub_eq_zero] at h
  simpa [Spec.MassBalance] using h

theorem group_mass (F : PropFuncs K) (s : EqState K) (k : Cls) (r : ReactFn K) (p : ConnObj → Port)
    (i o : List ConnObj) (d : Dev K) (hd : devOf k r (i.map p) (o.map p) = some d) (hs : Spec.Solved F s d)
    (hc : CompCond k p s i o) (h1 : k ≠ .source) (h2 : k ≠ .sink) (h3 : k ≠ .cycleCloser) :
    ∀ g ∈ Spec.groups k i o, GroupMass p s g := by
  -- pairs of connections of a branch
  have one : (∀ q ∈ i.zip o, (p q.1).m = (p q.2).m) → ∀ a b, i = [a] → o = [b] → GroupMass p s (i, o) := by
    rintro h a b rfl rfl
    exact groupMass_pair p s a b (h (a, b) (by simp))
  have hthr := hc.through
  have shape1 : i.map p = [] → i = [] := by simp
  cases k
  case source => exact absurd rfl h1
  case sink => exact absurd rfl h2
  case cycleCloser => exact absurd rfl h3
  case subsystemInterface =>
    intro g hg
    obtain ⟨q, hq, rfl⟩ := List.mem_map.mp hg
    exact groupMass_pair p s _ _ (hthr q hq)
  case splitter =>
    intro g hg
    rw [List.mem_singleton.mp hg]
    rcases i with _ | ⟨a, _ | ⟨b, i⟩⟩ <;> simp [devOf] at hd
    subst hd
    exact groupMass_of p s _ _ (C35_splitter F s _ _ hs).1
  case merge =>
    intro g hg
    rw [List.mem_singleton.mp hg]
    rcases i with _ | ⟨a, i⟩ <;> rcases o with _ | ⟨b, _ | ⟨c, o⟩⟩ <;> simp [devOf] at hd
    subst hd
    have hm := hc.merge rfl
    refine groupMass_of p s _ _ (C34_merge_balances F s _ _ _ ?_ ?_ hs).1
    · intro q hq
      rw [← List.map_cons] at hq
      obtain ⟨c, hcm, rfl⟩ := List.mem_map.mp hq
      exact (hm c (by simp only [List.mem_append]; exact Or.inl hcm) b (by simp)).1
    · intro q hq
      rw [← List.map_cons, ← List.map_singleton, ← List.map_append] at hq
      obtain ⟨c, hcm, rfl⟩ := List.mem_map.mp hq
      exact (hm c hcm b (by simp)).2
  case separator =>
    intro g hg
    rw [List.mem_singleton.mp hg]
    rcases i with _ | ⟨a, _ | ⟨b, i⟩⟩ <;> simp [devOf] at hd
    subst hd
    refine groupMass_of p s _ _ ?_
    obtain ⟨cs, hcs⟩ := solved_constraints F s _ hs
    have hz := solved_zero F s _ hs cs hcs
    have hmem : (1, nodeMass s [p a] (o.map p)) ∈ cs := by
      simp only [Dev.constraints] at hcs
      split at hcs
      · split at hcs
        · simp only [Except.ok.injEq] at hcs; rw [← hcs]; simp
        · cases hcs
      · simp only [Except.ok.injEq] at hcs; rw [← hcs]; simp
    exact (nodeMass_zero s _ _).mp (hz _ hmem Nat.one_pos)
  case dropletSeparator =>
    intro g hg
    rw [List.mem_singleton.mp hg]
    rcases i with _ | ⟨a, _ | ⟨b, i⟩⟩ <;> rcases o with _ | ⟨c, _ | ⟨d', _ | ⟨e, o⟩⟩⟩ <;> simp [devOf] at hd
    subst hd
    exact groupMass_of p s _ _ (C36_droplet_separator F s _ _ _ hs).1
  case drum =>
    intro g hg
    rw [List.mem_singleton.mp hg]
    rcases i with _ | ⟨a, _ | ⟨b, _ | ⟨_, i⟩⟩⟩ <;> rcases o with _ | ⟨c, _ | ⟨d', _ | ⟨e, o⟩⟩⟩ <;> simp [devOf] at hd
    subst hd
    exact groupMass_of p s _ _ (C36_drum F s _ _ _ _ (hc.drum rfl a b c d' rfl rfl) hs).1
  case combustionChamber =>
    intro g hg
    rw [List.mem_singleton.mp hg]
    rcases i with _ | ⟨a, _ | ⟨b, _ | ⟨_, i⟩⟩⟩ <;> rcases o with _ | ⟨c, _ | ⟨d', o⟩⟩ <;> simp [devOf] at hd
    subst hd
    refine groupMass_of p s _ _ (combMass_zero s _ _ _ ?_)
    obtain ⟨cs, hcs⟩ := solved_constraints F s _ hs
    have hz := solved_zero F s _ hs cs hcs
    simp only [Dev.constraints, Except.ok.injEq] at hcs
    exact hz (1, combMass s (p a) (p b) (p c)) (by rw [← hcs]; exact List.mem_cons_self) Nat.one_pos
  case diabaticCombustionChamber =>
    intro g hg
    rw [List.mem_singleton.mp hg]
    rcases i with _ | ⟨a, _ | ⟨b, _ | ⟨_, i⟩⟩⟩ <;> rcases o with _ | ⟨c, _ | ⟨d', o⟩⟩ <;> simp [devOf] at hd
    subst hd
    refine groupMass_of p s _ _ (combMass_zero s _ _ _ ?_)
    obtain ⟨cs, hcs⟩ := solved_constraints F s _ hs
    have hz := solved_zero F s _ hs cs hcs
    simp only [Dev.constraints, Except.ok.injEq] at hcs
    exact hz (1, combMass s (p a) (p b) (p c)) (by rw [← hcs]; exact List.mem_cons_self) Nat.one_pos
  case combustionEngine =>
    rcases i with _ | ⟨a, _ | ⟨b, _ | ⟨c, _ | ⟨e, _ | ⟨_, i⟩⟩⟩⟩⟩ <;>
      rcases o with _ | ⟨x, _ | ⟨y, _ | ⟨z, _ | ⟨_, o⟩⟩⟩⟩ <;> simp [devOf] at hd
    subst hd
    simp only [Cls.through, List.zip_cons_cons, List.take, List.mem_cons, List.not_mem_nil, or_false,
      forall_eq_or_imp, forall_eq] at hthr
    simp only [Spec.groups, List.mem_cons, List.not_mem_nil, or_false, forall_eq_or_imp, forall_eq]
    refine ⟨groupMass_pair p s _ _ hthr.1, groupMass_pair p s _ _ hthr.2, ?_⟩
    refine groupMass_of p s _ _ (combMass_zero s _ _ _ ?_)
    obtain ⟨cs, hcs⟩ := solved_constraints F s _ hs
    have hz := solved_zero F s _ hs cs hcs
    simp only [Dev.constraints, Except.ok.injEq] at hcs
    exact hz (1, combMass s (p c) (p e) (p z)) (by rw [← hcs]; exact List.mem_cons_self) Nat.one_pos
  case fuelCell =>
    rcases i with _ | ⟨a, _ | ⟨b, _ | ⟨c, _ | ⟨_, i⟩⟩⟩⟩ <;>
      rcases o with _ | ⟨x, _ | ⟨y, _ | ⟨_, o⟩⟩⟩ <;> simp [devOf] at hd
    subst hd
    simp only [Cls.through, List.zip_cons_cons, List.take, List.mem_cons, List.not_mem_nil, or_false,
      forall_eq] at hthr
    simp only [Spec.groups, List.mem_cons, List.not_mem_nil, or_false, forall_eq_or_imp, forall_eq]
    exact ⟨groupMass_pair p s _ _ hthr, groupMass_of p s [b, c] [y]
      (C38_fuel_cell_partial F s _ _ _ _ _ _ _ hs (hc.cell rfl a b c x y rfl rfl)).1⟩
  case waterElectrolyzer =>
    rcases i with _ | ⟨a, _ | ⟨b, _ | ⟨_, i⟩⟩⟩ <;>
      rcases o with _ | ⟨x, _ | ⟨y, _ | ⟨z, _ | ⟨_, o⟩⟩⟩⟩ <;> simp [devOf] at hd
    subst hd
    simp only [Cls.through, List.zip_cons_cons, List.take, List.mem_cons, List.not_mem_nil, or_false,
      forall_eq] at hthr
    simp only [Spec.groups, List.mem_cons, List.not_mem_nil, or_false, forall_eq_or_imp, forall_eq]
    have he := hc.elec rfl a b x y z rfl rfl
    exact ⟨groupMass_pair p s _ _ hthr, groupMass_of p s [b] [y, z]
      (C38_electrolyzer_partial F s _ _ _ _ _ _ _ hs (he.imp id And.left) (he.imp id And.right)).1⟩
  case heatExchanger | condenser | desuperheater | movingBoundary =>
    rcases i with _ | ⟨a, _ | ⟨b, _ | ⟨_, i⟩⟩⟩ <;> rcases o with _ | ⟨x, _ | ⟨y, _ | ⟨_, o⟩⟩⟩ <;> simp [devOf] at hd
    simp only [Cls.through, List.zip_cons_cons, List.zip_nil_right, List.mem_cons, List.not_mem_nil, or_false,
      forall_eq_or_imp, forall_eq] at hthr
    simp only [Spec.groups, List.mem_cons, List.not_mem_nil, or_false, forall_eq_or_imp, forall_eq]
    exact ⟨groupMass_pair p s _ _ hthr.1, groupMass_pair p s _ _ hthr.2⟩
  all_goals
    intro g hg
    rw [List.mem_singleton.mp hg]
    rcases i with _ | ⟨a, _ | ⟨b, i⟩⟩ <;> rcases o with _ | ⟨c, _ | ⟨e, o⟩⟩ <;> simp [devOf] at hd
    exact one hthr _ _ rfl rfl

/-! ### energy balance of a component -/

/-- a group which is balanced and lies inside or outside of `S` does not contribute -/
theorem group_zero (S : ConnObj → Bool) (w : ConnObj → K) (g : List ConnObj × List ConnObj)
    (hb : (g.1.map w).sum = (g.2.map w).sum)
    (h : (∀ c ∈ g.1 ++ g.2, S c = true) ∨ (∀ c ∈ g.1 ++ g.2, S c = false)) :
    Spec.sumOn S w g.1 - Spec.sumOn S w g.2 = 0 := by
  rcases h with h | h
  · rw [sumOn_all S w g.1 (fun c hc => h c (by simp [hc])), sumOn_all S w g.2 (fun c hc => h c (by simp [hc])), hb, sub_self]
  · rw [sumOn_none S w g.1 (fun c hc => h c (by simp [hc])), sumOn_none S w g.2 (fun c hc => h c (by simp [hc])), sub_self]

theorem eqEnthalpy_zero (s : EqState K) (io : List (Port × Port)) (h : ∀ x ∈ (eqEnthalpy s io).toList, x = 0) :
    ∀ q ∈ io, s.hv q.1 = s.hv q.2 := by
  intro q hq
  exact sub_eq_zero.mp (h _ (List.mem_map.mpr ⟨q, hq, rfl⟩))

theorem comp_energy (F : PropFuncs K) (s : EqState K) (k : Cls) (r : ReactFn K) (p : ConnObj → Port) (S : ConnObj → Bool)
    (i o : List ConnObj) (d : Dev K) (hd : devOf k r (i.map p) (o.map p) = some d) (hs : Spec.Solved F s d)
    (hc : CompCond k p s i o) (h1 : k ≠ .source) (h2 : k ≠ .sink) (h3 : k ≠ .cycleCloser)
    (hS : ∀ g ∈ Spec.groups k i o, (∀ c ∈ g.1 ++ g.2, S c = true) ∨ (∀ c ∈ g.1 ++ g.2, S c = false)) :
    Spec.sumOn S (fun c => s.mv (p c) * s.hv (p c)) i + Spec.receivedBy k p s S i o
      = Spec.sumOn S (fun c => s.mv (p c) * s.hv (p c)) o := by
  have hm := group_mass F s k r p i o d hd hs hc h1 h2 h3
  have single : (i, o) ∈ Spec.groups k i o → Spec.EnergyBalance s (i.map p) (o.map p) → Spec.receivedBy k p s S i o = 0 →
      Spec.sumOn S (fun c => s.mv (p c) * s.hv (p c)) i + Spec.receivedBy k p s S i o
      = Spec.sumOn S (fun c => s.mv (p c) * s.hv (p c)) o := by
    intro hg he h0
    rw [h0, add_zero, ← sub_eq_zero]
    refine group_zero S _ (i, o) ?_ (hS _ hg)
    unfold Spec.EnergyBalance at he
    simpa [Function.comp_def] using he
  cases k
  case source => exact absurd rfl h1
  case sink => exact absurd rfl h2
  case cycleCloser => exact absurd rfl h3
  case subsystemInterface =>
    have hd0 := hd
    simp only [devOf, List.length_map] at hd
    split at hd
    · next hl =>
      simp only [Option.some.injEq] at hd
      subst hd
      obtain ⟨cs, hcs⟩ := solved_constraints F s _ hs
      have hz := solved_zero F s _ hs cs hcs
      simp only [Dev.constraints, Except.ok.injEq] at hcs
      subst hcs
      have hr0 : Spec.receivedBy .subsystemInterface p s S i o = 0 := rfl
      rw [hr0, add_zero, ← sub_eq_zero, sum_groups _ r p S _ i o _ hd0]
      rw [List.sum_eq_zero]
      intro x hx
      obtain ⟨g, hg, rfl⟩ := List.mem_map.mp hx
      refine group_zero S _ g ?_ (hS g hg)
      have hgm := hm g hg
      obtain ⟨q, hq, rfl⟩ := List.mem_map.mp hg
      have hq' : (p q.1, p q.2) ∈ (i.map p).zip (o.map p) := by
        rw [List.zip_map]
        exact List.mem_map.mpr ⟨q, hq, rfl⟩
      have hh := eqEnthalpy_zero s _ (hz (_, eqEnthalpy s ((i.map p).zip (o.map p))) (by simp)
        (List.length_pos_of_mem hq')) _ hq'
      simp only [GroupMass, List.map_cons, List.map_nil, List.sum_cons, List.sum_nil, add_zero] at hgm hh ⊢
      rw [hgm, hh]
    · cases hd
  case splitter =>
    rcases i with _ | ⟨a, _ | ⟨b, i⟩⟩ <;> simp [devOf] at hd
    subst hd
    exact single (by simp [Spec.groups]) (C35_splitter F s _ _ hs).2.2.1 rfl
  case merge =>
    rcases i with _ | ⟨a, i⟩ <;> rcases o with _ | ⟨b, _ | ⟨c, o⟩⟩ <;> simp [devOf] at hd
    subst hd
    have hm := hc.merge rfl
    refine single (by simp [Spec.groups]) (C34_merge_balances F s _ _ _ ?_ ?_ hs).2.2.1 rfl
    · intro q hq
      rw [← List.map_cons] at hq
      obtain ⟨c, hcm, rfl⟩ := List.mem_map.mp hq
      exact (hm c (by simp only [List.mem_append]; exact Or.inl hcm) b (by simp)).1
    · intro q hq
      rw [← List.map_cons, ← List.map_singleton, ← List.map_append] at hq
      obtain ⟨c, hcm, rfl⟩ := List.mem_map.mp hq
      exact (hm c hcm b (by simp)).2
  case dropletSeparator =>
    rcases i with _ | ⟨a, _ | ⟨b, i⟩⟩ <;> rcases o with _ | ⟨c, _ | ⟨d', _ | ⟨e, o⟩⟩⟩ <;> simp [devOf] at hd
    subst hd
    exact single (by simp [Spec.groups]) (C36_droplet_separator F s _ _ _ hs).2.1 rfl
  case drum =>
    rcases i with _ | ⟨a, _ | ⟨b, _ | ⟨_, i⟩⟩⟩ <;> rcases o with _ | ⟨c, _ | ⟨d', _ | ⟨e, o⟩⟩⟩ <;> simp [devOf] at hd
    subst hd
    exact single (by simp [Spec.groups]) (C36_drum F s _ _ _ _ (hc.drum rfl a b c d' rfl rfl) hs).2.1 rfl
  case valve =>
    rcases i with _ | ⟨a, _ | ⟨b, i⟩⟩ <;> rcases o with _ | ⟨c, _ | ⟨e, o⟩⟩ <;> simp [devOf] at hd
    subst hd
    refine single (by simp [Spec.groups]) ?_ rfl
    obtain ⟨cs, hcs⟩ := solved_constraints F s _ hs
    have hz := solved_zero F s _ hs cs hcs
    simp only [Dev.constraints, Except.ok.injEq] at hcs
    subst hcs
    have hh := eqEnthalpy_zero s _ (hz (_, eqEnthalpy s [(p a, p c)]) (by simp) Nat.one_pos) (p a, p c) (by simp)
    have hgm := hm ([a], [c]) (by simp [Spec.groups])
    simp only [GroupMass, List.map_cons, List.map_nil, List.sum_cons, List.sum_nil, add_zero] at hgm hh
    simp [Spec.EnergyBalance, hgm, hh]
  case separator | combustionChamber | diabaticCombustionChamber | combustionEngine | fuelCell | waterElectrolyzer =>
    simp only [Spec.receivedBy]
    ring
  case heatExchanger | condenser | desuperheater | movingBoundary =>
    rcases i with _ | ⟨a, _ | ⟨b, _ | ⟨_, i⟩⟩⟩ <;> rcases o with _ | ⟨x, _ | ⟨y, _ | ⟨_, o⟩⟩⟩ <;> simp [devOf] at hd
    subst hd
    obtain ⟨cs, hcs⟩ := solved_constraints F s _ hs
    have hz := solved_zero F s _ hs cs hcs
    simp only [Dev.constraints, Except.ok.injEq] at hcs
    have hE := hz (1, hexEnergy s (p a) (p b) (p x) (p y)) (by rw [← hcs]; exact List.mem_cons_self) Nat.one_pos
    simp only [hexEnergy, Resid.toList, List.mem_singleton, forall_eq] at hE
    simp only [Spec.groups, List.mem_cons, List.not_mem_nil, or_false, forall_eq_or_imp, forall_eq, GroupMass,
      List.map_cons, List.map_nil, List.sum_cons, List.sum_nil, add_zero] at hm
    simp only [Spec.groups, List.mem_cons, List.not_mem_nil, or_false, forall_eq_or_imp, forall_eq, List.cons_append,
      List.nil_append] at hS
    obtain ⟨hS1, hS2⟩ := hS
    simp only [Spec.receivedBy, sumOn_cons, sumOn_nil, energyRise, ← hm.1, ← hm.2]
    rcases hS1 with ⟨e1, e2⟩ | ⟨e1, e2⟩ <;> rcases hS2 with ⟨e3, e4⟩ | ⟨e3, e4⟩ <;>
      simp only [e1, e2, e3, e4, if_true, Bool.false_eq_true, if_false]
    · linear_combination -hE
    · ring
    · linear_combination -hE
    · ring
  all_goals
    rcases i with _ | ⟨a, _ | ⟨b, i⟩⟩ <;> rcases o with _ | ⟨c, _ | ⟨e, o⟩⟩ <;> simp [devOf] at hd
    have hgm := hm ([a], [c]) (by simp [Spec.groups])
    simp only [GroupMass, List.map_cons, List.map_nil, List.sum_cons, List.sum_nil, add_zero] at hgm
    simp only [Spec.groups, List.mem_cons, List.not_mem_nil, or_false, forall_eq_or_imp, forall_eq, List.cons_append,
      List.nil_append] at hS
    simp only [Spec.receivedBy, sumOn_cons, sumOn_nil, energyRise, ← hgm]
    rcases hS with ⟨e1, e2⟩ | ⟨e1, e2⟩ <;> simp only [e1, e2, if_true, Bool.false_eq_true, if_false] <;> ring

/-! ### networks -/

theorem overClass_eq (n : BalNet K) (k : Cls) (f : CompObj → K) :
    Spec.overClass n k f = (n.comps.map (fun cp => if Cls.ofName cp.ctype = some k then f cp else 0)).sum := by
  unfold Spec.overClass
  induction n.comps with
  | nil => rfl
  | cons cp l ih =>
    by_cases h : Cls.ofName cp.ctype = some k
    · rw [List.filter_cons_of_pos (by simp [h])]
      simp only [List.map_cons, List.sum_cons, ih, h, if_true]
    · rw [List.filter_cons_of_neg (by simp [h])]
      simp only [List.map_cons, List.sum_cons, ih, h, if_false, zero_add]

/-- balance of a network from balances of its components -/
theorem net_balance (n : BalNet K) (hr : Spec.Reduced n) (F : PropFuncs K) (s : EqState K) (hs : Spec.NetSolved F s n)
    (S : ConnObj → Bool) (w : ConnObj → K) (R : CompObj → K)
    (h0 : ∀ cp ∈ n.comps, ∀ k, Cls.ofName cp.ctype = some k → (k = .source ∨ k = .sink ∨ k = .cycleCloser) → R cp = 0)
    (h : ∀ cp ∈ n.comps, ∀ k d, Cls.ofName cp.ctype = some k →
      devOf k (n.react cp) ((inl n.conns cp).map n.port) ((outl n.conns cp).map n.port) = some d → Spec.Solved F s d →
      k ≠ .source → k ≠ .sink → k ≠ .cycleCloser →
      Spec.sumOn S w (inl n.conns cp) + R cp = Spec.sumOn S w (outl n.conns cp)) :
    Spec.overClass n .sink (fun cp => Spec.sumOn S w (inl n.conns cp))
      + Spec.overClass n .cycleCloser (fun cp => Spec.sumOn S w (inl n.conns cp) - Spec.sumOn S w (outl n.conns cp))
      = Spec.overClass n .source (fun cp => Spec.sumOn S w (outl n.conns cp)) + (n.comps.map R).sum := by
  have ht := net_telescopes n hr S w
  have key : ∀ cp ∈ n.comps, Spec.sumOn S w (inl n.conns cp) - Spec.sumOn S w (outl n.conns cp)
      = ((if Cls.ofName cp.ctype = some .sink then Spec.sumOn S w (inl n.conns cp) else 0)
        + (if Cls.ofName cp.ctype = some .cycleCloser then
            Spec.sumOn S w (inl n.conns cp) - Spec.sumOn S w (outl n.conns cp) else 0))
        - ((if Cls.ofName cp.ctype = some .source then Spec.sumOn S w (outl n.conns cp) else 0) + R cp) := by
    intro cp hcp
    obtain ⟨k, d, hk, hd, hsd⟩ := hs cp hcp
    by_cases e1 : k = .source
    · subst e1
      rw [h0 cp hcp _ hk (by simp)]
      generalize hi : inl n.conns cp = i at hd ⊢
      generalize outl n.conns cp = o at hd ⊢
      have : i = [] := by
        rcases i with _ | ⟨a, i⟩
        · rfl
        · simp [devOf] at hd
      subst this
      simp [hk, sumOn_nil]
    · by_cases e2 : k = .sink
      · subst e2
        rw [h0 cp hcp _ hk (by simp)]
        generalize inl n.conns cp = i at hd ⊢
        generalize outl n.conns cp = o at hd ⊢
        have : o = [] := by
          rcases i with _ | ⟨a, _ | ⟨b, i⟩⟩ <;> rcases o with _ | ⟨c, o⟩ <;> simp [devOf] at hd ⊢
        subst this
        simp [hk, sumOn_nil]
      · by_cases e3 : k = .cycleCloser
        · subst e3
          rw [h0 cp hcp _ hk (by simp)]
          simp [hk]
        · have := h cp hcp k d hk hd hsd e1 e2 e3
          simp only [hk, Option.some.injEq, e1, e2, e3, if_false]
          rw [← this]
          ring
  rw [overClass_eq, overClass_eq, overClass_eq, ← List.sum_map_add, ← List.sum_map_add, ← sub_eq_zero,
    ← list_sum_map_sub]
  exact (congrArg List.sum (List.map_congr_left (fun cp hcp => (key cp hcp).symm))).trans ht

/-- C95 (mass): in a solved network of any size, for every circuit `S` (for instance the whole network), the mass flow
arriving at sinks plus the differences at cycle closers is the mass flow leaving sources. -/
theorem C95_mass_partial (n : BalNet K) (F : PropFuncs K) (s : EqState K) (hr : Spec.Reduced n) (hb : Spec.NetBalanced n s)
    (hs : Spec.NetSolved F s n) (S : ConnObj → Bool) (hS : Spec.Circuit n S) :
    Spec.overClass n .sink (fun cp => Spec.sumOn S (Spec.massOf n s) (inl n.conns cp))
      + Spec.overClass n .cycleCloser (fun cp =>
          Spec.sumOn S (Spec.massOf n s) (inl n.conns cp) - Spec.sumOn S (Spec.massOf n s) (outl n.conns cp))
      = Spec.overClass n .source (fun cp => Spec.sumOn S (Spec.massOf n s) (outl n.conns cp)) := by
  have := net_balance n hr F s hs S (Spec.massOf n s) (fun _ => 0) (fun _ _ _ _ _ => rfl) (by
    intro cp hcp k d hk hd hsd e1 e2 e3
    rw [add_zero, ← sub_eq_zero, sum_groups k _ n.port S _ _ _ d hd, List.sum_eq_zero]
    intro x hx
    obtain ⟨g, hg, rfl⟩ := List.mem_map.mp hx
    exact group_zero S _ g (group_mass F s k _ n.port _ _ d hd hsd (compCond n s hr hb cp hcp k hk) e1 e2 e3 g hg)
      (hS cp hcp k hk g hg))
  simpa using this

/-- C95 (energy): for every circuit, the energy flow arriving at sinks plus the differences at cycle closers is the energy
flow leaving sources plus the power and heat the components report. -/
theorem C95_energy_partial (n : BalNet K) (F : PropFuncs K) (s : EqState K) (hr : Spec.Reduced n) (hb : Spec.NetBalanced n s)
    (hs : Spec.NetSolved F s n) (S : ConnObj → Bool) (hS : Spec.Circuit n S) :
    Spec.overClass n .sink (fun cp => Spec.sumOn S (Spec.energyOf n s) (inl n.conns cp))
      + Spec.overClass n .cycleCloser (fun cp =>
          Spec.sumOn S (Spec.energyOf n s) (inl n.conns cp) - Spec.sumOn S (Spec.energyOf n s) (outl n.conns cp))
      = Spec.overClass n .source (fun cp => Spec.sumOn S (Spec.energyOf n s) (outl n.conns cp))
        + (n.comps.map (Spec.netReceived n s S)).sum := by
  refine net_balance n hr F s hs S (Spec.energyOf n s) (Spec.netReceived n s S) ?_ ?_
  · intro cp _ k hk hkk
    simp only [Spec.netReceived, hk]
    rcases hkk with rfl | rfl | rfl <;> rfl
  · intro cp hcp k d hk hd hsd e1 e2 e3
    simp only [Spec.netReceived, hk]
    exact comp_energy F s k _ n.port S _ _ d hd hsd (compCond n s hr hb cp hcp k hk) e1 e2 e3 (hS cp hcp k hk)

/-- A circuit without sources and sinks, and one cycle closer. -/
structure Spec.ClosedCycle (n : BalNet K) (S : ConnObj → Bool) (cc : CompObj) (a b : ConnObj) : Prop where
  circuit : Spec.Circuit n S
  no_source : ∀ cp ∈ n.comps, Cls.ofName cp.ctype = some .source → ∀ c ∈ outl n.conns cp, S c = false
  no_sink : ∀ cp ∈ n.comps, Cls.ofName cp.ctype = some .sink → ∀ c ∈ inl n.conns cp, S c = false
  mem : cc ∈ n.comps
  cls : Cls.ofName cc.ctype = some .cycleCloser
  inl : Tespy.inl n.conns cc = [a]
  outl : Tespy.outl n.conns cc = [b]
  ina : S a = true
  inb : S b = true
  one : ∀ cp ∈ n.comps, Cls.ofName cp.ctype = some .cycleCloser → cp ≠ cc →
    ∀ c ∈ Tespy.inl n.conns cp ++ Tespy.outl n.conns cp, S c = false

theorem overClass_zero (n : BalNet K) (k : Cls) (f : CompObj → K)
    (h : ∀ cp ∈ n.comps, Cls.ofName cp.ctype = some k → f cp = 0) : Spec.overClass n k f = 0 := by
  rw [overClass_eq, List.sum_eq_zero]
  intro x hx
  obtain ⟨cp, hcp, rfl⟩ := List.mem_map.mp hx
  split
  · next hk => exact h cp hcp hk
  · rfl

theorem sum_single (l : List CompObj) (hn : l.Nodup) (cc : CompObj) (hc : cc ∈ l) (f : CompObj → K)
    (h : ∀ cp ∈ l, cp ≠ cc → f cp = 0) : (l.map f).sum = f cc := by
  induction l with
  | nil => simp at hc
  | cons a l ih =>
    rw [List.nodup_cons] at hn
    rw [List.map_cons, List.sum_cons]
    by_cases e : a = cc
    · subst e
      rw [List.sum_eq_zero, add_zero]
      intro x hx
      obtain ⟨cp, hcp, rfl⟩ := List.mem_map.mp hx
      exact h cp (by simp [hcp]) (fun e => hn.1 (e ▸ hcp))
    · rw [h a (by simp) e, zero_add]
      exact ih hn.2 (by rcases List.mem_cons.mp hc with rfl | hc; exacts [absurd rfl e, hc])
        (fun cp hcp => h cp (by simp [hcp]))

theorem overClass_closer (n : BalNet K) (hr : Spec.Reduced n) (S : ConnObj → Bool) (cc : CompObj) (a b : ConnObj)
    (hc : Spec.ClosedCycle n S cc a b) (w : ConnObj → K) :
    Spec.overClass n .cycleCloser (fun cp => Spec.sumOn S w (inl n.conns cp) - Spec.sumOn S w (outl n.conns cp))
      = w a - w b := by
  rw [overClass_eq, sum_single n.comps hr.nodup cc hc.mem]
  · simp only [hc.cls, if_true, hc.inl, hc.outl, sumOn_cons, sumOn_nil, hc.ina, hc.inb, add_zero]
  · intro cp hcp hne
    split
    · next hk =>
      have := hc.one cp hcp hk hne
      rw [sumOn_none S w _ (fun c h => this c (by simp [h])), sumOn_none S w _ (fun c h => this c (by simp [h])), sub_self]
    · rfl

/-- C95 (cycle closer): a cycle closer has no equation for the mass flow. In a closed cycle with one of them the mass flows
at its inlet and outlet agree nevertheless: the reported deviation is zero. -/
theorem C95_cycle_closer_partial (n : BalNet K) (F : PropFuncs K) (s : EqState K) (hr : Spec.Reduced n)
    (hb : Spec.NetBalanced n s) (hs : Spec.NetSolved F s n) (S : ConnObj → Bool) (cc : CompObj) (a b : ConnObj)
    (hc : Spec.ClosedCycle n S cc a b) : s.mv (n.port a) = s.mv (n.port b) := by
  have h := C95_mass_partial n F s hr hb hs S hc.circuit
  rw [overClass_closer n hr S cc a b hc, overClass_zero n .sink, overClass_zero n .source] at h
  · rw [zero_add] at h
    exact sub_eq_zero.mp h
  · exact fun cp hcp hk => sumOn_none S _ _ (hc.no_source cp hcp hk)
  · exact fun cp hcp hk => sumOn_none S _ _ (hc.no_sink cp hcp hk)

/-- C95 (first law): in a closed cycle the power and heat received by the components add up to zero: the net power
delivered is the net heat received. -/
theorem C95_first_law_partial (n : BalNet K) (F : PropFuncs K) (s : EqState K) (hr : Spec.Reduced n)
    (hb : Spec.NetBalanced n s) (hs : Spec.NetSolved F s n) (S : ConnObj → Bool) (cc : CompObj) (a b : ConnObj)
    (hc : Spec.ClosedCycle n S cc a b) : (n.comps.map (Spec.netReceived n s S)).sum = 0 := by
  have h := C95_energy_partial n F s hr hb hs S hc.circuit
  have hm := C95_cycle_closer_partial n F s hr hb hs S cc a b hc
  rw [overClass_closer n hr S cc a b hc, overClass_zero n .sink, overClass_zero n .source] at h
  · rw [zero_add, zero_add] at h
    rw [← h]
    obtain ⟨k, d, hk, hd, hsd⟩ := hs cc hc.mem
    rw [hc.cls, Option.some.injEq] at hk
    subst hk
    rw [hc.inl, hc.outl] at hd
    simp only [List.map_cons, List.map_nil, devOf, Option.some.injEq] at hd
    subst hd
    obtain ⟨cs, hcs⟩ := solved_constraints F s _ hsd
    have hz := solved_zero F s _ hsd cs hcs
    simp only [Dev.constraints, Except.ok.injEq] at hcs
    subst hcs
    have hh := eqEnthalpy_zero s _ (hz (_, eqEnthalpy s [(n.port a, n.port b)]) (by simp) Nat.one_pos)
      (n.port a, n.port b) (by simp)
    simp only [Spec.energyOf, hm, hh, sub_self]
  · exact fun cp hcp hk => sumOn_none S _ _ (hc.no_source cp hcp hk)
  · exact fun cp hcp hk => sumOn_none S _ _ (hc.no_sink cp hcp hk)

/-! ### fluids -/

/-- Classes with a reaction. -/
def Spec.reacting : Cls → Bool
  | .combustionChamber | .diabaticCombustionChamber | .combustionEngine | .fuelCell | .waterElectrolyzer => true
  | _ => false

/-- Fluid `f` is passed on in the circuit: connections of a branch of fluids share their composition (C20), merges know
the fluid, separators have an equation for it, and no reaction is part of the circuit. -/
structure Spec.Inert (n : BalNet K) (s : EqState K) (S : ConnObj → Bool) (f : String) : Prop where
  through : ∀ cp ∈ n.comps, ∀ k, Cls.ofName cp.ctype = some k → ∀ p ∈ k.through (inl n.conns cp) (outl n.conns cp),
    (n.port p.1).fl = (n.port p.2).fl
  node : ∀ cp ∈ n.comps, ∀ k, Cls.ofName cp.ctype = some k → (k = .splitter ∨ k = .drum ∨ k = .dropletSeparator) →
    ∀ a ∈ inl n.conns cp ++ outl n.conns cp, ∀ b ∈ inl n.conns cp ++ outl n.conns cp, (n.port a).fl = (n.port b).fl
  merge : ∀ cp ∈ n.comps, Cls.ofName cp.ctype = some .merge → ∀ o ∈ outl n.conns cp, f ∈ s.keys (n.port o).fl
  separator : ∀ cp ∈ n.comps, Cls.ofName cp.ctype = some .separator → outl n.conns cp ≠ [] ∧
    ∀ i ∈ inl n.conns cp, f ∈ sepFluids s (n.port i) ((outl n.conns cp).map n.port)
  reaction : ∀ cp ∈ n.comps, ∀ k, Cls.ofName cp.ctype = some k → Spec.reacting k = true →
    ∀ g ∈ Spec.groups k (inl n.conns cp) (outl n.conns cp),
      (∃ q ∈ k.through (inl n.conns cp) (outl n.conns cp), g = ([q.1], [q.2])) ∨ ∀ c ∈ g.1 ++ g.2, S c = false

/-- equal fractions turn a mass balance into a species balance -/
theorem species_of_mass (p : ConnObj → Port) (s : EqState K) (f : String) (i o : List ConnObj) (hm : GroupMass p s (i, o))
    (h : ∀ a ∈ i ++ o, ∀ b ∈ i ++ o, (p a).fl = (p b).fl) :
    (i.map (fun c => s.xv (p c) f * s.mv (p c))).sum = (o.map (fun c => s.xv (p c) f * s.mv (p c))).sum := by
  rcases hio : i ++ o with _ | ⟨a, l⟩
  · obtain ⟨rfl, rfl⟩ := List.append_eq_nil_iff.mp hio
    rfl
  · have ha : a ∈ i ++ o := by rw [hio]; simp
    have e : ∀ l : List ConnObj, (∀ c ∈ l, c ∈ i ++ o) → (l.map (fun c => s.xv (p c) f * s.mv (p c))).sum
        = s.xv (p a) f * (l.map (fun c => s.mv (p c))).sum := by
      intro l hl
      rw [← List.sum_map_mul_left]
      congr 1
      refine List.map_congr_left (fun c hc => ?_)
      simp only [EqState.xv, h c (hl c hc) a ha]
    rw [e i (fun c hc => by simp [hc]), e o (fun c hc => by simp [hc])]
    unfold GroupMass at hm
    rw [hm]

/-- C95 (species): the mass flow of a fluid is conserved in a circuit without reactions. -/
theorem C95_species_partial (n : BalNet K) (F : PropFuncs K) (s : EqState K) (hr : Spec.Reduced n) (hb : Spec.NetBalanced n s)
    (hs : Spec.NetSolved F s n) (S : ConnObj → Bool) (hS : Spec.Circuit n S) (f : String) (hf : Spec.Inert n s S f) :
    Spec.overClass n .sink (fun cp => Spec.sumOn S (Spec.speciesOf n s f) (inl n.conns cp))
      + Spec.overClass n .cycleCloser (fun cp => Spec.sumOn S (Spec.speciesOf n s f) (inl n.conns cp)
          - Spec.sumOn S (Spec.speciesOf n s f) (outl n.conns cp))
      = Spec.overClass n .source (fun cp => Spec.sumOn S (Spec.speciesOf n s f) (outl n.conns cp)) := by
  have := net_balance n hr F s hs S (Spec.speciesOf n s f) (fun _ => 0) (fun _ _ _ _ _ => rfl) (by
    intro cp hcp k d hk hd hsd e1 e2 e3
    have hm := group_mass F s k _ n.port _ _ d hd hsd (compCond n s hr hb cp hcp k hk) e1 e2 e3
    rw [add_zero, ← sub_eq_zero, sum_groups k _ n.port S _ _ _ d hd, List.sum_eq_zero]
    intro x hx
    obtain ⟨g, hg, rfl⟩ := List.mem_map.mp hx
    have hSg := hS cp hcp k hk g hg
    have hgm := hm g hg
    -- a pair of a branch
    have pair : ∀ q ∈ k.through (inl n.conns cp) (outl n.conns cp), g = ([q.1], [q.2]) →
        Spec.sumOn S (Spec.speciesOf n s f) g.1 - Spec.sumOn S (Spec.speciesOf n s f) g.2 = 0 := by
      rintro q hq rfl
      refine group_zero S _ _ ?_ hSg
      have h1 := hf.through cp hcp k hk q hq
      have h2 := hr.through cp hcp k hk q hq
      simp [Spec.speciesOf, EqState.xv, EqState.mv, h1, h2]
    have hthr := hf.through cp hcp k hk
    have hnode := hf.node cp hcp k hk
    have hre := hf.reaction cp hcp k hk
    have hbm := (compCond n s hr hb cp hcp k hk).merge
    have hmg := hf.merge cp hcp
    have hsp := hf.separator cp hcp
    rw [hk] at hmg hsp
    clear hx
    generalize inl n.conns cp = i at *
    generalize outl n.conns cp = o at *
    cases k
    case source => exact absurd rfl e1
    case sink => exact absurd rfl e2
    case cycleCloser => exact absurd rfl e3
    case subsystemInterface =>
      obtain ⟨q, hq, rfl⟩ := List.mem_map.mp hg
      exact pair q hq rfl
    case splitter | drum | dropletSeparator =>
      obtain rfl := List.mem_singleton.mp hg
      exact group_zero S _ (i, o) (species_of_mass n.port s f i o hgm (hnode (by simp))) hSg
    case merge =>
      obtain rfl := List.mem_singleton.mp hg
      rcases i with _ | ⟨a, i⟩ <;> rcases o with _ | ⟨b, _ | ⟨c, o⟩⟩ <;> simp [devOf] at hd
      subst hd
      have hm := hbm rfl
      refine group_zero S _ (a :: i, [b]) ?_ hSg
      have hq := (C34_merge_balances F s _ _ _ (by
        intro q hq
        rw [← List.map_cons] at hq
        obtain ⟨c, hcm, rfl⟩ := List.mem_map.mp hq
        exact (hm c (by simp only [List.mem_append]; exact Or.inl hcm) b (by simp)).1) (by
        intro q hq
        rw [← List.map_cons, ← List.map_singleton, ← List.map_append] at hq
        obtain ⟨c, hcm, rfl⟩ := List.mem_map.mp hq
        exact (hm c hcm b (by simp)).2) hsd).2.1 f (hmg rfl b (by simp))
      unfold Spec.SpeciesBalance at hq
      have e : Spec.speciesOf n s f = fun c => s.xv (n.port c) f * s.mv (n.port c) := rfl
      rw [e]
      simpa [Function.comp_def] using hq
    case separator =>
      obtain rfl := List.mem_singleton.mp hg
      rcases i with _ | ⟨a, _ | ⟨b, i⟩⟩ <;> simp [devOf] at hd
      subst hd
      refine group_zero S _ ([a], o) ?_ hSg
      have hq := (C35_separator_partial F s _ _ (by simpa using (hsp rfl).1) hsd).2.2.2 f ((hsp rfl).2 a (by simp))
      unfold Spec.SpeciesBalance at hq
      have e : Spec.speciesOf n s f = fun c => s.xv (n.port c) f * s.mv (n.port c) := rfl
      rw [e]
      simpa [Function.comp_def] using hq
    case combustionChamber | diabaticCombustionChamber | combustionEngine | fuelCell | waterElectrolyzer =>
      rcases hre rfl g hg with ⟨q, hq, e⟩ | h
      · exact pair q hq e
      · rw [sumOn_none S _ _ (fun c hc => h c (by simp [hc])), sumOn_none S _ _ (fun c hc => h c (by simp [hc])), sub_self]
    case heatExchanger | condenser | desuperheater | movingBoundary =>
      rcases i with _ | ⟨a, _ | ⟨b, _ | ⟨_, i⟩⟩⟩ <;> rcases o with _ | ⟨x, _ | ⟨y, _ | ⟨_, o⟩⟩⟩ <;> simp [devOf] at hd
      simp only [Spec.groups, List.mem_cons, List.not_mem_nil, or_false] at hg
      rcases hg with rfl | rfl
      · exact pair (a, x) (by simp [Cls.through]) rfl
      · exact pair (b, y) (by simp [Cls.through]) rfl
    all_goals
      obtain rfl := List.mem_singleton.mp hg
      rcases i with _ | ⟨a, _ | ⟨b, i⟩⟩ <;> rcases o with _ | ⟨c, _ | ⟨e, o⟩⟩ <;> simp [devOf] at hd
      exact pair (a, c) (by simp [Cls.through]) rfl)
  simpa using this

/-- C95 (composition): a cycle closer has no equation for the composition either. In a closed cycle with one of them and
without reactions the mass flows of a fluid at its inlet and outlet agree; so do the mass fractions if there is flow. -/
theorem C95_cycle_fluid_partial {L : Type} [Field L] (n : BalNet L) (F : PropFuncs L) (s : EqState L) (hr : Spec.Reduced n)
    (hb : Spec.NetBalanced n s) (hs : Spec.NetSolved F s n) (S : ConnObj → Bool) (cc : CompObj) (a b : ConnObj)
    (hc : Spec.ClosedCycle n S cc a b) (f : String) (hf : Spec.Inert n s S f) (hm0 : s.mv (n.port a) ≠ 0) :
    s.xv (n.port a) f = s.xv (n.port b) f := by
  have h := C95_species_partial n F s hr hb hs S hc.circuit f hf
  have hm := C95_cycle_closer_partial n F s hr hb hs S cc a b hc
  rw [overClass_closer n hr S cc a b hc, overClass_zero n .sink, overClass_zero n .source] at h
  · rw [zero_add, Spec.speciesOf, Spec.speciesOf, ← hm, ← sub_mul] at h
    rcases mul_eq_zero.mp h with h | h
    · exact sub_eq_zero.mp h
    · exact absurd h hm0
  · exact fun cp hcp hk => sumOn_none S _ _ (hc.no_source cp hcp hk)
  · exact fun cp hcp hk => sumOn_none S _ _ (hc.no_sink cp hcp hk)

end

/-! ### examples and refutations -/

/-- property functions for examples: constant saturation states, temperature is a fifth of the enthalpy -/
def nbProps : PropFuncs ℚ := ⟨fun _ _ _ => 0, fun _ _ _ => 0, fun _ _ _ => 300, fun _ _ _ => 0, fun _ _ _ => 0⟩
/-- no reactions -/
def nbReact : CompObj → ReactFn ℚ := fun _ => ⟨0, fun _ _ => 0, fun _ => 0, fun _ => 0, fun _ => 0, fun _ => 0, fun _ => 0⟩

/-- cycle closer -/
def nbCc : CompObj := ⟨0, "cc", "CycleCloser", ["in1"], ["out1"]⟩
/-- pump -/
def nbPu : CompObj := ⟨1, "pu", "Pump", ["in1"], ["out1"]⟩
/-- boiler -/
def nbHx : CompObj := ⟨2, "hx", "HeatExchanger", ["in1", "in2"], ["out1", "out2"]⟩
/-- turbine -/
def nbTu : CompObj := ⟨3, "tu", "Turbine", ["in1"], ["out1"]⟩
/-- condenser -/
def nbCo : CompObj := ⟨4, "co", "SimpleHeatExchanger", ["in1"], ["out1"]⟩
/-- source of hot gas -/
def nbSo : CompObj := ⟨5, "so", "Source", [], ["out1"]⟩
/-- sink -/
def nbSi : CompObj := ⟨6, "si", "Sink", ["in1"], []⟩
/-- connections of the cycle -/
def nb0 : ConnObj := ⟨0, "0", nbCc, "out1", nbPu, "in1"⟩
/-- feed water -/
def nb1 : ConnObj := ⟨1, "1", nbPu, "out1", nbHx, "in2"⟩
/-- live steam -/
def nb2 : ConnObj := ⟨2, "2", nbHx, "out2", nbTu, "in1"⟩
/-- exhaust steam -/
def nb3 : ConnObj := ⟨3, "3", nbTu, "out1", nbCo, "in1"⟩
/-- condensate -/
def nb4 : ConnObj := ⟨4, "4", nbCo, "out1", nbCc, "in1"⟩
/-- hot gas -/
def nb5 : ConnObj := ⟨5, "5", nbSo, "out1", nbHx, "in1"⟩
/-- cold gas -/
def nb6 : ConnObj := ⟨6, "6", nbHx, "out1", nbSi, "in1"⟩

/-- A steam cycle heated by a gas stream. -/
def nbNet : BalNet ℚ where
  conns := [nb0, nb1, nb2, nb3, nb4, nb5, nb6]
  comps := [nbCc, nbPu, nbHx, nbTu, nbCo, nbSo, nbSi]
  port := fun c => ⟨if c.id ≤ 4 then 0 else 1, c.id, c.id, if c.id ≤ 4 then 0 else 1⟩
  react := nbReact

/-- its state: mass flow 2, enthalpies 10, 12, 60, 40, 10; gas with mass flow 4 cools from 90 to 66 -/
def nbState : EqState ℚ where
  val := fun v => match v with
    | .m i => if i = 0 then 2 else 4
    | .p i => if i = 1 ∨ i = 2 then 100 else 1
    | .h i => if i = 0 then 10 else if i = 1 then 12 else if i = 2 then 60 else if i = 3 then 40 else if i = 4 then 10
        else if i = 5 then 90 else 66
    | _ => 1
  isVar := fun _ => true
  col := fun _ => none
  keys := fun _ => ["water"]
  fixed := fun _ => ["water"]

/-- the connections of the cycle -/
def nbCycle (c : ConnObj) : Bool := decide (c.id ≤ 4)

theorem nb_in : inl nbNet.conns nbCc = [nb4] ∧ inl nbNet.conns nbPu = [nb0] ∧ inl nbNet.conns nbHx = [nb5, nb1] ∧
    inl nbNet.conns nbTu = [nb2] ∧ inl nbNet.conns nbCo = [nb3] ∧ inl nbNet.conns nbSo = [] ∧
    inl nbNet.conns nbSi = [nb6] := by decide +kernel
theorem nb_out : outl nbNet.conns nbCc = [nb0] ∧ outl nbNet.conns nbPu = [nb1] ∧ outl nbNet.conns nbHx = [nb6, nb2] ∧
    outl nbNet.conns nbTu = [nb3] ∧ outl nbNet.conns nbCo = [nb4] ∧ outl nbNet.conns nbSo = [nb5] ∧
    outl nbNet.conns nbSi = [] := by decide +kernel
theorem nb_cls : Cls.ofName nbCc.ctype = some .cycleCloser ∧ Cls.ofName nbPu.ctype = some .pump ∧
    Cls.ofName nbHx.ctype = some .heatExchanger ∧ Cls.ofName nbTu.ctype = some .turbine ∧
    Cls.ofName nbCo.ctype = some .simpleHeatExchanger ∧ Cls.ofName nbSo.ctype = some .source ∧
    Cls.ofName nbSi.ctype = some .sink := by decide +kernel

theorem nb_solved : Spec.NetSolved nbProps nbState nbNet := by
  obtain ⟨i1, i2, i3, i4, i5, i6, i7⟩ := nb_in
  obtain ⟨o1, o2, o3, o4, o5, o6, o7⟩ := nb_out
  obtain ⟨c1, c2, c3, c4, c5, c6, c7⟩ := nb_cls
  intro cp hcp
  simp only [nbNet, List.mem_cons, List.not_mem_nil, or_false] at hcp
  rcases hcp with rfl | rfl | rfl | rfl | rfl | rfl | rfl
  · exact ⟨_, _, c1, by rw [i1, o1]; rfl, ⟨[0, 0], by decide +kernel, by simp⟩⟩
  · exact ⟨_, _, c2, by rw [i2, o2]; rfl, ⟨[], by decide +kernel, by simp⟩⟩
  · exact ⟨_, _, c3, by rw [i3, o3]; rfl, ⟨[0], by decide +kernel, by simp⟩⟩
  · exact ⟨_, _, c4, by rw [i4, o4]; rfl, ⟨[], by decide +kernel, by simp⟩⟩
  · exact ⟨_, _, c5, by rw [i5, o5]; rfl, ⟨[], by decide +kernel, by simp⟩⟩
  · exact ⟨_, _, c6, by rw [i6, o6]; rfl, ⟨[], by decide +kernel, by simp⟩⟩
  · exact ⟨_, _, c7, by rw [i7, o7]; rfl, ⟨[], by decide +kernel, by simp⟩⟩

theorem nb_reduced : Spec.Reduced nbNet := by
  obtain ⟨i1, i2, i3, i4, i5, i6, i7⟩ := nb_in
  obtain ⟨o1, o2, o3, o4, o5, o6, o7⟩ := nb_out
  obtain ⟨c1, c2, c3, c4, c5, c6, c7⟩ := nb_cls
  refine ⟨by decide +kernel, by decide +kernel, ?_, ?_⟩
  · intro cp hcp k hk
    simp only [nbNet, List.mem_cons, List.not_mem_nil, or_false] at hcp
    rcases hcp with rfl | rfl | rfl | rfl | rfl | rfl | rfl
    · rw [c1] at hk; cases hk; rw [i1, o1]; decide +kernel
    · rw [c2] at hk; cases hk; rw [i2, o2]; decide +kernel
    · rw [c3] at hk; cases hk; rw [i3, o3]; decide +kernel
    · rw [c4] at hk; cases hk; rw [i4, o4]; decide +kernel
    · rw [c5] at hk; cases hk; rw [i5, o5]; decide +kernel
    · rw [c6] at hk; cases hk; rw [i6, o6]; decide +kernel
    · rw [c7] at hk; cases hk; rw [i7, o7]; decide +kernel
  · intro cp hcp hk
    simp only [nbNet, List.mem_cons, List.not_mem_nil, or_false] at hcp
    exfalso
    rcases hcp with rfl | rfl | rfl | rfl | rfl | rfl | rfl <;> revert hk <;> decide +kernel

theorem nb_balanced : Spec.NetBalanced nbNet nbState := by
  refine ⟨?_, ?_, ?_⟩ <;>
  · intro cp hcp hk
    simp only [nbNet, List.mem_cons, List.not_mem_nil, or_false] at hcp
    exfalso
    rcases hcp with rfl | rfl | rfl | rfl | rfl | rfl | rfl <;> revert hk <;> decide +kernel

theorem nb_circuit (S : ConnObj → Bool) (h : S nb0 = S nb1 ∧ S nb1 = S nb2 ∧ S nb2 = S nb3 ∧ S nb3 = S nb4 ∧ S nb5 = S nb6) :
    Spec.Circuit nbNet S := by
  obtain ⟨i1, i2, i3, i4, i5, i6, i7⟩ := nb_in
  obtain ⟨o1, o2, o3, o4, o5, o6, o7⟩ := nb_out
  obtain ⟨c1, c2, c3, c4, c5, c6, c7⟩ := nb_cls
  obtain ⟨h1, h2, h3, h4, h5⟩ := h
  intro cp hcp k hk
  simp only [nbNet, List.mem_cons, List.not_mem_nil, or_false] at hcp
  rcases hcp with rfl | rfl | rfl | rfl | rfl | rfl | rfl
  · rw [c1] at hk; cases hk; rw [i1, o1]
    cases e : S nb4 <;> simp [Spec.groups, h1, h2, h3, h4, e]
  · rw [c2] at hk; cases hk; rw [i2, o2]
    cases e : S nb4 <;> simp [Spec.groups, h1, h2, h3, h4, e]
  · rw [c3] at hk; cases hk; rw [i3, o3]
    cases e : S nb4 <;> cases e' : S nb6 <;> simp [Spec.groups, h2, h3, h4, h5, e, e']
  · rw [c4] at hk; cases hk; rw [i4, o4]
    cases e : S nb4 <;> simp [Spec.groups, h3, h4, e]
  · rw [c5] at hk; cases hk; rw [i5, o5]
    cases e : S nb4 <;> simp [Spec.groups, h4, e]
  · rw [c6] at hk; cases hk; rw [i6, o6]
    cases e : S nb6 <;> simp [Spec.groups, h5, e]
  · rw [c7] at hk; cases hk; rw [i7, o7]
    cases e : S nb6 <;> simp [Spec.groups, e]

theorem nb_closed : Spec.ClosedCycle nbNet nbCycle nbCc nb4 nb0 where
  circuit := nb_circuit _ (by decide +kernel)
  no_source := by decide +kernel
  no_sink := by decide +kernel
  mem := by decide +kernel
  cls := nb_cls.1
  inl := nb_in.1
  outl := nb_out.1
  ina := by decide +kernel
  inb := by decide +kernel
  one := by decide +kernel

theorem nb_inert : Spec.Inert nbNet nbState nbCycle "water" := by
  obtain ⟨i1, i2, i3, i4, i5, i6, i7⟩ := nb_in
  obtain ⟨o1, o2, o3, o4, o5, o6, o7⟩ := nb_out
  obtain ⟨c1, c2, c3, c4, c5, c6, c7⟩ := nb_cls
  refine ⟨?_, ?_, ?_, ?_, ?_⟩
  · intro cp hcp k hk
    simp only [nbNet, List.mem_cons, List.not_mem_nil, or_false] at hcp
    rcases hcp with rfl | rfl | rfl | rfl | rfl | rfl | rfl
    · rw [c1] at hk; cases hk; rw [i1, o1]; decide +kernel
    · rw [c2] at hk; cases hk; rw [i2, o2]; decide +kernel
    · rw [c3] at hk; cases hk; rw [i3, o3]; decide +kernel
    · rw [c4] at hk; cases hk; rw [i4, o4]; decide +kernel
    · rw [c5] at hk; cases hk; rw [i5, o5]; decide +kernel
    · rw [c6] at hk; cases hk; rw [i6, o6]; decide +kernel
    · rw [c7] at hk; cases hk; rw [i7, o7]; decide +kernel
  · intro cp hcp k hk hkk
    simp only [nbNet, List.mem_cons, List.not_mem_nil, or_false] at hcp
    exfalso
    rcases hkk with rfl | rfl | rfl <;> rcases hcp with rfl | rfl | rfl | rfl | rfl | rfl | rfl <;> revert hk <;>
      decide +kernel
  · intro cp hcp hk
    simp only [nbNet, List.mem_cons, List.not_mem_nil, or_false] at hcp
    exfalso
    rcases hcp with rfl | rfl | rfl | rfl | rfl | rfl | rfl <;> revert hk <;> decide +kernel
  · intro cp hcp hk
    simp only [nbNet, List.mem_cons, List.not_mem_nil, or_false] at hcp
    exfalso
    rcases hcp with rfl | rfl | rfl | rfl | rfl | rfl | rfl <;> revert hk <;> decide +kernel
  · intro cp hcp k hk hre
    simp only [nbNet, List.mem_cons, List.not_mem_nil, or_false] at hcp
    exfalso
    rcases hcp with rfl | rfl | rfl | rfl | rfl | rfl | rfl
    · rw [c1] at hk; cases hk; cases hre
    · rw [c2] at hk; cases hk; cases hre
    · rw [c3] at hk; cases hk; cases hre
    · rw [c4] at hk; cases hk; cases hre
    · rw [c5] at hk; cases hk; cases hre
    · rw [c6] at hk; cases hk; cases hre
    · rw [c7] at hk; cases hk; cases hre

-- non-vacuity: the hypotheses hold for a steam cycle; the cycle receives 4 from the pump and 96 from the gas and gives
-- 40 to the turbine and 60 to the condenser; the gas stream loses 96
example : nbNet.comps.map (Spec.netReceived nbNet nbState nbCycle) = [0, 4, 96, -40, -60, 0, 0] ∧
    (nbNet.comps.map (Spec.netReceived nbNet nbState nbCycle)).sum = 0 ∧
    Spec.overClass nbNet .sink (fun cp => Spec.sumOn (fun c => !nbCycle c) (Spec.energyOf nbNet nbState) (inl nbNet.conns cp))
      = Spec.overClass nbNet .source
          (fun cp => Spec.sumOn (fun c => !nbCycle c) (Spec.energyOf nbNet nbState) (outl nbNet.conns cp)) - 96 :=
  ⟨by decide +kernel,
    C95_first_law_partial nbNet nbProps nbState nb_reduced nb_balanced nb_solved nbCycle nbCc nb4 nb0 nb_closed,
    by decide +kernel⟩

example : nbState.mv (nbNet.port nb4) = nbState.mv (nbNet.port nb0) ∧
    nbState.xv (nbNet.port nb4) "water" = nbState.xv (nbNet.port nb0) "water" :=
  ⟨C95_cycle_closer_partial nbNet nbProps nbState nb_reduced nb_balanced nb_solved nbCycle nbCc nb4 nb0 nb_closed,
    C95_cycle_fluid_partial nbNet nbProps nbState nb_reduced nb_balanced nb_solved nbCycle nbCc nb4 nb0 nb_closed "water"
      nb_inert (by decide +kernel)⟩

/-- second cycle closer -/
def nbCd : CompObj := ⟨7, "cd", "CycleCloser", ["in1"], ["out1"]⟩
/-- connections of a cycle with two cycle closers -/
def nb7 : ConnObj := ⟨7, "7", nbPu, "out1", nbCd, "in1"⟩
/-- from the second cycle closer to the turbine -/
def nb8 : ConnObj := ⟨8, "8", nbCd, "out1", nbTu, "in1"⟩
/-- from the turbine to the first cycle closer -/
def nb9 : ConnObj := ⟨9, "9", nbTu, "out1", nbCc, "in1"⟩
/-- A cycle of pump and turbine with two cycle closers. -/
def nbNet2 : BalNet ℚ where
  conns := [nb0, nb7, nb8, nb9]
  comps := [nbCc, nbPu, nbCd, nbTu]
  port := fun c => ⟨if c.id ≤ 7 then 0 else 1, c.id, c.id, 0⟩
  react := nbReact
/-- mass flow 2 in the pump and 4 in the turbine -/
def nbState2 : EqState ℚ where
  val := fun v => match v with
    | .m i => if i = 0 then 2 else 4
    | .p i => if i = 7 ∨ i = 8 then 100 else 1
    | .h i => if i = 7 ∨ i = 8 then 12 else 10
    | _ => 1
  isVar := fun _ => true
  col := fun _ => none
  keys := fun _ => ["water"]
  fixed := fun _ => ["water"]

/-- C95, the part that fails: with two cycle closers in a cycle all equations are satisfied although the mass flow of the
turbine is twice that of the pump and the power delivered exceeds the power received. -/
theorem C95_two_closers_false :
    Spec.NetSolved nbProps nbState2 nbNet2 ∧ (∀ c ∈ nbNet2.conns, c.source ∈ nbNet2.comps ∧ c.target ∈ nbNet2.comps) ∧
    (∀ cp ∈ nbNet2.comps, Cls.ofName cp.ctype ≠ some .source ∧ Cls.ofName cp.ctype ≠ some .sink) ∧
    nbState2.mv (nbNet2.port nb0) = 2 ∧ nbState2.mv (nbNet2.port nb9) = 4 ∧
    (nbNet2.comps.map (Spec.netReceived nbNet2 nbState2 (fun _ => true))).sum = -4 := by
  refine ⟨?_, by decide +kernel, by decide +kernel, by decide +kernel, by decide +kernel, by decide +kernel⟩
  have i : inl nbNet2.conns nbCc = [nb9] ∧ inl nbNet2.conns nbPu = [nb0] ∧ inl nbNet2.conns nbCd = [nb7] ∧
    inl nbNet2.conns nbTu = [nb8] := by decide +kernel
  have o : outl nbNet2.conns nbCc = [nb0] ∧ outl nbNet2.conns nbPu = [nb7] ∧ outl nbNet2.conns nbCd = [nb8] ∧
    outl nbNet2.conns nbTu = [nb9] := by decide +kernel
  have c : Cls.ofName nbCd.ctype = some .cycleCloser := by decide +kernel
  intro cp hcp
  simp only [nbNet2, List.mem_cons, List.not_mem_nil, or_false] at hcp
  rcases hcp with rfl | rfl | rfl | rfl
  · exact ⟨_, _, nb_cls.1, by rw [i.1, o.1]; rfl, ⟨[0, 0], by decide +kernel, by simp⟩⟩
  · exact ⟨_, _, nb_cls.2.1, by rw [i.2.1, o.2.1]; rfl, ⟨[], by decide +kernel, by simp⟩⟩
  · exact ⟨_, _, c, by rw [i.2.2.1, o.2.2.1]; rfl, ⟨[0, 0], by decide +kernel, by simp⟩⟩
  · exact ⟨_, _, nb_cls.2.2.2.1, by rw [i.2.2.2, o.2.2.2]; rfl, ⟨[], by decide +kernel, by simp⟩⟩

/-- separator of an example -/
def nbSe : CompObj := ⟨8, "se", "Separator", ["in1"], ["out1", "out2"]⟩
/-- second sink -/
def nbSj : CompObj := ⟨9, "sj", "Sink", ["in1"], []⟩
/-- mixture -/
def nb10 : ConnObj := ⟨10, "10", nbSo, "out1", nbSe, "in1"⟩
/-- first fluid -/
def nb11 : ConnObj := ⟨11, "11", nbSe, "out1", nbSi, "in1"⟩
/-- second fluid -/
def nb12 : ConnObj := ⟨12, "12", nbSe, "out2", nbSj, "in1"⟩
/-- A separator between a source and two sinks. -/
def nbNet3 : BalNet ℚ where
  conns := [nb10, nb11, nb12]
  comps := [nbSo, nbSe, nbSi, nbSj]
  port := fun c => ⟨c.id, c.id, c.id, c.id⟩
  react := nbReact
/-- Two fluids are separated completely; the enthalpy of the mixture is 10, those of the fluids are 7 and 8 at the same
temperature (heat of mixing 2.5). -/
def nbState3 : EqState ℚ where
  val := fun v => match v with
    | .m i => if i = 10 then 2 else 1
    | .p _ => 1
    | .h i => if i = 10 then 10 else if i = 11 then 7 else 8
    | .x i f => if i = 10 then 1 / 2 else if i = 11 then (if f = "N2" then 1 else 0) else (if f = "N2" then 0 else 1)
    | _ => 1
  isVar := fun _ => true
  col := fun _ => none
  keys := fun _ => ["N2", "O2"]
  fixed := fun _ => []

/-- C95, the part that fails: the equations of a separator demand equal temperatures, not a balance of energy. If the
enthalpy of the mixture differs from that of the separated fluids, energy is lost without being reported. -/
theorem C95_separator_false :
    Spec.NetSolved nbProps nbState3 nbNet3 ∧
    (∀ c ∈ nbNet3.conns, Spec.SumOne nbState3 (nbNet3.port c)) ∧
    Spec.overClass nbNet3 .source (fun cp => Spec.sumOn (fun _ => true) (Spec.energyOf nbNet3 nbState3)
      (outl nbNet3.conns cp)) = 20 ∧
    Spec.overClass nbNet3 .sink (fun cp => Spec.sumOn (fun _ => true) (Spec.energyOf nbNet3 nbState3)
      (inl nbNet3.conns cp)) = 15 := by
  refine ⟨?_, by unfold Spec.SumOne; decide +kernel, by decide +kernel, by decide +kernel⟩
  have i : inl nbNet3.conns nbSo = [] ∧ inl nbNet3.conns nbSe = [nb10] ∧ inl nbNet3.conns nbSi = [nb11] ∧
    inl nbNet3.conns nbSj = [nb12] := by decide +kernel
  have o : outl nbNet3.conns nbSo = [nb10] ∧ outl nbNet3.conns nbSe = [nb11, nb12] ∧ outl nbNet3.conns nbSi = [] ∧
    outl nbNet3.conns nbSj = [] := by decide +kernel
  have c : Cls.ofName nbSo.ctype = some .source ∧ Cls.ofName nbSe.ctype = some .separator ∧
    Cls.ofName nbSi.ctype = some .sink ∧ Cls.ofName nbSj.ctype = some .sink := by decide +kernel
  intro cp hcp
  simp only [nbNet3, List.mem_cons, List.not_mem_nil, or_false] at hcp
  rcases hcp with rfl | rfl | rfl | rfl
  · exact ⟨_, _, c.1, by rw [i.1, o.1]; rfl, ⟨[], by decide +kernel, by simp⟩⟩
  · exact ⟨_, _, c.2.1, by rw [i.2.1, o.2.1]; rfl, ⟨[0, 0, 0, 0, 0, 0, 0], by decide +kernel, by simp⟩⟩
  · exact ⟨_, _, c.2.2.1, by rw [i.2.2.1, o.2.2.1]; rfl, ⟨[], by decide +kernel, by simp⟩⟩
  · exact ⟨_, _, c.2.2.2, by rw [i.2.2.2, o.2.2.2]; rfl, ⟨[], by decide +kernel, by simp⟩⟩

end Tespy
