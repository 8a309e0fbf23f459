import Verif.Props.Units
import Verif.Model.NetworkAttr
/-
C03: units and value ranges of a network under arbitrary histories of
`Network.set_attr`.
-/
namespace Tespy
open Tespy.Spec

/-- Every unit stored in the network is a unit of the table. -/
def NetAttr.UnitsListed (s : NetAttr) : Prop := ∀ p, (siMeaning p (s.unit p)).isSome

/-- The displayed ranges are the SI bounds in the current unit: converting each
displayed bound to SI gives the bound the solver uses. -/
def NetAttr.RangesMean (s : NetAttr) : Prop :=
  ∀ r : RangeProp, List.Forall₂ (fun shown si => convertToSI r.prop shown (s.unit r.prop) = .ok si)
    (s.range r) (s.rangeSI r)

theorem table_isSome_iff (p : FluidProp) (u : String) :
    ((unitTable p).get? u).isSome ↔ (siMeaning p u).isSome := by
  have h := convertToSI_meaning p u 0
  unfold convertToSI lookupUnit Dict.getItem at h
  cases h1 : Dict.get? (unitTable p) u <;> cases h2 : siMeaning p u <;> simp [h1, h2] at h ⊢
  split at h <;> simp at h

theorem applyUnits_spec (kw : FluidProp → Option String) (ps : List FluidProp) (s : NetAttr)
    (hs : s.UnitsListed) :
    (applyUnits kw ps s).1.UnitsListed ∧ (applyUnits kw ps s).1.rangeSI = s.rangeSI ∧
    (applyUnits kw ps s).1.range = s.range ∧ (applyUnits kw ps s).1.iterinfo = s.iterinfo ∧
    ((applyUnits kw ps s).2 = none →
      (∀ p ∈ ps, ∀ u, kw p = some u → (siMeaning p u).isSome) ∧
      (∀ p, (applyUnits kw ps s).1.unit p = if p ∈ ps then (kw p).getD (s.unit p) else s.unit p)) := by
  induction ps generalizing s with
  | nil => simp [applyUnits, hs]
  | cons p ps ih =>
    unfold applyUnits
    cases hk : kw p with
    | none =>
      obtain ⟨h1, h2, h3, h4, h5⟩ := ih s hs
      refine ⟨h1, h2, h3, h4, fun h => ⟨?_, ?_⟩⟩
      · intro q hq u hu
        rcases List.mem_cons.mp hq with rfl | hq
        · simp [hk] at hu
        · exact (h5 h).1 q hq u hu
      · intro q
        simp only
        rw [(h5 h).2 q]
        by_cases hqp : q = p
        · subst hqp; simp [hk]
        · simp [hqp]
    | some u =>
      simp only
      by_cases hu : ((unitTable p).get? u).isSome
      · rw [if_pos hu]
        have hs' : NetAttr.UnitsListed { s with unit := fun q => if q = p then u else s.unit q } := by
          intro q
          by_cases hqp : q = p
          · subst hqp; simpa using (table_isSome_iff q u).mp hu
          · simpa [hqp] using hs q
        obtain ⟨h1, h2, h3, h4, h5⟩ := ih _ hs'
        refine ⟨h1, h2, h3, h4, fun h => ⟨?_, ?_⟩⟩
        · intro q hq v hv
          rcases List.mem_cons.mp hq with rfl | hq
          · rw [hk] at hv; cases hv; exact (table_isSome_iff _ _).mp hu
          · exact (h5 h).1 q hq v hv
        · intro q
          rw [(h5 h).2 q]
          by_cases hqp : q = p
          · subst hqp; simp [hk]
          · simp [hqp]
      · rw [if_neg hu]
        exact ⟨hs, rfl, rfl, rfl, by simp⟩

theorem listToSI_spec (p : FluidProp) (u : String) (l : List ℚ) (si : List ℚ)
    (h : listToSI p u l = .ok si) :
    List.Forall₂ (fun v s => convertToSI p v u = .ok s) l si := by
  induction l generalizing si with
  | nil => simp [listToSI] at h; subst h; exact .nil
  | cons v l ih =>
    unfold listToSI at h
    cases ha : convertToSI p v u with
    | error e => simp [ha, bind, Except.bind] at h
    | ok a =>
      cases hb : listToSI p u l with
      | error e => simp [ha, hb, bind, Except.bind] at h
      | ok b => simp [ha, hb, bind, Except.bind] at h; subst h; exact .cons ha (ih b hb)

theorem listFromSI_spec (p : FluidProp) (u : String) (hu : (siMeaning p u).isSome) (l : List ℚ) :
    ∃ r, listFromSI p u l = .ok r ∧ List.Forall₂ (fun v s => convertToSI p v u = .ok s) r l := by
  induction l with
  | nil => exact ⟨[], rfl, .nil⟩
  | cons v l ih =>
    obtain ⟨r, hr, hf⟩ := ih
    obtain ⟨_, w, hw, hw'⟩ := C01_unit_roundtrip p u hu v
    exact ⟨w :: r, by simp [listFromSI, hw, hr, bind, Except.bind], .cons hw' hf⟩

theorem applyRanges_spec (kw : RangeProp → Option RangeArg) (ps : List RangeProp) (s : NetAttr) :
    (applyRanges kw ps s).1.unit = s.unit ∧ (applyRanges kw ps s).1.range = s.range ∧
    (applyRanges kw ps s).1.iterinfo = s.iterinfo ∧
    (∀ q, q ∉ ps ∨ kw q = none → (applyRanges kw ps s).1.rangeSI q = s.rangeSI q) ∧
    (ps.Nodup → (applyRanges kw ps s).2 = none → ∀ q ∈ ps, ∀ a, kw q = some a → ∃ l, a = .list l ∧
      List.Forall₂ (fun v si => convertToSI q.prop v (s.unit q.prop) = .ok si) l
        ((applyRanges kw ps s).1.rangeSI q)) := by
  induction ps generalizing s with
  | nil => simp [applyRanges]
  | cons p ps ih =>
    unfold applyRanges
    cases hk : kw p with
    | none =>
      obtain ⟨h1, h2, h3, h4, h5⟩ := ih s
      refine ⟨h1, h2, h3, fun q hq => h4 q ?_, fun hnd h q hq a ha => ?_⟩
      · rcases hq with hq | hq
        · exact Or.inl (fun hc => hq (List.mem_cons_of_mem _ hc))
        · exact Or.inr hq
      · rcases List.mem_cons.mp hq with rfl | hq
        · simp [hk] at ha
        · exact h5 (List.nodup_cons.mp hnd).2 h q hq a ha
    | some a =>
      cases a with
      | other => exact ⟨rfl, rfl, rfl, fun _ _ => rfl, by simp⟩
      | list l =>
        simp only
        cases hl : listToSI p.prop (s.unit p.prop) l with
        | error e => exact ⟨rfl, rfl, rfl, fun _ _ => rfl, by simp⟩
        | ok si =>
          simp only
          have hne : ∀ q, (q ∉ p :: ps ∨ kw q = none) → q ≠ p := by
            rintro q (hq | hq) rfl
            · exact hq (by simp)
            · simp [hk] at hq
          by_cases hlen : si.length < 2
          · rw [if_pos hlen]
            refine ⟨rfl, rfl, rfl, fun q hq => ?_, by simp⟩
            simp [hne q hq]
          · rw [if_neg hlen]
            obtain ⟨h1, h2, h3, h4, h5⟩ := ih { s with rangeSI := fun q => if q = p then si else s.rangeSI q }
            refine ⟨h1, h2, h3, fun q hq => ?_, fun hnd h q hq a ha => ?_⟩
            · have hq' : q ∉ ps ∨ kw q = none := by
                rcases hq with hq | hq
                · exact Or.inl (fun hc => hq (List.mem_cons_of_mem _ hc))
                · exact Or.inr hq
              rw [h4 q hq']; simp [hne q hq]
            · rcases List.mem_cons.mp hq with rfl | hq
              · rw [hk] at ha; cases ha
                refine ⟨l, rfl, ?_⟩
                rw [h4 q (Or.inl (List.nodup_cons.mp hnd).1)]
                simpa using listToSI_spec _ _ _ _ hl
              · exact h5 (List.nodup_cons.mp hnd).2 h q hq a ha

theorem updateRanges_spec (ps : List RangeProp) (s : NetAttr) (hs : s.UnitsListed) :
    (updateRanges ps s).1.unit = s.unit ∧ (updateRanges ps s).1.rangeSI = s.rangeSI ∧
    (updateRanges ps s).1.iterinfo = s.iterinfo ∧ (updateRanges ps s).2 = none ∧
    (∀ q, q ∉ ps → (updateRanges ps s).1.range q = s.range q) ∧
    (ps.Nodup → ∀ q ∈ ps, List.Forall₂
      (fun v si => convertToSI q.prop v (s.unit q.prop) = .ok si)
        ((updateRanges ps s).1.range q) (s.rangeSI q)) := by
  induction ps generalizing s with
  | nil => simp [updateRanges]
  | cons p ps ih =>
    unfold updateRanges
    obtain ⟨r, hr, hf⟩ := listFromSI_spec p.prop (s.unit p.prop) (hs p.prop) (s.rangeSI p)
    rw [hr]
    simp only
    obtain ⟨h1, h2, h3, h4, h5, h6⟩ := ih { s with range := fun q => if q = p then r else s.range q } hs
    refine ⟨h1, h2, h3, h4, fun q hq => ?_, fun hnd q hq => ?_⟩
    · rw [h5 q (fun hc => hq (List.mem_cons_of_mem _ hc))]
      have : q ≠ p := fun hc => hq (hc ▸ List.mem_cons_self)
      simp [this]
    · rcases List.mem_cons.mp hq with rfl | hq
      · rw [h5 q (List.nodup_cons.mp hnd).1]; simpa using hf
      · exact h6 (List.nodup_cons.mp hnd).2 q hq

theorem setAttr_spec (s : NetAttr) (kw : NetKwargs) (hs : s.UnitsListed) :
    (s.setAttr kw).1.UnitsListed ∧
    ((∀ r, kw.range r = none) → (s.setAttr kw).1.rangeSI = s.rangeSI) ∧
    ((s.setAttr kw).2 = none →
      (∀ p, (s.setAttr kw).1.unit p = (kw.unit p).getD (s.unit p)) ∧
      (s.setAttr kw).1.RangesMean ∧
      (∀ r a, kw.range r = some a → ∃ l, a = .list l ∧
        List.Forall₂ (fun v si => convertToSI r.prop v ((s.setAttr kw).1.unit r.prop) = .ok si) l
          ((s.setAttr kw).1.rangeSI r)) ∧
      (∀ r, kw.range r = none → (s.setAttr kw).1.rangeSI r = s.rangeSI r)) := by
  have hU := applyUnits_spec kw.unit fpdKeys s hs
  generalize hu : applyUnits kw.unit fpdKeys s = u at hU
  obtain ⟨s1, e1⟩ := u
  obtain ⟨a1, a2, a3, a4, a5⟩ := hU
  have hR := applyRanges_spec kw.range [.m, .p, .h] s1
  generalize hr : applyRanges kw.range [.m, .p, .h] s1 = u at hR
  obtain ⟨s2, e2⟩ := u
  obtain ⟨b1, b2, b3, b4, b5⟩ := hR
  have c0 : s2.UnitsListed := by intro p; rw [b1]; exact a1 p
  have hD := updateRanges_spec [.m, .p, .h] s2 c0
  generalize hd : updateRanges [.m, .p, .h] s2 = u at hD
  obtain ⟨s3, e3⟩ := u
  obtain ⟨d1, d2, d3, d4, d5, d6⟩ := hD
  simp only at a1 a2 a3 a4 a5 b1 b2 b3 b4 b5 d1 d2 d3 d4 d5 d6
  subst d4
  have key : ∀ i, (applyIterinfo i s3).1.unit = s3.unit ∧ (applyIterinfo i s3).1.rangeSI = s3.rangeSI
      ∧ (applyIterinfo i s3).1.range = s3.range := by
    intro i; unfold applyIterinfo; dsimp only; split <;> simp
  have hset : s.setAttr kw = match (generalizing := false) e1 with
      | some e => (s1, some e)
      | none => match (generalizing := false) e2 with
        | some e => (s2, some e)
        | none => applyIterinfo kw.iterinfo s3 := by
    unfold NetAttr.setAttr
    rw [hu]
    cases e1 with
    | some e => rfl
    | none =>
      simp only [hr]
      cases e2 with
      | some e => rfl
      | none => simp only [hd]
  rw [hset]
  cases e1 with
  | some e => exact ⟨a1, fun _ => a2, by simp⟩
  | none =>
    cases e2 with
    | some e =>
      refine ⟨c0, fun h => ?_, by simp⟩
      funext q
      have := b4 q (Or.inr (h q)); simp only at this ⊢; rw [this, a2]
    | none =>
      simp only
      obtain ⟨k1, k2, k3⟩ := key kw.iterinfo
      refine ⟨?_, ?_, ?_⟩
      · intro p; rw [k1, d1]; exact c0 p
      · intro h
        rw [k2, d2]
        funext q
        rw [b4 q (Or.inr (h q)), a2]
      · intro _
        refine ⟨?_, ?_, ?_, ?_⟩
        · intro p; rw [k1, d1, b1, (a5 rfl).2 p]; cases p <;> simp [fpdKeys]
        · intro r
          rw [k1, k2, k3, d2, d1]
          exact d6 (by decide) r (by cases r <;> simp)
        · intro r a ha
          obtain ⟨l, hl, hf⟩ := b5 (by decide) rfl r (by cases r <;> simp) a ha
          exact ⟨l, hl, by rw [k1, k2, d2, d1, b1]; exact hf⟩
        · intro r hn
          rw [k2, d2, b4 r (Or.inr hn), a2]

theorem defaults_listed : NetAttr.defaults.UnitsListed := by
  intro p; cases p <;> rfl

theorem run_listed (s : NetAttr) (hs : s.UnitsListed) (calls : List NetKwargs) :
    (s.run calls).UnitsListed := by
  induction calls generalizing s with
  | nil => exact hs
  | cons kw kws ih => exact ih _ (setAttr_spec s kw hs).1

/-- C03: after any history of `set_attr` calls (also failing ones), a further call that
succeeds leaves displayed ranges which are exactly the SI bounds in the current
units; every stored unit is valid at any time. -/
theorem C03_ranges_consistent (calls : List NetKwargs) (kw : NetKwargs)
    (hok : ((NetAttr.defaults.run calls).setAttr kw).2 = none) :
    ((NetAttr.defaults.run calls).setAttr kw).1.RangesMean ∧
    (NetAttr.defaults.run calls).UnitsListed :=
  ⟨((setAttr_spec _ kw (run_listed _ defaults_listed calls)).2.2 hok).2.1,
    run_listed _ defaults_listed calls⟩

/-- C03: calls which set only units never change the SI bounds, whether they succeed or
are rejected. -/
theorem C03_units_only_keep_SI (calls units : List NetKwargs)
    (h : ∀ kw ∈ units, ∀ r, kw.range r = none) :
    ((NetAttr.defaults.run calls).run units).rangeSI = (NetAttr.defaults.run calls).rangeSI := by
  have hl := run_listed _ defaults_listed calls
  generalize NetAttr.defaults.run calls = s at hl
  induction units generalizing s with
  | nil => rfl
  | cons kw kws ih =>
    have := setAttr_spec s kw hl
    unfold NetAttr.run
    rw [ih (fun k hk => h k (List.mem_cons_of_mem _ hk)) _ this.1,
      this.2.1 (h kw List.mem_cons_self)]

/-- C03: a range given by the user is read in the unit which is valid after the call,
and it is displayed as given. Other ranges keep their SI bounds; units given in the call
become current, other units are kept. -/
theorem C03_range_as_given (calls : List NetKwargs) (kw : NetKwargs)
    (hok : ((NetAttr.defaults.run calls).setAttr kw).2 = none) :
    (∀ r l, kw.range r = some (.list l) →
      ((NetAttr.defaults.run calls).setAttr kw).1.range r = l) ∧
    (∀ r, kw.range r = none → ((NetAttr.defaults.run calls).setAttr kw).1.rangeSI r =
      (NetAttr.defaults.run calls).rangeSI r) ∧
    (∀ p, ((NetAttr.defaults.run calls).setAttr kw).1.unit p =
      (kw.unit p).getD ((NetAttr.defaults.run calls).unit p)) := by
  have hl := run_listed _ defaults_listed calls
  generalize NetAttr.defaults.run calls = s at hl hok
  obtain ⟨_, _, h3⟩ := setAttr_spec s kw hl
  obtain ⟨hu, hm, hg, hn⟩ := h3 hok
  refine ⟨fun r l hr => ?_, hn, hu⟩
  obtain ⟨l', hl', hf⟩ := hg r _ hr
  cases hl'
  have := hm r
  -- two lists with the same SI images are equal
  have uniq : ∀ a b c : List ℚ,
      List.Forall₂ (fun v si => convertToSI r.prop v ((s.setAttr kw).1.unit r.prop) = .ok si) a c →
      List.Forall₂ (fun v si => convertToSI r.prop v ((s.setAttr kw).1.unit r.prop) = .ok si) b c →
      a = b := by
    intro a b c h1
    induction h1 generalizing b with
    | nil => intro h2; cases h2; rfl
    | cons h _ ih =>
      intro h2
      cases h2 with
      | cons h' t' => rw [ih _ t', ((C02_order _ _ _ _ _ _ h h').2).mpr rfl]
  exact uniq _ _ _ this hf

/-- C03, the part that fails: a rejected call is not a no-op. The unit of mass flow is
changed although the call is rejected because of the pressure unit, and the displayed
mass flow range then no longer means the SI bounds. -/
theorem C03_rejected_call_not_atomic :
    ∃ kw : NetKwargs, (NetAttr.init {}).2 = none ∧
      ((NetAttr.init {}).1.setAttr kw).2 = some .valueError ∧
      ((NetAttr.init {}).1.setAttr kw).1.unit .m ≠ (NetAttr.init {}).1.unit .m ∧
      ¬ ((NetAttr.init {}).1.setAttr kw).1.RangesMean := by
  refine ⟨{ unit := fun | .m => some "t / h" | .p => some "Torr" | _ => none }, rfl, rfl,
    by decide +kernel, fun h => ?_⟩
  have := h .m
  have e1 : ((NetAttr.init {}).1.setAttr { unit := fun | .m => some "t / h" | .p => some "Torr" | _ => none }).1.range .m
      = [-1000000000000, 1000000000000] := by decide +kernel
  have e2 : ((NetAttr.init {}).1.setAttr { unit := fun | .m => some "t / h" | .p => some "Torr" | _ => none }).1.rangeSI .m
      = [-1000000000000, 1000000000000] := by decide +kernel
  rw [e1, e2] at this
  cases this with
  | cons h _ => revert h; decide +kernel

-- non-vacuity: a successful call after a failing one
example : ((NetAttr.defaults.run [{}, { unit := fun | .p => some "Torr" | _ => none }]).setAttr
    { unit := fun | .p => some "bar" | _ => none,
      range := fun | .p => some (.list [1, 100]) | _ => none }).2 = none := by decide +kernel

end Tespy
