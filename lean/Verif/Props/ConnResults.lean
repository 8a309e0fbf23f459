import Verif.Model.ConnResults
import Verif.Props.MixInverse
import Verif.Props.Units

/-!
C96: the values reported for a connection describe its state.
-/
namespace Tespy

namespace Spec

/-- `e` is the only fluid with a mass fraction of more than 10⁻⁶. -/
def OnlyFluid (fd : FluidData ℚ) (e : FluidEntry ℚ) : Prop :=
  (fd.filter fun q => decide (1 / 1000000 < q.2.y)).map Prod.snd = [e]

/-- A value of the property library is reported; nan if it has none. -/
def Reported {α : Type} (lib : LibRes α) (v : Option α) : Prop :=
  (∃ a, lib = .ok a ∧ v = some a) ∨ ((lib = .error .value ∨ lib = .error .notImplemented) ∧ v = none)

/-- Values which do not refer to saturation describe the state of a pure fluid. -/
structure PureBasics (r : ResFns) (e : FluidEntry ℚ) (m p h : ℚ) (c : RConn) : Prop where
  T : ∃ T, r.tPH e.w p h = .ok T ∧ c.si .T = some T
  vol : ∃ d, r.dPH e.w p h = .ok d ∧ d ≠ 0 ∧ c.si .vol = some (1 / d) ∧ c.si .v = some (1 / d * m)
  s : ∃ s, r.sPH e.w p h = .ok s ∧ c.si .s = some s
  phase : Reported (r.phasePH e.w p h) c.phase

/-- Mass flow, pressure, enthalpy, composition and settings are the same. -/
structure SameFlowState (c c' : RConn) : Prop where
  m : c'.si .m = c.si .m
  p : c'.si .p = c.si .p
  h : c'.si .h = c.si .h
  fd : c'.fd = c.fd
  rule : c'.rule = c.rule
  unit : c'.unit = c.unit
  isSet : c'.isSet = c.isSet

end Spec

theorem onlyFluid_num {fd : FluidData ℚ} {e : FluidEntry ℚ} (h : Spec.OnlyFluid fd e) :
    numFluids fd = 1 ∧ pureFluid fd = some e := by
  unfold Spec.OnlyFluid at h
  rw [← filter_detected] at h
  constructor
  · have := congrArg List.length h
    simpa [numFluids] using this
  · unfold pureFluid
    cases hf : fd.filter detected with
    | nil => rw [hf] at h; simp at h
    | cons a l => rw [hf] at h; simp at h; simp [h.1]

theorem convertVals_ok (ks : List FluidProp) (c c' : RConn) (h : convertVals ks c = (c', none)) :
    c'.si = c.si ∧ c'.phase = c.phase ∧ c'.fd = c.fd ∧ c'.rule = c.rule ∧ c'.unit = c.unit ∧ c'.isSet = c.isSet ∧
    c'.val0 = c.val0 ∧ (∀ k, k ∉ ks → c'.val k = c.val k) ∧
    ∀ k ∈ ks, (c.si k = none → c'.val k = none) ∧
      ∀ x, c.si k = some x → ∃ y, convertFromSI k x (c.unit k) = .ok y ∧ c'.val k = some y := by
  induction ks generalizing c with
  | nil => cases h; simp
  | cons k ks ih =>
    simp only [convertVals] at h
    cases hk : c.si k with
    | none =>
      rw [hk] at h
      cases hl : lookupUnit k (c.unit k) with
      | error e => rw [hl] at h; simp at h
      | ok u =>
        rw [hl] at h
        obtain ⟨a1, a2, a3, a4, a5, a6, a7, a8, a9⟩ := ih _ h
        refine ⟨a1, a2, a3, a4, a5, a6, a7, ?_, ?_⟩
        · intro k' hk'
          simp only [List.mem_cons, not_or] at hk'
          rw [a8 k' hk'.2]
          simp [Function.update, hk'.1]
        · intro k' hk'
          by_cases hin : k' ∈ ks
          · exact a9 k' hin
          · have : k' = k := by simpa [hin] using hk'
            subst this
            refine ⟨fun _ => ?_, fun x hx => (by rw [hk] at hx; cases hx)⟩
            rw [a8 k' hin]; simp
    | some x =>
      rw [hk] at h
      dsimp only at h
      cases hl : convertFromSI k x (c.unit k) with
      | error e => rw [hl] at h; simp at h
      | ok y =>
        rw [hl] at h
        obtain ⟨a1, a2, a3, a4, a5, a6, a7, a8, a9⟩ := ih _ h
        refine ⟨a1, a2, a3, a4, a5, a6, a7, ?_, ?_⟩
        · intro k' hk'
          simp only [List.mem_cons, not_or] at hk'
          rw [a8 k' hk'.2]
          simp [Function.update, hk'.1]
        · intro k' hk'
          by_cases hin : k' ∈ ks
          · exact a9 k' hin
          · have : k' = k := by simpa [hin] using hk'
            subst this
            refine ⟨fun hn => (by rw [hk] at hn; cases hn), fun z hz => ?_⟩
            rw [hk] at hz; cases hz
            exact ⟨y, hl, by rw [a8 k' hin]; simp⟩

theorem fpdKeys_all (k : FluidProp) : k ∈ fpdKeys := by cases k <;> decide

/-- what `finish` does -/
theorem finish_ok (c c' : RConn) (h : c.finish = (c', none)) :
    c'.si = c.si ∧ c'.phase = c.phase ∧ c'.fd = c.fd ∧ c'.rule = c.rule ∧ c'.unit = c.unit ∧ c'.isSet = c.isSet ∧
    (∀ k, (c.si k = none → c'.val k = none) ∧
      ∀ x, c.si k = some x → ∃ y, convertFromSI k x (c.unit k) = .ok y ∧ c'.val k = some y) ∧
    ∀ k, (k = .m ∨ k = .p ∨ k = .h) → c'.val0 k = c'.val k := by
  unfold RConn.finish at h
  cases hc : convertVals fpdKeys c with
  | mk c1 er =>
    rw [hc] at h
    cases er with
    | some e => simp at h
    | none =>
      simp only [Prod.mk.injEq, and_true] at h
      subst h
      obtain ⟨a1, a2, a3, a4, a5, a6, a7, a8, a9⟩ := convertVals_ok _ _ _ hc
      exact ⟨a1, a2, a3, a4, a5, a6, fun k => a9 k (fpdKeys_all k), fun k hk => by simp [hk]⟩

theorem resAndThen_ok {s : RConn × Option PyErr} {f : RConn → RConn × Option PyErr} {c' : RConn}
    (h : RConn.andThen s f = (c', none)) : ∃ c, s = (c, none) ∧ f c = (c', none) := by
  obtain ⟨c, e⟩ := s
  cases e with
  | some e => simp [RConn.andThen] at h
  | none => exact ⟨c, rfl, h⟩

theorem put_si (c : RConn) (k k' : FluidProp) (x : Option ℚ) :
    (c.put k x).si k' = if k' = k then x else c.si k' := by
  simp [RConn.put, Function.update]

theorem orNan_reported {α : Type} {l : LibRes α} {v : Option α} (h : orNan l = .ok v) : Spec.Reported l v := by
  unfold orNan at h
  split at h
  · cases h; exact Or.inl ⟨_, rfl, rfl⟩
  · cases h; exact Or.inr ⟨Or.inr rfl, rfl⟩
  · cases h
  · cases h

theorem orNan_value {α : Type} {l : LibRes α} (h : orNan l = .error .valueError) : l = .error .value := by
  unfold orNan at h
  split at h
  · cases h
  · cases h
  · rfl
  · cases h

/-- the statement for the quality -/
theorem stepX_ok (r : ResFns) (c c' : RConn) (e : FluidEntry ℚ) (he : Spec.OnlyFluid c.fd e) (p h : ℚ)
    (hp : c.si .p = some p) (hh : c.si .h = some h) (hs : c.stepX r = (c', none)) :
    (c.isSet .x = true → c' = c) ∧ (c.isSet .x = false → ∃ x, Spec.Reported (r.qPH e.w p h) x ∧ c' = c.put .x x) := by
  obtain ⟨h1, h2⟩ := onlyFluid_num he
  unfold RConn.stepX at hs
  refine ⟨fun hx => ?_, fun hx => ?_⟩
  · rw [if_pos hx] at hs; cases hs; rfl
  · rw [if_neg (by simp [hx])] at hs
    have hc : c.calcX r = orNan (r.qPH e.w p h) := by
      unfold RConn.calcX RConn.ph
      simp only [hp, hh, h1, h2, if_pos]
    rw [hc] at hs
    cases ho : orNan (r.qPH e.w p h) with
    | ok x => rw [ho] at hs; cases hs; exact ⟨x, orNan_reported ho, rfl⟩
    | error er =>
      rw [ho] at hs
      cases er <;> simp at hs
      exact ⟨none, Or.inr ⟨Or.inl (orNan_value ho), rfl⟩, hs.symm⟩

/-- the statement for the phase -/
theorem stepPhase_ok (r : ResFns) (c c' : RConn) (e : FluidEntry ℚ) (he : Spec.OnlyFluid c.fd e) (p h : ℚ)
    (hp : c.si .p = some p) (hh : c.si .h = some h) (hs : c.stepPhase r = (c', none)) :
    ∃ x, Spec.Reported (r.phasePH e.w p h) x ∧ c' = { c with phase := x } := by
  obtain ⟨h1, h2⟩ := onlyFluid_num he
  unfold RConn.stepPhase at hs
  have hc : c.calcPhase r = orNan (r.phasePH e.w p h) := by
    unfold RConn.calcPhase RConn.ph
    simp only [hp, hh, h1, h2, if_pos]
  rw [hc] at hs
  cases ho : orNan (r.phasePH e.w p h) with
  | ok x => rw [ho] at hs; cases hs; exact ⟨x, orNan_reported ho, rfl⟩
  | error er =>
    rw [ho] at hs
    cases er <;> simp at hs
    exact ⟨none, Or.inr ⟨Or.inl (orNan_value ho), rfl⟩, hs.symm⟩

theorem calcT_pure (r : ResFns) (water : Option String) (c : RConn) (e : FluidEntry ℚ) (he : Spec.OnlyFluid c.fd e)
    (p h : ℚ) (hp : c.si .p = some p) (hh : c.si .h = some h) : c.calcT r water = r.tPH e.w p h := by
  obtain ⟨h1, h2⟩ := onlyFluid_num he
  unfold RConn.calcT RConn.ph tMixPH
  simp only [hp, hh, h1, h2, if_pos]

/-- the statement for the distance to the boiling point: on `ValueError` the quality is lost -/
theorem stepTd_ok (r : ResFns) (water : Option String) (c c' : RConn) (e : FluidEntry ℚ) (he : Spec.OnlyFluid c.fd e)
    (p h T : ℚ) (hp : c.si .p = some p) (hh : c.si .h = some h) (hT : r.tPH e.w p h = .ok T)
    (hs : c.stepTd r water = (c', none)) :
    (c.isSet .Td_bp = true → c' = c) ∧
    (c.isSet .Td_bp = false →
      (∃ t, Spec.Reported (r.tSatP e.w p) t ∧ r.tSatP e.w p ≠ .error .value ∧ c' = c.put .Td_bp (t.map (T - ·))) ∨
      (r.tSatP e.w p = .error .value ∧ c' = c.put .x none)) := by
  obtain ⟨h1, h2⟩ := onlyFluid_num he
  unfold RConn.stepTd at hs
  refine ⟨fun hx => ?_, fun hx => ?_⟩
  · rw [if_pos hx] at hs; cases hs; rfl
  · rw [if_neg (by simp [hx])] at hs
    have hc : c.calcTd r water = match orNan (r.tSatP e.w p) with
        | .error er => .error er
        | .ok t => .ok (t.map (T - ·)) := by
      unfold RConn.calcTd
      rw [calcT_pure r water c e he p h hp hh, hT]
      simp only [RConn.ph, hp, hh, h1, h2, if_pos]
      cases orNan (r.tSatP e.w p) <;> rfl
    rw [hc] at hs
    cases ho : orNan (r.tSatP e.w p) with
    | ok t =>
      rw [ho] at hs; cases hs
      refine Or.inl ⟨t, orNan_reported ho, ?_, rfl⟩
      intro hv; rw [hv] at ho; cases ho
    | error er =>
      rw [ho] at hs
      cases er <;> simp at hs
      exact Or.inr ⟨orNan_value ho, hs.symm⟩

/-- the statements for volume and entropy of a pure fluid -/
theorem stepVol_pure (r : ResFns) (water : Option String) (c c' : RConn) (e : FluidEntry ℚ) (he : Spec.OnlyFluid c.fd e)
    (m p h : ℚ) (hm : c.si .m = some m) (hp : c.si .p = some p) (hh : c.si .h = some h)
    (hs : c.stepVol r water = (c', none)) :
    ∃ d s, r.dPH e.w p h = .ok d ∧ d ≠ 0 ∧ r.sPH e.w p h = .ok s ∧
      c' = ((c.put .vol (some (1 / d))).put .v (some (1 / d * m))).put .s (some s) := by
  obtain ⟨h1, h2⟩ := onlyFluid_num he
  unfold RConn.stepVol at hs
  have hv : c.ph (fun p h => vMixPH r.toPureFns water c.rule p h c.fd none) = (match r.dPH e.w p h with
      | .error er => .error er
      | .ok d => fdiv 1 d) := by
    simp only [RConn.ph, hp, hh, vMixPH, h1, h2, if_pos]
    cases r.dPH e.w p h <;> rfl
  rw [hv] at hs
  cases hd : r.dPH e.w p h with
  | error er => rw [hd] at hs; simp at hs
  | ok d =>
    rw [hd] at hs
    by_cases h0 : d = 0
    · simp [fdiv, h0] at hs
    · simp only [fdiv, h0, if_false, hm, Option.map_some] at hs
      set c1 := (c.put .vol (some (1 / d))).put .v (some (1 / d * m)) with hc1
      have e1 : c1.si .p = some p := by simp [hc1, put_si, hp]
      have e2 : c1.si .h = some h := by simp [hc1, put_si, hh]
      have hsx : c1.ph (fun p h => sMixPH r.toPureFns water c.rule p h c.fd (c1.si .T)) = r.sPH e.w p h := by
        simp only [RConn.ph, e1, e2, sMixPH, h1, h2, if_pos]
      rw [hsx] at hs
      cases hx : r.sPH e.w p h with
      | error er => rw [hx] at hs; simp at hs
      | ok s =>
        rw [hx] at hs
        simp only [Prod.mk.injEq, and_true] at hs
        exact ⟨d, s, rfl, h0, rfl, hs.symm⟩

/-- C96 (pure fluids): a calculation that reports results leaves mass flow, pressure, enthalpy and composition alone, and
temperature, specific volume, volumetric flow, entropy and phase are those of this state, whatever was reported before. The
quality and the distance to the boiling point are those of the state, or the value specified, if the library knows the
boiling temperature or does not implement it. -/
theorem C96_pure_partial (r : ResFns) (water : Option String) (c c' : RConn) (hc : c.calcResults r water = (c', none))
    (e : FluidEntry ℚ) (he : Spec.OnlyFluid c.fd e) (m p h : ℚ) (hm : c.si .m = some m) (hp : c.si .p = some p)
    (hh : c.si .h = some h) :
    Spec.SameFlowState c c' ∧ Spec.PureBasics r e m p h c' ∧
    (c.isSet .Td_bp = true ∨ r.tSatP e.w p ≠ .error .value →
      (c.isSet .x = false → Spec.Reported (r.qPH e.w p h) (c'.si .x)) ∧
      (c.isSet .x = true → c'.si .x = c.si .x) ∧
      (c.isSet .Td_bp = false → ∃ T t, r.tPH e.w p h = .ok T ∧ Spec.Reported (r.tSatP e.w p) t ∧
        c'.si .Td_bp = t.map (T - ·)) ∧
      (c.isSet .Td_bp = true → c'.si .Td_bp = c.si .Td_bp)) := by
  obtain ⟨h1, h2⟩ := onlyFluid_num he
  unfold RConn.calcResults at hc
  rw [calcT_pure r water c e he p h hp hh] at hc
  cases hT : r.tPH e.w p h with
  | error er => rw [hT] at hc; simp at hc
  | ok T =>
    rw [hT] at hc
    simp only [h1, lt_irrefl, if_false] at hc
    obtain ⟨c4, hc, hfin⟩ := resAndThen_ok hc
    obtain ⟨c3, hc, hvol⟩ := resAndThen_ok hc
    obtain ⟨c2, hc, htd⟩ := resAndThen_ok hc
    obtain ⟨c1, hx, hph⟩ := resAndThen_ok hc
    obtain ⟨x1, x2⟩ := stepX_ok r (c.put .T (some T)) c1 e he p h (by simp [put_si, hp]) (by simp [put_si, hh]) hx
    have k1 : ∃ x, c1 = (c.put .T (some T)).put .x x ∧ (c.isSet .x = false → Spec.Reported (r.qPH e.w p h) x) ∧
        (c.isSet .x = true → x = c.si .x) := by
      cases hs : c.isSet .x with
      | true =>
        refine ⟨c.si .x, ?_, by simp, by simp⟩
        rw [x1 hs]
        simp [RConn.put, Function.update_eq_self_iff]
      | false =>
        obtain ⟨x, hr, rfl⟩ := x2 hs
        exact ⟨x, rfl, fun _ => hr, by simp⟩
    obtain ⟨x, rfl, hxr, hxs⟩ := k1
    obtain ⟨ph, hphr, rfl⟩ := stepPhase_ok r ((c.put .T (some T)).put .x x) c2 e he p h (by simp [put_si, hp]) (by simp [put_si, hh]) hph
    obtain ⟨t1, t2⟩ := stepTd_ok r water { (c.put .T (some T)).put .x x with phase := ph } c3 e he p h T (by simp [put_si, hp]) (by simp [put_si, hh]) hT htd
    obtain ⟨d, s, hd, hd0, hs, hc4⟩ : ∃ d s, r.dPH e.w p h = .ok d ∧ d ≠ 0 ∧ r.sPH e.w p h = .ok s ∧
        c4 = ((c3.put .vol (some (1 / d))).put .v (some (1 / d * m))).put .s (some s) := by
      refine stepVol_pure r water c3 c4 e ?_ m p h ?_ ?_ ?_ hvol <;>
      · cases hs : c.isSet .Td_bp with
        | true => rw [t1 hs]; first | exact he | simp [put_si, hm, hp, hh]
        | false => rcases t2 hs with ⟨t, _, _, rfl⟩ | ⟨_, rfl⟩ <;> first | exact he | simp [put_si, hm, hp, hh]
    obtain ⟨f1, f2, f3, f4, f5, f6, f7, f8⟩ := finish_ok _ _ hfin
    subst hc4
    have k3 : c3.fd = c.fd ∧ c3.rule = c.rule ∧ c3.unit = c.unit ∧ c3.isSet = c.isSet ∧ c3.phase = ph ∧
        c3.si .T = some T ∧ c3.si .m = some m ∧ c3.si .p = some p ∧ c3.si .h = some h := by
      cases hs : c.isSet .Td_bp with
      | true => rw [t1 hs]; simp [put_si, hm, hp, hh]; simp [RConn.put]
      | false =>
        rcases t2 hs with ⟨t, _, _, rfl⟩ | ⟨_, rfl⟩ <;> simp [put_si, hm, hp, hh] <;> simp [RConn.put]
    obtain ⟨g1, g2, g3, g4, g5, g6, g7, g8, g9⟩ := k3
    refine ⟨⟨?_, ?_, ?_, ?_, ?_, ?_, ?_⟩, ⟨⟨T, hT, ?_⟩, ⟨d, hd, hd0, ?_, ?_⟩, ⟨s, hs, ?_⟩, ?_⟩, ?_⟩
    · rw [f1]; simp [put_si, g7, hm]
    · rw [f1]; simp [put_si, g8, hp]
    · rw [f1]; simp [put_si, g9, hh]
    · rw [f3]; exact g1
    · rw [f4]; exact g2
    · rw [f5]; exact g3
    · rw [f6]; exact g4
    · rw [f1]; simp [put_si, g6]
    · rw [f1]; simp [put_si]
    · rw [f1]; simp [put_si]
    · rw [f1]; simp [put_si]
    · rw [f2]; exact g5 ▸ hphr
    · intro hok
      rw [f1]
      simp only [put_si, reduceCtorEq, if_false]
      cases hs : c.isSet .Td_bp with
      | true =>
        rw [t1 hs]
        refine ⟨fun h0 => ?_, fun h0 => ?_, by simp, fun _ => ?_⟩
        · simpa [put_si] using hxr h0
        · simpa [put_si] using hxs h0
        · simp [put_si]
      | false =>
        have hok : r.tSatP e.w p ≠ .error .value := by simpa [hs] using hok
        rcases t2 hs with ⟨t, hrep, _, rfl⟩ | ⟨hv, rfl⟩
        · refine ⟨fun h0 => ?_, fun h0 => ?_, fun _ => ⟨T, t, rfl, hrep, ?_⟩, by simp⟩
          · simpa [put_si] using hxr h0
          · simpa [put_si] using hxs h0
          · simp [put_si]
        · exact absurd hv hok

/-- C96 is false without a boiling temperature (below the triple point, incompressible fluids): if the library raises
`ValueError` for the boiling temperature, the quality is nan, even the one specified, and the former distance to the boiling
point is reported. -/
theorem C96_boiling_false (r : ResFns) (water : Option String) (c c' : RConn) (hc : c.calcResults r water = (c', none))
    (e : FluidEntry ℚ) (he : Spec.OnlyFluid c.fd e) (m p h : ℚ) (hm : c.si .m = some m) (hp : c.si .p = some p)
    (hh : c.si .h = some h) (hs : c.isSet .Td_bp = false) (hv : r.tSatP e.w p = .error .value) :
    c'.si .x = none ∧ c'.val .x = none ∧ c'.si .Td_bp = c.si .Td_bp := by
  obtain ⟨h1, h2⟩ := onlyFluid_num he
  unfold RConn.calcResults at hc
  rw [calcT_pure r water c e he p h hp hh] at hc
  cases hT : r.tPH e.w p h with
  | error er => rw [hT] at hc; simp at hc
  | ok T =>
    rw [hT] at hc
    simp only [h1, lt_irrefl, if_false] at hc
    obtain ⟨c4, hc, hfin⟩ := resAndThen_ok hc
    obtain ⟨c3, hc, hvol⟩ := resAndThen_ok hc
    obtain ⟨c2, hc, htd⟩ := resAndThen_ok hc
    obtain ⟨c1, hx, hph⟩ := resAndThen_ok hc
    obtain ⟨x1, x2⟩ := stepX_ok r (c.put .T (some T)) c1 e he p h (by simp [put_si, hp]) (by simp [put_si, hh]) hx
    have k1 : ∃ x, c1 = (c.put .T (some T)).put .x x := by
      cases hs : c.isSet .x with
      | true =>
        refine ⟨c.si .x, ?_⟩
        rw [x1 hs]
        simp [RConn.put, Function.update_eq_self_iff]
      | false =>
        obtain ⟨x, hr, rfl⟩ := x2 hs
        exact ⟨x, rfl⟩
    obtain ⟨x, rfl⟩ := k1
    obtain ⟨ph, hphr, rfl⟩ := stepPhase_ok r ((c.put .T (some T)).put .x x) c2 e he p h (by simp [put_si, hp]) (by simp [put_si, hh]) hph
    obtain ⟨t1, t2⟩ := stepTd_ok r water { (c.put .T (some T)).put .x x with phase := ph } c3 e he p h T (by simp [put_si, hp]) (by simp [put_si, hh]) hT htd
    rcases t2 hs with ⟨t, _, hne, _⟩ | ⟨_, rfl⟩
    · exact absurd hv hne
    obtain ⟨d, s, hd, hd0, hs, rfl⟩ := stepVol_pure r water
      ({ (c.put .T (some T)).put .x x with phase := ph }.put .x none) c4 e he m p h (by simp [put_si, hm]) (by simp [put_si, hp])
      (by simp [put_si, hh]) hvol
    obtain ⟨f1, f2, f3, f4, f5, f6, f7, f8⟩ := finish_ok _ _ hfin
    refine ⟨?_, ?_, ?_⟩
    · rw [f1]; simp [put_si]
    · exact (f7 .x).1 (by simp [put_si])
    · rw [f1]; simp [put_si]

/-! ### mixtures -/

/-- The enthalpies agree within 0.001 J/kg or 0.1 %. -/
def Spec.CloseEnthalpy (h' h : ℚ) : Prop := |h' - h| ≤ 1 / 1000 ∨ |h' - h| ≤ 1 / 1000 * |h|

theorem infeasible_false {h' h : ℚ} (hi : infeasible h' h = false) : Spec.CloseEnthalpy h' h := by
  unfold infeasible at hi
  unfold Spec.CloseEnthalpy
  simp only [Bool.and_eq_false_iff, decide_eq_false_iff_not, not_lt, Bool.or_eq_false_iff] at hi
  rcases hi with hi | ⟨h0, hi⟩
  · exact Or.inl hi
  · right
    rw [abs_div, div_le_iff₀ (abs_pos.mpr h0)] at hi
    exact hi

theorem infeasible_true {h' h : ℚ} (hi : infeasible h' h = true) : ¬ Spec.CloseEnthalpy h' h := by
  unfold infeasible at hi
  unfold Spec.CloseEnthalpy
  simp only [Bool.and_eq_true, decide_eq_true_eq, Bool.or_eq_true] at hi
  obtain ⟨h1, h2⟩ := hi
  rintro (h3 | h3)
  · linarith
  · rcases h2 with rfl | h2
    · rw [abs_zero, mul_zero] at h3; linarith
    · rcases eq_or_ne h 0 with rfl | h0
      · rw [abs_zero, mul_zero] at h3; linarith
      · rw [abs_div, lt_div_iff₀ (abs_pos.mpr h0)] at h2
        linarith

theorem numFluids_two {fd : FluidData ℚ} (h : Spec.AtLeastTwo fd) : 1 < numFluids fd := by
  have h1 := numFluids_ne_one h
  obtain ⟨a, ha, b, hb, hne, hya, hyb⟩ := h
  have : a ∈ fd.filter detected := by
    rw [filter_detected]
    exact List.mem_filter.mpr ⟨ha, by simpa using hya⟩
  have : 0 < numFluids fd := List.length_pos_of_mem this
  omega

/-- what a calculation does for a mixture -/
theorem mixture_cases (r : ResFns) (water : Option String) (c c' : RConn) (hc : c.calcResults r water = (c', none))
    (h2 : Spec.AtLeastTwo c.fd) (m p h : ℚ) (hm : c.si .m = some m) (hp : c.si .p = some p) (hh : c.si .h = some h) :
    ∃ T h', tMixPH r.toPureFns water c.rule p h c.fd (c.si .T) = .ok T ∧ hMixPT water c.rule p T c.fd = .ok h' ∧
    ((infeasible h' h = true ∧
        RConn.finish (((((c.put .T (some T)).put .T none).put .vol none).put .v none).put .s none) = (c', none)) ∨
     (infeasible h' h = false ∧ ∃ vol s,
        vMixPH r.toPureFns water c.rule p h c.fd none = .ok vol ∧
        sMixPH r.toPureFns water c.rule p h c.fd (some T) = .ok s ∧
        RConn.finish ((((c.put .T (some T)).put .vol (some vol)).put .v (some (vol * m))).put .s (some s)) = (c', none))) := by
  have hn := numFluids_two h2
  unfold RConn.calcResults at hc
  have e1 : c.calcT r water = tMixPH r.toPureFns water c.rule p h c.fd (c.si .T) := by
    simp only [RConn.calcT, RConn.ph, hp, hh]
  rw [e1] at hc
  cases hT : tMixPH r.toPureFns water c.rule p h c.fd (c.si .T) with
  | error e => rw [hT] at hc; simp at hc
  | ok T =>
    rw [hT] at hc
    simp only [hn, if_true] at hc
    simp only [RConn.ph, put_si, reduceCtorEq, if_false, hp, hh] at hc
    cases hH : hMixPT water c.rule p T c.fd with
    | error e => rw [hH] at hc; simp at hc
    | ok h' =>
      rw [hH] at hc
      dsimp only at hc
      refine ⟨T, h', rfl, hH, ?_⟩
      cases hi : infeasible h' h with
      | true => rw [hi] at hc; exact Or.inl ⟨rfl, hc⟩
      | false =>
        rw [hi] at hc
        dsimp only at hc
        cases ht : tempRange r.toPureFns c.fd with
        | error e => rw [ht] at hc; simp at hc
        | ok lh =>
          rw [ht] at hc
          obtain ⟨c2, hv, hfin⟩ := resAndThen_ok hc
          right
          refine ⟨rfl, ?_⟩
          unfold RConn.stepVol at hv
          have e3 : (c.put .T (some T)).ph (fun p h => vMixPH r.toPureFns water (c.put .T (some T)).rule p h
              (c.put .T (some T)).fd none) = vMixPH r.toPureFns water c.rule p h c.fd none := by
            simp only [RConn.ph, put_si, reduceCtorEq, if_false, hp, hh]
            rfl
          rw [e3] at hv
          cases hvol : vMixPH r.toPureFns water c.rule p h c.fd none with
          | error e => rw [hvol] at hv; simp at hv
          | ok vol =>
            rw [hvol] at hv
            dsimp only at hv
            have em : (c.put .T (some T)).si .m = some m := by simp [put_si, hm]
            rw [em, Option.map_some] at hv
            set c1 := ((c.put .T (some T)).put .vol (some vol)).put .v (some (vol * m)) with hc1
            have e4 : c1.ph (fun p h => sMixPH r.toPureFns water (c.put .T (some T)).rule p h
                (c.put .T (some T)).fd (c1.si .T)) = sMixPH r.toPureFns water c.rule p h c.fd (some T) := by
              have a1 : c1.si .p = some p := by simp [hc1, put_si, hp]
              have a2 : c1.si .h = some h := by simp [hc1, put_si, hh]
              have a3 : c1.si .T = some T := by simp [hc1, put_si]
              simp only [RConn.ph, a1, a2, a3]
              rfl
            rw [e4] at hv
            cases hs : sMixPH r.toPureFns water c.rule p h c.fd (some T) with
            | error e => rw [hs] at hv; simp at hv
            | ok s =>
              rw [hs] at hv
              simp only [Prod.mk.injEq, and_true] at hv
              subst hv
              exact ⟨vol, s, rfl, rfl, hfin⟩

/-- C96 (mixtures): the temperature reported for a mixture has the enthalpy of the connection (within 0.1 %); otherwise
temperature, volume, volumetric flow and entropy are nan. Volume and entropy belong to temperatures found from pressure and
enthalpy. -/
theorem C96_mixture_partial (r : ResFns) (water : Option String) (c c' : RConn) (hc : c.calcResults r water = (c', none))
    (h2 : Spec.AtLeastTwo c.fd) (m p h : ℚ) (hm : c.si .m = some m) (hp : c.si .p = some p) (hh : c.si .h = some h) :
    Spec.SameFlowState c c' ∧
    ((c'.si .T = none ∧ c'.si .vol = none ∧ c'.si .v = none ∧ c'.si .s = none) ∨
     ∃ T h' T₁ T₂ vol s, c'.si .T = some T ∧ hMixPT water c.rule p T c.fd = .ok h' ∧ Spec.CloseEnthalpy h' h ∧
      tMixPH r.toPureFns water c.rule p h c.fd none = .ok T₁ ∧ vMixPT water c.rule p T₁ c.fd = .ok vol ∧
      c'.si .vol = some vol ∧ c'.si .v = some (vol * m) ∧
      tMixPH r.toPureFns water c.rule p h c.fd (some T) = .ok T₂ ∧ sMixPT water c.rule p T₂ c.fd = .ok s ∧
      c'.si .s = some s) := by
  have hn := numFluids_ne_one h2
  obtain ⟨T, h', hT, hH, ⟨hi, hfin⟩ | ⟨hi, vol, s, hvol, hs, hfin⟩⟩ := mixture_cases r water c c' hc h2 m p h hm hp hh
  · obtain ⟨f1, f2, f3, f4, f5, f6, f7, f8⟩ := finish_ok _ _ hfin
    refine ⟨⟨?_, ?_, ?_, f3, f4, f5, f6⟩, Or.inl ⟨?_, ?_, ?_, ?_⟩⟩ <;> rw [f1] <;> simp [put_si]
  · obtain ⟨f1, f2, f3, f4, f5, f6, f7, f8⟩ := finish_ok _ _ hfin
    refine ⟨⟨?_, ?_, ?_, f3, f4, f5, f6⟩, Or.inr ?_⟩
    · rw [f1]; simp [put_si]
    · rw [f1]; simp [put_si]
    · rw [f1]; simp [put_si]
    · unfold vMixPH at hvol
      unfold sMixPH at hs
      rw [if_neg hn] at hvol hs
      cases h1 : tMixPH r.toPureFns water c.rule p h c.fd none with
      | error e => rw [h1] at hvol; cases hvol
      | ok T₁ =>
        rw [h1] at hvol
        cases h3 : tMixPH r.toPureFns water c.rule p h c.fd (some T) with
        | error e => rw [h3] at hs; cases hs
        | ok T₂ =>
          rw [h3] at hs
          refine ⟨T, h', T₁, T₂, vol, s, ?_, hH, infeasible_false hi, rfl, hvol, ?_, ?_, h3, hs, ?_⟩ <;>
            rw [f1] <;> simp [put_si]

/-- C96 (mixtures with constant heat capacity): within the range of temperatures all values belong to the exact temperature
of the state. -/
theorem C96_mixture_linear_partial (r : ResFns) (water : Option String) (c c' : RConn)
    (hc : c.calcResults r water = (c', none)) (h2 : Spec.AtLeastTwo c.fd) {lo hi : ℚ}
    (ht : Spec.TempRange r.toPureFns c.fd lo hi) (hr : Spec.HasReverse c.rule) (m p k b T : ℚ) (hk : k ≠ 0)
    (hlin : ∀ T, hMixPT water c.rule p T c.fd = .ok (k * T + b)) (hlo : lo ≤ T) (hhi : T ≤ 2 * hi)
    (hm : c.si .m = some m) (hp : c.si .p = some p) (hh : c.si .h = some (k * T + b)) :
    c'.si .T = some T ∧ ∃ vol s, vMixPT water c.rule p T c.fd = .ok vol ∧ c'.si .vol = some vol ∧
      c'.si .v = some (vol * m) ∧ sMixPT water c.rule p T c.fd = .ok s ∧ c'.si .s = some s := by
  have rt := fun T0 => C79_roundtrip r.toPureFns water c.rule h2 ht hr p k b T hk hlin hlo hhi T0
  obtain ⟨T', h', hT, hH, hcase⟩ := mixture_cases r water c c' hc h2 m p _ hm hp hh
  rw [(rt _).1] at hT
  cases hT
  rw [hlin] at hH
  cases hH
  rcases hcase with ⟨hi, _⟩ | ⟨_, vol, s, hvol, hs, hfin⟩
  · exact absurd (Or.inl (by simp)) (infeasible_true hi)
  · rw [(rt _).2.2.1] at hvol
    rw [(rt _).2.1] at hs
    obtain ⟨f1, f2, f3, f4, f5, f6, f7, f8⟩ := finish_ok _ _ hfin
    refine ⟨?_, vol, s, hvol, ?_, ?_, hs, ?_⟩ <;> rw [f1] <;> simp [put_si]

/-- C96 is false for mixtures: quality, distance to the boiling point and phase are those reported before. -/
theorem C96_stale_false (r : ResFns) (water : Option String) (c c' : RConn) (hc : c.calcResults r water = (c', none))
    (h2 : Spec.AtLeastTwo c.fd) (m p h : ℚ) (hm : c.si .m = some m) (hp : c.si .p = some p) (hh : c.si .h = some h) :
    c'.si .x = c.si .x ∧ c'.si .Td_bp = c.si .Td_bp ∧ c'.phase = c.phase := by
  obtain ⟨T, h', hT, hH, ⟨hi, hfin⟩ | ⟨hi, vol, s, hvol, hs, hfin⟩⟩ := mixture_cases r water c c' hc h2 m p h hm hp hh <;>
  · obtain ⟨f1, f2, f3, f4, f5, f6, f7, f8⟩ := finish_ok _ _ hfin
    refine ⟨?_, ?_, ?_⟩
    · rw [f1]; simp [put_si]
    · rw [f1]; simp [put_si]
    · rw [f2]; rfl

/-! ### units -/

/-- C96 (units): every value is reported in its unit: nan for nan, and converting it back gives the SI value. The starting
values for the next calculation are the values reported. -/
theorem C96_units (r : ResFns) (water : Option String) (c c' : RConn) (hc : c.calcResults r water = (c', none)) :
    (∀ k, (c'.si k = none ↔ c'.val k = none) ∧
      ∀ x, c'.si k = some x → ∃ y, c'.val k = some y ∧ convertToSI k y (c.unit k) = .ok x) ∧
    ∀ k, (k = .m ∨ k = .p ∨ k = .h) → c'.val0 k = c'.val k := by
  have key : ∃ c0 : RConn, c0.finish = (c', none) ∧ c0.unit = c.unit := by
    unfold RConn.calcResults at hc
    cases hT : c.calcT r water with
    | error e => rw [hT] at hc; simp at hc
    | ok T =>
      rw [hT] at hc
      dsimp only at hc
      have hstep : ∀ (d d' : RConn), d.stepVol r water = (d', none) → d'.unit = d.unit := by
        intro d d' h
        unfold RConn.stepVol at h
        split at h
        · simp at h
        · dsimp only at h
          split at h
          · simp at h
          · simp only [Prod.mk.injEq, and_true] at h
            rw [← h]; rfl
      by_cases hn : 1 < numFluids c.fd
      · rw [if_pos hn] at hc
        split at hc
        · simp at hc
        · exact ⟨_, hc, rfl⟩
        · split at hc
          · simp at hc
          · obtain ⟨d, hd, hf⟩ := resAndThen_ok hc
            exact ⟨d, hf, (hstep _ _ hd).trans rfl⟩
      · rw [if_neg hn] at hc
        obtain ⟨c4, hc, hfin⟩ := resAndThen_ok hc
        obtain ⟨c3, hc, hvol⟩ := resAndThen_ok hc
        obtain ⟨c2, hc, htd⟩ := resAndThen_ok hc
        obtain ⟨c1, hx, hph⟩ := resAndThen_ok hc
        refine ⟨c4, hfin, (hstep _ _ hvol).trans ?_⟩
        have u1 : c1.unit = c.unit := by
          unfold RConn.stepX at hx
          split at hx
          · cases hx; rfl
          · split at hx
            · cases hx; rfl
            · cases hx; rfl
            · simp at hx
        have u2 : c2.unit = c1.unit := by
          unfold RConn.stepPhase at hph
          split at hph
          · cases hph; rfl
          · cases hph; rfl
          · simp at hph
        have u3 : c3.unit = c2.unit := by
          unfold RConn.stepTd at htd
          split at htd
          · cases htd; rfl
          · split at htd
            · cases htd; rfl
            · cases htd; rfl
            · simp at htd
        rw [u3, u2, u1]
  obtain ⟨c0, hfin, hu⟩ := key
  obtain ⟨f1, f2, f3, f4, f5, f6, f7, f8⟩ := finish_ok _ _ hfin
  refine ⟨fun k => ⟨?_, ?_⟩, f8⟩
  · rw [f1]
    refine ⟨(f7 k).1, fun hv => ?_⟩
    cases hx : c0.si k with
    | none => rfl
    | some x =>
      obtain ⟨y, _, hy⟩ := (f7 k).2 x hx
      rw [hv] at hy; cases hy
  · intro x hx
    rw [f1] at hx
    obtain ⟨y, hy, hv⟩ := (f7 k).2 x hx
    rw [hu] at hy
    refine ⟨y, hv, ?_⟩
    have listed : (Spec.siMeaning k (c.unit k)).isSome := by
      rw [convertFromSI_meaning] at hy
      cases hs : Spec.siMeaning k (c.unit k) with
      | none => rw [hs] at hy; cases hy
      | some ab => rfl
    obtain ⟨u, hu1, hu2⟩ := (C01_unit_roundtrip k (c.unit k) listed x).2
    rw [hy] at hu1
    cases hu1
    exact hu2

/-- C96 (starting values): with the same units the next calculation starts at the results. -/
theorem C96_next_start_partial (r : ResFns) (water : Option String) (c c' : RConn)
    (hc : c.calcResults r water = (c', none)) (k : FluidProp) (hk : k = .m ∨ k = .p ∨ k = .h) (x : ℚ)
    (hx : c'.si k = some x) (netUnit : FluidProp → String) (hu : netUnit k = c.unit k) :
    c'.nextStart netUnit k = .ok (some x) := by
  obtain ⟨h1, h2⟩ := C96_units r water c c' hc
  obtain ⟨y, hy, hsi⟩ := (h1 k).2 x hx
  unfold RConn.nextStart
  rw [h2 k hk, hy, ite_self, hu]
  simp only [hsi]

/-- C96 is false if the unit of the network is changed between two calculations: pressures in bar are taken as pascals. -/
theorem C96_unit_change_false (r : ResFns) (water : Option String) (c c' : RConn)
    (hc : c.calcResults r water = (c', none)) (x : ℚ) (hx : c'.si .p = some x) (hu : c.unit .p = "bar")
    (netUnit : FluidProp → String) (hn : netUnit .p = "Pa") :
    c'.nextStart netUnit .p = .ok (some (x / 100000)) := by
  obtain ⟨h1, h2⟩ := C96_units r water c c' hc
  obtain ⟨y, hy, hsi⟩ := (h1 .p).2 x hx
  have hy' : y = x / 100000 := by
    rw [hu, convertToSI_meaning] at hsi
    have : Spec.siMeaning .p "bar" = some (100000, 0) := by decide +kernel
    rw [this] at hsi
    cases hsi
    ring
  unfold RConn.nextStart
  rw [h2 .p (Or.inr (Or.inl rfl)), hy, ite_self, hn]
  dsimp only
  rw [convertToSI_meaning]
  have : Spec.siMeaning .p "Pa" = some (1, 0) := by decide +kernel
  rw [this, hy']
  simp

/-! ### concrete connections -/

/-- The fluids of `invPure`: quality, phase and boiling temperature are known below 1000000 J/kg and 1000000 Pa. -/
def resFns : ResFns where
  toPureFns := { invPure with tPH := fun _ _ h => .ok (h / 2000), sPH := fun _ _ h => .ok (h / 1000), dPH := fun _ p h => .ok (p / h) }
  qPH _ p h := if p < 1000000 then .ok (h / 1000000) else .error .value
  phasePH _ p h := if p < 1000000 then (if h < 1000000 then .ok "tp" else .ok "g") else .error .value
  tSatP _ p := if p < 1000000 then .ok (300 + p / 10000) else .error .value

/-- Units kg/s, bar, kJ/kg, °C. -/
def resUnits : FluidProp → String
  | .p => "bar"
  | .h => "kJ / kg"
  | .T => "C"
  | .Td_bp => "C"
  | .m => "kg / s"
  | .v => "m3 / s"
  | .x => "-"
  | .vol => "m3 / kg"
  | .s => "J / kgK"

/-- 2 kg/s; values of an earlier calculation: quality 1/2, 30 K above the boiling point, temperature `T`, phase "tp". -/
def resConn (p h : ℚ) (T : Option ℚ) (isSet : FluidProp → Bool) (fd : FluidData ℚ) (rule : Option String) : RConn where
  si := fun k => match k with
    | .m => some 2
    | .p => some p
    | .h => some h
    | .T => T
    | .x => some (1 / 2)
    | .Td_bp => some 30
    | _ => none
  isSet := isSet
  unit := resUnits
  val _ := none
  val0 _ := none
  phase := some "tp"
  fd := fd
  rule := rule

def resPure : FluidData ℚ := [("A", ⟨1, invWrapper 2000 false⟩), ("B", ⟨0, invWrapper 4000 false⟩)]

theorem resPure_only : Spec.OnlyFluid resPure ⟨1, invWrapper 2000 false⟩ := by
  unfold Spec.OnlyFluid resPure
  have h1 : decide ((1 : ℚ) / 1000000 < 1) = true := by decide +kernel
  have h0 : decide ((1 : ℚ) / 1000000 < 0) = false := by decide +kernel
  simp only [List.filter, h1, h0, List.map]

/-- A state of 5 bar and 800 kJ/kg meets the hypotheses of `C96_pure_partial`, `C96_units` and `C96_next_start_partial`:
126.85 °C, 50 K above the boiling point, quality 4/5; the next calculation starts at 5 bar. -/
example : ∃ c', (resConn 500000 800000 none (fun _ => false) resPure none).calcResults resFns none = (c', none) ∧
    Spec.PureBasics resFns ⟨1, invWrapper 2000 false⟩ 2 500000 800000 c' ∧ c'.si .x = some (4 / 5) ∧
    c'.si .Td_bp = some 50 ∧ c'.val .T = some (2537 / 20) ∧ c'.val .p = some 5 ∧
    c'.nextStart resUnits .p = .ok (some 500000) := by
  refine ⟨_, Prod.ext rfl (by decide +kernel), ?_, by decide +kernel, by decide +kernel, by decide +kernel,
    by decide +kernel, ?_⟩
  · exact (C96_pure_partial resFns none _ _ (Prod.ext rfl (by decide +kernel)) _ resPure_only 2 500000 800000 rfl rfl rfl).2.1
  · exact C96_next_start_partial resFns none (resConn 500000 800000 none (fun _ => false) resPure none) _
      (Prod.ext rfl (by decide +kernel)) .p (by simp) 500000 (by decide +kernel) resUnits rfl

/-- With pascals in the network the next calculation starts at 5 Pa. -/
example : ∃ c', (resConn 500000 800000 none (fun _ => false) resPure none).calcResults resFns none = (c', none) ∧
    c'.nextStart (fun _ => "Pa") .p = .ok (some 5) := by
  refine ⟨_, Prod.ext rfl (by decide +kernel), ?_⟩
  have := C96_unit_change_false resFns none (resConn 500000 800000 none (fun _ => false) resPure none) _
    (Prod.ext rfl (by decide +kernel)) 500000 (by decide +kernel) rfl (fun _ => "Pa") rfl
  rw [this]
  norm_num

/-- Hypotheses of `C96_boiling_false`: the quality 1/2 is specified, the boiling temperature at 20 bar is not known. The
quality reported is nan, the distance to the boiling point 30 K of an earlier calculation. -/
example : ∃ c', (resConn 2000000 800000 none (fun k => k == .x) resPure none).calcResults resFns none = (c', none) ∧
    (resConn 2000000 800000 none (fun k => k == .x) resPure none).isSet .x = true ∧
    (resConn 2000000 800000 none (fun k => k == .x) resPure none).si .x = some (1 / 2) ∧
    c'.si .x = none ∧ c'.si .Td_bp = some 30 ∧ c'.phase = none := by
  refine ⟨_, Prod.ext rfl (by decide +kernel), by decide +kernel, rfl, ?_⟩
  have := C96_boiling_false resFns none (resConn 2000000 800000 none (fun k => k == .x) resPure none) _
    (Prod.ext rfl (by decide +kernel)) _ resPure_only 2 2000000 800000 rfl rfl rfl rfl (by decide +kernel)
  exact ⟨this.1, this.2.2, by decide +kernel⟩

/-- A mixture of 300 K meets the hypotheses of `C96_mixture_partial`, `C96_mixture_linear_partial` and `C96_stale_false`; it
keeps the quality and the phase of the pure fluid calculated before. -/
example : ∃ c', (resConn 1000 (3500 * 300 + 1) none (fun _ => false) (invMix false) (some "incompressible")).calcResults
      resFns none = (c', none) ∧
    c'.si .T = some 300 ∧ c'.si .vol = some (1 / 700) ∧ c'.si .x = some (1 / 2) ∧ c'.si .Td_bp = some 30 ∧
    c'.phase = some "tp" := by
  refine ⟨_, Prod.ext rfl (by decide +kernel), ?_, by decide +kernel, ?_⟩
  · exact (C96_mixture_linear_partial resFns none _ _ (Prod.ext rfl (by decide +kernel)) (invMix_two false)
      (lo := 2001 / 10) (hi := 4999 / 10)
      ⟨(invMix_range false).min, (invMix_range false).minEq, (invMix_range false).max, (invMix_range false).maxEq⟩
      (Or.inr (Or.inr rfl)) 2 1000 3500 1 300 (by norm_num)
      (fun T => by rw [show (resConn 1000 (3500 * 300 + 1) none (fun _ => false) (invMix false)
        (some "incompressible")).rule = some "incompressible" from rfl, show (resConn 1000 (3500 * 300 + 1) none
        (fun _ => false) (invMix false) (some "incompressible")).fd = invMix false from rfl, invMix_enthalpy]; norm_num)
      (by norm_num) (by norm_num) rfl rfl rfl).1
  · exact C96_stale_false resFns none (resConn 1000 (3500 * 300 + 1) none (fun _ => false) (invMix false)
      (some "incompressible")) _ (Prod.ext rfl (by decide +kernel)) (invMix_two false) 2 1000 (3500 * 300 + 1) rfl rfl rfl

/-- C96 is false for specified values of a mixture: no temperature below 999.8 K has the enthalpy, and the results for
the specified temperature and volumetric flow are nan. -/
theorem C96_specified_nan_false : ∃ c c' : RConn, c.calcResults resFns none = (c', none) ∧
    c.isSet .T = true ∧ c.isSet .v = true ∧ c.si .T = some (9998 / 10) ∧
    c'.si .T = none ∧ c'.val .T = none ∧ c'.si .v = none := by
  refine ⟨resConn 1000 35000001 (some (9998 / 10)) (fun k => k == .T || k == .v) (invMix false) (some "incompressible"), _,
    Prod.ext rfl (by decide +kernel), ?_⟩
  refine ⟨by decide +kernel, by decide +kernel, rfl, by decide +kernel, by decide +kernel, by decide +kernel⟩

/-- An increasing enthalpy: 1000 J/(kg K) between 290 K and 310 K, 1 J/(kg K) otherwise. -/
def kinkEnthalpy (T : ℚ) : ℚ :=
  if T < 290 then 290000 + (T - 290) else if T ≤ 310 then 300000 + 1000 * (T - 300) else 310000 + (T - 310)

def kinkMix : FluidData ℚ :=
  [("A", ⟨1 / 4, { invWrapper 2000 false with hPT := fun _ T => kinkEnthalpy T }⟩),
   ("B", ⟨3 / 4, { invWrapper 2000 false with hPT := fun _ T => kinkEnthalpy T }⟩)]

theorem kinkEnthalpy_strictMono : StrictMono kinkEnthalpy := by
  intro a b h
  unfold kinkEnthalpy
  split_ifs <;> linarith

/-- C96 is false for mixtures: the temperature reported is the one of the state (300 K), but the volume is that of another
temperature (200.1 K), because it is calculated without starting temperature. -/
theorem C96_two_temperatures_false : ∃ c c' : RConn, c.calcResults resFns none = (c', none) ∧
    c.fd = kinkMix ∧ c'.si .p = some 1000 ∧ c'.si .h = some 300000 ∧ c'.si .T = some 300 ∧
    hMixPT none c.rule 1000 300 kinkMix = .ok 300000 ∧ vMixPT none c.rule 1000 300 kinkMix = .ok (1 / 700) ∧
    c'.si .vol = some (10 / 7999) ∧ vMixPT none c.rule 1000 (2001 / 10) kinkMix = .ok (10 / 7999) := by
  refine ⟨resConn 1000 300000 (some 300) (fun _ => false) kinkMix (some "incompressible"), _,
    Prod.ext rfl (by decide +kernel), rfl, ?_⟩
  refine ⟨by decide +kernel, by decide +kernel, by decide +kernel, by decide +kernel, by decide +kernel, by decide +kernel,
    by decide +kernel⟩

end Tespy
