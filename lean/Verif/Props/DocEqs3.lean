import Verif.Model.DocEqs2
import Verif.Props.DocEqs2
import Verif.Props.CompressorMap

/-!
C111: characteristic lines for pressures, compressor maps, pressures of reactors and combustion chambers, and what
components add to busses.
-/
namespace Tespy

/-! ### characteristic lines -/

/-- C111: the printed argument of a characteristic line is the number at which the line is evaluated. -/
theorem C111_char_argument (F : NumProps) (C : NComp) (q : CharSel) (s : EqState ℝ) (x : ℝ)
    (hm : (C.dIn q.inconn).m ≠ 0) (hmo : (C.dOut q.outconn).m ≠ 0) (hv : (C.dIn q.inconn).v ≠ 0)
    (hp : (nStream F s (C.inl q.inconn)).p ≠ 0) (hpo : (C.dOut q.outconn).p ≠ 0) (hq : q.param ≠ .other) :
    nCharExpr F C q s = .ok x ↔ Doc.charExpr (nStream F s (C.inl q.inconn)) (nStream F s (C.outl q.outconn))
      (C.dIn q.inconn) (C.dOut q.outconn) q = some x := by
  unfold nCharExpr Doc.charExpr charExprRel
  cases q.rel <;> cases h : q.param <;> simp_all [rdiv, mul_comm]

/-- C111 for the pressure rise of a pump and the pressure drop of a valve: for the value `f` of the line at a printed
argument `x` (different from zero for the valve) the residual is zero exactly if the printed equation holds. -/
theorem C111_pressure_lines (F : NumProps) (C : NComp) (q : CharSel) (s : EqState ℝ) (x f : ℝ)
    (hx : nCharExpr F C q s = .ok x) :
    (C.char "flow_char" x = .ok f →
      (Doc.flowChar (nStream F s (C.inl 0)) (nStream F s (C.outl 0)) f ↔ (NEq.flowChar q).res F C s = .ok 0)) ∧
    (C.char "dp_char" x = .ok f → x ≠ 0 →
      (Doc.dpChar (nStream F s (C.inl 0)) (nStream F s (C.outl 0)) f ↔ (NEq.dpChar q).res F C s = .ok 0)) := by
  constructor
  · intro h
    simp only [NEq.res, hx, nChar, h, nMap, Doc.flowChar, nStream, Except.ok.injEq]
    exact eq_comm
  · intro h h0
    simp only [NEq.res, hx, charFactor, h, h0, if_false, nMap, Doc.dpChar, nStream, Except.ok.injEq]
    exact eq_comm

-- non-vacuity: absolute mass flow as argument of the line; the relative one with a design mass flow
example (F : NumProps) (C : NComp) (s : EqState ℝ) :
    nCharExpr F C ⟨.m, false, 0, 0⟩ s = .ok (s.mv (C.inl 0)) := rfl
example (F : NumProps) (C : NComp) (s : EqState ℝ) (h : C.dIn 0 = ⟨2, 1, 1, 1, 300⟩) :
    nCharExpr F C ⟨.m, true, 0, 0⟩ s = .ok (s.mv (C.inl 0) / 2) := by
  simp [nCharExpr, charExprRel, rdiv, h, nStream]

/-! ### compressor maps -/

section maps
variable {K : Type} [Field K] [LinearOrder K] [IsStrictOrderedRing K]

omit [IsStrictOrderedRing K] in
theorem mapPr_once (c : CharMap K) (q : CompressorPoint K) (pInD pOutD : K) (hd : pInD ≠ 0) (ho : pOutD ≠ 0)
    (hpr : q.prDesign = pOutD / pInD) (hp : q.pIn ≠ 0) :
    Doc.mapPr c q.x q.y q.igva q.pIn q.pOut pInD pOutD ↔ (mapPrFunc c q).2 = .ok 0 := by
  unfold Doc.mapPr mapPrFunc CharMap.scaledEval scaleRow
  cases c.evaluateX q.x with
  | error e => simp
  | ok r =>
    obtain ⟨ya, za⟩ := r
    simp only [Except.ok.injEq, Prod.mk.injEq]
    constructor
    · rintro ⟨ya', za', f, ⟨rfl, rfl⟩, hf, h0⟩
      rw [hf]
      simp only [Except.ok.injEq, hpr]
      field_simp at h0 ⊢
      linear_combination -h0
    · intro h
      refine ⟨ya, za, ?_⟩
      cases hf : CharMap.evaluateY q.y (ya.map (· * (1 - q.igva / 100))) (za.map (· * (1 - q.igva / 100))) with
      | error e => rw [hf] at h; simp at h
      | ok f =>
        rw [hf] at h
        simp only [Except.ok.injEq, hpr] at h
        refine ⟨f, ⟨rfl, rfl⟩, rfl, ?_⟩
        field_simp at h ⊢
        linear_combination -h

omit [IsStrictOrderedRing K] in
theorem mapEta_once (c : CharMap K) (q : CompressorPoint K) (hd : q.etaDesign ≠ 0) :
    Doc.mapEta c q.x q.y q.igva (q.dhIs / q.dh) q.etaDesign ↔ (mapEtaFunc c q).2 = .ok 0 := by
  unfold Doc.mapEta mapEtaFunc CharMap.scaledEval scaleRow
  cases c.evaluateX q.x with
  | error e => simp
  | ok r =>
    obtain ⟨ya, za⟩ := r
    simp only [Except.ok.injEq, Prod.mk.injEq]
    constructor
    · rintro ⟨ya', za', f, ⟨rfl, rfl⟩, hf, h0⟩
      rw [hf]
      simp only [Except.ok.injEq]
      have h1 : q.dhIs / q.dh / q.etaDesign = f := by linear_combination -h0
      rw [← h1, div_mul_cancel₀ _ hd, sub_self]
    · intro h
      refine ⟨ya, za, ?_⟩
      cases hf : CharMap.evaluateY q.y (ya.map (· * (1 - q.igva / 100)))
          (za.map (· * (1 - q.igva ^ 2 / 10000))) with
      | error e => rw [hf] at h; simp at h
      | ok f =>
        rw [hf] at h
        simp only [Except.ok.injEq] at h
        refine ⟨f, ⟨rfl, rfl⟩, rfl, ?_⟩
        have h1 : q.dhIs / q.dh = f * q.etaDesign := by linear_combination h
        rw [h1, mul_div_cancel_right₀ _ hd, sub_self]

/-- C111 for compressor maps: at the first evaluation, and at every one of any number of evaluations if the inlet guide
vane angle is zero or the speed line is within the map, the residual is zero exactly if the printed equation holds.
Missing: later evaluations outside of the map, see `C111_map_false`. -/
theorem C111_map_partial (c : CharMap K) (q : CompressorPoint K) (pInD pOutD : K) (hd : pInD ≠ 0) (ho : pOutD ≠ 0)
    (hpr : q.prDesign = pOutD / pInD) (hp : q.pIn ≠ 0) (he : q.etaDesign ≠ 0) :
    (Doc.mapPr c q.x q.y q.igva q.pIn q.pOut pInD pOutD ↔ (mapPrFunc c q).2 = .ok 0) ∧
    (Doc.mapEta c q.x q.y q.igva (q.dhIs / q.dh) q.etaDesign ↔ (mapEtaFunc c q).2 = .ok 0) ∧
    ∀ hs : c.Shape, c.x.Pairwise (· < ·) → q.igva < 100 →
      (q.igva = 0 ∨ (c.x[0]'hs.some < q.x ∧ q.x ≤ c.x[c.x.length - 1]'(by have := hs.some; omega))) →
      ∀ n, 0 < n →
        (Doc.mapPr c q.x q.y q.igva q.pIn q.pOut pInD pOutD ↔
          ∀ r ∈ (mapRuns mapPrFunc q n c).2, r = .ok 0) ∧
        (Doc.mapEta c q.x q.y q.igva (q.dhIs / q.dh) q.etaDesign ↔
          ∀ r ∈ (mapRuns mapEtaFunc q n c).2, r = .ok 0) := by
  have a := mapPr_once c q pInD pOutD hd ho hpr hp
  have b := mapEta_once c q he
  refine ⟨a, b, ?_⟩
  intro hs hx hi h n hn
  obtain ⟨h1, h2, _⟩ := C63_unchanged_partial c hs hx q hi h
  have hr := C63_residual c q hi
  rw [h1 n, h2 n]
  constructor
  · rw [a, hr.1]
    simp [List.mem_replicate, hn.ne']
  · rw [b, hr.2]
    simp [List.mem_replicate, hn.ne']

end maps

/-- The operating point of `C111_map_false`: the speed line is below those of the map, pressures 1 and 13, pressure ratio
5 in the design case, inlet guide vane angle 10. -/
def docPoint : CompressorPoint ℚ := { cmPoint with pOut := 13 }

theorem docPoint_first : (mapPrFunc cmMap docPoint).2.toOption = some 0 := by decide +kernel
theorem docPoint_runs : (mapRuns mapPrFunc docPoint 2 cmMap).2.map Except.toOption = [some 0, some (9 / 5)] := by
  decide +kernel

/-- C111 is false for compressor maps: the printed equation holds at an operating point, the second evaluation of the
solved one gives 9/5. -/
theorem C111_map_false :
    Doc.mapPr cmMap docPoint.x docPoint.y docPoint.igva docPoint.pIn docPoint.pOut 1 5 ∧
    (mapRuns mapPrFunc docPoint 2 cmMap).2.map Except.toOption = [some 0, some (9 / 5)] := by
  refine ⟨?_, docPoint_runs⟩
  rw [mapPr_once cmMap docPoint 1 5 (by norm_num) (by norm_num) (by norm_num [docPoint, cmPoint])
    (by norm_num [docPoint, cmPoint])]
  have h := docPoint_first
  cases hr : (mapPrFunc cmMap docPoint).2 with
  | error e => rw [hr] at h; cases h
  | ok v => rw [hr] at h; cases h; rfl

-- non-vacuity of C111_map_partial: the same point within the map, the printed equation fixes the pressure
example : cmMap.Shape ∧ cmMap.x.Pairwise (· < ·) ∧ docPoint.igva < 100 ∧ docPoint.prDesign = 5 / 1 ∧
    (9 / 10 : ℚ) < 95 / 100 ∧ (95 / 100 : ℚ) ≤ 1 ∧ docPoint.etaDesign ≠ 0 :=
  ⟨⟨by decide, by decide, by decide⟩, by decide +kernel, by decide +kernel, by decide +kernel, by norm_num, by norm_num,
    by decide +kernel⟩

/-! ### pressures of combustion chambers and reactors -/

section pressure
variable {K : Type} [Field K]

/-- C111: pressures of combustion chambers and engines, water electrolyzers and fuel cells. -/
theorem C111_pressures (s : EqState K) (a b c : Port) :
    (Doc.combPressure s a b c ↔ combPressure s a b c = .vec [0, 0]) ∧
    (Doc.elecPressure s a b c ↔ elecPressure s a b c = .vec [0, 0]) ∧
    (Doc.cellPressure s a b c ↔ cellPressure s a b c = .vec [0, 0]) := by
  simp only [Doc.combPressure, Doc.elecPressure, Doc.cellPressure, combPressure, elecPressure, cellPressure,
    Resid.vec.injEq, List.cons.injEq, and_true]
  refine ⟨⟨fun h => ⟨h.1.symm, ?_⟩, fun h => ⟨h.1.symm, ?_⟩⟩, ⟨fun h => ⟨h.1.symm, h.2.symm⟩, fun h => ⟨h.1.symm, h.2.symm⟩⟩,
    ⟨fun h => ⟨?_, ?_⟩, fun h => ⟨?_, ?_⟩⟩⟩
  · linear_combination h.2 - h.1
  · linear_combination h.2 - h.1
  · linear_combination h.1
  · linear_combination h.2
  · linear_combination h.1
  · linear_combination h.2

end pressure

/-! ### busses -/

section busses
variable {F K : Type} [DecidableEq F] [Field K]

/-- C111 for what a combustion engine and a water electrolyzer add to a bus: in a state which satisfies their mandatory
equations (power and heat loss of the engine, energy balance of the electrolyzer) the printed expression is the
value on the bus, and a parameter without a printed expression is refused. -/
theorem C111_bus [LinearOrder K] (d : CombData F K) (ch : EngineChars K) (e : EngineVals F K) (i3 i4 out : CombStream F K)
    (he : e.inl = [i3, i4]) (ho : e.out = out) (ht : ch.tiP e.load ≠ 0) (hP : enginePowerRes d ch e = 0)
    (hQ : engineLossRes d ch e = 0) (v : ReactorVals K) (hv : elecEnergyRes v = 0) (param : String) :
    engineBus d ch e param =
      (match Doc.engineBus d i3 i4 out e.loop1 e.loop2 e.P e.Qloss param with
        | some x => .ok x
        | none => .error .valueError) ∧
    elecBus v param =
      (match Doc.elecBus v.loop v.P param with
        | some x => .ok x
        | none => .error .valueError) := by
  have hti : e.ti d = Doc.ti d i3 i4 out := by rw [docTi, EngineVals.ti, he, ho]
  have h1 : engineCalcP d ch e = e.P := by
    unfold engineCalcP
    unfold enginePowerRes at hP
    rw [div_eq_iff ht]
    linear_combination -hP
  have h2 : engineCalcQloss d ch e = e.Qloss := by
    unfold engineCalcQloss
    unfold engineLossRes at hQ
    rw [div_eq_iff ht]
    linear_combination -hQ
  have h3 : elecCalcP v = v.P := by
    unfold elecEnergyRes at hv
    linear_combination -hv
  constructor
  · unfold engineBus Doc.engineBus
    rw [h1, h2, hti]
    split_ifs <;> simp
    try ring
  · unfold elecBus Doc.elecBus
    rw [h3]
    split_ifs <;> rfl

/-- C111 is false for busses before the equations are solved: the bus of an engine takes the power from the thermal
input and the characteristic line, not the printed parameter `P`. -/
theorem C111_bus_false (d : CombData F K) (ch : EngineChars K) (e : EngineVals F K) (ht : ch.tiP e.load ≠ 0)
    (hP : enginePowerRes d ch e ≠ 0) : engineBus d ch e "P" ≠ .ok e.P := by
  intro h
  have h1 : engineCalcP d ch e = e.P := Except.ok.inj h
  apply hP
  unfold engineCalcP at h1
  rw [div_eq_iff ht] at h1
  unfold enginePowerRes
  linear_combination -h1

end busses

/-- An engine burning one kg/s of a fuel with a heating value of 100: 40 of power, 10 of loss. -/
def docEngine : EngineVals (Fin 5) ℚ where
  inl := [⟨1, fun f => if f = 3 then 1 else 0, 0, 0⟩, ⟨20, fun f => if f = 0 then 1 else 0, 0, 0⟩]
  out := ⟨21, fun _ => 0, 0, 0⟩
  loop1 := ⟨1, 1, 1, 0, 25⟩
  loop2 := ⟨1, 1, 1, 0, 25⟩
  P := -40
  Qloss := -10
  Pdesign := none
def docData : CombData (Fin 5) ℚ := ⟨0, 1, 2, {3}, fun _ => 1, fun _ => 4, fun _ => 16, fun _ => 100⟩
def docChars : EngineChars ℚ := ⟨fun _ => 5 / 2, fun _ => 5 / 8, fun _ => 5 / 8, fun _ => 1 / 4⟩

-- non-vacuity of C111_bus and C111_bus_false
example : docChars.tiP docEngine.load ≠ 0 ∧ enginePowerRes docData docChars docEngine = 0 ∧
    engineLossRes docData docChars docEngine = 0 ∧
    enginePowerRes docData docChars { docEngine with P := -30 } ≠ 0 := by
  refine ⟨by decide +kernel, by decide +kernel, by decide +kernel, by decide +kernel⟩
example : elecEnergyRes (⟨⟨0, 1, 1, 0, 0⟩, ⟨9, 0, 0⟩, ⟨8, 0, 0⟩, ⟨1, 0, 0⟩, elecE0 2, 2⟩ : ReactorVals ℚ) = 0 := by
  norm_num [elecEnergyRes, elecCalcP, elecE0]

end Tespy
