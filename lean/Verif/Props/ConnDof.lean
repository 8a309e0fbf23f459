import Verif.Props.ConnAttr
import Verif.Props.Simplify
/-
C103: every specification of a connection takes part in the calculation.
-/
namespace Tespy
variable {K R : Type}

/-! ### specification -/

/-- the property is specified with a value after these keyword arguments of `set_attr` on a new connection -/
def Spec.specified (kws : List (String × CVal K R)) (p : PName) : Bool :=
  (kws.foldl (Spec.value p) (false, .num none)).1

/-- the property has a reference after these keyword arguments of `set_attr` on a new connection -/
def Spec.referenced (kws : List (String × CVal K R)) (p : PName) : Bool :=
  (kws.foldl (Spec.reference p) (false, none)).1

/-- What the set-up of the calculation reads of a connection (connections/connection.py 611-671): which properties are
specified, and the values in SI units. -/
def Conn.specState (c : Conn K R) (SI : PName → K) (TdVal : K) : SimpState K where
  isSet := fun p => (c.prop p).isSet
  refSet := fun r => (c.ref r).isSet
  balance := c.balance
  solved := fun _ => false
  SI := SI
  TdVal := TdVal

/-- variables minus equations of a connection in the calculation; `none` if the set-up raises -/
def Spec.dof [Add K] (F : FluidFuncs K) (s : SimpState K) : Option ℤ :=
  match connSetup F s with
  | .ok (vars, eqs, _) => some ((vars.length : ℤ) - eqs.length)
  | .error _ => none

/-! ### proofs -/

theorem dof_eq [Add K] (F : FluidFuncs K) (c : Conn K R) (SI : PName → K) (Td : K) (n : ℤ)
    (h : Spec.dof F (c.specState SI Td) = some n) : n = Spec.degrees (c.specState SI Td) := by
  unfold Spec.dof at h
  split at h
  · rename_i vars eqs s' hs
    have := (C28_degrees_of_freedom F (c.specState SI Td) (fun _ => rfl) vars eqs s' hs).1
    rw [← this]; simpa using h.symm
  · simp at h

theorem setProp_isSet (c : Conn K R) (p : PName) (b : PBox K R) (q : PName) :
    ((c.setProp p b).prop q).isSet = if q = p then b.isSet else (c.prop q).isSet := by
  by_cases hqp : q = p
  · subst hqp; simp
  · rw [setProp_ne _ _ hqp, if_neg hqp]

theorem setRef_isSet (c : Conn K R) (r : RName) (b : RBox R) (q : RName) :
    ((c.setRef r b).ref q).isSet = if q = r then b.isSet else (c.ref q).isSet := by
  by_cases hqp : q = r
  · subst hqp; simp
  · rw [setRef_ne _ _ hqp, if_neg hqp]

/-- the simplification does not look at entropy and specific volume -/
theorem simplify_congr [Add K] (F : FluidFuncs K) (s t : SimpState K)
    (e1 : ∀ q, q ≠ .s → q ≠ .vol → s.isSet q = t.isSet q) (e4 : s.solved = t.solved)
    (e5 : s.SI = t.SI) (e6 : s.TdVal = t.TdVal) :
    (simplify F s).2 = (simplify F t).2 ∧ (simplify F s).1.solved = (simplify F t).1.solved := by
  have em := e1 .m (by decide) (by decide)
  have ep := e1 .p (by decide) (by decide)
  have eh := e1 .h (by decide) (by decide)
  have eT := e1 .T (by decide) (by decide)
  have ev := e1 .v (by decide) (by decide)
  have ex := e1 .x (by decide) (by decide)
  have ed := e1 .Td_bp (by decide) (by decide)
  have hl : countedSpecs.filter (s.isSet ·) = countedSpecs.filter (t.isSet ·) := by
    simp only [countedSpecs, List.filter_cons, List.filter_nil, em, ep, eh, eT, ev, ex, ed]
  unfold simplify
  rw [hl]
  simp only [ep, eh, eT, ex, ed, e4, e5, e6]
  generalize (countedSpecs.filter (t.isSet ·)).length = n
  split_ifs <;> first
    | exact ⟨rfl, e4⟩
    | (cases F.h_pT (t.SI .p) (t.SI .T) <;> exact ⟨rfl, by first | rfl | exact e4⟩)
    | (cases F.h_pQ (t.SI .p) (t.SI .x) <;> exact ⟨rfl, by first | rfl | exact e4⟩)
    | (cases F.T_sat (t.SI .p) with
        | error e => exact ⟨rfl, e4⟩
        | ok Ts => dsimp only; cases F.h_pT (t.SI .p) (Ts + t.TdVal) <;> exact ⟨rfl, by first | rfl | exact e4⟩)
    | (cases F.p_sat (t.SI .T) with
        | error e => exact ⟨rfl, e4⟩
        | ok p => dsimp only; cases F.h_pQ p (t.SI .x) <;> exact ⟨rfl, by first | rfl | exact e4⟩)

/-- C103: after any sequence of calls of `set_attr` on a new connection, variables minus equations of the connection is three
minus one for every specified value of mass flow, pressure, enthalpy, temperature, volumetric flow, steam quality and boiling
temperature difference, one for every reference and one for the fluid balance. -/
theorem C103_history [Add K] (F : FluidFuncs K) (kws : List (String × CVal K R)) (SI : PName → K) (Td : K) (n : ℤ)
    (hi : ∀ kw ∈ kws, kw.1 ∉ Spec.internalKeys)
    (h : Spec.dof F (((Conn.new : Conn K R).run kws).specState SI Td) = some n) :
    n = 3 - ([.m, .p, .h, .T, .v, .x, .Td_bp].countP (Spec.specified kws) : ℕ)
      - ([.m, .p, .h, .T, .v].countP (Spec.referenced kws) : ℕ)
      - (if ((Conn.new : Conn K R).run kws).balance then 1 else 0) := by
  rw [dof_eq F _ SI Td n h]
  have hv : ∀ p, (((Conn.new : Conn K R).run kws).prop p).isSet = Spec.specified kws p := by
    intro p
    have := congrArg Prod.fst (C27_value (Conn.new : Conn K R) kws p)
    simpa [Spec.specified, Conn.new] using this
  have hr : ∀ p r, p.ref = some r → (((Conn.new : Conn K R).run kws).ref r).isSet = Spec.referenced kws p := by
    intro p r hp
    have := congrArg Prod.fst (C27_reference (Conn.new : Conn K R) kws p r hp hi)
    simpa [Spec.referenced, Conn.new] using this
  simp only [Spec.degrees, Conn.specState, num_cons, num_nil, hv, hr .m .m rfl, hr .p .p rfl, hr .h .h rfl, hr .T .T rfl,
    hr .v .v rfl, List.countP_cons, List.countP_nil]
  cases ((Conn.new : Conn K R).run kws).balance <;> simp <;> omega

/-- C103: specifying one more of these properties with a value takes exactly one degree of freedom. -/
theorem C103_value [Add K] (F : FluidFuncs K) (c : Conn K R) (p : PName) (v : CVal K R) (SI SI' : PName → K) (Td Td' : K)
    (n n' : ℤ) (hv : v.isNumeric = true) (hp : p ≠ .vol ∧ p ≠ .s) (hset : (c.prop p).isSet = false)
    (h : Spec.dof F (c.specState SI Td) = some n)
    (h' : Spec.dof F ((c.run [(Spec.keyword p, v)]).specState SI' Td') = some n') : n' = n - 1 := by
  rw [dof_eq F _ _ _ n h, dof_eq F _ _ _ n' h']
  have hrun : c.run [(Spec.keyword p, v)] = (c.paramProp p v).1 := by
    simp [Conn.run, Conn.setKey, parse_keyword]
  have hpar : (c.paramProp p v).1 =
      c.setProp p { c.prop p with isSet := true, val := v, isVar := if p.primary then false else (c.prop p).isVar } := by
    cases v <;> simp_all [Conn.paramProp, CVal.isNumeric]
  rw [hrun, hpar]
  have hq := setProp_isSet c p
  obtain ⟨hp1, hp2⟩ := hp
  simp only [Spec.degrees, Conn.specState, num_cons, num_nil, hq, setProp_ref]
  have hb : ∀ b, (c.setProp p b).balance = c.balance := fun _ => rfl
  simp only [hb]
  cases p <;> first | (exact absurd rfl hp1) | (exact absurd rfl hp2) | (simp [hset]; omega)

/-- C103: referring one more property to another connection takes exactly one degree of freedom. -/
theorem C103_reference [Add K] (F : FluidFuncs K) (c : Conn K R) (p : PName) (r : RName) (x : R) (SI SI' : PName → K)
    (Td Td' : K) (n n' : ℤ) (hr : p.ref = some r) (hset : (c.ref r).isSet = false)
    (h : Spec.dof F (c.specState SI Td) = some n)
    (h' : Spec.dof F ((c.run [(Spec.keyword p, .ref x)]).specState SI' Td') = some n') : n' = n - 1 := by
  rw [dof_eq F _ _ _ n h, dof_eq F _ _ _ n' h']
  have hrun : c.run [(Spec.keyword p, .ref x)] = c.setRef r ⟨some x, true⟩ := by
    simp [Conn.run, Conn.setKey, parse_keyword, Conn.paramProp, hr]
  rw [hrun]
  have hq := setRef_isSet c r
  have hb : ∀ b, (c.setRef r b).balance = c.balance := fun _ => rfl
  simp only [Spec.degrees, Conn.specState, num_cons, num_nil, hq, setRef_prop, hb]
  cases r <;> simp [hset] <;> omega

/-- C103: `None` gives back what value and reference of the property took. -/
theorem C103_release [Add K] (F : FluidFuncs K) (c : Conn K R) (p : PName) (r : RName) (SI SI' : PName → K)
    (Td Td' : K) (n n' : ℤ) (hr : p.ref = some r)
    (h : Spec.dof F (c.specState SI Td) = some n)
    (h' : Spec.dof F ((c.run [(Spec.keyword p, .none)]).specState SI' Td') = some n') :
    n' = n + (if (c.prop p).isSet then 1 else 0) + (if (c.ref r).isSet then 1 else 0) := by
  rw [dof_eq F _ _ _ n h, dof_eq F _ _ _ n' h']
  have hrun : c.run [(Spec.keyword p, .none)] =
      (c.setProp p { c.prop p with isSet := false, isVar := if p.primary then true else (c.prop p).isVar }).setRef r
        { c.ref r with isSet := false } := by
    simp [Conn.run, Conn.setKey, parse_keyword, Conn.paramProp, hr]
  rw [hrun]
  have hq := fun d => setRef_isSet (K := K) (R := R) d r
  have hp := setProp_isSet c p
  have hb : ∀ (d : Conn K R) b, (d.setRef r b).balance = d.balance := fun _ _ => rfl
  have hb' : ∀ b, (c.setProp p b).balance = c.balance := fun _ => rfl
  simp only [Spec.degrees, Conn.specState, num_cons, num_nil, hq, setRef_prop, hb, hb', hp, setProp_ref]
  cases p <;> simp only [PName.ref, Option.some.injEq, reduceCtorEq] at hr <;> subst hr <;> simp <;> omega

/-- C103, refuted part: entropy and specific volume are accepted as specifications of every connection, and no variable and no
equation of the calculation changes: the specification is ignored. -/
theorem C103_entropy_ignored_false [Add K] (F : FluidFuncs K) (c : Conn K R) (p : PName) (hp : p = .s ∨ p = .vol)
    (x : Option K) (SI : PName → K) (Td : K) :
    c.setAttr [(Spec.keyword p, .num x)] = (c.run [(Spec.keyword p, .num x)], none) ∧
    (((c.run [(Spec.keyword p, .num x)]).prop p).isSet = true) ∧
    (connSetup F ((c.run [(Spec.keyword p, .num x)]).specState SI Td)).map (fun r => (r.1, r.2.1)) =
      (connSetup F (c.specState SI Td)).map (fun r => (r.1, r.2.1)) := by
  have hrun : c.run [(Spec.keyword p, .num x)] =
      c.setProp p { c.prop p with isSet := true, val := .num x, isVar := if p.primary then false else (c.prop p).isVar } := by
    simp [Conn.run, Conn.setKey, parse_keyword, Conn.paramProp, CVal.isNumeric]
  refine ⟨?_, ?_, ?_⟩
  · rw [hrun]
    simp [Conn.setAttr, Conn.setKey, parse_keyword, Conn.paramProp, CVal.isNumeric]
  · rw [hrun]; simp
  · rw [hrun]
    set b : PBox K R := { c.prop p with isSet := true, val := .num x, isVar := if p.primary then false else (c.prop p).isVar }
    have hq : ∀ q, q ≠ .s → q ≠ .vol → ((c.setProp p b).prop q).isSet = (c.prop q).isSet := by
      intro q h1 h2
      rw [setProp_ne]
      rintro rfl; rcases hp with h | h
      · exact h1 h
      · exact h2 h
    have key : ∀ s t : SimpState K, (∀ q, q ≠ .s → q ≠ .vol → s.isSet q = t.isSet q) → s.refSet = t.refSet →
        s.balance = t.balance → s.solved = t.solved → s.SI = t.SI → s.TdVal = t.TdVal →
        (connSetup F s).map (fun r => (r.1, r.2.1)) = (connSetup F t).map (fun r => (r.1, r.2.1)) := by
      intro s t e1 e2 e3 e4 e5 e6
      obtain ⟨g1, g2⟩ := simplify_congr F s t e1 e4 e5 e6
      unfold connSetup
      rcases hs : simplify F s with ⟨s1, o⟩
      rcases ht : simplify F t with ⟨t1, o'⟩
      rw [hs, ht] at g1 g2
      simp only at g1 g2
      subst g1
      cases o with
      | some e => rfl
      | none =>
        obtain ⟨a1, a2, a3, -⟩ := simplify_specs F s s1 hs
        obtain ⟨b1, b2, b3, -⟩ := simplify_specs F t t1 ht
        have em := e1 .m (by decide) (by decide)
        have ep := e1 .p (by decide) (by decide)
        have eh := e1 .h (by decide) (by decide)
        have eT := e1 .T (by decide) (by decide)
        have ev := e1 .v (by decide) (by decide)
        have ex := e1 .x (by decide) (by decide)
        have ed := e1 .Td_bp (by decide) (by decide)
        simp only [connVars, connEqs, Except.map, a1, a2, a3, b1, b2, b3, g2, e2, e3, List.filter_cons, List.filter_nil,
          em, ep, eh, eT, ev, ex, ed, PName.primary]
    exact key _ _ hq rfl rfl rfl rfl rfl

/-! ### examples -/

/-- pressure, temperature, a reference of the mass flow: three of three degrees of freedom -/
def dofKws : List (String × CVal ℚ Unit) := [("p", .num (some 1)), ("T", .num (some 300)), ("m", .ref ()), ("s", .num (some 1))]

example : Spec.dof toyFluid (((Conn.new : Conn ℚ Unit).run dofKws).specState (fun _ => 1) 0) = some 0 ∧
    (∀ kw ∈ dofKws, kw.1 ∉ Spec.internalKeys) ∧
    Spec.dof toyFluid ((Conn.new : Conn ℚ Unit).specState (fun _ => 1) 0) = some 3 ∧
    Spec.dof toyFluid (((Conn.new : Conn ℚ Unit).run [(Spec.keyword .T, .num (some 300))]).specState (fun _ => 1) 0) =
      some 2 := by
  decide +kernel

end Tespy
