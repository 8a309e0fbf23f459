import Verif.Props.ConnAttr
import Verif.Props.Export
import Verif.Props.Engine
import Verif.Props.MixInverse

/-!
C27, C45, C79, C81: settings of connections after any sequence of calls, containers refused when a network is loaded,
errors of numerical derivatives of mixtures, the formula behind the exergy balance of engines.
-/
namespace Tespy
variable {K R : Type}

/-- the last truth value given for a keyword; other keywords and other values do not count -/
def Spec.lastBool (key : String) (b : Bool) (kw : String × CVal K R) : Bool :=
  if kw.1 = key then match kw.2 with | .bool x => x | _ => b else b

/-- the last list of names of properties given for a keyword; a list with any other name does not count -/
def Spec.lastList (key : String) (l : List String) (kw : String × CVal K R) : List String :=
  if kw.1 = key then match kw.2 with | .list x => if ∀ n ∈ x, n ∈ propertyData then x else l | _ => l else l

/-- the last value given for a keyword -/
def Spec.lastValue (key : String) (v : CVal K R) (kw : String × CVal K R) : CVal K R :=
  if kw.1 = key then kw.2 else v

/-- The settings of a connection which are no values of properties. -/
def Conn.settings (c : Conn K R) : (Bool × Bool × Bool × Bool) × (List String × List String) × (CVal K R × CVal K R) :=
  ((c.printout, c.localDesign, c.localOffdesign, c.balance), (c.design, c.offdesign), (c.designPath, c.mixingRule))

theorem parse_known {k k' : String} {q q' : CKey} (h : CKey.parse k = q) (h' : CKey.parse k' = q') (hq : q ≠ q') :
    k ≠ k' := by
  rintro rfl
  exact hq (h.symm.trans h')

/-- the keyword of a setting -/
def Spec.settingKey : CKey → Option String
  | .printout => some "printout"
  | .localDesign => some "local_design"
  | .localOffdesign => some "local_offdesign"
  | .design => some "design"
  | .offdesign => some "offdesign"
  | .designPath => some "design_path"
  | .mixingRule => some "mixing_rule"
  | _ => none

theorem parse_settingKey (k : String) : ∀ n, Spec.settingKey (CKey.parse k) = some n → k = n := by
  intro n h
  unfold CKey.parse at h
  repeat' (split at h; · first | (cases h; done) | (cases h; assumption))
  cases h

theorem parse_setting {k : String} :
    (CKey.parse k = .printout → k = "printout") ∧ (CKey.parse k = .localDesign → k = "local_design") ∧
    (CKey.parse k = .localOffdesign → k = "local_offdesign") ∧ (CKey.parse k = .design → k = "design") ∧
    (CKey.parse k = .offdesign → k = "offdesign") ∧ (CKey.parse k = .designPath → k = "design_path") ∧
    (CKey.parse k = .mixingRule → k = "mixing_rule") := by
  have h := parse_settingKey k
  refine ⟨?_, ?_, ?_, ?_, ?_, ?_, ?_⟩ <;> (intro e; rw [e] at h; exact h _ rfl)

theorem fluidSpec_settings (c : Conn K R) (k : String) (v : CVal K R) :
    (c.fluidSpec k v).1.settings =
      ((c.printout, c.localDesign, c.localOffdesign, Spec.lastBool "fluid_balance" c.balance (k, v)),
        (c.design, c.offdesign), (c.designPath, c.mixingRule)) := by
  unfold Conn.fluidSpec Spec.lastBool
  by_cases hk : k = "fluid_balance"
  · simp only [hk, if_true]
    cases v <;> rfl
  · simp only [hk, if_false]
    cases v <;> try rfl
    dsimp only
    split
    · rfl
    · split
      · rfl
      · split <;> rfl

theorem param_settings (c : Conn K R) (v : CVal K R) :
    (∀ p, (c.paramProp p v).1.settings = c.settings) ∧ (∀ p, (c.paramProp0 p v).1.settings = c.settings) ∧
    (∀ r, (c.paramRef r v).1.settings = c.settings) ∧ (c.paramRef0 v).1.settings = c.settings := by
  refine ⟨?_, ?_, ?_, ?_⟩
  · intro p
    cases v <;> simp only [Conn.paramProp] <;> (repeat' split) <;> rfl
  · intro p
    cases v <;> simp only [Conn.paramProp0] <;> (repeat' split) <;> rfl
  · intro p
    cases v <;> simp only [Conn.paramRef] <;> (repeat' split) <;> rfl
  · cases v <;> simp only [Conn.paramRef0] <;> (repeat' split) <;> rfl

theorem setKey_settings (c : Conn K R) (kw : String × CVal K R) :
    (c.setKey kw.1 kw.2).1.settings =
      ((Spec.lastBool "printout" c.printout kw, Spec.lastBool "local_design" c.localDesign kw,
        Spec.lastBool "local_offdesign" c.localOffdesign kw, Spec.lastBool "fluid_balance" c.balance kw),
        (Spec.lastList "design" c.design kw, Spec.lastList "offdesign" c.offdesign kw),
        (Spec.lastValue "design_path" c.designPath kw, Spec.lastValue "mixing_rule" c.mixingRule kw)) := by
  obtain ⟨k, v⟩ := kw
  dsimp only
  have p1 : CKey.parse "printout" = .printout := by decide +kernel
  have p2 : CKey.parse "local_design" = .localDesign := by decide +kernel
  have p3 : CKey.parse "local_offdesign" = .localOffdesign := by decide +kernel
  have p4 : CKey.parse "design" = .design := by decide +kernel
  have p5 : CKey.parse "offdesign" = .offdesign := by decide +kernel
  have p6 : CKey.parse "design_path" = .designPath := by decide +kernel
  have p7 : CKey.parse "mixing_rule" = .mixingRule := by decide +kernel
  have p8 : CKey.parse "fluid_balance" = .fluid "fluid_balance" := by decide +kernel
  obtain ⟨a, b, d, e⟩ := param_settings c v
  obtain ⟨s1, s2, s3, s4, s5, s6, s7⟩ := parse_setting (k := k)
  have all : ∀ l : List String, l.all (propertyData.contains ·) = true ↔ ∀ n ∈ l, n ∈ propertyData := by
    intro l; rw [List.all_eq_true]; simp only [List.contains_iff_mem]
  unfold Conn.setKey
  cases hk : CKey.parse k with
  | fluid k' =>
    have : k' = k := parse_fluid hk
    subst this
    have n1 := parse_known hk p1 (by simp)
    have n2 := parse_known hk p2 (by simp)
    have n3 := parse_known hk p3 (by simp)
    have n4 := parse_known hk p4 (by simp)
    have n5 := parse_known hk p5 (by simp)
    have n6 := parse_known hk p6 (by simp)
    have n7 := parse_known hk p7 (by simp)
    rw [fluidSpec_settings]
    simp [Spec.lastBool, Spec.lastList, Spec.lastValue, n1, n2, n3, n4, n5, n6, n7]
  | printout =>
    rw [s1 hk]
    cases v <;> simp [Spec.lastBool, Spec.lastList, Spec.lastValue, Conn.settings]
  | localDesign =>
    rw [s2 hk]
    cases v <;> simp [Spec.lastBool, Spec.lastList, Spec.lastValue, Conn.settings]
  | localOffdesign =>
    rw [s3 hk]
    cases v <;> simp [Spec.lastBool, Spec.lastList, Spec.lastValue, Conn.settings]
  | design =>
    rw [s4 hk]
    cases v with
    | list l =>
      by_cases h : ∀ n ∈ l, n ∈ propertyData
      · simp only [if_pos ((all l).2 h), Conn.settings]
        simp [Spec.lastBool, Spec.lastList, Spec.lastValue, if_pos h]
      · simp only [if_neg (fun x => h ((all l).1 x)), Conn.settings]
        simp [Spec.lastBool, Spec.lastList, Spec.lastValue, if_neg h]
    | _ => simp [Spec.lastBool, Spec.lastList, Spec.lastValue, Conn.settings]
  | offdesign =>
    rw [s5 hk]
    cases v with
    | list l =>
      by_cases h : ∀ n ∈ l, n ∈ propertyData
      · simp only [if_pos ((all l).2 h), Conn.settings]
        simp [Spec.lastBool, Spec.lastList, Spec.lastValue, if_pos h]
      · simp only [if_neg (fun x => h ((all l).1 x)), Conn.settings]
        simp [Spec.lastBool, Spec.lastList, Spec.lastValue, if_neg h]
    | _ => simp [Spec.lastBool, Spec.lastList, Spec.lastValue, Conn.settings]
  | designPath =>
    rw [s6 hk]
    simp [Spec.lastBool, Spec.lastList, Spec.lastValue, Conn.settings]
  | mixingRule =>
    rw [s7 hk]
    simp [Spec.lastBool, Spec.lastList, Spec.lastValue, Conn.settings]
  | _ =>
    have n1 := parse_known hk p1 (by simp)
    have n2 := parse_known hk p2 (by simp)
    have n3 := parse_known hk p3 (by simp)
    have n4 := parse_known hk p4 (by simp)
    have n5 := parse_known hk p5 (by simp)
    have n6 := parse_known hk p6 (by simp)
    have n7 := parse_known hk p7 (by simp)
    have n8 := parse_known hk p8 (by simp)
    simp only [Spec.lastBool, Spec.lastList, Spec.lastValue, n1, n2, n3, n4, n5, n6, n7, n8, if_false]
    first
      | rfl
      | exact a _
      | exact b _
      | exact d _
      | exact e
      | (cases v <;> first | rfl | (dsimp only; split <;> rfl))

/-- C27: after any sequence of calls each setting of a connection (printout, local design and offdesign, fluid
balance, lists of design and offdesign specifications, design path, mixing rule) is the last acceptable value given
for its keyword; no other keyword touches it. -/
theorem C27_last_setting (c : Conn K R) (kws : List (String × CVal K R)) :
    (c.run kws).settings =
      ((kws.foldl (Spec.lastBool "printout") c.printout, kws.foldl (Spec.lastBool "local_design") c.localDesign,
        kws.foldl (Spec.lastBool "local_offdesign") c.localOffdesign,
        kws.foldl (Spec.lastBool "fluid_balance") c.balance),
        (kws.foldl (Spec.lastList "design") c.design, kws.foldl (Spec.lastList "offdesign") c.offdesign),
        (kws.foldl (Spec.lastValue "design_path") c.designPath,
          kws.foldl (Spec.lastValue "mixing_rule") c.mixingRule)) := by
  induction kws generalizing c with
  | nil => rfl
  | cons kw kws ih =>
    have h := setKey_settings c kw
    change (((c.setKey kw.1 kw.2).1.run kws)).settings = _
    rw [ih]
    simp only [Conn.settings, Prod.mk.injEq] at h
    obtain ⟨⟨h1, h2, h3, h4⟩, ⟨h5, h6⟩, h7, h8⟩ := h
    simp only [List.foldl_cons, h1, h2, h3, h4, h5, h6, h7, h8]

/-- C27: a new connection is printed, is in global mode, has no fluid balance, no design specifications, no design path
and no mixing rule until a keyword says so. -/
theorem C27_default_setting (kws : List (String × CVal K R))
    (h : ∀ kw ∈ kws, kw.1 ∉ ["printout", "local_design", "local_offdesign", "fluid_balance", "design", "offdesign",
      "design_path", "mixing_rule"]) :
    ((Conn.new : Conn K R).run kws).settings = ((true, false, false, false), ([], []), (.none, .none)) := by
  rw [C27_last_setting]
  have f1 : ∀ (key : String), (∀ kw ∈ kws, kw.1 ≠ key) → ∀ b, kws.foldl (Spec.lastBool key) b = b := by
    intro key hk
    clear h
    induction kws with
    | nil => intro b; rfl
    | cons kw kws ih =>
      intro b
      rw [List.foldl_cons, Spec.lastBool, if_neg (hk kw List.mem_cons_self)]
      exact ih (fun kw' h' => hk kw' (List.mem_cons_of_mem _ h')) b
  have f2 : ∀ (key : String), (∀ kw ∈ kws, kw.1 ≠ key) → ∀ b, kws.foldl (Spec.lastList key) b = b := by
    intro key hk
    clear h f1
    induction kws with
    | nil => intro b; rfl
    | cons kw kws ih =>
      intro b
      rw [List.foldl_cons, Spec.lastList, if_neg (hk kw List.mem_cons_self)]
      exact ih (fun kw' h' => hk kw' (List.mem_cons_of_mem _ h')) b
  have f3 : ∀ (key : String), (∀ kw ∈ kws, kw.1 ≠ key) → ∀ b, kws.foldl (Spec.lastValue key) b = b := by
    intro key hk
    clear h f1 f2
    induction kws with
    | nil => intro b; rfl
    | cons kw kws ih =>
      intro b
      rw [List.foldl_cons, Spec.lastValue, if_neg (hk kw List.mem_cons_self)]
      exact ih (fun kw' h' => hk kw' (List.mem_cons_of_mem _ h')) b
  have n : ∀ key ∈ ["printout", "local_design", "local_offdesign", "fluid_balance", "design", "offdesign",
      "design_path", "mixing_rule"], ∀ kw ∈ kws, kw.1 ≠ key := by
    intro key hkey kw hkw he
    exact h kw hkw (he ▸ hkey)
  rw [f1 _ (n _ (by simp)), f1 _ (n _ (by simp)), f1 _ (n _ (by simp)), f1 _ (n _ (by simp)), f2 _ (n _ (by simp)),
    f2 _ (n _ (by simp)), f3 _ (n _ (by simp)), f3 _ (n _ (by simp))]
  rfl

-- non-vacuity: the last accepted value counts, a wrong one does not
example : [("printout", .bool false), ("m", .num (some 1)), ("printout", .num none), ("local_design", .bool true)].foldl
    (Spec.lastBool (K := ℚ) (R := ℕ) "printout") true = false := rfl
example : ∀ kw ∈ ([("m", .num (some 5)), ("state", .str "l")] : List (String × CVal ℚ ℕ)),
    kw.1 ∉ ["printout", "local_design", "local_offdesign", "fluid_balance", "design", "offdesign", "design_path",
      "mixing_rule"] := by decide

/-- C45: data of a map for a parameter which takes a line, or of a line for a parameter which takes a map, are refused
when a network is loaded; data without a characteristic are refused for unknown attributes only. -/
theorem C45_characteristic_kind (fresh : Cont K) (d : List (String × PyV K)) (t : ℕ) :
    (fresh.kind = .cc → Dict.get? d "char_func" = some (.charMap t) → fresh.load d = .error .typeError) ∧
    (fresh.kind = .cm → Dict.get? d "char_func" = some (.charLine t) → fresh.load d = .error .typeError) ∧
    (Dict.get? d "char_func" = none → ∀ e, fresh.load d = .error e → (fresh.setAttr d).2 = some e) := by
  refine ⟨?_, ?_, ?_⟩
  · intro h1 h2
    simp [Cont.load, h1, h2, charMismatch]
  · intro h1 h2
    simp [Cont.load, h1, h2, charMismatch]
  · intro h e he
    have hm : charMismatch fresh.kind (none : Option (PyV K)) = false := by cases fresh.kind <;> rfl
    unfold Cont.load at he
    rw [h, hm] at he
    simp only [Bool.false_eq_true, if_false] at he
    split at he
    · cases he
    · rename_i h'
      cases he
      rw [h']

section
variable {K : Type} [Field K]

/-- C81: with numbers in place of the connections the product of the exergy balance of an engine is the difference of
physical exergies of the flue gas and the two inlets, the power released and the two differences of the loops. -/
theorem C81_exergy_numbers (exOut exIn4 exIn3 P a b c d : K) :
    engineExergyProduct exOut exIn4 exIn3 P (.num a) (.num b) (.num c) (.num d) =
      .ok (.num (exOut - exIn4 - exIn3 - P + (a - b) + (c - d))) := by
  simp only [engineExergyProduct, ExVal.add, ExVal.sub]
  congr 2
  ring

/-- C81: one connection in place of a number is enough for the `TypeError`. -/
theorem C81_exergy_type (exOut exIn4 exIn3 P : K) (a b c d : ExVal K) :
    engineExergyProduct exOut exIn4 exIn3 P a b c d = .error .typeError ↔
      a = .conn ∨ b = .conn ∨ c = .conn ∨ d = .conn := by
  cases a <;> cases b <;> cases c <;> cases d <;> simp [engineExergyProduct, ExVal.add, ExVal.sub]
end

section
variable {K : Type} [Field K] [LinearOrder K] [IsStrictOrderedRing K]

/-- a function of a shift is a polynomial of third degree for shifts up to 0.1, whatever the starting value -/
def Spec.CubicNear (f : K → Option K → PyRes K) (a0 a1 a2 a3 : K) : Prop :=
  ∀ t T0, |t| ≤ 1 / 10 → f t T0 = .ok (a0 + a1 * t + a2 * t ^ 2 + a3 * t ^ 3)

theorem diffChained_cubic (g : K → Option K → PyRes K) (x a0 a1 a2 a3 : K) (T0 : Option K)
    (h : Spec.CubicNear (fun t => g (x + t)) a0 a1 a2 a3) : diffChained g (1 / 10) x T0 = .ok (a1 + a3 / 100) := by
  have h1 := h (1 / 10) T0 (by rw [abs_of_pos (by norm_num)])
  have h2 := fun u => h (-(1 / 10)) u (by rw [abs_neg, abs_of_pos (by norm_num)])
  simp only [← sub_eq_add_neg] at h1 h2
  unfold diffChained
  simp only [h1, h2]
  congr 1
  have : (10 : K) ≠ 0 := by norm_num
  field_simp
  ring

/-- C79: the numerical derivatives of temperature and volume of a mixture with respect to enthalpy and pressure are exact
for polynomials of second degree; a third power with coefficient `a3` makes an error of `a3 / 100`. -/
theorem C79_difference_error (r : PureFns K) (water rule : Option String) (p h : K) (fd : FluidData K) (T0 : Option K)
    (a0 a1 a2 a3 : K) :
    (Spec.CubicNear (fun t => tMixPH r water rule p (h + t) fd) a0 a1 a2 a3 →
      dTdh r water rule p h fd T0 = .ok (a1 + a3 / 100)) ∧
    (Spec.CubicNear (fun t => tMixPH r water rule (p + t) h fd) a0 a1 a2 a3 →
      dTdp r water rule p h fd T0 = .ok (a1 + a3 / 100)) ∧
    (Spec.CubicNear (fun t => vMixPH r water rule p (h + t) fd) a0 a1 a2 a3 →
      dvdh r water rule p h fd T0 = .ok (a1 + a3 / 100)) ∧
    (Spec.CubicNear (fun t => vMixPH r water rule (p + t) h fd) a0 a1 a2 a3 →
      dvdp r water rule p h fd T0 = .ok (a1 + a3 / 100)) :=
  ⟨fun hc => diffChained_cubic (fun x t => tMixPH r water rule p x fd t) h a0 a1 a2 a3 T0 hc,
    fun hc => diffChained_cubic (fun x t => tMixPH r water rule x h fd t) p a0 a1 a2 a3 T0 hc,
    fun hc => diffChained_cubic (fun x t => vMixPH r water rule p x fd t) h a0 a1 a2 a3 T0 hc,
    fun hc => diffChained_cubic (fun x t => vMixPH r water rule x h fd t) p a0 a1 a2 a3 T0 hc⟩

end

-- non-vacuity of C79_difference_error: the mixture of two liquids in Props/MixInverse
example : Spec.CubicNear (fun t => tMixPH invPure none (some "incompressible") 1000 (3500 * 300 + 1 + t) (invMix false))
    300 (1 / 3500) 0 0 := by
  intro t T0 ht
  have h := abs_le.mp ht
  have e : (3500 * 300 + 1 + t : ℚ) = 3500 * (300 + t / 3500) + 1 := by ring
  beta_reduce
  rw [e, (C79_roundtrip invPure none (some "incompressible") (invMix_two false) (invMix_range false)
      (Or.inr (Or.inr rfl)) 1000 3500 1 (300 + t / 3500) (by norm_num)
      (fun T => by rw [invMix_enthalpy]; norm_num) (by linarith [h.1]) (by linarith [h.2]) T0).1]
  congr 1
  ring

-- non-vacuity of C45_characteristic_kind
example : (⟨.cm, fun _ => .none⟩ : Cont ℚ).load [("char_func", .charLine 7)] = .error .typeError :=
  (C45_characteristic_kind _ _ 7).2.1 rfl rfl

end Tespy
