/-
C99: recognition of fuels and gases of combustion chambers by their names,
chemical formulas and heating values.
-/
import Mathlib.Algebra.Order.Field.Rat
import Mathlib.Algebra.Order.Field.Basic
import Mathlib.Algebra.BigOperators.Group.List.Basic
import Mathlib.Tactic.Linarith
import Mathlib.Tactic.FieldSimp
import Mathlib.Tactic.NormNum
import Mathlib.Tactic.Ring
import Mathlib.Tactic.Positivity
import Verif.Model.ReactionSetup
import Verif.Lemmas.DictLemmas

namespace Tespy

/-! ### Specification -/

/-- The text without its blanks. -/
def Spec.noBlanks (s : String) : String := String.ofList (s.toList.filter (fun c => c ≠ ' '))

/-- `f` has, according to the table of names, the name `n` (blanks do not count). -/
def Spec.HasName (aliases : String → PyRes (List String)) (f n : String) : Prop :=
  ∃ as, aliases f = .ok as ∧ ∃ a ∈ as, Spec.noBlanks a = n

/-- `f` is a name of one of the six fuels. -/
def Spec.IsFuel (aliases : String → PyRes (List String)) (f : String) : Prop :=
  Spec.HasName aliases f "methane" ∨ Spec.HasName aliases f "ethane" ∨
  Spec.HasName aliases f "propane" ∨ Spec.HasName aliases f "butane" ∨
  Spec.HasName aliases f "hydrogen" ∨ Spec.HasName aliases f "nDodecane"

/-- The gas `g` is used under one of its names. -/
def Spec.GasUsed (aliases : String → PyRes (List String)) (used : List String) (g : String) :
    Prop :=
  ∃ n ∈ used, Spec.HasName aliases g n

/-- Oxygen, carbon dioxide, water and nitrogen are all used under some name. -/
def Spec.GasesUsed (aliases : String → PyRes (List String)) (used : List String) : Prop :=
  Spec.GasUsed aliases used "O2" ∧ Spec.GasUsed aliases used "CO2" ∧
  Spec.GasUsed aliases used "H2O" ∧ Spec.GasUsed aliases used "N2"

/-- Value of a number written in decimal digits. -/
def Spec.decimal : List Char → ℕ
  | [] => 0
  | c :: t => (c.toNat - 48) * 10 ^ t.length + Spec.decimal t

/-- A chemical formula as a list of elements and numbers. -/
structure Spec.Atoms where
  element : List Char
  digits : List Char

/-- The way the property library writes formulas: `C_{1}H_{4}`. -/
def Spec.written : List Spec.Atoms → List Char
  | [] => []
  | a :: l => a.element ++ ['_', '{'] ++ a.digits ++ ['}'] ++ Spec.written l

/-- Elements are distinct texts without the signs used as separators, numbers
consist of digits. -/
structure Spec.ProperFormula (l : List Spec.Atoms) : Prop where
  distinct : (l.map Spec.Atoms.element).Nodup
  element : ∀ a ∈ l, '_' ∉ a.element ∧ '}' ∉ a.element
  digits : ∀ a ∈ l, a.digits ≠ [] ∧ ∀ c ∈ a.digits, c.isDigit

/-- Number of atoms of an element in a formula. -/
def Spec.atoms (l : List Spec.Atoms) (el : String) : ℕ :=
  match l.find? (fun a => String.ofList a.element = el) with
  | none => 0
  | some a => Spec.decimal a.digits

/-- Molar formation enthalpies in kJ/mol of the fuels. -/
def Spec.fuelEnthalpy {K : Type} [Field K] : List (String × K) :=
  [("hydrogen", 0), ("methane", -746 / 10), ("ethane", -84), ("propane", -1038 / 10),
   ("butane", -1257 / 10), ("nDodecane", -2894 / 10)]

/-- `v` is the lower heating value in J/kg: combustion of one mole of the fuel
gives `C` moles of carbon dioxide (-393.51 kJ/mol) and `H/2` moles of gaseous water
(-241.826 kJ/mol). -/
def Spec.HeatingValue {K : Type} [Field K] (aliases : String → PyRes (List String)) (f : String)
    (M : K) (c h : ℕ) (v : K) : Prop :=
  ∃ n hf, (n, hf) ∈ Spec.fuelEnthalpy (K := K) ∧ Spec.HasName aliases f n ∧
    v = (hf - ((c : K) * (-39351 / 100) + (h : K) / 2 * (-241826 / 1000))) * 1000 / M

/-- What a user relies on for the fuel `f` with the entry `e`. -/
def Spec.FuelRight {K : Type} [Field K] (aliases : String → PyRes (List String))
    (formula : String → PyRes String) (molarMass : Dict String K) (f : String)
    (e : FuelEntry K) : Prop :=
  (∀ l, Spec.ProperFormula l → formula f = .ok (String.ofList (Spec.written l)) →
    e.carbon = Spec.atoms l "C" ∧ e.hydrogen = Spec.atoms l "H" ∧
    e.oxygen = Spec.atoms l "O") ∧
  ∃ M, (f, M) ∈ molarMass ∧ Spec.HeatingValue aliases f M e.carbon e.hydrogen e.lhv

/-! ### Names -/

theorem stripBlanks_eq (s : String) : stripBlanks s = Spec.noBlanks s := rfl

theorem aliasInList_true {A : String → PyRes (List String)} {f : String} {l : List String} :
    aliasInList A f l = .ok true ↔ ∃ n ∈ l, Spec.HasName A f n := by
  unfold aliasInList Spec.HasName
  cases h : A f with
  | error e => simp
  | ok as =>
    simp only [Except.ok.injEq, List.any_eq_true, decide_eq_true_eq, stripBlanks_eq]
    constructor
    · rintro ⟨a, ha, hn⟩
      exact ⟨_, of_decide_eq_true hn, as, rfl, a, ha, rfl⟩
    · rintro ⟨n, hn, as', h', a, ha, he⟩
      subst h'
      exact ⟨a, ha, decide_eq_true (he ▸ hn)⟩

theorem aliasInList_total {A : String → PyRes (List String)} {f : String} {as : List String}
    (h : A f = .ok as) (l : List String) : ∃ b, aliasInList A f l = .ok b := by
  unfold aliasInList; rw [h]; exact ⟨_, rfl⟩

theorem isFuel_iff {A : String → PyRes (List String)} {f : String} :
    aliasInList A f combustionGases = .ok true ↔ Spec.IsFuel A f := by
  rw [aliasInList_true]
  unfold combustionGases Spec.IsFuel
  simp

theorem collectFuels_mem {A : String → PyRes (List String)} : ∀ {l r : List String},
    collectFuels A l = .ok r → ∀ f, f ∈ r ↔ f ∈ l ∧ Spec.IsFuel A f
  | [], r, h, f => by simp [collectFuels] at h; subst h; simp
  | g :: gs, r, h, f => by
    unfold collectFuels at h
    cases hb : aliasInList A g combustionGases with
    | error e => rw [hb] at h; cases h
    | ok b =>
      rw [hb] at h; dsimp only at h
      cases hr : collectFuels A gs with
      | error e => rw [hr] at h; cases h
      | ok r' =>
        rw [hr] at h
        simp only [Except.ok.injEq] at h
        have ih := collectFuels_mem hr f
        cases b with
        | true =>
          have hf : Spec.IsFuel A g := isFuel_iff.mp hb
          simp only [if_true] at h
          subst h
          simp only [List.mem_cons, ih]
          constructor
          · rintro (rfl | ⟨h1, h2⟩)
            · exact ⟨Or.inl rfl, hf⟩
            · exact ⟨Or.inr h1, h2⟩
          · rintro ⟨rfl | h1, h2⟩
            · exact Or.inl rfl
            · exact Or.inr ⟨h1, h2⟩
        | false =>
          have hf : ¬ Spec.IsFuel A g := fun hc => by
            rw [isFuel_iff.mpr hc] at hb; cases hb
          simp only [Bool.false_eq_true, if_false] at h
          subst h
          simp only [List.mem_cons, ih]
          constructor
          · rintro ⟨h1, h2⟩
            exact ⟨Or.inr h1, h2⟩
          · rintro ⟨rfl | h1, h2⟩
            · exact absurd h2 hf
            · exact ⟨h1, h2⟩

theorem collectFuels_total {A : String → PyRes (List String)} : ∀ {l : List String},
    (∀ f ∈ l, ∃ as, A f = .ok as) → ∃ r, collectFuels A l = .ok r
  | [], _ => ⟨[], rfl⟩
  | g :: gs, h => by
    obtain ⟨as, ha⟩ := h g (by simp)
    obtain ⟨b, hb⟩ := aliasInList_total ha combustionGases
    obtain ⟨r, hr⟩ := collectFuels_total (fun f hf => h f (List.mem_cons_of_mem _ hf))
    unfold collectFuels
    rw [hb, hr]
    exact ⟨_, rfl⟩

theorem mem_toSet : ∀ {l : List String} {f : String}, f ∈ toSet l ↔ f ∈ l
  | [], f => by simp [toSet]
  | g :: gs, f => by
    unfold toSet
    split_ifs with h
    · rw [mem_toSet, List.mem_cons]
      exact ⟨Or.inr, fun h' => h'.elim (fun e => e ▸ h) id⟩
    · rw [List.mem_cons, mem_toSet, List.mem_cons]

theorem nodup_toSet : ∀ l : List String, (toSet l).Nodup
  | [] => List.nodup_nil
  | g :: gs => by
    unfold toSet
    split_ifs with h
    · exact nodup_toSet gs
    · exact List.nodup_cons.mpr ⟨fun h' => h (mem_toSet.mp h'), nodup_toSet gs⟩

theorem checkGases_ok {A : String → PyRes (List String)} {all : List String} :
    ∀ {gs : List String}, checkGases A all gs = .ok () ↔ ∀ g ∈ gs, Spec.GasUsed A all g
  | [] => by simp [checkGases]
  | g :: gs => by
    unfold checkGases
    have ht := aliasInList_true (A := A) (f := g) (l := all)
    cases hb : aliasInList A g all with
    | error e =>
      rw [hb] at ht
      simp only [List.mem_cons, forall_eq_or_imp]
      constructor
      · intro h; cases h
      · intro h
        have := ht.mpr h.1
        cases this
    | ok b =>
      rw [hb] at ht
      cases b with
      | false =>
        simp only [List.mem_cons, forall_eq_or_imp]
        constructor
        · intro h; cases h
        · intro h
          have := ht.mpr h.1
          cases this
      | true =>
        simp only [List.mem_cons, forall_eq_or_imp]
        rw [checkGases_ok]
        exact ⟨fun h => ⟨ht.mp rfl, h⟩, fun h => h.2⟩

theorem checkGases_missing {A : String → PyRes (List String)} {all : List String} :
    ∀ {gs : List String}, (∀ g ∈ gs, ∃ as, A g = .ok as) →
      (∃ g ∈ gs, ¬ Spec.GasUsed A all g) → checkGases A all gs = .error .componentError
  | [], _, h => by simp at h
  | g :: gs, hk, hm => by
    obtain ⟨as, ha⟩ := hk g (by simp)
    obtain ⟨b, hb⟩ := aliasInList_total ha all
    have ht := aliasInList_true (A := A) (f := g) (l := all)
    rw [hb] at ht
    unfold checkGases
    rw [hb]
    cases b with
    | false => rfl
    | true =>
      refine checkGases_missing (fun g' hg' => hk g' (List.mem_cons_of_mem _ hg')) ?_
      obtain ⟨g', hg', hn⟩ := hm
      rcases List.mem_cons.mp hg' with rfl | hg'
      · exact absurd (ht.mp rfl) hn
      · exact ⟨g', hg', hn⟩

/-! ### Formulas -/

theorem splitBrace_ne (l : List Char) : splitBrace l ≠ [] := by
  cases l with
  | nil => simp [splitBrace]
  | cons c t =>
    unfold splitBrace
    split_ifs
    · simp
    · split <;> simp

theorem splitBrace_append : ∀ (x t : List Char), '}' ∉ x →
    splitBrace (x ++ '}' :: t) = x :: splitBrace t
  | [], t, _ => by simp [splitBrace]
  | c :: x, t, h => by
    have hc : c ≠ '}' := fun e => h (e ▸ List.mem_cons_self)
    have hx : '}' ∉ x := fun e => h (List.mem_cons_of_mem _ e)
    rw [List.cons_append, splitBrace, if_neg hc, splitBrace_append x t hx]

theorem splitSub_plain : ∀ (y : List Char), '_' ∉ y → splitSub y = [y]
  | [], _ => by simp [splitSub]
  | [c], _ => by simp [splitSub]
  | c :: d :: t, h => by
    have hc : c ≠ '_' := fun e => h (e ▸ List.mem_cons_self)
    have ht : '_' ∉ d :: t := fun e => h (List.mem_cons_of_mem _ e)
    unfold splitSub
    rw [if_neg (fun e => hc e.1), splitSub_plain (d :: t) ht]

theorem splitSub_append : ∀ (x y : List Char), '_' ∉ x → '_' ∉ y →
    splitSub (x ++ '_' :: '{' :: y) = [x, y]
  | [], y, _, hy => by
    rw [List.nil_append]
    unfold splitSub
    rw [if_pos ⟨rfl, rfl⟩, splitSub_plain y hy]
  | [c], y, h, hy => by
    have hc : c ≠ '_' := fun e => h (e ▸ List.mem_cons_self)
    have := splitSub_append [] y (by simp) hy
    rw [List.nil_append] at this
    change splitSub (c :: '_' :: '{' :: y) = _
    rw [splitSub, if_neg (fun e => hc e.1), this]
  | c :: d :: x, y, h, hy => by
    have hc : c ≠ '_' := fun e => h (e ▸ List.mem_cons_self)
    have hx : '_' ∉ d :: x := fun e => h (List.mem_cons_of_mem _ e)
    have := splitSub_append (d :: x) y hx hy
    rw [List.cons_append] at this
    change splitSub (c :: d :: (x ++ '_' :: '{' :: y)) = _
    rw [splitSub, if_neg (fun e => hc e.1), this]

theorem intOf_foldl : ∀ (l : List Char) (a : ℕ),
    l.foldl (fun a c => 10 * a + (c.toNat - '0'.toNat)) a
      = a * 10 ^ l.length + Spec.decimal l
  | [], a => by simp [Spec.decimal]
  | c :: t, a => by
    rw [List.foldl_cons, intOf_foldl t, Spec.decimal]
    have : '0'.toNat = 48 := rfl
    rw [this, List.length_cons, pow_succ]
    ring

theorem intOf_digits {l : List Char} (hn : l ≠ []) (hd : ∀ c ∈ l, c.isDigit) :
    intOf l = .ok (Spec.decimal l) := by
  unfold intOf
  rw [if_neg hn, if_pos (List.all_eq_true.mpr hd), intOf_foldl]
  simp

theorem digit_ne {c : Char} (h : c.isDigit) : c ≠ '_' ∧ c ≠ '}' := by
  constructor <;> (rintro rfl; revert h; decide)

theorem structureLoop_written : ∀ (l : List Spec.Atoms) (d : Dict String ℕ),
    (∀ a ∈ l, '_' ∉ a.element ∧ '}' ∉ a.element) →
    (∀ a ∈ l, a.digits ≠ [] ∧ ∀ c ∈ a.digits, c.isDigit) →
    (l.map Spec.Atoms.element).Nodup →
    (∀ a ∈ l, String.ofList a.element ∉ d.keys) →
    structureLoop (splitBrace (Spec.written l)) d
      = .ok (d ++ l.map (fun a => (String.ofList a.element, Spec.decimal a.digits)))
  | [], d, _, _, _, _ => by simp [Spec.written, splitBrace, structureLoop]
  | a :: l, d, he, hd, hn, hk => by
    obtain ⟨h1, h2⟩ := he a (by simp)
    obtain ⟨h3, h4⟩ := hd a (by simp)
    have hu : '_' ∉ a.digits := fun e => (digit_ne (h4 _ e)).1 rfl
    have hb : '}' ∉ a.digits := fun e => (digit_ne (h4 _ e)).2 rfl
    have hw : Spec.written (a :: l)
        = (a.element ++ '_' :: '{' :: a.digits) ++ '}' :: Spec.written l := by
      simp [Spec.written]
    have hnb : '}' ∉ a.element ++ '_' :: '{' :: a.digits := by
      simp only [List.mem_append, List.mem_cons, not_or]
      exact ⟨h2, by decide, by decide, hb⟩
    rw [hw, splitBrace_append _ _ hnb]
    unfold structureLoop
    rw [if_neg (by simp), splitSub_append _ _ h1 hu]
    dsimp only
    rw [intOf_digits h3 h4]
    dsimp only
    rw [List.map_cons, List.nodup_cons] at hn
    rw [Dict.set_of_not_mem _ (hk a (by simp))]
    rw [structureLoop_written l _ (fun b hb => he b (List.mem_cons_of_mem _ hb))
      (fun b hb => hd b (List.mem_cons_of_mem _ hb)) hn.2]
    · simp
    · intro b hb' hc
      simp only [Dict.keys, List.map_append, List.mem_append, List.map_cons, List.map_nil,
        List.mem_singleton] at hc
      rcases hc with hc | hc
      · exact hk b (List.mem_cons_of_mem _ hb') hc
      · have : b.element = a.element := by
          have := congrArg String.toList hc
          simpa using this
        exact hn.1 (this ▸ List.mem_map_of_mem hb')

/-- **C99 (formulas).**  The formula of a substance is read as it is written: for
every list of distinct elements with numbers of any size, exactly these elements
with exactly these numbers. -/
theorem C99_formula (l : List Spec.Atoms) (h : Spec.ProperFormula l) :
    fluidStructure (String.ofList (Spec.written l))
      = .ok (l.map (fun a => (String.ofList a.element, Spec.decimal a.digits))) := by
  unfold fluidStructure
  rw [String.toList_ofList, structureLoop_written l [] h.element h.digits h.distinct (by simp [Dict.keys])]
  simp

theorem get?_atoms (l : List Spec.Atoms) (el : String) :
    (Dict.get? (l.map (fun a => (String.ofList a.element, Spec.decimal a.digits))) el).getD 0
      = Spec.atoms l el := by
  unfold Spec.atoms
  induction l with
  | nil => rfl
  | cons a l ih =>
    rw [List.map_cons, List.find?_cons]
    unfold Dict.get?
    by_cases h : el = String.ofList a.element
    · subst h; simp
    · rw [if_neg h, ih]
      have : decide (String.ofList a.element = el) = false := by
        simp; exact fun e => h e.symm
      rw [this]

/-! ### Heating values -/

variable {K : Type} [Field K]

theorem fuelHead {A : String → PyRes (List String)} {f : String} {as : List String}
    (ha : A f = .ok as) (hf : Spec.IsFuel A f) :
    ∃ n v r, (formationEnthalpy (K := K)).filter (fun e => decide (e.1 ∈ as.map stripBlanks))
        = (n, v) :: r ∧ (n, v) ∈ Spec.fuelEnthalpy (K := K) ∧ Spec.HasName A f n := by
  have hn : ∀ n, n ∈ as.map stripBlanks ↔ Spec.HasName A f n := by
    intro n
    unfold Spec.HasName
    rw [ha]
    constructor
    · intro h
      obtain ⟨a, h1, h2⟩ := List.mem_map.mp h
      exact ⟨as, rfl, a, h1, h2⟩
    · rintro ⟨as', h', a, h1, h2⟩
      cases h'
      exact List.mem_map.mpr ⟨a, h1, h2⟩
  have hsplit : (formationEnthalpy (K := K)) = Spec.fuelEnthalpy ++
      [("O2", 0), ("CO2", -39351 / 100), ("H2O", -241826 / 1000)] := rfl
  have hex : ∃ e ∈ Spec.fuelEnthalpy (K := K), Spec.HasName A f e.1 := by
    unfold Spec.fuelEnthalpy
    rcases hf with h | h | h | h | h | h
    · exact ⟨("methane", -746 / 10), by simp, h⟩
    · exact ⟨("ethane", -84), by simp, h⟩
    · exact ⟨("propane", -1038 / 10), by simp, h⟩
    · exact ⟨("butane", -1257 / 10), by simp, h⟩
    · exact ⟨("hydrogen", 0), by simp, h⟩
    · exact ⟨("nDodecane", -2894 / 10), by simp, h⟩
  rw [hsplit, List.filter_append]
  cases hl : (Spec.fuelEnthalpy (K := K)).filter
      (fun e => decide (e.1 ∈ as.map stripBlanks)) with
  | nil =>
    obtain ⟨e, he, hen⟩ := hex
    have : e ∈ (Spec.fuelEnthalpy (K := K)).filter
        (fun e => decide (e.1 ∈ as.map stripBlanks)) :=
      List.mem_filter.mpr ⟨he, decide_eq_true ((hn e.1).mpr hen)⟩
    rw [hl] at this
    cases this
  | cons e r =>
    have : e ∈ (Spec.fuelEnthalpy (K := K)).filter
        (fun e => decide (e.1 ∈ as.map stripBlanks)) := by rw [hl]; simp
    obtain ⟨h1, h2⟩ := List.mem_filter.mp this
    exact ⟨e.1, e.2, _, rfl, h1, (hn e.1).mp (of_decide_eq_true h2)⟩

theorem calcLhv_fuel {A : String → PyRes (List String)} {mm : Dict String K} {f : String}
    {c h : ℕ} {v : K} (hf : Spec.IsFuel A f) (hv : calcLhv A mm f c h = .ok v) :
    ∃ M, (f, M) ∈ mm ∧ Spec.HeatingValue A f M c h v := by
  unfold calcLhv at hv
  cases ha : A f with
  | error e => rw [ha] at hv; cases hv
  | ok as =>
    obtain ⟨n, hfv, r, h1, h2, h3⟩ := fuelHead (K := K) ha hf
    rw [ha] at hv; dsimp only at hv
    rw [h1] at hv; dsimp only at hv
    cases hM : mm.get? f with
    | none => simp [Dict.getItem, hM] at hv
    | some M =>
      simp only [Dict.getItem, hM, Except.ok.injEq] at hv
      refine ⟨M, Dict.mem_of_get? hM, n, hfv, h2, h3, ?_⟩
      rw [← hv]
      ring

theorem calcLhv_total {A : String → PyRes (List String)} {mm : Dict String K} {f : String}
    (hf : Spec.IsFuel A f) (hM : f ∈ mm.keys) (c h : ℕ) : ∃ v, calcLhv A mm f c h = .ok v := by
  have hA : ∃ as, A f = .ok as := by
    rcases hf with ⟨as, h, _⟩ | ⟨as, h, _⟩ | ⟨as, h, _⟩ | ⟨as, h, _⟩ | ⟨as, h, _⟩ | ⟨as, h, _⟩ <;>
      exact ⟨as, h⟩
  obtain ⟨as, ha⟩ := hA
  obtain ⟨n, hfv, r, h1, _, _⟩ := fuelHead (K := K) ha hf
  obtain ⟨M, hM'⟩ := Option.isSome_iff_exists.mp ((Dict.get?_isSome_iff mm f).mpr hM)
  unfold calcLhv
  rw [ha]; dsimp only
  rw [h1]; dsimp only
  simp only [Dict.getItem, hM']
  exact ⟨_, rfl⟩

theorem fillFuels_keys {A : String → PyRes (List String)} {fo : String → PyRes String}
    {mm : Dict String K} : ∀ {l : List String} {R : Dict String (FuelEntry K)},
    fillFuels A fo mm l = .ok R → R.keys = l ∧ ∀ f e, (f, e) ∈ R →
      ∃ txt st, fo f = .ok txt ∧ fluidStructure txt = .ok st ∧
        e.carbon = (st.get? "C").getD 0 ∧ e.hydrogen = (st.get? "H").getD 0 ∧
        e.oxygen = (st.get? "O").getD 0 ∧ calcLhv A mm f e.carbon e.hydrogen = .ok e.lhv
  | [], R, h => by
    simp only [fillFuels, Except.ok.injEq] at h
    subst h
    exact ⟨rfl, fun f e he => by simp at he⟩
  | g :: gs, R, h => by
    unfold fillFuels at h
    cases h1 : fo g with
    | error e => rw [h1] at h; cases h
    | ok txt =>
      rw [h1] at h; dsimp only at h
      cases h2 : fluidStructure txt with
      | error e => rw [h2] at h; cases h
      | ok st =>
        rw [h2] at h; dsimp only at h
        cases h3 : calcLhv A mm g ((st.get? "C").getD 0) ((st.get? "H").getD 0) with
        | error e => rw [h3] at h; cases h
        | ok v =>
          rw [h3] at h; dsimp only at h
          cases h4 : fillFuels A fo mm gs with
          | error e => rw [h4] at h; cases h
          | ok r =>
            rw [h4] at h
            simp only [Except.ok.injEq] at h
            subst h
            obtain ⟨ih1, ih2⟩ := fillFuels_keys h4
            refine ⟨?_, ?_⟩
            · rw [← ih1]; rfl
            · intro f e he
              rcases List.mem_cons.mp he with he | he
              · simp only [Prod.mk.injEq] at he
                obtain ⟨rfl, rfl⟩ := he
                exact ⟨txt, st, h1, h2, rfl, rfl, rfl, h3⟩
              · exact ih2 f e he

theorem fillFuels_total {A : String → PyRes (List String)} {fo : String → PyRes String}
    {mm : Dict String K} : ∀ {l : List String},
    (∀ f ∈ l, Spec.IsFuel A f ∧ f ∈ mm.keys ∧
      ∃ a, Spec.ProperFormula a ∧ fo f = .ok (String.ofList (Spec.written a))) →
    ∃ R, fillFuels A fo mm l = .ok R
  | [], _ => ⟨[], rfl⟩
  | g :: gs, h => by
    obtain ⟨h1, h2, a, h3, h4⟩ := h g (by simp)
    obtain ⟨r, hr⟩ := fillFuels_total (fun f hf => h f (List.mem_cons_of_mem _ hf))
    unfold fillFuels
    rw [h4]; dsimp only
    rw [C99_formula a h3]; dsimp only
    obtain ⟨v, hv⟩ := calcLhv_total h1 h2
      ((Dict.get? (a.map (fun a => (String.ofList a.element, Spec.decimal a.digits))) "C").getD 0)
      ((Dict.get? (a.map (fun a => (String.ofList a.element, Spec.decimal a.digits))) "H").getD 0)
    rw [hv]; dsimp only
    rw [hr]
    exact ⟨_, rfl⟩

/-! ### The property -/

/-- **C99 (fuels).**  If a combustion chamber accepts its fluids, its fuels are
exactly the fluids at its connections one of whose names is a name of the six
fuels, each once; the numbers of atoms are those of the chemical formula and the
heating value is the one of the formation enthalpies. -/
theorem C99_fuels {A : String → PyRes (List String)} {fo : String → PyRes String}
    {mm : Dict String K} {used : List String} {R : Dict String (FuelEntry K)}
    (h : setupReaction A fo mm used = .ok R) :
    (∀ f, f ∈ R.keys ↔ f ∈ used ∧ Spec.IsFuel A f) ∧ R.keys.Nodup ∧ R ≠ [] ∧
      Spec.GasesUsed A used ∧ ∀ f e, (f, e) ∈ R → Spec.FuelRight A fo mm f e := by
  unfold setupReaction at h
  cases h1 : collectFuels A used with
  | error e => rw [h1] at h; cases h
  | ok fl =>
    rw [h1] at h; dsimp only at h
    split_ifs at h with h2
    cases h3 : checkGases A used ["O2", "CO2", "H2O", "N2"] with
    | error e => rw [h3] at h; cases h
    | ok u =>
      rw [h3] at h; dsimp only at h
      obtain ⟨hk, he⟩ := fillFuels_keys h
      have hmem : ∀ f, f ∈ R.keys ↔ f ∈ used ∧ Spec.IsFuel A f := fun f => by
        rw [hk, mem_toSet, collectFuels_mem h1]
      refine ⟨hmem, hk ▸ nodup_toSet fl, ?_, ?_, ?_⟩
      · rintro rfl
        exact h2 hk.symm
      · have := checkGases_ok.mp h3
        exact ⟨this _ (by simp), this _ (by simp), this _ (by simp), this _ (by simp)⟩
      · intro f e hfe
        obtain ⟨txt, st, e1, e2, e3, e4, e5, e6⟩ := he f e hfe
        have hfuel : Spec.IsFuel A f :=
          ((hmem f).mp (List.mem_map_of_mem (f := Prod.fst) hfe)).2
        refine ⟨?_, calcLhv_fuel hfuel e6⟩
        intro l hl hfo
        rw [e1] at hfo
        simp only [Except.ok.injEq] at hfo
        subst hfo
        rw [C99_formula l hl] at e2
        simp only [Except.ok.injEq] at e2
        subst e2
        rw [e3, e4, e5]
        exact ⟨get?_atoms l "C", get?_atoms l "H", get?_atoms l "O"⟩

/-- **C99 (accepted and rejected).**  If all names are known to the property
library, the chamber is rejected with the error of components whenever there is no
fuel or one of oxygen, carbon dioxide, water and nitrogen is missing under all of
its names; otherwise it is accepted, provided the first combustion inlet knows the
fuels. -/
theorem C99_accepted_partial {A : String → PyRes (List String)} {fo : String → PyRes String}
    {mm : Dict String K} {used : List String}
    (hused : ∀ f ∈ used, ∃ as, A f = .ok as)
    (hgas : ∀ g ∈ ["O2", "CO2", "H2O", "N2"], ∃ as, A g = .ok as)
    (hfo : ∀ f ∈ used, Spec.IsFuel A f → f ∈ mm.keys ∧
      ∃ a, Spec.ProperFormula a ∧ fo f = .ok (String.ofList (Spec.written a))) :
    (((∃ f ∈ used, Spec.IsFuel A f) ∧ Spec.GasesUsed A used) →
      ∃ R, setupReaction A fo mm used = .ok R) ∧
    (¬ ((∃ f ∈ used, Spec.IsFuel A f) ∧ Spec.GasesUsed A used) →
      setupReaction A fo mm used = .error .componentError) := by
  obtain ⟨fl, h1⟩ := collectFuels_total hused
  have hm := collectFuels_mem h1
  unfold setupReaction
  rw [h1]; dsimp only
  constructor
  · rintro ⟨⟨f, hf, hi⟩, g1, g2, g3, g4⟩
    have hne : toSet fl ≠ [] := by
      have : f ∈ toSet fl := mem_toSet.mpr ((hm f).mpr ⟨hf, hi⟩)
      rintro h0
      rw [h0] at this
      simp at this
    have hc : checkGases A used ["O2", "CO2", "H2O", "N2"] = .ok () := by
      rw [checkGases_ok]
      intro g hg
      simp only [List.mem_cons, List.not_mem_nil, or_false] at hg
      rcases hg with rfl | rfl | rfl | rfl <;> assumption
    rw [if_neg hne, hc]
    dsimp only
    apply fillFuels_total
    intro f' hf'
    obtain ⟨u1, u2⟩ := (hm f').mp (mem_toSet.mp hf')
    exact ⟨u2, hfo f' u1 u2⟩
  · intro hn
    by_cases h0 : toSet fl = []
    · rw [if_pos h0]
    · rw [if_neg h0]
      obtain ⟨f, hf⟩ := List.exists_mem_of_ne_nil _ h0
      have hfu := (hm f).mp (mem_toSet.mp hf)
      have hg : ¬ Spec.GasesUsed A used := fun hg => hn ⟨⟨f, hfu⟩, hg⟩
      rw [checkGases_missing hgas]
      by_contra hc
      apply hg
      have hall : ∀ g ∈ ["O2", "CO2", "H2O", "N2"], Spec.GasUsed A used g := by
        intro g hg'
        by_contra hng
        exact hc ⟨g, hg', hng⟩
      exact ⟨hall _ (by simp), hall _ (by simp), hall _ (by simp), hall _ (by simp)⟩

/-- **C99 (heating value).**  The heating value of every accepted fuel which
contains carbon is positive. -/
theorem C99_heating_value_positive {K : Type} [Field K] [LinearOrder K] [IsStrictOrderedRing K]
    {A : String → PyRes (List String)} {fo : String → PyRes String}
    {mm : Dict String K} {used : List String} {R : Dict String (FuelEntry K)}
    (h : setupReaction A fo mm used = .ok R) (hM : ∀ f M, (f, M) ∈ mm → 0 < M)
    {f : String} {e : FuelEntry K} (he : (f, e) ∈ R) (hc : 1 ≤ e.carbon) : 0 < e.lhv := by
  obtain ⟨_, M, hfM, n, hf, hmem, _, hv⟩ := (C99_fuels h).2.2.2.2 f e he
  rw [hv]
  have hlow : (-290 : K) ≤ hf := by
    unfold Spec.fuelEnthalpy at hmem
    simp only [List.mem_cons, Prod.mk.injEq, List.not_mem_nil, or_false] at hmem
    rcases hmem with h | h | h | h | h | h <;> rw [h.2] <;> norm_num
  have hc' : (1 : K) ≤ (e.carbon : K) := by exact_mod_cast hc
  have hh' : (0 : K) ≤ (e.hydrogen : K) := Nat.cast_nonneg _
  apply div_pos _ (hM f M hfM)
  apply mul_pos _ (by norm_num)
  nlinarith

/-! ### Evaluation under the names used -/

theorem molarInflow_missing {mm : Dict String K} {name : String} :
    ∀ {feeds : List (FeedStream K)}, feeds ≠ [] → (∀ s ∈ feeds, name ∉ s.val.keys) →
      molarInflow mm name feeds = .error .keyError
  | [], h, _ => absurd rfl h
  | s :: ss, _, h => by
    have := (Dict.get?_eq_none_iff s.val name).mpr (h s (by simp))
    unfold molarInflow
    simp only [Dict.getItem, this]

theorem molarInflow_present {mm : Dict String K} {name : String} {M : K}
    (hM : mm.get? name = some M) (x : FeedStream K → K) :
    ∀ {feeds : List (FeedStream K)}, (∀ s ∈ feeds, s.val.get? name = some (x s)) →
      molarInflow mm name feeds = .ok ((feeds.map (fun s => s.m * x s / M)).sum)
  | [], _ => rfl
  | s :: ss, h => by
    unfold molarInflow
    simp only [Dict.getItem, h s (by simp), hM]
    rw [molarInflow_present hM x (fun s' hs' => h s' (List.mem_cons_of_mem _ hs'))]
    simp

/-- **C99 (equations).**  If every inlet carries the fuels under the names found
and oxygen under the name `O2`, the amounts of substance in the equations are the
sums over the inlets of mass flow times mass fraction divided by the molar mass. -/
theorem C99_amounts_partial {mm : Dict String K} {feeds : List (FeedStream K)}
    (M : String → K) (x : FeedStream K → String → K) :
    ∀ {fuels : List String},
    (∀ f ∈ fuels, mm.get? f = some (M f)) → mm.get? "O2" = some (M "O2") →
    (∀ f ∈ fuels, ∀ s ∈ feeds, s.val.get? f = some (x s f)) →
    (∀ s ∈ feeds, s.val.get? "O2" = some (x s "O2")) →
    molarInflows mm feeds fuels
      = .ok (fuels.map (fun f => (f, (feeds.map (fun s => s.m * x s f / M f)).sum)),
          (feeds.map (fun s => s.m * x s "O2" / M "O2")).sum)
  | [], _, ho, _, hv => by
    unfold molarInflows
    rw [molarInflow_present ho (fun s => x s "O2") hv]
    rfl
  | f :: fs, hm, ho, hf, hv => by
    unfold molarInflows
    rw [molarInflow_present (hm f (by simp)) (fun s => x s f) (hf f (by simp)),
      C99_amounts_partial M x (fun g hg => hm g (List.mem_cons_of_mem _ hg)) ho
        (fun g hg => hf g (List.mem_cons_of_mem _ hg)) hv]
    rfl

theorem molarInflows_no_oxygen {mm : Dict String K} {feeds : List (FeedStream K)}
    (hne : feeds ≠ []) (hn : ∀ s ∈ feeds, "O2" ∉ s.val.keys) :
    ∀ {fuels : List String}, (∀ f ∈ fuels, f ∈ mm.keys) →
      (∀ f ∈ fuels, ∀ s ∈ feeds, f ∈ s.val.keys) →
      molarInflows mm feeds fuels = .error .keyError
  | [], _, _ => by unfold molarInflows; rw [molarInflow_missing hne hn]
  | f :: fs, hm, hf => by
    unfold molarInflows
    obtain ⟨M, hM⟩ := Option.isSome_iff_exists.mp ((Dict.get?_isSome_iff mm f).mpr (hm f (by simp)))
    have hx : ∀ s ∈ feeds, s.val.get? f = some ((s.val.get? f).getD 0) := by
      intro s hs
      obtain ⟨v, hv⟩ := Option.isSome_iff_exists.mp
        ((Dict.get?_isSome_iff s.val f).mpr (hf f (by simp) s hs))
      rw [hv]; rfl
    rw [molarInflow_present hM (fun s => (s.val.get? f).getD 0) hx,
      molarInflows_no_oxygen hne hn (fun g hg => hm g (List.mem_cons_of_mem _ hg))
        (fun g hg => hf g (List.mem_cons_of_mem _ hg))]

/-- **C99 (other names, refuted).**  A chamber whose oxygen has another name than
`O2` at all inlets is never calculated: whatever the fluids, as soon as its
equations are evaluated, `KeyError` is raised — although the names have been
accepted (see the example below). -/
theorem C99_other_name_raises {mm : Dict String K} {feeds : List (FeedStream K)}
    {fuels : List String} (hne : feeds ≠ []) (hn : ∀ s ∈ feeds, "O2" ∉ s.val.keys)
    (hm : ∀ f ∈ fuels, f ∈ mm.keys) (hf : ∀ f ∈ fuels, ∀ s ∈ feeds, f ∈ s.val.keys) :
    molarInflows mm feeds fuels = .error .keyError :=
  molarInflows_no_oxygen hne hn hm hf

/-- Excerpt of the names of the property library used in the examples. -/
def exAliases : String → PyRes (List String)
  | "methane" => .ok ["CH4", "methane", "METHANE"]
  | "CH4" => .ok ["CH4", "methane", "METHANE"]
  | "propane" => .ok ["propane", "R290", "n-Propane"]
  | "O2" => .ok ["oxygen", "OXYGEN", "O2"]
  | "oxygen" => .ok ["oxygen", "OXYGEN", "O2"]
  | "CO2" => .ok ["CO2", "carbondioxide"]
  | "H2O" => .ok ["water", "Water", "H2O"]
  | "water" => .ok ["water", "Water", "H2O"]
  | "N2" => .ok ["nitrogen", "N2"]
  | _ => .error .valueError

/-- Formulas of the examples. -/
def exFormula : String → PyRes String
  | "methane" => .ok "C_{1}H_{4}"
  | "CH4" => .ok "C_{1}H_{4}"
  | "propane" => .ok "C_{3}H_{8}"
  | _ => .error .valueError

/-- Molar masses known to the inlets of the examples. -/
def exMolar : Dict String ℚ :=
  [("CH4", 16 / 1000), ("oxygen", 32 / 1000), ("CO2", 44 / 1000), ("H2O", 18 / 1000),
   ("N2", 28 / 1000)]

/-- The fluids of a chamber whose oxygen is called `oxygen`. -/
def exUsed : List String := ["CH4", "oxygen", "N2", "H2O", "CO2"]

/-- Air and methane with these names. -/
def exFeeds : List (FeedStream ℚ) :=
  [⟨20, [("CH4", 0), ("oxygen", 23 / 100), ("N2", 77 / 100), ("H2O", 0), ("CO2", 0)]⟩,
   ⟨1, [("CH4", 1), ("oxygen", 0), ("N2", 0), ("H2O", 0), ("CO2", 0)]⟩]

theorem exSetup : setupReaction exAliases exFormula exMolar exUsed
    = .ok [("CH4", ⟨1, 4, 0, 50160125⟩)] := by decide +kernel

/-- **C99 (other names, refuted).**  The chamber with the fluids `CH4`, `oxygen`,
`N2`, `H2O` and `CO2` is accepted, since `oxygen` is a name of oxygen, and its
equations raise `KeyError`. -/
theorem C99_other_name_false :
    ¬ ∀ (A : String → PyRes (List String)) (fo : String → PyRes String) (mm : Dict String ℚ)
        (used : List String) (feeds : List (FeedStream ℚ)) (R : Dict String (FuelEntry ℚ)),
      setupReaction A fo mm used = .ok R → (∀ s ∈ feeds, s.val.keys = used) →
      ∃ r, molarInflows mm feeds R.keys = .ok r := by
  intro h
  obtain ⟨r, hr⟩ := h exAliases exFormula exMolar exUsed exFeeds _ exSetup
    (by unfold exFeeds exUsed; simp [Dict.keys])
  rw [C99_other_name_raises (by simp [exFeeds]) (by unfold exFeeds; simp [Dict.keys])
    (by simp [Dict.keys, exMolar]) (by unfold exFeeds; simp [Dict.keys])] at hr
  cases hr

/-- **C99 (cooling of engines, refuted).**  Fluids of the cooling of an engine are
looked at as well: propane as coolant is taken for a fuel and raises `KeyError`
since the combustion does not know it, and a coolant the property library does not
list raises its `ValueError`. -/
theorem C99_coolant_false :
    setupReaction exAliases exFormula (exMolar.map (fun e => if e.1 = "oxygen" then ("O2", e.2) else e))
        ["CH4", "O2", "N2", "H2O", "CO2"] = .ok [("CH4", ⟨1, 4, 0, 50160125⟩)] ∧
    setupReaction exAliases exFormula (exMolar.map (fun e => if e.1 = "oxygen" then ("O2", e.2) else e))
        ["CH4", "O2", "N2", "H2O", "CO2", "propane"] = .error .keyError ∧
    setupReaction exAliases exFormula (exMolar.map (fun e => if e.1 = "oxygen" then ("O2", e.2) else e))
        ["CH4", "O2", "N2", "H2O", "CO2", "MPG[0.3]"] = .error .valueError := by
  decide +kernel

/-- **C99 (nitrogen, refuted).**  Combustion with pure oxygen is rejected, although
nitrogen takes no part in it: the error of components is raised. -/
theorem C99_oxyfuel_false :
    setupReaction exAliases exFormula exMolar ["CH4", "O2", "H2O", "CO2"]
      = .error .componentError := by
  decide +kernel

/-- **C99 (products).**  Before the calculation the outlet of the chamber carries
`H2O` and `CO2`: those it had keep their values, a missing one gets the mass
fraction 0, and all other fluids are left alone. -/
theorem C99_products (d : Dict String K) (f : String) :
    (addProducts d).get? f =
      if f ∈ d.keys then d.get? f else if f = "H2O" ∨ f = "CO2" then some 0 else none := by
  have step : ∀ (d : Dict String K) (g : String),
      (addMissing d g).get? f = if f ∈ d.keys then d.get? f else if f = g then some 0 else none := by
    intro d g
    unfold addMissing
    by_cases hg : g ∈ d.keys
    · rw [if_pos hg]
      split_ifs with h1 h2
      · rfl
      · exact absurd (h2 ▸ hg) h1
      · exact (Dict.get?_eq_none_iff d f).mpr h1
    · rw [if_neg hg, Dict.get?_set]
      split_ifs with h1 h2 h3
      · exact absurd (h1 ▸ h2) hg
      · rfl
      · rfl
      · exact (Dict.get?_eq_none_iff d f).mpr h3
  have hk : f ∈ (addMissing d "H2O").keys ↔ f ∈ d.keys ∨ f = "H2O" := by
    rw [← Dict.get?_isSome_iff, step d "H2O"]
    by_cases h1 : f ∈ d.keys
    · simp [h1, (Dict.get?_isSome_iff d f).mpr h1]
    · rw [if_neg h1]
      by_cases h2 : f = "H2O" <;> simp [h1, h2]
  unfold addProducts
  rw [step, step]
  by_cases h1 : f ∈ d.keys
  · simp [hk, h1]
  · by_cases h2 : f = "H2O"
    · have : f ∈ (addMissing d "H2O").keys := hk.mpr (Or.inr h2)
      rw [if_pos this, if_neg h1, if_pos h2, if_neg h1, if_pos (Or.inl h2)]
    · have : f ∉ (addMissing d "H2O").keys := fun h => (hk.mp h).elim h1 h2
      rw [if_neg this, if_neg h1]
      simp [h2]

/-- **C99 (water under another name, refuted).**  Steam named `water` at the outlet
stays beside the product `H2O`: the flue gas has the same substance twice. -/
theorem C99_two_waters_false :
    (addProducts [("N2", (7 / 10 : ℚ)), ("water", 3 / 10)]).keys
      = ["N2", "water", "H2O", "CO2"] ∧
    Spec.HasName exAliases "water" "H2O" ∧ Spec.HasName exAliases "H2O" "H2O" := by
  refine ⟨by decide, ⟨["water", "Water", "H2O"], rfl, "H2O", by simp, by decide⟩,
    ⟨["water", "Water", "H2O"], rfl, "H2O", by simp, by decide⟩⟩

/-! ### Examples -/

example : Spec.ProperFormula [⟨['C'], ['1', '2']⟩, ⟨['H'], ['2', '6']⟩] where
  distinct := by decide
  element := by decide
  digits := by decide

example : String.ofList (Spec.written [⟨['C'], ['1', '2']⟩, ⟨['H'], ['2', '6']⟩])
    = "C_{12}H_{26}" := by decide

example : fluidStructure "C_{12}H_{26}" = .ok [("C", 12), ("H", 26)] := by decide +kernel

/-- A formula without numbers or with an element twice: not `Spec.ProperFormula`. -/
example : fluidStructure "CH_{4" = .ok [("CH", 4)] ∧ fluidStructure "Ar" = .error .indexError ∧
    fluidStructure "C_{1}H_{3}C_{1}H_{3}" = .ok [("C", 1), ("H", 3)] := by decide +kernel

example : Spec.GasesUsed exAliases exUsed ∧ ("CH4" ∈ exUsed ∧ Spec.IsFuel exAliases "CH4") := by
  have h := C99_fuels exSetup
  exact ⟨h.2.2.2.1, (h.1 "CH4").mp (by simp [Dict.keys])⟩

example : ∃ r, molarInflows (K := ℚ) [("CH4", 16 / 1000), ("O2", 32 / 1000)]
    [⟨20, [("CH4", 0), ("O2", 23 / 100)]⟩, ⟨1, [("CH4", 1), ("O2", 0)]⟩] ["CH4"] = .ok r :=
  ⟨_, rfl⟩

end Tespy
