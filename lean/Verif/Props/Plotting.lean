import Verif.Model.Plotting
import Verif.Model.Eqs
import Verif.Props.Connectors
import Mathlib.Tactic.IntervalCases
import Mathlib.Tactic.FinCases
/-
C112: the data for diagrams connect the states of the connections of a component.
-/
namespace Tespy
namespace Plotting

variable {K : Type}

/-- the connection at an inlet of the component -/
def Spec.Inlet (cs : List ConnObj) (cp : CompObj) (id : String) (a : ConnObj) : Prop :=
  a ∈ cs ∧ a.target = cp ∧ a.targetId = id

/-- the connection at an outlet of the component -/
def Spec.Outlet (cs : List ConnObj) (cp : CompObj) (id : String) (a : ConnObj) : Prop :=
  a ∈ cs ∧ a.source = cp ∧ a.sourceId = id

/-- the network passed the checks, and all connectors are those declared by the components -/
structure Spec.Accepted (cs : List ConnObj) (comps : List CompObj) : Prop where
  conns : checkConns cs = .ok ()
  comps : checkComponents cs comps = .ok ()
  declared : Declared cs

/-- the value of a property: pressure, enthalpy, entropy, specific volume -/
def Spec.value (x : State K) (q : Prop4) : K :=
  if q = .p then x.p else if q = .h then x.h else if q = .s then x.s else x.v

theorem get_value (x : State K) (q : Prop4) : x.get q = Spec.value x q := by cases q <;> rfl

/-- the line is drawn with values of one property from a state to another one: the values of the
isoline and of the points at its start are those of the first state, those at its end are those of
the second one -/
def Spec.Between (iso pt : Prop4) (a b : State K) (l : Line K) : Prop :=
  l.isoProp = iso ∧ l.isoValue = Spec.value a iso ∧ l.isoEnd = Spec.value b iso
    ∧ l.startProp = pt ∧ l.startValue = Spec.value a pt ∧ l.endProp = pt ∧ l.endValue = Spec.value b pt

/-- the entry of the data with a key is a line between two states -/
def Spec.Entry (d : Dict ℕ (Line K)) (key : ℕ) (iso pt : Prop4) (a b : State K) : Prop :=
  ∃ l, (key, l) ∈ d ∧ (∀ l', (key, l') ∈ d → l' = l) ∧ Spec.Between iso pt a b l

theorem line_eq (iso pt : Prop4) (a b : State K) : line iso pt (some a) (some b)
    = .ok ⟨iso, a.get iso, b.get iso, pt, a.get pt, pt, b.get pt⟩ := rfl

theorem between_mk (iso pt : Prop4) (a b : State K) :
    Spec.Between iso pt a b ⟨iso, a.get iso, b.get iso, pt, a.get pt, pt, b.get pt⟩ :=
  ⟨rfl, get_value _ _, get_value _ _, rfl, get_value _ _, rfl, get_value _ _⟩

/-- the inlets in the order of their names as text -/
theorem inl_at {cs : List ConnObj} {comps : List CompObj} (h : Spec.Accepted cs comps)
    {cp : CompObj} (hcp : cp ∈ comps) {a : ConnObj} {id : String} (ha : Spec.Inlet cs cp id a)
    {j : ℕ} (hj : (cp.inlets.insertionSort (· ≤ ·))[j]? = some id) : (inl cs cp)[j]? = some a := by
  obtain ⟨-, ht⟩ := checkConns_ok h.conns
  obtain ⟨-, hci⟩ := checkComponents_ok h.comps cp hcp
  have pi := target_ids_perm ht (fun c hc hct => hct ▸ (h.declared c hc).2) hci
  have qi : (inl cs cp).map ConnObj.targetId = cp.inlets.insertionSort (· ≤ ·) := by
    refine List.Perm.eq_of_pairwise' (r := (· ≤ ·)) ?_ (List.pairwise_insertionSort _ _) ?_
    · rw [List.pairwise_map]
      exact List.pairwise_insertionSort _ _
    · exact (((List.perm_insertionSort _ _).map _).trans pi).trans
        (List.perm_insertionSort _ _).symm
  rw [← qi, List.getElem?_map, Option.map_eq_some_iff] at hj
  obtain ⟨a', ha', hid⟩ := hj
  obtain ⟨hm, htar⟩ := mem_inl.1 (List.mem_of_getElem? ha')
  have : a' = a := List.inj_on_of_nodup_map ht hm ha.1 (by simp [htar, hid, ha.2])
  rw [ha', this]

/-- the outlets in the order of their names as text -/
theorem outl_at {cs : List ConnObj} {comps : List CompObj} (h : Spec.Accepted cs comps)
    {cp : CompObj} (hcp : cp ∈ comps) {a : ConnObj} {id : String} (ha : Spec.Outlet cs cp id a)
    {j : ℕ} (hj : (cp.outlets.insertionSort (· ≤ ·))[j]? = some id) : (outl cs cp)[j]? = some a := by
  obtain ⟨hs, -⟩ := checkConns_ok h.conns
  obtain ⟨hco, -⟩ := checkComponents_ok h.comps cp hcp
  have po := source_ids_perm hs (fun c hc hct => hct ▸ (h.declared c hc).1) hco
  have qo : (outl cs cp).map ConnObj.sourceId = cp.outlets.insertionSort (· ≤ ·) := by
    refine List.Perm.eq_of_pairwise' (r := (· ≤ ·)) ?_ (List.pairwise_insertionSort _ _) ?_
    · rw [List.pairwise_map]
      exact List.pairwise_insertionSort _ _
    · exact (((List.perm_insertionSort _ _).map _).trans po).trans
        (List.perm_insertionSort _ _).symm
  rw [← qo, List.getElem?_map, Option.map_eq_some_iff] at hj
  obtain ⟨a', ha', hid⟩ := hj
  obtain ⟨hm, htar⟩ := mem_outl.1 (List.mem_of_getElem? ha')
  have : a' = a := List.inj_on_of_nodup_map hs hm ha.1 (by simp [htar, hid, ha.2])
  rw [ha', this]

/-- every declared inlet has a connection -/
theorem inlet_exists {cs : List ConnObj} {comps : List CompObj} (h : Spec.Accepted cs comps)
    {cp : CompObj} (hcp : cp ∈ comps) {id : String} (hid : id ∈ cp.inlets) :
    ∃ a, Spec.Inlet cs cp id a := by
  obtain ⟨-, ht⟩ := checkConns_ok h.conns
  obtain ⟨-, hci⟩ := checkComponents_ok h.comps cp hcp
  have pi := target_ids_perm ht (fun c hc hct => hct ▸ (h.declared c hc).2) hci
  obtain ⟨a, ha, hi⟩ := List.mem_map.1 (pi.mem_iff.2 hid)
  simp only [List.mem_filter, decide_eq_true_eq] at ha
  exact ⟨a, ha.1, ha.2, hi⟩

/-- every declared outlet has a connection -/
theorem outlet_exists {cs : List ConnObj} {comps : List CompObj} (h : Spec.Accepted cs comps)
    {cp : CompObj} (hcp : cp ∈ comps) {id : String} (hid : id ∈ cp.outlets) :
    ∃ a, Spec.Outlet cs cp id a := by
  obtain ⟨hs, -⟩ := checkConns_ok h.conns
  obtain ⟨hco, -⟩ := checkComponents_ok h.comps cp hcp
  have po := source_ids_perm hs (fun c hc hct => hct ▸ (h.declared c hc).1) hco
  obtain ⟨a, ha, hi⟩ := List.mem_map.1 (po.mem_iff.2 hid)
  simp only [List.mem_filter, decide_eq_true_eq] at ha
  exact ⟨a, ha.1, ha.2, hi⟩

variable {cs : List ConnObj} {comps : List CompObj} {cp : CompObj} {r : ConnObj → State K} {k : Cls}

/-- Components with one inlet and one outlet: turbines, pumps and compressors have a line of
constant entropy, simple heat exchangers, pipes and collectors a line of constant pressure and
valves a line of constant enthalpy, from the inlet to the outlet, and nothing else. -/
theorem C112_single (h : Spec.Accepted cs comps) (hcp : cp ∈ comps) (hk : cp.IsA k)
    {a b : ConnObj} (ha : Spec.Inlet cs cp "in1" a) (hb : Spec.Outlet cs cp "out1" b) :
    (k ∈ [.turbine, .steamTurbine, .pump, .compressor] →
      ∃ l, networkPlotting cs r cp k = .ok (some [(1, l)]) ∧ Spec.Between .s .v (r a) (r b) l)
    ∧ (k ∈ [.simpleHeatExchanger, .heatExchangerSimple, .solarCollector, .parabolicTrough, .pipe] →
      ∃ l, networkPlotting cs r cp k = .ok (some [(1, l)]) ∧ Spec.Between .p .s (r a) (r b) l)
    ∧ (k = .valve →
      ∃ l, networkPlotting cs r cp k = .ok (some [(1, l)]) ∧ Spec.Between .h .v (r a) (r b) l) := by
  obtain ⟨-, n, hi, ho⟩ := hk
  have key : cp.inlets = ["in1"] → cp.outlets = ["out1"] →
      ((inl cs cp).map r)[0]? = some (r a) ∧ ((outl cs cp).map r)[0]? = some (r b) := by
    intro hi ho
    have h1 := inl_at h hcp ha (j := 0) (by rw [hi]; decide)
    have h2 := outl_at h hcp hb (j := 0) (by rw [ho]; decide)
    simp [List.getElem?_map, h1, h2]
  refine ⟨fun hm => ?_, fun hm => ?_, fun hm => ?_⟩
  · fin_cases hm <;>
    · obtain ⟨h1, h2⟩ := key hi ho
      refine ⟨_, ?_, between_mk ..⟩
      simp only [networkPlotting, plottingData, turbomachineData, entries, h1, h2, line_eq]
      rfl
  · fin_cases hm <;>
    · obtain ⟨h1, h2⟩ := key hi ho
      refine ⟨_, ?_, between_mk ..⟩
      simp only [networkPlotting, plottingData, simpleData, entries, h1, h2, line_eq]
      rfl
  · subst hm
    obtain ⟨h1, h2⟩ := key hi ho
    refine ⟨_, ?_, between_mk ..⟩
    simp only [networkPlotting, plottingData, valveData, entries, h1, h2, line_eq]
    rfl

/-- Heat exchangers: a line of constant pressure from `in1` to `out1` and one from `in2` to
`out2`. -/
theorem C112_exchanger (h : Spec.Accepted cs comps) (hcp : cp ∈ comps) (hk : cp.IsA k)
    (hm : k ∈ [Cls.heatExchanger, .condenser, .desuperheater, .movingBoundary])
    {a₁ a₂ b₁ b₂ : ConnObj} (ha₁ : Spec.Inlet cs cp "in1" a₁) (ha₂ : Spec.Inlet cs cp "in2" a₂)
    (hb₁ : Spec.Outlet cs cp "out1" b₁) (hb₂ : Spec.Outlet cs cp "out2" b₂) :
    ∃ l₁ l₂, networkPlotting cs r cp k = .ok (some [(1, l₁), (2, l₂)])
      ∧ Spec.Between .p .v (r a₁) (r b₁) l₁ ∧ Spec.Between .p .v (r a₂) (r b₂) l₂ := by
  obtain ⟨-, n, hi, ho⟩ := hk
  have hi' : cp.inlets = ["in1", "in2"] := by fin_cases hm <;> exact hi
  have ho' : cp.outlets = ["out1", "out2"] := by fin_cases hm <;> exact ho
  have h1 := inl_at h hcp ha₁ (j := 0) (by rw [hi']; decide)
  have h2 := inl_at h hcp ha₂ (j := 1) (by rw [hi']; decide)
  have h3 := outl_at h hcp hb₁ (j := 0) (by rw [ho']; decide)
  have h4 := outl_at h hcp hb₂ (j := 1) (by rw [ho']; decide)
  refine ⟨_, _, ?_, between_mk .., between_mk ..⟩
  have : (heatExchangerData ((inl cs cp).map r) ((outl cs cp).map r)).map some
      = networkPlotting cs r cp k := by fin_cases hm <;> rfl
  rw [← this]
  simp only [heatExchangerData, List.range, List.range.loop, List.map_cons, List.map_nil, entries,
    List.getElem?_map, h1, h2, h3, h4, Option.map_some, line_eq]
  rfl

/-- Droplet separators: two lines of constant pressure from `in1`, to `out1` and to `out2`. -/
theorem C112_separator (h : Spec.Accepted cs comps) (hcp : cp ∈ comps) (hk : cp.IsA .dropletSeparator)
    {a b₁ b₂ : ConnObj} (ha : Spec.Inlet cs cp "in1" a)
    (hb₁ : Spec.Outlet cs cp "out1" b₁) (hb₂ : Spec.Outlet cs cp "out2" b₂) :
    ∃ l₁ l₂, networkPlotting cs r cp .dropletSeparator = .ok (some [(1, l₁), (2, l₂)])
      ∧ Spec.Between .p .v (r a) (r b₁) l₁ ∧ Spec.Between .p .v (r a) (r b₂) l₂ := by
  obtain ⟨-, n, hi, ho⟩ := hk
  have hi' : cp.inlets = ["in1"] := hi
  have ho' : cp.outlets = ["out1", "out2"] := ho
  have h1 := inl_at h hcp ha (j := 0) (by rw [hi']; decide)
  have h3 := outl_at h hcp hb₁ (j := 0) (by rw [ho']; decide)
  have h4 := outl_at h hcp hb₂ (j := 1) (by rw [ho']; decide)
  refine ⟨_, _, ?_, between_mk .., between_mk ..⟩
  simp only [networkPlotting, plottingData, separatorData, List.range, List.range.loop,
    List.map_cons, List.map_nil, entries, List.getElem?_map, h1, h3, h4, Option.map_some, line_eq]
  rfl

/-- Drums: the keys are not the numbers of the inlets. The first line leads from outlet to outlet,
the lines from `in1` have the keys 2 and 3, those from `in2` the keys 4 and 5. -/
theorem C112_drum_false (h : Spec.Accepted cs comps) (hcp : cp ∈ comps) (hk : cp.IsA .drum)
    {a₁ a₂ b₁ b₂ : ConnObj} (ha₁ : Spec.Inlet cs cp "in1" a₁) (ha₂ : Spec.Inlet cs cp "in2" a₂)
    (hb₁ : Spec.Outlet cs cp "out1" b₁) (hb₂ : Spec.Outlet cs cp "out2" b₂) :
    ∃ l₁ l₂ l₃ l₄ l₅, networkPlotting cs r cp .drum
        = .ok (some [(1, l₁), (2, l₂), (3, l₃), (4, l₄), (5, l₅)])
      ∧ Spec.Between .p .v (r b₁) (r b₂) l₁
      ∧ Spec.Between .p .v (r a₁) (r b₁) l₂ ∧ Spec.Between .p .v (r a₁) (r b₂) l₃
      ∧ Spec.Between .p .v (r a₂) (r b₁) l₄ ∧ Spec.Between .p .v (r a₂) (r b₂) l₅ := by
  obtain ⟨-, n, hi, ho⟩ := hk
  have hi' : cp.inlets = ["in1", "in2"] := hi
  have ho' : cp.outlets = ["out1", "out2"] := ho
  have h1 := inl_at h hcp ha₁ (j := 0) (by rw [hi']; decide)
  have h2 := inl_at h hcp ha₂ (j := 1) (by rw [hi']; decide)
  have h3 := outl_at h hcp hb₁ (j := 0) (by rw [ho']; decide)
  have h4 := outl_at h hcp hb₂ (j := 1) (by rw [ho']; decide)
  refine ⟨_, _, _, _, _, ?_, between_mk .., between_mk .., between_mk .., between_mk ..,
    between_mk ..⟩
  simp only [networkPlotting, plottingData, drumData, entries, List.getElem?_map, h1, h2, h3, h4,
    Option.map_some, line_eq]
  rfl

/-- the digits of a number: the first one is not zero -/
theorem digits_head (m : ℕ) (hm : 1 ≤ m) : ∃ c rest, Nat.toDigits 10 m = c :: rest ∧ '1' ≤ c
    ∧ (m < 10 → rest = [] ∧ c = Nat.digitChar m) ∧ (10 ≤ m → ∃ d rest', rest = d :: rest' ∧ '0' ≤ d) := by
  induction m using Nat.strong_induction_on with
  | _ m ih =>
    by_cases h : m < 10
    · refine ⟨Nat.digitChar m, [], Nat.toDigits_of_lt_base h, ?_, fun _ => ⟨rfl, rfl⟩, fun h' => by omega⟩
      interval_cases m <;> decide
    · have h10 : 10 ≤ m := by omega
      obtain ⟨c, rest, he, hc, hlt, hge⟩ := ih (m / 10) (by omega) (by omega)
      refine ⟨c, rest ++ [Nat.digitChar (m % 10)], ?_, hc, fun h' => by omega, fun _ => ?_⟩
      · rw [Nat.toDigits_of_base_le (by norm_num) h10, he]; rfl
      · by_cases h2 : m / 10 < 10
        · refine ⟨Nat.digitChar (m % 10), [], by rw [(hlt h2).1]; rfl, ?_⟩
          have : m % 10 < 10 := Nat.mod_lt _ (by norm_num)
          interval_cases m % 10 <;> decide
        · obtain ⟨d, rest', hr, hd⟩ := hge (by omega)
          exact ⟨d, rest' ++ [Nat.digitChar (m % 10)], by rw [hr]; rfl, hd⟩

theorem toString_toList (m : ℕ) : (toString m).toList = Nat.toDigits 10 m := by
  have : toString m = Nat.repr m := rfl
  rw [this, Nat.repr_eq_ofList_toDigits, String.toList_ofList]

/-- as text, `1` comes before all other numbers -/
theorem one_le_text {m : ℕ} (hm : 1 ≤ m) : "1" ≤ toString m := by
  obtain ⟨c, rest, he, hc, -, -⟩ := digits_head m hm
  rw [← not_lt, String.lt_iff_toList_lt, toString_toList, he]
  have : "1".toList = ['1'] := rfl
  rw [this, List.cons_lt_cons_iff]
  rintro (h | ⟨-, h⟩)
  · exact absurd h (not_lt.2 hc)
  · simp at h

/-- as text, `10` comes before all other numbers but `1` -/
theorem ten_le_text {m : ℕ} (hm : 2 ≤ m) : "10" ≤ toString m := by
  obtain ⟨c, rest, he, hc, hlt, hge⟩ := digits_head m (by omega)
  rw [← not_lt, String.lt_iff_toList_lt, toString_toList, he]
  have : "10".toList = ['1', '0'] := rfl
  rw [this, List.cons_lt_cons_iff]
  rintro (h | ⟨h1, h⟩)
  · exact absurd h (not_lt.2 hc)
  · by_cases h10 : m < 10
    · have := (hlt h10).2
      rw [h1] at this
      revert this
      interval_cases m <;> decide
    · obtain ⟨d, rest', hr, hd⟩ := hge (by omega)
      rw [hr, List.cons_lt_cons_iff] at h
      rcases h with h | ⟨-, h⟩
      · exact absurd h (not_lt.2 hd)
      · simp at h

theorem digitChar_inj {a b : ℕ} (ha : a < 10) (hb : b < 10)
    (h : Nat.digitChar a = Nat.digitChar b) : a = b := by
  revert h
  interval_cases a <;> interval_cases b <;> decide

theorem toDigits_inj (a : ℕ) : ∀ b, Nat.toDigits 10 a = Nat.toDigits 10 b → a = b := by
  induction a using Nat.strong_induction_on with
  | _ a ih =>
    intro b h
    have hne : ∀ m, Nat.toDigits 10 m ≠ [] := fun m hm => by
      by_cases hl : m < 10
      · rw [Nat.toDigits_of_lt_base hl] at hm; cases hm
      · rw [Nat.toDigits_of_base_le (by norm_num) (by omega)] at hm
        exact absurd hm (by simp)
    by_cases ha : a < 10 <;> by_cases hb : b < 10
    · rw [Nat.toDigits_of_lt_base ha, Nat.toDigits_of_lt_base hb, List.cons.injEq] at h
      exact digitChar_inj ha hb h.1
    · rw [Nat.toDigits_of_lt_base ha, Nat.toDigits_of_base_le (by norm_num) (by omega : 10 ≤ b)] at h
      have := congrArg List.length h
      have := List.length_pos_iff.2 (hne (b / 10))
      simp at *
    · rw [Nat.toDigits_of_lt_base hb, Nat.toDigits_of_base_le (by norm_num) (by omega : 10 ≤ a)] at h
      have := congrArg List.length h
      have := List.length_pos_iff.2 (hne (a / 10))
      simp at *
    · rw [Nat.toDigits_of_base_le (by norm_num) (by omega : 10 ≤ a),
        Nat.toDigits_of_base_le (by norm_num) (by omega : 10 ≤ b)] at h
      obtain ⟨h1, h2⟩ := List.append_inj' h rfl
      have h3 := ih (a / 10) (by omega) (b / 10) h1
      rw [List.cons.injEq] at h2
      have h4 := digitChar_inj (Nat.mod_lt _ (by norm_num)) (Nat.mod_lt _ (by norm_num)) h2.1
      omega

theorem numbered_nodup (n : ℕ) : (numbered "in" n).Nodup := by
  refine List.Nodup.map_on ?_ List.nodup_range
  intro i _ j _ hij
  have := congrArg String.toList hij
  rw [String.toList_append, String.toList_append, List.append_cancel_left_eq, toString_toList,
    toString_toList] at this
  have := toDigits_inj _ _ this
  omega

/-- the order of ten or more connectors: after `in1` comes `in10` -/
theorem sorted_second {n : ℕ} (hn : 10 ≤ n) :
    ((numbered "in" n).insertionSort (· ≤ ·))[0]? = some "in1"
      ∧ ((numbered "in" n).insertionSort (· ≤ ·))[1]? = some "in10" := by
  have hp := List.perm_insertionSort (· ≤ ·) (numbered "in" n)
  have hs := List.pairwise_insertionSort (r := (· ≤ ·)) (numbered "in" n)
  have hnd := hp.nodup_iff.2 (numbered_nodup n)
  have hmem : ∀ x, x ∈ (numbered "in" n).insertionSort (· ≤ ·) ↔
      ∃ m, 1 ≤ m ∧ m ≤ n ∧ x = "in" ++ toString m := by
    intro x
    rw [hp.mem_iff]
    simp only [numbered, List.mem_map, List.mem_range]
    constructor
    · rintro ⟨i, hi, rfl⟩; exact ⟨i + 1, by omega, by omega, rfl⟩
    · rintro ⟨m, h1, h2, rfl⟩
      exact ⟨m - 1, by omega, by rw [Nat.sub_add_cancel h1]⟩
  have e1 : "in1" = "in" ++ toString 1 := rfl
  have e10 : "in10" = "in" ++ toString 10 := rfl
  have h1m := (hmem "in1").2 ⟨1, le_refl _, by omega, e1⟩
  have h10m := (hmem "in10").2 ⟨10, by omega, hn, e10⟩
  generalize (numbered "in" n).insertionSort (· ≤ ·) = L at *
  match L, h1m with
  | x :: L', h1m =>
    have hx : x = "in1" := by
      obtain ⟨m, h1, -, rfl⟩ := (hmem x).1 (List.mem_cons_self ..)
      refine le_antisymm ?_ ?_
      · rcases List.mem_cons.1 h1m with h | h
        · exact le_of_eq h.symm
        · exact (List.pairwise_cons.1 hs).1 _ h
      · rw [e1, string_prefix_le]; exact one_le_text h1
    subst hx
    refine ⟨rfl, ?_⟩
    have h10' : "in10" ∈ L' := by
      rcases List.mem_cons.1 h10m with h | h
      · exact absurd h (by decide)
      · exact h
    match L', h10' with
    | y :: L'', h10' =>
      have hy : y = "in10" := by
        obtain ⟨m, h1, -, rfl⟩ := (hmem y).1 (List.mem_cons_of_mem _ (List.mem_cons_self ..))
        refine le_antisymm ?_ ?_
        · rcases List.mem_cons.1 h10' with h | h
          · exact le_of_eq h.symm
          · exact (List.pairwise_cons.1 (List.pairwise_cons.1 hs).2).1 _ h
        · rw [e10, string_prefix_le]
          refine ten_le_text ?_
          by_contra hlt
          have : m = 1 := by omega
          subst this
          exact (List.nodup_cons.1 hnd).1 (List.mem_cons_self ..)
      rw [hy]; rfl

theorem entries_map (f : ℕ → PyRes (Line K)) (g : ℕ → Line K) (is : List ℕ)
    (h : ∀ i ∈ is, f i = .ok (g i)) :
    entries (is.map fun i => (i + 1, f i)) = .ok (is.map fun i => (i + 1, g i)) := by
  induction is with
  | nil => rfl
  | cons i is ih =>
    simp only [List.map_cons, entries, h i (List.mem_cons_self ..),
      ih (fun j hj => h j (List.mem_cons_of_mem _ hj))]

/-- Merges: there is one line of constant pressure to the outlet for each inlet. The key of an inlet
is its position in the order of the names as text. -/
theorem C112_merge (h : Spec.Accepted cs comps) (hcp : cp ∈ comps)
    {n : ℕ} (hi : cp.inlets = numbered "in" n) (ho : cp.outlets = ["out1"])
    {b : ConnObj} (hb : Spec.Outlet cs cp "out1" b) :
    ∃ d, networkPlotting cs r cp .merge = .ok (some d) ∧ d.map (·.1) = (List.range n).map (· + 1)
      ∧ ∀ j id a, ((numbered "in" n).insertionSort (· ≤ ·))[j]? = some id →
        Spec.Inlet cs cp id a → Spec.Entry d (j + 1) .p .v (r a) (r b) := by
  have hlen : (numbered "in" n).length = n := by simp [numbered]
  have hb0 := outl_at h hcp hb (j := 0) (by rw [ho]; decide)
  have hil : (inl cs cp).length = n := by
    have := (checkComponents_ok h.comps cp hcp).2
    rw [hi, hlen] at this
    simpa [inl] using this
  let g : ℕ → Line K := fun i => match (inl cs cp)[i]? with
    | some a => ⟨.p, (r a).get .p, (r b).get .p, .v, (r a).get .v, .v, (r b).get .v⟩
    | none => ⟨.p, (r b).get .p, (r b).get .p, .v, (r b).get .v, .v, (r b).get .v⟩
  have hg : ∀ i ∈ List.range n, line .p .v ((inl cs cp).map r)[i]? ((outl cs cp).map r)[0]?
      = .ok (g i) := by
    intro i hir
    rw [List.mem_range] at hir
    obtain ⟨a, ha⟩ : ∃ a, (inl cs cp)[i]? = some a :=
      ⟨_, List.getElem?_eq_getElem (by omega)⟩
    simp only [List.getElem?_map, ha, hb0, Option.map_some, line_eq, g]
  refine ⟨(List.range n).map fun i => (i + 1, g i), ?_, by simp, ?_⟩
  · simp only [networkPlotting, plottingData, mergeData, hi, hlen]
    rw [entries_map _ g _ hg]
    rfl
  · intro j id a hj ha
    have hja := inl_at h hcp ha (j := j) (by rw [hi]; exact hj)
    have hjn : j < n := by
      have := (List.getElem?_eq_some_iff.1 hja).1
      omega
    refine ⟨g j, List.mem_map.2 ⟨j, List.mem_range.2 hjn, rfl⟩, ?_, ?_⟩
    · intro l' hl'
      obtain ⟨i, -, he⟩ := List.mem_map.1 hl'
      simp only [Prod.mk.injEq, Nat.add_right_cancel_iff] at he
      rw [← he.2, he.1]
    · simp only [g, hja]
      exact between_mk ..

/-- With at most nine inlets the key of a line of a merge is the number of the inlet. -/
theorem C112_merge_partial (h : Spec.Accepted cs comps) (hcp : cp ∈ comps)
    {n : ℕ} (hn : n ≤ 9) (hi : cp.inlets = numbered "in" n) (ho : cp.outlets = ["out1"])
    {b : ConnObj} (hb : Spec.Outlet cs cp "out1" b) :
    ∃ d, networkPlotting cs r cp .merge = .ok (some d) ∧ d.map (·.1) = (List.range n).map (· + 1)
      ∧ ∀ num a, 1 ≤ num → num ≤ n → Spec.Inlet cs cp ("in" ++ toString num) a →
        Spec.Entry d num .p .v (r a) (r b) := by
  obtain ⟨d, hd, hk, he⟩ := C112_merge (r := r) h hcp hi ho hb
  refine ⟨d, hd, hk, fun num a h1 h2 ha => ?_⟩
  have hs : ∀ n ≤ 9, (numbered "in" n).insertionSort (· ≤ ·) = numbered "in" n := by decide +kernel
  have := he (num - 1) _ a (by
    rw [hs n hn, numbered, List.getElem?_map, List.getElem?_range (by omega)]
    simp [Nat.sub_add_cancel h1]) ha
  rwa [Nat.sub_add_cancel h1] at this

/-- With ten or more inlets it is not: the key 2 is the line of inlet `in10`. -/
theorem C112_merge_false (h : Spec.Accepted cs comps) (hcp : cp ∈ comps)
    {n : ℕ} (hn : 10 ≤ n) (hi : cp.inlets = numbered "in" n) (ho : cp.outlets = ["out1"])
    {b a : ConnObj} (hb : Spec.Outlet cs cp "out1" b) (ha : Spec.Inlet cs cp "in10" a) :
    ∃ d, networkPlotting cs r cp .merge = .ok (some d) ∧ Spec.Entry d 2 .p .v (r a) (r b) := by
  obtain ⟨d, hd, -, he⟩ := C112_merge (r := r) h hcp hi ho hb
  exact ⟨d, hd, he 1 _ a (sorted_second hn).2 ha⟩

/-- These classes, and no others, give no data at all, although a flow passes through all but sources
and sinks. -/
theorem C112_none_false (h : Spec.Accepted cs comps) (hcp : cp ∈ comps) (hk : cp.IsA k) :
    networkPlotting cs r cp k = .ok none ↔
      k ∈ [.source, .sink, .cycleCloser, .subsystemInterface, .splitter, .separator,
        .combustionChamber, .diabaticCombustionChamber, .combustionEngine, .fuelCell,
        .waterElectrolyzer] := by
  constructor
  · intro he
    by_contra hne
    have hmap : ∀ x : PyRes (Dict ℕ (Line K)), x.map some ≠ .ok none := by
      intro x hx; cases x <;> cases hx
    cases k <;> first
      | exact hne (by decide)
      | exact hmap _ he
  · intro hm
    fin_cases hm <;> rfl

/-- The lines of valves and of nodes are isolines if the equations of the component are satisfied:
the property has the same value at both ends. -/
theorem C112_isoline [CommRing K] (s : EqState K) {a b : State K} {l : Line K} :
    (∀ i o : Port, s.hv i = a.h → s.hv o = b.h → eqEnthalpy s [(i, o)] = .vec [0] →
      Spec.Between .h .v a b l → l.isoValue = l.isoEnd)
    ∧ (∀ (i0 : Port) (inl outl : List Port) (x y : Port), (∀ v ∈ (inl ++ outl).map
          (fun c => s.pv i0 - s.pv c), v = 0) → x ∈ i0 :: (inl ++ outl) → y ∈ i0 :: (inl ++ outl) →
      s.pv x = a.p → s.pv y = b.p → Spec.Between .p .v a b l → l.isoValue = l.isoEnd) := by
  constructor
  · intro i o hi ho he hl
    simp only [eqEnthalpy, List.map_cons, List.map_nil, Resid.vec.injEq, List.cons.injEq,
      and_true] at he
    rw [hl.2.1, hl.2.2.1]
    show a.h = b.h
    rw [← hi, ← ho]
    exact sub_eq_zero.1 he
  · intro i0 inl outl x y hz hx hy hxa hyb hl
    have key : ∀ x ∈ i0 :: (inl ++ outl), s.pv x = s.pv i0 := by
      intro x hx
      rcases List.mem_cons.1 hx with rfl | hx
      · rfl
      · exact (sub_eq_zero.1 (hz _ (List.mem_map.2 ⟨x, hx, rfl⟩))).symm
    rw [hl.2.1, hl.2.2.1]
    show a.p = b.p
    rw [← hxa, ← hyb, key x hx, key y hy]

/-! ### Examples -/

def src (i : ℕ) : CompObj := ⟨100 + i, "source " ++ toString i, "Source", [], ["out1"]⟩
def snk (i : ℕ) : CompObj := ⟨200 + i, "sink " ++ toString i, "Sink", ["in1"], []⟩
def exDrum : CompObj := ⟨1, "drum", "Drum", ["in1", "in2"], ["out1", "out2"]⟩
def exTurb : CompObj := ⟨2, "turbine", "Turbine", ["in1"], ["out1"]⟩
def exHeat : CompObj := ⟨3, "preheater", "HeatExchanger", ["in1", "in2"], ["out1", "out2"]⟩
def exSep : CompObj := ⟨4, "separator", "DropletSeparator", ["in1"], ["out1", "out2"]⟩

/-- feed water is preheated and enters a drum, its steam drives a turbine, droplets are separated -/
def exPlant : List ConnObj :=
  [⟨1, "feed", src 1, "out1", exHeat, "in2"⟩, ⟨2, "hot", src 2, "out1", exHeat, "in1"⟩,
   ⟨3, "cooled", exHeat, "out1", snk 1, "in1"⟩, ⟨4, "heated", exHeat, "out2", exDrum, "in1"⟩,
   ⟨5, "mixture", src 3, "out1", exDrum, "in2"⟩, ⟨6, "liquid", exDrum, "out1", snk 2, "in1"⟩,
   ⟨7, "steam", exDrum, "out2", exTurb, "in1"⟩, ⟨8, "wet", exTurb, "out1", exSep, "in1"⟩,
   ⟨9, "drops", exSep, "out1", snk 3, "in1"⟩, ⟨10, "dry", exSep, "out2", snk 4, "in1"⟩]

theorem exPlant_accepted : Spec.Accepted exPlant [exDrum, exTurb, exHeat, exSep] := by
  refine ⟨by decide +kernel, by decide +kernel, ?_⟩
  unfold Declared
  decide +kernel

/-- results: the number of the connection in the digits of the values -/
def exRes (c : ConnObj) : State ℕ := ⟨1000 + c.id, 2000 + c.id, 3000 + c.id, 4000 + c.id⟩

example : (∃ l, networkPlotting exPlant exRes exTurb .turbine = .ok (some [(1, l)])
      ∧ Spec.Between .s .v (exRes ⟨7, "steam", exDrum, "out2", exTurb, "in1"⟩)
        (exRes ⟨8, "wet", exTurb, "out1", exSep, "in1"⟩) l)
    ∧ (∃ l₁ l₂, networkPlotting exPlant exRes exHeat .heatExchanger = .ok (some [(1, l₁), (2, l₂)])
      ∧ Spec.Between .p .v (exRes ⟨2, "hot", src 2, "out1", exHeat, "in1"⟩)
        (exRes ⟨3, "cooled", exHeat, "out1", snk 1, "in1"⟩) l₁
      ∧ Spec.Between .p .v (exRes ⟨1, "feed", src 1, "out1", exHeat, "in2"⟩)
        (exRes ⟨4, "heated", exHeat, "out2", exDrum, "in1"⟩) l₂) := by
  have h := exPlant_accepted
  exact ⟨(C112_single (k := .turbine) (cp := exTurb)
      (a := ⟨7, "steam", exDrum, "out2", exTurb, "in1"⟩)
      (b := ⟨8, "wet", exTurb, "out1", exSep, "in1"⟩) h (by simp) ⟨rfl, 0, rfl, rfl⟩
      ⟨by decide +kernel, rfl, rfl⟩
      ⟨by decide +kernel, rfl, rfl⟩).1 (by decide),
    C112_exchanger h (by simp) ⟨rfl, 0, rfl, rfl⟩ (by decide) ⟨by decide +kernel, rfl, rfl⟩
      ⟨by decide +kernel, rfl, rfl⟩ ⟨by decide +kernel, rfl, rfl⟩ ⟨by decide +kernel, rfl, rfl⟩⟩

/-- the first line of the drum leads from the liquid to the steam -/
example : (∃ l ls, networkPlotting exPlant exRes exDrum .drum = .ok (some ((1, l) :: ls))
      ∧ Spec.Between .p .v (exRes ⟨6, "liquid", exDrum, "out1", snk 2, "in1"⟩)
        (exRes ⟨7, "steam", exDrum, "out2", exTurb, "in1"⟩) l)
    ∧ (∃ l₁ l₂, networkPlotting exPlant exRes exSep .dropletSeparator
        = .ok (some [(1, l₁), (2, l₂)])) ∧
    networkPlotting exPlant exRes exSep .dropletSeparator ≠ .ok none := by
  have h := exPlant_accepted
  obtain ⟨l₁, l₂, l₃, l₄, l₅, he, h1, -⟩ := C112_drum_false (r := exRes) h (by simp)
    ⟨rfl, 0, rfl, rfl⟩ (a₁ := ⟨4, "heated", exHeat, "out2", exDrum, "in1"⟩)
    (a₂ := ⟨5, "mixture", src 3, "out1", exDrum, "in2"⟩)
    (b₁ := ⟨6, "liquid", exDrum, "out1", snk 2, "in1"⟩)
    (b₂ := ⟨7, "steam", exDrum, "out2", exTurb, "in1"⟩)
    ⟨by decide +kernel, rfl, rfl⟩ ⟨by decide +kernel, rfl, rfl⟩ ⟨by decide +kernel, rfl, rfl⟩
    ⟨by decide +kernel, rfl, rfl⟩
  obtain ⟨m₁, m₂, hm, -⟩ := C112_separator (r := exRes) h (by simp) (cp := exSep)
    ⟨rfl, 0, rfl, rfl⟩ (a := ⟨8, "wet", exTurb, "out1", exSep, "in1"⟩)
    (b₁ := ⟨9, "drops", exSep, "out1", snk 3, "in1"⟩)
    (b₂ := ⟨10, "dry", exSep, "out2", snk 4, "in1"⟩)
    ⟨by decide +kernel, rfl, rfl⟩ ⟨by decide +kernel, rfl, rfl⟩ ⟨by decide +kernel, rfl, rfl⟩
  refine ⟨⟨l₁, _, he, h1⟩, ⟨m₁, m₂, hm⟩, fun hn => ?_⟩
  exact absurd ((C112_none_false h (by simp) ⟨rfl, 0, rfl, rfl⟩).1 hn) (by decide)

/-- a merge with `n` inlets -/
def exMerge (n : ℕ) : CompObj := ⟨1, "merge", "Merge", numbered "in" n, ["out1"]⟩
def exMergeConns (n : ℕ) : List ConnObj :=
  ⟨0, "mixed", exMerge n, "out1", snk 0, "in1"⟩
  :: (List.range n).map fun i =>
    ⟨i + 1, "flow " ++ toString i, src i, "out1", exMerge n, "in" ++ toString (i + 1)⟩

theorem exMerge_accepted : ∀ n ∈ [3, 11], Spec.Accepted (exMergeConns n) [exMerge n] := by
  intro n hn
  fin_cases hn <;>
    (refine ⟨by decide +kernel, by decide +kernel, ?_⟩
     unfold Declared
     decide +kernel)

/-- three inlets: the key 2 is the second flow; eleven inlets: it is the tenth one -/
example : (∃ d, networkPlotting (exMergeConns 3) exRes (exMerge 3) .merge = .ok (some d)
      ∧ Spec.Entry d 2 .p .v ⟨1002, 2002, 3002, 4002⟩ ⟨1000, 2000, 3000, 4000⟩)
    ∧ ∃ d, networkPlotting (exMergeConns 11) exRes (exMerge 11) .merge = .ok (some d)
      ∧ Spec.Entry d 2 .p .v ⟨1010, 2010, 3010, 4010⟩ ⟨1000, 2000, 3000, 4000⟩ := by
  constructor
  · obtain ⟨d, hd, -, h⟩ := C112_merge_partial (r := exRes) (exMerge_accepted 3 (by simp)) (by simp)
      (n := 3) (by omega) rfl rfl (b := ⟨0, "mixed", exMerge 3, "out1", snk 0, "in1"⟩)
      ⟨by decide +kernel, rfl, rfl⟩
    exact ⟨d, hd, h 2 ⟨2, "flow 1", src 1, "out1", exMerge 3, "in2"⟩ (by omega) (by omega)
      ⟨by decide +kernel, rfl, by decide⟩⟩
  · exact C112_merge_false (r := exRes) (exMerge_accepted 11 (by simp)) (by simp)
      (n := 11) (by omega) rfl rfl (b := ⟨0, "mixed", exMerge 11, "out1", snk 0, "in1"⟩)
      (a := ⟨10, "flow 9", src 9, "out1", exMerge 11, "in10"⟩)
      ⟨by decide +kernel, rfl, rfl⟩ ⟨by decide +kernel, rfl, by decide⟩

/-- a valve with equal enthalpies and a pressure drop -/
example : (∃ (s : EqState ℤ) (i o : Port), s.hv i = 5 ∧ s.hv o = 5
    ∧ eqEnthalpy s [(i, o)] = .vec [0] ∧ s.pv i = 7 ∧ s.pv o = 2) := by
  refine ⟨⟨fun v => (match v with | .p 0 => 7 | .p _ => 2 | _ => 5), fun _ => true,
    fun _ => none, fun _ => [], fun _ => []⟩, ⟨0, 0, 0, 0⟩,
    ⟨0, 1, 1, 0⟩, rfl, rfl, rfl, rfl, rfl⟩

end Plotting
end Tespy
