import Verif.Model.Printing
import Verif.Props.ResultTables
import Verif.Props.Lookup

/-!
C105: what `print_results` shows.
-/
namespace Tespy

variable {K : Type}

namespace Spec

variable [LinearOrder K] [AddCommGroup K]

/-- A value beyond the limits of its parameter; nan is beyond no limit. -/
def Beyond (err : K) (p : PLim K) (x : Option K) : Prop :=
  ∃ v, x = some v ∧ (v < p.minVal - err ∨ p.maxVal + err < v)

/-- The colour of a value of a component. -/
def IsMarked (err : K) (colored : Bool) (p : PLim K) (x : Option K) (m : Mark) : Prop :=
  (colored = false → m = .plain) ∧
  (colored = true → (m = .err ↔ Beyond err p x) ∧ (m = .var ↔ ¬ Beyond err p x ∧ p.isVar = true) ∧
    (m = .set ↔ ¬ Beyond err p x ∧ p.isVar = false ∧ p.isSet = true))

/-- Kind and name of a printed table. -/
def tableName : PTable K → String × String
  | .comps t _ _ => ("class", t)
  | .conns _ => ("connections", "")
  | .bus l _ => ("bus", l)

/-- The printed tables show the network `r` with the values `d` of its last calculation; `v` are the objects at the time of
the printout. -/
structure Prints (err : K) (cols : String → List String) (d : PostData K) (r : ResNet K) (v : PView K) (colored : Bool)
    (out : List (PTable K)) : Prop where
  /-- no table is printed twice -/
  once : (out.map tableName).Nodup
  /-- the table of a class has one row for every component with printout: its results, coloured -/
  comp : ∀ t cs rows, PTable.comps t cs rows ∈ out → cs = cols t ∧ rows.keys.Nodup ∧
    ∀ l cells, (l, cells) ∈ rows ↔ ∃ cp, (l, cp) ∈ r.comps ∧ cp.ctype = t ∧ v.comp cp = true ∧
      List.Forall₂ (fun c (x : PCell K) => ∃ p, d.param cp c = some p ∧ IsEntry p x.2 ∧
        IsMarked err colored (v.lim cp c) x.2 x.1) (cols t) cells
  /-- every class with a component to print and with results has a table -/
  compAll : ∀ e ∈ r.comps, v.comp e.2 = true → cols e.2.ctype ≠ [] →
    ∃ rows, PTable.comps e.2.ctype (cols e.2.ctype) rows ∈ out
  /-- the table of connections has one row for every connection with printout: its results, and specified values coloured -/
  conn : ∀ rows, PTable.conns rows ∈ out → rows.keys.Nodup ∧
    ∀ l cells, (l, cells) ∈ rows ↔ ∃ c ∈ r.conns, c.label = l ∧ v.conn c = true ∧
      List.Forall₂ (fun p (x : PCell K) =>
        if colored = true ∧ v.spec c p = true then x = (.set, v.specVal c p) else x = (.plain, d.conn c p))
        ["m", "p", "h", "T", "x"] cells
  connAll : (∃ c ∈ r.conns, v.conn c = true) → ∃ rows, PTable.conns rows ∈ out
  /-- tables of busses belong to busses with printout -/
  bus : ∀ l rows, PTable.bus l rows ∈ out → ∃ b, (l, b) ∈ r.busses ∧ v.bus b = true
  /-- the table of a bus has a row for every component and the total -/
  busAll : ∀ e ∈ r.busses, v.bus e.2 = true → ∃ rows, PTable.bus e.1 rows ∈ out ∧ rows.keys.Nodup ∧
    (((r.busComps e.2).map CompObj.label).Nodup → ∃ f : CompObj → BusVals K,
      (∀ cp ∈ r.busComps e.2, d.bus e.2 cp = .ok (f cp)) ∧
      (∀ l cells, l ≠ "total" → ((l, cells) ∈ rows ↔ ∃ cp ∈ r.busComps e.2, cp.label = l ∧
        cells = [(.plain, (f cp).comp), (.plain, (f cp).bus), (.plain, (f cp).eff)])) ∧
      ∀ cells, ("total", cells) ∈ rows ↔
        cells = [(.plain, some (((r.busComps e.2).filterMap (fun cp => (f cp).comp)).sum)),
          (if colored = true ∧ v.busSet e.2 = true then .set else .plain,
            some (((r.busComps e.2).filterMap (fun cp => (f cp).bus)).sum)), (.plain, none)])

end Spec

section
variable [LinearOrder K] [AddCommGroup K]

/-- Colour of a value. -/
def markOf (err : K) (colored : Bool) (p : PLim K) (x : Option K) : Mark :=
  if !colored then .plain else if outside err p x then .err else if p.isVar then .var else if p.isSet then .set else .plain

theorem printCell_eq (err : K) (b colored : Bool) (p : PLim K) (x : Option K) :
    printCell err b colored p x = if b then some (markOf err colored p x, x) else none := by
  unfold printCell markOf
  cases b <;> simp
  split_ifs <;> rfl

theorem outside_iff (err : K) (p : PLim K) (x : Option K) : outside err p x = true ↔ Spec.Beyond err p x := by
  cases x with
  | none => simp [outside, Spec.Beyond]
  | some v => simp [outside, Spec.Beyond]

theorem isMarked_iff (err : K) (colored : Bool) (p : PLim K) (x : Option K) (m : Mark) :
    Spec.IsMarked err colored p x m ↔ m = markOf err colored p x := by
  unfold Spec.IsMarked markOf
  rw [← outside_iff]
  cases colored <;> cases outside err p x <;> cases p.isVar <;> cases p.isSet <;> cases m <;> simp

/-- Cells of a component. -/
def rowCells (err : K) (v : PView K) (colored : Bool) (cols : List String) (o : Option CompObj) (row : List (Option K)) :
    List (Option (PCell K)) :=
  match o with
  | none => []
  | some cp => (cols.zip row).map (fun cx => printCell err (v.comp cp) colored (v.lim cp cx.1) cx.2)

theorem printRows_ok (err : K) (v : PView K) (colored : Bool) (s : NetTab) (cols : List String)
    (rows : Dict String (List (Option K))) (h : ∀ e ∈ rows, (s.getComp e.1).isSome) :
    printRows err v colored s cols rows = .ok (rows.map (fun e => (e.1, rowCells err v colored cols (s.getComp e.1) e.2))) := by
  induction rows with
  | nil => rfl
  | cons e es ih =>
    obtain ⟨cp, hcp⟩ := Option.isSome_iff_exists.1 (h e List.mem_cons_self)
    rw [printRows, ih (fun x hx => h x (List.mem_cons_of_mem _ hx))]
    simp [printRow, hcp, rowCells]

theorem mem_dropNa (rows : Dict String (List (Option (PCell K)))) (l : String) (cells : List (PCell K)) :
    (l, cells) ∈ dropNa rows ↔ ∃ r, (l, r) ∈ rows ∧ (∃ c ∈ r, c.isSome) ∧ cells = r.map (fun c => c.getD (.plain, none)) := by
  unfold dropNa
  simp only [List.mem_map, List.mem_filter, List.any_eq_true, Prod.exists, Prod.mk.injEq]
  constructor
  · rintro ⟨a, b, ⟨h1, h2⟩, rfl, rfl⟩
    exact ⟨b, h1, h2, rfl⟩
  · rintro ⟨r, h1, h2, rfl⟩
    exact ⟨l, r, ⟨h1, h2⟩, rfl, rfl⟩

theorem keys_dropNa (rows : Dict String (List (Option (PCell K)))) (h : rows.keys.Nodup) : (dropNa rows).keys.Nodup := by
  unfold dropNa Dict.keys
  rw [List.map_map]
  exact h.sublist (List.filter_sublist.map _)

/-- Printed rows of a class. -/
theorem mem_printed (err : K) (v : PView K) (colored : Bool) (s : NetTab) (cols : List String)
    (rows : Dict String (List (Option K))) (l : String) (cells : List (PCell K)) :
    (l, cells) ∈ dropNa (rows.map (fun e => (e.1, rowCells err v colored cols (s.getComp e.1) e.2))) ↔
      ∃ row cp, (l, row) ∈ rows ∧ s.getComp l = some cp ∧ v.comp cp = true ∧ cols.zip row ≠ [] ∧
        cells = (cols.zip row).map (fun cx => (markOf err colored (v.lim cp cx.1) cx.2, cx.2)) := by
  rw [mem_dropNa]
  constructor
  · rintro ⟨r, hr, ⟨c, hc, hs⟩, rfl⟩
    obtain ⟨⟨l', row⟩, he, heq⟩ := List.mem_map.1 hr
    obtain ⟨rfl, rfl⟩ := Prod.mk.inj heq
    simp only at hc hs
    cases hg : s.getComp l' with
    | none => simp [hg, rowCells] at hc
    | some cp =>
      simp only [hg, rowCells, printCell_eq] at hc ⊢
      cases hv : v.comp cp with
      | false =>
        simp only [hv, List.mem_map] at hc
        obtain ⟨_, _, rfl⟩ := hc
        simp at hs
      | true =>
        refine ⟨row, cp, he, rfl, hv, ?_, ?_⟩
        · intro h0; simp [h0] at hc
        · simp [List.map_map, Function.comp_def]
  · rintro ⟨row, cp, he, hg, hv, hz, rfl⟩
    refine ⟨_, List.mem_map_of_mem he, ?_, ?_⟩
    · simp only [hg, rowCells, printCell_eq, hv, if_true]
      obtain ⟨x, hx⟩ := List.exists_mem_of_ne_nil _ hz
      exact ⟨_, List.mem_map_of_mem hx, rfl⟩
    · simp [hg, rowCells, printCell_eq, hv, List.map_map, Function.comp_def]

/-- The printed table of a class. -/
def classTable (err : K) (v : PView K) (colored : Bool) (s : NetTab) (t : Dict String (RTable K)) (c : String) :
    List (PTable K) :=
  match t.get? c with
  | none => []
  | some tb =>
    let p := dropNa (tb.rows.map (fun e => (e.1, rowCells err v colored tb.cols (s.getComp e.1) e.2)))
    if p = [] then [] else [.comps c tb.cols p]

theorem printClass_ok (err : K) (v : PView K) (colored : Bool) (s : NetTab) (t : Dict String (RTable K)) (c : String)
    {tb : RTable K} (ht : t.get? c = some tb) (h : ∀ e ∈ tb.rows, (s.getComp e.1).isSome) :
    printClass err v colored s t c = .ok (classTable err v colored s t c) := by
  unfold printClass classTable
  rw [ht]
  simp only
  split_ifs with h1 h2 h2
  · rw [printRows_ok _ _ _ _ _ _ h]
    simp [h2]
  · rw [printRows_ok _ _ _ _ _ _ h]
    simp only
    rw [if_pos (List.length_pos_iff.2 h2)]
  · rfl
  · exfalso
    obtain ⟨⟨l, cells⟩, hx⟩ := List.exists_mem_of_ne_nil _ h2
    obtain ⟨row, cp, he, -, -, hz, -⟩ := (mem_printed _ _ _ _ _ _ _ _).1 hx
    have e1 : 0 < tb.rows.length := List.length_pos_iff.2 (List.ne_nil_of_mem he)
    have e2 : 0 < tb.cols.length := List.length_pos_iff.2 (by rintro h0; simp [h0] at hz)
    exact h1 (Nat.mul_pos e1 e2)

theorem printClasses_ok (err : K) (v : PView K) (colored : Bool) (s : NetTab) (t : Dict String (RTable K)) (cs : List String)
    (h : ∀ c ∈ cs, ∃ tb, t.get? c = some tb ∧ ∀ e ∈ tb.rows, (s.getComp e.1).isSome) :
    printClasses err v colored s t cs = .ok (cs.flatMap (classTable err v colored s t)) := by
  induction cs with
  | nil => rfl
  | cons c cs ih =>
    obtain ⟨tb, ht, hr⟩ := h c List.mem_cons_self
    rw [printClasses, printClass_ok _ _ _ _ _ _ ht hr, ih (fun x hx => h x (List.mem_cons_of_mem _ hx))]
    rfl

/-- Cells of a connection. -/
def connCells (v : PView K) (colored : Bool) (cols : List String) (c : ConnObj) (row : List (Option K)) : List (PCell K) :=
  connPrintCols.map (fun p => if colored && v.spec c p then (Mark.set, v.specVal c p) else (Mark.plain, cellAt cols row p))

/-- The printed row of a connection. -/
def connRow (v : PView K) (colored : Bool) (s : NetTab) (cols : List String) (e : String × List (Option K)) :
    Option (String × List (PCell K)) :=
  match s.getConn e.1 with
  | none => none
  | some c => if v.conn c then some (e.1, connCells v colored cols c e.2) else none

omit [LinearOrder K] [AddCommGroup K] in
theorem printConns_ok (v : PView K) (colored : Bool) (s : NetTab) (cols : List String)
    (rows : Dict String (List (Option K))) (h : ∀ e ∈ rows, (s.getConn e.1).isSome) :
    printConns v colored s cols rows = .ok (rows.filterMap (connRow v colored s cols)) := by
  induction rows with
  | nil => rfl
  | cons e es ih =>
    obtain ⟨c, hc⟩ := Option.isSome_iff_exists.1 (h e List.mem_cons_self)
    rw [printConns, hc]
    simp only
    rw [ih (fun x hx => h x (List.mem_cons_of_mem _ hx))]
    simp only [List.filterMap_cons, connRow, hc]
    cases hv : v.conn c <;> simp [connCells]

omit [LinearOrder K] [AddCommGroup K] in
theorem cellAt_map (cols : List String) (f : String → Option K) (p : String) (hp : p ∈ cols) :
    cellAt cols (cols.map f) p = f p := by
  unfold cellAt
  induction cols with
  | nil => simp at hp
  | cons c cols ih =>
    simp only [List.map_cons, List.zip_cons_cons, List.find?_cons]
    by_cases hc : c = p
    · simp [hc]
    · simp only [hc, decide_false]
      exact ih ((List.mem_cons.1 hp).resolve_left (fun h => hc h.symm))

/-- The printed table of a bus. -/
def busTable (v : PView K) (colored : Bool) (b : LabObj) (tb : RTable K) : Dict String (List (PCell K)) :=
  Dict.set (tb.rows.map (fun e => (e.1, busPrintCols.map (fun c => (Mark.plain, cellAt tb.cols e.2 c))))) "total"
    [(.plain, some (sumSkip (tb.rows.map (fun e => cellAt tb.cols e.2 "component value")))),
      (if colored && v.busSet b then .set else .plain,
        some (sumSkip (tb.rows.map (fun e => cellAt tb.cols e.2 "bus value")))), (.plain, none)]

/-- The printed tables of a bus. -/
def busTables (v : PView K) (colored : Bool) (t : Dict String (RTable K)) (b : LabObj) : List (PTable K) :=
  match t.get? b.label with
  | none => []
  | some tb => if v.bus b then [.bus b.label (busTable v colored b tb)] else []

omit [LinearOrder K] in
theorem printBusses_ok (v : PView K) (colored : Bool) (t : Dict String (RTable K)) (bs : List LabObj)
    (h : ∀ b ∈ bs, ∃ tb, t.get? b.label = some tb ∧ tb.cols = busCols) :
    printBusses v colored t bs = .ok (bs.flatMap (busTables v colored t)) := by
  induction bs with
  | nil => rfl
  | cons b bs ih =>
    obtain ⟨tb, ht, hr⟩ := h b List.mem_cons_self
    have hall : busPrintCols.all (fun c => decide (c ∈ tb.cols)) = true := by rw [hr]; decide +kernel
    rw [printBusses, printBus]
    cases hv : v.bus b with
    | false =>
      simp only [Bool.false_eq_true, if_false]
      rw [ih (fun x hx => h x (List.mem_cons_of_mem _ hx))]
      simp [busTables, ht, hv]
    | true =>
      simp only [if_true, ht, hall]
      rw [ih (fun x hx => h x (List.mem_cons_of_mem _ hx))]
      simp only [List.flatMap_cons, busTables, ht, hv, if_true, busTable]

/-- Rows of the printed table of connections. -/
def connRows (v : PView K) (colored : Bool) (s : NetTab) (tb : RTable K) : Dict String (List (PCell K)) :=
  tb.rows.filterMap (connRow v colored s tb.cols)

/-- Everything printed. -/
def printed (err : K) (v : PView K) (colored : Bool) (r : ResNet K) (tb : RTable K) : List (PTable K) :=
  (uniqueTypes r).flatMap (classTable err v colored r.tab r.tables) ++
    (if (connRows v colored r.tab tb).length > 0 then [.conns (connRows v colored r.tab tb)] else []) ++
    (r.busses.map Prod.snd).flatMap (busTables v colored r.tables)

theorem print_ok (err : K) (v : PView K) (colored : Bool) (r : ResNet K) {tb : RTable K}
    (h1 : ∀ c ∈ uniqueTypes r, ∃ tb, r.tables.get? c = some tb ∧ ∀ e ∈ tb.rows, (r.tab.getComp e.1).isSome)
    (h2 : r.tables.get? "Connection" = some tb) (h3 : ∀ c ∈ connPrintCols, c ∈ tb.cols)
    (h4 : ∀ e ∈ tb.rows, (r.tab.getConn e.1).isSome)
    (h5 : ∀ b ∈ r.busses.map Prod.snd, ∃ tb, r.tables.get? b.label = some tb ∧ tb.cols = busCols) :
    r.print err v colored = .ok (printed err v colored r tb) := by
  unfold ResNet.print
  rw [printClasses_ok _ _ _ _ _ _ h1, h2]
  have : connPrintCols.all (fun c => decide (c ∈ tb.cols)) = true := by simpa using h3
  simp only [this, if_true]
  rw [printConns_ok _ _ _ _ _ h4, printBusses_ok _ _ _ _ h5]
  rfl

theorem classNames (err : K) (v : PView K) (colored : Bool) (s : NetTab) (t : Dict String (RTable K)) (cs : List String) :
    ((cs.flatMap (classTable err v colored s t)).map Spec.tableName).Sublist (cs.map (fun c => ("class", c))) := by
  induction cs with
  | nil => exact List.Sublist.refl _
  | cons c cs ih =>
    rw [List.flatMap_cons, List.map_append, List.map_cons]
    unfold classTable
    cases Dict.get? t c with
    | none => exact ih.cons _
    | some tb =>
      simp only
      split_ifs
      · exact ih.cons _
      · exact ih.cons₂ _

theorem busNames (v : PView K) (colored : Bool) (t : Dict String (RTable K)) (bs : List LabObj) :
    ((bs.flatMap (busTables v colored t)).map Spec.tableName).Sublist (bs.map (fun b => ("bus", b.label))) := by
  induction bs with
  | nil => exact List.Sublist.refl _
  | cons b bs ih =>
    rw [List.flatMap_cons, List.map_append, List.map_cons]
    unfold busTables
    cases Dict.get? t b.label with
    | none => exact ih.cons _
    | some tb =>
      simp only
      split_ifs
      · exact ih.cons₂ _
      · exact ih.cons _

omit [LinearOrder K] [AddCommGroup K] in
theorem mem_uniqueTypes (r : ResNet K) (c : String) : c ∈ uniqueTypes r ↔ ∃ e ∈ r.comps, e.2.ctype = c := by
  simp [uniqueTypes]

omit [LinearOrder K] [AddCommGroup K] in
theorem nodup_uniqueTypes (r : ResNet K) : (uniqueTypes r).Nodup := List.nodup_reverse.2 (List.nodup_dedup _)

theorem printed_once (err : K) (v : PView K) (colored : Bool) (r : ResNet K) (tb : RTable K)
    (hb : (r.busses.map (fun e => e.2.label)).Nodup) : ((printed err v colored r tb).map Spec.tableName).Nodup := by
  unfold printed
  rw [List.map_append, List.map_append]
  have h1 : ((if (connRows v colored r.tab tb).length > 0 then [PTable.conns (connRows v colored r.tab tb)] else
      []).map Spec.tableName).Sublist [("connections", "")] := by
    split_ifs
    · exact List.Sublist.refl _
    · exact List.nil_sublist _
  have h := ((classNames err v colored r.tab r.tables (uniqueTypes r)).append h1).append
    (busNames v colored r.tables (r.busses.map Prod.snd))
  refine List.Nodup.sublist h ?_
  rw [List.nodup_append, List.nodup_append]
  refine ⟨⟨(nodup_uniqueTypes r).map (fun a b h => by simpa using h), by simp, ?_⟩, ?_, ?_⟩
  · intro a ha b hb' e
    simp at ha hb'
    obtain ⟨x, -, rfl⟩ := ha
    subst hb'
    simp at e
  · rw [List.map_map]
    have : ((r.busses.map (fun e => e.2.label)).map (fun l => ("bus", l))).Nodup := hb.map (fun a b h => by simpa using h)
    simpa [List.map_map, Function.comp_def] using this
  · intro a ha b hb' e
    subst e
    simp only [List.mem_map] at hb'
    obtain ⟨x, -, rfl⟩ := hb'
    simp at ha

theorem mem_classTable (err : K) (v : PView K) (colored : Bool) (s : NetTab) (t : Dict String (RTable K)) (c : String)
    (x : PTable K) : x ∈ classTable err v colored s t c ↔ ∃ tb, t.get? c = some tb ∧
      dropNa (tb.rows.map (fun e => (e.1, rowCells err v colored tb.cols (s.getComp e.1) e.2))) ≠ [] ∧
      x = .comps c tb.cols (dropNa (tb.rows.map (fun e => (e.1, rowCells err v colored tb.cols (s.getComp e.1) e.2)))) := by
  unfold classTable
  cases Dict.get? t c with
  | none => simp
  | some tb =>
    simp only [Option.some.injEq, exists_eq_left']
    split_ifs with h <;> simp [h]

theorem mem_busTables (v : PView K) (colored : Bool) (t : Dict String (RTable K)) (b : LabObj)
    (x : PTable K) : x ∈ busTables v colored t b ↔ ∃ tb, t.get? b.label = some tb ∧ v.bus b = true ∧
      x = .bus b.label (busTable v colored b tb) := by
  unfold busTables
  cases Dict.get? t b.label with
  | none => simp
  | some tb =>
    simp only [Option.some.injEq, exists_eq_left']
    split_ifs with h <;> simp [h]

theorem mem_printed_tables (err : K) (v : PView K) (colored : Bool) (r : ResNet K) (tb : RTable K) (x : PTable K) :
    x ∈ printed err v colored r tb ↔ (∃ c ∈ uniqueTypes r, x ∈ classTable err v colored r.tab r.tables c) ∨
      (connRows v colored r.tab tb ≠ [] ∧ x = .conns (connRows v colored r.tab tb)) ∨
      ∃ e ∈ r.busses, x ∈ busTables v colored r.tables e.2 := by
  unfold printed
  simp only [List.mem_append, List.mem_flatMap, or_assoc]
  refine or_congr Iff.rfl (or_congr ?_ ⟨?_, ?_⟩)
  split_ifs with h
  · simp [List.length_pos_iff.1 h]
  · have : connRows v colored r.tab tb = [] := by simpa using h
    simp [this]
  · rintro ⟨b, hb, hx⟩
    obtain ⟨e, he, rfl⟩ := List.mem_map.1 hb
    exact ⟨e, he, hx⟩
  · rintro ⟨e, he, hx⟩
    exact ⟨e.2, List.mem_map_of_mem he, hx⟩

theorem forall₂_cells {err : K} {v : PView K} {colored : Bool} {d : PostData K} {cp : CompObj} (cols : List String)
    (cells : List (PCell K)) :
    List.Forall₂ (fun c (x : PCell K) => ∃ p, d.param cp c = some p ∧ Spec.IsEntry p x.2 ∧
        Spec.IsMarked err colored (v.lim cp c) x.2 x.1) cols cells ↔
      ∃ row, List.Forall₂ (fun c x => ∃ p, d.param cp c = some p ∧ Spec.IsEntry p x) cols row ∧
        cells = (cols.zip row).map (fun cx => (markOf err colored (v.lim cp cx.1) cx.2, cx.2)) := by
  induction cols generalizing cells with
  | nil =>
    constructor
    · intro h; cases h; exact ⟨[], List.Forall₂.nil, rfl⟩
    · rintro ⟨row, h, rfl⟩; cases h; exact List.Forall₂.nil
  | cons c cols ih =>
    constructor
    · intro h
      rcases h with _ | @⟨_, x, _, _, h1, h2⟩
      · obtain ⟨p, a, b, m⟩ := h1
        obtain ⟨row, h3, rfl⟩ := (ih _).1 h2
        refine ⟨x.2 :: row, List.Forall₂.cons ⟨p, a, b⟩ h3, ?_⟩
        rw [isMarked_iff] at m
        simp [← m]
    · rintro ⟨row, h, rfl⟩
      cases h with
      | cons h1 h2 =>
        obtain ⟨p, a, b⟩ := h1
        simp only [List.zip_cons_cons, List.map_cons]
        exact List.Forall₂.cons ⟨p, a, b, (isMarked_iff _ _ _ _ _).2 rfl⟩ ((ih _).2 ⟨_, h2, rfl⟩)

omit [LinearOrder K] [AddCommGroup K] in
theorem forall₂_connCells {v : PView K} {colored : Bool} {d : PostData K} (hd : ∀ p ∈ connPrintCols, p ∈ d.connCols)
    (c : ConnObj) (cells : List (PCell K)) :
    List.Forall₂ (fun p (x : PCell K) =>
        if colored = true ∧ v.spec c p = true then x = (.set, v.specVal c p) else x = (.plain, d.conn c p))
        ["m", "p", "h", "T", "x"] cells ↔ cells = connCells v colored d.connCols c (d.connCols.map (d.conn c)) := by
  have key : ∀ l : List String, (∀ p ∈ l, p ∈ d.connCols) → ∀ cells : List (PCell K),
      (List.Forall₂ (fun p (x : PCell K) =>
        if colored = true ∧ v.spec c p = true then x = (.set, v.specVal c p) else x = (.plain, d.conn c p)) l cells ↔
      cells = l.map (fun p => if colored && v.spec c p then (Mark.set, v.specVal c p)
        else (Mark.plain, cellAt d.connCols (d.connCols.map (d.conn c)) p))) := by
    intro l
    induction l with
    | nil => intro _ cells; cases cells <;> simp
    | cons p l ih =>
      intro hl cells
      have hp := cellAt_map d.connCols (d.conn c) p (hl p List.mem_cons_self)
      cases cells with
      | nil => simp
      | cons x cells =>
        rw [List.forall₂_cons, ih (fun q hq => hl q (List.mem_cons_of_mem _ hq)), List.map_cons, List.cons.injEq, hp]
        refine and_congr ?_ Iff.rfl
        by_cases h : colored = true ∧ v.spec c p = true
        · rw [if_pos h]; simp [h.1, h.2]
        · rw [if_neg h, if_neg (by simpa using h)]
  exact key _ hd cells

omit [LinearOrder K] in
theorem sumSkip_perm {l l' : List (Option K)} (h : l.Perm l') : sumSkip l = sumSkip l' := (h.filterMap id).sum_eq

/-- C105: after a calculation `print_results` shows the network: a table for each class with a row for each component with
printout, a table of the connections with printout, a table for each bus with printout, all with the values of this
calculation; values of components beyond their limits, variables and specified values are coloured, as are specified values of
connections and busses. Partial: rows of components called `total` are not found in the tables of busses (C105_total_false),
and specified values of connections are shown as they are at the time of the printout (C105_later_false). -/
theorem C105_prints_partial {classes : String → Prop} {cols : String → List String}
    {chk : NetTab → Option PyErr} (hcl : ¬ classes "Connection") (ops : List (ResOp K))
    (hp : Spec.ProperRun classes cols chk {} ops) (d : PostData K) {r : ResNet K}
    (hd : ∀ p ∈ ["m", "p", "h", "T", "x"], p ∈ d.connCols)
    (h : (ResNet.run cols chk {} ops).step cols chk (.solve d .post) = (r, none)) (err : K) (v : PView K) (colored : Bool) :
    ∃ out, r.print err v colored = .ok out ∧ Spec.Prints err cols d r v colored out := by
  have hD := C94_describes_partial hcl ops hp d h
  have hi : ResInv classes cols r := by
    have := step_inv (chk := chk) hcl (rtRun_inv (chk := chk) hcl (resInv_empty classes cols) ops hp) (.solve d .post) trivial
    rwa [h] at this
  have hcomp : ∀ l cp, r.tab.getComp l = some cp ↔ (l, cp) ∈ r.comps := fun l cp =>
    ⟨fun h => Dict.mem_of_get? h, fun h => Dict.get?_of_mem hi.lab.comps h⟩
  have hconn : ∀ l c, r.tab.getConn l = some c ↔ c ∈ r.conns ∧ c.label = l := getConn_iff hi.lab.conns
  obtain ⟨tc, htc, hcc, hcn, hcr⟩ := hD.conn
  have hbk : ∀ e ∈ r.busses, e.2.label = e.1 := hi.lab.busKey
  have hbt : ∀ e ∈ r.busses, ∃ tb, r.tables.get? e.2.label = some tb ∧ tb.cols = busCols ∧ tb.rows.keys.Nodup := by
    intro e he
    rw [hbk e he]
    obtain ⟨tb, htb⟩ := Option.isSome_iff_exists.1 ((Dict.get?_isSome_iff _ _).2 (hi.bus e he).2.2)
    exact ⟨tb, htb, ((hi.ok _ _ htb).bus e.2 he).1, (hi.ok _ _ htb).nd⟩
  have hok := print_ok err v colored r (tb := tc) (by
      intro c hc
      obtain ⟨e, he, rfl⟩ := (mem_uniqueTypes r c).1 hc
      obtain ⟨tb, ht, -, -, hr⟩ := hD.comp e he
      refine ⟨tb, ht, fun x hx => ?_⟩
      obtain ⟨cp, h1, -, -⟩ := (hr x.1 x.2).1 hx
      rw [(hcomp x.1 cp).2 h1]; rfl) htc (by rw [hcc]; exact hd) (by
      intro x hx
      obtain ⟨c, h1, h2, -⟩ := (hcr x.1 x.2).1 hx
      rw [(hconn x.1 c).2 ⟨h1, h2⟩]; rfl) (by
      intro b hb
      obtain ⟨e, he, rfl⟩ := List.mem_map.1 hb
      obtain ⟨tb, h1, h2, -⟩ := hbt e he
      exact ⟨tb, h1, h2⟩)
  refine ⟨_, hok, ?_⟩
  -- rows of a class
  have hrows : ∀ t tb, r.tables.get? t = some tb → (∃ e ∈ r.comps, e.2.ctype = t) → tb.cols = cols t ∧ tb.rows.keys.Nodup ∧
      ∀ l cells, (l, cells) ∈ dropNa (tb.rows.map (fun e => (e.1, rowCells err v colored tb.cols (r.tab.getComp e.1) e.2))) ↔
        ∃ cp, (l, cp) ∈ r.comps ∧ cp.ctype = t ∧ v.comp cp = true ∧ cols t ≠ [] ∧
          List.Forall₂ (fun c (x : PCell K) => ∃ p, d.param cp c = some p ∧ Spec.IsEntry p x.2 ∧
            Spec.IsMarked err colored (v.lim cp c) x.2 x.1) (cols t) cells := by
    rintro t tb ht ⟨e, he, rfl⟩
    obtain ⟨tb', ht', hc, hn, hr⟩ := hD.comp e he
    rw [ht] at ht'
    obtain rfl := Option.some.inj ht'
    refine ⟨hc, hn, fun l cells => ?_⟩
    rw [mem_printed]
    constructor
    · rintro ⟨row, cp, h1, h2, h3, h4, rfl⟩
      obtain ⟨cp', h5, h6, h7⟩ := (hr l row).1 h1
      rw [(hcomp l cp').2 h5] at h2
      obtain rfl := Option.some.inj h2
      refine ⟨cp', h5, h6, h3, ?_, (forall₂_cells _ _).2 ⟨row, h7, by rw [hc]⟩⟩
      intro h0
      rw [hc, h0] at h4
      simp at h4
    · rintro ⟨cp, h1, h2, h3, h4, h5⟩
      obtain ⟨row, h6, rfl⟩ := (forall₂_cells _ _).1 h5
      refine ⟨row, cp, (hr l row).2 ⟨cp, h1, h2, h6⟩, (hcomp l cp).2 h1, h3, ?_, by rw [hc]⟩
      rw [hc]
      intro h0
      have hl := h6.length_eq
      cases hcols : cols e.2.ctype with
      | nil => exact h4 hcols
      | cons a as =>
        cases row with
        | nil => rw [hcols] at hl; simp at hl
        | cons b bs => rw [hcols] at h0; simp at h0
  have hcrows : ∀ l cells, (l, cells) ∈ connRows v colored r.tab tc ↔ ∃ c ∈ r.conns, c.label = l ∧ v.conn c = true ∧
      List.Forall₂ (fun p (x : PCell K) =>
        if colored = true ∧ v.spec c p = true then x = (.set, v.specVal c p) else x = (.plain, d.conn c p))
        ["m", "p", "h", "T", "x"] cells := by
    intro l cells
    unfold connRows
    rw [List.mem_filterMap]
    constructor
    · rintro ⟨⟨l', row⟩, h1, h2⟩
      unfold connRow at h2
      cases hg : r.tab.getConn l' with
      | none => simp [hg] at h2
      | some c =>
        simp only [hg] at h2
        split_ifs at h2 with hv
        simp only [Option.some.injEq, Prod.mk.injEq] at h2
        obtain ⟨rfl, rfl⟩ := h2
        obtain ⟨c', h3, h4, rfl⟩ := (hcr _ _).1 h1
        rw [(hconn l' c').2 ⟨h3, h4⟩] at hg
        obtain rfl := Option.some.inj hg
        exact ⟨c', h3, h4, hv, (forall₂_connCells hd c' _).2 (by rw [hcc])⟩
    · rintro ⟨c, h1, h2, h3, h4⟩
      refine ⟨(l, d.connCols.map (d.conn c)), (hcr _ _).2 ⟨c, h1, h2, rfl⟩, ?_⟩
      unfold connRow
      simp only [(hconn l c).2 ⟨h1, h2⟩, h3, if_true]
      rw [(forall₂_connCells hd c cells).1 h4, hcc]
  refine ⟨?_, ?_, ?_, ?_, ?_, ?_, ?_⟩
  · apply printed_once
    have : r.busses.map (fun e => e.2.label) = r.busses.keys := List.map_congr_left hbk
    rw [this]
    exact hi.lab.busses
  · intro t cs rows hx
    rcases (mem_printed_tables _ _ _ _ _ _).1 hx with ⟨c, hc, hx⟩ | ⟨-, hx⟩ | ⟨e, he, hx⟩
    · obtain ⟨tb, ht, hne, heq⟩ := (mem_classTable _ _ _ _ _ _ _).1 hx
      simp only [PTable.comps.injEq] at heq
      obtain ⟨rfl, rfl, rfl⟩ := heq
      obtain ⟨a, b, m⟩ := hrows t tb ht ((mem_uniqueTypes r t).1 hc)
      have hk : (tb.rows.map (fun e => (e.1, rowCells err v colored tb.cols (r.tab.getComp e.1) e.2))).map Prod.fst
          = tb.rows.keys := by simp [Dict.keys, List.map_map, Function.comp_def]
      refine ⟨a, keys_dropNa _ (by unfold Dict.keys; rw [hk]; exact b), fun l cells => ?_⟩
      obtain ⟨⟨l0, c0⟩, h0⟩ := List.exists_mem_of_ne_nil _ hne
      obtain ⟨-, -, -, -, hcols, -⟩ := (m l0 c0).1 h0
      rw [m]
      constructor
      · rintro ⟨cp, h1, h2, h3, -, h5⟩; exact ⟨cp, h1, h2, h3, h5⟩
      · rintro ⟨cp, h1, h2, h3, h5⟩; exact ⟨cp, h1, h2, h3, hcols, h5⟩
    · cases hx
    · obtain ⟨tb, -, -, hx⟩ := (mem_busTables _ _ _ _ _).1 hx
      cases hx
  · intro e he hv hcols
    obtain ⟨tb, ht, hc, hn, hr⟩ := hD.comp e he
    obtain ⟨a, b, m⟩ := hrows e.2.ctype tb ht ⟨e, he, rfl⟩
    have hex : ∀ l : List String, (∀ c ∈ l, ∃ p, d.param e.2 c = some p) → ∃ cells : List (PCell K),
        List.Forall₂ (fun c (x : PCell K) => ∃ p, d.param e.2 c = some p ∧ Spec.IsEntry p x.2 ∧
          Spec.IsMarked err colored (v.lim e.2 c) x.2 x.1) l cells := by
      intro l
      induction l with
      | nil => intro _; exact ⟨[], List.Forall₂.nil⟩
      | cons c l ih =>
        intro hl
        obtain ⟨cells, hc⟩ := ih (fun x hx => hl x (List.mem_cons_of_mem _ hx))
        obtain ⟨p, hp⟩ := hl c List.mem_cons_self
        exact ⟨(markOf err colored (v.lim e.2 c) p.cell, p.cell) :: cells,
          List.Forall₂.cons ⟨p, hp, (isEntry_iff p _).2 rfl, (isMarked_iff _ _ _ _ _).2 rfl⟩ hc⟩
    obtain ⟨cells, hcells⟩ := hex _ (hD.all e he)
    refine ⟨_, (mem_printed_tables _ _ _ _ _ _).2 (Or.inl ⟨e.2.ctype, (mem_uniqueTypes r _).2 ⟨e, he, rfl⟩,
      (mem_classTable _ _ _ _ _ _ _).2 ⟨tb, ht, ?_, by rw [hc]⟩⟩)⟩
    exact List.ne_nil_of_mem ((m e.1 cells).2 ⟨e.2, he, rfl, hv, hcols, hcells⟩)
  · intro rows hx
    rcases (mem_printed_tables _ _ _ _ _ _).1 hx with ⟨c, hc, hx⟩ | ⟨-, hx⟩ | ⟨e, he, hx⟩
    · obtain ⟨tb, -, -, hx⟩ := (mem_classTable _ _ _ _ _ _ _).1 hx
      cases hx
    · obtain rfl := PTable.conns.inj hx
      refine ⟨?_, hcrows⟩
      have hsub : ∀ l : Dict String (List (Option K)),
          ((l.filterMap (connRow v colored r.tab tc.cols)).map Prod.fst).Sublist (l.map Prod.fst) := by
        intro l
        induction l with
        | nil => exact List.Sublist.refl _
        | cons x l ih =>
          rw [List.filterMap_cons]
          cases hq : connRow v colored r.tab tc.cols x with
          | none => exact ih.cons _
          | some y =>
            have hy : y.1 = x.1 := by
              unfold connRow at hq
              cases hg : r.tab.getConn x.1 with
              | none => simp [hg] at hq
              | some c =>
                simp only [hg] at hq
                split_ifs at hq
                rw [← Option.some.inj hq]
            simp only [List.map_cons, hy]
            exact ih.cons₂ _
      exact hcn.sublist (hsub tc.rows)
    · obtain ⟨tb, -, -, hx⟩ := (mem_busTables _ _ _ _ _).1 hx
      cases hx
  · rintro ⟨c, hc, hv⟩
    refine ⟨_, (mem_printed_tables _ _ _ _ _ _).2 (Or.inr (Or.inl ⟨?_, rfl⟩))⟩
    exact List.ne_nil_of_mem ((hcrows c.label _).2 ⟨c, hc, rfl, hv, (forall₂_connCells hd c _).2 rfl⟩)
  · intro l rows hx
    rcases (mem_printed_tables _ _ _ _ _ _).1 hx with ⟨c, hc, hx⟩ | ⟨-, hx⟩ | ⟨e, he, hx⟩
    · obtain ⟨tb, -, -, hx⟩ := (mem_classTable _ _ _ _ _ _ _).1 hx
      cases hx
    · cases hx
    · obtain ⟨tb, -, hv, hx⟩ := (mem_busTables _ _ _ _ _).1 hx
      simp only [PTable.bus.injEq] at hx
      refine ⟨e.2, ?_, hv⟩
      rw [hx.1, hbk e he]
      exact he
  · intro e he hv
    obtain ⟨tb, ht, hc, hn⟩ := hbt e he
    have hke : ((tb.rows.map (fun x => (x.1, busPrintCols.map (fun c => (Mark.plain, cellAt tb.cols x.2 c))))).map Prod.fst)
        = tb.rows.keys := by simp [Dict.keys, List.map_map, Function.comp_def]
    have hnd : (Dict.keys (tb.rows.map (fun x => (x.1, busPrintCols.map (fun c => (Mark.plain, cellAt tb.cols x.2 c)))))).Nodup := by
      unfold Dict.keys; rw [hke]; exact hn
    refine ⟨busTable v colored e.2 tb, (mem_printed_tables _ _ _ _ _ _).2 (Or.inr (Or.inr ⟨e, he,
      (mem_busTables _ _ _ _ _).2 ⟨tb, ht, hv, by rw [hbk e he]⟩⟩)), Dict.nodup_keys_set _ _ hnd, fun hlab => ?_⟩
    obtain ⟨⟨tb', ht', -, -, hr⟩, f, hf, -⟩ := hD.bus e he hlab
    rw [← hbk e he, ht] at ht'
    obtain rfl := Option.some.inj ht'
    -- the rows are a permutation of those of the components
    have hperm : tb.rows.Perm ((r.busComps e.2).map (fun cp => (cp.label, (f cp).row))) := by
      rw [List.perm_ext_iff_of_nodup hn.of_map]
      · rintro ⟨l, row⟩
        rw [hr]
        simp only [List.mem_map, Prod.mk.injEq]
        constructor
        · rintro ⟨cp, h1, h2, v', h3, rfl⟩
          rw [hf cp h1] at h3
          obtain rfl := Except.ok.inj h3
          exact ⟨cp, h1, h2, rfl⟩
        · rintro ⟨cp, h1, h2, rfl⟩
          exact ⟨cp, h1, h2, f cp, hf cp h1, rfl⟩
      · refine List.Nodup.of_map Prod.fst ?_
        rw [List.map_map]
        exact hlab
    have hsum : ∀ (c : String) (g : BusVals K → Option K), (∀ x : BusVals K, cellAt busCols x.row c = g x) →
        sumSkip (tb.rows.map (fun x => cellAt tb.cols x.2 c)) = ((r.busComps e.2).filterMap (fun cp => g (f cp))).sum := by
      intro c g hg
      rw [sumSkip_perm (hperm.map _), List.map_map, hc]
      unfold sumSkip
      rw [List.filterMap_map]
      congr 1
      refine List.filterMap_congr (fun cp _ => ?_)
      simp [hg]
    have hget : (busTable v colored e.2 tb).keys.Nodup := Dict.nodup_keys_set _ _ hnd
    have hmem : ∀ l cells, (l, cells) ∈ busTable v colored e.2 tb ↔ (busTable v colored e.2 tb).get? l = some cells :=
      fun l cells => ⟨fun h => Dict.get?_of_mem hget h, fun h => Dict.mem_of_get? h⟩
    refine ⟨f, hf, ?_, ?_⟩
    · intro l cells hl
      rw [hmem]
      unfold busTable
      rw [Dict.get?_set, if_neg hl]
      constructor
      · intro h1
        obtain ⟨⟨l', row⟩, h2, h3⟩ := List.mem_map.1 (Dict.mem_of_get? h1)
        simp only [Prod.mk.injEq] at h3
        obtain ⟨rfl, rfl⟩ := h3
        obtain ⟨cp, h4, h5, v', h6, rfl⟩ := (hr _ _).1 h2
        rw [hf cp h4] at h6
        obtain rfl := Except.ok.inj h6
        exact ⟨cp, h4, h5, by rw [hc]; rfl⟩
      · rintro ⟨cp, h4, h5, rfl⟩
        refine Dict.get?_of_mem hnd ?_
        refine List.mem_map.2 ⟨(l, (f cp).row), (hr _ _).2 ⟨cp, h4, h5, f cp, hf cp h4, rfl⟩, ?_⟩
        rw [hc]; rfl
    · intro cells
      rw [hmem]
      unfold busTable
      rw [Dict.get?_set, if_pos rfl, hsum "component value" BusVals.comp (fun _ => rfl),
        hsum "bus value" BusVals.bus (fun _ => rfl)]
      simp only [Option.some.injEq, Bool.and_eq_true]
      exact eq_comm

/-- C105: if the specified values of connections are those of the calculation, i.e. no specification has been changed since, the
table of connections shows nothing but the results of the calculation, coloured or not. -/
theorem C105_connection_values {classes : String → Prop} {cols : String → List String}
    {chk : NetTab → Option PyErr} (hcl : ¬ classes "Connection") (ops : List (ResOp K))
    (hp : Spec.ProperRun classes cols chk {} ops) (d : PostData K) {r : ResNet K}
    (hd : ∀ p ∈ ["m", "p", "h", "T", "x"], p ∈ d.connCols)
    (h : (ResNet.run cols chk {} ops).step cols chk (.solve d .post) = (r, none)) (err : K) (v : PView K) (colored : Bool)
    (hv : ∀ c ∈ r.conns, ∀ p, v.spec c p = true → v.specVal c p = d.conn c p) :
    ∃ out, r.print err v colored = .ok out ∧ ∀ rows, PTable.conns rows ∈ out → ∀ l cells, (l, cells) ∈ rows →
      ∃ c ∈ r.conns, c.label = l ∧
        cells.map Prod.snd = [d.conn c "m", d.conn c "p", d.conn c "h", d.conn c "T", d.conn c "x"] := by
  obtain ⟨out, h1, h2⟩ := C105_prints_partial hcl ops hp d hd h err v colored
  refine ⟨out, h1, fun rows hr l cells hl => ?_⟩
  obtain ⟨c, hc, hlab, -, hcells⟩ := ((h2.conn rows hr).2 l cells).1 hl
  refine ⟨c, hc, hlab, ?_⟩
  have key : ∀ (ps : List String) (cells : List (PCell K)), List.Forall₂ (fun p (x : PCell K) =>
        if colored = true ∧ v.spec c p = true then x = (.set, v.specVal c p) else x = (.plain, d.conn c p)) ps cells →
      cells.map Prod.snd = ps.map (d.conn c) := by
    intro ps cells hf
    induction hf with
    | nil => rfl
    | cons hx _ ih =>
      rw [List.map_cons, List.map_cons, ih]
      split_ifs at hx with hs
      · rw [hx, hv c hc _ hs.2]
      · rw [hx]
  exact key _ _ hcells

/-- C105, the part that fails: a mass flow specified after the calculation is printed in the table of results, although
nothing has been calculated with it. -/
theorem C105_later_false {classes : String → Prop} {cols : String → List String}
    {chk : NetTab → Option PyErr} (hcl : ¬ classes "Connection") (ops : List (ResOp K))
    (hp : Spec.ProperRun classes cols chk {} ops) (d : PostData K) {r : ResNet K}
    (hd : ∀ p ∈ ["m", "p", "h", "T", "x"], p ∈ d.connCols)
    (h : (ResNet.run cols chk {} ops).step cols chk (.solve d .post) = (r, none)) (err : K) (v : PView K)
    (c : ConnObj) (hc : c ∈ r.conns) (hv : v.conn c = true) (hs : v.spec c "m" = true) :
    ∃ out rows x cells, r.print err v true = .ok out ∧ PTable.conns rows ∈ out ∧ (c.label, x :: cells) ∈ rows ∧
      x = (.set, v.specVal c "m") := by
  obtain ⟨out, h1, h2⟩ := C105_prints_partial hcl ops hp d hd h err v true
  obtain ⟨rows, hr⟩ := h2.connAll ⟨c, hc, hv⟩
  have hx := ((h2.conn rows hr).2 c.label _).2 ⟨c, hc, rfl, hv, (forall₂_connCells hd c _).2 rfl⟩
  refine ⟨out, rows, _, _, h1, hr, hx, ?_⟩
  simp [hs]

/-- C105, the part that fails: a component called `total` does not appear in the table of its bus. -/
theorem C105_total_false {classes : String → Prop} {cols : String → List String}
    {chk : NetTab → Option PyErr} (hcl : ¬ classes "Connection") (ops : List (ResOp K))
    (hp : Spec.ProperRun classes cols chk {} ops) (d : PostData K) {r : ResNet K}
    (hd : ∀ p ∈ ["m", "p", "h", "T", "x"], p ∈ d.connCols)
    (h : (ResNet.run cols chk {} ops).step cols chk (.solve d .post) = (r, none)) (err : K) (v : PView K) (colored : Bool)
    (e : String × LabObj) (he : e ∈ r.busses) (hv : v.bus e.2 = true) (hn : ((r.busComps e.2).map CompObj.label).Nodup)
    (cp : CompObj) (hcp : cp ∈ r.busComps e.2) (hl : cp.label = "total") (x : BusVals K) (hx : d.bus e.2 cp = .ok x)
    (hxe : x.eff ≠ none) :
    ∃ out rows, r.print err v colored = .ok out ∧ PTable.bus e.1 rows ∈ out ∧
      ∀ cells, (cp.label, cells) ∈ rows → cells.map Prod.snd ≠ [x.comp, x.bus, x.eff] := by
  obtain ⟨out, h1, h2⟩ := C105_prints_partial hcl ops hp d hd h err v colored
  obtain ⟨rows, hr, -, hf⟩ := h2.busAll e he hv
  obtain ⟨f, -, -, ht⟩ := hf hn
  refine ⟨out, rows, h1, hr, fun cells hc hcon => ?_⟩
  rw [hl] at hc
  rw [(ht cells).1 hc] at hcon
  simp only [List.map_cons, List.map_nil, List.cons.injEq, and_true] at hcon
  exact hxe hcon.2.2.symm

theorem printRows_err (err : K) (v : PView K) (colored : Bool) (s : NetTab) (cols : List String)
    (rows : Dict String (List (Option K))) : printRows err v colored s cols rows ≠ .error .networkError := by
  induction rows with
  | nil => intro h; cases h
  | cons e es ih =>
    rw [printRows, printRow]
    cases s.getComp e.1 with
    | none => intro h; cases h
    | some cp =>
      simp only
      cases hq : printRows err v colored s cols es with
      | error x => intro h; apply ih; rw [hq]; exact h
      | ok a => intro h; cases h

theorem printClasses_err (err : K) (v : PView K) (colored : Bool) (s : NetTab) (t : Dict String (RTable K))
    (cs : List String) : printClasses err v colored s t cs ≠ .error .networkError := by
  induction cs with
  | nil => intro h; cases h
  | cons c cs ih =>
    have hc : printClass err v colored s t c ≠ .error .networkError := by
      unfold printClass
      cases Dict.get? t c with
      | none => intro h; cases h
      | some tb =>
        simp only
        split_ifs
        · cases hq : printRows err v colored s tb.cols tb.rows with
          | error x =>
            intro h
            apply printRows_err err v colored s tb.cols tb.rows
            rw [hq, Except.error.inj h]
          | ok a => simp only; split_ifs <;> (intro h; cases h)
        · intro h; cases h
    rw [printClasses]
    cases hq : printClass err v colored s t c with
    | error x => intro h; apply hc; rw [hq]; exact h
    | ok a =>
      simp only
      cases hq2 : printClasses err v colored s t cs with
      | error x => intro h; apply ih; rw [hq2]; exact h
      | ok b => intro h; cases h

/-- C105, the part that fails: printing the results of a network that has never been solved ends with an exception, but never
with the TESPyNetworkError announced for this case. -/
theorem C105_never_solved_false (r : ResNet K) (err : K) (v : PView K) (colored : Bool)
    (h : r.tables.get? "Connection" = none) :
    ∃ e, r.print err v colored = .error e ∧ e ≠ .networkError := by
  unfold ResNet.print
  rw [h]
  cases hq : printClasses err v colored r.tab r.tables (uniqueTypes r) with
  | error x =>
    refine ⟨x, rfl, ?_⟩
    rintro rfl
    exact printClasses_err err v colored r.tab r.tables _ hq
  | ok a => exact ⟨.keyError, rfl, by decide⟩

omit [LinearOrder K] in
theorem printBusses_other (v : PView K) (colored : Bool) (t : Dict String (RTable K)) (tb : RTable K) (bs : List LabObj)
    (h : ∀ b ∈ bs, b.label ≠ "Connection") :
    printBusses v colored (t.set "Connection" tb) bs = printBusses v colored t bs := by
  induction bs with
  | nil => rfl
  | cons b bs ih =>
    have hb : printBus v colored (t.set "Connection" tb) b = printBus v colored t b := by
      unfold printBus
      rw [Dict.get?_set, if_neg (h b List.mem_cons_self)]
    rw [printBusses, printBusses, hb, ih (fun x hx => h x (List.mem_cons_of_mem _ hx))]

theorem printClasses_other (err : K) (v : PView K) (colored : Bool) (s : NetTab) (t : Dict String (RTable K)) (tb : RTable K)
    (cs : List String) (h : ∀ c ∈ cs, c ≠ "Connection") :
    printClasses err v colored s (t.set "Connection" tb) cs = printClasses err v colored s t cs := by
  induction cs with
  | nil => rfl
  | cons c cs ih =>
    have hb : printClass err v colored s (t.set "Connection" tb) c = printClass err v colored s t c := by
      unfold printClass
      rw [Dict.get?_set, if_neg (h c List.mem_cons_self)]
    rw [printClasses, printClasses, hb, ih (fun x hx => h x (List.mem_cons_of_mem _ hx))]

theorem printClasses_kind {err : K} {v : PView K} {colored : Bool} {s : NetTab} {t : Dict String (RTable K)}
    {cs : List String} {a : List (PTable K)} (h : printClasses err v colored s t cs = .ok a) :
    ∀ x ∈ a, ∃ c cl rows, x = .comps c cl rows := by
  induction cs generalizing a with
  | nil => cases h; simp
  | cons c cs ih =>
    rw [printClasses] at h
    cases hq : printClass err v colored s t c with
    | error x => rw [hq] at h; cases h
    | ok a1 =>
      rw [hq] at h
      simp only at h
      cases hq2 : printClasses err v colored s t cs with
      | error x => rw [hq2] at h; cases h
      | ok a2 =>
        rw [hq2] at h
        cases h
        intro x hx
        rcases List.mem_append.1 hx with hx | hx
        · unfold printClass at hq
          cases hg : Dict.get? t c with
          | none => rw [hg] at hq; cases hq
          | some tb =>
            rw [hg] at hq
            simp only at hq
            split_ifs at hq
            · cases hr : printRows err v colored s tb.cols tb.rows with
              | error x => rw [hr] at hq; cases hq
              | ok rows =>
                rw [hr] at hq
                simp only at hq
                split_ifs at hq <;> cases hq
                · exact ⟨_, _, _, List.mem_singleton.1 hx⟩
                · cases hx
            · cases hq; cases hx
        · exact ih hq2 x hx

omit [LinearOrder K] in
theorem printBusses_kind {v : PView K} {colored : Bool} {t : Dict String (RTable K)}
    {bs : List LabObj} {a : List (PTable K)} (h : printBusses v colored t bs = .ok a) :
    ∀ x ∈ a, ∃ l rows, x = .bus l rows := by
  induction bs generalizing a with
  | nil => cases h; simp
  | cons b bs ih =>
    rw [printBusses] at h
    cases hq : printBus v colored t b with
    | error x => rw [hq] at h; cases h
    | ok a1 =>
      rw [hq] at h
      simp only at h
      cases hq2 : printBusses v colored t bs with
      | error x => rw [hq2] at h; cases h
      | ok a2 =>
        rw [hq2] at h
        cases h
        intro x hx
        rcases List.mem_append.1 hx with hx | hx
        · unfold printBus at hq
          cases hv : v.bus b with
          | false =>
            rw [hv] at hq
            cases hq
            cases hx
          | true =>
            rw [hv, if_pos rfl] at hq
            cases hg : Dict.get? t b.label with
            | none => rw [hg] at hq; cases hq
            | some tb =>
              rw [hg] at hq
              simp only at hq
              by_cases hall : busPrintCols.all (fun c => decide (c ∈ tb.cols)) = true
              · rw [if_pos hall] at hq
                cases hq
                exact ⟨_, _, List.mem_singleton.1 hx⟩
              · rw [if_neg hall] at hq
                cases hq
        · exact ih hq2 x hx

/-- C105, the part that fails: after a calculation without results (singular matrix, no progress, initialisation only), the
tables of components and busses are printed as they were before, and the table of connections disappears without a
message. -/
theorem C105_failed_false {cols : String → List String} {chk : NetTab → Option PyErr} (r : ResNet K)
    (hck : r.checked = true) (hcl : ∀ e ∈ r.comps, e.2.ctype ≠ "Connection") (hbl : ∀ e ∈ r.busses, e.2.label ≠ "Connection")
    (d : PostData K) (hd : ∀ p ∈ ["m", "p", "h", "T", "x"], p ∈ d.connCols) (err : K) (v : PView K) (colored : Bool)
    (out : List (PTable K)) (h : r.print err v colored = .ok out) :
    (r.step cols chk (.solve d .noPost)).1.print err v colored
      = .ok (out.filter (fun x => match x with | .conns _ => false | _ => true)) := by
  have hs : (r.step cols chk (.solve d .noPost)).1 = { r with tables := r.tables.set "Connection" ⟨d.connCols, []⟩ } := by
    simp only [ResNet.step, ResNet.solve, ResNet.start]
    rw [if_pos hck]
  rw [hs]
  unfold ResNet.print at h ⊢
  have hcomps : ∀ cs, printClasses err v colored ({ r with tables := r.tables.set "Connection" ⟨d.connCols, []⟩ } : ResNet K).tab
      r.tables cs = printClasses err v colored r.tab r.tables cs := by
    have hrow : ∀ cl rows, printRows err v colored ({ r with tables := r.tables.set "Connection" ⟨d.connCols, []⟩ } : ResNet K).tab
        cl rows = printRows err v colored r.tab cl rows := by
      intro cl rows
      induction rows with
      | nil => rfl
      | cons e es ih => rw [printRows, printRows, ih]; rfl
    intro cs
    induction cs with
    | nil => rfl
    | cons c cs ih =>
      have hb : printClass err v colored ({ r with tables := r.tables.set "Connection" ⟨d.connCols, []⟩ } : ResNet K).tab
          r.tables c = printClass err v colored r.tab r.tables c := by
        unfold printClass
        simp only [hrow]
      rw [printClasses, printClasses, hb, ih]
  have hu : uniqueTypes ({ r with tables := r.tables.set "Connection" ⟨d.connCols, []⟩ } : ResNet K) = uniqueTypes r := rfl
  rw [hu]
  simp only
  rw [printClasses_other _ _ _ _ _ _ _ (fun c hc => by
    obtain ⟨e, he, rfl⟩ := (mem_uniqueTypes r c).1 hc
    exact hcl e he), hcomps, Dict.get?_set, if_pos rfl, printBusses_other _ _ _ _ _ (fun b hb => by
    obtain ⟨e, he, rfl⟩ := List.mem_map.1 hb
    exact hbl e he)]
  have hall : connPrintCols.all (fun c => decide (c ∈ d.connCols)) = true := by simpa [connPrintCols] using hd
  cases hq : printClasses err v colored r.tab r.tables (uniqueTypes r) with
  | error x => rw [hq] at h; cases h
  | ok a =>
    rw [hq] at h
    simp only [hall, if_true, printConns] at h ⊢
    cases hc : Dict.get? r.tables "Connection" with
    | none => rw [hc] at h; cases h
    | some tb =>
      rw [hc] at h
      simp only at h
      split_ifs at h with h1
      cases hq2 : printConns v colored r.tab tb.cols tb.rows with
      | error x => rw [hq2] at h; cases h
      | ok rows =>
        rw [hq2] at h
        simp only at h
        cases hq3 : printBusses v colored r.tables (r.busses.map Prod.snd) with
        | error x => rw [hq3] at h; cases h
        | ok b =>
          rw [hq3] at h
          simp only [Except.ok.injEq] at h
          subst h
          have fa : a.filter (fun x => match x with | .conns _ => false | _ => true) = a := by
            refine List.filter_eq_self.2 (fun x hx => ?_)
            obtain ⟨_, _, _, rfl⟩ := printClasses_kind hq x hx
            rfl
          have fb : b.filter (fun x => match x with | .conns _ => false | _ => true) = b := by
            refine List.filter_eq_self.2 (fun x hx => ?_)
            obtain ⟨_, _, rfl⟩ := printBusses_kind hq3 x hx
            rfl
          simp only [List.length_nil, gt_iff_lt, lt_self_iff_false, if_false, List.append_nil, List.filter_append, fa, fb]
          split_ifs <;> simp

end

/-! ### concrete printouts -/

/-- values of a calculation of the sample network with all properties of connections; the turbine has the label `name` -/
def pvData : PostData ℤ :=
  { rtData with
    connCols := ["m", "p", "h", "T", "x"]
    bus := fun _ cp => .ok ⟨some (if cp.id = 1 then -10 else -7), some (if cp.id = 1 then -9 else -6), some 1, none⟩ }

/-- the turbine is called `total` -/
def pvTur : CompObj := ⟨1, "total", "Turbine", ["in1"], ["out1"]⟩
/-- connections of this turbine -/
def pvC1 : ConnObj := ⟨0, "c1", rtSrc, "out1", pvTur, "in1"⟩
/-- second connection of this turbine -/
def pvC2 : ConnObj := ⟨1, "c2", pvTur, "out1", rtSnk, "in1"⟩

/-- everything is printed; the power of turbines is specified and limited to -8…0; the mass flow at `c1` is specified with 5
(the calculated value is 1) -/
def pvView : PView ℤ where
  comp := fun _ => true
  conn := fun _ => true
  bus := fun _ => true
  lim := fun _ n => ⟨-8, 0, false, n = "P"⟩
  spec := fun c p => c.label = "c1" && p = "m"
  specVal := fun _ _ => some 5
  busSet := fun _ => true

/-- a network with a turbine on a bus -/
def pvOps : List (ResOp ℤ) := [.addConns [some rtC1, some rtC2], .addBusses [some rtBus], .busAdd rtBus rtTur]
/-- the same with a turbine called `total` -/
def pvOpsT : List (ResOp ℤ) := [.addConns [some pvC1, some pvC2], .addBusses [some rtBus], .busAdd rtBus pvTur]

theorem pvOps_proper : Spec.ProperRun rtClasses rtCols (fun _ => none) {} pvOps := by
  refine ⟨⟨by decide +kernel, ?_⟩, ?_, trivial, trivial⟩
  · intro c hc
    simp only [List.mem_cons, Option.some.injEq, List.not_mem_nil, or_false] at hc
    rcases hc with rfl | rfl <;>
      exact ⟨by simp [rtClasses, rtC1, rtC2, rtSrc, rtTur], by simp [rtClasses, rtC1, rtC2, rtTur, rtSnk]⟩
  · intro b hb
    simp only [List.mem_cons, Option.some.injEq, List.not_mem_nil, or_false] at hb
    subst hb
    exact ⟨by simp [rtClasses, rtBus], by simp [rtBus]⟩

theorem pvOpsT_proper : Spec.ProperRun rtClasses rtCols (fun _ => none) {} pvOpsT := by
  refine ⟨⟨by decide +kernel, ?_⟩, ?_, trivial, trivial⟩
  · intro c hc
    simp only [List.mem_cons, Option.some.injEq, List.not_mem_nil, or_false] at hc
    rcases hc with rfl | rfl <;>
      exact ⟨by simp [rtClasses, pvC1, pvC2, rtSrc, pvTur], by simp [rtClasses, pvC1, pvC2, pvTur, rtSnk]⟩
  · intro b hb
    simp only [List.mem_cons, Option.some.injEq, List.not_mem_nil, or_false] at hb
    subst hb
    exact ⟨by simp [rtClasses, rtBus], by simp [rtBus]⟩

-- non-vacuity of C105_prints_partial, C105_later_false and C105_connection_values (there without the specification)
example : ¬ rtClasses "Connection" ∧ Spec.ProperRun rtClasses rtCols (fun _ => none) {} pvOps ∧
    (∀ p ∈ ["m", "p", "h", "T", "x"], p ∈ pvData.connCols) ∧
    ((ResNet.run rtCols (fun _ => none) {} pvOps).step rtCols (fun _ => none) (.solve pvData .post)).2 = none ∧
    rtC1 ∈ ((ResNet.run rtCols (fun _ => none) {} pvOps).step rtCols (fun _ => none) (.solve pvData .post)).1.conns ∧
    pvView.conn rtC1 = true ∧ pvView.spec rtC1 "m" = true ∧ pvView.specVal rtC1 "m" ≠ pvData.conn rtC1 "m" :=
  ⟨by simp [rtClasses], pvOps_proper, by decide +kernel, by decide +kernel, by decide +kernel, rfl, by decide +kernel,
    by decide +kernel⟩

/-- C105, the part that fails: a specified power of -10 beyond its limit of -8 is not coloured as specified; the specified mass
flow of 5 is printed, the calculated one is 1. -/
theorem C105_specified_false :
    ∃ r : ResNet ℤ, r = ((ResNet.run rtCols (fun _ => none) {} pvOps).step rtCols (fun _ => none) (.solve pvData .post)).1 ∧
      pvView.lim rtTur "P" = ⟨-8, 0, false, true⟩ ∧
      r.print 0 pvView true = .ok [.comps "Turbine" ["P", "eta_s"] [("tur", [(.err, some (-10)), (.plain, none)])],
        .conns [("c1", [(.set, some 5), (.plain, some 10), (.plain, none), (.plain, none), (.plain, none)]),
          ("c2", [(.plain, some 1), (.plain, some 9), (.plain, none), (.plain, none), (.plain, none)])],
        .bus "power" [("tur", [(.plain, some (-10)), (.plain, some (-9)), (.plain, some 1)]),
          ("total", [(.plain, some (-10)), (.set, some (-9)), (.plain, none)])]] :=
  ⟨_, rfl, by rfl, by rfl⟩

-- non-vacuity of C105_total_false
example : Spec.ProperRun rtClasses rtCols (fun _ => none) {} pvOpsT ∧
    ((ResNet.run rtCols (fun _ => none) {} pvOpsT).step rtCols (fun _ => none) (.solve pvData .post)).2 = none ∧
    ("power", rtBus) ∈ ((ResNet.run rtCols (fun _ => none) {} pvOpsT).step rtCols (fun _ => none)
      (.solve pvData .post)).1.busses ∧
    ((ResNet.run rtCols (fun _ => none) {} pvOpsT).step rtCols (fun _ => none)
      (.solve pvData .post)).1.busComps rtBus = [pvTur] ∧ pvTur.label = "total" :=
  ⟨pvOpsT_proper, by decide +kernel, by decide +kernel, by decide +kernel, rfl⟩

-- non-vacuity of C105_never_solved_false and C105_failed_false
example : (ResNet.run rtCols (fun _ => none) ({} : ResNet ℤ) pvOps).tables.get? "Connection" = none ∧
    (ResNet.run rtCols (fun _ => none) ({} : ResNet ℤ) pvOps).print 0 pvView true = .error .keyError ∧
    ∃ r : ResNet ℤ, r = ((ResNet.run rtCols (fun _ => none) {} pvOps).step rtCols (fun _ => none) (.solve pvData .post)).1 ∧
      r.checked = true ∧ (r.comps.map (fun e => e.2.ctype)) = ["Source", "Turbine", "Sink"] ∧
      (r.busses.map (fun e => e.2.label)) = ["power"] :=
  ⟨by rfl, by rfl, _, rfl, by decide +kernel, by decide +kernel, by decide +kernel⟩

end Tespy
