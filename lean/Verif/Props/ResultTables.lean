import Mathlib.Data.List.Perm.Basic
import Mathlib.Data.List.Forall2
import Verif.Lemmas.ResultTables

/-!
C94: after a calculation the tables of results describe the network: one row per connection, component (in the table of its
class) and component of a bus, with the values of this calculation, and nothing else.
-/
namespace Tespy

variable {K : Type}

namespace Spec

/-- A parameter is shown if it has an equation, is specified or is a mere result. -/
def shown (p : RParam K) : Prop := p.hasFunc = true ∨ p.isSet = true ∨ p.isResult = true

/-- The entry of a parameter: its value if it is shown, nan otherwise. -/
def IsEntry (p : RParam K) (x : Option K) : Prop := (shown p → x = p.val) ∧ (¬ shown p → x = none)

/-- The tables of results describe the network. -/
structure Describes [AddCommMonoid K] (cols : String → List String) (d : PostData K) (r : ResNet K) : Prop where
  /-- one row per connection -/
  conn : ∃ tb, r.tables.get? "Connection" = some tb ∧ tb.cols = d.connCols ∧ tb.rows.keys.Nodup ∧
    ∀ l row, (l, row) ∈ tb.rows ↔ ∃ c ∈ r.conns, c.label = l ∧ row = d.connCols.map (d.conn c)
  /-- one row per component in the table of its class -/
  comp : ∀ e ∈ r.comps, ∃ tb, r.tables.get? e.2.ctype = some tb ∧ tb.cols = cols e.2.ctype ∧ tb.rows.keys.Nodup ∧
    ∀ l row, (l, row) ∈ tb.rows ↔ ∃ cp, (l, cp) ∈ r.comps ∧ cp.ctype = e.2.ctype ∧
      List.Forall₂ (fun c x => ∃ p, d.param cp c = some p ∧ IsEntry p x) (cols e.2.ctype) row
  /-- one row per component of a bus, the value of the bus is the sum -/
  bus : ∀ e ∈ r.busses, ((r.busComps e.2).map CompObj.label).Nodup →
    (∃ tb, r.tables.get? e.1 = some tb ∧ tb.cols = busCols ∧ tb.rows.keys.Nodup ∧
      ∀ l row, (l, row) ∈ tb.rows ↔ ∃ cp ∈ r.busComps e.2, cp.label = l ∧
        ∃ v, d.bus e.2 cp = .ok v ∧ row = [v.comp, v.bus, v.eff, v.design]) ∧
    ∃ f : CompObj → BusVals K, (∀ cp ∈ r.busComps e.2, d.bus e.2 cp = .ok (f cp)) ∧
      r.total e.2 = some (((r.busComps e.2).filterMap (fun cp => (f cp).bus)).sum)
  /-- every component has a value or nan for each column of its class, so that its row exists -/
  all : ∀ e ∈ r.comps, ∀ c ∈ cols e.2.ctype, ∃ p, d.param e.2 c = some p

/-- The calls the property ranges over: connections and components are added and deleted by successful calls, deleted
connections are objects of the network, all components belong to the `classes`, and no bus has the name of a class or of
the table of connections. Calculations may fail in any way. -/
def Proper (classes : String → Prop) (r : ResNet K) : ResOp K → Prop
  | .addConns args => (r.addConns args).2 = none ∧ ∀ c, some c ∈ args → classes c.source.ctype ∧ classes c.target.ctype
  | .delConns args => (r.delConns args).2 = none ∧ ∀ c ∈ args, c ∈ r.conns
  | .addBusses args => ∀ b, some b ∈ args → ¬ classes b.label ∧ b.label ≠ "Connection"
  | _ => True

/-- A history of such calls. -/
def ProperRun [AddCommMonoid K] (classes : String → Prop) (cols : String → List String) (chk : NetTab → Option PyErr)
    (r : ResNet K) : List (ResOp K) → Prop
  | [] => True
  | op :: ops => Proper classes r op ∧ ProperRun classes cols chk (r.step cols chk op).1 ops

end Spec

/-! ### invariant -/

/-- Every row of a table belongs to an object of the network. -/
structure TableOK (classes : String → Prop) (cols : String → List String) (r : ResNet K) (k : String) (tb : RTable K) :
    Prop where
  cls : classes k → tb.cols = cols k ∧ ∀ l ∈ tb.rows.keys, ∃ cp, (l, cp) ∈ r.comps ∧ cp.ctype = k
  bus : ∀ b, (k, b) ∈ r.busses → tb.cols = busCols ∧ ∀ l ∈ tb.rows.keys, ∃ cp ∈ r.busComps b, cp.label = l
  con : k = "Connection" → ∀ l ∈ tb.rows.keys, l ∈ r.conns.map ConnObj.label
  nd : tb.rows.keys.Nodup

/-- All tables. -/
def TablesOK (classes : String → Prop) (cols : String → List String) (r : ResNet K) (t : Dict String (RTable K)) : Prop :=
  ∀ k tb, Dict.get? t k = some tb → TableOK classes cols r k tb

/-- Invariant of proper histories. -/
structure ResInv (classes : String → Prop) (cols : String → List String) (r : ResNet K) : Prop where
  lab : r.tab.Labelled
  exact : r.tab.CompsExact
  cls : ∀ e ∈ r.comps, classes e.2.ctype
  bus : ∀ e ∈ r.busses, ¬ classes e.1 ∧ e.1 ≠ "Connection" ∧ e.1 ∈ r.tables.keys
  tnd : r.tables.keys.Nodup
  ok : TablesOK classes cols r r.tables
  chk : r.checked = true → ∀ e ∈ r.comps, e.2.ctype ∈ r.tables.keys

/-- Label and table of a row fit. -/
structure RtRowOK (classes : String → Prop) (r : ResNet K) (k l : String) : Prop where
  cls : classes k → ∃ cp, (l, cp) ∈ r.comps ∧ cp.ctype = k
  bus : ∀ b, (k, b) ∈ r.busses → ∃ cp ∈ r.busComps b, cp.label = l
  con : k = "Connection" → l ∈ r.conns.map ConnObj.label

theorem mem_keys_set {β : Type} (d : Dict String β) (k : String) (b : β) (x : String) :
    x ∈ (d.set k b).keys ↔ x = k ∨ x ∈ d.keys := by
  rw [← Dict.get?_isSome_iff, ← Dict.get?_isSome_iff, Dict.get?_set]
  by_cases h : x = k <;> simp [h]

theorem writeRow_TablesOK {classes : String → Prop} {cols : String → List String} {r : ResNet K}
    {t : Dict String (RTable K)} {key label : String} {row : List (Option K)} (hr : RtRowOK classes r key label)
    (h : TablesOK classes cols r t) : TablesOK classes cols r (writeRow t key label row).1 := by
  unfold writeRow
  cases hg : Dict.get? t key with
  | none => exact h
  | some tb =>
    simp only
    split
    · intro k tb' hk
      simp only [Dict.get?_set] at hk
      by_cases hkk : k = key
      · subst hkk
        simp only [if_true, Option.some.injEq] at hk
        subst hk
        have h0 := h _ _ hg
        refine ⟨fun hc => ⟨(h0.cls hc).1, ?_⟩, fun b hb => ⟨(h0.bus b hb).1, ?_⟩, fun hc => ?_, Dict.nodup_keys_set _ _ h0.nd⟩
        · intro l hl
          rcases (mem_keys_set _ _ _ _).mp hl with rfl | hl
          · exact hr.cls hc
          · exact (h0.cls hc).2 l hl
        · intro l hl
          rcases (mem_keys_set _ _ _ _).mp hl with rfl | hl
          · exact hr.bus b hb
          · exact (h0.bus b hb).2 l hl
        · intro l hl
          rcases (mem_keys_set _ _ _ _).mp hl with rfl | hl
          · exact hr.con hc
          · exact h0.con hc l hl
      · rw [if_neg hkk] at hk
        exact h _ _ hk
    · exact h

theorem processConns_TablesOK {classes : String → Prop} {cols : String → List String} {r : ResNet K} (d : PostData K)
    (cs : List ConnObj) (hcs : ∀ c ∈ cs, RtRowOK classes r "Connection" c.label) {t : Dict String (RTable K)}
    (h : TablesOK classes cols r t) :
    TablesOK classes cols r (processConns d cs t).1 ∧ (processConns d cs t).1.keys = t.keys := by
  induction cs generalizing t with
  | nil => exact ⟨h, rfl⟩
  | cons c cs ih =>
    rw [processConns]
    have h1 := writeRow_TablesOK (row := d.connCols.map (d.conn c)) (hcs c List.mem_cons_self) h
    have h2 := writeRow_keys (t := t) (key := "Connection") (label := c.label) (row := d.connCols.map (d.conn c))
    rcases hw : writeRow t "Connection" c.label (d.connCols.map (d.conn c)) with ⟨t1, o⟩
    rw [hw] at h1 h2
    cases o with
    | some e => exact ⟨h1, h2⟩
    | none =>
      obtain ⟨a, b⟩ := ih (fun c' hc' => hcs c' (List.mem_cons_of_mem _ hc')) h1
      exact ⟨a, b.trans h2⟩

theorem processComps_TablesOK {classes : String → Prop} {cols : String → List String} {r : ResNet K} (d : PostData K)
    (cps : List CompObj) (hcs : ∀ cp ∈ cps, RtRowOK classes r cp.ctype cp.label) {t : Dict String (RTable K)}
    (h : TablesOK classes cols r t) :
    TablesOK classes cols r (processComps d cps t).1 ∧ (processComps d cps t).1.keys = t.keys := by
  induction cps generalizing t with
  | nil => exact ⟨h, rfl⟩
  | cons cp cps ih =>
    rw [processComps]
    cases hc : d.calcErr cp with
    | some e => exact ⟨h, rfl⟩
    | none =>
      simp only
      cases hg : Dict.get? t cp.ctype with
      | none => exact ⟨h, rfl⟩
      | some tb =>
        simp only
        cases hr : compRow (d.param cp) tb.cols with
        | error e => exact ⟨h, rfl⟩
        | ok row =>
          simp only
          have h1 := writeRow_TablesOK (row := row) (hcs cp List.mem_cons_self) h
          have h2 := writeRow_keys (t := t) (key := cp.ctype) (label := cp.label) (row := row)
          rcases hw : writeRow t cp.ctype cp.label row with ⟨t1, o⟩
          rw [hw] at h1 h2
          cases o with
          | some e => exact ⟨h1, h2⟩
          | none =>
            obtain ⟨a, b⟩ := ih (fun c' hc' => hcs c' (List.mem_cons_of_mem _ hc')) h1
            exact ⟨a, b.trans h2⟩

theorem processBus_TablesOK {classes : String → Prop} {cols : String → List String} {r : ResNet K} (d : PostData K)
    (b : LabObj) (cps : List CompObj) (hcs : ∀ cp ∈ cps, RtRowOK classes r b.label cp.label) {t : Dict String (RTable K)}
    (h : TablesOK classes cols r t) :
    TablesOK classes cols r (rProcessBus d b cps t).1 ∧ (rProcessBus d b cps t).1.keys = t.keys := by
  induction cps generalizing t with
  | nil => exact ⟨h, rfl⟩
  | cons cp cps ih =>
    rw [rProcessBus]
    cases hr : d.bus b cp with
    | error e => exact ⟨h, rfl⟩
    | ok v =>
      simp only
      have h1 := writeRow_TablesOK (row := v.row) (hcs cp List.mem_cons_self) h
      have h2 := writeRow_keys (t := t) (key := b.label) (label := cp.label) (row := v.row)
      rcases hw : writeRow t b.label cp.label v.row with ⟨t1, o⟩
      rw [hw] at h1 h2
      cases o with
      | some e => exact ⟨h1, h2⟩
      | none =>
        obtain ⟨a, b⟩ := ih (fun c' hc' => hcs c' (List.mem_cons_of_mem _ hc')) h1
        exact ⟨a, b.trans h2⟩

/-- What the postprocessing leaves alone. -/
structure SameNet (r r' : ResNet K) : Prop where
  conns : r'.conns = r.conns
  comps : r'.comps = r.comps
  busses : r'.busses = r.busses
  busComps : r'.busComps = r.busComps
  checked : r'.checked = r.checked
  keys : r'.tables.keys = r.tables.keys

theorem TablesOK.congr {classes : String → Prop} {cols : String → List String} {r r' : ResNet K}
    {t : Dict String (RTable K)} (h : TablesOK classes cols r t) (h1 : r'.conns = r.conns) (h2 : r'.comps = r.comps)
    (h3 : r'.busses = r.busses) (h4 : r'.busComps = r.busComps) : TablesOK classes cols r' t := by
  intro k tb hk
  obtain ⟨a, b, c, e⟩ := h k tb hk
  exact ⟨by rw [h2]; exact a, by rw [h3, h4]; exact b, by rw [h1]; exact c, e⟩

theorem processBusses_TablesOK [AddCommMonoid K] {classes : String → Prop} {cols : String → List String} (d : PostData K)
    (bs : List LabObj) {r : ResNet K} (hbs : ∀ b ∈ bs, ∀ cp ∈ r.busComps b, RtRowOK classes r b.label cp.label)
    (h : TablesOK classes cols r r.tables) :
    TablesOK classes cols r (processBusses d bs r).1.tables ∧ SameNet r (processBusses d bs r).1 := by
  induction bs generalizing r with
  | nil => exact ⟨h, ⟨rfl, rfl, rfl, rfl, rfl, rfl⟩⟩
  | cons b bs ih =>
    rw [processBusses]
    obtain ⟨h1, h2⟩ := processBus_TablesOK d b (r.busComps b) (hbs b List.mem_cons_self) h
    rcases hp : rProcessBus d b (r.busComps b) r.tables with ⟨t, o⟩
    rw [hp] at h1 h2
    cases o with
    | some e => exact ⟨h1, ⟨rfl, rfl, rfl, rfl, rfl, h2⟩⟩
    | none =>
      simp only
      cases hg : Dict.get? t b.label with
      | none => exact ⟨h1, ⟨rfl, rfl, rfl, rfl, rfl, h2⟩⟩
      | some tb =>
        simp only
        cases hc : busColumn tb with
        | error e => exact ⟨h1, ⟨rfl, rfl, rfl, rfl, rfl, h2⟩⟩
        | ok l =>
          simp only
          obtain ⟨a, c⟩ := ih (r := { r with tables := t, total := Function.update r.total b (some (sumSkip l)) })
            (fun b' hb' cp hcp => ⟨(hbs b' (List.mem_cons_of_mem _ hb') cp hcp).cls,
              (hbs b' (List.mem_cons_of_mem _ hb') cp hcp).bus, (hbs b' (List.mem_cons_of_mem _ hb') cp hcp).con⟩)
            (h1.congr rfl rfl rfl rfl)
          exact ⟨a.congr rfl rfl rfl rfl, ⟨c.conns, c.comps, c.busses, c.busComps, c.checked, c.keys.trans h2⟩⟩

/-- Rows written by the postprocessing belong to objects of the network. -/
theorem rowOK_conn {classes : String → Prop} {cols : String → List String} {r : ResNet K}
    (hcl : ¬ classes "Connection") (hi : ResInv classes cols r) (c : ConnObj) (hc : c ∈ r.conns) :
    RtRowOK classes r "Connection" c.label :=
  ⟨fun h => absurd h hcl, fun b hb => absurd rfl (hi.bus _ hb).2.1, fun _ => List.mem_map_of_mem hc⟩

theorem rowOK_comp {classes : String → Prop} {cols : String → List String} {r : ResNet K}
    (hcl : ¬ classes "Connection") (hi : ResInv classes cols r) (e : String × CompObj) (he : e ∈ r.comps) :
    RtRowOK classes r e.2.ctype e.2.label := by
  have hc := hi.cls e he
  refine ⟨fun _ => ⟨e.2, ?_, rfl⟩, fun b hb => absurd hc (hi.bus _ hb).1, fun h => absurd (h ▸ hc) hcl⟩
  have := hi.lab.compKey e he
  rw [this]
  exact he

theorem rowOK_bus {classes : String → Prop} {cols : String → List String} {r : ResNet K}
    (hi : ResInv classes cols r) (e : String × LabObj) (he : e ∈ r.busses) (cp : CompObj) (hcp : cp ∈ r.busComps e.2) :
    RtRowOK classes r e.2.label cp.label := by
  have hk := hi.lab.busKey e he
  rw [hk]
  refine ⟨fun h => absurd h (hi.bus e he).1, ?_, fun h => absurd h (hi.bus e he).2.1⟩
  intro b hb
  have e1 := Dict.get?_of_mem (show r.busses.keys.Nodup from hi.lab.busses) hb
  have e2 := Dict.get?_of_mem (show r.busses.keys.Nodup from hi.lab.busses) he
  have : b = e.2 := by
    have h3 := e1.symm.trans e2
    exact Option.some.inj h3
  exact ⟨cp, this ▸ hcp, rfl⟩

theorem ResInv.of_same {classes : String → Prop} {cols : String → List String} {r r' : ResNet K}
    (hi : ResInv classes cols r) (hs : SameNet r r') (ht : TablesOK classes cols r r'.tables) :
    ResInv classes cols r' := by
  obtain ⟨h1, h2, h3, h4, h5, h6⟩ := hs
  have et : r'.tab = r.tab := by simp only [ResNet.tab, h1, h2, h3, h5, h6]
  exact ⟨et ▸ hi.lab, et ▸ hi.exact, by rw [h2]; exact hi.cls, by rw [h3, h6]; exact hi.bus, by rw [h6]; exact hi.tnd,
    ht.congr h1 h2 h3 h4, by rw [h5, h2, h6]; exact hi.chk⟩

theorem postprocess_inv [AddCommMonoid K] {classes : String → Prop} {cols : String → List String} {r : ResNet K}
    (hcl : ¬ classes "Connection") (hi : ResInv classes cols r) (d : PostData K) :
    ResInv classes cols (r.postprocess d).1 := by
  unfold ResNet.postprocess
  obtain ⟨h1, h2⟩ := processConns_TablesOK d r.conns (rowOK_conn hcl hi) hi.ok
  rcases hp : processConns d r.conns r.tables with ⟨t, o⟩
  rw [hp] at h1 h2
  cases o with
  | some e => exact hi.of_same ⟨rfl, rfl, rfl, rfl, rfl, h2⟩ h1
  | none =>
    simp only
    obtain ⟨h3, h4⟩ := processComps_TablesOK d (r.comps.map Prod.snd) (fun cp hcp => by
      obtain ⟨e, he, rfl⟩ := List.mem_map.mp hcp
      exact rowOK_comp hcl hi e he) h1
    rcases hq : processComps d (r.comps.map Prod.snd) t with ⟨t', o'⟩
    rw [hq] at h3 h4
    cases o' with
    | some e => exact hi.of_same ⟨rfl, rfl, rfl, rfl, rfl, h4.trans h2⟩ h3
    | none =>
      simp only
      have hi' : ResInv classes cols { r with tables := t' } := hi.of_same ⟨rfl, rfl, rfl, rfl, rfl, h4.trans h2⟩ h3
      obtain ⟨h5, h6⟩ := processBusses_TablesOK d (r.busses.map Prod.snd) (r := { r with tables := t' })
        (fun b hb cp hcp => by
          obtain ⟨e, he, rfl⟩ := List.mem_map.mp hb
          exact rowOK_bus hi' e he cp hcp) hi'.ok
      exact hi'.of_same h6 h5

theorem addTypeTables_spec (cols : String → List String) (tys : List String) (t : Dict String (RTable K)) :
    (∀ k, (addTypeTables cols tys t).get? k =
      match Dict.get? t k with
      | some tb => some tb
      | none => if k ∈ tys then some ⟨cols k, []⟩ else none)
    ∧ (t.keys.Nodup → (addTypeTables cols tys t).keys.Nodup) := by
  induction tys generalizing t with
  | nil =>
    refine ⟨fun k => ?_, id⟩
    simp only [addTypeTables, List.not_mem_nil, if_false]
    cases Dict.get? t k <;> rfl
  | cons ty tys ih =>
    rw [addTypeTables]
    by_cases h : ty ∈ t.keys
    · rw [if_pos h]
      refine ⟨fun k => ?_, (ih t).2⟩
      rw [(ih t).1 k]
      cases hg : Dict.get? t k with
      | some tb => rfl
      | none =>
        have : k ≠ ty := by
          rintro rfl
          exact (Dict.get?_eq_none_iff t k).mp hg h
        simp [this]
    · rw [if_neg h]
      obtain ⟨i1, i2⟩ := ih (t.set ty ⟨cols ty, []⟩)
      refine ⟨fun k => ?_, fun hn => i2 (Dict.nodup_keys_set _ _ hn)⟩
      rw [i1 k, Dict.get?_set]
      by_cases hk : k = ty
      · subst hk
        have hn : Dict.get? t k = none := (Dict.get?_eq_none_iff t k).mpr h
        simp [hn]
      · rw [if_neg hk]
        cases hg : Dict.get? t k with
        | some tb => rfl
        | none => simp [hk]

theorem start_tables_inv {classes : String → Prop} {cols : String → List String} {r : ResNet K}
    (hi : ResInv classes cols r) (b : Bool) (hcl : ¬ classes "Connection") :
    ResInv classes cols { r with tables := addTypeTables cols (r.comps.map (fun kc => kc.2.ctype)) r.tables,
                                 checked := b } := by
  obtain ⟨h1, h2⟩ := addTypeTables_spec cols (r.comps.map (fun kc => kc.2.ctype)) r.tables
  have hk : ∀ k, k ∈ r.tables.keys → k ∈ (addTypeTables cols (r.comps.map (fun kc => kc.2.ctype)) r.tables).keys := by
    intro k hk
    rw [← Dict.get?_isSome_iff] at hk ⊢
    rw [h1 k]
    obtain ⟨tb, htb⟩ := Option.isSome_iff_exists.mp hk
    rw [htb]; rfl
  have hk' : ∀ e ∈ r.comps, e.2.ctype ∈ (addTypeTables cols (r.comps.map (fun kc => kc.2.ctype)) r.tables).keys := by
    intro e he
    rw [← Dict.get?_isSome_iff, h1]
    cases hg : Dict.get? r.tables e.2.ctype with
    | some tb => rfl
    | none =>
      have : e.2.ctype ∈ r.comps.map (fun kc => kc.2.ctype) := List.mem_map.mpr ⟨e, he, rfl⟩
      simp only [this, if_true]; rfl
  refine ⟨⟨hi.lab.conns, hi.lab.comps, hi.lab.compKey, hi.lab.busses, hi.lab.busKey, hi.lab.udes, hi.lab.udeKey⟩,
    hi.exact, hi.cls, fun e he => ⟨(hi.bus e he).1, (hi.bus e he).2.1, hk _ (hi.bus e he).2.2⟩, h2 hi.tnd, ?_,
    fun _ => hk'⟩
  intro k tb hg
  simp only [h1 k] at hg
  cases ho : Dict.get? r.tables k with
  | some tb' =>
    rw [ho] at hg
    simp only [Option.some.injEq] at hg
    subst hg
    obtain ⟨a, b, c, e⟩ := hi.ok k _ ho
    exact ⟨a, b, c, e⟩
  | none =>
    rw [ho] at hg
    simp only at hg
    split at hg
    · rename_i hm
      simp only [Option.some.injEq] at hg
      subst hg
      obtain ⟨e, he, hek⟩ := List.mem_map.mp hm
      have hc : classes k := hek ▸ hi.cls e he
      exact ⟨fun _ => ⟨rfl, by simp [Dict.keys]⟩, fun b hb => absurd hc (hi.bus _ hb).1, fun _ => by simp [Dict.keys],
        by simp [Dict.keys]⟩
    · cases hg

theorem rtStart_inv {classes : String → Prop} {cols : String → List String} {chk : NetTab → Option PyErr} {r : ResNet K}
    (hi : ResInv classes cols r) (hcl : ¬ classes "Connection") : ResInv classes cols (r.start cols chk).1 := by
  unfold ResNet.start
  split
  · exact hi
  · rename_i hch
    split
    · exact hi
    · split
      · have := start_tables_inv hi r.checked hcl
        exact this
      · exact start_tables_inv hi true hcl

theorem conn_table_inv {classes : String → Prop} {cols : String → List String} {r : ResNet K} (c : List String)
    (hi : ResInv classes cols r) (hcl : ¬ classes "Connection") :
    ResInv classes cols { r with tables := r.tables.set "Connection" ⟨c, []⟩ } := by
  have hk : ∀ k, k ∈ r.tables.keys → k ∈ (r.tables.set "Connection" ⟨c, []⟩).keys :=
    fun k h => (mem_keys_set _ _ _ _).mpr (Or.inr h)
  refine ⟨⟨hi.lab.conns, hi.lab.comps, hi.lab.compKey, hi.lab.busses, hi.lab.busKey, hi.lab.udes, hi.lab.udeKey⟩,
    hi.exact, hi.cls, fun e he => ⟨(hi.bus e he).1, (hi.bus e he).2.1, hk _ (hi.bus e he).2.2⟩,
    Dict.nodup_keys_set _ _ hi.tnd, ?_, fun h e he => hk _ (hi.chk h e he)⟩
  intro k tb hg
  simp only [Dict.get?_set] at hg
  by_cases h : k = "Connection"
  · subst h
    simp only [if_true, Option.some.injEq] at hg
    subst hg
    exact ⟨fun h => absurd h hcl, fun b hb => absurd rfl (hi.bus _ hb).2.1, fun _ => by simp [Dict.keys], by simp [Dict.keys]⟩
  · rw [if_neg h] at hg
    obtain ⟨a, b, c, e⟩ := hi.ok k _ hg
    exact ⟨a, b, c, e⟩

theorem solve_inv [AddCommMonoid K] {classes : String → Prop} {cols : String → List String} {chk : NetTab → Option PyErr}
    {r : ResNet K} (hi : ResInv classes cols r) (hcl : ¬ classes "Connection") (d : PostData K) (stop : SolveStop) :
    ResInv classes cols (r.solve cols chk d stop).1 := by
  unfold ResNet.solve
  have h1 := rtStart_inv (chk := chk) hi hcl
  rcases hs : r.start cols chk with ⟨r1, o⟩
  rw [hs] at h1
  cases o with
  | some e => exact h1
  | none =>
    cases stop with
    | early e => exact h1
    | late e => exact conn_table_inv _ h1 hcl
    | noPost => exact conn_table_inv _ h1 hcl
    | post => exact postprocess_inv hcl (conn_table_inv _ h1 hcl) d

/-! ### registration -/

theorem dropRow_TablesOK {classes : String → Prop} {cols : String → List String} {r r' : ResNet K}
    {t : Dict String (RTable K)} {key label : String} (h : TablesOK classes cols r t)
    (hb : r'.busses = r.busses) (hbc : r'.busComps = r.busComps)
    (hc : ∀ l cp, (l, cp) ∈ r.comps → ¬ (cp.ctype = key ∧ l = label) → (l, cp) ∈ r'.comps)
    (hk : ∀ l ∈ r.conns.map ConnObj.label, ¬ (key = "Connection" ∧ l = label) → l ∈ r'.conns.map ConnObj.label)
    : TablesOK classes cols r' (dropRow t key label) := by
  intro k tb hg
  rw [get?_dropRow] at hg
  cases ho : Dict.get? t k with
  | none => rw [ho] at hg; cases hg
  | some tb0 =>
    rw [ho] at hg
    simp only [Option.map_some, Option.some.injEq] at hg
    obtain ⟨a, b, c, e⟩ := h k tb0 ho
    have hcols : tb.cols = tb0.cols := by subst hg; split <;> rfl
    have hsub : tb.rows.Sublist tb0.rows := by
      subst hg; split
      · exact List.filter_sublist
      · exact List.Sublist.refl _
    have hks : tb.rows.keys.Sublist tb0.rows.keys := hsub.map _
    have hnot : ∀ l ∈ tb.rows.keys, ¬ (k = key ∧ l = label) := by
      rintro l hl ⟨h1, h2⟩
      subst hg
      rw [if_pos h1] at hl
      obtain ⟨x, hx, hxl⟩ := List.mem_map.mp hl
      have := (List.mem_filter.mp hx).2
      simp only [ne_eq, decide_eq_true_eq] at this
      exact this (hxl.trans h2)
    refine ⟨fun hcl => ⟨hcols.trans (a hcl).1, ?_⟩, ?_, ?_, e.sublist hks⟩
    · intro l hl
      obtain ⟨cp, h1, h2⟩ := (a hcl).2 l (hks.subset hl)
      refine ⟨cp, hc l cp h1 ?_, h2⟩
      rintro ⟨h3, h4⟩
      exact hnot l hl ⟨h2.symm.trans h3, h4⟩
    · intro b' hb'
      rw [hb] at hb'
      rw [hbc]
      exact ⟨hcols.trans (b b' hb').1, fun l hl => (b b' hb').2 l (hks.subset hl)⟩
    · intro hkc l hl
      refine hk l (c hkc l (hks.subset hl)) ?_
      rintro ⟨h3, h4⟩
      exact hnot l hl ⟨hkc.trans h3.symm, h4⟩

theorem rDelConnRows_ok {classes : String → Prop} {cols : String → List String} (cs : List ConnObj) {r : ResNet K}
    (h : TablesOK classes cols r r.tables) :
    TablesOK classes cols (rDelConnRows cs r).1 (rDelConnRows cs r).1.tables ∧
    (rDelConnRows cs r).1.comps = r.comps ∧ (rDelConnRows cs r).1.busses = r.busses ∧
    (rDelConnRows cs r).1.busComps = r.busComps ∧ (rDelConnRows cs r).1.tables.keys = r.tables.keys := by
  induction cs generalizing r with
  | nil => exact ⟨h, rfl, rfl, rfl, rfl⟩
  | cons c cs ih =>
    unfold rDelConnRows
    split
    · have h1 : TablesOK classes cols ({ r with
          conns := r.conns.filter (fun d => d.label ≠ c.label)
          tables := dropRow r.tables "Connection" c.label } : ResNet K) (dropRow r.tables "Connection" c.label) := by
        refine dropRow_TablesOK h rfl rfl (fun l cp hm _ => hm) ?_
        intro l hl hn
        obtain ⟨d, hd, rfl⟩ := List.mem_map.mp hl
        refine List.mem_map.mpr ⟨d, List.mem_filter.mpr ⟨hd, ?_⟩, rfl⟩
        simp only [ne_eq, decide_eq_true_eq]
        exact fun hh => hn ⟨rfl, hh⟩
      obtain ⟨a, b, c', d, e⟩ := ih h1
      exact ⟨a, b, c', d, e.trans (keys_dropRow _ _ _)⟩
    · exact ⟨h, rfl, rfl, rfl, rfl⟩

theorem rDelComps_ok {classes : String → Prop} {cols : String → List String} (cps : List CompObj) {r : ResNet K}
    (hn : r.comps.keys.Nodup) (hcp : ∀ cp ∈ cps, ∀ cp', (cp.label, cp') ∈ r.comps → cp' = cp)
    (h : TablesOK classes cols r r.tables) (ho : (rDelComps cps r).2 = none) :
    TablesOK classes cols (rDelComps cps r).1 (rDelComps cps r).1.tables ∧
    (rDelComps cps r).1.comps.Sublist r.comps ∧ (rDelComps cps r).1.busses = r.busses ∧
    (rDelComps cps r).1.busComps = r.busComps ∧ (rDelComps cps r).1.tables.keys = r.tables.keys := by
  induction cps generalizing r with
  | nil => exact ⟨h, List.Sublist.refl _, rfl, rfl, rfl⟩
  | cons cp cps ih =>
    unfold rDelComps at ho ⊢
    split
    · rename_i h1
      rw [if_pos h1] at ho
      split
      · rename_i h2
        rw [if_pos h2] at ho
        split
        · rename_i h3
          rw [if_pos h3] at ho
          have hs : (r.comps.erase cp.label).Sublist r.comps := Dict.erase_sublist _ _
          have k1 : TablesOK classes cols ({ r with
              comps := r.comps.erase cp.label
              tables := dropRow r.tables cp.ctype cp.label } : ResNet K) (dropRow r.tables cp.ctype cp.label) := by
            refine dropRow_TablesOK h rfl rfl ?_ (fun l hl _ => hl)
            intro l cp' hm hne
            refine (Dict.mem_erase hn _ _).mpr ⟨hm, ?_⟩
            rintro hl
            simp only at hl
            subst hl
            have := hcp cp List.mem_cons_self cp' hm
            subst this
            exact hne ⟨rfl, rfl⟩
          obtain ⟨a, b, c, d, e⟩ := ih (r := { r with
              comps := r.comps.erase cp.label
              tables := dropRow r.tables cp.ctype cp.label }) (Dict.nodup_keys_erase _ hn)
            (fun x hx cp' hm => hcp x (List.mem_cons_of_mem _ hx) cp' (hs.subset hm)) k1 ho
          exact ⟨a, b.trans hs, c, d, e.trans (keys_dropRow _ _ _)⟩
        · rename_i h3
          rw [if_neg h3] at ho
          cases ho
      · rename_i h2
        rw [if_neg h2] at ho
        cases ho
    · rename_i h1
      rw [if_neg h1] at ho
      exact ih hn (fun x hx => hcp x (List.mem_cons_of_mem _ hx)) h ho

theorem delConns_inv {classes : String → Prop} {cols : String → List String} {r : ResNet K}
    (hi : ResInv classes cols r) (args : List ConnObj) (ho : (r.delConns args).2 = none)
    (hl : ∀ c ∈ args, c ∈ r.conns) : ResInv classes cols (r.delConns args).1 := by
  obtain ⟨ht, ht2⟩ := delConns_tab args r
  have hlab : (r.delConns args).1.tab.Labelled := by
    rw [ht]; exact step_labelled (fun _ => none) r.tab hi.lab (.delConns args)
  have hex : (r.delConns args).1.tab.CompsExact := by
    rw [ht]
    exact step_exact (fun _ => none) r.tab hi.lab hi.exact (.delConns args) (ht2.symm.trans ho) hl
  unfold ResNet.delConns at ho hlab hex ⊢
  obtain ⟨a1, a2, a3, a4, a5⟩ := rDelConnRows_ok (classes := classes) (cols := cols) args hi.ok
  rcases hx : rDelConnRows args r with ⟨r1, o1⟩
  rw [hx] at a1 a2 a3 a4 a5 ho hlab hex
  simp only at a1 a2 a3 a4 a5
  cases o1 with
  | some e => cases ho
  | none =>
    simp only at ho hlab hex ⊢
    rcases hy : rDelComps (endpoints args) r1 with ⟨r2, o2⟩
    rw [hy] at ho hlab hex
    cases o2 with
    | some e => cases ho
    | none =>
      simp only at ho hlab hex ⊢
      have hu : ∀ cp ∈ endpoints args, ∀ cp', (cp.label, cp') ∈ r1.comps → cp' = cp := by
        intro cp hcp cp' hm
        rw [a2] at hm
        obtain ⟨c, hc, hcc⟩ := (mem_endpoints _ _).mp hcp
        have m1 : (cp.label, cp) ∈ r.comps := (hi.exact cp).mpr ⟨c, hl c hc, hcc⟩
        have e1 := Dict.get?_of_mem (show r.comps.keys.Nodup from hi.lab.comps) m1
        have e2 := Dict.get?_of_mem (show r.comps.keys.Nodup from hi.lab.comps) hm
        exact Option.some.inj (e2.symm.trans e1)
      have hn1 : r1.comps.keys.Nodup := by rw [a2]; exact hi.lab.comps
      obtain ⟨b1, b2, b3, b4, b5⟩ := rDelComps_ok (endpoints args) hn1 hu a1 (by rw [hy])
      rw [hy] at b1 b2 b3 b4 b5
      simp only at b1 b2 b3 b4 b5
      refine ⟨hlab, hex, ?_, ?_, ?_, b1.congr rfl rfl rfl rfl, fun h => absurd h (by simp)⟩
      · intro e he
        exact hi.cls e (a2 ▸ b2.subset he)
      · intro e he
        have he' : e ∈ r.busses := by
          have : e ∈ r2.busses := he
          rw [b3, a3] at this; exact this
        refine ⟨(hi.bus e he').1, (hi.bus e he').2.1, ?_⟩
        show e.1 ∈ r2.tables.keys
        rw [b5, a5]; exact (hi.bus e he').2.2
      · show r2.tables.keys.Nodup
        rw [b5, a5]; exact hi.tnd

theorem addConns_inv {classes : String → Prop} {cols : String → List String} {r : ResNet K}
    (hi : ResInv classes cols r) (args : List (Option ConnObj)) (ho : (r.addConns args).2 = none)
    (hl : ∀ c, some c ∈ args → classes c.source.ctype ∧ classes c.target.ctype) :
    ResInv classes cols (r.addConns args).1 := by
  obtain ⟨ht, ht2⟩ := addConns_tab args r
  have hlab : (r.addConns args).1.tab.Labelled := by
    rw [ht]; exact step_labelled (fun _ => none) r.tab hi.lab (.addConns args)
  have hex : (r.addConns args).1.tab.CompsExact := by
    rw [ht]
    exact step_exact (fun _ => none) r.tab hi.lab hi.exact (.addConns args) (ht2.symm.trans ho) trivial
  have hconns : (r.addConns args).1.conns = r.conns ++ args.filterMap id ∧
      ((r.addConns args).1.checked = true → r.checked = true ∧ (r.addConns args).1.conns = r.conns) := by
    rw [ht2] at ho
    obtain ⟨h1, h2, h3, h4, h5, h6, h7, h8⟩ := addConnRows_spec args r.tab
    show (r.tab.addConns args).1.conns = _ ∧ ((r.tab.addConns args).1.checked = true → r.checked = true ∧
      (r.tab.addConns args).1.conns = r.conns)
    unfold NetTab.addConns at ho ⊢
    rcases hx : addConnRows args r.tab with ⟨s1, o⟩
    rw [hx] at ho h7 h8
    cases o with
    | some e => cases ho
    | none =>
      simp only at ho h7 h8 ⊢
      have hf := addComps_frame (endpoints (args.filterMap id)) s1
      rw [hf.1, hf.2.2.2.2.1]
      refine ⟨h8 trivial, fun hc => ?_⟩
      have := h7 hc
      subst this
      exact ⟨hc, rfl⟩
  have hsub : ∀ l cp, (l, cp) ∈ r.comps → (l, cp) ∈ (r.addConns args).1.comps := by
    intro l cp hm
    have hk := hi.lab.compKey (l, cp) hm
    simp only at hk
    subst hk
    obtain ⟨c, hc, hcc⟩ := (hi.exact cp).mp hm
    refine (hex cp).mpr ⟨c, ?_, hcc⟩
    show c ∈ (r.addConns args).1.conns
    rw [hconns.1]
    exact List.mem_append_left _ hc
  refine ⟨hlab, hex, ?_, hi.bus, hi.tnd, ?_, ?_⟩
  · intro e he
    have hk := hlab.compKey e he
    have he' : (e.2.label, e.2) ∈ (r.addConns args).1.tab.comps := by rw [hk]; exact he
    obtain ⟨c, hc, hcc⟩ := (hex e.2).mp he'
    have hc' : c ∈ r.conns ++ args.filterMap id := hconns.1 ▸ hc
    rcases List.mem_append.mp hc' with hc' | hc'
    · have m : (e.2.label, e.2) ∈ r.comps := (hi.exact e.2).mpr ⟨c, hc', hcc⟩
      exact hi.cls (e.2.label, e.2) m
    · obtain ⟨x, hx, hxc⟩ := List.mem_filterMap.mp hc'
      simp only [id] at hxc
      subst hxc
      rcases hcc with h | h <;> rw [h]
      · exact (hl c hx).1
      · exact (hl c hx).2
  · intro k tb hg
    obtain ⟨a, b, c, e⟩ := hi.ok k tb hg
    refine ⟨fun hc => ⟨(a hc).1, fun l hl' => ?_⟩, b, fun hk l hl' => ?_, e⟩
    · obtain ⟨cp, h1, h2⟩ := (a hc).2 l hl'
      exact ⟨cp, hsub _ _ h1, h2⟩
    · rw [hconns.1, List.map_append]
      exact List.mem_append_left _ (c hk l hl')
  · intro hc e he
    obtain ⟨h1, h2⟩ := hconns.2 hc
    have hk := hlab.compKey e he
    have he' : (e.2.label, e.2) ∈ (r.addConns args).1.tab.comps := by rw [hk]; exact he
    obtain ⟨c, hc', hcc⟩ := (hex e.2).mp he'
    have hc2 : c ∈ r.conns := h2 ▸ hc'
    have m : (e.2.label, e.2) ∈ r.comps := (hi.exact e.2).mpr ⟨c, hc2, hcc⟩
    exact hi.chk h1 (e.2.label, e.2) m

theorem addBus_inv {classes : String → Prop} {cols : String → List String} (args : List (Option LabObj)) {r : ResNet K}
    (hi : ResInv classes cols r) (hl : ∀ b, some b ∈ args → ¬ classes b.label ∧ b.label ≠ "Connection") :
    ResInv classes cols (rAddBus args r).1 := by
  induction args generalizing r with
  | nil => exact hi
  | cons a args ih =>
    cases a with
    | none => exact hi
    | some b =>
      unfold rAddBus
      split
      · exact hi
      · split
        · exact hi
        · rename_i h1 h2
          obtain ⟨hb1, hb2⟩ := hl b List.mem_cons_self
          refine ih ?_ (fun b' hb' => hl b' (List.mem_cons_of_mem _ hb'))
          have hset : r.busses.set b.label b = r.busses ++ [(b.label, b)] := Dict.set_of_not_mem b h2
          have hk : ∀ k, k ∈ r.tables.keys → k ∈ (r.tables.set b.label ⟨busCols, []⟩).keys :=
            fun k h => (mem_keys_set _ _ _ _).mpr (Or.inr h)
          have hmem : ∀ e, e ∈ r.busses.set b.label b → e ∈ r.busses ∨ e = (b.label, b) := by
            intro e he
            rw [hset] at he
            simpa using he
          refine ⟨⟨hi.lab.conns, hi.lab.comps, hi.lab.compKey, Dict.nodup_keys_set _ _ hi.lab.busses, ?_, hi.lab.udes,
            hi.lab.udeKey⟩, hi.exact, hi.cls, ?_, Dict.nodup_keys_set _ _ hi.tnd, ?_,
            fun h e he => hk _ (hi.chk h e he)⟩
          · intro e he
            rcases hmem e he with he | rfl
            · exact hi.lab.busKey e he
            · rfl
          · intro e he
            rcases hmem e he with he | rfl
            · exact ⟨(hi.bus e he).1, (hi.bus e he).2.1, hk _ (hi.bus e he).2.2⟩
            · exact ⟨hb1, hb2, (mem_keys_set _ _ _ _).mpr (Or.inl rfl)⟩
          · intro k tb hg
            simp only [Dict.get?_set] at hg
            by_cases hkb : k = b.label
            · subst hkb
              simp only [if_true, Option.some.injEq] at hg
              subst hg
              exact ⟨fun h => absurd h hb1, fun b' _ => ⟨rfl, by simp [Dict.keys]⟩, fun h => absurd h hb2,
                by simp [Dict.keys]⟩
            · rw [if_neg hkb] at hg
              obtain ⟨a, b', c, e⟩ := hi.ok k tb hg
              refine ⟨a, fun x hx => ?_, c, e⟩
              rcases hmem _ hx with hx | hx
              · exact b' x hx
              · simp only [Prod.mk.injEq] at hx
                exact absurd hx.1 hkb

theorem delBus_inv {classes : String → Prop} {cols : String → List String} (args : List LabObj) {r : ResNet K}
    (hi : ResInv classes cols r) : ResInv classes cols (rDelBus args r).1 := by
  induction args generalizing r with
  | nil => exact hi
  | cons b args ih =>
    unfold rDelBus
    split
    · rename_i h1
      have hbn : r.busses.keys.Nodup := hi.lab.busses
      obtain ⟨e0, he0, hb0⟩ := List.mem_map.mp h1
      have hkey : e0.1 = b.label := by rw [← hb0]; exact (hi.lab.busKey e0 he0).symm
      have hb := hi.bus e0 he0
      rw [hkey] at hb
      rw [if_pos hb.2.2]
      refine ih ?_
      have hne : ∀ e, e ∈ r.busses.erase b.label → e ∈ r.busses ∧ e.1 ≠ b.label :=
        fun e he => (Dict.mem_erase hbn _ _).mp he
      have hk : ∀ k, k ∈ r.tables.keys → k ≠ b.label → k ∈ (r.tables.erase b.label).keys := by
        intro k h hne
        rw [← Dict.get?_isSome_iff] at h ⊢
        rw [Dict.get?_erase hi.tnd, if_neg hne]; exact h
      refine ⟨⟨hi.lab.conns, hi.lab.comps, hi.lab.compKey, Dict.nodup_keys_erase _ hi.lab.busses,
        fun e he => hi.lab.busKey e (hne e he).1, hi.lab.udes, hi.lab.udeKey⟩, hi.exact, hi.cls,
        fun e he => ⟨(hi.bus e (hne e he).1).1, (hi.bus e (hne e he).1).2.1, hk _ (hi.bus e (hne e he).1).2.2 (hne e he).2⟩,
        Dict.nodup_keys_erase _ hi.tnd, ?_, fun h e he => hk _ (hi.chk h e he) ?_⟩
      · intro k tb hg
        simp only [Dict.get?_erase hi.tnd] at hg
        split at hg
        · cases hg
        · obtain ⟨a, b', c, e⟩ := hi.ok k tb hg
          exact ⟨a, fun x hx => b' x (hne _ hx).1, c, e⟩
      · intro hh
        exact hb.1 (hh ▸ hi.cls e he)
    · exact ih hi

theorem busAdd_inv {classes : String → Prop} {cols : String → List String} {r : ResNet K}
    (hi : ResInv classes cols r) (b : LabObj) (cp : CompObj) : ResInv classes cols (r.busAdd b cp) := by
  refine ⟨hi.lab, hi.exact, hi.cls, hi.bus, hi.tnd, ?_, hi.chk⟩
  intro k tb hg
  obtain ⟨a, b', c, e⟩ := hi.ok k tb hg
  refine ⟨a, fun x hx => ⟨(b' x hx).1, fun l hl => ?_⟩, c, e⟩
  obtain ⟨cp', h1, h2⟩ := (b' x hx).2 l hl
  refine ⟨cp', ?_, h2⟩
  simp only [ResNet.busAdd]
  split
  · rename_i hxb
    subst hxb
    split
    · exact h1
    · exact List.mem_append_left _ h1
  · exact h1

theorem resInv_empty (classes : String → Prop) (cols : String → List String) : ResInv classes cols ({} : ResNet K) := by
  refine ⟨⟨by simp [ResNet.tab], by simp [ResNet.tab, Dict.keys], by simp [ResNet.tab], by simp [ResNet.tab, Dict.keys],
    by simp [ResNet.tab], by simp [ResNet.tab, Dict.keys], by simp [ResNet.tab]⟩, ?_, by simp, by simp,
    by simp [Dict.keys], ?_, by simp⟩
  · intro cp; simp [ResNet.tab]
  · intro k tb h; cases h

theorem step_inv [AddCommMonoid K] {classes : String → Prop} {cols : String → List String} {chk : NetTab → Option PyErr}
    (hcl : ¬ classes "Connection") {r : ResNet K} (hi : ResInv classes cols r) (op : ResOp K)
    (hp : Spec.Proper classes r op) : ResInv classes cols (r.step cols chk op).1 := by
  cases op with
  | addConns args => exact addConns_inv hi args hp.1 hp.2
  | delConns args => exact delConns_inv hi args hp.1 hp.2
  | addBusses args => exact addBus_inv args hi hp
  | delBusses args => exact delBus_inv args hi
  | busAdd b cp => exact busAdd_inv hi b cp
  | solve d stop => exact solve_inv hi hcl d stop

theorem rtRun_inv [AddCommMonoid K] {classes : String → Prop} {cols : String → List String} {chk : NetTab → Option PyErr}
    (hcl : ¬ classes "Connection") {r : ResNet K} (hi : ResInv classes cols r) (ops : List (ResOp K))
    (hp : Spec.ProperRun classes cols chk r ops) : ResInv classes cols (r.run cols chk ops) := by
  induction ops generalizing r with
  | nil => exact hi
  | cons op ops ih => exact ih (step_inv hcl hi op hp.1) hp.2

/-! ### the tables after a calculation -/

theorem isEntry_iff (p : RParam K) (x : Option K) : Spec.IsEntry p x ↔ x = p.cell := by
  obtain ⟨v, a, b, c⟩ := p
  unfold Spec.IsEntry Spec.shown RParam.cell
  cases a <;> cases b <;> cases c <;> simp

theorem compCells_iff {d : PostData K} {cp : CompObj} {cols : List String} (hs : ∀ c ∈ cols, (d.param cp c).isSome)
    (row : List (Option K)) :
    row = compCells d cols cp ↔
      List.Forall₂ (fun c x => ∃ p, d.param cp c = some p ∧ Spec.IsEntry p x) cols row := by
  induction cols generalizing row with
  | nil => cases row <;> simp [compCells]
  | cons c cols ih =>
    obtain ⟨p, hp⟩ := Option.isSome_iff_exists.mp (hs c List.mem_cons_self)
    have ih' := ih (fun x hx => hs x (List.mem_cons_of_mem _ hx))
    cases row with
    | nil => simp [compCells]
    | cons x row =>
      rw [List.forall₂_cons, ← ih' row]
      simp only [compCells, List.map_cons, hp, Option.bind_some, List.cons.injEq, Option.some.injEq,
        exists_eq_left', isEntry_iff]

theorem processComps_params (d : PostData K) (cps : List CompObj) {t t' : Dict String (RTable K)}
    (h : processComps d cps t = (t', none)) :
    ∀ cp ∈ cps, ∀ tb, t.get? cp.ctype = some tb → ∀ c ∈ tb.cols, (d.param cp c).isSome := by
  induction cps generalizing t with
  | nil => intro cp hcp; cases hcp
  | cons cp cps ih =>
    rw [processComps] at h
    cases hc : d.calcErr cp with
    | some e => simp [hc] at h
    | none =>
      simp only [hc] at h
      cases hg : Dict.get? t cp.ctype with
      | none => simp [hg] at h
      | some tb0 =>
        simp only [hg] at h
        cases hr : compRow (d.param cp) tb0.cols with
        | error e => simp [hr] at h
        | ok row =>
          simp only [hr] at h
          rcases hw : writeRow t cp.ctype cp.label row with ⟨t1, o⟩
          rw [hw] at h
          cases o with
          | some e => simp at h
          | none =>
            simp only at h
            obtain ⟨tb', h1, h2⟩ := writeRow_get? hw
            rw [hg] at h1
            cases h1
            intro x hx tb htb
            rcases List.mem_cons.mp hx with rfl | hx
            · rw [hg] at htb
              cases htb
              exact (compRow_ok hr).2
            · by_cases hty : x.ctype = cp.ctype
              · have h3 := h2 x.ctype
                rw [if_pos hty] at h3
                have := ih h x hx _ h3
                rw [hty, hg] at htb
                cases htb
                exact this
              · have h3 := h2 x.ctype
                rw [if_neg hty, htb] at h3
                exact ih h x hx _ h3

theorem sum_column [AddCommMonoid K] (d : PostData K) (b : LabObj) (cps : List CompObj) (f : CompObj → BusVals K)
    (hf : ∀ cp ∈ cps, d.bus b cp = .ok (f cp)) (hn : (cps.map CompObj.label).Nodup)
    {rows : Dict String (List (Option K))} (hr : rows.keys.Nodup) (hsub : ∀ l ∈ rows.keys, ∃ cp ∈ cps, cp.label = l) :
    sumSkip ((setAll (cps.map (fun cp => (cp.label, busRow d b cp))) rows).map (fun e => (e.2[1]?).getD none))
      = (cps.filterMap (fun cp => (f cp).bus)).sum := by
  have hfst : (cps.map (fun cp => (cp.label, busRow d b cp))).map Prod.fst = cps.map CompObj.label := by
    rw [List.map_map]; rfl
  have hperm : (setAll (cps.map (fun cp => (cp.label, busRow d b cp))) rows).Perm
      (cps.map (fun cp => (cp.label, busRow d b cp))) := by
    refine (List.perm_ext_iff_of_nodup ?_ ?_).mpr ?_
    · exact List.Nodup.of_map _ (setAll_nodup _ hr)
    · exact List.Nodup.of_map Prod.fst (by rw [hfst]; exact hn)
    · intro e
      refine setAll_mem _ (by rw [hfst]; exact hn) hr ?_ e.1 e.2
      intro k hk
      rw [hfst]
      obtain ⟨cp, h1, h2⟩ := hsub k hk
      exact h2 ▸ List.mem_map_of_mem h1
  unfold sumSkip
  have h1 := ((hperm.map (fun e => (e.2[1]?).getD none)).filterMap id).sum_eq
  rw [h1, List.map_map, List.filterMap_map]
  congr 1
  refine List.filterMap_congr ?_
  intro cp hcp
  simp [busRow, hf cp hcp, BusVals.row]

/-- C94: after any history of calls (connections added and deleted by successful calls, busses added and deleted,
components added to busses, calculations with any outcome) a calculation with postprocessing which does not raise leaves
tables of results that describe the network exactly: one row per connection, per component in the table of its class and per
component of a bus, with the values of this calculation; the value of a bus is the sum of the bus values of its components.
Missing: busses named like a class of components, deletion through foreign objects or after failed additions (refuted
below). -/
theorem C94_describes_partial [AddCommMonoid K] {classes : String → Prop} {cols : String → List String}
    {chk : NetTab → Option PyErr} (hcl : ¬ classes "Connection") (ops : List (ResOp K))
    (hp : Spec.ProperRun classes cols chk {} ops) (d : PostData K) {r' : ResNet K}
    (h : (ResNet.run cols chk {} ops).step cols chk (.solve d .post) = (r', none)) : Spec.Describes cols d r' := by
  have hi := rtRun_inv (chk := chk) hcl (resInv_empty classes cols) ops hp
  generalize ResNet.run cols chk {} ops = r at hi h
  simp only [ResNet.step, ResNet.solve] at h
  have h1 := rtStart_inv (chk := chk) hi hcl
  rcases hs : r.start cols chk with ⟨r1, o⟩
  rw [hs] at h1 h
  cases o with
  | some e => simp at h
  | none =>
    simp only at h h1
    have hr2 := conn_table_inv d.connCols h1 hcl
    have hcon : Dict.get? (r1.tables.set "Connection" ⟨d.connCols, []⟩) "Connection" = some ⟨d.connCols, []⟩ := by
      rw [Dict.get?_set, if_pos rfl]
    generalize hR2 : ({ r1 with tables := r1.tables.set "Connection" ⟨d.connCols, []⟩ } : ResNet K) = r2 at h hr2
    have hcon2 : Dict.get? r2.tables "Connection" = some ⟨d.connCols, []⟩ := by rw [← hR2]; exact hcon
    unfold ResNet.postprocess at h
    rcases hpc : processConns d r2.conns r2.tables with ⟨t, o⟩
    rw [hpc] at h
    cases o with
    | some e => simp at h
    | none =>
      simp only at h
      rcases hpp : processComps d (r2.comps.map Prod.snd) t with ⟨t', o⟩
      rw [hpp] at h
      cases o with
      | some e => simp at h
      | none =>
        simp only at h
        have c1 := processConns_ok d r2.conns hcon2 hpc
        obtain ⟨q1, q2, q3, q4⟩ := processComps_ok d _ hpp
        have q5 := processComps_params d _ hpp
        -- class names of components
        have hfil : ∀ ty, ¬ classes ty → (r2.comps.map Prod.snd).filter (fun cp => cp.ctype = ty) = [] := by
          intro ty hty
          rw [List.filter_eq_nil_iff]
          intro cp hcp
          obtain ⟨e, he, rfl⟩ := List.mem_map.mp hcp
          simp only [decide_eq_true_eq]
          intro hh
          exact hty (hh ▸ hr2.cls e he)
        have hother : ∀ ty tb, ¬ classes ty → t.get? ty = some tb → t'.get? ty = some tb := by
          intro ty tb hty htb
          rw [q1 ty tb htb, hfil ty hty]
          rfl
        have tkeys : t.keys = r2.tables.keys := by
          have := (processConns_TablesOK d r2.conns (rowOK_conn hcl hr2) hr2.ok).2
          rw [hpc] at this; exact this
        -- busses
        have hbl : (r2.busses.map Prod.snd).map LabObj.label = r2.busses.keys := by
          rw [List.map_map]
          refine List.map_congr_left ?_
          intro e he
          exact hr2.lab.busKey e he
        have hbn : ((r2.busses.map Prod.snd).map LabObj.label).Nodup := by rw [hbl]; exact hr2.lab.busses
        have hbk : ∀ b ∈ r2.busses.map Prod.snd, b.label ∈ ({ r2 with tables := t' } : ResNet K).tables.keys := by
          intro b hb
          obtain ⟨e, he, rfl⟩ := List.mem_map.mp hb
          show e.2.label ∈ t'.keys
          rw [hr2.lab.busKey e he, q4, tkeys]
          exact (hr2.bus e he).2.2
        obtain ⟨b1, b2, b3, b4, b5, b6, b7, b8, b9⟩ := processBusses_ok d _ hbn hbk h
        simp only at b1 b2 b5 b6 b7 b8
        refine ⟨?_, ?_, ?_, ?_⟩
        · have hnb : "Connection" ∉ (r2.busses.map Prod.snd).map LabObj.label := by
            rw [hbl]
            intro hh
            obtain ⟨e, he, hek⟩ := List.mem_map.mp hh
            exact (hr2.bus e he).2.1 hek
          have c2 := c1 "Connection"
          rw [if_pos rfl] at c2
          have c3 := hother _ _ hcl c2
          have c4 := (b2 _ hnb).trans c3
          refine ⟨_, c4, rfl, setAll_nodup _ (by simp [Dict.keys]), ?_⟩
          intro l row
          rw [setAll_mem _ ?_ (by simp [Dict.keys]) (by simp [Dict.keys])]
          · rw [b5]
            simp only [List.mem_map, Prod.mk.injEq]
            constructor
            · rintro ⟨c, hc, h1, h2⟩; exact ⟨c, hc, h1, h2.symm⟩
            · rintro ⟨c, hc, h1, h2⟩; exact ⟨c, hc, h1, h2.symm⟩
          · rw [List.map_map]
            exact hr2.lab.conns
        · intro e he
          rw [b6] at he
          have hc := hr2.cls e he
          have hne : e.2.ctype ≠ "Connection" := fun hh => hcl (hh ▸ hc)
          have hnb : e.2.ctype ∉ (r2.busses.map Prod.snd).map LabObj.label := by
            rw [hbl]
            intro hh
            obtain ⟨x, hx, hxk⟩ := List.mem_map.mp hh
            exact (hr2.bus x hx).1 (hxk ▸ hc)
          have hk := (q3 e.2 (List.mem_map_of_mem he)).1
          obtain ⟨tb, htb⟩ := Option.isSome_iff_exists.mp ((Dict.get?_isSome_iff _ _).mpr hk)
          have c2 := c1 e.2.ctype
          rw [if_neg hne, htb] at c2
          obtain ⟨o1, o2, o3, o4⟩ := hr2.ok _ _ c2.symm
          have hcols := (o1 hc).1
          have c4 := (b2 _ hnb).trans (q1 _ _ htb)
          refine ⟨_, c4, hcols, setAll_nodup _ o4, ?_⟩
          intro l row
          have hfst : ((((r2.comps.map Prod.snd).filter (fun cp => cp.ctype = e.2.ctype)).map
              (fun cp => (cp.label, compCells d tb.cols cp))).map Prod.fst)
              = ((r2.comps.map Prod.snd).filter (fun cp => cp.ctype = e.2.ctype)).map CompObj.label := by
            rw [List.map_map]; rfl
          have hlabs : ((r2.comps.map Prod.snd).map CompObj.label) = r2.comps.keys := by
            rw [List.map_map]
            exact List.map_congr_left (fun x hx => hr2.lab.compKey x hx)
          rw [setAll_mem _ ?_ o4 ?_]
          · simp only [List.mem_map, List.mem_filter, decide_eq_true_eq, Prod.mk.injEq]
            rw [b6]
            constructor
            · rintro ⟨cp, ⟨⟨x, hx, rfl⟩, h2⟩, h3, h4⟩
              refine ⟨x.2, ?_, h2, ?_⟩
              · have hk := hr2.lab.compKey x hx
                rw [← h3, hk]; exact hx
              · rw [← hcols, ← compCells_iff ?_]
                · exact h4.symm
                · refine q5 x.2 (List.mem_map_of_mem hx) tb ?_
                  rw [h2]; exact htb
            · rintro ⟨cp, h1, h2, h3⟩
              refine ⟨cp, ⟨⟨(l, cp), h1, rfl⟩, h2⟩, hr2.lab.compKey _ h1, ?_⟩
              rw [← hcols, ← compCells_iff ?_] at h3
              · exact h3.symm
              · refine q5 cp (List.mem_map_of_mem h1) tb ?_
                rw [h2]; exact htb
          · rw [hfst]
            have hsl : (((r2.comps.map Prod.snd).filter (fun cp => cp.ctype = e.2.ctype)).map CompObj.label).Sublist
                ((r2.comps.map Prod.snd).map CompObj.label) := List.filter_sublist.map _
            rw [hlabs] at hsl
            exact hsl.nodup hr2.lab.comps
          · intro k hk
            rw [hfst]
            obtain ⟨cp, h1, h2⟩ := (o1 hc).2 k hk
            refine List.mem_map.mpr ⟨cp, List.mem_filter.mpr ⟨List.mem_map_of_mem (f := Prod.snd) h1, ?_⟩,
              hr2.lab.compKey _ h1⟩
            simpa using h2
        · intro e he hlabn
          rw [b7] at he
          rw [b8] at hlabn ⊢
          have hb := hr2.bus e he
          have hkey : e.2.label = e.1 := hr2.lab.busKey e he
          obtain ⟨tb, j1, j2, j3, j4⟩ := b1 e.2 (List.mem_map_of_mem he)
          -- the table before
          have htb : r2.tables.get? e.1 = some tb := by
            have hk : e.1 ∈ t.keys := by rw [tkeys]; exact hb.2.2
            obtain ⟨tb', htb'⟩ := Option.isSome_iff_exists.mp ((Dict.get?_isSome_iff _ _).mpr hk)
            have h2 := hother _ _ hb.1 htb'
            rw [hkey] at j1
            rw [j1] at h2
            cases h2
            have c2 := c1 e.1
            rw [if_neg hb.2.1, htb'] at c2
            exact c2.symm
          obtain ⟨o1, o2, o3, o4⟩ := hr2.ok _ _ htb
          obtain ⟨o5, o6⟩ := o2 e.2 he
          have hfst : (((r2.busComps e.2).map (fun cp => (cp.label, busRow d e.2 cp))).map Prod.fst)
              = (r2.busComps e.2).map CompObj.label := by
            rw [List.map_map]; rfl
          constructor
          · rw [hkey] at j2
            refine ⟨_, j2, o5, setAll_nodup _ o4, ?_⟩
            intro l row
            rw [setAll_mem _ (by rw [hfst]; exact hlabn) o4 ?_]
            · simp only [List.mem_map, Prod.mk.injEq]
              constructor
              · rintro ⟨cp, hcp, h1, h2⟩
                obtain ⟨v, hv⟩ := j4 cp hcp
                refine ⟨cp, hcp, h1, v, hv, ?_⟩
                rw [← h2]
                simp [busRow, hv, BusVals.row]
              · rintro ⟨cp, hcp, h1, v, hv, h2⟩
                refine ⟨cp, hcp, h1, ?_⟩
                rw [h2]
                simp [busRow, hv, BusVals.row]
            · intro k hk
              rw [hfst]
              obtain ⟨cp, h1, h2⟩ := o6 k hk
              exact h2 ▸ List.mem_map_of_mem h1
          · classical
            refine ⟨fun cp => if hcp : cp ∈ r2.busComps e.2 then (j4 cp hcp).choose else ⟨none, none, none, none⟩, ?_, ?_⟩
            · intro cp hcp
              simp only [dif_pos hcp]
              exact (j4 cp hcp).choose_spec
            · rw [j3]
              refine congrArg some (sum_column d e.2 _ _ ?_ hlabn o4 o6)
              intro cp hcp
              simp only [dif_pos hcp]
              exact (j4 cp hcp).choose_spec
        · intro e he c hce
          rw [b6] at he
          have hc := hr2.cls e he
          have hne : e.2.ctype ≠ "Connection" := fun hh => hcl (hh ▸ hc)
          have hk := (q3 e.2 (List.mem_map_of_mem he)).1
          obtain ⟨tb, htb⟩ := Option.isSome_iff_exists.mp ((Dict.get?_isSome_iff _ _).mpr hk)
          have c2 := c1 e.2.ctype
          rw [if_neg hne, htb] at c2
          have hcols := ((hr2.ok _ _ c2.symm).cls hc).1
          exact Option.isSome_iff_exists.mp (q5 e.2 (List.mem_map_of_mem he) tb htb c (hcols ▸ hce))

/-- C94: at every point of such a history, whatever the outcome of the calculations, every row of a table of results belongs
to an object of the network: rows of the table of connections to a connection, rows of the table of a class to a component of
that class, rows of the table of a bus to one of its components, and no label occurs twice. -/
theorem C94_rows_owned_partial [AddCommMonoid K] {classes : String → Prop} {cols : String → List String}
    {chk : NetTab → Option PyErr} (hcl : ¬ classes "Connection") (ops : List (ResOp K))
    (hp : Spec.ProperRun classes cols chk {} ops) (k : String) (tb : RTable K)
    (hk : (ResNet.run cols chk {} ops).tables.get? k = some tb) :
    (tb.rows.map Prod.fst).Nodup ∧ ∀ e ∈ tb.rows,
      (k = "Connection" → ∃ c ∈ (ResNet.run cols chk {} ops).conns, c.label = e.1) ∧
      (classes k → ∃ cp, (e.1, cp) ∈ (ResNet.run cols chk {} ops).comps ∧ cp.ctype = k) ∧
      (∀ b, (k, b) ∈ (ResNet.run cols chk {} ops).busses →
        ∃ cp ∈ (ResNet.run cols chk {} ops).busComps b, cp.label = e.1) := by
  have hi := rtRun_inv (chk := chk) hcl (resInv_empty classes cols) ops hp
  obtain ⟨a, b, c, n⟩ := hi.ok k tb hk
  refine ⟨n, fun e he => ?_⟩
  have hm : e.1 ∈ tb.rows.keys := List.mem_map_of_mem he
  exact ⟨fun h => List.mem_map.mp (c h _ hm), fun h => (a h).2 _ hm, fun x hx => (b x hx).2 _ hm⟩

/-! ### the postprocessing does not raise -/

theorem writeRow_none {t : Dict String (RTable K)} {key label : String} {row : List (Option K)} {tb : RTable K}
    (h : t.get? key = some tb) (hl : row.length = tb.cols.length) :
    writeRow t key label row = (t.set key { tb with rows := tb.rows.set label row }, none) := by
  unfold writeRow
  simp [h, hl]

theorem processConns_none (d : PostData K) (cs : List ConnObj) {t : Dict String (RTable K)} {tb : RTable K}
    (h : t.get? "Connection" = some tb) (hc : tb.cols = d.connCols) : (processConns d cs t).2 = none := by
  induction cs generalizing t tb with
  | nil => rfl
  | cons c cs ih =>
    rw [processConns, writeRow_none h (by simp [hc])]
    exact ih (tb := { tb with rows := tb.rows.set c.label (d.connCols.map (d.conn c)) })
      (by rw [Dict.get?_set, if_pos rfl]) hc

theorem compRow_none (param : String → Option (RParam K)) (cs : List String) (h : ∀ c ∈ cs, (param c).isSome) :
    ∃ row, compRow param cs = .ok row ∧ row.length = cs.length := by
  induction cs with
  | nil => exact ⟨[], rfl, rfl⟩
  | cons c cs ih =>
    obtain ⟨p, hp⟩ := Option.isSome_iff_exists.mp (h c List.mem_cons_self)
    obtain ⟨row, h1, h2⟩ := ih (fun x hx => h x (List.mem_cons_of_mem _ hx))
    exact ⟨p.cell :: row, by simp [compRow, hp, h1], by simp [h2]⟩

theorem processComps_none (d : PostData K) (cps : List CompObj) {t : Dict String (RTable K)}
    (h : ∀ cp ∈ cps, d.calcErr cp = none ∧ ∃ tb, t.get? cp.ctype = some tb ∧ ∀ c ∈ tb.cols, (d.param cp c).isSome) :
    (processComps d cps t).2 = none := by
  induction cps generalizing t with
  | nil => rfl
  | cons cp cps ih =>
    obtain ⟨h1, tb, h2, h3⟩ := h cp List.mem_cons_self
    obtain ⟨row, h4, h5⟩ := compRow_none _ _ h3
    simp only [processComps, h1, h2, h4, writeRow_none h2 h5]
    refine ih ?_
    intro x hx
    obtain ⟨g1, tb', g2, g3⟩ := h x (List.mem_cons_of_mem _ hx)
    refine ⟨g1, ?_⟩
    by_cases hty : x.ctype = cp.ctype
    · rw [hty, h2] at g2
      cases g2
      exact ⟨{ tb with rows := tb.rows.set cp.label row }, by rw [Dict.get?_set, if_pos hty], g3⟩
    · exact ⟨tb', by rw [Dict.get?_set, if_neg hty]; exact g2, g3⟩

theorem processBus_none (d : PostData K) (b : LabObj) (cps : List CompObj) {t : Dict String (RTable K)} {tb : RTable K}
    (h : t.get? b.label = some tb) (hc : tb.cols = busCols) (hb : ∀ cp ∈ cps, ∃ v, d.bus b cp = .ok v) :
    (rProcessBus d b cps t).2 = none := by
  induction cps generalizing t tb with
  | nil => rfl
  | cons cp cps ih =>
    obtain ⟨v, hv⟩ := hb cp List.mem_cons_self
    simp only [rProcessBus, hv]
    rw [writeRow_none h (by simp [BusVals.row, hc, busCols])]
    exact ih (tb := { tb with rows := tb.rows.set cp.label v.row }) (by rw [Dict.get?_set, if_pos rfl]) hc (fun x hx => hb x (List.mem_cons_of_mem _ hx))

theorem processBusses_none [AddCommMonoid K] (d : PostData K) (bs : List LabObj) {r : ResNet K}
    (h : ∀ b ∈ bs, (∃ tb, r.tables.get? b.label = some tb ∧ tb.cols = busCols) ∧
      ∀ cp ∈ r.busComps b, ∃ v, d.bus b cp = .ok v) : (processBusses d bs r).2 = none := by
  induction bs generalizing r with
  | nil => rfl
  | cons b bs ih =>
    obtain ⟨⟨tb, h1, h2⟩, h3⟩ := h b List.mem_cons_self
    have h4 := processBus_none d b (r.busComps b) h1 h2 h3
    rw [processBusses]
    rcases hp : rProcessBus d b (r.busComps b) r.tables with ⟨t, o⟩
    rw [hp] at h4
    simp only at h4
    subst h4
    obtain ⟨p1, p2, p3⟩ := rProcessBus_ok d b _ h1 hp
    have p4 := p1 b.label
    rw [if_pos rfl] at p4
    simp only [p4, busColumn, h2, if_true]
    refine ih ?_
    intro x hx
    obtain ⟨⟨tb', g1, g2⟩, g3⟩ := h x (List.mem_cons_of_mem _ hx)
    refine ⟨?_, g3⟩
    simp only
    rw [p1]
    by_cases hl : x.label = b.label
    · exact ⟨{ tb with rows := setAll ((r.busComps b).map (fun cp => (cp.label, busRow d b cp))) tb.rows },
        by rw [if_pos hl], h2⟩
    · exact ⟨tb', by rw [if_neg hl]; exact g1, g2⟩

/-- C94: in such a history the postprocessing does not raise if the parameters of the components can be calculated, exist for
all columns of their class and the values of the busses can be calculated. -/
theorem C94_no_exception_partial [AddCommMonoid K] {classes : String → Prop} {cols : String → List String}
    {chk : NetTab → Option PyErr} (hcl : ¬ classes "Connection") (ops : List (ResOp K))
    (hp : Spec.ProperRun classes cols chk {} ops) (d : PostData K)
    (hcalc : ∀ cp, d.calcErr cp = none) (hpar : ∀ cp, ∀ c ∈ cols cp.ctype, (d.param cp c).isSome)
    (hbus : ∀ b cp, ∃ v, d.bus b cp = .ok v)
    (hstart : ((ResNet.run cols chk {} ops).step cols chk (.solve d .noPost)).2 = none) :
    ((ResNet.run cols chk {} ops).step cols chk (.solve d .post)).2 = none := by
  have hi := rtRun_inv (chk := chk) hcl (resInv_empty classes cols) ops hp
  generalize ResNet.run cols chk {} ops = r at hi hstart
  simp only [ResNet.step, ResNet.solve] at hstart ⊢
  have h1 := rtStart_inv (chk := chk) hi hcl
  have hchk : (r.start cols chk).2 = none → (r.start cols chk).1.checked = true := by
    unfold ResNet.start
    split
    · rename_i h; intro _; exact h
    · split
      · intro h; cases h
      · split
        · intro h; cases h
        · intro _; rfl
  rcases hs : r.start cols chk with ⟨r1, o⟩
  rw [hs] at h1 hstart hchk
  cases o with
  | some e => simp at hstart
  | none =>
    simp only at h1 ⊢
    have hck : r1.checked = true := hchk rfl
    have hr2 := conn_table_inv d.connCols h1 hcl
    have hcon : Dict.get? (r1.tables.set "Connection" ⟨d.connCols, []⟩) "Connection" = some ⟨d.connCols, []⟩ := by
      rw [Dict.get?_set, if_pos rfl]
    have hck2 : ({ r1 with tables := r1.tables.set "Connection" ⟨d.connCols, []⟩ } : ResNet K).checked = true := hck
    generalize hR2 : ({ r1 with tables := r1.tables.set "Connection" ⟨d.connCols, []⟩ } : ResNet K) = r2 at hr2 hck2 ⊢
    have hcon2 : Dict.get? r2.tables "Connection" = some ⟨d.connCols, []⟩ := by rw [← hR2]; exact hcon
    unfold ResNet.postprocess
    have e1 := processConns_none d r2.conns hcon2 rfl
    rcases hpc : processConns d r2.conns r2.tables with ⟨t, o⟩
    rw [hpc] at e1
    simp only at e1
    subst e1
    simp only
    have c1 := processConns_ok d r2.conns hcon2 hpc
    have hcomp : ∀ e ∈ r2.comps, ∃ tb, t.get? e.2.ctype = some tb ∧ tb.cols = cols e.2.ctype := by
      intro e he
      have hc := hr2.cls e he
      have hk := hr2.chk hck2 e he
      obtain ⟨tb, htb⟩ := Option.isSome_iff_exists.mp ((Dict.get?_isSome_iff _ _).mpr hk)
      refine ⟨tb, ?_, ((hr2.ok _ _ htb).cls hc).1⟩
      have hne : ¬ e.2.ctype = "Connection" := fun hh => hcl (hh ▸ hc)
      rw [c1, if_neg hne]
      exact htb
    have e2 : (processComps d (r2.comps.map Prod.snd) t).2 = none := by
      refine processComps_none d _ ?_
      intro cp hcp
      obtain ⟨e, he, rfl⟩ := List.mem_map.mp hcp
      obtain ⟨tb, h2, h3⟩ := hcomp e he
      exact ⟨hcalc _, tb, h2, fun c hc => hpar _ c (h3 ▸ hc)⟩
    rcases hpp : processComps d (r2.comps.map Prod.snd) t with ⟨t', o⟩
    rw [hpp] at e2
    simp only at e2
    subst e2
    simp only
    obtain ⟨q1, q2, q3, q4⟩ := processComps_ok d _ hpp
    refine processBusses_none d _ ?_
    intro b hb
    obtain ⟨e, he, rfl⟩ := List.mem_map.mp hb
    refine ⟨?_, fun cp _ => hbus _ cp⟩
    obtain ⟨n1, n2, n3⟩ := hr2.bus e he
    obtain ⟨tb, htb⟩ := Option.isSome_iff_exists.mp ((Dict.get?_isSome_iff _ _).mpr n3)
    have g1 : t.get? e.1 = some tb := by rw [c1, if_neg n2]; exact htb
    refine ⟨_, ?_, ((hr2.ok _ _ htb).bus e.2 he).1⟩
    · have hkey : e.2.label = e.1 := hr2.lab.busKey e he
      have hfil : (r2.comps.map Prod.snd).filter (fun cp => cp.ctype = e.1) = [] := by
        rw [List.filter_eq_nil_iff]
        intro cp hcp
        obtain ⟨x, hx, rfl⟩ := List.mem_map.mp hcp
        simp only [decide_eq_true_eq]
        intro hh
        exact n1 (hh ▸ hr2.cls x hx)
      rw [hkey]
      have := q1 _ _ g1
      rw [hfil] at this
      exact this

/-! ### where the tables do not describe the network -/

/-- C94, the part that fails: a bus has the name of a class. If the table of the class of a component has the columns of a
bus, no calculation can be completed: the postprocessing looks for an attribute `component value` of the component. -/
theorem C94_class_name_false [AddCommMonoid K] {cols : String → List String} {chk : NetTab → Option PyErr} (r : ResNet K)
    (hck : r.checked = true) (e : String × CompObj) (he : e ∈ r.comps) (hne : e.2.ctype ≠ "Connection")
    (tb : RTable K) (htb : r.tables.get? e.2.ctype = some tb) (hcols : tb.cols = busCols)
    (d : PostData K) (hd : d.param e.2 "component value" = none) :
    (r.step cols chk (.solve d .post)).2 ≠ none := by
  intro h
  simp only [ResNet.step, ResNet.solve, ResNet.start, hck, if_true] at h
  unfold ResNet.postprocess at h
  rcases hpc : processConns d r.conns (r.tables.set "Connection" ⟨d.connCols, []⟩) with ⟨t, o⟩
  simp only [hpc] at h
  cases o with
  | some e => simp at h
  | none =>
    simp only at h
    rcases hpp : processComps d (r.comps.map Prod.snd) t with ⟨t', o⟩
    rw [hpp] at h
    cases o with
    | some e => simp at h
    | none =>
      have c1 := processConns_ok d r.conns (by rw [Dict.get?_set, if_pos rfl]) hpc e.2.ctype
      rw [if_neg hne, Dict.get?_set, if_neg hne, htb] at c1
      have := processComps_params d _ hpp e.2 (List.mem_map_of_mem he) tb c1 "component value" (by rw [hcols]; simp [busCols])
      rw [hd] at this
      cases this

/-- C94: a calculation without postprocessing (singular matrix, no progress, initialisation only) leaves an empty table of
connections beside the former tables of components and busses. -/
theorem C94_no_results_false [AddCommMonoid K] {cols : String → List String} {chk : NetTab → Option PyErr} (r : ResNet K)
    (hck : r.checked = true) (d : PostData K) :
    (r.step cols chk (.solve d .noPost)).2 = none ∧
    (r.step cols chk (.solve d .noPost)).1.tables.get? "Connection" = some ⟨d.connCols, []⟩ ∧
    ∀ k, k ≠ "Connection" → (r.step cols chk (.solve d .noPost)).1.tables.get? k = r.tables.get? k := by
  simp only [ResNet.step, ResNet.solve, ResNet.start, hck, if_true]
  refine ⟨trivial, by rw [Dict.get?_set, if_pos rfl], fun k hk => by rw [Dict.get?_set, if_neg hk]⟩

/-! ### concrete histories -/

/-- sample objects -/
def rtSrc : CompObj := ⟨0, "src", "Source", [], ["out1"]⟩
/-- turbine -/
def rtTur : CompObj := ⟨1, "tur", "Turbine", ["in1"], ["out1"]⟩
/-- sink -/
def rtSnk : CompObj := ⟨2, "snk", "Sink", ["in1"], []⟩
/-- another turbine with the same label -/
def rtTur' : CompObj := ⟨3, "tur", "Turbine", ["in1"], ["out1"]⟩
/-- a valve with the label of the turbine -/
def rtVal : CompObj := ⟨4, "tur", "Valve", ["in1"], ["out1"]⟩
/-- connections -/
def rtC1 : ConnObj := ⟨0, "c1", rtSrc, "out1", rtTur, "in1"⟩
/-- second connection -/
def rtC2 : ConnObj := ⟨1, "c2", rtTur, "out1", rtSnk, "in1"⟩
/-- connections of the new turbine -/
def rtC1' : ConnObj := ⟨2, "c1", rtSrc, "out1", rtTur', "in1"⟩
/-- second connection of the new turbine -/
def rtC2' : ConnObj := ⟨3, "c2", rtTur', "out1", rtSnk, "in1"⟩
/-- a connection of the valve -/
def rtC3 : ConnObj := ⟨4, "c3", rtVal, "out1", rtSnk, "in1"⟩
/-- a bus -/
def rtBus : LabObj := ⟨0, "power"⟩
/-- a bus with the name of a class -/
def rtBusT : LabObj := ⟨1, "Turbine"⟩
/-- a bus with the name of the table of connections -/
def rtBusC : LabObj := ⟨2, "Connection"⟩
/-- columns of the classes -/
def rtCols (ty : String) : List String := if ty = "Turbine" then ["P", "eta_s"] else []
/-- values of a calculation: the power is -10 for the first turbine and -7 for the second, the efficiency is not shown -/
def rtData : PostData ℤ where
  connCols := ["m", "p", "h"]
  conn := fun c n => if n = "m" then some 1 else if n = "p" then some (10 - c.id) else none
  calcErr := fun _ => none
  param := fun cp n =>
    if n = "P" then some ⟨some (if cp.id = 1 then -10 else -7), true, false, false⟩
    else if n = "eta_s" then some ⟨some 1, false, false, false⟩ else none
  bus := fun _ cp => .ok ⟨some (if cp.id = 1 then -10 else -7), some (if cp.id = 1 then -10 else -7), some 1, none⟩

/-- classes of the sample -/
def rtClasses (k : String) : Prop := k = "Source" ∨ k = "Turbine" ∨ k = "Sink"

-- non-vacuity: the hypotheses of C94_describes_partial and C94_no_exception_partial hold for a history in which a turbine
-- is replaced after a calculation
def rtHistory : List (ResOp ℤ) :=
  [.addConns [some rtC1, some rtC2], .addBusses [some rtBus], .busAdd rtBus rtTur, .solve rtData .post,
   .delConns [rtC1, rtC2], .addConns [some rtC1', some rtC2'], .solve rtData .noPost]

theorem rtHistory_proper : Spec.ProperRun rtClasses rtCols (fun _ => none) {} rtHistory := by
  refine ⟨⟨by decide +kernel, ?_⟩, ?_, trivial, trivial, ⟨by decide +kernel, by decide +kernel⟩,
    ⟨by decide +kernel, ?_⟩, trivial, trivial⟩
  · intro c hc
    simp only [List.mem_cons, Option.some.injEq, List.not_mem_nil, or_false] at hc
    rcases hc with rfl | rfl <;> exact ⟨by simp [rtClasses, rtC1, rtC2, rtSrc, rtTur], by simp [rtClasses, rtC1, rtC2, rtTur, rtSnk]⟩
  · intro b hb
    simp only [List.mem_cons, Option.some.injEq, List.not_mem_nil, or_false] at hb
    subst hb
    exact ⟨by simp [rtClasses, rtBus], by simp [rtBus]⟩
  · intro c hc
    simp only [List.mem_cons, Option.some.injEq, List.not_mem_nil, or_false] at hc
    rcases hc with rfl | rfl <;>
      exact ⟨by simp [rtClasses, rtC1', rtC2', rtSrc, rtTur'], by simp [rtClasses, rtC1', rtC2', rtTur', rtSnk]⟩

example : ¬ rtClasses "Connection" ∧
    ((ResNet.run rtCols (fun _ => none) {} rtHistory).step rtCols (fun _ => none) (.solve rtData .post)).2 = none ∧
    ((((ResNet.run rtCols (fun _ => none) {} rtHistory).step rtCols (fun _ => none) (.solve rtData .post)).1.tables.get?
      "Turbine").map RTable.rows) = some [("tur", [some (-7), none])] := by
  refine ⟨by simp [rtClasses], by decide +kernel, by decide +kernel⟩

/-- C94, the part that fails: a turbine is replaced by another one with the same label, and the new one is added to the bus
of the old one. Both contribute to the equation of the bus, but the table has one row for both, and the value of the bus is
that of one of them. -/
theorem C94_bus_total_false :
    ∃ ops : List (ResOp ℤ), Spec.ProperRun rtClasses rtCols (fun _ => none) {} ops ∧
      ∀ r, r = ((ResNet.run rtCols (fun _ => none) {} ops).step rtCols (fun _ => none) (.solve rtData .post)).1 →
        r.busComps rtBus = [rtTur, rtTur'] ∧ r.total rtBus = some (-7) := by
  refine ⟨rtHistory ++ [.busAdd rtBus rtTur'], ?_, ?_⟩
  · have h := rtHistory_proper
    simp only [rtHistory, Spec.ProperRun, List.cons_append, List.nil_append] at h ⊢
    obtain ⟨h1, h2, h3, h4, h5, h6, h7, _⟩ := h
    exact ⟨h1, h2, h3, h4, h5, h6, h7, trivial, trivial⟩
  · rintro r rfl
    exact ⟨by decide +kernel, by decide +kernel⟩

/-- C94, the part that fails: a bus with the name of a class. Added before the first calculation it prevents every
calculation; removed later it takes the table of the class with it. A bus named `Connection` has the same effect. -/
theorem C94_bus_name_false :
    ((ResNet.run rtCols (fun _ => none) {} [.addBusses [some rtBusT], .addConns [some rtC1, some rtC2]]).step rtCols
      (fun _ => none) (.solve rtData .post)).2 = some .keyError ∧
    ((ResNet.run rtCols (fun _ => none) {} [.addConns [some rtC1, some rtC2], .solve rtData .post,
      .addBusses [some rtBusT], .delBusses [rtBusT]]).step rtCols (fun _ => none) (.solve rtData .post)).2
      = some .keyError ∧
    ((ResNet.run rtCols (fun _ => none) {} [.addConns [some rtC1, some rtC2], .addBusses [some rtBusC],
      .busAdd rtBusC rtTur]).step rtCols (fun _ => none) (.solve rtData .post)).2 = some .valueError :=
  ⟨by decide +kernel, by decide +kernel, by decide +kernel⟩

/-- C94, the part that fails: the addition of a connection raises because of the label of its component, but the connection
is listed. Deleting it removes the other component with that label from the network; its row stays in the table of its
class. -/
theorem C94_failed_add_false :
    ∃ r : ResNet ℤ, r = ResNet.run rtCols (fun _ => none) {}
        [.addConns [some rtC1, some rtC2], .solve rtData .post, .addConns [some rtC3], .delConns [rtC3]] ∧
      r.conns = [rtC1, rtC2] ∧ r.comps.get? "tur" = none ∧
      ((r.tables.get? "Turbine").map RTable.rows) = some [("tur", [some (-10), none])] :=
  ⟨_, rfl, by decide +kernel, by decide +kernel, by decide +kernel⟩

-- non-vacuity of C94_class_name_false and C94_no_results_false
example : ∃ r : ResNet ℤ, r.checked = true ∧ ("tur", rtTur) ∈ r.comps ∧
    (r.tables.get? "Turbine").map RTable.cols = some busCols ∧ rtData.param rtTur "component value" = none :=
  ⟨ResNet.run rtCols (fun _ => none) {} [.addConns [some rtC1, some rtC2], .solve rtData .post, .addBusses [some rtBusT]],
    by decide +kernel, by decide +kernel, by decide +kernel, by decide +kernel⟩

end Tespy
