import Verif.Model.ResultTables
import Verif.Lemmas.DictLemmas
import Verif.Props.Tables

/-! Lemmas about the tables of results (Model/ResultTables.lean). -/
namespace Tespy

variable {K : Type}

/-! ### rows -/

/-- Several rows are written. -/
def setAll (l : List (String × List (Option K))) (rows : Dict String (List (Option K))) : Dict String (List (Option K)) :=
  l.foldl (fun r e => Dict.set r e.1 e.2) rows

theorem mem_iff_get? {κ β : Type} [DecidableEq κ] {d : Dict κ β} (h : d.keys.Nodup) (k : κ) (b : β) :
    (k, b) ∈ d ↔ d.get? k = some b :=
  ⟨Dict.get?_of_mem h, Dict.mem_of_get?⟩

theorem setAll_nodup (l : List (String × List (Option K))) {rows : Dict String (List (Option K))} (h : rows.keys.Nodup) :
    (setAll l rows).keys.Nodup := by
  induction l generalizing rows with
  | nil => exact h
  | cons e l ih => exact ih (Dict.nodup_keys_set _ _ h)

theorem setAll_get? (l : List (String × List (Option K))) (hl : (l.map Prod.fst).Nodup)
    (rows : Dict String (List (Option K))) (k : String) :
    (setAll l rows).get? k = (match Dict.get? l k with | some b => some b | none => Dict.get? rows k) := by
  induction l generalizing rows with
  | nil => rfl
  | cons e l ih =>
    obtain ⟨a, b⟩ := e
    simp only [List.map_cons, List.nodup_cons] at hl
    rw [setAll, List.foldl_cons, ← setAll, ih hl.2]
    by_cases hk : a = k
    · subst hk
      have hn : Dict.get? l a = none := (Dict.get?_eq_none_iff l a).mpr hl.1
      simp [hn, Dict.get?, Dict.get?_set]
    · have hk' : ¬ k = a := fun h => hk h.symm
      simp [Dict.get?, hk, Dict.get?_set, hk']

/-- Rows after writing rows for all labels that occur. -/
theorem setAll_mem (l : List (String × List (Option K))) (hl : (l.map Prod.fst).Nodup)
    {rows : Dict String (List (Option K))} (h : rows.keys.Nodup) (hsub : ∀ k ∈ rows.keys, k ∈ l.map Prod.fst)
    (k : String) (b : List (Option K)) : (k, b) ∈ setAll l rows ↔ (k, b) ∈ l := by
  rw [mem_iff_get? (setAll_nodup l h), setAll_get? l hl]
  have hl' : Dict.keys l = l.map Prod.fst := rfl
  rw [mem_iff_get? (d := l) (by rw [hl']; exact hl)]
  cases hg : Dict.get? l k with
  | some c => rfl
  | none =>
    have h1 : k ∉ l.map Prod.fst := (Dict.get?_eq_none_iff l k).mp hg
    have h2 : Dict.get? rows k = none := (Dict.get?_eq_none_iff rows k).mpr (fun hk => h1 (hsub k hk))
    simp [h2]

/-! ### dropping rows -/

theorem keys_dropRow (t : Dict String (RTable K)) (key l : String) : (dropRow t key l).keys = t.keys := by
  induction t with
  | nil => rfl
  | cons e t ih =>
    simp only [dropRow, Dict.keys, List.map_cons, List.map_map] at ih ⊢
    rw [ih]
    split <;> rfl

theorem get?_dropRow (t : Dict String (RTable K)) (key l k : String) :
    (dropRow t key l).get? k = (Dict.get? t k).map (fun tb =>
      if k = key then { tb with rows := tb.rows.filter (fun e => e.1 ≠ l) } else tb) := by
  induction t with
  | nil => rfl
  | cons e t ih =>
    obtain ⟨a, tb⟩ := e
    have ih' : Dict.get? (dropRow t key l) k = _ := ih
    by_cases hk : a = k
    · subst hk
      by_cases ha : a = key <;> simp [dropRow, Dict.get?, ha]
    · have hk' : ¬ k = a := fun h => hk h.symm
      by_cases ha : a = key
      · subst ha
        simp only [dropRow, List.map_cons, if_true, Dict.get?, if_neg hk'] at ih' ⊢
        exact ih'
      · simp only [dropRow, List.map_cons, if_neg ha, Dict.get?, if_neg hk'] at ih' ⊢
        exact ih'

/-! ### projection to the registration tables -/

theorem rDelConnRows_tab (cs : List ConnObj) (r : ResNet K) :
    (rDelConnRows cs r).1.tab = (delConnRows cs r.tab).1 ∧ (rDelConnRows cs r).2 = (delConnRows cs r.tab).2 := by
  induction cs generalizing r with
  | nil => exact ⟨rfl, rfl⟩
  | cons c cs ih =>
    unfold rDelConnRows delConnRows
    by_cases h : c.label ∈ r.conns.map ConnObj.label
    · rw [if_pos h, if_pos (show c.label ∈ r.tab.conns.map ConnObj.label from h)]
      have hk := ih { r with conns := r.conns.filter (fun d => d.label ≠ c.label),
                             tables := dropRow r.tables "Connection" c.label }
      have e : ({ r with conns := r.conns.filter (fun d => d.label ≠ c.label),
                         tables := dropRow r.tables "Connection" c.label } : ResNet K).tab
          = { r.tab with conns := r.tab.conns.filter (fun d => d.label ≠ c.label) } := by
        simp only [ResNet.tab, keys_dropRow]
      rw [e] at hk
      exact hk
    · rw [if_neg h, if_neg (show c.label ∉ r.tab.conns.map ConnObj.label from h)]
      exact ⟨rfl, rfl⟩

theorem rDelComps_tab (cps : List CompObj) (r : ResNet K) :
    (rDelComps cps r).1.tab = (delComps cps r.tab).1 ∧ (rDelComps cps r).2 = (delComps cps r.tab).2 := by
  induction cps generalizing r with
  | nil => exact ⟨rfl, rfl⟩
  | cons cp cps ih =>
    unfold rDelComps delComps
    by_cases h : cp ∉ r.conns.map ConnObj.source ∧ cp ∉ r.conns.map ConnObj.target
    · rw [if_pos h, if_pos (show cp ∉ r.tab.conns.map ConnObj.source ∧ cp ∉ r.tab.conns.map ConnObj.target from h)]
      by_cases h2 : cp.label ∈ r.comps.keys
      · rw [if_pos h2, if_pos (show cp.label ∈ r.tab.comps.keys from h2)]
        by_cases h3 : cp.ctype ∈ r.tables.keys
        · rw [if_pos h3]
          simp only
          rw [if_pos (show cp.ctype ∈ r.tab.results from h3)]
          have hk := ih { r with comps := r.comps.erase cp.label, tables := dropRow r.tables cp.ctype cp.label }
          have e : ({ r with comps := r.comps.erase cp.label,
                             tables := dropRow r.tables cp.ctype cp.label } : ResNet K).tab
              = { r.tab with comps := r.tab.comps.erase cp.label } := by
            simp only [ResNet.tab, keys_dropRow]
          rw [e] at hk
          exact hk
        · rw [if_neg h3]
          simp only
          rw [if_neg (show cp.ctype ∉ r.tab.results from h3)]
          exact ⟨rfl, rfl⟩
      · rw [if_neg h2, if_neg (show cp.label ∉ r.tab.comps.keys from h2)]
        exact ⟨rfl, rfl⟩
    · rw [if_neg h, if_neg (show ¬ (cp ∉ r.tab.conns.map ConnObj.source ∧ cp ∉ r.tab.conns.map ConnObj.target) from h)]
      exact ih r

theorem delConns_tab (args : List ConnObj) (r : ResNet K) :
    (r.delConns args).1.tab = (r.tab.delConns args).1 ∧ (r.delConns args).2 = (r.tab.delConns args).2 := by
  unfold ResNet.delConns NetTab.delConns
  obtain ⟨h1, h2⟩ := rDelConnRows_tab args r
  rcases hx : rDelConnRows args r with ⟨r1, o1⟩
  rcases hy : delConnRows args r.tab with ⟨s1, o2⟩
  rw [hx, hy] at h1 h2
  simp only at h1 h2
  subst h1 h2
  cases o1 with
  | some e => exact ⟨rfl, rfl⟩
  | none =>
    simp only
    obtain ⟨h3, h4⟩ := rDelComps_tab (endpoints args) r1
    rcases hz : rDelComps (endpoints args) r1 with ⟨r2, o3⟩
    rcases hw : delComps (endpoints args) r1.tab with ⟨s2, o4⟩
    rw [hz, hw] at h3 h4
    simp only at h3 h4
    subst h3 h4
    cases o3 with
    | some e => exact ⟨rfl, rfl⟩
    | none => exact ⟨rfl, rfl⟩

theorem addConns_tab (args : List (Option ConnObj)) (r : ResNet K) :
    (r.addConns args).1.tab = (r.tab.addConns args).1 ∧ (r.addConns args).2 = (r.tab.addConns args).2 := by
  refine ⟨?_, rfl⟩
  obtain ⟨h1, h2, h3, h4, h5, h6, h7, h8⟩ := addConnRows_spec args r.tab
  unfold NetTab.addConns ResNet.addConns NetTab.addConns
  rcases hx : addConnRows args r.tab with ⟨s1, o⟩
  rw [hx] at h1 h2 h3 h4 h5 h7 h8
  simp only at h1 h2 h3 h4 h5
  cases o with
  | some e =>
    obtain ⟨c1, c2, c3, c4, c5, c6, c7⟩ := s1
    simp only at h2 h3 h4 h5
    subst h2 h3 h4 h5
    rfl
  | none =>
    have hf := addComps_frame (endpoints (args.filterMap id)) s1
    simp only
    generalize addComps (endpoints (args.filterMap id)) s1 = q at hf
    obtain ⟨⟨c1, c2, c3, c4, c5, c6, c7⟩, o⟩ := q
    simp only [h2, h3, h4, h5] at hf
    obtain ⟨_, e2, e3, e4, _, e6⟩ := hf
    subst e2 e3 e4 e6
    rfl

/-! ### postprocessing -/

theorem writeRow_ok {t t' : Dict String (RTable K)} {key label : String} {row : List (Option K)}
    (h : writeRow t key label row = (t', none)) :
    ∃ tb, t.get? key = some tb ∧ t' = t.set key { tb with rows := tb.rows.set label row } := by
  unfold writeRow at h
  cases hg : Dict.get? t key with
  | none => simp [hg] at h
  | some tb =>
    simp only [hg] at h
    split at h
    · simp only [Prod.mk.injEq, and_true] at h
      exact ⟨tb, rfl, h.symm⟩
    · simp at h

theorem writeRow_get? {t t' : Dict String (RTable K)} {key label : String} {row : List (Option K)}
    (h : writeRow t key label row = (t', none)) :
    ∃ tb, t.get? key = some tb ∧ ∀ k, t'.get? k =
      if k = key then some { tb with rows := tb.rows.set label row } else t.get? k := by
  obtain ⟨tb, h1, h2⟩ := writeRow_ok h
  exact ⟨tb, h1, fun k => by rw [h2, Dict.get?_set]⟩

theorem writeRow_keys {t : Dict String (RTable K)} {key label : String} {row : List (Option K)} :
    (writeRow t key label row).1.keys = t.keys := by
  unfold writeRow
  cases hg : Dict.get? t key with
  | none => rfl
  | some tb =>
    simp only
    split
    · exact Dict.keys_set_of_mem _ ((Dict.get?_isSome_iff t key).mp (by rw [hg]; rfl))
    · rfl

theorem processConns_ok (d : PostData K) (cs : List ConnObj) {t t' : Dict String (RTable K)} {tb : RTable K}
    (h0 : t.get? "Connection" = some tb) (h : processConns d cs t = (t', none)) (k : String) :
    t'.get? k = if k = "Connection" then
      some { tb with rows := setAll (cs.map (fun c => (c.label, d.connCols.map (d.conn c)))) tb.rows } else t.get? k := by
  induction cs generalizing t tb with
  | nil =>
    simp only [processConns, Prod.mk.injEq, and_true] at h
    subst h
    split
    · rename_i hk; subst hk; rw [h0]; rfl
    · rfl
  | cons c cs ih =>
    rw [processConns] at h
    rcases hw : writeRow t "Connection" c.label (d.connCols.map (d.conn c)) with ⟨t1, o⟩
    rw [hw] at h
    cases o with
    | some e => simp at h
    | none =>
      simp only at h
      obtain ⟨tb', h1, h2⟩ := writeRow_get? hw
      rw [h0] at h1
      cases h1
      have h3 := h2 "Connection"
      rw [if_pos rfl] at h3
      rw [ih h3 h]
      by_cases hk : k = "Connection"
      · subst hk; simp [setAll]
      · rw [if_neg hk, if_neg hk, h2 k, if_neg hk]

theorem compRow_ok {param : String → Option (RParam K)} {cs : List String} {row : List (Option K)}
    (h : compRow param cs = .ok row) :
    row = cs.map (fun c => (param c).bind RParam.cell) ∧ ∀ c ∈ cs, (param c).isSome := by
  induction cs generalizing row with
  | nil =>
    simp only [compRow, Except.ok.injEq] at h
    subst h; simp
  | cons c cs ih =>
    rw [compRow] at h
    cases hp : param c with
    | none => simp [hp] at h
    | some p =>
      simp only [hp] at h
      cases hr : compRow param cs with
      | error e => simp [hr] at h
      | ok l =>
        simp only [hr, Except.ok.injEq] at h
        obtain ⟨e1, e2⟩ := ih hr
        subst h
        refine ⟨by simp [hp, e1], ?_⟩
        intro x hx
        rcases List.mem_cons.mp hx with rfl | hx
        · simp [hp]
        · exact e2 x hx

/-- The row of a component. -/
def compCells (d : PostData K) (cols : List String) (cp : CompObj) : List (Option K) :=
  cols.map (fun c => (d.param cp c).bind RParam.cell)

theorem processComps_ok (d : PostData K) (cps : List CompObj) {t t' : Dict String (RTable K)}
    (h : processComps d cps t = (t', none)) :
    (∀ ty tb, t.get? ty = some tb → t'.get? ty = some { tb with
        rows := setAll ((cps.filter (fun cp => cp.ctype = ty)).map (fun cp => (cp.label, compCells d tb.cols cp))) tb.rows })
    ∧ (∀ ty, t.get? ty = none → t'.get? ty = none)
    ∧ (∀ cp ∈ cps, cp.ctype ∈ t.keys ∧ d.calcErr cp = none) ∧ t'.keys = t.keys := by
  induction cps generalizing t with
  | nil =>
    simp only [processComps, Prod.mk.injEq, and_true] at h
    subst h
    simp [setAll]
  | cons cp cps ih =>
    rw [processComps] at h
    cases hc : d.calcErr cp with
    | some e => simp [hc] at h
    | none =>
      simp only [hc] at h
      cases hg : Dict.get? t cp.ctype with
      | none => simp [hg] at h
      | some tb0 =>
        simp only [hg] at h
        cases hr : compRow (d.param cp) tb0.cols with
        | error e => simp [hr] at h
        | ok row =>
          simp only [hr] at h
          rcases hw : writeRow t cp.ctype cp.label row with ⟨t1, o⟩
          rw [hw] at h
          cases o with
          | some e => simp at h
          | none =>
            simp only at h
            obtain ⟨tb', h1, h2⟩ := writeRow_get? hw
            rw [hg] at h1
            cases h1
            have hkeys : t1.keys = t.keys := by
              have := writeRow_keys (t := t) (key := cp.ctype) (label := cp.label) (row := row)
              rw [hw] at this; exact this
            obtain ⟨i1, i2, i3, i4⟩ := ih h
            have hrow := (compRow_ok hr).1
            refine ⟨?_, ?_, ?_, i4.trans hkeys⟩
            · intro ty tb htb
              by_cases hty : ty = cp.ctype
              · subst hty
                rw [hg] at htb
                cases htb
                have h3 := h2 cp.ctype
                rw [if_pos rfl] at h3
                rw [i1 _ _ h3]
                simp [setAll, compCells, hrow]
              · have h3 := h2 ty
                rw [if_neg hty, htb] at h3
                rw [i1 _ _ h3]
                have hty' : ¬ cp.ctype = ty := fun h => hty h.symm
                simp [hty']
            · intro ty hty
              refine i2 ty ?_
              rw [h2 ty]
              by_cases hx : ty = cp.ctype
              · subst hx; rw [hg] at hty; cases hty
              · rw [if_neg hx]; exact hty
            · intro cp' hcp'
              rcases List.mem_cons.mp hcp' with rfl | hcp'
              · exact ⟨(Dict.get?_isSome_iff t cp'.ctype).mp (by rw [hg]; rfl), hc⟩
              · rw [← hkeys]; exact i3 cp' hcp'

/-- The row of a component in the table of a bus. -/
def busRow (d : PostData K) (b : LabObj) (cp : CompObj) : List (Option K) :=
  match d.bus b cp with
  | .ok v => v.row
  | .error _ => []

theorem rProcessBus_ok (d : PostData K) (b : LabObj) (cps : List CompObj) {t t' : Dict String (RTable K)} {tb : RTable K}
    (h0 : t.get? b.label = some tb) (h : rProcessBus d b cps t = (t', none)) :
    (∀ k, t'.get? k = if k = b.label then
      some { tb with rows := setAll (cps.map (fun cp => (cp.label, busRow d b cp))) tb.rows } else t.get? k)
    ∧ (∀ cp ∈ cps, ∃ v, d.bus b cp = .ok v) ∧ t'.keys = t.keys := by
  induction cps generalizing t tb with
  | nil =>
    simp only [rProcessBus, Prod.mk.injEq, and_true] at h
    subst h
    refine ⟨fun k => ?_, by simp, rfl⟩
    split
    · rename_i hk; subst hk; rw [h0]; rfl
    · rfl
  | cons cp cps ih =>
    rw [rProcessBus] at h
    cases hb : d.bus b cp with
    | error e => simp [hb] at h
    | ok v =>
      simp only [hb] at h
      rcases hw : writeRow t b.label cp.label v.row with ⟨t1, o⟩
      rw [hw] at h
      cases o with
      | some e => simp at h
      | none =>
        simp only at h
        obtain ⟨tb', h1, h2⟩ := writeRow_get? hw
        rw [h0] at h1
        cases h1
        have hkeys : t1.keys = t.keys := by
          have := writeRow_keys (t := t) (key := b.label) (label := cp.label) (row := v.row)
          rw [hw] at this; exact this
        have h3 := h2 b.label
        rw [if_pos rfl] at h3
        obtain ⟨i1, i2, i3⟩ := ih h3 h
        have hrow : busRow d b cp = v.row := by simp [busRow, hb]
        refine ⟨fun k => ?_, ?_, i3.trans hkeys⟩
        · rw [i1 k]
          by_cases hk : k = b.label
          · subst hk; simp [setAll, hrow]
          · rw [if_neg hk, if_neg hk, h2 k, if_neg hk]
        · intro cp' hcp'
          rcases List.mem_cons.mp hcp' with rfl | hcp'
          · exact ⟨v, hb⟩
          · exact i2 cp' hcp'

theorem processBusses_ok [AddCommMonoid K] (d : PostData K) (bs : List LabObj) (hn : (bs.map LabObj.label).Nodup)
    {r r' : ResNet K} (hb : ∀ b ∈ bs, b.label ∈ r.tables.keys) (h : processBusses d bs r = (r', none)) :
    (∀ b ∈ bs, ∃ tb, r.tables.get? b.label = some tb ∧
        r'.tables.get? b.label = some { tb with
          rows := setAll ((r.busComps b).map (fun cp => (cp.label, busRow d b cp))) tb.rows } ∧
        r'.total b = some (sumSkip ((setAll ((r.busComps b).map (fun cp => (cp.label, busRow d b cp))) tb.rows).map
          (fun e => (e.2[1]?).getD none))) ∧
        ∀ cp ∈ r.busComps b, ∃ v, d.bus b cp = .ok v)
    ∧ (∀ k, k ∉ bs.map LabObj.label → r'.tables.get? k = r.tables.get? k)
    ∧ (∀ b, b ∉ bs → r'.total b = r.total b)
    ∧ r'.tables.keys = r.tables.keys
    ∧ r'.conns = r.conns ∧ r'.comps = r.comps ∧ r'.busses = r.busses ∧ r'.busComps = r.busComps
    ∧ r'.checked = r.checked := by
  induction bs generalizing r with
  | nil =>
    simp only [processBusses, Prod.mk.injEq, and_true] at h
    subst h
    simp
  | cons b bs ih =>
    simp only [List.map_cons, List.nodup_cons] at hn
    rw [processBusses] at h
    rcases hp : rProcessBus d b (r.busComps b) r.tables with ⟨t, o⟩
    rw [hp] at h
    cases o with
    | some e => simp at h
    | none =>
      simp only at h
      have hbk := hb b (List.mem_cons_self)
      obtain ⟨tb, htb⟩ := Option.isSome_iff_exists.mp ((Dict.get?_isSome_iff _ _).mpr hbk)
      obtain ⟨p1, p2, p3⟩ := rProcessBus_ok d b _ htb hp
      have p1b := p1 b.label
      rw [if_pos rfl] at p1b
      rw [p1b] at h
      simp only at h
      unfold busColumn at h
      by_cases hc : tb.cols = busCols
      · simp only [hc, if_true] at h
        have hb' : ∀ b' ∈ bs, b'.label ∈ t.keys := by
          intro b' hb'
          rw [p3]
          exact hb b' (List.mem_cons_of_mem _ hb')
        obtain ⟨i1, i2, i3, i4, i5, i6, i7, i8, i9⟩ := ih hn.2 (r := { r with tables := t, total := _ }) hb' h
        refine ⟨?_, ?_, ?_, i4.trans p3, i5, i6, i7, i8, i9⟩
        · intro b' hb''
          by_cases hbb : b' = b
          · subst hbb
            have hnot : b' ∉ bs := fun hh => hn.1 (List.mem_map_of_mem hh)
            refine ⟨tb, htb, ?_, ?_, p2⟩
            · rw [i2 _ hn.1, p1b]
            · rw [i3 _ hnot]; simp
          · have hmem : b' ∈ bs := by
              rcases List.mem_cons.mp hb'' with rfl | hh
              · exact absurd rfl hbb
              · exact hh
            obtain ⟨tb', j1, j2, j3, j4⟩ := i1 b' hmem
            have hl : ¬ b'.label = b.label := by
              intro hl
              exact hn.1 (hl ▸ List.mem_map_of_mem hmem)
            have := p1 b'.label
            rw [if_neg hl] at this
            rw [this] at j1
            exact ⟨tb', j1, j2, j3, j4⟩
        · intro k hk
          simp only [List.map_cons, List.mem_cons, not_or] at hk
          rw [i2 k hk.2, p1 k, if_neg hk.1]
        · intro b' hb''
          simp only [List.mem_cons, not_or] at hb''
          rw [i3 b' hb''.2]
          simp [Function.update, hb''.1]
      · simp [hc] at h

end Tespy
