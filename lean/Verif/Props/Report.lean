import Verif.Lemmas.Report
import Mathlib.Data.List.Infix
import Mathlib.Data.List.Sublists

/-!
# C110: the LaTeX report of a model

`document_model(nw)` is to give a report for every solved network, in which what the user specified
is highlighted and has its equation, and whose figures are in the files the report includes.
-/

namespace Tespy.Report

variable {K : Type}

/-! ## Specification -/

/-- the label has no slash -/
def Spec.NoSlash (l : PathStr) : Prop := ∃ x, l = [x]

/-- the properties which can refer to another connection -/
def Spec.refNames : List String := ["m_ref", "p_ref", "h_ref", "T_ref", "v_ref"]

/-- the properties of a connection a user can see in the report, with the names in print -/
def Spec.connProps : List (String × String) :=
  [("m", "mass flow"), ("v", "volumetric flow"), ("p", "pressure"), ("h", "enthalpy"),
   ("T", "temperature"), ("Td_bp", "temperature difference to boiling point"),
   ("vol", "specific volume"), ("x", "vapor mass fraction"), ("s", "entropy")]

/-- no property of a connection refers to another connection -/
def Spec.NoRef (n : Net K) : Prop := ∀ c ∈ n.conns, ∀ r ∈ Spec.refNames, c.refSet r = false

/-- each component on a bus can say what its equation is -/
def Spec.BusDocs (n : Net K) : Prop := ∀ b ∈ n.busses, ∀ c ∈ b.comps, c.doc ≠ none

/-- each bus has a component -/
def Spec.BussesUsed (n : Net K) : Prop := ∀ b ∈ n.busses, b.comps ≠ []

/-- no label has a slash -/
def Spec.PlainLabels (n : Net K) : Prop :=
  (∀ u ∈ n.udes, Spec.NoSlash u.label) ∧ (∀ k ∈ n.classes, ∀ c ∈ k.comps, Spec.NoSlash c.label)
    ∧ ∀ b ∈ n.busses, ∀ c ∈ b.comps, Spec.NoSlash c.label

/-- the only figures are those of the specified characteristics of components: none of user defined
equations, of mandatory constraints and of busses -/
def Spec.OnlyComponentFigures (n : Net K) : Prop :=
  (∀ u ∈ n.udes, u.lines = 0 ∧ u.maps = 0)
    ∧ (∀ k ∈ n.classes, ∀ x ∈ k.constraints, x.2 = false)
    ∧ ∀ b ∈ n.busses, ∀ c ∈ b.comps, c.charConst = true

/-- the parameter is an element of a group that is specified for a component of the class -/
def Spec.InGroup (k : Class K) (q : String) : Prop :=
  ∃ g ∈ k.params, ∃ es, g.kind = .group es ∧ q ∈ es ∧ ∃ c ∈ k.comps, c.set g.name = true

/-! ## Local files -/

theorem localPath_single (pre x post : String) :
    ∃ y, localPath pre [x] post = ["figures", y] := ⟨_, rfl⟩

/-- every local file is in the folder of the figures -/
theorem localPath_head (pre post : String) (l : PathStr) :
    ∃ r, localPath pre l post = "figures" :: r := by
  unfold localPath
  rw [cat_cons_cons]
  cases h : cat [pre] (us l) with
  | nil => cases hu : us l <;> rw [hu] at h <;> simp [cat] at h
  | cons a as => exact ⟨_, cat_cons_cons ..⟩

theorem charFile_local {cls param : String} {kind : Kind} {c : Comp K} {x : PathStr × PathStr}
    (h : charFile cls kind param c = some x) :
    ∃ pre post, x.1 = localPath pre c.label post := by
  cases kind <;> simp [charFile] at h <;> subst h <;> exact ⟨_, _, rfl⟩

theorem figures_local {k : Class K} {x : PathStr × PathStr} (h : x ∈ k.figures) :
    ∃ c ∈ k.comps, ∃ pre post, x.1 = localPath pre c.label post := by
  simp only [Class.figures, List.mem_append, List.mem_flatMap, List.mem_filterMap] at h
  rcases h with ⟨p, _, c, hc, h⟩ | ⟨p, _, c, hc, e, _, h⟩
  · exact ⟨c, hc, charFile_local h⟩
  · exact ⟨c, hc, charFile_local h⟩

theorem udeFiles_local {u : Ude} {l : PathStr} (h : l ∈ udeFiles u) :
    ∃ pre post, l = localPath pre u.label post := by
  simp only [udeFiles, List.mem_append, List.mem_map] at h
  rcases h with ⟨i, _, rfl⟩ | ⟨i, _, rfl⟩ <;> exact ⟨_, _, rfl⟩

section
variable [AddMonoid K]

/-- the files of the report: each local file is written to the path joined with it, or to the
concatenation of the two -/
theorem doc_plot {f : Fmt} {path : PathStr} {n : Net K} {w : PathStr}
    (h : Act.plot w ∈ documentActs f path n) :
    ∃ pre l post, (w = pathJoin path (localPath pre l post)
        ∨ (w = cat path (localPath pre l post) ∧ ¬ Spec.OnlyComponentFigures n))
      ∧ (Spec.PlainLabels n → Spec.NoSlash l) := by
  rcases (doc_mem ..).1 h with h | h | h | h | ⟨k, hk, h | h⟩ | h
  · exact absurd h (plot_refActs n w)
  · exact absurd h ((quiet_connActs f n).plot w)
  · exact absurd h ((quiet_fluidActs f n).plot w)
  · obtain ⟨u, hu, l, hl, rfl⟩ := (plot_ude ..).1 h
    obtain ⟨pre, post, rfl⟩ := udeFiles_local hl
    refine ⟨pre, u.label, post, Or.inr ⟨rfl, fun ho => ?_⟩, fun hp => hp.1 u hu⟩
    have := ho.1 u hu
    simp [udeFiles, this.1, this.2] at hl
  · obtain ⟨x, hx, rfl⟩ := (plot_constraintActs ..).1 h
    simp only [constraintChars, List.mem_flatMap, List.mem_filter, List.mem_map] at hx
    obtain ⟨y, ⟨hy, hy2⟩, c, hc, rfl⟩ := hx
    refine ⟨_, c.label, _, Or.inr ⟨rfl, fun ho => ?_⟩, fun hp => hp.2.1 k hk c hc⟩
    rw [ho.2.1 k hk y hy] at hy2
    cases hy2
  · obtain ⟨x, hx, rfl⟩ := (plot_specActs ..).1 h
    obtain ⟨c, hc, pre, post, hl⟩ := figures_local hx
    exact ⟨pre, c.label, post, Or.inl (by rw [hl]), fun hp => hp.2.1 k hk c hc⟩
  · obtain ⟨b, hb, pl, h⟩ := mem_busses _ _ _ _ _ _ h
    obtain ⟨x, hx, rfl⟩ := (plot_busActs ..).1 h
    obtain ⟨c, hc, hcc, rfl⟩ := busRows_figures _ _ _ _ _ _ _ hx
    refine ⟨_, c.label, _, Or.inr ⟨rfl, fun ho => ?_⟩, fun hp => hp.2.2 b hb c hc⟩
    rw [ho.2.2 b hb c hc] at hcc
    cases hcc

theorem makedirs_hasDir (s : FS) (p : PathStr) : (s.makedirs p).hasDir (norm p) = true := by
  unfold FS.hasDir FS.makedirs
  rw [Bool.or_eq_true]
  right
  refine decide_eq_true ?_
  refine List.mem_append_right _ (List.mem_map.2 ⟨(norm p).2, ?_, rfl⟩)
  exact (List.mem_inits ..).2 (List.prefix_refl _)

theorem dropLast_join {path : PathStr} (hp : path ≠ []) (y : String) :
    (pathJoin path ["figures", y]).dropLast = pathJoin path ["figures"] := by
  rw [pathJoin_rel _ _ _ (by decide) hp, pathJoin_rel _ _ _ (by decide) hp]
  rw [List.dropLast_append_of_ne_nil (by simp)]
  rfl

/-! ## When there is a report -/

/-- A report is made for each network without references, on whose busses all components can say
what their equation is, if no label has a slash, provided the path ends with a slash or there are
no other figures than those of the specified characteristics of components. -/
theorem C110_made_partial {f : Fmt} {path : PathStr} {n : Net K} (s : FS) (hp : path ≠ [])
    (href : Spec.NoRef n) (hdoc : Spec.BusDocs n) (hbus : f.results = true → Spec.BussesUsed n)
    (hlab : Spec.PlainLabels n) (hpath : endsSlash path = true ∨ Spec.OnlyComponentFigures n) :
    ∃ is s', documentModel f path n s = .ok (is, s') := by
  have := run_of (as := documentActs f path n) (s := s.makedirs (pathJoin path ["figures"]))
    (fun e he => by
      rcases (doc_fail ..).1 he with ⟨-, c, hc, r, hr, h⟩ | ⟨-, b, hb, c, hc, h⟩ | ⟨-, hr, b, hb, h⟩
      · rw [href c hc r hr] at h; cases h
      · exact hdoc b hb c hc h
      · exact hbus hr b hb h)
    (fun w hw => by
      obtain ⟨pre, l, post, h, hl⟩ := doc_plot hw
      obtain ⟨x, rfl⟩ := hl hlab
      obtain ⟨y, hy⟩ := localPath_single pre x post
      rw [hy] at h
      have hw : w = pathJoin path ["figures", y] := by
        rcases h with h | ⟨h, ho⟩
        · exact h
        · rw [h]
          exact (cat_eq_pathJoin path "figures" [y] (by decide) hp).2
            (hpath.resolve_right ho)
      rw [hw, dropLast_join hp]
      exact makedirs_hasDir ..)
  obtain ⟨⟨is, s'⟩, h⟩ := this
  exact ⟨is, s', h⟩

/-- There is no report of a network with a reference: whatever else it holds, the property of one
connection given by that of another one raises an exception. -/
theorem C110_ref_false {f : Fmt} {path : PathStr} {n : Net K} (s : FS) {c : Conn K} (hc : c ∈ n.conns)
    {r : String} (hr : r ∈ Spec.refNames) (h : c.refSet r = true) :
    documentModel f path n s = .error .attributeError := by
  unfold documentModel documentActs documentConnections
  simp only [List.append_assoc]
  refine run_fail_first _ (fun a ha => ?_) ?_ _
  · simp only [refActs, List.mem_flatMap] at ha
    obtain ⟨c, _, r, _, ha⟩ := ha
    split at ha <;> simpa using ha
  · have := (fail_refActs n .attributeError).2 ⟨rfl, c, hc, r, hr, h⟩
    intro h0; rw [h0] at this; simp at this

/-- There is no report of a network with a component on a bus whose class does not say what its
equation is (e.g. a fuel cell), and none with an empty bus if the results are included. -/
theorem C110_bus_false {f : Fmt} {path : PathStr} {n : Net K} (s : FS)
    (h : (∃ b ∈ n.busses, ∃ c ∈ b.comps, c.doc = none)
      ∨ (f.results = true ∧ ∃ b ∈ n.busses, b.comps = [])) :
    ∀ r, documentModel f path n s ≠ .ok r := by
  rintro ⟨is, s'⟩ hr
  have h3 := (run_ok hr).2.2.1
  rcases h with h | ⟨hf, h⟩
  · exact h3 .attributeError ((doc_fail ..).2 (Or.inr (Or.inl ⟨rfl, h⟩)))
  · exact h3 .keyError ((doc_fail ..).2 (Or.inr (Or.inr ⟨rfl, hf, h⟩)))

/-- the folder that is the concatenation of the path and `figures` is not the one the report makes -/
theorem missing_dir {path : PathStr} (hp : path ≠ []) (he : endsSlash path = false) {s : FS}
    (hs : norm (cat path ["figures"]) ∉ s.dirs) :
    (s.makedirs (pathJoin path ["figures"])).hasDir (norm (cat path ["figures"])) = false := by
  obtain ⟨q, z, rfl⟩ : ∃ q z, path = q ++ [z] :=
    ⟨path.dropLast, path.getLast hp, (List.dropLast_append_getLast hp).symm⟩
  have hz : z ≠ "" := by
    intro h; rw [h] at he; simp [endsSlash] at he
  have hlen : (z ++ "figures").length = z.length + 7 := by
    rw [String.length_append]; rfl
  have hz0 : z.length ≠ 0 := by
    intro h; exact hz (String.length_eq_zero_iff.1 h)
  have h1 : z ++ "figures" ≠ "" := by
    intro h; rw [h] at hlen; simp at hlen
  have h2 : z ++ "figures" ≠ "." := by
    intro h; rw [h] at hlen; have : (".":String).length = 1 := by decide
    omega
  have h3 : z ++ "figures" ≠ z := by
    intro h; rw [h] at hlen; omega
  have h4 : z ++ "figures" ≠ "figures" := by
    intro h; rw [h] at hlen; have : ("figures":String).length = 7 := by decide
    omega
  rw [pathJoin_rel _ _ _ (by decide) (by simp), cat_append] at *
  simp only [he, Bool.false_eq_true, if_false] at *
  simp only [FS.hasDir, FS.makedirs, Bool.or_eq_false_iff, decide_eq_false_iff_not, List.mem_append,
    not_or, List.mem_map, not_exists, not_and]
  refine ⟨?_, hs, ?_⟩
  · simp [norm, h1, h2]
  · intro l hl heq
    have hpre := (List.mem_inits ..).1 hl
    have hl2 : l = (norm (q ++ [z ++ "figures"])).2 := congrArg Prod.snd heq
    rw [hl2] at hpre
    simp only [norm, List.filter_append] at hpre
    have hA : List.filter (fun s => !(s == "") && !(s == ".")) [z ++ "figures"] = [z ++ "figures"] := by
      simp [h1, h2]
    rw [hA, List.append_assoc, List.prefix_append_right_inj] at hpre
    by_cases hd : z = "."
    · subst hd
      revert hpre
      decide
    · have hB : List.filter (fun s => !(s == "") && !(s == ".")) [z] = [z] := by simp [hz, hd]
      rw [hB] at hpre
      simp [List.cons_prefix_cons, h3] at hpre

/-- There is no report of a network with a component that has a characteristic in its mandatory
constraints (combustion engines have four) unless the path ends with a slash: the file of its
figure is to be written to a folder that the report does not make. -/
theorem C110_constraint_false {f : Fmt} {path : PathStr} {n : Net K} (s : FS) (hp : path ≠ [])
    (he : endsSlash path = false) (hs : norm (cat path ["figures"]) ∉ s.dirs) (href : Spec.NoRef n)
    {k : Class K} (hk : k ∈ n.classes) {x : String} (hx : (x, true) ∈ k.constraints) {c : Comp K}
    (hc : c ∈ k.comps) (hl : Spec.NoSlash c.label) :
    documentModel f path n s = .error .fileNotFound := by
  unfold documentModel documentActs
  obtain ⟨lab, hlab⟩ := hl
  obtain ⟨y, hy⟩ := localPath_single (k.name ++ "_CharLine_" ++ x ++ "_") lab ".pdf"
  have hfile : constraintFile k.name x c = ["figures", y] := by
    unfold constraintFile; rw [hlab]; exact hy
  refine run_missing (w := cat path ["figures", y]) _ (fun e hf => ?_) ?_ ?_
  · simp only [documentConnections, documentComponents, List.mem_append, List.mem_flatMap] at hf
    rcases hf with (((hf | hf) | hf) | hf) | ⟨k, _, hf | hf⟩
    · obtain ⟨-, c, hc, r, hr, h⟩ := (fail_refActs ..).1 hf
      rw [href c hc r hr] at h; cases h
    · exact (quiet_connActs f n).fail _ hf
    · exact (quiet_fluidActs f n).fail _ hf
    · exact fail_ude _ _ _ hf
    · exact fail_constraintActs _ _ _ hf
    · exact fail_specActs _ _ _ _ hf
  · refine List.mem_append_right _ (List.mem_flatMap.2 ⟨k, hk, List.mem_append_left _ ?_⟩)
    refine (plot_constraintActs ..).2 ⟨(x, c), ?_, by rw [hfile]⟩
    simp only [constraintChars, List.mem_flatMap, List.mem_filter, List.mem_map]
    exact ⟨(x, true), ⟨hx, rfl⟩, c, hc, rfl⟩
  · have : (cat path ["figures", y]).dropLast = cat path ["figures"] := by
      obtain ⟨q, z, rfl⟩ : ∃ q z, path = q ++ [z] :=
        ⟨path.dropLast, path.getLast hp, (List.dropLast_append_getLast hp).symm⟩
      rw [cat_append, cat_append, List.dropLast_append_of_ne_nil (by simp)]
      rfl
    rw [this]
    exact missing_dir hp he hs

/-- the first characteristic of a bus that is not constant has its file written -/
theorem busRows_plot (f : Fmt) (path : PathStr) (mode : String) (b : PathStr) (cs : List (BusComp K)) :
    (∃ c ∈ cs, c.charConst = false) → ∃ x, x ∈ (busRows f path mode b cs []).2.2.1 := by
  induction cs with
  | nil => rintro ⟨c, hc, -⟩; simp at hc
  | cons c cs ih =>
    intro h
    by_cases hcc : c.charConst = true
    · have hr : (busRow f path mode b c []).2.2.2 = [] := by simp [busRow, hcc]
      obtain ⟨x, hx⟩ := ih (by
        obtain ⟨c', hc', h'⟩ := h
        rcases List.mem_cons.1 hc' with rfl | hc'
        · rw [hcc] at h'; cases h'
        · exact ⟨c', hc', h'⟩)
      exact ⟨x, by simp only [busRows, hr, List.mem_append]; exact Or.inr hx⟩
    · refine ⟨busFigure mode c.label, ?_⟩
      simp only [busRows, List.mem_append]
      left
      simp [busRow, hcc, findPlot]

theorem busRows_const (f : Fmt) (path : PathStr) (mode : String) (b : PathStr) (cs : List (BusComp K))
    (h : ∀ c ∈ cs, c.charConst = true) (pl : Plotted) : (busRows f path mode b cs pl).2.2.2 = pl := by
  induction cs generalizing pl with
  | nil => rfl
  | cons c cs ih =>
    have hr : (busRow f path mode b c pl).2.2.2 = pl := by
      simp [busRow, h c (List.mem_cons_self ..)]
    simp only [busRows, hr]
    exact ih (fun c' hc' => h c' (List.mem_cons_of_mem _ hc')) pl

theorem busses_plot (f : Fmt) (path : PathStr) (mode : String) (bs : List (BusDoc K))
    (h : ∃ b ∈ bs, ∃ c ∈ b.comps, c.charConst = false) :
    ∃ b ∈ bs, ∃ c ∈ b.comps,
      Act.plot (cat path (busFigure mode c.label).1) ∈ documentBussesFrom f path mode bs [] := by
  induction bs with
  | nil => obtain ⟨b, hb, -⟩ := h; simp at hb
  | cons b bs ih =>
    by_cases hb : ∃ c ∈ b.comps, c.charConst = false
    · obtain ⟨x, hx⟩ := busRows_plot f path mode b.label b.comps hb
      obtain ⟨c, hc, -, rfl⟩ := busRows_figures _ _ _ _ _ _ _ hx
      refine ⟨b, List.mem_cons_self .., c, hc, ?_⟩
      rw [documentBussesFrom, List.mem_append]
      exact Or.inl ((plot_busActs ..).2 ⟨_, hx, rfl⟩)
    · have hall : ∀ c ∈ b.comps, c.charConst = true := by
        intro c hc
        by_contra hcc
        exact hb ⟨c, hc, by simpa using hcc⟩
      have h2 : (busActs f path mode b []).2 = [] := by
        simp only [busActs]
        exact busRows_const f path mode b.label b.comps hall []
      obtain ⟨b', hb', c, hc, hp⟩ := ih (by
        obtain ⟨b', hb', h'⟩ := h
        rcases List.mem_cons.1 hb' with rfl | hb'
        · exact absurd h' hb
        · exact ⟨b', hb', h'⟩)
      refine ⟨b', List.mem_cons_of_mem _ hb', c, hc, ?_⟩
      rw [documentBussesFrom, List.mem_append, h2]
      exact Or.inr hp

/-- There is no report of a network with a bus efficiency that depends on the load, nor with a
characteristic in a user defined equation, unless the path ends with a slash. -/
theorem C110_bus_figure_false {f : Fmt} {path : PathStr} {n : Net K} (s : FS) (hp : path ≠ [])
    (he : endsSlash path = false) (hs : norm (cat path ["figures"]) ∉ s.dirs)
    (hlab : Spec.PlainLabels n)
    (h : (∃ b ∈ n.busses, ∃ c ∈ b.comps, c.charConst = false)
      ∨ ∃ u ∈ n.udes, 0 < u.lines ∨ 0 < u.maps) :
    ∀ r, documentModel f path n s ≠ .ok r := by
  rintro ⟨is, s'⟩ hr
  have h4 := (run_ok hr).2.2.2
  have key : ∃ y, Act.plot (cat path ["figures", y]) ∈ documentActs f path n := by
    rcases h with h | ⟨u, hu, h⟩
    · obtain ⟨b, hb, c, hc, h⟩ := busses_plot f path n.mode n.busses h
      obtain ⟨x, hx⟩ := hlab.2.2 b hb c hc
      obtain ⟨y, hy⟩ := localPath_single "Bus_CharLine_" x (n.mode ++ ".pdf")
      refine ⟨y, (doc_mem ..).2 (Or.inr (Or.inr (Or.inr (Or.inr (Or.inr ?_)))))⟩
      simp only [busFigure, hx, hy] at h
      exact h
    · obtain ⟨x, hx⟩ := hlab.1 u hu
      rcases h with h | h
      · obtain ⟨y, hy⟩ := localPath_single "UDE_CharLine_" x ("_" ++ toString (0 + 1) ++ ".pdf")
        refine ⟨y, (doc_mem ..).2 (Or.inr (Or.inr (Or.inr (Or.inl ?_))))⟩
        refine (plot_ude ..).2 ⟨u, hu, _, List.mem_append_left _ (List.mem_map.2
          ⟨0, List.mem_range.2 h, rfl⟩), ?_⟩
        rw [hx, hy]
      · obtain ⟨y, hy⟩ := localPath_single "UDE_CharMap_" x ("_" ++ toString (0 + 1) ++ ".pdf")
        refine ⟨y, (doc_mem ..).2 (Or.inr (Or.inr (Or.inr (Or.inl ?_))))⟩
        refine (plot_ude ..).2 ⟨u, hu, _, List.mem_append_right _ (List.mem_map.2
          ⟨0, List.mem_range.2 h, rfl⟩), ?_⟩
        rw [hx, hy]
  obtain ⟨y, hy⟩ := key
  have hd := h4 _ hy
  have : (cat path ["figures", y]).dropLast = cat path ["figures"] := by
    obtain ⟨q, z, rfl⟩ : ∃ q z, path = q ++ [z] :=
      ⟨path.dropLast, path.getLast hp, (List.dropLast_append_getLast hp).symm⟩
    rw [cat_append, cat_append, List.dropLast_append_of_ne_nil (by simp)]
    rfl
  rw [this, missing_dir hp he hs] at hd
  cases hd

/-! ## What the report says -/

variable {f : Fmt} {path : PathStr} {n : Net K} {s s' : FS} {is : List (Item K)}

/-- A specified property of a connection is in the table, in bold print if results are included;
the head of its column has a link to an equation that is in the report. -/
theorem C110_connection (h : documentModel f path n s = .ok (is, s')) {c : Conn K}
    (hc : c ∈ n.conns) {q t : String} (hq : (q, t) ∈ Spec.connProps) (hs : c.set q = true) {v : K}
    (hv : c.val q = some v) :
    Item.cell .conn c.label q (if f.results then .bold else .normal) (some v) ∈ is
      ∧ ∃ l, Item.header .conn q (some l) ∈ is ∧ Item.equation [l] ∈ is := by
  have hcv : connVal f n c q = some v := by
    have hany : n.conns.any (fun c => c.set q) = true := List.any_eq_true.2 ⟨c, hc, hs⟩
    simp [connVal, hany, hs, hv]
  have hany : n.conns.any (fun c => c.set q && (connVal f n c q).isSome) = true :=
    List.any_eq_true.2 ⟨c, hc, by simp [hs, hcv]⟩
  have mem : ∀ i, Act.emit i ∈ connActs f n → i ∈ is := fun i hi =>
    (doc_items h i).2 ((doc_mem ..).2 (Or.inr (Or.inl hi)))
  have hex : ∃ c ∈ n.conns, (connVal f n c q).isSome = true := ⟨c, hc, by simp [hcv]⟩
  refine ⟨mem _ ((mem_connActs ..).2 ⟨(q, t), hq, hex, Or.inr (Or.inr ⟨c, hc, ?_⟩)⟩),
    "Connection_" ++ t, mem _ ((mem_connActs ..).2 ⟨(q, t), hq, hex, Or.inl ?_⟩),
    mem _ ((mem_connActs ..).2 ⟨(q, t), hq, hex, Or.inr (Or.inl ⟨rfl, hany⟩)⟩)⟩
  · simp [hcv, hs]
  · simp [hany]

/-- A result of a connection that is asked for is in the table, and in bold print only if it is
specified. -/
theorem C110_connection_result (h : documentModel f path n s = .ok (is, s')) (hf : f.results = true)
    {c : Conn K} (hc : c ∈ n.conns) {q t : String} (hq : (q, t) ∈ Spec.connProps)
    (hask : f.connParams = [] ∨ q ∈ f.connParams) {v : K} (hv : c.val q = some v) :
    Item.cell .conn c.label q (if c.set q then .bold else .normal) (some v) ∈ is := by
  have hcv : connVal f n c q = some v := by
    rcases hask with hask | hask <;> simp [connVal, hask, hf, hv]
  refine (doc_items h _).2 ((doc_mem ..).2 (Or.inr (Or.inl ((mem_connActs ..).2
    ⟨(q, t), hq, ⟨c, hc, by simp [hcv]⟩, Or.inr (Or.inr ⟨c, hc, ?_⟩)⟩))))
  simp [hcv, hf]

theorem cell_conn (h : documentModel f path n s = .ok (is, s')) {t : Table} (ht : t = .conn ∨ t = .fluid)
    {l : PathStr} {q : String} {st : Style} {v : Option K} (hi : Item.cell t l q st v ∈ is) :
    (Act.emit (Item.cell t l q st v) ∈ connActs f n ∧ t = .conn)
      ∨ (Act.emit (Item.cell t l q st v) ∈ fluidActs f n ∧ t = .fluid) := by
  have hc : ∀ (k : Class K) (p : Param) (c : Comp K), Item.cell t l q st v ≠ compCell f k p c := by
    intro k p c he
    unfold compCell at he
    split at he
    · injection he with he; rcases ht with rfl | rfl <;> cases he
    · cases he
  rcases (doc_mem ..).1 ((doc_items h _).1 hi) with h | h | h | h | ⟨k, hk, h | h⟩ | h
  · exact absurd h (emit_refActs n _)
  · left
    obtain ⟨q', _, _, h' | ⟨h', _⟩ | ⟨c, _, h'⟩⟩ := (mem_connActs ..).1 h
    · cases h'
    · cases h'
    · injection h' with h'; exact ⟨h, h'⟩
  · right
    obtain ⟨q', _, _, h' | ⟨h', _⟩ | ⟨c, _, h'⟩⟩ := (mem_fluidActs ..).1 h
    · cases h'
    · cases h'
    · injection h' with h'; exact ⟨h, h'⟩
  · obtain ⟨u, _, h | h | ⟨x, _, h⟩⟩ := (mem_ude ..).1 h <;> cases h
  · rcases (mem_constraintActs ..).1 h with ⟨x, _, h⟩ | ⟨x, _, h⟩ <;> cases h
  · rcases (mem_specActs ..).1 h with ⟨p, _, h | ⟨c, _, h⟩⟩ | ⟨g, _, p, _, _, c, _, h⟩ | ⟨p, _, h⟩ |
      ⟨_, x, _, h⟩
    · cases h
    · exact absurd h (hc k p c)
    · exact absurd h (hc k p c)
    · cases h
    · cases h
  · obtain ⟨b, _, pl, h⟩ := mem_busses _ _ _ _ _ _ h
    obtain ⟨-, h | ⟨_, h⟩ | ⟨_, h | h⟩ | h | ⟨x, _, h⟩⟩ := (emit_busActs ..).1 h
    · cases h
    · cases h
    · injection h with h; rcases ht with rfl | rfl <;> cases h
    · injection h with h; rcases ht with rfl | rfl <;> cases h
    · obtain ⟨c, _, pl', h⟩ := busRows_items _ _ _ _ _ _ _ h
      exfalso
      have hb : t = .bus := by
        simp only [busRow, List.mem_append] at h
        rcases h with h | h
        · split at h
          · simp at h; tauto
          · simp at h
        · split at h
          · simp only [List.mem_cons, reduceCtorEq, false_or] at h
            split at h <;> simp at h
          · simp at h
      rcases ht with rfl | rfl <;> cases hb
    · cases h

/-- What is printed in bold in the tables of the connections has been specified, with the value
that is printed; and if results are not included nothing else is printed. -/
theorem C110_connection_bold (h : documentModel f path n s = .ok (is, s')) {l : PathStr} {q : String}
    {st : Style} {v : Option K} (hi : Item.cell .conn l q st v ∈ is) :
    (st = .bold → ∃ c ∈ n.conns, c.label = l ∧ c.set q = true ∧ v = c.val q)
      ∧ (∀ x, v = some x → ∃ c ∈ n.conns, c.label = l ∧ c.val q = some x
          ∧ (f.results = true ∨ c.set q = true)) := by
  rcases cell_conn h (Or.inl rfl) hi with ⟨h, -⟩ | ⟨-, h⟩
  · obtain ⟨q', hq', hex, h' | ⟨h', _⟩ | ⟨c, hc, h'⟩⟩ := (mem_connActs ..).1 h
    · cases h'
    · cases h'
    · simp only [Item.cell.injEq, true_and] at h'
      obtain ⟨rfl, rfl, rfl, rfl⟩ := h'
      constructor
      · intro hb
        by_cases hs : (c.set q'.1 && f.results) = true
        · rw [Bool.and_eq_true] at hs
          refine ⟨c, hc, rfl, hs.1, ?_⟩
          have hany : n.conns.any (fun c => c.set q'.1) = true := List.any_eq_true.2 ⟨c, hc, hs.1⟩
          simp [connVal, hany, hs.1]
        · rw [if_neg hs] at hb; cases hb
      · intro x hx
        unfold connVal at hx
        split at hx
        · cases hx
        · split at hx
          · rename_i hor
            exact ⟨c, hc, rfl, hx, by simpa using hor⟩
          · cases hx
  · cases h

/-- The same for the fluids: a specified mass fraction is in the table, in bold print if results
are included, with a link to an equation; what is in bold print has been specified. -/
theorem C110_fluid (h : documentModel f path n s = .ok (is, s')) :
    (∀ c ∈ n.conns, ∀ q ∈ n.fluids, ∀ v, c.fluidSet q = true → c.fluidVal q = some v →
      Item.cell .fluid c.label q (if f.results then .bold else .normal) (some v) ∈ is
        ∧ ∃ l, Item.header .fluid q (some l) ∈ is ∧ Item.equation [l] ∈ is)
    ∧ ∀ l q v, Item.cell .fluid l q .bold v ∈ is →
        ∃ c ∈ n.conns, c.label = l ∧ c.fluidSet q = true ∧ v = c.fluidVal q := by
  constructor
  · intro c hc q hq v hs hv
    have hcv : fluidVal f c q = some v := by simp [fluidVal, hs, hv]
    have hany : n.conns.any (fun c => c.fluidSet q && (fluidVal f c q).isSome) = true :=
      List.any_eq_true.2 ⟨c, hc, by simp [hs, hcv]⟩
    have mem : ∀ i, Act.emit i ∈ fluidActs f n → i ∈ is := fun i hi =>
      (doc_items h i).2 ((doc_mem ..).2 (Or.inr (Or.inr (Or.inl hi))))
    have hex : ∃ c ∈ n.conns, (fluidVal f c q).isSome = true := ⟨c, hc, by simp [hcv]⟩
    refine ⟨mem _ ((mem_fluidActs ..).2 ⟨q, hq, hex, Or.inr (Or.inr ⟨c, hc, ?_⟩)⟩),
      "Connection_" ++ q, mem _ ((mem_fluidActs ..).2 ⟨q, hq, hex, Or.inl ?_⟩),
      mem _ ((mem_fluidActs ..).2 ⟨q, hq, hex, Or.inr (Or.inl ⟨rfl, hany⟩)⟩)⟩
    · simp only [hany, hcv, hs, Bool.true_and]
    · simp only [hany, if_true]
  · intro l q v hi
    rcases cell_conn h (Or.inr rfl) hi with ⟨-, h⟩ | ⟨h, -⟩
    · cases h
    · obtain ⟨q', hq', hex, h' | ⟨h', _⟩ | ⟨c, hc, h'⟩⟩ := (mem_fluidActs ..).1 h
      · cases h'
      · cases h'
      · simp only [Item.cell.injEq, true_and] at h'
        obtain ⟨rfl, rfl, hb, rfl⟩ := h'
        split at hb
        · rename_i hs
          simp only [Bool.and_eq_true] at hs
          exact ⟨c, hc, rfl, hs.1.2, by simp [fluidVal, hs.1.2]⟩
        · cases hb

/-- The specification of the fluid balance is not documented: whether it is made or not, at
whichever connection, the report is the same. -/
theorem C110_balance_false (b : Conn K → Bool) (f : Fmt) (path : PathStr) (n : Net K) (s : FS) :
    documentModel f path { n with conns := n.conns.map (fun c => { c with balance := b c }) } s
      = documentModel f path n s := by
  have hA : documentConnections f { n with conns := n.conns.map (fun c => { c with balance := b c }) }
      = documentConnections f n := by
    unfold documentConnections
    simp only [refActs, connActs, fluidActs, connVal, fluidVal, List.flatMap_map, List.any_map,
      List.map_map, Function.comp_def]
    rfl
  unfold documentModel documentActs
  rw [hA]
  rfl

/-! ### Components -/

theorem mem_groupElements (k : Class K) (q : String) : q ∈ k.groupElements ↔ Spec.InGroup k q := by
  simp only [Class.groupElements, Class.setGroups, List.mem_flatMap, List.mem_filter,
    Bool.and_eq_true, List.any_eq_true, Spec.InGroup]
  constructor
  · rintro ⟨g, ⟨hg, hg1, hg2⟩, hq⟩
    cases hk : g.kind with
    | group es =>
      simp only [Param.elements, hk, Option.getD_some] at hq
      exact ⟨g, hg, es, hk, hq, hg2⟩
    | _ => simp [Param.elements, hk] at hg1
  · rintro ⟨g, hg, es, hk, hq, hc⟩
    exact ⟨g, ⟨hg, by simp [Param.elements, hk], hc⟩, by simp [Param.elements, hk, hq]⟩

theorem spec_mem (h : documentModel f path n s = .ok (is, s')) {k : Class K} (hk : k ∈ n.classes)
    {i : Item K} (hi : Act.emit i ∈ specActs f path k) : i ∈ is :=
  (doc_items h i).2 ((doc_mem ..).2
    (Or.inr (Or.inr (Or.inr (Or.inr (Or.inl ⟨k, hk, Or.inr hi⟩))))))

theorem compCell_specified (f : Fmt) (k : Class K) {p : Param} (hp : p.kind = .prop) {c : Comp K}
    (hc : c ∈ k.comps) (hs : c.set p.name = true ∨ c.var p.name = true) :
    compCell f k p c = .cell (.cls k.name) c.label p.name
      (if c.var p.name then .italic else if f.results then .bold else .normal) (c.val p.name) := by
  have hprop : p.isProp = true := by simp [Param.isProp, hp]
  have hv : compVal f k c p.name = c.val p.name := by
    unfold compVal
    rcases hs with hs | hs
    · have : k.comps.any (fun c => c.set p.name) = true := List.any_eq_true.2 ⟨c, hc, hs⟩
      simp [this, hs]
    · have : k.comps.any (fun c => c.var p.name) = true := List.any_eq_true.2 ⟨c, hc, hs⟩
      simp [this, hs]
  unfold compCell
  rw [if_pos hprop, hv]
  congr 1
  by_cases hvar : c.var p.name = true
  · simp [hvar]
  · have := hs.resolve_right hvar
    simp [hvar, this]

/-- A parameter of a component that is specified or a variable is in the table of its class,
variables in italics and specified ones in bold print if results are included, if it has a LaTeX
equation or is an element of a group that is specified. In the first case, unless it is such an
element, the head of its column has a link to an equation that is in the report. -/
theorem C110_component_partial (h : documentModel f path n s = .ok (is, s')) {k : Class K}
    (hk : k ∈ n.classes) {p : Param} (hp : p ∈ k.params) (hkind : p.kind = .prop) {c : Comp K}
    (hc : c ∈ k.comps) (hs : c.set p.name = true ∨ c.var p.name = true)
    (hl : p.latex = true ∨ Spec.InGroup k p.name) :
    Item.cell (.cls k.name) c.label p.name
        (if c.var p.name then .italic else if f.results then .bold else .normal) (c.val p.name) ∈ is
      ∧ (¬ Spec.InGroup k p.name →
          ∃ l, Item.header (.cls k.name) p.name (some l) ∈ is ∧ Item.equation [l] ∈ is) := by
  have hprop : p.isProp = true := by simp [Param.isProp, hkind]
  have hcol : p ∈ k.columns := by
    simp only [Class.columns, List.mem_append, List.mem_filter]
    exact Or.inl (Or.inl ⟨hp, hprop⟩)
  have hspec : k.specified p = true := by
    refine List.any_eq_true.2 ⟨c, hc, ?_⟩
    rcases hs with hs | hs <;> simp [hs, hprop]
  rw [← compCell_specified f k hkind hc hs]
  by_cases hg : Spec.InGroup k p.name
  · refine ⟨spec_mem h hk ((mem_specActs ..).2 (Or.inr (Or.inl ?_))), fun hng => absurd hg hng⟩
    have := (mem_groupElements k p.name).2 hg
    simp only [Class.groupElements, List.mem_flatMap] at this
    obtain ⟨g, hg', hq⟩ := this
    exact ⟨g, hg', p, hcol, hq, c, hc, rfl⟩
  · have hlat := hl.resolve_right hg
    have hmain : p ∈ k.mainColumns := by
      simp only [Class.mainColumns, List.mem_filter]
      refine ⟨hcol, ?_⟩
      have : k.groupElements.contains p.name = false := by
        rw [Bool.eq_false_iff]
        intro hc
        exact hg ((mem_groupElements ..).1 (List.contains_iff_mem.1 hc))
      simp only [this, hlat, Bool.not_false, Bool.or_true, Bool.and_self]
    refine ⟨spec_mem h hk ((mem_specActs ..).2 (Or.inl ⟨p, hmain, Or.inr ⟨c, hc, rfl⟩⟩)), fun _ =>
      ⟨k.name ++ "_" ++ p.name, spec_mem h hk ((mem_specActs ..).2 (Or.inl ⟨p, hmain, Or.inl ?_⟩)),
        spec_mem h hk ((mem_specActs ..).2 (Or.inr (Or.inr (Or.inl ⟨p, ?_, rfl⟩))))⟩⟩
    · simp [hspec]
    · simp only [Class.eqColumns, List.mem_filter]; exact ⟨hmain, hspec⟩

/-- an item about a class comes from a column of that class -/
theorem cls_item (h : documentModel f path n s = .ok (is, s')) {name q : String} {i : Item K}
    (hi : i ∈ is) (hcase : (∃ l st v, i = .cell (.cls name) l q st v)
      ∨ (∃ l b, i = .mark (.cls name) l q b) ∨ ∃ lk, i = .header (.cls name) q lk) :
    ∃ k ∈ n.classes, k.name = name ∧ ∃ p ∈ k.columns, p.name = q
      ∧ ((p ∈ k.mainColumns ∧ (i = .header (.cls name) q
            (if k.specified p then some (name ++ "_" ++ q) else none)
            ∨ ∃ c ∈ k.comps, i = compCell f k p c))
        ∨ (Spec.InGroup k q ∧ ∃ c ∈ k.comps, i = compCell f k p c)) := by
  have hcell : ∀ (k : Class K) (p : Param) (c : Comp K), i = compCell f k p c →
      k.name = name ∧ p.name = q := by
    intro k p c he
    unfold compCell at he
    rcases hcase with ⟨l, st, v, rfl⟩ | ⟨l, b, rfl⟩ | ⟨lk, rfl⟩ <;> split at he <;>
      simp only [Item.cell.injEq, Item.mark.injEq, Table.cls.injEq, reduceCtorEq] at he
    · exact ⟨he.1.symm, he.2.2.1.symm⟩
    · exact ⟨he.1.symm, he.2.2.1.symm⟩
  rcases (doc_mem ..).1 ((doc_items h _).1 hi) with h | h | h | h | ⟨k, hk, h | h⟩ | h
  · exact absurd h (emit_refActs n _)
  · obtain ⟨q', _, _, h' | ⟨h', _⟩ | ⟨c, _, h'⟩⟩ := (mem_connActs ..).1 h <;>
      rcases hcase with ⟨l, st, v, rfl⟩ | ⟨l, b, rfl⟩ | ⟨lk, rfl⟩ <;> simp at h'
  · obtain ⟨q', _, _, h' | ⟨h', _⟩ | ⟨c, _, h'⟩⟩ := (mem_fluidActs ..).1 h <;>
      rcases hcase with ⟨l, st, v, rfl⟩ | ⟨l, b, rfl⟩ | ⟨lk, rfl⟩ <;> simp at h'
  · obtain ⟨u, _, h | h | ⟨x, _, h⟩⟩ := (mem_ude ..).1 h <;>
      rcases hcase with ⟨l, st, v, rfl⟩ | ⟨l, b, rfl⟩ | ⟨lk, rfl⟩ <;> simp at h
  · rcases (mem_constraintActs ..).1 h with ⟨x, _, h⟩ | ⟨x, _, h⟩ <;>
      rcases hcase with ⟨l, st, v, rfl⟩ | ⟨l, b, rfl⟩ | ⟨lk, rfl⟩ <;> simp at h
  · rcases (mem_specActs ..).1 h with ⟨p, hp, h | ⟨c, hc, h⟩⟩ | ⟨g, hg, p, hp, hq, c, hc, h⟩ |
      ⟨p, _, h⟩ | ⟨_, x, _, h⟩
    · have : k.name = name ∧ p.name = q := by
        rcases hcase with ⟨l, st, v, rfl⟩ | ⟨l, b, rfl⟩ | ⟨lk, rfl⟩ <;>
          simp only [Item.header.injEq, Table.cls.injEq, reduceCtorEq] at h
        exact ⟨h.1.symm, h.2.1.symm⟩
      obtain ⟨rfl, rfl⟩ := this
      exact ⟨k, hk, rfl, p, (List.mem_filter.1 hp).1, rfl, Or.inl ⟨hp, Or.inl h⟩⟩
    · obtain ⟨rfl, rfl⟩ := hcell k p c h
      exact ⟨k, hk, rfl, p, (List.mem_filter.1 hp).1, rfl, Or.inl ⟨hp, Or.inr ⟨c, hc, h⟩⟩⟩
    · obtain ⟨rfl, rfl⟩ := hcell k p c h
      refine ⟨k, hk, rfl, p, hp, rfl, Or.inr ⟨(mem_groupElements ..).1 ?_, c, hc, h⟩⟩
      exact List.mem_flatMap.2 ⟨g, hg, hq⟩
    · rcases hcase with ⟨l, st, v, rfl⟩ | ⟨l, b, rfl⟩ | ⟨lk, rfl⟩ <;> simp at h
    · rcases hcase with ⟨l, st, v, rfl⟩ | ⟨l, b, rfl⟩ | ⟨lk, rfl⟩ <;> simp at h
  · obtain ⟨b, _, pl, h⟩ := mem_busses _ _ _ _ _ _ h
    exfalso
    obtain ⟨-, h | ⟨_, h⟩ | ⟨_, h | h⟩ | h | ⟨x, _, h⟩⟩ := (emit_busActs ..).1 h
    · rcases hcase with ⟨l, st, v, rfl⟩ | ⟨l, b, rfl⟩ | ⟨lk, rfl⟩ <;> simp at h
    · rcases hcase with ⟨l, st, v, rfl⟩ | ⟨l, b, rfl⟩ | ⟨lk, rfl⟩ <;> simp at h
    · rcases hcase with ⟨l, st, v, rfl⟩ | ⟨l, b, rfl⟩ | ⟨lk, rfl⟩ <;> simp at h
    · rcases hcase with ⟨l, st, v, rfl⟩ | ⟨l, b, rfl⟩ | ⟨lk, rfl⟩ <;> simp at h
    · obtain ⟨c, _, pl', h⟩ := busRows_items _ _ _ _ _ _ _ h
      simp only [busRow, List.mem_append] at h
      rcases h with h | h
      · split at h
        · rcases hcase with ⟨l, st, v, rfl⟩ | ⟨l, b, rfl⟩ | ⟨lk, rfl⟩ <;> simp at h
        · simp at h
      · split at h
        · rcases List.mem_cons.1 h with h | h
          · rcases hcase with ⟨l, st, v, rfl⟩ | ⟨l, b, rfl⟩ | ⟨lk, rfl⟩ <;> simp at h
          · split at h
            · simp at h
            · rcases hcase with ⟨l, st, v, rfl⟩ | ⟨l, b, rfl⟩ | ⟨lk, rfl⟩ <;> simp at h
        · simp at h
    · rcases hcase with ⟨l, st, v, rfl⟩ | ⟨l, b, rfl⟩ | ⟨lk, rfl⟩ <;> simp at h

/-- What is printed in bold in the table of a class has been specified for the component, what is
printed in italics is a variable, and the value is the result of the component. If results are not
included, only specified parameters and variables are printed. -/
theorem C110_component_style (h : documentModel f path n s = .ok (is, s')) {name : String}
    {l : PathStr} {q : String} {st : Style} {v : Option K}
    (hi : Item.cell (.cls name) l q st v ∈ is) :
    ∃ k ∈ n.classes, k.name = name ∧ ∃ c ∈ k.comps, c.label = l ∧ (v = none ∨ v = c.val q)
      ∧ (st = .bold → c.set q = true ∧ c.var q = false ∧ v = c.val q)
      ∧ (st = .italic → c.var q = true ∧ v = c.val q)
      ∧ (v ≠ none → f.results = true ∨ c.set q = true ∨ c.var q = true) := by
  obtain ⟨k, hk, hn, p, hp, hpn, hcase⟩ := cls_item h hi (Or.inl ⟨_, _, _, rfl⟩)
  have : ∃ c ∈ k.comps, Item.cell (.cls name) l q st v = compCell f k p c := by
    rcases hcase with ⟨_, h | h⟩ | ⟨_, h⟩
    · cases h
    · exact h
    · exact h
  obtain ⟨c, hc, he⟩ := this
  refine ⟨k, hk, hn, c, hc, ?_⟩
  unfold compCell at he
  split at he
  · simp only [Item.cell.injEq] at he
    obtain ⟨-, rfl, -, hst, hv⟩ := he
    rw [hpn] at hst hv
    have hset : ∀ hs : c.set q = true ∨ c.var q = true, v = c.val q := by
      intro hs
      rw [hv]
      unfold compVal
      rcases hs with hs | hs
      · have : k.comps.any (fun c => c.set q) = true := List.any_eq_true.2 ⟨c, hc, hs⟩
        simp [this, hs]
      · have : k.comps.any (fun c => c.var q) = true := List.any_eq_true.2 ⟨c, hc, hs⟩
        simp [this, hs]
    refine ⟨rfl, ?_, ?_, ?_, ?_⟩
    · rw [hv]
      unfold compVal
      split
      · split
        · exact Or.inl rfl
        · exact Or.inr rfl
      · split
        · exact Or.inr rfl
        · exact Or.inl rfl
    · intro hb
      rw [hb] at hst
      by_cases hvar : c.var q = true
      · simp [hvar] at hst
      · by_cases hs : c.set q = true
        · exact ⟨hs, by simpa using hvar, hset (Or.inl hs)⟩
        · simp [hvar, hs] at hst
    · intro hb
      rw [hb] at hst
      by_cases hvar : c.var q = true
      · exact ⟨hvar, hset (Or.inr hvar)⟩
      · simp only [hvar, Bool.false_eq_true, if_false] at hst
        split at hst <;> cases hst
    · intro hne
      by_cases hr : f.results = true
      · exact Or.inl hr
      · right
        by_contra hno
        rw [not_or] at hno
        apply hne
        rw [hv]
        simp [compVal, hr, hno.1, hno.2]
  · cases he

/-- A parameter that is specified and has no LaTeX equation is not in the report, not even its
value and not those of the other components of the class, unless it is an element of a group that
is specified. -/
theorem C110_hidden_false (h : documentModel f path n s = .ok (is, s')) {k : Class K}
    (hname : ∀ k' ∈ n.classes, k'.name = k.name → k' = k) {p : Param}
    (huniq : ∀ p' ∈ k.params, p'.name = p.name → p' = p) (hl : p.latex = false)
    (hs : ∃ c ∈ k.comps, c.set p.name = true) (hg : ¬ Spec.InGroup k p.name) :
    (∀ l st v, Item.cell (.cls k.name) l p.name st v ∉ is)
      ∧ ∀ lk, Item.header (.cls k.name) p.name lk ∉ is := by
  have key : ∀ i ∈ is, ((∃ l st v, i = Item.cell (.cls k.name) l p.name st v)
      ∨ (∃ l b, i = Item.mark (.cls k.name) l p.name b)
      ∨ ∃ lk, i = Item.header (.cls k.name) p.name lk) → False := by
    intro i hi hcase
    obtain ⟨k', hk', hn, p', hp', hpn, hc⟩ := cls_item h hi hcase
    obtain rfl := hname k' hk' hn
    have hpp : p' = p := by
      refine huniq p' ?_ hpn
      simp only [Class.columns, Class.setGroups, Class.setChars, List.mem_append,
        List.mem_filter] at hp'
      rcases hp' with (hp' | hp') | hp' <;> exact hp'.1
    subst hpp
    rcases hc with ⟨hm, -⟩ | ⟨hin, -⟩
    · simp only [Class.mainColumns, List.mem_filter, Bool.and_eq_true] at hm
      have hspec : k'.specified p' = true := by
        obtain ⟨c, hc, hs⟩ := hs
        exact List.any_eq_true.2 ⟨c, hc, by simp [hs]⟩
      simp [hspec, hl] at hm
    · exact hg hin
  exact ⟨fun l st v hi => key _ hi (Or.inl ⟨l, st, v, rfl⟩),
    fun lk hi => key _ hi (Or.inr (Or.inr ⟨lk, rfl⟩))⟩

/-- A heat exchanger: the specification of one of these parameters is not in the report. -/
theorem C110_heat_exchanger_false (h : documentModel f path n s = .ok (is, s')) {k : Class K}
    (hname : ∀ k' ∈ n.classes, k'.name = k.name → k' = k) (hk : k.params = heatExchangerParams)
    {q : String} (hq : q ∈ ["ttd_min", "dp1", "dp2", "eff_cold", "eff_hot", "eff_max"])
    (hs : ∃ c ∈ k.comps, c.set q = true) :
    ∀ l st v, Item.cell (.cls k.name) l q st v ∉ is := by
  have hd : ∀ q ∈ ["ttd_min", "dp1", "dp2", "eff_cold", "eff_hot", "eff_max"],
      (∀ p' ∈ heatExchangerParams, p'.name = q → p' = ⟨q, .prop, false⟩)
        ∧ ∀ g ∈ heatExchangerParams, q ∉ g.elements.getD [] := by decide
  refine (C110_hidden_false (p := ⟨q, .prop, false⟩) h hname (by rw [hk]; exact (hd q hq).1) rfl hs
    ?_).1
  rintro ⟨g, hg, es, hge, hqe, -⟩
  rw [hk] at hg
  refine (hd q hq).2 g hg ?_
  simp [Param.elements, hge, hqe]

/-- A parameter that is a simple switch is never in the report although it may have a LaTeX
equation, e.g. the cone law of a turbine. -/
theorem C110_simple_false (h : documentModel f path n s = .ok (is, s')) {k : Class K}
    (hname : ∀ k' ∈ n.classes, k'.name = k.name → k' = k) {p : Param}
    (huniq : ∀ p' ∈ k.params, p'.name = p.name → p' = p) (hsim : p.kind = .simple) :
    (∀ l st v, Item.cell (.cls k.name) l p.name st v ∉ is)
      ∧ (∀ l b, Item.mark (.cls k.name) l p.name b ∉ is)
      ∧ ∀ lk, Item.header (.cls k.name) p.name lk ∉ is := by
  have key : ∀ i ∈ is, ((∃ l st v, i = Item.cell (.cls k.name) l p.name st v)
      ∨ (∃ l b, i = Item.mark (.cls k.name) l p.name b)
      ∨ ∃ lk, i = Item.header (.cls k.name) p.name lk) → False := by
    intro i hi hcase
    obtain ⟨k', hk', hn, p', hp', hpn, hc⟩ := cls_item h hi hcase
    obtain rfl := hname k' hk' hn
    simp only [Class.columns, Class.setGroups, Class.setChars, List.mem_append,
      List.mem_filter] at hp'
    rcases hp' with (hp' | hp') | hp' <;> obtain rfl := huniq p' hp'.1 hpn <;>
      simp [Param.isProp, Param.elements, Param.isChar, hsim] at hp'
  exact ⟨fun l st v hi => key _ hi (Or.inl ⟨l, st, v, rfl⟩),
    fun l b hi => key _ hi (Or.inr (Or.inl ⟨l, b, rfl⟩)),
    fun lk hi => key _ hi (Or.inr (Or.inr ⟨lk, rfl⟩))⟩

/-- Every link to an equation leads to an equation of the report. -/
theorem C110_links (h : documentModel f path n s = .ok (is, s')) :
    (∀ t q l, Item.header t q (some l) ∈ is → Item.equation [l] ∈ is)
      ∧ ∀ u l, Item.udeHead u l ∈ is → Item.equation l ∈ is := by
  have mem := fun i => (doc_items h i)
  constructor
  · intro t q l hi
    rcases (doc_mem ..).1 ((mem _).1 hi) with h | h | h | h | ⟨k, hk, h | h⟩ | h
    · exact absurd h (emit_refActs n _)
    · refine (mem _).2 ((doc_mem ..).2 (Or.inr (Or.inl ((mem_connActs ..).2 ?_))))
      obtain ⟨q', hq', hex, h' | ⟨h', _⟩ | ⟨c, _, h'⟩⟩ := (mem_connActs ..).1 h
      · refine ⟨q', hq', hex, Or.inr (Or.inl ?_)⟩
        simp only [Item.header.injEq] at h'
        split at h'
        · rename_i ha
          have := Option.some.inj h'.2.2
          exact ⟨by rw [this], ha⟩
        · simp at h'
      · cases h'
      · cases h'
    · refine (mem _).2 ((doc_mem ..).2 (Or.inr (Or.inr (Or.inl ((mem_fluidActs ..).2 ?_)))))
      obtain ⟨q', hq', hex, h' | ⟨h', _⟩ | ⟨c, _, h'⟩⟩ := (mem_fluidActs ..).1 h
      · refine ⟨q', hq', hex, Or.inr (Or.inl ?_)⟩
        simp only [Item.header.injEq] at h'
        split at h'
        · rename_i ha
          have := Option.some.inj h'.2.2
          exact ⟨by rw [this], ha⟩
        · simp at h'
      · cases h'
      · cases h'
    · obtain ⟨u, _, h | h | ⟨x, _, h⟩⟩ := (mem_ude ..).1 h <;> cases h
    · rcases (mem_constraintActs ..).1 h with ⟨x, _, h⟩ | ⟨x, _, h⟩ <;> cases h
    · refine (mem _).2 ((doc_mem ..).2 (Or.inr (Or.inr (Or.inr (Or.inr (Or.inl
        ⟨k, hk, Or.inr ((mem_specActs ..).2 (Or.inr (Or.inr (Or.inl ?_))))⟩))))))
      have hc : ∀ (p : Param) (c : Comp K), Item.header t q (some l) ≠ compCell f k p c := by
        intro p c he; unfold compCell at he; split at he <;> cases he
      rcases (mem_specActs ..).1 h with ⟨p, hp, h | ⟨c, _, h⟩⟩ | ⟨g, _, p, _, _, c, _, h⟩ |
        ⟨p, _, h⟩ | ⟨_, x, _, h⟩
      · simp only [Item.header.injEq] at h
        split at h
        · rename_i hs
          have := Option.some.inj h.2.2
          exact ⟨p, List.mem_filter.2 ⟨hp, hs⟩, by rw [this]⟩
        · simp at h
      · exact absurd h (hc p c)
      · exact absurd h (hc p c)
      · cases h
      · cases h
    · exfalso
      obtain ⟨b, _, pl, h⟩ := mem_busses _ _ _ _ _ _ h
      obtain ⟨-, h | ⟨_, h⟩ | ⟨_, h | h⟩ | h | ⟨x, _, h⟩⟩ := (emit_busActs ..).1 h
      · cases h
      · cases h
      · cases h
      · cases h
      · obtain ⟨c, _, pl', h⟩ := busRows_items _ _ _ _ _ _ _ h
        simp only [busRow, List.mem_append] at h
        rcases h with h | h
        · split at h <;> simp at h
        · split at h
          · rcases List.mem_cons.1 h with h | h
            · cases h
            · split at h <;> simp at h
          · simp at h
      · cases h
  · intro u l hi
    rcases (doc_mem ..).1 ((mem _).1 hi) with h | h | h | h | ⟨k, hk, h | h⟩ | h
    · exact absurd h (emit_refActs n _)
    · obtain ⟨q', _, _, h' | ⟨h', _⟩ | ⟨c, _, h'⟩⟩ := (mem_connActs ..).1 h <;> cases h'
    · obtain ⟨q', _, _, h' | ⟨h', _⟩ | ⟨c, _, h'⟩⟩ := (mem_fluidActs ..).1 h <;> cases h'
    · refine (mem _).2 ((doc_mem ..).2 (Or.inr (Or.inr (Or.inr (Or.inl ((mem_ude ..).2 ?_))))))
      obtain ⟨u', hu', h | h | ⟨x, _, h⟩⟩ := (mem_ude ..).1 h
      · refine ⟨u', hu', Or.inr (Or.inl ?_)⟩
        injection h with _ h; rw [h]
      · cases h
      · cases h
    · rcases (mem_constraintActs ..).1 h with ⟨x, _, h⟩ | ⟨x, _, h⟩ <;> cases h
    · have hc : ∀ (p : Param) (c : Comp K), Item.udeHead u l ≠ compCell f k p c := by
        intro p c he; unfold compCell at he; split at he <;> cases he
      rcases (mem_specActs ..).1 h with ⟨p, hp, h | ⟨c, _, h⟩⟩ | ⟨g, _, p, _, _, c, _, h⟩ |
        ⟨p, _, h⟩ | ⟨_, x, _, h⟩
      · cases h
      · exact absurd h (hc p c)
      · exact absurd h (hc p c)
      · cases h
      · cases h
    · exfalso
      obtain ⟨b, _, pl, h⟩ := mem_busses _ _ _ _ _ _ h
      obtain ⟨-, h | ⟨_, h⟩ | ⟨_, h | h⟩ | h | ⟨x, _, h⟩⟩ := (emit_busActs ..).1 h
      · cases h
      · cases h
      · cases h
      · cases h
      · obtain ⟨c, _, pl', h⟩ := busRows_items _ _ _ _ _ _ _ h
        simp only [busRow, List.mem_append] at h
        rcases h with h | h
        · split at h <;> simp at h
        · split at h
          · rcases List.mem_cons.1 h with h | h
            · cases h
            · split at h <;> simp at h
          · simp at h
      · cases h

/-- Every file that is included as a figure has been written where LaTeX looks for it, which is
below the path of the report, provided the path ends with a slash or there are no other figures
than those of the specified characteristics of components. -/
theorem C110_figures_partial (h : documentModel f path n s = .ok (is, s')) (hp : path ≠ [])
    (hpath : endsSlash path = true ∨ Spec.OnlyComponentFigures n) {file lab : PathStr}
    (hi : Item.figure file lab ∈ is) : pathJoin path file ∈ s'.files := by
  have hw := (run_ok h).2.1
  have hjoin : ∀ pre l post, ¬ Spec.OnlyComponentFigures n →
      cat path (localPath pre l post) = pathJoin path (localPath pre l post) := by
    intro pre l post ho
    obtain ⟨r, hr⟩ := localPath_head pre post l
    rw [hr]
    exact (cat_eq_pathJoin path "figures" r (by decide) hp).2 (hpath.resolve_right ho)
  rw [hw]
  right
  rcases (doc_mem ..).1 ((doc_items h _).1 hi) with h | h | h | h | ⟨k, hk, h | h⟩ | h
  · exact absurd h (emit_refActs n _)
  · obtain ⟨q', _, _, h' | ⟨h', _⟩ | ⟨c, _, h'⟩⟩ := (mem_connActs ..).1 h <;> cases h'
  · obtain ⟨q', _, _, h' | ⟨h', _⟩ | ⟨c, _, h'⟩⟩ := (mem_fluidActs ..).1 h <;> cases h'
  · obtain ⟨u, hu, h | h | ⟨x, hx, h⟩⟩ := (mem_ude ..).1 h
    · cases h
    · cases h
    · injection h with h1 h2
      subst h1
      have hx1 : x.1 ∈ udeFiles u := (List.of_mem_zip (a := x.1) (b := x.2) hx).1
      refine (doc_mem ..).2 (Or.inr (Or.inr (Or.inr (Or.inl ((plot_ude ..).2 ⟨u, hu, x.1, hx1, ?_⟩)))))
      obtain ⟨pre, post, hl⟩ := udeFiles_local hx1
      rw [hl]
      refine (hjoin _ _ _ (fun ho => ?_)).symm
      have := ho.1 u hu
      simp [udeFiles, this.1, this.2] at hx1
  · rcases (mem_constraintActs ..).1 h with ⟨x, _, h⟩ | ⟨x, hx, h⟩
    · cases h
    · injection h with h1 h2
      subst h1
      refine (doc_mem ..).2 (Or.inr (Or.inr (Or.inr (Or.inr (Or.inl ⟨k, hk, Or.inl
        ((plot_constraintActs ..).2 ⟨x, hx, ?_⟩)⟩)))))
      refine (hjoin _ _ _ (fun ho => ?_)).symm
      simp only [constraintChars, List.mem_flatMap, List.mem_filter, List.mem_map] at hx
      obtain ⟨y, ⟨hy, hy2⟩, -⟩ := hx
      rw [ho.2.1 k hk y hy] at hy2
      cases hy2
  · have hc : ∀ (p : Param) (c : Comp K), Item.figure file lab ≠ compCell f k p c := by
      intro p c he; unfold compCell at he; split at he <;> cases he
    rcases (mem_specActs ..).1 h with ⟨p, hp, h | ⟨c, _, h⟩⟩ | ⟨g, _, p, _, _, c, _, h⟩ |
      ⟨p, _, h⟩ | ⟨_, x, hx, h⟩
    · cases h
    · exact absurd h (hc p c)
    · exact absurd h (hc p c)
    · cases h
    · injection h with h1 h2
      subst h1
      exact (doc_mem ..).2 (Or.inr (Or.inr (Or.inr (Or.inr (Or.inl ⟨k, hk, Or.inr
        ((plot_specActs ..).2 ⟨x, hx, rfl⟩)⟩)))))
  · have hsub : ∀ (bs : List (BusDoc K)) (pl : Plotted),
        Act.emit (Item.figure file lab) ∈ documentBussesFrom f path n.mode bs pl →
        ∃ b ∈ bs, ∃ c ∈ b.comps, c.charConst = false ∧ file = (busFigure n.mode c.label).1
          ∧ Act.plot (cat path file) ∈ documentBussesFrom f path n.mode bs pl := by
      intro bs
      induction bs with
      | nil => intro pl h; simp [documentBussesFrom] at h
      | cons b bs ih =>
        intro pl h
        rw [documentBussesFrom, List.mem_append] at h
        rcases h with h | h
        · obtain ⟨-, h | ⟨_, h⟩ | ⟨_, h | h⟩ | h | ⟨x, hx, h⟩⟩ := (emit_busActs ..).1 h
          · cases h
          · cases h
          · cases h
          · cases h
          · exfalso
            obtain ⟨c, _, pl', h⟩ := busRows_items _ _ _ _ _ _ _ h
            simp only [busRow, List.mem_append] at h
            rcases h with h | h
            · split at h <;> simp at h
            · split at h
              · rcases List.mem_cons.1 h with h | h
                · cases h
                · split at h <;> simp at h
              · simp at h
          · injection h with h1 h2
            obtain ⟨c, hc, hcc, hxc⟩ := busRows_figures _ _ _ _ _ _ _ hx
            refine ⟨b, List.mem_cons_self .., c, hc, hcc, by rw [h1, hxc], ?_⟩
            rw [documentBussesFrom, List.mem_append]
            exact Or.inl ((plot_busActs ..).2 ⟨x, hx, by rw [h1]⟩)
        · obtain ⟨b', hb', c, hc, hcc, hf, hpl⟩ := ih _ h
          refine ⟨b', List.mem_cons_of_mem _ hb', c, hc, hcc, hf, ?_⟩
          rw [documentBussesFrom, List.mem_append]
          exact Or.inr hpl
    obtain ⟨b, hb, c, hc, hcc, hfile, hpl⟩ := hsub _ _ h
    have : pathJoin path file = cat path file := by
      rw [hfile]
      refine (hjoin _ _ _ (fun ho => ?_)).symm
      rw [ho.2.2 b hb c hc] at hcc
      cases hcc
    rw [this]
    exact (doc_mem ..).2 (Or.inr (Or.inr (Or.inr (Or.inr (Or.inr hpl)))))

/-- A figure always shows a characteristic: if no class of components has a parameter which is a
characteristic line or map, and there are none of user defined equations, constraints and busses,
the report has no figure at all, whatever other parameters and groups are specified. -/
theorem C110_figures_only (h : documentModel f path n s = .ok (is, s'))
    (ho : Spec.OnlyComponentFigures n)
    (hno : ∀ k ∈ n.classes, ∀ p ∈ k.params, p.kind ≠ .line ∧ p.kind ≠ .map) {file lab : PathStr} :
    Item.figure file lab ∉ is := by
  intro hi
  rcases (doc_mem ..).1 ((doc_items h _).1 hi) with h | h | h | h | ⟨k, hk, h | h⟩ | h
  · exact absurd h (emit_refActs n _)
  · obtain ⟨q', _, _, h' | ⟨h', _⟩ | ⟨c, _, h'⟩⟩ := (mem_connActs ..).1 h <;> cases h'
  · obtain ⟨q', _, _, h' | ⟨h', _⟩ | ⟨c, _, h'⟩⟩ := (mem_fluidActs ..).1 h <;> cases h'
  · obtain ⟨u, hu, h | h | ⟨x, hx, h⟩⟩ := (mem_ude ..).1 h
    · cases h
    · cases h
    · have hx1 : x.1 ∈ udeFiles u := (List.of_mem_zip (a := x.1) (b := x.2) hx).1
      have := ho.1 u hu
      simp [udeFiles, this.1, this.2] at hx1
  · rcases (mem_constraintActs ..).1 h with ⟨x, _, h⟩ | ⟨x, hx, h⟩
    · cases h
    · simp only [constraintChars, List.mem_flatMap, List.mem_filter, List.mem_map] at hx
      obtain ⟨y, ⟨hy, hy2⟩, -⟩ := hx
      rw [ho.2.1 k hk y hy] at hy2
      cases hy2
  · have hc : ∀ (p : Param) (c : Comp K), Item.figure file lab ≠ compCell f k p c := by
      intro p c he; unfold compCell at he; split at he <;> cases he
    have hnone : ∀ (kind : Kind) (q : String) (c : Comp K), kind ≠ .line → kind ≠ .map →
        charFile k.name kind q c = none := by
      intro kind q c h1 h2
      cases kind <;> first | rfl | exact absurd rfl h1 | exact absurd rfl h2
    rcases (mem_specActs ..).1 h with ⟨p, hp, h | ⟨c, _, h⟩⟩ | ⟨g, _, p, _, _, c, _, h⟩ |
      ⟨p, _, h⟩ | ⟨_, x, hx, h⟩
    · cases h
    · exact absurd h (hc p c)
    · exact absurd h (hc p c)
    · cases h
    · simp only [Class.figures, List.mem_append, List.mem_flatMap, List.mem_filterMap] at hx
      rcases hx with ⟨p, hp, c, hcm, hx⟩ | ⟨p, hp, c, hcm, e, _, hx⟩
      · simp only [Class.setChars, List.mem_filter] at hp
        have := hno k hk p hp.1
        rw [hnone _ _ _ this.1 this.2] at hx
        cases hx
      · have hk' : k.kindOf e ≠ .line ∧ k.kindOf e ≠ .map := by
          unfold Class.kindOf
          split
          · rename_i q hq
            exact hno k hk q (List.mem_of_find?_eq_some hq)
          · exact ⟨(by intro h; cases h), (by intro h; cases h)⟩
        rw [hnone _ _ _ hk'.1 hk'.2] at hx
        cases hx
  · have hsub : ∀ (bs : List (BusDoc K)) (pl : Plotted), (∀ b ∈ bs, ∀ c ∈ b.comps, c.charConst = true) →
        Act.emit (Item.figure file lab) ∉ documentBussesFrom f path n.mode bs pl := by
      intro bs
      induction bs with
      | nil => intro pl _ h; simp [documentBussesFrom] at h
      | cons b bs ih =>
        intro pl hb h
        rw [documentBussesFrom, List.mem_append] at h
        rcases h with h | h
        · obtain ⟨-, h | ⟨_, h⟩ | ⟨_, h | h⟩ | h | ⟨x, hx, h⟩⟩ := (emit_busActs ..).1 h
          · cases h
          · cases h
          · cases h
          · cases h
          · exfalso
            obtain ⟨c, _, pl', h⟩ := busRows_items _ _ _ _ _ _ _ h
            simp only [busRow, List.mem_append] at h
            rcases h with h | h
            · split at h <;> simp at h
            · split at h
              · rcases List.mem_cons.1 h with h | h
                · cases h
                · split at h <;> simp at h
              · simp at h
          · obtain ⟨c, hc, hcc, -⟩ := busRows_figures _ _ _ _ _ _ _ hx
            rw [hb b (List.mem_cons_self ..) c hc] at hcc
            cases hcc
        · exact ih _ (fun b' hb' => hb b' (List.mem_cons_of_mem _ hb')) h
    exact hsub _ _ ho.2.2 h

/-- A characteristic that one component of a class uses has a figure for each component of the
class, also for those that do not use it. -/
theorem C110_unused_figure_false (h : documentModel f path n s = .ok (is, s')) {k : Class K}
    (hk : k ∈ n.classes) {p : Param} (hp : p ∈ k.params) (hkind : p.kind = .line)
    (hl : p.latex = true) (hg : ¬ Spec.InGroup k p.name) (hs : ∃ c ∈ k.comps, c.set p.name = true) :
    ∀ c ∈ k.comps, Item.figure (localPath (k.name ++ "_CharLine_" ++ p.name ++ "_") c.label ".pdf")
      (cat ["CharLine_" ++ p.name ++ "_"] c.label) ∈ is := by
  intro c hc
  have hany : k.comps.any (fun c => c.set p.name) = true := List.any_eq_true.2 hs
  have hch : p ∈ k.setChars := by
    simp only [Class.setChars, List.mem_filter]
    exact ⟨hp, by simp [Param.isChar, hkind]; simpa using hs⟩
  have heq : p ∈ k.eqColumns := by
    simp only [Class.eqColumns, Class.mainColumns, List.mem_filter]
    have hspec : k.specified p = true := by
      obtain ⟨c, hc, hs⟩ := hs
      exact List.any_eq_true.2 ⟨c, hc, by simp [hs]⟩
    refine ⟨⟨?_, ?_⟩, hspec⟩
    · simp only [Class.columns, List.mem_append]; exact Or.inr hch
    · have : k.groupElements.contains p.name = false := by
        rw [Bool.eq_false_iff]
        intro hc
        exact hg ((mem_groupElements ..).1 (List.contains_iff_mem.1 hc))
      simp only [this, hl, Bool.not_false, Bool.or_true, Bool.and_self]
  refine spec_mem h hk ((mem_specActs ..).2 (Or.inr (Or.inr (Or.inr
    ⟨List.ne_nil_of_mem heq, (localPath (k.name ++ "_CharLine_" ++ p.name ++ "_") c.label ".pdf",
      cat ["CharLine_" ++ p.name ++ "_"] c.label), ?_, rfl⟩))))
  simp only [Class.figures, List.mem_append, List.mem_flatMap, List.mem_filterMap]
  exact Or.inl ⟨p, hch, c, hc, by simp [charFile, hkind]⟩

/-! ### Busses -/

/-- The total of a bus is the sum of the values of its components on the bus, in bold print if the
total is specified; each component has its own value and the value on the bus. -/
theorem C110_bus_total (h : documentModel f path n s = .ok (is, s')) (hf : f.results = true)
    {b : BusDoc K} (hb : b ∈ n.busses) (hd : ∃ c ∈ b.comps, c.doc = some true) :
    Item.cell .bus b.label "total bus value" (if b.p.isSome then .bold else .normal)
        (some (b.comps.map (·.busVal)).sum) ∈ is
      ∧ Item.cell .bus b.label "total component value" .normal
          (some (b.comps.map (·.compVal)).sum) ∈ is
      ∧ Item.busTotal b.label b.p ∈ is
      ∧ ∀ c ∈ b.comps, Item.cell .bus c.label "bus value" .normal (some c.busVal) ∈ is
        ∧ Item.cell .bus c.label "component value" .normal (some c.compVal) ∈ is := by
  obtain ⟨pl, hpl⟩ := mem_busses_of f path n.mode n.busses [] hb
  have mem : ∀ i, Act.emit i ∈ (busActs f path n.mode b pl).1 → i ∈ is := fun i hi =>
    (doc_items h i).2 ((doc_mem ..).2 (Or.inr (Or.inr (Or.inr (Or.inr (Or.inr (hpl _ hi)))))))
  refine ⟨mem _ ((emit_busActs ..).2 ⟨hd, Or.inr (Or.inr (Or.inl ⟨hf, Or.inr rfl⟩))⟩),
    mem _ ((emit_busActs ..).2 ⟨hd, Or.inr (Or.inr (Or.inl ⟨hf, Or.inl rfl⟩))⟩),
    mem _ ((emit_busActs ..).2 ⟨hd, Or.inl rfl⟩), fun c hc => ?_⟩
  obtain ⟨pl', hpl'⟩ := busRows_items_of f path n.mode b.label b.comps pl hc
  constructor
  · exact mem _ ((emit_busActs ..).2 ⟨hd, Or.inr (Or.inr (Or.inr (Or.inl
      (hpl' _ (by simp [busRow, hf])))))⟩)
  · exact mem _ ((emit_busActs ..).2 ⟨hd, Or.inr (Or.inr (Or.inr (Or.inl
      (hpl' _ (by simp [busRow, hf])))))⟩)

/-- The equation given for a component on a bus. -/
theorem C110_bus_equation (h : documentModel f path n s = .ok (is, s')) {bl l : PathStr}
    {form : BusForm} (hi : Item.busEq bl l form ∈ is) :
    ∃ b ∈ n.busses, b.label = bl ∧ ∃ c ∈ b.comps, c.label = l
      ∧ (form = .quotient ↔ c.base = .bus) := by
  rcases (doc_mem ..).1 ((doc_items h _).1 hi) with h | h | h | h | ⟨k, hk, h | h⟩ | h
  · exact absurd h (emit_refActs n _)
  · obtain ⟨q', _, _, h' | ⟨h', _⟩ | ⟨c, _, h'⟩⟩ := (mem_connActs ..).1 h <;> cases h'
  · obtain ⟨q', _, _, h' | ⟨h', _⟩ | ⟨c, _, h'⟩⟩ := (mem_fluidActs ..).1 h <;> cases h'
  · obtain ⟨u, _, h | h | ⟨x, _, h⟩⟩ := (mem_ude ..).1 h <;> cases h
  · rcases (mem_constraintActs ..).1 h with ⟨x, _, h⟩ | ⟨x, _, h⟩ <;> cases h
  · have hc : ∀ (p : Param) (c : Comp K), Item.busEq bl l form ≠ compCell f k p c := by
      intro p c he; unfold compCell at he; split at he <;> cases he
    rcases (mem_specActs ..).1 h with ⟨p, hp, h | ⟨c, _, h⟩⟩ | ⟨g, _, p, _, _, c, _, h⟩ |
      ⟨p, _, h⟩ | ⟨_, x, _, h⟩
    · cases h
    · exact absurd h (hc p c)
    · exact absurd h (hc p c)
    · cases h
    · cases h
  · obtain ⟨b, hb, pl, h⟩ := mem_busses _ _ _ _ _ _ h
    obtain ⟨-, h | ⟨_, h⟩ | ⟨_, h | h⟩ | h | ⟨x, _, h⟩⟩ := (emit_busActs ..).1 h
    · cases h
    · cases h
    · cases h
    · cases h
    · obtain ⟨c, hc, pl', h⟩ := busRows_items _ _ _ _ _ _ _ h
      simp only [busRow, List.mem_append] at h
      rcases h with h | h
      · split at h <;> simp at h
      · split at h
        · rcases List.mem_cons.1 h with h | h
          · injection h with h1 h2 h3
            refine ⟨b, hb, h1.symm, c, hc, h2.symm, ?_⟩
            rw [h3]
            cases c.base <;> simp
          · split at h <;> simp at h
        · simp at h
    · cases h

/-- the figures plotted so far, and those named in the rows of a bus, have a property which the
figures plotted before and the new ones have -/
theorem busRows_plotted {P : (ℕ × BusBase) × PathStr → Prop} (f : Fmt) (path : PathStr)
    (mode : String) (b : PathStr) : ∀ (cs : List (BusComp K)) (pl : Plotted),
    (∀ x ∈ pl, P x) →
    (∀ c ∈ cs, busFigure mode c.label ∈ (busRows f path mode b cs pl).2.2.1 →
      P ((c.char, c.base), (busFigure mode c.label).2)) →
    (∀ x ∈ (busRows f path mode b cs pl).2.2.2, P x) ∧
      ∀ bl l fig, Item.busEta bl l fig ∈ (busRows f path mode b cs pl).2.1 →
        bl = b ∧ ∃ c ∈ cs, c.label = l ∧ c.charConst = false ∧ P ((c.char, c.base), fig)
  | [], pl, hpl, _ => ⟨hpl, fun bl l fig h => by simp [busRows] at h⟩
  | c :: cs, pl, hpl, hnew => by
    have hc : ∀ x ∈ (busRow f path mode b c pl).2.2.2, P x := by
      intro x hx
      simp only [busRow] at hx
      split at hx
      · rename_i hn
        rcases List.mem_append.1 hx with hx | hx
        · exact hpl x hx
        · rw [List.mem_singleton.1 hx]
          refine hnew c (List.mem_cons_self ..) ?_
          simp only [busRows, List.mem_append]
          left
          simp [busRow, hn]
      · exact hpl x hx
    have ih := busRows_plotted f path mode b cs (busRow f path mode b c pl).2.2.2 hc
      (fun c' hc' hf => hnew c' (List.mem_cons_of_mem _ hc') (by
        simp only [busRows, List.mem_append]; exact Or.inr hf))
    refine ⟨fun x hx => ih.1 x hx, fun bl l fig hi => ?_⟩
    simp only [busRows, List.mem_append] at hi
    rcases hi with hi | hi
    · simp only [busRow, List.mem_append] at hi
      rcases hi with hi | hi
      · split at hi <;> simp at hi
      · split at hi
        · rcases List.mem_cons.1 hi with hi | hi
          · cases hi
          · cases hconst : c.charConst with
            | true => simp [hconst] at hi
            | false =>
              simp only [hconst, Bool.false_eq_true, if_false, List.mem_singleton,
                Item.busEta.injEq] at hi
              obtain ⟨h1, h2, h3⟩ := hi
              refine ⟨h1, c, List.mem_cons_self .., h2.symm, hconst, ?_⟩
              cases hfind : findPlot pl (c.char, c.base) with
              | some g =>
                rw [h3, hfind]
                simp only [findPlot, Option.map_eq_some_iff] at hfind
                obtain ⟨y, hy, rfl⟩ := hfind
                have hk := List.find?_some hy
                have := hpl y (List.mem_of_find?_eq_some hy)
                rw [← of_decide_eq_true hk]
                exact this
              | none =>
                rw [h3, hfind]
                refine hnew c (List.mem_cons_self ..) ?_
                simp only [busRows, List.mem_append]
                left
                simp [busRow, hconst, hfind]
        · simp at hi
    · obtain ⟨h0, c', hc', h⟩ := ih.2 bl l fig hi
      exact ⟨h0, c', List.mem_cons_of_mem _ hc', h⟩

theorem busses_plotted {P : (ℕ × BusBase) × PathStr → Prop} (f : Fmt) (path : PathStr)
    (mode : String) : ∀ (bs : List (BusDoc K)) (pl : Plotted),
    (∀ b ∈ bs, ∃ c ∈ b.comps, c.doc = some true) → (∀ x ∈ pl, P x) →
    (∀ b ∈ bs, ∀ c ∈ b.comps, Act.emit (Item.figure (busFigure mode c.label).1
        (busFigure mode c.label).2) ∈ documentBussesFrom f path mode bs pl →
      P ((c.char, c.base), (busFigure mode c.label).2)) →
    ∀ bl l fig, Act.emit (Item.busEta bl l fig) ∈ documentBussesFrom f path mode bs pl →
      ∃ b ∈ bs, b.label = bl ∧ ∃ c ∈ b.comps, c.label = l ∧ c.charConst = false
        ∧ P ((c.char, c.base), fig)
  | [], pl, _, _, _ => fun bl l fig h => by simp [documentBussesFrom] at h
  | b :: bs, pl, hd, hpl, hnew => by
    have key := busRows_plotted (P := P) f path mode b.label b.comps pl hpl (fun c hc hf =>
      hnew b (List.mem_cons_self ..) c hc (by
        rw [documentBussesFrom, List.mem_append]
        exact Or.inl ((emit_busActs ..).2 ⟨hd b (List.mem_cons_self ..),
          Or.inr (Or.inr (Or.inr (Or.inr ⟨_, hf, rfl⟩)))⟩)))
    have ih := busses_plotted (P := P) f path mode bs (busActs f path mode b pl).2
      (fun b' hb' => hd b' (List.mem_cons_of_mem _ hb')) key.1
      (fun b' hb' c hc hf => hnew b' (List.mem_cons_of_mem _ hb') c hc (by
        rw [documentBussesFrom, List.mem_append]; exact Or.inr hf))
    intro bl l fig hi
    rw [documentBussesFrom, List.mem_append] at hi
    rcases hi with hi | hi
    · obtain ⟨-, h | ⟨_, h⟩ | ⟨_, h | h⟩ | h | ⟨x, _, h⟩⟩ := (emit_busActs ..).1 hi
      · cases h
      · cases h
      · cases h
      · cases h
      · obtain ⟨h0, c, hc, h⟩ := key.2 bl l fig h
        exact ⟨b, List.mem_cons_self .., h0.symm, c, hc, h⟩
      · cases h
    · obtain ⟨b', hb', h⟩ := ih bl l fig hi
      exact ⟨b', List.mem_cons_of_mem _ hb', h⟩

/-- If every bus has a component with an equation, the figure which the row of a component of a bus
refers to for its efficiency is in the report, and it is the figure of a component with the same
characteristic and the same base. -/
theorem C110_bus_figure_partial (h : documentModel f path n s = .ok (is, s'))
    (hd : ∀ b ∈ n.busses, ∃ c ∈ b.comps, c.doc = some true) {bl l fig : PathStr}
    (hi : Item.busEta bl l fig ∈ is) :
    ∃ b ∈ n.busses, b.label = bl ∧ ∃ c ∈ b.comps, c.label = l ∧ c.charConst = false
      ∧ (∃ file, Item.figure file fig ∈ is)
      ∧ ∃ b' ∈ n.busses, ∃ c' ∈ b'.comps, c'.char = c.char ∧ c'.base = c.base
        ∧ fig = cat ["Bus_CharLine_"] (cat c'.label [n.mode]) := by
  have hall := h
  rcases (doc_mem ..).1 ((doc_items h _).1 hi) with h | h | h | h | ⟨k, hk, h | h⟩ | h
  · exact absurd h (emit_refActs n _)
  · obtain ⟨q', _, _, h' | ⟨h', _⟩ | ⟨c, _, h'⟩⟩ := (mem_connActs ..).1 h <;> cases h'
  · obtain ⟨q', _, _, h' | ⟨h', _⟩ | ⟨c, _, h'⟩⟩ := (mem_fluidActs ..).1 h <;> cases h'
  · obtain ⟨u, _, h | h | ⟨x, _, h⟩⟩ := (mem_ude ..).1 h <;> cases h
  · rcases (mem_constraintActs ..).1 h with ⟨x, _, h⟩ | ⟨x, _, h⟩ <;> cases h
  · have hc : ∀ (p : Param) (c : Comp K), Item.busEta bl l fig ≠ compCell f k p c := by
      intro p c he; unfold compCell at he; split at he <;> cases he
    rcases (mem_specActs ..).1 h with ⟨p, hp, h | ⟨c, _, h⟩⟩ | ⟨g, _, p, _, _, c, _, h⟩ |
      ⟨p, _, h⟩ | ⟨_, x, _, h⟩
    · cases h
    · exact absurd h (hc p c)
    · exact absurd h (hc p c)
    · cases h
    · cases h
  · obtain ⟨b, hb, hbl, c, hc, hl, hconst, hP⟩ := busses_plotted
      (P := fun x => (∃ file, Item.figure file x.2 ∈ is) ∧ ∃ b' ∈ n.busses, ∃ c' ∈ b'.comps,
        c'.char = x.1.1 ∧ c'.base = x.1.2 ∧ x.2 = cat ["Bus_CharLine_"] (cat c'.label [n.mode]))
      f path n.mode n.busses [] hd (by simp)
      (fun b hb c hc hf => ⟨⟨_, (doc_items hall _).2 ((doc_mem ..).2
        (Or.inr (Or.inr (Or.inr (Or.inr (Or.inr hf))))))⟩, b, hb, c, hc, rfl, rfl, rfl⟩) bl l fig h
    exact ⟨b, hb, hbl, c, hc, hl, hconst, hP⟩

/-- A parameter that is not specified and not a variable for any component of the class, and not an
element of a specified group: if results are included, and the results are not restricted to some
parameters, its value is in the table of the class in normal print, without a link. -/
theorem C110_component_result (h : documentModel f path n s = .ok (is, s')) {k : Class K}
    (hk : k ∈ n.classes) {p : Param} (hp : p ∈ k.params) (hkind : p.kind = .prop)
    (hns : ∀ c ∈ k.comps, c.set p.name = false ∧ c.var p.name = false)
    (hg : ¬ Spec.InGroup k p.name) (hr : f.results = true) (hall : f.compParams k.name = [])
    {c : Comp K} (hc : c ∈ k.comps) :
    Item.cell (.cls k.name) c.label p.name .normal (c.val p.name) ∈ is
      ∧ Item.header (.cls k.name) p.name none ∈ is := by
  have hprop : p.isProp = true := by simp [Param.isProp, hkind]
  have hspec : k.specified p = false := by
    rw [Bool.eq_false_iff]
    intro hs
    obtain ⟨c', hc', hs⟩ := List.any_eq_true.1 hs
    simp [hns c' hc'] at hs
  have hmain : p ∈ k.mainColumns := by
    simp only [Class.mainColumns, List.mem_filter]
    refine ⟨?_, ?_⟩
    · simp only [Class.columns, List.mem_append, List.mem_filter]
      exact Or.inl (Or.inl ⟨hp, hprop⟩)
    · have : k.groupElements.contains p.name = false := by
        rw [Bool.eq_false_iff]
        intro hc
        exact hg ((mem_groupElements ..).1 (List.contains_iff_mem.1 hc))
      simp only [this, hspec, Bool.not_false, Bool.true_or, Bool.and_self]
  constructor
  · refine spec_mem h hk ((mem_specActs ..).2 (Or.inl ⟨p, hmain, Or.inr ⟨c, hc, ?_⟩⟩))
    simp [compCell, hprop, hns c hc, compVal, hr, hall]
  · exact spec_mem h hk ((mem_specActs ..).2 (Or.inl ⟨p, hmain, Or.inl (by simp [hspec])⟩))

/-- An element of a specified group has no column in the main table of its class. -/
theorem C110_group_element (h : documentModel f path n s = .ok (is, s')) {k : Class K}
    (hname : ∀ k' ∈ n.classes, k'.name = k.name → k' = k) {q : String} (hg : Spec.InGroup k q) :
    ∀ lk, Item.header (.cls k.name) q lk ∉ is := by
  intro lk hi
  obtain ⟨k', hk', hn, p', hp', hpn, hc⟩ := cls_item h hi (Or.inr (Or.inr ⟨lk, rfl⟩))
  obtain rfl := hname k' hk' hn
  rcases hc with ⟨hm, -⟩ | ⟨-, c, _, he⟩
  · simp only [Class.mainColumns, List.mem_filter, Bool.and_eq_true] at hm
    have := List.contains_iff_mem.2 ((mem_groupElements k' q).2 hg)
    rw [hpn, this] at hm
    simp at hm
  · unfold compCell at he
    split at he <;> cases he

end

/-- The equations given for busses are those the value on the bus is computed with: the value of
the component divided by the efficiency if the efficiency is based on the bus, otherwise multiplied
by it. -/
theorem C110_bus_value {K : Type} [Field K] [LinearOrder K] [IsStrictOrderedRing K] {v w e : K}
    {r : BusRow K} (hw : calcBusValue v r = .ok w) (he : calcBusEfficiency v r = .ok e) :
    w = match r.base with | .bus => v / e | .component => v * e := by
  simp only [calcBusValue, calcBusEfficiency, bind, Except.bind] at hw he
  cases hx : calcBusExpr v r with
  | error x => rw [hx] at hw; cases hw
  | ok x =>
    rw [hx] at hw he
    simp only at hw he
    rw [he] at hw
    simp only at hw
    cases hb : r.base with
    | component => rw [hb] at hw; simpa using hw.symm
    | bus =>
      rw [hb] at hw
      simp only [pyDiv] at hw
      split at hw
      · cases hw
      · simpa using hw.symm

/-! ## Concrete networks -/

/-- two connections: mass flow and pressure of the first one are specified, and its fluid -/
def exConn (label : String) (props : List String) : Conn ℚ where
  label := [label]
  set := fun q => props.contains q
  val := fun q => if q = "x" then none else some 10
  fluidSet := fun _ => props.contains "m"
  fluidVal := fun _ => some 1
  balance := false
  refSet := fun _ => false

/-- a component with specified parameters -/
def exComp (label : PathStr) (props : List String) (vars : List String) : Comp ℚ where
  label := label
  set := fun q => props.contains q
  var := fun q => vars.contains q
  val := fun _ => some 3

/-- two turbines, the efficiency characteristic is specified for the first one only -/
def exTurbines : Class ℚ :=
  ⟨"Turbine", turbineParams, [("fluid_constraints", false)],
    [exComp ["turbine 1"] ["eta_s_char", "cone"] [], exComp ["turbine_1"] ["eta_s", "cone"] ["pr"]]⟩

/-- a heat exchanger with a specified pressure drop -/
def exHex : Class ℚ :=
  ⟨"HeatExchanger", heatExchangerParams, [], [exComp ["condenser"] ["dp1", "pr2", "kA_char"] []]⟩

/-- a bus with two turbines, one with an efficiency that depends on the load -/
def exBus (label : String) (const : Bool) : BusDoc ℚ :=
  ⟨[label], some (-190), [⟨["turbine 1"], -100, -95, 95 / 100, .component, 0, true, some true⟩,
    ⟨["turbine_1"], -100, -95, 95 / 100, .bus, 1, const, some true⟩]⟩

/-- a plant with turbines, a heat exchanger and two busses -/
def exNet (const : Bool) : Net ℚ :=
  ⟨"design", [exConn "c1" ["m", "p", "Td_bp"], exConn "c2" ["p"]], ["water"], [],
    [exTurbines, exHex], [exBus "power" const, exBus "grid" const]⟩

/-- a combustion engine -/
def exEngine : Net ℚ :=
  ⟨"design", [exConn "c1" ["m", "p"]], ["water"], [],
    [⟨"CombustionEngine", [], engineConstraints, [exComp ["chp"] [] []]⟩], []⟩

theorem exNet_noRef (b : Bool) : Spec.NoRef (exNet b) := by
  intro c hc r _
  simp only [exNet, List.mem_cons, List.not_mem_nil, or_false] at hc
  rcases hc with rfl | rfl <;> rfl

theorem exNet_docs (b : Bool) : Spec.BusDocs (exNet b) := by
  intro bus hb c hc
  simp only [exNet, List.mem_cons, List.not_mem_nil, or_false] at hb
  rcases hb with rfl | rfl <;>
    (simp only [exBus, List.mem_cons, List.not_mem_nil, or_false] at hc
     rcases hc with rfl | rfl <;> simp)

theorem exNet_used (b : Bool) : Spec.BussesUsed (exNet b) := by
  intro bus hb
  simp only [exNet, List.mem_cons, List.not_mem_nil, or_false] at hb
  rcases hb with rfl | rfl <;> simp [exBus]

theorem exNet_plain (b : Bool) : Spec.PlainLabels (exNet b) := by
  refine ⟨fun u hu => by simp [exNet] at hu, fun k hk c hc => ?_, fun bus hb c hc => ?_⟩
  · simp only [exNet, List.mem_cons, List.not_mem_nil, or_false] at hk
    rcases hk with rfl | rfl
    · simp only [exTurbines, List.mem_cons, List.not_mem_nil, or_false] at hc
      rcases hc with rfl | rfl <;> exact ⟨_, rfl⟩
    · simp only [exHex, List.mem_cons, List.not_mem_nil, or_false] at hc
      subst hc; exact ⟨_, rfl⟩
  · simp only [exNet, List.mem_cons, List.not_mem_nil, or_false] at hb
    rcases hb with rfl | rfl <;>
      (simp only [exBus, List.mem_cons, List.not_mem_nil, or_false] at hc
       rcases hc with rfl | rfl <;> exact ⟨_, rfl⟩)

theorem exNet_only : Spec.OnlyComponentFigures (exNet true) := by
  refine ⟨fun u hu => by simp [exNet] at hu, fun k hk x hx => ?_, fun bus hb c hc => ?_⟩
  · simp only [exNet, List.mem_cons, List.not_mem_nil, or_false] at hk
    rcases hk with rfl | rfl
    · simp only [exTurbines, List.mem_cons, List.not_mem_nil, or_false] at hx
      subst hx; rfl
    · simp [exHex] at hx
  · simp only [exNet, List.mem_cons, List.not_mem_nil, or_false] at hb
    rcases hb with rfl | rfl <;>
      (simp only [exBus, List.mem_cons, List.not_mem_nil, or_false] at hc
       rcases hc with rfl | rfl <;> rfl)

/-- an empty working directory -/
def exFS : FS := ⟨[], []⟩

/-- the report of the plant in the folder `report/`, and with constant efficiencies of the busses
also in the folder `report` -/
theorem exNet_made : (∃ is s', documentModel defaults ["report", ""] (exNet false) exFS = .ok (is, s'))
    ∧ ∃ is s', documentModel defaults ["report"] (exNet true) exFS = .ok (is, s') :=
  ⟨C110_made_partial _ (by simp) (exNet_noRef _) (exNet_docs _) (fun _ => exNet_used _)
      (exNet_plain _) (Or.inl (by decide)),
    C110_made_partial _ (by simp) (exNet_noRef _) (exNet_docs _) (fun _ => exNet_used _)
      (exNet_plain _) (Or.inr exNet_only)⟩

/-- the default path, with an efficiency that depends on the load: no report -/
example : ∀ r, documentModel defaults ["report"] (exNet false) exFS ≠ .ok r :=
  C110_bus_figure_false _ (by simp) (by decide) (by simp [exFS]) (exNet_plain _)
    (Or.inl ⟨exBus "power" false, by simp [exNet], _, List.mem_cons_of_mem _ (List.mem_cons_self ..), rfl⟩)

/-- the default path, with a combustion engine: no report -/
example : documentModel defaults ["report"] exEngine exFS = .error .fileNotFound :=
  C110_constraint_false (k := ⟨"CombustionEngine", [], engineConstraints, [exComp ["chp"] [] []]⟩)
    (x := "power_constraints") (c := exComp ["chp"] [] []) _ (by simp) (by decide) (by simp [exFS])
    (by
      intro c hc r _
      simp only [exEngine, List.mem_cons, List.not_mem_nil, or_false] at hc
      subst hc; rfl)
    (by simp [exEngine]) (by decide) (by simp) ⟨_, rfl⟩

/-- a reference, an empty bus and a fuel cell on a bus: no report -/
example : documentModel defaults ["report", ""]
    { exNet true with conns := [{ exConn "c1" ["m"] with refSet := fun r => r == "p_ref" }] } exFS
      = .error .attributeError :=
  C110_ref_false (c := { exConn "c1" ["m"] with refSet := fun r => r == "p_ref" }) (r := "p_ref") _
    (by simp) (by decide) (by decide)

example : (∀ r, documentModel defaults ["report", ""]
      { exNet true with busses := [⟨["power"], none, []⟩] } exFS ≠ .ok r)
    ∧ ∀ r, documentModel defaults ["report", ""]
      { exNet true with busses := [⟨["power"], none,
        [⟨["fuel cell"], -100, -95, 95 / 100, .component, 0, true, none⟩]⟩] } exFS ≠ .ok r :=
  ⟨C110_bus_false _ (Or.inr ⟨rfl, _, List.mem_cons_self .., rfl⟩),
    C110_bus_false _ (Or.inl ⟨_, List.mem_cons_self .., _, List.mem_cons_self .., rfl⟩)⟩

/-- what the report of the plant says -/
example : ∃ is s', documentModel defaults ["report", ""] (exNet false) exFS = .ok (is, s')
    ∧ Item.cell .conn ["c1"] "p" .bold (some 10) ∈ is
    ∧ Item.cell .conn ["c2"] "T" .normal (some 10) ∈ is
    ∧ Item.cell .fluid ["c1"] "water" .bold (some 1) ∈ is
    ∧ Item.cell (.cls "Turbine") ["turbine_1"] "eta_s" .bold (some 3) ∈ is
    ∧ Item.cell (.cls "Turbine") ["turbine_1"] "pr" .italic (some 3) ∈ is
    ∧ (∀ l st v, Item.cell (.cls "HeatExchanger") l "dp1" st v ∉ is)
    ∧ (∀ l b, Item.mark (.cls "Turbine") l "cone" b ∉ is)
    ∧ Item.figure ["figures", "Turbine_CharLine_eta_s_char_turbine_1.pdf"]
        ["CharLine_eta_s_char_turbine_1"] ∈ is
    ∧ Item.cell .bus ["power"] "total bus value" .bold (some (-190)) ∈ is := by
  obtain ⟨is, s', h⟩ := exNet_made.1
  have hT : exTurbines ∈ (exNet false).classes := by simp [exNet]
  have hgT : ∀ q, ¬ Spec.InGroup exTurbines q := by
    rintro q ⟨g, hg, es, hk, -⟩
    have : ∀ g ∈ turbineParams, g.elements = none := by decide
    have := this g hg
    simp [Param.elements, hk] at this
  refine ⟨is, s', h, ?_, ?_, ?_, ?_, ?_, ?_, ?_, ?_, ?_⟩
  · exact (C110_connection h (c := exConn "c1" ["m", "p", "Td_bp"]) (by simp [exNet]) (q := "p")
      (t := "pressure") (by decide) (by decide) (v := 10) (by decide)).1
  · exact C110_connection_result h rfl (c := exConn "c2" ["p"]) (by simp [exNet]) (q := "T")
      (t := "temperature") (by decide) (Or.inr (by decide)) (v := 10) (by decide)
  · exact ((C110_fluid h).1 (exConn "c1" ["m", "p", "Td_bp"]) (by simp [exNet]) "water"
      (by simp [exNet]) 1 (by decide) (by decide)).1
  · exact (C110_component_partial h hT (p := ⟨"eta_s", .prop, true⟩) (by decide) rfl
      (c := exComp ["turbine_1"] ["eta_s", "cone"] ["pr"]) (by simp [exTurbines])
      (Or.inl (by decide)) (Or.inl rfl)).1
  · exact (C110_component_partial h hT (p := ⟨"pr", .prop, true⟩) (by decide) rfl
      (c := exComp ["turbine_1"] ["eta_s", "cone"] ["pr"]) (by simp [exTurbines])
      (Or.inr (by decide)) (Or.inl rfl)).1
  · refine C110_heat_exchanger_false (k := exHex) h ?_ rfl (by decide)
      ⟨_, List.mem_cons_self .., by decide⟩
    intro k hk hn
    simp only [exNet, List.mem_cons, List.not_mem_nil, or_false] at hk
    rcases hk with rfl | rfl
    · simp [exTurbines, exHex] at hn
    · rfl
  · refine (C110_simple_false (k := exTurbines) (p := ⟨"cone", .simple, true⟩) h ?_ ?_ rfl).2.1
    · intro k hk hn
      simp only [exNet, List.mem_cons, List.not_mem_nil, or_false] at hk
      rcases hk with rfl | rfl
      · rfl
      · simp [exTurbines, exHex] at hn
    · decide
  · exact C110_unused_figure_false h hT (p := ⟨"eta_s_char", .line, true⟩) (by decide) rfl rfl
      (hgT _) ⟨exComp ["turbine 1"] ["eta_s_char", "cone"] [], by simp [exTurbines], by decide⟩
      (exComp ["turbine_1"] ["eta_s", "cone"] ["pr"]) (by simp [exTurbines])
  · have := (C110_bus_total h rfl (b := exBus "power" false) (by simp [exNet])
      ⟨_, List.mem_cons_self .., rfl⟩).1
    have hsum : ((exBus "power" false).comps.map (·.busVal)).sum = (-190 : ℚ) := by decide +kernel
    rw [hsum] at this
    exact this

/-- a pipe with a specified group of parameters, and no characteristics -/
def exPipe : Net ℚ :=
  ⟨"design", [exConn "c1" ["m", "p"]], ["water"], [],
    [⟨"Pipe", [⟨"pr", .prop, true⟩, ⟨"D", .prop, false⟩, ⟨"L", .prop, false⟩, ⟨"ks", .prop, false⟩,
      ⟨"hydro_group", .group ["D", "L", "ks"], true⟩], [("fluid_constraints", false)],
      [exComp ["pipe 1"] ["hydro_group", "D", "L", "ks"] []]⟩], []⟩

theorem exPipe_made :
    (match documentModel defaults ["report"] exPipe exFS with
      | .ok _ => true | .error _ => false) = true := by decide +kernel

/-- the report of the pipe is made, and has no figure -/
example : ∃ is s', documentModel defaults ["report"] exPipe exFS = .ok (is, s')
    ∧ ∀ file lab, Item.figure file lab ∉ is := by
  have hm := exPipe_made
  cases h : documentModel defaults ["report"] exPipe exFS with
  | error e => rw [h] at hm; cases hm
  | ok x =>
    refine ⟨x.1, x.2, rfl, fun file lab => C110_figures_only h ⟨?_, ?_, ?_⟩ ?_⟩
    · intro u hu; simp [exPipe] at hu
    · intro k hk c hc
      simp only [exPipe, List.mem_singleton] at hk
      subst hk
      simp only [List.mem_singleton] at hc
      subst hc; rfl
    · intro b hb; simp [exPipe] at hb
    · intro k hk
      simp only [exPipe, List.mem_singleton] at hk
      subst hk
      decide

theorem exNet_eta :
    (match documentModel defaults ["report", ""] (exNet false) exFS with
      | .ok r => r.1.any (fun i => match i with
        | .busEta b l g => decide (b = ["grid"] ∧ l = ["turbine_1"]
            ∧ g = ["Bus_CharLine_turbine_1design"])
        | _ => false)
      | .error _ => false) = true := by decide +kernel

/-- the second bus refers to the figure that was made for the first one, and it is in the report -/
example : ∃ is s', documentModel defaults ["report", ""] (exNet false) exFS = .ok (is, s')
    ∧ Item.busEta ["grid"] ["turbine_1"] ["Bus_CharLine_turbine_1design"] ∈ is
    ∧ ∃ file, Item.figure file ["Bus_CharLine_turbine_1design"] ∈ is := by
  have hm := exNet_eta
  obtain ⟨is, s', h⟩ := exNet_made.1
  rw [h] at hm
  obtain ⟨i, hi, hm⟩ := List.any_eq_true.1 hm
  have hin : Item.busEta ["grid"] ["turbine_1"] ["Bus_CharLine_turbine_1design"] ∈ is := by
    split at hm
    · obtain ⟨rfl, rfl, rfl⟩ := of_decide_eq_true hm
      exact hi
    · cases hm
  obtain ⟨_, _, _, _, _, _, _, hf, _⟩ := C110_bus_figure_partial h (by
    intro b hb
    simp only [exNet, List.mem_cons, List.not_mem_nil, or_false] at hb
    rcases hb with rfl | rfl <;> exact ⟨_, List.mem_cons_self .., rfl⟩) hin
  exact ⟨is, s', h, hin, hf⟩

/-- the results of the pipe that are not specified are in its table, and the elements of the
specified group have no column in the main table -/
example : ∃ is s', documentModel defaults ["report"] exPipe exFS = .ok (is, s')
    ∧ Item.cell (.cls "Pipe") ["pipe 1"] "pr" .normal (some 3) ∈ is
    ∧ ∀ lk, Item.header (.cls "Pipe") "D" lk ∉ is := by
  have hm := exPipe_made
  cases h : documentModel defaults ["report"] exPipe exFS with
  | error e => rw [h] at hm; cases hm
  | ok x =>
    refine ⟨x.1, x.2, rfl, (C110_component_result h (List.mem_cons_self ..)
      (p := ⟨"pr", .prop, true⟩) (by decide) rfl ?_ ?_ rfl rfl (List.mem_cons_self ..)).1,
      C110_group_element h (k := exPipe.classes.head (by simp [exPipe])) ?_
        ⟨⟨"hydro_group", .group ["D", "L", "ks"], true⟩, by decide, _, rfl, by decide,
          _, List.mem_cons_self .., by decide⟩⟩
    · intro c hc
      simp only [List.mem_singleton] at hc
      subst hc
      decide
    · rintro ⟨g, hg, es, hk, hq, -⟩
      have : ∀ g ∈ (exPipe.classes.head (by simp [exPipe])).params,
        "pr" ∉ g.elements.getD [] := by decide
      have := this g hg
      simp [Param.elements, hk] at this
      exact this hq
    · intro k' hk' _
      simp only [exPipe, List.mem_singleton] at hk'
      subst hk'; rfl

/-- Two components whose labels differ only in a space and an underscore share the file of the
figures of their characteristics: the second plot replaces the first one. -/
theorem C110_overwrite_false : ∃ is s' file l₁ l₂,
    documentModel defaults ["report", ""] (exNet false) exFS = .ok (is, s')
      ∧ Item.figure file l₁ ∈ is ∧ Item.figure file l₂ ∈ is ∧ l₁ ≠ l₂ := by
  obtain ⟨is, s', h⟩ := exNet_made.1
  have hT : exTurbines ∈ (exNet false).classes := by simp [exNet]
  have hgT : ¬ Spec.InGroup exTurbines "eta_s_char" := by
    rintro ⟨g, hg, es, hk, -⟩
    have : ∀ g ∈ turbineParams, g.elements = none := by decide
    have := this g hg
    simp [Param.elements, hk] at this
  have key := C110_unused_figure_false h hT (p := ⟨"eta_s_char", .line, true⟩) (by decide) rfl rfl
    hgT ⟨exComp ["turbine 1"] ["eta_s_char", "cone"] [], by simp [exTurbines], by decide⟩
  have h1 := key (exComp ["turbine 1"] ["eta_s_char", "cone"] []) (by simp [exTurbines])
  have h2 := key (exComp ["turbine_1"] ["eta_s", "cone"] ["pr"]) (by simp [exTurbines])
  have hfile : localPath "Turbine_CharLine_eta_s_char_" ["turbine 1"] ".pdf"
      = localPath "Turbine_CharLine_eta_s_char_" ["turbine_1"] ".pdf" := by decide
  have hname : exTurbines.name ++ "_CharLine_" ++ "eta_s_char" ++ "_"
      = "Turbine_CharLine_eta_s_char_" := by decide
  simp only [exComp, hname] at h1 h2
  rw [← hfile] at h2
  exact ⟨is, s', _, _, _, h, h1, h2, by decide⟩

/-- In a folder that happens to hold the folder `reportfigures`, the report of a combustion engine
with the default path is made, and includes a figure whose file has not been written: no file is at
that place. -/
theorem C110_figures_false : ∃ is s' file lab,
    documentModel defaults ["report"] exEngine ⟨[(false, ["reportfigures"])], []⟩ = .ok (is, s')
      ∧ Item.figure file lab ∈ is ∧ ∀ w ∈ s'.files, norm w ≠ norm (pathJoin ["report"] file) := by
  have h : (match documentModel defaults ["report"] exEngine ⟨[(false, ["reportfigures"])], []⟩ with
      | .ok r => decide (Item.figure
            ["figures", "CombustionEngine_CharLine_power_constraints_chp.pdf"]
            ["CharLine_power_constraints_chp"] ∈ r.1)
          && decide (∀ w ∈ r.2.files, norm w ≠ norm (pathJoin ["report"]
            ["figures", "CombustionEngine_CharLine_power_constraints_chp.pdf"]))
      | .error _ => false) = true := by decide +kernel
  cases hd : documentModel defaults ["report"] exEngine ⟨[(false, ["reportfigures"])], []⟩ with
  | error e => rw [hd] at h; cases h
  | ok r =>
    rw [hd] at h
    simp only [Bool.and_eq_true, decide_eq_true_eq] at h
    exact ⟨r.1, r.2, _, _, rfl, h.1, h.2⟩

/-- Two busses with a specified total give two equations with the same label, so that it is not
clear which one a link leads to. -/
theorem C110_duplicate_label_false : ∃ is s',
    documentModel defaults ["report"] (exNet true) exFS = .ok (is, s')
      ∧ 2 ≤ is.count (Item.equation ["Bus_energy_flow_sum"]) := by
  have h : (match documentModel defaults ["report"] (exNet true) exFS with
      | .ok r => decide (2 ≤ r.1.count (Item.equation ["Bus_energy_flow_sum"]))
      | .error _ => false) = true := by decide +kernel
  cases hd : documentModel defaults ["report"] (exNet true) exFS with
  | error e => rw [hd] at h; cases h
  | ok r =>
    rw [hd] at h
    simp only [decide_eq_true_eq] at h
    exact ⟨r.1, r.2, rfl, h⟩

/-- A turbine whose label has a slash, with a specified characteristic. -/
def exSlash : Net ℚ :=
  ⟨"design", [exConn "c1" ["m"]], ["water"], [],
    [⟨"Turbine", turbineParams, [], [exComp ["hp", "lp"] ["eta_s_char"] []]⟩], []⟩

theorem exSlash_fails :
    (match documentModel defaults ["report", ""] exSlash exFS with
      | .ok _ => false
      | .error e => decide (e = .fileNotFound)) = true := by decide +kernel

/-- A label with a slash, which components may have, is taken for a folder: no report, even if the
path ends with a slash and the figures are only those of components. -/
theorem C110_slash_false : ∃ n : Net ℚ, Spec.NoRef n ∧ Spec.BusDocs n ∧ Spec.BussesUsed n
    ∧ Spec.OnlyComponentFigures n
    ∧ documentModel defaults ["report", ""] n exFS = .error .fileNotFound := by
  refine ⟨exSlash, ?_, ?_, ?_, ?_, ?_⟩
  · intro c hc r _
    simp only [exSlash, List.mem_cons, List.not_mem_nil, or_false] at hc
    subst hc; rfl
  · intro b hb; simp [exSlash] at hb
  · intro b hb; simp [exSlash] at hb
  · refine ⟨by simp [exSlash], ?_, by simp [exSlash]⟩
    intro k hk x hx
    simp only [exSlash, List.mem_cons, List.not_mem_nil, or_false] at hk
    subst hk; simp at hx
  · have h := exSlash_fails
    cases hd : documentModel defaults ["report", ""] exSlash exFS with
    | ok r => rw [hd] at h; cases h
    | error e => rw [hd] at h; rw [of_decide_eq_true h]

end Tespy.Report
