import Verif.Model.Report
import Mathlib.Data.List.Basic
import Mathlib.Tactic.Ring
import Mathlib.Data.Rat.Defs

/-!
# Lemmas about the LaTeX report of a model

What a run puts out, which files it writes and which exceptions it raises.
-/

namespace Tespy.Report

variable {K : Type}

/-! ## Runs -/

theorem run_ok {as : List (Act K)} {s s' : FS} {is : List (Item K)}
    (h : run as s = .ok (is, s')) :
    (∀ i, i ∈ is ↔ Act.emit i ∈ as) ∧ (∀ w, w ∈ s'.files ↔ w ∈ s.files ∨ Act.plot w ∈ as)
      ∧ (∀ e, Act.fail e ∉ as) ∧ ∀ w, Act.plot w ∈ as → s.hasDir (norm w.dropLast) = true := by
  induction as generalizing s is with
  | nil => simp only [run, Except.ok.injEq, Prod.mk.injEq] at h; obtain ⟨rfl, rfl⟩ := h; simp
  | cons a as ih =>
    cases a with
    | emit i =>
      rw [run] at h
      cases hr : run as s with
      | error e => rw [hr] at h; simp at h
      | ok r =>
        obtain ⟨is', s2⟩ := r
        rw [hr] at h
        simp only [Except.ok.injEq, Prod.mk.injEq] at h
        obtain ⟨rfl, rfl⟩ := h
        obtain ⟨h1, h2, h3, h4⟩ := ih hr
        refine ⟨fun j => ?_, fun w => ?_, fun e => ?_, fun w => ?_⟩
        · simp [h1]
        · simp [h2]
        · simp [h3]
        · simpa using h4 w
    | plot f =>
      rw [run] at h
      by_cases hd : s.hasDir (norm f.dropLast) = true
      · simp only [FS.plot, hd, if_true] at h
        obtain ⟨h1, h2, h3, h4⟩ := ih h
        refine ⟨fun j => ?_, fun w => ?_, fun e => ?_, fun w hw => ?_⟩
        · simp [h1]
        · simp [h2, or_assoc]
        · simp [h3]
        · rcases List.mem_cons.1 hw with hw | hw
          · cases hw; exact hd
          · exact h4 w hw
      · simp [FS.plot, hd] at h
    | fail e => simp [run] at h

theorem run_of {as : List (Act K)} {s : FS} (hf : ∀ e, Act.fail e ∉ as)
    (hp : ∀ w, Act.plot w ∈ as → s.hasDir (norm w.dropLast) = true) :
    ∃ r, run as s = .ok r := by
  induction as generalizing s with
  | nil => exact ⟨_, rfl⟩
  | cons a as ih =>
    cases a with
    | emit i =>
      obtain ⟨r, hr⟩ := ih (s := s) (fun e he => hf e (List.mem_cons_of_mem _ he))
        (fun w hw => hp w (List.mem_cons_of_mem _ hw))
      exact ⟨(i :: r.1, r.2), by rw [run, hr]⟩
    | plot f =>
      have hd := hp f (List.mem_cons_self ..)
      rw [run]
      simp only [FS.plot, hd, if_true]
      exact ih (fun e he => hf e (List.mem_cons_of_mem _ he))
        (fun w hw => hp w (List.mem_cons_of_mem _ hw))
    | fail e => exact absurd (List.mem_cons_self ..) (hf e)

/-- a missing directory, with no other exception up to there -/
theorem run_missing {as : List (Act K)} (bs : List (Act K)) {s : FS} (hf : ∀ e, Act.fail e ∉ as)
    {w : PathStr} (hw : Act.plot w ∈ as) (hd : s.hasDir (norm w.dropLast) = false) :
    run (as ++ bs) s = .error .fileNotFound := by
  induction as generalizing s with
  | nil => simp at hw
  | cons a as ih =>
    have hf' : ∀ e, Act.fail e ∉ as := fun e he => hf e (List.mem_cons_of_mem _ he)
    cases a with
    | emit i =>
      have hw' : Act.plot w ∈ as := by simpa using hw
      rw [List.cons_append, run, ih hf' hw' hd]
    | plot f =>
      rw [List.cons_append, run]
      by_cases hdf : s.hasDir (norm f.dropLast) = true
      · simp only [FS.plot, hdf, if_true]
        rcases List.mem_cons.1 hw with hw | hw
        · cases hw; rw [hd] at hdf; cases hdf
        · exact ih hf' hw hd
      · simp [FS.plot, hdf]
    | fail e => exact absurd (List.mem_cons_self ..) (hf e)

theorem run_fail_first (as : List (Act K)) {bs : List (Act K)} {e : DocErr}
    (h : ∀ a ∈ bs, a = Act.fail e) (hne : bs ≠ []) (s : FS) : run (bs ++ as) s = .error e := by
  cases bs with
  | nil => exact absurd rfl hne
  | cons b bs => rw [h b (List.mem_cons_self ..)]; rfl

/-! ## Placing figures -/

theorem placeFigures_eq {α : Type} (l : List α) : placeFigures l = l := by
  have key : ∀ (n : ℕ) (l : List α), l.length < 2 * n →
      (List.range n).flatMap (fun row => (l.drop (2 * row)).take 2) = l := by
    intro n
    induction n with
    | zero => intro l h; omega
    | succ n ih =>
      intro l h
      rw [List.range_succ_eq_map, List.flatMap_cons, List.flatMap_map]
      have : (fun a : ℕ => (l.drop (2 * Nat.succ a)).take 2)
          = fun a => ((l.drop 2).drop (2 * a)).take 2 := by
        funext a
        rw [List.drop_drop]
        congr 2
        omega
      rw [this]
      by_cases hl : n = 0 ∧ l.length < 2
      · obtain ⟨rfl, h2⟩ := hl
        simp [List.take_of_length_le (by omega : l.length ≤ 2)]
      · by_cases h0 : (l.drop 2).length < 2 * n
        · rw [ih _ h0]; simp
        · simp only [List.length_drop] at h0
          have hn : n = 0 := by omega
          omega
  unfold placeFigures
  have : (fun row : ℕ => (l.drop (2 * row)).take (2 * (row + 1) - 2 * row))
      = fun row => (l.drop (2 * row)).take 2 := by
    funext row
    congr 1
    omega
  rw [this]
  exact key _ _ (by omega)

/-! ## Paths -/

theorem cat_cons_cons (a a' : String) (as b : PathStr) :
    cat (a :: a' :: as) b = a :: cat (a' :: as) b := by
  cases b <;> rfl

theorem cat_empty_cons {p : PathStr} (hp : p ≠ []) (b : PathStr) : cat p ("" :: b) = p ++ b := by
  induction p with
  | nil => exact absurd rfl hp
  | cons a as ih =>
    cases as with
    | nil => simp [cat]
    | cons a' as => rw [cat_cons_cons, ih (by simp)]; rfl

theorem endsSlash_iff (p : PathStr) : endsSlash p = true ↔ ∃ q, p = q ++ [""] := by
  unfold endsSlash
  simp only [decide_eq_true_eq]
  constructor
  · intro h
    have hne : p ≠ [] := by rintro rfl; simp at h
    refine ⟨p.dropLast, ?_⟩
    have hl : p.getLast hne = "" := by
      rw [List.getLast?_eq_some_getLast hne] at h
      exact Option.some.inj h
    rw [← hl, List.dropLast_append_getLast hne]
  · rintro ⟨q, rfl⟩; simp

theorem cat_append (q : PathStr) (x y : String) (b : PathStr) :
    cat (q ++ [x]) (y :: b) = q ++ (x ++ y) :: b := by
  induction q with
  | nil => rfl
  | cons a q ih =>
    cases q with
    | nil => simp [cat_cons_cons, cat]
    | cons a' q =>
      rw [List.cons_append, List.cons_append, cat_cons_cons, ← List.cons_append, ih]; rfl

/-- joining a directory and a relative path: concatenation with a slash in between, unless there is
one already -/
theorem pathJoin_rel (p : PathStr) (x : String) (b : PathStr) (hx : x ≠ "") (hp : p ≠ []) :
    pathJoin p (x :: b) = (if endsSlash p then p.dropLast else p) ++ x :: b := by
  have ha : isAbs (x :: b) = false := by simp [isAbs, hx]
  unfold pathJoin
  rw [ha]
  by_cases he : endsSlash p = true
  · obtain ⟨q, rfl⟩ := (endsSlash_iff p).1 he
    simp [he, cat_append]
  · simp only [he]
    simp [cat_empty_cons hp]

/-- writing to `path + local_path` is writing to the path joined with it only if the path is empty
or ends with a slash -/
theorem cat_eq_pathJoin (p : PathStr) (x : String) (b : PathStr) (hx : x ≠ "") (hp : p ≠ []) :
    cat p (x :: b) = pathJoin p (x :: b) ↔ endsSlash p = true := by
  rw [pathJoin_rel p x b hx hp]
  obtain ⟨q, z, rfl⟩ : ∃ q z, p = q ++ [z] :=
    ⟨p.dropLast, p.getLast hp, (List.dropLast_append_getLast hp).symm⟩
  rw [cat_append]
  by_cases he : endsSlash (q ++ [z]) = true
  · have hz : z = "" := by simpa [endsSlash] using he
    simp [he, hz]
  · simp only [he]
    constructor
    · intro h
      have := congrArg List.length h
      simp at this
    · intro h; simp at h

/-! ## What is in the list of actions -/

theorem emit_refActs (n : Net K) (i : Item K) : Act.emit i ∉ refActs n := by
  simp only [refActs, List.mem_flatMap, not_exists, not_and]
  intro c _ r _
  split <;> simp

theorem plot_refActs (n : Net K) (w : PathStr) : Act.plot w ∉ refActs n := by
  simp only [refActs, List.mem_flatMap, not_exists, not_and]
  intro c _ r _
  split <;> simp

theorem fail_refActs (n : Net K) (e : DocErr) :
    Act.fail e ∈ refActs n ↔ e = .attributeError ∧ ∃ c ∈ n.conns, ∃ r ∈ refCols, c.refSet r = true := by
  simp only [refActs, List.mem_flatMap]
  constructor
  · rintro ⟨c, hc, r, hr, h⟩
    by_cases hs : c.refSet r = true
    · simp [hs] at h; exact ⟨h, c, hc, r, hr, hs⟩
    · simp [hs] at h
  · rintro ⟨rfl, c, hc, r, hr, hs⟩
    exact ⟨c, hc, r, hr, by simp [hs]⟩

/-- the actions of a list that only puts out items -/
def Quiet (as : List (Act K)) : Prop := ∀ a ∈ as, ∃ i, a = Act.emit i

theorem Quiet.fail {as : List (Act K)} (h : Quiet as) (e : DocErr) : Act.fail e ∉ as :=
  fun he => by obtain ⟨i, hi⟩ := h _ he; cases hi

theorem Quiet.plot {as : List (Act K)} (h : Quiet as) (w : PathStr) : Act.plot w ∉ as :=
  fun he => by obtain ⟨i, hi⟩ := h _ he; cases hi

theorem quiet_connActs (f : Fmt) (n : Net K) : Quiet (connActs f n) := by
  intro a ha
  simp only [connActs, List.mem_flatMap] at ha
  obtain ⟨q, _, ha⟩ := ha
  simp only [List.mem_append, List.mem_cons, List.not_mem_nil, or_false, List.mem_map] at ha
  rcases ha with (ha | ha) | ⟨c, _, ha⟩
  · exact ⟨_, ha⟩
  · split at ha
    · exact ⟨_, by simpa using ha⟩
    · simp at ha
  · exact ⟨_, ha.symm⟩

theorem quiet_fluidActs (f : Fmt) (n : Net K) : Quiet (fluidActs f n) := by
  intro a ha
  simp only [fluidActs, List.mem_flatMap] at ha
  obtain ⟨q, _, ha⟩ := ha
  simp only [List.mem_append, List.mem_cons, List.not_mem_nil, or_false, List.mem_map] at ha
  rcases ha with (ha | ha) | ⟨c, _, ha⟩
  · exact ⟨_, ha⟩
  · split at ha
    · exact ⟨_, by simpa using ha⟩
    · simp at ha
  · exact ⟨_, ha.symm⟩

theorem mem_connActs (f : Fmt) (n : Net K) (i : Item K) :
    Act.emit i ∈ connActs f n ↔ ∃ q ∈ properties, (∃ c ∈ n.conns, (connVal f n c q.1).isSome = true) ∧
      (i = .header .conn q.1 (if n.conns.any (fun c => c.set q.1 && (connVal f n c q.1).isSome)
          then some ("Connection_" ++ q.2) else none)
        ∨ (i = .equation ["Connection_" ++ q.2]
            ∧ n.conns.any (fun c => c.set q.1 && (connVal f n c q.1).isSome) = true)
        ∨ ∃ c ∈ n.conns, i = .cell .conn c.label q.1
            (if c.set q.1 && f.results then .bold else .normal) (connVal f n c q.1)) := by
  simp only [connActs, List.mem_flatMap, List.mem_filter, List.any_eq_true, and_assoc]
  refine exists_congr fun q => and_congr_right fun _ => and_congr_right fun _ => ?_
  rw [List.mem_append, List.mem_append, List.mem_map, or_assoc]
  refine or_congr (by simp) (or_congr ?_ ?_)
  · split <;> rename_i h <;> simp_all
  · exact exists_congr fun c => and_congr_right fun _ => by rw [Act.emit.injEq, eq_comm]

theorem mem_fluidActs (f : Fmt) (n : Net K) (i : Item K) :
    Act.emit i ∈ fluidActs f n ↔ ∃ q ∈ n.fluids, (∃ c ∈ n.conns, (fluidVal f c q).isSome = true) ∧
      (i = .header .fluid q (if n.conns.any (fun c => c.fluidSet q && (fluidVal f c q).isSome)
          then some ("Connection_" ++ q) else none)
        ∨ (i = .equation ["Connection_" ++ q]
            ∧ n.conns.any (fun c => c.fluidSet q && (fluidVal f c q).isSome) = true)
        ∨ ∃ c ∈ n.conns, i = .cell .fluid c.label q
            (if n.conns.any (fun c => c.fluidSet q && (fluidVal f c q).isSome)
              && c.fluidSet q && f.results then .bold else .normal) (fluidVal f c q)) := by
  simp only [fluidActs, List.mem_flatMap, List.mem_filter, List.any_eq_true, and_assoc]
  refine exists_congr fun q => and_congr_right fun _ => and_congr_right fun _ => ?_
  rw [List.mem_append, List.mem_append, List.mem_map, or_assoc]
  refine or_congr (by simp) (or_congr ?_ ?_)
  · split <;> rename_i h <;> simp_all
  · exact exists_congr fun c => and_congr_right fun _ => by rw [Act.emit.injEq, eq_comm]

theorem mem_ude (path : PathStr) (n : Net K) (i : Item K) :
    Act.emit i ∈ documentUde path n ↔ ∃ u ∈ n.udes,
      i = .udeHead u.label (cat ["UserDefinedEquation_"] (us u.label))
      ∨ i = .equation (cat ["UserDefinedEquation_"] (us u.label))
      ∨ ∃ x ∈ (udeFiles u).zip (udeLabels u), i = .figure x.1 x.2 := by
  simp only [documentUde, List.mem_flatMap, placeFigures_eq]
  refine exists_congr fun u => and_congr_right fun _ => ?_
  simp only [List.mem_append, List.mem_cons, List.not_mem_nil, or_false, List.mem_map,
    Act.emit.injEq, reduceCtorEq, and_false, exists_false, or_false, or_assoc]
  simp only [eq_comm]

theorem plot_ude (path : PathStr) (n : Net K) (w : PathStr) :
    Act.plot w ∈ documentUde path n ↔ ∃ u ∈ n.udes, ∃ l ∈ udeFiles u, w = cat path l := by
  simp only [documentUde, List.mem_flatMap]
  refine exists_congr fun u => and_congr_right fun _ => ?_
  simp [eq_comm]

theorem fail_ude (path : PathStr) (n : Net K) (e : DocErr) : Act.fail e ∉ documentUde path n := by
  simp [documentUde]

theorem mem_constraintActs (path : PathStr) (k : Class K) (i : Item K) :
    Act.emit i ∈ constraintActs path k ↔
      (∃ x ∈ k.constraints, i = .equation [k.name ++ "_" ++ x.1])
      ∨ ∃ x ∈ constraintChars k, i = .figure (constraintFile k.name x.1 x.2)
          (cat ["CharLine_" ++ x.1 ++ "_"] x.2.label) := by
  simp only [constraintActs, List.mem_append, List.mem_map, placeFigures_eq, Act.emit.injEq,
    reduceCtorEq, and_false, exists_false, false_or]
  simp only [eq_comm]

theorem plot_constraintActs (path : PathStr) (k : Class K) (w : PathStr) :
    Act.plot w ∈ constraintActs path k ↔
      ∃ x ∈ constraintChars k, w = cat path (constraintFile k.name x.1 x.2) := by
  simp only [constraintActs, List.mem_append, List.mem_map, placeFigures_eq, Act.plot.injEq,
    reduceCtorEq, and_false, exists_false, or_false]
  simp only [eq_comm]

theorem fail_constraintActs (path : PathStr) (k : Class K) (e : DocErr) :
    Act.fail e ∉ constraintActs path k := by
  simp [constraintActs]

theorem mem_specActs (f : Fmt) (path : PathStr) (k : Class K) (i : Item K) :
    Act.emit i ∈ specActs f path k ↔
      (∃ p ∈ k.mainColumns, i = .header (.cls k.name) p.name
          (if k.specified p then some (k.name ++ "_" ++ p.name) else none)
        ∨ ∃ c ∈ k.comps, i = compCell f k p c)
      ∨ (∃ g ∈ k.setGroups, ∃ p ∈ k.columns, p.name ∈ g.elements.getD [] ∧
          ∃ c ∈ k.comps, i = compCell f k p c)
      ∨ (∃ p ∈ k.eqColumns, i = .equation [k.name ++ "_" ++ p.name])
      ∨ (k.eqColumns ≠ [] ∧ ∃ x ∈ k.figures, i = .figure x.1 x.2) := by
  simp only [specActs, List.mem_append, List.mem_map, List.mem_flatMap, placeFigures_eq,
    List.mem_cons, List.mem_filter, Act.emit.injEq, reduceCtorEq, and_false, exists_false, false_or,
    or_assoc, List.contains_iff_mem, and_assoc]
  refine or_congr ?_ (or_congr ?_ (or_congr ?_ ?_))
  · simp only [eq_comm]
  · simp only [eq_comm]
  · simp only [eq_comm]
  · by_cases h : k.eqColumns = []
    · simp [h]
    · have : k.eqColumns.isEmpty = false := by simpa using h
      simp only [this, Bool.false_eq_true, if_false, List.mem_map, Act.emit.injEq, ne_eq, h,
        not_false_eq_true, true_and]
      simp only [eq_comm]

theorem plot_specActs (f : Fmt) (path : PathStr) (k : Class K) (w : PathStr) :
    Act.plot w ∈ specActs f path k ↔ ∃ x ∈ k.figures, w = pathJoin path x.1 := by
  simp only [specActs, List.mem_append, List.mem_map, List.mem_flatMap, List.mem_cons, reduceCtorEq,
    and_false, exists_false, or_false, false_or, Act.plot.injEq]
  constructor
  · rintro (⟨x, hx, rfl⟩ | h)
    · exact ⟨x, hx, rfl⟩
    · split at h <;> simp at h
  · rintro ⟨x, hx, rfl⟩; exact Or.inl ⟨x, hx, rfl⟩

theorem fail_specActs (f : Fmt) (path : PathStr) (k : Class K) (e : DocErr) :
    Act.fail e ∉ specActs f path k := by
  simp only [specActs, List.mem_append, List.mem_map, List.mem_flatMap, List.mem_cons, reduceCtorEq,
    and_false, exists_false, or_false, false_or]
  intro h
  split at h <;> simp at h

theorem emit_busRows (f : Fmt) (path : PathStr) (mode : String) (b : PathStr)
    (cs : List (BusComp K)) (pl : Plotted) (i : Item K) :
    Act.emit i ∉ (busRows f path mode b cs pl).1 := by
  induction cs generalizing pl with
  | nil => simp [busRows]
  | cons c cs ih =>
    simp only [busRows, List.mem_append, not_or]
    refine ⟨?_, ih _⟩
    simp only [busRow, List.mem_append, not_or]
    constructor <;> split <;> simp

theorem fail_busRows (f : Fmt) (path : PathStr) (mode : String) (b : PathStr)
    (cs : List (BusComp K)) (pl : Plotted) (e : DocErr) :
    Act.fail e ∈ (busRows f path mode b cs pl).1 ↔ e = .attributeError ∧ ∃ c ∈ cs, c.doc = none := by
  induction cs generalizing pl with
  | nil => simp [busRows]
  | cons c cs ih =>
    have h1 : Act.fail e ∈ (busRow f path mode b c pl).1 ↔ e = .attributeError ∧ c.doc = none := by
      simp only [busRow, List.mem_append]
      constructor
      · rintro (h | h)
        · split at h <;> simp at h
        · split at h
          · rename_i hd; simp at h; exact ⟨h, by simpa using hd⟩
          · simp at h
      · rintro ⟨rfl, hd⟩; right; simp [hd]
    simp only [busRows, List.mem_append, h1, ih, List.mem_cons, exists_eq_or_imp]
    tauto

theorem plot_busRows (f : Fmt) (path : PathStr) (mode : String) (b : PathStr)
    (cs : List (BusComp K)) (pl : Plotted) (w : PathStr) :
    Act.plot w ∈ (busRows f path mode b cs pl).1 ↔
      ∃ x ∈ (busRows f path mode b cs pl).2.2.1, w = cat path x.1 := by
  induction cs generalizing pl with
  | nil => simp [busRows]
  | cons c cs ih =>
    have h1 : Act.plot w ∈ (busRow f path mode b c pl).1 ↔
        ∃ x ∈ (busRow f path mode b c pl).2.2.1, w = cat path x.1 := by
      simp only [busRow, List.mem_append]
      constructor
      · rintro (h | h)
        · split at h
          · rename_i hn; simp at h; exact ⟨_, by simp [hn], h⟩
          · simp at h
        · split at h <;> simp at h
      · rintro ⟨x, hx, rfl⟩
        left
        split at hx
        · rename_i hn; simp at hx; simp [hn, hx]
        · simp at hx
    simp only [busRows, List.mem_append, h1, ih, or_and_right, exists_or]

/-- the figures of a bus are those of components whose characteristic is not constant -/
theorem busRows_figures (f : Fmt) (path : PathStr) (mode : String) (b : PathStr)
    (cs : List (BusComp K)) (pl : Plotted) (x : PathStr × PathStr)
    (hx : x ∈ (busRows f path mode b cs pl).2.2.1) :
    ∃ c ∈ cs, c.charConst = false ∧ x = busFigure mode c.label := by
  induction cs generalizing pl with
  | nil => simp [busRows] at hx
  | cons c cs ih =>
    simp only [busRows, List.mem_append] at hx
    rcases hx with hx | hx
    · simp only [busRow] at hx
      split at hx
      · rename_i hn
        simp at hx hn
        exact ⟨c, List.mem_cons_self .., hn.1, hx⟩
      · simp at hx
    · obtain ⟨c', hc', h⟩ := ih _ hx
      exact ⟨c', List.mem_cons_of_mem _ hc', h⟩

theorem busRows_items (f : Fmt) (path : PathStr) (mode : String) (b : PathStr)
    (cs : List (BusComp K)) (pl : Plotted) (i : Item K) :
    i ∈ (busRows f path mode b cs pl).2.1 →
      ∃ c ∈ cs, ∃ pl', i ∈ (busRow f path mode b c pl').2.1 := by
  induction cs generalizing pl with
  | nil => simp [busRows]
  | cons c cs ih =>
    simp only [busRows, List.mem_append]
    rintro (h | h)
    · exact ⟨c, List.mem_cons_self .., pl, h⟩
    · obtain ⟨c', hc', h⟩ := ih _ h
      exact ⟨c', List.mem_cons_of_mem _ hc', h⟩

theorem busRows_items_of (f : Fmt) (path : PathStr) (mode : String) (b : PathStr)
    (cs : List (BusComp K)) (pl : Plotted) {c : BusComp K} (hc : c ∈ cs) :
    ∃ pl', ∀ i ∈ (busRow f path mode b c pl').2.1, i ∈ (busRows f path mode b cs pl).2.1 := by
  induction cs generalizing pl with
  | nil => simp at hc
  | cons c' cs ih =>
    rcases List.mem_cons.1 hc with rfl | hc
    · exact ⟨pl, fun i hi => by simp only [busRows, List.mem_append]; exact Or.inl hi⟩
    · obtain ⟨pl', h⟩ := ih (busRow f path mode b c' pl).2.2.2 hc
      exact ⟨pl', fun i hi => by simp only [busRows, List.mem_append]; exact Or.inr (h i hi)⟩

section bus
variable [AddMonoid K]

theorem mem_busses (f : Fmt) (path : PathStr) (mode : String) (bs : List (BusDoc K)) (pl : Plotted)
    (a : Act K) (ha : a ∈ documentBussesFrom f path mode bs pl) :
    ∃ b ∈ bs, ∃ pl', a ∈ (busActs f path mode b pl').1 := by
  induction bs generalizing pl with
  | nil => simp [documentBussesFrom] at ha
  | cons b bs ih =>
    rw [documentBussesFrom, List.mem_append] at ha
    rcases ha with ha | ha
    · exact ⟨b, List.mem_cons_self .., pl, ha⟩
    · obtain ⟨b', hb', h⟩ := ih _ ha
      exact ⟨b', List.mem_cons_of_mem _ hb', h⟩

theorem mem_busses_of (f : Fmt) (path : PathStr) (mode : String) (bs : List (BusDoc K)) (pl : Plotted)
    {b : BusDoc K} (hb : b ∈ bs) :
    ∃ pl', ∀ a ∈ (busActs f path mode b pl').1, a ∈ documentBussesFrom f path mode bs pl := by
  induction bs generalizing pl with
  | nil => simp at hb
  | cons b' bs ih =>
    rcases List.mem_cons.1 hb with rfl | hb
    · exact ⟨pl, fun a ha => by rw [documentBussesFrom, List.mem_append]; exact Or.inl ha⟩
    · obtain ⟨pl', h⟩ := ih (busActs f path mode b' pl).2 hb
      exact ⟨pl', fun a ha => by rw [documentBussesFrom, List.mem_append]; exact Or.inr (h a ha)⟩

theorem fail_busActs (f : Fmt) (path : PathStr) (mode : String) (b : BusDoc K) (pl : Plotted)
    (e : DocErr) : Act.fail e ∈ (busActs f path mode b pl).1 ↔
      (e = .attributeError ∧ ∃ c ∈ b.comps, c.doc = none)
      ∨ (e = .keyError ∧ f.results = true ∧ b.comps = []) := by
  simp only [busActs, List.mem_append, fail_busRows, or_assoc]
  refine or_congr Iff.rfl ?_
  constructor
  · rintro (h | h)
    · split at h
      · rename_i hc
        simp at h hc
        exact ⟨h, hc⟩
      · simp at h
    · split at h <;> simp at h
  · rintro ⟨rfl, hr, hb⟩; left; simp [hr, hb]

theorem plot_busActs (f : Fmt) (path : PathStr) (mode : String) (b : BusDoc K) (pl : Plotted)
    (w : PathStr) : Act.plot w ∈ (busActs f path mode b pl).1 ↔
      ∃ x ∈ (busRows f path mode b.label b.comps pl).2.2.1, w = cat path x.1 := by
  simp only [busActs, List.mem_append, plot_busRows, or_assoc]
  constructor
  · rintro (h | h | h)
    · exact h
    · split at h <;> simp at h
    · split at h <;> simp at h
  · exact Or.inl

theorem emit_busActs (f : Fmt) (path : PathStr) (mode : String) (b : BusDoc K) (pl : Plotted)
    (i : Item K) : Act.emit i ∈ (busActs f path mode b pl).1 ↔
      (∃ c ∈ b.comps, c.doc = some true) ∧
      (i = .busTotal b.label b.p ∨ (b.p.isSome = true ∧ i = .equation ["Bus_energy_flow_sum"])
       ∨ (f.results = true ∧
          (i = .cell .bus b.label "total component value" .normal
              (some (b.comps.map (·.compVal)).sum)
           ∨ i = .cell .bus b.label "total bus value" (if b.p.isSome then .bold else .normal)
              (some (b.comps.map (·.busVal)).sum)))
       ∨ i ∈ (busRows f path mode b.label b.comps pl).2.1
       ∨ ∃ x ∈ (busRows f path mode b.label b.comps pl).2.2.1, i = .figure x.1 x.2) := by
  simp only [busActs, List.mem_append, emit_busRows, false_or, placeFigures_eq]
  constructor
  · rintro (h | h)
    · split at h <;> simp at h
    · split at h
      · rename_i hc
        refine ⟨by simpa using hc, ?_⟩
        simp only [List.mem_map, Act.emit.injEq, exists_eq_right, List.mem_append,
          List.mem_cons] at h
        rcases h with (((h | h) | h) | h) | ⟨x, hx, h⟩
        · exact Or.inl h
        · right; left
          split at h
          · rename_i hp; exact ⟨hp, by simpa using h⟩
          · simp at h
        · right; right; left
          split at h
          · rename_i hp; exact ⟨hp, by simpa using h⟩
          · simp at h
        · exact Or.inr (Or.inr (Or.inr (Or.inl h)))
        · exact Or.inr (Or.inr (Or.inr (Or.inr ⟨x, hx, h.symm⟩)))
      · simp at h
  · rintro ⟨hc, h⟩
    right
    have hc' : (b.comps.any fun c => decide (c.doc = some true)) = true := by simpa using hc
    rw [if_pos hc']
    simp only [List.mem_map, Act.emit.injEq, exists_eq_right, List.mem_append, List.mem_cons]
    rcases h with h | ⟨hp, h⟩ | ⟨hr, h⟩ | h | ⟨x, hx, h⟩
    · exact Or.inl (Or.inl (Or.inl (Or.inl h)))
    · refine Or.inl (Or.inl (Or.inl (Or.inr ?_))); rw [if_pos hp]; simpa using h
    · refine Or.inl (Or.inl (Or.inr ?_)); rw [if_pos hr]; simpa using h
    · exact Or.inl (Or.inr h)
    · exact Or.inr ⟨x, hx, h.symm⟩

/-! ## The whole report -/

theorem doc_mem (f : Fmt) (path : PathStr) (n : Net K) (a : Act K) :
    a ∈ documentActs f path n ↔ a ∈ refActs n ∨ a ∈ connActs f n ∨ a ∈ fluidActs f n
      ∨ a ∈ documentUde path n ∨ (∃ k ∈ n.classes, a ∈ constraintActs path k ∨ a ∈ specActs f path k)
      ∨ a ∈ documentBussesFrom f path n.mode n.busses [] := by
  simp only [documentActs, documentConnections, documentComponents, List.mem_append,
    List.mem_flatMap, or_assoc]

theorem doc_items {f : Fmt} {path : PathStr} {n : Net K} {s s' : FS} {is : List (Item K)}
    (h : documentModel f path n s = .ok (is, s')) (i : Item K) :
    i ∈ is ↔ Act.emit i ∈ documentActs f path n := (run_ok h).1 i

/-- the exceptions that do not come from the file system -/
theorem doc_fail (f : Fmt) (path : PathStr) (n : Net K) (e : DocErr) :
    Act.fail e ∈ documentActs f path n ↔
      (e = .attributeError ∧ ∃ c ∈ n.conns, ∃ r ∈ refCols, c.refSet r = true)
      ∨ (e = .attributeError ∧ ∃ b ∈ n.busses, ∃ c ∈ b.comps, c.doc = none)
      ∨ (e = .keyError ∧ f.results = true ∧ ∃ b ∈ n.busses, b.comps = []) := by
  rw [doc_mem, fail_refActs]
  have h1 := (quiet_connActs f n).fail e
  have h2 := (quiet_fluidActs f n).fail e
  have h3 := fail_ude path n e
  simp only [h1, h2, h3, fail_constraintActs, fail_specActs, false_or, or_false, and_false,
    exists_false]
  refine or_congr Iff.rfl ?_
  constructor
  · intro h
    obtain ⟨b, hb, pl, h⟩ := mem_busses f path n.mode n.busses [] _ h
    rcases (fail_busActs ..).1 h with ⟨he, hc⟩ | ⟨he, hr, hc⟩
    · exact Or.inl ⟨he, b, hb, hc⟩
    · exact Or.inr ⟨he, hr, b, hb, hc⟩
  · rintro (⟨he, b, hb, hc⟩ | ⟨he, hr, b, hb, hc⟩)
    · obtain ⟨pl, h⟩ := mem_busses_of f path n.mode n.busses [] hb
      exact h _ ((fail_busActs ..).2 (Or.inl ⟨he, hc⟩))
    · obtain ⟨pl, h⟩ := mem_busses_of f path n.mode n.busses [] hb
      exact h _ ((fail_busActs ..).2 (Or.inr ⟨he, hr, hc⟩))

end bus

end Tespy.Report
