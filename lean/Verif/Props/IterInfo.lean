import Verif.Model.IterInfo
import Verif.Model.ParamTables
import Verif.Props.SolveLoop

/-!
C106: the information printed in every iteration.
-/
namespace Tespy
open Real

/-- the denominator of the scale -/
theorem scale_pos {E : ℝ} (h0 : 0 < E) (h1 : E < 1) : 0 < log (√E) * -1 - log E := by
  have := Real.log_neg h0 h1
  rw [Real.log_sqrt h0.le]
  linarith

theorem scaled_ge_one {E r : ℝ} (h0 : 0 < E) (h1 : E < 1) :
    1 ≤ (log (max r E) * -1 - log E) / (log (√E) * -1 - log E) ↔ r ≤ √E := by
  have hE : E ≤ √E := by
    refine Real.le_sqrt_of_sq_le ?_
    nlinarith
  have hs : 0 < √E := Real.sqrt_pos.2 h0
  have hm : 0 < max r E := lt_max_of_lt_right h0
  rw [le_div_iff₀ (scale_pos h0 h1), one_mul]
  have : (log √E * -1 - log E ≤ log (max r E) * -1 - log E) ↔ log (max r E) ≤ log √E := by constructor <;> intro h <;> linarith
  rw [this, Real.log_le_log_iff hm hs]
  constructor
  · intro h; exact (le_max_left _ _).trans h
  · intro h; exact max_le h hE

/-- C106: the progress is a percentage. -/
theorem C106_range (E eps r : ℝ) : 0 ≤ progressVal E eps r ∧ progressVal E eps r ≤ 100 := by
  unfold progressVal
  split_ifs
  · generalize (log (max r E) * -1 - log E) / (log (√E) * -1 - log E) = q
    constructor
    · refine Int.floor_nonneg.2 ?_
      have : (0 : ℝ) ≤ max 0 (min 1 q) := le_max_left _ _
      positivity
    · refine Int.floor_le_iff.2 ?_
      have : max 0 (min 1 q) ≤ (1 : ℝ) := max_le zero_le_one (min_le_left _ _)
      push_cast
      linarith
  · norm_num

/-- C106: a smaller residual never shows less progress. -/
theorem C106_monotone {E eps r r' : ℝ} (h0 : 0 < E) (h1 : E < 1) (h : r ≤ r') :
    progressVal E eps r' ≤ progressVal E eps r := by
  by_cases hr : r > eps * 100
  · have hr' : r' > eps * 100 := lt_of_lt_of_le hr h
    unfold progressVal
    rw [if_pos hr, if_pos hr']
    refine Int.floor_mono ?_
    have hl : log (max r E) ≤ log (max r' E) := Real.log_le_log (lt_max_of_lt_right h0) (max_le_max h le_rfl)
    have hq : (log (max r' E) * -1 - log E) / (log (√E) * -1 - log E) ≤ (log (max r E) * -1 - log E) / (log (√E) * -1 - log E) :=
      div_le_div_of_nonneg_right (by linarith) (scale_pos h0 h1).le
    exact mul_le_mul_of_nonneg_right (max_le_max le_rfl (min_le_min le_rfl hq)) (by norm_num)
  · have : progressVal E eps r = 100 := by unfold progressVal; rw [if_neg hr]
    rw [this]
    exact (C106_range E eps r').2

/-- C106: 100 % are shown exactly for residuals up to the tolerance of the convergence check. -/
theorem C106_hundred {E eps r : ℝ} (h0 : 0 < E) (h1 : E < 1) (he : eps * 100 ≤ √E) :
    progressVal E eps r = 100 ↔ r ≤ √E := by
  unfold progressVal
  split_ifs with hr
  · rw [← scaled_ge_one h0 h1]
    generalize (log (max r E) * -1 - log E) / (log (√E) * -1 - log E) = q
    constructor
    · intro h
      by_contra hq
      rw [not_le] at hq
      have h2 : (100 : ℝ) ≤ max 0 (min 1 q) * 100 := by
        have := Int.floor_le (max 0 (min 1 q) * 100)
        rw [h] at this
        exact_mod_cast this
      have h3 : max 0 (min 1 q) < 1 := max_lt zero_lt_one ((min_le_right _ _).trans_lt hq)
      linarith
    · intro h
      rw [min_eq_left h, max_eq_right zero_le_one]
      norm_num
  · exact ⟨fun _ => by linarith [not_lt.1 hr], fun _ => rfl⟩

/-- squared norm of the increments of the variables with a name -/
def Spec.sqNorm (vars : Dict ℕ String) (inc : ℕ → ℝ) (ok : String → Bool) : ℝ :=
  ((vars.filter (fun kv => ok kv.2)).map (fun kv => inc kv.1 ^ 2)).sum

/-- The line of iteration `i` (from 0), whose residual norm and linear dependency are `it`: number, residual, progress, and the
norms of the increments of mass flows, pressures, enthalpies, fractions and other variables; nan instead of the progress if the
residual is nan, and instead of the norms if there are no increments. -/
structure Spec.LineOf (E eps : ℝ) (vars : Dict ℕ String) (inc : ℕ → ℝ) (i : ℕ) (it : Iter ℝ) (l : IterLine) : Prop where
  number : l.iter = i + 1
  residual : l.residual = it.norm
  progress : l.progress = it.norm.map (progressVal E eps)
  noCols : l.cols = none ↔ it.norm = none ∨ it.linDep = true
  massflow : ∀ c ∈ l.cols, 0 ≤ c.massflow ∧ c.massflow ^ 2 = Spec.sqNorm vars inc (fun n => n = "m")
  pressure : ∀ c ∈ l.cols, 0 ≤ c.pressure ∧ c.pressure ^ 2 = Spec.sqNorm vars inc (fun n => n = "p")
  enthalpy : ∀ c ∈ l.cols, 0 ≤ c.enthalpy ∧ c.enthalpy ^ 2 = Spec.sqNorm vars inc (fun n => n = "h")
  fluid : ∀ c ∈ l.cols, 0 ≤ c.fluid ∧ c.fluid ^ 2 = Spec.sqNorm vars inc (fun n => n = "fluid")
  component : ∀ c ∈ l.cols, 0 ≤ c.component ∧
    c.component ^ 2 = Spec.sqNorm vars inc (fun n => n ∉ ["m", "p", "h", "fluid"])

/-- the lines are those of the iterations -/
theorem infoLoop_eq (E eps : ℝ) (vars : Dict ℕ String) (inc : ℕ → ℕ → ℝ) (out : ℕ → Iter ℝ) (minIter : ℤ) (maxIter : ℕ) :
    infoLoop E eps vars inc out minIter maxIter 0
      = (List.range (solveLoop out (√E) minIter maxIter 0).iters).map (fun i => iterLine E eps vars (inc i) i (out i)) := by
  have key : ∀ rem i, infoLoop E eps vars inc out minIter rem i
      = (List.range' i ((solveLoop out (√E) minIter rem i).iters - i)).map (fun i => iterLine E eps vars (inc i) i (out i)) := by
    intro rem
    induction rem with
    | zero => intro i; simp [infoLoop, solveLoop]
    | succ rem ih =>
      intro i
      rw [infoLoop, solveLoop]
      split_ifs
      · simp
      · simp
      · rw [ih]
        obtain ⟨k, hk, -⟩ := solveLoop_spec out (√E) minIter rem (i + 1)
        have e1 : (solveLoop out (√E) minIter rem (i + 1)).iters - i = k + 1 := by omega
        have e2 : (solveLoop out (√E) minIter rem (i + 1)).iters - (i + 1) = k := by omega
        rw [e1, e2, List.range'_succ, List.map_cons]
  rw [key, List.range_eq_range', Nat.sub_zero]

/-- C106: a calculation that converged shows 100 % in its last line and, if there is one, in the line before; `_convergence_check`
passes exactly then. -/
theorem C106_converged {E eps : ℝ} (h0 : 0 < E) (h1 : E < 1) (he : eps * 100 ≤ √E) (vars : Dict ℕ String)
    (inc : ℕ → ℕ → ℝ) (out : ℕ → Iter ℝ) (minIter : ℤ) (maxIter : ℕ) :
    (convergenceCheck (solveLoop out (√E) minIter maxIter 0) = true ↔
      (solveLoop out (√E) minIter maxIter 0).converged = true) ∧
    ((solveLoop out (√E) minIter maxIter 0).converged = true →
      ∃ (ls : List IterLine) (l : IterLine), infoLoop E eps vars inc out minIter maxIter 0 = ls ++ [l] ∧
        l.progress = some 100 ∧ l.cols.isSome ∧ l.iter = ls.length + 1 ∧ ∀ l' ∈ ls.getLast?, l'.progress = some 100) := by
  have hline : ∀ i r, (out i).norm = some r → r < √E → (iterLine E eps vars (inc i) i (out i)).progress = some 100 := by
    intro i r hr hlt
    unfold iterLine
    rw [hr]
    simp only [Option.some.injEq]
    exact (C106_hundred h0 h1 he).2 hlt.le
  constructor
  · unfold convergenceCheck
    obtain ⟨k, e1, e2, e3, e4⟩ := solveLoop_spec out (√E) minIter maxIter 0
    rcases e4 with ⟨_, _, c, _⟩ | ⟨_, _, c, _, l⟩ | ⟨_, _, c, _⟩ | ⟨_, _, _, c, _⟩
    · rw [c]; simp
    · rw [c, l]; simp
    · rw [c]; simp
    · rw [c]; simp
  · intro hc
    obtain ⟨i, hi, hat⟩ := C23_sound out (√E) minIter maxIter hc
    rw [infoLoop_eq, hi, List.range_succ, List.map_append]
    refine ⟨_, iterLine E eps vars (inc i) i (out i), rfl, ?_, ?_, ?_, ?_⟩
    · obtain ⟨r, hr, hlt⟩ := hat.last
      exact hline i r hr hlt
    · obtain ⟨r, hr, hlt⟩ := hat.last
      unfold iterLine
      rw [hr]
      simp [hat.regular]
    · unfold iterLine
      cases (out i).norm <;> simp
    · intro l' hl'
      cases i with
      | zero => simp at hl'
      | succ j =>
        obtain ⟨r, hr, hlt⟩ := hat.before (Nat.succ_ne_zero j)
        rw [List.range_succ, List.map_append, List.map_cons, List.map_nil, List.getLast?_append] at hl'
        simp at hl'
        rw [← hl']
        exact hline j r hr hlt

/-- the columns by the names -/
theorem otherVars_eq (vars : Dict ℕ String) (hn : (vars.map Prod.fst).Nodup) :
    otherVars vars = (vars.filter (fun kv => kv.2 ∉ ["m", "p", "h", "fluid"])).map Prod.fst := by
  unfold otherVars
  rw [List.filter_map]
  congr 1
  refine List.filter_congr ?_
  rintro ⟨k, v⟩ hkv
  have hmem : ∀ name, k ∈ namedVars vars name ↔ v = name := by
    intro name
    unfold namedVars
    rw [List.mem_map]
    constructor
    · rintro ⟨⟨k', v'⟩, h1, h2⟩
      rw [List.mem_filter] at h1
      have hk : k' = k := h2
      subst hk
      have hv : v' = name := by simpa using h1.2
      have := List.inj_on_of_nodup_map hn h1.1 hkv rfl
      rw [← hv, (Prod.mk.inj this).2]
    · intro hv
      exact ⟨(k, v), List.mem_filter.2 ⟨hkv, by simpa using hv⟩, rfl⟩
  simp only [Function.comp_apply, List.mem_append, hmem, List.mem_cons, List.not_mem_nil, or_false, or_assoc]

theorem incNorm_sq (inc : ℕ → ℝ) (cols : List ℕ) : incNorm inc cols ^ 2 = (cols.map (fun k => inc k ^ 2)).sum := by
  unfold incNorm
  refine Real.sq_sqrt (List.sum_nonneg ?_)
  intro x hx
  obtain ⟨k, -, rfl⟩ := List.mem_map.1 hx
  exact sq_nonneg _

/-- C106: every variable counts in exactly one of the five columns: the squares of the columns add up to the square of the norm of
all increments. -/
theorem C106_columns (vars : Dict ℕ String) (hn : (vars.map Prod.fst).Nodup) (inc : ℕ → ℝ) :
    incNorm inc (namedVars vars "m") ^ 2 + incNorm inc (namedVars vars "p") ^ 2 + incNorm inc (namedVars vars "h") ^ 2
      + incNorm inc (namedVars vars "fluid") ^ 2 + incNorm inc (otherVars vars) ^ 2
      = ((vars.map Prod.fst).map (fun k => inc k ^ 2)).sum := by
  rw [otherVars_eq vars hn]
  simp only [incNorm_sq, namedVars]
  clear hn
  induction vars with
  | nil => simp
  | cons kv tl ih =>
    obtain ⟨k, v⟩ := kv
    by_cases h1 : v = "m"
    · subst h1
      simp at ih ⊢
      linarith
    by_cases h2 : v = "p"
    · subst h2
      simp at ih ⊢
      linarith
    by_cases h3 : v = "h"
    · subst h3
      simp at ih ⊢
      linarith
    by_cases h4 : v = "fluid"
    · subst h4
      simp at ih ⊢
      linarith
    simp [h1, h2, h3, h4] at ih ⊢
    linarith

theorem iterLine_of (E eps : ℝ) (vars : Dict ℕ String) (hn : (vars.map Prod.fst).Nodup) (inc : ℕ → ℝ) (i : ℕ) (it : Iter ℝ) :
    Spec.LineOf E eps vars inc i it (iterLine E eps vars inc i it) := by
  have hs : ∀ cols, 0 ≤ incNorm inc cols := fun cols => Real.sqrt_nonneg _
  have hcol : ∀ ok : String → Bool, incNorm inc ((vars.filter (fun kv => ok kv.2)).map Prod.fst) ^ 2 = Spec.sqNorm vars inc ok := by
    intro ok
    rw [incNorm_sq, List.map_map]
    rfl
  obtain ⟨nrm, ld⟩ := it
  cases nrm with
  | none => constructor <;> simp [iterLine]
  | some r =>
    cases ld with
    | true => constructor <;> simp [iterLine]
    | false =>
      constructor <;> simp only [iterLine, Option.map_some, Bool.false_eq_true, if_false, Option.mem_def, Option.some.injEq,
        forall_eq', reduceCtorEq, or_self]
      · exact ⟨hs _, hcol (fun n => n = "m")⟩
      · exact ⟨hs _, hcol (fun n => n = "p")⟩
      · exact ⟨hs _, hcol (fun n => n = "h")⟩
      · exact ⟨hs _, hcol (fun n => n = "fluid")⟩
      · rw [otherVars_eq vars hn]
        exact ⟨hs _, hcol (fun n => n ∉ ["m", "p", "h", "fluid"])⟩

/-- C106: every iteration has its line, in order, and these are all lines. -/
theorem C106_lines (E eps : ℝ) (vars : Dict ℕ String) (hn : (vars.map Prod.fst).Nodup) (inc : ℕ → ℕ → ℝ) (out : ℕ → Iter ℝ)
    (minIter : ℤ) (maxIter : ℕ) :
    (infoLoop E eps vars inc out minIter maxIter 0).length = (solveLoop out (√E) minIter maxIter 0).iters ∧
    ∀ i l, (infoLoop E eps vars inc out minIter maxIter 0)[i]? = some l → Spec.LineOf E eps vars (inc i) i (out i) l := by
  rw [infoLoop_eq]
  refine ⟨by simp, ?_⟩
  intro i l hl
  rw [List.getElem?_map, Option.map_eq_some_iff] at hl
  obtain ⟨j, hj, rfl⟩ := hl
  have : j = i := by
    obtain ⟨h1, h2⟩ := List.getElem?_eq_some_iff.1 hj
    rw [← h2]; simp
  subst this
  exact iterLine_of E eps vars hn (inc j) j (out j)

/-- no parameter of a component has the name of a variable of connections -/
theorem param_names (cls : CompClass) : ∀ e ∈ cls.params, e.name ∉ ["m", "p", "h", "fluid"] := by
  cases cls <;> decide +kernel

/-- C106: the last column shows the component variables: no parameter of a component has the name of a variable of
connections. -/
theorem C106_component_column (vars : Dict ℕ String) (hn : (vars.map Prod.fst).Nodup) (conn comp : List ℕ)
    (hc : ∀ k v, (k, v) ∈ vars → k ∈ conn → v ∈ ["m", "p", "h", "fluid"])
    (hp : ∀ k v, (k, v) ∈ vars → k ∈ comp → ∃ cls : CompClass, ∃ e ∈ cls.params, e.name = v)
    (hall : ∀ k ∈ vars.map Prod.fst, k ∈ conn ∨ k ∈ comp) :
    ∀ k, k ∈ otherVars vars ↔ k ∈ vars.map Prod.fst ∧ k ∈ comp := by
  intro k
  rw [otherVars_eq vars hn, List.mem_map]
  constructor
  · rintro ⟨⟨k', v⟩, h1, h2⟩
    have hk : k' = k := h2
    subst hk
    rw [List.mem_filter] at h1
    have hm : k' ∈ vars.map Prod.fst := List.mem_map.2 ⟨_, h1.1, rfl⟩
    refine ⟨hm, ?_⟩
    rcases hall k' hm with h | h
    · exact absurd (hc k' v h1.1 h) (by simpa using h1.2)
    · exact h
  · rintro ⟨h1, h2⟩
    obtain ⟨⟨k', v⟩, h3, h4⟩ := List.mem_map.1 h1
    have hk : k' = k := h4
    subst hk
    obtain ⟨cls, e, he, rfl⟩ := hp k' v h3 h2
    exact ⟨_, List.mem_filter.2 ⟨h3, by simpa using param_names cls e he⟩, rfl⟩

/-- a network with two connection variables and the variable `zeta` of a component -/
def infoVars : Dict ℕ String := [(0, "m"), (1, "p"), (2, "zeta")]

example : (infoVars.map Prod.fst).Nodup ∧ otherVars infoVars = [2] ∧ namedVars infoVars "m" = [0] ∧
    (∃ cls : CompClass, ∃ e ∈ cls.params, e.name = "zeta") := by
  refine ⟨by decide, by decide, by decide, .valve, ?_⟩
  decide +kernel

/-- residuals: 1, then below the tolerance -/
noncomputable def infoOut : ℕ → Iter ℝ := fun i => if i = 0 then ⟨some 1, false⟩ else ⟨some 0, false⟩

theorem infoOut_converges (minIter : ℤ) (h : minIter ≤ 3) {E : ℝ} (h0 : 0 < E) (n : ℕ) (hn : 2 < n) :
    (solveLoop infoOut (√E) minIter n 0).converged = true := by
  have hs : 0 < √E := Real.sqrt_pos.2 h0
  refine (C23_complete infoOut (√E) minIter n 2 hn ⟨by simpa using h, ⟨0, by simp [infoOut], hs⟩,
    fun _ => ⟨0, by simp [infoOut], hs⟩, by simp [infoOut]⟩ ?_).1
  intro j hj
  refine ⟨by unfold infoOut; split_ifs <;> rfl, ?_⟩
  intro hst
  have := hst.1
  omega

example : ∃ ls l, infoLoop (1 / 1000000) 0 infoVars (fun _ _ => 1) infoOut 3 50 0 = ls ++ [l] ∧ l.progress = some 100 := by
  obtain ⟨ls, l, h1, h2, -⟩ := (C106_converged (E := 1 / 1000000) (eps := 0) (by norm_num) (by norm_num) (by simp) infoVars
    (fun _ _ => 1) infoOut 3 50).2 (infoOut_converges 3 le_rfl (by norm_num) 50 (by norm_num))
  exact ⟨ls, l, h1, h2⟩

/-- C106: 100 % do not tell that the calculation converged: with linearly dependent equations every line may show 100 % and a
residual below the tolerance. -/
theorem C106_hundred_converged_false :
    ¬ ∀ (E eps : ℝ) (vars : Dict ℕ String) (inc : ℕ → ℕ → ℝ) (out : ℕ → Iter ℝ) (minIter : ℤ) (maxIter : ℕ),
      0 < E → E < 1 → eps * 100 ≤ √E → 0 < maxIter →
      (∀ l ∈ infoLoop E eps vars inc out minIter maxIter 0, l.progress = some 100 ∧ ∃ r, l.residual = some r ∧ r < √E) →
      (solveLoop out (√E) minIter maxIter 0).converged = true := by
  intro h
  have hE : (0 : ℝ) < 1 / 4 := by norm_num
  have := h (1 / 4) 0 infoVars (fun _ _ => 0) (fun _ => ⟨some 0, true⟩) 1 10 hE (by norm_num) (by simp)
    (by norm_num) (by
      rw [infoLoop_eq]
      intro l hl
      obtain ⟨i, -, rfl⟩ := List.mem_map.1 hl
      refine ⟨?_, 0, rfl, by simp⟩
      simp only [iterLine, Option.some.injEq]
      exact (C106_hundred hE (by norm_num) (by simp)).2 (by simp))
  obtain ⟨i, -, hat⟩ := C23_sound _ _ _ _ this
  exact absurd hat.regular (by simp)

/-- C106: with regular equations it does not tell either: a residual that equals the tolerance shows 100 % in every line of a
calculation that does not converge. -/
theorem C106_hundred_regular_false :
    ¬ ∀ (E eps : ℝ) (vars : Dict ℕ String) (inc : ℕ → ℕ → ℝ) (out : ℕ → Iter ℝ) (minIter : ℤ) (maxIter : ℕ),
      0 < E → E < 1 → eps * 100 ≤ √E → 0 < maxIter → (∀ i, (out i).linDep = false) → minIter ≤ maxIter →
      (∀ l ∈ infoLoop E eps vars inc out minIter maxIter 0, l.progress = some 100) →
      (solveLoop out (√E) minIter maxIter 0).converged = true := by
  intro h
  have hE : (0 : ℝ) < 1 / 4 := by norm_num
  have := h (1 / 4) 0 infoVars (fun _ _ => 0) (fun _ => ⟨some (√(1 / 4)), false⟩) 1 10 hE (by norm_num) (by simp)
    (by norm_num) (by simp) (by norm_num) (by
      rw [infoLoop_eq]
      intro l hl
      obtain ⟨i, -, rfl⟩ := List.mem_map.1 hl
      simp only [iterLine, Option.some.injEq]
      exact (C106_hundred hE (by norm_num) (by simp)).2 le_rfl)
  obtain ⟨i, -, hat⟩ := C23_sound _ _ _ _ this
  obtain ⟨r, hr, hlt⟩ := hat.last
  simp only [Option.some.injEq] at hr
  rw [hr] at hlt
  exact lt_irrefl _ hlt

/-- C106: the warning does not tell that the calculation failed: a calculation that converges in the last permitted iteration
warns, too. -/
theorem C106_warning_false :
    ¬ ∀ (E : ℝ) (out : ℕ → Iter ℝ) (minIter : ℤ) (maxIter : ℕ), 0 < E → E < 1 →
      limitWarning maxIter (solveLoop out (√E) minIter maxIter 0) = true →
      (solveLoop out (√E) minIter maxIter 0).converged = false := by
  intro h
  have hE : (0 : ℝ) < 1 / 4 := by norm_num
  have hc := infoOut_converges 3 le_rfl hE 3 (by norm_num)
  have hi : (solveLoop infoOut (√(1 / 4)) 3 3 0).iters = 3 := by
    obtain ⟨i, e, hat⟩ := C23_sound _ _ _ _ hc
    have h1 := hat.enough
    have h2 := C23_terminates infoOut (√(1 / 4)) 3 3
    omega
  have := h (1 / 4) infoOut 3 3 hE (by norm_num) (by unfold limitWarning lastIter; rw [hi]; rfl)
  rw [hc] at this
  exact absurd this (by simp)

/-- C106: a calculation that neither warns nor converged has stopped early, because of linear dependency or because the residuals
did not fall any more. -/
theorem C106_silent (E : ℝ) (out : ℕ → Iter ℝ) (minIter : ℤ) (maxIter : ℕ) (hpos : 0 < maxIter)
    (hw : limitWarning maxIter (solveLoop out (√E) minIter maxIter 0) = false)
    (hc : (solveLoop out (√E) minIter maxIter 0).converged = false) :
    (solveLoop out (√E) minIter maxIter 0).linDep = true ∨ (solveLoop out (√E) minIter maxIter 0).progress = false := by
  obtain ⟨k, e1, e2, e3, e4⟩ := solveLoop_spec out (√E) minIter maxIter 0
  rcases e4 with ⟨a, _, c, _⟩ | ⟨_, _, c, _, l⟩ | ⟨_, _, _, c, _⟩ | ⟨_, _, _, _, c⟩
  · exfalso
    unfold limitWarning lastIter at hw
    rw [decide_eq_false_iff_not] at hw
    omega
  · rw [hc] at c
    exact absurd c (by simp)
  · exact Or.inl c
  · exact Or.inr c

/-- C106: the warning appears exactly if the last permitted iteration has been made. -/
theorem C106_warning (E : ℝ) (out : ℕ → Iter ℝ) (minIter : ℤ) (maxIter : ℕ) :
    limitWarning maxIter (solveLoop out (√E) minIter maxIter 0) = true ↔
      0 < maxIter ∧ (solveLoop out (√E) minIter maxIter 0).iters = maxIter := by
  obtain ⟨k, e1, e2, e3, e4⟩ := solveLoop_spec out (√E) minIter maxIter 0
  have hk : 0 < maxIter → 0 < k := by
    intro h
    rcases e4 with ⟨a, -⟩ | ⟨a, -⟩ | ⟨a, -⟩ | ⟨a, -⟩ <;> omega
  unfold limitWarning lastIter
  rw [decide_eq_true_iff]
  omega

/-- C106: the total is the number of lines. -/
theorem C106_total_partial (E eps : ℝ) (vars : Dict ℕ String) (inc : ℕ → ℕ → ℝ) (out : ℕ → Iter ℝ) (minIter : ℤ) (maxIter : ℕ)
    (hpos : 0 < maxIter) :
    totalPrinted (solveLoop out (√E) minIter maxIter 0) = (infoLoop E eps vars inc out minIter maxIter 0).length := by
  rw [infoLoop_eq]
  obtain ⟨k, e1, e2, e3, e4⟩ := solveLoop_spec out (√E) minIter maxIter 0
  have hk : 0 < k := by rcases e4 with ⟨a, -⟩ | ⟨a, -⟩ | ⟨a, -⟩ | ⟨a, -⟩ <;> omega
  unfold totalPrinted lastIter
  rw [List.length_map, List.length_range]
  omega

/-- C106: with `max_iter=0` no iteration is made, but one is counted; the warning does not appear. -/
theorem C106_total_false (E eps : ℝ) (vars : Dict ℕ String) (inc : ℕ → ℕ → ℝ) (out : ℕ → Iter ℝ) (minIter : ℤ) :
    infoLoop E eps vars inc out minIter 0 0 = [] ∧ totalPrinted (solveLoop out (√E) minIter 0 0) = 1 ∧
    limitWarning 0 (solveLoop out (√E) minIter 0 0) = false ∧ (solveLoop out (√E) minIter 0 0).converged = false := by
  refine ⟨rfl, rfl, ?_, rfl⟩
  unfold limitWarning lastIter solveLoop
  simp

/-- linearly dependent equations in the first of ten permitted iterations: no warning, not converged -/
example : limitWarning 10 (solveLoop (fun _ => (⟨some 0, true⟩ : Iter ℝ)) (√(1 / 4)) 1 10 0) = false ∧
    (solveLoop (fun _ => (⟨some 0, true⟩ : Iter ℝ)) (√(1 / 4)) 1 10 0).converged = false := by
  have : solveLoop (fun _ => (⟨some 0, true⟩ : Iter ℝ)) (√(1 / 4)) 1 10 0 = ⟨1, false, true, true⟩ := by
    rw [solveLoop, if_pos (by simp [stopNow])]
    rfl
  rw [this]
  exact ⟨rfl, rfl⟩

end Tespy
