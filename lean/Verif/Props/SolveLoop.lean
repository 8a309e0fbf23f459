import Mathlib.Algebra.Order.Field.Rat
import Mathlib.Data.List.Nodup
import Verif.Model.Solver
/-
C23: the solver loop. C24: rows of the equation system.
-/
namespace Tespy
variable {K : Type} [Field K] [LinearOrder K]

/-- Meaning of "converged at iteration number `i`" (counted from 0): enough iterations,
the last two residual norms (of the first iteration: the only one) are numbers below the
threshold, and the matrix could be inverted. -/
structure ConvergedAt (out : ℕ → Iter K) (thr : K) (minIter : ℤ) (i : ℕ) : Prop where
  enough : minIter ≤ i + 1
  last : ∃ r, (out i).norm = some r ∧ r < thr
  before : i ≠ 0 → ∃ r, (out (i - 1)).norm = some r ∧ r < thr
  regular : (out i).linDep = false

omit [Field K] in
theorem ltF_iff (a : Option K) (b : K) : ltF a b = true ↔ ∃ r, a = some r ∧ r < b := by
  cases a with
  | none => simp [ltF]
  | some x => simp [ltF]

omit [Field K] in
theorem stopNow_iff (out : ℕ → Iter K) (thr : K) (minIter : ℤ) (i : ℕ) :
    stopNow out thr minIter i = true ↔ ConvergedAt out thr minIter i ∨ (out i).linDep = true := by
  unfold stopNow lastTwo
  rw [Bool.or_eq_true, Bool.and_eq_true, decide_eq_true_iff]
  constructor
  · rintro (⟨h1, h2⟩ | h)
    · cases hl : (out i).linDep with
      | true => exact Or.inr rfl
      | false =>
        left
        by_cases hi : i = 0
        · rw [if_pos hi, ltF_iff] at h2
          subst hi
          exact ⟨by omega, h2, fun h => absurd rfl h, hl⟩
        · rw [if_neg hi, Bool.and_eq_true, ltF_iff, ltF_iff] at h2
          exact ⟨by omega, h2.2, fun _ => h2.1, hl⟩
    · exact Or.inr h
  · rintro (h | h)
    · left
      refine ⟨by have := h.enough; omega, ?_⟩
      by_cases hi : i = 0
      · rw [if_pos hi, ltF_iff, ← hi]; exact h.last
      · rw [if_neg hi, Bool.and_eq_true, ltF_iff, ltF_iff]; exact ⟨h.before hi, h.last⟩
    · exact Or.inr h

/-- the loop goes on after iteration `i` -/
def GoesOn (out : ℕ → Iter K) (thr : K) (minIter : ℤ) (i : ℕ) : Prop :=
  ¬ ConvergedAt out thr minIter i ∧ (out i).linDep = false ∧ noProgress out i = false

theorem solveLoop_spec (out : ℕ → Iter K) (thr : K) (minIter : ℤ) (rem : ℕ) : ∀ i,
    ∃ k, i + k = (solveLoop out thr minIter rem i).iters ∧ k ≤ rem ∧
    (∀ j, i ≤ j → j + 1 < i + k → GoesOn out thr minIter j) ∧
    ((k = rem ∧ (∀ j, i ≤ j → j < i + k → GoesOn out thr minIter j) ∧
        (solveLoop out thr minIter rem i).converged = false ∧
        (solveLoop out thr minIter rem i).progress = true ∧
        ((i + k = 0 ∨ k ≠ 0) → (solveLoop out thr minIter rem i).linDep = false)) ∨
     (0 < k ∧ ConvergedAt out thr minIter (i + k - 1) ∧
        (solveLoop out thr minIter rem i).converged = true ∧
        (solveLoop out thr minIter rem i).progress = true ∧
        (solveLoop out thr minIter rem i).linDep = false) ∨
     (0 < k ∧ (out (i + k - 1)).linDep = true ∧
        (solveLoop out thr minIter rem i).converged = false ∧
        (solveLoop out thr minIter rem i).linDep = true ∧
        (solveLoop out thr minIter rem i).progress = true) ∨
     (0 < k ∧ ¬ ConvergedAt out thr minIter (i + k - 1) ∧ noProgress out (i + k - 1) = true ∧
        (solveLoop out thr minIter rem i).converged = false ∧
        (solveLoop out thr minIter rem i).progress = false)) := by
  induction rem with
  | zero =>
    intro i
    refine ⟨0, by simp [solveLoop], le_refl _, by intro j h1 h2; omega, Or.inl ⟨rfl, by intro j h1 h2; omega, rfl, rfl, ?_⟩⟩
    rintro (h | h)
    · have : i = 0 := by omega
      subst this; simp [solveLoop]
    · exact absurd rfl h
  | succ rem ih =>
    intro i
    rw [solveLoop]
    by_cases hs : stopNow out thr minIter i = true
    · rw [if_pos hs]
      refine ⟨1, rfl, by omega, by intro j h1 h2; omega, ?_⟩
      rcases (stopNow_iff out thr minIter i).mp hs with h | h
      · right; left
        refine ⟨by omega, h, ?_, rfl, h.regular⟩
        simp [h.regular]
      · right; right; left
        exact ⟨by omega, h, by simp [h], h, rfl⟩
    · rw [if_neg hs]
      rw [stopNow_iff, not_or] at hs
      by_cases hp : noProgress out i = true
      · rw [if_pos hp]
        exact ⟨1, rfl, by omega, by intro j h1 h2; omega,
          Or.inr (Or.inr (Or.inr ⟨by omega, hs.1, hp, rfl, rfl⟩))⟩
      · rw [if_neg hp]
        have hgo : GoesOn out thr minIter i := ⟨hs.1, by simpa using hs.2, by simpa using hp⟩
        obtain ⟨k, e1, e2, e3, e4⟩ := ih (i + 1)
        have e5 : i + (k + 1) - 1 = i + 1 + k - 1 := by omega
        refine ⟨k + 1, by omega, by omega, ?_, ?_⟩
        · intro j h1 h2
          by_cases hj : j = i
          · subst hj; exact hgo
          · exact e3 j (by omega) (by omega)
        · rw [e5]
          rcases e4 with ⟨a1, a2, a3, a4, a5⟩ | ⟨a1, a2⟩ | ⟨a1, a2⟩ | ⟨a1, a2⟩
          · left
            refine ⟨by omega, ?_, a3, a4, ?_⟩
            · intro j h1 h2
              by_cases hj : j = i
              · subst hj; exact hgo
              · exact a2 j (by omega) (by omega)
            · intro _
              by_cases hk : k = 0
              · subst hk
                have : rem = 0 := by omega
                subst this
                simp only [solveLoop]
                rw [if_neg (by omega)]
                simpa using hgo.2.1
              · exact a5 (Or.inr hk)
          · exact Or.inr (Or.inl ⟨by omega, a2⟩)
          · exact Or.inr (Or.inr (Or.inl ⟨by omega, a2⟩))
          · exact Or.inr (Or.inr (Or.inr ⟨by omega, a2⟩))

/-- C23: at most `max_iter` iterations are made. -/
theorem C23_terminates (out : ℕ → Iter K) (thr : K) (minIter : ℤ) (maxIter : ℕ) :
    (solveLoop out thr minIter maxIter 0).iters ≤ maxIter := by
  obtain ⟨k, e1, e2, _⟩ := solveLoop_spec out thr minIter maxIter 0
  omega

/-- C23: convergence is reported only if the criterion is met in the last iteration. -/
theorem C23_sound (out : ℕ → Iter K) (thr : K) (minIter : ℤ) (maxIter : ℕ)
    (h : (solveLoop out thr minIter maxIter 0).converged = true) :
    ∃ i, (solveLoop out thr minIter maxIter 0).iters = i + 1 ∧ ConvergedAt out thr minIter i := by
  obtain ⟨k, e1, e2, e3, e4⟩ := solveLoop_spec out thr minIter maxIter 0
  rcases e4 with ⟨_, _, c, _⟩ | ⟨a1, a2, _⟩ | ⟨_, _, c, _⟩ | ⟨_, _, _, c, _⟩
  · rw [c] at h; simp at h
  · refine ⟨k - 1, by omega, ?_⟩
    have : 0 + k - 1 = k - 1 := by omega
    rwa [this] at a2
  · rw [c] at h; simp at h
  · rw [c] at h; simp at h

/-- C23: a run which ends with an undefined residual is not reported as converged. -/
theorem C23_nan (out : ℕ → Iter K) (thr : K) (minIter : ℤ) (maxIter : ℕ) (i : ℕ)
    (hi : (solveLoop out thr minIter maxIter 0).iters = i + 1) (hn : (out i).norm = none) :
    (solveLoop out thr minIter maxIter 0).converged = false := by
  cases h : (solveLoop out thr minIter maxIter 0).converged with
  | false => rfl
  | true =>
    obtain ⟨j, h1, h2⟩ := C23_sound out thr minIter maxIter h
    have : i = j := by omega
    subst this
    obtain ⟨r, hr, _⟩ := h2.last
    rw [hn] at hr; simp at hr

/-- Meaning of "no progress at iteration number `i`": more than 40 iterations before, the last four
residual norms are numbers, none of them is below 95 % of the one two iterations ago and the last is
not below 95 % of the one before. -/
def Stalled (out : ℕ → Iter K) (i : ℕ) : Prop :=
  40 < i ∧ ∃ a b c d, (out (i - 3)).norm = some a ∧ (out (i - 2)).norm = some b ∧
    (out (i - 1)).norm = some c ∧ (out i).norm = some d ∧
    b * (19 / 20) ≤ a ∧ b * (19 / 20) ≤ b ∧ b * (19 / 20) ≤ c ∧ b * (19 / 20) ≤ d ∧ c * (19 / 20) ≤ d

theorem noProgress_iff (out : ℕ → Iter K) (i : ℕ) : noProgress out i = true ↔ Stalled out i := by
  unfold noProgress Stalled
  rw [Bool.and_eq_true, decide_eq_true_iff]
  refine and_congr_right fun _ => ?_
  cases (out (i - 3)).norm <;> cases (out (i - 2)).norm <;> cases (out (i - 1)).norm <;>
    cases (out i).norm <;> simp [geF]
  tauto

/-- C23: the calculation is given up for lack of progress only if the last iteration has stalled,
in particular not within the first 41 iterations. -/
theorem C23_abort (out : ℕ → Iter K) (thr : K) (minIter : ℤ) (maxIter : ℕ)
    (h : (solveLoop out thr minIter maxIter 0).progress = false) :
    ∃ i, (solveLoop out thr minIter maxIter 0).iters = i + 1 ∧ Stalled out i ∧
      ¬ ConvergedAt out thr minIter i ∧ ∀ j < i, ¬ Stalled out j := by
  obtain ⟨k, e1, e2, e3, e4⟩ := solveLoop_spec out thr minIter maxIter 0
  have e0 : 0 + k - 1 = k - 1 := by omega
  rw [e0] at e4
  have hall : ∀ j < k - 1, ¬ Stalled out j := fun j hj hst => by
    have := (e3 j (by omega) (by omega)).2.2
    rw [(noProgress_iff out j).mpr hst] at this; cases this
  rcases e4 with ⟨_, _, _, c, _⟩ | ⟨_, _, _, c, _⟩ | ⟨a1, a2, a3, a4⟩ | ⟨a1, a2, a3, _⟩
  · rw [c] at h; cases h
  · rw [c] at h; cases h
  · rw [a4.2] at h; cases h
  · exact ⟨k - 1, by omega, (noProgress_iff out _).mp a3, a2, hall⟩

-- non-vacuity: a constant residual is given up in the 42nd iteration
example : let out : ℕ → Iter ℚ := fun _ => ⟨some 1, false⟩
    solveLoop out (1/1000) 4 50 0 = ⟨42, false, false, false⟩ := by decide +kernel

/-- C23: convergence is not missed. If the criterion is met in some iteration below the
limit, and no earlier iteration is singular or without progress, the run is reported as
converged (at this iteration or before). -/
theorem C23_complete (out : ℕ → Iter K) (thr : K) (minIter : ℤ) (maxIter i : ℕ)
    (hi : i < maxIter) (hc : ConvergedAt out thr minIter i)
    (hgo : ∀ j < i, (out j).linDep = false ∧ ¬ Stalled out j) :
    (solveLoop out thr minIter maxIter 0).converged = true ∧
    (solveLoop out thr minIter maxIter 0).iters ≤ i + 1 := by
  obtain ⟨k, e1, e2, e3, e4⟩ := solveLoop_spec out thr minIter maxIter 0
  have hk : k ≤ i + 1 := by
    by_contra hlt
    exact (e3 i (by omega) (by omega)).1 hc
  refine ⟨?_, by omega⟩
  have e0 : 0 + k - 1 = k - 1 := by omega
  rw [e0] at e4
  rcases e4 with ⟨a1, a2, _⟩ | ⟨_, _, c, _⟩ | ⟨a1, a2, _⟩ | ⟨a1, a2, a3, _⟩
  · exact absurd hc (a2 i (by omega) (by omega)).1
  · exact c
  · by_cases h : k - 1 = i
    · rw [h, hc.regular] at a2; simp at a2
    · have := (hgo (k - 1) (by omega)).1
      rw [this] at a2; simp at a2
  · by_cases h : k - 1 = i
    · rw [h] at a2; exact absurd hc a2
    · have := (hgo (k - 1) (by omega)).2
      exact absurd ((noProgress_iff out _).mp a3) this

-- non-vacuity: residuals 1, 1/10, 1/10000, 1/10000 converge in the fourth iteration
example : let out : ℕ → Iter ℚ := fun i => ⟨some (if i = 0 then 1 else if i = 1 then 1/10 else 1/10000), false⟩
    solveLoop out (1/1000) 4 50 0 = ⟨4, true, true, false⟩ := by decide +kernel

/-! ### C24 -/

theorem rowStarts_blocks (os : List EqObj) (h : ∀ o ∈ os, o.jacEmpty = true → o.numEq = 0) (s : ℕ) :
    ((rowStarts s os).zip os).flatMap (fun p => List.range' p.1 p.2.numEq) =
      List.range' s (os.map EqObj.numEq).sum := by
  induction os generalizing s with
  | nil => simp [rowStarts]
  | cons o os ih =>
    rw [rowStarts, List.zip_cons_cons, List.flatMap_cons, ih (fun o' ho' => h o' (by simp [ho']))]
    have e : (if o.jacEmpty = true then s else s + o.numEq) = s + o.numEq := by
      split
      · rename_i hj; rw [h o (by simp) hj]; rfl
      · rfl
    rw [e, List.map_cons, List.sum_cons, List.range'_append_1]

theorem busRows_eq (bs : List Bool) (s : ℕ) : busRows s bs = List.range' s (bs.filter id).length := by
  induction bs generalizing s with
  | nil => simp [busRows]
  | cons b bs ih =>
    cases b with
    | true => simp [busRows, ih, List.range'_succ]
    | false => simp [busRows, ih]

theorem udeRows_eq (os : List EqObj) (h : ∀ o ∈ os, o.jacEmpty = false) (s : ℕ) :
    udeRows s os = List.range' s os.length := by
  induction os generalizing s with
  | nil => simp [udeRows]
  | cons o os ih =>
    rw [udeRows, ih (fun o' ho' => h o' (by simp [ho'])), h o (by simp)]
    simp [List.range'_succ]

/-- C24, the part that holds: if every component and connection with equations and every
user defined equation has at least one entry in its jacobian, the equations of the
components, busses, connections and user defined equations are written to pairwise
different rows, which are exactly the rows of the system. Missing: objects whose
equations do not depend on any variable, see `C24_empty_jacobian_shifts_rows`. -/
theorem C24_rows_partial (comps conns : List EqObj) (busses : List Bool) (udes : List EqObj)
    (h1 : ∀ o ∈ comps, o.jacEmpty = true → o.numEq = 0)
    (h2 : ∀ o ∈ conns, o.jacEmpty = true → o.numEq = 0)
    (h3 : ∀ o ∈ udes, o.jacEmpty = false) :
    (writtenRows comps conns busses udes).Perm (List.range
      ((comps.map EqObj.numEq).sum + (conns.map EqObj.numEq).sum + (busses.filter id).length + udes.length)) := by
  unfold writtenRows
  simp only
  rw [rowStarts_blocks _ h1, rowStarts_blocks _ h2, busRows_eq, udeRows_eq _ h3]
  generalize (comps.map EqObj.numEq).sum = a
  generalize (conns.map EqObj.numEq).sum = b
  generalize (busses.filter id).length = c
  generalize udes.length = d
  have e : List.range (a + b + c + d) = List.range' 0 a ++ (List.range' a b ++ (List.range' (a + b) c ++ List.range' (a + b + c) d)) := by
    rw [List.range_eq_range', @List.range'_append_1 (a + b) c d, @List.range'_append_1 a b (c + d)]
    have := @List.range'_append_1 0 a (b + (c + d))
    rw [Nat.zero_add] at this
    rw [this]; congr 1; omega
  rw [e, List.append_assoc, List.append_assoc]
  refine List.Perm.append_left _ ?_
  rw [← List.append_assoc, ← List.append_assoc]
  exact (List.perm_append_comm).append_right _

/-- C24, refuted: an equation without derivative entries (for example a temperature
specified at a connection with given pressure and enthalpy) does not reserve its row: the
next object overwrites it and the last row of the system is never written. -/
theorem C24_empty_jacobian_shifts_rows :
    ∃ conns : List EqObj, writtenRows [] conns [] [] = [0, 0] ∧
      (conns.map EqObj.numEq).sum = 2 :=
  ⟨[⟨1, true⟩, ⟨1, false⟩], by decide⟩

example : writtenRows [⟨2, false⟩, ⟨0, true⟩] [⟨1, false⟩] [true, false] [⟨1, false⟩] = [0, 1, 3, 2, 4] := by decide

end Tespy
