import Mathlib.Analysis.Calculus.Deriv.Basic
import Mathlib.Analysis.Calculus.Deriv.Add
import Mathlib.Analysis.Calculus.Deriv.Mul
import Verif.Props.Balance
/-
C49, C50: the entries written to the Jacobian are the partial derivatives of the residuals.
-/
namespace Tespy

/-! ## Specification -/

/-- The state with another value of one quantity. -/
def EqState.put {K : Type} (s : EqState K) (v : Var) (t : K) : EqState K :=
  { s with val := Function.update s.val v t }

namespace Spec

/-- Every variable has its own column. -/
def ColsInjective {K : Type} (s : EqState K) : Prop :=
  ∀ u v, s.isVar u = true → s.isVar v = true → s.col u = s.col v → u = v

/-- `w s k` are the derivatives of the residuals `r` in rows `k, k + 1, ...`: all entries are in
the rows of the residuals and in columns of variables, and the value left at row `k + j` in
the column of a variable is the partial derivative of residual `j` with respect to it. -/
def IsJacobian (r : EqState ℝ → List ℝ) (w : EqState ℝ → ℕ → Writes ℝ) (s : EqState ℝ) : Prop :=
  ∀ k, (∀ e ∈ w s k, k ≤ e.1 ∧ e.1 < k + (r s).length ∧ ∃ v, s.isVar v = true ∧ e.2.1 = s.col v) ∧
    ∀ j, j < (r s).length → ∀ v, s.isVar v = true →
      HasDerivAt (fun t => (r (s.put v t)).getD j 0) (entry (w s k) (k + j) (s.col v)) (s.val v)

end Spec

/-! ## Entries of lists of guarded assignments -/

/-- guarded assignments in one row -/
def wrs (s : EqState ℝ) (k : ℕ) (L : List (Var × ℝ)) : Writes ℝ := L.flatMap (fun e => wr s k e.1 e.2)

/-- the last value given to a variable -/
def lastOf (L : List (Var × ℝ)) (v : Var) (d : ℝ) : ℝ :=
  L.foldl (fun a e => if e.1 = v then e.2 else a) d

theorem lastOf_append (L M : List (Var × ℝ)) (v : Var) (d : ℝ) :
    lastOf (L ++ M) v d = lastOf M v (lastOf L v d) := by
  simp [lastOf, List.foldl_append]

theorem lastOf_notMem (L : List (Var × ℝ)) (v : Var) (d : ℝ) (h : v ∉ L.map Prod.fst) :
    lastOf L v d = d := by
  induction L generalizing d with
  | nil => rfl
  | cons e L ih =>
    simp only [List.map_cons, List.mem_cons, not_or] at h
    have : ¬ e.1 = v := fun x => h.1 x.symm
    simp only [lastOf, List.foldl_cons, this, if_false]
    exact ih d h.2

theorem lastOf_mem (L : List (Var × ℝ)) (v : Var) (d d' : ℝ) (h : v ∈ L.map Prod.fst) :
    lastOf L v d = lastOf L v d' := by
  induction L generalizing d d' with
  | nil => simp at h
  | cons e L ih =>
    simp only [lastOf, List.foldl_cons]
    by_cases he : e.1 = v
    · simp [he]
    · simp only [he, if_false]
      rcases List.mem_cons.mp h with h | h
      · exact absurd h.symm he
      · exact ih d d' h

/-- value at a position after more assignments -/
def entryFrom (a : ℝ) (w : Writes ℝ) (r : ℕ) (c : Option ℕ) : ℝ :=
  w.foldl (fun a e => if e.1 = r ∧ e.2.1 = c then e.2.2 else a) a

theorem entryFrom_append (a : ℝ) (w w' : Writes ℝ) (r : ℕ) (c : Option ℕ) :
    entryFrom a (w ++ w') r c = entryFrom (entryFrom a w r c) w' r c := by
  simp [entryFrom, List.foldl_append]

theorem entryFrom_other (a : ℝ) (w : Writes ℝ) (r : ℕ) (c : Option ℕ) (h : ∀ e ∈ w, e.1 ≠ r) :
    entryFrom a w r c = a := by
  induction w generalizing a with
  | nil => rfl
  | cons e w ih =>
    have := h e (by simp)
    simp only [entryFrom, List.foldl_cons, this, false_and, if_false]
    exact ih a (fun e he => h e (by simp [he]))

theorem wrs_mem (s : EqState ℝ) (k : ℕ) (L : List (Var × ℝ)) (e : ℕ × Option ℕ × ℝ)
    (h : e ∈ wrs s k L) : e.1 = k ∧ ∃ v, s.isVar v = true ∧ e.2.1 = s.col v := by
  obtain ⟨x, -, hx⟩ := List.mem_flatMap.mp h
  unfold wr at hx
  split at hx
  · rename_i hv
    rw [List.mem_singleton.mp hx]
    exact ⟨rfl, x.1, hv, rfl⟩
  · simp at hx

theorem entryFrom_wrs (s : EqState ℝ) (hc : Spec.ColsInjective s) (k : ℕ) (L : List (Var × ℝ))
    (v : Var) (hv : s.isVar v = true) (a : ℝ) :
    entryFrom a (wrs s k L) k (s.col v) = lastOf L v a := by
  induction L generalizing a with
  | nil => rfl
  | cons e L ih =>
    have hsplit : wrs s k (e :: L) = wr s k e.1 e.2 ++ wrs s k L := by simp [wrs]
    rw [hsplit, entryFrom_append, ih]
    have hl : lastOf (e :: L) v a = lastOf L v (if e.1 = v then e.2 else a) := by
      simp [lastOf]
    rw [hl]
    congr 1
    unfold wr
    by_cases he : e.1 = v
    · simp [he, hv, entryFrom]
    · by_cases hve : s.isVar e.1 = true
      · have : s.col e.1 ≠ s.col v := fun h => he (hc _ _ hve hv h)
        simp [hve, entryFrom, he, this]
      · simp [hve, entryFrom, he]

/-- assignments in consecutive rows -/
def rowsW (s : EqState ℝ) : ℕ → List (List (Var × ℝ)) → Writes ℝ
  | _, [] => []
  | k, L :: Ls => wrs s k L ++ rowsW s (k + 1) Ls

theorem rowsW_mem (s : EqState ℝ) (k : ℕ) (Ls : List (List (Var × ℝ))) (e : ℕ × Option ℕ × ℝ)
    (h : e ∈ rowsW s k Ls) :
    k ≤ e.1 ∧ e.1 < k + Ls.length ∧ ∃ v, s.isVar v = true ∧ e.2.1 = s.col v := by
  induction Ls generalizing k with
  | nil => simp [rowsW] at h
  | cons L Ls ih =>
    rcases List.mem_append.mp h with h | h
    · obtain ⟨h1, h2⟩ := wrs_mem s k L e h
      exact ⟨by omega, by simp; omega, h2⟩
    · obtain ⟨h1, h2, h3⟩ := ih (k + 1) h
      exact ⟨by omega, by simp; omega, h3⟩

theorem entryFrom_rowsW (s : EqState ℝ) (hc : Spec.ColsInjective s) (k : ℕ)
    (Ls : List (List (Var × ℝ))) (j : ℕ) (L : List (Var × ℝ)) (hj : Ls[j]? = some L) (v : Var)
    (hv : s.isVar v = true) (a : ℝ) :
    entryFrom a (rowsW s k Ls) (k + j) (s.col v) = lastOf L v a := by
  induction Ls generalizing k j a with
  | nil => simp at hj
  | cons L0 Ls ih =>
    simp only [rowsW, entryFrom_append]
    cases j with
    | zero =>
      simp only [List.getElem?_cons_zero, Option.some.injEq] at hj
      subst hj
      rw [Nat.add_zero, entryFrom_wrs s hc k L0 v hv]
      apply entryFrom_other
      intro e he
      have := (rowsW_mem s (k + 1) Ls e he).1
      omega
    | succ j =>
      simp only [List.getElem?_cons_succ] at hj
      rw [entryFrom_other a (wrs s k L0)]
      · have := ih (k + 1) j hj a
        rwa [show k + 1 + j = k + (j + 1) by omega] at this
      · intro e he
        have := (wrs_mem s k L0 e he).1
        omega

/-! ## One row: residual and list of entries -/

/-- The list of entries gives the partial derivatives of the function at `s`. -/
def RowOK (s : EqState ℝ) (f : EqState ℝ → ℝ) (L : List (Var × ℝ)) : Prop :=
  ∀ v, s.isVar v = true → HasDerivAt (fun t => f (s.put v t)) (lastOf L v 0) (s.val v)

/-- the two lists have no variable in common -/
def Disj (L M : List (Var × ℝ)) : Prop := ∀ v, v ∈ L.map Prod.fst → v ∈ M.map Prod.fst → False

theorem lastOf_disj (L M : List (Var × ℝ)) (h : Disj L M) (v : Var) :
    lastOf (L ++ M) v 0 = lastOf L v 0 + lastOf M v 0 := by
  rw [lastOf_append]
  by_cases hL : v ∈ L.map Prod.fst
  · have hM : v ∉ M.map Prod.fst := fun hM => h v hL hM
    rw [lastOf_notMem M v _ hM, lastOf_notMem M v _ hM, add_zero]
  · rw [lastOf_notMem L v _ hL, zero_add]

theorem RowOK.add {s : EqState ℝ} {f g : EqState ℝ → ℝ} {L M : List (Var × ℝ)} (hf : RowOK s f L)
    (hg : RowOK s g M) (h : Disj L M) : RowOK s (fun s => f s + g s) (L ++ M) := by
  intro v hv
  rw [lastOf_disj L M h]
  exact (hf v hv).add (hg v hv)

/-- entries multiplied by a number -/
def scaleL (c : ℝ) (L : List (Var × ℝ)) : List (Var × ℝ) := L.map (fun e => (e.1, c * e.2))

theorem scaleL_keys (c : ℝ) (L : List (Var × ℝ)) : (scaleL c L).map Prod.fst = L.map Prod.fst := by
  simp [scaleL, Function.comp_def]

theorem lastOf_scale (c : ℝ) (L : List (Var × ℝ)) (v : Var) (d : ℝ) :
    lastOf (scaleL c L) v (c * d) = c * lastOf L v d := by
  induction L generalizing d with
  | nil => rfl
  | cons e L ih =>
    simp only [scaleL, List.map_cons, lastOf, List.foldl_cons]
    by_cases he : e.1 = v
    · simpa [he, scaleL, lastOf] using ih e.2
    · simpa [he, scaleL, lastOf] using ih d

theorem RowOK.smul {s : EqState ℝ} {f : EqState ℝ → ℝ} {L : List (Var × ℝ)} (c : ℝ)
    (hf : RowOK s f L) : RowOK s (fun s => c * f s) (scaleL c L) := by
  intro v hv
  have := lastOf_scale c L v 0
  rw [mul_zero] at this
  rw [this]
  exact (hf v hv).const_mul c

theorem RowOK.const (s : EqState ℝ) (c : ℝ) : RowOK s (fun _ => c) [] := by
  intro v _
  exact hasDerivAt_const _ c

theorem RowOK.congr {s : EqState ℝ} {f g : EqState ℝ → ℝ} {L M : List (Var × ℝ)}
    (hf : RowOK s f L) (h : ∀ v, s.isVar v = true → ∀ t, g (s.put v t) = f (s.put v t))
    (hL : ∀ v, s.isVar v = true → lastOf M v 0 = lastOf L v 0) : RowOK s g M := by
  intro v hv
  rw [hL v hv]
  have : (fun t => g (s.put v t)) = fun t => f (s.put v t) := funext (h v hv)
  rw [this]
  exact hf v hv

theorem RowOK.val (s : EqState ℝ) (a : Var) : RowOK s (fun s => s.val a) [(a, 1)] := by
  intro v _
  by_cases h : a = v
  · subst h
    simpa [lastOf, EqState.put] using hasDerivAt_id' (s.val a)
  · have : (fun t => (s.put v t).val a) = fun _ => s.val a := by
      funext t; simp [EqState.put, Function.update_of_ne h]
    simp only [lastOf, List.foldl_cons, List.foldl_nil, h, if_false]
    rw [this]
    exact hasDerivAt_const _ _

theorem put_val_self (s : EqState ℝ) (v : Var) (t : ℝ) : (s.put v t).val v = t := by
  simp [EqState.put]

theorem put_val_ne (s : EqState ℝ) (a v : Var) (t : ℝ) (h : a ≠ v) :
    (s.put v t).val a = s.val a := by
  simp [EqState.put, Function.update_of_ne h]

theorem RowOK.mul (s : EqState ℝ) (a b : Var) (hab : a ≠ b) :
    RowOK s (fun s => s.val a * s.val b) [(a, s.val b), (b, s.val a)] := by
  intro v _
  by_cases ha : a = v
  · subst ha
    have : (fun t => (s.put a t).val a * (s.put a t).val b) = fun t => t * s.val b := by
      funext t; rw [put_val_self, put_val_ne _ _ _ _ hab.symm]
    rw [this]
    simpa [lastOf, hab.symm] using (hasDerivAt_id' (s.val a)).mul_const (s.val b)
  · by_cases hb : b = v
    · subst hb
      have : (fun t => (s.put b t).val a * (s.put b t).val b) = fun t => s.val a * t := by
        funext t; rw [put_val_self, put_val_ne _ _ _ _ hab]
      rw [this]
      simpa [lastOf, ha] using (hasDerivAt_id' (s.val b)).const_mul (s.val a)
    · have : (fun t => (s.put v t).val a * (s.put v t).val b) = fun _ => s.val a * s.val b := by
        funext t; rw [put_val_ne _ _ _ _ ha, put_val_ne _ _ _ _ hb]
      rw [this]
      simpa [lastOf, ha, hb] using hasDerivAt_const (s.val v) (s.val a * s.val b)

/-- sums over lists with disjoint variables -/
theorem RowOK.sum {α : Type} {s : EqState ℝ} (l : List α) (f : α → EqState ℝ → ℝ)
    (L : α → List (Var × ℝ)) (h : ∀ a ∈ l, RowOK s (f a) (L a))
    (hd : l.Pairwise (fun a b => Disj (L a) (L b))) :
    RowOK s (fun s => (l.map (fun a => f a s)).sum) (l.flatMap L) := by
  induction l with
  | nil => simpa using RowOK.const s 0
  | cons a l ih =>
    rw [List.pairwise_cons] at hd
    have h1 := h a (by simp)
    have h2 := ih (fun b hb => h b (by simp [hb])) hd.2
    have hdis : Disj (L a) (l.flatMap L) := by
      intro v hv hv'
      obtain ⟨e, he, rfl⟩ := List.mem_map.mp hv'
      obtain ⟨b, hb, heb⟩ := List.mem_flatMap.mp he
      exact hd.1 b hb _ hv (List.mem_map.mpr ⟨e, heb, rfl⟩)
    simpa [List.flatMap_cons] using h1.add h2 hdis

/-- From rows to the Jacobian of a list of residuals. -/
theorem isJacobian_of_rows (s : EqState ℝ) (hc : Spec.ColsInjective s) (r : EqState ℝ → List ℝ)
    (w : EqState ℝ → ℕ → Writes ℝ) (Ls : List (List (Var × ℝ))) (fs : List (EqState ℝ → ℝ))
    (hlen : fs.length = Ls.length) (hr : ∀ v t, r (s.put v t) = fs.map (fun f => f (s.put v t)))
    (hrs : (r s).length = fs.length) (hw : ∀ k, w s k = rowsW s k Ls)
    (hrow : ∀ (j : ℕ) f L, fs[j]? = some f → Ls[j]? = some L → RowOK s f L) :
    Spec.IsJacobian r w s := by
  intro k
  rw [hw k]
  constructor
  · intro e he
    have := rowsW_mem s k Ls e he
    rw [hrs, hlen]
    exact this
  · intro j hj v hv
    rw [hrs] at hj
    have hj' : j < Ls.length := hlen ▸ hj
    have h1 : fs[j]? = some fs[j] := List.getElem?_eq_getElem hj
    have h2 : Ls[j]? = some Ls[j] := List.getElem?_eq_getElem hj'
    have := hrow j _ _ h1 h2 v hv
    have he : entry (rowsW s k Ls) (k + j) (s.col v) = lastOf Ls[j] v 0 :=
      entryFrom_rowsW s hc k Ls j _ h2 v hv 0
    rw [he]
    refine this.congr_of_eventuallyEq (Filter.Eventually.of_forall fun t => ?_)
    simp only [hr v t, List.getD_eq_getElem?_getD, List.getElem?_map, h1, Option.map_some,
      Option.getD_some]

/-- one residual -/
theorem isJacobian_of_row (s : EqState ℝ) (hc : Spec.ColsInjective s) (f : EqState ℝ → ℝ)
    (w : EqState ℝ → ℕ → Writes ℝ) (L : List (Var × ℝ)) (hw : ∀ k, w s k = wrs s k L)
    (h : RowOK s f L) : Spec.IsJacobian (fun s => [f s]) w s := by
  refine isJacobian_of_rows s hc _ w [L] [f] rfl (fun _ _ => rfl) rfl (fun k => ?_) ?_
  · simp [rowsW, hw k]
  · intro j f' L' h1 h2
    cases j with
    | zero =>
      simp only [List.getElem?_cons_zero, Option.some.injEq] at h1 h2
      subst h1; subst h2; exact h
    | succ j => simp at h1

end Tespy
