import Mathlib.Algebra.Order.Field.Basic
import Mathlib.Data.List.Pairwise
import Mathlib.Tactic.Linarith
import Mathlib.Tactic.FieldSimp
import Verif.Model.Characteristics
namespace Tespy
variable {K : Type _} [Field K] [LinearOrder K]

theorem searchsorted_le (a : List K) (v : K) : searchsorted a v ≤ a.length := by
  unfold searchsorted; exact (List.takeWhile_prefix _).length_le

theorem lt_searchsorted_iff (a : List K) (v : K) (hs : a.Pairwise (· ≤ ·)) (k : ℕ)
    (hk : k < a.length) : k < searchsorted a v ↔ a[k] < v := by
  induction a generalizing k with
  | nil => simp at hk
  | cons b a ih =>
    rw [List.pairwise_cons] at hs
    unfold searchsorted
    by_cases hb : b < v
    · rw [List.takeWhile_cons_of_pos (by simpa using hb)]
      cases k with
      | zero => simp [hb]
      | succ k =>
        have := ih hs.2 k (by simpa using hk)
        simpa [searchsorted] using this
    · rw [List.takeWhile_cons_of_neg (by simpa using hb)]
      simp only [List.length_nil, not_lt_zero', false_iff, not_lt]
      cases k with
      | zero => simpa using hb
      | succ k =>
        simp only [List.getElem_cons_succ]
        exact le_trans (not_lt.mp hb) (hs.1 _ (List.getElem_mem _))

theorem pyGet_nat {α : Type _} (l : List α) (k : ℕ) (hk : k < l.length) :
    pyGet l (k : Int) = .ok l[k] := by
  simp [pyGet, hk]

theorem pyGet_pred {α : Type _} (l : List α) (k : ℕ) (h0 : 0 < k) (hk : k ≤ l.length) :
    pyGet l ((k : Int) - 1) = .ok (l[k-1]'(by omega)) := by
  have : ((k : Int) - 1) = ((k - 1 : ℕ) : Int) := by omega
  rw [this, pyGet_nat]

theorem pyGet_neg {α : Type _} (l : List α) (k : ℕ) (h0 : 0 < k) (hk : k ≤ l.length) :
    pyGet l (-(k : Int)) = .ok (l[l.length - k]'(by omega)) := by
  have h1 : ¬ (0 : Int) ≤ -(k : Int) := by omega
  have h2 : -(l.length : Int) ≤ -(k:Int) := by omega
  have h3 : ((l.length : Int) + -(k : Int)).toNat = l.length - k := by omega
  have h4 : l.length - k < l.length := by omega
  rw [pyGet, if_neg h1, if_pos h2, h3]; simp [h4]

theorem pyGet_zero {α : Type _} (l : List α) (h : 0 < l.length) : pyGet l 0 = .ok l[0] := by
  have := pyGet_nat l 0 h; simpa using this

theorem pyGet_neg_one {α : Type _} (l : List α) (h : 0 < l.length) :
    pyGet l (-1) = .ok (l[l.length - 1]'(by omega)) := by
  have := pyGet_neg l 1 (by omega) (by omega); simpa using this

end Tespy
