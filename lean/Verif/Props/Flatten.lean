import Mathlib.Data.List.Lex
import Mathlib.Order.RelClasses
import Verif.Lemmas.Branches
/-
C16: `get_all_subdictionaries`.
-/
namespace Tespy

/-- Content of the branch at an address: position in the outer dictionary, position among
its subbranches, and so on. -/
def contentAt : List (String × Branch) → List ℕ → Option (List ConnObj × List CompObj)
  | _, [] => none
  | d, [k] => d[k]?.map (fun e => (e.2.conns, e.2.comps))
  | d, k :: r :: rest => d[k]?.bind (fun e => contentAt e.2.subs (r :: rest))

theorem contentAt_succ (e : String × Branch) (d : List (String × Branch)) (k : ℕ) (r : List ℕ) :
    contentAt (e :: d) ((k + 1) :: r) = contentAt d (k :: r) := by
  cases r <;> simp [contentAt]

theorem contentAt_zero (e : String × Branch) (d : List (String × Branch)) (r : List ℕ) (hr : r ≠ []) :
    contentAt (e :: d) (0 :: r) = contentAt e.2.subs r := by
  cases r with
  | nil => exact absurd rfl hr
  | cons a r => simp [contentAt]

/-- next position in the outer dictionary -/
def shiftHead : List ℕ → List ℕ
  | [] => []
  | k :: r => (k + 1) :: r

theorem shiftHead_lt {p q : List ℕ} (h : p < q) (hp : p ≠ []) : shiftHead p < shiftHead q := by
  cases p with
  | nil => exact absurd rfl hp
  | cons a p =>
    cases q with
    | nil => exact absurd h (List.not_lt_nil _)
    | cons b q =>
      simp only [shiftHead]
      rw [List.cons_lt_cons_iff] at h ⊢
      rcases h with h | ⟨h, h'⟩
      · exact Or.inl (by omega)
      · exact Or.inr ⟨by omega, h'⟩

/-- C16: the flattened list contains the connections and components of the branch at
every address of the branch tree exactly once, ordered by address, i.e. in preorder (a
branch comes before its subbranches, which come before the following branches). -/
theorem C16_flatten_preorder (d : List (String × Branch)) :
    ∃ addresses : List (List ℕ), addresses.Pairwise (· < ·) ∧
      (∀ p, p ∈ addresses ↔ (contentAt d p).isSome) ∧
      addresses.map (contentAt d) = (flatAll d).map some := by
  induction hn : sizeOf d using Nat.strong_induction_on generalizing d with
  | _ n ih =>
  match d, hn with
  | [], _ =>
    refine ⟨[], List.Pairwise.nil, ?_, by simp [flatAll]⟩
    intro p
    match p with
    | [] => simp [contentAt]
    | [k] => simp [contentAt]
    | k :: r :: rest => simp [contentAt]
  | (l, .mk cs ps ss) :: bs, hn =>
    obtain ⟨P1, a1, b1, c1⟩ := ih (sizeOf ss) (by rw [← hn]; simp; omega) ss rfl
    obtain ⟨P2, a2, b2, c2⟩ := ih (sizeOf bs) (by rw [← hn]; simp) bs rfl
    have ne1 : ∀ p ∈ P1, p ≠ [] := by
      rintro p hp rfl; have := (b1 _).mp hp; simp [contentAt] at this
    have ne2 : ∀ p ∈ P2, p ≠ [] := by
      rintro p hp rfl; have := (b2 _).mp hp; simp [contentAt] at this
    refine ⟨[0] :: (P1.map (0 :: ·) ++ P2.map shiftHead), ?_, ?_, ?_⟩
    · rw [List.pairwise_cons, List.pairwise_append]
      refine ⟨?_, ?_, ?_, ?_⟩
      · intro p hp
        rcases List.mem_append.mp hp with hp | hp
        · obtain ⟨q, hq, rfl⟩ := List.mem_map.mp hp
          rw [List.cons_lt_cons_iff]
          right
          refine ⟨rfl, ?_⟩
          cases q with
          | nil => exact absurd rfl (ne1 _ hq)
          | cons a q => exact List.nil_lt_cons _ _
        · obtain ⟨q, hq, rfl⟩ := List.mem_map.mp hp
          cases q with
          | nil => exact absurd rfl (ne2 _ hq)
          | cons a q => simp only [shiftHead]; rw [List.cons_lt_cons_iff]; left; omega
      · rw [List.pairwise_map]
        exact a1.imp (fun h => by rw [List.cons_lt_cons_iff]; exact Or.inr ⟨rfl, h⟩)
      · rw [List.pairwise_map]
        exact a2.imp_of_mem (fun {p q} hp _ h => shiftHead_lt h (ne2 p hp))
      · intro p hp q hq
        obtain ⟨p', _, rfl⟩ := List.mem_map.mp hp
        obtain ⟨q', hq', rfl⟩ := List.mem_map.mp hq
        cases q' with
        | nil => exact absurd rfl (ne2 _ hq')
        | cons a q => simp only [shiftHead]; rw [List.cons_lt_cons_iff]; left; omega
    · intro p
      rw [List.mem_cons, List.mem_append, List.mem_map, List.mem_map]
      match p with
      | [] =>
        simp only [contentAt, Option.isSome_none, Bool.false_eq_true, iff_false]
        rintro (h | ⟨q, _, h⟩ | ⟨q, hq, h⟩)
        · simp at h
        · simp at h
        · cases q with
          | nil => exact absurd rfl (ne2 _ hq)
          | cons a q => simp [shiftHead] at h
      | 0 :: r =>
        by_cases hr : r = []
        · subst hr; simp [contentAt]
        · rw [contentAt_zero _ _ _ hr]
          show _ ↔ (contentAt ss r).isSome
          rw [← b1 r]
          constructor
          · rintro (h | ⟨q, hq, h⟩ | ⟨q, hq, h⟩)
            · simp at h; exact absurd h hr
            · simp at h; exact h ▸ hq
            · cases q with
              | nil => exact absurd rfl (ne2 _ hq)
              | cons a q => simp [shiftHead] at h
          · intro h; exact Or.inr (Or.inl ⟨r, h, rfl⟩)
      | (k + 1) :: r =>
        rw [contentAt_succ, ← b2 (k :: r)]
        constructor
        · rintro (h | ⟨q, hq, h⟩ | ⟨q, hq, h⟩)
          · simp at h
          · simp at h
          · cases q with
            | nil => exact absurd rfl (ne2 _ hq)
            | cons a q => simp [shiftHead] at h; obtain ⟨rfl, rfl⟩ := h; exact hq
        · intro h; exact Or.inr (Or.inr ⟨k :: r, h, rfl⟩)
    · have f1 : flatAll ((l, Branch.mk cs ps ss) :: bs) = (cs, ps) :: (flatAll ss ++ flatAll bs) := by
        rw [flatAll, flat_mk]; rfl
      rw [f1, List.map_cons, List.map_append, List.map_cons, List.map_append, ← c1, ← c2]
      congr 1
      rw [List.map_map, List.map_map]
      congr 1
      · apply List.map_congr_left
        intro p hp
        exact contentAt_zero _ _ _ (ne1 p hp)
      · apply List.map_congr_left
        intro p hp
        cases p with
        | nil => exact absurd rfl (ne2 _ hp)
        | cons a q => exact contentAt_succ _ _ _ _

-- a forest with two levels of subbranches
example : ∃ d : List (String × Branch), (flatAll d).map (fun e => e.1.map ConnObj.label)
      = [["1"], ["2"], ["1", "2"], ["2", "1"]] ∧
    contentAt d [0, 0, 0] = some ([exC1, exC2], []) :=
  ⟨[("a", .mk [exC1] [] [("b", .mk [exC2] [] [("c", .mk [exC1, exC2] [] [])])]),
    ("d", .mk [exC2, exC1] [] [])], by decide +kernel, by decide +kernel⟩

end Tespy
