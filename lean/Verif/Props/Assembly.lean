import Mathlib.Tactic.Ring
import Mathlib.Algebra.Order.Ring.Rat
import Mathlib.Algebra.Field.Rat
import Verif.Model.Assembly
import Verif.Lemmas.DictLemmas
import Verif.Props.Bus
/-
C77: in every iteration every equation has its own row in the linear equation system, which
contains the residual and the derivatives of this equation.
-/
namespace Tespy
set_option linter.unusedSectionVars false
variable {X K : Type} [Field K] [LinearOrder K] [IsStrictOrderedRing K]

/-! ### specification -/

namespace Spec

/-- `v` is the value assigned last to the key `k` by the assignments `ws`. -/
def LastWrite {κ β : Type} (ws : List (κ × β)) (k : κ) (v : β) : Prop :=
  ∃ before after, ws = before ++ (k, v) :: after ∧ ∀ e ∈ after, e.1 ≠ k

/-- The key `k` is not assigned by `ws`. -/
def NeverWritten {κ β : Type} (ws : List (κ × β)) (k : κ) : Prop := ∀ e ∈ ws, e.1 ≠ k

/-- The row `row` of the system contains equation `j` of the source `o` after evaluations at
`xs` and, last, at `x`: the residual is that at `x`, every derivative is the one which has been
assigned last in the calculation, and zero if none has been assigned. -/
def RowOf (s : EqSystem K) (row : ℕ) (o : EqSource X K) (xs : List X) (x : X) (j : ℕ) : Prop :=
  ∃ (evals : List (List K × List ((ℕ × ℕ) × K))) (e : List K × List ((ℕ × ℕ) × K)),
    List.Forall₂ (fun y r => o.eval y = .ok r) xs evals ∧ o.eval x = .ok e ∧
    e.1[j]? = some (s.res row) ∧
    ∀ c, (∀ v, LastWrite (o.const ++ evals.flatMap (·.2) ++ e.2) (j, c) v → s.jac row c = v) ∧
      (NeverWritten (o.const ++ evals.flatMap (·.2) ++ e.2) (j, c) → s.jac row c = 0)

/-- The row `row` of the system contains the equation of the bus `b` at `x`: the entry of a
column is minus the sum of the derivatives of this column. -/
def BusRowOf (s : EqSystem K) (row : ℕ) (b : BusSource X K) (x : X) : Prop :=
  ∃ e : K × List (ℕ × K), b.eval x = .ok e ∧ s.res row = e.1 ∧
    ∀ c, s.jac row c = -((e.2.filter (fun d => d.1 = c)).map Prod.snd).sum

end Spec

/-! ### dictionaries -/

section dicts
variable {κ β : Type} [DecidableEq κ]

theorem dictWrites_append (d : Dict κ β) (a b : List (κ × β)) :
    dictWrites d (a ++ b) = dictWrites (dictWrites d a) b := by
  simp [dictWrites]

theorem dictWrites_get?_never (d : Dict κ β) (ws : List (κ × β)) (k : κ)
    (h : ∀ e ∈ ws, e.1 ≠ k) : (dictWrites d ws).get? k = d.get? k := by
  induction ws generalizing d with
  | nil => rfl
  | cons e ws ih =>
    change (dictWrites (d.set e.1 e.2) ws).get? k = _
    rw [ih _ (fun e he => h e (by simp [he])), Dict.get?_set]
    rw [if_neg (Ne.symm (h e (by simp)))]

theorem dictWrites_get?_last (d : Dict κ β) (ws : List (κ × β)) (k : κ) (v : β)
    (h : Spec.LastWrite ws k v) : (dictWrites d ws).get? k = some v := by
  obtain ⟨a, b, rfl, hb⟩ := h
  rw [dictWrites_append]
  change (dictWrites (Dict.set _ k v) b).get? k = _
  rw [dictWrites_get?_never _ _ _ hb, Dict.get?_set]
  simp

theorem dictWrites_isSome (d : Dict κ β) (ws : List (κ × β)) (k : κ)
    (h : (d.get? k).isSome) : ((dictWrites d ws).get? k).isSome := by
  induction ws generalizing d with
  | nil => exact h
  | cons e ws ih =>
    change ((dictWrites (d.set e.1 e.2) ws).get? k).isSome
    apply ih
    rw [Dict.get?_set]
    split
    · rfl
    · exact h

theorem dictWrites_keys (d : Dict κ β) (ws : List (κ × β)) (k : κ)
    (h : k ∈ (dictWrites d ws).keys) : k ∈ d.keys ∨ ∃ e ∈ ws, e.1 = k := by
  by_contra hn
  push Not at hn
  rw [← Dict.get?_isSome_iff, dictWrites_get?_never _ _ _ hn.2, Dict.get?_isSome_iff] at h
  exact hn.1 h

theorem dictWrites_ne_nil (d : Dict κ β) (ws : List (κ × β)) (h : d ≠ [] ∨ ws ≠ []) :
    dictWrites d ws ≠ [] := by
  intro hn
  rcases h with h | h
  · obtain ⟨e, d', rfl⟩ := List.exists_cons_of_ne_nil h
    have : ((dictWrites (e :: d') ws).get? e.1).isSome :=
      dictWrites_isSome _ _ _ (by simp [Dict.get?])
    rw [hn] at this
    simp at this
  · obtain ⟨e, ws', rfl⟩ := List.exists_cons_of_ne_nil h
    have : ((dictWrites (d.set e.1 e.2) ws').get? e.1).isSome :=
      dictWrites_isSome _ _ _ (by rw [Dict.get?_set]; simp)
    change dictWrites (d.set e.1 e.2) ws' = [] at hn
    rw [hn] at this
    simp at this

end dicts

/-! ### blocks of rows -/

/-- `P` holds for every object with its first row and its dictionary. -/
def Blk {O D : Type} (num : O → ℕ) (P : ℕ → O → D → Prop) : ℕ → List O → List D → Prop
  | _, [], [] => True
  | r, o :: os, d :: ds => P r o d ∧ Blk num P (r + num o) os ds
  | _, _, _ => False

theorem Blk.imp {O D : Type} {num : O → ℕ} {P Q : ℕ → O → D → Prop} (lo hi : ℕ) :
    ∀ (r : ℕ) (os : List O) (ds : List D), lo ≤ r → r + (os.map num).sum ≤ hi →
      (∀ r o d, o ∈ os → lo ≤ r → r + num o ≤ hi → P r o d → Q r o d) →
      Blk num P r os ds → Blk num Q r os ds
  | _, [], [], _, _, _, _ => trivial
  | r, o :: os, d :: ds, hl, hh, h, hb => by
    simp only [List.map_cons, List.sum_cons] at hh
    refine ⟨h r o d (by simp) hl (by omega) hb.1, ?_⟩
    exact Blk.imp lo hi _ os ds (by omega) (by omega)
      (fun r o d ho => h r o d (by simp [ho])) hb.2

theorem Blk.get {O D : Type} {num : O → ℕ} {P : ℕ → O → D → Prop} :
    ∀ (r : ℕ) (os : List O) (ds : List D), Blk num P r os ds → ∀ i o, os[i]? = some o →
      ∃ d, P (r + ((os.take i).map num).sum) o d
  | _, [], [], _, i, o, h => by simp at h
  | r, o :: os, d :: ds, hb, 0, o', h => by
    simp at h; subst h; exact ⟨d, by simpa using hb.1⟩
  | r, o :: os, d :: ds, hb, i + 1, o', h => by
    obtain ⟨d', h'⟩ := Blk.get _ os ds hb.2 i o' (by simpa using h)
    refine ⟨d', ?_⟩
    simp only [List.take_succ_cons, List.map_cons, List.sum_cons]
    rwa [← Nat.add_assoc]

/-- Rows of an object after the evaluations at `hist`. -/
def RowsInv (s : EqSystem K) (hist : List X) (r : ℕ) (o : EqSource X K) (d : Dict (ℕ × ℕ) K) :
    Prop :=
  (∃ evals : List (List K × List ((ℕ × ℕ) × K)),
    List.Forall₂ (fun y e => o.eval y = .ok e) hist evals ∧
    d = dictWrites [] (o.const ++ evals.flatMap (·.2)) ∧
    (∀ e, evals.getLast? = some e → e.1.length = o.numEq ∧
      ∀ j, j < o.numEq → e.1[j]? = some (s.res (r + j)))) ∧
  (∀ j, j < o.numEq → ∀ c, d.get? (j, c) = none → s.jac (r + j) c = 0) ∧
  (hist ≠ [] → (o.numEq = 0 ∨ d ≠ []) ∧
    ∀ j, j < o.numEq → ∀ c v, d.get? (j, c) = some v → s.jac (r + j) c = v)

/-- The objects only write to their own rows. -/
def OwnRows (o : EqSource X K) : Prop :=
  (∀ w ∈ o.const, w.1.1 < o.numEq) ∧
    ∀ x e, o.eval x = .ok e → ∀ w ∈ e.2, w.1.1 < o.numEq

theorem RowsInv.congr {s s' : EqSystem K} {hist : List X} {r : ℕ} {o : EqSource X K}
    {d : Dict (ℕ × ℕ) K} (hres : ∀ i, r ≤ i → i < r + o.numEq → s'.res i = s.res i)
    (hjac : ∀ i, r ≤ i → i < r + o.numEq → s'.jac i = s.jac i)
    (h : RowsInv s hist r o d) : RowsInv s' hist r o d := by
  obtain ⟨⟨evals, h1, h2, h3⟩, h4, h5⟩ := h
  refine ⟨⟨evals, h1, h2, fun e he => ⟨(h3 e he).1, fun j hj => ?_⟩⟩, fun j hj c => ?_,
    fun hh => ⟨(h5 hh).1, fun j hj c => ?_⟩⟩
  · rw [hres _ (by omega) (by omega)]; exact (h3 e he).2 j hj
  · rw [hjac _ (by omega) (by omega)]; exact h4 j hj c
  · rw [hjac _ (by omega) (by omega)]; exact (h5 hh).2 j hj c

theorem forall₂_source {o : EqSource X K} {hist : List X}
    {evals : List (List K × List ((ℕ × ℕ) × K))}
    (h : List.Forall₂ (fun y e => o.eval y = .ok e) hist evals) :
    ∀ e ∈ evals, ∃ y, o.eval y = .ok e := by
  induction h with
  | nil => simp
  | cons h _ ih =>
    intro e he
    rcases List.mem_cons.mp he with rfl | he
    · exact ⟨_, h⟩
    · exact ih e he

theorem ownRows_keys {o : EqSource X K} (ho : OwnRows o) {hist : List X}
    {evals : List (List K × List ((ℕ × ℕ) × K))}
    (h : List.Forall₂ (fun y e => o.eval y = .ok e) hist evals) :
    ∀ w ∈ o.const ++ evals.flatMap (·.2), w.1.1 < o.numEq := by
  intro w hw
  rcases List.mem_append.mp hw with hw | hw
  · exact ho.1 w hw
  · obtain ⟨e, he, hwe⟩ := List.mem_flatMap.mp hw
    obtain ⟨y, hy⟩ := forall₂_source h e he
    exact ho.2 y e hy w hwe

theorem solveSources_inv (n : ℕ) (x : X) (hist : List X) :
    ∀ (r : ℕ) (os : List (EqSource X K)) (ds : List (Dict (ℕ × ℕ) K)) (s : EqSystem K)
      (out : List (Dict (ℕ × ℕ) K) × EqSystem K),
      (∀ o ∈ os, OwnRows o) →
      (hist = [] → ∀ o ∈ os, o.numEq = 0 ∨ o.const ≠ [] ∨ ∀ e, o.eval x = .ok e → e.2 ≠ []) →
      Blk EqSource.numEq (RowsInv s hist) r os ds →
      solveSources n x r (os.zip ds) s = .ok out →
      Blk EqSource.numEq (RowsInv out.2 (hist ++ [x])) r os out.1 ∧
      ∀ i, i < r ∨ r + (os.map EqSource.numEq).sum ≤ i →
        out.2.res i = s.res i ∧ out.2.jac i = s.jac i := by
  intro r os
  induction os generalizing r with
  | nil =>
    intro ds s out _ _ hb h
    cases ds with
    | nil =>
      simp only [List.zip_nil_right, solveSources] at h
      cases h
      exact ⟨trivial, fun i _ => ⟨rfl, rfl⟩⟩
    | cons => exact hb.elim
  | cons o os ih =>
    intro ds s out ho hf hb h
    cases ds with
    | nil => exact hb.elim
    | cons d ds =>
      obtain ⟨⟨⟨evals, hev, hd, hlast⟩, hjac, hne⟩, hrest⟩ := hb
      rw [List.zip_cons_cons] at h
      unfold solveSources at h
      cases he : o.eval x with
      | error e => rw [he] at h; cases h
      | ok e =>
        rw [he] at h
        simp only at h
        by_cases hlen : e.1.length = o.numEq
        swap
        · rw [if_neg hlen] at h; cases h
        rw [if_pos hlen] at h
        have hev' : List.Forall₂ (fun y e => o.eval y = .ok e) (hist ++ [x]) (evals ++ [e]) :=
          List.rel_append hev (List.Forall₂.cons he List.Forall₂.nil)
        have hd' : dictWrites d e.2
            = dictWrites [] (o.const ++ (evals ++ [e]).flatMap (·.2)) := by
          rw [hd, ← dictWrites_append]; simp
        have hkeys : ∀ k ∈ (dictWrites d e.2).keys, k.1 < o.numEq := by
          intro k hk
          rw [hd'] at hk
          rcases dictWrites_keys _ _ _ hk with hk | ⟨w, hw, rfl⟩
          · simp [Dict.keys] at hk
          · exact ownRows_keys (ho o (by simp)) hev' w hw
        have hnonempty : o.numEq = 0 ∨ dictWrites d e.2 ≠ [] := by
          by_cases hh : hist = []
          · rcases hf hh o (by simp) with h0 | h0 | h0
            · exact Or.inl h0
            · refine Or.inr ?_
              rw [hd']
              exact dictWrites_ne_nil _ _ (Or.inr (by simp [h0]))
            · exact Or.inr (dictWrites_ne_nil _ _ (Or.inr (h0 e he)))
          · rcases (hne hh).1 with h0 | h0
            · exact Or.inl h0
            · exact Or.inr (dictWrites_ne_nil _ _ (Or.inl h0))
        -- the system after this object, in both branches
        have key : ∀ s1 : EqSystem K,
            (∀ i, s1.res i = (s.setRes r e.1).res i) →
            (∀ i c, s1.jac i c = ((s.setRes r e.1).setJac r (dictWrites d e.2)).jac i c) →
            ∀ out1 : List (Dict (ℕ × ℕ) K) × EqSystem K,
            solveSources n x (r + o.numEq) (os.zip ds) s1 = .ok out1 →
            Blk EqSource.numEq (RowsInv out1.2 (hist ++ [x])) r (o :: os)
              (dictWrites d e.2 :: out1.1) ∧
            ∀ i, i < r ∨ r + ((o :: os).map EqSource.numEq).sum ≤ i →
              out1.2.res i = s.res i ∧ out1.2.jac i = s.jac i := by
          intro s1 hs1 hs2 out1 hout
          have hfr : ∀ i, i < r ∨ r + o.numEq ≤ i → s1.res i = s.res i ∧ s1.jac i = s.jac i := by
            intro i hi
            constructor
            · rw [hs1]
              simp only [EqSystem.setRes]
              by_cases hri : r ≤ i
              · rw [if_pos hri, List.getElem?_eq_none (by omega)]; rfl
              · rw [if_neg hri]
            · funext c
              rw [hs2]
              simp only [EqSystem.setRes, EqSystem.setJac]
              by_cases hri : r ≤ i
              · rw [if_pos hri]
                have : (dictWrites d e.2).get? (i - r, c) = none := by
                  rw [Dict.get?_eq_none_iff]
                  intro hk
                  have := hkeys _ hk
                  simp only at this
                  omega
                rw [this]; rfl
              · rw [if_neg hri]
          have hrest' : Blk EqSource.numEq (RowsInv s1 hist) (r + o.numEq) os ds := by
            refine Blk.imp (r + o.numEq) (r + o.numEq + (os.map EqSource.numEq).sum) _ os ds
              le_rfl le_rfl ?_ hrest
            intro r' o' d' _ h1 _ hR
            exact hR.congr (fun i hi _ => (hfr i (by omega)).1) (fun i hi _ => (hfr i (by omega)).2)
          obtain ⟨hB, hF⟩ := ih (r + o.numEq) ds s1 out1 (fun o' h => ho o' (by simp [h]))
            (fun hh o' h => hf hh o' (by simp [h])) hrest' hout
          constructor
          · refine ⟨⟨⟨evals ++ [e], hev', hd', ?_⟩, ?_, fun _ => ⟨hnonempty, ?_⟩⟩, hB⟩
            · intro e' he'
              simp only [List.getLast?_concat, Option.some.injEq] at he'
              subst he'
              refine ⟨hlen, fun j hj => ?_⟩
              rw [(hF _ (by omega)).1, hs1]
              simp only [EqSystem.setRes]
              rw [if_pos (by omega), Nat.add_sub_cancel_left]
              rw [List.getElem?_eq_getElem (by omega)]; rfl
            · intro j hj c hg
              rw [(hF _ (by omega)).2, hs2]
              simp only [EqSystem.setRes, EqSystem.setJac]
              rw [if_pos (by omega), Nat.add_sub_cancel_left, hg]
              refine hjac j hj c ?_
              cases hg' : d.get? (j, c) with
              | none => rfl
              | some v =>
                have := dictWrites_isSome d e.2 (j, c) (by rw [hg']; rfl)
                rw [hg] at this; cases this
            · intro j hj c v hg
              rw [(hF _ (by omega)).2, hs2]
              simp only [EqSystem.setRes, EqSystem.setJac]
              rw [if_pos (by omega), Nat.add_sub_cancel_left, hg]
              rfl
          · intro i hi
            simp only [List.map_cons, List.sum_cons] at hi
            obtain ⟨h1, h2⟩ := hF i (by omega)
            obtain ⟨h3, h4⟩ := hfr i (by omega)
            exact ⟨h1.trans h3, h2.trans h4⟩
        by_cases hnil : dictWrites d e.2 = []
        · rw [if_pos hnil] at h
          have h0 : o.numEq = 0 := by
            rcases hnonempty with h0 | h0
            · exact h0
            · exact absurd hnil h0
          cases hs : solveSources n x r (os.zip ds) (s.setRes r e.1) with
          | error e' => rw [hs] at h; cases h
          | ok out1 =>
            rw [hs] at h
            cases h
            have := key (s.setRes r e.1) (fun i => rfl) (fun i c => by
              simp only [EqSystem.setJac, hnil, Dict.get?_nil, Option.getD_none, ite_self])
              out1 (by rw [h0, Nat.add_zero]; exact hs)
            rw [hnil] at this
            exact this
        · rw [if_neg hnil] at h
          by_cases hidx : ∀ w ∈ dictWrites d e.2, r + w.1.1 < n ∧ w.1.2 < n
          swap
          · rw [if_neg hidx] at h; cases h
          rw [if_pos hidx] at h
          cases hs : solveSources n x (r + o.numEq) (os.zip ds)
              ((s.setRes r e.1).setJac r (dictWrites d e.2)) with
          | error e' => rw [hs] at h; cases h
          | ok out1 =>
            rw [hs] at h
            cases h
            exact key ((s.setRes r e.1).setJac r (dictWrites d e.2)) (fun i => rfl)
              (fun i c => rfl) out1 hs

/-! ### rows of the busses -/

/-- Number of rows of a bus. -/
def BusSource.rows (b : BusSource X K) : ℕ := if b.isSet then 1 else 0

/-- Row of a bus after the evaluations at `hist`. -/
def BusInv (s : EqSystem K) (hist : List X) (r : ℕ) (b : BusSource X K) (d : Dict ℕ K) : Prop :=
  (∀ e ∈ d, e.2 = 0) ∧
  (b.isSet = true → (∀ c, c ∉ d.keys → s.jac r c = 0) ∧
    ∀ x, hist.getLast? = some x → Spec.BusRowOf s r b x)

theorem BusInv.congr {s s' : EqSystem K} {hist : List X} {r : ℕ} {b : BusSource X K}
    {d : Dict ℕ K} (hres : b.isSet = true → s'.res r = s.res r)
    (hjac : b.isSet = true → s'.jac r = s.jac r)
    (h : BusInv s hist r b d) : BusInv s' hist r b d := by
  refine ⟨h.1, fun hb => ?_⟩
  obtain ⟨h1, h2⟩ := h.2 hb
  refine ⟨fun c hc => by rw [hjac hb]; exact h1 c hc, fun x hx => ?_⟩
  obtain ⟨e, he, h3, h4⟩ := h2 x hx
  exact ⟨e, he, by rw [hres hb]; exact h3, fun c => by rw [hjac hb]; exact h4 c⟩

theorem solveBusSources_inv (n : ℕ) (x : X) (hist : List X) :
    ∀ (r : ℕ) (bs : List (BusSource X K)) (ds : List (Dict ℕ K)) (s : EqSystem K)
      (out : List (Dict ℕ K) × EqSystem K),
      Blk BusSource.rows (BusInv s hist) r bs ds →
      solveBusSources n x r (bs.zip ds) s = .ok out →
      Blk BusSource.rows (BusInv out.2 (hist ++ [x])) r bs out.1 ∧
      ∀ i, i < r ∨ r + (bs.map BusSource.rows).sum ≤ i →
        out.2.res i = s.res i ∧ out.2.jac i = s.jac i := by
  intro r bs
  induction bs generalizing r with
  | nil =>
    intro ds s out hb h
    cases ds with
    | nil =>
      simp only [List.zip_nil_right, solveBusSources] at h
      cases h
      exact ⟨trivial, fun i _ => ⟨rfl, rfl⟩⟩
    | cons => exact hb.elim
  | cons b bs ih =>
    intro ds s out hb h
    cases ds with
    | nil => exact hb.elim
    | cons d ds =>
      obtain ⟨⟨hz, hrow⟩, hrest⟩ := hb
      rw [List.zip_cons_cons] at h
      unfold solveBusSources at h
      by_cases hset : b.isSet = true
      · have hr1 : b.rows = 1 := by simp [BusSource.rows, hset]
        rw [if_pos hset] at h
        cases he : b.eval x with
        | error e => rw [he] at h; cases h
        | ok e =>
          rw [he] at h
          simp only at h
          by_cases hidx : ∀ w ∈ jacSubs d e.2, w.1 < n
          swap
          · rw [if_neg hidx] at h; cases h
          rw [if_pos hidx] at h
          cases hs : solveBusSources n x (r + 1) (bs.zip ds) (s.setBus r e.1 (jacSubs d e.2)) with
          | error e' => rw [hs] at h; cases h
          | ok out1 =>
            rw [hs] at h
            cases h
            have hfr : ∀ i, i ≠ r → (s.setBus r e.1 (jacSubs d e.2)).res i = s.res i ∧
                (s.setBus r e.1 (jacSubs d e.2)).jac i = s.jac i := by
              intro i hi
              simp only [EqSystem.setBus, if_neg hi]
              exact ⟨trivial, trivial⟩
            have hrest' : Blk BusSource.rows (BusInv (s.setBus r e.1 (jacSubs d e.2)) hist)
                (r + 1) bs ds := by
              rw [hr1] at hrest
              refine Blk.imp (r + 1) (r + 1 + (bs.map BusSource.rows).sum) _ bs ds le_rfl le_rfl
                ?_ hrest
              intro r' b' d' _ h1 _ hR
              exact hR.congr (fun _ => (hfr r' (by omega)).1) (fun _ => (hfr r' (by omega)).2)
            obtain ⟨hB, hF⟩ := ih (r + 1) ds _ out1 hrest' hs
            constructor
            · refine ⟨⟨?_, fun _ => ⟨?_, ?_⟩⟩, by rw [hr1]; exact hB⟩
              · intro w hw
                obtain ⟨w', _, rfl⟩ := List.mem_map.mp hw
                rfl
              · intro c hc
                rw [(hF r (by omega)).2]
                have hc' : c ∉ (jacSubs d e.2).keys := by
                  simpa [Dict.keys, Function.comp_def] using hc
                simp only [EqSystem.setBus, if_true]
                rw [(Dict.get?_eq_none_iff _ _).mpr hc']
                rw [jacSubs_keys] at hc'
                exact (hrow hset).1 c (fun h => hc' (Or.inl h))
              · intro x' hx'
                simp only [List.getLast?_concat, Option.some.injEq] at hx'
                subst hx'
                refine ⟨e, he, ?_, fun c => ?_⟩
                · rw [(hF r (by omega)).1]; simp [EqSystem.setBus]
                · rw [(hF r (by omega)).2]
                  simp only [EqSystem.setBus, if_true]
                  have hsum : Spec.rowEntry (jacSubs d e.2) c
                      = -((e.2.filter (fun d => d.1 = c)).map Prod.snd).sum := by
                    rw [rowEntry_jacSubs]
                    have : Spec.rowEntry d c = 0 := by
                      unfold Spec.rowEntry
                      cases hg : Dict.get? d c with
                      | none => rfl
                      | some v => exact hz _ (Dict.mem_of_get? hg)
                    rw [this]; ring
                  rw [← hsum]
                  unfold Spec.rowEntry
                  cases hg : Dict.get? (jacSubs d e.2) c with
                  | some v => rfl
                  | none =>
                    rw [Dict.get?_eq_none_iff, jacSubs_keys] at hg
                    exact (hrow hset).1 c (fun h => hg (Or.inl h))
            · intro i hi
              simp only [List.map_cons, List.sum_cons, hr1] at hi
              obtain ⟨h1, h2⟩ := hF i (by omega)
              obtain ⟨h3, h4⟩ := hfr i (by omega)
              exact ⟨h1.trans h3, h2.trans h4⟩
      · have hr0 : b.rows = 0 := by simp [BusSource.rows, hset]
        rw [if_neg hset] at h
        rw [hr0, Nat.add_zero] at hrest
        cases hs : solveBusSources n x r (bs.zip ds) s with
        | error e' => rw [hs] at h; cases h
        | ok out1 =>
          rw [hs] at h
          cases h
          obtain ⟨hB, hF⟩ := ih r ds s out1 hrest hs
          refine ⟨⟨⟨hz, fun h => absurd h hset⟩, by rw [hr0]; exact hB⟩, ?_⟩
          intro i hi
          simp only [List.map_cons, List.sum_cons, hr0, Nat.zero_add] at hi
          exact hF i hi

/-! ### the whole system -/

theorem sum_busRows (bs : List (BusSource X K)) :
    (bs.map BusSource.rows).sum = (bs.filter (·.isSet)).length := by
  induction bs with
  | nil => rfl
  | cons b bs ih =>
    simp only [List.map_cons, List.sum_cons, ih, BusSource.rows, List.filter_cons]
    split
    · simp; omega
    · simp

/-- All rows after the evaluations at `hist`. -/
structure SysInv (net : EqNet X K) (hist : List X) (st : AsmState K) : Prop where
  comps : Blk EqSource.numEq (RowsInv st.sys hist) 0 net.comps st.comps
  conns : Blk EqSource.numEq (RowsInv st.sys hist) net.numComp net.conns st.conns
  busses : Blk BusSource.rows (BusInv st.sys hist) (net.numComp + net.numConn) net.busses st.busses
  udes : Blk EqSource.numEq (RowsInv st.sys hist)
    (net.numComp + net.numConn + net.numBus) net.udes st.udes

theorem iterate_inv (net : EqNet X K) (n : ℕ) (x : X) (hist : List X) (st st' : AsmState K)
    (ho : ∀ o ∈ net.comps ++ net.conns ++ net.udes, OwnRows o)
    (hf : hist = [] → ∀ o ∈ net.comps ++ net.conns ++ net.udes,
      o.numEq = 0 ∨ o.const ≠ [] ∨ ∀ e, o.eval x = .ok e → e.2 ≠ [])
    (hi : SysInv net hist st) (h : net.iterate n x st = .ok st') :
    SysInv net (hist ++ [x]) st' := by
  have hnc : (net.comps.map EqSource.numEq).sum = net.numComp := rfl
  have hnk : (net.conns.map EqSource.numEq).sum = net.numConn := rfl
  have hnb : (net.busses.map BusSource.rows).sum = net.numBus := sum_busRows _
  unfold EqNet.iterate at h
  cases ha : solveSources n x 0 (net.comps.zip st.comps) st.sys with
  | error e => rw [ha] at h; cases h
  | ok a =>
  rw [ha] at h
  simp only at h
  cases hb : solveBusSources n x (net.numComp + net.numConn) (net.busses.zip st.busses) a.2 with
  | error e => rw [hb] at h; cases h
  | ok b =>
  rw [hb] at h
  simp only at h
  cases hc : solveSources n x net.numComp (net.conns.zip st.conns) b.2 with
  | error e => rw [hc] at h; cases h
  | ok c =>
  rw [hc] at h
  simp only at h
  cases hd : solveSources n x (net.numComp + net.numConn + net.numBus)
      (net.udes.zip st.udes) c.2 with
  | error e => rw [hd] at h; cases h
  | ok d =>
  rw [hd] at h
  cases h
  obtain ⟨A, FA⟩ := solveSources_inv n x hist 0 net.comps st.comps st.sys a
    (fun o h => ho o (by simp [h])) (fun hh o h => hf hh o (by simp [h])) hi.comps ha
  rw [hnc] at FA
  have FA' : ∀ i, net.numComp ≤ i → a.2.res i = st.sys.res i ∧ a.2.jac i = st.sys.jac i :=
    fun i hi => FA i (by omega)
  obtain ⟨B, FB⟩ := solveBusSources_inv n x hist (net.numComp + net.numConn) net.busses st.busses
    a.2 b (Blk.imp (net.numComp) (net.numComp + net.numConn + net.numBus) _ _ _ (by omega)
      (by omega) (fun r o d _ h1 _ hR => hR.congr (fun _ => (FA' _ h1).1) (fun _ => (FA' _ h1).2))
      hi.busses) hb
  rw [hnb] at FB
  obtain ⟨C, FC⟩ := solveSources_inv n x hist net.numComp net.conns st.conns b.2 c
    (fun o h => ho o (by simp [h])) (fun hh o h => hf hh o (by simp [h]))
    (Blk.imp (net.numComp) (net.numComp + net.numConn) _ _ _ (by omega)
      (by omega) (fun r o d _ h1 h2 hR => hR.congr
        (fun i _ _ => (FB i (by omega)).1.trans (FA' _ (by omega)).1)
        (fun i _ _ => (FB i (by omega)).2.trans (FA' _ (by omega)).2))
      hi.conns) hc
  rw [hnk] at FC
  obtain ⟨D, FD⟩ := solveSources_inv n x hist (net.numComp + net.numConn + net.numBus) net.udes
    st.udes c.2 d
    (fun o h => ho o (by simp [h])) (fun hh o h => hf hh o (by simp [h]))
    (Blk.imp (net.numComp + net.numConn + net.numBus) _ _ _ _ (by omega)
      le_rfl (fun r o d _ h1 h2 hR => hR.congr
        (fun i _ _ => (FC i (by omega)).1.trans ((FB i (by omega)).1.trans (FA' _ (by omega)).1))
        (fun i _ _ => (FC i (by omega)).2.trans ((FB i (by omega)).2.trans (FA' _ (by omega)).2)))
      hi.udes) hd
  refine ⟨?_, ?_, ?_, D⟩
  · exact Blk.imp 0 net.numComp _ _ _ (by omega) (by omega) (fun r o d' _ h1 h2 hR => hR.congr
      (fun i _ _ => (FD i (by omega)).1.trans ((FC i (by omega)).1.trans (FB i (by omega)).1))
      (fun i _ _ => (FD i (by omega)).2.trans ((FC i (by omega)).2.trans (FB i (by omega)).2))) A
  · exact Blk.imp net.numComp (net.numComp + net.numConn) _ _ _ (by omega) (by omega)
      (fun r o d' _ h1 h2 hR => hR.congr
      (fun i _ _ => (FD i (by omega)).1) (fun i _ _ => (FD i (by omega)).2)) C
  · refine Blk.imp (net.numComp + net.numConn) (net.numComp + net.numConn + net.numBus) _ _ _
      (by omega) (by omega) (fun r o d' _ h1 h2 hR => ?_) B
    have hlt : o.isSet = true → r < net.numComp + net.numConn + net.numBus := by
      intro hs
      simp only [BusSource.rows, hs, if_true] at h2
      omega
    exact hR.congr
      (fun hs => (FD r (by have := hlt hs; omega)).1.trans (FC r (by omega)).1)
      (fun hs => (FD r (by have := hlt hs; omega)).2.trans (FC r (by omega)).2)

theorem blk_map_start {P : ℕ → EqSource X K → Dict (ℕ × ℕ) K → Prop}
    (h : ∀ r o, P r o (dictWrites [] o.const)) (r : ℕ) (os : List (EqSource X K)) :
    Blk EqSource.numEq P r os (os.map (fun o => dictWrites [] o.const)) := by
  induction os generalizing r with
  | nil => trivial
  | cons o os ih => exact ⟨h r o, ih _⟩

theorem start_inv (net : EqNet X K) (busJac : List (Dict ℕ K))
    (hl : busJac.length = net.busses.length) (hz : ∀ d ∈ busJac, ∀ e ∈ d, e.2 = 0) :
    SysInv net [] (net.start busJac) := by
  have hrow : ∀ (r : ℕ) (o : EqSource X K),
      RowsInv (EqSystem.zero : EqSystem K) [] r o (dictWrites [] o.const) :=
    fun r o => ⟨⟨[], List.Forall₂.nil, by simp, by simp⟩, fun j _ c _ => rfl,
      fun h => absurd rfl h⟩
  refine ⟨blk_map_start hrow _ _, blk_map_start hrow _ _, ?_, blk_map_start hrow _ _⟩
  change Blk BusSource.rows (BusInv (EqSystem.zero : EqSystem K) []) _ net.busses busJac
  generalize net.numComp + net.numConn = r
  generalize net.busses = bs at hl
  induction bs generalizing r busJac with
  | nil =>
    cases busJac with
    | nil => trivial
    | cons => simp at hl
  | cons b bs ih =>
    cases busJac with
    | nil => simp at hl
    | cons d ds =>
      refine ⟨⟨hz d (by simp), fun _ => ⟨fun c _ => rfl, fun x hx => by simp at hx⟩⟩, ?_⟩
      exact ih ds (fun d h => hz d (by simp [h])) _ (by simpa using hl)

theorem run_inv (net : EqNet X K) (n : ℕ) (hist xs : List X) (st st' : AsmState K)
    (ho : ∀ o ∈ net.comps ++ net.conns ++ net.udes, OwnRows o)
    (hf : hist = [] → ∀ x, xs.head? = some x → ∀ o ∈ net.comps ++ net.conns ++ net.udes,
      o.numEq = 0 ∨ o.const ≠ [] ∨ ∀ e, o.eval x = .ok e → e.2 ≠ [])
    (hi : SysInv net hist st) (h : net.run n xs st = .ok st') :
    SysInv net (hist ++ xs) st' := by
  induction xs generalizing hist st with
  | nil => simp only [EqNet.run] at h; cases h; simpa using hi
  | cons x xs ih =>
    unfold EqNet.run at h
    cases hx : net.iterate n x st with
    | error e => rw [hx] at h; cases h
    | ok st1 =>
      rw [hx] at h
      have := ih (hist ++ [x]) st1 (fun hh => by simp at hh)
        (iterate_inv net n x hist st st1 ho (fun hh => hf hh x rfl) hi hx) h
      simpa using this

theorem rowsInv_rowOf {s : EqSystem K} {xs : List X} {x : X} {r : ℕ} {o : EqSource X K}
    {d : Dict (ℕ × ℕ) K} (h : RowsInv s (xs ++ [x]) r o d) (j : ℕ) (hj : j < o.numEq) :
    Spec.RowOf s (r + j) o xs x j := by
  obtain ⟨⟨evals, hev, hd, hlast⟩, hnone, hsome⟩ := h
  obtain ⟨es, e', h1, h2, rfl⟩ : ∃ es e', List.Forall₂ (fun y e => o.eval y = .ok e) xs es ∧
      o.eval x = .ok e' ∧ evals = es ++ [e'] := by
    clear hd hlast hnone hsome
    induction xs generalizing evals with
    | nil =>
      cases hev with
      | cons h1 h2 => cases h2; exact ⟨[], _, List.Forall₂.nil, h1, rfl⟩
    | cons y xs ih =>
      cases hev with
      | cons h1 h2 =>
        obtain ⟨es, e', h3, h4, rfl⟩ := ih _ h2
        exact ⟨_ :: es, e', List.Forall₂.cons h1 h3, h4, rfl⟩
  have hd' : d = dictWrites [] (o.const ++ es.flatMap (·.2) ++ e'.2) := by
    rw [hd]; simp
  refine ⟨es, e', h1, h2, (hlast e' (by simp)).2 j hj, fun c => ⟨fun v hv => ?_, fun hv => ?_⟩⟩
  · exact (hsome (by simp)).2 j hj c v (by rw [hd']; exact dictWrites_get?_last _ _ _ _ hv)
  · exact hnone j hj c (by rw [hd']; exact dictWrites_get?_never _ _ _ hv)

/-- C77: in every iteration of every calculation the linear equation system contains all
equations, each in its own row: first the components, then the connections, the busses with
given value and the user defined equations, in the order of the tables. The residuals are those
of this iteration. The derivatives of busses are those of this iteration, the other ones are
those assigned last in this calculation.

Hypotheses: objects number their equations from zero (`OwnRows`), every component, connection or
user defined equation which has equations has assigned a derivative in the first iteration, the
busses carry no derivatives from an aborted calculation. Missing for the full statement:
derivatives which have not been assigned in this iteration are not zero
(`C77_derivatives_false`), and the rows are mixed up without the hypothesis about the first
iteration (`C77_rows_false`). -/
theorem C77_rows_partial (net : EqNet X K) (n : ℕ) (busJac : List (Dict ℕ K)) (xs : List X) (x : X)
    (st : AsmState K)
    (hl : busJac.length = net.busses.length) (hz : ∀ d ∈ busJac, ∀ e ∈ d, e.2 = 0)
    (ho : ∀ o ∈ net.comps ++ net.conns ++ net.udes, OwnRows o)
    (hf : ∀ y, (xs ++ [x]).head? = some y → ∀ o ∈ net.comps ++ net.conns ++ net.udes,
      o.numEq = 0 ∨ o.const ≠ [] ∨ ∀ e, o.eval y = .ok e → e.2 ≠ [])
    (h : net.run n (xs ++ [x]) (net.start busJac) = .ok st) :
    (∀ i o, net.comps[i]? = some o → ∀ j, j < o.numEq →
      Spec.RowOf st.sys (((net.comps.take i).map EqSource.numEq).sum + j) o xs x j) ∧
    (∀ i o, net.conns[i]? = some o → ∀ j, j < o.numEq →
      Spec.RowOf st.sys (net.numComp + ((net.conns.take i).map EqSource.numEq).sum + j) o xs x j) ∧
    (∀ i b, net.busses[i]? = some b → b.isSet = true →
      Spec.BusRowOf st.sys
        (net.numComp + net.numConn + ((net.busses.take i).filter (·.isSet)).length) b x) ∧
    (∀ i o, net.udes[i]? = some o → ∀ j, j < o.numEq →
      Spec.RowOf st.sys (net.numComp + net.numConn + net.numBus +
        ((net.udes.take i).map EqSource.numEq).sum + j) o xs x j) := by
  have hinv := run_inv net n [] (xs ++ [x]) _ st ho (fun _ => hf) (start_inv net busJac hl hz) h
  rw [List.nil_append] at hinv
  refine ⟨fun i o hi j hj => ?_, fun i o hi j hj => ?_, fun i b hi hb => ?_, fun i o hi j hj => ?_⟩
  · obtain ⟨d, hd⟩ := Blk.get _ _ _ hinv.comps i o hi
    rw [Nat.zero_add] at hd
    exact rowsInv_rowOf hd j hj
  · obtain ⟨d, hd⟩ := Blk.get _ _ _ hinv.conns i o hi
    exact rowsInv_rowOf hd j hj
  · obtain ⟨d, hd⟩ := Blk.get _ _ _ hinv.busses i b hi
    rw [sum_busRows] at hd
    exact (hd.2 hb).2 x (by simp)
  · obtain ⟨d, hd⟩ := Blk.get _ _ _ hinv.udes i o hi
    exact rowsInv_rowOf hd j hj

/-- C77: if a source assigns the same derivatives in every iteration, its rows contain exactly the
residuals and derivatives of this iteration. -/
theorem C77_current_partial (s : EqSystem K) (row : ℕ) (o : EqSource X K) (xs : List X) (x : X)
    (j : ℕ) (h : Spec.RowOf s row o xs x j)
    (hsame : ∀ y ∈ xs, ∀ e e', o.eval y = .ok e → o.eval x = .ok e' →
      ∀ w ∈ e.2, ∃ w' ∈ e'.2, w'.1 = w.1) :
    ∃ e, o.eval x = .ok e ∧ e.1[j]? = some (s.res row) ∧
      ∀ c, (∀ v, Spec.LastWrite (o.const ++ e.2) (j, c) v → s.jac row c = v) ∧
        (Spec.NeverWritten (o.const ++ e.2) (j, c) → s.jac row c = 0) := by
  obtain ⟨evals, e, h1, h2, h3, h4⟩ := h
  have hall : ∀ r ∈ evals, ∀ w ∈ r.2, ∃ w' ∈ e.2, w'.1 = w.1 := by
    clear h4
    induction h1 with
    | nil => simp
    | cons hy _ ih =>
      intro r hr
      rcases List.mem_cons.mp hr with rfl | hr
      · exact hsame _ (by simp) _ e hy h2
      · exact ih (fun y hy => hsame y (by simp [hy])) r hr
  refine ⟨e, h2, h3, fun c => ⟨fun v hv => ?_, fun hv => ?_⟩⟩
  · apply (h4 c).1 v
    obtain ⟨a, b, hab, hb⟩ := hv
    by_cases hin : ∃ w ∈ e.2, w.1 = (j, c)
    · -- the last assignment is one of this iteration
      have : ∃ a', e.2 = a' ++ ((j, c), v) :: b := by
        have hlen : b.length < e.2.length := by
          by_contra hge
          push Not at hge
          obtain ⟨w, hw, hwk⟩ := hin
          have : e.2 <:+ b := by
            have h5 : e.2 <:+ (a ++ ((j, c), v) :: b) := ⟨o.const, hab⟩
            have h6 : b <:+ (a ++ ((j, c), v) :: b) := ⟨a ++ [((j, c), v)], by simp⟩
            exact List.suffix_of_suffix_length_le h5 h6 hge
          exact hb w (this.mem hw) hwk
        have h5 : e.2 <:+ (a ++ ((j, c), v) :: b) := ⟨o.const, hab⟩
        have h6 : (((j, c), v) :: b) <:+ (a ++ ((j, c), v) :: b) := ⟨a, rfl⟩
        obtain ⟨a', ha'⟩ := List.suffix_of_suffix_length_le h6 h5 (by simp; omega)
        exact ⟨a', ha'.symm⟩
      obtain ⟨a', ha'⟩ := this
      exact ⟨o.const ++ evals.flatMap (·.2) ++ a', b, by rw [ha']; simp, hb⟩
    · -- it is one of the constant derivatives
      push Not at hin
      have : ∃ b', o.const = a ++ ((j, c), v) :: b' ∧ b = b' ++ e.2 := by
        have hlen : e.2.length ≤ b.length := by
          by_contra hlt
          push Not at hlt
          have h5 : e.2 <:+ (a ++ ((j, c), v) :: b) := ⟨o.const, hab⟩
          have h6 : (((j, c), v) :: b) <:+ (a ++ ((j, c), v) :: b) := ⟨a, rfl⟩
          have h7 := List.suffix_of_suffix_length_le h6 h5 (by simp; omega)
          exact hin ((j, c), v) (h7.mem (List.mem_cons_self)) rfl
        have h5 : e.2 <:+ (a ++ ((j, c), v) :: b) := ⟨o.const, hab⟩
        have h6 : b <:+ (a ++ ((j, c), v) :: b) := ⟨a ++ [((j, c), v)], by simp⟩
        obtain ⟨b', hb'⟩ := List.suffix_of_suffix_length_le h5 h6 hlen
        refine ⟨b', ?_, hb'.symm⟩
        rw [← hb'] at hab
        have : o.const ++ e.2 = (a ++ ((j, c), v) :: b') ++ e.2 := by rw [hab]; simp
        exact List.append_cancel_right this
      obtain ⟨b', hc', rfl⟩ := this
      refine ⟨a, b' ++ evals.flatMap (·.2) ++ e.2, by rw [hc']; simp, ?_⟩
      intro w hw
      rcases List.mem_append.mp hw with hw | hw
      · rcases List.mem_append.mp hw with hw | hw
        · exact hb w (by simp [hw])
        · obtain ⟨r, hr, hwr⟩ := List.mem_flatMap.mp hw
          obtain ⟨w', hw', hk⟩ := hall r hr w hwr
          rw [← hk]; exact hin w' hw'
      · exact hin w hw
  · apply (h4 c).2
    intro w hw
    rcases List.mem_append.mp hw with hw | hw
    · rcases List.mem_append.mp hw with hw | hw
      · exact hv w (by simp [hw])
      · obtain ⟨r, hr, hwr⟩ := List.mem_flatMap.mp hw
        obtain ⟨w', hw', hk⟩ := hall r hr w hwr
        rw [← hk]; exact hv w' (by simp [hw'])
    · exact hv w (by simp [hw])

/-! ### examples and counterexamples -/

/-- A component with one constant and one variable derivative. -/
def exEqComp : EqSource ℚ ℚ := ⟨2, [((0, 0), 1), ((0, 1), -1)],
  fun x => .ok ([x, x * x - 2], [((1, 1), 2 * x)])⟩
/-- A bus. -/
def exEqBus : BusSource ℚ ℚ := ⟨true, fun x => .ok (10 - 2 * x, [(2, 1), (2, 1)])⟩
/-- A user defined equation with the same derivatives in all iterations. -/
def exEqUde : EqSource ℚ ℚ := ⟨1, [], fun x => .ok ([x - 5], [((0, 3), 1), ((0, 2), x)])⟩
/-- A network of these. -/
def exEqNet : EqNet ℚ ℚ := ⟨[exEqComp], [exEqBus], [], [exEqUde]⟩

theorem exEqComp_ownRows : OwnRows exEqComp := by
  constructor
  · decide
  · intro x e h w hw
    cases h
    simp only [List.mem_singleton] at hw
    subst hw
    exact Nat.one_lt_two

theorem exEqUde_ownRows : OwnRows exEqUde := by
  constructor
  · simp [exEqUde]
  · intro x e h w hw
    cases h
    simp only [List.mem_cons, List.not_mem_nil, or_false] at hw
    rcases hw with rfl | rfl <;> exact Nat.zero_lt_one

/-- The hypotheses of `C77_rows_partial` hold for a network with four equations. -/
example : ∃ st, exEqNet.run 4 ([3, 2] ++ [1]) (exEqNet.start [[(2, 0)]]) = .ok st ∧
    st.sys.jac 1 1 = 2 ∧ st.sys.jac 0 0 = 1 ∧ st.sys.jac 2 2 = -2 ∧ st.sys.jac 3 2 = 1 ∧
    st.sys.res 2 = 8 ∧
    (∀ o ∈ exEqNet.comps ++ exEqNet.conns ++ exEqNet.udes, OwnRows o) ∧
    (∀ o ∈ exEqNet.comps ++ exEqNet.conns ++ exEqNet.udes,
      o.numEq = 0 ∨ o.const ≠ [] ∨ ∀ e, o.eval 3 = .ok e → e.2 ≠ []) := by
  refine ⟨_, rfl, ?_, ?_, ?_, ?_, ?_, ?_, ?_⟩
  · decide +kernel
  · decide +kernel
  · decide +kernel
  · decide +kernel
  · decide +kernel
  · intro o ho
    simp only [exEqNet, List.append_nil, List.mem_append, List.mem_singleton] at ho
    rcases ho with rfl | rfl
    · exact exEqComp_ownRows
    · exact exEqUde_ownRows
  · intro o ho
    simp only [exEqNet, List.append_nil, List.mem_append, List.mem_singleton] at ho
    rcases ho with rfl | rfl
    · exact Or.inr (Or.inl (by simp [exEqComp]))
    · refine Or.inr (Or.inr (fun e h => ?_))
      cases h
      simp

/-- A user defined equation `|x0 - x1| = 0`, say, with derivatives in different columns. -/
def exUdeSwitch : EqSource Bool ℚ := ⟨1, [], fun b =>
  if b then .ok ([1], [((0, 1), 1)]) else .ok ([1], [((0, 0), 1)])⟩

/-- C77 is false for the derivatives: a user defined equation which assigns only the derivative
with respect to the first variable in the first iteration and only that with respect to the
second variable in the second iteration has both in its row in the second iteration. -/
theorem C77_derivatives_false : ∃ (net : EqNet Bool ℚ) (st : AsmState ℚ),
    net.udes = [exUdeSwitch] ∧ net.comps = [] ∧ net.conns = [] ∧ net.busses = [] ∧
    net.run 2 [false, true] (net.start []) = .ok st ∧
    (∀ e, exUdeSwitch.eval true = .ok e → Spec.NeverWritten e.2 (0, 0)) ∧
    st.sys.jac 0 0 = 1 ∧ st.sys.jac 0 1 = 1 := by
  refine ⟨⟨[], [], [], [exUdeSwitch]⟩, _, rfl, rfl, rfl, rfl, rfl, ?_, ?_, ?_⟩
  · intro e h
    cases h
    intro w hw
    simp only [List.mem_singleton] at hw
    subst hw
    decide
  · decide +kernel
  · decide +kernel

/-- A user defined equation without derivative as long as `b` is false. -/
def exUdeLate : EqSource Bool ℚ := ⟨1, [], fun b =>
  if b then .ok ([7], [((0, 0), 1)]) else .ok ([7], [])⟩
/-- A user defined equation with a constant derivative. -/
def exUdeNext : EqSource Bool ℚ := ⟨1, [], fun _ => .ok ([0], [((0, 1), 5)])⟩

/-- C77 is false for the rows if an equation has no derivatives in the first iteration: the
equation is overwritten by the next one, its residual of 7 is missing and the residuals of the
system vanish; in the second iteration the row contains the derivative of the other equation. -/
theorem C77_rows_false : ∃ (net : EqNet Bool ℚ) (st1 st2 : AsmState ℚ),
    net.udes = [exUdeLate, exUdeNext] ∧ net.comps = [] ∧ net.conns = [] ∧ net.busses = [] ∧
    net.run 2 [false] (net.start []) = .ok st1 ∧
    (∀ i, i < 2 → st1.sys.res i = 0) ∧
    net.run 2 [false, true] (net.start []) = .ok st2 ∧
    st2.sys.jac 0 1 = 5 ∧ (∀ b e, exUdeLate.eval b = .ok e → Spec.NeverWritten e.2 (0, 1)) := by
  refine ⟨⟨[], [], [], [exUdeLate, exUdeNext]⟩, _, _, rfl, rfl, rfl, rfl, rfl, ?_, rfl, ?_, ?_⟩
  · decide +kernel
  · decide +kernel
  · intro b e h
    cases b <;> cases h <;> intro w hw
    · simp at hw
    · simp only [List.mem_singleton] at hw
      subst hw
      decide

/-- C77 is false after an aborted calculation: if the second component of a bus fails, the
derivative of the first one stays in the bus and is added to the row in the first iteration of
the next calculation. -/
theorem C77_abort_false : ∃ (x1 x2 : List (PyRes ℚ × List (ℕ × ℚ))) (left : Dict ℕ ℚ)
    (st : AsmState ℚ),
    (busLoop x1 0 []).1 = left ∧ (busLoop x1 0 []).2 = .error .valueError ∧
    busLoop x2 0 [] = ([(0, -3)], .ok (-6)) ∧
    (⟨[], [BusSource.ofComps 0], [], []⟩ : EqNet _ ℚ).run 1 [x2]
      ((⟨[], [BusSource.ofComps 0], [], []⟩ : EqNet _ ℚ).start [left]) = .ok st ∧
    st.sys.jac 0 0 = -5 := by
  refine ⟨[(.ok 4, [(0, 2)]), (.error .valueError, [])], [(.ok 6, [(0, 3)])], _, _, rfl, rfl, ?_,
    rfl, ?_⟩
  · decide +kernel
  · decide +kernel

end Tespy
