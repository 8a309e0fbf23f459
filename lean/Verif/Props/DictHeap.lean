import Verif.Model.DictHeap
import Verif.Lemmas.DictLemmas
import Mathlib.Tactic.Common

/-
C46, second part: merge_dicts does not modify its arguments and its result shares no object with
them.
-/
namespace Tespy
namespace Spec
variable {α : Type}

/-- the objects from number `N` on refer only to objects from number `N` on -/
def Closed (N : ℕ) (h : DHeap α) : Prop :=
  ∀ n d, N ≤ n → h[n]? = some (.dict d) → ∀ e ∈ d, ∀ m, e.2 = .ptr m → N ≤ m

/-- references that can be followed from a reference -/
inductive Reach (h : DHeap α) : PyRef α → ℕ → Prop
  | self (n : ℕ) : Reach h (.ptr n) n
  | step (n : ℕ) (d : List (String × PyRef α)) (e : String × PyRef α) (m : ℕ) :
      h[n]? = some (.dict d) → e ∈ d → Reach h e.2 m → Reach h (.ptr n) m

end Spec

variable {α : Type}

/-- what a step leaves unchanged and keeps -/
structure Keeps (N : ℕ) (h h' : DHeap α) : Prop where
  len : h.length ≤ h'.length
  frame : ∀ n < N, h'[n]? = h[n]?
  closed : Spec.Closed N h'

theorem mem_set {κ β : Type} [DecidableEq κ] {d : Dict κ β} {k : κ} {b : β} {e : κ × β}
    (h : e ∈ Dict.set d k b) : e ∈ d ∨ e = (k, b) := by
  induction d with
  | nil => simpa [Dict.set] using h
  | cons e' d ih =>
    obtain ⟨k', b'⟩ := e'
    simp only [Dict.set] at h
    split at h
    · rename_i hk
      subst hk
      rcases List.mem_cons.1 h with h | h
      · exact Or.inr h
      · exact Or.inl (List.mem_cons_of_mem _ h)
    · rcases List.mem_cons.1 h with h | h
      · exact Or.inl (by simp [h])
      · rcases ih h with h | h
        · exact Or.inl (List.mem_cons_of_mem _ h)
        · exact Or.inr h

theorem keeps_append {N : ℕ} {h : DHeap α} (hN : N ≤ h.length) (hc : Spec.Closed N h)
    (o : PyObj α) (ho : ∀ d, o = .dict d → d = []) : Keeps N h (h ++ [o]) where
  len := by simp
  frame := fun n hn => by rw [List.getElem?_append_left (by omega)]
  closed := by
    intro n d hn hd e he m hm
    by_cases hl : n < h.length
    · rw [List.getElem?_append_left hl] at hd
      exact hc n d hn hd e he m hm
    · rw [List.getElem?_append_right (by omega)] at hd
      cases hk : n - h.length with
      | zero =>
        simp [hk] at hd
        rw [ho d hd] at he
        simp at he
      | succ j => simp [hk] at hd

theorem keeps_setKey {N : ℕ} {h h' : DHeap α} {y : ℕ} {k : String} {v : PyRef α}
    (hy : N ≤ y) (hc : Spec.Closed N h) (hv : ∀ m, v = .ptr m → N ≤ m)
    (hs : h.setKey y k v = .ok h') : Keeps N h h' := by
  unfold DHeap.setKey at hs
  split at hs
  · rename_i d hd
    cases hs
    refine ⟨by simp, fun n hn => ?_, ?_⟩
    · rw [List.getElem?_set_ne (by omega)]
    · intro n d' hn hd' e he m hm
      by_cases hny : y = n
      · subst hny
        rw [List.getElem?_set] at hd'
        simp only [if_true] at hd'
        split at hd'
        · simp only [Option.some.injEq, PyObj.dict.injEq] at hd'
          subst hd'
          rcases mem_set he with he | rfl
          · exact hc y d hn hd e he m hm
          · exact hv m hm
        · cases hd'
      · rw [List.getElem?_set_ne hny] at hd'
        exact hc n d' hn hd' e he m hm
  · cases hs

theorem Keeps.trans {N : ℕ} {h h' h'' : DHeap α} (a : Keeps N h h') (b : Keeps N h' h'') :
    Keeps N h h'' :=
  ⟨Nat.le_trans a.len b.len, fun n hn => (b.frame n hn).trans (a.frame n hn), b.closed⟩

theorem keeps_refl {N : ℕ} {h : DHeap α} (hc : Spec.Closed N h) : Keeps N h h :=
  ⟨(Nat.le_refl _), fun _ _ => rfl, hc⟩

/-- a copy function that keeps the objects below `N` and gives references to new objects -/
def CopyOK (N : ℕ) (copy : DHeap α → Dict ℕ ℕ → PyRef α → PyRes (DHeap α × Dict ℕ ℕ × PyRef α)) :
    Prop :=
  ∀ h memo r c, N ≤ h.length → Spec.Closed N h → (∀ e ∈ memo, N ≤ e.2) →
    copy h memo r = .ok c →
    Keeps N h c.1 ∧ (∀ e ∈ c.2.1, N ≤ e.2) ∧ ∀ m, c.2.2 = .ptr m → N ≤ m

theorem copyItems_keeps {N : ℕ}
    {copy : DHeap α → Dict ℕ ℕ → PyRef α → PyRes (DHeap α × Dict ℕ ℕ × PyRef α)}
    (hcopy : CopyOK N copy) {y : ℕ} (hy : N ≤ y) (d : List (String × PyRef α)) :
    ∀ (h : DHeap α) (memo : Dict ℕ ℕ) out, N ≤ h.length → Spec.Closed N h →
      (∀ e ∈ memo, N ≤ e.2) → copyItems copy y d h memo = .ok out →
      Keeps N h out.1 ∧ ∀ e ∈ out.2, N ≤ e.2 := by
  induction d with
  | nil =>
    intro h memo out hN hc hm ho
    simp only [copyItems, Except.ok.injEq] at ho
    subst ho
    exact ⟨keeps_refl hc, hm⟩
  | cons e d ih =>
    intro h memo out hN hc hm ho
    obtain ⟨k, v⟩ := e
    simp only [copyItems] at ho
    cases h1 : copy h memo v with
    | error er => simp [h1] at ho
    | ok c =>
      simp only [h1] at ho
      obtain ⟨a1, a2, a3⟩ := hcopy h memo v c hN hc hm h1
      cases h2 : DHeap.setKey c.1 y k c.2.2 with
      | error er => simp [h2] at ho
      | ok h' =>
        simp only [h2] at ho
        have b := keeps_setKey hy a1.closed a3 h2
        have := ih h' c.2.1 out (by have := a1.len; have := b.len; omega) b.closed a2 ho
        exact ⟨(a1.trans b).trans this.1, this.2⟩

theorem deepcopy_keeps (N fuel : ℕ) : CopyOK (α := α) N (deepcopy fuel) := by
  induction fuel with
  | zero => intro h memo r c _ _ _ hd; simp [deepcopy] at hd
  | succ fuel ih =>
    intro h memo r c hN hc hm hd
    cases r with
    | imm a =>
      simp only [deepcopy, Except.ok.injEq] at hd
      subst hd
      exact ⟨keeps_refl hc, hm, by simp⟩
    | ptr n =>
      simp only [deepcopy] at hd
      cases hg : Dict.get? memo n with
      | some m =>
        simp only [hg, Except.ok.injEq] at hd
        subst hd
        exact ⟨keeps_refl hc, hm, fun m' hm' => by
          cases hm'; exact hm _ (Dict.mem_of_get? hg)⟩
      | none =>
        simp only [hg] at hd
        have hms : ∀ e ∈ Dict.set memo n h.length, N ≤ e.2 := by
          intro e he
          rcases mem_set he with he | rfl
          · exact hm e he
          · exact hN
        cases ho : h[n]? with
        | none => simp [ho] at hd
        | some o =>
          cases o with
          | box a =>
            simp only [ho, Except.ok.injEq] at hd
            subst hd
            exact ⟨keeps_append hN hc _ (by simp), hms, fun m hm => by cases hm; exact hN⟩
          | dict d =>
            simp only [ho] at hd
            cases hi : copyItems (deepcopy fuel) h.length d (h ++ [.dict []])
                (Dict.set memo n h.length) with
            | error er => simp [hi] at hd
            | ok out =>
              simp only [hi, Except.ok.injEq] at hd
              subst hd
              have k1 := keeps_append hN hc (.dict []) (by simp)
              have k2 := copyItems_keeps ih hN d _ _ out (by simp; omega) k1.closed hms hi
              exact ⟨k1.trans k2.1, k2.2, fun m hm => by cases hm; exact hN⟩

theorem deepcopyTop_keeps {N fuel : ℕ} {h : DHeap α} {r : PyRef α} {c : DHeap α × PyRef α}
    (hN : N ≤ h.length) (hc : Spec.Closed N h) (hd : deepcopyTop fuel h r = .ok c) :
    Keeps N h c.1 ∧ ∀ m, c.2 = .ptr m → N ≤ m := by
  unfold deepcopyTop at hd
  cases h1 : deepcopy fuel h [] r with
  | error e => simp [h1] at hd
  | ok c' =>
    simp only [h1, Except.ok.injEq] at hd
    subst hd
    have := deepcopy_keeps N fuel h [] r c' hN hc (by simp) h1
    exact ⟨this.1, this.2.2⟩

theorem mergeLoop_keeps {N fuel : ℕ}
    (ih : ∀ (h : DHeap α) (r1 : PyRef α) d2 out, N ≤ h.length → Spec.Closed N h →
      mergeHeap fuel h r1 d2 = .ok out → Keeps N h out.1 ∧ ∀ m, out.2 = .ptr m → N ≤ m)
    {result : PyRef α} (hr : ∀ m, result = .ptr m → N ≤ m) (d2 : List (String × PyRef α)) :
    ∀ (h h' : DHeap α), N ≤ h.length → Spec.Closed N h →
      mergeLoop (mergeHeap fuel) (deepcopyTop fuel) result d2 h = .ok h' → Keeps N h h' := by
  induction d2 with
  | nil =>
    intro h h' hN hc hl
    simp only [mergeLoop, Except.ok.injEq] at hl
    subst hl
    exact keeps_refl hc
  | cons e d2 ihd =>
    intro h h' hN hc hl
    obtain ⟨k, v⟩ := e
    simp only [mergeLoop] at hl
    have hset : ∀ (hh hh' : DHeap α) (w : PyRef α), Spec.Closed N hh →
        (∀ m, w = .ptr m → N ≤ m) → hh.setItem result k w = .ok hh' → Keeps N hh hh' := by
      intro hh hh' w hcc hw hs
      cases result with
      | imm a => simp [DHeap.setItem] at hs
      | ptr n => exact keeps_setKey (hr n rfl) hcc hw hs
    cases hv : h.dictOf v with
    | some d' =>
      simp only [hv] at hl
      cases h1 : h.getD result k with
      | error er => simp [h1] at hl
      | ok s =>
        simp only [h1] at hl
        have ks : Keeps N h s.1 := by
          cases result with
          | imm a => simp [DHeap.getD] at h1
          | ptr n =>
            simp only [DHeap.getD] at h1
            split at h1
            · split at h1
              · cases h1; exact keeps_refl hc
              · cases h1; exact keeps_append hN hc _ (by simp)
            · cases h1
        cases h2 : mergeHeap fuel s.1 s.2 d' with
        | error er => simp [h2] at hl
        | ok m =>
          simp only [h2] at hl
          have km := ih s.1 s.2 d' m (by have := ks.len; omega) ks.closed h2
          cases h3 : m.1.setItem result k m.2 with
          | error er => simp [h3] at hl
          | ok h3' =>
            simp only [h3] at hl
            have k3 := hset _ _ _ km.1.closed km.2 h3
            have kk := (ks.trans km.1).trans k3
            exact kk.trans (ihd h3' h' (by have := kk.len; omega) kk.closed hl)
    | none =>
      simp only [hv] at hl
      cases h1 : deepcopyTop fuel h v with
      | error er => simp [h1] at hl
      | ok c =>
        simp only [h1] at hl
        have kc := deepcopyTop_keeps hN hc h1
        cases h3 : c.1.setItem result k c.2 with
        | error er => simp [h3] at hl
        | ok h3' =>
          simp only [h3] at hl
          have kk := kc.1.trans (hset _ _ _ kc.1.closed kc.2 h3)
          exact kk.trans (ihd h3' h' (by have := kk.len; omega) kk.closed hl)

theorem mergeHeap_keeps (N fuel : ℕ) : ∀ (h : DHeap α) (r1 : PyRef α) d2 out, N ≤ h.length →
    Spec.Closed N h → mergeHeap fuel h r1 d2 = .ok out →
    Keeps N h out.1 ∧ ∀ m, out.2 = .ptr m → N ≤ m := by
  induction fuel with
  | zero => intro h r1 d2 out _ _ hm; simp [mergeHeap] at hm
  | succ fuel ih =>
    intro h r1 d2 out hN hc hm
    simp only [mergeHeap] at hm
    cases h1 : deepcopyTop fuel h r1 with
    | error e => simp [h1] at hm
    | ok c =>
      simp only [h1] at hm
      have kc := deepcopyTop_keeps hN hc h1
      cases h2 : mergeLoop (mergeHeap fuel) (deepcopyTop fuel) c.2 d2 c.1 with
      | error e => simp [h2] at hm
      | ok h' =>
        simp only [h2, Except.ok.injEq] at hm
        subst hm
        have kl := mergeLoop_keeps ih kc.2 d2 c.1 h' (by have := kc.1.len; omega) kc.1.closed h2
        exact ⟨kc.1.trans kl, kc.2⟩

/-- **C46.** `merge_dicts` changes no object that existed before the call, whatever dictionaries
the arguments are, however they are nested or share inner objects. -/
theorem C46_arguments_unmodified (fuel : ℕ) (h h' : DHeap α) (r1 r : PyRef α)
    (d2 : List (String × PyRef α)) (hm : mergeHeap fuel h r1 d2 = .ok (h', r)) (n : ℕ)
    (hn : n < h.length) : h'[n]? = h[n]? := by
  refine (mergeHeap_keeps h.length fuel h r1 d2 (h', r) (Nat.le_refl _) ?_ hm).1.frame n hn
  intro n d hn hd
  rw [List.getElem?_eq_none hn] at hd
  cases hd

/-- **C46.** Every object that can be reached from the result of `merge_dicts` was created by the
call: later changes of the result (as made by `OptimizationProblem.fitness`) never change the
dictionaries passed by the user. -/
theorem C46_result_independent (fuel : ℕ) (h h' : DHeap α) (r1 r : PyRef α)
    (d2 : List (String × PyRef α)) (hm : mergeHeap fuel h r1 d2 = .ok (h', r)) (m : ℕ)
    (hr : Spec.Reach h' r m) : h.length ≤ m := by
  have hk := mergeHeap_keeps h.length fuel h r1 d2 (h', r) (Nat.le_refl _)
    (by intro n d hn hd; rw [List.getElem?_eq_none hn] at hd; cases hd) hm
  have key : ∀ (s : PyRef α) m, Spec.Reach h' s m → (∀ n, s = .ptr n → h.length ≤ n) →
      h.length ≤ m := by
    intro s m hs
    induction hs with
    | self n => intro hn; exact hn n rfl
    | step n d e m hd he _ ih =>
      intro hn
      exact ih (fun n' hn' => hk.1.closed n d (hn n rfl) hd e he n' hn')
  exact key r m hr hk.2

/-! ## Example: `{"a": X, "b": X}` with one inner object `X = {"p": 1}`, merged with
`{"a": {"q": 2}, "c": [7]}`. -/

def dhEx : DHeap ℕ :=
  [.dict [("p", .imm 1)], .dict [("a", .ptr 0), ("b", .ptr 0)], .dict [("q", .imm 2)], .box 7]

example : mergeHeap 9 dhEx (.ptr 1) [("a", .ptr 2), ("c", .ptr 3)] = .ok
    (dhEx ++ [.dict [("a", .ptr 6), ("b", .ptr 5), ("c", .ptr 7)], .dict [("p", .imm 1)],
      .dict [("p", .imm 1), ("q", .imm 2)], .box 7], .ptr 4) := by decide +kernel

end Tespy
