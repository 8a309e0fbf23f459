import Mathlib.Algebra.Order.Archimedean.Basic
import Mathlib.Algebra.Order.Ring.Abs
import Verif.Props.Checks
/-
C70: limits of the variables after the checks of an iteration.
-/
namespace Tespy
variable {K : Type} [Field K] [LinearOrder K]

/-! ### specification -/

/-- lower limit of the enthalpy of a pure fluid: value at 0.1 K above the minimum temperature, at 1.05
times the minimum temperature if that is not available -/
def Spec.LowerLimit (fl : PureFluid K) (p h : K) : Prop :=
  fl.h_pT p (fl.TMin + 1 / 10) = .ok h ∨
  ((∃ e, fl.h_pT p (fl.TMin + 1 / 10) = .error e) ∧ fl.h_pT p (fl.TMin * (105 / 100)) = .ok h)

/-- upper limit: value at the first temperature of TMax, 0.99 TMax, 0.99² TMax, ... for which it is
available -/
def Spec.UpperLimit (fl : PureFluid K) (p h : K) : Prop :=
  ∃ n : ℕ, fl.h_pT p (fl.TMax * (99 / 100) ^ n) = .ok h ∧
    ∀ m < n, ∃ e, fl.h_pT p (fl.TMax * (99 / 100) ^ m) = .error e

/-- the same, found within `fuel` attempts, and the temperatures tried do not fall below the minimum temperature -/
def Spec.UpperLimitFound (fl : PureFluid K) (fuel : ℕ) (p h : K) : Prop :=
  ∃ n < fuel, fl.h_pT p (fl.TMax * (99 / 100) ^ n) = .ok h ∧
    ∀ m < n, (∃ e, fl.h_pT p (fl.TMax * (99 / 100) ^ m) = .error e) ∧ fl.TMin ≤ fl.TMax * (99 / 100) ^ (m + 1)

/-! ### the search for the upper limit -/

theorem upper_complete (fl : PureFluid K) (p h : K) (n : ℕ) (T : K) (h1 : fl.h_pT p (T * (99 / 100) ^ n) = .ok h)
    (h2 : ∀ m < n, (∃ e, fl.h_pT p (T * (99 / 100) ^ m) = .error e) ∧ fl.TMin ≤ T * (99 / 100) ^ (m + 1)) :
    ∀ fuel > n, upperEnthalpy fl p fuel T = some (.ok h) := by
  induction n generalizing T with
  | zero =>
    intro fuel hf
    obtain ⟨k, rfl⟩ : ∃ k, fuel = k + 1 := ⟨fuel - 1, by omega⟩
    rw [pow_zero, mul_one] at h1
    simp only [upperEnthalpy, h1]
  | succ n ih =>
    intro fuel hf
    obtain ⟨k, rfl⟩ : ∃ k, fuel = k + 1 := ⟨fuel - 1, by omega⟩
    obtain ⟨⟨e, he⟩, ht⟩ := h2 0 (by omega)
    rw [pow_zero, mul_one] at he
    rw [zero_add, pow_one] at ht
    simp only [upperEnthalpy, he]
    rw [if_neg (not_lt.mpr ht)]
    refine ih _ (by rw [mul_assoc, ← pow_succ']; exact h1) (fun m hm => ?_) k (by omega)
    have := h2 (m + 1) (by omega)
    rw [mul_assoc, ← pow_succ', mul_assoc, ← pow_succ']
    exact this

theorem lower_spec (fl : PureFluid K) (p h : K) : lowerEnthalpy fl p = .ok h ↔ Spec.LowerLimit fl p h := by
  simp only [lowerEnthalpy, Spec.LowerLimit]
  cases fl.h_pT p (fl.TMin + 1 / 10) with
  | ok x => simp
  | error e => simp

theorem upper_sound (fl : PureFluid K) (p h : K) (fuel : ℕ) (T : K) (hu : upperEnthalpy fl p fuel T = some (.ok h)) :
    ∃ n : ℕ, fl.h_pT p (T * (99 / 100) ^ n) = .ok h ∧
    ∀ m < n, ∃ e, fl.h_pT p (T * (99 / 100) ^ m) = .error e := by
  induction fuel generalizing T with
  | zero => cases hu
  | succ fuel ih =>
    simp only [upperEnthalpy] at hu
    cases hT : fl.h_pT p T with
    | ok x =>
      rw [hT] at hu
      simp only [Option.some.injEq, Except.ok.injEq] at hu
      subst hu
      exact ⟨0, by simpa using hT, by simp⟩
    | error e =>
      rw [hT] at hu
      simp only at hu
      split at hu
      · cases hu
      · obtain ⟨n, h1, h2⟩ := ih _ hu
        refine ⟨n + 1, by rw [pow_succ', ← mul_assoc]; exact h1, fun m hm => ?_⟩
        cases m with
        | zero => exact ⟨e, by simpa using hT⟩
        | succ m =>
          obtain ⟨e', he⟩ := h2 m (by omega)
          exact ⟨e', by rw [pow_succ', ← mul_assoc]; exact he⟩

theorem UpperLimit_unique (fl : PureFluid K) (p h h' : K) (h1 : Spec.UpperLimit fl p h) (h2 : Spec.UpperLimit fl p h') :
    h = h' := by
  obtain ⟨n, hn, hn'⟩ := h1
  obtain ⟨m, hm, hm'⟩ := h2
  rcases lt_trichotomy n m with hlt | rfl | hlt
  · obtain ⟨e, he⟩ := hm' n hlt
    rw [hn] at he; cases he
  · rw [hn] at hm; exact Except.ok.inj hm
  · obtain ⟨e, he⟩ := hn' m hlt
    rw [hm] at he; cases he

theorem LowerLimit_unique (fl : PureFluid K) (p h h' : K) (h1 : Spec.LowerLimit fl p h) (h2 : Spec.LowerLimit fl p h') :
    h = h' := by
  rw [← lower_spec] at h1 h2
  rw [h1] at h2
  exact Except.ok.inj h2

theorem upper_mono (fl : PureFluid K) (p : K) (fuel extra : ℕ) (T : K) (h : upperEnthalpy fl p fuel T ≠ none) :
    upperEnthalpy fl p (fuel + extra) T = upperEnthalpy fl p fuel T := by
  induction fuel generalizing T with
  | zero => exact absurd rfl h
  | succ fuel ih =>
    rw [Nat.add_right_comm]
    simp only [upperEnthalpy] at h ⊢
    cases hT : fl.h_pT p T with
    | ok x => rfl
    | error e =>
      rw [hT] at h
      simp only at h ⊢
      split
      · rfl
      · next hc =>
        rw [if_neg hc] at h
        exact ih _ h

/-- C70: the search for the upper limit of the enthalpy ends for every fluid with a positive minimum
temperature. -/
theorem C70_search_ends [IsStrictOrderedRing K] [Archimedean K] (fl : PureFluid K) (p : K) (hT : 0 < fl.TMin) :
    ∃ fuel, ∀ n ≥ fuel, upperEnthalpy fl p n fl.TMax = upperEnthalpy fl p fuel fl.TMax ∧
      upperEnthalpy fl p n fl.TMax ≠ none := by
  have key : ∀ k (T : K), T * (99 / 100) ^ (k + 1) < fl.TMin → upperEnthalpy fl p (k + 1) T ≠ none := by
    intro k
    induction k with
    | zero =>
      intro T h
      simp only [upperEnthalpy]
      cases fl.h_pT p T with
      | ok x => simp
      | error e =>
        simp only [zero_add, pow_one] at h
        simp [h]
    | succ k ih =>
      intro T h
      rw [upperEnthalpy]
      cases fl.h_pT p T with
      | ok x => simp
      | error e =>
        simp only
        split
        · simp
        · apply ih
          rw [pow_succ', ← mul_assoc] at h
          exact h
  have hex : ∃ k, fl.TMax * (99 / 100) ^ (k + 1) < fl.TMin := by
    by_cases h0 : fl.TMax ≤ 0
    · refine ⟨0, lt_of_le_of_lt ?_ hT⟩
      exact mul_nonpos_of_nonpos_of_nonneg h0 (by positivity)
    · push Not at h0
      obtain ⟨k, hk⟩ := exists_pow_lt_of_lt_one (div_pos hT h0) (by norm_num : (99 / 100 : K) < 1)
      refine ⟨k, ?_⟩
      have h1 : ((99 : K) / 100) ^ (k + 1) < fl.TMin / fl.TMax :=
        lt_of_le_of_lt (pow_le_pow_of_le_one (by norm_num) (by norm_num) (Nat.le_succ k)) hk
      rw [lt_div_iff₀ h0] at h1
      linarith
  obtain ⟨k, hk⟩ := hex
  refine ⟨k + 1, fun n hn => ?_⟩
  obtain ⟨d, rfl⟩ := Nat.exists_eq_add_of_le hn
  rw [upper_mono _ _ _ _ _ (key k _ hk)]
  exact ⟨rfl, key k _ hk⟩

/-! ### loops -/

theorem andThen_ok {a b : ChkStep K} {s : ChkState K} (h : (a.andThen b s).2 = none) :
    (a s).2 = none ∧ (b (a s).1).2 = none ∧ (a.andThen b s).1 = (b (a s).1).1 := by
  simp only [ChkStep.andThen] at h ⊢
  rcases ha : a s with ⟨s1, _ | e⟩
  · rw [ha] at h
    exact ⟨rfl, h, rfl⟩
  · rw [ha] at h
    cases h

theorem forEach_keep {α : Type} (f : α → ChkStep K) (P : ChkState K → Prop) (l : List α)
    (hk : ∀ a ∈ l, ∀ s, P s → (f a s).2 = none → P (f a s).1) (s : ChkState K) (hs : P s)
    (hok : (ChkStep.forEach f l s).2 = none) : P (ChkStep.forEach f l s).1 := by
  induction l generalizing s with
  | nil => exact hs
  | cons a l ih =>
    obtain ⟨h1, h2, h3⟩ := andThen_ok hok
    have h4 : (ChkStep.forEach f (a :: l) s).1 = (ChkStep.forEach f l (f a s).1).1 := h3
    rw [h4]
    exact ih (fun b hb => hk b (by simp [hb])) _ (hk a (by simp) s hs h1) h2

theorem forEach_establish {α : Type} (f : α → ChkStep K) (P : ChkState K → Prop) (l : List α) (a : α) (ha : a ∈ l)
    (hest : ∀ s, (f a s).2 = none → P (f a s).1)
    (hk : ∀ b ∈ l, ∀ s, P s → (f b s).2 = none → P (f b s).1) (s : ChkState K)
    (hok : (ChkStep.forEach f l s).2 = none) : P (ChkStep.forEach f l s).1 := by
  induction l generalizing s with
  | nil => cases ha
  | cons b l ih =>
    obtain ⟨h1, h2, h3⟩ := andThen_ok hok
    have h4 : (ChkStep.forEach f (b :: l) s).1 = (ChkStep.forEach f l (f b s).1).1 := h3
    rw [h4]
    rcases List.mem_cons.mp ha with rfl | ha
    · exact forEach_keep f P l (fun b hb => hk b (by simp [hb])) _ (hest s h1) h2
    · exact ih ha (fun b hb => hk b (by simp [hb])) _ h2

/-- What the check of every connection establishes for `c` and the checks of the other connections and
the normalisation of the compositions keep, holds after all checks. -/
theorem checkBounds_establish (E : ChkEnv K) (fuel iter : ℕ) (conns : List (ChkConn K)) (comps : List (ChkComp K))
    (P : ChkState K → Prop) (c : ChkConn K) (hc : c ∈ conns)
    (hest : ∀ s, (checkConnection E fuel iter c s).2 = none → P (checkConnection E fuel iter c s).1)
    (hk : ∀ d ∈ conns, ∀ s, P s → (checkConnection E fuel iter d s).2 = none → P (checkConnection E fuel iter d s).1)
    (hn : ∀ s s', s'.val = s.val → P s → P s')
    (s : ChkState K) (hok : (checkBounds E fuel iter conns comps s).2 = none) :
    P (checkBounds E fuel iter conns comps s).1 := by
  have hnorm : ∀ d s, (normaliseFluids E d s).1.val = s.val := by
    intro d s
    simp only [normaliseFluids]
    split
    · rfl
    · split <;> rfl
  obtain ⟨h1, h2, h3⟩ := andThen_ok hok
  have h4 : (checkBounds E fuel iter conns comps s).1 = _ := h3
  rw [h4]
  split at h2
  · next hi =>
    rw [if_pos hi]
    obtain ⟨_, h6, h7⟩ := andThen_ok h2
    rw [h7]
    exact forEach_establish _ P conns c hc hest hk _ h6
  · next hi =>
    rw [if_neg hi]
    refine forEach_establish _ P conns c hc ?_ ?_ _ h1
    · intro s hs
      obtain ⟨_, g2, g3⟩ := andThen_ok hs
      rw [g3]
      exact hest _ g2
    · intro d hd s hP hs
      obtain ⟨_, g2, g3⟩ := andThen_ok hs
      rw [g3]
      exact hk d hd _ (hn s _ (hnorm d s) hP) g2

/-! ### mass flow -/

theorem get_put_self (s : ChkState K) (c : ChkConn K) (k : PropKind) (v : K) : (s.put c k v).get c k = v := by
  simp [ChkState.get, ChkState.put]

theorem get_put_ne (s : ChkState K) (c d : ChkConn K) (k k' : PropKind) (v : K)
    (h : k' ≠ k ∨ d.box k' ≠ c.box k) : (s.put c k v).get d k' = s.get d k' := by
  simp only [ChkState.get, ChkState.put]
  rw [if_neg]
  rintro ⟨h1, h2⟩
  rcases h with h | h
  · exact h h1
  · exact h h2

/-- the clipped value lies within the range -/
theorem clip_range (E : ChkEnv K) (k : PropKind) (hle : (E.range k).1 ≤ (E.range k).2) (c : ChkConn K)
    (s : ChkState K) :
    (E.range k).1 ≤ (clipRange E c k s).1.get c k ∧ (clipRange E c k s).1.get c k ≤ (E.range k).2 := by
  simp only [clipRange]
  split
  · simp only [get_put_self]
    exact ⟨le_refl _, hle⟩
  · next h1 =>
    split
    · simp only [get_put_self]
      exact ⟨hle, le_refl _⟩
    · next h2 => exact ⟨le_of_lt (lt_of_not_ge h1), le_of_lt (lt_of_not_ge h2)⟩

/-- C70, mass flow: after the checks of every iteration every variable mass flow lies within the range
of the network, for every state before the checks and all kinds of connections and components. -/
theorem C70_mass_partial (E : ChkEnv K) (fuel iter : ℕ) (conns : List (ChkConn K)) (comps : List (ChkComp K))
    (hle : (E.range .m).1 ≤ (E.range .m).2) (s : ChkState K)
    (hok : (checkBounds E fuel iter conns comps s).2 = none) (c : ChkConn K) (hc : c ∈ conns)
    (hv : E.var c .m = true) :
    (E.range .m).1 ≤ (checkBounds E fuel iter conns comps s).1.get c .m ∧
    (checkBounds E fuel iter conns comps s).1.get c .m ≤ (E.range .m).2 := by
  refine checkBounds_establish E fuel iter conns comps
    (fun s => (E.range .m).1 ≤ s.get c .m ∧ s.get c .m ≤ (E.range .m).2) c hc ?_ ?_ ?_ s hok
  · intro s hs
    obtain ⟨_, _, g3⟩ := andThen_ok hs
    have g4 : (checkConnection E fuel iter c s).1 = _ := g3
    rw [g4, if_pos hv]
    exact clip_range E .m hle c _
  · intro d _ s hP hs
    obtain ⟨_, _, g3⟩ := andThen_ok hs
    have g4 : (checkConnection E fuel iter d s).1 = _ := g3
    rw [g4]
    have h1 : (checkState E fuel iter d s).1.get c .m = s.get c .m :=
      rel_state (R := fun a b => b.get c .m = a.get c .m) (fun _ => rfl) (fun _ _ _ h h' => h'.trans h)
        E fuel iter d (fun _ s v => get_put_ne s d c _ _ v (Or.inl (by decide)))
        (fun _ s v => get_put_ne s d c _ _ v (Or.inl (by decide))) s
    rw [← h1] at hP
    generalize (checkState E fuel iter d s).1 = s1 at hP
    split
    · by_cases hb : c.box .m = d.box .m
      · have h2 := clip_range E .m hle d s1
        simp only [ChkState.get] at h2 ⊢
        rw [hb]
        exact h2
      · have h2 : (clipRange E d .m s1).1.get c .m = s1.get c .m :=
          rel_clip (R := fun a b => b.get c .m = a.get c .m) (fun _ => rfl) E d .m
            (fun s v => get_put_ne s d c _ _ v (Or.inr hb)) s1
        rw [h2]
        exact hP
    · exact hP
  · intro s s' h hP
    simp only [ChkState.get] at hP ⊢
    rw [h]
    exact hP

/-! ### pure fluids -/

/-- Connections with the same container for pressure or enthalpy are the same. -/
def OwnBoxes (conns : List (ChkConn K)) (c : ChkConn K) : Prop :=
  ∀ d ∈ conns, d = c ∨ (c.box .p ≠ d.box .p ∧ c.box .h ≠ d.box .h)

/-- other connections do not change pressure and enthalpy of `c` -/
theorem keep_other (E : ChkEnv K) (fuel iter : ℕ) (c d : ChkConn K)
    (h : c.box .p ≠ d.box .p ∧ c.box .h ≠ d.box .h) (s : ChkState K) :
    (checkConnection E fuel iter d s).1.get c .p = s.get c .p ∧
    (checkConnection E fuel iter d s).1.get c .h = s.get c .h :=
  rel_connection (R := fun a b => b.get c .p = a.get c .p ∧ b.get c .h = a.get c .h) (fun _ => ⟨rfl, rfl⟩)
    (fun _ _ _ h h' => ⟨h'.1.trans h.1, h'.2.trans h.2⟩) E fuel iter d (fun k _ s v => by
      cases k with
      | m => exact ⟨get_put_ne s d c _ _ v (Or.inl (by decide)), get_put_ne s d c _ _ v (Or.inl (by decide))⟩
      | p => exact ⟨get_put_ne s d c _ _ v (Or.inr h.1), get_put_ne s d c _ _ v (Or.inl (by decide))⟩
      | h => exact ⟨get_put_ne s d c _ _ v (Or.inl (by decide)), get_put_ne s d c _ _ v (Or.inr h.2)⟩) s

/-- the mass flow check does not change pressure and enthalpy -/
theorem keep_clip_m (E : ChkEnv K) (c : ChkConn K) (k : PropKind) (hk : k ≠ .m) (s : ChkState K) :
    ((if E.var c .m then clipRange E c .m else ChkStep.skip) s).1.get c k = s.get c k := by
  split
  · exact rel_clip (R := fun a b => b.get c k = a.get c k) (fun _ => rfl) E c .m
      (fun s v => get_put_ne s c c _ _ v (Or.inl hk)) s
  · rfl

/-- What the check of pressure and enthalpy establishes for `c` holds after all checks. -/
theorem establish_state (E : ChkEnv K) (fuel iter : ℕ) (conns : List (ChkConn K)) (comps : List (ChkComp K))
    (P : K → K → Prop) (c : ChkConn K) (hc : c ∈ conns) (hown : OwnBoxes conns c)
    (hest : ∀ s, (checkState E fuel iter c s).2 = none →
      P ((checkState E fuel iter c s).1.get c .p) ((checkState E fuel iter c s).1.get c .h))
    (s : ChkState K) (hok : (checkBounds E fuel iter conns comps s).2 = none) :
    P ((checkBounds E fuel iter conns comps s).1.get c .p) ((checkBounds E fuel iter conns comps s).1.get c .h) := by
  have hest' : ∀ s, (checkConnection E fuel iter c s).2 = none →
      P ((checkConnection E fuel iter c s).1.get c .p) ((checkConnection E fuel iter c s).1.get c .h) := by
    intro s hs
    obtain ⟨g1, _, g3⟩ := andThen_ok hs
    have g4 : (checkConnection E fuel iter c s).1 = _ := g3
    rw [g4, keep_clip_m E c .p (by decide), keep_clip_m E c .h (by decide)]
    exact hest s g1
  refine checkBounds_establish E fuel iter conns comps (fun s => P (s.get c .p) (s.get c .h)) c hc hest' ?_ ?_ s hok
  · intro d hd s hP hs
    rcases hown d hd with rfl | hne
    · exact hest' s hs
    · obtain ⟨h1, h2⟩ := keep_other E fuel iter c d hne s
      rw [h1, h2]
      exact hP
  · intro s s' h hP
    simp only [ChkState.get] at hP ⊢
    rw [h]
    exact hP

theorem pressure_range [IsStrictOrderedRing K] (fl : PureFluid K) (c : ChkConn K) (hgap : fl.pMin + 10 ≤ fl.pMax)
    (s : ChkState K) :
    (checkPressure fl c s).1.get c .p ≤ fl.pMax ∧
    (fl.pMin ≤ (checkPressure fl c s).1.get c .p ∨ ∃ h T, fl.T_ph ((checkPressure fl c s).1.get c .p) h = .ok T) := by
  simp only [checkPressure]
  split
  · simp only [get_put_self]
    exact ⟨le_refl _, Or.inl (by linarith)⟩
  · next h1 =>
    split
    · next h2 =>
      cases hT : fl.T_ph (s.get c .p) (s.get c .h) with
      | ok T => exact ⟨le_of_not_gt h1, Or.inr ⟨_, T, hT⟩⟩
      | error e =>
        simp only [get_put_self]
        exact ⟨hgap, Or.inl (by linarith)⟩
    · next h2 => exact ⟨le_of_not_gt h1, Or.inl (le_of_not_gt h2)⟩

theorem enthalpy_range [IsStrictOrderedRing K] (fl : PureFluid K) (c : ChkConn K) (fuel : ℕ)
    (hgap : ∀ p lo hi, Spec.LowerLimit fl p lo → Spec.UpperLimit fl p hi →
      0 ≤ hi ∧ lo + |lo| / 10000 ≤ hi - hi / 10000)
    (s : ChkState K) (hok : (checkEnthalpy fuel fl c s).2 = none) :
    ∀ lo hi, Spec.LowerLimit fl (s.get c .p) lo → Spec.UpperLimit fl (s.get c .p) hi →
      lo ≤ (checkEnthalpy fuel fl c s).1.get c .h ∧ (checkEnthalpy fuel fl c s).1.get c .h ≤ hi := by
  intro lo hi hlo hhi
  obtain ⟨h0, hg⟩ := hgap _ _ _ hlo hhi
  have hlo' := (lower_spec fl _ _).mpr hlo
  simp only [checkEnthalpy, hlo'] at hok ⊢
  split
  · split
    · next hneg =>
      simp only [get_put_self]
      rw [abs_of_neg hneg] at hg
      constructor <;> linarith
    · next hpos =>
      simp only [get_put_self]
      rw [abs_of_nonneg (le_of_not_gt hpos)] at hg
      have := le_of_not_gt hpos
      constructor <;> linarith
  · next h1 =>
    rw [if_neg h1] at hok
    rcases hu : upperEnthalpy fl (s.get c .p) fuel fl.TMax with _ | (e | hmax)
    · rw [hu] at hok; cases hok
    · rw [hu] at hok; cases hok
    · have := UpperLimit_unique fl _ _ _ (upper_sound fl _ _ fuel _ hu) hhi
      subst this
      have habs := abs_nonneg lo
      simp only
      split
      · simp only [get_put_self]
        constructor <;> linarith
      · next h2 => exact ⟨le_of_not_gt h1, le_of_not_gt h2⟩

/-- C70, pure fluids: after the checks of every iteration a variable pressure does not exceed the maximum
pressure of the fluid, and it is not below the minimum pressure unless the fluid's property functions
accept it; a variable enthalpy lies between the enthalpies at the temperature limits at that pressure.
Assumptions: limits far enough apart, an upper limit of the enthalpy which is not negative, and no
specification of the phase in the first three iterations. -/
theorem C70_pure_partial [IsStrictOrderedRing K] (E : ChkEnv K) (fuel iter : ℕ) (conns : List (ChkConn K))
    (comps : List (ChkComp K)) (c : ChkConn K) (hc : c ∈ conns) (hown : OwnBoxes conns c) (fl : PureFluid K)
    (hfl : ∀ s, E.single s c = some fl) (hphase : c.TdSet = false ∧ c.state = none ∨ 3 ≤ iter)
    (hp : fl.pMin + 10 ≤ fl.pMax)
    (hgap : ∀ p lo hi, Spec.LowerLimit fl p lo → Spec.UpperLimit fl p hi →
      0 ≤ hi ∧ lo + |lo| / 10000 ≤ hi - hi / 10000)
    (s : ChkState K) (hok : (checkBounds E fuel iter conns comps s).2 = none) :
    (E.var c .p = true →
      (checkBounds E fuel iter conns comps s).1.get c .p ≤ fl.pMax ∧
      (fl.pMin ≤ (checkBounds E fuel iter conns comps s).1.get c .p ∨
        ∃ h T, fl.T_ph ((checkBounds E fuel iter conns comps s).1.get c .p) h = .ok T)) ∧
    (E.var c .h = true → ∀ lo hi,
      Spec.LowerLimit fl ((checkBounds E fuel iter conns comps s).1.get c .p) lo →
      Spec.UpperLimit fl ((checkBounds E fuel iter conns comps s).1.get c .p) hi →
      lo ≤ (checkBounds E fuel iter conns comps s).1.get c .h ∧
      (checkBounds E fuel iter conns comps s).1.get c .h ≤ hi) := by
  refine establish_state E fuel iter conns comps (fun p h =>
    (E.var c .p = true → p ≤ fl.pMax ∧ (fl.pMin ≤ p ∨ ∃ h T, fl.T_ph p h = .ok T)) ∧
    (E.var c .h = true → ∀ lo hi, Spec.LowerLimit fl p lo → Spec.UpperLimit fl p hi → lo ≤ h ∧ h ≤ hi))
    c hc hown ?_ s hok
  intro s hs
  have hph : ¬ ((c.TdSet = true ∨ c.state.isSome = true) ∧ iter < 3) := by
    rintro ⟨h1, h2⟩
    rcases hphase with ⟨h3, h4⟩ | h3
    · rw [h3, h4] at h1; simp at h1
    · omega
  simp only [checkState, hfl s] at hs ⊢
  obtain ⟨g1, g2, g3⟩ := andThen_ok hs
  rw [g3]
  have hkeep : ∀ s1, ((if E.var c .h then
      ChkStep.andThen (checkEnthalpy fuel fl c)
        (if (c.TdSet = true ∨ c.state.isSome = true) ∧ iter < 3 then checkTwoPhase fl c else ChkStep.skip)
      else ChkStep.skip) s1).1.get c .p = s1.get c .p := by
    intro s1
    rw [if_neg hph]
    split
    · refine ChkStep.Rel.andThen (R := fun a b => b.get c .p = a.get c .p) (fun _ _ _ h h' => h'.trans h) ?_ ?_ s1
      · exact rel_enthalpy (R := fun a b => b.get c .p = a.get c .p) (fun _ => rfl) fuel fl c (fun s v => get_put_ne s c c _ _ v (Or.inl (by decide)))
      · exact ChkStep.Rel.skip (fun _ => rfl)
    · rfl
  constructor
  · intro hv
    rw [hkeep, if_pos hv]
    exact pressure_range fl c hp s
  · intro hv lo hi
    rw [hkeep]
    rw [if_pos hv, if_neg hph] at g2 ⊢
    obtain ⟨k1, _, k3⟩ := andThen_ok g2
    rw [k3]
    exact enthalpy_range fl c fuel hgap _ k1 lo hi

/-- C70, mixtures: in the first four iterations variable pressures and enthalpies of mixtures lie within
the ranges of the network after the checks, if the connection has no values of a former calculation and
no specified temperature. -/
theorem C70_mixture_partial (E : ChkEnv K) (fuel iter : ℕ) (conns : List (ChkConn K))
    (comps : List (ChkComp K)) (c : ChkConn K) (hc : c ∈ conns) (hown : OwnBoxes conns c)
    (hfl : ∀ s, E.single s c = none) (hiter : iter < 4) (hgood : c.good = false) (hT : c.TSet = false)
    (hle : ∀ k, (E.range k).1 ≤ (E.range k).2)
    (s : ChkState K) (hok : (checkBounds E fuel iter conns comps s).2 = none) (k : PropKind)
    (hv : E.var c k = true) :
    (E.range k).1 ≤ (checkBounds E fuel iter conns comps s).1.get c k ∧
    (checkBounds E fuel iter conns comps s).1.get c k ≤ (E.range k).2 := by
  have key := establish_state E fuel iter conns comps (fun p h =>
    (E.var c .p = true → (E.range .p).1 ≤ p ∧ p ≤ (E.range .p).2) ∧
    (E.var c .h = true → (E.range .h).1 ≤ h ∧ h ≤ (E.range .h).2)) c hc hown ?_ s hok
  · cases k with
    | m => exact C70_mass_partial E fuel iter conns comps (hle .m) s hok c hc hv
    | p => exact key.1 hv
    | h => exact key.2 hv
  · intro s hs
    simp only [checkState, hfl s] at hs ⊢
    rw [if_pos ⟨hiter, hgood⟩] at hs ⊢
    simp only [hT] at hs ⊢
    obtain ⟨g1, g2, g3⟩ := andThen_ok hs
    rw [g3]
    constructor
    · intro hv
      have h1 : ∀ s1, ((if E.var c .h then ChkStep.andThen (clipRange E c .h)
          (if false = true then checkTemperature E c else ChkStep.skip) else ChkStep.skip) s1).1.get c .p = s1.get c .p := by
        intro s1
        split
        · refine ChkStep.Rel.andThen (R := fun a b => b.get c .p = a.get c .p) (fun _ _ _ h h' => h'.trans h) ?_ ?_ s1
          · exact rel_clip (R := fun a b => b.get c .p = a.get c .p) (fun _ => rfl) E c .h (fun s v => get_put_ne s c c _ _ v (Or.inl (by decide)))
          · exact ChkStep.Rel.skip (fun _ => rfl)
        · rfl
      rw [h1, if_pos hv]
      exact clip_range E .p (hle .p) c s
    · intro hv
      rw [if_pos hv] at g2 ⊢
      obtain ⟨_, _, k3⟩ := andThen_ok g2
      rw [k3]
      exact clip_range E .h (hle .h) c _

-- non-vacuity: connection 0 of the example, a pure fluid; all limits are violated before the checks
example : OwnBoxes [demoConn 0, demoConn 1] (demoConn 0) ∧ demoEnv.var (demoConn 0) .p = true ∧
    demoEnv.var (demoConn 0) .h = true ∧ demoFluid.pMin + 10 ≤ demoFluid.pMax ∧
    (checkBounds demoEnv 9 3 [demoConn 0, demoConn 1] [] { demoState with val := fun _ _ => 500 }).2 = none := by
  refine ⟨?_, by decide +kernel, by decide +kernel, by decide +kernel, by decide +kernel⟩
  intro d hd
  simp only [List.mem_cons, List.not_mem_nil, or_false] at hd
  rcases hd with rfl | rfl
  · exact Or.inl rfl
  · exact Or.inr (by decide)

example : ∀ p lo hi : ℚ, Spec.LowerLimit demoFluid p lo → Spec.UpperLimit demoFluid p hi →
    0 ≤ hi ∧ lo + |lo| / 10000 ≤ hi - hi / 10000 := by
  intro p lo hi hlo hhi
  have h1 : Spec.LowerLimit demoFluid p (3001 / 10) := Or.inl (by norm_num [demoFluid])
  have h2 : Spec.UpperLimit demoFluid p (400 * (99 / 100) ^ 3) := by
    refine ⟨3, by norm_num [demoFluid], fun m hm => ⟨.valueError, ?_⟩⟩
    have : m = 0 ∨ m = 1 ∨ m = 2 := by omega
    rcases this with rfl | rfl | rfl <;> norm_num [demoFluid]
  rw [LowerLimit_unique _ _ _ _ hlo h1, UpperLimit_unique _ _ _ _ hhi h2]
  norm_num

/-! ### what does not hold -/

theorem checkBounds_late (E : ChkEnv K) (fuel iter : ℕ) (conns : List (ChkConn K)) (comps : List (ChkComp K))
    (h : 4 ≤ iter) : checkBounds E fuel iter conns comps = checkBounds E fuel 4 conns comps := by
  have h3 : ¬ iter < 3 := by omega
  have h4 : ¬ iter < 4 := by omega
  have h1 : checkConnection E fuel iter = checkConnection E fuel 4 := by
    funext c
    have h0 : checkState E fuel iter c = checkState E fuel 4 c := by
      funext s
      simp [checkState, h3, h4]
    simp only [checkConnection, h0]
  simp only [checkBounds, h1, h3]
  rfl

/-- C70, the user's ranges: pressure and enthalpy of a pure fluid outside of the ranges of the network
are not changed by the checks of any iteration. -/
theorem C70_range_false : ∃ (E : ChkEnv ℚ) (c : ChkConn ℚ) (s : ChkState ℚ), E.var c .p = true ∧ E.var c .h = true ∧
    c.good = false ∧ ∀ iter, (checkBounds E 9 iter [c] [] s).2 = none ∧
      (checkBounds E 9 iter [c] [] s).1.get c .p > (E.range .p).2 ∧
      (checkBounds E 9 iter [c] [] s).1.get c .h > (E.range .h).2 := by
  refine ⟨demoEnv, demoConn 0, { val := fun k _ => if k = .p then 80 else if k = .h then 360 else 1, frac := fun _ _ => 1 },
    by decide +kernel, by decide +kernel, rfl, fun iter => ?_⟩
  by_cases hi : iter < 4
  · have : iter = 0 ∨ iter = 1 ∨ iter = 2 ∨ iter = 3 := by omega
    rcases this with rfl | rfl | rfl | rfl <;> decide +kernel
  · rw [checkBounds_late _ _ _ _ _ (by omega)]
    decide +kernel

/-- C70, the upper limit of the enthalpy: for a negative limit the new value violates the limit. -/
theorem C70_enthalpy_false : ∃ (E : ChkEnv ℚ) (c : ChkConn ℚ) (fl : PureFluid ℚ) (s : ChkState ℚ),
    (∀ s, E.single s c = some fl) ∧ E.var c .h = true ∧ (checkBounds E 9 5 [c] [] s).2 = none ∧
    Spec.LowerLimit fl ((checkBounds E 9 5 [c] [] s).1.get c .p) (-1000) ∧
    Spec.UpperLimit fl ((checkBounds E 9 5 [c] [] s).1.get c .p) (-100) ∧
    (checkBounds E 9 5 [c] [] s).1.get c .h > -100 := by
  refine ⟨{ demoEnv with single := fun _ _ => some { demoFluid with h_pT := fun _ T => .ok (if T = 400 then -100 else -1000) } },
    demoConn 0, { demoFluid with h_pT := fun _ T => .ok (if T = 400 then -100 else -1000) },
    { val := fun k _ => if k = .p then 80 else if k = .h then 0 else 1, frac := fun _ _ => 1 },
    fun _ => rfl, by decide +kernel, by decide +kernel, Or.inl (by decide +kernel), ⟨0, by decide +kernel, fun m hm => by omega⟩,
    by decide +kernel⟩

/-- C70, mixtures: from the fifth iteration on pressures and enthalpies of mixtures are not limited. -/
theorem C70_late_false : ∃ (E : ChkEnv ℚ) (c : ChkConn ℚ) (s : ChkState ℚ), E.var c .p = true ∧
    (∀ s, E.single s c = none) ∧ ∀ iter, 4 ≤ iter → (checkBounds E 9 iter [c] [] s).2 = none ∧
      (checkBounds E 9 iter [c] [] s).1.get c .p > (E.range .p).2 := by
  refine ⟨{ demoEnv with single := fun _ _ => none }, demoConn 0, { val := fun _ _ => 80, frac := fun _ _ => 1 },
    by decide +kernel, fun _ => rfl, fun iter hi => ?_⟩
  rw [checkBounds_late _ _ _ _ _ hi]
  decide +kernel

/-- C70, phase: the check for a connection specified as liquid moves a negative enthalpy above the
saturated liquid further into the two-phase region. -/
theorem C70_phase_false : ∃ (E : ChkEnv ℚ) (c : ChkConn ℚ) (fl : PureFluid ℚ) (s : ChkState ℚ),
    (∀ s, E.single s c = some fl) ∧ E.var c .h = true ∧ c.state = some "l" ∧ (checkBounds E 9 0 [c] [] s).2 = none ∧
    (∀ p, fl.h_pQ p 0 = .ok (-100)) ∧ s.get c .h = -9999 / 100 ∧
    (checkBounds E 9 0 [c] [] s).1.get c .h = -99 := by
  refine ⟨{ demoEnv with single := fun _ _ => some { demoFluid with
        h_pT := fun _ T => .ok (T - 350), h_pQ := fun _ _ => .ok (-100) }, isVar := fun _ _ => true },
    { demoConn 0 with state := some "l" },
    { demoFluid with h_pT := fun _ T => .ok (T - 350), h_pQ := fun _ _ => .ok (-100) },
    { val := fun k _ => if k = .p then 80 else if k = .h then -9999 / 100 else 1, frac := fun _ _ => 1 },
    fun _ => rfl, by decide +kernel, rfl, ?_, fun _ => rfl, by decide +kernel, ?_⟩
  · decide +kernel
  · decide +kernel

/-! ### feasible values -/

/-- Values within all limits: mass flow strictly within the range, sum of the mass fractions one if any
is variable, pressure and enthalpy of a pure fluid within the limits of the fluid. -/
structure Spec.Feasible (E : ChkEnv K) (fuel : ℕ) (s : ChkState K) (c : ChkConn K) : Prop where
  mass : (E.range .m).1 ≤ s.get c .m ∧ s.get c .m ≤ (E.range .m).2
  sum : E.fvar c.fid = [] ∨ ((E.fluids c.fid).map (s.frac c.fid)).sum = 1
  pressure : ∀ fl, E.single s c = some fl → fl.pMin ≤ s.get c .p ∧ s.get c .p ≤ fl.pMax
  enthalpy : ∀ fl, E.single s c = some fl → ∃ lo hi, Spec.LowerLimit fl (s.get c .p) lo ∧
    Spec.UpperLimitFound fl fuel (s.get c .p) hi ∧ lo ≤ s.get c .h ∧ s.get c .h ≤ hi

theorem put_same (s : ChkState K) (c : ChkConn K) (k : PropKind) (v : K) (h : s.get c k = v) : s.put c k v = s := by
  cases s with
  | mk val frac =>
    simp only [ChkState.put, ChkState.mk.injEq, and_true]
    funext k' i
    split
    · next hc =>
      obtain ⟨rfl, rfl⟩ := hc
      exact h.symm
    · rfl

/-- C70: values within all limits are not changed by the checks from the fourth iteration on (for
mixtures from the fifth iteration on): a solution within the limits stays a solution. -/
theorem C70_unchanged_partial (E : ChkEnv K) (fuel iter : ℕ) (conns : List (ChkConn K)) (comps : List (ChkComp K))
    (s : ChkState K) (hiter : 4 ≤ iter) (hf : ∀ c ∈ conns, Spec.Feasible E fuel s c) :
    checkBounds E fuel iter conns comps s = (s, none) := by
  have h3 : ¬ iter < 3 := by omega
  have h4 : ¬ iter < 4 := by omega
  have hone : ∀ c ∈ conns, ((normaliseFluids E c).andThen (checkConnection E fuel iter c)) s = (s, none) := by
    intro c hc
    obtain ⟨hm, hs, hp, hh⟩ := hf c hc
    have g1 : normaliseFluids E c s = (s, none) := by
      simp only [normaliseFluids]
      split
      · rfl
      · next hne =>
        have h1 := hs.resolve_left hne
        rw [if_neg (by rw [h1]; exact one_ne_zero), h1]
        simp
    have g2 : checkState E fuel iter c s = (s, none) := by
      simp only [checkState, h3, h4, and_false, false_and, if_false]
      cases hfl : E.single s c with
      | none => rfl
      | some fl =>
        obtain ⟨p1, p2⟩ := hp fl hfl
        obtain ⟨lo, hi, e1, ⟨n, hn, e2, e2'⟩, e3, e4⟩ := hh fl hfl
        have k1 : checkPressure fl c s = (s, none) := by
          simp only [checkPressure]
          rw [if_neg (not_lt.mpr p2), if_neg (not_lt.mpr p1)]
        have k2 : checkEnthalpy fuel fl c s = (s, none) := by
          simp only [checkEnthalpy, (lower_spec fl _ _).mpr e1, upper_complete fl _ _ n _ e2 e2' fuel hn]
          rw [if_neg (not_lt.mpr e3), if_neg (not_lt.mpr e4)]
        simp only [ChkStep.andThen]
        cases E.var c .p <;> cases E.var c .h <;> simp [ChkStep.skip, ChkStep.andThen, k1, k2]
    have g3 : (if E.var c .m then clipRange E c .m else ChkStep.skip) s = (s, none) := by
      split
      · simp only [clipRange]
        split
        · next h => rw [put_same s c .m _ (le_antisymm h hm.1)]
        · split
          · next h => rw [put_same s c .m _ (le_antisymm hm.2 h)]
          · rfl
      · rfl
    simp only [ChkStep.andThen, g1, checkConnection, g2, g3]
  have hall : ∀ l : List (ChkConn K), (∀ c ∈ l, c ∈ conns) →
      ChkStep.forEach (fun c => (normaliseFluids E c).andThen (checkConnection E fuel iter c)) l s = (s, none) := by
    intro l
    induction l with
    | nil => intro _; rfl
    | cons c l ih =>
      intro hl
      simp only [ChkStep.forEach]
      rw [ChkStep.andThen, hone c (hl c (by simp))]
      exact ih (fun d hd => hl d (by simp [hd]))
  simp only [checkBounds]
  rw [ChkStep.andThen, hall conns (fun _ h => h), if_neg h3]
  rfl

-- non-vacuity: feasible values of the example
example : ∀ c ∈ [demoConn 0, demoConn 1], Spec.Feasible demoEnv 9
    { val := fun k _ => if k = .p then 80 else if k = .h then 350 else 1, frac := fun _ _ => 1 } c := by
  intro c hc
  simp only [List.mem_cons, List.not_mem_nil, or_false] at hc
  rcases hc with rfl | rfl <;>
  exact ⟨by decide +kernel, Or.inl rfl, fun fl h => by cases h; decide +kernel, fun fl h => by
    cases h
    exact ⟨3001 / 10, 400 * (99 / 100) ^ 3, Or.inl (by decide +kernel), ⟨3, by omega, by decide +kernel, fun m hm => by
      have : m = 0 ∨ m = 1 ∨ m = 2 := by omega
      rcases this with rfl | rfl | rfl <;> exact ⟨⟨.valueError, by decide +kernel⟩, by decide +kernel⟩⟩, by decide +kernel, by decide +kernel⟩⟩

end Tespy
