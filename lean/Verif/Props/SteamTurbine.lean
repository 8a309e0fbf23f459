import Verif.Model.SteamTurbine
import Mathlib.Topology.Order.IntermediateValue
import Mathlib.Topology.Instances.Real.Lemmas
import Mathlib.Topology.Algebra.Order.Group
import Mathlib.Tactic.Linarith
import Mathlib.Tactic.Ring
import Mathlib.Tactic.NormNum
import Mathlib.Tactic.FieldSimp
/-!
C86: steam turbines expand along the dry efficiency down to saturation and with the Baumann rule below.
-/
namespace Tespy
open Set

namespace Spec

/-- Steam: `hl`, `hv` are the enthalpies of saturated liquid and vapour, `s` the entropy, `pc` the critical pressure.
Saturated vapour may be reported as any phase, saturated liquid as any phase but gas. Isobars diverge: the
higher the entropy, the larger the drop of enthalpy between two pressures (temperature falls in the expansion). -/
structure Steam (F : SteamFuns) (s : ℝ → ℝ → ℝ) (hl hv : ℝ → ℝ) (pc : ℝ) : Prop where
  order : ∀ p, p < pc → hl p < hv p
  wet : ∀ p h, p < pc → hl p < h → h < hv p → F.phase p h = "tp"
  dry : ∀ p h, p < pc → hv p < h → F.phase p h = "g"
  liquid : ∀ p h, p < pc → h < hl p → F.phase p h = "l"
  boiling : ∀ p, p < pc → F.phase p (hl p) ≠ "g"
  quality : ∀ p h, p < pc → F.x p h = max 0 (min 1 ((h - hl p) / (hv p - hl p)))
  sat : ∀ p, p < pc → F.hSat p = .ok (hv p)
  supercritical : ∀ p, pc < p → F.hSat p = .error .valueError
  isen : ∀ p₁ h p₂, s p₂ (F.isen p₁ h p₂) = s p₁ h
  mono : ∀ p, StrictMono (s p)
  expand : ∀ p₁ h p₂, p₂ < p₁ → F.isen p₁ h p₂ < h
  diverge : ∀ p₁ p₂ a b, p₂ ≤ p₁ → a ≤ b → a - F.isen p₁ a p₂ ≤ b - F.isen p₁ b p₂
  contIsen : ∀ p h, Continuous (F.isen p h)
  contVap : ContinuousOn hv (Iio pc)

/-- The search of `brentq` finds a root in `[0, 1]` of a continuous function with a change of sign. -/
def FindsRoots (core : (ℝ → PyRes ℝ) → PyRes ℝ) : Prop :=
  ∀ (f : ℝ → PyRes ℝ) (g : ℝ → ℝ), (∀ t ∈ Icc (0 : ℝ) 1, f t = .ok (g t)) → ContinuousOn g (Icc 0 1) →
    g 0 * g 1 ≤ 0 → ∃ r ∈ Icc (0 : ℝ) 1, core f = .ok r ∧ g r = 0

/-- Wetness of a state: share of liquid between saturated vapour (0) and saturated liquid (1). -/
noncomputable def wetness (hl hv : ℝ → ℝ) (p h : ℝ) : ℝ :=
  1 - max 0 (min 1 ((h - hl p) / (hv p - hl p)))

/-- A change of state from `(p₁, h₁)` to `(p₂, h₂)` with isentropic efficiency `eta`: the drop of enthalpy is the share
`eta` of the drop to the state of the same entropy. -/
def Expansion (s : ℝ → ℝ → ℝ) (eta p₁ h₁ p₂ h₂ : ℝ) : Prop :=
  ∃ hs, s p₂ hs = s p₁ h₁ ∧ h₁ - h₂ = eta * (h₁ - hs)

/-- Expansion from superheated steam: dry down to the outlet, or dry down to saturation and from there to the wet outlet
with the efficiency reduced by the mean wetness. -/
def SteamExpansion (s : ℝ → ℝ → ℝ) (hl hv : ℝ → ℝ) (eta alpha : ℝ) (c : SteamState) : Prop :=
  (hv c.pOut ≤ c.hOut ∧ Expansion s eta c.pIn c.hIn c.pOut c.hOut) ∨
  (c.hOut ≤ hv c.pOut ∧ ∃ p, c.pOut ≤ p ∧ p ≤ c.pIn ∧ Expansion s eta c.pIn c.hIn p (hv p) ∧
    Expansion s (eta * (1 - alpha * ((0 + wetness hl hv c.pOut c.hOut) / 2))) p (hv p) c.pOut c.hOut)

/-- Along the dry expansion steam becomes wetter: its enthalpy falls relative to that of saturated vapour. -/
def GetsWetter (s : ℝ → ℝ → ℝ) (hv : ℝ → ℝ) (eta pIn hIn pOut : ℝ) : Prop :=
  ∀ p q a b, pOut ≤ p → p < q → q ≤ pIn → Expansion s eta pIn hIn p a → Expansion s eta pIn hIn q b →
    a - hv p < b - hv q

end Spec

section
variable {F : SteamFuns} {s : ℝ → ℝ → ℝ} {hl hv : ℝ → ℝ} {pc : ℝ}

theorem expansion_iff (hS : Spec.Steam F s hl hv pc) (eta p₁ h₁ p₂ h₂ : ℝ) :
    Spec.Expansion s eta p₁ h₁ p₂ h₂ ↔ h₂ = h₁ - eta * (h₁ - F.isen p₁ h₁ p₂) := by
  constructor
  · rintro ⟨hs, h1, h2⟩
    have : hs = F.isen p₁ h₁ p₂ := (hS.mono p₂).injective (by rw [h1, hS.isen])
    subst this; linarith
  · intro h
    exact ⟨_, hS.isen _ _ _, by rw [h]; ring⟩

theorem isen_self (hS : Spec.Steam F s hl hv pc) (p h : ℝ) : F.isen p h p = h :=
  (hS.mono p).injective (hS.isen p h p)

theorem wetness_eq (hS : Spec.Steam F s hl hv pc) {p : ℝ} (hp : p < pc) (h : ℝ) :
    F.x p h = 1 - Spec.wetness hl hv p h := by
  rw [hS.quality p h hp, Spec.wetness]; ring

theorem wetness_nonneg (p h : ℝ) : 0 ≤ Spec.wetness hl hv p h := by
  unfold Spec.wetness
  have : max 0 (min 1 ((h - hl p) / (hv p - hl p))) ≤ 1 := max_le zero_le_one (min_le_left _ _)
  linarith

theorem wetness_le_one (p h : ℝ) : Spec.wetness hl hv p h ≤ 1 := by
  unfold Spec.wetness
  have := le_max_left (0 : ℝ) (min 1 ((h - hl p) / (hv p - hl p)))
  linarith

theorem wetness_anti (hS : Spec.Steam F s hl hv pc) {p : ℝ} (hp : p < pc) {a b : ℝ} (hab : a ≤ b) :
    Spec.wetness hl hv p b ≤ Spec.wetness hl hv p a := by
  unfold Spec.wetness
  have h0 : 0 < hv p - hl p := sub_pos.2 (hS.order p hp)
  have : (a - hl p) / (hv p - hl p) ≤ (b - hl p) / (hv p - hl p) := by gcongr
  have := max_le_max_left 0 (min_le_min_left 1 this)
  linarith

theorem wetness_dry (hS : Spec.Steam F s hl hv pc) {p h : ℝ} (hp : p < pc) (hh : hv p ≤ h) :
    Spec.wetness hl hv p h = 0 := by
  unfold Spec.wetness
  have h0 : 0 < hv p - hl p := sub_pos.2 (hS.order p hp)
  have : 1 ≤ (h - hl p) / (hv p - hl p) := by rw [le_div_iff₀ h0]; linarith
  rw [min_eq_left this, max_eq_right zero_le_one]; ring

/-- enthalpy of the dry expansion relative to saturated vapour, over the fraction of the pressure drop -/
noncomputable def dryG (F : SteamFuns) (hv : ℝ → ℝ) (c : SteamState) (eta t : ℝ) : ℝ :=
  c.hIn - eta * (c.hIn - F.isen c.pIn c.hIn (c.pIn - t * (c.pIn - c.pOut)))
    - hv (c.pIn - t * (c.pIn - c.pOut))

theorem pAt_lt {c : SteamState} (hp : c.pOut < c.pIn) (hc : c.pIn < pc) {t : ℝ} (ht : t ∈ Icc (0 : ℝ) 1) :
    c.pIn - t * (c.pIn - c.pOut) < pc := by
  have := mul_nonneg ht.1 (sub_nonneg.2 hp.le); linarith

theorem findSat_eq (hS : Spec.Steam F s hl hv pc) {c : SteamState} (hp : c.pOut < c.pIn) (hc : c.pIn < pc) (eta : ℝ)
    {t : ℝ} (ht : t ∈ Icc (0 : ℝ) 1) : steamFindSat F c eta t = .ok (dryG F hv c eta t) := by
  unfold steamFindSat dryG
  simp only [hS.sat _ (pAt_lt hp hc ht)]

theorem dryG_cont (hS : Spec.Steam F s hl hv pc) {c : SteamState} (hp : c.pOut < c.pIn) (hc : c.pIn < pc) (eta : ℝ) :
    ContinuousOn (dryG F hv c eta) (Icc 0 1) := by
  unfold dryG
  have hlin : Continuous (fun t : ℝ => c.pIn - t * (c.pIn - c.pOut)) := by fun_prop
  have h1 : Continuous (fun t : ℝ => F.isen c.pIn c.hIn (c.pIn - t * (c.pIn - c.pOut))) :=
    (hS.contIsen _ _).comp hlin
  have h2 : ContinuousOn (fun t : ℝ => hv (c.pIn - t * (c.pIn - c.pOut))) (Icc 0 1) :=
    hS.contVap.comp hlin.continuousOn (fun t ht => pAt_lt hp hc ht)
  have h3 : Continuous (fun t : ℝ => c.hIn - eta * (c.hIn - F.isen c.pIn c.hIn (c.pIn - t * (c.pIn - c.pOut)))) := by
    fun_prop
  exact h3.continuousOn.sub h2

theorem dryG_zero (hS : Spec.Steam F s hl hv pc) (c : SteamState) (eta : ℝ) :
    dryG F hv c eta 0 = c.hIn - hv c.pIn := by
  unfold dryG; simp [isen_self hS]

theorem dryG_one (c : SteamState) (eta : ℝ) :
    dryG F hv c eta 1 = c.hIn - eta * (c.hIn - F.isen c.pIn c.hIn c.pOut) - hv c.pOut := by
  unfold dryG; simp

theorem dryG_anti (hS : Spec.Steam F s hl hv pc) {c : SteamState} (hp : c.pOut < c.pIn) {eta : ℝ}
    (hw : Spec.GetsWetter s hv eta c.pIn c.hIn c.pOut) {a b : ℝ} (ha : 0 ≤ a) (hab : a < b) (hb : b ≤ 1) :
    dryG F hv c eta b < dryG F hv c eta a := by
  have h0 := sub_pos.2 hp
  refine hw (c.pIn - b * (c.pIn - c.pOut)) (c.pIn - a * (c.pIn - c.pOut)) _ _ ?_ ?_ ?_ ((expansion_iff hS ..).2 rfl)
    ((expansion_iff hS ..).2 rfl)
  · nlinarith
  · nlinarith
  · nlinarith

/-- root of the search: exists exactly if the dry expansion ends at or below saturation -/
theorem steamBrentq_ok (hS : Spec.Steam F s hl hv pc) (hR : Spec.FindsRoots F.core) {c : SteamState}
    (hp : c.pOut < c.pIn) (hc : c.pIn < pc) {eta : ℝ} (hi : hv c.pIn ≤ c.hIn)
    (h1 : dryG F hv c eta 1 ≤ 0) :
    ∃ r ∈ Icc (0 : ℝ) 1, steamBrentq F (steamFindSat F c eta) = .ok r ∧ dryG F hv c eta r = 0 := by
  have h0 : 0 ≤ dryG F hv c eta 0 := by rw [dryG_zero hS]; linarith
  obtain ⟨r, hr, hcore, hz⟩ := hR (steamFindSat F c eta) (dryG F hv c eta) (fun t ht => findSat_eq hS hp hc eta ht)
    (dryG_cont hS hp hc eta) (mul_nonpos_of_nonneg_of_nonpos h0 h1)
  refine ⟨r, hr, ?_, hz⟩
  unfold steamBrentq
  rw [findSat_eq hS hp hc eta (by simp), findSat_eq hS hp hc eta (by simp)]
  simp only
  rw [if_neg (by have := mul_nonpos_of_nonneg_of_nonpos h0 h1; linarith), hcore]

theorem steamBrentq_err (hS : Spec.Steam F s hl hv pc) {c : SteamState}
    (hp : c.pOut < c.pIn) (hc : c.pIn < pc) {eta : ℝ} (h : 0 < dryG F hv c eta 1 * dryG F hv c eta 0) :
    steamBrentq F (steamFindSat F c eta) = .error .valueError := by
  unfold steamBrentq
  rw [findSat_eq hS hp hc eta (by simp), findSat_eq hS hp hc eta (by simp)]
  simp only
  rw [if_pos h]

theorem steamEta_zero (hS : Spec.Steam F s hl hv pc) {c : SteamState} (hp : c.pOut < c.pIn) (e : ℝ) :
    (match steamEta F c with
      | .error e => (.error e : PyRes ℝ)
      | .ok x => .ok (x - e)) = .ok 0 ↔ c.hOut = c.hIn - e * (c.hIn - F.isen c.pIn c.hIn c.pOut) := by
  have h := hS.expand c.pIn c.hIn c.pOut hp
  have hne : F.isen c.pIn c.hIn c.pOut - c.hIn ≠ 0 := (sub_neg.2 h).ne
  unfold steamEta rdiv
  rw [if_neg hne]
  simp only [Except.ok.injEq]
  rw [sub_eq_zero, div_eq_iff hne]
  constructor <;> intro h <;> linarith

theorem steamRes_tp (hS : Spec.Steam F s hl hv pc) {c : SteamState} (hp : c.pOut < c.pIn) (eta alpha : ℝ)
    (h : F.phase c.pIn c.hIn = "tp") : steamRes F c eta alpha = .ok 0 ↔
      c.hOut = c.hIn - eta * (1 - alpha * (1 - (F.x c.pIn c.hIn + F.x c.pOut c.hOut) / 2))
        * (c.hIn - F.isen c.pIn c.hIn c.pOut) := by
  rw [← steamEta_zero hS hp]
  unfold steamRes
  rw [if_pos h]
  cases steamEta F c <;> simp

theorem steamRes_g (hS : Spec.Steam F s hl hv pc) {c : SteamState} (hp : c.pOut < c.pIn) (eta alpha : ℝ)
    (h : F.phase c.pIn c.hIn ≠ "tp") (ho : F.phase c.pOut c.hOut = "g") : steamRes F c eta alpha = .ok 0 ↔
      c.hOut = c.hIn - eta * (c.hIn - F.isen c.pIn c.hIn c.pOut) := by
  rw [← steamEta_zero hS hp]
  unfold steamRes
  rw [if_neg h, if_pos ho]
  cases steamEta F c <;> simp

theorem steamRes_wet {c : SteamState} (eta alpha : ℝ)
    (h : F.phase c.pIn c.hIn ≠ "tp") (ho : F.phase c.pOut c.hOut ≠ "g") :
    steamRes F c eta alpha = steamWetRes F c eta alpha := by
  unfold steamRes
  rw [if_neg h, if_neg ho]

theorem not_g_le (hS : Spec.Steam F s hl hv pc) {p h : ℝ} (hp : p < pc) (hh : F.phase p h ≠ "g") : h ≤ hv p := by
  by_contra hc
  exact hh (hS.dry p h hp (not_le.1 hc))

theorem g_ge (hS : Spec.Steam F s hl hv pc) {p h : ℝ} (hp : p < pc) (hh : F.phase p h = "g") : hv p ≤ h := by
  by_contra hc
  have hc := not_le.1 hc
  rcases lt_trichotomy h (hl p) with h1 | h1 | h1
  · rw [hS.liquid p h hp h1] at hh; simp at hh
  · subst h1; exact hS.boiling p hp hh
  · rw [hS.wet p h hp h1 hc] at hh; simp at hh

theorem tp_le (hS : Spec.Steam F s hl hv pc) {p h : ℝ} (hp : p < pc) (hh : F.phase p h = "tp") : h ≤ hv p :=
  not_g_le hS hp (by rw [hh]; simp)

theorem crossing_iff (hS : Spec.Steam F s hl hv pc) {c : SteamState} (hp : c.pOut < c.pIn) {eta t : ℝ} :
    dryG F hv c eta t = 0 ↔ Spec.Expansion s eta c.pIn c.hIn (c.pIn - t * (c.pIn - c.pOut))
      (hv (c.pIn - t * (c.pIn - c.pOut))) := by
  rw [expansion_iff hS, dryG]
  constructor <;> intro h <;> linarith

theorem fraction (c : SteamState) (hp : c.pOut < c.pIn) {p : ℝ} (h1 : c.pOut ≤ p) (h2 : p ≤ c.pIn) :
    ∃ t ∈ Icc (0 : ℝ) 1, p = c.pIn - t * (c.pIn - c.pOut) := by
  have h0 := sub_pos.2 hp
  refine ⟨(c.pIn - p) / (c.pIn - c.pOut), ⟨div_nonneg (by linarith) h0.le, ?_⟩, ?_⟩
  · rw [div_le_one h0]; linarith
  · rw [div_mul_cancel₀ _ h0.ne']; ring

theorem dryG_unique (hS : Spec.Steam F s hl hv pc) {c : SteamState} (hp : c.pOut < c.pIn) {eta : ℝ}
    (hw : Spec.GetsWetter s hv eta c.pIn c.hIn c.pOut) {a b : ℝ} (ha : a ∈ Icc (0 : ℝ) 1) (hb : b ∈ Icc (0 : ℝ) 1)
    (h : dryG F hv c eta a = dryG F hv c eta b) : a = b := by
  rcases lt_trichotomy a b with h1 | h1 | h1
  · have := dryG_anti hS hp hw ha.1 h1 hb.2; linarith
  · exact h1
  · have := dryG_anti hS hp hw hb.1 h1 ha.2; linarith

/-- Residual of the wet expansion from superheated steam. -/
theorem steamWetRes_iff (hS : Spec.Steam F s hl hv pc) (hR : Spec.FindsRoots F.core) {c : SteamState}
    (hp : c.pOut < c.pIn) (hc : c.pIn < pc) {eta alpha : ℝ} (hi : hv c.pIn ≤ c.hIn)
    (hw : Spec.GetsWetter s hv eta c.pIn c.hIn c.pOut) :
    steamWetRes F c eta alpha = .ok 0 ↔
      ∃ p, c.pOut ≤ p ∧ p ≤ c.pIn ∧ Spec.Expansion s eta c.pIn c.hIn p (hv p) ∧
        Spec.Expansion s (eta * (1 - alpha * ((0 + Spec.wetness hl hv c.pOut c.hOut) / 2))) p (hv p) c.pOut c.hOut := by
  have h0 := sub_pos.2 hp
  by_cases h1 : dryG F hv c eta 1 ≤ 0
  · obtain ⟨r, hr, hb, hz⟩ := steamBrentq_ok hS hR hp hc hi h1
    have hval : steamWetRes F c eta alpha = .ok 0 ↔
        Spec.Expansion s (eta * (1 - alpha * ((0 + Spec.wetness hl hv c.pOut c.hOut) / 2)))
          (c.pIn - r * (c.pIn - c.pOut)) (hv (c.pIn - r * (c.pIn - c.pOut))) c.pOut c.hOut := by
      rw [expansion_iff hS]
      unfold steamWetRes
      simp only [hb, hS.sat _ (pAt_lt hp hc hr), Except.ok.injEq, wetness_eq hS (hp.trans hc)]
      rw [sub_eq_zero]
      have : (1 : ℝ) - (1 + (1 - Spec.wetness hl hv c.pOut c.hOut)) / 2
          = (0 + Spec.wetness hl hv c.pOut c.hOut) / 2 := by ring
      rw [this]
    rw [hval]
    constructor
    · intro h
      refine ⟨_, ?_, ?_, (crossing_iff hS hp).1 hz, h⟩
      · nlinarith [hr.2]
      · nlinarith [hr.1]
    · rintro ⟨p, hp1, hp2, he, hx⟩
      obtain ⟨t, ht, rfl⟩ := fraction c hp hp1 hp2
      have := dryG_unique hS hp hw ht hr (((crossing_iff hS hp).2 he).trans hz.symm)
      subst this
      exact hx
  · constructor
    · intro h
      have hg0 : 0 < dryG F hv c eta 0 := by
        have := dryG_anti hS hp hw le_rfl one_pos le_rfl
        linarith [not_le.1 h1]
      have := steamBrentq_err hS hp hc (eta := eta) (mul_pos (not_le.1 h1) hg0)
      unfold steamWetRes at h
      rw [this] at h
      simp at h
    · rintro ⟨p, hp1, hp2, he, -⟩
      obtain ⟨t, ht, rfl⟩ := fraction c hp hp1 hp2
      have hz := (crossing_iff hS hp).2 he
      rcases ht.2.lt_or_eq with h2 | h2
      · have := dryG_anti hS hp hw ht.1 h2 le_rfl
        linarith [not_le.1 h1]
      · subst h2; linarith [not_le.1 h1]

/-- Expansion in two steps with the same efficiency ends at or below the expansion in one step. -/
theorem two_steps (hS : Spec.Steam F s hl hv pc) {eta p₁ h₁ p h p₂ h₂ : ℝ} (he0 : 0 ≤ eta) (he1 : eta ≤ 1)
    (h1 : p₂ ≤ p) (h2 : p ≤ p₁) (ha : Spec.Expansion s eta p₁ h₁ p h) (hb : Spec.Expansion s eta p h p₂ h₂) :
    h₂ ≤ h₁ - eta * (h₁ - F.isen p₁ h₁ p₂) := by
  rw [expansion_iff hS] at ha hb
  have hB : F.isen p₁ h₁ p₂ = F.isen p (F.isen p₁ h₁ p) p₂ :=
    (hS.mono p₂).injective (by simp only [hS.isen])
  have hle : F.isen p₁ h₁ p ≤ h₁ := by
    rcases h2.lt_or_eq with h | h
    · exact (hS.expand _ _ _ h).le
    · subst h; rw [isen_self hS]
  have hA : F.isen p₁ h₁ p ≤ h := by
    have := mul_le_mul_of_nonneg_right he1 (sub_nonneg.2 hle)
    linarith
  have hd := mul_le_mul_of_nonneg_left (hS.diverge p p₂ _ _ h1 hA) he0
  rw [hB, hb]
  nlinarith

/-- **C86** The equation of a steam turbine with superheated or saturated steam at the inlet holds exactly for the dry
expansion to a dry outlet, or the dry expansion down to saturation followed by the expansion to the wet outlet with the
efficiency of the Baumann rule. The phase reported for saturated vapour does not matter. -/
theorem C86_meaning (hS : Spec.Steam F s hl hv pc) (hR : Spec.FindsRoots F.core) (c : SteamState)
    (hp : c.pOut < c.pIn) (hc : c.pIn < pc) (eta alpha : ℝ) (he0 : 0 ≤ eta) (he1 : eta ≤ 1)
    (hi : hv c.pIn ≤ c.hIn)
    (hw : Spec.GetsWetter s hv eta c.pIn c.hIn c.pOut) :
    steamRes F c eta alpha = .ok 0 ↔ Spec.SteamExpansion s hl hv eta alpha c := by
  have hpo := hp.trans hc
  have key := steamWetRes_iff hS hR hp hc (alpha := alpha) hi hw
  by_cases ht : F.phase c.pIn c.hIn = "tp"
  · -- saturated vapour reported as two-phase
    have he : c.hIn = hv c.pIn := le_antisymm (tp_le hS hc ht) hi
    rw [steamRes_tp hS hp eta alpha ht]
    have hx : F.x c.pIn c.hIn = 1 := by
      rw [wetness_eq hS hc, wetness_dry hS hc hi]; ring
    rw [hx, wetness_eq hS hpo]
    have hD : c.hIn - eta * (c.hIn - F.isen c.pIn c.hIn c.pOut) < hv c.pOut := by
      have := dryG_anti hS hp hw le_rfl one_pos le_rfl
      rw [dryG_zero hS, dryG_one] at this
      linarith
    unfold Spec.SteamExpansion
    constructor
    · intro h
      right
      refine ⟨?_, c.pIn, hp.le, le_rfl, ?_, ?_⟩
      · by_contra hcon
        have hcon := not_le.1 hcon
        rw [wetness_dry hS hpo hcon.le] at h
        have : c.hOut = c.hIn - eta * (c.hIn - F.isen c.pIn c.hIn c.pOut) := by rw [h]; ring
        linarith
      · rw [expansion_iff hS, isen_self hS, he]; ring
      · rw [expansion_iff hS, ← he]
        refine h.trans ?_
        ring
    · rintro (⟨h1, h2⟩ | ⟨h1, p, hp1, hp2, h2, h3⟩)
      · rw [expansion_iff hS] at h2
        linarith
      · obtain ⟨t, ht, rfl⟩ := fraction c hp hp1 hp2
        have hz := (crossing_iff hS hp).2 h2
        have h00 : dryG F hv c eta 0 = 0 := by rw [dryG_zero hS, he]; ring
        have := dryG_unique hS hp hw ht (by simp) (hz.trans h00.symm)
        subst this
        rw [expansion_iff hS] at h3
        simp only [zero_mul, sub_zero] at h3
        rw [← he] at h3
        refine h3.trans ?_
        ring
  · by_cases ho : F.phase c.pOut c.hOut = "g"
    · have hge := g_ge hS hpo ho
      rw [steamRes_g hS hp eta alpha ht ho, ← expansion_iff hS]
      constructor
      · intro h; exact Or.inl ⟨hge, h⟩
      · rintro (⟨h1, h2⟩ | ⟨h1, p, hp1, hp2, h2, h3⟩)
        · exact h2
        · -- outlet exactly at saturation
          have hy := wetness_dry hS hpo hge
          rw [hy] at h3
          have h4 := two_steps hS he0 he1 hp1 hp2 h2
            (by simpa only [add_zero, zero_div, mul_zero, sub_zero, mul_one] using h3)
          have h5 : c.hIn - eta * (c.hIn - F.isen c.pIn c.hIn c.pOut) ≤ hv c.pOut := by
            obtain ⟨t, ht, rfl⟩ := fraction c hp hp1 hp2
            have hz := (crossing_iff hS hp).2 h2
            have := dryG_one (F := F) (hv := hv) c eta
            rcases ht.2.lt_or_eq with h6 | h6
            · have := dryG_anti hS hp hw ht.1 h6 le_rfl
              linarith
            · subst h6; linarith
          rw [expansion_iff hS]
          linarith
    · have hle := not_g_le hS hpo ho
      rw [steamRes_wet eta alpha ht ho, key]
      constructor
      · intro h; exact Or.inr ⟨hle, h⟩
      · rintro (⟨h1, h2⟩ | ⟨h1, h⟩)
        · have he : c.hOut = hv c.pOut := le_antisymm hle h1
          refine ⟨c.pOut, le_rfl, hp.le, he ▸ h2, ?_⟩
          rw [expansion_iff hS, isen_self hS, he]; ring
        · exact h

/-- **C86** With wet steam at the inlet the equation holds exactly for the expansion with the dry efficiency reduced by
`alpha` times the mean wetness of inlet and outlet. -/
theorem C86_wet_inlet (hS : Spec.Steam F s hl hv pc) (c : SteamState) (hp : c.pOut < c.pIn) (hc : c.pIn < pc)
    (eta alpha : ℝ) (h1 : hl c.pIn < c.hIn) (h2 : c.hIn < hv c.pIn) :
    steamRes F c eta alpha = .ok 0 ↔
      Spec.Expansion s (eta * (1 - alpha *
        ((Spec.wetness hl hv c.pIn c.hIn + Spec.wetness hl hv c.pOut c.hOut) / 2))) c.pIn c.hIn c.pOut c.hOut := by
  rw [steamRes_tp hS hp eta alpha (hS.wet _ _ hc h1 h2), expansion_iff hS, wetness_eq hS hc,
    wetness_eq hS (hp.trans hc)]
  have : (1 : ℝ) - (1 - Spec.wetness hl hv c.pIn c.hIn + (1 - Spec.wetness hl hv c.pOut c.hOut)) / 2
      = (Spec.wetness hl hv c.pIn c.hIn + Spec.wetness hl hv c.pOut c.hOut) / 2 := by ring
  rw [this]

/-- the wet end point is determined by its start -/
theorem wet_unique (hS : Spec.Steam F s hl hv pc) {eta alpha y p₁ h₁ p₂ a b : ℝ} (he : 0 ≤ eta) (hal : 0 ≤ alpha)
    (hp : p₂ ≤ p₁) (hc : p₂ < pc)
    (ha : Spec.Expansion s (eta * (1 - alpha * ((y + Spec.wetness hl hv p₂ a) / 2))) p₁ h₁ p₂ a)
    (hb : Spec.Expansion s (eta * (1 - alpha * ((y + Spec.wetness hl hv p₂ b) / 2))) p₁ h₁ p₂ b) : a = b := by
  have hle : F.isen p₁ h₁ p₂ ≤ h₁ := by
    rcases hp.lt_or_eq with h | h
    · exact (hS.expand _ _ _ h).le
    · subst h; rw [isen_self hS]
  rw [expansion_iff hS] at ha hb
  have main : ∀ u v, u ≤ v →
      u = h₁ - eta * (1 - alpha * ((y + Spec.wetness hl hv p₂ u) / 2)) * (h₁ - F.isen p₁ h₁ p₂) →
      v = h₁ - eta * (1 - alpha * ((y + Spec.wetness hl hv p₂ v) / 2)) * (h₁ - F.isen p₁ h₁ p₂) → v ≤ u := by
    intro u v huv hu hv'
    have hy := wetness_anti hS hc huv
    have h3 := mul_nonneg (mul_nonneg (mul_nonneg he hal) (sub_nonneg.2 hy)) (sub_nonneg.2 hle)
    nlinarith
  rcases le_total a b with h | h
  · exact le_antisymm h (main a b h ha hb)
  · exact le_antisymm (main b a h hb ha) h

/-- **C86** The state at the outlet is unique: for a given inlet (superheated, saturated or wet) and pressure at the outlet
at most one enthalpy at the outlet satisfies the equation. -/
theorem C86_unique (hS : Spec.Steam F s hl hv pc) (hR : Spec.FindsRoots F.core) (pIn hIn pOut a b : ℝ)
    (hp : pOut < pIn) (hc : pIn < pc) (eta alpha : ℝ) (he0 : 0 ≤ eta) (he1 : eta ≤ 1) (hal : 0 ≤ alpha)
    (hi : hl pIn < hIn) (hw : hv pIn ≤ hIn → Spec.GetsWetter s hv eta pIn hIn pOut)
    (ha : steamRes F ⟨pIn, hIn, pOut, a⟩ eta alpha = .ok 0)
    (hb : steamRes F ⟨pIn, hIn, pOut, b⟩ eta alpha = .ok 0) : a = b := by
  rcases lt_or_ge hIn (hv pIn) with hlt | hge
  · rw [C86_wet_inlet hS _ hp hc eta alpha hi hlt] at ha hb
    exact wet_unique hS he0 hal hp.le (hp.trans hc) ha hb
  · have hw := hw hge
    have mix : ∀ a b, Spec.Expansion s eta pIn hIn pOut a → hv pOut ≤ a → ∀ p, pOut ≤ p → p ≤ pIn →
        Spec.Expansion s eta pIn hIn p (hv p) →
        Spec.Expansion s (eta * (1 - alpha * ((0 + Spec.wetness hl hv pOut b) / 2))) p (hv p) pOut b → a = b := by
      intro a b h1 h2 p hp1 hp2 h3 h4
      rcases hp1.lt_or_eq with h | h
      · have := hw pOut p _ _ le_rfl h hp2 h1 h3
        linarith
      · subst h
        rw [expansion_iff hS] at h1 h3 h4
        rw [isen_self hS] at h4
        rw [h4, h1, ← h3]; ring
    rw [C86_meaning hS hR _ hp hc eta alpha he0 he1 hge hw] at ha hb
    rcases ha with ⟨a1, a2⟩ | ⟨a1, p, ap1, ap2, a3, a4⟩ <;> rcases hb with ⟨b1, b2⟩ | ⟨b1, q, bp1, bp2, b3, b4⟩
    · exact ((expansion_iff hS ..).1 a2).trans ((expansion_iff hS ..).1 b2).symm
    · exact mix a b a2 a1 q bp1 bp2 b3 b4
    · exact (mix b a b2 b1 p ap1 ap2 a3 a4).symm
    · have : p = q := by
        rcases lt_trichotomy p q with h | h | h
        · have := hw p q _ _ ap1 h bp2 a3 b3; linarith
        · exact h
        · have := hw q p _ _ bp1 h ap2 b3 a3; linarith
      subst this
      exact wet_unique hS he0 hal ap1 (hp.trans hc) a4 b4

theorem wetness_cont (hl hv : ℝ → ℝ) (p : ℝ) : Continuous (Spec.wetness hl hv p) := by
  unfold Spec.wetness; fun_prop

/-- **C86** For every superheated or saturated inlet there is an enthalpy at the outlet which satisfies the equation. -/
theorem C86_exists (hS : Spec.Steam F s hl hv pc) (hR : Spec.FindsRoots F.core) (pIn hIn pOut : ℝ)
    (hp : pOut < pIn) (hc : pIn < pc) (eta alpha : ℝ) (he0 : 0 ≤ eta) (he1 : eta ≤ 1) (hal : 0 ≤ alpha)
    (hi : hv pIn ≤ hIn) (hw : Spec.GetsWetter s hv eta pIn hIn pOut) :
    ∃ a, steamRes F ⟨pIn, hIn, pOut, a⟩ eta alpha = .ok 0 := by
  rcases le_or_gt (hv pOut) (hIn - eta * (hIn - F.isen pIn hIn pOut)) with h | h
  · refine ⟨_, (C86_meaning hS hR _ hp hc eta alpha he0 he1 hi hw).2 (Or.inl ⟨h, (expansion_iff hS ..).2 rfl⟩)⟩
  · obtain ⟨r, hr, -, hz⟩ := steamBrentq_ok hS hR (c := ⟨pIn, hIn, pOut, 0⟩) hp hc (eta := eta) hi
      (by rw [dryG_one]; simp only; linarith)
    have hx := (crossing_iff hS (c := ⟨pIn, hIn, pOut, 0⟩) hp).1 hz
    simp only at hx
    set p := pIn - r * (pIn - pOut) with hpdef
    have h0 := sub_pos.2 hp
    have hp1 : pOut ≤ p := by nlinarith [hr.2]
    have hp2 : p ≤ pIn := by nlinarith [hr.1]
    have hle : F.isen p (hv p) pOut ≤ hv p := by
      rcases hp1.lt_or_eq with h | h
      · exact (hS.expand _ _ _ h).le
      · rw [← h, isen_self hS]
    set B := F.isen p (hv p) pOut with hB
    let φ : ℝ → ℝ := fun u => u - hv p + eta * (1 - alpha * ((0 + Spec.wetness hl hv pOut u) / 2)) * (hv p - B)
    have hφ : Continuous φ := by
      have := wetness_cont hl hv pOut
      simp only [φ]; fun_prop
    have htwo := two_steps hS he0 he1 hp1 hp2 hx ((expansion_iff hS ..).2 rfl)
    have hlo : hv p - eta * (hv p - B) ≤ hv pOut := by linarith
    have hφlo : φ (hv p - eta * (hv p - B)) ≤ 0 := by
      simp only [φ]
      have := mul_nonneg (mul_nonneg (mul_nonneg he0 hal) (wetness_nonneg (hl := hl) (hv := hv) pOut
        (hv p - eta * (hv p - B)))) (sub_nonneg.2 hle)
      nlinarith
    have hφhi : 0 ≤ φ (hv pOut) := by
      simp only [φ]
      rw [wetness_dry hS (hp.trans hc) le_rfl]
      linarith
    obtain ⟨a, ha, hfa⟩ := intermediate_value_Icc hlo hφ.continuousOn ⟨hφlo, hφhi⟩
    refine ⟨a, (C86_meaning hS hR _ hp hc eta alpha he0 he1 hi hw).2 (Or.inr ⟨ha.2, p, hp1, hp2, hx, ?_⟩)⟩
    rw [expansion_iff hS]
    simp only [φ] at hfa
    simp only
    linarith

theorem entropy_step (hS : Spec.Steam F s hl hv pc) {e p₁ h₁ p₂ h₂ : ℝ} (hp : p₂ ≤ p₁) (he : e ≤ 1)
    (h : Spec.Expansion s e p₁ h₁ p₂ h₂) : s p₁ h₁ ≤ s p₂ h₂ := by
  rw [expansion_iff hS] at h
  have hle : F.isen p₁ h₁ p₂ ≤ h₁ := by
    rcases hp.lt_or_eq with h | h
    · exact (hS.expand _ _ _ h).le
    · subst h; rw [isen_self hS]
  rw [← hS.isen p₁ h₁ p₂]
  apply (hS.mono p₂).monotone
  have := mul_le_mul_of_nonneg_right he (sub_nonneg.2 hle)
  linarith

theorem eff_le {eta alpha y : ℝ} (he0 : 0 ≤ eta) (he1 : eta ≤ 1) (hal : 0 ≤ alpha) (hy : 0 ≤ y) :
    eta * (1 - alpha * y) ≤ 1 := by
  have := mul_nonneg (mul_nonneg he0 hal) hy
  nlinarith

/-- **C86** No solution of the equation violates the second law: with an efficiency between 0 and 1 entropy does not
decrease from inlet to outlet. -/
theorem C86_second_law (hS : Spec.Steam F s hl hv pc) (hR : Spec.FindsRoots F.core) (c : SteamState)
    (hp : c.pOut < c.pIn) (hc : c.pIn < pc) (eta alpha : ℝ) (he0 : 0 ≤ eta) (he1 : eta ≤ 1) (hal : 0 ≤ alpha)
    (hi : hl c.pIn < c.hIn) (hw : hv c.pIn ≤ c.hIn → Spec.GetsWetter s hv eta c.pIn c.hIn c.pOut)
    (h : steamRes F c eta alpha = .ok 0) : s c.pIn c.hIn ≤ s c.pOut c.hOut := by
  have hy := wetness_nonneg (hl := hl) (hv := hv) c.pOut c.hOut
  rcases lt_or_ge c.hIn (hv c.pIn) with hlt | hge
  · rw [C86_wet_inlet hS _ hp hc eta alpha hi hlt] at h
    have hy' := wetness_nonneg (hl := hl) (hv := hv) c.pIn c.hIn
    exact entropy_step hS hp.le (eff_le he0 he1 hal (by linarith)) h
  · rw [C86_meaning hS hR _ hp hc eta alpha he0 he1 hge (hw hge)] at h
    rcases h with ⟨-, h⟩ | ⟨-, p, hp1, hp2, h1, h2⟩
    · exact entropy_step hS hp.le he1 h
    · exact (entropy_step hS hp2 he1 h1).trans (entropy_step hS hp1 (eff_le he0 he1 hal (by linarith)) h2)

/-- **C86** (partial) A steam turbine delivers power, as long as `alpha` times the mean wetness does not exceed 1. Within the
bounds of `alpha` this is not guaranteed, see `C86_power_false`. -/
theorem C86_power_partial (hS : Spec.Steam F s hl hv pc) (hR : Spec.FindsRoots F.core) (c : SteamState)
    (hp : c.pOut < c.pIn) (hc : c.pIn < pc) (eta alpha : ℝ) (he0 : 0 ≤ eta) (he1 : eta ≤ 1)
    (hi : hl c.pIn < c.hIn) (hw : hv c.pIn ≤ c.hIn → Spec.GetsWetter s hv eta c.pIn c.hIn c.pOut)
    (hm : alpha * ((Spec.wetness hl hv c.pIn c.hIn + Spec.wetness hl hv c.pOut c.hOut) / 2) ≤ 1)
    (h : steamRes F c eta alpha = .ok 0) : c.hOut ≤ c.hIn := by
  have step : ∀ e p₁ h₁ p₂ h₂, 0 ≤ e → p₂ ≤ p₁ → Spec.Expansion s e p₁ h₁ p₂ h₂ → h₂ ≤ h₁ := by
    intro e p₁ h₁ p₂ h₂ he hp h
    rw [expansion_iff hS] at h
    have hle : F.isen p₁ h₁ p₂ ≤ h₁ := by
      rcases hp.lt_or_eq with h | h
      · exact (hS.expand _ _ _ h).le
      · subst h; rw [isen_self hS]
    have := mul_nonneg he (sub_nonneg.2 hle)
    linarith
  rcases lt_or_ge c.hIn (hv c.pIn) with hlt | hge
  · rw [C86_wet_inlet hS _ hp hc eta alpha hi hlt] at h
    exact step _ _ _ _ _ (mul_nonneg he0 (by linarith)) hp.le h
  · rw [C86_meaning hS hR _ hp hc eta alpha he0 he1 hge (hw hge)] at h
    rw [wetness_dry hS hc hge] at hm
    rcases h with ⟨-, h⟩ | ⟨-, p, hp1, hp2, h1, h2⟩
    · exact step _ _ _ _ _ he0 hp.le h
    · exact (step _ _ _ _ _ (mul_nonneg he0 (by linarith)) hp1 h2).trans (step _ _ _ _ _ he0 hp2 h1)

/-- **C86** The isentropic efficiency in the results is that of the whole expansion: drop of enthalpy over the drop to the
state of the same entropy. -/
theorem C86_reported (hS : Spec.Steam F s hl hv pc) (c : SteamState) (hp : c.pOut < c.pIn) (e : ℝ) :
    steamEta F c = .ok e ↔ Spec.Expansion s e c.pIn c.hIn c.pOut c.hOut := by
  rw [expansion_iff hS, ← steamEta_zero hS hp]
  cases steamEta F c with
  | error x => simp
  | ok x => simp only [Except.ok.injEq]; rw [sub_eq_zero]

/-- **C86** (negated) The equation of a dry expansion cannot be evaluated at a wet outlet: if the dry expansion ends
superheated and the outlet is wet in some iteration, `ValueError` ends the calculation, although a solution exists. -/
theorem C86_iterate_false (hS : Spec.Steam F s hl hv pc) (c : SteamState) (hp : c.pOut < c.pIn) (hc : c.pIn < pc)
    (eta alpha : ℝ) (hi : hv c.pIn < c.hIn) (ho : c.hOut < hv c.pOut) (d : ℝ)
    (hd : Spec.Expansion s eta c.pIn c.hIn c.pOut d) (hdry : hv c.pOut < d) :
    steamRes F c eta alpha = .error .valueError ∧
      steamRes F { c with hOut := d } eta alpha = .ok 0 := by
  have hpo := hp.trans hc
  have hti : F.phase c.pIn c.hIn ≠ "tp" := by rw [hS.dry _ _ hc hi]; simp
  have hto : F.phase c.pOut c.hOut ≠ "g" := fun h => absurd (g_ge hS hpo h) (not_le.2 ho)
  constructor
  · rw [steamRes_wet eta alpha hti hto]
    have : 0 < dryG F hv c eta 1 * dryG F hv c eta 0 := by
      rw [expansion_iff hS] at hd
      rw [dryG_one, dryG_zero hS]
      exact mul_pos (by linarith) (by linarith)
    unfold steamWetRes
    rw [steamBrentq_err hS hp hc this]
  · rw [steamRes_g hS (c := { c with hOut := d }) hp eta alpha hti (hS.dry _ _ hpo hdry)]
    exact (expansion_iff hS ..).1 hd

/-- **C86** (negated) Subcooled liquid at the inlet: unless the outlet is superheated the equation raises `ValueError`. -/
theorem C86_liquid_false (hS : Spec.Steam F s hl hv pc) (c : SteamState) (hp : c.pOut < c.pIn) (hc : c.pIn < pc)
    (eta alpha : ℝ) (hi : c.hIn < hl c.pIn) (ho : c.hOut < hv c.pOut) (d : ℝ)
    (hd : Spec.Expansion s eta c.pIn c.hIn c.pOut d) (hwet : d < hv c.pOut) :
    steamRes F c eta alpha = .error .valueError := by
  have hpo := hp.trans hc
  have hti : F.phase c.pIn c.hIn ≠ "tp" := by rw [hS.liquid _ _ hc hi]; simp
  have hto : F.phase c.pOut c.hOut ≠ "g" := fun h => absurd (g_ge hS hpo h) (not_le.2 ho)
  rw [steamRes_wet eta alpha hti hto]
  have : 0 < dryG F hv c eta 1 * dryG F hv c eta 0 := by
    rw [expansion_iff hS] at hd
    rw [dryG_one, dryG_zero hS]
    have := hS.order _ hc
    exact mul_pos_of_neg_of_neg (by linarith) (by linarith)
  unfold steamWetRes
  rw [steamBrentq_err hS hp hc this]

/-- **C86** (negated) A supercritical pressure at the inlet and a wet outlet: the equation raises `ValueError`, whatever the
efficiency, because the enthalpy of saturated steam is evaluated at the pressure of the inlet. -/
theorem C86_supercritical_false (hS : Spec.Steam F s hl hv pc) (c : SteamState) (hc : pc < c.pIn) (hpo : c.pOut < pc)
    (eta alpha : ℝ) (hi : F.phase c.pIn c.hIn ≠ "tp") (ho : c.hOut < hv c.pOut) :
    steamRes F c eta alpha = .error .valueError := by
  have hto : F.phase c.pOut c.hOut ≠ "g" := fun h => absurd (g_ge hS hpo h) (not_le.2 ho)
  rw [steamRes_wet eta alpha hi hto]
  unfold steamWetRes steamBrentq steamFindSat
  simp only [one_mul, sub_sub_cancel, hS.sat _ hpo, zero_mul, sub_zero, hS.supercritical _ hc]

end

/-- **C86** The component accepts exactly the compositions with one fluid above the precision of 1e-6, and takes that
fluid. -/
theorem C86_pure (fd : FluidData ℝ) (n : String) :
    steamPreprocess fd = .ok n ↔
      ∃ e, fd.filter (fun e => decide ((1 : ℝ) / 1000000 < e.2.y)) = [e] ∧ e.1 = n := by
  have hd : (fun e : String × FluidEntry ℝ => decide ((1 : ℝ) / 1000000 < e.2.y)) = detected := rfl
  rw [hd]
  unfold steamPreprocess numFluids
  rw [← List.head?_filter]
  generalize fd.filter detected = l
  match l with
  | [] => simp
  | [e] => simp
  | a :: b :: r => simp

/-! ### a simple fluid -/

open Classical in
/-- Simple steam: saturated liquid at 0, saturated vapour at 100, entropy `h - 10 p`, critical pressure 100. -/
noncomputable def toySteam : SteamFuns where
  phase := fun _ h => if h < 0 then "l" else if h ≤ 100 then "tp" else "g"
  x := fun _ h => max 0 (min 1 (h / 100))
  isen := fun p₁ h p₂ => h + 10 * (p₂ - p₁)
  hSat := fun p => if p < 100 then .ok 100 else .error .valueError
  core := fun f => if h : ∃ r ∈ Icc (0 : ℝ) 1, f r = .ok 0 then .ok h.choose else .error .valueError

theorem toySteam_spec : Spec.Steam toySteam (fun p h => h - 10 * p) (fun _ => 0) (fun _ => 100) 100 where
  order := by intros; norm_num
  wet := by
    intro p h _ h1 h2
    simp only [toySteam]
    rw [if_neg (by linarith), if_pos (by linarith)]
  dry := by
    intro p h _ h1
    simp only [toySteam]
    rw [if_neg (by linarith), if_neg (by linarith)]
  liquid := by
    intro p h _ h1
    simp only [toySteam]
    rw [if_pos h1]
  boiling := by intro p _; simp [toySteam]
  quality := by intro p h _; simp [toySteam]
  sat := by intro p hp; simp [toySteam, hp]
  supercritical := by intro p hp; simp [toySteam, not_lt.2 hp.le]
  isen := by intro p₁ h p₂; simp only [toySteam]; ring
  mono := by intro p a b h; simp only; linarith
  expand := by intro p₁ h p₂ hp; simp only [toySteam]; linarith
  diverge := by intro p₁ p₂ a b _ hab; simp only [toySteam]; linarith
  contIsen := by intro p h; simp only [toySteam]; fun_prop
  contVap := by fun_prop

theorem toySteam_roots : Spec.FindsRoots toySteam.core := by
  intro f g hf hc hs
  have h01 : (0 : ℝ) ≤ 1 := zero_le_one
  have hex : ∃ r ∈ Icc (0 : ℝ) 1, g r = 0 := by
    rcases mul_nonpos_iff.1 hs with ⟨ha, hb⟩ | ⟨ha, hb⟩
    · obtain ⟨r, hr, h⟩ := intermediate_value_Icc' h01 hc ⟨hb, ha⟩
      exact ⟨r, hr, h⟩
    · obtain ⟨r, hr, h⟩ := intermediate_value_Icc h01 hc ⟨ha, hb⟩
      exact ⟨r, hr, h⟩
  have hex' : ∃ r ∈ Icc (0 : ℝ) 1, f r = .ok 0 := by
    obtain ⟨r, hr, h⟩ := hex
    exact ⟨r, hr, by rw [hf r hr, h]⟩
  refine ⟨hex'.choose, hex'.choose_spec.1, ?_, ?_⟩
  · simp only [toySteam]
    rw [dif_pos hex']
  · have := hex'.choose_spec.2
    rw [hf _ hex'.choose_spec.1] at this
    exact Except.ok.inj this

theorem toy_expansion (e p₁ h₁ p₂ h₂ : ℝ) :
    Spec.Expansion (fun p h => h - 10 * p) e p₁ h₁ p₂ h₂ ↔ h₂ = h₁ - e * (10 * (p₁ - p₂)) := by
  rw [expansion_iff toySteam_spec]
  simp only [toySteam]
  constructor <;> intro h <;> rw [h] <;> ring

theorem toy_wetter (eta pIn hIn pOut : ℝ) (he : 0 < eta) :
    Spec.GetsWetter (fun p h => h - 10 * p) (fun _ => 100) eta pIn hIn pOut := by
  intro p q a b _ hpq _ ha hb
  rw [toy_expansion] at ha hb
  have := mul_pos he (sub_pos.2 hpq)
  rw [ha, hb]; nlinarith

/-- superheated inlet at pressure 10 and enthalpy 120, wet outlet at pressure 5: saturation is reached at 70/9, the outlet
is at 700/9 -/
theorem toy_wet_outlet : Spec.SteamExpansion (fun p h => h - 10 * p) (fun _ => 0) (fun _ => 100) (9 / 10) 1
    ⟨10, 120, 5, 700 / 9⟩ := by
  right
  refine ⟨by norm_num, 70 / 9, by norm_num, by norm_num, ?_, ?_⟩
  · rw [toy_expansion]; norm_num
  · rw [toy_expansion]
    have : Spec.wetness (fun _ => 0) (fun _ => 100) 5 (700 / 9) = 2 / 9 := by
      unfold Spec.wetness; norm_num
    simp only [this]; norm_num

theorem toy_wet_outlet_res : steamRes toySteam ⟨10, 120, 5, 700 / 9⟩ (9 / 10) 1 = .ok 0 :=
  (C86_meaning toySteam_spec toySteam_roots _ (by norm_num) (by norm_num) _ _ (by norm_num) (by norm_num) (by norm_num)
    (toy_wetter _ _ _ _ (by norm_num))).2 toy_wet_outlet

/-- dry outlet -/
example : steamRes toySteam ⟨10, 160, 5, 115⟩ (9 / 10) 1 = .ok 0 :=
  (C86_meaning toySteam_spec toySteam_roots _ (by norm_num) (by norm_num) _ _ (by norm_num) (by norm_num) (by norm_num)
    (toy_wetter _ _ _ _ (by norm_num))).2 (Or.inl ⟨by norm_num, by rw [toy_expansion]; norm_num⟩)

/-- the only solution -/
example (a : ℝ) (h : steamRes toySteam ⟨10, 120, 5, a⟩ (9 / 10) 1 = .ok 0) : a = 700 / 9 :=
  C86_unique toySteam_spec toySteam_roots 10 120 5 a (700 / 9) (by norm_num) (by norm_num) _ _ (by norm_num)
    (by norm_num) (by norm_num) (by norm_num) (fun _ => toy_wetter _ _ _ _ (by norm_num)) h toy_wet_outlet_res

example : ∃ a, steamRes toySteam ⟨10, 120, 2, a⟩ (8 / 10) 2 = .ok 0 :=
  C86_exists toySteam_spec toySteam_roots 10 120 2 (by norm_num) (by norm_num) _ _ (by norm_num) (by norm_num)
    (by norm_num) (by norm_num) (toy_wetter _ _ _ _ (by norm_num))

/-- entropy rises from 20 to 250/9 -/
example : (120 : ℝ) - 10 * 10 ≤ 700 / 9 - 10 * 5 :=
  C86_second_law toySteam_spec toySteam_roots ⟨10, 120, 5, 700 / 9⟩ (by norm_num) (by norm_num) (9 / 10) 1
    (by norm_num) (by norm_num) (by norm_num) (by norm_num) (fun _ => toy_wetter _ _ _ _ (by norm_num))
    toy_wet_outlet_res

example : (700 / 9 : ℝ) ≤ 120 :=
  C86_power_partial toySteam_spec toySteam_roots ⟨10, 120, 5, 700 / 9⟩ (by norm_num) (by norm_num) (9 / 10) 1
    (by norm_num) (by norm_num) (by norm_num) (fun _ => toy_wetter _ _ _ _ (by norm_num))
    (by simp only [Spec.wetness]; norm_num) toy_wet_outlet_res

/-- the efficiency reported for the expansion to 700/9 -/
example : steamEta toySteam ⟨10, 120, 5, 700 / 9⟩ = .ok (38 / 45) :=
  (C86_reported toySteam_spec _ (by norm_num) _).2 (by rw [toy_expansion]; norm_num)

example : steamRes toySteam ⟨10, 160, 5, 90⟩ (9 / 10) 1 = .error .valueError ∧
    steamRes toySteam ⟨10, 160, 5, 115⟩ (9 / 10) 1 = .ok 0 :=
  C86_iterate_false toySteam_spec ⟨10, 160, 5, 90⟩ (by norm_num) (by norm_num) _ _ (by norm_num) (by norm_num) 115
    (by rw [toy_expansion]; norm_num) (by norm_num)

example : steamRes toySteam ⟨10, -20, 5, 50⟩ (9 / 10) 1 = .error .valueError :=
  C86_liquid_false toySteam_spec ⟨10, -20, 5, 50⟩ (by norm_num) (by norm_num) _ _ (by norm_num) (by norm_num) (-65)
    (by rw [toy_expansion]; norm_num) (by norm_num)

example : steamRes toySteam ⟨150, 400, 5, 50⟩ (9 / 10) 1 = .error .valueError :=
  C86_supercritical_false toySteam_spec ⟨150, 400, 5, 50⟩ (by norm_num) (by norm_num) _ _
    (by simp only [toySteam]; norm_num; decide) (by norm_num)

/-- **C86** (negated) Within the bounds of `alpha` (0.4 to 2.5) and `eta_s_dry` (0 to 1) a steam turbine can consume power:
inlet and outlet with 60 % and more of liquid. -/
theorem C86_power_false : ∃ (F : SteamFuns) (s : ℝ → ℝ → ℝ) (hl hv : ℝ → ℝ) (pc : ℝ) (c : SteamState) (eta alpha : ℝ),
    Spec.Steam F s hl hv pc ∧ Spec.FindsRoots F.core ∧ c.pOut < c.pIn ∧ c.pIn < pc ∧ hl c.pIn < c.hIn ∧
    c.hIn < hv c.pIn ∧ 0 ≤ eta ∧ eta ≤ 1 ∧ 4 / 10 ≤ alpha ∧ alpha ≤ 25 / 10 ∧
    steamRes F c eta alpha = .ok 0 ∧ c.hIn < c.hOut := by
  refine ⟨toySteam, _, _, _, 100, ⟨10, 40, 9, 3920 / 89⟩, 9 / 10, 25 / 10, toySteam_spec, toySteam_roots,
    by norm_num, by norm_num, by norm_num, by norm_num, by norm_num, by norm_num, by norm_num, by norm_num, ?_,
    by norm_num⟩
  rw [C86_wet_inlet toySteam_spec _ (by norm_num) (by norm_num) _ _ (by norm_num) (by norm_num), toy_expansion]
  have h1 : Spec.wetness (fun _ => 0) (fun _ => 100) 10 40 = 6 / 10 := by unfold Spec.wetness; norm_num
  have h2 : Spec.wetness (fun _ => 0) (fun _ => 100) 9 (3920 / 89) = 1 - 392 / 890 := by
    unfold Spec.wetness; norm_num
  simp only [h1, h2]; norm_num

/-- **C86** (negated) The documented equation (one expansion from the inlet with the efficiency reduced by the mean wetness
of inlet and outlet) is not the one solved when the expansion crosses saturation. -/
theorem C86_documented_false : ∃ (F : SteamFuns) (s : ℝ → ℝ → ℝ) (hl hv : ℝ → ℝ) (pc : ℝ) (c : SteamState)
    (eta alpha : ℝ), Spec.Steam F s hl hv pc ∧ Spec.FindsRoots F.core ∧ c.pOut < c.pIn ∧ c.pIn < pc ∧
    steamRes F c eta alpha = .ok 0 ∧
    -(c.hOut - c.hIn) + (F.isen c.pIn c.hIn c.pOut - c.hIn) *
      (eta * (1 - alpha * (((1 - F.x c.pIn c.hIn) + (1 - F.x c.pOut c.hOut)) / 2))) ≠ 0 := by
  refine ⟨toySteam, _, _, _, 100, ⟨10, 120, 5, 700 / 9⟩, 9 / 10, 1, toySteam_spec, toySteam_roots, by norm_num,
    by norm_num, toy_wet_outlet_res, ?_⟩
  simp only [toySteam]; norm_num

/-- **C86** (negated) `alpha` or `eta_s_dry` as variable: the residual depends on them, but there is no entry in the Jacobian,
so the system of equations is singular. -/
theorem C86_variable_false : (∀ (i o : Port) (n : String), Var.par n ∉ steamDerivVars i o) ∧
    (∃ (F : SteamFuns) (c : SteamState) (e₁ e₂ alpha : ℝ),
      steamRes F c e₁ alpha = .ok 0 ∧ steamRes F c e₂ alpha ≠ .ok 0) ∧
    (∃ (F : SteamFuns) (c : SteamState) (eta a₁ a₂ : ℝ),
      steamRes F c eta a₁ = .ok 0 ∧ steamRes F c eta a₂ ≠ .ok 0) := by
  refine ⟨fun i o n h => by simp [steamDerivVars] at h, ⟨toySteam, ⟨10, 120, 5, 700 / 9⟩, 9 / 10, 8 / 10, 1,
    toy_wet_outlet_res, fun h => ?_⟩, ⟨toySteam, ⟨10, 120, 5, 700 / 9⟩, 9 / 10, 1, 2, toy_wet_outlet_res, fun h => ?_⟩⟩
  · rcases (C86_meaning toySteam_spec toySteam_roots _ (by norm_num) (by norm_num) _ _ (by norm_num) (by norm_num)
      (by norm_num) (toy_wetter _ _ _ _ (by norm_num))).1 h with ⟨h1, -⟩ | ⟨-, p, -, -, h1, h2⟩
    · norm_num at h1
    · rw [toy_expansion] at h1 h2
      have hw : Spec.wetness (fun _ => 0) (fun _ => 100) 5 (700 / 9) = 2 / 9 := by unfold Spec.wetness; norm_num
      simp only [hw] at h1 h2
      have : p = 75 / 10 := by linarith
      subst this; norm_num at h2
  · rcases (C86_meaning toySteam_spec toySteam_roots _ (by norm_num) (by norm_num) _ _ (by norm_num) (by norm_num)
      (by norm_num) (toy_wetter _ _ _ _ (by norm_num))).1 h with ⟨h1, -⟩ | ⟨-, p, -, -, h1, h2⟩
    · norm_num at h1
    · rw [toy_expansion] at h1 h2
      have hw : Spec.wetness (fun _ => 0) (fun _ => 100) 5 (700 / 9) = 2 / 9 := by unfold Spec.wetness; norm_num
      simp only [hw] at h1 h2
      have : p = 70 / 9 := by linarith
      subst this; norm_num at h2

end Tespy
