import Mathlib.Tactic.Linarith
import Mathlib.Tactic.FieldSimp
import Mathlib.Tactic.Ring
import Mathlib.Algebra.Order.Field.Basic
import Verif.Spec.Units
/-
C01, C02: unit conversions.
-/
namespace Tespy
open Tespy.Spec

/-- Every conversion in the tables is what the specification says, and an unknown
unit is a `KeyError`. -/
theorem convertToSI_meaning (prop : FluidProp) (unit : String) (value : ℚ) :
    convertToSI prop value unit =
      match siMeaning prop unit with
      | some (a, b) => .ok (a * value + b)
      | none => .error .keyError := by
  cases prop
  all_goals
    generalize h : siMeaning _ unit = r
    unfold siMeaning at h
    dsimp only at h
    split at h <;> subst h
  all_goals
    simp_all [convertToSI, lookupUnit, unitTable, Dict.getItem, Dict.get?]
  all_goals first | ring1 | norm_num

/-- The inverse direction: `convert_from_SI` inverts the meaning of the unit. -/
theorem convertFromSI_meaning (prop : FluidProp) (unit : String) (si : ℚ) :
    convertFromSI prop si unit =
      match siMeaning prop unit with
      | some (a, b) => .ok ((si - b) / a)
      | none => .error .keyError := by
  cases prop
  all_goals
    generalize h : siMeaning _ unit = r
    unfold siMeaning at h
    dsimp only at h
    split at h <;> subst h
  all_goals
    simp_all [convertFromSI, lookupUnit, unitTable, Dict.getItem, Dict.get?]
  all_goals first | ring1 | norm_num

/-- All unit factors are positive. -/
theorem siMeaning_pos {prop : FluidProp} {unit : String} {a b : ℚ}
    (h : siMeaning prop unit = some (a, b)) : 0 < a := by
  cases prop
  all_goals
    unfold siMeaning at h
    dsimp only at h
    split at h <;> simp at h
  all_goals (obtain ⟨rfl, _⟩ := h; norm_num)

/-- C01: for a listed unit both conversions succeed and are inverse to each other in
both directions. -/
theorem C01_unit_roundtrip (prop : FluidProp) (unit : String)
    (listed : (siMeaning prop unit).isSome) (value : ℚ) :
    (∃ si, convertToSI prop value unit = .ok si ∧ convertFromSI prop si unit = .ok value) ∧
    (∃ u, convertFromSI prop value unit = .ok u ∧ convertToSI prop u unit = .ok value) := by
  obtain ⟨⟨a, b⟩, hab⟩ := Option.isSome_iff_exists.mp listed
  have ha : a ≠ 0 := (siMeaning_pos hab).ne'
  refine ⟨⟨a * value + b, ?_, ?_⟩, ⟨(value - b) / a, ?_, ?_⟩⟩
  · simp [convertToSI_meaning, hab]
  · simp [convertFromSI_meaning, hab, ha]
  · simp [convertFromSI_meaning, hab]
  · simp only [convertToSI_meaning, hab]; congr 1; field_simp; ring

/-- C01: a unit which is not listed for the property is rejected by both functions. -/
theorem C01_unlisted_rejected (prop : FluidProp) (unit : String)
    (unlisted : siMeaning prop unit = none) (value : ℚ) :
    convertToSI prop value unit = .error .keyError ∧
    convertFromSI prop value unit = .error .keyError := by
  simp [convertToSI_meaning, convertFromSI_meaning, unlisted]

/-- C01: every SI unit is listed and converts to itself. -/
theorem C01_si_unit_identity (prop : FluidProp) (value : ℚ) :
    convertToSI prop value (siUnit prop) = .ok value ∧
    convertFromSI prop value (siUnit prop) = .ok value := by
  cases prop <;> simp [convertToSI, convertFromSI, lookupUnit, unitTable, Dict.getItem, Dict.get?, siUnit]

/-- C02: conversions keep (and reflect) the strict order of values. -/
theorem C02_order (prop : FluidProp) (unit : String) (v w sv sw : ℚ)
    (hv : convertToSI prop v unit = .ok sv) (hw : convertToSI prop w unit = .ok sw) :
    (v < w ↔ sv < sw) ∧ (v = w ↔ sv = sw) := by
  rw [convertToSI_meaning] at hv hw
  cases h : siMeaning prop unit with
  | none => simp [h] at hv
  | some ab =>
    obtain ⟨a, b⟩ := ab
    have ha := siMeaning_pos h
    simp only [h, Except.ok.injEq] at hv hw
    subst hv hw
    constructor
    · simp [ha]
    · simp [ha.ne']

/-- C02: the SI difference of two temperatures is the SI value of their difference given
as a boiling point temperature difference in the same unit, for every temperature
unit. -/
theorem C02_temperature_difference (unit : String) (t1 t2 s1 s2 : ℚ)
    (h1 : convertToSI .T t1 unit = .ok s1) (h2 : convertToSI .T t2 unit = .ok s2) :
    convertToSI .Td_bp (t1 - t2) unit = .ok (s1 - s2) := by
  simp only [convertToSI_meaning] at *
  generalize h : siMeaning .T unit = r at *
  unfold siMeaning at h
  dsimp only at h
  split at h <;> subst h <;> simp_all [siMeaning]
  all_goals (subst h1 h2; ring)

/-- The scales agree: `x` °C and `9/5 x + 32` °F are the same temperature. -/
theorem C02_celsius_fahrenheit (x : ℚ) :
    convertToSI .T x "C" = convertToSI .T (9 / 5 * x + 32) "F" := by
  simp only [convertToSI_meaning, siMeaning]; congr 1; ring

-- non-vacuity
example : convertToSI .T 25 "C" = .ok 298.15 := by
  simp [convertToSI_meaning, siMeaning]; norm_num
example : convertToSI .p 3 "bar" = .ok 300000 := by
  simp [convertToSI_meaning, siMeaning]; norm_num
example : (siMeaning .T "F").isSome := rfl
example : siMeaning .m "lb / h" = none := rfl

end Tespy
