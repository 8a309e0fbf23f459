import Mathlib.Data.Rat.Defs
import Verif.Model.Units
/-
Specification of the unit system, independent of the conversion functions: what
one unit *means*. `siMeaning prop unit = some (a, b)` says that the value `x`
in this unit is the SI value `a * x + b`.
-/
namespace Tespy.Spec

/-- Units a user may select for a property and their meaning in SI. -/
def siMeaning : FluidProp → String → Option (ℚ × ℚ)
  | .m, u => match u with
      | "kg / s" => some (1, 0) | "kg / min" => some (1/60, 0)
      | "kg / h" => some (1/3600, 0) | "t / h" => some (1000/3600, 0)
      | "g / s" => some (1/1000, 0) | _ => none
  | .v, u => match u with
      | "m3 / s" => some (1, 0) | "m3 / min" => some (1/60, 0)
      | "m3 / h" => some (1/3600, 0) | "l / s" => some (1/1000, 0)
      | "l / min" => some (1/1000/60, 0) | "l / h" => some (1/1000/3600, 0) | _ => none
  | .p, u => match u with
      | "Pa" => some (1, 0) | "kPa" => some (10^3, 0) | "MPa" => some (10^6, 0)
      | "bar" => some (10^5, 0) | "atm" => some (101325, 0)
      | "psi" => some (68948/10, 0) | _ => none
  | .h, u => match u with
      | "J / kg" => some (1, 0) | "kJ / kg" => some (10^3, 0) | "MJ / kg" => some (10^6, 0)
      | "cal / kg" => some (4184/1000, 0) | "kcal / kg" => some (4184, 0)
      | "Wh / kg" => some (3600, 0) | "kWh / kg" => some (3600 * 1000, 0) | _ => none
  | .T, u => match u with
      | "K" => some (1, 0) | "C" => some (1, 27315/100)
      | "R" => some (5/9, 0) | "F" => some (5/9, 27315/100 - 32 * 5/9) | _ => none
  | .Td_bp, u => match u with      -- temperature differences have no offset
      | "K" => some (1, 0) | "C" => some (1, 0)
      | "R" => some (5/9, 0) | "F" => some (5/9, 0) | _ => none
  | .vol, u => match u with
      | "m3 / kg" => some (1, 0) | "l / kg" => some (1/1000, 0) | _ => none
  | .x, u => match u with
      | "-" => some (1, 0) | "%" => some (1/100, 0) | "ppm" => some (1/10^6, 0) | _ => none
  | .s, u => match u with
      | "J / kgK" => some (1, 0) | "kJ / kgK" => some (10^3, 0)
      | "MJ / kgK" => some (10^6, 0) | _ => none

end Tespy.Spec
