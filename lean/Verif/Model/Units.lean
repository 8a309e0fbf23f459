import Mathlib.Data.Rat.Defs
import Mathlib.Algebra.Order.Field.Rat
import Mathlib.Tactic.NormNum
import Verif.Model.Py
/-
Unit tables and unit conversion.
-/
namespace Tespy

/-- Keys of `fluid_property_data` (tools/global_vars.py 17-102). The Python code
uses strings; the type is the set of keys of the dictionary. -/
inductive FluidProp
  | m | v | p | h | T | Td_bp | vol | x | s
  deriving DecidableEq, Repr

/-- An entry of a unit table: all properties but `T` store a factor, `T` stores
`[offset, factor]` (tools/global_vars.py 17-102). -/
structure UnitConv where
  offset : ℚ
  factor : ℚ
  deriving DecidableEq, Repr

/-- `fluid_property_data[property]['units']` (tools/global_vars.py 17-102).
For properties other than `T` the dictionary holds a number only, which is
represented by the offset 0 that `convert_to_SI` does not read. -/
def unitTable : FluidProp → Dict String UnitConv
  | .m => [("kg / s", ⟨0, 1⟩), ("kg / min", ⟨0, 1 / 60⟩), ("kg / h", ⟨0, 1 / 3600⟩),
           ("t / h", ⟨0, 1 / 3.6⟩), ("g / s", ⟨0, 1 / 1000⟩)]
  | .v => [("m3 / s", ⟨0, 1⟩), ("m3 / min", ⟨0, 1 / 60⟩), ("m3 / h", ⟨0, 1 / 3600⟩),
           ("l / s", ⟨0, 1 / 1000⟩), ("l / min", ⟨0, 1 / 60000⟩), ("l / h", ⟨0, 1 / 3600000⟩)]
  | .p => [("Pa", ⟨0, 1⟩), ("kPa", ⟨0, 1000⟩), ("psi", ⟨0, 6894.8⟩),
           ("bar", ⟨0, 100000⟩), ("atm", ⟨0, 101325⟩), ("MPa", ⟨0, 1000000⟩)]
  | .h => [("J / kg", ⟨0, 1⟩), ("kJ / kg", ⟨0, 1000⟩), ("MJ / kg", ⟨0, 1000000⟩),
           ("cal / kg", ⟨0, 4.184⟩), ("kcal / kg", ⟨0, 4184⟩),
           ("Wh / kg", ⟨0, 3600⟩), ("kWh / kg", ⟨0, 3600000⟩)]
  | .T => [("K", ⟨0, 1⟩), ("R", ⟨0, 5 / 9⟩), ("C", ⟨273.15, 1⟩), ("F", ⟨459.67, 5 / 9⟩)]
  | .Td_bp => [("K", ⟨0, 1⟩), ("R", ⟨0, 5 / 9⟩), ("C", ⟨0, 1⟩), ("F", ⟨0, 5 / 9⟩)]
  | .vol => [("m3 / kg", ⟨0, 1⟩), ("l / kg", ⟨0, 1 / 1000⟩)]
  | .x => [("-", ⟨0, 1⟩), ("%", ⟨0, 1 / 100⟩), ("ppm", ⟨0, 1 / 1000000⟩)]
  | .s => [("J / kgK", ⟨0, 1⟩), ("kJ / kgK", ⟨0, 1000⟩), ("MJ / kgK", ⟨0, 1000000⟩)]

/-- `fluid_property_data[property]['SI_unit']` (tools/global_vars.py 17-102). -/
def siUnit : FluidProp → String
  | .m => "kg / s" | .v => "m3 / s" | .p => "Pa" | .h => "J / kg" | .T => "K"
  | .Td_bp => "K" | .vol => "m3 / kg" | .x => "-" | .s => "J / kgK"

/-- Dictionary access `units[unit]`: `KeyError` for an unknown key (tools/helpers.py 105-110, 133-137). -/
def lookupUnit (prop : FluidProp) (unit : String) : PyRes UnitConv :=
  Dict.getItem (unitTable prop) unit

/-- `convert_to_SI(property, value, unit)` (tools/helpers.py 85-110). -/
def convertToSI (prop : FluidProp) (value : ℚ) (unit : String) : PyRes ℚ :=
  match lookupUnit prop unit with
  | .error e => .error e
  | .ok c => if prop = .T then .ok ((value + c.offset) * c.factor)
             else .ok (value * c.factor)

/-- `convert_from_SI(property, SI_value, unit)` (tools/helpers.py 113-137). -/
def convertFromSI (prop : FluidProp) (siValue : ℚ) (unit : String) : PyRes ℚ :=
  match lookupUnit prop unit with
  | .error e => .error e
  | .ok c => if prop = .T then .ok (siValue / c.factor - c.offset)
             else .ok (siValue / c.factor)

end Tespy
