import Verif.Model.HeatTransfer
/-!
Effectiveness of two-sided heat exchangers: what `Model/HeatTransfer.lean` does not contain.

Simplifications as there.
-/
namespace Tespy

noncomputable section

/-- heat_exchangers/base.py 925-953 `eff_max_func` -/
def hexEffMaxRes (s : HexState) (v : ℝ) : PyRes ℝ :=
  match s.hotMax with
  | none => .error .valueError
  | some hh =>
    match rdiv (s.o1.h - s.i1.h) (hh - s.i1.h) with
    | .error e => .error e
    | .ok eh =>
      match s.coldMax with
      | none => .error .valueError
      | some hc =>
        match rdiv (s.o2.h - s.i2.h) (hc - s.i2.h) with
        | .error e => .error e
        | .ok ec => .ok (v - max eh ec)

/-- base.py 857-858: entry of `eff_cold_deriv` for the enthalpy of the cold inlet. The other entries (hot inlet and cold
outlet) are numerical. -/
def effColdEntry (v : ℝ) : ℝ := 1 - v

/-- base.py 914-915: entry of `eff_hot_deriv` for the enthalpy of the hot inlet. The other entries (hot outlet and cold
inlet) are numerical. -/
def effHotEntry (v : ℝ) : ℝ := 1 - v

end
end Tespy
