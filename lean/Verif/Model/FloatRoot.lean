import Verif.Model.Floats
import Verif.Model.Utils

/-! # The root finder in floating-point arithmetic -/

namespace Qcd.Fl
variable {r : Rounding}

/-- `a == b` of `f64`: false for NaN, true for the two zeros (utils.rs l.28). -/
noncomputable def beq (a b : Fl r) : Bool := open Classical in decide (∃ x, a.value = some x ∧ b.value = some x)

/-- `a < b` of `f64`: false for NaN (utils.rs l.29, l.36). -/
noncomputable def lt (a b : Fl r) : Bool := open Classical in decide (∃ x y, a.value = some x ∧ b.value = some y ∧ x < y)

/-- `a.abs()` of `f64` (utils.rs l.36, types.rs l.61-63). -/
noncomputable def absF : Fl r → Fl r
  | nan => nan
  | nz => num 0
  | num x => open Classical in num (if x < 0 then -x else x)

end Qcd.Fl

namespace Qcd.utils

/-- The operations of `find_root`, utils.rs l.22-44, on the type `f64` (types.rs l.59-94: `re` is the number, `im` is 0, which is no NaN). -/
noncomputable def floatOps (r : Rounding) : RootOps (Fl r) (Fl r) where
  beq := Fl.beq
  gt0 x := Fl.lt (Fl.num 0) x
  mul a b := a * b
  sub a b := a - b
  div a b := a / b
  isNaN a := open Classical in decide (a = Fl.nan)
  abs := Fl.absF
  lt := Fl.lt

end Qcd.utils
