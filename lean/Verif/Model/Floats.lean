import Mathlib.Data.EReal.Operations
import Mathlib.Data.EReal.Inv
import Verif.Model.Common

/-! # Floating-point numbers

The elementary thermal functions read over numbers with infinities, NaN and two zeros, for an arbitrary rounding. The type `f64` with
rounding to nearest is an instance of the structure `Rounding` (a trusted statement, like the monotonicity of the exponential of the
mathematical library). Binary64 and its finite set of numbers are not needed: the theorems hold for all roundings with the
laws below. -/

namespace Qcd

/-- A rounding of real numbers, to infinity if they are too large, and the exponential and the logarithm computed with it (types.rs l.8-9 (`R` is `f64`)). -/
structure Rounding where
  rnd : ℝ → EReal
  exp : ℝ → EReal
  ln : ℝ → EReal
  mono : Monotone rnd
  zero : rnd 0 = 0
  one : rnd 1 = 1
  two : rnd 2 = 2
  exp_mono : Monotone exp
  exp_nonneg : ∀ x, 0 ≤ exp x
  exp_zero : exp 0 = 1

/-- Floating-point numbers: not a number, negative zero, other numbers and infinities (types.rs l.8-9 (`R` is `f64`)). -/
inductive Fl (r : Rounding) where
  | nan
  | nz
  | num (x : EReal)

namespace Fl
variable {r : Rounding}

/-- The number, if it is one (types.rs l.8-9 (`R` is `f64`)). -/
noncomputable def value : Fl r → Option EReal
  | nan => none
  | nz => some 0
  | num x => some x

/-- The number, zero for `nan` (types.rs l.8-9 (`R` is `f64`)). -/
noncomputable def val (a : Fl r) : EReal := a.value.getD 0

/-- The sign bit (types.rs l.8-9 (`R` is `f64`)). -/
noncomputable def isNeg : Fl r → Bool
  | nan => false
  | nz => true
  | num x => open Classical in decide (x < 0)

/-- The rounded value of `x`; a zero result has the given sign (types.rs l.8-9 (`R` is `f64`)). -/
noncomputable def round (r : Rounding) (neg : Bool) (x : ℝ) : Fl r := open Classical in if r.rnd x = 0 ∧ neg = true then nz else num (r.rnd x)

/-- `+` of `f64`: the operator of types.rs l.25-49 for `R` (l.8-9). An infinity plus the opposite one is NaN; a sum of zeros is negative if both are. -/
noncomputable def add (a b : Fl r) : Fl r := open Classical in
  if a.value = none ∨ b.value = none then nan
  else if (a.val = ⊤ ∧ b.val = ⊥) ∨ (a.val = ⊥ ∧ b.val = ⊤) then nan
  else if a.val = ⊤ ∨ b.val = ⊤ then num ⊤
  else if a.val = ⊥ ∨ b.val = ⊥ then num ⊥
  else round r ((a.isNeg && b.isNeg) || decide (a.val.toReal + b.val.toReal < 0)) (a.val.toReal + b.val.toReal)

/-- Unary minus of `f64`: types.rs l.42 for `R`. -/
noncomputable def neg : Fl r → Fl r
  | nan => nan
  | nz => num 0
  | num x => open Classical in if x = 0 then nz else num (-x)

/-- `*` of `f64`: types.rs l.31 and l.35 for `R`. -/
noncomputable def mul (a b : Fl r) : Fl r := open Classical in
  if a.value = none ∨ b.value = none then nan
  else if (a.val = 0 ∧ (b.val = ⊤ ∨ b.val = ⊥)) ∨ (b.val = 0 ∧ (a.val = ⊤ ∨ a.val = ⊥)) then nan
  else if a.val = ⊤ ∨ a.val = ⊥ ∨ b.val = ⊤ ∨ b.val = ⊥ then num (if a.isNeg = b.isNeg then ⊤ else ⊥)
  else round r (a.isNeg != b.isNeg) (a.val.toReal * b.val.toReal)

/-- `a.mul_add(b, c)`: the product is added without being rounded (common/thermal.rs l.167-169 and others). -/
noncomputable def mulAdd (a b c : Fl r) : Fl r := open Classical in
  if a.value = none ∨ b.value = none ∨ c.value = none then nan
  else if (a.val = 0 ∧ (b.val = ⊤ ∨ b.val = ⊥)) ∨ (b.val = 0 ∧ (a.val = ⊤ ∨ a.val = ⊥)) then nan
  else if a.val = ⊤ ∨ a.val = ⊥ ∨ b.val = ⊤ ∨ b.val = ⊥ then
    if c.val = (if a.isNeg = b.isNeg then ⊥ else ⊤) then nan else num (if a.isNeg = b.isNeg then ⊤ else ⊥)
  else if c.val = ⊤ ∨ c.val = ⊥ then c
  else round r (((a.isNeg != b.isNeg) && c.isNeg) || decide (a.val.toReal * b.val.toReal + c.val.toReal < 0))
    (a.val.toReal * b.val.toReal + c.val.toReal)

/-- `/` of `f64`: types.rs l.32 and l.36 for `R`. -/
noncomputable def div (a b : Fl r) : Fl r := open Classical in
  if a.value = none ∨ b.value = none then nan
  else if (a.val = 0 ∧ b.val = 0) ∨ ((a.val = ⊤ ∨ a.val = ⊥) ∧ (b.val = ⊤ ∨ b.val = ⊥)) then nan
  else if b.val = 0 ∨ a.val = ⊤ ∨ a.val = ⊥ then num (if a.isNeg = b.isNeg then ⊤ else ⊥)
  else if b.val = ⊤ ∨ b.val = ⊥ then (if a.isNeg = b.isNeg then num 0 else nz)
  else round r (a.isNeg != b.isNeg) (a.val.toReal / b.val.toReal)

/-- types.rs l.91-93: `f64::sqrt`. -/
noncomputable def sqrt (a : Fl r) : Fl r := open Classical in
  match a with
  | nan => nan
  | nz => nz
  | num x => if x < 0 then nan else if x = ⊤ then num ⊤ else round r false (Real.sqrt x.toReal)

/-- types.rs l.66-68: `f64::exp`. -/
noncomputable def exp (a : Fl r) : Fl r := open Classical in
  if a.value = none then nan else if a.val = ⊤ then num ⊤ else if a.val = ⊥ then num 0 else num (r.exp a.val.toReal)

/-- types.rs l.81-83: `f64::ln`. -/
noncomputable def ln (a : Fl r) : Fl r := open Classical in
  if a.value = none then nan else if a.val < 0 then nan else if a.val = 0 then num ⊥ else if a.val = ⊤ then num ⊤ else num (r.ln a.val.toReal)

/-- types.rs l.25-57 and l.59-94: the trait `Num` for `R`. -/
noncomputable instance : NumOps (Fl r) where
  add := add
  sub a b := add a (neg b)
  mul := mul
  div := div
  neg := neg
  inv a := div (num 1) a
  ofR x := round r (open Classical in decide (x < 0)) x
  ln := ln
  sqrt := sqrt
  exp := exp

end Fl

namespace F
variable {r : Rounding}

/-- low_level/common/mod.rs l.60-66, real numbers. -/
noncomputable def statistic_distribution_exponential (en beta mu : Fl r) : Fl r := NumOps.exp ((en - mu) * beta)

/-- low_level/common/mod.rs l.69-71, real numbers. -/
noncomputable def statistic_distribution_exponential_zero_chempot (en beta : Fl r) : Fl r := NumOps.exp (en * beta)

/-- common/mod.rs l.71-73, real numbers. -/
noncomputable def energy_squared (p m : Fl r) : Fl r := m * m + p * p

/-- common/mod.rs l.76-78, real numbers. -/
noncomputable def energy (p m : Fl r) : Fl r := NumOps.sqrt (energy_squared p m)

/-- common/thermal.rs l.167-169. -/
noncomputable def fermi_momentum (m mu : Fl r) : Fl r := NumOps.sqrt (Fl.mulAdd mu mu (-(m * m)))

/-- common/thermal.rs l.172-178, real numbers. -/
noncomputable def fermi_distribution (en beta mu : Fl r) : Fl r := (statistic_distribution_exponential en beta mu + Fl.num 1)⁻¹

/-- common/thermal.rs l.181-190, real numbers. -/
noncomputable def fermi_distribution_zero_temp (en mu : Fl r) : Fl r := open Classical in
  if ∃ x y, en.value = some x ∧ mu.value = some y ∧ y < x then Fl.num 0 else Fl.num 1

/-- common/thermal.rs l.193-200, real numbers. -/
noncomputable def fermi_distribution_double (en beta mu : Fl r) : Fl r :=
  (statistic_distribution_exponential en beta mu + Fl.num 1)⁻¹ + (statistic_distribution_exponential en beta (-mu) + Fl.num 1)⁻¹

/-- common/thermal.rs l.203-211, real numbers. -/
noncomputable def fermi_distribution_double_zero_temp (en mu : Fl r) : Fl r :=
  fermi_distribution_zero_temp en mu + fermi_distribution_zero_temp en (-mu)

/-- common/thermal.rs l.214-216, real numbers. -/
noncomputable def fermi_distribution_zero_chempot (en beta : Fl r) : Fl r := (statistic_distribution_exponential_zero_chempot en beta + Fl.num 1)⁻¹

/-- common/thermal.rs l.219-225, real numbers. -/
noncomputable def bose_distribution (en beta mu : Fl r) : Fl r := (statistic_distribution_exponential en beta mu - Fl.num 1)⁻¹

/-- common/thermal.rs l.228-230, real numbers. -/
noncomputable def bose_distribution_zero_chempot (en beta : Fl r) : Fl r := (statistic_distribution_exponential_zero_chempot en beta - Fl.num 1)⁻¹

end F
end Qcd
