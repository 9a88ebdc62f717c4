import Mathlib.Analysis.SpecialFunctions.Complex.Log
import Mathlib.Analysis.SpecialFunctions.Pow.Complex
import Mathlib.Analysis.SpecialFunctions.Pow.Real
import Mathlib.Analysis.SpecialFunctions.Sqrt

/-!
# The numeric interface

Model of `qcd-sme/src/types.rs` (trait `Num`, types `R`, `C`, constant `I`).

Simplification: `f64` is read as `ℝ` and `Complex<f64>` as `ℂ`, with exact
arithmetic; no rounding, overflow, infinities or NaN in this layer.
-/

namespace Qcd

/-- The operations the formulas use: the operator bounds of the trait `Num`
(types.rs l.25-57: `+ - * /`, unary minus, mixed operations with `R`) and its
methods `inv`, `ln`, `sqrt`, `exp`. No laws: the formulas are written over this class so that they
can also be interpreted in `Option ℝ`, where `none` stands for "not a finite
number" (see `Verif/Model/Partial.lean`). `ofR` is the promotion of an `R` operand
(or literal) in a mixed operation. -/
class NumOps (T : Type) extends Add T, Sub T, Mul T, Div T, Neg T, Inv T where
  ofR : ℝ → T
  ln : T → T
  sqrt : T → T
  exp : T → T

/- When a type has its own field structure, that one is found first. -/
attribute [instance 50] NumOps.toAdd NumOps.toSub NumOps.toMul NumOps.toDiv NumOps.toNeg NumOps.toInv

/-- Promotion of a real number (mixed operations `T op R` of types.rs) (types.rs l.34-41). -/
abbrev ofR {T : Type} [NumOps T] (r : ℝ) : T := NumOps.ofR r

/-- Principal square root, num-complex `sqrt`: `z ^ (1/2)` on the principal branch (types.rs l.128-130). -/
noncomputable def csqrt (z : ℂ) : ℂ := z ^ ((1 : ℂ) / 2)

theorem csqrt_ofReal {x : ℝ} (hx : 0 ≤ x) : csqrt (x : ℂ) = ((Real.sqrt x : ℝ) : ℂ) := by
  unfold csqrt
  rw [Real.sqrt_eq_rpow, Complex.ofReal_cpow hx]; norm_num

/-- types.rs l.25-57, trait `Num`, for the two implementors `R` and `C`: a field
containing the reals and contained in the complex numbers. `toC` is the promotion
`Into<C>` used by mixed operations `T op C`. The last two laws record that the
exponential, and the square root of `m² + q²` with `q` real, commute with the promotion;
both are proved for the two instances below. -/
class Num (T : Type) extends Field T where
  fromR : ℝ →+* T
  toC : T →+* ℂ
  lnT : T → T
  sqrtT : T → T
  expT : T → T
  toC_fromR : ∀ r : ℝ, toC (fromR r) = (r : ℂ)
  toC_expT : ∀ x : T, toC (expT x) = Complex.exp (toC x)
  toC_sqrtT_energy : ∀ (q : ℝ) (m : T),
    toC (sqrtT (m * m + fromR (q * q))) = csqrt (toC m * toC m + ((q * q : ℝ) : ℂ))

/-- The operations of a lawful numeric type (types.rs l.25-57). -/
@[reducible] instance Num.toNumOps {T : Type} [Num T] : NumOps T where
  ofR r := (Num.fromR : ℝ →+* T) r
  ln := Num.lnT
  sqrt := Num.sqrtT
  exp := Num.expT

/-- `impl Num for R` (types.rs l.59-94). -/
@[reducible] noncomputable instance instNumReal : Num ℝ where
  fromR := RingHom.id ℝ
  toC := Complex.ofRealHom
  lnT := Real.log
  sqrtT := Real.sqrt
  expT := Real.exp
  toC_fromR _ := rfl
  toC_expT x := by simp
  toC_sqrtT_energy q m := by
    have h : 0 ≤ m * m + q * q := add_nonneg (mul_self_nonneg m) (mul_self_nonneg q)
    have := csqrt_ofReal h
    simp at this ⊢
    rw [this]

/-- `impl Num for C` (types.rs l.96-131). -/
@[reducible] noncomputable instance instNumComplex : Num ℂ where
  fromR := Complex.ofRealHom
  toC := RingHom.id ℂ
  lnT := Complex.log
  sqrtT := csqrt
  expT := Complex.exp
  toC_fromR _ := rfl
  toC_expT _ := rfl
  toC_sqrtT_energy _ _ := rfl

/-- types.rs `Num::re`, l.86, 123. -/
noncomputable def re {T : Type} [Num T] (x : T) : ℝ := ((Num.toC : T →+* ℂ) x).re
/-- types.rs `Num::im`, l.71, 108. -/
noncomputable def im {T : Type} [Num T] (x : T) : ℝ := ((Num.toC : T →+* ℂ) x).im
/-- types.rs `Num::abs`, l.61, 98. -/
noncomputable def abs {T : Type} [Num T] (x : T) : ℝ := ‖(Num.toC : T →+* ℂ) x‖
/-- Promotion to a complex number in mixed operations `T op C` (types.rs l.43-48). -/
abbrev toC {T : Type} [Num T] (x : T) : ℂ := (Num.toC : T →+* ℂ) x

@[simp] theorem ofR_real (r : ℝ) : (ofR r : ℝ) = r := rfl
@[simp] theorem ofR_complex (r : ℝ) : (ofR r : ℂ) = (r : ℂ) := rfl
@[simp] theorem toC_real (r : ℝ) : toC r = (r : ℂ) := rfl
@[simp] theorem toC_complex (z : ℂ) : toC z = z := rfl
@[simp] theorem ln_real (r : ℝ) : NumOps.ln r = Real.log r := rfl
@[simp] theorem ln_complex (z : ℂ) : NumOps.ln z = Complex.log z := rfl
@[simp] theorem sqrt_real (r : ℝ) : NumOps.sqrt r = Real.sqrt r := rfl
@[simp] theorem sqrt_complex (z : ℂ) : NumOps.sqrt z = csqrt z := rfl
@[simp] theorem exp_real (r : ℝ) : NumOps.exp r = Real.exp r := rfl
@[simp] theorem exp_complex (z : ℂ) : NumOps.exp z = Complex.exp z := rfl

section generic
variable {T : Type} [Num T]
theorem ofR_eq (r : ℝ) : (ofR r : T) = (Num.fromR : ℝ →+* T) r := rfl
@[simp] theorem ofR_add (a b : ℝ) : (ofR (a + b) : T) = ofR a + ofR b := map_add (Num.fromR : ℝ →+* T) a b
@[simp] theorem ofR_mul (a b : ℝ) : (ofR (a * b) : T) = ofR a * ofR b := map_mul (Num.fromR : ℝ →+* T) a b
@[simp] theorem ofR_sub (a b : ℝ) : (ofR (a - b) : T) = ofR a - ofR b := map_sub (Num.fromR : ℝ →+* T) a b
@[simp] theorem ofR_div (a b : ℝ) : (ofR (a / b) : T) = ofR a / ofR b := map_div₀ (Num.fromR : ℝ →+* T) a b
@[simp] theorem ofR_neg (a : ℝ) : (ofR (-a) : T) = -ofR a := map_neg (Num.fromR : ℝ →+* T) a
@[simp] theorem ofR_zero : (ofR 0 : T) = 0 := map_zero (Num.fromR : ℝ →+* T)
@[simp] theorem ofR_one : (ofR 1 : T) = 1 := map_one (Num.fromR : ℝ →+* T)
@[simp] theorem ofR_ofNat (n : ℕ) [n.AtLeastTwo] : (ofR (ofNat(n) : ℝ) : T) = ofNat(n) :=
  map_ofNat (Num.fromR : ℝ →+* T) n
@[simp] theorem ofR_natCast (n : ℕ) : (ofR (n : ℝ) : T) = n := map_natCast (Num.fromR : ℝ →+* T) n
@[simp] theorem toC_ofR (r : ℝ) : toC (ofR r : T) = (r : ℂ) := Num.toC_fromR r
theorem toC_exp (x : T) : toC (NumOps.exp x) = Complex.exp (toC x) := Num.toC_expT x
theorem toC_sqrt_energy (q : ℝ) (m : T) :
    toC (NumOps.sqrt (m * m + ofR (q * q))) = csqrt (toC m * toC m + ((q * q : ℝ) : ℂ)) :=
  Num.toC_sqrtT_energy q m
theorem toC_injective : Function.Injective (toC : T → ℂ) := (Num.toC : T →+* ℂ).injective
theorem ofR_injective : Function.Injective (ofR : ℝ → T) := (Num.fromR : ℝ →+* T).injective
theorem ofR_ne_zero {r : ℝ} (h : r ≠ 0) : (ofR r : T) ≠ 0 := fun h' => h (ofR_injective (by simpa using h'))
/-- `R` and `C` (types.rs l.59-131) contain the integers. -/
instance Num.charZero : CharZero T := RingHom.charZero (Num.toC : T →+* ℂ)
@[simp] theorem toC_toC (x : T) : toC (toC x) = toC x := rfl
end generic

/-- The imaginary unit, consts.rs l.15 `I`. -/
noncomputable abbrev I : ℂ := Complex.I

end Qcd
