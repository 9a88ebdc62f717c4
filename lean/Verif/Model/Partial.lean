import Verif.Model.Num

/-!
# Second interpretation of the formulas: definedness

The formulas of the model are written over the lawless class `NumOps`. Here the same formulas are
interpreted over `PReal = Option ℝ`: `none` means that somewhere an operation was applied outside its
domain (division by zero, inverse of zero, logarithm of a non-positive number, square root of a
negative number), which is where the Rust code produces an infinity or a NaN
(types.rs l.59-94, `impl Num for R`: `inv`, `ln`, `sqrt`, `exp` of `f64`). Rounding and overflow are
still not modelled.
-/

namespace Qcd

/-- A real number or "not defined" (types.rs l.59-94). -/
inductive PReal : Type where
  | val (x : ℝ)
  | undef

namespace PReal

/-- Propagation of undefined operands through a binary operation (types.rs l.59-94). -/
def map₂ (f : ℝ → ℝ → ℝ) : PReal → PReal → PReal
  | val x, val y => val (f x y)
  | _, _ => undef

/-- Unary operation with a domain (types.rs l.59-94). -/
noncomputable def partialOp (dom : ℝ → Prop) (f : ℝ → ℝ) : PReal → PReal
  | val x => open Classical in if dom x then val (f x) else undef
  | undef => undef

/-- types.rs l.25-57 read over `PReal`; see the header for the domains. -/
noncomputable instance : NumOps PReal where
  add := map₂ (· + ·)
  sub := map₂ (· - ·)
  mul := map₂ (· * ·)
  neg := partialOp (fun _ => True) (fun x => -x)
  inv := partialOp (· ≠ 0) (fun x => x⁻¹)
  div x y := map₂ (· * ·) x (partialOp (· ≠ 0) (fun x => x⁻¹) y)
  ofR := val
  ln := partialOp (0 < ·) Real.log
  sqrt := partialOp (0 ≤ ·) Real.sqrt
  exp := partialOp (fun _ => True) Real.exp

theorem add_val (x y : ℝ) : val x + val y = val (x + y) := rfl
theorem sub_val (x y : ℝ) : val x - val y = val (x - y) := rfl
theorem mul_val (x y : ℝ) : val x * val y = val (x * y) := rfl
theorem neg_val (x : ℝ) : -val x = val (-x) := if_pos trivial
theorem inv_val {x : ℝ} (h : x ≠ 0) : (val x)⁻¹ = val x⁻¹ := if_pos h
theorem div_val {x y : ℝ} (h : y ≠ 0) : val x / val y = val (x / y) := by
  have e : val x / val y = val x * (val y)⁻¹ := rfl
  rw [e, inv_val h, mul_val, div_eq_mul_inv]
theorem ofR_val (x : ℝ) : (ofR x : PReal) = val x := rfl
theorem ln_val {x : ℝ} (h : 0 < x) : NumOps.ln (val x) = val (Real.log x) := if_pos h
theorem sqrt_val {x : ℝ} (h : 0 ≤ x) : NumOps.sqrt (val x) = val (Real.sqrt x) := if_pos h
theorem exp_val (x : ℝ) : NumOps.exp (val x) = val (Real.exp x) := if_pos trivial

/-! The interpretation is not trivial: `1/0`, `ln 0` and `sqrt(-1)` are undefined. -/

theorem inv_zero_undef : (val 0)⁻¹ = undef := if_neg (by simp)
theorem ln_nonpos_undef {x : ℝ} (h : x ≤ 0) : NumOps.ln (val x) = undef := if_neg (not_lt.2 h)
theorem sqrt_neg_undef {x : ℝ} (h : x < 0) : NumOps.sqrt (val x) = undef := if_neg (not_le.2 h)

end PReal
end Qcd
