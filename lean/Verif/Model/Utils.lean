import Verif.Model.Num

/-! # `qcd-sme/src/utils.rs` -/

namespace Qcd.utils

/-- The operations `find_root` uses on its arguments: `==` on `T` (utils.rs l.28), the test
`tol > 0.` (l.29), `*`, `-`, `/` (l.39), `re().is_nan() || im().is_nan()` (l.34), `abs` (l.36) and
`<` on `R` (l.36). No laws are assumed, so that IEEE arithmetic is an instance. -/
structure RootOps (T R : Type) where
  beq : T → T → Bool
  gt0 : R → Bool
  mul : T → T → T
  sub : T → T → T
  div : T → T → T
  isNaN : T → Bool
  abs : T → R
  lt : R → R → Bool

/-- How a call to `find_root` ends (utils.rs l.22-44). -/
inductive RootResult (T : Type) where
  | panic
  | none
  | some (z fz : T)

variable {T R : Type}

/-- The `for` loop of utils.rs l.33-42 with `n` iterations left. The second component is the list
of the points at which `f` is evaluated, in order: an observation added to the model. -/
def loop (o : RootOps T R) (f : T → T) (tol : R) : ℕ → T → T → T → T → RootResult T × List T
  | 0, _, _, _, _ => (.none, [])
  | n + 1, z0, z1, f0, f1 =>
    if o.isNaN f1 then (.none, [])
    else if o.lt (o.abs f1) tol then (.some z1 f1, [])
    else
      let z2 := o.div (o.sub (o.mul z0 f1) (o.mul z1 f0)) (o.sub f1 f0)
      let r := loop o f tol n z1 z2 f1 (f z2)
      (r.1, z2 :: r.2)

/-- `find_root`, utils.rs l.22-44, with the list of evaluation points. -/
def find_root_log (o : RootOps T R) (f : T → T) (guesses : T × T) (tol : R) (max_iter : ℕ) :
    RootResult T × List T :=
  if o.beq guesses.1 guesses.2 then (.panic, [])
  else if !o.gt0 tol then (.panic, [])
  else
    let r := loop o f tol max_iter guesses.1 guesses.2 (f guesses.1) (f guesses.2)
    (r.1, guesses.1 :: guesses.2 :: r.2)

/-- `find_root`, utils.rs l.22-44. -/
def find_root (o : RootOps T R) (f : T → T) (guesses : T × T) (tol : R) (max_iter : ℕ) :
    RootResult T :=
  (find_root_log o f guesses tol max_iter).1

/-- The operations at exact arithmetic over `ℝ` or `ℂ` (no NaN) (utils.rs l.28-39). -/
noncomputable def exactOps (T : Type) [Num T] : RootOps T ℝ where
  beq a b := open Classical in decide (a = b)
  gt0 x := open Classical in decide (0 < x)
  mul a b := a * b
  sub a b := a - b
  div a b := a / b
  isNaN _ := false
  abs x := Qcd.abs x
  lt a b := open Classical in decide (a < b)

variable {T : Type} [NumOps T]

/-- utils.rs l.48-50. -/
noncomputable def compute_residue_with_eps (f : T → T) (z : T) (eps : ℝ) : T :=
  ((f (z + ofR eps))⁻¹ - (f (z - ofR eps))⁻¹)⁻¹ * ofR 2 * ofR eps

/-- utils.rs l.54-56. -/
noncomputable def compute_residue (f : T → T) (z : T) : T :=
  compute_residue_with_eps f z (1 / 10 ^ 12)

/-- utils.rs l.61-63. -/
noncomputable def spectral_function_with_eps (f : ℂ → ℂ) (z : ℂ) (eps : ℝ) : ℂ :=
  I * (f (z + I * ofR eps) - f (z - I * ofR eps)) / ofR (2 * Real.pi)

/-- utils.rs l.68-70. -/
noncomputable def spectral_function (f : ℂ → ℂ) (z : ℂ) : ℂ :=
  spectral_function_with_eps f z (1 / 10 ^ 12)

end Qcd.utils
