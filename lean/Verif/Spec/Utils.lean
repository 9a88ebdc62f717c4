import Verif.Model.Utils

/-! Specification of the secant method. -/

namespace Qcd.utils
variable {T R : Type}

/-- The secant sequence from two starting points: `z₀, z₁`, then
`z_{n+2} = (z_n f(z_{n+1}) - z_{n+1} f(z_n)) / (f(z_{n+1}) - f(z_n))`. -/
def secant (o : RootOps T R) (f : T → T) (g0 g1 : T) : ℕ → T
  | 0 => g0
  | 1 => g1
  | n + 2 =>
    let a := secant o f g0 g1 n
    let b := secant o f g0 g1 (n + 1)
    o.div (o.sub (o.mul a (f b)) (o.mul b (f a))) (o.sub (f b) (f a))

/-- The tests of the `k`-th iterate under test (`z_{k+1}`). -/
def nanAt (o : RootOps T R) (f : T → T) (g0 g1 : T) (k : ℕ) : Prop :=
  o.isNaN (f (secant o f g0 g1 (k + 1))) = true
def smallAt (o : RootOps T R) (f : T → T) (g0 g1 : T) (tol : R) (k : ℕ) : Prop :=
  o.lt (o.abs (f (secant o f g0 g1 (k + 1)))) tol = true

end Qcd.utils
