import Verif.Model.Common

/-!
# Numbers that may be undefined

`PV T` for a numeric type `T` (`ℝ` or `ℂ`): a value, or `undef`, meaning that somewhere an operation was applied outside its
domain (division by zero, inverse of zero, logarithm of zero, and for real numbers logarithm or square root of a negative number), which is
where the Rust code produces an infinity or a NaN (types.rs l.59-131). `undef` is propagated by all operations. Rounding and
overflow are not modelled. This is the interpretation of `Model/Partial.lean` for both numeric types and their mixed operations. -/

namespace Qcd

/-- Domains of the logarithm and of the square root of a numeric type (types.rs l.59-131). -/
class NumDom (T : Type) where
  lnDom : T → Prop
  sqrtDom : T → Prop

/-- types.rs l.59-94: `f64::ln`, `f64::sqrt`. -/
instance : NumDom ℝ := ⟨fun x => 0 < x, fun x => 0 ≤ x⟩
/-- types.rs l.96-131: `Complex::ln`, `Complex::sqrt`. -/
instance : NumDom ℂ := ⟨fun x => x ≠ 0, fun _ => True⟩

/-- A number or "not defined" (types.rs l.59-131). -/
inductive PV (T : Type) : Type where
  | val (x : T)
  | undef

namespace PV
variable {T : Type}

/-- A function applied to a number that may be undefined (types.rs l.25-57). -/
def map {S : Type} (f : T → S) : PV T → PV S
  | val x => val (f x)
  | undef => undef

/-- A binary operation (types.rs l.25-57). -/
def map₂ (f : T → T → T) : PV T → PV T → PV T
  | val x, val y => val (f x y)
  | _, _ => undef

/-- An operation with a domain (types.rs l.59-131). -/
noncomputable def partialOp {S : Type} (dom : T → Prop) (f : T → S) : PV T → PV S
  | val x => open Classical in if dom x then val (f x) else undef
  | undef => undef

/-- Literals, types.rs l.47. -/
instance {n : ℕ} [OfNat T n] : OfNat (PV T) n := ⟨val (OfNat.ofNat n)⟩

section
variable [Num T]

/-- types.rs l.25-57. -/
noncomputable instance : Add (PV T) := ⟨map₂ (· + ·)⟩
/-- types.rs l.25-57. -/
noncomputable instance : Sub (PV T) := ⟨map₂ (· - ·)⟩
/-- types.rs l.25-57. -/
noncomputable instance : Mul (PV T) := ⟨map₂ (· * ·)⟩
/-- types.rs l.25-57. -/
noncomputable instance : Neg (PV T) := ⟨map fun x => -x⟩
/-- types.rs l.25-57, `inv`. -/
noncomputable instance : Inv (PV T) := ⟨partialOp (· ≠ 0) fun x => x⁻¹⟩
/-- types.rs l.25-57. -/
noncomputable instance : Div (PV T) := ⟨fun x y => x * y⁻¹⟩

/-- Promotion of a real number (mixed operations `T op R` of types.rs) (l.34-41). -/
noncomputable def ofR : PV ℝ → PV T := map fun r => (Qcd.ofR r : T)
/-- Promotion to a complex number (mixed operations `T op C` of types.rs) (l.43-48). -/
noncomputable def toC : PV T → PV ℂ := map fun x => Qcd.toC x
/-- types.rs l.25-57, `exp`. -/
noncomputable def exp : PV T → PV T := map NumOps.exp

variable [NumDom T]
/-- types.rs l.25-57, `ln`. -/
noncomputable def ln : PV T → PV T := partialOp NumDom.lnDom NumOps.ln
/-- types.rs l.25-57, `sqrt`. -/
noncomputable def sqrt : PV T → PV T := partialOp NumDom.sqrtDom NumOps.sqrt
end

/-- The constant `I` of types.rs (consts.rs l.15). -/
noncomputable def I : PV ℂ := val Qcd.I

end PV

namespace P

/-- common/mod.rs l.71-73. -/
noncomputable def energy_squared {T : Type} [Num T] (p : PV ℝ) (m : PV T) : PV T := m * m + PV.ofR (p * p)

/-- common/mod.rs l.76-78. -/
noncomputable def energy {T : Type} [Num T] [NumDom T] (p : PV ℝ) (m : PV T) : PV T := PV.sqrt (energy_squared p m)

/-- low_level/common/mod.rs l.60-66, for real chemical potentials and energies. -/
noncomputable def statistic_distribution_exponential (en : PV ℝ) (beta : PV ℝ) (mu : PV ℝ) : PV ℝ := PV.exp ((en - mu) * beta)

/-- low_level/common/mod.rs l.69-71. -/
noncomputable def statistic_distribution_exponential_zero_chempot {T : Type} [Num T] (en : PV T) (beta : PV ℝ) : PV T := PV.exp (en * PV.ofR beta)

/-- common/thermal.rs l.181-190, for real energies: a comparison, defined if its operands are. -/
noncomputable def fermi_distribution_zero_temp (en : PV ℝ) (mu : PV ℝ) : PV ℝ :=
  match en, mu with
  | .val en, .val mu => .val (Qcd.fermi_distribution_zero_temp en mu)
  | _, _ => .undef

/-- common/thermal.rs l.193-200, for real energies. -/
noncomputable def fermi_distribution_double (en : PV ℝ) (beta : PV ℝ) (mu : PV ℝ) : PV ℝ :=
  (statistic_distribution_exponential en beta mu + 1)⁻¹ + (statistic_distribution_exponential en beta (-mu) + 1)⁻¹

/-- common/thermal.rs l.203-211, for real energies. -/
noncomputable def fermi_distribution_double_zero_temp (en : PV ℝ) (mu : PV ℝ) : PV ℝ :=
  fermi_distribution_zero_temp en mu + fermi_distribution_zero_temp en (-mu)

/-- common/thermal.rs l.228-230. -/
noncomputable def bose_distribution_zero_chempot {T : Type} [Num T] (en : PV T) (beta : PV ℝ) : PV T :=
  (statistic_distribution_exponential_zero_chempot en beta - PV.ofR 1)⁻¹

end P
end Qcd
