import Verif.Model.Num

/-! # `qcd-sme/src/common` and `qcd-sme/src/low_level/common` -/

namespace Qcd

/-- Operand types for which Rust has `T1: Sub<T2, Output = T1>`
(common/thermal.rs l.172): `R - R`, `C - R`, `C - C`. `up` promotes the second operand. -/
class Promote (T2 T1 : Type) [Num T2] [Num T1] where
  up : T2 →+* T1
  toC_up : ∀ x : T2, (Num.toC : T1 →+* ℂ) (up x) = (Num.toC : T2 →+* ℂ) x

/-- `T - T`, types.rs l.25-27. -/
noncomputable instance promoteSelf {T : Type} [Num T] : Promote T T where
  up := RingHom.id T
  toC_up _ := rfl

/-- `R - C`, types.rs l.44. -/
noncomputable instance promoteRC : Promote ℝ ℂ where
  up := Complex.ofRealHom
  toC_up _ := rfl

/-- Promotion of the second operand of `T1 - T2` (low_level/common/mod.rs l.60-66). -/
abbrev up {T2 T1 : Type} [Num T2] [Num T1] [Promote T2 T1] (x : T2) : T1 :=
  (Promote.up : T2 →+* T1) x

@[simp] theorem up_self {T : Type} [Num T] (x : T) : (up x : T) = x := rfl
@[simp] theorem up_RC (x : ℝ) : (up x : ℂ) = (x : ℂ) := rfl

/-- common/mod.rs l.71-73. -/
noncomputable def energy_squared {T : Type} [NumOps T] (p : ℝ) (m : T) : T := m * m + ofR (p * p)

/-- common/mod.rs l.76-78. -/
noncomputable def energy {T : Type} [NumOps T] (p : ℝ) (m : T) : T := NumOps.sqrt (energy_squared p m)

/-- low_level/common/mod.rs l.60-66. -/
noncomputable def statistic_distribution_exponential {T1 T2 : Type} [Num T1] [Num T2] [Promote T2 T1]
    (en : T1) (beta : ℝ) (mu : T2) : T1 :=
  NumOps.exp ((en - up mu) * ofR beta)

/-- low_level/common/mod.rs l.69-71. -/
noncomputable def statistic_distribution_exponential_zero_chempot {T : Type} [NumOps T]
    (en : T) (beta : ℝ) : T :=
  NumOps.exp (en * ofR beta)

/-- common/thermal.rs l.167-169. -/
noncomputable def fermi_momentum (m mu : ℝ) : ℝ := Real.sqrt (mu * mu + -(m * m))

/-- common/thermal.rs l.172-178. -/
noncomputable def fermi_distribution {T1 T2 : Type} [Num T1] [Num T2] [Promote T2 T1]
    (en : T1) (beta : ℝ) (mu : T2) : T1 :=
  (statistic_distribution_exponential en beta mu + ofR 1)⁻¹

/-- common/thermal.rs l.181-190. -/
noncomputable def fermi_distribution_zero_temp {T1 T2 : Type} [Num T1] [Num T2]
    (en : T1) (mu : T2) : T1 :=
  open Classical in if re en > re mu then 0 else 1

/-- common/thermal.rs l.193-200. -/
noncomputable def fermi_distribution_double {T1 T2 : Type} [Num T1] [Num T2] [Promote T2 T1]
    (en : T1) (beta : ℝ) (mu : T2) : T1 :=
  (statistic_distribution_exponential en beta mu + ofR 1)⁻¹
    + (statistic_distribution_exponential en beta (-mu) + ofR 1)⁻¹

/-- common/thermal.rs l.203-211. -/
noncomputable def fermi_distribution_double_zero_temp {T1 T2 : Type} [Num T1] [Num T2]
    (en : T1) (mu : T2) : T1 :=
  fermi_distribution_zero_temp en mu + fermi_distribution_zero_temp en (-mu)

/-- common/thermal.rs l.214-216. -/
noncomputable def fermi_distribution_zero_chempot {T : Type} [NumOps T] (en : T) (beta : ℝ) : T :=
  (statistic_distribution_exponential_zero_chempot en beta + ofR 1)⁻¹

/-- common/thermal.rs l.219-225. -/
noncomputable def bose_distribution {T1 T2 : Type} [Num T1] [Num T2] [Promote T2 T1]
    (en : T1) (beta : ℝ) (mu : T2) : T1 :=
  (statistic_distribution_exponential en beta mu - ofR 1)⁻¹

/-- common/thermal.rs l.228-230. -/
noncomputable def bose_distribution_zero_chempot {T : Type} [NumOps T] (en : T) (beta : ℝ) : T :=
  (statistic_distribution_exponential_zero_chempot en beta - ofR 1)⁻¹

end Qcd
