import Verif.Model.FloatDensity

/-! # The integrands of the tadpole diagrams in floating-point arithmetic

The real instances (`T = R`) of the functions `j_*` of low_level/oneloop/thermal/mod.rs and of their derivatives with respect to the mass
squared, operation by operation. -/

namespace Qcd.F
variable {r : Rounding}

/-- low_level/oneloop/thermal/mod.rs l.658-662, real numbers. -/
noncomputable def j_m_i (q m beta : Fl r) : Fl r :=
  let q2 := q * q
  let en := energy q m
  bose_distribution_zero_chempot en beta * q2 / (en * ofR 2 * PI2)

/-- low_level/oneloop/thermal/mod.rs l.665-667. -/
noncomputable def j_0_i (q beta : Fl r) : Fl r := bose_distribution_zero_chempot q beta * q / (ofR 2 * PI2)

/-- low_level/oneloop/thermal/mod.rs l.670-674, real numbers. -/
noncomputable def j_m_l_i (q m beta : Fl r) : Fl r :=
  let q2 := q * q
  let en := energy q m
  (-bose_distribution_zero_chempot en beta) * q2 * en / (ofR 2 * PI2)

/-- low_level/oneloop/thermal/mod.rs l.677-681. -/
noncomputable def j_0_l_i (q beta : Fl r) : Fl r :=
  let q2 := q * q
  let q3 := q2 * q
  (-bose_distribution_zero_chempot q beta) * q3 / (ofR 2 * PI2)

/-- low_level/oneloop/thermal/mod.rs l.684-689, real numbers. -/
noncomputable def j_m_t_i (q m beta : Fl r) : Fl r :=
  let q2 := q * q
  let q4 := q2 * q2
  let en := energy q m
  bose_distribution_zero_chempot en beta * q4 / (en * ofR 6 * PI2)

/-- low_level/oneloop/thermal/mod.rs l.692-696. -/
noncomputable def j_0_t_i (q beta : Fl r) : Fl r :=
  let q2 := q * q
  let q3 := q2 * q
  bose_distribution_zero_chempot q beta * q3 / (ofR 6 * PI2)

/-- low_level/oneloop/thermal/mod.rs l.871-874, real numbers. -/
noncomputable def d_j_m_i (q m beta : Fl r) : Fl r :=
  let en := energy q m
  (-bose_distribution_zero_chempot en beta) / (en * ofR 4 * PI2)

/-- low_level/oneloop/thermal/mod.rs l.877-879. -/
noncomputable def d_j_0_i (q beta : Fl r) : Fl r := -bose_distribution_zero_chempot q beta / (q * ofR 4 * PI2)

/-- low_level/oneloop/thermal/mod.rs l.882-889, real numbers. -/
noncomputable def d2_j_m_i (q m beta : Fl r) : Fl r :=
  let en := energy q m
  let en3 := en * en * en
  let ben := en * beta
  let bp := bose_distribution_zero_chempot en beta
  let bm := bose_distribution_zero_chempot (-en) beta
  bp / (en3 * ofR 8 * PI2) * (-ben * bm + ofR 1)

/-- low_level/oneloop/thermal/mod.rs l.892-898. -/
noncomputable def d2_j_0_i (q beta : Fl r) : Fl r :=
  let q3 := q * q * q
  let bq := q * beta
  let bp := bose_distribution_zero_chempot q beta
  let bm := bose_distribution_zero_chempot (-q) beta
  bp / (q3 * ofR 8 * PI2) * Fl.mulAdd (-bq) bm (ofR 1)

/-- low_level/oneloop/thermal/mod.rs l.901-904, real numbers. -/
noncomputable def d_j_m_l_i (q m beta : Fl r) : Fl r :=
  let en := energy q m
  en * bose_distribution_zero_chempot en beta / (ofR 4 * PI2)

/-- low_level/oneloop/thermal/mod.rs l.907-909. -/
noncomputable def d_j_0_l_i (q beta : Fl r) : Fl r := q * bose_distribution_zero_chempot q beta / (ofR 4 * PI2)

/-- low_level/oneloop/thermal/mod.rs l.912-917, real numbers. -/
noncomputable def d2_j_m_l_i (q m beta : Fl r) : Fl r :=
  let en := energy q m
  let bp := bose_distribution_zero_chempot en beta
  let bm := bose_distribution_zero_chempot (-en) beta
  bp / (ofR 8 * PI2) * (bm * beta + en⁻¹)

/-- low_level/oneloop/thermal/mod.rs l.920-924. -/
noncomputable def d2_j_0_l_i (q beta : Fl r) : Fl r :=
  let bp := bose_distribution_zero_chempot q beta
  let bm := bose_distribution_zero_chempot (-q) beta
  bp / (ofR 8 * PI2) * Fl.mulAdd bm beta (ofR 1 / q)

/-- low_level/oneloop/thermal/mod.rs l.927-931, real numbers. -/
noncomputable def d_j_m_t_i (q m beta : Fl r) : Fl r :=
  let q2 := q * q
  let en := energy q m
  (-bose_distribution_zero_chempot en beta) * q2 / (en * ofR 4 * PI2)

/-- low_level/oneloop/thermal/mod.rs l.934-936. -/
noncomputable def d_j_0_t_i (q beta : Fl r) : Fl r := -bose_distribution_zero_chempot q beta * q / (ofR 4 * PI2)

/-- low_level/oneloop/thermal/mod.rs l.939-942, real numbers. -/
noncomputable def d2_j_m_t_i (q m beta : Fl r) : Fl r :=
  let en := energy q m
  bose_distribution_zero_chempot en beta / (en * ofR 8 * PI2)

/-- low_level/oneloop/thermal/mod.rs l.945-947. -/
noncomputable def d2_j_0_t_i (q beta : Fl r) : Fl r := bose_distribution_zero_chempot q beta / (q * ofR 8 * PI2)

end Qcd.F
