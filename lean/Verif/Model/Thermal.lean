import Verif.Model.Common

/-! # One-loop thermal integrands: `low_level/oneloop/thermal/{mod,zero_momentum,zero_matsubara}.rs`

Transcribed by `tools/rs2lean.py` from the `inlines` modules. `R` arguments are `ℝ`, generic
arguments (`T: Num`, and `T: Copy + Into<C>` for the mass difference `delta`) are arbitrary types
with `[Num T]`. Mixed operations carry explicit promotions (`ofR`, `toC`).
`x.mul_add(a, b)` is `x * a + b`. `PI2` is the constant `PI * PI` of each file.
The public (non-inline) functions of the same names in these files call these with the same
arguments and are not repeated. -/

namespace Qcd

/-- `const PI2: R = PI * PI` (mod.rs l.560, zero_momentum.rs l.267, zero_matsubara.rs l.325,
gluon.rs l.385, 914, 1341). -/
noncomputable def PI2 : ℝ := Real.pi * Real.pi

namespace thermal

/-- low_level/oneloop/thermal/mod.rs l.562-569. -/
noncomputable def r_0 {T1 T2 T3 T4 : Type} [Num T1] [Num T2] [Num T3] [Num T4] (om : T1) (p : T2) (en : T3) (delta : T4) : ℂ :=
  toC (om * om) + toC om * (toC (en * (ofR 2 : T3)) * I) + (toC (p * p) + toC delta)

/-- low_level/oneloop/thermal/mod.rs l.572-574. -/
noncomputable def r_0_same_mass {T1 T2 T3 : Type} [Num T1] [Num T2] [Num T3] (om : T1) (p : T2) (en : T3) : ℂ :=
  toC (p * p) + (toC (om * om) + toC om * (toC (en * (ofR 2 : T3)) * I))

/-- low_level/oneloop/thermal/mod.rs l.577-587. -/
noncomputable def tlog {T1 T2 T3 T4 : Type} [Num T1] [Num T2] [Num T3] [Num T4] (q : ℝ) (om : T1) (p : T2) (en : T3) (delta : T4) : ℂ :=
  let r_0 : ℂ := r_0 om p en delta
  let q2p : T2 := p * (ofR q : T2) * (ofR 2 : T2)
  NumOps.ln ((toC q2p + r_0) / (toC (-q2p) + r_0))

/-- low_level/oneloop/thermal/mod.rs l.590-594. -/
noncomputable def tlog_same_mass {T1 T2 T3 : Type} [Num T1] [Num T2] [Num T3] (q : ℝ) (om : T1) (p : T2) (en : T3) : ℂ :=
  let r_0 : ℂ := r_0_same_mass om p en
  let q2p : T2 := p * (ofR q : T2) * (ofR 2 : T2)
  NumOps.ln ((toC q2p + r_0) / (toC (-q2p) + r_0))

/-- low_level/oneloop/thermal/mod.rs l.597-601. -/
noncomputable def tlog_zero_mass {T1 T2 : Type} [Num T1] [Num T2] (q : ℝ) (om : T1) (p : T2) : ℂ :=
  let r_0 : ℂ := r_0_same_mass om p q
  let q2p : T2 := p * (ofR q : T2) * (ofR 2 : T2)
  NumOps.ln ((toC q2p + r_0) / (toC (-q2p) + r_0))

/-- low_level/oneloop/thermal/mod.rs l.604-614. -/
noncomputable def tlog_l {T1 T2 T3 T4 : Type} [Num T1] [Num T2] [Num T3] [Num T4] (q : ℝ) (om : T1) (p : T2) (en : T3) (delta : T4) : ℂ :=
  let ei2 : ℂ := toC (en * (ofR 2 : T3)) * I
  let pf : ℂ := toC (om * om) + toC om * ei2 + toC delta + toC (p * p) * (toC om⁻¹ * ei2 + (ofR 1 : ℂ))
  tlog q om p en delta * pf * pf

/-- low_level/oneloop/thermal/mod.rs l.617-621. -/
noncomputable def tlog_l_same_mass {T1 T2 T3 : Type} [Num T1] [Num T2] [Num T3] (q : ℝ) (om : T1) (p : T2) (en : T3) : ℂ :=
  let ei2 : ℂ := toC (en * (ofR 2 : T3)) * I
  let pf : ℂ := toC (om * om) + toC om * ei2 + toC (p * p) * (toC om⁻¹ * ei2 + (ofR 1 : ℂ))
  tlog_same_mass q om p en * pf * pf

/-- low_level/oneloop/thermal/mod.rs l.624-628. -/
noncomputable def tlog_l_zero_mass {T1 T2 : Type} [Num T1] [Num T2] (q : ℝ) (om : T1) (p : T2) : ℂ :=
  let ei2 : ℂ := (ofR (q * 2) : ℂ) * I
  let pf : ℂ := toC (om * om) + toC om * ei2 + toC (p * p) * (toC om⁻¹ * ei2 + (ofR 1 : ℂ))
  tlog_zero_mass q om p * pf * pf

/-- low_level/oneloop/thermal/mod.rs l.631-641. -/
noncomputable def tlog_t {T1 T2 T3 : Type} [Num T1] [Num T2] [Num T3] (q : ℝ) (om : T1) (p : ℝ) (en : T2) (delta : T3) : ℂ :=
  let r0 : ℂ := r_0 om p en delta
  let q2p : ℝ := q * 2 * p;
  (r0 + (ofR q2p : ℂ)) * (r0 - (ofR q2p : ℂ)) * tlog q om p en delta

/-- low_level/oneloop/thermal/mod.rs l.644-648. -/
noncomputable def tlog_t_same_mass {T1 T2 : Type} [Num T1] [Num T2] (q : ℝ) (om : T1) (p : ℝ) (en : T2) : ℂ :=
  let r0 : ℂ := r_0_same_mass om p en
  let q2p : ℝ := q * 2 * p;
  (r0 + (ofR q2p : ℂ)) * (r0 - (ofR q2p : ℂ)) * tlog_same_mass q om p en

/-- low_level/oneloop/thermal/mod.rs l.651-655. -/
noncomputable def tlog_t_zero_mass {T : Type} [Num T] (q : ℝ) (om : T) (p : ℝ) : ℂ :=
  let r0 : ℂ := r_0_same_mass om p q
  let q2p : ℝ := q * 2 * p;
  (r0 + (ofR q2p : ℂ)) * (r0 - (ofR q2p : ℂ)) * tlog_zero_mass q om p

/-- low_level/oneloop/thermal/mod.rs l.658-662. -/
noncomputable def j_m_i {T : Type} [Num T] (q : ℝ) (m : T) (beta : ℝ) : T :=
  let q2 : ℝ := q * q
  let en : T := energy q m
  bose_distribution_zero_chempot en beta * (ofR q2 : T) / (en * (ofR 2 : T) * (ofR PI2 : T))

/-- low_level/oneloop/thermal/mod.rs l.665-667. -/
noncomputable def j_0_i (q : ℝ) (beta : ℝ) : ℝ :=
  bose_distribution_zero_chempot q beta * q / (2 * PI2)

/-- low_level/oneloop/thermal/mod.rs l.670-674. -/
noncomputable def j_m_l_i {T : Type} [Num T] (q : ℝ) (m : T) (beta : ℝ) : T :=
  let q2 : ℝ := q * q
  let en : T := energy q m;
  -bose_distribution_zero_chempot en beta * (ofR q2 : T) * en / (ofR (2 * PI2) : T)

/-- low_level/oneloop/thermal/mod.rs l.677-681. -/
noncomputable def j_0_l_i (q : ℝ) (beta : ℝ) : ℝ :=
  let q2 : ℝ := q * q
  let q3 : ℝ := q2 * q;
  -bose_distribution_zero_chempot q beta * q3 / (2 * PI2)

/-- low_level/oneloop/thermal/mod.rs l.684-689. -/
noncomputable def j_m_t_i {T : Type} [Num T] (q : ℝ) (m : T) (beta : ℝ) : T :=
  let q2 : ℝ := q * q
  let q4 : ℝ := q2 * q2
  let en : T := energy q m
  bose_distribution_zero_chempot en beta * (ofR q4 : T) / (en * (ofR 6 : T) * (ofR PI2 : T))

/-- low_level/oneloop/thermal/mod.rs l.692-696. -/
noncomputable def j_0_t_i (q : ℝ) (beta : ℝ) : ℝ :=
  let q2 : ℝ := q * q
  let q3 : ℝ := q2 * q
  bose_distribution_zero_chempot q beta * q3 / (6 * PI2)

/-- low_level/oneloop/thermal/mod.rs l.699-708. -/
noncomputable def i_m_m_i {T1 T2 T3 : Type} [Num T1] [Num T2] [Num T3] (q : ℝ) (om : T1) (p : ℝ) (m1 : T2) (m2 : T3) (beta : ℝ) : ℂ :=
  let en1 : T2 := energy q m1
  let en2 : T3 := energy q m2
  let delta : ℂ := toC (m2 * m2) - toC (m1 * m1)
  let t1 : ℂ := toC (bose_distribution_zero_chempot en1 beta / en1) * (tlog q om p en1 delta + tlog q (-om) p en1 delta)
  let t2 : ℂ := toC (bose_distribution_zero_chempot en2 beta / en2) * (tlog q om p en2 (-delta) + tlog q (-om) p en2 (-delta));
  (t1 + t2) * (ofR q : ℂ) / (ofR (p * 16 * PI2) : ℂ)

/-- low_level/oneloop/thermal/mod.rs l.711-716. -/
noncomputable def i_m_m_i_same_mass {T1 T2 T3 : Type} [Num T1] [Num T2] [Num T3] (q : ℝ) (om : T1) (p : T2) (m : T3) (beta : ℝ) : ℂ :=
  let en : T3 := energy q m
  let t : ℂ := toC (bose_distribution_zero_chempot en beta / en) * (tlog_same_mass q om p en + tlog_same_mass q (-om) p en)
  toC (p * (ofR 8 : T2) * (ofR PI2 : T2))⁻¹ * t * (ofR q : ℂ)

/-- low_level/oneloop/thermal/mod.rs l.719-727. -/
noncomputable def i_m_0_i {T1 T2 T3 : Type} [Num T1] [Num T2] [Num T3] (q : ℝ) (om : T1) (p : T2) (m : T3) (beta : ℝ) : ℂ :=
  let en : T3 := energy q m
  let delta : T3 := -m * m
  let t1 : ℂ := toC (bose_distribution_zero_chempot en beta * (ofR q : T3) / en) * (tlog q om p en delta + tlog q (-om) p en delta)
  let t2 : ℂ := (ofR (bose_distribution_zero_chempot q beta) : ℂ) * (tlog q om p q (-delta) + tlog q (-om) p q (-delta))
  toC (p * (ofR 16 : T2) * (ofR PI2 : T2))⁻¹ * (t1 + t2)

/-- low_level/oneloop/thermal/mod.rs l.730-734. -/
noncomputable def i_0_0_i {T : Type} [Num T] (q : ℝ) (om : T) (p : ℝ) (beta : ℝ) : ℂ :=
  let t : ℂ := (ofR (bose_distribution_zero_chempot q beta) : ℂ) * (tlog_zero_mass q om p + tlog_zero_mass q (-om) p)
  t / (ofR (p * 8 * PI2) : ℂ)

/-- low_level/oneloop/thermal/mod.rs l.737-753. -/
noncomputable def i_m_m_l_i {T1 T2 T3 : Type} [Num T1] [Num T2] [Num T3] (q : ℝ) (om : T1) (p : ℝ) (m1 : T2) (m2 : T3) (beta : ℝ) : ℂ :=
  let en1 : T2 := energy q m1
  let en2 : T3 := energy q m2
  let delta : ℂ := toC (m2 * m2) - toC (m1 * m1)
  let qp : ℝ := q * p
  let p2 : ℝ := p * p
  let p3 : ℝ := p2 * p
  let om2 : T1 := om * om
  let om2_plus_p2 : T1 := om2 + (ofR p2 : T1)
  let t1 : ℂ := toC (bose_distribution_zero_chempot en1 beta / en1) * (tlog_l q om p en1 delta + tlog_l q (-om) p en1 delta - (ofR (8 * qp) : ℂ) * (toC om2_plus_p2 + delta))
  let t2 : ℂ := toC (bose_distribution_zero_chempot en2 beta / en2) * (tlog_l q om p en2 (-delta) + tlog_l q (-om) p en2 (-delta) - (ofR (8 * qp) : ℂ) * (toC om2_plus_p2 - delta))
  toC ((om2_plus_p2 * (ofR p3 : T1) * (ofR 64 : T1) * (ofR PI2 : T1))⁻¹ * om2 * (ofR q : T1)) * (t1 + t2)

/-- low_level/oneloop/thermal/mod.rs l.756-774. -/
noncomputable def i_m_m_l_i_same_mass {T1 T2 T3 : Type} [Num T1] [Num T2] [Num T3] (q : ℝ) (om : T1) (p : T2) (m : T3) (beta : ℝ) : ℂ :=
  let en : T3 := energy q m
  let qp : T2 := p * (ofR q : T2)
  let p2 : T2 := p * p
  let p3 : T2 := p2 * p
  let om2 : T1 := om * om
  let om2_plus_p2 : ℂ := toC om2 + toC p2
  let t : ℂ := toC (bose_distribution_zero_chempot en beta / en) * (toC (-qp) * om2_plus_p2 * (ofR 8 : ℂ) + tlog_l_same_mass q om p en + tlog_l_same_mass q (-om) p en)
  toC om2 * (toC p3 * om2_plus_p2 * (ofR 32 : ℂ) * (ofR PI2 : ℂ))⁻¹ * (ofR q : ℂ) * t

/-- low_level/oneloop/thermal/mod.rs l.777-792. -/
noncomputable def i_m_0_l_i {T1 T2 T3 : Type} [Num T1] [Num T2] [Num T3] (q : ℝ) (om : T1) (p : T2) (m : T3) (beta : ℝ) : ℂ :=
  let en : T3 := energy q m
  let delta : ℂ := -toC (m * m)
  let qp : T2 := p * (ofR q : T2)
  let p2 : T2 := p * p
  let p3 : T2 := p2 * p
  let om2 : T1 := om * om
  let om2_plus_p2 : ℂ := toC om2 + toC p2
  let t1 : ℂ := toC (bose_distribution_zero_chempot en beta * (ofR q : T3) / en) * (tlog_l q om p en delta + tlog_l q (-om) p en delta - toC (qp * (ofR 8 : T2)) * (om2_plus_p2 + delta))
  let t2 : ℂ := (ofR (bose_distribution_zero_chempot q beta) : ℂ) * (tlog_l q om p q (-delta) + tlog_l q (-om) p q (-delta) - toC (qp * (ofR 8 : T2)) * (om2_plus_p2 - delta))
  toC om2 * (toC p3 * om2_plus_p2 * (ofR 64 : ℂ) * (ofR PI2 : ℂ))⁻¹ * (t1 + t2)

/-- low_level/oneloop/thermal/mod.rs l.795-804. -/
noncomputable def i_0_0_l_i {T1 T2 : Type} [Num T1] [Num T2] (q : ℝ) (om : T1) (p : T2) (beta : ℝ) : ℂ :=
  let qp : T2 := p * (ofR q : T2)
  let p2 : T2 := p * p
  let p3 : T2 := p2 * p
  let om2 : T1 := om * om
  let om2_plus_p2 : ℂ := toC om2 + toC p2
  let t : ℂ := (ofR (bose_distribution_zero_chempot q beta) : ℂ) * (toC (-qp) * om2_plus_p2 * (ofR 8 : ℂ) + tlog_l_zero_mass q om p + tlog_l_zero_mass q (-om) p)
  toC om2 * (toC p3 * om2_plus_p2 * (ofR 32 : ℂ) * (ofR PI2 : ℂ))⁻¹ * t

/-- low_level/oneloop/thermal/mod.rs l.807-823. -/
noncomputable def i_m_m_t_i {T1 T2 T3 : Type} [Num T1] [Num T2] [Num T3] (q : ℝ) (om : T1) (p : ℝ) (m1 : T2) (m2 : T3) (beta : ℝ) : ℂ :=
  let en1 : T2 := energy q m1
  let en2 : T3 := energy q m2
  let delta : ℂ := toC (m2 * m2) - toC (m1 * m1)
  let qp : ℝ := q * p
  let p2 : ℝ := p * p
  let p3 : ℝ := p2 * p
  let om2 : T1 := om * om
  let om2_plus_p2 : T1 := om2 + (ofR p2 : T1)
  let t1 : ℂ := toC (bose_distribution_zero_chempot en1 beta / en1) * (tlog_t q om p en1 delta + tlog_t q (-om) p en1 delta - (ofR (8 * qp) : ℂ) * (toC om2_plus_p2 + delta))
  let t2 : ℂ := toC (bose_distribution_zero_chempot en2 beta / en2) * (tlog_t q om p en2 (-delta) + tlog_t q (-om) p en2 (-delta) - (ofR (8 * qp) : ℂ) * (toC om2_plus_p2 - delta));
  (ofR (-(p3 * 128 * PI2)⁻¹ * q) : ℂ) * (t1 + t2)

/-- low_level/oneloop/thermal/mod.rs l.826-838. -/
noncomputable def i_m_m_t_i_same_mass {T1 T2 : Type} [Num T1] [Num T2] (q : ℝ) (om : T1) (p : ℝ) (m : T2) (beta : ℝ) : ℂ :=
  let en : T2 := energy q m
  let qp : ℝ := q * p
  let p2 : ℝ := p * p
  let p3 : ℝ := p2 * p
  let om2 : T1 := om * om
  let om2_plus_p2 : T1 := om2 + (ofR p2 : T1)
  let t : ℂ := toC (bose_distribution_zero_chempot en beta / en) * (toC (-om2_plus_p2 * (ofR 8 : T1) * (ofR qp : T1)) + tlog_t_same_mass q om p en + tlog_t_same_mass q (-om) p en);
  (ofR (-(p3 * 64 * PI2)⁻¹ * q) : ℂ) * t

/-- low_level/oneloop/thermal/mod.rs l.841-856. -/
noncomputable def i_m_0_t_i {T1 T2 : Type} [Num T1] [Num T2] (q : ℝ) (om : T1) (p : ℝ) (m : T2) (beta : ℝ) : ℂ :=
  let en : T2 := energy q m
  let delta : ℂ := -toC (m * m)
  let qp : ℝ := q * p
  let p2 : ℝ := p * p
  let p3 : ℝ := p2 * p
  let om2 : T1 := om * om
  let om2_plus_p2 : T1 := om2 + (ofR p2 : T1)
  let t1 : ℂ := toC (bose_distribution_zero_chempot en beta * (ofR q : T2) / en) * (tlog_t q om p en delta + tlog_t q (-om) p en delta - (ofR (8 * qp) : ℂ) * (toC om2_plus_p2 + delta))
  let t2 : ℂ := (ofR (bose_distribution_zero_chempot q beta) : ℂ) * (tlog_t q om p q (-delta) + tlog_t q (-om) p q (-delta) - (ofR (8 * qp) : ℂ) * (toC om2_plus_p2 - delta));
  (ofR (-(p3 * 128 * PI2)⁻¹) : ℂ) * (t1 + t2)

/-- low_level/oneloop/thermal/mod.rs l.859-868. -/
noncomputable def i_0_0_t_i {T : Type} [Num T] (q : ℝ) (om : T) (p : ℝ) (beta : ℝ) : ℂ :=
  let qp : ℝ := q * p
  let p2 : ℝ := p * p
  let p3 : ℝ := p2 * p
  let om2 : T := om * om
  let om2_plus_p2 : T := om2 + (ofR p2 : T)
  let t : ℂ := (ofR (bose_distribution_zero_chempot q beta) : ℂ) * (toC (-om2_plus_p2 * (ofR 8 : T) * (ofR qp : T)) + tlog_t_zero_mass q om p + tlog_t_zero_mass q (-om) p);
  (ofR (-(p3 * 64 * PI2)⁻¹) : ℂ) * t

/-- low_level/oneloop/thermal/mod.rs l.871-874. -/
noncomputable def d_j_m_i {T : Type} [Num T] (q : ℝ) (m : T) (beta : ℝ) : T :=
  let en : T := energy q m;
  -bose_distribution_zero_chempot en beta / (en * (ofR 4 : T) * (ofR PI2 : T))

/-- low_level/oneloop/thermal/mod.rs l.877-879. -/
noncomputable def d_j_0_i (q : ℝ) (beta : ℝ) : ℝ :=
  -bose_distribution_zero_chempot q beta / (q * 4 * PI2)

/-- low_level/oneloop/thermal/mod.rs l.882-889. -/
noncomputable def d2_j_m_i {T : Type} [Num T] (q : ℝ) (m : T) (beta : ℝ) : T :=
  let en : T := energy q m
  let en3 : T := en * en * en
  let ben : T := en * (ofR beta : T)
  let bp : T := bose_distribution_zero_chempot en beta
  let bm : T := bose_distribution_zero_chempot (-en) beta
  bp / (en3 * (ofR 8 : T) * (ofR PI2 : T)) * (-ben * bm + (ofR 1 : T))

/-- low_level/oneloop/thermal/mod.rs l.892-898. -/
noncomputable def d2_j_0_i (q : ℝ) (beta : ℝ) : ℝ :=
  let q3 : ℝ := q * q * q
  let bq : ℝ := q * beta
  let bp : ℝ := bose_distribution_zero_chempot q beta
  let bm : ℝ := bose_distribution_zero_chempot (-q) beta
  bp / (q3 * 8 * PI2) * (-bq * bm + 1)

/-- low_level/oneloop/thermal/mod.rs l.901-904. -/
noncomputable def d_j_m_l_i {T : Type} [Num T] (q : ℝ) (m : T) (beta : ℝ) : T :=
  let en : T := energy q m
  en * bose_distribution_zero_chempot en beta / (ofR (4 * PI2) : T)

/-- low_level/oneloop/thermal/mod.rs l.907-909. -/
noncomputable def d_j_0_l_i (q : ℝ) (beta : ℝ) : ℝ :=
  q * bose_distribution_zero_chempot q beta / (4 * PI2)

/-- low_level/oneloop/thermal/mod.rs l.912-917. -/
noncomputable def d2_j_m_l_i {T : Type} [Num T] (q : ℝ) (m : T) (beta : ℝ) : T :=
  let en : T := energy q m
  let bp : T := bose_distribution_zero_chempot en beta
  let bm : T := bose_distribution_zero_chempot (-en) beta
  bp / (ofR (8 * PI2) : T) * (bm * (ofR beta : T) + en⁻¹)

/-- low_level/oneloop/thermal/mod.rs l.920-924. -/
noncomputable def d2_j_0_l_i (q : ℝ) (beta : ℝ) : ℝ :=
  let bp : ℝ := bose_distribution_zero_chempot q beta
  let bm : ℝ := bose_distribution_zero_chempot (-q) beta
  bp / (8 * PI2) * (bm * beta + 1 / q)

/-- low_level/oneloop/thermal/mod.rs l.927-931. -/
noncomputable def d_j_m_t_i {T : Type} [Num T] (q : ℝ) (m : T) (beta : ℝ) : T :=
  let q2 : ℝ := q * q
  let en : T := energy q m;
  -bose_distribution_zero_chempot en beta * (ofR q2 : T) / (en * (ofR 4 : T) * (ofR PI2 : T))

/-- low_level/oneloop/thermal/mod.rs l.934-936. -/
noncomputable def d_j_0_t_i (q : ℝ) (beta : ℝ) : ℝ :=
  -bose_distribution_zero_chempot q beta * q / (4 * PI2)

/-- low_level/oneloop/thermal/mod.rs l.939-942. -/
noncomputable def d2_j_m_t_i {T : Type} [Num T] (q : ℝ) (m : T) (beta : ℝ) : T :=
  let en : T := energy q m
  bose_distribution_zero_chempot en beta / (en * (ofR 8 : T) * (ofR PI2 : T))

/-- low_level/oneloop/thermal/mod.rs l.945-947. -/
noncomputable def d2_j_0_t_i (q : ℝ) (beta : ℝ) : ℝ :=
  bose_distribution_zero_chempot q beta / (q * 8 * PI2)

/-- low_level/oneloop/thermal/mod.rs l.950-973. -/
noncomputable def d_i_m_m_i {T1 T2 T3 : Type} [Num T1] [Num T2] [Num T3] (q : ℝ) (om : T1) (p : ℝ) (m1 : T2) (m2 : T3) (beta : ℝ) : ℂ :=
  let q2p : ℝ := q * p * 2
  let delta : ℂ := toC (m2 * m2) - toC (m1 * m1)
  let en1 : T2 := energy q m1
  let en2 : T3 := energy q m2
  let r01 : ℂ := r_0 om p en1 delta
  let r02 : ℂ := r_0 om p en2 (-delta)
  let r1pinv : ℂ := (r01 + (ofR q2p : ℂ))⁻¹
  let r1minv : ℂ := (r01 - (ofR q2p : ℂ))⁻¹
  let r2pinv : ℂ := (r02 + (ofR q2p : ℂ))⁻¹
  let r2minv : ℂ := (r02 - (ofR q2p : ℂ))⁻¹
  let r01_opp : ℂ := r_0 (-om) p en1 delta
  let r02_opp : ℂ := r_0 (-om) p en2 (-delta)
  let r1pinv_opp : ℂ := (r01_opp + (ofR q2p : ℂ))⁻¹
  let r1minv_opp : ℂ := (r01_opp - (ofR q2p : ℂ))⁻¹
  let r2pinv_opp : ℂ := (r02_opp + (ofR q2p : ℂ))⁻¹
  let r2minv_opp : ℂ := (r02_opp - (ofR q2p : ℂ))⁻¹
  let b1 : T2 := bose_distribution_zero_chempot en1 beta
  let b2 : T3 := bose_distribution_zero_chempot en2 beta
  let t10 : ℂ := toC (b1 / en1) * (r1pinv + r1minv + r1pinv_opp + r1minv_opp)
  let t1 : ℂ := toC (b1 / en1) * (r1pinv - r1minv + r1pinv_opp - r1minv_opp)
  let t2 : ℂ := toC (b2 / en2) * (r2pinv - r2minv + r2pinv_opp - r2minv_opp);
  (-t10 + (t2 - t1) * (ofR q : ℂ) / (ofR p : ℂ)) / (ofR (16 * PI2) : ℂ)

/-- low_level/oneloop/thermal/mod.rs l.976-994. -/
noncomputable def d_i_m_m_i_same_mass {T1 T2 T3 : Type} [Num T1] [Num T2] [Num T3] (q : ℝ) (om : T1) (p : T2) (m : T3) (beta : ℝ) : ℂ :=
  let q2p : T2 := p * (ofR q : T2) * (ofR 2 : T2)
  let en : T3 := energy q m
  let r0 : ℂ := r_0_same_mass om p en
  let rpinv : ℂ := (toC q2p + r0)⁻¹
  let rminv : ℂ := (toC (-q2p) + r0)⁻¹
  let r0_opp : ℂ := r_0_same_mass (-om) p en
  let rpinv_opp : ℂ := (toC q2p + r0_opp)⁻¹
  let rminv_opp : ℂ := (toC (-q2p) + r0_opp)⁻¹
  toC (-bose_distribution_zero_chempot en beta * (en * (ofR 16 : T3) * (ofR PI2 : T3))⁻¹) * (rpinv + rminv + rpinv_opp + rminv_opp)

/-- low_level/oneloop/thermal/mod.rs l.997-1019. -/
noncomputable def d_i_m_0_i {T1 T2 T3 : Type} [Num T1] [Num T2] [Num T3] (q : ℝ) (om : T1) (p : T2) (m : T3) (beta : ℝ) : ℂ :=
  let q2p : T2 := p * (ofR q : T2) * (ofR 2 : T2)
  let delta : T3 := -m * m
  let en : T3 := energy q m
  let r01 : ℂ := r_0 om p en delta
  let r02 : ℂ := r_0 om p q (-delta)
  let r1pinv : ℂ := (toC q2p + r01)⁻¹
  let r1minv : ℂ := (toC (-q2p) + r01)⁻¹
  let r2pinv : ℂ := (toC q2p + r02)⁻¹
  let r2minv : ℂ := (toC (-q2p) + r02)⁻¹
  let r01_opp : ℂ := r_0 (-om) p en delta
  let r02_opp : ℂ := r_0 (-om) p q (-delta)
  let r1pinv_opp : ℂ := (toC q2p + r01_opp)⁻¹
  let r1minv_opp : ℂ := (toC (-q2p) + r01_opp)⁻¹
  let r2pinv_opp : ℂ := (toC q2p + r02_opp)⁻¹
  let r2minv_opp : ℂ := (toC (-q2p) + r02_opp)⁻¹
  let b1 : T3 := bose_distribution_zero_chempot en beta
  let b2 : ℝ := bose_distribution_zero_chempot q beta
  let t10 : ℂ := toC (b1 / en) * (r1pinv + r1minv + r1pinv_opp + r1minv_opp)
  let t1 : ℂ := toC (b1 / en) * (r1pinv - r1minv + r1pinv_opp - r1minv_opp)
  let t2 : ℂ := (ofR (b2 / q) : ℂ) * (r2pinv - r2minv + r2pinv_opp - r2minv_opp);
  (-t10 + toC p⁻¹ * (t2 - t1) * (ofR q : ℂ)) / (ofR (16 * PI2) : ℂ)

/-- low_level/oneloop/thermal/mod.rs l.1022-1032. -/
noncomputable def d_i_0_0_i {T : Type} [Num T] (q : ℝ) (om : T) (p : ℝ) (beta : ℝ) : ℂ :=
  let q2p : ℝ := q * p * 2
  let r0 : ℂ := r_0_same_mass om p q
  let rpinv : ℂ := (r0 + (ofR q2p : ℂ))⁻¹
  let rminv : ℂ := (r0 - (ofR q2p : ℂ))⁻¹
  let r0_opp : ℂ := r_0_same_mass (-om) p q
  let rpinv_opp : ℂ := (r0_opp + (ofR q2p : ℂ))⁻¹
  let rminv_opp : ℂ := (r0_opp - (ofR q2p : ℂ))⁻¹;
  (ofR (-bose_distribution_zero_chempot q beta) : ℂ) * (rpinv + rminv + rpinv_opp + rminv_opp) / (ofR (q * 16 * PI2) : ℂ)

/-- low_level/oneloop/thermal/mod.rs l.1035-1090. -/
noncomputable def d_i_m_m_l_i {T1 T2 T3 : Type} [Num T1] [Num T2] [Num T3] (q : ℝ) (om : T1) (p : ℝ) (m1 : T2) (m2 : T3) (beta : ℝ) : ℂ :=
  let om2 : T1 := om * om
  let ominv : T1 := om⁻¹
  let p2 : ℝ := p * p
  let p2q : ℝ := 2 * p * q
  let delta : ℂ := toC (m2 * m2) - toC (m1 * m1)
  let k : ℂ := toC (ominv * (ofR 2 : T1)) * I * (ofR p2 : ℂ)
  let en1 : T2 := energy q m1
  let b1 : T2 := bose_distribution_zero_chempot en1 beta
  let b1en1 : T2 := b1 / en1
  let tlog1p : ℂ := tlog q om p en1 delta
  let tlog1m : ℂ := tlog q (-om) p en1 delta
  let r01p : ℂ := r_0 om p en1 delta
  let r01m : ℂ := r_0 (-om) p en1 delta
  let r1ppinv : ℂ := (r01p + (ofR p2q : ℂ))⁻¹
  let r1pminv : ℂ := (r01p - (ofR p2q : ℂ))⁻¹
  let r1mpinv : ℂ := (r01m + (ofR p2q : ℂ))⁻¹
  let r1mminv : ℂ := (r01m - (ofR p2q : ℂ))⁻¹
  let xp1 : ℂ := r01p + toC en1 * k
  let xp12 : ℂ := xp1 * xp1
  let xm1 : ℂ := r01m - toC en1 * k
  let xm12 : ℂ := xm1 * xm1
  let en2 : T3 := energy q m2
  let b2 : T3 := bose_distribution_zero_chempot en2 beta
  let b2en2 : T3 := b2 / en2
  let tlog2p : ℂ := tlog q om p en2 (-delta)
  let tlog2m : ℂ := tlog q (-om) p en2 (-delta)
  let r02p : ℂ := r_0 om p en2 (-delta)
  let r02m : ℂ := r_0 (-om) p en2 (-delta)
  let r2ppinv : ℂ := (r02p + (ofR p2q : ℂ))⁻¹
  let r2pminv : ℂ := (r02p - (ofR p2q : ℂ))⁻¹
  let r2mpinv : ℂ := (r02m + (ofR p2q : ℂ))⁻¹
  let r2mminv : ℂ := (r02m - (ofR p2q : ℂ))⁻¹
  let xp2 : ℂ := r02p + toC en2 * k
  let xp22 : ℂ := xp2 * xp2
  let xm2 : ℂ := r02m - toC en2 * k
  let xm22 : ℂ := xm2 * xm2
  let t1 : ℂ := toC (-b1en1) * ((r1ppinv + r1pminv) * xp12 + (r1mpinv + r1mminv) * xm12)
  let t2 : ℂ := toC b1en1 * (toC (om2 + (ofR p2 : T1)) + delta) * (ofR 4 : ℂ)
  let t3 : ℂ := (toC b1en1 - toC b2en2) * (ofR q : ℂ) * (ofR q : ℂ) * (ofR 8 : ℂ)
  let t4 : ℂ := (toC b2en2 * (xp2 * tlog2p + xm2 * tlog2m) - toC b1en1 * (xp1 * tlog1p + xm1 * tlog1m)) * (ofR q : ℂ) / (ofR p : ℂ) * (ofR 2 : ℂ)
  let t5 : ℂ := (toC b2en2 * (xp22 * (r2ppinv - r2pminv) + xm22 * (r2mpinv - r2mminv)) - toC b1en1 * (xp12 * (r1ppinv - r1pminv) + xm12 * (r1mpinv - r1mminv))) * (ofR q : ℂ) / (ofR p : ℂ)
  toC (om2 * ((om2 + (ofR p2 : T1)) * (ofR p2 : T1) * (ofR 64 : T1) * (ofR PI2 : T1))⁻¹) * (t1 + t2 + t3 + t4 + t5)

/-- low_level/oneloop/thermal/mod.rs l.1093-1122. -/
noncomputable def d_i_m_m_l_i_same_mass {T1 T2 T3 : Type} [Num T1] [Num T2] [Num T3] (q : ℝ) (om : T1) (p : T2) (m : T3) (beta : ℝ) : ℂ :=
  let om2 : T1 := om * om
  let ominv : T1 := om⁻¹
  let p2 : T2 := p * p
  let p2q : T2 := p * (ofR q : T2) * (ofR 2 : T2)
  let s : ℂ := toC om2 + toC p2
  let k : ℂ := toC p2 * (toC (ominv * (ofR 2 : T1)) * I)
  let en : T3 := energy q m
  let b : T3 := bose_distribution_zero_chempot en beta
  let ben : T3 := b / en
  let r0p : ℂ := r_0_same_mass om p en
  let r0m : ℂ := r_0_same_mass (-om) p en
  let rppinv : ℂ := (toC p2q + r0p)⁻¹
  let rpminv : ℂ := (toC (-p2q) + r0p)⁻¹
  let rmpinv : ℂ := (toC p2q + r0m)⁻¹
  let rmminv : ℂ := (toC (-p2q) + r0m)⁻¹
  let xp : ℂ := r0p + toC en * k
  let xp2 : ℂ := xp * xp
  let xm : ℂ := r0m - toC en * k
  let xm2 : ℂ := xm * xm
  let t1 : ℂ := toC (-ben) * ((rppinv + rpminv) * xp2 + (rmpinv + rmminv) * xm2)
  let t2 : ℂ := toC ben * s * (ofR 4 : ℂ)
  toC om2 * (toC p2 * s * (ofR 64 : ℂ) * (ofR PI2 : ℂ))⁻¹ * (t1 + t2)

/-- low_level/oneloop/thermal/mod.rs l.1125-1171. -/
noncomputable def d_i_m_0_l_i {T1 T2 T3 : Type} [Num T1] [Num T2] [Num T3] (q : ℝ) (om : T1) (p : T2) (m : T3) (beta : ℝ) : ℂ :=
  let om2 : T1 := om * om
  let ominv : T1 := om⁻¹
  let p2 : T2 := p * p
  let p2q : T2 := p * (ofR q : T2) * (ofR 2 : T2)
  let s : ℂ := toC om2 + toC p2
  let delta : T3 := -m * m
  let k : ℂ := toC p2 * (toC (ominv * (ofR 2 : T1)) * I)
  let en1 : T3 := energy q m
  let b1 : T3 := bose_distribution_zero_chempot en1 beta
  let b1en1 : T3 := b1 / en1
  let tlog1p : ℂ := tlog q om p en1 delta
  let tlog1m : ℂ := tlog q (-om) p en1 delta
  let r01p : ℂ := r_0 om p en1 delta
  let r01m : ℂ := r_0 (-om) p en1 delta
  let r1ppinv : ℂ := (toC p2q + r01p)⁻¹
  let r1pminv : ℂ := (toC (-p2q) + r01p)⁻¹
  let r1mpinv : ℂ := (toC p2q + r01m)⁻¹
  let r1mminv : ℂ := (toC (-p2q) + r01m)⁻¹
  let xp1 : ℂ := r01p + toC en1 * k
  let xp12 : ℂ := xp1 * xp1
  let xm1 : ℂ := r01m - toC en1 * k
  let xm12 : ℂ := xm1 * xm1
  let b2 : ℝ := bose_distribution_zero_chempot q beta
  let tlog2p : ℂ := tlog q om p q (-delta)
  let tlog2m : ℂ := tlog q (-om) p q (-delta)
  let r02p : ℂ := r_0 om p q (-delta)
  let r02m : ℂ := r_0 (-om) p q (-delta)
  let r2ppinv : ℂ := (toC p2q + r02p)⁻¹
  let r2pminv : ℂ := (toC (-p2q) + r02p)⁻¹
  let r2mpinv : ℂ := (toC p2q + r02m)⁻¹
  let r2mminv : ℂ := (toC (-p2q) + r02m)⁻¹
  let xp2 : ℂ := r02p + (ofR q : ℂ) * k
  let xp22 : ℂ := xp2 * xp2
  let xm2 : ℂ := r02m - (ofR q : ℂ) * k
  let xm22 : ℂ := xm2 * xm2
  let t1 : ℂ := toC (-b1en1) * ((r1ppinv + r1pminv) * xp12 + (r1mpinv + r1mminv) * xm12)
  let t2 : ℂ := toC b1en1 * (toC delta + s) * (ofR 4 : ℂ)
  let t3 : ℂ := (toC (b1en1 * (ofR q : T3)) - toC b2) * (ofR q : ℂ) * (ofR 8 : ℂ)
  let t4 : ℂ := toC p⁻¹ * ((ofR b2 : ℂ) * (xp2 * tlog2p + xm2 * tlog2m) - toC (b1en1 * (ofR q : T3)) * (xp1 * tlog1p + xm1 * tlog1m)) * (ofR 2 : ℂ)
  let t5 : ℂ := toC p⁻¹ * ((ofR b2 : ℂ) * (xp22 * (r2ppinv - r2pminv) + xm22 * (r2mpinv - r2mminv)) - toC (b1en1 * (ofR q : T3)) * (xp12 * (r1ppinv - r1pminv) + xm12 * (r1mpinv - r1mminv)))
  toC om2 * (toC p2 * s * (ofR 64 : ℂ) * (ofR PI2 : ℂ))⁻¹ * (t1 + t2 + t3 + t4 + t5)

/-- low_level/oneloop/thermal/mod.rs l.1174-1196. -/
noncomputable def d_i_0_0_l_i {T : Type} [Num T] (q : ℝ) (om : T) (p : ℝ) (beta : ℝ) : ℂ :=
  let om2 : T := om * om
  let ominv : T := om⁻¹
  let p2 : ℝ := p * p
  let p2q : ℝ := 2 * p * q
  let k : ℂ := toC (ominv * (ofR 2 : T)) * I * (ofR p2 : ℂ)
  let r0p : ℂ := r_0_same_mass om p q
  let r0m : ℂ := r_0_same_mass (-om) p q
  let rppinv : ℂ := (r0p + (ofR p2q : ℂ))⁻¹
  let rpminv : ℂ := (r0p - (ofR p2q : ℂ))⁻¹
  let rmpinv : ℂ := (r0m + (ofR p2q : ℂ))⁻¹
  let rmminv : ℂ := (r0m - (ofR p2q : ℂ))⁻¹
  let xp : ℂ := r0p + (ofR q : ℂ) * k
  let xp2 : ℂ := xp * xp
  let xm : ℂ := r0m - (ofR q : ℂ) * k
  let xm2 : ℂ := xm * xm
  let t1 : ℂ := -((rppinv + rpminv) * xp2 + (rmpinv + rmminv) * xm2)
  let t2 : ℂ := toC (om2 + (ofR p2 : T)) * (ofR 4 : ℂ)
  toC (om2 * ((om2 + (ofR p2 : T)) * (ofR p2 : T) * (ofR 64 : T) * (ofR PI2 : T))⁻¹) * (t1 + t2) * (ofR (bose_distribution_zero_chempot q beta) : ℂ) / (ofR q : ℂ)

/-- low_level/oneloop/thermal/mod.rs l.1199-1227. -/
noncomputable def d_i_m_m_t_i {T1 T2 T3 : Type} [Num T1] [Num T2] [Num T3] (q : ℝ) (om : T1) (p : ℝ) (m1 : T2) (m2 : T3) (beta : ℝ) : ℂ :=
  let p2 : ℝ := p * p
  let delta : ℂ := toC (m2 * m2) - toC (m1 * m1)
  let en1 : T2 := energy q m1
  let b1 : T2 := bose_distribution_zero_chempot en1 beta
  let tlog1p : ℂ := tlog q om p en1 delta
  let tlog1m : ℂ := tlog q (-om) p en1 delta
  let r01p : ℂ := r_0 om p en1 delta
  let r01m : ℂ := r_0 (-om) p en1 delta
  let en2 : T3 := energy q m2
  let b2 : T3 := bose_distribution_zero_chempot en2 beta
  let tlog2p : ℂ := tlog q om p en2 (-delta)
  let tlog2m : ℂ := tlog q (-om) p en2 (-delta)
  let r02p : ℂ := r_0 om p en2 (-delta)
  let r02m : ℂ := r_0 (-om) p en2 (-delta)
  let t1 : ℂ := toC (-b1 / en1) * (tlog1p + tlog1m) / (ofR 4 : ℂ)
  let t2 : ℂ := (toC (b2 / en2) - toC (b1 / en1)) * (ofR q : ℂ) / (ofR p : ℂ)
  let t3 : ℂ := (toC (b1 / en1) * (r01p * tlog1p + r01m * tlog1m) - toC (b2 / en2) * (r02p * tlog2p + r02m * tlog2m)) / (ofR (p2 * 8) : ℂ);
  (t1 + t2 + t3) * (ofR q : ℂ) / (ofR (p * 8 * PI2) : ℂ)

/-- low_level/oneloop/thermal/mod.rs l.1230-1236. -/
noncomputable def d_i_m_m_t_i_same_mass {T1 T2 : Type} [Num T1] [Num T2] (q : ℝ) (om : T1) (p : ℝ) (m : T2) (beta : ℝ) : ℂ :=
  let en : T2 := energy q m
  let b : T2 := bose_distribution_zero_chempot en beta
  let tlogp : ℂ := tlog_same_mass q om p en
  let tlogm : ℂ := tlog_same_mass q (-om) p en
  toC (-(en * (ofR p : T2) * (ofR 32 : T2) * (ofR PI2 : T2))⁻¹ * b) * (tlogp + tlogm) * (ofR q : ℂ)

/-- low_level/oneloop/thermal/mod.rs l.1239-1259. -/
noncomputable def d_i_m_0_t_i {T1 T2 : Type} [Num T1] [Num T2] (q : ℝ) (om : T1) (p : ℝ) (m : T2) (beta : ℝ) : ℂ :=
  let p2 : ℝ := p * p
  let delta : T2 := -m * m
  let en1 : T2 := energy q m
  let b1 : T2 := bose_distribution_zero_chempot en1 beta
  let tlog1p : ℂ := tlog q om p en1 delta
  let tlog1m : ℂ := tlog q (-om) p en1 delta
  let r01p : ℂ := r_0 om p en1 delta
  let r01m : ℂ := r_0 (-om) p en1 delta
  let b2 : ℝ := bose_distribution_zero_chempot q beta
  let tlog2p : ℂ := tlog q om p q (-delta)
  let tlog2m : ℂ := tlog q (-om) p q (-delta)
  let r02p : ℂ := r_0 om p q (-delta)
  let r02m : ℂ := r_0 (-om) p q (-delta)
  let t1 : ℂ := toC (-b1 / en1) * (tlog1p + tlog1m) / (ofR 4 : ℂ)
  let t2 : ℂ := ((ofR (b2 / q) : ℂ) - toC (b1 / en1)) * (ofR q : ℂ) / (ofR p : ℂ)
  let t3 : ℂ := (toC (b1 / en1) * (r01p * tlog1p + r01m * tlog1m) - (ofR (b2 / q) : ℂ) * (r02p * tlog2p + r02m * tlog2m)) / (ofR (p2 * 8) : ℂ);
  (t1 + t2 + t3) * (ofR q : ℂ) / (ofR (p * 8 * PI2) : ℂ)

/-- low_level/oneloop/thermal/mod.rs l.1262-1266. -/
noncomputable def d_i_0_0_t_i {T : Type} [Num T] (q : ℝ) (om : T) (p : ℝ) (beta : ℝ) : ℂ :=
  (ofR (-bose_distribution_zero_chempot q beta) : ℂ) * (tlog_same_mass q om p q + tlog_same_mass q (-om) p q) / (ofR (p * 32 * PI2) : ℂ)

namespace zero_momentum

/-- low_level/oneloop/thermal/zero_momentum.rs l.270-272. -/
noncomputable def r_0 {T1 T2 T3 : Type} [Num T1] [Num T2] [Num T3] (om : T1) (en : T2) (delta : T3) : ℂ :=
  toC (om * om) + toC om * (toC (en * (ofR 2 : T2)) * I) + toC delta

/-- low_level/oneloop/thermal/zero_momentum.rs l.275-277. -/
noncomputable def r_0_same_mass {T1 T2 : Type} [Num T1] [Num T2] (om : T1) (en : T2) : ℂ :=
  toC (om * om) + toC om * (toC (en * (ofR 2 : T2)) * I)

/-- low_level/oneloop/thermal/zero_momentum.rs l.280-293. -/
noncomputable def i_m_m_i {T1 T2 T3 : Type} [Num T1] [Num T2] [Num T3] (q : ℝ) (om : T1) (m1 : T2) (m2 : T3) (beta : ℝ) : ℂ :=
  let en1 : T2 := energy q m1
  let en2 : T3 := energy q m2
  let delta : ℂ := toC (m2 * m2) - toC (m1 * m1)
  let om2 : T1 := om * om
  let omi2 : ℂ := toC om * I * (ofR 2 : ℂ)
  let r01p_inv : ℂ := (toC om2 + toC en1 * omi2 + delta)⁻¹
  let r01m_inv : ℂ := (toC om2 - toC en1 * omi2 + delta)⁻¹
  let r02p_inv : ℂ := (toC om2 + toC en2 * omi2 - delta)⁻¹
  let r02m_inv : ℂ := (toC om2 - toC en2 * omi2 - delta)⁻¹
  let t1 : ℂ := toC (bose_distribution_zero_chempot en1 beta / en1) * (r01p_inv + r01m_inv)
  let t2 : ℂ := toC (bose_distribution_zero_chempot en2 beta / en2) * (r02p_inv + r02m_inv);
  (t1 + t2) * (ofR q : ℂ) * (ofR q : ℂ) / (ofR (4 * PI2) : ℂ)

/-- low_level/oneloop/thermal/zero_momentum.rs l.296-303. -/
noncomputable def i_m_m_i_same_mass {T1 T2 : Type} [Num T1] [Num T2] (q : ℝ) (om : T1) (m : T2) (beta : ℝ) : ℂ :=
  let en1 : T2 := energy q m
  let om2 : T1 := om * om
  let omi2 : ℂ := toC om * I * (ofR 2 : ℂ)
  let r01p_inv : ℂ := (toC om2 + toC en1 * omi2)⁻¹
  let r01m_inv : ℂ := (toC om2 - toC en1 * omi2)⁻¹
  toC (bose_distribution_zero_chempot en1 beta / en1) * (r01p_inv + r01m_inv) * (ofR q : ℂ) * (ofR q : ℂ) / (ofR (2 * PI2) : ℂ)

/-- low_level/oneloop/thermal/zero_momentum.rs l.306-318. -/
noncomputable def i_m_0_i {T1 T2 : Type} [Num T1] [Num T2] (q : ℝ) (om : T1) (m : T2) (beta : ℝ) : ℂ :=
  let en1 : T2 := energy q m
  let delta : T2 := -m * m
  let om2 : T1 := om * om
  let omi2 : ℂ := toC om * I * (ofR 2 : ℂ)
  let r01p_inv : ℂ := (toC delta + (toC om2 + toC en1 * omi2))⁻¹
  let r01m_inv : ℂ := (toC delta + (toC om2 - toC en1 * omi2))⁻¹
  let r02p_inv : ℂ := (toC (-delta) + (toC om2 + (ofR q : ℂ) * omi2))⁻¹
  let r02m_inv : ℂ := (toC (-delta) + (toC om2 - (ofR q : ℂ) * omi2))⁻¹
  let t1 : ℂ := toC (bose_distribution_zero_chempot en1 beta * (ofR q : T2) / en1) * (r01p_inv + r01m_inv)
  let t2 : ℂ := (ofR (bose_distribution_zero_chempot q beta) : ℂ) * (r02p_inv + r02m_inv);
  (t1 + t2) * (ofR q : ℂ) / (ofR (4 * PI2) : ℂ)

/-- low_level/oneloop/thermal/zero_momentum.rs l.321-327. -/
noncomputable def i_0_0_i {T : Type} [Num T] (q : ℝ) (om : T) (beta : ℝ) : ℂ :=
  let om2 : T := om * om
  let omi2 : ℂ := toC om * I * (ofR 2 : ℂ)
  let r01p_inv : ℂ := (toC om2 + (ofR q : ℂ) * omi2)⁻¹
  let r01m_inv : ℂ := (toC om2 - (ofR q : ℂ) * omi2)⁻¹;
  (ofR (bose_distribution_zero_chempot q beta) : ℂ) * (r01p_inv + r01m_inv) * (ofR q : ℂ) / (ofR (2 * PI2) : ℂ)

/-- low_level/oneloop/thermal/zero_momentum.rs l.330-344. -/
noncomputable def i_m_m_l_i {T1 T2 T3 : Type} [Num T1] [Num T2] [Num T3] (q : ℝ) (om : T1) (m1 : T2) (m2 : T3) (beta : ℝ) : ℂ :=
  let en1 : T2 := energy q m1
  let en2 : T3 := energy q m2
  let delta : ℂ := toC (m2 * m2) - toC (m1 * m1)
  let q4 : ℝ := q * q * q * q
  let om2 : T1 := om * om
  let omi2 : ℂ := toC om * I * (ofR 2 : ℂ)
  let r01p_inv : ℂ := (toC om2 + toC en1 * omi2 + delta)⁻¹
  let r01m_inv : ℂ := (toC om2 - toC en1 * omi2 + delta)⁻¹
  let r02p_inv : ℂ := (toC om2 + toC en2 * omi2 - delta)⁻¹
  let r02m_inv : ℂ := (toC om2 - toC en2 * omi2 - delta)⁻¹
  let t1 : ℂ := toC (bose_distribution_zero_chempot en1 beta / en1) * (r01p_inv + r01m_inv)
  let t2 : ℂ := toC (bose_distribution_zero_chempot en2 beta / en2) * (r02p_inv + r02m_inv);
  (ofR ((12 * PI2)⁻¹ * q4) : ℂ) * (t1 + t2)

/-- low_level/oneloop/thermal/zero_momentum.rs l.347-358. -/
noncomputable def i_m_m_l_i_same_mass {T1 T2 : Type} [Num T1] [Num T2] (q : ℝ) (om : T1) (m : T2) (beta : ℝ) : ℂ :=
  let en1 : T2 := energy q m
  let q4 : ℝ := q * q * q * q
  let om2 : T1 := om * om
  let omi2 : ℂ := toC om * I * (ofR 2 : ℂ)
  let r01p_inv : ℂ := (toC om2 + toC en1 * omi2)⁻¹
  let r01m_inv : ℂ := (toC om2 - toC en1 * omi2)⁻¹
  toC ((en1 * (ofR 6 : T2) * (ofR PI2 : T2))⁻¹ * bose_distribution_zero_chempot en1 beta * (ofR q4 : T2)) * (r01p_inv + r01m_inv)

/-- low_level/oneloop/thermal/zero_momentum.rs l.361-374. -/
noncomputable def i_m_0_l_i {T1 T2 : Type} [Num T1] [Num T2] (q : ℝ) (om : T1) (m : T2) (beta : ℝ) : ℂ :=
  let en1 : T2 := energy q m
  let delta : T2 := -m * m
  let q3 : ℝ := q * q * q
  let om2 : T1 := om * om
  let omi2 : ℂ := toC om * I * (ofR 2 : ℂ)
  let r01p_inv : ℂ := (toC delta + (toC om2 + toC en1 * omi2))⁻¹
  let r01m_inv : ℂ := (toC delta + (toC om2 - toC en1 * omi2))⁻¹
  let r02p_inv : ℂ := (toC (-delta) + (toC om2 + (ofR q : ℂ) * omi2))⁻¹
  let r02m_inv : ℂ := (toC (-delta) + (toC om2 - (ofR q : ℂ) * omi2))⁻¹
  let t1 : ℂ := toC (bose_distribution_zero_chempot en1 beta * (ofR q : T2) / en1) * (r01p_inv + r01m_inv)
  let t2 : ℂ := (ofR (bose_distribution_zero_chempot q beta) : ℂ) * (r02p_inv + r02m_inv);
  (ofR ((12 * PI2)⁻¹ * q3) : ℂ) * (t1 + t2)

/-- low_level/oneloop/thermal/zero_momentum.rs l.377-384. -/
noncomputable def i_0_0_l_i {T : Type} [Num T] (q : ℝ) (om : T) (beta : ℝ) : ℂ :=
  let q3 : ℝ := q * q * q
  let om2 : T := om * om
  let omi2 : ℂ := toC om * I * (ofR 2 : ℂ)
  let r01p_inv : ℂ := (toC om2 + (ofR q : ℂ) * omi2)⁻¹
  let r01m_inv : ℂ := (toC om2 - (ofR q : ℂ) * omi2)⁻¹;
  (ofR (bose_distribution_zero_chempot q beta) : ℂ) * (r01p_inv + r01m_inv) * (ofR q3 : ℂ) / (ofR (6 * PI2) : ℂ)

/-- low_level/oneloop/thermal/zero_momentum.rs l.387-389. -/
noncomputable def i_m_m_t_i {T1 T2 T3 : Type} [Num T1] [Num T2] [Num T3] (q : ℝ) (om : T1) (m1 : T2) (m2 : T3) (beta : ℝ) : ℂ :=
  i_m_m_l_i q om m1 m2 beta

/-- low_level/oneloop/thermal/zero_momentum.rs l.392-394. -/
noncomputable def i_m_m_t_i_same_mass {T1 T2 : Type} [Num T1] [Num T2] (q : ℝ) (om : T1) (m : T2) (beta : ℝ) : ℂ :=
  i_m_m_l_i_same_mass q om m beta

/-- low_level/oneloop/thermal/zero_momentum.rs l.397-399. -/
noncomputable def i_m_0_t_i {T1 T2 : Type} [Num T1] [Num T2] (q : ℝ) (om : T1) (m : T2) (beta : ℝ) : ℂ :=
  i_m_0_l_i q om m beta

/-- low_level/oneloop/thermal/zero_momentum.rs l.402-404. -/
noncomputable def i_0_0_t_i {T : Type} [Num T] (q : ℝ) (om : T) (beta : ℝ) : ℂ :=
  i_0_0_l_i q om beta

/-- low_level/oneloop/thermal/zero_momentum.rs l.407-421. -/
noncomputable def d_i_m_m_i {T1 T2 T3 : Type} [Num T1] [Num T2] [Num T3] (q : ℝ) (om : T1) (m1 : T2) (m2 : T3) (beta : ℝ) : ℂ :=
  let delta : ℂ := toC (m2 * m2) - toC (m1 * m1)
  let en1 : T2 := energy q m1
  let en2 : T3 := energy q m2
  let r01_inv : ℂ := (r_0 om en1 delta)⁻¹
  let r01_opp_inv : ℂ := (r_0 (-om) en1 delta)⁻¹
  let r02_inv : ℂ := (r_0 om en2 (-delta))⁻¹
  let r02_opp_inv : ℂ := (r_0 (-om) en2 (-delta))⁻¹
  let b1 : T2 := bose_distribution_zero_chempot en1 beta
  let b2 : T3 := bose_distribution_zero_chempot en2 beta
  let t10 : ℂ := toC (b1 / en1) * (r01_inv + r01_opp_inv)
  let t1 : ℂ := toC (b1 / en1) * (r01_inv * r01_inv + r01_opp_inv * r01_opp_inv)
  let t2 : ℂ := toC (b2 / en2) * (r02_inv * r02_inv + r02_opp_inv * r02_opp_inv);
  (-t10 + (t1 - t2) * (ofR q : ℂ) * (ofR q : ℂ) * (ofR 2 : ℂ)) / (ofR (8 * PI2) : ℂ)

/-- low_level/oneloop/thermal/zero_momentum.rs l.424-429. -/
noncomputable def d_i_m_m_i_same_mass {T1 T2 : Type} [Num T1] [Num T2] (q : ℝ) (om : T1) (m : T2) (beta : ℝ) : ℂ :=
  let en : T2 := energy q m
  let r0_inv : ℂ := (r_0_same_mass om en)⁻¹
  let r0_opp_inv : ℂ := (r_0_same_mass (-om) en)⁻¹
  toC (-bose_distribution_zero_chempot en beta * (en * (ofR 8 : T2) * (ofR PI2 : T2))⁻¹) * (r0_inv + r0_opp_inv)

/-- low_level/oneloop/thermal/zero_momentum.rs l.432-445. -/
noncomputable def d_i_m_0_i {T1 T2 : Type} [Num T1] [Num T2] (q : ℝ) (om : T1) (m : T2) (beta : ℝ) : ℂ :=
  let delta : T2 := -m * m
  let en1 : T2 := energy q m
  let r01_inv : ℂ := (r_0 om en1 delta)⁻¹
  let r01_opp_inv : ℂ := (r_0 (-om) en1 delta)⁻¹
  let r02_inv : ℂ := (r_0 om q (-delta))⁻¹
  let r02_opp_inv : ℂ := (r_0 (-om) q (-delta))⁻¹
  let b1 : T2 := bose_distribution_zero_chempot en1 beta
  let b2 : ℝ := bose_distribution_zero_chempot q beta
  let t10 : ℂ := toC (b1 / en1) * (r01_inv + r01_opp_inv)
  let t1 : ℂ := toC (b1 * (ofR q : T2) / en1) * (r01_inv * r01_inv + r01_opp_inv * r01_opp_inv)
  let t2 : ℂ := (ofR b2 : ℂ) * (r02_inv * r02_inv + r02_opp_inv * r02_opp_inv);
  (-t10 + (t1 - t2) * (ofR q : ℂ) * (ofR 2 : ℂ)) / (ofR (8 * PI2) : ℂ)

/-- low_level/oneloop/thermal/zero_momentum.rs l.448-453. -/
noncomputable def d_i_0_0_i {T : Type} [Num T] (q : ℝ) (om : T) (beta : ℝ) : ℂ :=
  let r0_inv : ℂ := (r_0_same_mass om q)⁻¹
  let r0_opp_inv : ℂ := (r_0_same_mass (-om) q)⁻¹
  let b1 : ℝ := bose_distribution_zero_chempot q beta;
  (ofR (-b1) : ℂ) * (r0_inv + r0_opp_inv) / (ofR (q * 8 * PI2) : ℂ)

/-- low_level/oneloop/thermal/zero_momentum.rs l.456-471. -/
noncomputable def d_i_m_m_l_i {T1 T2 T3 : Type} [Num T1] [Num T2] [Num T3] (q : ℝ) (om : T1) (m1 : T2) (m2 : T3) (beta : ℝ) : ℂ :=
  let q2 : ℝ := q * q
  let delta : ℂ := toC (m2 * m2) - toC (m1 * m1)
  let en1 : T2 := energy q m1
  let en2 : T3 := energy q m2
  let r01_inv : ℂ := (r_0 om en1 delta)⁻¹
  let r01_opp_inv : ℂ := (r_0 (-om) en1 delta)⁻¹
  let r02_inv : ℂ := (r_0 om en2 (-delta))⁻¹
  let r02_opp_inv : ℂ := (r_0 (-om) en2 (-delta))⁻¹
  let b1 : T2 := bose_distribution_zero_chempot en1 beta
  let b2 : T3 := bose_distribution_zero_chempot en2 beta
  let t10 : ℂ := toC (b1 / en1) * (r01_inv + r01_opp_inv)
  let t1 : ℂ := toC (b1 / en1) * (r01_inv * r01_inv + r01_opp_inv * r01_opp_inv)
  let t2 : ℂ := toC (b2 / en2) * (r02_inv * r02_inv + r02_opp_inv * r02_opp_inv);
  (-t10 + (t1 - t2) * (ofR q2 : ℂ) * (ofR 2 : ℂ) / (ofR 3 : ℂ)) * (ofR q2 : ℂ) / (ofR (8 * PI2) : ℂ)

/-- low_level/oneloop/thermal/zero_momentum.rs l.474-483. -/
noncomputable def d_i_m_m_l_i_same_mass {T1 T2 : Type} [Num T1] [Num T2] (q : ℝ) (om : T1) (m : T2) (beta : ℝ) : ℂ :=
  let q2 : ℝ := q * q
  let en : T2 := energy q m
  let r0_inv : ℂ := (r_0_same_mass om en)⁻¹
  let r0_opp_inv : ℂ := (r_0_same_mass (-om) en)⁻¹
  toC (-bose_distribution_zero_chempot en beta * (en * (ofR 8 : T2) * (ofR PI2 : T2))⁻¹) * (r0_inv + r0_opp_inv) * (ofR q2 : ℂ)

/-- low_level/oneloop/thermal/zero_momentum.rs l.486-500. -/
noncomputable def d_i_m_0_l_i {T1 T2 : Type} [Num T1] [Num T2] (q : ℝ) (om : T1) (m : T2) (beta : ℝ) : ℂ :=
  let q2 : ℝ := q * q
  let delta : T2 := -m * m
  let en : T2 := energy q m
  let r01_inv : ℂ := (r_0 om en delta)⁻¹
  let r01_opp_inv : ℂ := (r_0 (-om) en delta)⁻¹
  let r02_inv : ℂ := (r_0 om q (-delta))⁻¹
  let r02_opp_inv : ℂ := (r_0 (-om) q (-delta))⁻¹
  let b1 : T2 := bose_distribution_zero_chempot en beta
  let b2 : ℝ := bose_distribution_zero_chempot q beta
  let t10 : ℂ := toC (b1 / en) * (r01_inv + r01_opp_inv)
  let t1 : ℂ := toC (b1 * (ofR q : T2) / en) * (r01_inv * r01_inv + r01_opp_inv * r01_opp_inv)
  let t2 : ℂ := (ofR b2 : ℂ) * (r02_inv * r02_inv + r02_opp_inv * r02_opp_inv);
  (-t10 + (t1 - t2) * (ofR q : ℂ) * (ofR 2 : ℂ) / (ofR 3 : ℂ)) * (ofR q2 : ℂ) / (ofR (8 * PI2) : ℂ)

/-- low_level/oneloop/thermal/zero_momentum.rs l.503-507. -/
noncomputable def d_i_0_0_l_i {T : Type} [Num T] (q : ℝ) (om : T) (beta : ℝ) : ℂ :=
  let r0_inv : ℂ := (r_0_same_mass om q)⁻¹
  let r0_opp_inv : ℂ := (r_0_same_mass (-om) q)⁻¹;
  (ofR (-bose_distribution_zero_chempot q beta * (8 * PI2)⁻¹) : ℂ) * (r0_inv + r0_opp_inv) * (ofR q : ℂ)

/-- low_level/oneloop/thermal/zero_momentum.rs l.510-512. -/
noncomputable def d_i_m_m_t_i {T1 T2 T3 : Type} [Num T1] [Num T2] [Num T3] (q : ℝ) (om : T1) (m1 : T2) (m2 : T3) (beta : ℝ) : ℂ :=
  d_i_m_m_l_i q om m1 m2 beta

/-- low_level/oneloop/thermal/zero_momentum.rs l.515-517. -/
noncomputable def d_i_m_m_t_i_same_mass {T1 T2 : Type} [Num T1] [Num T2] (q : ℝ) (om : T1) (m : T2) (beta : ℝ) : ℂ :=
  d_i_m_m_l_i_same_mass q om m beta

/-- low_level/oneloop/thermal/zero_momentum.rs l.520-522. -/
noncomputable def d_i_m_0_t_i {T1 T2 : Type} [Num T1] [Num T2] (q : ℝ) (om : T1) (m : T2) (beta : ℝ) : ℂ :=
  d_i_m_0_l_i q om m beta

/-- low_level/oneloop/thermal/zero_momentum.rs l.525-527. -/
noncomputable def d_i_0_0_t_i {T : Type} [Num T] (q : ℝ) (om : T) (beta : ℝ) : ℂ :=
  d_i_0_0_l_i q om beta

end zero_momentum

namespace zero_matsubara

/-- low_level/oneloop/thermal/zero_matsubara.rs l.328-330. -/
noncomputable def r_0 {T : Type} [Num T] (p : ℝ) (delta : T) : T :=
  delta + (ofR (p * p) : T)

/-- low_level/oneloop/thermal/zero_matsubara.rs l.339-344. -/
noncomputable def tlog {T : Type} [Num T] (q : ℝ) (p : ℝ) (delta : T) : ℂ :=
  let r_0 : T := r_0 p delta
  let q2p : ℝ := q * 2 * p
  let rat : T := (r_0 + (ofR q2p : T)) / (r_0 - (ofR q2p : T))
  NumOps.ln (toC (rat * rat)) / (ofR 2 : ℂ)

/-- low_level/oneloop/thermal/zero_matsubara.rs l.347-350. -/
noncomputable def tlog_same_mass (q : ℝ) (p : ℝ) : ℝ :=
  let rat : ℝ := (2 * q + p) / (2 * -q + p)
  NumOps.ln (rat * rat) / 2

/-- low_level/oneloop/thermal/zero_matsubara.rs l.353-355. -/
noncomputable def tlog_zero_mass (q : ℝ) (p : ℝ) : ℝ :=
  tlog_same_mass q p

/-- low_level/oneloop/thermal/zero_matsubara.rs l.358-362. -/
noncomputable def tlog_t {T : Type} [Num T] (q : ℝ) (p : ℝ) (delta : T) : ℂ :=
  let r0 : T := r_0 p delta
  let q2p : ℝ := q * 2 * p
  toC ((r0 + (ofR q2p : T)) * (r0 - (ofR q2p : T))) * tlog q p delta

/-- low_level/oneloop/thermal/zero_matsubara.rs l.365-367. -/
noncomputable def tlog_t_same_mass (q : ℝ) (p : ℝ) : ℝ :=
  p * p * (2 * q + p) * (2 * -q + p) * tlog_same_mass q p

/-- low_level/oneloop/thermal/zero_matsubara.rs l.370-372. -/
noncomputable def tlog_t_zero_mass (q : ℝ) (p : ℝ) : ℝ :=
  tlog_t_same_mass q p

/-- low_level/oneloop/thermal/zero_matsubara.rs l.375-382. -/
noncomputable def i_m_m_i {T1 T2 : Type} [Num T1] [Num T2] (q : ℝ) (p : ℝ) (m1 : T1) (m2 : T2) (beta : ℝ) : ℂ :=
  let en1 : T1 := energy q m1
  let en2 : T2 := energy q m2
  let delta : ℂ := toC (m2 * m2) - toC (m1 * m1)
  let t1 : ℂ := toC (bose_distribution_zero_chempot en1 beta / en1) * tlog q p delta
  let t2 : ℂ := toC (bose_distribution_zero_chempot en2 beta / en2) * tlog q p (-delta);
  (t1 + t2) * (ofR q : ℂ) / (ofR (p * 8 * PI2) : ℂ)

/-- low_level/oneloop/thermal/zero_matsubara.rs l.385-389. -/
noncomputable def i_m_m_i_same_mass {T : Type} [Num T] (q : ℝ) (p : ℝ) (m : T) (beta : ℝ) : T :=
  let en : T := energy q m
  let t : T := bose_distribution_zero_chempot en beta / en * (ofR (tlog_same_mass q p) : T)
  t * (ofR q : T) / (ofR (p * 4 * PI2) : T)

/-- low_level/oneloop/thermal/zero_matsubara.rs l.392-398. -/
noncomputable def i_m_0_i {T : Type} [Num T] (q : ℝ) (p : ℝ) (m : T) (beta : ℝ) : ℂ :=
  let en : T := energy q m
  let delta : T := -m * m
  let t1 : ℂ := toC (bose_distribution_zero_chempot en beta * (ofR q : T) / en) * tlog q p delta
  let t2 : ℂ := (ofR (bose_distribution_zero_chempot q beta) : ℂ) * tlog q p (-delta);
  (t1 + t2) / (ofR (p * 8 * PI2) : ℂ)

/-- low_level/oneloop/thermal/zero_matsubara.rs l.401-403. -/
noncomputable def i_0_0_i (q : ℝ) (p : ℝ) (beta : ℝ) : ℝ :=
  bose_distribution_zero_chempot q beta * tlog_zero_mass q p / (p * 4 * PI2)

/-- low_level/oneloop/thermal/zero_matsubara.rs l.406-413. -/
noncomputable def i_m_m_l_i {T1 T2 : Type} [Num T1] [Num T2] (q : ℝ) (p : ℝ) (m1 : T1) (m2 : T2) (beta : ℝ) : ℂ :=
  let en1 : T1 := energy q m1
  let en2 : T2 := energy q m2
  let delta : ℂ := toC (m2 * m2) - toC (m1 * m1);
  (ofR (-q) : ℂ) * (toC (bose_distribution_zero_chempot en1 beta * en1) * tlog q p delta + toC (bose_distribution_zero_chempot en2 beta * en2) * tlog q p (-delta)) / (ofR (p * 8 * PI2) : ℂ)

/-- low_level/oneloop/thermal/zero_matsubara.rs l.416-419. -/
noncomputable def i_m_m_l_i_same_mass {T : Type} [Num T] (q : ℝ) (p : ℝ) (m : T) (beta : ℝ) : T :=
  let en : T := energy q m;
  -bose_distribution_zero_chempot en beta * en * (ofR q : T) * (ofR (tlog_same_mass q p) : T) / (ofR (p * 4 * PI2) : T)

/-- low_level/oneloop/thermal/zero_matsubara.rs l.422-428. -/
noncomputable def i_m_0_l_i {T : Type} [Num T] (q : ℝ) (p : ℝ) (m : T) (beta : ℝ) : ℂ :=
  let en : T := energy q m
  let delta : T := -m * m;
  (ofR (-q) : ℂ) * (toC (bose_distribution_zero_chempot en beta * en) * tlog q p delta + toC (bose_distribution_zero_chempot q beta * q) * tlog q p (-delta)) / (ofR (p * 8 * PI2) : ℂ)

/-- low_level/oneloop/thermal/zero_matsubara.rs l.431-433. -/
noncomputable def i_0_0_l_i (q : ℝ) (p : ℝ) (beta : ℝ) : ℝ :=
  -bose_distribution_zero_chempot q beta * q * q * tlog_same_mass q p / (p * 4 * PI2)

/-- low_level/oneloop/thermal/zero_matsubara.rs l.436-448. -/
noncomputable def i_m_m_t_i {T1 T2 : Type} [Num T1] [Num T2] (q : ℝ) (p : ℝ) (m1 : T1) (m2 : T2) (beta : ℝ) : ℂ :=
  let en1 : T1 := energy q m1
  let en2 : T2 := energy q m2
  let delta : ℂ := toC (m2 * m2) - toC (m1 * m1)
  let qp : ℝ := q * p
  let p2 : ℝ := p * p
  let p3 : ℝ := p2 * p
  let t1 : ℂ := toC (bose_distribution_zero_chempot en1 beta / en1) * (tlog_t q p delta - (ofR (4 * qp) : ℂ) * ((ofR p2 : ℂ) + delta))
  let t2 : ℂ := toC (bose_distribution_zero_chempot en2 beta / en2) * (tlog_t q p (-delta) - (ofR (4 * qp) : ℂ) * ((ofR p2 : ℂ) - delta));
  (ofR (-(p3 * 64 * PI2)⁻¹ * q) : ℂ) * (t1 + t2)

/-- low_level/oneloop/thermal/zero_matsubara.rs l.451-459. -/
noncomputable def i_m_m_t_i_same_mass {T : Type} [Num T] (q : ℝ) (p : ℝ) (m : T) (beta : ℝ) : T :=
  let en : T := energy q m
  let qp : ℝ := q * p
  let p2 : ℝ := p * p
  let p3 : ℝ := p2 * p
  let t : T := bose_distribution_zero_chempot en beta / en * (ofR (-p2 * 4 * qp + tlog_t_same_mass q p) : T);
  -t * (ofR q : T) / (ofR (p3 * 32 * PI2) : T)

/-- low_level/oneloop/thermal/zero_matsubara.rs l.462-473. -/
noncomputable def i_m_0_t_i {T : Type} [Num T] (q : ℝ) (p : ℝ) (m : T) (beta : ℝ) : ℂ :=
  let en : T := energy q m
  let delta : ℂ := -toC (m * m)
  let qp : ℝ := q * p
  let p2 : ℝ := p * p
  let p3 : ℝ := p2 * p
  let t1 : ℂ := toC (bose_distribution_zero_chempot en beta * (ofR q : T) / en) * (tlog_t q p delta - (ofR (4 * qp) : ℂ) * ((ofR p2 : ℂ) + delta))
  let t2 : ℂ := (ofR (bose_distribution_zero_chempot q beta) : ℂ) * (tlog_t q p (-delta) - (ofR (4 * qp) : ℂ) * ((ofR p2 : ℂ) - delta));
  (ofR (-(p3 * 64 * PI2)⁻¹) : ℂ) * (t1 + t2)

/-- low_level/oneloop/thermal/zero_matsubara.rs l.476-483. -/
noncomputable def i_0_0_t_i (q : ℝ) (p : ℝ) (beta : ℝ) : ℝ :=
  let qp : ℝ := q * p
  let p2 : ℝ := p * p
  let p3 : ℝ := p2 * p
  let t : ℝ := bose_distribution_zero_chempot q beta * (-p2 * 4 * qp + tlog_t_zero_mass q p);
  -t / (p3 * 32 * PI2)

/-- low_level/oneloop/thermal/zero_matsubara.rs l.486-503. -/
noncomputable def d_i_m_m_i {T1 T2 : Type} [Num T1] [Num T2] (q : ℝ) (p : ℝ) (m1 : T1) (m2 : T2) (beta : ℝ) : ℂ :=
  let q2p : ℝ := q * p * 2
  let delta : ℂ := toC (m2 * m2) - toC (m1 * m1)
  let en1 : T1 := energy q m1
  let en2 : T2 := energy q m2
  let r01 : ℂ := r_0 p delta
  let r02 : ℂ := r_0 p (-delta)
  let r1pinv : ℂ := (r01 + (ofR q2p : ℂ))⁻¹
  let r1minv : ℂ := (r01 - (ofR q2p : ℂ))⁻¹
  let r2pinv : ℂ := (r02 + (ofR q2p : ℂ))⁻¹
  let r2minv : ℂ := (r02 - (ofR q2p : ℂ))⁻¹
  let b1 : T1 := bose_distribution_zero_chempot en1 beta
  let b2 : T2 := bose_distribution_zero_chempot en2 beta
  let t10 : ℂ := toC (b1 / en1) * (r1pinv + r1minv)
  let t1 : ℂ := toC (b1 / en1) * (r1pinv - r1minv)
  let t2 : ℂ := toC (b2 / en2) * (r2pinv - r2minv);
  (-t10 + (t2 - t1) * (ofR q : ℂ) / (ofR p : ℂ)) / (ofR (8 * PI2) : ℂ)

/-- low_level/oneloop/thermal/zero_matsubara.rs l.506-511. -/
noncomputable def d_i_m_m_i_same_mass {T : Type} [Num T] (q : ℝ) (p : ℝ) (m : T) (beta : ℝ) : T :=
  let en : T := energy q m
  let rpinv : ℝ := (2 * q + p)⁻¹
  let rminv : ℝ := (2 * -q + p)⁻¹;
  -bose_distribution_zero_chempot en beta * (en * (ofR p : T) * (ofR 8 : T) * (ofR PI2 : T))⁻¹ * (ofR (rpinv + rminv) : T)

/-- low_level/oneloop/thermal/zero_matsubara.rs l.514-530. -/
noncomputable def d_i_m_0_i {T : Type} [Num T] (q : ℝ) (p : ℝ) (m : T) (beta : ℝ) : T :=
  let q2p : ℝ := q * p * 2
  let delta : T := -m * m
  let en : T := energy q m
  let r01 : T := r_0 p delta
  let r02 : T := r_0 p (-delta)
  let r1pinv : T := (r01 + (ofR q2p : T))⁻¹
  let r1minv : T := (r01 - (ofR q2p : T))⁻¹
  let r2pinv : T := (r02 + (ofR q2p : T))⁻¹
  let r2minv : T := (r02 - (ofR q2p : T))⁻¹
  let b1 : T := bose_distribution_zero_chempot en beta
  let b2 : ℝ := bose_distribution_zero_chempot q beta
  let t10 : T := b1 / en * (r1pinv + r1minv)
  let t1 : T := b1 / en * (r1pinv - r1minv)
  let t2 : T := (r2pinv - r2minv) * (ofR b2 : T) / (ofR q : T);
  (-t10 + (t2 - t1) * (ofR q : T) / (ofR p : T)) / (ofR (8 * PI2) : T)

/-- low_level/oneloop/thermal/zero_matsubara.rs l.533-537. -/
noncomputable def d_i_0_0_i (q : ℝ) (p : ℝ) (beta : ℝ) : ℝ :=
  let rpinv : ℝ := (2 * q + p)⁻¹
  let rminv : ℝ := (2 * -q + p)⁻¹;
  -bose_distribution_zero_chempot q beta * (q * p * 8 * PI2)⁻¹ * (rpinv + rminv)

/-- low_level/oneloop/thermal/zero_matsubara.rs l.540-558. -/
noncomputable def d_i_m_m_l_i {T1 T2 : Type} [Num T1] [Num T2] (q : ℝ) (p : ℝ) (m1 : T1) (m2 : T2) (beta : ℝ) : ℂ :=
  let p2q : ℝ := 2 * p * q
  let delta : ℂ := toC (m2 * m2) - toC (m1 * m1)
  let en1 : T1 := energy q m1
  let b1 : T1 := bose_distribution_zero_chempot en1 beta
  let b1en1 : T1 := b1 * en1
  let r01 : ℂ := r_0 p delta
  let r1pinv : ℂ := (r01 + (ofR p2q : ℂ))⁻¹
  let r1minv : ℂ := (r01 - (ofR p2q : ℂ))⁻¹
  let en2 : T2 := energy q m2
  let b2 : T2 := bose_distribution_zero_chempot en2 beta
  let b2en2 : T2 := b2 * en2
  let r02 : ℂ := r_0 p (-delta)
  let r2pinv : ℂ := (r02 + (ofR p2q : ℂ))⁻¹
  let r2minv : ℂ := (r02 - (ofR p2q : ℂ))⁻¹
  let t1 : ℂ := toC b1en1 * (r1pinv + r1minv)
  let t5 : ℂ := -(toC b2en2 * (r2pinv - r2minv) - toC b1en1 * (r1pinv - r1minv)) * (ofR q : ℂ) / (ofR p : ℂ);
  (t1 + t5) / (ofR (8 * PI2) : ℂ)

/-- low_level/oneloop/thermal/zero_matsubara.rs l.561-566. -/
noncomputable def d_i_m_m_l_i_same_mass {T : Type} [Num T] (q : ℝ) (p : ℝ) (m : T) (beta : ℝ) : T :=
  let en : T := energy q m
  let r1pinv : ℝ := (2 * q + p)⁻¹
  let r1minv : ℝ := (2 * -q + p)⁻¹
  bose_distribution_zero_chempot en beta * en * (ofR (r1pinv + r1minv) : T) / (ofR (p * 8 * PI2) : T)

/-- low_level/oneloop/thermal/zero_matsubara.rs l.569-585. -/
noncomputable def d_i_m_0_l_i {T : Type} [Num T] (q : ℝ) (p : ℝ) (m : T) (beta : ℝ) : T :=
  let p2q : ℝ := 2 * p * q
  let delta : T := -m * m
  let en : T := energy q m
  let b1 : T := bose_distribution_zero_chempot en beta
  let b1en1 : T := b1 * en
  let r01 : T := r_0 p delta
  let r1pinv : T := (r01 + (ofR p2q : T))⁻¹
  let r1minv : T := (r01 - (ofR p2q : T))⁻¹
  let b2 : ℝ := bose_distribution_zero_chempot q beta
  let r02 : T := r_0 p (-delta)
  let r2pinv : T := (r02 + (ofR p2q : T))⁻¹
  let r2minv : T := (r02 - (ofR p2q : T))⁻¹
  let t1 : T := b1en1 * (r1pinv + r1minv)
  let t5 : T := -((r2pinv - r2minv) * (ofR b2 : T) * (ofR q : T) - b1en1 * (r1pinv - r1minv)) * (ofR q : T) / (ofR p : T);
  (t1 + t5) / (ofR (8 * PI2) : T)

/-- low_level/oneloop/thermal/zero_matsubara.rs l.588-592. -/
noncomputable def d_i_0_0_l_i (q : ℝ) (p : ℝ) (beta : ℝ) : ℝ :=
  let r1pinv : ℝ := (2 * q + p)⁻¹
  let r1minv : ℝ := (2 * -q + p)⁻¹
  bose_distribution_zero_chempot q beta * q * (r1pinv + r1minv) / (p * 8 * PI2)

/-- low_level/oneloop/thermal/zero_matsubara.rs l.595-610. -/
noncomputable def d_i_m_m_t_i {T1 T2 : Type} [Num T1] [Num T2] (q : ℝ) (p : ℝ) (m1 : T1) (m2 : T2) (beta : ℝ) : ℂ :=
  let p2 : ℝ := p * p
  let delta : ℂ := toC (m2 * m2) - toC (m1 * m1)
  let en1 : T1 := energy q m1
  let b1 : T1 := bose_distribution_zero_chempot en1 beta
  let tlog1p : ℂ := tlog q p delta
  let r01p : ℂ := r_0 p delta
  let en2 : T2 := energy q m2
  let b2 : T2 := bose_distribution_zero_chempot en2 beta
  let tlog2p : ℂ := tlog q p (-delta)
  let r02p : ℂ := r_0 p (-delta)
  let t1 : ℂ := toC (-b1 / en1) * tlog1p / (ofR 2 : ℂ)
  let t2 : ℂ := (toC (b2 / en2) - toC (b1 / en1)) * (ofR q : ℂ) / (ofR p : ℂ)
  let t3 : ℂ := (toC (b1 / en1) * (r01p * tlog1p) - toC (b2 / en2) * (r02p * tlog2p)) / (ofR (p2 * 4) : ℂ);
  (t1 + t2 + t3) * (ofR q : ℂ) / (ofR (p * 8 * PI2) : ℂ)

/-- low_level/oneloop/thermal/zero_matsubara.rs l.613-618. -/
noncomputable def d_i_m_m_t_i_same_mass {T : Type} [Num T] (q : ℝ) (p : ℝ) (m : T) (beta : ℝ) : T :=
  let en : T := energy q m
  let b : T := bose_distribution_zero_chempot en beta
  let tlogp : ℝ := tlog_same_mass q p;
  -(en * (ofR p : T) * (ofR 16 : T) * (ofR PI2 : T))⁻¹ * b * (ofR tlogp : T) * (ofR q : T)

/-- low_level/oneloop/thermal/zero_matsubara.rs l.621-635. -/
noncomputable def d_i_m_0_t_i {T : Type} [Num T] (q : ℝ) (p : ℝ) (m : T) (beta : ℝ) : ℂ :=
  let p2 : ℝ := p * p
  let delta : T := -m * m
  let en1 : T := energy q m
  let b1 : T := bose_distribution_zero_chempot en1 beta
  let tlog1p : ℂ := tlog q p delta
  let r01p : T := r_0 p delta
  let b2 : ℝ := bose_distribution_zero_chempot q beta
  let tlog2p : ℂ := tlog q p (-delta)
  let r02p : T := r_0 p (-delta)
  let t1 : ℂ := toC (-b1 / en1) * tlog1p / (ofR 2 : ℂ)
  let t2 : ℂ := ((ofR (b2 / q) : ℂ) - toC (b1 / en1)) * (ofR q : ℂ) / (ofR p : ℂ)
  let t3 : ℂ := (toC (b1 / en1) * (toC r01p * tlog1p) - (ofR (b2 / q) : ℂ) * (toC r02p * tlog2p)) / (ofR (p2 * 4) : ℂ);
  (t1 + t2 + t3) * (ofR q : ℂ) / (ofR (p * 8 * PI2) : ℂ)

/-- low_level/oneloop/thermal/zero_matsubara.rs l.638-640. -/
noncomputable def d_i_0_0_t_i (q : ℝ) (p : ℝ) (beta : ℝ) : ℝ :=
  -bose_distribution_zero_chempot q beta * tlog_same_mass q p / (p * 16 * PI2)

end zero_matsubara

end thermal
end Qcd
