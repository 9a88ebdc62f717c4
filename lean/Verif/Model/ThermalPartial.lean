import Verif.Model.ThermalParts
import Verif.Model.PartialNum

/-! # Second interpretation of the thermal integrands: definedness

The definitions of `Model/Thermal.lean` and `Model/ThermalParts.lean`, over the types `PV T` of numbers that may be undefined
(`Model/PartialNum.lean`). Written by `tools/partial.py` from those files, which see. -/

namespace Qcd.P
open consts (Consts)

namespace thermal

/-- low_level/oneloop/thermal/mod.rs l.562-569. -/
noncomputable def r_0 {T1 T2 T3 T4 : Type} [Num T1] [NumDom T1] [Num T2] [NumDom T2] [Num T3] [NumDom T3] [Num T4] [NumDom T4] (om : PV T1) (p : PV T2) (en : PV T3) (delta : PV T4) : PV ℂ :=
  PV.toC (om * om) + PV.toC om * (PV.toC (en * (PV.ofR 2 : PV T3)) * PV.I) + (PV.toC (p * p) + PV.toC delta)

/-- low_level/oneloop/thermal/mod.rs l.572-574. -/
noncomputable def r_0_same_mass {T1 T2 T3 : Type} [Num T1] [NumDom T1] [Num T2] [NumDom T2] [Num T3] [NumDom T3] (om : PV T1) (p : PV T2) (en : PV T3) : PV ℂ :=
  PV.toC (p * p) + (PV.toC (om * om) + PV.toC om * (PV.toC (en * (PV.ofR 2 : PV T3)) * PV.I))

/-- low_level/oneloop/thermal/mod.rs l.577-587. -/
noncomputable def tlog {T1 T2 T3 T4 : Type} [Num T1] [NumDom T1] [Num T2] [NumDom T2] [Num T3] [NumDom T3] [Num T4] [NumDom T4] (q : PV ℝ) (om : PV T1) (p : PV T2) (en : PV T3) (delta : PV T4) : PV ℂ :=
  let r_0 : PV ℂ := r_0 om p en delta
  let q2p : PV T2 := p * (PV.ofR q : PV T2) * (PV.ofR 2 : PV T2)
  PV.ln ((PV.toC q2p + r_0) / (PV.toC (-q2p) + r_0))

/-- low_level/oneloop/thermal/mod.rs l.590-594. -/
noncomputable def tlog_same_mass {T1 T2 T3 : Type} [Num T1] [NumDom T1] [Num T2] [NumDom T2] [Num T3] [NumDom T3] (q : PV ℝ) (om : PV T1) (p : PV T2) (en : PV T3) : PV ℂ :=
  let r_0 : PV ℂ := r_0_same_mass om p en
  let q2p : PV T2 := p * (PV.ofR q : PV T2) * (PV.ofR 2 : PV T2)
  PV.ln ((PV.toC q2p + r_0) / (PV.toC (-q2p) + r_0))

/-- low_level/oneloop/thermal/mod.rs l.597-601. -/
noncomputable def tlog_zero_mass {T1 T2 : Type} [Num T1] [NumDom T1] [Num T2] [NumDom T2] (q : PV ℝ) (om : PV T1) (p : PV T2) : PV ℂ :=
  let r_0 : PV ℂ := r_0_same_mass om p q
  let q2p : PV T2 := p * (PV.ofR q : PV T2) * (PV.ofR 2 : PV T2)
  PV.ln ((PV.toC q2p + r_0) / (PV.toC (-q2p) + r_0))

/-- low_level/oneloop/thermal/mod.rs l.604-614. -/
noncomputable def tlog_l {T1 T2 T3 T4 : Type} [Num T1] [NumDom T1] [Num T2] [NumDom T2] [Num T3] [NumDom T3] [Num T4] [NumDom T4] (q : PV ℝ) (om : PV T1) (p : PV T2) (en : PV T3) (delta : PV T4) : PV ℂ :=
  let ei2 : PV ℂ := PV.toC (en * (PV.ofR 2 : PV T3)) * PV.I
  let pf : PV ℂ := PV.toC (om * om) + PV.toC om * ei2 + PV.toC delta + PV.toC (p * p) * (PV.toC om⁻¹ * ei2 + (PV.ofR 1 : PV ℂ))
  tlog q om p en delta * pf * pf

/-- low_level/oneloop/thermal/mod.rs l.617-621. -/
noncomputable def tlog_l_same_mass {T1 T2 T3 : Type} [Num T1] [NumDom T1] [Num T2] [NumDom T2] [Num T3] [NumDom T3] (q : PV ℝ) (om : PV T1) (p : PV T2) (en : PV T3) : PV ℂ :=
  let ei2 : PV ℂ := PV.toC (en * (PV.ofR 2 : PV T3)) * PV.I
  let pf : PV ℂ := PV.toC (om * om) + PV.toC om * ei2 + PV.toC (p * p) * (PV.toC om⁻¹ * ei2 + (PV.ofR 1 : PV ℂ))
  tlog_same_mass q om p en * pf * pf

/-- low_level/oneloop/thermal/mod.rs l.624-628. -/
noncomputable def tlog_l_zero_mass {T1 T2 : Type} [Num T1] [NumDom T1] [Num T2] [NumDom T2] (q : PV ℝ) (om : PV T1) (p : PV T2) : PV ℂ :=
  let ei2 : PV ℂ := (PV.ofR (q * 2) : PV ℂ) * PV.I
  let pf : PV ℂ := PV.toC (om * om) + PV.toC om * ei2 + PV.toC (p * p) * (PV.toC om⁻¹ * ei2 + (PV.ofR 1 : PV ℂ))
  tlog_zero_mass q om p * pf * pf

/-- low_level/oneloop/thermal/mod.rs l.631-641. -/
noncomputable def tlog_t {T1 T2 T3 : Type} [Num T1] [NumDom T1] [Num T2] [NumDom T2] [Num T3] [NumDom T3] (q : PV ℝ) (om : PV T1) (p : PV ℝ) (en : PV T2) (delta : PV T3) : PV ℂ :=
  let r0 : PV ℂ := r_0 om p en delta
  let q2p : PV ℝ := q * 2 * p;
  (r0 + (PV.ofR q2p : PV ℂ)) * (r0 - (PV.ofR q2p : PV ℂ)) * tlog q om p en delta

/-- low_level/oneloop/thermal/mod.rs l.644-648. -/
noncomputable def tlog_t_same_mass {T1 T2 : Type} [Num T1] [NumDom T1] [Num T2] [NumDom T2] (q : PV ℝ) (om : PV T1) (p : PV ℝ) (en : PV T2) : PV ℂ :=
  let r0 : PV ℂ := r_0_same_mass om p en
  let q2p : PV ℝ := q * 2 * p;
  (r0 + (PV.ofR q2p : PV ℂ)) * (r0 - (PV.ofR q2p : PV ℂ)) * tlog_same_mass q om p en

/-- low_level/oneloop/thermal/mod.rs l.651-655. -/
noncomputable def tlog_t_zero_mass {T : Type} [Num T] [NumDom T] (q : PV ℝ) (om : PV T) (p : PV ℝ) : PV ℂ :=
  let r0 : PV ℂ := r_0_same_mass om p q
  let q2p : PV ℝ := q * 2 * p;
  (r0 + (PV.ofR q2p : PV ℂ)) * (r0 - (PV.ofR q2p : PV ℂ)) * tlog_zero_mass q om p

/-- low_level/oneloop/thermal/mod.rs l.658-662. -/
noncomputable def j_m_i {T : Type} [Num T] [NumDom T] (q : PV ℝ) (m : PV T) (beta : PV ℝ) : PV T :=
  let q2 : PV ℝ := q * q
  let en : PV T := energy q m
  bose_distribution_zero_chempot en beta * (PV.ofR q2 : PV T) / (en * (PV.ofR 2 : PV T) * (PV.ofR (.val PI2) : PV T))

/-- low_level/oneloop/thermal/mod.rs l.665-667. -/
noncomputable def j_0_i (q : PV ℝ) (beta : PV ℝ) : PV ℝ :=
  bose_distribution_zero_chempot q beta * q / (2 * (.val PI2))

/-- low_level/oneloop/thermal/mod.rs l.670-674. -/
noncomputable def j_m_l_i {T : Type} [Num T] [NumDom T] (q : PV ℝ) (m : PV T) (beta : PV ℝ) : PV T :=
  let q2 : PV ℝ := q * q
  let en : PV T := energy q m;
  -bose_distribution_zero_chempot en beta * (PV.ofR q2 : PV T) * en / (PV.ofR (2 * (.val PI2)) : PV T)

/-- low_level/oneloop/thermal/mod.rs l.677-681. -/
noncomputable def j_0_l_i (q : PV ℝ) (beta : PV ℝ) : PV ℝ :=
  let q2 : PV ℝ := q * q
  let q3 : PV ℝ := q2 * q;
  -bose_distribution_zero_chempot q beta * q3 / (2 * (.val PI2))

/-- low_level/oneloop/thermal/mod.rs l.684-689. -/
noncomputable def j_m_t_i {T : Type} [Num T] [NumDom T] (q : PV ℝ) (m : PV T) (beta : PV ℝ) : PV T :=
  let q2 : PV ℝ := q * q
  let q4 : PV ℝ := q2 * q2
  let en : PV T := energy q m
  bose_distribution_zero_chempot en beta * (PV.ofR q4 : PV T) / (en * (PV.ofR 6 : PV T) * (PV.ofR (.val PI2) : PV T))

/-- low_level/oneloop/thermal/mod.rs l.692-696. -/
noncomputable def j_0_t_i (q : PV ℝ) (beta : PV ℝ) : PV ℝ :=
  let q2 : PV ℝ := q * q
  let q3 : PV ℝ := q2 * q
  bose_distribution_zero_chempot q beta * q3 / (6 * (.val PI2))

/-- low_level/oneloop/thermal/mod.rs l.699-708. -/
noncomputable def i_m_m_i {T1 T2 T3 : Type} [Num T1] [NumDom T1] [Num T2] [NumDom T2] [Num T3] [NumDom T3] (q : PV ℝ) (om : PV T1) (p : PV ℝ) (m1 : PV T2) (m2 : PV T3) (beta : PV ℝ) : PV ℂ :=
  let en1 : PV T2 := energy q m1
  let en2 : PV T3 := energy q m2
  let delta : PV ℂ := PV.toC (m2 * m2) - PV.toC (m1 * m1)
  let t1 : PV ℂ := PV.toC (bose_distribution_zero_chempot en1 beta / en1) * (tlog q om p en1 delta + tlog q (-om) p en1 delta)
  let t2 : PV ℂ := PV.toC (bose_distribution_zero_chempot en2 beta / en2) * (tlog q om p en2 (-delta) + tlog q (-om) p en2 (-delta));
  (t1 + t2) * (PV.ofR q : PV ℂ) / (PV.ofR (p * 16 * (.val PI2)) : PV ℂ)

/-- low_level/oneloop/thermal/mod.rs l.711-716. -/
noncomputable def i_m_m_i_same_mass {T1 T2 T3 : Type} [Num T1] [NumDom T1] [Num T2] [NumDom T2] [Num T3] [NumDom T3] (q : PV ℝ) (om : PV T1) (p : PV T2) (m : PV T3) (beta : PV ℝ) : PV ℂ :=
  let en : PV T3 := energy q m
  let t : PV ℂ := PV.toC (bose_distribution_zero_chempot en beta / en) * (tlog_same_mass q om p en + tlog_same_mass q (-om) p en)
  PV.toC (p * (PV.ofR 8 : PV T2) * (PV.ofR (.val PI2) : PV T2))⁻¹ * t * (PV.ofR q : PV ℂ)

/-- low_level/oneloop/thermal/mod.rs l.719-727. -/
noncomputable def i_m_0_i {T1 T2 T3 : Type} [Num T1] [NumDom T1] [Num T2] [NumDom T2] [Num T3] [NumDom T3] (q : PV ℝ) (om : PV T1) (p : PV T2) (m : PV T3) (beta : PV ℝ) : PV ℂ :=
  let en : PV T3 := energy q m
  let delta : PV T3 := -m * m
  let t1 : PV ℂ := PV.toC (bose_distribution_zero_chempot en beta * (PV.ofR q : PV T3) / en) * (tlog q om p en delta + tlog q (-om) p en delta)
  let t2 : PV ℂ := (PV.ofR (bose_distribution_zero_chempot q beta) : PV ℂ) * (tlog q om p q (-delta) + tlog q (-om) p q (-delta))
  PV.toC (p * (PV.ofR 16 : PV T2) * (PV.ofR (.val PI2) : PV T2))⁻¹ * (t1 + t2)

/-- low_level/oneloop/thermal/mod.rs l.730-734. -/
noncomputable def i_0_0_i {T : Type} [Num T] [NumDom T] (q : PV ℝ) (om : PV T) (p : PV ℝ) (beta : PV ℝ) : PV ℂ :=
  let t : PV ℂ := (PV.ofR (bose_distribution_zero_chempot q beta) : PV ℂ) * (tlog_zero_mass q om p + tlog_zero_mass q (-om) p)
  t / (PV.ofR (p * 8 * (.val PI2)) : PV ℂ)

/-- low_level/oneloop/thermal/mod.rs l.737-753. -/
noncomputable def i_m_m_l_i {T1 T2 T3 : Type} [Num T1] [NumDom T1] [Num T2] [NumDom T2] [Num T3] [NumDom T3] (q : PV ℝ) (om : PV T1) (p : PV ℝ) (m1 : PV T2) (m2 : PV T3) (beta : PV ℝ) : PV ℂ :=
  let en1 : PV T2 := energy q m1
  let en2 : PV T3 := energy q m2
  let delta : PV ℂ := PV.toC (m2 * m2) - PV.toC (m1 * m1)
  let qp : PV ℝ := q * p
  let p2 : PV ℝ := p * p
  let p3 : PV ℝ := p2 * p
  let om2 : PV T1 := om * om
  let om2_plus_p2 : PV T1 := om2 + (PV.ofR p2 : PV T1)
  let t1 : PV ℂ := PV.toC (bose_distribution_zero_chempot en1 beta / en1) * (tlog_l q om p en1 delta + tlog_l q (-om) p en1 delta - (PV.ofR (8 * qp) : PV ℂ) * (PV.toC om2_plus_p2 + delta))
  let t2 : PV ℂ := PV.toC (bose_distribution_zero_chempot en2 beta / en2) * (tlog_l q om p en2 (-delta) + tlog_l q (-om) p en2 (-delta) - (PV.ofR (8 * qp) : PV ℂ) * (PV.toC om2_plus_p2 - delta))
  PV.toC ((om2_plus_p2 * (PV.ofR p3 : PV T1) * (PV.ofR 64 : PV T1) * (PV.ofR (.val PI2) : PV T1))⁻¹ * om2 * (PV.ofR q : PV T1)) * (t1 + t2)

/-- low_level/oneloop/thermal/mod.rs l.756-774. -/
noncomputable def i_m_m_l_i_same_mass {T1 T2 T3 : Type} [Num T1] [NumDom T1] [Num T2] [NumDom T2] [Num T3] [NumDom T3] (q : PV ℝ) (om : PV T1) (p : PV T2) (m : PV T3) (beta : PV ℝ) : PV ℂ :=
  let en : PV T3 := energy q m
  let qp : PV T2 := p * (PV.ofR q : PV T2)
  let p2 : PV T2 := p * p
  let p3 : PV T2 := p2 * p
  let om2 : PV T1 := om * om
  let om2_plus_p2 : PV ℂ := PV.toC om2 + PV.toC p2
  let t : PV ℂ := PV.toC (bose_distribution_zero_chempot en beta / en) * (PV.toC (-qp) * om2_plus_p2 * (PV.ofR 8 : PV ℂ) + tlog_l_same_mass q om p en + tlog_l_same_mass q (-om) p en)
  PV.toC om2 * (PV.toC p3 * om2_plus_p2 * (PV.ofR 32 : PV ℂ) * (PV.ofR (.val PI2) : PV ℂ))⁻¹ * (PV.ofR q : PV ℂ) * t

/-- low_level/oneloop/thermal/mod.rs l.777-792. -/
noncomputable def i_m_0_l_i {T1 T2 T3 : Type} [Num T1] [NumDom T1] [Num T2] [NumDom T2] [Num T3] [NumDom T3] (q : PV ℝ) (om : PV T1) (p : PV T2) (m : PV T3) (beta : PV ℝ) : PV ℂ :=
  let en : PV T3 := energy q m
  let delta : PV ℂ := -PV.toC (m * m)
  let qp : PV T2 := p * (PV.ofR q : PV T2)
  let p2 : PV T2 := p * p
  let p3 : PV T2 := p2 * p
  let om2 : PV T1 := om * om
  let om2_plus_p2 : PV ℂ := PV.toC om2 + PV.toC p2
  let t1 : PV ℂ := PV.toC (bose_distribution_zero_chempot en beta * (PV.ofR q : PV T3) / en) * (tlog_l q om p en delta + tlog_l q (-om) p en delta - PV.toC (qp * (PV.ofR 8 : PV T2)) * (om2_plus_p2 + delta))
  let t2 : PV ℂ := (PV.ofR (bose_distribution_zero_chempot q beta) : PV ℂ) * (tlog_l q om p q (-delta) + tlog_l q (-om) p q (-delta) - PV.toC (qp * (PV.ofR 8 : PV T2)) * (om2_plus_p2 - delta))
  PV.toC om2 * (PV.toC p3 * om2_plus_p2 * (PV.ofR 64 : PV ℂ) * (PV.ofR (.val PI2) : PV ℂ))⁻¹ * (t1 + t2)

/-- low_level/oneloop/thermal/mod.rs l.795-804. -/
noncomputable def i_0_0_l_i {T1 T2 : Type} [Num T1] [NumDom T1] [Num T2] [NumDom T2] (q : PV ℝ) (om : PV T1) (p : PV T2) (beta : PV ℝ) : PV ℂ :=
  let qp : PV T2 := p * (PV.ofR q : PV T2)
  let p2 : PV T2 := p * p
  let p3 : PV T2 := p2 * p
  let om2 : PV T1 := om * om
  let om2_plus_p2 : PV ℂ := PV.toC om2 + PV.toC p2
  let t : PV ℂ := (PV.ofR (bose_distribution_zero_chempot q beta) : PV ℂ) * (PV.toC (-qp) * om2_plus_p2 * (PV.ofR 8 : PV ℂ) + tlog_l_zero_mass q om p + tlog_l_zero_mass q (-om) p)
  PV.toC om2 * (PV.toC p3 * om2_plus_p2 * (PV.ofR 32 : PV ℂ) * (PV.ofR (.val PI2) : PV ℂ))⁻¹ * t

/-- low_level/oneloop/thermal/mod.rs l.807-823. -/
noncomputable def i_m_m_t_i {T1 T2 T3 : Type} [Num T1] [NumDom T1] [Num T2] [NumDom T2] [Num T3] [NumDom T3] (q : PV ℝ) (om : PV T1) (p : PV ℝ) (m1 : PV T2) (m2 : PV T3) (beta : PV ℝ) : PV ℂ :=
  let en1 : PV T2 := energy q m1
  let en2 : PV T3 := energy q m2
  let delta : PV ℂ := PV.toC (m2 * m2) - PV.toC (m1 * m1)
  let qp : PV ℝ := q * p
  let p2 : PV ℝ := p * p
  let p3 : PV ℝ := p2 * p
  let om2 : PV T1 := om * om
  let om2_plus_p2 : PV T1 := om2 + (PV.ofR p2 : PV T1)
  let t1 : PV ℂ := PV.toC (bose_distribution_zero_chempot en1 beta / en1) * (tlog_t q om p en1 delta + tlog_t q (-om) p en1 delta - (PV.ofR (8 * qp) : PV ℂ) * (PV.toC om2_plus_p2 + delta))
  let t2 : PV ℂ := PV.toC (bose_distribution_zero_chempot en2 beta / en2) * (tlog_t q om p en2 (-delta) + tlog_t q (-om) p en2 (-delta) - (PV.ofR (8 * qp) : PV ℂ) * (PV.toC om2_plus_p2 - delta));
  (PV.ofR (-(p3 * 128 * (.val PI2))⁻¹ * q) : PV ℂ) * (t1 + t2)

/-- low_level/oneloop/thermal/mod.rs l.826-838. -/
noncomputable def i_m_m_t_i_same_mass {T1 T2 : Type} [Num T1] [NumDom T1] [Num T2] [NumDom T2] (q : PV ℝ) (om : PV T1) (p : PV ℝ) (m : PV T2) (beta : PV ℝ) : PV ℂ :=
  let en : PV T2 := energy q m
  let qp : PV ℝ := q * p
  let p2 : PV ℝ := p * p
  let p3 : PV ℝ := p2 * p
  let om2 : PV T1 := om * om
  let om2_plus_p2 : PV T1 := om2 + (PV.ofR p2 : PV T1)
  let t : PV ℂ := PV.toC (bose_distribution_zero_chempot en beta / en) * (PV.toC (-om2_plus_p2 * (PV.ofR 8 : PV T1) * (PV.ofR qp : PV T1)) + tlog_t_same_mass q om p en + tlog_t_same_mass q (-om) p en);
  (PV.ofR (-(p3 * 64 * (.val PI2))⁻¹ * q) : PV ℂ) * t

/-- low_level/oneloop/thermal/mod.rs l.841-856. -/
noncomputable def i_m_0_t_i {T1 T2 : Type} [Num T1] [NumDom T1] [Num T2] [NumDom T2] (q : PV ℝ) (om : PV T1) (p : PV ℝ) (m : PV T2) (beta : PV ℝ) : PV ℂ :=
  let en : PV T2 := energy q m
  let delta : PV ℂ := -PV.toC (m * m)
  let qp : PV ℝ := q * p
  let p2 : PV ℝ := p * p
  let p3 : PV ℝ := p2 * p
  let om2 : PV T1 := om * om
  let om2_plus_p2 : PV T1 := om2 + (PV.ofR p2 : PV T1)
  let t1 : PV ℂ := PV.toC (bose_distribution_zero_chempot en beta * (PV.ofR q : PV T2) / en) * (tlog_t q om p en delta + tlog_t q (-om) p en delta - (PV.ofR (8 * qp) : PV ℂ) * (PV.toC om2_plus_p2 + delta))
  let t2 : PV ℂ := (PV.ofR (bose_distribution_zero_chempot q beta) : PV ℂ) * (tlog_t q om p q (-delta) + tlog_t q (-om) p q (-delta) - (PV.ofR (8 * qp) : PV ℂ) * (PV.toC om2_plus_p2 - delta));
  (PV.ofR (-(p3 * 128 * (.val PI2))⁻¹) : PV ℂ) * (t1 + t2)

/-- low_level/oneloop/thermal/mod.rs l.859-868. -/
noncomputable def i_0_0_t_i {T : Type} [Num T] [NumDom T] (q : PV ℝ) (om : PV T) (p : PV ℝ) (beta : PV ℝ) : PV ℂ :=
  let qp : PV ℝ := q * p
  let p2 : PV ℝ := p * p
  let p3 : PV ℝ := p2 * p
  let om2 : PV T := om * om
  let om2_plus_p2 : PV T := om2 + (PV.ofR p2 : PV T)
  let t : PV ℂ := (PV.ofR (bose_distribution_zero_chempot q beta) : PV ℂ) * (PV.toC (-om2_plus_p2 * (PV.ofR 8 : PV T) * (PV.ofR qp : PV T)) + tlog_t_zero_mass q om p + tlog_t_zero_mass q (-om) p);
  (PV.ofR (-(p3 * 64 * (.val PI2))⁻¹) : PV ℂ) * t

/-- low_level/oneloop/thermal/mod.rs l.871-874. -/
noncomputable def d_j_m_i {T : Type} [Num T] [NumDom T] (q : PV ℝ) (m : PV T) (beta : PV ℝ) : PV T :=
  let en : PV T := energy q m;
  -bose_distribution_zero_chempot en beta / (en * (PV.ofR 4 : PV T) * (PV.ofR (.val PI2) : PV T))

/-- low_level/oneloop/thermal/mod.rs l.877-879. -/
noncomputable def d_j_0_i (q : PV ℝ) (beta : PV ℝ) : PV ℝ :=
  -bose_distribution_zero_chempot q beta / (q * 4 * (.val PI2))

/-- low_level/oneloop/thermal/mod.rs l.882-889. -/
noncomputable def d2_j_m_i {T : Type} [Num T] [NumDom T] (q : PV ℝ) (m : PV T) (beta : PV ℝ) : PV T :=
  let en : PV T := energy q m
  let en3 : PV T := en * en * en
  let ben : PV T := en * (PV.ofR beta : PV T)
  let bp : PV T := bose_distribution_zero_chempot en beta
  let bm : PV T := bose_distribution_zero_chempot (-en) beta
  bp / (en3 * (PV.ofR 8 : PV T) * (PV.ofR (.val PI2) : PV T)) * (-ben * bm + (PV.ofR 1 : PV T))

/-- low_level/oneloop/thermal/mod.rs l.892-898. -/
noncomputable def d2_j_0_i (q : PV ℝ) (beta : PV ℝ) : PV ℝ :=
  let q3 : PV ℝ := q * q * q
  let bq : PV ℝ := q * beta
  let bp : PV ℝ := bose_distribution_zero_chempot q beta
  let bm : PV ℝ := bose_distribution_zero_chempot (-q) beta
  bp / (q3 * 8 * (.val PI2)) * (-bq * bm + 1)

/-- low_level/oneloop/thermal/mod.rs l.901-904. -/
noncomputable def d_j_m_l_i {T : Type} [Num T] [NumDom T] (q : PV ℝ) (m : PV T) (beta : PV ℝ) : PV T :=
  let en : PV T := energy q m
  en * bose_distribution_zero_chempot en beta / (PV.ofR (4 * (.val PI2)) : PV T)

/-- low_level/oneloop/thermal/mod.rs l.907-909. -/
noncomputable def d_j_0_l_i (q : PV ℝ) (beta : PV ℝ) : PV ℝ :=
  q * bose_distribution_zero_chempot q beta / (4 * (.val PI2))

/-- low_level/oneloop/thermal/mod.rs l.912-917. -/
noncomputable def d2_j_m_l_i {T : Type} [Num T] [NumDom T] (q : PV ℝ) (m : PV T) (beta : PV ℝ) : PV T :=
  let en : PV T := energy q m
  let bp : PV T := bose_distribution_zero_chempot en beta
  let bm : PV T := bose_distribution_zero_chempot (-en) beta
  bp / (PV.ofR (8 * (.val PI2)) : PV T) * (bm * (PV.ofR beta : PV T) + en⁻¹)

/-- low_level/oneloop/thermal/mod.rs l.920-924. -/
noncomputable def d2_j_0_l_i (q : PV ℝ) (beta : PV ℝ) : PV ℝ :=
  let bp : PV ℝ := bose_distribution_zero_chempot q beta
  let bm : PV ℝ := bose_distribution_zero_chempot (-q) beta
  bp / (8 * (.val PI2)) * (bm * beta + 1 / q)

/-- low_level/oneloop/thermal/mod.rs l.927-931. -/
noncomputable def d_j_m_t_i {T : Type} [Num T] [NumDom T] (q : PV ℝ) (m : PV T) (beta : PV ℝ) : PV T :=
  let q2 : PV ℝ := q * q
  let en : PV T := energy q m;
  -bose_distribution_zero_chempot en beta * (PV.ofR q2 : PV T) / (en * (PV.ofR 4 : PV T) * (PV.ofR (.val PI2) : PV T))

/-- low_level/oneloop/thermal/mod.rs l.934-936. -/
noncomputable def d_j_0_t_i (q : PV ℝ) (beta : PV ℝ) : PV ℝ :=
  -bose_distribution_zero_chempot q beta * q / (4 * (.val PI2))

/-- low_level/oneloop/thermal/mod.rs l.939-942. -/
noncomputable def d2_j_m_t_i {T : Type} [Num T] [NumDom T] (q : PV ℝ) (m : PV T) (beta : PV ℝ) : PV T :=
  let en : PV T := energy q m
  bose_distribution_zero_chempot en beta / (en * (PV.ofR 8 : PV T) * (PV.ofR (.val PI2) : PV T))

/-- low_level/oneloop/thermal/mod.rs l.945-947. -/
noncomputable def d2_j_0_t_i (q : PV ℝ) (beta : PV ℝ) : PV ℝ :=
  bose_distribution_zero_chempot q beta / (q * 8 * (.val PI2))

/-- low_level/oneloop/thermal/mod.rs l.950-973. -/
noncomputable def d_i_m_m_i {T1 T2 T3 : Type} [Num T1] [NumDom T1] [Num T2] [NumDom T2] [Num T3] [NumDom T3] (q : PV ℝ) (om : PV T1) (p : PV ℝ) (m1 : PV T2) (m2 : PV T3) (beta : PV ℝ) : PV ℂ :=
  let q2p : PV ℝ := q * p * 2
  let delta : PV ℂ := PV.toC (m2 * m2) - PV.toC (m1 * m1)
  let en1 : PV T2 := energy q m1
  let en2 : PV T3 := energy q m2
  let r01 : PV ℂ := r_0 om p en1 delta
  let r02 : PV ℂ := r_0 om p en2 (-delta)
  let r1pinv : PV ℂ := (r01 + (PV.ofR q2p : PV ℂ))⁻¹
  let r1minv : PV ℂ := (r01 - (PV.ofR q2p : PV ℂ))⁻¹
  let r2pinv : PV ℂ := (r02 + (PV.ofR q2p : PV ℂ))⁻¹
  let r2minv : PV ℂ := (r02 - (PV.ofR q2p : PV ℂ))⁻¹
  let r01_opp : PV ℂ := r_0 (-om) p en1 delta
  let r02_opp : PV ℂ := r_0 (-om) p en2 (-delta)
  let r1pinv_opp : PV ℂ := (r01_opp + (PV.ofR q2p : PV ℂ))⁻¹
  let r1minv_opp : PV ℂ := (r01_opp - (PV.ofR q2p : PV ℂ))⁻¹
  let r2pinv_opp : PV ℂ := (r02_opp + (PV.ofR q2p : PV ℂ))⁻¹
  let r2minv_opp : PV ℂ := (r02_opp - (PV.ofR q2p : PV ℂ))⁻¹
  let b1 : PV T2 := bose_distribution_zero_chempot en1 beta
  let b2 : PV T3 := bose_distribution_zero_chempot en2 beta
  let t10 : PV ℂ := PV.toC (b1 / en1) * (r1pinv + r1minv + r1pinv_opp + r1minv_opp)
  let t1 : PV ℂ := PV.toC (b1 / en1) * (r1pinv - r1minv + r1pinv_opp - r1minv_opp)
  let t2 : PV ℂ := PV.toC (b2 / en2) * (r2pinv - r2minv + r2pinv_opp - r2minv_opp);
  (-t10 + (t2 - t1) * (PV.ofR q : PV ℂ) / (PV.ofR p : PV ℂ)) / (PV.ofR (16 * (.val PI2)) : PV ℂ)

/-- low_level/oneloop/thermal/mod.rs l.976-994. -/
noncomputable def d_i_m_m_i_same_mass {T1 T2 T3 : Type} [Num T1] [NumDom T1] [Num T2] [NumDom T2] [Num T3] [NumDom T3] (q : PV ℝ) (om : PV T1) (p : PV T2) (m : PV T3) (beta : PV ℝ) : PV ℂ :=
  let q2p : PV T2 := p * (PV.ofR q : PV T2) * (PV.ofR 2 : PV T2)
  let en : PV T3 := energy q m
  let r0 : PV ℂ := r_0_same_mass om p en
  let rpinv : PV ℂ := (PV.toC q2p + r0)⁻¹
  let rminv : PV ℂ := (PV.toC (-q2p) + r0)⁻¹
  let r0_opp : PV ℂ := r_0_same_mass (-om) p en
  let rpinv_opp : PV ℂ := (PV.toC q2p + r0_opp)⁻¹
  let rminv_opp : PV ℂ := (PV.toC (-q2p) + r0_opp)⁻¹
  PV.toC (-bose_distribution_zero_chempot en beta * (en * (PV.ofR 16 : PV T3) * (PV.ofR (.val PI2) : PV T3))⁻¹) * (rpinv + rminv + rpinv_opp + rminv_opp)

/-- low_level/oneloop/thermal/mod.rs l.997-1019. -/
noncomputable def d_i_m_0_i {T1 T2 T3 : Type} [Num T1] [NumDom T1] [Num T2] [NumDom T2] [Num T3] [NumDom T3] (q : PV ℝ) (om : PV T1) (p : PV T2) (m : PV T3) (beta : PV ℝ) : PV ℂ :=
  let q2p : PV T2 := p * (PV.ofR q : PV T2) * (PV.ofR 2 : PV T2)
  let delta : PV T3 := -m * m
  let en : PV T3 := energy q m
  let r01 : PV ℂ := r_0 om p en delta
  let r02 : PV ℂ := r_0 om p q (-delta)
  let r1pinv : PV ℂ := (PV.toC q2p + r01)⁻¹
  let r1minv : PV ℂ := (PV.toC (-q2p) + r01)⁻¹
  let r2pinv : PV ℂ := (PV.toC q2p + r02)⁻¹
  let r2minv : PV ℂ := (PV.toC (-q2p) + r02)⁻¹
  let r01_opp : PV ℂ := r_0 (-om) p en delta
  let r02_opp : PV ℂ := r_0 (-om) p q (-delta)
  let r1pinv_opp : PV ℂ := (PV.toC q2p + r01_opp)⁻¹
  let r1minv_opp : PV ℂ := (PV.toC (-q2p) + r01_opp)⁻¹
  let r2pinv_opp : PV ℂ := (PV.toC q2p + r02_opp)⁻¹
  let r2minv_opp : PV ℂ := (PV.toC (-q2p) + r02_opp)⁻¹
  let b1 : PV T3 := bose_distribution_zero_chempot en beta
  let b2 : PV ℝ := bose_distribution_zero_chempot q beta
  let t10 : PV ℂ := PV.toC (b1 / en) * (r1pinv + r1minv + r1pinv_opp + r1minv_opp)
  let t1 : PV ℂ := PV.toC (b1 / en) * (r1pinv - r1minv + r1pinv_opp - r1minv_opp)
  let t2 : PV ℂ := (PV.ofR (b2 / q) : PV ℂ) * (r2pinv - r2minv + r2pinv_opp - r2minv_opp);
  (-t10 + PV.toC p⁻¹ * (t2 - t1) * (PV.ofR q : PV ℂ)) / (PV.ofR (16 * (.val PI2)) : PV ℂ)

/-- low_level/oneloop/thermal/mod.rs l.1022-1032. -/
noncomputable def d_i_0_0_i {T : Type} [Num T] [NumDom T] (q : PV ℝ) (om : PV T) (p : PV ℝ) (beta : PV ℝ) : PV ℂ :=
  let q2p : PV ℝ := q * p * 2
  let r0 : PV ℂ := r_0_same_mass om p q
  let rpinv : PV ℂ := (r0 + (PV.ofR q2p : PV ℂ))⁻¹
  let rminv : PV ℂ := (r0 - (PV.ofR q2p : PV ℂ))⁻¹
  let r0_opp : PV ℂ := r_0_same_mass (-om) p q
  let rpinv_opp : PV ℂ := (r0_opp + (PV.ofR q2p : PV ℂ))⁻¹
  let rminv_opp : PV ℂ := (r0_opp - (PV.ofR q2p : PV ℂ))⁻¹;
  (PV.ofR (-bose_distribution_zero_chempot q beta) : PV ℂ) * (rpinv + rminv + rpinv_opp + rminv_opp) / (PV.ofR (q * 16 * (.val PI2)) : PV ℂ)

/-- low_level/oneloop/thermal/mod.rs l.1035-1090. -/
noncomputable def d_i_m_m_l_i {T1 T2 T3 : Type} [Num T1] [NumDom T1] [Num T2] [NumDom T2] [Num T3] [NumDom T3] (q : PV ℝ) (om : PV T1) (p : PV ℝ) (m1 : PV T2) (m2 : PV T3) (beta : PV ℝ) : PV ℂ :=
  let om2 : PV T1 := om * om
  let ominv : PV T1 := om⁻¹
  let p2 : PV ℝ := p * p
  let p2q : PV ℝ := 2 * p * q
  let delta : PV ℂ := PV.toC (m2 * m2) - PV.toC (m1 * m1)
  let k : PV ℂ := PV.toC (ominv * (PV.ofR 2 : PV T1)) * PV.I * (PV.ofR p2 : PV ℂ)
  let en1 : PV T2 := energy q m1
  let b1 : PV T2 := bose_distribution_zero_chempot en1 beta
  let b1en1 : PV T2 := b1 / en1
  let tlog1p : PV ℂ := tlog q om p en1 delta
  let tlog1m : PV ℂ := tlog q (-om) p en1 delta
  let r01p : PV ℂ := r_0 om p en1 delta
  let r01m : PV ℂ := r_0 (-om) p en1 delta
  let r1ppinv : PV ℂ := (r01p + (PV.ofR p2q : PV ℂ))⁻¹
  let r1pminv : PV ℂ := (r01p - (PV.ofR p2q : PV ℂ))⁻¹
  let r1mpinv : PV ℂ := (r01m + (PV.ofR p2q : PV ℂ))⁻¹
  let r1mminv : PV ℂ := (r01m - (PV.ofR p2q : PV ℂ))⁻¹
  let xp1 : PV ℂ := r01p + PV.toC en1 * k
  let xp12 : PV ℂ := xp1 * xp1
  let xm1 : PV ℂ := r01m - PV.toC en1 * k
  let xm12 : PV ℂ := xm1 * xm1
  let en2 : PV T3 := energy q m2
  let b2 : PV T3 := bose_distribution_zero_chempot en2 beta
  let b2en2 : PV T3 := b2 / en2
  let tlog2p : PV ℂ := tlog q om p en2 (-delta)
  let tlog2m : PV ℂ := tlog q (-om) p en2 (-delta)
  let r02p : PV ℂ := r_0 om p en2 (-delta)
  let r02m : PV ℂ := r_0 (-om) p en2 (-delta)
  let r2ppinv : PV ℂ := (r02p + (PV.ofR p2q : PV ℂ))⁻¹
  let r2pminv : PV ℂ := (r02p - (PV.ofR p2q : PV ℂ))⁻¹
  let r2mpinv : PV ℂ := (r02m + (PV.ofR p2q : PV ℂ))⁻¹
  let r2mminv : PV ℂ := (r02m - (PV.ofR p2q : PV ℂ))⁻¹
  let xp2 : PV ℂ := r02p + PV.toC en2 * k
  let xp22 : PV ℂ := xp2 * xp2
  let xm2 : PV ℂ := r02m - PV.toC en2 * k
  let xm22 : PV ℂ := xm2 * xm2
  let t1 : PV ℂ := PV.toC (-b1en1) * ((r1ppinv + r1pminv) * xp12 + (r1mpinv + r1mminv) * xm12)
  let t2 : PV ℂ := PV.toC b1en1 * (PV.toC (om2 + (PV.ofR p2 : PV T1)) + delta) * (PV.ofR 4 : PV ℂ)
  let t3 : PV ℂ := (PV.toC b1en1 - PV.toC b2en2) * (PV.ofR q : PV ℂ) * (PV.ofR q : PV ℂ) * (PV.ofR 8 : PV ℂ)
  let t4 : PV ℂ := (PV.toC b2en2 * (xp2 * tlog2p + xm2 * tlog2m) - PV.toC b1en1 * (xp1 * tlog1p + xm1 * tlog1m)) * (PV.ofR q : PV ℂ) / (PV.ofR p : PV ℂ) * (PV.ofR 2 : PV ℂ)
  let t5 : PV ℂ := (PV.toC b2en2 * (xp22 * (r2ppinv - r2pminv) + xm22 * (r2mpinv - r2mminv)) - PV.toC b1en1 * (xp12 * (r1ppinv - r1pminv) + xm12 * (r1mpinv - r1mminv))) * (PV.ofR q : PV ℂ) / (PV.ofR p : PV ℂ)
  PV.toC (om2 * ((om2 + (PV.ofR p2 : PV T1)) * (PV.ofR p2 : PV T1) * (PV.ofR 64 : PV T1) * (PV.ofR (.val PI2) : PV T1))⁻¹) * (t1 + t2 + t3 + t4 + t5)

/-- low_level/oneloop/thermal/mod.rs l.1093-1122. -/
noncomputable def d_i_m_m_l_i_same_mass {T1 T2 T3 : Type} [Num T1] [NumDom T1] [Num T2] [NumDom T2] [Num T3] [NumDom T3] (q : PV ℝ) (om : PV T1) (p : PV T2) (m : PV T3) (beta : PV ℝ) : PV ℂ :=
  let om2 : PV T1 := om * om
  let ominv : PV T1 := om⁻¹
  let p2 : PV T2 := p * p
  let p2q : PV T2 := p * (PV.ofR q : PV T2) * (PV.ofR 2 : PV T2)
  let s : PV ℂ := PV.toC om2 + PV.toC p2
  let k : PV ℂ := PV.toC p2 * (PV.toC (ominv * (PV.ofR 2 : PV T1)) * PV.I)
  let en : PV T3 := energy q m
  let b : PV T3 := bose_distribution_zero_chempot en beta
  let ben : PV T3 := b / en
  let r0p : PV ℂ := r_0_same_mass om p en
  let r0m : PV ℂ := r_0_same_mass (-om) p en
  let rppinv : PV ℂ := (PV.toC p2q + r0p)⁻¹
  let rpminv : PV ℂ := (PV.toC (-p2q) + r0p)⁻¹
  let rmpinv : PV ℂ := (PV.toC p2q + r0m)⁻¹
  let rmminv : PV ℂ := (PV.toC (-p2q) + r0m)⁻¹
  let xp : PV ℂ := r0p + PV.toC en * k
  let xp2 : PV ℂ := xp * xp
  let xm : PV ℂ := r0m - PV.toC en * k
  let xm2 : PV ℂ := xm * xm
  let t1 : PV ℂ := PV.toC (-ben) * ((rppinv + rpminv) * xp2 + (rmpinv + rmminv) * xm2)
  let t2 : PV ℂ := PV.toC ben * s * (PV.ofR 4 : PV ℂ)
  PV.toC om2 * (PV.toC p2 * s * (PV.ofR 64 : PV ℂ) * (PV.ofR (.val PI2) : PV ℂ))⁻¹ * (t1 + t2)

/-- low_level/oneloop/thermal/mod.rs l.1125-1171. -/
noncomputable def d_i_m_0_l_i {T1 T2 T3 : Type} [Num T1] [NumDom T1] [Num T2] [NumDom T2] [Num T3] [NumDom T3] (q : PV ℝ) (om : PV T1) (p : PV T2) (m : PV T3) (beta : PV ℝ) : PV ℂ :=
  let om2 : PV T1 := om * om
  let ominv : PV T1 := om⁻¹
  let p2 : PV T2 := p * p
  let p2q : PV T2 := p * (PV.ofR q : PV T2) * (PV.ofR 2 : PV T2)
  let s : PV ℂ := PV.toC om2 + PV.toC p2
  let delta : PV T3 := -m * m
  let k : PV ℂ := PV.toC p2 * (PV.toC (ominv * (PV.ofR 2 : PV T1)) * PV.I)
  let en1 : PV T3 := energy q m
  let b1 : PV T3 := bose_distribution_zero_chempot en1 beta
  let b1en1 : PV T3 := b1 / en1
  let tlog1p : PV ℂ := tlog q om p en1 delta
  let tlog1m : PV ℂ := tlog q (-om) p en1 delta
  let r01p : PV ℂ := r_0 om p en1 delta
  let r01m : PV ℂ := r_0 (-om) p en1 delta
  let r1ppinv : PV ℂ := (PV.toC p2q + r01p)⁻¹
  let r1pminv : PV ℂ := (PV.toC (-p2q) + r01p)⁻¹
  let r1mpinv : PV ℂ := (PV.toC p2q + r01m)⁻¹
  let r1mminv : PV ℂ := (PV.toC (-p2q) + r01m)⁻¹
  let xp1 : PV ℂ := r01p + PV.toC en1 * k
  let xp12 : PV ℂ := xp1 * xp1
  let xm1 : PV ℂ := r01m - PV.toC en1 * k
  let xm12 : PV ℂ := xm1 * xm1
  let b2 : PV ℝ := bose_distribution_zero_chempot q beta
  let tlog2p : PV ℂ := tlog q om p q (-delta)
  let tlog2m : PV ℂ := tlog q (-om) p q (-delta)
  let r02p : PV ℂ := r_0 om p q (-delta)
  let r02m : PV ℂ := r_0 (-om) p q (-delta)
  let r2ppinv : PV ℂ := (PV.toC p2q + r02p)⁻¹
  let r2pminv : PV ℂ := (PV.toC (-p2q) + r02p)⁻¹
  let r2mpinv : PV ℂ := (PV.toC p2q + r02m)⁻¹
  let r2mminv : PV ℂ := (PV.toC (-p2q) + r02m)⁻¹
  let xp2 : PV ℂ := r02p + (PV.ofR q : PV ℂ) * k
  let xp22 : PV ℂ := xp2 * xp2
  let xm2 : PV ℂ := r02m - (PV.ofR q : PV ℂ) * k
  let xm22 : PV ℂ := xm2 * xm2
  let t1 : PV ℂ := PV.toC (-b1en1) * ((r1ppinv + r1pminv) * xp12 + (r1mpinv + r1mminv) * xm12)
  let t2 : PV ℂ := PV.toC b1en1 * (PV.toC delta + s) * (PV.ofR 4 : PV ℂ)
  let t3 : PV ℂ := (PV.toC (b1en1 * (PV.ofR q : PV T3)) - PV.toC b2) * (PV.ofR q : PV ℂ) * (PV.ofR 8 : PV ℂ)
  let t4 : PV ℂ := PV.toC p⁻¹ * ((PV.ofR b2 : PV ℂ) * (xp2 * tlog2p + xm2 * tlog2m) - PV.toC (b1en1 * (PV.ofR q : PV T3)) * (xp1 * tlog1p + xm1 * tlog1m)) * (PV.ofR 2 : PV ℂ)
  let t5 : PV ℂ := PV.toC p⁻¹ * ((PV.ofR b2 : PV ℂ) * (xp22 * (r2ppinv - r2pminv) + xm22 * (r2mpinv - r2mminv)) - PV.toC (b1en1 * (PV.ofR q : PV T3)) * (xp12 * (r1ppinv - r1pminv) + xm12 * (r1mpinv - r1mminv)))
  PV.toC om2 * (PV.toC p2 * s * (PV.ofR 64 : PV ℂ) * (PV.ofR (.val PI2) : PV ℂ))⁻¹ * (t1 + t2 + t3 + t4 + t5)

/-- low_level/oneloop/thermal/mod.rs l.1174-1196. -/
noncomputable def d_i_0_0_l_i {T : Type} [Num T] [NumDom T] (q : PV ℝ) (om : PV T) (p : PV ℝ) (beta : PV ℝ) : PV ℂ :=
  let om2 : PV T := om * om
  let ominv : PV T := om⁻¹
  let p2 : PV ℝ := p * p
  let p2q : PV ℝ := 2 * p * q
  let k : PV ℂ := PV.toC (ominv * (PV.ofR 2 : PV T)) * PV.I * (PV.ofR p2 : PV ℂ)
  let r0p : PV ℂ := r_0_same_mass om p q
  let r0m : PV ℂ := r_0_same_mass (-om) p q
  let rppinv : PV ℂ := (r0p + (PV.ofR p2q : PV ℂ))⁻¹
  let rpminv : PV ℂ := (r0p - (PV.ofR p2q : PV ℂ))⁻¹
  let rmpinv : PV ℂ := (r0m + (PV.ofR p2q : PV ℂ))⁻¹
  let rmminv : PV ℂ := (r0m - (PV.ofR p2q : PV ℂ))⁻¹
  let xp : PV ℂ := r0p + (PV.ofR q : PV ℂ) * k
  let xp2 : PV ℂ := xp * xp
  let xm : PV ℂ := r0m - (PV.ofR q : PV ℂ) * k
  let xm2 : PV ℂ := xm * xm
  let t1 : PV ℂ := -((rppinv + rpminv) * xp2 + (rmpinv + rmminv) * xm2)
  let t2 : PV ℂ := PV.toC (om2 + (PV.ofR p2 : PV T)) * (PV.ofR 4 : PV ℂ)
  PV.toC (om2 * ((om2 + (PV.ofR p2 : PV T)) * (PV.ofR p2 : PV T) * (PV.ofR 64 : PV T) * (PV.ofR (.val PI2) : PV T))⁻¹) * (t1 + t2) * (PV.ofR (bose_distribution_zero_chempot q beta) : PV ℂ) / (PV.ofR q : PV ℂ)

/-- low_level/oneloop/thermal/mod.rs l.1199-1227. -/
noncomputable def d_i_m_m_t_i {T1 T2 T3 : Type} [Num T1] [NumDom T1] [Num T2] [NumDom T2] [Num T3] [NumDom T3] (q : PV ℝ) (om : PV T1) (p : PV ℝ) (m1 : PV T2) (m2 : PV T3) (beta : PV ℝ) : PV ℂ :=
  let p2 : PV ℝ := p * p
  let delta : PV ℂ := PV.toC (m2 * m2) - PV.toC (m1 * m1)
  let en1 : PV T2 := energy q m1
  let b1 : PV T2 := bose_distribution_zero_chempot en1 beta
  let tlog1p : PV ℂ := tlog q om p en1 delta
  let tlog1m : PV ℂ := tlog q (-om) p en1 delta
  let r01p : PV ℂ := r_0 om p en1 delta
  let r01m : PV ℂ := r_0 (-om) p en1 delta
  let en2 : PV T3 := energy q m2
  let b2 : PV T3 := bose_distribution_zero_chempot en2 beta
  let tlog2p : PV ℂ := tlog q om p en2 (-delta)
  let tlog2m : PV ℂ := tlog q (-om) p en2 (-delta)
  let r02p : PV ℂ := r_0 om p en2 (-delta)
  let r02m : PV ℂ := r_0 (-om) p en2 (-delta)
  let t1 : PV ℂ := PV.toC (-b1 / en1) * (tlog1p + tlog1m) / (PV.ofR 4 : PV ℂ)
  let t2 : PV ℂ := (PV.toC (b2 / en2) - PV.toC (b1 / en1)) * (PV.ofR q : PV ℂ) / (PV.ofR p : PV ℂ)
  let t3 : PV ℂ := (PV.toC (b1 / en1) * (r01p * tlog1p + r01m * tlog1m) - PV.toC (b2 / en2) * (r02p * tlog2p + r02m * tlog2m)) / (PV.ofR (p2 * 8) : PV ℂ);
  (t1 + t2 + t3) * (PV.ofR q : PV ℂ) / (PV.ofR (p * 8 * (.val PI2)) : PV ℂ)

/-- low_level/oneloop/thermal/mod.rs l.1230-1236. -/
noncomputable def d_i_m_m_t_i_same_mass {T1 T2 : Type} [Num T1] [NumDom T1] [Num T2] [NumDom T2] (q : PV ℝ) (om : PV T1) (p : PV ℝ) (m : PV T2) (beta : PV ℝ) : PV ℂ :=
  let en : PV T2 := energy q m
  let b : PV T2 := bose_distribution_zero_chempot en beta
  let tlogp : PV ℂ := tlog_same_mass q om p en
  let tlogm : PV ℂ := tlog_same_mass q (-om) p en
  PV.toC (-(en * (PV.ofR p : PV T2) * (PV.ofR 32 : PV T2) * (PV.ofR (.val PI2) : PV T2))⁻¹ * b) * (tlogp + tlogm) * (PV.ofR q : PV ℂ)

/-- low_level/oneloop/thermal/mod.rs l.1239-1259. -/
noncomputable def d_i_m_0_t_i {T1 T2 : Type} [Num T1] [NumDom T1] [Num T2] [NumDom T2] (q : PV ℝ) (om : PV T1) (p : PV ℝ) (m : PV T2) (beta : PV ℝ) : PV ℂ :=
  let p2 : PV ℝ := p * p
  let delta : PV T2 := -m * m
  let en1 : PV T2 := energy q m
  let b1 : PV T2 := bose_distribution_zero_chempot en1 beta
  let tlog1p : PV ℂ := tlog q om p en1 delta
  let tlog1m : PV ℂ := tlog q (-om) p en1 delta
  let r01p : PV ℂ := r_0 om p en1 delta
  let r01m : PV ℂ := r_0 (-om) p en1 delta
  let b2 : PV ℝ := bose_distribution_zero_chempot q beta
  let tlog2p : PV ℂ := tlog q om p q (-delta)
  let tlog2m : PV ℂ := tlog q (-om) p q (-delta)
  let r02p : PV ℂ := r_0 om p q (-delta)
  let r02m : PV ℂ := r_0 (-om) p q (-delta)
  let t1 : PV ℂ := PV.toC (-b1 / en1) * (tlog1p + tlog1m) / (PV.ofR 4 : PV ℂ)
  let t2 : PV ℂ := ((PV.ofR (b2 / q) : PV ℂ) - PV.toC (b1 / en1)) * (PV.ofR q : PV ℂ) / (PV.ofR p : PV ℂ)
  let t3 : PV ℂ := (PV.toC (b1 / en1) * (r01p * tlog1p + r01m * tlog1m) - (PV.ofR (b2 / q) : PV ℂ) * (r02p * tlog2p + r02m * tlog2m)) / (PV.ofR (p2 * 8) : PV ℂ);
  (t1 + t2 + t3) * (PV.ofR q : PV ℂ) / (PV.ofR (p * 8 * (.val PI2)) : PV ℂ)

/-- low_level/oneloop/thermal/mod.rs l.1262-1266. -/
noncomputable def d_i_0_0_t_i {T : Type} [Num T] [NumDom T] (q : PV ℝ) (om : PV T) (p : PV ℝ) (beta : PV ℝ) : PV ℂ :=
  (PV.ofR (-bose_distribution_zero_chempot q beta) : PV ℂ) * (tlog_same_mass q om p q + tlog_same_mass q (-om) p q) / (PV.ofR (p * 32 * (.val PI2)) : PV ℂ)

namespace zero_momentum

/-- low_level/oneloop/thermal/zero_momentum.rs l.270-272. -/
noncomputable def r_0 {T1 T2 T3 : Type} [Num T1] [NumDom T1] [Num T2] [NumDom T2] [Num T3] [NumDom T3] (om : PV T1) (en : PV T2) (delta : PV T3) : PV ℂ :=
  PV.toC (om * om) + PV.toC om * (PV.toC (en * (PV.ofR 2 : PV T2)) * PV.I) + PV.toC delta

/-- low_level/oneloop/thermal/zero_momentum.rs l.275-277. -/
noncomputable def r_0_same_mass {T1 T2 : Type} [Num T1] [NumDom T1] [Num T2] [NumDom T2] (om : PV T1) (en : PV T2) : PV ℂ :=
  PV.toC (om * om) + PV.toC om * (PV.toC (en * (PV.ofR 2 : PV T2)) * PV.I)

/-- low_level/oneloop/thermal/zero_momentum.rs l.280-293. -/
noncomputable def i_m_m_i {T1 T2 T3 : Type} [Num T1] [NumDom T1] [Num T2] [NumDom T2] [Num T3] [NumDom T3] (q : PV ℝ) (om : PV T1) (m1 : PV T2) (m2 : PV T3) (beta : PV ℝ) : PV ℂ :=
  let en1 : PV T2 := energy q m1
  let en2 : PV T3 := energy q m2
  let delta : PV ℂ := PV.toC (m2 * m2) - PV.toC (m1 * m1)
  let om2 : PV T1 := om * om
  let omi2 : PV ℂ := PV.toC om * PV.I * (PV.ofR 2 : PV ℂ)
  let r01p_inv : PV ℂ := (PV.toC om2 + PV.toC en1 * omi2 + delta)⁻¹
  let r01m_inv : PV ℂ := (PV.toC om2 - PV.toC en1 * omi2 + delta)⁻¹
  let r02p_inv : PV ℂ := (PV.toC om2 + PV.toC en2 * omi2 - delta)⁻¹
  let r02m_inv : PV ℂ := (PV.toC om2 - PV.toC en2 * omi2 - delta)⁻¹
  let t1 : PV ℂ := PV.toC (bose_distribution_zero_chempot en1 beta / en1) * (r01p_inv + r01m_inv)
  let t2 : PV ℂ := PV.toC (bose_distribution_zero_chempot en2 beta / en2) * (r02p_inv + r02m_inv);
  (t1 + t2) * (PV.ofR q : PV ℂ) * (PV.ofR q : PV ℂ) / (PV.ofR (4 * (.val PI2)) : PV ℂ)

/-- low_level/oneloop/thermal/zero_momentum.rs l.296-303. -/
noncomputable def i_m_m_i_same_mass {T1 T2 : Type} [Num T1] [NumDom T1] [Num T2] [NumDom T2] (q : PV ℝ) (om : PV T1) (m : PV T2) (beta : PV ℝ) : PV ℂ :=
  let en1 : PV T2 := energy q m
  let om2 : PV T1 := om * om
  let omi2 : PV ℂ := PV.toC om * PV.I * (PV.ofR 2 : PV ℂ)
  let r01p_inv : PV ℂ := (PV.toC om2 + PV.toC en1 * omi2)⁻¹
  let r01m_inv : PV ℂ := (PV.toC om2 - PV.toC en1 * omi2)⁻¹
  PV.toC (bose_distribution_zero_chempot en1 beta / en1) * (r01p_inv + r01m_inv) * (PV.ofR q : PV ℂ) * (PV.ofR q : PV ℂ) / (PV.ofR (2 * (.val PI2)) : PV ℂ)

/-- low_level/oneloop/thermal/zero_momentum.rs l.306-318. -/
noncomputable def i_m_0_i {T1 T2 : Type} [Num T1] [NumDom T1] [Num T2] [NumDom T2] (q : PV ℝ) (om : PV T1) (m : PV T2) (beta : PV ℝ) : PV ℂ :=
  let en1 : PV T2 := energy q m
  let delta : PV T2 := -m * m
  let om2 : PV T1 := om * om
  let omi2 : PV ℂ := PV.toC om * PV.I * (PV.ofR 2 : PV ℂ)
  let r01p_inv : PV ℂ := (PV.toC delta + (PV.toC om2 + PV.toC en1 * omi2))⁻¹
  let r01m_inv : PV ℂ := (PV.toC delta + (PV.toC om2 - PV.toC en1 * omi2))⁻¹
  let r02p_inv : PV ℂ := (PV.toC (-delta) + (PV.toC om2 + (PV.ofR q : PV ℂ) * omi2))⁻¹
  let r02m_inv : PV ℂ := (PV.toC (-delta) + (PV.toC om2 - (PV.ofR q : PV ℂ) * omi2))⁻¹
  let t1 : PV ℂ := PV.toC (bose_distribution_zero_chempot en1 beta * (PV.ofR q : PV T2) / en1) * (r01p_inv + r01m_inv)
  let t2 : PV ℂ := (PV.ofR (bose_distribution_zero_chempot q beta) : PV ℂ) * (r02p_inv + r02m_inv);
  (t1 + t2) * (PV.ofR q : PV ℂ) / (PV.ofR (4 * (.val PI2)) : PV ℂ)

/-- low_level/oneloop/thermal/zero_momentum.rs l.321-327. -/
noncomputable def i_0_0_i {T : Type} [Num T] [NumDom T] (q : PV ℝ) (om : PV T) (beta : PV ℝ) : PV ℂ :=
  let om2 : PV T := om * om
  let omi2 : PV ℂ := PV.toC om * PV.I * (PV.ofR 2 : PV ℂ)
  let r01p_inv : PV ℂ := (PV.toC om2 + (PV.ofR q : PV ℂ) * omi2)⁻¹
  let r01m_inv : PV ℂ := (PV.toC om2 - (PV.ofR q : PV ℂ) * omi2)⁻¹;
  (PV.ofR (bose_distribution_zero_chempot q beta) : PV ℂ) * (r01p_inv + r01m_inv) * (PV.ofR q : PV ℂ) / (PV.ofR (2 * (.val PI2)) : PV ℂ)

/-- low_level/oneloop/thermal/zero_momentum.rs l.330-344. -/
noncomputable def i_m_m_l_i {T1 T2 T3 : Type} [Num T1] [NumDom T1] [Num T2] [NumDom T2] [Num T3] [NumDom T3] (q : PV ℝ) (om : PV T1) (m1 : PV T2) (m2 : PV T3) (beta : PV ℝ) : PV ℂ :=
  let en1 : PV T2 := energy q m1
  let en2 : PV T3 := energy q m2
  let delta : PV ℂ := PV.toC (m2 * m2) - PV.toC (m1 * m1)
  let q4 : PV ℝ := q * q * q * q
  let om2 : PV T1 := om * om
  let omi2 : PV ℂ := PV.toC om * PV.I * (PV.ofR 2 : PV ℂ)
  let r01p_inv : PV ℂ := (PV.toC om2 + PV.toC en1 * omi2 + delta)⁻¹
  let r01m_inv : PV ℂ := (PV.toC om2 - PV.toC en1 * omi2 + delta)⁻¹
  let r02p_inv : PV ℂ := (PV.toC om2 + PV.toC en2 * omi2 - delta)⁻¹
  let r02m_inv : PV ℂ := (PV.toC om2 - PV.toC en2 * omi2 - delta)⁻¹
  let t1 : PV ℂ := PV.toC (bose_distribution_zero_chempot en1 beta / en1) * (r01p_inv + r01m_inv)
  let t2 : PV ℂ := PV.toC (bose_distribution_zero_chempot en2 beta / en2) * (r02p_inv + r02m_inv);
  (PV.ofR ((12 * (.val PI2))⁻¹ * q4) : PV ℂ) * (t1 + t2)

/-- low_level/oneloop/thermal/zero_momentum.rs l.347-358. -/
noncomputable def i_m_m_l_i_same_mass {T1 T2 : Type} [Num T1] [NumDom T1] [Num T2] [NumDom T2] (q : PV ℝ) (om : PV T1) (m : PV T2) (beta : PV ℝ) : PV ℂ :=
  let en1 : PV T2 := energy q m
  let q4 : PV ℝ := q * q * q * q
  let om2 : PV T1 := om * om
  let omi2 : PV ℂ := PV.toC om * PV.I * (PV.ofR 2 : PV ℂ)
  let r01p_inv : PV ℂ := (PV.toC om2 + PV.toC en1 * omi2)⁻¹
  let r01m_inv : PV ℂ := (PV.toC om2 - PV.toC en1 * omi2)⁻¹
  PV.toC ((en1 * (PV.ofR 6 : PV T2) * (PV.ofR (.val PI2) : PV T2))⁻¹ * bose_distribution_zero_chempot en1 beta * (PV.ofR q4 : PV T2)) * (r01p_inv + r01m_inv)

/-- low_level/oneloop/thermal/zero_momentum.rs l.361-374. -/
noncomputable def i_m_0_l_i {T1 T2 : Type} [Num T1] [NumDom T1] [Num T2] [NumDom T2] (q : PV ℝ) (om : PV T1) (m : PV T2) (beta : PV ℝ) : PV ℂ :=
  let en1 : PV T2 := energy q m
  let delta : PV T2 := -m * m
  let q3 : PV ℝ := q * q * q
  let om2 : PV T1 := om * om
  let omi2 : PV ℂ := PV.toC om * PV.I * (PV.ofR 2 : PV ℂ)
  let r01p_inv : PV ℂ := (PV.toC delta + (PV.toC om2 + PV.toC en1 * omi2))⁻¹
  let r01m_inv : PV ℂ := (PV.toC delta + (PV.toC om2 - PV.toC en1 * omi2))⁻¹
  let r02p_inv : PV ℂ := (PV.toC (-delta) + (PV.toC om2 + (PV.ofR q : PV ℂ) * omi2))⁻¹
  let r02m_inv : PV ℂ := (PV.toC (-delta) + (PV.toC om2 - (PV.ofR q : PV ℂ) * omi2))⁻¹
  let t1 : PV ℂ := PV.toC (bose_distribution_zero_chempot en1 beta * (PV.ofR q : PV T2) / en1) * (r01p_inv + r01m_inv)
  let t2 : PV ℂ := (PV.ofR (bose_distribution_zero_chempot q beta) : PV ℂ) * (r02p_inv + r02m_inv);
  (PV.ofR ((12 * (.val PI2))⁻¹ * q3) : PV ℂ) * (t1 + t2)

/-- low_level/oneloop/thermal/zero_momentum.rs l.377-384. -/
noncomputable def i_0_0_l_i {T : Type} [Num T] [NumDom T] (q : PV ℝ) (om : PV T) (beta : PV ℝ) : PV ℂ :=
  let q3 : PV ℝ := q * q * q
  let om2 : PV T := om * om
  let omi2 : PV ℂ := PV.toC om * PV.I * (PV.ofR 2 : PV ℂ)
  let r01p_inv : PV ℂ := (PV.toC om2 + (PV.ofR q : PV ℂ) * omi2)⁻¹
  let r01m_inv : PV ℂ := (PV.toC om2 - (PV.ofR q : PV ℂ) * omi2)⁻¹;
  (PV.ofR (bose_distribution_zero_chempot q beta) : PV ℂ) * (r01p_inv + r01m_inv) * (PV.ofR q3 : PV ℂ) / (PV.ofR (6 * (.val PI2)) : PV ℂ)

/-- low_level/oneloop/thermal/zero_momentum.rs l.387-389. -/
noncomputable def i_m_m_t_i {T1 T2 T3 : Type} [Num T1] [NumDom T1] [Num T2] [NumDom T2] [Num T3] [NumDom T3] (q : PV ℝ) (om : PV T1) (m1 : PV T2) (m2 : PV T3) (beta : PV ℝ) : PV ℂ :=
  i_m_m_l_i q om m1 m2 beta

/-- low_level/oneloop/thermal/zero_momentum.rs l.392-394. -/
noncomputable def i_m_m_t_i_same_mass {T1 T2 : Type} [Num T1] [NumDom T1] [Num T2] [NumDom T2] (q : PV ℝ) (om : PV T1) (m : PV T2) (beta : PV ℝ) : PV ℂ :=
  i_m_m_l_i_same_mass q om m beta

/-- low_level/oneloop/thermal/zero_momentum.rs l.397-399. -/
noncomputable def i_m_0_t_i {T1 T2 : Type} [Num T1] [NumDom T1] [Num T2] [NumDom T2] (q : PV ℝ) (om : PV T1) (m : PV T2) (beta : PV ℝ) : PV ℂ :=
  i_m_0_l_i q om m beta

/-- low_level/oneloop/thermal/zero_momentum.rs l.402-404. -/
noncomputable def i_0_0_t_i {T : Type} [Num T] [NumDom T] (q : PV ℝ) (om : PV T) (beta : PV ℝ) : PV ℂ :=
  i_0_0_l_i q om beta

/-- low_level/oneloop/thermal/zero_momentum.rs l.407-421. -/
noncomputable def d_i_m_m_i {T1 T2 T3 : Type} [Num T1] [NumDom T1] [Num T2] [NumDom T2] [Num T3] [NumDom T3] (q : PV ℝ) (om : PV T1) (m1 : PV T2) (m2 : PV T3) (beta : PV ℝ) : PV ℂ :=
  let delta : PV ℂ := PV.toC (m2 * m2) - PV.toC (m1 * m1)
  let en1 : PV T2 := energy q m1
  let en2 : PV T3 := energy q m2
  let r01_inv : PV ℂ := (r_0 om en1 delta)⁻¹
  let r01_opp_inv : PV ℂ := (r_0 (-om) en1 delta)⁻¹
  let r02_inv : PV ℂ := (r_0 om en2 (-delta))⁻¹
  let r02_opp_inv : PV ℂ := (r_0 (-om) en2 (-delta))⁻¹
  let b1 : PV T2 := bose_distribution_zero_chempot en1 beta
  let b2 : PV T3 := bose_distribution_zero_chempot en2 beta
  let t10 : PV ℂ := PV.toC (b1 / en1) * (r01_inv + r01_opp_inv)
  let t1 : PV ℂ := PV.toC (b1 / en1) * (r01_inv * r01_inv + r01_opp_inv * r01_opp_inv)
  let t2 : PV ℂ := PV.toC (b2 / en2) * (r02_inv * r02_inv + r02_opp_inv * r02_opp_inv);
  (-t10 + (t1 - t2) * (PV.ofR q : PV ℂ) * (PV.ofR q : PV ℂ) * (PV.ofR 2 : PV ℂ)) / (PV.ofR (8 * (.val PI2)) : PV ℂ)

/-- low_level/oneloop/thermal/zero_momentum.rs l.424-429. -/
noncomputable def d_i_m_m_i_same_mass {T1 T2 : Type} [Num T1] [NumDom T1] [Num T2] [NumDom T2] (q : PV ℝ) (om : PV T1) (m : PV T2) (beta : PV ℝ) : PV ℂ :=
  let en : PV T2 := energy q m
  let r0_inv : PV ℂ := (r_0_same_mass om en)⁻¹
  let r0_opp_inv : PV ℂ := (r_0_same_mass (-om) en)⁻¹
  PV.toC (-bose_distribution_zero_chempot en beta * (en * (PV.ofR 8 : PV T2) * (PV.ofR (.val PI2) : PV T2))⁻¹) * (r0_inv + r0_opp_inv)

/-- low_level/oneloop/thermal/zero_momentum.rs l.432-445. -/
noncomputable def d_i_m_0_i {T1 T2 : Type} [Num T1] [NumDom T1] [Num T2] [NumDom T2] (q : PV ℝ) (om : PV T1) (m : PV T2) (beta : PV ℝ) : PV ℂ :=
  let delta : PV T2 := -m * m
  let en1 : PV T2 := energy q m
  let r01_inv : PV ℂ := (r_0 om en1 delta)⁻¹
  let r01_opp_inv : PV ℂ := (r_0 (-om) en1 delta)⁻¹
  let r02_inv : PV ℂ := (r_0 om q (-delta))⁻¹
  let r02_opp_inv : PV ℂ := (r_0 (-om) q (-delta))⁻¹
  let b1 : PV T2 := bose_distribution_zero_chempot en1 beta
  let b2 : PV ℝ := bose_distribution_zero_chempot q beta
  let t10 : PV ℂ := PV.toC (b1 / en1) * (r01_inv + r01_opp_inv)
  let t1 : PV ℂ := PV.toC (b1 * (PV.ofR q : PV T2) / en1) * (r01_inv * r01_inv + r01_opp_inv * r01_opp_inv)
  let t2 : PV ℂ := (PV.ofR b2 : PV ℂ) * (r02_inv * r02_inv + r02_opp_inv * r02_opp_inv);
  (-t10 + (t1 - t2) * (PV.ofR q : PV ℂ) * (PV.ofR 2 : PV ℂ)) / (PV.ofR (8 * (.val PI2)) : PV ℂ)

/-- low_level/oneloop/thermal/zero_momentum.rs l.448-453. -/
noncomputable def d_i_0_0_i {T : Type} [Num T] [NumDom T] (q : PV ℝ) (om : PV T) (beta : PV ℝ) : PV ℂ :=
  let r0_inv : PV ℂ := (r_0_same_mass om q)⁻¹
  let r0_opp_inv : PV ℂ := (r_0_same_mass (-om) q)⁻¹
  let b1 : PV ℝ := bose_distribution_zero_chempot q beta;
  (PV.ofR (-b1) : PV ℂ) * (r0_inv + r0_opp_inv) / (PV.ofR (q * 8 * (.val PI2)) : PV ℂ)

/-- low_level/oneloop/thermal/zero_momentum.rs l.456-471. -/
noncomputable def d_i_m_m_l_i {T1 T2 T3 : Type} [Num T1] [NumDom T1] [Num T2] [NumDom T2] [Num T3] [NumDom T3] (q : PV ℝ) (om : PV T1) (m1 : PV T2) (m2 : PV T3) (beta : PV ℝ) : PV ℂ :=
  let q2 : PV ℝ := q * q
  let delta : PV ℂ := PV.toC (m2 * m2) - PV.toC (m1 * m1)
  let en1 : PV T2 := energy q m1
  let en2 : PV T3 := energy q m2
  let r01_inv : PV ℂ := (r_0 om en1 delta)⁻¹
  let r01_opp_inv : PV ℂ := (r_0 (-om) en1 delta)⁻¹
  let r02_inv : PV ℂ := (r_0 om en2 (-delta))⁻¹
  let r02_opp_inv : PV ℂ := (r_0 (-om) en2 (-delta))⁻¹
  let b1 : PV T2 := bose_distribution_zero_chempot en1 beta
  let b2 : PV T3 := bose_distribution_zero_chempot en2 beta
  let t10 : PV ℂ := PV.toC (b1 / en1) * (r01_inv + r01_opp_inv)
  let t1 : PV ℂ := PV.toC (b1 / en1) * (r01_inv * r01_inv + r01_opp_inv * r01_opp_inv)
  let t2 : PV ℂ := PV.toC (b2 / en2) * (r02_inv * r02_inv + r02_opp_inv * r02_opp_inv);
  (-t10 + (t1 - t2) * (PV.ofR q2 : PV ℂ) * (PV.ofR 2 : PV ℂ) / (PV.ofR 3 : PV ℂ)) * (PV.ofR q2 : PV ℂ) / (PV.ofR (8 * (.val PI2)) : PV ℂ)

/-- low_level/oneloop/thermal/zero_momentum.rs l.474-483. -/
noncomputable def d_i_m_m_l_i_same_mass {T1 T2 : Type} [Num T1] [NumDom T1] [Num T2] [NumDom T2] (q : PV ℝ) (om : PV T1) (m : PV T2) (beta : PV ℝ) : PV ℂ :=
  let q2 : PV ℝ := q * q
  let en : PV T2 := energy q m
  let r0_inv : PV ℂ := (r_0_same_mass om en)⁻¹
  let r0_opp_inv : PV ℂ := (r_0_same_mass (-om) en)⁻¹
  PV.toC (-bose_distribution_zero_chempot en beta * (en * (PV.ofR 8 : PV T2) * (PV.ofR (.val PI2) : PV T2))⁻¹) * (r0_inv + r0_opp_inv) * (PV.ofR q2 : PV ℂ)

/-- low_level/oneloop/thermal/zero_momentum.rs l.486-500. -/
noncomputable def d_i_m_0_l_i {T1 T2 : Type} [Num T1] [NumDom T1] [Num T2] [NumDom T2] (q : PV ℝ) (om : PV T1) (m : PV T2) (beta : PV ℝ) : PV ℂ :=
  let q2 : PV ℝ := q * q
  let delta : PV T2 := -m * m
  let en : PV T2 := energy q m
  let r01_inv : PV ℂ := (r_0 om en delta)⁻¹
  let r01_opp_inv : PV ℂ := (r_0 (-om) en delta)⁻¹
  let r02_inv : PV ℂ := (r_0 om q (-delta))⁻¹
  let r02_opp_inv : PV ℂ := (r_0 (-om) q (-delta))⁻¹
  let b1 : PV T2 := bose_distribution_zero_chempot en beta
  let b2 : PV ℝ := bose_distribution_zero_chempot q beta
  let t10 : PV ℂ := PV.toC (b1 / en) * (r01_inv + r01_opp_inv)
  let t1 : PV ℂ := PV.toC (b1 * (PV.ofR q : PV T2) / en) * (r01_inv * r01_inv + r01_opp_inv * r01_opp_inv)
  let t2 : PV ℂ := (PV.ofR b2 : PV ℂ) * (r02_inv * r02_inv + r02_opp_inv * r02_opp_inv);
  (-t10 + (t1 - t2) * (PV.ofR q : PV ℂ) * (PV.ofR 2 : PV ℂ) / (PV.ofR 3 : PV ℂ)) * (PV.ofR q2 : PV ℂ) / (PV.ofR (8 * (.val PI2)) : PV ℂ)

/-- low_level/oneloop/thermal/zero_momentum.rs l.503-507. -/
noncomputable def d_i_0_0_l_i {T : Type} [Num T] [NumDom T] (q : PV ℝ) (om : PV T) (beta : PV ℝ) : PV ℂ :=
  let r0_inv : PV ℂ := (r_0_same_mass om q)⁻¹
  let r0_opp_inv : PV ℂ := (r_0_same_mass (-om) q)⁻¹;
  (PV.ofR (-bose_distribution_zero_chempot q beta * (8 * (.val PI2))⁻¹) : PV ℂ) * (r0_inv + r0_opp_inv) * (PV.ofR q : PV ℂ)

/-- low_level/oneloop/thermal/zero_momentum.rs l.510-512. -/
noncomputable def d_i_m_m_t_i {T1 T2 T3 : Type} [Num T1] [NumDom T1] [Num T2] [NumDom T2] [Num T3] [NumDom T3] (q : PV ℝ) (om : PV T1) (m1 : PV T2) (m2 : PV T3) (beta : PV ℝ) : PV ℂ :=
  d_i_m_m_l_i q om m1 m2 beta

/-- low_level/oneloop/thermal/zero_momentum.rs l.515-517. -/
noncomputable def d_i_m_m_t_i_same_mass {T1 T2 : Type} [Num T1] [NumDom T1] [Num T2] [NumDom T2] (q : PV ℝ) (om : PV T1) (m : PV T2) (beta : PV ℝ) : PV ℂ :=
  d_i_m_m_l_i_same_mass q om m beta

/-- low_level/oneloop/thermal/zero_momentum.rs l.520-522. -/
noncomputable def d_i_m_0_t_i {T1 T2 : Type} [Num T1] [NumDom T1] [Num T2] [NumDom T2] (q : PV ℝ) (om : PV T1) (m : PV T2) (beta : PV ℝ) : PV ℂ :=
  d_i_m_0_l_i q om m beta

/-- low_level/oneloop/thermal/zero_momentum.rs l.525-527. -/
noncomputable def d_i_0_0_t_i {T : Type} [Num T] [NumDom T] (q : PV ℝ) (om : PV T) (beta : PV ℝ) : PV ℂ :=
  d_i_0_0_l_i q om beta

end zero_momentum

namespace zero_matsubara

/-- low_level/oneloop/thermal/zero_matsubara.rs l.328-330. -/
noncomputable def r_0 {T : Type} [Num T] [NumDom T] (p : PV ℝ) (delta : PV T) : PV T :=
  delta + (PV.ofR (p * p) : PV T)

/-- low_level/oneloop/thermal/zero_matsubara.rs l.339-344. -/
noncomputable def tlog {T : Type} [Num T] [NumDom T] (q : PV ℝ) (p : PV ℝ) (delta : PV T) : PV ℂ :=
  let r_0 : PV T := r_0 p delta
  let q2p : PV ℝ := q * 2 * p
  let rat : PV T := (r_0 + (PV.ofR q2p : PV T)) / (r_0 - (PV.ofR q2p : PV T))
  PV.ln (PV.toC (rat * rat)) / (PV.ofR 2 : PV ℂ)

/-- low_level/oneloop/thermal/zero_matsubara.rs l.347-350. -/
noncomputable def tlog_same_mass (q : PV ℝ) (p : PV ℝ) : PV ℝ :=
  let rat : PV ℝ := (2 * q + p) / (2 * -q + p)
  PV.ln (rat * rat) / 2

/-- low_level/oneloop/thermal/zero_matsubara.rs l.353-355. -/
noncomputable def tlog_zero_mass (q : PV ℝ) (p : PV ℝ) : PV ℝ :=
  tlog_same_mass q p

/-- low_level/oneloop/thermal/zero_matsubara.rs l.358-362. -/
noncomputable def tlog_t {T : Type} [Num T] [NumDom T] (q : PV ℝ) (p : PV ℝ) (delta : PV T) : PV ℂ :=
  let r0 : PV T := r_0 p delta
  let q2p : PV ℝ := q * 2 * p
  PV.toC ((r0 + (PV.ofR q2p : PV T)) * (r0 - (PV.ofR q2p : PV T))) * tlog q p delta

/-- low_level/oneloop/thermal/zero_matsubara.rs l.365-367. -/
noncomputable def tlog_t_same_mass (q : PV ℝ) (p : PV ℝ) : PV ℝ :=
  p * p * (2 * q + p) * (2 * -q + p) * tlog_same_mass q p

/-- low_level/oneloop/thermal/zero_matsubara.rs l.370-372. -/
noncomputable def tlog_t_zero_mass (q : PV ℝ) (p : PV ℝ) : PV ℝ :=
  tlog_t_same_mass q p

/-- low_level/oneloop/thermal/zero_matsubara.rs l.375-382. -/
noncomputable def i_m_m_i {T1 T2 : Type} [Num T1] [NumDom T1] [Num T2] [NumDom T2] (q : PV ℝ) (p : PV ℝ) (m1 : PV T1) (m2 : PV T2) (beta : PV ℝ) : PV ℂ :=
  let en1 : PV T1 := energy q m1
  let en2 : PV T2 := energy q m2
  let delta : PV ℂ := PV.toC (m2 * m2) - PV.toC (m1 * m1)
  let t1 : PV ℂ := PV.toC (bose_distribution_zero_chempot en1 beta / en1) * tlog q p delta
  let t2 : PV ℂ := PV.toC (bose_distribution_zero_chempot en2 beta / en2) * tlog q p (-delta);
  (t1 + t2) * (PV.ofR q : PV ℂ) / (PV.ofR (p * 8 * (.val PI2)) : PV ℂ)

/-- low_level/oneloop/thermal/zero_matsubara.rs l.385-389. -/
noncomputable def i_m_m_i_same_mass {T : Type} [Num T] [NumDom T] (q : PV ℝ) (p : PV ℝ) (m : PV T) (beta : PV ℝ) : PV T :=
  let en : PV T := energy q m
  let t : PV T := bose_distribution_zero_chempot en beta / en * (PV.ofR (tlog_same_mass q p) : PV T)
  t * (PV.ofR q : PV T) / (PV.ofR (p * 4 * (.val PI2)) : PV T)

/-- low_level/oneloop/thermal/zero_matsubara.rs l.392-398. -/
noncomputable def i_m_0_i {T : Type} [Num T] [NumDom T] (q : PV ℝ) (p : PV ℝ) (m : PV T) (beta : PV ℝ) : PV ℂ :=
  let en : PV T := energy q m
  let delta : PV T := -m * m
  let t1 : PV ℂ := PV.toC (bose_distribution_zero_chempot en beta * (PV.ofR q : PV T) / en) * tlog q p delta
  let t2 : PV ℂ := (PV.ofR (bose_distribution_zero_chempot q beta) : PV ℂ) * tlog q p (-delta);
  (t1 + t2) / (PV.ofR (p * 8 * (.val PI2)) : PV ℂ)

/-- low_level/oneloop/thermal/zero_matsubara.rs l.401-403. -/
noncomputable def i_0_0_i (q : PV ℝ) (p : PV ℝ) (beta : PV ℝ) : PV ℝ :=
  bose_distribution_zero_chempot q beta * tlog_zero_mass q p / (p * 4 * (.val PI2))

/-- low_level/oneloop/thermal/zero_matsubara.rs l.406-413. -/
noncomputable def i_m_m_l_i {T1 T2 : Type} [Num T1] [NumDom T1] [Num T2] [NumDom T2] (q : PV ℝ) (p : PV ℝ) (m1 : PV T1) (m2 : PV T2) (beta : PV ℝ) : PV ℂ :=
  let en1 : PV T1 := energy q m1
  let en2 : PV T2 := energy q m2
  let delta : PV ℂ := PV.toC (m2 * m2) - PV.toC (m1 * m1);
  (PV.ofR (-q) : PV ℂ) * (PV.toC (bose_distribution_zero_chempot en1 beta * en1) * tlog q p delta + PV.toC (bose_distribution_zero_chempot en2 beta * en2) * tlog q p (-delta)) / (PV.ofR (p * 8 * (.val PI2)) : PV ℂ)

/-- low_level/oneloop/thermal/zero_matsubara.rs l.416-419. -/
noncomputable def i_m_m_l_i_same_mass {T : Type} [Num T] [NumDom T] (q : PV ℝ) (p : PV ℝ) (m : PV T) (beta : PV ℝ) : PV T :=
  let en : PV T := energy q m;
  -bose_distribution_zero_chempot en beta * en * (PV.ofR q : PV T) * (PV.ofR (tlog_same_mass q p) : PV T) / (PV.ofR (p * 4 * (.val PI2)) : PV T)

/-- low_level/oneloop/thermal/zero_matsubara.rs l.422-428. -/
noncomputable def i_m_0_l_i {T : Type} [Num T] [NumDom T] (q : PV ℝ) (p : PV ℝ) (m : PV T) (beta : PV ℝ) : PV ℂ :=
  let en : PV T := energy q m
  let delta : PV T := -m * m;
  (PV.ofR (-q) : PV ℂ) * (PV.toC (bose_distribution_zero_chempot en beta * en) * tlog q p delta + PV.toC (bose_distribution_zero_chempot q beta * q) * tlog q p (-delta)) / (PV.ofR (p * 8 * (.val PI2)) : PV ℂ)

/-- low_level/oneloop/thermal/zero_matsubara.rs l.431-433. -/
noncomputable def i_0_0_l_i (q : PV ℝ) (p : PV ℝ) (beta : PV ℝ) : PV ℝ :=
  -bose_distribution_zero_chempot q beta * q * q * tlog_same_mass q p / (p * 4 * (.val PI2))

/-- low_level/oneloop/thermal/zero_matsubara.rs l.436-448. -/
noncomputable def i_m_m_t_i {T1 T2 : Type} [Num T1] [NumDom T1] [Num T2] [NumDom T2] (q : PV ℝ) (p : PV ℝ) (m1 : PV T1) (m2 : PV T2) (beta : PV ℝ) : PV ℂ :=
  let en1 : PV T1 := energy q m1
  let en2 : PV T2 := energy q m2
  let delta : PV ℂ := PV.toC (m2 * m2) - PV.toC (m1 * m1)
  let qp : PV ℝ := q * p
  let p2 : PV ℝ := p * p
  let p3 : PV ℝ := p2 * p
  let t1 : PV ℂ := PV.toC (bose_distribution_zero_chempot en1 beta / en1) * (tlog_t q p delta - (PV.ofR (4 * qp) : PV ℂ) * ((PV.ofR p2 : PV ℂ) + delta))
  let t2 : PV ℂ := PV.toC (bose_distribution_zero_chempot en2 beta / en2) * (tlog_t q p (-delta) - (PV.ofR (4 * qp) : PV ℂ) * ((PV.ofR p2 : PV ℂ) - delta));
  (PV.ofR (-(p3 * 64 * (.val PI2))⁻¹ * q) : PV ℂ) * (t1 + t2)

/-- low_level/oneloop/thermal/zero_matsubara.rs l.451-459. -/
noncomputable def i_m_m_t_i_same_mass {T : Type} [Num T] [NumDom T] (q : PV ℝ) (p : PV ℝ) (m : PV T) (beta : PV ℝ) : PV T :=
  let en : PV T := energy q m
  let qp : PV ℝ := q * p
  let p2 : PV ℝ := p * p
  let p3 : PV ℝ := p2 * p
  let t : PV T := bose_distribution_zero_chempot en beta / en * (PV.ofR (-p2 * 4 * qp + tlog_t_same_mass q p) : PV T);
  -t * (PV.ofR q : PV T) / (PV.ofR (p3 * 32 * (.val PI2)) : PV T)

/-- low_level/oneloop/thermal/zero_matsubara.rs l.462-473. -/
noncomputable def i_m_0_t_i {T : Type} [Num T] [NumDom T] (q : PV ℝ) (p : PV ℝ) (m : PV T) (beta : PV ℝ) : PV ℂ :=
  let en : PV T := energy q m
  let delta : PV ℂ := -PV.toC (m * m)
  let qp : PV ℝ := q * p
  let p2 : PV ℝ := p * p
  let p3 : PV ℝ := p2 * p
  let t1 : PV ℂ := PV.toC (bose_distribution_zero_chempot en beta * (PV.ofR q : PV T) / en) * (tlog_t q p delta - (PV.ofR (4 * qp) : PV ℂ) * ((PV.ofR p2 : PV ℂ) + delta))
  let t2 : PV ℂ := (PV.ofR (bose_distribution_zero_chempot q beta) : PV ℂ) * (tlog_t q p (-delta) - (PV.ofR (4 * qp) : PV ℂ) * ((PV.ofR p2 : PV ℂ) - delta));
  (PV.ofR (-(p3 * 64 * (.val PI2))⁻¹) : PV ℂ) * (t1 + t2)

/-- low_level/oneloop/thermal/zero_matsubara.rs l.476-483. -/
noncomputable def i_0_0_t_i (q : PV ℝ) (p : PV ℝ) (beta : PV ℝ) : PV ℝ :=
  let qp : PV ℝ := q * p
  let p2 : PV ℝ := p * p
  let p3 : PV ℝ := p2 * p
  let t : PV ℝ := bose_distribution_zero_chempot q beta * (-p2 * 4 * qp + tlog_t_zero_mass q p);
  -t / (p3 * 32 * (.val PI2))

/-- low_level/oneloop/thermal/zero_matsubara.rs l.486-503. -/
noncomputable def d_i_m_m_i {T1 T2 : Type} [Num T1] [NumDom T1] [Num T2] [NumDom T2] (q : PV ℝ) (p : PV ℝ) (m1 : PV T1) (m2 : PV T2) (beta : PV ℝ) : PV ℂ :=
  let q2p : PV ℝ := q * p * 2
  let delta : PV ℂ := PV.toC (m2 * m2) - PV.toC (m1 * m1)
  let en1 : PV T1 := energy q m1
  let en2 : PV T2 := energy q m2
  let r01 : PV ℂ := r_0 p delta
  let r02 : PV ℂ := r_0 p (-delta)
  let r1pinv : PV ℂ := (r01 + (PV.ofR q2p : PV ℂ))⁻¹
  let r1minv : PV ℂ := (r01 - (PV.ofR q2p : PV ℂ))⁻¹
  let r2pinv : PV ℂ := (r02 + (PV.ofR q2p : PV ℂ))⁻¹
  let r2minv : PV ℂ := (r02 - (PV.ofR q2p : PV ℂ))⁻¹
  let b1 : PV T1 := bose_distribution_zero_chempot en1 beta
  let b2 : PV T2 := bose_distribution_zero_chempot en2 beta
  let t10 : PV ℂ := PV.toC (b1 / en1) * (r1pinv + r1minv)
  let t1 : PV ℂ := PV.toC (b1 / en1) * (r1pinv - r1minv)
  let t2 : PV ℂ := PV.toC (b2 / en2) * (r2pinv - r2minv);
  (-t10 + (t2 - t1) * (PV.ofR q : PV ℂ) / (PV.ofR p : PV ℂ)) / (PV.ofR (8 * (.val PI2)) : PV ℂ)

/-- low_level/oneloop/thermal/zero_matsubara.rs l.506-511. -/
noncomputable def d_i_m_m_i_same_mass {T : Type} [Num T] [NumDom T] (q : PV ℝ) (p : PV ℝ) (m : PV T) (beta : PV ℝ) : PV T :=
  let en : PV T := energy q m
  let rpinv : PV ℝ := (2 * q + p)⁻¹
  let rminv : PV ℝ := (2 * -q + p)⁻¹;
  -bose_distribution_zero_chempot en beta * (en * (PV.ofR p : PV T) * (PV.ofR 8 : PV T) * (PV.ofR (.val PI2) : PV T))⁻¹ * (PV.ofR (rpinv + rminv) : PV T)

/-- low_level/oneloop/thermal/zero_matsubara.rs l.514-530. -/
noncomputable def d_i_m_0_i {T : Type} [Num T] [NumDom T] (q : PV ℝ) (p : PV ℝ) (m : PV T) (beta : PV ℝ) : PV T :=
  let q2p : PV ℝ := q * p * 2
  let delta : PV T := -m * m
  let en : PV T := energy q m
  let r01 : PV T := r_0 p delta
  let r02 : PV T := r_0 p (-delta)
  let r1pinv : PV T := (r01 + (PV.ofR q2p : PV T))⁻¹
  let r1minv : PV T := (r01 - (PV.ofR q2p : PV T))⁻¹
  let r2pinv : PV T := (r02 + (PV.ofR q2p : PV T))⁻¹
  let r2minv : PV T := (r02 - (PV.ofR q2p : PV T))⁻¹
  let b1 : PV T := bose_distribution_zero_chempot en beta
  let b2 : PV ℝ := bose_distribution_zero_chempot q beta
  let t10 : PV T := b1 / en * (r1pinv + r1minv)
  let t1 : PV T := b1 / en * (r1pinv - r1minv)
  let t2 : PV T := (r2pinv - r2minv) * (PV.ofR b2 : PV T) / (PV.ofR q : PV T);
  (-t10 + (t2 - t1) * (PV.ofR q : PV T) / (PV.ofR p : PV T)) / (PV.ofR (8 * (.val PI2)) : PV T)

/-- low_level/oneloop/thermal/zero_matsubara.rs l.533-537. -/
noncomputable def d_i_0_0_i (q : PV ℝ) (p : PV ℝ) (beta : PV ℝ) : PV ℝ :=
  let rpinv : PV ℝ := (2 * q + p)⁻¹
  let rminv : PV ℝ := (2 * -q + p)⁻¹;
  -bose_distribution_zero_chempot q beta * (q * p * 8 * (.val PI2))⁻¹ * (rpinv + rminv)

/-- low_level/oneloop/thermal/zero_matsubara.rs l.540-558. -/
noncomputable def d_i_m_m_l_i {T1 T2 : Type} [Num T1] [NumDom T1] [Num T2] [NumDom T2] (q : PV ℝ) (p : PV ℝ) (m1 : PV T1) (m2 : PV T2) (beta : PV ℝ) : PV ℂ :=
  let p2q : PV ℝ := 2 * p * q
  let delta : PV ℂ := PV.toC (m2 * m2) - PV.toC (m1 * m1)
  let en1 : PV T1 := energy q m1
  let b1 : PV T1 := bose_distribution_zero_chempot en1 beta
  let b1en1 : PV T1 := b1 * en1
  let r01 : PV ℂ := r_0 p delta
  let r1pinv : PV ℂ := (r01 + (PV.ofR p2q : PV ℂ))⁻¹
  let r1minv : PV ℂ := (r01 - (PV.ofR p2q : PV ℂ))⁻¹
  let en2 : PV T2 := energy q m2
  let b2 : PV T2 := bose_distribution_zero_chempot en2 beta
  let b2en2 : PV T2 := b2 * en2
  let r02 : PV ℂ := r_0 p (-delta)
  let r2pinv : PV ℂ := (r02 + (PV.ofR p2q : PV ℂ))⁻¹
  let r2minv : PV ℂ := (r02 - (PV.ofR p2q : PV ℂ))⁻¹
  let t1 : PV ℂ := PV.toC b1en1 * (r1pinv + r1minv)
  let t5 : PV ℂ := -(PV.toC b2en2 * (r2pinv - r2minv) - PV.toC b1en1 * (r1pinv - r1minv)) * (PV.ofR q : PV ℂ) / (PV.ofR p : PV ℂ);
  (t1 + t5) / (PV.ofR (8 * (.val PI2)) : PV ℂ)

/-- low_level/oneloop/thermal/zero_matsubara.rs l.561-566. -/
noncomputable def d_i_m_m_l_i_same_mass {T : Type} [Num T] [NumDom T] (q : PV ℝ) (p : PV ℝ) (m : PV T) (beta : PV ℝ) : PV T :=
  let en : PV T := energy q m
  let r1pinv : PV ℝ := (2 * q + p)⁻¹
  let r1minv : PV ℝ := (2 * -q + p)⁻¹
  bose_distribution_zero_chempot en beta * en * (PV.ofR (r1pinv + r1minv) : PV T) / (PV.ofR (p * 8 * (.val PI2)) : PV T)

/-- low_level/oneloop/thermal/zero_matsubara.rs l.569-585. -/
noncomputable def d_i_m_0_l_i {T : Type} [Num T] [NumDom T] (q : PV ℝ) (p : PV ℝ) (m : PV T) (beta : PV ℝ) : PV T :=
  let p2q : PV ℝ := 2 * p * q
  let delta : PV T := -m * m
  let en : PV T := energy q m
  let b1 : PV T := bose_distribution_zero_chempot en beta
  let b1en1 : PV T := b1 * en
  let r01 : PV T := r_0 p delta
  let r1pinv : PV T := (r01 + (PV.ofR p2q : PV T))⁻¹
  let r1minv : PV T := (r01 - (PV.ofR p2q : PV T))⁻¹
  let b2 : PV ℝ := bose_distribution_zero_chempot q beta
  let r02 : PV T := r_0 p (-delta)
  let r2pinv : PV T := (r02 + (PV.ofR p2q : PV T))⁻¹
  let r2minv : PV T := (r02 - (PV.ofR p2q : PV T))⁻¹
  let t1 : PV T := b1en1 * (r1pinv + r1minv)
  let t5 : PV T := -((r2pinv - r2minv) * (PV.ofR b2 : PV T) * (PV.ofR q : PV T) - b1en1 * (r1pinv - r1minv)) * (PV.ofR q : PV T) / (PV.ofR p : PV T);
  (t1 + t5) / (PV.ofR (8 * (.val PI2)) : PV T)

/-- low_level/oneloop/thermal/zero_matsubara.rs l.588-592. -/
noncomputable def d_i_0_0_l_i (q : PV ℝ) (p : PV ℝ) (beta : PV ℝ) : PV ℝ :=
  let r1pinv : PV ℝ := (2 * q + p)⁻¹
  let r1minv : PV ℝ := (2 * -q + p)⁻¹
  bose_distribution_zero_chempot q beta * q * (r1pinv + r1minv) / (p * 8 * (.val PI2))

/-- low_level/oneloop/thermal/zero_matsubara.rs l.595-610. -/
noncomputable def d_i_m_m_t_i {T1 T2 : Type} [Num T1] [NumDom T1] [Num T2] [NumDom T2] (q : PV ℝ) (p : PV ℝ) (m1 : PV T1) (m2 : PV T2) (beta : PV ℝ) : PV ℂ :=
  let p2 : PV ℝ := p * p
  let delta : PV ℂ := PV.toC (m2 * m2) - PV.toC (m1 * m1)
  let en1 : PV T1 := energy q m1
  let b1 : PV T1 := bose_distribution_zero_chempot en1 beta
  let tlog1p : PV ℂ := tlog q p delta
  let r01p : PV ℂ := r_0 p delta
  let en2 : PV T2 := energy q m2
  let b2 : PV T2 := bose_distribution_zero_chempot en2 beta
  let tlog2p : PV ℂ := tlog q p (-delta)
  let r02p : PV ℂ := r_0 p (-delta)
  let t1 : PV ℂ := PV.toC (-b1 / en1) * tlog1p / (PV.ofR 2 : PV ℂ)
  let t2 : PV ℂ := (PV.toC (b2 / en2) - PV.toC (b1 / en1)) * (PV.ofR q : PV ℂ) / (PV.ofR p : PV ℂ)
  let t3 : PV ℂ := (PV.toC (b1 / en1) * (r01p * tlog1p) - PV.toC (b2 / en2) * (r02p * tlog2p)) / (PV.ofR (p2 * 4) : PV ℂ);
  (t1 + t2 + t3) * (PV.ofR q : PV ℂ) / (PV.ofR (p * 8 * (.val PI2)) : PV ℂ)

/-- low_level/oneloop/thermal/zero_matsubara.rs l.613-618. -/
noncomputable def d_i_m_m_t_i_same_mass {T : Type} [Num T] [NumDom T] (q : PV ℝ) (p : PV ℝ) (m : PV T) (beta : PV ℝ) : PV T :=
  let en : PV T := energy q m
  let b : PV T := bose_distribution_zero_chempot en beta
  let tlogp : PV ℝ := tlog_same_mass q p;
  -(en * (PV.ofR p : PV T) * (PV.ofR 16 : PV T) * (PV.ofR (.val PI2) : PV T))⁻¹ * b * (PV.ofR tlogp : PV T) * (PV.ofR q : PV T)

/-- low_level/oneloop/thermal/zero_matsubara.rs l.621-635. -/
noncomputable def d_i_m_0_t_i {T : Type} [Num T] [NumDom T] (q : PV ℝ) (p : PV ℝ) (m : PV T) (beta : PV ℝ) : PV ℂ :=
  let p2 : PV ℝ := p * p
  let delta : PV T := -m * m
  let en1 : PV T := energy q m
  let b1 : PV T := bose_distribution_zero_chempot en1 beta
  let tlog1p : PV ℂ := tlog q p delta
  let r01p : PV T := r_0 p delta
  let b2 : PV ℝ := bose_distribution_zero_chempot q beta
  let tlog2p : PV ℂ := tlog q p (-delta)
  let r02p : PV T := r_0 p (-delta)
  let t1 : PV ℂ := PV.toC (-b1 / en1) * tlog1p / (PV.ofR 2 : PV ℂ)
  let t2 : PV ℂ := ((PV.ofR (b2 / q) : PV ℂ) - PV.toC (b1 / en1)) * (PV.ofR q : PV ℂ) / (PV.ofR p : PV ℂ)
  let t3 : PV ℂ := (PV.toC (b1 / en1) * (PV.toC r01p * tlog1p) - (PV.ofR (b2 / q) : PV ℂ) * (PV.toC r02p * tlog2p)) / (PV.ofR (p2 * 4) : PV ℂ);
  (t1 + t2 + t3) * (PV.ofR q : PV ℂ) / (PV.ofR (p * 8 * (.val PI2)) : PV ℂ)

/-- low_level/oneloop/thermal/zero_matsubara.rs l.638-640. -/
noncomputable def d_i_0_0_t_i (q : PV ℝ) (p : PV ℝ) (beta : PV ℝ) : PV ℝ :=
  -bose_distribution_zero_chempot q beta * tlog_same_mass q p / (p * 16 * (.val PI2))

end zero_matsubara

end thermal

namespace ghost.thermal

/-- low_level/oneloop/thermal/ghost.rs l.77-89. -/
noncomputable def self_energy_thermal_part_landau_i {T : Type} [Num T] [NumDom T] (q : PV ℝ) (om : PV T) (p : PV ℝ) (m : PV ℝ) (beta : PV ℝ) : PV ℂ :=
  let s : PV T := om * om + (PV.ofR (p * p) : PV T)
  let m2 : PV ℝ := m * m
  let a : PV T := s + (PV.ofR m2 : PV T)
  let t1 : PV ℂ := PV.toC (-a * s / (PV.ofR (2 * m2) : PV T)) * thermal.i_m_0_i q om p m beta
  let t2 : PV ℂ := PV.toC (s * s / (PV.ofR (2 * m2) : PV T)) * thermal.i_0_0_i q om p beta
  let t3 : PV T := (s * (PV.ofR 2 : PV T) - (PV.ofR m2 : PV T)) / (PV.ofR (4 * m2) : PV T) * (PV.ofR (thermal.j_m_i q m beta - thermal.j_0_i q beta) : PV T)
  let t4 : PV ℂ := PV.toC (a * a / (PV.ofR 4 : PV T)) * thermal.d_i_m_0_i q om p m beta
  let t5 : PV T := -(s - (PV.ofR m2 : PV T)) / (PV.ofR 4 : PV T) * (PV.ofR (thermal.d_j_m_i q m beta) : PV T)
  PV.toC t5 + (PV.toC t3 + t1) + t2 + t4

namespace zero_matsubara

/-- low_level/oneloop/thermal/ghost.rs l.147-159. -/
noncomputable def self_energy_thermal_part_landau_i (q : PV ℝ) (p : PV ℝ) (m : PV ℝ) (beta : PV ℝ) : PV ℂ :=
  let s : PV ℝ := p * p
  let m2 : PV ℝ := m * m
  let a : PV ℝ := s + m2
  let t1 : PV ℂ := (PV.ofR (-a * s / (2 * m2)) : PV ℂ) * thermal.zero_matsubara.i_m_0_i q p m beta
  let t2 : PV ℝ := s * s / (2 * m2) * thermal.zero_matsubara.i_0_0_i q p beta
  let t3 : PV ℝ := (s * 2 + -m2) / (4 * m2) * (thermal.j_m_i q m beta - thermal.j_0_i q beta)
  let t4 : PV ℝ := a * a / 4 * thermal.zero_matsubara.d_i_m_0_i q p m beta
  let t5 : PV ℝ := -(s - m2) / 4 * thermal.d_j_m_i q m beta;
  (PV.ofR t5 : PV ℂ) + ((PV.ofR t3 : PV ℂ) + t1) + (PV.ofR t2 : PV ℂ) + (PV.ofR t4 : PV ℂ)

end zero_matsubara

namespace zero_momentum

/-- low_level/oneloop/thermal/ghost.rs l.215-227. -/
noncomputable def self_energy_thermal_part_landau_i {T : Type} [Num T] [NumDom T] (q : PV ℝ) (om : PV T) (m : PV ℝ) (beta : PV ℝ) : PV ℂ :=
  let s : PV T := om * om
  let m2 : PV ℝ := m * m
  let a : PV T := s + (PV.ofR m2 : PV T)
  let t1 : PV ℂ := PV.toC (-a * s / (PV.ofR (2 * m2) : PV T)) * thermal.zero_momentum.i_m_0_i q om m beta
  let t2 : PV ℂ := PV.toC (s * s / (PV.ofR (2 * m2) : PV T)) * thermal.zero_momentum.i_0_0_i q om beta
  let t3 : PV T := (s * (PV.ofR 2 : PV T) - (PV.ofR m2 : PV T)) / (PV.ofR (4 * m2) : PV T) * (PV.ofR (thermal.j_m_i q m beta - thermal.j_0_i q beta) : PV T)
  let t4 : PV ℂ := PV.toC (a * a / (PV.ofR 4 : PV T)) * thermal.zero_momentum.d_i_m_0_i q om m beta
  let t5 : PV T := -(s - (PV.ofR m2 : PV T)) / (PV.ofR 4 : PV T) * (PV.ofR (thermal.d_j_m_i q m beta) : PV T)
  PV.toC t5 + (PV.toC t3 + t1) + t2 + t4

end zero_momentum

end ghost.thermal

namespace gluon.thermal

/-- low_level/oneloop/thermal/gluon.rs l.388-436. -/
noncomputable def polarization_glue_l_thermal_part_landau_i {T1 T2 : Type} [Num T1] [NumDom T1] [Num T2] [NumDom T2] (q : PV ℝ) (om : PV T1) (p : PV T2) (m : PV ℝ) (beta : PV ℝ) : PV ℂ :=
  let s : PV ℂ := PV.toC (om * om) + PV.toC (p * p)
  let s2 : PV ℂ := s * s
  let s_inv : PV ℂ := s⁻¹
  let m2 : PV ℝ := m * m
  let m4 : PV ℝ := m2 * m2
  let a : PV ℂ := s + (PV.ofR (m2 * 2) : PV ℂ)
  let b : PV ℂ := s + (PV.ofR m2 : PV ℂ)
  let b2 : PV ℂ := b * b
  let j_m_l_p_i : PV ℂ := s_inv * (PV.toC (om * om * (PV.ofR (thermal.j_m_t_i q m beta) : PV T1)) + PV.toC (p * p * (PV.ofR (thermal.j_m_l_i q m beta) : PV T2)))
  let j_0_l_p_i : PV ℂ := s_inv * (PV.toC (om * om * (PV.ofR (thermal.j_0_t_i q beta) : PV T1)) + PV.toC (p * p * (PV.ofR (thermal.j_0_l_i q beta) : PV T2)))
  let d_j_m_l_p_i : PV ℂ := s_inv * (PV.toC (om * om * (PV.ofR (thermal.d_j_m_t_i q m beta) : PV T1)) + PV.toC (p * p * (PV.ofR (thermal.d_j_m_l_i q m beta) : PV T2)))
  let d2_j_m_l_p_i : PV ℂ := s_inv * (PV.toC (om * om * (PV.ofR (thermal.d2_j_m_t_i q m beta) : PV T1)) + PV.toC (p * p * (PV.ofR (thermal.d2_j_m_l_i q m beta) : PV T2)))
  let t1 : PV ℂ := (s2 * (PV.ofR 3 : PV ℂ) / (PV.ofR (m4 * 2) : PV ℂ) - (PV.ofR 1 : PV ℂ)) * thermal.i_0_0_l_i q om p beta
  let t2 : PV ℂ := ((s2 * (PV.ofR 3 : PV ℂ) + s * (PV.ofR m2 : PV ℂ) * (PV.ofR 8 : PV ℂ) + (PV.ofR (4 * m4) : PV ℂ)) / (PV.ofR (2 * m4) : PV ℂ) + (PV.ofR 4 : PV ℂ)) * thermal.i_m_m_l_i_same_mass q om p m beta
  let t3 : PV ℂ := -(s2 * (PV.ofR 3 : PV ℂ) + s * (PV.ofR m2 : PV ℂ) * (PV.ofR 4 : PV ℂ) + (PV.ofR m4 : PV ℂ)) / (PV.ofR m4 : PV ℂ) * thermal.i_m_0_l_i q om p m beta
  let t4 : PV ℂ := a * s * (PV.ofR 2 : PV ℂ) / (PV.ofR m2 : PV ℂ) * thermal.i_m_m_i_same_mass q om p m beta
  let t5 : PV ℂ := -b * s * (PV.ofR 2 : PV ℂ) / (PV.ofR m2 : PV ℂ) * thermal.i_m_0_i q om p m beta
  let t6 : PV ℂ := -(s * (PV.ofR 2 : PV ℂ) + (PV.ofR (m2 * 3) : PV ℂ)) / (PV.ofR m2 : PV ℂ) * (PV.ofR (thermal.j_m_i q m beta) : PV ℂ)
  let t7 : PV ℂ := (s * (PV.ofR 2 : PV ℂ) + (PV.ofR m2 : PV ℂ)) / (PV.ofR m2 : PV ℂ) * (PV.ofR (thermal.j_0_i q beta) : PV ℂ)
  let t8 : PV ℂ := -(a * a / (PV.ofR m2 : PV ℂ) + (PV.ofR (m2 * 8) : PV ℂ)) * thermal.d_i_m_m_l_i_same_mass q om p m beta
  let t9 : PV ℂ := b2 / (PV.ofR m2 : PV ℂ) * thermal.d_i_m_0_l_i q om p m beta
  let t10 : PV ℂ := -s * (PV.ofR 2 : PV ℂ) * (s + (PV.ofR (m2 * 4) : PV ℂ)) * thermal.d_i_m_m_i_same_mass q om p m beta
  let t11 : PV ℂ := b2 * thermal.d_i_m_0_i q om p m beta
  let t12 : PV ℂ := (s + (PV.ofR (m2 * 3) : PV ℂ)) * (PV.ofR (thermal.d_j_m_i q m beta) : PV ℂ)
  let t13 : PV ℝ := -m4 * thermal.d2_j_m_i q m beta
  let t14 : PV ℂ := (j_m_l_p_i - j_0_l_p_i) / (PV.ofR m2 : PV ℂ)
  let t15 : PV ℂ := -d_j_m_l_p_i + d2_j_m_l_p_i * (PV.ofR m2 : PV ℂ) / (PV.ofR 2 : PV ℂ)
  t14 + t15 + (PV.ofR t13 : PV ℂ) + t12 + (t7 + (t6 + t1)) + t2 + t3 + t4 + t5 + t8 + t9 + t10 + t11

/-- low_level/oneloop/thermal/gluon.rs l.439-473. -/
noncomputable def polarization_glue_t_thermal_part_landau_i {T : Type} [Num T] [NumDom T] (q : PV ℝ) (om : PV T) (p : PV ℝ) (m : PV ℝ) (beta : PV ℝ) : PV ℂ :=
  let s : PV T := om * om + (PV.ofR (p * p) : PV T)
  let s2 : PV T := s * s
  let m2 : PV ℝ := m * m
  let m4 : PV ℝ := m2 * m2
  let a : PV T := s + (PV.ofR (m2 * 2) : PV T)
  let b : PV T := s + (PV.ofR m2 : PV T)
  let b2 : PV T := b * b
  let t1 : PV ℂ := PV.toC (s2 * (PV.ofR 3 : PV T) / (PV.ofR (m4 * 2) : PV T) - (PV.ofR 1 : PV T)) * thermal.i_0_0_t_i q om p beta
  let t2 : PV ℂ := PV.toC ((s2 * (PV.ofR 3 : PV T) + s * (PV.ofR m2 : PV T) * (PV.ofR 8 : PV T) + (PV.ofR (4 * m4) : PV T)) / (PV.ofR (2 * m4) : PV T) + (PV.ofR 4 : PV T)) * thermal.i_m_m_t_i_same_mass q om p m beta
  let t3 : PV ℂ := PV.toC (-(s2 * (PV.ofR 3 : PV T) + s * (PV.ofR m2 : PV T) * (PV.ofR 4 : PV T) + (PV.ofR m4 : PV T)) / (PV.ofR m4 : PV T)) * thermal.i_m_0_t_i q om p m beta
  let t4 : PV ℂ := PV.toC (a * s * (PV.ofR 2 : PV T) / (PV.ofR m2 : PV T)) * thermal.i_m_m_i_same_mass q om p m beta
  let t5 : PV ℂ := PV.toC (-b * s * (PV.ofR 2 : PV T) / (PV.ofR m2 : PV T)) * thermal.i_m_0_i q om p m beta
  let t6 : PV T := -(s * (PV.ofR 2 : PV T) + (PV.ofR (m2 * 3) : PV T)) / (PV.ofR m2 : PV T) * (PV.ofR (thermal.j_m_i q m beta) : PV T)
  let t7 : PV T := (s * (PV.ofR 2 : PV T) + (PV.ofR m2 : PV T)) / (PV.ofR m2 : PV T) * (PV.ofR (thermal.j_0_i q beta) : PV T)
  let t8 : PV ℂ := PV.toC (-(a * a / (PV.ofR m2 : PV T) + (PV.ofR (m2 * 8) : PV T))) * thermal.d_i_m_m_t_i_same_mass q om p m beta
  let t9 : PV ℂ := PV.toC (b2 / (PV.ofR m2 : PV T)) * thermal.d_i_m_0_t_i q om p m beta
  let t10 : PV ℂ := PV.toC (-s * (PV.ofR 2 : PV T) * (s + (PV.ofR (m2 * 4) : PV T))) * thermal.d_i_m_m_i_same_mass q om p m beta
  let t11 : PV ℂ := PV.toC b2 * thermal.d_i_m_0_i q om p m beta
  let t12 : PV T := (s + (PV.ofR (m2 * 3) : PV T)) * (PV.ofR (thermal.d_j_m_i q m beta) : PV T)
  let t13 : PV ℝ := -m4 * thermal.d2_j_m_i q m beta
  let t14 : PV ℝ := (thermal.j_m_t_i q m beta - thermal.j_0_t_i q beta) / m2
  let t15 : PV ℝ := -thermal.d_j_m_t_i q m beta + thermal.d2_j_m_t_i q m beta * m2 / 2
  PV.toC t12 + (PV.toC t7 + (PV.toC t6 + t1)) + t2 + t3 + t4 + t5 + t8 + t9 + t10 + t11 + (PV.ofR t14 : PV ℂ) + (PV.ofR t15 : PV ℂ) + (PV.ofR t13 : PV ℂ)

/-- low_level/oneloop/thermal/gluon.rs l.476-497. -/
noncomputable def polarization_quark_l_thermal_part_landau_i {T1 T2 : Type} [Num T1] [NumDom T1] [Num T2] [NumDom T2] (k : Consts ℝ) (q : PV ℝ) (om : PV T1) (p : PV T2) (mq : PV ℝ) (beta : PV ℝ) (mu : PV ℝ) : PV ℂ :=
  let p2 : PV T2 := p * p
  let s : PV ℂ := PV.toC (om * om) + PV.toC p2
  let en : PV ℝ := energy q mq
  let tl : PV ℂ := thermal.tlog_same_mass q om p en
  let tl_opp : PV ℂ := thermal.tlog_same_mass q (-om) p en
  let t1 : PV ℂ := (s - (PV.ofR (en * en * 4) : PV ℂ) + PV.toC (om * (PV.ofR 4 : PV T1)) * PV.I * (PV.ofR en : PV ℂ)) * tl
  let t1_opp : PV ℂ := (s - (PV.ofR (en * en * 4) : PV ℂ) - PV.toC (om * (PV.ofR 4 : PV T1)) * PV.I * (PV.ofR en : PV ℂ)) * tl_opp
  PV.toC (-(p2 * (PV.ofR en : PV T2) * (PV.ofR (.val (k.nc : ℝ)) : PV T2) * (PV.ofR 2 : PV T2) * (PV.ofR (.val PI2) : PV T2))⁻¹ * (PV.ofR (fermi_distribution_double en beta mu) : PV T2)) * s * (PV.ofR q : PV ℂ) * (PV.ofR q : PV ℂ) * ((PV.ofR 1 : PV ℂ) - PV.toC (p * (PV.ofR q : PV T2) * (PV.ofR 8 : PV T2))⁻¹ * (t1 + t1_opp))

/-- low_level/oneloop/thermal/gluon.rs l.500-522. -/
noncomputable def polarization_quark_t_thermal_part_landau_i {T : Type} [Num T] [NumDom T] (k : Consts ℝ) (q : PV ℝ) (om : PV T) (p : PV ℝ) (mq : PV ℝ) (beta : PV ℝ) (mu : PV ℝ) : PV ℂ :=
  let p2 : PV ℝ := p * p
  let om2 : PV T := om * om
  let s : PV T := om2 + (PV.ofR p2 : PV T)
  let q2 : PV ℝ := q * q
  let en : PV ℝ := energy q mq
  let a : PV T := -om2 + (PV.ofR p2 : PV T)
  let b : PV T := a * s + (PV.ofR (4 * q2 * p2) : PV T) + om2 * (PV.ofR 4 : PV T) * (PV.ofR en : PV T) * (PV.ofR en : PV T)
  let c : PV ℂ := PV.toC (om * s * (PV.ofR 4 : PV T)) * PV.I * (PV.ofR en : PV ℂ)
  let tl : PV ℂ := thermal.tlog_same_mass q om p en
  let tl_opp : PV ℂ := thermal.tlog_same_mass q (-om) p en
  let t1 : PV ℂ := (PV.toC b - c) * tl
  let t1_opp : PV ℂ := (PV.toC b + c) * tl_opp;
  (PV.ofR (-fermi_distribution_double en beta mu * q2 / (p2 * en * (.val (k.nc : ℝ)) * 4 * (.val PI2))) : PV ℂ) * (PV.toC a - (t1 + t1_opp) / (PV.ofR (8 * q * p) : PV ℂ))

/-- low_level/oneloop/thermal/gluon.rs l.525-545. -/
noncomputable def polarization_quark_l_thermal_part_zero_temp_landau_i {T1 T2 : Type} [Num T1] [NumDom T1] [Num T2] [NumDom T2] (k : Consts ℝ) (q : PV ℝ) (om : PV T1) (p : PV T2) (mq : PV ℝ) (mu : PV ℝ) : PV ℂ :=
  let p2 : PV T2 := p * p
  let s : PV ℂ := PV.toC (om * om) + PV.toC p2
  let en : PV ℝ := energy q mq
  let tl : PV ℂ := thermal.tlog_same_mass q om p en
  let tl_opp : PV ℂ := thermal.tlog_same_mass q (-om) p en
  let t1 : PV ℂ := (s - (PV.ofR (en * en * 4) : PV ℂ) + PV.toC (om * (PV.ofR 4 : PV T1)) * PV.I * (PV.ofR en : PV ℂ)) * tl
  let t1_opp : PV ℂ := (s - (PV.ofR (en * en * 4) : PV ℂ) - PV.toC (om * (PV.ofR 4 : PV T1)) * PV.I * (PV.ofR en : PV ℂ)) * tl_opp
  PV.toC (-(p2 * (PV.ofR en : PV T2) * (PV.ofR (.val (k.nc : ℝ)) : PV T2) * (PV.ofR 2 : PV T2) * (PV.ofR (.val PI2) : PV T2))⁻¹ * (PV.ofR (fermi_distribution_double_zero_temp en mu) : PV T2)) * s * (PV.ofR q : PV ℂ) * (PV.ofR q : PV ℂ) * ((PV.ofR 1 : PV ℂ) - PV.toC (p * (PV.ofR q : PV T2) * (PV.ofR 8 : PV T2))⁻¹ * (t1 + t1_opp))

/-- low_level/oneloop/thermal/gluon.rs l.548-569. -/
noncomputable def polarization_quark_t_thermal_part_zero_temp_landau_i {T : Type} [Num T] [NumDom T] (k : Consts ℝ) (q : PV ℝ) (om : PV T) (p : PV ℝ) (mq : PV ℝ) (mu : PV ℝ) : PV ℂ :=
  let p2 : PV ℝ := p * p
  let om2 : PV T := om * om
  let s : PV T := om2 + (PV.ofR p2 : PV T)
  let q2 : PV ℝ := q * q
  let en : PV ℝ := energy q mq
  let a : PV T := -om2 + (PV.ofR p2 : PV T)
  let b : PV T := a * s + (PV.ofR (4 * q2 * p2) : PV T) + om2 * (PV.ofR 4 : PV T) * (PV.ofR en : PV T) * (PV.ofR en : PV T)
  let c : PV ℂ := PV.toC (om * s * (PV.ofR 4 : PV T)) * PV.I * (PV.ofR en : PV ℂ)
  let tl : PV ℂ := thermal.tlog_same_mass q om p en
  let tl_opp : PV ℂ := thermal.tlog_same_mass q (-om) p en
  let t1 : PV ℂ := (PV.toC b - c) * tl
  let t1_opp : PV ℂ := (PV.toC b + c) * tl_opp;
  (PV.ofR (-fermi_distribution_double_zero_temp en mu * q2 / (p2 * en * (.val (k.nc : ℝ)) * 4 * (.val PI2))) : PV ℂ) * (PV.toC a - (t1 + t1_opp) / (PV.ofR (8 * q * p) : PV ℂ))

namespace zero_matsubara

/-- low_level/oneloop/thermal/gluon.rs l.917-949. -/
noncomputable def polarization_glue_l_thermal_part_landau_i (q : PV ℝ) (p : PV ℝ) (m : PV ℝ) (beta : PV ℝ) : PV ℂ :=
  let s : PV ℝ := p * p
  let s2 : PV ℝ := s * s
  let m2 : PV ℝ := m * m
  let m4 : PV ℝ := m2 * m2
  let a : PV ℝ := m2 * 2 + s
  let b : PV ℝ := s + m2
  let j_m_l_p_i : PV ℝ := thermal.j_m_l_i q m beta
  let j_0_l_p_i : PV ℝ := thermal.j_0_l_i q beta
  let d_j_m_l_p_i : PV ℝ := thermal.d_j_m_l_i q m beta
  let d2_j_m_l_p_i : PV ℝ := thermal.d2_j_m_l_i q m beta
  let t1 : PV ℝ := (s2 * 3 / (m4 * 2) - 1) * thermal.zero_matsubara.i_0_0_l_i q p beta
  let t2 : PV ℝ := ((4 * m4 + (s2 * 3 + s * m2 * 8)) / (2 * m4) + 4) * thermal.zero_matsubara.i_m_m_l_i_same_mass q p m beta
  let t3 : PV ℂ := (PV.ofR (-(s2 * 3 + s * m2 * 4 + m4) / m4) : PV ℂ) * thermal.zero_matsubara.i_m_0_l_i q p m beta
  let t4 : PV ℝ := a * s * 2 / m2 * thermal.zero_matsubara.i_m_m_i_same_mass q p m beta
  let t5 : PV ℂ := (PV.ofR (-b * s * 2 / m2) : PV ℂ) * thermal.zero_matsubara.i_m_0_i q p m beta
  let t6 : PV ℝ := -(s * 2 + m2 * 3) / m2 * thermal.j_m_i q m beta
  let t7 : PV ℝ := (s * 2 + m2) / m2 * thermal.j_0_i q beta
  let t8 : PV ℝ := -(m2 * 8 + a * a / m2) * thermal.zero_matsubara.d_i_m_m_l_i_same_mass q p m beta
  let t9 : PV ℝ := b * b / m2 * thermal.zero_matsubara.d_i_m_0_l_i q p m beta
  let t10 : PV ℝ := -s * 2 * (m2 * 4 + s) * thermal.zero_matsubara.d_i_m_m_i_same_mass q p m beta
  let t11 : PV ℝ := b * b * thermal.zero_matsubara.d_i_m_0_i q p m beta
  let t12 : PV ℝ := (m2 * 3 + s) * thermal.d_j_m_i q m beta
  let t13 : PV ℝ := -m4 * thermal.d2_j_m_i q m beta
  let t14 : PV ℝ := (j_m_l_p_i - j_0_l_p_i) / m2
  let t15 : PV ℝ := -d_j_m_l_p_i + d2_j_m_l_p_i * m2 / 2;
  (PV.ofR (t14 + t15 + t13 + t12 + (t7 + (t6 + t1)) + t2) : PV ℂ) + t3 + (PV.ofR t4 : PV ℂ) + t5 + (PV.ofR t8 : PV ℂ) + (PV.ofR t9 : PV ℂ) + (PV.ofR t10 : PV ℂ) + (PV.ofR t11 : PV ℂ)

/-- low_level/oneloop/thermal/gluon.rs l.952-979. -/
noncomputable def polarization_glue_t_thermal_part_landau_i (q : PV ℝ) (p : PV ℝ) (m : PV ℝ) (beta : PV ℝ) : PV ℂ :=
  let s : PV ℝ := p * p
  let s2 : PV ℝ := s * s
  let m2 : PV ℝ := m * m
  let m4 : PV ℝ := m2 * m2
  let a : PV ℝ := m2 * 2 + s
  let b : PV ℝ := s + m2
  let t1 : PV ℝ := (s2 * 3 / (m4 * 2) - 1) * thermal.zero_matsubara.i_0_0_t_i q p beta
  let t2 : PV ℝ := ((4 * m4 + (s2 * 3 + s * m2 * 8)) / (2 * m4) + 4) * thermal.zero_matsubara.i_m_m_t_i_same_mass q p m beta
  let t3 : PV ℂ := (PV.ofR (-(s2 * 3 + s * m2 * 4 + m4) / m4) : PV ℂ) * thermal.zero_matsubara.i_m_0_t_i q p m beta
  let t4 : PV ℝ := a * s * 2 / m2 * thermal.zero_matsubara.i_m_m_i_same_mass q p m beta
  let t5 : PV ℂ := (PV.ofR (-b * s * 2 / m2) : PV ℂ) * thermal.zero_matsubara.i_m_0_i q p m beta
  let t6 : PV ℝ := -(s * 2 + m2 * 3) / m2 * thermal.j_m_i q m beta
  let t7 : PV ℝ := (s * 2 + m2) / m2 * thermal.j_0_i q beta
  let t8 : PV ℝ := -(m2 * 8 + a * a / m2) * thermal.zero_matsubara.d_i_m_m_t_i_same_mass q p m beta
  let t9 : PV ℂ := (PV.ofR (b * b / m2) : PV ℂ) * thermal.zero_matsubara.d_i_m_0_t_i q p m beta
  let t10 : PV ℝ := -s * 2 * (m2 * 4 + s) * thermal.zero_matsubara.d_i_m_m_i_same_mass q p m beta
  let t11 : PV ℝ := b * b * thermal.zero_matsubara.d_i_m_0_i q p m beta
  let t12 : PV ℝ := (m2 * 3 + s) * thermal.d_j_m_i q m beta
  let t13 : PV ℝ := -m4 * thermal.d2_j_m_i q m beta
  let t14 : PV ℝ := (thermal.j_m_t_i q m beta - thermal.j_0_t_i q beta) / m2
  let t15 : PV ℝ := -thermal.d_j_m_t_i q m beta + thermal.d2_j_m_t_i q m beta * m2 / 2;
  (PV.ofR (t12 + (t7 + (t6 + t1)) + t2) : PV ℂ) + t3 + (PV.ofR t4 : PV ℂ) + t5 + (PV.ofR t8 : PV ℂ) + t9 + (PV.ofR t10 : PV ℂ) + (PV.ofR t11 : PV ℂ) + (PV.ofR t14 : PV ℂ) + (PV.ofR t15 : PV ℂ) + (PV.ofR t13 : PV ℂ)

/-- low_level/oneloop/thermal/gluon.rs l.982-988. -/
noncomputable def polarization_quark_l_thermal_part_landau_i (k : Consts ℝ) (q : PV ℝ) (p : PV ℝ) (mq : PV ℝ) (beta : PV ℝ) (mu : PV ℝ) : PV ℝ :=
  let s : PV ℝ := p * p
  let en : PV ℝ := energy q mq
  let t1 : PV ℝ := (en * en * -4 + s) / (4 * q * p) * thermal.zero_matsubara.tlog_same_mass q p;
  -fermi_distribution_double en beta mu * q * q / (en * (.val (k.nc : ℝ)) * 2 * (.val PI2)) * (1 - t1)

/-- low_level/oneloop/thermal/gluon.rs l.991-998. -/
noncomputable def polarization_quark_t_thermal_part_landau_i (k : Consts ℝ) (q : PV ℝ) (p : PV ℝ) (mq : PV ℝ) (beta : PV ℝ) (mu : PV ℝ) : PV ℝ :=
  let p2 : PV ℝ := p * p
  let q2 : PV ℝ := q * q
  let en : PV ℝ := energy q mq
  let t1 : PV ℝ := (4 * q2 + p2) * thermal.zero_matsubara.tlog_same_mass q p;
  -fermi_distribution_double en beta mu * q2 / (en * (.val (k.nc : ℝ)) * 4 * (.val PI2)) * (1 - t1 / (4 * q * p))

/-- low_level/oneloop/thermal/gluon.rs l.1001-1007. -/
noncomputable def polarization_quark_l_thermal_part_zero_temp_landau_i (k : Consts ℝ) (q : PV ℝ) (p : PV ℝ) (mq : PV ℝ) (mu : PV ℝ) : PV ℝ :=
  let s : PV ℝ := p * p
  let en : PV ℝ := energy q mq
  let t1 : PV ℝ := (en * en * -4 + s) / (4 * q * p) * thermal.zero_matsubara.tlog_same_mass q p;
  -fermi_distribution_double_zero_temp en mu * q * q / (en * (.val (k.nc : ℝ)) * 2 * (.val PI2)) * (1 - t1)

/-- low_level/oneloop/thermal/gluon.rs l.1010-1017. -/
noncomputable def polarization_quark_t_thermal_part_zero_temp_landau_i (k : Consts ℝ) (q : PV ℝ) (p : PV ℝ) (mq : PV ℝ) (mu : PV ℝ) : PV ℝ :=
  let p2 : PV ℝ := p * p
  let q2 : PV ℝ := q * q
  let en : PV ℝ := energy q mq
  let t1 : PV ℝ := (4 * q2 + p2) * thermal.zero_matsubara.tlog_same_mass q p;
  -fermi_distribution_double_zero_temp en mu * q2 / (en * (.val (k.nc : ℝ)) * 4 * (.val PI2)) * (1 - t1 / (4 * q * p))

end zero_matsubara

namespace zero_momentum

/-- low_level/oneloop/thermal/gluon.rs l.1343-1375. -/
noncomputable def polarization_glue_l_thermal_part_landau_i {T : Type} [Num T] [NumDom T] (q : PV ℝ) (om : PV T) (m : PV ℝ) (beta : PV ℝ) : PV ℂ :=
  let s : PV T := om * om
  let s2 : PV T := s * s
  let m2 : PV ℝ := m * m
  let m4 : PV ℝ := m2 * m2
  let a : PV T := s + (PV.ofR (m2 * 2) : PV T)
  let b : PV T := s + (PV.ofR m2 : PV T)
  let j_m_l_p_i : PV ℝ := thermal.j_m_t_i q m beta
  let j_0_l_p_i : PV ℝ := thermal.j_0_t_i q beta
  let d_j_m_l_p_i : PV ℝ := thermal.d_j_m_t_i q m beta
  let d2_j_m_l_p_i : PV ℝ := thermal.d2_j_m_t_i q m beta
  let t1 : PV ℂ := PV.toC (s2 * (PV.ofR 3 : PV T) / (PV.ofR (m4 * 2) : PV T) - (PV.ofR 1 : PV T)) * thermal.zero_momentum.i_0_0_l_i q om beta
  let t2 : PV ℂ := PV.toC ((s2 * (PV.ofR 3 : PV T) + s * (PV.ofR m2 : PV T) * (PV.ofR 8 : PV T) + (PV.ofR (4 * m4) : PV T)) / (PV.ofR (2 * m4) : PV T) + (PV.ofR 4 : PV T)) * thermal.zero_momentum.i_m_m_l_i_same_mass q om m beta
  let t3 : PV ℂ := PV.toC (-(s2 * (PV.ofR 3 : PV T) + s * (PV.ofR m2 : PV T) * (PV.ofR 4 : PV T) + (PV.ofR m4 : PV T)) / (PV.ofR m4 : PV T)) * thermal.zero_momentum.i_m_0_l_i q om m beta
  let t4 : PV ℂ := PV.toC (a * s * (PV.ofR 2 : PV T) / (PV.ofR m2 : PV T)) * thermal.zero_momentum.i_m_m_i_same_mass q om m beta
  let t5 : PV ℂ := PV.toC (-b * s * (PV.ofR 2 : PV T) / (PV.ofR m2 : PV T)) * thermal.zero_momentum.i_m_0_i q om m beta
  let t6 : PV T := -(s * (PV.ofR 2 : PV T) + (PV.ofR (m2 * 3) : PV T)) / (PV.ofR m2 : PV T) * (PV.ofR (thermal.j_m_i q m beta) : PV T)
  let t7 : PV T := (s * (PV.ofR 2 : PV T) + (PV.ofR m2 : PV T)) / (PV.ofR m2 : PV T) * (PV.ofR (thermal.j_0_i q beta) : PV T)
  let t8 : PV ℂ := PV.toC (-(a * a / (PV.ofR m2 : PV T) + (PV.ofR (m2 * 8) : PV T))) * thermal.zero_momentum.d_i_m_m_l_i_same_mass q om m beta
  let t9 : PV ℂ := PV.toC (b * b / (PV.ofR m2 : PV T)) * thermal.zero_momentum.d_i_m_0_l_i q om m beta
  let t10 : PV ℂ := PV.toC (-s * (PV.ofR 2 : PV T) * (s + (PV.ofR (m2 * 4) : PV T))) * thermal.zero_momentum.d_i_m_m_i_same_mass q om m beta
  let t11 : PV ℂ := PV.toC (b * b) * thermal.zero_momentum.d_i_m_0_i q om m beta
  let t12 : PV T := (s + (PV.ofR (m2 * 3) : PV T)) * (PV.ofR (thermal.d_j_m_i q m beta) : PV T)
  let t13 : PV ℝ := -m4 * thermal.d2_j_m_i q m beta
  let t14 : PV ℝ := (j_m_l_p_i - j_0_l_p_i) / m2
  let t15 : PV ℝ := -d_j_m_l_p_i + d2_j_m_l_p_i * m2 / 2
  PV.toC (t12 + (PV.ofR (t14 + t15 + t13) : PV T)) + (PV.toC t7 + (PV.toC t6 + t1)) + t2 + t3 + t4 + t5 + t8 + t9 + t10 + t11

/-- low_level/oneloop/thermal/gluon.rs l.1378-1380. -/
noncomputable def polarization_glue_t_thermal_part_landau_i {T : Type} [Num T] [NumDom T] (q : PV ℝ) (om : PV T) (m : PV ℝ) (beta : PV ℝ) : PV ℂ :=
  polarization_glue_l_thermal_part_landau_i q om m beta

/-- low_level/oneloop/thermal/gluon.rs l.1383-1399. -/
noncomputable def polarization_quark_l_thermal_part_landau_i {T : Type} [Num T] [NumDom T] (k : Consts ℝ) (q : PV ℝ) (om : PV T) (mq : PV ℝ) (beta : PV ℝ) (mu : PV ℝ) : PV T :=
  let en : PV ℝ := energy q mq
  let en2 : PV ℝ := en * en
  let q2 : PV ℝ := q * q;
  ((om * om + (PV.ofR (4 * en2) : PV T)) * (PV.ofR en : PV T) * (PV.ofR 3 : PV T) * (PV.ofR (.val PI2) : PV T) * (PV.ofR (.val (k.nc : ℝ)) : PV T))⁻¹ * (PV.ofR 2 : PV T) * (PV.ofR (fermi_distribution_double en beta mu) : PV T) * (PV.ofR q2 : PV T) * (PV.ofR (3 * -en2 + q2) : PV T)

/-- low_level/oneloop/thermal/gluon.rs l.1402-1410. -/
noncomputable def polarization_quark_t_thermal_part_landau_i {T : Type} [Num T] [NumDom T] (k : Consts ℝ) (q : PV ℝ) (om : PV T) (mq : PV ℝ) (beta : PV ℝ) (mu : PV ℝ) : PV T :=
  polarization_quark_l_thermal_part_landau_i k q om mq beta mu

/-- low_level/oneloop/thermal/gluon.rs l.1413-1428. -/
noncomputable def polarization_quark_l_thermal_part_zero_temp_landau_i {T : Type} [Num T] [NumDom T] (k : Consts ℝ) (q : PV ℝ) (om : PV T) (mq : PV ℝ) (mu : PV ℝ) : PV T :=
  let en : PV ℝ := energy q mq
  let en2 : PV ℝ := en * en
  let q2 : PV ℝ := q * q;
  ((om * om + (PV.ofR (4 * en2) : PV T)) * (PV.ofR en : PV T) * (PV.ofR 3 : PV T) * (PV.ofR (.val PI2) : PV T) * (PV.ofR (.val (k.nc : ℝ)) : PV T))⁻¹ * (PV.ofR 2 : PV T) * (PV.ofR (fermi_distribution_double_zero_temp en mu) : PV T) * (PV.ofR q2 : PV T) * (PV.ofR (3 * -en2 + q2) : PV T)

/-- low_level/oneloop/thermal/gluon.rs l.1431-1438. -/
noncomputable def polarization_quark_t_thermal_part_zero_temp_landau_i {T : Type} [Num T] [NumDom T] (k : Consts ℝ) (q : PV ℝ) (om : PV T) (mq : PV ℝ) (mu : PV ℝ) : PV T :=
  polarization_quark_l_thermal_part_zero_temp_landau_i k q om mq mu

end zero_momentum

end gluon.thermal

end Qcd.P
