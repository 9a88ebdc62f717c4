import Verif.Model.Num

/-! # The reference formulas of `tests/numerics.py`

The values the unit tests of the library compare with were computed by this Python program. It
is written independently of the library: other variables, other groupings, no special versions
for equal or vanishing masses. The model follows it function by function.

Simplifications: every Python number that can be complex is read as an element of `ℂ` (`numpy`
returns a real number for real arguments, with the same value), `q`, `beta` and `mu` as
elements of `ℝ`, with exact arithmetic; `np.sqrt` and `np.log` are the principal branches. The
small number `1E-16` which the program adds to the frequency in two functions (l.156, l.272), to
avoid a division by zero, is the argument `eps` of these two functions and of the function that
calls them. -/

namespace Qcd
namespace numerics
open Complex (log exp)

/-- numpy `np.pi` (tests/numerics.py l.3). -/
noncomputable abbrev pi : ℂ := (Real.pi : ℂ)

/-- tests/numerics.py l.6. -/
def nq : ℂ := 1

/-- tests/numerics.py l.7. -/
def nc : ℂ := 3

/-- tests/numerics.py l.10-18. -/
noncomputable def f (s : ℂ) : ℂ :=
  let la := (3*s^3-34*s^2-28*s-24)/s*csqrt ((s+4)/s) *
    log ((csqrt (s+4)-csqrt s)/(csqrt (s+4)+csqrt s))
  let lb := 2*(1+s)^2/s^3*(3*s^3-20*s^2+11*s-2)*log (1+s)
  let lc := (2-3*s^2)*log s
  let ra := -(4+s)/s*(s^2-20*s+12)
  let rb := 2*(1+s)^2/s^2*(s^2-10*s+1)
  let rc := 2/s^2+2-s^2
  (la+lb+lc+ra+rb+rc)/72 + 5/(8*s)

/-- tests/numerics.py l.21-22. -/
noncomputable def f_xi (s : ℂ) : ℂ :=
  1/(4*s)-(2*s*log s-2*(1-s)*(1-s^3)/s^3*log (1+s)+(3*s^2-3*s+2)/s^2)/12

/-- tests/numerics.py l.25-26. -/
noncomputable def f_q (s : ℂ) : ℂ :=
  4/9*((s-2)/(2*s)*csqrt ((4+s)/s)*log ((csqrt (s+4)-csqrt s)/(csqrt (s+4)+csqrt s))-2/s+5/6)

/-- tests/numerics.py l.29-30. -/
noncomputable def f_q_crossed (s : ℂ) : ℂ :=
  4/9*((s^2+2*s+16)/(2*s*(4+s))*csqrt ((4+s)/s)*
    log ((csqrt (s+4)-csqrt s)/(csqrt (s+4)+csqrt s))+4/s-1/6)

/-- tests/numerics.py l.33-34. -/
noncomputable def g (s : ℂ) : ℂ :=
  (1+s)^2*(2*s-1)/s^2 * log (1+s)-2*s*log s+1/s+2

/-- tests/numerics.py l.37-38. -/
noncomputable def ym_gluon_dressing_inv (s xi f0 : ℂ) : ℂ := f s+xi*f_xi s+f0

/-- tests/numerics.py l.41-42. -/
noncomputable def qcd_gluon_dressing_inv (s mq xi f0 : ℂ) : ℂ :=
  ym_gluon_dressing_inv s xi f0+nq/nc*f_q (s/mq^2)

/-- tests/numerics.py l.45-46. -/
noncomputable def qcd_gluon_dressing_crossed_inv (s mq xi f0 : ℂ) : ℂ :=
  ym_gluon_dressing_inv s xi f0+nq/nc*f_q_crossed (s/mq^2)

/-- tests/numerics.py l.49-50. The first argument is `q`, `q+p` or `q-p`. -/
noncomputable def en (q : ℝ) (m : ℂ) : ℂ := csqrt ((q : ℂ)^2+m^2)

/-- tests/numerics.py l.53-54. -/
noncomputable def bose (q : ℝ) (m : ℂ) (beta : ℝ) : ℂ := 1/(exp (beta*en q m)-1)

/-- tests/numerics.py l.57-58. -/
noncomputable def fermi (q : ℝ) (m : ℂ) (beta mu : ℝ) : ℂ := 1/(exp (beta*(en q m-mu))+1)

/-- tests/numerics.py l.61-62. -/
noncomputable def fermi_double (q : ℝ) (m : ℂ) (beta mu : ℝ) : ℂ :=
  fermi q m beta mu+fermi q m beta (-mu)

/-- tests/numerics.py l.65-66. -/
noncomputable def j_m_i (q : ℝ) (m : ℂ) (beta : ℝ) : ℂ :=
  q^2*bose q m beta/(en q m*2*pi^2)

/-- tests/numerics.py l.69-70, repeated at l.205-206. -/
noncomputable def d_j_m_i (q : ℝ) (m : ℂ) (beta : ℝ) : ℂ :=
  -bose q m beta/(en q m*4*pi^2)

/-- tests/numerics.py l.73-74. -/
noncomputable def j_m_l_i (q : ℝ) (m : ℂ) (beta : ℝ) : ℂ :=
  -q^2*bose q m beta*en q m/(2*pi^2)

/-- tests/numerics.py l.77-78. -/
noncomputable def j_m_t_i (q : ℝ) (m : ℂ) (beta : ℝ) : ℂ :=
  q^4*bose q m beta/(en q m*6*pi^2)

/-- tests/numerics.py l.81-82. -/
noncomputable def j_0_t_i (q : ℝ) (beta : ℝ) : ℂ := j_m_t_i q 0 beta

/-- tests/numerics.py l.85-90. -/
noncomputable def tlog (q : ℝ) (om p en delta : ℂ) : ℂ :=
  let r := om^2+p^2+2*I*en*om+delta
  let r0 := 2*q*p
  let ru := r+r0
  let rd := r-r0
  log (ru/rd)

/-- tests/numerics.py l.93-95. -/
noncomputable def tlog_1o (q : ℝ) (om en delta : ℂ) : ℂ :=
  let r := om^2+2*I*en*om+delta
  4*q/r

/-- tests/numerics.py l.98-103. -/
noncomputable def tlog_l (q : ℝ) (om p m1 m2 : ℂ) : ℂ :=
  let en1 := csqrt (q*q+m1*m1)
  let en2 := csqrt (q*q+m2*m2)
  let z := om+I*en2
  let delta := m1*m1-m2*m2
  (z^2+en1^2+p^2*(2*z/om-1))^2*tlog q om p en2 delta

/-- tests/numerics.py l.106-108. -/
noncomputable def tlog_l_3o (q : ℝ) (om en delta : ℂ) : ℂ :=
  let r := om^2+2*I*en*om+delta
  4*q*(1+4*I*en/om+4*q^2/(3*r))

/-- tests/numerics.py l.111-112. -/
noncomputable def tlog_l2 (q : ℝ) (om p en delta : ℂ) : ℂ :=
  (om^2+2*I*om*en+delta+p^2*(2*I*en/om+1))^2*tlog q om p en delta

/-- tests/numerics.py l.115-119. -/
noncomputable def tlog_l3 (q : ℝ) (om p en delta : ℂ) : ℂ :=
  let m12 := delta+en^2-q^2
  let en1 := csqrt (q*q+m12)
  let z := om+I*en
  (z^2+en1^2+p^2*(2*z/om-1))^2*tlog q om p en delta

/-- tests/numerics.py l.122-127. -/
noncomputable def tlog_t (q : ℝ) (om p en delta : ℂ) : ℂ :=
  let r := om^2+p^2+2*I*en*om+delta
  let r0 := 2*q*p
  let ru := r+r0
  let rd := r-r0
  ru*rd*tlog q om p en delta

/-- tests/numerics.py l.130-132. -/
noncomputable def tlog_t_3o (q : ℝ) (om en delta : ℂ) : ℂ :=
  let r := om^2+2*I*en*om+delta
  4*q*(1-8*q^2/(3*r))

/-- tests/numerics.py l.135-142. -/
noncomputable def i_m_m_i (q : ℝ) (om : ℂ) (p : ℝ) (m1 m2 : ℂ) (beta : ℝ) : ℂ :=
  let delta1 := m2^2-m1^2
  let delta2 := m1^2-m2^2
  let t1 := bose q m1 beta/en q m1*(tlog q om p (en q m1) delta1+tlog q (-om) p (en q m1) delta1)/2
  let t2 := bose q m2 beta/en q m2*(tlog q om p (en q m2) delta2+tlog q (-om) p (en q m2) delta2)/2
  (t1+t2)*q/p/(8*pi^2)

/-- tests/numerics.py l.145-152. -/
noncomputable def i_m_m_i_zp (q : ℝ) (om m1 m2 : ℂ) (beta : ℝ) : ℂ :=
  let delta1 := m2^2-m1^2
  let delta2 := m1^2-m2^2
  let t1 := bose q m1 beta/en q m1*(tlog_1o q om (en q m1) delta1+tlog_1o q (-om) (en q m1) delta1)/2
  let t2 := bose q m2 beta/en q m2*(tlog_1o q om (en q m2) delta2+tlog_1o q (-om) (en q m2) delta2)/2
  (t1+t2)*q/(8*pi^2)

/-- tests/numerics.py l.155-163; `eps` is the `1E-16` of l.156. -/
noncomputable def i_m_m_l_i (eps q : ℝ) (om : ℂ) (p : ℝ) (m1 m2 : ℂ) (beta : ℝ) : ℂ :=
  let om := om + eps
  let delta1 := m2^2-m1^2
  let delta2 := m1^2-m2^2
  let t1 := bose q m1 beta/en q m1*((tlog_l q om p m2 m1 +
    tlog_l q (-om) p m2 m1)/2-4*q*p*(om^2+p^2+delta1))
  let t2 := bose q m2 beta/en q m2*((tlog_l q om p m1 m2 +
    tlog_l q (-om) p m1 m2)/2-4*q*p*(om^2+p^2+delta2))
  om^2/(om^2+p^2)*(t1+t2)*q/(p^3*32*pi^2)

/-- tests/numerics.py l.166-176. -/
noncomputable def i_m_m_l_i_zp (q : ℝ) (om m1 m2 : ℂ) (beta : ℝ) : ℂ :=
  let delta := m2^2-m1^2
  let en1 := en q m1
  let en2 := en q m2
  let r1p := 1/(om*om+2*I*om*en1+delta)
  let r1m := 1/(om*om-2*I*om*en1+delta)
  let r2p := 1/(om*om+2*I*om*en2-delta)
  let r2m := 1/(om*om-2*I*om*en2-delta)
  let t1 := bose q m1 beta/en1*(r1p+r1m)/2
  let t2 := bose q m2 beta/en2*(r2p+r2m)/2
  (t1+t2)*q^4/(6*pi^2)

/-- tests/numerics.py l.179-188. -/
noncomputable def i_m_m_t_i (q : ℝ) (om : ℂ) (p : ℝ) (m1 m2 : ℂ) (beta : ℝ) : ℂ :=
  let delta1 := m2^2-m1^2
  let delta2 := m1^2-m2^2
  let en1 := en q m1
  let en2 := en q m2
  let t1 := bose q m1 beta/en1*((tlog_t q om p en1 delta1 +
    tlog_t q (-om) p en1 delta1)/2-4*q*p*(om^2+p^2+delta1))
  let t2 := bose q m2 beta/en q m2*((tlog_t q om p en2 delta2 +
    tlog_t q (-om) p en2 delta2)/2-4*q*p*(om^2+p^2+delta2));
  -(t1+t2)*q/(p^3*64*pi^2)

/-- tests/numerics.py l.191-202. -/
noncomputable def i_m_m_t_i_zp (q : ℝ) (om m1 m2 : ℂ) (beta : ℝ) : ℂ :=
  let delta1 := m2^2-m1^2
  let delta2 := m1^2-m2^2
  let en1 := en q m1
  let en2 := en q m2
  let r1p := 1/(om*om+2*I*om*en1+delta1)
  let r1m := 1/(om*om-2*I*om*en1+delta1)
  let r2p := 1/(om*om+2*I*om*en2+delta2)
  let r2m := 1/(om*om-2*I*om*en2+delta2)
  let t1 := bose q m1 beta/en1*(r1p+r1m)/2
  let t2 := bose q m2 beta/en2*(r2p+r2m)/2
  (t1+t2)*q^4/(6*pi^2)

/-- tests/numerics.py l.209-213. -/
noncomputable def d2_j_m_i (q : ℝ) (m : ℂ) (beta : ℝ) : ℂ :=
  let bos := bose q m beta
  let e := en q m
  let bosm := 1/(exp (-e*beta)-1)
  (bos/e^3-beta*bos*bosm/e^2)/(8*pi^2)

/-- tests/numerics.py l.216-217. -/
noncomputable def d_j_m_l_i (q : ℝ) (m : ℂ) (beta : ℝ) : ℂ := en q m*bose q m beta/(4*pi^2)

/-- tests/numerics.py l.220-224. -/
noncomputable def jnnm (q : ℝ) (m : ℂ) (beta : ℝ) : ℂ :=
  let bos := bose q m beta
  let e := en q m
  let bosm := 1/(exp (-e*beta)-1)
  bos*bosm/(8*pi^2)

/-- tests/numerics.py l.227-228. -/
noncomputable def d2_j_m_l_i (q : ℝ) (m : ℂ) (beta : ℝ) : ℂ :=
  -d_j_m_i q m beta/2+beta*jnnm q m beta

/-- tests/numerics.py l.231-232. -/
noncomputable def d_j_m_t_i (q : ℝ) (m : ℂ) (beta : ℝ) : ℂ := -j_m_i q m beta/2

/-- tests/numerics.py l.235-236. -/
noncomputable def d2_j_m_t_i (q : ℝ) (m : ℂ) (beta : ℝ) : ℂ := -d_j_m_i q m beta/2

/-- tests/numerics.py l.239-255. -/
noncomputable def d_i_m_m_i (q : ℝ) (om : ℂ) (p : ℝ) (m1 m2 : ℂ) (beta : ℝ) : ℂ :=
  let x1 := -bose q m1 beta/en q m1 *
    (1/((om+I*en q m1)^2+en (q+p) m2^2) +
     1/((om+I*en q m1)^2+en (q-p) m2^2) +
     1/((-om+I*en q m1)^2+en (q+p) m2^2) +
     1/((-om+I*en q m1)^2+en (q-p) m2^2))/2
  let x2 := bose q m2 beta/en q m2 *
    (1/((om+I*en q m2)^2+en (q+p) m1^2) -
     1/((om+I*en q m2)^2+en (q-p) m1^2) +
     1/((-om+I*en q m2)^2+en (q+p) m1^2) -
     1/((-om+I*en q m2)^2+en (q-p) m1^2))/2
  let x3 := -bose q m1 beta/en q m1 *
    (1/((om+I*en q m1)^2+en (q+p) m2^2) -
     1/((om+I*en q m1)^2+en (q-p) m2^2) +
     1/((-om+I*en q m1)^2+en (q+p) m2^2) -
     1/((-om+I*en q m1)^2+en (q-p) m2^2))/2
  (x1+(x2+x3)*q/p)/(8*pi^2)

/-- tests/numerics.py l.258-268. -/
noncomputable def d_i_m_m_i_zp (q : ℝ) (om m1 m2 : ℂ) (beta : ℝ) : ℂ :=
  let x1 := -bose q m1 beta/en q m1 *
    (1/((om+I*en q m1)^2+en q m2^2) +
     1/((-om+I*en q m1)^2+en q m2^2))/2
  let x2 := bose q m2 beta/en q m2 *
    (1/((om+I*en q m2)^2+en q m1^2)^2 +
     1/((-om+I*en q m2)^2+en q m1^2)^2)/2
  let x3 := -bose q m1 beta/en q m1 *
    (1/((om+I*en q m1)^2+en q m2^2)^2 +
     1/((-om+I*en q m1)^2+en q m2^2)^2)/2
  (x1-2*(x2+x3)*q*q)/(4*pi^2)

/-- tests/numerics.py l.271-297; `eps` is the `1E-16` of l.272. -/
noncomputable def d_i_m_m_l_i (eps q : ℝ) (om : ℂ) (p : ℝ) (m1 m2 : ℂ) (beta : ℝ) : ℂ :=
  let om := om+eps
  let bose1 := bose q m1 beta
  let en1 := en q m1
  let z1p := om+I*en1
  let z1m := -om+I*en1
  let bose2 := bose q m2 beta
  let en2 := en q m2
  let z2p := om+I*en2
  let z2m := -om+I*en2
  let t1 := -bose1/en1*((1/(z1p^2+(p+q)^2+m2^2)+1/(z1p^2+(p-q)^2+m2^2))*(z1p^2+q^2+m2^2+p^2*(2*z1p/om-1))^2 +
    (1/(z1m^2+(p+q)^2+m2^2)+1/(z1m^2+(p-q)^2+m2^2))*(z1m^2+q^2+m2^2+p^2*(-2*z1m/om-1))^2)/4
  let t2 := bose1/en1*(om^2+p^2+m2^2-m1^2)
  let t3 := 2*q^2*(bose1/en1-bose2/en2)
  let t4 := q/p*(bose2/en2*((z2p^2+q^2+m1^2+p^2*(2*z2p/om-1))
      * tlog q om p en2 (m1^2-m2^2)+(z2m^2+q^2+m1^2+p^2*(-2*z2m/om-1))
      * tlog q (-om) p en2 (m1^2-m2^2))
    - bose1/en1*((z1p^2+q^2+m2^2+p^2*(2*z1p/om-1))
      * tlog q om p en1 (m2^2-m1^2)+(z1m^2+q^2+m2^2+p^2*(-2*z1m/om-1))
      * tlog q (-om) p en1 (m2^2-m1^2)))/2
  let t5 := q/p*(bose2/en2*((z2p^2+q^2+m1^2+p^2*(2*z2p/om-1))^2
      * (1/(z2p^2+en (q+p) m1^2)-1/(z2p^2+en (q-p) m1^2))+(z2m^2+q^2+m1^2+p^2*(-2*z2m/om-1))^2
      * (1/(z2m^2+en (q+p) m1^2)-1/(z2m^2+en (q-p) m1^2)))
    - bose1/en1*((z1p^2+q^2+m2^2+p^2*(2*z1p/om-1))^2
      * (1/(z1p^2+en (q+p) m2^2)-1/(z1p^2+en (q-p) m2^2))+(z1m^2+q^2+m2^2+p^2*(-2*z1m/om-1))^2
      * (1/(z1m^2+en (q+p) m2^2)-1/(z1m^2+en (q-p) m2^2))))/4
  om^2/(om^2+p^2)*(t1+t2+t3+t4+t5)/(16*pi^2*p^2)

/-- tests/numerics.py l.300-311. -/
noncomputable def d_i_m_m_l_i_zp (q : ℝ) (om m1 m2 : ℂ) (beta : ℝ) : ℂ :=
  let bose1 := bose q m1 beta
  let en1 := en q m1
  let bose2 := bose q m2 beta
  let en2 := en q m2
  let t10 := bose1/en1*(1/(om*om+2*I*en1*om+m2*m2-m1*m1) +
    1/(om*om-2*I*en1*om+m2*m2-m1*m1))/2
  let t1 := bose1/en1*(1/(om*om+2*I*en1*om+m2*m2-m1*m1)^2 +
    1/(om*om-2*I*en1*om+m2*m2-m1*m1)^2)/2
  let t2 := bose2/en2*(1/(om*om+2*I*en2*om+m1*m1-m2*m2)^2 +
    1/(om*om-2*I*en2*om+m1*m1-m2*m2)^2)/2
  (-t10/4+(t1-t2)*q^2/6)*q^2/(pi^2)

/-- tests/numerics.py l.314-328. -/
noncomputable def d_i_m_m_t_i (q : ℝ) (om : ℂ) (p : ℝ) (m1 m2 : ℂ) (beta : ℝ) : ℂ :=
  let delta := m2^2-m1^2
  let bose1 := bose q m1 beta
  let en1 := en q m1
  let bose2 := bose q m2 beta
  let en2 := en q m2
  let t1 := -q/p*bose1/en1*(tlog q om p en1 delta +
    tlog q (-om) p en1 delta)/(32*pi^2)
  let t2 := q^2/p^2*(bose2/en2-bose1/en1)/(8*pi^2)
  let t31 := bose1/en1*(((om+I*en1)^2+m2^2+q^2+p^2)*tlog q om p en1 delta +
    ((-om+I*en1)^2+m2^2+q^2+p^2)*tlog q (-om) p en1 delta)/2
  let t32 := bose2/en2*(((om+I*en2)^2+m1^2+q^2+p^2)*tlog q om p en2 (-delta) +
    ((-om+I*en2)^2+m1^2+q^2+p^2)*tlog q (-om) p en2 (-delta))/2
  let t3 := q/p^3*(t31-t32)/(32*pi^2)
  t1+t2+t3

/-- tests/numerics.py l.331-340. -/
noncomputable def ghost_se (q : ℝ) (om : ℂ) (p : ℝ) (m : ℂ) (beta : ℝ) : ℂ :=
  let s := om*om+p*p
  let m2 := m*m
  let a := s+m2
  let t1 := -s*a/(2*m2)*i_m_m_i q om p m 0 beta
  let t2 := s*s/(2*m2)*i_m_m_i q om p 0 0 beta
  let t3 := (2*s-m2)/(4*m2)*(j_m_i q m beta-j_m_i q 0 beta)
  let t4 := a*a/4 * d_i_m_m_i q om p m 0 beta
  let t5 := -(s-m2)/4*d_j_m_i q m beta
  t1+t2+t3+t4+t5

/-- tests/numerics.py l.343-352. -/
noncomputable def ghost_se_zp (q : ℝ) (om : ℂ) (m : ℂ) (beta : ℝ) : ℂ :=
  let s := om*om
  let m2 := m*m
  let a := s+m2
  let t1 := -s*a/(2*m2)*i_m_m_i_zp q om m 0 beta
  let t2 := s*s/(2*m2)*i_m_m_i_zp q om 0 0 beta
  let t3 := (2*s-m2)/(4*m2)*(j_m_i q m beta-j_m_i q 0 beta)
  let t4 := a*a/4 * d_i_m_m_i_zp q om m 0 beta
  let t5 := -(s-m2)/4*d_j_m_i q m beta
  t1+t2+t3+t4+t5

/-- tests/numerics.py l.355-356. -/
noncomputable def j_m_l_p_i (q : ℝ) (om : ℂ) (p : ℝ) (m : ℂ) (beta : ℝ) : ℂ :=
  (p*p*j_m_l_i q m beta+om*om*j_m_t_i q m beta)/(om*om+p*p)

/-- tests/numerics.py l.359-360. -/
noncomputable def d_j_m_l_p_i (q : ℝ) (om : ℂ) (p : ℝ) (m : ℂ) (beta : ℝ) : ℂ :=
  (p*p*d_j_m_l_i q m beta+om*om*d_j_m_t_i q m beta)/(om*om+p*p)

/-- tests/numerics.py l.363-364. -/
noncomputable def d2_j_m_l_p_i (q : ℝ) (om : ℂ) (p : ℝ) (m : ℂ) (beta : ℝ) : ℂ :=
  (p*p*d2_j_m_l_i q m beta+om*om*d2_j_m_t_i q m beta)/(om*om+p*p)

/-- tests/numerics.py l.367-368. -/
noncomputable def j_m_l_p_i_zp (q : ℝ) (_om : ℂ) (m : ℂ) (beta : ℝ) : ℂ := j_m_t_i q m beta

/-- tests/numerics.py l.371-372. -/
noncomputable def d_j_m_l_p_i_zp (q : ℝ) (_om : ℂ) (m : ℂ) (beta : ℝ) : ℂ := d_j_m_t_i q m beta

/-- tests/numerics.py l.375-376. -/
noncomputable def d2_j_m_l_p_i_zp (q : ℝ) (_om : ℂ) (m : ℂ) (beta : ℝ) : ℂ := d2_j_m_t_i q m beta

/-- tests/numerics.py l.379-403; `eps` is the `1E-16` of l.156 and l.272. -/
noncomputable def gluon_pol_l (eps q : ℝ) (om : ℂ) (p : ℝ) (m : ℂ) (beta : ℝ) : ℂ :=
  let s := om*om+p*p
  let s2 := s*s
  let m2 := m*m
  let m4 := m2*m2
  let t1 := (3*s2/(2*m4)-1)*i_m_m_l_i eps q om p 0 0 beta
  let t2 := (4+(3*s2+8*m2*s+4*m4)/(2*m4))*i_m_m_l_i eps q om p m m beta
  let t3 := -(3*s2+4*m2*s+m4)/m4 * i_m_m_l_i eps q om p m 0 beta
  let t4 := 2*s*(s+2*m2)/m2*i_m_m_i q om p m m beta
  let t5 := -2*s*(s+m2)/m2*i_m_m_i q om p m 0 beta
  let t6 := -(2*s+3*m2)/m2*j_m_i q m beta
  let t7 := (2*s+m2)/m2*j_m_i q 0 beta
  let t8 := -(8*m2+(s+2*m2)^2/m2)*d_i_m_m_l_i eps q om p m m beta
  let t9 := (s+m2)^2/m2 * d_i_m_m_l_i eps q om p m 0 beta
  let t10 := -2*s*(s+4*m2)*d_i_m_m_i q om p m m beta
  let t11 := (s+m2)^2*d_i_m_m_i q om p m 0 beta
  let t12 := (s+3*m2)*d_j_m_i q m beta
  let t13 := -m4*d2_j_m_i q m beta
  let t14 := (j_m_l_p_i q om p m beta-j_m_l_p_i q om p 0 beta)/m2
  let t15 := -d_j_m_l_p_i q om p m beta
  let t16 := m2/2*d2_j_m_l_p_i q om p m beta
  t1+t2+t3+t4+t5+t6+t7+t8+t9+t10+t11+t12+t13+t14+t15+t16

/-- tests/numerics.py l.406-430. -/
noncomputable def gluon_pol_l_zp (q : ℝ) (om : ℂ) (m : ℂ) (beta : ℝ) : ℂ :=
  let s := om*om
  let s2 := s*s
  let m2 := m*m
  let m4 := m2*m2
  let t1 := (3*s2/(2*m4)-1)*i_m_m_l_i_zp q om 0 0 beta
  let t2 := (4+(3*s2+8*m2*s+4*m4)/(2*m4))*i_m_m_l_i_zp q om m m beta
  let t3 := -(3*s2+4*m2*s+m4)/m4 * i_m_m_l_i_zp q om m 0 beta
  let t4 := 2*s*(s+2*m2)/m2*i_m_m_i_zp q om m m beta
  let t5 := -2*s*(s+m2)/m2*i_m_m_i_zp q om m 0 beta
  let t6 := -(2*s+3*m2)/m2*j_m_i q m beta
  let t7 := (2*s+m2)/m2*j_m_i q 0 beta
  let t8 := -(8*m2+(s+2*m2)^2/m2)*d_i_m_m_l_i_zp q om m m beta
  let t9 := (s+m2)^2/m2 * d_i_m_m_l_i_zp q om m 0 beta
  let t10 := -2*s*(s+4*m2)*d_i_m_m_i_zp q om m m beta
  let t11 := (s+m2)^2*d_i_m_m_i_zp q om m 0 beta
  let t12 := (s+3*m2)*d_j_m_i q m beta
  let t13 := -m4*d2_j_m_i q m beta
  let t14 := (j_m_l_p_i_zp q om m beta-j_m_l_p_i_zp q om 0 beta)/m2
  let t15 := -d_j_m_l_p_i_zp q om m beta
  let t16 := m2/2*d2_j_m_l_p_i_zp q om m beta
  t1+t2+t3+t4+t5+t6+t7+t8+t9+t10+t11+t12+t13+t14+t15+t16

/-- tests/numerics.py l.433-457. -/
noncomputable def gluon_pol_t (q : ℝ) (om : ℂ) (p : ℝ) (m : ℂ) (beta : ℝ) : ℂ :=
  let s := om*om+p*p
  let s2 := s*s
  let m2 := m*m
  let m4 := m2*m2
  let t1 := (3*s2/(2*m4)-1)*i_m_m_t_i q om p 0 0 beta
  let t2 := (4+(3*s2+8*m2*s+4*m4)/(2*m4))*i_m_m_t_i q om p m m beta
  let t3 := -(3*s2+4*m2*s+m4)/m4 * i_m_m_t_i q om p m 0 beta
  let t4 := 2*s*(s+2*m2)/m2*i_m_m_i q om p m m beta
  let t5 := -2*s*(s+m2)/m2*i_m_m_i q om p m 0 beta
  let t6 := -(2*s+3*m2)/m2*j_m_i q m beta
  let t7 := (2*s+m2)/m2*j_m_i q 0 beta
  let t8 := -(8*m2+(s+2*m2)^2/m2)*d_i_m_m_t_i q om p m m beta
  let t9 := (s+m2)^2/m2 * d_i_m_m_t_i q om p m 0 beta
  let t10 := -2*s*(s+4*m2)*d_i_m_m_i q om p m m beta
  let t11 := (s+m2)^2*d_i_m_m_i q om p m 0 beta
  let t12 := (s+3*m2)*d_j_m_i q m beta
  let t13 := -m4*d2_j_m_i q m beta
  let t14 := (j_m_t_i q m beta-j_m_t_i q 0 beta)/m2
  let t15 := -d_j_m_t_i q m beta
  let t16 := m2/2*d2_j_m_t_i q m beta
  t1+t2+t3+t4+t5+t6+t7+t8+t9+t10+t11+t12+t13+t14+t15+t16

/-- tests/numerics.py l.460-461. -/
noncomputable def gluon_pol_t_zp (q : ℝ) (om : ℂ) (m : ℂ) (beta : ℝ) : ℂ := gluon_pol_l_zp q om m beta

/-- tests/numerics.py l.464-469. -/
noncomputable def gluon_pol_quark_l (q : ℝ) (om : ℂ) (p : ℝ) (m : ℂ) (beta mu : ℝ) : ℂ :=
  let s := om*om+p*p
  let eg := en q m
  let t1 := (s-4*eg^2+4*I*eg*om)/(8*q*p)*tlog q om p eg 0
  let t1opp := (s-4*eg^2-4*I*eg*om)/(8*q*p)*tlog q (-om) p eg 0;
  -(s/(p*p))*fermi_double q m beta mu*q^2/eg*(1-t1-t1opp)/(6*pi^2)

/-- tests/numerics.py l.472-474. -/
noncomputable def gluon_pol_quark_l_zp (q : ℝ) (om : ℂ) (m : ℂ) (beta mu : ℝ) : ℂ :=
  let eg := en q m;
  -2/(9*pi^2)*fermi_double q m beta mu*q^2/eg*(3*eg^2-q^2)/(om^2+4*eg^2)

/-- tests/numerics.py l.477-482. -/
noncomputable def gluon_pol_quark_trace (q : ℝ) (om : ℂ) (p : ℝ) (m : ℂ) (beta mu : ℝ) : ℂ :=
  let s := om*om+p*p
  let eg := en q m
  let t1 := (s-2*m*m)/(8*q*p)*tlog q om p eg 0
  let t1opp := (s-2*m*m)/(8*q*p)*tlog q (-om) p eg 0;
  -fermi_double q m beta mu*q^2/eg*(1-t1-t1opp)/(3*pi^2)

/-- tests/numerics.py l.485-486. -/
noncomputable def gluon_pol_quark_t (q : ℝ) (om : ℂ) (p : ℝ) (m : ℂ) (beta mu : ℝ) : ℂ :=
  (gluon_pol_quark_trace q om p m beta mu-gluon_pol_quark_l q om p m beta mu)/2

end numerics
end Qcd
