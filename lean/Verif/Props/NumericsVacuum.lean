import Verif.Model.Numerics
import Verif.Model.Vacuum
import Verif.Model.Qcd
import Verif.Lemmas.NumericsVacuum
import Verif.Props.Ffi

/-! # C105, continued: the vacuum functions against the reference program -/

namespace Qcd
open Complex
open consts (Consts)

/-- **C105** (vacuum functions): off the negative real axis the gluon and ghost functions of the
library equal the reference formulas, which take the logarithm of another argument
(`(√(s+4) - √s)/(√(s+4) + √s)` instead of `(a-1)/2` and `s`, or `(a-1)/(a+1)`, with
`a = √(1+4/s)`). -/
theorem C105_vacuum {s : ℂ} (hs : s ∈ slitPlane) :
    gluon.f s = numerics.f s ∧
    gluon.f_xi s = numerics.f_xi s ∧
    gluon.f_q s = numerics.f_q s ∧
    gluon.f_q_crossed s = numerics.f_q_crossed s ∧
    12 * ghost.g s = numerics.g s := by
  have h0 := slitPlane_ne_zero hs
  have h4 : s + 4 ≠ 0 := slitPlane_ne_zero (by simpa using slit_add_pos hs (r := 4) (by norm_num))
  have e1 : (s + 4) / s = s⁻¹ * 4 + 1 := by field_simp; ring
  have e2 : (4 + s) / s = s⁻¹ * 4 + 1 := by field_simp
  have e3 : (1 : ℂ) + s = s + 1 := by ring
  have ha := csqrt_sq (s⁻¹ * 4 + 1)
  have ha0 : csqrt (s⁻¹ * 4 + 1) ≠ 0 := csqrt_ne_zero (slitPlane_ne_zero (slit_a2 hs))
  refine ⟨?_, ?_, ?_, ?_, ?_⟩
  · simp only [gluon.f, gluon.f_sep, gluon.l_a, gluon.l_b, gluon.l_c, gluon.r_a, gluon.r_b, gluon.r_c,
      numerics.f, ← num_log_ratio hs, e1, e3, ofR_complex, ln_complex, sqrt_complex]
    push_cast
    generalize csqrt (s⁻¹ * 4 + 1) = a at *
    generalize log ((a - 1) / 2) = L
    field_simp
    ring
  · simp only [gluon.f_xi, gluon.f_xi_sep, numerics.f_xi, e3, ofR_complex, ln_complex]
    push_cast
    field_simp
    ring
  · simp only [gluon.f_q, numerics.f_q, num_ratio hs, e2, ofR_complex, ln_complex, sqrt_complex]
    push_cast
    generalize csqrt (s⁻¹ * 4 + 1) = a at *
    generalize log ((a - 1) / (a + 1)) = L
    field_simp
    ring
  · simp only [gluon.f_q_crossed, numerics.f_q_crossed, num_ratio hs, e2, ofR_complex, ln_complex, sqrt_complex]
    push_cast
    generalize csqrt (s⁻¹ * 4 + 1) = a at *
    generalize log ((a - 1) / (a + 1)) = L
    have ha' : a ^ 2 * s = 4 + s := by rw [ha]; field_simp
    have h4' : 4 + s ≠ 0 := by rwa [add_comm]
    have key : (s⁻¹ + 1 / 2 + s⁻¹ * s⁻¹ * 8) / a = (s ^ 2 + 2 * s + 16) / (2 * s * (4 + s)) * a := by
      field_simp
      linear_combination (-(s * (2 + s) + 16)) * ha'
    rw [key]
    ring
  · simp only [ghost.g, ghost.g_sep, ghost.l_g, ghost.r_g, numerics.g, e3, ofR_complex, ln_complex]
    push_cast
    field_simp
    ring

/-- **C105** (vacuum dressing functions): the inverse dressing functions of the gluon, in pure
Yang-Mills theory and with one quark in three colors, in every gauge. -/
theorem C105_vacuum_dressing (k : Consts ℝ) (hk : k.nf_div_nc = 1 / 3) {s : ℂ} (hs : s ∈ slitPlane)
    (mq : ℝ) (hm : mq ≠ 0) (f0 xi : ℝ) :
    ym.gluon.dressing_inv s f0 xi = numerics.ym_gluon_dressing_inv s xi f0 ∧
    ym.gluon.dressing_inv_landau s f0 = numerics.ym_gluon_dressing_inv s 0 f0 ∧
    qcd.gluon.dressing_inv k s mq f0 xi = numerics.qcd_gluon_dressing_inv s mq xi f0 ∧
    qcd.gluon.dressing_inv_landau k s mq f0 = numerics.qcd_gluon_dressing_inv s mq 0 f0 ∧
    qcd.gluon.dressing_crossed_inv k s mq f0 xi = numerics.qcd_gluon_dressing_crossed_inv s mq xi f0 ∧
    qcd.gluon.dressing_crossed_inv_landau k s mq f0 = numerics.qcd_gluon_dressing_crossed_inv s mq 0 f0 := by
  obtain ⟨a1, a2, -⟩ := C105_vacuum hs
  have hq : s / ((mq * mq : ℝ) : ℂ) ∈ slitPlane := slit_div_pos hs (mul_self_pos.2 hm)
  obtain ⟨-, -, b3, b4, -⟩ := C105_vacuum hq
  have e : s / ((mq : ℂ)) ^ 2 = s / ((mq * mq : ℝ) : ℂ) := by push_cast; rw [sq]
  simp only [gluon.f, gluon.f_xi, ofR_complex, ln_complex] at a1 a2
  simp only [ym.gluon.dressing_inv, ym.gluon.dressing_inv_landau, qcd.gluon.dressing_inv,
    qcd.gluon.dressing_inv_landau, qcd.gluon.dressing_crossed_inv, qcd.gluon.dressing_crossed_inv_landau,
    gluon.ym_dressing_inv_sep, gluon.ym_dressing_inv_landau_sep, numerics.ym_gluon_dressing_inv,
    numerics.qcd_gluon_dressing_inv, numerics.qcd_gluon_dressing_crossed_inv, numerics.nq, numerics.nc,
    e, hk, ofR_complex, ln_complex, a1, a2, b3, b4]
  push_cast
  refine ⟨?_, ?_, ?_, ?_, ?_, ?_⟩ <;> ring

/-- The premises hold: at the complex momentum `-3 + 2i` with the constants the library starts with. -/
example : gluon.f_q_crossed (-3 + 2 * Complex.I) = numerics.f_q_crossed (-3 + 2 * Complex.I) ∧
    qcd.gluon.dressing_inv (consts.init : Consts ℝ) (-3 + 2 * Complex.I) 0.4 (-0.876) 1
      = numerics.qcd_gluon_dressing_inv (-3 + 2 * Complex.I) (0.4 : ℝ) (1 : ℝ) (-0.876 : ℝ) := by
  have hs : (-3 + 2 * Complex.I) ∈ slitPlane := by
    rw [mem_slitPlane_iff]; right; simp
  exact ⟨(C105_vacuum hs).2.2.2.1,
    (C105_vacuum_dressing consts.init (by simp [consts.init, consts.FloatOps.div, consts.FloatOps.lit]) hs 0.4
      (by norm_num) (-0.876) 1).2.2.1⟩

/-- **C105** (real momenta): the real-valued functions of the library equal the reference formulas
at every positive momentum squared. -/
theorem C105_vacuum_real {s : ℝ} (hs : 0 < s) :
    ((gluon.f s : ℝ) : ℂ) = numerics.f s ∧
    ((gluon.f_xi s : ℝ) : ℂ) = numerics.f_xi s ∧
    ((gluon.f_q s : ℝ) : ℂ) = numerics.f_q s ∧
    ((gluon.f_q_crossed s : ℝ) : ℂ) = numerics.f_q_crossed s ∧
    ((12 * ghost.g s : ℝ) : ℂ) = numerics.g s := by
  have hl := C21_loops s hs
  simp only [loopValues, List.map_cons, List.map_nil, List.cons.injEq, and_true] at hl
  obtain ⟨l1, -, l3, l4, l5, l6⟩ := hl
  obtain ⟨h1, h2, h3, h4, h5⟩ := C105_vacuum (s := (s : ℂ)) (by rw [mem_slitPlane_iff]; left; simpa using hs)
  rw [l3] at h1; rw [l4] at h2; rw [l5] at h3; rw [l6] at h4; rw [l1] at h5
  exact ⟨h1, h2, h3, h4, by push_cast; exact h5⟩

end Qcd
