import Verif.Props.ZeroMomentumLimitSpecial
import Verif.Model.ThermalParts

/-! # C40 for the thermal parts of the ghost self-energy and of the gluon polarization

The hypothesis is the one a caller can check: the real part of the frequency does not vanish and its imaginary part is below the
loop momentum, hence below all energies in the loop. -/

set_option linter.unusedSimpArgs false
set_option linter.unusedVariables false

namespace Qcd
open Filter Topology
open consts (Consts)

/-- **C40**: for real masses and frequencies off the imaginary axis the conditions of the theorems on single loops hold. -/
theorem C40_regular_of_strip {w : ℂ} {e1 e2 d : ℝ} (hw : w.re ≠ 0) (h1 : |w.im| < e1) (h2 : |w.im| < e2) :
    Spec.RestRegular w e1 e2 d := by
  obtain ⟨a1, a2⟩ := abs_lt.1 h1
  obtain ⟨b1, b2⟩ := abs_lt.1 h2
  have key : ∀ e d : ℝ, w.im + e ≠ 0 → w ^ 2 + 2 * Complex.I * w * e + d ≠ 0 := by
    intro e d he h0
    have := congrArg Complex.im h0
    simp [pow_two] at this
    have : w.re * (w.im + e) = 0 := by linarith
    rcases mul_eq_zero.1 this with h | h
    · exact hw h
    · exact he h
  refine ⟨fun h => hw (by simp [h]), ?_, ?_, ?_, ?_⟩
  · exact key e1 d (by linarith)
  · have := key (-e1) d (by linarith)
    intro h0; apply this; rw [← h0]; push_cast; ring
  · have := key e2 (-d) (by linarith)
    intro h0; apply this; rw [← h0]; push_cast; ring
  · have := key (-e2) (-d) (by linarith)
    intro h0; apply this; rw [← h0]; push_cast; ring

theorem le_energy {q : ℝ} (hq : 0 ≤ q) (m : ℝ) : q ≤ energy q m := by
  rw [show energy q m = Real.sqrt (q * q + m * m) by simp [energy, energy_squared, add_comm]]
  exact Real.le_sqrt_of_sq_le (by nlinarith [mul_self_nonneg m])

section
variable {T : Type} [Num T] {q : ℝ} {om : T}

theorem strip_same (hq : 0 < q) (h0 : (toC om).re ≠ 0) (h1 : |(toC om).im| < q) (m : ℝ) :
    Spec.RestRegular (toC om) (toC (energy q m)) (toC (energy q m)) 0 := by
  have := C40_regular_of_strip (w := toC om) (e1 := energy q m) (e2 := energy q m) (d := 0) h0
    (h1.trans_le (le_energy hq.le m)) (h1.trans_le (le_energy hq.le m))
  simpa using this

theorem strip_half (hq : 0 < q) (h0 : (toC om).re ≠ 0) (h1 : |(toC om).im| < q) (m : ℝ) :
    Spec.RestRegular (toC om) (toC (energy q m)) (q : ℂ) (-toC (m * m)) := by
  have := C40_regular_of_strip (w := toC om) (e1 := energy q m) (e2 := q) (d := -(m * m)) h0
    (h1.trans_le (le_energy hq.le m)) h1
  simpa using this

theorem strip_zero (hq : 0 < q) (h0 : (toC om).re ≠ 0) (h1 : |(toC om).im| < q) :
    Spec.RestRegular (toC om) (q : ℂ) (q : ℂ) 0 := by
  have := C40_regular_of_strip (w := toC om) (e1 := q) (e2 := q) (d := 0) h0 h1 h1
  simpa using this

theorem s_tendsto (w : ℂ) : Tendsto (fun p : ℝ => w ^ 2 + (p : ℂ) ^ 2) (𝓝[≠] 0) (𝓝 (w ^ 2)) := by
  simpa using (tendsto_const_nhds (x := w ^ 2)).add (ofReal_tendsto_zero.pow 2)

theorem coef_tendsto {C : ℂ → ℂ} (hC : Continuous C) (w : ℂ) :
    Tendsto (fun p : ℝ => C (w ^ 2 + (p : ℂ) ^ 2)) (𝓝[≠] 0) (𝓝 (C (w ^ 2))) := (hC.tendsto _).comp (s_tendsto w)

theorem limit_congr {f g : ℝ → ℂ} {v x : ℂ} (hg : Tendsto g (𝓝[≠] 0) (𝓝 x)) (hf : ∀ p : ℝ, f p = g p) (hv : v = x) :
    Tendsto f (𝓝[≠] 0) (𝓝 v) := by
  rw [hv]; exact hg.congr fun p => (hf p).symm

/-- **C40**: the thermal part of the ghost self-energy. -/
theorem C40_ghost_self_energy (hq : 0 < q) (h0 : (toC om).re ≠ 0) (h1 : |(toC om).im| < q) (m beta : ℝ) :
    Tendsto (fun p : ℝ => ghost.thermal.self_energy_thermal_part_landau_i q om p m beta) (𝓝[≠] 0)
      (𝓝 (ghost.thermal.zero_momentum.self_energy_thermal_part_landau_i q om m beta)) := by
  obtain ⟨x1, x2, x3, x4, x5, x6⟩ := C40_second_mass_zero hq beta (strip_half hq h0 h1 m)
  obtain ⟨y1, y2, y3, y4, y5, y6⟩ := C40_zero_mass hq beta (strip_zero hq h0 h1)
  have c1 := coef_tendsto (C := fun s => -(s + m ^ 2) * s / (2 * m ^ 2)) (by fun_prop) (toC om)
  have c2 := coef_tendsto (C := fun s => s * s / (2 * m ^ 2)) (by fun_prop) (toC om)
  have c3 := coef_tendsto (C := fun s => (s * 2 - m ^ 2) / (4 * m ^ 2) * (thermal.j_m_i q m beta - thermal.j_0_i q beta)
    - (s - m ^ 2) / 4 * thermal.d_j_m_i q m beta) (by fun_prop) (toC om)
  have c4 := coef_tendsto (C := fun s => (s + m ^ 2) ^ 2 / 4) (by fun_prop) (toC om)
  refine limit_congr ((((c1.mul x1).add (c2.mul y1)).add c3).add (c4.mul x4)) (fun p => ?_) ?_
  · simp only [ghost.thermal.self_energy_thermal_part_landau_i, map_neg, map_mul (Num.toC (T := T)), map_add (Num.toC (T := T)), map_sub (Num.toC (T := T)),
      map_div₀ (Num.toC (T := T)), toC_ofR, ofR_real, ofR_complex]
    obtain ⟨w, hw⟩ : ∃ x, x = toC om := ⟨_, rfl⟩
    simp only [← hw]
    push_cast
    ring
  · simp only [ghost.thermal.zero_momentum.self_energy_thermal_part_landau_i, map_neg, map_mul (Num.toC (T := T)), map_add (Num.toC (T := T)), map_sub (Num.toC (T := T)),
      map_div₀ (Num.toC (T := T)), toC_ofR, ofR_real, ofR_complex]
    obtain ⟨w, hw⟩ : ∃ x, x = toC om := ⟨_, rfl⟩
    simp only [← hw]
    push_cast
    ring

/-- **C40**: the thermal part of the longitudinal glue polarization. -/
theorem C40_glue_l (hq : 0 < q) (h0 : (toC om).re ≠ 0) (h1 : |(toC om).im| < q) (m beta : ℝ) :
    Tendsto (fun p : ℝ => gluon.thermal.polarization_glue_l_thermal_part_landau_i q om p m beta) (𝓝[≠] 0)
      (𝓝 (gluon.thermal.zero_momentum.polarization_glue_l_thermal_part_landau_i q om m beta)) := by
  obtain ⟨x1, x2, x3, x4, x5, x6⟩ := C40_second_mass_zero hq beta (strip_half hq h0 h1 m)
  obtain ⟨y1, y2, y3, y4, y5, y6⟩ := C40_zero_mass hq beta (strip_zero hq h0 h1)
  obtain ⟨z1, z2, z3, z4, z5, z6⟩ := C40_same_mass hq beta (strip_same hq h0 h1 m)
  have hw0 : toC om ≠ 0 := fun h => h0 (by simp [h])
  have c1 := coef_tendsto (C := fun s => s ^ 2 * 3 / (m ^ 4 * 2) - 1) (by fun_prop) (toC om)
  have c2 := coef_tendsto (C := fun s => (s ^ 2 * 3 + s * m ^ 2 * 8 + 4 * m ^ 4) / (2 * m ^ 4) + 4) (by fun_prop) (toC om)
  have c3 := coef_tendsto (C := fun s => -(s ^ 2 * 3 + s * m ^ 2 * 4 + m ^ 4) / m ^ 4) (by fun_prop) (toC om)
  have c4 := coef_tendsto (C := fun s => (s + m ^ 2 * 2) * s * 2 / m ^ 2) (by fun_prop) (toC om)
  have c5 := coef_tendsto (C := fun s => -(s + m ^ 2) * s * 2 / m ^ 2) (by fun_prop) (toC om)
  have c6 := coef_tendsto (C := fun s => -((s + m ^ 2 * 2) ^ 2 / m ^ 2 + m ^ 2 * 8)) (by fun_prop) (toC om)
  have c7 := coef_tendsto (C := fun s => (s + m ^ 2) ^ 2 / m ^ 2) (by fun_prop) (toC om)
  have c8 := coef_tendsto (C := fun s => -s * 2 * (s + m ^ 2 * 4)) (by fun_prop) (toC om)
  have c9 := coef_tendsto (C := fun s => (s + m ^ 2) ^ 2) (by fun_prop) (toC om)
  have c10 := coef_tendsto (C := fun s => -(s * 2 + m ^ 2 * 3) / m ^ 2 * thermal.j_m_i q m beta + (s * 2 + m ^ 2) / m ^ 2 * thermal.j_0_i q beta + (s + m ^ 2 * 3) * thermal.d_j_m_i q m beta - m ^ 4 * thermal.d2_j_m_i q m beta) (by fun_prop) (toC om)
  have j : ∀ X Y : ℂ, Tendsto (fun p : ℝ => (toC om ^ 2 + (p : ℂ) ^ 2)⁻¹ * (toC om ^ 2 * X + (p : ℂ) ^ 2 * Y)) (𝓝[≠] 0) (𝓝 X) := by
    intro X Y
    have := ((s_tendsto (toC om)).inv₀ (pow_ne_zero 2 hw0)).mul
      ((tendsto_const_nhds (x := toC om ^ 2 * X)).add ((ofReal_tendsto_zero.pow 2).mul_const Y))
    refine limit_congr this (fun p => rfl) ?_
    field_simp
    simp
  have j1 := j (thermal.j_m_t_i q m beta : ℝ) (thermal.j_m_l_i q m beta : ℝ)
  have j2 := j (thermal.j_0_t_i q beta : ℝ) (thermal.j_0_l_i q beta : ℝ)
  have j3 := j (thermal.d_j_m_t_i q m beta : ℝ) (thermal.d_j_m_l_i q m beta : ℝ)
  have j4 := j (thermal.d2_j_m_t_i q m beta : ℝ) (thermal.d2_j_m_l_i q m beta : ℝ)
  have c11 := (((j1.sub j2).div_const ((m : ℂ) ^ 2)).sub j3).add ((j4.mul_const ((m : ℂ) ^ 2)).div_const 2)
  refine limit_congr ((((((((((c10.add (c1.mul y2)).add (c2.mul z2)).add (c3.mul x2)).add (c4.mul z1)).add (c5.mul x1)).add (c6.mul z5)).add (c7.mul x5)).add (c8.mul z4)).add (c9.mul x4)).add c11) (fun p => ?_) ?_
  · simp only [gluon.thermal.polarization_glue_l_thermal_part_landau_i, map_neg, map_mul (Num.toC (T := T)), map_add (Num.toC (T := T)), map_sub (Num.toC (T := T)),
      map_div₀ (Num.toC (T := T)), toC_ofR, toC_real, ofR_real, ofR_complex]
    obtain ⟨w, hw⟩ : ∃ x, x = toC om := ⟨_, rfl⟩
    simp only [← hw]
    push_cast
    ring
  · simp only [gluon.thermal.zero_momentum.polarization_glue_l_thermal_part_landau_i, map_neg, map_mul (Num.toC (T := T)), map_add (Num.toC (T := T)), map_sub (Num.toC (T := T)),
      map_div₀ (Num.toC (T := T)), toC_ofR, toC_real, ofR_real, ofR_complex]
    obtain ⟨w, hw⟩ : ∃ x, x = toC om := ⟨_, rfl⟩
    simp only [← hw]
    push_cast
    ring

/-- **C40**: the thermal part of the transverse glue polarization. -/
theorem C40_glue_t (hq : 0 < q) (h0 : (toC om).re ≠ 0) (h1 : |(toC om).im| < q) (m beta : ℝ) :
    Tendsto (fun p : ℝ => gluon.thermal.polarization_glue_t_thermal_part_landau_i q om p m beta) (𝓝[≠] 0)
      (𝓝 (gluon.thermal.zero_momentum.polarization_glue_t_thermal_part_landau_i q om m beta)) := by
  obtain ⟨x1, x2, x3, x4, x5, x6⟩ := C40_second_mass_zero hq beta (strip_half hq h0 h1 m)
  obtain ⟨y1, y2, y3, y4, y5, y6⟩ := C40_zero_mass hq beta (strip_zero hq h0 h1)
  obtain ⟨z1, z2, z3, z4, z5, z6⟩ := C40_same_mass hq beta (strip_same hq h0 h1 m)
  have hw0 : toC om ≠ 0 := fun h => h0 (by simp [h])
  have c1 := coef_tendsto (C := fun s => s ^ 2 * 3 / (m ^ 4 * 2) - 1) (by fun_prop) (toC om)
  have c2 := coef_tendsto (C := fun s => (s ^ 2 * 3 + s * m ^ 2 * 8 + 4 * m ^ 4) / (2 * m ^ 4) + 4) (by fun_prop) (toC om)
  have c3 := coef_tendsto (C := fun s => -(s ^ 2 * 3 + s * m ^ 2 * 4 + m ^ 4) / m ^ 4) (by fun_prop) (toC om)
  have c4 := coef_tendsto (C := fun s => (s + m ^ 2 * 2) * s * 2 / m ^ 2) (by fun_prop) (toC om)
  have c5 := coef_tendsto (C := fun s => -(s + m ^ 2) * s * 2 / m ^ 2) (by fun_prop) (toC om)
  have c6 := coef_tendsto (C := fun s => -((s + m ^ 2 * 2) ^ 2 / m ^ 2 + m ^ 2 * 8)) (by fun_prop) (toC om)
  have c7 := coef_tendsto (C := fun s => (s + m ^ 2) ^ 2 / m ^ 2) (by fun_prop) (toC om)
  have c8 := coef_tendsto (C := fun s => -s * 2 * (s + m ^ 2 * 4)) (by fun_prop) (toC om)
  have c9 := coef_tendsto (C := fun s => (s + m ^ 2) ^ 2) (by fun_prop) (toC om)
  have c10 := coef_tendsto (C := fun s => -(s * 2 + m ^ 2 * 3) / m ^ 2 * thermal.j_m_i q m beta + (s * 2 + m ^ 2) / m ^ 2 * thermal.j_0_i q beta + (s + m ^ 2 * 3) * thermal.d_j_m_i q m beta - m ^ 4 * thermal.d2_j_m_i q m beta) (by fun_prop) (toC om)
  have c11 : Tendsto (fun _ : ℝ => ((((thermal.j_m_t_i q m beta - thermal.j_0_t_i q beta) / m ^ 2 - thermal.d_j_m_t_i q m beta
    + thermal.d2_j_m_t_i q m beta * m ^ 2 / 2 : ℝ)) : ℂ)) (𝓝[≠] 0) _ := tendsto_const_nhds
  refine limit_congr ((((((((((c10.add (c1.mul y3)).add (c2.mul z3)).add (c3.mul x3)).add (c4.mul z1)).add (c5.mul x1)).add (c6.mul z6)).add (c7.mul x6)).add (c8.mul z4)).add (c9.mul x4)).add c11) (fun p => ?_) ?_
  · simp only [gluon.thermal.polarization_glue_t_thermal_part_landau_i, map_neg, map_mul (Num.toC (T := T)), map_add (Num.toC (T := T)), map_sub (Num.toC (T := T)),
      map_div₀ (Num.toC (T := T)), toC_ofR, toC_real, ofR_real, ofR_complex]
    obtain ⟨w, hw⟩ : ∃ x, x = toC om := ⟨_, rfl⟩
    simp only [← hw]
    push_cast
    ring
  · simp only [gluon.thermal.zero_momentum.polarization_glue_l_thermal_part_landau_i, gluon.thermal.zero_momentum.polarization_glue_t_thermal_part_landau_i, thermal.zero_momentum.i_m_m_t_i_same_mass, thermal.zero_momentum.i_m_0_t_i, thermal.zero_momentum.i_0_0_t_i, thermal.zero_momentum.d_i_m_m_t_i_same_mass, thermal.zero_momentum.d_i_m_0_t_i, map_neg, map_mul (Num.toC (T := T)), map_add (Num.toC (T := T)), map_sub (Num.toC (T := T)),
      map_div₀ (Num.toC (T := T)), toC_ofR, toC_real, ofR_real, ofR_complex]
    obtain ⟨w, hw⟩ : ∃ x, x = toC om := ⟨_, rfl⟩
    simp only [← hw]
    push_cast
    ring

theorem PF_quark {w p E : ℂ} (hw : w ≠ 0) (hs : w ^ 2 + p ^ 2 ≠ 0) :
    w ^ 2 + p ^ 2 - E * E * 4 + w * 4 * I * E = w ^ 2 * PF w p E 0 ^ 2 * (w ^ 2 + p ^ 2)⁻¹ ^ 2 + p ^ 2 := by
  have h : PF w p E 0 = (w ^ 2 + p ^ 2) * (w + 2 * Complex.I * E) * w⁻¹ := by
    simp only [PF, I]; field_simp; ring
  rw [h]
  have e : w ^ 2 * ((w ^ 2 + p ^ 2) * (w + 2 * Complex.I * E) * w⁻¹) ^ 2 * (w ^ 2 + p ^ 2)⁻¹ ^ 2
      = (w * w⁻¹) ^ 2 * ((w ^ 2 + p ^ 2) * (w ^ 2 + p ^ 2)⁻¹) ^ 2 * (w + 2 * Complex.I * E) ^ 2 := by ring
  rw [e, mul_inv_cancel₀ hw, mul_inv_cancel₀ hs]
  simp only [I]; ring_nf; simp only [Complex.I_sq]; ring

theorem PF_quark_neg {w p E : ℂ} (hw : w ≠ 0) (hs : w ^ 2 + p ^ 2 ≠ 0) :
    w ^ 2 + p ^ 2 - E * E * 4 - w * 4 * I * E = w ^ 2 * PF (-w) p E 0 ^ 2 * (w ^ 2 + p ^ 2)⁻¹ ^ 2 + p ^ 2 := by
  have := PF_quark (w := -w) (p := p) (E := E) (neg_ne_zero.2 hw) (by simpa using hs)
  simp only [neg_sq] at this
  rw [← this]; ring

theorem rest_den_ne {w E : ℂ} (h1 : R0 w 0 E 0 ≠ 0) (h2 : R0 (-w) 0 E 0 ≠ 0) : w ^ 2 + 4 * E ^ 2 ≠ 0 := by
  intro h
  have : R0 w 0 E 0 * R0 (-w) 0 E 0 = w ^ 2 * (w ^ 2 + 4 * E ^ 2) := by
    simp only [R0, I]; ring_nf; simp only [Complex.I_sq]; ring
  rw [h, mul_zero] at this
  exact mul_ne_zero h1 h2 this

theorem rest_inv_sum {w E : ℂ} (hw : w ≠ 0) (h1 : R0 w 0 E 0 ≠ 0) (h2 : R0 (-w) 0 E 0 ≠ 0) :
    (R0 w 0 E 0)⁻¹ + (R0 (-w) 0 E 0)⁻¹ = 2 / (w ^ 2 + 4 * E ^ 2) := by
  have h3 := rest_den_ne h1 h2
  have : R0 w 0 E 0 * R0 (-w) 0 E 0 = w ^ 2 * (w ^ 2 + 4 * E ^ 2) := by
    simp only [R0, I]; ring_nf; simp only [Complex.I_sq]; ring
  have s : R0 w 0 E 0 + R0 (-w) 0 E 0 = 2 * w ^ 2 := by simp only [R0, I]; ring
  rw [inv_add_inv h1 h2, this, s]
  field_simp

/-- **C40**: the longitudinal quark polarization. -/
theorem C40_quark_l (k : Consts ℝ) (hq : 0 < q) (h0 : (toC om).re ≠ 0) (h1 : |(toC om).im| < q) (mq beta mu : ℝ) :
    Tendsto (fun p : ℝ => gluon.thermal.polarization_quark_l_thermal_part_landau_i k q om p mq beta mu) (𝓝[≠] 0)
      (𝓝 (toC (gluon.thermal.zero_momentum.polarization_quark_l_thermal_part_landau_i k q om mq beta mu))) := by
  have hr := strip_same hq h0 h1 mq
  have hw0 : toC om ≠ 0 := hr.frequency
  have hq0 : (q : ℂ) ≠ 0 := Complex.ofReal_ne_zero.2 hq.ne'
  have hpi := pi2_ne
  have hR1 := hr.rest1.1
  have hR2 := hr.rest1.2
  have he : ((energy q mq : ℝ) : ℂ) ≠ 0 := Complex.ofReal_ne_zero.2 (hq.trans_le (le_energy hq.le mq)).ne'
  have L1 := GS_tendsto hq hr.rest1
  have L2 := GLn_tendsto hq hr.rest1
  have cs := (s_tendsto (toC om)).inv₀ (pow_ne_zero 2 hw0)
  have K := (((cs.mul (L2.const_mul (toC om ^ 2 / (8 * (q : ℂ))))).add ((s_tendsto (toC om)).mul (L1.const_mul (1 / (8 * (q : ℂ)))))).sub
    (tendsto_const_nhds (x := (1 : ℂ)))).const_mul ((fermi_distribution_double (energy q mq) beta mu : ℝ) * (q : ℂ) ^ 2 * ((energy q mq : ℝ) : ℂ)⁻¹ * ((k.nc : ℝ) : ℂ)⁻¹ / (2 * PI2))
  rw [show toC (gluon.thermal.zero_momentum.polarization_quark_l_thermal_part_landau_i k q om mq beta mu) = _ from ?_]
  · refine K.congr' ?_
    filter_upwards [self_mem_nhdsWithin, (s_tendsto (toC om)).eventually_ne (pow_ne_zero 2 hw0)] with p hp hs
    simp only [toC_real]
    have hp' : (p : ℂ) ≠ 0 := by exact_mod_cast hp
    simp only [gluon.thermal.polarization_quark_l_thermal_part_landau_i, tlog_same_mass_eq, GLn, GS, map_neg, map_mul (Num.toC (T := T)), map_add (Num.toC (T := T)), map_sub (Num.toC (T := T)), map_inv₀ (Num.toC (T := T)), map_div₀ (Num.toC (T := T)), toC_ofR, toC_real, toC_complex, ofR_real, ofR_complex, neg_mul, map_neg]
    simp only [toC_real] at hR1 hR2
    obtain ⟨w, hw⟩ : ∃ x, x = toC om := ⟨_, rfl⟩
    simp only [← hw] at hw0 hR1 hR2 ⊢
    push_cast
    simp only [mul_inv, div_eq_mul_inv]
    generalize ((energy q mq : ℝ) : ℂ) = E at hR1 hR2 he ⊢
    generalize ((k.nc : ℕ) : ℂ)⁻¹ = n
    generalize ((fermi_distribution_double (energy q mq) beta mu : ℝ) : ℂ) = F
    simp only [← hw] at hs
    rw [show w * w + (p : ℂ) * p = w ^ 2 + p ^ 2 by ring, PF_quark hw0 hs, PF_quark_neg hw0 hs]
    have h := mul_inv_cancel₀ hs
    generalize PF w p E 0 = P1
    generalize PF (-w) p E 0 = P2
    generalize TL q w p E 0 = T1
    generalize TL q (-w) p E 0 = T2
    generalize (w ^ 2 + (p : ℂ) ^ 2)⁻¹ = u at *
    linear_combination (norm := skip) -(F * q ^ 2 * E⁻¹ * n / (2 * PI2)) * (w ^ 2 * u * (P1 ^ 2 * T1 + P2 ^ 2 * T2) / (8 * q * p ^ 3) + w ^ 2 / p ^ 2) * h
    field_simp
    ring
  · simp only [gluon.thermal.zero_momentum.polarization_quark_l_thermal_part_landau_i, gluon.thermal.zero_momentum.polarization_quark_l_thermal_part_landau_i, map_neg, map_mul (Num.toC (T := T)), map_add (Num.toC (T := T)), map_sub (Num.toC (T := T)), map_inv₀ (Num.toC (T := T)), map_div₀ (Num.toC (T := T)), toC_ofR, toC_real, toC_complex, ofR_real, ofR_complex]
    simp only [toC_real] at hR1 hR2
    obtain ⟨w, hw⟩ : ∃ x, x = toC om := ⟨_, rfl⟩
    simp only [← hw] at hw0 hR1 hR2 ⊢
    push_cast
    simp only [mul_inv, div_eq_mul_inv]
    generalize ((energy q mq : ℝ) : ℂ) = E at hR1 hR2 he ⊢
    generalize ((k.nc : ℕ) : ℂ)⁻¹ = n
    generalize ((fermi_distribution_double (energy q mq) beta mu : ℝ) : ℂ) = F
    rw [rest_inv_sum hw0 hR1 hR2]
    have hD := rest_den_ne hR1 hR2
    field_simp
    ring

/-- **C40**: the transverse quark polarization. -/
theorem C40_quark_t (k : Consts ℝ) (hq : 0 < q) (h0 : (toC om).re ≠ 0) (h1 : |(toC om).im| < q) (mq beta mu : ℝ) :
    Tendsto (fun p : ℝ => gluon.thermal.polarization_quark_t_thermal_part_landau_i k q om p mq beta mu) (𝓝[≠] 0)
      (𝓝 (toC (gluon.thermal.zero_momentum.polarization_quark_t_thermal_part_landau_i k q om mq beta mu))) := by
  have hr := strip_same hq h0 h1 mq
  have hw0 : toC om ≠ 0 := hr.frequency
  have hq0 : (q : ℂ) ≠ 0 := Complex.ofReal_ne_zero.2 hq.ne'
  have hpi := pi2_ne
  have hR1 := hr.rest1.1
  have hR2 := hr.rest1.2
  have he : ((energy q mq : ℝ) : ℂ) ≠ 0 := Complex.ofReal_ne_zero.2 (hq.trans_le (le_energy hq.le mq)).ne'
  have L1 := GS_tendsto hq hr.rest1
  have L2 := GT_tendsto hq hr.rest1
  have K := (((L2.const_mul (1 / (8 * (q : ℂ)))).sub ((s_tendsto (toC om)).mul (L1.const_mul (1 / (4 * (q : ℂ)))))).add
    (tendsto_const_nhds (x := (2 : ℂ)))).const_mul (-(fermi_distribution_double (energy q mq) beta mu : ℝ) * (q : ℂ) ^ 2 * ((energy q mq : ℝ) : ℂ)⁻¹ * ((k.nc : ℝ) : ℂ)⁻¹ / (4 * PI2))
  rw [show toC (gluon.thermal.zero_momentum.polarization_quark_t_thermal_part_landau_i k q om mq beta mu) = _ from ?_]
  · refine K.congr' ?_
    filter_upwards [self_mem_nhdsWithin] with p hp
    simp only [toC_real]
    have hp' : (p : ℂ) ≠ 0 := by exact_mod_cast hp
    simp only [gluon.thermal.polarization_quark_t_thermal_part_landau_i, tlog_same_mass_eq, GT, GS, map_neg, map_mul (Num.toC (T := T)), map_add (Num.toC (T := T)), map_sub (Num.toC (T := T)), map_inv₀ (Num.toC (T := T)), map_div₀ (Num.toC (T := T)), toC_ofR, toC_real, toC_complex, ofR_real, ofR_complex, neg_mul, map_neg]
    simp only [toC_real] at hR1 hR2
    obtain ⟨w, hw⟩ : ∃ x, x = toC om := ⟨_, rfl⟩
    simp only [← hw] at hw0 hR1 hR2 ⊢
    push_cast
    simp only [mul_inv, div_eq_mul_inv]
    generalize ((energy q mq : ℝ) : ℂ) = E at hR1 hR2 he ⊢
    generalize ((k.nc : ℕ) : ℂ)⁻¹ = n
    generalize ((fermi_distribution_double (energy q mq) beta mu : ℝ) : ℂ) = F
    have f1 : ((-(w * w) + (p : ℂ) * p) * (w * w + p * p) + 4 * (q * q) * (p * p) + w * w * 4 * E * E) - w * (w * w + p * p) * 4 * I * E
        = -R0 w p E 0 ^ 2 + 2 * p ^ 2 * (w ^ 2 + p ^ 2) + 4 * q ^ 2 * p ^ 2 := by
      simp only [R0, I]; ring_nf; simp only [Complex.I_sq]; ring
    have f2 : ((-(w * w) + (p : ℂ) * p) * (w * w + p * p) + 4 * (q * q) * (p * p) + w * w * 4 * E * E) + w * (w * w + p * p) * 4 * I * E
        = -R0 (-w) p E 0 ^ 2 + 2 * p ^ 2 * (w ^ 2 + p ^ 2) + 4 * q ^ 2 * p ^ 2 := by
      simp only [R0, I]; ring_nf; simp only [Complex.I_sq]; ring
    rw [f1, f2]
    generalize R0 w p E 0 = P1
    generalize R0 (-w) p E 0 = P2
    generalize TL q w p E 0 = T1
    generalize TL q (-w) p E 0 = T2
    field_simp
    ring
  · simp only [gluon.thermal.zero_momentum.polarization_quark_l_thermal_part_landau_i, gluon.thermal.zero_momentum.polarization_quark_t_thermal_part_landau_i, map_neg, map_mul (Num.toC (T := T)), map_add (Num.toC (T := T)), map_sub (Num.toC (T := T)), map_inv₀ (Num.toC (T := T)), map_div₀ (Num.toC (T := T)), toC_ofR, toC_real, toC_complex, ofR_real, ofR_complex]
    simp only [toC_real] at hR1 hR2
    obtain ⟨w, hw⟩ : ∃ x, x = toC om := ⟨_, rfl⟩
    simp only [← hw] at hw0 hR1 hR2 ⊢
    push_cast
    simp only [mul_inv, div_eq_mul_inv]
    generalize ((energy q mq : ℝ) : ℂ) = E at hR1 hR2 he ⊢
    generalize ((k.nc : ℕ) : ℂ)⁻¹ = n
    generalize ((fermi_distribution_double (energy q mq) beta mu : ℝ) : ℂ) = F
    rw [rest_inv_sum hw0 hR1 hR2]
    have hD := rest_den_ne hR1 hR2
    field_simp
    ring

/-- **C40**: the longitudinal quark polarization, zero-temperature integrand. -/
theorem C40_quark_l_zero_temp (k : Consts ℝ) (hq : 0 < q) (h0 : (toC om).re ≠ 0) (h1 : |(toC om).im| < q) (mq mu : ℝ) :
    Tendsto (fun p : ℝ => gluon.thermal.polarization_quark_l_thermal_part_zero_temp_landau_i k q om p mq mu) (𝓝[≠] 0)
      (𝓝 (toC (gluon.thermal.zero_momentum.polarization_quark_l_thermal_part_zero_temp_landau_i k q om mq mu))) := by
  have hr := strip_same hq h0 h1 mq
  have hw0 : toC om ≠ 0 := hr.frequency
  have hq0 : (q : ℂ) ≠ 0 := Complex.ofReal_ne_zero.2 hq.ne'
  have hpi := pi2_ne
  have hR1 := hr.rest1.1
  have hR2 := hr.rest1.2
  have he : ((energy q mq : ℝ) : ℂ) ≠ 0 := Complex.ofReal_ne_zero.2 (hq.trans_le (le_energy hq.le mq)).ne'
  have L1 := GS_tendsto hq hr.rest1
  have L2 := GLn_tendsto hq hr.rest1
  have cs := (s_tendsto (toC om)).inv₀ (pow_ne_zero 2 hw0)
  have K := (((cs.mul (L2.const_mul (toC om ^ 2 / (8 * (q : ℂ))))).add ((s_tendsto (toC om)).mul (L1.const_mul (1 / (8 * (q : ℂ)))))).sub
    (tendsto_const_nhds (x := (1 : ℂ)))).const_mul ((fermi_distribution_double_zero_temp (energy q mq) mu : ℝ) * (q : ℂ) ^ 2 * ((energy q mq : ℝ) : ℂ)⁻¹ * ((k.nc : ℝ) : ℂ)⁻¹ / (2 * PI2))
  rw [show toC (gluon.thermal.zero_momentum.polarization_quark_l_thermal_part_zero_temp_landau_i k q om mq mu) = _ from ?_]
  · refine K.congr' ?_
    filter_upwards [self_mem_nhdsWithin, (s_tendsto (toC om)).eventually_ne (pow_ne_zero 2 hw0)] with p hp hs
    simp only [toC_real]
    have hp' : (p : ℂ) ≠ 0 := by exact_mod_cast hp
    simp only [gluon.thermal.polarization_quark_l_thermal_part_zero_temp_landau_i, tlog_same_mass_eq, GLn, GS, map_neg, map_mul (Num.toC (T := T)), map_add (Num.toC (T := T)), map_sub (Num.toC (T := T)), map_inv₀ (Num.toC (T := T)), map_div₀ (Num.toC (T := T)), toC_ofR, toC_real, toC_complex, ofR_real, ofR_complex, neg_mul, map_neg]
    simp only [toC_real] at hR1 hR2
    obtain ⟨w, hw⟩ : ∃ x, x = toC om := ⟨_, rfl⟩
    simp only [← hw] at hw0 hR1 hR2 ⊢
    push_cast
    simp only [mul_inv, div_eq_mul_inv]
    generalize ((energy q mq : ℝ) : ℂ) = E at hR1 hR2 he ⊢
    generalize ((k.nc : ℕ) : ℂ)⁻¹ = n
    generalize ((fermi_distribution_double_zero_temp (energy q mq) mu : ℝ) : ℂ) = F
    simp only [← hw] at hs
    rw [show w * w + (p : ℂ) * p = w ^ 2 + p ^ 2 by ring, PF_quark hw0 hs, PF_quark_neg hw0 hs]
    have h := mul_inv_cancel₀ hs
    generalize PF w p E 0 = P1
    generalize PF (-w) p E 0 = P2
    generalize TL q w p E 0 = T1
    generalize TL q (-w) p E 0 = T2
    generalize (w ^ 2 + (p : ℂ) ^ 2)⁻¹ = u at *
    linear_combination (norm := skip) -(F * q ^ 2 * E⁻¹ * n / (2 * PI2)) * (w ^ 2 * u * (P1 ^ 2 * T1 + P2 ^ 2 * T2) / (8 * q * p ^ 3) + w ^ 2 / p ^ 2) * h
    field_simp
    ring
  · simp only [gluon.thermal.zero_momentum.polarization_quark_l_thermal_part_zero_temp_landau_i, gluon.thermal.zero_momentum.polarization_quark_l_thermal_part_zero_temp_landau_i, map_neg, map_mul (Num.toC (T := T)), map_add (Num.toC (T := T)), map_sub (Num.toC (T := T)), map_inv₀ (Num.toC (T := T)), map_div₀ (Num.toC (T := T)), toC_ofR, toC_real, toC_complex, ofR_real, ofR_complex]
    simp only [toC_real] at hR1 hR2
    obtain ⟨w, hw⟩ : ∃ x, x = toC om := ⟨_, rfl⟩
    simp only [← hw] at hw0 hR1 hR2 ⊢
    push_cast
    simp only [mul_inv, div_eq_mul_inv]
    generalize ((energy q mq : ℝ) : ℂ) = E at hR1 hR2 he ⊢
    generalize ((k.nc : ℕ) : ℂ)⁻¹ = n
    generalize ((fermi_distribution_double_zero_temp (energy q mq) mu : ℝ) : ℂ) = F
    rw [rest_inv_sum hw0 hR1 hR2]
    have hD := rest_den_ne hR1 hR2
    field_simp
    ring

/-- **C40**: the transverse quark polarization, zero-temperature integrand. -/
theorem C40_quark_t_zero_temp (k : Consts ℝ) (hq : 0 < q) (h0 : (toC om).re ≠ 0) (h1 : |(toC om).im| < q) (mq mu : ℝ) :
    Tendsto (fun p : ℝ => gluon.thermal.polarization_quark_t_thermal_part_zero_temp_landau_i k q om p mq mu) (𝓝[≠] 0)
      (𝓝 (toC (gluon.thermal.zero_momentum.polarization_quark_t_thermal_part_zero_temp_landau_i k q om mq mu))) := by
  have hr := strip_same hq h0 h1 mq
  have hw0 : toC om ≠ 0 := hr.frequency
  have hq0 : (q : ℂ) ≠ 0 := Complex.ofReal_ne_zero.2 hq.ne'
  have hpi := pi2_ne
  have hR1 := hr.rest1.1
  have hR2 := hr.rest1.2
  have he : ((energy q mq : ℝ) : ℂ) ≠ 0 := Complex.ofReal_ne_zero.2 (hq.trans_le (le_energy hq.le mq)).ne'
  have L1 := GS_tendsto hq hr.rest1
  have L2 := GT_tendsto hq hr.rest1
  have K := (((L2.const_mul (1 / (8 * (q : ℂ)))).sub ((s_tendsto (toC om)).mul (L1.const_mul (1 / (4 * (q : ℂ)))))).add
    (tendsto_const_nhds (x := (2 : ℂ)))).const_mul (-(fermi_distribution_double_zero_temp (energy q mq) mu : ℝ) * (q : ℂ) ^ 2 * ((energy q mq : ℝ) : ℂ)⁻¹ * ((k.nc : ℝ) : ℂ)⁻¹ / (4 * PI2))
  rw [show toC (gluon.thermal.zero_momentum.polarization_quark_t_thermal_part_zero_temp_landau_i k q om mq mu) = _ from ?_]
  · refine K.congr' ?_
    filter_upwards [self_mem_nhdsWithin] with p hp
    simp only [toC_real]
    have hp' : (p : ℂ) ≠ 0 := by exact_mod_cast hp
    simp only [gluon.thermal.polarization_quark_t_thermal_part_zero_temp_landau_i, tlog_same_mass_eq, GT, GS, map_neg, map_mul (Num.toC (T := T)), map_add (Num.toC (T := T)), map_sub (Num.toC (T := T)), map_inv₀ (Num.toC (T := T)), map_div₀ (Num.toC (T := T)), toC_ofR, toC_real, toC_complex, ofR_real, ofR_complex, neg_mul, map_neg]
    simp only [toC_real] at hR1 hR2
    obtain ⟨w, hw⟩ : ∃ x, x = toC om := ⟨_, rfl⟩
    simp only [← hw] at hw0 hR1 hR2 ⊢
    push_cast
    simp only [mul_inv, div_eq_mul_inv]
    generalize ((energy q mq : ℝ) : ℂ) = E at hR1 hR2 he ⊢
    generalize ((k.nc : ℕ) : ℂ)⁻¹ = n
    generalize ((fermi_distribution_double_zero_temp (energy q mq) mu : ℝ) : ℂ) = F
    have f1 : ((-(w * w) + (p : ℂ) * p) * (w * w + p * p) + 4 * (q * q) * (p * p) + w * w * 4 * E * E) - w * (w * w + p * p) * 4 * I * E
        = -R0 w p E 0 ^ 2 + 2 * p ^ 2 * (w ^ 2 + p ^ 2) + 4 * q ^ 2 * p ^ 2 := by
      simp only [R0, I]; ring_nf; simp only [Complex.I_sq]; ring
    have f2 : ((-(w * w) + (p : ℂ) * p) * (w * w + p * p) + 4 * (q * q) * (p * p) + w * w * 4 * E * E) + w * (w * w + p * p) * 4 * I * E
        = -R0 (-w) p E 0 ^ 2 + 2 * p ^ 2 * (w ^ 2 + p ^ 2) + 4 * q ^ 2 * p ^ 2 := by
      simp only [R0, I]; ring_nf; simp only [Complex.I_sq]; ring
    rw [f1, f2]
    generalize R0 w p E 0 = P1
    generalize R0 (-w) p E 0 = P2
    generalize TL q w p E 0 = T1
    generalize TL q (-w) p E 0 = T2
    field_simp
    ring
  · simp only [gluon.thermal.zero_momentum.polarization_quark_l_thermal_part_zero_temp_landau_i, gluon.thermal.zero_momentum.polarization_quark_t_thermal_part_zero_temp_landau_i, map_neg, map_mul (Num.toC (T := T)), map_add (Num.toC (T := T)), map_sub (Num.toC (T := T)), map_inv₀ (Num.toC (T := T)), map_div₀ (Num.toC (T := T)), toC_ofR, toC_real, toC_complex, ofR_real, ofR_complex]
    simp only [toC_real] at hR1 hR2
    obtain ⟨w, hw⟩ : ∃ x, x = toC om := ⟨_, rfl⟩
    simp only [← hw] at hw0 hR1 hR2 ⊢
    push_cast
    simp only [mul_inv, div_eq_mul_inv]
    generalize ((energy q mq : ℝ) : ℂ) = E at hR1 hR2 he ⊢
    generalize ((k.nc : ℕ) : ℂ)⁻¹ = n
    generalize ((fermi_distribution_double_zero_temp (energy q mq) mu : ℝ) : ℂ) = F
    rw [rest_inv_sum hw0 hR1 hR2]
    have hD := rest_den_ne hR1 hR2
    field_simp
    ring

end

/-- The hypotheses are met by a lowest Matsubara frequency and by a frequency off the real axis. -/
example : Tendsto (fun p : ℝ => gluon.thermal.polarization_glue_l_thermal_part_landau_i 1 (2 : ℝ) p (1 / 2) 3) (𝓝[≠] 0)
    (𝓝 (gluon.thermal.zero_momentum.polarization_glue_l_thermal_part_landau_i 1 (2 : ℝ) (1 / 2) 3)) :=
  C40_glue_l one_pos (by simp) (by simp) _ _

example : Tendsto (fun p : ℝ => thermal.i_m_m_i 3 (2 + Complex.I) p (4 : ℝ) (5 : ℝ) 1) (𝓝[≠] 0)
    (𝓝 (thermal.zero_momentum.i_m_m_i 3 (2 + Complex.I) (4 : ℝ) (5 : ℝ) 1)) := by
  refine C40_i_m_m_i (by norm_num) 1 ?_
  have h1 := le_energy (q := 3) (by norm_num) 4
  have h2 := le_energy (q := 3) (by norm_num) 5
  have := C40_regular_of_strip (w := 2 + Complex.I) (e1 := energy 3 4) (e2 := energy 3 5) (d := 5 * 5 - 4 * 4) (by simp)
    (lt_of_lt_of_le (by norm_num) h1) (lt_of_lt_of_le (by norm_num) h2)
  simpa using this

end Qcd
