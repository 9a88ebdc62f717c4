import Verif.Lemmas.ZeroMomentum
import Verif.Spec.ZeroMomentum
import Verif.Props.ThermalAlgebra
import Verif.Props.ThermalLoop

/-! # C40: the zero-momentum formulas are the limits of the general ones

Specification of the regularity condition: `Verif/Spec/ZeroMomentum.lean`. -/

set_option linter.unusedSimpArgs false
set_option linter.unusedVariables false

namespace Qcd
open Filter Topology

theorem Spec.RestRegular.rest1 {w e1 e2 d : ℂ} (h : Spec.RestRegular w e1 e2 d) : AtRest w e1 d := by
  refine ⟨fun h' => h.first ?_, fun h' => h.first_opp ?_⟩
  · rw [← h']; simp only [R0]; ring
  · rw [← h']; simp only [R0]; ring

theorem Spec.RestRegular.rest2 {w e1 e2 d : ℂ} (h : Spec.RestRegular w e1 e2 d) : AtRest w e2 (-d) := by
  refine ⟨fun h' => h.second ?_, fun h' => h.second_opp ?_⟩
  · rw [← h']; simp only [R0]; ring
  · rw [← h']; simp only [R0]; ring

theorem pi2_ne : (PI2 : ℂ) ≠ 0 := Complex.ofReal_ne_zero.2 (mul_pos Real.pi_pos Real.pi_pos).ne'

theorem zm_den1 (w e d : ℂ) : w * w + e * (w * I * ((2 : ℝ) : ℂ)) + d = R0 w 0 e d := by simp only [R0, I]; push_cast; ring
theorem zm_den2 (w e d : ℂ) : w * w - e * (w * I * ((2 : ℝ) : ℂ)) + d = R0 (-w) 0 e d := by simp only [R0, I]; push_cast; ring
theorem zm_den3 (w e d : ℂ) : w * w + e * (w * I * ((2 : ℝ) : ℂ)) - d = R0 w 0 e (-d) := by simp only [R0, I]; push_cast; ring
theorem zm_den4 (w e d : ℂ) : w * w - e * (w * I * ((2 : ℝ) : ℂ)) - d = R0 (-w) 0 e (-d) := by simp only [R0, I]; push_cast; ring

/-- The step common to all two-propagator integrands. -/
theorem limit_of_legs {f : ℝ → ℂ} {n : ℕ} {c : ℝ → ℂ} {c0 a1 a2 b1 b2 v : ℂ} {X1 X2 Y1 Y2 : ℝ → ℂ} {x1 x2 y1 y2 : ℂ}
    (hf : ∀ p : ℝ, p ≠ 0 → f p = c p * (a1 * (X1 p / p ^ n) + a2 * (X2 p / p ^ n) + b1 * (Y1 p / p ^ n) + b2 * (Y2 p / p ^ n)))
    (hc : Tendsto c (𝓝[≠] 0) (𝓝 c0))
    (h1 : Tendsto (fun p : ℝ => X1 p / (p : ℂ) ^ n) (𝓝[≠] 0) (𝓝 x1)) (h2 : Tendsto (fun p : ℝ => X2 p / (p : ℂ) ^ n) (𝓝[≠] 0) (𝓝 x2))
    (h3 : Tendsto (fun p : ℝ => Y1 p / (p : ℂ) ^ n) (𝓝[≠] 0) (𝓝 y1)) (h4 : Tendsto (fun p : ℝ => Y2 p / (p : ℂ) ^ n) (𝓝[≠] 0) (𝓝 y2))
    (hv : v = c0 * (a1 * x1 + a2 * x2 + b1 * y1 + b2 * y2)) : Tendsto f (𝓝[≠] 0) (𝓝 v) := by
  rw [hv]
  refine (hc.mul ((((h1.const_mul a1).add (h2.const_mul a2)).add (h3.const_mul b1)).add (h4.const_mul b2))).congr' ?_
  filter_upwards [self_mem_nhdsWithin] with p hp
  rw [hf p hp]

section
variable {T1 T2 T3 : Type} [Num T1] [Num T2] [Num T3] {q : ℝ} {om : T1} {m1 : T2} {m2 : T3}

/-- **C40**: the scalar loop. -/
theorem C40_i_m_m_i (hq : 0 < q) (beta : ℝ)
    (h : Spec.RestRegular (toC om) (toC (energy q m1)) (toC (energy q m2)) (toC (m2 * m2) - toC (m1 * m1))) :
    Tendsto (fun p : ℝ => thermal.i_m_m_i q om p m1 m2 beta) (𝓝[≠] 0) (𝓝 (thermal.zero_momentum.i_m_m_i q om m1 m2 beta)) := by
  have hpi := pi2_ne
  have L1 := GS_tendsto hq h.rest1
  have L2 := GS_tendsto hq h.rest2
  refine limit_of_legs (n := 1) (c := fun _ => (16 * PI2 : ℂ)⁻¹) (a1 := q * toC (bose_distribution_zero_chempot (energy q m1) beta / energy q m1))
    (a2 := q * toC (bose_distribution_zero_chempot (energy q m2) beta / energy q m2)) (b1 := 0) (b2 := 0) (fun p hp => ?_)
    tendsto_const_nhds (by simpa only [pow_one] using L1) (by simpa only [pow_one] using L2) (by simpa only [pow_one] using L1) (by simpa only [pow_one] using L2) ?_
  · simp only [thermal.i_m_m_i, tlog_eq, GS, map_neg, toC_real, toC_complex, ofR_complex]
    have : (p : ℂ) ≠ 0 := by exact_mod_cast hp
    push_cast
    field_simp
    ring
  · simp only [thermal.zero_momentum.i_m_m_i, map_mul (Num.toC (T := T1)), toC_complex, ofR_complex, zm_den1, zm_den2, zm_den3, zm_den4]
    push_cast
    field_simp
    ring

/-- **C40**: the longitudinal loop. -/
theorem C40_i_m_m_l_i (hq : 0 < q) (beta : ℝ)
    (h : Spec.RestRegular (toC om) (toC (energy q m1)) (toC (energy q m2)) (toC (m2 * m2) - toC (m1 * m1))) :
    Tendsto (fun p : ℝ => thermal.i_m_m_l_i q om p m1 m2 beta) (𝓝[≠] 0) (𝓝 (thermal.zero_momentum.i_m_m_l_i q om m1 m2 beta)) := by
  have hpi := pi2_ne
  have L1 := GLn_tendsto hq h.rest1
  have L2 := GLn_tendsto hq h.rest2
  have hw := h.frequency
  have hc : Tendsto (fun p : ℝ => toC om ^ 2 * q * (64 * (PI2 : ℂ) * (toC om ^ 2 + (p : ℂ) ^ 2))⁻¹) (𝓝[≠] 0)
      (𝓝 (toC om ^ 2 * q * (64 * (PI2 : ℂ) * (toC om ^ 2 + (0 : ℂ) ^ 2))⁻¹)) := by
    refine Tendsto.const_mul _ (Tendsto.inv₀ ((tendsto_const_nhds.add (ofReal_tendsto_zero.pow 2)).const_mul _) ?_)
    simpa [hpi] using hw
  refine limit_of_legs (n := 3) (a1 := toC (bose_distribution_zero_chempot (energy q m1) beta / energy q m1))
    (a2 := toC (bose_distribution_zero_chempot (energy q m2) beta / energy q m2)) (b1 := 0) (b2 := 0) (fun p hp => ?_)
    hc L1 L2 L1 L2 ?_
  · simp only [thermal.i_m_m_l_i, tlog_l_eq, GLn, map_neg, map_mul (Num.toC (T := T1)), map_add (Num.toC (T := T1)), map_inv₀ (Num.toC (T := T1)),
      toC_ofR, toC_real, toC_complex, ofR_complex]
    obtain ⟨w, hw⟩ : ∃ x, x = toC om := ⟨_, rfl⟩
    simp only [← hw]
    have : (p : ℂ) ≠ 0 := by exact_mod_cast hp
    push_cast
    rw [show (w * w + (p : ℂ) * p) * (p * p * p) * 64 * PI2 = 64 * (PI2 : ℂ) * (w ^ 2 + p ^ 2) * p ^ 3 by ring, mul_inv]
    generalize (64 * (PI2 : ℂ) * (w ^ 2 + p ^ 2))⁻¹ = c
    field_simp
    ring
  · simp only [thermal.zero_momentum.i_m_m_l_i, map_mul (Num.toC (T := T1)), toC_complex, ofR_complex, zm_den1, zm_den2, zm_den3, zm_den4]
    push_cast
    field_simp
    ring

/-- **C40**: the transverse loop. -/
theorem C40_i_m_m_t_i (hq : 0 < q) (beta : ℝ)
    (h : Spec.RestRegular (toC om) (toC (energy q m1)) (toC (energy q m2)) (toC (m2 * m2) - toC (m1 * m1))) :
    Tendsto (fun p : ℝ => thermal.i_m_m_t_i q om p m1 m2 beta) (𝓝[≠] 0) (𝓝 (thermal.zero_momentum.i_m_m_t_i q om m1 m2 beta)) := by
  have hpi := pi2_ne
  have L1 := GT_tendsto hq h.rest1
  have L2 := GT_tendsto hq h.rest2
  refine limit_of_legs (n := 3) (c := fun _ => -(128 * PI2 : ℂ)⁻¹) (a1 := q * toC (bose_distribution_zero_chempot (energy q m1) beta / energy q m1))
    (a2 := q * toC (bose_distribution_zero_chempot (energy q m2) beta / energy q m2)) (b1 := 0) (b2 := 0) (fun p hp => ?_)
    tendsto_const_nhds L1 L2 L1 L2 ?_
  · simp only [thermal.i_m_m_t_i, tlog_t_eq, GT, map_neg, map_mul (Num.toC (T := T1)), map_add (Num.toC (T := T1)), toC_ofR, toC_real, toC_complex, ofR_complex]
    obtain ⟨w, hw⟩ : ∃ x, x = toC om := ⟨_, rfl⟩
    simp only [← hw]
    have : (p : ℂ) ≠ 0 := by exact_mod_cast hp
    push_cast
    field_simp
    ring
  · simp only [thermal.zero_momentum.i_m_m_t_i, thermal.zero_momentum.i_m_m_l_i, map_mul (Num.toC (T := T1)), toC_complex, ofR_complex, zm_den1, zm_den2, zm_den3, zm_den4]
    push_cast
    field_simp
    ring

/-- **C40**: the mass derivative of the scalar loop. -/
theorem C40_d_i_m_m_i (hq : 0 < q) (beta : ℝ)
    (h : Spec.RestRegular (toC om) (toC (energy q m1)) (toC (energy q m2)) (toC (m2 * m2) - toC (m1 * m1))) :
    Tendsto (fun p : ℝ => thermal.d_i_m_m_i q om p m1 m2 beta) (𝓝[≠] 0) (𝓝 (thermal.zero_momentum.d_i_m_m_i q om m1 m2 beta)) := by
  have hpi := pi2_ne
  have L1 := GSd_tendsto hq h.rest1
  have L2 := GSd_tendsto hq h.rest2
  have L3 := GSq_tendsto hq h.rest1
  refine limit_of_legs (n := 1) (c := fun _ => (16 * PI2 : ℂ)⁻¹) (a1 := -q * toC (bose_distribution_zero_chempot (energy q m1) beta / energy q m1))
    (a2 := q * toC (bose_distribution_zero_chempot (energy q m2) beta / energy q m2)) (b1 := -toC (bose_distribution_zero_chempot (energy q m1) beta / energy q m1) / 2) (b2 := 0) (fun p hp => ?_)
    tendsto_const_nhds (by simpa only [pow_one] using L1) (by simpa only [pow_one] using L2) (by simpa only [pow_one] using L3) (by simpa only [pow_one] using L1) ?_
  · simp only [thermal.d_i_m_m_i, r_0_eq, GSd, GSq, Rp, Rm, map_neg, toC_real, toC_complex, ofR_complex]
    have : (p : ℂ) ≠ 0 := by exact_mod_cast hp
    push_cast
    simp only [show (q : ℂ) * p * 2 = 2 * q * p by ring]
    obtain ⟨h1, hh1⟩ : ∃ x, x = toC (bose_distribution_zero_chempot (energy q m1) beta / energy q m1) := ⟨_, rfl⟩
    simp only [← hh1]
    obtain ⟨h2, hh2⟩ : ∃ x, x = toC (bose_distribution_zero_chempot (energy q m2) beta / energy q m2) := ⟨_, rfl⟩
    simp only [← hh2]
    obtain ⟨w, hw'⟩ : ∃ x, x = toC om := ⟨_, rfl⟩
    simp only [← hw']
    obtain ⟨E1, hE1⟩ : ∃ x, x = toC (energy q m1) := ⟨_, rfl⟩
    simp only [← hE1]
    obtain ⟨E2, hE2⟩ : ∃ x, x = toC (energy q m2) := ⟨_, rfl⟩
    simp only [← hE2]
    obtain ⟨D, hD⟩ : ∃ x, x = toC (m2 * m2) - toC (m1 * m1) := ⟨_, rfl⟩
    simp only [← hD]
    generalize (R0 w p E1 D + 2 * q * p)⁻¹ = a1
    generalize (R0 w p E1 D - 2 * q * p)⁻¹ = a2
    generalize (R0 (-w) p E1 D + 2 * q * p)⁻¹ = a3
    generalize (R0 (-w) p E1 D - 2 * q * p)⁻¹ = a4
    generalize (R0 w p E2 (-D) + 2 * q * p)⁻¹ = a5
    generalize (R0 w p E2 (-D) - 2 * q * p)⁻¹ = a6
    generalize (R0 (-w) p E2 (-D) + 2 * q * p)⁻¹ = a7
    generalize (R0 (-w) p E2 (-D) - 2 * q * p)⁻¹ = a8
    field_simp
    ring
  · simp only [thermal.zero_momentum.d_i_m_m_i, zm_r_0_eq, map_neg, toC_complex, ofR_complex]
    push_cast
    field_simp
    ring

/-- **C40**: the mass derivative of the longitudinal loop. -/
theorem C40_d_i_m_m_l_i (hq : 0 < q) (beta : ℝ)
    (h : Spec.RestRegular (toC om) (toC (energy q m1)) (toC (energy q m2)) (toC (m2 * m2) - toC (m1 * m1))) :
    Tendsto (fun p : ℝ => thermal.d_i_m_m_l_i q om p m1 m2 beta) (𝓝[≠] 0) (𝓝 (thermal.zero_momentum.d_i_m_m_l_i q om m1 m2 beta)) := by
  have hpi := pi2_ne
  have L1 := GLnd_tendsto hq h.rest1
  have L2 := GLnd_tendsto hq h.rest2
  have L3 := GLnq_tendsto hq h.rest1
  have hw := h.frequency
  have hc : Tendsto (fun p : ℝ => toC om ^ 2 * (64 * (PI2 : ℂ) * (toC om ^ 2 + (p : ℂ) ^ 2))⁻¹) (𝓝[≠] 0)
      (𝓝 (toC om ^ 2 * (64 * (PI2 : ℂ) * (toC om ^ 2 + (0 : ℂ) ^ 2))⁻¹)) := by
    refine Tendsto.const_mul _ (Tendsto.inv₀ ((tendsto_const_nhds.add (ofReal_tendsto_zero.pow 2)).const_mul _) ?_)
    simpa [hpi] using hw
  refine limit_of_legs (n := 3) (a1 := -q * toC (bose_distribution_zero_chempot (energy q m1) beta / energy q m1))
    (a2 := q * toC (bose_distribution_zero_chempot (energy q m2) beta / energy q m2)) (b1 := -toC (bose_distribution_zero_chempot (energy q m1) beta / energy q m1) / 2) (b2 := 0) (fun p hp => ?_)
    hc L1 L2 L3 L1 ?_
  · simp only [thermal.d_i_m_m_l_i, r_0_eq, tlog_eq, GLnd, GLnq, Rp, Rm, map_neg, map_mul (Num.toC (T := T1)), map_add (Num.toC (T := T1)), map_inv₀ (Num.toC (T := T1)),
      toC_ofR, toC_real, toC_complex, ofR_complex]
    obtain ⟨w, hw⟩ : ∃ x, x = toC om := ⟨_, rfl⟩
    simp only [← hw]
    have hp' : (p : ℂ) ≠ 0 := by exact_mod_cast hp
    push_cast
    have e1 : ∀ e d : ℂ, R0 w p e d + e * (w⁻¹ * 2 * I * (p * p)) = PF w p e d := fun e d => by simp only [R0, PF, I]; ring
    have e2 : ∀ e d : ℂ, R0 (-w) p e d - e * (w⁻¹ * 2 * I * (p * p)) = PF (-w) p e d := fun e d => by simp only [R0, PF, I, inv_neg]; ring
    simp only [e1, e2, show (2 : ℂ) * p * q = 2 * q * p by ring]
    obtain ⟨h1, hh1⟩ : ∃ x, x = toC (bose_distribution_zero_chempot (energy q m1) beta / energy q m1) := ⟨_, rfl⟩
    simp only [← hh1]
    obtain ⟨h2, hh2⟩ : ∃ x, x = toC (bose_distribution_zero_chempot (energy q m2) beta / energy q m2) := ⟨_, rfl⟩
    simp only [← hh2]
    obtain ⟨E1, hE1⟩ : ∃ x, x = toC (energy q m1) := ⟨_, rfl⟩
    simp only [← hE1]
    obtain ⟨E2, hE2⟩ : ∃ x, x = toC (energy q m2) := ⟨_, rfl⟩
    simp only [← hE2]
    obtain ⟨D, hD⟩ : ∃ x, x = toC (m2 * m2) - toC (m1 * m1) := ⟨_, rfl⟩
    simp only [← hD]
    rw [show (w * w + (p : ℂ) * p) * (p * p) * 64 * PI2 = 64 * (PI2 : ℂ) * (w ^ 2 + p ^ 2) * p ^ 2 by ring, mul_inv]
    generalize (64 * (PI2 : ℂ) * (w ^ 2 + p ^ 2))⁻¹ = c
    generalize (R0 w p E1 D + 2 * q * p)⁻¹ = a1
    generalize (R0 w p E1 D - 2 * q * p)⁻¹ = a2
    generalize (R0 (-w) p E1 D + 2 * q * p)⁻¹ = a3
    generalize (R0 (-w) p E1 D - 2 * q * p)⁻¹ = a4
    generalize (R0 w p E2 (-D) + 2 * q * p)⁻¹ = a5
    generalize (R0 w p E2 (-D) - 2 * q * p)⁻¹ = a6
    generalize (R0 (-w) p E2 (-D) + 2 * q * p)⁻¹ = a7
    generalize (R0 (-w) p E2 (-D) - 2 * q * p)⁻¹ = a8
    field_simp
    ring
  · simp only [thermal.zero_momentum.d_i_m_m_l_i, zm_r_0_eq, map_neg, toC_complex, ofR_complex]
    obtain ⟨w, hw'⟩ : ∃ x, x = toC om := ⟨_, rfl⟩
    simp only [← hw'] at hw ⊢
    obtain ⟨h1, hh1⟩ : ∃ x, x = toC (bose_distribution_zero_chempot (energy q m1) beta / energy q m1) := ⟨_, rfl⟩
    simp only [← hh1]
    obtain ⟨h2, hh2⟩ : ∃ x, x = toC (bose_distribution_zero_chempot (energy q m2) beta / energy q m2) := ⟨_, rfl⟩
    simp only [← hh2]
    obtain ⟨E1, hE1⟩ : ∃ x, x = toC (energy q m1) := ⟨_, rfl⟩
    simp only [← hE1]
    obtain ⟨E2, hE2⟩ : ∃ x, x = toC (energy q m2) := ⟨_, rfl⟩
    simp only [← hE2]
    obtain ⟨D, hD⟩ : ∃ x, x = toC (m2 * m2) - toC (m1 * m1) := ⟨_, rfl⟩
    simp only [← hD]
    push_cast
    generalize (R0 w 0 E1 D)⁻¹ = a1
    generalize (R0 (-w) 0 E1 D)⁻¹ = a2
    generalize (R0 w 0 E2 (-D))⁻¹ = a3
    generalize (R0 (-w) 0 E2 (-D))⁻¹ = a4
    field_simp
    ring

/-- **C40**: the mass derivative of the transverse loop. -/
theorem C40_d_i_m_m_t_i (hq : 0 < q) (beta : ℝ)
    (h : Spec.RestRegular (toC om) (toC (energy q m1)) (toC (energy q m2)) (toC (m2 * m2) - toC (m1 * m1))) :
    Tendsto (fun p : ℝ => thermal.d_i_m_m_t_i q om p m1 m2 beta) (𝓝[≠] 0) (𝓝 (thermal.zero_momentum.d_i_m_m_t_i q om m1 m2 beta)) := by
  have hpi := pi2_ne
  have L1 := GTd_tendsto hq h.rest1
  have L2 := GTd_tendsto hq h.rest2
  have L3 := GTq_tendsto hq h.rest1
  refine limit_of_legs (n := 3) (c := fun _ => -(128 * PI2 : ℂ)⁻¹) (a1 := -q * toC (bose_distribution_zero_chempot (energy q m1) beta / energy q m1))
    (a2 := q * toC (bose_distribution_zero_chempot (energy q m2) beta / energy q m2)) (b1 := -toC (bose_distribution_zero_chempot (energy q m1) beta / energy q m1) / 2) (b2 := 0) (fun p hp => ?_)
    tendsto_const_nhds L1 L2 L3 L1 ?_
  · simp only [thermal.d_i_m_m_t_i, r_0_eq, tlog_eq, GTd, GTq, map_neg, neg_div, toC_ofR, toC_real, toC_complex, ofR_complex]
    have : (p : ℂ) ≠ 0 := by exact_mod_cast hp
    push_cast
    obtain ⟨h1, hh1⟩ : ∃ x, x = toC (bose_distribution_zero_chempot (energy q m1) beta / energy q m1) := ⟨_, rfl⟩
    simp only [← hh1]
    obtain ⟨h2, hh2⟩ : ∃ x, x = toC (bose_distribution_zero_chempot (energy q m2) beta / energy q m2) := ⟨_, rfl⟩
    simp only [← hh2]
    field_simp
    ring
  · simp only [thermal.zero_momentum.d_i_m_m_t_i, thermal.zero_momentum.d_i_m_m_l_i, zm_r_0_eq, map_neg, toC_complex, ofR_complex]
    obtain ⟨w, hw'⟩ : ∃ x, x = toC om := ⟨_, rfl⟩
    simp only [← hw']
    obtain ⟨h1, hh1⟩ : ∃ x, x = toC (bose_distribution_zero_chempot (energy q m1) beta / energy q m1) := ⟨_, rfl⟩
    simp only [← hh1]
    obtain ⟨h2, hh2⟩ : ∃ x, x = toC (bose_distribution_zero_chempot (energy q m2) beta / energy q m2) := ⟨_, rfl⟩
    simp only [← hh2]
    obtain ⟨E1, hE1⟩ : ∃ x, x = toC (energy q m1) := ⟨_, rfl⟩
    simp only [← hE1]
    obtain ⟨E2, hE2⟩ : ∃ x, x = toC (energy q m2) := ⟨_, rfl⟩
    simp only [← hE2]
    obtain ⟨D, hD⟩ : ∃ x, x = toC (m2 * m2) - toC (m1 * m1) := ⟨_, rfl⟩
    simp only [← hD]
    push_cast
    generalize (R0 w 0 E1 D)⁻¹ = a1
    generalize (R0 (-w) 0 E1 D)⁻¹ = a2
    generalize (R0 w 0 E2 (-D))⁻¹ = a3
    generalize (R0 (-w) 0 E2 (-D))⁻¹ = a4
    field_simp
    ring

end
end Qcd
