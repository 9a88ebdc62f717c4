import Verif.Spec.ComplexPlane
import Verif.Props.ComplexAccuracy

/-! C125: accuracy of the dressing functions and propagators of complex arguments in the arithmetic of `f64`. -/

namespace Qcd
open Fl Spec FTD

theorem ctrack_of {a : CFl binary64} {v : ℂ} {k : ℕ} (h1 : Is a.re v.re) (h2 : Is a.im v.im) (lo : (10 ^ k)⁻¹ ≤ ‖v‖) (hi : ‖v‖ ≤ 10 ^ k) : CTrack a v ‖v‖ 0 k :=
  ⟨⟨v, h1, h2, by simp⟩, le_rfl, lo, hi⟩

/-- The reciprocal of a number near `j`. -/
theorem inv_near {a : CFl binary64} {j : ℂ} {e : ℝ} (h : NearC a j e) (he : 2 * e ≤ ‖j‖) (lo : 1 / 10 ^ 30 ≤ ‖j‖) (hi : ‖j‖ ≤ 10 ^ 30) :
    ∃ w : ℂ, Is a⁻¹.re w.re ∧ Is a⁻¹.im w.im ∧ ‖w - j⁻¹‖ ≤ 132 * ulp / ‖j‖ + 2 * e / ‖j‖ ^ 2 ∧ ‖w‖ ≤ 2.001 / ‖j‖ ∧ 0.6 / ‖j‖ ≤ ‖w‖ := by
  obtain ⟨v, v1, v2, v3⟩ := h
  have hj : 0 < ‖j‖ := lt_of_lt_of_le (by positivity) lo
  have t1 : ‖j‖ - ‖v‖ ≤ ‖v - j‖ := by rw [norm_sub_rev]; exact norm_sub_norm_le j v
  have t2 : ‖v‖ - ‖j‖ ≤ ‖v - j‖ := norm_sub_norm_le v j
  have lv : ‖j‖ / 2 ≤ ‖v‖ := by linarith
  have hv : 0 < ‖v‖ := by linarith
  have hv' : ‖v‖ ≤ 3 / 2 * ‖j‖ := by linarith
  have T := ctrack_of v1 v2 (k := 31) (by norm_num at lo ⊢; linarith) (by norm_num at hi ⊢; linarith)
  obtain ⟨w, w1, w2, w3⟩ := (T.inv le_rfl (by linarith)).run
  have j0 : j ≠ 0 := norm_pos_iff.1 hj
  have v0 : v ≠ 0 := norm_pos_iff.1 hv
  have iv : ‖v‖⁻¹ ≤ 2 / ‖j‖ := by
    rw [inv_le_comm₀ hv (by positivity), inv_div]; exact lv
  have iv' : 2 / 3 / ‖j‖ ≤ ‖v‖⁻¹ := by
    rw [le_inv_comm₀ (by positivity) hv, inv_div]
    linarith
  have d1 : ‖w - v⁻¹‖ ≤ 66 * ulp * ‖v‖⁻¹ := by
    have : ((4 * 0 + 66 : ℕ) : ℝ) = 66 := by norm_num
    rw [this] at w3
    exact w3
  have hu := uu_pos
  have hu' := uu_small
  change ‖w - v⁻¹‖ ≤ 66 * uu * ‖v‖⁻¹ at d1
  have d2 : ‖v⁻¹ - j⁻¹‖ ≤ 2 * e / ‖j‖ ^ 2 := by
    have e1 : v⁻¹ - j⁻¹ = (j - v) * (v⁻¹ * j⁻¹) := by field_simp
    rw [e1, norm_mul, norm_mul, norm_inv, norm_inv, norm_sub_rev]
    have e0 : 0 ≤ e := (norm_nonneg _).trans v3
    calc ‖v - j‖ * (‖v‖⁻¹ * ‖j‖⁻¹) ≤ e * (2 / ‖j‖ * ‖j‖⁻¹) := by gcongr
      _ = 2 * e / ‖j‖ ^ 2 := by field_simp
  have d3 : 66 * uu * ‖v‖⁻¹ ≤ 132 * uu / ‖j‖ := by
    calc 66 * uu * ‖v‖⁻¹ ≤ 66 * uu * (2 / ‖j‖) := by gcongr
      _ = 132 * uu / ‖j‖ := by ring
  refine ⟨w, w1, w2, ?_, ?_, ?_⟩
  · have := norm_sub_le_norm_sub_add_norm_sub w v⁻¹ j⁻¹
    change _ ≤ 132 * uu / ‖j‖ + _
    linarith
  · have h3 := norm_sub_norm_le w v⁻¹
    rw [norm_inv] at h3
    have : 132 * uu / ‖j‖ ≤ 0.001 / ‖j‖ := by gcongr; norm_num at hu' ⊢; linarith
    have e2 : 2 / ‖j‖ + 0.001 / ‖j‖ = 2.001 / ‖j‖ := by rw [← add_div]; norm_num
    linarith
  · have h3 := norm_sub_norm_le v⁻¹ w
    rw [norm_inv, norm_sub_rev] at h3
    have : 132 * uu / ‖j‖ ≤ 0.001 / ‖j‖ := by gcongr; norm_num at hu' ⊢; linarith
    have e2 : 0.6 / ‖j‖ + 0.001 / ‖j‖ ≤ 2 / 3 / ‖j‖ := by rw [← add_div]; gcongr; norm_num
    linarith

theorem product_near {a b : CFl binary64} {j s w : ℂ} {η : ℝ} (hj : 0 < ‖j‖) (hs : 0 < ‖s‖) {k : ℕ} (T : CTrack (a * b) (s⁻¹ * w) (‖s‖⁻¹ * ‖w‖) 88 k) (hw : ‖w‖ ≤ 2.001 / ‖j‖)
    (hd : ‖w - j⁻¹‖ ≤ 132 * ulp / ‖j‖ + η) : NearC (a * b) (s⁻¹ * j⁻¹) ((310 * ulp / ‖j‖ + η) / ‖s‖) := by
  obtain ⟨z, z1, z2, z3⟩ := T.run
  refine ⟨z, z1, z2, ?_⟩
  have h1 := norm_sub_le_norm_sub_add_norm_sub z (s⁻¹ * w) (s⁻¹ * j⁻¹)
  rw [← mul_sub, norm_mul, norm_inv] at h1
  have hu := uu_pos
  change ‖w - j⁻¹‖ ≤ 132 * uu / ‖j‖ + η at hd
  change _ ≤ (310 * uu / ‖j‖ + η) / ‖s‖
  have h2 : ((88 : ℕ) : ℝ) * uu * (‖s‖⁻¹ * ‖w‖) ≤ ‖s‖⁻¹ * (178 * uu / ‖j‖) := by
    calc ((88 : ℕ) : ℝ) * uu * (‖s‖⁻¹ * ‖w‖) ≤ ((88 : ℕ) : ℝ) * uu * (‖s‖⁻¹ * (2.001 / ‖j‖)) := by gcongr
      _ = ‖s‖⁻¹ * (((88 : ℕ) : ℝ) * 2.001 * uu / ‖j‖) := by ring
      _ ≤ ‖s‖⁻¹ * (178 * uu / ‖j‖) := by gcongr; norm_num
  have h3 : ‖s‖⁻¹ * ‖w - j⁻¹‖ ≤ ‖s‖⁻¹ * (132 * uu / ‖j‖ + η) := by gcongr
  have h4 : (310 * uu / ‖j‖ + η) / ‖s‖ = ‖s‖⁻¹ * (178 * uu / ‖j‖) + ‖s‖⁻¹ * (132 * uu / ‖j‖ + η) := by ring
  rw [h4]
  linarith

theorem propagator_near {x a : CFl binary64} {s j : ℂ} {e : ℝ} (h : Sector x s) (ha : NearC a j e) :
    PropagatorNear a⁻¹ (x⁻¹ * a⁻¹) j⁻¹ (s⁻¹ * j⁻¹) j s e ∧ PropagatorNear a⁻¹ (a⁻¹ * x⁻¹) j⁻¹ (j⁻¹ * s⁻¹) j s e := by
  refine ⟨fun he lo hi => ?_, fun he lo hi => ?_⟩ <;>
    obtain ⟨w, w1, w2, w3, w4, w5⟩ := inv_near ha he lo hi <;>
    have hj : 0 < ‖j‖ := lt_of_lt_of_le (by positivity) lo
  all_goals
    have lo' : (10 ^ 31 : ℝ)⁻¹ ≤ ‖w‖ := le_trans (by
      rw [le_div_iff₀ hj]; norm_num at hi ⊢; linarith) w5
    have hi' : ‖w‖ ≤ 10 ^ 31 := w4.trans (by rw [div_le_iff₀ hj]; norm_num at lo ⊢; linarith)
    have T := ctrack_of w1 w2 lo' hi'
    refine ⟨⟨w, w1, w2, w3⟩, ?_⟩
  · exact product_near hj h.pos (h.ti.mul T) w4 w3
  · have := T.mul h.ti
    rw [mul_comm w, mul_comm ‖w‖] at this
    rw [mul_comm j⁻¹]
    exact product_near hj h.pos (this.mono (by norm_num)) w4 w3

/-- **C125** (dressing functions and propagators): wherever the inverse dressing function is at least twice as large as its error bound, the relative
errors of the dressing function and of the propagator are at most that of the inverse, doubled, and 132 or 310 roundings. -/
theorem C125_propagators {x : CFl binary64} {s : ℂ} {c xi : ℝ} (h : Sector x s) (hc : Binary64 c) (hb : |c| ≤ 10 ^ 6) (hxi : Binary64 xi) (hx : |xi| ≤ 10 ^ 6) :
    PropagatorNear (CFl.ghost.dressing_landau x (ofR c)) (CFl.ghost.propagator_landau x (ofR c)) (ghost.dressing_landau s c) (ghost.propagator_landau s c)
      (ghost.dressing_inv_landau s c) s (305 * ulp * (ghostScaleC s + (|c| + 1))) ∧
    PropagatorNear (CFl.ghost.dressing x (ofR c) (ofR xi)) (CFl.ghost.propagator x (ofR c) (ofR xi)) (ghost.dressing s c xi) (ghost.propagator s c xi)
      (ghost.dressing_inv s c xi) s (310 * ulp * (ghostScaleC s + (|c| + 1) + logScale 1 s / 12 * (|xi| + 1))) ∧
    PropagatorNear (CFl.gluon.dressing_landau x (ofR c)) (CFl.gluon.propagator_landau x (ofR c)) (ym.gluon.dressing_landau s c)
      (ym.gluon.propagator_landau s c) (ym.gluon.dressing_inv_landau s c) s (1505 * ulp * (gluonScaleC s + (|c| + 1))) ∧
    PropagatorNear (CFl.gluon.dressing x (ofR c) (ofR xi)) (CFl.gluon.propagator x (ofR c) (ofR xi)) (ym.gluon.dressing s c xi)
      (ym.gluon.propagator s c xi) (ym.gluon.dressing_inv s c xi) s (1510 * ulp * (gluonScaleC s + (|c| + 1) + gluonGaugeScaleC s * (|xi| + 1))) := by
  obtain ⟨c1, c2, c3, c4⟩ := C125_dressing_inv h hc hb hxi hx
  exact ⟨(propagator_near h c1).1, (propagator_near h c2).1, (propagator_near h c3).2, (propagator_near h c4).2⟩

/-! ### A case: `s = 1`, with additive constant `10^6` -/

theorem case_one : Sector ⟨num ((1 : ℝ) : EReal), num ((0 : ℝ) : EReal)⟩ 1 := ⟨by simp [Is], by simp [Is], by norm_num, by norm_num, by norm_num⟩

theorem case_log {t : ℝ} (h0 : 1 / 2 ≤ t) (h1 : t ≤ 2) : ‖Complex.log (t : ℂ)‖ ≤ 1 := by
  have ht : 0 < t := by linarith
  rw [← Complex.ofReal_log ht.le, Complex.norm_real, Real.norm_eq_abs, abs_le]
  have a1 := Real.log_le_sub_one_of_pos ht
  have a2 := Real.one_sub_inv_le_log_of_pos ht
  have : t⁻¹ ≤ 2 := by rw [inv_le_comm₀ ht (by norm_num)]; linarith
  constructor <;> linarith

theorem case_scales : ghostScaleC 1 ≤ 10 ∧ gluonScaleC 1 ≤ 100 ∧ gluonGaugeScaleC 1 ≤ 10 ∧ logScale 1 1 ≤ 2 := by
  have l2 : ‖Complex.log (1 + 1)‖ ≤ 1 := by
    have := case_log (t := 2) (by norm_num) le_rfl
    rwa [show ((2 : ℝ) : ℂ) = 1 + 1 by norm_num] at this
  have r1 : (2.2 : ℝ) ≤ √5 := Real.le_sqrt_of_sq_le (by norm_num)
  have r2 : √5 ≤ 2.3 := Real.sqrt_le_iff.2 ⟨by norm_num, by norm_num⟩
  have er : root 1 = √5 := by unfold root; norm_num
  have ec : csqrt (1 + 4 / 1) = ((√5 : ℝ) : ℂ) := by
    rw [← csqrt_ofReal (by norm_num)]; congr 1; norm_num
  have l3 : ‖Complex.log ((((√5 : ℝ) : ℂ) - 1) / 2)‖ ≤ 1 := by
    have := case_log (t := (√5 - 1) / 2) (by linarith) (by linarith)
    rwa [show (((√5 - 1) / 2 : ℝ) : ℂ) = (((√5 : ℝ) : ℂ) - 1) / 2 by push_cast; rfl] at this
  have hl : rootLoss 1 ≤ 3 := by
    unfold rootLoss
    rw [norm_one, er, div_le_iff₀ (by linarith)]
    linarith
  have hl0 : 0 ≤ rootLoss 1 := by
    unfold rootLoss
    rw [norm_one, er]
    exact div_nonneg (by linarith) (by linarith)
  refine ⟨?_, ?_, ?_, ?_⟩
  · simp only [ghostScaleC, logScale, norm_one, Complex.log_one, norm_zero]
    generalize ‖Complex.log (1 + 1)‖ = L at *
    linarith
  · simp only [gluonScaleC, logScale, norm_one, Complex.log_one, norm_zero, er, ec]
    have : (3 * 1 ^ 2 + 34 * 1 + 28 + 24 / 1) * √5 * (2 * (‖Complex.log ((((√5 : ℝ) : ℂ) - 1) / 2)‖ + rootLoss 1) + (0 + 1)) ≤
        (3 * 1 ^ 2 + 34 * 1 + 28 + 24 / 1) * 2.3 * (2 * (1 + 3) + (0 + 1)) := by gcongr
    generalize ‖Complex.log (1 + 1)‖ = L at *
    generalize ‖Complex.log ((((√5 : ℝ) : ℂ) - 1) / 2)‖ = M at *
    generalize (3 * 1 ^ 2 + 34 * 1 + 28 + 24 / 1) * √5 * (2 * (M + rootLoss 1) + (0 + 1)) = N at *
    linarith
  · simp only [gluonGaugeScaleC, logScale, norm_one, Complex.log_one, norm_zero]
    generalize ‖Complex.log (1 + 1)‖ = L at *
    linarith
  · simp [logScale]

/-- The conditions on the four inverse dressing functions hold there. -/
theorem case_conditions (j : ℂ) (S : ℝ) {n : ℝ} (hn : n ≤ 1510) (hn0 : 0 ≤ n) (hS : S ≤ 10 ^ 6 + 200) (hS0 : 0 ≤ S) (hj : ‖j - ((10 ^ 6 : ℝ) : ℂ)‖ ≤ 200) :
    2 * (n * ulp * S) ≤ ‖j‖ ∧ 1 / 10 ^ 30 ≤ ‖j‖ ∧ ‖j‖ ≤ 10 ^ 30 := by
  have e : ‖((10 ^ 6 : ℝ) : ℂ)‖ = 10 ^ 6 := by rw [Complex.norm_real, Real.norm_eq_abs, abs_of_pos (by positivity)]
  have h1 := norm_sub_norm_le ((10 ^ 6 : ℝ) : ℂ) j
  have h2 := norm_sub_norm_le j ((10 ^ 6 : ℝ) : ℂ)
  rw [e, norm_sub_rev] at h1
  rw [e] at h2
  have hu := uu_small
  have hu0 := uu_pos
  have k1 : n * uu * S ≤ 1510 * (1 / 10 ^ 15) * (10 ^ 6 + 200) := by gcongr
  change 2 * (n * uu * S) ≤ ‖j‖ ∧ _
  generalize ‖j - ((10 ^ 6 : ℝ) : ℂ)‖ = d at *
  norm_num at h1 h2 k1 ⊢
  refine ⟨by linarith, by linarith, by linarith⟩

theorem case_propagators :
    (∃ e, NearC (CFl.ghost.propagator_landau ⟨num ((1 : ℝ) : EReal), num ((0 : ℝ) : EReal)⟩ (ofR (10 ^ 6))) (ghost.propagator_landau (1 : ℂ) (10 ^ 6)) e) ∧
    ∃ e, NearC (CFl.gluon.propagator ⟨num ((1 : ℝ) : EReal), num ((0 : ℝ) : EReal)⟩ (ofR (10 ^ 6)) (ofR 1)) (ym.gluon.propagator (1 : ℂ) (10 ^ 6) 1) e := by
  have hb : Binary64 (10 ^ 6) := ⟨10 ^ 6, 0, by norm_num, by norm_num, by norm_num, by norm_num⟩
  obtain ⟨p1, -, -, p4⟩ := C125_propagators (c := 10 ^ 6) (xi := 1) case_one hb (by rw [abs_of_pos (by positivity)]) b_one (by norm_num)
  obtain ⟨s1, s2, s3, s4⟩ := case_scales
  obtain ⟨k1, -, t1⟩ := case_one.ghost_track
  obtain ⟨k2, -, t2⟩ := case_one.gluon_track
  obtain ⟨k3, -, t3⟩ := case_one.gluon_xi_track
  have b1 := t1.bound
  have b2 := t2.bound
  have b3 := t3.bound
  have q1 := t1.pos
  have q2 := t2.pos
  have q3 := t3.pos
  rw [ghost_scaleC_eq case_one.pos] at b1 q1
  rw [gluon_scaleC_eq case_one.pos] at b2 q2
  rw [gauge_scaleC_eq case_one.pos] at b3 q3
  have a6 : |(10 ^ 6 : ℝ)| = 10 ^ 6 := abs_of_pos (by positivity)
  rw [a6] at p1 p4
  constructor
  · obtain ⟨c1, c2, c3⟩ := case_conditions (ghost.dressing_inv_landau (1 : ℂ) (10 ^ 6)) (ghostScaleC 1 + (10 ^ 6 + 1)) (n := 305) (by norm_num) (by norm_num) (by linarith)
      (by linarith) (by
        rw [show ghost.dressing_inv_landau (1 : ℂ) (10 ^ 6) = ghost.g (1 : ℂ) + ((10 ^ 6 : ℝ) : ℂ) from rfl, add_sub_cancel_right]
        linarith)
    exact ⟨_, (p1 c1 c2 c3).2⟩
  · rw [abs_one] at p4
    obtain ⟨c1, c2, c3⟩ := case_conditions (ym.gluon.dressing_inv (1 : ℂ) (10 ^ 6) 1) (gluonScaleC 1 + (10 ^ 6 + 1) + gluonGaugeScaleC 1 * (1 + 1)) (n := 1510) (by norm_num)
      (by norm_num) (by linarith) (by linarith) (by
        rw [show ym.gluon.dressing_inv (1 : ℂ) (10 ^ 6) 1 = gluon.f (1 : ℂ) + ((10 ^ 6 : ℝ) : ℂ) + gluon.f_xi (1 : ℂ) * ((1 : ℝ) : ℂ) from rfl,
          Complex.ofReal_one, mul_one, show gluon.f (1 : ℂ) + ((10 ^ 6 : ℝ) : ℂ) + gluon.f_xi (1 : ℂ) - ((10 ^ 6 : ℝ) : ℂ) = gluon.f (1 : ℂ) + gluon.f_xi (1 : ℂ) by ring]
        exact (norm_add_le _ _).trans (by linarith))
    exact ⟨_, (p4 c1 c2 c3).2⟩

end Qcd
