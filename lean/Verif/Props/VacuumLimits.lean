import Verif.Props.QuarkLoop
import Verif.Props.VacuumAlgebra
import Verif.Props.QcdVacuum
import Verif.Model.TcLongProp

/-! C24, C25, C60: infrared and ultraviolet limits of the vacuum functions. -/

namespace Qcd
open Filter Topology
open consts (Consts)

/-- The two logarithms of the code combine into `ln((a-1)/(a+1))`. -/
theorem log_combine {s : ℝ} (hs : 0 < s) :
    Real.log ((Real.sqrt (s⁻¹ * 4 + 1) - 1) / 2) * 2 + Real.log s
      = Real.log ((Real.sqrt (s⁻¹ * 4 + 1) - 1) / (Real.sqrt (s⁻¹ * 4 + 1) + 1)) := by
  obtain ⟨h1, hsq⟩ := root_facts hs
  set a := Real.sqrt (s⁻¹ * 4 + 1)
  have hsinv : s⁻¹ = (a * a - 1) / 4 := by linear_combination -hsq / 4
  have hls : Real.log s = -(Real.log ((a + 1) / 2) + Real.log ((a - 1) / 2)) := by
    rw [← Real.log_mul (by linarith) (by linarith), ← Real.log_inv]
    congr 1
    rw [eq_comm, inv_eq_iff_eq_inv, hsinv]; ring
  have hL : Real.log ((a - 1) / (a + 1)) = Real.log ((a - 1) / 2) - Real.log ((a + 1) / 2) := by
    rw [← Real.log_div (by linarith) (by linarith)]
    congr 1
    have : a + 1 ≠ 0 := by linarith
    field_simp
  rw [hls, hL]; ring

theorem tendsto_a_ir : Tendsto (fun s : ℝ => Real.sqrt (s⁻¹ * 4 + 1)) (𝓝[>] 0) atTop := by
  apply Real.tendsto_sqrt_atTop.comp
  apply tendsto_atTop_add_const_right
  exact tendsto_inv_nhdsGT_zero.atTop_mul_const (by norm_num)

theorem tendsto_aL_ir : Tendsto (fun s : ℝ => Real.sqrt (s⁻¹ * 4 + 1)
    * (Real.log ((Real.sqrt (s⁻¹ * 4 + 1) - 1) / 2) * 2 + Real.log s)) (𝓝[>] 0) (𝓝 (-2)) := by
  have h := tendsto_log_ratio_div.comp (tendsto_inv_atTop_nhdsGT_zero.comp tendsto_a_ir)
  refine h.congr' ?_
  filter_upwards [eventually_mem_nhdsWithin] with s hs
  have hs : 0 < s := hs
  obtain ⟨h1, hsq⟩ := root_facts hs
  rw [log_combine hs]
  simp only [Function.comp]
  set a := Real.sqrt (s⁻¹ * 4 + 1)
  have ha : a ≠ 0 := by linarith
  rw [div_inv_eq_mul, mul_comm]
  congr 2
  field_simp

/-- **C24** (loop functions). -/
theorem C24_loops :
    Tendsto (fun s : ℝ => s * gluon.f s) (𝓝[>] 0) (𝓝 (5 / 8)) ∧
    Tendsto (fun s : ℝ => s * gluon.f_xi s) (𝓝[>] 0) (𝓝 (1 / 4)) ∧
    Tendsto (fun s : ℝ => ghost.g s) (𝓝[>] 0) (𝓝 (5 / 24)) := by
  have hid := tendsto_id_pos
  have hr := tendsto_logRem_pos
  have hl : Tendsto (fun s : ℝ => s * Real.log s) (𝓝[>] 0) (𝓝 0) := by
    simpa using tendsto_pow_mul_log 0
  refine ⟨?_, ?_, ?_⟩
  · set A := fun s : ℝ => Real.sqrt (s⁻¹ * 4 + 1)
      * (Real.log ((Real.sqrt (s⁻¹ * 4 + 1) - 1) / 2) * 2 + Real.log s) with hAdef
    have hA : Tendsto A (𝓝[>] 0) (𝓝 (-2)) := tendsto_aL_ir
    set P : ℝ × ℝ × ℝ × ℝ → ℝ := fun v =>
      5 / 8 + ((3 * v.1 ^ 3 - 34 * v.1 ^ 2 - 28 * v.1 - 24) * v.2.2.1 + (2 - 3 * v.1 ^ 2) * v.2.2.2
        + 2 * (v.1 + 1) ^ 2 * (3 * v.1 ^ 2 - 20 * v.1 + 11) - 2 * (v.1 + 2)
        + 2 * (v.1 + 1) ^ 2 * (3 * v.1 ^ 3 - 20 * v.1 ^ 2 + 11 * v.1 - 2) * (v.2.1 - 1 / 2)
        - (v.1 + 4) * (v.1 ^ 2 - 20 * v.1 + 12) + 2 * (v.1 + 1) ^ 2 * (v.1 - 10) + 2 * v.1
        - v.1 ^ 3) / 72 with hP
    have cP : Continuous P := by rw [hP]; fun_prop
    have key := (cP.tendsto (0, 0, -2, 0)).comp
      (hid.prodMk_nhds (hr.prodMk_nhds (hA.prodMk_nhds hl)))
    have e : P (0, 0, -2, 0) = 5 / 8 := by simp only [hP]; norm_num
    rw [e] at key
    refine key.congr' ?_
    filter_upwards [eventually_mem_nhdsWithin] with s hs
    have hs : 0 < s := hs
    simp only [Function.comp, hP, hAdef, gluon.f, gluon.f_sep, gluon.l_a, gluon.l_b, gluon.l_c,
      gluon.r_a, gluon.r_b, gluon.r_c, ofR_real, ln_real, sqrt_real]
    rw [add_comm s 1, log_one_add_eq hs.ne']
    generalize Real.log ((Real.sqrt (s⁻¹ * 4 + 1) - 1) / 2) = L
    generalize Real.sqrt (s⁻¹ * 4 + 1) = a
    field_simp
    ring
  · set P : ℝ × ℝ × ℝ → ℝ := fun v =>
      1 / 4 - (2 * v.1 * v.2.2 + 2 + 2 * v.1 ^ 2 - 2 * v.1 ^ 3
        - 2 * (1 - v.1) * (1 - v.1 ^ 3) * (v.2.1 - 1 / 2) + 3 * v.1 - 3) / 12 with hP
    have cP : Continuous P := by rw [hP]; fun_prop
    have key := (cP.tendsto (0, 0, 0)).comp (hid.prodMk_nhds (hr.prodMk_nhds hl))
    have e : P (0, 0, 0) = 1 / 4 := by simp only [hP]; norm_num
    rw [e] at key
    refine key.congr' ?_
    filter_upwards [eventually_mem_nhdsWithin] with s hs
    have hs : 0 < s := hs
    simp only [Function.comp, hP, gluon.f_xi, gluon.f_xi_sep, ofR_real, ln_real]
    rw [add_comm s 1, log_one_add_eq hs.ne']
    field_simp
    ring
  · set P : ℝ × ℝ × ℝ → ℝ := fun v =>
      (2 * (1 + v.1) ^ 2 - v.1 - 2 + (1 + v.1) ^ 2 * (2 * v.1 - 1) * (v.2.1 - 1 / 2) - 2 * v.2.2
        + 2) / 12 with hP
    have cP : Continuous P := by rw [hP]; fun_prop
    have key := (cP.tendsto (0, 0, 0)).comp (hid.prodMk_nhds (hr.prodMk_nhds hl))
    have e : P (0, 0, 0) = 5 / 24 := by simp only [hP]; norm_num
    rw [e] at key
    refine key.congr' ?_
    filter_upwards [eventually_mem_nhdsWithin] with s hs
    have hs : 0 < s := hs
    simp only [Function.comp, hP, ghost.g, ghost.g_sep, ghost.l_g, ghost.r_g, ofR_real, ln_real]
    rw [add_comm s 1, log_one_add_eq hs.ne']
    field_simp
    ring

theorem tendsto_quarkSum_ir (F : ℝ → ℝ) (hF : Tendsto F (𝓝[>] 0) (𝓝 0)) (nc : ℕ) (m : ℝ)
    (qs : List (ℕ × ℝ)) (hm : m ≠ 0) (hq : ∀ q ∈ qs, q.2 ≠ 0) :
    Tendsto (fun s => quarkSum F s nc m qs) (𝓝[>] 0) (𝓝 0) := by
  induction qs with
  | nil => simp [quarkSum]
  | cons q qs ih =>
    have ih' := ih (fun q' h => hq q' (by simp [h]))
    simp only [quarkSum, List.map_cons, List.sum_cons] at ih' ⊢
    have hpos : 0 < (q.2 / m) ^ 2 := by
      have := div_ne_zero (hq q (by simp)) hm
      positivity
    have h1 : Tendsto (fun s : ℝ => s / (q.2 / m) ^ 2) (𝓝[>] 0) (𝓝[>] 0) := by
      rw [tendsto_nhdsWithin_iff]
      refine ⟨by simpa using tendsto_id_pos.div_const ((q.2 / m) ^ 2), ?_⟩
      filter_upwards [eventually_mem_nhdsWithin] with s hs
      exact div_pos hs hpos
    have := ((hF.comp h1).mul_const ((q.1 : ℝ) / (nc : ℝ))).add ih'
    simpa using this

/-- **C24** (gluon): in Yang-Mills theory and in QCD with any quark content the Landau-gauge
propagators tend to `8/5` in the infrared, whatever the renormalisation constant; in a general
covariant gauge the limit is `1/(5/8 + xi/4)`. -/
theorem C24_gluon (k : Consts ℝ) (f0 xi : ℝ) (nc : ℕ) (m : ℝ) (qs : List (ℕ × ℝ))
    (hm : m ≠ 0) (hq : ∀ q ∈ qs, q.2 ≠ 0) (hxi : 5 / 8 + xi / 4 ≠ 0) :
    Tendsto (fun s : ℝ => ym.gluon.propagator_landau s f0) (𝓝[>] 0) (𝓝 (8 / 5)) ∧
    Tendsto (fun s : ℝ => ym.gluon.propagator s f0 xi) (𝓝[>] 0) (𝓝 (5 / 8 + xi / 4)⁻¹) ∧
    Tendsto (fun s : ℝ => qcd.gluon.propagator_landau_w_field_config k s f0
      (FieldConfig.new nc m qs)) (𝓝[>] 0) (𝓝 (8 / 5)) ∧
    Tendsto (fun s : ℝ => qcd.gluon.propagator_w_field_config k s f0 xi
      (FieldConfig.new nc m qs)) (𝓝[>] 0) (𝓝 (5 / 8 + xi / 4)⁻¹) ∧
    Tendsto (fun s : ℝ => qcd.gluon.propagator_crossed_landau_w_field_config k s f0
      (FieldConfig.new nc m qs)) (𝓝[>] 0) (𝓝 (8 / 5)) ∧
    Tendsto (fun s : ℝ => qcd.gluon.propagator_crossed_w_field_config k s f0 xi
      (FieldConfig.new nc m qs)) (𝓝[>] 0) (𝓝 (5 / 8 + xi / 4)⁻¹) := by
  obtain ⟨hf, hx, -⟩ := C24_loops
  have q1 := tendsto_quarkSum_ir _ C22_zero_momentum.1 nc m qs hm hq
  have q2 := tendsto_quarkSum_ir _ C22_zero_momentum.2 nc m qs hm hq
  have h0 : Tendsto (fun s : ℝ => s * f0) (𝓝[>] 0) (𝓝 0) := by
    simpa using tendsto_id_pos.mul_const f0
  have yl : Tendsto (fun s : ℝ => s * ym.gluon.dressing_inv_landau s f0) (𝓝[>] 0) (𝓝 (5 / 8)) := by
    have := hf.add h0
    simp only [add_zero] at this
    refine this.congr (fun s => ?_)
    rw [(C17_dressing_inv_affine s f0 0 0).2.2.1]; simp; ring
  have yx : Tendsto (fun s : ℝ => s * ym.gluon.dressing_inv s f0 xi) (𝓝[>] 0)
      (𝓝 (5 / 8 + xi / 4)) := by
    have := (hf.add h0).add (hx.mul_const xi)
    have e : (5 : ℝ) / 8 + 0 + 1 / 4 * xi = 5 / 8 + xi / 4 := by ring
    rw [e] at this
    refine this.congr (fun s => ?_)
    rw [(C17_dressing_inv_affine s f0 0 xi).2.2.2]; simp; ring
  have add0 : ∀ {D Q : ℝ → ℝ} {l : ℝ}, Tendsto (fun s => s * D s) (𝓝[>] 0) (𝓝 l) →
      Tendsto Q (𝓝[>] 0) (𝓝 0) → Tendsto (fun s => s * (D s + Q s)) (𝓝[>] 0) (𝓝 l) := by
    intro D Q l hD hQ
    have := hD.add (tendsto_id_pos.mul hQ)
    simp only [mul_zero, add_zero] at this
    exact this.congr (fun s => by ring)
  have e85 : (8 / 5 : ℝ) = (5 / 8)⁻¹ := by norm_num
  have h58 : (5 / 8 : ℝ) ≠ 0 := by norm_num
  rw [e85]
  refine ⟨(yl.inv₀ h58).congr ?_, (yx.inv₀ hxi).congr ?_, ((add0 yl q1).inv₀ h58).congr ?_,
    ((add0 yx q1).inv₀ hxi).congr ?_, ((add0 yl q2).inv₀ h58).congr ?_,
    ((add0 yx q2).inv₀ hxi).congr ?_⟩ <;> intro s <;> rw [mul_inv, mul_comm]
  · rfl
  · rfl
  · rw [← (C29_additive k s f0 xi nc m qs).1]; rfl
  · rw [← (C29_additive k s f0 xi nc m qs).2.1]; rfl
  · rw [← (C29_additive k s f0 xi nc m qs).2.2.1]; rfl
  · rw [← (C29_additive k s f0 xi nc m qs).2.2.2]; rfl

/-- **C24** (ghost): the Landau-gauge ghost dressing tends to `1/(g0 + 5/24)`. -/
theorem C24_ghost (g0 : ℝ) (hg : g0 + 5 / 24 ≠ 0) :
    Tendsto (fun s : ℝ => ghost.dressing_landau s g0) (𝓝[>] 0) (𝓝 (g0 + 5 / 24)⁻¹) := by
  have h := C24_loops.2.2.add_const g0
  rw [add_comm] at h
  refine (h.inv₀ hg).congr (fun s => ?_)
  simp only [ghost.dressing_landau]
  rw [(C17_dressing_inv_affine s 0 g0 0).1]; simp

/-! ### C25 -/

/-- Third-order remainder of `sqrt(1+4t)`. -/
noncomputable def sqrtRem (t : ℝ) : ℝ :=
  (8 - 4 * t) / (Real.sqrt (t * 4 + 1) + (1 + 2 * t - 2 * t ^ 2))

theorem sqrt_eq {t : ℝ} (h0 : 0 < t) (h1 : t < 1) :
    Real.sqrt (t * 4 + 1) = 1 + 2 * t - 2 * t ^ 2 + t ^ 3 * sqrtRem t := by
  have hp : 0 ≤ Real.sqrt (t * 4 + 1) := Real.sqrt_nonneg _
  have hne : Real.sqrt (t * 4 + 1) + (1 + 2 * t - 2 * t ^ 2) ≠ 0 := by nlinarith
  have hsq : Real.sqrt (t * 4 + 1) * Real.sqrt (t * 4 + 1) = t * 4 + 1 :=
    Real.mul_self_sqrt (by linarith)
  unfold sqrtRem
  generalize Real.sqrt (t * 4 + 1) = a at *
  field_simp
  linear_combination hsq

theorem tendsto_sqrtRem : Tendsto sqrtRem (𝓝[>] 0) (𝓝 4) := by
  have hc : ContinuousAt sqrtRem 0 := by
    unfold sqrtRem
    apply ContinuousAt.div (by fun_prop) (by fun_prop)
    norm_num
  have := hc.tendsto
  have e : sqrtRem 0 = 4 := by simp [sqrtRem]; norm_num
  rw [e] at this
  exact this.mono_left nhdsWithin_le_nhds

/-- `w = (a-1)/2` at `a = sqrt(1+4t)`. -/
noncomputable def wOf (t : ℝ) : ℝ := t * (1 - t + t ^ 2 * sqrtRem t / 2)

theorem tendsto_wOf : Tendsto wOf (𝓝[>] 0) (𝓝 0) := by
  have := tendsto_id_pos.mul (((tendsto_const_nhds (x := (1 : ℝ))).sub tendsto_id_pos).add
    (((tendsto_id_pos.pow 2).mul tendsto_sqrtRem).div_const 2))
  simp only [zero_mul] at this
  exact this

theorem wOf_eq {t : ℝ} (h0 : 0 < t) (h1 : t < 1) : wOf t = (Real.sqrt (t * 4 + 1) - 1) / 2 := by
  rw [sqrt_eq h0 h1, wOf]; ring

theorem wOf_pos {t : ℝ} (h0 : 0 < t) (h1 : t < 1) : 0 < wOf t := by
  rw [wOf_eq h0 h1]
  have : 1 < Real.sqrt (t * 4 + 1) := by rw [Real.lt_sqrt (by norm_num)]; linarith
  linarith

theorem tendsto_logRem_wOf : Tendsto (fun t => logRem (wOf t)) (𝓝[>] 0) (𝓝 0) := by
  apply tendsto_logRem.comp
  rw [tendsto_nhdsWithin_iff]
  refine ⟨tendsto_wOf, ?_⟩
  filter_upwards [eventually_mem_nhdsWithin,
    eventually_nhdsWithin_of_eventually_nhds (gt_mem_nhds (show (0 : ℝ) < 1 by norm_num))]
    with t h0 h1
  exact (wOf_pos h0 h1).ne'

/-- The logarithm of the massive loop at large momentum. -/
theorem log_uv {t : ℝ} (h0 : 0 < t) (h1 : t < 1) :
    Real.log ((Real.sqrt (t * 4 + 1) - 1) / (Real.sqrt (t * 4 + 1) + 1))
      = Real.log t - 2 * (wOf t - wOf t ^ 2 / 2 + wOf t ^ 2 * logRem (wOf t)) := by
  have hw := wOf_pos h0 h1
  rw [← log_one_add_eq hw.ne', wOf_eq h0 h1]
  have hsq : Real.sqrt (t * 4 + 1) * Real.sqrt (t * 4 + 1) = t * 4 + 1 :=
    Real.mul_self_sqrt (by linarith)
  have ha : 1 < Real.sqrt (t * 4 + 1) := by rw [Real.lt_sqrt (by norm_num)]; linarith
  generalize Real.sqrt (t * 4 + 1) = a at *
  have e1 : 1 + (a - 1) / 2 = (a + 1) / 2 := by ring
  have e2 : t = ((a - 1) / 2) * ((a + 1) / 2) := by linear_combination -hsq / 4
  rw [e1]
  have e3 : (a - 1) / (a + 1) = ((a - 1) / 2) / ((a + 1) / 2) := by
    have : a + 1 ≠ 0 := by linarith
    field_simp
  rw [e3, Real.log_div (by linarith) (by linarith), e2,
    Real.log_mul (by linarith) (by linarith)]
  ring

theorem log_inv_add_one {t : ℝ} (h0 : 0 < t) :
    Real.log (t⁻¹ + 1) = -Real.log t + (t - t ^ 2 / 2 + t ^ 2 * logRem t) := by
  rw [← log_one_add_eq h0.ne', ← Real.log_inv, ← Real.log_mul (by positivity) (by linarith)]
  congr 1
  field_simp

theorem uv_of_ir {F : ℝ → ℝ} {c l : ℝ}
    (h : Tendsto (fun t => F t⁻¹ + c * Real.log t) (𝓝[>] 0) (𝓝 l)) :
    Tendsto (fun s => F s - c * Real.log s) atTop (𝓝 l) := by
  refine (h.comp tendsto_inv_atTop_nhdsGT_zero).congr (fun s => ?_)
  simp [Real.log_inv]; ring

/-- **C25** (loop functions): leading logarithms and constant terms at large momentum. -/
theorem C25_loops :
    Tendsto (fun s : ℝ => gluon.f s - 13 / 18 * Real.log s) atTop (𝓝 (17 / 18)) ∧
    Tendsto (fun s : ℝ => gluon.f_xi s - -(1 / 6) * Real.log s) atTop (𝓝 (-(1 / 12))) ∧
    Tendsto (fun s : ℝ => ghost.g s - 1 / 4 * Real.log s) atTop (𝓝 (1 / 3)) ∧
    Tendsto (fun s : ℝ => ghost.g_xi s - -(1 / 12) * Real.log s) atTop (𝓝 0) ∧
    Tendsto (fun s : ℝ => gluon.f_q s - -(2 / 9) * Real.log s) atTop (𝓝 (10 / 27)) ∧
    Tendsto (fun s : ℝ => gluon.f_q_crossed s - -(2 / 9) * Real.log s) atTop (𝓝 (-(2 / 27))) := by
  have hid := tendsto_id_pos
  have hr := tendsto_logRem_pos
  have hl : Tendsto (fun s : ℝ => s * Real.log s) (𝓝[>] 0) (𝓝 0) := by
    simpa using tendsto_pow_mul_log 0
  have hσ := tendsto_sqrtRem
  have hρ := tendsto_logRem_wOf
  have hlt : ∀ᶠ t : ℝ in 𝓝[>] 0, t < 1 :=
    eventually_nhdsWithin_of_eventually_nhds (gt_mem_nhds (show (0 : ℝ) < 1 by norm_num))
  refine ⟨uv_of_ir ?_, uv_of_ir ?_, uv_of_ir ?_, ?_, uv_of_ir ?_, uv_of_ir ?_⟩
  · -- coordinates: t, logRem t, t log t, sqrtRem t, logRem (wOf t)
    set M : ℝ → ℝ := fun t => 3 - 34 * t - 28 * t ^ 2 - 24 * t ^ 3 with hM
    set B : ℝ → ℝ → ℝ := fun t σ => -102 - 12 * t + 8 * t ^ 2 + 48 * t ^ 3 + t * σ * M t with hB
    set V : ℝ → ℝ → ℝ := fun t σ => 1 - t + t ^ 2 * σ / 2 with hV
    set P : ℝ × ℝ × ℝ × ℝ × ℝ → ℝ := fun v =>
      (-(v.2.2.1 * (12 + 6 * v.1 - 52 * v.1 ^ 2 - v.2.2.2.1 * M v.1))
        + 45 * v.1 + 34 - 64 * v.1 + 4 * v.1 ^ 2 + 34
        + v.1 * (-2 * (28 + (3 - 28 * v.1) * v.2.2.2.1 / 2 + B v.1 v.2.2.2.1 * V v.1 v.2.2.2.1)
            + 2 * (-26 + 7 * v.1 ^ 2 - 2 * v.1 ^ 3))
        - 2 * (3 - 28 * v.1 + v.1 ^ 2 * B v.1 v.2.2.2.1)
            * (V v.1 v.2.2.2.1 ^ 2 * (v.2.2.2.2 - 1 / 2))
        + 2 * ((1 + v.1) ^ 2 * (3 - 20 * v.1 + 11 * v.1 ^ 2 - 2 * v.1 ^ 3)) * (v.2.1 - 1 / 2)) / 72
      with hP
    have cP : Continuous P := by rw [hP]; simp only [hB, hV, hM]; fun_prop
    have key := (cP.tendsto (0, 0, 0, 4, 0)).comp
      (hid.prodMk_nhds (hr.prodMk_nhds (hl.prodMk_nhds (hσ.prodMk_nhds hρ))))
    have e : P (0, 0, 0, 4, 0) = 17 / 18 := by simp only [hP, hB, hV, hM]; norm_num
    rw [e] at key
    refine key.congr' ?_
    filter_upwards [eventually_mem_nhdsWithin, hlt] with t h0 h1
    have h0 : 0 < t := h0
    have hlog := log_combine (inv_pos.2 h0)
    rw [inv_inv] at hlog
    simp only [Function.comp, hP, hB, hV, hM, gluon.f, gluon.f_sep, gluon.l_a, gluon.l_b,
      gluon.l_c, gluon.r_a, gluon.r_b, gluon.r_c, ofR_real, ln_real, sqrt_real, inv_inv]
    rw [hlog, log_uv h0 h1, log_inv_add_one h0, Real.log_inv, sqrt_eq h0 h1]
    generalize logRem (wOf t) = ρ
    simp only [wOf]
    field_simp
    ring
  · set P : ℝ × ℝ × ℝ → ℝ := fun v =>
      v.1 / 4 - (-2 * (v.1 - v.1 ^ 2) * v.2.2 - 2 * (1 - v.1 / 2 + v.1 * v.2.1)
        + 2 * (1 + v.1 ^ 2 - v.1 ^ 3) * (v.1 - v.1 ^ 2 / 2 + v.1 ^ 2 * v.2.1) + 3 - 3 * v.1
        + 2 * v.1 ^ 2) / 12 with hP
    have cP : Continuous P := by rw [hP]; fun_prop
    have key := (cP.tendsto (0, 0, 0)).comp (hid.prodMk_nhds (hr.prodMk_nhds hl))
    have e : P (0, 0, 0) = -(1 / 12) := by simp only [hP]; norm_num
    rw [e] at key
    refine key.congr' ?_
    filter_upwards [eventually_mem_nhdsWithin] with t h0
    have h0 : 0 < t := h0
    simp only [Function.comp, hP, gluon.f_xi, gluon.f_xi_sep, ofR_real, ln_real, inv_inv]
    rw [log_inv_add_one h0, Real.log_inv]
    field_simp
    ring
  · set P : ℝ × ℝ × ℝ → ℝ := fun v =>
      (v.1 * v.2.2 + 2 * (1 - v.1 / 2 + v.1 * v.2.1)
        + (3 - v.1 ^ 2) * (v.1 - v.1 ^ 2 / 2 + v.1 ^ 2 * v.2.1) + v.1 + 2) / 12 with hP
    have cP : Continuous P := by rw [hP]; fun_prop
    have key := (cP.tendsto (0, 0, 0)).comp (hid.prodMk_nhds (hr.prodMk_nhds hl))
    have e : P (0, 0, 0) = 1 / 3 := by simp only [hP]; norm_num
    rw [e] at key
    refine key.congr' ?_
    filter_upwards [eventually_mem_nhdsWithin] with t h0
    have h0 : 0 < t := h0
    simp only [Function.comp, hP, ghost.g, ghost.g_sep, ghost.l_g, ghost.r_g, ofR_real, ln_real,
      inv_inv]
    rw [log_inv_add_one h0, Real.log_inv]
    field_simp
    ring
  · refine tendsto_const_nhds.congr (fun s => ?_)
    simp [ghost.g_xi]; ring
  · set P : ℝ × ℝ × ℝ × ℝ × ℝ → ℝ := fun v =>
      (-(v.2.2.1 * (1 - (2 - 2 * v.1 + v.1 ^ 2 * v.2.2.2.1) / 2
          + v.1 * (2 - 2 * v.1 + v.1 ^ 2 * v.2.2.2.1)))
        - 2 * (1 / 2 - v.1) * (1 + v.1 * (2 - 2 * v.1 + v.1 ^ 2 * v.2.2.2.1))
          * (v.2.1 - v.2.1 ^ 2 / 2 + v.2.1 ^ 2 * v.2.2.2.2) - 2 * v.1 + 5 / 6) * 4 / 9 with hP
    have cP : Continuous P := by rw [hP]; fun_prop
    have key := (cP.tendsto (0, 0, 0, 4, 0)).comp
      (hid.prodMk_nhds (tendsto_wOf.prodMk_nhds (hl.prodMk_nhds (hσ.prodMk_nhds hρ))))
    have e : P (0, 0, 0, 4, 0) = 10 / 27 := by simp only [hP]; norm_num
    rw [e] at key
    refine key.congr' ?_
    filter_upwards [eventually_mem_nhdsWithin, hlt] with t h0 h1
    have h0 : 0 < t := h0
    simp only [Function.comp, hP, gluon.f_q, ofR_real, ln_real, sqrt_real, inv_inv]
    rw [log_uv h0 h1, sqrt_eq h0 h1]
    ring
  · set P : ℝ × ℝ × ℝ × ℝ × ℝ → ℝ := fun v =>
      (4 * v.1 - 1 / 6 + (v.2.2.1 * (8 * v.1 + 1 - (2 - 2 * v.1 + v.1 ^ 2 * v.2.2.2.1) / 2)
          - 2 * (v.1 + 1 / 2 + 8 * v.1 ^ 2) * (v.2.1 - v.2.1 ^ 2 / 2 + v.2.1 ^ 2 * v.2.2.2.2))
        / (1 + v.1 * (2 - 2 * v.1 + v.1 ^ 2 * v.2.2.2.1))) * 4 / 9 with hP
    have cP : ContinuousAt P (0, 0, 0, 4, 0) := by
      rw [hP]
      apply ContinuousAt.div_const
      apply ContinuousAt.mul_const
      apply ContinuousAt.add (by fun_prop)
      apply ContinuousAt.div (by fun_prop) (by fun_prop)
      norm_num
    have key := cP.tendsto.comp
      (hid.prodMk_nhds (tendsto_wOf.prodMk_nhds (hl.prodMk_nhds (hσ.prodMk_nhds hρ))))
    have e : P (0, 0, 0, 4, 0) = -(2 / 27) := by simp only [hP]; norm_num
    rw [e] at key
    refine key.congr' ?_
    filter_upwards [eventually_mem_nhdsWithin, hlt] with t h0 h1
    have h0 : 0 < t := h0
    simp only [Function.comp, hP, gluon.f_q_crossed, ofR_real, ln_real, sqrt_real, inv_inv]
    rw [log_uv h0 h1]
    have ha : Real.sqrt (t * 4 + 1) ≠ 0 := by
      have : 0 < Real.sqrt (t * 4 + 1) := Real.sqrt_pos.2 (by linarith)
      exact this.ne'
    have e2 : 1 + t * (2 - 2 * t + t ^ 2 * sqrtRem t) = Real.sqrt (t * 4 + 1) := by
      rw [sqrt_eq h0 h1]; ring
    have e3 : 2 - 2 * t + t ^ 2 * sqrtRem t = (Real.sqrt (t * 4 + 1) - 1) / t := by
      rw [← e2]; field_simp; ring
    rw [e2, e3]
    field_simp
    ring

/-- Ultraviolet behaviour of the quark contribution, for a loop with logarithm `c ln s + d`. -/
theorem tendsto_quarkSum_uv (F : ℝ → ℝ) (c d : ℝ)
    (hF : Tendsto (fun s => F s - c * Real.log s) atTop (𝓝 d)) (nc : ℕ) (m : ℝ)
    (qs : List (ℕ × ℝ)) (hm : m ≠ 0) (hq : ∀ q ∈ qs, q.2 ≠ 0) :
    Tendsto (fun s => quarkSum F s nc m qs
        - c * (qs.map (fun q => (q.1 : ℝ) / (nc : ℝ))).sum * Real.log s) atTop
      (𝓝 ((qs.map (fun q => (q.1 : ℝ) / (nc : ℝ)
        * (d - 2 * c * Real.log (q.2 / m)))).sum)) := by
  induction qs with
  | nil => simp [quarkSum]
  | cons q qs ih =>
    have ih' := ih (fun q' h => hq q' (by simp [h]))
    simp only [quarkSum, List.map_cons, List.sum_cons] at ih' ⊢
    have hne := div_ne_zero (hq q (by simp)) hm
    have hpos : 0 < (q.2 / m) ^ 2 := by positivity
    have h1 : Tendsto (fun s : ℝ => s / (q.2 / m) ^ 2) atTop atTop :=
      tendsto_id.atTop_div_const hpos
    have h2 := (((hF.comp h1).add_const (-(2 * c * Real.log (q.2 / m)))).const_mul
      ((q.1 : ℝ) / (nc : ℝ))).add ih'
    rw [← sub_eq_add_neg] at h2
    refine h2.congr' ?_
    filter_upwards [eventually_gt_atTop 0] with s hs
    simp only [Function.comp, ofR_real]
    rw [Real.log_div hs.ne' hpos.ne', Real.log_pow]
    push_cast
    ring

/-- **C25** (QCD): with any quark content the inverse gluon dressing grows like
`(13/18 - xi/6 - (2/9) Σ nf/nc) ln s`, with the constant term as displayed; for the crossed
functions only the constant changes. -/
theorem C25_qcd (k : Consts ℝ) (f0 xi : ℝ) (nc : ℕ) (m : ℝ) (qs : List (ℕ × ℝ))
    (hm : m ≠ 0) (hq : ∀ q ∈ qs, q.2 ≠ 0) :
    Tendsto (fun s : ℝ => qcd.gluon.dressing_inv_w_field_config k s f0 xi (FieldConfig.new nc m qs)
        - (13 / 18 - xi / 6 - 2 / 9 * (qs.map (fun q => (q.1 : ℝ) / (nc : ℝ))).sum) * Real.log s)
      atTop (𝓝 (17 / 18 + f0 - xi / 12
        + (qs.map (fun q => (q.1 : ℝ) / (nc : ℝ)
            * (10 / 27 + 4 / 9 * Real.log (q.2 / m)))).sum)) ∧
    Tendsto (fun s : ℝ => qcd.gluon.dressing_crossed_inv_w_field_config k s f0 xi
          (FieldConfig.new nc m qs)
        - (13 / 18 - xi / 6 - 2 / 9 * (qs.map (fun q => (q.1 : ℝ) / (nc : ℝ))).sum) * Real.log s)
      atTop (𝓝 (17 / 18 + f0 - xi / 12
        + (qs.map (fun q => (q.1 : ℝ) / (nc : ℝ)
            * (-(2 / 27) + 4 / 9 * Real.log (q.2 / m)))).sum)) := by
  obtain ⟨hf, hx, -, -, h5, h6⟩ := C25_loops
  have q1 := tendsto_quarkSum_uv _ _ _ h5 nc m qs hm hq
  have q2 := tendsto_quarkSum_uv _ _ _ h6 nc m qs hm hq
  have y := (hf.add_const f0).add (hx.mul_const xi)
  have e : ∀ d : ℝ, (qs.map (fun q => (q.1 : ℝ) / (nc : ℝ)
        * (d - 2 * -(2 / 9) * Real.log (q.2 / m)))).sum
      = (qs.map (fun q => (q.1 : ℝ) / (nc : ℝ) * (d + 4 / 9 * Real.log (q.2 / m)))).sum := by
    intro d; congr 2; funext q; ring
  rw [e] at q1 q2
  have e0 : (17 : ℝ) / 18 + f0 + -(1 / 12) * xi = 17 / 18 + f0 - xi / 12 := by ring
  constructor
  · have h := y.add q1
    rw [e0] at h
    refine h.congr (fun s => ?_)
    rw [(C29_additive k s f0 xi nc m qs).2.1, (C17_dressing_inv_affine s f0 0 xi).2.2.2]
    simp only [ofR_real]; ring
  · have h := y.add q2
    rw [e0] at h
    refine h.congr (fun s => ?_)
    rw [(C29_additive k s f0 xi nc m qs).2.2.2, (C17_dressing_inv_affine s f0 0 xi).2.2.2]
    simp only [ofR_real]; ring

/-- **C25** (ratios to the logarithm): the one-loop coefficients. -/
theorem C25_ratios :
    Tendsto (fun s : ℝ => gluon.f s / Real.log s) atTop (𝓝 (13 / 18)) ∧
    Tendsto (fun s : ℝ => ghost.g s / Real.log s) atTop (𝓝 (1 / 4)) ∧
    Tendsto (fun s : ℝ => gluon.f_q s / Real.log s) atTop (𝓝 (-(2 / 9))) := by
  have H : ∀ {F : ℝ → ℝ} {c d : ℝ}, Tendsto (fun s => F s - c * Real.log s) atTop (𝓝 d) →
      Tendsto (fun s => F s / Real.log s) atTop (𝓝 c) := by
    intro F c d h
    have h1 := (h.div_atTop Real.tendsto_log_atTop).add_const c
    rw [zero_add] at h1
    refine h1.congr' ?_
    filter_upwards [eventually_gt_atTop 1] with s hs
    have := (Real.log_pos hs).ne'
    field_simp
    ring
  exact ⟨H C25_loops.1, H C25_loops.2.2.1, H C25_loops.2.2.2.2.1⟩

/-! ### C60 -/

theorem corrTerms_sum (qs cs : List (ℕ × ℝ)) (hfl : qs.map Prod.fst = cs.map Prod.fst)
    (hq : ∀ q ∈ qs, 0 < q.2) (hc : ∀ q ∈ cs, 0 < q.2) (nc : ℕ) (m d : ℝ) (hm : 0 < m) :
    ∃ l, tc.corrTerms qs cs = some l ∧
      (cs.map (fun q => (q.1 : ℝ) / (nc : ℝ) * (d + 4 / 9 * Real.log (q.2 / m)))).sum
        + l.sum * 4 / (9 * (nc : ℝ))
      = (qs.map (fun q => (q.1 : ℝ) / (nc : ℝ) * (d + 4 / 9 * Real.log (q.2 / m)))).sum := by
  induction qs generalizing cs with
  | nil =>
    cases cs with
    | nil => exact ⟨[], rfl, by simp⟩
    | cons c cs => simp at hfl
  | cons q qs ih =>
    cases cs with
    | nil => simp at hfl
    | cons c cs =>
      obtain ⟨nf, mq⟩ := q
      obtain ⟨nf', mqc⟩ := c
      simp only [List.map_cons, List.cons.injEq] at hfl
      obtain ⟨l, hl, hs⟩ := ih cs hfl.2 (fun q h => hq q (by simp [h])) (fun q h => hc q (by simp [h]))
      refine ⟨(nf' : ℝ) * Real.log (mq / mqc) :: l, by simp [tc.corrTerms, hl], ?_⟩
      have h1 : 0 < mq := hq (nf, mq) (by simp)
      have h2 : 0 < mqc := hc (nf', mqc) (by simp)
      have h3 : nf = nf' := hfl.1
      subst h3
      simp only [List.map_cons, List.sum_cons]
      rw [← hs, Real.log_div h1.ne' h2.ne', Real.log_div h1.ne' hm.ne', Real.log_div h2.ne' hm.ne']
      rcases eq_or_ne (nc : ℝ) 0 with h0 | h0
      · simp [h0]
      · field_simp
        ring

/-- **C60**: when a corrected field configuration with the same flavours, colours and gluon mass is
set, the corrected renormalisation constant makes the inverse dressing (plain and crossed, any
gauge) approach the uncorrected one at large momentum. -/
theorem C60_uv_matching (k : Consts ℝ) (c : tc.Config) (nc : ℕ) (m xi : ℝ) (qs cs : List (ℕ × ℝ))
    (hfc : c.fieldconfig = FieldConfig.new nc m qs)
    (hfl : qs.map Prod.fst = cs.map Prod.fst) (hm : 0 < m)
    (hq : ∀ q ∈ qs, 0 < q.2) (hc : ∀ q ∈ cs, 0 < q.2) :
    ∃ c' f0', c.set_correctedfieldconfig (some (FieldConfig.new nc m cs)) = (c', false) ∧
      c'.correctedf0 = some f0' ∧
      Tendsto (fun s : ℝ =>
        qcd.gluon.dressing_inv_w_field_config k s f0' xi (FieldConfig.new nc m cs)
          - qcd.gluon.dressing_inv_w_field_config k s c.f0 xi c.fieldconfig) atTop (𝓝 0) ∧
      Tendsto (fun s : ℝ =>
        qcd.gluon.dressing_crossed_inv_w_field_config k s f0' xi (FieldConfig.new nc m cs)
          - qcd.gluon.dressing_crossed_inv_w_field_config k s c.f0 xi c.fieldconfig)
        atTop (𝓝 0) := by
  obtain ⟨l, hl, h1⟩ := corrTerms_sum qs cs hfl hq hc nc m (10 / 27) hm
  obtain ⟨l', hl', h2⟩ := corrTerms_sum qs cs hfl hq hc nc m (-(2 / 27)) hm
  have : l' = l := by rw [hl] at hl'; exact (Option.some.inj hl').symm
  subst this
  refine ⟨{ c with correctedfieldconfig := some (FieldConfig.new nc m cs),
                   correctedf0 := some (c.f0 + l'.sum * 4 / (9 * (nc : ℝ))) },
    c.f0 + l'.sum * 4 / (9 * (nc : ℝ)), ?_, rfl, ?_, ?_⟩
  · have e1 : (FieldConfig.new nc m qs).quarks = qs := rfl
    have e2 : (FieldConfig.new nc m cs).quarks = cs := rfl
    have e3 : (FieldConfig.new nc m qs).nc = nc := rfl
    simp only [tc.Config.set_correctedfieldconfig, tc.Config.set_correctedf0, hfc, e1, e2, e3, hl]
  all_goals
    have hsum : (cs.map (fun q => (q.1 : ℝ) / (nc : ℝ))).sum
        = (qs.map (fun q => (q.1 : ℝ) / (nc : ℝ))).sum := by
      have e : ∀ l : List (ℕ × ℝ), l.map (fun q => (q.1 : ℝ) / (nc : ℝ))
          = (l.map Prod.fst).map (fun n : ℕ => (n : ℝ) / (nc : ℝ)) := by intro l; simp
      rw [e, e, hfl]
    have a := C25_qcd k (c.f0 + l'.sum * 4 / (9 * (nc : ℝ))) xi nc m cs hm.ne'
      (fun q h => (hc q h).ne')
    have b := C25_qcd k c.f0 xi nc m qs hm.ne' (fun q h => (hq q h).ne')
    rw [hsum] at a
    rw [hfc]
  · have h := a.1.sub b.1
    have e : (17 : ℝ) / 18 + (c.f0 + l'.sum * 4 / (9 * (nc : ℝ))) - xi / 12
        + (cs.map (fun q => (q.1 : ℝ) / (nc : ℝ) * (10 / 27 + 4 / 9 * Real.log (q.2 / m)))).sum
        - (17 / 18 + c.f0 - xi / 12
        + (qs.map (fun q => (q.1 : ℝ) / (nc : ℝ) * (10 / 27 + 4 / 9 * Real.log (q.2 / m)))).sum)
        = 0 := by rw [← h1]; ring
    rw [e] at h
    exact h.congr (fun s => by ring)
  · have h := a.2.sub b.2
    have e : (17 : ℝ) / 18 + (c.f0 + l'.sum * 4 / (9 * (nc : ℝ))) - xi / 12
        + (cs.map (fun q => (q.1 : ℝ) / (nc : ℝ) * (-(2 / 27) + 4 / 9 * Real.log (q.2 / m)))).sum
        - (17 / 18 + c.f0 - xi / 12
        + (qs.map (fun q => (q.1 : ℝ) / (nc : ℝ) * (-(2 / 27) + 4 / 9 * Real.log (q.2 / m)))).sum)
        = 0 := by rw [← h2]; ring
    rw [e] at h
    exact h.congr (fun s => by ring)

/-- **C60** (initial constant): the constant stored by `Config::new` makes the ultraviolet constant
of the inverse dressing independent of the quark masses and of the gluon mass. -/
theorem C60_new_mass_independent (k : Consts ℝ) (tv cv mv : ℝ × ℝ × ℝ) (om rp f0i xi m : ℝ)
    (nc : ℕ) (qs : List (ℕ × ℝ)) (hm : 0 < m) (hq : ∀ q ∈ qs, 0 < q.2) :
    Tendsto (fun s : ℝ => qcd.gluon.dressing_inv_w_field_config k s
          (tc.Config.new tv cv mv om rp f0i (FieldConfig.new nc m qs)).f0 xi
          (FieldConfig.new nc m qs)
        - (13 / 18 - xi / 6 - 2 / 9 * (qs.map (fun q => (q.1 : ℝ) / (nc : ℝ))).sum) * Real.log s)
      atTop (𝓝 (17 / 18 + f0i - xi / 12
        + 10 / 27 * (qs.map (fun q => (q.1 : ℝ) / (nc : ℝ))).sum)) := by
  have h := (C25_qcd k (tc.Config.new tv cv mv om rp f0i (FieldConfig.new nc m qs)).f0 xi nc m qs
    hm.ne' (fun q h => (hq q h).ne')).1
  convert h using 2
  have key : ∀ qs : List (ℕ × ℝ), (∀ q ∈ qs, 0 < q.2) →
      10 / 27 * (qs.map (fun q => (q.1 : ℝ) / (nc : ℝ))).sum
      = (qs.map (fun q => (q.1 : ℝ) * Real.log (m / q.2))).sum * 4 / (9 * (nc : ℝ))
        + (qs.map (fun q => (q.1 : ℝ) / (nc : ℝ)
            * (10 / 27 + 4 / 9 * Real.log (q.2 / m)))).sum := by
    intro qs hq
    induction qs with
    | nil => simp
    | cons q qs ih =>
      have ih' := ih (fun q' h => hq q' (by simp [h]))
      have h1 : 0 < q.2 := hq q (by simp)
      simp only [List.map_cons, List.sum_cons, mul_add, ih']
      rw [Real.log_div h1.ne' hm.ne', Real.log_div hm.ne' h1.ne']
      ring
  rw [key qs hq]
  have e1 : (FieldConfig.new nc m qs).quarks = qs := rfl
  have e2 : (FieldConfig.new nc m qs).gluon = m := rfl
  have e3 : (FieldConfig.new nc m qs).nc = nc := rfl
  simp only [tc.Config.new, e1, e2, e3]
  ring

/-- A configuration with two flavour groups meeting the hypotheses of `C60_uv_matching`. -/
example : ∃ (qs cs : List (ℕ × ℝ)), qs ≠ cs ∧ qs.map Prod.fst = cs.map Prod.fst ∧
    (∀ q ∈ qs, 0 < q.2) ∧ (∀ q ∈ cs, 0 < q.2) ∧
    (tc.Config.new (0, 1, 1) (0, 1, 1) (0, 1, 1) 1 1 0 (FieldConfig.new 3 1 qs)).fieldconfig
      = FieldConfig.new 3 1 qs := by
  refine ⟨[(2, 1 / 3), (1, 1 / 2)], [(2, 1 / 5), (1, 1 / 4)], by norm_num, rfl, ?_, ?_, rfl⟩ <;>
    (intro q hq; fin_cases hq <;> norm_num)

end Qcd
