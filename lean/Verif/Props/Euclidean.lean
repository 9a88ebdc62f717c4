import Verif.Lemmas.Euclidean
import Verif.Props.VacuumLimits
import Mathlib.Analysis.Complex.ExponentialBounds

/-! # C107: the propagators have no pole at Euclidean momenta -/

namespace Qcd
open Real Set Filter Topology
open consts (Consts)

/-- The ghost function written out. -/
theorem g_form {s : ℝ} (hs : 0 < s) :
    12 * ghost.g s = 2 + 1 / s - 2 * s * log s + (2 * s + 3 - 1 / s ^ 2) * log (1 + s) := by
  simp only [ghost.g, ghost.g_sep, ghost.l_g, ghost.r_g, ofR_real, ln_real]
  rw [add_comm s 1]
  field_simp
  ring

theorem g_hasDeriv {s : ℝ} (hs : 0 < s) :
    HasDerivAt (ghost.g : ℝ → ℝ) ((-2 / s ^ 2 + 1 / s + 2 * log (1 + 1 / s) + 2 * log (1 + s) / s ^ 3) / 12) s := by
  have hs0 := hs.ne'
  have h1 : (1 : ℝ) + s ≠ 0 := by positivity
  have d1 : HasDerivAt (fun t : ℝ => 1 / t) (-(s ^ 2)⁻¹) s := by simpa using hasDerivAt_inv hs0
  have d2 : HasDerivAt (fun t : ℝ => 1 / t ^ 2) (-(2 * s) / (s ^ 2) ^ 2) s := by
    have := (hasDerivAt_pow 2 s).fun_inv (pow_ne_zero 2 hs0)
    simpa using this
  have d3 : HasDerivAt (fun t : ℝ => log (1 + t)) (1 / (1 + s)) s := by
    simpa using ((hasDerivAt_id s).const_add 1).log h1
  have d4 : HasDerivAt (fun t : ℝ => 2 * t) 2 s := by simpa using (hasDerivAt_id s).const_mul 2
  have d := ((((d1.const_add 2).sub (d4.mul (Real.hasDerivAt_log hs0))).add (((d4.add_const 3).sub d2).mul d3)).div_const 12)
  have ev : (fun t : ℝ => (2 + 1 / t - 2 * t * log t + (2 * t + 3 - 1 / t ^ 2) * log (1 + t)) / 12) =ᶠ[𝓝 s] ghost.g := by
    filter_upwards [lt_mem_nhds hs] with t ht
    rw [← g_form ht]; ring
  refine (d.congr_of_eventuallyEq ev.symm).congr_deriv ?_
  rw [show (1 : ℝ) + 1 / s = (1 + s) / s by field_simp; ring, log_div h1 hs0]
  simp only [Pi.sub_apply, Pi.add_apply]
  field_simp
  ring

/-- **C107** (ghost function): strictly increasing on the whole Euclidean axis, above `5/24 + ln(1+s)/6`. -/
theorem C107_ghost_function : StrictMonoOn (ghost.g : ℝ → ℝ) (Ioi 0) ∧ ∀ s : ℝ, 0 < s → 5 / 24 + 1 / 6 * log (1 + s) < ghost.g s := by
  constructor
  · refine strictMonoOn_of_deriv_pos (convex_Ioi 0) (fun s hs => (g_hasDeriv hs).continuousAt.continuousWithinAt) fun s hs => ?_
    rw [interior_Ioi] at hs
    have hs : 0 < s := hs
    rw [(g_hasDeriv hs).deriv]
    have h1 := log_one_add_lower hs.le
    have h2 : 0 < log (1 + 1 / s) := log_pos (by have : 0 < 1 / s := by positivity
                                                 linarith)
    have h3 : 2 * (s - s ^ 2 / 2) / s ^ 3 ≤ 2 * log (1 + s) / s ^ 3 := by gcongr
    have h4 : 2 * (s - s ^ 2 / 2) / s ^ 3 = 2 / s ^ 2 - 1 / s := by field_simp
    have h5 : -2 / s ^ 2 = -(2 / s ^ 2) := by ring
    rw [h5]
    linarith
  · intro s hs
    have hD : 0 ≤ (s ^ 2 - 1) * log (1 + s) - s ^ 2 / 2 + s := by
      refine nonneg_of_deriv (f := fun s => (s ^ 2 - 1) * log (1 + s) - s ^ 2 / 2 + s) (f' := fun s => 2 * s * log (1 + s)) (a := 0) (by simp) ?_ ?_ hs.le
      · intro t ht
        have h1 : (1 : ℝ) + t ≠ 0 := by positivity
        have d3 : HasDerivAt (fun t : ℝ => log (1 + t)) (1 / (1 + t)) t := by
          simpa using ((hasDerivAt_id t).const_add 1).log h1
        have := ((((hasDerivAt_pow 2 t).sub_const 1).mul d3).sub ((hasDerivAt_pow 2 t).div_const 2)).add (hasDerivAt_id t)
        refine this.congr_deriv ?_
        field_simp
        ring
      · intro t ht
        have := log_nonneg (by linarith : (1 : ℝ) ≤ 1 + t)
        positivity
    have e := g_form hs
    have hv : 0 < s * (log (1 + s) - log s) := mul_pos hs (sub_pos.2 (log_lt_log hs (by linarith)))
    have hD' : 0 ≤ ((s ^ 2 - 1) * log (1 + s) - s ^ 2 / 2 + s) / s ^ 2 := by positivity
    have e2 : ((s ^ 2 - 1) * log (1 + s) - s ^ 2 / 2 + s) / s ^ 2 = (1 - 1 / s ^ 2) * log (1 + s) - 1 / 2 + 1 / s := by
      field_simp
    rw [e2] at hD'
    nlinarith

/-- **C107** (ghost): the inverse dressing function is positive, so that dressing function and propagator are defined and positive, at every
Euclidean momentum, if the renormalisation constant is at least `-5/24`, in every gauge from `xi = 0` to `xi = 2`. In the Landau gauge the condition is sharp:
below, there is exactly one Euclidean pole. -/
theorem C107_ghost (g0 xi : ℝ) :
    (-(5 / 24) ≤ g0 → 0 ≤ xi → xi ≤ 2 → ∀ s : ℝ, 0 < s → 0 < ghost.dressing_inv_landau s g0 ∧ 0 < ghost.dressing_inv s g0 xi ∧
      0 < ghost.dressing_landau s g0 ∧ 0 < ghost.dressing s g0 xi ∧ 0 < ghost.propagator_landau s g0 ∧ 0 < ghost.propagator s g0 xi) ∧
    (g0 < -(5 / 24) → ∃! s : ℝ, 0 < s ∧ ghost.dressing_inv_landau s g0 = 0) := by
  constructor
  · intro hg h0 h2 s hs
    have h := C107_ghost_function.2 s hs
    have hL : 0 < log (1 + s) := log_pos (by linarith)
    have hl : log s ≤ log (1 + s) := log_le_log hs (by linarith)
    have p1 : 0 < ghost.dressing_inv_landau s g0 := by
      rw [(C17_dressing_inv_affine s 0 g0 0).1, ofR_real]; linarith
    have p2 : 0 < ghost.dressing_inv s g0 xi := by
      rw [(C17_dressing_inv_affine s 0 g0 xi).2.1, ofR_real, ofR_real, ghost.g_xi, ln_real, ofR_real]
      have : xi * log s ≤ 2 * log (1 + s) := by nlinarith
      linarith
    refine ⟨p1, p2, inv_pos.2 p1, inv_pos.2 p2, mul_pos (inv_pos.2 hs) (inv_pos.2 p1), mul_pos (inv_pos.2 hs) (inv_pos.2 p2)⟩
  · intro hg
    have hc : ContinuousOn (ghost.g : ℝ → ℝ) (Ioi 0) := fun s hs => (g_hasDeriv hs).continuousAt.continuousWithinAt
    have e1 : ∀ᶠ s : ℝ in 𝓝[>] 0, ghost.g s < -g0 := C24_loops.2.2.eventually (gt_mem_nhds (by linarith))
    obtain ⟨a, ha, ha0⟩ := (e1.and self_mem_nhdsWithin).exists
    have ha0 : 0 < a := ha0
    have e2 : Tendsto (ghost.g : ℝ → ℝ) atTop atTop := by
      have := (C25_loops.2.2.1).add_atTop (Real.tendsto_log_atTop.const_mul_atTop (by norm_num : (0 : ℝ) < 1 / 4))
      exact this.congr fun s => by ring
    obtain ⟨b, hb, hab⟩ := ((e2.eventually_gt_atTop (-g0)).and (eventually_gt_atTop a)).exists
    obtain ⟨s, hs, he⟩ := intermediate_value_Icc hab.le (hc.mono fun x hx => ha0.trans_le hx.1) ⟨ha.le, hb.le⟩
    have hs0 : 0 < s := ha0.trans_le hs.1
    refine ⟨s, ⟨hs0, ?_⟩, ?_⟩
    · rw [(C17_dressing_inv_affine s 0 g0 0).1, ofR_real, he]; ring
    · rintro t ⟨ht, h⟩
      rw [(C17_dressing_inv_affine t 0 g0 0).1, ofR_real] at h
      exact C107_ghost_function.1.injOn ht hs0 (by rw [he]; linarith)

/-- **C107** (gluon function): bounded below on the whole Euclidean axis by its ultraviolet logarithm and the constant 0.876. -/
theorem C107_gluon_function (s : ℝ) (hs : 0 < s) :
    0.876 + 13 / 18 * log (1 + s) < gluon.f s ∧ -(1 / 12) - 1 / 6 * log (1 + s) < gluon.f_xi s := by
  refine ⟨f_lower hs, ?_⟩
  have e : 12 * gluon.f_xi s = 6 / s - 2 / s ^ 2 - 3 - 2 * s * log s + 2 * (1 / s ^ 3 - 1 / s ^ 2 - 1 + s) * log (1 + s) := by
    simp only [gluon.f_xi, gluon.f_xi_sep, ofR_real, ln_real]
    rw [add_comm s 1]
    field_simp
    ring
  have e2 : log s = log (1 + s) - log (1 + 1 / s) := by
    rw [← log_div (by positivity) (by positivity)]; congr 1; field_simp; ring
  have hv := Real.le_log_one_add_of_nonneg (x := 1 / s) (by positivity)
  have hv' : s * (2 * (1 / s) / (1 / s + 2)) ≤ s * log (1 + 1 / s) := mul_le_mul_of_nonneg_left hv hs.le
  have ev : s * (2 * (1 / s) / (1 / s + 2)) = 2 * s / (1 + 2 * s) := by field_simp
  rw [ev] at hv'
  suffices h : 0 < 6 / s - 2 / s ^ 2 - 2 + 2 * (2 * s / (1 + 2 * s)) + 2 * (1 / s ^ 3 - 1 / s ^ 2) * log (1 + s) by
    rw [e2] at e
    nlinarith
  rcases le_total s 1 with h1 | h1
  · have hL := Real.le_log_one_add_of_nonneg hs.le
    have hc : 0 ≤ 2 * (1 / s ^ 3 - 1 / s ^ 2) := by
      rw [show 2 * (1 / s ^ 3 - 1 / s ^ 2) = 2 * (1 - s) / s ^ 3 by field_simp]
      have : 0 ≤ 1 - s := by linarith
      positivity
    have := mul_le_mul_of_nonneg_left hL hc
    have h2 : 0 < 6 / s - 2 / s ^ 2 - 2 + 2 * (1 / s ^ 3 - 1 / s ^ 2) * (2 * s / (s + 2)) := by
      rw [show 6 / s - 2 / s ^ 2 - 2 + 2 * (1 / s ^ 3 - 1 / s ^ 2) * (2 * s / (s + 2)) = (6 + 2 * s - 2 * s ^ 2) / (s * (s + 2)) by field_simp; ring]
      have : 0 < 6 + 2 * s - 2 * s ^ 2 := by nlinarith
      positivity
    have h3 : 0 < 2 * s / (1 + 2 * s) := by positivity
    linarith
  · have hL : log (1 + s) ≤ s := by have := Real.log_le_sub_one_of_pos (by positivity : 0 < 1 + s); linarith
    have hL0 : 0 ≤ log (1 + s) := log_nonneg (by linarith)
    have hc : 2 * (1 / s ^ 3 - 1 / s ^ 2) * log (1 + s) = 2 * log (1 + s) / s ^ 3 - 2 * log (1 + s) / s ^ 2 := by field_simp
    have p1 : 0 ≤ 2 * log (1 + s) / s ^ 3 := by positivity
    have p2 : 2 * log (1 + s) / s ^ 2 ≤ 2 * s / s ^ 2 := by gcongr
    have : 0 < 6 / s - 2 / s ^ 2 - 2 + 2 * (2 * s / (1 + 2 * s)) - 2 * s / s ^ 2 := by
      rw [show 6 / s - 2 / s ^ 2 - 2 + 2 * (2 * s / (1 + 2 * s)) - 2 * s / s ^ 2 = (6 * s ^ 2 - 2) / (s ^ 2 * (1 + 2 * s)) by field_simp; ring]
      have : 0 < 6 * s ^ 2 - 2 := by nlinarith
      positivity
    rw [hc]
    linarith

/-- **C107** (gluon of Yang-Mills theory): with `f0 ≥ -0.876`, the value used by the programs, the inverse dressing function in the Landau gauge is
larger than `(13/18) ln(1+s)` at every Euclidean momentum, so that dressing function and propagator are defined and positive; in the gauges from `xi = 0` to
`xi = 13/3`, with `f0 ≥ -0.876 + xi/12`. -/
theorem C107_gluon {f0 xi : ℝ} (h0 : 0 ≤ xi) (h1 : xi ≤ 13 / 3) (hf : -0.876 + xi / 12 ≤ f0) (s : ℝ) (hs : 0 < s) :
    13 / 18 * log (1 + s) < ym.gluon.dressing_inv_landau s f0 ∧ (13 / 18 - xi / 6) * log (1 + s) < ym.gluon.dressing_inv s f0 xi ∧
    0 < ym.gluon.dressing_landau s f0 ∧ ym.gluon.dressing_landau s f0 < 18 / (13 * log (1 + s)) ∧
    0 < ym.gluon.dressing s f0 xi ∧ 0 < ym.gluon.propagator_landau s f0 ∧ 0 < ym.gluon.propagator s f0 xi := by
  obtain ⟨a, b⟩ := C107_gluon_function s hs
  have hL : 0 < log (1 + s) := log_pos (by linarith)
  have p1 : 13 / 18 * log (1 + s) < ym.gluon.dressing_inv_landau s f0 := by
    rw [(C17_dressing_inv_affine s f0 0 0).2.2.1, ofR_real]; linarith
  have p2 : (13 / 18 - xi / 6) * log (1 + s) < ym.gluon.dressing_inv s f0 xi := by
    rw [(C17_dressing_inv_affine s f0 0 xi).2.2.2, ofR_real, ofR_real]
    nlinarith
  have q1 : 0 < ym.gluon.dressing_inv_landau s f0 := lt_trans (by positivity) p1
  have q2 : 0 < ym.gluon.dressing_inv s f0 xi := lt_of_le_of_lt (mul_nonneg (by linarith) hL.le) p2
  refine ⟨p1, p2, inv_pos.2 q1, ?_, inv_pos.2 q2, div_pos (inv_pos.2 q1) hs, div_pos (inv_pos.2 q2) hs⟩
  have : 18 / (13 * log (1 + s)) = (13 / 18 * log (1 + s))⁻¹ := by field_simp
  rw [this, ym.gluon.dressing_landau]
  exact inv_strictAnti₀ (by positivity) p1

theorem f_continuousOn : ContinuousOn (gluon.f : ℝ → ℝ) (Ioi 0) := by
  intro s hs
  have hs : 0 < s := hs
  have h1 : s + 1 ≠ 0 := by positivity
  have h2 : 1 < √(s⁻¹ * 4 + 1) := by
    rw [Real.lt_sqrt (by norm_num)]
    have : 0 < s⁻¹ := inv_pos.2 hs
    linarith
  have h3 : (√(s⁻¹ * 4 + 1) - 1) / 2 ≠ 0 := by
    have : 0 < √(s⁻¹ * 4 + 1) - 1 := by linarith
    positivity
  have h4 := hs.ne'
  refine ContinuousAt.continuousWithinAt ?_
  show ContinuousAt (fun s : ℝ => gluon.f s) s
  simp only [gluon.f, gluon.f_sep, gluon.l_a, gluon.l_b, gluon.l_c, gluon.r_a, gluon.r_b, gluon.r_c, ofR_real, ln_real, sqrt_real]
  fun_prop (disch := assumption)

/-- **C107** (poles): if the renormalisation constant is too low, `f0 ≤ -2.15`, the gluon propagator has at least two Euclidean poles, one on each side of `s = 1`. -/
theorem C107_gluon_poles {f0 : ℝ} (hf : f0 ≤ -2.15) :
    (∃ s : ℝ, 0 < s ∧ s < 1 ∧ ym.gluon.dressing_inv_landau s f0 = 0) ∧ ∃ s : ℝ, 1 < s ∧ ym.gluon.dressing_inv_landau s f0 = 0 := by
  have f1 : gluon.f (1 : ℝ) < 2.15 := by
    have h5 : √5 ^ 2 = 5 := Real.sq_sqrt (by norm_num)
    have h5a : 2.236 < √5 := by rw [Real.lt_sqrt (by norm_num)]; norm_num
    have h5b : √5 < 2.2361 := by rw [Real.sqrt_lt' (by norm_num)]; norm_num
    have hx : (0 : ℝ) < (3 - √5) / 2 := by linarith
    have hx1 : (3 - √5) / 2 < 1 := by linarith
    have e := f_of_x hx hx1 (s := 1) (by rw [eq_div_iff hx.ne']; nlinarith)
    have ea : (1 + (3 - √5) / 2) / (1 - (3 - √5) / 2) = √5 := by
      rw [div_eq_iff (by linarith)]; nlinarith
    have hlog : -log ((3 - √5) / 2) ≤ 0.9632 := by
      rw [← log_inv]
      have hi : ((3 - √5) / 2)⁻¹ = (3 + √5) / 2 := by
        rw [inv_eq_iff_eq_inv, inv_div, eq_div_iff (by positivity)]; nlinarith
      rw [hi]
      have he := Real.exp_one_gt_d9
      have : log ((3 + √5) / 2) = 1 + log ((3 + √5) / 2 / exp 1) := by
        rw [log_div (by positivity) (exp_pos 1).ne', log_exp]; ring
      rw [this]
      have h6 := Real.log_le_sub_one_of_pos (x := (3 + √5) / 2 / exp 1) (by positivity)
      have h7 : (3 + √5) / 2 / exp 1 ≤ 0.9632 := by
        rw [div_le_iff₀ (exp_pos 1)]; nlinarith
      linarith
    have h2 := Real.log_two_gt_d9
    rw [ea] at e
    norm_num at e
    have : √5 * 83 * -log ((3 - √5) / 2) ≤ 2.2361 * 83 * 0.9632 := by
      have h8 : 0 ≤ -log ((3 - √5) / 2) := by
        rw [neg_nonneg]; exact log_nonpos hx.le hx1.le
      have h9 : √5 * 83 * -log ((3 - √5) / 2) ≤ 2.2361 * 83 * -log ((3 - √5) / 2) := by
        apply mul_le_mul_of_nonneg_right _ h8; linarith
      linarith
    norm_num at this ⊢
    linarith
  have hc := f_continuousOn
  have up : Tendsto (gluon.f : ℝ → ℝ) atTop atTop := by
    have := (C25_loops.1).add_atTop (Real.tendsto_log_atTop.const_mul_atTop (by norm_num : (0 : ℝ) < 13 / 18))
    exact this.congr fun s => by ring
  have down : Tendsto (gluon.f : ℝ → ℝ) (𝓝[>] 0) atTop := by
    have := C24_loops.1.pos_mul_atTop (by norm_num) tendsto_inv_nhdsGT_zero
    refine this.congr' ?_
    filter_upwards [self_mem_nhdsWithin] with s hs
    have : s ≠ 0 := (show 0 < s from hs).ne'
    field_simp
  have key : ∀ s : ℝ, gluon.f s = -f0 → ym.gluon.dressing_inv_landau s f0 = 0 := fun s h => by
    rw [(C17_dressing_inv_affine s f0 0 0).2.2.1, ofR_real, h]; ring
  have hne : ∀ s : ℝ, gluon.f s = -f0 → s ≠ 1 := fun s h h1 => by
    rw [h1] at h; norm_num at hf f1; linarith
  have f1' : gluon.f (1 : ℝ) ≤ -f0 := by norm_num at hf f1; linarith
  constructor
  · obtain ⟨a, ha, ha0, ha1⟩ := ((down.eventually_gt_atTop (-f0)).and
      ((eventually_mem_nhdsWithin : ∀ᶠ x : ℝ in 𝓝[>] 0, x ∈ Ioi (0 : ℝ)).and (eventually_nhdsWithin_of_eventually_nhds (gt_mem_nhds (one_pos))))).exists
    have ha0 : 0 < a := ha0
    obtain ⟨s, hs, he⟩ := intermediate_value_Icc' (show a ≤ 1 from ha1.le) (hc.mono fun x hx => ha0.trans_le hx.1) ⟨f1', ha.le⟩
    exact ⟨s, ha0.trans_le hs.1, lt_of_le_of_ne hs.2 (hne s he), key s he⟩
  · obtain ⟨b, hb, hb1⟩ := ((up.eventually_gt_atTop (-f0)).and (eventually_gt_atTop 1)).exists
    obtain ⟨s, hs, he⟩ := intermediate_value_Icc hb1.le (hc.mono fun x hx => one_pos.trans_le hx.1) ⟨f1', hb.le⟩
    exact ⟨s, lt_of_le_of_ne hs.1 (hne s he).symm, key s he⟩

end Qcd
