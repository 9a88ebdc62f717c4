import Verif.Props.Euclidean

/-! # C107, continued: quarks -/

namespace Qcd
open Real Set Filter Topology
open consts (Consts)

theorem integral_weight (a b : ℝ) : ∫ x in (0 : ℝ)..1, x * (1 - x) * (a + b * (x * (1 - x))) = a / 6 + b / 30 := by
  have hd : ∀ x : ℝ, HasDerivAt (fun x : ℝ => a * (x ^ 2 / 2 - x ^ 3 / 3) + b * (x ^ 3 / 3 - x ^ 4 / 2 + x ^ 5 / 5)) (x * (1 - x) * (a + b * (x * (1 - x)))) x := by
    intro x
    have := ((((hasDerivAt_pow 2 x).div_const 2).sub ((hasDerivAt_pow 3 x).div_const 3)).const_mul a).add
      (((((hasDerivAt_pow 3 x).div_const 3).sub ((hasDerivAt_pow 4 x).div_const 2)).add ((hasDerivAt_pow 5 x).div_const 5)).const_mul b)
    refine this.congr_deriv ?_
    ring
  rw [intervalIntegral.integral_eq_sub_of_hasDerivAt (fun x _ => hd x) (Continuous.intervalIntegrable (by fun_prop) _ _)]
  ring

/-- **C107** (quark function): the quark loop screens no more than the logarithm of the average of its Feynman integral; the crossed loop at most `4/9` more. -/
theorem C107_quark_function (s : ℝ) (hs : 0 < s) :
    -(2 / 9) * log (1 + s / 5) ≤ gluon.f_q s ∧ -(2 / 9) * log (1 + s / 5) - 4 / 9 * (s / (s + 5)) ≤ gluon.f_q_crossed s := by
  have hc : 0 < 1 + s / 5 := by positivity
  have l1 : ∀ x ∈ Icc (0 : ℝ) 1, log (1 + x * (1 - x) * s) ≤ log (1 + s / 5) + (1 + x * (1 - x) * s - (1 + s / 5)) / (1 + s / 5) := by
    intro x hx
    have h0 := mul_nonneg (weight_nonneg hx) hs.le
    have h1 : 0 < 1 + x * (1 - x) * s := by linarith
    have := Real.log_le_sub_one_of_pos (div_pos h1 hc)
    rw [log_div h1.ne' hc.ne'] at this
    rw [sub_div, div_self hc.ne']
    linarith
  have l2 : ∀ x ∈ Icc (0 : ℝ) 1, x * (1 - x) * s / (1 + x * (1 - x) * s) ≤ s / (s + 5) + (x * (1 - x) * s - s / 5) / (1 + s / 5) ^ 2 := by
    intro x hx
    have h0 := mul_nonneg (weight_nonneg hx) hs.le
    generalize x * (1 - x) * s = w at *
    have : s / (s + 5) + (w - s / 5) / (1 + s / 5) ^ 2 - w / (1 + w) = (w - s / 5) ^ 2 / ((1 + w) * (1 + s / 5) ^ 2) := by
      field_simp
      ring
    have h2 : 0 ≤ (w - s / 5) ^ 2 / ((1 + w) * (1 + s / 5) ^ 2) := by positivity
    linarith
  have i1 : IntervalIntegrable (fun x : ℝ => x * (1 - x) * Real.log (1 + x * (1 - x) * s))
      MeasureTheory.volume 0 1 := by
    apply ContinuousOn.intervalIntegrable
    rw [Set.uIcc_of_le (by norm_num)]
    exact continuous_log_weight hs
  have i2 : IntervalIntegrable (fun x : ℝ => x * (1 - x) *
      (Real.log (1 + x * (1 - x) * s) + 2 * (x * (1 - x) * s / (1 + x * (1 - x) * s))))
      MeasureTheory.volume 0 1 := by
    apply ContinuousOn.intervalIntegrable
    rw [Set.uIcc_of_le (by norm_num)]
    refine ((continuous_log_weight hs).add ((continuous_ratio_weight hs).const_mul 2)).congr ?_
    intro x _
    simp; ring
  have ip : ∀ a b : ℝ, IntervalIntegrable (fun x : ℝ => x * (1 - x) * (a + b * (x * (1 - x)))) MeasureTheory.volume 0 1 :=
    fun a b => Continuous.intervalIntegrable (by fun_prop) _ _
  rw [C61_feynman s hs, C61_feynman_crossed s hs, feynman_fq, feynman_fq_crossed]
  constructor
  · have := intervalIntegral.integral_mono_on (a := 0) (b := 1) (by norm_num) i1 (ip (log (1 + s / 5) - (s / 5) / (1 + s / 5)) (s / (1 + s / 5))) (by
      intro x hx
      refine mul_le_mul_of_nonneg_left ((l1 x hx).trans (le_of_eq ?_)) (weight_nonneg hx)
      ring)
    rw [integral_weight] at this
    have e : (log (1 + s / 5) - (s / 5) / (1 + s / 5)) / 6 + s / (1 + s / 5) / 30 = log (1 + s / 5) / 6 := by ring
    rw [e] at this
    linarith
  · have := intervalIntegral.integral_mono_on (a := 0) (b := 1) (by norm_num) i2
      (ip (log (1 + s / 5) - (s / 5) / (1 + s / 5) + 2 * (s / (s + 5) - s / 5 / (1 + s / 5) ^ 2)) (s / (1 + s / 5) + 2 * (s / (1 + s / 5) ^ 2))) (by
      intro x hx
      refine mul_le_mul_of_nonneg_left ((add_le_add (l1 x hx) (mul_le_mul_of_nonneg_left (l2 x hx) zero_le_two)).trans (le_of_eq ?_)) (weight_nonneg hx)
      ring)
    rw [integral_weight] at this
    have e : (log (1 + s / 5) - (s / 5) / (1 + s / 5) + 2 * (s / (s + 5) - s / 5 / (1 + s / 5) ^ 2)) / 6 + (s / (1 + s / 5) + 2 * (s / (1 + s / 5) ^ 2)) / 30
        = log (1 + s / 5) / 6 + s / (s + 5) / 3 := by ring
    rw [e] at this
    linarith

/-- The sum over the quarks is bounded by the number of flavours per colour. -/
theorem quarkSum_lower {F : ℝ → ℝ} {d : ℝ} (hF : ∀ t : ℝ, 0 < t → -(2 / 9) * log (1 + t / 5) - d ≤ F t) {s : ℝ} (hs : 0 < s) {nc : ℕ} {m rho : ℝ} (hm : 0 < m)
    (hr : 1 ≤ rho) (qs : List (ℕ × ℝ)) (hq : ∀ q ∈ qs, 0 < q.2 ∧ m ^ 2 ≤ 5 * rho * q.2 ^ 2) :
    -(2 / 9 * (log rho + log (1 + s)) + d) * (qs.map fun q => (q.1 : ℝ) / nc).sum ≤ quarkSum F s nc m qs := by
  induction qs with
  | nil => simp [quarkSum]
  | cons q qs ih =>
    have ih := ih fun q' h => hq q' (List.mem_cons_of_mem _ h)
    obtain ⟨h1, h2⟩ := hq q List.mem_cons_self
    simp only [quarkSum, List.map_cons, List.sum_cons] at ih ⊢
    rw [mul_add]
    refine add_le_add ?_ ih
    simp only [ofR_real]
    have ht : 0 < s / (q.2 / m) ^ 2 := by positivity
    have hl : log (1 + s / (q.2 / m) ^ 2 / 5) ≤ log rho + log (1 + s) := by
      rw [← log_mul (by positivity) (by positivity)]
      refine log_le_log (by positivity) ?_
      have : s / (q.2 / m) ^ 2 / 5 ≤ rho * s := by
        rw [div_pow, div_div_eq_mul_div, div_div, div_le_iff₀ (by positivity)]
        nlinarith
      linarith
    refine mul_le_mul_of_nonneg_right (le_trans ?_ (hF _ ht)) (by positivity)
    linarith

/-- **C107** (QCD): a field configuration with any number of quarks. Let `N` be the number of flavours per colour and `rho ≥ 1` such that no quark is
lighter than `m / √(5 rho)`. If the theory is asymptotically free in the gauge (`2N/9 + xi/6 ≤ 13/18`) and `f0 ≥ -0.876 + xi/12 + (2N/9) ln rho`, the inverse
dressing function is positive at every Euclidean momentum: dressing function and propagator are defined and positive. For the crossed functions the bound on `f0` grows by `4N/9`. -/
theorem C107_qcd (k : Consts ℝ) {f0 xi m rho : ℝ} {nc : ℕ} (hm : 0 < m) (hr : 1 ≤ rho) (qs : List (ℕ × ℝ))
    (hq : ∀ q ∈ qs, 0 < q.2 ∧ m ^ 2 ≤ 5 * rho * q.2 ^ 2) (h0 : 0 ≤ xi)
    (hN : 2 / 9 * (qs.map fun q => (q.1 : ℝ) / nc).sum + xi / 6 ≤ 13 / 18)
    (hf : -0.876 + xi / 12 + 2 / 9 * (qs.map fun q => (q.1 : ℝ) / nc).sum * log rho ≤ f0) (s : ℝ) (hs : 0 < s) :
    (0 < qcd.gluon.dressing_inv_w_field_config k s f0 xi (FieldConfig.new nc m qs) ∧
      0 < qcd.gluon.dressing_w_field_config k s f0 xi (FieldConfig.new nc m qs) ∧
      0 < qcd.gluon.propagator_w_field_config k s f0 xi (FieldConfig.new nc m qs)) ∧
    (0 < qcd.gluon.dressing_inv_landau_w_field_config k s f0 (FieldConfig.new nc m qs) ∧
      0 < qcd.gluon.dressing_landau_w_field_config k s f0 (FieldConfig.new nc m qs) ∧
      0 < qcd.gluon.propagator_landau_w_field_config k s f0 (FieldConfig.new nc m qs)) ∧
    (-0.876 + xi / 12 + 2 / 9 * (qs.map fun q => (q.1 : ℝ) / nc).sum * log rho + 4 / 9 * (qs.map fun q => (q.1 : ℝ) / nc).sum ≤ f0 →
      0 < qcd.gluon.dressing_crossed_inv_w_field_config k s f0 xi (FieldConfig.new nc m qs) ∧
      0 < qcd.gluon.propagator_crossed_w_field_config k s f0 xi (FieldConfig.new nc m qs) ∧
      0 < qcd.gluon.dressing_crossed_inv_landau_w_field_config k s f0 (FieldConfig.new nc m qs) ∧
      0 < qcd.gluon.propagator_crossed_landau_w_field_config k s f0 (FieldConfig.new nc m qs)) := by
  obtain ⟨a, b⟩ := C107_gluon_function s hs
  obtain ⟨e1, e2, e3, e4⟩ := C29_additive k s f0 xi nc m qs
  have hL : 0 < log (1 + s) := log_pos (by linarith)
  have hR : 0 ≤ log rho := log_nonneg hr
  have n0 : 0 ≤ (qs.map fun q => (q.1 : ℝ) / nc).sum := by
    refine List.sum_nonneg fun x hx => ?_
    obtain ⟨q, -, rfl⟩ := List.mem_map.1 hx
    positivity
  have q1 := quarkSum_lower (F := gluon.f_q) (d := 0) (fun t ht => by have := (C107_quark_function t ht).1; linarith) hs (nc := nc) hm hr qs hq
  have q2 := quarkSum_lower (F := gluon.f_q_crossed) (d := 4 / 9) (fun t ht => by
    have h1 := (C107_quark_function t ht).2
    have h2 : t / (t + 5) ≤ 1 := by rw [div_le_one (by positivity)]; linarith
    linarith) hs (nc := nc) hm hr qs hq
  have fL := (C17_dressing_inv_affine s f0 0 0).2.2.1
  have fX := (C17_dressing_inv_affine s f0 0 xi).2.2.2
  rw [ofR_real] at fL
  rw [ofR_real, ofR_real] at fX
  generalize (qs.map fun q => (q.1 : ℝ) / nc).sum = N at *
  have x1 := mul_le_mul_of_nonneg_right hN hL.le
  have x2 := mul_le_mul_of_nonneg_left b.le h0
  have p1 : 0 < qcd.gluon.dressing_inv_w_field_config k s f0 xi (FieldConfig.new nc m qs) := by
    rw [e2, fX]; nlinarith
  have p2 : 0 < qcd.gluon.dressing_inv_landau_w_field_config k s f0 (FieldConfig.new nc m qs) := by
    rw [e1, fL]; nlinarith
  refine ⟨⟨p1, inv_pos.2 p1, div_pos (inv_pos.2 p1) hs⟩, ⟨p2, inv_pos.2 p2, div_pos (inv_pos.2 p2) hs⟩, fun hf => ?_⟩
  have p3 : 0 < qcd.gluon.dressing_crossed_inv_w_field_config k s f0 xi (FieldConfig.new nc m qs) := by
    rw [e4, fX]; nlinarith
  have p4 : 0 < qcd.gluon.dressing_crossed_inv_landau_w_field_config k s f0 (FieldConfig.new nc m qs) := by
    rw [e3, fL]; nlinarith
  exact ⟨p3, div_pos (inv_pos.2 p3) hs, p4, div_pos (inv_pos.2 p4) hs⟩

/-- Two light flavours and one heavier one with the constants of the programs. -/
example (k : Consts ℝ) (s : ℝ) (hs : 0 < s) :
    0 < qcd.gluon.propagator_landau_w_field_config k s (-0.876) (FieldConfig.new 3 0.656 [(2, 0.35), (1, 0.45)]) :=
  (C107_qcd k (xi := 0) (rho := 1) (by norm_num) le_rfl [(2, 0.35), (1, 0.45)]
    (by intro q hq; simp only [List.mem_cons, List.not_mem_nil, or_false] at hq; rcases hq with rfl | rfl <;> norm_num)
    le_rfl (by norm_num) (by norm_num) s hs).2.1.2.2

example (s : ℝ) (hs : 0 < s) : 0 < ym.gluon.propagator_landau s (-0.876) :=
  (C107_gluon (xi := 0) le_rfl (by norm_num) (by norm_num) s hs).2.2.2.2.2.1

example : ∃ s : ℝ, 1 < s ∧ ym.gluon.dressing_inv_landau s (-3) = 0 := (C107_gluon_poles (by norm_num)).2

example (s : ℝ) (hs : 0 < s) : 0 < ghost.propagator s (-0.2) 1 :=
  ((C107_ghost (-0.2) 1).1 (by norm_num) (by norm_num) (by norm_num) s hs).2.2.2.2.2

end Qcd
