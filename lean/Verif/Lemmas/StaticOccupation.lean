import Mathlib.Analysis.SpecialFunctions.Integrals.Basic
import Verif.Lemmas.StaticLimit

/-! # Variation of the occupation of the states between the two lines of a static loop -/

namespace Qcd.Static
open Filter Topology MeasureTheory Set Matsubara
open scoped Real ENNReal

/-! ### Finite temperature -/

theorem occ_sub_le {beta x y : ℝ} (hb : 0 < beta) (h : x ≤ y) : |occ beta x - occ beta y| ≤ beta * (y - x) * Real.exp (-(beta * x)) := by
  have hx := Real.exp_pos (beta * x)
  have hy := Real.exp_pos (beta * y)
  have hxy : Real.exp (beta * x) ≤ Real.exp (beta * y) := Real.exp_le_exp.2 (by nlinarith)
  have e : occ beta x - occ beta y = (Real.exp (beta * y) - Real.exp (beta * x)) / ((Real.exp (beta * x) + 1) * (Real.exp (beta * y) + 1)) := by
    rw [occ, occ]; field_simp; ring
  have h1 : Real.exp (beta * y) - Real.exp (beta * x) ≤ Real.exp (beta * y) * (beta * (y - x)) := by
    have := Real.add_one_le_exp (-(beta * (y - x)))
    have e2 : Real.exp (beta * x) = Real.exp (beta * y) * Real.exp (-(beta * (y - x))) := by rw [← Real.exp_add]; congr 1; ring
    rw [e2]; nlinarith
  have h0 : 0 ≤ beta * (y - x) := mul_nonneg hb.le (by linarith)
  rw [e, abs_of_nonneg (div_nonneg (by linarith) (by positivity)), div_le_iff₀ (by positivity), Real.exp_neg]
  refine h1.trans ?_
  have h2 : Real.exp (beta * y) ≤ (Real.exp (beta * x))⁻¹ * ((Real.exp (beta * x) + 1) * (Real.exp (beta * y) + 1)) := by
    rw [← div_eq_inv_mul, le_div_iff₀ hx]; nlinarith
  calc _ ≤ (Real.exp (beta * x))⁻¹ * ((Real.exp (beta * x) + 1) * (Real.exp (beta * y) + 1)) * (beta * (y - x)) := by gcongr
    _ = _ := by ring

theorem occ_sub_le' {beta x y r : ℝ} (hb : 0 < beta) (hx : r ≤ x) (hy : r ≤ y) : |occ beta x - occ beta y| ≤ beta * |y - x| * Real.exp (-(beta * r)) := by
  rcases le_total x y with h | h
  · refine (occ_sub_le hb h).trans ?_
    rw [abs_of_nonneg (sub_nonneg.2 h)]
    gcongr
  · rw [abs_sub_comm]
    refine (occ_sub_le hb h).trans ?_
    rw [abs_sub_comm y x, abs_of_nonneg (sub_nonneg.2 h)]
    gcongr

/-- The constant for a bath of quarks. -/
noncomputable def thermalK (p m beta mu : ℝ) (v : ℝ × ℝ × ℝ) : ℝ :=
  beta * (Real.exp (beta * mu) + Real.exp (-(beta * mu))) * Real.exp (beta * |p|) / (2 * |m|) * Real.exp (-(beta * ‖v‖))

theorem thermalK_integrable {beta : ℝ} (hb : 0 < beta) (p m mu : ℝ) (j : ℕ) : Integrable fun v : ℝ × ℝ × ℝ => (1 + ‖v‖) ^ j * thermalK p m beta mu v := by
  refine (integrable_poly_exp hb (beta * (Real.exp (beta * mu) + Real.exp (-(beta * mu))) * Real.exp (beta * |p|) / (2 * |m|)) j).congr (.of_forall fun v => ?_)
  simp only [thermalK]; ring

theorem thermalK_le {beta m : ℝ} (hb : 0 < beta) (hm : m ≠ 0) (p mu : ℝ) (v : ℝ × ℝ × ℝ) :
    |(occ beta (en3 m v - mu) + occ beta (en3 m v + mu)) - (occ beta (en3 m (other p v) - mu) + occ beta (en3 m (other p v) + mu))|
      ≤ thermalK p m beta mu v * |en3 m (other p v) ^ 2 - en3 m v ^ 2| := by
  have hm0 : 0 < |m| := abs_pos.2 hm
  have e1 := abs_le_en3 m v
  have e2 := abs_le_en3 m (other p v)
  have r1 : ‖v‖ - |p| ≤ en3 m v := by linarith [norm_le_en3 m v, abs_nonneg p]
  have r2 : ‖v‖ - |p| ≤ en3 m (other p v) := (norm_other p v).trans (norm_le_en3 m _)
  set E := en3 m v
  set K := en3 m (other p v)
  have hd : |K - E| ≤ |K ^ 2 - E ^ 2| / (2 * |m|) := by
    rw [le_div_iff₀ (by positivity), show K ^ 2 - E ^ 2 = (K - E) * (K + E) by ring, abs_mul]
    refine mul_le_mul_of_nonneg_left ?_ (abs_nonneg _)
    rw [abs_of_nonneg (show 0 ≤ K + E by linarith)]; linarith
  have a1 := occ_sub_le' hb (x := E - mu) (y := K - mu) (r := ‖v‖ - |p| - mu) (by linarith) (by linarith)
  have a2 := occ_sub_le' hb (x := E + mu) (y := K + mu) (r := ‖v‖ - |p| + mu) (by linarith) (by linarith)
  have x1 : Real.exp (-(beta * (‖v‖ - |p| - mu))) = Real.exp (beta * mu) * Real.exp (beta * |p|) * Real.exp (-(beta * ‖v‖)) := by
    rw [← Real.exp_add, ← Real.exp_add]; congr 1; ring
  have x2 : Real.exp (-(beta * (‖v‖ - |p| + mu))) = Real.exp (-(beta * mu)) * Real.exp (beta * |p|) * Real.exp (-(beta * ‖v‖)) := by
    rw [← Real.exp_add, ← Real.exp_add]; congr 1; ring
  rw [show K - mu - (E - mu) = K - E by ring, x1] at a1
  rw [show K + mu - (E + mu) = K - E by ring, x2] at a2
  have tri : |(occ beta (E - mu) + occ beta (E + mu)) - (occ beta (K - mu) + occ beta (K + mu))| ≤ |occ beta (E - mu) - occ beta (K - mu)| + |occ beta (E + mu) - occ beta (K + mu)| := by
    refine le_trans (le_of_eq ?_) (abs_add_le _ _)
    congr 1; ring
  refine tri.trans ((add_le_add a1 a2).trans ?_)
  calc _ = beta * |K - E| * ((Real.exp (beta * mu) + Real.exp (-(beta * mu))) * Real.exp (beta * |p|) * Real.exp (-(beta * ‖v‖))) := by ring
    _ ≤ beta * (|K ^ 2 - E ^ 2| / (2 * |m|)) * ((Real.exp (beta * mu) + Real.exp (-(beta * mu))) * Real.exp (beta * |p|) * Real.exp (-(beta * ‖v‖))) := by gcongr
    _ = _ := by simp only [thermalK]; ring

/-! ### Zero temperature -/

theorem measurableSet_band {X : Type} [MeasurableSpace X] {g : X → ℝ} (hg : Measurable g) (A B : ℝ) : MeasurableSet {x | A ≤ g x ∧ g x ≤ B} :=
  (measurableSet_le measurable_const hg).inter (measurableSet_le hg measurable_const)

/-- Area of an annulus. -/
theorem annulus_le {A B : ℝ} (hAB : A ≤ B) : volume {u : ℝ × ℝ | A ≤ u.1 ^ 2 + u.2 ^ 2 ∧ u.1 ^ 2 + u.2 ^ 2 ≤ B} ≤ ENNReal.ofReal (π * (B - A)) := by
  have hms : MeasurableSet {r : ℝ | A ≤ r ^ 2 ∧ r ^ 2 ≤ B} := measurableSet_band (g := fun r : ℝ => r ^ 2) (by fun_prop) A B
  have key := Spherical.lintegral_plane ({r : ℝ | A ≤ r ^ 2 ∧ r ^ 2 ≤ B}.indicator fun _ => 1) (measurable_const.indicator hms)
  have e1 : ∀ u : ℝ × ℝ, {r : ℝ | A ≤ r ^ 2 ∧ r ^ 2 ≤ B}.indicator (fun _ => (1 : ℝ≥0∞)) √(u.1 ^ 2 + u.2 ^ 2) =
      {u : ℝ × ℝ | A ≤ u.1 ^ 2 + u.2 ^ 2 ∧ u.1 ^ 2 + u.2 ^ 2 ≤ B}.indicator (fun _ => 1) u := fun u => by
    simp only [indicator, mem_setOf_eq, Real.sq_sqrt (show 0 ≤ u.1 ^ 2 + u.2 ^ 2 by positivity)]
  have hm2 : MeasurableSet {u : ℝ × ℝ | A ≤ u.1 ^ 2 + u.2 ^ 2 ∧ u.1 ^ 2 + u.2 ^ 2 ≤ B} := measurableSet_band (g := fun u : ℝ × ℝ => u.1 ^ 2 + u.2 ^ 2) (by fun_prop) A B
  simp only [e1] at key
  rw [lintegral_indicator_const hm2, one_mul] at key
  rw [key]
  set a := √A
  set b := √B
  have hab : a ≤ b := Real.sqrt_le_sqrt hAB
  have ha : 0 ≤ a := Real.sqrt_nonneg _
  have h1 : ∫⁻ r in Ioi (0 : ℝ), ENNReal.ofReal r * {r : ℝ | A ≤ r ^ 2 ∧ r ^ 2 ≤ B}.indicator (fun _ => 1) r ≤ ∫⁻ r in Icc a b, ENNReal.ofReal r := by
    rw [← lintegral_indicator measurableSet_Ioi, ← lintegral_indicator measurableSet_Icc]
    refine lintegral_mono fun r => ?_
    by_cases hr : r ∈ Ioi (0 : ℝ)
    · by_cases h2 : r ∈ {r : ℝ | A ≤ r ^ 2 ∧ r ^ 2 ≤ B}
      · have : r ∈ Icc a b := ⟨Real.sqrt_le_iff.2 ⟨le_of_lt hr, h2.1⟩, Real.le_sqrt_of_sq_le h2.2⟩
        simp [indicator_of_mem hr, indicator_of_mem h2, indicator_of_mem this]
      · simp [indicator_of_mem hr, indicator_of_notMem h2]
    · simp [indicator_of_notMem hr]
  have h2 : ∫⁻ r in Icc a b, ENNReal.ofReal r = ENNReal.ofReal ((b ^ 2 - a ^ 2) / 2) := by
    rw [← ofReal_integral_eq_lintegral_ofReal, integral_Icc_eq_integral_Ioc, ← intervalIntegral.integral_of_le hab, integral_id]
    · exact (continuous_id.integrableOn_Icc)
    · exact (ae_restrict_iff' measurableSet_Icc).2 (.of_forall fun r hr => ha.trans hr.1)
  have h3 : b ^ 2 - a ^ 2 ≤ B - A := by
    have ea : a ^ 2 = max A 0 := by
      rcases le_total 0 A with h | h
      · rw [Real.sq_sqrt h, max_eq_left h]
      · rw [show a = 0 from Real.sqrt_eq_zero_of_nonpos h, max_eq_right h]; simp
    have eb : b ^ 2 = max B 0 := by
      rcases le_total 0 B with h | h
      · rw [Real.sq_sqrt h, max_eq_left h]
      · rw [show b = 0 from Real.sqrt_eq_zero_of_nonpos h, max_eq_right h]; simp
    rw [ea, eb]
    rcases le_total 0 A with h | h <;> rcases le_total 0 B with h' | h' <;> simp only [max_eq_left, max_eq_right, h, h'] <;> linarith
  calc _ ≤ ENNReal.ofReal (2 * π) * ENNReal.ofReal ((b ^ 2 - a ^ 2) / 2) := by rw [← h2]; gcongr
    _ = ENNReal.ofReal (2 * π * ((b ^ 2 - a ^ 2) / 2)) := (ENNReal.ofReal_mul (by positivity)).symm
    _ ≤ _ := ENNReal.ofReal_le_ofReal (by nlinarith [Real.pi_pos])

/-- The Fermi surface lies between the two energies. -/
def straddle (p m mu : ℝ) : Set (ℝ × ℝ × ℝ) :=
  {v | min (en3 m v ^ 2) (en3 m (other p v) ^ 2) ≤ mu ^ 2 ∧ mu ^ 2 ≤ max (en3 m v ^ 2) (en3 m (other p v) ^ 2)}

theorem measurable_gap (p m : ℝ) : Measurable fun v : ℝ × ℝ × ℝ => en3 m (other p v) ^ 2 - en3 m v ^ 2 := by
  simp only [en3_sq, r2, other]; fun_prop

theorem measurable_straddle (p m mu : ℝ) : MeasurableSet (straddle p m mu) := by
  have h1 : Measurable fun v : ℝ × ℝ × ℝ => en3 m v ^ 2 := by simp only [en3_sq, r2]; fun_prop
  have h2 : Measurable fun v : ℝ × ℝ × ℝ => en3 m (other p v) ^ 2 := by simp only [en3_sq, r2, other]; fun_prop
  exact (measurableSet_le (h1.min h2) measurable_const).inter (measurableSet_le measurable_const (h1.max h2))

theorem straddle_norm {p m mu : ℝ} {v : ℝ × ℝ × ℝ} (h : v ∈ straddle p m mu) : ‖v‖ ≤ |mu| + |p| := by
  have h1 := norm_le_en3 m v
  have h2 := norm_le_en3 m (other p v)
  have h3 := norm_other p v
  rcases min_le_iff.1 h.1 with h4 | h4
  · have := abs_le_abs_of_sq_le_sq' h4
    linarith [abs_nonneg p]
  · have := abs_le_abs_of_sq_le_sq' h4
    linarith [abs_nonneg p]
where abs_le_abs_of_sq_le_sq' {E mu : ℝ} (h : E ^ 2 ≤ mu ^ 2) : E ≤ |mu| := (le_abs_self E).trans (sq_le_sq.1 h)

/-- The constant for a degenerate gas. -/
noncomputable def denseK (p m mu : ℝ) (v : ℝ × ℝ × ℝ) : ℝ := (straddle p m mu).indicator (fun v => 2 / |en3 m (other p v) ^ 2 - en3 m v ^ 2|) v

theorem denseK_nonneg (p m mu : ℝ) (v : ℝ × ℝ × ℝ) : 0 ≤ denseK p m mu v := indicator_nonneg (fun v _ => by positivity) v

theorem measurable_denseK (p m mu : ℝ) : Measurable (denseK p m mu) :=
  ((continuous_abs.measurable.comp (measurable_gap p m)).const_div 2).indicator (measurable_straddle p m mu)

theorem denseK_finite {p : ℝ} (hp : p ≠ 0) (m mu : ℝ) : Integrable (denseK p m mu) := by
  refine ⟨(measurable_denseK p m mu).aestronglyMeasurable, ?_⟩
  rw [hasFiniteIntegral_iff_ofReal (.of_forall (denseK_nonneg p m mu)), Measure.volume_eq_prod,
    lintegral_prod _ (measurable_denseK p m mu).ennreal_ofReal.aemeasurable]
  have inner : ∀ᵐ x : ℝ, ∫⁻ u : ℝ × ℝ, ENNReal.ofReal (denseK p m mu (x, u)) ≤ (Icc (-(|mu| + |p|)) (|mu| + |p|)).indicator (fun _ => ENNReal.ofReal (2 * π)) x := by
    have h0 : ∀ᵐ x : ℝ, x ≠ -p / 2 := by rw [ae_iff]; simp
    filter_upwards [h0] with x hx
    have hg : ∀ u : ℝ × ℝ, en3 m (other p (x, u)) ^ 2 - en3 m (x, u) ^ 2 = p * (p + 2 * x) := fun u => by
      simp only [en3_sq, r2, other]; ring
    have hd : 0 < |p * (p + 2 * x)| := abs_pos.2 (mul_ne_zero hp (by
      intro h; exact hx (by linarith)))
    by_cases hxm : x ∈ Icc (-(|mu| + |p|)) (|mu| + |p|)
    · rw [indicator_of_mem hxm]
      set S : Set (ℝ × ℝ) := {u | mu ^ 2 - m ^ 2 - max (x ^ 2) ((p + x) ^ 2) ≤ u.1 ^ 2 + u.2 ^ 2 ∧ u.1 ^ 2 + u.2 ^ 2 ≤ mu ^ 2 - m ^ 2 - min (x ^ 2) ((p + x) ^ 2)} with hS
      have hmS : MeasurableSet S := measurableSet_band (g := fun u : ℝ × ℝ => u.1 ^ 2 + u.2 ^ 2) (by fun_prop) _ _
      have hle : ∀ u, ENNReal.ofReal (denseK p m mu (x, u)) ≤ S.indicator (fun _ => ENNReal.ofReal (2 / |p * (p + 2 * x)|)) u := fun u => by
        by_cases hu : (x, u) ∈ straddle p m mu
        · have : u ∈ S := by
            have h1 := hu.1
            have h2 := hu.2
            simp only [en3_sq, r2, other] at h1 h2
            have e1 : ∀ y : ℝ, y ^ 2 + u.1 ^ 2 + u.2 ^ 2 + m ^ 2 = y ^ 2 + (u.1 ^ 2 + u.2 ^ 2 + m ^ 2) := fun y => by ring
            rw [e1, e1, min_add_add_right] at h1
            rw [e1, e1, max_add_add_right] at h2
            exact ⟨by linarith, by linarith⟩
          rw [indicator_of_mem this, denseK, indicator_of_mem hu, hg]
        · rw [denseK, indicator_of_notMem hu]; simp
      refine (lintegral_mono hle).trans ?_
      rw [lintegral_indicator_const hmS]
      have hA := annulus_le (A := mu ^ 2 - m ^ 2 - max (x ^ 2) ((p + x) ^ 2)) (B := mu ^ 2 - m ^ 2 - min (x ^ 2) ((p + x) ^ 2)) (by
        have := min_le_max (a := x ^ 2) (b := (p + x) ^ 2); linarith)
      have hdiff : max (x ^ 2) ((p + x) ^ 2) - min (x ^ 2) ((p + x) ^ 2) = |p * (p + 2 * x)| := by
        rw [max_sub_min_eq_abs']; rw [abs_sub_comm]; congr 1; ring
      rw [show mu ^ 2 - m ^ 2 - min (x ^ 2) ((p + x) ^ 2) - (mu ^ 2 - m ^ 2 - max (x ^ 2) ((p + x) ^ 2)) = |p * (p + 2 * x)| by rw [← hdiff]; ring] at hA
      calc _ ≤ ENNReal.ofReal (2 / |p * (p + 2 * x)|) * ENNReal.ofReal (π * |p * (p + 2 * x)|) := by gcongr
        _ = ENNReal.ofReal (2 / |p * (p + 2 * x)| * (π * |p * (p + 2 * x)|)) := (ENNReal.ofReal_mul (by positivity)).symm
        _ = _ := by congr 1; field_simp
    · have : ∀ u : ℝ × ℝ, denseK p m mu (x, u) = 0 := fun u => by
        refine indicator_of_notMem (fun hu => hxm ?_) _
        have h1 := straddle_norm hu
        have h2 : |x| ≤ ‖((x, u) : ℝ × ℝ × ℝ)‖ := norm_fst_le (x, u)
        exact abs_le.1 (h2.trans h1)
      simp [this]
  refine (lintegral_mono_ae inner).trans_lt ?_
  rw [lintegral_indicator_const measurableSet_Icc]
  exact ENNReal.mul_lt_top ENNReal.ofReal_lt_top (by simp)

theorem denseK_integrable {p : ℝ} (hp : p ≠ 0) (m mu : ℝ) (j : ℕ) : Integrable fun v : ℝ × ℝ × ℝ => (1 + ‖v‖) ^ j * denseK p m mu v := by
  refine ((denseK_finite hp m mu).const_mul ((1 + (|mu| + |p|)) ^ j)).mono' ?_ (.of_forall fun v => ?_)
  · exact ((by fun_prop : Measurable fun v : ℝ × ℝ × ℝ => (1 + ‖v‖) ^ j).mul (measurable_denseK p m mu)).aestronglyMeasurable
  · have h0 := denseK_nonneg p m mu v
    rw [Real.norm_of_nonneg (by positivity)]
    by_cases hv : v ∈ straddle p m mu
    · have := straddle_norm hv
      gcongr
    · have : denseK p m mu v = 0 := indicator_of_notMem hv _
      rw [this]; simp

/-- The occupation at zero temperature. -/
noncomputable def step (mu E : ℝ) : ℝ := (if E > mu then 0 else 1) + (if E > -mu then 0 else 1)

theorem step_sub_le (mu E K : ℝ) : |step mu E - step mu K| ≤ 2 := by
  rw [step, step, abs_le]
  constructor <;> split_ifs <;> norm_num

theorem step_eq {mu E K : ℝ} (hE : 0 < E) (hK : 0 < K) (h : ¬ (min (E ^ 2) (K ^ 2) ≤ mu ^ 2 ∧ mu ^ 2 ≤ max (E ^ 2) (K ^ 2))) : step mu E = step mu K := by
  have key : ∀ x : ℝ, 0 < x → (mu ^ 2 < x ^ 2 → step mu x = 0) ∧ (x ^ 2 < mu ^ 2 → step mu x = 1) := fun x hx => by
    constructor
    · intro h
      have := abs_lt_of_sq_lt_sq h hx.le
      have h1 := lt_of_le_of_lt (le_abs_self mu) this
      have h2 := lt_of_le_of_lt (neg_le_abs mu) this
      simp [step, h1, h2]
    · intro h
      have h3 : x < |mu| := by simpa [abs_of_pos hx] using sq_lt_sq.1 h
      rcases le_total 0 mu with h0 | h0
      · rw [abs_of_nonneg h0] at h3
        rw [step, if_neg (by linarith), if_pos (by linarith)]; norm_num
      · rw [abs_of_nonpos h0] at h3
        rw [step, if_pos (by linarith), if_neg (by linarith)]; norm_num
  rcases not_and_or.1 h with h1 | h1
  · rw [not_le, lt_min_iff] at h1
    rw [(key E hE).1 h1.1, (key K hK).1 h1.2]
  · rw [not_le, max_lt_iff] at h1
    rw [(key E hE).2 h1.1, (key K hK).2 h1.2]

theorem denseK_le {p m : ℝ} (hm : m ≠ 0) (mu : ℝ) {v : ℝ × ℝ × ℝ} (hne : en3 m (other p v) ^ 2 ≠ en3 m v ^ 2) :
    |step mu (en3 m v) - step mu (en3 m (other p v))| ≤ denseK p m mu v * |en3 m (other p v) ^ 2 - en3 m v ^ 2| := by
  have hd : 0 < |en3 m (other p v) ^ 2 - en3 m v ^ 2| := abs_pos.2 (sub_ne_zero.2 hne)
  have hm0 : 0 < |m| := abs_pos.2 hm
  by_cases hv : v ∈ straddle p m mu
  · rw [denseK, indicator_of_mem hv, div_mul_cancel₀ _ hd.ne']
    exact step_sub_le _ _ _
  · rw [step_eq (hm0.trans_le (abs_le_en3 m v)) (hm0.trans_le (abs_le_en3 m (other p v))) hv, sub_self, abs_zero]
    exact mul_nonneg (denseK_nonneg p m mu v) hd.le

end Qcd.Static
