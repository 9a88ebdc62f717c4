import Mathlib.MeasureTheory.Integral.DominatedConvergence
import Mathlib.MeasureTheory.Function.SpecialFunctions.Basic
import Mathlib.MeasureTheory.Integral.ExpDecay
import Mathlib.Analysis.SpecialFunctions.Trigonometric.DerivHyp
import Verif.Lemmas.Angular
import Verif.Lemmas.ChargeDensity

/-! # Bounds on the thermal integrands, uniform in the temperature

`Grow a f`: `f` is measurable and `|f q| ≤ C q^a (1+q)^k`. `Dom b0 F`: the family `F β` is measurable and bounded, for all
`β ≥ b0`, by a polynomial times `exp(-b0 q/4)`; hence integrable, and dominated convergence applies. -/

namespace Qcd
open MeasureTheory Filter Topology Set

/-- Polynomial bound with a zero of order `a` at the origin. -/
structure Grow (a : ℕ) (f : ℝ → ℂ) : Prop where
  meas : Measurable f
  bd : ∃ (C : ℝ) (k : ℕ), 0 ≤ C ∧ ∀ q, 0 < q → ‖f q‖ ≤ C * q ^ a * (1 + q) ^ k

namespace Grow
variable {a b : ℕ} {f g : ℝ → ℂ}

theorem const (c : ℂ) : Grow 0 fun _ => c :=
  ⟨measurable_const, ‖c‖, 0, norm_nonneg _, fun q _ => by simp⟩

theorem id : Grow 1 fun q => (q : ℂ) :=
  ⟨Complex.measurable_ofReal, 1, 0, zero_le_one, fun q hq => by simp [abs_of_pos hq]⟩

theorem pow_mono {q : ℝ} (hq : 0 < q) {k l : ℕ} (h : k ≤ l) : (1 + q) ^ k ≤ (1 + q) ^ l :=
  pow_le_pow_right₀ (by linarith) h

theorem add (hf : Grow a f) (hg : Grow a g) : Grow a fun q => f q + g q := by
  obtain ⟨mf, C, k, hC, h⟩ := hf
  obtain ⟨mg, D, l, hD, h'⟩ := hg
  refine ⟨mf.add mg, C + D, max k l, by positivity, fun q hq => ?_⟩
  have hq1 : 0 ≤ q ^ a := by positivity
  calc ‖f q + g q‖ ≤ ‖f q‖ + ‖g q‖ := norm_add_le _ _
    _ ≤ C * q ^ a * (1 + q) ^ k + D * q ^ a * (1 + q) ^ l := add_le_add (h q hq) (h' q hq)
    _ ≤ C * q ^ a * (1 + q) ^ (max k l) + D * q ^ a * (1 + q) ^ (max k l) := by
        gcongr
        · linarith
        · exact le_max_left _ _
        · linarith
        · exact le_max_right _ _
    _ = _ := by ring

theorem neg (hf : Grow a f) : Grow a fun q => -f q := by
  obtain ⟨mf, C, k, hC, h⟩ := hf
  exact ⟨mf.neg, C, k, hC, fun q hq => by simpa using h q hq⟩

theorem sub (hf : Grow a f) (hg : Grow a g) : Grow a fun q => f q - g q := by
  simpa [sub_eq_add_neg] using hf.add hg.neg

theorem mul (hf : Grow a f) (hg : Grow b g) : Grow (a + b) fun q => f q * g q := by
  obtain ⟨mf, C, k, hC, h⟩ := hf
  obtain ⟨mg, D, l, hD, h'⟩ := hg
  refine ⟨mf.mul mg, C * D, k + l, by positivity, fun q hq => ?_⟩
  rw [norm_mul]
  have h0 : 0 ≤ C * q ^ a * (1 + q) ^ k := by positivity
  calc ‖f q‖ * ‖g q‖ ≤ (C * q ^ a * (1 + q) ^ k) * (D * q ^ b * (1 + q) ^ l) :=
        mul_le_mul (h q hq) (h' q hq) (norm_nonneg _) h0
    _ = _ := by rw [pow_add, pow_add]; ring

theorem mul00 (hf : Grow 0 f) (hg : Grow 0 g) : Grow 0 fun q => f q * g q := hf.mul hg
theorem mul10 (hf : Grow 1 f) (hg : Grow 0 g) : Grow 1 fun q => f q * g q := hf.mul hg
theorem mul01 (hf : Grow 0 f) (hg : Grow 1 g) : Grow 1 fun q => f q * g q := hf.mul hg

theorem weaken (hf : Grow 1 f) : Grow 0 f := by
  obtain ⟨mf, C, k, hC, h⟩ := hf
  refine ⟨mf, C, k + 1, hC, fun q hq => (h q hq).trans ?_⟩
  have : 0 ≤ (1 + q) ^ k := by positivity
  calc C * q ^ 1 * (1 + q) ^ k = C * (1 + q) ^ k * q := by ring
    _ ≤ C * (1 + q) ^ k * (1 + q) := by gcongr; linarith
    _ = _ := by ring

theorem ofBound (hf : Measurable f) (C : ℝ) (h : ∀ q, 0 < q → ‖f q‖ ≤ C) : Grow 0 f :=
  ⟨hf, C, 0, (norm_nonneg _).trans (h 1 one_pos), fun q hq => by simpa using h q hq⟩

theorem congr (hf : Grow a f) (hg : Measurable g) (h : ∀ q, 0 < q → g q = f q) : Grow a g := by
  obtain ⟨mf, C, k, hC, h'⟩ := hf
  exact ⟨hg, C, k, hC, fun q hq => by rw [h q hq]; exact h' q hq⟩

end Grow

/-! ### Energies -/

theorem energy_meas (m : ℝ) : Measurable fun q : ℝ => energy q m := by
  simp only [energy, energy_squared, sqrt_real, ofR_real]
  fun_prop

theorem energyC_meas (m : ℝ) : Measurable fun q : ℝ => ((energy q m : ℝ) : ℂ) :=
  Complex.measurable_ofReal.comp (energy_meas m)

theorem le_energy_dom {q m : ℝ} (hq : 0 ≤ q) : q ≤ energy q m := by
  rw [energy_real]
  exact Real.le_sqrt_of_sq_le (by nlinarith [mul_self_nonneg m])

theorem abs_le_energy (q m : ℝ) : |m| ≤ energy q m := by
  rw [energy_real]
  refine Real.le_sqrt_of_sq_le ?_
  rw [sq_abs]; nlinarith [mul_self_nonneg q]

theorem energy_le {q m : ℝ} (hq : 0 ≤ q) : energy q m ≤ q + |m| := by
  rw [energy_real]
  refine Real.sqrt_le_iff.2 ⟨by positivity, ?_⟩
  nlinarith [mul_nonneg hq (abs_nonneg m), sq_abs m]

theorem Grow.energy (m : ℝ) : Grow 0 fun q => ((Qcd.energy q m : ℝ) : ℂ) := by
  refine ⟨energyC_meas m, 1 + |m|, 1, by positivity, fun q hq => ?_⟩
  have h := energy_le (m := m) hq.le
  have h0 : 0 ≤ Qcd.energy q m := hq.le.trans (le_energy_dom hq.le)
  rw [Complex.norm_real, Real.norm_of_nonneg h0]
  simp only [pow_zero, mul_one, pow_one]
  nlinarith [mul_nonneg hq.le (abs_nonneg m), abs_nonneg m]

theorem Grow.energy_inv {m : ℝ} (hm : m ≠ 0) : Grow 0 fun q => (((Qcd.energy q m : ℝ) : ℂ))⁻¹ := by
  refine .ofBound (energyC_meas m).inv |m|⁻¹ fun q hq => ?_
  have h := abs_le_energy q m
  have hm' := abs_pos.2 hm
  rw [norm_inv, Complex.norm_real, Real.norm_of_nonneg (hm'.le.trans h)]
  exact inv_anti₀ hm' h

/-- `q/E` is bounded, also in the massless case. -/
theorem Grow.id_div_energy (m : ℝ) : Grow 0 fun q => (q : ℂ) * (((Qcd.energy q m : ℝ) : ℂ))⁻¹ := by
  refine .ofBound (Complex.measurable_ofReal.mul (energyC_meas m).inv) 1 fun q hq => ?_
  have h := le_energy_dom (m := m) hq.le
  rw [norm_mul, norm_inv, Complex.norm_real, Complex.norm_real, Real.norm_of_nonneg (hq.le.trans h), Real.norm_of_nonneg hq.le,
    ← div_eq_mul_inv]
  exact (div_le_one (hq.trans_le h)).2 h

/-! ### Denominators and logarithms -/

/-- The denominators stay away from zero at all momenta and angles. -/
def Away (om p : ℝ) (e : ℝ → ℝ) (d : ℝ) : Prop :=
  ∃ c : ℝ, 0 < c ∧ ∀ q, 0 < q → ∀ z ∈ Icc (-1 : ℝ) 1, c ≤ ‖R0 om p (e q) d + (2 * p * q : ℝ) * (z : ℂ)‖

theorem R0_real (om p e d x : ℝ) : R0 om p e d + ((x : ℝ) : ℂ) =
    ((om ^ 2 + p ^ 2 + d + x : ℝ) : ℂ) + ((2 * om * e : ℝ) : ℂ) * Complex.I := by
  simp only [R0]; push_cast; ring

theorem R0_norm_re (om p e d x : ℝ) : |om ^ 2 + p ^ 2 + d + x| ≤ ‖R0 om p e d + ((x : ℝ) : ℂ)‖ := by
  rw [R0_real]
  refine (le_of_eq ?_).trans (Complex.abs_re_le_norm _)
  simp [-Complex.ofReal_add, -Complex.ofReal_mul]

theorem R0_norm_im (om p e d x : ℝ) : |2 * om * e| ≤ ‖R0 om p e d + ((x : ℝ) : ℂ)‖ := by
  rw [R0_real]
  refine (le_of_eq ?_).trans (Complex.abs_im_le_norm _)
  simp [-Complex.ofReal_add, -Complex.ofReal_mul]

theorem Away.massive {om : ℝ} (ho : om ≠ 0) (p : ℝ) {m : ℝ} (hm : m ≠ 0) (d : ℝ) : Away om p (fun q => energy q m) d := by
  refine ⟨2 * |om| * |m|, by have := abs_pos.2 ho; have := abs_pos.2 hm; positivity, fun q hq z _ => ?_⟩
  rw [show ((2 * p * q : ℝ) : ℂ) * (z : ℂ) = ((2 * p * q * z : ℝ) : ℂ) by push_cast; ring]
  refine le_trans ?_ (R0_norm_im om p (energy q m) d _)
  rw [abs_mul, abs_mul, abs_two, abs_of_nonneg ((abs_nonneg m).trans (abs_le_energy q m))]
  gcongr
  exact abs_le_energy q m

theorem Away.of_le {om : ℝ} (ho : om ≠ 0) (p : ℝ) {e : ℝ → ℝ} (he : ∀ q, 0 < q → q ≤ e q) {d : ℝ} (hd : 0 < om ^ 2 + p ^ 2 + d) :
    Away om p e d := by
  set S := om ^ 2 + p ^ 2 + d with hS
  set q0 := S / (4 * |p| + 1) with hq0
  have hp1 : 0 < 4 * |p| + 1 := by positivity
  have hq0p : 0 < q0 := by positivity
  have hop := abs_pos.2 ho
  refine ⟨min (S / 2) (2 * |om| * q0), lt_min (by positivity) (by positivity), fun q hq z hz => ?_⟩
  rw [show ((2 * p * q : ℝ) : ℂ) * (z : ℂ) = ((2 * p * q * z : ℝ) : ℂ) by push_cast; ring]
  rcases le_total q q0 with h | h
  · refine (min_le_left _ _).trans (le_trans ?_ (R0_norm_re om p (e q) d _))
    rw [← hS]
    have h1 : |2 * p * q * z| ≤ S / 2 := by
      rw [abs_mul, abs_mul, abs_mul, abs_two, abs_of_pos hq]
      have hz1 : |z| ≤ 1 := abs_le.2 hz
      have h2 : q * (4 * |p| + 1) ≤ S := by
        calc q * (4 * |p| + 1) ≤ q0 * (4 * |p| + 1) := by gcongr
          _ = S := by rw [hq0]; field_simp
      have h3 : 2 * |p| * q * |z| ≤ 2 * |p| * q * 1 := by gcongr
      nlinarith
    have := abs_le.1 h1
    exact le_trans (by linarith) (le_abs_self _)
  · refine (min_le_right _ _).trans (le_trans ?_ (R0_norm_im om p (e q) d _))
    have := he q hq
    rw [abs_mul, abs_mul, abs_two, abs_of_pos (hq.trans_le this)]
    gcongr
    linarith

theorem Away.neg {om p : ℝ} {e : ℝ → ℝ} {d : ℝ} (h : Away om p e d) : Away (-om) p e d := by
  obtain ⟨c, hc, h⟩ := h
  refine ⟨c, hc, fun q hq z hz => (h q hq z hz).trans (le_of_eq ?_)⟩
  rw [show ((2 * p * q : ℝ) : ℂ) * (z : ℂ) = ((2 * p * q * z : ℝ) : ℂ) by push_cast; ring, R0_real, R0_real, ← Complex.norm_conj]
  congr 1
  simp only [map_add, map_mul, Complex.conj_ofReal, Complex.conj_I]
  push_cast
  ring

theorem TL_norm {om p : ℝ} {e : ℝ → ℝ} {d c : ℝ} (hc : 0 < c)
    (h : ∀ q, 0 < q → ∀ z ∈ Icc (-1 : ℝ) 1, c ≤ ‖R0 om p (e q) d + (2 * p * q : ℝ) * (z : ℂ)‖) {q : ℝ} (hq : 0 < q) :
    ‖TL q om p (e q) d‖ ≤ 4 * |p| / c * q := by
  rcases eq_or_ne p 0 with rfl | hp
  · simp only [TL, Complex.ofReal_zero, zero_mul, neg_zero, zero_add, abs_zero, mul_zero, zero_div]
    rw [div_self, Complex.log_one, norm_zero]
    intro h0
    have := h q hq 0 (by simp)
    simp [h0] at this
    linarith
  have hb : ((2 * p * q : ℝ) : ℂ) ≠ 0 := Complex.ofReal_ne_zero.2 (by positivity)
  have hne : ∀ z ∈ Icc (-1 : ℝ) 1, R0 om p (e q) d + ((2 * p * q : ℝ) : ℂ) * z ≠ 0 := fun z hz h0 => by
    have := h q hq z hz
    rw [h0, norm_zero] at this
    linarith
  have hI := int_inv hb hne
  have e1 : TL q om p (e q) d = ((2 * p * q : ℝ) : ℂ) * ∫ z in (-1 : ℝ)..1, (R0 om p (e q) d + ((2 * p * q : ℝ) : ℂ) * z)⁻¹ := by
    rw [hI, TL]
    field_simp
    congr 2 <;> push_cast <;> ring
  have e2 : ‖∫ z in (-1 : ℝ)..1, (R0 om p (e q) d + ((2 * p * q : ℝ) : ℂ) * z)⁻¹‖ ≤ c⁻¹ * |1 - (-1)| := by
    refine intervalIntegral.norm_integral_le_of_norm_le_const fun z hz => ?_
    rw [uIoc_of_le (by norm_num)] at hz
    rw [norm_inv]
    exact inv_anti₀ hc (h q hq z ⟨hz.1.le, hz.2⟩)
  rw [e1, norm_mul, Complex.norm_real, Real.norm_eq_abs, abs_mul, abs_mul, abs_two, abs_of_pos hq]
  calc 2 * |p| * q * ‖_‖ ≤ 2 * |p| * q * (c⁻¹ * |1 - (-1)|) := by gcongr
    _ = 4 * |p| / c * q := by norm_num; ring

theorem R0_meas (om p : ℝ) {e : ℝ → ℝ} (he : Measurable e) (d : ℝ) : Measurable fun q => R0 om p (e q) d := by
  unfold R0
  fun_prop

theorem TL_meas (om p : ℝ) {e : ℝ → ℝ} (he : Measurable e) (d : ℝ) : Measurable fun q : ℝ => TL q om p (e q) d := by
  have := R0_meas om p he d
  unfold TL
  fun_prop

theorem Grow.TL {om p : ℝ} {e : ℝ → ℝ} {d : ℝ} (h : Away om p e d) (he : Measurable e) : Grow 1 fun q => TL q om p (e q) d := by
  obtain ⟨c, hc, h⟩ := h
  refine ⟨TL_meas om p he d, 4 * |p| / c, 0, by positivity, fun q hq => ?_⟩
  simpa using TL_norm hc h hq

theorem Grow.invP {om p : ℝ} {e : ℝ → ℝ} {d : ℝ} (h : Away om p e d) (he : Measurable e) :
    Grow 0 fun q => ((p : ℂ) * q * 2 + R0 om p (e q) d)⁻¹ := by
  obtain ⟨c, hc, h⟩ := h
  have := R0_meas om p he d
  refine .ofBound (by fun_prop) c⁻¹ fun q hq => ?_
  have := h q hq 1 (by simp)
  rw [norm_inv]
  refine inv_anti₀ hc (this.trans (le_of_eq ?_))
  congr 1; push_cast; ring

theorem Grow.invM {om p : ℝ} {e : ℝ → ℝ} {d : ℝ} (h : Away om p e d) (he : Measurable e) :
    Grow 0 fun q => (-((p : ℂ) * q * 2) + R0 om p (e q) d)⁻¹ := by
  obtain ⟨c, hc, h⟩ := h
  have := R0_meas om p he d
  refine .ofBound (by fun_prop) c⁻¹ fun q hq => ?_
  have := h q hq (-1) (by simp)
  rw [norm_inv]
  refine inv_anti₀ hc (this.trans (le_of_eq ?_))
  congr 1; push_cast; ring

/-- The difference of the two inverse denominators vanishes with `q`. -/
theorem Grow.invD {om p : ℝ} {e : ℝ → ℝ} {d : ℝ} (h : Away om p e d) (he : Measurable e) :
    Grow 1 fun q => ((p : ℂ) * q * 2 + R0 om p (e q) d)⁻¹ - (-((p : ℂ) * q * 2) + R0 om p (e q) d)⁻¹ := by
  refine (((Grow.const (-(4 * p : ℂ))).mul01 Grow.id).mul10 ((Grow.invP h he).mul00 (Grow.invM h he))).congr
    ((Grow.invP h he).meas.sub (Grow.invM h he).meas) fun q hq => ?_
  obtain ⟨c, hc, h⟩ := h
  have h1 : (p : ℂ) * q * 2 + R0 om p (e q) d ≠ 0 := fun h0 => by
    have := h q hq 1 (by simp)
    rw [show R0 om p (e q) d + ((2 * p * q : ℝ) : ℂ) * ((1 : ℝ) : ℂ) = (p : ℂ) * q * 2 + R0 om p (e q) d by push_cast; ring, h0] at this
    simp at this; linarith
  have h2 : -((p : ℂ) * q * 2) + R0 om p (e q) d ≠ 0 := fun h0 => by
    have := h q hq (-1) (by simp)
    rw [show R0 om p (e q) d + ((2 * p * q : ℝ) : ℂ) * ((-1 : ℝ) : ℂ) = -((p : ℂ) * q * 2) + R0 om p (e q) d by push_cast; ring, h0] at this
    simp at this; linarith
  obtain ⟨x, hx⟩ : ∃ x, x = (p : ℂ) * q * 2 + R0 om p (e q) d := ⟨_, rfl⟩
  obtain ⟨y, hy⟩ : ∃ y, y = -((p : ℂ) * q * 2) + R0 om p (e q) d := ⟨_, rfl⟩
  rw [← hx] at h1 ⊢
  rw [← hy] at h2 ⊢
  have hxy : x - y = 4 * p * q := by rw [hx, hy]; ring
  rw [inv_sub_inv h1 h2]
  field_simp
  linear_combination -hxy

theorem Grow.R0 (om p : ℝ) {e : ℝ → ℝ} (he : Grow 0 fun q => ((e q : ℝ) : ℂ)) (d : ℝ) : Grow 0 fun q => R0 om p (e q) d := by
  unfold Qcd.R0
  exact ((Grow.const _).add ((Grow.const _).mul00 ((he.mul00 (.const _)).mul00 (.const _)))).add (.const _)

theorem Grow.PF (om p : ℝ) {e : ℝ → ℝ} (he : Grow 0 fun q => ((e q : ℝ) : ℂ)) (d : ℝ) : Grow 0 fun q => PF om p (e q) d := by
  unfold Qcd.PF
  exact (((Grow.const _).add ((Grow.const _).mul00 ((he.mul00 (.const _)).mul00 (.const _)))).add (.const _)).add
    ((Grow.const _).mul00 (((Grow.const _).mul00 ((he.mul00 (.const _)).mul00 (.const _))).add (.const _)))

/-! ### Families over the temperature -/

/-- Measurable, and bounded by a polynomial times an exponential, uniformly at temperatures below `1/b0`. -/
structure Dom (b0 : ℝ) (F : ℝ → ℝ → ℂ) : Prop where
  meas : ∀ b, Measurable (F b)
  bd : ∃ (C : ℝ) (k : ℕ), 0 ≤ C ∧ ∀ b, b0 ≤ b → ∀ q, 0 < q → ‖F b q‖ ≤ C * (1 + q) ^ k * Real.exp (-(b0 / 4 * q))

namespace Dom
variable {b0 : ℝ} {F G : ℝ → ℝ → ℂ}

theorem add (hF : Dom b0 F) (hG : Dom b0 G) : Dom b0 fun b q => F b q + G b q := by
  obtain ⟨mf, C, k, hC, h⟩ := hF
  obtain ⟨mg, D, l, hD, h'⟩ := hG
  refine ⟨fun b => (mf b).add (mg b), C + D, max k l, by positivity, fun b hb q hq => ?_⟩
  calc ‖F b q + G b q‖ ≤ ‖F b q‖ + ‖G b q‖ := norm_add_le _ _
    _ ≤ C * (1 + q) ^ k * Real.exp (-(b0 / 4 * q)) + D * (1 + q) ^ l * Real.exp (-(b0 / 4 * q)) := add_le_add (h b hb q hq) (h' b hb q hq)
    _ ≤ C * (1 + q) ^ (max k l) * Real.exp (-(b0 / 4 * q)) + D * (1 + q) ^ (max k l) * Real.exp (-(b0 / 4 * q)) := by
        gcongr
        · linarith
        · exact le_max_left _ _
        · linarith
        · exact le_max_right _ _
    _ = _ := by ring

theorem mul (hF : Dom b0 F) {f : ℝ → ℂ} (hf : Grow 0 f) : Dom b0 fun b q => F b q * f q := by
  obtain ⟨mF, C, k, hC, h⟩ := hF
  obtain ⟨mf, D, l, hD, h'⟩ := hf
  refine ⟨fun b => (mF b).mul mf, C * D, k + l, by positivity, fun b hb q hq => ?_⟩
  rw [norm_mul]
  have h0 : 0 ≤ C * (1 + q) ^ k * Real.exp (-(b0 / 4 * q)) := by positivity
  calc ‖F b q‖ * ‖f q‖ ≤ (C * (1 + q) ^ k * Real.exp (-(b0 / 4 * q))) * (D * q ^ 0 * (1 + q) ^ l) :=
        mul_le_mul (h b hb q hq) (h' q hq) (norm_nonneg _) h0
    _ = _ := by rw [pow_add]; ring

theorem const_mul (hF : Dom b0 F) (c : ℂ) : Dom b0 fun b q => c * F b q := by
  simpa [mul_comm] using hF.mul (.const c)

theorem mul_const (hF : Dom b0 F) (c : ℂ) : Dom b0 fun b q => F b q * c := hF.mul (.const c)

theorem div_const (hF : Dom b0 F) (c : ℂ) : Dom b0 fun b q => F b q / c := by
  simpa [div_eq_mul_inv] using hF.mul (.const c⁻¹)

theorem neg (hF : Dom b0 F) : Dom b0 fun b q => -F b q := by
  simpa using hF.const_mul (-1)

theorem sub (hF : Dom b0 F) (hG : Dom b0 G) : Dom b0 fun b q => F b q - G b q := by
  simpa [sub_eq_add_neg] using hF.add hG.neg

theorem bound_integrable (hb : 0 < b0) (C : ℝ) (k : ℕ) :
    IntegrableOn (fun q : ℝ => C * (1 + q) ^ k * Real.exp (-(b0 / 4 * q))) (Ioi 0) := by
  have hi : IntegrableOn (fun q : ℝ => |C| * (k.factorial * (8 / b0) ^ k * Real.exp (b0 / 8)) * Real.exp (-(b0 / 8) * q)) (Ioi 0) :=
    (exp_neg_integrableOn_Ioi 0 (by positivity)).const_mul _
  refine hi.mono' (by fun_prop) ?_
  refine (ae_restrict_iff' measurableSet_Ioi).2 (.of_forall fun q hq => ?_)
  have hq : 0 < q := hq
  have h1 : (1 + q) ^ k ≤ k.factorial * (8 / b0) ^ k * Real.exp (b0 / 8 * (1 + q)) := by
    have := Real.pow_div_factorial_le_exp (x := b0 / 8 * (1 + q)) (by positivity) k
    rw [div_le_iff₀ (by positivity)] at this
    calc (1 + q) ^ k = (8 / b0) ^ k * (b0 / 8 * (1 + q)) ^ k := by rw [← mul_pow]; congr 1; field_simp
      _ ≤ (8 / b0) ^ k * (Real.exp (b0 / 8 * (1 + q)) * k.factorial) := by gcongr
      _ = _ := by ring
  rw [norm_mul, norm_mul, Real.norm_eq_abs C, Real.norm_of_nonneg (by positivity : (0 : ℝ) ≤ (1 + q) ^ k), Real.norm_of_nonneg (Real.exp_pos _).le]
  calc |C| * (1 + q) ^ k * Real.exp (-(b0 / 4 * q))
      ≤ |C| * (k.factorial * (8 / b0) ^ k * Real.exp (b0 / 8 * (1 + q))) * Real.exp (-(b0 / 4 * q)) := by gcongr
    _ = |C| * (k.factorial * (8 / b0) ^ k) * (Real.exp (b0 / 8 * (1 + q)) * Real.exp (-(b0 / 4 * q))) := by ring
    _ = |C| * (k.factorial * (8 / b0) ^ k) * (Real.exp (b0 / 8) * Real.exp (-(b0 / 8) * q)) := by
        rw [← Real.exp_add, ← Real.exp_add]; congr 2; ring
    _ = _ := by ring

theorem integrable (h0 : 0 < b0) (hF : Dom b0 F) {b : ℝ} (hb : b0 ≤ b) : IntegrableOn (F b) (Ioi 0) := by
  obtain ⟨mF, C, k, hC, h⟩ := hF
  refine (bound_integrable h0 C k).mono' (mF b).aestronglyMeasurable ?_
  exact (ae_restrict_iff' measurableSet_Ioi).2 (.of_forall fun q hq => h b hb q hq)

/-- Dominated convergence as the temperature goes to zero. -/
theorem tendsto (h0 : 0 < b0) (hF : Dom b0 F) {L : ℝ → ℂ} (hL : ∀ᵐ q ∂volume.restrict (Ioi (0 : ℝ)), Tendsto (fun b => F b q) atTop (𝓝 (L q))) :
    Tendsto (fun b => ∫ q in Ioi (0 : ℝ), F b q) atTop (𝓝 (∫ q in Ioi (0 : ℝ), L q)) := by
  obtain ⟨mF, C, k, hC, h⟩ := hF
  refine tendsto_integral_filter_of_dominated_convergence _ (.of_forall fun b => (mF b).aestronglyMeasurable) ?_
    (bound_integrable h0 C k) hL
  filter_upwards [eventually_ge_atTop b0] with b hb
  exact (ae_restrict_iff' measurableSet_Ioi).2 (.of_forall fun q hq => h b hb q hq)

theorem congr (hF : Dom b0 F) (hG : ∀ b, Measurable (G b)) (h : ∀ b q, 0 < q → G b q = F b q) : Dom b0 G := by
  obtain ⟨mF, C, k, hC, h'⟩ := hF
  exact ⟨hG, C, k, hC, fun b hb q hq => by rw [h b q hq]; exact h' b hb q hq⟩

end Dom

/-! ### Occupation numbers -/

theorem boseZ_real (x b : ℝ) : bose_distribution_zero_chempot x b = (Real.exp (x * b) - 1)⁻¹ := rfl

theorem bose_meas {e : ℝ → ℝ} (he : Measurable e) (b : ℝ) : Measurable fun q => bose_distribution_zero_chempot (e q) b := by
  simp only [boseZ_real]
  fun_prop

theorem bose_bound {x b : ℝ} (hx : 0 < x) (hb : 0 < b) :
    0 ≤ bose_distribution_zero_chempot x b ∧ bose_distribution_zero_chempot x b ≤ Real.exp (-(x * b / 2)) / (x * b) := by
  have hy : 0 < x * b := by positivity
  have h1 : x * b / 2 ≤ Real.sinh (x * b / 2) := Real.self_le_sinh_iff.2 (by positivity)
  have h2 : x * b * Real.exp (x * b / 2) ≤ Real.exp (x * b) - 1 := by
    rw [Real.sinh_eq] at h1
    have e1 : Real.exp (x * b) = Real.exp (x * b / 2) * Real.exp (x * b / 2) := by rw [← Real.exp_add]; ring_nf
    have e2 : Real.exp (x * b / 2) * Real.exp (-(x * b / 2)) = 1 := by rw [← Real.exp_add]; simp
    nlinarith [Real.exp_pos (x * b / 2)]
  have h3 : 0 < x * b * Real.exp (x * b / 2) := by positivity
  rw [boseZ_real]
  refine ⟨inv_nonneg.2 (h3.le.trans h2), (inv_anti₀ h3 h2).trans (le_of_eq ?_)⟩
  rw [Real.exp_neg]
  field_simp

theorem Dom.bose_massive {b0 : ℝ} (h0 : 0 < b0) {m : ℝ} (hm : m ≠ 0) :
    Dom b0 fun b q => ((bose_distribution_zero_chempot (energy q m) b : ℝ) : ℂ) := by
  have hm' := abs_pos.2 hm
  refine ⟨fun b => Complex.measurable_ofReal.comp (bose_meas (energy_meas m) b), (|m| * b0)⁻¹, 0, by positivity, fun b hb q hq => ?_⟩
  have he := abs_le_energy q m
  have he' := le_energy_dom (m := m) hq.le
  have hep : 0 < energy q m := hm'.trans_le he
  obtain ⟨h1, h2⟩ := bose_bound hep (h0.trans_le hb)
  rw [Complex.norm_real, Real.norm_of_nonneg h1]
  refine h2.trans ?_
  rw [div_eq_inv_mul, pow_zero, mul_one]
  gcongr
  nlinarith [mul_le_mul he' hb h0.le hep.le]

theorem Dom.bose_massless {b0 : ℝ} (h0 : 0 < b0) {f : ℝ → ℂ} (hf : Grow 1 f) :
    Dom b0 fun b q => ((bose_distribution_zero_chempot q b : ℝ) : ℂ) * f q := by
  obtain ⟨mf, C, k, hC, h⟩ := hf
  refine ⟨fun b => (Complex.measurable_ofReal.comp (bose_meas measurable_id b)).mul mf, b0⁻¹ * C, k, by positivity, fun b hb q hq => ?_⟩
  obtain ⟨h1, h2⟩ := bose_bound hq (h0.trans_le hb)
  rw [norm_mul, Complex.norm_real, Real.norm_of_nonneg h1]
  have hbp := h0.trans_le hb
  calc _ ≤ Real.exp (-(q * b / 2)) / (q * b) * (C * q ^ 1 * (1 + q) ^ k) := by gcongr; exact h q hq
    _ = b⁻¹ * C * (1 + q) ^ k * Real.exp (-(q * b / 2)) := by field_simp
    _ ≤ _ := by
      gcongr
      nlinarith [mul_le_mul_of_nonneg_left hb hq.le]

/-- `β n(E) (1 + n(E))`, up to the sign. -/
theorem Dom.bose_deriv {b0 : ℝ} (h0 : 0 < b0) {m : ℝ} (hm : m ≠ 0) :
    Dom b0 fun b q => ((b * bose_distribution_zero_chempot (energy q m) b * bose_distribution_zero_chempot (-energy q m) b : ℝ) : ℂ) := by
  have hm' := abs_pos.2 hm
  refine ⟨fun b => Complex.measurable_ofReal.comp ((measurable_const.mul (bose_meas (energy_meas m) b)).mul (bose_meas (energy_meas m).neg b)),
    4 / |m| * (|m| * b0)⁻¹ * (1 + (|m| * b0)⁻¹), 0, by positivity, fun b hb q hq => ?_⟩
  have he := abs_le_energy q m
  have he' := le_energy_dom (m := m) hq.le
  have hep : 0 < energy q m := hm'.trans_le he
  have hbp := h0.trans_le hb
  obtain ⟨h1, h2⟩ := bose_bound hep hbp
  have hneg : bose_distribution_zero_chempot (-energy q m) b = -(1 + bose_distribution_zero_chempot (energy q m) b) := by
    rw [boseZ_real, boseZ_real, neg_mul, Real.exp_neg]
    have hx : 1 < Real.exp (energy q m * b) := Real.one_lt_exp_iff.2 (by positivity)
    have e1 : Real.exp (energy q m * b) - 1 ≠ 0 := by linarith
    have e2 : (Real.exp (energy q m * b))⁻¹ - 1 ≠ 0 := by
      have := inv_lt_one_of_one_lt₀ hx
      linarith
    have e3 := (Real.exp_pos (energy q m * b)).ne'
    generalize Real.exp (energy q m * b) = x at *
    have e4 : 1 - x ≠ 0 := fun h => e1 (by linarith)
    have : x⁻¹ - 1 = (1 - x) / x := by field_simp
    rw [this, inv_div]
    field_simp
    ring
  rw [hneg, Complex.norm_real, mul_neg, norm_neg, Real.norm_of_nonneg (by positivity)]
  generalize bose_distribution_zero_chempot (energy q m) b = n at *
  generalize energy q m = e at *
  have hmb : |m| * b0 ≤ e * b := by gcongr
  have h3 : n ≤ (|m| * b0)⁻¹ := by
    refine h2.trans ?_
    rw [div_eq_inv_mul, ← mul_one (|m| * b0)⁻¹]
    gcongr
    exact Real.exp_le_one_iff.2 (by simp; positivity)
  have h4 : b * n ≤ 4 / |m| * (|m| * b0)⁻¹ * Real.exp (-(b0 / 4 * q)) := by
    have h5 : b * Real.exp (-(e * b / 4)) ≤ 4 / |m| := by
      have := Real.add_one_le_exp (e * b / 4)
      rw [Real.exp_neg, ← div_eq_mul_inv, div_le_div_iff₀ (Real.exp_pos _) hm']
      nlinarith [mul_le_mul_of_nonneg_right he hbp.le]
    have h6 : Real.exp (-(e * b / 4)) ≤ Real.exp (-(b0 / 4 * q)) := by
      gcongr
      nlinarith [mul_le_mul he' hb h0.le hep.le]
    calc b * n ≤ b * (Real.exp (-(e * b / 2)) / (e * b)) := by gcongr
      _ = (b * Real.exp (-(e * b / 4))) * (e * b)⁻¹ * Real.exp (-(e * b / 4)) := by
          rw [show -(e * b / 2) = -(e * b / 4) + -(e * b / 4) by ring, Real.exp_add]; ring
      _ ≤ _ := by gcongr
  rw [pow_zero, mul_one]
  calc b * n * (1 + n) ≤ (4 / |m| * (|m| * b0)⁻¹ * Real.exp (-(b0 / 4 * q))) * (1 + (|m| * b0)⁻¹) := by gcongr
    _ = _ := by ring

end Qcd
