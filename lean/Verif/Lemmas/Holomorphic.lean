import Mathlib.Analysis.Calculus.ParametricIntegral
import Mathlib.Analysis.Complex.Liouville
import Verif.Lemmas.Domination

/-! # Integrands that are holomorphic in the frequency

`Hol c M a f`: for every frequency `om` with `|Re om| > c` and `|om| < M` the function `f om` of the loop momentum is measurable,
for every positive loop momentum `f` is holomorphic in the frequency, and `|f om q| ≤ C q^a (1+q)^k` uniformly. `HolInt S c M F`: the
same with an integrable bound on `S`; then the integral over `S` is holomorphic in the frequency. -/

namespace Qcd
open MeasureTheory Filter Topology Set

/-- Bounded frequencies that stay away from the imaginary axis. -/
def Freq (c M : ℝ) : Set ℂ := {om | c < |om.re| ∧ ‖om‖ < M}

theorem Freq.isOpen (c M : ℝ) : IsOpen (Freq c M) :=
  (isOpen_lt continuous_const (Complex.continuous_re.abs)).inter (isOpen_lt continuous_norm continuous_const)

theorem Freq.neg {c M : ℝ} {om : ℂ} (h : om ∈ Freq c M) : -om ∈ Freq c M := by
  simpa [Freq] using h

theorem Freq.conj {c M : ℝ} {om : ℂ} (h : om ∈ Freq c M) : (starRingEnd ℂ) om ∈ Freq c M := by
  simpa [Freq] using h

theorem Freq.re_ne {c M : ℝ} (hc : 0 ≤ c) {om : ℂ} (h : om ∈ Freq c M) : om.re ≠ 0 :=
  abs_pos.1 (hc.trans_lt h.1)

theorem Freq.exists_mem {om : ℂ} (h : om.re ≠ 0) : ∃ c M, 0 < c ∧ om ∈ Freq c M :=
  ⟨|om.re| / 2, ‖om‖ + 1, half_pos (abs_pos.2 h), half_lt_self (abs_pos.2 h), lt_add_one _⟩

/-- The closure is compact and still away from the imaginary axis. -/
theorem Freq.bounded {c M : ℝ} (hc : 0 < c) {g : ℂ → ℂ} (hg : ContinuousOn g {om | om.re ≠ 0}) :
    ∃ C, 0 ≤ C ∧ ∀ om ∈ Freq c M, ‖g om‖ ≤ C := by
  have hK : IsCompact ({om : ℂ | c ≤ |om.re|} ∩ Metric.closedBall 0 M) :=
    (isCompact_closedBall (0 : ℂ) M).inter_left (isClosed_le continuous_const (Complex.continuous_re.abs))
  obtain ⟨C, hC⟩ := hK.exists_bound_of_continuousOn (hg.mono fun om h => abs_pos.1 (hc.trans_le h.1))
  exact ⟨max C 0, le_max_right _ _, fun om h => (hC om ⟨h.1.le, by simpa using h.2.le⟩).trans (le_max_left _ _)⟩

structure Hol (c M : ℝ) (a : ℕ) (f : ℂ → ℝ → ℂ) : Prop where
  meas : ∀ om ∈ Freq c M, Measurable (f om)
  hol : ∀ q, 0 < q → DifferentiableOn ℂ (fun om => f om q) (Freq c M)
  bd : ∃ (C : ℝ) (k : ℕ), 0 ≤ C ∧ ∀ om ∈ Freq c M, ∀ q, 0 < q → ‖f om q‖ ≤ C * q ^ a * (1 + q) ^ k

namespace Hol
variable {c M : ℝ} {a b : ℕ} {f g : ℂ → ℝ → ℂ}

/-- A function of the loop momentum only. -/
theorem of_grow {h : ℝ → ℂ} (hh : Grow a h) : Hol c M a fun _ q => h q := by
  obtain ⟨m, C, k, hC, hb⟩ := hh
  exact ⟨fun _ _ => m, fun _ _ => differentiableOn_const _, C, k, hC, fun _ _ q hq => hb q hq⟩

theorem const (z : ℂ) : Hol c M 0 fun _ _ => z := of_grow (.const z)
theorem id : Hol c M 1 fun _ q => (q : ℂ) := of_grow .id

/-- A function of the frequency only. -/
theorem coef (hc : 0 < c) {h : ℂ → ℂ} (hh : DifferentiableOn ℂ h {om | om.re ≠ 0}) : Hol c M 0 fun om _ => h om := by
  obtain ⟨C, hC, hb⟩ := Freq.bounded (M := M) hc hh.continuousOn
  exact ⟨fun _ _ => measurable_const, fun _ _ => hh.mono fun om h => Freq.re_ne hc.le h, C, 0, hC, fun om ho q _ => by simpa using hb om ho⟩

theorem om (hc : 0 < c) : Hol c M 0 fun om _ => om := coef hc differentiableOn_id

theorem add (hf : Hol c M a f) (hg : Hol c M a g) : Hol c M a fun om q => f om q + g om q := by
  obtain ⟨mf, df, C, k, hC, h⟩ := hf
  obtain ⟨mg, dg, D, l, hD, h'⟩ := hg
  refine ⟨fun o ho => (mf o ho).add (mg o ho), fun q hq => (df q hq).add (dg q hq), C + D, max k l, by positivity, fun o ho q hq => ?_⟩
  calc ‖f o q + g o q‖ ≤ ‖f o q‖ + ‖g o q‖ := norm_add_le _ _
    _ ≤ C * q ^ a * (1 + q) ^ k + D * q ^ a * (1 + q) ^ l := add_le_add (h o ho q hq) (h' o ho q hq)
    _ ≤ C * q ^ a * (1 + q) ^ (max k l) + D * q ^ a * (1 + q) ^ (max k l) := by
        gcongr
        · linarith
        · exact le_max_left _ _
        · linarith
        · exact le_max_right _ _
    _ = _ := by ring

theorem neg (hf : Hol c M a f) : Hol c M a fun om q => -f om q := by
  obtain ⟨mf, df, C, k, hC, h⟩ := hf
  exact ⟨fun o ho => (mf o ho).neg, fun q hq => (df q hq).neg, C, k, hC, fun o ho q hq => by simpa using h o ho q hq⟩

theorem sub (hf : Hol c M a f) (hg : Hol c M a g) : Hol c M a fun om q => f om q - g om q := by
  simpa [sub_eq_add_neg] using hf.add hg.neg

theorem mul (hf : Hol c M a f) (hg : Hol c M b g) : Hol c M (a + b) fun om q => f om q * g om q := by
  obtain ⟨mf, df, C, k, hC, h⟩ := hf
  obtain ⟨mg, dg, D, l, hD, h'⟩ := hg
  refine ⟨fun o ho => (mf o ho).mul (mg o ho), fun q hq => (df q hq).mul (dg q hq), C * D, k + l, by positivity, fun o ho q hq => ?_⟩
  rw [norm_mul]
  have h0 : 0 ≤ C * q ^ a * (1 + q) ^ k := by positivity
  calc ‖f o q‖ * ‖g o q‖ ≤ (C * q ^ a * (1 + q) ^ k) * (D * q ^ b * (1 + q) ^ l) :=
        mul_le_mul (h o ho q hq) (h' o ho q hq) (norm_nonneg _) h0
    _ = _ := by rw [pow_add, pow_add]; ring

theorem mul00 (hf : Hol c M 0 f) (hg : Hol c M 0 g) : Hol c M 0 fun om q => f om q * g om q := hf.mul hg
theorem mul10 (hf : Hol c M 1 f) (hg : Hol c M 0 g) : Hol c M 1 fun om q => f om q * g om q := hf.mul hg
theorem mul01 (hf : Hol c M 0 f) (hg : Hol c M 1 g) : Hol c M 1 fun om q => f om q * g om q := hf.mul hg

theorem weaken (hf : Hol c M 1 f) : Hol c M 0 f := by
  obtain ⟨mf, df, C, k, hC, h⟩ := hf
  refine ⟨mf, df, C, k + 1, hC, fun o ho q hq => (h o ho q hq).trans ?_⟩
  calc C * q ^ 1 * (1 + q) ^ k = C * (1 + q) ^ k * q := by ring
    _ ≤ C * (1 + q) ^ k * (1 + q) := by gcongr; linarith
    _ = _ := by ring

/-- Replacing the frequency by its opposite. -/
theorem flip (hf : Hol c M a f) : Hol c M a fun om q => f (-om) q := by
  obtain ⟨mf, df, C, k, hC, h⟩ := hf
  exact ⟨fun o ho => mf _ (Freq.neg ho), fun q hq => (df q hq).comp (differentiableOn_neg _) fun o ho => Freq.neg ho, C, k, hC,
    fun o ho q hq => h _ (Freq.neg ho) q hq⟩

end Hol

/-! ### Denominators and logarithms -/

/-- A leg on its mass shell: `e q` is the energy of mass `m1`, and `d` the difference of the squared masses. -/
structure Leg (e : ℝ → ℝ) (d : ℝ) : Prop where
  meas : Measurable e
  grow : Grow 0 fun q => ((e q : ℝ) : ℂ)
  shell : ∃ m1 m2 : ℝ, d = m2 * m2 - m1 * m1 ∧ ∀ q, 0 < q → e q ^ 2 = q ^ 2 + m1 * m1

theorem energy_sq_real (q m : ℝ) : energy q m ^ 2 = q ^ 2 + m * m := by
  rw [energy_real, Real.sq_sqrt (by nlinarith [sq_nonneg q, sq_nonneg m])]
  ring

theorem Leg.massive (m m2 : ℝ) : Leg (fun q => energy q m) (m2 * m2 - m * m) :=
  ⟨energy_meas m, .energy m, m, m2, rfl, fun q _ => energy_sq_real q m⟩

theorem Leg.massless (m2 : ℝ) : Leg (fun q => q) (m2 * m2) :=
  ⟨measurable_id, Grow.id.weaken, 0, m2, by ring, fun q _ => by ring⟩

theorem abs_re_le_add_I (om : ℂ) (x : ℝ) : |om.re| ≤ ‖om + Complex.I * x‖ := by
  refine (le_of_eq ?_).trans (Complex.abs_re_le_norm _)
  simp

/-- On the mass shell the denominator is a product of two factors that vanish on the imaginary axis only. -/
theorem Leg.away {e : ℝ → ℝ} {d : ℝ} (h : Leg e d) (om : ℂ) (p : ℝ) {q : ℝ} (hq : 0 < q) {z : ℝ} (hz : z ∈ Icc (-1 : ℝ) 1) :
    om.re ^ 2 ≤ ‖R0 om p (e q) d + (2 * p * q : ℝ) * (z : ℂ)‖ := by
  obtain ⟨m1, m2, hd, he⟩ := h.shell
  have hx : 0 ≤ q ^ 2 + p ^ 2 + 2 * p * q * z + m2 * m2 := by
    have h1 := hz.1
    have h2 := hz.2
    nlinarith [sq_nonneg (p + q * z), sq_nonneg q, mul_self_nonneg m2, mul_nonneg (sq_nonneg q) (mul_nonneg (by linarith : 0 ≤ 1 - z) (by linarith : 0 ≤ 1 + z))]
  set y := Real.sqrt (q ^ 2 + p ^ 2 + 2 * p * q * z + m2 * m2) with hy
  have hy2 : y ^ 2 = q ^ 2 + p ^ 2 + 2 * p * q * z + m2 * m2 := Real.sq_sqrt hx
  have key : R0 om p (e q) d + (2 * p * q : ℝ) * (z : ℂ) = (om + Complex.I * (e q + y : ℝ)) * (om + Complex.I * (e q - y : ℝ)) := by
    have h1 : ((e q : ℝ) : ℂ) ^ 2 = q ^ 2 + m1 * m1 := by exact_mod_cast he q hq
    have h2 : ((y : ℝ) : ℂ) ^ 2 = q ^ 2 + p ^ 2 + 2 * p * q * z + m2 * m2 := by exact_mod_cast hy2
    rw [hd]
    simp only [R0]
    push_cast
    linear_combination (-(e q : ℂ) ^ 2 + (y : ℂ) ^ 2) * Complex.I_sq + h1 - h2
  rw [key, norm_mul, ← sq_abs, sq]
  exact mul_le_mul (abs_re_le_add_I _ _) (abs_re_le_add_I _ _) (abs_nonneg _) (norm_nonneg _)

namespace Hol
variable {c M : ℝ} {e : ℝ → ℝ} {d : ℝ}

theorem away (hc : 0 < c) (h : Leg e d) (p : ℝ) {om : ℂ} (ho : om ∈ Freq c M) {q : ℝ} (hq : 0 < q) {z : ℝ} (hz : z ∈ Icc (-1 : ℝ) 1) :
    c ^ 2 ≤ ‖R0 om p (e q) d + (2 * p * q : ℝ) * (z : ℂ)‖ := by
  refine le_trans ?_ (h.away om p hq hz)
  rw [← sq_abs om.re]
  exact pow_le_pow_left₀ hc.le ho.1.le 2

theorem away_ne (hc : 0 < c) (h : Leg e d) (p : ℝ) {om : ℂ} (ho : om ∈ Freq c M) {q : ℝ} (hq : 0 < q) {z : ℝ} (hz : z ∈ Icc (-1 : ℝ) 1) :
    R0 om p (e q) d + ((2 * p * q : ℝ) : ℂ) * (z : ℂ) ≠ 0 := fun h0 => by
  have := away hc h p ho hq hz
  rw [h0, norm_zero] at this
  nlinarith

theorem R0_measC (om : ℂ) (p : ℝ) (he : Measurable e) (d : ℝ) : Measurable fun q => R0 om p (e q) d := by
  unfold Qcd.R0
  fun_prop

theorem R0_diff (p x d : ℂ) : Differentiable ℂ fun om => R0 om p x d := by
  unfold Qcd.R0
  fun_prop

theorem R0 (hc : 0 < c) (p : ℝ) (h : Leg e d) : Hol c M 0 fun om q => R0 om p (e q) d := by
  unfold Qcd.R0
  have h1 : Hol c M 0 fun om _ => om := Hol.om hc
  have h2 : Hol c M 0 fun _ q => ((e q : ℝ) : ℂ) := of_grow h.grow
  exact ((h1.mul00 h1).add (h1.mul00 ((h2.mul00 (.const _)).mul00 (.const _)))).add (.const _)

theorem PF (hc : 0 < c) (p : ℝ) (h : Leg e d) : Hol c M 0 fun om q => PF om p (e q) d := by
  unfold Qcd.PF
  have h1 : Hol c M 0 fun om _ => om := Hol.om hc
  have h2 : Hol c M 0 fun _ q => ((e q : ℝ) : ℂ) := of_grow h.grow
  have h3 : Hol c M 0 fun om _ => om⁻¹ :=
    coef hc (differentiableOn_id.inv fun om ho h0 => ho (by change om = 0 at h0; simp [h0]))
  exact (((h1.mul00 h1).add (h1.mul00 ((h2.mul00 (.const _)).mul00 (.const _)))).add (.const _)).add
    ((Hol.const _).mul00 ((h3.mul00 ((h2.mul00 (.const _)).mul00 (.const _))).add (.const _)))

theorem invP (hc : 0 < c) (p : ℝ) (h : Leg e d) : Hol c M 0 fun om q => ((p : ℂ) * q * 2 + Qcd.R0 om p (e q) d)⁻¹ := by
  have e1 : ∀ (om : ℂ) (q : ℝ), (p : ℂ) * q * 2 + Qcd.R0 om p (e q) d = Qcd.R0 om p (e q) d + ((2 * p * q : ℝ) : ℂ) * ((1 : ℝ) : ℂ) := by
    intro om q; push_cast; ring
  refine ⟨fun om ho => ?_, fun q hq => ?_, (c ^ 2)⁻¹, 0, by positivity, fun om ho q hq => ?_⟩
  · have := R0_measC om p h.meas d
    fun_prop
  · refine DifferentiableOn.inv (((differentiable_const _).add (R0_diff _ _ _)).differentiableOn) fun om ho => ?_
    rw [e1]
    exact away_ne hc h p ho hq (by simp)
  · rw [norm_inv, e1, pow_zero, pow_zero, mul_one, mul_one]
    exact inv_anti₀ (by positivity) (away hc h p ho hq (by simp))

theorem invM (hc : 0 < c) (p : ℝ) (h : Leg e d) : Hol c M 0 fun om q => (-((p : ℂ) * q * 2) + Qcd.R0 om p (e q) d)⁻¹ := by
  have e1 : ∀ (om : ℂ) (q : ℝ), -((p : ℂ) * q * 2) + Qcd.R0 om p (e q) d = Qcd.R0 om p (e q) d + ((2 * p * q : ℝ) : ℂ) * ((-1 : ℝ) : ℂ) := by
    intro om q; push_cast; ring
  refine ⟨fun om ho => ?_, fun q hq => ?_, (c ^ 2)⁻¹, 0, by positivity, fun om ho q hq => ?_⟩
  · have := R0_measC om p h.meas d
    fun_prop
  · refine DifferentiableOn.inv (((differentiable_const _).add (R0_diff _ _ _)).differentiableOn) fun om ho => ?_
    rw [e1]
    exact away_ne hc h p ho hq (by simp)
  · rw [norm_inv, e1, pow_zero, pow_zero, mul_one, mul_one]
    exact inv_anti₀ (by positivity) (away hc h p ho hq (by simp))

theorem congr {a : ℕ} {f g : ℂ → ℝ → ℂ} (hf : Hol c M a f) (hg : ∀ om ∈ Freq c M, Measurable (g om))
    (h : ∀ om ∈ Freq c M, ∀ q, 0 < q → g om q = f om q) : Hol c M a g := by
  obtain ⟨mf, df, C, k, hC, hb⟩ := hf
  exact ⟨hg, fun q hq => (df q hq).congr fun om ho => h om ho q hq, C, k, hC, fun om ho q hq => by rw [h om ho q hq]; exact hb om ho q hq⟩

/-- The difference of the two inverse denominators vanishes with `q`. -/
theorem invD (hc : 0 < c) (p : ℝ) (h : Leg e d) :
    Hol c M 1 fun om q => ((p : ℂ) * q * 2 + Qcd.R0 om p (e q) d)⁻¹ - (-((p : ℂ) * q * 2) + Qcd.R0 om p (e q) d)⁻¹ := by
  refine (((Hol.const (-(4 * p : ℂ))).mul01 Hol.id).mul10 ((invP hc p h).mul00 (invM hc p h))).congr
    (fun om ho => ((invP hc p h).meas om ho).sub ((invM hc p h).meas om ho)) fun om ho q hq => ?_
  have h1 : (p : ℂ) * q * 2 + Qcd.R0 om p (e q) d ≠ 0 := by
    have := away_ne hc h p ho hq (z := 1) (by simp)
    rwa [show Qcd.R0 om p (e q) d + ((2 * p * q : ℝ) : ℂ) * ((1 : ℝ) : ℂ) = (p : ℂ) * q * 2 + Qcd.R0 om p (e q) d by push_cast; ring] at this
  have h2 : -((p : ℂ) * q * 2) + Qcd.R0 om p (e q) d ≠ 0 := by
    have := away_ne hc h p ho hq (z := -1) (by simp)
    rwa [show Qcd.R0 om p (e q) d + ((2 * p * q : ℝ) : ℂ) * ((-1 : ℝ) : ℂ) = -((p : ℂ) * q * 2) + Qcd.R0 om p (e q) d by push_cast; ring] at this
  obtain ⟨x, hx⟩ : ∃ x, x = (p : ℂ) * q * 2 + Qcd.R0 om p (e q) d := ⟨_, rfl⟩
  obtain ⟨y, hy⟩ : ∃ y, y = -((p : ℂ) * q * 2) + Qcd.R0 om p (e q) d := ⟨_, rfl⟩
  rw [← hx] at h1 ⊢
  rw [← hy] at h2 ⊢
  have hxy : x - y = 4 * p * q := by rw [hx, hy]; ring
  rw [inv_sub_inv h1 h2]
  field_simp
  linear_combination -hxy

theorem TL_slit (hc : 0 < c) (p : ℝ) (h : Leg e d) {om : ℂ} (ho : om ∈ Freq c M) {q : ℝ} (hq : 0 < q) :
    ((p : ℂ) * q * 2 + Qcd.R0 om p (e q) d) / (-((p : ℂ) * q * 2) + Qcd.R0 om p (e q) d) ∈ Complex.slitPlane := by
  have := slit_of_segment (a := Qcd.R0 om p (e q) d) (b := ((2 * p * q : ℝ) : ℂ)) (fun z hz => away_ne hc h p ho hq hz) 1 (by simp)
  convert this using 2 <;> push_cast <;> ring

theorem TL (hc : 0 < c) (p : ℝ) (h : Leg e d) : Hol c M 1 fun om q => TL q om p (e q) d := by
  refine ⟨fun om ho => ?_, fun q hq => ?_, 4 * |p| / c ^ 2, 0, by positivity, fun om ho q hq => ?_⟩
  · have := R0_measC om p h.meas d
    unfold Qcd.TL
    fun_prop
  · intro om ho
    unfold Qcd.TL
    have hd : ∀ x : ℂ, DifferentiableAt ℂ (fun om => x + Qcd.R0 om p (e q) d) om := fun x => (R0_diff _ _ _).differentiableAt.const_add x
    refine (DifferentiableAt.clog (f := fun om => ((p : ℂ) * q * 2 + Qcd.R0 om p (e q) d) / (-((p : ℂ) * q * 2) + Qcd.R0 om p (e q) d))
      ((hd _).fun_div (hd _) ?_) (TL_slit hc p h ho hq)).differentiableWithinAt
    have := away_ne hc h p ho hq (z := -1) (by simp)
    rwa [show Qcd.R0 om p (e q) d + ((2 * p * q : ℝ) : ℂ) * ((-1 : ℝ) : ℂ) = -((p : ℂ) * q * 2) + Qcd.R0 om p (e q) d by push_cast; ring] at this
  · rcases eq_or_ne p 0 with rfl | hp
    · have h0 : Qcd.R0 om ((0 : ℝ) : ℂ) (e q) d ≠ 0 := by simpa using away_ne hc h 0 ho hq (z := 0) (by simp)
      simp only [Qcd.TL, Complex.ofReal_zero, zero_mul, neg_zero, zero_add, abs_zero, mul_zero, zero_div] at h0 ⊢
      rw [div_self h0, Complex.log_one, norm_zero]
    have hb : ((2 * p * q : ℝ) : ℂ) ≠ 0 := Complex.ofReal_ne_zero.2 (by positivity)
    have hI := int_inv hb (fun z hz => away_ne hc h p ho hq hz)
    have e1 : Qcd.TL q om p (e q) d = ((2 * p * q : ℝ) : ℂ) * ∫ z in (-1 : ℝ)..1, (Qcd.R0 om p (e q) d + ((2 * p * q : ℝ) : ℂ) * z)⁻¹ := by
      rw [hI, Qcd.TL]
      field_simp
      congr 2 <;> push_cast <;> ring
    have e2 : ‖∫ z in (-1 : ℝ)..1, (Qcd.R0 om p (e q) d + ((2 * p * q : ℝ) : ℂ) * z)⁻¹‖ ≤ (c ^ 2)⁻¹ * |1 - (-1)| := by
      refine intervalIntegral.norm_integral_le_of_norm_le_const fun z hz => ?_
      rw [uIoc_of_le (by norm_num)] at hz
      rw [norm_inv]
      exact inv_anti₀ (by positivity) (away hc h p ho hq ⟨hz.1.le, hz.2⟩)
    rw [e1, norm_mul, Complex.norm_real, Real.norm_eq_abs, abs_mul, abs_mul, abs_two, abs_of_pos hq, pow_zero, mul_one, pow_one]
    calc 2 * |p| * q * ‖_‖ ≤ 2 * |p| * q * ((c ^ 2)⁻¹ * |1 - (-1)|) := by gcongr
      _ = 4 * |p| / c ^ 2 * q := by norm_num; ring

end Hol

/-! ### Integrals -/

structure HolInt (S : Set ℝ) (c M : ℝ) (F : ℂ → ℝ → ℂ) : Prop where
  meas : ∀ om ∈ Freq c M, Measurable (F om)
  hol : ∀ q, 0 < q → DifferentiableOn ℂ (fun om => F om q) (Freq c M)
  bd : ∃ g : ℝ → ℝ, IntegrableOn g S ∧ ∀ om ∈ Freq c M, ∀ q ∈ S, ‖F om q‖ ≤ g q

namespace HolInt
variable {S : Set ℝ} {c M : ℝ} {F G : ℂ → ℝ → ℂ}

theorem add (hF : HolInt S c M F) (hG : HolInt S c M G) : HolInt S c M fun om q => F om q + G om q := by
  obtain ⟨mf, df, g, hg, h⟩ := hF
  obtain ⟨mg, dg, g', hg', h'⟩ := hG
  exact ⟨fun o ho => (mf o ho).add (mg o ho), fun q hq => (df q hq).add (dg q hq), _, hg.add hg',
    fun o ho q hq => (norm_add_le _ _).trans (add_le_add (h o ho q hq) (h' o ho q hq))⟩

/-- Multiplication by a function of the frequency. -/
theorem coef (hc : 0 < c) (hF : HolInt S c M F) {h : ℂ → ℂ} (hh : DifferentiableOn ℂ h {om | om.re ≠ 0}) :
    HolInt S c M fun om q => h om * F om q := by
  obtain ⟨mf, df, g, hg, hb⟩ := hF
  obtain ⟨C, hC, hb'⟩ := Freq.bounded (M := M) hc hh.continuousOn
  refine ⟨fun o ho => (mf o ho).const_mul _, fun q hq => (hh.mono fun om h => Freq.re_ne hc.le h).mul (df q hq), _, hg.const_mul C,
    fun o ho q hq => ?_⟩
  rw [norm_mul]
  exact mul_le_mul (hb' o ho) (hb o ho q hq) (norm_nonneg _) hC

theorem const_mul (hF : HolInt S c M F) (z : ℂ) : HolInt S c M fun om q => z * F om q := by
  obtain ⟨mf, df, g, hg, hb⟩ := hF
  refine ⟨fun o ho => (mf o ho).const_mul _, fun q hq => (df q hq).const_mul z, _, hg.const_mul ‖z‖, fun o ho q hq => ?_⟩
  rw [norm_mul]
  exact mul_le_mul_of_nonneg_left (hb o ho q hq) (norm_nonneg _)

theorem neg (hF : HolInt S c M F) : HolInt S c M fun om q => -F om q := by
  simpa using hF.const_mul (-1)

theorem sub (hF : HolInt S c M F) (hG : HolInt S c M G) : HolInt S c M fun om q => F om q - G om q := by
  simpa [sub_eq_add_neg] using hF.add hG.neg

theorem mul_const (hF : HolInt S c M F) (z : ℂ) : HolInt S c M fun om q => F om q * z := by
  simpa [mul_comm] using hF.const_mul z

theorem div_const (hF : HolInt S c M F) (z : ℂ) : HolInt S c M fun om q => F om q / z := by
  simpa [div_eq_mul_inv] using hF.mul_const z⁻¹

/-- A thermal occupation number times a polynomially bounded function. -/
theorem weight {b0 b : ℝ} (h0 : 0 < b0) (hb : b0 ≤ b) {W : ℝ → ℝ → ℂ} (hW : Dom b0 W) {f : ℂ → ℝ → ℂ} (hf : Hol c M 0 f) :
    HolInt (Ioi 0) c M fun om q => W b q * f om q := by
  obtain ⟨mW, C, k, hC, h⟩ := hW
  obtain ⟨mf, df, D, l, hD, h'⟩ := hf
  refine ⟨fun o ho => (mW b).mul (mf o ho), fun q hq => (df q hq).const_mul _, _, Dom.bound_integrable h0 (C * D) (k + l),
    fun o ho q hq => ?_⟩
  rw [norm_mul]
  have hq : 0 < q := hq
  have hx : 0 ≤ C * (1 + q) ^ k * Real.exp (-(b0 / 4 * q)) := by positivity
  calc ‖W b q‖ * ‖f o q‖ ≤ (C * (1 + q) ^ k * Real.exp (-(b0 / 4 * q))) * (D * q ^ 0 * (1 + q) ^ l) :=
        mul_le_mul (h b hb q hq) (h' o ho q hq) (norm_nonneg _) hx
    _ = _ := by rw [pow_add]; ring

/-- The massless Bose distribution times a function that vanishes with the momentum. -/
theorem massless {b : ℝ} (hb : 0 < b) {f : ℂ → ℝ → ℂ} (hf : Hol c M 1 f) :
    HolInt (Ioi 0) c M fun om q => ((bose_distribution_zero_chempot q b : ℝ) : ℂ) * f om q := by
  obtain ⟨mf, df, D, l, hD, h'⟩ := hf
  refine ⟨fun o ho => (Complex.measurable_ofReal.comp (bose_meas measurable_id b)).mul (mf o ho), fun q hq => (df q hq).const_mul _, _,
    Dom.bound_integrable hb (b⁻¹ * D) l, fun o ho q hq => ?_⟩
  have hq : 0 < q := hq
  obtain ⟨h1, h2⟩ := bose_bound hq hb
  rw [norm_mul, Complex.norm_real, Real.norm_of_nonneg h1]
  calc _ ≤ Real.exp (-(q * b / 2)) / (q * b) * (D * q ^ 1 * (1 + q) ^ l) := by gcongr; exact h' o ho q hq
    _ = b⁻¹ * D * (1 + q) ^ l * Real.exp (-(q * b / 2)) := by field_simp
    _ ≤ _ := by
      gcongr
      nlinarith

/-- On a bounded range of momenta. -/
theorem bounded {x : ℝ} {f : ℂ → ℝ → ℂ} (hf : Hol c M 0 f) : HolInt (Ioc 0 x) c M f := by
  obtain ⟨mf, df, D, l, hD, h'⟩ := hf
  refine ⟨mf, df, fun q => D * q ^ 0 * (1 + q) ^ l, ?_, fun o ho q hq => h' o ho q hq.1⟩
  exact (by fun_prop : Continuous fun q : ℝ => D * q ^ 0 * (1 + q) ^ l).integrableOn_Ioc

theorem congr (hF : HolInt S c M F) (hS : S ⊆ Ioi 0) (hG : ∀ om ∈ Freq c M, Measurable (G om))
    (h : ∀ om ∈ Freq c M, ∀ q, 0 < q → G om q = F om q) : HolInt S c M G := by
  obtain ⟨mf, df, g, hg, hb⟩ := hF
  exact ⟨hG, fun q hq => (df q hq).congr fun om ho => h om ho q hq, g, hg, fun om ho q hq => by rw [h om ho q (hS hq)]; exact hb om ho q hq⟩

theorem integrable (hS : MeasurableSet S) (hF : HolInt S c M F) {om : ℂ} (ho : om ∈ Freq c M) : IntegrableOn (F om) S := by
  obtain ⟨mf, df, g, hg, hb⟩ := hF
  exact hg.mono' (mf om ho).aestronglyMeasurable ((ae_restrict_iff' hS).2 (.of_forall fun q hq => hb om ho q hq))

/-- The integral is holomorphic in the frequency. -/
theorem differentiableAt (hS : MeasurableSet S) (h0 : S ⊆ Ioi 0) (hF : HolInt S c M F) {om : ℂ} (ho : om ∈ Freq c M) :
    DifferentiableAt ℂ (fun om => ∫ q in S, F om q) om := by
  obtain ⟨r, hr, hball⟩ := Metric.isOpen_iff.1 (Freq.isOpen c M) om ho
  have hF' := hF
  obtain ⟨mf, df, g, hg, hb⟩ := hF
  have hs : Metric.ball om (r / 2) ⊆ Freq c M := (Metric.ball_subset_ball (by linarith)).trans hball
  have hd : ∀ q ∈ S, ∀ x ∈ Metric.ball om (r / 2), HasDerivAt (fun x => F x q) (deriv (fun x => F x q) x) x := fun q hq x hx =>
    ((df q (h0 hq)).differentiableAt ((Freq.isOpen c M).mem_nhds (hs hx))).hasDerivAt
  have hmeas : AEStronglyMeasurable (fun q => deriv (fun x => F x q) om) (volume.restrict S) := by
    -- a limit of difference quotients
    have hlim : ∀ q ∈ S, Tendsto (fun n : ℕ => ((r / 2 / (n + 2) : ℝ) : ℂ)⁻¹ * (F (om + (r / 2 / (n + 2) : ℝ)) q - F om q)) atTop
        (𝓝 (deriv (fun x => F x q) om)) := fun q hq => by
      have h1 := (hd q hq om (Metric.mem_ball_self (by linarith))).tendsto_slope_zero
      have h2 : Tendsto (fun n : ℕ => ((r / 2 / (n + 2) : ℝ) : ℂ)) atTop (𝓝[≠] 0) := by
        refine tendsto_nhdsWithin_iff.2 ⟨?_, .of_forall fun n => ?_⟩
        · rw [← Complex.ofReal_zero]
          refine (Complex.continuous_ofReal.tendsto 0).comp ?_
          exact tendsto_const_nhds.div_atTop (tendsto_atTop_add_const_right _ _ tendsto_natCast_atTop_atTop)
        · exact Complex.ofReal_ne_zero.2 (by positivity)
      simpa [smul_eq_mul, Function.comp_def] using h1.comp h2
    refine aestronglyMeasurable_of_tendsto_ae atTop (f := fun (n : ℕ) q => ((r / 2 / (n + 2) : ℝ) : ℂ)⁻¹ * (F (om + (r / 2 / (n + 2) : ℝ)) q - F om q))
      (fun n => ?_) ((ae_restrict_iff' hS).2 (.of_forall hlim))
    have hx : om + (r / 2 / (n + 2) : ℝ) ∈ Freq c M := by
      refine hs ?_
      rw [Metric.mem_ball, dist_eq_norm, add_sub_cancel_left, Complex.norm_real, Real.norm_of_nonneg (by positivity)]
      rw [div_lt_iff₀ (by positivity)]
      nlinarith [(n.cast_nonneg : (0 : ℝ) ≤ n)]
    exact (((mf _ hx).sub (mf om ho)).const_mul _).aestronglyMeasurable
  refine (hasDerivAt_integral_of_dominated_loc_of_deriv_le (μ := volume.restrict S) (F := F) (F' := fun x q => deriv (fun x => F x q) x)
    (s := Metric.ball om (r / 2)) (bound := fun q => g q / (r / 4)) (Metric.ball_mem_nhds om (by linarith)) ?_ (hF'.integrable hS ho) hmeas ?_ ?_ ?_).2.differentiableAt
  · filter_upwards [(Freq.isOpen c M).mem_nhds ho] with x hx
    exact (mf x hx).aestronglyMeasurable
  · refine (ae_restrict_iff' hS).2 (.of_forall fun q hq x hx => ?_)
    have hsub : Metric.closedBall x (r / 4) ⊆ Freq c M := fun y hy => hball (by
      rw [Metric.mem_ball] at hx ⊢
      rw [Metric.mem_closedBall] at hy
      linarith [dist_triangle y x om])
    refine Complex.norm_deriv_le_of_forall_mem_sphere_norm_le (by linarith) ?_ fun y hy => hb y (hsub (Metric.sphere_subset_closedBall hy)) q hq
    refine DifferentiableOn.diffContOnCl ?_
    rw [closure_ball x (by linarith : r / 4 ≠ 0)]
    exact (df q (h0 hq)).mono hsub
  · exact hg.div_const _
  · exact (ae_restrict_iff' hS).2 (.of_forall fun q hq x hx => hd q hq x hx)

end HolInt
end Qcd
