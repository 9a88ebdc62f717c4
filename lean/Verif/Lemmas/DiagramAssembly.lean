import Verif.Lemmas.DiagramLines
import Verif.Props.ThermalLoop
import Verif.Props.ThermalLoopQuark
import Verif.Props.MassDerivativeTotal

/-! # The thermal one-loop diagrams in terms of the loop integrals, at a real non-zero frequency -/

namespace Qcd
open Filter Topology

/-! ### Regularity at real frequencies -/

theorem en_real (q m : ℝ) : Spec.en q (m : ℂ) = ((energy q m : ℝ) : ℂ) := by
  rw [spec_en]; exact (toC_energy (T := ℝ) q m).symm

theorem energy_real_pos {q m : ℝ} (hq : 0 < q) : 0 < energy q m := by
  rw [show energy q m = Real.sqrt (m * m + q * q) by simp [energy, energy_squared]]
  exact Real.sqrt_pos.2 (by nlinarith [mul_self_nonneg m, mul_pos hq hq])

theorem en_real_ne {q : ℝ} (hq : 0 < q) (m : ℝ) : Spec.en q (m : ℂ) ≠ 0 := by
  rw [en_real]; exact_mod_cast (energy_real_pos hq).ne'

theorem en_zero_ne {q : ℝ} (hq : 0 < q) : Spec.en q 0 ≠ 0 := by simpa using en_real_ne hq 0

theorem regularLeg_real {q om : ℝ} (hq : 0 < q) (ho : om ≠ 0) (p m m' : ℝ) : Spec.RegularLeg q om p m m' := by
  have hE : energy q m ≠ 0 := (energy_real_pos hq).ne'
  intro z _
  rw [en_real]
  constructor
  · intro h
    have := congrArg Complex.im h
    simp [Spec.den, pow_two] at this
    exact mul_ne_zero ho hE (by linarith)
  · intro h
    have := congrArg Complex.im h
    simp [Spec.den, pow_two] at this
    exact mul_ne_zero ho hE (by linarith)

/-! ### Closed forms -/

section
variable {pol : List Spec.Vec} {om p q M : ℝ} {V : ℂ → ℝ → ℂ}

theorem sqrt_sq_cast (hM : 0 < M) : ((Real.sqrt M : ℝ) : ℂ) ^ 2 = (M : ℂ) := by
  rw [← Complex.ofReal_pow, Real.sq_sqrt hM.le]

theorem sqrt_pow4_cast (hM : 0 < M) : ((Real.sqrt M : ℝ) : ℂ) ^ 4 = (M : ℂ) ^ 2 := by
  rw [← sqrt_sq_cast hM]; ring

theorem gluonLoopThermal_eq (h : Polarised pol om p q V) (hq : 0 < q) (ho : om ≠ 0) (hM : 0 < M) (beta : ℝ) :
    Spec.gluonLoopThermal pol om p beta q M =
      (((om : ℂ) ^ 2 + (p : ℂ) ^ 2) ^ 2 + 4 * ((om : ℂ) ^ 2 + (p : ℂ) ^ 2) * M + 12 * (M : ℂ) ^ 2) / (2 * (M : ℂ) ^ 2) * Spec.loop V q om p (Real.sqrt M) (Real.sqrt M) beta
      - ((om : ℂ) ^ 2 + (p : ℂ) ^ 2 + M) ^ 2 / (M : ℂ) ^ 2 * Spec.loop V q om p (Real.sqrt M) 0 beta
      + ((om : ℂ) ^ 2 + (p : ℂ) ^ 2) ^ 2 / (2 * (M : ℂ) ^ 2) * Spec.loop V q om p 0 0 beta
      - 1 / M * (Spec.tadpole V q (Real.sqrt M) beta - Spec.tadpole V q 0 beta)
      + ((om : ℂ) ^ 2 + (p : ℂ) ^ 2) * ((om : ℂ) ^ 2 + (p : ℂ) ^ 2 + 4 * M) / M * Spec.loop Spec.scalar q om p (Real.sqrt M) (Real.sqrt M) beta
      - ((om : ℂ) ^ 2 + (p : ℂ) ^ 2 + M) ^ 2 / M * Spec.loop Spec.scalar q om p (Real.sqrt M) 0 beta
      - ((om : ℂ) ^ 2 + (p : ℂ) ^ 2 + M) / M * (Spec.tadpole Spec.scalar q (Real.sqrt M) beta - Spec.tadpole Spec.scalar q 0 beta) := by
  have hm : ((Real.sqrt M : ℝ) : ℂ) ≠ 0 := by exact_mod_cast (Real.sqrt_pos.2 hM).ne'
  have hM0 : (M : ℂ) ≠ 0 := by exact_mod_cast hM.ne'
  have g1 : IsGlue (fun Q => Spec.average pol fun e => Spec.gluonLoop e (Spec.external om p) M Q) (((Real.sqrt M : ℝ) : ℂ) ^ 2) om p q V := by
    intro q0 z hz hx hy
    rw [sqrt_sq_cast hM]
    exact h.gluonLoop M q0 hz hx hy
  have g2 : IsGlue (fun Q => Spec.average pol fun e => Spec.gluonLoop e (Spec.external om p) M (-(Spec.external om p + Q)))
      (((Real.sqrt M : ℝ) : ℂ) ^ 2) om p q V := by
    intro q0 z hz hx hy
    rw [sqrt_sq_cast hM]
    exact h.gluonLoop_shift M q0 hz hx hy
  have r : ∀ m m' : ℝ, Spec.RegularLeg q om p m m' := regularLeg_real hq ho p
  have r0 : ∀ m : ℝ, Spec.RegularLeg q om p m 0 := fun m => by simpa using r m 0
  have r0' : ∀ m : ℝ, Spec.RegularLeg q om p 0 m := fun m => by simpa using r 0 m
  have r00 : Spec.RegularLeg q om p 0 0 := by simpa using r 0 0
  rw [Spec.gluonLoopThermal, Spec.thermalPart]
  simp only [List.map_cons, List.map_nil, List.sum_cons, List.sum_nil, add_zero]
  rw [glue_massive_line g1 h.cont0 h.cont hm (en_real_ne hq _) (r0 _) (r _ _),
    glue_massive_line g2 h.cont0 h.cont hm (en_real_ne hq _) (r0 _) (r _ _),
    glue_massless_line g1 h.cont0 h.cont hm (en_zero_ne hq) r00 (r0' _),
    glue_massless_line g2 h.cont0 h.cont hm (en_zero_ne hq) r00 (r0' _), sqrt_sq_cast hM, sqrt_pow4_cast hM]
  simp only [Spec.loop]
  generalize (om : ℂ) ^ 2 + (p : ℂ) ^ 2 = s
  field_simp
  ring

theorem ghostLoopThermal_eq (h : Polarised pol om p q V) (hq : 0 < q) (ho : om ≠ 0) (beta : ℝ) :
    Spec.ghostLoopThermal pol om p beta q = -Spec.loop V q om p 0 0 beta := by
  have r00 : Spec.RegularLeg q om p 0 0 := by simpa using regularLeg_real hq ho p 0 0
  rw [Spec.ghostLoopThermal, Spec.thermalPart]
  simp only [List.map_cons, List.map_nil, List.sum_cons, List.sum_nil, add_zero]
  rw [ghost_line (fun q0 z hz => h.ghostLoop q0 hz) h.cont0 (en_zero_ne hq) r00,
    ghost_line (fun q0 z hz => h.ghostLoop_shift q0 hz) h.cont0 (en_zero_ne hq) r00, Spec.loop]
  ring

theorem gluonTadpoleThermal_eq (h : Polarised pol om p q V) (hq : 0 < q) (hM : 0 < M) (beta : ℝ) :
    Spec.gluonTadpoleThermal pol om p beta q M =
      -2 * Spec.tadpole Spec.scalar q (Real.sqrt M) beta + 1 / M * (Spec.tadpole V q (Real.sqrt M) beta - Spec.tadpole V q 0 beta) := by
  have hm : ((Real.sqrt M : ℝ) : ℂ) ≠ 0 := by exact_mod_cast (Real.sqrt_pos.2 hM).ne'
  have g : ∀ q0 : ℂ, ∀ z ∈ Set.Icc (-1 : ℝ) 1, q0 ^ 2 + (q : ℂ) ^ 2 ≠ 0 →
      Spec.average pol (fun e => Spec.gluonTadpole e M (Spec.loopMomentum q0 q z)) =
        -(2 + V q0 z / (q0 ^ 2 + (q : ℂ) ^ 2)) / (q0 ^ 2 + (q : ℂ) ^ 2 + ((Real.sqrt M : ℝ) : ℂ) ^ 2) := by
    intro q0 z hz hx
    rw [sqrt_sq_cast hM]
    exact h.gluonTadpole M q0 hz hx
  rw [Spec.gluonTadpoleThermal, Spec.thermalPart]
  simp only [List.map_cons, List.map_nil, List.sum_cons, List.sum_nil, add_zero]
  rw [tadpole_massive_line g h.cont0 h.cont hm (en_real_ne hq _), tadpole_massless_line g h.cont0 hm (en_zero_ne hq), sqrt_sq_cast hM]
  ring

theorem ghostSelfEnergyThermal_eq (hq : 0 < q) (ho : om ≠ 0) (hM : 0 < M) (beta : ℝ) :
    Spec.ghostSelfEnergyThermal om p beta q M =
      -((om : ℂ) ^ 2 + (p : ℂ) ^ 2 + M) ^ 2 / (4 * M) * Spec.loop Spec.scalar q om p (Real.sqrt M) 0 beta
      + ((om : ℂ) ^ 2 + (p : ℂ) ^ 2) ^ 2 / (4 * M) * Spec.loop Spec.scalar q om p 0 0 beta
      + ((om : ℂ) ^ 2 + (p : ℂ) ^ 2 - M) / (4 * M) * (Spec.tadpole Spec.scalar q (Real.sqrt M) beta - Spec.tadpole Spec.scalar q 0 beta) := by
  have hm : ((Real.sqrt M : ℝ) : ℂ) ≠ 0 := by exact_mod_cast (Real.sqrt_pos.2 hM).ne'
  have hM0 : (M : ℂ) ≠ 0 := by exact_mod_cast hM.ne'
  have r : ∀ m m' : ℝ, Spec.RegularLeg q om p m m' := regularLeg_real hq ho p
  have r0 : ∀ m : ℝ, Spec.RegularLeg q om p m 0 := fun m => by simpa using r m 0
  have r0' : ∀ m : ℝ, Spec.RegularLeg q om p 0 m := fun m => by simpa using r 0 m
  have r00 : Spec.RegularLeg q om p 0 0 := by simpa using r 0 0
  have g1 : ∀ q0 : ℂ, ∀ z ∈ Set.Icc (-1 : ℝ) 1, q0 ^ 2 + (q : ℂ) ^ 2 ≠ 0 →
      Spec.ghostSelfEnergy (Spec.external om p) M (Spec.loopMomentum q0 q z) =
        -hX (q0 ^ 2 + (q : ℂ) ^ 2) (Spec.den q0 q om p 0 z) ((om : ℂ) ^ 2 + (p : ℂ) ^ 2)
          / ((q0 ^ 2 + (q : ℂ) ^ 2 + ((Real.sqrt M : ℝ) : ℂ) ^ 2) * Spec.den q0 q om p 0 z) := by
    intro q0 z hz hx
    rw [sqrt_sq_cast hM]
    exact ghostSelfEnergy_at M q0 hz hx
  have g2 : ∀ q0 : ℂ, ∀ z ∈ Set.Icc (-1 : ℝ) 1, Spec.den q0 q om p 0 z ≠ 0 →
      Spec.ghostSelfEnergy (Spec.external om p) M (-(Spec.external om p + Spec.loopMomentum q0 q z)) =
        -hX (Spec.den q0 q om p 0 z) (q0 ^ 2 + (q : ℂ) ^ 2) ((om : ℂ) ^ 2 + (p : ℂ) ^ 2)
          / ((Spec.den q0 q om p 0 z + ((Real.sqrt M : ℝ) : ℂ) ^ 2) * (q0 ^ 2 + (q : ℂ) ^ 2)) := by
    intro q0 z hz hx
    rw [sqrt_sq_cast hM]
    exact ghostSelfEnergy_shift M q0 hz hx
  rw [Spec.ghostSelfEnergyThermal, Spec.thermalPart]
  simp only [List.map_cons, List.map_nil, List.sum_cons, List.sum_nil, add_zero]
  rw [ghostSE_massive_line g1 hm (en_real_ne hq _) (r0 _), ghostSE_massless_line g1 hm (en_zero_ne hq) r00,
    ghostSE_ghost_line (F := fun Q => Spec.ghostSelfEnergy (Spec.external om p) M (-(Spec.external om p + Q))) g2 hm (en_zero_ne hq) r00 (r0' _),
    sqrt_sq_cast hM]
  simp only [Spec.loop]
  generalize (om : ℂ) ^ 2 + (p : ℂ) ^ 2 = s
  field_simp
  ring

end

theorem tadpole_longitudinal (q : ℝ) {om p : ℂ} (hs : om ^ 2 + p ^ 2 ≠ 0) (m : ℂ) (beta : ℝ) :
    Spec.tadpole (Spec.longitudinal q om p) q m beta =
      (om ^ 2 * Spec.tadpole (Spec.transverse q) q m beta + p ^ 2 * Spec.tadpole Spec.energySq q m beta) / (om ^ 2 + p ^ 2) := by
  have e1 : ∀ z : ℝ, Spec.longitudinal q om p (Complex.I * Spec.en q m) z + Spec.longitudinal q om p (-(Complex.I * Spec.en q m)) z =
      (-2 * p ^ 2 * Spec.en q m ^ 2 / (om ^ 2 + p ^ 2)) + (2 * om ^ 2 * (q : ℂ) ^ 2 / (om ^ 2 + p ^ 2)) * (z : ℂ) ^ 2 := by
    intro z
    simp only [Spec.longitudinal]
    field_simp
    linear_combination 2 * p ^ 2 * Spec.en q m ^ 2 * Complex.I_sq
  have e2 : ∀ z : ℝ, Spec.transverse q (Complex.I * Spec.en q m) z + Spec.transverse q (-(Complex.I * Spec.en q m)) z =
      (q : ℂ) ^ 2 + (-(q : ℂ) ^ 2) * (z : ℂ) ^ 2 := fun z => by simp only [Spec.transverse]; ring
  have e3 : ∀ z : ℝ, Spec.energySq (Complex.I * Spec.en q m) z + Spec.energySq (-(Complex.I * Spec.en q m)) z =
      (-2 * Spec.en q m ^ 2) + 0 * (z : ℂ) ^ 2 := fun z => by
    simp only [Spec.energySq]; linear_combination 2 * Spec.en q m ^ 2 * Complex.I_sq
  simp only [Spec.tadpole, e1, e2, e3]
  rw [int_quad, int_quad, int_quad]
  field_simp
  ring

/-! ### Closure properties of mass derivatives -/

section
variable {f g : ℝ → ℝ → ℂ} {d e : ℝ → ℂ} {M : ℝ}

theorem Spec.IsMassDerivative.add (hf : Spec.IsMassDerivative f d M) (hg : Spec.IsMassDerivative g e M) :
    Spec.IsMassDerivative (fun q M' => f q M' + g q M') (fun q => d q + e q) M := by
  obtain ⟨f', S, h1, h2, h3, h4⟩ := hf
  obtain ⟨g', T, k1, k2, k3, k4⟩ := hg
  refine ⟨fun q => f' q + g' q, fun q => S q + T q, fun q hq => (h1 q hq).add (k1 q hq), fun q hq => ?_, by simpa using h3.add k3, by simpa using h4.add k4⟩
  exact ((h2 q hq).add (k2 q hq)).congr_deriv (by ring)

theorem Spec.IsMassDerivative.mulCoeff (hf : Spec.IsMassDerivative f d M) {c : ℝ → ℂ} {c' : ℂ} (hc : HasDerivAt c c' M) :
    Spec.IsMassDerivative (fun q M' => c M' * f q M') (fun q => c' * f q M + c M * d q) M := by
  obtain ⟨f', S, h1, h2, h3, h4⟩ := hf
  refine ⟨fun q => c' * f q M + c M * f' q, fun q => c M * S q, fun q hq => hc.mul (h1 q hq), fun q hq => ?_, by simpa using h3.const_mul (c M), by simpa using h4.const_mul (c M)⟩
  exact ((h2 q hq).const_mul (c M)).congr_deriv (by ring)

theorem Spec.IsMassDerivative.pointwise {f' : ℝ → ℂ} (h : ∀ q, 0 < q → HasDerivAt (fun M => f q M) (f' q) M) :
    Spec.IsMassDerivative f f' M :=
  ⟨f', fun _ => 0, h, fun q _ => (hasDerivAt_const q (0 : ℂ)).congr_deriv (by ring), tendsto_const_nhds, tendsto_const_nhds⟩

theorem Spec.IsMassDerivative.indep (a : ℝ → ℂ) : Spec.IsMassDerivative (fun q _ => a q) (fun _ => 0) M :=
  .pointwise fun q _ => hasDerivAt_const M (a q)

theorem Spec.IsMassDerivative.congrOn (h : Spec.IsMassDerivative f d M) (hM : 0 < M) (hf : ∀ q, 0 < q → ∀ M', 0 < M' → g q M' = f q M')
    (hd : ∀ q, 0 < q → e q = d q) : Spec.IsMassDerivative g e M := by
  obtain ⟨f', S, h1, h2, h3, h4⟩ := h
  refine ⟨f', S, fun q hq => (h1 q hq).congr_of_eventuallyEq ?_, fun q hq => by rw [hd q hq]; exact h2 q hq, h3, h4⟩
  filter_upwards [Ioi_mem_nhds hM] with x hx
  exact hf q hq x hx

end

/-- Coefficients: `a/M² + b/M + c + e M`. -/
theorem laurent_deriv (a b c e : ℂ) {M : ℝ} (hM : 0 < M) :
    HasDerivAt (fun M : ℝ => a * ((M : ℂ)⁻¹ * (M : ℂ)⁻¹) + b * (M : ℂ)⁻¹ + c + e * (M : ℂ)) (-2 * a * (M : ℂ)⁻¹ ^ 3 - b * (M : ℂ)⁻¹ ^ 2 + e) M := by
  have hM0 : (M : ℂ) ≠ 0 := by exact_mod_cast hM.ne'
  have h1 : HasDerivAt (fun M : ℝ => (M : ℂ)) 1 M := Complex.ofRealCLM.hasDerivAt
  have h2 := h1.fun_inv hM0
  have h := ((((h2.fun_mul h2).const_mul a).add (h2.const_mul b)).add_const c).add (h1.const_mul e)
  refine h.congr_deriv ?_
  field_simp
  ring

end Qcd
