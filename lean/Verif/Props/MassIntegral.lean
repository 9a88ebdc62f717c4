import Verif.Lemmas.MassLipschitz
import Verif.Lemmas.DominationParts
import Verif.Props.MassDerivativeSpecial
import Verif.Props.MassDerivativeTotal
import Verif.Props.ThermalLoopSpecial
import Verif.Props.ThermalLoopQuark

/-! # C82: the derivative functions integrate to the mass derivatives of the integrals

Specification: `IsIntegralDerivative` in `Verif/Spec/MassDerivative.lean`. -/

namespace Qcd
open Set MeasureTheory Filter Topology
open Spec (IsIntegralDerivative)

variable {T T1 T2 : Type} [Num T] [Num T1] [Num T2]

theorem sqrt_bl {a b : ℝ} (ha : 0 < a) : BL (Icc a b) fun _ _ M => ((√M : ℝ) : ℂ) ^ 2 :=
  BL.id.congr fun q _ z _ M hM => by rw [← Complex.ofReal_pow, Real.sq_sqrt (ha.le.trans hM.1)]

theorem loop_same_bl {N : ℝ → ℂ → ℝ → ℂ} {a b om p beta : ℝ} (ha : 0 < a) (hN : NumBL (Icc a b) N) (hc : ∀ q w, Continuous fun z => N q w z)
    (ho : om ≠ 0) (hb : 0 < beta) :
    BL (Icc a b) fun q _ M => ((Real.exp (beta * q) : ℝ) : ℂ) * Spec.loop (N q) q om p (√M : ℝ) (√M : ℝ) beta := by
  have := leg_massive_bl hN hc (p := p) ho (Massive.id ha) (sqrt_bl ha) hb
  refine (this.add this).congr fun q _ z _ M _ => ?_
  rw [Spec.loop]; ring

theorem loop_zero_bl {N : ℝ → ℂ → ℝ → ℂ} {a b om p beta : ℝ} (ha : 0 < a) (hN : NumBL (Icc a b) N) (hc : ∀ q w, Continuous fun z => N q w z)
    (ho : om ≠ 0) (hb : 0 < beta) :
    BL (Icc a b) fun q _ M => ((Real.exp (beta * q) : ℝ) : ℂ) * Spec.loop (N q) q om p (√M : ℝ) 0 beta := by
  have h1 := leg_massive_bl hN hc (p := p) (m' := fun _ => 0) ho (Massive.id ha) (.const _) hb
  have h2 := leg_massless_bl hN hc (p := p) ho (sqrt_bl ha) hb
  refine (h1.add h2).congr fun q _ z _ M _ => ?_
  rw [Spec.loop, Complex.ofReal_zero]; ring

theorem loop_fixed_bl {N : ℝ → ℂ → ℝ → ℂ} {a b om p beta m2 : ℝ} (ha : 0 < a) (hN : NumBL (Icc a b) N) (hc : ∀ q w, Continuous fun z => N q w z)
    (ho : om ≠ 0) (hb : 0 < beta) (hm : 0 < m2) :
    BL (Icc a b) fun q _ M => ((Real.exp (beta * q) : ℝ) : ℂ) * Spec.loop (N q) q om p (√M : ℝ) m2 beta := by
  have h1 := leg_massive_bl hN hc (p := p) (m' := fun _ => m2) ho (Massive.id ha) (.const _) hb
  have h2 := leg_massive_bl hN hc (p := p) ho (Massive.const (c := m2 ^ 2) (by positivity)) (sqrt_bl ha) hb
  refine (h1.add h2).congr fun q _ z _ M _ => ?_
  rw [Spec.loop, Real.sqrt_sq hm.le]; ring

/-- The interval used: a neighbourhood of `M`. -/
theorem integralDerivative_of {f : ℝ → ℝ → ℂ} {d : ℝ → ℂ} {M beta : ℝ} (hM : 0 < M) (hb : 0 < beta) (h : Spec.IsMassDerivative f d M)
    (hl : BL (Icc (M / 2) (2 * M)) fun q _ M => ((Real.exp (beta * q) : ℝ) : ℂ) * f q M)
    (hi : ∀ M', 0 < M' → IntegrableOn (fun q => f q M') (Ioi 0)) (hd : IntegrableOn d (Ioi 0)) : IsIntegralDerivative f d M :=
  h.integral (by linarith) (by linarith) hb hl (by filter_upwards [Ioi_mem_nhds hM] with M' hM' using hi M' hM') hd

theorem cont_scalar : ∀ (_ : ℝ) (_ : ℂ), Continuous fun z => Spec.scalar 0 z := fun _ _ => continuous_const
theorem cont_longitudinal (om p : ℂ) : ∀ (q : ℝ) (w : ℂ), Continuous fun z => Spec.longitudinal q om p w z := fun q w => by
  unfold Spec.longitudinal; fun_prop
theorem cont_transverse : ∀ (q : ℝ) (w : ℂ), Continuous fun z => Spec.transverse q w z := fun q w => by
  unfold Spec.transverse; fun_prop

/-- Real part of a smaller interval: positive. -/
theorem pos_of_mem {M x : ℝ} (hM : 0 < M) (hx : x ∈ Icc (M / 2) (2 * M)) : 0 < x := by linarith [hx.1]

/-- **C82**: `d_i_m_m_i_same_mass` (both masses varied). -/
theorem C82_d_i_m_m_i_same_mass {om p M beta : ℝ} (ho : om ≠ 0) (hp : p ≠ 0) (hM : 0 < M) (hb : 0 < beta) :
    IsIntegralDerivative (fun q M' => thermal.i_m_m_i_same_mass q (ofR om : T1) p √M' beta)
      (fun q => 2 * thermal.d_i_m_m_i_same_mass q (ofR om : T1) p √M beta) M := by
  have e1 : ∀ (q : ℝ) (m : ℝ), thermal.i_m_m_i_same_mass q (ofR om : T1) p m beta = thermal.i_m_m_i_same_mass q (om : ℂ) p m beta := fun q m => by
    rw [toC_thermal_i_m_m_i_same_mass, toC_thermal_i_m_m_i_same_mass q (om : ℂ), toC_ofR, toC_complex]
  have e2 : ∀ (q : ℝ) (m : ℝ), thermal.d_i_m_m_i_same_mass q (ofR om : T1) p m beta = thermal.d_i_m_m_i_same_mass q (om : ℂ) p m beta := fun q m => by
    rw [toC_thermal_d_i_m_m_i_same_mass, toC_thermal_d_i_m_m_i_same_mass q (om : ℂ), toC_ofR, toC_complex]
  have e3 : ∀ (q : ℝ) (m : ℝ), thermal.i_m_m_i_same_mass q om p m beta = thermal.i_m_m_i_same_mass q (om : ℂ) p m beta := fun q m => by
    rw [toC_thermal_i_m_m_i_same_mass, toC_thermal_i_m_m_i_same_mass q (om : ℂ), toC_real, toC_complex]
  have e4 : ∀ (q : ℝ) (m : ℝ), thermal.d_i_m_m_i_same_mass q om p m beta = thermal.d_i_m_m_i_same_mass q (om : ℂ) p m beta := fun q m => by
    rw [toC_thermal_d_i_m_m_i_same_mass, toC_thermal_d_i_m_m_i_same_mass q (om : ℂ), toC_real, toC_complex]
  simp only [e1, e2]
  refine integralDerivative_of hM hb (C39_d_i_m_m_i_same_mass_total (by simpa using ho) hb hM hp (by simpa using hM)) ?_ (fun M' hM' => ?_) ?_
  · refine (loop_same_bl (a := M / 2) (b := 2 * M) (by linarith) numBL_scalar (fun _ _ => continuous_const) (p := p) ho hb).congr fun q hq z hz x hx => ?_
    have r := C62_regular_real hq ho p √x √x
    have := C62_i_m_m_i_same_mass (q := q) (om := (om : ℂ)) (p := p) (m := √x) hq.ne' hp (by simpa using r) beta
    rw [this]; simp
  · simpa only [e3] using (dom_i_m_m_i_same_mass (p := p) hb ho (Real.sqrt_pos.2 hM').ne').integrable hb le_rfl
  · have := (dom_d_i_m_m_i_same_mass (p := p) hb ho (Real.sqrt_pos.2 hM).ne').integrable hb le_rfl
    simp only [e4] at this
    exact this.const_mul 2

/-- **C82**: `d_i_m_0_i`. -/
theorem C82_d_i_m_0_i {om p M beta : ℝ} (ho : om ≠ 0) (hp : p ≠ 0) (hM : 0 < M) (hb : 0 < beta) :
    IsIntegralDerivative (fun q M' => thermal.i_m_0_i q (ofR om : T1) p √M' beta)
      (fun q => thermal.d_i_m_0_i q (ofR om : T1) p √M beta) M := by
  have e1 : ∀ (q : ℝ) (m : ℝ), thermal.i_m_0_i q (ofR om : T1) p m beta = thermal.i_m_0_i q (om : ℂ) p m beta := fun q m => by
    rw [toC_thermal_i_m_0_i, toC_thermal_i_m_0_i q (om : ℂ), toC_ofR, toC_complex]
  have e2 : ∀ (q : ℝ) (m : ℝ), thermal.d_i_m_0_i q (ofR om : T1) p m beta = thermal.d_i_m_0_i q (om : ℂ) p m beta := fun q m => by
    rw [toC_thermal_d_i_m_0_i, toC_thermal_d_i_m_0_i q (om : ℂ), toC_ofR, toC_complex]
  have e3 : ∀ (q : ℝ) (m : ℝ), thermal.i_m_0_i q om p m beta = thermal.i_m_0_i q (om : ℂ) p m beta := fun q m => by
    rw [toC_thermal_i_m_0_i, toC_thermal_i_m_0_i q (om : ℂ), toC_real, toC_complex]
  have e4 : ∀ (q : ℝ) (m : ℝ), thermal.d_i_m_0_i q om p m beta = thermal.d_i_m_0_i q (om : ℂ) p m beta := fun q m => by
    rw [toC_thermal_d_i_m_0_i, toC_thermal_d_i_m_0_i q (om : ℂ), toC_real, toC_complex]
  simp only [e1, e2]
  refine integralDerivative_of hM hb (C39_d_i_m_0_i ho hb hM hp) ?_ (fun M' hM' => ?_) ?_
  · refine (loop_zero_bl (a := M / 2) (b := 2 * M) (by linarith) numBL_scalar (fun _ _ => continuous_const) (p := p) ho hb).congr fun q hq z hz x hx => ?_
    have r := C62_regular_real hq ho p √x 0
    have := C62_i_m_0_i (q := q) (om := (om : ℂ)) (p := p) (m := √x) hq hp (by simpa using r) beta
    rw [this]; simp
  · simpa only [e3] using (dom_i_m_0_i (p := p) hb ho (Real.sqrt_pos.2 hM').ne').integrable hb le_rfl
  · have := (dom_d_i_m_0_i (p := p) hb ho (Real.sqrt_pos.2 hM).ne').integrable hb le_rfl
    simp only [e4] at this
    exact this

/-- **C82**: `d_i_m_m_l_i_same_mass` (both masses varied). -/
theorem C82_d_i_m_m_l_i_same_mass {om p M beta : ℝ} (ho : om ≠ 0) (hp : p ≠ 0) (hM : 0 < M) (hb : 0 < beta) :
    IsIntegralDerivative (fun q M' => thermal.i_m_m_l_i_same_mass q (ofR om : T1) p √M' beta)
      (fun q => 2 * thermal.d_i_m_m_l_i_same_mass q (ofR om : T1) p √M beta) M := by
  have e1 : ∀ (q : ℝ) (m : ℝ), thermal.i_m_m_l_i_same_mass q (ofR om : T1) p m beta = thermal.i_m_m_l_i_same_mass q (om : ℂ) p m beta := fun q m => by
    rw [toC_thermal_i_m_m_l_i_same_mass, toC_thermal_i_m_m_l_i_same_mass q (om : ℂ), toC_ofR, toC_complex]
  have e2 : ∀ (q : ℝ) (m : ℝ), thermal.d_i_m_m_l_i_same_mass q (ofR om : T1) p m beta = thermal.d_i_m_m_l_i_same_mass q (om : ℂ) p m beta := fun q m => by
    rw [toC_thermal_d_i_m_m_l_i_same_mass, toC_thermal_d_i_m_m_l_i_same_mass q (om : ℂ), toC_ofR, toC_complex]
  have e3 : ∀ (q : ℝ) (m : ℝ), thermal.i_m_m_l_i_same_mass q om p m beta = thermal.i_m_m_l_i_same_mass q (om : ℂ) p m beta := fun q m => by
    rw [toC_thermal_i_m_m_l_i_same_mass, toC_thermal_i_m_m_l_i_same_mass q (om : ℂ), toC_real, toC_complex]
  have e4 : ∀ (q : ℝ) (m : ℝ), thermal.d_i_m_m_l_i_same_mass q om p m beta = thermal.d_i_m_m_l_i_same_mass q (om : ℂ) p m beta := fun q m => by
    rw [toC_thermal_d_i_m_m_l_i_same_mass, toC_thermal_d_i_m_m_l_i_same_mass q (om : ℂ), toC_real, toC_complex]
  simp only [e1, e2]
  refine integralDerivative_of hM hb (C39_d_i_m_m_l_i_same_mass_total (by simpa using ho) hb hM hp (by simpa using hM)) ?_ (fun M' hM' => ?_) ?_
  · refine (loop_same_bl (a := M / 2) (b := 2 * M) (by linarith) (numBL_longitudinal om p) (cont_longitudinal om p) (p := p) ho hb).congr fun q hq z hz x hx => ?_
    have r := C62_regular_real hq ho p √x √x
    have := C62_i_m_m_l_i_same_mass (q := q) (om := (om : ℂ)) (p := p) (m := √x) hq.ne' hp (by exact_mod_cast ho) (by simpa using r) beta
    rw [this]; simp
  · simpa only [e3] using (dom_i_m_m_l_i_same_mass (p := p) hb ho (Real.sqrt_pos.2 hM').ne').integrable hb le_rfl
  · have := (dom_d_i_m_m_l_i_same_mass (p := p) hb ho (Real.sqrt_pos.2 hM).ne').integrable hb le_rfl
    simp only [e4] at this
    exact this.const_mul 2

/-- **C82**: `d_i_m_0_l_i`. -/
theorem C82_d_i_m_0_l_i {om p M beta : ℝ} (ho : om ≠ 0) (hp : p ≠ 0) (hM : 0 < M) (hb : 0 < beta) :
    IsIntegralDerivative (fun q M' => thermal.i_m_0_l_i q (ofR om : T1) p √M' beta)
      (fun q => thermal.d_i_m_0_l_i q (ofR om : T1) p √M beta) M := by
  have e1 : ∀ (q : ℝ) (m : ℝ), thermal.i_m_0_l_i q (ofR om : T1) p m beta = thermal.i_m_0_l_i q (om : ℂ) p m beta := fun q m => by
    rw [toC_thermal_i_m_0_l_i, toC_thermal_i_m_0_l_i q (om : ℂ), toC_ofR, toC_complex]
  have e2 : ∀ (q : ℝ) (m : ℝ), thermal.d_i_m_0_l_i q (ofR om : T1) p m beta = thermal.d_i_m_0_l_i q (om : ℂ) p m beta := fun q m => by
    rw [toC_thermal_d_i_m_0_l_i, toC_thermal_d_i_m_0_l_i q (om : ℂ), toC_ofR, toC_complex]
  have e3 : ∀ (q : ℝ) (m : ℝ), thermal.i_m_0_l_i q om p m beta = thermal.i_m_0_l_i q (om : ℂ) p m beta := fun q m => by
    rw [toC_thermal_i_m_0_l_i, toC_thermal_i_m_0_l_i q (om : ℂ), toC_real, toC_complex]
  have e4 : ∀ (q : ℝ) (m : ℝ), thermal.d_i_m_0_l_i q om p m beta = thermal.d_i_m_0_l_i q (om : ℂ) p m beta := fun q m => by
    rw [toC_thermal_d_i_m_0_l_i, toC_thermal_d_i_m_0_l_i q (om : ℂ), toC_real, toC_complex]
  simp only [e1, e2]
  refine integralDerivative_of hM hb (C39_d_i_m_0_l_i ho hb hM hp) ?_ (fun M' hM' => ?_) ?_
  · refine (loop_zero_bl (a := M / 2) (b := 2 * M) (by linarith) (numBL_longitudinal om p) (cont_longitudinal om p) (p := p) ho hb).congr fun q hq z hz x hx => ?_
    have r := C62_regular_real hq ho p √x 0
    have := C62_i_m_0_l_i (q := q) (om := (om : ℂ)) (p := p) (m := √x) hq hp (by exact_mod_cast ho) (by simpa using r) beta
    rw [this]; simp
  · simpa only [e3] using (dom_i_m_0_l_i (p := p) hb ho (Real.sqrt_pos.2 hM').ne').integrable hb le_rfl
  · have := (dom_d_i_m_0_l_i (p := p) hb ho (Real.sqrt_pos.2 hM).ne').integrable hb le_rfl
    simp only [e4] at this
    exact this

/-- **C82**: `d_i_m_m_t_i_same_mass` (both masses varied). -/
theorem C82_d_i_m_m_t_i_same_mass {om p M beta : ℝ} (ho : om ≠ 0) (hp : p ≠ 0) (hM : 0 < M) (hb : 0 < beta) :
    IsIntegralDerivative (fun q M' => thermal.i_m_m_t_i_same_mass q (ofR om : T1) p √M' beta)
      (fun q => 2 * thermal.d_i_m_m_t_i_same_mass q (ofR om : T1) p √M beta) M := by
  have e1 : ∀ (q : ℝ) (m : ℝ), thermal.i_m_m_t_i_same_mass q (ofR om : T1) p m beta = thermal.i_m_m_t_i_same_mass q (om : ℂ) p m beta := fun q m => by
    rw [toC_thermal_i_m_m_t_i_same_mass, toC_thermal_i_m_m_t_i_same_mass q (om : ℂ), toC_ofR, toC_complex]
  have e2 : ∀ (q : ℝ) (m : ℝ), thermal.d_i_m_m_t_i_same_mass q (ofR om : T1) p m beta = thermal.d_i_m_m_t_i_same_mass q (om : ℂ) p m beta := fun q m => by
    rw [toC_thermal_d_i_m_m_t_i_same_mass, toC_thermal_d_i_m_m_t_i_same_mass q (om : ℂ), toC_ofR, toC_complex]
  have e3 : ∀ (q : ℝ) (m : ℝ), thermal.i_m_m_t_i_same_mass q om p m beta = thermal.i_m_m_t_i_same_mass q (om : ℂ) p m beta := fun q m => by
    rw [toC_thermal_i_m_m_t_i_same_mass, toC_thermal_i_m_m_t_i_same_mass q (om : ℂ), toC_real, toC_complex]
  have e4 : ∀ (q : ℝ) (m : ℝ), thermal.d_i_m_m_t_i_same_mass q om p m beta = thermal.d_i_m_m_t_i_same_mass q (om : ℂ) p m beta := fun q m => by
    rw [toC_thermal_d_i_m_m_t_i_same_mass, toC_thermal_d_i_m_m_t_i_same_mass q (om : ℂ), toC_real, toC_complex]
  simp only [e1, e2]
  refine integralDerivative_of hM hb (C39_d_i_m_m_t_i_same_mass_total (by simpa using ho) hb hM hp (by simpa using hM)) ?_ (fun M' hM' => ?_) ?_
  · refine (loop_same_bl (a := M / 2) (b := 2 * M) (by linarith) numBL_transverse cont_transverse (p := p) ho hb).congr fun q hq z hz x hx => ?_
    have r := C62_regular_real hq ho p √x √x
    have := C62_i_m_m_t_i_same_mass (q := q) (om := (om : ℂ)) (p := p) (m := √x) hq.ne' hp (by simpa using r) beta
    rw [this]; simp
  · simpa only [e3] using (dom_i_m_m_t_i_same_mass (p := p) hb ho (Real.sqrt_pos.2 hM').ne').integrable hb le_rfl
  · have := (dom_d_i_m_m_t_i_same_mass (p := p) hb ho (Real.sqrt_pos.2 hM).ne').integrable hb le_rfl
    simp only [e4] at this
    exact this.const_mul 2

/-- **C82**: `d_i_m_0_t_i`. -/
theorem C82_d_i_m_0_t_i {om p M beta : ℝ} (ho : om ≠ 0) (hp : p ≠ 0) (hM : 0 < M) (hb : 0 < beta) :
    IsIntegralDerivative (fun q M' => thermal.i_m_0_t_i q (ofR om : T1) p √M' beta)
      (fun q => thermal.d_i_m_0_t_i q (ofR om : T1) p √M beta) M := by
  have e1 : ∀ (q : ℝ) (m : ℝ), thermal.i_m_0_t_i q (ofR om : T1) p m beta = thermal.i_m_0_t_i q (om : ℂ) p m beta := fun q m => by
    rw [toC_thermal_i_m_0_t_i, toC_thermal_i_m_0_t_i q (om : ℂ), toC_ofR, toC_complex]
  have e2 : ∀ (q : ℝ) (m : ℝ), thermal.d_i_m_0_t_i q (ofR om : T1) p m beta = thermal.d_i_m_0_t_i q (om : ℂ) p m beta := fun q m => by
    rw [toC_thermal_d_i_m_0_t_i, toC_thermal_d_i_m_0_t_i q (om : ℂ), toC_ofR, toC_complex]
  have e3 : ∀ (q : ℝ) (m : ℝ), thermal.i_m_0_t_i q om p m beta = thermal.i_m_0_t_i q (om : ℂ) p m beta := fun q m => by
    rw [toC_thermal_i_m_0_t_i, toC_thermal_i_m_0_t_i q (om : ℂ), toC_real, toC_complex]
  have e4 : ∀ (q : ℝ) (m : ℝ), thermal.d_i_m_0_t_i q om p m beta = thermal.d_i_m_0_t_i q (om : ℂ) p m beta := fun q m => by
    rw [toC_thermal_d_i_m_0_t_i, toC_thermal_d_i_m_0_t_i q (om : ℂ), toC_real, toC_complex]
  simp only [e1, e2]
  refine integralDerivative_of hM hb (C39_d_i_m_0_t_i ho hb hM hp) ?_ (fun M' hM' => ?_) ?_
  · refine (loop_zero_bl (a := M / 2) (b := 2 * M) (by linarith) numBL_transverse cont_transverse (p := p) ho hb).congr fun q hq z hz x hx => ?_
    have r := C62_regular_real hq ho p √x 0
    have := C62_i_m_0_t_i (q := q) (om := (om : ℂ)) (p := p) (m := √x) hq hp (by simpa using r) beta
    rw [this]; simp
  · simpa only [e3] using (dom_i_m_0_t_i (p := p) hb ho (Real.sqrt_pos.2 hM').ne').integrable hb le_rfl
  · have := (dom_d_i_m_0_t_i (p := p) hb ho (Real.sqrt_pos.2 hM).ne').integrable hb le_rfl
    simp only [e4] at this
    exact this

/-- **C82**: `d_j_m_i`. -/
theorem C82_d_j_m_i {M beta : ℝ} (hM : 0 < M) (hb : 0 < beta) :
    IsIntegralDerivative (fun q M' => toC (thermal.j_m_i q (ofR √M' : T) beta)) (fun q => toC (thermal.d_j_m_i q (ofR √M : T) beta)) M := by
  have e1 : ∀ (q m : ℝ), toC (thermal.j_m_i q (ofR m : T) beta) = ((thermal.j_m_i q m beta : ℝ) : ℂ) := fun q m => by
    rw [toC_thermal_j_m_i, toC_ofR, ← toC_real m, ← toC_thermal_j_m_i, toC_real]
  have e2 : ∀ (q m : ℝ), toC (thermal.d_j_m_i q (ofR m : T) beta) = ((thermal.d_j_m_i q m beta : ℝ) : ℂ) := fun q m => by
    rw [toC_thermal_d_j_m_i, toC_ofR, ← toC_real m, ← toC_thermal_d_j_m_i, toC_real]
  simp only [e1, e2]
  refine integralDerivative_of hM hb ((C39_tadpoles hb hM).1) ?_ (fun M' hM' => ?_) ?_
  · have B := (Massive.id (a := M / 2) (b := 2 * M) (by linarith)).bose hb
    have Ei := (Massive.id (a := M / 2) (b := 2 * M) (by linarith)).eK_inv
    have Ee := (Massive.id (a := M / 2) (b := 2 * M) (by linarith)).eK
    refine (((BL.q.sq.div_const (2 * PI2)).mul B).mul Ei).congr fun q hq z hz x hx => ?_
    simp only [thermal.j_m_i, ofR_real, energy_sqrt (pos_of_mem hM hx).le]
    push_cast
    ring
  · exact (dom_j_m_i hb (Real.sqrt_pos.2 hM').ne').integrable hb le_rfl
  · exact (dom_d_j_m_i hb (Real.sqrt_pos.2 hM).ne').integrable hb le_rfl

/-- **C82**: `d_j_m_l_i`. -/
theorem C82_d_j_m_l_i {M beta : ℝ} (hM : 0 < M) (hb : 0 < beta) :
    IsIntegralDerivative (fun q M' => toC (thermal.j_m_l_i q (ofR √M' : T) beta)) (fun q => toC (thermal.d_j_m_l_i q (ofR √M : T) beta)) M := by
  have e1 : ∀ (q m : ℝ), toC (thermal.j_m_l_i q (ofR m : T) beta) = ((thermal.j_m_l_i q m beta : ℝ) : ℂ) := fun q m => by
    rw [toC_thermal_j_m_l_i, toC_ofR, ← toC_real m, ← toC_thermal_j_m_l_i, toC_real]
  have e2 : ∀ (q m : ℝ), toC (thermal.d_j_m_l_i q (ofR m : T) beta) = ((thermal.d_j_m_l_i q m beta : ℝ) : ℂ) := fun q m => by
    rw [toC_thermal_d_j_m_l_i, toC_ofR, ← toC_real m, ← toC_thermal_d_j_m_l_i, toC_real]
  simp only [e1, e2]
  refine integralDerivative_of hM hb ((C39_tadpoles hb hM).2.1) ?_ (fun M' hM' => ?_) ?_
  · have B := (Massive.id (a := M / 2) (b := 2 * M) (by linarith)).bose hb
    have Ei := (Massive.id (a := M / 2) (b := 2 * M) (by linarith)).eK_inv
    have Ee := (Massive.id (a := M / 2) (b := 2 * M) (by linarith)).eK
    refine (((BL.q.sq.div_const (-(2 * PI2))).mul B).mul Ee).congr fun q hq z hz x hx => ?_
    simp only [thermal.j_m_l_i, ofR_real, energy_sqrt (pos_of_mem hM hx).le]
    push_cast
    ring
  · exact (dom_j_m_l_i hb (Real.sqrt_pos.2 hM').ne').integrable hb le_rfl
  · exact (dom_d_j_m_l_i hb (Real.sqrt_pos.2 hM).ne').integrable hb le_rfl

/-- **C82**: `d_j_m_t_i`. -/
theorem C82_d_j_m_t_i {M beta : ℝ} (hM : 0 < M) (hb : 0 < beta) :
    IsIntegralDerivative (fun q M' => toC (thermal.j_m_t_i q (ofR √M' : T) beta)) (fun q => toC (thermal.d_j_m_t_i q (ofR √M : T) beta)) M := by
  have e1 : ∀ (q m : ℝ), toC (thermal.j_m_t_i q (ofR m : T) beta) = ((thermal.j_m_t_i q m beta : ℝ) : ℂ) := fun q m => by
    rw [toC_thermal_j_m_t_i, toC_ofR, ← toC_real m, ← toC_thermal_j_m_t_i, toC_real]
  have e2 : ∀ (q m : ℝ), toC (thermal.d_j_m_t_i q (ofR m : T) beta) = ((thermal.d_j_m_t_i q m beta : ℝ) : ℂ) := fun q m => by
    rw [toC_thermal_d_j_m_t_i, toC_ofR, ← toC_real m, ← toC_thermal_d_j_m_t_i, toC_real]
  simp only [e1, e2]
  refine integralDerivative_of hM hb ((C39_tadpoles hb hM).2.2.1) ?_ (fun M' hM' => ?_) ?_
  · have B := (Massive.id (a := M / 2) (b := 2 * M) (by linarith)).bose hb
    have Ei := (Massive.id (a := M / 2) (b := 2 * M) (by linarith)).eK_inv
    have Ee := (Massive.id (a := M / 2) (b := 2 * M) (by linarith)).eK
    refine (((BL.q.sq.sq.div_const (6 * PI2)).mul B).mul Ei).congr fun q hq z hz x hx => ?_
    simp only [thermal.j_m_t_i, ofR_real, energy_sqrt (pos_of_mem hM hx).le]
    push_cast
    ring
  · exact (dom_j_m_t_i hb (Real.sqrt_pos.2 hM').ne').integrable hb le_rfl
  · exact (dom_d_j_m_t_i hb (Real.sqrt_pos.2 hM).ne').integrable hb le_rfl

/-- **C82**: `d2_j_m_t_i`. -/
theorem C82_d2_j_m_t_i {M beta : ℝ} (hM : 0 < M) (hb : 0 < beta) :
    IsIntegralDerivative (fun q M' => toC (thermal.d_j_m_t_i q (ofR √M' : T) beta)) (fun q => toC (thermal.d2_j_m_t_i q (ofR √M : T) beta)) M := by
  have e1 : ∀ (q m : ℝ), toC (thermal.d_j_m_t_i q (ofR m : T) beta) = ((thermal.d_j_m_t_i q m beta : ℝ) : ℂ) := fun q m => by
    rw [toC_thermal_d_j_m_t_i, toC_ofR, ← toC_real m, ← toC_thermal_d_j_m_t_i, toC_real]
  have e2 : ∀ (q m : ℝ), toC (thermal.d2_j_m_t_i q (ofR m : T) beta) = ((thermal.d2_j_m_t_i q m beta : ℝ) : ℂ) := fun q m => by
    rw [toC_thermal_d2_j_m_t_i, toC_ofR, ← toC_real m, ← toC_thermal_d2_j_m_t_i, toC_real]
  simp only [e1, e2]
  refine integralDerivative_of hM hb ((C39_tadpoles hb hM).2.2.2) ?_ (fun M' hM' => ?_) ?_
  · have B := (Massive.id (a := M / 2) (b := 2 * M) (by linarith)).bose hb
    have Ei := (Massive.id (a := M / 2) (b := 2 * M) (by linarith)).eK_inv
    have Ee := (Massive.id (a := M / 2) (b := 2 * M) (by linarith)).eK
    refine (((BL.q.sq.div_const (-(4 * PI2))).mul B).mul Ei).congr fun q hq z hz x hx => ?_
    simp only [thermal.d_j_m_t_i, ofR_real, energy_sqrt (pos_of_mem hM hx).le]
    push_cast
    ring
  · exact (dom_d_j_m_t_i hb (Real.sqrt_pos.2 hM').ne').integrable hb le_rfl
  · exact (dom_d2_j_m_t_i hb (Real.sqrt_pos.2 hM).ne').integrable hb le_rfl

/-- **C82**: `d2_j_m_i`. -/
theorem C82_d2_j_m_i {M beta : ℝ} (hM : 0 < M) (hb : 0 < beta) :
    IsIntegralDerivative (fun q M' => toC (thermal.d_j_m_i q (ofR √M' : T) beta)) (fun q => toC (thermal.d2_j_m_i q (ofR √M : T) beta)) M := by
  have e1 : ∀ (q m : ℝ), toC (thermal.d_j_m_i q (ofR m : T) beta) = ((thermal.d_j_m_i q m beta : ℝ) : ℂ) := fun q m => by
    rw [toC_thermal_d_j_m_i, toC_ofR, ← toC_real m, ← toC_thermal_d_j_m_i, toC_real]
  have e2 : ∀ (q m : ℝ), toC (thermal.d2_j_m_i q (ofR m : T) beta) = ((thermal.d2_j_m_i q m beta : ℝ) : ℂ) := fun q m => by
    rw [toC_thermal_d2_j_m_i, toC_ofR, ← toC_real m, ← toC_thermal_d2_j_m_i, toC_real]
  simp only [e1, e2]
  refine integralDerivative_of hM hb (.pointwise fun q _ => (C39_second_derivatives hb hM).1.ofReal_comp) ?_ (fun M' hM' => ?_) ?_
  · have B := (Massive.id (a := M / 2) (b := 2 * M) (by linarith)).bose hb
    have Ei := (Massive.id (a := M / 2) (b := 2 * M) (by linarith)).eK_inv
    have Ee := (Massive.id (a := M / 2) (b := 2 * M) (by linarith)).eK
    refine (((BL.const (-(4 * PI2 : ℂ)⁻¹)).mul B).mul Ei).congr fun q hq z hz x hx => ?_
    simp only [thermal.d_j_m_i, ofR_real, energy_sqrt (pos_of_mem hM hx).le]
    push_cast
    ring
  · exact (dom_d_j_m_i hb (Real.sqrt_pos.2 hM').ne').integrable hb le_rfl
  · exact (dom_d2_j_m_i hb (Real.sqrt_pos.2 hM).ne').integrable hb le_rfl

/-- **C82**: `d2_j_m_l_i`. -/
theorem C82_d2_j_m_l_i {M beta : ℝ} (hM : 0 < M) (hb : 0 < beta) :
    IsIntegralDerivative (fun q M' => toC (thermal.d_j_m_l_i q (ofR √M' : T) beta)) (fun q => toC (thermal.d2_j_m_l_i q (ofR √M : T) beta)) M := by
  have e1 : ∀ (q m : ℝ), toC (thermal.d_j_m_l_i q (ofR m : T) beta) = ((thermal.d_j_m_l_i q m beta : ℝ) : ℂ) := fun q m => by
    rw [toC_thermal_d_j_m_l_i, toC_ofR, ← toC_real m, ← toC_thermal_d_j_m_l_i, toC_real]
  have e2 : ∀ (q m : ℝ), toC (thermal.d2_j_m_l_i q (ofR m : T) beta) = ((thermal.d2_j_m_l_i q m beta : ℝ) : ℂ) := fun q m => by
    rw [toC_thermal_d2_j_m_l_i, toC_ofR, ← toC_real m, ← toC_thermal_d2_j_m_l_i, toC_real]
  simp only [e1, e2]
  refine integralDerivative_of hM hb (.pointwise fun q _ => (C39_second_derivatives hb hM).2.ofReal_comp) ?_ (fun M' hM' => ?_) ?_
  · have B := (Massive.id (a := M / 2) (b := 2 * M) (by linarith)).bose hb
    have Ei := (Massive.id (a := M / 2) (b := 2 * M) (by linarith)).eK_inv
    have Ee := (Massive.id (a := M / 2) (b := 2 * M) (by linarith)).eK
    refine (((BL.const ((4 * PI2 : ℂ)⁻¹)).mul B).mul Ee).congr fun q hq z hz x hx => ?_
    simp only [thermal.d_j_m_l_i, ofR_real, energy_sqrt (pos_of_mem hM hx).le]
    push_cast
    ring
  · exact (dom_d_j_m_l_i hb (Real.sqrt_pos.2 hM').ne').integrable hb le_rfl
  · exact (dom_d2_j_m_l_i hb (Real.sqrt_pos.2 hM).ne').integrable hb le_rfl

/-! ### Concrete cases -/

example : IsIntegralDerivative (fun q M' => thermal.i_m_m_i_same_mass q (ofR (2 : ℝ) : ℂ) (3 : ℝ) √M' 1)
    (fun q => 2 * thermal.d_i_m_m_i_same_mass q (ofR (2 : ℝ) : ℂ) (3 : ℝ) √(1 / 2) 1) (1 / 2) :=
  C82_d_i_m_m_i_same_mass two_ne_zero three_ne_zero (by norm_num) one_pos

example : IsIntegralDerivative (fun q M' => toC (thermal.d_j_m_i q (ofR √M' : ℝ) 2)) (fun q => toC (thermal.d2_j_m_i q (ofR √3 : ℝ) 2)) 3 :=
  C82_d2_j_m_i three_pos two_pos

end Qcd
