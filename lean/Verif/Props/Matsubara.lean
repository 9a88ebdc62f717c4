import Verif.Lemmas.MatsubaraLoops
import Verif.Props.ThermalLoopSpecial
import Verif.Props.ThermalLoopQuark
import Verif.Props.Diagrams

/-! # C81: the thermal integrals are sums over Matsubara frequencies minus integrals over the energy

Specification: `Verif/Spec/Matsubara.lean`. The external frequency is a Matsubara frequency `2πlT`, not zero. -/

namespace Qcd
open Spec (external twoPropagators onePropagator projected polL polT IsThermalIntegrand)
open Set MeasureTheory Matsubara

variable {T T1 T2 T3 : Type} [Num T] [Num T1] [Num T2] [Num T3]

theorem freq {om beta : ℝ} {l : ℤ} (ho : om = 2 * Real.pi * l / beta) (hl : l ≠ 0) (hb : 0 < beta) : om ≠ 0 ∧ beta * om = 2 * Real.pi * l := by
  have hl' : (l : ℝ) ≠ 0 := by exact_mod_cast hl
  refine ⟨?_, by rw [ho]; field_simp⟩
  rw [ho]
  positivity

theorem thermalIntegrand_two {om p beta : ℝ} {N : Spec.Vec → ℂ} {V : Pol} {N' : ℝ → ℂ → ℝ → ℂ} (h : IsNum om p N V N') (ho : om ≠ 0)
    {l : ℤ} (hl : beta * om = 2 * Real.pi * l) (hb : 0 < beta) (m1 m2 : ℝ) {f : ℝ → ℂ}
    (hf : ∀ q, 0 < q → f q = Spec.loop (N' q) q om p m1 m2 beta) :
    IsThermalIntegrand (twoPropagators N (external om p) m1 m2) beta f := by
  have hi : Function.Injective fun _ : Fin 1 => m1 ^ 2 := fun a b _ => Subsingleton.elim a b
  have hi2 : Function.Injective fun _ : Fin 1 => m2 ^ 2 := fun a b _ => Subsingleton.elim a b
  obtain ⟨t, i⟩ := (isDiagram_two h m1 m2).thermal hi hi2 ho (by simpa using h.deg) hb hl
  have e : ∀ q, 0 < q → ∑ a : Fin 1, Spec.line (twoPropagators N (external om p) m1 m2) q m1 beta
      + ∑ b : Fin 1, Spec.line (swapped om p (twoPropagators N (external om p) m1 m2)) q m2 beta = f q := fun q hq => by
    rw [Finset.sum_const, Finset.sum_const, hf q hq, ← lines_two h ho m1 m2 hq]; simp
  refine ⟨i.congr_fun (fun q hq => e q hq) measurableSet_Ioi, ?_⟩
  rw [← setIntegral_congr_fun measurableSet_Ioi fun q hq => e q hq]
  exact t

theorem thermalIntegrand_one {om p beta : ℝ} (ho : om ≠ 0) {l : ℤ} (hl : beta * om = 2 * Real.pi * l) (hb : 0 < beta) (m : ℝ) {f : ℝ → ℂ}
    (hf : ∀ q, 0 < q → f q = Spec.tadpole Spec.scalar q m beta) : IsThermalIntegrand (onePropagator m) beta f := by
  have hi : Function.Injective fun _ : Fin 1 => m ^ 2 := fun a b _ => Subsingleton.elim a b
  obtain ⟨t, i⟩ := (isDiagram_one om p m).thermal hi injective_none ho (by simp) hb hl
  have e : ∀ q, 0 < q → ∑ a : Fin 1, Spec.line (onePropagator m) q m beta
      + ∑ b : Fin 0, Spec.line (swapped om p (onePropagator m)) q ((![] : Fin 0 → ℝ) b) beta = f q := fun q hq => by
    rw [Finset.sum_const, hf q hq, ← line_one m hq]; simp
  refine ⟨i.congr_fun (fun q hq => e q hq) measurableSet_Ioi, ?_⟩
  rw [← setIntegral_congr_fun measurableSet_Ioi fun q hq => e q hq]
  exact t

theorem num_one (om p : ℝ) : IsNum om p (fun _ => 1) 1 fun _ => Spec.scalar := isNum_one om p
theorem num_L {om : ℝ} (ho : om ≠ 0) (p : ℝ) : IsNum om p (projected (polL om p)) (pL om p) fun q => Spec.longitudinal q om p :=
  isNum_projected (isPolar_L ho p) fun q => polL_polarised (by
    have : om ^ 2 + p ^ 2 ≠ 0 := by positivity
    exact_mod_cast this) q
theorem num_T (om p : ℝ) : IsNum om p (projected polT) pT fun q => Spec.transverse q :=
  isNum_projected (isPolar_T om p) fun q => polT_polarised om p q

/-! ### Non-zero momentum -/

/-- **C81**: `i_m_m_i` is the integrand of the scalar loop. -/
theorem C81_i_m_m_i {om p m1 m2 beta : ℝ} {l : ℤ} (ho : om = 2 * Real.pi * l / beta) (hl : l ≠ 0) (hb : 0 < beta) (hp : p ≠ 0) :
    IsThermalIntegrand (twoPropagators (fun _ => 1) (external om p) m1 m2) beta fun q => thermal.i_m_m_i q (ofR om : T1) p (ofR m1 : T) (ofR m2 : T3) beta := by
  have h := freq ho hl hb
  refine thermalIntegrand_two (num_one om p) h.1 h.2 hb _ _ fun q hq => ?_
  have r := C62_regular_real hq h.1 p m1 m2
  have := C62_i_m_m_i (q := q) (om := (ofR om : T1)) (p := p) (m1 := (ofR m1 : T)) (m2 := (ofR m2 : T3)) hq.ne' hp
    (by simpa using r) beta
  simpa using this

/-- **C81**: `i_m_m_i_same_mass` is the integrand of the scalar loop. -/
theorem C81_i_m_m_i_same_mass {om p m beta : ℝ} {l : ℤ} (ho : om = 2 * Real.pi * l / beta) (hl : l ≠ 0) (hb : 0 < beta) (hp : p ≠ 0) :
    IsThermalIntegrand (twoPropagators (fun _ => 1) (external om p) m m) beta fun q => thermal.i_m_m_i_same_mass q (ofR om : T1) (ofR p : T2) (ofR m : T) beta := by
  have h := freq ho hl hb
  refine thermalIntegrand_two (num_one om p) h.1 h.2 hb _ _ fun q hq => ?_
  have r := C62_regular_real hq h.1 p m m
  have := C62_i_m_m_i_same_mass (q := q) (om := (ofR om : T1)) (p := (ofR p : T2)) (m := (ofR m : T)) hq.ne' (ofR_ne_zero hp)
    (by simpa using r) beta
  simpa using this

/-- **C81**: `i_m_0_i` is the integrand of the scalar loop. -/
theorem C81_i_m_0_i {om p m beta : ℝ} {l : ℤ} (ho : om = 2 * Real.pi * l / beta) (hl : l ≠ 0) (hb : 0 < beta) (hp : p ≠ 0) :
    IsThermalIntegrand (twoPropagators (fun _ => 1) (external om p) m 0) beta fun q => thermal.i_m_0_i q (ofR om : T1) (ofR p : T2) (ofR m : T) beta := by
  have h := freq ho hl hb
  refine thermalIntegrand_two (num_one om p) h.1 h.2 hb _ _ fun q hq => ?_
  have r := C62_regular_real hq h.1 p m 0
  have := C62_i_m_0_i (q := q) (om := (ofR om : T1)) (p := (ofR p : T2)) (m := (ofR m : T)) hq (ofR_ne_zero hp)
    (by simpa using r) beta
  simpa using this

/-- **C81**: `i_0_0_i` is the integrand of the scalar loop. -/
theorem C81_i_0_0_i {om p beta : ℝ} {l : ℤ} (ho : om = 2 * Real.pi * l / beta) (hl : l ≠ 0) (hb : 0 < beta) (hp : p ≠ 0) :
    IsThermalIntegrand (twoPropagators (fun _ => 1) (external om p) 0 0) beta fun q => thermal.i_0_0_i q (ofR om : T1) p beta := by
  have h := freq ho hl hb
  refine thermalIntegrand_two (num_one om p) h.1 h.2 hb _ _ fun q hq => ?_
  have r := C62_regular_real hq h.1 p 0 0
  have := C62_i_0_0_i (q := q) (om := (ofR om : T1)) (p := p) hq hp
    (by simpa using r) beta
  simpa using this

/-- **C81**: `i_m_m_l_i` is the integrand of the loop with longitudinal numerator. -/
theorem C81_i_m_m_l_i {om p m1 m2 beta : ℝ} {l : ℤ} (ho : om = 2 * Real.pi * l / beta) (hl : l ≠ 0) (hb : 0 < beta) (hp : p ≠ 0) :
    IsThermalIntegrand (twoPropagators (projected (polL om p)) (external om p) m1 m2) beta fun q => thermal.i_m_m_l_i q (ofR om : T1) p (ofR m1 : T) (ofR m2 : T3) beta := by
  have h := freq ho hl hb
  refine thermalIntegrand_two (num_L h.1 p) h.1 h.2 hb _ _ fun q hq => ?_
  have r := C62_regular_real hq h.1 p m1 m2
  have := C62_i_m_m_l_i (q := q) (om := (ofR om : T1)) (p := p) (m1 := (ofR m1 : T)) (m2 := (ofR m2 : T3)) hq.ne' hp (ofR_ne_zero h.1)
    (by simpa using r) beta
  simpa using this

/-- **C81**: `i_m_m_l_i_same_mass` is the integrand of the loop with longitudinal numerator. -/
theorem C81_i_m_m_l_i_same_mass {om p m beta : ℝ} {l : ℤ} (ho : om = 2 * Real.pi * l / beta) (hl : l ≠ 0) (hb : 0 < beta) (hp : p ≠ 0) :
    IsThermalIntegrand (twoPropagators (projected (polL om p)) (external om p) m m) beta fun q => thermal.i_m_m_l_i_same_mass q (ofR om : T1) (ofR p : T2) (ofR m : T) beta := by
  have h := freq ho hl hb
  refine thermalIntegrand_two (num_L h.1 p) h.1 h.2 hb _ _ fun q hq => ?_
  have r := C62_regular_real hq h.1 p m m
  have := C62_i_m_m_l_i_same_mass (q := q) (om := (ofR om : T1)) (p := (ofR p : T2)) (m := (ofR m : T)) hq.ne' (ofR_ne_zero hp) (ofR_ne_zero h.1)
    (by simpa using r) beta
  simpa using this

/-- **C81**: `i_m_0_l_i` is the integrand of the loop with longitudinal numerator. -/
theorem C81_i_m_0_l_i {om p m beta : ℝ} {l : ℤ} (ho : om = 2 * Real.pi * l / beta) (hl : l ≠ 0) (hb : 0 < beta) (hp : p ≠ 0) :
    IsThermalIntegrand (twoPropagators (projected (polL om p)) (external om p) m 0) beta fun q => thermal.i_m_0_l_i q (ofR om : T1) (ofR p : T2) (ofR m : T) beta := by
  have h := freq ho hl hb
  refine thermalIntegrand_two (num_L h.1 p) h.1 h.2 hb _ _ fun q hq => ?_
  have r := C62_regular_real hq h.1 p m 0
  have := C62_i_m_0_l_i (q := q) (om := (ofR om : T1)) (p := (ofR p : T2)) (m := (ofR m : T)) hq (ofR_ne_zero hp) (ofR_ne_zero h.1)
    (by simpa using r) beta
  simpa using this

/-- **C81**: `i_0_0_l_i` is the integrand of the loop with longitudinal numerator. -/
theorem C81_i_0_0_l_i {om p beta : ℝ} {l : ℤ} (ho : om = 2 * Real.pi * l / beta) (hl : l ≠ 0) (hb : 0 < beta) (hp : p ≠ 0) :
    IsThermalIntegrand (twoPropagators (projected (polL om p)) (external om p) 0 0) beta fun q => thermal.i_0_0_l_i q (ofR om : T1) (ofR p : T2) beta := by
  have h := freq ho hl hb
  refine thermalIntegrand_two (num_L h.1 p) h.1 h.2 hb _ _ fun q hq => ?_
  have r := C62_regular_real hq h.1 p 0 0
  have := C62_i_0_0_l_i (q := q) (om := (ofR om : T1)) (p := (ofR p : T2)) hq (ofR_ne_zero hp) (ofR_ne_zero h.1)
    (by simpa using r) beta
  simpa using this

/-- **C81**: `i_m_m_t_i` is the integrand of the loop with transverse numerator. -/
theorem C81_i_m_m_t_i {om p m1 m2 beta : ℝ} {l : ℤ} (ho : om = 2 * Real.pi * l / beta) (hl : l ≠ 0) (hb : 0 < beta) (hp : p ≠ 0) :
    IsThermalIntegrand (twoPropagators (projected polT) (external om p) m1 m2) beta fun q => thermal.i_m_m_t_i q (ofR om : T1) p (ofR m1 : T) (ofR m2 : T3) beta := by
  have h := freq ho hl hb
  refine thermalIntegrand_two (num_T om p) h.1 h.2 hb _ _ fun q hq => ?_
  have r := C62_regular_real hq h.1 p m1 m2
  have := C62_i_m_m_t_i (q := q) (om := (ofR om : T1)) (p := p) (m1 := (ofR m1 : T)) (m2 := (ofR m2 : T3)) hq.ne' hp
    (by simpa using r) beta
  simpa using this

/-- **C81**: `i_m_m_t_i_same_mass` is the integrand of the loop with transverse numerator. -/
theorem C81_i_m_m_t_i_same_mass {om p m beta : ℝ} {l : ℤ} (ho : om = 2 * Real.pi * l / beta) (hl : l ≠ 0) (hb : 0 < beta) (hp : p ≠ 0) :
    IsThermalIntegrand (twoPropagators (projected polT) (external om p) m m) beta fun q => thermal.i_m_m_t_i_same_mass q (ofR om : T1) p (ofR m : T) beta := by
  have h := freq ho hl hb
  refine thermalIntegrand_two (num_T om p) h.1 h.2 hb _ _ fun q hq => ?_
  have r := C62_regular_real hq h.1 p m m
  have := C62_i_m_m_t_i_same_mass (q := q) (om := (ofR om : T1)) (p := p) (m := (ofR m : T)) hq.ne' hp
    (by simpa using r) beta
  simpa using this

/-- **C81**: `i_m_0_t_i` is the integrand of the loop with transverse numerator. -/
theorem C81_i_m_0_t_i {om p m beta : ℝ} {l : ℤ} (ho : om = 2 * Real.pi * l / beta) (hl : l ≠ 0) (hb : 0 < beta) (hp : p ≠ 0) :
    IsThermalIntegrand (twoPropagators (projected polT) (external om p) m 0) beta fun q => thermal.i_m_0_t_i q (ofR om : T1) p (ofR m : T) beta := by
  have h := freq ho hl hb
  refine thermalIntegrand_two (num_T om p) h.1 h.2 hb _ _ fun q hq => ?_
  have r := C62_regular_real hq h.1 p m 0
  have := C62_i_m_0_t_i (q := q) (om := (ofR om : T1)) (p := p) (m := (ofR m : T)) hq hp
    (by simpa using r) beta
  simpa using this

/-- **C81**: `i_0_0_t_i` is the integrand of the loop with transverse numerator. -/
theorem C81_i_0_0_t_i {om p beta : ℝ} {l : ℤ} (ho : om = 2 * Real.pi * l / beta) (hl : l ≠ 0) (hb : 0 < beta) (hp : p ≠ 0) :
    IsThermalIntegrand (twoPropagators (projected polT) (external om p) 0 0) beta fun q => thermal.i_0_0_t_i q (ofR om : T1) p beta := by
  have h := freq ho hl hb
  refine thermalIntegrand_two (num_T om p) h.1 h.2 hb _ _ fun q hq => ?_
  have r := C62_regular_real hq h.1 p 0 0
  have := C62_i_0_0_t_i (q := q) (om := (ofR om : T1)) (p := p) hq hp
    (by simpa using r) beta
  simpa using this

/-! ### Zero momentum -/

/-- **C81**: `zero_momentum::i_m_m_i` is the integrand of the scalar loop. -/
theorem C81_zero_momentum_i_m_m_i {om m1 m2 beta : ℝ} {l : ℤ} (ho : om = 2 * Real.pi * l / beta) (hl : l ≠ 0) (hb : 0 < beta) :
    IsThermalIntegrand (twoPropagators (fun _ => 1) (external om (0 : ℝ)) m1 m2) beta fun q => thermal.zero_momentum.i_m_m_i q (ofR om : T1) (ofR m1 : T2) (ofR m2 : T3) beta := by
  have h := freq ho hl hb
  refine thermalIntegrand_two (num_one om 0) h.1 h.2 hb _ _ fun q hq => ?_
  have := C62_zero_momentum_i_m_m_i (q := q) (ofR om : T1) (ofR m1 : T2) (ofR m2 : T3) beta
  simpa using this

/-- **C81**: `zero_momentum::i_m_m_i_same_mass` is the integrand of the scalar loop. -/
theorem C81_zero_momentum_i_m_m_i_same_mass {om m beta : ℝ} {l : ℤ} (ho : om = 2 * Real.pi * l / beta) (hl : l ≠ 0) (hb : 0 < beta) :
    IsThermalIntegrand (twoPropagators (fun _ => 1) (external om (0 : ℝ)) m m) beta fun q => thermal.zero_momentum.i_m_m_i_same_mass q (ofR om : T1) (ofR m : T2) beta := by
  have h := freq ho hl hb
  refine thermalIntegrand_two (num_one om 0) h.1 h.2 hb _ _ fun q hq => ?_
  have := C62_zero_momentum_i_m_m_i_same_mass (q := q) (ofR om : T1) (ofR m : T2) beta
  simpa using this

/-- **C81**: `zero_momentum::i_m_0_i` is the integrand of the scalar loop. -/
theorem C81_zero_momentum_i_m_0_i {om m beta : ℝ} {l : ℤ} (ho : om = 2 * Real.pi * l / beta) (hl : l ≠ 0) (hb : 0 < beta) :
    IsThermalIntegrand (twoPropagators (fun _ => 1) (external om (0 : ℝ)) m 0) beta fun q => thermal.zero_momentum.i_m_0_i q (ofR om : T1) (ofR m : T2) beta := by
  have h := freq ho hl hb
  refine thermalIntegrand_two (num_one om 0) h.1 h.2 hb _ _ fun q hq => ?_
  have := C62_zero_momentum_i_m_0_i (q := q) hq (ofR om : T1) (ofR m : T2) beta
  simpa using this

/-- **C81**: `zero_momentum::i_0_0_i` is the integrand of the scalar loop. -/
theorem C81_zero_momentum_i_0_0_i {om beta : ℝ} {l : ℤ} (ho : om = 2 * Real.pi * l / beta) (hl : l ≠ 0) (hb : 0 < beta) :
    IsThermalIntegrand (twoPropagators (fun _ => 1) (external om (0 : ℝ)) 0 0) beta fun q => thermal.zero_momentum.i_0_0_i q (ofR om : T1) beta := by
  have h := freq ho hl hb
  refine thermalIntegrand_two (num_one om 0) h.1 h.2 hb _ _ fun q hq => ?_
  have := C62_zero_momentum_i_0_0_i (q := q) hq (ofR om : T1) beta
  simpa using this

/-- **C81**: `zero_momentum::i_m_m_l_i` is the integrand of the loop with longitudinal numerator. -/
theorem C81_zero_momentum_i_m_m_l_i {om m1 m2 beta : ℝ} {l : ℤ} (ho : om = 2 * Real.pi * l / beta) (hl : l ≠ 0) (hb : 0 < beta) :
    IsThermalIntegrand (twoPropagators (projected (polL om 0)) (external om (0 : ℝ)) m1 m2) beta fun q => thermal.zero_momentum.i_m_m_l_i q (ofR om : T1) (ofR m1 : T2) (ofR m2 : T3) beta := by
  have h := freq ho hl hb
  refine thermalIntegrand_two (num_L h.1 0) h.1 h.2 hb _ _ fun q hq => ?_
  have := C62_zero_momentum_i_m_m_l_i (q := q) (om := (ofR om : T1)) (ofR_ne_zero h.1) (ofR m1 : T2) (ofR m2 : T3) beta
  simpa using this

/-- **C81**: `zero_momentum::i_m_m_l_i_same_mass` is the integrand of the loop with longitudinal numerator. -/
theorem C81_zero_momentum_i_m_m_l_i_same_mass {om m beta : ℝ} {l : ℤ} (ho : om = 2 * Real.pi * l / beta) (hl : l ≠ 0) (hb : 0 < beta) :
    IsThermalIntegrand (twoPropagators (projected (polL om 0)) (external om (0 : ℝ)) m m) beta fun q => thermal.zero_momentum.i_m_m_l_i_same_mass q (ofR om : T1) (ofR m : T2) beta := by
  have h := freq ho hl hb
  refine thermalIntegrand_two (num_L h.1 0) h.1 h.2 hb _ _ fun q hq => ?_
  have := C62_zero_momentum_i_m_m_l_i_same_mass (q := q) (om := (ofR om : T1)) (ofR_ne_zero h.1) (ofR m : T2) beta
  simpa using this

/-- **C81**: `zero_momentum::i_m_0_l_i` is the integrand of the loop with longitudinal numerator. -/
theorem C81_zero_momentum_i_m_0_l_i {om m beta : ℝ} {l : ℤ} (ho : om = 2 * Real.pi * l / beta) (hl : l ≠ 0) (hb : 0 < beta) :
    IsThermalIntegrand (twoPropagators (projected (polL om 0)) (external om (0 : ℝ)) m 0) beta fun q => thermal.zero_momentum.i_m_0_l_i q (ofR om : T1) (ofR m : T2) beta := by
  have h := freq ho hl hb
  refine thermalIntegrand_two (num_L h.1 0) h.1 h.2 hb _ _ fun q hq => ?_
  have := C62_zero_momentum_i_m_0_l_i (q := q) (om := (ofR om : T1)) hq (ofR_ne_zero h.1) (ofR m : T2) beta
  simpa using this

/-- **C81**: `zero_momentum::i_0_0_l_i` is the integrand of the loop with longitudinal numerator. -/
theorem C81_zero_momentum_i_0_0_l_i {om beta : ℝ} {l : ℤ} (ho : om = 2 * Real.pi * l / beta) (hl : l ≠ 0) (hb : 0 < beta) :
    IsThermalIntegrand (twoPropagators (projected (polL om 0)) (external om (0 : ℝ)) 0 0) beta fun q => thermal.zero_momentum.i_0_0_l_i q (ofR om : T1) beta := by
  have h := freq ho hl hb
  refine thermalIntegrand_two (num_L h.1 0) h.1 h.2 hb _ _ fun q hq => ?_
  have := C62_zero_momentum_i_0_0_l_i (q := q) (om := (ofR om : T1)) hq (ofR_ne_zero h.1) beta
  simpa using this

/-- **C81**: `zero_momentum::i_m_m_t_i` is the integrand of the loop with transverse numerator. -/
theorem C81_zero_momentum_i_m_m_t_i {om m1 m2 beta : ℝ} {l : ℤ} (ho : om = 2 * Real.pi * l / beta) (hl : l ≠ 0) (hb : 0 < beta) :
    IsThermalIntegrand (twoPropagators (projected polT) (external om (0 : ℝ)) m1 m2) beta fun q => thermal.zero_momentum.i_m_m_t_i q (ofR om : T1) (ofR m1 : T2) (ofR m2 : T3) beta := by
  have h := freq ho hl hb
  refine thermalIntegrand_two (num_T om 0) h.1 h.2 hb _ _ fun q hq => ?_
  have := C62_zero_momentum_i_m_m_t_i (q := q) (ofR om : T1) (ofR m1 : T2) (ofR m2 : T3) beta
  simpa using this

/-- **C81**: `zero_momentum::i_m_m_t_i_same_mass` is the integrand of the loop with transverse numerator. -/
theorem C81_zero_momentum_i_m_m_t_i_same_mass {om m beta : ℝ} {l : ℤ} (ho : om = 2 * Real.pi * l / beta) (hl : l ≠ 0) (hb : 0 < beta) :
    IsThermalIntegrand (twoPropagators (projected polT) (external om (0 : ℝ)) m m) beta fun q => thermal.zero_momentum.i_m_m_t_i_same_mass q (ofR om : T1) (ofR m : T2) beta := by
  have h := freq ho hl hb
  refine thermalIntegrand_two (num_T om 0) h.1 h.2 hb _ _ fun q hq => ?_
  have := C62_zero_momentum_i_m_m_t_i_same_mass (q := q) (ofR om : T1) (ofR m : T2) beta
  simpa using this

/-- **C81**: `zero_momentum::i_m_0_t_i` is the integrand of the loop with transverse numerator. -/
theorem C81_zero_momentum_i_m_0_t_i {om m beta : ℝ} {l : ℤ} (ho : om = 2 * Real.pi * l / beta) (hl : l ≠ 0) (hb : 0 < beta) :
    IsThermalIntegrand (twoPropagators (projected polT) (external om (0 : ℝ)) m 0) beta fun q => thermal.zero_momentum.i_m_0_t_i q (ofR om : T1) (ofR m : T2) beta := by
  have h := freq ho hl hb
  refine thermalIntegrand_two (num_T om 0) h.1 h.2 hb _ _ fun q hq => ?_
  have := C62_zero_momentum_i_m_0_t_i (q := q) hq (ofR om : T1) (ofR m : T2) beta
  simpa using this

/-- **C81**: `zero_momentum::i_0_0_t_i` is the integrand of the loop with transverse numerator. -/
theorem C81_zero_momentum_i_0_0_t_i {om beta : ℝ} {l : ℤ} (ho : om = 2 * Real.pi * l / beta) (hl : l ≠ 0) (hb : 0 < beta) :
    IsThermalIntegrand (twoPropagators (projected polT) (external om (0 : ℝ)) 0 0) beta fun q => thermal.zero_momentum.i_0_0_t_i q (ofR om : T1) beta := by
  have h := freq ho hl hb
  refine thermalIntegrand_two (num_T om 0) h.1 h.2 hb _ _ fun q hq => ?_
  have := C62_zero_momentum_i_0_0_t_i (q := q) hq (ofR om : T1) beta
  simpa using this

/-! ### Tadpoles -/

/-- **C81**: `j_m_i` and `j_0_i` are the integrands of the tadpoles. -/
theorem C81_tadpoles {m beta : ℝ} (hb : 0 < beta) :
    IsThermalIntegrand (onePropagator m) beta (fun q => toC (thermal.j_m_i q (ofR m : T) beta)) ∧
    IsThermalIntegrand (onePropagator 0) beta (fun q => ((thermal.j_0_i q beta : ℝ) : ℂ)) := by
  have h := freq (om := 2 * Real.pi * (1 : ℤ) / beta) rfl one_ne_zero hb
  refine ⟨thermalIntegrand_one (p := 0) h.1 h.2 hb _ fun q hq => ?_, thermalIntegrand_one (p := 0) h.1 h.2 hb _ fun q hq => ?_⟩
  · simpa using (C62_tadpoles q (ofR m : T) beta).1
  · simpa using (C62_tadpoles_massless hq beta).1

/-! ### One-loop diagrams of the massive expansion -/

theorem swapped_eq (om p : ℝ) (F : Spec.Vec → ℂ) : swapped om p F = fun Q => F (-(external om p + Q)) := rfl

theorem thermalIntegrand_of {om p beta : ℝ} {A B : Type} [Fintype A] [DecidableEq A] [Fintype B] [DecidableEq B] {m : A → ℝ} {k : B → ℝ}
    {f : Pol} {F : Spec.Vec → ℂ} (h : IsDiagram om p m k f F)
    (hm : Function.Injective fun a => m a ^ 2) (hk : Function.Injective fun b => k b ^ 2)
    (ho : om ≠ 0) (hd : f.totalDegree + 2 ≤ 2 * (Fintype.card A + Fintype.card B)) (hb : 0 < beta) {l : ℤ}
    (hl : beta * om = 2 * Real.pi * l) {g : ℝ → ℂ}
    (hg : ∀ q, ∑ a, Spec.line F q (m a) beta + ∑ b, Spec.line (swapped om p F) q (k b) beta = g q) : IsThermalIntegrand F beta g := by
  obtain ⟨t, i⟩ := h.thermal hm hk ho hd hb hl
  simp only [hg] at t i
  exact ⟨i, t⟩

/-- **C81**: the ghost self-energy. -/
theorem C81_ghost_self_energy {om p M beta : ℝ} {l : ℤ} (ho : om = 2 * Real.pi * l / beta) (hl : l ≠ 0) (hb : 0 < beta) (hM : 0 < M) :
    IsThermalIntegrand (Spec.ghostSelfEnergy (external om p) M) beta fun q => Spec.ghostSelfEnergyThermal om p beta q M := by
  have h := freq ho hl hb
  refine thermalIntegrand_of (isDiagram_ghostSE om p hM) (injective_two hM) injective_one h.1
    (by simpa using deg_numGhostSE (external om p)) hb h.2 fun q => ?_
  simp only [Spec.ghostSelfEnergyThermal, Spec.thermalPart, Fin.sum_univ_succ, Fin.sum_univ_zero, Matrix.cons_val_zero, Matrix.cons_val_succ, List.map_cons, List.map_nil,
    List.sum_cons, List.sum_nil, add_zero, Complex.ofReal_zero, swapped_eq]

theorem thermal_gluonLoop {om p M beta : ℝ} {pol : List Spec.Vec} {V : Pol} (hV : IsPolar pol om p V) {l : ℤ} (ho : om = 2 * Real.pi * l / beta)
    (hl : l ≠ 0) (hb : 0 < beta) (hM : 0 < M) :
    IsThermalIntegrand (fun Q => Spec.average pol fun e => Spec.gluonLoop e (external om p) M Q) beta
      (fun q => Spec.gluonLoopThermal pol om p beta q M) ∧
    IsThermalIntegrand (fun Q => Spec.average pol fun e => Spec.ghostLoop e (external om p) Q) beta
      (fun q => Spec.ghostLoopThermal pol om p beta q) ∧
    IsThermalIntegrand (fun Q => Spec.average pol fun e => Spec.gluonTadpole e M Q) beta
      (fun q => Spec.gluonTadpoleThermal pol om p beta q M) := by
  have h := freq ho hl hb
  refine ⟨?_, ?_, ?_⟩
  · refine thermalIntegrand_of (isDiagram_gluonLoop hV hM) (injective_two hM) (injective_two hM) h.1
      (by simpa using deg_numGluon (external om p) hV.deg) hb h.2 fun q => ?_
    simp only [Spec.gluonLoopThermal, Spec.thermalPart, Fin.sum_univ_succ, Fin.sum_univ_zero, Matrix.cons_val_zero, Matrix.cons_val_succ, List.map_cons, List.map_nil,
      List.sum_cons, List.sum_nil, add_zero, Complex.ofReal_zero, swapped_eq]
  · refine thermalIntegrand_of (isDiagram_ghostLoop hV) injective_one injective_one h.1 (by simpa using hV.deg) hb h.2 fun q => ?_
    simp only [Spec.ghostLoopThermal, Spec.thermalPart, Fin.sum_univ_succ, Fin.sum_univ_zero, Matrix.cons_val_zero, Matrix.cons_val_succ, List.map_cons, List.map_nil,
      List.sum_cons, List.sum_nil, add_zero, Complex.ofReal_zero, swapped_eq]
  · refine thermalIntegrand_of (isDiagram_tadpole hV hM) (injective_two hM) injective_none h.1 (by simpa using deg_numTadpole hV.deg) hb h.2
      fun q => ?_
    simp only [Spec.gluonTadpoleThermal, Spec.thermalPart, Fin.sum_univ_succ, Fin.sum_univ_zero, Matrix.cons_val_zero, Matrix.cons_val_succ, List.map_cons, List.map_nil,
      List.sum_cons, List.sum_nil, add_zero, Complex.ofReal_zero, swapped_eq]

/-- **C81**: the diagrams of the longitudinal polarization. -/
theorem C81_polarization_l {om p M beta : ℝ} {l : ℤ} (ho : om = 2 * Real.pi * l / beta) (hl : l ≠ 0) (hb : 0 < beta) (hM : 0 < M) :
    IsThermalIntegrand (fun Q => Spec.average (polL om p) fun e => Spec.gluonLoop e (external om p) M Q) beta
      (fun q => Spec.gluonLoopThermal (polL om p) om p beta q M) ∧
    IsThermalIntegrand (fun Q => Spec.average (polL om p) fun e => Spec.ghostLoop e (external om p) Q) beta
      (fun q => Spec.ghostLoopThermal (polL om p) om p beta q) ∧
    IsThermalIntegrand (fun Q => Spec.average (polL om p) fun e => Spec.gluonTadpole e M Q) beta
      (fun q => Spec.gluonTadpoleThermal (polL om p) om p beta q M) :=
  thermal_gluonLoop (isPolar_L (freq ho hl hb).1 p) ho hl hb hM

/-- **C81**: the diagrams of the transverse polarization. -/
theorem C81_polarization_t {om p M beta : ℝ} {l : ℤ} (ho : om = 2 * Real.pi * l / beta) (hl : l ≠ 0) (hb : 0 < beta) (hM : 0 < M) :
    IsThermalIntegrand (fun Q => Spec.average polT fun e => Spec.gluonLoop e (external om p) M Q) beta
      (fun q => Spec.gluonLoopThermal polT om p beta q M) ∧
    IsThermalIntegrand (fun Q => Spec.average polT fun e => Spec.ghostLoop e (external om p) Q) beta
      (fun q => Spec.ghostLoopThermal polT om p beta q) ∧
    IsThermalIntegrand (fun Q => Spec.average polT fun e => Spec.gluonTadpole e M Q) beta
      (fun q => Spec.gluonTadpoleThermal polT om p beta q M) :=
  thermal_gluonLoop (isPolar_T om p) ho hl hb hM

/-! ### The hypotheses can be met -/

/-- The first Matsubara frequency at unit temperature. -/
example : IsThermalIntegrand (twoPropagators (fun _ => 1) (external (2 * Real.pi * (1 : ℤ) / 1 : ℝ) (3 : ℝ)) 1 2) 1
    fun q => thermal.i_m_m_i q (ofR (2 * Real.pi * (1 : ℤ) / 1) : ℝ) 3 (ofR 1 : ℝ) (ofR 2 : ℝ) 1 :=
  C81_i_m_m_i rfl one_ne_zero one_pos (by norm_num)

example : IsThermalIntegrand (Spec.ghostSelfEnergy (external (2 * Real.pi * (-2 : ℤ) / 3 : ℝ) (3 : ℝ)) 1) 3
    fun q => Spec.ghostSelfEnergyThermal (2 * Real.pi * (-2 : ℤ) / 3 : ℝ) (3 : ℝ) 3 q 1 := by
  have := C81_ghost_self_energy (om := 2 * Real.pi * (-2 : ℤ) / 3) (p := 3) (M := 1) rfl (by norm_num) (by norm_num) one_pos
  rwa [Complex.ofReal_one] at this

end Qcd
