import Verif.Lemmas.FermionDiagram
import Verif.Lemmas.DiracTrace
import Verif.Lemmas.MatsubaraLoops
import Verif.Lemmas.Compactify
import Verif.Props.ThermalLoopQuark
import Verif.Props.Matsubara

/-! # C84: the integrated quark loop is a trace of quark propagators summed over the fermionic frequencies

Specification: `Verif/Spec/QuarkDiagram.lean`. The external frequency is a Matsubara frequency `2πlT`, not zero; at zero temperature
any non-zero frequency. The numerical integrator is taken to be exact. -/

namespace Qcd
open Set MeasureTheory Matsubara Matrix
open Spec (Vec msq external IsClifford quarkDiagram polL polT IsThermalQuarkDiagram IsDenseQuarkDiagram)

variable {T T1 T2 : Type} [Num T] [Num T1] [Num T2] {g : Fin 4 → Matrix (Fin 4) (Fin 4) ℂ}

/-! ### The loop as a rational function -/

noncomputable def numQuark (nc : ℝ) (P : Vec) (V : Pol) (m : ℝ) : Pol :=
  MvPolynomial.C (-(2 / (nc : ℂ))) * (MvPolynomial.C 2 * V - (MvPolynomial.C (1 / 2) * (pX + pY P - MvPolynomial.C (msq P)) + MvPolynomial.C ((m : ℂ) ^ 2)))

theorem deg_numQuark (nc : ℝ) (P : Vec) {V : Pol} (hV : V.totalDegree ≤ 2) (m : ℝ) : (numQuark nc P V m).totalDegree ≤ 2 := by
  refine deg_mul (d := 0) (e := 2) (deg_C _ _) (deg_sub ?_ (deg_add ?_ (deg_C _ _)))
  · exact deg_mul (d := 0) (e := 2) (deg_C _ _) hV
  · exact deg_mul (d := 0) (e := 2) (deg_C _ _) (deg_sub (deg_add deg_pX (deg_pY P)) (deg_C _ _))

variable {om p : ℝ} {pol : List Vec} {V : Pol}

theorem isDiagram_quark (hg : IsClifford g) (h : IsPolar pol om p V) (nc m : ℝ) :
    IsDiagram om p (fun _ : Fin 1 => m) (fun _ : Fin 1 => m) (numQuark nc (external om p) V m)
      (fun Q => Spec.average pol fun e => quarkDiagram g nc e (external om p) m Q) where
  eq Q h1 h2 := by
    have hx := h1 0
    have hy := h2 0
    have := average_affine h.ne (fun e => (e ⬝ᵥ Q) ^ 2) (fun e => quarkDiagram g nc e (external om p) m Q)
      (-(2 / (nc : ℂ)) * 2 / ((msq Q + (m : ℂ) ^ 2) * (msq (external om p + Q) + (m : ℂ) ^ 2)))
      (2 / nc * ((msq Q + msq (external om p + Q) - msq (external om p)) / 2 + (m : ℂ) ^ 2)
        / ((msq Q + (m : ℂ) ^ 2) * (msq (external om p + Q) + (m : ℂ) ^ 2))) (fun e he => by
        rw [quarkDiagram_closed hg nc (h.unit e he) (h.orth e he) hx hy]
        ring)
    simp only [Finset.univ_unique, Finset.prod_singleton]
    rw [this, h.avg, numQuark]
    simp only [map_add, map_sub, map_mul, MvPolynomial.eval_C, eval_pX, eval_pY]
    ring
  axis q0 v := by
    simp only [numQuark, map_add, map_sub, map_mul, MvPolynomial.eval_C, axis_pX q0 v, axis_pY om p q0 v, h.axis q0 v]

theorem numQuark_swap (h : IsPolar pol om p V) (nc m : ℝ) (Q : Vec) :
    MvPolynomial.eval (-(external om p + Q)) (numQuark nc (external om p) V m) = MvPolynomial.eval Q (numQuark nc (external om p) V m) := by
  have e1 : MvPolynomial.eval (-(external om p + Q)) V = MvPolynomial.eval Q V := by
    rw [← h.avg, ← h.avg]
    have := average_affine h.ne (fun e => (e ⬝ᵥ Q) ^ 2) (fun e => (e ⬝ᵥ (-(external om p + Q))) ^ 2) 1 0 fun e he => by
      rw [dotProduct_neg, dotProduct_add, h.orth e he]; ring
    rw [this]; ring
  simp only [numQuark, map_add, map_sub, map_mul, MvPolynomial.eval_C, eval_pX, eval_pY, e1, shift_sum, Qcd.msq_neg]
  ring

/-- The angular integral. -/
theorem lineQ_quark (h : IsPolar pol om p V) {N' : ℝ → ℂ → ℝ → ℂ} (hN : ∀ q, Polarised pol om p q (N' q)) (nc m : ℝ) (n : ℝ → ℝ) {q : ℝ} :
    -lineQ om p (fun _ : Fin 1 => m) (fun _ : Fin 1 => m) (numQuark nc (external om p) V m) 0 (fun E => n E) (fun E => n E) q =
      Spec.quarkLoop (fun q0 z => 2 * N' q q0 z - (Spec.den q0 q om p m z - ((om : ℂ) ^ 2 + (p : ℂ) ^ 2)) / 2) nc (n (energy q m)) q om p m := by
  have hs : ∀ c ∈ Icc (-1 : ℝ) 1, ∀ w : ℂ, (w = Complex.I * Spec.en q m ∨ w = -(Complex.I * Spec.en q m)) →
      shell om p (fun _ : Fin 1 => m) (fun _ : Fin 1 => m) (numQuark nc (external om p) V m) 0 w (q * c, q * √(1 - c ^ 2), 0) =
        -(2 / nc) * ((2 * N' q w c - (Spec.den w q om p m c - ((om : ℂ) ^ 2 + (p : ℂ) ^ 2)) / 2) / Spec.den w q om p m c) := by
    intro c hc w hw
    have hw2 := shell_sq hw
    have e1 : MvPolynomial.eval (Spec.loopMomentum w q c) V = N' q w c := by rw [← h.avg, (hN q).avg w c hc]
    have e0 : Finset.univ.erase (0 : Fin 1) = ∅ := rfl
    rw [shell, ← loopMomentum_eq, e0, Finset.prod_empty, one_mul]
    simp only [Finset.univ_unique, Finset.prod_singleton]
    simp only [numQuark, map_add, map_sub, map_mul, MvPolynomial.eval_C, eval_pX, eval_pY, e1]
    rw [msq_loop w q hc, msq_sum w q om p hc, msq_external]
    have e2 : Spec.den w q om p 0 c + (m : ℂ) ^ 2 = Spec.den w q om p m c := by simp only [Spec.den]; ring
    have e3 : Spec.den w q om p 0 c = Spec.den w q om p m c - (m : ℂ) ^ 2 := by simp only [Spec.den]; ring
    rw [e2, e3, hw2, mul_div_assoc]
    congr 2
    ring
  have key : ∀ c ∈ Set.uIcc (-1 : ℝ) 1, planarW om p (fun _ : Fin 1 => m) (fun _ : Fin 1 => m) (numQuark nc (external om p) V m) 0 (fun E => n E) (fun E => n E)
      (q * c, q * √(1 - c ^ 2)) = -(2 / nc) * (n (energy q m) / (2 * Spec.en q m)) *
        ((2 * N' q (Complex.I * Spec.en q m) c - (Spec.den (Complex.I * Spec.en q m) q om p m c - ((om : ℂ) ^ 2 + (p : ℂ) ^ 2)) / 2) / Spec.den (Complex.I * Spec.en q m) q om p m c
          + (2 * N' q (-(Complex.I * Spec.en q m)) c - (Spec.den (-(Complex.I * Spec.en q m)) q om p m c - ((om : ℂ) ^ 2 + (p : ℂ) ^ 2)) / 2)
            / Spec.den (-(Complex.I * Spec.en q m)) q om p m c) := by
    intro c hc
    rw [Set.uIcc_of_le (by norm_num)] at hc
    have e1 := en3_eq_en (q := q) m hc
    have e2 : en3 m (q * c, q * √(1 - c ^ 2), 0) = energy q m := by
      rw [en_real] at e1; exact_mod_cast e1.symm
    rw [planarW]
    simp only
    rw [← e1, hs c hc _ (.inl rfl), hs c hc _ (.inr rfl), e2]
    ring
  rw [lineQ, intervalIntegral.integral_congr key, intervalIntegral.integral_const_mul, Spec.quarkLoop]
  ring

theorem thermalQuark (hg : IsClifford g) (h : IsPolar pol om p V) {N' : ℝ → ℂ → ℝ → ℂ} (hN : ∀ q, Polarised pol om p q (N' q)) (nc m : ℝ)
    (ho : om ≠ 0) {beta : ℝ} (hb : 0 < beta) {l : ℤ} (hl : beta * om = 2 * Real.pi * l) (mu : ℝ) {x : ℂ}
    (hx : x = ∫ q in Ioi (0 : ℝ), Spec.quarkLoop (fun q0 z => 2 * N' q q0 z - (Spec.den q0 q om p m z - ((om : ℂ) ^ 2 + (p : ℂ) ^ 2)) / 2) nc
      (fermi_distribution_double (energy q m) beta mu) q om p m) :
    IsThermalQuarkDiagram (fun Q => Spec.average pol fun e => quarkDiagram g nc e (external om p) m Q) beta mu x := by
  have key := (isDiagram_quark hg h nc m).thermalQuark (numQuark_swap h nc m) ho (deg_numQuark nc _ h.deg m) hb hl mu
  have e : ∀ q : ℝ, -lineQ om p (fun _ : Fin 1 => m) (fun _ : Fin 1 => m) (numQuark nc (external om p) V m) 0
      (fun E => occ beta (E - mu) + occ beta (E + mu)) (fun E => occ beta (E - mu) + occ beta (E + mu)) q = _ := fun q => by
    have := lineQ_quark h hN nc m (fun E => occ beta (E - mu) + occ beta (E + mu)) (q := q)
    simp only [Complex.ofReal_add] at this
    exact this
  simp only [e] at key
  rw [hx]
  have e2 : ∀ E : ℝ, fermi_distribution_double E beta mu = occ beta (E - mu) + occ beta (E + mu) := fun E => by
    simp [fermi_distribution_double, statistic_distribution_exponential, occ, mul_comm beta]
  simp only [e2]
  exact key

theorem denseQuark (hg : IsClifford g) (h : IsPolar pol om p V) {N' : ℝ → ℂ → ℝ → ℂ} (hN : ∀ q, Polarised pol om p q (N' q)) (nc m : ℝ)
    (ho : om ≠ 0) (mu : ℝ) {x : ℂ}
    (hx : x = ∫ q in Ioi (0 : ℝ), Spec.quarkLoop (fun q0 z => 2 * N' q q0 z - (Spec.den q0 q om p m z - ((om : ℂ) ^ 2 + (p : ℂ) ^ 2)) / 2) nc
      (fermi_distribution_double_zero_temp (energy q m) mu) q om p m) :
    IsDenseQuarkDiagram (fun Q => Spec.average pol fun e => quarkDiagram g nc e (external om p) m Q) mu x := by
  have key := (isDiagram_quark hg h nc m).denseQuark (numQuark_swap h nc m) ho (deg_numQuark nc _ h.deg m) mu
  have e : ∀ q : ℝ, -lineQ om p (fun _ : Fin 1 => m) (fun _ : Fin 1 => m) (numQuark nc (external om p) V m) 0
      (fun E => (if E > mu then 0 else 1) + (if E > -mu then 0 else 1)) (fun E => (if E > mu then 0 else 1) + (if E > -mu then 0 else 1)) q = _ := fun q => by
    have := lineQ_quark h hN nc m (fun E => (if E > mu then 0 else 1) + (if E > -mu then 0 else 1)) (q := q)
    simp only [Complex.ofReal_add, apply_ite Complex.ofReal, Complex.ofReal_zero, Complex.ofReal_one] at this
    exact this
  simp only [e] at key
  rw [hx]
  have e2 : ∀ E : ℝ, fermi_distribution_double_zero_temp E mu = (if E > mu then 0 else 1) + (if E > -mu then 0 else 1) := fun E => rfl
  simp only [e2]
  exact key

/-- Beyond the Fermi momentum the states are empty. -/
theorem empty_states {m mu q : ℝ} (hq : 0 < q) (h : |mu| < |m| ∨ fermi_momentum m mu < q) : fermi_distribution_double_zero_temp (energy q m) mu = 0 := by
  have key : |mu| < energy q m := by
    have h0 : mu ^ 2 < m * m + q * q := by
      rcases h with h | h
      · have := sq_lt_sq.2 h
        nlinarith
      · rw [fermi_momentum] at h
        have := (Real.sqrt_lt' hq).1 h
        nlinarith
    have h1 : energy q m = Real.sqrt (m * m + q * q) := by simp [energy, energy_squared]
    rw [h1]
    exact Real.lt_sqrt_of_sq_lt (by rw [sq_abs]; exact h0)
  have h1 := lt_of_le_of_lt (le_abs_self mu) key
  have h2 := lt_of_le_of_lt (neg_le_abs mu) key
  have : fermi_distribution_double_zero_temp (energy q m) mu = (if energy q m > mu then 0 else 1) + (if energy q m > -mu then 0 else 1) := rfl
  rw [this, if_pos h1, if_pos h2, add_zero]

theorem dense_integral {m mu : ℝ} (G : ℝ → ℝ → ℂ) (h0 : ∀ q, G q 0 = 0) {f : ℝ → ℂ} (hf : ∀ q, 0 < q → f q = G q (fermi_distribution_double_zero_temp (energy q m) mu)) :
    (open Classical in if |mu| < |m| then (0 : ℂ) else ∫ q in (0 : ℝ)..fermi_momentum m mu, f q) =
      ∫ q in Ioi (0 : ℝ), G q (fermi_distribution_double_zero_temp (energy q m) mu) := by
  split_ifs with h
  · rw [setIntegral_congr_fun measurableSet_Ioi (g := fun _ => 0) fun q hq => ?_]
    · simp
    · simp only [empty_states hq (.inl h), h0]
  · have hp : 0 ≤ fermi_momentum m mu := Real.sqrt_nonneg _
    rw [intervalIntegral.integral_of_le hp, setIntegral_congr_fun measurableSet_Ioc fun q hq => hf q hq.1]
    symm
    refine setIntegral_eq_of_subset_of_forall_diff_eq_zero measurableSet_Ioi Ioc_subset_Ioi_self fun q hq => ?_
    have h1 : fermi_momentum m mu < q := by
      by_contra h2
      exact hq.2 ⟨hq.1, not_lt.1 h2⟩
    rw [empty_states hq.1 (.inr h1), h0]

theorem quarkLoop_zero (N : ℂ → ℝ → ℂ) (nc q : ℝ) (om p : ℂ) (m : ℝ) : Spec.quarkLoop N nc 0 q om p m = 0 := by simp [Spec.quarkLoop]

/-! ### Dirac matrices exist -/

/-- A representation of the Dirac matrices. -/
def dirac : Fin 4 → Matrix (Fin 4) (Fin 4) ℂ :=
  ![!![1, 0, 0, 0; 0, 1, 0, 0; 0, 0, -1, 0; 0, 0, 0, -1],
    !![0, 0, 0, -Complex.I; 0, 0, -Complex.I, 0; 0, Complex.I, 0, 0; Complex.I, 0, 0, 0],
    !![0, 0, 0, -1; 0, 0, 1, 0; 0, 1, 0, 0; -1, 0, 0, 0],
    !![0, 0, -Complex.I, 0; 0, 0, 0, Complex.I; Complex.I, 0, 0, 0; 0, -Complex.I, 0, 0]]

theorem dirac_clifford : IsClifford dirac := by
  have e2 : (2 : Matrix (Fin 4) (Fin 4) ℂ) = !![2, 0, 0, 0; 0, 2, 0, 0; 0, 0, 2, 0; 0, 0, 0, 2] := by
    rw [two_matrix]
    ext i j
    fin_cases i <;> fin_cases j <;> simp
  have e0 : (0 : Matrix (Fin 4) (Fin 4) ℂ) = !![0, 0, 0, 0; 0, 0, 0, 0; 0, 0, 0, 0; 0, 0, 0, 0] := by
    ext i j
    fin_cases i <;> fin_cases j <;> rfl
  intro i j
  rw [e2, e0]
  fin_cases i <;> fin_cases j <;> simp [dirac] <;> norm_num

/-! ### The integrated functions -/

/-- **C84**: the longitudinal quark part of the polarization is the thermal part of the one-loop quark diagram. -/
theorem C84_quark_l {T1 T2 : Type} [Num T1] [Num T2] (hg : IsClifford g) (k : consts.Consts ℝ) {om p beta : ℝ} {l : ℤ} (hom : om = 2 * Real.pi * l / beta) (hl : l ≠ 0) (hp : p ≠ 0) (hb : 0 < beta) (mq mu : ℝ) :
    IsThermalQuarkDiagram (fun Q => Spec.average (Spec.polL om p) fun e => quarkDiagram g k.nc e (external om p) mq Q) beta mu
      (gluon.thermal.polarization_quark_l_thermal_part_landau .exact k (ofR om : T1) (ofR p : T2) mq beta mu) := by
  obtain ⟨ho, hl⟩ := freq hom hl hb
  have hs : om ^ 2 + (p : ℝ) ^ 2 ≠ 0 := by positivity
  refine thermalQuark hg (isPolar_L ho p) (N' := fun q => Spec.longitudinal q om p) (fun q => polL_polarised (by exact_mod_cast hs) q) k.nc mq ho hb hl mu ?_
  refine (compactify_cplx fun q => gluon.thermal.polarization_quark_l_thermal_part_landau_i k q (ofR om : T1) (ofR p : T2) mq beta mu).trans (setIntegral_congr_fun measurableSet_Ioi fun q hq => ?_)
  have r := C62_regular_real hq ho p mq mq
  have := C63_quark_l k (q := q) (om := (ofR om : T1)) (p := (ofR p : T2)) (mq := mq) hq.ne' (ofR_ne_zero hp) (ofR_ne_zero ho) (by simpa using (by exact_mod_cast hs : (om : ℂ) ^ 2 + (p : ℂ) ^ 2 ≠ 0)) (by simpa using r) beta mu
  simp only [toC_ofR] at this
  exact this

/-- **C84**: the transverse quark part of the polarization is the thermal part of the one-loop quark diagram. -/
theorem C84_quark_t {T : Type} [Num T] (hg : IsClifford g) (k : consts.Consts ℝ) {om p beta : ℝ} {l : ℤ} (hom : om = 2 * Real.pi * l / beta) (hl : l ≠ 0) (hp : p ≠ 0) (hb : 0 < beta) (mq mu : ℝ) :
    IsThermalQuarkDiagram (fun Q => Spec.average Spec.polT fun e => quarkDiagram g k.nc e (external om p) mq Q) beta mu
      (gluon.thermal.polarization_quark_t_thermal_part_landau .exact k (ofR om : T) p mq beta mu) := by
  obtain ⟨ho, hl⟩ := freq hom hl hb
  refine thermalQuark hg (isPolar_T om p) (N' := fun q => Spec.transverse q) (fun q => polT_polarised om p q) k.nc mq ho hb hl mu ?_
  refine (compactify_cplx fun q => gluon.thermal.polarization_quark_t_thermal_part_landau_i k q (ofR om : T) p mq beta mu).trans (setIntegral_congr_fun measurableSet_Ioi fun q hq => ?_)
  have r := C62_regular_real hq ho p mq mq
  have := C63_quark_t k (q := q) (om := (ofR om : T)) (p := p) (mq := mq) hq.ne' hp (by simpa using r) beta mu
  simp only [toC_ofR] at this
  exact this

/-- **C84**: the longitudinal quark part of the polarization at zero temperature is the finite-density part of the one-loop quark diagram. -/
theorem C84_quark_l_zero_temp {T1 T2 : Type} [Num T1] [Num T2] (hg : IsClifford g) (k : consts.Consts ℝ) {om p : ℝ} (ho : om ≠ 0) (hp : p ≠ 0) (mq mu : ℝ) :
    IsDenseQuarkDiagram (fun Q => Spec.average (Spec.polL om p) fun e => quarkDiagram g k.nc e (external om p) mq Q) mu
      (gluon.thermal.polarization_quark_l_thermal_part_zero_temp_landau .exact k (ofR om : T1) (ofR p : T2) mq mu) := by
  have hs : om ^ 2 + (p : ℝ) ^ 2 ≠ 0 := by positivity
  refine denseQuark hg (isPolar_L ho p) (N' := fun q => Spec.longitudinal q om p) (fun q => polL_polarised (by exact_mod_cast hs) q) k.nc mq ho mu ?_
  refine dense_integral (m := mq) (mu := mu) (f := fun q => gluon.thermal.polarization_quark_l_thermal_part_zero_temp_landau_i k q (ofR om : T1) (ofR p : T2) mq mu) (fun q n => Spec.quarkLoop (Spec.quarkL q om p mq) k.nc n q om p mq) (fun q => quarkLoop_zero _ _ _ _ _ _) fun q hq => ?_
  have r := C62_regular_real hq ho p mq mq
  have := C63_quark_l_zero_temp k (q := q) (om := (ofR om : T1)) (p := (ofR p : T2)) (mq := mq) hq.ne' (ofR_ne_zero hp) (ofR_ne_zero ho) (by simpa using (by exact_mod_cast hs : (om : ℂ) ^ 2 + (p : ℂ) ^ 2 ≠ 0)) (by simpa using r) mu
  simp only [toC_ofR] at this
  exact this

/-- **C84**: the transverse quark part of the polarization at zero temperature is the finite-density part of the one-loop quark diagram. -/
theorem C84_quark_t_zero_temp {T : Type} [Num T] (hg : IsClifford g) (k : consts.Consts ℝ) {om p : ℝ} (ho : om ≠ 0) (hp : p ≠ 0) (mq mu : ℝ) :
    IsDenseQuarkDiagram (fun Q => Spec.average Spec.polT fun e => quarkDiagram g k.nc e (external om p) mq Q) mu
      (gluon.thermal.polarization_quark_t_thermal_part_zero_temp_landau .exact k (ofR om : T) p mq mu) := by
  refine denseQuark hg (isPolar_T om p) (N' := fun q => Spec.transverse q) (fun q => polT_polarised om p q) k.nc mq ho mu ?_
  refine dense_integral (m := mq) (mu := mu) (f := fun q => gluon.thermal.polarization_quark_t_thermal_part_zero_temp_landau_i k q (ofR om : T) p mq mu) (fun q n => Spec.quarkLoop (Spec.quarkT q om p mq) k.nc n q om p mq) (fun q => quarkLoop_zero _ _ _ _ _ _) fun q hq => ?_
  have r := C62_regular_real hq ho p mq mq
  have := C63_quark_t_zero_temp k (q := q) (om := (ofR om : T)) (p := p) (mq := mq) hq.ne' hp (by simpa using r) mu
  simp only [toC_ofR] at this
  exact this

/-- **C84**: the longitudinal quark part of the polarization at zero momentum is the thermal part of the one-loop quark diagram. -/
theorem C84_zero_momentum_quark_l {T : Type} [Num T] (hg : IsClifford g) (k : consts.Consts ℝ) {om beta : ℝ} {l : ℤ} (hom : om = 2 * Real.pi * l / beta) (hl : l ≠ 0) (hb : 0 < beta) (mq mu : ℝ) :
    IsThermalQuarkDiagram (fun Q => Spec.average (Spec.polL om 0) fun e => quarkDiagram g k.nc e (external om 0) mq Q) beta mu
      (gluon.thermal.zero_momentum.polarization_quark_l_thermal_part_landau .exact k (ofR om : T) mq beta mu) := by
  obtain ⟨ho, hl⟩ := freq hom hl hb
  have hs : om ^ 2 + (0 : ℝ) ^ 2 ≠ 0 := by positivity
  refine thermalQuark hg (isPolar_L ho 0) (N' := fun q => Spec.longitudinal q om (0 : ℝ)) (fun q => polL_polarised (by exact_mod_cast hs) q) k.nc mq ho hb hl mu ?_
  refine (compactify_cplx fun q => toC (gluon.thermal.zero_momentum.polarization_quark_l_thermal_part_landau_i k q (ofR om : T) mq beta mu)).trans (setIntegral_congr_fun measurableSet_Ioi fun q hq => ?_)
  have r := C62_regular_real hq ho 0 mq mq
  have := C63_zero_momentum_quark_l k (om := (ofR om : T)) (mq := mq) (q := q) (ofR_ne_zero ho) (energy_pos hq).ne' (by simpa using r) beta mu
  simp only [toC_ofR] at this
  simp only [Complex.ofReal_zero]
  exact this

/-- **C84**: the transverse quark part of the polarization at zero momentum is the thermal part of the one-loop quark diagram. -/
theorem C84_zero_momentum_quark_t {T : Type} [Num T] (hg : IsClifford g) (k : consts.Consts ℝ) {om beta : ℝ} {l : ℤ} (hom : om = 2 * Real.pi * l / beta) (hl : l ≠ 0) (hb : 0 < beta) (mq mu : ℝ) :
    IsThermalQuarkDiagram (fun Q => Spec.average Spec.polT fun e => quarkDiagram g k.nc e (external om 0) mq Q) beta mu
      (gluon.thermal.zero_momentum.polarization_quark_t_thermal_part_landau .exact k (ofR om : T) mq beta mu) := by
  obtain ⟨ho, hl⟩ := freq hom hl hb
  refine thermalQuark hg (isPolar_T om 0) (N' := fun q => Spec.transverse q) (fun q => polT_polarised om 0 q) k.nc mq ho hb hl mu ?_
  refine (compactify_cplx fun q => toC (gluon.thermal.zero_momentum.polarization_quark_t_thermal_part_landau_i k q (ofR om : T) mq beta mu)).trans (setIntegral_congr_fun measurableSet_Ioi fun q hq => ?_)
  have r := C62_regular_real hq ho 0 mq mq
  have := C63_zero_momentum_quark_t k (om := (ofR om : T)) (mq := mq) (q := q) (ofR_ne_zero ho) (energy_pos hq).ne' (by simpa using r) beta mu
  simp only [toC_ofR] at this
  simp only [Complex.ofReal_zero]
  exact this

/-- **C84**: the longitudinal quark part of the polarization at zero momentum at zero temperature is the finite-density part of the one-loop quark diagram. -/
theorem C84_zero_momentum_quark_l_zero_temp {T : Type} [Num T] (hg : IsClifford g) (k : consts.Consts ℝ) {om : ℝ} (ho : om ≠ 0) (mq mu : ℝ) :
    IsDenseQuarkDiagram (fun Q => Spec.average (Spec.polL om 0) fun e => quarkDiagram g k.nc e (external om 0) mq Q) mu
      (gluon.thermal.zero_momentum.polarization_quark_l_thermal_part_zero_temp_landau .exact k (ofR om : T) mq mu) := by
  have hs : om ^ 2 + (0 : ℝ) ^ 2 ≠ 0 := by positivity
  refine denseQuark hg (isPolar_L ho 0) (N' := fun q => Spec.longitudinal q om (0 : ℝ)) (fun q => polL_polarised (by exact_mod_cast hs) q) k.nc mq ho mu ?_
  refine dense_integral (m := mq) (mu := mu) (f := fun q => toC (gluon.thermal.zero_momentum.polarization_quark_l_thermal_part_zero_temp_landau_i k q (ofR om : T) mq mu)) (fun q n => Spec.quarkLoop (Spec.quarkL q om (0 : ℝ) mq) k.nc n q om (0 : ℝ) mq) (fun q => quarkLoop_zero _ _ _ _ _ _) fun q hq => ?_
  have r := C62_regular_real hq ho 0 mq mq
  have := C63_zero_momentum_quark_l_zero_temp k (om := (ofR om : T)) (mq := mq) (q := q) (ofR_ne_zero ho) (energy_pos hq).ne' (by simpa using r) mu
  simp only [toC_ofR] at this
  simp only [Complex.ofReal_zero]
  exact this

/-- **C84**: the transverse quark part of the polarization at zero momentum at zero temperature is the finite-density part of the one-loop quark diagram. -/
theorem C84_zero_momentum_quark_t_zero_temp {T : Type} [Num T] (hg : IsClifford g) (k : consts.Consts ℝ) {om : ℝ} (ho : om ≠ 0) (mq mu : ℝ) :
    IsDenseQuarkDiagram (fun Q => Spec.average Spec.polT fun e => quarkDiagram g k.nc e (external om 0) mq Q) mu
      (gluon.thermal.zero_momentum.polarization_quark_t_thermal_part_zero_temp_landau .exact k (ofR om : T) mq mu) := by
  refine denseQuark hg (isPolar_T om 0) (N' := fun q => Spec.transverse q) (fun q => polT_polarised om 0 q) k.nc mq ho mu ?_
  refine dense_integral (m := mq) (mu := mu) (f := fun q => toC (gluon.thermal.zero_momentum.polarization_quark_t_thermal_part_zero_temp_landau_i k q (ofR om : T) mq mu)) (fun q n => Spec.quarkLoop (Spec.quarkT q om (0 : ℝ) mq) k.nc n q om (0 : ℝ) mq) (fun q => quarkLoop_zero _ _ _ _ _ _) fun q hq => ?_
  have r := C62_regular_real hq ho 0 mq mq
  have := C63_zero_momentum_quark_t_zero_temp k (om := (ofR om : T)) (mq := mq) (q := q) (ofR_ne_zero ho) (energy_pos hq).ne' (by simpa using r) mu
  simp only [toC_ofR] at this
  simp only [Complex.ofReal_zero]
  exact this

/-! ### Concrete cases -/

example (k : consts.Consts ℝ) : IsThermalQuarkDiagram
    (fun Q => Spec.average (Spec.polL (2 * Real.pi * (1 : ℤ) / 1 : ℝ) (3 : ℝ)) fun e => quarkDiagram dirac k.nc e (external (2 * Real.pi * (1 : ℤ) / 1 : ℝ) (3 : ℝ)) (1 / 2) Q) 1 4
      (gluon.thermal.polarization_quark_l_thermal_part_landau .exact k (ofR (2 * Real.pi * (1 : ℤ) / 1) : ℝ) (ofR 3 : ℝ) (1 / 2) 1 4) :=
  C84_quark_l dirac_clifford k (l := 1) rfl one_ne_zero (by norm_num) one_pos (1 / 2) 4

example (k : consts.Consts ℝ) : IsDenseQuarkDiagram
    (fun Q => Spec.average Spec.polT fun e => quarkDiagram dirac k.nc e (external (2 : ℝ) (3 : ℝ)) (1 / 2) Q) 4
      (gluon.thermal.polarization_quark_t_thermal_part_zero_temp_landau .exact k (ofR 2 : ℝ) 3 (1 / 2) 4) :=
  C84_quark_t_zero_temp dirac_clifford k (by norm_num) (by norm_num) (1 / 2) 4

end Qcd
