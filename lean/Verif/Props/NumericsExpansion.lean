import Verif.Lemmas.Numerics
import Verif.Lemmas.ZeroMomentum
import Mathlib.Tactic.FieldSimp

/-! # C105, continued: the expansions of the logarithms at small momentum -/

namespace Qcd
open Complex Filter Topology

/-- **C105** (expansions): the functions `tlog_1o`, `tlog_l_3o` and `tlog_t_3o` of the reference
program, from which the formulas at zero momentum were derived, are the coefficients of the
expansion in the momentum: the first of the scalar logarithm, the third of the longitudinal and
transverse ones, whose first coefficients are equal. (At `om = 0` the longitudinal ones divide by zero: read the second
statement for `om ≠ 0`.) -/
theorem C105_expansions {q : ℝ} (hq : 0 < q) (om en delta : ℂ) (hr : om ^ 2 + 2 * Complex.I * en * om + delta ≠ 0) :
    Tendsto (fun p : ℝ => numerics.tlog q om p en delta / p) (𝓝[≠] 0) (𝓝 (numerics.tlog_1o q om en delta)) ∧
    Tendsto (fun p : ℝ => (numerics.tlog_l2 q om p en delta - 4 * q * (om ^ 2 + 2 * Complex.I * en * om + delta) * p) / p ^ 3)
      (𝓝[≠] 0) (𝓝 (numerics.tlog_l_3o q om en delta)) ∧
    Tendsto (fun p : ℝ => (numerics.tlog_t q om p en delta - 4 * q * (om ^ 2 + 2 * Complex.I * en * om + delta) * p) / p ^ 3)
      (𝓝[≠] 0) (𝓝 (numerics.tlog_t_3o q om en delta)) := by
  have hR0 : R0 om 0 en delta = om ^ 2 + 2 * Complex.I * en * om + delta := by simp only [R0]; ring
  have hR : R0 om 0 en delta ≠ 0 := by rw [hR0]; exact hr
  have hRp : ∀ p : ℝ, om ^ 2 + 2 * Complex.I * en * om + delta = R0 om p en delta - (p : ℂ) ^ 2 := by
    intro p; simp only [R0]; ring
  refine ⟨?_, ?_, ?_⟩
  · have := tendsto_phi hq hR (Φ := fun x => 4 * q / x.2.1 + 8 * q ^ 3 * x.1 ^ 2 / x.2.1 ^ 3 * x.2.2)
      (by fun_prop (disch := simpa using hR))
    have hv : numerics.tlog_1o q om en delta = 4 * q / R0 om 0 en delta
        + 8 * q ^ 3 * (0 : ℂ) ^ 2 / R0 om 0 en delta ^ 3 * (2 / 3) := by
      rw [numerics.tlog_1o, hR0]; simp
    rw [hv]
    refine this.congr' ?_
    filter_upwards [TL_eventually hq hR, R0_ne_eventually hR, self_mem_nhdsWithin] with p h1 h2 h3
    have hp : (p : ℂ) ≠ 0 := by exact_mod_cast h3
    rw [num_tlog, h1]
    generalize R0 om p en delta = R at *
    generalize PsiP q om en delta p = Ψ
    field_simp
    ring
  · have := tendsto_phi hq hR (Φ := fun x => 4 * q + 8 * q ^ 3 * x.2.2 / x.2.1
        + (2 * Complex.I * en / om) * (8 * q + 16 * q ^ 3 * x.1 ^ 2 * x.2.2 / x.2.1 ^ 2)
        + (2 * Complex.I * en / om) ^ 2 * x.1 ^ 2 * (4 * q / x.2.1 + 8 * q ^ 3 * x.1 ^ 2 * x.2.2 / x.2.1 ^ 3))
      (by fun_prop (disch := simpa using hR))
    have hv : numerics.tlog_l_3o q om en delta = 4 * q + 8 * q ^ 3 * (2 / 3) / R0 om 0 en delta
        + (2 * Complex.I * en / om) * (8 * q + 16 * q ^ 3 * (0 : ℂ) ^ 2 * (2 / 3) / R0 om 0 en delta ^ 2)
        + (2 * Complex.I * en / om) ^ 2 * (0 : ℂ) ^ 2 * (4 * q / R0 om 0 en delta
          + 8 * q ^ 3 * (0 : ℂ) ^ 2 * (2 / 3) / R0 om 0 en delta ^ 3) := by
      rw [numerics.tlog_l_3o, hR0]
      generalize om ^ 2 + 2 * Complex.I * en * om + delta = R at *
      ring
    rw [hv]
    refine this.congr' ?_
    filter_upwards [TL_eventually hq hR, R0_ne_eventually hR, self_mem_nhdsWithin] with p h1 h2 h3
    have hp : (p : ℂ) ≠ 0 := by exact_mod_cast h3
    have e : om ^ 2 + 2 * Complex.I * om * en + delta + (p : ℂ) ^ 2 * (2 * Complex.I * en / om + 1)
        = R0 om p en delta + (2 * Complex.I * en / om) * p ^ 2 := by simp only [R0]; ring
    rw [numerics.tlog_l2, e, hRp p, num_tlog, h1]
    generalize R0 om p en delta = R at *
    generalize PsiP q om en delta p = Ψ
    generalize 2 * Complex.I * en / om = c
    field_simp
    ring
  · have := tendsto_phi hq hR (Φ := fun x => 4 * q + 8 * q ^ 3 * x.2.2 / x.2.1
        - 4 * q ^ 2 * (4 * q / x.2.1 + 8 * q ^ 3 * x.1 ^ 2 * x.2.2 / x.2.1 ^ 3))
      (by fun_prop (disch := simpa using hR))
    have hv : numerics.tlog_t_3o q om en delta = 4 * q + 8 * q ^ 3 * (2 / 3) / R0 om 0 en delta
        - 4 * q ^ 2 * (4 * q / R0 om 0 en delta + 8 * q ^ 3 * (0 : ℂ) ^ 2 * (2 / 3) / R0 om 0 en delta ^ 3) := by
      rw [numerics.tlog_t_3o, hR0]
      generalize om ^ 2 + 2 * Complex.I * en * om + delta = R at *
      ring
    rw [hv]
    refine this.congr' ?_
    filter_upwards [TL_eventually hq hR, R0_ne_eventually hR, self_mem_nhdsWithin] with p h1 h2 h3
    have hp : (p : ℂ) ≠ 0 := by exact_mod_cast h3
    have e : om ^ 2 + (p : ℂ) ^ 2 + 2 * Complex.I * en * om + delta = R0 om p en delta := by simp only [R0]; ring
    simp only [numerics.tlog_t, e, hRp p, num_tlog, h1]
    generalize R0 om p en delta = R at *
    generalize PsiP q om en delta p = Ψ
    field_simp
    ring

example : ((1 : ℂ)) ^ 2 + 2 * Complex.I * 1 * 1 + 0 ≠ 0 := by
  intro h; have := congrArg Complex.re h; simp at this

end Qcd
