import Verif.Lemmas.GluonFinite

/-! # The derivative of the finite part of the gluon loop is the vacuum gluon function -/

namespace Qcd.GluonRadial
open Set
open scoped Real

section
variable {s : ℝ}

/-- The logarithm of the code in terms of the threshold. -/
theorem La_one (hs : 0 < s) : La s 1 * rho s = 2 * (Real.log ((Real.sqrt (s⁻¹ * 4 + 1) - 1) / 2) * 2 + Real.log s) := by
  have h1 := rho_sq hs
  have h2 := rho_pos hs
  have h3 := lt_rho hs
  have ha : Real.sqrt (s⁻¹ * 4 + 1) = rho s / s := by
    rw [Real.sqrt_eq_iff_mul_self_eq (by positivity) (by positivity)]
    field_simp
    linear_combination -h1
  have hm : 0 < 2 * 1 + s - rho s := rho_lt hs one_pos (by norm_num)
  have e1 : Real.log (2 * 1 + s + rho s) = Real.log 4 - Real.log (2 * 1 + s - rho s) := by
    rw [← Real.log_div (by norm_num) hm.ne']
    congr 1
    rw [eq_div_iff hm.ne']
    linear_combination -h1
  have h4 : 0 < (rho s / s - 1) / 2 := by
    have : 1 < rho s / s := (one_lt_div hs).2 h3
    linarith
  have e2 : Real.log ((rho s / s - 1) / 2) * 2 + Real.log s = Real.log (2 * 1 + s - rho s) - Real.log 2 := by
    rw [← Real.log_div hm.ne' (by norm_num), show Real.log ((rho s / s - 1) / 2) * 2 = Real.log (((rho s / s - 1) / 2) ^ 2) by rw [Real.log_pow]; push_cast; ring,
      ← Real.log_mul (by positivity) hs.ne']
    congr 1
    field_simp
    linear_combination h1
  have e3 : Real.log 4 = 2 * Real.log 2 := by
    rw [show (4 : ℝ) = 2 ^ 2 by norm_num, Real.log_pow]; push_cast; ring
  rw [ha, e2, La, e1, e3]
  field_simp
  ring

theorem rho_deriv (hs : 0 < s) : HasDerivAt rho ((s + 2) / rho s) s := by
  have h2 := rho_pos hs
  have i : HasDerivAt (fun s : ℝ => s ^ 2 + 4 * s) (2 * s + 4 * 1) s := by
    have := (hasDerivAt_pow 2 s).fun_add ((hasDerivAt_id s).const_mul 4)
    simpa using this
  refine (i.sqrt (by positivity)).congr_deriv ?_
  have e : √(s ^ 2 + 4 * s) = rho s := rfl
  rw [e]
  field_simp
  ring

theorem La_one_deriv (hs : 0 < s) : HasDerivAt (fun s => La s 1) (-(2 + La s 1 * (s + 2)) / rho s ^ 2) s := by
  have h1 := rho_sq hs
  have h2 := rho_pos hs
  have hm : 0 < 2 * 1 + s - rho s := rho_lt hs one_pos (by norm_num)
  have hp : 0 < 2 * 1 + s + rho s := by positivity
  have i : HasDerivAt (fun s : ℝ => 2 * 1 + s) 1 s := (hasDerivAt_id s).const_add _
  have d := (((i.sub (rho_deriv hs)).log hm.ne').sub ((i.add (rho_deriv hs)).log hp.ne')).fun_div (rho_deriv hs) h2.ne'
  refine d.congr_deriv ?_
  simp only [Pi.sub_apply, Pi.add_apply, La]
  have a1 : (1 - (s + 2) / rho s) / (2 * 1 + s - rho s) = -1 / rho s := by
    rw [div_eq_iff hm.ne']
    field_simp
    ring
  have a2 : (1 + (s + 2) / rho s) / (2 * 1 + s + rho s) = 1 / rho s := by
    rw [div_eq_iff hp.ne']
    field_simp
    ring
  rw [a1, a2]
  field_simp
  ring

/-- The derivative of the finite part. -/
theorem dd_deriv (hs : 0 < s) : ∃ d, HasDerivAt dd d s ∧
    gluon.f s = (-d + 45 / s + 2 * Real.log s + 101 / 3) / 72 := by
  have i1 : HasDerivAt (fun x : ℝ => x) 1 s := hasDerivAt_id s
  have hn : s ≠ 0 := hs.ne'
  have h1 : s + 1 ≠ 0 := by positivity
  have l0 : HasDerivAt (fun x : ℝ => Real.log x) s⁻¹ s := Real.hasDerivAt_log hs.ne'
  have l1 : HasDerivAt (fun x : ℝ => Real.log (x + 1)) (1 / (s + 1)) s := (i1.add_const 1).log h1
  have r0 := rho_sq hs
  have r1 := rho_pos hs
  -- the rational parts and the coefficients of the logarithms
  let p : ℝ → ℝ := fun s => 95 / 3 * s - 75 + 2 * s⁻¹
  let c1 : ℝ → ℝ := fun s => 29 * s + 7 * s ^ 2 - s ^ 3 + (-s⁻¹ ^ 2 + 7 * s⁻¹ + 26 - 3 * s)
    - (s⁻¹ ^ 2 - 7 * s⁻¹ - 26 - 26 * s - 7 * s ^ 2 + s ^ 3)
  let c2 : ℝ → ℝ := fun s => 96 - 148 * s - 12 * s ^ 2 + s ^ 3 - (-72 + 108 * s + 14 * s ^ 2 - s ^ 3) * s / 2
  have hdd : ∀ s : ℝ, 0 < s → dd s = p s + c1 s * Real.log (s + 1) + s ^ 3 * Real.log s - c2 s * La s 1 := fun s hs => by
    simp only [dd, Khi, Klo, F1, p, c1, c2, e1, e2, e3, e4, hh, g0, g1]
    have z : (1 : ℝ) ^ 2 + s * 1 - s = 1 := by ring
    rw [z, Real.log_one, add_comm 1 s]
    generalize La s 1 = L
    generalize Real.log (s + 1) = A
    generalize Real.log s = B
    field_simp
    ring
  have q2 : HasDerivAt (fun x : ℝ => x ^ 2) (2 * s) s := by simpa using hasDerivAt_pow 2 s
  have q3 : HasDerivAt (fun x : ℝ => x ^ 3) (3 * s ^ 2) s := by simpa using hasDerivAt_pow 3 s
  have v1 : HasDerivAt (fun x : ℝ => x⁻¹) (-(s ^ 2)⁻¹) s := hasDerivAt_inv hn
  have v2 : HasDerivAt (fun x : ℝ => x⁻¹ ^ 2) (2 * s⁻¹ * -(s ^ 2)⁻¹) s := by simpa only [Nat.cast_ofNat, Nat.add_one_sub_one, pow_one] using v1.fun_pow 2
  have dp := (((i1.const_mul (95 / 3)).sub_const 75).fun_add (v1.const_mul 2))
  have dc1 := ((((i1.const_mul 29).fun_add (q2.const_mul 7)).fun_sub q3).fun_add ((((v2.fun_neg.fun_add (v1.const_mul 7)).add_const 26).fun_sub (i1.const_mul 3)))).fun_sub
    (((((v2.fun_sub (v1.const_mul 7)).sub_const 26).fun_sub (i1.const_mul 26)).fun_sub (q2.const_mul 7)).fun_add q3)
  have dc2 := (((i1.const_mul 148).const_sub 96).fun_sub (q2.const_mul 12)).fun_add q3 |>.fun_sub
    ((((((i1.const_mul 108).const_add (-72)).fun_add (q2.const_mul 14)).fun_sub q3).fun_mul i1).div_const 2)
  have key := (((dp.fun_add (dc1.fun_mul l1)).fun_add (q3.fun_mul l0)).fun_sub (dc2.fun_mul (La_one_deriv hs)))
  refine ⟨_, key.congr_of_eventuallyEq ?_, ?_⟩
  · filter_upwards [lt_mem_nhds hs] with x hx
    exact hdd x hx
  · have hL := La_one hs
    have ha : Real.sqrt (s⁻¹ * 4 + 1) = rho s / s := by
      rw [Real.sqrt_eq_iff_mul_self_eq (by positivity) (by positivity)]
      field_simp
      linear_combination -r0
    simp only [gluon.f, gluon.f_sep, gluon.l_a, gluon.l_b, gluon.l_c, gluon.r_a, gluon.r_b, gluon.r_c, ln_real, sqrt_real, ofR_real]
    have hL' : Real.log ((Real.sqrt (s⁻¹ * 4 + 1) - 1) / 2) * 2 + Real.log s = La s 1 * rho s / 2 := by rw [hL]; ring
    rw [hL', ha, r0]
    have e : ∀ c : ℝ, c * (rho s / s) * (La s 1 * rho s / 2) = c * (s + 4) * La s 1 / 2 := fun c => by
      field_simp
      linear_combination c * La s 1 * r0
    rw [e]
    generalize La s 1 = L
    generalize Real.log (s + 1) = A
    generalize Real.log s = B
    have h4 : s ^ 2 + 4 * s = s * (s + 4) := by ring
    have h5 : s + 4 ≠ 0 := by positivity
    rw [h4]
    field_simp
    ring

end
end Qcd.GluonRadial
