import Mathlib.Analysis.SpecialFunctions.Log.Deriv
import Mathlib.Analysis.SpecialFunctions.Sqrt
import Mathlib.Tactic.FieldSimp

/-! # The radial integral of the gluon loop in vacuum: variables that make it rational -/

namespace Qcd.GluonRadial
open Set
open scoped Real

/-- The root that is made rational. -/
noncomputable def w (s x : ℝ) : ℝ := √((x + 1 - s) ^ 2 + 4 * s)

/-- The new variable of integration. -/
noncomputable def sg (s x : ℝ) : ℝ := (x + 1 - s + w s x) / 2

section
variable {s x : ℝ}

theorem w_sq (hs : 0 < s) (x : ℝ) : w s x ^ 2 = (x + 1 - s) ^ 2 + 4 * s := Real.sq_sqrt (by positivity)

theorem w_pos (hs : 0 < s) (x : ℝ) : 0 < w s x := Real.sqrt_pos.2 (by positivity)

theorem sg_pos (hs : 0 < s) (x : ℝ) : 0 < sg s x := by
  have h1 := w_sq hs x
  have h2 := w_pos hs x
  have : -(x + 1 - s) < w s x := by
    by_contra h
    push Not at h
    nlinarith
  unfold sg
  linarith

theorem sg_eq (hs : 0 < s) (x : ℝ) : sg s x ^ 2 = (x + 1 - s) * sg s x + s := by
  have h1 := w_sq hs x
  unfold sg
  linear_combination h1 / 4

theorem x_eq (hs : 0 < s) (x : ℝ) : x = (sg s x - 1) * (sg s x + s) / sg s x := by
  have h := sg_eq hs x
  have h2 := sg_pos hs x
  field_simp
  linear_combination -h

theorem w_eq (hs : 0 < s) (x : ℝ) : w s x = (sg s x ^ 2 + s) / sg s x := by
  have h := sg_eq hs x
  have h2 := sg_pos hs x
  have h3 : w s x = 2 * sg s x - (x + 1 - s) := by unfold sg; ring
  field_simp
  rw [h3]
  linear_combination h

theorem sg_zero (hs : 0 < s) : sg s 0 = 1 := by
  have : w s 0 = 1 + s := by
    unfold w
    rw [show (0 + 1 - s) ^ 2 + 4 * s = (1 + s) ^ 2 by ring, Real.sqrt_sq (by positivity)]
  rw [sg, this]
  ring

theorem sg_deriv (hs : 0 < s) (x : ℝ) : HasDerivAt (sg s) (sg s x / w s x) x := by
  have h1 : HasDerivAt (fun x : ℝ => (x + 1 - s) ^ 2 + 4 * s) (2 * (x + 1 - s)) x := by
    have := (((((hasDerivAt_id x).add_const 1).sub_const s).pow 2).add_const (4 * s))
    simpa using this
  have h2 := h1.sqrt (by positivity)
  have h3 := ((((hasDerivAt_id x).add_const 1).sub_const s).add h2).div_const 2
  refine h3.congr_deriv ?_
  have h4 := w_pos hs x
  have e : √((x + 1 - s) ^ 2 + 4 * s) = w s x := rfl
  rw [e, sg]
  field_simp
  ring

/-- The root of the threshold. -/
noncomputable def rho (s : ℝ) : ℝ := √(s ^ 2 + 4 * s)

theorem rho_sq (hs : 0 < s) : rho s ^ 2 = s ^ 2 + 4 * s := Real.sq_sqrt (by positivity)

theorem rho_pos (hs : 0 < s) : 0 < rho s := Real.sqrt_pos.2 (by positivity)

theorem lt_rho (hs : 0 < s) : s < rho s := by
  have h1 := rho_sq hs
  have h2 := rho_pos hs
  by_contra h
  push Not at h
  nlinarith

theorem rho_lt (hs : 0 < s) {t : ℝ} (ht : 0 < t) (h : 0 < t ^ 2 + s * t - s) : 0 < 2 * t + s - rho s := by
  have h1 := rho_sq hs
  by_contra h2
  push Not at h2
  nlinarith [rho_pos hs]

/-- The logarithm of the threshold. -/
noncomputable def La (s t : ℝ) : ℝ := (Real.log (2 * t + s - rho s) - Real.log (2 * t + s + rho s)) / rho s

theorem La_deriv (hs : 0 < s) {t : ℝ} (ht : 0 < t) (h : 0 < t ^ 2 + s * t - s) : HasDerivAt (La s) (t ^ 2 + s * t - s)⁻¹ t := by
  have h1 := rho_lt hs ht h
  have h2 := rho_pos hs
  have h3 : 0 < 2 * t + s + rho s := by positivity
  have i : HasDerivAt (fun t : ℝ => 2 * t + s) 2 t := by simpa using ((hasDerivAt_id t).const_mul 2).add_const s
  have d := (((i.sub_const (rho s)).log h1.ne').sub ((i.add_const (rho s)).log h3.ne')).div_const (rho s)
  refine d.congr_deriv ?_
  have e : t ^ 2 + s * t - s = (2 * t + s - rho s) * (2 * t + s + rho s) / 4 := by linear_combination (rho_sq hs) / 4
  rw [e]
  field_simp
  ring

/-! ### Antiderivatives -/

noncomputable def e1 (s : ℝ) : ℝ := (-1 + 7 * s + 26 * s ^ 2 - 3 * s ^ 3) / s ^ 2
noncomputable def e2 (s : ℝ) : ℝ := (1 - 67 * s + 99 * s ^ 2 - 24 * s ^ 3) / s
noncomputable def e3 (s : ℝ) : ℝ := -1 - 5 * s + 12 * s ^ 2
noncomputable def e4 (s : ℝ) : ℝ := -11 * s + 10 * s ^ 2
noncomputable def hh (s : ℝ) : ℝ := (1 - 7 * s - 26 * s ^ 2 - 26 * s ^ 3 - 7 * s ^ 4 + s ^ 5) / s ^ 2
noncomputable def g0 (s : ℝ) : ℝ := 96 - 148 * s - 12 * s ^ 2 + s ^ 3
noncomputable def g1 (s : ℝ) : ℝ := -72 + 108 * s + 14 * s ^ 2 - s ^ 3

/-- Antiderivative of the massive line in the new variable. -/
noncomputable def F1 (s t : ℝ) : ℝ :=
  -3 / 2 * t ^ 2 + (39 - 32 * s) * t + e1 s * Real.log t - e2 s * t⁻¹ - e3 s / 2 * t⁻¹ ^ 2 - e4 s / 3 * t⁻¹ ^ 3 + s ^ 2 / 4 * t⁻¹ ^ 4
    + hh s * Real.log (t + s) + g1 s / 2 * Real.log (t ^ 2 + s * t - s) + (g0 s - g1 s * s / 2) * La s t

/-- Its derivative, as partial fractions. -/
theorem F1_deriv (hs : 0 < s) {t : ℝ} (ht : 0 < t) (h : 0 < t ^ 2 + s * t - s) :
    HasDerivAt (F1 s) (-3 * t + (39 - 32 * s) + e1 s / t + e2 s / t ^ 2 + e3 s / t ^ 3 + e4 s / t ^ 4 - s ^ 2 / t ^ 5 + hh s / (t + s)
      + (g1 s * t + g0 s) / (t ^ 2 + s * t - s)) t := by
  have p2 : HasDerivAt (fun t : ℝ => t ^ 2) (2 * t) t := by simpa using hasDerivAt_pow 2 t
  have i0 : HasDerivAt (fun t : ℝ => t) 1 t := hasDerivAt_id t
  have i1 : HasDerivAt (fun t : ℝ => t⁻¹) (-(t ^ 2)⁻¹) t := hasDerivAt_inv ht.ne'
  have i2 : HasDerivAt (fun t : ℝ => t⁻¹ ^ 2) (2 * t⁻¹ * -(t ^ 2)⁻¹) t := by simpa only [Nat.cast_ofNat, Nat.add_one_sub_one, pow_one] using i1.fun_pow 2
  have i3 : HasDerivAt (fun t : ℝ => t⁻¹ ^ 3) (3 * t⁻¹ ^ 2 * -(t ^ 2)⁻¹) t := by simpa only [Nat.cast_ofNat, Nat.add_one_sub_one, pow_one] using i1.fun_pow 3
  have i4 : HasDerivAt (fun t : ℝ => t⁻¹ ^ 4) (4 * t⁻¹ ^ 3 * -(t ^ 2)⁻¹) t := by simpa only [Nat.cast_ofNat, Nat.add_one_sub_one, pow_one] using i1.fun_pow 4
  have l0 : HasDerivAt (fun t : ℝ => Real.log t) t⁻¹ t := Real.hasDerivAt_log ht.ne'
  have l1 : HasDerivAt (fun t : ℝ => Real.log (t + s)) (1 / (t + s)) t := (i0.add_const s).log (by positivity)
  have l2 : HasDerivAt (fun t : ℝ => Real.log (t ^ 2 + s * t - s)) ((2 * t + s * 1) / (t ^ 2 + s * t - s)) t :=
    ((p2.add (i0.const_mul s)).sub_const s).log h.ne'
  have d := (((((((((p2.const_mul (-3 / 2)).add (i0.const_mul (39 - 32 * s))).add (l0.const_mul (e1 s))).sub (i1.const_mul (e2 s))).sub
    (i2.const_mul (e3 s / 2))).sub (i3.const_mul (e4 s / 3))).add (i4.const_mul (s ^ 2 / 4))).add (l1.const_mul (hh s))).add
    (l2.const_mul (g1 s / 2))).add ((La_deriv hs ht h).const_mul (g0 s - g1 s * s / 2))
  refine d.congr_deriv ?_
  generalize e1 s = e1
  generalize e2 s = e2
  generalize e3 s = e3
  generalize e4 s = e4
  generalize hh s = hh
  generalize g1 s = g1
  generalize g0 s = g0
  have h3 : t + s ≠ 0 := by positivity
  generalize t ^ 2 + s * t - s = y at *
  have := h.ne'
  field_simp
  ring

/-- The massive line: `8/π` times the integral over the angle. -/
noncomputable def w1 (s x : ℝ) : ℝ := (3 - x * s / (sg s x + s) ^ 2) / (sg s x + s)

/-- The partial fractions are the massive part of the integrand. -/
theorem partial_fractions (hs : 0 < s) {t : ℝ} (ht : 0 < t) (h : 0 < t ^ 2 + s * t - s) {x : ℝ} (hx : x = (t - 1) * (t + s) / t) :
    (-3 * t + (39 - 32 * s) + e1 s / t + e2 s / t ^ 2 + e3 s / t ^ 3 + e4 s / t ^ 4 - s ^ 2 / t ^ 5 + hh s / (t + s)
      + (g1 s * t + g0 s) / (t ^ 2 + s * t - s)) * (t / ((t ^ 2 + s) / t)) =
      x / (x + 1) * ((8 * x + 12 * s - (x - 1 - s) ^ 2 - 12 * s * x) * ((3 - x * s / (t + s) ^ 2) / (t + s))) := by
  have h1 : x + 1 = (t ^ 2 + s * t - s) / t := by rw [hx]; field_simp; ring
  rw [h1, hx, e1, e2, e3, e4, hh, g0, g1]
  have h3 : t + s ≠ 0 := by positivity
  have h4 : t ^ 2 + s ≠ 0 := by positivity
  obtain ⟨y, hy⟩ : ∃ y, y = t ^ 2 + s * t - s := ⟨_, rfl⟩
  rw [← hy] at h ⊢
  have h5 := h.ne'
  clear h1 hx h
  field_simp
  rw [hy]
  ring

theorem F1_sg (hs : 0 < s) {x : ℝ} (hx : -1 < x) :
    HasDerivAt (fun x => F1 s (sg s x)) (x / (x + 1) * ((8 * x + 12 * s - (x - 1 - s) ^ 2 - 12 * s * x) * w1 s x)) x := by
  have h1 := sg_pos hs x
  have h2 : 0 < sg s x ^ 2 + s * sg s x - s := by
    have : sg s x ^ 2 + s * sg s x - s = sg s x * (x + 1) := by linear_combination sg_eq hs x
    rw [this]
    have : 0 < x + 1 := by linarith
    positivity
  have := (F1_deriv hs h1 h2).comp x (sg_deriv hs x)
  refine this.congr_deriv ?_
  rw [w_eq hs x, w1, ← partial_fractions hs h1 h2 (x_eq hs x)]

end
end Qcd.GluonRadial
