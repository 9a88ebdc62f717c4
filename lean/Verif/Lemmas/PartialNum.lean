import Verif.Model.ThermalPartial
import Verif.Lemmas.Holomorphic
import Verif.Lemmas.Numerics

/-! # Values of the operations on numbers that may be undefined -/

namespace Qcd
namespace PV
variable {T : Type}

theorem num_val (n : ℕ) [OfNat T n] : (OfNat.ofNat n : PV T) = val (OfNat.ofNat n) := rfl
theorem I_val : PV.I = val Qcd.I := rfl

section
variable [Num T]
theorem add_val (x y : T) : val x + val y = val (x + y) := rfl
theorem sub_val (x y : T) : val x - val y = val (x - y) := rfl
theorem mul_val (x y : T) : val x * val y = val (x * y) := rfl
theorem neg_val (x : T) : -val x = val (-x) := rfl
theorem inv_val {x : T} (h : x ≠ 0) : (val x)⁻¹ = val x⁻¹ := if_pos h
theorem div_val {x y : T} (h : y ≠ 0) : val x / val y = val (x / y) := by
  have e : val x / val y = val x * (val y)⁻¹ := rfl
  rw [e, inv_val h, mul_val, div_eq_mul_inv]
theorem ofR_val (r : ℝ) : (ofR (val r) : PV T) = val (Qcd.ofR r) := rfl
theorem toC_val (x : T) : toC (val x) = val (Qcd.toC x) := rfl
theorem exp_val (x : T) : exp (val x) = val (NumOps.exp x) := rfl
end

theorem ln_val_real {x : ℝ} (h : 0 < x) : ln (val x) = val (NumOps.ln x) := if_pos h
theorem ln_val {z : ℂ} (h : z ≠ 0) : ln (val z) = val (NumOps.ln z) := if_pos h
theorem sqrt_val_real {x : ℝ} (h : 0 ≤ x) : sqrt (val x) = val (NumOps.sqrt x) := if_pos h

section
variable [Num T]
theorem undef_add (x : PV T) : undef + x = undef := rfl
theorem add_undef (x : PV T) : x + undef = undef := by cases x <;> rfl
theorem undef_sub (x : PV T) : undef - x = undef := rfl
theorem sub_undef (x : PV T) : x - undef = undef := by cases x <;> rfl
theorem undef_mul (x : PV T) : undef * x = undef := rfl
theorem mul_undef (x : PV T) : x * undef = undef := by cases x <;> rfl
theorem neg_undef : -(undef : PV T) = undef := rfl
theorem inv_undef : (undef : PV T)⁻¹ = undef := rfl
theorem div_undef (x : PV T) : x / undef = undef := mul_undef x
theorem undef_div (x : PV T) : undef / x = undef := rfl
theorem inv_zero_val : (val (0 : T))⁻¹ = undef := if_neg (by simp)
theorem div_zero_val (x : PV T) : x / val 0 = undef := by
  have e : x / val 0 = x * (val 0)⁻¹ := rfl
  rw [e, inv_zero_val, mul_undef]
theorem ofR_undef : (ofR undef : PV T) = undef := rfl
theorem toC_undef : toC (undef : PV T) = undef := rfl
theorem ln_undef [NumDom T] : ln (undef : PV T) = undef := rfl
theorem toC_zero : Qcd.toC (0 : T) = 0 := map_zero (Num.toC : T →+* ℂ)
end

end PV

namespace Def

open PV

theorem energy_mul (q m : ℝ) : energy q m * energy q m = m * m + q * q := by
  have := energy_sq_real q m
  nlinarith

theorem energy_ne {q m : ℝ} (hq : 0 < q) : energy q m ≠ 0 := (energy_pos hq).ne'

section
variable {T : Type} [Num T]

theorem toC_ne {x : T} (h : x ≠ 0) : toC x ≠ 0 := fun h' => h (toC_injective (h'.trans (map_zero (Num.toC : T →+* ℂ)).symm))

theorem ne_of_toC {x : T} (h : toC x ≠ 0) : x ≠ 0 := fun h' => h (by rw [h']; exact map_zero (Num.toC : T →+* ℂ))

theorem om_ne {om : T} (ho : (toC om).re ≠ 0) : om ≠ 0 := ne_of_toC fun h => ho (by rw [h]; rfl)

theorem re_neg_ne {om : T} (ho : (toC om).re ≠ 0) : (toC (-om)).re ≠ 0 := by
  rw [toC_neg', Complex.neg_re]
  exact neg_ne_zero.2 ho

/-- The quadratic polynomial behind all the denominators: its roots are imaginary. -/
theorem quad_ne {w : ℂ} (hw : w.re ≠ 0) {e c : ℝ} (h : 0 ≤ e * e + c) : w * w + w * (((e * 2 : ℝ) : ℂ) * Complex.I) + (c : ℂ) ≠ 0 := by
  intro h0
  have h1 := congrArg Complex.re h0
  have h2 := congrArg Complex.im h0
  simp at h1 h2
  have h3 : w.im = -e := by
    have : w.re * (w.im + e) = 0 := by linarith
    rcases mul_eq_zero.1 this with h | h
    · exact absurd h hw
    · linarith
  rw [h3] at h1
  nlinarith [mul_self_pos.2 hw]

theorem sum_ne {om : T} (ho : (toC om).re ≠ 0) (x : ℝ) (hx : 0 ≤ x) : toC (om * om) + ((x : ℝ) : ℂ) ≠ 0 := by
  have := quad_ne ho (e := 0) (c := x) (by simpa using hx)
  rw [toC_mul']
  simpa using this

theorem sum_ne_p {om : T} (ho : (toC om).re ≠ 0) (p : ℝ) : toC (om * om) + toC (p * p) ≠ 0 := sum_ne ho _ (mul_self_nonneg p)

theorem sum_ne_T {om : T} (ho : (toC om).re ≠ 0) (p : ℝ) : om * om + (ofR (p * p) : T) ≠ 0 := ne_of_toC (by
  rw [toC_add', toC_ofR]; exact sum_ne ho _ (mul_self_nonneg p))

theorem sum_ne_four {om : T} (ho : (toC om).re ≠ 0) (e : ℝ) : om * om + (ofR (4 * (e * e)) : T) ≠ 0 := ne_of_toC (by
  rw [toC_add', toC_ofR]; exact sum_ne ho _ (by nlinarith [mul_self_nonneg e]))

theorem r0_add_ne {T4 : Type} [Num T4] {om : T} (ho : (toC om).re ≠ 0) {p en x : ℝ} {delta : T4} (hd : (toC delta).im = 0)
    (h : 0 ≤ en * en + (p * p + (toC delta).re + x)) : thermal.r_0 om p en delta + ((x : ℝ) : ℂ) ≠ 0 := by
  have e : toC delta = (((toC delta).re : ℝ) : ℂ) := by apply Complex.ext <;> simp [hd]
  have := quad_ne ho h
  rw [thermal.r_0, toC_mul' om, e]
  intro h0
  apply this
  rw [← h0]
  simp only [toC_real, ofR_real]
  push_cast
  ring

theorem r0_same_add_ne {om : T} (ho : (toC om).re ≠ 0) {p en x : ℝ}
    (h : 0 ≤ en * en + (p * p + x)) : thermal.r_0_same_mass om p en + ((x : ℝ) : ℂ) ≠ 0 := by
  have := quad_ne ho h
  rw [thermal.r_0_same_mass, toC_mul' om]
  intro h0
  apply this
  rw [← h0]
  simp only [toC_real, ofR_real]
  push_cast
  ring

/-- `q² + p² ≥ |x|` if `x² = 4 q² p²`. -/
theorem abs_le_of_sq {q p x : ℝ} (hx : x * x = 4 * (q * q) * (p * p)) : 0 ≤ q * q + p * p + x := by
  by_contra h
  nlinarith [sq_nonneg (q * q - p * p), mul_self_nonneg q, mul_self_nonneg p]

section forms
variable {T4 : Type} [Num T4] {om : T} (ho : (toC om).re ≠ 0) {q p x : ℝ} (hx : x * x = 4 * (q * q) * (p * p)) {delta : T4} (hd : (toC delta).im = 0)
include ho hx hd

theorem r0_add {m : ℝ} (hm : 0 ≤ m * m + (toC delta).re) : thermal.r_0 om p (energy q m) delta + (ofR x : ℂ) ≠ 0 :=
  r0_add_ne ho hd (by rw [energy_mul]; nlinarith [abs_le_of_sq hx])
theorem r0_sub {m : ℝ} (hm : 0 ≤ m * m + (toC delta).re) : thermal.r_0 om p (energy q m) delta - (ofR x : ℂ) ≠ 0 := by
  have := r0_add_ne (x := -x) (p := p) (en := energy q m) ho hd (by rw [energy_mul]; nlinarith [abs_le_of_sq (x := -x) ((neg_mul_neg x x).trans hx)])
  simpa [sub_eq_add_neg] using this
theorem add_r0 {m : ℝ} (hm : 0 ≤ m * m + (toC delta).re) : toC x + thermal.r_0 om p (energy q m) delta ≠ 0 := by
  rw [add_comm]; exact r0_add ho hx hd hm
theorem r0_add_q (hm : 0 ≤ (toC delta).re) : thermal.r_0 om p q delta + (ofR x : ℂ) ≠ 0 :=
  r0_add_ne ho hd (by nlinarith [abs_le_of_sq hx])
theorem r0_sub_q (hm : 0 ≤ (toC delta).re) : thermal.r_0 om p q delta - (ofR x : ℂ) ≠ 0 := by
  have := r0_add_ne (x := -x) (p := p) (en := q) ho hd (by nlinarith [abs_le_of_sq (x := -x) ((neg_mul_neg x x).trans hx)])
  simpa [sub_eq_add_neg] using this
theorem add_r0_q (hm : 0 ≤ (toC delta).re) : toC x + thermal.r_0 om p q delta ≠ 0 := by
  rw [add_comm]; exact r0_add_q ho hx hd hm
end forms

section forms
variable {om : T} (ho : (toC om).re ≠ 0) {q p x : ℝ} (hx : x * x = 4 * (q * q) * (p * p))
include ho hx

theorem r0s_add {m : ℝ} : thermal.r_0_same_mass om p (energy q m) + (ofR x : ℂ) ≠ 0 :=
  r0_same_add_ne ho (by rw [energy_mul]; nlinarith [abs_le_of_sq hx, mul_self_nonneg m])
theorem r0s_sub {m : ℝ} : thermal.r_0_same_mass om p (energy q m) - (ofR x : ℂ) ≠ 0 := by
  have := r0_same_add_ne (x := -x) (p := p) (en := energy q m) ho (by rw [energy_mul]; nlinarith [abs_le_of_sq (x := -x) ((neg_mul_neg x x).trans hx), mul_self_nonneg m])
  simpa [sub_eq_add_neg] using this
theorem add_r0s {m : ℝ} : toC x + thermal.r_0_same_mass om p (energy q m) ≠ 0 := by
  rw [add_comm]; exact r0s_add ho hx
theorem r0s_add_q : thermal.r_0_same_mass om p q + (ofR x : ℂ) ≠ 0 :=
  r0_same_add_ne ho (by nlinarith [abs_le_of_sq hx])
theorem r0s_sub_q : thermal.r_0_same_mass om p q - (ofR x : ℂ) ≠ 0 := by
  have := r0_same_add_ne (x := -x) (p := p) (en := q) ho (by nlinarith [abs_le_of_sq (x := -x) ((neg_mul_neg x x).trans hx)])
  simpa [sub_eq_add_neg] using this
theorem add_r0s_q : toC x + thermal.r_0_same_mass om p q ≠ 0 := by
  rw [add_comm]; exact r0s_add_q ho hx
end forms

/-! Zero momentum. -/

theorem zm_ne {om : T} (ho : (toC om).re ≠ 0) {en : ℝ} {d z : ℂ} (hd : d.im = 0) (h : 0 ≤ en * en + d.re)
    (hz : z = toC om * toC om + toC om * (((en * 2 : ℝ) : ℂ) * Complex.I) + d) : z ≠ 0 := by
  have e : d = ((d.re : ℝ) : ℂ) := by apply Complex.ext <;> simp [hd]
  rw [hz, e]
  exact quad_ne ho h

section forms
variable {om : T} (ho : (toC om).re ≠ 0) {q m : ℝ}
include ho

theorem z_add {d : ℂ} (hd : d.im = 0) (h : 0 ≤ q * q + (m * m + d.re)) : toC (om * om) + toC (energy q m) * (toC om * I * (ofR 2 : ℂ)) + d ≠ 0 :=
  zm_ne ho (en := energy q m) hd (by rw [energy_mul]; linarith) (by simp only [toC_mul', toC_real, ofR_complex, I]; push_cast; ring)
theorem z_sub {d : ℂ} (hd : d.im = 0) (h : 0 ≤ q * q + (m * m + d.re)) : toC (om * om) - toC (energy q m) * (toC om * I * (ofR 2 : ℂ)) + d ≠ 0 :=
  zm_ne ho (en := -energy q m) hd (by rw [neg_mul_neg, energy_mul]; linarith) (by simp only [toC_mul', toC_real, ofR_complex, I]; push_cast; ring)
theorem z_add_neg {d : ℂ} (hd : d.im = 0) (h : 0 ≤ q * q + (m * m - d.re)) : toC (om * om) + toC (energy q m) * (toC om * I * (ofR 2 : ℂ)) - d ≠ 0 := by
  have := z_add ho (d := -d) (q := q) (m := m) (by simpa using hd) (by simpa [sub_eq_add_neg] using h)
  simpa [sub_eq_add_neg] using this
theorem z_sub_neg {d : ℂ} (hd : d.im = 0) (h : 0 ≤ q * q + (m * m - d.re)) : toC (om * om) - toC (energy q m) * (toC om * I * (ofR 2 : ℂ)) - d ≠ 0 := by
  have := z_sub ho (d := -d) (q := q) (m := m) (by simpa using hd) (by simpa [sub_eq_add_neg] using h)
  simpa [sub_eq_add_neg] using this
theorem z_add' {d : ℂ} (hd : d.im = 0) (h : 0 ≤ q * q + (m * m + d.re)) : d + (toC (om * om) + toC (energy q m) * (toC om * I * (ofR 2 : ℂ))) ≠ 0 := by
  rw [add_comm]; exact z_add ho hd h
theorem z_sub' {d : ℂ} (hd : d.im = 0) (h : 0 ≤ q * q + (m * m + d.re)) : d + (toC (om * om) - toC (energy q m) * (toC om * I * (ofR 2 : ℂ))) ≠ 0 := by
  rw [add_comm]; exact z_sub ho hd h
theorem z_same_add : toC (om * om) + toC (energy q m) * (toC om * I * (ofR 2 : ℂ)) ≠ 0 := by
  have := z_add ho (d := 0) (q := q) (m := m) rfl (by nlinarith [mul_self_nonneg q, mul_self_nonneg m, Complex.zero_re])
  rwa [add_zero] at this
theorem z_same_sub : toC (om * om) - toC (energy q m) * (toC om * I * (ofR 2 : ℂ)) ≠ 0 := by
  have := z_sub ho (d := 0) (q := q) (m := m) rfl (by nlinarith [mul_self_nonneg q, mul_self_nonneg m, Complex.zero_re])
  rwa [add_zero] at this
theorem z_q_add' {d : ℂ} (hd : d.im = 0) (h : 0 ≤ q * q + d.re) : d + (toC (om * om) + (ofR q : ℂ) * (toC om * I * (ofR 2 : ℂ))) ≠ 0 :=
  zm_ne ho (en := q) hd h (by simp only [toC_mul', ofR_complex, I]; push_cast; ring)
theorem z_q_sub' {d : ℂ} (hd : d.im = 0) (h : 0 ≤ q * q + d.re) : d + (toC (om * om) - (ofR q : ℂ) * (toC om * I * (ofR 2 : ℂ))) ≠ 0 :=
  zm_ne ho (en := -q) hd (by rwa [neg_mul_neg]) (by simp only [toC_mul', ofR_complex, I]; push_cast; ring)
theorem z_q_add : toC (om * om) + (ofR q : ℂ) * (toC om * I * (ofR 2 : ℂ)) ≠ 0 := by
  have := z_q_add' ho (d := 0) (q := q) rfl (by nlinarith [mul_self_nonneg q, Complex.zero_re])
  rwa [zero_add] at this
theorem z_q_sub : toC (om * om) - (ofR q : ℂ) * (toC om * I * (ofR 2 : ℂ)) ≠ 0 := by
  have := z_q_sub' ho (d := 0) (q := q) rfl (by nlinarith [mul_self_nonneg q, Complex.zero_re])
  rwa [zero_add] at this
theorem z_r0 {T4 : Type} [Num T4] {d : T4} (hd : (toC d).im = 0) (h : 0 ≤ q * q + (m * m + (toC d).re)) : thermal.zero_momentum.r_0 om (energy q m) d ≠ 0 :=
  zm_ne ho (en := energy q m) hd (by rw [energy_mul]; linarith) (by simp only [thermal.zero_momentum.r_0, toC_mul', toC_real, ofR_real, I]; push_cast; ring)
theorem z_r0_q {T4 : Type} [Num T4] {d : T4} (hd : (toC d).im = 0) (h : 0 ≤ q * q + (toC d).re) : thermal.zero_momentum.r_0 om q d ≠ 0 :=
  zm_ne ho (en := q) hd h (by simp only [thermal.zero_momentum.r_0, toC_mul', toC_real, ofR_real, I]; push_cast; ring)
theorem z_r0s : thermal.zero_momentum.r_0_same_mass om (energy q m) ≠ 0 :=
  zm_ne ho (en := energy q m) (d := 0) rfl (by nlinarith [mul_self_nonneg (energy q m), Complex.zero_re]) (by simp only [thermal.zero_momentum.r_0_same_mass, toC_mul', toC_real, ofR_real, I]; push_cast; ring)
theorem z_r0s_q : thermal.zero_momentum.r_0_same_mass om q ≠ 0 :=
  zm_ne ho (en := q) (d := 0) rfl (by nlinarith [mul_self_nonneg q, Complex.zero_re]) (by simp only [thermal.zero_momentum.r_0_same_mass, toC_mul', toC_real, ofR_real, I]; push_cast; ring)
end forms

/-! Zero frequency. -/

theorem zM_aux {q p x d : ℝ} (hx : x * x = 4 * (q * q) * (p * p)) (h : (p * p + d) ^ 2 ≠ (2 * q * p) ^ 2) : d + p * p + x ≠ 0 := fun h0 =>
  h (by nlinarith [h0, mul_self_eq_zero.2 h0])

theorem zM_add {T : Type} [Num T] {q p x : ℝ} {d : T} (hx : x * x = 4 * (q * q) * (p * p)) (hd : (toC d).im = 0) (h : (p * p + (toC d).re) ^ 2 ≠ (2 * q * p) ^ 2) :
    thermal.zero_matsubara.r_0 p d + (ofR x : T) ≠ 0 := ne_of_toC (by
  have e : toC d = (((toC d).re : ℝ) : ℂ) := by apply Complex.ext <;> simp [hd]
  simp only [thermal.zero_matsubara.r_0, toC_add', toC_ofR]
  rw [e, ← Complex.ofReal_add, ← Complex.ofReal_add]
  exact Complex.ofReal_ne_zero.2 (zM_aux hx h))

theorem zM_sub {T : Type} [Num T] {q p x : ℝ} {d : T} (hx : x * x = 4 * (q * q) * (p * p)) (hd : (toC d).im = 0) (h : (p * p + (toC d).re) ^ 2 ≠ (2 * q * p) ^ 2) :
    thermal.zero_matsubara.r_0 p d - (ofR x : T) ≠ 0 := by
  have := zM_add (x := -x) ((neg_mul_neg x x).trans hx) hd h
  simpa [sub_eq_add_neg] using this

theorem PI2_ne : PI2 ≠ 0 := mul_ne_zero Real.pi_ne_zero Real.pi_ne_zero

end
end Def
end Qcd
