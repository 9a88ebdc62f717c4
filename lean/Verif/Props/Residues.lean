import Verif.Lemmas.Residues
import Verif.Props.Utils
import Verif.Props.Floats

/-! C113: residues and spectral functions in the arithmetic of `f64`. -/

namespace Qcd
open Fl Spec utils

/-- The step of `compute_residue` and `spectral_function`, `1E-12` in `f64`. -/
noncomputable def Spec.step : Fl binary64 := ofR (1 / 10 ^ 12)

theorem step_eq : ∃ e : ℝ, Spec.step = num (e : EReal) ∧ 2 ^ (-40 : ℤ) < e ∧ e < 2 ^ (-39 : ℤ) := by
  obtain ⟨e, he, h1, h2⟩ := step_value
  refine ⟨e, ?_, h1, h2⟩
  change Fl.round binary64 _ _ = _
  have : binary64.rnd (1 / 10 ^ 12) = (e : EReal) := he
  have h0 : ¬ ((1 : ℝ) / 10 ^ 12 < 0) := by norm_num
  simp only [Fl.round, this, h0]
  simp

theorem num_add {x y z : ℝ} (h : round64 (x + y) = (z : EReal)) (hz : z ≠ 0) :
    (num (x : EReal) : Fl binary64) + num (y : EReal) = num (z : EReal) := by
  have h' : binary64.rnd (x + y) = (z : EReal) := h
  rw [add_def]
  simp only [Fl.add, value_num, val_num, EReal.toReal_coe]
  simp [Fl.round, h', hz]

theorem num_sub {x y z : ℝ} (hy : y ≠ 0) (h : round64 (x - y) = (z : EReal)) (hz : z ≠ 0) :
    (num (x : EReal) : Fl binary64) - num (y : EReal) = num (z : EReal) := by
  rw [sub_def, show neg (num (y : EReal) : Fl binary64) = num ((-y : ℝ) : EReal) by simp [neg, hy], ← add_def]
  exact num_add (by rwa [← sub_eq_add_neg]) hz

/-- **C113** (points): the function is evaluated at `z + eps` and `z - eps`; in `f64` both are `z` if and only if `|z| > 2^14`. -/
theorem C113_points (z : ℝ) (hz : Binary64 z) :
    ((num (z : EReal) : Fl binary64) + Spec.step = num (z : EReal) ∧ (num (z : EReal) : Fl binary64) - Spec.step = num (z : EReal)) ↔
      2 ^ 14 < |z| := by
  obtain ⟨e, he, h1, h2⟩ := step_eq
  have he0 : 0 < e := lt_trans (by positivity) h1
  have e14 : (2 : ℝ) ^ 14 = 2 ^ (14 : ℤ) := by norm_num
  rw [he, e14]
  constructor
  · rintro ⟨g1, g2⟩
    by_contra hc
    have a1 : IsE ((num (z : EReal) : Fl binary64) + num (e : EReal)) (round64 (z + e)) := value_add (value_num _) (value_num _)
    have a2 : IsE ((num (z : EReal) : Fl binary64) - num (e : EReal)) (round64 (z - e)) := by
      have := value_add (r := binary64) (value_num (z : EReal)) (value_neg (value_num (e : EReal)))
      rwa [← sub_def, ← sub_eq_add_neg] at this
    rw [g1, IsE, value_num] at a1
    rw [g2, IsE, value_num] at a2
    have := not_absorbed (not_lt.1 hc) h1
    rcases this with h | h
    · exact h (Option.some.inj a1).symm
    · exact h (Option.some.inj a2).symm
  · intro h
    have hz0 : z ≠ 0 := by rintro rfl; rw [abs_zero] at h; exact absurd h (not_lt.2 (by positivity))
    have hae : |e| < 2 ^ (-39 : ℤ) := by rwa [abs_of_pos he0]
    exact ⟨num_add (absorbed hz h hae) hz0, num_sub he0.ne' (by
      rw [sub_eq_add_neg]; exact absorbed hz h (by rwa [abs_neg])) hz0⟩

/-- **C113** (real functions): beyond `2^14`, whatever the function, `compute_residue` returns NaN or `+∞`, never a number. -/
theorem C113_real (f : Fl binary64 → Fl binary64) (z : ℝ) (hz : Binary64 z) (h : 2 ^ 14 < |z|) :
    compute_residue f (num (z : EReal)) = nan ∨ compute_residue f (num (z : EReal)) = num ⊤ := by
  obtain ⟨g1, g2⟩ := (C113_points z hz).2 h
  obtain ⟨e, he, h1, h2⟩ := step_eq
  have he0 : 0 < e := lt_trans (by positivity) h1
  have e2 : (ofR 2 : Fl binary64) = num ((2 : ℝ) : EReal) := by
    change Fl.round binary64 _ _ = _
    have : ¬ ((2 : ℝ) < 0) := by norm_num
    simp [Fl.round, binary64.two, this]
    rfl
  change ((f (num (z : EReal) + Spec.step))⁻¹ - (f (num (z : EReal) - Spec.step))⁻¹)⁻¹ * ofR 2 * Spec.step = _ ∨
    ((f (num (z : EReal) + Spec.step))⁻¹ - (f (num (z : EReal) - Spec.step))⁻¹)⁻¹ * ofR 2 * Spec.step = _
  rw [g1, g2, e2, he]
  rcases Fl.sub_self' (f (num (z : EReal)))⁻¹ with hs | hs
  · right; rw [hs, Fl.inv_zero', Fl.top_mul (by norm_num), Fl.top_mul he0]
  · left; rw [hs, Fl.inv_nan, Fl.nan_mul, Fl.nan_mul]

/-- **C113** (complex functions): beyond a real part of `2^14`, whatever the function, `compute_residue` returns NaN. -/
theorem C113_complex (f : CFl binary64 → CFl binary64) (x : ℝ) (y : Fl binary64) (hx : Binary64 x) (h : 2 ^ 14 < |x|) :
    CFl.compute_residue f ⟨num (x : EReal), y⟩ = ⟨nan, nan⟩ := by
  obtain ⟨g1, g2⟩ := (C113_points x hx).2 h
  change CFl.compute_residue_with_eps f ⟨num (x : EReal), y⟩ Spec.step = _
  unfold CFl.compute_residue_with_eps CFl.addReal CFl.subReal
  simp only [g1, g2]
  generalize CFl.inv (f ⟨num (x : EReal), y⟩) = w
  have hi : ∀ a b : Fl binary64, (a = num 0 ∨ a = nan) → (b = num 0 ∨ b = nan) → CFl.inv ⟨a, b⟩ = ⟨nan, nan⟩ := by
    have m0 : (num 0 : Fl binary64) * num 0 = num 0 := by rw [mul_def]; simp [Fl.mul, isNeg, Fl.round, binary64.zero]
    have a0 : (num 0 : Fl binary64) + num 0 = num 0 := by rw [add_def]; simp [Fl.add, isNeg, Fl.round, binary64.zero]
    have m1 : (num 1 : Fl binary64) * num 0 = num 0 := by rw [mul_def]; simp [Fl.mul, isNeg, Fl.round, binary64.zero, one_ne_top, one_ne_bot]
    have d0 : (num 0 : Fl binary64) / num 0 = nan := by rw [Fl.div_eq]; simp [Fl.div]
    rintro a b (rfl | rfl) (rfl | rfl)
    · simp only [CFl.inv, m0, a0, m1, d0, Fl.sub_nan]
    · simp only [CFl.inv, Fl.mul_nan, Fl.add_nan, Fl.div_nan, Fl.sub_nan]
    · simp only [CFl.inv, Fl.mul_nan, Fl.nan_add, Fl.div_nan, Fl.sub_nan]
    · simp only [CFl.inv, Fl.mul_nan, Fl.add_nan, Fl.div_nan, Fl.sub_nan]
  have : CFl.inv (CFl.sub w w) = ⟨nan, nan⟩ := hi _ _ (Fl.sub_self' w.re) (Fl.sub_self' w.im)
  rw [this]
  simp only [CFl.mulReal, Fl.nan_mul]

/-- **C113** (units): a simple pole of residue 1 at `z = 600^2`, e.g. a mass of 600 MeV with momenta in MeV: in exact arithmetic the
residue is 1, in `f64` not a number (real functions: NaN or `+∞`). -/
theorem C113_units :
    compute_residue (fun z : ℝ => 1 / (z - 360000)) 360000 = 1 ∧
    (∀ f : Fl binary64 → Fl binary64, ¬ ∃ x : ℝ, Is (compute_residue f (num (360000 : ℝ))) x) ∧
    (∀ f : CFl binary64 → CFl binary64, CFl.compute_residue f ⟨num (360000 : ℝ), num 0⟩ = ⟨nan, nan⟩) := by
  have hb : Binary64 360000 := ⟨360000, 0, by norm_num, by norm_num, by norm_num, by norm_num⟩
  have hl : (2 : ℝ) ^ 14 < |360000| := by norm_num
  refine ⟨utils.C11_compute_residue_exact 1 360000, fun f => ?_, fun f => C113_complex f _ _ hb hl⟩
  rintro ⟨x, hx⟩
  rcases C113_real f _ hb hl with h | h
  · rw [h, Is, value_nan] at hx; simp at hx
  · rw [h, Is, value_num] at hx; simp at hx

/-! ### Spectral functions -/

/-- The complex conjugate. -/
noncomputable def Spec.conj (z : CFl binary64) : CFl binary64 := ⟨z.re, -z.im⟩

/-- The spectral function of a function with conjugate values at `x + i eps` and `x - i eps`. -/
theorem spectral_core (f : CFl binary64 → CFl binary64) (x : ℝ) (hx : Binary64 x) (u v w : ℝ)
    (hu : Is (f ⟨num (x : EReal), Spec.step⟩).re u) (hv : Is (f ⟨num (x : EReal), Spec.step⟩).im v)
    (hu' : Is (f ⟨num (x : EReal), -Spec.step⟩).re u) (hv' : Is (f ⟨num (x : EReal), -Spec.step⟩).im (-v))
    (hw : binary64.rnd (2 * v) = (w : EReal)) :
    ∃ p P : ℝ, binary64.rnd Real.pi = (p : EReal) ∧ binary64.rnd (2 * p) = (P : EReal) ∧
      Is (CFl.spectral_function f ⟨num (x : EReal), num 0⟩).im 0 ∧
      IsE (CFl.spectral_function f ⟨num (x : EReal), num 0⟩).re (binary64.rnd (-w / P)) := by
  have h2v : Binary64 w := round64_binary64 hw
  obtain ⟨e, he, h1, h2⟩ := step_eq
  have he0 : 0 < e := lt_trans (by positivity) h1
  have heb : round64 e = (e : EReal) := by
    obtain ⟨e', he', _, _⟩ := step_value
    have : Spec.step.value = some (round64 (1 / 10 ^ 12)) := value_round _ _
    rw [he, value_num, he'] at this
    have := Option.some.inj this
    rw [this]
    rw [EReal.coe_eq_coe_iff] at this
    rw [this]
    exact binary64_fixed (round64_binary64 he')
  have hbnd : ∀ t : ℝ, |t| < 16 → |t| < 2 ^ (1024 : ℤ) - 2 ^ (970 : ℤ) := fun t ht => by
    have a1 : (2 : ℝ) ^ (1024 : ℤ) = 2 ^ (54 : ℤ) * 2 ^ (970 : ℤ) := by rw [← zpow_add₀ (by norm_num)]; norm_num
    have a2 : (1 : ℝ) ≤ 2 ^ (970 : ℤ) := one_le_zpow₀ (by norm_num) (by norm_num)
    rw [a1]
    have : ∀ B : ℝ, 1 ≤ B → |t| < 2 ^ (54 : ℤ) * B - B := fun B hB => by norm_num; linarith
    exact this _ a2
  have hpi3 := Real.two_le_pi
  have hpi4 : Real.pi ≤ 4 := Real.pi_le_four
  obtain ⟨p, hp⟩ := round64_finite (hbnd Real.pi (by rw [abs_of_pos Real.pi_pos]; linarith))
  have hp2 : 2 ≤ p ∧ p ≤ 4 := by
    have b4 : round64 4 = ((4 : ℝ) : EReal) := binary64_fixed ⟨4, 0, by norm_num, by norm_num, by norm_num, by norm_num⟩
    have m1 := round64_mono (by linarith : (2 : ℝ) ≤ Real.pi)
    have m2 := round64_mono hpi4
    rw [hp, round64_two, show (2 : EReal) = ((2 : ℝ) : EReal) from rfl] at m1
    rw [hp, b4] at m2
    exact ⟨by exact_mod_cast m1, by exact_mod_cast m2⟩
  obtain ⟨P, hP⟩ := round64_finite (hbnd (2 * p) (by rw [abs_of_pos (by linarith)]; linarith))
  have hP2 : 2 ≤ P := by
    have m1 := round64_mono (by linarith : (2 : ℝ) ≤ 2 * p)
    rw [hP, round64_two, show (2 : EReal) = ((2 : ℝ) : EReal) from rfl] at m1
    exact_mod_cast m1
  refine ⟨p, P, hp, hP, ?_⟩
  have z0 : ((0 : ℝ) : EReal) = 0 := rfl
  have o1 : ((1 : ℝ) : EReal) = 1 := rfl
  -- the points
  have i1 : (num 0 : Fl binary64) * Spec.step = num 0 := by
    have : ¬ ((e : EReal) < 0) := not_lt.2 (by exact_mod_cast he0.le)
    rw [he, mul_def]; simp [Fl.mul, isNeg, Fl.round, binary64.zero, this]
  have i2 : (num 1 : Fl binary64) * Spec.step = Spec.step := by
    have h : ¬ ((e : EReal) < 0) := not_lt.2 (by exact_mod_cast he0.le)
    have hb : binary64.rnd e = (e : EReal) := heb
    have h1' : ¬ ((1 : EReal) < 0) := not_lt.2 zero_le_one
    rw [he, mul_def]; simp [Fl.mul, isNeg, Fl.round, h, h1', one_ne_top, one_ne_bot, hb]
  have i3 : (num (x : EReal) : Fl binary64) + num 0 = num (x : EReal) := by
    have hb : binary64.rnd x = (x : EReal) := binary64_fixed hx
    rw [add_def]
    simp [Fl.add, isNeg, Fl.round, hb]
    exact fun h => h.ge
  have i4 : (num (x : EReal) : Fl binary64) - num 0 = num (x : EReal) := by
    have hb : binary64.rnd x = (x : EReal) := binary64_fixed hx
    rw [sub_def]
    by_cases hx0 : x = 0
    · subst hx0; simp [Fl.add, neg, isNeg, Fl.round, binary64.zero]
    · simp [Fl.add, neg, isNeg, Fl.round, hb, hx0]
  have i5 : (num 0 : Fl binary64) + Spec.step = Spec.step := by
    rw [he, ← z0]; exact num_add (by rw [zero_add]; exact heb) he0.ne'
  have i6 : (num 0 : Fl binary64) - Spec.step = -Spec.step := by
    have hb : round64 (-e) = ((-e : ℝ) : EReal) := binary64_fixed (binary64_neg (round64_binary64 heb))
    rw [he, ← z0, num_sub he0.ne' (by rw [zero_sub]; exact hb) (neg_ne_zero.2 he0.ne'), neg_def]
    simp [neg, he0.ne']
  change Is (CFl.spectral_function_with_eps f ⟨num (x : EReal), num 0⟩ Spec.step).im 0 ∧
    IsE (CFl.spectral_function_with_eps f ⟨num (x : EReal), num 0⟩ Spec.step).re _
  simp only [CFl.spectral_function_with_eps, CFl.I, CFl.mulReal, CFl.add, CFl.sub, CFl.mul, CFl.divReal, i1, i2, i3, i4, i5, i6]
  generalize f ⟨num (x : EReal), Spec.step⟩ = g at hu hv
  generalize f ⟨num (x : EReal), -Spec.step⟩ = g' at hu' hv'
  obtain ⟨a, b⟩ := g
  obtain ⟨a', b'⟩ := g'
  simp only at hu hv hu' hv' ⊢
  -- the differences
  have j1 : IsE (a - a') ((0 : ℝ) : EReal) := by
    have := value_add hu (value_neg hu')
    rw [sub_def, IsE, this]
    simp [binary64.zero]
  have j2 : IsE (b - b') (w : EReal) := by
    have := value_add hv (value_neg hv')
    rw [neg_neg, ← two_mul] at this
    rw [sub_def, IsE, this]
    exact congrArg some hw
  generalize a - a' = d at j1
  generalize b - b' = t at j2
  have k1 : Is ((num 0 : Fl binary64) * t + num 1 * d) 0 := by
    have m1 := value_mul (r := binary64) (x := 0) (value_num _) j2
    have m2 := value_mul (r := binary64) (x := 1) (y := 0) (value_num _) j1
    rw [zero_mul, binary64.zero] at m1
    rw [mul_zero, binary64.zero] at m2
    have := value_add (x := 0) (y := 0) m1 m2
    rw [add_zero, binary64.zero] at this
    exact this
  have k2 : IsE ((num 0 : Fl binary64) * d - num 1 * t) ((-w : ℝ) : EReal) := by
    have m1 := value_mul (r := binary64) (x := 0) (y := 0) (value_num _) j1
    have m2 := value_mul (r := binary64) (x := 1) (value_num _) j2
    rw [zero_mul, binary64.zero] at m1
    have e1 : binary64.rnd (1 * w) = (w : EReal) := by rw [one_mul]; exact binary64_fixed h2v
    rw [e1] at m2
    have := value_add (x := 0) (y := -w) m1 (value_neg m2)
    rw [zero_add] at this
    exact this.trans (congrArg some (binary64_fixed (binary64_neg h2v)))
  have k3 : IsE ((ofR 2 : Fl binary64) * ofR Real.pi) (P : EReal) := by
    have q1 : (ofR 2 : Fl binary64).value = some ((2 : ℝ) : EReal) := by
      have : (ofR 2 : Fl binary64).value = some (binary64.rnd 2) := value_round _ _
      rw [this, binary64.two]; rfl
    have q2 : (ofR Real.pi : Fl binary64).value = some (p : EReal) := by
      have : (ofR Real.pi : Fl binary64).value = some (binary64.rnd Real.pi) := value_round _ _
      rw [this]; exact congrArg some hp
    have := value_mul q1 q2
    rw [show binary64.rnd (2 * p) = (P : EReal) from hP] at this
    exact this
  have hd : ∀ (c d : Fl binary64) (s t : ℝ), Is c s → Is d t → t ≠ 0 → IsE (c / d) (binary64.rnd (s / t)) := fun c d s t h1 h2 h3 =>
    (C111_operations c d d s t t h1 h2 h2).2.2.2.1 h3
  constructor
  · have := hd _ _ 0 P k1 k3 (by linarith)
    rw [zero_div, binary64.zero] at this
    exact this
  · exact hd _ _ _ P k2 k3 (by linarith)

/-- **C113** (spectral function): for a function that takes complex conjugate values at complex conjugate points, the computed spectral
function at real `x` has imaginary part zero, and real part `-2 v / (2 pi)` with one rounding after that of `2 pi`, where
`v` is the imaginary part of the function at `x + i eps`. -/
theorem C113_spectral (f : CFl binary64 → CFl binary64) (hf : ∀ z, f (Spec.conj z) = Spec.conj (f z)) (x : ℝ) (hx : Binary64 x)
    (u v : ℝ) (hu : Is (f ⟨num (x : EReal), Spec.step⟩).re u) (hv : Is (f ⟨num (x : EReal), Spec.step⟩).im v) (h2v : Binary64 (2 * v)) :
    ∃ p P : ℝ, binary64.rnd Real.pi = (p : EReal) ∧ binary64.rnd (2 * p) = (P : EReal) ∧
      Is (CFl.spectral_function f ⟨num (x : EReal), num 0⟩).im 0 ∧
      IsE (CFl.spectral_function f ⟨num (x : EReal), num 0⟩).re (binary64.rnd (-(2 * v) / P)) := by
  have hc := hf ⟨num (x : EReal), Spec.step⟩
  simp only [Spec.conj] at hc
  exact spectral_core f x hx u v (2 * v) hu hv (by rw [hc]; exact hu) (by rw [hc]; exact value_neg hv) (binary64_fixed h2v)

/-- The identity at `x = 3`. -/
example : ∃ v : ℝ, Is ((fun z : CFl binary64 => z) ⟨num ((3 : ℝ) : EReal), Spec.step⟩).im v ∧ Binary64 (2 * v) ∧ Binary64 3 ∧ v ≠ 0 ∧
    ∀ z, (fun z : CFl binary64 => z) (Spec.conj z) = Spec.conj ((fun z : CFl binary64 => z) z) := by
  obtain ⟨e, he, h1, h2⟩ := step_eq
  have he0 : 0 < e := lt_trans (by positivity) h1
  refine ⟨e, by rw [he]; rfl, ?_, ⟨3, 0, by norm_num, by norm_num, by norm_num, by norm_num⟩, he0.ne', fun _ => rfl⟩
  obtain ⟨e', he', _, _⟩ := step_value
  have : Spec.step.value = some (round64 (1 / 10 ^ 12)) := value_round _ _
  rw [he, value_num, he'] at this
  have hee : e = e' := by have := Option.some.inj this; exact_mod_cast this
  obtain ⟨k, j, hk, hj, hj', hkj⟩ := round64_binary64 he'
  have hk0 : k ≠ 0 := by rintro rfl; rw [hkj] at hee; simp at hee; exact he0.ne' hee
  have hk1 : (1 : ℝ) ≤ |(k : ℝ)| := by exact_mod_cast Int.one_le_abs hk0
  refine ⟨k, j + 1, hk, by omega, ?_, by rw [hee, hkj, zpow_add_one₀ (by norm_num)]; ring⟩
  by_contra hc
  have h3 : (1 : ℝ) ≤ 2 ^ j := one_le_zpow₀ (by norm_num) (by omega)
  have h4 : e = |(k : ℝ)| * 2 ^ j := by
    have := abs_mul (k : ℝ) (2 ^ j)
    rw [abs_of_pos (show (0 : ℝ) < 2 ^ j by positivity), ← hkj, ← hee, abs_of_pos he0] at this
    exact this
  have h5 : (2 : ℝ) ^ (-39 : ℤ) < 1 := by norm_num
  nlinarith

end Qcd
