import Mathlib.MeasureTheory.Integral.DominatedConvergence
import Verif.Lemmas.FermionDiagram

/-! # Loops of two lines of the same mass as the external frequency goes to zero

Both lines on shell have the same denominator; their sum stays bounded where the two energies coincide. -/

namespace Qcd.Static
open Filter Topology Complex MeasureTheory Set Matsubara
open Spec (Vec msq external fourMomentum atPole)
open scoped Real

/-! ### The two signs of the energy of a line -/

/-- The common denominator, as a function of the energies squared. -/
def dn (e s t : ℝ) : ℝ := (t - s) ^ 2 + e ^ 4 + 2 * e ^ 2 * (s + t)

theorem dn_pos {e s t : ℝ} (he : e ≠ 0) (hs : 0 < s) (ht : 0 < t) : 0 < dn e s t := by unfold dn; positivity

theorem dn_comm (e s t : ℝ) : dn e t s = dn e s t := by unfold dn; ring

/-- A line on shell, both signs of the energy. -/
theorem pair {E K e : ℝ} (a b c : ℝ) (he : e ≠ 0) (hE : 0 < E) (hK : 0 < K) :
    (a + b * (I * E) + c * (I * E) ^ 2 : ℂ) / ((I * E + e) ^ 2 + K ^ 2) + (a + b * (-(I * E)) + c * (-(I * E)) ^ 2) / ((-(I * E) + e) ^ 2 + K ^ 2)
      = ((2 * ((a - c * E ^ 2) * (K ^ 2 - E ^ 2 + e ^ 2) + 2 * e * E ^ 2 * b) / dn e (E ^ 2) (K ^ 2) : ℝ) : ℂ) := by
  have hR : ((dn e (E ^ 2) (K ^ 2) : ℝ) : ℂ) ≠ 0 := by exact_mod_cast (dn_pos he (pow_pos hE 2) (pow_pos hK 2)).ne'
  have hI := I_sq
  have hp : ((I * E + e) ^ 2 + K ^ 2 : ℂ) * ((-(I * E) + e) ^ 2 + K ^ 2) = ((dn e (E ^ 2) (K ^ 2) : ℝ) : ℂ) := by
    simp only [dn]; push_cast
    linear_combination ((E : ℂ) ^ 4 * (I ^ 2 - 1) + 2 * (E : ℂ) ^ 2 * K ^ 2 - 2 * (E : ℂ) ^ 2 * e ^ 2) * hI
  have h1 : ((I * E + e) ^ 2 + K ^ 2 : ℂ) ≠ 0 := left_ne_zero_of_mul (hp ▸ hR)
  have h2 : ((-(I * E) + e) ^ 2 + K ^ 2 : ℂ) ≠ 0 := right_ne_zero_of_mul (hp ▸ hR)
  rw [div_add_div _ _ h1 h2, hp, Complex.ofReal_div]
  congr 1
  push_cast
  linear_combination (2 * (a : ℂ) * E ^ 2 + 2 * c * E ^ 4 * (I ^ 2 - 1) + 2 * c * E ^ 2 * (e ^ 2 + K ^ 2) - 4 * b * E ^ 2 * e) * hI

/-! ### The bound -/

/-- The two lines. -/
noncomputable def two (e s t h1 h2 a b c a' b' c' : ℝ) : ℝ :=
  -(h1 * ((a - c * s) * (t - s + e ^ 2) + 2 * e * s * b) + h2 * ((a' - c' * t) * (s - t + e ^ 2) + 2 * e * t * b')) / (2 * dn e s t)

theorem ratio1 {e s t : ℝ} (hs0 : 0 < s) (ht0 : 0 < t) (he : e ≠ 0) (hd : 0 < |t - s|) : |t - s| / dn e s t ≤ 1 / |t - s| := by
  have he2 : 0 < e ^ 2 := by positivity
  rw [div_le_div_iff₀ (dn_pos he hs0 ht0) hd, one_mul, ← pow_two, sq_abs, dn]
  nlinarith [pow_pos he2 2, mul_pos he2 (add_pos hs0 ht0)]

theorem ratio2 {e s t : ℝ} (hs0 : 0 < s) (ht0 : 0 < t) (he : e ≠ 0) : e ^ 2 / dn e s t ≤ 1 / (2 * (s + t)) := by
  have he2 : 0 < e ^ 2 := by positivity
  rw [div_le_div_iff₀ (dn_pos he hs0 ht0) (by positivity), one_mul, dn]
  nlinarith [pow_pos he2 2, sq_nonneg (t - s)]

theorem ratio3 {e s t : ℝ} (hs0 : 0 < s) (ht0 : 0 < t) (he : e ≠ 0) : |(t - s) ^ 2 / dn e s t| ≤ 1 := by
  have hR := dn_pos he hs0 ht0
  have he2 : 0 < e ^ 2 := by positivity
  rw [abs_div, abs_of_pos hR, div_le_one hR, abs_of_nonneg (sq_nonneg _), dn]
  nlinarith [pow_pos he2 2, mul_pos he2 (add_pos hs0 ht0)]

theorem ratio4 {e s t r b P : ℝ} (hs0 : 0 < s) (ht0 : 0 < t) (he : e ≠ 0) (hr : 0 ≤ r) (hrs : r ≤ s + t) (hP : 0 ≤ P) (hb : |b| ≤ |e| * P) :
    |r * b| * |e / dn e s t| ≤ P / 2 := by
  have hR := dn_pos he hs0 ht0
  have r2 := ratio2 hs0 ht0 he
  rw [abs_mul, abs_of_nonneg hr, abs_div, abs_of_pos hR]
  calc _ ≤ r * (|e| * P) * (|e| / dn e s t) := by gcongr
    _ = P * r * (e ^ 2 / dn e s t) := by rw [← sq_abs e]; ring
    _ ≤ P * (s + t) * (1 / (2 * (s + t))) := by gcongr
    _ = _ := by field_simp

theorem numer_le {a c s P : ℝ} (hs0 : 0 < s) (ha : |a| ≤ P) (hc : |c| ≤ P) : |a - c * s| ≤ P * (1 + s) := by
  refine (abs_sub _ _).trans ?_
  rw [abs_mul, abs_of_pos hs0]
  nlinarith [mul_le_mul_of_nonneg_right hc hs0.le]

theorem assemble {P s t M k1 k2 x x1 x2 x3 x4 x5 : ℝ} (hP : 0 ≤ P) (hs : 0 ≤ s) (ht : 0 ≤ t) (hM : 0 < M) (hh1 : 0 ≤ k1) (hh2 : 0 ≤ k2) (hx0 : 0 ≤ x)
    (t1 : x1 ≤ P * (1 + s) * x) (t2 : x2 ≤ k2 * P) (t3 : x3 ≤ k2 * (P * (1 + t) / 2))
    (t4 : x4 ≤ (k1 * (P * (1 + s)) + k2 * (P * (1 + t))) * (1 / (4 * M))) (t5 : x5 ≤ k1 * P + k2 * P) :
    x1 + x2 + x3 + x4 + x5 ≤ P * (1 + s + t) * (x + (3 + 1 / M) * (k1 + k2)) := by
  obtain ⟨y, hy⟩ : ∃ y, y = 1 / M := ⟨_, rfl⟩
  have hy0 : 0 ≤ y := by rw [hy]; positivity
  have e4 : 1 / (4 * M) = y / 4 := by rw [hy]; field_simp
  rw [e4] at t4
  rw [← hy]
  have g0 : ∀ z, 0 ≤ z → 0 ≤ P * z := fun z hz => mul_nonneg hP hz
  have g1 := g0 (t * x) (by positivity)
  have g2 := g0 (k1 * s) (by positivity)
  have g3 := g0 (k1 * t) (by positivity)
  have g4 := g0 (k2 * s) (by positivity)
  have g5 := g0 (k2 * t) (by positivity)
  have g6 := g0 (k1 * y) (by positivity)
  have g7 := g0 (k2 * y) (by positivity)
  have g8 := g0 (k1 * y * s) (by positivity)
  have g9 := g0 (k2 * y * s) (by positivity)
  have g10 := g0 (k1 * y * t) (by positivity)
  have g11 := g0 (k2 * y * t) (by positivity)
  have g12 := g0 k1 hh1
  have g13 := g0 k2 hh2
  ring_nf at *
  linarith

theorem abs_two_le {e s t h1 h2 a b c a' b' c' M P : ℝ} (hM : 0 < M) (hs : M ≤ s) (ht : M ≤ t) (hst : t ≠ s) (he : e ≠ 0)
    (ha : |a| ≤ P) (hc : |c| ≤ P) (ha' : |a'| ≤ P) (hc' : |c'| ≤ P) (hb : |b| ≤ |e| * P) (hb' : |b'| ≤ |e| * P)
    (hda : |a' - a| ≤ e ^ 2 * P) (hdc : |c' - c| ≤ e ^ 2 * P) :
    |two e s t h1 h2 a b c a' b' c'| ≤ P * (1 + s + t) * (|h1 - h2| / |t - s| + (3 + 1 / M) * (|h1| + |h2|)) := by
  have hs0 : 0 < s := hM.trans_le hs
  have ht0 : 0 < t := hM.trans_le ht
  have hP : 0 ≤ P := (abs_nonneg a).trans ha
  have hR := dn_pos he hs0 ht0
  have hd : 0 < |t - s| := abs_pos.2 (sub_ne_zero.2 hst)
  have he2 : 0 < e ^ 2 := by positivity
  -- the elementary ratios
  have r1 := ratio1 hs0 ht0 he hd
  have r2 := ratio2 hs0 ht0 he
  have hts : |t - s| ≤ s + t := abs_sub_le_iff.2 ⟨by linarith, by linarith⟩
  have r3 : e ^ 2 * |t - s| / dn e s t ≤ 1 / 2 := by
    have : e ^ 2 * |t - s| / dn e s t = e ^ 2 / dn e s t * |t - s| := by ring
    rw [this]
    calc _ ≤ 1 / (2 * (s + t)) * (s + t) := by gcongr
      _ = 1 / 2 := by field_simp
  have e1 : two e s t h1 h2 a b c a' b' c' =
      -((h1 - h2) * (a - c * s) * ((t - s) / dn e s t) + h2 * c * ((t - s) ^ 2 / dn e s t) - h2 * ((a' - a) - (c' - c) * t) * ((t - s) / dn e s t)
        + (h1 * (a - c * s) + h2 * (a' - c' * t)) * (e ^ 2 / dn e s t) + 2 * (h1 * (s * b) + h2 * (t * b')) * (e / dn e s t)) / 2 := by
    rw [two]; field_simp; ring
  have q1 : |(t - s) / dn e s t| ≤ 1 / |t - s| := by rwa [abs_div, abs_of_pos hR]
  have q2 := ratio3 hs0 ht0 he
  have q3 : |(a' - a) - (c' - c) * t| * |(t - s) / dn e s t| ≤ P * (1 + t) / 2 := by
    have h0 : |(a' - a) - (c' - c) * t| ≤ e ^ 2 * (P * (1 + t)) := by
      have := numer_le ht0 hda hdc
      linarith
    rw [abs_div, abs_of_pos hR]
    calc _ ≤ e ^ 2 * (P * (1 + t)) * (|t - s| / dn e s t) := by gcongr
      _ = P * (1 + t) * (e ^ 2 * |t - s| / dn e s t) := by ring
      _ ≤ P * (1 + t) * (1 / 2) := by gcongr
      _ = _ := by ring
  have n1 := numer_le hs0 ha hc
  have n2 := numer_le ht0 ha' hc'
  have q4 : |e ^ 2 / dn e s t| ≤ 1 / (4 * M) := by
    rw [abs_of_pos (by positivity)]
    exact r2.trans (one_div_le_one_div_of_le (by positivity) (by linarith))
  have q5 := ratio4 hs0 ht0 he hs0.le (by linarith) hP hb
  have q6 := ratio4 hs0 ht0 he ht0.le (by linarith) hP hb'
  rw [e1, abs_div, abs_neg, abs_of_pos (two_pos : (0:ℝ) < 2)]
  have t1 : |(h1 - h2) * (a - c * s) * ((t - s) / dn e s t)| ≤ P * (1 + s) * (|h1 - h2| / |t - s|) := by
    rw [abs_mul, abs_mul]
    calc _ ≤ |h1 - h2| * (P * (1 + s)) * (1 / |t - s|) := by gcongr
      _ = _ := by ring
  have t2 : |h2 * c * ((t - s) ^ 2 / dn e s t)| ≤ |h2| * P := by
    rw [abs_mul, abs_mul]
    calc _ ≤ |h2| * P * 1 := by gcongr
      _ = _ := by ring
  have t3 : |h2 * ((a' - a) - (c' - c) * t) * ((t - s) / dn e s t)| ≤ |h2| * (P * (1 + t) / 2) := by
    rw [abs_mul, abs_mul, mul_assoc]; gcongr
  have t4 : |(h1 * (a - c * s) + h2 * (a' - c' * t)) * (e ^ 2 / dn e s t)| ≤ (|h1| * (P * (1 + s)) + |h2| * (P * (1 + t))) * (1 / (4 * M)) := by
    rw [abs_mul]
    gcongr
    refine (abs_add_le _ _).trans ?_
    rw [abs_mul, abs_mul]; gcongr
  have t5 : |2 * (h1 * (s * b) + h2 * (t * b')) * (e / dn e s t)| ≤ |h1| * P + |h2| * P := by
    have : 2 * (h1 * (s * b) + h2 * (t * b')) * (e / dn e s t) = 2 * (h1 * ((s * b) * (e / dn e s t)) + h2 * ((t * b') * (e / dn e s t))) := by ring
    rw [this, abs_mul, abs_of_pos (two_pos : (0:ℝ) < 2)]
    have := (abs_add_le (h1 * ((s * b) * (e / dn e s t))) (h2 * ((t * b') * (e / dn e s t))))
    rw [abs_mul h1, abs_mul h2, abs_mul (s * b), abs_mul (t * b')] at this
    have w1 := mul_le_mul_of_nonneg_left q5 (abs_nonneg h1)
    have w2 := mul_le_mul_of_nonneg_left q6 (abs_nonneg h2)
    linarith
  have tri : ∀ x1 x2 x3 x4 x5 : ℝ, |x1 + x2 - x3 + x4 + x5| ≤ |x1| + |x2| + |x3| + |x4| + |x5| := fun x1 x2 x3 x4 x5 => by
    have a1 := abs_add_le (x1 + x2 - x3 + x4) x5
    have a2 := abs_add_le (x1 + x2 - x3) x4
    have a3 := abs_sub (x1 + x2) x3
    have a4 := abs_add_le x1 x2
    linarith
  refine (div_le_self (abs_nonneg _) one_le_two).trans ((tri _ _ _ _ _).trans ?_)
  exact assemble hP hs0.le ht0.le hM (abs_nonneg h1) (abs_nonneg h2) (by positivity) t1 t2 t3 t4 t5

/-- Occupations divided by the energies. -/
theorem ratio_le {E K n1 n2 : ℝ} (hE : 0 < E) (hK : 0 < K) (hne : K ^ 2 ≠ E ^ 2) {D : ℝ} (hD : |n1 - n2| ≤ D * |K ^ 2 - E ^ 2|) :
    |n1 / E - n2 / K| / |K ^ 2 - E ^ 2| ≤ D / E + |n2| / (E * K * (E + K)) := by
  have hd : 0 < |K ^ 2 - E ^ 2| := abs_pos.2 (sub_ne_zero.2 hne)
  rw [div_le_iff₀ hd]
  have e : n1 / E - n2 / K = (n1 - n2) / E + n2 / (E * K * (E + K)) * (K ^ 2 - E ^ 2) := by field_simp; ring
  rw [e]
  refine (abs_add_le _ _).trans ?_
  rw [abs_div, abs_of_pos hE, abs_mul, abs_div n2, abs_of_pos (show 0 < E * K * (E + K) by positivity), add_mul]
  gcongr
  rw [div_mul_eq_mul_div]
  gcongr

/-! ### The integrand -/

/-- Numerators quadratic in the energy, the linear term vanishing with the frequency. -/
structure Numer (p : ℝ) (f : ℝ → MvPolynomial (Fin 4) ℂ) (a b c : ℝ → ℝ × ℝ × ℝ → ℝ) (C : ℝ) (k : ℕ) : Prop where
  eval : ∀ e w v, MvPolynomial.eval (fourMomentum w v) (f e) = a e v + b e v * w + c e v * w ^ 2
  ha : ∀ e v, |e| ≤ 1 → |a e v| ≤ C * (1 + ‖v‖) ^ k
  hb : ∀ e v, |e| ≤ 1 → |b e v| ≤ |e| * (C * (1 + ‖v‖) ^ k)
  hc : ∀ e v, |e| ≤ 1 → |c e v| ≤ C * (1 + ‖v‖) ^ k
  da : ∀ e v, |e| ≤ 1 → |a e ((-p, 0, 0) - v) - a e v| ≤ e ^ 2 * (C * (1 + ‖v‖) ^ k)
  dc : ∀ e v, |e| ≤ 1 → |c e ((-p, 0, 0) - v) - c e v| ≤ e ^ 2 * (C * (1 + ‖v‖) ^ k)
  ca : ∀ v, Tendsto (fun e => a e v) (𝓝[≠] 0) (𝓝 (a 0 v))
  cc : ∀ v, Tendsto (fun e => c e v) (𝓝[≠] 0) (𝓝 (c 0 v))

variable {p m : ℝ} {n : ℝ → ℝ} {f : ℝ → MvPolynomial (Fin 4) ℂ} {F : ℝ → Vec → ℂ} {a b c : ℝ → ℝ × ℝ × ℝ → ℝ} {C : ℝ} {k : ℕ}

theorem en3_back (m p : ℝ) (v : ℝ × ℝ × ℝ) : en3 m ((-p, 0, 0) - v) = en3 m (other p v) := by
  simp only [en3, r2, other, Prod.fst_sub, Prod.snd_sub]; congr 1; ring

theorem en3_neg (m : ℝ) (v : ℝ × ℝ × ℝ) : en3 m (other p ((-p, 0, 0) - v)) = en3 m v := by
  simp only [en3, r2, other, Prod.fst_sub, Prod.snd_sub]; congr 1; ring

theorem onShell_pair (N : Numer p f a b c C k) {e : ℝ} (he : e ≠ 0) (h : IsDiagram e p (fun _ : Fin 1 => m) (fun _ : Fin 1 => m) (f e) (F e))
    {v : ℝ × ℝ × ℝ} (hE : 0 < en3 m v) (hK : 0 < en3 m (other p v)) :
    onShellW (F e) (fun E => ((n E / 2 : ℝ) : ℂ)) (fun E => ((n E / 2 : ℝ) : ℂ)) m v =
      ((n (en3 m v) / en3 m v * ((a e v - c e v * en3 m v ^ 2) * (en3 m (other p v) ^ 2 - en3 m v ^ 2 + e ^ 2) + 2 * e * en3 m v ^ 2 * b e v)
        / (2 * dn e (en3 m v ^ 2) (en3 m (other p v) ^ 2)) : ℝ) : ℂ) := by
  have hi : Function.Injective fun _ : Fin 1 => m ^ 2 := injective_fin1 _
  have e0 : Finset.univ.erase (0 : Fin 1) = ∅ := rfl
  have sh : ∀ w : ℂ, shell e p (fun _ : Fin 1 => m) (fun _ : Fin 1 => m) (f e) 0 w v =
      (a e v + b e v * w + c e v * w ^ 2) / ((w + e) ^ 2 + (en3 m (other p v) : ℂ) ^ 2) := fun w => by
    rw [shell, e0, Finset.prod_empty, one_mul, N.eval]
    simp only [Finset.univ_unique, Finset.prod_singleton]
    congr 1
    rw [msq_sum3, ← Complex.ofReal_pow (en3 _ _), en3_sq, other]; push_cast; ring
  rw [onShellW, h.atPole hi he 0 hE (.inl rfl), h.atPole hi he 0 hE (.inr rfl), sh, sh, ← mul_add, pair _ _ _ he hE hK, ← Complex.ofReal_mul]
  rw [show (2 * (en3 m v : ℂ)) = ((2 * en3 m v : ℝ) : ℂ) by push_cast; ring, ← Complex.ofReal_div]
  congr 1
  have := (dn_pos he (pow_pos hE 2) (pow_pos hK 2)).ne'
  field_simp

theorem integrand_eq (N : Numer p f a b c C k) {e : ℝ} (he : e ≠ 0) (h : IsDiagram e p (fun _ : Fin 1 => m) (fun _ : Fin 1 => m) (f e) (F e))
    (hf : ∀ Q, MvPolynomial.eval (-(external e p + Q)) (f e) = MvPolynomial.eval Q (f e))
    {v : ℝ × ℝ × ℝ} (hE : 0 < en3 m v) (hK : 0 < en3 m (other p v)) :
    -(onShellW (F e) (fun E => ((n E / 2 : ℝ) : ℂ)) (fun E => ((n E / 2 : ℝ) : ℂ)) m v
      + onShellW (swapped e p (F e)) (fun E => ((n E / 2 : ℝ) : ℂ)) (fun E => ((n E / 2 : ℝ) : ℂ)) m ((-p, 0, 0) - v)) =
      ((two e (en3 m v ^ 2) (en3 m (other p v) ^ 2) (n (en3 m v) / en3 m v) (n (en3 m (other p v)) / en3 m (other p v))
        (a e v) (b e v) (c e v) (a e ((-p, 0, 0) - v)) (b e ((-p, 0, 0) - v)) (c e ((-p, 0, 0) - v)) : ℝ) : ℂ) := by
  have h' : IsDiagram e p (fun _ : Fin 1 => m) (fun _ : Fin 1 => m) (f e) (swapped e p (F e)) := by
    refine ⟨fun Q h1 h2 => ?_, h.axis⟩
    rw [h.swap.eq Q h1 h2, eval_swapped, hf]
  rw [onShell_pair N he h hE hK, onShell_pair (F := fun e => swapped e p (F e)) N he h' (by rwa [en3_back]) (by rwa [en3_neg]), en3_back, en3_neg, ← Complex.ofReal_add,
    ← Complex.ofReal_neg]
  congr 1
  rw [dn_comm e (en3 m v ^ 2) (en3 m (other p v) ^ 2), two]
  have := (dn_pos he (pow_pos hE 2) (pow_pos hK 2)).ne'
  ring

/-- The static limit. -/
noncomputable def static (p m : ℝ) (n : ℝ → ℝ) (a c : ℝ × ℝ × ℝ → ℝ) (v : ℝ × ℝ × ℝ) : ℝ :=
  -(n (en3 m v) / en3 m v * (a v - c v * en3 m v ^ 2) - n (en3 m (other p v)) / en3 m (other p v) * (a v - c v * en3 m (other p v) ^ 2))
    / (2 * (en3 m (other p v) ^ 2 - en3 m v ^ 2))

theorem Numer.tendsto_two (N : Numer p f a b c C k) {v : ℝ × ℝ × ℝ} {s t : ℝ} (hst : t ≠ s) (h1 h2 : ℝ) :
    Tendsto (fun e => two e s t h1 h2 (a e v) (b e v) (c e v) (a e ((-p, 0, 0) - v)) (b e ((-p, 0, 0) - v)) (c e ((-p, 0, 0) - v))) (𝓝[≠] 0)
      (𝓝 (-(h1 * (a 0 v - c 0 v * s) - h2 * (a 0 v - c 0 v * t)) / (2 * (t - s)))) := by
  have he : Tendsto (fun e : ℝ => e) (𝓝[≠] 0) (𝓝 0) := tendsto_nhdsWithin_of_tendsto_nhds tendsto_id
  have tb : ∀ v, Tendsto (fun e => b e v) (𝓝[≠] 0) (𝓝 0) := fun v => by
    refine squeeze_zero_norm' (a := fun e => |e| * (C * (1 + ‖v‖) ^ k)) ?_ ?_
    · have : ∀ᶠ e : ℝ in 𝓝[≠] 0, |e| < 1 := by
        have := he.norm.eventually (gt_mem_nhds (show ‖(0:ℝ)‖ < 1 by simp))
        simpa using this
      filter_upwards [this] with e h using N.hb e v h.le
    · have := he.abs.mul_const (C * (1 + ‖v‖) ^ k)
      simpa using this
  have ea : a 0 ((-p, 0, 0) - v) = a 0 v := by
    have := N.da 0 v (by simp)
    simp only [ne_eq, OfNat.ofNat_ne_zero, not_false_eq_true, zero_pow, zero_mul] at this
    exact sub_eq_zero.1 (abs_nonpos_iff.1 this)
  have ec : c 0 ((-p, 0, 0) - v) = c 0 v := by
    have := N.dc 0 v (by simp)
    simp only [ne_eq, OfNat.ofNat_ne_zero, not_false_eq_true, zero_pow, zero_mul] at this
    exact sub_eq_zero.1 (abs_nonpos_iff.1 this)
  have hd : Tendsto (fun e => 2 * dn e s t) (𝓝[≠] 0) (𝓝 (2 * (t - s) ^ 2)) := by
    have : Tendsto (fun e : ℝ => 2 * dn e s t) (𝓝[≠] 0) (𝓝 (2 * dn 0 s t)) := by
      refine tendsto_nhdsWithin_of_tendsto_nhds (Continuous.tendsto ?_ 0)
      unfold dn; fun_prop
    simpa [dn] using this
  have d0 : t - s ≠ 0 := sub_ne_zero.2 hst
  have he2 : Tendsto (fun e : ℝ => e ^ 2) (𝓝[≠] 0) (𝓝 0) := by simpa using he.pow 2
  have k1 := (((N.ca v).sub ((N.cc v).mul_const s)).mul ((tendsto_const_nhds (x := t - s)).add he2)).add (((he.const_mul 2).mul_const s).mul (tb v))
  have k2 := (((N.ca ((-p, 0, 0) - v)).sub ((N.cc ((-p, 0, 0) - v)).mul_const t)).mul ((tendsto_const_nhds (x := s - t)).add he2)).add
    (((he.const_mul 2).mul_const t).mul (tb ((-p, 0, 0) - v)))
  have key := (((k1.const_mul h1).add (k2.const_mul h2)).neg).div hd (by positivity)
  rw [ea, ec] at key
  refine (key.congr fun e => rfl).trans (le_of_eq ?_)
  congr 1
  field_simp
  ring

theorem ae_static {p : ℝ} (hp : p ≠ 0) (m : ℝ) : ∀ᵐ v, en3 m (other p v) ^ 2 ≠ en3 m v ^ 2 := by
  have hm : MeasurableSet {v : ℝ × ℝ × ℝ | v.1 = -p / 2} := measurableSet_eq_fun (by fun_prop) measurable_const
  have : ∀ᵐ v : ℝ × ℝ × ℝ, v.1 ≠ -p / 2 := by
    rw [ae_iff]
    simp only [ne_eq, not_not]
    rw [Measure.volume_eq_prod, Measure.prod_apply_symm hm]
    refine lintegral_eq_zero_of_ae_eq_zero (.of_forall fun y => ?_)
    exact Set.Finite.measure_zero (Set.Finite.subset (s := {-p / 2}) (by simp) fun x hx => hx) _
  filter_upwards [this] with v hv h
  rw [en3_sq, en3_sq] at h
  refine hv ?_
  simp only [r2, other] at h
  have : p * (p + 2 * v.1) = 0 := by linarith
  have := (mul_eq_zero.1 this).resolve_left hp
  linarith

theorem norm_other (p : ℝ) (v : ℝ × ℝ × ℝ) : ‖v‖ - |p| ≤ ‖other p v‖ := by
  have e : other p v = (p, 0, 0) + v := by ext <;> simp [other]
  have : ‖((p, 0, 0) : ℝ × ℝ × ℝ)‖ = |p| := by simp [Prod.norm_def]
  have h := norm_sub_le (other p v) (p, 0, 0)
  rw [this] at h
  have e2 : other p v - (p, 0, 0) = v := by rw [e]; simp
  rw [e2] at h; linarith

theorem integrable_poly_exp {b : ℝ} (hb : 0 < b) (C : ℝ) (k : ℕ) : Integrable fun v : ℝ × ℝ × ℝ => C * (1 + ‖v‖) ^ k * Real.exp (-(b * ‖v‖)) := by
  have hd : Module.finrank ℝ (ℝ × ℝ × ℝ) = 3 := by simp
  have := (integrable_fun_norm_addHaar (volume : Measure (ℝ × ℝ × ℝ)) (f := fun y => C * (1 + y) ^ k * Real.exp (-(b * y)))).2 ?_
  · exact this
  · rw [hd]
    refine Integrable.mono' (Dom.bound_integrable (b0 := 4 * b) (by positivity) |C| (k + 2)) (by fun_prop) ?_
    refine (ae_restrict_iff' measurableSet_Ioi).2 (.of_forall fun y hy => ?_)
    have hy : 0 < y := hy
    simp only [smul_eq_mul, norm_mul, norm_pow, Real.norm_eq_abs]
    rw [abs_of_pos hy, abs_of_pos (show 0 < 1 + y by linarith), abs_of_pos (Real.exp_pos _), pow_add, show 4 * b / 4 * y = b * y by ring]
    calc y ^ (3 - 1) * (|C| * (1 + y) ^ k * Real.exp (-(b * y))) ≤ (1 + y) ^ 2 * (|C| * (1 + y) ^ k * Real.exp (-(b * y))) := by
          gcongr; linarith
      _ = _ := by ring

theorem energies_le (p m : ℝ) (v : ℝ × ℝ × ℝ) : 1 + en3 m v ^ 2 + en3 m (other p v) ^ 2 ≤ (13 + 8 * p ^ 2 + 2 * m ^ 2) * (1 + ‖v‖) ^ 2 := by
  have h1 := r2_le v
  have h2 := r2_le (other p v)
  have h3 : ‖other p v‖ ≤ |p| + ‖v‖ := by
    have e : other p v = (p, 0, 0) + v := by ext <;> simp [other]
    have : ‖((p, 0, 0) : ℝ × ℝ × ℝ)‖ = |p| := by simp [Prod.norm_def]
    rw [e, ← this]; exact norm_add_le _ _
  have h4 : ‖other p v‖ ^ 2 ≤ 2 * p ^ 2 + 2 * ‖v‖ ^ 2 := by
    have := pow_le_pow_left₀ (norm_nonneg _) h3 2
    nlinarith [sq_nonneg (|p| - ‖v‖), sq_abs p]
  rw [en3_sq, en3_sq]
  have h5 : ‖v‖ ^ 2 ≤ (1 + ‖v‖) ^ 2 := by nlinarith [norm_nonneg v]
  have h6 : 1 ≤ (1 + ‖v‖) ^ 2 := by nlinarith [norm_nonneg v]
  nlinarith [mul_le_mul_of_nonneg_left h6 (show 0 ≤ 1 + 8 * p ^ 2 + 2 * m ^ 2 by positivity)]

/-- **The static limit** of a loop with two lines of the same mass. -/
theorem Numer.limit (N : Numer p f a b c C k) (hm : m ≠ 0) (hp : p ≠ 0)
    (h : ∀ e, e ≠ 0 → IsDiagram e p (fun _ : Fin 1 => m) (fun _ : Fin 1 => m) (f e) (F e))
    (hf : ∀ e : ℝ, e ≠ 0 → ∀ Q, MvPolynomial.eval (-(external e p + Q)) (f e) = MvPolynomial.eval Q (f e))
    {d Cn : ℝ} (hd : 0 < d) (hn : Decays (fun E => ((n E : ℝ) : ℂ)) d Cn) {K : ℝ × ℝ × ℝ → ℝ} (hK : ∀ j : ℕ, Integrable fun v => (1 + ‖v‖) ^ j * K v)
    (hnK : ∀ᵐ v, |n (en3 m v) - n (en3 m (other p v))| ≤ K v * |en3 m (other p v) ^ 2 - en3 m v ^ 2|) :
    (Integrable fun v => ((static p m n (a 0) (c 0) v : ℝ) : ℂ)) ∧
      Tendsto (fun e => ∫ q in Ioi (0 : ℝ), -lineQ e p (fun _ : Fin 1 => m) (fun _ : Fin 1 => m) (f e) 0 (fun E => ((n E : ℝ) : ℂ)) (fun E => ((n E : ℝ) : ℂ)) q) (𝓝[≠] 0)
        (𝓝 (1 / (2 * π) ^ 3 * ∫ v, ((static p m n (a 0) (c 0) v : ℝ) : ℂ))) := by
  have hm0 : 0 < |m| := abs_pos.2 hm
  have hE : ∀ v, |m| ≤ en3 m v := fun v => abs_le_en3 m v
  have hE0 : ∀ v, 0 < en3 m v := fun v => hm0.trans_le (hE v)
  have hn2 : Decays (fun E => ((n E / 2 : ℝ) : ℂ)) d Cn := by
    refine ⟨?_, fun E hE => ?_⟩
    · have := hn.meas.div_const 2
      simpa using this
    · have := hn.bound E hE
      push_cast
      rw [norm_div]
      refine (div_le_self (norm_nonneg _) (by norm_num)).trans this
  set G : ℝ → ℝ × ℝ × ℝ → ℂ := fun e v => -(onShellW (F e) (fun E => ((n E / 2 : ℝ) : ℂ)) (fun E => ((n E / 2 : ℝ) : ℂ)) m v
      + onShellW (swapped e p (F e)) (fun E => ((n E / 2 : ℝ) : ℂ)) (fun E => ((n E / 2 : ℝ) : ℂ)) m ((-p, 0, 0) - v)) with hG
  have key : ∀ e, e ≠ 0 → Integrable (G e) ∧ 1 / (2 * π) ^ 3 * ∫ v, G e v =
      ∫ q in Ioi (0 : ℝ), -lineQ e p (fun _ : Fin 1 => m) (fun _ : Fin 1 => m) (f e) 0 (fun E => ((n E : ℝ) : ℂ)) (fun E => ((n E : ℝ) : ℂ)) q := fun e he =>
    (h e he).fermion (hf e he) he hd hn2 hn2 (fun E => by push_cast; ring) (Filter.EventuallyEq.refl _ _)
  have hC : 0 ≤ C := by
    have := (abs_nonneg _).trans (N.ha 0 0 (by simp))
    simpa using this
  have hCn : 0 ≤ Cn := by simpa using (norm_nonneg _).trans (hn.bound 0 le_rfl)
  -- the bound
  set P : ℝ × ℝ × ℝ → ℝ := fun v => 2 * C * (1 + |p|) ^ k * (1 + ‖v‖) ^ k with hP
  set S : ℝ := 13 + 8 * p ^ 2 + 2 * m ^ 2 with hS
  set W : ℝ := Cn * Real.exp (d * |p|) * (1 / |m| ^ 3 + (3 + 1 / m ^ 2) * (2 / |m|)) with hW
  set B : ℝ × ℝ × ℝ → ℝ := fun v => 2 * C * (1 + |p|) ^ k * S / |m| * ((1 + ‖v‖) ^ (k + 2) * K v)
    + 2 * C * (1 + |p|) ^ k * S * W * (1 + ‖v‖) ^ (k + 2) * Real.exp (-(d * ‖v‖)) with hB
  have hBi : Integrable B := ((hK (k + 2)).const_mul _).add (integrable_poly_exp hd _ _)
  have hbound : ∀ e : ℝ, e ≠ 0 → |e| ≤ 1 → ∀ᵐ v, ‖G e v‖ ≤ B v := by
    intro e he he1
    filter_upwards [hnK, ae_static hp m] with v hv hne
    have hg : G e v = _ := integrand_eq N he (h e he) (hf e he) (hE0 v) (hE0 (other p v))
    rw [hg, Complex.norm_real, Real.norm_eq_abs]
    have hv0 := norm_nonneg v
    have hb0 : ‖((-p, 0, 0) : ℝ × ℝ × ℝ) - v‖ ≤ |p| + ‖v‖ := by
      have : ‖((-p, 0, 0) : ℝ × ℝ × ℝ)‖ = |p| := by simp [Prod.norm_def]
      rw [← this]; exact norm_sub_le _ _
    have hp1 : 1 ≤ (1 + |p|) ^ k := one_le_pow₀ (by linarith [abs_nonneg p])
    have hX : C * (1 + ‖v‖) ^ k ≤ C * (1 + |p|) ^ k * (1 + ‖v‖) ^ k := by
      have : C * 1 * (1 + ‖v‖) ^ k ≤ C * (1 + |p|) ^ k * (1 + ‖v‖) ^ k := by gcongr
      simpa using this
    have hPv : C * (1 + ‖v‖) ^ k ≤ P v := by
      have : 0 ≤ C * (1 + |p|) ^ k * (1 + ‖v‖) ^ k := by positivity
      simp only [hP]; nlinarith
    have hPb : C * (1 + ‖((-p, 0, 0) : ℝ × ℝ × ℝ) - v‖) ^ k ≤ P v := by
      have : C * (1 + ‖((-p, 0, 0) : ℝ × ℝ × ℝ) - v‖) ^ k ≤ C * ((1 + |p|) * (1 + ‖v‖)) ^ k := by
        gcongr
        nlinarith [abs_nonneg p]
      rw [mul_pow] at this
      have : 0 ≤ C * (1 + |p|) ^ k * (1 + ‖v‖) ^ k := by positivity
      simp only [hP]; nlinarith
    have hmm : m ^ 2 = |m| ^ 2 := (sq_abs m).symm
    have main := abs_two_le (h1 := n (en3 m v) / en3 m v) (h2 := n (en3 m (other p v)) / en3 m (other p v)) (b' := b e ((-p, 0, 0) - v)) (M := m ^ 2) (P := P v) (by positivity)
      (by rw [hmm]; exact pow_le_pow_left₀ hm0.le (hE v) 2) (by rw [hmm]; exact pow_le_pow_left₀ hm0.le (hE (other p v)) 2) hne he
      ((N.ha e v he1).trans hPv) ((N.hc e v he1).trans hPv) ((N.ha e _ he1).trans hPb) ((N.hc e _ he1).trans hPb)
      ((N.hb e v he1).trans (by gcongr)) ((N.hb e _ he1).trans (by gcongr)) ((N.da e v he1).trans (by gcongr)) ((N.dc e v he1).trans (by gcongr))
    refine main.trans ?_
    have hK0 : 0 ≤ K v := by
      by_contra h0
      have := (abs_nonneg _).trans hv
      nlinarith [abs_pos.2 (sub_ne_zero.2 hne)]
    have r := ratio_le (hE0 v) (hE0 (other p v)) hne hv
    have n1 : |n (en3 m v)| ≤ Cn * Real.exp (d * |p|) * Real.exp (-(d * ‖v‖)) := by
      have := hn.bound _ (hE0 v).le
      rw [Complex.norm_real, Real.norm_eq_abs] at this
      refine this.trans ?_
      rw [mul_assoc, ← Real.exp_add]
      gcongr
      nlinarith [norm_le_en3 m v, abs_nonneg p]
    have n2 : |n (en3 m (other p v))| ≤ Cn * Real.exp (d * |p|) * Real.exp (-(d * ‖v‖)) := by
      have := hn.bound _ (hE0 (other p v)).le
      rw [Complex.norm_real, Real.norm_eq_abs] at this
      refine this.trans ?_
      rw [mul_assoc, ← Real.exp_add]
      gcongr
      nlinarith [norm_le_en3 m (other p v), norm_other p v]
    set y := Real.exp (-(d * ‖v‖)) with hy
    have hy0 : 0 < y := Real.exp_pos _
    have b1 : |n (en3 m v) / en3 m v| ≤ Cn * Real.exp (d * |p|) * y / |m| := by
      rw [abs_div, abs_of_pos (hE0 v)]
      gcongr
      exact hE v
    have b2 : |n (en3 m (other p v)) / en3 m (other p v)| ≤ Cn * Real.exp (d * |p|) * y / |m| := by
      rw [abs_div, abs_of_pos (hE0 (other p v))]
      gcongr
      exact hE (other p v)
    have b3 : |n (en3 m (other p v))| / (en3 m v * en3 m (other p v) * (en3 m v + en3 m (other p v))) ≤ Cn * Real.exp (d * |p|) * y / |m| ^ 3 := by
      gcongr
      have h1 := hE v
      have h2 := hE (other p v)
      calc |m| ^ 3 = |m| * |m| * |m| := by ring
        _ ≤ _ := mul_le_mul (mul_le_mul h1 h2 hm0.le (hE0 v).le) (by linarith) hm0.le (mul_pos (hE0 v) (hE0 (other p v))).le
    have b4 : K v / en3 m v ≤ K v / |m| := by
      gcongr; exact hE v
    have e1 := energies_le p m v
    have hP0 : 0 ≤ P v := by positivity
    calc _ ≤ P v * (S * (1 + ‖v‖) ^ 2) * (K v / |m| + W * y) := by
          gcongr P v * ?_ * ?_
          · have e2 : W * y = Cn * Real.exp (d * |p|) * y / |m| ^ 3 + (3 + 1 / m ^ 2) * (Cn * Real.exp (d * |p|) * y / |m| + Cn * Real.exp (d * |p|) * y / |m|) := by
              simp only [hW]; ring
            rw [e2]
            have : (3 + 1 / m ^ 2) * (|n (en3 m v) / en3 m v| + |n (en3 m (other p v)) / en3 m (other p v)|) ≤
                (3 + 1 / m ^ 2) * (Cn * Real.exp (d * |p|) * y / |m| + Cn * Real.exp (d * |p|) * y / |m|) := by gcongr
            linarith
      _ = B v := by simp only [hB, hP]; ring
  -- dominated convergence
  have ev : ∀ᶠ e : ℝ in 𝓝[≠] 0, e ≠ 0 ∧ |e| ≤ 1 := by
    have he : Tendsto (fun e : ℝ => |e|) (𝓝[≠] 0) (𝓝 |(0 : ℝ)|) := tendsto_nhdsWithin_of_tendsto_nhds continuous_abs.continuousAt
    filter_upwards [he.eventually (gt_mem_nhds (show |(0:ℝ)| < 1 by simp)), self_mem_nhdsWithin] with e h1 h2 using ⟨h2, h1.le⟩
  have lim : ∀ᵐ v, Tendsto (fun e => G e v) (𝓝[≠] 0) (𝓝 ((static p m n (a 0) (c 0) v : ℝ) : ℂ)) := by
    filter_upwards [ae_static hp m] with v hne
    have := (Complex.continuous_ofReal.tendsto _).comp (N.tendsto_two (v := v) hne (n (en3 m v) / en3 m v) (n (en3 m (other p v)) / en3 m (other p v)))
    refine this.congr' ?_
    filter_upwards [self_mem_nhdsWithin] with e he
    exact (integrand_eq N he (h e he) (hf e he) (hE0 v) (hE0 (other p v))).symm
  have meas : AEStronglyMeasurable (fun v => ((static p m n (a 0) (c 0) v : ℝ) : ℂ)) :=
    aestronglyMeasurable_of_tendsto_ae (u := 𝓝[≠] (0 : ℝ)) (f := fun e v => if e = 0 then 0 else G e v) (fun e => by
      by_cases he : e = 0
      · simp only [he, if_true]; exact aestronglyMeasurable_const
      · simp only [he, if_false]; exact (key e he).1.aestronglyMeasurable) (by
      filter_upwards [lim] with v hv
      refine hv.congr' ?_
      filter_upwards [self_mem_nhdsWithin] with e he
      rw [if_neg (show ¬ e = 0 from he)])
  refine ⟨hBi.mono' meas ?_, ?_⟩
  · obtain ⟨x, hx, hx0⟩ : ∃ x : ℕ → ℝ, Tendsto x atTop (𝓝[≠] 0) ∧ ∀ j, x j ≠ 0 ∧ |x j| ≤ 1 := by
      refine ⟨fun j => 1 / ((j : ℝ) + 1), ?_, fun j => ⟨by positivity, ?_⟩⟩
      · refine tendsto_nhdsWithin_iff.2 ⟨tendsto_one_div_add_atTop_nhds_zero_nat, .of_forall fun j => ?_⟩
        have : (1 : ℝ) / ((j : ℝ) + 1) ≠ 0 := by positivity
        exact this
      · rw [abs_of_pos (by positivity), div_le_one (by positivity)]
        have : (0 : ℝ) ≤ j := Nat.cast_nonneg j
        linarith
    have hall : ∀ᵐ v, ∀ j, ‖G (x j) v‖ ≤ B v := ae_all_iff.2 fun j => hbound _ (hx0 j).1 (hx0 j).2
    filter_upwards [hall, lim] with v h1 h2
    exact le_of_tendsto (h2.comp hx).norm (.of_forall h1)
  · have dom := tendsto_integral_filter_of_dominated_convergence (l := 𝓝[≠] (0 : ℝ)) B (F := G)
      (f := fun v => ((static p m n (a 0) (c 0) v : ℝ) : ℂ)) (ev.mono fun e he => (key e he.1).1.aestronglyMeasurable)
      (ev.mono fun e he => hbound e he.1 he.2) hBi lim
    refine (dom.const_mul (1 / (2 * (π : ℂ)) ^ 3)).congr' ?_
    filter_upwards [self_mem_nhdsWithin] with e he using (key e he).2

end Qcd.Static
