import Verif.Model.FloatTc
import Verif.Spec.FloatTc
import Verif.Lemmas.FloatDensity
import Verif.Props.TcLongProp

/-! # Lemmas on phase boundaries, grids and fits in floating-point arithmetic -/

namespace Qcd
open Fl Spec

/-! ## Comparisons -/

section
variable {r : Rounding} {a b : Fl r} {x y : ℝ}

theorem beq_real (ha : Is a x) (hb : Is b y) : Fl.beq a b = true ↔ x = y := by
  rw [beq_iff]
  simp [show a.value = some (x : EReal) from ha, show b.value = some (y : EReal) from hb, eq_comm]

theorem lt_real (ha : Is a x) (hb : Is b y) : Fl.lt a b = true ↔ x < y := by
  rw [lt_iff]
  simp [show a.value = some (x : EReal) from ha, show b.value = some (y : EReal) from hb]

theorem lt_real' (ha : Is a x) (hb : Is b y) : Fl.lt a b = decide (y > x) := by
  rw [Bool.eq_iff_iff, lt_real ha hb, decide_eq_true_eq]

theorem is_num_zero : Is (num 0 : Fl r) 0 := rfl

theorem nan_beq (h : a.value = none) : Fl.beq a b = false := by
  rw [← Bool.not_eq_true, beq_iff]; rintro ⟨t, h1, -⟩; simp [h] at h1
theorem beq_nan (h : b.value = none) : Fl.beq a b = false := by
  rw [← Bool.not_eq_true, beq_iff]; rintro ⟨t, -, h1⟩; simp [h] at h1
theorem nan_lt (h : a.value = none) : Fl.lt a b = false := by
  rw [← Bool.not_eq_true, lt_iff]; rintro ⟨t, u, h1, -⟩; simp [h] at h1
theorem lt_nan (h : b.value = none) : Fl.lt a b = false := by
  rw [← Bool.not_eq_true, lt_iff]; rintro ⟨t, u, -, h1, -⟩; simp [h] at h1

end

/-! ## Interpolation -/

/-- The computed temperature of a segment. -/
theorem interpolation_close {m0 t0 m1 t1 mu : Fl binary64} {p q : ℝ × ℝ} {x : ℝ} (h0 : Is m0 p.1) (h1 : Is t0 p.2) (h2 : Is m1 q.1) (h3 : Is t1 q.2) (hmu : Is mu x)
    (hp : p.1 < x) (hq : x < q.1) (hd : Middle (q.1 - p.1)) (ht : Middle p.2) (hs : |q.2| ≤ 10 ^ 60) :
    ∃ v, Is (t0 + (t1 - t0) / (m1 - m0) * (mu - m0)) v ∧ |v - lineTemperature p q x| ≤ 1 / 10 ^ 14 * (|p.2| + |q.2|) := by
  have hdp : 0 < q.1 - p.1 := by linarith
  have hdl := hd.1
  have hdh := hd.2
  rw [abs_of_pos hdp] at hdl hdh
  have htl := ht.1
  have hth := ht.2
  have hMd : Mid (q.1 - p.1) := mid_range (by norm_num : 60 ≤ 250) hdl hdh
  have T1 : Track (t1 - t0) (q.2 - p.2) (|q.2| + |p.2|) 2 61 := by
    have l1 : ((10 : ℝ) ^ 61)⁻¹ ≤ |q.2| + |p.2| := by
      have : ((10 : ℝ) ^ 61)⁻¹ ≤ 1 / 10 ^ 60 := by norm_num
      linarith [abs_nonneg q.2]
    have l2 : |q.2| + |p.2| ≤ 10 ^ 61 := by
      have : (10 : ℝ) ^ 60 + 10 ^ 60 ≤ 10 ^ 61 := by norm_num
      linarith
    refine ⟨?_, l1, l2⟩
    have := (Run.exact h3).sub (Run.exact h1) le_rfl (by norm_num) (mid_of l1 l2 (by norm_num))
    simpa using this
  have T2 : Track (m1 - m0) (q.1 - p.1) (q.1 - p.1) 2 60 := by
    refine ⟨?_, by rwa [← one_div], hdh⟩
    have := Run.of_round (a := m1 - m0) (n := 0) (value_sub h2 h0) (show |q.1 - p.1| ≤ q.1 - p.1 by rw [abs_of_pos hdp]) hMd le_rfl (by norm_num) (by simp)
    simpa using this
  have T3 : Track (mu - m0) (x - p.1) (q.1 - p.1) 2 60 := by
    refine ⟨?_, by rwa [← one_div], hdh⟩
    have := Run.of_round (a := mu - m0) (n := 0) (value_sub hmu h0) (show |x - p.1| ≤ q.1 - p.1 by rw [abs_of_pos (by linarith)]; linarith) hMd le_rfl (by norm_num) (by simp)
    simpa using this
  have T4 : Track t0 p.2 |p.2| 0 60 := ⟨by simpa using Run.exact h1, by rwa [← one_div], hth⟩
  have T5 := T4.add ((T1.div T2).mul T3)
  obtain ⟨v, hv, -, h⟩ := T5.run
  refine ⟨v, hv, ?_⟩
  have e : p.2 + (q.2 - p.2) / (q.1 - p.1) * (x - p.1) = lineTemperature p q x := by unfold lineTemperature; ring
  rw [e] at h
  refine h.trans ?_
  have e2 : |p.2| + (|q.2| + |p.2|) / (q.1 - p.1) * (q.1 - p.1) = 2 * |p.2| + |q.2| := by field_simp; ring
  rw [e2]
  have hu : uu * 17 * 2 ≤ 1 / 10 ^ 14 := by unfold uu; norm_num
  have hq0 := abs_nonneg q.2
  have hp0 := abs_nonneg p.2
  have hu0 := uu_pos
  norm_num
  norm_num at hu
  nlinarith [mul_nonneg hu0.le hq0, mul_nonneg hu0.le hp0]

/-! ## The polynomial -/

theorem polynomial_cons (p : ℝ) (ps : List ℝ) (x : ℝ) : polynomial (p :: ps) x = p + x * polynomial ps x := by
  unfold polynomial
  rw [List.length_cons, Finset.sum_range_succ', Finset.mul_sum, add_comm]
  congr 1
  · simp
  · refine Finset.sum_congr rfl fun i _ => ?_
    simp only [List.getD_cons_succ]; ring

theorem polynomialScale_cons (p : ℝ) (ps : List ℝ) (x : ℝ) : polynomialScale (p :: ps) x = |p| + (2 ^ 900)⁻¹ + |x| * polynomialScale ps x := by
  unfold polynomialScale
  rw [List.length_cons, Finset.sum_range_succ', Finset.mul_sum, add_comm]
  congr 1
  · simp
  · refine Finset.sum_congr rfl fun i _ => ?_
    simp only [List.getD_cons_succ]; ring

theorem polynomialScale_nonneg (ps : List ℝ) (x : ℝ) : 0 ≤ polynomialScale ps x := Finset.sum_nonneg fun _ _ => by positivity

theorem polynomialScale_mono (ps : List ℝ) {x y : ℝ} (h : |x| ≤ |y|) : polynomialScale ps x ≤ polynomialScale ps y :=
  Finset.sum_le_sum fun _ _ => by gcongr

/-- Multiplication by an exact number, with room for small products. -/
theorem Run.mulExact {a b : Fl binary64} {y B n x D : ℝ} (ha : Run a y B n) (hb : Is b x) (hn : 0 ≤ n) (hn' : n ≤ 10 ^ 6) (hD : B * |x| ≤ D) (hM : Mid D) :
    Run (a * b) (y * x) D (n + 2) := by
  obtain ⟨v, hv, a1, a2⟩ := ha
  refine Run.of_round (value_mul hv hb) ?_ hM hn hn' ?_
  · rw [abs_mul]; exact le_trans (by gcongr) hD
  · rw [← sub_mul, abs_mul]
    have hu := uu_pos
    calc |v - y| * |x| ≤ n * uu * B * |x| := by gcongr
      _ = n * uu * (B * |x|) := by ring
      _ ≤ n * uu * D := by gcongr

theorem horner_run {mu : Fl binary64} {x : ℝ} (hmu : Is mu x) :
    ∀ (l : List (Fl binary64)) (ps : List ℝ), List.Forall₂ Is l ps → l.length ≤ 10 ^ 5 → polynomialScale ps (max 1 |x|) * max 1 |x| ≤ 2 ^ 800 →
      Run (l.foldr (fun p res => (res + p) * mu) (num 0)) (x * polynomial ps x) ((2 ^ 900)⁻¹ + |x| * polynomialScale ps x) (4 * l.length) := by
  intro l ps h
  have hM1 : (1 : ℝ) ≤ max 1 |x| := le_max_left _ _
  have habs : |(max 1 |x|)| = max 1 |x| := abs_of_pos (by linarith)
  induction h with
  | nil =>
    intro _ _
    refine ⟨0, is_num_zero, ?_, ?_⟩
    · simp [polynomial, polynomialScale]
    · simp [polynomial]
  | @cons a p l ps hap hl ih =>
    intro hlen hbig
    rw [List.length_cons] at hlen
    have hS := polynomialScale_nonneg ps (max 1 |x|)
    rw [polynomialScale_cons, habs] at hbig
    have hthp : (0 : ℝ) < (2 ^ 900)⁻¹ := by positivity
    have hge : polynomialScale ps (max 1 |x|) * max 1 |x| ≤ 2 ^ 800 := by
      refine le_trans ?_ hbig
      have : 0 ≤ |p| + (2 ^ 900)⁻¹ := by positivity
      nlinarith [mul_nonneg (mul_nonneg (by linarith : 0 ≤ max 1 |x|) hS) (by linarith : 0 ≤ max 1 |x| - 1), mul_nonneg this (by linarith : 0 ≤ max 1 |x|)]
    have ih := ih (by omega) hge
    have hmono : polynomialScale ps x ≤ polynomialScale ps (max 1 |x|) := polynomialScale_mono ps (by rw [habs]; exact le_max_right _ _)
    have hS0 := polynomialScale_nonneg ps x
    have hxm : |x| ≤ max 1 |x| := le_max_right _ _
    have h8 : (2 : ℝ) ^ 800 + 1 ≤ 2 ^ 900 := by
      have : (1 : ℝ) ≤ 2 ^ 800 := one_le_pow₀ (by norm_num)
      calc (2 : ℝ) ^ 800 + 1 ≤ 2 ^ 800 + 2 ^ 800 := by gcongr
        _ = 2 ^ 801 := by rw [← mul_two, ← pow_succ]
        _ ≤ 2 ^ 900 := pow_le_pow_right₀ (by norm_num) (by norm_num)
    have hth1 : ((2 : ℝ) ^ 900)⁻¹ ≤ 1 := inv_le_one_of_one_le₀ (one_le_pow₀ (by norm_num))
    have hprod : |x| * polynomialScale ps x ≤ max 1 |x| * polynomialScale ps (max 1 |x|) := by gcongr
    have hMa : Mid ((2 ^ 900)⁻¹ + |x| * polynomialScale ps x + |p|) := by
      constructor
      · have : 0 ≤ |x| * polynomialScale ps x := by positivity
        linarith [abs_nonneg p]
      · have h1 : |p| + (2 ^ 900)⁻¹ + max 1 |x| * polynomialScale ps (max 1 |x|) ≤ 2 ^ 800 := by
          refine le_trans (le_mul_of_one_le_right (by positivity) hM1) hbig
        refine le_trans ?_ h8
        generalize ((2 : ℝ) ^ 900)⁻¹ = θ at *
        generalize (2 : ℝ) ^ 800 = E at *
        linarith
    have hn4 : 4 * (l.length : ℝ) ≤ 10 ^ 6 - 10 := by
      have : (l.length : ℝ) + 1 ≤ 10 ^ 5 := by exact_mod_cast hlen
      norm_num at this ⊢
      linarith
    have r1 := ih.add ((Run.exact hap).mono (k := 4 * (l.length : ℝ)) (by positivity)) (by positivity) (by linarith) hMa
    have hD : ((2 ^ 900)⁻¹ + |x| * polynomialScale ps x + |p|) * |x| ≤ (2 ^ 900)⁻¹ + |x| * polynomialScale (p :: ps) x := by
      rw [polynomialScale_cons]
      nlinarith [abs_nonneg x]
    have r2 := r1.mulExact hmu (by positivity) (by linarith) hD (by
      constructor
      · have := polynomialScale_nonneg (p :: ps) x
        have : 0 ≤ |x| * polynomialScale (p :: ps) x := by positivity
        linarith
      · rw [polynomialScale_cons]
        have h1 : |x| * (|p| + (2 ^ 900)⁻¹ + |x| * polynomialScale ps x) ≤ (|p| + (2 ^ 900)⁻¹ + max 1 |x| * polynomialScale ps (max 1 |x|)) * max 1 |x| := by
          rw [mul_comm]; gcongr
        refine le_trans ?_ h8
        generalize ((2 : ℝ) ^ 900)⁻¹ = θ at *
        generalize (2 : ℝ) ^ 800 = E at *
        linarith)
    rw [List.foldr_cons, polynomial_cons, List.length_cons]
    have e : x * (p + x * polynomial ps x) = (x * polynomial ps x + p) * x := by ring
    rw [e]
    refine r2.mono ?_
    push_cast
    linarith

end Qcd
