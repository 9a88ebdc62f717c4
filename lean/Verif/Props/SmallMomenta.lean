import Verif.Lemmas.SmallMomentaExact
import Verif.Props.Euclidean

/-! C114: the vacuum functions at very small momenta, in the arithmetic of `f64`. `Spec.Tiny x s`: the argument `x` is the number `s`, between
`2^-200` and `2^-53`. `Spec.In a lo hi`: the result `a` is a number between `lo` and `hi`. -/

namespace Qcd
open Fl Spec

theorem tiny_small {x : Fl binary64} {s c : ℝ} (h : Tiny x s) (hc : 0 < c) (hc' : 1 ≤ c) : (2 : ℝ) ^ (-1022 : ℤ) ≤ c * s := by
  have h1 : (2 : ℝ) ^ (-1022 : ℤ) ≤ 2 ^ (-200 : ℤ) := zpow_le_zpow_right₀ (by norm_num) (by norm_num)
  nlinarith [h.lo, h.pos]

/-- **C114** (ghost): at a momentum squared below `2^-53` (in units of the mass squared) the computed one-loop function is about `1/(12 s)`, and the
dressing function about `12 s`, whatever the renormalisation constant. -/
theorem C114_ghost {x : Fl binary64} {s g0 : ℝ} (h : Tiny x s) (hg : Binary64 g0) (hb : |g0| ≤ 10 ^ 6) :
    In (ghost.g x) (0.08 / s) (0.09 / s) ∧ In (ghost.dressing_landau x g0) (10 * s) (13 * s) ∧
      In (ghost.propagator_landau x g0) 9 14 := by
  have hs := h.small
  obtain ⟨hs0, hs1, hW0, hW, hW2, hW3, hO, -, -, -, -, -, si, -, -, -⟩ := hs
  have hgi := ghost_in h
  have hsW : s⁻¹ * s = 1 := inv_mul_cancel₀ hs0.ne'
  have hb' := abs_le.1 hb
  refine ⟨by simpa [div_eq_mul_inv] using hgi, ?_⟩
  set W := s⁻¹ with hWd
  have hsi : s = W⁻¹ := by rw [hWd, inv_inv]
  have d1 : In (ghost.dressing_inv_landau x g0) (0.079 * W) (0.091 * W) := by
    refine (hgi.add (in_ofR hg) W ?_ ?_ ?_ ?_ ?_ : In _ _ _) <;> linarith
  have d2 : In (ghost.dressing_landau x g0) (10 * s) (13 * s) := by
    refine (d1.invRel (by linarith) (by linarith)).weaken ?_ ?_ <;> rw [mul_inv, ← hsi] <;> norm_num <;> linarith
  refine ⟨d2, ?_⟩
  have e1 : 0.999 * W * (10 * s) = 9.99 := by linear_combination 9.99 * hsW
  have e2 : 1.001 * W * (13 * s) = 13.013 := by linear_combination 13.013 * hsW
  have o1 : (2 : ℝ) ^ (-1022 : ℤ) ≤ 1 := by
    rw [← zpow_zero (2 : ℝ)]; exact zpow_le_zpow_right₀ (by norm_num) (by norm_num)
  have := si.mulRel d2 (by positivity) (by positivity) (by rw [e1]; linarith) (by rw [e2]; linarith)
  rw [e1, e2] at this
  exact this.weaken (by norm_num) (by norm_num)

/-- **C114** (ghost): the exact values at the same momenta: the function is within `10^-4` of its limit `5/24`, and the computed dressing function is
smaller than the exact one by more than a factor `10^7`, for every renormalisation constant between `-5/24` and `10^6`. -/
theorem C114_ghost_exact {x : Fl binary64} {s g0 : ℝ} (h : Tiny x s) (hg : Binary64 g0) (h1 : -(5 / 24) ≤ g0) (h2 : g0 ≤ 10 ^ 6) :
    (5 / 24 < ghost.g s ∧ ghost.g s < 0.2084) ∧ (g0 + 0.2084)⁻¹ < ghost.dressing_landau s g0 ∧
      ∃ d : ℝ, Is (ghost.dressing_landau x g0) d ∧ 0 < d ∧ 10 ^ 7 * d < ghost.dressing_landau s g0 := by
  have hs0 := h.pos
  have hs1 := h.le
  have a1 := ghost_exact hs0 hs1 h.log_bound.1
  have a2 := C107_ghost_function.2 s hs0
  have a3 : 0 < Real.log (1 + s) := Real.log_pos (by linarith)
  have e : ghost.dressing_landau s g0 = (ghost.g s + g0)⁻¹ := rfl
  have a4 : (g0 + 0.2084)⁻¹ < ghost.dressing_landau s g0 := by rw [e]; exact inv_strictAnti₀ (by linarith) (by linarith)
  refine ⟨⟨by linarith, a1⟩, a4, ?_⟩
  obtain ⟨d, hd, b1, b2⟩ := (C114_ghost h hg (abs_le.2 ⟨by linarith, h2⟩)).2.1
  refine ⟨d, hd, by nlinarith, lt_trans ?_ a4⟩
  have : (10 ^ 6 + 1 : ℝ)⁻¹ ≤ (g0 + 0.2084)⁻¹ := inv_anti₀ (by linarith) (by linarith)
  refine lt_of_lt_of_le ?_ this
  have : 10 ^ 7 * d ≤ 10 ^ 7 * (13 * (1 / 10 ^ 15)) := by linarith
  refine lt_of_le_of_lt this ?_
  norm_num

/-- **C114** (gluon): the computed one-loop function is about `1/(18 s^2)`, and the Landau-gauge propagator about `18 s`, whatever the renormalisation
constant; the part that depends on the gauge is about `-1/(6 s^2)`, and the propagator in the Feynman gauge is negative. -/
theorem C114_gluon {x : Fl binary64} {s f0 : ℝ} (h : Tiny x s) (hf : Binary64 f0) (hb : |f0| ≤ 10 ^ 6) :
    (In (gluon.f x) (0.05 / s ^ 2) (0.065 / s ^ 2) ∧ In (gluon.f_xi x) (-(0.175 / s ^ 2)) (-(0.16 / s ^ 2))) ∧
    (In (ym.gluon.dressing_landau x f0) (15 * s ^ 2) (21 * s ^ 2) ∧ In (ym.gluon.propagator_landau x f0) (14 * s) (22 * s)) ∧
      In (ym.gluon.dressing x f0 1) (-(12 * s ^ 2)) (-(7 * s ^ 2)) ∧ In (ym.gluon.propagator x f0 1) (-(13 * s)) (-(6 * s)) := by
  have hxi := gluon_xi_sum h.small
  have hgi := gluon_in h
  have hs := h.small
  obtain ⟨hs0, hs1, hW0, hW, hW2, hW3, hO, -, -, -, -, -, si, -, -, -⟩ := hs
  have hsW : s⁻¹ * s = 1 := inv_mul_cancel₀ hs0.ne'
  have hb' := abs_le.1 hb
  have hL : ∀ c : ℝ, 1 ≤ c → (2 : ℝ) ^ (-1022 : ℤ) ≤ c * s := fun c hc => tiny_small h (by linarith) hc
  refine ⟨⟨by simpa [div_eq_mul_inv] using hgi, by simpa [div_eq_mul_inv] using hxi⟩, ?_⟩
  set W := s⁻¹ with hWd
  have hsi : s ^ 2 = (W ^ 2)⁻¹ := by rw [hWd, inv_pow, inv_inv]
  have hs2 : 0 < s ^ 2 := by positivity
  have d1 : In (ym.gluon.dressing_inv_landau x f0) (0.049 * W ^ 2) (0.066 * W ^ 2) := by
    refine (hgi.add (in_ofR hf) (W ^ 2) ?_ ?_ ?_ ?_ ?_ : In _ _ _) <;> linarith
  have d2 : In (ym.gluon.dressing_landau x f0) (15 * s ^ 2) (21 * s ^ 2) := by
    refine (d1.invRel (by linarith) (by linarith)).weaken ?_ ?_ <;> rw [mul_inv, ← hsi] <;> norm_num <;> linarith
  have e1 : ∀ c d : ℝ, c * s ^ 2 * (d * W) = c * d * s := fun c d => by linear_combination c * d * s * hsW
  have hso : ∀ c : ℝ, 0 ≤ c → c ≤ 10 ^ 6 → c * s ≤ om := fun c h1 h2 => by nlinarith
  refine ⟨⟨d2, ?_⟩, ?_⟩
  · have := d2.mulRel si (by positivity) (by positivity) (by rw [e1]; exact hL _ (by norm_num)) (by rw [e1]; exact hso _ (by norm_num) (by norm_num))
    rw [e1, e1] at this
    exact this.weaken (by norm_num; linarith) (by norm_num; linarith)
  · have x1 : In (gluon.f_xi x * ofR 1) (-(0.176 * W ^ 2)) (-(0.159 * W ^ 2)) := by
      refine hxi.mulOne (W ^ 2) ?_ ?_ ?_ ?_ ?_ <;> linarith
    have x2 : In (ym.gluon.dressing_inv x f0 1) (-(0.131 * W ^ 2)) (-(0.09 * W ^ 2)) := by
      refine (d1.add x1 (W ^ 2) ?_ ?_ ?_ ?_ ?_ : In _ _ _) <;> linarith
    have x3 : In (ym.gluon.dressing x f0 1) (-(12 * s ^ 2)) (-(7 * s ^ 2)) := by
      refine (x2.neg.invNeg (by linarith) (by linarith)).weaken ?_ ?_ <;> rw [neg_neg, mul_inv, ← hsi] <;> norm_num <;> linarith
    refine ⟨x3, ?_⟩
    have := x3.mulRelNeg si (by positivity) (by positivity) (by rw [e1]; exact hL _ (by norm_num)) (by rw [e1]; exact hso _ (by norm_num) (by norm_num))
    rw [e1, e1] at this
    exact this.weaken (by norm_num; linarith) (by norm_num; linarith)

/-- **C114** (gluon): the exact values at the same momenta: `s` times the function is within `0.005` of its limit `5/8`; the exact propagator is between
`1.58` and `1.62`, and the computed one smaller than `10^-13` of it. In the Feynman gauge the exact propagator is positive, and the computed one
negative. -/
theorem C114_gluon_exact {x : Fl binary64} {s f0 : ℝ} (h : Tiny x s) (hf : Binary64 f0) (hb : |f0| ≤ 10 ^ 6) :
    (0.62 / s < gluon.f s ∧ gluon.f s < 0.63 / s) ∧ (1.58 < ym.gluon.propagator_landau s f0 ∧ ym.gluon.propagator_landau s f0 < 1.62) ∧
      (∃ d : ℝ, Is (ym.gluon.propagator_landau x f0) d ∧ 0 < d ∧ 10 ^ 13 * d < ym.gluon.propagator_landau s f0) ∧
      (-0.792 ≤ f0 → 0 < ym.gluon.propagator s f0 1 ∧ ∃ d : ℝ, Is (ym.gluon.propagator x f0 1) d ∧ d < 0) := by
  have hs0 := h.pos
  have hs1 := h.le
  have hb' := abs_le.1 hb
  obtain ⟨a1, a2⟩ := gluon_exact hs0 hs1 h.log_bound.1
  have hW := h.ge_inv
  have e : ym.gluon.propagator_landau s f0 = (s * (gluon.f s + f0))⁻¹ := by
    rw [mul_inv, mul_comm]; rfl
  rw [div_lt_iff₀ hs0] at a1
  rw [lt_div_iff₀ hs0] at a2
  have b1 : s * |f0| ≤ 1 / 10 ^ 9 := by
    calc s * |f0| ≤ 1 / 10 ^ 15 * 10 ^ 6 := by gcongr
      _ = 1 / 10 ^ 9 := by norm_num
  have b2 : -(1 / 10 ^ 9) ≤ s * f0 ∧ s * f0 ≤ 1 / 10 ^ 9 := by
    rw [← abs_of_pos hs0, ← abs_mul] at b1
    exact abs_le.1 b1
  have c1 : 1.58 < ym.gluon.propagator_landau s f0 := by
    rw [e, lt_inv_comm₀ (by norm_num) (by linarith)]
    norm_num at *
    linarith
  have c2 : ym.gluon.propagator_landau s f0 < 1.62 := by
    rw [e, inv_lt_comm₀ (by linarith) (by norm_num)]
    norm_num at *
    linarith
  refine ⟨⟨by rwa [div_lt_iff₀ hs0], by rwa [lt_div_iff₀ hs0]⟩, ⟨c1, c2⟩, ?_, fun hf0 => ⟨?_, ?_⟩⟩
  · obtain ⟨d, hd, d1, d2⟩ := (C114_gluon h hf hb).2.1.2
    refine ⟨d, hd, by linarith, lt_trans ?_ c1⟩
    linarith
  · exact (C107_gluon (by norm_num) (by norm_num) (by linarith) s hs0).2.2.2.2.2.2
  · obtain ⟨d, hd, d1, d2⟩ := (C114_gluon h hf hb).2.2.2
    exact ⟨d, hd, by linarith⟩

/-- The momentum `2^-30` in units of the mass, with the constants `g0 = 1/2` and `f0 = -3/4`. -/
example : Tiny (num (((2 : ℝ) ^ (-60 : ℤ) : ℝ) : EReal)) (2 ^ (-60 : ℤ)) ∧ Binary64 (1 / 2) ∧ Binary64 (-3 / 4) :=
  ⟨⟨rfl, ⟨1, -60, by norm_num, by norm_num, by norm_num, by norm_num⟩, zpow_le_zpow_right₀ (by norm_num) (by norm_num),
    zpow_le_zpow_right₀ (by norm_num) (by norm_num)⟩,
   ⟨1, -1, by norm_num, by norm_num, by norm_num, by norm_num⟩, ⟨-3, -2, by norm_num, by norm_num, by norm_num, by norm_num⟩⟩

end Qcd
