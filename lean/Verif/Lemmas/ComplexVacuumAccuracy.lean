import Verif.Lemmas.ComplexAccuracy
import Verif.Spec.ComplexAccuracy

/-! # Lemmas: the running errors of the vacuum functions of complex arguments -/

namespace Qcd
open Fl Spec

theorem CTrack.range {a : CFl binary64} {z : ℂ} {B : ℝ} {n k j : ℕ} (h : CTrack a z B n k) (lo : (10 ^ j)⁻¹ ≤ B) (hi : B ≤ 10 ^ j) : CTrack a z B n j :=
  ⟨h.run, h.bound, lo, hi⟩

theorem CTrack.congr {a : CFl binary64} {z w : ℂ} {B C : ℝ} {n k : ℕ} (h : CTrack a z B n k) (e : w = z) (e' : C = B) : CTrack a w C n k := by
  subst e e'
  exact h

theorem trackN (c : ℕ) (h0 : 0 < c := by norm_num) (h : c ≤ 99 := by norm_num) {x : ℝ} (hx : (c : ℝ) = x := by norm_num) :
    Track (ofR x : Fl binary64) x x 0 2 := by
  rw [← hx]
  exact Track.const c h0 h

/-- The norm of the sum with 1 of a number in the sector. -/
theorem norm_one_add {w : ℂ} (hw : CTrack.InSector w) : ‖w‖ + 1 ≤ 3 * ‖w + 1‖ := by
  have e : ‖w + 1‖ ^ 2 = ‖w‖ ^ 2 + 2 * w.re + 1 := by
    rw [Complex.sq_norm, Complex.sq_norm, Complex.normSq_apply, Complex.normSq_apply]
    simp
    ring
  have h0 := norm_nonneg w
  have h1 := norm_nonneg (w + 1)
  have h2 := hw.re_bound
  norm_num at h2
  refine (pow_le_pow_iff_left₀ (by linarith) (by linarith) two_ne_zero).1 ?_
  rw [mul_pow, e]
  nlinarith [sq_nonneg (‖w‖ - 1)]

theorem sector_add {w : ℂ} (hw : CTrack.InSector w) : CTrack.InSector (w + 1) := by
  unfold CTrack.InSector at *
  rw [Complex.add_re, Complex.add_im, Complex.one_re, Complex.one_im, add_zero]
  linarith

/-- The root of `1 + 4 / s`, in the sector. -/
theorem croot_bounds {s : ℂ} (hre : 0 ≤ s.re + |s.im|) (lo : 1 / 10 ^ 6 ≤ ‖s‖) (hi : ‖s‖ ≤ 10 ^ 6) :
    CTrack.InSector (s⁻¹ * 4 + 1) ∧ ‖s‖⁻¹ * 4 + 1 ≤ 3 * ‖s⁻¹ * 4 + 1‖ ∧ (0 ≤ (csqrt (s⁻¹ * 4 + 1)).re ∧ 1 ≤ (csqrt (s⁻¹ * 4 + 1)).re + |(csqrt (s⁻¹ * 4 + 1)).im|) ∧
    √(‖s‖⁻¹ * 4 + 1) - 1 ≤ ‖csqrt (s⁻¹ * 4 + 1) - 1‖ ∧
    √(‖s‖⁻¹ * 4 + 1) ≤ 2 * ‖csqrt (s⁻¹ * 4 + 1)‖ ∧ √(‖s‖⁻¹ * 4 + 1) + 1 ≤ 2 * ‖csqrt (s⁻¹ * 4 + 1) + 1‖ ∧
    ‖csqrt (s⁻¹ * 4 + 1) + 1‖ ≤ √(‖s‖⁻¹ * 4 + 1) + 1 := by
  have hp : 0 < ‖s‖ := lt_of_lt_of_le (by norm_num) lo
  have hs0 : s ≠ 0 := norm_pos_iff.1 hp
  have hN : 0 < Complex.normSq s := Complex.normSq_pos.2 hs0
  have hw : CTrack.InSector (s⁻¹ * 4) := by
    have e1 : (s⁻¹ * 4).re = s.re / Complex.normSq s * 4 := by rw [← Complex.inv_re]; simp
    have e2 : (s⁻¹ * 4).im = -s.im / Complex.normSq s * 4 := by rw [← Complex.inv_im]; simp
    unfold CTrack.InSector
    rw [e1, e2, abs_mul, abs_div, abs_neg, abs_of_pos hN, abs_of_pos (show (0 : ℝ) < 4 by norm_num), ← add_mul, ← add_div]
    positivity
  have n1 := norm_one_add hw
  have en : ‖s⁻¹ * 4‖ = ‖s‖⁻¹ * 4 := by rw [norm_mul, norm_inv]; norm_num
  rw [en] at n1
  obtain ⟨g1, -, -, -⟩ := root_bounds lo hi
  have hA2 := csqrt_sq (s⁻¹ * 4 + 1)
  have hA0 := csqrt_re_nonneg (s⁻¹ * 4 + 1)
  have hR2 : √(‖s‖⁻¹ * 4 + 1) ^ 2 = ‖s‖⁻¹ * 4 + 1 := Real.sq_sqrt (by positivity)
  have hnA : ‖csqrt (s⁻¹ * 4 + 1)‖ ^ 2 = ‖s⁻¹ * 4 + 1‖ := by rw [← norm_pow, csqrt_sq]
  have hle : ‖s⁻¹ * 4 + 1‖ ≤ ‖s‖⁻¹ * 4 + 1 := by
    have := norm_add_le (s⁻¹ * 4) 1
    rwa [en, norm_one] at this
  have e4 : (csqrt (s⁻¹ * 4 + 1) - 1) * (csqrt (s⁻¹ * 4 + 1) + 1) = s⁻¹ * 4 := by linear_combination hA2
  have e4n : ‖csqrt (s⁻¹ * 4 + 1) - 1‖ * ‖csqrt (s⁻¹ * 4 + 1) + 1‖ = ‖s‖⁻¹ * 4 := by rw [← norm_mul, e4, en]
  have hre1 : (csqrt (s⁻¹ * 4 + 1)).re ^ 2 - (csqrt (s⁻¹ * 4 + 1)).im ^ 2 = (s⁻¹ * 4).re + 1 := by
    have := congrArg Complex.re hA2
    rw [pow_two, Complex.mul_re, Complex.add_re, Complex.one_re] at this
    linarith
  have him1 : 2 * (csqrt (s⁻¹ * 4 + 1)).re * (csqrt (s⁻¹ * 4 + 1)).im = (s⁻¹ * 4).im := by
    have := congrArg Complex.im hA2
    rw [pow_two, Complex.mul_im, Complex.add_im, Complex.one_im] at this
    linarith
  refine ⟨sector_add hw, n1, ⟨hA0, ?_⟩, ?_⟩
  · unfold CTrack.InSector at hw
    rw [← him1, abs_mul, abs_of_nonneg (by linarith : 0 ≤ 2 * (csqrt (s⁻¹ * 4 + 1)).re)] at hw
    have hsq := sq_abs (csqrt (s⁻¹ * 4 + 1)).im
    have hab := abs_nonneg (csqrt (s⁻¹ * 4 + 1)).im
    by_contra hc
    push Not at hc
    nlinarith
  generalize csqrt (s⁻¹ * 4 + 1) = A at *
  generalize √(‖s‖⁻¹ * 4 + 1) = R at *
  have hAR : ‖A‖ ≤ R := (pow_le_pow_iff_left₀ (norm_nonneg _) (by linarith) two_ne_zero).1 (by rw [hnA, hR2]; exact hle)
  have hA1 : ‖A + 1‖ ≤ R + 1 := by
    have := norm_add_le A 1
    rw [norm_one] at this
    linarith
  have hRA : R ≤ 2 * ‖A‖ := (pow_le_pow_iff_left₀ (by linarith) (by positivity) two_ne_zero).1 (by rw [mul_pow, hnA, hR2]; nlinarith [norm_nonneg (s⁻¹ * 4 + 1)])
  refine ⟨?_, hRA, ?_, hA1⟩
  · have h1 : (R - 1) * (R + 1) = ‖s‖⁻¹ * 4 := by linear_combination hR2
    have h2 : ‖A - 1‖ * ‖A + 1‖ ≤ ‖A - 1‖ * (R + 1) := by gcongr
    exact le_of_mul_le_mul_right (by linarith : (R - 1) * (R + 1) ≤ ‖A - 1‖ * (R + 1)) (by linarith)
  · have e : ‖A + 1‖ ^ 2 = ‖A‖ ^ 2 + 2 * A.re + 1 := by
      rw [Complex.sq_norm, Complex.sq_norm, Complex.normSq_apply, Complex.normSq_apply]
      simp
      ring
    refine (pow_le_pow_iff_left₀ (by linarith) (by positivity) two_ne_zero).1 ?_
    rw [mul_pow, e, hnA]
    nlinarith [sq_nonneg (R - 3)]

namespace Spec.Sector
variable {x : CFl binary64} {s : ℂ} (h : Sector x s)
include h

theorem pos : 0 < ‖s‖ := lt_of_lt_of_le (by norm_num) h.lo
theorem t : CTrack x s ‖s‖ 0 6 := ⟨⟨s, h.re, h.im, by simp⟩, le_rfl, by rw [← one_div]; exact h.lo, h.hi⟩
theorem ti : CTrack x⁻¹ s⁻¹ ‖s‖⁻¹ 66 7 := h.t.inv le_rfl (by have := h.pos; linarith)
theorem tl : CTrack (CFl.ln x) (Complex.log s) (‖Complex.log s‖ + 1) 18 4 :=
  h.t.ln h.angle (by rw [one_mul]) (by have := h.pos; simp) (l := 0) (by norm_num)
theorem t1 : CTrack (x + (ofR 1 : Fl binary64)) (s + ((1 : ℝ) : ℂ)) (‖s‖ + 1) 5 7 := h.t.addR (trackN 1)
theorem tl1S : Slit (x + (ofR 1 : Fl binary64)) ∧ CTrack (CFl.ln (x + (ofR 1 : Fl binary64))) (Complex.log (s + ((1 : ℝ) : ℂ))) (‖Complex.log (s + ((1 : ℝ) : ℂ))‖ + 3) 28 5 := by
  have hp := h.pos
  have n1 := norm_one_add h.angle
  have hu := uu_small
  refine h.t1.lnS (by rw [Complex.ofReal_one]; exact sector_add h.angle) (by rw [Complex.ofReal_one]; exact n1) ?_ (l := 1) (by norm_num)
  rw [Complex.ofReal_one]
  push_cast
  have := uu_pos
  have : uu * (‖s‖ + 1) ≤ 1 / 10 ^ 15 * (3 * ‖s + 1‖) := mul_le_mul hu n1 (by linarith) (by norm_num)
  norm_num at this
  linarith

theorem tl1 : CTrack (CFl.ln (x + (ofR 1 : Fl binary64))) (Complex.log (s + ((1 : ℝ) : ℂ))) (‖Complex.log (s + ((1 : ℝ) : ℂ))‖ + 3) 28 5 :=
  h.tl1S.2

theorem ghost_track : ∃ k ≤ 100, CTrack (CFl.ghost.g x) (ghost.g s)
    (((‖s‖ + 1) * (‖s‖ + 1) * (‖s‖⁻¹ * 2 + ‖s‖⁻¹ * ‖s‖⁻¹) * (‖Complex.log (s + ((1 : ℝ) : ℂ))‖ + 3) + ‖s‖ * 2 * (‖Complex.log s‖ + 1) + (‖s‖⁻¹ + 2)) / 12)
    300 k := by
  have c2 : Track (ofR 2 : Fl binary64) 2 2 0 2 := trackN 2
  have := ((((h.t1.mul h.t1).mul ((h.ti.mulR c2).sub (h.ti.mul h.ti))).mul h.tl1).sub ((h.t.mulR c2).mul h.tl)).add (h.ti.addR c2)
  have := this.divNum 12
  push_cast at this
  exact ⟨_, by norm_num, this.mono (by norm_num)⟩

theorem rootS : Slit (x⁻¹ * (ofR 4 : Fl binary64) + (ofR 1 : Fl binary64)) ∧ CTrack (CFl.sqrt (x⁻¹ * (ofR 4 : Fl binary64) + (ofR 1 : Fl binary64))) (csqrt (s⁻¹ * 4 + 1)) (√(‖s‖⁻¹ * 4 + 1)) 430 10 := by
  have c1 : Track (ofR 1 : Fl binary64) 1 1 0 2 := trackN 1
  have c4 : Track (ofR 4 : Fl binary64) 4 4 0 2 := trackN 4
  have h1 := (h.ti.mulR c4).addR c1
  push_cast at h1
  obtain ⟨g1, g2, -⟩ := croot_bounds h.angle h.lo h.hi
  exact h1.sqrtS g1 g2

theorem root : CTrack (CFl.sqrt (x⁻¹ * (ofR 4 : Fl binary64) + (ofR 1 : Fl binary64))) (csqrt (s⁻¹ * 4 + 1)) (√(‖s‖⁻¹ * 4 + 1)) 430 10 :=
  h.rootS.2

theorem root_lnS : Slit ((CFl.sqrt (x⁻¹ * (ofR 4 : Fl binary64) + (ofR 1 : Fl binary64)) - (ofR 1 : Fl binary64)) / (ofR 2 : Fl binary64)) ∧ CTrack (CFl.ln ((CFl.sqrt (x⁻¹ * (ofR 4 : Fl binary64) + (ofR 1 : Fl binary64)) - (ofR 1 : Fl binary64)) / (ofR 2 : Fl binary64)))
    (Complex.log ((csqrt (s⁻¹ * 4 + 1) - 1) / 2))
    (‖Complex.log ((csqrt (s⁻¹ * 4 + 1) - 1) / 2)‖ + (√(‖s‖⁻¹ * 4 + 1) + 1) / (√(‖s‖⁻¹ * 4 + 1) - 1)) 898 11 := by
  have c1 : Track (ofR 1 : Fl binary64) 1 1 0 2 := trackN 1
  have hr := (h.root.subR c1).divNum 2
  push_cast at hr
  obtain ⟨-, -, a1, a2, a3, a4, a5⟩ := croot_bounds h.angle h.lo h.hi
  obtain ⟨g1, g2, -, -⟩ := root_bounds h.lo h.hi
  have hi := h.hi
  generalize CFl.sqrt (x⁻¹ * (ofR 4 : Fl binary64) + (ofR 1 : Fl binary64)) = a at *
  generalize csqrt (s⁻¹ * 4 + 1) = A at *
  generalize √(‖s‖⁻¹ * 4 + 1) = R at *
  have e2 : ‖(A - 1) / 2‖ = ‖A - 1‖ / 2 := by rw [norm_div]; norm_num
  have hQ : (R + 1) / 2 ≤ (R + 1) / (R - 1) * ‖(A - 1) / 2‖ := by
    rw [e2, div_mul_div_comm, div_le_div_iff₀ (by norm_num) (by linarith)]
    have : (R + 1) * (R - 1) ≤ (R + 1) * ‖A - 1‖ := by
      have : 0 ≤ R + 1 := by linarith
      gcongr
    linarith
  have hre : CTrack.InSector ((A - 1) / 2) := by
    have e1 : ((A - 1) / 2).re = (A.re - 1) / 2 := by
      rw [show (2 : ℂ) = ((2 : ℝ) : ℂ) by norm_num, Complex.div_ofReal_re]; simp
    have e2 : ((A - 1) / 2).im = A.im / 2 := by
      rw [show (2 : ℂ) = ((2 : ℝ) : ℂ) by norm_num, Complex.div_ofReal_im]; simp
    unfold CTrack.InSector
    rw [e1, e2, abs_div, abs_of_pos (show (0 : ℝ) < 2 by norm_num)]
    linarith [a1.2]
  have hq7 : (R + 1) / (R - 1) ≤ 10 ^ 7 := by norm_num at *; linarith
  refine hr.lnS hre hQ ?_ hq7
  have h3 : (R + 1) / 2 ≤ 10 ^ 7 * ‖(A - 1) / 2‖ := hQ.trans (by gcongr)
  have h4 : uu * ((R + 1) / 2) ≤ 1 / 10 ^ 15 * (10 ^ 7 * ‖(A - 1) / 2‖) := mul_le_mul uu_small h3 (by linarith) (by norm_num)
  generalize ‖(A - 1) / 2‖ = N at *
  have : 0 ≤ N := by linarith
  norm_num at h4 ⊢
  linarith

theorem root_ln : CTrack (CFl.ln ((CFl.sqrt (x⁻¹ * (ofR 4 : Fl binary64) + (ofR 1 : Fl binary64)) - (ofR 1 : Fl binary64)) / (ofR 2 : Fl binary64)))
    (Complex.log ((csqrt (s⁻¹ * 4 + 1) - 1) / 2))
    (‖Complex.log ((csqrt (s⁻¹ * 4 + 1) - 1) / 2)‖ + (√(‖s‖⁻¹ * 4 + 1) + 1) / (√(‖s‖⁻¹ * 4 + 1) - 1)) 898 11 :=
  h.root_lnS.2

theorem gluon_track : ∃ k ≤ 200, CTrack (CFl.gluon.f x) (gluon.f s)
    (((‖s‖ * ‖s‖ * 3 + ‖s‖ * 34 + 28 + ‖s‖⁻¹ * 24) * √(‖s‖⁻¹ * 4 + 1) *
        ((‖Complex.log ((csqrt (s⁻¹ * 4 + 1) - 1) / 2)‖ + (√(‖s‖⁻¹ * 4 + 1) + 1) / (√(‖s‖⁻¹ * 4 + 1) - 1)) * 2 + (‖Complex.log s‖ + 1)) +
      (‖s‖ + 1) * (‖s‖ + 1) * (‖s‖⁻¹ * 20 + 3 + ‖s‖⁻¹ * ‖s‖⁻¹ * 11 + ‖s‖⁻¹ * (‖s‖⁻¹ * ‖s‖⁻¹) * 2) * 2 * (‖Complex.log (s + 1)‖ + 3) +
      (‖s‖ * ‖s‖ * 3 + 2) * (‖Complex.log s‖ + 1) + (‖s‖ + 4) * (‖s‖ + 20 + ‖s‖⁻¹ * 12) +
      (‖s‖ + 1) * (‖s‖ + 1) * 2 * (‖s‖⁻¹ * 10 + 1 + ‖s‖⁻¹ * ‖s‖⁻¹) +
      (‖s‖⁻¹ * ‖s‖⁻¹ * 2 + 2 + ‖s‖ * ‖s‖)) / 72 + ‖s‖⁻¹ * 5 / 8) 1500 k := by
  have c1 : Track (ofR 1 : Fl binary64) 1 1 0 2 := trackN 1
  have c2 : Track (ofR 2 : Fl binary64) 2 2 0 2 := trackN 2
  have c3 : Track (ofR 3 : Fl binary64) 3 3 0 2 := trackN 3
  have c4 : Track (ofR 4 : Fl binary64) 4 4 0 2 := trackN 4
  have c5 : Track (ofR 5 : Fl binary64) 5 5 0 2 := trackN 5
  have c10 : Track (ofR 10 : Fl binary64) 10 10 0 2 := trackN 10
  have c11 : Track (ofR 11 : Fl binary64) 11 11 0 2 := trackN 11
  have c12 : Track (ofR 12 : Fl binary64) 12 12 0 2 := trackN 12
  have c20 : Track (ofR 20 : Fl binary64) 20 20 0 2 := trackN 20
  have c24 : Track (ofR 24 : Fl binary64) 24 24 0 2 := trackN 24
  have c28 : Track (ofR 28 : Fl binary64) 28 28 0 2 := trackN 28
  have c34 : Track (ofR 34 : Fl binary64) 34 34 0 2 := trackN 34
  have t := h.t
  have i := h.ti
  have la := (((((t.mul t).mulR c3).sub (t.mulR c34)).subR c28).sub (i.mulR c24)).mul h.root |>.mul ((h.root_ln.mulR c2).add h.tl)
  have lb := (((h.t1.mul h.t1).mul ((((i.neg.mulR c20).addR c3).add ((i.mul i).mulR c11)).sub ((i.mul (i.mul i)).mulR c2))).mulR c2).mul h.tl1
  have lc := (((t.mul t).neg.mulR c3).addR c2).mul h.tl
  have ra := (t.addR c4).neg.mul ((t.subR c20).add (i.mulR c12))
  have rb := ((h.t1.mul h.t1).mulR c2).mul (((i.neg.mulR c10).addR c1).add (i.mul i))
  have rc := (((i.mul i).mulR c2).addR c2).sub (t.mul t)
  have := (((((la.add lb).add lc).add ra).add rb).add rc).divNum 72
  have := this.add ((i.mulR c5).divNum 8)
  refine ⟨_, ?_, (this.mono (n' := 1500) (by norm_num)).congr ?_ ?_⟩
  · norm_num
  · simp [gluon.f, gluon.f_sep, gluon.l_a, gluon.l_b, gluon.l_c, gluon.r_a, gluon.r_b, gluon.r_c]
  · push_cast
    rfl

theorem gluon_xi_track : ∃ k ≤ 200, CTrack (CFl.gluon.f_xi x) (gluon.f_xi s)
    (‖s‖⁻¹ / 4 + (‖s‖ * 2 * (‖Complex.log s‖ + 1) + (‖s‖⁻¹ * ‖s‖⁻¹ + ‖s‖⁻¹) * (‖s‖⁻¹ + ‖s‖ * ‖s‖) * 2 * (‖Complex.log (s + ((1 : ℝ) : ℂ))‖ + 3) + 3 + ‖s‖⁻¹ * 3 +
      ‖s‖⁻¹ * ‖s‖⁻¹ * 2) / 12) 500 k := by
  have c2 : Track (ofR 2 : Fl binary64) 2 2 0 2 := trackN 2
  have c3 : Track (ofR 3 : Fl binary64) 3 3 0 2 := trackN 3
  have t := h.t
  have i := h.ti
  have := (((((t.mulR c2).mul h.tl).sub (((((i.mul i).sub i).mul (i.sub (t.mul t))).mulR c2).mul h.tl1)).addR c3).sub (i.mulR c3)).add ((i.mul i).mulR c2)
  have := (i.divNum 4).sub (this.divNum 12)
  push_cast at this
  exact ⟨_, by norm_num, this.mono (by norm_num)⟩

theorem quark_lnS : Slit ((CFl.sqrt (x⁻¹ * (ofR 4 : Fl binary64) + (ofR 1 : Fl binary64)) - (ofR 1 : Fl binary64)) / (CFl.sqrt (x⁻¹ * (ofR 4 : Fl binary64) + (ofR 1 : Fl binary64)) + (ofR 1 : Fl binary64))) ∧ CTrack (CFl.ln ((CFl.sqrt (x⁻¹ * (ofR 4 : Fl binary64) + (ofR 1 : Fl binary64)) - (ofR 1 : Fl binary64)) /
      (CFl.sqrt (x⁻¹ * (ofR 4 : Fl binary64) + (ofR 1 : Fl binary64)) + (ofR 1 : Fl binary64))))
    (Complex.log ((csqrt (s⁻¹ * 4 + 1) - 1) / (csqrt (s⁻¹ * 4 + 1) + 1)))
    (‖Complex.log ((csqrt (s⁻¹ * 4 + 1) - 1) / (csqrt (s⁻¹ * 4 + 1) + 1))‖ + 2 * ((√(‖s‖⁻¹ * 4 + 1) + 1) / (√(‖s‖⁻¹ * 4 + 1) - 1))) 5508 11 := by
  have c1 : Track (ofR 1 : Fl binary64) 1 1 0 2 := trackN 1
  have h1 := h.root.subR c1
  have h2 := h.root.addR c1
  push_cast at h1 h2
  obtain ⟨-, -, a1, a2, a3, a4, a5⟩ := croot_bounds h.angle h.lo h.hi
  obtain ⟨g1, g2, -, -⟩ := root_bounds h.lo h.hi
  have hi := h.hi
  generalize CFl.sqrt (x⁻¹ * (ofR 4 : Fl binary64) + (ofR 1 : Fl binary64)) = a at *
  generalize csqrt (s⁻¹ * 4 + 1) = A at *
  generalize √(‖s‖⁻¹ * 4 + 1) = R at *
  have hr := h1.div h2 (D := (R + 1) / 2) (by linarith) (by linarith)
  have eB : (R + 1) / ((R + 1) / 2) = 2 := by
    have : R + 1 ≠ 0 := by linarith
    field_simp
  rw [eB] at hr
  have hr := hr.range (j := 1) (by norm_num) (by norm_num)
  have hn1 : 0 < ‖A + 1‖ := by linarith
  have hn2 : 0 < ‖A - 1‖ := by linarith
  have hQ : (2 : ℝ) ≤ 2 * ((R + 1) / (R - 1)) * ‖(A - 1) / (A + 1)‖ := by
    rw [norm_div, mul_assoc, div_mul_div_comm]
    have : 1 ≤ (R + 1) * ‖A - 1‖ / ((R - 1) * ‖A + 1‖) := by
      rw [le_div_iff₀ (mul_pos (by linarith) hn1), one_mul, mul_comm (R - 1)]
      exact mul_le_mul a5 a2 (by linarith) (by linarith)
    linarith
  have hre : CTrack.InSector ((A - 1) / (A + 1)) := by
    obtain ⟨b1, b2⟩ := a1
    have hN : 0 < Complex.normSq (A + 1) := Complex.normSq_pos.2 (norm_pos_iff.1 hn1)
    have e1 : ((A - 1) / (A + 1)).re = (A.re * A.re + A.im * A.im - 1) / Complex.normSq (A + 1) := by
      rw [Complex.div_re, ← add_div]
      simp
      ring
    have e2 : ((A - 1) / (A + 1)).im = 2 * A.im / Complex.normSq (A + 1) := by
      rw [Complex.div_im, ← sub_div]
      simp
      ring
    unfold CTrack.InSector
    rw [e1, e2, abs_div, abs_of_pos hN, abs_mul, abs_of_pos (show (0 : ℝ) < 2 by norm_num), ← add_div]
    refine div_nonneg ?_ hN.le
    have hq := sq_abs A.im
    have hab := abs_nonneg A.im
    rcases le_or_gt 1 |A.im| with h | h <;> nlinarith
  have hq7 : 2 * ((R + 1) / (R - 1)) ≤ 10 ^ 7 := by norm_num at *; linarith
  refine hr.lnS hre hQ ?_ hq7
  have h3 : 2 ≤ 10 ^ 7 * ‖(A - 1) / (A + 1)‖ := hQ.trans (by gcongr)
  have hu := uu_small
  generalize ‖(A - 1) / (A + 1)‖ = N at *
  have h4 : uu * 2 ≤ 1 / 10 ^ 15 * (10 ^ 7 * N) := mul_le_mul hu h3 (by norm_num) (by norm_num)
  norm_num at h4 ⊢
  linarith

theorem quark_ln : CTrack (CFl.ln ((CFl.sqrt (x⁻¹ * (ofR 4 : Fl binary64) + (ofR 1 : Fl binary64)) - (ofR 1 : Fl binary64)) /
      (CFl.sqrt (x⁻¹ * (ofR 4 : Fl binary64) + (ofR 1 : Fl binary64)) + (ofR 1 : Fl binary64))))
    (Complex.log ((csqrt (s⁻¹ * 4 + 1) - 1) / (csqrt (s⁻¹ * 4 + 1) + 1)))
    (‖Complex.log ((csqrt (s⁻¹ * 4 + 1) - 1) / (csqrt (s⁻¹ * 4 + 1) + 1))‖ + 2 * ((√(‖s‖⁻¹ * 4 + 1) + 1) / (√(‖s‖⁻¹ * 4 + 1) - 1))) 5508 11 :=
  h.quark_lnS.2

theorem quark_track : ∃ k ≤ 200, CTrack (CFl.gluon.f_q x) (gluon.f_q s)
    (((‖s‖⁻¹ + 1 / 2) * √(‖s‖⁻¹ * 4 + 1) *
      (‖Complex.log ((csqrt (s⁻¹ * 4 + 1) - 1) / (csqrt (s⁻¹ * 4 + 1) + 1))‖ + 2 * ((√(‖s‖⁻¹ * 4 + 1) + 1) / (√(‖s‖⁻¹ * 4 + 1) - 1)))
      + ‖s‖⁻¹ * 2 + 5 / 6) * 4 / 9) 6100 k := by
  have c2 : Track (ofR 2 : Fl binary64) 2 2 0 2 := trackN 2
  have c4 : Track (ofR 4 : Fl binary64) 4 4 0 2 := trackN 4
  have ch : Track (ofR (1 / 2) : Fl binary64) (1 / 2) (1 / 2) 2 2 := Track.constR (by norm_num) (by norm_num)
  have c56 : Track (ofR (5 / 6) : Fl binary64) (5 / 6) (5 / 6) 2 2 := Track.constR (by norm_num) (by norm_num)
  have i := h.ti
  have := (((((i.neg.addR ch).mul h.root).mul h.quark_ln).sub (i.mulR c2)).addR c56).mulR c4 |>.divNum 9
  refine ⟨_, ?_, (this.mono (n' := 6100) (by norm_num)).congr ?_ ?_⟩
  · norm_num
  · simp [gluon.f_q]
  · push_cast
    rfl

theorem crossed_track : ∃ k ≤ 200, CTrack (CFl.gluon.f_q_crossed x) (gluon.f_q_crossed s)
    ((‖s‖⁻¹ * 4 + 1 / 6 + (‖s‖⁻¹ + 1 / 2 + ‖s‖⁻¹ * ‖s‖⁻¹ * 8) / (√(‖s‖⁻¹ * 4 + 1) / 2) *
      (‖Complex.log ((csqrt (s⁻¹ * 4 + 1) - 1) / (csqrt (s⁻¹ * 4 + 1) + 1))‖ + 2 * ((√(‖s‖⁻¹ * 4 + 1) + 1) / (√(‖s‖⁻¹ * 4 + 1) - 1)))) * 4 / 9) 7800 k := by
  have c4 : Track (ofR 4 : Fl binary64) 4 4 0 2 := trackN 4
  have c8 : Track (ofR 8 : Fl binary64) 8 8 0 2 := trackN 8
  have ch : Track (ofR (1 / 2) : Fl binary64) (1 / 2) (1 / 2) 2 2 := Track.constR (by norm_num) (by norm_num)
  have c16 : Track (ofR (1 / 6) : Fl binary64) (1 / 6) (1 / 6) 2 2 := Track.constR (by norm_num) (by norm_num)
  obtain ⟨-, -, a1, a2, a3, a4, a5⟩ := croot_bounds h.angle h.lo h.hi
  have i := h.ti
  have hR := Real.sqrt_nonneg (‖s‖⁻¹ * 4 + 1)
  have hd := ((i.addR ch).add ((i.mul i).mulR c8)).div h.root (D := √(‖s‖⁻¹ * 4 + 1) / 2) (by linarith) (by linarith)
  have := ((((i.mulR c4).subR c16).add (hd.mul h.quark_ln)).mulR c4).divNum 9
  refine ⟨_, ?_, (this.mono (n' := 7800) (by norm_num)).congr ?_ ?_⟩
  · norm_num
  · simp [gluon.f_q_crossed]
  · push_cast
    rfl

end Spec.Sector
end Qcd
