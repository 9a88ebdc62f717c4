import Verif.Lemmas.FloatResidue
import Verif.Spec.FloatResidue
import Verif.Props.Residues

/-! # C122: accuracy of the residues in floating-point arithmetic -/

namespace Qcd
open Fl Spec utils

theorem UsualOrZero.ord {x : ℝ} (h : UsualOrZero x) : Ord 20 x := h

/-- C122. The reciprocal of a complex number: both components are right up to six roundings. -/
theorem C122_reciprocal (a : CFl binary64) (w : ℂ) (ha : IsC a w) (h1 : UsualOrZero w.re) (h2 : UsualOrZero w.im) (h0 : w ≠ 0) :
    WithinC (6 / 10 ^ 15) (CFl.inv a) (1 / w) := by
  have hN : w.re * w.re + w.im * w.im ≠ 0 := by
    intro h
    apply h0
    have a1 := mul_self_nonneg w.re
    have a2 := mul_self_nonneg w.im
    exact Complex.ext (mul_self_eq_zero.1 (by linarith)) (mul_self_eq_zero.1 (by linarith))
  obtain ⟨r1, r2, -, -⟩ := rel_inv (Rel.exact ha.1) (Rel.exact ha.2) (UsualOrZero.ord h1) (UsualOrZero.ord h2) hN le_rfl (by norm_num) (by norm_num)
  rw [mul_zero, zero_add] at r1 r2
  rw [one_div]
  refine ⟨?_, ?_⟩
  · rw [Complex.inv_re, Complex.normSq_apply]; exact r1
  · rw [Complex.inv_im, Complex.normSq_apply]; exact r2

example : IsC (⟨ofR 3, ofR 4⟩ : CFl binary64) ⟨3, 4⟩ ∧ UsualOrZero (3 : ℝ) ∧ UsualOrZero (4 : ℝ) :=
  ⟨⟨is_ofR ⟨3, 0, by norm_num, by norm_num, by norm_num, by norm_num⟩, is_ofR ⟨4, 0, by norm_num, by norm_num, by norm_num, by norm_num⟩⟩,
    .inr ⟨by norm_num [abs_of_pos], by norm_num [abs_of_pos]⟩, .inr ⟨by norm_num [abs_of_pos], by norm_num [abs_of_pos]⟩⟩

theorem is_sub {a b : Fl binary64} {x y : ℝ} (ha : Is a x) (hb : Is b y) : IsE (a - b) (binary64.rnd (x - y)) := by
  have := value_add ha (show (neg b).value = some ((-y : ℝ) : EReal) by rw [value_neg hb, EReal.coe_neg])
  rwa [← sub_eq_add_neg] at this

theorem rel_step : Rel Spec.step (1 / 10 ^ 12) (1 / 10 ^ 15) :=
  Rel.ofReal (mid_range (by norm_num : 12 ≤ 250) (by norm_num) (by norm_num))

theorem ord_step : Ord 12 (1 / 10 ^ 12) := .inr ⟨by norm_num, by norm_num⟩
theorem ord_two : Ord 1 2 := .inr ⟨by norm_num, by norm_num⟩

/-- C122. The residue of a complex function near a pole: if the values on the two sides are of usual size and opposite, the result is `2 eps / (1/f(z+eps) - 1/f(z-eps))` with a relative error of `10^-13` in each component. -/
theorem C122_complex (f : CFl binary64 → CFl binary64) (z : CFl binary64) (v w : ℂ) (hv : IsC (f (CFl.addReal z Spec.step)) v) (hw : IsC (f (CFl.subReal z Spec.step)) w)
    (hv0 : v ≠ 0) (hw0 : w ≠ 0) (uv : UsualOrZero v.re ∧ UsualOrZero v.im) (uw : UsualOrZero w.re ∧ UsualOrZero w.im) (ho : Opposite v w) :
    WithinC (1 / 10 ^ 13) (CFl.compute_residue f z) ((2 / 10 ^ 12 : ℝ) / (1 / v - 1 / w)) := by
  have hN : ∀ {w : ℂ}, w ≠ 0 → 0 < w.re * w.re + w.im * w.im := by
    intro w h0
    rw [← Complex.normSq_apply]
    exact Complex.normSq_pos.2 h0
  have pv := hN hv0
  have pw := hN hw0
  obtain ⟨r1, r2, o1, o2⟩ := rel_inv (Rel.exact hv.1) (Rel.exact hv.2) (UsualOrZero.ord uv.1) (UsualOrZero.ord uv.2) pv.ne' le_rfl (by norm_num) (by norm_num)
  obtain ⟨s1, s2, q1, q2⟩ := rel_inv (Rel.exact hw.1) (Rel.exact hw.2) (UsualOrZero.ord uw.1) (UsualOrZero.ord uw.2) pw.ne' le_rfl (by norm_num) (by norm_num)
  have i1 : ∀ w : ℂ, (1 / w).re = w.re / (w.re * w.re + w.im * w.im) := fun w => by rw [one_div, Complex.inv_re, Complex.normSq_apply]
  have i2 : ∀ w : ℂ, (1 / w).im = -w.im / (w.re * w.re + w.im * w.im) := fun w => by rw [one_div, Complex.inv_im, Complex.normSq_apply]
  rw [← i1] at r1 s1 o1 q1
  rw [← i2] at r2 s2 o2 q2
  have sg1 : (1 / v).re * (1 / w).re ≤ 0 := by
    rw [i1, i1, div_mul_div_comm]
    exact div_nonpos_of_nonpos_of_nonneg ho.1 (mul_pos pv pw).le
  have sg2 : (1 / v).im * (1 / w).im ≤ 0 := by
    rw [i2, i2, div_mul_div_comm, neg_mul_neg]
    exact div_nonpos_of_nonpos_of_nonneg ho.2 (mul_pos pv pw).le
  have od : ∀ {x y : ℝ}, Ord (3 * 20 + 1) x → Ord (3 * 20 + 1) y → x * y ≤ 0 → Ord 62 (x - y) := fun hx hy h => by
    rw [sub_eq_add_neg]
    exact (hx.add hy.neg (by linarith)).mono (by norm_num)
  have d1 := r1.subO s1 sg1 ((od o1 q1 sg1).mid (by norm_num)) (by norm_num) (by norm_num)
  have d2 := r2.subO s2 sg2 ((od o2 q2 sg2).mid (by norm_num)) (by norm_num) (by norm_num)
  set D : ℂ := 1 / v - 1 / w with hD
  have eD1 : (1 / v).re - (1 / w).re = D.re := (Complex.sub_re _ _).symm
  have eD2 : (1 / v).im - (1 / w).im = D.im := (Complex.sub_im _ _).symm
  have hD0 : D ≠ 0 := by
    intro h
    have e1 : (1 / v).re = (1 / w).re := by rw [h] at eD1; simpa [sub_eq_zero] using eD1
    have e2 : (1 / v).im = (1 / w).im := by rw [h] at eD2; simpa [sub_eq_zero] using eD2
    rw [e1] at sg1
    rw [e2] at sg2
    have : (1 / w) = 0 := Complex.ext (mul_self_eq_zero.1 (le_antisymm sg1 (mul_self_nonneg _))) (mul_self_eq_zero.1 (le_antisymm sg2 (mul_self_nonneg _)))
    rw [one_div, inv_eq_zero] at this
    exact hw0 this
  have od1 := od o1 q1 sg1
  have od2 := od o2 q2 sg2
  rw [eD1] at d1 od1
  rw [eD2] at d2 od2
  obtain ⟨t1, t2, p1, p2⟩ := rel_inv (w := CFl.sub (CFl.inv (f (CFl.addReal z Spec.step))) (CFl.inv (f (CFl.subReal z Spec.step)))) (k := 62) (e := 7 / 10 ^ 15)
    (d1.mono (by norm_num)) (d2.mono (by norm_num)) od1 od2 (hN hD0).ne' (by norm_num) (by norm_num) (by norm_num)
  rw [← i1] at t1 p1
  rw [← i2] at t2 p2
  have fin : ∀ {a : Fl binary64} {x : ℝ}, Rel a x (4 * (7 / 10 ^ 15) + 6 / 10 ^ 15) → Ord (3 * 62 + 1) x →
      Rel (a * ofR 2 * Spec.step) (x * 2 * (1 / 10 ^ 12)) (1 / 10 ^ 13) := by
    intro a x ha ox
    have m1 := ha.mulO (Rel.exact is_two) ((ox.mul ord_two).mid (by norm_num)) (by norm_num) le_rfl (by norm_num)
    have m2 := m1.mulO rel_step (((ox.mul ord_two).mul ord_step).mid (by norm_num)) (by norm_num) (by norm_num) (by norm_num)
    exact m2.mono (by norm_num)
  have e3 : ((2 / 10 ^ 12 : ℝ) : ℂ) / D = ((2 * (1 / 10 ^ 12) : ℝ) : ℂ) * (1 / D) := by push_cast; ring
  rw [e3]
  refine ⟨?_, ?_⟩
  · rw [Complex.re_ofReal_mul, mul_comm, ← mul_assoc]; exact fin t1 p1
  · rw [Complex.im_ofReal_mul, mul_comm, ← mul_assoc]; exact fin t2 p2

/-- The pole `1/w` at zero. -/
example : ∃ v w : ℂ, IsC (CFl.inv (CFl.addReal ⟨ofR 0, ofR 0⟩ Spec.step)) v ∧ IsC (CFl.inv (CFl.subReal ⟨ofR 0, ofR 0⟩ Spec.step)) w ∧ v ≠ 0 ∧ w ≠ 0 ∧
    (UsualOrZero v.re ∧ UsualOrZero v.im) ∧ (UsualOrZero w.re ∧ UsualOrZero w.im) ∧ Opposite v w := by
  obtain ⟨e, he, hc⟩ := rel_step
  have hc' := abs_le.1 hc
  rw [abs_of_pos (by norm_num)] at hc'
  have e1 : 1 / 10 ^ 13 ≤ e := by norm_num at hc' ⊢; linarith
  have e2 : e ≤ 1 / 10 ^ 11 := by norm_num at hc' ⊢; linarith
  have e0 : 0 < e := lt_of_lt_of_le (by norm_num) e1
  have be : Binary64 e := round64_binary64 (Option.some.inj ((value_round _ _).symm.trans he))
  have ben : Binary64 (-e) := by
    obtain ⟨k, j, h1, h2, h3, h4⟩ := be
    exact ⟨-k, j, by rwa [abs_neg], h2, h3, by rw [h4]; push_cast; ring⟩
  have u : ∀ s : ℝ, |s| = e → UsualOrZero s := fun s h => .inr ⟨by rw [h]; exact le_trans (by norm_num) e1, by rw [h]; exact e2.trans (by norm_num)⟩
  have c1 : IsC (CFl.addReal ⟨ofR 0, ofR 0⟩ Spec.step) ⟨e, 0⟩ := by
    refine ⟨?_, is_zero⟩
    have := value_add is_zero he
    rw [zero_add] at this
    exact this.trans (congrArg some (binary64_fixed be))
  have c2 : IsC (CFl.subReal ⟨ofR 0, ofR 0⟩ Spec.step) ⟨-e, 0⟩ := by
    refine ⟨?_, is_zero⟩
    have := is_sub is_zero he
    rw [zero_sub] at this
    exact this.trans (congrArg some (binary64_fixed ben))
  obtain ⟨⟨x, hx, dx⟩, ⟨y, hy, dy⟩⟩ := C122_reciprocal _ _ c1 (u _ (abs_of_pos e0)) (.inl rfl) (fun h => e0.ne' (congrArg Complex.re h))
  obtain ⟨⟨x', hx', dx'⟩, ⟨y', hy', dy'⟩⟩ := C122_reciprocal _ _ c2 (u _ (by rw [abs_neg, abs_of_pos e0])) (.inl rfl) (fun h => e0.ne' (neg_eq_zero.1 (congrArg Complex.re h)))
  have g1 : (1 / (⟨e, 0⟩ : ℂ)).re = e⁻¹ := by simp [Complex.normSq_apply, e0.ne']
  have g2 : (1 / (⟨e, 0⟩ : ℂ)).im = 0 := by simp [Complex.normSq_apply]
  have g3 : (1 / (⟨-e, 0⟩ : ℂ)).re = -e⁻¹ := by simp [Complex.normSq_apply, e0.ne', neg_div]
  have g4 : (1 / (⟨-e, 0⟩ : ℂ)).im = 0 := by simp [Complex.normSq_apply]
  rw [g1] at dx
  rw [g2] at dy
  rw [g3] at dx'
  rw [g4] at dy'
  have hy0 : y = 0 := by simpa using dy
  have hy0' : y' = 0 := by simpa using dy'
  subst hy0 hy0'
  have i1 : 10 ^ 11 ≤ e⁻¹ := by rw [le_inv_comm₀ (by norm_num) e0]; exact e2.trans (by norm_num)
  have i2 : e⁻¹ ≤ 10 ^ 13 := by rw [inv_le_comm₀ e0 (by norm_num)]; exact le_trans (by norm_num) e1
  rw [abs_le, abs_of_pos (by linarith [show (0 : ℝ) < 10 ^ 11 by norm_num])] at dx
  rw [abs_neg, abs_le, abs_of_pos (by linarith [show (0 : ℝ) < 10 ^ 11 by norm_num])] at dx'
  have b1 : 10 ^ 10 ≤ x := by norm_num at dx i1 i2 ⊢; linarith
  have b2 : x ≤ 10 ^ 14 := by norm_num at dx i1 i2 ⊢; linarith
  have b3 : 10 ^ 10 ≤ -x' := by norm_num at dx' i1 i2 ⊢; linarith
  have b4 : -x' ≤ 10 ^ 14 := by norm_num at dx' i1 i2 ⊢; linarith
  have p1 : 0 < x := lt_of_lt_of_le (by norm_num) b1
  have p2 : 0 < -x' := lt_of_lt_of_le (by norm_num) b3
  refine ⟨⟨x, 0⟩, ⟨x', 0⟩, ⟨hx, hy⟩, ⟨hx', hy'⟩, fun h => p1.ne' (congrArg Complex.re h), fun h => p2.ne' (neg_eq_zero.2 (congrArg Complex.re h)),
    ⟨.inr ⟨?_, ?_⟩, .inl rfl⟩, ⟨.inr ⟨?_, ?_⟩, .inl rfl⟩, ?_, by simp⟩
  · rw [abs_of_pos p1]; exact le_trans (by norm_num) b1
  · rw [abs_of_pos p1]; exact b2.trans (by norm_num)
  · rw [← abs_neg, abs_of_pos p2]; exact le_trans (by norm_num) b3
  · rw [← abs_neg, abs_of_pos p2]; exact b4.trans (by norm_num)
  · show x * x' ≤ 0
    nlinarith

/-- C122. The same for a real function. -/
theorem C122_real (f : Fl binary64 → Fl binary64) (z : Fl binary64) (v w : ℝ) (hv : Is (f (z + Spec.step)) v) (hw : Is (f (z - Spec.step)) w)
    (uv : Usual v) (uw : Usual w) (ho : v * w < 0) : Within (1 / 10 ^ 13) (compute_residue f z) (2 / 10 ^ 12 / (1 / v - 1 / w)) := by
  have hv0 : v ≠ 0 := by rintro rfl; simp at ho
  have hw0 : w ≠ 0 := by rintro rfl; simp at ho
  have ov : Ord 20 v := .inr uv
  have ow : Ord 20 w := .inr uw
  have md : ∀ {k : ℕ} {x : ℝ}, Ord k x → x ≠ 0 → k ≤ 250 → Mid |x| := fun h h0 hk => (h.mid hk).resolve_left h0
  have r1 := (Rel.exact hv).inv (md ov hv0 (by norm_num)) (md ov.inv (inv_ne_zero hv0) (by norm_num)) le_rfl (by norm_num)
  have r2 := (Rel.exact hw).inv (md ow hw0 (by norm_num)) (md ow.inv (inv_ne_zero hw0) (by norm_num)) le_rfl (by norm_num)
  have sg : v⁻¹ * w⁻¹ < 0 := by rw [← mul_inv]; exact inv_lt_zero.2 ho
  have od : Ord 21 (v⁻¹ - w⁻¹) := by
    rw [sub_eq_add_neg]
    exact (ov.inv.add ow.inv.neg (by linarith)).mono (by norm_num)
  have hd0 : v⁻¹ - w⁻¹ ≠ 0 := by
    intro h
    rw [sub_eq_zero.1 h] at sg
    exact absurd sg (not_lt.2 (mul_self_nonneg _))
  have d := r1.subO r2 sg.le (od.mid (by norm_num)) (by norm_num) (by norm_num)
  have t := d.inv (md od hd0 (by norm_num)) (md od.inv (inv_ne_zero hd0) (by norm_num)) (by norm_num) (by norm_num)
  have m1 := t.mulO (Rel.exact is_two) ((od.inv.mul ord_two).mid (by norm_num)) (by norm_num) le_rfl (by norm_num)
  have m2 := m1.mulO rel_step (((od.inv.mul ord_two).mul ord_step).mid (by norm_num)) (by norm_num) (by norm_num) (by norm_num)
  have e : (2 / 10 ^ 12 / (1 / v - 1 / w) : ℝ) = (v⁻¹ - w⁻¹)⁻¹ * 2 * (1 / 10 ^ 12) := by rw [one_div, one_div]; ring
  rw [e]
  exact m2.mono (by norm_num)

/-! ## A simple pole -/

theorem is_unique {a : Fl binary64} {x y : ℝ} (hx : Is a x) (hy : Is a y) : x = y := EReal.coe_injective (Option.some.inj (Eq.trans (Eq.symm hx) hy))

theorem step_close : ∃ e : ℝ, Is Spec.step e ∧ |e - 1 / 10 ^ 12| ≤ 1 / 10 ^ 27 := by
  obtain ⟨e, he, h⟩ := rel_step
  refine ⟨e, he, h.trans ?_⟩
  norm_num

theorem pole_points {a : Fl binary64} {z : ℝ} (ha : Is a z) {n : ℕ} (hn : n ≤ 13) (hz : |z| + 1 / 10 ^ 11 < 2 ^ (n + 1)) :
    ∃ p q : ℝ, Is (a + Spec.step) p ∧ Is (a - Spec.step) q ∧ |p - z - 1 / 10 ^ 12| ≤ 2 ^ n / 2 ^ 53 + 1 / 10 ^ 27 ∧ |z - q - 1 / 10 ^ 12| ≤ 2 ^ n / 2 ^ 53 + 1 / 10 ^ 27 := by
  obtain ⟨e, he, hc⟩ := step_close
  have hc' := abs_le.1 hc
  have he1 : |e| ≤ 1 / 10 ^ 11 := by
    rw [abs_le]; norm_num at hc' ⊢; constructor <;> linarith
  have fin : ∀ t : ℝ, |t| < 2 ^ (n + 1) → ∃ y : ℝ, round64 t = (y : EReal) ∧ |y - t| ≤ 2 ^ n / 2 ^ 53 := by
    intro t ht
    have h1 : (2 : ℝ) ^ (n + 1) ≤ 2 ^ 14 := pow_le_pow_right₀ (by norm_num) (by omega)
    have h2 : |t| < 2 ^ (1024 : ℤ) - 2 ^ (970 : ℤ) := by
      have a1 : (2 : ℝ) ^ (1024 : ℤ) = 2 ^ (54 : ℤ) * 2 ^ (970 : ℤ) := by rw [← zpow_add₀ (by norm_num)]; norm_num
      have a2 : (1 : ℝ) ≤ 2 ^ (970 : ℤ) := one_le_zpow₀ (by norm_num) (by norm_num)
      rw [a1]
      generalize (2 : ℝ) ^ (970 : ℤ) = Z at *
      have h3 := lt_of_lt_of_le ht h1
      norm_num at h3 ⊢
      linarith only [h3, a2]
    obtain ⟨y, hy⟩ := round64_finite h2
    refine ⟨y, hy, ?_⟩
    have := round64_near (n := n) (by omega) (by exact_mod_cast ht) hy
    refine this.trans (le_of_eq ?_)
    rw [zpow_sub₀ (by norm_num)]
    norm_num
  obtain ⟨p, hp, hp'⟩ := fin (z + e) (lt_of_le_of_lt ((abs_add_le _ _).trans (by linarith)) hz)
  obtain ⟨q, hq, hq'⟩ := fin (z - e) (lt_of_le_of_lt ((abs_sub _ _).trans (by linarith)) hz)
  refine ⟨p, q, (value_add ha he).trans (congrArg some hp), (is_sub ha he).trans (congrArg some hq), ?_, ?_⟩
  · have := abs_add_le (p - (z + e)) (e - 1 / 10 ^ 12)
    rw [show p - (z + e) + (e - 1 / 10 ^ 12) = p - z - 1 / 10 ^ 12 by ring] at this
    linarith
  · have := abs_add_le (-(q - (z - e))) (e - 1 / 10 ^ 12)
    rw [show -(q - (z - e)) + (e - 1 / 10 ^ 12) = z - q - 1 / 10 ^ 12 by ring, abs_neg] at this
    linarith

/-- The values of a simple pole at the two points. -/
theorem pole_value {a b : Fl binary64} {z p r : ℝ} (ha : Is a z) (hb : Is b p) (h : 5 / 10 ^ 14 ≤ |p - z| ∧ |p - z| ≤ 1 / 10 ^ 11) (hr : Binary64 r)
    (hr' : 1 / 10 ^ 6 ≤ |r| ∧ |r| ≤ 10 ^ 6) : ∃ v : ℝ, Is (ofR r / (b - a)) v ∧ |v - r / (p - z)| ≤ 3 / 10 ^ 15 * |r / (p - z)| ∧ Usual v := by
  have hr0 : 0 < |r| := lt_of_lt_of_le (by norm_num) hr'.1
  have hp0 : 0 < |p - z| := lt_of_lt_of_le (by norm_num) h.1
  have d := Rel.of_round (x := p - z) (e := 0) (is_sub hb ha) (mid_range (by norm_num : 14 ≤ 250) (le_trans (by norm_num) h.1) (h.2.trans (by norm_num))) le_rfl (by norm_num) (by simp)
  have lo : 1 / 10 ^ 6 ≤ |r / (p - z)| := by
    rw [abs_div, le_div_iff₀ hp0]; refine le_trans ?_ hr'.1; norm_num at h ⊢; linarith
  have hi : |r / (p - z)| ≤ 2 * 10 ^ 19 := by
    rw [abs_div, div_le_iff₀ hp0]; refine hr'.2.trans ?_; norm_num at h ⊢; linarith
  have m := (Rel.exact (is_ofR hr)).divSharp d (mid_range (by norm_num : 20 ≤ 250) (le_trans (by norm_num) lo) (hi.trans (by norm_num))) (abs_pos.1 hp0) le_rfl (by norm_num)
    (by norm_num) (by norm_num)
  obtain ⟨v, hv, hd⟩ := m.mono (show _ ≤ (3 / 10 ^ 15 : ℝ) by norm_num)
  refine ⟨v, hv, hd, ?_⟩
  have t1 := abs_sub_abs_le_abs_sub (r / (p - z)) v
  have t2 := abs_sub_abs_le_abs_sub v (r / (p - z))
  rw [abs_sub_comm] at t1
  generalize |r / (p - z)| = A at *
  constructor
  · norm_num at *; linarith
  · norm_num at *; linarith

/-- C122. A simple pole `r/(w - z)` computed in `f64`, with `z` of absolute value up to `2^14 - 1`: the step that enters the result is not `10^-12` but half the distance of the two points, which are rounded. -/
theorem C122_pole (a : Fl binary64) (z : ℝ) (ha : Is a z) (hz : |z| ≤ 2 ^ 14 - 1) (r : ℝ) (hr : Binary64 r) (hr' : 1 / 10 ^ 6 ≤ |r| ∧ |r| ≤ 10 ^ 6) :
    ∃ p q : ℝ, Is (a + Spec.step) p ∧ Is (a - Spec.step) q ∧ q < z ∧ z < p ∧
      Within (2 / 10 ^ 13) (compute_residue (fun w => ofR r / (w - a)) a) (r * (2 / 10 ^ 12 / (p - q))) := by
  obtain ⟨p, q, hp, hq, bp, bq⟩ := pole_points ha (n := 13) le_rfl (by norm_num at hz ⊢; linarith)
  rw [abs_le] at bp bq
  have p1 : 5 / 10 ^ 14 ≤ p - z := by norm_num at bp ⊢; linarith
  have p2 : p - z ≤ 1 / 10 ^ 11 := by norm_num at bp ⊢; linarith
  have q1 : 5 / 10 ^ 14 ≤ z - q := by norm_num at bq ⊢; linarith
  have q2 : z - q ≤ 1 / 10 ^ 11 := by norm_num at bq ⊢; linarith
  have hzp : 0 < p - z := lt_of_lt_of_le (by norm_num) p1
  have hqz : 0 < z - q := lt_of_lt_of_le (by norm_num) q1
  have hr0 : r ≠ 0 := abs_pos.1 (lt_of_lt_of_le (by norm_num) hr'.1)
  obtain ⟨v, hv, cv, uv⟩ := pole_value ha hp (by rw [abs_of_pos hzp]; exact ⟨p1, p2⟩) hr hr'
  obtain ⟨w, hw, cw, uw⟩ := pole_value ha hq (by rw [abs_sub_comm, abs_of_pos hqz]; exact ⟨q1, q2⟩) hr hr'
  have x0 : r / (p - z) ≠ 0 := div_ne_zero hr0 hzp.ne'
  have y0 : r / (q - z) ≠ 0 := div_ne_zero hr0 (by linarith)
  have hxy : r / (p - z) * (r / (q - z)) < 0 := by
    rw [div_mul_div_comm]
    exact div_neg_of_pos_of_neg (mul_self_pos.2 hr0) (mul_neg_of_pos_of_neg hzp (by linarith))
  have ho : v * w < 0 := by
    have s1 := same_sign (by norm_num) cv x0
    have s2 := same_sign (by norm_num) cw y0
    have s3 : (v * w) * (r / (p - z) * (r / (q - z))) > 0 := by
      have := mul_pos s1 s2
      nlinarith
    by_contra hc
    rw [not_lt] at hc
    nlinarith
  have cv' := inv_close x0 (by norm_num) (by norm_num) cv
  have cw' := inv_close y0 (by norm_num) (by norm_num) cw
  have v0 : v⁻¹ - w⁻¹ ≠ 0 := by
    intro h
    have h1 : v = w := inv_injective (sub_eq_zero.1 h)
    rw [h1] at ho
    exact absurd ho (not_lt.2 (mul_self_nonneg _))
  have hB : (r / (p - z))⁻¹ - (r / (q - z))⁻¹ = (p - q) / r := by rw [inv_div, inv_div]; ring
  have hBs : |(p - q) / r| = |(r / (p - z))⁻¹| + |(r / (q - z))⁻¹| := by
    rw [inv_div, inv_div, abs_div, abs_div, abs_div, ← add_div, abs_of_pos hzp, abs_of_pos (show 0 < p - q by linarith), abs_sub_comm q z, abs_of_pos hqz]
    congr 1; ring
  have hA : |(v⁻¹ - w⁻¹) - (p - q) / r| ≤ 4 / 10 ^ 15 * |(p - q) / r| := by
    rw [← hB] at *
    rw [show v⁻¹ - w⁻¹ - ((r / (p - z))⁻¹ - (r / (q - z))⁻¹) = (v⁻¹ - (r / (p - z))⁻¹) - (w⁻¹ - (r / (q - z))⁻¹) by ring, hBs]
    refine (abs_sub _ _).trans ((add_le_add cv' cw').trans ?_)
    have a1 := abs_nonneg (r / (p - z))⁻¹
    have a2 := abs_nonneg (r / (q - z))⁻¹
    rw [← mul_add]
    refine mul_le_mul_of_nonneg_right (by norm_num) (by positivity)
  have hb0 : (p - q) / r ≠ 0 := div_ne_zero (by linarith) hr0
  have hI := inv_close hb0 (by norm_num) (by norm_num) hA
  obtain ⟨x, hx, cx⟩ := C122_real (fun w => ofR r / (w - a)) a v w hv hw uv uw ho
  refine ⟨p, q, hp, hq, by linarith, by linarith, x, hx, ?_⟩
  have e1 : r * (2 / 10 ^ 12 / (p - q)) = 2 / 10 ^ 12 * ((p - q) / r)⁻¹ := by rw [inv_div]; ring
  have e2 : (2 / 10 ^ 12 / (1 / v - 1 / w) : ℝ) = 2 / 10 ^ 12 * (v⁻¹ - w⁻¹)⁻¹ := by rw [one_div, one_div, div_eq_mul_inv]
  rw [e2] at cx
  rw [e1]
  have t1 : |2 / 10 ^ 12 * (v⁻¹ - w⁻¹)⁻¹ - 2 / 10 ^ 12 * ((p - q) / r)⁻¹| ≤ 5 / 10 ^ 15 * |2 / 10 ^ 12 * ((p - q) / r)⁻¹| := by
    rw [← mul_sub, abs_mul, abs_mul]
    have := abs_nonneg ((p - q) / r)⁻¹
    have h2 : 0 ≤ |(2 / 10 ^ 12 : ℝ)| := abs_nonneg _
    have h3 : |(v⁻¹ - w⁻¹)⁻¹ - ((p - q) / r)⁻¹| ≤ 5 / 10 ^ 15 * |((p - q) / r)⁻¹| := hI.trans (mul_le_mul_of_nonneg_right (by norm_num) this)
    calc _ ≤ |(2 / 10 ^ 12 : ℝ)| * (5 / 10 ^ 15 * |((p - q) / r)⁻¹|) := mul_le_mul_of_nonneg_left h3 h2
      _ = _ := by ring
  generalize 2 / 10 ^ 12 * (v⁻¹ - w⁻¹)⁻¹ = A at *
  generalize 2 / 10 ^ 12 * ((p - q) / r)⁻¹ = B at *
  have t2 := abs_sub_le x A B
  have t3 := abs_sub_abs_le_abs_sub A B
  have t4 : 0 ≤ |B| := abs_nonneg B
  norm_num at cx t1 ⊢
  linarith

/-- C122. The default step for a pole of absolute value up to `2^n`, `n ≤ 10`: the residue is off by up to `1.3 * 10^-4 * 2^n` of itself. -/
theorem C122_accuracy (a : Fl binary64) (z : ℝ) (ha : Is a z) (n : ℕ) (hn : n ≤ 10) (hz : |z| ≤ 2 ^ n) (r : ℝ) (hr : Binary64 r) (hr' : 1 / 10 ^ 6 ≤ |r| ∧ |r| ≤ 10 ^ 6) :
    Within (13 / 10 ^ 5 * 2 ^ n) (compute_residue (fun w => ofR r / (w - a)) a) r := by
  have hN : (2 : ℝ) ^ n ≤ 2 ^ 10 := pow_le_pow_right₀ (by norm_num) hn
  have hN1 : (1 : ℝ) ≤ 2 ^ n := one_le_pow₀ (by norm_num)
  obtain ⟨p, q, hp, hq, -, -, v, hv, cv⟩ := C122_pole a z ha (by norm_num at hN ⊢; linarith) r hr hr'
  obtain ⟨p', q', hp', hq', bp, bq⟩ := pole_points ha (n := n) (by omega) (by have h2 : (2 : ℝ) ^ (n + 1) = 2 ^ n * 2 := pow_succ 2 n; rw [h2]; norm_num; linarith)
  obtain rfl := is_unique hp hp'
  obtain rfl := is_unique hq hq'
  refine ⟨v, hv, ?_⟩
  generalize (2 : ℝ) ^ n = N at *
  rw [abs_le] at bp bq
  have d0 : 17 / 10 ^ 13 ≤ p - q := by norm_num at bp bq hN ⊢; linarith
  have dp : 0 < p - q := lt_of_lt_of_le (by norm_num) d0
  have hR : |2 / 10 ^ 12 / (p - q) - 1| ≤ 129 / 10 ^ 6 * N := by
    rw [div_sub_one dp.ne', abs_div, abs_of_pos dp, div_le_iff₀ dp, abs_le]
    have : 129 / 10 ^ 6 * N * (176 / 10 ^ 14) ≤ 129 / 10 ^ 6 * N * (p - q) := by
      refine mul_le_mul_of_nonneg_left ?_ (by linarith)
      norm_num at bp bq hN ⊢; linarith
    norm_num at bp bq hN this ⊢
    constructor <;> linarith
  generalize 2 / 10 ^ 12 / (p - q) = R at *
  have e1 : |r * R - r| = |r| * |R - 1| := by rw [← abs_mul]; congr 1; ring
  have e2 : |r * R - r| ≤ 129 / 10 ^ 6 * N * |r| := by rw [e1, mul_comm]; exact mul_le_mul_of_nonneg_right hR (abs_nonneg _)
  have e3 := abs_sub_le v (r * R) r
  have e4 : |r * R| ≤ 2 * |r| := by
    have := abs_sub_abs_le_abs_sub (r * R) r
    have h2 : 129 / 10 ^ 6 * N * |r| ≤ 1 * |r| := mul_le_mul_of_nonneg_right (by norm_num at hN ⊢; linarith) (abs_nonneg _)
    linarith
  have e5 : |r| ≤ N * |r| := le_mul_of_one_le_left (abs_nonneg _) hN1
  have e6 := cv.trans (mul_le_mul_of_nonneg_left e4 (by norm_num))
  rw [mul_assoc] at e2 ⊢
  generalize N * |r| = M at *
  norm_num at e6 e2 ⊢
  linarith

example : ∃ p q : ℝ, Is (ofR 1 + Spec.step : Fl binary64) p ∧ Is (ofR 1 - Spec.step : Fl binary64) q ∧ q < 1 ∧ 1 < p ∧
    Within (2 / 10 ^ 13) (compute_residue (fun w => ofR 3 / (w - ofR 1)) (ofR 1 : Fl binary64)) (3 * (2 / 10 ^ 12 / (p - q))) :=
  C122_pole (ofR 1) 1 (is_ofR ⟨1, 0, by norm_num, by norm_num, by norm_num, by norm_num⟩) (by norm_num) 3 ⟨3, 0, by norm_num, by norm_num, by norm_num, by norm_num⟩
    ⟨by norm_num [abs_of_pos], by norm_num [abs_of_pos]⟩

example : Within (13 / 10 ^ 5 * 2 ^ 2) (compute_residue (fun w => ofR 3 / (w - ofR (-4))) (ofR (-4) : Fl binary64)) 3 :=
  C122_accuracy _ (-4) (is_ofR ⟨-4, 0, by norm_num, by norm_num, by norm_num, by norm_num⟩) 2 (by norm_num) (by norm_num [abs_of_neg]) 3
    ⟨3, 0, by norm_num, by norm_num, by norm_num, by norm_num⟩ ⟨by norm_num [abs_of_pos], by norm_num [abs_of_pos]⟩

/-- A pole at which the two points are `k` ulps away. -/
theorem loss {z r : ℝ} {n k m : ℤ} (hz : Binary64 z) (hz' : |z| ≤ 2 ^ 14 - 1) (hr : Binary64 r) (hr' : 1 / 10 ^ 6 ≤ |r| ∧ |r| ≤ 10 ^ 6) (hn : -1022 ≤ n)
    (hm : z = m * 2 ^ (n - 52)) (h1 : (2 : ℝ) ^ n + 1 / 10 ^ 11 ≤ z) (h2 : z + 1 / 10 ^ 11 < 2 ^ (n + 1))
    (hk : |1 / 10 ^ 12 * (2 : ℝ) ^ (52 - n) - k| + 1 / 10 ^ 27 * (2 : ℝ) ^ (52 - n) < 1 / 2) :
    Within (2 / 10 ^ 13) (compute_residue (fun w => ofR r / (w - ofR z)) (ofR z : Fl binary64)) (r * (1 / 10 ^ 12 / (k * 2 ^ (n - 52)))) := by
  obtain ⟨p, q, hp, hq, -, -, h⟩ := C122_pole (ofR z) z (is_ofR hz) hz' r hr hr'
  obtain ⟨e, he, hc⟩ := step_close
  have hc' := abs_le.1 hc
  have hU : (0 : ℝ) < 2 ^ (52 - n) := by positivity
  have hUU : (2 : ℝ) ^ (n - 52) * 2 ^ (52 - n) = 1 := by rw [← zpow_add₀ (by norm_num)]; simp
  have hs : |e * (2 : ℝ) ^ (52 - n) - k| < 1 / 2 := by
    have t := abs_add_le ((e - 1 / 10 ^ 12) * (2 : ℝ) ^ (52 - n)) (1 / 10 ^ 12 * (2 : ℝ) ^ (52 - n) - k)
    rw [abs_mul, abs_of_pos hU, show (e - 1 / 10 ^ 12) * (2 : ℝ) ^ (52 - n) + (1 / 10 ^ 12 * (2 : ℝ) ^ (52 - n) - k) = e * (2 : ℝ) ^ (52 - n) - k by ring] at t
    have := mul_le_mul_of_nonneg_right hc hU.le
    linarith
  have vp : p = ((m + k : ℤ) : ℝ) * 2 ^ (n - 52) := by
    have hR : round64 (z + e) = ((p : ℝ) : EReal) := Option.some.inj ((value_add (is_ofR hz) he).symm.trans hp)
    refine round64_value hn (by norm_num at hc' h1; linarith) (by norm_num at hc' h2; linarith) ?_ hR
    rw [hm, add_mul, mul_assoc, hUU]; push_cast
    rwa [show (m : ℝ) * 1 + e * 2 ^ (52 - n) - (m + k) = e * 2 ^ (52 - n) - k by ring]
  have vq : q = ((m - k : ℤ) : ℝ) * 2 ^ (n - 52) := by
    have hR : round64 (z - e) = ((q : ℝ) : EReal) := Option.some.inj ((is_sub (is_ofR hz) he).symm.trans hq)
    refine round64_value hn (by norm_num at hc' h1; linarith) (by norm_num at hc' h2; linarith) ?_ hR
    rw [hm, sub_mul, mul_assoc, hUU]; push_cast
    rwa [show (m : ℝ) * 1 - e * 2 ^ (52 - n) - (m - k) = -(e * 2 ^ (52 - n) - k) by ring, abs_neg]
  have hpq : p - q = 2 * (k * 2 ^ (n - 52)) := by rw [vp, vq]; push_cast; ring
  rw [hpq] at h
  convert h using 2
  rw [show (2 / 10 ^ 12 : ℝ) = 2 * (1 / 10 ^ 12) by ring, mul_div_mul_left _ _ two_ne_zero]

theorem off_by {v r R d : ℝ} (h : |v - r * R| ≤ 2 / 10 ^ 13 * |r * R|) (hR : 0 ≤ R) (hR1 : R ≤ 1) (hd : d + 2 / 10 ^ 13 ≤ 1 - R) : d * |r| ≤ |v - r| := by
  have e1 : |r * R - r| = |r| * (1 - R) := by
    rw [show r * R - r = -(r * (1 - R)) by ring, abs_neg, abs_mul, abs_of_nonneg (by linarith : 0 ≤ 1 - R)]
  have e2 : |r * R| ≤ |r| := by rw [abs_mul, abs_of_nonneg hR]; exact mul_le_of_le_one_right (abs_nonneg _) hR1
  have e3 := abs_sub_le (r * R) v r
  rw [abs_sub_comm (r * R) v] at e3
  have e4 := mul_le_mul_of_nonneg_left hd (abs_nonneg r)
  norm_num at *
  nlinarith

/-- C122. The loss is real: for the pole at `3/2` every residue is off by at least `8 * 10^-5` of itself, for the pole at `10000` by at least `44%`. -/
theorem C122_loss (r : ℝ) (hr : Binary64 r) (hr' : 1 / 10 ^ 6 ≤ |r| ∧ |r| ≤ 10 ^ 6) :
    (∃ v : ℝ, Is (compute_residue (fun w => ofR r / (w - ofR (3 / 2))) (ofR (3 / 2) : Fl binary64)) v ∧ 8 / 10 ^ 5 * |r| ≤ |v - r|) ∧
    (∃ v : ℝ, Is (compute_residue (fun w => ofR r / (w - ofR 10000)) (ofR 10000 : Fl binary64)) v ∧ 44 / 100 * |r| ≤ |v - r|) := by
  have b1 : Binary64 (3 / 2) := ⟨3, -1, by norm_num, by norm_num, by norm_num, by norm_num⟩
  have b2 : Binary64 10000 := ⟨10000, 0, by norm_num, by norm_num, by norm_num, by norm_num⟩
  constructor
  · obtain ⟨v, hv, h⟩ := loss (z := 3 / 2) (n := 0) (k := 4504) (m := 6755399441055744) b1 (by norm_num [abs_of_pos]) hr hr' (by norm_num) (by norm_num) (by norm_num) (by norm_num)
      (by norm_num [abs_lt])
    exact ⟨v, hv, off_by h (by norm_num) (by norm_num) (by norm_num)⟩
  · obtain ⟨v, hv, h⟩ := loss (z := 10000) (n := 13) (k := 1) (m := 5497558138880000) b2 (by norm_num [abs_of_pos]) hr hr' (by norm_num) (by norm_num) (by norm_num) (by norm_num)
      (by norm_num [abs_lt])
    exact ⟨v, hv, off_by h (by norm_num) (by norm_num) (by norm_num)⟩

end Qcd
