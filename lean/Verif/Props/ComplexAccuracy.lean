import Verif.Lemmas.ComplexMirror
import Verif.Lemmas.FloatThermalDensity
import Verif.Props.VacuumAccuracy
import Verif.Props.VacuumComplex
import Mathlib.Analysis.Real.Pi.Bounds

/-! C125: the vacuum functions of complex arguments in the arithmetic of `f64`. `Spec.Sector x s`: the argument `x` is the complex number `s`, at an angle
of at most 135 degrees from the positive axis, of norm between `10^-6` and `10^6`. `Spec.NearC a z e`: the result `a` is a complex number at most `e` away from `z`. -/

namespace Qcd
open Fl Spec FTD

theorem CTrack.near {a : CFl binary64} {z : ℂ} {B C : ℝ} {n k : ℕ} (h : CTrack a z B n k) (e : B = C) : NearC a z (n * ulp * C) := by
  obtain ⟨v, h1, h2, h3⟩ := h.run
  exact ⟨v, h1, h2, by rw [← e]; exact h3⟩

section
variable {s : ℂ} (hs : 0 < ‖s‖)
include hs

theorem ghost_scaleC_eq : ((‖s‖ + 1) * (‖s‖ + 1) * (‖s‖⁻¹ * 2 + ‖s‖⁻¹ * ‖s‖⁻¹) * (‖Complex.log (s + ((1 : ℝ) : ℂ))‖ + 3) + ‖s‖ * 2 * (‖Complex.log s‖ + 1) +
    (‖s‖⁻¹ + 2)) / 12 = ghostScaleC s := by
  unfold ghostScaleC logScale
  rw [Complex.ofReal_one, add_comm s 1]
  field_simp
  ring

theorem croot_eq : csqrt (s⁻¹ * 4 + 1) = csqrt (1 + 4 / s) := by congr 1; ring

theorem gluon_scaleC_eq : ((‖s‖ * ‖s‖ * 3 + ‖s‖ * 34 + 28 + ‖s‖⁻¹ * 24) * √(‖s‖⁻¹ * 4 + 1) *
        ((‖Complex.log ((csqrt (s⁻¹ * 4 + 1) - 1) / 2)‖ + (√(‖s‖⁻¹ * 4 + 1) + 1) / (√(‖s‖⁻¹ * 4 + 1) - 1)) * 2 + (‖Complex.log s‖ + 1)) +
      (‖s‖ + 1) * (‖s‖ + 1) * (‖s‖⁻¹ * 20 + 3 + ‖s‖⁻¹ * ‖s‖⁻¹ * 11 + ‖s‖⁻¹ * (‖s‖⁻¹ * ‖s‖⁻¹) * 2) * 2 * (‖Complex.log (s + 1)‖ + 3) +
      (‖s‖ * ‖s‖ * 3 + 2) * (‖Complex.log s‖ + 1) + (‖s‖ + 4) * (‖s‖ + 20 + ‖s‖⁻¹ * 12) +
      (‖s‖ + 1) * (‖s‖ + 1) * 2 * (‖s‖⁻¹ * 10 + 1 + ‖s‖⁻¹ * ‖s‖⁻¹) +
      (‖s‖⁻¹ * ‖s‖⁻¹ * 2 + 2 + ‖s‖ * ‖s‖)) / 72 + ‖s‖⁻¹ * 5 / 8 = gluonScaleC s := by
  unfold gluonScaleC logScale rootLoss
  rw [add_comm s 1, root_eq, croot_eq hs]
  generalize root ‖s‖ = A
  generalize (A + 1) / (A - 1) = Q
  generalize ‖Complex.log ((csqrt (1 + 4 / s) - 1) / 2)‖ = L
  generalize ‖Complex.log s‖ = L1
  generalize ‖Complex.log (1 + s)‖ = L2
  field_simp
  ring

theorem gauge_scaleC_eq : ‖s‖⁻¹ / 4 + (‖s‖ * 2 * (‖Complex.log s‖ + 1) + (‖s‖⁻¹ * ‖s‖⁻¹ + ‖s‖⁻¹) * (‖s‖⁻¹ + ‖s‖ * ‖s‖) * 2 *
    (‖Complex.log (s + ((1 : ℝ) : ℂ))‖ + 3) + 3 + ‖s‖⁻¹ * 3 + ‖s‖⁻¹ * ‖s‖⁻¹ * 2) / 12 = gluonGaugeScaleC s := by
  unfold gluonGaugeScaleC logScale
  rw [Complex.ofReal_one, add_comm s 1]
  generalize ‖Complex.log s‖ = L1
  generalize ‖Complex.log (1 + s)‖ = L2
  field_simp

theorem quark_scaleC_eq : ((‖s‖⁻¹ + 1 / 2) * √(‖s‖⁻¹ * 4 + 1) *
      (‖Complex.log ((csqrt (s⁻¹ * 4 + 1) - 1) / (csqrt (s⁻¹ * 4 + 1) + 1))‖ + 2 * ((√(‖s‖⁻¹ * 4 + 1) + 1) / (√(‖s‖⁻¹ * 4 + 1) - 1)))
      + ‖s‖⁻¹ * 2 + 5 / 6) * 4 / 9 = quarkScaleC s := by
  unfold quarkScaleC logScale rootLoss
  rw [root_eq, croot_eq hs]
  generalize root ‖s‖ = A
  generalize (A + 1) / (A - 1) = Q
  generalize ‖Complex.log ((csqrt (1 + 4 / s) - 1) / (csqrt (1 + 4 / s) + 1))‖ = L
  field_simp

theorem crossed_scaleC_eq : (‖s‖⁻¹ * 4 + 1 / 6 + (‖s‖⁻¹ + 1 / 2 + ‖s‖⁻¹ * ‖s‖⁻¹ * 8) / (√(‖s‖⁻¹ * 4 + 1) / 2) *
      (‖Complex.log ((csqrt (s⁻¹ * 4 + 1) - 1) / (csqrt (s⁻¹ * 4 + 1) + 1))‖ + 2 * ((√(‖s‖⁻¹ * 4 + 1) + 1) / (√(‖s‖⁻¹ * 4 + 1) - 1)))) * 4 / 9
    = crossedScaleC s := by
  unfold crossedScaleC logScale rootLoss
  rw [root_eq, croot_eq hs]
  have hA : 0 < root ‖s‖ := Real.sqrt_pos.2 (by positivity)
  generalize (root ‖s‖ + 1) / (root ‖s‖ - 1) = Q
  generalize ‖Complex.log ((csqrt (1 + 4 / s) - 1) / (csqrt (1 + 4 / s) + 1))‖ = L
  field_simp

end

/-- **C125** (elementary functions): the errors of the computed reciprocal, square root and logarithm. -/
theorem C125_elementary {x : CFl binary64} {s : ℂ} (h : Sector x s) :
    NearC x⁻¹ s⁻¹ (66 * ulp * (1 / ‖s‖)) ∧ NearC (CFl.sqrt x) (csqrt s) (35 * ulp * √‖s‖) ∧ NearC (CFl.ln x) (Complex.log s) (18 * ulp * logScale 1 s) := by
  have hp := h.pos
  refine ⟨?_, ?_, ?_⟩
  · exact_mod_cast h.ti.near (by rw [one_div])
  · exact_mod_cast (h.t.sqrt h.angle (by linarith)).near rfl
  · exact_mod_cast h.tl.near rfl

/-- **C125** (one-loop functions): in the sector the errors of the computed functions are at most 300 to 7800 roundings of the sum of the norms
of the terms. -/
theorem C125_functions {x : CFl binary64} {s : ℂ} (h : Sector x s) :
    NearC (CFl.ghost.g x) (ghost.g s) (300 * ulp * ghostScaleC s) ∧ NearC (CFl.ghost.g_xi x) (ghost.g_xi s) (23 * ulp * (logScale 1 s / 12)) ∧
    NearC (CFl.gluon.f x) (gluon.f s) (1500 * ulp * gluonScaleC s) ∧ NearC (CFl.gluon.f_xi x) (gluon.f_xi s) (500 * ulp * gluonGaugeScaleC s) ∧
    NearC (CFl.gluon.f_q x) (gluon.f_q s) (6100 * ulp * quarkScaleC s) ∧
    NearC (CFl.gluon.f_q_crossed x) (gluon.f_q_crossed s) (7800 * ulp * crossedScaleC s) := by
  obtain ⟨k1, -, t1⟩ := h.ghost_track
  obtain ⟨k2, -, t2⟩ := h.gluon_track
  obtain ⟨k3, -, t3⟩ := h.gluon_xi_track
  obtain ⟨k4, -, t4⟩ := h.quark_track
  obtain ⟨k5, -, t5⟩ := h.crossed_track
  have t6 := (h.tl.neg.divNum 12).congr (w := ghost.g_xi s) (by simp [ghost.g_xi]) rfl
  exact ⟨by exact_mod_cast t1.near (ghost_scaleC_eq h.pos), by exact_mod_cast t6.near rfl, by exact_mod_cast t2.near (gluon_scaleC_eq h.pos),
    by exact_mod_cast t3.near (gauge_scaleC_eq h.pos), by exact_mod_cast t4.near (quark_scaleC_eq h.pos),
    by exact_mod_cast t5.near (crossed_scaleC_eq h.pos)⟩

/-- **C125** (inverse dressing functions), for all renormalisation constants and gauge parameters up to `10^6`. -/
theorem C125_dressing_inv {x : CFl binary64} {s : ℂ} {c xi : ℝ} (h : Sector x s) (hc : Binary64 c) (hb : |c| ≤ 10 ^ 6) (hxi : Binary64 xi)
    (hx : |xi| ≤ 10 ^ 6) :
    NearC (CFl.ghost.dressing_inv_landau x (ofR c)) (ghost.dressing_inv_landau s c) (305 * ulp * (ghostScaleC s + (|c| + 1))) ∧
    NearC (CFl.ghost.dressing_inv x (ofR c) (ofR xi)) (ghost.dressing_inv s c xi)
      (310 * ulp * (ghostScaleC s + (|c| + 1) + logScale 1 s / 12 * (|xi| + 1))) ∧
    NearC (CFl.gluon.dressing_inv_landau x (ofR c)) (ym.gluon.dressing_inv_landau s c) (1505 * ulp * (gluonScaleC s + (|c| + 1))) ∧
    NearC (CFl.gluon.dressing_inv x (ofR c) (ofR xi)) (ym.gluon.dressing_inv s c xi)
      (1510 * ulp * (gluonScaleC s + (|c| + 1) + gluonGaugeScaleC s * (|xi| + 1))) := by
  have tc := track_any hc hb
  have tx := track_any hxi hx
  obtain ⟨k1, hk1, t1⟩ := h.ghost_track
  obtain ⟨k2, hk2, t2⟩ := h.gluon_track
  obtain ⟨k3, hk3, t3⟩ := h.gluon_xi_track
  have g1 := t1.addR tc (by norm_num) (by omega)
  have g2 := (h.tl.neg.divNum 12).congr (w := ghost.g_xi_sep (Complex.log s)) (by simp [ghost.g_xi_sep]) rfl
  have g3 := g1.add (g2.mulR tx) (by norm_num) (by omega)
  have f1 := t2.addR tc (by norm_num) (by omega)
  have f2 := f1.add (t3.mulR tx (by norm_num) (by norm_num) (by omega)) (by norm_num) (by omega)
  refine ⟨?_, ?_, ?_, ?_⟩
  · exact_mod_cast (g1.mono (n' := 305) (by norm_num)).near (by rw [ghost_scaleC_eq h.pos])
  · exact_mod_cast (g3.mono (n' := 310) (by norm_num)).near (by rw [ghost_scaleC_eq h.pos]; rfl)
  · exact_mod_cast (f1.mono (n' := 1505) (by norm_num)).near (by rw [gluon_scaleC_eq h.pos])
  · exact_mod_cast (f2.mono (n' := 1510) (by norm_num)).near (by rw [gluon_scaleC_eq h.pos, gauge_scaleC_eq h.pos])

/-! ### Conjugate arguments -/

theorem mirror_of {x x' : CFl binary64} {s : ℂ} (h : Sector x s) (h' : Sector x' ((starRingEnd ℂ) s)) : CMirror x x' :=
  ⟨h'.re.trans h.re.symm, h'.im.trans (value_neg h.im).symm⟩

theorem conjugate_of {a b : CFl binary64} {z : ℂ} {e : ℝ} (m : CMirror a b) (h : NearC a z e) : Conjugate a b := by
  obtain ⟨v, v1, v2, -⟩ := h
  obtain ⟨k1, k2⟩ := m.is v1 v2
  exact ⟨v, v1, v2, k1, k2⟩

/-- **C125** (conjugate arguments): the values computed at conjugate arguments are exactly conjugate, whatever the rounding errors. -/
theorem C125_conjugate {x x' : CFl binary64} {s : ℂ} (h : Sector x s) (h' : Sector x' ((starRingEnd ℂ) s)) :
    Conjugate (CFl.ghost.g x) (CFl.ghost.g x') ∧ Conjugate (CFl.ghost.g_xi x) (CFl.ghost.g_xi x') ∧ Conjugate (CFl.gluon.f x) (CFl.gluon.f x') ∧
    Conjugate (CFl.gluon.f_xi x) (CFl.gluon.f_xi x') ∧ Conjugate (CFl.gluon.f_q x) (CFl.gluon.f_q x') ∧
    Conjugate (CFl.gluon.f_q_crossed x) (CFl.gluon.f_q_crossed x') := by
  have m := mirror_of h h'
  obtain ⟨c1, c2, c3, c4, c5, c6⟩ := C125_functions h
  exact ⟨conjugate_of (h.slits.mirror_ghost m) c1, conjugate_of (h.slits.mirror_ghost_xi m) c2, conjugate_of (h.slits.mirror_gluon m) c3,
    conjugate_of (h.slits.mirror_gluon_xi m) c4, conjugate_of (h.slits.mirror_quark m) c5, conjugate_of (h.slits.mirror_crossed m) c6⟩

/-- **C125** (conjugate arguments, inverse dressing functions). -/
theorem C125_dressing_conjugate {x x' : CFl binary64} {s : ℂ} {c xi : ℝ} (h : Sector x s) (h' : Sector x' ((starRingEnd ℂ) s)) (hc : Binary64 c)
    (hb : |c| ≤ 10 ^ 6) (hxi : Binary64 xi) (hx : |xi| ≤ 10 ^ 6) :
    Conjugate (CFl.ghost.dressing_inv_landau x (ofR c)) (CFl.ghost.dressing_inv_landau x' (ofR c)) ∧
    Conjugate (CFl.ghost.dressing_inv x (ofR c) (ofR xi)) (CFl.ghost.dressing_inv x' (ofR c) (ofR xi)) ∧
    Conjugate (CFl.gluon.dressing_inv_landau x (ofR c)) (CFl.gluon.dressing_inv_landau x' (ofR c)) ∧
    Conjugate (CFl.gluon.dressing_inv x (ofR c) (ofR xi)) (CFl.gluon.dressing_inv x' (ofR c) (ofR xi)) := by
  have m := mirror_of h h'
  obtain ⟨c1, c2, c3, c4⟩ := C125_dressing_inv h hc hb hxi hx
  exact ⟨conjugate_of (h.slits.mirror_ghost m).addR c1, conjugate_of ((h.slits.mirror_ghost m).addR.add (h.slits.mirror_ghost_xi m).mulR) c2,
    conjugate_of (h.slits.mirror_gluon m).addR c3, conjugate_of ((h.slits.mirror_gluon m).addR.add (h.slits.mirror_gluon_xi m).mulR) c4⟩

/-! ### The positive axis -/

theorem Spec.Medium.sector {x : Fl binary64} {s : ℝ} (h : Medium x s) : Sector (CFl.ofReal x) s := by
  have e : ‖(s : ℂ)‖ = s := by rw [Complex.norm_real, Real.norm_eq_abs, abs_of_pos h.pos]
  exact ⟨h.is, rfl, by simpa using h.pos.le, by rw [e]; exact h.lo, by rw [e]; exact h.hi⟩

theorem agree_of {a : CFl binary64} {b : Fl binary64} {y e d : ℝ} (m : CMirror a a) (ha : NearC a y e) (hb : Near b y d) : Agree a b (e + d) := by
  obtain ⟨v, v1, v2, v3⟩ := ha
  obtain ⟨w, w1, w2⟩ := hb
  have h1 := Complex.abs_re_le_norm (v - y)
  simp only [Complex.sub_re, Complex.ofReal_re] at h1
  have h3 := abs_sub_le v.re y w
  have h4 := abs_sub_comm y w
  have e0 : v.im = -v.im := by
    have := v2.symm.trans (m.im.trans (value_neg v2))
    exact_mod_cast Option.some.inj this
  refine ⟨v.re, w, v1, ?_, w1, by linarith⟩
  rw [show (0 : ℝ) = v.im by linarith]
  exact v2

/-- **C125** (positive axis): the functions of complex arguments at a positive number without imaginary part, and the functions of real arguments, agree
to within the errors of both; the imaginary parts are exactly zero. -/
theorem C125_real_axis {x : Fl binary64} {s : ℝ} (h : Medium x s) :
    Agree (CFl.ghost.g (CFl.ofReal x)) (ghost.g x) (300 * ulp * ghostScaleC s + 40 * ulp * ghostScale s) ∧
    Agree (CFl.gluon.f (CFl.ofReal x)) (gluon.f x) (1500 * ulp * gluonScaleC s + 80 * ulp * gluonScale s) ∧
    Agree (CFl.gluon.f_xi (CFl.ofReal x)) (gluon.f_xi x) (500 * ulp * gluonGaugeScaleC s + 60 * ulp * gluonGaugeScale s) ∧
    Agree (CFl.gluon.f_q (CFl.ofReal x)) (gluon.f_q x) (6100 * ulp * quarkScaleC s + 150 * ulp * quarkScale s) ∧
    Agree (CFl.gluon.f_q_crossed (CFl.ofReal x)) (gluon.f_q_crossed x) (7800 * ulp * crossedScaleC s + 180 * ulp * crossedScale s) := by
  obtain ⟨c1, -, c3, c4, c5, c6⟩ := C125_functions h.sector
  obtain ⟨r1, r2, r3, r4, r5⟩ := C115_functions h
  have hl := C21_loops s h.pos
  simp only [loopValues, List.map_cons, List.map_nil, List.cons.injEq, and_true] at hl
  obtain ⟨l1, -, l3, l4, l5, l6⟩ := hl
  rw [l1] at c1; rw [l3] at c3; rw [l4] at c4; rw [l5] at c5; rw [l6] at c6
  have hr := h.sector
  have m : CMirror (CFl.ofReal x) (CFl.ofReal x) := ⟨rfl, by change (num 0 : Fl binary64).value = (neg (num 0)).value; simp [neg]⟩
  exact ⟨agree_of (hr.slits.mirror_ghost m) c1 r1, agree_of (hr.slits.mirror_gluon m) c3 r2, agree_of (hr.slits.mirror_gluon_xi m) c4 r3,
    agree_of (hr.slits.mirror_quark m) c5 r4, agree_of (hr.slits.mirror_crossed m) c6 r5⟩

/-! ### The cut -/

/-- The computed argument of a negative number. -/
theorem atan2_cut {x y : Fl binary64} {u : ℝ} (hx : Is x u) (hu : u < 0) (hy : Is y 0) :
    Is (Fl.atan2 y x) (if y.isNeg = true then -rd Real.pi else rd Real.pi) ∧ 3 ≤ rd Real.pi ∧ rd Real.pi ≤ 4 := by
  have b3 : Binary64 3 := ⟨3, 0, by norm_num, by norm_num, by norm_num, by norm_num⟩
  have b4 : Binary64 4 := ⟨4, 0, by norm_num, by norm_num, by norm_num, by norm_num⟩
  obtain ⟨p, hp, h3, h4⟩ := between b3 b4 (le_of_lt Real.pi_gt_three) Real.pi_le_four
  rw [rd_eq hp]
  refine ⟨?_, h3, h4⟩
  have hn : binary64.rnd (-Real.pi) = ((-p : ℝ) : EReal) := by
    rw [show binary64.rnd (-Real.pi) = -binary64.rnd Real.pi from round64_neg _, show binary64.rnd Real.pi = (p : EReal) from hp]; rfl
  have hp' : binary64.rnd Real.pi = (p : EReal) := hp
  have hy' : y.value = some ((0 : ℝ) : EReal) := hy
  unfold Is Fl.atan2
  simp only [show x.value = some (u : EReal) from hx, hy', val_of hx, val_of hy, CTrack.isNeg_neg hx hu]
  split_ifs <;> simp_all [value_round]

/-- **C125** (the cut): below the negative axis, that is for a negative number with the imaginary part `-0`, the computed logarithm and the computed
`g_xi` have the imaginary part opposite to that for the imaginary part `+0`, although the two numbers are equal. -/
theorem C125_cut {x : Fl binary64} {u : ℝ} (hx : Is x u) (hu : u < 0) :
    (∃ p : ℝ, 3 ≤ p ∧ p ≤ 4 ∧ Is (CFl.ln ⟨x, num 0⟩).im p ∧ Is (CFl.ln ⟨x, nz⟩).im (-p)) ∧
    ∃ p : ℝ, 1 / 4 ≤ p ∧ p ≤ 1 / 2 ∧ Is (CFl.ghost.g_xi ⟨x, num 0⟩).im (-p) ∧ Is (CFl.ghost.g_xi ⟨x, nz⟩).im p := by
  obtain ⟨h1, h3, h4⟩ := atan2_cut (y := num 0) hx hu rfl
  obtain ⟨h2, -, -⟩ := atan2_cut (y := nz) hx hu rfl
  rw [show (num 0 : Fl binary64).isNeg = false by simp [Fl.isNeg]] at h1
  rw [show (nz : Fl binary64).isNeg = true from rfl] at h2
  simp only [Bool.false_eq_true, if_false, if_true] at h1 h2
  refine ⟨⟨_, h3, h4, h1, h2⟩, rd (rd Real.pi / 12), ?_⟩
  have b12 : Is (ofR 12 : Fl binary64) 12 := is_ofR ⟨12, 0, by norm_num, by norm_num, by norm_num, by norm_num⟩
  have bq : Binary64 (1 / 4) := ⟨1, -2, by norm_num, by norm_num, by norm_num, by norm_num⟩
  have bh : Binary64 (1 / 2) := ⟨1, -1, by norm_num, by norm_num, by norm_num, by norm_num⟩
  obtain ⟨q, hq, q1, q2⟩ := between bq bh (x := rd Real.pi / 12) (by linarith) (by linarith)
  have hq' : binary64.rnd (rd Real.pi / 12) = (q : EReal) := hq
  have hn : binary64.rnd (-rd Real.pi / 12) = ((-q : ℝ) : EReal) := by
    rw [neg_div, show binary64.rnd (-(rd Real.pi / 12)) = -binary64.rnd (rd Real.pi / 12) from round64_neg _, hq']; rfl
  rw [rd_eq hq]
  have g1 := Rel.is_div (value_neg h1 : Is (-(Fl.atan2 (num 0) x)) (-rd Real.pi)) b12 (by norm_num)
  have g2 := Rel.is_div (value_neg h2 : Is (-(Fl.atan2 nz x)) (- -rd Real.pi)) b12 (by norm_num)
  rw [hn] at g1
  rw [neg_neg, hq'] at g2
  exact ⟨q1, q2, g1, g2⟩

/-- **C125** (the square root on the cut): the root of a negative number has no real part, and the sign of its imaginary part is that of the zero
imaginary part of its argument. -/
theorem C125_cut_sqrt {x : Fl binary64} {u : ℝ} (hx : Is x u) (hu : u < 0) :
    ∃ e : EReal, 0 ≤ e ∧ Is (CFl.sqrt ⟨x, num 0⟩).re 0 ∧ IsE (CFl.sqrt ⟨x, num 0⟩).im e ∧ Is (CFl.sqrt ⟨x, nz⟩).re 0 ∧ IsE (CFl.sqrt ⟨x, nz⟩).im (-e) ∧
      e = binary64.rnd (√(-u)) := by
  have hx' : x = num (u : EReal) := by
    cases x with
    | nan => simp [Is, Fl.value] at hx
    | nz => simp [Is, Fl.value] at hx; exact absurd (by exact_mod_cast hx.symm) hu.ne
    | num v => rw [show v = (u : EReal) by simpa [Is, Fl.value] using hx]
  have hne : (u : EReal) ≠ 0 := by exact_mod_cast hu.ne
  have e1 : -x = num ((-u : ℝ) : EReal) := by
    rw [hx']; change neg (num (u : EReal)) = _
    simp [neg, hne]
  have h0 : (0 : EReal) ≤ ((-u : ℝ) : EReal) := by exact_mod_cast (by linarith : (0 : ℝ) ≤ -u)
  have e2 : NumOps.sqrt (-x) = num (sqrtE binary64 ((-u : ℝ) : EReal)) := by rw [e1]; exact sqrt_nonneg_eq h0
  have e3 : IsE (NumOps.sqrt (-x)) (sqrtE binary64 ((-u : ℝ) : EReal)) := by rw [e2]; rfl
  have e4 : IsE (-(NumOps.sqrt (-x))) (-sqrtE binary64 ((-u : ℝ) : EReal)) := value_neg e3
  have s1 : CFl.sqrt ⟨x, num 0⟩ = ⟨num 0, NumOps.sqrt (-x)⟩ := by
    unfold CFl.sqrt
    rw [if_pos (show (num 0 : Fl binary64).value = some 0 from rfl), if_pos (CTrack.isNeg_neg hx hu)]
    simp [Fl.isNeg]
  have s2 : CFl.sqrt ⟨x, nz⟩ = ⟨num 0, -NumOps.sqrt (-x)⟩ := by
    unfold CFl.sqrt
    rw [if_pos (show (nz : Fl binary64).value = some 0 from rfl), if_pos (CTrack.isNeg_neg hx hu)]
    rfl
  rw [s1, s2]
  exact ⟨_, sqrtE_nonneg _, rfl, e3, rfl, e4, by rw [Rel.sqrtE_real]⟩

/-- **C125** (the square root of an imaginary number), of either sign. -/
theorem C125_imaginary_root {y x : Fl binary64} {u : ℝ} (hy : Is y 0) (hx : Is x u) (lo : 1 / 10 ^ 6 ≤ |u|) (hi : |u| ≤ 10 ^ 6) :
    NearC (CFl.sqrt ⟨y, x⟩) (csqrt ⟨0, u⟩) (8 * ulp * √|u|) := by
  have hu : u ≠ 0 := abs_pos.1 (lt_of_lt_of_le (by norm_num) lo)
  have m : ∀ {v : ℝ}, 1 / 10 ^ 7 ≤ v → v ≤ 10 ^ 7 → Mid v := fun a b => mid_of (by rw [← one_div]; exact a) b (by norm_num)
  obtain ⟨⟨p, p1, p2⟩, q, q1, q2⟩ := CTrack.root_axis hy hx hu (m (by linarith) (by linarith))
    (m (Real.le_sqrt_of_sq_le (by norm_num at lo ⊢; linarith)) (Real.sqrt_le_iff.2 ⟨by norm_num, by norm_num at hi ⊢; linarith⟩))
  refine ⟨⟨p, q⟩, p1, q1, (Complex.norm_le_abs_re_add_abs_im _).trans ?_⟩
  rw [Complex.sub_re, Complex.sub_im]
  change _ ≤ 8 * uu * √|u|
  simp only
  linarith

/-- **C125** (two ways of writing a negative number): the opposite of a positive number, and the number with the opposite real part, are equal complex
numbers, but the computed values of `g_xi` differ by more than `1 / 2`. -/
theorem C125_negation {x : Fl binary64} {u : ℝ} (hx : Is x u) (hu : 0 < u) :
    Is (-CFl.ofReal x).re (-u) ∧ Is (CFl.ofReal (-x)).re (-u) ∧ Is (-CFl.ofReal x).im 0 ∧ Is (CFl.ofReal (-x)).im 0 ∧
    ∃ p q : ℝ, Is (CFl.ghost.g_xi (-CFl.ofReal x)).im p ∧ Is (CFl.ghost.g_xi (CFl.ofReal (-x))).im q ∧ 1 / 2 ≤ p - q := by
  have hn : Is (-x) (-u) := value_neg hx
  have e : -CFl.ofReal x = ⟨-x, nz⟩ := by
    change (⟨-x, neg (num 0)⟩ : CFl binary64) = _
    simp [neg]
  obtain ⟨-, p, p1, -, h1, h2⟩ := C125_cut hn (by linarith)
  rw [e]
  exact ⟨hn, hn, rfl, rfl, p, -p, h2, h1, by linarith⟩

/-! ### Cases -/

theorem case_right : Sector ⟨num ((2 : ℝ) : EReal), num ((3 : ℝ) : EReal)⟩ ⟨2, 3⟩ := by
  have h : ‖(⟨2, 3⟩ : ℂ)‖ = √13 := by rw [Complex.norm_def, Complex.normSq_mk]; norm_num
  have h1 : (1 : ℝ) ≤ √13 := Real.one_le_sqrt.2 (by norm_num)
  have h2 : √13 ≤ 13 := by rw [Real.sqrt_le_left (by norm_num)]; norm_num
  exact ⟨rfl, rfl, by norm_num, by rw [h]; linarith, by rw [h]; linarith⟩

/-- An argument on the imaginary axis, of negative imaginary part. -/
theorem case_axis : Sector ⟨nz, num ((-1 : ℝ) : EReal)⟩ ⟨0, -1⟩ := by
  have h : ‖(⟨0, -1⟩ : ℂ)‖ = 1 := by rw [Complex.norm_def, Complex.normSq_mk]; norm_num
  exact ⟨rfl, rfl, by norm_num, by rw [h]; norm_num, by rw [h]; norm_num⟩

/-- An argument in the left half plane. -/
theorem case_left : Sector ⟨num ((-1 : ℝ) : EReal), num ((2 : ℝ) : EReal)⟩ ⟨-1, 2⟩ := by
  have h : ‖(⟨-1, 2⟩ : ℂ)‖ = √5 := by rw [Complex.norm_def, Complex.normSq_mk]; norm_num
  have h1 : (1 : ℝ) ≤ √5 := Real.le_sqrt_of_sq_le (by norm_num)
  have h2 : √5 ≤ 3 := Real.sqrt_le_iff.2 ⟨by norm_num, by norm_num⟩
  refine ⟨rfl, rfl, by norm_num, ?_, ?_⟩ <;> rw [h] <;> linarith

example := C125_elementary case_left
example := C125_functions case_right
example := C125_functions case_left
example := C125_functions case_axis
example := C125_dressing_inv (c := -1 / 2) (xi := 1) case_right ⟨-1, -1, by norm_num, by norm_num, by norm_num, by norm_num⟩ (by norm_num) b_one (by norm_num)
theorem case_conj : Sector ⟨num ((2 : ℝ) : EReal), num ((-3 : ℝ) : EReal)⟩ ((starRingEnd ℂ) ⟨2, 3⟩) :=
  ⟨rfl, rfl, by norm_num, by rw [Complex.norm_conj]; exact case_right.lo, by rw [Complex.norm_conj]; exact case_right.hi⟩

example := C125_conjugate case_right case_conj
example := C125_dressing_conjugate (c := -1 / 2) (xi := 1) case_right case_conj ⟨-1, -1, by norm_num, by norm_num, by norm_num, by norm_num⟩ (by norm_num) b_one
  (by norm_num)
example := C125_real_axis (x := num ((2 : ℝ) : EReal)) (s := 2) ⟨rfl, by exact_mod_cast b_pow (n := 1) (by norm_num) (by norm_num), by norm_num, by norm_num⟩
example := C125_cut (x := num ((-2 : ℝ) : EReal)) (u := -2) rfl (by norm_num)
example := C125_cut_sqrt (x := num ((-2 : ℝ) : EReal)) (u := -2) rfl (by norm_num)
example := C125_imaginary_root (y := nz) (x := num ((-2 : ℝ) : EReal)) (u := -2) rfl rfl (by norm_num) (by norm_num)
example := C125_negation (x := num ((2 : ℝ) : EReal)) (u := 2) rfl (by norm_num)

end Qcd
