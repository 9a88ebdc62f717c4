import Verif.Lemmas.VacuumAccuracy
import Verif.Props.Euclidean

/-! C115: accuracy of the vacuum functions in the arithmetic of `f64`. `Spec.Medium x s`: the argument `x` is the number `s`, between `10^-6` and
`10^6`. `Spec.Near a y e`: the result `a` is a number at most `e` away from `y`. -/

namespace Qcd
open Fl Spec

theorem Track.near {a : Fl binary64} {x B C : ℝ} {n k : ℕ} (h : Track a x B n k) (e : B = C) : Near a x (n * ulp * C) := by
  obtain ⟨v, hv, -, h2⟩ := h.run
  exact ⟨v, hv, by rw [← e]; exact h2⟩

theorem root_eq (s : ℝ) : √(s⁻¹ * 4 + 1) = root s := by unfold root; congr 1; ring

section
variable {s : ℝ} (hs : 0 < s)
include hs

theorem ghost_scale_eq : ((s + 1) * (s + 1) * (s⁻¹ * 2 + s⁻¹ * s⁻¹) * (|Real.log (s + 1)| + 1) + s * 2 * (|Real.log s| + 1) + (s⁻¹ + 2)) / 12
    = ghostScale s := by
  unfold ghostScale lnScale
  rw [add_comm s 1]
  field_simp
  ring

theorem gluon_scale_eq : (((s * s * 3 + s * 34 + 28 + s⁻¹ * 24) * √(s⁻¹ * 4 + 1) *
        ((|Real.log ((√(s⁻¹ * 4 + 1) - 1) / 2)| + (√(s⁻¹ * 4 + 1) + 1) / (√(s⁻¹ * 4 + 1) - 1)) * 2 + (|Real.log s| + 1)) +
      (s + 1) * (s + 1) * (s⁻¹ * 20 + 3 + s⁻¹ * s⁻¹ * 11 + s⁻¹ * (s⁻¹ * s⁻¹) * 2) * 2 * (|Real.log (s + 1)| + 1) +
      (s * s * 3 + 2) * (|Real.log s| + 1) + (s + 4) * (s + 20 + s⁻¹ * 12) + (s + 1) * (s + 1) * 2 * (s⁻¹ * 10 + 1 + s⁻¹ * s⁻¹) +
      (s⁻¹ * s⁻¹ * 2 + 2 + s * s)) / 72 + s⁻¹ * 5 / 8) = gluonScale s := by
  unfold gluonScale lnScale
  rw [add_comm s 1, root_eq]
  generalize root s = A
  generalize (A + 1) / (A - 1) = Q
  generalize |Real.log ((A - 1) / 2)| = L
  field_simp

theorem gauge_scale_eq : s⁻¹ / 4 + (s * 2 * (|Real.log s| + 1) + (s⁻¹ * s⁻¹ + s⁻¹) * (s⁻¹ + s * s) * 2 * (|Real.log (s + 1)| + 1) + 3 + s⁻¹ * 3 +
    s⁻¹ * s⁻¹ * 2) / 12 = gluonGaugeScale s := by
  unfold gluonGaugeScale lnScale
  rw [add_comm s 1]
  field_simp

theorem quark_scale_eq : ((s⁻¹ + 1 / 2) * √(s⁻¹ * 4 + 1) * (|Real.log ((√(s⁻¹ * 4 + 1) - 1) / (√(s⁻¹ * 4 + 1) + 1))| +
      (√(s⁻¹ * 4 + 1) + 1) / (√(s⁻¹ * 4 + 1) - 1)) + s⁻¹ * 2 + 5 / 6) * 4 / 9 = quarkScale s := by
  unfold quarkScale
  rw [root_eq]
  generalize root s = A
  generalize (A + 1) / (A - 1) = Q
  generalize |Real.log ((A - 1) / (A + 1))| = L
  field_simp

theorem crossed_scale_eq : (s⁻¹ * 4 + 1 / 6 + (s⁻¹ + 1 / 2 + s⁻¹ * s⁻¹ * 8) / √(s⁻¹ * 4 + 1) *
    (|Real.log ((√(s⁻¹ * 4 + 1) - 1) / (√(s⁻¹ * 4 + 1) + 1))| + (√(s⁻¹ * 4 + 1) + 1) / (√(s⁻¹ * 4 + 1) - 1))) * 4 / 9 = crossedScale s := by
  unfold crossedScale
  rw [root_eq]
  generalize (root s + 1) / (root s - 1) = Q
  generalize |Real.log ((root s - 1) / (root s + 1))| = L
  have : 0 < root s := Real.sqrt_pos.2 (by positivity)
  field_simp

end

/-- **C115** (one-loop functions): the errors of the computed functions are at most 40 to 180 roundings of the sum of the absolute values of the terms. -/
theorem C115_functions {x : Fl binary64} {s : ℝ} (h : Medium x s) :
    Near (ghost.g x) (ghost.g s) (40 * ulp * ghostScale s) ∧ Near (gluon.f x) (gluon.f s) (80 * ulp * gluonScale s) ∧
    Near (gluon.f_xi x) (gluon.f_xi s) (60 * ulp * gluonGaugeScale s) ∧ Near (gluon.f_q x) (gluon.f_q s) (150 * ulp * quarkScale s) ∧
    Near (gluon.f_q_crossed x) (gluon.f_q_crossed s) (180 * ulp * crossedScale s) := by
  obtain ⟨k1, -, t1⟩ := h.ghost_track
  obtain ⟨k2, -, t2⟩ := h.gluon_track
  obtain ⟨k3, -, t3⟩ := h.gluon_xi_track
  obtain ⟨k4, -, t4⟩ := h.quarks_track
  obtain ⟨k5, -, t5⟩ := h.crossed_track
  exact ⟨by exact_mod_cast t1.near (ghost_scale_eq h.pos), by exact_mod_cast t2.near (gluon_scale_eq h.pos),
    by exact_mod_cast t3.near (gauge_scale_eq h.pos), by exact_mod_cast t4.near (quark_scale_eq h.pos),
    by exact_mod_cast t5.near (crossed_scale_eq h.pos)⟩

theorem track_any {c : ℝ} (hc : Binary64 c) (hb : |c| ≤ 10 ^ 6) : Track (ofR c : Fl binary64) c (|c| + 1) 0 7 := by
  have h0 := abs_nonneg c
  refine ⟨?_, ?_, ?_⟩
  · have := (Run.exact (is_ofR hc)).monoB le_rfl (show |c| ≤ |c| + 1 by linarith)
    exact_mod_cast this
  · norm_num; linarith
  · norm_num at *; linarith

/-- **C115** (inverse dressing functions), for all renormalisation constants and gauge parameters up to `10^6`. -/
theorem C115_dressing_inv {x : Fl binary64} {s c xi : ℝ} (h : Medium x s) (hc : Binary64 c) (hb : |c| ≤ 10 ^ 6) (hxi : Binary64 xi) (hx : |xi| ≤ 10 ^ 6) :
    Near (ghost.dressing_inv_landau x c) (ghost.dressing_inv_landau s c) (42 * ulp * (ghostScale s + (|c| + 1))) ∧
    Near (ghost.dressing_inv x c xi) (ghost.dressing_inv s c xi) (44 * ulp * (ghostScale s + (|c| + 1) + lnScale s / 12 * (|xi| + 1))) ∧
    Near (ym.gluon.dressing_inv_landau x c) (ym.gluon.dressing_inv_landau s c) (82 * ulp * (gluonScale s + (|c| + 1))) ∧
    Near (ym.gluon.dressing_inv x c xi) (ym.gluon.dressing_inv s c xi)
      (84 * ulp * (gluonScale s + (|c| + 1) + gluonGaugeScale s * (|xi| + 1))) := by
  have tc := track_any hc hb
  have tx := track_any hxi hx
  obtain ⟨k1, hk1, t1⟩ := h.ghost_track
  obtain ⟨k2, hk2, t2⟩ := h.gluon_track
  obtain ⟨k3, hk3, t3⟩ := h.gluon_xi_track
  have g1 := t1.add tc (by norm_num) (by omega)
  have g2 := h.tl.neg.divNum 12
  push_cast at g2
  have g3 := g1.add (g2.mul tx) (by norm_num) (by omega)
  have f1 := t2.add tc (by norm_num) (by omega)
  have f2 := f1.add (t3.mul tx (by norm_num) (by norm_num) (by omega)) (by norm_num) (by omega)
  refine ⟨?_, ?_, ?_, ?_⟩
  · exact_mod_cast (g1.mono (n' := 42) (by norm_num)).near (by rw [ghost_scale_eq h.pos])
  · exact_mod_cast (g3.mono (n' := 44) (by norm_num)).near (by rw [ghost_scale_eq h.pos]; rfl)
  · exact_mod_cast (f1.mono (n' := 82) (by norm_num)).near (by rw [gluon_scale_eq h.pos])
  · exact_mod_cast (f2.mono (n' := 84) (by norm_num)).near (by rw [gluon_scale_eq h.pos, gauge_scale_eq h.pos])

/-! ### Decimals, for momenta between `m / 3` and `3 m` -/

theorem lnScale_le {t : ℝ} (h0 : 1 / 10 ≤ t) (h1 : t ≤ 11) : 1 ≤ lnScale t ∧ lnScale t ≤ 11 := by
  unfold lnScale
  have a1 := Real.log_le_sub_one_of_pos (show 0 < t by linarith)
  have a2 := Real.one_sub_inv_le_log_of_pos (show 0 < t by linarith)
  have a3 : t⁻¹ ≤ 10 := by rw [inv_le_comm₀ (by linarith) (by norm_num)]; linarith
  have : |Real.log t| ≤ 10 := abs_le.2 ⟨by linarith, by linarith⟩
  have := abs_nonneg (Real.log t)
  constructor <;> linarith

section
variable {s : ℝ} (h0 : 1 / 10 ≤ s) (h1 : s ≤ 10)
include h0 h1

theorem root_range : 1.18 ≤ root s ∧ root s ≤ 6.5 := by
  have hs : 0 < s := by linarith
  have e1 : 4 / s ≤ 40 := by rw [div_le_iff₀ hs]; linarith
  have e2 : 0.4 ≤ 4 / s := by rw [le_div_iff₀ hs]; linarith
  unfold root
  exact ⟨Real.le_sqrt_of_sq_le (by norm_num at *; linarith), Real.sqrt_le_iff.2 ⟨by norm_num, by norm_num at *; linarith⟩⟩

theorem root_logs : |Real.log ((root s - 1) / 2)| ≤ 11 ∧ (root s + 1) / (root s - 1) ≤ 13 ∧ |Real.log ((root s - 1) / (root s + 1))| ≤ 13 := by
  obtain ⟨r1, r2⟩ := root_range h0 h1
  generalize root s = A at *
  have hp : 0 < (A - 1) / 2 := by norm_num at *; linarith
  have hq : (A + 1) / (A - 1) ≤ 13 := by rw [div_le_iff₀ (by norm_num at *; linarith)]; norm_num at *; linarith
  have hq' : 0 < (A - 1) / (A + 1) := div_pos (by norm_num at *; linarith) (by norm_num at *; linarith)
  refine ⟨?_, hq, ?_⟩
  · have a1 := Real.log_le_sub_one_of_pos hp
    have a2 := Real.one_sub_inv_le_log_of_pos hp
    have a3 : ((A - 1) / 2)⁻¹ ≤ 12 := by rw [inv_le_comm₀ hp (by norm_num)]; norm_num at *; linarith
    exact abs_le.2 ⟨by linarith, by norm_num at *; linarith⟩
  · have a1 := Real.log_le_sub_one_of_pos hq'
    have a2 := Real.one_sub_inv_le_log_of_pos hq'
    rw [inv_div] at a2
    have a4 : (A - 1) / (A + 1) ≤ 1 := by rw [div_le_one (by norm_num at *; linarith)]; linarith
    exact abs_le.2 ⟨by linarith, by linarith⟩

theorem scales : (0 ≤ ghostScale s ∧ ghostScale s ≤ 14000) ∧ (0 ≤ gluonScale s ∧ gluonScale s ≤ 140000) ∧ gluonGaugeScale s ≤ 30000 ∧
    quarkScale s ≤ 900 ∧ crossedScale s ≤ 10000 := by
  have hs : 0 < s := by linarith
  obtain ⟨l1, l2⟩ := lnScale_le h0 (by linarith)
  obtain ⟨m1, m2⟩ := lnScale_le (t := 1 + s) (by linarith) (by linarith)
  obtain ⟨r1, r2⟩ := root_range h0 h1
  obtain ⟨q1, q2, q3⟩ := root_logs h0 h1
  have p1 : 0 ≤ (root s + 1) / (root s - 1) := div_nonneg (by norm_num at *; linarith) (by norm_num at *; linarith)
  have hw : 1 / s ≤ 10 := by rw [div_le_iff₀ hs]; linarith
  have hw0 : 0 < 1 / s := by positivity
  have b1 := abs_nonneg (Real.log ((root s - 1) / 2))
  have b2 := abs_nonneg (Real.log ((root s - 1) / (root s + 1)))
  have rp : 0 < root s := by norm_num at r1; linarith
  have rinv : (root s)⁻¹ ≤ 1 := inv_le_one_of_one_le₀ (by norm_num at *; linarith)
  have rinv0 : 0 ≤ (root s)⁻¹ := by positivity
  have s1 : 0 ≤ lnScale s := by linarith
  have s2 : 0 ≤ lnScale (1 + s) := by linarith
  have n1 : 0 ≤ ghostScale s := by unfold ghostScale; positivity
  have n2 : 0 ≤ gluonScale s := by unfold gluonScale; positivity
  have g1 : ghostScale s = ((1 + s) ^ 2 * (2 * (1 / s) + (1 / s) ^ 2) * lnScale (1 + s) + 2 * s * lnScale s + 1 / s + 2) / 12 := by
    unfold ghostScale; ring
  have g2 : gluonScale s = ((3 * s ^ 2 + 34 * s + 28 + 24 * (1 / s)) * root s *
      (2 * (|Real.log ((root s - 1) / 2)| + (root s + 1) / (root s - 1)) + lnScale s)
    + 2 * (1 + s) ^ 2 * (20 * (1 / s) + 3 + 11 * (1 / s) ^ 2 + 2 * (1 / s) ^ 3) * lnScale (1 + s) + (3 * s ^ 2 + 2) * lnScale s
    + (s + 4) * (s + 20 + 12 * (1 / s)) + 2 * (1 + s) ^ 2 * (10 * (1 / s) + 1 + (1 / s) ^ 2) + (2 * (1 / s) ^ 2 + 2 + s ^ 2)) / 72
    + 5 / 8 * (1 / s) := by
    unfold gluonScale
    generalize (root s + 1) / (root s - 1) = Q
    generalize |Real.log ((root s - 1) / 2)| = L
    ring
  have g3 : gluonGaugeScale s = 1 / 4 * (1 / s) + (2 * s * lnScale s + 2 * ((1 / s) ^ 2 + 1 / s) * (1 / s + s ^ 2) * lnScale (1 + s) + 3 + 3 * (1 / s)
      + 2 * (1 / s) ^ 2) / 12 := by unfold gluonGaugeScale; ring
  have g4 : quarkScale s = 4 / 9 * ((1 / s + 1 / 2) * root s * (|Real.log ((root s - 1) / (root s + 1))| + (root s + 1) / (root s - 1)) + 2 * (1 / s)
      + 5 / 6) := by
    unfold quarkScale
    generalize (root s + 1) / (root s - 1) = Q
    generalize |Real.log ((root s - 1) / (root s + 1))| = L
    ring
  have g5 : crossedScale s = 4 / 9 * (4 * (1 / s) + 1 / 6 + (1 / s + 1 / 2 + 8 * (1 / s) ^ 2) * (root s)⁻¹ *
      (|Real.log ((root s - 1) / (root s + 1))| + (root s + 1) / (root s - 1))) := by
    unfold crossedScale
    generalize (root s + 1) / (root s - 1) = Q
    generalize |Real.log ((root s - 1) / (root s + 1))| = L
    ring
  refine ⟨⟨n1, ?_⟩, ⟨n2, ?_⟩, ?_, ?_, ?_⟩
  · rw [g1]
    calc _ ≤ ((1 + 10) ^ 2 * (2 * 10 + 10 ^ 2) * 11 + 2 * 10 * 11 + 10 + 2) / 12 := by gcongr
      _ ≤ (14000 : ℝ) := by norm_num
  · rw [g2]
    calc _ ≤ ((3 * 10 ^ 2 + 34 * 10 + 28 + 24 * 10) * 6.5 * (2 * (11 + 13) + 11)
    + 2 * (1 + 10) ^ 2 * (20 * 10 + 3 + 11 * 10 ^ 2 + 2 * 10 ^ 3) * 11 + (3 * 10 ^ 2 + 2) * 11
    + (10 + 4) * (10 + 20 + 12 * 10) + 2 * (1 + 10) ^ 2 * (10 * 10 + 1 + 10 ^ 2) + (2 * 10 ^ 2 + 2 + 10 ^ 2)) / 72 + 5 / 8 * 10 := by gcongr
      _ ≤ (140000 : ℝ) := by norm_num
  · rw [g3]
    calc _ ≤ 1 / 4 * 10 + (2 * 10 * 11 + 2 * (10 ^ 2 + 10) * (10 + 10 ^ 2) * 11 + 3 + 3 * 10 + 2 * 10 ^ 2) / 12 := by gcongr
      _ ≤ (30000 : ℝ) := by norm_num
  · rw [g4]
    calc _ ≤ 4 / 9 * ((10 + 1 / 2) * 6.5 * (13 + 13) + 2 * 10 + 5 / 6) := by gcongr
      _ ≤ (900 : ℝ) := by norm_num
  · rw [g5]
    calc _ ≤ 4 / 9 * (4 * 10 + 1 / 6 + (10 + 1 / 2 + 8 * 10 ^ 2) * 1 * (13 + 13)) := by gcongr
      _ ≤ (10000 : ℝ) := by norm_num
end

/-- **C115** (decimals): for momenta squared between `m²/10` and `10 m²`. -/
theorem C115_decimals {x : Fl binary64} {s : ℝ} (hx : Is x s) (hs : Binary64 s) (h0 : 1 / 10 ≤ s) (h1 : s ≤ 10) :
    Near (ghost.g x) (ghost.g s) (1 / 10 ^ 10) ∧ Near (gluon.f x) (gluon.f s) (1 / 10 ^ 8) ∧ Near (gluon.f_xi x) (gluon.f_xi s) (1 / 10 ^ 9) ∧
    Near (gluon.f_q x) (gluon.f_q s) (1 / 10 ^ 10) ∧ Near (gluon.f_q_crossed x) (gluon.f_q_crossed s) (1 / 10 ^ 9) := by
  have h : Medium x s := ⟨hx, hs, by norm_num; linarith, by norm_num; linarith⟩
  obtain ⟨⟨n1, a1⟩, ⟨n2, a2⟩, a3, a4, a5⟩ := scales h0 h1
  obtain ⟨⟨v1, i1, e1⟩, ⟨v2, i2, e2⟩, ⟨v3, i3, e3⟩, ⟨v4, i4, e4⟩, v5, i5, e5⟩ := C115_functions h
  have hu : ulp ≤ 1.2 / 10 ^ 16 := by unfold ulp; norm_num
  have hu0 : 0 < ulp := by unfold ulp; positivity
  have key : ∀ (v y n S E M : ℝ), |v - y| ≤ n * ulp * S → 0 ≤ n → S ≤ M → 0 ≤ M → n * (1.2 / 10 ^ 16) * M ≤ E → |v - y| ≤ E := by
    intro v y n S E M h1 h2 h3 h4 h5
    refine (h1.trans ?_).trans h5
    calc n * ulp * S ≤ n * ulp * M := by gcongr
      _ ≤ n * (1.2 / 10 ^ 16) * M := by gcongr
  exact ⟨⟨v1, i1, key _ _ _ _ _ _ e1 (by norm_num) a1 (by norm_num) (by norm_num)⟩, ⟨v2, i2, key _ _ _ _ _ _ e2 (by norm_num) a2 (by norm_num) (by norm_num)⟩,
    ⟨v3, i3, key _ _ _ _ _ _ e3 (by norm_num) a3 (by norm_num) (by norm_num)⟩, ⟨v4, i4, key _ _ _ _ _ _ e4 (by norm_num) a4 (by norm_num) (by norm_num)⟩,
    v5, i5, key _ _ _ _ _ _ e5 (by norm_num) a5 (by norm_num) (by norm_num)⟩

theorem near_inv {x a : Fl binary64} {s D E : ℝ} (h : Medium x s) (h0 : 1 / 10 ≤ s) (h1 : s ≤ 10) (ha : Near a D E) (d0 : 0.02 ≤ D) (d1 : D ≤ 200000)
    (he : E ≤ 1.2 / 10 ^ 8 * D) :
    Near (a⁻¹) D⁻¹ (1 / 10 ^ 7 * D⁻¹) ∧ Near (x⁻¹ * a⁻¹) (s⁻¹ * D⁻¹) (1 / 10 ^ 7 * (s⁻¹ * D⁻¹)) ∧ Near (a⁻¹ * x⁻¹) (D⁻¹ * s⁻¹) (1 / 10 ^ 7 * (D⁻¹ * s⁻¹)) := by
  have hs := h.pos
  have hD : 0 < D := lt_of_lt_of_le (by norm_num) d0
  have i0 : 1 / 200000 ≤ D⁻¹ := by rw [one_div]; exact inv_anti₀ hD d1
  have i1 : D⁻¹ ≤ 50 := by rw [inv_le_comm₀ hD (by norm_num)]; norm_num at *; linarith
  have j0 : 1 / 10 ≤ s⁻¹ := by rw [one_div]; exact inv_anti₀ hs h1
  have j1 : s⁻¹ ≤ 10 := by rw [inv_le_comm₀ hs (by norm_num), ← one_div]; exact h0
  have p0 : 1 / 10 ^ 7 ≤ D⁻¹ * s⁻¹ := by
    calc (1 : ℝ) / 10 ^ 7 ≤ 1 / 200000 * (1 / 10) := by norm_num
      _ ≤ D⁻¹ * s⁻¹ := by gcongr
  have p1 : D⁻¹ * s⁻¹ ≤ 10 ^ 7 := by
    calc D⁻¹ * s⁻¹ ≤ 50 * 10 := by gcongr
      _ ≤ 10 ^ 7 := by norm_num
  obtain ⟨v, hv, e⟩ := ha
  have ra : Rel a D (1.2 / 10 ^ 8) := ⟨v, hv, by rw [abs_of_pos hD]; exact e.trans he⟩
  have rx : Rel x s 0 := ⟨s, h.is, by simp⟩
  have m (y : ℝ) (y0 : 1 / 10 ^ 7 ≤ y) (y1 : y ≤ 10 ^ 7) : Mid |y| := by
    rw [abs_of_pos (lt_of_lt_of_le (by norm_num) y0)]
    exact mid_of (k := 7) (by rw [← one_div]; exact y0) y1 (by norm_num)
  have ria := ra.inv (m _ (by norm_num at *; linarith) (by norm_num; linarith)) (m _ (by norm_num at *; linarith) (by norm_num; linarith)) (by norm_num) (by norm_num)
  have rix := rx.inv (m _ (by norm_num at *; linarith) (by norm_num; linarith)) (m _ (by norm_num at *; linarith) (by norm_num; linarith)) le_rfl (by norm_num)
  have r1 := rix.mul ria (m _ (by rw [mul_comm]; exact p0) (by rw [mul_comm]; exact p1)) (by norm_num) (by norm_num) (by norm_num) (by norm_num)
  have r2 := ria.mul rix (m _ p0 p1) (by norm_num) (by norm_num) (by norm_num) (by norm_num)
  have fin (c : Fl binary64) (y f : ℝ) (hy : 0 < y) (hf : f ≤ 1 / 10 ^ 7) (r : Rel c y f) : Near c y (1 / 10 ^ 7 * y) := by
    obtain ⟨w, hw, q⟩ := r
    rw [abs_of_pos hy] at q
    exact ⟨w, hw, q.trans (by gcongr)⟩
  exact ⟨fin _ _ _ (inv_pos.2 hD) (by norm_num) ria, fin _ _ _ (by positivity) (by norm_num) r1, fin _ _ _ (by positivity) (by norm_num) r2⟩

/-- **C115** (propagators): for momenta squared between `m²/10` and `10 m²`, with renormalisation constants not too close to the first pole (C107), the
computed dressing functions and propagators in the Landau gauge are correct to seven digits. -/
theorem C115_propagators {x : Fl binary64} {s g0 f0 : ℝ} (hx : Is x s) (hs : Binary64 s) (h0 : 1 / 10 ≤ s) (h1 : s ≤ 10)
    (hg : Binary64 g0) (hg0 : -(1 / 5) ≤ g0) (hg1 : g0 ≤ 100) (hf : Binary64 f0) (hf0 : -(4 / 5) ≤ f0) (hf1 : f0 ≤ 100) :
    (Near (ghost.dressing_landau x g0) (ghost.dressing_landau s g0) (1 / 10 ^ 7 * ghost.dressing_landau s g0) ∧
      Near (ghost.propagator_landau x g0) (ghost.propagator_landau s g0) (1 / 10 ^ 7 * ghost.propagator_landau s g0)) ∧
    Near (ym.gluon.dressing_landau x f0) (ym.gluon.dressing_landau s f0) (1 / 10 ^ 7 * ym.gluon.dressing_landau s f0) ∧
      Near (ym.gluon.propagator_landau x f0) (ym.gluon.propagator_landau s f0) (1 / 10 ^ 7 * ym.gluon.propagator_landau s f0) := by
  have h : Medium x s := ⟨hx, hs, by norm_num; linarith, by norm_num; linarith⟩
  have hs0 : 0 < s := h.pos
  obtain ⟨⟨n1, a1⟩, ⟨n2, a2⟩, -⟩ := scales h0 h1
  have z : Binary64 0 := ⟨0, 0, by norm_num, by norm_num, by norm_num, by norm_num⟩
  have bg : |g0| ≤ 100 := abs_le.2 ⟨by linarith, hg1⟩
  have bf : |f0| ≤ 100 := abs_le.2 ⟨by linarith, hf1⟩
  obtain ⟨⟨v1, i1, e1⟩, -⟩ := C115_dressing_inv h hg (bg.trans (by norm_num)) z (by norm_num)
  obtain ⟨-, -, ⟨v2, i2, e2⟩, -⟩ := C115_dressing_inv h hf (bf.trans (by norm_num)) z (by norm_num)
  have hu : ulp ≤ 1.2 / 10 ^ 16 := by unfold ulp; norm_num
  have hu0 : 0 < ulp := by unfold ulp; positivity
  have hlog : 0.09 ≤ Real.log (1 + s) := by
    have := Real.one_sub_inv_le_log_of_pos (show 0 < 1 + s by linarith)
    have h3 : (1 + s)⁻¹ ≤ 0.91 := by rw [inv_le_comm₀ (by linarith) (by norm_num)]; norm_num at *; linarith
    norm_num at *; linarith
  have d1 : 0.02 ≤ ghost.dressing_inv_landau s g0 := by
    have := C107_ghost_function.2 s hs0
    have e : ghost.dressing_inv_landau s g0 = ghost.g s + g0 := rfl
    rw [e]; norm_num at *; linarith
  have d2 : 0.02 ≤ ym.gluon.dressing_inv_landau s f0 := by
    have := (C107_gluon_function s hs0).1
    have e : ym.gluon.dressing_inv_landau s f0 = gluon.f s + f0 := rfl
    rw [e]; norm_num at *; linarith
  have d2' : 0.13 ≤ ym.gluon.dressing_inv_landau s f0 := by
    have := (C107_gluon_function s hs0).1
    have e : ym.gluon.dressing_inv_landau s f0 = gluon.f s + f0 := rfl
    rw [e]; norm_num at *; linarith
  have b1 : ghost.dressing_inv_landau s g0 ≤ 200000 := by
    obtain ⟨k, -, t⟩ := h.ghost_track
    have := (le_abs_self _).trans t.run.bound
    rw [ghost_scale_eq hs0] at this
    have e : ghost.dressing_inv_landau s g0 = ghost.g s + g0 := rfl
    linarith
  have b2 : ym.gluon.dressing_inv_landau s f0 ≤ 200000 := by
    obtain ⟨k, -, t⟩ := h.gluon_track
    have := (le_abs_self _).trans t.run.bound
    rw [gluon_scale_eq hs0] at this
    have e : ym.gluon.dressing_inv_landau s f0 = gluon.f s + f0 := rfl
    linarith
  have E1 : 42 * ulp * (ghostScale s + (|g0| + 1)) ≤ 1.2 / 10 ^ 8 * ghost.dressing_inv_landau s g0 := by
    calc 42 * ulp * (ghostScale s + (|g0| + 1)) ≤ 42 * (1.2 / 10 ^ 16) * (14000 + (100 + 1)) := by gcongr
      _ ≤ 1.2 / 10 ^ 8 * 0.02 := by norm_num
      _ ≤ _ := by gcongr
  have E2 : 82 * ulp * (gluonScale s + (|f0| + 1)) ≤ 1.2 / 10 ^ 8 * ym.gluon.dressing_inv_landau s f0 := by
    calc 82 * ulp * (gluonScale s + (|f0| + 1)) ≤ 82 * (1.2 / 10 ^ 16) * (140000 + (100 + 1)) := by gcongr
      _ ≤ 1.2 / 10 ^ 8 * 0.13 := by norm_num
      _ ≤ _ := by gcongr
  obtain ⟨q1, q2, -⟩ := near_inv h h0 h1 ⟨v1, i1, e1⟩ d1 b1 E1
  obtain ⟨q3, -, q4⟩ := near_inv h h0 h1 ⟨v2, i2, e2⟩ d2 b2 E2
  exact ⟨⟨q1, q2⟩, q3, q4⟩

/-- `p² = m² / 1024` and `p² = 1024 m²` meet the hypothesis of the first two theorems. -/
example : Medium (.num (1 / 1024 : ℝ)) (1 / 1024) ∧ Medium (.num (1024 : ℝ)) 1024 :=
  ⟨⟨rfl, ⟨1, -10, by norm_num, by norm_num, by norm_num, by norm_num [zpow_neg]⟩, by norm_num, by norm_num⟩,
    ⟨rfl, ⟨1024, 0, by norm_num, by norm_num, by norm_num, by norm_num⟩, by norm_num, by norm_num⟩⟩

/-- The hypotheses hold at `p² = 2 m²` with the constants `1/8` and `-3/4`. -/
example : let x : Fl binary64 := .num 2
    Near (ghost.propagator_landau x (1 / 8)) (ghost.propagator_landau 2 (1 / 8)) (1 / 10 ^ 7 * ghost.propagator_landau 2 (1 / 8)) ∧
    Near (ym.gluon.propagator_landau x (-(3 / 4))) (ym.gluon.propagator_landau 2 (-(3 / 4))) (1 / 10 ^ 7 * ym.gluon.propagator_landau 2 (-(3 / 4))) := by
  intro x
  have := C115_propagators (x := x) (s := 2) (g0 := 1 / 8) (f0 := -(3 / 4)) rfl
    ⟨2, 0, by norm_num, by norm_num, by norm_num, by norm_num⟩ (by norm_num) (by norm_num)
    ⟨1, -3, by norm_num, by norm_num, by norm_num, by norm_num [zpow_neg]⟩ (by norm_num) (by norm_num)
    ⟨-3, -2, by norm_num, by norm_num, by norm_num, by norm_num [zpow_neg]⟩ (by norm_num) (by norm_num)
  exact ⟨this.1.2, this.2.2⟩

end Qcd
