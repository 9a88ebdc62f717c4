import Verif.Lemmas.RunningError
import Verif.Spec.VacuumAccuracy

/-! # Lemmas: the running errors of the vacuum functions -/

namespace Qcd
open Fl Spec

theorem log_range {t : ℝ} (h0 : 0 < t) (h1 : (10 ^ 15)⁻¹ ≤ t) (h2 : t ≤ 10 ^ 15) :
    ((10 : ℝ) ^ 3)⁻¹ ≤ |Real.log t| + 1 ∧ |Real.log t| + 1 ≤ 10 ^ 3 := by
  have l10 : Real.log 10 ≤ 10 - 1 := Real.log_le_sub_one_of_pos (by norm_num)
  have hb : |Real.log t| ≤ 135 := by
    rw [abs_le]
    constructor
    · have := Real.log_le_log (by positivity) h1
      rw [Real.log_inv, Real.log_pow] at this
      push_cast at this
      linarith
    · have := Real.log_le_log h0 h2
      rw [Real.log_pow] at this
      push_cast at this
      linarith
  have := abs_nonneg (Real.log t)
  constructor
  · norm_num; linarith
  · norm_num; linarith

theorem root_bounds {s : ℝ} (lo : 1 / 10 ^ 6 ≤ s) (hi : s ≤ 10 ^ 6) : 1 < Real.sqrt (s⁻¹ * 4 + 1) ∧ (Real.sqrt (s⁻¹ * 4 + 1) + 1) / (Real.sqrt (s⁻¹ * 4 + 1) - 1) ≤ s + 2 ∧
    (10 ^ 12)⁻¹ ≤ (Real.sqrt (s⁻¹ * 4 + 1) - 1) / 2 ∧ (Real.sqrt (s⁻¹ * 4 + 1) - 1) / 2 ≤ 10 ^ 12 := by
  have hp : 0 < s := lt_of_lt_of_le (by norm_num) lo
  have hw : 0 < s⁻¹ := inv_pos.2 hp
  have hsw : s * s⁻¹ = 1 := mul_inv_cancel₀ hp.ne'
  have hw6 : s⁻¹ ≤ 10 ^ 6 := by rw [inv_le_comm₀ hp (by norm_num), ← one_div]; exact lo
  have hA := Real.sq_sqrt (show 0 ≤ s⁻¹ * 4 + 1 by positivity)
  have h1 : 1 < Real.sqrt (s⁻¹ * 4 + 1) := by rw [Real.lt_sqrt (by norm_num)]; linarith
  generalize Real.sqrt (s⁻¹ * 4 + 1) = A at *
  have hA4 : A ≤ 10 ^ 4 := by
    by_contra hc
    push Not at hc
    nlinarith
  have hq : 4 = s * (A - 1) * (A + 1) := by linear_combination (-s) * hA - 4 * hsw
  have h2 : (A + 1) / (A - 1) ≤ s + 2 := by
    rw [div_le_iff₀ (by linarith)]
    have h3 : 4 * (A + 1) ≤ 4 * ((s + 2) * (A - 1)) := by
      have e : 4 * (A + 1) = s * (A - 1) * (A + 1) ^ 2 := by rw [hq]; ring
      have e2 : s * (A + 1) ^ 2 ≤ 8 + 4 * s := by
        have : s * A ^ 2 = 4 + s := by rw [hA]; linear_combination 4 * hsw
        nlinarith [sq_nonneg (A - 1)]
      rw [e]
      nlinarith
    linarith
  refine ⟨h1, h2, ?_, by norm_num at *; linarith⟩
  have : 4 ≤ 10 ^ 6 * (A - 1) * (10 ^ 4 + 1) := by
    rw [hq]
    have : 0 ≤ A - 1 := by linarith
    gcongr
  norm_num at *
  linarith

namespace Spec.Medium
variable {x : Fl binary64} {s : ℝ} (h : Medium x s)
include h

theorem pos : 0 < s := lt_of_lt_of_le (by norm_num) h.lo
theorem t : Track x s s 0 6 :=
  ⟨by have := Run.exact h.is; rw [abs_of_pos h.pos] at this; exact_mod_cast this, by rw [← one_div]; exact h.lo, h.hi⟩
theorem ti : Track (x⁻¹) s⁻¹ s⁻¹ 2 6 := by
  have h1 : ((10 : ℝ) ^ 6)⁻¹ ≤ s⁻¹ := inv_anti₀ h.pos h.hi
  have h2 : s⁻¹ ≤ 10 ^ 6 := by rw [inv_le_comm₀ h.pos (by norm_num), ← one_div]; exact h.lo
  exact ⟨by exact_mod_cast Run.inv h.is h.pos (mid_of h1 h2 (by norm_num)), h1, h2⟩
theorem tl : Track (NumOps.ln x) (Real.log s) (|Real.log s| + 1) 2 3 := by
  have hp := h.pos
  have lo := h.lo
  have hi := h.hi
  obtain ⟨r1, r2⟩ := log_range hp (by norm_num at *; linarith) (by norm_num at *; linarith)
  have e : s / s = 1 := div_self hp.ne'
  have := h.t.run.ln hp (by simp) (by simp) (by simpa using hp.le) (by rw [e]; exact mid_of r1 r2 (by norm_num))
  rw [e] at this
  exact ⟨by simpa using this, r1, r2⟩
theorem t1 : Track (x + ofR 1) (s + 1) (s + 1) 2 7 := by simpa using h.t.add (Track.const 1 (by norm_num) (by norm_num))
theorem tl1 : Track (NumOps.ln (x + ofR 1)) (Real.log (s + 1)) (|Real.log (s + 1)| + 1) 6 3 := by
  have hp := h.pos
  have lo := h.lo
  have hi := h.hi
  obtain ⟨r1, r2⟩ := log_range (t := s + 1) (by linarith) (by norm_num; linarith) (by norm_num at *; linarith)
  have e : (s + 1) / (s + 1) = 1 := div_self (by linarith)
  have hu : uu ≤ 1 / 10 ^ 15 := by unfold uu; norm_num
  have := h.t1.run.ln (by linarith) (by simp) (by norm_num) (by push_cast; nlinarith) (by rw [e]; exact mid_of r1 r2 (by norm_num))
  rw [e] at this
  exact ⟨by norm_num at this ⊢; exact this, r1, r2⟩
theorem ghost_track : ∃ k ≤ 200, Track (ghost.g x) (ghost.g s)
    (((s + 1) * (s + 1) * (s⁻¹ * 2 + s⁻¹ * s⁻¹) * (|Real.log (s + 1)| + 1) + s * 2 * (|Real.log s| + 1) + (s⁻¹ + 2)) / 12) 40 k := by
  have c2 := Track.const 2 (by norm_num) (by norm_num)
  have := ((((h.t1.mul h.t1).mul ((h.ti.mul c2).sub (h.ti.mul h.ti))).mul h.tl1).sub ((h.t.mul c2).mul h.tl)).add (h.ti.add c2)
  have := this.divNum 12
  push_cast at this
  exact ⟨_, by norm_num, this.mono (by norm_num)⟩

theorem root : Track (NumOps.sqrt (x⁻¹ * ofR 4 + ofR 1)) (Real.sqrt (s⁻¹ * 4 + 1)) (Real.sqrt (s⁻¹ * 4 + 1)) 9 9 := by
  have c1 := Track.const 1 (by norm_num) (by norm_num)
  have c4 := Track.const 4 (by norm_num) (by norm_num)
  have := ((h.ti.mul c4).add c1)
  push_cast at this
  exact this.sqrt
theorem root_gt : 1 < Real.sqrt (s⁻¹ * 4 + 1) ∧ (Real.sqrt (s⁻¹ * 4 + 1) + 1) / (Real.sqrt (s⁻¹ * 4 + 1) - 1) ≤ s + 2 ∧
    (10 ^ 12)⁻¹ ≤ (Real.sqrt (s⁻¹ * 4 + 1) - 1) / 2 ∧ (Real.sqrt (s⁻¹ * 4 + 1) - 1) / 2 ≤ 10 ^ 12 :=
  root_bounds h.lo h.hi

theorem root_ln : Track (NumOps.ln ((NumOps.sqrt (x⁻¹ * ofR 4 + ofR 1) - ofR 1) / ofR 2)) (Real.log ((Real.sqrt (s⁻¹ * 4 + 1) - 1) / 2))
    (|Real.log ((Real.sqrt (s⁻¹ * 4 + 1) - 1) / 2)| + (Real.sqrt (s⁻¹ * 4 + 1) + 1) / (Real.sqrt (s⁻¹ * 4 + 1) - 1)) 28 7 := by
  obtain ⟨g1, g2, g3, g4⟩ := h.root_gt
  have c1 := Track.const 1 (by norm_num) (by norm_num)
  have hr := (h.root.sub c1).divNum 2
  push_cast at hr
  have hi := h.hi
  generalize NumOps.sqrt (x⁻¹ * ofR 4 + ofR 1) = a at *
  generalize Real.sqrt (s⁻¹ * 4 + 1) = A at *
  have hp : 0 < (A - 1) / 2 := by linarith
  have e : (A + 1) / 2 / ((A - 1) / 2) = (A + 1) / (A - 1) := by
    have : A - 1 ≠ 0 := by linarith
    field_simp
  obtain ⟨r1, r2⟩ := log_range hp (by norm_num at *; linarith) (by norm_num at *; linarith)
  have hl : 1 ≤ (A + 1) / (A - 1) := by rw [le_div_iff₀ (by linarith)]; linarith
  have r3 : ((10 : ℝ) ^ 7)⁻¹ ≤ |Real.log ((A - 1) / 2)| + (A + 1) / (A - 1) := by norm_num at *; linarith
  have r4 : |Real.log ((A - 1) / 2)| + (A + 1) / (A - 1) ≤ 10 ^ 7 := by norm_num at *; linarith
  have hu : uu ≤ 1 / 10 ^ 15 := by unfold uu; norm_num
  have := hr.run.ln hp (by positivity) (by norm_num) ?_ (by rw [e]; exact mid_of r3 r4 (by norm_num))
  · rw [e] at this
    refine ⟨?_, r3, r4⟩
    norm_num at this ⊢
    exact this
  · rw [div_le_iff₀ (by linarith)] at g2
    have u0 := uu_pos
    have g5 : A + 1 ≤ (10 ^ 6 + 2) * (A - 1) := g2.trans (by gcongr)
    have g6 : uu * (A + 1) ≤ 1 / 10 ^ 15 * ((10 ^ 6 + 2) * (A - 1)) := mul_le_mul hu g5 (by linarith) (by norm_num)
    norm_num at g6 ⊢
    linarith

theorem gluon_track : ∃ k ≤ 200, Track (gluon.f x) (gluon.f s)
    (((s * s * 3 + s * 34 + 28 + s⁻¹ * 24) * Real.sqrt (s⁻¹ * 4 + 1) *
        ((|Real.log ((Real.sqrt (s⁻¹ * 4 + 1) - 1) / 2)| + (Real.sqrt (s⁻¹ * 4 + 1) + 1) / (Real.sqrt (s⁻¹ * 4 + 1) - 1)) * 2 + (|Real.log s| + 1)) +
      (s + 1) * (s + 1) * (s⁻¹ * 20 + 3 + s⁻¹ * s⁻¹ * 11 + s⁻¹ * (s⁻¹ * s⁻¹) * 2) * 2 * (|Real.log (s + 1)| + 1) +
      (s * s * 3 + 2) * (|Real.log s| + 1) + (s + 4) * (s + 20 + s⁻¹ * 12) + (s + 1) * (s + 1) * 2 * (s⁻¹ * 10 + 1 + s⁻¹ * s⁻¹) +
      (s⁻¹ * s⁻¹ * 2 + 2 + s * s)) / 72 + s⁻¹ * 5 / 8) 80 k := by
  have c1 := Track.const 1 (by norm_num) (by norm_num)
  have c2 := Track.const 2 (by norm_num) (by norm_num)
  have c3 := Track.const 3 (by norm_num) (by norm_num)
  have c4 := Track.const 4 (by norm_num) (by norm_num)
  have c5 := Track.const 5 (by norm_num) (by norm_num)
  have c10 := Track.const 10 (by norm_num) (by norm_num)
  have c11 := Track.const 11 (by norm_num) (by norm_num)
  have c12 := Track.const 12 (by norm_num) (by norm_num)
  have c20 := Track.const 20 (by norm_num) (by norm_num)
  have c24 := Track.const 24 (by norm_num) (by norm_num)
  have c28 := Track.const 28 (by norm_num) (by norm_num)
  have c34 := Track.const 34 (by norm_num) (by norm_num)
  have t := h.t
  have i := h.ti
  have la := (((((t.mul t).mul c3).sub (t.mul c34)).sub c28).sub (i.mul c24)).mul h.root |>.mul ((h.root_ln.mul c2).add h.tl)
  have lb := (((h.t1.mul h.t1).mul ((((i.neg.mul c20).add c3).add ((i.mul i).mul c11)).sub ((i.mul (i.mul i)).mul c2))).mul c2).mul h.tl1
  have lc := (((t.mul t).neg.mul c3).add c2).mul h.tl
  have ra := (t.add c4).neg.mul ((t.sub c20).add (i.mul c12))
  have rb := ((h.t1.mul h.t1).mul c2).mul (((i.neg.mul c10).add c1).add (i.mul i))
  have rc := (((i.mul i).mul c2).add c2).sub (t.mul t)
  have := (((((la.add lb).add lc).add ra).add rb).add rc).divNum 72
  have := this.add ((i.mul c5).divNum 8)
  push_cast at this
  exact ⟨_, by norm_num, this.mono (by norm_num)⟩

theorem gluon_xi_track : ∃ k ≤ 200, Track (gluon.f_xi x) (gluon.f_xi s)
    (s⁻¹ / 4 + (s * 2 * (|Real.log s| + 1) + (s⁻¹ * s⁻¹ + s⁻¹) * (s⁻¹ + s * s) * 2 * (|Real.log (s + 1)| + 1) + 3 + s⁻¹ * 3 + s⁻¹ * s⁻¹ * 2) / 12) 60 k := by
  have c2 := Track.const 2 (by norm_num) (by norm_num)
  have c3 := Track.const 3 (by norm_num) (by norm_num)
  have t := h.t
  have i := h.ti
  have := (((((t.mul c2).mul h.tl).sub (((((i.mul i).sub i).mul (i.sub (t.mul t))).mul c2).mul h.tl1)).add c3).sub (i.mul c3)).add ((i.mul i).mul c2)
  have := (i.divNum 4).sub (this.divNum 12)
  push_cast at this
  exact ⟨_, by norm_num, this.mono (by norm_num)⟩

theorem quark_ln : Track (NumOps.ln ((NumOps.sqrt (x⁻¹ * ofR 4 + ofR 1) - ofR 1) / (NumOps.sqrt (x⁻¹ * ofR 4 + ofR 1) + ofR 1)))
    (Real.log ((√(s⁻¹ * 4 + 1) - 1) / (√(s⁻¹ * 4 + 1) + 1)))
    (|Real.log ((√(s⁻¹ * 4 + 1) - 1) / (√(s⁻¹ * 4 + 1) + 1))| + (√(s⁻¹ * 4 + 1) + 1) / (√(s⁻¹ * 4 + 1) - 1)) 94 7 := by
  obtain ⟨g1, g2, g3, g4⟩ := h.root_gt
  have c1 := Track.const 1 (by norm_num) (by norm_num)
  have hr := (h.root.sub c1).div (h.root.add c1)
  push_cast at hr
  have hi := h.hi
  generalize NumOps.sqrt (x⁻¹ * ofR 4 + ofR 1) = a at *
  generalize √(s⁻¹ * 4 + 1) = A at *
  have hp : 0 < (A - 1) / (A + 1) := div_pos (by linarith) (by linarith)
  have hA : A + 1 ≠ 0 := by linarith
  have hA' : A - 1 ≠ 0 := by linarith
  have e : (A + 1) / (A + 1) / ((A - 1) / (A + 1)) = (A + 1) / (A - 1) := by field_simp
  have hl : 1 ≤ (A + 1) / (A - 1) := by rw [le_div_iff₀ (by linarith)]; linarith
  have hx1 : (A - 1) / (A + 1) ≤ 1 := by rw [div_le_one (by linarith)]; linarith
  have hx2 : (10 ^ 15)⁻¹ ≤ (A - 1) / (A + 1) := by
    have h1 : (A - 1) / (A + 1) = ((A + 1) / (A - 1))⁻¹ := (inv_div _ _).symm
    rw [h1]
    exact inv_anti₀ (by linarith) (g2.trans (by norm_num at *; linarith))
  obtain ⟨r1, r2⟩ := log_range hp hx2 (hx1.trans (by norm_num))
  have r3 : ((10 : ℝ) ^ 7)⁻¹ ≤ |Real.log ((A - 1) / (A + 1))| + (A + 1) / (A - 1) := by norm_num at *; linarith
  have r4 : |Real.log ((A - 1) / (A + 1))| + (A + 1) / (A - 1) ≤ 10 ^ 7 := by norm_num at *; linarith
  have hu : uu ≤ 1 / 10 ^ 15 := by unfold uu; norm_num
  have := hr.run.ln hp (by positivity) (by norm_num) ?_ (by rw [e]; exact mid_of r3 r4 (by norm_num))
  · rw [e] at this
    refine ⟨?_, r3, r4⟩
    norm_num at this ⊢
    exact this
  · have u0 := uu_pos
    rw [div_le_iff₀ (by linarith)] at g2
    rw [div_self hA, le_div_iff₀ (by linarith)]
    have g5 : A + 1 ≤ (10 ^ 6 + 2) * (A - 1) := g2.trans (by gcongr)
    have g6 : uu * (A + 1) ≤ 1 / 10 ^ 15 * ((10 ^ 6 + 2) * (A - 1)) := mul_le_mul hu g5 (by linarith) (by norm_num)
    norm_num at g6 ⊢
    linarith

theorem quarks_track : ∃ k ≤ 200, Track (gluon.f_q x) (gluon.f_q s)
    (((s⁻¹ + 1 / 2) * √(s⁻¹ * 4 + 1) * (|Real.log ((√(s⁻¹ * 4 + 1) - 1) / (√(s⁻¹ * 4 + 1) + 1))| +
      (√(s⁻¹ * 4 + 1) + 1) / (√(s⁻¹ * 4 + 1) - 1)) + s⁻¹ * 2 + 5 / 6) * 4 / 9) 150 k := by
  have c2 := Track.const 2 (by norm_num) (by norm_num)
  have c4 := Track.const 4 (by norm_num) (by norm_num)
  have ch := Track.constR (c := 1 / 2) (by norm_num) (by norm_num)
  have c5 := Track.constR (c := 5 / 6) (by norm_num) (by norm_num)
  have i := h.ti
  have := (((((i.neg.add ch).mul h.root).mul h.quark_ln).sub (i.mul c2)).add c5).mul c4
  have := this.divNum 9
  push_cast at this
  exact ⟨_, by norm_num, this.mono (by norm_num)⟩

theorem crossed_track : ∃ k ≤ 200, Track (gluon.f_q_crossed x) (gluon.f_q_crossed s)
    ((s⁻¹ * 4 + 1 / 6 + (s⁻¹ + 1 / 2 + s⁻¹ * s⁻¹ * 8) / √(s⁻¹ * 4 + 1) * (|Real.log ((√(s⁻¹ * 4 + 1) - 1) / (√(s⁻¹ * 4 + 1) + 1))| +
      (√(s⁻¹ * 4 + 1) + 1) / (√(s⁻¹ * 4 + 1) - 1))) * 4 / 9) 180 k := by
  have c4 := Track.const 4 (by norm_num) (by norm_num)
  have c8 := Track.const 8 (by norm_num) (by norm_num)
  have ch := Track.constR (c := 1 / 2) (by norm_num) (by norm_num)
  have c6 := Track.constR (c := 1 / 6) (by norm_num) (by norm_num)
  have i := h.ti
  have := (((i.mul c4).sub c6).add ((((i.add ch).add ((i.mul i).mul c8)).div h.root).mul h.quark_ln)).mul c4
  have := this.divNum 9
  push_cast at this
  exact ⟨_, by norm_num, this.mono (by norm_num)⟩

end Spec.Medium
end Qcd
