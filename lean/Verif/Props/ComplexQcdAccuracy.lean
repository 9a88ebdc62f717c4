import Verif.Spec.ComplexQcd
import Verif.Lemmas.QuarkAccuracy
import Verif.Props.ComplexPropagators

/-! C127: accuracy of the gluon functions with quarks of complex arguments in the arithmetic of `f64`. -/

namespace Qcd
open Fl Spec FTD consts

/-! ### The argument of a loop -/

/-- Rounding does not change the sector. -/
theorem angle_div {x : CFl binary64} {s z : ℂ} {d : Fl binary64} {v : ℝ} (h : Sector x s) (hd : Is d v) (hv : 0 < v) (z1 : Is (x / d).re z.re)
    (z2 : Is (x / d).im z.im) : 0 ≤ z.re + |z.im| := by
  have i1 : IsE (x / d).re (binary64.rnd (s.re / v)) := Rel.is_div h.re hd hv.ne'
  have i2 : IsE (x / d).im (binary64.rnd (s.im / v)) := Rel.is_div h.im hd hv.ne'
  have r1 : round64 (s.re / v) = (z.re : EReal) := Option.some.inj (Eq.trans (Eq.symm i1) z1)
  have r2 : round64 (s.im / v) = (z.im : EReal) := Option.some.inj (Eq.trans (Eq.symm i2) z2)
  have n1 : round64 (-(s.re / v)) = ((-z.re : ℝ) : EReal) := by rw [round64_neg, r1, EReal.coe_neg]
  have n2 : round64 (-(s.im / v)) = ((-z.im : ℝ) : EReal) := by rw [round64_neg, r2, EReal.coe_neg]
  have ha := h.angle
  rcases le_total 0 s.im with hi | hi
  · rw [abs_of_nonneg hi] at ha
    have m : round64 (-(s.re / v)) ≤ round64 (s.im / v) := binary64.mono (by rw [← neg_div]; gcongr; linarith)
    rw [n1, r2] at m
    have : -z.re ≤ z.im := by exact_mod_cast m
    linarith [le_abs_self z.im]
  · rw [abs_of_nonpos hi] at ha
    have m : round64 (-(s.re / v)) ≤ round64 (-(s.im / v)) := binary64.mono (by rw [← neg_div, ← neg_div]; gcongr; linarith)
    rw [n1, n2] at m
    have : -z.re ≤ -z.im := by exact_mod_cast m
    linarith [neg_le_abs z.im]

/-- The computed argument of a loop is in the sector. -/
theorem sector_div {x : CFl binary64} {s : ℂ} {d : Fl binary64} {v ρ : ℝ} (h : Sector x s) (hd : Is d v) (hρ : 0 < ρ) (hv : |v - ρ| ≤ 10 * uu * ρ)
    (lo : 2 / 10 ^ 6 ≤ ‖s‖ / ρ) (hi : ‖s‖ / ρ ≤ 10 ^ 6 / 2) : ∃ z : ℂ, Sector (x / d) z ∧ ‖z - s / (ρ : ℂ)‖ ≤ 20 * ulp * ‖s / (ρ : ℂ)‖ := by
  have hu := uu_pos
  have hu' := uu_small
  have b := abs_le.1 hv
  have hs : 10 * uu * ρ ≤ 1 / 1000 * ρ := by gcongr; linarith
  have v1 : 0.999 * ρ ≤ v := by norm_num at *; linarith [b.1]
  have v2 : v ≤ 1.001 * ρ := by norm_num at *; linarith [b.2]
  have v0 : 0 < v := lt_of_lt_of_le (by positivity) v1
  have hq1 : ‖s‖ / v ≤ 1.0011 * (‖s‖ / ρ) := by
    rw [div_le_iff₀ v0, show (1.0011 : ℝ) * (‖s‖ / ρ) * v = ‖s‖ * (1.0011 * v / ρ) by ring]
    refine le_mul_of_one_le_right (norm_nonneg _) ?_
    rw [le_div_iff₀ hρ]
    norm_num at *
    linarith
  have hq2 : 0.998 * (‖s‖ / ρ) ≤ ‖s‖ / v := by
    rw [le_div_iff₀ v0, show (0.998 : ℝ) * (‖s‖ / ρ) * v = ‖s‖ * (0.998 * v / ρ) by ring]
    refine mul_le_of_le_one_right (norm_nonneg _) ?_
    rw [div_le_iff₀ hρ]
    norm_num at *
    linarith
  have M : Mid (‖s‖ / v) := mid_of (k := 7) (le_trans (by norm_num at *; linarith) hq2) (hq1.trans (by norm_num at *; linarith)) (by norm_num)
  obtain ⟨p, p1, p2⟩ := ((run_of h.re (Complex.abs_re_le_norm s)).divNum hd v0 le_rfl (by norm_num) M).near
  obtain ⟨q, q1, q2⟩ := ((run_of h.im (Complex.abs_im_le_norm s)).divNum hd v0 le_rfl (by norm_num) M).near
  have e1 : ‖(⟨p, q⟩ : ℂ) - s / (v : ℂ)‖ ≤ 4 * uu * (‖s‖ / v) := by
    have := Complex.norm_le_abs_re_add_abs_im ((⟨p, q⟩ : ℂ) - s / (v : ℂ))
    rw [Complex.sub_re, Complex.sub_im, Complex.div_ofReal_re, Complex.div_ofReal_im] at this
    norm_num at p2 q2 this ⊢
    linarith
  have hvc : (v : ℂ) ≠ 0 := by exact_mod_cast v0.ne'
  have hρc : (ρ : ℂ) ≠ 0 := by exact_mod_cast hρ.ne'
  have e2 : ‖s / (v : ℂ) - s / (ρ : ℂ)‖ ≤ 10 * uu * (‖s‖ / v) := by
    have : s / (v : ℂ) - s / (ρ : ℂ) = -(s * ((v - ρ : ℝ) : ℂ)) / ((v : ℂ) * ρ) := by push_cast; field_simp; ring
    rw [this, norm_div, norm_neg, norm_mul, norm_mul, Complex.norm_real, Complex.norm_real, Complex.norm_real, Real.norm_eq_abs, Real.norm_eq_abs, Real.norm_eq_abs,
      abs_of_pos v0, abs_of_pos hρ]
    calc ‖s‖ * |v - ρ| / (v * ρ) ≤ ‖s‖ * (10 * uu * ρ) / (v * ρ) := by gcongr
      _ = 10 * uu * (‖s‖ / v) := by field_simp
  have n0 : ‖s / (ρ : ℂ)‖ = ‖s‖ / ρ := by rw [norm_div, Complex.norm_real, Real.norm_eq_abs, abs_of_pos hρ]
  have e3 : ‖(⟨p, q⟩ : ℂ) - s / (ρ : ℂ)‖ ≤ 20 * uu * (‖s‖ / ρ) := by
    have t := norm_sub_le_norm_sub_add_norm_sub (⟨p, q⟩ : ℂ) (s / (v : ℂ)) (s / (ρ : ℂ))
    have : 14 * uu * (‖s‖ / v) ≤ 14 * uu * (1.0011 * (‖s‖ / ρ)) := by gcongr
    have : 0 ≤ uu * (‖s‖ / ρ) := by positivity
    norm_num at *
    linarith
  have e4 : 20 * uu * (‖s‖ / ρ) ≤ 1 / 1000 * (‖s‖ / ρ) := by gcongr; linarith
  refine ⟨⟨p, q⟩, ⟨p1, q1, angle_div (z := ⟨p, q⟩) h hd v0 p1 q1, ?_, ?_⟩, by rw [n0]; exact e3⟩
  · have := norm_sub_norm_le (s / (ρ : ℂ)) (⟨p, q⟩ : ℂ)
    rw [norm_sub_rev, n0] at this
    norm_num at *
    linarith
  · have := norm_sub_norm_le (⟨p, q⟩ : ℂ) (s / (ρ : ℂ))
    rw [n0] at this
    norm_num at *
    linarith

theorem flavour_sector {x : CFl binary64} {s : ℂ} {m : ℝ} {nc : ℕ} {q : ℕ × ℝ} (h : Sector x s) (hm : Binary64 m) (hm0 : 0 < m) (hq : FlavourSector m s q) :
    ∃ z : ℂ, Sector (x / (ComputedQuark.new nc (ofR m) q.1 (ofR q.2) : ComputedQuark (Fl binary64)).mq_div_m_2) z ∧
      ‖z - s / (q.2 / m : ℂ) ^ 2‖ ≤ 20 * ulp * ‖s / (q.2 / m : ℂ) ^ 2‖ := by
  have r := track_ratio hm hm0 hq.num hq.lo hq.hi
  have hp : 0 < q.2 / m := lt_of_lt_of_le (by norm_num) hq.lo
  obtain ⟨v, v1, -, v2⟩ := (r.mul r).run
  rw [← sq] at v2
  have := sector_div h v1 (sq_pos_of_pos hp) (v2.trans (by have := uu_pos; norm_num; gcongr; norm_num)) hq.heavy hq.light
  push_cast at this
  exact this

/-! ### Sums -/

theorem quarks_near {F : CFl binary64 → CFl binary64} {G : ℂ → ℂ} {S : ℂ → ℝ} (hF : ∀ y t, Sector y t → ∃ k ≤ 200, CTrack (F y) (G t) (S t) 7800 k)
    {x : CFl binary64} {m : ℝ} {nc : ℕ} (hc : 1 ≤ nc) (hc' : nc ≤ 10 ^ 6) {z : ℕ × ℝ → ℂ} :
    ∀ (qs : List (ℕ × ℝ)) (_ : ∀ q ∈ qs, 1 ≤ q.1 ∧ q.1 ≤ 10 ^ 6 ∧ Sector (x / (ComputedQuark.new nc (ofR m) q.1 (ofR q.2) : ComputedQuark (Fl binary64)).mq_div_m_2) (z q))
      (r : CFl binary64) (R : ℂ) (B : ℝ) (n : ℕ), CTrack r R B n 238 → 7820 ≤ n → n + 5 * qs.length ≤ 10 ^ 5 → (10 ^ 230)⁻¹ ≤ B → B + qs.length * 10 ^ 220 ≤ 10 ^ 238 →
      CTrack ((quarkConfig nc m qs).quarks_internal.foldl (fun (res : CFl binary64) (q : ComputedQuark (Fl binary64)) => res + F (x / q.mq_div_m_2) * q.nf_div_nc) r)
        (R + quarksSum G nc z qs) (B + quarksScaleC S nc z qs) (n + 5 * qs.length) 238 := by
  intro qs
  induction qs with
  | nil => intro _ r R B n hr _ _ _ _; simpa [quarksSum, quarksScaleC, quarkConfig, ComputedConfig.new] using hr
  | cons q qs ih =>
    intro hq r R B n hr hn hN hB hB'
    obtain ⟨q1, q2, q3⟩ := hq q (by simp)
    obtain ⟨k, hk, t⟩ := hF _ _ q3
    have tn := (track_nat q1 q2).div (track_nat hc hc')
    have tm := t.mulR tn (by norm_num) (by norm_num) (by omega)
    have hC : S (z q) * (q.1 / nc) ≤ 10 ^ 220 := tm.hi.trans (pow_le_pow_right₀ (by norm_num) (by omega))
    have hC0 := tm.pos
    simp only [List.length_cons] at hN hB' ⊢
    push_cast at hB'
    have hl : (0 : ℝ) ≤ qs.length * 10 ^ 220 := by positivity
    have hs := hr.add tm (by omega) (by omega)
    have lo : ((10 : ℝ) ^ 238)⁻¹ ≤ B + S (z q) * (q.1 / nc) :=
      le_trans (inv_anti₀ (by positivity) (pow_le_pow_right₀ (by norm_num) (by norm_num : 230 ≤ 238))) (by linarith)
    have hs' := (hs.mono (n' := n + 5) (by omega)).range (j := 238) lo (by linarith)
    have := ih (fun p hp => hq p (by simp [hp])) _ _ _ (n + 5) hs' (by omega) (by omega) (by linarith) (by linarith)
    rw [show n + 5 * (qs.length + 1) = n + 5 + 5 * qs.length by ring]
    refine CTrack.congr this ?_ ?_
    · simp only [quarksSum, List.map_cons, List.sum_cons]; ring
    · simp only [quarksScaleC, List.map_cons, List.sum_cons]; ring

theorem quark_hypC (y : CFl binary64) (t : ℂ) (h : Sector y t) : ∃ k ≤ 200, CTrack (CFl.gluon.f_q y) (gluon.f_q t) (quarkScaleC t) 7800 k := by
  obtain ⟨k, hk, t'⟩ := h.quark_track
  rw [quark_scaleC_eq h.pos] at t'
  exact ⟨k, hk, t'.mono (by norm_num)⟩

theorem crossed_hypC (y : CFl binary64) (t : ℂ) (h : Sector y t) : ∃ k ≤ 200, CTrack (CFl.gluon.f_q_crossed y) (gluon.f_q_crossed t) (crossedScaleC t) 7800 k := by
  obtain ⟨k, hk, t'⟩ := h.crossed_track
  rw [crossed_scaleC_eq h.pos] at t'
  exact ⟨k, hk, t'⟩

theorem glue_tracksC {x : CFl binary64} {s : ℂ} {c xi : ℝ} (h : Sector x s) (hc : Binary64 c) (hb : |c| ≤ 10 ^ 6) (hxi : Binary64 xi) (hx : |xi| ≤ 10 ^ 6) :
    (∃ k ≤ 215, CTrack (CFl.gluon.dressing_inv_landau x (ofR c)) (ym.gluon.dressing_inv_landau s c) (gluonScaleC s + (|c| + 1)) 7820 k) ∧
    ∃ k ≤ 215, CTrack (CFl.gluon.dressing_inv x (ofR c) (ofR xi)) (ym.gluon.dressing_inv s c xi)
      (gluonScaleC s + (|c| + 1) + gluonGaugeScaleC s * (|xi| + 1)) 7820 k := by
  have tc := track_any hc hb
  have tx := track_any hxi hx
  obtain ⟨k2, hk2, t2⟩ := h.gluon_track
  obtain ⟨k3, hk3, t3⟩ := h.gluon_xi_track
  have f1 := t2.addR tc (by norm_num) (by omega)
  have f2 := f1.add (t3.mulR tx (by norm_num) (by norm_num) (by omega)) (by norm_num) (by omega)
  rw [gluon_scaleC_eq h.pos] at f1
  rw [gluon_scaleC_eq h.pos, gauge_scaleC_eq h.pos] at f2
  exact ⟨⟨_, by omega, f1.mono (by norm_num)⟩, ⟨_, by omega, f2.mono (by norm_num)⟩⟩

/-! ### Dressing functions and propagators -/

theorem all_near {x a : CFl binary64} {s j : ℂ} {e : ℝ} (h : Sector x s) (ha : NearC a j e) : AllNear a a⁻¹ (a⁻¹ / x) j s e := by
  refine ⟨ha, fun he lo hi => ?_⟩
  obtain ⟨w, w1, w2, w3, w4, w5⟩ := inv_near ha he lo hi
  have hj : 0 < ‖j‖ := lt_of_lt_of_le (by positivity) lo
  have hs := h.pos
  have lo' : (10 ^ 31 : ℝ)⁻¹ ≤ ‖w‖ := le_trans (by rw [le_div_iff₀ hj]; norm_num at hi ⊢; linarith) w5
  have hi' : ‖w‖ ≤ 10 ^ 31 := w4.trans (by rw [div_le_iff₀ hj]; norm_num at lo ⊢; linarith)
  have T := ctrack_of w1 w2 lo' hi'
  rw [one_div, one_div]
  refine ⟨⟨w, w1, w2, w3⟩, ?_⟩
  obtain ⟨z, z1, z2, z3⟩ := (T.div h.t le_rfl (by linarith)).run
  refine ⟨z, z1, z2, ?_⟩
  have h1 := norm_sub_le_norm_sub_add_norm_sub z (w / s) ((j * s)⁻¹)
  rw [show w / s - (j * s)⁻¹ = (w - j⁻¹) / s by rw [mul_inv]; ring, norm_div] at h1
  have hu := uu_pos
  change ‖w - j⁻¹‖ ≤ 132 * uu / ‖j‖ + _ at w3
  change _ ≤ (410 * uu / ‖j‖ + _) / ‖s‖
  have h2 : ((2 * 0 + 4 * 0 + 135 : ℕ) : ℝ) * uu * (‖w‖ / ‖s‖) ≤ 278 * uu / ‖j‖ / ‖s‖ := by
    calc ((2 * 0 + 4 * 0 + 135 : ℕ) : ℝ) * uu * (‖w‖ / ‖s‖) ≤ ((2 * 0 + 4 * 0 + 135 : ℕ) : ℝ) * uu * (2.001 / ‖j‖ / ‖s‖) := by gcongr
      _ = ((2 * 0 + 4 * 0 + 135 : ℕ) : ℝ) * 2.001 * uu / ‖j‖ / ‖s‖ := by ring
      _ ≤ 278 * uu / ‖j‖ / ‖s‖ := by gcongr; norm_num
  have h3 : ‖w - j⁻¹‖ / ‖s‖ ≤ (132 * uu / ‖j‖ + 2 * e / ‖j‖ ^ 2) / ‖s‖ := by gcongr
  have h4 : (410 * uu / ‖j‖ + 2 * e / ‖j‖ ^ 2) / ‖s‖ = 278 * uu / ‖j‖ / ‖s‖ + (132 * uu / ‖j‖ + 2 * e / ‖j‖ ^ 2) / ‖s‖ := by ring
  rw [h4]
  linarith

/-! ### Theorems -/

/-- **C127** (accuracy): for any list of quarks, the computed inverse dressing functions are those of arguments of the loops that are at most 20 roundings
away from the exact ones, with an error of at most 7820 roundings, and five more for every entry of the list, of the sum of the norms of the terms. Dressing
functions and propagators follow. -/
theorem C127_accuracy {x : CFl binary64} {s : ℂ} {c xi m : ℝ} {nc : ℕ} (h : Sector x s) (hc : Binary64 c) (hb : |c| ≤ 10 ^ 6) (hxi : Binary64 xi)
    (hx : |xi| ≤ 10 ^ 6) (hm : Binary64 m) (hm0 : 0 < m) (hn : 1 ≤ nc) (hn' : nc ≤ 10 ^ 6) (qs : List (ℕ × ℝ)) (hq : ∀ q ∈ qs, FlavourSector m s q)
    (hl : qs.length ≤ 10 ^ 4) : ∃ z : ℕ × ℝ → ℂ, (∀ q ∈ qs, ‖z q - s / (q.2 / m : ℂ) ^ 2‖ ≤ 20 * ulp * ‖s / (q.2 / m : ℂ) ^ 2‖) ∧
    AllNear (CFl.qcd.dressing_inv_landau_w_field_config x (ofR c) (quarkConfig nc m qs)) (CFl.qcd.dressing_landau_w_field_config x (ofR c) (quarkConfig nc m qs))
      (CFl.qcd.propagator_landau_w_field_config x (ofR c) (quarkConfig nc m qs)) (ym.gluon.dressing_inv_landau s c + quarksSum gluon.f_q nc z qs) s
      ((7820 + 5 * qs.length) * ulp * (gluonScaleC s + (|c| + 1) + quarksScaleC quarkScaleC nc z qs)) ∧
    AllNear (CFl.qcd.dressing_inv_w_field_config x (ofR c) (ofR xi) (quarkConfig nc m qs)) (CFl.qcd.dressing_w_field_config x (ofR c) (ofR xi) (quarkConfig nc m qs))
      (CFl.qcd.propagator_w_field_config x (ofR c) (ofR xi) (quarkConfig nc m qs)) (ym.gluon.dressing_inv s c xi + quarksSum gluon.f_q nc z qs) s
      ((7820 + 5 * qs.length) * ulp * (gluonScaleC s + (|c| + 1) + gluonGaugeScaleC s * (|xi| + 1) + quarksScaleC quarkScaleC nc z qs)) ∧
    AllNear (CFl.qcd.dressing_crossed_inv_landau_w_field_config x (ofR c) (quarkConfig nc m qs))
      (CFl.qcd.dressing_crossed_landau_w_field_config x (ofR c) (quarkConfig nc m qs)) (CFl.qcd.propagator_crossed_landau_w_field_config x (ofR c) (quarkConfig nc m qs))
      (ym.gluon.dressing_inv_landau s c + quarksSum gluon.f_q_crossed nc z qs) s
      ((7820 + 5 * qs.length) * ulp * (gluonScaleC s + (|c| + 1) + quarksScaleC crossedScaleC nc z qs)) ∧
    AllNear (CFl.qcd.dressing_crossed_inv_w_field_config x (ofR c) (ofR xi) (quarkConfig nc m qs))
      (CFl.qcd.dressing_crossed_w_field_config x (ofR c) (ofR xi) (quarkConfig nc m qs)) (CFl.qcd.propagator_crossed_w_field_config x (ofR c) (ofR xi) (quarkConfig nc m qs))
      (ym.gluon.dressing_inv s c xi + quarksSum gluon.f_q_crossed nc z qs) s
      ((7820 + 5 * qs.length) * ulp * (gluonScaleC s + (|c| + 1) + gluonGaugeScaleC s * (|xi| + 1) + quarksScaleC crossedScaleC nc z qs)) := by
  classical
  have hz : ∀ q : ℕ × ℝ, ∃ z : ℂ, q ∈ qs → Sector (x / (ComputedQuark.new nc (ofR m) q.1 (ofR q.2) : ComputedQuark (Fl binary64)).mq_div_m_2) z ∧
      ‖z - s / (q.2 / m : ℂ) ^ 2‖ ≤ 20 * ulp * ‖s / (q.2 / m : ℂ) ^ 2‖ := fun q => by
    by_cases hq' : q ∈ qs
    · obtain ⟨z, hz⟩ := flavour_sector (nc := nc) h hm hm0 (hq q hq')
      exact ⟨z, fun _ => hz⟩
    · exact ⟨0, fun h => absurd h hq'⟩
  choose z hz using hz
  obtain ⟨⟨k1, hk1, g1⟩, k2, hk2, g2⟩ := glue_tracksC h hc hb hxi hx
  have hlen : (qs.length : ℝ) ≤ 10 ^ 4 := by exact_mod_cast hl
  have key : ∀ {F : CFl binary64 → CFl binary64} {G : ℂ → ℂ} {S : ℂ → ℝ}, (∀ y t, Sector y t → ∃ k ≤ 200, CTrack (F y) (G t) (S t) 7800 k) →
      ∀ {r : CFl binary64} {R : ℂ} {B : ℝ} {k : ℕ}, k ≤ 215 → CTrack r R B 7820 k →
      AllNear ((quarkConfig nc m qs).quarks_internal.foldl (fun (res : CFl binary64) (q : ComputedQuark (Fl binary64)) => res + F (x / q.mq_div_m_2) * q.nf_div_nc) r)
        ((quarkConfig nc m qs).quarks_internal.foldl (fun (res : CFl binary64) (q : ComputedQuark (Fl binary64)) => res + F (x / q.mq_div_m_2) * q.nf_div_nc) r)⁻¹
        (((quarkConfig nc m qs).quarks_internal.foldl (fun (res : CFl binary64) (q : ComputedQuark (Fl binary64)) => res + F (x / q.mq_div_m_2) * q.nf_div_nc) r)⁻¹ / x)
        (R + quarksSum G nc z qs) s ((7820 + 5 * qs.length) * ulp * (B + quarksScaleC S nc z qs)) := by
    intro F G S hF r R B k hk t
    have b1 : B ≤ 10 ^ 215 := t.hi.trans (pow_le_pow_right₀ (by norm_num) hk)
    have b0 : (10 ^ 230)⁻¹ ≤ B := le_trans (inv_anti₀ (by positivity) (pow_le_pow_right₀ (by norm_num) (by omega))) t.lo
    have b2 : B + qs.length * 10 ^ 220 ≤ 10 ^ 238 := by
      calc B + qs.length * 10 ^ 220 ≤ 10 ^ 220 + 10 ^ 4 * 10 ^ 220 := by
            gcongr; exact b1.trans (pow_le_pow_right₀ (by norm_num) (by norm_num))
        _ = (1 + 10 ^ 4) * 10 ^ 220 := by ring
        _ ≤ 10 ^ 18 * 10 ^ 220 := by gcongr; norm_num
        _ = 10 ^ 238 := by rw [← pow_add]
    have t' := t.range (j := 238) (le_trans (inv_anti₀ (by positivity) (pow_le_pow_right₀ (by norm_num) (by norm_num))) b0)
      (b1.trans (pow_le_pow_right₀ (by norm_num) (by norm_num)))
    have := (quarks_near hF (m := m) hn hn' qs (fun q hq' => ⟨(hq q hq').some, (hq q hq').few, (hz q hq').1⟩) r R B 7820 t' le_rfl (by omega) b0 b2).run
    refine all_near h ?_
    push_cast at this
    exact this
  exact ⟨z, fun q hq' => (hz q hq').2, key quark_hypC hk1 g1, key quark_hypC hk2 g2, key crossed_hypC hk1 g1, key crossed_hypC hk2 g2⟩

/-- **C127** (the sums): with the exact arguments of the loops the sums of `C127_accuracy` are the exact functions. -/
theorem C127_sums (k : Consts ℝ) (s : ℂ) (c xi m : ℝ) (nc : ℕ) (qs : List (ℕ × ℝ)) :
    qcd.gluon.dressing_inv_landau_w_field_config k s c (FieldConfig.new nc m qs) =
      ym.gluon.dressing_inv_landau s c + quarksSum gluon.f_q nc (fun q => s / (q.2 / m : ℂ) ^ 2) qs ∧
    qcd.gluon.dressing_inv_w_field_config k s c xi (FieldConfig.new nc m qs) =
      ym.gluon.dressing_inv s c xi + quarksSum gluon.f_q nc (fun q => s / (q.2 / m : ℂ) ^ 2) qs ∧
    qcd.gluon.dressing_crossed_inv_landau_w_field_config k s c (FieldConfig.new nc m qs) =
      ym.gluon.dressing_inv_landau s c + quarksSum gluon.f_q_crossed nc (fun q => s / (q.2 / m : ℂ) ^ 2) qs ∧
    qcd.gluon.dressing_crossed_inv_w_field_config k s c xi (FieldConfig.new nc m qs) =
      ym.gluon.dressing_inv s c xi + quarksSum gluon.f_q_crossed nc (fun q => s / (q.2 / m : ℂ) ^ 2) qs := by
  have key : ∀ (G : ℂ → ℂ) (l : List (ℕ × ℝ)) (r : ℂ),
      (FieldConfig.new nc m l).quarks_internal.foldl (fun res qi => res + G (s / NumOps.ofR qi.mq_div_m_2) * NumOps.ofR qi.nf_div_nc) r =
        r + quarksSum G nc (fun q => s / (q.2 / m : ℂ) ^ 2) l := by
    intro G l
    induction l with
    | nil => intro r; simp [quarksSum, FieldConfig.new]
    | cons q l ih =>
      intro r
      have e : (FieldConfig.new nc m (q :: l)).quarks_internal = QuarkInternal.new nc m q.1 q.2 :: (FieldConfig.new nc m l).quarks_internal := rfl
      rw [e, List.foldl_cons, ih]
      simp only [quarksSum, List.map_cons, List.sum_cons, QuarkInternal.new]
      rw [add_assoc]
      congr 2
      show G (s / ((q.2 / m * (q.2 / m) : ℝ) : ℂ)) * (((q.1 : ℝ) / nc : ℝ) : ℂ) = _
      push_cast
      rw [sq]
  exact ⟨key _ _ _, key _ _ _, key _ _ _, key _ _ _⟩

/-- **C127** (accuracy, one quark mass `μ`, gluon mass one, `nf` flavours and `nc` colours). -/
theorem C127_global_accuracy {x : CFl binary64} {s : ℂ} {c xi μ : ℝ} {mq : Fl binary64} {nf nc : ℕ} (h : Sector x s) (hc : Binary64 c) (hb : |c| ≤ 10 ^ 6)
    (hxi : Binary64 xi) (hx : |xi| ≤ 10 ^ 6) (hm : Is mq μ) (hm0 : 1 / 10 ^ 6 ≤ μ) (hm1 : μ ≤ 10 ^ 6) (heavy : 2 / 10 ^ 6 ≤ ‖s‖ / μ ^ 2)
    (light : ‖s‖ / μ ^ 2 ≤ 10 ^ 6 / 2) (hf : 1 ≤ nf) (hf' : nf ≤ 10 ^ 6) (hn : 1 ≤ nc) (hn' : nc ≤ 10 ^ 6) :
    ∃ z : ℂ, ‖z - s / (μ : ℂ) ^ 2‖ ≤ 20 * ulp * ‖s / (μ : ℂ) ^ 2‖ ∧
    AllNear (CFl.qcd.dressing_inv_landau (ofR nf / ofR nc) x mq (ofR c)) (CFl.qcd.dressing_landau (ofR nf / ofR nc) x mq (ofR c))
      (CFl.qcd.propagator_landau (ofR nf / ofR nc) x mq (ofR c)) (ym.gluon.dressing_inv_landau s c + gluon.f_q z * ((nf / nc : ℝ) : ℂ)) s
      (7825 * ulp * (gluonScaleC s + (|c| + 1) + quarkScaleC z * (nf / nc))) ∧
    AllNear (CFl.qcd.dressing_inv (ofR nf / ofR nc) x mq (ofR c) (ofR xi)) (CFl.qcd.dressing (ofR nf / ofR nc) x mq (ofR c) (ofR xi))
      (CFl.qcd.propagator (ofR nf / ofR nc) x mq (ofR c) (ofR xi)) (ym.gluon.dressing_inv s c xi + gluon.f_q z * ((nf / nc : ℝ) : ℂ)) s
      (7825 * ulp * (gluonScaleC s + (|c| + 1) + gluonGaugeScaleC s * (|xi| + 1) + quarkScaleC z * (nf / nc))) ∧
    AllNear (CFl.qcd.dressing_crossed_inv_landau (ofR nf / ofR nc) x mq (ofR c)) (CFl.qcd.dressing_crossed_landau (ofR nf / ofR nc) x mq (ofR c))
      (CFl.qcd.propagator_crossed_landau (ofR nf / ofR nc) x mq (ofR c)) (ym.gluon.dressing_inv_landau s c + gluon.f_q_crossed z * ((nf / nc : ℝ) : ℂ)) s
      (7825 * ulp * (gluonScaleC s + (|c| + 1) + crossedScaleC z * (nf / nc))) ∧
    AllNear (CFl.qcd.dressing_crossed_inv (ofR nf / ofR nc) x mq (ofR c) (ofR xi)) (CFl.qcd.dressing_crossed (ofR nf / ofR nc) x mq (ofR c) (ofR xi))
      (CFl.qcd.propagator_crossed (ofR nf / ofR nc) x mq (ofR c) (ofR xi)) (ym.gluon.dressing_inv s c xi + gluon.f_q_crossed z * ((nf / nc : ℝ) : ℂ)) s
      (7825 * ulp * (gluonScaleC s + (|c| + 1) + gluonGaugeScaleC s * (|xi| + 1) + crossedScaleC z * (nf / nc))) := by
  have h0 : 0 < μ := lt_of_lt_of_le (by norm_num) hm0
  have t : Track mq μ μ 0 6 := ⟨by exact_mod_cast run_of hm (abs_of_pos h0).le, by rw [← one_div]; exact hm0, hm1⟩
  obtain ⟨v, v1, -, v2⟩ := (t.mul t).run
  rw [← sq] at v2
  obtain ⟨z, hz, hz'⟩ := sector_div h v1 (sq_pos_of_pos h0) (v2.trans (by have := uu_pos; norm_num; gcongr; norm_num)) heavy light
  push_cast at hz'
  obtain ⟨⟨k1, hk1, g1⟩, k2, hk2, g2⟩ := glue_tracksC h hc hb hxi hx
  have tn := (track_nat hf hf').div (track_nat hn hn')
  obtain ⟨k3, hk3, t3⟩ := quark_hypC _ _ hz
  obtain ⟨k4, hk4, t4⟩ := crossed_hypC _ _ hz
  have m3 := t3.mulR tn (by norm_num) (by norm_num) (by omega)
  have m4 := t4.mulR tn (by norm_num) (by norm_num) (by omega)
  exact ⟨z, hz', all_near h (by exact_mod_cast (g1.add m3 (by norm_num) (by omega)).run), all_near h (by exact_mod_cast (g2.add m3 (by norm_num) (by omega)).run),
    all_near h (by exact_mod_cast (g1.add m4 (by norm_num) (by omega)).run), all_near h (by exact_mod_cast (g2.add m4 (by norm_num) (by omega)).run)⟩

/-! ### Cases: the left half plane, with two flavours of mass 1/2 and one of mass 2 -/

theorem case_left_norm : 1 ≤ ‖(⟨-1, 2⟩ : ℂ)‖ ∧ ‖(⟨-1, 2⟩ : ℂ)‖ ≤ 3 := by
  rw [Complex.norm_def, Complex.normSq_mk]
  exact ⟨Real.le_sqrt_of_sq_le (by norm_num), Real.sqrt_le_iff.2 ⟨by norm_num, by norm_num⟩⟩

theorem case_left_flavours : ∀ q ∈ [((2 : ℕ), (1 / 2 : ℝ)), (1, 2)], FlavourSector 1 ⟨-1, 2⟩ q := by
  obtain ⟨n1, n2⟩ := case_left_norm
  intro q hq
  simp only [List.mem_cons, List.not_mem_nil, or_false] at hq
  rcases hq with rfl | rfl
  · exact ⟨by norm_num, by norm_num, ⟨1, -1, by norm_num, by norm_num, by norm_num, by norm_num⟩, by norm_num, by norm_num, by norm_num; linarith, by norm_num; linarith⟩
  · exact ⟨by norm_num, by norm_num, ⟨2, 0, by norm_num, by norm_num, by norm_num, by norm_num⟩, by norm_num, by norm_num, by norm_num; linarith, by norm_num; linarith⟩

example := C127_accuracy (c := -1 / 2) (xi := 1) (m := 1) (nc := 3) case_left ⟨-1, -1, by norm_num, by norm_num, by norm_num, by norm_num⟩ (by norm_num) b_one
  (by norm_num) b_one one_pos (by norm_num) (by norm_num) _ case_left_flavours (by norm_num)
example := C127_global_accuracy (c := -1 / 2) (xi := 1) (μ := 1 / 2) (mq := num ((1 / 2 : ℝ) : EReal)) (nf := 2) (nc := 3) case_left
  ⟨-1, -1, by norm_num, by norm_num, by norm_num, by norm_num⟩ (by norm_num) b_one (by norm_num) rfl (by norm_num) (by norm_num)
  (by have := case_left_norm; norm_num; linarith [this.1]) (by have := case_left_norm; norm_num; linarith [this.2]) (by norm_num) (by norm_num) (by norm_num) (by norm_num)

/-! ### A case where the dressing function and the propagator are accurate: `s = 1`, additive constant `10^6`, two flavours of mass one -/

theorem case_quark {z : ℂ} (hz : ‖z - 1‖ ≤ 1 / 10) : quarkScaleC z ≤ 40 ∧ ‖gluon.f_q z‖ ≤ 40 ∧ 0 ≤ quarkScaleC z := by
  have n1 := norm_sub_norm_le z 1
  have n2 := norm_sub_norm_le 1 z
  rw [norm_sub_rev] at n2
  rw [norm_one] at n1 n2
  have a1 : ‖z‖ ≤ 1.1 := by norm_num; linarith
  have a2 : 0.9 ≤ ‖z‖ := by norm_num; linarith
  have hp : 0 < ‖z‖ := by linarith
  have hre : 0 ≤ z.re := by
    have := (abs_le.1 ((Complex.abs_re_le_norm (z - 1)).trans hz)).1
    rw [Complex.sub_re, Complex.one_re] at this
    linarith
  have S : Sector ⟨num (z.re : EReal), num (z.im : EReal)⟩ z := ⟨rfl, rfl, by positivity, by norm_num at *; linarith, by norm_num at *; linarith⟩
  obtain ⟨k, -, t⟩ := S.quark_track
  have tb := t.bound
  have tp := t.pos
  obtain ⟨-, -, -, c4, -, c6, c7⟩ := croot_bounds S.angle S.lo S.hi
  have i1 : ‖z‖⁻¹ ≤ 1.12 := by rw [inv_le_comm₀ hp (by norm_num)]; norm_num at *; linarith
  have i2 : 0.9 ≤ ‖z‖⁻¹ := by rw [le_inv_comm₀ (by norm_num) hp]; norm_num at *; linarith
  have r1 : 2.1 ≤ √(‖z‖⁻¹ * 4 + 1) := Real.le_sqrt_of_sq_le (by norm_num at *; linarith)
  have r2 : √(‖z‖⁻¹ * 4 + 1) ≤ 2.4 := Real.sqrt_le_iff.2 ⟨by norm_num, by norm_num at *; linarith⟩
  generalize hA : √(‖z‖⁻¹ * 4 + 1) = A at *
  generalize ha : csqrt (z⁻¹ * 4 + 1) = a at *
  have p1 : 1.5 ≤ ‖a + 1‖ := by norm_num at *; linarith
  have p0 : 0 < ‖a + 1‖ := by linarith
  have w1 : 0.3 ≤ ‖(a - 1) / (a + 1)‖ := by
    rw [norm_div, le_div_iff₀ p0]
    norm_num at *
    linarith
  have w2 : ‖(a - 1) / (a + 1)‖ ≤ 3 := by
    rw [norm_div, div_le_iff₀ p0]
    have : ‖a - 1‖ ≤ ‖a + 1‖ + 2 := by
      have := norm_sub_le (a + 1) 2
      rw [show a + 1 - 2 = a - 1 by ring] at this
      simpa using this
    norm_num at *
    linarith
  have w0 : 0 < ‖(a - 1) / (a + 1)‖ := by linarith
  have L : ‖Complex.log ((a - 1) / (a + 1))‖ ≤ 7 := by
    have h1 := Complex.norm_le_abs_re_add_abs_im (Complex.log ((a - 1) / (a + 1)))
    rw [Complex.log_re, Complex.log_im] at h1
    have h2 := Complex.abs_arg_le_pi ((a - 1) / (a + 1))
    have h3 := Real.pi_lt_d2
    have h4 := Real.log_le_sub_one_of_pos w0
    have h5 := Real.one_sub_inv_le_log_of_pos w0
    have h6 : ‖(a - 1) / (a + 1)‖⁻¹ ≤ 3.4 := by rw [inv_le_comm₀ w0 (by norm_num)]; norm_num at *; linarith
    have h7 : |Real.log ‖(a - 1) / (a + 1)‖| ≤ 2.4 := abs_le.2 ⟨by norm_num at *; linarith, by norm_num at *; linarith⟩
    generalize |Real.log ‖(a - 1) / (a + 1)‖| = l at *
    norm_num at h3 h7
    linarith
  have q : (A + 1) / (A - 1) ≤ 3 := by rw [div_le_iff₀ (by linarith)]; norm_num at *; linarith
  have q0 : 0 ≤ (A + 1) / (A - 1) := div_nonneg (by linarith) (by linarith)
  have e := quark_scaleC_eq hp
  rw [hA, ha] at e
  have main : ((‖z‖⁻¹ + 1 / 2) * A * (‖Complex.log ((a - 1) / (a + 1))‖ + 2 * ((A + 1) / (A - 1))) + ‖z‖⁻¹ * 2 + 5 / 6) * 4 / 9 ≤ 40 := by
    have A0 : 0 ≤ A := by linarith
    have m : ((‖z‖⁻¹ + 1 / 2) * A * (‖Complex.log ((a - 1) / (a + 1))‖ + 2 * ((A + 1) / (A - 1))) + ‖z‖⁻¹ * 2 + 5 / 6) * 4 / 9 ≤
        ((1.12 + 1 / 2) * 2.4 * (7 + 2 * 3) + 1.12 * 2 + 5 / 6) * 4 / 9 := by gcongr
    exact m.trans (by norm_num)
  rw [← e]
  exact ⟨main, tb.trans main, tp.le⟩

theorem case_qcd_propagator : ∃ (z : ℂ) (e : ℝ), ‖z - 1‖ ≤ 20 * ulp ∧
    NearC (CFl.qcd.dressing_landau (ofR (2 : ℕ) / ofR (3 : ℕ)) ⟨num ((1 : ℝ) : EReal), num ((0 : ℝ) : EReal)⟩ (num ((1 : ℝ) : EReal)) (ofR (10 ^ 6)))
      (1 / (gluon.f 1 + ((10 ^ 6 : ℝ) : ℂ) + gluon.f_q z * (((2 : ℕ) / (3 : ℕ) : ℝ) : ℂ))) e ∧
    NearC (CFl.qcd.propagator_landau (ofR (2 : ℕ) / ofR (3 : ℕ)) ⟨num ((1 : ℝ) : EReal), num ((0 : ℝ) : EReal)⟩ (num ((1 : ℝ) : EReal)) (ofR (10 ^ 6)))
      (1 / ((gluon.f 1 + ((10 ^ 6 : ℝ) : ℂ) + gluon.f_q z * (((2 : ℕ) / (3 : ℕ) : ℝ) : ℂ)) * 1)) (2 * e) := by
  have hb : Binary64 (10 ^ 6) := ⟨10 ^ 6, 0, by norm_num, by norm_num, by norm_num, by norm_num⟩
  have a6 : |(10 ^ 6 : ℝ)| = 10 ^ 6 := abs_of_pos (by positivity)
  obtain ⟨z, hz, p, -⟩ := C127_global_accuracy (c := 10 ^ 6) (xi := 1) (μ := 1) (mq := num ((1 : ℝ) : EReal)) (nf := 2) (nc := 3) case_one hb a6.le b_one (by norm_num) rfl
    (by norm_num) (by norm_num) (by norm_num) (by norm_num) (by norm_num) (by norm_num) (by norm_num) (by norm_num)
  rw [Complex.ofReal_one, one_pow, div_one, norm_one, mul_one] at hz
  have hu := uu_small
  have hu0 := uu_pos
  obtain ⟨s1, s2, s3⟩ := case_quark (z := z) (hz.trans (by show 20 * uu ≤ 1 / 10; linarith))
  obtain ⟨-, g2, -, -⟩ := case_scales
  obtain ⟨k2, -, t2⟩ := case_one.gluon_track
  have b2 := t2.bound
  have q2 := t2.pos
  rw [gluon_scaleC_eq case_one.pos] at b2 q2
  rw [a6] at p
  obtain ⟨-, p2⟩ := p
  have ej : ym.gluon.dressing_inv_landau (1 : ℂ) (10 ^ 6) = gluon.f (1 : ℂ) + ((10 ^ 6 : ℝ) : ℂ) := rfl
  rw [ej] at p2
  generalize hj : gluon.f (1 : ℂ) + ((10 ^ 6 : ℝ) : ℂ) + gluon.f_q z * (((2 : ℕ) / (3 : ℕ) : ℝ) : ℂ) = j at *
  have hd : ‖j - ((10 ^ 6 : ℝ) : ℂ)‖ ≤ 200 := by
    rw [← hj, show gluon.f (1 : ℂ) + ((10 ^ 6 : ℝ) : ℂ) + gluon.f_q z * (((2 : ℕ) / (3 : ℕ) : ℝ) : ℂ) - ((10 ^ 6 : ℝ) : ℂ) =
      gluon.f (1 : ℂ) + gluon.f_q z * (((2 : ℕ) / (3 : ℕ) : ℝ) : ℂ) by ring]
    refine (norm_add_le _ _).trans ?_
    rw [norm_mul, Complex.norm_real, Real.norm_eq_abs, abs_of_nonneg (by positivity)]
    norm_num
    linarith
  have e6 : ‖((10 ^ 6 : ℝ) : ℂ)‖ = 10 ^ 6 := by rw [Complex.norm_real, Real.norm_eq_abs, a6]
  have h1 := norm_sub_norm_le ((10 ^ 6 : ℝ) : ℂ) j
  have h2 := norm_sub_norm_le j ((10 ^ 6 : ℝ) : ℂ)
  rw [e6, norm_sub_rev] at h1
  rw [e6] at h2
  generalize hS : gluonScaleC 1 + (10 ^ 6 + 1) + quarkScaleC z * (((2 : ℕ) : ℝ) / ((3 : ℕ) : ℝ)) = S at *
  have S0 : 0 ≤ S := by rw [← hS]; positivity
  have S1 : S ≤ 10 ^ 6 + 200 := by rw [← hS]; norm_num; linarith
  have k1 : 7825 * uu * S ≤ 7825 * (1 / 10 ^ 15) * (10 ^ 6 + 200) := by gcongr
  generalize ‖j - ((10 ^ 6 : ℝ) : ℂ)‖ = d at *
  have j1 : 10 ^ 6 - 200 ≤ ‖j‖ := by linarith
  have j2 : ‖j‖ ≤ 10 ^ 6 + 200 := by linarith
  have j0 : 0 < ‖j‖ := by norm_num at j1; linarith
  obtain ⟨r1, r2⟩ := p2 (by change 2 * (7825 * uu * S) ≤ _; norm_num at k1 j1; linarith) (by norm_num at j1 ⊢; linarith) (by norm_num at j2 ⊢; linarith)
  refine ⟨z, _, hz, by rw [hj]; exact r1, ?_⟩
  rw [hj]
  obtain ⟨v, v1, v2, v3⟩ := r2
  refine ⟨v, v1, v2, v3.trans ?_⟩
  rw [norm_one, div_one]
  change 410 * uu / ‖j‖ + 2 * (7825 * uu * S) / ‖j‖ ^ 2 ≤ 2 * (132 * uu / ‖j‖ + 2 * (7825 * uu * S) / ‖j‖ ^ 2)
  have : 146 * uu / ‖j‖ ≤ 2 * (7825 * uu * S) / ‖j‖ ^ 2 := by
    rw [div_le_div_iff₀ j0 (by positivity)]
    have hS2 : ‖j‖ ≤ 2 * S := by rw [← hS]; norm_num at *; linarith
    nlinarith [mul_nonneg hu0.le j0.le, mul_nonneg (mul_nonneg hu0.le j0.le) (sub_nonneg.2 hS2), mul_nonneg (mul_nonneg hu0.le j0.le) S0]
  have e1 : 410 * uu / ‖j‖ = 264 * uu / ‖j‖ + 146 * uu / ‖j‖ := by ring
  have e2 : 2 * (132 * uu / ‖j‖ + 2 * (7825 * uu * S) / ‖j‖ ^ 2) = 264 * uu / ‖j‖ + 2 * (7825 * uu * S) / ‖j‖ ^ 2 + 2 * (7825 * uu * S) / ‖j‖ ^ 2 := by ring
  rw [e1, e2]
  linarith

end Qcd
