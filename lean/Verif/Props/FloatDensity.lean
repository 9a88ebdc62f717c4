import Verif.Lemmas.FloatDensity

/-! # C119: charge density and chemical potential at zero temperature in the arithmetic of f64 -/

namespace Qcd
open Fl Spec

variable {m mu n : Fl binary64} {y x : ℝ} {nc : ℕ}

theorem le_abs_iff (hm : Is m y) (hmu : Is mu x) : F.le (absF mu) (absF m) = true ↔ |x| ≤ |y| := by
  have h (t : ℝ) : (if (t : EReal) < 0 then -(t : EReal) else (t : EReal)) = ((|t| : ℝ) : EReal) := by
    by_cases h0 : t < 0
    · rw [if_pos (by exact_mod_cast h0), abs_of_neg h0]; rfl
    · rw [if_neg (by exact_mod_cast h0), abs_of_nonneg (not_lt.1 h0)]
  have h1 := value_absF hmu
  have h2 := value_absF hm
  rw [h] at h1 h2
  simp [F.le, h1, h2]

/-- C119. The density is zero at chemical potentials up to the mass. -/
theorem C119_threshold (nc : ℕ) (hm : Is m y) (hmu : Is mu x) (h : |x| ≤ |y|) : Is (F.charge_density_zero_temp nc m mu) 0 := by
  unfold F.charge_density_zero_temp
  rw [if_pos ((le_abs_iff hm hmu).2 h)]
  exact is_zero

theorem lt_of_above (hm : Is m y) (hmu : Is mu x) (h : |y| < |x|) : Is (if Fl.lt m mu then ofR 1 else ofR (-1) : Fl binary64) (SignType.sign x) := by
  have hl : Fl.lt m mu = true ↔ y < x := by
    rw [lt_iff]
    simp [show m.value = some (y : EReal) from hm, show mu.value = some (x : EReal) from hmu]
  rcases lt_or_ge x 0 with h0 | h0
  · have : ¬ y < x := by
      rw [abs_of_neg h0] at h
      have := (abs_lt.1 h).1
      linarith
    rw [if_neg (by rwa [hl]), sign_neg h0]
    simpa using is_neg_one
  · rw [abs_of_nonneg h0] at h
    have h1 := (abs_lt.1 h).2
    have hp : 0 < x := lt_of_le_of_ne h0 (fun hc => by rw [← hc] at h; exact absurd h (not_lt.2 (abs_nonneg y)))
    rw [if_pos (by rwa [hl]), sign_pos hp]
    simpa using is_one

theorem above_ne (h : |y| < |x|) : x ≠ 0 := fun hc => by rw [hc, abs_zero] at h; exact absurd h (not_lt.2 (abs_nonneg y))

theorem abs_sign_one (h : x ≠ 0) : |((SignType.sign x : SignType) : ℝ)| = 1 := by
  rcases lt_or_gt_of_ne h with h | h
  · rw [sign_neg h]; simp
  · rw [sign_pos h]; simp

/-- C119. Accuracy of the density: `2 * 10^-14` times the loss of digits of the difference `mu^2 - m^2`. -/
theorem C119_density (hm : Is m y) (hmu : Is mu x) (h : |y| < |x|) (hx : Middle x) (hL : thresholdLoss y x ≤ 10 ^ 12) (h0 : 0 < nc) (h1 : nc ≤ 10 ^ 6) :
    ∃ v, Is (F.charge_density_zero_temp nc m mu) v ∧ |v - fermiDensity nc y x| ≤ 2 / 10 ^ 14 * thresholdLoss y x * |fermiDensity nc y x| := by
  have hne := above_ne h
  have hf := rel_fermi_momentum hm hmu h hx hL
  have hs := Rel.exact (lt_of_above hm hmu h)
  have hn := rel_nc h0 h1
  have h0' : (1 : ℝ) ≤ nc := by exact_mod_cast h0
  have h1' : (nc : ℝ) ≤ 10 ^ 6 := by exact_mod_cast h1
  unfold F.charge_density_zero_temp
  rw [if_neg (by rw [le_abs_iff hm hmu]; exact not_le.2 h)]
  have hab := abs_sign_one hne
  have hL1 : 1 ≤ thresholdLoss y x := by
    have hy2 : y ^ 2 < x ^ 2 := sq_lt_sq.2 h
    rw [thresholdLoss, le_div_iff₀ (by linarith)]
    nlinarith [sq_nonneg y]
  have hΔl : 1 / 10 ^ 66 ≤ Real.sqrt (x ^ 2 - y ^ 2) := by
    have hx2l : 1 / 10 ^ 120 ≤ x ^ 2 := by
      rw [← sq_abs, show (1 : ℝ) / 10 ^ 120 = (1 / 10 ^ 60) ^ 2 by norm_num]; gcongr; exact hx.1
    have hΔp : 0 < x ^ 2 - y ^ 2 := by have := sq_lt_sq.2 h; linarith
    have h2 : x ^ 2 ≤ 10 ^ 12 * (x ^ 2 - y ^ 2) := by
      have := (div_le_iff₀ hΔp).1 hL
      exact this
    rw [show (1 : ℝ) / 10 ^ 66 = Real.sqrt (1 / 10 ^ 132) by
      rw [show (1 : ℝ) / 10 ^ 132 = (1 / 10 ^ 66) ^ 2 by norm_num, Real.sqrt_sq (by positivity)]]
    refine Real.sqrt_le_sqrt ?_
    rw [show (1 : ℝ) / 10 ^ 120 = 10 ^ 12 * (1 / 10 ^ 132) by norm_num] at hx2l
    exact le_of_mul_le_mul_left (hx2l.trans h2) (by positivity)
  have hΔh : Real.sqrt (x ^ 2 - y ^ 2) ≤ 10 ^ 60 := by
    rw [show (10 : ℝ) ^ 60 = Real.sqrt ((10 ^ 60) ^ 2) by rw [Real.sqrt_sq (by positivity)]]
    refine Real.sqrt_le_sqrt ?_
    have : x ^ 2 ≤ (10 ^ 60) ^ 2 := by rw [← sq_abs]; gcongr; exact hx.2
    nlinarith [sq_nonneg y]
  unfold fermiDensity
  set s : ℝ := ((SignType.sign x : SignType) : ℝ) with hsd
  set t := Real.sqrt (x ^ 2 - y ^ 2) with ht
  set L := thresholdLoss y x with hLd
  clear_value s t L
  have hts : 0 < t := lt_of_lt_of_le (by positivity) hΔl
  have hE : 9 / (4 * 10 ^ 15) * L ≤ 1 / 400 := by
    calc 9 / (4 * 10 ^ 15) * L ≤ 9 / (4 * 10 ^ 15) * 10 ^ 12 := by gcongr
      _ ≤ 1 / 400 := by norm_num
  have hE0 : 9 / (4 * 10 ^ 15) ≤ 9 / (4 * 10 ^ 15) * L := by
    have : (0 : ℝ) < 9 / (4 * 10 ^ 15) := by positivity
    nlinarith
  have hLE : 2 / 10 ^ 14 * L = 80 / 9 * (9 / (4 * 10 ^ 15) * L) := by ring
  rw [hLE]
  set E := 9 / (4 * 10 ^ 15) * L with hEd
  clear_value E
  have hEp : 0 < E := lt_of_lt_of_le (by positivity) hE0
  have hη : (1 : ℝ) / 10 ^ 15 ≤ 4 / 9 * E := by
    have : (1 : ℝ) / 10 ^ 15 = 4 / 9 * (9 / (4 * 10 ^ 15)) := by norm_num
    rw [this]; gcongr
  -- square and cube
  have hc2l : (1 / 10 ^ 66) ^ 2 ≤ t * t := by rw [← pow_two]; gcongr
  have hc2h : t * t ≤ (10 ^ 60) ^ 2 := by rw [← pow_two]; gcongr
  have hc3l : (1 / 10 ^ 66) ^ 3 ≤ t * t * t := by rw [← pow_two, ← pow_succ]; gcongr
  have hc3h : t * t * t ≤ (10 ^ 60) ^ 3 := by rw [← pow_two, ← pow_succ]; gcongr
  have g2 := (hf.mulSharp hf (by
    rw [abs_of_pos (by positivity)]
    exact mid_range (by norm_num : 132 ≤ 250) (le_trans (by norm_num) hc2l) (hc2h.trans (by norm_num))) hEp.le hEp.le (by nlinarith)).mono
    (show E + E + E * E + 1 / 10 ^ 15 ≤ 249 / 100 * E by nlinarith)
  have g3 := (g2.mulSharp hf (by
    rw [abs_of_pos (by positivity)]
    exact mid_range (by norm_num : 198 ≤ 250) (le_trans (by norm_num) hc3l) (hc3h.trans (by norm_num))) (by positivity) hEp.le (by nlinarith)).mono
    (show 249 / 100 * E + E + 249 / 100 * E * E + 1 / 10 ^ 15 ≤ 396 / 100 * E by nlinarith)
  have g4 := (hn.mulSharp hs (by
    rw [abs_mul, hab, mul_one, abs_of_pos (by linarith)]
    exact mid_range (by norm_num : 6 ≤ 250) (le_trans (by norm_num) h0') h1') (by norm_num) le_rfl (by norm_num)).mono
    (show 1 / 10 ^ 15 + 0 + 1 / 10 ^ 15 * 0 + 1 / 10 ^ 15 ≤ 8 / 9 * E by linarith)
  have hpl : (1 / 10 ^ 66) ^ 3 ≤ |nc * s * (t * t * t)| := by
    rw [abs_mul, abs_mul, hab, abs_of_pos (by linarith : (0 : ℝ) < nc), abs_of_pos (by positivity)]
    nlinarith
  have hph : |nc * s * (t * t * t)| ≤ 10 ^ 6 * (10 ^ 60) ^ 3 := by
    rw [abs_mul, abs_mul, hab, mul_one, abs_of_pos (by linarith : (0 : ℝ) < nc), abs_of_pos (by positivity)]
    gcongr
  have g5 := (g4.mulSharp g3 (mid_range (by norm_num : 198 ≤ 250) (le_trans (by norm_num) hpl) (hph.trans (by norm_num))) (by positivity) (by positivity)
    (by nlinarith)).mono
    (show 8 / 9 * E + 396 / 100 * E + 8 / 9 * E * (396 / 100 * E) + 1 / 10 ^ 15 ≤ 532 / 100 * E by nlinarith)
  obtain ⟨p1, p2⟩ := pi_sq_bounds
  have hq : (0 : ℝ) < 3 * Real.pi ^ 2 := by positivity
  have hdl : 1 / 10 ^ 200 ≤ |nc * s * (t * t * t) / (3 * Real.pi ^ 2)| := by
    rw [abs_div, abs_of_pos hq, le_div_iff₀ hq]
    refine le_trans ?_ hpl
    calc (1 : ℝ) / 10 ^ 200 * (3 * Real.pi ^ 2) ≤ 1 / 10 ^ 200 * (3 * 16) := by gcongr
      _ ≤ _ := by norm_num
  have hdh : |nc * s * (t * t * t) / (3 * Real.pi ^ 2)| ≤ 10 ^ 200 := by
    rw [abs_div, abs_of_pos hq, div_le_iff₀ hq]
    refine hph.trans ?_
    calc (10 : ℝ) ^ 6 * (10 ^ 60) ^ 3 ≤ 10 ^ 200 * (3 * 4) := by norm_num
      _ ≤ _ := by gcongr
  have g6 := g5.divSharp rel_3pi2 (mid_range (by norm_num : 200 ≤ 250) hdl hdh) hq.ne' (by positivity) (by norm_num) (by norm_num) (by linarith)
  have e3 : t ^ 3 = t * t * t := by ring
  rw [e3]
  refine g6.mono ?_
  have h5 : (5 : ℝ) / 10 ^ 15 ≤ 20 / 9 * E := by
    have : (5 : ℝ) / 10 ^ 15 = 5 * (1 / 10 ^ 15) := by norm_num
    linarith
  have hd : (532 / 100 * E + 5 / 10 ^ 15) / (1 - 5 / 10 ^ 15) ≤ 80 / 10 * E := by
    rw [div_le_iff₀ (by norm_num)]
    nlinarith
  linarith

theorem ofR_neg_one : (ofR (-1) : Fl binary64) = neg (ofR 1) := by
  have := round_neg (decide ((1 : ℝ) < 0)) 1
  rw [show (ofR (-1) : Fl binary64) = round binary64 (decide ((-1 : ℝ) < 0)) (-1) by simp [ofR, NumOps.ofR],
    show (ofR 1 : Fl binary64) = round binary64 (decide ((1 : ℝ) < 0)) 1 by simp [ofR, NumOps.ofR], ← this]
  congr 1
  norm_num

theorem mul_nan' (a : Fl binary64) : a * (nan : Fl binary64) = nan := by
  change mul a nan = nan
  simp [mul]

theorem nan_div' (a : Fl binary64) : (nan : Fl binary64) / a = nan := by
  change div nan a = nan
  simp [div]

theorem eneg_lt {a b : EReal} : -a < b ↔ -b < a := by rw [← EReal.neg_lt_neg_iff, neg_neg]

/-- Above the threshold the comparison with the mass gives the sign. -/
theorem lt_neg_of_above {a b : EReal} (hm : m.value = some b) (hmu : mu.value = some a) (h : ¬ F.le (absF mu) (absF m) = true) :
    Fl.lt m (neg mu) = !Fl.lt m mu := by
  have h1 := value_absF hmu
  have h2 := value_absF hm
  have hle : ¬ (if a < 0 then -a else a) ≤ (if b < 0 then -b else b) := by
    intro hc
    apply h
    simp only [F.le, decide_eq_true_eq]
    exact ⟨_, _, h1, h2, hc⟩
  have e1 : Fl.lt m mu = true ↔ b < a := by rw [lt_iff]; simp [hm, hmu]
  have e2 : Fl.lt m (neg mu) = true ↔ b < -a := by rw [lt_iff]; simp [hm, value_neg hmu]
  rw [not_le] at hle
  by_cases ha : a < 0
  · rw [if_pos ha] at hle
    have hb : b < -a := by
      split_ifs at hle with hb
      · exact hb.trans (by rwa [← EReal.neg_lt_neg_iff, neg_neg, neg_zero])
      · exact hle
    have hb' : ¬ b < a := by
      intro hc
      have hb0 := hc.trans ha
      rw [if_pos hb0, EReal.neg_lt_neg_iff] at hle
      exact absurd hc (not_lt.2 hle.le)
    rw [← e2] at hb
    rw [← e1] at hb'
    simp [hb, hb']
  · rw [if_neg ha] at hle
    rw [not_lt] at ha
    have hb : b < a := by
      split_ifs at hle with hb
      · exact lt_of_lt_of_le hb ha
      · exact hle
    have hb' : ¬ b < -a := by
      intro hc
      have hb0 : b < 0 := lt_of_lt_of_le hc (by rwa [← EReal.neg_le_neg_iff, neg_neg, neg_zero])
      rw [if_pos hb0] at hle
      have := eneg_lt.1 hle
      exact absurd hc (not_lt.2 this.le)
    rw [← e1] at hb
    rw [← e2] at hb'
    simp [hb, hb']

/-- C119. The density is odd in the chemical potential. -/
theorem C119_odd (nc : ℕ) (m mu : Fl binary64) :
    (F.charge_density_zero_temp nc m (-mu)).value = (-(F.charge_density_zero_temp nc m mu)).value := by
  have hfm : F.fermi_momentum m (-mu) = F.fermi_momentum m mu := by
    unfold F.fermi_momentum
    rw [show (-mu : Fl binary64) = neg mu from rfl, mulAdd_neg_neg]
  unfold F.charge_density_zero_temp
  simp only [hfm]
  rw [show (-mu : Fl binary64) = neg mu from rfl, neg_absF]
  by_cases hle : F.le (absF mu) (absF m) = true
  · rw [if_pos hle, if_pos hle]
    have := value_neg (show (ofR 0 : Fl binary64).value = some ((0 : ℝ) : EReal) from is_zero)
    rw [show (-(ofR 0) : Fl binary64) = neg (ofR 0) from rfl, this, show (ofR 0 : Fl binary64).value = some ((0 : ℝ) : EReal) from is_zero]
    simp
  · rw [if_neg hle, if_neg hle]
    by_cases hn : m.value = none ∨ mu.value = none
    · have hnan : F.fermi_momentum m mu = nan := by
        unfold F.fermi_momentum
        rcases hn with hn | hn
        · have : m * m = nan := by change mul m m = nan; simp [mul, hn]
          rw [this]
          change Fl.sqrt (mulAdd mu mu (neg nan)) = nan
          simp [mulAdd, neg, Fl.sqrt]
        · change Fl.sqrt (mulAdd mu mu _) = nan
          simp [mulAdd, hn, Fl.sqrt]
      rw [hnan, mul_nan', mul_nan', mul_nan', nan_div']
      rfl
    · rw [not_or] at hn
      obtain ⟨b, hb⟩ := Option.ne_none_iff_exists'.1 hn.1
      obtain ⟨a, ha⟩ := Option.ne_none_iff_exists'.1 hn.2
      rw [lt_neg_of_above hb ha hle]
      have key (s : Bool) : (if (!s) = true then ofR 1 else ofR (-1) : Fl binary64) = neg (if s = true then ofR 1 else ofR (-1)) := by
        cases s
        · simp [ofR_neg_one, neg_neg']
        · simp [ofR_neg_one]
      rw [key, mul_neg', neg_mul', neg_div']
      rfl

/-! ## The chemical potential -/

theorem log_ten : Real.log 10 ≤ 28 / 10 := by
  have h1 : Real.log 10 ≤ Real.log (2 ^ 4) := Real.log_le_log (by norm_num) (by norm_num)
  rw [Real.log_pow] at h1
  have := Real.log_two_lt_d9
  norm_num at h1 ⊢
  linarith

theorem abs_log_le (hl : 1 / 10 ^ 66 ≤ x) (hh : x ≤ 10 ^ 66) : |Real.log x| ≤ 185 := by
  have hx : 0 < x := lt_of_lt_of_le (by positivity) hl
  have h1 := Real.log_le_log (by positivity) hl
  have h2 := Real.log_le_log hx hh
  rw [one_div, Real.log_inv, Real.log_pow] at h1
  rw [Real.log_pow] at h2
  have := log_ten
  push_cast at h1 h2
  rw [abs_le]
  constructor <;> linarith

/-- The power with exponent 2/3 of a number with a relative error. -/
theorem rel_pow {pow : Fl binary64 → Fl binary64 → Fl binary64} (hp : PowAccurate pow) {a : Fl binary64} (ha : Rel a x (9 / 10 ^ 15))
    (hl : 1 / 10 ^ 66 ≤ x) (hh : x ≤ 10 ^ 66) : Rel (pow a (ofR 2 / ofR 3)) (x ^ ((2 : ℝ) / 3)) (135 / 10 ^ 15) := by
  have hx : 0 < x := lt_of_lt_of_le (by positivity) hl
  have hq := (Rel.exact is_two).divSharp (Rel.exact is_three) (mid_range (by norm_num : 1 ≤ 250) (by norm_num) (by norm_num)) (by norm_num) le_rfl le_rfl
    (by norm_num) (by norm_num)
  norm_num at hq
  obtain ⟨v, hv, hv1⟩ := ha
  obtain ⟨q, hq, hq1⟩ := hq
  rw [abs_of_pos hx] at hv1
  have hv2 := abs_le.1 hv1
  have hq2 := abs_le.1 hq1
  norm_num at hq2 hv2
  have hvp : 0 < v := by linarith
  have hvl : 1 / 10 ^ 100 ≤ v := by
    have : (1 : ℝ) / 10 ^ 100 ≤ 1 / 2 * (1 / 10 ^ 66) := by norm_num
    linarith
  have hvh : v ≤ 10 ^ 100 := by
    have : 2 * (10 : ℝ) ^ 66 ≤ 10 ^ 100 := by norm_num
    linarith
  obtain ⟨w, hw, hw1⟩ := hp a _ v q hv hq hvl hvh (by linarith) (by linarith)
  refine ⟨w, hw, ?_⟩
  have hlx := abs_log_le hl hh
  -- the logarithm of the ratio
  have hr : 0 < v / x := by positivity
  have hr1 : |v / x - 1| ≤ 9 / 10 ^ 15 := by
    rw [show v / x - 1 = (v - x) / x by field_simp, abs_div, abs_of_pos hx, div_le_iff₀ hx]
    exact hv1
  have hr2 := abs_le.1 hr1
  have hlr : |Real.log (v / x)| ≤ 10 / 10 ^ 15 := by
    rw [abs_le]
    constructor
    · refine le_trans ?_ (Real.one_sub_inv_le_log_of_pos hr)
      have : (v / x)⁻¹ ≤ 1 + 10 / 10 ^ 15 := by
        rw [inv_le_comm₀ hr (by norm_num)]
        refine le_trans ?_ (show 1 - 9 / 10 ^ 15 ≤ v / x by linarith)
        rw [inv_le_comm₀ (by norm_num) (by norm_num)]
        norm_num
      linarith
    · have : (9 : ℝ) / 10 ^ 15 ≤ 10 / 10 ^ 15 := by norm_num
      linarith [Real.log_le_sub_one_of_pos hr]
  have hlv : Real.log v = Real.log x + Real.log (v / x) := by rw [Real.log_div hvp.ne' hx.ne']; ring
  set d := q * Real.log v - 2 / 3 * Real.log x with hd
  have hdd : |d| ≤ 133 / 10 ^ 15 := by
    have e : d = (q - 2 / 3) * Real.log x + q * Real.log (v / x) := by rw [hd, hlv]; ring
    rw [e]
    refine (abs_add_le _ _).trans ?_
    rw [abs_mul, abs_mul]
    have hqa : |q - 2 / 3| ≤ 667 / 10 ^ 18 := hq1.trans (by norm_num)
    have hqb : |q| ≤ 7 / 10 := abs_le.2 ⟨by linarith, by linarith⟩
    have t1 : |q - 2 / 3| * |Real.log x| ≤ 667 / 10 ^ 18 * 185 := by gcongr
    have t2 : |q| * |Real.log (v / x)| ≤ 7 / 10 * (10 / 10 ^ 15) := by gcongr
    refine (add_le_add t1 t2).trans (by norm_num)
  have hvq : v ^ q = x ^ ((2 : ℝ) / 3) * Real.exp d := by
    rw [Real.rpow_def_of_pos hvp, Real.rpow_def_of_pos hx, ← Real.exp_add]
    congr 1
    rw [hd]; ring
  have hA : 0 < x ^ ((2 : ℝ) / 3) := Real.rpow_pos_of_pos hx _
  set A := x ^ ((2 : ℝ) / 3) with hAd
  have hex : |Real.exp d - 1| ≤ 134 / 10 ^ 15 := by
    have h1 := Real.abs_exp_sub_one_sub_id_le (x := d) (hdd.trans (by norm_num))
    have h2 : d ^ 2 ≤ (133 / 10 ^ 15) ^ 2 := by rw [← sq_abs]; gcongr
    have h3 : |Real.exp d - 1| ≤ |Real.exp d - 1 - d| + |d| := by
      have := abs_add_le (Real.exp d - 1 - d) d
      rwa [sub_add_cancel] at this
    have : ((133 : ℝ) / 10 ^ 15) ^ 2 ≤ 1 / 10 ^ 15 := by norm_num
    have : (134 : ℝ) / 10 ^ 15 = 133 / 10 ^ 15 + 1 / 10 ^ 15 := by norm_num
    linarith
  have hex2 := (abs_le.1 hex).2
  rw [abs_of_pos hA]
  have h1 : |v ^ q - A| ≤ 134 / 10 ^ 15 * A := by
    rw [hvq, show A * Real.exp d - A = (Real.exp d - 1) * A by ring, abs_mul, abs_of_pos hA]
    gcongr
  have h2 : |w - A| ≤ |w - v ^ q| + |v ^ q - A| := by
    have := abs_add_le (w - v ^ q) (v ^ q - A)
    rwa [sub_add_sub_cancel] at this
  have h3 : v ^ q ≤ 2 * A := by rw [hvq]; nlinarith
  have h4 : (1 : ℝ) / 2 ^ 52 * (2 * A) ≤ 1 / 10 ^ 15 * A := by
    rw [← mul_assoc]; gcongr; norm_num
  have h5 : (135 : ℝ) / 10 ^ 15 * A = 134 / 10 ^ 15 * A + 1 / 10 ^ 15 * A := by ring
  have h6 : (1 : ℝ) / 2 ^ 52 * v ^ q ≤ 1 / 2 ^ 52 * (2 * A) := by gcongr
  linarith

theorem rpow_range (hl : 1 / 10 ^ 66 ≤ x) (hh : x ≤ 10 ^ 66) : 1 / 10 ^ 66 ≤ x ^ ((2 : ℝ) / 3) ∧ x ^ ((2 : ℝ) / 3) ≤ 10 ^ 66 := by
  have hx : 0 < x := lt_of_lt_of_le (by positivity) hl
  rcases le_total x 1 with h | h
  · have h1 := Real.rpow_le_rpow_of_exponent_ge hx h (show (2 : ℝ) / 3 ≤ 1 by norm_num)
    rw [Real.rpow_one] at h1
    have h2 := Real.rpow_le_one hx.le h (show (0 : ℝ) ≤ 2 / 3 by norm_num)
    exact ⟨hl.trans h1, h2.trans (by norm_num)⟩
  · have h1 := Real.rpow_le_rpow_of_exponent_le h (show (2 : ℝ) / 3 ≤ 1 by norm_num)
    rw [Real.rpow_one] at h1
    have h2 := Real.one_le_rpow h (show (0 : ℝ) ≤ 2 / 3 by norm_num)
    exact ⟨le_trans (by norm_num) h2, h1.trans hh⟩

theorem base_range (hx : Middle x) (h0 : 0 < nc) (h1 : nc ≤ 10 ^ 6) : 1 / 10 ^ 66 ≤ 3 * Real.pi ^ 2 * |x| / nc ∧ 3 * Real.pi ^ 2 * |x| / nc ≤ 10 ^ 66 := by
  have h0' : (1 : ℝ) ≤ nc := by exact_mod_cast h0
  have h1' : (nc : ℝ) ≤ 10 ^ 6 := by exact_mod_cast h1
  have hn : (0 : ℝ) < nc := by linarith
  obtain ⟨p1, p2⟩ := pi_sq_bounds
  rw [le_div_iff₀ hn, div_le_iff₀ hn]
  constructor
  · calc (1 : ℝ) / 10 ^ 66 * nc ≤ 1 / 10 ^ 66 * 10 ^ 6 := by gcongr
      _ ≤ 3 * 4 * (1 / 10 ^ 60) := by norm_num
      _ ≤ 3 * Real.pi ^ 2 * |x| := by gcongr; exact hx.1
  · calc 3 * Real.pi ^ 2 * |x| ≤ 3 * 16 * 10 ^ 60 := by gcongr; exact hx.2
      _ ≤ 10 ^ 66 * 1 := by norm_num
      _ ≤ 10 ^ 66 * nc := by gcongr

theorem rel_absF (h : Is n x) : Rel (absF n) |x| 0 := by
  refine Rel.exact ?_
  have h1 := value_absF h
  by_cases h0 : x < 0
  · rw [if_pos (by exact_mod_cast h0)] at h1
    rw [abs_of_neg h0]
    exact h1
  · rw [if_neg (by exact_mod_cast h0)] at h1
    rw [abs_of_nonneg (not_lt.1 h0)]
    exact h1

/-- The argument of the square root. -/
theorem rel_base {pow : Fl binary64 → Fl binary64 → Fl binary64} (hp : PowAccurate pow) (hn : Is n x) (hx : Middle x) (h0 : 0 < nc) (h1 : nc ≤ 10 ^ 6) :
    Rel (pow (ofR 3 * F.PI2 * absF n / ofR (nc : ℝ)) (ofR 2 / ofR 3)) ((3 * Real.pi ^ 2 * |x| / nc) ^ ((2 : ℝ) / 3)) (135 / 10 ^ 15) := by
  have h0' : (1 : ℝ) ≤ nc := by exact_mod_cast h0
  obtain ⟨p1, p2⟩ := pi_sq_bounds
  obtain ⟨b1, b2⟩ := base_range hx h0 h1
  have hxp : 0 < |x| := lt_of_lt_of_le (by positivity) hx.1
  have g1 := (rel_3pi2.mulSharp (rel_absF hn) (by
    rw [abs_of_pos (by positivity)]
    refine mid_range (by norm_num : 66 ≤ 250) ?_ ?_
    · calc (1 : ℝ) / 10 ^ 66 ≤ 3 * 4 * (1 / 10 ^ 60) := by norm_num
        _ ≤ 3 * Real.pi ^ 2 * |x| := by gcongr; exact hx.1
    · calc 3 * Real.pi ^ 2 * |x| ≤ 3 * 16 * 10 ^ 60 := by gcongr; exact hx.2
        _ ≤ 10 ^ 66 := by norm_num) (by norm_num) le_rfl (by norm_num)).mono (show 5 / 10 ^ 15 + 0 + 5 / 10 ^ 15 * 0 + 1 / 10 ^ 15 ≤ 6 / 10 ^ 15 by norm_num)
  have hbp : 0 < 3 * Real.pi ^ 2 * |x| / nc := lt_of_lt_of_le (by positivity) b1
  have g2 := (g1.divSharp (rel_nc h0 h1) (by rw [abs_of_pos hbp]; exact mid_range (by norm_num : 66 ≤ 250) b1 b2) (by positivity) (by norm_num) (by norm_num)
    (by norm_num) (by norm_num)).mono (show (6 / 10 ^ 15 + 1 / 10 ^ 15) / (1 - 1 / 10 ^ 15) + 1 / 10 ^ 15 ≤ 9 / 10 ^ 15 by norm_num)
  exact rel_pow hp g2 b1 b2

theorem beq_zero_ne (hn : Is n x) (hx : x ≠ 0) : ¬ Fl.beq n (ofR 0) = true := by
  rw [beq_iff]
  rintro ⟨t, h1, h2⟩
  have e1 := h1.symm.trans hn
  have e2 := h2.symm.trans (show (ofR 0 : Fl binary64).value = some ((0 : ℝ) : EReal) from is_zero)
  rw [Option.some.inj e1] at e2
  exact hx (by exact_mod_cast Option.some.inj e2)

theorem is_sign (hn : Is n x) (hx : x ≠ 0) : Is (if Fl.lt (ofR 0) n then ofR 1 else ofR (-1) : Fl binary64) (SignType.sign x) := by
  have hl : Fl.lt (ofR 0) n = true ↔ 0 < x := by
    rw [lt_iff]
    simp [show n.value = some (x : EReal) from hn, show (ofR 0 : Fl binary64).value = some ((0 : ℝ) : EReal) from is_zero]
  rcases lt_or_gt_of_ne hx with h | h
  · rw [if_neg (by rw [hl]; linarith), sign_neg h]
    simpa using is_neg_one
  · rw [if_pos (by rwa [hl]), sign_pos h]
    simpa using is_one

/-- C119. The chemical potential at zero density. -/
theorem C119_potential_zero (pow : Fl binary64 → Fl binary64 → Fl binary64) (nc : ℕ) (m : Fl binary64) (hn : Is n 0) :
    Is (F.chemical_potential_zero_temp pow nc m n) 0 := by
  unfold F.chemical_potential_zero_temp
  rw [if_pos (beq_iff.2 ⟨_, hn, is_zero⟩)]
  exact is_zero

/-- C119. Accuracy of the chemical potential. -/
theorem C119_potential {pow : Fl binary64 → Fl binary64 → Fl binary64} (hp : PowAccurate pow) (hm : Is m y) (hn : Is n x) (hy : |y| ≤ 10 ^ 60) (hx : Middle x)
    (h0 : 0 < nc) (h1 : nc ≤ 10 ^ 6) :
    ∃ v, Is (F.chemical_potential_zero_temp pow nc m n) v ∧ |v - fermiPotential nc y x| ≤ 14 / 10 ^ 14 * |fermiPotential nc y x| := by
  have hxp : 0 < |x| := lt_of_lt_of_le (by positivity) hx.1
  have hne : x ≠ 0 := abs_pos.1 hxp
  have ha := rel_base (nc := nc) hp hn hx h0 h1
  obtain ⟨b1, b2⟩ := base_range hx h0 h1
  obtain ⟨r1, r2⟩ := rpow_range b1 b2
  have hs := Rel.exact (is_sign hn hne)
  have hab := abs_sign_one hne
  unfold F.chemical_potential_zero_temp fermiPotential
  rw [if_neg (beq_zero_ne hn hne)]
  set A := (3 * Real.pi ^ 2 * |x| / nc) ^ ((2 : ℝ) / 3) with hA
  set s : ℝ := ((SignType.sign x : SignType) : ℝ) with hsd
  clear_value A s
  obtain ⟨w, hw, hw1⟩ := ha
  have hAp : 0 < A := lt_of_lt_of_le (by positivity) r1
  have hy2 : y ^ 2 ≤ 10 ^ 120 := by
    rw [← sq_abs, show (10 : ℝ) ^ 120 = (10 ^ 60) ^ 2 by norm_num]; gcongr
  have hsl : 1 / 10 ^ 66 ≤ y ^ 2 + A := by nlinarith [sq_nonneg y]
  have hsh : y ^ 2 + A ≤ 10 ^ 122 := by
    calc y ^ 2 + A ≤ 10 ^ 120 + 10 ^ 66 := by gcongr
      _ ≤ 10 ^ 122 := by norm_num
  have hsp : 0 < y ^ 2 + A := lt_of_lt_of_le (by positivity) hsl
  have he : |(y * y + w) - (y ^ 2 + A)| ≤ 135 / 10 ^ 15 * |y ^ 2 + A| := by
    rw [show (y * y + w) - (y ^ 2 + A) = w - A by ring, abs_of_pos hsp]
    rw [abs_of_pos hAp] at hw1
    refine hw1.trans ?_
    gcongr
    nlinarith [sq_nonneg y]
  obtain ⟨u, hu, hu1⟩ := Rel.of_round (value_mulAdd hm hm hw) (by rw [abs_of_pos hsp]; exact mid_range (by norm_num : 122 ≤ 250) (le_trans (by norm_num) hsl) hsh)
    (by norm_num) (by norm_num) he
  have hu0 : 0 < u := by
    rw [abs_of_pos hsp] at hu1
    have := (abs_le.1 hu1).1
    norm_num at this
    linarith
  have hsq : IsE (NumOps.sqrt (mulAdd m m (pow (ofR 3 * F.PI2 * absF n / ofR (nc : ℝ)) (ofR 2 / ofR 3)))) (sqrtE binary64 (u : EReal)) := by
    change (Fl.sqrt _).value = _
    generalize hg : mulAdd m m (pow (ofR 3 * F.PI2 * absF n / ofR (nc : ℝ)) (ofR 2 / ofR 3)) = z at hu
    cases z with
    | nan => simp [Is] at hu
    | nz => exact absurd (show ((0 : ℝ) : EReal) = (u : EReal) from Option.some.inj hu) (by exact_mod_cast hu0.ne)
    | num t =>
      rw [show t = (u : EReal) from Option.some.inj hu, sqrt_nonneg_eq (by exact_mod_cast hu0.le)]
      rfl
  have hsl' : 1 / 10 ^ 33 ≤ Real.sqrt (y ^ 2 + A) := by
    rw [show (1 : ℝ) / 10 ^ 33 = Real.sqrt (1 / 10 ^ 66) by
      rw [show (1 : ℝ) / 10 ^ 66 = (1 / 10 ^ 33) ^ 2 by norm_num, Real.sqrt_sq (by positivity)]]
    exact Real.sqrt_le_sqrt hsl
  have hsh' : Real.sqrt (y ^ 2 + A) ≤ 10 ^ 61 := by
    rw [show (10 : ℝ) ^ 61 = Real.sqrt (10 ^ 122) by
      rw [show (10 : ℝ) ^ 122 = (10 ^ 61) ^ 2 by norm_num, Real.sqrt_sq (by positivity)]]
    exact Real.sqrt_le_sqrt hsh
  have hM : Mid |Real.sqrt (y ^ 2 + A)| := by
    rw [abs_of_pos (Real.sqrt_pos.2 hsp)]
    exact mid_range (by norm_num : 61 ≤ 250) (le_trans (by norm_num) hsl') hsh'
  have g := Rel.of_sqrt hsq hsp hu0.le hM (by norm_num) (by norm_num) hu1
  have g2 := hs.mulSharp g (by rw [abs_mul, hab, one_mul]; exact hM) le_rfl (by norm_num) (by norm_num)
  exact g2.mono (by norm_num)

theorem round_one_add {w : ℝ} (h0 : 0 ≤ w) (h1 : w < 1 / 2 ^ 53) : round64 (1 + w) = ((1 : ℝ) : EReal) := by
  have hw1 : w < 1 := h1.trans (by norm_num)
  have he : expo (1 + w) = 0 := expo_eq (by norm_num) (by simp; linarith) (by norm_num; linarith)
  have hf : w * 2 ^ 52 < 1 / 2 := by
    have := mul_lt_mul_of_pos_right h1 (show (0 : ℝ) < 2 ^ 52 by positivity)
    norm_num at this ⊢
    linarith
  have hp : roundPos (1 + w) = 1 := by
    unfold roundPos
    rw [he]
    have e : (1 + w) * (2 : ℝ) ^ ((52 : ℤ) - 0) = ((2 ^ 52 : ℤ) : ℝ) + w * 2 ^ 52 := by
      rw [sub_zero, show (2 : ℝ) ^ (52 : ℤ) = 2 ^ 52 by norm_cast]; push_cast; ring
    have hfl : ⌊w * (2 : ℝ) ^ 52⌋ = 0 := Int.floor_eq_zero_iff.2 ⟨by positivity, by linarith⟩
    have hr : roundEven ((1 + w) * (2 : ℝ) ^ ((52 : ℤ) - 0)) = 2 ^ 52 := by
      unfold roundEven
      rw [e, Int.fract_intCast_add, Int.floor_intCast_add, hfl, add_zero, if_pos]
      rw [Int.fract, hfl]; push_cast; linarith
    rw [hr]
    norm_num
  have h53 : round53 (1 + w) = 1 := by unfold round53; rw [if_neg (by linarith), hp]
  unfold round64
  have := one_lt_overflow
  rw [h53, if_neg (by linarith), if_neg (by linarith)]

/-- C119. A density which is too small compared with the mass is lost: the chemical potential computed for it is the mass, where the density is zero. -/
theorem C119_lost {pow : Fl binary64 → Fl binary64 → Fl binary64} (hp : PowAccurate pow) (hm : Is m 1) (hn : Is n x) (hx : Middle x)
    (h0 : 0 < nc) (h1 : nc ≤ 10 ^ 6) (hs : 3 * Real.pi ^ 2 * |x| / nc ≤ 1 / 2 ^ 81) :
    Is (F.chemical_potential_zero_temp pow nc m n) (SignType.sign x) ∧
      Is (F.charge_density_zero_temp nc m (F.chemical_potential_zero_temp pow nc m n)) 0 := by
  have hxp : 0 < |x| := lt_of_lt_of_le (by positivity) hx.1
  have hne : x ≠ 0 := abs_pos.1 hxp
  have hab := abs_sign_one hne
  suffices h : Is (F.chemical_potential_zero_temp pow nc m n) (SignType.sign x) from
    ⟨h, C119_threshold nc hm h (by rw [hab, abs_one])⟩
  obtain ⟨w, hw, hw1⟩ := rel_base (nc := nc) hp hn hx h0 h1
  obtain ⟨b1, b2⟩ := base_range hx h0 h1
  have hA : (3 * Real.pi ^ 2 * |x| / nc) ^ ((2 : ℝ) / 3) ≤ 1 / 2 ^ 54 := by
    have hb : 0 ≤ 3 * Real.pi ^ 2 * |x| / nc := le_trans (by positivity) b1
    refine (Real.rpow_le_rpow hb hs (by norm_num)).trans (le_of_eq ?_)
    rw [show (1 : ℝ) / 2 ^ 81 = (1 / 2 ^ 27) ^ (3 : ℝ) by rw [show (3 : ℝ) = ((3 : ℕ) : ℝ) by norm_num, Real.rpow_natCast]; norm_num,
      ← Real.rpow_mul (by positivity), show (3 : ℝ) * (2 / 3) = ((2 : ℕ) : ℝ) by norm_num, Real.rpow_natCast]
    norm_num
  have hAp : 0 < (3 * Real.pi ^ 2 * |x| / nc) ^ ((2 : ℝ) / 3) := lt_of_lt_of_le (by positivity) (rpow_range b1 b2).1
  rw [abs_of_pos hAp] at hw1
  have hw2 := abs_le.1 hw1
  norm_num at hw2
  have hwp : 0 ≤ w := by linarith
  have hwl : w < 1 / 2 ^ 53 := by
    have : (1 : ℝ) / 2 ^ 53 = 2 * (1 / 2 ^ 54) := by norm_num
    linarith
  have hma : Is (mulAdd m m (pow (ofR 3 * F.PI2 * absF n / ofR (nc : ℝ)) (ofR 2 / ofR 3))) 1 := by
    have := value_mulAdd hm hm hw
    rw [mul_one] at this
    exact this.trans (congrArg some (round_one_add hwp hwl))
  have hsq : Is (NumOps.sqrt (mulAdd m m (pow (ofR 3 * F.PI2 * absF n / ofR (nc : ℝ)) (ofR 2 / ofR 3)))) 1 := by
    change (Fl.sqrt _).value = _
    generalize hg : mulAdd m m (pow (ofR 3 * F.PI2 * absF n / ofR (nc : ℝ)) (ofR 2 / ofR 3)) = z at hma
    cases z with
    | nan => simp [Is] at hma
    | nz => exact absurd (show ((0 : ℝ) : EReal) = ((1 : ℝ) : EReal) from Option.some.inj hma) (by norm_num)
    | num t =>
      rw [show t = ((1 : ℝ) : EReal) from Option.some.inj hma, sqrt_nonneg_eq (by exact_mod_cast zero_le_one)]
      change some (sqrtE binary64 ((1 : ℝ) : EReal)) = _
      rw [Rel.sqrtE_real, Real.sqrt_one]
      exact congrArg some binary64.one
  unfold F.chemical_potential_zero_temp
  rw [if_neg (beq_zero_ne hn hne)]
  refine (value_mul (is_sign hn hne) hsq).trans (congrArg some ?_)
  rw [mul_one]
  refine binary64_fixed ?_
  rcases lt_or_gt_of_ne hne with h | h
  · rw [sign_neg h]; exact ⟨-1, 0, by norm_num, by norm_num, by norm_num, by norm_num⟩
  · rw [sign_pos h]; exact ⟨1, 0, by norm_num, by norm_num, by norm_num, by norm_num⟩

/-- C119. The chemical potential is odd in the density. -/
theorem C119_potential_odd (pow : Fl binary64 → Fl binary64 → Fl binary64) (nc : ℕ) (m : Fl binary64) {a : EReal} (hn : IsE n a) :
    (F.chemical_potential_zero_temp pow nc m (-n)).value = (-(F.chemical_potential_zero_temp pow nc m n)).value := by
  have hz : (ofR 0 : Fl binary64).value = some ((0 : ℝ) : EReal) := is_zero
  unfold F.chemical_potential_zero_temp
  rw [show (-n : Fl binary64) = neg n from rfl, neg_absF]
  have hb : Fl.beq n (ofR 0) = true ↔ a = 0 := by rw [beq_iff]; simp [show n.value = some a from hn, hz, eq_comm (a := (0 : EReal))]
  have hb' : Fl.beq (neg n) (ofR 0) = true ↔ a = 0 := by rw [beq_iff]; simp [value_neg hn, hz, eq_comm (a := (0 : EReal))]
  by_cases h0 : a = 0
  · rw [if_pos (hb.2 h0), if_pos (hb'.2 h0)]
    rw [show (-(ofR 0) : Fl binary64) = neg (ofR 0) from rfl, value_neg hz, hz]
    simp
  · rw [if_neg (fun hc => h0 (hb'.1 hc)), if_neg (fun hc => h0 (hb.1 hc))]
    have hl : Fl.lt (ofR 0) n = true ↔ 0 < a := by rw [lt_iff]; simp [show n.value = some a from hn, hz]
    have hl' : Fl.lt (ofR 0) (neg n) = true ↔ a < 0 := by
      rw [lt_iff]
      simp only [value_neg hn, hz, Option.some.injEq]
      constructor
      · rintro ⟨u, v, rfl, rfl, h⟩
        rwa [← EReal.neg_lt_neg_iff, neg_neg, EReal.coe_zero, neg_zero] at h
      · intro h
        refine ⟨_, _, rfl, rfl, ?_⟩
        rwa [← EReal.neg_lt_neg_iff, neg_neg, EReal.coe_zero, neg_zero]
    have key : (if Fl.lt (ofR 0) (neg n) = true then ofR 1 else ofR (-1) : Fl binary64) = neg (if Fl.lt (ofR 0) n = true then ofR 1 else ofR (-1)) := by
      rcases lt_or_gt_of_ne h0 with h | h
      · rw [if_pos (hl'.2 h), if_neg (by rw [hl]; exact not_lt.2 h.le), ofR_neg_one, neg_neg']
      · rw [if_neg (by rw [hl']; exact not_lt.2 h.le), if_pos (hl.2 h), ofR_neg_one]
    rw [key, neg_mul']
    rfl

/-! ## The hypotheses can be met -/

/-- A power rounded to nearest. -/
noncomputable def roundedPow (a b : Fl binary64) : Fl binary64 := ofR (a.val.toReal ^ b.val.toReal)

theorem roundedPow_accurate : PowAccurate roundedPow := by
  intro a b x y ha hb hl hh h0 h1
  have hx : 0 < x := lt_of_lt_of_le (by positivity) hl
  have hr : 1 / 10 ^ 100 ≤ x ^ y ∧ x ^ y ≤ 10 ^ 100 := by
    rcases le_total x 1 with h | h
    · have h2 := Real.rpow_le_rpow_of_exponent_ge hx h h1.le
      rw [Real.rpow_one] at h2
      exact ⟨hl.trans h2, (Real.rpow_le_one hx.le h h0.le).trans (by norm_num)⟩
    · have h2 := Real.rpow_le_rpow_of_exponent_le h h1.le
      rw [Real.rpow_one] at h2
      exact ⟨le_trans (by norm_num) (Real.one_le_rpow h h0.le), h2.trans hh⟩
  have hp : 0 < x ^ y := lt_of_lt_of_le (by positivity) hr.1
  obtain ⟨d, hd, hv⟩ := round64_rel (x := x ^ y)
    (by
      rw [abs_of_pos hp]
      refine le_trans ?_ hr.1
      rw [zpow_neg, one_div]
      gcongr
      calc (10 : ℝ) ^ 100 ≤ (2 ^ 4) ^ 100 := by gcongr; norm_num
        _ = 2 ^ (400 : ℤ) := by rw [← pow_mul]; norm_cast
        _ ≤ 2 ^ (1022 : ℤ) := zpow_le_zpow_right₀ (by norm_num) (by norm_num))
    (by
      rw [abs_of_pos hp]
      refine hr.2.trans ?_
      calc (10 : ℝ) ^ 100 ≤ (2 ^ 4) ^ 100 := by gcongr; norm_num
        _ = 2 ^ (400 : ℤ) := by rw [← pow_mul]; norm_cast
        _ ≤ 2 ^ (1023 : ℤ) := zpow_le_zpow_right₀ (by norm_num) (by norm_num))
  refine ⟨x ^ y * (1 + d), ?_, ?_⟩
  · unfold roundedPow
    rw [val_of ha, val_of hb, EReal.toReal_coe, EReal.toReal_coe]
    exact (value_round _ _).trans (congrArg some hv)
  · rw [show x ^ y * (1 + d) - x ^ y = d * x ^ y by ring, abs_mul, abs_of_pos hp]
    gcongr
    refine hd.trans ?_
    norm_num

theorem middle_three : Middle 3 := ⟨by rw [abs_of_pos] <;> norm_num, by rw [abs_of_pos] <;> norm_num⟩

/-- Three colours, mass 1, chemical potential 3: the loss of digits is 9/8. -/
example : ∃ v, Is (F.charge_density_zero_temp 3 (ofR 1 : Fl binary64) (ofR 3)) v ∧
    |v - fermiDensity 3 1 3| ≤ 2 / 10 ^ 14 * thresholdLoss 1 3 * |fermiDensity 3 1 3| :=
  C119_density is_one is_three (by norm_num) middle_three (by norm_num [thresholdLoss]) (by norm_num) (by norm_num)

example : Is (F.charge_density_zero_temp 3 (ofR 3 : Fl binary64) (ofR 1)) 0 := C119_threshold 3 is_three is_one (by norm_num)

example : ∃ v, Is (F.chemical_potential_zero_temp roundedPow 3 (ofR 1 : Fl binary64) (ofR 3)) v ∧
    |v - fermiPotential 3 1 3| ≤ 14 / 10 ^ 14 * |fermiPotential 3 1 3| :=
  C119_potential roundedPow_accurate is_one is_three (by norm_num) middle_three (by norm_num) (by norm_num)

/-- The density `2^-90`. -/
example : Is (F.charge_density_zero_temp 3 (ofR 1 : Fl binary64) (F.chemical_potential_zero_temp roundedPow 3 (ofR 1) (ofR (1 / 2 ^ 90)))) 0 :=
  (C119_lost (x := 1 / 2 ^ 90) roundedPow_accurate is_one (is_ofR ⟨1, -90, by norm_num, by norm_num, by norm_num, by norm_num⟩)
    ⟨by rw [abs_of_pos] <;> norm_num, by rw [abs_of_pos] <;> norm_num⟩ (by norm_num) (by norm_num) (by
      have := pi_sq_bounds.2
      rw [abs_of_pos (by positivity)]
      have : 3 * Real.pi ^ 2 * (1 / 2 ^ 90) / ((3 : ℕ) : ℝ) ≤ 16 * (1 / 2 ^ 90) := by push_cast; linarith
      exact this.trans (by norm_num))).2

end Qcd
