import Verif.Lemmas.FloatThermalDensity
import Verif.Props.ChargeDensity

/-! # C123: charge density at finite temperature in floating-point arithmetic -/

namespace Qcd
open Fl Spec FTD
open qcd.thermal.quark (charge_density_with_method)

variable {m beta mu mu' t q : Fl binary64} {y b x x' s : ℝ} {nc : ℕ}

/-! ## Values of the integrand -/

/-- The computed momentum and the computed weight at a point of the interval. -/
theorem inside_values (h : Inside t) : ∃ z w : ℝ, Is ((ofR 1 - t) / t) z ∧ 0 ≤ z ∧ z ≤ 2 ^ (200 : ℤ) ∧ Is (t * t) w ∧ 2 ^ (-400 : ℤ) ≤ w ∧ w ≤ 1 := by
  obtain ⟨s, ht, h1, h2⟩ := h
  have hs0 : 0 < s := lt_of_lt_of_le (by positivity) h1
  obtain ⟨u, hu, u1, u2⟩ := between b_zero b_one (show 0 ≤ 1 - s by linarith) (by linarith)
  have hu' : Is (ofR 1 - t : Fl binary64) u := by
    have := value_add is_one (show (neg t).value = some ((-s : ℝ) : EReal) from value_neg ht)
    rw [← sub_eq_add_neg] at this
    exact this.trans (congrArg some hu)
  have e1 : (2 : ℝ) ^ (200 : ℤ) * 2 ^ (-200 : ℤ) = 1 := by rw [← zpow_add₀ (by norm_num)]; norm_num
  have e2 : (2 : ℝ) ^ (-400 : ℤ) = 2 ^ (-200 : ℤ) * 2 ^ (-200 : ℤ) := by rw [← zpow_add₀ (by norm_num)]; norm_num
  have hq : u / s ≤ 2 ^ (200 : ℤ) := by
    rw [div_le_iff₀ hs0]
    have : (2 : ℝ) ^ (200 : ℤ) * 2 ^ (-200 : ℤ) ≤ 2 ^ (200 : ℤ) * s := mul_le_mul_of_nonneg_left h1 (by positivity)
    linarith
  obtain ⟨z, hz, z1, z2⟩ := between b_zero (b_pow (n := 200) (by norm_num) (by norm_num)) (by positivity : 0 ≤ u / s) hq
  have hw : 2 ^ (-400 : ℤ) ≤ s * s := by rw [e2]; exact mul_le_mul h1 h1 (by positivity) hs0.le
  obtain ⟨w, hw', w1, w2⟩ := between (b_pow (n := -400) (by norm_num) (by norm_num)) b_one hw (by nlinarith)
  exact ⟨z, w, (Rel.is_div hu' ht hs0.ne').trans (congrArg some hz), z1, z2, (value_mul ht ht).trans (congrArg some hw'), w1, w2⟩

theorem energy_value (hq : Is q s) (hm : Is m y) : ∃ E, (F.energy q m).value = some E := ⟨_, by rw [energy_eq hq hm]; rfl⟩

/-- The computed integrand, with the numbers that do not depend on the chemical potential. -/
theorem integrand_value (hm : Is m y) (hb : Is beta b) (hb0 : 0 < b) (h1 : nc ≤ 10 ^ 6) (ht : Inside t) :
    ∃ (C w P : ℝ) (E : EReal), Binary64 C ∧ 0 ≤ C ∧ C ≤ 2 ^ (420 : ℤ) ∧ 2 ^ (-400 : ℤ) ≤ w ∧ 2 ≤ P ∧
      ∀ (mu : Fl binary64) (x : ℝ), Is mu x → |tail C (diffV E b x) P / w| ≤ 2 ^ (820 : ℤ) ∧ Is (F.charge_density_integrand nc m beta mu t) (rd (tail C (diffV E b x) P / w)) := by
  obtain ⟨z, w, hz, z0, z1, hw, w1, -⟩ := inside_values ht
  obtain ⟨C, hC, c1, c2, c3⟩ := prefactor h1 hz (k := 200) (by norm_num) (by norm_num) (by rwa [abs_of_nonneg z0])
  obtain ⟨P, hP, p1, -⟩ := pi2
  obtain ⟨E, hE⟩ := energy_value hz hm
  refine ⟨C, w, P, E, c1, c2, c3.trans (by norm_num), w1, p1, fun mu x hx => ?_⟩
  have hd := is_density hC c1 c2 hE hb hx hb0 hP p1
  obtain ⟨-, -, hT⟩ := tail_bounds c1 c2 (diffV_abs E b x) p1
  have w0 : 0 < w := lt_of_lt_of_le (by positivity) w1
  have hr : |tail C (diffV E b x) P / w| ≤ 2 ^ (820 : ℤ) := by
    rw [abs_div, abs_of_pos w0, div_le_iff₀ w0]
    have e : (2 : ℝ) ^ (820 : ℤ) * 2 ^ (-400 : ℤ) = 2 ^ (420 : ℤ) := by rw [← zpow_add₀ (by norm_num)]; norm_num
    have : (2 : ℝ) ^ (820 : ℤ) * 2 ^ (-400 : ℤ) ≤ 2 ^ (820 : ℤ) * w := mul_le_mul_of_nonneg_left w1 (by positivity)
    have c4 : C ≤ 2 ^ (420 : ℤ) := c3.trans (by norm_num)
    rw [e] at this
    exact hT.trans (c4.trans this)
  exact ⟨hr, (Rel.is_div hd hw w0.ne').trans (congrArg some (within (b_pow (by norm_num) (by norm_num)) hr).1)⟩

/-- C123. At every point of the interval of integration that is not extremely small the integrand is a finite number, with the sign of the chemical potential. -/
theorem C123_finite (hm : Is m y) (hb : Is beta b) (hb0 : 0 < b) (hmu : Is mu x) (h1 : nc ≤ 10 ^ 6) (ht : Inside t) :
    ∃ v : ℝ, Is (F.charge_density_integrand nc m beta mu t) v ∧ (0 ≤ x → 0 ≤ v) ∧ (x ≤ 0 → v ≤ 0) := by
  obtain ⟨C, w, P, E, c1, c2, c3, w1, p1, h⟩ := integrand_value hm hb hb0 h1 ht
  obtain ⟨hr, hv⟩ := h mu x hmu
  have w0 : 0 < w := lt_of_lt_of_le (by positivity) w1
  have z0 : |(0 : ℝ)| ≤ 2 ^ (820 : ℤ) := by rw [abs_zero]; positivity
  refine ⟨_, hv, fun hx => ?_, fun hx => ?_⟩
  · have t1 := tail_mono c1 c2 (by simp) (diffV_abs E b x) p1 (diffV_zero E b ▸ diffV_mono E hb0 hx)
    rw [tail_zero] at t1
    have := rd_mono (b_pow (n := 820) (by norm_num) (by norm_num)) z0 hr (by positivity)
    rwa [rd_zero] at this
  · have t1 := tail_mono c1 c2 (diffV_abs E b x) (by simp) p1 (diffV_zero E b ▸ diffV_mono E hb0 hx)
    rw [tail_zero] at t1
    have := rd_mono (b_pow (n := 820) (by norm_num) (by norm_num)) hr z0 (div_nonpos_of_nonpos_of_nonneg t1 w0.le)
    rwa [rd_zero] at this

/-- C123. The integrand does not decrease when the chemical potential increases, whatever the roundings. -/
theorem C123_mono (hm : Is m y) (hb : Is beta b) (hb0 : 0 < b) (hmu : Is mu x) (hmu' : Is mu' x') (hx : x ≤ x') (h1 : nc ≤ 10 ^ 6) (ht : Inside t) :
    ∃ v v' : ℝ, Is (F.charge_density_integrand nc m beta mu t) v ∧ Is (F.charge_density_integrand nc m beta mu' t) v' ∧ v ≤ v' := by
  obtain ⟨C, w, P, E, c1, c2, c3, w1, p1, h⟩ := integrand_value hm hb hb0 h1 ht
  obtain ⟨hr, hv⟩ := h mu x hmu
  obtain ⟨hr', hv'⟩ := h mu' x' hmu'
  have w0 : 0 < w := lt_of_lt_of_le (by positivity) w1
  refine ⟨_, _, hv, hv', rd_mono (b_pow (n := 820) (by norm_num) (by norm_num)) hr hr' ?_⟩
  exact div_le_div_of_nonneg_right (tail_mono c1 c2 (diffV_abs E b x) (diffV_abs E b x') p1 (diffV_mono E hb0 hx)) w0.le

/-- C123. Changing the sign of the chemical potential changes exactly the sign of the integrand. -/
theorem C123_odd (hm : Is m y) (hb : Is beta b) (hb0 : 0 < b) (hmu : Is mu x) (h1 : nc ≤ 10 ^ 6) (ht : Inside t) :
    ∃ v : ℝ, Is (F.charge_density_integrand nc m beta mu t) v ∧ Is (F.charge_density_integrand nc m beta (-mu) t) (-v) := by
  obtain ⟨C, w, P, E, c1, c2, c3, w1, p1, h⟩ := integrand_value hm hb hb0 h1 ht
  obtain ⟨-, hv⟩ := h mu x hmu
  obtain ⟨-, hv'⟩ := h (-mu) (-x) (value_neg hmu)
  rw [diffV_neg, tail_neg, neg_div, rd_neg] at hv'
  exact ⟨_, hv, hv'⟩

/-! ## Very small points -/

/-- C123. At points below `2^-513`, and at zero, the integrand is not a number: the square of the momentum overflows and is multiplied by zero. -/
theorem C123_nan (hm : Is m y) (hb : Is beta b) (hb0 : 0 < b) (hmu : Is mu x) (h0 : 0 < nc) (h1 : nc ≤ 10 ^ 6) (ht : Is t s) (hs : 0 ≤ s) (hs' : s ≤ 2 ^ (-513 : ℤ)) (hz : t ≠ nz) :
    IsNaN (F.charge_density_integrand nc m beta mu t) := by
  have hq : ∃ X : EReal, ((ofR 1 - t) / t : Fl binary64).value = some X ∧ ((2 ^ (512 : ℤ) : ℝ) : EReal) ≤ X := by
    have hh : s ≤ 1 / 2 := hs'.trans ((zpow_le_zpow_right₀ (by norm_num) (by norm_num : (-513 : ℤ) ≤ -1)).trans (by norm_num))
    obtain ⟨u, hu, u1, u2⟩ := between (b_pow (n := -1) (by norm_num) (by norm_num)) b_one (show (2 : ℝ) ^ (-1 : ℤ) ≤ 1 - s by norm_num; linarith) (by linarith)
    have hu' : Is (ofR 1 - t : Fl binary64) u := by
      have := value_add is_one (show (neg t).value = some ((-s : ℝ) : EReal) from value_neg ht)
      rw [← sub_eq_add_neg] at this
      exact this.trans (congrArg some hu)
    have u0 : 0 < u := lt_of_lt_of_le (by positivity) u1
    rcases hs.eq_or_lt with h | h
    · refine ⟨⊤, ?_, le_top⟩
      have et : t = num 0 := by
        cases t with
        | nan => simp [Is] at ht
        | nz => exact absurd rfl hz
        | num z => simp [Is, ← h] at ht; rw [ht]
      have n1 : (ofR 1 - t : Fl binary64).isNeg = false := isNeg_pos hu' (by exact_mod_cast u0)
      have u3 : (u : EReal) ≠ 0 := by exact_mod_cast u0.ne'
      change (div (ofR 1 - t) t).value = _
      generalize (ofR 1 - t : Fl binary64) = c at *
      subst et
      have hu2 : c.value = some (u : EReal) := hu'
      unfold div
      have n2 : (num 0 : Fl binary64).isNeg = false := by simp [isNeg]
      simp [hu2, val_of hu2, u0.ne', n1, n2]
    · refine ⟨_, Rel.is_div hu' ht h.ne', ?_⟩
      have e : (2 : ℝ) ^ (-1 : ℤ) = 2 ^ (512 : ℤ) * 2 ^ (-513 : ℤ) := by rw [← zpow_add₀ (by norm_num)]; norm_num
      have h3 : (2 : ℝ) ^ (512 : ℤ) ≤ u / s := by
        rw [le_div_iff₀ h]
        exact (mul_le_mul_of_nonneg_left hs' (by positivity)).trans (e ▸ u1)
      have m1 : round64 (2 ^ (512 : ℤ)) ≤ round64 (u / s) := binary64.mono h3
      rwa [binary64_fixed (b_pow (by norm_num) (by norm_num))] at m1
  obtain ⟨X, hX, hX'⟩ := hq
  unfold F.charge_density_integrand
  rw [big_density h0 h1 hX hX' hm hb hb0 hmu]
  change div nan _ = nan
  simp [div]

/-! ## Zero and very small chemical potentials -/

theorem num_of_ne {a : Fl binary64} {E : EReal} (h : a.value = some E) (h0 : E ≠ 0) : a = num E := by
  cases a with
  | nan => simp at h
  | nz => simp at h; exact absurd h.symm h0
  | num z => simp at h; rw [h]

theorem sub_self_fl {a : Fl binary64} {w : ℝ} (h : Is a w) : a - a = num 0 := by
  have hn : (neg a).value = some ((-w : ℝ) : EReal) := value_neg h
  have h' : a.value = some (w : EReal) := h
  have f : (a.isNeg && (neg a).isNeg) = false := by
    cases a with
    | nan => simp [isNeg]
    | nz => simp [neg, isNeg]
    | num z =>
      by_cases hz : z = 0
      · subst hz; simp [isNeg]
      · simp only [neg, hz, if_false, isNeg]
        by_contra hc
        simp at hc
        have h1 := hc.1
        have h2 := hc.2
        exact absurd (h1.trans h2) (lt_irrefl _)
  rw [sub_def]
  unfold add
  simp only [h', hn, val_of h', val_of hn, f, EReal.toReal_coe]
  have e0 : binary64.rnd 0 = 0 := binary64.zero
  simp [Fl.round, e0]

/-- A difference that does not change the energy. -/
theorem sub_small {E : EReal} (hE : E = ⊤ ∨ ∃ e : ℝ, E = (e : EReal) ∧ 0 < e ∧ round64 (e - x) = (e : EReal)) (hmu : Is mu x) : (num E : Fl binary64) - mu = num E := by
  have hn : (neg mu).value = some ((-x : ℝ) : EReal) := value_neg hmu
  rw [sub_def]
  rcases hE with rfl | ⟨e, rfl, h0, he⟩
  · exact num_of_ne (value_add_top (value_num _) hn) (by simp)
  · refine num_of_ne ?_ (by exact_mod_cast h0.ne')
    rw [value_add (value_num _) hn, ← sub_eq_add_neg]
    exact congrArg some he

/-- The computed energy is at least the mass. -/
theorem energy_ge {n : ℤ} (hn : -500 ≤ n) (hn' : n ≤ 450) (hm : Is m y) (hy : 2 ^ n ≤ |y|) {X : EReal} (hq : q.value = some X) :
    ∃ E : EReal, F.energy q m = num E ∧ (E = ⊤ ∨ ∃ e : ℝ, E = (e : EReal) ∧ Binary64 e ∧ 2 ^ n ≤ e) := by
  refine ⟨_, energy_eq hq hm, ?_⟩
  have p : (0 : ℝ) < 2 ^ n := by positivity
  have e2 : (2 : ℝ) ^ (n + n) = 2 ^ n * 2 ^ n := zpow_add₀ (by norm_num) _ _
  have h1 : ((2 ^ (n + n) : ℝ) : EReal) ≤ sqE binary64 y := by
    have h : (2 : ℝ) ^ (n + n) ≤ y * y := by
      rw [e2, ← abs_mul_abs_self y]; exact mul_le_mul hy hy p.le (abs_nonneg _)
    have m1 : round64 (2 ^ (n + n)) ≤ round64 (y * y) := binary64.mono h
    rw [binary64_fixed (b_pow (by omega) (by omega))] at m1
    have e : sqE binary64 (y : EReal) = round64 (y * y) := by simp [sqE]; rfl
    rwa [e]
  have p2 : (0 : ℝ) < 2 ^ (n + n) := by positivity
  have h2 : ((2 ^ (n + n) : ℝ) : EReal) ≤ addE binary64 (sqE binary64 y) (sqE binary64 X) := by
    have := addE_mono (r := binary64) (x := ((2 ^ (n + n) : ℝ) : EReal)) (y := 0) (by exact_mod_cast p2.le) le_rfl h1 (sqE_nonneg (r := binary64) X)
    have e : addE binary64 ((2 ^ (n + n) : ℝ) : EReal) 0 = ((2 ^ (n + n) : ℝ) : EReal) := by
      have : binary64.rnd (2 ^ (n + n) + 0) = ((2 ^ (n + n) : ℝ) : EReal) := by rw [add_zero]; exact binary64_fixed (b_pow (by omega) (by omega))
      unfold addE
      rw [if_neg (by rintro (h | h); exact EReal.coe_ne_top _ h; exact absurd h (by simp)), EReal.toReal_coe, EReal.toReal_zero, this]
    rwa [e] at this
  have h3 : ((2 ^ n : ℝ) : EReal) ≤ sqrtE binary64 (addE binary64 (sqE binary64 y) (sqE binary64 X)) := by
    have := sqrtE_mono (r := binary64) (x := ((2 ^ (n + n) : ℝ) : EReal)) (by exact_mod_cast p2.le) h2
    have e : sqrtE binary64 ((2 ^ (n + n) : ℝ) : EReal) = ((2 ^ n : ℝ) : EReal) := by
      unfold sqrtE
      rw [if_neg (EReal.coe_ne_top _), EReal.toReal_coe, e2, Real.sqrt_mul_self p.le]
      exact binary64_fixed (b_pow (by omega) (by omega))
    rwa [e] at this
  have h4 : sqrtE binary64 (addE binary64 (sqE binary64 y) (sqE binary64 X)) = ⊤ ∨
      ∃ w : ℝ, sqrtE binary64 (addE binary64 (sqE binary64 y) (sqE binary64 X)) = round64 w := by
    unfold sqrtE; split_ifs with h
    · exact .inl rfl
    · exact .inr ⟨_, rfl⟩
  generalize sqrtE binary64 (addE binary64 (sqE binary64 y) (sqE binary64 X)) = E at *
  rcases h4 with h4 | ⟨w, hw⟩
  · exact .inl h4
  · induction E using EReal.rec with
    | bot => exact absurd (le_bot_iff.1 h3) (EReal.coe_ne_bot _)
    | top => exact .inl rfl
    | coe e => exact .inr ⟨e, rfl, round64_binary64 hw.symm, by exact_mod_cast h3⟩

/-- The two distributions are the same number. -/
theorem absorbed_density {n : ℤ} (hn : -500 ≤ n) (hn' : n ≤ 450) (hm : Is m y) (hy : 2 ^ n ≤ |y|) (hmu : Is mu x) (hx : |x| < 2 ^ (n - 54)) (q : Fl binary64) :
    F.fermi_distribution (F.energy q m) beta mu = F.fermi_distribution (F.energy q m) beta (num 0) := by
  have hnan : q = nan ∨ ∃ X, q.value = some X := by
    cases q with
    | nan => exact .inl rfl
    | nz => exact .inr ⟨_, rfl⟩
    | num z => exact .inr ⟨_, rfl⟩
  rcases hnan with rfl | ⟨X, hX⟩
  · have e : F.energy nan m = nan := by
      change sqrt (add (mul m m) (mul nan nan)) = nan
      simp [mul, add, sqrt]
    have h : ∀ a : Fl binary64, (nan : Fl binary64) - a = nan := fun a => by rw [sub_def]; simp [add]
    unfold F.fermi_distribution F.statistic_distribution_exponential
    rw [e, h, h]
  · obtain ⟨E, hE, hc⟩ := energy_ge hn hn' hm hy hX
    have p : (0 : ℝ) < 2 ^ n := by positivity
    have p54 : (0 : ℝ) < 2 ^ (n - 54) := by positivity
    unfold F.fermi_distribution F.statistic_distribution_exponential
    have key : ∀ (a : Fl binary64) (z : ℝ), Is a z → |z| < 2 ^ (n - 54) → (num E : Fl binary64) - a = num E := by
      intro a z ha hz
      refine sub_small ?_ ha
      rcases hc with h | ⟨e, h, hb, he⟩
      · exact .inl h
      · refine .inr ⟨e, h, p.trans_le he, ?_⟩
        rw [sub_eq_add_neg]
        exact absorb hb (by omega) (by omega) he (by rwa [abs_neg])
    rw [hE, key mu x hmu hx, key (num 0) 0 rfl (by rwa [abs_zero])]

/-- C123. A chemical potential below `2^-54` of the mass gives exactly the density of zero chemical potential, whatever the quadrature. -/
theorem C123_absorbed (integrate : (Fl binary64 → Fl binary64) → Fl binary64) (nc : ℕ) (n : ℤ) (hn : -500 ≤ n) (hn' : n ≤ 450) (hm : Is m y) (hy : 2 ^ n ≤ |y|)
    (beta : Fl binary64) (hmu : Is mu x) (hx : |x| < 2 ^ (n - 54)) :
    F.charge_density_with_method integrate nc m beta mu = F.charge_density_with_method integrate nc m beta (num 0) := by
  have h0 : |(0 : ℝ)| < 2 ^ (n - 54) := by rw [abs_zero]; positivity
  unfold F.charge_density_with_method
  congr 1
  funext t
  unfold F.charge_density_integrand F.charge_density_i
  dsimp only
  rw [absorbed_density hn hn' hm hy hmu hx, absorbed_density (mu := -mu) (x := -x) hn hn' hm hy (value_neg hmu) (by rwa [abs_neg]),
    absorbed_density (mu := -num 0) (x := 0) hn hn' hm hy (by rw [Is, neg_def]; simp [neg]) h0]

theorem mul_num {u v : ℝ} (hu : 0 ≤ u) (hv : 0 ≤ v) : (num (u : EReal) : Fl binary64) * num (v : EReal) = num (round64 (u * v)) := by
  have n1 : (num (u : EReal) : Fl binary64).isNeg = false := by simp [isNeg, hu]
  have n2 : (num (v : EReal) : Fl binary64).isNeg = false := by simp [isNeg, hv]
  rw [mul_def]
  unfold mul
  simp only [n1, n2, value_num, val_num, EReal.toReal_coe]
  simp [Fl.round]
  rfl

theorem div_num {u v : ℝ} (hu : 0 ≤ u) (hv : 0 < v) : (num (u : EReal) : Fl binary64) / num (v : EReal) = num (round64 (u / v)) := by
  have n1 : (num (u : EReal) : Fl binary64).isNeg = false := by simp [isNeg, hu]
  have n2 : (num (v : EReal) : Fl binary64).isNeg = false := by simp [isNeg, hv.le]
  change div _ _ = _
  unfold div
  simp only [n1, n2, value_num, val_num, EReal.toReal_coe]
  simp [Fl.round, hv.ne']
  rfl

theorem num_of_nonneg {a : Fl binary64} {u : ℝ} (h : Is a u) (hn : a.isNeg = false) : a = num (u : EReal) := by
  cases a with
  | nan => simp [Is] at h
  | nz => simp [isNeg] at hn
  | num z => simp [Is] at h; rw [h]

/-- The prefactor is not a negative zero. -/
theorem prefactor_num {C z : ℝ} (h1 : nc ≤ 10 ^ 6) (hz0 : 0 ≤ z) (hz : z ≤ 2 ^ (200 : ℤ)) (hC : Is (ofR (nc : ℝ) * num (z : EReal) * num (z : EReal) : Fl binary64) C) :
    (ofR (nc : ℝ) * num (z : EReal) * num (z : EReal) : Fl binary64) = num (C : EReal) := by
  have hn : Is (ofR (nc : ℝ) : Fl binary64) nc := is_ofR (binary64_nat (lt_of_le_of_lt h1 (by norm_num)))
  have hn0 : (0 : ℝ) ≤ nc := Nat.cast_nonneg _
  have hn1 : (nc : ℝ) ≤ 2 ^ (20 : ℤ) := by
    have : (nc : ℝ) ≤ 10 ^ 6 := by exact_mod_cast h1
    exact this.trans (by norm_num)
  have e0 : (ofR (nc : ℝ) : Fl binary64) = num ((nc : ℝ) : EReal) := by
    refine num_of_nonneg hn ?_
    change (Fl.round binary64 (open Classical in decide ((nc : ℝ) < 0)) (nc : ℝ)).isNeg = false
    have e : binary64.rnd (nc : ℝ) = ((nc : ℝ) : EReal) := binary64_fixed (binary64_nat (lt_of_le_of_lt h1 (by norm_num)))
    rw [decide_eq_false (not_lt.2 hn0)]
    simp [Fl.round, e, isNeg]
  have e1 : (2 : ℝ) ^ (220 : ℤ) = 2 ^ (20 : ℤ) * 2 ^ (200 : ℤ) := by rw [← zpow_add₀ (by norm_num)]; norm_num
  obtain ⟨A, hA, a1, a2⟩ := between b_zero (b_pow (n := 220) (by norm_num) (by norm_num)) (mul_nonneg hn0 hz0) (by rw [e1]; exact mul_le_mul hn1 hz hz0 (by positivity))
  rw [e0, mul_num hn0 hz0, hA, mul_num a1 hz0] at hC ⊢
  simpa [Is] using hC

/-- C123. At zero chemical potential the quadrature gets the function zero. -/
theorem C123_zero (integrate : (Fl binary64 → Fl binary64) → Fl binary64) (hi : Looks integrate) (h1 : nc ≤ 10 ^ 6) (hm : Is m y) (hb : Is beta b) (hb0 : 0 < b) (hmu : Is mu 0) :
    F.charge_density_with_method integrate nc m beta mu = integrate (fun _ => num 0) := by
  refine hi _ _ fun t ht => ?_
  obtain ⟨s, ht', s1, s2⟩ := id ht
  have hs0 : 0 < s := lt_of_lt_of_le (by positivity) s1
  obtain ⟨z, w, hz, z0, z1, hw, w1, -⟩ := inside_values ht
  have w0 : 0 < w := lt_of_lt_of_le (by positivity) w1
  have et : t = num (s : EReal) := num_of_ne ht' (by exact_mod_cast hs0.ne')
  obtain ⟨P, hP, p1, -⟩ := pi2
  have eP : (F.PI2 : Fl binary64) = num (P : EReal) := num_of_ne hP (by exact_mod_cast (by linarith : P ≠ 0))
  have ew : t * t = num (w : EReal) := num_of_ne hw (by exact_mod_cast w0.ne')
  have eq : ((ofR 1 - t) / t : Fl binary64) = num (z : EReal) := by
    obtain ⟨u, hu, u1, u2⟩ := between b_zero b_one (show 0 ≤ 1 - s by linarith) (by linarith)
    have e1 : (ofR 1 - t : Fl binary64) = num (u : EReal) := by
      have h1 : Is (ofR 1 : Fl binary64) 1 := is_one
      have eo : (ofR 1 : Fl binary64) = num ((1 : ℝ) : EReal) := num_of_ne h1 (EReal.coe_ne_zero.2 one_ne_zero)
      have hn : (neg t).value = some ((-s : ℝ) : EReal) := value_neg ht'
      rw [eo, sub_def]
      unfold add
      have n1 : (num ((1 : ℝ) : EReal) : Fl binary64).isNeg = false := by simp [isNeg, not_lt.2 (zero_le_one (α := EReal))]
      have e : binary64.rnd (1 - s) = (u : EReal) := hu
      simp only [hn, val_of hn, n1, value_num, val_num, EReal.toReal_coe, ← sub_eq_add_neg, e, Fl.round, decide_eq_false (not_lt.2 (show 0 ≤ 1 - s by linarith))]
      simp [one_ne_top, one_ne_bot]
    have hq := hz
    rw [e1, et, div_num u1 hs0] at hq ⊢
    simpa [Is] using hq
  obtain ⟨C, hC, c1, c2, c3⟩ := prefactor h1 hz (k := 200) (by norm_num) (by norm_num) (by rwa [abs_of_nonneg z0])
  have hd : F.fermi_distribution (F.energy ((ofR 1 - t) / t) m) beta (-mu) = F.fermi_distribution (F.energy ((ofR 1 - t) / t) m) beta mu := by
    have hs : ∀ a b : Fl binary64, Is a 0 → Is b 0 → F.energy ((ofR 1 - t) / t) m - a = F.energy ((ofR 1 - t) / t) m - b := by
      intro a b ha hb
      have hen := energy_eq hz hm
      have hE : 0 ≤ sqrtE binary64 (addE binary64 (sqE binary64 y) (sqE binary64 z)) := sqrtE_nonneg _
      rw [hen]
      generalize sqrtE binary64 (addE binary64 (sqE binary64 y) (sqE binary64 z)) = E at *
      have n1 : (num E : Fl binary64).isNeg = false := by simp [isNeg, hE]
      have ha' : (neg a).value = some ((0 : ℝ) : EReal) := by rw [value_neg ha]; simp
      have hb' : (neg b).value = some ((0 : ℝ) : EReal) := by rw [value_neg hb]; simp
      rw [sub_def, sub_def]
      unfold add
      simp only [ha', hb', val_of ha', val_of hb', n1, Bool.false_and]
    have := hs (-mu) mu (by have := value_neg hmu; rw [Is, neg_def, this]; simp) hmu
    unfold F.fermi_distribution F.statistic_distribution_exponential
    rw [this]
  obtain ⟨E, hE⟩ := energy_value hz hm
  have hf := is_fermi hE hb hmu hb0
  change F.charge_density_integrand nc m beta mu t = num 0
  unfold F.charge_density_integrand F.charge_density_i
  simp only [hd, sub_self_fl hf]
  rw [ew, eq] at *
  rw [prefactor_num h1 z0 z1 hC, eP]
  have r0 : round64 0 = ((0 : ℝ) : EReal) := binary64_fixed b_zero
  have e0 : (num 0 : Fl binary64) = num ((0 : ℝ) : EReal) := rfl
  rw [e0, mul_num c2 le_rfl, mul_zero, r0, div_num le_rfl (by linarith), zero_div, r0, div_num le_rfl w0, zero_div, r0]

/-- C123. The loss: for a positive chemical potential below `2^-54` of the mass the density is positive, but the computed integrand is zero. -/
theorem C123_lost (integrate : (Fl binary64 → Fl binary64) → Fl binary64) (hi : Looks integrate) (k : consts.Consts ℝ) (hk : 0 < k.nc) (hk' : k.nc ≤ 10 ^ 6) (integral : consts.Integral ℝ)
    (n : ℤ) (hn : -500 ≤ n) (hn' : n ≤ 450) (hm : Is m y) (hy : 2 ^ n ≤ |y|) (hb : Is beta b) (hb0 : 0 < b) (hmu : Is mu x) (hx0 : 0 < x) (hx : x < 2 ^ (n - 54)) :
    F.charge_density_with_method integrate k.nc m beta mu = integrate (fun _ => num 0) ∧ 0 < charge_density_with_method .exact k y b x integral := by
  refine ⟨?_, (C50_sign k y b x hb0 hk integral).1.2 hx0⟩
  rw [C123_absorbed integrate k.nc n hn hn' hm hy beta hmu (by rwa [abs_of_pos hx0])]
  exact C123_zero integrate hi hk' hm hb hb0 rfl

/-! ## Cases that meet the hypotheses -/

/-- The middle of the interval is a point of it that is not extremely small. -/
theorem inside_half : Inside (num ((1 / 2 : ℝ) : EReal) : Fl binary64) :=
  ⟨1 / 2, rfl, (zpow_le_zpow_right₀ (by norm_num) (by norm_num : (-200 : ℤ) ≤ -1)).trans (by norm_num), by norm_num⟩

/-- The rule that takes the value in the middle. -/
theorem looks_middle : Looks (fun f : Fl binary64 → Fl binary64 => f (num ((1 / 2 : ℝ) : EReal))) := fun _ _ h => h _ inside_half

example : ∃ v : ℝ, Is (F.charge_density_integrand 3 (num ((1 : ℝ) : EReal)) (num ((2 : ℝ) : EReal)) (num ((1 / 4 : ℝ) : EReal)) (num ((1 / 2 : ℝ) : EReal)) : Fl binary64) v ∧
    (0 ≤ (1 / 4 : ℝ) → 0 ≤ v) ∧ ((1 / 4 : ℝ) ≤ 0 → v ≤ 0) :=
  C123_finite (y := 1) (b := 2) rfl rfl (by norm_num) rfl (by norm_num) inside_half

example : ∃ v v' : ℝ, Is (F.charge_density_integrand 3 (num ((1 : ℝ) : EReal)) (num ((2 : ℝ) : EReal)) (num ((1 / 4 : ℝ) : EReal)) (num ((1 / 2 : ℝ) : EReal)) : Fl binary64) v ∧
    Is (F.charge_density_integrand 3 (num ((1 : ℝ) : EReal)) (num ((2 : ℝ) : EReal)) (num ((3 / 4 : ℝ) : EReal)) (num ((1 / 2 : ℝ) : EReal)) : Fl binary64) v' ∧ v ≤ v' :=
  C123_mono (y := 1) (b := 2) (x := 1 / 4) (x' := 3 / 4) rfl rfl (by norm_num) rfl rfl (by norm_num) (by norm_num) inside_half

example : IsNaN (F.charge_density_integrand 3 (num ((1 : ℝ) : EReal)) (num ((2 : ℝ) : EReal)) (num ((1 / 4 : ℝ) : EReal)) (num ((2 ^ (-600 : ℤ) : ℝ) : EReal)) : Fl binary64) :=
  C123_nan (y := 1) (b := 2) (x := 1 / 4) (s := 2 ^ (-600 : ℤ)) rfl rfl (by norm_num) rfl (by norm_num) (by norm_num) rfl (by positivity)
    (zpow_le_zpow_right₀ (by norm_num) (by norm_num)) (by simp)

/-- Mass one and chemical potential `2^-60`. -/
example (k : consts.Consts ℝ) (hk : 0 < k.nc) (hk' : k.nc ≤ 10 ^ 6) (integral : consts.Integral ℝ) :
    F.charge_density_with_method (fun f : Fl binary64 → Fl binary64 => f (num ((1 / 2 : ℝ) : EReal))) k.nc (num ((1 : ℝ) : EReal)) (num ((2 : ℝ) : EReal)) (num ((2 ^ (-60 : ℤ) : ℝ) : EReal)) = num 0 ∧
      0 < charge_density_with_method .exact k 1 2 (2 ^ (-60 : ℤ)) integral :=
  C123_lost _ looks_middle k hk hk' integral 0 (by norm_num) (by norm_num) rfl (by norm_num) rfl (by norm_num) rfl (by positivity)
    (zpow_lt_zpow_right₀ (by norm_num) (by norm_num))

end Qcd
