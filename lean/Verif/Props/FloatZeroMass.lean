import Verif.Props.FloatTadpoles
import Verif.Lemmas.RunningError

/-!
# The energy of a massless particle in floating-point arithmetic

The square root of the rounded square of a number is the number itself, so that the functions for massive particles at zero mass and the
functions for massless particles are evaluated at the same energy.
-/

namespace Qcd
open Spec Fl FTD

namespace tadpoles

/-- The square root of the rounded square. -/
theorem sqrt_square {x s : ℝ} (hx : Binary64 x) (h1 : (2 : ℝ) ^ (-100 : ℤ) ≤ x) (h2 : x ≤ 2 ^ (100 : ℤ)) (hs : round64 (x * x) = (s : EReal)) :
    round64 (Real.sqrt s) = (x : EReal) := by
  have x0 : 0 < x := lt_of_lt_of_le (by positivity) h1
  have n1 : -100 ≤ expo x := by
    have := expo_mono (by positivity : (0 : ℝ) < 2 ^ (-100 : ℤ)) h1
    rwa [expo_eq (e := -100) (by norm_num) le_rfl (zpow_lt_zpow_right₀ (by norm_num) (by norm_num))] at this
  have n2 : expo x ≤ 100 := by
    have := expo_mono x0 h2
    rwa [expo_eq (e := 100) (by norm_num) le_rfl (zpow_lt_zpow_right₀ (by norm_num) (by norm_num))] at this
  have l := zpow_expo_le x0 (by omega)
  have hX := roundPos_of_representable (binary64_fixed hx)
  rw [abs_of_pos x0] at hX
  have u : x + 2 ^ (expo x - 52) ≤ 2 ^ (expo x + 1) := by
    have hb := roundPos_of_representable (binary64_fixed (b_pow (n := expo x + 1) (by omega) (by omega)))
    rw [abs_of_pos (by positivity)] at hb
    exact representable_gap x0 (lt_zpow_expo x x0.le) hX hb
  set n := expo x with hn
  have U0 : (0 : ℝ) < 2 ^ n := by positivity
  have eU : (2 : ℝ) ^ (n - 52) = 2 ^ n * (1 / 2 ^ 52) := by rw [zpow_sub₀ (by norm_num)]; norm_num; ring
  have eV : (2 : ℝ) ^ (n + 1) = 2 ^ n * 2 := by rw [zpow_add₀ (by norm_num)]; norm_num
  have eW : (2 : ℝ) ^ (2 * n) = 2 ^ n * 2 ^ n := by rw [← zpow_add₀ (by norm_num)]; congr 1; ring
  rw [eU, eV] at u
  -- the rounded square
  have sq0 : (2 : ℝ) ^ (-200 : ℤ) ≤ x * x := by
    calc (2 : ℝ) ^ (-200 : ℤ) = 2 ^ (-100 : ℤ) * 2 ^ (-100 : ℤ) := by rw [← zpow_add₀ (by norm_num)]; norm_num
      _ ≤ x * x := mul_le_mul h1 h1 (by positivity) x0.le
  have sq1 : x * x ≤ 2 ^ (200 : ℤ) := by
    calc x * x ≤ 2 ^ (100 : ℤ) * 2 ^ (100 : ℤ) := mul_le_mul h2 h2 x0.le (by positivity)
      _ = 2 ^ (200 : ℤ) := by rw [← zpow_add₀ (by norm_num)]; norm_num
  obtain ⟨s', es, sl, su⟩ := between (b_pow (n := 2 * n) (by omega) (by omega)) (b_pow (n := 200) (by norm_num) (by norm_num))
    (show (2 : ℝ) ^ (2 * n) ≤ x * x by rw [eW]; exact mul_le_mul l l U0.le x0.le) sq1
  have ess : s' = s := by rw [es] at hs; exact_mod_cast hs
  subst ess
  rw [eW] at sl
  have om1 : |x * x| ≤ om := by
    rw [abs_of_pos (by positivity)]
    refine sq1.trans ?_
    unfold om
    rw [show (2 : ℝ) ^ (200 : ℤ) = 2 ^ 200 by norm_cast]
    exact pow_le_pow_right₀ (by norm_num) (by norm_num)
  obtain ⟨t, et, ht⟩ := round64_run om1
  have ets : t = s' := by rw [es] at et; exact_mod_cast et.symm
  subst ets
  rw [abs_of_pos (by positivity : 0 < x * x)] at ht
  have tiny : ((2 : ℝ) ^ 1000)⁻¹ ≤ x * x * (1 / 2 ^ 200) := by
    have a : ((2 : ℝ) ^ 1000)⁻¹ ≤ (2 ^ 200 * 2 ^ 200)⁻¹ := by
      refine inv_anti₀ (by positivity) ?_
      rw [← pow_add]
      exact pow_le_pow_right₀ (by norm_num) (by norm_num)
    refine a.trans ?_
    rw [mul_inv, ← one_div]
    refine mul_le_mul_of_nonneg_right (le_trans (by norm_num) sq0) (by positivity)
  have hd : |t - x * x| ≤ (1 / 2 ^ 53 * (1 + 1 / 2 ^ 200)) * (x * x) := by
    refine ht.trans ?_
    unfold uu
    generalize ((2 : ℝ) ^ 1000)⁻¹ = w at *
    nlinarith
  set d : ℝ := 1 / 2 ^ 53 * (1 + 1 / 2 ^ 200) with hdd
  have d0 : 0 < d := by rw [hdd]; norm_num
  have d1 : d < 1 := by rw [hdd]; norm_num
  have t0 : 0 ≤ t := le_trans (by positivity) sl
  set r := Real.sqrt t with hr
  have rr : r * r = t := Real.mul_self_sqrt t0
  have rl : 2 ^ n ≤ r := Real.le_sqrt_of_sq_le (by rw [sq]; exact sl)
  have r0 : 0 < r := U0.trans_le rl
  have D1 : |r - x| * (r + x) ≤ d * (x * x) := by
    rw [← abs_of_pos (by linarith : 0 < r + x), ← abs_mul, show (r - x) * (r + x) = t - x * x by rw [← rr]; ring]
    exact hd
  have D2 : |r - x| ≤ d * x := by
    have a : |r - x| * x ≤ |r - x| * (r + x) := mul_le_mul_of_nonneg_left (by linarith) (abs_nonneg _)
    have : |r - x| * x ≤ (d * x) * x := by linarith
    exact le_of_mul_le_mul_right this x0
  have D3 : |r - x| * (2 - d) ≤ d * x := by
    have a := (abs_le.1 D2).1
    have c : |r - x| * (x * (2 - d)) ≤ |r - x| * (r + x) := mul_le_mul_of_nonneg_left (by linarith) (abs_nonneg _)
    have : |r - x| * (2 - d) * x ≤ (d * x) * x := by linarith
    exact le_of_mul_le_mul_right this x0
  have D4 : 2 * |r - x| < 2 ^ n * (1 / 2 ^ 52) := by
    have k : 2 * d * (2 - 1 / 2 ^ 52) < 1 / 2 ^ 52 * (2 - d) := by rw [hdd]; norm_num
    have a : d * x ≤ d * (2 ^ n * (2 - 1 / 2 ^ 52)) := by gcongr; linarith
    have c : 2 * |r - x| * (2 - d) < 2 ^ n * (1 / 2 ^ 52) * (2 - d) := by
      calc 2 * |r - x| * (2 - d) = 2 * (|r - x| * (2 - d)) := by ring
        _ ≤ 2 * (d * (2 ^ n * (2 - 1 / 2 ^ 52))) := mul_le_mul_of_nonneg_left (D3.trans a) (by norm_num)
        _ = 2 ^ n * (2 * d * (2 - 1 / 2 ^ 52)) := by ring
        _ < 2 ^ n * (1 / 2 ^ 52 * (2 - d)) := mul_lt_mul_of_pos_left k U0
        _ = _ := by ring
    exact lt_of_mul_lt_mul_right c (by linarith)
  -- the rounded root
  obtain ⟨y, ey, yl, -⟩ := between (x := r) (b_pow (n := n) (by omega) (by omega)) (b_pow (n := 900) (by norm_num) (by norm_num)) rl (by
    have a := (abs_le.1 D2).2
    have c : r ≤ 2 * x := by nlinarith
    refine c.trans ?_
    calc 2 * x ≤ 2 * 2 ^ (100 : ℤ) := by gcongr
      _ = 2 ^ (101 : ℤ) := by norm_num
      _ ≤ _ := zpow_le_zpow_right₀ (by norm_num) (by norm_num))
  have y0 : 0 < y := U0.trans_le yl
  have near := round53_nearest (x := r) hx
  rw [round64_real ey] at near
  have dist : |y - x| < 2 ^ n * (1 / 2 ^ 52) := by
    have := abs_sub_le y r x
    rw [abs_sub_comm y r] at this
    linarith
  have hY := roundPos_of_representable (binary64_fixed (round64_binary64 ey))
  rw [abs_of_pos y0] at hY
  have ny : n ≤ expo y := by
    have := expo_mono U0 yl
    rwa [expo_eq (e := n) (by omega) le_rfl (zpow_lt_zpow_right₀ (by norm_num) (by omega))] at this
  rw [ey]
  rw [abs_lt] at dist
  rcases lt_trichotomy y x with h | h | h
  · have g := representable_gap y0 h hY hX
    have e : (2 : ℝ) ^ (n - 52) ≤ 2 ^ (expo y - 52) := zpow_le_zpow_right₀ (by norm_num) (by omega)
    rw [eU] at e
    linarith
  · rw [h]
  · have g := representable_gap x0 h hX hY
    rw [← hn, eU] at g
    linarith

end tadpoles

open tadpoles

/-- **C128** (zero mass): for a momentum of the type between `10^-30` and `10^30` the computed energy of a massless particle is the momentum, exactly. -/
theorem C128_massless_energy (q : Fl binary64) (x : ℝ) (hq : Is q x) (hx : Binary64 x) (h1 : 10 ^ (-30 : ℤ) ≤ x) (h2 : x ≤ 10 ^ 30) :
    F.energy q (num 0) = q := by
  have a1 : (2 : ℝ) ^ (-100 : ℤ) ≤ x := le_trans (by norm_num) h1
  have a2 : x ≤ 2 ^ (100 : ℤ) := h2.trans (by norm_num)
  have x0 : 0 < x := lt_of_lt_of_le (by positivity) a1
  have p : (0 : ℝ) < 2 ^ (-100 : ℤ) := by positivity
  obtain ⟨s, es, sl, -⟩ := between (b_pow (n := -200) (by norm_num) (by norm_num)) (b_pow (n := 200) (by norm_num) (by norm_num))
    (show (2 : ℝ) ^ (-200 : ℤ) ≤ x * x by
      rw [show (2 : ℝ) ^ (-200 : ℤ) = 2 ^ (-100 : ℤ) * 2 ^ (-100 : ℤ) by rw [← zpow_add₀ (by norm_num)]; norm_num]
      exact mul_le_mul a1 a1 p.le x0.le)
    (show x * x ≤ 2 ^ (200 : ℤ) by
      rw [show (2 : ℝ) ^ (200 : ℤ) = 2 ^ (100 : ℤ) * 2 ^ (100 : ℤ) by rw [← zpow_add₀ (by norm_num)]; norm_num]
      exact mul_le_mul a2 a2 x0.le (by positivity))
  have r := sqrt_square hx a1 a2 es
  have w1 : sqE binary64 (x : EReal) = (s : EReal) := by simp only [sqE]; simp; exact es
  have w2 : sqE binary64 (((0 : ℝ)) : EReal) = ((0 : ℝ) : EReal) := by simp only [sqE]; simp; exact binary64.zero
  have w3 : addE binary64 ((0 : ℝ) : EReal) (s : EReal) = (s : EReal) := by
    simp only [addE]
    simp
    exact binary64_fixed (round64_binary64 es)
  have w4 : sqrtE binary64 (s : EReal) = (x : EReal) := by
    simp only [sqrtE]
    simp
    exact r
  have e := energy_eq (r := binary64) (m := num ((0 : ℝ) : EReal)) hq (value_num _)
  rw [w1, w2, w3, w4] at e
  have hq' : q = num (x : EReal) := by
    cases q with
    | nan => simp [Is, IsE] at hq
    | nz => simp [Is, IsE] at hq; exact absurd hq.symm (by exact_mod_cast x0.ne')
    | num z => simp [Is, IsE] at hq; rw [hq]
  rw [← EReal.coe_zero, e, hq']

/-- **C128** (zero mass): three of the massive integrands at zero mass are the massless ones, bit for bit. -/
theorem C128_zero_mass (q beta : Fl binary64) (x : ℝ) (hq : Is q x) (hx : Binary64 x) (h1 : 10 ^ (-30 : ℤ) ≤ x) (h2 : x ≤ 10 ^ 30) :
    F.d_j_m_i q (num 0) beta = F.d_j_0_i q beta ∧ F.d_j_m_l_i q (num 0) beta = F.d_j_0_l_i q beta ∧
    F.d2_j_m_t_i q (num 0) beta = F.d2_j_0_t_i q beta := by
  have e := C128_massless_energy q x hq hx h1 h2
  refine ⟨?_, ?_, ?_⟩
  · simp only [F.d_j_m_i, F.d_j_0_i, e]
  · simp only [F.d_j_m_l_i, F.d_j_0_l_i, e]
  · simp only [F.d2_j_m_t_i, F.d2_j_0_t_i, e]

/-- The energy of a massless particle of momentum 3. -/
example : F.energy (num (3 : ℝ) : Fl binary64) (num 0) = num (3 : ℝ) :=
  C128_massless_energy (num (3 : ℝ)) 3 (value_num _) ⟨3, 0, by norm_num, by norm_num, by norm_num, by norm_num⟩ (by norm_num) (by norm_num)

example : F.d_j_m_i (num (3 : ℝ) : Fl binary64) (num 0) (num (2 : ℝ)) = F.d_j_0_i (num (3 : ℝ)) (num (2 : ℝ)) :=
  (C128_zero_mass (num (3 : ℝ)) (num (2 : ℝ)) 3 (value_num _) ⟨3, 0, by norm_num, by norm_num, by norm_num, by norm_num⟩ (by norm_num) (by norm_num)).1

end Qcd
