import Verif.Lemmas.ChargeDensity
import Verif.Props.Utils
import Mathlib.MeasureTheory.Integral.IntegralEqImproper

/-! # C50, C51, C52, C62: quark charge density and chemical potential -/

namespace Qcd
open Filter Topology Set MeasureTheory
open consts (Consts Integral)
open qcd.thermal.quark

/-! ### C50 -/

/-- **C50** (odd): for every integrator that respects signs. -/
theorem C50_odd (ig : Integrator) (h : ig.Odd) (k : Consts ℝ) (m beta mu : ℝ) (integral : Integral ℝ) :
    charge_density_with_method ig k m beta (-mu) integral =
      -charge_density_with_method ig k m beta mu integral ∧
    charge_density ig k m beta (-mu) = -charge_density ig k m beta mu := by
  have key : ∀ integral, charge_density_with_method ig k m beta (-mu) integral =
      -charge_density_with_method ig k m beta mu integral := fun integral => by
    unfold charge_density_with_method
    rw [← h.real]
    congr 1
    funext t
    unfold charge_density_i
    simp only [neg_neg]
    ring
  exact ⟨key _, key _⟩

/-- **C50** (zero chemical potential): for every integrator that integrates 0 to 0. -/
theorem C50_zero (ig : Integrator) (h : ig.Zero) (k : Consts ℝ) (m beta : ℝ) (integral : Integral ℝ) :
    charge_density_with_method ig k m beta 0 integral = 0 ∧ charge_density ig k m beta 0 = 0 := by
  have key : ∀ integral, charge_density_with_method ig k m beta 0 integral = 0 := fun integral => by
    unfold charge_density_with_method
    have : (fun t => charge_density_i k ((1 - t) / t) m beta 0 / (t * t)) = fun _ => 0 := by
      funext t
      unfold charge_density_i
      simp
    rw [this]
    exact h.real _ _
  exact ⟨key _, key _⟩

/-- The exact integrator satisfies the laws used above. -/
theorem exact_odd : Integrator.exact.Odd where
  real f r m := by simp [Integrator.exact]
  cplx f r m := by simp [Integrator.exact]

theorem exact_zero : Integrator.exact.Zero where
  real r m := by simp [Integrator.exact]
  cplx r m := by simp [Integrator.exact]

/-- **C50** (integrability): the improper integral over the loop momentum converges, so the exact
integral below is not a convention. -/
theorem C50_converges (k : Consts ℝ) (m beta mu : ℝ) (hb : 0 < beta) :
    IntervalIntegrable (fun t => charge_density_i k ((1 - t) / t) m beta mu / (t * t)) volume 0 1 :=
  (cd_compact_continuousOn k m beta mu hb).intervalIntegrable_of_Icc zero_le_one

/-- **C50** (monotone): without quadrature error the charge density is strictly increasing in the
chemical potential. -/
theorem C50_strictMono (k : Consts ℝ) (m beta : ℝ) (hb : 0 < beta) (hk : 0 < k.nc) (integral : Integral ℝ) :
    StrictMono (fun mu => charge_density_with_method .exact k m beta mu integral) := by
  intro a b hab
  apply intervalIntegral.integral_lt_integral_of_continuousOn_of_le_of_exists_lt zero_lt_one
    (cd_compact_continuousOn k m beta a hb) (cd_compact_continuousOn k m beta b hb)
  · intro t ht
    rcases eq_or_ne ((1 - t) / t) 0 with h | h
    · rw [h]; simp [charge_density_i]
    · exact div_le_div_of_nonneg_right (cd_strictMono k m beta hb hk _ h hab).le (mul_self_nonneg t)
  · refine ⟨1 / 2, by norm_num, ?_⟩
    apply div_lt_div_of_pos_right (cd_strictMono k m beta hb hk _ (by norm_num) hab) (by norm_num)

/-- **C50** (sign): the density has the sign of the chemical potential. -/
theorem C50_sign (k : Consts ℝ) (m beta mu : ℝ) (hb : 0 < beta) (hk : 0 < k.nc) (integral : Integral ℝ) :
    (0 < charge_density_with_method .exact k m beta mu integral ↔ 0 < mu) ∧
    (charge_density_with_method .exact k m beta mu integral < 0 ↔ mu < 0) := by
  have h := C50_strictMono k m beta hb hk integral
  have h0 := (C50_zero .exact exact_zero k m beta integral).1
  have h1 := h.lt_iff_lt (a := 0) (b := mu)
  have h2 := h.lt_iff_lt (a := mu) (b := 0)
  simp only [h0] at h1 h2
  exact ⟨h1, h2⟩

/-- **C50** (colours): the density is proportional to the number of colours. -/
theorem C50_colours (k : Consts ℝ) (m beta mu : ℝ) (n : ℕ) (integral : Integral ℝ) :
    charge_density_with_method .exact { k with nc := n } m beta mu integral =
      n * charge_density_with_method .exact { k with nc := 1 } m beta mu integral := by
  unfold charge_density_with_method Integrator.exact
  simp only
  rw [← intervalIntegral.integral_const_mul]
  congr 1
  funext t
  simp only [charge_density_i]
  push_cast
  ring

/- Physical values: a 350 MeV quark at T = 100 MeV, three colours. -/
example (k : Consts ℝ) (integral : Integral ℝ) :
    charge_density_with_method .exact { k with nc := 3 } 0.35 10 0.2 integral <
      charge_density_with_method .exact { k with nc := 3 } 0.35 10 0.3 integral :=
  C50_strictMono { k with nc := 3 } 0.35 10 (by norm_num) (by norm_num) integral (by norm_num)

/-! ### C51 -/

/-- **C51** (threshold). -/
theorem C51_density_threshold (k : Consts ℝ) (m mu : ℝ) (h : |mu| ≤ |m|) :
    charge_density_zero_temp k m mu = 0 := by
  simp [charge_density_zero_temp, h]

/-- **C51** (value): sign(mu) N_c (mu² - m²)^(3/2) / (3π²). -/
theorem C51_density_value (k : Consts ℝ) (m mu : ℝ) (h : |m| < |mu|) :
    charge_density_zero_temp k m mu =
      k.nc * SignType.sign mu * Real.sqrt (mu ^ 2 - m ^ 2) ^ 3 / (3 * Real.pi ^ 2) := by
  have hs : (if mu > m then (1 : ℝ) else -1) = SignType.sign mu := by
    have hmu : mu ≠ 0 := fun h0 => by rw [h0, abs_zero] at h; exact absurd (abs_nonneg m) (not_le.2 h)
    rcases lt_or_gt_of_ne hmu with h0 | h0
    · rw [sign_neg h0, if_neg]
      · simp
      · rw [abs_of_neg h0] at h
        have := neg_abs_le m
        intro h1; linarith
    · rw [sign_pos h0, if_pos]
      · simp
      · rw [abs_of_pos h0] at h
        have := le_abs_self m
        linarith
  simp only [charge_density_zero_temp, if_neg (not_le.2 h), hs, fermi_momentum, PI2]
  rw [show mu * mu + -(m * m) = mu ^ 2 - m ^ 2 by ring]
  ring

/-- **C51** (left inverse). -/
theorem C51_chemical_potential_of_density (k : Consts ℝ) (m mu : ℝ) (hk : 0 < k.nc) (h : |m| < |mu|) :
    chemical_potential_zero_temp k m (charge_density_zero_temp k m mu) = mu := by
  have hk' : (0 : ℝ) < k.nc := by exact_mod_cast hk
  have hpi := Real.pi_pos
  have hd : 0 < mu ^ 2 - m ^ 2 := sub_pos.2 (sq_lt_sq.2 h)
  have hs3 : 0 < Real.sqrt (mu ^ 2 - m ^ 2) ^ 3 := by positivity
  have hmu : mu ≠ 0 := fun h0 => by rw [h0, abs_zero] at h; exact absurd (abs_nonneg m) (not_le.2 h)
  have hpow : ((Real.sqrt (mu ^ 2 - m ^ 2) ^ 3 : ℝ)) ^ ((2 : ℝ) / 3) = mu ^ 2 - m ^ 2 := by
    rw [← Real.rpow_natCast, ← Real.rpow_mul (Real.sqrt_nonneg _), Real.sqrt_eq_rpow, ← Real.rpow_mul hd.le]
    norm_num
  rw [C51_density_value k m mu h]
  set r := Real.sqrt (mu ^ 2 - m ^ 2) ^ 3
  have key : ∀ s : ℝ, s = 1 ∨ s = -1 → (3 * PI2 * |k.nc * s * r / (3 * Real.pi ^ 2)| / (k.nc : ℝ)) = r := by
    intro s hs
    have : |s| = 1 := by rcases hs with rfl | rfl <;> simp
    rw [abs_div, abs_mul, abs_mul, this, abs_of_pos hk', abs_of_pos hs3,
      abs_of_pos (by positivity : 0 < 3 * Real.pi ^ 2), PI2]
    field_simp
  unfold chemical_potential_zero_temp
  rcases lt_or_gt_of_ne hmu with h0 | h0
  · have hn : (k.nc * ((SignType.sign mu : SignType) : ℝ) * r / (3 * Real.pi ^ 2)) < 0 := by
      rw [sign_neg h0]
      apply div_neg_of_neg_of_pos _ (by positivity)
      simp only [SignType.coe_neg_one]
      nlinarith [mul_pos hk' hs3]
    rw [if_neg hn.ne]
    simp only [if_neg (not_lt.2 hn.le), gt_iff_lt]
    rw [key _ (by right; simp [sign_neg h0]), hpow, show m * m + (mu ^ 2 - m ^ 2) = (-mu) ^ 2 by ring,
      Real.sqrt_sq (by linarith)]
    ring
  · have hn : 0 < (k.nc * ((SignType.sign mu : SignType) : ℝ) * r / (3 * Real.pi ^ 2)) := by
      rw [sign_pos h0]; simp only [SignType.coe_one]; positivity
    rw [if_neg hn.ne']
    simp only [if_pos hn, gt_iff_lt]
    rw [key _ (by left; simp [sign_pos h0]), hpow, show m * m + (mu ^ 2 - m ^ 2) = mu ^ 2 by ring,
      Real.sqrt_sq h0.le]
    ring

/-- **C51** (right inverse). -/
theorem C51_density_of_chemical_potential (k : Consts ℝ) (m n : ℝ) (hk : 0 < k.nc) :
    charge_density_zero_temp k m (chemical_potential_zero_temp k m n) = n := by
  have hk' : (0 : ℝ) < k.nc := by exact_mod_cast hk
  have hpi := Real.pi_pos
  rcases eq_or_ne n 0 with rfl | hn
  · simp [chemical_potential_zero_temp, charge_density_zero_temp]
  set x := 3 * PI2 * |n| / (k.nc : ℝ) with hx
  have hx0 : 0 < x := by
    have := abs_pos.2 hn
    rw [hx, PI2]; positivity
  set a := x ^ ((2 : ℝ) / 3) with ha
  have ha0 : 0 < a := Real.rpow_pos_of_pos hx0 _
  have ha3 : Real.sqrt a ^ 3 = x := by
    rw [Real.sqrt_eq_rpow, ← Real.rpow_natCast, ← Real.rpow_mul ha0.le, ha, ← Real.rpow_mul hx0.le]
    norm_num
  have hsq : Real.sqrt (m * m + a) ^ 2 = m * m + a :=
    Real.sq_sqrt (by nlinarith [mul_self_nonneg m])
  have hpos : 0 < Real.sqrt (m * m + a) := Real.sqrt_pos.2 (by nlinarith [mul_self_nonneg m])
  have hmu : ∃ s : ℝ, (s = SignType.sign n) ∧ (s = 1 ∨ s = -1) ∧
      chemical_potential_zero_temp k m n = s * Real.sqrt (m * m + a) ∧ s * |n| = n := by
    rcases lt_or_gt_of_ne hn with h0 | h0
    · refine ⟨-1, by simp [sign_neg h0], Or.inr rfl, ?_, by rw [abs_of_neg h0]; ring⟩
      simp [chemical_potential_zero_temp, hn, not_lt.2 h0.le, ← hx, ← ha]
    · refine ⟨1, by simp [sign_pos h0], Or.inl rfl, ?_, by rw [abs_of_pos h0]; ring⟩
      simp [chemical_potential_zero_temp, hn, h0, ← hx, ← ha]
  obtain ⟨s, hs, hs1, hmu, hsn⟩ := hmu
  have hs2 : s ^ 2 = 1 := by rcases hs1 with rfl | rfl <;> norm_num
  have hlt : |m| < |s * Real.sqrt (m * m + a)| := by
    apply sq_lt_sq.1
    rw [mul_pow, hs2, hsq]; nlinarith
  rw [hmu, C51_density_value k m _ hlt, mul_pow, hs2, hsq,
    show (1 : ℝ) * (m * m + a) - m ^ 2 = a by ring, ha3]
  have : ((SignType.sign (s * Real.sqrt (m * m + a)) : SignType) : ℝ) = s := by
    rw [sign_mul, sign_pos hpos]
    rcases hs1 with h | h <;> simp [h]
  rw [this, hx, PI2]
  field_simp
  linarith

/- One light quark at a chemical potential of 400 MeV. -/
example (k : Consts ℝ) : chemical_potential_zero_temp { k with nc := 3 } 0.35
    (charge_density_zero_temp { k with nc := 3 } 0.35 0.4) = 0.4 :=
  C51_chemical_potential_of_density { k with nc := 3 } 0.35 0.4 (by norm_num) (by norm_num [abs_lt, abs_of_pos])

/-! ### C52 -/

/-- **C52**: a chemical potential that is returned for `n ≠ 0` reproduces the density within the
tolerance of the integration method, whatever the integrator. -/
theorem C52_sound (ig : Integrator) (k : Consts ℝ) (m beta n mu : ℝ) (integral : Integral ℝ) (hn : n ≠ 0)
    (h : chemical_potential_with_method ig k m beta n integral = .ok mu) :
    ∃ tol, integral.get_tol = some tol ∧ 0 < tol ∧
      |n - charge_density_with_method ig k m beta mu integral| < tol := by
  unfold chemical_potential_with_method at h
  rw [if_neg hn] at h
  cases ht : integral.get_tol with
  | none => rw [ht] at h; simp at h
  | some tol =>
    rw [ht] at h
    simp only at h
    cases hr : utils.find_root (utils.exactOps ℝ)
        (fun mu => n - charge_density_with_method ig k m beta mu integral) (0.5 * n, n) tol 1000 with
    | panic => rw [hr] at h; simp at h
    | none => rw [hr] at h; simp at h
    | some z fz =>
      rw [hr] at h
      simp only [Res.ok.injEq] at h
      subst h
      obtain ⟨_, h2⟩ := utils.C07_find_root_sound_exact _ _ _ _ _ _ hr
      have h3 : |n - charge_density_with_method ig k m beta z integral| < tol := by
        rw [← Real.norm_eq_abs, ← Complex.norm_real]; exact h2
      exact ⟨tol, rfl, lt_of_le_of_lt (abs_nonneg _) h3, h3⟩

/-- **C52** (zero density): the chemical potential of zero density is zero. -/
theorem C52_zero (ig : Integrator) (k : Consts ℝ) (m beta : ℝ) (integral : Integral ℝ) :
    chemical_potential_with_method ig k m beta 0 integral = .ok 0 ∧
    chemical_potential ig k m beta 0 = .ok 0 := by
  simp [chemical_potential_with_method, chemical_potential]

/-- **C52** (methods without a tolerance): any nonzero density panics. -/
theorem C52_no_tolerance (ig : Integrator) (k : Consts ℝ) (m beta n : ℝ) (integral : Integral ℝ)
    (hn : n ≠ 0) (h : integral.get_tol = none) :
    chemical_potential_with_method ig k m beta n integral = .panic := by
  simp [chemical_potential_with_method, hn, h]

/-- **C52** (default method): the tolerance is the global one. -/
theorem C52_default (ig : Integrator) (k : Consts ℝ) (m beta n mu : ℝ) (hn : n ≠ 0)
    (h : chemical_potential ig k m beta n = .ok mu) :
    |n - charge_density ig k m beta mu| < k.tol_integral := by
  obtain ⟨tol, h1, _, h3⟩ := C52_sound ig k m beta n mu _ hn h
  obtain rfl : k.tol_integral = tol := by
    simpa [consts.get_default_integration_method, Integral.get_tol] using h1
  exact h3

/-- **C52** (uniqueness): without quadrature error at most one chemical potential has a given
density. -/
theorem C52_unique (k : Consts ℝ) (m beta mu mu' : ℝ) (hb : 0 < beta) (hk : 0 < k.nc) (integral : Integral ℝ)
    (h : charge_density_with_method .exact k m beta mu integral =
      charge_density_with_method .exact k m beta mu' integral) : mu = mu' :=
  (C50_strictMono k m beta hb hk integral).injective h

/- The hypothesis of `C52_sound` is met for every density, by a method whose tolerance is wide
enough for the second guess `mu = n` to be accepted. -/
example (k : Consts ℝ) (m beta n : ℝ) (hn : n ≠ 0) :
    ∃ integral, chemical_potential_with_method .exact k m beta n integral = .ok n := by
  refine ⟨.G7K15 (|n - charge_density .exact k m beta n| + 1) 20, ?_⟩
  unfold chemical_potential_with_method
  rw [if_neg hn]
  simp only [Integral.get_tol]
  have h1 : (0.5 : ℝ) * n ≠ n := fun h => hn (by linarith)
  have := (utils.C08_find_root_characterisation (utils.exactOps ℝ)
    (fun mu => n - charge_density .exact k m beta mu) (0.5 * n, n)
    (|n - charge_density .exact k m beta n| + 1) 1000
    (by simpa [utils.exactOps] using h1)
    (by simp only [utils.exactOps, decide_eq_true_eq]; positivity)).1 0 (by norm_num)
    (by simp [utils.nanAt, utils.exactOps]) (by simp)
    (by simp [utils.smallAt, utils.exactOps, utils.secant, Qcd.abs])
  unfold charge_density charge_density_with_method Integrator.exact at this
  simp only at this
  unfold charge_density charge_density_with_method Integrator.exact
  simp only
  rw [this]
  rfl

end Qcd
