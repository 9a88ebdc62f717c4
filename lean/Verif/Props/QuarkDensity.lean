import Verif.Lemmas.QuarkDensity

/-! # C101: thermodynamics of the quark charge density

The exact charge density as a function of mass, temperature and chemical potential: units, continuity, massless quarks, limits of low and high
temperature and of high density, existence of the chemical potential, and what the numerical chemical potential is worth. -/

namespace Qcd
open MeasureTheory Filter Topology Set
open consts (Consts Integral)
open qcd.thermal.quark

/-- **C101** (units): the density has the dimension of a momentum to the third power. -/
theorem C101_units (k : Consts ℝ) (m b mu : ℝ) {s : ℝ} (hs : 0 < s) (integral : Integral ℝ) :
    charge_density_with_method .exact k (s * m) (b / s) (s * mu) integral = s ^ 3 * charge_density_with_method .exact k m b mu integral := by
  simp only [density_integral]
  have h := integral_comp_mul_left_Ioi (fun y => y ^ 2 * occ (s * m) (b / s) (s * mu) y) 0 hs
  rw [mul_zero, smul_eq_mul] at h
  have e : ∀ y, (s * y) ^ 2 * occ (s * m) (b / s) (s * mu) (s * y) = s ^ 2 * (y ^ 2 * occ m b mu y) := fun y => by
    have : Real.sqrt (s * m * (s * m) + s * y * (s * y)) = s * Real.sqrt (m * m + y * y) := by
      rw [show s * m * (s * m) + s * y * (s * y) = (m * m + y * y) * s ^ 2 by ring,
        Real.sqrt_mul (add_nonneg (mul_self_nonneg m) (mul_self_nonneg y)), Real.sqrt_sq hs.le, mul_comm]
    simp only [occ, this]
    rw [show (s * Real.sqrt (m * m + y * y) - s * mu) * (b / s) = (Real.sqrt (m * m + y * y) - mu) * b by field_simp,
      show (s * Real.sqrt (m * m + y * y) + s * mu) * (b / s) = (Real.sqrt (m * m + y * y) + mu) * b by field_simp]
    ring
  simp only [e, integral_const_mul] at h
  field_simp at h
  rw [← h]
  ring

/-- **C101** (continuity): the density depends continuously on mass, temperature and chemical potential together. -/
theorem C101_continuous (k : Consts ℝ) (integral : Integral ℝ) :
    ContinuousOn (fun x : ℝ × ℝ × ℝ => charge_density_with_method .exact k x.1 x.2.1 x.2.2 integral) {x | 0 < x.2.1} := by
  intro x (hx : 0 < x.2.1)
  refine ContinuousAt.continuousWithinAt ?_
  simp only [ContinuousAt, density_integral]
  have hb : Tendsto (fun x : ℝ × ℝ × ℝ => x.2.1) (𝓝 x) (𝓝 x.2.1) := (continuous_snd.fst.tendsto x)
  have hmu : Tendsto (fun x : ℝ × ℝ × ℝ => x.2.2) (𝓝 x) (𝓝 x.2.2) := (continuous_snd.snd.tendsto x)
  refine Tendsto.const_mul _ (density_limit (half_pos hx) ((hb.eventually (lt_mem_nhds (half_lt_self hx))).mono fun _ => le_of_lt)
    ((hmu.abs.eventually (gt_mem_nhds (lt_add_one _))).mono fun _ => le_of_lt) countable_empty fun y _ _ => occ_tendsto (continuous_fst.tendsto x) hb hmu y)

theorem density_continuous (k : Consts ℝ) (m : ℝ) {b : ℝ} (hb : 0 < b) (integral : Integral ℝ) :
    Continuous fun mu => charge_density_with_method .exact k m b mu integral :=
  (C101_continuous k integral).comp_continuous (f := fun mu : ℝ => (m, b, mu)) (by fun_prop) fun _ => hb

/-- **C101** (massless quarks): `nc (μT²/3 + μ³/(3π²))`. -/
theorem C101_massless (k : Consts ℝ) {T : ℝ} (hT : 0 < T) (mu : ℝ) (integral : Integral ℝ) :
    charge_density_with_method .exact k 0 T⁻¹ mu integral = k.nc * (mu * T ^ 2 / 3 + mu ^ 3 / (3 * Real.pi ^ 2)) := by
  have h := C101_units k 0 1 (mu / T) hT integral
  rw [mul_zero, mul_div_cancel₀ _ hT.ne', one_div] at h
  rw [h, density_integral]
  have e : ∀ y ∈ Ioi (0 : ℝ), y ^ 2 * occ 0 1 (mu / T) y = y ^ 2 * ((Real.exp (y - mu / T) + 1)⁻¹ - (Real.exp (y + mu / T) + 1)⁻¹) := fun y hy => by
    rw [occ, mul_zero, zero_add, Real.sqrt_mul_self (le_of_lt hy), mul_one, mul_one]
  rw [setIntegral_congr_fun measurableSet_Ioi e, integral_fermi_sq_difference]
  have := Real.pi_pos
  field_simp

/-- **C101** (low temperature): the zero-temperature density is the limit, also when mass and chemical potential have a limit. -/
theorem C101_low_temperature (k : Consts ℝ) (integral : Integral ℝ) {l : Filter ℝ} [l.IsCountablyGenerated] {m b mu : ℝ → ℝ} {m0 mu0 : ℝ}
    (hm : Tendsto m l (𝓝 m0)) (hb : Tendsto b l atTop) (hmu : Tendsto mu l (𝓝 mu0)) :
    Tendsto (fun x => charge_density_with_method .exact k (m x) (b x) (mu x) integral) l (𝓝 (charge_density_zero_temp k m0 mu0)) := by
  simp only [density_integral]
  have hE : ∀ y : ℝ, Tendsto (fun x => Real.sqrt (m x * m x + y * y)) l (𝓝 (Real.sqrt (m0 * m0 + y * y))) :=
    fun y => ((hm.mul hm).add_const (y * y)).sqrt
  have hlim := density_limit (l := l) (m := m) (b := b) (mu := mu) one_pos (hb.eventually_ge_atTop 1) (M := |mu0| + 1)
    ((hmu.abs.eventually (gt_mem_nhds (lt_add_one _))).mono fun _ => le_of_lt) (N := {Real.sqrt (mu0 ^ 2 - m0 ^ 2)}) (countable_singleton _)
    (D := fun y => (if Real.sqrt (m0 * m0 + y * y) - mu0 < 0 then 1 else 0) - (if Real.sqrt (m0 * m0 + y * y) + mu0 < 0 then 1 else 0)) (by
      intro y hy hN
      have hne : Real.sqrt (m0 * m0 + y * y) ≠ |mu0| := fun h => hN (by
        have : m0 * m0 + y * y = mu0 ^ 2 := by
          rw [← sq_abs mu0, ← h, Real.sq_sqrt (add_nonneg (mul_self_nonneg _) (mul_self_nonneg _))]
        rw [mem_singleton_iff, show mu0 ^ 2 - m0 ^ 2 = y ^ 2 by linarith, Real.sqrt_sq hy.le])
      have hpos : 0 < Real.sqrt (m0 * m0 + y * y) := Real.sqrt_pos.2 (by nlinarith [mul_self_nonneg m0, mul_self_pos.2 hy.ne'])
      refine (step_tendsto ((hE y).sub hmu) (fun h => hne ?_) hb).sub (step_tendsto ((hE y).add hmu) (fun h => hne ?_) hb)
      · rw [sub_eq_zero.1 h] at hpos ⊢
        exact (abs_of_pos hpos).symm
      · have : mu0 < 0 := by linarith
        rw [abs_of_neg this]; linarith)
  have hval : k.nc / Real.pi ^ 2 * (∫ y in Ioi (0 : ℝ), y ^ 2 * ((if Real.sqrt (m0 * m0 + y * y) - mu0 < 0 then 1 else 0) -
      (if Real.sqrt (m0 * m0 + y * y) + mu0 < 0 then 1 else 0))) = charge_density_zero_temp k m0 mu0 := by
    rcases le_or_gt |mu0| |m0| with h | h
    · rw [C51_density_threshold k m0 mu0 h]
      have e : ∀ y ∈ Ioi (0 : ℝ), y ^ 2 * ((if Real.sqrt (m0 * m0 + y * y) - mu0 < 0 then (1 : ℝ) else 0) -
          (if Real.sqrt (m0 * m0 + y * y) + mu0 < 0 then 1 else 0)) = 0 := fun y (hy : 0 < y) => by
        have h1 : |mu0| ≤ Real.sqrt (m0 * m0 + y * y) := h.trans (Real.abs_le_sqrt (by nlinarith [mul_self_nonneg y]))
        have h2 := le_abs_self mu0
        have h3 := neg_abs_le mu0
        rw [if_neg (by linarith), if_neg (by linarith)]; ring
      rw [setIntegral_congr_fun measurableSet_Ioi e]
      simp
    · rw [C51_density_value k m0 mu0 h]
      have hd : 0 < mu0 ^ 2 - m0 ^ 2 := sub_pos.2 (sq_lt_sq.2 h)
      have key : ∀ y : ℝ, 0 < y → (Real.sqrt (m0 * m0 + y * y) < |mu0| ↔ y < Real.sqrt (mu0 ^ 2 - m0 ^ 2)) := fun y hy => by
        rw [Real.lt_sqrt hy.le, Real.sqrt_lt' ((abs_nonneg m0).trans_lt h), sq_abs]
        constructor <;> intro h' <;> linarith
      have e : ∀ y ∈ Ioi (0 : ℝ), y ^ 2 * ((if Real.sqrt (m0 * m0 + y * y) - mu0 < 0 then (1 : ℝ) else 0) -
          (if Real.sqrt (m0 * m0 + y * y) + mu0 < 0 then 1 else 0)) = (SignType.sign mu0 : ℝ) * (y ^ 2 * (if y < Real.sqrt (mu0 ^ 2 - m0 ^ 2) then 1 else 0)) :=
        fun y (hy : 0 < y) => by
          have hpos := Real.sqrt_nonneg (m0 * m0 + y * y)
          have k0 := key y hy
          rcases lt_trichotomy mu0 0 with hs | hs | hs
          · rw [abs_of_neg hs] at k0
            rw [if_neg (by linarith), sign_neg hs]
            simp only [SignType.coe_neg_one, ← k0]
            have : (Real.sqrt (m0 * m0 + y * y) + mu0 < 0) ↔ (Real.sqrt (m0 * m0 + y * y) < -mu0) := by constructor <;> intro h' <;> linarith
            simp only [this]
            split_ifs <;> ring
          · rw [hs, abs_zero] at h; exact absurd (abs_nonneg m0) (not_le.2 h)
          · rw [abs_of_pos hs] at k0
            rw [if_neg (by linarith : ¬Real.sqrt (m0 * m0 + y * y) + mu0 < 0), sign_pos hs]
            simp only [SignType.coe_one, ← k0]
            have : (Real.sqrt (m0 * m0 + y * y) - mu0 < 0) ↔ (Real.sqrt (m0 * m0 + y * y) < mu0) := by constructor <;> intro h' <;> linarith
            simp only [this]
            split_ifs <;> ring
      rw [setIntegral_congr_fun measurableSet_Ioi e, integral_const_mul, integral_fermi_ball _ (Real.sqrt_nonneg _)]
      have := Real.pi_pos
      field_simp
  rw [← hval]
  exact hlim.const_mul _

/-- **C101** (high temperature): with `μ/T → v`, the density over `T³` is in the limit that of massless quarks. -/
theorem C101_high_temperature (k : Consts ℝ) (m : ℝ) (integral : Integral ℝ) {mu : ℝ → ℝ} {v : ℝ} (hmu : Tendsto (fun T => mu T / T) atTop (𝓝 v)) :
    Tendsto (fun T : ℝ => charge_density_with_method .exact k m T⁻¹ (mu T) integral / T ^ 3) atTop (𝓝 (k.nc * (v / 3 + v ^ 3 / (3 * Real.pi ^ 2)))) := by
  have h0 := C101_massless k one_pos v integral
  rw [inv_one, one_pow, mul_one] at h0
  rw [← h0]
  have hc := (C101_continuous k integral).continuousAt (x := ((0 : ℝ), (1 : ℝ), v)) ((isOpen_lt continuous_const continuous_snd.fst).mem_nhds (one_pos : (0 : ℝ) < 1))
  have hx : Tendsto (fun T : ℝ => (m / T, (1 : ℝ), mu T / T)) atTop (𝓝 (0, 1, v)) :=
    (tendsto_const_nhds.div_atTop tendsto_id).prodMk_nhds (tendsto_const_nhds.prodMk_nhds hmu)
  refine (hc.tendsto.comp hx).congr' ?_
  filter_upwards [eventually_gt_atTop 0] with T hT
  have h := C101_units k (m / T) 1 (mu T / T) hT integral
  rw [mul_div_cancel₀ _ hT.ne', mul_div_cancel₀ _ hT.ne', one_div] at h
  simp only [Function.comp]
  rw [h]
  field_simp

/-- **C101** (high density): at fixed temperature, or with a temperature that grows less than the chemical potential, `n/μ³ → nc/(3π²)`. -/
theorem C101_high_density (k : Consts ℝ) (m : ℝ) (integral : Integral ℝ) {b : ℝ → ℝ} (hb : Tendsto (fun mu => b mu * mu) atTop atTop) :
    Tendsto (fun mu : ℝ => charge_density_with_method .exact k m (b mu) mu integral / mu ^ 3) atTop (𝓝 (k.nc / (3 * Real.pi ^ 2))) := by
  have h0 : charge_density_zero_temp k 0 1 = k.nc / (3 * Real.pi ^ 2) := by
    rw [C51_density_value k 0 1 (by norm_num)]
    norm_num
  rw [← h0]
  refine (C101_low_temperature k integral (m := fun mu : ℝ => m / mu) (b := fun mu => b mu * mu) (mu := fun _ => 1)
    (tendsto_const_nhds.div_atTop tendsto_id) hb tendsto_const_nhds).congr' ?_
  filter_upwards [eventually_gt_atTop 0] with mu hmu
  have h := C101_units k (m / mu) (b mu * mu) 1 hmu integral
  rw [mul_div_cancel₀ _ hmu.ne', mul_div_cancel_right₀ _ hmu.ne', mul_one] at h
  rw [h]
  field_simp

theorem density_atTop (k : Consts ℝ) (hk : 0 < k.nc) (m : ℝ) {b : ℝ} (hb : 0 < b) (integral : Integral ℝ) :
    Tendsto (fun mu => charge_density_with_method .exact k m b mu integral) atTop atTop := by
  have hk' : (0 : ℝ) < k.nc := by exact_mod_cast hk
  have hpi := Real.pi_pos
  have h := C101_high_density k m integral (b := fun _ => b) (tendsto_id.const_mul_atTop hb)
  have h2 := h.pos_mul_atTop (by positivity) (tendsto_pow_atTop (α := ℝ) (n := 3) (by norm_num))
  refine h2.congr' ?_
  filter_upwards [eventually_gt_atTop 0] with mu hmu
  field_simp

/-- **C101** (chemical potential): at every temperature there is exactly one chemical potential of a given density. -/
theorem C101_chemical_potential_exists (k : Consts ℝ) (hk : 0 < k.nc) (m : ℝ) {b : ℝ} (hb : 0 < b) (integral : Integral ℝ) (n : ℝ) :
    ∃! mu, charge_density_with_method .exact k m b mu integral = n := by
  have hbot : Tendsto (fun mu => charge_density_with_method .exact k m b mu integral) atBot atBot := by
    have h := tendsto_neg_atTop_atBot.comp ((density_atTop k hk m hb integral).comp tendsto_neg_atBot_atTop)
    refine h.congr fun mu => ?_
    simp only [Function.comp]
    rw [(C50_odd .exact exact_odd k m b mu integral).1, neg_neg]
  obtain ⟨mu, hmu⟩ := (density_continuous k m hb integral).surjective (density_atTop k hk m hb integral) hbot n
  exact ⟨mu, hmu, fun mu' h' => (C50_strictMono k m b hb hk integral).injective (h'.trans hmu.symm)⟩

/-- **C101** (accuracy): a chemical potential that is returned lies between the exact chemical potentials of the densities `n - tol` and `n + tol`. -/
theorem C101_chemical_potential_bracket (k : Consts ℝ) (hk : 0 < k.nc) (m : ℝ) {b : ℝ} (hb : 0 < b) (integral : Integral ℝ) {n mu tol : ℝ} (hn : n ≠ 0)
    (ht : integral.get_tol = some tol) (h : chemical_potential_with_method .exact k m b n integral = .ok mu)
    {lo hi : ℝ} (hlo : charge_density_with_method .exact k m b lo integral = n - tol) (hhi : charge_density_with_method .exact k m b hi integral = n + tol) :
    lo < mu ∧ mu < hi := by
  obtain ⟨tol', e, -, h3⟩ := C52_sound .exact k m b n mu integral hn h
  rw [ht, Option.some.injEq] at e
  subst e
  obtain ⟨h1, h2⟩ := abs_lt.1 h3
  have hs := C50_strictMono k m b hb hk integral
  exact ⟨hs.lt_iff_lt.1 (by linarith), hs.lt_iff_lt.1 (by linarith)⟩

/-- **C101** (accuracy): the numerical chemical potentials converge to the exact one as the tolerance goes to zero. -/
theorem C101_chemical_potential_accuracy (k : Consts ℝ) (hk : 0 < k.nc) (m : ℝ) {b : ℝ} (hb : 0 < b) {n mu : ℝ}
    (hmu : ∀ integral, charge_density_with_method .exact k m b mu integral = n) {ε : ℝ} (hε : 0 < ε) :
    ∃ δ > 0, ∀ integral tol mu', integral.get_tol = some tol → tol ≤ δ →
      chemical_potential_with_method .exact k m b n integral = .ok mu' → |mu' - mu| < ε := by
  have hs := fun integral => C50_strictMono k m b hb hk integral
  let i0 : Integral ℝ := .G7K15 1 1
  have hi : ∀ integral x, charge_density_with_method .exact k m b x integral = charge_density_with_method .exact k m b x i0 := fun _ _ => rfl
  have h1 := hs i0 (show mu - ε < mu by linarith)
  have h2 := hs i0 (show mu < mu + ε by linarith)
  simp only [hmu i0] at h1 h2
  refine ⟨min (n - charge_density_with_method .exact k m b (mu - ε) i0) (charge_density_with_method .exact k m b (mu + ε) i0 - n),
    lt_min (by linarith) (by linarith), fun integral tol mu' ht htol h => ?_⟩
  rcases eq_or_ne n 0 with hn | hn
  · subst hn
    rw [(C52_zero .exact k m b integral).1, Res.ok.injEq] at h
    subst h
    have : mu = 0 := (hs i0).injective (by simp only [hmu i0]; exact ((C50_zero .exact exact_zero k m b i0).1).symm)
    rw [this]; simpa using hε
  · obtain ⟨tol', e, -, h3⟩ := C52_sound .exact k m b n mu' integral hn h
    rw [ht, Option.some.injEq] at e
    subst e
    rw [hi] at h3
    obtain ⟨h4, h5⟩ := abs_lt.1 h3
    have h6 := htol.trans (min_le_left _ _)
    have h7 := htol.trans (min_le_right _ _)
    have h8 := (hs i0).lt_iff_lt (a := mu - ε) (b := mu') |>.1 (by linarith)
    have h9 := (hs i0).lt_iff_lt (a := mu') (b := mu + ε) |>.1 (by linarith)
    exact abs_lt.2 ⟨by linarith, by linarith⟩

/-- **C101** (low temperature): the chemical potentials of a density tend to the zero-temperature one. -/
theorem C101_chemical_potential_low_temperature (k : Consts ℝ) (hk : 0 < k.nc) (m : ℝ) (integral : Integral ℝ) {n : ℝ} (hn : n ≠ 0) {mu : ℝ → ℝ}
    (hmu : ∀ᶠ b in atTop, charge_density_with_method .exact k m b (mu b) integral = n) :
    Tendsto mu atTop (𝓝 (chemical_potential_zero_temp k m n)) := by
  set mu0 := chemical_potential_zero_temp k m n with h0
  have hd : charge_density_zero_temp k m mu0 = n := C51_density_of_chemical_potential k m n hk
  have hm : |m| < |mu0| := by
    by_contra h
    rw [C51_density_threshold k m mu0 (not_lt.1 h)] at hd
    exact hn hd.symm
  -- the zero-temperature density is nondecreasing, and takes the value `n` once
  have hmono : Monotone fun x => charge_density_zero_temp k m x := fun x y hxy =>
    le_of_tendsto_of_tendsto (C101_low_temperature k integral (l := atTop) (m := fun _ => m) (b := fun b => b) (mu := fun _ => x) tendsto_const_nhds tendsto_id tendsto_const_nhds)
      (C101_low_temperature k integral (l := atTop) (m := fun _ => m) (b := fun b => b) (mu := fun _ => y) tendsto_const_nhds tendsto_id tendsto_const_nhds)
      (by filter_upwards [eventually_gt_atTop 0] with b hb using (C50_strictMono k m b hb hk integral).monotone hxy)
  have hinj : ∀ x, charge_density_zero_temp k m x = n → x = mu0 := fun x hx => by
    have : |m| < |x| := by
      by_contra h
      rw [C51_density_threshold k m x (not_lt.1 h)] at hx
      exact hn hx.symm
    rw [← C51_chemical_potential_of_density k m x hk this, hx]
  rw [Metric.tendsto_nhds]
  intro ε hε
  have h1 : charge_density_zero_temp k m (mu0 - ε) < n :=
    lt_of_le_of_ne (hd ▸ hmono (by linarith)) fun h => by have := hinj _ h; linarith
  have h2 : n < charge_density_zero_temp k m (mu0 + ε) :=
    lt_of_le_of_ne (hd ▸ hmono (by linarith)) fun h => by have := hinj _ h.symm; linarith
  have l1 := C101_low_temperature k integral (l := atTop) (m := fun _ => m) (b := fun b => b) (mu := fun _ => mu0 - ε) tendsto_const_nhds tendsto_id tendsto_const_nhds
  have l2 := C101_low_temperature k integral (l := atTop) (m := fun _ => m) (b := fun b => b) (mu := fun _ => mu0 + ε) tendsto_const_nhds tendsto_id tendsto_const_nhds
  filter_upwards [hmu, l1.eventually (gt_mem_nhds h1), l2.eventually (lt_mem_nhds h2), eventually_gt_atTop 0] with b e a1 a2 hb
  have hs := C50_strictMono k m b hb hk integral
  rw [← e] at a1 a2
  rw [Real.dist_eq, abs_lt]
  have := hs.lt_iff_lt.1 a1
  have := hs.lt_iff_lt.1 a2
  constructor <;> linarith

-- the hypothesis of the last theorem is met
example (k : Consts ℝ) (hk : 0 < k.nc) (m n : ℝ) (integral : Integral ℝ) :
    ∃ mu : ℝ → ℝ, ∀ᶠ b in atTop, charge_density_with_method .exact k m b (mu b) integral = n := by
  refine ⟨fun b => if hb : 0 < b then (C101_chemical_potential_exists k hk m hb integral n).choose else 0, ?_⟩
  filter_upwards [eventually_gt_atTop 0] with b hb
  rw [dif_pos hb]
  exact (C101_chemical_potential_exists k hk m hb integral n).choose_spec.1

-- the default method has a tolerance
example (k : Consts ℝ) : (consts.get_default_integration_method k).get_tol = some k.tol_integral := rfl

end Qcd
