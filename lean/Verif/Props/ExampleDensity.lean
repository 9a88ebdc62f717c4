import Verif.Model.ExamplePlots
import Verif.Spec.Overall
import Verif.Props.QuarkDensity
import Verif.Props.Consts
import Verif.Lemmas.Holomorphic

/-! # C102: the plots of the charge density and of the chemical potential

`examples/qcd_quark_charge_density.rs` and `examples/qcd_quark_chemical_potential.rs`. -/

namespace Qcd
open consts (Consts Setter after)
open examples
open qcd.thermal.quark

/-- The grid of the two programs: 4000 points, symmetric but for the first. -/
theorem open_grid_eq : open_grid (-2) 2 (1 / 1000) = (List.range 4000).map fun i : ℕ => (((i : ℤ) - 2000 : ℤ) : ℝ) / 1000 := by
  have h : ⌊((2 : ℝ) - -2) / (1 / 1000)⌋₊ = 4000 := by
    rw [show ((2 : ℝ) - -2) / (1 / 1000) = ((4000 : ℕ) : ℝ) by norm_num, Nat.floor_natCast]
  simp only [open_grid, h]
  refine List.map_congr_left fun i _ => ?_
  push_cast
  ring

theorem detail_length {A : Type} (v : List A) (c : ℕ) (h : c ≤ v.length) : (detail c v).length = v.length - c - c := by
  simp only [detail, List.length_drop, List.length_take]
  omega

theorem low_temperatures : (density_temperatures.filter fun t => @decide (t ≤ 2 / 10) (Classical.propDecidable _)) = [1 / 10, 2 / 10] := by
  norm_num [density_temperatures, List.filter_cons]

/-- The temperatures of the labels: `0.1`, `0.2`, ..., `1` GeV. -/
noncomputable def Spec.density_temperatures : List ℝ := (List.range 10).map fun j : ℕ => ((j : ℝ) + 1) / 10

theorem density_temperatures_eq : density_temperatures = Spec.density_temperatures := by
  norm_num [density_temperatures, Spec.density_temperatures, List.range_succ]

/-- **C102** (density): the first plot has a label for each of its eleven curves of 4000 points. The second, of the 1500 points in the middle, has
three curves and the same eleven labels: it is not well formed. -/
theorem C102_density_plots (ig : Integrator) (k : Consts ℝ) (fmt : ℝ → String) :
    ∃ pl pl', qcd_quark_charge_density.main ig k fmt = [pl, pl'] ∧
      tc.Spec.Plot.WellFormed pl ∧ pl.images.length = 11 ∧ pl.domain.length = 4000 ∧
      ¬tc.Spec.Plot.WellFormed pl' ∧ pl'.images.length = 3 ∧ pl'.legend.length = 11 ∧ pl'.domain.length = 1500 := by
  have hl : qcd_quark_charge_density.chempots.length = 4000 := by rw [qcd_quark_charge_density.chempots, open_grid_eq]; simp
  have hd : (detail qcd_quark_charge_density.c qcd_quark_charge_density.chempots).length = 1500 := by
    rw [detail_length _ _ (by rw [hl]; norm_num [qcd_quark_charge_density.c]), hl]
    norm_num [qcd_quark_charge_density.c]
  refine ⟨_, _, rfl, ⟨?_, Or.inr ?_⟩, ?_, ?_, ?_, ?_, ?_, ?_⟩
  · intro im him
    simp only [List.mem_cons, List.mem_map] at him
    rcases him with rfl | ⟨t, -, rfl⟩
    · simp [qcd_quark_charge_density.vals_zero]
    · simp [qcd_quark_charge_density.vals]
  · simp [density_temperatures]
  · simp [density_temperatures]
  · dsimp only; rw [hl]
  · rintro ⟨-, h | h⟩
    · simp at h
    · rw [low_temperatures] at h
      simp [density_temperatures] at h
  · rw [low_temperatures]; rfl
  · simp [density_temperatures]
  · dsimp only; rw [hd]

/-- The zero-temperature density is odd. -/
theorem density_zero_temp_odd (k : Consts ℝ) (m mu : ℝ) : charge_density_zero_temp k m (-mu) = -charge_density_zero_temp k m mu := by
  rcases le_or_gt |mu| |m| with h | h
  · rw [C51_density_threshold k m mu h, C51_density_threshold k m (-mu) (by rwa [abs_neg]), neg_zero]
  · rw [C51_density_value k m mu h, C51_density_value k m (-mu) (by rwa [abs_neg]), neg_sq, Left.sign_neg]
    push_cast
    ring

/-- The curves of the first plot: a density as a function of the chemical potential, at the points `(i - 2000)/1000`. -/
theorem density_curves (ig : Integrator) (k : Consts ℝ) (fmt : ℝ → String) : ∀ pl ∈ (qcd_quark_charge_density.main ig k fmt).head?,
    pl.images = (fun (N : ℝ → ℝ) => (List.range 4000).map fun i : ℕ => N ((((i : ℤ) - 2000 : ℤ) : ℝ) / 1000)) <$>
      (charge_density_zero_temp k (5 / 10) :: density_temperatures.map fun t mu => charge_density ig k (5 / 10) (1 / t) mu) := by
  intro pl hpl
  simp only [qcd_quark_charge_density.main, List.head?_cons, Option.mem_def, Option.some.injEq] at hpl
  subst hpl
  have e : ∀ t, qcd_quark_charge_density.vals ig k t = (List.range 4000).map fun i : ℕ => charge_density ig k (5 / 10) (1 / t) ((((i : ℤ) - 2000 : ℤ) : ℝ) / 1000) := fun t => by
    simp only [qcd_quark_charge_density.vals, qcd_quark_charge_density.chempots, open_grid_eq, List.map_map, Function.comp_def, qcd_quark_charge_density.mq]
  simp only [qcd_quark_charge_density.vals_zero, qcd_quark_charge_density.chempots, open_grid_eq, List.map_map, Function.comp_def,
    List.map_eq_map, List.map_cons, qcd_quark_charge_density.mq]
  rw [funext e]

/-- **C102** (density): the abscissas of the first plot are the chemical potentials `-2, -1.999, ..., 1.999` GeV. Its first curve, labelled `T = 0.0 GeV`,
is the zero-temperature density of a quark of mass 0.5 GeV, and the curve labelled with the temperature `T`, for `T = 0.1, 0.2, ..., 1` GeV, is the
density at the inverse temperature `1 / T`. -/
theorem C102_density_curves (ig : Integrator) (k : Consts ℝ) (fmt : ℝ → String) : ∀ pl ∈ (qcd_quark_charge_density.main ig k fmt).head?,
    (∀ i : ℕ, i < 4000 → pl.domain[i]? = some (-2 + (i : ℝ) / 1000)) ∧
    pl.legend[0]? = some "T = 0.0 GeV" ∧ pl.images[0]? = some (pl.domain.map fun mu => charge_density_zero_temp k 0.5 mu) ∧
    ∀ j : ℕ, 1 ≤ j → j ≤ 10 → pl.legend[j]? = some ("T = " ++ fmt ((j : ℝ) / 10) ++ " GeV") ∧
      pl.images[j]? = some (pl.domain.map fun mu => charge_density ig k 0.5 (1 / ((j : ℝ) / 10)) mu) := by
  intro pl hpl
  have hm : (5 / 10 : ℝ) = 0.5 := by norm_num
  simp only [qcd_quark_charge_density.main, List.head?_cons, Option.mem_def, Option.some.injEq] at hpl
  subst hpl
  refine ⟨fun i hi => ?_, rfl, ?_, fun j h1 h2 => ?_⟩
  · dsimp only
    rw [qcd_quark_charge_density.chempots, open_grid_eq, List.getElem?_map, List.getElem?_range hi, Option.map_some]
    push_cast
    congr 1
    ring
  · simp only [qcd_quark_charge_density.vals_zero, qcd_quark_charge_density.mq, hm, List.getElem?_cons_zero]
  · obtain ⟨j, rfl⟩ : ∃ i, j = i + 1 := ⟨j - 1, by omega⟩
    have ht : density_temperatures[j]? = some (((j + 1 : ℕ) : ℝ) / 10) := by
      rw [density_temperatures_eq, Spec.density_temperatures, List.getElem?_map, List.getElem?_range (by omega), Option.map_some]
      push_cast
      rfl
    simp only [List.getElem?_cons_succ, List.getElem?_map, ht, Option.map_some, qcd_quark_charge_density.vals, qcd_quark_charge_density.mq, hm, and_self]

/-- **C102** (density): each curve vanishes at zero chemical potential, in the middle, and is antisymmetric about it. -/
theorem C102_density_symmetry (ig : Integrator) (ho : ig.Odd) (h0 : ig.Zero) (k : Consts ℝ) (fmt : ℝ → String) :
    ∀ pl ∈ (qcd_quark_charge_density.main ig k fmt).head?, ∀ im ∈ pl.images,
      im[2000]? = some 0 ∧ ∀ j : ℕ, 0 < j → j < 2000 → ∃ x : ℝ, im[2000 + j]? = some x ∧ im[2000 - j]? = some (-x) := by
  intro pl hpl im him
  rw [density_curves ig k fmt pl hpl, List.map_eq_map, List.mem_map] at him
  obtain ⟨N, hN, rfl⟩ := him
  have hN' : N 0 = 0 ∧ ∀ x, N (-x) = -N x := by
    simp only [List.mem_cons, List.mem_map] at hN
    rcases hN with rfl | ⟨t, -, rfl⟩
    · exact ⟨C51_density_threshold k _ _ (by simp), density_zero_temp_odd k _⟩
    · exact ⟨(C50_zero ig h0 k _ _ (consts.get_default_integration_method k)).2, fun x => (C50_odd ig ho k _ _ x (consts.get_default_integration_method k)).2⟩
  refine ⟨?_, fun j h1 h2 => ⟨N ((j : ℝ) / 1000), ?_, ?_⟩⟩
  · rw [List.getElem?_map, List.getElem?_range (by norm_num)]
    simp [hN'.1]
  · rw [List.getElem?_map, List.getElem?_range (by omega)]
    simp
  · rw [List.getElem?_map, List.getElem?_range (by omega), Option.map_some, ← hN'.2]
    have : (((2000 - j : ℕ) : ℤ) - 2000 : ℤ) = -(j : ℤ) := by omega
    rw [this]
    push_cast
    ring_nf

/-- **C102** (density): without quadrature errors the curves of nonzero temperature are strictly increasing and the one of zero temperature is
nondecreasing, and flat exactly for chemical potentials up to the mass. -/
theorem C102_density_increasing (k : Consts ℝ) (hk : 0 < k.nc) (fmt : ℝ → String) : ∀ pl ∈ (qcd_quark_charge_density.main .exact k fmt).head?,
    (∀ im ∈ pl.images.tail, im.Pairwise (· < ·)) ∧
    ∀ im ∈ pl.images.head?, im.Pairwise (· ≤ ·) ∧ ∀ i : ℕ, (im[i]? = some 0 ↔ 1500 ≤ i ∧ i ≤ 2500) := by
  intro pl hpl
  rw [density_curves .exact k fmt pl hpl]
  have key : ∀ {r : ℝ → ℝ → Prop} (N : ℝ → ℝ), (∀ x y, x < y → r (N x) (N y)) →
      ((List.range 4000).map fun i : ℕ => N ((((i : ℤ) - 2000 : ℤ) : ℝ) / 1000)).Pairwise r := by
    intro r N h
    rw [List.pairwise_map]
    refine List.Pairwise.imp (fun {a b} hab => ?_) List.pairwise_lt_range
    apply h
    have : (a : ℝ) < b := by exact_mod_cast hab
    push_cast
    linarith
  refine ⟨?_, ?_⟩
  · intro im him
    rw [List.map_eq_map, List.map_cons, List.tail_cons, List.mem_map] at him
    obtain ⟨N, hN, rfl⟩ := him
    rw [List.mem_map] at hN
    obtain ⟨t, ht, rfl⟩ := hN
    have ht' : 0 < 1 / t := by
      simp only [density_temperatures, List.mem_cons, List.not_mem_nil, or_false] at ht
      rcases ht with rfl | rfl | rfl | rfl | rfl | rfl | rfl | rfl | rfl | rfl <;> norm_num
    exact key _ fun x y hxy => C50_strictMono k _ _ ht' hk (consts.get_default_integration_method k) hxy
  · intro im him
    simp only [List.map_eq_map, List.map_cons, List.head?_cons, Option.mem_def, Option.some.injEq] at him
    subst him
    have hk' : (0 : ℝ) < k.nc := by exact_mod_cast hk
    have hpi := Real.pi_pos
    constructor
    · refine key _ fun x y hxy => ?_
      exact le_of_tendsto_of_tendsto (C101_low_temperature k (.G7K15 1 1) (l := Filter.atTop) (m := fun _ => 5 / 10) (b := fun b => b) (mu := fun _ => x)
          tendsto_const_nhds Filter.tendsto_id tendsto_const_nhds)
        (C101_low_temperature k (.G7K15 1 1) (l := Filter.atTop) (m := fun _ => 5 / 10) (b := fun b => b) (mu := fun _ => y) tendsto_const_nhds Filter.tendsto_id tendsto_const_nhds)
        (by filter_upwards [Filter.eventually_gt_atTop 0] with b hb using (C50_strictMono k _ b hb hk _).monotone hxy.le)
    · intro i
      by_cases hi : i < 4000
      · rw [List.getElem?_map, List.getElem?_range hi, Option.map_some, Option.some.injEq]
        constructor
        · intro h
          by_contra hc
          have hlt : |(5 : ℝ) / 10| < |(((i : ℤ) - 2000 : ℤ) : ℝ) / 1000| := by
            rw [abs_of_pos (by norm_num : (0 : ℝ) < 5 / 10), abs_div, ← Int.cast_abs, abs_of_pos (by norm_num : (0 : ℝ) < 1000), lt_div_iff₀ (by norm_num)]
            have : (500 : ℤ) < |(i : ℤ) - 2000| := by rw [lt_abs]; omega
            have : (500 : ℝ) < ((|(i : ℤ) - 2000| : ℤ) : ℝ) := by exact_mod_cast this
            linarith
          rw [C51_density_value k _ _ hlt] at h
          have hd : 0 < ((((i : ℤ) - 2000 : ℤ) : ℝ) / 1000) ^ 2 - (5 / 10 : ℝ) ^ 2 := sub_pos.2 (sq_lt_sq.2 hlt)
          have hs : ((SignType.sign ((((i : ℤ) - 2000 : ℤ) : ℝ) / 1000) : SignType) : ℝ) ≠ 0 := by
            intro h0
            have : SignType.sign ((((i : ℤ) - 2000 : ℤ) : ℝ) / 1000) = 0 := by
              rcases SignType.trichotomy (SignType.sign ((((i : ℤ) - 2000 : ℤ) : ℝ) / 1000)) with h1 | h1 | h1 <;> rw [h1] at h0 ⊢ <;> norm_num at h0
            rw [sign_eq_zero_iff] at this
            rw [this, abs_zero] at hlt
            exact absurd (abs_nonneg _) (not_le.2 hlt)
          have : 0 < Real.sqrt (((((i : ℤ) - 2000 : ℤ) : ℝ) / 1000) ^ 2 - (5 / 10) ^ 2) := Real.sqrt_pos.2 hd
          have h3 : Real.sqrt (((((i : ℤ) - 2000 : ℤ) : ℝ) / 1000) ^ 2 - (5 / 10) ^ 2) ^ 3 ≠ 0 := by positivity
          exact div_ne_zero (mul_ne_zero (mul_ne_zero hk'.ne' hs) h3) (by positivity) h
        · rintro ⟨h1, h2⟩
          refine C51_density_threshold k _ _ ?_
          rw [abs_of_pos (by norm_num : (0 : ℝ) < 5 / 10), abs_div, ← Int.cast_abs, abs_of_pos (by norm_num : (0 : ℝ) < 1000), div_le_iff₀ (by norm_num)]
          have : |(i : ℤ) - 2000| ≤ 500 := by rw [abs_le]; omega
          have : ((|(i : ℤ) - 2000| : ℤ) : ℝ) ≤ 500 := by exact_mod_cast this
          linarith
      · rw [List.getElem?_eq_none (by simpa using hi)]
        constructor
        · intro h; cases h
        · rintro ⟨-, h⟩; omega

/-! ## The chemical potential -/

open qcd_quark_chemical_potential (collect)

theorem collect_some {l : List Res} {v : List ℝ} : collect l = some v ↔ l = v.map Res.ok := by
  induction l generalizing v with
  | nil => cases v <;> simp [collect]
  | cons r l ih =>
    cases r with
    | panic => cases v <;> simp [collect]
    | ok x =>
      cases v with
      | nil => simp [collect]
      | cons y v =>
        simp only [collect, Option.map_eq_some_iff, List.cons.injEq, List.map_cons, Res.ok.injEq]
        constructor
        · rintro ⟨w, h1, h2, rfl⟩
          exact ⟨h2, ih.1 h1⟩
        · rintro ⟨h1, h2⟩
          exact ⟨v, ih.2 h2, h1, rfl⟩

/-- The constants during the run: the default tolerance is changed. -/
noncomputable def chemConsts (k : Consts ℝ) : Consts ℝ := { k with tol_integral := 1 / 100000 }

theorem chemConsts_eq (k : Consts ℝ) : (consts.set_default_tol_integral (1 / 100000) k).state = chemConsts k := by
  simp [consts.set_default_tol_integral, consts.FloatOps.gt0, chemConsts]

theorem mapM_vals {f : ℝ → Option (List ℝ)} {l : List ℝ} {vs : List (ℝ × List ℝ)} :
    (l.mapM fun t => (f t).map fun v => (t, v)) = some vs ↔ vs.map Prod.fst = l ∧ ∀ v ∈ vs, f v.1 = some v.2 := by
  induction l generalizing vs with
  | nil =>
    simp only [List.mapM_nil, Option.pure_def, Option.some.injEq, List.map_eq_nil_iff]
    constructor
    · rintro rfl
      simp
    · rintro ⟨rfl, -⟩
      rfl
  | cons t l ih =>
    simp only [List.mapM_cons, Option.pure_def, Option.bind_eq_bind, Option.bind_eq_some_iff, Option.map_eq_some_iff, Option.some.injEq]
    constructor
    · rintro ⟨a, ⟨v, hv, rfl⟩, w, hw, rfl⟩
      obtain ⟨h1, h2⟩ := ih.1 hw
      refine ⟨by simp [h1], ?_⟩
      intro x hx
      rw [List.mem_cons] at hx
      rcases hx with rfl | hx
      · exact hv
      · exact h2 x hx
    · rintro ⟨h1, h2⟩
      cases vs with
      | nil => simp at h1
      | cons a w =>
        simp only [List.map_cons, List.cons.injEq] at h1
        refine ⟨a, ⟨a.2, ?_, ?_⟩, w, ih.2 ⟨h1.2, fun v hv => h2 v (by simp [hv])⟩, rfl⟩
        · rw [← h1.1]; exact h2 a (by simp)
        · rw [← h1.1]

/-- **C102** (chemical potential): whether or not the run comes to an end, it changes the default tolerance and no other constant. -/
theorem C102_chemical_potential_constants (ig : Integrator) (fmt : ℝ → String) (k : Consts ℝ) :
    (qcd_quark_chemical_potential.main ig fmt k).2 = { k with tol_integral := 1 / 100000 } := chemConsts_eq k

/-- **C102** (chemical potential): the run ends without a panic exactly if all the calls do. -/
theorem C102_chemical_potential_ends (ig : Integrator) (fmt : ℝ → String) (k : Consts ℝ) :
    (qcd_quark_chemical_potential.main ig fmt k).1.isSome = true ↔
      ∀ t ∈ Spec.density_temperatures, ∀ i : ℕ, i < 4000 → chemical_potential ig { k with tol_integral := 1 / 100000 } (5 / 10) (1 / t) ((((i : ℤ) - 2000 : ℤ) : ℝ) / 1000) ≠ .panic := by
  rw [← density_temperatures_eq]
  have hv : ∀ t, (qcd_quark_chemical_potential.vals ig (chemConsts k) t).isSome = true ↔ ∀ i : ℕ, i < 4000 →
      chemical_potential ig (chemConsts k) (5 / 10) (1 / t) ((((i : ℤ) - 2000 : ℤ) : ℝ) / 1000) ≠ .panic := by
    intro t
    rw [Option.isSome_iff_exists]
    simp only [qcd_quark_chemical_potential.vals, qcd_quark_chemical_potential.densities, open_grid_eq, collect_some, List.map_map, Function.comp_def, qcd_quark_chemical_potential.mq]
    constructor
    · rintro ⟨v, hv⟩ i hi hp
      have : Res.panic ∈ v.map Res.ok := by
        rw [← hv, List.mem_map]
        exact ⟨i, List.mem_range.2 hi, hp⟩
      simp at this
    · intro h
      refine ⟨(List.range 4000).map fun i : ℕ => match chemical_potential ig (chemConsts k) (5 / 10) (1 / t) ((((i : ℤ) - 2000 : ℤ) : ℝ) / 1000) with
        | .ok x => x
        | .panic => 0, ?_⟩
      rw [List.map_map]
      refine List.map_congr_left fun i hi => ?_
      have := h i (List.mem_range.1 hi)
      simp only [Function.comp]
      cases e : chemical_potential ig (chemConsts k) (5 / 10) (1 / t) ((((i : ℤ) - 2000 : ℤ) : ℝ) / 1000) with
      | ok x => rfl
      | panic => exact absurd e this
  have e : (qcd_quark_chemical_potential.main ig fmt k).1.isSome = true ↔
      (density_temperatures.mapM fun t => (qcd_quark_chemical_potential.vals ig (chemConsts k) t).map fun v => (t, v)).isSome = true := by
    simp only [qcd_quark_chemical_potential.main, chemConsts_eq]
    cases density_temperatures.mapM fun t => (qcd_quark_chemical_potential.vals ig (chemConsts k) t).map fun v => (t, v) <;> simp
  rw [e]
  constructor
  · intro h t ht
    obtain ⟨vs, h⟩ := Option.isSome_iff_exists.1 h
    obtain ⟨h1, h2⟩ := mapM_vals.1 h
    rw [← h1, List.mem_map] at ht
    obtain ⟨v, hv', rfl⟩ := ht
    exact (hv v.1).1 (by rw [h2 v hv']; rfl)
  · intro h
    rw [Option.isSome_iff_exists]
    refine ⟨density_temperatures.map fun t => (t, (qcd_quark_chemical_potential.vals ig (chemConsts k) t).getD []), mapM_vals.2 ⟨by simp [Function.comp_def], ?_⟩⟩
    intro v hv'
    rw [List.mem_map] at hv'
    obtain ⟨t, ht, rfl⟩ := hv'
    obtain ⟨w, hw⟩ := Option.isSome_iff_exists.1 ((hv t).2 (h t ht))
    simp [hw]

/-- **C102** (chemical potential): if the run ends, the first plot has a label for each of its eleven curves of 4000 points, the second has three curves
and eleven labels. The first curve is the exact inverse of the zero-temperature density; every point of the others is a chemical potential that
gives the density of its abscissa to `10⁻⁵`, and is zero for zero density. -/
theorem C102_chemical_potential_plots (ig : Integrator) (fmt : ℝ → String) (k : Consts ℝ) {pls : List tc.Plot}
    (h : (qcd_quark_chemical_potential.main ig fmt k).1 = some pls) : ∃ pl pl', pls = [pl, pl'] ∧
      tc.Spec.Plot.WellFormed pl ∧ pl.domain.length = 4000 ∧ ¬tc.Spec.Plot.WellFormed pl' ∧ pl'.images.length = 3 ∧ pl'.legend.length = 11 ∧
      pl'.domain.length = 1500 ∧
      ∃ c0 cs, pl.images = c0 :: cs ∧ cs.length = 10 ∧ pl.legend = "T = 0.0 GeV" :: Spec.density_temperatures.map (fun t => "T = " ++ fmt t ++ " GeV") ∧
        (0 < k.nc → c0.map (charge_density_zero_temp k (5 / 10)) = pl.domain) ∧
        ∀ (j : ℕ) (t : ℝ) (c : List ℝ), Spec.density_temperatures[j]? = some t → cs[j]? = some c → ∀ (i : ℕ) (n mu : ℝ), pl.domain[i]? = some n → c[i]? = some mu →
          (n = 0 → mu = 0) ∧ (n ≠ 0 → |n - charge_density ig { k with tol_integral := 1 / 100000 } (5 / 10) (1 / t) mu| < 1 / 100000) := by
  rw [← density_temperatures_eq]
  simp only [qcd_quark_chemical_potential.main, chemConsts_eq, Option.pure_def, Option.bind_eq_bind, Option.bind_eq_some_iff, Option.some.injEq] at h
  obtain ⟨vs, hvs, rfl⟩ := h
  obtain ⟨h1, h2⟩ := mapM_vals.1 hvs
  have hl : qcd_quark_chemical_potential.densities.length = 4000 := by rw [qcd_quark_chemical_potential.densities, open_grid_eq]; simp
  have hd : (detail qcd_quark_chemical_potential.c qcd_quark_chemical_potential.densities).length = 1500 := by
    rw [detail_length _ _ (by rw [hl]; norm_num [qcd_quark_chemical_potential.c]), hl]
    norm_num [qcd_quark_chemical_potential.c]
  have hlen : vs.length = density_temperatures.length := by rw [← h1, List.length_map]
  have hvl : ∀ v ∈ vs, qcd_quark_chemical_potential.densities.map (fun n => chemical_potential ig (chemConsts k) (5 / 10) (1 / v.1) n) = v.2.map Res.ok := fun v hv => by
    have := h2 v hv
    rw [qcd_quark_chemical_potential.vals, collect_some] at this
    exact this
  have h3 : ((vs.filter fun v => @decide (v.1 ≤ 2 / 10) (Classical.propDecidable _)).map fun v => detail qcd_quark_chemical_potential.c v.2).length = 2 := by
    have e := congrArg List.length low_temperatures
    rw [← h1, List.filter_map, List.length_map] at e
    rw [List.length_map]
    exact e
  refine ⟨_, _, rfl, ⟨?_, Or.inr ?_⟩, ?_, ?_, ?_, ?_, ?_, _, _, rfl, ?_, rfl, ?_, ?_⟩
  · intro im him
    simp only [List.mem_cons, List.mem_map] at him
    rcases him with rfl | ⟨v, hv, rfl⟩
    · simp [qcd_quark_chemical_potential.vals_zero]
    · have := congrArg List.length (hvl v hv)
      simpa using this.symm
  · simp [hlen]
  · dsimp only; rw [hl]
  · rintro ⟨-, h | h⟩
    · simp at h
    · simp only [List.length_cons] at h
      rw [h3] at h
      simp [density_temperatures] at h
  · simp only [List.length_cons]; rw [h3]
  · simp [density_temperatures]
  · dsimp only; rw [hd]
  · rw [List.length_map, hlen]; rfl
  · intro hk
    simp only [qcd_quark_chemical_potential.vals_zero, List.map_map]
    conv_rhs => rw [← List.map_id qcd_quark_chemical_potential.densities]
    refine List.map_congr_left fun n _ => ?_
    exact C51_density_of_chemical_potential k (5 / 10) n hk
  · intro j t c ht hc i n mu hn hmu
    rw [List.getElem?_map, Option.map_eq_some_iff] at hc
    obtain ⟨v, hv, rfl⟩ := hc
    have ht' : v.1 = t := by
      rw [← h1, List.getElem?_map, hv] at ht
      simpa using ht
    have hcall : chemical_potential ig (chemConsts k) (5 / 10) (1 / t) n = .ok mu := by
      have e := congrArg (fun l => l[i]?) (hvl v (List.mem_of_getElem? hv))
      simp only [List.getElem?_map] at e
      have hn' : qcd_quark_chemical_potential.densities[i]? = some n := hn
      rw [hn', hmu] at e
      rw [← ht']
      simpa using e
    constructor
    · rintro rfl
      rw [(C52_zero ig (chemConsts k) (5 / 10) (1 / t) (consts.get_default_integration_method (chemConsts k))).2] at hcall
      simpa using hcall.symm
    · intro hn0
      exact C52_default ig (chemConsts k) _ _ n mu hn0 hcall

-- laws of the integrator
example : Integrator.exact.Odd ∧ Integrator.exact.Zero := ⟨exact_odd, exact_zero⟩

open Filter Topology

/-! ### A run that ends

An integrator for which the density is the chemical potential itself: it recognises the integrand. -/

/-- The integrand of the density. -/
noncomputable def densityIntegrand (k : Consts ℝ) (b mu : ℝ) : ℝ → ℝ := fun t => charge_density_i k ((1 - t) / t) (5 / 10) b mu / (t * t)

theorem density_difference_decay {b : ℝ} (hb : 0 < b) (mu : ℝ) :
    Tendsto (fun e : ℝ => ((Real.exp (b * (e - mu)) + 1)⁻¹ - (Real.exp (b * (e + mu)) + 1)⁻¹) * Real.exp (b * e)) atTop (𝓝 (Real.exp (b * mu) - Real.exp (-(b * mu)))) := by
  have h0 : Tendsto (fun e : ℝ => Real.exp (-(b * e))) atTop (𝓝 0) := Real.tendsto_exp_neg_atTop_nhds_zero.comp (tendsto_id.const_mul_atTop hb)
  have h1 := ((h0.const_add (Real.exp (-(b * mu)))).inv₀ (by positivity)).sub ((h0.const_add (Real.exp (b * mu))).inv₀ (by positivity))
  rw [add_zero, add_zero, ← Real.exp_neg, ← Real.exp_neg, neg_neg] at h1
  refine h1.congr fun e => ?_
  have e1 : Real.exp (b * (e - mu)) + 1 = Real.exp (b * e) * (Real.exp (-(b * mu)) + Real.exp (-(b * e))) := by
    rw [mul_add, ← Real.exp_add, ← Real.exp_add, add_neg_cancel, Real.exp_zero]; ring_nf
  have e2 : Real.exp (b * (e + mu)) + 1 = Real.exp (b * e) * (Real.exp (b * mu) + Real.exp (-(b * e))) := by
    rw [mul_add (Real.exp _), ← Real.exp_add, ← Real.exp_add, add_neg_cancel, Real.exp_zero]; ring_nf
  rw [e1, e2, mul_inv, mul_inv]
  have : Real.exp (b * e) ≠ 0 := (Real.exp_pos _).ne'
  field_simp

theorem exp_sub_sinh (x : ℝ) : Real.exp x - Real.exp (-x) = 2 * Real.sinh x := by rw [Real.sinh_eq]; ring

/-- The decay tells the temperature and the chemical potential. -/
theorem density_difference_lt {b b' mu mu' : ℝ} (hb : 0 < b) (hb' : 0 < b') (hlt : b < b')
    (key : ∀ e : ℝ, 5 / 10 < e → (Real.exp (b * (e - mu)) + 1)⁻¹ - (Real.exp (b * (e + mu)) + 1)⁻¹ =
      (Real.exp (b' * (e - mu')) + 1)⁻¹ - (Real.exp (b' * (e + mu')) + 1)⁻¹) : mu = mu' := by
  have L := density_difference_decay hb mu
  have L' := density_difference_decay hb' mu'
  rw [exp_sub_sinh] at L L'
  have h0 : Tendsto (fun e : ℝ => Real.exp (-((b' - b) * e))) atTop (𝓝 0) := Real.tendsto_exp_neg_atTop_nhds_zero.comp (tendsto_id.const_mul_atTop (sub_pos.2 hlt))
  have h1 := L'.mul h0
  rw [mul_zero] at h1
  have h2 := tendsto_nhds_unique (h1.congr' (by
    filter_upwards [eventually_gt_atTop (5 / 10 : ℝ)] with e he
    rw [← key e he, mul_assoc, ← Real.exp_add]
    ring_nf)) L
  have hz : b * mu = 0 := Real.sinh_eq_zero.1 (by linarith)
  have hmu : mu = 0 := (mul_eq_zero.1 hz).resolve_left hb.ne'
  subst hmu
  have h3 := tendsto_nhds_unique (L'.congr' (by
    filter_upwards [eventually_gt_atTop (5 / 10 : ℝ)] with e he
    rw [← key e he, sub_zero, add_zero, sub_self, zero_mul])) tendsto_const_nhds
  have hz' : b' * mu' = 0 := Real.sinh_eq_zero.1 (by linarith)
  exact ((mul_eq_zero.1 hz').resolve_left hb'.ne').symm

theorem densityIntegrand_injective {k : Consts ℝ} (hk : 0 < k.nc) {b b' mu mu' : ℝ} (hb : 0 < b) (hb' : 0 < b')
    (h : densityIntegrand k b mu = densityIntegrand k b' mu') : mu = mu' := by
  have key : ∀ e : ℝ, 5 / 10 < e → (Real.exp (b * (e - mu)) + 1)⁻¹ - (Real.exp (b * (e + mu)) + 1)⁻¹ =
      (Real.exp (b' * (e - mu')) + 1)⁻¹ - (Real.exp (b' * (e + mu')) + 1)⁻¹ := by
    intro e he
    have hq : 0 < Real.sqrt (e ^ 2 - (5 / 10) ^ 2) := Real.sqrt_pos.2 (by nlinarith)
    have := congrFun h (1 + Real.sqrt (e ^ 2 - (5 / 10) ^ 2))⁻¹
    set q := Real.sqrt (e ^ 2 - (5 / 10) ^ 2) with hqd
    have ht : (1 - (1 + q)⁻¹) / (1 + q)⁻¹ = q := by field_simp; ring
    have hen : energy q (5 / 10 : ℝ) = e := by
      have h1 := energy_sq_real q (5 / 10)
      rw [hqd, Real.sq_sqrt (by nlinarith), ← hqd] at h1
      have h2 : 0 ≤ energy q (5 / 10 : ℝ) := Real.sqrt_nonneg _
      nlinarith
    simp only [densityIntegrand, charge_density_i, ht, hen] at this
    have hn : (k.nc : ℝ) ≠ 0 := by exact_mod_cast hk.ne'
    have hpi : PI2 ≠ 0 := by unfold PI2; positivity
    have ht0 : (1 + q)⁻¹ * (1 + q)⁻¹ ≠ 0 := by positivity
    have := mul_left_cancel₀ (mul_ne_zero (mul_ne_zero hn hq.ne') hq.ne') ((div_left_inj' hpi).1 ((div_left_inj' ht0).1 this))
    simpa [fermi_distribution, statistic_distribution_exponential, sub_neg_eq_add, mul_comm] using this
  rcases lt_trichotomy b b' with hlt | rfl | hlt
  · exact density_difference_lt hb hb' hlt key
  · have L := density_difference_decay hb mu
    have L' := density_difference_decay hb mu'
    rw [exp_sub_sinh] at L L'
    have := tendsto_nhds_unique (L.congr' (by
      filter_upwards [eventually_gt_atTop (5 / 10 : ℝ)] with e he
      rw [key e he])) L'
    have : b * mu = b * mu' := Real.sinh_injective (by linarith)
    exact mul_left_cancel₀ hb.ne' this
  · exact (density_difference_lt hb' hb hlt fun e he => (key e he).symm).symm

/-- The integrator: on the integrand of a density it returns the chemical potential. -/
noncomputable def decoding (k : Consts ℝ) : Integrator where
  real f _ _ := open Classical in if h : ∃ mu b, 0 < b ∧ f = densityIntegrand k b mu then h.choose else 0
  cplx _ _ _ := 0

theorem decoding_density {k k' : Consts ℝ} (hk : 0 < k.nc) (hn : k'.nc = k.nc) {b : ℝ} (hb : 0 < b) (mu : ℝ) (i : consts.Integral ℝ) :
    charge_density_with_method (decoding k) k' (5 / 10) b mu i = mu := by
  have e : (fun t => charge_density_i k' ((1 - t) / t) (5 / 10) b mu / (t * t)) = densityIntegrand k b mu := by
    funext t
    simp only [densityIntegrand, charge_density_i, hn]
  have h : ∃ mu' b', 0 < b' ∧ (fun t => charge_density_i k' ((1 - t) / t) (5 / 10) b mu / (t * t)) = densityIntegrand k b' mu' := ⟨mu, b, hb, e⟩
  simp only [charge_density_with_method, decoding]
  rw [dif_pos h]
  obtain ⟨b', hb', h'⟩ := h.choose_spec
  exact (densityIntegrand_injective hk hb hb' (e.symm.trans h')).symm

-- the hypothesis of `C102_chemical_potential_plots` is met
example (k : Consts ℝ) (hk : 0 < k.nc) (fmt : ℝ → String) : ∃ ig pls, (qcd_quark_chemical_potential.main ig fmt k).1 = some pls := by
  refine ⟨decoding k, Option.isSome_iff_exists.1 ((C102_chemical_potential_ends (decoding k) fmt k).2 fun t ht i _ => ?_)⟩
  have hb : 0 < 1 / t := by
    obtain ⟨j, -, rfl⟩ := List.mem_map.1 ht
    positivity
  generalize ((((i : ℤ) - 2000 : ℤ) : ℝ) / 1000) = n
  unfold chemical_potential chemical_potential_with_method
  by_cases hn : n = 0
  · rw [if_pos hn]; simp
  · rw [if_neg hn]
    simp only [consts.get_default_integration_method, consts.Integral.get_tol, decoding_density hk (k' := { k with tol_integral := 1 / 100000 }) rfl hb]
    have h1 : (0.5 : ℝ) * n ≠ n := fun h => hn (by linarith)
    have := (utils.C08_find_root_characterisation (utils.exactOps ℝ) (fun mu => n - mu) (0.5 * n, n) (1 / 100000) 1000
      (by simpa [utils.exactOps] using h1) (by simp [utils.exactOps])).1 0 (by norm_num)
      (by simp [utils.nanAt, utils.exactOps]) (by simp) (by simp [utils.smallAt, utils.exactOps, utils.secant, Qcd.abs])
    rw [this]
    simp

end Qcd
