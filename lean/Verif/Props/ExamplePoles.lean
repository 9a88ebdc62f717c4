import Verif.Model.ExamplePoles
import Verif.Spec.Poles
import Verif.Props.Utils
import Verif.Props.ThermalComplex

/-! # C94: the program that locates the gluon poles

`examples/ym_thermal_gluon_poles.rs`: its symmetry check never fails, the numbers it reports are the poles and the
residues of the propagator, and each line of its file belongs to its temperature. -/

namespace Qcd
open consts (Consts)
open examples.ym_thermal_gluon_poles
open Complex Filter Topology
open Spec (Residue ResidueSq poleTable)
open scoped ComplexConjugate

/-! ### Residues -/

/-- The two-point formula converges to the residue of the inverse at a simple zero. -/
theorem residue_inverse {f : ℂ → ℂ} {z0 d : ℂ} (hf : HasDerivAt f d z0) (h0 : f z0 = 0) (hd : d ≠ 0) :
    Tendsto (fun eps : ℝ => utils.compute_residue_with_eps (fun z => 1 / f z) z0 eps) (𝓝[≠] 0) (𝓝 d⁻¹) := by
  have t : ∀ s : ℝ, s ≠ 0 → Tendsto (fun eps : ℝ => z0 + ((s * eps : ℝ) : ℂ)) (𝓝[≠] 0) (𝓝[≠] z0) := by
    intro s hs
    refine tendsto_nhdsWithin_iff.2 ⟨?_, ?_⟩
    · have h : Continuous fun eps : ℝ => z0 + ((s * eps : ℝ) : ℂ) := by fun_prop
      have := (h.tendsto 0).mono_left (nhdsWithin_le_nhds (s := {0}ᶜ))
      simpa using this
    · filter_upwards [self_mem_nhdsWithin] with eps he
      have he : eps ≠ 0 := he
      simp [hs, he]
  have hp := hf.tendsto_slope.comp (t 1 one_ne_zero)
  have hm := hf.tendsto_slope.comp (t (-1) (by norm_num))
  have h2 : (d + d)⁻¹ * 2 = d⁻¹ := by field_simp; norm_num
  rw [← h2]
  refine Tendsto.congr' ?_ (((hp.add hm).inv₀ (by rw [← two_mul]; exact mul_ne_zero two_ne_zero hd)).mul_const 2)
  filter_upwards [self_mem_nhdsWithin] with eps he
  have he : (eps : ℂ) ≠ 0 := by exact_mod_cast he
  simp only [Function.comp, slope_def_field, h0, utils.compute_residue_with_eps, ofR_complex, one_div, inv_inv, sub_zero, one_mul, neg_mul,
    ofReal_neg, add_sub_cancel_left, ← sub_eq_add_neg, ofReal_ofNat]
  have e : f (z0 + eps) / eps + f (z0 - eps) / -(eps : ℂ) = (f (z0 + eps) - f (z0 - eps)) / eps := by
    field_simp; ring
  rw [show z0 - (eps : ℂ) - z0 = -(eps : ℂ) by ring, e, inv_div, div_eq_mul_inv]
  ring

theorem quotient_limit {f : ℂ → ℂ} {z0 d : ℂ} (hf : HasDerivAt f d z0) (h0 : f z0 = 0) (hd : d ≠ 0) :
    Tendsto (fun z => (z - z0) * (f z)⁻¹) (𝓝[≠] z0) (𝓝 d⁻¹) := by
  refine (hf.tendsto_slope.inv₀ hd).congr fun z => ?_
  rw [slope_def_field, h0, sub_zero, inv_div, div_eq_mul_inv]

/-- **C94** (vacuum): at a simple zero `s` of the inverse dressing function the residue formula of `find_pole` converges, as
its step goes to zero, to the residue of the propagator. -/
theorem C94_vacuum_residue (f0 : ℝ) (s : ℂ) (hs : s ∈ slitPlane) (h0 : ym.gluon.dressing_inv_landau s f0 = 0)
    (h1 : deriv (fun s : ℂ => ym.gluon.dressing_inv_landau s f0) s ≠ 0) :
    ∃ R, Tendsto (fun eps : ℝ => utils.compute_residue_with_eps (fun z => 1 / ym.gluon.dressing_inv_landau z f0) s eps / s) (𝓝[≠] 0) (𝓝 R) ∧
      Residue (fun s => ym.gluon.propagator_landau s f0) s R := by
  have hd := (((vac_ym f0).hol s hs).differentiableAt (isOpen_slitPlane.mem_nhds hs)).hasDerivAt
  have hs0 := slitPlane_ne_zero hs
  refine ⟨_, (residue_inverse hd h0 h1).div_const s, ?_⟩
  have hc : Tendsto (fun z : ℂ => z) (𝓝[≠] s) (𝓝 s) := nhdsWithin_le_nhds
  refine ((quotient_limit hd h0 h1).div hc hs0).congr fun z => ?_
  simp only [Pi.div_apply, ym.gluon.propagator_landau, ym.gluon.dressing_landau]
  ring

section
variable (k : Consts ℝ) (m beta f0 : ℝ) (hm : m ≠ 0) (hb : 0 < beta)
include hm hb

/-- **C94** (thermal): at a simple zero of the inverse dressing function off the imaginary axis the residue formula of
`find_thermal_pole` converges, as its step goes to zero, to the residue of the propagator, as a function of the squared
frequency, at the conjugate zero. -/
theorem C94_thermal_residue (om : ℂ) (ho : om.re ≠ 0)
    (h0 : ym.thermal.zero_momentum.gluon.dressing_t_inv_landau .exact k om m beta f0 = 0)
    (h1 : deriv (fun om : ℂ => ym.thermal.zero_momentum.gluon.dressing_t_inv_landau .exact k om m beta f0) om ≠ 0) :
    ∃ R, Tendsto (fun eps : ℝ => conj (utils.compute_residue_with_eps
          (fun z => 1 / ym.thermal.zero_momentum.gluon.dressing_t_inv_landau .exact k z m beta f0) om eps * 2 / om)) (𝓝[≠] 0) (𝓝 R) ∧
      ResidueSq (fun om => ym.thermal.zero_momentum.gluon.propagator_t_landau .exact k om m beta f0) (conj om) R := by
  have hA := dr_zm_ym_t admissible_analytic k m beta f0 hm hb
  set f : ℂ → ℂ := fun om => ym.thermal.zero_momentum.gluon.dressing_t_inv_landau .exact k om m beta f0 with hf
  have hd : HasDerivAt f (deriv f om) om := (hA.holomorphic om ho).hasDerivAt
  have hn : om ≠ 0 := fun h => ho (by rw [h, zero_re])
  have hn' : conj om ≠ 0 := by simpa using hn
  have ho' : (conj om).re ≠ 0 := by simpa using ho
  have hd' : HasDerivAt f (conj (deriv f om)) (conj om) := by
    have h := hd.conj_conj
    refine h.congr_of_eventuallyEq ?_
    have : {z : ℂ | z.re ≠ 0} ∈ 𝓝 (conj om) := (isOpen_ne_fun continuous_re continuous_const).mem_nhds ho'
    filter_upwards [this] with z hz
    simp only [Function.comp]
    rw [hA.reflects z hz, Complex.conj_conj]
  have h0' : f (conj om) = 0 := by rw [hA.reflects om ho, show f om = 0 from h0, map_zero]
  have h1' : conj (deriv f om) ≠ 0 := by simpa using h1
  refine ⟨_, ((continuous_conj.tendsto _).comp (((residue_inverse hd h0 h1).mul_const 2).div_const om)), ?_⟩
  have hc : Tendsto (fun z : ℂ => z) (𝓝[≠] conj om) (𝓝 (conj om)) := nhdsWithin_le_nhds
  have key := (((hc.add_const (conj om)).mul ((hc.mul hc).inv₀ (mul_ne_zero hn' hn'))).mul (quotient_limit hd' h0' h1'))
  have e : (conj om + conj om) * (conj om * conj om)⁻¹ * (conj (deriv f om))⁻¹ = conj ((deriv f om)⁻¹ * 2 / om) := by
    simp only [map_mul, map_div₀, map_inv₀, map_ofNat]
    field_simp
    ring
  rw [e] at key
  refine key.congr fun z => ?_
  simp only [ym.thermal.zero_momentum.gluon.propagator_t_landau, ym.thermal.zero_momentum.gluon.dressing_t_landau, toC_complex, ofR_complex,
    ofReal_one, one_div, hf]
  ring

end

/-! ### The two searches -/

theorem Z0_ne_Z1 : (utils.exactOps ℂ).beq Z0 Z1 = false := by
  have : Z0 ≠ Z1 := fun h => by have := congrArg Complex.re h; norm_num [Z0, Z1] at this
  simp [utils.exactOps, this]

theorem find_root_no_panic (f : ℂ → ℂ) : find_root f ≠ .panic := by
  unfold find_root
  rw [Ne, utils.C08_panics_iff, Z0_ne_Z1]
  simp [utils.exactOps, TOL]

theorem find_root_some {f : ℂ → ℂ} {z v : ℂ} (h : find_root f = .some z v) : v = f z ∧ ‖f z‖ < 1 / 10 ^ 12 := by
  simpa [TOL] using utils.C07_find_root_sound_exact f _ _ _ _ _ h

/-- The search of the program: a million secant steps at most, from `-1 - i` and `-0.5 - 0.5 i`, to `1e-12`. -/
noncomputable def Spec.search (f : ℂ → ℂ) : utils.RootResult ℂ :=
  utils.find_root (utils.exactOps ℂ) f (-1 - I, -0.5 - 0.5 * I) (1 / 10 ^ 12) 1000000

theorem search_eq (f : ℂ → ℂ) : Spec.search f = find_root f := by
  have h0 : (-1 - I : ℂ) = Z0 := by apply Complex.ext <;> simp [Z0]
  have h1 : (-0.5 - 0.5 * I : ℂ) = Z1 := by
    rw [show (0.5 : ℂ) = ((5 / 10 : ℝ) : ℂ) by norm_num]
    apply Complex.ext <;> simp [Z1]
  rw [Spec.search, h0, h1]
  rfl

/-- **C94** (vacuum): `find_pole` either finds no root and panics, or reports a point where the function is smaller than
`1e-12`, and the momentum with nonnegative real part whose square is the Minkowski square of the pole. -/
theorem C94_vacuum (f : ℂ → ℂ) :
    (Spec.search f = .none ∧ find_pole f = .error .noRoot) ∨
    ∃ r, find_pole f = .ok r ∧ Spec.search f = .some r.root r.value ∧ r.value = f r.root ∧ ‖f r.root‖ < 1 / 10 ^ 12 ∧
      r.residue = utils.compute_residue_with_eps (fun z => 1 / f z) r.root (1 / 10 ^ 12) / r.root ∧
      r.ratio = r.residue.im / r.residue.re ∧
      r.pole ^ 2 = -r.root * (656 / 1000) ^ 2 ∧ 0 ≤ r.pole.re := by
  rw [search_eq]
  unfold find_pole
  rcases h : find_root f with _ | _ | ⟨z, v⟩
  · exact absurd h (find_root_no_panic f)
  · exact .inl ⟨rfl, rfl⟩
  · obtain ⟨h1, h2⟩ := find_root_some h
    refine .inr ⟨_, rfl, rfl, h1, h2, rfl, rfl, ?_, ?_⟩
    · rw [mul_pow, csqrt_sq]; norm_num [MG]
    · simp only [mul_re, ofReal_re, ofReal_im, mul_zero, sub_zero]
      exact mul_nonneg (csqrt_re_nonneg _) (by norm_num [MG])

/-- **C94** (thermal): for the gluon the symmetry check of `find_thermal_pole` never fails, whatever the quadrature rule: either
no root is found, or the function is smaller than `1e-12` at the four points `±om`, `±conj om`, and the reported energy
`eps + i gamma` is the one among the four `±i om`, `±i conj om` obtained by conjugating `i om`. -/
theorem C94_thermal {ig : Integrator} (hi : ig.Interior) (hc : ig.Conj) (k : Consts ℝ) (m beta f0 : ℝ) (hm : m ≠ 0) (hb : 0 < beta) :
    let f : ℂ → ℂ := fun z => ym.thermal.zero_momentum.gluon.dressing_t_inv_landau ig k z m beta f0
    (Spec.search f = .none ∧ find_thermal_pole f = .error .noRoot) ∨
    ∃ r, find_thermal_pole f = .ok r ∧ Spec.search f = .some r.root r.value ∧ r.value = f r.root ∧
      ‖f r.root‖ < 1 / 10 ^ 12 ∧ ‖f (-r.root)‖ < 1 / 10 ^ 12 ∧ ‖f (conj r.root)‖ < 1 / 10 ^ 12 ∧ ‖f (-conj r.root)‖ < 1 / 10 ^ 12 ∧
      r.residue = conj (utils.compute_residue_with_eps (fun z => 1 / f z) r.root (1 / 10 ^ 12) * 2 / r.root) ∧
      r.ratio = r.residue.im / r.residue.re ∧
      conj r.pole = I * r.root := by
  intro f
  rw [search_eq]
  have hS : Spec.Symmetric f := dr_zm_ym_t (admissible_symmetric hi hc) k m beta f0 hm hb
  unfold find_thermal_pole
  rcases h : find_root f with _ | _ | ⟨z, v⟩
  · exact absurd h (find_root_no_panic f)
  · exact .inl ⟨rfl, rfl⟩
  · obtain ⟨h1, h2⟩ := find_root_some h
    have a1 : ‖f (-z)‖ < 1 / 10 ^ 12 := by rwa [hS.even]
    have a2 : ‖f (conj z)‖ < 1 / 10 ^ 12 := by
      by_cases hz : z.re = 0
      · have e : conj z = -z := by apply Complex.ext <;> simp [hz]
        rw [e]; exact a1
      · rw [hS.reflects z hz, Complex.norm_conj]; exact h2
    have a3 : ‖f (-conj z)‖ < 1 / 10 ^ 12 := by rwa [hS.even]
    have hcond : ¬ (TOL < ‖f (-z)‖ ∨ TOL < ‖f (conj z)‖ ∨ TOL < ‖f (-conj z)‖) := by
      rw [show TOL = 1 / 10 ^ 12 from rfl]
      push Not
      exact ⟨a1.le, a2.le, a3.le⟩
    simp only [hcond, if_false]
    refine .inr ⟨_, rfl, rfl, h1, h2, a1, a2, a3, rfl, rfl, ?_⟩
    simp [mul_comm]

/-! ### The program -/

theorem loop_spec {ig : Integrator} (hi : ig.Interior) (hc : ig.Conj) (k : Consts ℝ) (tab : List (ℚ × ℚ × ℚ))
    (ht : ∀ x ∈ tab, 0 < x.1 ∧ x.2.1 ≠ 0) (res : List (ℂ × ℝ)) :
    loop ig k (tab.map fun x => ((x.1 : ℝ), (x.2.1 : ℝ), (x.2.2 : ℝ))) res = .error .noRoot ∨
    ∃ rs : List Found, List.Forall₂ (fun (x : ℚ × ℚ × ℚ) r => find_thermal_pole (fun z =>
        ym.thermal.zero_momentum.gluon.dressing_t_inv_landau ig k z (x.2.1 : ℝ) (1 / (x.1 : ℝ)) ((x.2.2 : ℝ) - 876 / 1000)) = .ok r) tab rs ∧
      loop ig k (tab.map fun x => ((x.1 : ℝ), (x.2.1 : ℝ), (x.2.2 : ℝ))) res = .ok (res ++ rs.map fun r => (r.pole, r.ratio)) := by
  induction tab generalizing res with
  | nil => exact .inr ⟨[], .nil, by simp [loop]⟩
  | cons x l ih =>
    obtain ⟨hx1, hx2⟩ := ht x (by simp)
    have hT : (0 : ℝ) < 1 / (x.1 : ℝ) := by have : (0 : ℝ) < x.1 := by exact_mod_cast hx1
                                            positivity
    have h := C94_thermal hi hc k (x.2.1 : ℝ) (1 / (x.1 : ℝ)) ((x.2.2 : ℝ) - 876 / 1000) (by exact_mod_cast hx2) hT
    simp only [List.map_cons, loop, f0, ← sub_eq_add_neg]
    rcases h with ⟨-, h⟩ | ⟨r, h, -⟩
    · left; rw [h]
    · rw [h]
      rcases ih (fun y hy => ht y (by simp [hy])) (res ++ [(r.pole, r.ratio)]) with h' | ⟨rs, h1, h2⟩
      · exact .inl h'
      · refine .inr ⟨r :: rs, .cons h h1, ?_⟩
        simp [h2]

/-- **C94** (program): the only panic is "Found no root". Otherwise `poles.out` has seven lines: the vacuum pole at temperature 0, and for
each temperature of the table the pole found with the inverse temperature, mass and constant of that temperature; the plotted
series are the real and imaginary parts of the poles, the ratios and the arc tangents of the ratios, in the same order. -/
theorem C94_program {ig : Integrator} (hi : ig.Interior) (hc : ig.Conj) (k : Consts ℝ) :
    main ig k = .error .noRoot ∨
    ∃ (v : Found) (rs : List Found) (out : Output), main ig k = .ok out ∧
      find_pole (fun z => ym.gluon.dressing_inv_landau z (-(876 / 1000))) = .ok v ∧
      List.Forall₂ (fun (x : ℚ × ℚ × ℚ) r => find_thermal_pole (fun z =>
        ym.thermal.zero_momentum.gluon.dressing_t_inv_landau ig k z (x.2.1 : ℝ) (1 / (x.1 : ℝ)) ((x.2.2 : ℝ) - 876 / 1000)) = .ok r) poleTable rs ∧
      out.lines = (0, v.pole, v.ratio) :: List.zipWith (fun (x : ℚ × ℚ × ℚ) r => ((x.1 : ℝ), r.pole, r.ratio)) poleTable rs ∧
      out.lines.length = 7 ∧
      out.poles_re = (v :: rs).map (fun r => r.pole.re) ∧ out.poles_im = (v :: rs).map (fun r => r.pole.im) ∧
      out.residues_ratio = (v :: rs).map (fun r => r.ratio) ∧ out.residues_phase = (v :: rs).map (fun r => Real.arctan r.ratio) := by
  have etab : (temperatures.drop 1).zip (masses.zip df0s) = poleTable.map fun x => ((x.1 : ℝ), (x.2.1 : ℝ), (x.2.2 : ℝ)) := by
    simp [temperatures, masses, df0s, poleTable]
  unfold main
  rw [etab]
  rcases C94_vacuum (fun z => ym.gluon.dressing_inv_landau z f0) with ⟨-, h⟩ | ⟨v, h, -⟩
  · left; rw [h]
  · rw [h]
    rcases loop_spec hi hc k poleTable (by intro x hx; fin_cases hx <;> norm_num) [(v.pole, v.ratio)] with h' | ⟨rs, h1, h2⟩
    · left; simp only [h']
    · right
      simp only [h2]
      refine ⟨v, rs, _, rfl, h, h1, ?_, ?_, ?_, ?_, ?_, ?_⟩
      · have hl := h1.length_eq
        simp only [poleTable, List.length_cons, List.length_nil] at hl
        match rs, hl with
        | [r1, r2, r3, r4, r5, r6], _ => simp [temperatures, poleTable]
      · have hl := h1.length_eq
        simp only [poleTable, List.length_cons, List.length_nil] at hl
        simp [temperatures, ← hl]
      · simp
      · simp
      · simp
      · simp

/-- The hypotheses of the residue theorem are those of an ordinary simple zero; the first row of the table meets the ones on mass and
temperature. -/
example (k : Consts ℝ) : ∃ r, find_thermal_pole (fun z => ym.thermal.zero_momentum.gluon.dressing_t_inv_landau .exact k z (675 / 1000)
    (1 / (121 / 1000)) (5 / 100 - 876 / 1000)) = .error .noRoot ∨
    find_thermal_pole (fun z => ym.thermal.zero_momentum.gluon.dressing_t_inv_landau .exact k z (675 / 1000)
    (1 / (121 / 1000)) (5 / 100 - 876 / 1000)) = .ok r := by
  rcases C94_thermal exact_interior exact_conj k (675 / 1000) (1 / (121 / 1000)) (5 / 100 - 876 / 1000) (by norm_num) (by norm_num) with ⟨-, h⟩ | ⟨r, h, -⟩
  · exact ⟨⟨0, 0, 0, 0, 0⟩, .inl h⟩
  · exact ⟨r, .inr h⟩

/-- The check does fail for functions without the symmetry: `z + 1/2 + i/2` has a root at the second guess and is not small at the mirror points. -/
example : find_thermal_pole (fun z => z - Z1) = .error .notSymmetric := by
  have hr : find_root (fun z => z - Z1) = .some Z1 0 := by
    unfold find_root MAX_ITER
    have h := (utils.C08_find_root_characterisation (utils.exactOps ℂ) (fun z => z - Z1) (Z0, Z1) TOL 1000000 Z0_ne_Z1
      (by simp [utils.exactOps, TOL])).1 0 (by norm_num) (by intro j _; simp [utils.nanAt, utils.exactOps]) (by intro j hj; omega)
      (by simp [utils.smallAt, utils.exactOps, utils.secant, Qcd.abs, TOL])
    simpa [utils.secant] using h
  unfold find_thermal_pole
  rw [hr]
  have : TOL < ‖-Z1 - Z1‖ := by
    refine lt_of_lt_of_le ?_ (Complex.abs_re_le_norm _)
    simp [Z1, TOL]
    norm_num
  simp [this]

end Qcd
