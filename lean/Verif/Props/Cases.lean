import Verif.Props.Accuracy
import Verif.Props.ChargeDensity
import Verif.Props.Covariant
import Verif.Props.DenseGluon
import Verif.Props.DensitySearch
import Verif.Props.Diagrams
import Verif.Props.Distributions
import Verif.Props.DressingDefined
import Verif.Props.Euclidean
import Verif.Props.EuclideanQuarks
import Verif.Props.ExampleAsymptotics
import Verif.Props.ExampleGluon
import Verif.Props.ExampleHtl
import Verif.Props.ExamplePoles
import Verif.Props.FloatDensity
import Verif.Props.FloatResidue
import Verif.Props.FloatRoot
import Verif.Props.FloatThermalDensity
import Verif.Props.Floats
import Verif.Props.HighTemperature
import Verif.Props.HotGluon
import Verif.Props.IntegratedDiagrams
import Verif.Props.IntegratedDiagramsZero
import Verif.Props.LowTemperature
import Verif.Props.LowTemperaturePositive
import Verif.Props.MassDerivative
import Verif.Props.MassDerivativeSpecial
import Verif.Props.MassDerivativeTotal
import Verif.Props.MassIntegral
import Verif.Props.MassIntegralZero
import Verif.Props.Matsubara
import Verif.Props.Numerics
import Verif.Props.NumericsExpansion
import Verif.Props.NumericsParts
import Verif.Props.NumericsVacuum
import Verif.Props.Overall
import Verif.Props.Parallel
import Verif.Props.QcdDiagrams
import Verif.Props.QcdVacuum
import Verif.Props.QuarkDensity
import Verif.Props.QuarkLoop
import Verif.Props.QuarkMatsubara
import Verif.Props.Residues
import Verif.Props.Scripts
import Verif.Props.StaticQuark
import Verif.Props.TcLongProp
import Verif.Props.ThermalComplex
import Verif.Props.ThermalGlobals
import Verif.Props.ThermalIntegrals
import Verif.Props.ThermalLoop
import Verif.Props.ThermalLoopMatsubara
import Verif.Props.ThermalLoopQuark
import Verif.Props.ThermalLoopSpecial
import Verif.Props.ThermalParity
import Verif.Props.ThermalQuarkLists
import Verif.Props.ThermalReal
import Verif.Props.ThermalReduction
import Verif.Props.ThermalUnits
import Verif.Props.ThermalZeroTemp
import Verif.Props.Utils
import Verif.Props.VacuumAccuracy
import Verif.Props.VacuumComplex
import Verif.Props.VacuumDefined
import Verif.Props.VacuumGhost
import Verif.Props.VacuumGluon
import Verif.Props.VacuumLimits
import Verif.Props.VacuumQuark
import Verif.Props.ZeroMatsubaraLimit
import Verif.Props.ZeroMatsubaraLimitParts
import Verif.Props.ZeroMatsubaraPoles
import Verif.Props.ZeroMomentumDiagrams
import Verif.Props.ZeroMomentumLimit
import Verif.Props.ZeroMomentumLimitParts
import Verif.Props.ZeroMomentumLimitSpecial
import Verif.Lemmas.Analytic

/-!
# Cases that meet the hypotheses

For the theorems of the other files, numbers, integrators and states of the constants that meet all of their hypotheses. The arguments
that are not named are arbitrary. `FieldConfig.new 3 1 [(2, 1), (1, 3)]` is a configuration with three colours, two flavours of mass 1
and one of mass 3; `consts.init` is the state of the constants at the start of a program; `.exact` is the exact integral and
`Integrator.rule midpoint` a quadrature rule. The theorems with hypotheses on histories, files or programs have cases in their own
files.
-/

namespace Qcd

namespace Cases

theorem reg : (consts.init : consts.Consts ℝ).matsubara_reg ≠ 0 := by
  norm_num [consts.init, consts.FloatOps.lit]

theorem energy_lt {q m x : ℝ} (h : x * x < q * q + m * m) : x < energy q m := by
  have h2 : energy q m = Real.sqrt (q * q + m * m) := by simp [energy, energy_squared, add_comm]
  rw [h2]
  exact Real.lt_sqrt_of_sq_lt (by rw [sq]; exact h)

theorem half_lt : 1 / 2 < energy (1 : ℝ) (1 : ℝ) := energy_lt (by norm_num)

theorem energy_ne : energy (1 : ℝ) (1 : ℝ) ≠ 1 / 2 := half_lt.ne'

theorem rest {w e1 e2 d : ℝ} (hw : w ≠ 0) (h1 : 0 < e1) (h2 : 0 < e2) : Spec.RestRegular w e1 e2 d := by
  have a : ∀ x : ℂ, x.im ≠ 0 → x ≠ 0 := fun x h h0 => h (by simp [h0])
  refine ⟨by exact_mod_cast hw, a _ ?_, a _ ?_, a _ ?_, a _ ?_⟩ <;> simp [pow_two] <;>
    exact ⟨hw, ne_of_gt (by assumption)⟩

theorem rest' {w d : ℂ} (x y : ℝ) {e1 e2 : ℂ} (hw : w = x) (hx : x ≠ 0) (hd : d = y) (f1 f2 : ℝ) (h1 : e1 = f1) (h2 : e2 = f2)
    (p1 : 0 < f1) (p2 : 0 < f2) : Spec.RestRegular w e1 e2 d := by
  subst hw hd h1 h2; exact rest hx p1 p2

theorem strip (m : ℝ) : InStrip (3 + Complex.I / 2) (energy 1 m) := by
  refine ⟨by norm_num, ?_⟩
  have := energy_lt (q := 1) (m := m) (x := 1 / 2) (by nlinarith [mul_self_nonneg m])
  have e : (3 + Complex.I / 2).im = 1 / 2 := by norm_num
  rw [e, abs_of_pos (by norm_num)]
  exact this

theorem half_lt' : |(1 / 2 : ℝ)| < energy (1 : ℝ) (1 : ℝ) := by rw [abs_of_pos (by norm_num)]; exact half_lt

theorem energy_ne' : energy (1 : ℝ) (1 : ℝ) ≠ |1 / 2| := half_lt'.ne'

theorem integer (n : ℤ) (h : |n| < 2 ^ 53) : Spec.Binary64 n := ⟨n, 0, h, by norm_num, by norm_num, by simp⟩

theorem ratio : Filter.Tendsto (fun T : ℝ => (fun T => T / 2) T / T) Filter.atTop (nhds (1 / 2)) := by
  refine (tendsto_const_nhds (x := (1 / 2 : ℝ))).congr' ?_
  filter_upwards [Filter.eventually_gt_atTop 0] with T hT
  field_simp

theorem cold : Filter.Tendsto (fun mu : ℝ => (fun _ => (2 : ℝ)) mu * mu) Filter.atTop Filter.atTop :=
  Filter.Tendsto.const_mul_atTop (by norm_num) Filter.tendsto_id

theorem moderate {x : ℝ} (h : 1 / 10 ≤ |x|) (h' : |x| ≤ 10) : Spec.Moderate x := by
  refine Or.inr ⟨le_trans ?_ h, h'.trans ?_⟩ <;> simp only [Spec.big] <;> norm_num

theorem qcd_ne {s : ℝ} (hs : 0 < s) :
    qcd.gluon.dressing_inv_landau_w_field_config consts.init s 0 (FieldConfig.new 3 1 [(2, 1), (1, 3)]) ≠ 0 := by
  refine (C107_qcd consts.init (xi := 0) (rho := 1) one_pos le_rfl [(2, 1), (1, 3)] ?_ le_rfl ?_ ?_ s hs).2.1.1.ne'
  · intro q hq; fin_cases hq <;> norm_num
  · norm_num
  · norm_num

theorem qcd_ne' {s : ℝ} (hs : 0 < s) : qcd.gluon.dressing_inv_landau consts.init s 1 0 ≠ 0 := by
  have h := (C107_gluon (f0 := 0) (xi := 0) le_rfl (by norm_num) (by norm_num) s hs).1
  have h2 := (C107_quark_function s hs).1
  have h3 : Real.log (1 + s / 5) ≤ Real.log (1 + s) := Real.log_le_log (by positivity) (by linarith)
  have h4 : 0 < Real.log (1 + s) := Real.log_pos (by linarith)
  have h5 : (consts.init : consts.Consts ℝ).nf_div_nc = 1 / 3 := by
    norm_num [consts.init, consts.FloatOps.div, consts.FloatOps.lit]
  rw [(global_additive consts.init s 1 0 0).1, h5, one_pow, ofR_real, ofR_real, div_one]
  nlinarith

end Cases


/-- Regularity of the loop at the frequency `3`, or at zero frequency and momentum `5`. -/
macro "regular" : tactic => `(tactic| first
  | (simpa using C62_regular_real (q := 1) (om := 3) one_pos (by norm_num) 5 1 1; done)
  | (simpa using C62_regular_real (q := 1) (om := 3) one_pos (by norm_num) 5 1 2; done)
  | (simpa using C62_regular_real (q := 1) (om := 3) one_pos (by norm_num) 5 1 0; done)
  | (simpa using C62_regular_real (q := 1) (om := 3) one_pos (by norm_num) 5 0 0; done)
  | (simpa using C62_regular_real (q := 1) (om := 3) one_pos (by norm_num) 0 1 1; done)
  | (simpa using C62_regular_zero_matsubara (q := 1) (p := 5) (m1 := 1) (m2 := 1) (by norm_num) (by norm_num); done)
  | (simpa using C62_regular_zero_matsubara (q := 1) (p := 5) (m1 := 1) (m2 := 2) (by norm_num) (by norm_num); done)
  | (simpa using C62_regular_zero_matsubara (q := 1) (p := 5) (m1 := 1) (m2 := 0) (by norm_num) (by norm_num); done)
  | (simpa using C62_regular_zero_matsubara (q := 1) (p := 5) (m1 := 0) (m2 := 0) (by norm_num) (by norm_num); done))

/-- Every element of an explicit list. -/
macro "each" : tactic => `(tactic| (intro q hq; fin_cases hq <;> norm_num [FieldConfig.new, QuarkInternal.new, abs_of_pos]; done))

/-! ### Accuracy -/

example := C112_fermi (r := binary64) (u := 2 ^ (-53 : ℤ)) (h := C112_binary64) (hu := by norm_num) (hu' := by norm_num)
    (en := (.num ((2 : ℝ) : EReal))) (beta := (.num ((2 : ℝ) : EReal))) (mu := (.num ((1 : ℝ) : EReal))) (e := 2) (b := 2) (y := 1)
    (he := rfl) (hb := rfl) (hm := rfl) (hb0 := by norm_num) (hd := Cases.moderate (by norm_num) (by norm_num))
    (hx := Cases.moderate (by norm_num) (by norm_num)) (hmax := by norm_num [abs_of_pos])
example := C112_energy_f64 (p := (.num ((1 : ℝ) : EReal))) (m := (.num ((1 : ℝ) : EReal))) (x := 1) (y := 1) (hp := rfl) (hm := rfl)
    (hx := Cases.moderate (by norm_num) (by norm_num)) (hy := Cases.moderate (by norm_num) (by norm_num))
example := C112_energy (r := binary64) (u := 2 ^ (-53 : ℤ)) (h := C112_binary64) (hu := by norm_num) (hu' := by norm_num)
    (p := (.num ((1 : ℝ) : EReal))) (m := (.num ((1 : ℝ) : EReal))) (x := 1) (y := 1) (hp := rfl) (hm := rfl)
    (hx := Cases.moderate (by norm_num) (by norm_num)) (hy := Cases.moderate (by norm_num) (by norm_num))
example := C112_fermi_zero_chempot (r := binary64) (u := 2 ^ (-53 : ℤ)) (h := C112_binary64) (hu := by norm_num) (hu' := by norm_num)
    (en := (.num ((2 : ℝ) : EReal))) (beta := (.num ((2 : ℝ) : EReal))) (e := 2) (b := 2) (he := rfl) (hb := rfl) (hb0 := by norm_num)
    (hex := C111_binary64_fixed _ (by simpa using Cases.integer 2 (by norm_num))) (hd := Cases.moderate (by norm_num) (by norm_num))
    (hx := Cases.moderate (by norm_num) (by norm_num)) (hmax := by norm_num [abs_of_pos])

/-! ### ChargeDensity -/

example := C50_odd (ig := .exact) (h := exact_odd)
example := C50_sign (k := consts.init) (beta := 2) (hb := by norm_num) (hk := by norm_num [consts.init])
example := C50_converges (beta := 2) (hb := by norm_num)
example := C50_zero (ig := .exact) (h := exact_zero)
example := C51_density_value (m := 1) (mu := 2) (h := by norm_num [abs_of_pos])
example := C51_density_of_chemical_potential (k := consts.init) (hk := by norm_num [consts.init])
example := C51_density_threshold (m := 1) (mu := 1 / 2) (h := by norm_num [abs_of_pos])

/-! ### Covariant -/

example := C89_vacuum (g := dirac) (hg := dirac_clifford) (h := []) (hnc := by show (3 : ℕ) ≠ 0; norm_num) (m := 1) (mq := 1)
    (hm := by norm_num) (hq := by norm_num)

/-! ### DenseGluon -/

example := C99_qcd_propagator_t_zero_temp (om := 3) (p := 5) (ho := by norm_num) (hp := by norm_num) (k := consts.init)
    (hk := by norm_num [consts.init]) (hf := by norm_num [consts.init])
example := C99_qcd_propagator_t (om := 3) (p := 5) (ho := by norm_num) (hp := by norm_num) (k := consts.init)
    (hk := by norm_num [consts.init]) (hf := by norm_num [consts.init]) (beta := 2) (hb := by norm_num)
example := C99_qcd_propagator_l_w_field_config (om := 3) (p := 5) (ho := by norm_num) (hp := by norm_num) (k := consts.init)
    (hk := by norm_num [consts.init]) (beta := 2) (hb := by norm_num) (quarks := [(2, 1), (1, 3)]) (hf := by norm_num)
example := C99_qcd_propagator_l (om := 3) (p := 5) (ho := by norm_num) (hp := by norm_num) (k := consts.init)
    (hk := by norm_num [consts.init]) (hf := by norm_num [consts.init]) (beta := 2) (hb := by norm_num)
example := C99_quark_t_zero_temp (om := 3) (p := 5) (ho := by norm_num) (hp := by norm_num) (k := consts.init)
    (hk := by norm_num [consts.init])
example := C99_qcd_propagator_t_w_field_config (om := 3) (p := 5) (ho := by norm_num) (hp := by norm_num) (k := consts.init)
    (hk := by norm_num [consts.init]) (beta := 2) (hb := by norm_num) (quarks := [(2, 1), (1, 3)]) (hf := by norm_num)
example := C99_quark_t (om := 3) (p := 5) (ho := by norm_num) (hp := by norm_num) (k := consts.init) (hk := by norm_num [consts.init])
    (beta := (fun _ => 2)) (hb := Cases.cold)
example := C99_quark_l_zero_momentum_zero_temp (om := 3) (ho := by norm_num) (k := consts.init) (hk := by norm_num [consts.init])
example := C99_quark_l (om := 3) (p := 5) (ho := by norm_num) (hp := by norm_num) (k := consts.init) (hk := by norm_num [consts.init])
    (beta := (fun _ => 2)) (hb := Cases.cold)
example := C99_quark_t_zero_momentum (om := 3) (ho := by norm_num) (k := consts.init) (hk := by norm_num [consts.init])
    (beta := (fun _ => 2)) (hb := Cases.cold)
example := C99_qcd_propagator_l_zero_temp (om := 3) (p := 5) (ho := by norm_num) (hp := by norm_num) (k := consts.init)
    (hk := by norm_num [consts.init]) (hf := by norm_num [consts.init])
example := C99_quark_t_zero_momentum_zero_temp (om := 3) (ho := by norm_num) (k := consts.init) (hk := by norm_num [consts.init])
example := C99_quark_l_zero_momentum (om := 3) (ho := by norm_num) (k := consts.init) (hk := by norm_num [consts.init])
    (beta := (fun _ => 2)) (hb := Cases.cold)
example := C99_quark_l_zero_temp (om := 3) (p := 5) (ho := by norm_num) (hp := by norm_num) (k := consts.init)
    (hk := by norm_num [consts.init])

/-! ### DensitySearch -/

example := C116_default (k := consts.init) (hk := by norm_num [consts.init]) (m := 2) (n := 1)
    (h0 := by norm_num [consts.init, consts.FloatOps.lit]) (h2 := by norm_num [abs_of_pos])

/-! ### Diagrams -/

example := C71_polarization_glue_l (T1 := ℝ) (T2 := ℝ) (om := 3) (p := 5) (m := 1) (beta := 2) (ho := by norm_num) (hp := by norm_num)
    (hm := by norm_num) (hb := by norm_num)

/-! ### Distributions -/

example := C13_particle_hole_complex (en := 1) (mu := 1) (beta := 2) (h := by norm_num)
example := C15_fermi_limit (en := 2) (mu := 1 / 2) (h := by norm_num)
example := C16_bose_reflection (en := 2) (beta := 2) (mu := 1 / 2) (h := by norm_num) (hb := by norm_num)
example := C15_double_limit (en := 2) (mu := 1 / 2) (h := by norm_num) (h' := by norm_num)
example := C15_double_zero_temp_value (en := 2) (hen := by norm_num)
example := C15_bose_limit (en := 2) (mu := 1 / 2) (h := by norm_num)
example := C51_fermi_momentum (m := 1) (mu := 2) (h := by norm_num [abs_of_pos])
example := C13_monotone (beta := 2) (hb := by norm_num)

/-! ### DressingDefined -/

example := C109_ym_zero_momentum (T := ℝ) (pg := (PIntegrator.rule midpoint)) (ig := (Integrator.rule midpoint))
    (hL := midpoint_extends) (om := (3 : ℝ)) (m := 1) (beta := 2) (ho := by norm_num) (hm := by norm_num) (hb := by norm_num)
example := C109_vacuum_qcd (T := ℝ) (s := (3 : ℝ)) (hs := by norm_num) (mq := 1) (hmq := by norm_num)
example := C109_qcd_gluon_zero_temp (T := ℝ) (pg := (PIntegrator.rule midpoint)) (ig := (Integrator.rule midpoint))
    (hL := midpoint_extends) (k := consts.init) (om := (3 : ℝ)) (p := 5) (m := 1) (mq := 1) (mu := 1 / 2) (ho := by norm_num)
    (hp := by norm_num) (hm := by norm_num) (hk := by norm_num [consts.init]) (hmq := by norm_num) (hmu := by norm_num [abs_of_pos])
example := C109_qcd_config_zero_temp (T := ℝ) (pg := (PIntegrator.rule midpoint)) (ig := (Integrator.rule midpoint))
    (hL := midpoint_extends) (k := consts.init) (om := (3 : ℝ)) (p := 5) (mu := 1 / 2) (m := 1) (qs := [(2, 1), (1, 3)])
    (ho := by norm_num) (hp := by norm_num) (hm := by norm_num) (hk := by norm_num [consts.init]) (hqs := by each) (hmus := by each)
example := C109_qcd_zero_momentum_gluon_zero_temp (T := ℝ) (pg := (PIntegrator.rule midpoint)) (ig := (Integrator.rule midpoint))
    (hL := midpoint_extends) (k := consts.init) (om := (3 : ℝ)) (m := 1) (mq := 1) (mu := 1 / 2) (ho := by norm_num) (hm := by norm_num)
    (hk := by norm_num [consts.init]) (hmq := by norm_num) (hmu := by norm_num [abs_of_pos])
example := C109_qcd_zero_matsubara_gluon_zero_temp (pg := (PIntegrator.rule midpoint)) (ig := (Integrator.rule midpoint))
    (hL := midpoint_extends) (k := consts.init) (p := 5) (m := 1) (mq := 1) (mu := 1 / 2) (hp := by norm_num) (hm := by norm_num)
    (hk := by norm_num [consts.init]) (hr := Cases.reg) (hmq := by norm_num) (hmu := by norm_num [abs_of_pos])
example := C109_ym_zero_matsubara_gluon (pg := (PIntegrator.rule midpoint)) (ig := (Integrator.rule midpoint)) (hL := midpoint_extends)
    (k := consts.init) (p := 5) (m := 1) (beta := 2) (hp := by norm_num) (hm := by norm_num) (hb := by norm_num) (hr := Cases.reg)
example := C109_qcd_zero_matsubara_gluon (pg := (PIntegrator.rule midpoint)) (ig := (Integrator.rule midpoint)) (hL := midpoint_extends)
    (k := consts.init) (p := 5) (m := 1) (mq := 1) (beta := 2) (hp := by norm_num) (hm := by norm_num) (hb := by norm_num)
    (hk := by norm_num [consts.init]) (hr := Cases.reg) (hmq := by norm_num)
example := C109_qcd_zero_momentum_config (T := ℝ) (pg := (PIntegrator.rule midpoint)) (ig := (Integrator.rule midpoint))
    (hL := midpoint_extends) (k := consts.init) (om := (3 : ℝ)) (beta := 2) (m := 1) (qs := [(2, 1), (1, 3)]) (ho := by norm_num)
    (hm := by norm_num) (hb := by norm_num) (hk := by norm_num [consts.init]) (hqs := by each)
example := C109_qcd_zero_momentum_gluon (T := ℝ) (pg := (PIntegrator.rule midpoint)) (ig := (Integrator.rule midpoint))
    (hL := midpoint_extends) (k := consts.init) (om := (3 : ℝ)) (m := 1) (mq := 1) (beta := 2) (ho := by norm_num) (hm := by norm_num)
    (hb := by norm_num) (hk := by norm_num [consts.init]) (hmq := by norm_num)
example := C109_vacuum_ym (T := ℝ) (s := (3 : ℝ)) (hs := by norm_num)
example := C109_qcd_zero_matsubara_config (pg := (PIntegrator.rule midpoint)) (ig := (Integrator.rule midpoint))
    (hL := midpoint_extends) (k := consts.init) (p := 5) (beta := 2) (m := 1) (qs := [(2, 1), (1, 3)]) (hp := by norm_num)
    (hm := by norm_num) (hb := by norm_num) (hk := by norm_num [consts.init]) (hr := Cases.reg) (hqs := by each)
example := C109_qcd_zero_matsubara_config_zero_temp (pg := (PIntegrator.rule midpoint)) (ig := (Integrator.rule midpoint))
    (hL := midpoint_extends) (k := consts.init) (p := 5) (mu := 1 / 2) (m := 1) (qs := [(2, 1), (1, 3)]) (hp := by norm_num)
    (hm := by norm_num) (hk := by norm_num [consts.init]) (hr := Cases.reg) (hqs := by each) (hmus := by each)

/-! ### Euclidean -/

example := C107_gluon_function (s := 3) (hs := by norm_num)

/-! ### EuclideanQuarks -/

example := C107_quark_function (s := 3) (hs := by norm_num)

/-! ### ExampleAsymptotics -/

example := C100_agreement (nc := 3) (nf := 2) (hc := by norm_num) (hf := by norm_num) (mu0 := 1) (T0 := 1) (hT := by norm_num)
example := C100_high_density (nc := 3) (nf := 2) (hc := by norm_num) (hf := by norm_num) (T := 1) (hT := by norm_num)
example := C100_high_temperature (nc := 3) (hc := by norm_num) (mu := (fun T => T / 2)) (v := 1 / 2) (hmu := Cases.ratio)

/-! ### ExampleGluon -/

example := C103_integrand (k := consts.init) (hr := Cases.reg)
example := C103_polarization (ig := .exact) (hi := exact_interior) (hc := exact_conj) (k := consts.init) (hr := Cases.reg)
example := C103_propagator (ig := .exact) (hi := exact_interior) (hc := exact_conj) (k := consts.init) (hr := Cases.reg)
    (hq := by norm_num [consts.init, consts.FloatOps.lit])
example := C103_integrand_low_temperature (k := consts.init) (q := 1) (hq := by norm_num)
    (hF := by norm_num [consts.init, consts.FloatOps.lit])
example := C103_polarization_low_temperature (k := consts.init) (hr := Cases.reg)
example := C103_propagator_low_temperature (k := consts.init) (hr := Cases.reg)

/-! ### ExampleHtl -/

example := C95_positive (om := 3) (p := 5) (ho := by norm_num) (hp := by norm_num) (t := 1) (ht := by norm_num)
example := C95_imaginary (om := 3) (p := 5) (ig := .exact) (hi := exact_interior) (hc := exact_conj) (ho := by norm_num)
    (hp := by norm_num) (t := 1) (ht := by norm_num)

/-! ### ExamplePoles -/

example := C94_program (ig := .exact) (hi := exact_interior) (hc := exact_conj)

/-! ### FloatDensity -/

example := C119_potential_zero (n := (.num 0)) (hn := rfl)
example := C119_potential_odd (n := (.num ((1 : ℝ) : EReal))) (a := ((1 : ℝ) : EReal)) (hn := rfl)

/-! ### FloatResidue -/

example := C122_loss (r := 1) (hr := by simpa using Cases.integer 1 (by norm_num)) (hr' := by norm_num [abs_of_pos])

/-! ### FloatRoot -/

example := C118_step (a := (.num ((1 : ℝ) : EReal))) (b := (.num ((1 : ℝ) : EReal))) (fa := (.num ((-0.876 : ℝ) : EReal)))
    (fb := (.num ((1 : ℝ) : EReal))) (z0 := 1) (z1 := 1) (f0 := -0.876) (f1 := 1) (ha := rfl) (hb := rfl) (hfa := rfl) (hfb := rfl)
    (h0 := ⟨by norm_num, by norm_num⟩) (h1 := ⟨by norm_num, by norm_num⟩) (g0 := ⟨by norm_num, by norm_num⟩)
    (g1 := ⟨by norm_num, by norm_num⟩) (g := ⟨by norm_num, by norm_num⟩)
example := C118_bracketed (a := (.num ((1 : ℝ) : EReal))) (b := (.num ((1 : ℝ) : EReal))) (fa := (.num ((-0.876 : ℝ) : EReal)))
    (fb := (.num ((1 : ℝ) : EReal))) (z0 := 1) (z1 := 1) (f0 := -0.876) (f1 := 1) (ha := rfl) (hb := rfl) (hfa := rfl) (hfb := rfl)
    (h0 := ⟨by norm_num, by norm_num⟩) (h1 := ⟨by norm_num, by norm_num⟩) (g0 := ⟨by norm_num, by norm_num⟩)
    (g1 := ⟨by norm_num, by norm_num⟩) (g := ⟨by norm_num, by norm_num⟩) (hz := by norm_num) (hf := by norm_num)

/-! ### FloatThermalDensity -/

example := C123_odd (m := (.num ((1 : ℝ) : EReal))) (beta := (.num ((2 : ℝ) : EReal))) (mu := (.num ((1 : ℝ) : EReal)))
    (t := (.num (1 : ℝ))) (y := 1) (b := 2) (x := 1) (nc := 3) (hm := rfl) (hb := rfl) (hb0 := by norm_num) (hmu := rfl)
    (h1 := by norm_num) (ht := ⟨1, rfl, by norm_num [zpow_neg], by norm_num⟩)

/-! ### Floats -/

example := C111_fermi_zero_chempot (r := binary64) (en := (.num ((1 : ℝ) : EReal))) (en' := (.num ((2 : ℝ) : EReal)))
    (beta := (.num ((2 : ℝ) : EReal))) (x := ((1 : ℝ) : EReal)) (x' := ((2 : ℝ) : EReal)) (b := 2) (he := rfl) (he' := rfl) (hb := rfl)
    (hb0 := by norm_num) (hx := by exact_mod_cast (by norm_num : (1 : ℝ) ≤ 2))
example := C111_bose (r := binary64) (en := (.num ((1 : ℝ) : EReal))) (en' := (.num ((2 : ℝ) : EReal)))
    (beta := (.num ((2 : ℝ) : EReal))) (mu := (.num ((1 : ℝ) : EReal))) (x := ((1 : ℝ) : EReal)) (x' := ((2 : ℝ) : EReal)) (b := 2)
    (y := 1) (he := rfl) (he' := rfl) (hb := rfl) (hm := rfl) (hb0 := by norm_num) (hx := by exact_mod_cast (by norm_num : (1 : ℝ) ≤ 2))
    (hy := by norm_num)
example := C111_operations (r := binary64) (a := (.num ((1 : ℝ) : EReal))) (b := (.num ((1 : ℝ) : EReal)))
    (c := (.num ((1 : ℝ) : EReal))) (x := 1) (y := 1) (z := 1) (ha := rfl) (hb := rfl) (hc := rfl)
example := C111_energy (r := binary64) (p := (.num (5 : ℝ))) (m := (.num (1 : ℝ))) (hp := by simp [Spec.IsNaN]) (hm := by simp [Spec.IsNaN])
example := C111_fermi_mono (r := binary64) (en := (.num ((1 : ℝ) : EReal))) (en' := (.num ((2 : ℝ) : EReal)))
    (beta := (.num ((2 : ℝ) : EReal))) (mu := (.num ((1 : ℝ) : EReal))) (mu' := (.num ((1 : ℝ) : EReal))) (x := ((1 : ℝ) : EReal))
    (x' := ((2 : ℝ) : EReal)) (b := 2) (y := 1) (y' := 1) (he := rfl) (he' := rfl) (hb := rfl) (hm := rfl) (hm' := rfl)
    (hb0 := by norm_num) (hx := by exact_mod_cast (by norm_num : (1 : ℝ) ≤ 2)) (hy := by norm_num)
example := C111_binary64_nearest (x := 1) (y := 1) (h := C111_binary64_fixed _ (by simpa using Cases.integer 1 (by norm_num)))
example := C111_fermi_momentum_nan_iff (r := binary64) (m := (.num ((1 : ℝ) : EReal))) (mu := (.num ((1 : ℝ) : EReal))) (x := 1)
    (y := 1) (z := 1) (hm := rfl) (hmu := rfl)
    (hz := by rw [mul_one]; exact C111_binary64_fixed _ (by simpa using Cases.integer 1 (by norm_num)))
example := C111_exact (beta := 2) (hb := by norm_num)
example := C111_energy_mono (r := binary64) (p := (.num ((1 : ℝ) : EReal))) (p' := (.num ((2 : ℝ) : EReal)))
    (m := (.num ((1 : ℝ) : EReal))) (m' := (.num ((1 : ℝ) : EReal))) (x := ((1 : ℝ) : EReal)) (x' := ((2 : ℝ) : EReal))
    (y := ((1 : ℝ) : EReal)) (y' := ((1 : ℝ) : EReal)) (hp := rfl) (hp' := rfl) (hm := rfl) (hm' := rfl)
    (hx := by exact_mod_cast zero_le_one) (hy := by exact_mod_cast zero_le_one) (hxx := by exact_mod_cast (by norm_num : (1 : ℝ) ≤ 2))
    (hyy := by norm_num)
example := C111_fermi_double_range (r := binary64) (en := (.num ((1 : ℝ) : EReal))) (beta := (.num ((2 : ℝ) : EReal)))
    (mu := (.num ((1 : ℝ) : EReal))) (x := ((1 : ℝ) : EReal)) (b := 2) (y := 1) (he := rfl) (hb := rfl) (hm := rfl) (hb0 := by norm_num)

/-! ### HighTemperature -/

example := C75_quark_l_fixed_mu (om := 3) (p := 5) (ho := by norm_num) (hp := by norm_num) (k := consts.init)
    (hk := by norm_num [consts.init])
example := C75_debye (p := 5) (hp := by norm_num)
example := C75_quark_t_zero_matsubara (p := 5) (hp := by norm_num) (k := consts.init) (hr := Cases.reg)
    (hk := by norm_num [consts.init]) (mu := (fun T => T / 2)) (v := 1 / 2) (hmu := Cases.ratio)
example := C75_quark_l (om := 3) (p := 5) (ho := by norm_num) (hp := by norm_num) (k := consts.init) (hk := by norm_num [consts.init])
    (mu := (fun T => T / 2)) (v := 1 / 2) (hmu := Cases.ratio)
example := C75_quark_l_zero_momentum (om := 3) (ho := by norm_num) (k := consts.init) (hk := by norm_num [consts.init])
    (mu := (fun T => T / 2)) (v := 1 / 2) (hmu := Cases.ratio)
example := C75_quark_t (om := 3) (p := 5) (ho := by norm_num) (hp := by norm_num) (k := consts.init) (hk := by norm_num [consts.init])
    (mu := (fun T => T / 2)) (v := 1 / 2) (hmu := Cases.ratio)
example := C75_quark_t_zero_momentum (om := 3) (ho := by norm_num) (k := consts.init) (hk := by norm_num [consts.init])
    (mu := (fun T => T / 2)) (v := 1 / 2) (hmu := Cases.ratio)
example := C75_quark_l_zero_matsubara (p := 5) (hp := by norm_num) (k := consts.init) (hr := Cases.reg)
    (hk := by norm_num [consts.init]) (mu := (fun T => T / 2)) (v := 1 / 2) (hmu := Cases.ratio)
example := C75_quark_t_fixed_mu (om := 3) (p := 5) (ho := by norm_num) (hp := by norm_num) (k := consts.init)
    (hk := by norm_num [consts.init])
example := C75_no_magnetic_mass (p := 5) (hp := by norm_num)

/-! ### HotGluon -/

example := C98_qcd_propagator_l_w_field_config (om := 3) (p := 5) (m := 1) (ho := by norm_num) (hp := by norm_num) (hm := by norm_num)
    (k := consts.init) (hk := by norm_num [consts.init]) (mu := (fun T => T / 2)) (v := 1 / 2) (hmu := Cases.ratio)
example := C98_glue_t_zero_matsubara (p := 5) (m := 1) (hp := by norm_num) (hm := by norm_num) (k := consts.init) (hr := Cases.reg)
example := C98_ym_propagator_t (om := 3) (p := 5) (m := 1) (ho := by norm_num) (hp := by norm_num) (hm := by norm_num)
example := C98_glue_t (om := 3) (p := 5) (m := 1) (ho := by norm_num) (hp := by norm_num) (hm := by norm_num)
example := C98_ym_propagator_l (om := 3) (p := 5) (m := 1) (ho := by norm_num) (hp := by norm_num) (hm := by norm_num)
example := C98_ghost (om := 3) (p := 5) (m := 1) (ho := by norm_num) (hp := by norm_num) (hm := by norm_num)
example := C98_qcd_propagator_l (om := 3) (p := 5) (m := 1) (ho := by norm_num) (hp := by norm_num) (hm := by norm_num)
    (k := consts.init) (hk := by norm_num [consts.init]) (mu := (fun T => T / 2)) (v := 1 / 2) (hmu := Cases.ratio)
example := C98_htl_t_pos (om := 3) (p := 5) (ho := by norm_num) (hp := by norm_num) (t2 := 2) (ht := by norm_num)
example := C98_qcd_propagator_t_w_field_config (om := 3) (p := 5) (m := 1) (ho := by norm_num) (hp := by norm_num) (hm := by norm_num)
    (k := consts.init) (hk := by norm_num [consts.init]) (mu := (fun T => T / 2)) (v := 1 / 2) (hmu := Cases.ratio)
example := C98_ym_static_propagator_t (p := 5) (m := 1) (hp := by norm_num) (hm := by norm_num) (k := consts.init) (hreg := Cases.reg)
example := C98_qcd_static_propagator_t (p := 5) (m := 1) (hp := by norm_num) (hm := by norm_num) (k := consts.init)
    (hk := by norm_num [consts.init]) (hreg := Cases.reg) (mu := (fun T => T / 2)) (v := 1 / 2) (hmu := Cases.ratio)
example := C98_qcd_propagator_t_fixed_mu (om := 3) (p := 5) (m := 1) (ho := by norm_num) (hp := by norm_num) (hm := by norm_num)
    (k := consts.init) (hk := by norm_num [consts.init])
example := C98_ym_static_propagator_l (p := 5) (m := 1) (hp := by norm_num) (hm := by norm_num) (k := consts.init) (hreg := Cases.reg)
example := C98_ghost_dressing (om := 3) (p := 5) (m := 1) (ho := by norm_num) (hp := by norm_num) (hm := by norm_num)
example := C98_htl_l_pos (om := 3) (p := 5) (ho := by norm_num) (hp := by norm_num) (t2 := 2) (ht := by norm_num)
example := C98_qcd_propagator_l_fixed_mu (om := 3) (p := 5) (m := 1) (ho := by norm_num) (hp := by norm_num) (hm := by norm_num)
    (k := consts.init) (hk := by norm_num [consts.init])
example := C98_qcd_static_propagator_l (p := 5) (m := 1) (hp := by norm_num) (hm := by norm_num) (k := consts.init)
    (hk := by norm_num [consts.init]) (hreg := Cases.reg) (mu := (fun T => T / 2)) (v := 1 / 2) (hmu := Cases.ratio)
example := C98_qcd_propagator_t (om := 3) (p := 5) (m := 1) (ho := by norm_num) (hp := by norm_num) (hm := by norm_num)
    (k := consts.init) (hk := by norm_num [consts.init]) (mu := (fun T => T / 2)) (v := 1 / 2) (hmu := Cases.ratio)
example := C98_glue_l (om := 3) (p := 5) (m := 1) (ho := by norm_num) (hp := by norm_num) (hm := by norm_num)
example := C98_glue_l_zero_matsubara (p := 5) (m := 1) (hp := by norm_num) (hm := by norm_num) (k := consts.init) (hr := Cases.reg)

/-! ### IntegratedDiagrams -/

example := C83_polarization_glue_l (T1 := ℝ) (T2 := ℝ) (om := 2 * Real.pi * ((1 : ℤ) : ℝ) / 2) (p := 5) (m := 1) (beta := 2) (l := 1)
    (ho := by norm_num) (hl := by norm_num) (hp := by norm_num) (hm := by norm_num) (hb := by norm_num)
example := C83_polarization_glue_t (T := ℝ) (om := 2 * Real.pi * ((1 : ℤ) : ℝ) / 2) (p := 5) (m := 1) (beta := 2) (l := 1)
    (ho := by norm_num) (hl := by norm_num) (hp := by norm_num) (hm := by norm_num) (hb := by norm_num)

/-! ### IntegratedDiagramsZero -/

example := C90_polarization_glue_l (T := ℝ) (om := 2 * Real.pi * ((1 : ℤ) : ℝ) / 2) (m := 1) (beta := 2) (l := 1) (ho := by norm_num)
    (hl := by norm_num) (hm := by norm_num) (hb := by norm_num)
example := C90_polarization_glue_t (T := ℝ) (om := 2 * Real.pi * ((1 : ℤ) : ℝ) / 2) (m := 1) (beta := 2) (l := 1) (ho := by norm_num)
    (hl := by norm_num) (hm := by norm_num) (hb := by norm_num)
example := C90_ghost_self_energy (T := ℝ) (om := 2 * Real.pi * ((1 : ℤ) : ℝ) / 2) (m := 1) (beta := 2) (l := 1) (ho := by norm_num)
    (hl := by norm_num) (hm := by norm_num) (hb := by norm_num)

/-! ### LowTemperature -/

example := C72_ghost_thermal_zero_momentum_self_energy (om := (3 : ℝ)) (ho := by norm_num) (m := 1) (hm := by norm_num)
example := C72_ym_thermal_zero_matsubara_gluon_propagator_l (k := consts.init) (hr := Cases.reg) (m := 1) (hm := by norm_num) (p := 5)
    (f0 := 0) (hV := (vacuum_ym (by norm_num) (by norm_num)).ne')
example := C73_gluon_thermal_zero_matsubara_polarization_glue_t (k := consts.init) (hr := Cases.reg) (m := 1) (hm := by norm_num)
    (beta := 2) (hb := by norm_num)
example := C72_qcd_thermal_zero_momentum_gluon_dressing_l_inv_vacuum (om := (3 : ℝ)) (ho := by norm_num) (m := 1) (hm := by norm_num)
    (mq := 1) (mu := 1 / 2) (hmu := by norm_num [abs_of_pos])
example := C72_qcd_thermal_gluon_dressing_l_inv_w_field_config_vacuum (om := (3 : ℝ)) (ho := by norm_num) (mu := 1 / 2)
    (config := (FieldConfig.new 3 1 [(2, 1), (1, 3)])) (hg := by norm_num [FieldConfig.new]) (hmu := by each)
example := C72_ym_thermal_gluon_propagator_t (om := (3 : ℝ)) (ho := by norm_num) (m := 1) (hm := by norm_num) (p := 5) (f0 := 0)
    (hV := (vacuum_ym (by norm_num) (by norm_num)).ne')
example := C72_ym_thermal_ghost_propagator (om := (3 : ℝ)) (ho := by norm_num) (m := 1) (hm := by norm_num) (p := 5) (g0 := 0)
    (hV := ((C107_ghost 0 0).1 (by norm_num) (by norm_num) (by norm_num) _ (by norm_num)).1.ne')
example := C72_qcd_thermal_zero_matsubara_gluon_propagator_l_w_field_config (k := consts.init) (hr := Cases.reg) (p := 5) (mu := 1 / 2)
    (f0 := 0) (config := (FieldConfig.new 3 1 [(2, 1), (1, 3)])) (hg := by norm_num [FieldConfig.new])
    (hV := by rw [tendsto_nhds_unique (C72_qcd_thermal_zero_matsubara_gluon_dressing_l_inv_w_field_config consts.init Cases.reg 5 (1 / 2) 0 (FieldConfig.new 3 1 [(2, 1), (1, 3)]) (by norm_num [FieldConfig.new])) (C72_qcd_thermal_zero_matsubara_gluon_dressing_l_inv_w_field_config_vacuum consts.init Cases.reg 5 (1 / 2) 0 (FieldConfig.new 3 1 [(2, 1), (1, 3)]) (by norm_num [FieldConfig.new]) (by each))]; exact Cases.qcd_ne (by norm_num [FieldConfig.new]))
example := C72_ghost_thermal_self_energy (om := (3 : ℝ)) (ho := by norm_num) (m := 1) (hm := by norm_num)
example := C73_gluon_thermal_polarization_quark_l (om := 3) (ho := by norm_num) (beta := 2) (hb := by norm_num)
example := C72_qcd_thermal_zero_momentum_gluon_dressing_l_inv_w_field_config (om := (3 : ℝ)) (ho := by norm_num)
    (config := (FieldConfig.new 3 1 [(2, 1), (1, 3)])) (hg := by norm_num [FieldConfig.new])
example := C72_ym_thermal_zero_matsubara_gluon_dressing_l_inv (k := consts.init) (hr := Cases.reg) (m := 1) (hm := by norm_num)
example := C72_qcd_thermal_zero_momentum_gluon_propagator_t (om := (3 : ℝ)) (ho := by norm_num) (k := consts.init) (m := 1)
    (hm := by norm_num) (mq := 1) (mu := 1 / 2) (f0 := 0)
    (hV := by rw [tendsto_nhds_unique (C72_qcd_thermal_zero_momentum_gluon_dressing_t_inv (om := 3) (by norm_num) consts.init (m := 1) one_ne_zero 1 (1 / 2) 0) (C72_qcd_thermal_zero_momentum_gluon_dressing_t_inv_vacuum (om := 3) (by norm_num) consts.init (m := 1) one_ne_zero (mq := 1) (mu := 1 / 2) (by norm_num [abs_of_pos]) 0)]; rw [div_one]; exact Complex.ofReal_ne_zero.2 (Cases.qcd_ne' (by norm_num)))
example := C72_qcd_thermal_gluon_dressing_l_inv (om := (3 : ℝ)) (ho := by norm_num) (m := 1) (hm := by norm_num)
example := C73_ghost_thermal_zero_momentum_self_energy (om := 3) (ho := by norm_num) (m := 1) (hm := by norm_num) (beta := 2)
    (hb := by norm_num)
example := C72_gluon_thermal_polarization_quark_l (om := (3 : ℝ)) (ho := by norm_num)
example := C72_qcd_thermal_zero_momentum_gluon_dressing_t_inv_w_field_config_vacuum (om := (3 : ℝ)) (ho := by norm_num) (mu := 1 / 2)
    (config := (FieldConfig.new 3 1 [(2, 1), (1, 3)])) (hg := by norm_num [FieldConfig.new]) (hmu := by each)
example := C72_qcd_thermal_zero_matsubara_gluon_propagator_l (k := consts.init) (hr := Cases.reg) (m := 1) (hm := by norm_num) (p := 5)
    (mq := 1) (mu := 1 / 2) (f0 := 0)
    (hV := by rw [tendsto_nhds_unique (C72_qcd_thermal_zero_matsubara_gluon_dressing_l_inv consts.init Cases.reg (m := 1) one_ne_zero 5 1 (1 / 2) 0) (C72_qcd_thermal_zero_matsubara_gluon_dressing_l_inv_vacuum consts.init Cases.reg (m := 1) one_ne_zero 5 (mq := 1) (mu := 1 / 2) (by norm_num [abs_of_pos]) 0)]; rw [div_one]; exact Cases.qcd_ne' (by norm_num))
example := C73_gluon_thermal_polarization_quark_l_zero_temp (om := 3) (ho := by norm_num)
example := C72_qcd_thermal_zero_matsubara_gluon_dressing_l_inv (k := consts.init) (hr := Cases.reg) (m := 1) (hm := by norm_num)
example := C72_qcd_thermal_gluon_dressing_l_inv_w_field_config (om := (3 : ℝ)) (ho := by norm_num)
    (config := (FieldConfig.new 3 1 [(2, 1), (1, 3)])) (hg := by norm_num [FieldConfig.new])
example := C72_gluon_thermal_zero_matsubara_polarization_glue_t (k := consts.init) (hr := Cases.reg) (m := 1) (hm := by norm_num)
example := C73_gluon_thermal_zero_matsubara_polarization_glue_l (k := consts.init) (hr := Cases.reg) (m := 1) (hm := by norm_num)
    (beta := 2) (hb := by norm_num)
example := C73_gluon_thermal_zero_momentum_polarization_quark_t (om := 3) (ho := by norm_num) (beta := 2) (hb := by norm_num)
example := C73_gluon_thermal_polarization_glue_t (om := 3) (ho := by norm_num) (m := 1) (hm := by norm_num) (beta := 2) (hb := by norm_num)
example := C72_ym_thermal_zero_momentum_gluon_propagator_t (om := (3 : ℝ)) (ho := by norm_num) (m := 1) (hm := by norm_num) (f0 := 0)
    (hV := (vacuum_ym (by norm_num) (by norm_num)).ne')
example := C72_ym_thermal_zero_momentum_gluon_propagator_l (om := (3 : ℝ)) (ho := by norm_num) (m := 1) (hm := by norm_num) (f0 := 0)
    (hV := (vacuum_ym (by norm_num) (by norm_num)).ne')
example := C72_qcd_thermal_gluon_propagator_t_w_field_config (om := (3 : ℝ)) (ho := by norm_num) (k := consts.init) (p := 5)
    (mu := 1 / 2) (f0 := 0) (config := (FieldConfig.new 3 1 [(2, 1), (1, 3)])) (hg := by norm_num [FieldConfig.new])
    (hV := by rw [tendsto_nhds_unique (C72_qcd_thermal_gluon_dressing_t_inv_w_field_config (om := 3) (by norm_num) consts.init 5 (1 / 2) 0 (FieldConfig.new 3 1 [(2, 1), (1, 3)]) (by norm_num [FieldConfig.new])) (C72_qcd_thermal_gluon_dressing_t_inv_w_field_config_vacuum (om := 3) (by norm_num) consts.init 5 (1 / 2) 0 (FieldConfig.new 3 1 [(2, 1), (1, 3)]) (by norm_num [FieldConfig.new]) (by each))]; exact Complex.ofReal_ne_zero.2 (Cases.qcd_ne (by norm_num [FieldConfig.new])))
example := C72_qcd_thermal_gluon_dressing_t_inv_w_field_config (om := (3 : ℝ)) (ho := by norm_num)
    (config := (FieldConfig.new 3 1 [(2, 1), (1, 3)])) (hg := by norm_num [FieldConfig.new])
example := C72_qcd_thermal_zero_matsubara_gluon_dressing_l_inv_w_field_config_vacuum (k := consts.init) (hr := Cases.reg) (mu := 1 / 2)
    (config := (FieldConfig.new 3 1 [(2, 1), (1, 3)])) (hg := by norm_num [FieldConfig.new]) (hmu := by each)
example := C72_gluon_thermal_polarization_glue_l (om := (3 : ℝ)) (ho := by norm_num) (m := 1) (hm := by norm_num)
example := C72_ym_thermal_gluon_propagator_l (om := (3 : ℝ)) (ho := by norm_num) (m := 1) (hm := by norm_num) (p := 5) (f0 := 0)
    (hV := (vacuum_ym (by norm_num) (by norm_num)).ne')
example := C72_ym_thermal_ghost_dressing_inv (om := (3 : ℝ)) (ho := by norm_num) (m := 1) (hm := by norm_num)
example := C72_gluon_thermal_zero_momentum_polarization_quark_l (om := (3 : ℝ)) (ho := by norm_num)
example := C72_qcd_thermal_gluon_propagator_l (om := (3 : ℝ)) (ho := by norm_num) (k := consts.init) (m := 1) (hm := by norm_num)
    (p := 5) (mq := 1) (mu := 1 / 2) (f0 := 0)
    (hV := by rw [tendsto_nhds_unique (C72_qcd_thermal_gluon_dressing_l_inv (om := 3) (by norm_num) consts.init (m := 1) one_ne_zero 5 1 (1 / 2) 0) (C72_qcd_thermal_gluon_dressing_l_inv_vacuum (om := 3) (by norm_num) consts.init (m := 1) one_ne_zero 5 (mq := 1) (mu := 1 / 2) (by norm_num [abs_of_pos]) 0)]; rw [div_one]; exact Complex.ofReal_ne_zero.2 (Cases.qcd_ne' (by norm_num)))
example := C72_qcd_thermal_zero_matsubara_gluon_dressing_t_inv (k := consts.init) (hr := Cases.reg) (m := 1) (hm := by norm_num)
example := C73_gluon_thermal_zero_momentum_polarization_quark_t_zero_temp (om := 3) (ho := by norm_num)
example := C72_qcd_thermal_zero_momentum_gluon_dressing_t_inv (om := (3 : ℝ)) (ho := by norm_num) (m := 1) (hm := by norm_num)
example := C73_ghost_thermal_self_energy (om := 3) (ho := by norm_num) (m := 1) (hm := by norm_num) (beta := 2) (hb := by norm_num)
example := C72_qcd_thermal_zero_matsubara_gluon_propagator_t (k := consts.init) (hr := Cases.reg) (m := 1) (hm := by norm_num) (p := 5)
    (mq := 1) (mu := 1 / 2) (f0 := 0)
    (hV := by rw [tendsto_nhds_unique (C72_qcd_thermal_zero_matsubara_gluon_dressing_t_inv consts.init Cases.reg (m := 1) one_ne_zero 5 1 (1 / 2) 0) (C72_qcd_thermal_zero_matsubara_gluon_dressing_t_inv_vacuum consts.init Cases.reg (m := 1) one_ne_zero 5 (mq := 1) (mu := 1 / 2) (by norm_num [abs_of_pos]) 0)]; rw [div_one]; exact Cases.qcd_ne' (by norm_num))
example := C73_gluon_thermal_zero_momentum_polarization_quark_l_zero_temp (om := 3) (ho := by norm_num)
example := C72_qcd_thermal_gluon_propagator_t (om := (3 : ℝ)) (ho := by norm_num) (k := consts.init) (m := 1) (hm := by norm_num)
    (p := 5) (mq := 1) (mu := 1 / 2) (f0 := 0)
    (hV := by rw [tendsto_nhds_unique (C72_qcd_thermal_gluon_dressing_t_inv (om := 3) (by norm_num) consts.init (m := 1) one_ne_zero 5 1 (1 / 2) 0) (C72_qcd_thermal_gluon_dressing_t_inv_vacuum (om := 3) (by norm_num) consts.init (m := 1) one_ne_zero 5 (mq := 1) (mu := 1 / 2) (by norm_num [abs_of_pos]) 0)]; rw [div_one]; exact Complex.ofReal_ne_zero.2 (Cases.qcd_ne' (by norm_num)))
example := C73_gluon_thermal_polarization_quark_t (om := 3) (ho := by norm_num) (beta := 2) (hb := by norm_num)
example := C72_qcd_thermal_zero_matsubara_gluon_dressing_t_inv_w_field_config_vacuum (k := consts.init) (hr := Cases.reg) (mu := 1 / 2)
    (config := (FieldConfig.new 3 1 [(2, 1), (1, 3)])) (hg := by norm_num [FieldConfig.new]) (hmu := by each)
example := C72_qcd_thermal_zero_momentum_gluon_propagator_t_w_field_config (om := (3 : ℝ)) (ho := by norm_num) (k := consts.init)
    (mu := 1 / 2) (f0 := 0) (config := (FieldConfig.new 3 1 [(2, 1), (1, 3)])) (hg := by norm_num [FieldConfig.new])
    (hV := by rw [tendsto_nhds_unique (C72_qcd_thermal_zero_momentum_gluon_dressing_t_inv_w_field_config (om := 3) (by norm_num) consts.init (1 / 2) 0 (FieldConfig.new 3 1 [(2, 1), (1, 3)]) (by norm_num [FieldConfig.new])) (C72_qcd_thermal_zero_momentum_gluon_dressing_t_inv_w_field_config_vacuum (om := 3) (by norm_num) consts.init (1 / 2) 0 (FieldConfig.new 3 1 [(2, 1), (1, 3)]) (by norm_num [FieldConfig.new]) (by each))]; exact Complex.ofReal_ne_zero.2 (Cases.qcd_ne (by norm_num [FieldConfig.new])))
example := C72_gluon_thermal_zero_momentum_polarization_quark_t (om := (3 : ℝ)) (ho := by norm_num)
example := C72_qcd_thermal_zero_matsubara_gluon_dressing_t_inv_vacuum (k := consts.init) (hr := Cases.reg) (m := 1) (hm := by norm_num)
    (mq := 1) (mu := 1 / 2) (hmu := by norm_num [abs_of_pos])
example := C73_gluon_thermal_zero_matsubara_polarization_quark_t (k := consts.init) (hr := Cases.reg) (beta := 2) (hb := by norm_num)
example := C73_gluon_thermal_polarization_quark_t_zero_temp (om := 3) (ho := by norm_num)
example := C72_ym_thermal_zero_momentum_gluon_dressing_l_inv (om := (3 : ℝ)) (ho := by norm_num) (m := 1) (hm := by norm_num)
example := C72_gluon_thermal_polarization_glue_t (om := (3 : ℝ)) (ho := by norm_num) (m := 1) (hm := by norm_num)
example := C72_qcd_thermal_zero_momentum_gluon_propagator_l_w_field_config (om := (3 : ℝ)) (ho := by norm_num) (k := consts.init)
    (mu := 1 / 2) (f0 := 0) (config := (FieldConfig.new 3 1 [(2, 1), (1, 3)])) (hg := by norm_num [FieldConfig.new])
    (hV := by rw [tendsto_nhds_unique (C72_qcd_thermal_zero_momentum_gluon_dressing_l_inv_w_field_config (om := 3) (by norm_num) consts.init (1 / 2) 0 (FieldConfig.new 3 1 [(2, 1), (1, 3)]) (by norm_num [FieldConfig.new])) (C72_qcd_thermal_zero_momentum_gluon_dressing_l_inv_w_field_config_vacuum (om := 3) (by norm_num) consts.init (1 / 2) 0 (FieldConfig.new 3 1 [(2, 1), (1, 3)]) (by norm_num [FieldConfig.new]) (by each))]; exact Complex.ofReal_ne_zero.2 (Cases.qcd_ne (by norm_num [FieldConfig.new])))
example := C72_qcd_thermal_zero_matsubara_gluon_dressing_t_inv_w_field_config (k := consts.init) (hr := Cases.reg)
    (config := (FieldConfig.new 3 1 [(2, 1), (1, 3)])) (hg := by norm_num [FieldConfig.new])
example := C72_qcd_thermal_gluon_dressing_t_inv_vacuum (om := (3 : ℝ)) (ho := by norm_num) (m := 1) (hm := by norm_num) (mq := 1)
    (mu := 1 / 2) (hmu := by norm_num [abs_of_pos])
example := C73_gluon_thermal_zero_matsubara_polarization_quark_l (k := consts.init) (hr := Cases.reg) (beta := 2) (hb := by norm_num)
example := C73_gluon_thermal_polarization_glue_l (om := 3) (ho := by norm_num) (m := 1) (hm := by norm_num) (beta := 2) (hb := by norm_num)
example := C72_gluon_thermal_zero_matsubara_polarization_quark_t (k := consts.init) (hr := Cases.reg)
example := C72_ym_thermal_zero_momentum_ghost_propagator (om := (3 : ℝ)) (ho := by norm_num) (m := 1) (hm := by norm_num) (g0 := 0)
    (hV := ((C107_ghost 0 0).1 (by norm_num) (by norm_num) (by norm_num) _ (by norm_num)).1.ne')
example := C72_ym_thermal_zero_momentum_ghost_dressing_inv (om := (3 : ℝ)) (ho := by norm_num) (m := 1) (hm := by norm_num)
example := C72_qcd_thermal_zero_matsubara_gluon_dressing_l_inv_w_field_config (k := consts.init) (hr := Cases.reg)
    (config := (FieldConfig.new 3 1 [(2, 1), (1, 3)])) (hg := by norm_num [FieldConfig.new])
example := C72_qcd_thermal_zero_momentum_gluon_propagator_l (om := (3 : ℝ)) (ho := by norm_num) (k := consts.init) (m := 1)
    (hm := by norm_num) (mq := 1) (mu := 1 / 2) (f0 := 0)
    (hV := by rw [tendsto_nhds_unique (C72_qcd_thermal_zero_momentum_gluon_dressing_l_inv (om := 3) (by norm_num) consts.init (m := 1) one_ne_zero 1 (1 / 2) 0) (C72_qcd_thermal_zero_momentum_gluon_dressing_l_inv_vacuum (om := 3) (by norm_num) consts.init (m := 1) one_ne_zero (mq := 1) (mu := 1 / 2) (by norm_num [abs_of_pos]) 0)]; rw [div_one]; exact Complex.ofReal_ne_zero.2 (Cases.qcd_ne' (by norm_num)))
example := C72_qcd_thermal_zero_momentum_gluon_dressing_t_inv_w_field_config (om := (3 : ℝ)) (ho := by norm_num)
    (config := (FieldConfig.new 3 1 [(2, 1), (1, 3)])) (hg := by norm_num [FieldConfig.new])
example := C73_gluon_thermal_zero_momentum_polarization_glue_t (om := 3) (ho := by norm_num) (m := 1) (hm := by norm_num) (beta := 2)
    (hb := by norm_num)
example := C73_gluon_thermal_zero_momentum_polarization_quark_l (om := 3) (ho := by norm_num) (beta := 2) (hb := by norm_num)
example := C72_qcd_thermal_gluon_dressing_t_inv_w_field_config_vacuum (om := (3 : ℝ)) (ho := by norm_num) (mu := 1 / 2)
    (config := (FieldConfig.new 3 1 [(2, 1), (1, 3)])) (hg := by norm_num [FieldConfig.new]) (hmu := by each)
example := C72_qcd_thermal_gluon_dressing_t_inv (om := (3 : ℝ)) (ho := by norm_num) (m := 1) (hm := by norm_num)
example := C72_gluon_thermal_polarization_quark_t (om := (3 : ℝ)) (ho := by norm_num)
example := C72_ym_thermal_zero_matsubara_gluon_dressing_t_inv (k := consts.init) (hr := Cases.reg) (m := 1) (hm := by norm_num)
example := C72_qcd_thermal_zero_momentum_gluon_dressing_t_inv_vacuum (om := (3 : ℝ)) (ho := by norm_num) (m := 1) (hm := by norm_num)
    (mq := 1) (mu := 1 / 2) (hmu := by norm_num [abs_of_pos])
example := C72_ym_thermal_zero_momentum_gluon_dressing_t_inv (om := (3 : ℝ)) (ho := by norm_num) (m := 1) (hm := by norm_num)
example := C72_ym_thermal_zero_matsubara_gluon_propagator_t (k := consts.init) (hr := Cases.reg) (m := 1) (hm := by norm_num) (p := 5)
    (f0 := 0) (hV := (vacuum_ym (by norm_num) (by norm_num)).ne')
example := C72_ym_thermal_gluon_dressing_l_inv (om := (3 : ℝ)) (ho := by norm_num) (m := 1) (hm := by norm_num)
example := C72_qcd_thermal_zero_matsubara_gluon_dressing_l_inv_vacuum (k := consts.init) (hr := Cases.reg) (m := 1) (hm := by norm_num)
    (mq := 1) (mu := 1 / 2) (hmu := by norm_num [abs_of_pos])
example := C72_gluon_thermal_zero_matsubara_polarization_glue_l (k := consts.init) (hr := Cases.reg) (m := 1) (hm := by norm_num)
example := C72_gluon_thermal_zero_matsubara_polarization_quark_l (k := consts.init) (hr := Cases.reg)
example := C72_gluon_thermal_zero_momentum_polarization_glue_l (om := (3 : ℝ)) (ho := by norm_num) (m := 1) (hm := by norm_num)
example := C72_qcd_thermal_zero_momentum_gluon_dressing_l_inv (om := (3 : ℝ)) (ho := by norm_num) (m := 1) (hm := by norm_num)
example := C73_gluon_thermal_zero_momentum_polarization_glue_l (om := 3) (ho := by norm_num) (m := 1) (hm := by norm_num) (beta := 2)
    (hb := by norm_num)
example := C72_qcd_thermal_zero_momentum_gluon_dressing_l_inv_w_field_config_vacuum (om := (3 : ℝ)) (ho := by norm_num) (mu := 1 / 2)
    (config := (FieldConfig.new 3 1 [(2, 1), (1, 3)])) (hg := by norm_num [FieldConfig.new]) (hmu := by each)
example := C72_ym_thermal_gluon_dressing_t_inv (om := (3 : ℝ)) (ho := by norm_num) (m := 1) (hm := by norm_num)
example := C72_gluon_thermal_zero_momentum_polarization_glue_t (om := (3 : ℝ)) (ho := by norm_num) (m := 1) (hm := by norm_num)
example := C72_qcd_thermal_zero_matsubara_gluon_propagator_t_w_field_config (k := consts.init) (hr := Cases.reg) (p := 5) (mu := 1 / 2)
    (f0 := 0) (config := (FieldConfig.new 3 1 [(2, 1), (1, 3)])) (hg := by norm_num [FieldConfig.new])
    (hV := by rw [tendsto_nhds_unique (C72_qcd_thermal_zero_matsubara_gluon_dressing_t_inv_w_field_config consts.init Cases.reg 5 (1 / 2) 0 (FieldConfig.new 3 1 [(2, 1), (1, 3)]) (by norm_num [FieldConfig.new])) (C72_qcd_thermal_zero_matsubara_gluon_dressing_t_inv_w_field_config_vacuum consts.init Cases.reg 5 (1 / 2) 0 (FieldConfig.new 3 1 [(2, 1), (1, 3)]) (by norm_num [FieldConfig.new]) (by each))]; exact Cases.qcd_ne (by norm_num [FieldConfig.new]))

/-! ### LowTemperaturePositive -/

example := C117_ym_gluon (om := 3) (m := 1) (f0 := -0.876) (ho := by norm_num) (hm := by norm_num) (hf := by norm_num)
example := C117_ym_zero_momentum (om := 3) (m := 1) (f0 := -0.876) (g0 := 0) (ho := by norm_num) (hm := by norm_num) (hf := by norm_num)
    (hg := by norm_num)
example := C117_qcd_zero_matsubara (k := consts.init) (hreg := Cases.reg) (p := 5) (hp := by norm_num) (f0 := -0.876) (m := 1)
    (rho := 1) (mu := 1 / 2) (nc := 3) (hm := by norm_num) (hr := by norm_num) (qs := [(2, 1), (1, 3)]) (hq := by each) (hmu := by each)
    (hN := by norm_num) (hf := by norm_num)
example := C117_qcd_zero_momentum (om := 3) (ho := by norm_num) (f0 := -0.876) (m := 1) (rho := 1) (mu := 1 / 2) (nc := 3)
    (hm := by norm_num) (hr := by norm_num) (qs := [(2, 1), (1, 3)]) (hq := by each) (hmu := by each) (hN := by norm_num)
    (hf := by norm_num)
example := C117_ym_ghost (om := 3) (m := 1) (g0 := 0) (ho := by norm_num) (hm := by norm_num) (hg := by norm_num)
example := C117_ym_zero_matsubara (k := consts.init) (hr := Cases.reg) (p := 5) (m := 1) (f0 := -0.876) (hp := by norm_num)
    (hm := by norm_num) (hf := by norm_num)

/-! ### MassDerivative -/

example := C39_d_i_m_m_t_i (om := 3 + Complex.I / 2) (p := 5) (m2 := 2) (M := 1) (beta := 2) (hr := by norm_num) (hb := by norm_num)
    (hM := by norm_num) (hp := by norm_num) (hi := by norm_num [abs_of_pos]) (hi2 := by norm_num [abs_of_pos])
example := C39_d_i_m_m_i (om := 3 + Complex.I / 2) (p := 5) (m2 := 2) (M := 1) (beta := 2) (hr := by norm_num) (hb := by norm_num)
    (hM := by norm_num) (hp := by norm_num) (hi := by norm_num [abs_of_pos]) (hi2 := by norm_num [abs_of_pos])

/-! ### MassDerivativeSpecial -/

example := C39_zero_momentum_d_i_m_m_l_i (om := 3 + Complex.I / 2) (m2 := 2) (M := 1) (beta := 2) (hr := by norm_num)
    (hb := by norm_num) (hM := by norm_num) (hi := by norm_num [abs_of_pos]) (hi2 := by norm_num [abs_of_pos])
example := C39_d_i_m_0_t_i (om := 3) (p := 5) (M := 1) (beta := 2) (hr := by norm_num) (hb := by norm_num) (hM := by norm_num)
    (hp := by norm_num)
example := C39_zero_momentum_d_i_m_m_i (om := 3 + Complex.I / 2) (m2 := 2) (M := 1) (beta := 2) (hr := by norm_num) (hb := by norm_num)
    (hM := by norm_num) (hi := by norm_num [abs_of_pos]) (hi2 := by norm_num [abs_of_pos])
example := C39_d_i_m_m_t_i_same_mass (om := 3 + Complex.I / 2) (p := 5) (M := 1) (beta := 2) (hr := by norm_num) (hb := by norm_num)
    (hM := by norm_num) (hp := by norm_num) (hi := by norm_num [abs_of_pos])
example := C39_d_i_m_m_i_same_mass (om := 3 + Complex.I / 2) (p := 5) (M := 1) (beta := 2) (hr := by norm_num) (hb := by norm_num)
    (hM := by norm_num) (hp := by norm_num) (hi := by norm_num [abs_of_pos])
example := C39_d_i_m_m_l_i_same_mass (om := 3 + Complex.I / 2) (p := 5) (M := 1) (beta := 2) (hr := by norm_num) (hb := by norm_num)
    (hM := by norm_num) (hp := by norm_num) (hi := by norm_num [abs_of_pos])
example := C39_zero_momentum_d_i_m_m_t_i (om := 3 + Complex.I / 2) (m2 := 2) (M := 1) (beta := 2) (hr := by norm_num)
    (hb := by norm_num) (hM := by norm_num) (hi := by norm_num [abs_of_pos]) (hi2 := by norm_num [abs_of_pos])
example := C39_d_i_m_0_i (om := 3) (p := 5) (M := 1) (beta := 2) (hr := by norm_num) (hb := by norm_num) (hM := by norm_num)
    (hp := by norm_num)
example := C39_tadpoles (M := 1) (beta := 2) (hb := by norm_num) (hM := by norm_num)
example := C39_second_derivatives (q := 1) (M := 1) (beta := 2) (hb := by norm_num) (hM := by norm_num)
example := C39_d_i_m_0_l_i (om := 3) (p := 5) (M := 1) (beta := 2) (hr := by norm_num) (hb := by norm_num) (hM := by norm_num)
    (hp := by norm_num)

/-! ### MassDerivativeTotal -/

example := C39_d_i_m_m_t_i_same_mass_total (om := 3 + Complex.I / 2) (p := 5) (M := 1) (beta := 2) (hr := by norm_num)
    (hb := by norm_num) (hM := by norm_num) (hp := by norm_num) (hi := by norm_num [abs_of_pos])
example := C39_d_i_m_m_i_same_mass_total (om := 3 + Complex.I / 2) (p := 5) (M := 1) (beta := 2) (hr := by norm_num) (hb := by norm_num)
    (hM := by norm_num) (hp := by norm_num) (hi := by norm_num [abs_of_pos])
example := C39_d_i_m_m_l_i_same_mass_total (om := 3 + Complex.I / 2) (p := 5) (M := 1) (beta := 2) (hr := by norm_num)
    (hb := by norm_num) (hM := by norm_num) (hp := by norm_num) (hi := by norm_num [abs_of_pos])

/-! ### MassIntegral -/

example := C82_d_i_m_0_i (T1 := ℝ) (om := 3) (p := 5) (M := 1) (beta := 2) (ho := by norm_num) (hp := by norm_num) (hM := by norm_num)
    (hb := by norm_num)
example := C82_d_j_m_l_i (T := ℝ) (M := 1) (beta := 2) (hM := by norm_num) (hb := by norm_num)
example := C82_d_i_m_0_t_i (T1 := ℝ) (om := 3) (p := 5) (M := 1) (beta := 2) (ho := by norm_num) (hp := by norm_num) (hM := by norm_num)
    (hb := by norm_num)
example := C82_d_j_m_i (T := ℝ) (M := 1) (beta := 2) (hM := by norm_num) (hb := by norm_num)
example := C82_d_i_m_m_t_i_same_mass (T1 := ℝ) (om := 3) (p := 5) (M := 1) (beta := 2) (ho := by norm_num) (hp := by norm_num)
    (hM := by norm_num) (hb := by norm_num)
example := C82_d_i_m_m_l_i_same_mass (T1 := ℝ) (om := 3) (p := 5) (M := 1) (beta := 2) (ho := by norm_num) (hp := by norm_num)
    (hM := by norm_num) (hb := by norm_num)
example := C82_d_i_m_0_l_i (T1 := ℝ) (om := 3) (p := 5) (M := 1) (beta := 2) (ho := by norm_num) (hp := by norm_num) (hM := by norm_num)
    (hb := by norm_num)
example := C82_d_j_m_t_i (T := ℝ) (M := 1) (beta := 2) (hM := by norm_num) (hb := by norm_num)
example := C82_d2_j_m_l_i (T := ℝ) (M := 1) (beta := 2) (hM := by norm_num) (hb := by norm_num)
example := C82_d2_j_m_t_i (T := ℝ) (M := 1) (beta := 2) (hM := by norm_num) (hb := by norm_num)

/-! ### MassIntegralZero -/

example := C90_d_i_m_m_i_same_mass (T1 := ℝ) (om := 3) (M := 1) (beta := 2) (ho := by norm_num) (hM := by norm_num) (hb := by norm_num)
example := C90_d_i_m_m_t_i_same_mass (T1 := ℝ) (om := 3) (M := 1) (beta := 2) (ho := by norm_num) (hM := by norm_num) (hb := by norm_num)
example := C90_d_i_m_m_l_i_same_mass (T1 := ℝ) (om := 3) (M := 1) (beta := 2) (ho := by norm_num) (hM := by norm_num) (hb := by norm_num)
example := C90_d_i_m_0_t_i (T1 := ℝ) (om := 3) (M := 1) (beta := 2) (ho := by norm_num) (hM := by norm_num) (hb := by norm_num)
example := C90_d_i_m_0_l_i (T1 := ℝ) (om := 3) (M := 1) (beta := 2) (ho := by norm_num) (hM := by norm_num) (hb := by norm_num)

/-! ### Matsubara -/

example := C81_zero_momentum_i_0_0_l_i (T1 := ℝ) (om := 2 * Real.pi * ((1 : ℤ) : ℝ) / 2) (beta := 2) (l := 1) (ho := by norm_num)
    (hl := by norm_num) (hb := by norm_num)
example := C81_i_m_m_t_i_same_mass (T := ℝ) (T1 := ℝ) (om := 2 * Real.pi * ((1 : ℤ) : ℝ) / 2) (p := 5) (m := 1) (beta := 2) (l := 1)
    (ho := by norm_num) (hl := by norm_num) (hb := by norm_num) (hp := by norm_num)
example := C81_zero_momentum_i_m_m_l_i (T1 := ℝ) (T2 := ℝ) (T3 := ℝ) (om := 2 * Real.pi * ((1 : ℤ) : ℝ) / 2) (m1 := 1) (m2 := 2)
    (beta := 2) (l := 1) (ho := by norm_num) (hl := by norm_num) (hb := by norm_num)
example := C81_zero_momentum_i_0_0_t_i (T1 := ℝ) (om := 2 * Real.pi * ((1 : ℤ) : ℝ) / 2) (beta := 2) (l := 1) (ho := by norm_num)
    (hl := by norm_num) (hb := by norm_num)
example := C81_zero_momentum_i_0_0_i (T1 := ℝ) (om := 2 * Real.pi * ((1 : ℤ) : ℝ) / 2) (beta := 2) (l := 1) (ho := by norm_num)
    (hl := by norm_num) (hb := by norm_num)
example := C81_polarization_l (om := 2 * Real.pi * ((1 : ℤ) : ℝ) / 2) (p := 5) (M := 1) (beta := 2) (l := 1) (ho := by norm_num)
    (hl := by norm_num) (hb := by norm_num) (hM := by norm_num)
example := C81_i_m_m_l_i (T := ℝ) (T1 := ℝ) (T3 := ℝ) (om := 2 * Real.pi * ((1 : ℤ) : ℝ) / 2) (p := 5) (m1 := 1) (m2 := 2) (beta := 2)
    (l := 1) (ho := by norm_num) (hl := by norm_num) (hb := by norm_num) (hp := by norm_num)
example := C81_i_m_0_l_i (T := ℝ) (T1 := ℝ) (T2 := ℝ) (om := 2 * Real.pi * ((1 : ℤ) : ℝ) / 2) (p := 5) (m := 1) (beta := 2) (l := 1)
    (ho := by norm_num) (hl := by norm_num) (hb := by norm_num) (hp := by norm_num)
example := C81_i_m_0_i (T := ℝ) (T1 := ℝ) (T2 := ℝ) (om := 2 * Real.pi * ((1 : ℤ) : ℝ) / 2) (p := 5) (m := 1) (beta := 2) (l := 1)
    (ho := by norm_num) (hl := by norm_num) (hb := by norm_num) (hp := by norm_num)
example := C81_tadpoles (T := ℝ) (m := 1) (beta := 2) (hb := by norm_num)
example := C81_zero_momentum_i_m_m_t_i_same_mass (T1 := ℝ) (T2 := ℝ) (om := 2 * Real.pi * ((1 : ℤ) : ℝ) / 2) (m := 1) (beta := 2)
    (l := 1) (ho := by norm_num) (hl := by norm_num) (hb := by norm_num)
example := C81_zero_momentum_i_m_m_i (T1 := ℝ) (T2 := ℝ) (T3 := ℝ) (om := 2 * Real.pi * ((1 : ℤ) : ℝ) / 2) (m1 := 1) (m2 := 2)
    (beta := 2) (l := 1) (ho := by norm_num) (hl := by norm_num) (hb := by norm_num)
example := C81_i_m_m_l_i_same_mass (T := ℝ) (T1 := ℝ) (T2 := ℝ) (om := 2 * Real.pi * ((1 : ℤ) : ℝ) / 2) (p := 5) (m := 1) (beta := 2)
    (l := 1) (ho := by norm_num) (hl := by norm_num) (hb := by norm_num) (hp := by norm_num)
example := C81_i_0_0_t_i (T1 := ℝ) (om := 2 * Real.pi * ((1 : ℤ) : ℝ) / 2) (p := 5) (beta := 2) (l := 1) (ho := by norm_num)
    (hl := by norm_num) (hb := by norm_num) (hp := by norm_num)
example := C81_zero_momentum_i_m_m_t_i (T1 := ℝ) (T2 := ℝ) (T3 := ℝ) (om := 2 * Real.pi * ((1 : ℤ) : ℝ) / 2) (m1 := 1) (m2 := 2)
    (beta := 2) (l := 1) (ho := by norm_num) (hl := by norm_num) (hb := by norm_num)
example := C81_i_m_m_i_same_mass (T := ℝ) (T1 := ℝ) (T2 := ℝ) (om := 2 * Real.pi * ((1 : ℤ) : ℝ) / 2) (p := 5) (m := 1) (beta := 2)
    (l := 1) (ho := by norm_num) (hl := by norm_num) (hb := by norm_num) (hp := by norm_num)
example := C81_zero_momentum_i_m_m_l_i_same_mass (T1 := ℝ) (T2 := ℝ) (om := 2 * Real.pi * ((1 : ℤ) : ℝ) / 2) (m := 1) (beta := 2)
    (l := 1) (ho := by norm_num) (hl := by norm_num) (hb := by norm_num)
example := C81_zero_momentum_i_m_0_t_i (T1 := ℝ) (T2 := ℝ) (om := 2 * Real.pi * ((1 : ℤ) : ℝ) / 2) (m := 1) (beta := 2) (l := 1)
    (ho := by norm_num) (hl := by norm_num) (hb := by norm_num)
example := C81_i_0_0_l_i (T1 := ℝ) (T2 := ℝ) (om := 2 * Real.pi * ((1 : ℤ) : ℝ) / 2) (p := 5) (beta := 2) (l := 1) (ho := by norm_num)
    (hl := by norm_num) (hb := by norm_num) (hp := by norm_num)
example := C81_zero_momentum_i_m_0_i (T1 := ℝ) (T2 := ℝ) (om := 2 * Real.pi * ((1 : ℤ) : ℝ) / 2) (m := 1) (beta := 2) (l := 1)
    (ho := by norm_num) (hl := by norm_num) (hb := by norm_num)
example := C81_i_m_0_t_i (T := ℝ) (T1 := ℝ) (om := 2 * Real.pi * ((1 : ℤ) : ℝ) / 2) (p := 5) (m := 1) (beta := 2) (l := 1)
    (ho := by norm_num) (hl := by norm_num) (hb := by norm_num) (hp := by norm_num)
example := C81_zero_momentum_i_m_m_i_same_mass (T1 := ℝ) (T2 := ℝ) (om := 2 * Real.pi * ((1 : ℤ) : ℝ) / 2) (m := 1) (beta := 2) (l := 1)
    (ho := by norm_num) (hl := by norm_num) (hb := by norm_num)
example := C81_i_m_m_t_i (T := ℝ) (T1 := ℝ) (T3 := ℝ) (om := 2 * Real.pi * ((1 : ℤ) : ℝ) / 2) (p := 5) (m1 := 1) (m2 := 2) (beta := 2)
    (l := 1) (ho := by norm_num) (hl := by norm_num) (hb := by norm_num) (hp := by norm_num)
example := C81_zero_momentum_i_m_0_l_i (T1 := ℝ) (T2 := ℝ) (om := 2 * Real.pi * ((1 : ℤ) : ℝ) / 2) (m := 1) (beta := 2) (l := 1)
    (ho := by norm_num) (hl := by norm_num) (hb := by norm_num)
example := C81_polarization_t (om := 2 * Real.pi * ((1 : ℤ) : ℝ) / 2) (p := 5) (M := 1) (beta := 2) (l := 1) (ho := by norm_num)
    (hl := by norm_num) (hb := by norm_num) (hM := by norm_num)
example := C81_i_0_0_i (T1 := ℝ) (om := 2 * Real.pi * ((1 : ℤ) : ℝ) / 2) (p := 5) (beta := 2) (l := 1) (ho := by norm_num)
    (hl := by norm_num) (hb := by norm_num) (hp := by norm_num)

/-! ### Numerics -/

example := C105_integrals_derivative_l (T1 := ℝ) (T2 := ℝ) (T3 := ℝ) (eps := 1) (om := (3 : ℝ)) (p := 5) (hp := by norm_num)
    (ho := by norm_num)
example := C105_integrals_derivative (T1 := ℝ) (T2 := ℝ) (T3 := ℝ) (p := 5) (hp := by norm_num)
example := C105_tadpoles (T := ℝ) (q := 1) (m := (1 : ℝ)) (he := (energy_pos (by norm_num)).ne')

/-! ### NumericsExpansion -/

example := C105_expansions (q := 1) (hq := by norm_num) (om := 3) (en := 1) (delta := 1)
    (hr := fun h => by have := congrArg Complex.im h; norm_num at this)

/-! ### NumericsParts -/

example := C105_ghost (T := ℝ) (q := 1) (hq := by norm_num)
example := C105_zero_frequency (q := 1) (p := 5) (m1 := 1) (m2 := 2) (hq := by norm_num)
    (h := ⟨by norm_num, by norm_num, by norm_num, by norm_num, by norm_num⟩)
example := C105_glue_zero_momentum (T := ℝ) (q := 1) (hq := by norm_num)

/-! ### NumericsVacuum -/

example := C105_vacuum_real (s := 3) (hs := by norm_num)

/-! ### Overall -/

example := tc.C77_grid (vmin := 0) (vmax := 1) (dv := 1) (hdv := by norm_num) (hv := by norm_num)

/-! ### Parallel -/

example := C121_wrong_colors (m := 1) (mu := 2) (h := by norm_num [abs_of_pos])

/-! ### QcdDiagrams -/

example := C88_zero_temp_config (g := dirac) (hg := dirac_clifford) (k := consts.init) (hnc := by norm_num [consts.init]) (m := 1)
    (hm := by norm_num) (qs := [(2, 1), (1, 3)]) (hq := by each)
example := C88_thermal_config (g := dirac) (hg := dirac_clifford) (k := consts.init) (hnc := by norm_num [consts.init]) (m := 1)
    (hm := by norm_num) (qs := [(2, 1), (1, 3)]) (hq := by each)
example := C88_thermal (g := dirac) (hg := dirac_clifford) (hist := []) (hnc := by show (3 : ℕ) ≠ 0; norm_num) (m := 1) (mq := 1)
    (hm := by norm_num) (hq := by norm_num)
example := C88_vacuum_config (g := dirac) (hg := dirac_clifford) (nc := 3) (hnc := by norm_num) (m := 1) (hm := by norm_num)
    (qs := [(2, 1), (1, 3)]) (hq := by each)
example := C88_zero_temp (g := dirac) (hg := dirac_clifford) (hist := []) (hnc := by show (3 : ℕ) ≠ 0; norm_num) (m := 1) (mq := 1)
    (hm := by norm_num) (hq := by norm_num)
example := C88_vacuum (g := dirac) (hg := dirac_clifford) (h := []) (hnc := by show (3 : ℕ) ≠ 0; norm_num) (m := 1) (mq := 1)
    (hm := by norm_num) (hq := by norm_num)

/-! ### QcdVacuum -/

example := C32_stale_wrong (s := 3) (hs := by norm_num)
example := C30_globals_matter (s := 3) (mq := 1) (hs := by norm_num) (hmq := by norm_num)
example := C27_config (T := ℝ) (qs := [(0, 1)]) (h := by each)
example := C27_global (T := ℝ) (h := [.number_of_fermions 0]) (hnf := rfl)

/-! ### QuarkDensity -/

example := C101_massless (T := 1) (hT := by norm_num)
example := C101_units (s := 3) (hs := by norm_num)
example := C101_high_temperature (mu := (fun T => T / 2)) (v := 1 / 2) (hmu := Cases.ratio)

/-! ### QuarkLoop -/

example := C23_complex (s := 3) (hs := by norm_num)
example := C23_real (s := 3) (hs := by norm_num)
example := C61_sign (s := 3) (hs := by norm_num)
example := C61_feynman_crossed (s := 3) (hs := by norm_num)
example := C61_feynman (s := 3) (hs := by norm_num)

/-! ### QuarkMatsubara -/

example := C84_zero_momentum_quark_t (g := dirac) (T := ℝ) (hg := dirac_clifford) (om := 2 * Real.pi * ((1 : ℤ) : ℝ) / 2) (beta := 2)
    (l := 1) (hom := by norm_num) (hl := by norm_num) (hb := by norm_num)
example := C84_zero_momentum_quark_t_zero_temp (g := dirac) (T := ℝ) (hg := dirac_clifford) (om := 3) (ho := by norm_num)
example := C84_quark_l_zero_temp (g := dirac) (T1 := ℝ) (T2 := ℝ) (hg := dirac_clifford) (om := 3) (p := 5) (ho := by norm_num)
    (hp := by norm_num)
example := C84_zero_momentum_quark_l_zero_temp (g := dirac) (T := ℝ) (hg := dirac_clifford) (om := 3) (ho := by norm_num)
example := C84_quark_t (g := dirac) (T := ℝ) (hg := dirac_clifford) (om := 2 * Real.pi * ((1 : ℤ) : ℝ) / 2) (p := 5) (beta := 2)
    (l := 1) (hom := by norm_num) (hl := by norm_num) (hp := by norm_num) (hb := by norm_num)
example := C84_zero_momentum_quark_l (g := dirac) (T := ℝ) (hg := dirac_clifford) (om := 2 * Real.pi * ((1 : ℤ) : ℝ) / 2) (beta := 2)
    (l := 1) (hom := by norm_num) (hl := by norm_num) (hb := by norm_num)

/-! ### Residues -/

example := C113_points (z := 1) (hz := by simpa using Cases.integer 1 (by norm_num))

/-! ### Scripts -/

example := C106_wrappers_real (s := 3) (hs := by norm_num)

/-! ### StaticQuark -/

example := C91_static_quark_l_zero_temp (g := dirac) (hg := dirac_clifford) (p := 5) (mq := 1) (hp := by norm_num) (hm := by norm_num)
example := C91_static_quark_t (g := dirac) (hg := dirac_clifford) (p := 5) (mq := 1) (beta := 2) (hp := by norm_num) (hm := by norm_num)
    (hb := by norm_num)

/-! ### TcLongProp -/

example := tc.C58_grid (vmin := 0) (vmax := 1) (dv := 1) (hdv := by norm_num) (hv := by norm_num)
example := tc.C58_degenerate (vmin := 1) (vmax := 0) (dv := 1) (hdv := by norm_num) (hv := by norm_num)

/-! ### ThermalComplex -/

example := C93_dressing_inv_ym_analytic (m := 1) (beta := 2) (hm := by norm_num) (hb := by norm_num)
example := C93_propagators_qcd_zero_temp_symmetric (ig := .exact) (hi := exact_interior) (hc := exact_conj) (m := 1) (mq := 1)
    (hm := by norm_num) (hq := by norm_num)
example := C93_propagators_field_config_zero_temp_analytic (m := 1) (qs := [(2, 1), (1, 3)]) (hm := by norm_num) (hq := by each)
    (om := 3 + Complex.I / 2) (ho := by norm_num)
example := C93_dressing_inv_qcd_zero_temp_symmetric (ig := .exact) (hi := exact_interior) (hc := exact_conj) (m := 1) (mq := 1)
    (hm := by norm_num) (hq := by norm_num)
example := C93_self_energies_symmetric (ig := .exact) (hi := exact_interior) (hc := exact_conj) (m := 1) (beta := 2) (hm := by norm_num)
    (hb := by norm_num)
example := C93_dressing_inv_qcd_zero_temp_analytic (m := 1) (mq := 1) (hm := by norm_num) (hq := by norm_num)
example := C93_propagators_qcd_analytic (m := 1) (mq := 1) (beta := 2) (hm := by norm_num) (hq := by norm_num) (hb := by norm_num)
    (om := 3 + Complex.I / 2) (ho := by norm_num)
example := C93_dressing_inv_qcd_symmetric (ig := .exact) (hi := exact_interior) (hc := exact_conj) (m := 1) (mq := 1) (beta := 2)
    (hm := by norm_num) (hq := by norm_num) (hb := by norm_num)
example := C93_dressing_inv_qcd_analytic (m := 1) (mq := 1) (beta := 2) (hm := by norm_num) (hq := by norm_num) (hb := by norm_num)
example := C93_dressing_inv_field_config_analytic (beta := 2) (m := 1) (qs := [(2, 1), (1, 3)]) (hm := by norm_num) (hq := by each)
    (hb := by norm_num)
example := C93_dressing_inv_field_config_zero_temp_analytic (m := 1) (qs := [(2, 1), (1, 3)]) (hm := by norm_num) (hq := by each)
example := C93_propagators_ym_symmetric (ig := .exact) (hi := exact_interior) (hc := exact_conj) (m := 1) (beta := 2)
    (hm := by norm_num) (hb := by norm_num)
example := C93_dressing_inv_ym_symmetric (ig := .exact) (hi := exact_interior) (hc := exact_conj) (m := 1) (beta := 2)
    (hm := by norm_num) (hb := by norm_num)
example := C93_propagators_qcd_zero_temp_analytic (m := 1) (mq := 1) (hm := by norm_num) (hq := by norm_num) (om := 3 + Complex.I / 2)
    (ho := by norm_num)
example := C93_propagators_ym_analytic (m := 1) (beta := 2) (hm := by norm_num) (hb := by norm_num) (om := 3 + Complex.I / 2)
    (ho := by norm_num)
example := C93_propagators_qcd_symmetric (ig := .exact) (hi := exact_interior) (hc := exact_conj) (m := 1) (mq := 1) (beta := 2)
    (hm := by norm_num) (hq := by norm_num) (hb := by norm_num)
example := C93_propagators_field_config_zero_temp_symmetric (ig := .exact) (hi := exact_interior) (hc := exact_conj) (m := 1)
    (qs := [(2, 1), (1, 3)]) (hm := by norm_num) (hq := by each)
example := C93_self_energies_zero_momentum_symmetric (ig := .exact) (hi := exact_interior) (hc := exact_conj) (m := 1) (beta := 2)
    (hm := by norm_num) (hb := by norm_num)
example := C93_self_energies_analytic (m := 1) (beta := 2) (hm := by norm_num) (hb := by norm_num)
example := C93_propagators_field_config_analytic (beta := 2) (m := 1) (qs := [(2, 1), (1, 3)]) (hm := by norm_num) (hq := by each)
    (hb := by norm_num) (om := 3 + Complex.I / 2) (ho := by norm_num)
example := C93_self_energies_zero_momentum_analytic (m := 1) (beta := 2) (hm := by norm_num) (hb := by norm_num)
example := C93_propagators_field_config_symmetric (ig := .exact) (hi := exact_interior) (hc := exact_conj) (beta := 2) (m := 1)
    (qs := [(2, 1), (1, 3)]) (hm := by norm_num) (hq := by each) (hb := by norm_num)
example := C93_dressing_inv_field_config_zero_temp_symmetric (ig := .exact) (hi := exact_interior) (hc := exact_conj) (m := 1)
    (qs := [(2, 1), (1, 3)]) (hm := by norm_num) (hq := by each)

/-! ### ThermalGlobals -/

example := C31_reads_only_general (T := ℝ) (k := consts.init) (k' := consts.init) (h1 := by norm_num) (h2 := by norm_num)
    (h3 := by norm_num) (h4 := by norm_num)
example := C31_violation (n := 2) (n' := 3) (hn := by norm_num) (hn' := by norm_num) (hne := by norm_num) (om := 3) (mu := 2) (mq := 1)
    (nf := 2) (hom := by norm_num) (hnf := by norm_num) (hmq := by norm_num) (hmu := by norm_num [abs_of_pos])
example := C31_scaling_general (T := ℝ) (ig := .exact) (hg := Integrator.exact_homogeneous)
example := C31_reads_only_zero_momentum (T := ℝ) (k := consts.init) (k' := consts.init) (h1 := by norm_num) (h2 := by norm_num)
    (h3 := by norm_num) (h4 := by norm_num)
example := C31_reads_only_zero_matsubara (k := consts.init) (k' := consts.init) (h1 := by norm_num) (h2 := by norm_num)
    (h3 := by norm_num) (h4 := by norm_num)
example := C31_scaling_zero_momentum (T := ℝ) (ig := .exact) (hg := Integrator.exact_homogeneous)
example := C31_scaling_zero_matsubara (ig := .exact) (hg := Integrator.exact_homogeneous)

/-! ### ThermalIntegrals -/

example := C47_below_threshold (T := ℝ) (T1 := ℝ) (T2 := ℝ) (mq := 1) (mu := 1 / 2) (h := by norm_num [abs_of_pos])

/-! ### ThermalLoop -/

example := C62_i_m_m_t_i_same_mass (T1 := ℝ) (T3 := ℝ) (q := 1) (om := (3 : ℝ)) (p := 5) (m := (1 : ℝ)) (hq := by norm_num)
    (hp := by norm_num) (h := by regular)
example := C62_i_m_0_l_i (T1 := ℝ) (T2 := ℝ) (T3 := ℝ) (q := 1) (om := (3 : ℝ)) (p := (5 : ℝ)) (m := (1 : ℝ)) (hq := by norm_num)
    (hp := by norm_num) (ho := by norm_num) (h := by regular)
example := C62_i_m_0_t_i (T1 := ℝ) (T3 := ℝ) (q := 1) (om := (3 : ℝ)) (p := 5) (m := (1 : ℝ)) (hq := by norm_num) (hp := by norm_num)
    (h := by regular)
example := C62_i_m_0_i (T1 := ℝ) (T2 := ℝ) (T3 := ℝ) (q := 1) (om := (3 : ℝ)) (p := (5 : ℝ)) (m := (1 : ℝ)) (hq := by norm_num)
    (hp := by norm_num) (h := by regular)
example := C62_i_m_m_l_i (T1 := ℝ) (T2 := ℝ) (T3 := ℝ) (q := 1) (p := 5) (om := (3 : ℝ)) (m1 := (1 : ℝ)) (m2 := (2 : ℝ))
    (hq := by norm_num) (hp := by norm_num) (ho := by norm_num) (h := by regular)
example := C62_i_0_0_t_i (T1 := ℝ) (q := 1) (om := (3 : ℝ)) (p := 5) (hq := by norm_num) (hp := by norm_num) (h := by regular)
example := C62_i_m_m_i (T1 := ℝ) (T2 := ℝ) (T3 := ℝ) (q := 1) (p := 5) (om := (3 : ℝ)) (m1 := (1 : ℝ)) (m2 := (2 : ℝ))
    (hq := by norm_num) (hp := by norm_num) (h := by regular)
example := C62_i_m_m_t_i (T1 := ℝ) (T2 := ℝ) (T3 := ℝ) (q := 1) (p := 5) (om := (3 : ℝ)) (m1 := (1 : ℝ)) (m2 := (2 : ℝ))
    (hq := by norm_num) (hp := by norm_num) (h := by regular)
example := C62_i_0_0_i (T1 := ℝ) (q := 1) (om := (3 : ℝ)) (p := 5) (hq := by norm_num) (hp := by norm_num) (h := by regular)
example := C62_i_m_m_l_i_same_mass (T1 := ℝ) (T2 := ℝ) (T3 := ℝ) (q := 1) (om := (3 : ℝ)) (p := (5 : ℝ)) (m := (1 : ℝ))
    (hq := by norm_num) (hp := by norm_num) (ho := by norm_num) (h := by regular)
example := C62_i_m_m_i_same_mass (T1 := ℝ) (T2 := ℝ) (T3 := ℝ) (q := 1) (om := (3 : ℝ)) (p := (5 : ℝ)) (m := (1 : ℝ))
    (hq := by norm_num) (hp := by norm_num) (h := by regular)
example := C62_i_0_0_l_i (T1 := ℝ) (T2 := ℝ) (q := 1) (om := (3 : ℝ)) (p := (5 : ℝ)) (hq := by norm_num) (hp := by norm_num)
    (ho := by norm_num) (h := by regular)

/-! ### ThermalLoopMatsubara -/

example := C62_zero_matsubara_i_0_0_l_i (q := 1) (p := 5) (hq := by norm_num) (hp := by norm_num) (h := by regular)
example := C62_zero_matsubara_i_m_m_i_same_mass (q := 1) (p := 5) (hq := by norm_num) (hp := by norm_num) (m := 1) (h := by regular)
example := C62_zero_matsubara_i_m_m_l_i_same_mass (q := 1) (p := 5) (hq := by norm_num) (hp := by norm_num) (m := 1) (h := by regular)
example := C62_zero_matsubara_i_m_m_i (q := 1) (p := 5) (hq := by norm_num) (hp := by norm_num) (m1 := 1) (m2 := 2) (h := by regular)
example := C62_zero_matsubara_i_0_0_t_i (q := 1) (p := 5) (hq := by norm_num) (hp := by norm_num) (h := by regular)
example := C62_zero_matsubara_i_m_0_i (q := 1) (p := 5) (hq := by norm_num) (hp := by norm_num) (m := 1) (h := by regular)
example := C62_zero_matsubara_i_m_m_l_i (q := 1) (p := 5) (hq := by norm_num) (hp := by norm_num) (m1 := 1) (m2 := 2) (h := by regular)
example := C62_zero_matsubara_i_m_m_t_i_same_mass (q := 1) (p := 5) (hq := by norm_num) (hp := by norm_num) (m := 1) (h := by regular)
example := C62_zero_matsubara_i_0_0_i (q := 1) (p := 5) (hq := by norm_num) (hp := by norm_num) (h := by regular)
example := C62_zero_matsubara_i_m_0_l_i (q := 1) (p := 5) (hq := by norm_num) (hp := by norm_num) (m := 1) (h := by regular)
example := C62_zero_matsubara_i_m_0_t_i (q := 1) (p := 5) (hq := by norm_num) (hp := by norm_num) (m := 1) (h := by regular)
example := C62_zero_matsubara_i_m_m_t_i (q := 1) (p := 5) (hq := by norm_num) (hp := by norm_num) (m1 := 1) (m2 := 2) (h := by regular)

/-! ### ThermalLoopQuark -/

example := C63_zero_matsubara_quark_l (q := 1) (p := 5) (mq := 1) (hq := by norm_num) (hp := by norm_num) (h := by regular)
example := C62_tadpoles_massless (q := 1) (hq := by norm_num)
example := C63_zero_matsubara_quark_t_zero_temp (q := 1) (p := 5) (mq := 1) (hq := by norm_num) (hp := by norm_num) (h := by regular)
example := C63_quark_t (T1 := ℝ) (q := 1) (om := (3 : ℝ)) (p := 5) (mq := 1) (hq := by norm_num) (hp := by norm_num) (h := by regular)
example := C63_zero_momentum_quark_l (T := ℝ) (q := 1) (om := (3 : ℝ)) (mq := 1) (ho := by norm_num)
    (hE := (energy_pos (by norm_num)).ne') (h := by regular)
example := C63_quark_t_zero_temp (T1 := ℝ) (q := 1) (om := (3 : ℝ)) (p := 5) (mq := 1) (hq := by norm_num) (hp := by norm_num)
    (h := by regular)
example := C63_zero_matsubara_quark_t (q := 1) (p := 5) (mq := 1) (hq := by norm_num) (hp := by norm_num) (h := by regular)
example := C63_quark_l_zero_temp (T1 := ℝ) (T2 := ℝ) (q := 1) (om := (3 : ℝ)) (p := (5 : ℝ)) (mq := 1) (hq := by norm_num)
    (hp := by norm_num) (ho := by norm_num) (hs := by norm_num) (h := by regular)
example := C63_quark_l (T1 := ℝ) (T2 := ℝ) (q := 1) (om := (3 : ℝ)) (p := (5 : ℝ)) (mq := 1) (hq := by norm_num) (hp := by norm_num)
    (ho := by norm_num) (hs := by norm_num) (h := by regular)
example := C63_zero_momentum_quark_l_zero_temp (T := ℝ) (q := 1) (om := (3 : ℝ)) (mq := 1) (ho := by norm_num)
    (hE := (energy_pos (by norm_num)).ne') (h := by regular)
example := C63_zero_matsubara_quark_l_zero_temp (q := 1) (p := 5) (mq := 1) (hq := by norm_num) (hp := by norm_num) (h := by regular)
example := C63_zero_momentum_quark_t_zero_temp (T := ℝ) (q := 1) (om := (3 : ℝ)) (mq := 1) (ho := by norm_num)
    (hE := (energy_pos (by norm_num)).ne') (h := by regular)
example := C63_zero_momentum_quark_t (T := ℝ) (q := 1) (om := (3 : ℝ)) (mq := 1) (ho := by norm_num)
    (hE := (energy_pos (by norm_num)).ne') (h := by regular)

/-! ### ThermalLoopSpecial -/

example := C62_zero_momentum_i_m_0_i (T1 := ℝ) (T3 := ℝ) (q := 1) (hq := by norm_num)
example := C62_zero_momentum_i_m_m_l_i (T1 := ℝ) (T2 := ℝ) (T3 := ℝ) (q := 1) (om := (3 : ℝ)) (ho := by norm_num)
example := C62_zero_momentum_i_m_0_t_i (T1 := ℝ) (T3 := ℝ) (q := 1) (hq := by norm_num)
example := C62_zero_momentum_i_0_0_i (T1 := ℝ) (q := 1) (hq := by norm_num)
example := C62_zero_momentum_i_m_0_l_i (T1 := ℝ) (T3 := ℝ) (q := 1) (hq := by norm_num) (om := (3 : ℝ)) (ho := by norm_num)
example := C62_zero_momentum_i_0_0_t_i (T1 := ℝ) (q := 1) (hq := by norm_num)
example := C62_zero_momentum_i_m_m_l_i_same_mass (T1 := ℝ) (T3 := ℝ) (q := 1) (om := (3 : ℝ)) (ho := by norm_num)
example := C62_zero_momentum_i_0_0_l_i (T1 := ℝ) (q := 1) (hq := by norm_num) (om := (3 : ℝ)) (ho := by norm_num)
example := C62_regular_strip (q := 1) (p := 5) (m1 := 1) (m2 := 2) (om := 3 + Complex.I / 2) (h1 := Cases.strip _) (h2 := Cases.strip _)

/-! ### ThermalParity -/

example := C38_denominators (q := 1) (om := 3) (hq := by norm_num) (hom := by norm_num)
example := C38_strip (q := 1) (m1 := 1) (om := 3 + Complex.I / 2) (h := Cases.strip _)
example := C36_strip_of_real (om := 3) (q := 1) (hom := by norm_num) (hq := by norm_num)

/-! ### ThermalQuarkLists -/

example := C29_order_zero_matsubara (qs := [(2, 1), (1, 3)]) (qs' := [(2, 1), (1, 3)]) (h := by norm_num)
example := C29_order_zero_momentum (T := ℝ) (qs := [(2, 1), (1, 3)]) (qs' := [(2, 1), (1, 3)]) (h := by norm_num)

/-! ### ThermalReal -/

example := C97_real_qcd_zero_temp (ig := .exact) (hi := exact_interior) (hc := exact_conj) (m := 1) (mq := 1) (hm := by norm_num)
    (hq := by norm_num) (om := 3) (ho := by norm_num)
example := C97_real_field_config (ig := .exact) (hi := exact_interior) (hc := exact_conj) (beta := 2) (m := 1) (qs := [(2, 1), (1, 3)])
    (hm := by norm_num) (hq := by each) (hb := by norm_num) (om := 3) (ho := by norm_num)
example := C97_entry_points_qcd (m := 1) (mq := 1) (hm := by norm_num) (hq := by norm_num) (om := 3) (ho := by norm_num)
example := C97_entry_points_ym (m := 1) (hm := by norm_num) (om := 3) (ho := by norm_num)
example := C97_entry_points_field_config_zero_temp (m := 1) (qs := [(2, 1), (1, 3)]) (hm := by norm_num) (hq := by each) (om := 3)
    (ho := by norm_num)
example := C97_real_ym (ig := .exact) (hi := exact_interior) (hc := exact_conj) (m := 1) (beta := 2) (hm := by norm_num)
    (hb := by norm_num) (om := 3) (ho := by norm_num)
example := C97_entry_points_field_config (m := 1) (qs := [(2, 1), (1, 3)]) (hm := by norm_num) (hq := by each) (om := 3) (ho := by norm_num)
example := C97_real_field_config_zero_temp (ig := .exact) (hi := exact_interior) (hc := exact_conj) (m := 1) (qs := [(2, 1), (1, 3)])
    (hm := by norm_num) (hq := by each) (om := 3) (ho := by norm_num)
example := C97_entry_points_qcd_zero_temp (m := 1) (mq := 1) (hm := by norm_num) (hq := by norm_num) (om := 3) (ho := by norm_num)

/-! ### ThermalReduction -/

example := C44_zero_density_config_general_real (om := 3) (p := 5) (mu := 1 / 2) (m := 1) (qs := [(2, 1), (1, 3)]) (h := by each)
    (hm := by norm_num) (hpos := by norm_num)
example := C44_no_fermions_zero_temp_zero_matsubara (h := [.number_of_fermions 0]) (hnf := rfl)
example := C44_zero_density_zero_matsubara (mq := 1) (mu := 1 / 2) (hmu := by norm_num [abs_of_pos])
example := C44_no_quarks_general_complex (qs := [(0, 1)]) (h := by each)
example := C44_no_fermions_zero_temp_zero_momentum (T := ℝ) (h := [.number_of_fermions 0]) (hnf := rfl)
example := C44_no_fermions_general (T := ℝ) (h := [.number_of_fermions 0]) (hnf := rfl)
example := C44_zero_density_config_zero_momentum (T := ℝ) (mu := 1 / 2) (qs := [(2, 1), (1, 3)]) (h := by each)
example := C44_no_fermions_zero_temp_general (T := ℝ) (h := [.number_of_fermions 0]) (hnf := rfl)
example := C44_zero_density_config_general_complex (mu := 1 / 2) (qs := [(2, 1), (1, 3)]) (h := by each)
example := C44_no_quarks_general_real (om := 3) (p := 5) (m := 1) (qs := [(0, 1)]) (h := by each) (hm := by norm_num) (hpos := by norm_num)
example := C44_no_quarks_zero_momentum (T := ℝ) (qs := [(0, 1)]) (h := by each)
example := C44_zero_density_general (T := ℝ) (mq := 1) (mu := 1 / 2) (hmu := by norm_num [abs_of_pos])
example := C44_no_quarks_zero_matsubara (qs := [(0, 1)]) (h := by each)
example := C44_no_fermions_zero_matsubara (h := [.number_of_fermions 0]) (hnf := rfl)
example := C44_no_fermions_zero_momentum (T := ℝ) (h := [.number_of_fermions 0]) (hnf := rfl)
example := C44_zero_density_zero_momentum (T := ℝ) (mq := 1) (mu := 1 / 2) (hmu := by norm_num [abs_of_pos])
example := C44_zero_density_config_zero_matsubara (mu := 1 / 2) (qs := [(2, 1), (1, 3)]) (h := by each)

/-! ### ThermalUnits -/

example := C49_gluon_thermal_zero_matsubara (L := 1) (hL := by norm_num)
example := C49_thermal (T := ℝ) (T1 := ℝ) (T2 := ℝ) (T3 := ℝ) (L := 1) (hL := by norm_num)
example := C49_thermal_zero_matsubara (T := ℝ) (T1 := ℝ) (T2 := ℝ) (L := 1) (hL := by norm_num)
example := C49_ghost_thermal_zero_matsubara (L := 1) (hL := by norm_num)
example := C49_gluon_thermal (T := ℝ) (T1 := ℝ) (T2 := ℝ) (L := 1) (hL := by norm_num)
example := C49_thermal_zero_momentum (T := ℝ) (T1 := ℝ) (T2 := ℝ) (T3 := ℝ) (L := 1) (hL := by norm_num)
example := C49_ghost_thermal_zero_momentum (T := ℝ) (L := 1) (hL := by norm_num)
example := C49_gluon_thermal_zero_momentum (T := ℝ) (L := 1) (hL := by norm_num)

/-! ### ThermalZeroTemp -/

example := C48_gluon_thermal_zero_matsubara_polarization_quark_l (q := 1) (hq := by norm_num) (mq := 1) (mu := 1 / 2)
    (hF := Cases.energy_ne')
example := C48_gluon_thermal_polarization_quark_t (T := ℝ) (q := 1) (hq := by norm_num) (mq := 1) (mu := 1 / 2) (hF := Cases.energy_ne')
example := C48_gluon_thermal_zero_matsubara_polarization_quark_t_outside (q := 1) (hq := by norm_num) (mq := 1) (mu := 1 / 2)
    (hF := Cases.half_lt')
example := C48_gluon_thermal_zero_momentum_polarization_quark_t_outside (T := ℝ) (q := 1) (hq := by norm_num) (mq := 1) (mu := 1 / 2)
    (hF := Cases.half_lt')
example := C48_gluon_thermal_zero_momentum_polarization_quark_l_outside (T := ℝ) (q := 1) (hq := by norm_num) (mq := 1) (mu := 1 / 2)
    (hF := Cases.half_lt')
example := C48_ghost_thermal_zero_matsubara_self_energy (q := 1) (hq := by norm_num)
example := C48_gluon_thermal_polarization_glue_t (T := ℝ) (q := 1) (hq := by norm_num)
example := C48_gluon_thermal_zero_momentum_polarization_glue_l (T := ℝ) (q := 1) (hq := by norm_num)
example := C48_gluon_thermal_zero_matsubara_polarization_quark_l_outside (q := 1) (hq := by norm_num) (mq := 1) (mu := 1 / 2)
    (hF := Cases.half_lt')
example := C48_gluon_thermal_zero_momentum_polarization_glue_t (T := ℝ) (q := 1) (hq := by norm_num)
example := C48_gluon_thermal_zero_momentum_polarization_quark_t (T := ℝ) (q := 1) (hq := by norm_num) (mq := 1) (mu := 1 / 2)
    (hF := Cases.energy_ne')
example := C48_gluon_thermal_zero_momentum_polarization_quark_l (T := ℝ) (q := 1) (hq := by norm_num) (mq := 1) (mu := 1 / 2)
    (hF := Cases.energy_ne')
example := C48_ghost_thermal_self_energy (T := ℝ) (q := 1) (hq := by norm_num)
example := C48_ghost_thermal_zero_momentum_self_energy (T := ℝ) (q := 1) (hq := by norm_num)
example := C48_gluon_thermal_zero_matsubara_polarization_glue_t (q := 1) (hq := by norm_num)
example := C48_gluon_thermal_polarization_quark_t_outside (T := ℝ) (q := 1) (hq := by norm_num) (mq := 1) (mu := 1 / 2)
    (hF := Cases.half_lt')
example := C48_gluon_thermal_zero_matsubara_polarization_quark_t (q := 1) (hq := by norm_num) (mq := 1) (mu := 1 / 2)
    (hF := Cases.energy_ne')
example := C48_gluon_thermal_polarization_quark_l (T1 := ℝ) (T2 := ℝ) (q := 1) (hq := by norm_num) (mq := 1) (mu := 1 / 2)
    (hF := Cases.energy_ne')
example := C48_gluon_thermal_polarization_glue_l (T1 := ℝ) (T2 := ℝ) (q := 1) (hq := by norm_num)
example := C48_gluon_thermal_zero_matsubara_polarization_glue_l (q := 1) (hq := by norm_num)
example := C48_gluon_thermal_polarization_quark_l_outside (T1 := ℝ) (T2 := ℝ) (q := 1) (hq := by norm_num) (mq := 1) (mu := 1 / 2)
    (hF := Cases.half_lt')

/-! ### Utils -/

example := utils.C12_lorentzian (eps := 1) (he := by norm_num)
example := utils.C11_simple_pole_exact (T := ℝ) (eps := 1) (he := by norm_num)
example := utils.C12_weight (eps := 1) (he := by norm_num)

/-! ### VacuumAccuracy -/

example := C115_functions (x := (.num (1 : ℝ))) (s := 1)
    (h := ⟨rfl, by simpa using Cases.integer 1 (by norm_num), by norm_num, by norm_num⟩)
example := C115_dressing_inv (x := (.num (1 : ℝ))) (s := 1) (c := 1) (xi := 1)
    (h := ⟨rfl, by simpa using Cases.integer 1 (by norm_num), by norm_num, by norm_num⟩)
    (hc := by simpa using Cases.integer 1 (by norm_num)) (hb := by norm_num [abs_of_pos])
    (hxi := by simpa using Cases.integer 1 (by norm_num)) (hx := by norm_num [abs_of_pos])

/-! ### VacuumComplex -/

example := C21_loops (s := 3) (hs := by norm_num)
example := C20_dressing_inv (m := 1) (qs := [(2, 1), (1, 3)]) (hm := by norm_num) (hq := by each)
example := C19_loops (s := 3) (hs := by norm_num)
example := C21_qcd (s := 3) (hs := by norm_num) (m := 1) (qs := [(2, 1), (1, 3)]) (hm := by norm_num) (hq := by each)
example := C19_ym (s := 3) (hs := by norm_num)

/-! ### VacuumDefined -/

example := C26_loops (s := 3) (hs := by norm_num)
example := C26_ym (s := 3) (hs := by norm_num)

/-! ### VacuumGhost -/

example := C85_ghost_thermal (om1 := 2 * Real.pi * ((1 : ℤ) : ℝ) / 2) (p1 := 1) (om2 := 2 * Real.pi * ((2 : ℤ) : ℝ) / 2) (p2 := 2)
    (m := 1) (beta := 2) (l1 := 1) (l2 := 2) (ho1 := by norm_num) (hl1 := by norm_num) (hp1 := by norm_num) (ho2 := by norm_num)
    (hl2 := by norm_num) (hp2 := by norm_num) (hm := by norm_num) (hb := by norm_num)

/-! ### VacuumGluon -/

example := C86_ghost_vacuum (m := 1) (hm := by norm_num)

/-! ### VacuumLimits -/

example := C25_qcd (m := 1) (qs := [(2, 1), (1, 3)]) (hm := by norm_num) (hq := by each)
example := C60_new_mass_independent (m := 1) (qs := [(2, 1), (1, 3)]) (hm := by norm_num) (hq := by each)
example := C24_ghost (g0 := 0) (hg := by norm_num)
example := C24_gluon (xi := 1) (m := 1) (qs := [(2, 1), (1, 3)]) (hm := by norm_num) (hq := by each) (hxi := by norm_num)

/-! ### VacuumQuark -/

example := C87_crossed_quark_loop (g := dirac) (hg := dirac_clifford) (nc := 3) (hnc := by norm_num) (m := 1) (hm := by norm_num)
example := C87_quark_loop (g := dirac) (hg := dirac_clifford) (nc := 3) (hnc := by norm_num) (m := 1) (hm := by norm_num)

/-! ### ZeroMatsubaraLimit -/

example := C41_i_m_m_i (q := 1) (p := 5) (m1 := 1) (m2 := 2) (hq := by norm_num)
    (h := ⟨by norm_num, by norm_num, by norm_num, by norm_num, by norm_num⟩)
example := C41_i_m_m_l_i (q := 1) (p := 5) (m1 := 1) (m2 := 2) (hq := by norm_num)
    (h := ⟨by norm_num, by norm_num, by norm_num, by norm_num, by norm_num⟩)
example := C41_d_i_m_m_i (q := 1) (p := 5) (m1 := 1) (m2 := 2) (hq := by norm_num)
    (h := ⟨by norm_num, by norm_num, by norm_num, by norm_num, by norm_num⟩)
example := C41_i_m_m_t_i (q := 1) (p := 5) (m1 := 1) (m2 := 2) (hq := by norm_num)
    (h := ⟨by norm_num, by norm_num, by norm_num, by norm_num, by norm_num⟩)
example := C41_d_i_m_m_t_i (q := 1) (p := 5) (m1 := 1) (m2 := 2) (hq := by norm_num)
    (h := ⟨by norm_num, by norm_num, by norm_num, by norm_num, by norm_num⟩)

/-! ### ZeroMatsubaraLimitParts -/

example := C41_second_mass_zero (q := 1) (p := 5) (m := 1) (hq := by norm_num)
    (h := ⟨by norm_num, by norm_num, by norm_num, by norm_num, by norm_num⟩)
example := C41_quark_t_zero_temp (q := 1) (p := 5) (hq := by norm_num)
    (h := ⟨by norm_num, by norm_num, by norm_num, by norm_num, by norm_num⟩)
example := C41_quark_l_zero_temp (q := 1) (p := 5) (hq := by norm_num)
    (h := ⟨by norm_num, by norm_num, by norm_num, by norm_num, by norm_num⟩)
example := C41_same_mass (q := 1) (p := 5) (m := 1) (hq := by norm_num)
    (h := ⟨by norm_num, by norm_num, by norm_num, by norm_num, by norm_num⟩)
example := C41_glue_t (q := 1) (p := 5) (m := 1) (hq := by norm_num)
    (h := ⟨by norm_num, by norm_num, by norm_num, by norm_num, by norm_num⟩)
    (h' := ⟨by norm_num, by norm_num, by norm_num, by norm_num, by norm_num⟩)
example := C41_ghost_self_energy (q := 1) (p := 5) (m := 1) (hq := by norm_num)
    (h := ⟨by norm_num, by norm_num, by norm_num, by norm_num, by norm_num⟩)
    (h' := ⟨by norm_num, by norm_num, by norm_num, by norm_num, by norm_num⟩)
example := C41_zero_mass (q := 1) (p := 5) (hq := by norm_num) (h := ⟨by norm_num, by norm_num, by norm_num, by norm_num, by norm_num⟩)
example := C41_quark_t (q := 1) (p := 5) (hq := by norm_num) (h := ⟨by norm_num, by norm_num, by norm_num, by norm_num, by norm_num⟩)
example := C41_quark_l (q := 1) (p := 5) (hq := by norm_num) (h := ⟨by norm_num, by norm_num, by norm_num, by norm_num, by norm_num⟩)

/-! ### ZeroMatsubaraPoles -/

example := C74_not_integrable_compactified (p := 5) (m := 1) (beta := 2) (hp := by norm_num) (hm := by norm_num) (hb := by norm_num)

/-! ### ZeroMomentumDiagrams -/

example := C90_qcd_gluon_config (g := dirac) (hg := dirac_clifford) (k := consts.init) (hnc := by norm_num [consts.init]) (m := 1)
    (hm := by norm_num) (qs := [(2, 1), (1, 3)]) (hq := by each)
example := C90_qcd_gluon (g := dirac) (hg := dirac_clifford) (hist := []) (hnc := by show (3 : ℕ) ≠ 0; norm_num) (m := 1) (mq := 1)
    (hm := by norm_num) (hq := by norm_num)
example := C90_ghost_thermal (om1 := 2 * Real.pi * ((1 : ℤ) : ℝ) / 2) (om2 := 2 * Real.pi * ((2 : ℤ) : ℝ) / 2) (p2 := 2) (m := 1)
    (beta := 2) (l1 := 1) (l2 := 2) (ho1 := by norm_num) (hl1 := by norm_num) (ho2 := by norm_num) (hl2 := by norm_num)
    (hp2 := by norm_num) (hm := by norm_num) (hb := by norm_num)

/-! ### ZeroMomentumLimit -/

example := C40_d_i_m_m_l_i (T1 := ℝ) (T2 := ℝ) (T3 := ℝ) (q := 1) (om := (3 : ℝ)) (m1 := (1 : ℝ)) (m2 := (2 : ℝ)) (hq := by norm_num)
    (h := Cases.rest' 3 3 (by norm_num) (by norm_num) (by norm_num) (energy 1 1) (energy 1 2) (by norm_num) (by norm_num) (energy_pos (by norm_num)) (energy_pos (by norm_num)))
example := C40_i_m_m_l_i (T1 := ℝ) (T2 := ℝ) (T3 := ℝ) (q := 1) (om := (3 : ℝ)) (m1 := (1 : ℝ)) (m2 := (2 : ℝ)) (hq := by norm_num)
    (h := Cases.rest' 3 3 (by norm_num) (by norm_num) (by norm_num) (energy 1 1) (energy 1 2) (by norm_num) (by norm_num) (energy_pos (by norm_num)) (energy_pos (by norm_num)))
example := C40_i_m_m_t_i (T1 := ℝ) (T2 := ℝ) (T3 := ℝ) (q := 1) (om := (3 : ℝ)) (m1 := (1 : ℝ)) (m2 := (2 : ℝ)) (hq := by norm_num)
    (h := Cases.rest' 3 3 (by norm_num) (by norm_num) (by norm_num) (energy 1 1) (energy 1 2) (by norm_num) (by norm_num) (energy_pos (by norm_num)) (energy_pos (by norm_num)))
example := C40_d_i_m_m_t_i (T1 := ℝ) (T2 := ℝ) (T3 := ℝ) (q := 1) (om := (3 : ℝ)) (m1 := (1 : ℝ)) (m2 := (2 : ℝ)) (hq := by norm_num)
    (h := Cases.rest' 3 3 (by norm_num) (by norm_num) (by norm_num) (energy 1 1) (energy 1 2) (by norm_num) (by norm_num) (energy_pos (by norm_num)) (energy_pos (by norm_num)))
example := C40_d_i_m_m_i (T1 := ℝ) (T2 := ℝ) (T3 := ℝ) (q := 1) (om := (3 : ℝ)) (m1 := (1 : ℝ)) (m2 := (2 : ℝ)) (hq := by norm_num)
    (h := Cases.rest' 3 3 (by norm_num) (by norm_num) (by norm_num) (energy 1 1) (energy 1 2) (by norm_num) (by norm_num) (energy_pos (by norm_num)) (energy_pos (by norm_num)))

/-! ### ZeroMomentumLimitParts -/

example := C40_quark_l_zero_temp (T := ℝ) (q := 1) (om := (3 : ℝ)) (hq := by norm_num) (h0 := by norm_num) (h1 := by norm_num [abs_of_pos])
example := C40_quark_t (T := ℝ) (q := 1) (om := (3 : ℝ)) (hq := by norm_num) (h0 := by norm_num) (h1 := by norm_num [abs_of_pos])
example := C40_quark_l (T := ℝ) (q := 1) (om := (3 : ℝ)) (hq := by norm_num) (h0 := by norm_num) (h1 := by norm_num [abs_of_pos])
example := C40_glue_t (T := ℝ) (q := 1) (om := (3 : ℝ)) (hq := by norm_num) (h0 := by norm_num) (h1 := by norm_num [abs_of_pos])
example := C40_ghost_self_energy (T := ℝ) (q := 1) (om := (3 : ℝ)) (hq := by norm_num) (h0 := by norm_num) (h1 := by norm_num [abs_of_pos])
example := C40_quark_t_zero_temp (T := ℝ) (q := 1) (om := (3 : ℝ)) (hq := by norm_num) (h0 := by norm_num) (h1 := by norm_num [abs_of_pos])

/-! ### ZeroMomentumLimitSpecial -/

example := C40_second_mass_zero (T1 := ℝ) (T2 := ℝ) (q := 1) (om := (3 : ℝ)) (m := (1 : ℝ)) (hq := by norm_num)
    (h := Cases.rest' 3 (-1) (by norm_num) (by norm_num) (by norm_num) (energy 1 1) 1 (by norm_num) (by norm_num) (energy_pos (by norm_num)) one_pos)
example := C40_zero_mass (T1 := ℝ) (q := 1) (om := (3 : ℝ)) (hq := by norm_num)
    (h := Cases.rest' 3 0 (by norm_num) (by norm_num) (by norm_num) 1 1 (by norm_num) (by norm_num) one_pos one_pos)
example := C40_same_mass (T1 := ℝ) (T2 := ℝ) (q := 1) (om := (3 : ℝ)) (m := (1 : ℝ)) (hq := by norm_num)
    (h := Cases.rest' 3 0 (by norm_num) (by norm_num) (by norm_num) (energy 1 1) (energy 1 1) (by norm_num) (by norm_num) (energy_pos (by norm_num)) (energy_pos (by norm_num)))

end Qcd
