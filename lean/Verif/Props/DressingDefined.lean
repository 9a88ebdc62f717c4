import Verif.Lemmas.DressingDefined
import Verif.Props.ThermalDefined

/-! # C109: thermal integrals, dressing functions and propagators are defined

"Defined": computed over numbers that may be undefined (`Model/PartialNum.lean`), where a division by zero or a logarithm or square root
outside its domain gives `undef`, the function returns the value of the model over numbers. The integrator is any one that extends a
given integrator and reads the integrand strictly between the end points (`PIntegrator.Extends`). -/

namespace Qcd
open consts (Consts Integral)
open PV Def

/-! The laws of the integrators. -/

theorem choose_val {A : Type} {f : ℝ → PV A} {a b : ℝ} {g : ℝ → A} (hg : ∀ x, min a b < x → x < max a b → f x = .val (g x))
    (h : ∃ g : ℝ → A, ∀ x, min a b < x → x < max a b → f x = .val (g x)) : ∀ x, min a b < x → x < max a b → h.choose x = g x := by
  intro x h0 h1
  have e := (h.choose_spec x h0 h1).symm.trans (hg x h0 h1)
  exact PV.val.inj e

/-- The integrator that reads the integrand everywhere inside extends every integrator that reads it only there. -/
theorem PIntegrator.ofIntegrator_extends {ig : Integrator} (h : ig.Interior) : (PIntegrator.ofIntegrator ig).Extends ig where
  real f g a b m _ hg := by
    have he : ∃ g : ℝ → ℝ, ∀ x, min a b < x → x < max a b → f x = .val (g x) := ⟨g, hg⟩
    simp only [PIntegrator.ofIntegrator]
    rw [dif_pos he, h.real _ g a b m (choose_val hg he)]
  cplx f g a b m _ hg := by
    have he : ∃ g : ℝ → ℂ, ∀ x, min a b < x → x < max a b → f x = .val (g x) := ⟨g, hg⟩
    simp only [PIntegrator.ofIntegrator]
    rw [dif_pos he, h.cplx _ g a b m (choose_val hg he)]

theorem sum_undef {T A : Type} [Num T] (l : List A) (F : A → PV T) {a : A} (ha : a ∈ l) (h : F a = undef) : (l.map F).sum = undef := by
  induction l with
  | nil => cases ha
  | cons b l ih =>
    rw [List.map_cons, List.sum_cons]
    rcases List.mem_cons.1 ha with rfl | ha
    · rw [h, undef_add]
    · rw [ih ha, add_undef]

theorem node_inside {a b t : ℝ} (hab : a ≠ b) (h0 : 0 < t) (h1 : t < 1) : min a b < a + (b - a) * t ∧ a + (b - a) * t < max a b := by
  rcases lt_or_gt_of_ne hab with h | h
  · rw [min_eq_left h.le, max_eq_right h.le]
    constructor <;> nlinarith
  · rw [min_eq_right h.le, max_eq_left h.le]
    constructor <;> nlinarith

/-- Every quadrature rule with abscissae strictly inside the unit interval satisfies the law. -/
theorem PIntegrator.rule_extends {nodes : List (ℝ × ℝ)} (hn : ∀ n ∈ nodes, 0 < n.1 ∧ n.1 < 1) : (PIntegrator.rule nodes).Extends (Integrator.rule nodes) where
  real f g a b m hab h := sum_val_congr _ _ _ fun n hmem => by
    obtain ⟨h0, h1⟩ := node_inside hab (hn n hmem).1 (hn n hmem).2
    simp only [h _ h0 h1, mul_val]
  cplx f g a b m hab h := sum_val_congr _ _ _ fun n hmem => by
    obtain ⟨h0, h1⟩ := node_inside hab (hn n hmem).1 (hn n hmem).2
    simp only [h _ h0 h1, mul_val]

/-- A quadrature rule reads the integrand at the end point of an empty interval. -/
theorem PIntegrator.rule_readsEnd {nodes : List (ℝ × ℝ)} (hn : nodes ≠ []) : (PIntegrator.rule nodes).ReadsEnd where
  real f a m h := by
    obtain ⟨n, hmem⟩ := List.exists_mem_of_ne_nil _ hn
    exact sum_undef _ _ hmem (by simp only [sub_self, zero_mul, add_zero, h, undef_mul])
  cplx f a m h := by
    obtain ⟨n, hmem⟩ := List.exists_mem_of_ne_nil _ hn
    exact sum_undef _ _ hmem (by simp only [sub_self, zero_mul, add_zero, h, undef_mul])

/-- A quadrature rule reads the integrand exactly at its abscissae. -/
theorem PIntegrator.rule_reads (nodes : List (ℝ × ℝ)) :
    (PIntegrator.rule nodes).ReadsOnly (Integrator.rule nodes) {t | ∃ w, (t, w) ∈ nodes} ∧
    (∀ t w, (t, w) ∈ nodes → (PIntegrator.rule nodes).Reads t) := by
  constructor
  · intro f g m h
    refine sum_val_congr _ _ _ fun n hmem => ?_
    have := h n.1 ⟨n.2, hmem⟩
    simp only [sub_zero, one_mul, zero_add, this, mul_val]
  · intro t w hmem f m h
    refine sum_undef _ _ hmem ?_
    simp only [sub_zero, one_mul, zero_add, h, undef_mul]

/-- **C109** The integrated thermal parts at general frequency and momentum. -/
theorem C109_integrals {T : Type} [Num T] [NumDom T] (pg : PIntegrator) (ig : Integrator) (hL : pg.Extends ig) (k : Consts ℝ) (om : T) (p m mq beta mu : ℝ) (integral : Integral ℝ) (ho : (toC om).re ≠ 0) (hp : p ≠ 0) (hm : m ≠ 0) (hb : 0 < beta) (hk : k.nc ≠ 0) (hmu : |mu| ≠ |mq|) :
    P.ghost.thermal.self_energy_thermal_part_landau_w_method pg om p m beta integral = .val (ghost.thermal.self_energy_thermal_part_landau_w_method ig om p m beta integral) ∧
    P.ghost.thermal.self_energy_thermal_part_landau pg k om p m beta = .val (ghost.thermal.self_energy_thermal_part_landau ig k om p m beta) ∧
    P.gluon.thermal.polarization_glue_l_thermal_part_landau_w_method pg om p m beta integral = .val (gluon.thermal.polarization_glue_l_thermal_part_landau_w_method ig om p m beta integral) ∧
    P.gluon.thermal.polarization_glue_t_thermal_part_landau_w_method pg om p m beta integral = .val (gluon.thermal.polarization_glue_t_thermal_part_landau_w_method ig om p m beta integral) ∧
    P.gluon.thermal.polarization_quark_l_thermal_part_landau_w_method pg k om p mq beta mu integral = .val (gluon.thermal.polarization_quark_l_thermal_part_landau_w_method ig k om p mq beta mu integral) ∧
    P.gluon.thermal.polarization_quark_t_thermal_part_landau_w_method pg k om p mq beta mu integral = .val (gluon.thermal.polarization_quark_t_thermal_part_landau_w_method ig k om p mq beta mu integral) ∧
    P.gluon.thermal.polarization_quark_l_thermal_part_zero_temp_landau_w_method pg k om p mq mu integral = .val (gluon.thermal.polarization_quark_l_thermal_part_zero_temp_landau_w_method ig k om p mq mu integral) ∧
    P.gluon.thermal.polarization_quark_t_thermal_part_zero_temp_landau_w_method pg k om p mq mu integral = .val (gluon.thermal.polarization_quark_t_thermal_part_zero_temp_landau_w_method ig k om p mq mu integral) ∧
    P.gluon.thermal.polarization_glue_l_thermal_part_landau pg k om p m beta = .val (gluon.thermal.polarization_glue_l_thermal_part_landau ig k om p m beta) ∧
    P.gluon.thermal.polarization_glue_t_thermal_part_landau pg k om p m beta = .val (gluon.thermal.polarization_glue_t_thermal_part_landau ig k om p m beta) ∧
    P.gluon.thermal.polarization_quark_l_thermal_part_landau pg k om p mq beta mu = .val (gluon.thermal.polarization_quark_l_thermal_part_landau ig k om p mq beta mu) ∧
    P.gluon.thermal.polarization_quark_t_thermal_part_landau pg k om p mq beta mu = .val (gluon.thermal.polarization_quark_t_thermal_part_landau ig k om p mq beta mu) ∧
    P.gluon.thermal.polarization_quark_l_thermal_part_zero_temp_landau pg k om p mq mu = .val (gluon.thermal.polarization_quark_l_thermal_part_zero_temp_landau ig k om p mq mu) ∧
    P.gluon.thermal.polarization_quark_t_thermal_part_zero_temp_landau pg k om p mq mu = .val (gluon.thermal.polarization_quark_t_thermal_part_zero_temp_landau ig k om p mq mu) :=
  ⟨ghost_thermal_self_energy_thermal_part_landau_w_method_val pg ig om p m beta integral hL ho hp hm hb,
    ghost_thermal_self_energy_thermal_part_landau_val pg ig k om p m beta hL ho hp hm hb,
    gluon_thermal_polarization_glue_l_thermal_part_landau_w_method_val pg ig om p m beta integral hL ho hp hm hb,
    gluon_thermal_polarization_glue_t_thermal_part_landau_w_method_val pg ig om p m beta integral hL ho hp hm hb,
    gluon_thermal_polarization_quark_l_thermal_part_landau_w_method_val pg ig k om p mq beta mu integral hL ho hp hb hk,
    gluon_thermal_polarization_quark_t_thermal_part_landau_w_method_val pg ig k om p mq beta mu integral hL ho hp hb hk,
    gluon_thermal_polarization_quark_l_thermal_part_zero_temp_landau_w_method_val pg ig k om p mq mu integral hL ho hp hk hmu,
    gluon_thermal_polarization_quark_t_thermal_part_zero_temp_landau_w_method_val pg ig k om p mq mu integral hL ho hp hk hmu,
    gluon_thermal_polarization_glue_l_thermal_part_landau_val pg ig k om p m beta hL ho hp hm hb,
    gluon_thermal_polarization_glue_t_thermal_part_landau_val pg ig k om p m beta hL ho hp hm hb,
    gluon_thermal_polarization_quark_l_thermal_part_landau_val pg ig k om p mq beta mu hL ho hp hb hk,
    gluon_thermal_polarization_quark_t_thermal_part_landau_val pg ig k om p mq beta mu hL ho hp hb hk,
    gluon_thermal_polarization_quark_l_thermal_part_zero_temp_landau_val pg ig k om p mq mu hL ho hp hk hmu,
    gluon_thermal_polarization_quark_t_thermal_part_zero_temp_landau_val pg ig k om p mq mu hL ho hp hk hmu⟩

/-- **C109** The integrated thermal parts at zero momentum. -/
theorem C109_zero_momentum_integrals {T : Type} [Num T] [NumDom T] (pg : PIntegrator) (ig : Integrator) (hL : pg.Extends ig) (k : Consts ℝ) (om : T) (m mq beta mu : ℝ) (integral : Integral ℝ) (ho : (toC om).re ≠ 0) (hm : m ≠ 0) (hb : 0 < beta) (hk : k.nc ≠ 0) (hmu : |mu| ≠ |mq|) :
    P.ghost.thermal.zero_momentum.self_energy_thermal_part_landau_w_method pg om m beta integral = .val (ghost.thermal.zero_momentum.self_energy_thermal_part_landau_w_method ig om m beta integral) ∧
    P.ghost.thermal.zero_momentum.self_energy_thermal_part_landau pg k om m beta = .val (ghost.thermal.zero_momentum.self_energy_thermal_part_landau ig k om m beta) ∧
    P.gluon.thermal.zero_momentum.polarization_glue_l_thermal_part_landau_w_method pg om m beta integral = .val (gluon.thermal.zero_momentum.polarization_glue_l_thermal_part_landau_w_method ig om m beta integral) ∧
    P.gluon.thermal.zero_momentum.polarization_glue_t_thermal_part_landau_w_method pg om m beta integral = .val (gluon.thermal.zero_momentum.polarization_glue_t_thermal_part_landau_w_method ig om m beta integral) ∧
    P.gluon.thermal.zero_momentum.polarization_quark_l_thermal_part_landau_w_method pg k om mq beta mu integral = .val (gluon.thermal.zero_momentum.polarization_quark_l_thermal_part_landau_w_method ig k om mq beta mu integral) ∧
    P.gluon.thermal.zero_momentum.polarization_quark_t_thermal_part_landau_w_method pg k om mq beta mu integral = .val (gluon.thermal.zero_momentum.polarization_quark_t_thermal_part_landau_w_method ig k om mq beta mu integral) ∧
    P.gluon.thermal.zero_momentum.polarization_quark_l_thermal_part_zero_temp_landau_w_method pg k om mq mu integral = .val (gluon.thermal.zero_momentum.polarization_quark_l_thermal_part_zero_temp_landau_w_method ig k om mq mu integral) ∧
    P.gluon.thermal.zero_momentum.polarization_quark_t_thermal_part_zero_temp_landau_w_method pg k om mq mu integral = .val (gluon.thermal.zero_momentum.polarization_quark_t_thermal_part_zero_temp_landau_w_method ig k om mq mu integral) ∧
    P.gluon.thermal.zero_momentum.polarization_glue_l_thermal_part_landau pg k om m beta = .val (gluon.thermal.zero_momentum.polarization_glue_l_thermal_part_landau ig k om m beta) ∧
    P.gluon.thermal.zero_momentum.polarization_glue_t_thermal_part_landau pg k om m beta = .val (gluon.thermal.zero_momentum.polarization_glue_t_thermal_part_landau ig k om m beta) ∧
    P.gluon.thermal.zero_momentum.polarization_quark_l_thermal_part_landau pg k om mq beta mu = .val (gluon.thermal.zero_momentum.polarization_quark_l_thermal_part_landau ig k om mq beta mu) ∧
    P.gluon.thermal.zero_momentum.polarization_quark_t_thermal_part_landau pg k om mq beta mu = .val (gluon.thermal.zero_momentum.polarization_quark_t_thermal_part_landau ig k om mq beta mu) ∧
    P.gluon.thermal.zero_momentum.polarization_quark_l_thermal_part_zero_temp_landau pg k om mq mu = .val (gluon.thermal.zero_momentum.polarization_quark_l_thermal_part_zero_temp_landau ig k om mq mu) ∧
    P.gluon.thermal.zero_momentum.polarization_quark_t_thermal_part_zero_temp_landau pg k om mq mu = .val (gluon.thermal.zero_momentum.polarization_quark_t_thermal_part_zero_temp_landau ig k om mq mu) :=
  ⟨ghost_thermal_zero_momentum_self_energy_thermal_part_landau_w_method_val pg ig om m beta integral hL ho hm hb,
    ghost_thermal_zero_momentum_self_energy_thermal_part_landau_val pg ig k om m beta hL ho hm hb,
    gluon_thermal_zero_momentum_polarization_glue_l_thermal_part_landau_w_method_val pg ig om m beta integral hL ho hm hb,
    gluon_thermal_zero_momentum_polarization_glue_t_thermal_part_landau_w_method_val pg ig om m beta integral hL ho hm hb,
    gluon_thermal_zero_momentum_polarization_quark_l_thermal_part_landau_w_method_val pg ig k om mq beta mu integral hL ho hb hk,
    gluon_thermal_zero_momentum_polarization_quark_t_thermal_part_landau_w_method_val pg ig k om mq beta mu integral hL ho hb hk,
    gluon_thermal_zero_momentum_polarization_quark_l_thermal_part_zero_temp_landau_w_method_val pg ig k om mq mu integral hL ho hk hmu,
    gluon_thermal_zero_momentum_polarization_quark_t_thermal_part_zero_temp_landau_w_method_val pg ig k om mq mu integral hL ho hk hmu,
    gluon_thermal_zero_momentum_polarization_glue_l_thermal_part_landau_val pg ig k om m beta hL ho hm hb,
    gluon_thermal_zero_momentum_polarization_glue_t_thermal_part_landau_val pg ig k om m beta hL ho hm hb,
    gluon_thermal_zero_momentum_polarization_quark_l_thermal_part_landau_val pg ig k om mq beta mu hL ho hb hk,
    gluon_thermal_zero_momentum_polarization_quark_t_thermal_part_landau_val pg ig k om mq beta mu hL ho hb hk,
    gluon_thermal_zero_momentum_polarization_quark_l_thermal_part_zero_temp_landau_val pg ig k om mq mu hL ho hk hmu,
    gluon_thermal_zero_momentum_polarization_quark_t_thermal_part_zero_temp_landau_val pg ig k om mq mu hL ho hk hmu⟩

/-- **C109** The integrated gluon parts at zero Matsubara frequency: the regulator keeps the integrand away from its poles. -/
theorem C109_zero_matsubara_integrals (pg : PIntegrator) (ig : Integrator) (hL : pg.Extends ig) (k : Consts ℝ) (p m mq beta mu : ℝ) (integral : Integral ℝ) (hp : p ≠ 0) (hm : m ≠ 0) (hb : 0 < beta) (hk : k.nc ≠ 0) (hr : k.matsubara_reg ≠ 0) (hmu : |mu| ≠ |mq|) :
    P.gluon.thermal.zero_matsubara.polarization_glue_l_thermal_part_landau_w_method pg k p m beta integral = .val (gluon.thermal.zero_matsubara.polarization_glue_l_thermal_part_landau_w_method ig k p m beta integral) ∧
    P.gluon.thermal.zero_matsubara.polarization_glue_t_thermal_part_landau_w_method pg k p m beta integral = .val (gluon.thermal.zero_matsubara.polarization_glue_t_thermal_part_landau_w_method ig k p m beta integral) ∧
    P.gluon.thermal.zero_matsubara.polarization_quark_l_thermal_part_landau_w_method pg k p mq beta mu integral = .val (gluon.thermal.zero_matsubara.polarization_quark_l_thermal_part_landau_w_method ig k p mq beta mu integral) ∧
    P.gluon.thermal.zero_matsubara.polarization_quark_t_thermal_part_landau_w_method pg k p mq beta mu integral = .val (gluon.thermal.zero_matsubara.polarization_quark_t_thermal_part_landau_w_method ig k p mq beta mu integral) ∧
    P.gluon.thermal.zero_matsubara.polarization_quark_l_thermal_part_zero_temp_landau_w_method pg k p mq mu integral = .val (gluon.thermal.zero_matsubara.polarization_quark_l_thermal_part_zero_temp_landau_w_method ig k p mq mu integral) ∧
    P.gluon.thermal.zero_matsubara.polarization_quark_t_thermal_part_zero_temp_landau_w_method pg k p mq mu integral = .val (gluon.thermal.zero_matsubara.polarization_quark_t_thermal_part_zero_temp_landau_w_method ig k p mq mu integral) ∧
    P.gluon.thermal.zero_matsubara.polarization_glue_l_thermal_part_landau pg k p m beta = .val (gluon.thermal.zero_matsubara.polarization_glue_l_thermal_part_landau ig k p m beta) ∧
    P.gluon.thermal.zero_matsubara.polarization_glue_t_thermal_part_landau pg k p m beta = .val (gluon.thermal.zero_matsubara.polarization_glue_t_thermal_part_landau ig k p m beta) ∧
    P.gluon.thermal.zero_matsubara.polarization_quark_l_thermal_part_landau pg k p mq beta mu = .val (gluon.thermal.zero_matsubara.polarization_quark_l_thermal_part_landau ig k p mq beta mu) ∧
    P.gluon.thermal.zero_matsubara.polarization_quark_t_thermal_part_landau pg k p mq beta mu = .val (gluon.thermal.zero_matsubara.polarization_quark_t_thermal_part_landau ig k p mq beta mu) ∧
    P.gluon.thermal.zero_matsubara.polarization_quark_l_thermal_part_zero_temp_landau pg k p mq mu = .val (gluon.thermal.zero_matsubara.polarization_quark_l_thermal_part_zero_temp_landau ig k p mq mu) ∧
    P.gluon.thermal.zero_matsubara.polarization_quark_t_thermal_part_zero_temp_landau pg k p mq mu = .val (gluon.thermal.zero_matsubara.polarization_quark_t_thermal_part_zero_temp_landau ig k p mq mu) :=
  ⟨gluon_thermal_zero_matsubara_polarization_glue_l_thermal_part_landau_w_method_val pg ig k p m beta integral hL hp hm hb hr,
    gluon_thermal_zero_matsubara_polarization_glue_t_thermal_part_landau_w_method_val pg ig k p m beta integral hL hp hm hb hr,
    gluon_thermal_zero_matsubara_polarization_quark_l_thermal_part_landau_w_method_val pg ig k p mq beta mu integral hL hp hb hk hr,
    gluon_thermal_zero_matsubara_polarization_quark_t_thermal_part_landau_w_method_val pg ig k p mq beta mu integral hL hp hb hk hr,
    gluon_thermal_zero_matsubara_polarization_quark_l_thermal_part_zero_temp_landau_w_method_val pg ig k p mq mu integral hL hp hk hr hmu,
    gluon_thermal_zero_matsubara_polarization_quark_t_thermal_part_zero_temp_landau_w_method_val pg ig k p mq mu integral hL hp hk hr hmu,
    gluon_thermal_zero_matsubara_polarization_glue_l_thermal_part_landau_val pg ig k p m beta hL hp hm hb hr,
    gluon_thermal_zero_matsubara_polarization_glue_t_thermal_part_landau_val pg ig k p m beta hL hp hm hb hr,
    gluon_thermal_zero_matsubara_polarization_quark_l_thermal_part_landau_val pg ig k p mq beta mu hL hp hb hk hr,
    gluon_thermal_zero_matsubara_polarization_quark_t_thermal_part_landau_val pg ig k p mq beta mu hL hp hb hk hr,
    gluon_thermal_zero_matsubara_polarization_quark_l_thermal_part_zero_temp_landau_val pg ig k p mq mu hL hp hk hr hmu,
    gluon_thermal_zero_matsubara_polarization_quark_t_thermal_part_zero_temp_landau_val pg ig k p mq mu hL hp hk hr hmu⟩

/-- **C109** Yang-Mills ghost: the inverse dressing function is defined, and the other two wherever it is not zero. -/
theorem C109_ym_ghost (pg : PIntegrator) (ig : Integrator) (hL : pg.Extends ig) (k : Consts ℝ) (om : ℝ) (p m beta g0 : ℝ) (ho : (toC om).re ≠ 0) (hp : p ≠ 0) (hm : m ≠ 0) (hb : 0 < beta) :
    P.ym.thermal.ghost.dressing_inv_landau pg k om p m beta g0 = .val (ym.thermal.ghost.dressing_inv_landau ig k om p m beta g0) ∧
    (ym.thermal.ghost.dressing_inv_landau ig k om p m beta g0 ≠ 0 → P.ym.thermal.ghost.dressing_landau pg k om p m beta g0 = .val (ym.thermal.ghost.dressing_landau ig k om p m beta g0) ∧
      P.ym.thermal.ghost.propagator_landau pg k om p m beta g0 = .val (ym.thermal.ghost.propagator_landau ig k om p m beta g0)) :=
  ⟨ym_thermal_ghost_dressing_inv_landau_val pg ig k om p m beta g0 hL ho hp hm hb,
    fun hD => ⟨ym_thermal_ghost_dressing_landau_val pg ig k om p m beta g0 hL ho hp hm hb hD, ym_thermal_ghost_propagator_landau_val pg ig k om p m beta g0 hL ho hp hm hb hD⟩⟩

/-- **C109** Yang-Mills gluon. -/
theorem C109_ym_gluon {T : Type} [Num T] [NumDom T] [NumDomLaw T] (pg : PIntegrator) (ig : Integrator) (hL : pg.Extends ig) (k : Consts ℝ) (om : T) (p m beta f0 : ℝ) (ho : (toC om).re ≠ 0) (hp : p ≠ 0) (hm : m ≠ 0) (hb : 0 < beta) :
    P.ym.thermal.gluon.dressing_l_inv_landau pg k om p m beta f0 = .val (ym.thermal.gluon.dressing_l_inv_landau ig k om p m beta f0) ∧
    P.ym.thermal.gluon.dressing_t_inv_landau pg k om p m beta f0 = .val (ym.thermal.gluon.dressing_t_inv_landau ig k om p m beta f0) ∧
    (ym.thermal.gluon.dressing_l_inv_landau ig k om p m beta f0 ≠ 0 → P.ym.thermal.gluon.dressing_l_landau pg k om p m beta f0 = .val (ym.thermal.gluon.dressing_l_landau ig k om p m beta f0) ∧
      P.ym.thermal.gluon.propagator_l_landau pg k om p m beta f0 = .val (ym.thermal.gluon.propagator_l_landau ig k om p m beta f0)) ∧
    (ym.thermal.gluon.dressing_t_inv_landau ig k om p m beta f0 ≠ 0 → P.ym.thermal.gluon.dressing_t_landau pg k om p m beta f0 = .val (ym.thermal.gluon.dressing_t_landau ig k om p m beta f0) ∧
      P.ym.thermal.gluon.propagator_t_landau pg k om p m beta f0 = .val (ym.thermal.gluon.propagator_t_landau ig k om p m beta f0)) :=
  ⟨ym_thermal_gluon_dressing_l_inv_landau_val pg ig k om p m beta f0 hL ho hp hm hb,
    ym_thermal_gluon_dressing_t_inv_landau_val pg ig k om p m beta f0 hL ho hp hm hb,
    fun hD => ⟨ym_thermal_gluon_dressing_l_landau_val pg ig k om p m beta f0 hL ho hp hm hb hD, ym_thermal_gluon_propagator_l_landau_val pg ig k om p m beta f0 hL ho hp hm hb hD⟩,
    fun hD => ⟨ym_thermal_gluon_dressing_t_landau_val pg ig k om p m beta f0 hL ho hp hm hb hD, ym_thermal_gluon_propagator_t_landau_val pg ig k om p m beta f0 hL ho hp hm hb hD⟩⟩

/-- **C109** Yang-Mills gluon at zero Matsubara frequency. -/
theorem C109_ym_zero_matsubara_gluon (pg : PIntegrator) (ig : Integrator) (hL : pg.Extends ig) (k : Consts ℝ) (p m beta f0 : ℝ) (hp : p ≠ 0) (hm : m ≠ 0) (hb : 0 < beta) (hr : k.matsubara_reg ≠ 0) :
    P.ym.thermal.zero_matsubara.gluon.dressing_l_inv_landau pg k p m beta f0 = .val (ym.thermal.zero_matsubara.gluon.dressing_l_inv_landau ig k p m beta f0) ∧
    P.ym.thermal.zero_matsubara.gluon.dressing_t_inv_landau pg k p m beta f0 = .val (ym.thermal.zero_matsubara.gluon.dressing_t_inv_landau ig k p m beta f0) ∧
    (ym.thermal.zero_matsubara.gluon.dressing_l_inv_landau ig k p m beta f0 ≠ 0 → P.ym.thermal.zero_matsubara.gluon.dressing_l_landau pg k p m beta f0 = .val (ym.thermal.zero_matsubara.gluon.dressing_l_landau ig k p m beta f0) ∧
      P.ym.thermal.zero_matsubara.gluon.propagator_l_landau pg k p m beta f0 = .val (ym.thermal.zero_matsubara.gluon.propagator_l_landau ig k p m beta f0)) ∧
    (ym.thermal.zero_matsubara.gluon.dressing_t_inv_landau ig k p m beta f0 ≠ 0 → P.ym.thermal.zero_matsubara.gluon.dressing_t_landau pg k p m beta f0 = .val (ym.thermal.zero_matsubara.gluon.dressing_t_landau ig k p m beta f0) ∧
      P.ym.thermal.zero_matsubara.gluon.propagator_t_landau pg k p m beta f0 = .val (ym.thermal.zero_matsubara.gluon.propagator_t_landau ig k p m beta f0)) :=
  ⟨ym_thermal_zero_matsubara_gluon_dressing_l_inv_landau_val pg ig k p m beta f0 hL hp hm hb hr,
    ym_thermal_zero_matsubara_gluon_dressing_t_inv_landau_val pg ig k p m beta f0 hL hp hm hb hr,
    fun hD => ⟨ym_thermal_zero_matsubara_gluon_dressing_l_landau_val pg ig k p m beta f0 hL hp hm hb hr hD, ym_thermal_zero_matsubara_gluon_propagator_l_landau_val pg ig k p m beta f0 hL hp hm hb hr hD⟩,
    fun hD => ⟨ym_thermal_zero_matsubara_gluon_dressing_t_landau_val pg ig k p m beta f0 hL hp hm hb hr hD, ym_thermal_zero_matsubara_gluon_propagator_t_landau_val pg ig k p m beta f0 hL hp hm hb hr hD⟩⟩

/-- **C109** Yang-Mills ghost and gluon at zero momentum. -/
theorem C109_ym_zero_momentum {T : Type} [Num T] [NumDom T] [NumDomLaw T] (pg : PIntegrator) (ig : Integrator) (hL : pg.Extends ig) (k : Consts ℝ) (om : T) (m beta f0 g0 : ℝ) (ho : (toC om).re ≠ 0) (hm : m ≠ 0) (hb : 0 < beta) :
    P.ym.thermal.zero_momentum.ghost.dressing_inv_landau pg k om m beta g0 = .val (ym.thermal.zero_momentum.ghost.dressing_inv_landau ig k om m beta g0) ∧
    P.ym.thermal.zero_momentum.gluon.dressing_l_inv_landau pg k om m beta f0 = .val (ym.thermal.zero_momentum.gluon.dressing_l_inv_landau ig k om m beta f0) ∧
    P.ym.thermal.zero_momentum.gluon.dressing_t_inv_landau pg k om m beta f0 = .val (ym.thermal.zero_momentum.gluon.dressing_t_inv_landau ig k om m beta f0) ∧
    (ym.thermal.zero_momentum.ghost.dressing_inv_landau ig k om m beta g0 ≠ 0 → P.ym.thermal.zero_momentum.ghost.dressing_landau pg k om m beta g0 = .val (ym.thermal.zero_momentum.ghost.dressing_landau ig k om m beta g0) ∧
      P.ym.thermal.zero_momentum.ghost.propagator_landau pg k om m beta g0 = .val (ym.thermal.zero_momentum.ghost.propagator_landau ig k om m beta g0)) ∧
    (ym.thermal.zero_momentum.gluon.dressing_l_inv_landau ig k om m beta f0 ≠ 0 → P.ym.thermal.zero_momentum.gluon.dressing_l_landau pg k om m beta f0 = .val (ym.thermal.zero_momentum.gluon.dressing_l_landau ig k om m beta f0) ∧
      P.ym.thermal.zero_momentum.gluon.propagator_l_landau pg k om m beta f0 = .val (ym.thermal.zero_momentum.gluon.propagator_l_landau ig k om m beta f0)) ∧
    (ym.thermal.zero_momentum.gluon.dressing_t_inv_landau ig k om m beta f0 ≠ 0 → P.ym.thermal.zero_momentum.gluon.dressing_t_landau pg k om m beta f0 = .val (ym.thermal.zero_momentum.gluon.dressing_t_landau ig k om m beta f0) ∧
      P.ym.thermal.zero_momentum.gluon.propagator_t_landau pg k om m beta f0 = .val (ym.thermal.zero_momentum.gluon.propagator_t_landau ig k om m beta f0)) :=
  ⟨ym_thermal_zero_momentum_ghost_dressing_inv_landau_val pg ig k om m beta g0 hL ho hm hb,
    ym_thermal_zero_momentum_gluon_dressing_l_inv_landau_val pg ig k om m beta f0 hL ho hm hb,
    ym_thermal_zero_momentum_gluon_dressing_t_inv_landau_val pg ig k om m beta f0 hL ho hm hb,
    fun hD => ⟨ym_thermal_zero_momentum_ghost_dressing_landau_val pg ig k om m beta g0 hL ho hm hb hD, ym_thermal_zero_momentum_ghost_propagator_landau_val pg ig k om m beta g0 hL ho hm hb hD⟩,
    fun hD => ⟨ym_thermal_zero_momentum_gluon_dressing_l_landau_val pg ig k om m beta f0 hL ho hm hb hD, ym_thermal_zero_momentum_gluon_propagator_l_landau_val pg ig k om m beta f0 hL ho hm hb hD⟩,
    fun hD => ⟨ym_thermal_zero_momentum_gluon_dressing_t_landau_val pg ig k om m beta f0 hL ho hm hb hD, ym_thermal_zero_momentum_gluon_propagator_t_landau_val pg ig k om m beta f0 hL ho hm hb hD⟩⟩

/-- **C109** QCD gluon, at finite temperature. -/
theorem C109_qcd_gluon {T : Type} [Num T] [NumDom T] [NumDomLaw T] (pg : PIntegrator) (ig : Integrator) (hL : pg.Extends ig) (k : Consts ℝ) (om : T) (p m mq beta mu f0 : ℝ) (ho : (toC om).re ≠ 0) (hp : p ≠ 0) (hm : m ≠ 0) (hb : 0 < beta) (hk : k.nc ≠ 0) (hmq : mq ≠ 0) :
    P.qcd.thermal.gluon.dressing_l_inv_landau pg k om p m mq beta mu f0 = .val (qcd.thermal.gluon.dressing_l_inv_landau ig k om p m mq beta mu f0) ∧
    P.qcd.thermal.gluon.dressing_t_inv_landau pg k om p m mq beta mu f0 = .val (qcd.thermal.gluon.dressing_t_inv_landau ig k om p m mq beta mu f0) ∧
    (qcd.thermal.gluon.dressing_l_inv_landau ig k om p m mq beta mu f0 ≠ 0 → P.qcd.thermal.gluon.dressing_l_landau pg k om p m mq beta mu f0 = .val (qcd.thermal.gluon.dressing_l_landau ig k om p m mq beta mu f0) ∧
      P.qcd.thermal.gluon.propagator_l_landau pg k om p m mq beta mu f0 = .val (qcd.thermal.gluon.propagator_l_landau ig k om p m mq beta mu f0)) ∧
    (qcd.thermal.gluon.dressing_t_inv_landau ig k om p m mq beta mu f0 ≠ 0 → P.qcd.thermal.gluon.dressing_t_landau pg k om p m mq beta mu f0 = .val (qcd.thermal.gluon.dressing_t_landau ig k om p m mq beta mu f0) ∧
      P.qcd.thermal.gluon.propagator_t_landau pg k om p m mq beta mu f0 = .val (qcd.thermal.gluon.propagator_t_landau ig k om p m mq beta mu f0)) :=
  ⟨qcd_thermal_gluon_dressing_l_inv_landau_val pg ig k om p m mq beta mu f0 hL ho hp hm hb hk hmq,
    qcd_thermal_gluon_dressing_t_inv_landau_val pg ig k om p m mq beta mu f0 hL ho hp hm hb hk hmq,
    fun hD => ⟨qcd_thermal_gluon_dressing_l_landau_val pg ig k om p m mq beta mu f0 hL ho hp hm hb hk hmq hD, qcd_thermal_gluon_propagator_l_landau_val pg ig k om p m mq beta mu f0 hL ho hp hm hb hk hmq hD⟩,
    fun hD => ⟨qcd_thermal_gluon_dressing_t_landau_val pg ig k om p m mq beta mu f0 hL ho hp hm hb hk hmq hD, qcd_thermal_gluon_propagator_t_landau_val pg ig k om p m mq beta mu f0 hL ho hp hm hb hk hmq hD⟩⟩

/-- **C109** QCD gluon, at zero temperature. -/
theorem C109_qcd_gluon_zero_temp {T : Type} [Num T] [NumDom T] [NumDomLaw T] (pg : PIntegrator) (ig : Integrator) (hL : pg.Extends ig) (k : Consts ℝ) (om : T) (p m mq mu f0 : ℝ) (ho : (toC om).re ≠ 0) (hp : p ≠ 0) (hm : m ≠ 0) (hk : k.nc ≠ 0) (hmq : mq ≠ 0) (hmu : |mu| ≠ |mq|) :
    P.qcd.thermal.gluon.dressing_l_inv_zero_temp_landau pg k om p m mq mu f0 = .val (qcd.thermal.gluon.dressing_l_inv_zero_temp_landau ig k om p m mq mu f0) ∧
    P.qcd.thermal.gluon.dressing_t_inv_zero_temp_landau pg k om p m mq mu f0 = .val (qcd.thermal.gluon.dressing_t_inv_zero_temp_landau ig k om p m mq mu f0) ∧
    (qcd.thermal.gluon.dressing_l_inv_zero_temp_landau ig k om p m mq mu f0 ≠ 0 → P.qcd.thermal.gluon.dressing_l_zero_temp_landau pg k om p m mq mu f0 = .val (qcd.thermal.gluon.dressing_l_zero_temp_landau ig k om p m mq mu f0) ∧
      P.qcd.thermal.gluon.propagator_l_zero_temp_landau pg k om p m mq mu f0 = .val (qcd.thermal.gluon.propagator_l_zero_temp_landau ig k om p m mq mu f0)) ∧
    (qcd.thermal.gluon.dressing_t_inv_zero_temp_landau ig k om p m mq mu f0 ≠ 0 → P.qcd.thermal.gluon.dressing_t_zero_temp_landau pg k om p m mq mu f0 = .val (qcd.thermal.gluon.dressing_t_zero_temp_landau ig k om p m mq mu f0) ∧
      P.qcd.thermal.gluon.propagator_t_zero_temp_landau pg k om p m mq mu f0 = .val (qcd.thermal.gluon.propagator_t_zero_temp_landau ig k om p m mq mu f0)) :=
  ⟨qcd_thermal_gluon_dressing_l_inv_zero_temp_landau_val pg ig k om p m mq mu f0 hL ho hp hm hk hmq hmu,
    qcd_thermal_gluon_dressing_t_inv_zero_temp_landau_val pg ig k om p m mq mu f0 hL ho hp hm hk hmq hmu,
    fun hD => ⟨qcd_thermal_gluon_dressing_l_zero_temp_landau_val pg ig k om p m mq mu f0 hL ho hp hm hk hmq hmu hD, qcd_thermal_gluon_propagator_l_zero_temp_landau_val pg ig k om p m mq mu f0 hL ho hp hm hk hmq hmu hD⟩,
    fun hD => ⟨qcd_thermal_gluon_dressing_t_zero_temp_landau_val pg ig k om p m mq mu f0 hL ho hp hm hk hmq hmu hD, qcd_thermal_gluon_propagator_t_zero_temp_landau_val pg ig k om p m mq mu f0 hL ho hp hm hk hmq hmu hD⟩⟩

/-- **C109** QCD gluon, at finite temperature, for any list of massive quarks. -/
theorem C109_qcd_config {T : Type} [Num T] [NumDom T] [NumDomLaw T] (pg : PIntegrator) (ig : Integrator) (hL : pg.Extends ig) (k : Consts ℝ) (om : T) (p beta mu f0 m : ℝ) (nc : ℕ) (qs : List (ℕ × ℝ)) (ho : (toC om).re ≠ 0) (hp : p ≠ 0) (hm : m ≠ 0) (hb : 0 < beta) (hk : k.nc ≠ 0) (hqs : ∀ q ∈ qs, q.2 ≠ 0) :
    P.qcd.thermal.gluon.dressing_l_inv_landau_w_field_config pg k om p beta mu f0 (FieldConfig.new nc m qs) = .val (qcd.thermal.gluon.dressing_l_inv_landau_w_field_config ig k om p beta mu f0 (FieldConfig.new nc m qs)) ∧
    P.qcd.thermal.gluon.dressing_t_inv_landau_w_field_config pg k om p beta mu f0 (FieldConfig.new nc m qs) = .val (qcd.thermal.gluon.dressing_t_inv_landau_w_field_config ig k om p beta mu f0 (FieldConfig.new nc m qs)) ∧
    (qcd.thermal.gluon.dressing_l_inv_landau_w_field_config ig k om p beta mu f0 (FieldConfig.new nc m qs) ≠ 0 → P.qcd.thermal.gluon.dressing_l_landau_w_field_config pg k om p beta mu f0 (FieldConfig.new nc m qs) = .val (qcd.thermal.gluon.dressing_l_landau_w_field_config ig k om p beta mu f0 (FieldConfig.new nc m qs)) ∧
      P.qcd.thermal.gluon.propagator_l_landau_w_field_config pg k om p beta mu f0 (FieldConfig.new nc m qs) = .val (qcd.thermal.gluon.propagator_l_landau_w_field_config ig k om p beta mu f0 (FieldConfig.new nc m qs))) ∧
    (qcd.thermal.gluon.dressing_t_inv_landau_w_field_config ig k om p beta mu f0 (FieldConfig.new nc m qs) ≠ 0 → P.qcd.thermal.gluon.dressing_t_landau_w_field_config pg k om p beta mu f0 (FieldConfig.new nc m qs) = .val (qcd.thermal.gluon.dressing_t_landau_w_field_config ig k om p beta mu f0 (FieldConfig.new nc m qs)) ∧
      P.qcd.thermal.gluon.propagator_t_landau_w_field_config pg k om p beta mu f0 (FieldConfig.new nc m qs) = .val (qcd.thermal.gluon.propagator_t_landau_w_field_config ig k om p beta mu f0 (FieldConfig.new nc m qs))) :=
  ⟨qcd_thermal_gluon_dressing_l_inv_landau_w_field_config_val pg ig k om p beta mu f0 nc m qs hL ho hp hm hb hk hqs,
    qcd_thermal_gluon_dressing_t_inv_landau_w_field_config_val pg ig k om p beta mu f0 nc m qs hL ho hp hm hb hk hqs,
    fun hD => ⟨qcd_thermal_gluon_dressing_l_landau_w_field_config_val pg ig k om p beta mu f0 nc m qs hL ho hp hm hb hk hqs hD, qcd_thermal_gluon_propagator_l_landau_w_field_config_val pg ig k om p beta mu f0 nc m qs hL ho hp hm hb hk hqs hD⟩,
    fun hD => ⟨qcd_thermal_gluon_dressing_t_landau_w_field_config_val pg ig k om p beta mu f0 nc m qs hL ho hp hm hb hk hqs hD, qcd_thermal_gluon_propagator_t_landau_w_field_config_val pg ig k om p beta mu f0 nc m qs hL ho hp hm hb hk hqs hD⟩⟩

/-- **C109** QCD gluon, at zero temperature, for any list of massive quarks. -/
theorem C109_qcd_config_zero_temp {T : Type} [Num T] [NumDom T] [NumDomLaw T] (pg : PIntegrator) (ig : Integrator) (hL : pg.Extends ig) (k : Consts ℝ) (om : T) (p mu f0 m : ℝ) (nc : ℕ) (qs : List (ℕ × ℝ)) (ho : (toC om).re ≠ 0) (hp : p ≠ 0) (hm : m ≠ 0) (hk : k.nc ≠ 0) (hqs : ∀ q ∈ qs, q.2 ≠ 0) (hmus : ∀ q ∈ qs, |mu| ≠ |q.2|) :
    P.qcd.thermal.gluon.dressing_l_inv_zero_temp_landau_w_field_config pg k om p mu f0 (FieldConfig.new nc m qs) = .val (qcd.thermal.gluon.dressing_l_inv_zero_temp_landau_w_field_config ig k om p mu f0 (FieldConfig.new nc m qs)) ∧
    P.qcd.thermal.gluon.dressing_t_inv_zero_temp_landau_w_field_config pg k om p mu f0 (FieldConfig.new nc m qs) = .val (qcd.thermal.gluon.dressing_t_inv_zero_temp_landau_w_field_config ig k om p mu f0 (FieldConfig.new nc m qs)) ∧
    (qcd.thermal.gluon.dressing_l_inv_zero_temp_landau_w_field_config ig k om p mu f0 (FieldConfig.new nc m qs) ≠ 0 → P.qcd.thermal.gluon.dressing_l_zero_temp_landau_w_field_config pg k om p mu f0 (FieldConfig.new nc m qs) = .val (qcd.thermal.gluon.dressing_l_zero_temp_landau_w_field_config ig k om p mu f0 (FieldConfig.new nc m qs)) ∧
      P.qcd.thermal.gluon.propagator_l_zero_temp_landau_w_field_config pg k om p mu f0 (FieldConfig.new nc m qs) = .val (qcd.thermal.gluon.propagator_l_zero_temp_landau_w_field_config ig k om p mu f0 (FieldConfig.new nc m qs))) ∧
    (qcd.thermal.gluon.dressing_t_inv_zero_temp_landau_w_field_config ig k om p mu f0 (FieldConfig.new nc m qs) ≠ 0 → P.qcd.thermal.gluon.dressing_t_zero_temp_landau_w_field_config pg k om p mu f0 (FieldConfig.new nc m qs) = .val (qcd.thermal.gluon.dressing_t_zero_temp_landau_w_field_config ig k om p mu f0 (FieldConfig.new nc m qs)) ∧
      P.qcd.thermal.gluon.propagator_t_zero_temp_landau_w_field_config pg k om p mu f0 (FieldConfig.new nc m qs) = .val (qcd.thermal.gluon.propagator_t_zero_temp_landau_w_field_config ig k om p mu f0 (FieldConfig.new nc m qs))) :=
  ⟨qcd_thermal_gluon_dressing_l_inv_zero_temp_landau_w_field_config_val pg ig k om p mu f0 nc m qs hL ho hp hm hk hqs hmus,
    qcd_thermal_gluon_dressing_t_inv_zero_temp_landau_w_field_config_val pg ig k om p mu f0 nc m qs hL ho hp hm hk hqs hmus,
    fun hD => ⟨qcd_thermal_gluon_dressing_l_zero_temp_landau_w_field_config_val pg ig k om p mu f0 nc m qs hL ho hp hm hk hqs hmus hD, qcd_thermal_gluon_propagator_l_zero_temp_landau_w_field_config_val pg ig k om p mu f0 nc m qs hL ho hp hm hk hqs hmus hD⟩,
    fun hD => ⟨qcd_thermal_gluon_dressing_t_zero_temp_landau_w_field_config_val pg ig k om p mu f0 nc m qs hL ho hp hm hk hqs hmus hD, qcd_thermal_gluon_propagator_t_zero_temp_landau_w_field_config_val pg ig k om p mu f0 nc m qs hL ho hp hm hk hqs hmus hD⟩⟩

/-- **C109** QCD gluon at zero Matsubara frequency, at finite temperature. -/
theorem C109_qcd_zero_matsubara_gluon (pg : PIntegrator) (ig : Integrator) (hL : pg.Extends ig) (k : Consts ℝ) (p m mq beta mu f0 : ℝ) (hp : p ≠ 0) (hm : m ≠ 0) (hb : 0 < beta) (hk : k.nc ≠ 0) (hr : k.matsubara_reg ≠ 0) (hmq : mq ≠ 0) :
    P.qcd.thermal.zero_matsubara.gluon.dressing_l_inv_landau pg k p m mq beta mu f0 = .val (qcd.thermal.zero_matsubara.gluon.dressing_l_inv_landau ig k p m mq beta mu f0) ∧
    P.qcd.thermal.zero_matsubara.gluon.dressing_t_inv_landau pg k p m mq beta mu f0 = .val (qcd.thermal.zero_matsubara.gluon.dressing_t_inv_landau ig k p m mq beta mu f0) ∧
    (qcd.thermal.zero_matsubara.gluon.dressing_l_inv_landau ig k p m mq beta mu f0 ≠ 0 → P.qcd.thermal.zero_matsubara.gluon.dressing_l_landau pg k p m mq beta mu f0 = .val (qcd.thermal.zero_matsubara.gluon.dressing_l_landau ig k p m mq beta mu f0) ∧
      P.qcd.thermal.zero_matsubara.gluon.propagator_l_landau pg k p m mq beta mu f0 = .val (qcd.thermal.zero_matsubara.gluon.propagator_l_landau ig k p m mq beta mu f0)) ∧
    (qcd.thermal.zero_matsubara.gluon.dressing_t_inv_landau ig k p m mq beta mu f0 ≠ 0 → P.qcd.thermal.zero_matsubara.gluon.dressing_t_landau pg k p m mq beta mu f0 = .val (qcd.thermal.zero_matsubara.gluon.dressing_t_landau ig k p m mq beta mu f0) ∧
      P.qcd.thermal.zero_matsubara.gluon.propagator_t_landau pg k p m mq beta mu f0 = .val (qcd.thermal.zero_matsubara.gluon.propagator_t_landau ig k p m mq beta mu f0)) :=
  ⟨qcd_thermal_zero_matsubara_gluon_dressing_l_inv_landau_val pg ig k p m mq beta mu f0 hL hp hm hb hk hr hmq,
    qcd_thermal_zero_matsubara_gluon_dressing_t_inv_landau_val pg ig k p m mq beta mu f0 hL hp hm hb hk hr hmq,
    fun hD => ⟨qcd_thermal_zero_matsubara_gluon_dressing_l_landau_val pg ig k p m mq beta mu f0 hL hp hm hb hk hr hmq hD, qcd_thermal_zero_matsubara_gluon_propagator_l_landau_val pg ig k p m mq beta mu f0 hL hp hm hb hk hr hmq hD⟩,
    fun hD => ⟨qcd_thermal_zero_matsubara_gluon_dressing_t_landau_val pg ig k p m mq beta mu f0 hL hp hm hb hk hr hmq hD, qcd_thermal_zero_matsubara_gluon_propagator_t_landau_val pg ig k p m mq beta mu f0 hL hp hm hb hk hr hmq hD⟩⟩

/-- **C109** QCD gluon at zero Matsubara frequency, at zero temperature. -/
theorem C109_qcd_zero_matsubara_gluon_zero_temp (pg : PIntegrator) (ig : Integrator) (hL : pg.Extends ig) (k : Consts ℝ) (p m mq mu f0 : ℝ) (hp : p ≠ 0) (hm : m ≠ 0) (hk : k.nc ≠ 0) (hr : k.matsubara_reg ≠ 0) (hmq : mq ≠ 0) (hmu : |mu| ≠ |mq|) :
    P.qcd.thermal.zero_matsubara.gluon.dressing_l_inv_zero_temp_landau pg k p m mq mu f0 = .val (qcd.thermal.zero_matsubara.gluon.dressing_l_inv_zero_temp_landau ig k p m mq mu f0) ∧
    P.qcd.thermal.zero_matsubara.gluon.dressing_t_inv_zero_temp_landau pg k p m mq mu f0 = .val (qcd.thermal.zero_matsubara.gluon.dressing_t_inv_zero_temp_landau ig k p m mq mu f0) ∧
    (qcd.thermal.zero_matsubara.gluon.dressing_l_inv_zero_temp_landau ig k p m mq mu f0 ≠ 0 → P.qcd.thermal.zero_matsubara.gluon.dressing_l_zero_temp_landau pg k p m mq mu f0 = .val (qcd.thermal.zero_matsubara.gluon.dressing_l_zero_temp_landau ig k p m mq mu f0) ∧
      P.qcd.thermal.zero_matsubara.gluon.propagator_l_zero_temp_landau pg k p m mq mu f0 = .val (qcd.thermal.zero_matsubara.gluon.propagator_l_zero_temp_landau ig k p m mq mu f0)) ∧
    (qcd.thermal.zero_matsubara.gluon.dressing_t_inv_zero_temp_landau ig k p m mq mu f0 ≠ 0 → P.qcd.thermal.zero_matsubara.gluon.dressing_t_zero_temp_landau pg k p m mq mu f0 = .val (qcd.thermal.zero_matsubara.gluon.dressing_t_zero_temp_landau ig k p m mq mu f0) ∧
      P.qcd.thermal.zero_matsubara.gluon.propagator_t_zero_temp_landau pg k p m mq mu f0 = .val (qcd.thermal.zero_matsubara.gluon.propagator_t_zero_temp_landau ig k p m mq mu f0)) :=
  ⟨qcd_thermal_zero_matsubara_gluon_dressing_l_inv_zero_temp_landau_val pg ig k p m mq mu f0 hL hp hm hk hr hmq hmu,
    qcd_thermal_zero_matsubara_gluon_dressing_t_inv_zero_temp_landau_val pg ig k p m mq mu f0 hL hp hm hk hr hmq hmu,
    fun hD => ⟨qcd_thermal_zero_matsubara_gluon_dressing_l_zero_temp_landau_val pg ig k p m mq mu f0 hL hp hm hk hr hmq hmu hD, qcd_thermal_zero_matsubara_gluon_propagator_l_zero_temp_landau_val pg ig k p m mq mu f0 hL hp hm hk hr hmq hmu hD⟩,
    fun hD => ⟨qcd_thermal_zero_matsubara_gluon_dressing_t_zero_temp_landau_val pg ig k p m mq mu f0 hL hp hm hk hr hmq hmu hD, qcd_thermal_zero_matsubara_gluon_propagator_t_zero_temp_landau_val pg ig k p m mq mu f0 hL hp hm hk hr hmq hmu hD⟩⟩

/-- **C109** QCD gluon at zero Matsubara frequency, at finite temperature, for any list of massive quarks. -/
theorem C109_qcd_zero_matsubara_config (pg : PIntegrator) (ig : Integrator) (hL : pg.Extends ig) (k : Consts ℝ) (p beta mu f0 m : ℝ) (nc : ℕ) (qs : List (ℕ × ℝ)) (hp : p ≠ 0) (hm : m ≠ 0) (hb : 0 < beta) (hk : k.nc ≠ 0) (hr : k.matsubara_reg ≠ 0) (hqs : ∀ q ∈ qs, q.2 ≠ 0) :
    P.qcd.thermal.zero_matsubara.gluon.dressing_l_inv_landau_w_field_config pg k p beta mu f0 (FieldConfig.new nc m qs) = .val (qcd.thermal.zero_matsubara.gluon.dressing_l_inv_landau_w_field_config ig k p beta mu f0 (FieldConfig.new nc m qs)) ∧
    P.qcd.thermal.zero_matsubara.gluon.dressing_t_inv_landau_w_field_config pg k p beta mu f0 (FieldConfig.new nc m qs) = .val (qcd.thermal.zero_matsubara.gluon.dressing_t_inv_landau_w_field_config ig k p beta mu f0 (FieldConfig.new nc m qs)) ∧
    (qcd.thermal.zero_matsubara.gluon.dressing_l_inv_landau_w_field_config ig k p beta mu f0 (FieldConfig.new nc m qs) ≠ 0 → P.qcd.thermal.zero_matsubara.gluon.dressing_l_landau_w_field_config pg k p beta mu f0 (FieldConfig.new nc m qs) = .val (qcd.thermal.zero_matsubara.gluon.dressing_l_landau_w_field_config ig k p beta mu f0 (FieldConfig.new nc m qs)) ∧
      P.qcd.thermal.zero_matsubara.gluon.propagator_l_landau_w_field_config pg k p beta mu f0 (FieldConfig.new nc m qs) = .val (qcd.thermal.zero_matsubara.gluon.propagator_l_landau_w_field_config ig k p beta mu f0 (FieldConfig.new nc m qs))) ∧
    (qcd.thermal.zero_matsubara.gluon.dressing_t_inv_landau_w_field_config ig k p beta mu f0 (FieldConfig.new nc m qs) ≠ 0 → P.qcd.thermal.zero_matsubara.gluon.dressing_t_landau_w_field_config pg k p beta mu f0 (FieldConfig.new nc m qs) = .val (qcd.thermal.zero_matsubara.gluon.dressing_t_landau_w_field_config ig k p beta mu f0 (FieldConfig.new nc m qs)) ∧
      P.qcd.thermal.zero_matsubara.gluon.propagator_t_landau_w_field_config pg k p beta mu f0 (FieldConfig.new nc m qs) = .val (qcd.thermal.zero_matsubara.gluon.propagator_t_landau_w_field_config ig k p beta mu f0 (FieldConfig.new nc m qs))) :=
  ⟨qcd_thermal_zero_matsubara_gluon_dressing_l_inv_landau_w_field_config_val pg ig k p beta mu f0 nc m qs hL hp hm hb hk hr hqs,
    qcd_thermal_zero_matsubara_gluon_dressing_t_inv_landau_w_field_config_val pg ig k p beta mu f0 nc m qs hL hp hm hb hk hr hqs,
    fun hD => ⟨qcd_thermal_zero_matsubara_gluon_dressing_l_landau_w_field_config_val pg ig k p beta mu f0 nc m qs hL hp hm hb hk hr hqs hD, qcd_thermal_zero_matsubara_gluon_propagator_l_landau_w_field_config_val pg ig k p beta mu f0 nc m qs hL hp hm hb hk hr hqs hD⟩,
    fun hD => ⟨qcd_thermal_zero_matsubara_gluon_dressing_t_landau_w_field_config_val pg ig k p beta mu f0 nc m qs hL hp hm hb hk hr hqs hD, qcd_thermal_zero_matsubara_gluon_propagator_t_landau_w_field_config_val pg ig k p beta mu f0 nc m qs hL hp hm hb hk hr hqs hD⟩⟩

/-- **C109** QCD gluon at zero Matsubara frequency, at zero temperature, for any list of massive quarks. -/
theorem C109_qcd_zero_matsubara_config_zero_temp (pg : PIntegrator) (ig : Integrator) (hL : pg.Extends ig) (k : Consts ℝ) (p mu f0 m : ℝ) (nc : ℕ) (qs : List (ℕ × ℝ)) (hp : p ≠ 0) (hm : m ≠ 0) (hk : k.nc ≠ 0) (hr : k.matsubara_reg ≠ 0) (hqs : ∀ q ∈ qs, q.2 ≠ 0) (hmus : ∀ q ∈ qs, |mu| ≠ |q.2|) :
    P.qcd.thermal.zero_matsubara.gluon.dressing_l_inv_zero_temp_landau_w_field_config pg k p mu f0 (FieldConfig.new nc m qs) = .val (qcd.thermal.zero_matsubara.gluon.dressing_l_inv_zero_temp_landau_w_field_config ig k p mu f0 (FieldConfig.new nc m qs)) ∧
    P.qcd.thermal.zero_matsubara.gluon.dressing_t_inv_zero_temp_landau_w_field_config pg k p mu f0 (FieldConfig.new nc m qs) = .val (qcd.thermal.zero_matsubara.gluon.dressing_t_inv_zero_temp_landau_w_field_config ig k p mu f0 (FieldConfig.new nc m qs)) ∧
    (qcd.thermal.zero_matsubara.gluon.dressing_l_inv_zero_temp_landau_w_field_config ig k p mu f0 (FieldConfig.new nc m qs) ≠ 0 → P.qcd.thermal.zero_matsubara.gluon.dressing_l_zero_temp_landau_w_field_config pg k p mu f0 (FieldConfig.new nc m qs) = .val (qcd.thermal.zero_matsubara.gluon.dressing_l_zero_temp_landau_w_field_config ig k p mu f0 (FieldConfig.new nc m qs)) ∧
      P.qcd.thermal.zero_matsubara.gluon.propagator_l_zero_temp_landau_w_field_config pg k p mu f0 (FieldConfig.new nc m qs) = .val (qcd.thermal.zero_matsubara.gluon.propagator_l_zero_temp_landau_w_field_config ig k p mu f0 (FieldConfig.new nc m qs))) ∧
    (qcd.thermal.zero_matsubara.gluon.dressing_t_inv_zero_temp_landau_w_field_config ig k p mu f0 (FieldConfig.new nc m qs) ≠ 0 → P.qcd.thermal.zero_matsubara.gluon.dressing_t_zero_temp_landau_w_field_config pg k p mu f0 (FieldConfig.new nc m qs) = .val (qcd.thermal.zero_matsubara.gluon.dressing_t_zero_temp_landau_w_field_config ig k p mu f0 (FieldConfig.new nc m qs)) ∧
      P.qcd.thermal.zero_matsubara.gluon.propagator_t_zero_temp_landau_w_field_config pg k p mu f0 (FieldConfig.new nc m qs) = .val (qcd.thermal.zero_matsubara.gluon.propagator_t_zero_temp_landau_w_field_config ig k p mu f0 (FieldConfig.new nc m qs))) :=
  ⟨qcd_thermal_zero_matsubara_gluon_dressing_l_inv_zero_temp_landau_w_field_config_val pg ig k p mu f0 nc m qs hL hp hm hk hr hqs hmus,
    qcd_thermal_zero_matsubara_gluon_dressing_t_inv_zero_temp_landau_w_field_config_val pg ig k p mu f0 nc m qs hL hp hm hk hr hqs hmus,
    fun hD => ⟨qcd_thermal_zero_matsubara_gluon_dressing_l_zero_temp_landau_w_field_config_val pg ig k p mu f0 nc m qs hL hp hm hk hr hqs hmus hD, qcd_thermal_zero_matsubara_gluon_propagator_l_zero_temp_landau_w_field_config_val pg ig k p mu f0 nc m qs hL hp hm hk hr hqs hmus hD⟩,
    fun hD => ⟨qcd_thermal_zero_matsubara_gluon_dressing_t_zero_temp_landau_w_field_config_val pg ig k p mu f0 nc m qs hL hp hm hk hr hqs hmus hD, qcd_thermal_zero_matsubara_gluon_propagator_t_zero_temp_landau_w_field_config_val pg ig k p mu f0 nc m qs hL hp hm hk hr hqs hmus hD⟩⟩

/-- **C109** QCD gluon at zero momentum, at finite temperature. -/
theorem C109_qcd_zero_momentum_gluon {T : Type} [Num T] [NumDom T] [NumDomLaw T] (pg : PIntegrator) (ig : Integrator) (hL : pg.Extends ig) (k : Consts ℝ) (om : T) (m mq beta mu f0 : ℝ) (ho : (toC om).re ≠ 0) (hm : m ≠ 0) (hb : 0 < beta) (hk : k.nc ≠ 0) (hmq : mq ≠ 0) :
    P.qcd.thermal.zero_momentum.gluon.dressing_l_inv_landau pg k om m mq beta mu f0 = .val (qcd.thermal.zero_momentum.gluon.dressing_l_inv_landau ig k om m mq beta mu f0) ∧
    P.qcd.thermal.zero_momentum.gluon.dressing_t_inv_landau pg k om m mq beta mu f0 = .val (qcd.thermal.zero_momentum.gluon.dressing_t_inv_landau ig k om m mq beta mu f0) ∧
    (qcd.thermal.zero_momentum.gluon.dressing_l_inv_landau ig k om m mq beta mu f0 ≠ 0 → P.qcd.thermal.zero_momentum.gluon.dressing_l_landau pg k om m mq beta mu f0 = .val (qcd.thermal.zero_momentum.gluon.dressing_l_landau ig k om m mq beta mu f0) ∧
      P.qcd.thermal.zero_momentum.gluon.propagator_l_landau pg k om m mq beta mu f0 = .val (qcd.thermal.zero_momentum.gluon.propagator_l_landau ig k om m mq beta mu f0)) ∧
    (qcd.thermal.zero_momentum.gluon.dressing_t_inv_landau ig k om m mq beta mu f0 ≠ 0 → P.qcd.thermal.zero_momentum.gluon.dressing_t_landau pg k om m mq beta mu f0 = .val (qcd.thermal.zero_momentum.gluon.dressing_t_landau ig k om m mq beta mu f0) ∧
      P.qcd.thermal.zero_momentum.gluon.propagator_t_landau pg k om m mq beta mu f0 = .val (qcd.thermal.zero_momentum.gluon.propagator_t_landau ig k om m mq beta mu f0)) :=
  ⟨qcd_thermal_zero_momentum_gluon_dressing_l_inv_landau_val pg ig k om m mq beta mu f0 hL ho hm hb hk hmq,
    qcd_thermal_zero_momentum_gluon_dressing_t_inv_landau_val pg ig k om m mq beta mu f0 hL ho hm hb hk hmq,
    fun hD => ⟨qcd_thermal_zero_momentum_gluon_dressing_l_landau_val pg ig k om m mq beta mu f0 hL ho hm hb hk hmq hD, qcd_thermal_zero_momentum_gluon_propagator_l_landau_val pg ig k om m mq beta mu f0 hL ho hm hb hk hmq hD⟩,
    fun hD => ⟨qcd_thermal_zero_momentum_gluon_dressing_t_landau_val pg ig k om m mq beta mu f0 hL ho hm hb hk hmq hD, qcd_thermal_zero_momentum_gluon_propagator_t_landau_val pg ig k om m mq beta mu f0 hL ho hm hb hk hmq hD⟩⟩

/-- **C109** QCD gluon at zero momentum, at zero temperature. -/
theorem C109_qcd_zero_momentum_gluon_zero_temp {T : Type} [Num T] [NumDom T] [NumDomLaw T] (pg : PIntegrator) (ig : Integrator) (hL : pg.Extends ig) (k : Consts ℝ) (om : T) (m mq mu f0 : ℝ) (ho : (toC om).re ≠ 0) (hm : m ≠ 0) (hk : k.nc ≠ 0) (hmq : mq ≠ 0) (hmu : |mu| ≠ |mq|) :
    P.qcd.thermal.zero_momentum.gluon.dressing_l_inv_zero_temp_landau pg k om m mq mu f0 = .val (qcd.thermal.zero_momentum.gluon.dressing_l_inv_zero_temp_landau ig k om m mq mu f0) ∧
    P.qcd.thermal.zero_momentum.gluon.dressing_t_inv_zero_temp_landau pg k om m mq mu f0 = .val (qcd.thermal.zero_momentum.gluon.dressing_t_inv_zero_temp_landau ig k om m mq mu f0) ∧
    (qcd.thermal.zero_momentum.gluon.dressing_l_inv_zero_temp_landau ig k om m mq mu f0 ≠ 0 → P.qcd.thermal.zero_momentum.gluon.dressing_l_zero_temp_landau pg k om m mq mu f0 = .val (qcd.thermal.zero_momentum.gluon.dressing_l_zero_temp_landau ig k om m mq mu f0) ∧
      P.qcd.thermal.zero_momentum.gluon.propagator_l_zero_temp_landau pg k om m mq mu f0 = .val (qcd.thermal.zero_momentum.gluon.propagator_l_zero_temp_landau ig k om m mq mu f0)) ∧
    (qcd.thermal.zero_momentum.gluon.dressing_t_inv_zero_temp_landau ig k om m mq mu f0 ≠ 0 → P.qcd.thermal.zero_momentum.gluon.dressing_t_zero_temp_landau pg k om m mq mu f0 = .val (qcd.thermal.zero_momentum.gluon.dressing_t_zero_temp_landau ig k om m mq mu f0) ∧
      P.qcd.thermal.zero_momentum.gluon.propagator_t_zero_temp_landau pg k om m mq mu f0 = .val (qcd.thermal.zero_momentum.gluon.propagator_t_zero_temp_landau ig k om m mq mu f0)) :=
  ⟨qcd_thermal_zero_momentum_gluon_dressing_l_inv_zero_temp_landau_val pg ig k om m mq mu f0 hL ho hm hk hmq hmu,
    qcd_thermal_zero_momentum_gluon_dressing_t_inv_zero_temp_landau_val pg ig k om m mq mu f0 hL ho hm hk hmq hmu,
    fun hD => ⟨qcd_thermal_zero_momentum_gluon_dressing_l_zero_temp_landau_val pg ig k om m mq mu f0 hL ho hm hk hmq hmu hD, qcd_thermal_zero_momentum_gluon_propagator_l_zero_temp_landau_val pg ig k om m mq mu f0 hL ho hm hk hmq hmu hD⟩,
    fun hD => ⟨qcd_thermal_zero_momentum_gluon_dressing_t_zero_temp_landau_val pg ig k om m mq mu f0 hL ho hm hk hmq hmu hD, qcd_thermal_zero_momentum_gluon_propagator_t_zero_temp_landau_val pg ig k om m mq mu f0 hL ho hm hk hmq hmu hD⟩⟩

/-- **C109** QCD gluon at zero momentum, at finite temperature, for any list of massive quarks. -/
theorem C109_qcd_zero_momentum_config {T : Type} [Num T] [NumDom T] [NumDomLaw T] (pg : PIntegrator) (ig : Integrator) (hL : pg.Extends ig) (k : Consts ℝ) (om : T) (beta mu f0 m : ℝ) (nc : ℕ) (qs : List (ℕ × ℝ)) (ho : (toC om).re ≠ 0) (hm : m ≠ 0) (hb : 0 < beta) (hk : k.nc ≠ 0) (hqs : ∀ q ∈ qs, q.2 ≠ 0) :
    P.qcd.thermal.zero_momentum.gluon.dressing_l_inv_landau_w_field_config pg k om beta mu f0 (FieldConfig.new nc m qs) = .val (qcd.thermal.zero_momentum.gluon.dressing_l_inv_landau_w_field_config ig k om beta mu f0 (FieldConfig.new nc m qs)) ∧
    P.qcd.thermal.zero_momentum.gluon.dressing_t_inv_landau_w_field_config pg k om beta mu f0 (FieldConfig.new nc m qs) = .val (qcd.thermal.zero_momentum.gluon.dressing_t_inv_landau_w_field_config ig k om beta mu f0 (FieldConfig.new nc m qs)) ∧
    (qcd.thermal.zero_momentum.gluon.dressing_l_inv_landau_w_field_config ig k om beta mu f0 (FieldConfig.new nc m qs) ≠ 0 → P.qcd.thermal.zero_momentum.gluon.dressing_l_landau_w_field_config pg k om beta mu f0 (FieldConfig.new nc m qs) = .val (qcd.thermal.zero_momentum.gluon.dressing_l_landau_w_field_config ig k om beta mu f0 (FieldConfig.new nc m qs)) ∧
      P.qcd.thermal.zero_momentum.gluon.propagator_l_landau_w_field_config pg k om beta mu f0 (FieldConfig.new nc m qs) = .val (qcd.thermal.zero_momentum.gluon.propagator_l_landau_w_field_config ig k om beta mu f0 (FieldConfig.new nc m qs))) ∧
    (qcd.thermal.zero_momentum.gluon.dressing_t_inv_landau_w_field_config ig k om beta mu f0 (FieldConfig.new nc m qs) ≠ 0 → P.qcd.thermal.zero_momentum.gluon.dressing_t_landau_w_field_config pg k om beta mu f0 (FieldConfig.new nc m qs) = .val (qcd.thermal.zero_momentum.gluon.dressing_t_landau_w_field_config ig k om beta mu f0 (FieldConfig.new nc m qs)) ∧
      P.qcd.thermal.zero_momentum.gluon.propagator_t_landau_w_field_config pg k om beta mu f0 (FieldConfig.new nc m qs) = .val (qcd.thermal.zero_momentum.gluon.propagator_t_landau_w_field_config ig k om beta mu f0 (FieldConfig.new nc m qs))) :=
  ⟨qcd_thermal_zero_momentum_gluon_dressing_l_inv_landau_w_field_config_val pg ig k om beta mu f0 nc m qs hL ho hm hb hk hqs,
    qcd_thermal_zero_momentum_gluon_dressing_t_inv_landau_w_field_config_val pg ig k om beta mu f0 nc m qs hL ho hm hb hk hqs,
    fun hD => ⟨qcd_thermal_zero_momentum_gluon_dressing_l_landau_w_field_config_val pg ig k om beta mu f0 nc m qs hL ho hm hb hk hqs hD, qcd_thermal_zero_momentum_gluon_propagator_l_landau_w_field_config_val pg ig k om beta mu f0 nc m qs hL ho hm hb hk hqs hD⟩,
    fun hD => ⟨qcd_thermal_zero_momentum_gluon_dressing_t_landau_w_field_config_val pg ig k om beta mu f0 nc m qs hL ho hm hb hk hqs hD, qcd_thermal_zero_momentum_gluon_propagator_t_landau_w_field_config_val pg ig k om beta mu f0 nc m qs hL ho hm hb hk hqs hD⟩⟩

/-- **C109** QCD gluon at zero momentum, at zero temperature, for any list of massive quarks. -/
theorem C109_qcd_zero_momentum_config_zero_temp {T : Type} [Num T] [NumDom T] [NumDomLaw T] (pg : PIntegrator) (ig : Integrator) (hL : pg.Extends ig) (k : Consts ℝ) (om : T) (mu f0 m : ℝ) (nc : ℕ) (qs : List (ℕ × ℝ)) (ho : (toC om).re ≠ 0) (hm : m ≠ 0) (hk : k.nc ≠ 0) (hqs : ∀ q ∈ qs, q.2 ≠ 0) (hmus : ∀ q ∈ qs, |mu| ≠ |q.2|) :
    P.qcd.thermal.zero_momentum.gluon.dressing_l_inv_zero_temp_landau_w_field_config pg k om mu f0 (FieldConfig.new nc m qs) = .val (qcd.thermal.zero_momentum.gluon.dressing_l_inv_zero_temp_landau_w_field_config ig k om mu f0 (FieldConfig.new nc m qs)) ∧
    P.qcd.thermal.zero_momentum.gluon.dressing_t_inv_zero_temp_landau_w_field_config pg k om mu f0 (FieldConfig.new nc m qs) = .val (qcd.thermal.zero_momentum.gluon.dressing_t_inv_zero_temp_landau_w_field_config ig k om mu f0 (FieldConfig.new nc m qs)) ∧
    (qcd.thermal.zero_momentum.gluon.dressing_l_inv_zero_temp_landau_w_field_config ig k om mu f0 (FieldConfig.new nc m qs) ≠ 0 → P.qcd.thermal.zero_momentum.gluon.dressing_l_zero_temp_landau_w_field_config pg k om mu f0 (FieldConfig.new nc m qs) = .val (qcd.thermal.zero_momentum.gluon.dressing_l_zero_temp_landau_w_field_config ig k om mu f0 (FieldConfig.new nc m qs)) ∧
      P.qcd.thermal.zero_momentum.gluon.propagator_l_zero_temp_landau_w_field_config pg k om mu f0 (FieldConfig.new nc m qs) = .val (qcd.thermal.zero_momentum.gluon.propagator_l_zero_temp_landau_w_field_config ig k om mu f0 (FieldConfig.new nc m qs))) ∧
    (qcd.thermal.zero_momentum.gluon.dressing_t_inv_zero_temp_landau_w_field_config ig k om mu f0 (FieldConfig.new nc m qs) ≠ 0 → P.qcd.thermal.zero_momentum.gluon.dressing_t_zero_temp_landau_w_field_config pg k om mu f0 (FieldConfig.new nc m qs) = .val (qcd.thermal.zero_momentum.gluon.dressing_t_zero_temp_landau_w_field_config ig k om mu f0 (FieldConfig.new nc m qs)) ∧
      P.qcd.thermal.zero_momentum.gluon.propagator_t_zero_temp_landau_w_field_config pg k om mu f0 (FieldConfig.new nc m qs) = .val (qcd.thermal.zero_momentum.gluon.propagator_t_zero_temp_landau_w_field_config ig k om mu f0 (FieldConfig.new nc m qs))) :=
  ⟨qcd_thermal_zero_momentum_gluon_dressing_l_inv_zero_temp_landau_w_field_config_val pg ig k om mu f0 nc m qs hL ho hm hk hqs hmus,
    qcd_thermal_zero_momentum_gluon_dressing_t_inv_zero_temp_landau_w_field_config_val pg ig k om mu f0 nc m qs hL ho hm hk hqs hmus,
    fun hD => ⟨qcd_thermal_zero_momentum_gluon_dressing_l_zero_temp_landau_w_field_config_val pg ig k om mu f0 nc m qs hL ho hm hk hqs hmus hD, qcd_thermal_zero_momentum_gluon_propagator_l_zero_temp_landau_w_field_config_val pg ig k om mu f0 nc m qs hL ho hm hk hqs hmus hD⟩,
    fun hD => ⟨qcd_thermal_zero_momentum_gluon_dressing_t_zero_temp_landau_w_field_config_val pg ig k om mu f0 nc m qs hL ho hm hk hqs hmus hD, qcd_thermal_zero_momentum_gluon_propagator_t_zero_temp_landau_w_field_config_val pg ig k om mu f0 nc m qs hL ho hm hk hqs hmus hD⟩⟩

/-! Examples: three colours, real and complex frequency, one-flavour and several-flavour configurations. -/

/-- The rule with the single abscissa `1/2` and weight `1`. -/
noncomputable def midpoint : List (ℝ × ℝ) := [(1 / 2, 1)]

theorem midpoint_extends : (PIntegrator.rule midpoint).Extends (Integrator.rule midpoint) :=
  PIntegrator.rule_extends fun n h => by
    simp only [midpoint, List.mem_singleton] at h
    subst h
    norm_num

example (ig : Integrator) (h : ig.Interior) : ∃ pg : PIntegrator, pg.Extends ig := ⟨_, PIntegrator.ofIntegrator_extends h⟩
example (k : Consts ℝ) (hk : k.nc = 3) := C109_integrals _ _ midpoint_extends k (1 + Complex.I : ℂ) 2 1 (1 / 2) 5 1 (.gaussLegendre 1)
  (by norm_num [toC]) (by norm_num) (by norm_num) (by norm_num) (by omega) (by norm_num)
example (k : Consts ℝ) (hk : k.nc = 3) := C109_zero_momentum_integrals _ _ midpoint_extends k (1 : ℝ) 1 (1 / 2) 5 1 (.gaussLegendre 1)
  (by norm_num [toC]) (by norm_num) (by norm_num) (by omega) (by norm_num)
example (k : Consts ℝ) (hk : k.nc = 3) (hr : k.matsubara_reg = 1) := C109_zero_matsubara_integrals _ _ midpoint_extends k 2 1 (1 / 2) 5 1
  (.gaussLegendre 1) (by norm_num) (by norm_num) (by norm_num) (by omega) (by rw [hr]; norm_num) (by norm_num)
example (k : Consts ℝ) := C109_ym_ghost _ _ midpoint_extends k 1 2 1 5 0 (by norm_num [toC]) (by norm_num) (by norm_num) (by norm_num)
example (k : Consts ℝ) := C109_ym_gluon _ _ midpoint_extends k (1 + Complex.I : ℂ) 2 1 5 0 (by norm_num [toC]) (by norm_num) (by norm_num) (by norm_num)
example (k : Consts ℝ) (hk : k.nc = 3) := C109_qcd_gluon _ _ midpoint_extends k (1 : ℝ) 2 1 (1 / 2) 5 1 0
  (by norm_num [toC]) (by norm_num) (by norm_num) (by norm_num) (by omega) (by norm_num)
example (k : Consts ℝ) (hk : k.nc = 3) := C109_qcd_config _ _ midpoint_extends k (1 : ℝ) 2 5 1 0 1 3 [(2, 1 / 2), (1, 2 / 3)]
  (by norm_num [toC]) (by norm_num) (by norm_num) (by norm_num) (by omega) (by intro q hq; fin_cases hq <;> norm_num)
example (k : Consts ℝ) (hk : k.nc = 3) := C109_qcd_zero_momentum_config_zero_temp _ _ midpoint_extends k (1 : ℝ) 1 0 1 3 [(2, 1 / 2), (1, 2 / 3)]
  (by norm_num [toC]) (by norm_num) (by omega) (by intro q hq; fin_cases hq <;> norm_num) (by intro q hq; fin_cases hq <;> norm_num [abs_of_pos])

/-- **C109** (vacuum): at every squared momentum off the negative real axis, real or complex, the loop functions are defined. -/
theorem C109_vacuum_loops {T : Type} [Num T] [NumDom T] [NumDomLaw T] (s : T) (hs : toC s ∈ Complex.slitPlane) :
    ghost.g (PV.val s) = .val (ghost.g s) ∧ ghost.g_xi (PV.val s) = .val (ghost.g_xi s) ∧ gluon.f (PV.val s) = .val (gluon.f s) ∧
    gluon.f_xi (PV.val s) = .val (gluon.f_xi s) ∧ gluon.f_q (PV.val s) = .val (gluon.f_q s) ∧ gluon.f_q_crossed (PV.val s) = .val (gluon.f_q_crossed s) :=
  ⟨ghost_g_val hs, ghost_g_xi_val hs, gluon_f_val hs, gluon_f_xi_val hs, gluon_f_q_val hs, gluon_f_q_crossed_val hs⟩

/-- **C109** (vacuum): the dressing functions and propagators of the ghost and of the gluon without quarks. -/
theorem C109_vacuum_ym {T : Type} [Num T] [NumDom T] [NumDomLaw T] (s : T) (hs : toC s ∈ Complex.slitPlane) (f0 g0 xi : ℝ) :
    ghost.dressing_inv_landau (PV.val s) g0 = .val (ghost.dressing_inv_landau s g0) ∧
    ghost.dressing_inv (PV.val s) g0 xi = .val (ghost.dressing_inv s g0 xi) ∧
    ym.gluon.dressing_inv_landau (PV.val s) f0 = .val (ym.gluon.dressing_inv_landau s f0) ∧
    ym.gluon.dressing_inv (PV.val s) f0 xi = .val (ym.gluon.dressing_inv s f0 xi) ∧
    (ghost.dressing_inv s g0 xi ≠ 0 → ghost.dressing (PV.val s) g0 xi = .val (ghost.dressing s g0 xi) ∧
      ghost.propagator (PV.val s) g0 xi = .val (ghost.propagator s g0 xi)) ∧
    (ghost.dressing_inv_landau s g0 ≠ 0 → ghost.dressing_landau (PV.val s) g0 = .val (ghost.dressing_landau s g0) ∧
      ghost.propagator_landau (PV.val s) g0 = .val (ghost.propagator_landau s g0)) ∧
    (ym.gluon.dressing_inv s f0 xi ≠ 0 → ym.gluon.dressing (PV.val s) f0 xi = .val (ym.gluon.dressing s f0 xi) ∧
      ym.gluon.propagator (PV.val s) f0 xi = .val (ym.gluon.propagator s f0 xi)) ∧
    (ym.gluon.dressing_inv_landau s f0 ≠ 0 → ym.gluon.dressing_landau (PV.val s) f0 = .val (ym.gluon.dressing_landau s f0) ∧
      ym.gluon.propagator_landau (PV.val s) f0 = .val (ym.gluon.propagator_landau s f0)) := by
  have h0 := slit_ne hs
  refine ⟨ghost_dressing_inv_landau_val hs g0, ghost_dressing_inv_val hs g0 xi, ym_dressing_inv_landau_val hs f0, ym_dressing_inv_val hs f0 xi,
    fun h => ?_, fun h => ?_, fun h => ?_, fun h => ?_⟩ <;>
  simp (disch := assumption) only [ghost.propagator, ghost.dressing, ghost.propagator_landau, ghost.dressing_landau, ym.gluon.propagator, ym.gluon.dressing,
    ym.gluon.propagator_landau, ym.gluon.dressing_landau, ghost_dressing_inv_landau_val hs, ghost_dressing_inv_val hs, ym_dressing_inv_landau_val hs,
    ym_dressing_inv_val hs, inv_val, div_val, mul_val, and_self]

/-- **C109** (vacuum): the gluon with one quark mass, in units of the gluon mass. -/
theorem C109_vacuum_qcd {T : Type} [Num T] [NumDom T] [NumDomLaw T] (k : Consts ℝ) (s : T) (hs : toC s ∈ Complex.slitPlane) (mq f0 xi : ℝ) (hmq : mq ≠ 0) :
    qcd.gluon.dressing_inv k (PV.val s) mq f0 xi = .val (qcd.gluon.dressing_inv k s mq f0 xi) ∧
    qcd.gluon.dressing_inv_landau k (PV.val s) mq f0 = .val (qcd.gluon.dressing_inv_landau k s mq f0) ∧
    qcd.gluon.dressing_crossed_inv k (PV.val s) mq f0 xi = .val (qcd.gluon.dressing_crossed_inv k s mq f0 xi) ∧
    qcd.gluon.dressing_crossed_inv_landau k (PV.val s) mq f0 = .val (qcd.gluon.dressing_crossed_inv_landau k s mq f0) ∧
    (qcd.gluon.dressing_inv k s mq f0 xi ≠ 0 → qcd.gluon.dressing k (PV.val s) mq f0 xi = .val (qcd.gluon.dressing k s mq f0 xi) ∧
      qcd.gluon.propagator k (PV.val s) mq f0 xi = .val (qcd.gluon.propagator k s mq f0 xi)) ∧
    (qcd.gluon.dressing_inv_landau k s mq f0 ≠ 0 → qcd.gluon.dressing_landau k (PV.val s) mq f0 = .val (qcd.gluon.dressing_landau k s mq f0) ∧
      qcd.gluon.propagator_landau k (PV.val s) mq f0 = .val (qcd.gluon.propagator_landau k s mq f0)) ∧
    (qcd.gluon.dressing_crossed_inv k s mq f0 xi ≠ 0 → qcd.gluon.dressing_crossed k (PV.val s) mq f0 xi = .val (qcd.gluon.dressing_crossed k s mq f0 xi) ∧
      qcd.gluon.propagator_crossed k (PV.val s) mq f0 xi = .val (qcd.gluon.propagator_crossed k s mq f0 xi)) ∧
    (qcd.gluon.dressing_crossed_inv_landau k s mq f0 ≠ 0 →
      qcd.gluon.dressing_crossed_landau k (PV.val s) mq f0 = .val (qcd.gluon.dressing_crossed_landau k s mq f0) ∧
      qcd.gluon.propagator_crossed_landau k (PV.val s) mq f0 = .val (qcd.gluon.propagator_crossed_landau k s mq f0)) := by
  have h0 := slit_ne hs
  refine ⟨qcd_dressing_inv_val hs k hmq f0 xi, qcd_dressing_inv_landau_val hs k hmq f0, qcd_dressing_crossed_inv_val hs k hmq f0 xi,
    qcd_dressing_crossed_inv_landau_val hs k hmq f0, fun h => ?_, fun h => ?_, fun h => ?_, fun h => ?_⟩ <;>
  simp (disch := assumption) only [qcd.gluon.propagator, qcd.gluon.dressing, qcd.gluon.propagator_landau, qcd.gluon.dressing_landau,
    qcd.gluon.propagator_crossed, qcd.gluon.dressing_crossed, qcd.gluon.propagator_crossed_landau, qcd.gluon.dressing_crossed_landau,
    qcd_dressing_inv_val hs k hmq, qcd_dressing_inv_landau_val hs k hmq, qcd_dressing_crossed_inv_val hs k hmq,
    qcd_dressing_crossed_inv_landau_val hs k hmq, inv_val, div_val, and_self]

/-- **C109** (vacuum): the gluon with any list of massive quarks. -/
theorem C109_vacuum_config {T : Type} [Num T] [NumDom T] [NumDomLaw T] (k : Consts ℝ) (s : T) (hs : toC s ∈ Complex.slitPlane) (f0 xi : ℝ) (nc : ℕ) (m : ℝ)
    (qs : List (ℕ × ℝ)) (hm : m ≠ 0) (hqs : ∀ q ∈ qs, q.2 ≠ 0) :
    let c := FieldConfig.new nc m qs
    qcd.gluon.dressing_inv_w_field_config k (PV.val s) f0 xi c = .val (qcd.gluon.dressing_inv_w_field_config k s f0 xi c) ∧
    qcd.gluon.dressing_inv_landau_w_field_config k (PV.val s) f0 c = .val (qcd.gluon.dressing_inv_landau_w_field_config k s f0 c) ∧
    qcd.gluon.dressing_crossed_inv_w_field_config k (PV.val s) f0 xi c = .val (qcd.gluon.dressing_crossed_inv_w_field_config k s f0 xi c) ∧
    qcd.gluon.dressing_crossed_inv_landau_w_field_config k (PV.val s) f0 c = .val (qcd.gluon.dressing_crossed_inv_landau_w_field_config k s f0 c) ∧
    (qcd.gluon.dressing_inv_w_field_config k s f0 xi c ≠ 0 →
      qcd.gluon.dressing_w_field_config k (PV.val s) f0 xi c = .val (qcd.gluon.dressing_w_field_config k s f0 xi c) ∧
      qcd.gluon.propagator_w_field_config k (PV.val s) f0 xi c = .val (qcd.gluon.propagator_w_field_config k s f0 xi c)) ∧
    (qcd.gluon.dressing_inv_landau_w_field_config k s f0 c ≠ 0 →
      qcd.gluon.dressing_landau_w_field_config k (PV.val s) f0 c = .val (qcd.gluon.dressing_landau_w_field_config k s f0 c) ∧
      qcd.gluon.propagator_landau_w_field_config k (PV.val s) f0 c = .val (qcd.gluon.propagator_landau_w_field_config k s f0 c)) ∧
    (qcd.gluon.dressing_crossed_inv_w_field_config k s f0 xi c ≠ 0 →
      qcd.gluon.dressing_crossed_w_field_config k (PV.val s) f0 xi c = .val (qcd.gluon.dressing_crossed_w_field_config k s f0 xi c) ∧
      qcd.gluon.propagator_crossed_w_field_config k (PV.val s) f0 xi c = .val (qcd.gluon.propagator_crossed_w_field_config k s f0 xi c)) ∧
    (qcd.gluon.dressing_crossed_inv_landau_w_field_config k s f0 c ≠ 0 →
      qcd.gluon.dressing_crossed_landau_w_field_config k (PV.val s) f0 c = .val (qcd.gluon.dressing_crossed_landau_w_field_config k s f0 c) ∧
      qcd.gluon.propagator_crossed_landau_w_field_config k (PV.val s) f0 c = .val (qcd.gluon.propagator_crossed_landau_w_field_config k s f0 c)) := by
  have h0 := slit_ne hs
  refine ⟨qcd_config_inv_val hs k hm hqs f0 xi, qcd_config_inv_landau_val hs k hm hqs f0, qcd_config_crossed_inv_val hs k hm hqs f0 xi,
    qcd_config_crossed_inv_landau_val hs k hm hqs f0, fun h => ?_, fun h => ?_, fun h => ?_, fun h => ?_⟩ <;>
  simp (disch := assumption) only [qcd.gluon.propagator_w_field_config, qcd.gluon.dressing_w_field_config, qcd.gluon.propagator_landau_w_field_config,
    qcd.gluon.dressing_landau_w_field_config, qcd.gluon.propagator_crossed_w_field_config, qcd.gluon.dressing_crossed_w_field_config,
    qcd.gluon.propagator_crossed_landau_w_field_config, qcd.gluon.dressing_crossed_landau_w_field_config,
    qcd_config_inv_val hs k hm hqs, qcd_config_inv_landau_val hs k hm hqs, qcd_config_crossed_inv_val hs k hm hqs,
    qcd_config_crossed_inv_landau_val hs k hm hqs, inv_val, div_val, and_self]

example := C109_vacuum_loops (-4 + Complex.I : ℂ) (by rw [Complex.mem_slitPlane_iff]; right; norm_num [toC])
example (k : Consts ℝ) := C109_vacuum_config k (-4 + Complex.I : ℂ) (by rw [Complex.mem_slitPlane_iff]; right; norm_num [toC]) 0 0 3 1 [(2, 1 / 2), (1, 2 / 3)]
  one_ne_zero (by intro q hq; fin_cases hq <;> norm_num)

/-- The points where the ghost integrand for zero Matsubara frequency is not defined. -/
def GhostPole (p m q : ℝ) : Prop := q = p / 2 ∨ (p * p - m * m) ^ 2 = (2 * q * p) ^ 2 ∨ (p * p + m * m) ^ 2 = (2 * q * p) ^ 2

/-- **C109** Ghost at zero Matsubara frequency: defined if the integrator never reads the integrand at one of its poles. -/
theorem C109_zero_matsubara_ghost (pg : PIntegrator) (ig : Integrator) (N : Set ℝ) (hN : ∀ t ∈ N, 0 < t ∧ t < 1) (hL : pg.ReadsOnly ig N)
    (k : Consts ℝ) (p m beta g0 : ℝ) (hp : 0 < p) (hm : m ≠ 0) (hb : 0 < beta) (hpole : ∀ t ∈ N, ¬ GhostPole p m ((1 - t) / t)) :
    (∀ integral, P.ghost.thermal.zero_matsubara.self_energy_thermal_part_landau_w_method pg p m beta integral
      = .val (ghost.thermal.zero_matsubara.self_energy_thermal_part_landau_w_method ig p m beta integral)) ∧
    P.ghost.thermal.zero_matsubara.self_energy_thermal_part_landau pg k p m beta
      = .val (ghost.thermal.zero_matsubara.self_energy_thermal_part_landau ig k p m beta) ∧
    P.ym.thermal.zero_matsubara.ghost.dressing_inv_landau pg k p m beta g0 = .val (ym.thermal.zero_matsubara.ghost.dressing_inv_landau ig k p m beta g0) ∧
    (ym.thermal.zero_matsubara.ghost.dressing_inv_landau ig k p m beta g0 ≠ 0 →
      P.ym.thermal.zero_matsubara.ghost.dressing_landau pg k p m beta g0 = .val (ym.thermal.zero_matsubara.ghost.dressing_landau ig k p m beta g0) ∧
      P.ym.thermal.zero_matsubara.ghost.propagator_landau pg k p m beta g0 = .val (ym.thermal.zero_matsubara.ghost.propagator_landau ig k p m beta g0)) := by
  have h1 : ∀ integral, P.ghost.thermal.zero_matsubara.self_energy_thermal_part_landau_w_method pg p m beta integral
      = .val (ghost.thermal.zero_matsubara.self_energy_thermal_part_landau_w_method ig p m beta integral) := by
    intro integral
    refine hL _ _ _ fun t ht => ?_
    obtain ⟨h0, h1⟩ := hN t ht
    have hq : 0 < (1 - t) / t := div_pos (by linarith) h0
    have hn := hpole t ht
    simp only [GhostPole, not_or] at hn
    simp only [num_val, sub_val, div_val h0.ne', mul_val]
    rw [ghost_thermal_zero_matsubara_self_energy_thermal_part_landau_i_val _ p m beta hq hp hb hm (fun h => hn.1 (by linarith)) hn.2.1 hn.2.2, re_val,
      div_val (mul_ne_zero h0.ne' h0.ne')]
  have h2 : P.ghost.thermal.zero_matsubara.self_energy_thermal_part_landau pg k p m beta
      = .val (ghost.thermal.zero_matsubara.self_energy_thermal_part_landau ig k p m beta) := h1 _
  have hs := slit_real hp.ne' hm
  have hpp := mul_ne_zero hp.ne' hp.ne'
  have hmm := mul_ne_zero hm hm
  have h3 : P.ym.thermal.zero_matsubara.ghost.dressing_inv_landau pg k p m beta g0 = .val (ym.thermal.zero_matsubara.ghost.dressing_inv_landau ig k p m beta g0) := by
    simp (disch := assumption) only [P.ym.thermal.zero_matsubara.ghost.dressing_inv_landau, ym.thermal.zero_matsubara.ghost.dressing_inv_landau, mul_val,
      div_val, ghost_dressing_inv_landau_val hs, h2, add_val]
  refine ⟨h1, h2, h3, fun hD => ?_⟩
  simp (disch := assumption) only [P.ym.thermal.zero_matsubara.ghost.propagator_landau, P.ym.thermal.zero_matsubara.ghost.dressing_landau, h3, num_val,
    div_val, mul_val, ym.thermal.zero_matsubara.ghost.propagator_landau, ym.thermal.zero_matsubara.ghost.dressing_landau, and_self]

/-- Momentum 1 and mass 1/2 with the midpoint rule, which reads the integrand at `q = 1`. -/
example (k : Consts ℝ) := C109_zero_matsubara_ghost _ _ _ (by rintro t ⟨w, h⟩; simp only [midpoint, List.mem_singleton, Prod.mk.injEq] at h; rw [h.1]; norm_num)
  (PIntegrator.rule_reads midpoint).1 k 1 (1 / 2) 5 0 one_pos (by norm_num) (by norm_num)
  (by rintro t ⟨w, h⟩; simp only [midpoint, List.mem_singleton, Prod.mk.injEq] at h; rw [h.1, GhostPole]; norm_num)

/-- **C109** (a failure) Ghost at zero Matsubara frequency: if the integrator reads the integrand at a point whose loop momentum is a
pole, the self-energy, the dressing function and the propagator are not defined. -/
theorem C109_zero_matsubara_ghost_undefined (pg : PIntegrator) (t : ℝ) (h0 : 0 < t) (h1 : t < 1) (hR : pg.Reads t)
    (k : Consts ℝ) (p m beta g0 : ℝ) (hp : 0 < p) (hm : m ≠ 0) (hb : 0 < beta) (hpole : GhostPole p m ((1 - t) / t)) :
    (∀ integral, P.ghost.thermal.zero_matsubara.self_energy_thermal_part_landau_w_method pg p m beta integral = .undef) ∧
    P.ghost.thermal.zero_matsubara.self_energy_thermal_part_landau pg k p m beta = .undef ∧
    P.ym.thermal.zero_matsubara.ghost.dressing_inv_landau pg k p m beta g0 = .undef ∧
    P.ym.thermal.zero_matsubara.ghost.dressing_landau pg k p m beta g0 = .undef ∧
    P.ym.thermal.zero_matsubara.ghost.propagator_landau pg k p m beta g0 = .undef := by
  have hq : 0 < (1 - t) / t := div_pos (by linarith) h0
  have e1 : ∀ integral, P.ghost.thermal.zero_matsubara.self_energy_thermal_part_landau_w_method pg p m beta integral = .undef := by
    intro integral
    refine hR _ _ ?_
    simp only [num_val, sub_val, div_val h0.ne', mul_val]
    rw [((C108_zero_matsubara_poles _ p m beta hq hp hm hb).1).2 hpole]
    rfl
  have e2 : P.ghost.thermal.zero_matsubara.self_energy_thermal_part_landau pg k p m beta = .undef := e1 _
  have e3 : P.ym.thermal.zero_matsubara.ghost.dressing_inv_landau pg k p m beta g0 = .undef := by
    simp only [P.ym.thermal.zero_matsubara.ghost.dressing_inv_landau, e2, mul_undef, undef_div, add_undef]
  have e4 : P.ym.thermal.zero_matsubara.ghost.dressing_landau pg k p m beta g0 = .undef := by
    rw [P.ym.thermal.zero_matsubara.ghost.dressing_landau, e3, div_undef]
  exact ⟨e1, e2, e3, e4, by rw [P.ym.thermal.zero_matsubara.ghost.propagator_landau, e4, undef_div]⟩

/-- **C109** (a failure) In particular, with a rule that reads the integrand in the middle of the interval (every Gauss-Kronrod rule, and
every Gauss-Legendre rule with an odd number of points), the ghost propagator at zero Matsubara frequency is not defined at `p = 2`,
for all masses and temperatures. -/
theorem C109_zero_matsubara_ghost_at_two (pg : PIntegrator) (hR : pg.Reads (1 / 2)) (k : Consts ℝ) (m beta g0 : ℝ) (hm : m ≠ 0) (hb : 0 < beta) :
    P.ym.thermal.zero_matsubara.ghost.propagator_landau pg k 2 m beta g0 = .undef :=
  (C109_zero_matsubara_ghost_undefined pg (1 / 2) (by norm_num) (by norm_num) hR k 2 m beta g0 two_pos hm hb (.inl (by norm_num))).2.2.2.2

example (k : Consts ℝ) := C109_zero_matsubara_ghost_at_two (PIntegrator.rule midpoint) ((PIntegrator.rule_reads midpoint).2 _ 1 (by simp [midpoint])) k 1 5 0
  one_ne_zero (by norm_num)

/-- **C109** (a failure) At zero temperature, with the chemical potential exactly at the quark mass, the interval of integration is empty
and the integrand is read at `q = 0`, where it divides by zero: the quark parts at general momentum and at zero Matsubara frequency are
not defined, although the guard of the functions returns zero for every smaller chemical potential. -/
theorem C109_threshold_undefined {T : Type} [Num T] [NumDom T] (pg : PIntegrator) (hE : pg.ReadsEnd) (k : Consts ℝ) (om : T) (p mq mu : ℝ)
    (hmu : |mu| = |mq|) (integral : Integral ℝ) :
    P.gluon.thermal.polarization_quark_l_thermal_part_zero_temp_landau_w_method pg k om p mq mu integral = .undef ∧
    P.gluon.thermal.polarization_quark_t_thermal_part_zero_temp_landau_w_method pg k om p mq mu integral = .undef ∧
    P.gluon.thermal.zero_matsubara.polarization_quark_l_thermal_part_zero_temp_landau_w_method pg k p mq mu integral = .undef ∧
    P.gluon.thermal.zero_matsubara.polarization_quark_t_thermal_part_zero_temp_landau_w_method pg k p mq mu integral = .undef := by
  have hf : P.fermi_momentum (.val mq) (.val mu) = .val 0 := by
    rw [fermi_momentum_val hmu.ge, fermi_momentum]
    have : mu * mu + -(mq * mq) = 0 := by
      have := congrArg (fun x => x ^ 2) hmu
      simp only [sq_abs] at this
      nlinarith
    rw [this, Real.sqrt_zero]
  have hl : ¬ |mu| < |mq| := by rw [hmu]; exact lt_irrefl _
  refine ⟨?_, ?_, ?_, ?_⟩
  · rw [P.gluon.thermal.polarization_quark_l_thermal_part_zero_temp_landau_w_method, if_neg hl, hf, bind_val]
    refine hE.cplx _ _ _ ?_
    simp only [P.gluon.thermal.polarization_quark_l_thermal_part_zero_temp_landau_i, ofR_val, ofR_zero, num_val, mul_val, mul_zero, zero_mul, inv_zero_val,
      toC_undef, undef_mul, sub_undef, mul_undef]
  · rw [P.gluon.thermal.polarization_quark_t_thermal_part_zero_temp_landau_w_method, if_neg hl, hf, bind_val]
    refine hE.cplx _ _ _ ?_
    simp only [P.gluon.thermal.polarization_quark_t_thermal_part_zero_temp_landau_i, ofR_val, ofR_zero, num_val, mul_val, mul_zero, zero_mul, div_zero_val,
      sub_undef, mul_undef]
  · rw [P.gluon.thermal.zero_matsubara.polarization_quark_l_thermal_part_zero_temp_landau_w_method, if_neg hl, hf, bind_val]
    refine hE.real _ _ _ ?_
    simp only [P.gluon.thermal.polarization_quark_l_thermal_part_zero_temp_landau_i, ofR_val, ofR_zero, num_val, mul_val, mul_zero, zero_mul, inv_zero_val,
      toC_undef, undef_mul, sub_undef, mul_undef]
    rfl
  · rw [P.gluon.thermal.zero_matsubara.polarization_quark_t_thermal_part_zero_temp_landau_w_method, if_neg hl, hf, bind_val]
    refine hE.real _ _ _ ?_
    simp only [P.gluon.thermal.polarization_quark_t_thermal_part_zero_temp_landau_i, ofR_val, ofR_zero, num_val, mul_val, mul_zero, zero_mul, div_zero_val,
      sub_undef, mul_undef]
    rfl

example (k : Consts ℝ) (integral : Integral ℝ) := C109_threshold_undefined (PIntegrator.rule midpoint) (PIntegrator.rule_readsEnd (by simp [midpoint])) k (1 : ℝ) 2
  (1 / 2) (1 / 2) rfl integral

/-- **C109** (a failure) Massless quarks: the vacuum part divides by the quark mass, so the gluon functions are not defined at `mq = 0`. -/
theorem C109_massless_quark_undefined {T : Type} [Num T] [NumDom T] (pg : PIntegrator) (k : Consts ℝ) (om : T) (p m beta mu f0 : ℝ) (hm : m ≠ 0) :
    P.qcd.thermal.gluon.dressing_l_inv_landau pg k om p m 0 beta mu f0 = .undef ∧
    P.qcd.thermal.gluon.dressing_t_inv_landau pg k om p m 0 beta mu f0 = .undef ∧
    P.qcd.thermal.gluon.propagator_l_landau pg k om p m 0 beta mu f0 = .undef ∧
    P.qcd.thermal.gluon.propagator_t_landau pg k om p m 0 beta mu f0 = .undef := by
  have e : ∀ s : PV T, qcd.gluon.dressing_inv_landau k s 0 f0 = .undef := by
    intro s
    simp only [qcd.gluon.dressing_inv_landau, gluon.f_q, mul_zero, ofR_val', ofR_zero, div_zero_val, inv_undef, undef_mul, undef_add, neg_undef, mul_undef, undef_sub,
      sub_undef, undef_div, add_undef]
  refine ⟨?_, ?_, ?_, ?_⟩ <;>
  simp only [P.qcd.thermal.gluon.propagator_l_landau, P.qcd.thermal.gluon.propagator_t_landau, P.qcd.thermal.gluon.dressing_l_landau,
    P.qcd.thermal.gluon.dressing_t_landau, P.qcd.thermal.gluon.dressing_l_inv_landau, P.qcd.thermal.gluon.dressing_t_inv_landau, div_val hm, bind_val, zero_div, e,
    toC_undef, undef_sub, inv_undef, mul_undef]

example (k : Consts ℝ) := C109_massless_quark_undefined (PIntegrator.rule midpoint) k (1 : ℝ) 2 1 5 0 0 one_ne_zero

end Qcd
