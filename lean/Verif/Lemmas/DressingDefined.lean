import Verif.Model.DressingPartial
import Verif.Lemmas.VacuumPartial

/-! # The thermal integrals, dressing functions and propagators are defined

One lemma for each definition of `Model/DressingPartial.lean`, in the same order, except for the ghost at zero Matsubara frequency. -/

namespace Qcd.Def
open consts (Consts Integral)
open PV
open Complex (slitPlane)

theorem re_val (z : ℂ) : PV.re (val z) = val z.re := rfl
theorem bind_val {T S : Type} (x : T) (f : T → PV S) : PV.bind (val x) f = f x := rfl
theorem gluon_new (nc : ℕ) (m : ℝ) (qs : List (ℕ × ℝ)) : (FieldConfig.new nc m qs).gluon = m := rfl

theorem unit_facts {t : ℝ} (h0 : min 0 1 < t) (h1 : t < max 0 1) : 0 < (1 - t) / t ∧ t ≠ 0 := by
  rw [min_eq_left zero_le_one] at h0
  rw [max_eq_right zero_le_one] at h1
  exact ⟨div_pos (by linarith) h0, h0.ne'⟩

theorem fermi_momentum_val {mq mu : ℝ} (h : |mq| ≤ |mu|) : P.fermi_momentum (val mq) (val mu) = val (fermi_momentum mq mu) := by
  have h2 : 0 ≤ mu * mu + -(mq * mq) := by
    have := sq_le_sq.2 h
    nlinarith
  simp only [P.fermi_momentum, mul_val, neg_val, add_val]
  exact sqrt_val_real h2

theorem fermi_pos {mq mu : ℝ} (h : |mq| ≤ |mu|) (hne : |mu| ≠ |mq|) : 0 < fermi_momentum mq mu := by
  apply Real.sqrt_pos.2
  have := sq_lt_sq.2 (lt_of_le_of_ne h hne.symm)
  nlinarith

theorem config_mu {nc : ℕ} {m mu : ℝ} {qs : List (ℕ × ℝ)} (h : ∀ q ∈ qs, |mu| ≠ |q.2|) : ∀ qi ∈ (FieldConfig.new nc m qs).quarks_internal, |mu| ≠ |qi.mq| := by
  intro q hqi
  simp only [FieldConfig.new, List.mem_map] at hqi
  obtain ⟨p, hp, rfl⟩ := hqi
  exact h p hp

theorem fermi_facts {mq mu q : ℝ} (h0 : min 0 (fermi_momentum mq mu) < q) (_ : q < max 0 (fermi_momentum mq mu)) : 0 < q := by
  have hf : 0 ≤ fermi_momentum mq mu := Real.sqrt_nonneg _
  rwa [min_eq_left hf] at h0

theorem sum_map_val {T A : Type} [Num T] (l : List A) (G : A → T) : (l.map fun a => val (G a)).sum = val (l.map G).sum := by
  induction l with
  | nil => rfl
  | cons a l ih => simp only [List.map_cons, List.sum_cons, ih, add_val]

theorem sum_val_congr {T A : Type} [Num T] (l : List A) (F : A → PV T) (G : A → T) (h : ∀ a ∈ l, F a = val (G a)) :
    (l.map F).sum = val (l.map G).sum := by
  rw [← sum_map_val, List.map_congr_left h]

theorem slit_om {w : ℂ} (hw : w.re ≠ 0) {x : ℝ} (hx : 0 ≤ x) : w * w + (x : ℂ) ∈ slitPlane := by
  rw [Complex.mem_slitPlane_iff]
  simp only [Complex.add_re, Complex.mul_re, Complex.ofReal_re, Complex.add_im, Complex.mul_im, Complex.ofReal_im, add_zero]
  by_cases h : w.im = 0
  · left
    rw [h]
    nlinarith [mul_self_pos.2 hw]
  · right
    intro h'
    have : w.re * w.im = 0 := by linarith
    rcases mul_eq_zero.1 this with h'' | h''
    · exact hw h''
    · exact h h''

section
variable {T : Type} [Num T] {om : T} (ho : (toC om).re ≠ 0) (p : ℝ) {m : ℝ} (hm : m ≠ 0)

include hm in
theorem slit_div_sq {x : T} (h : toC x ∈ slitPlane) : toC (x / (ofR (m * m) : T)) ∈ slitPlane := by
  rw [show ∀ x y : T, toC (x / y) = toC x / toC y from map_div₀ (Num.toC : T →+* ℂ), toC_ofR, div_eq_mul_inv, ← Complex.ofReal_inv]
  exact slit_mul h (inv_pos.2 (mul_self_pos.2 hm))

include ho hm
theorem slit_sum : toC ((om * om + (ofR (p * p) : T)) / (ofR (m * m) : T)) ∈ slitPlane :=
  slit_div_sq hm (by rw [toC_add', toC_mul', toC_ofR]; exact slit_om ho (mul_self_nonneg p))

theorem slit_sq : toC (om * om / (ofR (m * m) : T)) ∈ slitPlane :=
  slit_div_sq hm (by rw [toC_mul']; simpa using slit_om ho le_rfl)

theorem slit_C : toC ((toC (om * om) + toC (p * p)) / (ofR (m * m) : ℂ)) ∈ slitPlane :=
  slit_div_sq hm (by rw [toC_mul']; exact slit_om ho (mul_self_nonneg p))
end

theorem slit_real {p m : ℝ} (hp : p ≠ 0) (hm : m ≠ 0) : toC (p * p / (m * m)) ∈ slitPlane :=
  Complex.ofReal_mem_slitPlane.2 (div_pos (mul_self_pos.2 hp) (mul_self_pos.2 hm))

theorem ghost_thermal_self_energy_thermal_part_landau_w_method_val (pg : PIntegrator) (ig : Integrator) {T : Type} [Num T] [NumDom T] (om : T) (p : ℝ) (m : ℝ) (beta : ℝ) (integral : Integral ℝ) (hL : pg.Extends ig) (ho : (toC om).re ≠ 0) (hp : p ≠ 0) (hm : m ≠ 0) (hb : 0 < beta) :
    P.ghost.thermal.self_energy_thermal_part_landau_w_method pg om p m beta integral = val (ghost.thermal.self_energy_thermal_part_landau_w_method ig om p m beta integral) := by
  rw [P.ghost.thermal.self_energy_thermal_part_landau_w_method, ghost.thermal.self_energy_thermal_part_landau_w_method]
  refine hL.cplx _ _ 0 1 _ zero_ne_one fun t h0 h1 => ?_
  obtain ⟨hq, ht⟩ := unit_facts h0 h1
  simp only [num_val, sub_val, div_val ht, mul_val, ofR_val]
  rw [ghost_thermal_self_energy_thermal_part_landau_i_val _ _ _ _ _ hq ho hp hb hm, div_val (ofR_ne_zero (mul_ne_zero ht ht))]

theorem ghost_thermal_self_energy_thermal_part_landau_val (pg : PIntegrator) (ig : Integrator) {T : Type} [Num T] [NumDom T] (k : Consts ℝ) (om : T) (p : ℝ) (m : ℝ) (beta : ℝ) (hL : pg.Extends ig) (ho : (toC om).re ≠ 0) (hp : p ≠ 0) (hm : m ≠ 0) (hb : 0 < beta) :
    P.ghost.thermal.self_energy_thermal_part_landau pg k om p m beta = val (ghost.thermal.self_energy_thermal_part_landau ig k om p m beta) := by
  rw [P.ghost.thermal.self_energy_thermal_part_landau, ghost.thermal.self_energy_thermal_part_landau]
  exact ghost_thermal_self_energy_thermal_part_landau_w_method_val _ _ _ _ _ _ _ hL ho hp hm hb

theorem ghost_thermal_zero_momentum_self_energy_thermal_part_landau_w_method_val (pg : PIntegrator) (ig : Integrator) {T : Type} [Num T] [NumDom T] (om : T) (m : ℝ) (beta : ℝ) (integral : Integral ℝ) (hL : pg.Extends ig) (ho : (toC om).re ≠ 0) (hm : m ≠ 0) (hb : 0 < beta) :
    P.ghost.thermal.zero_momentum.self_energy_thermal_part_landau_w_method pg om m beta integral = val (ghost.thermal.zero_momentum.self_energy_thermal_part_landau_w_method ig om m beta integral) := by
  rw [P.ghost.thermal.zero_momentum.self_energy_thermal_part_landau_w_method, ghost.thermal.zero_momentum.self_energy_thermal_part_landau_w_method]
  refine hL.cplx _ _ 0 1 _ zero_ne_one fun t h0 h1 => ?_
  obtain ⟨hq, ht⟩ := unit_facts h0 h1
  simp only [num_val, sub_val, div_val ht, mul_val, ofR_val]
  rw [ghost_thermal_zero_momentum_self_energy_thermal_part_landau_i_val _ _ _ _ hq ho hb hm, div_val (ofR_ne_zero (mul_ne_zero ht ht))]

theorem ghost_thermal_zero_momentum_self_energy_thermal_part_landau_val (pg : PIntegrator) (ig : Integrator) {T : Type} [Num T] [NumDom T] (k : Consts ℝ) (om : T) (m : ℝ) (beta : ℝ) (hL : pg.Extends ig) (ho : (toC om).re ≠ 0) (hm : m ≠ 0) (hb : 0 < beta) :
    P.ghost.thermal.zero_momentum.self_energy_thermal_part_landau pg k om m beta = val (ghost.thermal.zero_momentum.self_energy_thermal_part_landau ig k om m beta) := by
  rw [P.ghost.thermal.zero_momentum.self_energy_thermal_part_landau, ghost.thermal.zero_momentum.self_energy_thermal_part_landau]
  exact ghost_thermal_zero_momentum_self_energy_thermal_part_landau_w_method_val _ _ _ _ _ _ hL ho hm hb

theorem gluon_thermal_polarization_glue_l_thermal_part_landau_w_method_val (pg : PIntegrator) (ig : Integrator) {T : Type} [Num T] [NumDom T] (om : T) (p : ℝ) (m : ℝ) (beta : ℝ) (integral : Integral ℝ) (hL : pg.Extends ig) (ho : (toC om).re ≠ 0) (hp : p ≠ 0) (hm : m ≠ 0) (hb : 0 < beta) :
    P.gluon.thermal.polarization_glue_l_thermal_part_landau_w_method pg om p m beta integral = val (gluon.thermal.polarization_glue_l_thermal_part_landau_w_method ig om p m beta integral) := by
  rw [P.gluon.thermal.polarization_glue_l_thermal_part_landau_w_method, gluon.thermal.polarization_glue_l_thermal_part_landau_w_method]
  refine hL.cplx _ _ 0 1 _ zero_ne_one fun t h0 h1 => ?_
  obtain ⟨hq, ht⟩ := unit_facts h0 h1
  simp only [num_val, sub_val, div_val ht, mul_val, ofR_val]
  rw [gluon_thermal_polarization_glue_l_thermal_part_landau_i_val _ _ _ _ _ hq ho hp hb hm, div_val (ofR_ne_zero (mul_ne_zero ht ht))]

theorem gluon_thermal_polarization_glue_t_thermal_part_landau_w_method_val (pg : PIntegrator) (ig : Integrator) {T : Type} [Num T] [NumDom T] (om : T) (p : ℝ) (m : ℝ) (beta : ℝ) (integral : Integral ℝ) (hL : pg.Extends ig) (ho : (toC om).re ≠ 0) (hp : p ≠ 0) (hm : m ≠ 0) (hb : 0 < beta) :
    P.gluon.thermal.polarization_glue_t_thermal_part_landau_w_method pg om p m beta integral = val (gluon.thermal.polarization_glue_t_thermal_part_landau_w_method ig om p m beta integral) := by
  rw [P.gluon.thermal.polarization_glue_t_thermal_part_landau_w_method, gluon.thermal.polarization_glue_t_thermal_part_landau_w_method]
  refine hL.cplx _ _ 0 1 _ zero_ne_one fun t h0 h1 => ?_
  obtain ⟨hq, ht⟩ := unit_facts h0 h1
  simp only [num_val, sub_val, div_val ht, mul_val, ofR_val]
  rw [gluon_thermal_polarization_glue_t_thermal_part_landau_i_val _ _ _ _ _ hq ho hp hb hm, div_val (ofR_ne_zero (mul_ne_zero ht ht))]

theorem gluon_thermal_polarization_quark_l_thermal_part_landau_w_method_val (pg : PIntegrator) (ig : Integrator) {T : Type} [Num T] [NumDom T] (k : Consts ℝ) (om : T) (p : ℝ) (mq : ℝ) (beta : ℝ) (mu : ℝ) (integral : Integral ℝ) (hL : pg.Extends ig) (ho : (toC om).re ≠ 0) (hp : p ≠ 0) (hb : 0 < beta) (hk : k.nc ≠ 0) :
    P.gluon.thermal.polarization_quark_l_thermal_part_landau_w_method pg k om p mq beta mu integral = val (gluon.thermal.polarization_quark_l_thermal_part_landau_w_method ig k om p mq beta mu integral) := by
  rw [P.gluon.thermal.polarization_quark_l_thermal_part_landau_w_method, gluon.thermal.polarization_quark_l_thermal_part_landau_w_method]
  refine hL.cplx _ _ 0 1 _ zero_ne_one fun t h0 h1 => ?_
  obtain ⟨hq, ht⟩ := unit_facts h0 h1
  simp only [num_val, sub_val, div_val ht, mul_val, ofR_val]
  rw [gluon_thermal_polarization_quark_l_thermal_part_landau_i_val _ _ _ _ _ _ _ hq ho hp hb hk, div_val (ofR_ne_zero (mul_ne_zero ht ht))]

theorem gluon_thermal_polarization_quark_t_thermal_part_landau_w_method_val (pg : PIntegrator) (ig : Integrator) {T : Type} [Num T] [NumDom T] (k : Consts ℝ) (om : T) (p : ℝ) (mq : ℝ) (beta : ℝ) (mu : ℝ) (integral : Integral ℝ) (hL : pg.Extends ig) (ho : (toC om).re ≠ 0) (hp : p ≠ 0) (hb : 0 < beta) (hk : k.nc ≠ 0) :
    P.gluon.thermal.polarization_quark_t_thermal_part_landau_w_method pg k om p mq beta mu integral = val (gluon.thermal.polarization_quark_t_thermal_part_landau_w_method ig k om p mq beta mu integral) := by
  rw [P.gluon.thermal.polarization_quark_t_thermal_part_landau_w_method, gluon.thermal.polarization_quark_t_thermal_part_landau_w_method]
  refine hL.cplx _ _ 0 1 _ zero_ne_one fun t h0 h1 => ?_
  obtain ⟨hq, ht⟩ := unit_facts h0 h1
  simp only [num_val, sub_val, div_val ht, mul_val, ofR_val]
  rw [gluon_thermal_polarization_quark_t_thermal_part_landau_i_val _ _ _ _ _ _ _ hq ho hp hb hk, div_val (ofR_ne_zero (mul_ne_zero ht ht))]

theorem gluon_thermal_polarization_quark_l_thermal_part_zero_temp_landau_w_method_val (pg : PIntegrator) (ig : Integrator) {T : Type} [Num T] [NumDom T] (k : Consts ℝ) (om : T) (p : ℝ) (mq : ℝ) (mu : ℝ) (integral : Integral ℝ) (hL : pg.Extends ig) (ho : (toC om).re ≠ 0) (hp : p ≠ 0) (hk : k.nc ≠ 0) (hmu : |mu| ≠ |mq|) :
    P.gluon.thermal.polarization_quark_l_thermal_part_zero_temp_landau_w_method pg k om p mq mu integral = val (gluon.thermal.polarization_quark_l_thermal_part_zero_temp_landau_w_method ig k om p mq mu integral) := by
  rw [P.gluon.thermal.polarization_quark_l_thermal_part_zero_temp_landau_w_method, gluon.thermal.polarization_quark_l_thermal_part_zero_temp_landau_w_method]
  split_ifs with h
  · rfl
  rw [fermi_momentum_val (not_lt.1 h), bind_val]
  refine hL.cplx _ _ 0 _ _ (fermi_pos (not_lt.1 h) hmu).ne fun q h0 h1 => ?_
  have hq := fermi_facts h0 h1
  rw [gluon_thermal_polarization_quark_l_thermal_part_zero_temp_landau_i_val _ _ _ _ _ _ hq ho hp hk]

theorem gluon_thermal_polarization_quark_t_thermal_part_zero_temp_landau_w_method_val (pg : PIntegrator) (ig : Integrator) {T : Type} [Num T] [NumDom T] (k : Consts ℝ) (om : T) (p : ℝ) (mq : ℝ) (mu : ℝ) (integral : Integral ℝ) (hL : pg.Extends ig) (ho : (toC om).re ≠ 0) (hp : p ≠ 0) (hk : k.nc ≠ 0) (hmu : |mu| ≠ |mq|) :
    P.gluon.thermal.polarization_quark_t_thermal_part_zero_temp_landau_w_method pg k om p mq mu integral = val (gluon.thermal.polarization_quark_t_thermal_part_zero_temp_landau_w_method ig k om p mq mu integral) := by
  rw [P.gluon.thermal.polarization_quark_t_thermal_part_zero_temp_landau_w_method, gluon.thermal.polarization_quark_t_thermal_part_zero_temp_landau_w_method]
  split_ifs with h
  · rfl
  rw [fermi_momentum_val (not_lt.1 h), bind_val]
  refine hL.cplx _ _ 0 _ _ (fermi_pos (not_lt.1 h) hmu).ne fun q h0 h1 => ?_
  have hq := fermi_facts h0 h1
  rw [gluon_thermal_polarization_quark_t_thermal_part_zero_temp_landau_i_val _ _ _ _ _ _ hq ho hp hk]

theorem gluon_thermal_polarization_glue_l_thermal_part_landau_val (pg : PIntegrator) (ig : Integrator) {T : Type} [Num T] [NumDom T] (k : Consts ℝ) (om : T) (p : ℝ) (m : ℝ) (beta : ℝ) (hL : pg.Extends ig) (ho : (toC om).re ≠ 0) (hp : p ≠ 0) (hm : m ≠ 0) (hb : 0 < beta) :
    P.gluon.thermal.polarization_glue_l_thermal_part_landau pg k om p m beta = val (gluon.thermal.polarization_glue_l_thermal_part_landau ig k om p m beta) := by
  rw [P.gluon.thermal.polarization_glue_l_thermal_part_landau, gluon.thermal.polarization_glue_l_thermal_part_landau]
  exact gluon_thermal_polarization_glue_l_thermal_part_landau_w_method_val _ _ _ _ _ _ _ hL ho hp hm hb

theorem gluon_thermal_polarization_glue_t_thermal_part_landau_val (pg : PIntegrator) (ig : Integrator) {T : Type} [Num T] [NumDom T] (k : Consts ℝ) (om : T) (p : ℝ) (m : ℝ) (beta : ℝ) (hL : pg.Extends ig) (ho : (toC om).re ≠ 0) (hp : p ≠ 0) (hm : m ≠ 0) (hb : 0 < beta) :
    P.gluon.thermal.polarization_glue_t_thermal_part_landau pg k om p m beta = val (gluon.thermal.polarization_glue_t_thermal_part_landau ig k om p m beta) := by
  rw [P.gluon.thermal.polarization_glue_t_thermal_part_landau, gluon.thermal.polarization_glue_t_thermal_part_landau]
  exact gluon_thermal_polarization_glue_t_thermal_part_landau_w_method_val _ _ _ _ _ _ _ hL ho hp hm hb

theorem gluon_thermal_polarization_quark_l_thermal_part_landau_val (pg : PIntegrator) (ig : Integrator) {T : Type} [Num T] [NumDom T] (k : Consts ℝ) (om : T) (p : ℝ) (mq : ℝ) (beta : ℝ) (mu : ℝ) (hL : pg.Extends ig) (ho : (toC om).re ≠ 0) (hp : p ≠ 0) (hb : 0 < beta) (hk : k.nc ≠ 0) :
    P.gluon.thermal.polarization_quark_l_thermal_part_landau pg k om p mq beta mu = val (gluon.thermal.polarization_quark_l_thermal_part_landau ig k om p mq beta mu) := by
  rw [P.gluon.thermal.polarization_quark_l_thermal_part_landau, gluon.thermal.polarization_quark_l_thermal_part_landau]
  exact gluon_thermal_polarization_quark_l_thermal_part_landau_w_method_val _ _ _ _ _ _ _ _ _ hL ho hp hb hk

theorem gluon_thermal_polarization_quark_t_thermal_part_landau_val (pg : PIntegrator) (ig : Integrator) {T : Type} [Num T] [NumDom T] (k : Consts ℝ) (om : T) (p : ℝ) (mq : ℝ) (beta : ℝ) (mu : ℝ) (hL : pg.Extends ig) (ho : (toC om).re ≠ 0) (hp : p ≠ 0) (hb : 0 < beta) (hk : k.nc ≠ 0) :
    P.gluon.thermal.polarization_quark_t_thermal_part_landau pg k om p mq beta mu = val (gluon.thermal.polarization_quark_t_thermal_part_landau ig k om p mq beta mu) := by
  rw [P.gluon.thermal.polarization_quark_t_thermal_part_landau, gluon.thermal.polarization_quark_t_thermal_part_landau]
  exact gluon_thermal_polarization_quark_t_thermal_part_landau_w_method_val _ _ _ _ _ _ _ _ _ hL ho hp hb hk

theorem gluon_thermal_polarization_quark_l_thermal_part_zero_temp_landau_val (pg : PIntegrator) (ig : Integrator) {T : Type} [Num T] [NumDom T] (k : Consts ℝ) (om : T) (p : ℝ) (mq : ℝ) (mu : ℝ) (hL : pg.Extends ig) (ho : (toC om).re ≠ 0) (hp : p ≠ 0) (hk : k.nc ≠ 0) (hmu : |mu| ≠ |mq|) :
    P.gluon.thermal.polarization_quark_l_thermal_part_zero_temp_landau pg k om p mq mu = val (gluon.thermal.polarization_quark_l_thermal_part_zero_temp_landau ig k om p mq mu) := by
  rw [P.gluon.thermal.polarization_quark_l_thermal_part_zero_temp_landau, gluon.thermal.polarization_quark_l_thermal_part_zero_temp_landau]
  exact gluon_thermal_polarization_quark_l_thermal_part_zero_temp_landau_w_method_val _ _ _ _ _ _ _ _ hL ho hp hk hmu

theorem gluon_thermal_polarization_quark_t_thermal_part_zero_temp_landau_val (pg : PIntegrator) (ig : Integrator) {T : Type} [Num T] [NumDom T] (k : Consts ℝ) (om : T) (p : ℝ) (mq : ℝ) (mu : ℝ) (hL : pg.Extends ig) (ho : (toC om).re ≠ 0) (hp : p ≠ 0) (hk : k.nc ≠ 0) (hmu : |mu| ≠ |mq|) :
    P.gluon.thermal.polarization_quark_t_thermal_part_zero_temp_landau pg k om p mq mu = val (gluon.thermal.polarization_quark_t_thermal_part_zero_temp_landau ig k om p mq mu) := by
  rw [P.gluon.thermal.polarization_quark_t_thermal_part_zero_temp_landau, gluon.thermal.polarization_quark_t_thermal_part_zero_temp_landau]
  exact gluon_thermal_polarization_quark_t_thermal_part_zero_temp_landau_w_method_val _ _ _ _ _ _ _ _ hL ho hp hk hmu

theorem gluon_thermal_zero_matsubara_polarization_glue_l_thermal_part_landau_w_method_val (pg : PIntegrator) (ig : Integrator) (k : Consts ℝ) (p : ℝ) (m : ℝ) (beta : ℝ) (integral : Integral ℝ) (hL : pg.Extends ig) (hp : p ≠ 0) (hm : m ≠ 0) (hb : 0 < beta) (hr : k.matsubara_reg ≠ 0) :
    P.gluon.thermal.zero_matsubara.polarization_glue_l_thermal_part_landau_w_method pg k p m beta integral = val (gluon.thermal.zero_matsubara.polarization_glue_l_thermal_part_landau_w_method ig k p m beta integral) := by
  have ho' : (toC k.matsubara_reg).re ≠ 0 := hr
  rw [P.gluon.thermal.zero_matsubara.polarization_glue_l_thermal_part_landau_w_method, gluon.thermal.zero_matsubara.polarization_glue_l_thermal_part_landau_w_method]
  refine hL.real _ _ 0 1 _ zero_ne_one fun t h0 h1 => ?_
  obtain ⟨hq, ht⟩ := unit_facts h0 h1
  simp only [num_val, sub_val, div_val ht, mul_val, ofR_val]
  rw [gluon_thermal_polarization_glue_l_thermal_part_landau_i_val _ _ _ _ _ hq ho' hp hb hm, re_val, div_val (mul_ne_zero ht ht)]

theorem gluon_thermal_zero_matsubara_polarization_glue_t_thermal_part_landau_w_method_val (pg : PIntegrator) (ig : Integrator) (k : Consts ℝ) (p : ℝ) (m : ℝ) (beta : ℝ) (integral : Integral ℝ) (hL : pg.Extends ig) (hp : p ≠ 0) (hm : m ≠ 0) (hb : 0 < beta) (hr : k.matsubara_reg ≠ 0) :
    P.gluon.thermal.zero_matsubara.polarization_glue_t_thermal_part_landau_w_method pg k p m beta integral = val (gluon.thermal.zero_matsubara.polarization_glue_t_thermal_part_landau_w_method ig k p m beta integral) := by
  have ho' : (toC k.matsubara_reg).re ≠ 0 := hr
  rw [P.gluon.thermal.zero_matsubara.polarization_glue_t_thermal_part_landau_w_method, gluon.thermal.zero_matsubara.polarization_glue_t_thermal_part_landau_w_method]
  refine hL.real _ _ 0 1 _ zero_ne_one fun t h0 h1 => ?_
  obtain ⟨hq, ht⟩ := unit_facts h0 h1
  simp only [num_val, sub_val, div_val ht, mul_val, ofR_val]
  rw [gluon_thermal_polarization_glue_t_thermal_part_landau_i_val _ _ _ _ _ hq ho' hp hb hm, re_val, div_val (mul_ne_zero ht ht)]

theorem gluon_thermal_zero_matsubara_polarization_quark_l_thermal_part_landau_w_method_val (pg : PIntegrator) (ig : Integrator) (k : Consts ℝ) (p : ℝ) (mq : ℝ) (beta : ℝ) (mu : ℝ) (integral : Integral ℝ) (hL : pg.Extends ig) (hp : p ≠ 0) (hb : 0 < beta) (hk : k.nc ≠ 0) (hr : k.matsubara_reg ≠ 0) :
    P.gluon.thermal.zero_matsubara.polarization_quark_l_thermal_part_landau_w_method pg k p mq beta mu integral = val (gluon.thermal.zero_matsubara.polarization_quark_l_thermal_part_landau_w_method ig k p mq beta mu integral) := by
  have ho' : (toC k.matsubara_reg).re ≠ 0 := hr
  rw [P.gluon.thermal.zero_matsubara.polarization_quark_l_thermal_part_landau_w_method, gluon.thermal.zero_matsubara.polarization_quark_l_thermal_part_landau_w_method]
  refine hL.real _ _ 0 1 _ zero_ne_one fun t h0 h1 => ?_
  obtain ⟨hq, ht⟩ := unit_facts h0 h1
  simp only [num_val, sub_val, div_val ht, mul_val, ofR_val]
  rw [gluon_thermal_polarization_quark_l_thermal_part_landau_i_val _ _ _ _ _ _ _ hq ho' hp hb hk, re_val, div_val (mul_ne_zero ht ht)]

theorem gluon_thermal_zero_matsubara_polarization_quark_t_thermal_part_landau_w_method_val (pg : PIntegrator) (ig : Integrator) (k : Consts ℝ) (p : ℝ) (mq : ℝ) (beta : ℝ) (mu : ℝ) (integral : Integral ℝ) (hL : pg.Extends ig) (hp : p ≠ 0) (hb : 0 < beta) (hk : k.nc ≠ 0) (hr : k.matsubara_reg ≠ 0) :
    P.gluon.thermal.zero_matsubara.polarization_quark_t_thermal_part_landau_w_method pg k p mq beta mu integral = val (gluon.thermal.zero_matsubara.polarization_quark_t_thermal_part_landau_w_method ig k p mq beta mu integral) := by
  have ho' : (toC k.matsubara_reg).re ≠ 0 := hr
  rw [P.gluon.thermal.zero_matsubara.polarization_quark_t_thermal_part_landau_w_method, gluon.thermal.zero_matsubara.polarization_quark_t_thermal_part_landau_w_method]
  refine hL.real _ _ 0 1 _ zero_ne_one fun t h0 h1 => ?_
  obtain ⟨hq, ht⟩ := unit_facts h0 h1
  simp only [num_val, sub_val, div_val ht, mul_val, ofR_val]
  rw [gluon_thermal_polarization_quark_t_thermal_part_landau_i_val _ _ _ _ _ _ _ hq ho' hp hb hk, re_val, div_val (mul_ne_zero ht ht)]

theorem gluon_thermal_zero_matsubara_polarization_quark_l_thermal_part_zero_temp_landau_w_method_val (pg : PIntegrator) (ig : Integrator) (k : Consts ℝ) (p : ℝ) (mq : ℝ) (mu : ℝ) (integral : Integral ℝ) (hL : pg.Extends ig) (hp : p ≠ 0) (hk : k.nc ≠ 0) (hr : k.matsubara_reg ≠ 0) (hmu : |mu| ≠ |mq|) :
    P.gluon.thermal.zero_matsubara.polarization_quark_l_thermal_part_zero_temp_landau_w_method pg k p mq mu integral = val (gluon.thermal.zero_matsubara.polarization_quark_l_thermal_part_zero_temp_landau_w_method ig k p mq mu integral) := by
  have ho' : (toC k.matsubara_reg).re ≠ 0 := hr
  rw [P.gluon.thermal.zero_matsubara.polarization_quark_l_thermal_part_zero_temp_landau_w_method, gluon.thermal.zero_matsubara.polarization_quark_l_thermal_part_zero_temp_landau_w_method]
  split_ifs with h
  · rfl
  rw [fermi_momentum_val (not_lt.1 h), bind_val]
  refine hL.real _ _ 0 _ _ (fermi_pos (not_lt.1 h) hmu).ne fun q h0 h1 => ?_
  have hq := fermi_facts h0 h1
  rw [gluon_thermal_polarization_quark_l_thermal_part_zero_temp_landau_i_val _ _ _ _ _ _ hq ho' hp hk, re_val]

theorem gluon_thermal_zero_matsubara_polarization_quark_t_thermal_part_zero_temp_landau_w_method_val (pg : PIntegrator) (ig : Integrator) (k : Consts ℝ) (p : ℝ) (mq : ℝ) (mu : ℝ) (integral : Integral ℝ) (hL : pg.Extends ig) (hp : p ≠ 0) (hk : k.nc ≠ 0) (hr : k.matsubara_reg ≠ 0) (hmu : |mu| ≠ |mq|) :
    P.gluon.thermal.zero_matsubara.polarization_quark_t_thermal_part_zero_temp_landau_w_method pg k p mq mu integral = val (gluon.thermal.zero_matsubara.polarization_quark_t_thermal_part_zero_temp_landau_w_method ig k p mq mu integral) := by
  have ho' : (toC k.matsubara_reg).re ≠ 0 := hr
  rw [P.gluon.thermal.zero_matsubara.polarization_quark_t_thermal_part_zero_temp_landau_w_method, gluon.thermal.zero_matsubara.polarization_quark_t_thermal_part_zero_temp_landau_w_method]
  split_ifs with h
  · rfl
  rw [fermi_momentum_val (not_lt.1 h), bind_val]
  refine hL.real _ _ 0 _ _ (fermi_pos (not_lt.1 h) hmu).ne fun q h0 h1 => ?_
  have hq := fermi_facts h0 h1
  rw [gluon_thermal_polarization_quark_t_thermal_part_zero_temp_landau_i_val _ _ _ _ _ _ hq ho' hp hk, re_val]

theorem gluon_thermal_zero_matsubara_polarization_glue_l_thermal_part_landau_val (pg : PIntegrator) (ig : Integrator) (k : Consts ℝ) (p : ℝ) (m : ℝ) (beta : ℝ) (hL : pg.Extends ig) (hp : p ≠ 0) (hm : m ≠ 0) (hb : 0 < beta) (hr : k.matsubara_reg ≠ 0) :
    P.gluon.thermal.zero_matsubara.polarization_glue_l_thermal_part_landau pg k p m beta = val (gluon.thermal.zero_matsubara.polarization_glue_l_thermal_part_landau ig k p m beta) := by
  rw [P.gluon.thermal.zero_matsubara.polarization_glue_l_thermal_part_landau, gluon.thermal.zero_matsubara.polarization_glue_l_thermal_part_landau]
  exact gluon_thermal_zero_matsubara_polarization_glue_l_thermal_part_landau_w_method_val _ _ _ _ _ _ _ hL hp hm hb hr

theorem gluon_thermal_zero_matsubara_polarization_glue_t_thermal_part_landau_val (pg : PIntegrator) (ig : Integrator) (k : Consts ℝ) (p : ℝ) (m : ℝ) (beta : ℝ) (hL : pg.Extends ig) (hp : p ≠ 0) (hm : m ≠ 0) (hb : 0 < beta) (hr : k.matsubara_reg ≠ 0) :
    P.gluon.thermal.zero_matsubara.polarization_glue_t_thermal_part_landau pg k p m beta = val (gluon.thermal.zero_matsubara.polarization_glue_t_thermal_part_landau ig k p m beta) := by
  rw [P.gluon.thermal.zero_matsubara.polarization_glue_t_thermal_part_landau, gluon.thermal.zero_matsubara.polarization_glue_t_thermal_part_landau]
  exact gluon_thermal_zero_matsubara_polarization_glue_t_thermal_part_landau_w_method_val _ _ _ _ _ _ _ hL hp hm hb hr

theorem gluon_thermal_zero_matsubara_polarization_quark_l_thermal_part_landau_val (pg : PIntegrator) (ig : Integrator) (k : Consts ℝ) (p : ℝ) (mq : ℝ) (beta : ℝ) (mu : ℝ) (hL : pg.Extends ig) (hp : p ≠ 0) (hb : 0 < beta) (hk : k.nc ≠ 0) (hr : k.matsubara_reg ≠ 0) :
    P.gluon.thermal.zero_matsubara.polarization_quark_l_thermal_part_landau pg k p mq beta mu = val (gluon.thermal.zero_matsubara.polarization_quark_l_thermal_part_landau ig k p mq beta mu) := by
  rw [P.gluon.thermal.zero_matsubara.polarization_quark_l_thermal_part_landau, gluon.thermal.zero_matsubara.polarization_quark_l_thermal_part_landau]
  exact gluon_thermal_zero_matsubara_polarization_quark_l_thermal_part_landau_w_method_val _ _ _ _ _ _ _ _ hL hp hb hk hr

theorem gluon_thermal_zero_matsubara_polarization_quark_t_thermal_part_landau_val (pg : PIntegrator) (ig : Integrator) (k : Consts ℝ) (p : ℝ) (mq : ℝ) (beta : ℝ) (mu : ℝ) (hL : pg.Extends ig) (hp : p ≠ 0) (hb : 0 < beta) (hk : k.nc ≠ 0) (hr : k.matsubara_reg ≠ 0) :
    P.gluon.thermal.zero_matsubara.polarization_quark_t_thermal_part_landau pg k p mq beta mu = val (gluon.thermal.zero_matsubara.polarization_quark_t_thermal_part_landau ig k p mq beta mu) := by
  rw [P.gluon.thermal.zero_matsubara.polarization_quark_t_thermal_part_landau, gluon.thermal.zero_matsubara.polarization_quark_t_thermal_part_landau]
  exact gluon_thermal_zero_matsubara_polarization_quark_t_thermal_part_landau_w_method_val _ _ _ _ _ _ _ _ hL hp hb hk hr

theorem gluon_thermal_zero_matsubara_polarization_quark_l_thermal_part_zero_temp_landau_val (pg : PIntegrator) (ig : Integrator) (k : Consts ℝ) (p : ℝ) (mq : ℝ) (mu : ℝ) (hL : pg.Extends ig) (hp : p ≠ 0) (hk : k.nc ≠ 0) (hr : k.matsubara_reg ≠ 0) (hmu : |mu| ≠ |mq|) :
    P.gluon.thermal.zero_matsubara.polarization_quark_l_thermal_part_zero_temp_landau pg k p mq mu = val (gluon.thermal.zero_matsubara.polarization_quark_l_thermal_part_zero_temp_landau ig k p mq mu) := by
  rw [P.gluon.thermal.zero_matsubara.polarization_quark_l_thermal_part_zero_temp_landau, gluon.thermal.zero_matsubara.polarization_quark_l_thermal_part_zero_temp_landau]
  exact gluon_thermal_zero_matsubara_polarization_quark_l_thermal_part_zero_temp_landau_w_method_val _ _ _ _ _ _ _ hL hp hk hr hmu

theorem gluon_thermal_zero_matsubara_polarization_quark_t_thermal_part_zero_temp_landau_val (pg : PIntegrator) (ig : Integrator) (k : Consts ℝ) (p : ℝ) (mq : ℝ) (mu : ℝ) (hL : pg.Extends ig) (hp : p ≠ 0) (hk : k.nc ≠ 0) (hr : k.matsubara_reg ≠ 0) (hmu : |mu| ≠ |mq|) :
    P.gluon.thermal.zero_matsubara.polarization_quark_t_thermal_part_zero_temp_landau pg k p mq mu = val (gluon.thermal.zero_matsubara.polarization_quark_t_thermal_part_zero_temp_landau ig k p mq mu) := by
  rw [P.gluon.thermal.zero_matsubara.polarization_quark_t_thermal_part_zero_temp_landau, gluon.thermal.zero_matsubara.polarization_quark_t_thermal_part_zero_temp_landau]
  exact gluon_thermal_zero_matsubara_polarization_quark_t_thermal_part_zero_temp_landau_w_method_val _ _ _ _ _ _ _ hL hp hk hr hmu

theorem gluon_thermal_zero_momentum_polarization_glue_l_thermal_part_landau_w_method_val (pg : PIntegrator) (ig : Integrator) {T : Type} [Num T] [NumDom T] (om : T) (m : ℝ) (beta : ℝ) (integral : Integral ℝ) (hL : pg.Extends ig) (ho : (toC om).re ≠ 0) (hm : m ≠ 0) (hb : 0 < beta) :
    P.gluon.thermal.zero_momentum.polarization_glue_l_thermal_part_landau_w_method pg om m beta integral = val (gluon.thermal.zero_momentum.polarization_glue_l_thermal_part_landau_w_method ig om m beta integral) := by
  rw [P.gluon.thermal.zero_momentum.polarization_glue_l_thermal_part_landau_w_method, gluon.thermal.zero_momentum.polarization_glue_l_thermal_part_landau_w_method]
  refine hL.cplx _ _ 0 1 _ zero_ne_one fun t h0 h1 => ?_
  obtain ⟨hq, ht⟩ := unit_facts h0 h1
  simp only [num_val, sub_val, div_val ht, mul_val, ofR_val]
  rw [gluon_thermal_zero_momentum_polarization_glue_l_thermal_part_landau_i_val _ _ _ _ hq ho hb hm, div_val (ofR_ne_zero (mul_ne_zero ht ht))]

theorem gluon_thermal_zero_momentum_polarization_glue_t_thermal_part_landau_w_method_val (pg : PIntegrator) (ig : Integrator) {T : Type} [Num T] [NumDom T] (om : T) (m : ℝ) (beta : ℝ) (integral : Integral ℝ) (hL : pg.Extends ig) (ho : (toC om).re ≠ 0) (hm : m ≠ 0) (hb : 0 < beta) :
    P.gluon.thermal.zero_momentum.polarization_glue_t_thermal_part_landau_w_method pg om m beta integral = val (gluon.thermal.zero_momentum.polarization_glue_t_thermal_part_landau_w_method ig om m beta integral) := by
  rw [P.gluon.thermal.zero_momentum.polarization_glue_t_thermal_part_landau_w_method, gluon.thermal.zero_momentum.polarization_glue_t_thermal_part_landau_w_method]
  refine hL.cplx _ _ 0 1 _ zero_ne_one fun t h0 h1 => ?_
  obtain ⟨hq, ht⟩ := unit_facts h0 h1
  simp only [num_val, sub_val, div_val ht, mul_val, ofR_val]
  rw [gluon_thermal_zero_momentum_polarization_glue_t_thermal_part_landau_i_val _ _ _ _ hq ho hb hm, div_val (ofR_ne_zero (mul_ne_zero ht ht))]

theorem gluon_thermal_zero_momentum_polarization_quark_l_thermal_part_landau_w_method_val (pg : PIntegrator) (ig : Integrator) {T : Type} [Num T] [NumDom T] (k : Consts ℝ) (om : T) (mq : ℝ) (beta : ℝ) (mu : ℝ) (integral : Integral ℝ) (hL : pg.Extends ig) (ho : (toC om).re ≠ 0) (hb : 0 < beta) (hk : k.nc ≠ 0) :
    P.gluon.thermal.zero_momentum.polarization_quark_l_thermal_part_landau_w_method pg k om mq beta mu integral = val (gluon.thermal.zero_momentum.polarization_quark_l_thermal_part_landau_w_method ig k om mq beta mu integral) := by
  rw [P.gluon.thermal.zero_momentum.polarization_quark_l_thermal_part_landau_w_method, gluon.thermal.zero_momentum.polarization_quark_l_thermal_part_landau_w_method]
  refine hL.cplx _ _ 0 1 _ zero_ne_one fun t h0 h1 => ?_
  obtain ⟨hq, ht⟩ := unit_facts h0 h1
  simp only [num_val, sub_val, div_val ht, mul_val, ofR_val]
  rw [gluon_thermal_zero_momentum_polarization_quark_l_thermal_part_landau_i_val _ _ _ _ _ _ hq ho hb hk, toC_val, div_val (ofR_ne_zero (mul_ne_zero ht ht))]

theorem gluon_thermal_zero_momentum_polarization_quark_t_thermal_part_landau_w_method_val (pg : PIntegrator) (ig : Integrator) {T : Type} [Num T] [NumDom T] (k : Consts ℝ) (om : T) (mq : ℝ) (beta : ℝ) (mu : ℝ) (integral : Integral ℝ) (hL : pg.Extends ig) (ho : (toC om).re ≠ 0) (hb : 0 < beta) (hk : k.nc ≠ 0) :
    P.gluon.thermal.zero_momentum.polarization_quark_t_thermal_part_landau_w_method pg k om mq beta mu integral = val (gluon.thermal.zero_momentum.polarization_quark_t_thermal_part_landau_w_method ig k om mq beta mu integral) := by
  rw [P.gluon.thermal.zero_momentum.polarization_quark_t_thermal_part_landau_w_method, gluon.thermal.zero_momentum.polarization_quark_t_thermal_part_landau_w_method]
  refine hL.cplx _ _ 0 1 _ zero_ne_one fun t h0 h1 => ?_
  obtain ⟨hq, ht⟩ := unit_facts h0 h1
  simp only [num_val, sub_val, div_val ht, mul_val, ofR_val]
  rw [gluon_thermal_zero_momentum_polarization_quark_t_thermal_part_landau_i_val _ _ _ _ _ _ hq ho hb hk, toC_val, div_val (ofR_ne_zero (mul_ne_zero ht ht))]

theorem gluon_thermal_zero_momentum_polarization_quark_l_thermal_part_zero_temp_landau_w_method_val (pg : PIntegrator) (ig : Integrator) {T : Type} [Num T] [NumDom T] (k : Consts ℝ) (om : T) (mq : ℝ) (mu : ℝ) (integral : Integral ℝ) (hL : pg.Extends ig) (ho : (toC om).re ≠ 0) (hk : k.nc ≠ 0) (hmu : |mu| ≠ |mq|) :
    P.gluon.thermal.zero_momentum.polarization_quark_l_thermal_part_zero_temp_landau_w_method pg k om mq mu integral = val (gluon.thermal.zero_momentum.polarization_quark_l_thermal_part_zero_temp_landau_w_method ig k om mq mu integral) := by
  rw [P.gluon.thermal.zero_momentum.polarization_quark_l_thermal_part_zero_temp_landau_w_method, gluon.thermal.zero_momentum.polarization_quark_l_thermal_part_zero_temp_landau_w_method]
  split_ifs with h
  · rfl
  rw [fermi_momentum_val (not_lt.1 h), bind_val]
  refine hL.cplx _ _ 0 _ _ (fermi_pos (not_lt.1 h) hmu).ne fun q h0 h1 => ?_
  have hq := fermi_facts h0 h1
  rw [gluon_thermal_zero_momentum_polarization_quark_l_thermal_part_zero_temp_landau_i_val _ _ _ _ _ hq ho hk, toC_val]

theorem gluon_thermal_zero_momentum_polarization_quark_t_thermal_part_zero_temp_landau_w_method_val (pg : PIntegrator) (ig : Integrator) {T : Type} [Num T] [NumDom T] (k : Consts ℝ) (om : T) (mq : ℝ) (mu : ℝ) (integral : Integral ℝ) (hL : pg.Extends ig) (ho : (toC om).re ≠ 0) (hk : k.nc ≠ 0) (hmu : |mu| ≠ |mq|) :
    P.gluon.thermal.zero_momentum.polarization_quark_t_thermal_part_zero_temp_landau_w_method pg k om mq mu integral = val (gluon.thermal.zero_momentum.polarization_quark_t_thermal_part_zero_temp_landau_w_method ig k om mq mu integral) := by
  rw [P.gluon.thermal.zero_momentum.polarization_quark_t_thermal_part_zero_temp_landau_w_method, gluon.thermal.zero_momentum.polarization_quark_t_thermal_part_zero_temp_landau_w_method]
  split_ifs with h
  · rfl
  rw [fermi_momentum_val (not_lt.1 h), bind_val]
  refine hL.cplx _ _ 0 _ _ (fermi_pos (not_lt.1 h) hmu).ne fun q h0 h1 => ?_
  have hq := fermi_facts h0 h1
  rw [gluon_thermal_zero_momentum_polarization_quark_t_thermal_part_zero_temp_landau_i_val _ _ _ _ _ hq ho hk, toC_val]

theorem gluon_thermal_zero_momentum_polarization_glue_l_thermal_part_landau_val (pg : PIntegrator) (ig : Integrator) {T : Type} [Num T] [NumDom T] (k : Consts ℝ) (om : T) (m : ℝ) (beta : ℝ) (hL : pg.Extends ig) (ho : (toC om).re ≠ 0) (hm : m ≠ 0) (hb : 0 < beta) :
    P.gluon.thermal.zero_momentum.polarization_glue_l_thermal_part_landau pg k om m beta = val (gluon.thermal.zero_momentum.polarization_glue_l_thermal_part_landau ig k om m beta) := by
  rw [P.gluon.thermal.zero_momentum.polarization_glue_l_thermal_part_landau, gluon.thermal.zero_momentum.polarization_glue_l_thermal_part_landau]
  exact gluon_thermal_zero_momentum_polarization_glue_l_thermal_part_landau_w_method_val _ _ _ _ _ _ hL ho hm hb

theorem gluon_thermal_zero_momentum_polarization_glue_t_thermal_part_landau_val (pg : PIntegrator) (ig : Integrator) {T : Type} [Num T] [NumDom T] (k : Consts ℝ) (om : T) (m : ℝ) (beta : ℝ) (hL : pg.Extends ig) (ho : (toC om).re ≠ 0) (hm : m ≠ 0) (hb : 0 < beta) :
    P.gluon.thermal.zero_momentum.polarization_glue_t_thermal_part_landau pg k om m beta = val (gluon.thermal.zero_momentum.polarization_glue_t_thermal_part_landau ig k om m beta) := by
  rw [P.gluon.thermal.zero_momentum.polarization_glue_t_thermal_part_landau, gluon.thermal.zero_momentum.polarization_glue_t_thermal_part_landau]
  exact gluon_thermal_zero_momentum_polarization_glue_t_thermal_part_landau_w_method_val _ _ _ _ _ _ hL ho hm hb

theorem gluon_thermal_zero_momentum_polarization_quark_l_thermal_part_landau_val (pg : PIntegrator) (ig : Integrator) {T : Type} [Num T] [NumDom T] (k : Consts ℝ) (om : T) (mq : ℝ) (beta : ℝ) (mu : ℝ) (hL : pg.Extends ig) (ho : (toC om).re ≠ 0) (hb : 0 < beta) (hk : k.nc ≠ 0) :
    P.gluon.thermal.zero_momentum.polarization_quark_l_thermal_part_landau pg k om mq beta mu = val (gluon.thermal.zero_momentum.polarization_quark_l_thermal_part_landau ig k om mq beta mu) := by
  rw [P.gluon.thermal.zero_momentum.polarization_quark_l_thermal_part_landau, gluon.thermal.zero_momentum.polarization_quark_l_thermal_part_landau]
  exact gluon_thermal_zero_momentum_polarization_quark_l_thermal_part_landau_w_method_val _ _ _ _ _ _ _ _ hL ho hb hk

theorem gluon_thermal_zero_momentum_polarization_quark_t_thermal_part_landau_val (pg : PIntegrator) (ig : Integrator) {T : Type} [Num T] [NumDom T] (k : Consts ℝ) (om : T) (mq : ℝ) (beta : ℝ) (mu : ℝ) (hL : pg.Extends ig) (ho : (toC om).re ≠ 0) (hb : 0 < beta) (hk : k.nc ≠ 0) :
    P.gluon.thermal.zero_momentum.polarization_quark_t_thermal_part_landau pg k om mq beta mu = val (gluon.thermal.zero_momentum.polarization_quark_t_thermal_part_landau ig k om mq beta mu) := by
  rw [P.gluon.thermal.zero_momentum.polarization_quark_t_thermal_part_landau, gluon.thermal.zero_momentum.polarization_quark_t_thermal_part_landau]
  exact gluon_thermal_zero_momentum_polarization_quark_t_thermal_part_landau_w_method_val _ _ _ _ _ _ _ _ hL ho hb hk

theorem gluon_thermal_zero_momentum_polarization_quark_l_thermal_part_zero_temp_landau_val (pg : PIntegrator) (ig : Integrator) {T : Type} [Num T] [NumDom T] (k : Consts ℝ) (om : T) (mq : ℝ) (mu : ℝ) (hL : pg.Extends ig) (ho : (toC om).re ≠ 0) (hk : k.nc ≠ 0) (hmu : |mu| ≠ |mq|) :
    P.gluon.thermal.zero_momentum.polarization_quark_l_thermal_part_zero_temp_landau pg k om mq mu = val (gluon.thermal.zero_momentum.polarization_quark_l_thermal_part_zero_temp_landau ig k om mq mu) := by
  rw [P.gluon.thermal.zero_momentum.polarization_quark_l_thermal_part_zero_temp_landau, gluon.thermal.zero_momentum.polarization_quark_l_thermal_part_zero_temp_landau]
  exact gluon_thermal_zero_momentum_polarization_quark_l_thermal_part_zero_temp_landau_w_method_val _ _ _ _ _ _ _ hL ho hk hmu

theorem gluon_thermal_zero_momentum_polarization_quark_t_thermal_part_zero_temp_landau_val (pg : PIntegrator) (ig : Integrator) {T : Type} [Num T] [NumDom T] (k : Consts ℝ) (om : T) (mq : ℝ) (mu : ℝ) (hL : pg.Extends ig) (ho : (toC om).re ≠ 0) (hk : k.nc ≠ 0) (hmu : |mu| ≠ |mq|) :
    P.gluon.thermal.zero_momentum.polarization_quark_t_thermal_part_zero_temp_landau pg k om mq mu = val (gluon.thermal.zero_momentum.polarization_quark_t_thermal_part_zero_temp_landau ig k om mq mu) := by
  rw [P.gluon.thermal.zero_momentum.polarization_quark_t_thermal_part_zero_temp_landau, gluon.thermal.zero_momentum.polarization_quark_t_thermal_part_zero_temp_landau]
  exact gluon_thermal_zero_momentum_polarization_quark_t_thermal_part_zero_temp_landau_w_method_val _ _ _ _ _ _ _ hL ho hk hmu

theorem ym_thermal_ghost_dressing_inv_landau_val (pg : PIntegrator) (ig : Integrator) {T : Type} [Num T] [NumDom T] [NumDomLaw T] (k : Consts ℝ) (om : T) (p : ℝ) (m : ℝ) (beta : ℝ) (g0 : ℝ) (hL : pg.Extends ig) (ho : (toC om).re ≠ 0) (hp : p ≠ 0) (hm : m ≠ 0) (hb : 0 < beta) :
    P.ym.thermal.ghost.dressing_inv_landau pg k om p m beta g0 = val (ym.thermal.ghost.dressing_inv_landau ig k om p m beta g0) := by
  have hs := slit_sum (om := om) ho p hm
  have h1 := sum_ne_T ho p
  have h2 : (ofR (m * m) : T) ≠ 0 := ofR_ne_zero (mul_ne_zero hm hm)
  simp (disch := assumption) only [P.ym.thermal.ghost.dressing_inv_landau, ym.thermal.ghost.dressing_inv_landau, num_val, ofR_val, mul_val, add_val, sub_val, div_val, inv_val, toC_val, bind_val, ghost_dressing_inv_landau_val hs, ghost_thermal_self_energy_thermal_part_landau_val pg ig _ _ _ _ _ hL ho hp hm hb]

theorem ym_thermal_ghost_dressing_landau_val (pg : PIntegrator) (ig : Integrator) (k : Consts ℝ) (om : ℝ) (p : ℝ) (m : ℝ) (beta : ℝ) (g0 : ℝ) (hL : pg.Extends ig) (ho : (toC om).re ≠ 0) (hp : p ≠ 0) (hm : m ≠ 0) (hb : 0 < beta) (hD : ym.thermal.ghost.dressing_inv_landau ig k om p m beta g0 ≠ 0) :
    P.ym.thermal.ghost.dressing_landau pg k om p m beta g0 = val (ym.thermal.ghost.dressing_landau ig k om p m beta g0) := by
  rw [P.ym.thermal.ghost.dressing_landau, ym.thermal.ghost.dressing_landau, ym_thermal_ghost_dressing_inv_landau_val _ _ k om p m beta g0 hL ho hp hm hb]
  exact inv_val hD

theorem ym_thermal_ghost_propagator_landau_val (pg : PIntegrator) (ig : Integrator) (k : Consts ℝ) (om : ℝ) (p : ℝ) (m : ℝ) (beta : ℝ) (g0 : ℝ) (hL : pg.Extends ig) (ho : (toC om).re ≠ 0) (hp : p ≠ 0) (hm : m ≠ 0) (hb : 0 < beta) (hD : ym.thermal.ghost.dressing_inv_landau ig k om p m beta g0 ≠ 0) :
    P.ym.thermal.ghost.propagator_landau pg k om p m beta g0 = val (ym.thermal.ghost.propagator_landau ig k om p m beta g0) := by
  rw [P.ym.thermal.ghost.propagator_landau, ym.thermal.ghost.propagator_landau, ym_thermal_ghost_dressing_landau_val _ _ k om p m beta g0 hL ho hp hm hb hD]
  have h1 := sum_ne_T (T := ℝ) ho p
  try simp only [ofR_real] at h1
  simp (disch := assumption) only [mul_val, add_val, ofR_val, ofR_real, toC_val, inv_val, div_val]

theorem ym_thermal_gluon_dressing_l_inv_landau_val (pg : PIntegrator) (ig : Integrator) {T : Type} [Num T] [NumDom T] [NumDomLaw T] (k : Consts ℝ) (om : T) (p : ℝ) (m : ℝ) (beta : ℝ) (f0 : ℝ) (hL : pg.Extends ig) (ho : (toC om).re ≠ 0) (hp : p ≠ 0) (hm : m ≠ 0) (hb : 0 < beta) :
    P.ym.thermal.gluon.dressing_l_inv_landau pg k om p m beta f0 = val (ym.thermal.gluon.dressing_l_inv_landau ig k om p m beta f0) := by
  have hs := slit_sum (om := om) ho p hm
  have h1 := sum_ne_T ho p
  have h2 : (ofR (m * m) : T) ≠ 0 := ofR_ne_zero (mul_ne_zero hm hm)
  simp (disch := assumption) only [P.ym.thermal.gluon.dressing_l_inv_landau, ym.thermal.gluon.dressing_l_inv_landau, num_val, ofR_val, mul_val, add_val, sub_val, div_val, inv_val, toC_val, bind_val, ym_dressing_inv_landau_val hs, gluon_thermal_polarization_glue_l_thermal_part_landau_val pg ig _ _ _ _ _ hL ho hp hm hb]

theorem ym_thermal_gluon_dressing_t_inv_landau_val (pg : PIntegrator) (ig : Integrator) {T : Type} [Num T] [NumDom T] [NumDomLaw T] (k : Consts ℝ) (om : T) (p : ℝ) (m : ℝ) (beta : ℝ) (f0 : ℝ) (hL : pg.Extends ig) (ho : (toC om).re ≠ 0) (hp : p ≠ 0) (hm : m ≠ 0) (hb : 0 < beta) :
    P.ym.thermal.gluon.dressing_t_inv_landau pg k om p m beta f0 = val (ym.thermal.gluon.dressing_t_inv_landau ig k om p m beta f0) := by
  have hs := slit_sum (om := om) ho p hm
  have h1 := sum_ne_T ho p
  have h2 : (ofR (m * m) : T) ≠ 0 := ofR_ne_zero (mul_ne_zero hm hm)
  simp (disch := assumption) only [P.ym.thermal.gluon.dressing_t_inv_landau, ym.thermal.gluon.dressing_t_inv_landau, num_val, ofR_val, mul_val, add_val, sub_val, div_val, inv_val, toC_val, bind_val, ym_dressing_inv_landau_val hs, gluon_thermal_polarization_glue_t_thermal_part_landau_val pg ig _ _ _ _ _ hL ho hp hm hb]

theorem ym_thermal_gluon_dressing_l_landau_val (pg : PIntegrator) (ig : Integrator) {T : Type} [Num T] [NumDom T] [NumDomLaw T] (k : Consts ℝ) (om : T) (p : ℝ) (m : ℝ) (beta : ℝ) (f0 : ℝ) (hL : pg.Extends ig) (ho : (toC om).re ≠ 0) (hp : p ≠ 0) (hm : m ≠ 0) (hb : 0 < beta) (hD : ym.thermal.gluon.dressing_l_inv_landau ig k om p m beta f0 ≠ 0) :
    P.ym.thermal.gluon.dressing_l_landau pg k om p m beta f0 = val (ym.thermal.gluon.dressing_l_landau ig k om p m beta f0) := by
  rw [P.ym.thermal.gluon.dressing_l_landau, ym.thermal.gluon.dressing_l_landau, ym_thermal_gluon_dressing_l_inv_landau_val _ _ k om p m beta f0 hL ho hp hm hb]
  exact inv_val hD

theorem ym_thermal_gluon_dressing_t_landau_val (pg : PIntegrator) (ig : Integrator) {T : Type} [Num T] [NumDom T] [NumDomLaw T] (k : Consts ℝ) (om : T) (p : ℝ) (m : ℝ) (beta : ℝ) (f0 : ℝ) (hL : pg.Extends ig) (ho : (toC om).re ≠ 0) (hp : p ≠ 0) (hm : m ≠ 0) (hb : 0 < beta) (hD : ym.thermal.gluon.dressing_t_inv_landau ig k om p m beta f0 ≠ 0) :
    P.ym.thermal.gluon.dressing_t_landau pg k om p m beta f0 = val (ym.thermal.gluon.dressing_t_landau ig k om p m beta f0) := by
  rw [P.ym.thermal.gluon.dressing_t_landau, ym.thermal.gluon.dressing_t_landau, ym_thermal_gluon_dressing_t_inv_landau_val _ _ k om p m beta f0 hL ho hp hm hb]
  exact inv_val hD

theorem ym_thermal_gluon_propagator_l_landau_val (pg : PIntegrator) (ig : Integrator) {T : Type} [Num T] [NumDom T] [NumDomLaw T] (k : Consts ℝ) (om : T) (p : ℝ) (m : ℝ) (beta : ℝ) (f0 : ℝ) (hL : pg.Extends ig) (ho : (toC om).re ≠ 0) (hp : p ≠ 0) (hm : m ≠ 0) (hb : 0 < beta) (hD : ym.thermal.gluon.dressing_l_inv_landau ig k om p m beta f0 ≠ 0) :
    P.ym.thermal.gluon.propagator_l_landau pg k om p m beta f0 = val (ym.thermal.gluon.propagator_l_landau ig k om p m beta f0) := by
  rw [P.ym.thermal.gluon.propagator_l_landau, ym.thermal.gluon.propagator_l_landau, ym_thermal_gluon_dressing_l_landau_val _ _ k om p m beta f0 hL ho hp hm hb hD]
  have h1 := sum_ne_T ho p
  try simp only [ofR_real] at h1
  simp (disch := assumption) only [mul_val, add_val, ofR_val, ofR_real, toC_val, inv_val, div_val]

theorem ym_thermal_gluon_propagator_t_landau_val (pg : PIntegrator) (ig : Integrator) {T : Type} [Num T] [NumDom T] [NumDomLaw T] (k : Consts ℝ) (om : T) (p : ℝ) (m : ℝ) (beta : ℝ) (f0 : ℝ) (hL : pg.Extends ig) (ho : (toC om).re ≠ 0) (hp : p ≠ 0) (hm : m ≠ 0) (hb : 0 < beta) (hD : ym.thermal.gluon.dressing_t_inv_landau ig k om p m beta f0 ≠ 0) :
    P.ym.thermal.gluon.propagator_t_landau pg k om p m beta f0 = val (ym.thermal.gluon.propagator_t_landau ig k om p m beta f0) := by
  rw [P.ym.thermal.gluon.propagator_t_landau, ym.thermal.gluon.propagator_t_landau, ym_thermal_gluon_dressing_t_landau_val _ _ k om p m beta f0 hL ho hp hm hb hD]
  have h1 := sum_ne_T ho p
  try simp only [ofR_real] at h1
  simp (disch := assumption) only [mul_val, add_val, ofR_val, ofR_real, toC_val, inv_val, div_val]

theorem ym_thermal_zero_matsubara_gluon_dressing_l_inv_landau_val (pg : PIntegrator) (ig : Integrator) (k : Consts ℝ) (p : ℝ) (m : ℝ) (beta : ℝ) (f0 : ℝ) (hL : pg.Extends ig) (hp : p ≠ 0) (hm : m ≠ 0) (hb : 0 < beta) (hr : k.matsubara_reg ≠ 0) :
    P.ym.thermal.zero_matsubara.gluon.dressing_l_inv_landau pg k p m beta f0 = val (ym.thermal.zero_matsubara.gluon.dressing_l_inv_landau ig k p m beta f0) := by
  have hs := slit_real hp hm
  have h1 := mul_ne_zero hp hp
  have h2 := mul_ne_zero hm hm
  simp (disch := assumption) only [P.ym.thermal.zero_matsubara.gluon.dressing_l_inv_landau, ym.thermal.zero_matsubara.gluon.dressing_l_inv_landau, num_val, ofR_val, mul_val, add_val, sub_val, div_val, inv_val, toC_val, bind_val, ym_dressing_inv_landau_val hs, gluon_thermal_zero_matsubara_polarization_glue_l_thermal_part_landau_val pg ig _ _ _ _ hL hp hm hb hr]

theorem ym_thermal_zero_matsubara_gluon_dressing_t_inv_landau_val (pg : PIntegrator) (ig : Integrator) (k : Consts ℝ) (p : ℝ) (m : ℝ) (beta : ℝ) (f0 : ℝ) (hL : pg.Extends ig) (hp : p ≠ 0) (hm : m ≠ 0) (hb : 0 < beta) (hr : k.matsubara_reg ≠ 0) :
    P.ym.thermal.zero_matsubara.gluon.dressing_t_inv_landau pg k p m beta f0 = val (ym.thermal.zero_matsubara.gluon.dressing_t_inv_landau ig k p m beta f0) := by
  have hs := slit_real hp hm
  have h1 := mul_ne_zero hp hp
  have h2 := mul_ne_zero hm hm
  simp (disch := assumption) only [P.ym.thermal.zero_matsubara.gluon.dressing_t_inv_landau, ym.thermal.zero_matsubara.gluon.dressing_t_inv_landau, num_val, ofR_val, mul_val, add_val, sub_val, div_val, inv_val, toC_val, bind_val, ym_dressing_inv_landau_val hs, gluon_thermal_zero_matsubara_polarization_glue_t_thermal_part_landau_val pg ig _ _ _ _ hL hp hm hb hr]

theorem ym_thermal_zero_matsubara_gluon_dressing_l_landau_val (pg : PIntegrator) (ig : Integrator) (k : Consts ℝ) (p : ℝ) (m : ℝ) (beta : ℝ) (f0 : ℝ) (hL : pg.Extends ig) (hp : p ≠ 0) (hm : m ≠ 0) (hb : 0 < beta) (hr : k.matsubara_reg ≠ 0) (hD : ym.thermal.zero_matsubara.gluon.dressing_l_inv_landau ig k p m beta f0 ≠ 0) :
    P.ym.thermal.zero_matsubara.gluon.dressing_l_landau pg k p m beta f0 = val (ym.thermal.zero_matsubara.gluon.dressing_l_landau ig k p m beta f0) := by
  rw [P.ym.thermal.zero_matsubara.gluon.dressing_l_landau, ym.thermal.zero_matsubara.gluon.dressing_l_landau, ym_thermal_zero_matsubara_gluon_dressing_l_inv_landau_val _ _ k p m beta f0 hL hp hm hb hr]
  exact div_val hD

theorem ym_thermal_zero_matsubara_gluon_dressing_t_landau_val (pg : PIntegrator) (ig : Integrator) (k : Consts ℝ) (p : ℝ) (m : ℝ) (beta : ℝ) (f0 : ℝ) (hL : pg.Extends ig) (hp : p ≠ 0) (hm : m ≠ 0) (hb : 0 < beta) (hr : k.matsubara_reg ≠ 0) (hD : ym.thermal.zero_matsubara.gluon.dressing_t_inv_landau ig k p m beta f0 ≠ 0) :
    P.ym.thermal.zero_matsubara.gluon.dressing_t_landau pg k p m beta f0 = val (ym.thermal.zero_matsubara.gluon.dressing_t_landau ig k p m beta f0) := by
  rw [P.ym.thermal.zero_matsubara.gluon.dressing_t_landau, ym.thermal.zero_matsubara.gluon.dressing_t_landau, ym_thermal_zero_matsubara_gluon_dressing_t_inv_landau_val _ _ k p m beta f0 hL hp hm hb hr]
  exact div_val hD

theorem ym_thermal_zero_matsubara_gluon_propagator_l_landau_val (pg : PIntegrator) (ig : Integrator) (k : Consts ℝ) (p : ℝ) (m : ℝ) (beta : ℝ) (f0 : ℝ) (hL : pg.Extends ig) (hp : p ≠ 0) (hm : m ≠ 0) (hb : 0 < beta) (hr : k.matsubara_reg ≠ 0) (hD : ym.thermal.zero_matsubara.gluon.dressing_l_inv_landau ig k p m beta f0 ≠ 0) :
    P.ym.thermal.zero_matsubara.gluon.propagator_l_landau pg k p m beta f0 = val (ym.thermal.zero_matsubara.gluon.propagator_l_landau ig k p m beta f0) := by
  rw [P.ym.thermal.zero_matsubara.gluon.propagator_l_landau, ym.thermal.zero_matsubara.gluon.propagator_l_landau, ym_thermal_zero_matsubara_gluon_dressing_l_landau_val _ _ k p m beta f0 hL hp hm hb hr hD]
  have h1 := mul_ne_zero hp hp
  try simp only [ofR_real] at h1
  simp (disch := assumption) only [mul_val, add_val, ofR_val, ofR_real, toC_val, inv_val, div_val]

theorem ym_thermal_zero_matsubara_gluon_propagator_t_landau_val (pg : PIntegrator) (ig : Integrator) (k : Consts ℝ) (p : ℝ) (m : ℝ) (beta : ℝ) (f0 : ℝ) (hL : pg.Extends ig) (hp : p ≠ 0) (hm : m ≠ 0) (hb : 0 < beta) (hr : k.matsubara_reg ≠ 0) (hD : ym.thermal.zero_matsubara.gluon.dressing_t_inv_landau ig k p m beta f0 ≠ 0) :
    P.ym.thermal.zero_matsubara.gluon.propagator_t_landau pg k p m beta f0 = val (ym.thermal.zero_matsubara.gluon.propagator_t_landau ig k p m beta f0) := by
  rw [P.ym.thermal.zero_matsubara.gluon.propagator_t_landau, ym.thermal.zero_matsubara.gluon.propagator_t_landau, ym_thermal_zero_matsubara_gluon_dressing_t_landau_val _ _ k p m beta f0 hL hp hm hb hr hD]
  have h1 := mul_ne_zero hp hp
  try simp only [ofR_real] at h1
  simp (disch := assumption) only [mul_val, add_val, ofR_val, ofR_real, toC_val, inv_val, div_val]

theorem ym_thermal_zero_momentum_ghost_dressing_inv_landau_val (pg : PIntegrator) (ig : Integrator) {T : Type} [Num T] [NumDom T] [NumDomLaw T] (k : Consts ℝ) (om : T) (m : ℝ) (beta : ℝ) (g0 : ℝ) (hL : pg.Extends ig) (ho : (toC om).re ≠ 0) (hm : m ≠ 0) (hb : 0 < beta) :
    P.ym.thermal.zero_momentum.ghost.dressing_inv_landau pg k om m beta g0 = val (ym.thermal.zero_momentum.ghost.dressing_inv_landau ig k om m beta g0) := by
  have hs := slit_sq (om := om) ho hm
  have h1 := mul_ne_zero (om_ne ho) (om_ne ho)
  have h2 : (ofR (m * m) : T) ≠ 0 := ofR_ne_zero (mul_ne_zero hm hm)
  simp (disch := assumption) only [P.ym.thermal.zero_momentum.ghost.dressing_inv_landau, ym.thermal.zero_momentum.ghost.dressing_inv_landau, num_val, ofR_val, mul_val, add_val, sub_val, div_val, inv_val, toC_val, bind_val, ghost_dressing_inv_landau_val hs, ghost_thermal_zero_momentum_self_energy_thermal_part_landau_val pg ig _ _ _ _ hL ho hm hb]

theorem ym_thermal_zero_momentum_ghost_dressing_landau_val (pg : PIntegrator) (ig : Integrator) {T : Type} [Num T] [NumDom T] [NumDomLaw T] (k : Consts ℝ) (om : T) (m : ℝ) (beta : ℝ) (g0 : ℝ) (hL : pg.Extends ig) (ho : (toC om).re ≠ 0) (hm : m ≠ 0) (hb : 0 < beta) (hD : ym.thermal.zero_momentum.ghost.dressing_inv_landau ig k om m beta g0 ≠ 0) :
    P.ym.thermal.zero_momentum.ghost.dressing_landau pg k om m beta g0 = val (ym.thermal.zero_momentum.ghost.dressing_landau ig k om m beta g0) := by
  rw [P.ym.thermal.zero_momentum.ghost.dressing_landau, ym.thermal.zero_momentum.ghost.dressing_landau, ym_thermal_zero_momentum_ghost_dressing_inv_landau_val _ _ k om m beta g0 hL ho hm hb]
  exact div_val hD

theorem ym_thermal_zero_momentum_ghost_propagator_landau_val (pg : PIntegrator) (ig : Integrator) {T : Type} [Num T] [NumDom T] [NumDomLaw T] (k : Consts ℝ) (om : T) (m : ℝ) (beta : ℝ) (g0 : ℝ) (hL : pg.Extends ig) (ho : (toC om).re ≠ 0) (hm : m ≠ 0) (hb : 0 < beta) (hD : ym.thermal.zero_momentum.ghost.dressing_inv_landau ig k om m beta g0 ≠ 0) :
    P.ym.thermal.zero_momentum.ghost.propagator_landau pg k om m beta g0 = val (ym.thermal.zero_momentum.ghost.propagator_landau ig k om m beta g0) := by
  rw [P.ym.thermal.zero_momentum.ghost.propagator_landau, ym.thermal.zero_momentum.ghost.propagator_landau, ym_thermal_zero_momentum_ghost_dressing_landau_val _ _ k om m beta g0 hL ho hm hb hD]
  have h1 := mul_ne_zero (om_ne ho) (om_ne ho)
  try simp only [ofR_real] at h1
  simp (disch := assumption) only [mul_val, add_val, ofR_val, ofR_real, toC_val, inv_val, div_val]

theorem ym_thermal_zero_momentum_gluon_dressing_l_inv_landau_val (pg : PIntegrator) (ig : Integrator) {T : Type} [Num T] [NumDom T] [NumDomLaw T] (k : Consts ℝ) (om : T) (m : ℝ) (beta : ℝ) (f0 : ℝ) (hL : pg.Extends ig) (ho : (toC om).re ≠ 0) (hm : m ≠ 0) (hb : 0 < beta) :
    P.ym.thermal.zero_momentum.gluon.dressing_l_inv_landau pg k om m beta f0 = val (ym.thermal.zero_momentum.gluon.dressing_l_inv_landau ig k om m beta f0) := by
  have hs := slit_sq (om := om) ho hm
  have h1 := mul_ne_zero (om_ne ho) (om_ne ho)
  have h2 : (ofR (m * m) : T) ≠ 0 := ofR_ne_zero (mul_ne_zero hm hm)
  simp (disch := assumption) only [P.ym.thermal.zero_momentum.gluon.dressing_l_inv_landau, ym.thermal.zero_momentum.gluon.dressing_l_inv_landau, num_val, ofR_val, mul_val, add_val, sub_val, div_val, inv_val, toC_val, bind_val, ym_dressing_inv_landau_val hs, gluon_thermal_zero_momentum_polarization_glue_l_thermal_part_landau_val pg ig _ _ _ _ hL ho hm hb]

theorem ym_thermal_zero_momentum_gluon_dressing_t_inv_landau_val (pg : PIntegrator) (ig : Integrator) {T : Type} [Num T] [NumDom T] [NumDomLaw T] (k : Consts ℝ) (om : T) (m : ℝ) (beta : ℝ) (f0 : ℝ) (hL : pg.Extends ig) (ho : (toC om).re ≠ 0) (hm : m ≠ 0) (hb : 0 < beta) :
    P.ym.thermal.zero_momentum.gluon.dressing_t_inv_landau pg k om m beta f0 = val (ym.thermal.zero_momentum.gluon.dressing_t_inv_landau ig k om m beta f0) := by
  rw [P.ym.thermal.zero_momentum.gluon.dressing_t_inv_landau, ym.thermal.zero_momentum.gluon.dressing_t_inv_landau]
  exact ym_thermal_zero_momentum_gluon_dressing_l_inv_landau_val _ _ k om m beta f0 hL ho hm hb

theorem ym_thermal_zero_momentum_gluon_dressing_l_landau_val (pg : PIntegrator) (ig : Integrator) {T : Type} [Num T] [NumDom T] [NumDomLaw T] (k : Consts ℝ) (om : T) (m : ℝ) (beta : ℝ) (f0 : ℝ) (hL : pg.Extends ig) (ho : (toC om).re ≠ 0) (hm : m ≠ 0) (hb : 0 < beta) (hD : ym.thermal.zero_momentum.gluon.dressing_l_inv_landau ig k om m beta f0 ≠ 0) :
    P.ym.thermal.zero_momentum.gluon.dressing_l_landau pg k om m beta f0 = val (ym.thermal.zero_momentum.gluon.dressing_l_landau ig k om m beta f0) := by
  rw [P.ym.thermal.zero_momentum.gluon.dressing_l_landau, ym.thermal.zero_momentum.gluon.dressing_l_landau, ym_thermal_zero_momentum_gluon_dressing_l_inv_landau_val _ _ k om m beta f0 hL ho hm hb]
  exact div_val hD

theorem ym_thermal_zero_momentum_gluon_dressing_t_landau_val (pg : PIntegrator) (ig : Integrator) {T : Type} [Num T] [NumDom T] [NumDomLaw T] (k : Consts ℝ) (om : T) (m : ℝ) (beta : ℝ) (f0 : ℝ) (hL : pg.Extends ig) (ho : (toC om).re ≠ 0) (hm : m ≠ 0) (hb : 0 < beta) (hD : ym.thermal.zero_momentum.gluon.dressing_t_inv_landau ig k om m beta f0 ≠ 0) :
    P.ym.thermal.zero_momentum.gluon.dressing_t_landau pg k om m beta f0 = val (ym.thermal.zero_momentum.gluon.dressing_t_landau ig k om m beta f0) := by
  rw [P.ym.thermal.zero_momentum.gluon.dressing_t_landau, ym.thermal.zero_momentum.gluon.dressing_t_landau, ym_thermal_zero_momentum_gluon_dressing_t_inv_landau_val _ _ k om m beta f0 hL ho hm hb]
  exact div_val hD

theorem ym_thermal_zero_momentum_gluon_propagator_l_landau_val (pg : PIntegrator) (ig : Integrator) {T : Type} [Num T] [NumDom T] [NumDomLaw T] (k : Consts ℝ) (om : T) (m : ℝ) (beta : ℝ) (f0 : ℝ) (hL : pg.Extends ig) (ho : (toC om).re ≠ 0) (hm : m ≠ 0) (hb : 0 < beta) (hD : ym.thermal.zero_momentum.gluon.dressing_l_inv_landau ig k om m beta f0 ≠ 0) :
    P.ym.thermal.zero_momentum.gluon.propagator_l_landau pg k om m beta f0 = val (ym.thermal.zero_momentum.gluon.propagator_l_landau ig k om m beta f0) := by
  rw [P.ym.thermal.zero_momentum.gluon.propagator_l_landau, ym.thermal.zero_momentum.gluon.propagator_l_landau, ym_thermal_zero_momentum_gluon_dressing_l_landau_val _ _ k om m beta f0 hL ho hm hb hD]
  have h1 := mul_ne_zero (om_ne ho) (om_ne ho)
  try simp only [ofR_real] at h1
  simp (disch := assumption) only [mul_val, add_val, ofR_val, ofR_real, toC_val, inv_val, div_val]

theorem ym_thermal_zero_momentum_gluon_propagator_t_landau_val (pg : PIntegrator) (ig : Integrator) {T : Type} [Num T] [NumDom T] [NumDomLaw T] (k : Consts ℝ) (om : T) (m : ℝ) (beta : ℝ) (f0 : ℝ) (hL : pg.Extends ig) (ho : (toC om).re ≠ 0) (hm : m ≠ 0) (hb : 0 < beta) (hD : ym.thermal.zero_momentum.gluon.dressing_t_inv_landau ig k om m beta f0 ≠ 0) :
    P.ym.thermal.zero_momentum.gluon.propagator_t_landau pg k om m beta f0 = val (ym.thermal.zero_momentum.gluon.propagator_t_landau ig k om m beta f0) := by
  rw [P.ym.thermal.zero_momentum.gluon.propagator_t_landau, ym.thermal.zero_momentum.gluon.propagator_t_landau, ym_thermal_zero_momentum_gluon_dressing_t_landau_val _ _ k om m beta f0 hL ho hm hb hD]
  have h1 := mul_ne_zero (om_ne ho) (om_ne ho)
  try simp only [ofR_real] at h1
  simp (disch := assumption) only [mul_val, add_val, ofR_val, ofR_real, toC_val, inv_val, div_val]

theorem qcd_thermal_gluon_dressing_l_inv_landau_val (pg : PIntegrator) (ig : Integrator) {T : Type} [Num T] [NumDom T] [NumDomLaw T] (k : Consts ℝ) (om : T) (p : ℝ) (m : ℝ) (mq : ℝ) (beta : ℝ) (mu : ℝ) (f0 : ℝ) (hL : pg.Extends ig) (ho : (toC om).re ≠ 0) (hp : p ≠ 0) (hm : m ≠ 0) (hb : 0 < beta) (hk : k.nc ≠ 0) (hmq : mq ≠ 0) :
    P.qcd.thermal.gluon.dressing_l_inv_landau pg k om p m mq beta mu f0 = val (qcd.thermal.gluon.dressing_l_inv_landau ig k om p m mq beta mu f0) := by
  have hs := slit_sum (om := om) ho p hm
  have h1 := sum_ne_T ho p
  have h2 : (ofR (m * m) : T) ≠ 0 := ofR_ne_zero (mul_ne_zero hm hm)
  simp (disch := assumption) only [P.qcd.thermal.gluon.dressing_l_inv_landau, qcd.thermal.gluon.dressing_l_inv_landau, num_val, ofR_val, mul_val, add_val, sub_val, div_val, inv_val, toC_val, bind_val, qcd_dressing_inv_landau_val hs k (div_ne_zero hmq hm), gluon_thermal_polarization_glue_l_thermal_part_landau_val pg ig _ _ _ _ _ hL ho hp hm hb, gluon_thermal_polarization_quark_l_thermal_part_landau_val pg ig _ _ _ _ _ _ hL ho hp hb hk]

theorem qcd_thermal_gluon_dressing_t_inv_landau_val (pg : PIntegrator) (ig : Integrator) {T : Type} [Num T] [NumDom T] [NumDomLaw T] (k : Consts ℝ) (om : T) (p : ℝ) (m : ℝ) (mq : ℝ) (beta : ℝ) (mu : ℝ) (f0 : ℝ) (hL : pg.Extends ig) (ho : (toC om).re ≠ 0) (hp : p ≠ 0) (hm : m ≠ 0) (hb : 0 < beta) (hk : k.nc ≠ 0) (hmq : mq ≠ 0) :
    P.qcd.thermal.gluon.dressing_t_inv_landau pg k om p m mq beta mu f0 = val (qcd.thermal.gluon.dressing_t_inv_landau ig k om p m mq beta mu f0) := by
  have hs := slit_sum (om := om) ho p hm
  have h1 := sum_ne_T ho p
  have h2 : (ofR (m * m) : T) ≠ 0 := ofR_ne_zero (mul_ne_zero hm hm)
  simp (disch := assumption) only [P.qcd.thermal.gluon.dressing_t_inv_landau, qcd.thermal.gluon.dressing_t_inv_landau, num_val, ofR_val, mul_val, add_val, sub_val, div_val, inv_val, toC_val, bind_val, qcd_dressing_inv_landau_val hs k (div_ne_zero hmq hm), gluon_thermal_polarization_glue_t_thermal_part_landau_val pg ig _ _ _ _ _ hL ho hp hm hb, gluon_thermal_polarization_quark_t_thermal_part_landau_val pg ig _ _ _ _ _ _ hL ho hp hb hk]

theorem qcd_thermal_gluon_dressing_l_landau_val (pg : PIntegrator) (ig : Integrator) {T : Type} [Num T] [NumDom T] [NumDomLaw T] (k : Consts ℝ) (om : T) (p : ℝ) (m : ℝ) (mq : ℝ) (beta : ℝ) (mu : ℝ) (f0 : ℝ) (hL : pg.Extends ig) (ho : (toC om).re ≠ 0) (hp : p ≠ 0) (hm : m ≠ 0) (hb : 0 < beta) (hk : k.nc ≠ 0) (hmq : mq ≠ 0) (hD : qcd.thermal.gluon.dressing_l_inv_landau ig k om p m mq beta mu f0 ≠ 0) :
    P.qcd.thermal.gluon.dressing_l_landau pg k om p m mq beta mu f0 = val (qcd.thermal.gluon.dressing_l_landau ig k om p m mq beta mu f0) := by
  rw [P.qcd.thermal.gluon.dressing_l_landau, qcd.thermal.gluon.dressing_l_landau, qcd_thermal_gluon_dressing_l_inv_landau_val _ _ k om p m mq beta mu f0 hL ho hp hm hb hk hmq]
  exact inv_val hD

theorem qcd_thermal_gluon_dressing_t_landau_val (pg : PIntegrator) (ig : Integrator) {T : Type} [Num T] [NumDom T] [NumDomLaw T] (k : Consts ℝ) (om : T) (p : ℝ) (m : ℝ) (mq : ℝ) (beta : ℝ) (mu : ℝ) (f0 : ℝ) (hL : pg.Extends ig) (ho : (toC om).re ≠ 0) (hp : p ≠ 0) (hm : m ≠ 0) (hb : 0 < beta) (hk : k.nc ≠ 0) (hmq : mq ≠ 0) (hD : qcd.thermal.gluon.dressing_t_inv_landau ig k om p m mq beta mu f0 ≠ 0) :
    P.qcd.thermal.gluon.dressing_t_landau pg k om p m mq beta mu f0 = val (qcd.thermal.gluon.dressing_t_landau ig k om p m mq beta mu f0) := by
  rw [P.qcd.thermal.gluon.dressing_t_landau, qcd.thermal.gluon.dressing_t_landau, qcd_thermal_gluon_dressing_t_inv_landau_val _ _ k om p m mq beta mu f0 hL ho hp hm hb hk hmq]
  exact inv_val hD

theorem qcd_thermal_gluon_propagator_l_landau_val (pg : PIntegrator) (ig : Integrator) {T : Type} [Num T] [NumDom T] [NumDomLaw T] (k : Consts ℝ) (om : T) (p : ℝ) (m : ℝ) (mq : ℝ) (beta : ℝ) (mu : ℝ) (f0 : ℝ) (hL : pg.Extends ig) (ho : (toC om).re ≠ 0) (hp : p ≠ 0) (hm : m ≠ 0) (hb : 0 < beta) (hk : k.nc ≠ 0) (hmq : mq ≠ 0) (hD : qcd.thermal.gluon.dressing_l_inv_landau ig k om p m mq beta mu f0 ≠ 0) :
    P.qcd.thermal.gluon.propagator_l_landau pg k om p m mq beta mu f0 = val (qcd.thermal.gluon.propagator_l_landau ig k om p m mq beta mu f0) := by
  rw [P.qcd.thermal.gluon.propagator_l_landau, qcd.thermal.gluon.propagator_l_landau, qcd_thermal_gluon_dressing_l_landau_val _ _ k om p m mq beta mu f0 hL ho hp hm hb hk hmq hD]
  have h1 := sum_ne_T ho p
  try simp only [ofR_real] at h1
  simp (disch := assumption) only [mul_val, add_val, ofR_val, ofR_real, toC_val, inv_val, div_val]

theorem qcd_thermal_gluon_propagator_t_landau_val (pg : PIntegrator) (ig : Integrator) {T : Type} [Num T] [NumDom T] [NumDomLaw T] (k : Consts ℝ) (om : T) (p : ℝ) (m : ℝ) (mq : ℝ) (beta : ℝ) (mu : ℝ) (f0 : ℝ) (hL : pg.Extends ig) (ho : (toC om).re ≠ 0) (hp : p ≠ 0) (hm : m ≠ 0) (hb : 0 < beta) (hk : k.nc ≠ 0) (hmq : mq ≠ 0) (hD : qcd.thermal.gluon.dressing_t_inv_landau ig k om p m mq beta mu f0 ≠ 0) :
    P.qcd.thermal.gluon.propagator_t_landau pg k om p m mq beta mu f0 = val (qcd.thermal.gluon.propagator_t_landau ig k om p m mq beta mu f0) := by
  rw [P.qcd.thermal.gluon.propagator_t_landau, qcd.thermal.gluon.propagator_t_landau, qcd_thermal_gluon_dressing_t_landau_val _ _ k om p m mq beta mu f0 hL ho hp hm hb hk hmq hD]
  have h1 := sum_ne_T ho p
  try simp only [ofR_real] at h1
  simp (disch := assumption) only [mul_val, add_val, ofR_val, ofR_real, toC_val, inv_val, div_val]

theorem qcd_thermal_gluon_dressing_l_inv_zero_temp_landau_val (pg : PIntegrator) (ig : Integrator) {T : Type} [Num T] [NumDom T] [NumDomLaw T] (k : Consts ℝ) (om : T) (p : ℝ) (m : ℝ) (mq : ℝ) (mu : ℝ) (f0 : ℝ) (hL : pg.Extends ig) (ho : (toC om).re ≠ 0) (hp : p ≠ 0) (hm : m ≠ 0) (hk : k.nc ≠ 0) (hmq : mq ≠ 0) (hmu : |mu| ≠ |mq|) :
    P.qcd.thermal.gluon.dressing_l_inv_zero_temp_landau pg k om p m mq mu f0 = val (qcd.thermal.gluon.dressing_l_inv_zero_temp_landau ig k om p m mq mu f0) := by
  have hs := slit_sum (om := om) ho p hm
  have h1 := sum_ne_T ho p
  have h2 : (ofR (m * m) : T) ≠ 0 := ofR_ne_zero (mul_ne_zero hm hm)
  simp (disch := assumption) only [P.qcd.thermal.gluon.dressing_l_inv_zero_temp_landau, qcd.thermal.gluon.dressing_l_inv_zero_temp_landau, num_val, ofR_val, mul_val, add_val, sub_val, div_val, inv_val, toC_val, bind_val, qcd_dressing_inv_landau_val hs k (div_ne_zero hmq hm), gluon_thermal_polarization_quark_l_thermal_part_zero_temp_landau_val pg ig _ _ _ _ _ hL ho hp hk hmu]

theorem qcd_thermal_gluon_dressing_t_inv_zero_temp_landau_val (pg : PIntegrator) (ig : Integrator) {T : Type} [Num T] [NumDom T] [NumDomLaw T] (k : Consts ℝ) (om : T) (p : ℝ) (m : ℝ) (mq : ℝ) (mu : ℝ) (f0 : ℝ) (hL : pg.Extends ig) (ho : (toC om).re ≠ 0) (hp : p ≠ 0) (hm : m ≠ 0) (hk : k.nc ≠ 0) (hmq : mq ≠ 0) (hmu : |mu| ≠ |mq|) :
    P.qcd.thermal.gluon.dressing_t_inv_zero_temp_landau pg k om p m mq mu f0 = val (qcd.thermal.gluon.dressing_t_inv_zero_temp_landau ig k om p m mq mu f0) := by
  have hs := slit_sum (om := om) ho p hm
  have h1 := sum_ne_T ho p
  have h2 : (ofR (m * m) : T) ≠ 0 := ofR_ne_zero (mul_ne_zero hm hm)
  simp (disch := assumption) only [P.qcd.thermal.gluon.dressing_t_inv_zero_temp_landau, qcd.thermal.gluon.dressing_t_inv_zero_temp_landau, num_val, ofR_val, mul_val, add_val, sub_val, div_val, inv_val, toC_val, bind_val, qcd_dressing_inv_landau_val hs k (div_ne_zero hmq hm), gluon_thermal_polarization_quark_t_thermal_part_zero_temp_landau_val pg ig _ _ _ _ _ hL ho hp hk hmu]

theorem qcd_thermal_gluon_dressing_l_zero_temp_landau_val (pg : PIntegrator) (ig : Integrator) {T : Type} [Num T] [NumDom T] [NumDomLaw T] (k : Consts ℝ) (om : T) (p : ℝ) (m : ℝ) (mq : ℝ) (mu : ℝ) (f0 : ℝ) (hL : pg.Extends ig) (ho : (toC om).re ≠ 0) (hp : p ≠ 0) (hm : m ≠ 0) (hk : k.nc ≠ 0) (hmq : mq ≠ 0) (hmu : |mu| ≠ |mq|) (hD : qcd.thermal.gluon.dressing_l_inv_zero_temp_landau ig k om p m mq mu f0 ≠ 0) :
    P.qcd.thermal.gluon.dressing_l_zero_temp_landau pg k om p m mq mu f0 = val (qcd.thermal.gluon.dressing_l_zero_temp_landau ig k om p m mq mu f0) := by
  rw [P.qcd.thermal.gluon.dressing_l_zero_temp_landau, qcd.thermal.gluon.dressing_l_zero_temp_landau, qcd_thermal_gluon_dressing_l_inv_zero_temp_landau_val _ _ k om p m mq mu f0 hL ho hp hm hk hmq hmu]
  exact inv_val hD

theorem qcd_thermal_gluon_dressing_t_zero_temp_landau_val (pg : PIntegrator) (ig : Integrator) {T : Type} [Num T] [NumDom T] [NumDomLaw T] (k : Consts ℝ) (om : T) (p : ℝ) (m : ℝ) (mq : ℝ) (mu : ℝ) (f0 : ℝ) (hL : pg.Extends ig) (ho : (toC om).re ≠ 0) (hp : p ≠ 0) (hm : m ≠ 0) (hk : k.nc ≠ 0) (hmq : mq ≠ 0) (hmu : |mu| ≠ |mq|) (hD : qcd.thermal.gluon.dressing_t_inv_zero_temp_landau ig k om p m mq mu f0 ≠ 0) :
    P.qcd.thermal.gluon.dressing_t_zero_temp_landau pg k om p m mq mu f0 = val (qcd.thermal.gluon.dressing_t_zero_temp_landau ig k om p m mq mu f0) := by
  rw [P.qcd.thermal.gluon.dressing_t_zero_temp_landau, qcd.thermal.gluon.dressing_t_zero_temp_landau, qcd_thermal_gluon_dressing_t_inv_zero_temp_landau_val _ _ k om p m mq mu f0 hL ho hp hm hk hmq hmu]
  exact inv_val hD

theorem qcd_thermal_gluon_propagator_l_zero_temp_landau_val (pg : PIntegrator) (ig : Integrator) {T : Type} [Num T] [NumDom T] [NumDomLaw T] (k : Consts ℝ) (om : T) (p : ℝ) (m : ℝ) (mq : ℝ) (mu : ℝ) (f0 : ℝ) (hL : pg.Extends ig) (ho : (toC om).re ≠ 0) (hp : p ≠ 0) (hm : m ≠ 0) (hk : k.nc ≠ 0) (hmq : mq ≠ 0) (hmu : |mu| ≠ |mq|) (hD : qcd.thermal.gluon.dressing_l_inv_zero_temp_landau ig k om p m mq mu f0 ≠ 0) :
    P.qcd.thermal.gluon.propagator_l_zero_temp_landau pg k om p m mq mu f0 = val (qcd.thermal.gluon.propagator_l_zero_temp_landau ig k om p m mq mu f0) := by
  rw [P.qcd.thermal.gluon.propagator_l_zero_temp_landau, qcd.thermal.gluon.propagator_l_zero_temp_landau, qcd_thermal_gluon_dressing_l_zero_temp_landau_val _ _ k om p m mq mu f0 hL ho hp hm hk hmq hmu hD]
  have h1 := sum_ne_T ho p
  try simp only [ofR_real] at h1
  simp (disch := assumption) only [mul_val, add_val, ofR_val, ofR_real, toC_val, inv_val, div_val]

theorem qcd_thermal_gluon_propagator_t_zero_temp_landau_val (pg : PIntegrator) (ig : Integrator) {T : Type} [Num T] [NumDom T] [NumDomLaw T] (k : Consts ℝ) (om : T) (p : ℝ) (m : ℝ) (mq : ℝ) (mu : ℝ) (f0 : ℝ) (hL : pg.Extends ig) (ho : (toC om).re ≠ 0) (hp : p ≠ 0) (hm : m ≠ 0) (hk : k.nc ≠ 0) (hmq : mq ≠ 0) (hmu : |mu| ≠ |mq|) (hD : qcd.thermal.gluon.dressing_t_inv_zero_temp_landau ig k om p m mq mu f0 ≠ 0) :
    P.qcd.thermal.gluon.propagator_t_zero_temp_landau pg k om p m mq mu f0 = val (qcd.thermal.gluon.propagator_t_zero_temp_landau ig k om p m mq mu f0) := by
  rw [P.qcd.thermal.gluon.propagator_t_zero_temp_landau, qcd.thermal.gluon.propagator_t_zero_temp_landau, qcd_thermal_gluon_dressing_t_zero_temp_landau_val _ _ k om p m mq mu f0 hL ho hp hm hk hmq hmu hD]
  have h1 := sum_ne_T ho p
  try simp only [ofR_real] at h1
  simp (disch := assumption) only [mul_val, add_val, ofR_val, ofR_real, toC_val, inv_val, div_val]

theorem qcd_thermal_gluon_dressing_l_inv_landau_w_field_config_val (pg : PIntegrator) (ig : Integrator) {T : Type} [Num T] [NumDom T] [NumDomLaw T] (k : Consts ℝ) (om : T) (p : ℝ) (beta : ℝ) (mu : ℝ) (f0 : ℝ) (nc : ℕ) (m : ℝ) (qs : List (ℕ × ℝ)) (hL : pg.Extends ig) (ho : (toC om).re ≠ 0) (hp : p ≠ 0) (hm : m ≠ 0) (hb : 0 < beta) (hk : k.nc ≠ 0) (hqs : ∀ q ∈ qs, q.2 ≠ 0) :
    P.qcd.thermal.gluon.dressing_l_inv_landau_w_field_config pg k om p beta mu f0 (FieldConfig.new nc m qs) = val (qcd.thermal.gluon.dressing_l_inv_landau_w_field_config ig k om p beta mu f0 (FieldConfig.new nc m qs)) := by
  have hs := slit_C (om := om) ho p hm
  have h1 := sum_ne_p ho p
  have h2 : (ofR (m * m) : ℂ) ≠ 0 := ofR_ne_zero (mul_ne_zero hm hm)
  simp (disch := assumption) only [P.qcd.thermal.gluon.dressing_l_inv_landau_w_field_config, qcd.thermal.gluon.dressing_l_inv_landau_w_field_config, gluon_new, num_val, ofR_val, mul_val, add_val, sub_val, div_val, inv_val, toC_val, bind_val, qcd_config_inv_landau_val hs k hm hqs, gluon_thermal_polarization_quark_l_thermal_part_landau_val pg ig _ _ _ _ _ _ hL ho hp hb hk, gluon_thermal_polarization_glue_l_thermal_part_landau_val pg ig _ _ _ _ _ hL ho hp hm hb, sum_map_val]

theorem qcd_thermal_gluon_dressing_t_inv_landau_w_field_config_val (pg : PIntegrator) (ig : Integrator) {T : Type} [Num T] [NumDom T] [NumDomLaw T] (k : Consts ℝ) (om : T) (p : ℝ) (beta : ℝ) (mu : ℝ) (f0 : ℝ) (nc : ℕ) (m : ℝ) (qs : List (ℕ × ℝ)) (hL : pg.Extends ig) (ho : (toC om).re ≠ 0) (hp : p ≠ 0) (hm : m ≠ 0) (hb : 0 < beta) (hk : k.nc ≠ 0) (hqs : ∀ q ∈ qs, q.2 ≠ 0) :
    P.qcd.thermal.gluon.dressing_t_inv_landau_w_field_config pg k om p beta mu f0 (FieldConfig.new nc m qs) = val (qcd.thermal.gluon.dressing_t_inv_landau_w_field_config ig k om p beta mu f0 (FieldConfig.new nc m qs)) := by
  have hs := slit_sum (om := om) ho p hm
  have h1 := sum_ne_T ho p
  have h2 : (ofR (m * m) : T) ≠ 0 := ofR_ne_zero (mul_ne_zero hm hm)
  simp (disch := assumption) only [P.qcd.thermal.gluon.dressing_t_inv_landau_w_field_config, qcd.thermal.gluon.dressing_t_inv_landau_w_field_config, gluon_new, num_val, ofR_val, mul_val, add_val, sub_val, div_val, inv_val, toC_val, bind_val, qcd_config_inv_landau_val hs k hm hqs, gluon_thermal_polarization_quark_t_thermal_part_landau_val pg ig _ _ _ _ _ _ hL ho hp hb hk, gluon_thermal_polarization_glue_t_thermal_part_landau_val pg ig _ _ _ _ _ hL ho hp hm hb, sum_map_val]

theorem qcd_thermal_gluon_dressing_l_landau_w_field_config_val (pg : PIntegrator) (ig : Integrator) {T : Type} [Num T] [NumDom T] [NumDomLaw T] (k : Consts ℝ) (om : T) (p : ℝ) (beta : ℝ) (mu : ℝ) (f0 : ℝ) (nc : ℕ) (m : ℝ) (qs : List (ℕ × ℝ)) (hL : pg.Extends ig) (ho : (toC om).re ≠ 0) (hp : p ≠ 0) (hm : m ≠ 0) (hb : 0 < beta) (hk : k.nc ≠ 0) (hqs : ∀ q ∈ qs, q.2 ≠ 0) (hD : qcd.thermal.gluon.dressing_l_inv_landau_w_field_config ig k om p beta mu f0 (FieldConfig.new nc m qs) ≠ 0) :
    P.qcd.thermal.gluon.dressing_l_landau_w_field_config pg k om p beta mu f0 (FieldConfig.new nc m qs) = val (qcd.thermal.gluon.dressing_l_landau_w_field_config ig k om p beta mu f0 (FieldConfig.new nc m qs)) := by
  rw [P.qcd.thermal.gluon.dressing_l_landau_w_field_config, qcd.thermal.gluon.dressing_l_landau_w_field_config, qcd_thermal_gluon_dressing_l_inv_landau_w_field_config_val _ _ k om p beta mu f0 nc m qs hL ho hp hm hb hk hqs]
  exact inv_val hD

theorem qcd_thermal_gluon_dressing_t_landau_w_field_config_val (pg : PIntegrator) (ig : Integrator) {T : Type} [Num T] [NumDom T] [NumDomLaw T] (k : Consts ℝ) (om : T) (p : ℝ) (beta : ℝ) (mu : ℝ) (f0 : ℝ) (nc : ℕ) (m : ℝ) (qs : List (ℕ × ℝ)) (hL : pg.Extends ig) (ho : (toC om).re ≠ 0) (hp : p ≠ 0) (hm : m ≠ 0) (hb : 0 < beta) (hk : k.nc ≠ 0) (hqs : ∀ q ∈ qs, q.2 ≠ 0) (hD : qcd.thermal.gluon.dressing_t_inv_landau_w_field_config ig k om p beta mu f0 (FieldConfig.new nc m qs) ≠ 0) :
    P.qcd.thermal.gluon.dressing_t_landau_w_field_config pg k om p beta mu f0 (FieldConfig.new nc m qs) = val (qcd.thermal.gluon.dressing_t_landau_w_field_config ig k om p beta mu f0 (FieldConfig.new nc m qs)) := by
  rw [P.qcd.thermal.gluon.dressing_t_landau_w_field_config, qcd.thermal.gluon.dressing_t_landau_w_field_config, qcd_thermal_gluon_dressing_t_inv_landau_w_field_config_val _ _ k om p beta mu f0 nc m qs hL ho hp hm hb hk hqs]
  exact inv_val hD

theorem qcd_thermal_gluon_propagator_l_landau_w_field_config_val (pg : PIntegrator) (ig : Integrator) {T : Type} [Num T] [NumDom T] [NumDomLaw T] (k : Consts ℝ) (om : T) (p : ℝ) (beta : ℝ) (mu : ℝ) (f0 : ℝ) (nc : ℕ) (m : ℝ) (qs : List (ℕ × ℝ)) (hL : pg.Extends ig) (ho : (toC om).re ≠ 0) (hp : p ≠ 0) (hm : m ≠ 0) (hb : 0 < beta) (hk : k.nc ≠ 0) (hqs : ∀ q ∈ qs, q.2 ≠ 0) (hD : qcd.thermal.gluon.dressing_l_inv_landau_w_field_config ig k om p beta mu f0 (FieldConfig.new nc m qs) ≠ 0) :
    P.qcd.thermal.gluon.propagator_l_landau_w_field_config pg k om p beta mu f0 (FieldConfig.new nc m qs) = val (qcd.thermal.gluon.propagator_l_landau_w_field_config ig k om p beta mu f0 (FieldConfig.new nc m qs)) := by
  rw [P.qcd.thermal.gluon.propagator_l_landau_w_field_config, qcd.thermal.gluon.propagator_l_landau_w_field_config, qcd_thermal_gluon_dressing_l_landau_w_field_config_val _ _ k om p beta mu f0 nc m qs hL ho hp hm hb hk hqs hD]
  have h1 := sum_ne_p ho p
  try simp only [ofR_real] at h1
  simp (disch := assumption) only [mul_val, add_val, ofR_val, ofR_real, toC_val, inv_val, div_val]

theorem qcd_thermal_gluon_propagator_t_landau_w_field_config_val (pg : PIntegrator) (ig : Integrator) {T : Type} [Num T] [NumDom T] [NumDomLaw T] (k : Consts ℝ) (om : T) (p : ℝ) (beta : ℝ) (mu : ℝ) (f0 : ℝ) (nc : ℕ) (m : ℝ) (qs : List (ℕ × ℝ)) (hL : pg.Extends ig) (ho : (toC om).re ≠ 0) (hp : p ≠ 0) (hm : m ≠ 0) (hb : 0 < beta) (hk : k.nc ≠ 0) (hqs : ∀ q ∈ qs, q.2 ≠ 0) (hD : qcd.thermal.gluon.dressing_t_inv_landau_w_field_config ig k om p beta mu f0 (FieldConfig.new nc m qs) ≠ 0) :
    P.qcd.thermal.gluon.propagator_t_landau_w_field_config pg k om p beta mu f0 (FieldConfig.new nc m qs) = val (qcd.thermal.gluon.propagator_t_landau_w_field_config ig k om p beta mu f0 (FieldConfig.new nc m qs)) := by
  rw [P.qcd.thermal.gluon.propagator_t_landau_w_field_config, qcd.thermal.gluon.propagator_t_landau_w_field_config, qcd_thermal_gluon_dressing_t_landau_w_field_config_val _ _ k om p beta mu f0 nc m qs hL ho hp hm hb hk hqs hD]
  have h1 := sum_ne_T ho p
  try simp only [ofR_real] at h1
  simp (disch := assumption) only [mul_val, add_val, ofR_val, ofR_real, toC_val, inv_val, div_val]

theorem qcd_thermal_gluon_dressing_l_inv_zero_temp_landau_w_field_config_val (pg : PIntegrator) (ig : Integrator) {T : Type} [Num T] [NumDom T] [NumDomLaw T] (k : Consts ℝ) (om : T) (p : ℝ) (mu : ℝ) (f0 : ℝ) (nc : ℕ) (m : ℝ) (qs : List (ℕ × ℝ)) (hL : pg.Extends ig) (ho : (toC om).re ≠ 0) (hp : p ≠ 0) (hm : m ≠ 0) (hk : k.nc ≠ 0) (hqs : ∀ q ∈ qs, q.2 ≠ 0) (hmus : ∀ q ∈ qs, |mu| ≠ |q.2|) :
    P.qcd.thermal.gluon.dressing_l_inv_zero_temp_landau_w_field_config pg k om p mu f0 (FieldConfig.new nc m qs) = val (qcd.thermal.gluon.dressing_l_inv_zero_temp_landau_w_field_config ig k om p mu f0 (FieldConfig.new nc m qs)) := by
  have e := sum_val_congr (FieldConfig.new nc m qs).quarks_internal (fun qi => P.gluon.thermal.polarization_quark_l_thermal_part_zero_temp_landau pg k om p qi.mq mu * val (ofR (qi.nf : ℝ) : ℂ)) (fun qi => gluon.thermal.polarization_quark_l_thermal_part_zero_temp_landau ig k om p qi.mq mu * (ofR (qi.nf : ℝ) : ℂ)) (fun qi h => by
    rw [gluon_thermal_polarization_quark_l_thermal_part_zero_temp_landau_val pg ig k om p qi.mq mu hL ho hp hk (config_mu hmus qi h), mul_val])
  have hs := slit_C (om := om) ho p hm
  have h1 := sum_ne_p ho p
  have h2 : (ofR (m * m) : ℂ) ≠ 0 := ofR_ne_zero (mul_ne_zero hm hm)
  simp (disch := assumption) only [P.qcd.thermal.gluon.dressing_l_inv_zero_temp_landau_w_field_config, qcd.thermal.gluon.dressing_l_inv_zero_temp_landau_w_field_config, gluon_new, num_val, ofR_val, mul_val, add_val, sub_val, div_val, inv_val, toC_val, bind_val, qcd_config_inv_landau_val hs k hm hqs, e]

theorem qcd_thermal_gluon_dressing_t_inv_zero_temp_landau_w_field_config_val (pg : PIntegrator) (ig : Integrator) {T : Type} [Num T] [NumDom T] [NumDomLaw T] (k : Consts ℝ) (om : T) (p : ℝ) (mu : ℝ) (f0 : ℝ) (nc : ℕ) (m : ℝ) (qs : List (ℕ × ℝ)) (hL : pg.Extends ig) (ho : (toC om).re ≠ 0) (hp : p ≠ 0) (hm : m ≠ 0) (hk : k.nc ≠ 0) (hqs : ∀ q ∈ qs, q.2 ≠ 0) (hmus : ∀ q ∈ qs, |mu| ≠ |q.2|) :
    P.qcd.thermal.gluon.dressing_t_inv_zero_temp_landau_w_field_config pg k om p mu f0 (FieldConfig.new nc m qs) = val (qcd.thermal.gluon.dressing_t_inv_zero_temp_landau_w_field_config ig k om p mu f0 (FieldConfig.new nc m qs)) := by
  have e := sum_val_congr (FieldConfig.new nc m qs).quarks_internal (fun qi => P.gluon.thermal.polarization_quark_t_thermal_part_zero_temp_landau pg k om p qi.mq mu * val (ofR (qi.nf : ℝ) : ℂ)) (fun qi => gluon.thermal.polarization_quark_t_thermal_part_zero_temp_landau ig k om p qi.mq mu * (ofR (qi.nf : ℝ) : ℂ)) (fun qi h => by
    rw [gluon_thermal_polarization_quark_t_thermal_part_zero_temp_landau_val pg ig k om p qi.mq mu hL ho hp hk (config_mu hmus qi h), mul_val])
  have hs := slit_sum (om := om) ho p hm
  have h1 := sum_ne_T ho p
  have h2 : (ofR (m * m) : T) ≠ 0 := ofR_ne_zero (mul_ne_zero hm hm)
  simp (disch := assumption) only [P.qcd.thermal.gluon.dressing_t_inv_zero_temp_landau_w_field_config, qcd.thermal.gluon.dressing_t_inv_zero_temp_landau_w_field_config, gluon_new, num_val, ofR_val, mul_val, add_val, sub_val, div_val, inv_val, toC_val, bind_val, qcd_config_inv_landau_val hs k hm hqs, e]

theorem qcd_thermal_gluon_dressing_l_zero_temp_landau_w_field_config_val (pg : PIntegrator) (ig : Integrator) {T : Type} [Num T] [NumDom T] [NumDomLaw T] (k : Consts ℝ) (om : T) (p : ℝ) (mu : ℝ) (f0 : ℝ) (nc : ℕ) (m : ℝ) (qs : List (ℕ × ℝ)) (hL : pg.Extends ig) (ho : (toC om).re ≠ 0) (hp : p ≠ 0) (hm : m ≠ 0) (hk : k.nc ≠ 0) (hqs : ∀ q ∈ qs, q.2 ≠ 0) (hmus : ∀ q ∈ qs, |mu| ≠ |q.2|) (hD : qcd.thermal.gluon.dressing_l_inv_zero_temp_landau_w_field_config ig k om p mu f0 (FieldConfig.new nc m qs) ≠ 0) :
    P.qcd.thermal.gluon.dressing_l_zero_temp_landau_w_field_config pg k om p mu f0 (FieldConfig.new nc m qs) = val (qcd.thermal.gluon.dressing_l_zero_temp_landau_w_field_config ig k om p mu f0 (FieldConfig.new nc m qs)) := by
  rw [P.qcd.thermal.gluon.dressing_l_zero_temp_landau_w_field_config, qcd.thermal.gluon.dressing_l_zero_temp_landau_w_field_config, qcd_thermal_gluon_dressing_l_inv_zero_temp_landau_w_field_config_val _ _ k om p mu f0 nc m qs hL ho hp hm hk hqs hmus]
  exact inv_val hD

theorem qcd_thermal_gluon_dressing_t_zero_temp_landau_w_field_config_val (pg : PIntegrator) (ig : Integrator) {T : Type} [Num T] [NumDom T] [NumDomLaw T] (k : Consts ℝ) (om : T) (p : ℝ) (mu : ℝ) (f0 : ℝ) (nc : ℕ) (m : ℝ) (qs : List (ℕ × ℝ)) (hL : pg.Extends ig) (ho : (toC om).re ≠ 0) (hp : p ≠ 0) (hm : m ≠ 0) (hk : k.nc ≠ 0) (hqs : ∀ q ∈ qs, q.2 ≠ 0) (hmus : ∀ q ∈ qs, |mu| ≠ |q.2|) (hD : qcd.thermal.gluon.dressing_t_inv_zero_temp_landau_w_field_config ig k om p mu f0 (FieldConfig.new nc m qs) ≠ 0) :
    P.qcd.thermal.gluon.dressing_t_zero_temp_landau_w_field_config pg k om p mu f0 (FieldConfig.new nc m qs) = val (qcd.thermal.gluon.dressing_t_zero_temp_landau_w_field_config ig k om p mu f0 (FieldConfig.new nc m qs)) := by
  rw [P.qcd.thermal.gluon.dressing_t_zero_temp_landau_w_field_config, qcd.thermal.gluon.dressing_t_zero_temp_landau_w_field_config, qcd_thermal_gluon_dressing_t_inv_zero_temp_landau_w_field_config_val _ _ k om p mu f0 nc m qs hL ho hp hm hk hqs hmus]
  exact inv_val hD

theorem qcd_thermal_gluon_propagator_l_zero_temp_landau_w_field_config_val (pg : PIntegrator) (ig : Integrator) {T : Type} [Num T] [NumDom T] [NumDomLaw T] (k : Consts ℝ) (om : T) (p : ℝ) (mu : ℝ) (f0 : ℝ) (nc : ℕ) (m : ℝ) (qs : List (ℕ × ℝ)) (hL : pg.Extends ig) (ho : (toC om).re ≠ 0) (hp : p ≠ 0) (hm : m ≠ 0) (hk : k.nc ≠ 0) (hqs : ∀ q ∈ qs, q.2 ≠ 0) (hmus : ∀ q ∈ qs, |mu| ≠ |q.2|) (hD : qcd.thermal.gluon.dressing_l_inv_zero_temp_landau_w_field_config ig k om p mu f0 (FieldConfig.new nc m qs) ≠ 0) :
    P.qcd.thermal.gluon.propagator_l_zero_temp_landau_w_field_config pg k om p mu f0 (FieldConfig.new nc m qs) = val (qcd.thermal.gluon.propagator_l_zero_temp_landau_w_field_config ig k om p mu f0 (FieldConfig.new nc m qs)) := by
  rw [P.qcd.thermal.gluon.propagator_l_zero_temp_landau_w_field_config, qcd.thermal.gluon.propagator_l_zero_temp_landau_w_field_config, qcd_thermal_gluon_dressing_l_zero_temp_landau_w_field_config_val _ _ k om p mu f0 nc m qs hL ho hp hm hk hqs hmus hD]
  have h1 := sum_ne_p ho p
  try simp only [ofR_real] at h1
  simp (disch := assumption) only [mul_val, add_val, ofR_val, ofR_real, toC_val, inv_val, div_val]

theorem qcd_thermal_gluon_propagator_t_zero_temp_landau_w_field_config_val (pg : PIntegrator) (ig : Integrator) {T : Type} [Num T] [NumDom T] [NumDomLaw T] (k : Consts ℝ) (om : T) (p : ℝ) (mu : ℝ) (f0 : ℝ) (nc : ℕ) (m : ℝ) (qs : List (ℕ × ℝ)) (hL : pg.Extends ig) (ho : (toC om).re ≠ 0) (hp : p ≠ 0) (hm : m ≠ 0) (hk : k.nc ≠ 0) (hqs : ∀ q ∈ qs, q.2 ≠ 0) (hmus : ∀ q ∈ qs, |mu| ≠ |q.2|) (hD : qcd.thermal.gluon.dressing_t_inv_zero_temp_landau_w_field_config ig k om p mu f0 (FieldConfig.new nc m qs) ≠ 0) :
    P.qcd.thermal.gluon.propagator_t_zero_temp_landau_w_field_config pg k om p mu f0 (FieldConfig.new nc m qs) = val (qcd.thermal.gluon.propagator_t_zero_temp_landau_w_field_config ig k om p mu f0 (FieldConfig.new nc m qs)) := by
  rw [P.qcd.thermal.gluon.propagator_t_zero_temp_landau_w_field_config, qcd.thermal.gluon.propagator_t_zero_temp_landau_w_field_config, qcd_thermal_gluon_dressing_t_zero_temp_landau_w_field_config_val _ _ k om p mu f0 nc m qs hL ho hp hm hk hqs hmus hD]
  have h1 := sum_ne_T ho p
  try simp only [ofR_real] at h1
  simp (disch := assumption) only [mul_val, add_val, ofR_val, ofR_real, toC_val, inv_val, div_val]

theorem qcd_thermal_zero_matsubara_gluon_dressing_l_inv_landau_val (pg : PIntegrator) (ig : Integrator) (k : Consts ℝ) (p : ℝ) (m : ℝ) (mq : ℝ) (beta : ℝ) (mu : ℝ) (f0 : ℝ) (hL : pg.Extends ig) (hp : p ≠ 0) (hm : m ≠ 0) (hb : 0 < beta) (hk : k.nc ≠ 0) (hr : k.matsubara_reg ≠ 0) (hmq : mq ≠ 0) :
    P.qcd.thermal.zero_matsubara.gluon.dressing_l_inv_landau pg k p m mq beta mu f0 = val (qcd.thermal.zero_matsubara.gluon.dressing_l_inv_landau ig k p m mq beta mu f0) := by
  have hs := slit_real hp hm
  have h1 := mul_ne_zero hp hp
  have h2 := mul_ne_zero hm hm
  simp (disch := assumption) only [P.qcd.thermal.zero_matsubara.gluon.dressing_l_inv_landau, qcd.thermal.zero_matsubara.gluon.dressing_l_inv_landau, num_val, ofR_val, mul_val, add_val, sub_val, div_val, inv_val, toC_val, bind_val, qcd_dressing_inv_landau_val hs k (div_ne_zero hmq hm), gluon_thermal_zero_matsubara_polarization_quark_l_thermal_part_landau_val pg ig _ _ _ _ _ hL hp hb hk hr, gluon_thermal_zero_matsubara_polarization_glue_l_thermal_part_landau_val pg ig _ _ _ _ hL hp hm hb hr]

theorem qcd_thermal_zero_matsubara_gluon_dressing_t_inv_landau_val (pg : PIntegrator) (ig : Integrator) (k : Consts ℝ) (p : ℝ) (m : ℝ) (mq : ℝ) (beta : ℝ) (mu : ℝ) (f0 : ℝ) (hL : pg.Extends ig) (hp : p ≠ 0) (hm : m ≠ 0) (hb : 0 < beta) (hk : k.nc ≠ 0) (hr : k.matsubara_reg ≠ 0) (hmq : mq ≠ 0) :
    P.qcd.thermal.zero_matsubara.gluon.dressing_t_inv_landau pg k p m mq beta mu f0 = val (qcd.thermal.zero_matsubara.gluon.dressing_t_inv_landau ig k p m mq beta mu f0) := by
  have hs := slit_real hp hm
  have h1 := mul_ne_zero hp hp
  have h2 := mul_ne_zero hm hm
  simp (disch := assumption) only [P.qcd.thermal.zero_matsubara.gluon.dressing_t_inv_landau, qcd.thermal.zero_matsubara.gluon.dressing_t_inv_landau, num_val, ofR_val, mul_val, add_val, sub_val, div_val, inv_val, toC_val, bind_val, qcd_dressing_inv_landau_val hs k (div_ne_zero hmq hm), gluon_thermal_zero_matsubara_polarization_quark_t_thermal_part_landau_val pg ig _ _ _ _ _ hL hp hb hk hr, gluon_thermal_zero_matsubara_polarization_glue_t_thermal_part_landau_val pg ig _ _ _ _ hL hp hm hb hr]

theorem qcd_thermal_zero_matsubara_gluon_dressing_l_landau_val (pg : PIntegrator) (ig : Integrator) (k : Consts ℝ) (p : ℝ) (m : ℝ) (mq : ℝ) (beta : ℝ) (mu : ℝ) (f0 : ℝ) (hL : pg.Extends ig) (hp : p ≠ 0) (hm : m ≠ 0) (hb : 0 < beta) (hk : k.nc ≠ 0) (hr : k.matsubara_reg ≠ 0) (hmq : mq ≠ 0) (hD : qcd.thermal.zero_matsubara.gluon.dressing_l_inv_landau ig k p m mq beta mu f0 ≠ 0) :
    P.qcd.thermal.zero_matsubara.gluon.dressing_l_landau pg k p m mq beta mu f0 = val (qcd.thermal.zero_matsubara.gluon.dressing_l_landau ig k p m mq beta mu f0) := by
  rw [P.qcd.thermal.zero_matsubara.gluon.dressing_l_landau, qcd.thermal.zero_matsubara.gluon.dressing_l_landau, qcd_thermal_zero_matsubara_gluon_dressing_l_inv_landau_val _ _ k p m mq beta mu f0 hL hp hm hb hk hr hmq]
  exact div_val hD

theorem qcd_thermal_zero_matsubara_gluon_dressing_t_landau_val (pg : PIntegrator) (ig : Integrator) (k : Consts ℝ) (p : ℝ) (m : ℝ) (mq : ℝ) (beta : ℝ) (mu : ℝ) (f0 : ℝ) (hL : pg.Extends ig) (hp : p ≠ 0) (hm : m ≠ 0) (hb : 0 < beta) (hk : k.nc ≠ 0) (hr : k.matsubara_reg ≠ 0) (hmq : mq ≠ 0) (hD : qcd.thermal.zero_matsubara.gluon.dressing_t_inv_landau ig k p m mq beta mu f0 ≠ 0) :
    P.qcd.thermal.zero_matsubara.gluon.dressing_t_landau pg k p m mq beta mu f0 = val (qcd.thermal.zero_matsubara.gluon.dressing_t_landau ig k p m mq beta mu f0) := by
  rw [P.qcd.thermal.zero_matsubara.gluon.dressing_t_landau, qcd.thermal.zero_matsubara.gluon.dressing_t_landau, qcd_thermal_zero_matsubara_gluon_dressing_t_inv_landau_val _ _ k p m mq beta mu f0 hL hp hm hb hk hr hmq]
  exact div_val hD

theorem qcd_thermal_zero_matsubara_gluon_propagator_l_landau_val (pg : PIntegrator) (ig : Integrator) (k : Consts ℝ) (p : ℝ) (m : ℝ) (mq : ℝ) (beta : ℝ) (mu : ℝ) (f0 : ℝ) (hL : pg.Extends ig) (hp : p ≠ 0) (hm : m ≠ 0) (hb : 0 < beta) (hk : k.nc ≠ 0) (hr : k.matsubara_reg ≠ 0) (hmq : mq ≠ 0) (hD : qcd.thermal.zero_matsubara.gluon.dressing_l_inv_landau ig k p m mq beta mu f0 ≠ 0) :
    P.qcd.thermal.zero_matsubara.gluon.propagator_l_landau pg k p m mq beta mu f0 = val (qcd.thermal.zero_matsubara.gluon.propagator_l_landau ig k p m mq beta mu f0) := by
  rw [P.qcd.thermal.zero_matsubara.gluon.propagator_l_landau, qcd.thermal.zero_matsubara.gluon.propagator_l_landau, qcd_thermal_zero_matsubara_gluon_dressing_l_landau_val _ _ k p m mq beta mu f0 hL hp hm hb hk hr hmq hD]
  have h1 := mul_ne_zero hp hp
  try simp only [ofR_real] at h1
  simp (disch := assumption) only [mul_val, add_val, ofR_val, ofR_real, toC_val, inv_val, div_val]

theorem qcd_thermal_zero_matsubara_gluon_propagator_t_landau_val (pg : PIntegrator) (ig : Integrator) (k : Consts ℝ) (p : ℝ) (m : ℝ) (mq : ℝ) (beta : ℝ) (mu : ℝ) (f0 : ℝ) (hL : pg.Extends ig) (hp : p ≠ 0) (hm : m ≠ 0) (hb : 0 < beta) (hk : k.nc ≠ 0) (hr : k.matsubara_reg ≠ 0) (hmq : mq ≠ 0) (hD : qcd.thermal.zero_matsubara.gluon.dressing_t_inv_landau ig k p m mq beta mu f0 ≠ 0) :
    P.qcd.thermal.zero_matsubara.gluon.propagator_t_landau pg k p m mq beta mu f0 = val (qcd.thermal.zero_matsubara.gluon.propagator_t_landau ig k p m mq beta mu f0) := by
  rw [P.qcd.thermal.zero_matsubara.gluon.propagator_t_landau, qcd.thermal.zero_matsubara.gluon.propagator_t_landau, qcd_thermal_zero_matsubara_gluon_dressing_t_landau_val _ _ k p m mq beta mu f0 hL hp hm hb hk hr hmq hD]
  have h1 := mul_ne_zero hp hp
  try simp only [ofR_real] at h1
  simp (disch := assumption) only [mul_val, add_val, ofR_val, ofR_real, toC_val, inv_val, div_val]

theorem qcd_thermal_zero_matsubara_gluon_dressing_l_inv_zero_temp_landau_val (pg : PIntegrator) (ig : Integrator) (k : Consts ℝ) (p : ℝ) (m : ℝ) (mq : ℝ) (mu : ℝ) (f0 : ℝ) (hL : pg.Extends ig) (hp : p ≠ 0) (hm : m ≠ 0) (hk : k.nc ≠ 0) (hr : k.matsubara_reg ≠ 0) (hmq : mq ≠ 0) (hmu : |mu| ≠ |mq|) :
    P.qcd.thermal.zero_matsubara.gluon.dressing_l_inv_zero_temp_landau pg k p m mq mu f0 = val (qcd.thermal.zero_matsubara.gluon.dressing_l_inv_zero_temp_landau ig k p m mq mu f0) := by
  have hs := slit_real hp hm
  have h1 := mul_ne_zero hp hp
  have h2 := mul_ne_zero hm hm
  simp (disch := assumption) only [P.qcd.thermal.zero_matsubara.gluon.dressing_l_inv_zero_temp_landau, qcd.thermal.zero_matsubara.gluon.dressing_l_inv_zero_temp_landau, num_val, ofR_val, mul_val, add_val, sub_val, div_val, inv_val, toC_val, bind_val, qcd_dressing_inv_landau_val hs k (div_ne_zero hmq hm), gluon_thermal_zero_matsubara_polarization_quark_l_thermal_part_zero_temp_landau_val pg ig _ _ _ _ hL hp hk hr hmu]

theorem qcd_thermal_zero_matsubara_gluon_dressing_t_inv_zero_temp_landau_val (pg : PIntegrator) (ig : Integrator) (k : Consts ℝ) (p : ℝ) (m : ℝ) (mq : ℝ) (mu : ℝ) (f0 : ℝ) (hL : pg.Extends ig) (hp : p ≠ 0) (hm : m ≠ 0) (hk : k.nc ≠ 0) (hr : k.matsubara_reg ≠ 0) (hmq : mq ≠ 0) (hmu : |mu| ≠ |mq|) :
    P.qcd.thermal.zero_matsubara.gluon.dressing_t_inv_zero_temp_landau pg k p m mq mu f0 = val (qcd.thermal.zero_matsubara.gluon.dressing_t_inv_zero_temp_landau ig k p m mq mu f0) := by
  have hs := slit_real hp hm
  have h1 := mul_ne_zero hp hp
  have h2 := mul_ne_zero hm hm
  simp (disch := assumption) only [P.qcd.thermal.zero_matsubara.gluon.dressing_t_inv_zero_temp_landau, qcd.thermal.zero_matsubara.gluon.dressing_t_inv_zero_temp_landau, num_val, ofR_val, mul_val, add_val, sub_val, div_val, inv_val, toC_val, bind_val, qcd_dressing_inv_landau_val hs k (div_ne_zero hmq hm), gluon_thermal_zero_matsubara_polarization_quark_t_thermal_part_zero_temp_landau_val pg ig _ _ _ _ hL hp hk hr hmu]

theorem qcd_thermal_zero_matsubara_gluon_dressing_l_zero_temp_landau_val (pg : PIntegrator) (ig : Integrator) (k : Consts ℝ) (p : ℝ) (m : ℝ) (mq : ℝ) (mu : ℝ) (f0 : ℝ) (hL : pg.Extends ig) (hp : p ≠ 0) (hm : m ≠ 0) (hk : k.nc ≠ 0) (hr : k.matsubara_reg ≠ 0) (hmq : mq ≠ 0) (hmu : |mu| ≠ |mq|) (hD : qcd.thermal.zero_matsubara.gluon.dressing_l_inv_zero_temp_landau ig k p m mq mu f0 ≠ 0) :
    P.qcd.thermal.zero_matsubara.gluon.dressing_l_zero_temp_landau pg k p m mq mu f0 = val (qcd.thermal.zero_matsubara.gluon.dressing_l_zero_temp_landau ig k p m mq mu f0) := by
  rw [P.qcd.thermal.zero_matsubara.gluon.dressing_l_zero_temp_landau, qcd.thermal.zero_matsubara.gluon.dressing_l_zero_temp_landau, qcd_thermal_zero_matsubara_gluon_dressing_l_inv_zero_temp_landau_val _ _ k p m mq mu f0 hL hp hm hk hr hmq hmu]
  exact div_val hD

theorem qcd_thermal_zero_matsubara_gluon_dressing_t_zero_temp_landau_val (pg : PIntegrator) (ig : Integrator) (k : Consts ℝ) (p : ℝ) (m : ℝ) (mq : ℝ) (mu : ℝ) (f0 : ℝ) (hL : pg.Extends ig) (hp : p ≠ 0) (hm : m ≠ 0) (hk : k.nc ≠ 0) (hr : k.matsubara_reg ≠ 0) (hmq : mq ≠ 0) (hmu : |mu| ≠ |mq|) (hD : qcd.thermal.zero_matsubara.gluon.dressing_t_inv_zero_temp_landau ig k p m mq mu f0 ≠ 0) :
    P.qcd.thermal.zero_matsubara.gluon.dressing_t_zero_temp_landau pg k p m mq mu f0 = val (qcd.thermal.zero_matsubara.gluon.dressing_t_zero_temp_landau ig k p m mq mu f0) := by
  rw [P.qcd.thermal.zero_matsubara.gluon.dressing_t_zero_temp_landau, qcd.thermal.zero_matsubara.gluon.dressing_t_zero_temp_landau, qcd_thermal_zero_matsubara_gluon_dressing_t_inv_zero_temp_landau_val _ _ k p m mq mu f0 hL hp hm hk hr hmq hmu]
  exact div_val hD

theorem qcd_thermal_zero_matsubara_gluon_propagator_l_zero_temp_landau_val (pg : PIntegrator) (ig : Integrator) (k : Consts ℝ) (p : ℝ) (m : ℝ) (mq : ℝ) (mu : ℝ) (f0 : ℝ) (hL : pg.Extends ig) (hp : p ≠ 0) (hm : m ≠ 0) (hk : k.nc ≠ 0) (hr : k.matsubara_reg ≠ 0) (hmq : mq ≠ 0) (hmu : |mu| ≠ |mq|) (hD : qcd.thermal.zero_matsubara.gluon.dressing_l_inv_zero_temp_landau ig k p m mq mu f0 ≠ 0) :
    P.qcd.thermal.zero_matsubara.gluon.propagator_l_zero_temp_landau pg k p m mq mu f0 = val (qcd.thermal.zero_matsubara.gluon.propagator_l_zero_temp_landau ig k p m mq mu f0) := by
  rw [P.qcd.thermal.zero_matsubara.gluon.propagator_l_zero_temp_landau, qcd.thermal.zero_matsubara.gluon.propagator_l_zero_temp_landau, qcd_thermal_zero_matsubara_gluon_dressing_l_zero_temp_landau_val _ _ k p m mq mu f0 hL hp hm hk hr hmq hmu hD]
  have h1 := mul_ne_zero hp hp
  try simp only [ofR_real] at h1
  simp (disch := assumption) only [mul_val, add_val, ofR_val, ofR_real, toC_val, inv_val, div_val]

theorem qcd_thermal_zero_matsubara_gluon_propagator_t_zero_temp_landau_val (pg : PIntegrator) (ig : Integrator) (k : Consts ℝ) (p : ℝ) (m : ℝ) (mq : ℝ) (mu : ℝ) (f0 : ℝ) (hL : pg.Extends ig) (hp : p ≠ 0) (hm : m ≠ 0) (hk : k.nc ≠ 0) (hr : k.matsubara_reg ≠ 0) (hmq : mq ≠ 0) (hmu : |mu| ≠ |mq|) (hD : qcd.thermal.zero_matsubara.gluon.dressing_t_inv_zero_temp_landau ig k p m mq mu f0 ≠ 0) :
    P.qcd.thermal.zero_matsubara.gluon.propagator_t_zero_temp_landau pg k p m mq mu f0 = val (qcd.thermal.zero_matsubara.gluon.propagator_t_zero_temp_landau ig k p m mq mu f0) := by
  rw [P.qcd.thermal.zero_matsubara.gluon.propagator_t_zero_temp_landau, qcd.thermal.zero_matsubara.gluon.propagator_t_zero_temp_landau, qcd_thermal_zero_matsubara_gluon_dressing_t_zero_temp_landau_val _ _ k p m mq mu f0 hL hp hm hk hr hmq hmu hD]
  have h1 := mul_ne_zero hp hp
  try simp only [ofR_real] at h1
  simp (disch := assumption) only [mul_val, add_val, ofR_val, ofR_real, toC_val, inv_val, div_val]

theorem qcd_thermal_zero_matsubara_gluon_dressing_l_inv_landau_w_field_config_val (pg : PIntegrator) (ig : Integrator) (k : Consts ℝ) (p : ℝ) (beta : ℝ) (mu : ℝ) (f0 : ℝ) (nc : ℕ) (m : ℝ) (qs : List (ℕ × ℝ)) (hL : pg.Extends ig) (hp : p ≠ 0) (hm : m ≠ 0) (hb : 0 < beta) (hk : k.nc ≠ 0) (hr : k.matsubara_reg ≠ 0) (hqs : ∀ q ∈ qs, q.2 ≠ 0) :
    P.qcd.thermal.zero_matsubara.gluon.dressing_l_inv_landau_w_field_config pg k p beta mu f0 (FieldConfig.new nc m qs) = val (qcd.thermal.zero_matsubara.gluon.dressing_l_inv_landau_w_field_config ig k p beta mu f0 (FieldConfig.new nc m qs)) := by
  have hs := slit_real hp hm
  have h1 := mul_ne_zero hp hp
  have h2 := mul_ne_zero hm hm
  simp (disch := assumption) only [P.qcd.thermal.zero_matsubara.gluon.dressing_l_inv_landau_w_field_config, qcd.thermal.zero_matsubara.gluon.dressing_l_inv_landau_w_field_config, gluon_new, num_val, ofR_val, mul_val, add_val, sub_val, div_val, inv_val, toC_val, bind_val, qcd_config_inv_landau_val hs k hm hqs, gluon_thermal_zero_matsubara_polarization_quark_l_thermal_part_landau_val pg ig _ _ _ _ _ hL hp hb hk hr, gluon_thermal_zero_matsubara_polarization_glue_l_thermal_part_landau_val pg ig _ _ _ _ hL hp hm hb hr, sum_map_val]

theorem qcd_thermal_zero_matsubara_gluon_dressing_t_inv_landau_w_field_config_val (pg : PIntegrator) (ig : Integrator) (k : Consts ℝ) (p : ℝ) (beta : ℝ) (mu : ℝ) (f0 : ℝ) (nc : ℕ) (m : ℝ) (qs : List (ℕ × ℝ)) (hL : pg.Extends ig) (hp : p ≠ 0) (hm : m ≠ 0) (hb : 0 < beta) (hk : k.nc ≠ 0) (hr : k.matsubara_reg ≠ 0) (hqs : ∀ q ∈ qs, q.2 ≠ 0) :
    P.qcd.thermal.zero_matsubara.gluon.dressing_t_inv_landau_w_field_config pg k p beta mu f0 (FieldConfig.new nc m qs) = val (qcd.thermal.zero_matsubara.gluon.dressing_t_inv_landau_w_field_config ig k p beta mu f0 (FieldConfig.new nc m qs)) := by
  have hs := slit_real hp hm
  have h1 := mul_ne_zero hp hp
  have h2 := mul_ne_zero hm hm
  simp (disch := assumption) only [P.qcd.thermal.zero_matsubara.gluon.dressing_t_inv_landau_w_field_config, qcd.thermal.zero_matsubara.gluon.dressing_t_inv_landau_w_field_config, gluon_new, num_val, ofR_val, mul_val, add_val, sub_val, div_val, inv_val, toC_val, bind_val, qcd_config_inv_landau_val hs k hm hqs, gluon_thermal_zero_matsubara_polarization_quark_t_thermal_part_landau_val pg ig _ _ _ _ _ hL hp hb hk hr, gluon_thermal_zero_matsubara_polarization_glue_t_thermal_part_landau_val pg ig _ _ _ _ hL hp hm hb hr, sum_map_val]

theorem qcd_thermal_zero_matsubara_gluon_dressing_l_landau_w_field_config_val (pg : PIntegrator) (ig : Integrator) (k : Consts ℝ) (p : ℝ) (beta : ℝ) (mu : ℝ) (f0 : ℝ) (nc : ℕ) (m : ℝ) (qs : List (ℕ × ℝ)) (hL : pg.Extends ig) (hp : p ≠ 0) (hm : m ≠ 0) (hb : 0 < beta) (hk : k.nc ≠ 0) (hr : k.matsubara_reg ≠ 0) (hqs : ∀ q ∈ qs, q.2 ≠ 0) (hD : qcd.thermal.zero_matsubara.gluon.dressing_l_inv_landau_w_field_config ig k p beta mu f0 (FieldConfig.new nc m qs) ≠ 0) :
    P.qcd.thermal.zero_matsubara.gluon.dressing_l_landau_w_field_config pg k p beta mu f0 (FieldConfig.new nc m qs) = val (qcd.thermal.zero_matsubara.gluon.dressing_l_landau_w_field_config ig k p beta mu f0 (FieldConfig.new nc m qs)) := by
  rw [P.qcd.thermal.zero_matsubara.gluon.dressing_l_landau_w_field_config, qcd.thermal.zero_matsubara.gluon.dressing_l_landau_w_field_config, qcd_thermal_zero_matsubara_gluon_dressing_l_inv_landau_w_field_config_val _ _ k p beta mu f0 nc m qs hL hp hm hb hk hr hqs]
  exact div_val hD

theorem qcd_thermal_zero_matsubara_gluon_dressing_t_landau_w_field_config_val (pg : PIntegrator) (ig : Integrator) (k : Consts ℝ) (p : ℝ) (beta : ℝ) (mu : ℝ) (f0 : ℝ) (nc : ℕ) (m : ℝ) (qs : List (ℕ × ℝ)) (hL : pg.Extends ig) (hp : p ≠ 0) (hm : m ≠ 0) (hb : 0 < beta) (hk : k.nc ≠ 0) (hr : k.matsubara_reg ≠ 0) (hqs : ∀ q ∈ qs, q.2 ≠ 0) (hD : qcd.thermal.zero_matsubara.gluon.dressing_t_inv_landau_w_field_config ig k p beta mu f0 (FieldConfig.new nc m qs) ≠ 0) :
    P.qcd.thermal.zero_matsubara.gluon.dressing_t_landau_w_field_config pg k p beta mu f0 (FieldConfig.new nc m qs) = val (qcd.thermal.zero_matsubara.gluon.dressing_t_landau_w_field_config ig k p beta mu f0 (FieldConfig.new nc m qs)) := by
  rw [P.qcd.thermal.zero_matsubara.gluon.dressing_t_landau_w_field_config, qcd.thermal.zero_matsubara.gluon.dressing_t_landau_w_field_config, qcd_thermal_zero_matsubara_gluon_dressing_t_inv_landau_w_field_config_val _ _ k p beta mu f0 nc m qs hL hp hm hb hk hr hqs]
  exact div_val hD

theorem qcd_thermal_zero_matsubara_gluon_propagator_l_landau_w_field_config_val (pg : PIntegrator) (ig : Integrator) (k : Consts ℝ) (p : ℝ) (beta : ℝ) (mu : ℝ) (f0 : ℝ) (nc : ℕ) (m : ℝ) (qs : List (ℕ × ℝ)) (hL : pg.Extends ig) (hp : p ≠ 0) (hm : m ≠ 0) (hb : 0 < beta) (hk : k.nc ≠ 0) (hr : k.matsubara_reg ≠ 0) (hqs : ∀ q ∈ qs, q.2 ≠ 0) (hD : qcd.thermal.zero_matsubara.gluon.dressing_l_inv_landau_w_field_config ig k p beta mu f0 (FieldConfig.new nc m qs) ≠ 0) :
    P.qcd.thermal.zero_matsubara.gluon.propagator_l_landau_w_field_config pg k p beta mu f0 (FieldConfig.new nc m qs) = val (qcd.thermal.zero_matsubara.gluon.propagator_l_landau_w_field_config ig k p beta mu f0 (FieldConfig.new nc m qs)) := by
  rw [P.qcd.thermal.zero_matsubara.gluon.propagator_l_landau_w_field_config, qcd.thermal.zero_matsubara.gluon.propagator_l_landau_w_field_config, qcd_thermal_zero_matsubara_gluon_dressing_l_landau_w_field_config_val _ _ k p beta mu f0 nc m qs hL hp hm hb hk hr hqs hD]
  have h1 := mul_ne_zero hp hp
  try simp only [ofR_real] at h1
  simp (disch := assumption) only [mul_val, add_val, ofR_val, ofR_real, toC_val, inv_val, div_val]

theorem qcd_thermal_zero_matsubara_gluon_propagator_t_landau_w_field_config_val (pg : PIntegrator) (ig : Integrator) (k : Consts ℝ) (p : ℝ) (beta : ℝ) (mu : ℝ) (f0 : ℝ) (nc : ℕ) (m : ℝ) (qs : List (ℕ × ℝ)) (hL : pg.Extends ig) (hp : p ≠ 0) (hm : m ≠ 0) (hb : 0 < beta) (hk : k.nc ≠ 0) (hr : k.matsubara_reg ≠ 0) (hqs : ∀ q ∈ qs, q.2 ≠ 0) (hD : qcd.thermal.zero_matsubara.gluon.dressing_t_inv_landau_w_field_config ig k p beta mu f0 (FieldConfig.new nc m qs) ≠ 0) :
    P.qcd.thermal.zero_matsubara.gluon.propagator_t_landau_w_field_config pg k p beta mu f0 (FieldConfig.new nc m qs) = val (qcd.thermal.zero_matsubara.gluon.propagator_t_landau_w_field_config ig k p beta mu f0 (FieldConfig.new nc m qs)) := by
  rw [P.qcd.thermal.zero_matsubara.gluon.propagator_t_landau_w_field_config, qcd.thermal.zero_matsubara.gluon.propagator_t_landau_w_field_config, qcd_thermal_zero_matsubara_gluon_dressing_t_landau_w_field_config_val _ _ k p beta mu f0 nc m qs hL hp hm hb hk hr hqs hD]
  have h1 := mul_ne_zero hp hp
  try simp only [ofR_real] at h1
  simp (disch := assumption) only [mul_val, add_val, ofR_val, ofR_real, toC_val, inv_val, div_val]

theorem qcd_thermal_zero_matsubara_gluon_dressing_l_inv_zero_temp_landau_w_field_config_val (pg : PIntegrator) (ig : Integrator) (k : Consts ℝ) (p : ℝ) (mu : ℝ) (f0 : ℝ) (nc : ℕ) (m : ℝ) (qs : List (ℕ × ℝ)) (hL : pg.Extends ig) (hp : p ≠ 0) (hm : m ≠ 0) (hk : k.nc ≠ 0) (hr : k.matsubara_reg ≠ 0) (hqs : ∀ q ∈ qs, q.2 ≠ 0) (hmus : ∀ q ∈ qs, |mu| ≠ |q.2|) :
    P.qcd.thermal.zero_matsubara.gluon.dressing_l_inv_zero_temp_landau_w_field_config pg k p mu f0 (FieldConfig.new nc m qs) = val (qcd.thermal.zero_matsubara.gluon.dressing_l_inv_zero_temp_landau_w_field_config ig k p mu f0 (FieldConfig.new nc m qs)) := by
  have e := sum_val_congr (FieldConfig.new nc m qs).quarks_internal (fun qi => P.gluon.thermal.zero_matsubara.polarization_quark_l_thermal_part_zero_temp_landau pg k p qi.mq mu * val (qi.nf : ℝ)) (fun qi => gluon.thermal.zero_matsubara.polarization_quark_l_thermal_part_zero_temp_landau ig k p qi.mq mu * (qi.nf : ℝ)) (fun qi h => by
    rw [gluon_thermal_zero_matsubara_polarization_quark_l_thermal_part_zero_temp_landau_val pg ig k p qi.mq mu hL hp hk hr (config_mu hmus qi h), mul_val])
  have hs := slit_real hp hm
  have h1 := mul_ne_zero hp hp
  have h2 := mul_ne_zero hm hm
  simp (disch := assumption) only [P.qcd.thermal.zero_matsubara.gluon.dressing_l_inv_zero_temp_landau_w_field_config, qcd.thermal.zero_matsubara.gluon.dressing_l_inv_zero_temp_landau_w_field_config, gluon_new, num_val, ofR_val, mul_val, add_val, sub_val, div_val, inv_val, toC_val, bind_val, qcd_config_inv_landau_val hs k hm hqs, e]

theorem qcd_thermal_zero_matsubara_gluon_dressing_t_inv_zero_temp_landau_w_field_config_val (pg : PIntegrator) (ig : Integrator) (k : Consts ℝ) (p : ℝ) (mu : ℝ) (f0 : ℝ) (nc : ℕ) (m : ℝ) (qs : List (ℕ × ℝ)) (hL : pg.Extends ig) (hp : p ≠ 0) (hm : m ≠ 0) (hk : k.nc ≠ 0) (hr : k.matsubara_reg ≠ 0) (hqs : ∀ q ∈ qs, q.2 ≠ 0) (hmus : ∀ q ∈ qs, |mu| ≠ |q.2|) :
    P.qcd.thermal.zero_matsubara.gluon.dressing_t_inv_zero_temp_landau_w_field_config pg k p mu f0 (FieldConfig.new nc m qs) = val (qcd.thermal.zero_matsubara.gluon.dressing_t_inv_zero_temp_landau_w_field_config ig k p mu f0 (FieldConfig.new nc m qs)) := by
  have e := sum_val_congr (FieldConfig.new nc m qs).quarks_internal (fun qi => P.gluon.thermal.zero_matsubara.polarization_quark_t_thermal_part_zero_temp_landau pg k p qi.mq mu * val (qi.nf : ℝ)) (fun qi => gluon.thermal.zero_matsubara.polarization_quark_t_thermal_part_zero_temp_landau ig k p qi.mq mu * (qi.nf : ℝ)) (fun qi h => by
    rw [gluon_thermal_zero_matsubara_polarization_quark_t_thermal_part_zero_temp_landau_val pg ig k p qi.mq mu hL hp hk hr (config_mu hmus qi h), mul_val])
  have hs := slit_real hp hm
  have h1 := mul_ne_zero hp hp
  have h2 := mul_ne_zero hm hm
  simp (disch := assumption) only [P.qcd.thermal.zero_matsubara.gluon.dressing_t_inv_zero_temp_landau_w_field_config, qcd.thermal.zero_matsubara.gluon.dressing_t_inv_zero_temp_landau_w_field_config, gluon_new, num_val, ofR_val, mul_val, add_val, sub_val, div_val, inv_val, toC_val, bind_val, qcd_config_inv_landau_val hs k hm hqs, e]

theorem qcd_thermal_zero_matsubara_gluon_dressing_l_zero_temp_landau_w_field_config_val (pg : PIntegrator) (ig : Integrator) (k : Consts ℝ) (p : ℝ) (mu : ℝ) (f0 : ℝ) (nc : ℕ) (m : ℝ) (qs : List (ℕ × ℝ)) (hL : pg.Extends ig) (hp : p ≠ 0) (hm : m ≠ 0) (hk : k.nc ≠ 0) (hr : k.matsubara_reg ≠ 0) (hqs : ∀ q ∈ qs, q.2 ≠ 0) (hmus : ∀ q ∈ qs, |mu| ≠ |q.2|) (hD : qcd.thermal.zero_matsubara.gluon.dressing_l_inv_zero_temp_landau_w_field_config ig k p mu f0 (FieldConfig.new nc m qs) ≠ 0) :
    P.qcd.thermal.zero_matsubara.gluon.dressing_l_zero_temp_landau_w_field_config pg k p mu f0 (FieldConfig.new nc m qs) = val (qcd.thermal.zero_matsubara.gluon.dressing_l_zero_temp_landau_w_field_config ig k p mu f0 (FieldConfig.new nc m qs)) := by
  rw [P.qcd.thermal.zero_matsubara.gluon.dressing_l_zero_temp_landau_w_field_config, qcd.thermal.zero_matsubara.gluon.dressing_l_zero_temp_landau_w_field_config, qcd_thermal_zero_matsubara_gluon_dressing_l_inv_zero_temp_landau_w_field_config_val _ _ k p mu f0 nc m qs hL hp hm hk hr hqs hmus]
  exact div_val hD

theorem qcd_thermal_zero_matsubara_gluon_dressing_t_zero_temp_landau_w_field_config_val (pg : PIntegrator) (ig : Integrator) (k : Consts ℝ) (p : ℝ) (mu : ℝ) (f0 : ℝ) (nc : ℕ) (m : ℝ) (qs : List (ℕ × ℝ)) (hL : pg.Extends ig) (hp : p ≠ 0) (hm : m ≠ 0) (hk : k.nc ≠ 0) (hr : k.matsubara_reg ≠ 0) (hqs : ∀ q ∈ qs, q.2 ≠ 0) (hmus : ∀ q ∈ qs, |mu| ≠ |q.2|) (hD : qcd.thermal.zero_matsubara.gluon.dressing_t_inv_zero_temp_landau_w_field_config ig k p mu f0 (FieldConfig.new nc m qs) ≠ 0) :
    P.qcd.thermal.zero_matsubara.gluon.dressing_t_zero_temp_landau_w_field_config pg k p mu f0 (FieldConfig.new nc m qs) = val (qcd.thermal.zero_matsubara.gluon.dressing_t_zero_temp_landau_w_field_config ig k p mu f0 (FieldConfig.new nc m qs)) := by
  rw [P.qcd.thermal.zero_matsubara.gluon.dressing_t_zero_temp_landau_w_field_config, qcd.thermal.zero_matsubara.gluon.dressing_t_zero_temp_landau_w_field_config, qcd_thermal_zero_matsubara_gluon_dressing_t_inv_zero_temp_landau_w_field_config_val _ _ k p mu f0 nc m qs hL hp hm hk hr hqs hmus]
  exact div_val hD

theorem qcd_thermal_zero_matsubara_gluon_propagator_l_zero_temp_landau_w_field_config_val (pg : PIntegrator) (ig : Integrator) (k : Consts ℝ) (p : ℝ) (mu : ℝ) (f0 : ℝ) (nc : ℕ) (m : ℝ) (qs : List (ℕ × ℝ)) (hL : pg.Extends ig) (hp : p ≠ 0) (hm : m ≠ 0) (hk : k.nc ≠ 0) (hr : k.matsubara_reg ≠ 0) (hqs : ∀ q ∈ qs, q.2 ≠ 0) (hmus : ∀ q ∈ qs, |mu| ≠ |q.2|) (hD : qcd.thermal.zero_matsubara.gluon.dressing_l_inv_zero_temp_landau_w_field_config ig k p mu f0 (FieldConfig.new nc m qs) ≠ 0) :
    P.qcd.thermal.zero_matsubara.gluon.propagator_l_zero_temp_landau_w_field_config pg k p mu f0 (FieldConfig.new nc m qs) = val (qcd.thermal.zero_matsubara.gluon.propagator_l_zero_temp_landau_w_field_config ig k p mu f0 (FieldConfig.new nc m qs)) := by
  rw [P.qcd.thermal.zero_matsubara.gluon.propagator_l_zero_temp_landau_w_field_config, qcd.thermal.zero_matsubara.gluon.propagator_l_zero_temp_landau_w_field_config, qcd_thermal_zero_matsubara_gluon_dressing_l_zero_temp_landau_w_field_config_val _ _ k p mu f0 nc m qs hL hp hm hk hr hqs hmus hD]
  have h1 := mul_ne_zero hp hp
  try simp only [ofR_real] at h1
  simp (disch := assumption) only [mul_val, add_val, ofR_val, ofR_real, toC_val, inv_val, div_val]

theorem qcd_thermal_zero_matsubara_gluon_propagator_t_zero_temp_landau_w_field_config_val (pg : PIntegrator) (ig : Integrator) (k : Consts ℝ) (p : ℝ) (mu : ℝ) (f0 : ℝ) (nc : ℕ) (m : ℝ) (qs : List (ℕ × ℝ)) (hL : pg.Extends ig) (hp : p ≠ 0) (hm : m ≠ 0) (hk : k.nc ≠ 0) (hr : k.matsubara_reg ≠ 0) (hqs : ∀ q ∈ qs, q.2 ≠ 0) (hmus : ∀ q ∈ qs, |mu| ≠ |q.2|) (hD : qcd.thermal.zero_matsubara.gluon.dressing_t_inv_zero_temp_landau_w_field_config ig k p mu f0 (FieldConfig.new nc m qs) ≠ 0) :
    P.qcd.thermal.zero_matsubara.gluon.propagator_t_zero_temp_landau_w_field_config pg k p mu f0 (FieldConfig.new nc m qs) = val (qcd.thermal.zero_matsubara.gluon.propagator_t_zero_temp_landau_w_field_config ig k p mu f0 (FieldConfig.new nc m qs)) := by
  rw [P.qcd.thermal.zero_matsubara.gluon.propagator_t_zero_temp_landau_w_field_config, qcd.thermal.zero_matsubara.gluon.propagator_t_zero_temp_landau_w_field_config, qcd_thermal_zero_matsubara_gluon_dressing_t_zero_temp_landau_w_field_config_val _ _ k p mu f0 nc m qs hL hp hm hk hr hqs hmus hD]
  have h1 := mul_ne_zero hp hp
  try simp only [ofR_real] at h1
  simp (disch := assumption) only [mul_val, add_val, ofR_val, ofR_real, toC_val, inv_val, div_val]

theorem qcd_thermal_zero_momentum_gluon_dressing_l_inv_landau_val (pg : PIntegrator) (ig : Integrator) {T : Type} [Num T] [NumDom T] [NumDomLaw T] (k : Consts ℝ) (om : T) (m : ℝ) (mq : ℝ) (beta : ℝ) (mu : ℝ) (f0 : ℝ) (hL : pg.Extends ig) (ho : (toC om).re ≠ 0) (hm : m ≠ 0) (hb : 0 < beta) (hk : k.nc ≠ 0) (hmq : mq ≠ 0) :
    P.qcd.thermal.zero_momentum.gluon.dressing_l_inv_landau pg k om m mq beta mu f0 = val (qcd.thermal.zero_momentum.gluon.dressing_l_inv_landau ig k om m mq beta mu f0) := by
  have hs := slit_sq (om := om) ho hm
  have h1 := mul_ne_zero (om_ne ho) (om_ne ho)
  have h2 : (ofR (m * m) : T) ≠ 0 := ofR_ne_zero (mul_ne_zero hm hm)
  simp (disch := assumption) only [P.qcd.thermal.zero_momentum.gluon.dressing_l_inv_landau, qcd.thermal.zero_momentum.gluon.dressing_l_inv_landau, num_val, ofR_val, mul_val, add_val, sub_val, div_val, inv_val, toC_val, bind_val, qcd_dressing_inv_landau_val hs k (div_ne_zero hmq hm), gluon_thermal_zero_momentum_polarization_glue_l_thermal_part_landau_val pg ig _ _ _ _ hL ho hm hb, gluon_thermal_zero_momentum_polarization_quark_l_thermal_part_landau_val pg ig _ _ _ _ _ hL ho hb hk]

theorem qcd_thermal_zero_momentum_gluon_dressing_t_inv_landau_val (pg : PIntegrator) (ig : Integrator) {T : Type} [Num T] [NumDom T] [NumDomLaw T] (k : Consts ℝ) (om : T) (m : ℝ) (mq : ℝ) (beta : ℝ) (mu : ℝ) (f0 : ℝ) (hL : pg.Extends ig) (ho : (toC om).re ≠ 0) (hm : m ≠ 0) (hb : 0 < beta) (hk : k.nc ≠ 0) (hmq : mq ≠ 0) :
    P.qcd.thermal.zero_momentum.gluon.dressing_t_inv_landau pg k om m mq beta mu f0 = val (qcd.thermal.zero_momentum.gluon.dressing_t_inv_landau ig k om m mq beta mu f0) := by
  have hs := slit_sq (om := om) ho hm
  have h1 := mul_ne_zero (om_ne ho) (om_ne ho)
  have h2 : (ofR (m * m) : T) ≠ 0 := ofR_ne_zero (mul_ne_zero hm hm)
  simp (disch := assumption) only [P.qcd.thermal.zero_momentum.gluon.dressing_t_inv_landau, qcd.thermal.zero_momentum.gluon.dressing_t_inv_landau, num_val, ofR_val, mul_val, add_val, sub_val, div_val, inv_val, toC_val, bind_val, qcd_dressing_inv_landau_val hs k (div_ne_zero hmq hm), gluon_thermal_zero_momentum_polarization_glue_t_thermal_part_landau_val pg ig _ _ _ _ hL ho hm hb, gluon_thermal_zero_momentum_polarization_quark_t_thermal_part_landau_val pg ig _ _ _ _ _ hL ho hb hk]

theorem qcd_thermal_zero_momentum_gluon_dressing_l_landau_val (pg : PIntegrator) (ig : Integrator) {T : Type} [Num T] [NumDom T] [NumDomLaw T] (k : Consts ℝ) (om : T) (m : ℝ) (mq : ℝ) (beta : ℝ) (mu : ℝ) (f0 : ℝ) (hL : pg.Extends ig) (ho : (toC om).re ≠ 0) (hm : m ≠ 0) (hb : 0 < beta) (hk : k.nc ≠ 0) (hmq : mq ≠ 0) (hD : qcd.thermal.zero_momentum.gluon.dressing_l_inv_landau ig k om m mq beta mu f0 ≠ 0) :
    P.qcd.thermal.zero_momentum.gluon.dressing_l_landau pg k om m mq beta mu f0 = val (qcd.thermal.zero_momentum.gluon.dressing_l_landau ig k om m mq beta mu f0) := by
  rw [P.qcd.thermal.zero_momentum.gluon.dressing_l_landau, qcd.thermal.zero_momentum.gluon.dressing_l_landau, qcd_thermal_zero_momentum_gluon_dressing_l_inv_landau_val _ _ k om m mq beta mu f0 hL ho hm hb hk hmq]
  exact inv_val hD

theorem qcd_thermal_zero_momentum_gluon_dressing_t_landau_val (pg : PIntegrator) (ig : Integrator) {T : Type} [Num T] [NumDom T] [NumDomLaw T] (k : Consts ℝ) (om : T) (m : ℝ) (mq : ℝ) (beta : ℝ) (mu : ℝ) (f0 : ℝ) (hL : pg.Extends ig) (ho : (toC om).re ≠ 0) (hm : m ≠ 0) (hb : 0 < beta) (hk : k.nc ≠ 0) (hmq : mq ≠ 0) (hD : qcd.thermal.zero_momentum.gluon.dressing_t_inv_landau ig k om m mq beta mu f0 ≠ 0) :
    P.qcd.thermal.zero_momentum.gluon.dressing_t_landau pg k om m mq beta mu f0 = val (qcd.thermal.zero_momentum.gluon.dressing_t_landau ig k om m mq beta mu f0) := by
  rw [P.qcd.thermal.zero_momentum.gluon.dressing_t_landau, qcd.thermal.zero_momentum.gluon.dressing_t_landau, qcd_thermal_zero_momentum_gluon_dressing_t_inv_landau_val _ _ k om m mq beta mu f0 hL ho hm hb hk hmq]
  exact inv_val hD

theorem qcd_thermal_zero_momentum_gluon_propagator_l_landau_val (pg : PIntegrator) (ig : Integrator) {T : Type} [Num T] [NumDom T] [NumDomLaw T] (k : Consts ℝ) (om : T) (m : ℝ) (mq : ℝ) (beta : ℝ) (mu : ℝ) (f0 : ℝ) (hL : pg.Extends ig) (ho : (toC om).re ≠ 0) (hm : m ≠ 0) (hb : 0 < beta) (hk : k.nc ≠ 0) (hmq : mq ≠ 0) (hD : qcd.thermal.zero_momentum.gluon.dressing_l_inv_landau ig k om m mq beta mu f0 ≠ 0) :
    P.qcd.thermal.zero_momentum.gluon.propagator_l_landau pg k om m mq beta mu f0 = val (qcd.thermal.zero_momentum.gluon.propagator_l_landau ig k om m mq beta mu f0) := by
  rw [P.qcd.thermal.zero_momentum.gluon.propagator_l_landau, qcd.thermal.zero_momentum.gluon.propagator_l_landau, qcd_thermal_zero_momentum_gluon_dressing_l_landau_val _ _ k om m mq beta mu f0 hL ho hm hb hk hmq hD]
  have h1 := mul_ne_zero (om_ne ho) (om_ne ho)
  try simp only [ofR_real] at h1
  simp (disch := assumption) only [mul_val, add_val, ofR_val, ofR_real, toC_val, inv_val, div_val]

theorem qcd_thermal_zero_momentum_gluon_propagator_t_landau_val (pg : PIntegrator) (ig : Integrator) {T : Type} [Num T] [NumDom T] [NumDomLaw T] (k : Consts ℝ) (om : T) (m : ℝ) (mq : ℝ) (beta : ℝ) (mu : ℝ) (f0 : ℝ) (hL : pg.Extends ig) (ho : (toC om).re ≠ 0) (hm : m ≠ 0) (hb : 0 < beta) (hk : k.nc ≠ 0) (hmq : mq ≠ 0) (hD : qcd.thermal.zero_momentum.gluon.dressing_t_inv_landau ig k om m mq beta mu f0 ≠ 0) :
    P.qcd.thermal.zero_momentum.gluon.propagator_t_landau pg k om m mq beta mu f0 = val (qcd.thermal.zero_momentum.gluon.propagator_t_landau ig k om m mq beta mu f0) := by
  rw [P.qcd.thermal.zero_momentum.gluon.propagator_t_landau, qcd.thermal.zero_momentum.gluon.propagator_t_landau, qcd_thermal_zero_momentum_gluon_dressing_t_landau_val _ _ k om m mq beta mu f0 hL ho hm hb hk hmq hD]
  have h1 := mul_ne_zero (om_ne ho) (om_ne ho)
  try simp only [ofR_real] at h1
  simp (disch := assumption) only [mul_val, add_val, ofR_val, ofR_real, toC_val, inv_val, div_val]

theorem qcd_thermal_zero_momentum_gluon_dressing_l_inv_zero_temp_landau_val (pg : PIntegrator) (ig : Integrator) {T : Type} [Num T] [NumDom T] [NumDomLaw T] (k : Consts ℝ) (om : T) (m : ℝ) (mq : ℝ) (mu : ℝ) (f0 : ℝ) (hL : pg.Extends ig) (ho : (toC om).re ≠ 0) (hm : m ≠ 0) (hk : k.nc ≠ 0) (hmq : mq ≠ 0) (hmu : |mu| ≠ |mq|) :
    P.qcd.thermal.zero_momentum.gluon.dressing_l_inv_zero_temp_landau pg k om m mq mu f0 = val (qcd.thermal.zero_momentum.gluon.dressing_l_inv_zero_temp_landau ig k om m mq mu f0) := by
  have hs := slit_sq (om := om) ho hm
  have h1 := mul_ne_zero (om_ne ho) (om_ne ho)
  have h2 : (ofR (m * m) : T) ≠ 0 := ofR_ne_zero (mul_ne_zero hm hm)
  simp (disch := assumption) only [P.qcd.thermal.zero_momentum.gluon.dressing_l_inv_zero_temp_landau, qcd.thermal.zero_momentum.gluon.dressing_l_inv_zero_temp_landau, num_val, ofR_val, mul_val, add_val, sub_val, div_val, inv_val, toC_val, bind_val, qcd_dressing_inv_landau_val hs k (div_ne_zero hmq hm), gluon_thermal_zero_momentum_polarization_quark_l_thermal_part_zero_temp_landau_val pg ig _ _ _ _ hL ho hk hmu]

theorem qcd_thermal_zero_momentum_gluon_dressing_t_inv_zero_temp_landau_val (pg : PIntegrator) (ig : Integrator) {T : Type} [Num T] [NumDom T] [NumDomLaw T] (k : Consts ℝ) (om : T) (m : ℝ) (mq : ℝ) (mu : ℝ) (f0 : ℝ) (hL : pg.Extends ig) (ho : (toC om).re ≠ 0) (hm : m ≠ 0) (hk : k.nc ≠ 0) (hmq : mq ≠ 0) (hmu : |mu| ≠ |mq|) :
    P.qcd.thermal.zero_momentum.gluon.dressing_t_inv_zero_temp_landau pg k om m mq mu f0 = val (qcd.thermal.zero_momentum.gluon.dressing_t_inv_zero_temp_landau ig k om m mq mu f0) := by
  have hs := slit_sq (om := om) ho hm
  have h1 := mul_ne_zero (om_ne ho) (om_ne ho)
  have h2 : (ofR (m * m) : T) ≠ 0 := ofR_ne_zero (mul_ne_zero hm hm)
  simp (disch := assumption) only [P.qcd.thermal.zero_momentum.gluon.dressing_t_inv_zero_temp_landau, qcd.thermal.zero_momentum.gluon.dressing_t_inv_zero_temp_landau, num_val, ofR_val, mul_val, add_val, sub_val, div_val, inv_val, toC_val, bind_val, qcd_dressing_inv_landau_val hs k (div_ne_zero hmq hm), gluon_thermal_zero_momentum_polarization_quark_t_thermal_part_zero_temp_landau_val pg ig _ _ _ _ hL ho hk hmu]

theorem qcd_thermal_zero_momentum_gluon_dressing_l_zero_temp_landau_val (pg : PIntegrator) (ig : Integrator) {T : Type} [Num T] [NumDom T] [NumDomLaw T] (k : Consts ℝ) (om : T) (m : ℝ) (mq : ℝ) (mu : ℝ) (f0 : ℝ) (hL : pg.Extends ig) (ho : (toC om).re ≠ 0) (hm : m ≠ 0) (hk : k.nc ≠ 0) (hmq : mq ≠ 0) (hmu : |mu| ≠ |mq|) (hD : qcd.thermal.zero_momentum.gluon.dressing_l_inv_zero_temp_landau ig k om m mq mu f0 ≠ 0) :
    P.qcd.thermal.zero_momentum.gluon.dressing_l_zero_temp_landau pg k om m mq mu f0 = val (qcd.thermal.zero_momentum.gluon.dressing_l_zero_temp_landau ig k om m mq mu f0) := by
  rw [P.qcd.thermal.zero_momentum.gluon.dressing_l_zero_temp_landau, qcd.thermal.zero_momentum.gluon.dressing_l_zero_temp_landau, qcd_thermal_zero_momentum_gluon_dressing_l_inv_zero_temp_landau_val _ _ k om m mq mu f0 hL ho hm hk hmq hmu]
  exact inv_val hD

theorem qcd_thermal_zero_momentum_gluon_dressing_t_zero_temp_landau_val (pg : PIntegrator) (ig : Integrator) {T : Type} [Num T] [NumDom T] [NumDomLaw T] (k : Consts ℝ) (om : T) (m : ℝ) (mq : ℝ) (mu : ℝ) (f0 : ℝ) (hL : pg.Extends ig) (ho : (toC om).re ≠ 0) (hm : m ≠ 0) (hk : k.nc ≠ 0) (hmq : mq ≠ 0) (hmu : |mu| ≠ |mq|) (hD : qcd.thermal.zero_momentum.gluon.dressing_t_inv_zero_temp_landau ig k om m mq mu f0 ≠ 0) :
    P.qcd.thermal.zero_momentum.gluon.dressing_t_zero_temp_landau pg k om m mq mu f0 = val (qcd.thermal.zero_momentum.gluon.dressing_t_zero_temp_landau ig k om m mq mu f0) := by
  rw [P.qcd.thermal.zero_momentum.gluon.dressing_t_zero_temp_landau, qcd.thermal.zero_momentum.gluon.dressing_t_zero_temp_landau, qcd_thermal_zero_momentum_gluon_dressing_t_inv_zero_temp_landau_val _ _ k om m mq mu f0 hL ho hm hk hmq hmu]
  exact inv_val hD

theorem qcd_thermal_zero_momentum_gluon_propagator_l_zero_temp_landau_val (pg : PIntegrator) (ig : Integrator) {T : Type} [Num T] [NumDom T] [NumDomLaw T] (k : Consts ℝ) (om : T) (m : ℝ) (mq : ℝ) (mu : ℝ) (f0 : ℝ) (hL : pg.Extends ig) (ho : (toC om).re ≠ 0) (hm : m ≠ 0) (hk : k.nc ≠ 0) (hmq : mq ≠ 0) (hmu : |mu| ≠ |mq|) (hD : qcd.thermal.zero_momentum.gluon.dressing_l_inv_zero_temp_landau ig k om m mq mu f0 ≠ 0) :
    P.qcd.thermal.zero_momentum.gluon.propagator_l_zero_temp_landau pg k om m mq mu f0 = val (qcd.thermal.zero_momentum.gluon.propagator_l_zero_temp_landau ig k om m mq mu f0) := by
  rw [P.qcd.thermal.zero_momentum.gluon.propagator_l_zero_temp_landau, qcd.thermal.zero_momentum.gluon.propagator_l_zero_temp_landau, qcd_thermal_zero_momentum_gluon_dressing_l_zero_temp_landau_val _ _ k om m mq mu f0 hL ho hm hk hmq hmu hD]
  have h1 := mul_ne_zero (om_ne ho) (om_ne ho)
  try simp only [ofR_real] at h1
  simp (disch := assumption) only [mul_val, add_val, ofR_val, ofR_real, toC_val, inv_val, div_val]

theorem qcd_thermal_zero_momentum_gluon_propagator_t_zero_temp_landau_val (pg : PIntegrator) (ig : Integrator) {T : Type} [Num T] [NumDom T] [NumDomLaw T] (k : Consts ℝ) (om : T) (m : ℝ) (mq : ℝ) (mu : ℝ) (f0 : ℝ) (hL : pg.Extends ig) (ho : (toC om).re ≠ 0) (hm : m ≠ 0) (hk : k.nc ≠ 0) (hmq : mq ≠ 0) (hmu : |mu| ≠ |mq|) (hD : qcd.thermal.zero_momentum.gluon.dressing_t_inv_zero_temp_landau ig k om m mq mu f0 ≠ 0) :
    P.qcd.thermal.zero_momentum.gluon.propagator_t_zero_temp_landau pg k om m mq mu f0 = val (qcd.thermal.zero_momentum.gluon.propagator_t_zero_temp_landau ig k om m mq mu f0) := by
  rw [P.qcd.thermal.zero_momentum.gluon.propagator_t_zero_temp_landau, qcd.thermal.zero_momentum.gluon.propagator_t_zero_temp_landau, qcd_thermal_zero_momentum_gluon_dressing_t_zero_temp_landau_val _ _ k om m mq mu f0 hL ho hm hk hmq hmu hD]
  have h1 := mul_ne_zero (om_ne ho) (om_ne ho)
  try simp only [ofR_real] at h1
  simp (disch := assumption) only [mul_val, add_val, ofR_val, ofR_real, toC_val, inv_val, div_val]

theorem qcd_thermal_zero_momentum_gluon_dressing_l_inv_landau_w_field_config_val (pg : PIntegrator) (ig : Integrator) {T : Type} [Num T] [NumDom T] [NumDomLaw T] (k : Consts ℝ) (om : T) (beta : ℝ) (mu : ℝ) (f0 : ℝ) (nc : ℕ) (m : ℝ) (qs : List (ℕ × ℝ)) (hL : pg.Extends ig) (ho : (toC om).re ≠ 0) (hm : m ≠ 0) (hb : 0 < beta) (hk : k.nc ≠ 0) (hqs : ∀ q ∈ qs, q.2 ≠ 0) :
    P.qcd.thermal.zero_momentum.gluon.dressing_l_inv_landau_w_field_config pg k om beta mu f0 (FieldConfig.new nc m qs) = val (qcd.thermal.zero_momentum.gluon.dressing_l_inv_landau_w_field_config ig k om beta mu f0 (FieldConfig.new nc m qs)) := by
  have hs := slit_sq (om := om) ho hm
  have h1 := mul_ne_zero (om_ne ho) (om_ne ho)
  have h2 : (ofR (m * m) : T) ≠ 0 := ofR_ne_zero (mul_ne_zero hm hm)
  simp (disch := assumption) only [P.qcd.thermal.zero_momentum.gluon.dressing_l_inv_landau_w_field_config, qcd.thermal.zero_momentum.gluon.dressing_l_inv_landau_w_field_config, gluon_new, num_val, ofR_val, mul_val, add_val, sub_val, div_val, inv_val, toC_val, bind_val, qcd_config_inv_landau_val hs k hm hqs, gluon_thermal_zero_momentum_polarization_quark_l_thermal_part_landau_val pg ig _ _ _ _ _ hL ho hb hk, gluon_thermal_zero_momentum_polarization_glue_l_thermal_part_landau_val pg ig _ _ _ _ hL ho hm hb, sum_map_val]

theorem qcd_thermal_zero_momentum_gluon_dressing_t_inv_landau_w_field_config_val (pg : PIntegrator) (ig : Integrator) {T : Type} [Num T] [NumDom T] [NumDomLaw T] (k : Consts ℝ) (om : T) (beta : ℝ) (mu : ℝ) (f0 : ℝ) (nc : ℕ) (m : ℝ) (qs : List (ℕ × ℝ)) (hL : pg.Extends ig) (ho : (toC om).re ≠ 0) (hm : m ≠ 0) (hb : 0 < beta) (hk : k.nc ≠ 0) (hqs : ∀ q ∈ qs, q.2 ≠ 0) :
    P.qcd.thermal.zero_momentum.gluon.dressing_t_inv_landau_w_field_config pg k om beta mu f0 (FieldConfig.new nc m qs) = val (qcd.thermal.zero_momentum.gluon.dressing_t_inv_landau_w_field_config ig k om beta mu f0 (FieldConfig.new nc m qs)) := by
  have hs := slit_sq (om := om) ho hm
  have h1 := mul_ne_zero (om_ne ho) (om_ne ho)
  have h2 : (ofR (m * m) : T) ≠ 0 := ofR_ne_zero (mul_ne_zero hm hm)
  simp (disch := assumption) only [P.qcd.thermal.zero_momentum.gluon.dressing_t_inv_landau_w_field_config, qcd.thermal.zero_momentum.gluon.dressing_t_inv_landau_w_field_config, gluon_new, num_val, ofR_val, mul_val, add_val, sub_val, div_val, inv_val, toC_val, bind_val, qcd_config_inv_landau_val hs k hm hqs, gluon_thermal_zero_momentum_polarization_quark_t_thermal_part_landau_val pg ig _ _ _ _ _ hL ho hb hk, gluon_thermal_zero_momentum_polarization_glue_t_thermal_part_landau_val pg ig _ _ _ _ hL ho hm hb, sum_map_val]

theorem qcd_thermal_zero_momentum_gluon_dressing_l_landau_w_field_config_val (pg : PIntegrator) (ig : Integrator) {T : Type} [Num T] [NumDom T] [NumDomLaw T] (k : Consts ℝ) (om : T) (beta : ℝ) (mu : ℝ) (f0 : ℝ) (nc : ℕ) (m : ℝ) (qs : List (ℕ × ℝ)) (hL : pg.Extends ig) (ho : (toC om).re ≠ 0) (hm : m ≠ 0) (hb : 0 < beta) (hk : k.nc ≠ 0) (hqs : ∀ q ∈ qs, q.2 ≠ 0) (hD : qcd.thermal.zero_momentum.gluon.dressing_l_inv_landau_w_field_config ig k om beta mu f0 (FieldConfig.new nc m qs) ≠ 0) :
    P.qcd.thermal.zero_momentum.gluon.dressing_l_landau_w_field_config pg k om beta mu f0 (FieldConfig.new nc m qs) = val (qcd.thermal.zero_momentum.gluon.dressing_l_landau_w_field_config ig k om beta mu f0 (FieldConfig.new nc m qs)) := by
  rw [P.qcd.thermal.zero_momentum.gluon.dressing_l_landau_w_field_config, qcd.thermal.zero_momentum.gluon.dressing_l_landau_w_field_config, qcd_thermal_zero_momentum_gluon_dressing_l_inv_landau_w_field_config_val _ _ k om beta mu f0 nc m qs hL ho hm hb hk hqs]
  exact inv_val hD

theorem qcd_thermal_zero_momentum_gluon_dressing_t_landau_w_field_config_val (pg : PIntegrator) (ig : Integrator) {T : Type} [Num T] [NumDom T] [NumDomLaw T] (k : Consts ℝ) (om : T) (beta : ℝ) (mu : ℝ) (f0 : ℝ) (nc : ℕ) (m : ℝ) (qs : List (ℕ × ℝ)) (hL : pg.Extends ig) (ho : (toC om).re ≠ 0) (hm : m ≠ 0) (hb : 0 < beta) (hk : k.nc ≠ 0) (hqs : ∀ q ∈ qs, q.2 ≠ 0) (hD : qcd.thermal.zero_momentum.gluon.dressing_t_inv_landau_w_field_config ig k om beta mu f0 (FieldConfig.new nc m qs) ≠ 0) :
    P.qcd.thermal.zero_momentum.gluon.dressing_t_landau_w_field_config pg k om beta mu f0 (FieldConfig.new nc m qs) = val (qcd.thermal.zero_momentum.gluon.dressing_t_landau_w_field_config ig k om beta mu f0 (FieldConfig.new nc m qs)) := by
  rw [P.qcd.thermal.zero_momentum.gluon.dressing_t_landau_w_field_config, qcd.thermal.zero_momentum.gluon.dressing_t_landau_w_field_config, qcd_thermal_zero_momentum_gluon_dressing_t_inv_landau_w_field_config_val _ _ k om beta mu f0 nc m qs hL ho hm hb hk hqs]
  exact inv_val hD

theorem qcd_thermal_zero_momentum_gluon_propagator_l_landau_w_field_config_val (pg : PIntegrator) (ig : Integrator) {T : Type} [Num T] [NumDom T] [NumDomLaw T] (k : Consts ℝ) (om : T) (beta : ℝ) (mu : ℝ) (f0 : ℝ) (nc : ℕ) (m : ℝ) (qs : List (ℕ × ℝ)) (hL : pg.Extends ig) (ho : (toC om).re ≠ 0) (hm : m ≠ 0) (hb : 0 < beta) (hk : k.nc ≠ 0) (hqs : ∀ q ∈ qs, q.2 ≠ 0) (hD : qcd.thermal.zero_momentum.gluon.dressing_l_inv_landau_w_field_config ig k om beta mu f0 (FieldConfig.new nc m qs) ≠ 0) :
    P.qcd.thermal.zero_momentum.gluon.propagator_l_landau_w_field_config pg k om beta mu f0 (FieldConfig.new nc m qs) = val (qcd.thermal.zero_momentum.gluon.propagator_l_landau_w_field_config ig k om beta mu f0 (FieldConfig.new nc m qs)) := by
  rw [P.qcd.thermal.zero_momentum.gluon.propagator_l_landau_w_field_config, qcd.thermal.zero_momentum.gluon.propagator_l_landau_w_field_config, qcd_thermal_zero_momentum_gluon_dressing_l_landau_w_field_config_val _ _ k om beta mu f0 nc m qs hL ho hm hb hk hqs hD]
  have h1 := mul_ne_zero (om_ne ho) (om_ne ho)
  try simp only [ofR_real] at h1
  simp (disch := assumption) only [mul_val, add_val, ofR_val, ofR_real, toC_val, inv_val, div_val]

theorem qcd_thermal_zero_momentum_gluon_propagator_t_landau_w_field_config_val (pg : PIntegrator) (ig : Integrator) {T : Type} [Num T] [NumDom T] [NumDomLaw T] (k : Consts ℝ) (om : T) (beta : ℝ) (mu : ℝ) (f0 : ℝ) (nc : ℕ) (m : ℝ) (qs : List (ℕ × ℝ)) (hL : pg.Extends ig) (ho : (toC om).re ≠ 0) (hm : m ≠ 0) (hb : 0 < beta) (hk : k.nc ≠ 0) (hqs : ∀ q ∈ qs, q.2 ≠ 0) (hD : qcd.thermal.zero_momentum.gluon.dressing_t_inv_landau_w_field_config ig k om beta mu f0 (FieldConfig.new nc m qs) ≠ 0) :
    P.qcd.thermal.zero_momentum.gluon.propagator_t_landau_w_field_config pg k om beta mu f0 (FieldConfig.new nc m qs) = val (qcd.thermal.zero_momentum.gluon.propagator_t_landau_w_field_config ig k om beta mu f0 (FieldConfig.new nc m qs)) := by
  rw [P.qcd.thermal.zero_momentum.gluon.propagator_t_landau_w_field_config, qcd.thermal.zero_momentum.gluon.propagator_t_landau_w_field_config, qcd_thermal_zero_momentum_gluon_dressing_t_landau_w_field_config_val _ _ k om beta mu f0 nc m qs hL ho hm hb hk hqs hD]
  have h1 := mul_ne_zero (om_ne ho) (om_ne ho)
  try simp only [ofR_real] at h1
  simp (disch := assumption) only [mul_val, add_val, ofR_val, ofR_real, toC_val, inv_val, div_val]

theorem qcd_thermal_zero_momentum_gluon_dressing_l_inv_zero_temp_landau_w_field_config_val (pg : PIntegrator) (ig : Integrator) {T : Type} [Num T] [NumDom T] [NumDomLaw T] (k : Consts ℝ) (om : T) (mu : ℝ) (f0 : ℝ) (nc : ℕ) (m : ℝ) (qs : List (ℕ × ℝ)) (hL : pg.Extends ig) (ho : (toC om).re ≠ 0) (hm : m ≠ 0) (hk : k.nc ≠ 0) (hqs : ∀ q ∈ qs, q.2 ≠ 0) (hmus : ∀ q ∈ qs, |mu| ≠ |q.2|) :
    P.qcd.thermal.zero_momentum.gluon.dressing_l_inv_zero_temp_landau_w_field_config pg k om mu f0 (FieldConfig.new nc m qs) = val (qcd.thermal.zero_momentum.gluon.dressing_l_inv_zero_temp_landau_w_field_config ig k om mu f0 (FieldConfig.new nc m qs)) := by
  have e := sum_val_congr (FieldConfig.new nc m qs).quarks_internal (fun qi => P.gluon.thermal.zero_momentum.polarization_quark_l_thermal_part_zero_temp_landau pg k om qi.mq mu * val (ofR (qi.nf : ℝ) : ℂ)) (fun qi => gluon.thermal.zero_momentum.polarization_quark_l_thermal_part_zero_temp_landau ig k om qi.mq mu * (ofR (qi.nf : ℝ) : ℂ)) (fun qi h => by
    rw [gluon_thermal_zero_momentum_polarization_quark_l_thermal_part_zero_temp_landau_val pg ig k om qi.mq mu hL ho hk (config_mu hmus qi h), mul_val])
  have hs := slit_sq (om := om) ho hm
  have h1 := mul_ne_zero (om_ne ho) (om_ne ho)
  have h2 : (ofR (m * m) : T) ≠ 0 := ofR_ne_zero (mul_ne_zero hm hm)
  simp (disch := assumption) only [P.qcd.thermal.zero_momentum.gluon.dressing_l_inv_zero_temp_landau_w_field_config, qcd.thermal.zero_momentum.gluon.dressing_l_inv_zero_temp_landau_w_field_config, gluon_new, num_val, ofR_val, mul_val, add_val, sub_val, div_val, inv_val, toC_val, bind_val, qcd_config_inv_landau_val hs k hm hqs, e]

theorem qcd_thermal_zero_momentum_gluon_dressing_t_inv_zero_temp_landau_w_field_config_val (pg : PIntegrator) (ig : Integrator) {T : Type} [Num T] [NumDom T] [NumDomLaw T] (k : Consts ℝ) (om : T) (mu : ℝ) (f0 : ℝ) (nc : ℕ) (m : ℝ) (qs : List (ℕ × ℝ)) (hL : pg.Extends ig) (ho : (toC om).re ≠ 0) (hm : m ≠ 0) (hk : k.nc ≠ 0) (hqs : ∀ q ∈ qs, q.2 ≠ 0) (hmus : ∀ q ∈ qs, |mu| ≠ |q.2|) :
    P.qcd.thermal.zero_momentum.gluon.dressing_t_inv_zero_temp_landau_w_field_config pg k om mu f0 (FieldConfig.new nc m qs) = val (qcd.thermal.zero_momentum.gluon.dressing_t_inv_zero_temp_landau_w_field_config ig k om mu f0 (FieldConfig.new nc m qs)) := by
  have e := sum_val_congr (FieldConfig.new nc m qs).quarks_internal (fun qi => P.gluon.thermal.zero_momentum.polarization_quark_t_thermal_part_zero_temp_landau pg k om qi.mq mu * val (ofR (qi.nf : ℝ) : ℂ)) (fun qi => gluon.thermal.zero_momentum.polarization_quark_t_thermal_part_zero_temp_landau ig k om qi.mq mu * (ofR (qi.nf : ℝ) : ℂ)) (fun qi h => by
    rw [gluon_thermal_zero_momentum_polarization_quark_t_thermal_part_zero_temp_landau_val pg ig k om qi.mq mu hL ho hk (config_mu hmus qi h), mul_val])
  have hs := slit_sq (om := om) ho hm
  have h1 := mul_ne_zero (om_ne ho) (om_ne ho)
  have h2 : (ofR (m * m) : T) ≠ 0 := ofR_ne_zero (mul_ne_zero hm hm)
  simp (disch := assumption) only [P.qcd.thermal.zero_momentum.gluon.dressing_t_inv_zero_temp_landau_w_field_config, qcd.thermal.zero_momentum.gluon.dressing_t_inv_zero_temp_landau_w_field_config, gluon_new, num_val, ofR_val, mul_val, add_val, sub_val, div_val, inv_val, toC_val, bind_val, qcd_config_inv_landau_val hs k hm hqs, e]

theorem qcd_thermal_zero_momentum_gluon_dressing_l_zero_temp_landau_w_field_config_val (pg : PIntegrator) (ig : Integrator) {T : Type} [Num T] [NumDom T] [NumDomLaw T] (k : Consts ℝ) (om : T) (mu : ℝ) (f0 : ℝ) (nc : ℕ) (m : ℝ) (qs : List (ℕ × ℝ)) (hL : pg.Extends ig) (ho : (toC om).re ≠ 0) (hm : m ≠ 0) (hk : k.nc ≠ 0) (hqs : ∀ q ∈ qs, q.2 ≠ 0) (hmus : ∀ q ∈ qs, |mu| ≠ |q.2|) (hD : qcd.thermal.zero_momentum.gluon.dressing_l_inv_zero_temp_landau_w_field_config ig k om mu f0 (FieldConfig.new nc m qs) ≠ 0) :
    P.qcd.thermal.zero_momentum.gluon.dressing_l_zero_temp_landau_w_field_config pg k om mu f0 (FieldConfig.new nc m qs) = val (qcd.thermal.zero_momentum.gluon.dressing_l_zero_temp_landau_w_field_config ig k om mu f0 (FieldConfig.new nc m qs)) := by
  rw [P.qcd.thermal.zero_momentum.gluon.dressing_l_zero_temp_landau_w_field_config, qcd.thermal.zero_momentum.gluon.dressing_l_zero_temp_landau_w_field_config, qcd_thermal_zero_momentum_gluon_dressing_l_inv_zero_temp_landau_w_field_config_val _ _ k om mu f0 nc m qs hL ho hm hk hqs hmus]
  exact inv_val hD

theorem qcd_thermal_zero_momentum_gluon_dressing_t_zero_temp_landau_w_field_config_val (pg : PIntegrator) (ig : Integrator) {T : Type} [Num T] [NumDom T] [NumDomLaw T] (k : Consts ℝ) (om : T) (mu : ℝ) (f0 : ℝ) (nc : ℕ) (m : ℝ) (qs : List (ℕ × ℝ)) (hL : pg.Extends ig) (ho : (toC om).re ≠ 0) (hm : m ≠ 0) (hk : k.nc ≠ 0) (hqs : ∀ q ∈ qs, q.2 ≠ 0) (hmus : ∀ q ∈ qs, |mu| ≠ |q.2|) (hD : qcd.thermal.zero_momentum.gluon.dressing_t_inv_zero_temp_landau_w_field_config ig k om mu f0 (FieldConfig.new nc m qs) ≠ 0) :
    P.qcd.thermal.zero_momentum.gluon.dressing_t_zero_temp_landau_w_field_config pg k om mu f0 (FieldConfig.new nc m qs) = val (qcd.thermal.zero_momentum.gluon.dressing_t_zero_temp_landau_w_field_config ig k om mu f0 (FieldConfig.new nc m qs)) := by
  rw [P.qcd.thermal.zero_momentum.gluon.dressing_t_zero_temp_landau_w_field_config, qcd.thermal.zero_momentum.gluon.dressing_t_zero_temp_landau_w_field_config, qcd_thermal_zero_momentum_gluon_dressing_t_inv_zero_temp_landau_w_field_config_val _ _ k om mu f0 nc m qs hL ho hm hk hqs hmus]
  exact inv_val hD

theorem qcd_thermal_zero_momentum_gluon_propagator_l_zero_temp_landau_w_field_config_val (pg : PIntegrator) (ig : Integrator) {T : Type} [Num T] [NumDom T] [NumDomLaw T] (k : Consts ℝ) (om : T) (mu : ℝ) (f0 : ℝ) (nc : ℕ) (m : ℝ) (qs : List (ℕ × ℝ)) (hL : pg.Extends ig) (ho : (toC om).re ≠ 0) (hm : m ≠ 0) (hk : k.nc ≠ 0) (hqs : ∀ q ∈ qs, q.2 ≠ 0) (hmus : ∀ q ∈ qs, |mu| ≠ |q.2|) (hD : qcd.thermal.zero_momentum.gluon.dressing_l_inv_zero_temp_landau_w_field_config ig k om mu f0 (FieldConfig.new nc m qs) ≠ 0) :
    P.qcd.thermal.zero_momentum.gluon.propagator_l_zero_temp_landau_w_field_config pg k om mu f0 (FieldConfig.new nc m qs) = val (qcd.thermal.zero_momentum.gluon.propagator_l_zero_temp_landau_w_field_config ig k om mu f0 (FieldConfig.new nc m qs)) := by
  rw [P.qcd.thermal.zero_momentum.gluon.propagator_l_zero_temp_landau_w_field_config, qcd.thermal.zero_momentum.gluon.propagator_l_zero_temp_landau_w_field_config, qcd_thermal_zero_momentum_gluon_dressing_l_zero_temp_landau_w_field_config_val _ _ k om mu f0 nc m qs hL ho hm hk hqs hmus hD]
  have h1 := mul_ne_zero (om_ne ho) (om_ne ho)
  try simp only [ofR_real] at h1
  simp (disch := assumption) only [mul_val, add_val, ofR_val, ofR_real, toC_val, inv_val, div_val]

theorem qcd_thermal_zero_momentum_gluon_propagator_t_zero_temp_landau_w_field_config_val (pg : PIntegrator) (ig : Integrator) {T : Type} [Num T] [NumDom T] [NumDomLaw T] (k : Consts ℝ) (om : T) (mu : ℝ) (f0 : ℝ) (nc : ℕ) (m : ℝ) (qs : List (ℕ × ℝ)) (hL : pg.Extends ig) (ho : (toC om).re ≠ 0) (hm : m ≠ 0) (hk : k.nc ≠ 0) (hqs : ∀ q ∈ qs, q.2 ≠ 0) (hmus : ∀ q ∈ qs, |mu| ≠ |q.2|) (hD : qcd.thermal.zero_momentum.gluon.dressing_t_inv_zero_temp_landau_w_field_config ig k om mu f0 (FieldConfig.new nc m qs) ≠ 0) :
    P.qcd.thermal.zero_momentum.gluon.propagator_t_zero_temp_landau_w_field_config pg k om mu f0 (FieldConfig.new nc m qs) = val (qcd.thermal.zero_momentum.gluon.propagator_t_zero_temp_landau_w_field_config ig k om mu f0 (FieldConfig.new nc m qs)) := by
  rw [P.qcd.thermal.zero_momentum.gluon.propagator_t_zero_temp_landau_w_field_config, qcd.thermal.zero_momentum.gluon.propagator_t_zero_temp_landau_w_field_config, qcd_thermal_zero_momentum_gluon_dressing_t_zero_temp_landau_w_field_config_val _ _ k om mu f0 nc m qs hL ho hm hk hqs hmus hD]
  have h1 := mul_ne_zero (om_ne ho) (om_ne ho)
  try simp only [ofR_real] at h1
  simp (disch := assumption) only [mul_val, add_val, ofR_val, ofR_real, toC_val, inv_val, div_val]

end Qcd.Def
