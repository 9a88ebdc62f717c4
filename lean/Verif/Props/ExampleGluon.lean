import Verif.Model.ExamplePlots
import Verif.Spec.ExamplePlots
import Verif.Props.ThermalReal
import Verif.Props.LowTemperature
import Verif.Props.ThermalParity
import Verif.Props.ThermalZeroTemp
import Verif.Props.ZeroMomentumLimitParts

/-! # C103: the plots of the gluon propagator and of its quark polarization

`examples/qcd_gluon_propagator.rs`, `qcd_gluon_polarization_quark.rs`, `qcd_gluon_polarization_quark_integrand.rs` and
`qcd_gluon_quark_polarization.rs`. -/

namespace Qcd
open consts (Consts)
open examples
open Filter Topology

/-- The grids have the points intended, if the step fits the range. -/
theorem closed_grid_grid {a b d : ℝ} {n : ℕ} (h : (b - a) / d = n) : Spec.Grid (closed_grid a b d) n a b := by
  have hn : ⌊(b - a) / d⌋₊ = n := by rw [h, Nat.floor_natCast]
  simp only [closed_grid, hn]
  refine ⟨by simp, fun i hi => ?_⟩
  rw [List.getElem?_map, List.getElem?_range (by omega), Option.map_some]
  congr 1
  ring

theorem grid_momenta : Spec.Grid (closed_grid (1 / 10) 4 (1 / 100)) 390 (1 / 10) 4 := closed_grid_grid (by norm_num)
theorem grid_loop : Spec.Grid (closed_grid (1 / 10) 2 (1 / 1000)) 1900 (1 / 10) 2 := closed_grid_grid (by norm_num)
theorem grid_quark : Spec.Grid (closed_grid (1 / 100) 1 (1 / 1000)) 990 (1 / 100) 1 := closed_grid_grid (by norm_num)

theorem Spec.Grid.mem {l : List ℝ} {n : ℕ} {a b : ℝ} (h : Spec.Grid l n a b) (ha : a ≤ b) : ∀ x ∈ l, a ≤ x := by
  intro x hx
  obtain ⟨i, hi⟩ := List.mem_iff_getElem?.1 hx
  have hl : i < l.length := by
    by_contra hc
    rw [List.getElem?_eq_none (not_lt.1 hc)] at hi
    cases hi
  rw [h.1] at hl
  rw [h.2 i (by omega), Option.some.injEq] at hi
  rw [← hi]
  have : 0 ≤ (i : ℝ) * ((b - a) / n) := mul_nonneg (Nat.cast_nonneg _) (div_nonneg (by linarith) (Nat.cast_nonneg _))
  linarith

theorem temperatures_eq : gluon_temperatures = Spec.temperatures := by
  norm_num [gluon_temperatures, Spec.temperatures]

theorem temperatures_pos {T : ℝ} (h : T ∈ Spec.temperatures) : 0 < T := by
  simp only [Spec.temperatures, List.mem_cons, List.not_mem_nil, or_false] at h
  rcases h with rfl | rfl | rfl | rfl | rfl | rfl <;> norm_num

theorem temperature_plot_shows (path : String) (label : String → String) (fmt : ℝ → String) (dom : List ℝ) (D : ℝ → ℝ → ℂ) (D0 : ℝ → ℂ)
    (h : ∀ b, 0 < b → ∀ x ∈ dom, (D b x).im = 0) (h0 : ∀ x ∈ dom, (D0 x).im = 0) :
    Spec.Shows (temperature_plot path label fmt dom (fun b x => (D b x).re) (fun x => (D0 x).re)) (fun T => D (1 / T)) D0 := by
  have hl : gluon_temperatures.length = 6 := rfl
  refine ⟨⟨?_, Or.inr ?_⟩, ?_, ?_, ?_, ?_⟩
  · intro im him
    simp only [temperature_plot, List.mem_append, List.mem_map, List.mem_singleton] at him ⊢
    rcases him with ⟨t, -, rfl⟩ | rfl <;> simp
  · simp [temperature_plot]
  · simp [temperature_plot, hl]
  · simp [temperature_plot, hl]
  · intro j T hj
    have hT : 0 < 1 / T := one_div_pos.2 (temperatures_pos (List.mem_of_getElem? hj))
    have hj' : j < 6 := by
      by_contra hc
      rw [List.getElem?_eq_none (by simpa [Spec.temperatures] using hc)] at hj
      cases hj
    refine ⟨dom.map fun x => (D (1 / T) x).re, ?_, ?_⟩
    · simp only [temperature_plot]
      rw [List.getElem?_append_left (by rw [List.length_map, hl]; exact hj'), List.getElem?_map, temperatures_eq, hj]
      rfl
    · simp only [temperature_plot, List.map_map]
      refine List.map_congr_left fun x hx => ?_
      exact Complex.ext rfl (by rw [h _ hT x hx]; rfl)
  · refine ⟨dom.map fun x => (D0 x).re, ?_, ?_⟩
    · simp only [temperature_plot]
      rw [List.getElem?_append_right (by rw [List.length_map, hl]), List.length_map, hl]
      rfl
    · simp only [temperature_plot, List.map_map]
      refine List.map_congr_left fun x hx => ?_
      exact Complex.ext rfl (by rw [h0 x hx]; rfl)

/-- Low temperatures instead of high inverse temperatures. -/
theorem tendsto_inverse {A : Type} [TopologicalSpace A] {F : ℝ → A} {x : A} (h : Tendsto F atTop (𝓝 x)) : Tendsto (fun T => F (1 / T)) (𝓝[>] 0) (𝓝 x) := by
  simp only [one_div]
  exact h.comp tendsto_inv_nhdsGT_zero

/-- **C103** (`qcd_gluon_propagator`): two plots, of the transverse and of the longitudinal propagator at the lowest frequency, for the default quark mass
and `mu = 1.2`, at 391 momenta from 0.1 to 4; taking real parts loses nothing. -/
theorem C103_propagator {ig : Integrator} (hi : ig.Interior) (hc : ig.Conj) (k : Consts ℝ) (hr : k.matsubara_reg ≠ 0) (hq : k.m_quark ≠ 0) (fmt : ℝ → String) :
    ∃ t l, qcd_gluon_propagator.main ig k fmt = [t, l] ∧ Spec.Grid t.domain 390 0.1 4 ∧ l.domain = t.domain ∧
      Spec.Shows t (fun T p => qcd.thermal.gluon.propagator_t_landau ig k k.matsubara_reg p 0.656 k.m_quark (1 / T) 1.2 (-0.876))
        (fun p => qcd.thermal.gluon.propagator_t_zero_temp_landau ig k k.matsubara_reg p 0.656 k.m_quark 1.2 (-0.876)) ∧
      Spec.Shows l (fun T p => qcd.thermal.gluon.propagator_l_landau ig k k.matsubara_reg p 0.656 k.m_quark (1 / T) 1.2 (-0.876))
        (fun p => qcd.thermal.gluon.propagator_l_zero_temp_landau ig k k.matsubara_reg p 0.656 k.m_quark 1.2 (-0.876)) := by
  have e1 : qcd_gluon_propagator.m = 0.656 := by norm_num [qcd_gluon_propagator.m]
  have e2 : qcd_gluon_propagator.mu = 1.2 := by norm_num [qcd_gluon_propagator.mu]
  have e3 : qcd_gluon_propagator.f0 = -0.876 := by norm_num [qcd_gluon_propagator.f0]
  have e4 : (0.1 : ℝ) = 1 / 10 := by norm_num
  have hm : (0.656 : ℝ) ≠ 0 := by norm_num
  refine ⟨_, _, rfl, by rw [e4]; exact grid_momenta, rfl, ?_, ?_⟩
  · rw [e1, e2, e3]
    exact temperature_plot_shows _ _ _ _ (fun b p => qcd.thermal.gluon.propagator_t_landau ig k k.matsubara_reg p 0.656 k.m_quark b 1.2 (-0.876)) _
      (fun b hb p _ => (C97_real_qcd hi hc k p _ _ b _ _ hm hq hb _ hr).2.2.2.2.2.1) (fun p _ => (C97_real_qcd_zero_temp hi hc k p _ _ _ _ hm hq _ hr).2.2.2.2.2.1)
  · rw [e1, e2, e3]
    exact temperature_plot_shows _ _ _ _ (fun b p => qcd.thermal.gluon.propagator_l_landau ig k k.matsubara_reg p 0.656 k.m_quark b 1.2 (-0.876)) _
      (fun b hb p _ => (C97_real_qcd hi hc k p _ _ b _ _ hm hq hb _ hr).2.2.1) (fun p _ => (C97_real_qcd_zero_temp hi hc k p _ _ _ _ hm hq _ hr).2.2.1)

/-- **C103** (`qcd_gluon_propagator`): the curve labelled `T = 0` is the limit of the others, wherever it has no pole. -/
theorem C103_propagator_low_temperature (k : Consts ℝ) (hr : k.matsubara_reg ≠ 0) (p : ℝ) :
    (qcd.thermal.gluon.dressing_t_inv_zero_temp_landau .exact k k.matsubara_reg p 0.656 k.m_quark 1.2 (-0.876) ≠ 0 →
      Tendsto (fun T : ℝ => qcd.thermal.gluon.propagator_t_landau .exact k k.matsubara_reg p 0.656 k.m_quark (1 / T) 1.2 (-0.876)) (𝓝[>] 0)
        (𝓝 (qcd.thermal.gluon.propagator_t_zero_temp_landau .exact k k.matsubara_reg p 0.656 k.m_quark 1.2 (-0.876)))) ∧
    (qcd.thermal.gluon.dressing_l_inv_zero_temp_landau .exact k k.matsubara_reg p 0.656 k.m_quark 1.2 (-0.876) ≠ 0 →
      Tendsto (fun T : ℝ => qcd.thermal.gluon.propagator_l_landau .exact k k.matsubara_reg p 0.656 k.m_quark (1 / T) 1.2 (-0.876)) (𝓝[>] 0)
        (𝓝 (qcd.thermal.gluon.propagator_l_zero_temp_landau .exact k k.matsubara_reg p 0.656 k.m_quark 1.2 (-0.876)))) :=
  ⟨fun h => tendsto_inverse (F := fun b => qcd.thermal.gluon.propagator_t_landau .exact k k.matsubara_reg p 0.656 k.m_quark b 1.2 (-0.876))
      (C72_qcd_thermal_gluon_propagator_t hr k (by norm_num) p _ _ _ h),
   fun h => tendsto_inverse (F := fun b => qcd.thermal.gluon.propagator_l_landau .exact k k.matsubara_reg p 0.656 k.m_quark b 1.2 (-0.876))
      (C72_qcd_thermal_gluon_propagator_l hr k (by norm_num) p _ _ _ h)⟩

/-- The quark polarizations are real at real frequencies. -/
theorem quark_parts_real {ig : Integrator} (hi : ig.Interior) (hc : ig.Conj) (k : Consts ℝ) {om : ℝ} (ho : om ≠ 0) (p mq mu : ℝ) (i : consts.Integral ℝ) :
    (∀ b, 0 < b → (gluon.thermal.polarization_quark_t_thermal_part_landau_w_method ig k om p mq b mu i).im = 0) ∧
    (∀ b, 0 < b → (gluon.thermal.polarization_quark_l_thermal_part_landau_w_method ig k om p mq b mu i).im = 0) ∧
    (gluon.thermal.polarization_quark_t_thermal_part_zero_temp_landau_w_method ig k om p mq mu i).im = 0 ∧
    (gluon.thermal.polarization_quark_l_thermal_part_zero_temp_landau_w_method ig k om p mq mu i).im = 0 := by
  have hs := fun b hb => C93_self_energies_symmetric hi hc k p 1 b mq mu one_ne_zero hb i
  refine ⟨fun b hb => ?_, fun b hb => ?_, ?_, ?_⟩
  · rw [re_quark_t]; exact symmetric_real (hs b hb).2.2.2.2.1 ho
  · rw [re_quark_l]; exact symmetric_real (hs b hb).2.2.2.1 ho
  · rw [re_quark_t0]; exact symmetric_real (hs 1 one_pos).2.2.2.2.2.2 ho
  · rw [re_quark_l0]; exact symmetric_real (hs 1 one_pos).2.2.2.2.2.1 ho

/-- **C103** (`qcd_gluon_polarization_quark`): the same for the quark polarizations. -/
theorem C103_polarization {ig : Integrator} (hi : ig.Interior) (hc : ig.Conj) (k : Consts ℝ) (hr : k.matsubara_reg ≠ 0) (fmt : ℝ → String) :
    ∃ t l, qcd_gluon_polarization_quark.main ig k fmt = [t, l] ∧ Spec.Grid t.domain 390 0.1 4 ∧ l.domain = t.domain ∧
      Spec.Shows t (fun T p => gluon.thermal.polarization_quark_t_thermal_part_landau ig k k.matsubara_reg p k.m_quark (1 / T) 1.2)
        (fun p => gluon.thermal.polarization_quark_t_thermal_part_zero_temp_landau ig k k.matsubara_reg p k.m_quark 1.2) ∧
      Spec.Shows l (fun T p => gluon.thermal.polarization_quark_l_thermal_part_landau ig k k.matsubara_reg p k.m_quark (1 / T) 1.2)
        (fun p => gluon.thermal.polarization_quark_l_thermal_part_zero_temp_landau ig k k.matsubara_reg p k.m_quark 1.2) := by
  have e2 : qcd_gluon_polarization_quark.mu = 1.2 := by norm_num [qcd_gluon_polarization_quark.mu]
  have e4 : (0.1 : ℝ) = 1 / 10 := by norm_num
  refine ⟨_, _, rfl, by rw [e4]; exact grid_momenta, rfl, ?_, ?_⟩
  · rw [e2]
    exact temperature_plot_shows _ _ _ _ (fun b p => gluon.thermal.polarization_quark_t_thermal_part_landau ig k k.matsubara_reg p k.m_quark b 1.2) _
      (fun b hb p _ => (quark_parts_real hi hc k hr p _ _ _).1 b hb) (fun p _ => (quark_parts_real hi hc k hr p _ _ _).2.2.1)
  · rw [e2]
    exact temperature_plot_shows _ _ _ _ (fun b p => gluon.thermal.polarization_quark_l_thermal_part_landau ig k k.matsubara_reg p k.m_quark b 1.2) _
      (fun b hb p _ => (quark_parts_real hi hc k hr p _ _ _).2.1 b hb) (fun p _ => (quark_parts_real hi hc k hr p _ _ _).2.2.2)

/-- **C103** (`qcd_gluon_polarization_quark`): the curve labelled `T = 0` is the limit of the others. -/
theorem C103_polarization_low_temperature (k : Consts ℝ) (hr : k.matsubara_reg ≠ 0) (p : ℝ) :
    Tendsto (fun T : ℝ => gluon.thermal.polarization_quark_t_thermal_part_landau .exact k k.matsubara_reg p k.m_quark (1 / T) 1.2) (𝓝[>] 0)
      (𝓝 (gluon.thermal.polarization_quark_t_thermal_part_zero_temp_landau .exact k k.matsubara_reg p k.m_quark 1.2)) ∧
    Tendsto (fun T : ℝ => gluon.thermal.polarization_quark_l_thermal_part_landau .exact k k.matsubara_reg p k.m_quark (1 / T) 1.2) (𝓝[>] 0)
      (𝓝 (gluon.thermal.polarization_quark_l_thermal_part_zero_temp_landau .exact k k.matsubara_reg p k.m_quark 1.2)) :=
  ⟨tendsto_inverse (F := fun b => gluon.thermal.polarization_quark_t_thermal_part_landau .exact k k.matsubara_reg p k.m_quark b 1.2)
      (C72_gluon_thermal_polarization_quark_t hr k p _ _ _),
   tendsto_inverse (F := fun b => gluon.thermal.polarization_quark_l_thermal_part_landau .exact k k.matsubara_reg p k.m_quark b 1.2)
      (C72_gluon_thermal_polarization_quark_l hr k p _ _ _)⟩

/-- **C103** (`qcd_gluon_polarization_quark_integrand`): two plots for each of two momenta, of the integrands of the polarizations. -/
theorem C103_integrand (k : Consts ℝ) (hr : k.matsubara_reg ≠ 0) (fmt : ℝ → String) :
    ∃ t1 t2 l1 l2, qcd_gluon_polarization_quark_integrand.main k fmt = [t1, t2, l1, l2] ∧
      (∀ pl ∈ [t1, t2, l1, l2], Spec.Grid pl.domain 1900 0.1 2) ∧
      (∀ tp ∈ [(t1, (0.4 : ℝ)), (t2, 1.2)], Spec.Shows tp.1 (fun T q => gluon.thermal.polarization_quark_t_thermal_part_landau_i k q k.matsubara_reg tp.2 k.m_quark (1 / T) 1.2)
        (fun q => gluon.thermal.polarization_quark_t_thermal_part_zero_temp_landau_i k q k.matsubara_reg tp.2 k.m_quark 1.2)) ∧
      (∀ lp ∈ [(l1, (0.4 : ℝ)), (l2, 1.2)], Spec.Shows lp.1 (fun T q => gluon.thermal.polarization_quark_l_thermal_part_landau_i k q k.matsubara_reg lp.2 k.m_quark (1 / T) 1.2)
        (fun q => gluon.thermal.polarization_quark_l_thermal_part_zero_temp_landau_i k q k.matsubara_reg lp.2 k.m_quark 1.2)) := by
  have e2 : qcd_gluon_polarization_quark_integrand.mu = 1.2 := by norm_num [qcd_gluon_polarization_quark_integrand.mu]
  have e4 : (0.1 : ℝ) = 1 / 10 := by norm_num
  have e5 : qcd_gluon_polarization_quark_integrand.momenta2 = [0.4, 1.2] := by norm_num [qcd_gluon_polarization_quark_integrand.momenta2]
  have hpos : ∀ q ∈ qcd_gluon_polarization_quark_integrand.momenta, 0 < q := fun q hq => lt_of_lt_of_le (by norm_num) (grid_loop.mem (by norm_num) q hq)
  obtain ⟨-, -, cl, ct, cl0, ct0⟩ := C37_gluon_thermal
  have sT : ∀ (path : String) (label : String → String) (p : ℝ), Spec.Shows (temperature_plot path label fmt qcd_gluon_polarization_quark_integrand.momenta
      (fun b q => (gluon.thermal.polarization_quark_t_thermal_part_landau_i k q k.matsubara_reg p k.m_quark b 1.2).re)
      (fun q => (gluon.thermal.polarization_quark_t_thermal_part_zero_temp_landau_i k q k.matsubara_reg p k.m_quark 1.2).re))
      (fun T q => gluon.thermal.polarization_quark_t_thermal_part_landau_i k q k.matsubara_reg p k.m_quark (1 / T) 1.2)
      (fun q => gluon.thermal.polarization_quark_t_thermal_part_zero_temp_landau_i k q k.matsubara_reg p k.m_quark 1.2) := fun path label p =>
    temperature_plot_shows _ _ _ _ (fun b q => gluon.thermal.polarization_quark_t_thermal_part_landau_i k q k.matsubara_reg p k.m_quark b 1.2) _
      (fun b _ q hq => ct k q _ p _ b _ (hpos q hq) hr) (fun q hq => ct0 k q _ p _ _ (hpos q hq) hr)
  have sL : ∀ (path : String) (label : String → String) (p : ℝ), Spec.Shows (temperature_plot path label fmt qcd_gluon_polarization_quark_integrand.momenta
      (fun b q => (gluon.thermal.polarization_quark_l_thermal_part_landau_i k q k.matsubara_reg p k.m_quark b 1.2).re)
      (fun q => (gluon.thermal.polarization_quark_l_thermal_part_zero_temp_landau_i k q k.matsubara_reg p k.m_quark 1.2).re))
      (fun T q => gluon.thermal.polarization_quark_l_thermal_part_landau_i k q k.matsubara_reg p k.m_quark (1 / T) 1.2)
      (fun q => gluon.thermal.polarization_quark_l_thermal_part_zero_temp_landau_i k q k.matsubara_reg p k.m_quark 1.2) := fun path label p =>
    temperature_plot_shows _ _ _ _ (fun b q => gluon.thermal.polarization_quark_l_thermal_part_landau_i k q k.matsubara_reg p k.m_quark b 1.2) _
      (fun b _ q hq => cl k q _ p _ b _ (hpos q hq) hr) (fun q hq => cl0 k q _ p _ _ (hpos q hq) hr)
  simp only [qcd_gluon_polarization_quark_integrand.main, e5, e2, List.map_cons, List.map_nil, List.cons_append, List.nil_append]
  refine ⟨_, _, _, _, rfl, ?_, ?_, ?_⟩
  · intro pl hpl
    rw [e4]
    simp only [List.mem_cons, List.not_mem_nil, or_false] at hpl
    rcases hpl with rfl | rfl | rfl | rfl <;> exact grid_loop
  · intro tp htp
    simp only [List.mem_cons, List.not_mem_nil, or_false] at htp
    rcases htp with rfl | rfl
    · dsimp only
      exact sT _ _ 0.4
    · dsimp only
      exact sT _ _ 1.2
  · intro lp hlp
    simp only [List.mem_cons, List.not_mem_nil, or_false] at hlp
    rcases hlp with rfl | rfl
    · dsimp only
      exact sL _ _ 0.4
    · dsimp only
      exact sL _ _ 1.2

/-- **C103** (`qcd_gluon_polarization_quark_integrand`): the curve labelled `T = 0` is the limit of the others, except at the Fermi momentum. -/
theorem C103_integrand_low_temperature (k : Consts ℝ) (p q : ℝ) (hq : 0 < q) (hF : q ^ 2 + k.m_quark ^ 2 ≠ 1.2 ^ 2) :
    Tendsto (fun T : ℝ => gluon.thermal.polarization_quark_t_thermal_part_landau_i k q k.matsubara_reg p k.m_quark (1 / T) 1.2) (𝓝[>] 0)
      (𝓝 (gluon.thermal.polarization_quark_t_thermal_part_zero_temp_landau_i k q k.matsubara_reg p k.m_quark 1.2)) ∧
    Tendsto (fun T : ℝ => gluon.thermal.polarization_quark_l_thermal_part_landau_i k q k.matsubara_reg p k.m_quark (1 / T) 1.2) (𝓝[>] 0)
      (𝓝 (gluon.thermal.polarization_quark_l_thermal_part_zero_temp_landau_i k q k.matsubara_reg p k.m_quark 1.2)) := by
  have hF' : energy q k.m_quark ≠ |(1.2 : ℝ)| := by
    rw [abs_of_pos (by norm_num)]
    intro h
    apply hF
    have := energy_sq_real q k.m_quark
    rw [sq k.m_quark, ← this, h]
  exact ⟨tendsto_inverse (F := fun b => gluon.thermal.polarization_quark_t_thermal_part_landau_i k q k.matsubara_reg p k.m_quark b 1.2)
      (C48_gluon_thermal_polarization_quark_t hq k _ p _ _ hF'),
    tendsto_inverse (F := fun b => gluon.thermal.polarization_quark_l_thermal_part_landau_i k q k.matsubara_reg p k.m_quark b 1.2)
      (C48_gluon_thermal_polarization_quark_l hq k _ p _ _ hF')⟩

/-- **C103** (labels): the plots of `qcd_gluon_propagator` and `qcd_gluon_polarization_quark` have the six temperatures and zero in their labels, in the order
of the curves, and those of `qcd_gluon_polarization_quark_integrand` the momentum as well; the labels of `qcd_gluon_quark_polarization` are the three
momenta and zero. -/
theorem C103_labels (ig : Integrator) (k : Consts ℝ) (fmt : ℝ → String) :
    (∀ pl ∈ qcd_gluon_propagator.main ig k fmt ++ qcd_gluon_polarization_quark.main ig k fmt,
      pl.legend = Spec.temperatures.map (fun T => "T = " ++ fmt T ++ " GeV") ++ ["T = 0 GeV"]) ∧
    (∀ (j : ℕ) (p : ℝ), [(0.4 : ℝ), 1.2, 0.4, 1.2][j]? = some p → ∃ pl, (qcd_gluon_polarization_quark_integrand.main k fmt)[j]? = some pl ∧
      pl.legend = Spec.temperatures.map (fun T => "T = " ++ fmt T ++ " GeV, p = " ++ fmt p ++ " GeV") ++ ["T = 0 GeV, p = " ++ fmt p ++ " GeV"]) ∧
    (qcd_gluon_quark_polarization.main k fmt).legend =
      ["p = " ++ fmt 0.1 ++ " GeV (long.)", "p = " ++ fmt 0.1 ++ " GeV (trans.)", "p = " ++ fmt 0.05 ++ " GeV (long.)", "p = " ++ fmt 0.05 ++ " GeV (trans.)",
        "p = " ++ fmt 0.01 ++ " GeV (long.)", "p = " ++ fmt 0.01 ++ " GeV (trans.)", "p = 0 GeV"] := by
  have e5 : qcd_gluon_polarization_quark_integrand.momenta2 = [0.4, 1.2] := by norm_num [qcd_gluon_polarization_quark_integrand.momenta2]
  have e6 : qcd_gluon_quark_polarization.ps = [0.1, 0.05, 0.01] := by norm_num [qcd_gluon_quark_polarization.ps]
  refine ⟨?_, ?_, ?_⟩
  · intro pl hpl
    simp only [qcd_gluon_propagator.main, qcd_gluon_polarization_quark.main, List.cons_append, List.nil_append, List.mem_cons, List.not_mem_nil, or_false] at hpl
    rw [← temperatures_eq]
    rcases hpl with rfl | rfl | rfl | rfl <;> rfl
  · intro j p hj
    simp only [qcd_gluon_polarization_quark_integrand.main, e5, List.map_cons, List.map_nil, List.cons_append, List.nil_append]
    rw [← temperatures_eq]
    have hz : ∀ p : ℝ, "T = " ++ "0" ++ " GeV, p = " ++ fmt p ++ " GeV" = "T = 0 GeV, p = " ++ fmt p ++ " GeV" := fun p => rfl
    match j, hj with
    | 0, hj => cases hj; exact ⟨_, rfl, by rw [← hz]; rfl⟩
    | 1, hj => cases hj; exact ⟨_, rfl, by rw [← hz]; rfl⟩
    | 2, hj => cases hj; exact ⟨_, rfl, by rw [← hz]; rfl⟩
    | 3, hj => cases hj; exact ⟨_, rfl, by rw [← hz]; rfl⟩
    | j + 4, hj => simp at hj
  · simp only [qcd_gluon_quark_polarization.main, e6]
    rfl

/-- **C103** (`qcd_gluon_quark_polarization`): seven labelled curves on 991 loop momenta; those of three momenta, longitudinal and transverse in turn, are
the real integrands, and the seventh is the common limit of both for vanishing momentum. -/
theorem C103_quark_polarization (k : Consts ℝ) (fmt : ℝ → String) :
    let pl := qcd_gluon_quark_polarization.main k fmt
    tc.Spec.Plot.WellFormed pl ∧ pl.images.length = 7 ∧ pl.legend.length = 7 ∧ Spec.Grid pl.domain 990 0.01 1 ∧
    (∀ jp ∈ [((0 : ℕ), (0.1 : ℝ)), (1, 0.05), (2, 0.01)],
      (∃ c, pl.images[2 * jp.1]? = some c ∧
        c.map Complex.ofReal = pl.domain.map fun q => gluon.thermal.polarization_quark_l_thermal_part_landau_i k q (0.1 : ℝ) jp.2 0.3 (1 / 0.26) 1.2) ∧
      (∃ c, pl.images[2 * jp.1 + 1]? = some c ∧
        c.map Complex.ofReal = pl.domain.map fun q => gluon.thermal.polarization_quark_t_thermal_part_landau_i k q (0.1 : ℝ) jp.2 0.3 (1 / 0.26) 1.2)) ∧
    ∃ c, pl.images[6]? = some c ∧ ∀ (i : ℕ) (q v : ℝ), pl.domain[i]? = some q → c[i]? = some v →
      Tendsto (fun p : ℝ => gluon.thermal.polarization_quark_l_thermal_part_landau_i k q (0.1 : ℝ) p 0.3 (1 / 0.26) 1.2) (𝓝[≠] 0) (𝓝 (v : ℂ)) ∧
      Tendsto (fun p : ℝ => gluon.thermal.polarization_quark_t_thermal_part_landau_i k q (0.1 : ℝ) p 0.3 (1 / 0.26) 1.2) (𝓝[≠] 0) (𝓝 (v : ℂ)) := by
  intro pl
  have e1 : qcd_gluon_quark_polarization.om = 0.1 := by norm_num [qcd_gluon_quark_polarization.om]
  have e2 : qcd_gluon_quark_polarization.mq = 0.3 := by norm_num [qcd_gluon_quark_polarization.mq]
  have e3 : qcd_gluon_quark_polarization.beta = 1 / 0.26 := by norm_num [qcd_gluon_quark_polarization.beta, qcd_gluon_quark_polarization.t]
  have e4 : (12 / 10 : ℝ) = 1.2 := by norm_num
  have e5 : qcd_gluon_quark_polarization.ps = [0.1, 0.05, 0.01] := by norm_num [qcd_gluon_quark_polarization.ps]
  have e6 : (1 / 10 : ℝ) = 0.1 := by norm_num
  have e7 : (1 / 100 : ℝ) = 0.01 := by norm_num
  have hg : Spec.Grid qcd_gluon_quark_polarization.momenta 990 0.01 1 := by rw [← e7]; exact grid_quark
  have hpos : ∀ q ∈ qcd_gluon_quark_polarization.momenta, 0 < q := fun q hq => lt_of_lt_of_le (by norm_num) (hg.mem (by norm_num) q hq)
  have hom : (0.1 : ℝ) ≠ 0 := by norm_num
  obtain ⟨-, -, cl, ct, -, -⟩ := C37_gluon_thermal
  have hpl : pl = qcd_gluon_quark_polarization.main k fmt := rfl
  simp only [qcd_gluon_quark_polarization.main, e1, e2, e3, e4, e5, e6, List.flatMap_cons, List.flatMap_nil, List.append_nil, List.cons_append, List.nil_append] at hpl
  rw [hpl]
  clear hpl pl
  have real : ∀ F : ℝ → ℂ, (∀ q, 0 < q → (F q).im = 0) →
      (qcd_gluon_quark_polarization.momenta.map fun q => (F q).re).map Complex.ofReal = qcd_gluon_quark_polarization.momenta.map F := by
    intro F hF
    rw [List.map_map]
    refine List.map_congr_left fun q hq => ?_
    exact Complex.ext rfl (by rw [hF q (hpos q hq)]; rfl)
  refine ⟨⟨?_, Or.inr rfl⟩, rfl, rfl, hg, ?_, _, rfl, ?_⟩
  · intro im him
    simp only [List.mem_cons, List.not_mem_nil, or_false] at him
    rcases him with rfl | rfl | rfl | rfl | rfl | rfl | rfl <;> simp only [List.length_map]
  · intro jp hjp
    simp only [List.mem_cons, List.not_mem_nil, or_false] at hjp
    rcases hjp with rfl | rfl | rfl
    · exact ⟨⟨_, rfl, real _ fun q hq => cl k q _ _ _ _ _ hq hom⟩, ⟨_, rfl, real _ fun q hq => ct k q _ _ _ _ _ hq hom⟩⟩
    · exact ⟨⟨_, rfl, real _ fun q hq => cl k q _ _ _ _ _ hq hom⟩, ⟨_, rfl, real _ fun q hq => ct k q _ _ _ _ _ hq hom⟩⟩
    · exact ⟨⟨_, rfl, real _ fun q hq => cl k q _ _ _ _ _ hq hom⟩, ⟨_, rfl, real _ fun q hq => ct k q _ _ _ _ _ hq hom⟩⟩
  · intro i q v hq hv
    have hq' : qcd_gluon_quark_polarization.momenta[i]? = some q := hq
    rw [List.getElem?_map, hq', Option.map_some, Option.some.injEq] at hv
    have h0 := hpos q (List.mem_of_getElem? hq')
    have h1 : |(toC (0.1 : ℝ)).im| < q := by simpa [toC_real] using h0
    have h2 : (toC (0.1 : ℝ)).re ≠ 0 := by simpa [toC_real] using hom
    rw [← hv]
    exact ⟨C40_quark_l k h0 h2 h1 _ _ _, C40_quark_t k h0 h2 h1 _ _ _⟩

-- the initial constants and the Fermi momentum of `C103_integrand_low_temperature`
example : (consts.init : Consts ℝ).matsubara_reg ≠ 0 ∧ (consts.init : Consts ℝ).m_quark ≠ 0 ∧ (1 : ℝ) ^ 2 + (consts.init : Consts ℝ).m_quark ^ 2 ≠ 1.2 ^ 2 := by
  simp only [consts.init, consts.FloatOps.lit]
  norm_num

end Qcd
