import Verif.Props.VacuumQuark
import Verif.Props.QuarkMatsubara
import Verif.Props.VacuumComplex

/-! # C88: the gluon functions of QCD are the sum of the one-loop diagrams -/

namespace Qcd
open Spec Matrix
open scoped Real

variable {g : Fin 4 → Matrix (Fin 4) (Fin 4) ℂ}

theorem quark_list {F : ℝ → ℝ} {L : List Vec → Vec → ℝ → ℂ → Prop} {nc : ℕ} {m : ℝ} (hm : 0 < m)
    (h : ∀ mq, 0 < mq → ∃ z : ℂ, ∀ P : Momentum, P ≠ 0 → ∀ l : List Momentum, Polarisations P l →
      ∃ x : ℂ, L (l.map vec) (vec P) mq x ∧ ((F (‖P‖ ^ 2 / mq ^ 2) : ℝ) : ℂ) / ((nc : ℝ) : ℂ) = z - 16 * π ^ 2 / 3 * (x / msq (vec P)))
    (qs : List (ℕ × ℝ)) (hq : ∀ q ∈ qs, 0 < q.2) :
    ∃ z : ℂ, ∀ P : Momentum, P ≠ 0 → ∀ l : List Momentum, Polarisations P l →
      ∃ ys : List ℂ, List.Forall₂ (fun q y => L (l.map vec) (vec P) q.2 y) qs ys ∧
        ((quarkSum F (‖P‖ ^ 2 / m ^ 2) nc m qs : ℝ) : ℂ) = z - 16 * π ^ 2 / 3 * (flavours qs ys / msq (vec P)) := by
  induction qs with
  | nil => exact ⟨0, fun P _ l _ => ⟨[], .nil, by simp [quarkSum, flavours]⟩⟩
  | cons q qs ih =>
    obtain ⟨z, hz⟩ := ih fun q h => hq q (List.mem_cons_of_mem _ h)
    have h0 : 0 < q.2 := hq q List.mem_cons_self
    obtain ⟨z', hz'⟩ := h q.2 h0
    refine ⟨z + q.1 * z', fun P hP l hl => ?_⟩
    obtain ⟨ys, hy, ey⟩ := hz P hP l hl
    obtain ⟨y, hy', ey'⟩ := hz' P hP l hl
    refine ⟨y :: ys, .cons hy' hy, ?_⟩
    have e : ‖P‖ ^ 2 / m ^ 2 / (q.2 / m) ^ 2 = ‖P‖ ^ 2 / q.2 ^ 2 := by field_simp
    have e2 : quarkSum F (‖P‖ ^ 2 / m ^ 2) nc m (q :: qs) = F (‖P‖ ^ 2 / q.2 ^ 2) * ((q.1 : ℝ) / nc) + quarkSum F (‖P‖ ^ 2 / m ^ 2) nc m qs := by
      simp [quarkSum, e]
    have e3 : flavours (q :: qs) (y :: ys) = q.1 * y + flavours qs ys := by simp [flavours]
    rw [e2, e3, Complex.ofReal_add, ey]
    push_cast at ey' ⊢
    linear_combination (q.1 : ℂ) * ey'

/-- **C88** (vacuum, any list of quarks): up to a constant, the inverse dressing function of the gluon is minus the sum of all the one-loop
diagrams of its self-energy, divided by the momentum squared; and the same with at most one insertion of the masses of the quarks. -/
theorem C88_vacuum_config (hg : IsClifford g) (k : consts.Consts ℝ) {nc : ℕ} (hnc : nc ≠ 0) {m : ℝ} (hm : 0 < m) (qs : List (ℕ × ℝ))
    (hq : ∀ q ∈ qs, 0 < q.2) (f0 : ℝ) :
    (∃ z : ℂ, ∀ P : Momentum, P ≠ 0 → ∀ l : List Momentum, Polarisations P l →
      ∃ (x : ℂ) (ys : List ℂ), IsVacuumPolarization (l.map vec) (vec P) (m ^ 2) x ∧
        List.Forall₂ (fun q y => IsVacuumQuarkLoop g nc (l.map vec) (vec P) q.2 y) qs ys ∧
        ((qcd.gluon.dressing_inv_landau_w_field_config k (‖P‖ ^ 2 / m ^ 2) f0 (FieldConfig.new nc m qs) : ℝ) : ℂ) =
          z - 16 * π ^ 2 / 3 * ((x + flavours qs ys) / msq (vec P))) ∧
    (∃ z : ℂ, ∀ P : Momentum, P ≠ 0 → ∀ l : List Momentum, Polarisations P l →
      ∃ (x : ℂ) (ys : List ℂ), IsVacuumPolarization (l.map vec) (vec P) (m ^ 2) x ∧
        List.Forall₂ (fun q y => IsVacuumCrossedQuarkLoop g nc (l.map vec) (vec P) q.2 y) qs ys ∧
        ((qcd.gluon.dressing_crossed_inv_landau_w_field_config k (‖P‖ ^ 2 / m ^ 2) f0 (FieldConfig.new nc m qs) : ℝ) : ℂ) =
          z - 16 * π ^ 2 / 3 * ((x + flavours qs ys) / msq (vec P))) := by
  have hc : (nc : ℝ) ≠ 0 := by exact_mod_cast hnc
  obtain ⟨z0, hz0⟩ := C86_gluon_vacuum hm f0
  constructor
  · obtain ⟨z, hz⟩ := quark_list (F := gluon.f_q) (L := IsVacuumQuarkLoop g nc) hm (fun mq hmq => C87_quark_loop hg hc hmq) qs hq
    refine ⟨z0 + z, fun P hP l hl => ?_⟩
    obtain ⟨x, hx, ex⟩ := hz0 P hP l hl
    obtain ⟨ys, hy, ey⟩ := hz P hP l hl
    refine ⟨x, ys, hx, hy, ?_⟩
    rw [(C29_additive k (‖P‖ ^ 2 / m ^ 2) f0 0 nc m qs).1, Complex.ofReal_add, ex, ey]
    ring
  · obtain ⟨z, hz⟩ := quark_list (F := gluon.f_q_crossed) (L := IsVacuumCrossedQuarkLoop g nc) hm (fun mq hmq => C87_crossed_quark_loop hg hc hmq) qs hq
    refine ⟨z0 + z, fun P hP l hl => ?_⟩
    obtain ⟨x, hx, ex⟩ := hz0 P hP l hl
    obtain ⟨ys, hy, ey⟩ := hz P hP l hl
    refine ⟨x, ys, hx, hy, ?_⟩
    rw [(C29_additive k (‖P‖ ^ 2 / m ^ 2) f0 0 nc m qs).2.2.1, Complex.ofReal_add, ex, ey]
    ring

/-- The functions without a configuration are the ones with the global flavours. -/
theorem single_flavour {k : consts.Consts ℝ} (hk : k.nf_div_nc = (k.nf : ℝ) / (k.nc : ℝ)) (s m mq f0 : ℝ) :
    qcd.gluon.dressing_inv_landau k s (mq / m) f0 = qcd.gluon.dressing_inv_landau_w_field_config k s f0 (FieldConfig.new k.nc m [(k.nf, mq)]) ∧
    qcd.gluon.dressing_crossed_inv_landau k s (mq / m) f0 =
      qcd.gluon.dressing_crossed_inv_landau_w_field_config k s f0 (FieldConfig.new k.nc m [(k.nf, mq)]) := by
  constructor
  · simp only [qcd.gluon.dressing_inv_landau, qcd.gluon.dressing_inv_landau_w_field_config, FieldConfig.new, List.map_cons, List.map_nil, List.foldl_cons,
      List.foldl_nil, QuarkInternal.new, hk]
  · simp only [qcd.gluon.dressing_crossed_inv_landau, qcd.gluon.dressing_crossed_inv_landau_w_field_config, FieldConfig.new, List.map_cons, List.map_nil,
      List.foldl_cons, List.foldl_nil, QuarkInternal.new, hk]

theorem single_forall {L : ℝ → ℂ → Prop} {n : ℕ} {mq : ℝ} {ys : List ℂ} (hy : List.Forall₂ (fun q y => L q.2 y) [(n, mq)] ys) :
    ∃ y, L mq y ∧ flavours [(n, mq)] ys = n * y := by
  rcases hy with _ | ⟨h1, h2⟩
  rcases h2
  exact ⟨_, h1, by simp [flavours]⟩

/-- **C88** (vacuum, global flavours), after any sequence of calls that set the global parameters. -/
theorem C88_vacuum (hg : IsClifford g) (h : List (consts.Setter ℝ)) (hnc : (consts.after h).nc ≠ 0) {m mq : ℝ} (hm : 0 < m) (hq : 0 < mq) (f0 : ℝ) :
    (∃ z : ℂ, ∀ P : Momentum, P ≠ 0 → ∀ l : List Momentum, Polarisations P l →
      ∃ x y : ℂ, IsVacuumPolarization (l.map vec) (vec P) (m ^ 2) x ∧ IsVacuumQuarkLoop g (consts.after h).nc (l.map vec) (vec P) mq y ∧
        ((qcd.gluon.dressing_inv_landau (consts.after h) (‖P‖ ^ 2 / m ^ 2) (mq / m) f0 : ℝ) : ℂ) =
          z - 16 * π ^ 2 / 3 * ((x + (consts.after h).nf * y) / msq (vec P))) ∧
    (∃ z : ℂ, ∀ P : Momentum, P ≠ 0 → ∀ l : List Momentum, Polarisations P l →
      ∃ x y : ℂ, IsVacuumPolarization (l.map vec) (vec P) (m ^ 2) x ∧ IsVacuumCrossedQuarkLoop g (consts.after h).nc (l.map vec) (vec P) mq y ∧
        ((qcd.gluon.dressing_crossed_inv_landau (consts.after h) (‖P‖ ^ 2 / m ^ 2) (mq / m) f0 : ℝ) : ℂ) =
          z - 16 * π ^ 2 / 3 * ((x + (consts.after h).nf * y) / msq (vec P))) := by
  have hk : (consts.after h).nf_div_nc = ((consts.after h).nf : ℝ) / ((consts.after h).nc : ℝ) := consts.C02_ratio_current h
  obtain ⟨⟨z, hz⟩, ⟨z', hz'⟩⟩ := C88_vacuum_config hg (consts.after h) hnc hm [((consts.after h).nf, mq)] (by simpa using hq) f0
  constructor
  · refine ⟨z, fun P hP l hl => ?_⟩
    obtain ⟨x, ys, hx, hy, e⟩ := hz P hP l hl
    obtain ⟨y, h1, h2⟩ := single_forall (L := IsVacuumQuarkLoop g (consts.after h).nc (l.map vec) (vec P)) hy
    refine ⟨x, y, hx, h1, ?_⟩
    rw [(single_flavour hk _ _ _ _).1, e, h2]
  · refine ⟨z', fun P hP l hl => ?_⟩
    obtain ⟨x, ys, hx, hy, e⟩ := hz' P hP l hl
    obtain ⟨y, h1, h2⟩ := single_forall (L := IsVacuumCrossedQuarkLoop g (consts.after h).nc (l.map vec) (vec P)) hy
    refine ⟨x, y, hx, h1, ?_⟩
    rw [(single_flavour hk _ _ _ _).2, e, h2]

/-! ### Finite temperature and density -/

/-- The thermal parts of the flavours. -/
theorem thermal_list {L : ℝ → ℂ → Prop} {T : ℝ → ℂ} (h : ∀ mq, L mq (T mq)) (nc : ℕ) (m : ℝ) (qs : List (ℕ × ℝ)) :
    ∃ us : List ℂ, List.Forall₂ (fun q u => L q.2 u) qs us ∧
      ((FieldConfig.new nc m qs).quarks_internal.map fun qi => T qi.mq * (ofR (qi.nf : ℝ) : ℂ)).sum = flavours qs us := by
  refine ⟨qs.map fun q => T q.2, ?_, ?_⟩
  · induction qs with
    | nil => exact .nil
    | cons q qs ih => exact .cons (h q.2) ih
  · induction qs with
    | nil => rfl
    | cons q qs ih =>
      simp only [FieldConfig.new, List.map_cons, List.sum_cons, flavours, List.zipWith_cons_cons] at ih ⊢
      rw [ih]
      simp [QuarkInternal.new, mul_comm]

theorem complex_config (k : consts.Consts ℝ) {s : ℝ} (hs : 0 < s) (f0 : ℝ) (nc : ℕ) {m : ℝ} (hm : m ≠ 0) (qs : List (ℕ × ℝ)) (hq : ∀ q ∈ qs, 0 < q.2) :
    qcd.gluon.dressing_inv_landau_w_field_config k (s : ℂ) f0 (FieldConfig.new nc m qs) =
      ((qcd.gluon.dressing_inv_landau_w_field_config k s f0 (FieldConfig.new nc m qs) : ℝ) : ℂ) := by
  have h := (C21_qcd k s hs f0 0 0 nc m qs hm fun q h => (hq q h).ne').1
  simp only [configValues, List.map_cons, List.cons.injEq] at h
  exact h.1

theorem thermal_config_of (hg : IsClifford g) (k : consts.Consts ℝ) {m : ℝ} (hm : 0 < m) {qs : List (ℕ × ℝ)}
    (hq : ∀ q ∈ qs, 0 < q.2) {f0 : ℝ} {z : ℂ}
    (hz : ∀ P : Momentum, P ≠ 0 → ∀ l : List Momentum, Polarisations P l →
      ∃ (x : ℂ) (ys : List ℂ), IsVacuumPolarization (l.map vec) (vec P) (m ^ 2) x ∧
        List.Forall₂ (fun q y => IsVacuumQuarkLoop g k.nc (l.map vec) (vec P) q.2 y) qs ys ∧
        ((qcd.gluon.dressing_inv_landau_w_field_config k (‖P‖ ^ 2 / m ^ 2) f0 (FieldConfig.new k.nc m qs) : ℝ) : ℂ) =
          z - 16 * π ^ 2 / 3 * ((x + flavours qs ys) / msq (vec P)))
    {beta om p : ℝ} (mu : ℝ) {n : ℤ} (hb : 0 < beta) (hn : n ≠ 0) (ho : om = 2 * Real.pi * n / beta) (hp : p ≠ 0) :
      (∃ (x t : ℂ) (ys us : List ℂ), IsVacuumPolarization (polL om p) (external om p) (m ^ 2) x ∧
        IsThermalPolarization (polL om p) (external om p) beta (m ^ 2) t ∧
        List.Forall₂ (fun q y => IsVacuumQuarkLoop g k.nc (polL om p) (external om p) q.2 y) qs ys ∧
        List.Forall₂ (fun q u => IsThermalQuarkDiagram (fun Q => average (polL om p) fun e => quarkDiagram g k.nc e (external om p) q.2 Q) beta mu u) qs us ∧
        qcd.thermal.gluon.dressing_l_inv_landau_w_field_config .exact k om p beta mu f0 (FieldConfig.new k.nc m qs) =
          z - 16 * π ^ 2 / 3 * ((x + t + flavours qs ys + flavours qs us) / msq (external om p))) ∧
      (∃ (x t : ℂ) (ys us : List ℂ), IsVacuumPolarization polT (external om p) (m ^ 2) x ∧
        IsThermalPolarization polT (external om p) beta (m ^ 2) t ∧
        List.Forall₂ (fun q y => IsVacuumQuarkLoop g k.nc polT (external om p) q.2 y) qs ys ∧
        List.Forall₂ (fun q u => IsThermalQuarkDiagram (fun Q => average polT fun e => quarkDiagram g k.nc e (external om p) q.2 Q) beta mu u) qs us ∧
        qcd.thermal.gluon.dressing_t_inv_landau_w_field_config .exact k om p beta mu f0 (FieldConfig.new k.nc m qs) =
          z - 16 * π ^ 2 / 3 * ((x + t + flavours qs ys + flavours qs us) / msq (external om p))) := by
  have ho0 := (freq ho hn hb).1
  have hP : momentum om p ≠ 0 := momentum_ne ho0
  have hs : 0 < om ^ 2 + p ^ 2 := by positivity
  have e' : (om * om + p * p) / (m * m) = (om ^ 2 + p ^ 2) / m ^ 2 := by ring
  constructor
  · obtain ⟨h1, h2⟩ := polL_real ho0 p
    obtain ⟨x, ys, hx, hy, ex⟩ := hz _ hP _ h2
    obtain ⟨D, E, g', h, t, c1, c2, c3, c4, c5, et⟩ := C83_polarization_glue_l (T1 := ℝ) (T2 := ℝ) k ho hn hp hm hb
    obtain ⟨us, hu, eu⟩ := thermal_list (fun mq => C84_quark_l (T1 := ℝ) (T2 := ℝ) hg k ho hn hp hb mq mu) k.nc m qs
    rw [← h1, vec_momentum] at hx hy
    rw [norm_momentum, vec_momentum] at ex
    refine ⟨x, g' + h + t, ys, us, hx, ⟨D, E, g', h, t, c1, c2, c3, c4, c5, rfl⟩, hy, hu, ?_⟩
    have e3 : qcd.thermal.gluon.dressing_l_inv_landau_w_field_config .exact k om p beta mu f0 (FieldConfig.new k.nc m qs) =
        qcd.gluon.dressing_inv_landau_w_field_config k (((om ^ 2 + p ^ 2) / m ^ 2 : ℝ) : ℂ) f0 (FieldConfig.new k.nc m qs)
          - ((om : ℂ) * om + p * p)⁻¹ * PREFACTOR * (gluon.thermal.polarization_glue_l_thermal_part_landau .exact k om p m beta
            + ((FieldConfig.new k.nc m qs).quarks_internal.map fun qi =>
                gluon.thermal.polarization_quark_l_thermal_part_landau .exact k om p qi.mq beta mu * (ofR (qi.nf : ℝ) : ℂ)).sum) := by
      rw [← e']
      simp only [qcd.thermal.gluon.dressing_l_inv_landau_w_field_config, toC_real, ofR_complex]
      push_cast
      rfl
    simp only [ofR_real] at et eu
    rw [e3, complex_config k (by positivity) f0 k.nc hm.ne' qs hq, ex, et, eu, msq_external, PREFACTOR]
    push_cast
    ring
  · obtain ⟨h1, h2⟩ := polT_real om p
    obtain ⟨x, ys, hx, hy, ex⟩ := hz _ hP _ h2
    obtain ⟨D, E, g', h, t, c1, c2, c3, c4, c5, et⟩ := C83_polarization_glue_t (T := ℝ) k ho hn hp hm hb
    obtain ⟨us, hu, eu⟩ := thermal_list (fun mq => C84_quark_t (T := ℝ) hg k ho hn hp hb mq mu) k.nc m qs
    rw [← h1, vec_momentum] at hx hy
    rw [norm_momentum, vec_momentum] at ex
    refine ⟨x, g' + h + t, ys, us, hx, ⟨D, E, g', h, t, c1, c2, c3, c4, c5, rfl⟩, hy, hu, ?_⟩
    have e3 : qcd.thermal.gluon.dressing_t_inv_landau_w_field_config .exact k om p beta mu f0 (FieldConfig.new k.nc m qs) =
        ((qcd.gluon.dressing_inv_landau_w_field_config k ((om ^ 2 + p ^ 2) / m ^ 2 : ℝ) f0 (FieldConfig.new k.nc m qs) : ℝ) : ℂ)
          - ((om : ℂ) * om + p * p)⁻¹ * PREFACTOR * (gluon.thermal.polarization_glue_t_thermal_part_landau .exact k om p m beta
            + ((FieldConfig.new k.nc m qs).quarks_internal.map fun qi =>
                gluon.thermal.polarization_quark_t_thermal_part_landau .exact k om p qi.mq beta mu * (ofR (qi.nf : ℝ) : ℂ)).sum) := by
      rw [← e']
      simp only [qcd.thermal.gluon.dressing_t_inv_landau_w_field_config, toC_real, ofR_real]
      push_cast
      rfl
    simp only [ofR_real] at et eu
    rw [e3, ex, et, eu, msq_external, PREFACTOR]
    push_cast
    ring

/-- **C88** (finite temperature and density, any list of quarks): vacuum and thermal parts together, longitudinal and transverse; the
constant does not depend on the momentum, on the temperature, on the chemical potential, or on the polarisation. The number of colours
of the configuration must be the global one: see C31. -/
theorem C88_thermal_config (hg : IsClifford g) (k : consts.Consts ℝ) (hnc : k.nc ≠ 0) {m : ℝ} (hm : 0 < m) (qs : List (ℕ × ℝ))
    (hq : ∀ q ∈ qs, 0 < q.2) (f0 : ℝ) :
    ∃ z : ℂ, ∀ (beta mu : ℝ) (n : ℤ) (om p : ℝ), 0 < beta → n ≠ 0 → om = 2 * Real.pi * n / beta → p ≠ 0 →
      (∃ (x t : ℂ) (ys us : List ℂ), IsVacuumPolarization (polL om p) (external om p) (m ^ 2) x ∧
        IsThermalPolarization (polL om p) (external om p) beta (m ^ 2) t ∧
        List.Forall₂ (fun q y => IsVacuumQuarkLoop g k.nc (polL om p) (external om p) q.2 y) qs ys ∧
        List.Forall₂ (fun q u => IsThermalQuarkDiagram (fun Q => average (polL om p) fun e => quarkDiagram g k.nc e (external om p) q.2 Q) beta mu u) qs us ∧
        qcd.thermal.gluon.dressing_l_inv_landau_w_field_config .exact k om p beta mu f0 (FieldConfig.new k.nc m qs) =
          z - 16 * π ^ 2 / 3 * ((x + t + flavours qs ys + flavours qs us) / msq (external om p))) ∧
      (∃ (x t : ℂ) (ys us : List ℂ), IsVacuumPolarization polT (external om p) (m ^ 2) x ∧
        IsThermalPolarization polT (external om p) beta (m ^ 2) t ∧
        List.Forall₂ (fun q y => IsVacuumQuarkLoop g k.nc polT (external om p) q.2 y) qs ys ∧
        List.Forall₂ (fun q u => IsThermalQuarkDiagram (fun Q => average polT fun e => quarkDiagram g k.nc e (external om p) q.2 Q) beta mu u) qs us ∧
        qcd.thermal.gluon.dressing_t_inv_landau_w_field_config .exact k om p beta mu f0 (FieldConfig.new k.nc m qs) =
          z - 16 * π ^ 2 / 3 * ((x + t + flavours qs ys + flavours qs us) / msq (external om p))) := by
  obtain ⟨⟨z, hz⟩, -⟩ := C88_vacuum_config hg k hnc hm qs hq f0
  exact ⟨z, fun beta mu n om p hb hn ho hp => thermal_config_of hg k hm hq hz mu hb hn ho hp⟩

theorem zero_temp_config_of (hg : IsClifford g) (k : consts.Consts ℝ) {m : ℝ} (hm : 0 < m) {qs : List (ℕ × ℝ)}
    (hq : ∀ q ∈ qs, 0 < q.2) {f0 : ℝ} {z : ℂ}
    (hz : ∀ P : Momentum, P ≠ 0 → ∀ l : List Momentum, Polarisations P l →
      ∃ (x : ℂ) (ys : List ℂ), IsVacuumPolarization (l.map vec) (vec P) (m ^ 2) x ∧
        List.Forall₂ (fun q y => IsVacuumQuarkLoop g k.nc (l.map vec) (vec P) q.2 y) qs ys ∧
        ((qcd.gluon.dressing_inv_landau_w_field_config k (‖P‖ ^ 2 / m ^ 2) f0 (FieldConfig.new k.nc m qs) : ℝ) : ℂ) =
          z - 16 * π ^ 2 / 3 * ((x + flavours qs ys) / msq (vec P)))
    {om p : ℝ} (mu : ℝ) (ho0 : om ≠ 0) (hp : p ≠ 0) :
      (∃ (x : ℂ) (ys us : List ℂ), IsVacuumPolarization (polL om p) (external om p) (m ^ 2) x ∧
        List.Forall₂ (fun q y => IsVacuumQuarkLoop g k.nc (polL om p) (external om p) q.2 y) qs ys ∧
        List.Forall₂ (fun q u => IsDenseQuarkDiagram (fun Q => average (polL om p) fun e => quarkDiagram g k.nc e (external om p) q.2 Q) mu u) qs us ∧
        qcd.thermal.gluon.dressing_l_inv_zero_temp_landau_w_field_config .exact k om p mu f0 (FieldConfig.new k.nc m qs) =
          z - 16 * π ^ 2 / 3 * ((x + flavours qs ys + flavours qs us) / msq (external om p))) ∧
      (∃ (x : ℂ) (ys us : List ℂ), IsVacuumPolarization polT (external om p) (m ^ 2) x ∧
        List.Forall₂ (fun q y => IsVacuumQuarkLoop g k.nc polT (external om p) q.2 y) qs ys ∧
        List.Forall₂ (fun q u => IsDenseQuarkDiagram (fun Q => average polT fun e => quarkDiagram g k.nc e (external om p) q.2 Q) mu u) qs us ∧
        qcd.thermal.gluon.dressing_t_inv_zero_temp_landau_w_field_config .exact k om p mu f0 (FieldConfig.new k.nc m qs) =
          z - 16 * π ^ 2 / 3 * ((x + flavours qs ys + flavours qs us) / msq (external om p))) := by
  have hP : momentum om p ≠ 0 := momentum_ne ho0
  have hs : 0 < om ^ 2 + p ^ 2 := by positivity
  have e' : (om * om + p * p) / (m * m) = (om ^ 2 + p ^ 2) / m ^ 2 := by ring
  constructor
  · obtain ⟨h1, h2⟩ := polL_real ho0 p
    obtain ⟨x, ys, hx, hy, ex⟩ := hz _ hP _ h2
    obtain ⟨us, hu, eu⟩ := thermal_list (fun mq => C84_quark_l_zero_temp (T1 := ℝ) (T2 := ℝ) hg k ho0 hp mq mu) k.nc m qs
    rw [← h1, vec_momentum] at hx hy
    rw [norm_momentum, vec_momentum] at ex
    refine ⟨x, ys, us, hx, hy, hu, ?_⟩
    have e3 : qcd.thermal.gluon.dressing_l_inv_zero_temp_landau_w_field_config .exact k om p mu f0 (FieldConfig.new k.nc m qs) =
        qcd.gluon.dressing_inv_landau_w_field_config k (((om ^ 2 + p ^ 2) / m ^ 2 : ℝ) : ℂ) f0 (FieldConfig.new k.nc m qs)
          - ((om : ℂ) * om + p * p)⁻¹ * PREFACTOR * ((FieldConfig.new k.nc m qs).quarks_internal.map fun qi =>
                gluon.thermal.polarization_quark_l_thermal_part_zero_temp_landau .exact k om p qi.mq mu * (ofR (qi.nf : ℝ) : ℂ)).sum := by
      rw [← e']
      simp only [qcd.thermal.gluon.dressing_l_inv_zero_temp_landau_w_field_config, toC_real, ofR_complex]
      push_cast
      rfl
    simp only [ofR_real] at eu
    rw [e3, complex_config k (by positivity) f0 k.nc hm.ne' qs hq, ex, eu, msq_external, PREFACTOR]
    push_cast
    ring
  · obtain ⟨h1, h2⟩ := polT_real om p
    obtain ⟨x, ys, hx, hy, ex⟩ := hz _ hP _ h2
    obtain ⟨us, hu, eu⟩ := thermal_list (fun mq => C84_quark_t_zero_temp (T := ℝ) hg k ho0 hp mq mu) k.nc m qs
    rw [← h1, vec_momentum] at hx hy
    rw [norm_momentum, vec_momentum] at ex
    refine ⟨x, ys, us, hx, hy, hu, ?_⟩
    have e3 : qcd.thermal.gluon.dressing_t_inv_zero_temp_landau_w_field_config .exact k om p mu f0 (FieldConfig.new k.nc m qs) =
        ((qcd.gluon.dressing_inv_landau_w_field_config k ((om ^ 2 + p ^ 2) / m ^ 2 : ℝ) f0 (FieldConfig.new k.nc m qs) : ℝ) : ℂ)
          - ((om : ℂ) * om + p * p)⁻¹ * PREFACTOR * ((FieldConfig.new k.nc m qs).quarks_internal.map fun qi =>
                gluon.thermal.polarization_quark_t_thermal_part_zero_temp_landau .exact k om p qi.mq mu * (ofR (qi.nf : ℝ) : ℂ)).sum := by
      rw [← e']
      simp only [qcd.thermal.gluon.dressing_t_inv_zero_temp_landau_w_field_config, toC_real, ofR_real]
      push_cast
      rfl
    simp only [ofR_real] at eu
    rw [e3, ex, eu, msq_external, PREFACTOR]
    push_cast
    ring

/-- **C88** (zero temperature, finite density, any list of quarks). -/
theorem C88_zero_temp_config (hg : IsClifford g) (k : consts.Consts ℝ) (hnc : k.nc ≠ 0) {m : ℝ} (hm : 0 < m) (qs : List (ℕ × ℝ))
    (hq : ∀ q ∈ qs, 0 < q.2) (f0 : ℝ) :
    ∃ z : ℂ, ∀ mu om p : ℝ, om ≠ 0 → p ≠ 0 →
      (∃ (x : ℂ) (ys us : List ℂ), IsVacuumPolarization (polL om p) (external om p) (m ^ 2) x ∧
        List.Forall₂ (fun q y => IsVacuumQuarkLoop g k.nc (polL om p) (external om p) q.2 y) qs ys ∧
        List.Forall₂ (fun q u => IsDenseQuarkDiagram (fun Q => average (polL om p) fun e => quarkDiagram g k.nc e (external om p) q.2 Q) mu u) qs us ∧
        qcd.thermal.gluon.dressing_l_inv_zero_temp_landau_w_field_config .exact k om p mu f0 (FieldConfig.new k.nc m qs) =
          z - 16 * π ^ 2 / 3 * ((x + flavours qs ys + flavours qs us) / msq (external om p))) ∧
      (∃ (x : ℂ) (ys us : List ℂ), IsVacuumPolarization polT (external om p) (m ^ 2) x ∧
        List.Forall₂ (fun q y => IsVacuumQuarkLoop g k.nc polT (external om p) q.2 y) qs ys ∧
        List.Forall₂ (fun q u => IsDenseQuarkDiagram (fun Q => average polT fun e => quarkDiagram g k.nc e (external om p) q.2 Q) mu u) qs us ∧
        qcd.thermal.gluon.dressing_t_inv_zero_temp_landau_w_field_config .exact k om p mu f0 (FieldConfig.new k.nc m qs) =
          z - 16 * π ^ 2 / 3 * ((x + flavours qs ys + flavours qs us) / msq (external om p))) := by
  obtain ⟨⟨z, hz⟩, -⟩ := C88_vacuum_config hg k hnc hm qs hq f0
  exact ⟨z, fun mu om p ho0 hp => zero_temp_config_of hg k hm hq hz mu ho0 hp⟩

/-- The four thermal functions without a configuration are the ones with the global flavours. -/
theorem single_thermal {k : consts.Consts ℝ} (hk : k.nf_div_nc = (k.nf : ℝ) / (k.nc : ℝ)) {om p m mq : ℝ} (ho : om ≠ 0) (hm : 0 < m) (hq : 0 < mq)
    (beta mu f0 : ℝ) :
    qcd.thermal.gluon.dressing_l_inv_landau .exact k om p m mq beta mu f0 =
      qcd.thermal.gluon.dressing_l_inv_landau_w_field_config .exact k om p beta mu f0 (FieldConfig.new k.nc m [(k.nf, mq)]) ∧
    qcd.thermal.gluon.dressing_t_inv_landau .exact k om p m mq beta mu f0 =
      qcd.thermal.gluon.dressing_t_inv_landau_w_field_config .exact k om p beta mu f0 (FieldConfig.new k.nc m [(k.nf, mq)]) ∧
    qcd.thermal.gluon.dressing_l_inv_zero_temp_landau .exact k om p m mq mu f0 =
      qcd.thermal.gluon.dressing_l_inv_zero_temp_landau_w_field_config .exact k om p mu f0 (FieldConfig.new k.nc m [(k.nf, mq)]) ∧
    qcd.thermal.gluon.dressing_t_inv_zero_temp_landau .exact k om p m mq mu f0 =
      qcd.thermal.gluon.dressing_t_inv_zero_temp_landau_w_field_config .exact k om p mu f0 (FieldConfig.new k.nc m [(k.nf, mq)]) := by
  have h0 : 0 < (om * om + p * p) / (m * m) := div_pos (by nlinarith [mul_self_pos.2 ho, mul_self_nonneg p]) (by positivity)
  have c := complex_config k h0 f0 k.nc hm.ne' [(k.nf, mq)] (by simpa using hq)
  rw [← (single_flavour hk _ _ _ _).1] at c
  push_cast at c
  refine ⟨?_, ?_, ?_, ?_⟩
  · simp only [qcd.thermal.gluon.dressing_l_inv_landau, qcd.thermal.gluon.dressing_l_inv_landau_w_field_config, toC_real, ofR_real, ofR_complex]
    have e : (FieldConfig.new k.nc m [(k.nf, mq)]).gluon = m := rfl
    rw [e]
    push_cast
    rw [c]
    simp [FieldConfig.new, QuarkInternal.new]
    left; ring
  · simp only [qcd.thermal.gluon.dressing_t_inv_landau, qcd.thermal.gluon.dressing_t_inv_landau_w_field_config, toC_real, ofR_real, ofR_complex]
    have e : (FieldConfig.new k.nc m [(k.nf, mq)]).gluon = m := rfl
    rw [e, ← (single_flavour hk _ _ _ _).1]
    simp [FieldConfig.new, QuarkInternal.new]
    left; ring
  · simp only [qcd.thermal.gluon.dressing_l_inv_zero_temp_landau, qcd.thermal.gluon.dressing_l_inv_zero_temp_landau_w_field_config, toC_real, ofR_real, ofR_complex]
    have e : (FieldConfig.new k.nc m [(k.nf, mq)]).gluon = m := rfl
    rw [e]
    push_cast
    rw [c]
    simp [FieldConfig.new, QuarkInternal.new]
    ring
  · simp only [qcd.thermal.gluon.dressing_t_inv_zero_temp_landau, qcd.thermal.gluon.dressing_t_inv_zero_temp_landau_w_field_config, toC_real, ofR_real, ofR_complex]
    have e : (FieldConfig.new k.nc m [(k.nf, mq)]).gluon = m := rfl
    rw [e, ← (single_flavour hk _ _ _ _).1]
    simp [FieldConfig.new, QuarkInternal.new]
    ring

/-- **C88** (finite temperature and density, global flavours), after any sequence of calls that set the global parameters. -/
theorem C88_thermal (hg : IsClifford g) (hist : List (consts.Setter ℝ)) (hnc : (consts.after hist).nc ≠ 0) {m mq : ℝ} (hm : 0 < m) (hq : 0 < mq) (f0 : ℝ) :
    ∃ z : ℂ, ∀ (beta mu : ℝ) (n : ℤ) (om p : ℝ), 0 < beta → n ≠ 0 → om = 2 * Real.pi * n / beta → p ≠ 0 →
      (∃ x t y u : ℂ, IsVacuumPolarization (polL om p) (external om p) (m ^ 2) x ∧ IsThermalPolarization (polL om p) (external om p) beta (m ^ 2) t ∧
        IsVacuumQuarkLoop g (consts.after hist).nc (polL om p) (external om p) mq y ∧
        IsThermalQuarkDiagram (fun Q => average (polL om p) fun e => quarkDiagram g (consts.after hist).nc e (external om p) mq Q) beta mu u ∧
        qcd.thermal.gluon.dressing_l_inv_landau .exact (consts.after hist) om p m mq beta mu f0 =
          z - 16 * π ^ 2 / 3 * ((x + t + (consts.after hist).nf * y + (consts.after hist).nf * u) / msq (external om p))) ∧
      (∃ x t y u : ℂ, IsVacuumPolarization polT (external om p) (m ^ 2) x ∧ IsThermalPolarization polT (external om p) beta (m ^ 2) t ∧
        IsVacuumQuarkLoop g (consts.after hist).nc polT (external om p) mq y ∧
        IsThermalQuarkDiagram (fun Q => average polT fun e => quarkDiagram g (consts.after hist).nc e (external om p) mq Q) beta mu u ∧
        qcd.thermal.gluon.dressing_t_inv_landau .exact (consts.after hist) om p m mq beta mu f0 =
          z - 16 * π ^ 2 / 3 * ((x + t + (consts.after hist).nf * y + (consts.after hist).nf * u) / msq (external om p))) := by
  have hk : (consts.after hist).nf_div_nc = ((consts.after hist).nf : ℝ) / ((consts.after hist).nc : ℝ) := consts.C02_ratio_current hist
  generalize consts.after hist = k at *
  obtain ⟨z, hz⟩ := C88_thermal_config hg k hnc hm [(k.nf, mq)] (by simpa using hq) f0
  refine ⟨z, fun beta mu n om p hb hn ho hp => ?_⟩
  have ho0 := (freq ho hn hb).1
  obtain ⟨⟨x, t, ys, us, hx, ht, hy, hu, e⟩, ⟨x', t', ys', us', hx', ht', hy', hu', e'⟩⟩ := hz beta mu n om p hb hn ho hp
  have hs := single_thermal hk (p := p) ho0 hm hq beta mu f0
  constructor
  · obtain ⟨y, h1, h2⟩ := single_forall (L := IsVacuumQuarkLoop g k.nc (polL om p) (external om p)) hy
    obtain ⟨u, h3, h4⟩ := single_forall
      (L := fun mq u => IsThermalQuarkDiagram (fun Q => average (polL om p) fun e => quarkDiagram g k.nc e (external om p) mq Q) beta mu u) hu
    exact ⟨x, t, y, u, hx, ht, h1, h3, by rw [hs.1, e, h2, h4]⟩
  · obtain ⟨y, h1, h2⟩ := single_forall (L := IsVacuumQuarkLoop g k.nc polT (external om p)) hy'
    obtain ⟨u, h3, h4⟩ := single_forall
      (L := fun mq u => IsThermalQuarkDiagram (fun Q => average polT fun e => quarkDiagram g k.nc e (external om p) mq Q) beta mu u) hu'
    exact ⟨x', t', y, u, hx', ht', h1, h3, by rw [hs.2.1, e', h2, h4]⟩

/-- **C88** (zero temperature, finite density, global flavours). -/
theorem C88_zero_temp (hg : IsClifford g) (hist : List (consts.Setter ℝ)) (hnc : (consts.after hist).nc ≠ 0) {m mq : ℝ} (hm : 0 < m) (hq : 0 < mq) (f0 : ℝ) :
    ∃ z : ℂ, ∀ mu om p : ℝ, om ≠ 0 → p ≠ 0 →
      (∃ x y u : ℂ, IsVacuumPolarization (polL om p) (external om p) (m ^ 2) x ∧
        IsVacuumQuarkLoop g (consts.after hist).nc (polL om p) (external om p) mq y ∧
        IsDenseQuarkDiagram (fun Q => average (polL om p) fun e => quarkDiagram g (consts.after hist).nc e (external om p) mq Q) mu u ∧
        qcd.thermal.gluon.dressing_l_inv_zero_temp_landau .exact (consts.after hist) om p m mq mu f0 =
          z - 16 * π ^ 2 / 3 * ((x + (consts.after hist).nf * y + (consts.after hist).nf * u) / msq (external om p))) ∧
      (∃ x y u : ℂ, IsVacuumPolarization polT (external om p) (m ^ 2) x ∧
        IsVacuumQuarkLoop g (consts.after hist).nc polT (external om p) mq y ∧
        IsDenseQuarkDiagram (fun Q => average polT fun e => quarkDiagram g (consts.after hist).nc e (external om p) mq Q) mu u ∧
        qcd.thermal.gluon.dressing_t_inv_zero_temp_landau .exact (consts.after hist) om p m mq mu f0 =
          z - 16 * π ^ 2 / 3 * ((x + (consts.after hist).nf * y + (consts.after hist).nf * u) / msq (external om p))) := by
  have hk : (consts.after hist).nf_div_nc = ((consts.after hist).nf : ℝ) / ((consts.after hist).nc : ℝ) := consts.C02_ratio_current hist
  generalize consts.after hist = k at *
  obtain ⟨z, hz⟩ := C88_zero_temp_config hg k hnc hm [(k.nf, mq)] (by simpa using hq) f0
  refine ⟨z, fun mu om p ho0 hp => ?_⟩
  obtain ⟨⟨x, ys, us, hx, hy, hu, e⟩, ⟨x', ys', us', hx', hy', hu', e'⟩⟩ := hz mu om p ho0 hp
  have hs := single_thermal hk (p := p) ho0 hm hq 0 mu f0
  constructor
  · obtain ⟨y, h1, h2⟩ := single_forall (L := IsVacuumQuarkLoop g k.nc (polL om p) (external om p)) hy
    obtain ⟨u, h3, h4⟩ := single_forall
      (L := fun mq u => IsDenseQuarkDiagram (fun Q => average (polL om p) fun e => quarkDiagram g k.nc e (external om p) mq Q) mu u) hu
    exact ⟨x, y, u, hx, h1, h3, by rw [hs.2.2.1, e, h2, h4]⟩
  · obtain ⟨y, h1, h2⟩ := single_forall (L := IsVacuumQuarkLoop g k.nc polT (external om p)) hy'
    obtain ⟨u, h3, h4⟩ := single_forall
      (L := fun mq u => IsDenseQuarkDiagram (fun Q => average polT fun e => quarkDiagram g k.nc e (external om p) mq Q) mu u) hu'
    exact ⟨x', y, u, hx', h1, h3, by rw [hs.2.2.2, e', h2, h4]⟩

/-! ### Concrete cases -/

/-- Three colours and no call at all; the Dirac matrices of C84; two light flavours and a heavy one. -/
example : IsClifford dirac ∧ (consts.after ([] : List (consts.Setter ℝ))).nc ≠ 0 ∧
    (∀ q ∈ ([(2, 7 / 20), (1, 1 / 2)] : List (ℕ × ℝ)), 0 < q.2) ∧ Polarisations (momentum 1 2) [eT1, eT2] ∧ momentum 1 2 ≠ 0 :=
  ⟨dirac_clifford, by decide, by simp, (polT_real 1 2).2, momentum_ne one_ne_zero⟩

end Qcd
