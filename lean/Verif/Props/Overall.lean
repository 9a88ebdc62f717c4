import Verif.Spec.Overall
import Verif.Spec.ExamplePlots
import Verif.Props.Scans
import Verif.Props.ThermalGlobals
import Verif.Props.ThermalQuarkLists
import Verif.Props.LowTemperature

/-! # C76-C78: the programs `one_mass_overall` and `two_masses_overall` -/

namespace Qcd.tc
open Qcd.tc.Spec consts Filter Topology

/-! ### Helpers -/

variable {Q : Type}

theorem renormalized_code (D : ℝ → ℂ) (s : Settings Q) (p : ℝ) :
    (D (p * s.m)).re / ((D s.renpoint).re * s.renf) = renormalized D s.renpoint s.m p := by
  simp only [renormalized, Settings.renf, Settings.m2, div_eq_mul_inv, mul_inv, inv_inv, one_mul, sq]
  ring

theorem mapM_some {α β : Type} {f : α → Option β} {g : α → β} : ∀ {l : List α}, (∀ x ∈ l, f x = some (g x)) → l.mapM f = some (l.map g)
  | [], _ => rfl
  | x :: xs, h => by
    rw [List.mapM_cons, h x (by simp), mapM_some fun y hy => h y (by simp [hy])]
    rfl

theorem domain_sorted {s : Settings Q} (hs : Sensible s) : s.domain.Pairwise (· < ·) ∧ ∀ t ∈ s.tdomain, t ≠ 0 := by
  have h0 : ∀ t ∈ s.tdomain, 0 < t := by
    intro t ht
    simp only [Settings.tdomain, grid, List.mem_map, List.mem_range] at ht
    obtain ⟨n, -, rfl⟩ := ht
    have := hs.tmin
    have := hs.dt
    positivity
  refine ⟨?_, fun t ht => (h0 t ht).ne'⟩
  simp only [Settings.domain, List.singleton_append, List.pairwise_cons]
  refine ⟨h0, ?_⟩
  simp only [Settings.tdomain, grid]
  rw [List.pairwise_map]
  refine List.Pairwise.imp ?_ List.pairwise_lt_range
  intro a b hab
  have : (a : ℝ) < b := Nat.cast_lt.2 hab
  have := mul_lt_mul_of_pos_left this hs.dt
  linarith

/-- What `find_critical_temperature` returns for the values of a function. -/
noncomputable def tcOf (ts : List ℝ) (v : ℝ → ℝ) : ℝ := (find_critical_temperature gtReal ts (ts.map v)).getD 0

theorem find_eq {ts : List ℝ} (hne : ts ≠ []) (v : ℝ → ℝ) : find_critical_temperature gtReal ts (ts.map v) = some (tcOf ts v) := by
  unfold tcOf
  cases ts with
  | nil => exact absurd rfl hne
  | cons t ts => simp [find_critical_temperature]

theorem tcOf_spec {ts : List ℝ} (hne : ts ≠ []) (hp : ts.Pairwise (· < ·)) (v : ℝ → ℝ) : LowestMaximum ts v (tcOf ts v) := by
  have he := find_eq hne v
  rcases C53_first_maximum (F := ℝ) ts (ts.map v) with ⟨h1, -⟩ | ⟨k, t, d, h1, h2, h3, h4, h5, -⟩
  · rcases h1 with h1 | h1
    · exact absurd h1 hne
    · exact absurd (List.map_eq_nil_iff.1 h1) hne
  · change find_critical_temperature gtReal ts (ts.map v) = some t at h1
    rw [h1, Option.some.injEq] at he
    rw [← he]
    have hd : d = v t := by
      rw [List.getElem?_map, h2] at h3
      simpa using h3.symm
    subst hd
    refine ⟨List.mem_of_getElem? h2, fun u hu => ?_⟩
    obtain ⟨j, hj⟩ := List.mem_iff_getElem?.1 hu
    have hv : (ts.map v)[j]? = some (v u) := by rw [List.getElem?_map, hj]; rfl
    refine ⟨by simpa [FloatOrder.gt] using h4 j u _ hj hv, fun hut => ?_⟩
    have hjk : j < k := by
      by_contra hc
      rcases (not_lt.1 hc).lt_or_eq with h | h
      · obtain ⟨hk', e1⟩ := List.getElem?_eq_some_iff.1 h2
        obtain ⟨hj', e2⟩ := List.getElem?_eq_some_iff.1 hj
        have := List.pairwise_iff_getElem.1 hp k j hk' hj' h
        rw [e1, e2] at this
        exact absurd this hut.asymm
      · subst h
        rw [h2, Option.some.injEq] at hj
        exact absurd hut (by rw [hj]; exact lt_irrefl _)
    simpa [FloatOrder.gt] using h5 j _ hjk hv (Or.inr (by simp [FloatOrder.isNaN]))

theorem LowestMaximum.unique {ts : List ℝ} {v : ℝ → ℝ} {a b : ℝ} (ha : LowestMaximum ts v a) (hb : LowestMaximum ts v b) : a = b := by
  rcases lt_trichotomy a b with h | h | h
  · exact absurd ((hb.2 a ha.1).2 h) (not_lt.2 (ha.2 b hb.1).1)
  · exact h
  · exact absurd ((ha.2 b hb.1).2 h) (not_lt.2 (hb.2 a ha.1).1)

theorem domain_ne (s : Settings Q) : s.domain ≠ [] := by simp [Settings.domain]

/-! ### Without quarks -/

/-- The two functions of Yang-Mills theory are the ones of the theory without quarks. -/
theorem ym_propagators (ig : Integrator) (k : Consts ℝ) (s : Settings Q) (hs : Sensible s) (nc : ℕ) (qs : List (ℕ × ℝ)) (h : ∀ q ∈ qs, q.1 = 0)
    (mu p : ℝ) (beta : ℝ) :
    (longitudinal ig k).finite s.om p beta mu s.f0 (FieldConfig.new nc s.m qs) = ym.thermal.gluon.propagator_l_landau ig k s.om p s.m beta s.f0 ∧
    (longitudinal ig k).zero s.om p mu s.f0 (FieldConfig.new nc s.m qs) =
      ((ym.gluon.propagator_landau ((s.om * s.om + p * p) / (s.m * s.m)) s.f0 / (s.m * s.m) : ℝ) : ℂ) := by
  have hpos : 0 < s.om * s.om + p * p := by
    have := mul_self_pos.2 hs.om
    have := mul_self_nonneg p
    linarith
  obtain ⟨h1, h2⟩ := C44_no_quarks_general_real ig k s.om p beta mu s.f0 nc s.m qs h hs.m hpos
  simp only [qcd.thermal.gluon.configValues, ym.thermal.gluon.values, qcd.thermal.gluon.configZeroTempValues, vacuumValues, List.cons.injEq] at h1 h2
  refine ⟨h1.2.2.2.2.1, ?_⟩
  simp only [longitudinal]
  rw [h2.2.2.2.2.1]
  simp only [ym.gluon.propagator_landau, ym.gluon.dressing_landau, ofR_real, toC_real]
  have hm := hs.m
  push_cast
  have hm' : (s.m : ℂ) ≠ 0 := by exact_mod_cast hm
  have hp' : ((s.om * s.om + p * p : ℝ) : ℂ) ≠ 0 := by exact_mod_cast hpos.ne'
  push_cast at hp'
  field_simp

theorem ym_value_zero (ig : Integrator) (k : Consts ℝ) (s : Settings Q) (hs : Sensible s) (nc : ℕ) (qs : List (ℕ × ℝ)) (h : ∀ q ∈ qs, q.1 = 0) (mu p : ℝ) :
    ym.gluon.propagator_landau (s.om * s.om / s.m2 + p * p) s.f0 /
        (ym.gluon.propagator_landau ((s.om * s.om + s.renpoint * s.renpoint) / s.m2) s.f0 * s.renf) =
      propagatorValue (longitudinal ig k) s (FieldConfig.new nc s.m qs) mu 0 p := by
  have hy := fun p => (ym_propagators ig k s hs nc qs h mu p 0).2
  rw [propagatorValue, ← renormalized_code]
  simp only [propagatorAt, if_true, hy, Complex.ofReal_re]
  have hm := hs.m
  rw [show (s.om * s.om + p * s.m * (p * s.m)) / (s.m * s.m) = s.om * s.om / s.m2 + p * p by unfold Settings.m2; field_simp]
  simp only [Settings.m2]
  rw [div_mul_eq_mul_div, div_div_div_cancel_right₀ (mul_ne_zero hm hm)]

theorem ym_value_finite (ig : Integrator) (k : Consts ℝ) (s : Settings Q) (hs : Sensible s) (nc : ℕ) (qs : List (ℕ × ℝ)) (h : ∀ q ∈ qs, q.1 = 0) (mu p : ℝ)
    {t : ℝ} (ht : t ≠ 0) :
    (ym.thermal.gluon.propagator_l_landau ig k s.om (p * s.m) s.m (1 / (t * s.m)) s.f0).re /
        ((ym.thermal.gluon.propagator_l_landau ig k s.om s.renpoint s.m (1 / (t * s.m)) s.f0).re * s.renf) =
      propagatorValue (longitudinal ig k) s (FieldConfig.new nc s.m qs) mu t p := by
  have hy := fun p => (ym_propagators ig k s hs nc qs h mu p (1 / (t * s.m))).1
  rw [propagatorValue, ← renormalized_code]
  simp only [propagatorAt, if_neg ht, hy]

theorem ymImages_eq (ig : Integrator) (k : Consts ℝ) (s : Settings Q) (hs : Sensible s) (nc : ℕ) (qs : List (ℕ × ℝ)) (h : ∀ q ∈ qs, q.1 = 0) (mu : ℝ) :
    s.ymImages ig k = curves (longitudinal ig k) s (FieldConfig.new nc s.m qs) mu := by
  simp only [Settings.ymImages, curves, List.map_cons, List.singleton_append, ym_value_zero ig k s hs nc qs h mu]
  congr 1
  refine List.map_congr_left fun t ht => List.map_congr_left fun p _ => ?_
  exact ym_value_finite ig k s hs nc qs h mu p (hs.temperatures t ht)

theorem ymData_eq (ig : Integrator) (k : Consts ℝ) (s : Settings Q) (hs : Sensible s) (nc : ℕ) (qs : List (ℕ × ℝ)) (h : ∀ q ∈ qs, q.1 = 0) (mu : ℝ) :
    s.ymData ig k = infraredCurve (longitudinal ig k) s (FieldConfig.new nc s.m qs) mu := by
  simp only [Settings.ymData, infraredCurve, Settings.domain, List.map_cons, List.singleton_append, infraredValue, ym_value_zero ig k s hs nc qs h mu]
  congr 1
  refine List.map_congr_left fun t ht => ?_
  exact ym_value_finite ig k s hs nc qs h mu s.pmin ((domain_sorted hs).2 t ht)

/-! ### Quarks of one mass -/

theorem after_snoc (h : List (Setter ℝ)) (n : ℕ) : (set_number_of_fermions n (after h)).state = after (h ++ [.number_of_fermions n]) := by
  simp [after, run, List.foldl_append, Setter.call]

theorem after_run (h h' : List (Setter ℝ)) : after (h ++ h') = run h' (after h) := by
  simp [after, run, List.foldl_append]

/-- The fields read by the configuration functions do not change. -/
theorem run_fermions (ns : List ℕ) (k : Consts ℝ) :
    (run (ns.map .number_of_fermions) k).nc = k.nc ∧ (run (ns.map .number_of_fermions) k).tol_integral = k.tol_integral ∧
    (run (ns.map .number_of_fermions) k).max_iter_integral = k.max_iter_integral ∧ (run (ns.map .number_of_fermions) k).matsubara_reg = k.matsubara_reg := by
  induction ns generalizing k with
  | nil => simp [run]
  | cons n ns ih => exact ih _

theorem one_propagators (ig : Integrator) (h : List (Setter ℝ)) (ns : List ℕ) (nf : ℕ) (s : Settings Q) (hs : Sensible s) {mq : ℝ} (hq : mq ≠ 0) (mu p beta : ℝ) :
    let k' := run ((ns ++ [nf]).map .number_of_fermions) (after h)
    qcd.thermal.gluon.propagator_l_landau ig k' s.om p s.m mq beta mu s.f0 =
      (longitudinal ig (after h)).finite s.om p beta mu s.f0 (degenerate (after h).nc s nf mq) ∧
    qcd.thermal.gluon.propagator_l_zero_temp_landau ig k' s.om p s.m mq mu s.f0 =
      (longitudinal ig (after h)).zero s.om p mu s.f0 (degenerate (after h).nc s nf mq) := by
  intro k'
  have hpos : 0 < s.om * s.om + p * p := by
    have := mul_self_pos.2 hs.om
    have := mul_self_nonneg p
    linarith
  have hk' : k' = after (h ++ (ns ++ [nf]).map .number_of_fermions) := (after_run _ _).symm
  obtain ⟨r1, r2, r3, r4⟩ := run_fermions (ns ++ [nf]) (after h)
  have hnf : k'.nf = nf := by
    simp only [k', run, List.map_append, List.foldl_append, List.map_cons, List.map_nil, List.foldl_cons, List.foldl_nil, Setter.call, set_number_of_fermions]
  have hc := C44_interfaces_general_real ig (h ++ (ns ++ [nf]).map .number_of_fermions) s.om p s.m mq beta mu s.f0 hq hs.m hpos
  rw [← hk'] at hc
  obtain ⟨h1, h2⟩ := hc
  have hg := C31_reads_only_general ig k' (after h) r1 r2 r3 r4 s.om p beta mu s.f0 (FieldConfig.new k'.nc s.m [(k'.nf, mq)])
  rw [hg.1, hnf, r1] at h1
  rw [hg.2, hnf, r1] at h2
  simp only [qcd.thermal.gluon.configValues, qcd.thermal.gluon.values, qcd.thermal.gluon.configZeroTempValues, qcd.thermal.gluon.zeroTempValues, List.cons.injEq] at h1 h2
  exact ⟨h1.2.2.2.2.1.symm, h2.2.2.2.2.1.symm⟩

theorem one_images (ig : Integrator) (h : List (Setter ℝ)) (ns : List ℕ) (nf : ℕ) (s : Settings ℝ) (hs : Sensible s) {mq : ℝ} (hq : mq ≠ 0) (mu : ℝ) :
    one_mass_overall.images ig s (run ((ns ++ [nf]).map .number_of_fermions) (after h)) mq mu =
      curves (longitudinal ig (after h)) s (degenerate (after h).nc s nf mq) mu := by
  have hp := fun p beta => one_propagators ig h ns nf s hs hq mu p beta
  simp only [one_mass_overall.images, curves, List.map_cons, List.singleton_append, (hp _ _).1, (hp _ 0).2]
  congr 1
  · refine List.map_congr_left fun p _ => ?_
    rw [propagatorValue, ← renormalized_code]
    simp only [propagatorAt, if_true]
  · refine List.map_congr_left fun t ht => List.map_congr_left fun p _ => ?_
    rw [propagatorValue, ← renormalized_code]
    simp only [propagatorAt, if_neg (hs.temperatures t ht)]

theorem one_data (ig : Integrator) (h : List (Setter ℝ)) (ns : List ℕ) (nf : ℕ) (s : Settings ℝ) (hs : Sensible s) {mq : ℝ} (hq : mq ≠ 0) (mu : ℝ) :
    one_mass_overall.data ig s (run ((ns ++ [nf]).map .number_of_fermions) (after h)) mq mu =
      infraredCurve (longitudinal ig (after h)) s (degenerate (after h).nc s nf mq) mu := by
  have hp := fun p beta => one_propagators ig h ns nf s hs hq mu p beta
  simp only [one_mass_overall.data, infraredCurve, Settings.domain, List.map_cons, List.singleton_append, (hp _ _).1, (hp _ 0).2]
  congr 1
  · rw [infraredValue, propagatorValue, ← renormalized_code]
    simp only [propagatorAt, if_true]
  · refine List.map_congr_left fun t ht => ?_
    rw [infraredValue, propagatorValue, ← renormalized_code]
    simp only [propagatorAt, if_neg ((domain_sorted hs).2 t ht)]

/-- The critical temperature of a theory. -/
noncomputable def tcFor (P : Propagators) (s : Settings Q) (fc : FieldConfig) (mu : ℝ) : ℝ := tcOf s.domain (infraredValue P s fc mu)

theorem tcFor_spec (P : Propagators) (s : Settings Q) (hs : Sensible s) (fc : FieldConfig) (mu : ℝ) :
    LowestMaximum s.domain (infraredValue P s fc mu) (tcFor P s fc mu) :=
  tcOf_spec (domain_ne s) (domain_sorted hs).1 _

section one
variable (ig : Integrator) (fmt : ℝ → String) (basedir : String) (s : Settings ℝ) (P : Propagators) (nc : ℕ)

/-- The plots of propagators at fixed number of fermions. -/
noncomputable def onePropagatorPlot (nf : ℕ) (mq mu : ℝ) : Plot where
  path := basedir ++ "/nf_" ++ toString nf ++ "_mq_" ++ fmt mq ++ "_mu_" ++ fmt mu ++ ".png"
  domain := s.momenta
  legend := s.legends fmt
  images := curves P s (degenerate nc s nf mq) mu

noncomputable def oneInfraredPlot (nf : ℕ) (mq : ℝ) : Plot where
  path := basedir ++ "/ir_nf_" ++ toString nf ++ "_mq_" ++ fmt mq ++ ".png"
  domain := s.domain
  legend := s.muLegends fmt
  images := s.chemical_potentials.map fun mu => infraredCurve P s (degenerate nc s nf mq) mu

noncomputable def oneTcPlot (nf : ℕ) (mq : ℝ) : Plot where
  path := basedir ++ "/tc_nf_" ++ toString nf ++ "_mq_" ++ fmt mq ++ ".png"
  domain := s.chemical_potentials
  legend := []
  images := [s.chemical_potentials.map fun mu => tcFor P s (degenerate nc s nf mq) mu]

noncomputable def onePlots (nf : ℕ) : List Plot :=
  (s.quark_masses.flatMap fun mq => s.chemical_potentials.map fun mu => onePropagatorPlot fmt basedir s P nc nf mq mu) ++
  s.quark_masses.flatMap fun mq => [oneInfraredPlot fmt basedir s P nc nf mq, oneTcPlot fmt basedir s P nc nf mq]

noncomputable def oneRows (nf : ℕ) : List (Row ℝ) :=
  s.quark_masses.flatMap fun mq => s.chemical_potentials.map fun mu => ⟨nf, mq, mu, tcFor P s (degenerate nc s nf mq) mu⟩
end one

theorem one_scanMass (ig : Integrator) (fmt : ℝ → String) (basedir : String) (h : List (Setter ℝ)) (ns : List ℕ) (nf : ℕ) (s : Settings ℝ) (hs : Sensible s)
    {mq : ℝ} (hq : mq ≠ 0) :
    one_mass_overall.scanMass ig fmt basedir s (run ((ns ++ [nf]).map .number_of_fermions) (after h)) nf mq =
      some ([oneInfraredPlot fmt basedir s (longitudinal ig (after h)) (after h).nc nf mq, oneTcPlot fmt basedir s (longitudinal ig (after h)) (after h).nc nf mq],
        s.chemical_potentials.map fun mu => ⟨nf, mq, mu, tcFor (longitudinal ig (after h)) s (degenerate (after h).nc s nf mq) mu⟩) := by
  have hmu : one_mass_overall.scanMu ig s (run ((ns ++ [nf]).map .number_of_fermions) (after h)) mq =
      some (s.chemical_potentials.map fun mu => (tcFor (longitudinal ig (after h)) s (degenerate (after h).nc s nf mq) mu,
        infraredCurve (longitudinal ig (after h)) s (degenerate (after h).nc s nf mq) mu)) := by
    unfold one_mass_overall.scanMu
    refine mapM_some fun mu _ => ?_
    rw [one_data ig h ns nf s hs hq mu]
    simp only [infraredCurve, find_eq (domain_ne s), Option.map_some, tcFor]
  rw [one_mass_overall.scanMass, hmu]
  simp only [Option.map_some, oneInfraredPlot, oneTcPlot, List.map_map, Function.comp_def]
  congr 2
  rw [List.zipWith_map_right, List.zipWith_self]

theorem one_loop (ig : Integrator) (fmt : ℝ → String) (basedir : String) (h : List (Setter ℝ)) (s : Settings ℝ) (hs : Sensible s)
    (hq : ∀ mq ∈ s.quark_masses, mq ≠ 0) : ∀ nfs ns : List ℕ,
    one_mass_overall.loop ig fmt basedir s (run (ns.map .number_of_fermions) (after h)) nfs =
      some (nfs.flatMap (onePlots fmt basedir s (longitudinal ig (after h)) (after h).nc), nfs.flatMap (oneRows s (longitudinal ig (after h)) (after h).nc),
        run ((ns ++ nfs).map .number_of_fermions) (after h))
  | [], ns => by simp [one_mass_overall.loop]
  | nf :: nfs, ns => by
    have e : (set_number_of_fermions nf (run (ns.map .number_of_fermions) (after h))).state = run ((ns ++ [nf]).map .number_of_fermions) (after h) := by
      simp [run, List.foldl_append, Setter.call]
    have hm := mapM_some (l := s.quark_masses) (f := one_mass_overall.scanMass ig fmt basedir s (run ((ns ++ [nf]).map .number_of_fermions) (after h)) nf)
      fun mq hmq => one_scanMass ig fmt basedir h ns nf s hs (hq mq hmq)
    simp only [one_mass_overall.loop, e, hm, one_loop ig fmt basedir h s hs hq nfs (ns ++ [nf])]
    have hpl : one_mass_overall.propagatorPlots ig fmt basedir s (run ((ns ++ [nf]).map .number_of_fermions) (after h)) nf =
        s.quark_masses.flatMap fun mq => s.chemical_potentials.map fun mu => onePropagatorPlot fmt basedir s (longitudinal ig (after h)) (after h).nc nf mq mu := by
      unfold one_mass_overall.propagatorPlots
      refine List.flatMap_congr fun mq hmq => List.map_congr_left fun mu _ => ?_
      rw [one_images ig h ns nf s hs (hq mq hmq) mu]
      rfl
    rw [hpl]
    simp only [List.flatMap_cons, onePlots, oneRows, List.flatMap_map, List.append_assoc, List.singleton_append]

theorem one_main (ig : Integrator) (fmt : ℝ → String) (basedir : String) (h : List (Setter ℝ)) (s : Settings ℝ) (hs : Sensible s)
    (hq : ∀ mq ∈ s.quark_masses, mq ≠ 0) :
    one_mass_overall.main ig fmt basedir s (after h) =
      some ([{ path := basedir ++ "/nf_0_mq_NA_mu_NA.png", domain := s.momenta, legend := s.legends fmt,
               images := curves (longitudinal ig (after h)) s (degenerate (after h).nc s 0 0) 0 },
             { path := basedir ++ "/ir_nf_0_mq_NA.png", domain := s.domain, legend := [],
               images := [infraredCurve (longitudinal ig (after h)) s (degenerate (after h).nc s 0 0) 0] }] ++
            s.nfs.flatMap (onePlots fmt basedir s (longitudinal ig (after h)) (after h).nc),
        ⟨0, 0, 0, tcFor (longitudinal ig (after h)) s (degenerate (after h).nc s 0 0) 0⟩ :: s.nfs.flatMap (oneRows s (longitudinal ig (after h)) (after h).nc),
        run (s.nfs.map .number_of_fermions) (after h)) := by
  have hl := one_loop ig fmt basedir h s hs hq s.nfs []
  simp only [List.map_nil, List.nil_append] at hl
  change one_mass_overall.loop ig fmt basedir s (after h) s.nfs = _ at hl
  have h0 : ∀ q ∈ [((0 : ℕ), (0 : ℝ))], q.1 = 0 := by simp
  simp only [one_mass_overall.main, hl, ymData_eq ig (after h) s hs (after h).nc [(0, 0)] h0 0, ymImages_eq ig (after h) s hs (after h).nc [(0, 0)] h0 0,
    infraredCurve, find_eq (domain_ne s), tcFor, degenerate, List.singleton_append]

/-! ### Quarks of two masses -/

theorem two_images (ig : Integrator) (k : Consts ℝ) (s : Settings (ℝ × ℝ)) (hs : Sensible s) (fc : FieldConfig) (mu : ℝ) :
    two_masses_overall.images ig s k fc mu = curves (longitudinal ig k) s fc mu := by
  simp only [two_masses_overall.images, curves, List.map_cons, List.singleton_append]
  congr 1
  · refine List.map_congr_left fun p _ => ?_
    rw [propagatorValue, ← renormalized_code]
    simp only [propagatorAt, if_true, longitudinal]
  · refine List.map_congr_left fun t ht => List.map_congr_left fun p _ => ?_
    rw [propagatorValue, ← renormalized_code]
    simp only [propagatorAt, if_neg (hs.temperatures t ht), longitudinal]

theorem two_data (ig : Integrator) (k : Consts ℝ) (s : Settings (ℝ × ℝ)) (hs : Sensible s) (fc : FieldConfig) (mu : ℝ) :
    two_masses_overall.data ig s k fc mu = infraredCurve (longitudinal ig k) s fc mu := by
  simp only [two_masses_overall.data, infraredCurve, Settings.domain, List.map_cons, List.singleton_append]
  congr 1
  · rw [infraredValue, propagatorValue, ← renormalized_code]
    simp only [propagatorAt, if_true, longitudinal]
  · refine List.map_congr_left fun t ht => ?_
    rw [infraredValue, propagatorValue, ← renormalized_code]
    simp only [propagatorAt, if_neg ((domain_sorted hs).2 t ht), longitudinal]

section two
variable (fmt : ℝ → String) (basedir : String) (s : Settings (ℝ × ℝ)) (P : Propagators)

noncomputable def twoPropagatorPlot (nf : ℕ) (mq : ℝ × ℝ) (mu : ℝ) : Plot where
  path := basedir ++ "/nf_" ++ toString nf ++ "_mq1_" ++ fmt mq.1 ++ "_mq2_" ++ fmt mq.2 ++ "_mu_" ++ fmt mu ++ ".png"
  domain := s.momenta
  legend := s.legends fmt
  images := curves P s (twoMasses 3 s nf mq) mu

noncomputable def twoInfraredPlot (nf : ℕ) (mq : ℝ × ℝ) : Plot where
  path := basedir ++ "/ir_nf_" ++ toString nf ++ "_mq1_" ++ fmt mq.1 ++ "_mq2_" ++ fmt mq.2 ++ ".png"
  domain := s.domain
  legend := s.muLegends fmt
  images := s.chemical_potentials.map fun mu => infraredCurve P s (twoMasses 3 s nf mq) mu

noncomputable def twoTcPlot (nf : ℕ) (mq : ℝ × ℝ) : Plot where
  path := basedir ++ "/tc_nf_" ++ toString nf ++ "_mq1_" ++ fmt mq.1 ++ "_mq2_" ++ fmt mq.2 ++ ".png"
  domain := s.chemical_potentials
  legend := []
  images := [s.chemical_potentials.map fun mu => tcFor P s (twoMasses 3 s nf mq) mu]

noncomputable def twoPlots (nf : ℕ) : List Plot :=
  (s.quark_masses.flatMap fun mq => s.chemical_potentials.map fun mu => twoPropagatorPlot fmt basedir s P nf mq mu) ++
  s.quark_masses.flatMap fun mq => [twoInfraredPlot fmt basedir s P nf mq, twoTcPlot fmt basedir s P nf mq]

noncomputable def twoRows (nf : ℕ) : List (Row (ℝ × ℝ)) :=
  s.quark_masses.flatMap fun mq => s.chemical_potentials.map fun mu => ⟨nf, mq, mu, tcFor P s (twoMasses 3 s nf mq) mu⟩
end two

theorem two_scanMass (ig : Integrator) (fmt : ℝ → String) (basedir : String) (k : Consts ℝ) (nf : ℕ) (s : Settings (ℝ × ℝ)) (hs : Sensible s) (mq : ℝ × ℝ) :
    two_masses_overall.scanMass ig fmt basedir s k nf mq =
      some ([twoInfraredPlot fmt basedir s (longitudinal ig k) nf mq, twoTcPlot fmt basedir s (longitudinal ig k) nf mq],
        s.chemical_potentials.map fun mu => ⟨nf, mq, mu, tcFor (longitudinal ig k) s (twoMasses 3 s nf mq) mu⟩) := by
  have hmu : two_masses_overall.scanMu ig s k (two_masses_overall.config s nf mq) =
      some (s.chemical_potentials.map fun mu => (tcFor (longitudinal ig k) s (twoMasses 3 s nf mq) mu,
        infraredCurve (longitudinal ig k) s (twoMasses 3 s nf mq) mu)) := by
    unfold two_masses_overall.scanMu
    refine mapM_some fun mu _ => ?_
    rw [two_data ig k s hs _ mu]
    simp only [infraredCurve, find_eq (domain_ne s), Option.map_some, tcFor]
    rfl
  rw [two_masses_overall.scanMass, hmu]
  simp only [Option.map_some, twoInfraredPlot, twoTcPlot, List.map_map, Function.comp_def]
  congr 2
  rw [List.zipWith_map_right, List.zipWith_self]

theorem two_loop (ig : Integrator) (fmt : ℝ → String) (basedir : String) (k : Consts ℝ) (s : Settings (ℝ × ℝ)) (hs : Sensible s) : ∀ nfs : List ℕ,
    two_masses_overall.loop ig fmt basedir s k nfs =
      some (nfs.flatMap (twoPlots fmt basedir s (longitudinal ig k)), nfs.flatMap (twoRows s (longitudinal ig k)), k)
  | [] => by simp [two_masses_overall.loop]
  | nf :: nfs => by
    have hm := mapM_some (l := s.quark_masses) (f := two_masses_overall.scanMass ig fmt basedir s k nf)
      fun mq _ => two_scanMass ig fmt basedir k nf s hs mq
    simp only [two_masses_overall.loop, hm, two_loop ig fmt basedir k s hs nfs]
    have hpl : two_masses_overall.propagatorPlots ig fmt basedir s k nf =
        s.quark_masses.flatMap fun mq => s.chemical_potentials.map fun mu => twoPropagatorPlot fmt basedir s (longitudinal ig k) nf mq mu := by
      unfold two_masses_overall.propagatorPlots
      refine List.flatMap_congr fun mq hmq => List.map_congr_left fun mu _ => ?_
      rw [two_images ig k s hs _ mu]
      rfl
    rw [hpl]
    simp only [List.flatMap_cons, twoPlots, twoRows, List.flatMap_map, List.append_assoc]

theorem two_main (ig : Integrator) (fmt : ℝ → String) (basedir : String) (k : Consts ℝ) (s : Settings (ℝ × ℝ)) (hs : Sensible s) :
    two_masses_overall.main ig fmt basedir s k =
      some ([{ path := basedir ++ "/nf_0_mq1_NA_mq2_NA_mu_NA.png", domain := s.momenta, legend := s.legends fmt,
               images := curves (longitudinal ig k) s (twoMasses 3 s 0 (0, 0)) 0 },
             { path := basedir ++ "/ir_nf_0_mq1_NA_mq2_NA.png", domain := s.domain, legend := [],
               images := [infraredCurve (longitudinal ig k) s (twoMasses 3 s 0 (0, 0)) 0] }] ++
            s.nfs.flatMap (twoPlots fmt basedir s (longitudinal ig k)),
        ⟨0, (0, 0), 0, tcFor (longitudinal ig k) s (twoMasses 3 s 0 (0, 0)) 0⟩ :: s.nfs.flatMap (twoRows s (longitudinal ig k)), k) := by
  have hl := two_loop ig fmt basedir k s hs s.nfs
  have h0 : ∀ q ∈ [((0 : ℕ), (0 : ℝ)), (0, 0)], q.1 = 0 := by simp
  simp only [two_masses_overall.main, hl, ymData_eq ig k s hs 3 [(0, 0), (0, 0)] h0 0, ymImages_eq ig k s hs 3 [(0, 0), (0, 0)] h0 0,
    infraredCurve, find_eq (domain_ne s), tcFor, twoMasses, List.singleton_append]

/-! ### C76 -/

/-- **C76** (`one_mass_overall`): from any state of the global constants the program ends without a panic; `tc.out` has one line without
quarks and then one for each number of fermions, quark mass and chemical potential, in this order; the temperature on a line is the
lowest of the grid at which the renormalised infrared propagator of the theory with that number of quarks of that mass is largest. The
propagator does not depend on the number of fermions set before the run. After it the global constants are as after the calls of
`set_number_of_fermions`. -/
theorem C76_one_mass_table (ig : Integrator) (fmt : ℝ → String) (basedir : String) (h : List (Setter ℝ)) (s : Settings ℝ) (hs : Sensible s)
    (hq : ∀ mq ∈ s.quark_masses, mq ≠ 0) :
    ∃ plots rows, one_mass_overall.main ig fmt basedir s (after h) = some (plots, rows, run (s.nfs.map .number_of_fermions) (after h)) ∧
      rows.map (fun r => (r.nf, r.mq, r.mu)) = keys s 0 ∧
      ∀ r ∈ rows, LowestMaximum s.domain (infraredValue (longitudinal ig (after h)) s (degenerate (after h).nc s r.nf r.mq) r.mu) r.tc := by
  refine ⟨_, _, one_main ig fmt basedir h s hs hq, ?_, ?_⟩
  · simp only [keys, List.map_cons, List.map_flatMap, oneRows, List.map_map, Function.comp_def]
  · intro r hr
    simp only [List.mem_cons, List.mem_flatMap, oneRows, List.mem_map] at hr
    rcases hr with rfl | ⟨nf, -, mq, -, mu, -, rfl⟩
    · exact tcFor_spec _ _ hs _ _
    · exact tcFor_spec _ _ hs _ _

/-- **C76** (`two_masses_overall`): the same with quarks of two masses. This program leaves the global constants as they were. -/
theorem C76_two_masses_table (ig : Integrator) (fmt : ℝ → String) (basedir : String) (k : Consts ℝ) (s : Settings (ℝ × ℝ)) (hs : Sensible s) :
    ∃ plots rows, two_masses_overall.main ig fmt basedir s k = some (plots, rows, k) ∧
      rows.map (fun r => (r.nf, r.mq, r.mu)) = keys s (0, 0) ∧
      ∀ r ∈ rows, LowestMaximum s.domain (infraredValue (longitudinal ig k) s (twoMasses 3 s r.nf r.mq) r.mu) r.tc := by
  refine ⟨_, _, two_main ig fmt basedir k s hs, ?_, ?_⟩
  · simp only [keys, List.map_cons, List.map_flatMap, twoRows, List.map_map, Function.comp_def]
  · intro r hr
    simp only [List.mem_cons, List.mem_flatMap, twoRows, List.mem_map] at hr
    rcases hr with rfl | ⟨nf, -, mq, -, mu, -, rfl⟩
    · exact tcFor_spec _ _ hs _ _
    · exact tcFor_spec _ _ hs _ _

/-- **C76** (uniqueness): the specification determines the temperature. -/
theorem C76_unique {ts : List ℝ} {v : ℝ → ℝ} {a b : ℝ} (ha : LowestMaximum ts v a) (hb : LowestMaximum ts v b) : a = b := LowestMaximum.unique ha hb

/-- The settings the two programs have in common. -/
def Settings.SameScan {Q Q' : Type} (s : Settings Q) (s' : Settings Q') : Prop :=
  s.pmin = s'.pmin ∧ s.m = s'.m ∧ s.f0 = s'.f0 ∧ s.om = s'.om ∧ s.renpoint = s'.renpoint ∧ s.tmin = s'.tmin ∧ s.tmax = s'.tmax ∧ s.dt = s'.dt

/-- **C76** (the programs agree): run with the same settings and three colours, a line of the second program with two equal masses has
the same temperature as the line of the first program with twice as many fermions; so have the lines without quarks. -/
theorem C76_programs_agree (ig : Integrator) (fmt fmt' : ℝ → String) (basedir basedir' : String) (h : List (Setter ℝ)) (hnc : (after h).nc = 3)
    (s : Settings ℝ) (s' : Settings (ℝ × ℝ)) (hs : Sensible s) (hs' : Sensible s') (hss : s.SameScan s') (hq : ∀ mq ∈ s.quark_masses, mq ≠ 0)
    {plots plots' : List Plot} {rows : List (Row ℝ)} {rows' : List (Row (ℝ × ℝ))} {k k' : Consts ℝ}
    (hmain : one_mass_overall.main ig fmt basedir s (after h) = some (plots, rows, k))
    (hmain' : two_masses_overall.main ig fmt' basedir' s' (after h) = some (plots', rows', k'))
    (r : Row ℝ) (hr : r ∈ rows) (r' : Row (ℝ × ℝ)) (hr' : r' ∈ rows') (hmu : r.mu = r'.mu) (hmq : r'.mq = (r.mq, r.mq)) (hnf : r.nf = 2 * r'.nf) :
    r.tc = r'.tc := by
  obtain ⟨_, _, e, -, h1⟩ := C76_one_mass_table ig fmt basedir h s hs hq
  obtain ⟨_, _, e', -, h1'⟩ := C76_two_masses_table ig fmt' basedir' (after h) s' hs'
  rw [hmain, Option.some.injEq, Prod.mk.injEq, Prod.mk.injEq] at e
  rw [hmain', Option.some.injEq, Prod.mk.injEq, Prod.mk.injEq] at e'
  obtain ⟨-, rfl, -⟩ := e
  obtain ⟨-, rfl, -⟩ := e'
  have h1 := h1 r hr
  have h2 := h1' r' hr'
  obtain ⟨a1, a2, a3, a4, a5, a6, a7, a8⟩ := hss
  have hd : s.domain = s'.domain := by simp only [Settings.domain, Settings.tdomain, a6, a7, a8]
  have hv : infraredValue (longitudinal ig (after h)) s (degenerate (after h).nc s r.nf r.mq) r.mu =
      infraredValue (longitudinal ig (after h)) s' (twoMasses 3 s' r'.nf r'.mq) r'.mu := by
    have hP : ∀ om p beta mu f0 : ℝ,
        (longitudinal ig (after h)).zero om p mu f0 (degenerate (after h).nc s r.nf r.mq) =
          (longitudinal ig (after h)).zero om p mu f0 (twoMasses 3 s' r'.nf r'.mq) ∧
        (longitudinal ig (after h)).finite om p beta mu f0 (degenerate (after h).nc s r.nf r.mq) =
          (longitudinal ig (after h)).finite om p beta mu f0 (twoMasses 3 s' r'.nf r'.mq) := by
      intro om p beta mu f0
      have := C29_split_general ig (after h) om p beta mu f0 3 s.m [] [] r'.nf r'.nf r.mq
      simp only [List.nil_append, qcd.thermal.gluon.configValues, qcd.thermal.gluon.configZeroTempValues, List.cons.injEq] at this
      simp only [longitudinal, degenerate, twoMasses, hnc, hmq, hnf, ← a2, two_mul]
      exact ⟨this.2.2.2.2.2.1, this.1.2.2.2.2.1⟩
    have hA : propagatorAt (longitudinal ig (after h)) s (degenerate (after h).nc s r.nf r.mq) r.mu =
        propagatorAt (longitudinal ig (after h)) s' (twoMasses 3 s' r'.nf r'.mq) r'.mu := by
      funext t q
      simp only [propagatorAt, a2, a3, a4, (hP _ _ 0 _ _).1, (hP _ _ _ _ _).2, hmu]
    funext t
    simp only [infraredValue, propagatorValue, a1, a2, a5, hA]
  rw [hd, hv] at h1
  exact LowestMaximum.unique h1 h2

/-! ### C77 -/

theorem curves_length (P : Propagators) (s : Settings Q) (fc : FieldConfig) (mu : ℝ) (fmt : ℝ → String) :
    (∀ im ∈ curves P s fc mu, im.length = s.momenta.length) ∧ (s.legends fmt).length = (curves P s fc mu).length := by
  constructor
  · intro im him
    simp only [curves, List.mem_map] at him
    obtain ⟨t, -, rfl⟩ := him
    simp
  · simp [curves, Settings.legends, add_comm]

/-- **C77** (`one_mass_overall`): what is plotted. Every plot can be drawn; for each number of fermions, mass and chemical potential
there is a plot of the renormalised propagators at zero and at the other temperatures, and for each number of fermions and mass one of
the infrared limits, a curve for each chemical potential, and one of the critical temperatures. -/
theorem C77_one_mass_plots (ig : Integrator) (fmt : ℝ → String) (basedir : String) (h : List (Setter ℝ)) (s : Settings ℝ) (hs : Sensible s)
    (hq : ∀ mq ∈ s.quark_masses, mq ≠ 0) {plots : List Plot} {rows : List (Row ℝ)} {k : Consts ℝ}
    (hmain : one_mass_overall.main ig fmt basedir s (after h) = some (plots, rows, k)) :
    (∀ pl ∈ plots, Plot.WellFormed pl) ∧
    plots.length = 2 + s.nfs.length * (s.quark_masses.length * (s.chemical_potentials.length + 2)) ∧
    (∀ nf ∈ s.nfs, ∀ mq ∈ s.quark_masses, ∀ mu ∈ s.chemical_potentials, ∃ pl ∈ plots,
      pl.path = basedir ++ "/nf_" ++ toString nf ++ "_mq_" ++ fmt mq ++ "_mu_" ++ fmt mu ++ ".png" ∧ pl.domain = s.momenta ∧
      pl.images = curves (longitudinal ig (after h)) s (degenerate (after h).nc s nf mq) mu ∧
      pl.legend = "$T/m=0.00$" :: s.temperatures.map fun t => "$T/m=" ++ fmt t ++ "$") ∧
    (∀ nf ∈ s.nfs, ∀ mq ∈ s.quark_masses, ∃ pl ∈ plots, pl.path = basedir ++ "/ir_nf_" ++ toString nf ++ "_mq_" ++ fmt mq ++ ".png" ∧
      pl.domain = s.domain ∧
      pl.images = s.chemical_potentials.map (infraredCurve (longitudinal ig (after h)) s (degenerate (after h).nc s nf mq)) ∧
      pl.legend = s.chemical_potentials.map fun mu => "$\\mu=" ++ fmt mu ++ "$ GeV") ∧
    (∀ nf ∈ s.nfs, ∀ mq ∈ s.quark_masses, ∃ pl ∈ plots, pl.path = basedir ++ "/tc_nf_" ++ toString nf ++ "_mq_" ++ fmt mq ++ ".png" ∧
      pl.domain = s.chemical_potentials ∧ ∃ tcs, pl.images = [tcs] ∧ List.Forall₂ (fun mu tc =>
        LowestMaximum s.domain (infraredValue (longitudinal ig (after h)) s (degenerate (after h).nc s nf mq) mu) tc) s.chemical_potentials tcs) := by
  rw [one_main ig fmt basedir h s hs hq, Option.some.injEq, Prod.mk.injEq] at hmain
  obtain ⟨rfl, -⟩ := hmain
  refine ⟨?_, ?_, ?_, ?_, ?_⟩
  · intro pl hpl
    simp only [List.mem_append, List.mem_cons, List.not_mem_nil, or_false, List.mem_flatMap, onePlots, List.mem_map] at hpl
    rcases hpl with (rfl | rfl) | ⟨nf, -, ⟨mq, -, mu, -, rfl⟩ | ⟨mq, -, rfl | rfl⟩⟩
    · exact ⟨(curves_length _ _ _ _ fmt).1, Or.inr (curves_length _ _ _ _ fmt).2⟩
    · exact ⟨by simp [infraredCurve], Or.inl rfl⟩
    · exact ⟨(curves_length _ _ _ _ fmt).1, Or.inr (curves_length _ _ _ _ fmt).2⟩
    · refine ⟨?_, Or.inr (by simp [oneInfraredPlot, Settings.muLegends])⟩
      intro im him
      simp only [oneInfraredPlot, List.mem_map] at him
      obtain ⟨mu, -, rfl⟩ := him
      simp [infraredCurve, oneInfraredPlot]
    · exact ⟨by simp [oneTcPlot], Or.inl rfl⟩
  · simp only [List.length_append, List.length_cons, List.length_nil, List.length_flatMap, onePlots, List.length_map, List.map_const', List.sum_replicate,
      smul_eq_mul]
    ring
  · intro nf hnf mq hmq mu hmu
    refine ⟨onePropagatorPlot fmt basedir s (longitudinal ig (after h)) (after h).nc nf mq mu, ?_, rfl, rfl, rfl, rfl⟩
    refine List.mem_append_right _ (List.mem_flatMap.2 ⟨nf, hnf, List.mem_append_left _ (List.mem_flatMap.2 ⟨mq, hmq, List.mem_map_of_mem hmu⟩)⟩)
  · intro nf hnf mq hmq
    refine ⟨oneInfraredPlot fmt basedir s (longitudinal ig (after h)) (after h).nc nf mq, ?_, rfl, rfl, rfl, rfl⟩
    exact List.mem_append_right _ (List.mem_flatMap.2 ⟨nf, hnf, List.mem_append_right _ (List.mem_flatMap.2 ⟨mq, hmq, by simp⟩)⟩)
  · intro nf hnf mq hmq
    refine ⟨oneTcPlot fmt basedir s (longitudinal ig (after h)) (after h).nc nf mq, ?_, rfl, rfl, _, rfl, ?_⟩
    · exact List.mem_append_right _ (List.mem_flatMap.2 ⟨nf, hnf, List.mem_append_right _ (List.mem_flatMap.2 ⟨mq, hmq, by simp⟩)⟩)
    · rw [List.forall₂_map_right_iff, List.forall₂_same]
      exact fun mu _ => tcFor_spec _ _ hs _ _

/-- **C77** (`two_masses_overall`). -/
theorem C77_two_masses_plots (ig : Integrator) (fmt : ℝ → String) (basedir : String) (k : Consts ℝ) (s : Settings (ℝ × ℝ)) (hs : Sensible s)
    {plots : List Plot} {rows : List (Row (ℝ × ℝ))} {k' : Consts ℝ}
    (hmain : two_masses_overall.main ig fmt basedir s k = some (plots, rows, k')) :
    (∀ pl ∈ plots, Plot.WellFormed pl) ∧
    plots.length = 2 + s.nfs.length * (s.quark_masses.length * (s.chemical_potentials.length + 2)) ∧
    (∀ nf ∈ s.nfs, ∀ mq ∈ s.quark_masses, ∀ mu ∈ s.chemical_potentials, ∃ pl ∈ plots,
      pl.path = basedir ++ "/nf_" ++ toString nf ++ "_mq1_" ++ fmt mq.1 ++ "_mq2_" ++ fmt mq.2 ++ "_mu_" ++ fmt mu ++ ".png" ∧ pl.domain = s.momenta ∧
      pl.images = curves (longitudinal ig k) s (twoMasses 3 s nf mq) mu ∧
      pl.legend = "$T/m=0.00$" :: s.temperatures.map fun t => "$T/m=" ++ fmt t ++ "$") ∧
    (∀ nf ∈ s.nfs, ∀ mq ∈ s.quark_masses, ∃ pl ∈ plots,
      pl.path = basedir ++ "/ir_nf_" ++ toString nf ++ "_mq1_" ++ fmt mq.1 ++ "_mq2_" ++ fmt mq.2 ++ ".png" ∧ pl.domain = s.domain ∧
      pl.images = s.chemical_potentials.map (infraredCurve (longitudinal ig k) s (twoMasses 3 s nf mq)) ∧
      pl.legend = s.chemical_potentials.map fun mu => "$\\mu=" ++ fmt mu ++ "$ GeV") ∧
    (∀ nf ∈ s.nfs, ∀ mq ∈ s.quark_masses, ∃ pl ∈ plots,
      pl.path = basedir ++ "/tc_nf_" ++ toString nf ++ "_mq1_" ++ fmt mq.1 ++ "_mq2_" ++ fmt mq.2 ++ ".png" ∧
      pl.domain = s.chemical_potentials ∧ ∃ tcs, pl.images = [tcs] ∧ List.Forall₂ (fun mu tc =>
        LowestMaximum s.domain (infraredValue (longitudinal ig k) s (twoMasses 3 s nf mq) mu) tc) s.chemical_potentials tcs) := by
  rw [two_main ig fmt basedir k s hs, Option.some.injEq, Prod.mk.injEq] at hmain
  obtain ⟨rfl, -⟩ := hmain
  refine ⟨?_, ?_, ?_, ?_, ?_⟩
  · intro pl hpl
    simp only [List.mem_append, List.mem_cons, List.not_mem_nil, or_false, List.mem_flatMap, twoPlots, List.mem_map] at hpl
    rcases hpl with (rfl | rfl) | ⟨nf, -, ⟨mq, -, mu, -, rfl⟩ | ⟨mq, -, rfl | rfl⟩⟩
    · exact ⟨(curves_length _ _ _ _ fmt).1, Or.inr (curves_length _ _ _ _ fmt).2⟩
    · exact ⟨by simp [infraredCurve], Or.inl rfl⟩
    · exact ⟨(curves_length _ _ _ _ fmt).1, Or.inr (curves_length _ _ _ _ fmt).2⟩
    · refine ⟨?_, Or.inr (by simp [twoInfraredPlot, Settings.muLegends])⟩
      intro im him
      simp only [twoInfraredPlot, List.mem_map] at him
      obtain ⟨mu, -, rfl⟩ := him
      simp [infraredCurve, twoInfraredPlot]
    · exact ⟨by simp [twoTcPlot], Or.inl rfl⟩
  · simp only [List.length_append, List.length_cons, List.length_nil, List.length_flatMap, twoPlots, List.length_map, List.map_const', List.sum_replicate,
      smul_eq_mul]
    ring
  · intro nf hnf mq hmq mu hmu
    refine ⟨twoPropagatorPlot fmt basedir s (longitudinal ig k) nf mq mu, ?_, rfl, rfl, rfl, rfl⟩
    refine List.mem_append_right _ (List.mem_flatMap.2 ⟨nf, hnf, List.mem_append_left _ (List.mem_flatMap.2 ⟨mq, hmq, List.mem_map_of_mem hmu⟩)⟩)
  · intro nf hnf mq hmq
    refine ⟨twoInfraredPlot fmt basedir s (longitudinal ig k) nf mq, ?_, rfl, rfl, rfl, rfl⟩
    exact List.mem_append_right _ (List.mem_flatMap.2 ⟨nf, hnf, List.mem_append_right _ (List.mem_flatMap.2 ⟨mq, hmq, by simp⟩)⟩)
  · intro nf hnf mq hmq
    refine ⟨twoTcPlot fmt basedir s (longitudinal ig k) nf mq, ?_, rfl, rfl, _, rfl, ?_⟩
    · exact List.mem_append_right _ (List.mem_flatMap.2 ⟨nf, hnf, List.mem_append_right _ (List.mem_flatMap.2 ⟨mq, hmq, by simp⟩)⟩)
    · rw [List.forall₂_map_right_iff, List.forall₂_same]
      exact fun mu _ => tcFor_spec _ _ hs _ _

/-- **C77** (grids): the points of a grid start at `vmin`, are `dv` apart, do not pass `vmax`, and there is no room for another one. -/
theorem C77_grid {vmin vmax dv : ℝ} (hdv : 0 < dv) (hv : vmin ≤ vmax) :
    (grid vmin vmax dv)[0]? = some vmin ∧
    (∀ i x y, (grid vmin vmax dv)[i]? = some x → (grid vmin vmax dv)[i + 1]? = some y → y = x + dv) ∧
    (∀ x ∈ grid vmin vmax dv, vmin ≤ x ∧ x ≤ vmax) ∧ ∃ x ∈ grid vmin vmax dv, vmax < x + dv := by
  have hn : ∀ n : ℕ, n ≤ ⌊(vmax - vmin) / dv⌋₊ ↔ vmin + dv * n ≤ vmax := by
    intro n
    rw [Nat.le_floor_iff (div_nonneg (by linarith) hdv.le), le_div_iff₀ hdv]
    constructor <;> intro h <;> linarith
  refine ⟨?_, ?_, ?_, ?_⟩
  · simp [grid]
  · intro i x y hx hy
    simp only [grid, List.getElem?_map, List.getElem?_range', List.getElem?_eq_some_iff, Option.map_eq_some_iff] at hx hy
    obtain ⟨a, ⟨ha, ha'⟩, rfl⟩ := hx
    obtain ⟨b, ⟨hb, hb'⟩, rfl⟩ := hy
    simp only [List.getElem_range] at ha' hb'
    subst ha' hb'
    push_cast
    ring
  · intro x hx
    simp only [grid, List.mem_map, List.mem_range] at hx
    obtain ⟨n, h1, rfl⟩ := hx
    have := (hn n).1 (by omega)
    exact ⟨by have : 0 ≤ dv * n := by positivity
              linarith, this⟩
  · refine ⟨vmin + dv * (⌊(vmax - vmin) / dv⌋₊ : ℝ), ?_, ?_⟩
    · simp only [grid, List.mem_map, List.mem_range]
      exact ⟨_, Nat.lt_succ_self _, rfl⟩
    · by_contra hc
      have := (hn (⌊(vmax - vmin) / dv⌋₊ + 1)).2 (by push_cast; linarith)
      omega

/-! ### C78 -/

/-- **C78**: the value the programs print for zero temperature is the limit of the ones for lower and lower temperatures (exact
integration), provided that the propagator at zero temperature is defined at both momenta and its real part does not vanish at the
renormalisation scale. -/
theorem C78_zero_temperature_limit (k : Consts ℝ) (s : Settings Q) (hs : Sensible s) (hm : 0 < s.m) (fc : FieldConfig) (hg : fc.gluon ≠ 0) (mu p : ℝ)
    (h1 : qcd.thermal.gluon.dressing_l_inv_zero_temp_landau_w_field_config .exact k s.om (p * s.m) mu s.f0 fc ≠ 0)
    (h2 : qcd.thermal.gluon.dressing_l_inv_zero_temp_landau_w_field_config .exact k s.om s.renpoint mu s.f0 fc ≠ 0)
    (h3 : ((longitudinal .exact k).zero s.om s.renpoint mu s.f0 fc).re ≠ 0) :
    Tendsto (fun t => propagatorValue (longitudinal .exact k) s fc mu t p) (𝓝[>] 0) (𝓝 (propagatorValue (longitudinal .exact k) s fc mu 0 p)) := by
  have hb : Tendsto (fun t : ℝ => 1 / (t * s.m)) (𝓝[>] 0) atTop := by
    have : Tendsto (fun t : ℝ => t⁻¹ * s.m⁻¹) (𝓝[>] 0) atTop := tendsto_inv_nhdsGT_zero.atTop_mul_const (inv_pos.2 hm)
    simpa [mul_inv, mul_comm] using this
  have key : ∀ q, qcd.thermal.gluon.dressing_l_inv_zero_temp_landau_w_field_config .exact k s.om q mu s.f0 fc ≠ 0 →
      Tendsto (fun t => propagatorAt (longitudinal .exact k) s fc mu t q) (𝓝[>] 0) (𝓝 (propagatorAt (longitudinal .exact k) s fc mu 0 q)) := by
    intro q hq
    have := (C72_qcd_thermal_gluon_propagator_l_w_field_config hs.om k q mu s.f0 fc hg hq).comp hb
    simp only [propagatorAt, if_true]
    refine this.congr' ?_
    filter_upwards [self_mem_nhdsWithin] with t ht
    rw [if_neg (ne_of_gt ht)]
    rfl
  have r1 := (Complex.continuous_re.tendsto _).comp (key _ h1)
  have r2 := (Complex.continuous_re.tendsto _).comp (key _ h2)
  have h3' : (propagatorAt (longitudinal .exact k) s fc mu 0 s.renpoint).re ≠ 0 := by simpa [propagatorAt] using h3
  exact (r1.mul (tendsto_const_nhds.div r2 h3')).mul_const _

/-! ### The settings of the programs -/

example : Sensible one_mass_overall.settings ∧ ∀ mq ∈ one_mass_overall.settings.quark_masses, mq ≠ 0 := by
  constructor
  · constructor <;> norm_num [one_mass_overall.settings]
  · norm_num [one_mass_overall.settings]

example : Sensible two_masses_overall.settings := by
  constructor <;> norm_num [two_masses_overall.settings]

example : one_mass_overall.settings.SameScan two_masses_overall.settings := by
  norm_num [Settings.SameScan, one_mass_overall.settings, two_masses_overall.settings]

/-- Lines as in `C76_programs_agree`: two quarks of mass 0.4, and one of each of the masses 0.4, 0.4. -/
example (ig : Integrator) (fmt : ℝ → String) (dir : String) (h : List (Setter ℝ)) {plots plots' : List Plot} {rows : List (Row ℝ)}
    {rows' : List (Row (ℝ × ℝ))} {k k' : Consts ℝ}
    (hmain : one_mass_overall.main ig fmt dir one_mass_overall.settings (after h) = some (plots, rows, k))
    (hmain' : two_masses_overall.main ig fmt dir { two_masses_overall.settings with quark_masses := [(0.4, 0.4)] } (after h) =
      some (plots', rows', k')) :
    ∃ r ∈ rows, ∃ r' ∈ rows', r.mu = r'.mu ∧ r'.mq = (r.mq, r.mq) ∧ r.nf = 2 * r'.nf ∧ 0 < r'.nf := by
  obtain ⟨_, _, e, h1, -⟩ := C76_one_mass_table ig fmt dir h one_mass_overall.settings
    (by constructor <;> norm_num [one_mass_overall.settings]) (by norm_num [one_mass_overall.settings])
  obtain ⟨_, _, e', h1', -⟩ := C76_two_masses_table ig fmt dir (after h) { two_masses_overall.settings with quark_masses := [(0.4, 0.4)] }
    (by constructor <;> norm_num [two_masses_overall.settings])
  rw [hmain, Option.some.injEq, Prod.mk.injEq, Prod.mk.injEq] at e
  rw [hmain', Option.some.injEq, Prod.mk.injEq, Prod.mk.injEq] at e'
  obtain ⟨-, rfl, -⟩ := e
  obtain ⟨-, rfl, -⟩ := e'
  have m : ((2 : ℕ), (0.4 : ℝ), (0.3 : ℝ)) ∈ rows.map (fun r => (r.nf, r.mq, r.mu)) := by
    rw [h1]; simp [keys, one_mass_overall.settings]
  have m' : ((1 : ℕ), ((0.4 : ℝ), (0.4 : ℝ)), (0.3 : ℝ)) ∈ rows'.map (fun r => (r.nf, r.mq, r.mu)) := by
    rw [h1']; simp [keys, two_masses_overall.settings]
  obtain ⟨r, hr, e⟩ := List.mem_map.1 m
  obtain ⟨r', hr', e'⟩ := List.mem_map.1 m'
  simp only [Prod.mk.injEq] at e e'
  refine ⟨r, hr, r', hr', ?_, ?_, ?_, ?_⟩
  · rw [e.2.2, e'.2.2]
  · rw [e.2.1, e'.2.1]
  · rw [e.1, e'.1]
  · rw [e'.1]; norm_num

/-- The grid of temperatures of both programs has 39 points. -/
example : one_mass_overall.settings.tdomain.length = 39 := by
  simp only [Settings.tdomain, grid, List.length_map, List.length_range, one_mass_overall.settings]
  norm_num

theorem grid_exact {vmin vmax dv : ℝ} {n : ℕ} (hn : n ≠ 0) (h : (vmax - vmin) / dv = n) : Qcd.Spec.Grid (grid vmin vmax dv) n vmin vmax := by
  have hn' : (n : ℝ) ≠ 0 := Nat.cast_ne_zero.2 hn
  have hd : dv ≠ 0 := by rintro rfl; rw [div_zero] at h; exact hn' h.symm
  have e : (vmax - vmin) / n = dv := by rw [div_eq_iff hd] at h; rw [h]; field_simp
  refine ⟨by simp only [grid, h, Nat.floor_natCast, List.length_map, List.length_range], fun i hi => ?_⟩
  simp only [grid, h, Nat.floor_natCast, List.getElem?_map, List.getElem?_range (Nat.lt_succ_of_le hi), Option.map_some, e, mul_comm]

/-- **C77** (the values of `one_mass_overall`): with gluons of 656 MeV, additive constant -0.876, frequency 1e-5 GeV and renormalisation at
4 GeV, for 1, 2, 4 and 6 quarks of 80, 400 or 800 MeV and chemical potentials from 0 to 1 GeV, the program draws the propagator at 300
momenta from 0.01 m to 3 m for seven temperatures, and lists the critical temperatures found on a grid of 39 temperatures from 0.01 m to
0.2 m and zero temperature. -/
theorem C77_one_mass_program (ig : Integrator) (fmt : ℝ → String) (basedir : String) (h : List (Setter ℝ)) :
    let D := fun (nf : ℕ) (mq mu T q : ℝ) => if T = 0 then (longitudinal ig (after h)).zero 1e-5 q mu (-0.876) (FieldConfig.new (after h).nc 0.656 [(nf, mq)])
      else (longitudinal ig (after h)).finite 1e-5 q (1 / (T * 0.656)) mu (-0.876) (FieldConfig.new (after h).nc 0.656 [(nf, mq)])
    let mus : List ℝ := [0, 0.1, 0.2, 0.3, 0.4, 0.5, 0.6, 0.7, 0.8, 0.9, 1]
    ∃ plots rows, one_mass_overall.main ig fmt basedir one_mass_overall.settings (after h) =
        some (plots, rows, run ([1, 2, 4, 6].map .number_of_fermions) (after h)) ∧
      plots.length = 158 ∧
      (∀ nf ∈ [1, 2, 4, 6], ∀ mq ∈ ([0.08, 0.4, 0.8] : List ℝ), ∀ mu ∈ mus, ∃ pl ∈ plots,
        pl.path = basedir ++ "/nf_" ++ toString nf ++ "_mq_" ++ fmt mq ++ "_mu_" ++ fmt mu ++ ".png" ∧ Qcd.Spec.Grid pl.domain 299 0.01 3 ∧
        pl.images = ([0, 0.05, 0.08, 0.12, 0.15, 0.18, 0.21] : List ℝ).map fun T => pl.domain.map (renormalized (D nf mq mu T) 4 0.656)) ∧
      rows.map (fun r => (r.nf, r.mq, r.mu)) = ((0, 0, 0) :: [1, 2, 4, 6].flatMap fun nf => [0.08, 0.4, 0.8].flatMap fun mq => mus.map fun mu => (nf, mq, mu)) ∧
      ∃ ts, Qcd.Spec.Grid ts 38 0.01 0.2 ∧ ∀ r ∈ rows, LowestMaximum (0 :: ts) (fun T => renormalized (D r.nf r.mq r.mu T) 4 0.656 0.01) r.tc := by
  intro D mus
  have hs : Sensible one_mass_overall.settings := by constructor <;> norm_num [one_mass_overall.settings]
  have hq : ∀ mq ∈ one_mass_overall.settings.quark_masses, mq ≠ 0 := by norm_num [one_mass_overall.settings]
  obtain ⟨plots, rows, e, hk, hr⟩ := C76_one_mass_table ig fmt basedir h one_mass_overall.settings hs hq
  obtain ⟨-, hl, hp, -, -⟩ := C77_one_mass_plots ig fmt basedir h one_mass_overall.settings hs hq e
  refine ⟨plots, rows, e, hl, ?_, hk, _, grid_exact (vmin := 0.01) (vmax := 0.2) (dv := 0.005) (by norm_num) (by norm_num), hr⟩
  intro nf hnf mq hmq mu hmu
  obtain ⟨pl, hpl, h1, h2, h3, -⟩ := hp nf hnf mq hmq mu hmu
  refine ⟨pl, hpl, h1, ?_, ?_⟩
  · rw [h2]
    exact grid_exact (by norm_num) (by norm_num [one_mass_overall.settings])
  · rw [h3, h2]
    rfl

/-- **C77** (the values of `two_masses_overall`): the same for one or four quarks of each of two masses, three colours. -/
theorem C77_two_masses_program (ig : Integrator) (fmt : ℝ → String) (basedir : String) (k : Consts ℝ) :
    let D := fun (nf : ℕ) (mq : ℝ × ℝ) (mu T q : ℝ) => if T = 0 then (longitudinal ig k).zero 1e-5 q mu (-0.876) (FieldConfig.new 3 0.656 [(nf, mq.1), (nf, mq.2)])
      else (longitudinal ig k).finite 1e-5 q (1 / (T * 0.656)) mu (-0.876) (FieldConfig.new 3 0.656 [(nf, mq.1), (nf, mq.2)])
    let mus : List ℝ := [0, 0.1, 0.2, 0.3, 0.4, 0.5, 0.6, 0.7, 0.8, 0.9, 1, 1.1, 1.2]
    let mqs : List (ℝ × ℝ) := [(0.3, 0.4), (0.3, 0.6), (0.8, 1), (0.3, 1)]
    ∃ plots rows, two_masses_overall.main ig fmt basedir two_masses_overall.settings k = some (plots, rows, k) ∧
      plots.length = 122 ∧
      (∀ nf ∈ [1, 4], ∀ mq ∈ mqs, ∀ mu ∈ mus, ∃ pl ∈ plots,
        pl.path = basedir ++ "/nf_" ++ toString nf ++ "_mq1_" ++ fmt mq.1 ++ "_mq2_" ++ fmt mq.2 ++ "_mu_" ++ fmt mu ++ ".png" ∧
        Qcd.Spec.Grid pl.domain 299 0.01 3 ∧
        pl.images = ([0, 0.05, 0.08, 0.12, 0.15, 0.18, 0.21] : List ℝ).map fun T => pl.domain.map (renormalized (D nf mq mu T) 4 0.656)) ∧
      rows.map (fun r => (r.nf, r.mq, r.mu)) = ((0, (0, 0), 0) :: [1, 4].flatMap fun nf => mqs.flatMap fun mq => mus.map fun mu => (nf, mq, mu)) ∧
      ∃ ts, Qcd.Spec.Grid ts 38 0.01 0.2 ∧ ∀ r ∈ rows, LowestMaximum (0 :: ts) (fun T => renormalized (D r.nf r.mq r.mu T) 4 0.656 0.01) r.tc := by
  intro D mus mqs
  have hs : Sensible two_masses_overall.settings := by constructor <;> norm_num [two_masses_overall.settings]
  obtain ⟨plots, rows, e, hk, hr⟩ := C76_two_masses_table ig fmt basedir k two_masses_overall.settings hs
  obtain ⟨-, hl, hp, -, -⟩ := C77_two_masses_plots ig fmt basedir k two_masses_overall.settings hs e
  refine ⟨plots, rows, e, hl, ?_, hk, _, grid_exact (vmin := 0.01) (vmax := 0.2) (dv := 0.005) (by norm_num) (by norm_num), hr⟩
  intro nf hnf mq hmq mu hmu
  obtain ⟨pl, hpl, h1, h2, h3, -⟩ := hp nf hnf mq hmq mu hmu
  refine ⟨pl, hpl, h1, ?_, ?_⟩
  · rw [h2]
    exact grid_exact (by norm_num) (by norm_num [two_masses_overall.settings])
  · rw [h3, h2]
    rfl

end Qcd.tc
