import Verif.Props.ScansMain

/-! # C92: the files of propagators at the end of a run of `physical_tc` -/

namespace Qcd.tc
open Spec

/-- The configuration with which the corrected propagators are computed, `pb` being the phase diagram without correction. -/
noncomputable def InputData.fewCorrected (i : InputData) (pb : List (ℝ × ℝ)) : Config :=
  ((i.manyCorrected pb).set_temperatures i.fewtemps).set_chemicalpotentials i.fewchempots

theorem ne_of_take {s s' : String} (n : ℕ) (h : s.toList.take n ≠ s'.toList.take n) (hs : n ≤ s.toList.length) (hs' : n ≤ s'.toList.length) (a b : String) :
    s ++ a ≠ s' ++ b := by
  intro hc
  have := congrArg (fun x : String => x.toList.take n) hc
  simp only [String.toList_append, List.take_append_of_le_length hs, List.take_append_of_le_length hs'] at this
  exact h this

theorem ne_of_head' {s s' : String} (h : s.toList.head? ≠ s'.toList.head?) (hs : s ≠ "") (a : String) : s ++ a ≠ s' := by
  intro hc
  apply h
  rw [← hc, String.toList_append]
  cases hl : s.toList with
  | nil => exact absurd (String.toList_eq_nil_iff.1 hl) hs
  | cons x l => rfl

/-- **C92**: at the end of a run that did not panic, for each temperature and chemical potential of the coarse grids (more than `0.0001`
apart) there are four files with both numbers in their names: two computed with the fields of the input, two with the fields and the
constant that belong to the phase of the point with respect to the boundary in `tc_nf_2+1.out`; one of each pair holds the longitudinal
propagator, the other the transverse one. -/
theorem C92_run_propagators (L T : Propagators) (fit : List (ℝ × ℝ) → ℕ → List ℝ) (fmt : ℝ → String) (parse : String → ℝ)
    (hf : FourDecimals fmt parse) (i : InputData) (fs fs' : Files)
    (hT : (compute_vec i.fewtemps.1 i.fewtemps.2.1 i.fewtemps.2.2).Pairwise (fun x y => 1 / 10000 < y - x))
    (hT0 : ∀ t ∈ (compute_vec i.fewtemps.1 i.fewtemps.2.1 i.fewtemps.2.2).drop 1, 1 / 20000 < t)
    (hmu : (compute_vec i.fewchempots.1 i.fewchempots.2.1 i.fewchempots.2.2).Pairwise (fun x y => 1 / 10000 < y - x))
    (hok : main L T fit fmt i fs = (none, fs')) (mu : ℝ) (hm : mu ∈ compute_vec i.fewchempots.1 i.fewchempots.2.1 i.fewchempots.2.2)
    (k : ℕ) (t : ℝ) (hk : (compute_vec i.fewtemps.1 i.fewtemps.2.1 i.fewtemps.2.2)[k]? = some t) :
    Files.read fs' ("nf_2+1_glulongprop_t_" ++ (if k = 0 then "0.0000" else fmt t) ++ "_mu_" ++ fmt mu ++ ".out")
      = some (propagatorTable L i.config mu k t (i.f0 + 4 / 27 * (2 * Real.log (i.mg / i.mq.1) + Real.log (i.mg / i.mq.2))) i.fieldconfig) ∧
    Files.read fs' ("nf_2+1_glutransprop_t_" ++ (if k = 0 then "0.0000" else fmt t) ++ "_mu_" ++ fmt mu ++ ".out")
      = some (propagatorTable T i.config mu k t (i.f0 + 4 / 27 * (2 * Real.log (i.mg / i.mq.1) + Real.log (i.mg / i.mq.2))) i.fieldconfig) ∧
    ∃ pb fc' f0', Files.read fs' "tc_nf_2+1.out" = some (.table pb) ∧ (i.fewCorrected pb).maybe_corrected_data mu (temperature k t) = .ok fc' f0' ∧
      Files.read fs' ("nf_2+1_corrected_glulongprop_t_" ++ (if k = 0 then "0.0000" else fmt t) ++ "_mu_" ++ fmt mu ++ ".out")
        = some (propagatorTable L (i.fewCorrected pb) mu k t f0' fc') ∧
      Files.read fs' ("nf_2+1_corrected_glutransprop_t_" ++ (if k = 0 then "0.0000" else fmt t) ++ "_mu_" ++ fmt mu ++ ".out")
        = some (propagatorTable T (i.fewCorrected pb) mu k t f0' fc') := by
  have hr : ∀ c : Config, c.correctedfieldconfig = none → c.phase_boundary = none → ∀ mu ∈ c.chempots, Runs c mu := fun c h1 h2 mu _ => Or.inl ⟨h1, h2⟩
  have p1 := propagators_none (P := L) (fmt := fmt) (a := "nf_2+1") (b := "_glulongprop_t_") (fs := fs) (reach0 i) (hr _ rfl rfl)
  have p2 := propagators_none (P := T) (fmt := fmt) (a := "nf_2+1") (b := "_glutransprop_t_")
    (fs := (compute_propagators L fmt "nf_2+1" "_glulongprop_t_" i.config fs).2) (reach0 i) (hr _ rfl rfl)
  obtain ⟨fc1, f1, d1, r1⟩ := C67_propagator_files (reach0 i) L fmt parse hf _ _ _ _ hT hT0 hmu p1 mu hm k t hk
  obtain ⟨fc2, f2, d2, r2⟩ := C67_propagator_files (reach0 i) T fmt parse hf _ _ _ _ hT hT0 hmu p2 mu hm k t hk
  have d0 : i.config.maybe_corrected_data mu (temperature k t) = .ok i.fieldconfig (i.f0 + 4 / 27 * (2 * Real.log (i.mg / i.mq.1) + Real.log (i.mg / i.mq.2))) := by
    have e : i.config.f0 = i.f0 + 4 / 27 * (2 * Real.log (i.mg / i.mq.1) + Real.log (i.mg / i.mq.2)) := by
      simp only [InputData.config, Config.new, InputData.fieldconfig, FieldConfig.new, List.map_cons, List.map_nil, List.sum_cons, List.sum_nil]
      push_cast; ring
    rw [← e]; rfl
  rw [d0, Data.ok.injEq] at d1 d2
  obtain ⟨rfl, rfl⟩ := d1
  obtain ⟨rfl, rfl⟩ := d2
  obtain ⟨pb0, pb0', hpb, -⟩ := C69_run_files L T fit fmt i fs fs' hok
  have hok' := hok
  rw [main_eq] at hok
  rcases h1 : compute_phase_diagram L "nf_2+1" i.many (filesBefore L T fmt i fs) with ⟨e | pb, fs1⟩
  · rw [h1] at hok; simp at hok
  rw [h1] at hok
  simp only at hok
  rcases h2 : compute_phase_diagram L "nf_2+1_corrected" (i.manyCorrected pb) fs1 with ⟨e | pb', fs2⟩
  · rw [h2] at hok; simp at hok
  rw [h2] at hok
  simp only at hok
  split at hok
  · simp at hok
  rename_i fs3 h3
  obtain ⟨e1, he1⟩ := phase_files h1
  obtain ⟨e2, he2⟩ := phase_files h2
  have gT : (i.fewCorrected pb).temps = compute_vec i.fewtemps.1 i.fewtemps.2.1 i.fewtemps.2.2 := rfl
  have gC : (i.fewCorrected pb).chempots = compute_vec i.fewchempots.1 i.fewchempots.2.1 i.fewchempots.2.2 := rfl
  obtain ⟨fc3, f3, d3, r3⟩ := C67_propagator_files (reach4 i pb) L fmt parse hf _ _ _ _ hT hT0 hmu h3 mu hm k t hk
  obtain ⟨fc4, f4, d4, r4⟩ := C67_propagator_files (reach4 i pb) T fmt parse hf _ _ _ _ hT hT0 hmu hok mu hm k t hk
  rw [d3, Data.ok.injEq] at d4
  obtain ⟨rfl, rfl⟩ := d4
  have keepT : ∀ n, (∀ a, n ≠ "nf_2+1_corrected" ++ "_glutransprop_t_" ++ a) → Files.read fs' n = Files.read fs3 n := fun n hn => by
    have := C67_other_files T fmt "nf_2+1_corrected" "_glutransprop_t_" (i.fewCorrected pb) n hn fs3
    rw [InputData.fewCorrected, hok] at this
    exact this
  have keepL : ∀ n, (∀ a, n ≠ "nf_2+1_corrected" ++ "_glulongprop_t_" ++ a) → Files.read fs3 n =
      Files.read (("tc_nf_2+1_corrected_fit_parameters.out", .params (fit (pb.takeWhile (fun p => open Classical in !decide (p.2 = 0))) 8)) :: fs2) n := fun n hn => by
    have := C67_other_files L fmt "nf_2+1_corrected" "_glulongprop_t_" (i.fewCorrected pb) n hn
      (("tc_nf_2+1_corrected_fit_parameters.out", .params (fit (pb.takeWhile (fun p => open Classical in !decide (p.2 = 0))) 8)) :: fs2)
    rw [InputData.fewCorrected, h3] at this
    exact this
  have keep : ∀ s a, s.toList.head? = some 'n' → Files.read (("tc_nf_2+1_corrected_fit_parameters.out",
      .params (fit (pb.takeWhile (fun p => open Classical in !decide (p.2 = 0))) 8)) :: fs2) (s ++ a) = Files.read (filesBefore L T fmt i fs) (s ++ a) := by
    intro s a hs
    have hne : s ≠ "" := by rintro rfl; simp at hs
    have ht : ∀ s' : String, s'.toList.head? = some 't' → s ++ a ≠ s' := fun s' h => ne_of_head' (by rw [hs, h]; simp) hne a
    rw [read_cons_ne (ht _ (by decide)), he2, read_cons_ne (ht _ (by decide)), read_cons_ne (ht _ (by decide)), he1, read_cons_ne (ht _ (by decide)),
      read_cons_ne (ht _ (by decide))]
  have hpb0 : Files.read fs' "tc_nf_2+1.out" = some (.table pb) := by
    rw [keepT _ (ne_of_head (by decide) (by decide)), keepL _ (ne_of_head (by decide) (by decide)), read_cons_ne (by decide), he2, read_cons_ne (by decide),
      read_cons_ne (by decide), he1, read_cons_ne (by decide)]
    exact read_cons_self
  refine ⟨?_, ?_, pb, fc3, f3, hpb0, d3, ?_, r4⟩
  · simp only [String.append_assoc] at r1 ⊢
    rw [keepT _ fun a => ?_, keepL _ fun a => ?_, keep _ _ (by decide)]
    · have := C67_other_files T fmt "nf_2+1" "_glutransprop_t_" i.config ("nf_2+1_glulongprop_t_" ++ ((if k = 0 then "0.0000" else fmt t) ++ ("_mu_" ++ (fmt mu ++ ".out"))))
        (fun a => ne_of_take 11 (by decide) (by decide) (by decide) _ _) (compute_propagators L fmt "nf_2+1" "_glulongprop_t_" i.config fs).2
      rw [filesBefore, this, ← r1]
      congr 1
    · exact ne_of_take 8 (by decide) (by decide) (by decide) _ _
    · exact ne_of_take 8 (by decide) (by decide) (by decide) _ _
  · simp only [String.append_assoc] at r2 ⊢
    rw [keepT _ fun a => ?_, keepL _ fun a => ?_, keep _ _ (by decide)]
    · rw [filesBefore, ← r2]
      congr 1
    · exact ne_of_take 8 (by decide) (by decide) (by decide) _ _
    · exact ne_of_take 8 (by decide) (by decide) (by decide) _ _
  · simp only [String.append_assoc] at r3 ⊢
    rw [keepT _ fun a => ?_]
    · exact r3
    · exact ne_of_take 21 (by decide) (by decide) (by decide) _ _

/-- **C92** (the program): the tables without correction, in terms of the functions of the library. -/
theorem C92_program (ig : Integrator) (c : consts.Consts ℝ) (fit : List (ℝ × ℝ) → ℕ → List ℝ) (fmt : ℝ → String) (parse : String → ℝ)
    (hf : FourDecimals fmt parse) (i : InputData) (fs fs' : Files)
    (hT : (compute_vec i.fewtemps.1 i.fewtemps.2.1 i.fewtemps.2.2).Pairwise (fun x y => 1 / 10000 < y - x))
    (hT0 : ∀ t ∈ (compute_vec i.fewtemps.1 i.fewtemps.2.1 i.fewtemps.2.2).drop 1, 1 / 20000 < t)
    (hmu : (compute_vec i.fewchempots.1 i.fewchempots.2.1 i.fewchempots.2.2).Pairwise (fun x y => 1 / 10000 < y - x))
    (hok : program ig c fit fmt i fs = (none, fs')) (mu : ℝ) (hm : mu ∈ compute_vec i.fewchempots.1 i.fewchempots.2.1 i.fewchempots.2.2) {f0 : ℝ}
    (hf0 : f0 = i.f0 + 4 / 27 * (2 * Real.log (i.mg / i.mq.1) + Real.log (i.mg / i.mq.2))) {ps : List ℝ} (hps : ps = compute_vec i.momenta.1 i.momenta.2.1 i.momenta.2.2)
    {fc : FieldConfig} (hfc : fc = FieldConfig.new 3 i.mg [(2, i.mq.1), (1, i.mq.2)]) :
    (Files.read fs' ("nf_2+1_glulongprop_t_0.0000_mu_" ++ fmt mu ++ ".out") =
      some (.table (ps.map fun p => (p, renormalized (fun q => qcd.thermal.gluon.propagator_l_zero_temp_landau_w_field_config ig c i.om q mu f0 fc) i.renpoint i.mg p)))) ∧
    (Files.read fs' ("nf_2+1_glutransprop_t_0.0000_mu_" ++ fmt mu ++ ".out") =
      some (.table (ps.map fun p => (p, renormalized (fun q => qcd.thermal.gluon.propagator_t_zero_temp_landau_w_field_config ig c i.om q mu f0 fc) i.renpoint i.mg p)))) ∧
    ∀ t ∈ (compute_vec i.fewtemps.1 i.fewtemps.2.1 i.fewtemps.2.2).drop 1,
      (Files.read fs' ("nf_2+1_glulongprop_t_" ++ fmt t ++ "_mu_" ++ fmt mu ++ ".out") =
        some (.table (ps.map fun p => (p, renormalized (fun q => qcd.thermal.gluon.propagator_l_landau_w_field_config ig c i.om q (1 / (t * i.mg)) mu f0 fc) i.renpoint i.mg p)))) ∧
      (Files.read fs' ("nf_2+1_glutransprop_t_" ++ fmt t ++ "_mu_" ++ fmt mu ++ ".out") =
        some (.table (ps.map fun p => (p, renormalized (fun q => qcd.thermal.gluon.propagator_t_landau_w_field_config ig c i.om q (1 / (t * i.mg)) mu f0 fc) i.renpoint i.mg p)))) := by
  subst hf0 hps hfc
  have key := C92_run_propagators (longitudinal ig c) (transverse ig c) fit fmt parse hf i fs fs' hT hT0 hmu hok mu hm
  refine ⟨?_, ?_, fun t ht => ?_⟩
  · exact (key 0 i.fewtemps.1 (by simp [compute_vec, List.range_succ_eq_map])).1
  · exact (key 0 i.fewtemps.1 (by simp [compute_vec, List.range_succ_eq_map])).2.1
  · obtain ⟨k, hk⟩ := List.mem_iff_getElem?.1 ht
    have := key (k + 1) t (by rw [List.getElem?_drop, add_comm] at hk; exact hk)
    exact ⟨this.1, this.2.1⟩

/-! ### A concrete case -/

example (fit : List (ℝ × ℝ) → ℕ → List ℝ) (fs : Files) : ∃ fmt parse, FourDecimals fmt parse ∧ ∃ fs', main demoP demoP fit fmt demoI fs = (none, fs') ∧
    Files.read fs' ("nf_2+1_glutransprop_t_" ++ fmt 1 ++ "_mu_" ++ fmt 2 ++ ".out") =
      some (propagatorTable demoP demoI.config 2 1 1 (demoI.f0 + 4 / 27 * (2 * Real.log (demoI.mg / demoI.mq.1) + Real.log (demoI.mg / demoI.mq.2))) demoI.fieldconfig) := by
  obtain ⟨fmt, parse, hf⟩ := fourDecimals_exists
  refine ⟨fmt, parse, hf, _, Prod.ext (demo_ends fit fmt fs) rfl, ?_⟩
  have hc : compute_vec demoI.fewchempots.1 demoI.fewchempots.2.1 demoI.fewchempots.2.2 = [0, 1, 2, 3] := compute_vec_demo.1
  have ht : compute_vec demoI.fewtemps.1 demoI.fewtemps.2.1 demoI.fewtemps.2.2 = [0, 1, 2] := demo_many.1
  exact (C92_run_propagators demoP demoP fit fmt parse hf demoI fs _ (by rw [ht]; norm_num) (by rw [ht]; norm_num) (by rw [hc]; norm_num)
    (Prod.ext (demo_ends fit fmt fs) rfl) 2 (by rw [hc]; simp) 1 1 (by rw [ht]; rfl)).2.1

end Qcd.tc
