import Verif.Props.ScansFiles

/-! # C68, C69: the whole run of `physical_tc` -/

namespace Qcd.tc
open Spec

/-- The configuration with which the first phase diagram is computed. -/
noncomputable def InputData.many (i : InputData) : Config := (i.config.set_temperatures i.manytemps).set_chemicalpotentials i.manychempots

/-- The configuration with which the corrected phase diagram is computed, `pb` being the first phase diagram. -/
noncomputable def InputData.manyCorrected (i : InputData) (pb : List (ℝ × ℝ)) : Config :=
  (i.many.set_correctedfieldconfig (some i.corrected)).1.set_phase_boundary (some pb)

theorem set_corrected_main (i : InputData) : i.many.set_correctedfieldconfig (some i.corrected) = ((i.many.set_correctedfieldconfig (some i.corrected)).1, false) := by
  have h := (C59_set_panics_iff i.many (some i.corrected)).1
  have : (i.many.set_correctedfieldconfig (some i.corrected)).2 = false := by
    rw [← Bool.not_eq_true, h]
    rintro ⟨cfc, h1, h2⟩
    rw [Option.some.injEq] at h1
    subst h1
    simp [InputData.many, InputData.config, InputData.corrected, InputData.fieldconfig, Config.set_temperatures, Config.set_chemicalpotentials, Config.new, FieldConfig.new] at h2
  exact Prod.ext rfl this

theorem reach0 (i : InputData) : ConfigOp.runAll [] (Config.new i.fewtemps i.fewchempots i.momenta i.om i.renpoint i.f0 i.fieldconfig) = some i.config := rfl

theorem reach1 (i : InputData) : ConfigOp.runAll [.temperatures i.moretemps, .chemicalpotentials i.morechempots]
    (Config.new i.fewtemps i.fewchempots i.momenta i.om i.renpoint i.f0 i.fieldconfig) = some ((i.config.set_temperatures i.moretemps).set_chemicalpotentials i.morechempots) := rfl

theorem reach2 (i : InputData) : ConfigOp.runAll [.temperatures i.manytemps, .chemicalpotentials i.manychempots]
    (Config.new i.fewtemps i.fewchempots i.momenta i.om i.renpoint i.f0 i.fieldconfig) = some i.many := rfl

theorem runAll_append (l l' : List ConfigOp) (c : Config) : ConfigOp.runAll (l ++ l') c = (ConfigOp.runAll l c).bind (ConfigOp.runAll l') := by
  simp only [ConfigOp.runAll, List.foldlM_append]
  rfl

theorem reach3 (i : InputData) (pb : List (ℝ × ℝ)) : ConfigOp.runAll ([.temperatures i.manytemps, .chemicalpotentials i.manychempots] ++
      [.correctedfieldconfig (some i.corrected), .phase_boundary (some pb)])
    (Config.new i.fewtemps i.fewchempots i.momenta i.om i.renpoint i.f0 i.fieldconfig) = some (i.manyCorrected pb) := by
  have h : ((ConfigOp.correctedfieldconfig (some i.corrected)).call i.many).2 = false := congrArg Prod.snd (set_corrected_main i)
  rw [runAll_append, reach2, Option.bind_some]
  simp only [ConfigOp.runAll, List.foldlM_cons, List.foldlM_nil, h]
  rfl

theorem reach4 (i : InputData) (pb : List (ℝ × ℝ)) : ConfigOp.runAll (([.temperatures i.manytemps, .chemicalpotentials i.manychempots] ++
      [.correctedfieldconfig (some i.corrected), .phase_boundary (some pb)]) ++ [.temperatures i.fewtemps, .chemicalpotentials i.fewchempots])
    (Config.new i.fewtemps i.fewchempots i.momenta i.om i.renpoint i.f0 i.fieldconfig) = some (((i.manyCorrected pb).set_temperatures i.fewtemps).set_chemicalpotentials i.fewchempots) := by
  rw [runAll_append, reach3]
  rfl

theorem reduced_eq (pb : List (ℝ × ℝ)) : reduce_phase_boundary (fun t : ℝ => open Classical in decide (t = 0)) pb
    = pb.takeWhile (fun p => open Classical in !decide (p.2 = 0)) := reduce_eq_takeWhile _ _

theorem runs_corrected (i : InputData) (pb : List (ℝ × ℝ)) (mu : ℝ) :
    Runs (i.manyCorrected pb) mu ↔ ∃ p, pb.head? = some p ∧ p.2 ≠ 0 ∧ p.1 ≤ mu := by
  have h1 : (i.manyCorrected pb).phase_boundary = some (pb.takeWhile (fun p => open Classical in !decide (p.2 = 0))) := by
    rw [← reduced_eq]; rfl
  have h2 : (i.manyCorrected pb).correctedfieldconfig = some i.corrected := by
    simp only [InputData.manyCorrected, Config.set_phase_boundary, Config.set_correctedfieldconfig, Config.set_correctedf0]
    cases corrTerms i.many.fieldconfig.quarks i.corrected.quarks <;> rfl
  unfold Runs
  rw [h1, h2]
  simp only [reduceCtorEq, false_and, ne_eq, not_false_eq_true, Option.some.injEq, true_and, false_or, exists_eq_left', ↓existsAndEq]
  cases pb with
  | nil => simp
  | cons x pb =>
    by_cases hx : x.2 = 0
    · simp [hx]
    · simp [hx]

theorem propagators_none {c : Config} {P : Propagators} {fmt : ℝ → String} {a b : String} {fs : Files} {tv cv mv : ℝ × ℝ × ℝ} {om rp f0i : ℝ} {fc : FieldConfig} {h : List ConfigOp}
    (hrun : ConfigOp.runAll h (Config.new tv cv mv om rp f0i fc) = some c) (hr : ∀ mu ∈ c.chempots, Runs c mu) :
    compute_propagators P fmt a b c fs = (none, (compute_propagators P fmt a b c fs).2) := by
  refine Prod.ext ?_ rfl
  by_contra hcon
  obtain ⟨mu, h1, h2⟩ := (C65_compute_propagators_panics hrun P fmt a b fs).1 hcon
  exact h2 (hr mu h1)

theorem ir_ok {c : Config} {P : Propagators} {tv cv mv : ℝ × ℝ × ℝ} {om rp f0i : ℝ} {fc : FieldConfig} {h : List ConfigOp}
    (hrun : ConfigOp.runAll h (Config.new tv cv mv om rp f0i fc) = some c) (hr : ∀ mu ∈ c.chempots, Runs c mu) :
    ∃ v, compute_ir_limit P c = .ok v := by
  rcases hv : compute_ir_limit P c with e | v
  · obtain ⟨mu, h1, h2⟩ := (C65_compute_ir_limit_panics hrun P).1 ⟨e, hv⟩
    exact absurd (hr mu h1) h2
  · exact ⟨v, rfl⟩

/-- The files before the first phase diagram. -/
noncomputable def filesBefore (L T : Propagators) (fmt : ℝ → String) (i : InputData) (fs : Files) : Files :=
  (compute_propagators T fmt "nf_2+1" "_glutransprop_t_" i.config (compute_propagators L fmt "nf_2+1" "_glulongprop_t_" i.config fs).2).2

theorem main_eq (L T : Propagators) (fit : List (ℝ × ℝ) → ℕ → List ℝ) (fmt : ℝ → String) (i : InputData) (fs : Files) :
    main L T fit fmt i fs =
      match compute_phase_diagram L "nf_2+1" i.many (filesBefore L T fmt i fs) with
      | (.error e, fs) => (some e, fs)
      | (.ok pb, fs) =>
      match compute_phase_diagram L "nf_2+1_corrected" (i.manyCorrected pb) fs with
      | (.error e, fs) => (some e, fs)
      | (.ok _, fs) =>
      match compute_propagators L fmt "nf_2+1_corrected" "_glulongprop_t_" (((i.manyCorrected pb).set_temperatures i.fewtemps).set_chemicalpotentials i.fewchempots)
          (("tc_nf_2+1_corrected_fit_parameters.out", .params (fit (pb.takeWhile (fun p => open Classical in !decide (p.2 = 0))) 8)) :: fs) with
      | (some e, fs) => (some e, fs)
      | (none, fs) => compute_propagators T fmt "nf_2+1_corrected" "_glutransprop_t_" (((i.manyCorrected pb).set_temperatures i.fewtemps).set_chemicalpotentials i.fewchempots) fs := by
  have hr : ∀ c : Config, c.correctedfieldconfig = none → c.phase_boundary = none → ∀ mu ∈ c.chempots, Runs c mu := fun c h1 h2 mu _ => Or.inl ⟨h1, h2⟩
  have p1 := propagators_none (P := L) (fmt := fmt) (a := "nf_2+1") (b := "_glulongprop_t_") (fs := fs) (reach0 i) (hr _ rfl rfl)
  have p2 := propagators_none (P := T) (fmt := fmt) (a := "nf_2+1") (b := "_glutransprop_t_")
    (fs := (compute_propagators L fmt "nf_2+1" "_glulongprop_t_" i.config fs).2) (reach0 i) (hr _ rfl rfl)
  obtain ⟨v, p3⟩ := ir_ok (P := L) (reach1 i) (hr _ rfl rfl)
  unfold main
  simp only
  rw [p1]
  simp only
  rw [p2]
  simp only
  rw [p3]
  simp only
  have e : (((i.config.set_temperatures i.moretemps).set_chemicalpotentials i.morechempots).set_temperatures i.manytemps).set_chemicalpotentials i.manychempots = i.many := rfl
  rw [e]
  rcases h1 : compute_phase_diagram L "nf_2+1" i.many (filesBefore L T fmt i fs) with ⟨e | pb, fs1⟩
  · rw [filesBefore] at h1
    rw [h1]
  · rw [filesBefore] at h1
    rw [h1]
    simp only
    rw [set_corrected_main i]
    simp only
    have e' : (i.many.set_correctedfieldconfig (some i.corrected)).1.set_phase_boundary (some pb) = i.manyCorrected pb := rfl
    rw [e']
    rcases compute_phase_diagram L "nf_2+1_corrected" (i.manyCorrected pb) fs1 with ⟨e | pb', fs2⟩
    · rfl
    · have hb : (i.manyCorrected pb).phase_boundary = some (pb.takeWhile (fun p => open Classical in !decide (p.2 = 0))) := by
        rw [← reduced_eq]; rfl
      simp only
      rw [hb]
      simp only
      rw [← reduced_eq, C54_idempotent]
      rfl

theorem phase_ok {c : Config} {P : Propagators} {n : String} {fs : Files} {tv cv mv : ℝ × ℝ × ℝ} {om rp f0i : ℝ} {fc : FieldConfig} {h : List ConfigOp}
    (hrun : ConfigOp.runAll h (Config.new tv cv mv om rp f0i fc) = some c) (hr : ∀ mu ∈ c.chempots, Runs c mu) (hl : 4 ≤ c.chempots.length) :
    ∃ pb fs', compute_phase_diagram P n c fs = (.ok pb, fs') := by
  rcases hv : compute_phase_diagram P n c fs with ⟨e | pb, fs'⟩
  · rcases (C65_compute_phase_diagram_panics hrun P n fs).1.1 ⟨e, by rw [hv]⟩ with h1 | ⟨mu, h1, h2⟩
    · omega
    · exact absurd (hr mu h1) h2
  · exact ⟨pb, fs', rfl⟩

theorem compute_vec_head (v : ℝ × ℝ × ℝ) : (compute_vec v.1 v.2.1 v.2.2).head? = some v.1 := by
  simp [compute_vec, List.range_succ_eq_map]

/-- **C68**: for all propagators and every input the program ends without a panic exactly when the finest grid has at least four chemical
potentials, the critical temperature at the first of them is not zero, and no chemical potential of that grid or of the coarse grid is
below the first of the finest grid. -/
theorem C68_main_ends_iff (L T : Propagators) (fit : List (ℝ × ℝ) → ℕ → List ℝ) (fmt : ℝ → String) (i : InputData) (fs : Files) :
    (main L T fit fmt i fs).1 = none ↔
      4 ≤ (compute_vec i.manychempots.1 i.manychempots.2.1 i.manychempots.2.2).length ∧
      (∃ tc, tc ≠ 0 ∧ Critical L i.many i.manychempots.1 tc) ∧
      (∀ mu ∈ compute_vec i.manychempots.1 i.manychempots.2.1 i.manychempots.2.2, i.manychempots.1 ≤ mu) ∧
      (∀ mu ∈ compute_vec i.fewchempots.1 i.fewchempots.2.1 i.fewchempots.2.2, i.manychempots.1 ≤ mu) := by
  have hr : ∀ mu ∈ i.many.chempots, Runs i.many mu := fun mu _ => Or.inl ⟨rfl, rfl⟩
  have hch : i.many.chempots = compute_vec i.manychempots.1 i.manychempots.2.1 i.manychempots.2.2 := rfl
  rw [main_eq, ← hch]
  by_cases hl : 4 ≤ i.many.chempots.length
  swap
  · obtain ⟨e, he⟩ := ((C65_compute_phase_diagram_panics (reach2 i) L "nf_2+1" (filesBefore L T fmt i fs)).1).2 (Or.inl (by omega))
    rcases hv : compute_phase_diagram L "nf_2+1" i.many (filesBefore L T fmt i fs) with ⟨e' | pb, fs'⟩
    · simp [hl]
    · rw [hv] at he; simp at he
  obtain ⟨pb, fs1, h1⟩ := phase_ok (P := L) (n := "nf_2+1") (fs := filesBefore L T fmt i fs) (reach2 i) hr hl
  obtain ⟨a1, a2, a3⟩ := C64_phase_boundary (reach2 i) L "nf_2+1" _ _ _ h1
  rw [h1]
  simp only [hl, true_and]
  have hhead : ∃ tc, pb.head? = some (i.manychempots.1, tc) ∧ Critical L i.many i.manychempots.1 tc := by
    have h2 := compute_vec_head i.manychempots
    rw [← hch, ← a1] at h2
    cases pb with
    | nil => simp at h2
    | cons x pb =>
      simp only [List.map_cons, List.head?_cons, Option.some.injEq] at h2
      have := a2 x (by simp)
      rw [h2] at this
      exact ⟨x.2, by rw [← h2]; rfl, this⟩
  obtain ⟨tc, hh, hcrit⟩ := hhead
  have htc : (∃ tc, tc ≠ 0 ∧ Critical L i.many i.manychempots.1 tc) ↔ tc ≠ 0 :=
    ⟨fun ⟨t, h1, h2⟩ => by rw [C64_unique hcrit h2]; exact h1, fun h => ⟨tc, h, hcrit⟩⟩
  have hruns : ∀ mu, Runs (i.manyCorrected pb) mu ↔ tc ≠ 0 ∧ i.manychempots.1 ≤ mu := by
    intro mu
    rw [runs_corrected, hh]
    simp
  have hch3 : (i.manyCorrected pb).chempots = i.many.chempots := by
    simp only [InputData.manyCorrected, Config.set_phase_boundary, Config.set_correctedfieldconfig, Config.set_correctedf0]
    cases corrTerms i.many.fieldconfig.quarks i.corrected.quarks <;> rfl
  rw [htc]
  by_cases hm : tc ≠ 0 ∧ ∀ mu ∈ i.many.chempots, i.manychempots.1 ≤ mu
  swap
  · have hne : ∃ mu ∈ (i.manyCorrected pb).chempots, ¬ Runs (i.manyCorrected pb) mu := by
      by_contra hcon
      push Not at hcon
      apply hm
      rw [hch3] at hcon
      have hmem : i.manychempots.1 ∈ i.many.chempots := List.mem_of_mem_head? (Option.mem_def.2 (compute_vec_head i.manychempots))
      exact ⟨((hruns _).1 (hcon _ hmem)).1, fun mu h => ((hruns _).1 (hcon _ h)).2⟩
    obtain ⟨e, he⟩ := ((C65_compute_phase_diagram_panics (reach3 i pb) L "nf_2+1_corrected" fs1).1).2 (Or.inr hne)
    rcases hv : compute_phase_diagram L "nf_2+1_corrected" (i.manyCorrected pb) fs1 with ⟨e' | pb', fs'⟩
    · simp only [reduceCtorEq, false_iff]
      tauto
    · rw [hv] at he; simp at he
  obtain ⟨pb', fs2, h2⟩ := phase_ok (P := L) (n := "nf_2+1_corrected") (fs := fs1) (reach3 i pb)
    (by rw [hch3]; exact fun mu h => (hruns mu).2 ⟨hm.1, hm.2 mu h⟩) (by rw [hch3]; exact hl)
  rw [h2]
  have hfew : (((i.manyCorrected pb).set_temperatures i.fewtemps).set_chemicalpotentials i.fewchempots).chempots = compute_vec i.fewchempots.1 i.fewchempots.2.1 i.fewchempots.2.2 := rfl
  have hruns' : ∀ mu, Runs (((i.manyCorrected pb).set_temperatures i.fewtemps).set_chemicalpotentials i.fewchempots) mu ↔ Runs (i.manyCorrected pb) mu := fun mu => Iff.rfl
  by_cases hf : ∀ mu ∈ compute_vec i.fewchempots.1 i.fewchempots.2.1 i.fewchempots.2.2, i.manychempots.1 ≤ mu
  · have hr4 : ∀ mu ∈ (((i.manyCorrected pb).set_temperatures i.fewtemps).set_chemicalpotentials i.fewchempots).chempots,
        Runs (((i.manyCorrected pb).set_temperatures i.fewtemps).set_chemicalpotentials i.fewchempots) mu := by
      intro mu hmu
      rw [hruns', hruns]
      exact ⟨hm.1, hf mu hmu⟩
    simp only
    rw [propagators_none (reach4 i pb) hr4]
    simp only
    rw [propagators_none (reach4 i pb) hr4]
    simp only [true_iff]
    exact ⟨hm.1, hm.2, hf⟩
  · have hne : ∃ mu ∈ (((i.manyCorrected pb).set_temperatures i.fewtemps).set_chemicalpotentials i.fewchempots).chempots,
        ¬ Runs (((i.manyCorrected pb).set_temperatures i.fewtemps).set_chemicalpotentials i.fewchempots) mu := by
      push Not at hf
      obtain ⟨mu, h3, h4⟩ := hf
      refine ⟨mu, h3, ?_⟩
      rw [hruns', hruns]
      exact fun h => absurd h.2 (not_le.2 h4)
    have := fun fs => (C65_compute_propagators_panics (reach4 i pb) L fmt "nf_2+1_corrected" "_glulongprop_t_" fs).2 hne
    simp only
    split
    · simp only [reduceCtorEq, false_iff]; tauto
    · rename_i heq
      exact absurd (by rw [heq]) (this _)

theorem read_cons_ne {fs : Files} {n n' : String} {ct : Content} (h : n ≠ n') : Files.read ((n', ct) :: fs) n = Files.read fs n := by
  have : (n == n') = false := by simpa using h
  simp [Files.read, List.lookup_cons, this]

theorem read_cons_self {fs : Files} {n : String} {ct : Content} : Files.read ((n, ct) :: fs) n = some ct := by
  simp [Files.read]

theorem ne_of_head {n s : String} (h : n.toList.head? = some 't') (hs : s.toList.head? = some 'n') (a : String) : n ≠ s ++ a := by
  intro hc
  rw [hc, String.toList_append] at h
  cases hl : s.toList with
  | nil => rw [hl] at hs; simp at hs
  | cons x l =>
    rw [hl] at h hs
    simp only [List.cons_append, List.head?_cons, Option.some.injEq] at h hs
    rw [hs] at h
    simp at h

/-- The two tables a phase diagram writes. -/
theorem phase_files {c : Config} {P : Propagators} {n : String} {fs fs' : Files} {pb : List (ℝ × ℝ)} (h : compute_phase_diagram P n c fs = (.ok pb, fs')) :
    ∃ d, fs' = ("tcd2_" ++ n ++ ".out", .table d) :: ("tc_" ++ n ++ ".out", .table pb) :: fs := by
  simp only [compute_phase_diagram] at h
  split at h
  · simp at h
  · split_ifs at h with hl
    · simp at h
    · simp only [Prod.mk.injEq, Except.ok.injEq] at h
      obtain ⟨rfl, rfl⟩ := h
      exact ⟨_, rfl⟩

/-- **C69**: at the end of a run that did not panic the file `tc_nf_2+1.out` holds the phase boundary `pb` computed without correction, the file
`tc_nf_2+1_corrected.out` the one computed with the corrected fields above `pb`, and the file
`tc_nf_2+1_corrected_fit_parameters.out` the parameters of the fit of `pb`, the boundary without correction. -/
theorem C69_run_files (L T : Propagators) (fit : List (ℝ × ℝ) → ℕ → List ℝ) (fmt : ℝ → String) (i : InputData) (fs fs' : Files)
    (hok : main L T fit fmt i fs = (none, fs')) :
    ∃ pb pb', Files.read fs' "tc_nf_2+1.out" = some (.table pb) ∧ Files.read fs' "tc_nf_2+1_corrected.out" = some (.table pb') ∧
      pb.map Prod.fst = compute_vec i.manychempots.1 i.manychempots.2.1 i.manychempots.2.2 ∧
      pb'.map Prod.fst = compute_vec i.manychempots.1 i.manychempots.2.1 i.manychempots.2.2 ∧
      (∀ pt ∈ pb, Critical L i.many pt.1 pt.2) ∧ (∀ pt ∈ pb', Critical L (i.manyCorrected pb) pt.1 pt.2) ∧
      Files.read fs' "tc_nf_2+1_corrected_fit_parameters.out"
        = some (.params (fit (pb.takeWhile (fun p => open Classical in !decide (p.2 = 0))) 8)) := by
  rw [main_eq] at hok
  rcases h1 : compute_phase_diagram L "nf_2+1" i.many (filesBefore L T fmt i fs) with ⟨e | pb, fs1⟩
  · rw [h1] at hok; simp at hok
  rw [h1] at hok
  simp only at hok
  rcases h2 : compute_phase_diagram L "nf_2+1_corrected" (i.manyCorrected pb) fs1 with ⟨e | pb', fs2⟩
  · rw [h2] at hok; simp at hok
  rw [h2] at hok
  simp only at hok
  split at hok
  · simp at hok
  rename_i fs3 h3
  obtain ⟨a1, a2, -⟩ := C64_phase_boundary (reach2 i) L _ _ _ _ h1
  obtain ⟨b1, b2, -⟩ := C64_phase_boundary (reach3 i pb) L _ _ _ _ h2
  have hch3 : (i.manyCorrected pb).chempots = i.many.chempots := by
    simp only [InputData.manyCorrected, Config.set_phase_boundary, Config.set_correctedfieldconfig, Config.set_correctedf0]
    cases corrTerms i.many.fieldconfig.quarks i.corrected.quarks <;> rfl
  obtain ⟨d1, e1⟩ := phase_files h1
  obtain ⟨d2, e2⟩ := phase_files h2
  have hread : ∀ n : String, n.toList.head? = some 't' → Files.read fs' n
      = Files.read (("tc_nf_2+1_corrected_fit_parameters.out", .params (fit (pb.takeWhile (fun p => open Classical in !decide (p.2 = 0))) 8)) :: fs2) n := by
    intro n hn
    have hT := C67_other_files T fmt "nf_2+1_corrected" "_glutransprop_t_" (((i.manyCorrected pb).set_temperatures i.fewtemps).set_chemicalpotentials i.fewchempots) n
      (ne_of_head hn (by decide)) fs3
    rw [hok] at hT
    have hL := C67_other_files L fmt "nf_2+1_corrected" "_glulongprop_t_" (((i.manyCorrected pb).set_temperatures i.fewtemps).set_chemicalpotentials i.fewchempots) n
      (ne_of_head hn (by decide)) (("tc_nf_2+1_corrected_fit_parameters.out", .params (fit (pb.takeWhile (fun p => open Classical in !decide (p.2 = 0))) 8)) :: fs2)
    rw [h3] at hL
    exact hT.trans hL
  refine ⟨pb, pb', ?_, ?_, a1, by rw [b1, hch3]; rfl, a2, b2, ?_⟩
  · rw [hread _ (by decide), read_cons_ne (by decide), e2, read_cons_ne (by decide), read_cons_ne (by decide), e1, read_cons_ne (by decide)]
    exact read_cons_self
  · rw [hread _ (by decide), read_cons_ne (by decide), e2, read_cons_ne (by decide)]
    exact read_cons_self
  · rw [hread _ (by decide), read_cons_self]

/-! ### A run -/

/-- Propagators that single out the corrected fields at the larger of two temperatures. -/
noncomputable def demoP : Propagators where
  zero _ p _ _ _ := if p = 0 then 0 else 1
  finite _ p beta _ _ fc := open Classical in if p = 0 then (if beta = 1 then 1 else if fc.quarks = [(2, 2), (1, 2)] then 5 else 1 / 2) else 1

noncomputable def demoI : InputData where
  mg := 1
  om := 1
  renpoint := 1
  mq := (1, 1)
  mqc := (2, 2)
  f0 := 0
  fewtemps := (0, 2, 1)
  moretemps := (0, 2, 1)
  manytemps := (0, 2, 1)
  fewchempots := (0, 3, 1)
  morechempots := (0, 3, 1)
  manychempots := (0, 3, 1)
  momenta := (0, 1, 1)

theorem demo_many : demoI.many.temps = [0, 1, 2] ∧ demoI.many.chempots = [0, 1, 2, 3] := ⟨compute_vec_demo.2, compute_vec_demo.1⟩

theorem critical_of {P : Propagators} {c : Config} {mu v0 v1 v2 t0 t1 t2 tc : ℝ} (ht : c.temps = [t0, t1, t2])
    (h0 : InfraredValue P c mu 0 v0) (h1 : InfraredValue P c mu 1 v1) (h2 : InfraredValue P c mu 2 v2) (k : ℕ) (v : ℝ)
    (hk : c.temps[k]? = some tc) (hv : InfraredValue P c mu k v)
    (hle : v0 ≤ v ∧ v1 ≤ v ∧ v2 ≤ v) (hlt : (0 < k → v0 < v) ∧ (1 < k → v1 < v) ∧ (2 < k → v2 < v)) : Critical P c mu tc := by
  refine ⟨k, v, hk, hv, ?_⟩
  intro j hj
  rw [ht] at hj
  simp only [List.length_cons, List.length_nil] at hj
  interval_cases j
  · exact ⟨v0, h0, hle.1, hlt.1⟩
  · exact ⟨v1, h1, hle.2.1, hlt.2.1⟩
  · exact ⟨v2, h2, hle.2.2, hlt.2.2⟩

theorem demo_critical : Critical demoP demoI.many 0 1 := by
  have hd : ∀ t, demoI.many.maybe_corrected_data 0 t = .ok demoI.fieldconfig demoI.many.f0 := fun t => rfl
  have hq : demoI.fieldconfig.quarks = [(2, 1), (1, 1)] := rfl
  have hr : demoI.many.renpoint = 1 := rfl
  have hg : demoI.many.fieldconfig.gluon = 1 := rfl
  have hp : demoI.many.pbase = 0 := rfl
  have h0 : InfraredValue demoP demoI.many 0 0 0 := by
    refine ⟨0, _, _, by rw [demo_many.1]; rfl, hd _, ?_⟩
    simp [renormalized, curve, demoP, hp]
  have h1 : InfraredValue demoP demoI.many 0 1 1 := by
    refine ⟨1, _, _, by rw [demo_many.1]; rfl, hd _, ?_⟩
    simp [renormalized, curve, demoP, hp, hg, hr]
  have h2 : InfraredValue demoP demoI.many 0 2 (1 / 2) := by
    refine ⟨2, _, _, by rw [demo_many.1]; rfl, hd _, ?_⟩
    simp [renormalized, curve, demoP, hp, hg, hr, hq]
  exact critical_of demo_many.1 h0 h1 h2 1 1 (by rw [demo_many.1]; rfl) h1 (by norm_num) (by norm_num)

/-- The run of the example ends. -/
theorem demo_ends (fit : List (ℝ × ℝ) → ℕ → List ℝ) (fmt : ℝ → String) (fs : Files) : (main demoP demoP fit fmt demoI fs).1 = none := by
  rw [C68_main_ends_iff]
  have h : compute_vec demoI.manychempots.1 demoI.manychempots.2.1 demoI.manychempots.2.2 = [0, 1, 2, 3] := compute_vec_demo.1
  have h' : compute_vec demoI.fewchempots.1 demoI.fewchempots.2.1 demoI.fewchempots.2.2 = [0, 1, 2, 3] := compute_vec_demo.1
  have h0 : demoI.manychempots.1 = 0 := rfl
  rw [h, h', h0]
  refine ⟨by simp, ⟨1, one_ne_zero, demo_critical⟩, ?_, ?_⟩ <;> norm_num

/-- **C69** (negative): the parameters in `tc_nf_2+1_corrected_fit_parameters.out` are in general not those of the fit of the corrected phase
boundary, the one in `tc_nf_2+1_corrected.out`. -/
theorem C69_fit_not_of_corrected : ∃ (L T : Propagators) (fit : List (ℝ × ℝ) → ℕ → List ℝ) (i : InputData), ∀ (fmt : ℝ → String) (fs : Files),
    ∃ fs' pb', main L T fit fmt i fs = (none, fs') ∧ Files.read fs' "tc_nf_2+1_corrected.out" = some (.table pb') ∧
      Files.read fs' "tc_nf_2+1_corrected_fit_parameters.out"
        ≠ some (.params (fit (pb'.takeWhile (fun p => open Classical in !decide (p.2 = 0))) 8)) := by
  refine ⟨demoP, demoP, fun l _ => l.map Prod.snd, demoI, fun fmt fs => ?_⟩
  have hm : main demoP demoP (fun l _ => l.map Prod.snd) fmt demoI fs = (none, (main demoP demoP (fun l _ => l.map Prod.snd) fmt demoI fs).2) :=
    Prod.ext (demo_ends _ fmt fs) rfl
  obtain ⟨pb, pb', h1, h2, h3, h4, h5, h6, h7⟩ := C69_run_files _ _ _ _ _ _ _ hm
  refine ⟨_, pb', hm, h2, ?_⟩
  rw [h7]
  have hv : compute_vec demoI.manychempots.1 demoI.manychempots.2.1 demoI.manychempots.2.2 = [0, 1, 2, 3] := compute_vec_demo.1
  rw [hv] at h3 h4
  obtain ⟨x, pb1, rfl⟩ : ∃ x pb1, pb = x :: pb1 := by
    cases pb with
    | nil => simp at h3
    | cons x pb1 => exact ⟨x, pb1, rfl⟩
  obtain ⟨y, pb1', rfl⟩ : ∃ x pb1, pb' = x :: pb1 := by
    cases pb' with
    | nil => simp at h4
    | cons x pb1 => exact ⟨x, pb1, rfl⟩
  obtain ⟨x1, x2⟩ := x
  obtain ⟨y1, y2⟩ := y
  simp only [List.map_cons, List.cons.injEq] at h3 h4
  obtain ⟨rfl, h3⟩ := h3
  obtain ⟨rfl, h4⟩ := h4
  have hx2 : x2 = 1 := C64_unique (h5 (0, x2) (by simp)) demo_critical
  subst hx2
  have hy2 : y2 = 2 := by
    refine C64_unique (h6 (0, y2) (by simp)) ?_
    have hs : (demoI.manyCorrected ((0, 1) :: pb1)).temps = demoI.many.temps ∧ (demoI.manyCorrected ((0, 1) :: pb1)).renpoint = 1 ∧
        (demoI.manyCorrected ((0, 1) :: pb1)).fieldconfig.gluon = 1 ∧ (demoI.manyCorrected ((0, 1) :: pb1)).pbase = 0 ∧
        (demoI.manyCorrected ((0, 1) :: pb1)).correctedfieldconfig = some demoI.corrected ∧
        (∃ f, (demoI.manyCorrected ((0, 1) :: pb1)).correctedf0 = some f) ∧
        (demoI.manyCorrected ((0, 1) :: pb1)).phase_boundary = some (((0, 1) :: pb1).takeWhile (fun p => open Classical in !decide (p.2 = 0))) := by
      rw [← reduced_eq]
      exact ⟨rfl, rfl, rfl, rfl, rfl, ⟨_, rfl⟩, rfl⟩
    obtain ⟨s1, s2, s3, s4, s5, ⟨f, s6⟩, s7⟩ := hs
    have hq : demoI.corrected.quarks = [(2, 2), (1, 2)] := rfl
    have hdef : ∀ t, ∃ fc f0, (demoI.manyCorrected ((0, 1) :: pb1)).maybe_corrected_data 0 t = .ok fc f0 := by
      have hd : Defined (demoI.manyCorrected ((0, 1) :: pb1)) 0 := by
        rw [defined_iff_runs (reach3 _ _), runs_corrected]
        exact ⟨(0, 1), rfl, by norm_num, le_refl _⟩
      intro t
      by_contra hcon
      have hcon' := (data_error_iff_runs (reach3 demoI ((0, 1) :: pb1)) 0 t).1 (data_error_iff.2 hcon)
      exact hcon' ((defined_iff_runs (reach3 _ _) 0).1 hd)
    have hdec : (demoI.manyCorrected ((0, 1) :: pb1)).maybe_corrected_data 0 2 = .ok demoI.corrected f := by
      have hd2 : is_deconfined_phase 0 2 (((0, 1) :: pb1).takeWhile (fun p => open Classical in !decide (p.2 = 0))) = some true := by
        unfold is_deconfined_phase
        simp only [← reduced_eq, C54_idempotent]
        rw [reduced_eq]
        simp
      simp only [Config.maybe_corrected_data, s5, s6, s7, hd2]
    have e0 : InfraredValue demoP (demoI.manyCorrected ((0, 1) :: pb1)) 0 0 0 := by
      obtain ⟨fc, f0, hd⟩ := hdef (temperature 0 0)
      refine ⟨0, fc, f0, by rw [s1, demo_many.1]; rfl, hd, ?_⟩
      simp [renormalized, curve, demoP, s4]
    have e1 : InfraredValue demoP (demoI.manyCorrected ((0, 1) :: pb1)) 0 1 1 := by
      obtain ⟨fc, f0, hd⟩ := hdef (temperature 1 1)
      refine ⟨1, fc, f0, by rw [s1, demo_many.1]; rfl, hd, ?_⟩
      simp [renormalized, curve, demoP, s4, s3, s2]
    have e2 : InfraredValue demoP (demoI.manyCorrected ((0, 1) :: pb1)) 0 2 5 := by
      refine ⟨2, demoI.corrected, f, by rw [s1, demo_many.1]; rfl, by simpa [temperature] using hdec, ?_⟩
      simp [renormalized, curve, demoP, s4, s3, s2, hq]
    exact critical_of (s1.trans demo_many.1) e0 e1 e2 2 5 (by rw [s1, demo_many.1]; rfl) e2 (by norm_num) (by norm_num)
  subst hy2
  intro hc
  simp only [Option.some.injEq, Content.params.injEq] at hc
  simp at hc

end Qcd.tc
