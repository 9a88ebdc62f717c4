import Verif.Spec.Scans
import Mathlib.Analysis.Calculus.Deriv.MeanValue
import Verif.Props.TcLongProp

/-! # C64-C69: the scans of `physical_tc`

Specification: `Verif/Spec/Scans.lean`. The propagators are arbitrary; `longitudinal` and `transverse` are the ones of the program. -/

namespace Qcd.tc
open Spec

/-! ### Helpers -/

theorem collect_ok {α β : Type} {f : α → Except Panic β} {l : List α} {ys : List β} (h : collect f l = .ok ys) :
    ys.length = l.length ∧ ∀ (k : ℕ) (x : α), l[k]? = some x → ∃ y, f x = .ok y ∧ ys[k]? = some y := by
  induction l generalizing ys with
  | nil => simp only [collect, Except.ok.injEq] at h; subst h; simp
  | cons a l ih =>
    simp only [collect] at h
    split at h
    · simp at h
    · rename_i y hy
      split at h
      · simp at h
      · rename_i ys' hys
        simp only [Except.ok.injEq] at h
        subst h
        obtain ⟨h1, h2⟩ := ih hys
        refine ⟨by simp [h1], ?_⟩
        intro k x hk
        cases k with
        | zero => simp only [List.getElem?_cons_zero, Option.some.injEq] at hk; subst hk; exact ⟨y, hy, by simp⟩
        | succ k => simpa using h2 k x (by simpa using hk)

theorem collect_error_iff {α β : Type} {f : α → Except Panic β} {l : List α} :
    (∃ e, collect f l = .error e) ↔ ∃ x ∈ l, ∃ e, f x = .error e := by
  induction l with
  | nil => simp [collect]
  | cons a l ih =>
    simp only [collect, List.mem_cons, exists_eq_or_imp]
    cases hf : f a with
    | error e => simp
    | ok y =>
      simp only [reduceCtorEq, exists_false, false_or, ← ih]
      cases collect f l <;> simp

theorem data_ok_iff {c : Config} {mu t : ℝ} {x : FieldConfig × ℝ} : c.data mu t = .ok x ↔ c.maybe_corrected_data mu t = .ok x.1 x.2 := by
  unfold Config.data
  cases c.maybe_corrected_data mu t <;> simp
  rename_i fc f0
  constructor
  · rintro rfl; simp
  · rintro ⟨h1, h2⟩; ext <;> simp [h1, h2]

theorem data_error_iff {c : Config} {mu t : ℝ} : (∃ e, c.data mu t = .error e) ↔ ¬ ∃ fc f0, c.maybe_corrected_data mu t = .ok fc f0 := by
  unfold Config.data
  cases c.maybe_corrected_data mu t <;> simp

theorem irValue_eq {c : Config} (hren : c.renpoint2 = c.renpoint * c.renpoint) (D : ℝ → ℂ) :
    irValue c D = renormalized D c.renpoint c.fieldconfig.gluon c.pbase := by
  simp only [irValue, renormalized, hren]
  generalize (D c.renpoint).re = a
  generalize (D _).re = b
  simp only [div_eq_mul_inv, mul_inv, inv_inv]
  ring

theorem irVals_ok {P : Propagators} {c : Config} {mu : ℝ} {vals : List ℝ} (hren : c.renpoint2 = c.renpoint * c.renpoint) (ht : c.temps ≠ [])
    (h : irVals P c mu = .ok vals) :
    vals.length = c.temps.length ∧ ∀ (k : ℕ) (t : ℝ), c.temps[k]? = some t → ∃ v, vals[k]? = some v ∧ InfraredValue P c mu k v := by
  obtain ⟨t0, ts, hts⟩ := List.exists_cons_of_ne_nil ht
  simp only [irVals] at h
  split at h
  · simp at h
  · rename_i fc f0 hd
    split at h
    · simp at h
    · rename_i vs hvs
      simp only [Except.ok.injEq] at h
      subst h
      obtain ⟨h1, h2⟩ := collect_ok hvs
      rw [hts] at h1 h2
      refine ⟨by simp [hts, h1], ?_⟩
      intro k t hk
      rw [hts] at hk
      cases k with
      | zero =>
        refine ⟨_, rfl, t, fc, f0, by rw [hts]; exact hk, ?_, ?_⟩
        · simpa [temperature] using data_ok_iff.1 hd
        · rw [irValue_eq hren]
          congr 1
      | succ k =>
        obtain ⟨y, hy, hy'⟩ := h2 k t (by simpa using hk)
        refine ⟨y, by simpa using hy', ?_⟩
        simp only [irAtT] at hy
        split at hy
        · simp at hy
        · rename_i fc' f0' hd'
          simp only [Except.ok.injEq] at hy
          refine ⟨t, fc', f0', by rw [hts]; exact hk, ?_, ?_⟩
          · simpa [temperature] using data_ok_iff.1 hd'
          · rw [← hy, irValue_eq hren]
            congr 1

theorem irAtT_error_iff {P : Propagators} {c : Config} {mu t : ℝ} : (∃ e, irAtT P c mu t = .error e) ↔ ∃ e, c.data mu t = .error e := by
  unfold irAtT
  cases c.data mu t <;> simp

theorem defined_iff {c : Config} {mu : ℝ} (ht : c.temps ≠ []) :
    Defined c mu ↔ (∃ fc f0, c.maybe_corrected_data mu 0 = .ok fc f0) ∧
      ∀ t ∈ c.temps.drop 1, ∃ fc f0, c.maybe_corrected_data mu t = .ok fc f0 := by
  obtain ⟨t0, ts, hts⟩ := List.exists_cons_of_ne_nil ht
  unfold Defined
  simp only [hts, List.drop_succ_cons, List.drop_zero]
  constructor
  · intro h
    refine ⟨by simpa [temperature] using h 0 t0 rfl, fun t hm => ?_⟩
    obtain ⟨k, hk⟩ := List.mem_iff_getElem?.1 hm
    simpa [temperature] using h (k + 1) t (by simpa using hk)
  · rintro ⟨h0, h1⟩ k t hk
    cases k with
    | zero => simpa [temperature] using h0
    | succ k =>
      simp only [temperature, Nat.succ_ne_zero, if_false]
      exact h1 t (List.mem_iff_getElem?.2 ⟨k, by simpa using hk⟩)

theorem irVals_error_iff {P : Propagators} {c : Config} {mu : ℝ} (ht : c.temps ≠ []) :
    (∃ e, irVals P c mu = .error e) ↔ ¬ Defined c mu := by
  rw [defined_iff ht, not_and_or, ← data_error_iff]
  have h2 : (¬ ∀ t ∈ c.temps.drop 1, ∃ fc f0, c.maybe_corrected_data mu t = .ok fc f0) ↔
      ∃ e, collect (irAtT P c mu) (c.temps.drop 1) = .error e := by
    rw [collect_error_iff]
    simp only [irAtT_error_iff, data_error_iff]
    push Not
    rfl
  rw [h2]
  unfold irVals
  cases c.data mu 0 with
  | error e => simp
  | ok x =>
    simp only [reduceCtorEq, exists_false, false_or]
    cases collect (irAtT P c mu) (c.temps.drop 1) <;> simp

/-- Real numbers with their order, no NaN. -/
noncomputable instance realFloatOrder : FloatOrder ℝ where
  gt a b := open Classical in decide (a > b)
  isNaN _ := False
  irrefl a := by simp
  trans a b c := by simp only [decide_eq_true_eq]; exact fun h1 h2 => h2.trans h1
  not_nan a b := by simp
  cotrans a b c := by
    simp only [decide_eq_true_eq]
    intro h _
    exact lt_or_ge b a |>.imp id fun h' => lt_of_lt_of_le h h'

theorem criticalAt_ok {P : Propagators} {c : Config} {mu tc : ℝ} (hren : c.renpoint2 = c.renpoint * c.renpoint) (ht : c.temps ≠ [])
    (h : criticalAt P c mu = .ok tc) :
    Critical P c mu tc := by
  simp only [criticalAt] at h
  split at h
  · simp at h
  · rename_i vals hv
    obtain ⟨hlen, hval⟩ := irVals_ok hren ht hv
    split at h
    · simp at h
    · rename_i tc' htc
      simp only [Except.ok.injEq] at h
      subst h
      rcases C53_first_maximum (F := ℝ) c.temps vals with ⟨h1, h2⟩ | ⟨k, t, d, h1, h2, h3, h4, h5, h6⟩
      · rcases h1 with h1 | h1
        · exact absurd h1 ht
        · rw [h1] at hlen
          exact absurd (List.length_eq_zero_iff.1 hlen.symm) ht
      · change find_critical_temperature FloatOrder.gt c.temps vals = some tc' at htc
        rw [h1, Option.some.injEq] at htc
        subst htc
        obtain ⟨v, hv1, hv2⟩ := hval k t h2
        rw [h3, Option.some.injEq] at hv1
        subst hv1
        refine ⟨k, d, h2, hv2, ?_⟩
        intro j hj
        obtain ⟨w, hw1, hw2⟩ := hval j c.temps[j] (List.getElem?_eq_getElem hj)
        refine ⟨w, hw2, ?_, ?_⟩
        · have := h4 j _ w (List.getElem?_eq_getElem hj) hw1
          simpa [FloatOrder.gt] using this
        · intro hjk
          have := h5 j w hjk hw1 (Or.inr (by simp [FloatOrder.isNaN]))
          simpa [FloatOrder.gt] using this

theorem criticalAt_error_iff {P : Propagators} {c : Config} {mu : ℝ} (hren : c.renpoint2 = c.renpoint * c.renpoint) (ht : c.temps ≠ []) :
    (∃ e, criticalAt P c mu = .error e) ↔ ¬ Defined c mu := by
  rw [← irVals_error_iff (P := P) ht]
  unfold criticalAt
  cases hv : irVals P c mu with
  | error e => simp
  | ok vals =>
    simp only [reduceCtorEq, exists_false, iff_false]
    rcases C53_first_maximum (F := ℝ) c.temps vals with ⟨h1, h2⟩ | ⟨k, t, d, h1, h2, h3, h4, h5, h6⟩
    · obtain ⟨hlen, hval⟩ := irVals_ok hren ht hv
      rcases h1 with h1 | h1
      · exact absurd h1 ht
      · rw [h1] at hlen
        exact absurd (List.length_eq_zero_iff.1 hlen.symm) ht
    · change find_critical_temperature (fun a b => open Classical in decide (a > b)) c.temps vals = some t at h1
      rw [h1]
      simp

/-! ### The configurations a caller can build -/

/-- Every configuration built by `new` and a history of setter calls has a grid of temperatures that is not empty and the square of
the renormalisation scale. -/
theorem reachable_config {tv cv mv : ℝ × ℝ × ℝ} {om rp f0i : ℝ} {fc : FieldConfig} {h : List ConfigOp} {c : Config}
    (hrun : ConfigOp.runAll h (Config.new tv cv mv om rp f0i fc) = some c) :
    c.temps ≠ [] ∧ c.renpoint2 = c.renpoint * c.renpoint ∧ c.fieldconfig = fc ∧ c.chempots ≠ [] := by
  have hne : ∀ a b d, compute_vec a b d ≠ [] := by intro a b d; simp [compute_vec]
  have key : ∀ (h : List ConfigOp) (c0 c : Config), ConfigOp.runAll h c0 = some c →
      (c0.temps ≠ [] ∧ c0.renpoint2 = c0.renpoint * c0.renpoint ∧ c0.fieldconfig = fc ∧ c0.chempots ≠ []) →
      (c.temps ≠ [] ∧ c.renpoint2 = c.renpoint * c.renpoint ∧ c.fieldconfig = fc ∧ c.chempots ≠ []) := by
    intro h
    induction h with
    | nil => intro c0 c hr h0; simp only [ConfigOp.runAll, List.foldlM_nil, Option.pure_def, Option.some.injEq] at hr; subst hr; exact h0
    | cons op h ih =>
      intro c0 c hr h0
      simp only [ConfigOp.runAll, List.foldlM_cons] at hr
      by_cases hp : (op.call c0).2 = true
      · simp [hp] at hr
      · simp only [hp, Bool.false_eq_true, if_false, Option.bind_eq_bind, Option.bind_some] at hr
        refine ih _ c hr ?_
        obtain ⟨a1, a2, a3, a4⟩ := h0
        cases op with
        | temperatures v => exact ⟨hne _ _ _, a2, a3, a4⟩
        | chemicalpotentials v => exact ⟨a1, a2, a3, hne _ _ _⟩
        | correctedfieldconfig v =>
          simp only [ConfigOp.call, Config.set_correctedfieldconfig, Config.set_correctedf0]
          cases v with
          | none => exact ⟨a1, a2, a3, a4⟩
          | some cfc => split <;> first | exact ⟨a1, a2, a3, a4⟩ | (split <;> exact ⟨a1, a2, a3, a4⟩)
        | phase_boundary v => exact ⟨a1, a2, a3, a4⟩
  exact key h _ c hrun ⟨hne _ _ _, rfl, rfl, hne _ _ _⟩

/-! ### C64 -/

/-- **C64**: for every configuration a caller can build and all propagators, the phase boundary that `compute_phase_diagram` returns
has one point for each chemical potential of the grid, in order, and its temperature is the first grid temperature at which the
renormalised infrared propagator is largest. The file `tc_….out` holds the same points. -/
theorem C64_phase_boundary {tv cv mv : ℝ × ℝ × ℝ} {om rp f0i : ℝ} {fc : FieldConfig} {h : List ConfigOp} {c : Config}
    (hrun : ConfigOp.runAll h (Config.new tv cv mv om rp f0i fc) = some c) (P : Propagators) (filename : String) (fs fs' : Files)
    (pb : List (ℝ × ℝ)) (hok : compute_phase_diagram P filename c fs = (.ok pb, fs')) :
    pb.map Prod.fst = c.chempots ∧ (∀ pt ∈ pb, Critical P c pt.1 pt.2) ∧
    Files.read fs' ("tc_" ++ filename ++ ".out") = some (.table pb) := by
  obtain ⟨ht, hren, -, -⟩ := reachable_config hrun
  simp only [compute_phase_diagram] at hok
  split at hok
  · simp at hok
  · rename_i tcs htcs
    obtain ⟨hlen, hget⟩ := collect_ok htcs
    split_ifs at hok with hl
    · simp at hok
    · simp only [Prod.mk.injEq, Except.ok.injEq] at hok
      obtain ⟨rfl, rfl⟩ := hok
      refine ⟨by rw [List.map_fst_zip hlen.ge], ?_, ?_⟩
      · intro pt hpt
        obtain ⟨i, hi⟩ := List.mem_iff_getElem?.1 hpt
        rw [List.getElem?_zip_eq_some] at hi
        obtain ⟨h1, h2⟩ := hi
        obtain ⟨y, hy, hy'⟩ := hget i _ h1
        rw [h2, Option.some.injEq] at hy'
        rw [← hy'] at hy
        exact criticalAt_ok hren ht hy
      · have : ("tc_" ++ filename ++ ".out" == "tcd2_" ++ filename ++ ".out") = false := by
          rw [beq_eq_false_iff_ne]
          intro h
          have := congrArg (fun s : String => s.toList.getD 2 'x') h
          simp [String.toList_append] at this
        simp [Files.read, List.lookup, this]

theorem compute_vec_demo : compute_vec 0 3 1 = [0, 1, 2, 3] ∧ compute_vec 0 2 1 = [0, 1, 2] := by
  constructor
  · have : (round ((3 - 0 : ℝ) / 1)).toNat = 3 := by norm_num; rfl
    simp only [compute_vec, this]
    norm_num [List.range_succ]
  · have : (round ((2 - 0 : ℝ) / 1)).toNat = 2 := by norm_num; rfl
    simp only [compute_vec, this]
    norm_num [List.range_succ]

theorem infraredValue_unique {P : Propagators} {c : Config} {mu : ℝ} {k : ℕ} {v w : ℝ}
    (hv : InfraredValue P c mu k v) (hw : InfraredValue P c mu k w) : v = w := by
  obtain ⟨t, fc, f0, h1, h2, h3⟩ := hv
  obtain ⟨t', fc', f0', h1', h2', h3'⟩ := hw
  rw [h1, Option.some.injEq] at h1'
  subst h1'
  rw [h2, Data.ok.injEq] at h2'
  obtain ⟨rfl, rfl⟩ := h2'
  rw [h3, h3']

/-- **C64** (uniqueness): the specification determines the critical temperature. -/
theorem C64_unique {P : Propagators} {c : Config} {mu t t' : ℝ} (h : Critical P c mu t) (h' : Critical P c mu t') : t = t' := by
  obtain ⟨k, v, h1, h2, h3⟩ := h
  obtain ⟨k', v', h1', h2', h3'⟩ := h'
  have hk : k < c.temps.length := by rw [List.getElem?_eq_some_iff] at h1; exact h1.1
  have hk' : k' < c.temps.length := by rw [List.getElem?_eq_some_iff] at h1'; exact h1'.1
  obtain ⟨w, a1, a2, a3⟩ := h3 k' hk'
  obtain ⟨w', b1, b2, b3⟩ := h3' k hk
  rw [infraredValue_unique a1 h2'] at a2 a3
  rw [infraredValue_unique b1 h2] at b2 b3
  have : k = k' := by
    rcases lt_trichotomy k k' with hl | hl | hl
    · exact absurd (b3 hl) (not_lt.2 a2)
    · exact hl
    · exact absurd (a3 hl) (not_lt.2 b2)
  subst this
  rw [h1, Option.some.injEq] at h1'
  exact h1'

/-! ### C65 -/

theorem takeWhile_of_all {α : Type} {p : α → Bool} {l : List α} (h : ∀ x ∈ l, p x = true) : l.takeWhile p = l := by
  induction l with
  | nil => rfl
  | cons x l ih =>
    rw [List.takeWhile_cons_of_pos (h x (by simp)), ih (fun y hy => h y (by simp [hy]))]

theorem data_error_iff_runs {tv cv mv : ℝ × ℝ × ℝ} {om rp f0i : ℝ} {fc : FieldConfig} {h : List ConfigOp} {c : Config}
    (hrun : ConfigOp.runAll h (Config.new tv cv mv om rp f0i fc) = some c) (mu t : ℝ) :
    (∃ e, c.data mu t = .error e) ↔ ¬ Runs c mu := by
  obtain ⟨-, -, h3, -, h5⟩ := C59_invariant tv cv mv om rp f0i fc h c hrun
  obtain ⟨m1, m2, m3⟩ := C59_maybe_corrected c mu t h3
  unfold Config.data Runs
  cases hc : c.correctedfieldconfig with
  | none =>
    cases hp : c.phase_boundary with
    | none => simp [m2 hc hp]
    | some pb =>
      have := m1.2 (by simp [hc, hp])
      simp [this]
  | some cfc =>
    cases hp : c.phase_boundary with
    | none =>
      have := m1.2 (by simp [hc, hp])
      simp [this]
    | some pb =>
      obtain ⟨n1, n2, n3⟩ := m3 cfc pb hc hp
      have hph := C55_panics_iff mu t pb
      rw [takeWhile_of_all (by intro x hx; simpa using h5 pb hp x hx)] at hph
      cases hd : is_deconfined_phase mu t pb with
      | none =>
        rw [n1 hd]
        have := hph.1 hd
        simp only [Except.error.injEq, exists_eq', reduceCtorEq, false_and, ne_eq, not_false_eq_true, true_and, false_or, true_iff]
        rintro ⟨pb', p, he, hp1, hp2⟩
        rw [Option.some.injEq] at he
        subst he
        exact absurd (this p hp1) (not_lt.2 hp2)
      | some b =>
        have hne : ∃ p, pb.head? = some p ∧ p.1 ≤ mu := by
          by_contra hcon
          push Not at hcon
          have := hph.2 (fun p hp => hcon p hp)
          rw [hd] at this
          simp at this
        obtain ⟨p, hp1, hp2⟩ := hne
        have : ∃ fc f0, c.maybe_corrected_data mu t = .ok fc f0 := by
          cases b with
          | false => exact ⟨_, _, n2 hd⟩
          | true => obtain ⟨cf0, -, h⟩ := n3 hd; exact ⟨_, _, h⟩
        obtain ⟨fc', f0', hm⟩ := this
        rw [hm]
        simp only [reduceCtorEq, exists_false, false_and, ne_eq, not_false_eq_true, true_and, false_or, false_iff, not_not]
        exact ⟨pb, p, rfl, hp1, hp2⟩

theorem defined_iff_runs {tv cv mv : ℝ × ℝ × ℝ} {om rp f0i : ℝ} {fc : FieldConfig} {h : List ConfigOp} {c : Config}
    (hrun : ConfigOp.runAll h (Config.new tv cv mv om rp f0i fc) = some c) (mu : ℝ) : Defined c mu ↔ Runs c mu := by
  have ht := (reachable_config hrun).1
  rw [defined_iff ht]
  have key : ∀ t, (∃ fc f0, c.maybe_corrected_data mu t = .ok fc f0) ↔ Runs c mu := by
    intro t
    have h1 := data_error_iff_runs hrun mu t
    have h2 := data_error_iff (c := c) (mu := mu) (t := t)
    rw [h1] at h2
    exact (not_iff_not.1 h2).symm
  simp only [key]
  exact ⟨fun h => h.1, fun h => ⟨h, fun _ _ => h⟩⟩

theorem forEach_none_iff {α : Type} (f : α → Files → Option Panic × Files) (ok : α → Prop) (hf : ∀ x fs, (f x fs).1 = none ↔ ok x) (l : List α) :
    ∀ fs, (forEach f l fs).1 = none ↔ ∀ x ∈ l, ok x := by
  induction l with
  | nil => intro fs; simp [forEach]
  | cons x l ih =>
    intro fs
    simp only [forEach, List.mem_cons, forall_eq_or_imp, ← hf x fs]
    rcases hx : f x fs with ⟨_ | e, fs'⟩
    · simp [ih]
    · simp

/-- **C65** (propagators): for every configuration a caller can build, `compute_propagators` panics exactly when some chemical potential of
the grid has no phase. -/
theorem C65_compute_propagators_panics {tv cv mv : ℝ × ℝ × ℝ} {om rp f0i : ℝ} {fc : FieldConfig} {h : List ConfigOp} {c : Config}
    (hrun : ConfigOp.runAll h (Config.new tv cv mv om rp f0i fc) = some c) (P : Propagators) (fmt : ℝ → String) (filename infix_ : String) (fs : Files) :
    (compute_propagators P fmt filename infix_ c fs).1 ≠ none ↔ ∃ mu ∈ c.chempots, ¬ Runs c mu := by
  have hd := data_error_iff_runs hrun
  rw [Ne, compute_propagators, forEach_none_iff (ok := Runs c)]
  · push Not; rfl
  · intro mu fs
    have h1 : ∀ t fs, (propagatorAtT P fmt filename infix_ c mu t fs).1 = none ↔ Runs c mu := by
      intro t fs
      have := hd mu t
      unfold propagatorAtT
      cases hdd : c.data mu t with
      | error e => rw [hdd] at this; simpa using this
      | ok x => rw [hdd] at this; simpa using this
    have := hd mu 0
    cases hdd : c.data mu 0 with
    | error e => rw [hdd] at this; simpa using this
    | ok x =>
      rw [hdd] at this
      simp only [reduceCtorEq, exists_false, false_iff, not_not] at this
      simp only [this, iff_true]
      rw [forEach_none_iff (ok := fun _ => Runs c mu) (hf := h1)]
      exact fun _ _ => this

/-- **C65** (infrared limit). -/
theorem C65_compute_ir_limit_panics {tv cv mv : ℝ × ℝ × ℝ} {om rp f0i : ℝ} {fc : FieldConfig} {h : List ConfigOp} {c : Config}
    (hrun : ConfigOp.runAll h (Config.new tv cv mv om rp f0i fc) = some c) (P : Propagators) :
    (∃ e, compute_ir_limit P c = .error e) ↔ ∃ mu ∈ c.chempots, ¬ Runs c mu := by
  rw [compute_ir_limit, collect_error_iff]
  simp only [irVals_error_iff (reachable_config hrun).1, defined_iff_runs hrun]

/-- **C65** (phase diagram): `compute_phase_diagram` panics exactly when some chemical potential of the grid has no phase or the grid has
less than four chemical potentials; a panic leaves the files as they were. -/
theorem C65_compute_phase_diagram_panics {tv cv mv : ℝ × ℝ × ℝ} {om rp f0i : ℝ} {fc : FieldConfig} {h : List ConfigOp} {c : Config}
    (hrun : ConfigOp.runAll h (Config.new tv cv mv om rp f0i fc) = some c) (P : Propagators) (filename : String) (fs : Files) :
    ((∃ e, (compute_phase_diagram P filename c fs).1 = .error e) ↔ c.chempots.length < 4 ∨ ∃ mu ∈ c.chempots, ¬ Runs c mu) ∧
    ((∃ e, (compute_phase_diagram P filename c fs).1 = .error e) → (compute_phase_diagram P filename c fs).2 = fs) := by
  obtain ⟨ht, hren, -, -⟩ := reachable_config hrun
  have hc : (∃ e, collect (criticalAt P c) c.chempots = .error e) ↔ ∃ mu ∈ c.chempots, ¬ Runs c mu := by
    rw [collect_error_iff]
    simp only [criticalAt_error_iff hren ht, defined_iff_runs hrun]
  rw [← hc]
  unfold compute_phase_diagram
  cases collect (criticalAt P c) c.chempots with
  | error e => simp
  | ok tcs =>
    by_cases hl : c.chempots.length < 2 * D2W
    · have : c.chempots.length < 4 := hl
      simp [this, hl]
    · have : ¬ c.chempots.length < 4 := hl
      simp [this, hl]

/-- A configuration of four chemical potentials and three temperatures for which the scan ends, whatever the propagators. -/
example (P : Propagators) : ∃ pb fs', compute_phase_diagram P "x" (Config.new (0, 2, 1) (0, 3, 1) (0, 1, 1) 1 1 0 (FieldConfig.new 3 1 [(2, 1 / 3)])) [] = (.ok pb, fs') := by
  have h := (C65_compute_phase_diagram_panics (tv := (0, 2, 1)) (cv := (0, 3, 1)) (mv := (0, 1, 1)) (om := 1) (rp := 1) (f0i := 0)
    (fc := FieldConfig.new 3 1 [(2, 1 / 3)]) (h := []) (c := _) rfl P "x" []).1
  rcases hr : compute_phase_diagram P "x" (Config.new (0, 2, 1) (0, 3, 1) (0, 1, 1) 1 1 0 (FieldConfig.new 3 1 [(2, 1 / 3)])) [] with ⟨e | pb, fs'⟩
  · rw [hr] at h
    have := h.1 ⟨e, rfl⟩
    simp only [Config.new, compute_vec_demo.1, Runs] at this
    norm_num at this
  · exact ⟨pb, fs', rfl⟩

/-- And one for which it panics: a corrected configuration without a phase boundary. -/
example (P : Propagators) : ∃ e, (compute_phase_diagram P "x" ((Config.new (0, 2, 1) (0, 3, 1) (0, 1, 1) 1 1 0 (FieldConfig.new 3 1 [(2, 1 / 3)])).set_correctedfieldconfig
    (some (FieldConfig.new 3 1 [(2, 1 / 2)]))).1 []).1 = .error e := by
  refine ((C65_compute_phase_diagram_panics (tv := (0, 2, 1)) (cv := (0, 3, 1)) (mv := (0, 1, 1)) (om := 1) (rp := 1) (f0i := 0)
    (fc := FieldConfig.new 3 1 [(2, 1 / 3)]) (h := [.correctedfieldconfig (some (FieldConfig.new 3 1 [(2, 1 / 2)]))]) (c := _) rfl P "x" []).1).2 (Or.inr ⟨0, ?_, ?_⟩)
  · simp [ConfigOp.call, Config.set_correctedfieldconfig, Config.set_correctedf0, Config.new, corrTerms, FieldConfig.new, compute_vec_demo.1]
  · simp [Runs, ConfigOp.call, Config.set_correctedfieldconfig, Config.set_correctedf0, Config.new, corrTerms, FieldConfig.new]

/-! ### C66 -/

/-- **C66** (contents): the file `tcd2_….out` has four rows less than the phase boundary; row `i` is at the chemical potential of point
`i + 2` and holds the second difference of the critical temperature there with step twice the spacing of the grid. -/
theorem C66_second_derivative_file {tv cv mv : ℝ × ℝ × ℝ} {om rp f0i : ℝ} {fc : FieldConfig} {h : List ConfigOp} {c : Config}
    (hrun : ConfigOp.runAll h (Config.new tv cv mv om rp f0i fc) = some c) (P : Propagators) (filename : String) (fs fs' : Files)
    (pb : List (ℝ × ℝ)) (hok : compute_phase_diagram P filename c fs = (.ok pb, fs')) :
    ∃ d, Files.read fs' ("tcd2_" ++ filename ++ ".out") = some (.table d) ∧ d.length = pb.length - 4 ∧
      ∀ (i : ℕ) (a b e m0 m1 : ℝ × ℝ), pb[i]? = some a → pb[i + 2]? = some b → pb[i + 4]? = some e → pb[0]? = some m0 → pb[1]? = some m1 →
        d[i]? = some (b.1, (e.2 + a.2 - 2 * b.2) / (2 * (m1.1 - m0.1)) ^ 2) := by
  simp only [compute_phase_diagram] at hok
  split at hok
  · simp at hok
  · rename_i tcs htcs
    obtain ⟨hlen, -⟩ := collect_ok htcs
    split_ifs at hok with hl
    · simp at hok
    · simp only [Prod.mk.injEq, Except.ok.injEq] at hok
      obtain ⟨rfl, rfl⟩ := hok
      refine ⟨secondDerivative c.chempots tcs, by simp [Files.read, List.lookup], ?_, ?_⟩
      · simp [secondDerivative, hlen, D2W]; omega
      · intro i a b e m0 m1 ha hb he h0 h1
        rw [List.getElem?_zip_eq_some] at ha hb he h0 h1
        have hi : i < c.chempots.length - 2 - 2 := by
          have := (List.getElem?_eq_some_iff.1 he.1).1
          omega
        simp only [secondDerivative, D2W, List.getElem?_map, List.getElem?_range' hi, Option.map_some, Option.some.injEq, Prod.mk.injEq, List.getD_eq_getElem?_getD]
        rw [show 2 + 1 * i = i + 2 by ring, show i + 2 + 2 = i + 4 by ring, show i + 2 - 2 = i by omega, hb.1, hb.2, he.2, ha.2, h0.1, h1.1]
        refine ⟨rfl, ?_⟩
        simp only [Option.getD_some]
        push_cast
        congr 1
        ring

/-- **C66** (meaning): for a twice differentiable function the second difference is its second derivative at some point of the stencil. -/
theorem C66_second_difference_mean_value (f f' f'' : ℝ → ℝ) (x h : ℝ) (hh : 0 < h)
    (h1 : ∀ y, x - h ≤ y → y ≤ x + h → HasDerivAt f (f' y) y) (h2 : ∀ y, x - h ≤ y → y ≤ x + h → HasDerivAt f' (f'' y) y) :
    ∃ y, x - h < y ∧ y < x + h ∧ secondDifference f x h = f'' y := by
  obtain ⟨s, ⟨hs0, hs1⟩, hs⟩ := exists_ratio_hasDerivAt_eq_ratio_slope (fun t => f (x + t) + f (x - t)) (fun t => f' (x + t) - f' (x - t)) hh
    (by
      apply ContinuousOn.add
      · intro t ht
        exact ((h1 (x + t) (by linarith [ht.1]) (by linarith [ht.2])).continuousAt.comp (f := fun t => x + t) (by fun_prop)).continuousWithinAt
      · intro t ht
        exact ((h1 (x - t) (by linarith [ht.2]) (by linarith [ht.1])).continuousAt.comp (f := fun t => x - t) (by fun_prop)).continuousWithinAt)
    (by
      intro t ht
      have a := (h1 (x + t) (by linarith [ht.1]) (by linarith [ht.2])).comp t ((hasDerivAt_id t).const_add x)
      have b := (h1 (x - t) (by linarith [ht.2]) (by linarith [ht.1])).comp t ((hasDerivAt_id t).const_sub x)
      have hab := a.add b
      simp only [mul_one, mul_neg, ← sub_eq_add_neg] at hab
      exact hab)
    (fun t => t ^ 2) (fun t => 2 * t) (by fun_prop) (by intro t _; simpa using hasDerivAt_pow 2 t)
  obtain ⟨y, ⟨hy0, hy1⟩, hy⟩ := exists_hasDerivAt_eq_slope f' f'' (a := x - s) (b := x + s) (by linarith)
    (fun t ht => (h2 t (by linarith [ht.1]) (by linarith [ht.2])).continuousAt.continuousWithinAt)
    (fun t ht => h2 t (by linarith [ht.1]) (by linarith [ht.2]))
  refine ⟨y, by linarith, by linarith, ?_⟩
  rw [hy, secondDifference]
  have e1 : x + s - (x - s) = 2 * s := by ring
  rw [e1]
  simp only [add_zero, sub_zero] at hs
  field_simp
  linear_combination -hs

end Qcd.tc
