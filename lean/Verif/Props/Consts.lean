import Verif.Spec.Consts

/-! C01-C05: the global constants. -/

namespace Qcd.consts
variable {F : Type} [FloatOps F]

/-- Helper: appending a call to a history. -/
theorem after_append (h : List (Setter F)) (c : Setter F) :
    after (h ++ [c]) = (c.call (after h)).state := by
  simp [after, run, List.foldl_append]

omit [FloatOps F] in
theorem lastOr_append {A : Type} (d : A) (pick : Setter F → Option A) (h : List (Setter F))
    (c : Setter F) : lastOr d pick (h ++ [c]) = (pick c).getD (lastOr d pick h) := by
  unfold lastOr
  cases hc : pick c with
  | none => simp [List.filterMap_append, List.filterMap, hc]
  | some a => simp [List.filterMap_append, List.filterMap, hc]

theorem accepted_append (h : List (Setter F)) (c : Setter F) :
    accepted (h ++ [c]) = if rejected c then accepted h else accepted h ++ [c] := by
  unfold accepted
  cases hr : rejected c <;> simp [List.filter_append, List.filter, hr]

/-- **C03** (panics): a setter panics exactly when it is given a tolerance or regulator that is not
`> 0`, and then no constant changes. -/
theorem C03_panics_iff_rejected (c : Setter F) (s : Consts F) :
    ((c.call s).panicked = true ↔
      ((∃ t, c = .default_tol_integral t ∧ FloatOps.gt0 t = false) ∨
       (∃ r, c = .matsubara_reg r ∧ FloatOps.gt0 r = false))) ∧
    ((c.call s).panicked = true → (c.call s).state = s) := by
  cases c <;> simp [Setter.call, set_number_of_colors, set_number_of_fermions,
    set_default_quark_mass, set_default_tol_integral, set_default_max_iter_integral,
    set_matsubara_reg]
  all_goals (split <;> simp_all)

/-- `rejected` is what the code does. -/
theorem panicked_eq_rejected (c : Setter F) (s : Consts F) :
    (c.call s).panicked = rejected c := by
  cases c <;> simp [Setter.call, set_number_of_colors, set_number_of_fermions,
    set_default_quark_mass, set_default_tol_integral, set_default_max_iter_integral,
    set_matsubara_reg, rejected]
  all_goals (split <;> simp_all)

/-- **C01**: after any history of setter calls each getter returns the argument of the last call of
its setter that did not panic, or the compiled-in default. -/
theorem C01_getters_return_last_accepted (h : List (Setter F)) :
    (after h).nc = lastOr 3 pickNc (accepted h) ∧
    (after h).nf = lastOr 1 pickNf (accepted h) ∧
    (after h).m_quark = lastOr (FloatOps.lit (1 / 2)) pickMQuark (accepted h) ∧
    (after h).tol_integral = lastOr (FloatOps.lit (1 / 10 ^ 10)) pickTol (accepted h) ∧
    (after h).max_iter_integral = lastOr 50 pickMaxIter (accepted h) ∧
    (after h).matsubara_reg = lastOr (FloatOps.lit (1 / 10 ^ 5)) pickReg (accepted h) := by
  induction h using List.reverseRecOn with
  | nil => simp [after, run, init, accepted, lastOr]
  | append_singleton h c ih =>
    obtain ⟨h1, h2, h3, h4, h5, h6⟩ := ih
    rw [after_append, accepted_append]
    cases c <;> simp [Setter.call, set_number_of_colors, set_number_of_fermions,
      set_default_quark_mass, set_default_tol_integral, set_default_max_iter_integral,
      set_matsubara_reg, rejected, lastOr_append, pickNc, pickNf, pickMQuark, pickTol,
      pickMaxIter, pickReg, h1, h2, h3, h4, h5, h6]
    all_goals (split <;> simp_all [lastOr_append, pickNc, pickNf, pickMQuark, pickTol,
      pickMaxIter, pickReg])

/-- A history with an accepted and a rejected (NaN) tolerance: the getter returns the accepted one. -/
example :
    (after [.default_tol_integral (some (1 / 4)), .number_of_colors 2, .default_tol_integral none,
      .default_tol_integral (some (-1))] : Consts (Option ℚ)).tol_integral = some (1 / 4) := by
  norm_num [after, run, Setter.call, set_default_tol_integral, set_number_of_colors,
    FloatOps.gt0]

/-- **C02**: after any sequential history the ratio used to weight the quark loop is
`nf / nc` of the current values. -/
theorem C02_ratio_current (h : List (Setter F)) :
    (after h).nf_div_nc =
      FloatOps.div (FloatOps.ofU32 (after h).nf) (FloatOps.ofU32 (after h).nc) := by
  induction h using List.reverseRecOn with
  | nil => simp [after, run, init, FloatOps.lit_one, FloatOps.lit_three]
  | append_singleton h c ih =>
    rw [after_append]
    cases c <;> simp only [Setter.call, set_number_of_colors, set_number_of_fermions,
      set_default_quark_mass, set_default_tol_integral, set_default_max_iter_integral,
      set_matsubara_reg]
    all_goals first | rfl | assumption | (split <;> assumption)

/-- **C02** at exact reals: the ratio is the quotient of the arguments of the last accepted calls. -/
theorem C02_ratio_real (h : List (Setter ℝ)) :
    (after h).nf_div_nc = ((lastOr 1 pickNf h : ℕ) : ℝ) / ((lastOr 3 pickNc h : ℕ) : ℝ) := by
  have hf : ∀ {A : Type} (d : A) (pick : Setter ℝ → Option A)
      (_ : ∀ c, rejected c = true → pick c = none), lastOr d pick (accepted h) = lastOr d pick h := by
    intro A d pick hp
    induction h using List.reverseRecOn with
    | nil => rfl
    | append_singleton h c ih =>
      rw [accepted_append, lastOr_append]
      split
      · rename_i hr; rw [hp c hr, ih]; rfl
      · rw [lastOr_append, ih]
  rw [C02_ratio_current, (C01_getters_return_last_accepted h).1,
    (C01_getters_return_last_accepted h).2.1, hf _ _ (by intro c; cases c <;> simp [rejected, pickNf]),
    hf _ _ (by intro c; cases c <;> simp [rejected, pickNc])]
  rfl

example : (after [.number_of_fermions 6, .number_of_colors 2] : Consts (Option ℚ)).nf_div_nc
    = some 3 := by
  norm_num [after, run, Setter.call, set_number_of_fermions, set_number_of_colors,
    FloatOps.div, FloatOps.ofU32]

/-- **C03** (invariant): the tolerance and the regulator pass the test `> 0` after every history. -/
theorem C03_tolerances_positive (h : List (Setter F)) :
    FloatOps.gt0 (after h).tol_integral = true ∧ FloatOps.gt0 (after h).matsubara_reg = true := by
  induction h using List.reverseRecOn with
  | nil => exact ⟨FloatOps.gt0_tol, FloatOps.gt0_reg⟩
  | append_singleton h c ih =>
    rw [after_append]
    cases c <;> simp only [Setter.call, set_number_of_colors, set_number_of_fermions,
      set_default_quark_mass, set_default_tol_integral, set_default_max_iter_integral,
      set_matsubara_reg]
    all_goals first
      | exact ih
      | (split
         · rename_i hg; exact ⟨by first | exact hg | exact ih.1, by first | exact hg | exact ih.2⟩
         · exact ih)

/-- **C03** at exact reals. -/
theorem C03_tolerances_positive_real (h : List (Setter ℝ)) :
    0 < (after h).tol_integral ∧ 0 < (after h).matsubara_reg := by
  have := C03_tolerances_positive h
  simpa [FloatOps.gt0] using this

example : (Setter.call (.default_tol_integral none) (init : Consts (Option ℚ))).panicked = true := by
  norm_num [Setter.call, set_default_tol_integral, FloatOps.gt0]

/-- **C05**: the default method is G7K15 with the last accepted tolerance and iteration limit. -/
theorem C05_default_method (h : List (Setter F)) :
    get_default_integration_method (after h) =
      .G7K15 (lastOr (FloatOps.lit (1 / 10 ^ 10)) pickTol (accepted h))
        (lastOr 50 pickMaxIter (accepted h)) := by
  have := C01_getters_return_last_accepted h
  simp only [get_default_integration_method, this]

/-! ### C04: threads -/

/-- **C04** (negative): two unsynchronised setters, one per thread, both run to completion, and the
ratio is not `nf / nc`. -/
theorem C04_race :
    ∃ (prog : ℕ → List RatioCall) (sched : List ℕ),
      let m := (Machine.start prog : Machine ℝ).runSched sched
      m.Quiet ∧ (∀ i, (m.threads i).pending = []) ∧
      m.shared.nf_div_nc ≠ (m.shared.nf : ℝ) / (m.shared.nc : ℝ) := by
  refine ⟨fun i => if i = 0 then [.colors 2] else if i = 1 then [.fermions 6] else [],
    [0, 0, 0, 1, 1, 1, 1, 0], ?_⟩
  simp only [Machine.runSched, Machine.start, List.foldl, Machine.step, RatioCall.code, exec,
    Machine.Quiet]
  refine ⟨?_, ?_, ?_⟩
  · intro i
    by_cases h0 : i = 0
    · subst h0; simp
    · by_cases h1 : i = 1
      · subst h1; simp
      · simp [h0, h1]
  · intro i
    by_cases h0 : i = 0
    · subst h0; simp
    · by_cases h1 : i = 1
      · subst h1; simp
      · simp [h0, h1]
  · simp [init, FloatOps.div, FloatOps.ofU32]
    norm_num

/-- **C04** (negative): even when the setters run one at a time, another thread reading in the middle
of a call sees a ratio that does not belong to the values of `nf` and `nc` it sees. -/
theorem C04_torn_read :
    ∃ (prog : ℕ → List RatioCall) (sched : List ℕ),
      let m := (Machine.start prog : Machine ℝ).runSched sched
      MutuallyExclusive (Machine.start prog : Machine ℝ) sched ∧
      m.shared.nf_div_nc ≠ (m.shared.nf : ℝ) / (m.shared.nc : ℝ) := by
  refine ⟨fun i => if i = 0 then [.colors 2] else [], [0], ?_, ?_⟩
  · refine ⟨?_, trivial⟩
    intro j _
    simp [Machine.start]
  · simp [Machine.runSched, Machine.start, Machine.step, RatioCall.code, exec, init,
      FloatOps.div, FloatOps.lit]

/-- The ratio held in `s` is the quotient of the values held in `s`. -/
def RatioOk (s : Consts F) : Prop :=
  s.nf_div_nc = FloatOps.div (FloatOps.ofU32 s.nf) (FloatOps.ofU32 s.nc)

/-- What a thread in the middle of a call still has to do, and what it knows. -/
def MidCall (s : Consts F) (t : Thread) : Prop :=
  t.todo = [.loadNF, .loadNC, .storeRatio] ∨
  (t.todo = [.loadNC, .storeRatio] ∧ t.regNF = s.nf) ∨
  (t.todo = [.storeRatio] ∧ t.regNF = s.nf ∧ t.regNC = s.nc)

/-- The invariant: quiet and consistent, or exactly one thread mid-call. -/
def Inv (m : Machine F) : Prop :=
  (m.Quiet ∧ RatioOk m.shared) ∨
  ∃ i, MidCall m.shared (m.threads i) ∧ ∀ j, j ≠ i → (m.threads j).todo = []

theorem Inv.step {m : Machine F} (hm : Inv m) (i : ℕ)
    (hex : ∀ j, j ≠ i → (m.threads j).todo = []) : Inv (m.step i) := by
  rcases hm with ⟨hq, hr⟩ | ⟨k, hk, hoth⟩
  · -- thread i is between calls
    have hi := hq i
    cases hp : (m.threads i).pending with
    | nil =>
      left
      have : m.step i = m := by simp [Machine.step, hi, hp]
      rw [this]; exact ⟨hq, hr⟩
    | cons c cs =>
      right
      refine ⟨i, ?_, ?_⟩
      · cases c <;> simp [Machine.step, hi, hp, RatioCall.code, exec, MidCall]
      · intro j hj
        cases c <;> simp [Machine.step, hi, hp, RatioCall.code, exec, Function.update, hj, hq j]
  · -- thread k is mid-call, so i = k
    have hki : i = k := by
      by_contra hne
      have := hex k (fun h => hne h.symm)
      rcases hk with h | ⟨h, _⟩ | ⟨h, _⟩ <;> simp [h] at this
    subst hki
    rcases hk with h | ⟨h, h1⟩ | ⟨h, h1, h2⟩
    · right
      refine ⟨i, ?_, ?_⟩
      · simp [Machine.step, h, exec, MidCall]
      · intro j hj; simp [Machine.step, h, exec, Function.update, hj, hoth j hj]
    · right
      refine ⟨i, ?_, ?_⟩
      · simp [Machine.step, h, exec, MidCall, h1]
      · intro j hj; simp [Machine.step, h, exec, Function.update, hj, hoth j hj]
    · left
      refine ⟨?_, ?_⟩
      · intro j
        by_cases hj : j = i
        · subst hj; simp [Machine.step, h, exec]
        · simp [Machine.step, h, exec, Function.update, hj, hoth j hj]
      · simp [Machine.step, h, exec, RatioOk, h1, h2]

/-- **C04** (positive): under every schedule in which setter calls are mutually exclusive, for every
number of threads and every list of calls, the ratio is right whenever no setter is running. -/
theorem C04_serialised (prog : ℕ → List RatioCall) (sched : List ℕ)
    (hex : MutuallyExclusive (Machine.start prog : Machine F) sched)
    (hq : ((Machine.start prog : Machine F).runSched sched).Quiet) :
    let s := ((Machine.start prog : Machine F).runSched sched).shared
    s.nf_div_nc = FloatOps.div (FloatOps.ofU32 s.nf) (FloatOps.ofU32 s.nc) := by
  have key : ∀ (sched : List ℕ) (m : Machine F), Inv m → MutuallyExclusive m sched →
      Inv (m.runSched sched) := by
    intro sched
    induction sched with
    | nil => intro m hm _; exact hm
    | cons i rest ih => intro m hm he; exact ih _ (hm.step i he.1) he.2
  have h0 : Inv (Machine.start prog : Machine F) := by
    left
    refine ⟨fun i => rfl, ?_⟩
    simp [RatioOk, Machine.start, init, FloatOps.lit_one, FloatOps.lit_three]
  rcases key sched _ h0 hex with ⟨_, h⟩ | ⟨k, hk, _⟩
  · exact h
  · have := hq k
    rcases hk with h | ⟨h, _⟩ | ⟨h, _⟩ <;> simp [h] at this

/-- A mutually exclusive schedule of two threads exists and runs both calls. -/
example :
    let prog : ℕ → List RatioCall :=
      fun i => if i = 0 then [.colors 2] else if i = 1 then [.fermions 6] else []
    let sched := [0, 0, 0, 0, 1, 1, 1, 1]
    MutuallyExclusive (Machine.start prog : Machine (Option ℚ)) sched ∧
    ((Machine.start prog : Machine (Option ℚ)).runSched sched).shared.nf_div_nc = some 3 := by
  refine ⟨?_, ?_⟩
  · simp only [MutuallyExclusive, Machine.start, Machine.step, RatioCall.code, exec]
    refine ⟨?_, ?_, ?_, ?_, ?_, ?_, ?_, ?_, trivial⟩
    all_goals
      intro j hj
      by_cases h0 : j = 0
      · subst h0; simp at hj ⊢
      · by_cases h1 : j = 1
        · subst h1; simp at hj ⊢
        · simp [h0, h1]
  · norm_num [Machine.runSched, Machine.start, List.foldl, Machine.step, RatioCall.code, exec,
      Function.update, FloatOps.div, FloatOps.ofU32]

/-- The micro-step code of a call, run alone, does what the sequential setter does: the two models
of the setters agree. -/
theorem ratioCall_alone (c : RatioCall) (s : Consts F) (t : Thread) :
    (c.code.foldl (fun (st : Consts F × Thread) ins => exec ins st.1 st.2) (s, t)).1 =
      match c with
      | .colors n => (set_number_of_colors n s).state
      | .fermions n => (set_number_of_fermions n s).state := by
  cases c <;> simp [RatioCall.code, exec, set_number_of_colors, set_number_of_fermions]

end Qcd.consts
