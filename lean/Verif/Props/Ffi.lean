import Verif.Spec.Ffi
import Verif.Props.VacuumComplex

/-! # The C interface (C79, C80) -/

namespace Qcd
open consts Qcd.Spec

/-! ### C79 -/

theorem Ty.apply_wellTyped : ∀ (as : List Ty) {t : Ty} (f : Ty.Fn as t) (vs : List Val), vs.map Val.ty = as → ∃ x, Ty.apply as f vs = some x
  | [], _, f, [], _ => ⟨f, rfl⟩
  | a :: as, _, f, v :: vs, h => by
    simp only [List.map_cons, List.cons.injEq] at h
    obtain ⟨x, hx⟩ := Ty.apply_wellTyped as (f (h.1 ▸ v.val)) vs h.2
    exact ⟨x, by rw [Ty.apply, dif_pos h.1, hx]⟩

theorem find_of_nodup {α : Type} (key : α → String) : ∀ {l : List α}, (l.map key).Nodup → ∀ {e : α}, e ∈ l → l.find? (fun x => key x = key e) = some e
  | a :: l, hn, e, he => by
    rw [List.map_cons, List.nodup_cons] at hn
    rcases List.mem_cons.1 he with rfl | he
    · simp
    · rw [List.find?_cons_of_neg, find_of_nodup key hn.2 he]
      intro h
      simp only [decide_eq_true_eq] at h
      exact hn.1 (h ▸ List.mem_map_of_mem he)

theorem find_none {α : Type} (key : α → String) {l : List α} {s : String} (h : s ∉ l.map key) : l.find? (fun x => key x = s) = none := by
  rw [List.find?_eq_none]
  intro x hx e
  simp only [decide_eq_true_eq] at e
  exact h (e ▸ List.mem_map_of_mem hx)

/-- **C79** (no clashes): no two exported functions share a symbol, so that a name determines the function called. -/
theorem C79_symbols_distinct : symbols.Nodup := by
  decide +kernel

/-- **C79** (functions that compute): a call with arguments of the types in the header returns a value of the type in the header,
namely that of the library function in the current state of the global constants, which it does not change. -/
theorem C79_compute (e : Export) (he : e ∈ exports) (args : List Val) (hargs : args.map Val.ty = e.args) (k : Consts ℝ) :
    ∃ x, Ty.apply e.args (e.fn k) args = some x ∧ (CCall.mk e.symbol args).run k = (.value ⟨e.ret, x⟩, k) := by
  obtain ⟨x, hx⟩ := Ty.apply_wellTyped e.args (e.fn k) args hargs
  refine ⟨x, hx, ?_⟩
  have hn := (List.nodup_append.1 C79_symbols_distinct).1
  simp only [CCall.run, find_of_nodup Export.symbol hn he, hx]

/-- **C79** (setters): a setter acts like the function of the library; if its argument is rejected the process ends. -/
theorem C79_set (e : ExportSetter) (he : e ∈ setters) (x : e.arg.Carrier) (k : Consts ℝ) :
    (CCall.mk e.symbol [⟨e.arg, x⟩]).run k =
      (if ((e.setter x).call k).panicked then .abort else .void, ((e.setter x).call k).state) := by
  obtain ⟨h1, h2, h3⟩ := List.nodup_append.1 C79_symbols_distinct
  have hne : e.symbol ∉ exports.map Export.symbol := fun h => h3 _ h _ (List.mem_map_of_mem he) rfl
  simp only [CCall.run, find_none Export.symbol hne, find_of_nodup ExportSetter.symbol h2 he, dif_pos]

theorem panicked_eq (c : Setter ℝ) (k : Consts ℝ) : (c.call k).panicked = rejected c := by
  cases c <;> simp [Setter.call, set_number_of_colors, set_number_of_fermions,
    set_default_quark_mass, set_default_tol_integral, set_default_max_iter_integral, set_matsubara_reg, rejected] <;> split <;> simp_all

theorem process_append {pre : List CCall} {h : List (Setter ℝ)} (hf : Follows pre h) (hok : ∀ c ∈ h, rejected c = false) (post : List CCall) (k : Consts ℝ) :
    process (pre ++ post) k = process pre k ++ process post (run h k) ∧ (process pre k).length = pre.length := by
  induction hf generalizing k with
  | nil => simp [process, run]
  | compute e he args hargs _ ih =>
    obtain ⟨x, -, hr⟩ := C79_compute e he args hargs k
    simp only [List.cons_append, process, hr, List.length_cons, (ih hok k).1, (ih hok k).2, and_self]
  | @set cs h e he x _ ih =>
    have hr := C79_set e he x k
    rw [panicked_eq, hok _ (by simp)] at hr
    have := ih (fun c hc => hok c (by simp [hc])) ((e.setter x).call k).state
    simp only [List.cons_append, process, hr, List.length_cons]
    simpa [run] using this

/-- **C79** (histories): in every process, after calls of which no setting was rejected a function returns what it returns in the state
after these settings, made in the same order; calls that compute have no influence. -/
theorem C79_process {pre : List CCall} {h : List (Setter ℝ)} (hf : Follows pre h) (hok : ∀ c ∈ h, rejected c = false) (post : List CCall)
    (e : Export) (he : e ∈ exports) (args : List Val) (hargs : args.map Val.ty = e.args) :
    ∃ x, Ty.apply e.args (e.fn (after h)) args = some x ∧
      (process (pre ++ ⟨e.symbol, args⟩ :: post) init)[pre.length]? = some (.value ⟨e.ret, x⟩) := by
  obtain ⟨x, hx, hr⟩ := C79_compute e he args hargs (after h)
  refine ⟨x, hx, ?_⟩
  obtain ⟨h1, h2⟩ := process_append hf hok (⟨e.symbol, args⟩ :: post) init
  rw [h1, List.getElem?_append_right h2.le, h2, Nat.sub_self]
  rw [after] at hr
  simp [process, hr]

/-- **C79** (rejected settings): a tolerance or regulator that is not positive ends the process; nothing is returned afterwards. -/
theorem C79_process_rejected {pre : List CCall} {h : List (Setter ℝ)} (hf : Follows pre h) (hok : ∀ c ∈ h, rejected c = false) (post : List CCall)
    (e : ExportSetter) (he : e ∈ setters) (x : e.arg.Carrier) (hx : rejected (e.setter x) = true) :
    process (pre ++ ⟨e.symbol, [⟨e.arg, x⟩]⟩ :: post) init = process pre init ++ [.abort] := by
  have hr := C79_set e he x (run h init)
  rw [panicked_eq, hx] at hr
  rw [(process_append hf hok _ init).1]
  simp [process, hr]

/-- Colours set to 2, a computation, fermions set to 4; the ratio is 2 in `qcd__gluon__dressing_inv_landau`. -/
example : Follows [⟨"set_number_of_colors", [⟨.n, (2 : ℕ)⟩]⟩, ⟨"oneloop__gluon__f", [⟨.r, (1 : ℝ)⟩]⟩, ⟨"set_number_of_fermions", [⟨.n, (4 : ℕ)⟩]⟩]
    [.number_of_colors 2, .number_of_fermions 4] ∧ (after [.number_of_colors 2, .number_of_fermions 4] : Consts ℝ).nf_div_nc = 2 := by
  constructor
  · refine .set ⟨"set_number_of_colors", .n, .number_of_colors⟩ (by simp [setters]) 2
      (.compute ⟨"oneloop__gluon__f", [.r], .r, fun _ => ffi.oneloop__gluon__f⟩ (List.mem_of_getElem? (i := 31) rfl) _ rfl
        (.set ⟨"set_number_of_fermions", .n, .number_of_fermions⟩ (by simp [setters]) 4 .nil))
  · norm_num [after, run, Setter.call, set_number_of_colors, set_number_of_fermions, FloatOps.div, FloatOps.ofU32]

example : rejected (.matsubara_reg 0 : Setter ℝ) = true := by simp [rejected, FloatOps.gt0]

/-! ### C80 -/

/-- **C80**: at positive real momentum every function of the C interface for complex arguments returns what the one for real
arguments returns, with imaginary part zero. -/
theorem C80_real_complex (k : Consts ℝ) (s : ℝ) (hs : 0 < s) (mq : ℝ) (hmq : mq ≠ 0) (ln_s ln_s_pl_1 f0 g0 xi : ℝ) :
    ffi.oneloop__ghost__g_sep__complex (s : ℂ) (ln_s : ℂ) (ln_s_pl_1 : ℂ) = (ffi.oneloop__ghost__g_sep s ln_s ln_s_pl_1 : ℝ) ∧
    ffi.oneloop__ghost__g__complex (s : ℂ) = (ffi.oneloop__ghost__g s : ℝ) ∧
    ffi.oneloop__ghost__g_xi_sep__complex (ln_s : ℂ) = (ffi.oneloop__ghost__g_xi_sep ln_s : ℝ) ∧
    ffi.oneloop__ghost__g_xi__complex (s : ℂ) = (ffi.oneloop__ghost__g_xi s : ℝ) ∧
    ffi.ym__oneloop__ghost__dressing_inv_landau_sep__complex (s : ℂ) (ln_s : ℂ) (ln_s_pl_1 : ℂ) g0 = (ffi.ym__oneloop__ghost__dressing_inv_landau_sep s ln_s ln_s_pl_1 g0 : ℝ) ∧
    ffi.ym__oneloop__ghost__dressing_inv_sep__complex (s : ℂ) (ln_s : ℂ) (ln_s_pl_1 : ℂ) g0 xi = (ffi.ym__oneloop__ghost__dressing_inv_sep s ln_s ln_s_pl_1 g0 xi : ℝ) ∧
    ffi.oneloop__gluon__f_sep__complex (s : ℂ) (ln_s : ℂ) (ln_s_pl_1 : ℂ) = (ffi.oneloop__gluon__f_sep s ln_s ln_s_pl_1 : ℝ) ∧
    ffi.oneloop__gluon__f__complex (s : ℂ) = (ffi.oneloop__gluon__f s : ℝ) ∧
    ffi.oneloop__gluon__f_xi_sep__complex (s : ℂ) (ln_s : ℂ) (ln_s_pl_1 : ℂ) = (ffi.oneloop__gluon__f_xi_sep s ln_s ln_s_pl_1 : ℝ) ∧
    ffi.oneloop__gluon__f_xi__complex (s : ℂ) = (ffi.oneloop__gluon__f_xi s : ℝ) ∧
    ffi.oneloop__gluon__f_q__complex (s : ℂ) = (ffi.oneloop__gluon__f_q s : ℝ) ∧
    ffi.oneloop__gluon__f_q_crossed__complex (s : ℂ) = (ffi.oneloop__gluon__f_q_crossed s : ℝ) ∧
    ffi.ym__oneloop__gluon__dressing_inv_landau_sep__complex (s : ℂ) (ln_s : ℂ) (ln_s_pl_1 : ℂ) f0 = (ffi.ym__oneloop__gluon__dressing_inv_landau_sep s ln_s ln_s_pl_1 f0 : ℝ) ∧
    ffi.ym__oneloop__gluon__dressing_inv_sep__complex (s : ℂ) (ln_s : ℂ) (ln_s_pl_1 : ℂ) f0 xi = (ffi.ym__oneloop__gluon__dressing_inv_sep s ln_s ln_s_pl_1 f0 xi : ℝ) ∧
    ffi.qcd__ghost__dressing_inv_landau__complex (s : ℂ) g0 = (ffi.qcd__ghost__dressing_inv_landau s g0 : ℝ) ∧
    ffi.qcd__ghost__dressing_inv__complex (s : ℂ) g0 xi = (ffi.qcd__ghost__dressing_inv s g0 xi : ℝ) ∧
    ffi.qcd__ghost__dressing_landau__complex (s : ℂ) g0 = (ffi.qcd__ghost__dressing_landau s g0 : ℝ) ∧
    ffi.qcd__ghost__dressing__complex (s : ℂ) g0 xi = (ffi.qcd__ghost__dressing s g0 xi : ℝ) ∧
    ffi.qcd__gluon__dressing_inv_landau__complex k (s : ℂ) mq f0 = (ffi.qcd__gluon__dressing_inv_landau k s mq f0 : ℝ) ∧
    ffi.qcd__gluon__dressing_inv__complex k (s : ℂ) mq f0 xi = (ffi.qcd__gluon__dressing_inv k s mq f0 xi : ℝ) ∧
    ffi.qcd__gluon__dressing_landau__complex k (s : ℂ) mq f0 = (ffi.qcd__gluon__dressing_landau k s mq f0 : ℝ) ∧
    ffi.qcd__gluon__dressing__complex k (s : ℂ) mq f0 xi = (ffi.qcd__gluon__dressing k s mq f0 xi : ℝ) ∧
    ffi.qcd__gluon__propagator_landau__complex k (s : ℂ) mq f0 = (ffi.qcd__gluon__propagator_landau k s mq f0 : ℝ) ∧
    ffi.qcd__gluon__propagator__complex k (s : ℂ) mq f0 xi = (ffi.qcd__gluon__propagator k s mq f0 xi : ℝ) ∧
    ffi.qcd__gluon__dressing_crossed_inv_landau__complex k (s : ℂ) mq f0 = (ffi.qcd__gluon__dressing_crossed_inv_landau k s mq f0 : ℝ) ∧
    ffi.qcd__gluon__dressing_crossed_inv__complex k (s : ℂ) mq f0 xi = (ffi.qcd__gluon__dressing_crossed_inv k s mq f0 xi : ℝ) ∧
    ffi.qcd__gluon__dressing_crossed_landau__complex k (s : ℂ) mq f0 = (ffi.qcd__gluon__dressing_crossed_landau k s mq f0 : ℝ) ∧
    ffi.qcd__gluon__dressing_crossed__complex k (s : ℂ) mq f0 xi = (ffi.qcd__gluon__dressing_crossed k s mq f0 xi : ℝ) ∧
    ffi.qcd__gluon__propagator_crossed_landau__complex k (s : ℂ) mq f0 = (ffi.qcd__gluon__propagator_crossed_landau k s mq f0 : ℝ) ∧
    ffi.qcd__gluon__propagator_crossed__complex k (s : ℂ) mq f0 xi = (ffi.qcd__gluon__propagator_crossed k s mq f0 xi : ℝ) ∧
    ffi.ym__ghost__dressing_inv_landau__complex (s : ℂ) g0 = (ffi.ym__ghost__dressing_inv_landau s g0 : ℝ) ∧
    ffi.ym__ghost__dressing_inv__complex (s : ℂ) g0 xi = (ffi.ym__ghost__dressing_inv s g0 xi : ℝ) ∧
    ffi.ym__ghost__dressing_landau__complex (s : ℂ) g0 = (ffi.ym__ghost__dressing_landau s g0 : ℝ) ∧
    ffi.ym__ghost__dressing__complex (s : ℂ) g0 xi = (ffi.ym__ghost__dressing s g0 xi : ℝ) ∧
    ffi.ym__ghost__propagator_landau__complex (s : ℂ) g0 = (ffi.ym__ghost__propagator_landau s g0 : ℝ) ∧
    ffi.ym__ghost__propagator__complex (s : ℂ) g0 xi = (ffi.ym__ghost__propagator s g0 xi : ℝ) ∧
    ffi.ym__gluon__dressing_inv_landau__complex (s : ℂ) f0 = (ffi.ym__gluon__dressing_inv_landau s f0 : ℝ) ∧
    ffi.ym__gluon__dressing_inv__complex (s : ℂ) f0 xi = (ffi.ym__gluon__dressing_inv s f0 xi : ℝ) ∧
    ffi.ym__gluon__dressing_landau__complex (s : ℂ) f0 = (ffi.ym__gluon__dressing_landau s f0 : ℝ) ∧
    ffi.ym__gluon__dressing__complex (s : ℂ) f0 xi = (ffi.ym__gluon__dressing s f0 xi : ℝ) ∧
    ffi.ym__gluon__propagator_landau__complex (s : ℂ) f0 = (ffi.ym__gluon__propagator_landau s f0 : ℝ) ∧
    ffi.ym__gluon__propagator__complex (s : ℂ) f0 xi = (ffi.ym__gluon__propagator s f0 xi : ℝ) := by
  have hsq : 0 < s / (mq * mq) := div_pos hs (mul_self_pos.2 hmq)
  have hl := C21_loops s hs
  have hlq := C21_loops (s / (mq * mq)) hsq
  simp only [loopValues, List.map_cons, List.map_nil, List.cons.injEq, and_true] at hl hlq
  obtain ⟨l1, l2, l3, l4, l5, l6⟩ := hl
  obtain ⟨-, -, -, -, q5, q6⟩ := hlq
  push_cast at q5 q6
  have eG : ∀ g0 : ℝ, ghost.dressing_inv_landau (s : ℂ) g0 = (ghost.dressing_inv_landau s g0 : ℝ) := by
    intro g0
    have : ∀ {T : Type} [NumOps T] (x : T), ghost.dressing_inv_landau x g0 = ghost.g x + ofR g0 := fun _ => rfl
    rw [this, this, l1]; push_cast; rfl
  have eGx : ∀ g0 xi : ℝ, ghost.dressing_inv (s : ℂ) g0 xi = (ghost.dressing_inv s g0 xi : ℝ) := by
    intro g0 xi
    have : ∀ {T : Type} [NumOps T] (x : T), ghost.dressing_inv x g0 xi = ghost.g x + ofR g0 + ghost.g_xi x * ofR xi := fun _ => rfl
    rw [this, this, l1, l2]; push_cast; rfl
  have eF : ∀ f0 : ℝ, ym.gluon.dressing_inv_landau (s : ℂ) f0 = (ym.gluon.dressing_inv_landau s f0 : ℝ) := by
    intro f0
    have : ∀ {T : Type} [NumOps T] (x : T), ym.gluon.dressing_inv_landau x f0 = gluon.f x + ofR f0 := fun _ => rfl
    rw [this, this, l3]; push_cast; rfl
  have eFx : ∀ f0 xi : ℝ, ym.gluon.dressing_inv (s : ℂ) f0 xi = (ym.gluon.dressing_inv s f0 xi : ℝ) := by
    intro f0 xi
    have : ∀ {T : Type} [NumOps T] (x : T), ym.gluon.dressing_inv x f0 xi = gluon.f x + ofR f0 + gluon.f_xi x * ofR xi := fun _ => rfl
    rw [this, this, l3, l4]; push_cast; rfl
  have eQ : qcd.gluon.dressing_inv_landau k (s : ℂ) mq f0 = (qcd.gluon.dressing_inv_landau k s mq f0 : ℝ) := by
    have : ∀ {T : Type} [NumOps T] (x : T), qcd.gluon.dressing_inv_landau k x mq f0 =
      ym.gluon.dressing_inv_landau x f0 + gluon.f_q (x / ofR (mq * mq)) * ofR k.nf_div_nc := fun _ => rfl
    rw [this, this, eF]; simp only [ofR_complex, ofR_real]; push_cast; rw [q5]
  have eQx : qcd.gluon.dressing_inv k (s : ℂ) mq f0 xi = (qcd.gluon.dressing_inv k s mq f0 xi : ℝ) := by
    have : ∀ {T : Type} [NumOps T] (x : T), qcd.gluon.dressing_inv k x mq f0 xi =
      ym.gluon.dressing_inv x f0 xi + gluon.f_q (x / ofR (mq * mq)) * ofR k.nf_div_nc := fun _ => rfl
    rw [this, this, eFx]; simp only [ofR_complex, ofR_real]; push_cast; rw [q5]
  have eC : qcd.gluon.dressing_crossed_inv_landau k (s : ℂ) mq f0 = (qcd.gluon.dressing_crossed_inv_landau k s mq f0 : ℝ) := by
    have : ∀ {T : Type} [NumOps T] (x : T), qcd.gluon.dressing_crossed_inv_landau k x mq f0 =
      ym.gluon.dressing_inv_landau x f0 + gluon.f_q_crossed (x / ofR (mq * mq)) * ofR k.nf_div_nc := fun _ => rfl
    rw [this, this, eF]; simp only [ofR_complex, ofR_real]; push_cast; rw [q6]
  have eCx : qcd.gluon.dressing_crossed_inv k (s : ℂ) mq f0 xi = (qcd.gluon.dressing_crossed_inv k s mq f0 xi : ℝ) := by
    have : ∀ {T : Type} [NumOps T] (x : T), qcd.gluon.dressing_crossed_inv k x mq f0 xi =
      ym.gluon.dressing_inv x f0 xi + gluon.f_q_crossed (x / ofR (mq * mq)) * ofR k.nf_div_nc := fun _ => rfl
    rw [this, this, eFx]; simp only [ofR_complex, ofR_real]; push_cast; rw [q6]
  have h2 : 0 ≤ s⁻¹ * 4 + 1 := by positivity
  have ha : 1 < Real.sqrt (s⁻¹ * 4 + 1) := by
    rw [Real.lt_sqrt (by norm_num)]; nlinarith [inv_pos.2 hs]
  have e3 : csqrt ((s : ℂ)⁻¹ * 4 + 1) = ((Real.sqrt (s⁻¹ * 4 + 1) : ℝ) : ℂ) := by
    rw [← csqrt_ofReal h2]; simp
  have e4 : Complex.log ((((Real.sqrt (s⁻¹ * 4 + 1) : ℝ) : ℂ) - 1) / 2)
      = ((Real.log ((Real.sqrt (s⁻¹ * 4 + 1) - 1) / 2) : ℝ) : ℂ) := by
    rw [Complex.ofReal_log (by linarith)]; simp
  refine ⟨?_, ?_, ?_, ?_, ?_, ?_, ?_, ?_, ?_, ?_, ?_, ?_, ?_, ?_, ?_, ?_, ?_, ?_, ?_, ?_, ?_, ?_, ?_, ?_, ?_, ?_, ?_, ?_, ?_, ?_, ?_, ?_, ?_, ?_, ?_, ?_, ?_, ?_, ?_, ?_, ?_, ?_⟩
  · simp [ffi.oneloop__ghost__g_sep__complex, ffi.oneloop__ghost__g_sep, gluon.ym_dressing_inv_landau_sep, gluon.ym_dressing_inv_sep, ghost.dressing_inv_landau_sep, ghost.dressing_inv_sep, ghost.g_sep, ghost.g_xi_sep, ghost.l_g, ghost.r_g, gluon.f_sep, gluon.f_xi_sep, gluon.l_a, gluon.l_b, gluon.l_c, gluon.r_a, gluon.r_b, gluon.r_c, e3, e4]
  · simp only [ffi.oneloop__ghost__g__complex, ffi.oneloop__ghost__g, l1]
  · simp [ffi.oneloop__ghost__g_xi_sep__complex, ffi.oneloop__ghost__g_xi_sep, gluon.ym_dressing_inv_landau_sep, gluon.ym_dressing_inv_sep, ghost.dressing_inv_landau_sep, ghost.dressing_inv_sep, ghost.g_sep, ghost.g_xi_sep, ghost.l_g, ghost.r_g, gluon.f_sep, gluon.f_xi_sep, gluon.l_a, gluon.l_b, gluon.l_c, gluon.r_a, gluon.r_b, gluon.r_c, e3, e4]
  · simp only [ffi.oneloop__ghost__g_xi__complex, ffi.oneloop__ghost__g_xi, l2]
  · simp [ffi.ym__oneloop__ghost__dressing_inv_landau_sep__complex, ffi.ym__oneloop__ghost__dressing_inv_landau_sep, gluon.ym_dressing_inv_landau_sep, gluon.ym_dressing_inv_sep, ghost.dressing_inv_landau_sep, ghost.dressing_inv_sep, ghost.g_sep, ghost.g_xi_sep, ghost.l_g, ghost.r_g, gluon.f_sep, gluon.f_xi_sep, gluon.l_a, gluon.l_b, gluon.l_c, gluon.r_a, gluon.r_b, gluon.r_c, e3, e4]
  · simp [ffi.ym__oneloop__ghost__dressing_inv_sep__complex, ffi.ym__oneloop__ghost__dressing_inv_sep, gluon.ym_dressing_inv_landau_sep, gluon.ym_dressing_inv_sep, ghost.dressing_inv_landau_sep, ghost.dressing_inv_sep, ghost.g_sep, ghost.g_xi_sep, ghost.l_g, ghost.r_g, gluon.f_sep, gluon.f_xi_sep, gluon.l_a, gluon.l_b, gluon.l_c, gluon.r_a, gluon.r_b, gluon.r_c, e3, e4]
  · simp [ffi.oneloop__gluon__f_sep__complex, ffi.oneloop__gluon__f_sep, gluon.ym_dressing_inv_landau_sep, gluon.ym_dressing_inv_sep, ghost.dressing_inv_landau_sep, ghost.dressing_inv_sep, ghost.g_sep, ghost.g_xi_sep, ghost.l_g, ghost.r_g, gluon.f_sep, gluon.f_xi_sep, gluon.l_a, gluon.l_b, gluon.l_c, gluon.r_a, gluon.r_b, gluon.r_c, e3, e4]
  · simp only [ffi.oneloop__gluon__f__complex, ffi.oneloop__gluon__f, l3]
  · simp [ffi.oneloop__gluon__f_xi_sep__complex, ffi.oneloop__gluon__f_xi_sep, gluon.ym_dressing_inv_landau_sep, gluon.ym_dressing_inv_sep, ghost.dressing_inv_landau_sep, ghost.dressing_inv_sep, ghost.g_sep, ghost.g_xi_sep, ghost.l_g, ghost.r_g, gluon.f_sep, gluon.f_xi_sep, gluon.l_a, gluon.l_b, gluon.l_c, gluon.r_a, gluon.r_b, gluon.r_c, e3, e4]
  · simp only [ffi.oneloop__gluon__f_xi__complex, ffi.oneloop__gluon__f_xi, l4]
  · simp only [ffi.oneloop__gluon__f_q__complex, ffi.oneloop__gluon__f_q, l5]
  · simp only [ffi.oneloop__gluon__f_q_crossed__complex, ffi.oneloop__gluon__f_q_crossed, l6]
  · simp [ffi.ym__oneloop__gluon__dressing_inv_landau_sep__complex, ffi.ym__oneloop__gluon__dressing_inv_landau_sep, gluon.ym_dressing_inv_landau_sep, gluon.ym_dressing_inv_sep, ghost.dressing_inv_landau_sep, ghost.dressing_inv_sep, ghost.g_sep, ghost.g_xi_sep, ghost.l_g, ghost.r_g, gluon.f_sep, gluon.f_xi_sep, gluon.l_a, gluon.l_b, gluon.l_c, gluon.r_a, gluon.r_b, gluon.r_c, e3, e4]
  · simp [ffi.ym__oneloop__gluon__dressing_inv_sep__complex, ffi.ym__oneloop__gluon__dressing_inv_sep, gluon.ym_dressing_inv_landau_sep, gluon.ym_dressing_inv_sep, ghost.dressing_inv_landau_sep, ghost.dressing_inv_sep, ghost.g_sep, ghost.g_xi_sep, ghost.l_g, ghost.r_g, gluon.f_sep, gluon.f_xi_sep, gluon.l_a, gluon.l_b, gluon.l_c, gluon.r_a, gluon.r_b, gluon.r_c, e3, e4]
  · simp only [ffi.qcd__ghost__dressing_inv_landau__complex, ffi.qcd__ghost__dressing_inv_landau, eG]
  · simp only [ffi.qcd__ghost__dressing_inv__complex, ffi.qcd__ghost__dressing_inv, eGx]
  · simp only [ffi.qcd__ghost__dressing_landau__complex, ffi.qcd__ghost__dressing_landau, ghost.dressing_landau, eG]; push_cast; rfl
  · simp only [ffi.qcd__ghost__dressing__complex, ffi.qcd__ghost__dressing, ghost.dressing, eGx]; push_cast; rfl
  · simp only [ffi.qcd__gluon__dressing_inv_landau__complex, ffi.qcd__gluon__dressing_inv_landau, eQ]
  · simp only [ffi.qcd__gluon__dressing_inv__complex, ffi.qcd__gluon__dressing_inv, eQx]
  · simp only [ffi.qcd__gluon__dressing_landau__complex, ffi.qcd__gluon__dressing_landau, qcd.gluon.dressing_landau, eQ]; push_cast; rfl
  · simp only [ffi.qcd__gluon__dressing__complex, ffi.qcd__gluon__dressing, qcd.gluon.dressing, eQx]; push_cast; rfl
  · simp only [ffi.qcd__gluon__propagator_landau__complex, ffi.qcd__gluon__propagator_landau, qcd.gluon.propagator_landau, qcd.gluon.dressing_landau, eQ]; push_cast; rfl
  · simp only [ffi.qcd__gluon__propagator__complex, ffi.qcd__gluon__propagator, qcd.gluon.propagator, qcd.gluon.dressing, eQx]; push_cast; rfl
  · simp only [ffi.qcd__gluon__dressing_crossed_inv_landau__complex, ffi.qcd__gluon__dressing_crossed_inv_landau, eC]
  · simp only [ffi.qcd__gluon__dressing_crossed_inv__complex, ffi.qcd__gluon__dressing_crossed_inv, eCx]
  · simp only [ffi.qcd__gluon__dressing_crossed_landau__complex, ffi.qcd__gluon__dressing_crossed_landau, qcd.gluon.dressing_crossed_landau, eC]; push_cast; rfl
  · simp only [ffi.qcd__gluon__dressing_crossed__complex, ffi.qcd__gluon__dressing_crossed, qcd.gluon.dressing_crossed, eCx]; push_cast; rfl
  · simp only [ffi.qcd__gluon__propagator_crossed_landau__complex, ffi.qcd__gluon__propagator_crossed_landau, qcd.gluon.propagator_crossed_landau, qcd.gluon.dressing_crossed_landau, eC]; push_cast; rfl
  · simp only [ffi.qcd__gluon__propagator_crossed__complex, ffi.qcd__gluon__propagator_crossed, qcd.gluon.propagator_crossed, qcd.gluon.dressing_crossed, eCx]; push_cast; rfl
  · simp only [ffi.ym__ghost__dressing_inv_landau__complex, ffi.ym__ghost__dressing_inv_landau, eG]
  · simp only [ffi.ym__ghost__dressing_inv__complex, ffi.ym__ghost__dressing_inv, eGx]
  · simp only [ffi.ym__ghost__dressing_landau__complex, ffi.ym__ghost__dressing_landau, ghost.dressing_landau, eG]; push_cast; rfl
  · simp only [ffi.ym__ghost__dressing__complex, ffi.ym__ghost__dressing, ghost.dressing, eGx]; push_cast; rfl
  · simp only [ffi.ym__ghost__propagator_landau__complex, ffi.ym__ghost__propagator_landau, ghost.propagator_landau, ghost.dressing_landau, eG]; push_cast; rfl
  · simp only [ffi.ym__ghost__propagator__complex, ffi.ym__ghost__propagator, ghost.propagator, ghost.dressing, eGx]; push_cast; rfl
  · simp only [ffi.ym__gluon__dressing_inv_landau__complex, ffi.ym__gluon__dressing_inv_landau, eF]
  · simp only [ffi.ym__gluon__dressing_inv__complex, ffi.ym__gluon__dressing_inv, eFx]
  · simp only [ffi.ym__gluon__dressing_landau__complex, ffi.ym__gluon__dressing_landau, ym.gluon.dressing_landau, eF]; push_cast; rfl
  · simp only [ffi.ym__gluon__dressing__complex, ffi.ym__gluon__dressing, ym.gluon.dressing, eFx]; push_cast; rfl
  · simp only [ffi.ym__gluon__propagator_landau__complex, ffi.ym__gluon__propagator_landau, ym.gluon.propagator_landau, ym.gluon.dressing_landau, eF]; push_cast; rfl
  · simp only [ffi.ym__gluon__propagator__complex, ffi.ym__gluon__propagator, ym.gluon.propagator, ym.gluon.dressing, eFx]; push_cast; rfl

example : ffi.qcd__gluon__propagator__complex init ((2 : ℝ) : ℂ) 0.5 (-0.876) 0.1 = (ffi.qcd__gluon__propagator init 2 0.5 (-0.876) 0.1 : ℝ) :=
  (C80_real_complex init 2 (by norm_num) 0.5 (by norm_num) 0 0 (-0.876) 0 0.1).2.2.2.2.2.2.2.2.2.2.2.2.2.2.2.2.2.2.2.2.2.2.2.1
end Qcd
