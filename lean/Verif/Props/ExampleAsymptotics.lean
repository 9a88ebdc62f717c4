import Verif.Model.ExampleAsymptotics
import Verif.Spec.Overall
import Verif.Props.Consts
import Verif.Props.DenseGluon
import Verif.Props.ExampleHtl
import Mathlib.Analysis.Complex.ExponentialBounds

/-! # C100: the comparison of the gluon propagator with the hard-thermal-loop mass

`examples/qcd_gluon_propagator_asymptotics.rs`. -/

namespace Qcd
open consts (Consts Setter after)
open examples.qcd_gluon_propagator_asymptotics
open Filter Topology

/-- The constants with the numbers of colors and fermions that the test sets. -/
noncomputable def withNumbers (k : Consts ℝ) (nc nf : ℕ) : Consts ℝ := { k with nc := nc, nf := nf, nf_div_nc := (nf : ℝ) / nc }

/-- **C100**: after any history of calls of the setters, the test returns the logarithm of the propagator with the numbers of colors and fermions
that it is given, and leaves the constants as they were. -/
theorem C100_test (ig : Integrator) (t mu : ℝ) (nc nf : ℕ) (h : List (Setter ℝ)) :
    (asymptotics_test ig t mu nc nf).run (after h) =
      (-Real.log ((qcd.thermal.gluon.propagator_l_landau ig (withNumbers (after h) nc nf) (1 / 1000 : ℝ) (1 / 1000) (3 / 10) (after h).m_quark
        (1 / t) mu (15 / 10)).re / nc), after h) := by
  have e := consts.C02_ratio_current h
  generalize after h = k at e
  obtain ⟨c, f, r, mq, tol, it, reg⟩ := k
  simp only [consts.FloatOps.div, consts.FloatOps.ofU32] at e
  subst e
  rfl

theorem mapM_restoring {A B S : Type} (f : A → StateM S B) (g : A → B) (s : S) (h : ∀ a, (f a).run s = (g a, s)) (l : List A) :
    (l.mapM f).run s = (l.map g, s) := by
  induction l with
  | nil => rfl
  | cons a l ih =>
    simp only [List.mapM_cons, List.map_cons, StateT.run_bind, h, StateT.run_pure]
    exact congrArg (fun q : List B × S => (g a :: q.1, q.2)) ih

/-- The value of the test, as in `C100_test`. -/
noncomputable def testValue (ig : Integrator) (k : Consts ℝ) (t mu : ℝ) (nc nf : ℕ) : ℝ :=
  -Real.log ((qcd.thermal.gluon.propagator_l_landau ig (withNumbers k nc nf) (1 / 1000 : ℝ) (1 / 1000) (3 / 10) k.m_quark (1 / t) mu (15 / 10)).re / nc)

/-- The curves and labels of a plot: for each `nf` and `nc` the known function and the test. -/
noncomputable def curves (ig : Integrator) (k : Consts ℝ) (domain : List ℝ) (pt : ℝ → ℝ × ℝ) : List (List ℝ × String) :=
  [(1, 2), (1, 3), (1, 5), (2, 2), (2, 3), (2, 5)].flatMap fun (nf, nc) =>
    [(domain.map fun x => asymptotics_known (pt x).1 (pt x).2 nc nf (202 / 100), s!"nf = {nf}, nc = {nc} (known)"),
     (domain.map fun x => testValue ig k (pt x).1 (pt x).2 nc nf, s!"nf = {nf}, nc = {nc} (test)")]

theorem body_run (ig : Integrator) (domain : List ℝ) (pt : ℝ → ℝ × ℝ) (nf nc : ℕ) (h : List (Setter ℝ)) :
    (body ig domain pt nf nc).run (after h) =
      ([(domain.map fun x => asymptotics_known (pt x).1 (pt x).2 nc nf (202 / 100), s!"nf = {nf}, nc = {nc} (known)"),
        (domain.map fun x => testValue ig (after h) (pt x).1 (pt x).2 nc nf, s!"nf = {nf}, nc = {nc} (test)")], after h) := by
  have e := mapM_restoring (fun x => do
    let y1 := asymptotics_known (pt x).1 (pt x).2 nc nf rem
    let y2 ← asymptotics_test ig (pt x).1 (pt x).2 nc nf
    return (y1, y2)) (fun x => (asymptotics_known (pt x).1 (pt x).2 nc nf rem, testValue ig (after h) (pt x).1 (pt x).2 nc nf)) (after h)
    (fun x => by
      simp only [StateT.run_bind, C100_test]
      rfl) domain
  simp only [body, StateT.run_bind, e]
  show (_, _) = _
  simp only [List.map_map, Function.comp_def, rem]

theorem plot_run (ig : Integrator) (path : String) (domain : List ℝ) (pt : ℝ → ℝ × ℝ) (h : List (Setter ℝ)) :
    (plot ig path domain pt).run (after h) =
      ({ path := path, domain := domain, legend := (curves ig (after h) domain pt).map Prod.snd,
         images := (curves ig (after h) domain pt).map Prod.fst }, after h) := by
  have e := mapM_restoring (fun x : ℕ × ℕ => body ig domain pt x.1 x.2)
    (fun x => [(domain.map fun y => asymptotics_known (pt y).1 (pt y).2 x.2 x.1 (202 / 100), s!"nf = {x.1}, nc = {x.2} (known)"),
        (domain.map fun y => testValue ig (after h) (pt y).1 (pt y).2 x.2 x.1, s!"nf = {x.1}, nc = {x.2} (test)")]) (after h)
    (fun x => body_run ig domain pt x.1 x.2 h) ([1, 2].flatMap fun nf => [2, 3, 5].map fun nc => (nf, nc))
  simp only [plot, StateT.run_bind, e]
  rfl

theorem two_runs {A S : Type} {f g : StateM S A} {s : S} {a b : A} (hf : f.run s = (a, s)) (hg : g.run s = (b, s)) :
    (do
      let x ← f
      let y ← g
      return [x, y] : StateM S (List A)).run s = ([a, b], s) := by
  simp only [StateT.run_bind, hf]
  exact congrArg (fun q : A × S => ([a, q.1], q.2)) hg

theorem modify_run {A S : Type} (f : S → S) (x : StateM S A) (s : S) : (do modify f; x : StateM S A).run s = x.run (f s) := rfl

theorem main_run {ig : Integrator} {k k' : Consts ℝ} {a b : tc.Plot} (hk : (consts.set_default_tol_integral (1 / 10000) k).state = k')
    (ha : (plot ig "target/qcd_gluon_propagator_asymptotics_temperature.png" points fun t => (t, 3)).run k' = (a, k'))
    (hb : (plot ig "target/qcd_gluon_propagator_asymptotics_chempot.png" points fun mu => (3, mu)).run k' = (b, k')) :
    (main ig).run k = ([a, b], k') := by
  rw [main, modify_run, hk]
  exact two_runs ha hb

/-- **C100**: a run of the program, after any history of calls of the setters, changes the default tolerance of the integrals and no other constant,
and draws the curves of `curves` against the temperature and against the chemical potential. -/
theorem C100_main (ig : Integrator) (h : List (Setter ℝ)) :
    (main ig).run (after h) =
      ([{ path := "target/qcd_gluon_propagator_asymptotics_temperature.png", domain := [8, 12, 15, 20],
          legend := (curves ig (after (h ++ [.default_tol_integral (1 / 10000)])) [8, 12, 15, 20] (fun t => (t, 3))).map Prod.snd,
          images := (curves ig (after (h ++ [.default_tol_integral (1 / 10000)])) [8, 12, 15, 20] (fun t => (t, 3))).map Prod.fst },
        { path := "target/qcd_gluon_propagator_asymptotics_chempot.png", domain := [8, 12, 15, 20],
          legend := (curves ig (after (h ++ [.default_tol_integral (1 / 10000)])) [8, 12, 15, 20] (fun mu => (3, mu))).map Prod.snd,
          images := (curves ig (after (h ++ [.default_tol_integral (1 / 10000)])) [8, 12, 15, 20] (fun mu => (3, mu))).map Prod.fst }],
        { after h with tol_integral := 1 / 10000 }) := by
  have e0 : (consts.set_default_tol_integral (1 / 10000) (after h)).state = after (h ++ [.default_tol_integral (1 / 10000)]) := by
    simp only [consts.after, consts.run, List.foldl_append, List.foldl_cons, List.foldl_nil, Setter.call]
  have e1 : after (h ++ [.default_tol_integral (1 / 10000)]) = { after h with tol_integral := 1 / 10000 } := by
    rw [← e0]
    simp [consts.set_default_tol_integral, consts.FloatOps.gt0]
  have h1 := plot_run ig "target/qcd_gluon_propagator_asymptotics_temperature.png" points (fun t => (t, 3)) (h ++ [.default_tol_integral (1 / 10000)])
  have h2 := plot_run ig "target/qcd_gluon_propagator_asymptotics_chempot.png" points (fun mu => (3, mu)) (h ++ [.default_tol_integral (1 / 10000)])
  rw [← e1]
  exact main_run e0 h1 h2

/-- **C100**: the plots can be drawn, and each has twelve curves. -/
theorem C100_plots (ig : Integrator) (h : List (Setter ℝ)) :
    ∀ pl ∈ ((main ig).run (after h)).1, tc.Spec.Plot.WellFormed pl ∧ pl.images.length = 12 := by
  rw [C100_main]
  intro pl hpl
  simp only [List.mem_cons, List.not_mem_nil, or_false] at hpl
  rcases hpl with rfl | rfl
  all_goals
    refine ⟨⟨?_, Or.inr (by simp)⟩, by simp [curves]⟩
    intro im him
    simp only [curves, List.mem_map, List.mem_flatMap] at him
    obtain ⟨a, ⟨b, -, hb⟩, rfl⟩ := him
    simp only [List.mem_cons, List.not_mem_nil, or_false] at hb
    rcases hb with rfl | rfl <;> simp

/-! ## The two functions differ by a constant -/

/-- The limit of the difference of the logarithms. -/
theorem log_difference {l : Filter ℝ} {D : ℝ → ℂ} {s K : ℝ → ℝ} {c a r : ℝ} (hc : 0 < c) (ha : 0 < a) (hr : 0 < r)
    (hs : ∀ᶠ x in l, s x ≠ 0) (hD : Tendsto (fun x => (s x : ℂ) ^ 2 * D x) l (𝓝 (((a / c * r : ℝ) : ℂ))⁻¹))
    (hK : Tendsto (fun x => K x / s x ^ 2) l (𝓝 a)) :
    Tendsto (fun x => -Real.log ((D x).re / c) - Real.log (K x)) l (𝓝 (Real.log r)) := by
  have h1 : Tendsto (fun x => s x ^ 2 * (D x).re) l (𝓝 (a / c * r)⁻¹) := by
    have := (Complex.continuous_re.tendsto _).comp hD
    rw [← Complex.ofReal_inv, Complex.ofReal_re] at this
    refine this.congr fun x => ?_
    simp only [Function.comp_apply, ← Complex.ofReal_pow, Complex.re_ofReal_mul]
  have h2 := (h1.div_const c).mul hK
  rw [show (a / c * r)⁻¹ / c * a = r⁻¹ by field_simp] at h2
  have h3 := (h2.log (inv_pos.2 hr).ne').neg
  rw [Real.log_inv, neg_neg] at h3
  refine h3.congr' ?_
  filter_upwards [hs, h2.eventually_ne (inv_pos.2 hr).ne'] with x hx hne
  have e : s x ^ 2 * (D x).re / c * (K x / s x ^ 2) = (D x).re / c * K x := by field_simp
  rw [e] at hne ⊢
  rw [Real.log_mul (left_ne_zero_of_mul hne) (right_ne_zero_of_mul hne)]
  ring

/-- The constant: the logarithm of `16π²/3` times the hard-thermal-loop function of the program's frequency and momentum at `T = 1`. -/
noncomputable def gap : ℝ := Real.log (16 * Real.pi ^ 2 / 3 * (2 / 3 * (1 - Real.pi / 4)))

theorem htl_point (t2 : ℝ) : Spec.htl_l (1 / 1000) (1 / 1000) t2 = ((t2 * (2 / 3 * (1 - Real.pi / 4)) : ℝ) : ℂ) := by
  rw [htl_l_arctan (by norm_num) (by norm_num), show (1 / 1000 : ℝ) / (1 / 1000) = 1 by norm_num, Real.arctan_one]
  congr 1
  ring

theorem gap_pos : 0 < 16 * Real.pi ^ 2 / 3 * (2 / 3 * (1 - Real.pi / 4)) := by
  have := Real.pi_lt_four
  have h := Real.pi_pos
  have : 0 < 1 - Real.pi / 4 := by linarith
  positivity

/-- **C100**: as the temperature goes to infinity, with the chemical potential fixed or proportional to it in the limit, the test and the known function
differ by a constant that depends neither on the numbers of colors and fermions nor on the ratio of chemical potential and temperature. -/
theorem C100_high_temperature {nc : ℕ} (hc : nc ≠ 0) (nf : ℕ) (rem : ℝ) {mu : ℝ → ℝ} {v : ℝ} (hmu : Tendsto (fun T => mu T / T) atTop (𝓝 v)) (k : Consts ℝ) :
    Tendsto (fun T => ((asymptotics_test .exact T (mu T) nc nf).run k).1 - asymptotics_known T (mu T) nc nf rem) atTop (𝓝 (gap - rem)) := by
  have hc' : (0 : ℝ) < nc := Nat.cast_pos.2 (Nat.pos_of_ne_zero hc)
  have hpi := Real.pi_pos
  have h := C98_qcd_propagator_l (om := 1 / 1000) (p := 1 / 1000) (m := 3 / 10) (by norm_num) (by norm_num) (by norm_num) k.m_quark (withNumbers k nc nf) hc hmu (15 / 10)
  have h' := log_difference (l := atTop) (s := fun T => T) (K := fun T => ((nc : ℝ) + nf / 2) * T * T + 3 * nf * mu T * mu T / (2 * Real.pi * Real.pi)) (c := nc)
    (a := nc + nf / 2 * (1 + 3 * v ^ 2 / Real.pi ^ 2)) hc' (by positivity) gap_pos (eventually_ne_atTop 0) (by
      convert h using 2
      rw [htl_point, htl_point]
      simp only [withNumbers]
      have : (nc : ℂ) ≠ 0 := Nat.cast_ne_zero.2 hc
      push_cast
      field_simp) (by
      have e := (hmu.mul hmu).const_mul (3 * (nf : ℝ) / (2 * Real.pi * Real.pi))
      have e' := e.const_add ((nc : ℝ) + nf / 2)
      rw [show (nc : ℝ) + nf / 2 + 3 * nf / (2 * Real.pi * Real.pi) * (v * v) = nc + nf / 2 * (1 + 3 * v ^ 2 / Real.pi ^ 2) by field_simp; ring] at e'
      refine e'.congr' ?_
      filter_upwards [eventually_ne_atTop 0] with T hT
      field_simp)
  refine (h'.sub_const rem).congr fun T => ?_
  have e : ((asymptotics_test .exact T (mu T) nc nf).run k).1 = -Real.log ((qcd.thermal.gluon.propagator_l_landau .exact (withNumbers k nc nf)
    (1 / 1000 : ℝ) (1 / 1000) (3 / 10) k.m_quark (1 / T) (mu T) (15 / 10)).re / nc) := rfl
  rw [e, one_div T]
  simp only [asymptotics_known]
  ring

/-- **C100**: the same constant as the chemical potential goes to infinity at any fixed temperature, with at least one fermion. -/
theorem C100_high_density {nc nf : ℕ} (hc : nc ≠ 0) (hf : nf ≠ 0) (rem : ℝ) {T : ℝ} (hT : 0 < T) (k : Consts ℝ) :
    Tendsto (fun mu => ((asymptotics_test .exact T mu nc nf).run k).1 - asymptotics_known T mu nc nf rem) atTop (𝓝 (gap - rem)) := by
  have hc' : (0 : ℝ) < nc := Nat.cast_pos.2 (Nat.pos_of_ne_zero hc)
  have hf' : (0 : ℝ) < nf := Nat.cast_pos.2 (Nat.pos_of_ne_zero hf)
  have hpi := Real.pi_pos
  have h := C99_qcd_propagator_l (om := 1 / 1000) (p := 1 / 1000) (by norm_num) (by norm_num) (3 / 10) k.m_quark (withNumbers k nc nf) hc hf
    (beta := 1 / T) (by positivity) (15 / 10)
  have h' := log_difference (l := atTop) (s := fun mu => mu) (K := fun mu => ((nc : ℝ) + nf / 2) * T * T + 3 * nf * mu * mu / (2 * Real.pi * Real.pi)) (c := nc)
    (a := 3 * nf / (2 * Real.pi * Real.pi)) hc' (by positivity) gap_pos (eventually_ne_atTop 0) (by
      convert h using 2
      rw [htl_point]
      simp only [withNumbers]
      have : (nc : ℂ) ≠ 0 := Nat.cast_ne_zero.2 hc
      push_cast
      field_simp) (by
      have e := ((tendsto_inv_atTop_zero (𝕜 := ℝ)).pow 2).const_mul (((nc : ℝ) + nf / 2) * T * T)
      have e' := e.add_const (3 * (nf : ℝ) / (2 * Real.pi * Real.pi))
      rw [zero_pow two_ne_zero, mul_zero, zero_add] at e'
      refine e'.congr' ?_
      filter_upwards [eventually_ne_atTop 0] with mu hmu
      field_simp)
  refine (h'.sub_const rem).congr fun mu => ?_
  have e : ((asymptotics_test .exact T mu nc nf).run k).1 = -Real.log ((qcd.thermal.gluon.propagator_l_landau .exact (withNumbers k nc nf)
    (1 / 1000 : ℝ) (1 / 1000) (3 / 10) k.m_quark (1 / T) mu (15 / 10)).re / nc) := rfl
  rw [e]
  simp only [asymptotics_known]
  ring

/-- **C100**: the constant that the program uses (`rem`, found by trial) is right to two parts in a thousand. -/
theorem C100_constant : |gap - 202 / 100| < 2 / 1000 := by
  have h1 := Real.pi_gt_d4
  have h2 := Real.pi_lt_d4
  have e1 := Real.exp_one_gt_d9
  have e2 := Real.exp_one_lt_d9
  set x := 16 * Real.pi ^ 2 / 3 * (2 / 3 * (1 - Real.pi / 4)) with hx
  have hx0 : 0 < x := gap_pos
  have hl : 7.53 < x := by
    rw [hx]; nlinarith [sq_nonneg (Real.pi - 3.1415)]
  have hu : x < 7.5325 := by
    rw [hx]; nlinarith [sq_nonneg (Real.pi - 3.1415)]
  have hg : gap = 2 + Real.log (x / Real.exp 1 ^ 2) := by
    rw [gap, ← hx, Real.log_div hx0.ne' (by positivity), Real.log_pow, Real.log_exp]
    norm_num
  have hq : 0 < x / Real.exp 1 ^ 2 := by positivity
  have hE : 7.389 < Real.exp 1 ^ 2 ∧ Real.exp 1 ^ 2 < 7.3891 := ⟨by nlinarith, by nlinarith⟩
  have u := Real.log_le_sub_one_of_pos hq
  have w := Real.one_sub_inv_le_log_of_pos hq
  have u' : x / Real.exp 1 ^ 2 < 1.0195 := by
    rw [div_lt_iff₀ (by positivity)]; nlinarith [hE.1]
  have w' : (x / Real.exp 1 ^ 2)⁻¹ < 0.9813 := by
    rw [inv_div, div_lt_iff₀ hx0]; nlinarith [hE.2]
  rw [abs_lt, hg]
  constructor <;> linarith

/-- **C100**: hence the comparison succeeds: at every sufficiently high temperature, and at every sufficiently high chemical potential, the two
functions of the program differ by less than two thousandths. -/
theorem C100_agreement {nc nf : ℕ} (hc : nc ≠ 0) (hf : nf ≠ 0) {mu0 T0 : ℝ} (hT : 0 < T0) (k : Consts ℝ) :
    (∀ᶠ T in atTop, |((asymptotics_test .exact T mu0 nc nf).run k).1 - asymptotics_known T mu0 nc nf rem| < 2 / 1000) ∧
    (∀ᶠ mu in atTop, |((asymptotics_test .exact T0 mu nc nf).run k).1 - asymptotics_known T0 mu nc nf rem| < 2 / 1000) := by
  have e : |gap - rem| < 2 / 1000 := C100_constant
  exact ⟨(C100_high_temperature hc nf rem (mu := fun _ => mu0) (tendsto_const_nhds.div_atTop tendsto_id) k).abs.eventually (gt_mem_nhds e),
    (C100_high_density hc hf rem hT k).abs.eventually (gt_mem_nhds e)⟩

-- the numbers of colors and fermions of the program
example : ∀ nc ∈ [2, 3, 5], ∀ nf ∈ [1, 2], nc ≠ 0 ∧ nf ≠ 0 := by decide
-- a chemical potential proportional to the temperature
example (v : ℝ) : Tendsto (fun T : ℝ => v * T / T) atTop (𝓝 v) :=
  tendsto_const_nhds.congr' (by filter_upwards [eventually_ne_atTop 0] with T hT; field_simp)

end Qcd
