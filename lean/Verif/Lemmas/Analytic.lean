import Verif.Spec.Analytic
import Verif.Lemmas.Holomorphic
import Verif.Lemmas.Compactify
import Verif.Model.Integrator
import Verif.Props.VacuumComplex
import Mathlib.Analysis.Complex.CauchyIntegral
import Mathlib.Analysis.Analytic.Uniqueness
import Mathlib.Analysis.Calculus.Deriv.Star
import Mathlib.Analysis.Complex.Convex

/-! # Symmetric and analytic functions of the frequency: closure rules, and the step from integrands to integrals -/

namespace Qcd
open consts (Consts Integral)
open MeasureTheory Set Complex
open Spec (Symmetric Analytic)
open scoped ComplexConjugate

/-! ### The exact integrator -/

theorem exact_interior : Integrator.exact.Interior := by
  constructor <;> intro f g a b m h <;> simp only [Integrator.exact]
  all_goals
    rcases le_total a b with hab | hab
    · rw [min_eq_left hab, max_eq_right hab] at h
      rw [intervalIntegral.integral_of_le hab, intervalIntegral.integral_of_le hab, integral_Ioc_eq_integral_Ioo, integral_Ioc_eq_integral_Ioo]
      exact setIntegral_congr_fun measurableSet_Ioo fun x hx => h x hx.1 hx.2
    · rw [min_eq_right hab, max_eq_left hab] at h
      rw [intervalIntegral.integral_of_ge hab, intervalIntegral.integral_of_ge hab, integral_Ioc_eq_integral_Ioo, integral_Ioc_eq_integral_Ioo]
      congr 1
      exact setIntegral_congr_fun measurableSet_Ioo fun x hx => h x hx.1 hx.2

theorem exact_conj : Integrator.exact.Conj := fun f r m => by
  simp only [Integrator.exact]
  exact intervalIntegral.intervalIntegral_conj

/-! ### Reflection by the identity theorem -/

/-- A function that is holomorphic off the imaginary axis and real on the real axis satisfies the reflection
principle in both half planes. -/
theorem reflection {f : ℂ → ℂ} (hf : ∀ om : ℂ, om.re ≠ 0 → DifferentiableAt ℂ f om)
    (hr : ∀ x : ℝ, x ≠ 0 → (f x).im = 0) (om : ℂ) (ho : om.re ≠ 0) : f (conj om) = conj (f om) := by
  have key : ∀ U : Set ℂ, IsOpen U → IsPreconnected U → (∀ z ∈ U, z.re ≠ 0) → (∀ z ∈ U, conj z ∈ U) → (∀ z ∈ U, (z.re : ℂ) ∈ U) →
      ∀ z ∈ U, f (conj z) = conj (f z) := by
    intro U hU hc h0 hs hre z hz
    have d1 : DifferentiableOn ℂ f U := fun w hw => (hf w (h0 w hw)).differentiableWithinAt
    have d2 : DifferentiableOn ℂ (conj ∘ f ∘ conj) U := fun w hw => by
      have := (hf _ (h0 _ (hs w hw))).conj_conj
      rw [Complex.conj_conj] at this
      exact this.differentiableWithinAt
    have a1 := d1.analyticOnNhd hU
    have a2 := d2.analyticOnNhd hU
    set x : ℝ := z.re with hx
    have hxU : (x : ℂ) ∈ U := hre z hz
    have hfr : ∃ᶠ w in nhdsWithin (x : ℂ) {(x : ℂ)}ᶜ, f w = (conj ∘ f ∘ conj) w := by
      have t : Filter.Tendsto (fun y : ℝ => (y : ℂ)) (nhdsWithin x {x}ᶜ) (nhdsWithin (x : ℂ) {(x : ℂ)}ᶜ) := by
        refine tendsto_nhdsWithin_iff.2 ⟨(Complex.continuous_ofReal.tendsto x).mono_left nhdsWithin_le_nhds, ?_⟩
        filter_upwards [self_mem_nhdsWithin] with y hy
        simpa using hy
      refine t.frequently (Filter.Eventually.frequently ?_)
      have : {y : ℝ | y ≠ 0} ∈ nhdsWithin x {x}ᶜ := mem_nhdsWithin_of_mem_nhds (isOpen_ne.mem_nhds (by simpa using h0 _ hxU))
      filter_upwards [this] with y hy
      simp only [Function.comp, conj_ofReal]
      exact (Complex.conj_eq_iff_im.2 (hr y hy)).symm
    have := a1.eqOn_of_preconnected_of_frequently_eq a2 hc hxU hfr (hs z hz)
    simpa using this
  rcases lt_or_gt_of_ne ho with h | h
  · exact key {z | z.re < 0} (isOpen_lt continuous_re continuous_const) (convex_halfSpace_re_lt 0).isPreconnected
      (fun z hz => ne_of_lt hz) (fun z hz => by simpa using hz) (fun z hz => by simpa using hz) om h
  · exact key {z | 0 < z.re} (isOpen_lt continuous_const continuous_re) (convex_halfSpace_re_gt 0).isPreconnected
      (fun z hz => ne_of_gt hz) (fun z hz => by simpa using hz) (fun z hz => by simpa using hz) om h

/-- What the step from integrand to integral needs. -/
structure Loop (S : Set ℝ) (F : ℂ → ℝ → ℂ) : Prop where
  hol : ∀ c M, 0 < c → HolInt S c M F
  even : ∀ om q, F (-om) q = F om q
  real : ∀ (x : ℝ) q, 0 < q → x ≠ 0 → (F x q).im = 0

theorem Loop.reflects {S : Set ℝ} {F : ℂ → ℝ → ℂ} (h : Loop S F) {q : ℝ} (hq : 0 < q) (om : ℂ) (ho : om.re ≠ 0) :
    F (conj om) q = conj (F om q) :=
  reflection (f := fun om => F om q) (fun w hw => by
    obtain ⟨c, M, hc, hm⟩ := Freq.exists_mem hw
    exact ((h.hol c M hc).hol q hq w hm).differentiableAt ((Freq.isOpen c M).mem_nhds hm)) (fun x hx => h.real x q hq hx) om ho

theorem Loop.symmetric_Ioi {S : Set ℝ} {F : ℂ → ℝ → ℂ} (h : Loop S F) {ig : Integrator} (hi : ig.Interior) (hc : ig.Conj) (i : Integral ℝ) :
    Symmetric fun om => ig.cplx (fun t => F om ((1 - t) / t) / ((t * t : ℝ) : ℂ)) (0, 1) i := by
  refine ⟨fun om => by simp only [h.even], fun om ho => ?_⟩
  rw [← hc]
  refine hi.cplx _ _ _ _ _ fun t h0 h1 => ?_
  simp only [zero_le_one, inf_of_le_left, sup_of_le_right] at h0 h1
  rw [h.reflects (div_pos (by linarith) h0) om ho]
  simp

theorem Loop.analytic_Ioi {F : ℂ → ℝ → ℂ} (h : Loop (Ioi 0) F) (i : Integral ℝ) :
    Analytic fun om => Integrator.exact.cplx (fun t => F om ((1 - t) / t) / ((t * t : ℝ) : ℂ)) (0, 1) i := by
  refine ⟨h.symmetric_Ioi exact_interior exact_conj i, fun om ho => ?_⟩
  obtain ⟨c, M, hc, hm⟩ := Freq.exists_mem ho
  have := (h.hol c M hc).differentiableAt measurableSet_Ioi Subset.rfl hm
  simpa only [Integrator.exact, compactify_cplx] using this

theorem Loop.symmetric_Ioc {S : Set ℝ} {F : ℂ → ℝ → ℂ} (h : Loop S F) {ig : Integrator} (hi : ig.Interior) (hc : ig.Conj) {x : ℝ} (hx : 0 ≤ x)
    (i : Integral ℝ) : Symmetric fun om => ig.cplx (fun q => F om q) (0, x) i := by
  refine ⟨fun om => by simp only [h.even], fun om ho => ?_⟩
  rw [← hc]
  refine hi.cplx _ _ _ _ _ fun t h0 h1 => ?_
  rw [min_eq_left hx] at h0
  exact h.reflects h0 om ho

theorem Loop.analytic_Ioc {F : ℂ → ℝ → ℂ} {x : ℝ} (hx : 0 ≤ x) (h : Loop (Ioc 0 x) F) (i : Integral ℝ) :
    Analytic fun om => Integrator.exact.cplx (fun q => F om q) (0, x) i := by
  refine ⟨h.symmetric_Ioc exact_interior exact_conj hx i, fun om ho => ?_⟩
  obtain ⟨c, M, hc, hm⟩ := Freq.exists_mem ho
  have := (h.hol c M hc).differentiableAt measurableSet_Ioc Ioc_subset_Ioi_self hm
  simpa only [Integrator.exact, intervalIntegral.integral_of_le hx] using this

/-! ### Closure rules -/

/-- A function of `s` with the analytic structure of the vacuum functions. -/
structure Vac (V : ℂ → ℂ) : Prop where
  hol : DifferentiableOn ℂ V slitPlane
  refl : ∀ s ∈ slitPlane, V (conj s) = conj (V s)

theorem slit_freq {om : ℂ} (ho : om.re ≠ 0) (p : ℝ) {m : ℝ} (hm : m ≠ 0) :
    (om * om + ((p * p : ℝ) : ℂ)) / ((m * m : ℝ) : ℂ) ∈ slitPlane := by
  have hmm : 0 < m * m := mul_self_pos.2 hm
  have h1 : om * om + ((p * p : ℝ) : ℂ) ∈ slitPlane := by
    rw [mem_slitPlane_iff]
    by_cases hi : om.im = 0
    · left
      simp only [add_re, mul_re, hi, ofReal_re]
      nlinarith [mul_self_pos.2 ho, mul_self_nonneg p]
    · right
      simp only [add_im, mul_im, ofReal_im, add_zero]
      intro h
      exact mul_ne_zero ho hi (by linarith)
  simpa using slit_div_pos h1 hmm

/-- The rules a class of functions of the frequency must obey for the dressing functions to belong to it. -/
structure Closed (P : (ℂ → ℂ) → Prop) : Prop where
  re : ∀ x : ℝ, P fun _ => (x : ℂ)
  add : ∀ f g, P f → P g → P fun om => f om + g om
  sub : ∀ f g, P f → P g → P fun om => f om - g om
  mul : ∀ f g, P f → P g → P fun om => f om * g om
  vac : ∀ V, Vac V → ∀ p m : ℝ, m ≠ 0 → P fun om => V ((om * om + ((p * p : ℝ) : ℂ)) / ((m * m : ℝ) : ℂ))
  inv : ∀ p : ℝ, P fun om => (om * om + ((p * p : ℝ) : ℂ))⁻¹

theorem closed_symmetric : Closed Symmetric where
  re x := ⟨fun _ => rfl, fun _ _ => by simp⟩
  add f g hf hg := ⟨fun om => by rw [hf.even, hg.even], fun om h => by rw [hf.reflects om h, hg.reflects om h, map_add]⟩
  sub f g hf hg := ⟨fun om => by rw [hf.even, hg.even], fun om h => by rw [hf.reflects om h, hg.reflects om h, map_sub]⟩
  mul f g hf hg := ⟨fun om => by rw [hf.even, hg.even], fun om h => by rw [hf.reflects om h, hg.reflects om h, map_mul]⟩
  vac V hV p m hm := ⟨fun om => by rw [neg_mul_neg], fun om h => by rw [← hV.refl _ (slit_freq h p hm)]; simp⟩
  inv p := ⟨fun om => by rw [neg_mul_neg], fun om h => by simp⟩

theorem closed_analytic : Closed Analytic where
  re x := ⟨closed_symmetric.re x, fun _ _ => differentiableAt_const _⟩
  add f g hf hg := ⟨closed_symmetric.add f g hf.1 hg.1, fun om h => (hf.holomorphic om h).add (hg.holomorphic om h)⟩
  sub f g hf hg := ⟨closed_symmetric.sub f g hf.1 hg.1, fun om h => (hf.holomorphic om h).sub (hg.holomorphic om h)⟩
  mul f g hf hg := ⟨closed_symmetric.mul f g hf.1 hg.1, fun om h => (hf.holomorphic om h).mul (hg.holomorphic om h)⟩
  vac V hV p m hm := ⟨closed_symmetric.vac V hV p m hm, fun om h => by
    have h1 := slit_freq h p hm
    exact ((hV.hol _ h1).differentiableAt (isOpen_slitPlane.mem_nhds h1)).comp om
      (f := fun om : ℂ => (om * om + ((p * p : ℝ) : ℂ)) / ((m * m : ℝ) : ℂ)) (by fun_prop)⟩
  inv p := ⟨closed_symmetric.inv p, fun om h => by
    have h1 := slitPlane_ne_zero (slit_freq h p one_ne_zero)
    refine DifferentiableAt.fun_inv (by fun_prop) fun h0 => h1 (by rw [h0, zero_div])⟩

namespace Closed
variable {P : (ℂ → ℂ) → Prop} (hP : Closed P)
include hP

theorem vac0 (V : ℂ → ℂ) (hV : Vac V) {m : ℝ} (hm : m ≠ 0) : P fun om => V (om * om / ((m * m : ℝ) : ℂ)) := by
  simpa using hP.vac V hV 0 m hm

theorem inv0 : P fun om => (om * om)⁻¹ := by simpa using hP.inv 0

theorem sum {α : Type} (l : List α) (f : α → ℂ → ℂ) (h : ∀ a ∈ l, P (f a)) : P fun om => (l.map fun a => f a om).sum := by
  induction l with
  | nil => simpa using hP.re 0
  | cons a l ih =>
    simp only [List.map_cons, List.sum_cons]
    exact hP.add _ _ (h a (by simp)) (ih fun b hb => h b (by simp [hb]))

end Closed

/-! ### The vacuum functions -/

theorem vac_ghost (g0 : ℝ) : Vac fun s => ghost.dressing_inv_landau s g0 := by
  constructor
  · simp only [(C17_dressing_inv_affine _ 0 g0 0).1]
    exact C20_loops.1.add_const _
  · intro s hs
    have h := C19_loops s hs
    simp only [loopValues, List.map_cons, List.map_nil, List.cons.injEq, and_true] at h
    simp only [(C17_dressing_inv_affine _ 0 g0 0).1, h.1, map_add, ofR_complex, conj_ofReal]

theorem vac_ym (f0 : ℝ) : Vac fun s => ym.gluon.dressing_inv_landau s f0 := by
  constructor
  · simp only [(C17_dressing_inv_affine _ f0 0 0).2.2.1]
    exact C20_loops.2.2.1.add_const _
  · intro s hs
    have h := C19_loops s hs
    simp only [loopValues, List.map_cons, List.map_nil, List.cons.injEq, and_true] at h
    simp only [(C17_dressing_inv_affine _ f0 0 0).2.2.1, h.2.2.1, map_add, ofR_complex, conj_ofReal]

theorem vac_fq : Vac fun s => gluon.f_q s := by
  refine ⟨C20_loops.2.2.2.2.1, fun s hs => ?_⟩
  have h := C19_loops s hs
  simp only [loopValues, List.map_cons, List.map_nil, List.cons.injEq, and_true] at h
  exact h.2.2.2.2.1

theorem vac_qcd (k : Consts ℝ) {mq : ℝ} (hq : mq ≠ 0) (f0 : ℝ) : Vac fun s => qcd.gluon.dressing_inv_landau k s mq f0 := by
  have hpos : 0 < mq ^ 2 := by positivity
  constructor
  · simp only [(global_additive k _ mq f0 0).1]
    refine (vac_ym f0).hol.add (DifferentiableOn.mul_const ?_ _)
    exact vac_fq.hol.comp (f := fun s : ℂ => s / ofR (mq ^ 2)) (by fun_prop) fun s hs => slit_div_pos hs hpos
  · intro s hs
    simp only [(global_additive k _ mq f0 0).1, map_add, map_mul, (vac_ym f0).refl s hs]
    have h := vac_fq.refl _ (slit_div_pos hs hpos)
    simp only [map_div₀, conj_ofReal] at h
    simp only [ofR_complex, conj_ofReal, h]

theorem vac_config (k : Consts ℝ) (f0 : ℝ) (nc : ℕ) {m : ℝ} (hm : m ≠ 0) (qs : List (ℕ × ℝ)) (hq : ∀ q ∈ qs, q.2 ≠ 0) :
    Vac fun s => qcd.gluon.dressing_inv_landau_w_field_config k s f0 (FieldConfig.new nc m qs) := by
  constructor
  · simp only [(C29_additive k _ f0 0 nc m qs).1]
    exact (vac_ym f0).hol.add (quarkSum_differentiable _ vac_fq.hol nc m qs hm hq)
  · intro s hs
    simp only [(C29_additive k _ f0 0 nc m qs).1, map_add, (vac_ym f0).refl s hs, quarkSum_conj _ vac_fq.refl s hs nc m qs hm hq]

end Qcd
