import Mathlib.Analysis.Calculus.ParametricIntegral
import Verif.Lemmas.Domination
import Verif.Lemmas.DiagramAssembly
import Verif.Lemmas.DiagramLines
import Verif.Props.MassDerivative

/-! # Dependence of the thermal integrands on a mass squared: local Lipschitz bounds with an integrable constant -/

namespace Qcd
open MeasureTheory Filter Topology Set

/-- Bounded and Lipschitz in `M ∈ I`, the constants growing at most like a power of `q`. -/
def BL (I : Set ℝ) (g : ℝ → ℝ → ℝ → ℂ) : Prop :=
  ∃ (C : ℝ) (n : ℕ), 0 ≤ C ∧ ∀ q, 0 < q → ∀ z ∈ Icc (-1 : ℝ) 1, (∀ M ∈ I, ‖g q z M‖ ≤ C * (1 + q) ^ n) ∧
    ∀ M ∈ I, ∀ M' ∈ I, ‖g q z M - g q z M'‖ ≤ C * (1 + q) ^ n * |M - M'|

namespace BL
variable {I : Set ℝ} {g h : ℝ → ℝ → ℝ → ℂ}

theorem le_sum {C D q : ℝ} {n k : ℕ} (hC : 0 ≤ C) (hD : 0 ≤ D) (hq : 0 < q) :
    C * (1 + q) ^ n ≤ (C + D) * (1 + q) ^ (n + k) ∧ D * (1 + q) ^ k ≤ (C + D) * (1 + q) ^ (n + k) := by
  have h1 : (1 + q) ^ n ≤ (1 + q) ^ (n + k) := pow_le_pow_right₀ (by linarith) (by omega)
  have h2 : (1 + q) ^ k ≤ (1 + q) ^ (n + k) := pow_le_pow_right₀ (by linarith) (by omega)
  have h3 : 0 ≤ (1 + q) ^ n := by positivity
  have h4 : 0 ≤ (1 + q) ^ k := by positivity
  constructor
  · exact mul_le_mul (by linarith) h1 h3 (by linarith)
  · exact mul_le_mul (by linarith) h2 h4 (by linarith)

/-- Separate constants for the bound and the variation. -/
theorem mk' {C D : ℝ} {n k : ℕ} (hC : 0 ≤ C) (hD : 0 ≤ D)
    (h1 : ∀ q, 0 < q → ∀ z ∈ Icc (-1 : ℝ) 1, ∀ M ∈ I, ‖g q z M‖ ≤ C * (1 + q) ^ n)
    (h2 : ∀ q, 0 < q → ∀ z ∈ Icc (-1 : ℝ) 1, ∀ M ∈ I, ∀ M' ∈ I, ‖g q z M - g q z M'‖ ≤ D * (1 + q) ^ k * |M - M'|) : BL I g :=
  ⟨C + D, n + k, by positivity, fun q hq z hz => ⟨fun M hM => (h1 q hq z hz M hM).trans (le_sum hC hD hq).1,
    fun M hM M' hM' => (h2 q hq z hz M hM M' hM').trans (mul_le_mul_of_nonneg_right (le_sum hC hD hq).2 (abs_nonneg _))⟩⟩

theorem indep {a : ℝ → ℝ → ℂ} {C : ℝ} {n : ℕ} (hC : 0 ≤ C) (h : ∀ q, 0 < q → ∀ z ∈ Icc (-1 : ℝ) 1, ‖a q z‖ ≤ C * (1 + q) ^ n) :
    BL I fun q z _ => a q z :=
  ⟨C, n, hC, fun q hq z hz => ⟨fun _ _ => h q hq z hz, fun M _ M' _ => by rw [sub_self, norm_zero]; positivity⟩⟩

theorem const (c : ℂ) : BL I fun _ _ _ => c := indep (norm_nonneg c) (n := 0) fun q _ z _ => by simp

theorem q : BL I fun q _ _ => (q : ℂ) := indep zero_le_one (n := 1) fun q hq z _ => by simp [abs_of_pos hq]

theorem z : BL I fun _ z _ => (z : ℂ) := indep zero_le_one (n := 0) fun q hq z hz => by
  simpa [abs_le] using hz

theorem add (hg : BL I g) (hh : BL I h) : BL I fun q z M => g q z M + h q z M := by
  obtain ⟨C, n, hC, hg⟩ := hg
  obtain ⟨D, k, hD, hh⟩ := hh
  have key : ∀ q : ℝ, 0 < q → C * (1 + q) ^ n + D * (1 + q) ^ k ≤ ((C + D) + (C + D)) * (1 + q) ^ (n + k) := fun q hq => by
    rw [add_mul]
    exact add_le_add (le_sum hC hD hq).1 (le_sum hC hD hq).2
  refine ⟨(C + D) + (C + D), n + k, by positivity, fun q hq z hz => ⟨fun M hM => ?_, fun M hM M' hM' => ?_⟩⟩
  · exact (norm_add_le _ _).trans ((add_le_add ((hg q hq z hz).1 M hM) ((hh q hq z hz).1 M hM)).trans (key q hq))
  · rw [add_sub_add_comm]
    refine (norm_add_le _ _).trans ((add_le_add ((hg q hq z hz).2 M hM M' hM') ((hh q hq z hz).2 M hM M' hM')).trans ?_)
    rw [← add_mul]
    exact mul_le_mul_of_nonneg_right (key q hq) (abs_nonneg _)

theorem mul (hg : BL I g) (hh : BL I h) : BL I fun q z M => g q z M * h q z M := by
  obtain ⟨C, n, hC, hg⟩ := hg
  obtain ⟨D, k, hD, hh⟩ := hh
  refine mk' (C := C * D) (D := 2 * (C * D)) (n := n + k) (k := n + k) (by positivity) (by positivity) (fun q hq z hz M hM => ?_)
    fun q hq z hz M hM M' hM' => ?_
  · rw [norm_mul, pow_add]
    calc _ ≤ (C * (1 + q) ^ n) * (D * (1 + q) ^ k) :=
          mul_le_mul ((hg q hq z hz).1 M hM) ((hh q hq z hz).1 M hM) (norm_nonneg _) (by positivity)
      _ = _ := by ring
  · have e : g q z M * h q z M - g q z M' * h q z M' = g q z M * (h q z M - h q z M') + (g q z M - g q z M') * h q z M' := by ring
    rw [e, pow_add]
    refine (norm_add_le _ _).trans ?_
    rw [norm_mul, norm_mul]
    calc _ ≤ (C * (1 + q) ^ n) * (D * (1 + q) ^ k * |M - M'|) + (C * (1 + q) ^ n * |M - M'|) * (D * (1 + q) ^ k) :=
          add_le_add (mul_le_mul ((hg q hq z hz).1 M hM) ((hh q hq z hz).2 M hM M' hM') (norm_nonneg _) (by positivity))
            (mul_le_mul ((hg q hq z hz).2 M hM M' hM') ((hh q hq z hz).1 M' hM') (norm_nonneg _) (by positivity))
      _ = _ := by ring

theorem neg (hg : BL I g) : BL I fun q z M => -g q z M := by simpa using (const (-1)).mul hg
theorem sub (hg : BL I g) (hh : BL I h) : BL I fun q z M => g q z M - h q z M := by simpa [sub_eq_add_neg] using hg.add hh.neg
theorem sq (hg : BL I g) : BL I fun q z M => g q z M ^ 2 := by simpa [pow_two] using hg.mul hg
theorem const_mul (hg : BL I g) (c : ℂ) : BL I fun q z M => c * g q z M := (const c).mul hg
theorem div_const (hg : BL I g) (c : ℂ) : BL I fun q z M => g q z M / c := by simpa [div_eq_mul_inv] using hg.mul (const c⁻¹)

theorem inv (hg : BL I g) {δ : ℝ} (hδ : 0 < δ) (h : ∀ q, 0 < q → ∀ z ∈ Icc (-1 : ℝ) 1, ∀ M ∈ I, δ ≤ ‖g q z M‖) :
    BL I fun q z M => (g q z M)⁻¹ := by
  obtain ⟨C, n, hC, hg⟩ := hg
  refine mk' (C := δ⁻¹) (n := 0) (D := C / δ ^ 2) (k := n) (by positivity) (by positivity) (fun q hq z hz M hM => ?_)
    fun q hq z hz M hM M' hM' => ?_
  · rw [norm_inv, pow_zero, mul_one]
    exact inv_anti₀ hδ (h q hq z hz M hM)
  · have p1 := hδ.trans_le (h q hq z hz M hM)
    have p2 := hδ.trans_le (h q hq z hz M' hM')
    rw [inv_sub_inv (norm_pos_iff.1 p1) (norm_pos_iff.1 p2), norm_div, norm_mul, norm_sub_rev, div_le_iff₀ (by positivity)]
    have e : δ ^ 2 ≤ ‖g q z M‖ * ‖g q z M'‖ := by
      rw [pow_two]; exact mul_le_mul (h q hq z hz M hM) (h q hq z hz M' hM') hδ.le p1.le
    have p3 : 0 ≤ C / δ ^ 2 * (1 + q) ^ n * |M - M'| := by positivity
    calc _ ≤ C * (1 + q) ^ n * |M - M'| := (hg q hq z hz).2 M hM M' hM'
      _ = C / δ ^ 2 * (1 + q) ^ n * |M - M'| * δ ^ 2 := by field_simp
      _ ≤ _ := mul_le_mul_of_nonneg_left e p3

theorem congr (hg : BL I g) (e : ∀ q, 0 < q → ∀ z ∈ Icc (-1 : ℝ) 1, ∀ M ∈ I, h q z M = g q z M) : BL I h := by
  obtain ⟨C, n, hC, hg⟩ := hg
  exact ⟨C, n, hC, fun q hq z hz => ⟨fun M hM => by rw [e q hq z hz M hM]; exact (hg q hq z hz).1 M hM, fun M hM M' hM' => by
    rw [e q hq z hz M hM, e q hq z hz M' hM']; exact (hg q hq z hz).2 M hM M' hM'⟩⟩

/-- Exponential of a non-positive function. -/
theorem exp {f : ℝ → ℝ → ℝ → ℝ} (hf : BL I fun q z M => (f q z M : ℂ)) (h0 : ∀ q, 0 < q → ∀ z ∈ Icc (-1 : ℝ) 1, ∀ M ∈ I, f q z M ≤ 0) :
    BL I fun q z M => (Real.exp (f q z M) : ℂ) := by
  obtain ⟨C, n, hC, hg⟩ := hf
  have key : ∀ a b : ℝ, a ≤ 0 → b ≤ a → |Real.exp a - Real.exp b| ≤ |a - b| := by
    intro a b ha hab
    rw [abs_of_nonneg (sub_nonneg.2 (Real.exp_le_exp.2 hab)), abs_of_nonneg (sub_nonneg.2 hab)]
    have h1 := Real.add_one_le_exp (b - a)
    have h2 : Real.exp b = Real.exp a * Real.exp (b - a) := by rw [← Real.exp_add]; congr 1; ring
    have h3 : Real.exp a ≤ 1 := Real.exp_le_one_iff.2 ha
    have h4 := Real.exp_pos a
    rw [h2]
    nlinarith
  have key2 : ∀ a b : ℝ, a ≤ 0 → b ≤ 0 → |Real.exp a - Real.exp b| ≤ |a - b| := by
    intro a b ha hb
    rcases le_total b a with h | h
    · exact key a b ha h
    · rw [abs_sub_comm, abs_sub_comm a]; exact key b a hb h
  refine mk' (C := 1) (n := 0) (D := C) (k := n) zero_le_one hC (fun q hq z hz M hM => ?_) fun q hq z hz M hM M' hM' => ?_
  · rw [Complex.norm_real, Real.norm_of_nonneg (Real.exp_pos _).le]
    simpa using h0 q hq z hz M hM
  · have := (hg q hq z hz).2 M hM M' hM'
    rw [← Complex.ofReal_sub, Complex.norm_real, Real.norm_eq_abs] at this ⊢
    exact (key2 _ _ (h0 q hq z hz M hM) (h0 q hq z hz M' hM')).trans this

end BL

/-! ### Energies -/

/-- Energy of a particle of mass squared `k`. -/
noncomputable def eK (q k : ℝ) : ℝ := √(k + q ^ 2)

theorem eK_nonneg (q k : ℝ) : 0 ≤ eK q k := Real.sqrt_nonneg _

theorem energy_sqrt {k : ℝ} (hk : 0 ≤ k) (q : ℝ) : energy q √k = eK q k := by
  rw [energy_real, eK, Real.mul_self_sqrt hk, pow_two]

/-- A mass squared depending on `M`, bounded below by `e²`. -/
structure Massive (I : Set ℝ) (k : ℝ → ℝ) (e : ℝ) : Prop where
  pos : 0 < e
  le : ∀ M ∈ I, e ^ 2 ≤ k M
  bl : BL I fun _ _ M => (k M : ℂ)

variable {I : Set ℝ} {k k' : ℝ → ℝ} {e beta : ℝ}

theorem Massive.const {c : ℝ} (hc : 0 < c) : Massive I (fun _ => c) √c :=
  ⟨Real.sqrt_pos.2 hc, fun _ _ => by rw [Real.sq_sqrt hc.le], .const _⟩

theorem BL.id {a b : ℝ} : BL (Icc a b) fun _ _ M => (M : ℂ) := by
  refine ⟨|a| + |b| + 1, 0, by positivity, fun q hq z hz => ⟨fun M hM => ?_, fun M hM M' hM' => ?_⟩⟩
  · rw [pow_zero, mul_one, Complex.norm_real, Real.norm_eq_abs, abs_le]
    constructor
    · linarith [hM.1, neg_abs_le a, abs_nonneg b]
    · linarith [hM.2, le_abs_self b, abs_nonneg a]
  · rw [pow_zero, mul_one, ← Complex.ofReal_sub, Complex.norm_real, Real.norm_eq_abs]
    nlinarith [abs_nonneg (M - M'), abs_nonneg a, abs_nonneg b]

theorem Massive.id {a b : ℝ} (ha : 0 < a) : Massive (Icc a b) (fun M => M) √a :=
  ⟨Real.sqrt_pos.2 ha, fun M hM => by rw [Real.sq_sqrt ha.le]; exact hM.1, .id⟩

theorem Massive.nonneg (h : Massive I k e) {M : ℝ} (hM : M ∈ I) : 0 ≤ k M := (sq_nonneg e).trans (h.le M hM)

theorem Massive.le_eK (h : Massive I k e) {M : ℝ} (hM : M ∈ I) (q : ℝ) : e ≤ eK q (k M) :=
  Real.le_sqrt_of_sq_le (by nlinarith [h.le M hM, sq_nonneg q])

theorem q_le_eK {q κ : ℝ} (h : 0 ≤ κ) : q ≤ eK q κ := Real.le_sqrt_of_sq_le (by linarith)

theorem Massive.eK (h : Massive I k e) : BL I fun q _ M => (eK q (k M) : ℂ) := by
  obtain ⟨C, n, hC, hk⟩ := h.bl
  refine BL.mk' (C := C + 2) (n := n + 2) (D := C / e) (k := n) (by linarith) (div_nonneg hC h.pos.le) (fun q hq z hz M hM => ?_)
    fun q hq z hz M hM M' hM' => ?_
  · have h1 := (hk q hq z hz).1 M hM
    rw [Complex.norm_real, Real.norm_eq_abs, abs_of_nonneg (h.nonneg hM)] at h1
    rw [Complex.norm_real, Real.norm_of_nonneg (eK_nonneg _ _), Qcd.eK, Real.sqrt_le_iff]
    have h2 : (1 : ℝ) ≤ (1 + q) ^ n := one_le_pow₀ (by linarith)
    have h3 : (1 : ℝ) ≤ (1 + q) ^ (n + 2) := one_le_pow₀ (by linarith)
    have h4 : C * (1 + q) ^ n ≤ C * (1 + q) ^ (n + 2) := mul_le_mul_of_nonneg_left (pow_le_pow_right₀ (by linarith) (by omega)) hC
    have h5 : q ^ 2 ≤ (1 + q) ^ (n + 2) := by
      rw [pow_add]; nlinarith [sq_nonneg q]
    have h6 : 0 ≤ (C + 2) * (1 + q) ^ (n + 2) := by positivity
    refine ⟨h6, ?_⟩
    have h7 : (C + 2) * (1 + q) ^ (n + 2) ≤ ((C + 2) * (1 + q) ^ (n + 2)) ^ 2 := by
      have : 1 ≤ (C + 2) * (1 + q) ^ (n + 2) := by nlinarith
      nlinarith
    nlinarith
  · have h1 := (hk q hq z hz).2 M hM M' hM'
    rw [← Complex.ofReal_sub, Complex.norm_real, Real.norm_eq_abs] at h1 ⊢
    have e1 := h.le_eK hM q
    have e2 := h.le_eK hM' q
    have s1 : Qcd.eK q (k M) ^ 2 = k M + q ^ 2 := Real.sq_sqrt (by nlinarith [h.nonneg hM, sq_nonneg q])
    have s2 : Qcd.eK q (k M') ^ 2 = k M' + q ^ 2 := Real.sq_sqrt (by nlinarith [h.nonneg hM', sq_nonneg q])
    have he := h.pos
    have e3 : |Qcd.eK q (k M) - Qcd.eK q (k M')| * (Qcd.eK q (k M) + Qcd.eK q (k M')) = |k M - k M'| := by
      rw [← abs_of_nonneg (show 0 ≤ Qcd.eK q (k M) + Qcd.eK q (k M') by linarith), ← abs_mul]
      congr 1
      linear_combination s1 - s2
    have e4 : |Qcd.eK q (k M) - Qcd.eK q (k M')| * e ≤ |k M - k M'| := by
      rw [← e3]; exact mul_le_mul_of_nonneg_left (by linarith) (abs_nonneg _)
    calc _ ≤ |k M - k M'| / e := (le_div_iff₀ he).2 e4
      _ ≤ C * (1 + q) ^ n * |M - M'| / e := by gcongr
      _ = _ := by ring

theorem Massive.eK_inv (h : Massive I k e) : BL I fun q _ M => (Qcd.eK q (k M) : ℂ)⁻¹ :=
  h.eK.inv h.pos fun q _ z _ M hM => by
    rw [Complex.norm_real, Real.norm_of_nonneg (eK_nonneg _ _)]; exact h.le_eK hM q

/-- The Bose distribution, its exponential decay taken out. -/
theorem Massive.bose (h : Massive I k e) (hb : 0 < beta) :
    BL I fun q _ M => ((Real.exp (beta * q) : ℝ) : ℂ) * ((bose_distribution_zero_chempot (Qcd.eK q (k M)) beta : ℝ) : ℂ) := by
  have he := h.pos
  have x1 : BL I fun q z M => ((beta * (q - Qcd.eK q (k M)) : ℝ) : ℂ) := by
    refine ((BL.q.sub h.eK).const_mul beta).congr fun q _ z _ M _ => ?_
    push_cast; ring
  have x2 : BL I fun q z M => ((-(beta * Qcd.eK q (k M)) : ℝ) : ℂ) := by
    refine (h.eK.const_mul (-beta)).congr fun q _ z _ M _ => ?_
    push_cast; ring
  have y1 := x1.exp fun q hq z hz M hM => by nlinarith [q_le_eK (q := q) (h.nonneg hM)]
  have y2 := x2.exp fun q hq z hz M hM => by nlinarith [h.le_eK hM q]
  have hδ : 0 < 1 - Real.exp (-(beta * e)) := by
    rw [sub_pos, Real.exp_lt_one_iff]; nlinarith
  have y3 := ((BL.const 1).sub y2).inv hδ fun q hq z hz M hM => by
    rw [← Complex.ofReal_one, ← Complex.ofReal_sub, Complex.norm_real]
    refine le_trans ?_ (Real.le_norm_self _)
    have := h.le_eK hM q
    have : Real.exp (-(beta * Qcd.eK q (k M))) ≤ Real.exp (-(beta * e)) := Real.exp_le_exp.2 (by nlinarith)
    linarith
  refine (y1.mul y3).congr fun q hq z hz M hM => ?_
  rw [boseZ_real]
  have hE := he.trans_le (h.le_eK hM q)
  have p1 : 1 < Real.exp (Qcd.eK q (k M) * beta) := by rw [Real.one_lt_exp_iff]; positivity
  rw [← Complex.ofReal_one, ← Complex.ofReal_sub, ← Complex.ofReal_inv, ← Complex.ofReal_mul, ← Complex.ofReal_mul]
  congr 1
  rw [show beta * (q - Qcd.eK q (k M)) = beta * q + -(Qcd.eK q (k M) * beta) by ring, Real.exp_add, mul_comm beta (Qcd.eK q (k M)), Real.exp_neg]
  have : Real.exp (Qcd.eK q (k M) * beta) - 1 ≠ 0 := by linarith
  have : (1 : ℝ) - (Real.exp (Qcd.eK q (k M) * beta))⁻¹ ≠ 0 := by
    have := inv_lt_one_of_one_lt₀ p1
    linarith
  field_simp

theorem bose_massless_bl (hb : 0 < beta) :
    BL I fun q _ _ => ((Real.exp (beta * q) : ℝ) : ℂ) * ((q * bose_distribution_zero_chempot q beta : ℝ) : ℂ) := by
  refine BL.indep (a := fun q _ => ((Real.exp (beta * q) : ℝ) : ℂ) * ((q * bose_distribution_zero_chempot q beta : ℝ) : ℂ))
    (C := 1 / beta + 1) (n := 1) (by positivity) fun q hq z hz => ?_
  rw [← Complex.ofReal_mul, Complex.norm_real, boseZ_real, mul_comm q beta]
  have p1 : 1 + beta * q ≤ Real.exp (beta * q) := by linarith [Real.add_one_le_exp (beta * q)]
  have p2 : 0 < beta * q := by positivity
  have p3 : 0 < Real.exp (beta * q) - 1 := by linarith
  rw [Real.norm_of_nonneg (by positivity), ← div_eq_mul_inv, ← mul_div_assoc, div_le_iff₀ p3]
  have e : (1 / beta + 1) * (1 + q) ^ 1 * (Real.exp (beta * q) - 1) = (1 / beta + 1 + q / beta + q) * (Real.exp (beta * q) - 1) := by
    field_simp; ring
  rw [e]
  have h1 : q * 1 ≤ (1 / beta) * (Real.exp (beta * q) - 1) := by
    rw [one_div, inv_mul_eq_div, le_div_iff₀ hb]; linarith
  have h2 : 0 ≤ (1 + q / beta) * (Real.exp (beta * q) - 1) := by positivity
  nlinarith

/-! ### Legs -/

open Spec (leg den)

theorem spec_bose_real (beta x : ℝ) : Spec.bose beta (x : ℂ) = ((bose_distribution_zero_chempot x beta : ℝ) : ℂ) := by
  rw [boseZ_real, Spec.bose, one_div]
  push_cast
  rw [mul_comm]

theorem den_shell (σ E q om p m' z : ℝ) : den (σ * (Complex.I * E)) q om p m' z =
    ((om ^ 2 + p ^ 2 + 2 * q * p * z + (q ^ 2 - σ ^ 2 * E ^ 2) + m' ^ 2 : ℝ) : ℂ) + ((2 * om * σ * E : ℝ) : ℂ) * Complex.I := by
  simp only [den]
  push_cast
  linear_combination (σ : ℂ) ^ 2 * (E : ℂ) ^ 2 * Complex.I_sq

/-- Numerators that stay bounded and Lipschitz when the energy is. -/
def NumBL (I : Set ℝ) (N : ℝ → ℂ → ℝ → ℂ) : Prop := ∀ w : ℝ → ℝ → ℝ → ℂ, BL I w → BL I fun q z M => N q (w q z M) z

theorem numBL_scalar : NumBL I fun _ => Spec.scalar := fun _ _ => .const 1
theorem numBL_longitudinal (om p : ℂ) : NumBL I fun q => Spec.longitudinal q om p := fun w hw => by
  have := (((hw.const_mul p).sub ((BL.q.mul BL.z).const_mul om)).sq).div_const (om ^ 2 + p ^ 2)
  exact this
theorem numBL_transverse : NumBL I fun q => Spec.transverse q := fun w hw => by
  have := ((BL.q (I := I)).sq.mul ((BL.const 1).sub BL.z.sq)).div_const 2
  exact this

/-- The integrand over the angle is bounded and Lipschitz. -/
theorem num_over_den {N : ℝ → ℂ → ℝ → ℂ} (hN : NumBL I N) {E m' : ℝ → ℝ → ℝ} {om p δ : ℝ} (hδ : 0 < δ) (σ : ℝ)
    (hE : BL I fun q _ M => (E q M : ℂ)) (hm : BL I fun q _ M => (m' q M : ℂ) ^ 2)
    (h : ∀ q, 0 < q → ∀ z ∈ Icc (-1 : ℝ) 1, ∀ M ∈ I, δ ≤ ‖den (σ * (Complex.I * E q M)) q om p (m' q M) z‖) :
    BL I fun q z M => N q (σ * (Complex.I * E q M)) z / den (σ * (Complex.I * E q M)) q om p (m' q M) z := by
  have hw : BL I fun q _ M => (σ : ℂ) * (Complex.I * E q M) := (hE.const_mul _).const_mul _
  have hd : BL I fun q z M => den (σ * (Complex.I * E q M)) q om p (m' q M) z := by
    have := ((hw.add (.const om)).sq.add ((BL.q.sq.add (.const (p ^ 2))).add (((BL.q.const_mul 2).mul (.const p)).mul BL.z))).add hm
    exact this
  simpa only [div_eq_mul_inv] using (hN _ hw).mul (hd.inv hδ h)

theorem den_massive {om E e : ℝ} (hE : e ≤ E) (q p m' z : ℝ) {σ : ℝ} (hσ : |σ| = 1) : 2 * |om| * e ≤ ‖den (σ * (Complex.I * E)) q om p m' z‖ := by
  rw [den_shell]
  refine le_trans ?_ (Complex.abs_im_le_norm _)
  simp only [Complex.add_im, Complex.ofReal_im, Complex.mul_im, Complex.ofReal_re, Complex.I_im, Complex.I_re, mul_one, mul_zero, zero_add, add_zero]
  rw [abs_mul, abs_mul, abs_mul, hσ, abs_two, mul_one]
  have := le_abs_self E
  have := abs_nonneg om
  nlinarith

theorem den_massless {om p : ℝ} (ho : om ≠ 0) : ∃ δ, 0 < δ ∧ ∀ q : ℝ, 0 < q → ∀ z ∈ Icc (-1 : ℝ) 1, ∀ σ : ℝ, |σ| = 1 → ∀ m' : ℝ,
    δ ≤ ‖den (σ * (Complex.I * q)) q om p m' z‖ := by
  have ho2 : 0 < om ^ 2 := by positivity
  refine ⟨min (om ^ 2 / 2) (2 * |om| * (om ^ 2 / (4 * (|p| + 1)))), lt_min (by positivity) (by positivity), fun q hq z hz σ hσ m' => ?_⟩
  rcases le_or_gt (om ^ 2 / (4 * (|p| + 1))) q with h | h
  · refine (min_le_right _ _).trans (le_trans ?_ (den_massive (om := om) (le_refl q) q p m' z hσ))
    gcongr
  · refine (min_le_left _ _).trans ?_
    rw [den_shell]
    refine le_trans ?_ ((le_abs_self _).trans (Complex.abs_re_le_norm _))
    simp only [Complex.add_re, Complex.ofReal_re, Complex.mul_re, Complex.ofReal_im, Complex.I_im, Complex.I_re, mul_one, mul_zero, sub_zero, add_zero]
    have hσ2 : σ ^ 2 = 1 := by rw [← sq_abs, hσ, one_pow]
    rw [hσ2]
    rw [lt_div_iff₀ (by positivity)] at h
    have hpz : -|p| ≤ p * z := by
      have : |p * z| ≤ |p| := by
        rw [abs_mul]; exact mul_le_of_le_one_right (abs_nonneg _) (abs_le.2 hz)
      linarith [neg_abs_le (p * z)]
    have : -(q * |p|) ≤ q * (p * z) := by nlinarith
    nlinarith [sq_nonneg p, sq_nonneg m']

/-- The integral over the angle. -/
theorem BL.angle {g : ℝ → ℝ → ℝ → ℂ} (hg : BL I g) (hi : ∀ q, 0 < q → ∀ M ∈ I, IntervalIntegrable (fun z => g q z M) volume (-1) 1) :
    BL I fun q _ M => ∫ z in (-1 : ℝ)..1, g q z M := by
  obtain ⟨C, n, hC, hg⟩ := hg
  have hu : ∀ z ∈ uIoc (-1 : ℝ) 1, z ∈ Icc (-1 : ℝ) 1 := fun z hz => by
    rw [uIoc_of_le (by norm_num)] at hz; exact ⟨hz.1.le, hz.2⟩
  refine mk' (C := 2 * C) (D := 2 * C) (n := n) (k := n) (by positivity) (by positivity) (fun q hq z hz M hM => ?_) fun q hq z hz M hM M' hM' => ?_
  · have := intervalIntegral.norm_integral_le_of_norm_le_const (fun z hz => (hg q hq z (hu z hz)).1 M hM)
    refine this.trans (le_of_eq ?_)
    rw [show |(1 : ℝ) - -1| = 2 by norm_num]; ring
  · rw [← intervalIntegral.integral_sub (hi q hq M hM) (hi q hq M' hM')]
    have := intervalIntegral.norm_integral_le_of_norm_le_const (fun z hz => (hg q hq z (hu z hz)).2 M hM M' hM')
    refine this.trans (le_of_eq ?_)
    rw [show |(1 : ℝ) - -1| = 2 by norm_num]; ring

theorem leg_bl {N : ℝ → ℂ → ℝ → ℂ} (hN : NumBL I N) (hc : ∀ q w, Continuous fun z => N q w z) {E : ℝ → ℝ → ℝ} {m m' : ℝ → ℝ} {om p δ : ℝ} (ho : om ≠ 0)
    (hδ : 0 < δ) (hE : BL I fun q _ M => (E q M : ℂ)) (hm : BL I fun _ _ M => (m' M : ℂ) ^ 2)
    (hEm : ∀ q, 0 < q → ∀ M ∈ I, energy q (m M) = E q M)
    (h : ∀ q, 0 < q → ∀ z ∈ Icc (-1 : ℝ) 1, ∀ M ∈ I, ∀ σ : ℝ, |σ| = 1 → δ ≤ ‖den (σ * (Complex.I * E q M)) q om p (m' M) z‖)
    (hW : BL I fun q _ M => ((Real.exp (beta * q) : ℝ) : ℂ) * lineW q (m M) beta) :
    BL I fun q _ M => ((Real.exp (beta * q) : ℝ) : ℂ) * leg (N q) q om p (m M) (m' M) beta := by
  have g1 := num_over_den hN (m' := fun _ => m') (om := om) (p := p) hδ 1 hE hm fun q hq z hz M hM => h q hq z hz M hM 1 (by simp)
  have g2 := num_over_den hN (m' := fun _ => m') (om := om) (p := p) hδ (-1) hE hm fun q hq z hz M hM => h q hq z hz M hM (-1) (by simp)
  have hi : ∀ q, 0 < q → ∀ M ∈ I, IntervalIntegrable (fun z => N q ((1 : ℝ) * (Complex.I * E q M)) z / den ((1 : ℝ) * (Complex.I * E q M)) q om p (m' M) z
      + N q ((-1 : ℝ) * (Complex.I * E q M)) z / den ((-1 : ℝ) * (Complex.I * E q M)) q om p (m' M) z) volume (-1) 1 := fun q hq M hM => by
    have := AngCont.div_den (hc q) (regularLeg_real hq ho p (m M) (m' M))
    refine (ContinuousOn.add ?_ ?_).intervalIntegrable
    · have := this.1
      rw [en_real, hEm q hq M hM] at this
      simpa using this
    · have := this.2
      rw [en_real, hEm q hq M hM] at this
      simpa using this
  refine (hW.mul ((g1.add g2).angle hi)).congr fun q hq z hz M hM => ?_
  rw [leg_avg, avg, en_real, hEm q hq M hM]
  push_cast
  simp only [one_mul, neg_mul]
  ring

theorem Massive.lineW (h : Massive I k e) (hb : 0 < beta) : BL I fun q _ M => ((Real.exp (beta * q) : ℝ) : ℂ) * Qcd.lineW q (√(k M) : ℝ) beta := by
  refine (((BL.q.sq.div_const (4 * (Real.pi : ℂ) ^ 2)).mul (h.bose hb)).mul (h.eK_inv.div_const 2)).congr fun q hq z hz M hM => ?_
  rw [Qcd.lineW, en_real, energy_sqrt (h.nonneg hM), spec_bose_real]
  ring

theorem lineW_massless (hb : 0 < beta) : BL I fun q _ _ => ((Real.exp (beta * q) : ℝ) : ℂ) * lineW q ((0 : ℝ) : ℂ) beta := by
  refine (((bose_massless_bl hb).mul (.const (1 / (8 * (Real.pi : ℂ) ^ 2))))).congr fun q hq z hz M hM => ?_
  have hq0 : (q : ℂ) ≠ 0 := by exact_mod_cast hq.ne'
  rw [lineW, en_real, energy_zero_real hq.le, spec_bose_real]
  push_cast
  field_simp
  ring

theorem leg_massive_bl {N : ℝ → ℂ → ℝ → ℂ} (hN : NumBL I N) (hc : ∀ q w, Continuous fun z => N q w z) {m' : ℝ → ℝ} {om p : ℝ} (ho : om ≠ 0)
    (h : Massive I k e) (hm : BL I fun _ _ M => (m' M : ℂ) ^ 2) (hb : 0 < beta) :
    BL I fun q _ M => ((Real.exp (beta * q) : ℝ) : ℂ) * leg (N q) q om p (√(k M) : ℝ) (m' M) beta :=
  leg_bl hN hc (E := fun q M => eK q (k M)) (m := fun M => √(k M)) ho (δ := 2 * |om| * e) (by have := h.pos; positivity) h.eK hm
    (fun q _ M hM => energy_sqrt (h.nonneg hM) q) (fun q _ z _ M hM σ hσ => den_massive (h.le_eK hM q) q p (m' M) z hσ) (h.lineW hb)

theorem leg_massless_bl {N : ℝ → ℂ → ℝ → ℂ} (hN : NumBL I N) (hc : ∀ q w, Continuous fun z => N q w z) {m' : ℝ → ℝ} {om p : ℝ} (ho : om ≠ 0)
    (hm : BL I fun _ _ M => (m' M : ℂ) ^ 2) (hb : 0 < beta) :
    BL I fun q _ M => ((Real.exp (beta * q) : ℝ) : ℂ) * leg (N q) q om p ((0 : ℝ) : ℂ) (m' M) beta := by
  obtain ⟨δ, hδ, h⟩ := den_massless (p := p) ho
  exact leg_bl hN hc (E := fun q _ => q) (m := fun _ => 0) ho hδ BL.q hm (fun q hq M hM => energy_zero_real hq.le)
    (fun q hq z hz M hM σ hσ => h q hq z hz σ hσ (m' M)) (lineW_massless hb)

theorem measurable_of_deriv {f : ℝ → ℝ → ℂ} {f' : ℝ → ℂ} {M : ℝ} (hm : ∀ᶠ M' in 𝓝 M, IntegrableOn (fun q => f q M') (Ioi 0))
    (h : ∀ q, 0 < q → HasDerivAt (fun M => f q M) (f' q) M) : AEStronglyMeasurable f' (volume.restrict (Ioi 0)) := by
  obtain ⟨ε, hε, hb⟩ := Metric.eventually_nhds_iff.1 hm
  have hx : ∀ n : ℕ, 0 < ε / (n + 2) ∧ ε / (n + 2) < ε := fun n => ⟨by positivity, by
    rw [div_lt_iff₀ (by positivity)]; nlinarith [(Nat.cast_nonneg n : (0 : ℝ) ≤ n)]⟩
  have ht : Tendsto (fun n : ℕ => ε / (n + 2 : ℝ)) atTop (𝓝[≠] 0) := by
    refine tendsto_nhdsWithin_iff.2 ⟨?_, .of_forall fun n => (hx n).1.ne'⟩
    exact tendsto_const_nhds.div_atTop (tendsto_atTop_add_const_right _ _ tendsto_natCast_atTop_atTop)
  refine aestronglyMeasurable_of_tendsto_ae atTop (f := fun (n : ℕ) q => (ε / (n + 2 : ℝ))⁻¹ • (f q (M + ε / (n + 2)) - f q M)) (fun n => ?_) ?_
  · have i1 := hb (y := M + ε / (n + 2)) (by rw [Real.dist_eq, add_sub_cancel_left, abs_of_pos (hx n).1]; exact (hx n).2)
    have i2 := hb (y := M) (by simpa using hε)
    exact ((i1.sub i2).smul (ε / (n + 2 : ℝ))⁻¹).aestronglyMeasurable
  · refine (ae_restrict_iff' measurableSet_Ioi).2 (.of_forall fun q hq => ?_)
    exact ((hasDerivAt_iff_tendsto_slope_zero.1 (h q hq)).comp ht)

/-- Differentiation under the integral sign. -/
theorem Spec.IsMassDerivative.integral {f : ℝ → ℝ → ℂ} {d : ℝ → ℂ} {M a b beta : ℝ} (h : Spec.IsMassDerivative f d M) (ha : a < M) (hb : M < b)
    (hbeta : 0 < beta) (hl : BL (Icc a b) fun q _ M => ((Real.exp (beta * q) : ℝ) : ℂ) * f q M)
    (hm : ∀ᶠ M' in 𝓝 M, IntegrableOn (fun q => f q M') (Ioi 0)) (hd : IntegrableOn d (Ioi 0)) : Spec.IsIntegralDerivative f d M := by
  refine ⟨hm, hd, ?_⟩
  have h' := h
  obtain ⟨f', S, h1, -, -, -⟩ := h
  obtain ⟨C, n, hC, hl⟩ := hl
  have hB : IntegrableOn (fun q : ℝ => C * (1 + q) ^ n * Real.exp (-(beta * q))) (Ioi 0) := by
    have := Dom.bound_integrable (b0 := 4 * beta) (by positivity) C n
    simpa [mul_div_assoc] using this
  have key := hasDerivAt_integral_of_dominated_loc_of_lip (μ := volume.restrict (Ioi (0 : ℝ))) (F := fun M q => f q M) (F' := f')
    (bound := fun q : ℝ => C * (1 + q) ^ n * Real.exp (-(beta * q))) (Icc_mem_nhds ha hb) (hm.mono fun M' h => h.aestronglyMeasurable)
    hm.self_of_nhds (measurable_of_deriv hm h1) ?_ hB ((ae_restrict_iff' measurableSet_Ioi).2 (.of_forall fun q hq => h1 q hq))
  · have e : ∫ q in Ioi (0 : ℝ), f' q = ∫ q in Ioi (0 : ℝ), d q := by
      have := C39_integrals_agree h' ((integrableOn_congr_fun (fun q hq => (h1 q hq).deriv) measurableSet_Ioi).2 key.1) hd
      rw [← this]
      exact setIntegral_congr_fun measurableSet_Ioi fun q hq => ((h1 q hq).deriv).symm
    rw [← e]
    exact key.2
  · refine (ae_restrict_iff' measurableSet_Ioi).2 (.of_forall fun q hq => ?_)
    have hq : 0 < q := hq
    have hp : 0 ≤ C * (1 + q) ^ n * Real.exp (-(beta * q)) := by positivity
    refine LipschitzOnWith.of_dist_le_mul fun x hx y hy => ?_
    rw [dist_eq_norm, Real.coe_nnabs, abs_of_nonneg hp, Real.dist_eq]
    have := (hl q hq 0 (by norm_num)).2 x hx y hy
    rw [← mul_sub, norm_mul, Complex.norm_real, Real.norm_of_nonneg (Real.exp_pos _).le] at this
    have e : Real.exp (-(beta * q)) * Real.exp (beta * q) = 1 := by rw [← Real.exp_add]; simp
    calc ‖f q x - f q y‖ = Real.exp (-(beta * q)) * (Real.exp (beta * q) * ‖f q x - f q y‖) := by rw [← mul_assoc, e, one_mul]
      _ ≤ Real.exp (-(beta * q)) * (C * (1 + q) ^ n * |x - y|) := by gcongr
      _ = _ := by ring

end Qcd
