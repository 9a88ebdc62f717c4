import Verif.Props.QuarkDensity

/-! # Lemmas: the secant method on the charge density at low temperature -/

namespace Qcd.SecantFailure
open Filter Topology Set
open utils

/-- A family of functions which become flat between `-m` and `m`, and grow faster than linearly at large arguments. -/
structure Family (r : ℝ → ℝ → ℝ) (m : ℝ) : Prop where
  mono : ∀ᶠ b in atTop, StrictMono (r b)
  flat : ∀ M < m, ∃ L : ℝ → ℝ, Tendsto L atTop (𝓝 0) ∧ ∀ᶠ b in atTop, ∀ x y, |x| ≤ M → |y| ≤ M → |r b y - r b x| ≤ L b * |y - x|
  zero : ∀ᶠ b in atTop, r b 0 = 0
  large : ∀ y : ℝ → ℝ, Tendsto y atTop atTop → Tendsto (fun b => r b (y b) / y b) atTop atTop

noncomputable def slope (r : ℝ → ℝ) (x y : ℝ) : ℝ := (r y - r x) / (y - x)

theorem slope_pos {r : ℝ → ℝ} (h : StrictMono r) {x y : ℝ} (hxy : x ≠ y) : 0 < slope r x y := by
  unfold slope
  rcases lt_or_gt_of_ne hxy with h' | h'
  · exact div_pos (sub_pos.2 (h h')) (sub_pos.2 h')
  · exact div_pos_of_neg_of_neg (sub_neg.2 (h h')) (sub_neg.2 h')

/-- One step of the secant method for `n - r`. -/
noncomputable def sec (r : ℝ → ℝ) (n x y : ℝ) : ℝ := (x * (n - r y) - y * (n - r x)) / ((n - r y) - (n - r x))

theorem sec_eq {r : ℝ → ℝ} (h : StrictMono r) (n : ℝ) {x y : ℝ} (hxy : x ≠ y) :
    sec r n x y = y + (n - r y) * (slope r x y)⁻¹ ∧ sec r n x y = x + (n - r x) * (slope r x y)⁻¹ := by
  have h1 : r y - r x ≠ 0 := sub_ne_zero.2 fun e => hxy (h.injective e.symm)
  have h2 : y - x ≠ 0 := sub_ne_zero.2 hxy.symm
  have h3 : (n - r y) - (n - r x) ≠ 0 := by rw [show (n - r y) - (n - r x) = -(r y - r x) by ring]; exact neg_ne_zero.2 h1
  unfold sec slope
  constructor
  · rw [inv_div, div_eq_iff h3]; field_simp; ring
  · rw [inv_div, div_eq_iff h3]; field_simp; ring

variable {r : ℝ → ℝ → ℝ} {m : ℝ} (hr : Family r m)
include hr

theorem Family.small {x : ℝ → ℝ} {c : ℝ} (hx : Tendsto x atTop (𝓝 c)) (hc : |c| < m) : Tendsto (fun b => r b (x b)) atTop (𝓝 0) := by
  obtain ⟨M, h1, h2⟩ := exists_between hc
  obtain ⟨L, hL, h⟩ := hr.flat M h2
  have hb : Tendsto (fun b => L b * |x b|) atTop (𝓝 0) := by simpa using hL.mul hx.abs
  rw [tendsto_zero_iff_abs_tendsto_zero]
  refine tendsto_of_tendsto_of_tendsto_of_le_of_le' tendsto_const_nhds hb (.of_forall fun b => abs_nonneg _) ?_
  filter_upwards [h, hr.zero, hx.abs.eventually (gt_mem_nhds h1)] with b hb h0 hM
  have := hb 0 (x b) (by rw [abs_zero]; exact (abs_nonneg _).trans hM.le) hM.le
  rwa [h0, sub_zero, sub_zero] at this

theorem Family.flat_slope {x y : ℝ → ℝ} {a c : ℝ} (hx : Tendsto x atTop (𝓝 a)) (ha : |a| < m) (hy : Tendsto y atTop (𝓝 c)) (hc : |c| < m)
    (hne : ∀ᶠ b in atTop, x b ≠ y b) : Tendsto (fun b => (slope (r b) (x b) (y b))⁻¹) atTop atTop := by
  obtain ⟨M, h1, h2⟩ := exists_between (max_lt ha hc)
  obtain ⟨L, hL, h⟩ := hr.flat M h2
  have hs : Tendsto (fun b => slope (r b) (x b) (y b)) atTop (𝓝[>] 0) := by
    refine tendsto_nhdsWithin_iff.2 ⟨?_, ?_⟩
    · refine tendsto_of_tendsto_of_tendsto_of_le_of_le' tendsto_const_nhds hL ?_ ?_
      · filter_upwards [hr.mono, hne] with b hm hn using (slope_pos hm hn).le
      · filter_upwards [hr.mono, hne, h, hx.abs.eventually (gt_mem_nhds ((le_max_left _ _).trans_lt h1)),
          hy.abs.eventually (gt_mem_nhds ((le_max_right _ _).trans_lt h1))] with b hm hn hb h3 h4
        have h5 := hb (x b) (y b) h3.le h4.le
        have h6 : 0 < |y b - x b| := abs_pos.2 (sub_ne_zero.2 hn.symm)
        have h7 := (slope_pos hm hn).le
        rw [← abs_of_nonneg h7]
        unfold slope
        rwa [abs_div, div_le_iff₀ h6]
    · filter_upwards [hr.mono, hne] with b hm hn using slope_pos hm hn
  exact tendsto_inv_nhdsGT_zero.comp hs

theorem Family.steep_slope {x y : ℝ → ℝ} {c : ℝ} (hx : Tendsto x atTop (𝓝 c)) (hc : |c| < m) (hy : Tendsto y atTop atTop) :
    Tendsto (fun b => (slope (r b) (x b) (y b))⁻¹) atTop (𝓝 0) := by
  have h1 := hr.large y hy
  have h2 : Tendsto (fun b => r b (x b) / y b) atTop (𝓝 0) := (hr.small hx hc).div_atTop hy
  have h3 : Tendsto (fun b => x b / y b) atTop (𝓝 0) := hx.div_atTop hy
  have h4 : Tendsto (fun b => (r b (y b) / y b - r b (x b) / y b)) atTop atTop := by
    simpa [sub_eq_add_neg] using h1.atTop_add h2.neg
  have h5 : Tendsto (fun b => (1 - x b / y b)⁻¹) atTop (𝓝 1) := by
    have := (tendsto_const_nhds (x := (1 : ℝ)).sub h3).inv₀ (by norm_num)
    simpa using this
  have h6 : Tendsto (fun b => slope (r b) (x b) (y b)) atTop atTop := by
    refine (h4.atTop_mul_pos one_pos h5).congr' ?_
    filter_upwards [hy.eventually_gt_atTop 0, h3.eventually (gt_mem_nhds zero_lt_one)] with b hb h7
    unfold slope
    have h8 : 1 - x b / y b ≠ 0 := by linarith
    have h9 : y b - x b ≠ 0 := by
      intro e
      have : x b = y b := by linarith
      rw [this, div_self hb.ne'] at h7
      exact lt_irrefl _ h7
    field_simp
  exact h6.inv_tendsto_atTop

/-- The states of the iteration, in turn. -/
inductive State (m : ℝ) (x y : ℝ → ℝ) : Prop
  | near {a c : ℝ} (hx : Tendsto x atTop (𝓝 a)) (ha : |a| < m) (hy : Tendsto y atTop (𝓝 c)) (hc : |c| < m) (hne : ∀ᶠ b in atTop, x b ≠ y b)
  | out {c : ℝ} (hx : Tendsto x atTop (𝓝 c)) (hc : |c| < m) (hy : Tendsto y atTop atTop)
  | back {c : ℝ} (hx : Tendsto x atTop atTop) (hy : Tendsto y atTop (𝓝 c)) (hc : |c| < m)

theorem State.step {n : ℝ} (hn : 0 < n) {x y : ℝ → ℝ} (h : State m x y) : State m y (fun b => sec (r b) n (x b) (y b)) := by
  have val {x : ℝ → ℝ} {c : ℝ} (hx : Tendsto x atTop (𝓝 c)) (hc : |c| < m) : Tendsto (fun b => n - r b (x b)) atTop (𝓝 n) := by
    simpa using tendsto_const_nhds.sub (hr.small hx hc)
  have ne {x y : ℝ → ℝ} {c : ℝ} (hx : Tendsto x atTop (𝓝 c)) (hy : Tendsto y atTop atTop) : ∀ᶠ b in atTop, x b < y b := by
    filter_upwards [hx.eventually (gt_mem_nhds (lt_add_one c)), hy.eventually_gt_atTop (c + 1)] with b h1 h2
    linarith
  cases h with
  | near hx ha hy hc hne =>
    refine .out hy hc ?_
    have h1 := (val hy hc).pos_mul_atTop hn (hr.flat_slope hx ha hy hc hne)
    have h2 := hy.add_atTop h1
    refine h2.congr' ?_
    filter_upwards [hr.mono, hne] with b hm hb
    exact ((sec_eq hm n hb).1).symm
  | @out c hx hc hy =>
    refine .back (c := c) hy ?_ hc
    have h1 := hx.add ((val hx hc).mul (hr.steep_slope hx hc hy))
    rw [mul_zero, add_zero] at h1
    refine h1.congr' ?_
    filter_upwards [hr.mono, ne hx hy] with b hm hb
    exact ((sec_eq hm n hb.ne).2).symm
  | @back c hx hy hc =>
    have sym (b) : slope (r b) (y b) (x b) = slope (r b) (x b) (y b) := by
      unfold slope
      rw [← neg_div_neg_eq, neg_sub, neg_sub]
    have h1 := hy.add ((val hy hc).mul (hr.steep_slope hy hc hx))
    rw [mul_zero, add_zero] at h1
    refine .near (a := c) (c := c) hy hc (h1.congr' ?_) hc ?_
    · filter_upwards [hr.mono, ne hy hx] with b hm hb
      rw [(sec_eq hm n hb.ne').1, sym]
    · filter_upwards [hr.mono, ne hy hx, (val hy hc).eventually (lt_mem_nhds hn)] with b hm hb hv
      rw [(sec_eq hm n hb.ne').1]
      have := mul_pos hv (inv_pos.2 (slope_pos hm hb.ne'))
      linarith

theorem State.value {n tol : ℝ} (htn : tol < n) {x y : ℝ → ℝ} (h : State m x y) : ∀ᶠ b in atTop, tol ≤ |n - r b (y b)| := by
  have near {y : ℝ → ℝ} {c : ℝ} (hy : Tendsto y atTop (𝓝 c)) (hc : |c| < m) : ∀ᶠ b in atTop, tol ≤ |n - r b (y b)| := by
    have : Tendsto (fun b => n - r b (y b)) atTop (𝓝 n) := by simpa using tendsto_const_nhds.sub (hr.small hy hc)
    filter_upwards [this.eventually (lt_mem_nhds htn)] with b hb
    exact hb.le.trans (le_abs_self _)
  cases h with
  | near hx ha hy hc hne => exact near hy hc
  | back hx hy hc => exact near hy hc
  | out hx hc hy =>
    have h1 := (hr.large _ hy).atTop_mul_atTop₀ hy
    filter_upwards [h1.eventually_ge_atTop (n + tol), hy.eventually_gt_atTop 0] with b hb h0
    rw [div_mul_cancel₀ _ h0.ne'] at hb
    rw [abs_sub_comm]
    exact le_trans (by linarith) (le_abs_self _)

/-- The iteration does not end with a root. -/
theorem loop_none {n tol : ℝ} (hn : 0 < n) (htn : tol < n) (N : ℕ) : ∀ {x y : ℝ → ℝ}, State m x y → ∀ᶠ b in atTop,
    (loop (exactOps ℝ) (fun mu => n - r b mu) tol N (x b) (y b) (n - r b (x b)) (n - r b (y b))).1 = .none := by
  induction N with
  | zero => exact fun _ => .of_forall fun b => rfl
  | succ N ih =>
    intro x y h
    filter_upwards [ih (h.step hr hn), h.value hr htn] with b h1 h2
    have hlt : (exactOps ℝ).lt ((exactOps ℝ).abs (n - r b (y b))) tol = false := by
      simpa [exactOps, Qcd.abs] using h2
    simp only [loop]
    rw [if_neg (by simp [exactOps]), if_neg (by rw [hlt]; simp)]
    exact h1

end Qcd.SecantFailure
