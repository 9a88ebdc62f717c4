import Verif.Model.PartialIntegrator
import Verif.Model.Qcd
import Verif.Lemmas.ThermalDefined

/-! # The vacuum formulas read over numbers that may be undefined -/

namespace Qcd

/-- What the two numeric types have in common: off the negative real axis (for real numbers: at positive numbers) the logarithm and
the square root are defined, and the square root is the principal one. -/
class NumDomLaw (T : Type) [Num T] [NumDom T] : Prop where
  ln : ∀ x : T, toC x ∈ Complex.slitPlane → NumDom.lnDom x
  sqrt : ∀ x : T, toC x ∈ Complex.slitPlane → NumDom.sqrtDom x
  toC_sqrt : ∀ x : T, toC x ∈ Complex.slitPlane → toC (NumOps.sqrt x) = csqrt (toC x)

instance : NumDomLaw ℝ where
  ln x h := Complex.ofReal_mem_slitPlane.1 h
  sqrt x h := (Complex.ofReal_mem_slitPlane.1 h).le
  toC_sqrt x h := (csqrt_ofReal (Complex.ofReal_mem_slitPlane.1 h).le).symm

instance : NumDomLaw ℂ where
  ln x h := Complex.slitPlane_ne_zero h
  sqrt _ _ := trivial
  toC_sqrt _ _ := rfl

namespace Def
open PV
open Complex (slitPlane)

section ops
variable {T : Type} [Num T] [NumDom T]
theorem ofR_val' (r : ℝ) : (Qcd.ofR r : PV T) = val (Qcd.ofR r) := rfl
variable [NumDomLaw T]
theorem ln_val_slit {x : T} (h : toC x ∈ slitPlane) : NumOps.ln (val x) = val (NumOps.ln x) := if_pos (NumDomLaw.ln x h)
theorem sqrt_val_slit {x : T} (h : toC x ∈ slitPlane) : NumOps.sqrt (val x) = val (NumOps.sqrt x) := if_pos (NumDomLaw.sqrt x h)
end ops

theorem slit_inv {s : ℂ} (h : s ∈ slitPlane) : s⁻¹ ∈ slitPlane := by
  have h0 := Complex.slitPlane_ne_zero h
  have hn := Complex.normSq_pos.2 h0
  rw [Complex.mem_slitPlane_iff] at h ⊢
  rw [Complex.inv_re, Complex.inv_im]
  rcases h with h | h
  · left; positivity
  · right; exact div_ne_zero (neg_ne_zero.2 h) hn.ne'

theorem slit_add {s : ℂ} (h : s ∈ slitPlane) {x : ℝ} (hx : 0 ≤ x) : s + (x : ℂ) ∈ slitPlane := by
  rw [Complex.mem_slitPlane_iff] at h ⊢
  simp only [Complex.add_re, Complex.ofReal_re, Complex.add_im, Complex.ofReal_im, add_zero]
  rcases h with h | h
  · left; linarith
  · right; exact h

theorem slit_mul {s : ℂ} (h : s ∈ slitPlane) {x : ℝ} (hx : 0 < x) : s * (x : ℂ) ∈ slitPlane := by
  rw [Complex.mem_slitPlane_iff] at h ⊢
  simp only [Complex.mul_re, Complex.ofReal_re, Complex.ofReal_im, mul_zero, sub_zero, Complex.mul_im, zero_add]
  rcases h with h | h
  · left; positivity
  · right; simpa using ⟨h, hx.ne'⟩

theorem csqrt_mul_self (z : ℂ) : csqrt z * csqrt z = z := by
  unfold csqrt
  rw [← pow_two, ← Complex.cpow_nat_mul]
  norm_num

theorem csqrt_re_nonneg (z : ℂ) : 0 ≤ (csqrt z).re := by
  rw [csqrt, show (1 : ℂ) / 2 = ((2 : ℕ) : ℂ)⁻¹ by norm_num]
  rcases eq_or_ne z 0 with rfl | hz
  · simp
  · rw [Complex.cpow_def_of_ne_zero hz, Complex.exp_re]
    apply mul_nonneg (Real.exp_nonneg _)
    have h1 := Complex.neg_pi_lt_arg z
    have h2 := Complex.arg_le_pi z
    have e : (Complex.log z * ((2 : ℕ) : ℂ)⁻¹).im = Complex.arg z / 2 := by
      have : ((2 : ℕ) : ℂ)⁻¹ = ((1 / 2 : ℝ) : ℂ) := by push_cast; norm_num
      rw [this, Complex.mul_im, Complex.ofReal_re, Complex.ofReal_im, Complex.log_im]; ring
    rw [e]
    apply Real.cos_nonneg_of_neg_pi_div_two_le_of_le <;> linarith

theorem root_slit {w : ℂ} (h : w ∈ slitPlane) : csqrt (w + 1) - 1 ∈ slitPlane ∧ (csqrt (w + 1) - 1) / (csqrt (w + 1) + 1) ∈ slitPlane ∧
    csqrt (w + 1) ≠ 0 ∧ csqrt (w + 1) + 1 ≠ 0 := by
  have h2 := csqrt_mul_self (w + 1)
  have h0 := csqrt_re_nonneg (w + 1)
  set a := csqrt (w + 1) with ha
  have key : ¬ (a.im = 0 ∧ a.re ≤ 1) := by
    rintro ⟨hi, hr⟩
    have e1 := congrArg Complex.re h2
    have e2 := congrArg Complex.im h2
    simp [hi] at e1 e2
    rw [Complex.mem_slitPlane_iff] at h
    rcases h with h | h
    · nlinarith
    · exact h e2.symm
  have hne : a + 1 ≠ 0 := by
    intro h'
    have := congrArg Complex.re h'
    simp at this
    linarith
  refine ⟨?_, ?_, ?_, hne⟩
  · rw [Complex.mem_slitPlane_iff]
    by_contra hc
    push Not at hc
    simp at hc
    exact key ⟨hc.2, by linarith⟩
  · rw [Complex.mem_slitPlane_iff]
    by_contra hc
    push Not at hc
    obtain ⟨hr, hi⟩ := hc
    have e : (a - 1) / (a + 1) * (a + 1) = a - 1 := div_mul_cancel₀ _ hne
    set r := (a - 1) / (a + 1)
    have e1 := congrArg Complex.re e
    have e2 := congrArg Complex.im e
    simp [hi] at e1 e2
    apply key
    have hai : a.im = 0 := by
      have : a.im * (r.re - 1) = 0 := by linarith
      rcases mul_eq_zero.1 this with h | h
      · exact h
      · linarith
    exact ⟨hai, by nlinarith⟩
  · intro h'
    exact key ⟨by rw [h']; rfl, by rw [h']; norm_num⟩

section
variable {T : Type} [Num T] [NumDom T] [NumDomLaw T] {s : T} (hs : toC s ∈ slitPlane)
include hs

theorem slit_ne : s ≠ 0 := ne_of_toC (Complex.slitPlane_ne_zero hs)

theorem slit_s1 : toC (s + (ofR 1 : T)) ∈ slitPlane := by
  rw [toC_add', toC_ofR]; exact slit_add hs zero_le_one

theorem slit_a2 : toC (s⁻¹ * (ofR 4 : T) + (ofR 1 : T)) ∈ slitPlane := by
  rw [toC_add', toC_mul', toC_ofR, toC_ofR, show toC s⁻¹ = (toC s)⁻¹ from map_inv₀ (Num.toC : T →+* ℂ) s]
  exact slit_add (slit_mul (slit_inv hs) (by norm_num)) zero_le_one

theorem toC_a : toC (NumOps.sqrt (s⁻¹ * (ofR 4 : T) + (ofR 1 : T))) = csqrt ((toC s)⁻¹ * ((4 : ℝ) : ℂ) + 1) := by
  rw [NumDomLaw.toC_sqrt _ (slit_a2 hs), toC_add', toC_mul', toC_ofR, toC_ofR, show toC s⁻¹ = (toC s)⁻¹ from map_inv₀ (Num.toC : T →+* ℂ) s]
  norm_num

theorem slit_w : (toC s)⁻¹ * ((4 : ℝ) : ℂ) ∈ slitPlane := slit_mul (slit_inv hs) (by norm_num)

theorem a_ne : NumOps.sqrt (s⁻¹ * (ofR 4 : T) + (ofR 1 : T)) ≠ 0 := ne_of_toC (by rw [toC_a hs]; exact (root_slit (slit_w hs)).2.2.1)

theorem a1_ne : NumOps.sqrt (s⁻¹ * (ofR 4 : T) + (ofR 1 : T)) + (ofR 1 : T) ≠ 0 := ne_of_toC (by
  rw [toC_add', toC_a hs, toC_ofR]; simpa using (root_slit (slit_w hs)).2.2.2)

theorem slit_am : toC ((NumOps.sqrt (s⁻¹ * (ofR 4 : T) + (ofR 1 : T)) - (ofR 1 : T)) / (ofR 2 : T)) ∈ slitPlane := by
  rw [show ∀ x y : T, toC (x / y) = toC x / toC y from map_div₀ (Num.toC : T →+* ℂ), toC_sub', toC_a hs, toC_ofR, toC_ofR, div_eq_mul_inv, ← Complex.ofReal_inv]
  apply slit_mul _ (by norm_num)
  simpa using (root_slit (slit_w hs)).1

theorem slit_aq : toC ((NumOps.sqrt (s⁻¹ * (ofR 4 : T) + (ofR 1 : T)) - (ofR 1 : T)) / (NumOps.sqrt (s⁻¹ * (ofR 4 : T) + (ofR 1 : T)) + (ofR 1 : T))) ∈ slitPlane := by
  rw [show ∀ x y : T, toC (x / y) = toC x / toC y from map_div₀ (Num.toC : T →+* ℂ), toC_sub', toC_add', toC_a hs, toC_ofR]
  simpa using (root_slit (slit_w hs)).2.1

theorem ghost_g_val : ghost.g (val s) = val (ghost.g s) := by
  simp (disch := first | exact ofR_ne_zero (by norm_num) | exact slit_ne hs) only [ghost.g, ghost.g_sep, ghost.l_g, ghost.r_g, ofR_val', add_val, sub_val, mul_val, neg_val, inv_val, div_val, ln_val_slit hs, ln_val_slit (slit_s1 hs)]

theorem gluon_f_val : gluon.f (val s) = val (gluon.f s) := by
  simp (disch := first | exact ofR_ne_zero (by norm_num) | exact slit_ne hs) only [gluon.f, gluon.f_sep, gluon.l_a, gluon.l_b, gluon.l_c, gluon.r_a, gluon.r_b, gluon.r_c, ofR_val', add_val, sub_val, mul_val, neg_val, inv_val, div_val, ln_val_slit hs, ln_val_slit (slit_s1 hs), sqrt_val_slit (slit_a2 hs), ln_val_slit (slit_am hs)]

theorem gluon_f_xi_val : gluon.f_xi (val s) = val (gluon.f_xi s) := by
  simp (disch := first | exact ofR_ne_zero (by norm_num) | exact slit_ne hs) only [gluon.f_xi, gluon.f_xi_sep, ofR_val', add_val, sub_val, mul_val, neg_val, inv_val, div_val, ln_val_slit hs, ln_val_slit (slit_s1 hs)]

theorem ghost_g_xi_val : ghost.g_xi (val s) = val (ghost.g_xi s) := by
  simp (disch := first | exact ofR_ne_zero (by norm_num) | exact slit_ne hs) only [ghost.g_xi, ofR_val', add_val, sub_val, mul_val, neg_val, inv_val, div_val, ln_val_slit hs]

theorem gluon_f_q_val : gluon.f_q (val s) = val (gluon.f_q s) := by
  simp (disch := first | exact ofR_ne_zero (by norm_num) | exact slit_ne hs | exact a1_ne hs) only [gluon.f_q, ofR_val', add_val, sub_val, mul_val, neg_val, inv_val, div_val, sqrt_val_slit (slit_a2 hs), ln_val_slit (slit_aq hs)]

theorem gluon_f_q_crossed_val : gluon.f_q_crossed (val s) = val (gluon.f_q_crossed s) := by
  simp (disch := first | exact ofR_ne_zero (by norm_num) | exact slit_ne hs | exact a1_ne hs | exact a_ne hs) only [gluon.f_q_crossed, ofR_val', add_val, sub_val, mul_val, neg_val, inv_val, div_val, sqrt_val_slit (slit_a2 hs), ln_val_slit (slit_aq hs)]

theorem ghost_g_sep_val : ghost.g_sep (val s) (val (NumOps.ln s)) (val (NumOps.ln (s + ofR 1))) = val (ghost.g_sep s (NumOps.ln s) (NumOps.ln (s + ofR 1))) := by
  simpa only [ghost.g, ofR_val', add_val, ln_val_slit hs, ln_val_slit (slit_s1 hs)] using ghost_g_val hs

theorem gluon_f_sep_val : gluon.f_sep (val s) (val (NumOps.ln s)) (val (NumOps.ln (s + ofR 1))) = val (gluon.f_sep s (NumOps.ln s) (NumOps.ln (s + ofR 1))) := by
  simpa only [gluon.f, ofR_val', add_val, ln_val_slit hs, ln_val_slit (slit_s1 hs)] using gluon_f_val hs

theorem gluon_f_xi_sep_val : gluon.f_xi_sep (val s) (val (NumOps.ln s)) (val (NumOps.ln (s + ofR 1))) = val (gluon.f_xi_sep s (NumOps.ln s) (NumOps.ln (s + ofR 1))) := by
  simpa only [gluon.f_xi, ofR_val', add_val, ln_val_slit hs, ln_val_slit (slit_s1 hs)] using gluon_f_xi_val hs

theorem ghost_g_xi_sep_val : ghost.g_xi_sep (val (NumOps.ln s)) = val (ghost.g_xi_sep (NumOps.ln s)) := by
  simpa only [ghost.g_xi, ghost.g_xi_sep, ln_val_slit hs] using ghost_g_xi_val hs

theorem ghost_dressing_inv_landau_val (g0 : ℝ) : ghost.dressing_inv_landau (val s) g0 = val (ghost.dressing_inv_landau s g0) := by
  simp only [ghost.dressing_inv_landau, ghost.dressing_inv_landau_sep, ofR_val', add_val, ln_val_slit hs, ln_val_slit (slit_s1 hs), ghost_g_sep_val hs]

theorem ghost_dressing_inv_val (g0 xi : ℝ) : ghost.dressing_inv (val s) g0 xi = val (ghost.dressing_inv s g0 xi) := by
  simp only [ghost.dressing_inv, ghost.dressing_inv_sep, ghost.dressing_inv_landau_sep, ofR_val', add_val, mul_val, ln_val_slit hs, ln_val_slit (slit_s1 hs), ghost_g_sep_val hs, ghost_g_xi_sep_val hs]

theorem ym_dressing_inv_landau_val (f0 : ℝ) : ym.gluon.dressing_inv_landau (val s) f0 = val (ym.gluon.dressing_inv_landau s f0) := by
  simp only [ym.gluon.dressing_inv_landau, gluon.ym_dressing_inv_landau_sep, ofR_val', add_val, ln_val_slit hs, ln_val_slit (slit_s1 hs), gluon_f_sep_val hs]

theorem ym_dressing_inv_val (f0 xi : ℝ) : ym.gluon.dressing_inv (val s) f0 xi = val (ym.gluon.dressing_inv s f0 xi) := by
  simp only [ym.gluon.dressing_inv, gluon.ym_dressing_inv_sep, gluon.ym_dressing_inv_landau_sep, ofR_val', add_val, mul_val, ln_val_slit hs, ln_val_slit (slit_s1 hs), gluon_f_sep_val hs, gluon_f_xi_sep_val hs]

theorem slit_div {x : ℝ} (hx : 0 < x) : toC (s / (ofR x : T)) ∈ slitPlane := by
  rw [show ∀ x y : T, toC (x / y) = toC x / toC y from map_div₀ (Num.toC : T →+* ℂ), toC_ofR, div_eq_mul_inv, ← Complex.ofReal_inv]
  exact slit_mul hs (inv_pos.2 hx)

theorem qcd_dressing_inv_landau_val (k : consts.Consts ℝ) {r : ℝ} (hr : r ≠ 0) (f0 : ℝ) :
    qcd.gluon.dressing_inv_landau k (val s) r f0 = val (qcd.gluon.dressing_inv_landau k s r f0) := by
  have h2 : 0 < r * r := mul_self_pos.2 hr
  simp only [qcd.gluon.dressing_inv_landau, gluon.ym_dressing_inv_landau_sep, ofR_val', add_val, mul_val, div_val (ofR_ne_zero h2.ne'), ln_val_slit hs, ln_val_slit (slit_s1 hs), gluon_f_sep_val hs, gluon_f_q_val (slit_div hs h2)]

theorem qcd_dressing_inv_val (k : consts.Consts ℝ) {r : ℝ} (hr : r ≠ 0) (f0 xi : ℝ) :
    qcd.gluon.dressing_inv k (val s) r f0 xi = val (qcd.gluon.dressing_inv k s r f0 xi) := by
  have h2 : 0 < r * r := mul_self_pos.2 hr
  simp only [qcd.gluon.dressing_inv, gluon.ym_dressing_inv_sep, gluon.ym_dressing_inv_landau_sep, ofR_val', add_val, mul_val, div_val (ofR_ne_zero h2.ne'), ln_val_slit hs, ln_val_slit (slit_s1 hs), gluon_f_sep_val hs, gluon_f_xi_sep_val hs, gluon_f_q_val (slit_div hs h2)]

theorem qcd_dressing_crossed_inv_landau_val (k : consts.Consts ℝ) {r : ℝ} (hr : r ≠ 0) (f0 : ℝ) :
    qcd.gluon.dressing_crossed_inv_landau k (val s) r f0 = val (qcd.gluon.dressing_crossed_inv_landau k s r f0) := by
  have h2 : 0 < r * r := mul_self_pos.2 hr
  simp only [qcd.gluon.dressing_crossed_inv_landau, gluon.ym_dressing_inv_landau_sep, ofR_val', add_val, mul_val, div_val (ofR_ne_zero h2.ne'), ln_val_slit hs, ln_val_slit (slit_s1 hs), gluon_f_sep_val hs, gluon_f_q_crossed_val (slit_div hs h2)]

theorem qcd_dressing_crossed_inv_val (k : consts.Consts ℝ) {r : ℝ} (hr : r ≠ 0) (f0 xi : ℝ) :
    qcd.gluon.dressing_crossed_inv k (val s) r f0 xi = val (qcd.gluon.dressing_crossed_inv k s r f0 xi) := by
  have h2 : 0 < r * r := mul_self_pos.2 hr
  simp only [qcd.gluon.dressing_crossed_inv, gluon.ym_dressing_inv_sep, gluon.ym_dressing_inv_landau_sep, ofR_val', add_val, mul_val, div_val (ofR_ne_zero h2.ne'), ln_val_slit hs, ln_val_slit (slit_s1 hs), gluon_f_sep_val hs, gluon_f_xi_sep_val hs, gluon_f_q_crossed_val (slit_div hs h2)]

theorem foldl_val (F : PV T → PV T) (G : T → T) (hFG : ∀ s : T, toC s ∈ slitPlane → F (val s) = val (G s)) (r : T) (l : List QuarkInternal)
    (hl : ∀ q ∈ l, 0 < q.mq_div_m_2) :
    l.foldl (fun res qi => res + F (val s / ofR qi.mq_div_m_2) * ofR qi.nf_div_nc) (val r)
      = val (l.foldl (fun res qi => res + G (s / ofR qi.mq_div_m_2) * ofR qi.nf_div_nc) r) := by
  induction l generalizing r with
  | nil => rfl
  | cons q l ih =>
    have hq : 0 < q.mq_div_m_2 := hl q (by simp)
    simp only [List.foldl_cons, ofR_val', div_val (ofR_ne_zero hq.ne'), hFG _ (slit_div hs hq), mul_val, add_val] at ih ⊢
    rw [ih _ (fun q h => hl q (by simp [h]))]

variable (k : consts.Consts ℝ) {nc : ℕ} {m : ℝ} {qs : List (ℕ × ℝ)} (hm : m ≠ 0) (hq : ∀ q ∈ qs, q.2 ≠ 0)
include hm hq

omit [NumDom T] [NumDomLaw T] [Num T] hs in
theorem config_pos : ∀ q ∈ (FieldConfig.new nc m qs).quarks_internal, 0 < q.mq_div_m_2 := by
  intro q hqi
  simp only [FieldConfig.new, List.mem_map] at hqi
  obtain ⟨p, hp, rfl⟩ := hqi
  simp only [QuarkInternal.new]
  exact mul_self_pos.2 (div_ne_zero (hq p hp) hm)

theorem qcd_config_inv_landau_val (f0 : ℝ) : qcd.gluon.dressing_inv_landau_w_field_config k (val s) f0 (FieldConfig.new nc m qs)
    = val (qcd.gluon.dressing_inv_landau_w_field_config k s f0 (FieldConfig.new nc m qs)) := by
  have := foldl_val hs gluon.f_q gluon.f_q (fun s hs => gluon_f_q_val hs) (ym.gluon.dressing_inv_landau s f0) _ (config_pos (nc := nc) hm hq)
  rw [← ym_dressing_inv_landau_val hs] at this
  exact this

theorem qcd_config_inv_val (f0 xi : ℝ) : qcd.gluon.dressing_inv_w_field_config k (val s) f0 xi (FieldConfig.new nc m qs)
    = val (qcd.gluon.dressing_inv_w_field_config k s f0 xi (FieldConfig.new nc m qs)) := by
  have := foldl_val hs gluon.f_q gluon.f_q (fun s hs => gluon_f_q_val hs) (ym.gluon.dressing_inv s f0 xi) _ (config_pos (nc := nc) hm hq)
  rw [← ym_dressing_inv_val hs] at this
  exact this

theorem qcd_config_crossed_inv_landau_val (f0 : ℝ) : qcd.gluon.dressing_crossed_inv_landau_w_field_config k (val s) f0 (FieldConfig.new nc m qs)
    = val (qcd.gluon.dressing_crossed_inv_landau_w_field_config k s f0 (FieldConfig.new nc m qs)) := by
  have := foldl_val hs gluon.f_q_crossed gluon.f_q_crossed (fun s hs => gluon_f_q_crossed_val hs) (ym.gluon.dressing_inv_landau s f0) _ (config_pos (nc := nc) hm hq)
  rw [← ym_dressing_inv_landau_val hs] at this
  exact this

theorem qcd_config_crossed_inv_val (f0 xi : ℝ) : qcd.gluon.dressing_crossed_inv_w_field_config k (val s) f0 xi (FieldConfig.new nc m qs)
    = val (qcd.gluon.dressing_crossed_inv_w_field_config k s f0 xi (FieldConfig.new nc m qs)) := by
  have := foldl_val hs gluon.f_q_crossed gluon.f_q_crossed (fun s hs => gluon_f_q_crossed_val hs) (ym.gluon.dressing_inv s f0 xi) _ (config_pos (nc := nc) hm hq)
  rw [← ym_dressing_inv_val hs] at this
  exact this

end
end Def
end Qcd
