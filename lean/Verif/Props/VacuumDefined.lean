import Verif.Model.Partial
import Verif.Model.Qcd
import Verif.Props.QuarkLoop
import Mathlib.Tactic.Positivity

/-! C26: the vacuum functions never leave the domain of the operations they use. -/

namespace Qcd
open PReal
open consts (Consts)

/-- **C26** (loop functions): at every `s > 0` the evaluation meets no division by zero, no
logarithm of a non-positive number, no square root of a negative one, and the value is the
exact one. -/
theorem C26_loops (s : ℝ) (hs : 0 < s) :
    ghost.g (val s) = val (ghost.g s) ∧ ghost.g_xi (val s) = val (ghost.g_xi s) ∧
    gluon.f (val s) = val (gluon.f s) ∧ gluon.f_xi (val s) = val (gluon.f_xi s) ∧
    gluon.f_q (val s) = val (gluon.f_q s) ∧
    gluon.f_q_crossed (val s) = val (gluon.f_q_crossed s) := by
  have hs0 := hs.ne'
  have hs1 : 0 < s + 1 := by linarith
  have h2 : 0 ≤ s⁻¹ * 4 + 1 := by positivity
  obtain ⟨ha, -⟩ := root_facts hs
  have ha0 : Real.sqrt (s⁻¹ * 4 + 1) ≠ 0 := by linarith
  have ha1 : Real.sqrt (s⁻¹ * 4 + 1) + 1 ≠ 0 := by linarith
  have h3 : 0 < (Real.sqrt (s⁻¹ * 4 + 1) - 1) / 2 := by linarith
  have h4 : 0 < (Real.sqrt (s⁻¹ * 4 + 1) - 1) / (Real.sqrt (s⁻¹ * 4 + 1) + 1) :=
    div_pos (by linarith) (by linarith)
  have n2 : (2 : ℝ) ≠ 0 := by norm_num
  have n4 : (4 : ℝ) ≠ 0 := by norm_num
  have n8 : (8 : ℝ) ≠ 0 := by norm_num
  have n9 : (9 : ℝ) ≠ 0 := by norm_num
  have n12 : (12 : ℝ) ≠ 0 := by norm_num
  have n72 : (72 : ℝ) ≠ 0 := by norm_num
  refine ⟨?_, ?_, ?_, ?_, ?_, ?_⟩
  · simp only [ghost.g, ghost.g_sep, ghost.l_g, ghost.r_g, ofR_val, ofR_real, ln_real, add_val,
      sub_val, mul_val, inv_val hs0, ln_val hs, ln_val hs1, div_val n12]
  · simp only [ghost.g_xi, ofR_val, ofR_real, ln_real, neg_val, ln_val hs, div_val n12]
  · simp only [gluon.f, gluon.f_sep, gluon.l_a, gluon.l_b, gluon.l_c, gluon.r_a, gluon.r_b,
      gluon.r_c, ofR_val, ofR_real, ln_real, sqrt_real, add_val, sub_val, mul_val, neg_val,
      inv_val hs0, ln_val hs, ln_val hs1, sqrt_val h2, div_val n2, div_val n72, div_val n8,
      ln_val h3]
  · simp only [gluon.f_xi, gluon.f_xi_sep, ofR_val, ofR_real, ln_real, add_val, sub_val, mul_val,
      inv_val hs0, ln_val hs, ln_val hs1, div_val n4, div_val n12]
  · simp only [gluon.f_q, ofR_val, ofR_real, ln_real, sqrt_real, add_val, sub_val, mul_val, neg_val,
      inv_val hs0, sqrt_val h2, div_val ha1, ln_val h4, div_val n9]
  · simp only [gluon.f_q_crossed, ofR_val, ofR_real, ln_real, sqrt_real, add_val, sub_val, mul_val,
      inv_val hs0, sqrt_val h2, div_val ha1, div_val ha0, ln_val h4, div_val n9]

/-- **C26** (ghost and Yang-Mills inverse dressings; dressings and propagators wherever the inverse
dressing is not zero). -/
theorem C26_ym (s f0 g0 xi : ℝ) (hs : 0 < s) :
    ghost.dressing_inv (val s) g0 xi = val (ghost.dressing_inv s g0 xi) ∧
    ym.gluon.dressing_inv_landau (val s) f0 = val (ym.gluon.dressing_inv_landau s f0) ∧
    ym.gluon.dressing_inv (val s) f0 xi = val (ym.gluon.dressing_inv s f0 xi) ∧
    (ym.gluon.dressing_inv s f0 xi ≠ 0 →
      ym.gluon.dressing (val s) f0 xi = val (ym.gluon.dressing s f0 xi) ∧
      ym.gluon.propagator (val s) f0 xi = val (ym.gluon.propagator s f0 xi)) ∧
    (ghost.dressing_inv s g0 xi ≠ 0 →
      ghost.dressing (val s) g0 xi = val (ghost.dressing s g0 xi) ∧
      ghost.propagator (val s) g0 xi = val (ghost.propagator s g0 xi)) := by
  have hs1 : 0 < s + 1 := by linarith
  have n12 : (12 : ℝ) ≠ 0 := by norm_num
  have hf : gluon.f_sep (val s) (val (Real.log s)) (val (Real.log (s + 1)))
      = val (gluon.f_sep s (Real.log s) (Real.log (s + 1))) := by
    have := (C26_loops s hs).2.2.1
    simpa only [gluon.f, ofR_val, add_val, ln_val hs, ln_val hs1, ofR_real, ln_real] using this
  have hx : gluon.f_xi_sep (val s) (val (Real.log s)) (val (Real.log (s + 1)))
      = val (gluon.f_xi_sep s (Real.log s) (Real.log (s + 1))) := by
    have := (C26_loops s hs).2.2.2.1
    simpa only [gluon.f_xi, ofR_val, add_val, ln_val hs, ln_val hs1, ofR_real, ln_real] using this
  have hg : ghost.g_sep (val s) (val (Real.log s)) (val (Real.log (s + 1)))
      = val (ghost.g_sep s (Real.log s) (Real.log (s + 1))) := by
    have := (C26_loops s hs).1
    simpa only [ghost.g, ofR_val, add_val, ln_val hs, ln_val hs1, ofR_real, ln_real] using this
  have h1 : ghost.dressing_inv (val s) g0 xi = val (ghost.dressing_inv s g0 xi) := by
    simp only [ghost.dressing_inv, ghost.dressing_inv_sep, ghost.dressing_inv_landau_sep,
      ghost.g_xi_sep, ofR_val, add_val, ln_val hs, ln_val hs1, hg, neg_val, div_val n12, mul_val,
      ofR_real, ln_real]
  have h2 : ym.gluon.dressing_inv_landau (val s) f0 = val (ym.gluon.dressing_inv_landau s f0) := by
    simp only [ym.gluon.dressing_inv_landau, gluon.ym_dressing_inv_landau_sep, ofR_val, add_val,
      ln_val hs, ln_val hs1, hf, ofR_real, ln_real]
  have h3 : ym.gluon.dressing_inv (val s) f0 xi = val (ym.gluon.dressing_inv s f0 xi) := by
    simp only [ym.gluon.dressing_inv, gluon.ym_dressing_inv_sep, gluon.ym_dressing_inv_landau_sep,
      ofR_val, add_val, ln_val hs, ln_val hs1, hf, hx, mul_val, ofR_real, ln_real]
  refine ⟨h1, h2, h3, fun hne => ?_, fun hne => ?_⟩
  · have e : ym.gluon.dressing (val s) f0 xi = val (ym.gluon.dressing s f0 xi) := by
      simp only [ym.gluon.dressing, h3, inv_val hne]
    exact ⟨e, by simp only [ym.gluon.propagator, e, inv_val hs.ne', mul_val]⟩
  · have e : ghost.dressing (val s) g0 xi = val (ghost.dressing s g0 xi) := by
      simp only [ghost.dressing, h1, inv_val hne]
    exact ⟨e, by simp only [ghost.propagator, e, inv_val hs.ne', mul_val]⟩

theorem foldl_val (F : PReal → PReal) (G : ℝ → ℝ) (hFG : ∀ s : ℝ, 0 < s → F (val s) = val (G s))
    (s r : ℝ) (hs : 0 < s) (l : List QuarkInternal) (hl : ∀ q ∈ l, 0 < q.mq_div_m_2) :
    l.foldl (fun res qi => res + F (val s / ofR qi.mq_div_m_2) * ofR qi.nf_div_nc) (val r)
      = val (l.foldl (fun res qi => res + G (s / ofR qi.mq_div_m_2) * ofR qi.nf_div_nc) r) := by
  induction l generalizing r with
  | nil => rfl
  | cons q l ih =>
    have hq : 0 < q.mq_div_m_2 := hl q (by simp)
    simp only [List.foldl_cons]
    rw [ofR_val, ofR_val, div_val hq.ne', hFG _ (div_pos hs hq), mul_val, add_val,
      ih _ (fun q h => hl q (by simp [h]))]
    rfl

/-- **C26** (QCD): inverse dressings of any configuration built by `new` with nonzero masses, plain
and crossed; and the propagator wherever the inverse dressing is not zero. -/
theorem C26_qcd (k : Consts ℝ) (s f0 xi : ℝ) (hs : 0 < s) (nc : ℕ) (m : ℝ) (qs : List (ℕ × ℝ))
    (hm : m ≠ 0) (hq : ∀ q ∈ qs, q.2 ≠ 0) :
    let c := FieldConfig.new nc m qs
    qcd.gluon.dressing_inv_w_field_config k (val s) f0 xi c
      = val (qcd.gluon.dressing_inv_w_field_config k s f0 xi c) ∧
    qcd.gluon.dressing_inv_landau_w_field_config k (val s) f0 c
      = val (qcd.gluon.dressing_inv_landau_w_field_config k s f0 c) ∧
    qcd.gluon.dressing_crossed_inv_w_field_config k (val s) f0 xi c
      = val (qcd.gluon.dressing_crossed_inv_w_field_config k s f0 xi c) ∧
    qcd.gluon.dressing_crossed_inv_landau_w_field_config k (val s) f0 c
      = val (qcd.gluon.dressing_crossed_inv_landau_w_field_config k s f0 c) ∧
    (qcd.gluon.dressing_inv_w_field_config k s f0 xi c ≠ 0 →
      qcd.gluon.propagator_w_field_config k (val s) f0 xi c
        = val (qcd.gluon.propagator_w_field_config k s f0 xi c)) := by
  obtain ⟨-, hl, hx, -, -⟩ := C26_ym s f0 0 xi hs
  have hpos : ∀ q ∈ (FieldConfig.new nc m qs).quarks_internal, 0 < q.mq_div_m_2 := by
    intro q hqi
    simp only [FieldConfig.new, List.mem_map] at hqi
    obtain ⟨p, hp, rfl⟩ := hqi
    have := div_ne_zero (hq p hp) hm
    simp only [QuarkInternal.new]
    exact mul_self_pos.2 this
  have F1 := fun r => foldl_val gluon.f_q gluon.f_q (fun s hs => (C26_loops s hs).2.2.2.2.1) s r hs _ hpos
  have F2 := fun r => foldl_val gluon.f_q_crossed gluon.f_q_crossed
    (fun s hs => (C26_loops s hs).2.2.2.2.2) s r hs _ hpos
  have h1 : qcd.gluon.dressing_inv_w_field_config k (val s) f0 xi (FieldConfig.new nc m qs)
      = val (qcd.gluon.dressing_inv_w_field_config k s f0 xi (FieldConfig.new nc m qs)) := by
    have := F1 (ym.gluon.dressing_inv s f0 xi)
    rw [← hx] at this
    exact this
  refine ⟨h1, ?_, ?_, ?_, ?_⟩
  · have := F1 (ym.gluon.dressing_inv_landau s f0)
    rw [← hl] at this
    exact this
  · have := F2 (ym.gluon.dressing_inv s f0 xi)
    rw [← hx] at this
    exact this
  · have := F2 (ym.gluon.dressing_inv_landau s f0)
    rw [← hl] at this
    exact this
  · intro hne
    simp only [qcd.gluon.propagator_w_field_config, qcd.gluon.dressing_w_field_config]
    rw [h1, inv_val hne, div_val hs.ne']

/-- **C26** (the guard matters): at `s = 0` the loop functions are undefined. -/
theorem C26_zero_undefined : gluon.f_q (val 0) = undef ∧ ghost.g_xi (val 0) = undef := by
  constructor
  · simp only [gluon.f_q, inv_zero_undef]; rfl
  · simp only [ghost.g_xi, ln_nonpos_undef le_rfl]; rfl

/-- Two flavours at unit momentum. -/
example (k : Consts ℝ) : qcd.gluon.dressing_inv_w_field_config k (val 1) 0 0
      (FieldConfig.new 3 1 [(2, 1 / 2), (1, 2 / 3)])
    = val (qcd.gluon.dressing_inv_w_field_config k 1 0 0
      (FieldConfig.new 3 1 [(2, 1 / 2), (1, 2 / 3)])) :=
  (C26_qcd k 1 0 0 one_pos 3 1 _ one_ne_zero (by intro q hq; fin_cases hq <;> norm_num)).1

end Qcd
