import Verif.Lemmas.Branch
import Verif.Spec.Qcd
import Verif.Props.VacuumAlgebra
import Verif.Props.QcdVacuum

/-! C19-C21: the vacuum functions in the cut complex plane. -/

namespace Qcd
open Complex
open consts (Consts)

/-- All the vacuum loop functions at a point. -/
noncomputable def loopValues {T : Type} [NumOps T] (s : T) : List T :=
  [ghost.g s, ghost.g_xi s, gluon.f s, gluon.f_xi s, gluon.f_q s, gluon.f_q_crossed s]

/-! ### C19 -/

/-- **C19** (loop functions): Schwarz reflection off the negative real axis. -/
theorem C19_loops (s : ℂ) (hs : s ∈ slitPlane) :
    loopValues ((starRingEnd ℂ) s) = (loopValues s).map (starRingEnd ℂ) := by
  have hn : ∀ n : ℕ, [n.AtLeastTwo] → (starRingEnd ℂ) (OfNat.ofNat n : ℂ) = OfNat.ofNat n :=
    fun n _ => map_ofNat _ n
  have e1 : log ((starRingEnd ℂ) s) = (starRingEnd ℂ) (log s) := log_conj_slit hs
  have e2 : log ((starRingEnd ℂ) s + 1) = (starRingEnd ℂ) (log (s + 1)) := by
    rw [← log_conj_slit (slit_add_one hs)]; simp
  have e3 : csqrt (((starRingEnd ℂ) s)⁻¹ * 4 + 1) = (starRingEnd ℂ) (csqrt (s⁻¹ * 4 + 1)) := by
    rw [← csqrt_conj (slit_a2 hs)]; simp [hn]
  have e4 : log (((starRingEnd ℂ) (csqrt (s⁻¹ * 4 + 1)) - 1) / 2)
      = (starRingEnd ℂ) (log ((csqrt (s⁻¹ * 4 + 1) - 1) / 2)) := by
    rw [← log_conj_slit (slit_a_sub_one hs)]; simp [hn]
  have e5 : log (((starRingEnd ℂ) (csqrt (s⁻¹ * 4 + 1)) - 1)
        / ((starRingEnd ℂ) (csqrt (s⁻¹ * 4 + 1)) + 1))
      = (starRingEnd ℂ) (log ((csqrt (s⁻¹ * 4 + 1) - 1) / (csqrt (s⁻¹ * 4 + 1) + 1))) := by
    rw [← log_conj_slit (slit_a_ratio hs)]; simp
  simp only [loopValues, List.map_cons, List.map_nil]
  congr 1
  · simp [ghost.g, ghost.g_sep, ghost.l_g, ghost.r_g, e1, e2, hn]
  congr 1
  · simp [ghost.g_xi, e1, hn]
  congr 1
  · simp [gluon.f, gluon.f_sep, gluon.l_a, gluon.l_b, gluon.l_c, gluon.r_a, gluon.r_b, gluon.r_c,
      e1, e2, e3, e4, hn]
  congr 1
  · simp [gluon.f_xi, gluon.f_xi_sep, e1, e2, hn]
  congr 1
  · simp [gluon.f_q, e3, e5, hn]
  congr 1
  · simp [gluon.f_q_crossed, e3, e5, hn]

/-- **C19** (Yang-Mills): dressings and propagators. -/
theorem C19_ym (s : ℂ) (hs : s ∈ slitPlane) (f0 g0 xi : ℝ) :
    ymValues ((starRingEnd ℂ) s) f0 xi = (ymValues s f0 xi).map (starRingEnd ℂ) ∧
    ghost.dressing_inv ((starRingEnd ℂ) s) g0 xi = (starRingEnd ℂ) (ghost.dressing_inv s g0 xi) ∧
    ghost.dressing ((starRingEnd ℂ) s) g0 xi = (starRingEnd ℂ) (ghost.dressing s g0 xi) ∧
    ghost.propagator ((starRingEnd ℂ) s) g0 xi = (starRingEnd ℂ) (ghost.propagator s g0 xi) ∧
    ghost.propagator_landau ((starRingEnd ℂ) s) g0
      = (starRingEnd ℂ) (ghost.propagator_landau s g0) := by
  have h := C19_loops s hs
  simp only [loopValues, List.map_cons, List.map_nil, List.cons.injEq, and_true] at h
  obtain ⟨h1, h2, h3, h4, -, -⟩ := h
  obtain ⟨a1, a2, a3, a4⟩ := C17_dressing_inv_affine s f0 g0 xi
  obtain ⟨b1, b2, b3, b4⟩ := C17_dressing_inv_affine ((starRingEnd ℂ) s) f0 g0 xi
  rw [h1] at b1; rw [h1, h2] at b2; rw [h3] at b3; rw [h3, h4] at b4
  simp [ymValues, ym.gluon.dressing_landau, ym.gluon.dressing, ym.gluon.propagator_landau,
    ym.gluon.propagator, ghost.dressing, ghost.propagator, ghost.dressing_landau,
    ghost.propagator_landau, a1, a2, a3, a4, b1, b2, b3, b4]

theorem quarkSum_conj (F : ℂ → ℂ) (hF : ∀ s ∈ slitPlane, F ((starRingEnd ℂ) s) = (starRingEnd ℂ) (F s))
    (s : ℂ) (hs : s ∈ slitPlane) (nc : ℕ) (m : ℝ) (qs : List (ℕ × ℝ))
    (hm : m ≠ 0) (hq : ∀ q ∈ qs, q.2 ≠ 0) :
    quarkSum F ((starRingEnd ℂ) s) nc m qs = (starRingEnd ℂ) (quarkSum F s nc m qs) := by
  unfold quarkSum
  rw [map_list_sum, List.map_map]
  congr 1
  apply List.map_congr_left
  intro q hqs
  have hpos : 0 < (q.2 / m) ^ 2 := by
    have := div_ne_zero (hq q hqs) hm
    positivity
  simp only [Function.comp, map_mul, ofR_complex, conj_ofReal]
  congr 1
  rw [← hF _ (slit_div_pos hs hpos)]
  simp

/-- **C19** (QCD): all field-configuration functions, crossed or not, for every quark list with nonzero
masses. -/
theorem C19_qcd (k : Consts ℝ) (s : ℂ) (hs : s ∈ slitPlane) (f0 xi : ℝ) (nc : ℕ) (m : ℝ)
    (qs : List (ℕ × ℝ)) (hm : m ≠ 0) (hq : ∀ q ∈ qs, q.2 ≠ 0) :
    configValues k ((starRingEnd ℂ) s) f0 xi (FieldConfig.new nc m qs)
      = (configValues k s f0 xi (FieldConfig.new nc m qs)).map (starRingEnd ℂ) := by
  obtain ⟨a1, a2, a3, a4⟩ := C29_additive k s f0 xi nc m qs
  obtain ⟨b1, b2, b3, b4⟩ := C29_additive k ((starRingEnd ℂ) s) f0 xi nc m qs
  have y := (C19_ym s hs f0 0 xi).1
  simp only [ymValues, List.cons_append, List.nil_append, List.map_cons, List.map_nil,
    List.cons.injEq, and_true] at y
  have hfq : ∀ s ∈ slitPlane, gluon.f_q ((starRingEnd ℂ) s) = (starRingEnd ℂ) (gluon.f_q s) := by
    intro s hs
    have h := C19_loops s hs
    simp only [loopValues, List.map_cons, List.map_nil, List.cons.injEq, and_true] at h
    exact h.2.2.2.2.1
  have hfc : ∀ s ∈ slitPlane,
      gluon.f_q_crossed ((starRingEnd ℂ) s) = (starRingEnd ℂ) (gluon.f_q_crossed s) := by
    intro s hs
    have h := C19_loops s hs
    simp only [loopValues, List.map_cons, List.map_nil, List.cons.injEq, and_true] at h
    exact h.2.2.2.2.2
  rw [y.1, quarkSum_conj _ hfq s hs nc m qs hm hq, ← map_add] at b1
  rw [y.2.1, quarkSum_conj _ hfq s hs nc m qs hm hq, ← map_add] at b2
  rw [y.1, quarkSum_conj _ hfc s hs nc m qs hm hq, ← map_add] at b3
  rw [y.2.1, quarkSum_conj _ hfc s hs nc m qs hm hq, ← map_add] at b4
  rw [← a1] at b1; rw [← a2] at b2; rw [← a3] at b3; rw [← a4] at b4
  simp only [configValues, qcd.gluon.dressing_landau_w_field_config,
    qcd.gluon.dressing_w_field_config, qcd.gluon.propagator_landau_w_field_config,
    qcd.gluon.propagator_w_field_config, qcd.gluon.dressing_crossed_landau_w_field_config,
    qcd.gluon.dressing_crossed_w_field_config, qcd.gluon.propagator_crossed_landau_w_field_config,
    qcd.gluon.propagator_crossed_w_field_config, b1, b2, b3, b4, List.map_cons, List.map_nil,
    map_inv₀, map_div₀]

/-- The cut plane contains, for instance, the timelike point `-1 + i`. -/
example : (-1 + Complex.I) ∈ slitPlane := by
  rw [mem_slitPlane_iff]; right; simp

/-- A two-flavour configuration meeting the hypotheses, at that timelike point. -/
example (k : Consts ℝ) (f0 xi : ℝ) :
    configValues k ((starRingEnd ℂ) (-1 + Complex.I)) f0 xi
        (FieldConfig.new 3 (656 / 1000) [(2, 35 / 100), (1, 45 / 100)])
      = (configValues k (-1 + Complex.I) f0 xi
        (FieldConfig.new 3 (656 / 1000) [(2, 35 / 100), (1, 45 / 100)])).map (starRingEnd ℂ) :=
  C19_qcd k _ (by rw [mem_slitPlane_iff]; right; simp) f0 xi 3 _ _ (by norm_num)
    (by intro q hq; fin_cases hq <;> norm_num)

/-! ### C20 -/

/-- **C20** (loop functions): holomorphic in the plane cut along the negative real axis. -/
theorem C20_loops :
    DifferentiableOn ℂ (fun s : ℂ => ghost.g s) slitPlane ∧
    DifferentiableOn ℂ (fun s : ℂ => ghost.g_xi s) slitPlane ∧
    DifferentiableOn ℂ (fun s : ℂ => gluon.f s) slitPlane ∧
    DifferentiableOn ℂ (fun s : ℂ => gluon.f_xi s) slitPlane ∧
    DifferentiableOn ℂ (fun s : ℂ => gluon.f_q s) slitPlane ∧
    DifferentiableOn ℂ (fun s : ℂ => gluon.f_q_crossed s) slitPlane := by
  have d0 : ∀ s ∈ slitPlane, DifferentiableAt ℂ (fun s : ℂ => s⁻¹) s :=
    fun s hs => differentiableAt_id.inv (slitPlane_ne_zero hs)
  have d1 : ∀ s ∈ slitPlane, DifferentiableAt ℂ (fun s : ℂ => log s) s :=
    fun s hs => differentiableAt_log hs
  have d2 : ∀ s ∈ slitPlane, DifferentiableAt ℂ (fun s : ℂ => log (s + 1)) s :=
    fun s hs => (differentiableAt_id.add_const 1).clog (slit_add_one hs)
  have d3 : ∀ s ∈ slitPlane, DifferentiableAt ℂ (fun s : ℂ => csqrt (s⁻¹ * 4 + 1)) s :=
    fun s hs => (differentiableAt_csqrt (slit_a2 hs)).comp s (f := fun s : ℂ => s⁻¹ * 4 + 1)
      (((d0 s hs).mul_const 4).add_const 1)
  have d4 : ∀ s ∈ slitPlane, DifferentiableAt ℂ (fun s : ℂ => log ((csqrt (s⁻¹ * 4 + 1) - 1) / 2)) s :=
    fun s hs => (((d3 s hs).sub_const 1).div_const 2).clog (slit_a_sub_one hs)
  have d5 : ∀ s ∈ slitPlane, DifferentiableAt ℂ
      (fun s : ℂ => log ((csqrt (s⁻¹ * 4 + 1) - 1) / (csqrt (s⁻¹ * 4 + 1) + 1))) s :=
    fun s hs => (((d3 s hs).sub_const 1).div ((d3 s hs).add_const 1) (a_add_one_ne_zero hs)).clog
      (slit_a_ratio hs)
  refine ⟨?_, ?_, ?_, ?_, ?_, ?_⟩ <;> intro s hs <;> apply DifferentiableAt.differentiableWithinAt
  · have := d0 s hs; have := d1 s hs; have := d2 s hs
    simp only [ghost.g, ghost.g_sep, ghost.l_g, ghost.r_g, ofR_complex, ln_complex, ofReal_one]
    fun_prop
  · have := d1 s hs
    simp only [ghost.g_xi, ofR_complex, ln_complex]
    fun_prop
  · have := d0 s hs; have := d1 s hs; have := d2 s hs; have := d3 s hs; have := d4 s hs
    simp only [gluon.f, gluon.f_sep, gluon.l_a, gluon.l_b, gluon.l_c, gluon.r_a, gluon.r_b,
      gluon.r_c, ofR_complex, ln_complex, sqrt_complex, ofReal_one, ofReal_ofNat]
    fun_prop
  · have := d0 s hs; have := d1 s hs; have := d2 s hs
    simp only [gluon.f_xi, gluon.f_xi_sep, ofR_complex, ln_complex, ofReal_one, ofReal_ofNat]
    fun_prop
  · have := d0 s hs; have := d3 s hs; have := d5 s hs
    simp only [gluon.f_q, ofR_complex, ln_complex, sqrt_complex, ofReal_one, ofReal_ofNat]
    fun_prop
  · have := d0 s hs; have := d3 s hs; have := d5 s hs
    have hne : csqrt (s⁻¹ * 4 + 1) ≠ 0 := csqrt_ne_zero (slitPlane_ne_zero (slit_a2 hs))
    simp only [gluon.f_q_crossed, ofR_complex, ln_complex, sqrt_complex, ofReal_one, ofReal_ofNat]
    fun_prop (disch := assumption)

theorem quarkSum_differentiable (F : ℂ → ℂ) (hF : DifferentiableOn ℂ F slitPlane)
    (nc : ℕ) (m : ℝ) (qs : List (ℕ × ℝ)) (hm : m ≠ 0) (hq : ∀ q ∈ qs, q.2 ≠ 0) :
    DifferentiableOn ℂ (fun s => quarkSum F s nc m qs) slitPlane := by
  induction qs with
  | nil => simp [quarkSum, differentiableOn_const]
  | cons q qs ih =>
    have hpos : 0 < (q.2 / m) ^ 2 := by
      have := div_ne_zero (hq q (by simp)) hm
      positivity
    have ih' := ih (fun q' h => hq q' (by simp [h]))
    simp only [quarkSum, List.map_cons, List.sum_cons] at ih' ⊢
    apply DifferentiableOn.add _ ih'
    apply DifferentiableOn.mul_const
    intro s hs
    apply DifferentiableAt.differentiableWithinAt
    have h1 : DifferentiableAt ℂ F (s / ofR ((q.2 / m) ^ 2)) :=
      (hF _ (slit_div_pos hs hpos)).differentiableAt
        (isOpen_slitPlane.mem_nhds (slit_div_pos hs hpos))
    exact h1.comp s (f := fun s : ℂ => s / ofR ((q.2 / m) ^ 2))
      (differentiableAt_id.div_const _)

/-- **C20** (inverse dressings): ghost, Yang-Mills gluon and QCD gluon with any quark content. -/
theorem C20_dressing_inv (k : Consts ℝ) (f0 g0 xi : ℝ) (nc : ℕ) (m : ℝ) (qs : List (ℕ × ℝ))
    (hm : m ≠ 0) (hq : ∀ q ∈ qs, q.2 ≠ 0) :
    DifferentiableOn ℂ (fun s : ℂ => ghost.dressing_inv s g0 xi) slitPlane ∧
    DifferentiableOn ℂ (fun s : ℂ => ym.gluon.dressing_inv s f0 xi) slitPlane ∧
    DifferentiableOn ℂ (fun s : ℂ =>
      qcd.gluon.dressing_inv_w_field_config k s f0 xi (FieldConfig.new nc m qs)) slitPlane ∧
    DifferentiableOn ℂ (fun s : ℂ =>
      qcd.gluon.dressing_crossed_inv_w_field_config k s f0 xi (FieldConfig.new nc m qs))
      slitPlane := by
  obtain ⟨h1, h2, h3, h4, h5, h6⟩ := C20_loops
  have hy : DifferentiableOn ℂ (fun s : ℂ => ym.gluon.dressing_inv s f0 xi) slitPlane := by
    simp only [(C17_dressing_inv_affine _ f0 g0 xi).2.2.2]
    exact (h3.add_const _).add (h4.mul_const _)
  refine ⟨?_, hy, ?_, ?_⟩
  · simp only [(C17_dressing_inv_affine _ f0 g0 xi).2.1]
    exact (h1.add_const _).add (h2.mul_const _)
  · simp only [(C29_additive k _ f0 xi nc m qs).2.1]
    exact hy.add (quarkSum_differentiable _ h5 nc m qs hm hq)
  · simp only [(C29_additive k _ f0 xi nc m qs).2.2.2]
    exact hy.add (quarkSum_differentiable _ h6 nc m qs hm hq)

/-- **C20** (propagators): the QCD propagator is holomorphic in the cut plane wherever the inverse
dressing does not vanish (its zeros are the physical poles). -/
theorem C20_propagator (k : Consts ℝ) (f0 xi : ℝ) (nc : ℕ) (m : ℝ) (qs : List (ℕ × ℝ))
    (hm : m ≠ 0) (hq : ∀ q ∈ qs, q.2 ≠ 0) (s : ℂ) (hs : s ∈ slitPlane)
    (hz : qcd.gluon.dressing_inv_w_field_config k s f0 xi (FieldConfig.new nc m qs) ≠ 0) :
    DifferentiableAt ℂ (fun s : ℂ =>
      qcd.gluon.propagator_w_field_config k s f0 xi (FieldConfig.new nc m qs)) s := by
  have h := ((C20_dressing_inv k f0 0 xi nc m qs hm hq).2.2.1 s hs).differentiableAt
    (isOpen_slitPlane.mem_nhds hs)
  exact (h.inv hz).div differentiableAt_id (slitPlane_ne_zero hs)

/-! ### C21 -/

/-- **C21** (loop functions): real and complex entry points agree at every `s > 0`. -/
theorem C21_loops (s : ℝ) (hs : 0 < s) :
    loopValues (s : ℂ) = (loopValues s).map (fun x : ℝ => (x : ℂ)) := by
  have hsi : 0 < s⁻¹ := inv_pos.2 hs
  have h2 : 0 ≤ s⁻¹ * 4 + 1 := by positivity
  have ha : 1 < Real.sqrt (s⁻¹ * 4 + 1) := by
    rw [Real.lt_sqrt (by norm_num)]; nlinarith
  have e1 : log (s : ℂ) = ((Real.log s : ℝ) : ℂ) := (ofReal_log hs.le).symm
  have e2 : log ((s : ℂ) + 1) = ((Real.log (s + 1) : ℝ) : ℂ) := by
    rw [ofReal_log (by linarith)]; simp
  have e3 : csqrt ((s : ℂ)⁻¹ * 4 + 1) = ((Real.sqrt (s⁻¹ * 4 + 1) : ℝ) : ℂ) := by
    rw [← csqrt_ofReal h2]; simp
  have e4 : log ((((Real.sqrt (s⁻¹ * 4 + 1) : ℝ) : ℂ) - 1) / 2)
      = ((Real.log ((Real.sqrt (s⁻¹ * 4 + 1) - 1) / 2) : ℝ) : ℂ) := by
    rw [ofReal_log (by linarith)]; simp
  have e5 : log ((((Real.sqrt (s⁻¹ * 4 + 1) : ℝ) : ℂ) - 1) / (((Real.sqrt (s⁻¹ * 4 + 1) : ℝ) : ℂ) + 1))
      = ((Real.log ((Real.sqrt (s⁻¹ * 4 + 1) - 1) / (Real.sqrt (s⁻¹ * 4 + 1) + 1)) : ℝ) : ℂ) := by
    rw [ofReal_log (div_nonneg (by linarith) (by linarith))]; simp
  simp only [loopValues, List.map_cons, List.map_nil]
  congr 1
  · simp [ghost.g, ghost.g_sep, ghost.l_g, ghost.r_g, e1, e2]
  congr 1
  · simp [ghost.g_xi, e1]
  congr 1
  · simp [gluon.f, gluon.f_sep, gluon.l_a, gluon.l_b, gluon.l_c, gluon.r_a, gluon.r_b, gluon.r_c,
      e1, e2, e3, e4]
  congr 1
  · simp [gluon.f_xi, gluon.f_xi_sep, e1, e2]
  congr 1
  · simp [gluon.f_q, e3, e5]
  congr 1
  · simp [gluon.f_q_crossed, e3, e5]

theorem quarkSum_ofReal (F : ℂ → ℂ) (G : ℝ → ℝ) (hFG : ∀ s : ℝ, 0 < s → F s = (G s : ℂ))
    (s : ℝ) (hs : 0 < s) (nc : ℕ) (m : ℝ) (qs : List (ℕ × ℝ))
    (hm : m ≠ 0) (hq : ∀ q ∈ qs, q.2 ≠ 0) :
    quarkSum F (s : ℂ) nc m qs = ((quarkSum G s nc m qs : ℝ) : ℂ) := by
  unfold quarkSum
  change _ = ofRealHom _
  rw [map_list_sum, List.map_map]
  congr 1
  apply List.map_congr_left
  intro q hqs
  have hpos : 0 < (q.2 / m) ^ 2 := by
    have := div_ne_zero (hq q hqs) hm
    positivity
  have := hFG (s / (q.2 / m) ^ 2) (div_pos hs hpos)
  push_cast at this
  simp only [Function.comp, ofR_complex, ofR_real, ofRealHom_eq_coe, ofReal_mul, ofReal_pow,
    ofReal_div, ofReal_natCast, this]

/-- **C21** (QCD and Yang-Mills): all field-configuration functions for every quark list with nonzero
masses (the empty list is Yang-Mills), and the ghost dressing. -/
theorem C21_qcd (k : Consts ℝ) (s : ℝ) (hs : 0 < s) (f0 g0 xi : ℝ) (nc : ℕ) (m : ℝ)
    (qs : List (ℕ × ℝ)) (hm : m ≠ 0) (hq : ∀ q ∈ qs, q.2 ≠ 0) :
    configValues k (s : ℂ) f0 xi (FieldConfig.new nc m qs)
      = (configValues k s f0 xi (FieldConfig.new nc m qs)).map (fun x : ℝ => (x : ℂ)) ∧
    ghost.dressing_inv (s : ℂ) g0 xi = ((ghost.dressing_inv s g0 xi : ℝ) : ℂ) ∧
    ghost.propagator (s : ℂ) g0 xi = ((ghost.propagator s g0 xi : ℝ) : ℂ) := by
  have hloop : ∀ s : ℝ, 0 < s → ghost.g (s : ℂ) = (ghost.g s : ℝ) ∧
      ghost.g_xi (s : ℂ) = (ghost.g_xi s : ℝ) ∧ gluon.f (s : ℂ) = (gluon.f s : ℝ) ∧
      gluon.f_xi (s : ℂ) = (gluon.f_xi s : ℝ) ∧ gluon.f_q (s : ℂ) = (gluon.f_q s : ℝ) ∧
      gluon.f_q_crossed (s : ℂ) = (gluon.f_q_crossed s : ℝ) := by
    intro s hs
    have h := C21_loops s hs
    simpa only [loopValues, List.map_cons, List.map_nil, List.cons.injEq, and_true] using h
  obtain ⟨a1, a2, a3, a4⟩ := C29_additive k s f0 xi nc m qs
  obtain ⟨b1, b2, b3, b4⟩ := C29_additive k (s : ℂ) f0 xi nc m qs
  obtain ⟨c1, c2, c3, c4⟩ := C17_dressing_inv_affine s f0 g0 xi
  obtain ⟨d1, d2, d3, d4⟩ := C17_dressing_inv_affine (s : ℂ) f0 g0 xi
  have q1 := quarkSum_ofReal gluon.f_q gluon.f_q (fun s hs => (hloop s hs).2.2.2.2.1) s hs nc m qs
    hm hq
  have q2 := quarkSum_ofReal gluon.f_q_crossed gluon.f_q_crossed
    (fun s hs => (hloop s hs).2.2.2.2.2) s hs nc m qs hm hq
  obtain ⟨l1, l2, l3, l4, -, -⟩ := hloop s hs
  rw [q1, d3, l3] at b1
  rw [q1, d4, l3, l4] at b2
  rw [q2, d3, l3] at b3
  rw [q2, d4, l3, l4] at b4
  rw [l1, l2] at d2
  rw [c3] at a1 a3
  rw [c4] at a2 a4
  refine ⟨?_, ?_, ?_⟩
  · simp only [configValues, qcd.gluon.dressing_landau_w_field_config,
      qcd.gluon.dressing_w_field_config, qcd.gluon.propagator_landau_w_field_config,
      qcd.gluon.propagator_w_field_config, qcd.gluon.dressing_crossed_landau_w_field_config,
      qcd.gluon.dressing_crossed_w_field_config,
      qcd.gluon.propagator_crossed_landau_w_field_config,
      qcd.gluon.propagator_crossed_w_field_config, a1, a2, a3, a4, b1, b2, b3, b4, List.map_cons,
      List.map_nil, ofR_complex, ofR_real]
    push_cast
    rfl
  · rw [d2, c2]; simp
  · simp [ghost.propagator, ghost.dressing, d2, c2]

end Qcd
