import Verif.Lemmas.FermionSum

/-! # Quark loops integrated over the spatial momentum -/

namespace Qcd.Matsubara
open Filter Topology Complex MeasureTheory Set
open Spec (Vec msq external fourMomentum atPole)
open scoped Real

/-- The weights of the two signs of the energy: measurable, with an exponential bound. -/
structure Decays (u : ℝ → ℂ) (b C : ℝ) : Prop where
  meas : Measurable u
  bound : ∀ E, 0 ≤ E → ‖u E‖ ≤ C * Real.exp (-(b * E))

variable {A B : Type} [Fintype A] [Fintype B] [DecidableEq A] [DecidableEq B] {m : A → ℝ} {k : B → ℝ} {om p : ℝ}
  {f : MvPolynomial (Fin 4) ℂ} {F : Vec → ℂ} {u d : ℝ → ℂ}

/-- The line of mass `M` on shell with weights `u` and `d`. -/
noncomputable def onShellW (F : Vec → ℂ) (u d : ℝ → ℂ) (M : ℝ) (v : ℝ × ℝ × ℝ) : ℂ :=
  (u (en3 M v) * atPole (fun q0 => F (fourMomentum q0 v)) (en3 M v) (I * en3 M v)
    + d (en3 M v) * atPole (fun q0 => F (fourMomentum q0 v)) (en3 M v) (-(I * en3 M v))) / (2 * en3 M v)

/-- The same, explicitly, with the momentum in a plane. -/
noncomputable def planarW (om p : ℝ) (m : A → ℝ) (k : B → ℝ) (f : MvPolynomial (Fin 4) ℂ) (a : A) (u d : ℝ → ℂ) (x : ℝ × ℝ) : ℂ :=
  (u (en3 (m a) (x.1, x.2, 0)) * shell om p m k f a (I * en3 (m a) (x.1, x.2, 0)) (x.1, x.2, 0)
    + d (en3 (m a) (x.1, x.2, 0)) * shell om p m k f a (-(I * en3 (m a) (x.1, x.2, 0))) (x.1, x.2, 0)) / (2 * en3 (m a) (x.1, x.2, 0))

theorem measurable_planarW (om p : ℝ) (m : A → ℝ) (k : B → ℝ) (f : MvPolynomial (Fin 4) ℂ) (a : A) (hu : Measurable u) (hd : Measurable d) :
    Measurable (planarW om p m k f a u d) := by
  have hE0 : Measurable fun x : ℝ × ℝ => en3 (m a) (x.1, x.2, 0) := by
    simp only [en3, r2]; fun_prop
  have hE : Measurable fun x : ℝ × ℝ => ((en3 (m a) (x.1, x.2, 0) : ℝ) : ℂ) := by fun_prop
  have h1 := measurable_shell om p m k f a (hE.const_mul I)
  have h2 := measurable_shell om p m k f a (hE.const_mul I).neg
  unfold planarW
  exact (((hu.comp hE0).mul h1).add ((hd.comp hE0).mul h2)).div (hE.const_mul 2)

theorem IsDiagram.onShellW_eq (h : IsDiagram om p m k f F) (hm : Function.Injective fun a => m a ^ 2) (ho : om ≠ 0) (a : A) (u d : ℝ → ℂ) :
    onShellW F u d (m a) = Spherical.around (planarW om p m k f a u d) := by
  funext v
  simp only [onShellW, Spherical.around, planarW, en3_axis, h.shell_axis]
  rcases (en3_nonneg (m a) v).lt_or_eq with hE | hE
  · rw [h.atPole hm ho a hE (.inl rfl), h.atPole hm ho a hE (.inr rfl)]
  · rw [← hE]; simp

theorem IsDiagram.integrable_onShellW (h : IsDiagram om p m k f F) (hm : Function.Injective fun a => m a ^ 2) (ho : om ≠ 0) (a : A) {b C' D' : ℝ}
    (hb : 0 < b) (hu : Decays u b C') (hd : Decays d b D') : Integrable (onShellW F u d (m a)) := by
  obtain ⟨C, n, hC, hs⟩ := shell_bound (p := p) ho m k f a
  have hC' : 0 ≤ C' := by simpa using (norm_nonneg _).trans (hu.bound 0 le_rfl)
  have hD' : 0 ≤ D' := by simpa using (norm_nonneg _).trans (hd.bound 0 le_rfl)
  refine Spherical.integrable_of_radial (B := fun y => (C' + D') * C / 2 * (1 + y) ^ n * Real.exp (-(4 * b / 4 * y)) / y) ?_ ?_ ?_
  · rw [h.onShellW_eq hm ho]
    exact (Spherical.measurable_around (measurable_planarW om p m k f a hu.meas hd.meas)).aestronglyMeasurable
  · refine Integrable.mono' (Dom.bound_integrable (b0 := 4 * b) (by positivity) ((C' + D') * C / 2) (n + 1)) (by fun_prop) ?_
    refine (ae_restrict_iff' measurableSet_Ioi).2 (.of_forall fun y hy => ?_)
    have hy : 0 < y := hy
    have e : y ^ 2 * ((C' + D') * C / 2 * (1 + y) ^ n * Real.exp (-(4 * b / 4 * y)) / y) = (C' + D') * C / 2 * (1 + y) ^ n * Real.exp (-(4 * b / 4 * y)) * y := by
      field_simp
    rw [e, Real.norm_of_nonneg (by positivity), pow_succ]
    have : (C' + D') * C / 2 * (1 + y) ^ n * Real.exp (-(4 * b / 4 * y)) * y ≤ (C' + D') * C / 2 * (1 + y) ^ n * Real.exp (-(4 * b / 4 * y)) * (1 + y) := by
      gcongr; linarith
    refine this.trans (le_of_eq (by ring))
  · intro v hv
    have hE := en3_pos (m a) hv
    have hy := norm_pos_iff.2 hv
    have hle := norm_le_en3 (m a) v
    rw [onShellW, h.atPole hm ho a hE (.inl rfl), h.atPole hm ho a hE (.inr rfl), norm_div]
    have hx : Real.exp (-(b * en3 (m a) v)) ≤ Real.exp (-(4 * b / 4 * ‖v‖)) := by
      gcongr; linarith
    have h1 : ‖u (en3 (m a) v) * shell om p m k f a (I * en3 (m a) v) v + d (en3 (m a) v) * shell om p m k f a (-(I * en3 (m a) v)) v‖
        ≤ (C' + D') * Real.exp (-(4 * b / 4 * ‖v‖)) * (C * (1 + ‖v‖) ^ n) := by
      refine (norm_add_le _ _).trans ?_
      rw [norm_mul, norm_mul]
      have a1 := (hu.bound _ hE.le).trans (mul_le_mul_of_nonneg_left hx hC')
      have a2 := (hd.bound _ hE.le).trans (mul_le_mul_of_nonneg_left hx hD')
      have := mul_le_mul a1 (hs v _ (.inl rfl)) (norm_nonneg _) (by positivity)
      have := mul_le_mul a2 (hs v _ (.inr rfl)) (norm_nonneg _) (by positivity)
      linarith
    have h2 : ‖(2 * en3 (m a) v : ℂ)‖ = 2 * en3 (m a) v := by simp [abs_of_pos hE]
    rw [h2]
    calc _ ≤ (C' + D') * Real.exp (-(4 * b / 4 * ‖v‖)) * (C * (1 + ‖v‖) ^ n) / (2 * ‖v‖) := by gcongr
      _ = _ := by field_simp

/-- The angular integral. -/
noncomputable def lineQ (om p : ℝ) (m : A → ℝ) (k : B → ℝ) (f : MvPolynomial (Fin 4) ℂ) (a : A) (u d : ℝ → ℂ) (q : ℝ) : ℂ :=
  1 / (4 * π ^ 2) * ((q : ℂ) ^ 2 * ∫ c in (-1 : ℝ)..1, planarW om p m k f a u d (q * c, q * √(1 - c ^ 2)))

theorem IsDiagram.lineQ_integral (h : IsDiagram om p m k f F) (hm : Function.Injective fun a => m a ^ 2) (ho : om ≠ 0) (a : A) {b C' D' : ℝ}
    (hb : 0 < b) (hu : Decays u b C') (hd : Decays d b D') : IntegrableOn (lineQ om p m k f a u d) (Ioi 0) ∧
      1 / (2 * π) ^ 3 * ∫ v, onShellW F u d (m a) v = ∫ q in Ioi (0 : ℝ), lineQ om p m k f a u d q := by
  have hi := h.integrable_onShellW hm ho a hb hu hd
  rw [h.onShellW_eq hm ho] at hi ⊢
  have hp := measurable_planarW om p m k f a hu.meas hd.meas
  refine ⟨(Spherical.integrableOn_radial hp hi).const_mul (1 / (4 * π ^ 2)), ?_⟩
  unfold lineQ
  rw [Spherical.integral_around hp hi, integral_const_mul]
  have : (π : ℂ) ≠ 0 := by exact_mod_cast Real.pi_ne_zero
  generalize (∫ q in Ioi (0 : ℝ), (q : ℂ) ^ 2 * ∫ c in (-1 : ℝ)..1, planarW om p m k f a u d (q * c, q * √(1 - c ^ 2))) = x
  field_simp
  ring

theorem onShellW_swapped (u d : ℝ → ℂ) (M : ℝ) (v : ℝ × ℝ × ℝ) : onShellW (swapped om p F) u d M ((-p, 0, 0) - v) =
    (u (en3 M (other p v)) * atPole (fun w => F (fourMomentum (-(om + w)) v)) (en3 M (other p v)) (I * en3 M (other p v))
        + d (en3 M (other p v)) * atPole (fun w => F (fourMomentum (-(om + w)) v)) (en3 M (other p v)) (-(I * en3 M (other p v)))) / (2 * en3 M (other p v)) := by
  have e : en3 M ((-p, 0, 0) - v) = en3 M (other p v) := by
    simp only [en3, r2, other, Prod.fst_sub, Prod.snd_sub]; congr 1; ring
  have e2 : ∀ q0, swapped om p F (fourMomentum q0 ((-p, 0, 0) - v)) = F (fourMomentum (-(om + q0)) v) := fun q0 => by
    rw [swapped_fourMomentum]
    congr 2
    ext <;> simp
  simp only [onShellW, e, e2]

/-! ### The sphere is null -/

theorem ae_r2_ne (c : ℝ) : ∀ᵐ v : ℝ × ℝ × ℝ, r2 v ≠ c := by
  have hm : MeasurableSet {v : ℝ × ℝ × ℝ | r2 v = c} := by
    refine measurableSet_eq_fun ?_ measurable_const
    unfold r2; fun_prop
  rw [ae_iff]
  simp only [ne_eq, not_not]
  rw [Measure.volume_eq_prod, Measure.prod_apply_symm hm]
  refine lintegral_eq_zero_of_ae_eq_zero (.of_forall fun y => ?_)
  refine Set.Finite.measure_zero (Set.Finite.subset (s := {√(c - y.1 ^ 2 - y.2 ^ 2), -√(c - y.1 ^ 2 - y.2 ^ 2)}) (by simp) ?_) _
  intro x hx
  have hx : x ^ 2 + y.1 ^ 2 + y.2 ^ 2 = c := hx
  have h2 : c - y.1 ^ 2 - y.2 ^ 2 = x ^ 2 := by linarith
  rw [h2, Real.sqrt_sq_eq_abs]
  rcases abs_choice x with h | h <;> rw [h] <;> simp

theorem ae_en3_ne (M mu : ℝ) : ∀ᵐ v : ℝ × ℝ × ℝ, en3 M v ≠ |mu| := by
  filter_upwards [ae_r2_ne (mu ^ 2 - M ^ 2)] with v hv h
  refine hv ?_
  have := en3_sq M v
  rw [h, sq_abs] at this
  linarith

theorem ae_other {P : ℝ × ℝ × ℝ → Prop} (p : ℝ) (h : ∀ᵐ v, P v) : ∀ᵐ v : ℝ × ℝ × ℝ, P (other p v) := by
  have h1 := (measurePreserving_add_left (volume : Measure (ℝ × ℝ × ℝ)) (p, 0, 0)).quasiMeasurePreserving.ae h
  filter_upwards [h1] with v hv
  have : other p v = (p, 0, 0) + v := by ext <;> simp [other]
  rwa [this]

/-- Generic momenta. -/
structure Generic (p M mu : ℝ) (v : ℝ × ℝ × ℝ) : Prop where
  pos : 0 < en3 M v
  pos' : 0 < en3 M (other p v)
  ne : en3 M v ≠ |mu|
  ne' : en3 M (other p v) ≠ |mu|

theorem ae_generic (p M mu : ℝ) : ∀ᵐ v, Generic p M mu v := by
  have h0 : ∀ᵐ v : ℝ × ℝ × ℝ, 0 < en3 M v := (ae_ne 0).mono fun v hv => en3_pos M hv
  filter_upwards [h0, ae_other p h0, ae_en3_ne M mu, ae_other p (ae_en3_ne M mu)] with v h1 h2 h3 h4 using ⟨h1, h2, h3, h4⟩

theorem Generic.pole {M mu : ℝ} {v : ℝ × ℝ × ℝ} (h : Generic p M mu v) (i : (Fin 1 ⊕ Fin 1) × Bool) :
    (pole om (fun _ => en3 M v) (fun _ => en3 M (other p v)) i).im ≠ mu := by
  rw [pole_im]
  have key : ∀ E : ℝ, 0 < E → E ≠ |mu| → E ≠ mu ∧ -E ≠ mu := fun E h0 h1 => by
    refine ⟨fun h2 => h1 ?_, fun h2 => h1 ?_⟩
    · rw [← h2, abs_of_pos h0]
    · rw [← h2, abs_neg, abs_of_pos h0]
  rcases i with ⟨i | i, s⟩
  · have := key _ h.pos h.ne
    cases s <;> simp [this.1, this.2]
  · have := key _ h.pos' h.ne'
    cases s <;> simp [this.1, this.2]

theorem injective_fin1 (M : ℝ) : Function.Injective fun _ : Fin 1 => M := fun a b _ => Subsingleton.elim a b

/-! ### The whole loop -/

section
variable {M : ℝ} (h : IsDiagram om p (fun _ : Fin 1 => M) (fun _ : Fin 1 => M) f F)
include h

/-- Sum of the two lines when the numerator has the symmetry `Q → -(P + Q)`. -/
theorem IsDiagram.fermion (hf : ∀ Q, MvPolynomial.eval (-(external om p + Q)) f = MvPolynomial.eval Q f) (ho : om ≠ 0) {b C' D' : ℝ} (hb : 0 < b)
    (hu : Decays u b C') (hd : Decays d b D') {n : ℝ → ℂ} (hn : ∀ E, n E = u E + d E) {G : ℝ × ℝ × ℝ → ℂ}
    (hG : G =ᵐ[volume] fun v => -(onShellW F u d M v + onShellW (swapped om p F) d u M ((-p, 0, 0) - v))) :
    Integrable G ∧ 1 / (2 * π) ^ 3 * ∫ v, G v = ∫ q in Ioi (0 : ℝ), -lineQ om p (fun _ : Fin 1 => M) (fun _ : Fin 1 => M) f 0 n n q := by
  have hi : Function.Injective fun _ : Fin 1 => M ^ 2 := injective_fin1 _
  have i1 := h.integrable_onShellW hi ho 0 hb hu hd
  have i2 := h.swap.integrable_onShellW hi ho 0 hb hd hu
  have i3 : Integrable fun v => onShellW (swapped om p F) d u M ((-p, 0, 0) - v) := i2.comp_sub_left _
  have hn' : Decays n b (C' + D') := by
    refine ⟨by rw [show n = fun E => u E + d E from funext hn]; exact hu.meas.add hd.meas, fun E hE => ?_⟩
    rw [hn, add_mul]
    exact (norm_add_le _ _).trans (add_le_add (hu.bound E hE) (hd.bound E hE))
  have l := h.lineQ_integral hi ho 0 hb hn' hn'
  have e : ∀ v, onShellW F u d M v + onShellW (swapped om p F) d u M v = onShellW F n n M v := by
    intro v
    have e1 := congrFun (h.onShellW_eq hi ho 0 u d) v
    have e2 := congrFun (h.swap.onShellW_eq hi ho 0 d u) v
    have e3 := congrFun (h.onShellW_eq hi ho 0 n n) v
    rw [e1, e2, e3]
    have e4 : ∀ w v, shell om p (fun _ : Fin 1 => M) (fun _ : Fin 1 => M)
        (MvPolynomial.bind₁ (fun i => -(MvPolynomial.C (external om p i) + MvPolynomial.X i)) f) 0 w v
        = shell om p (fun _ : Fin 1 => M) (fun _ : Fin 1 => M) f 0 w v := fun w v => by
      rw [shell, shell, eval_swapped, hf]
    simp only [Spherical.around, planarW, e4, hn]
    ring
  refine ⟨(i1.add i3).neg.congr hG.symm, ?_⟩
  rw [integral_congr_ae hG, integral_neg, integral_add i1 i3, integral_sub_left_eq_self (fun v => onShellW (swapped om p F) d u M v) volume (-p, 0, 0),
    integral_neg, ← integral_add i1 i2]
  simp only [e]
  rw [← l.2]
  ring

theorem IsDiagram.pointwise_of (ho : om ≠ 0) {W : ℂ → ℂ} {v : ℝ × ℝ × ℝ}
    (hv : 0 < en3 M v) (hv' : 0 < en3 M (other p v))
    (h1 : W (I * en3 M v) = -(I * u (en3 M v))) (h2 : W (-(I * en3 M v)) = I * d (en3 M v))
    (h3 : W (-om + I * en3 M (other p v)) = -(I * u (en3 M (other p v)))) (h4 : W (-om - I * en3 M (other p v)) = I * d (en3 M (other p v))) :
    poleSum (fun q0 => F (fourMomentum q0 v)) om (fun _ : Fin 1 => en3 M v) (fun _ : Fin 1 => en3 M (other p v)) W =
      -(onShellW F u d M v + onShellW (swapped om p F) d u M ((-p, 0, 0) - v)) := by
  rw [poleSum_eq (fun _ => hv) (fun _ => hv') (fun _ => h1) (fun _ => h2) (fun _ => h3) (fun _ => h4), onShellW_swapped]
  simp only [Finset.univ_unique, Finset.sum_singleton]
  rfl

/-- **Quark loop at finite temperature.** -/
theorem IsDiagram.thermalQuark (hf : ∀ Q, MvPolynomial.eval (-(external om p + Q)) f = MvPolynomial.eval Q f) (ho : om ≠ 0)
    (hd : f.totalDegree ≤ 2) {beta : ℝ} (hb : 0 < beta) {l : ℤ} (hl : beta * om = 2 * π * l) (mu : ℝ) :
    Spec.IsThermalQuarkDiagram F beta mu (∫ q in Ioi (0 : ℝ), -lineQ om p (fun _ : Fin 1 => M) (fun _ : Fin 1 => M) f 0
      (fun E => occ beta (E - mu) + occ beta (E + mu)) (fun E => occ beta (E - mu) + occ beta (E + mu)) q) := by
  have occ_bound : ∀ x, ‖((occ beta x : ℝ) : ℂ)‖ ≤ Real.exp (-(beta * x)) := fun x => by
    rw [Complex.norm_real, occ, Real.norm_of_nonneg (by positivity), Real.exp_neg]
    gcongr
    linarith
  have occ_meas : ∀ c : ℝ, Measurable fun E : ℝ => ((occ beta (E + c) : ℝ) : ℂ) := fun c => by
    unfold occ; fun_prop
  have hu : Decays (fun E => ((occ beta (E - mu) : ℝ) : ℂ)) beta (Real.exp (beta * mu)) := by
    refine ⟨by simpa only [sub_eq_add_neg] using occ_meas (-mu), fun E _ => (occ_bound _).trans (le_of_eq ?_)⟩
    rw [← Real.exp_add]; congr 1; ring
  have hdn : Decays (fun E => ((occ beta (E + mu) : ℝ) : ℂ)) beta (Real.exp (-(beta * mu))) := by
    refine ⟨occ_meas mu, fun E _ => (occ_bound _).trans (le_of_eq ?_)⟩
    rw [← Real.exp_add]; congr 1; ring
  have pw : ∀ v, Generic p M mu v → (Summable fun n : ℤ => F (fourMomentum (Spec.quarkFrequency beta mu n) v)) ∧ (Integrable fun w : ℝ => F (fourMomentum w v)) ∧
      Spec.quarkSumMinusIntegral (fun q0 => F (fourMomentum q0 v)) beta mu = -(onShellW F (fun E => ((occ beta (E - mu) : ℝ) : ℂ)) (fun E => ((occ beta (E + mu) : ℝ) : ℂ)) M v
        + onShellW (swapped om p F) (fun E => ((occ beta (E + mu) : ℝ) : ℂ)) (fun E => ((occ beta (E - mu) : ℝ) : ℂ)) M ((-p, 0, 0) - v)) := by
    intro v hv
    have hdeg := natDegree_inEnergy f v
    have key := (h.isLoop v).fermi (fun _ => hv.pos) (fun _ => hv.pos') (injective_fin1 _) (injective_fin1 _) ho (by simp; omega) hb hv.pole
    refine ⟨key.1, key.2.1, key.2.2.trans ?_⟩
    refine h.pointwise_of ho hv.pos hv.pos' ?_ ?_ ?_ ?_
    · have := fermi_up hb hv.pos (r := 0) (l := 0) (by simp) mu
      rwa [show ((0 : ℝ) : ℂ) + en3 M v * I = I * en3 M v by push_cast; ring] at this
    · have := fermi_down hb hv.pos (r := 0) (l := 0) (by simp) mu
      rwa [show ((0 : ℝ) : ℂ) - en3 M v * I = -(I * en3 M v) by push_cast; ring] at this
    · have := fermi_up hb hv.pos' (r := -om) (l := -l) (by push_cast; linarith) mu
      rwa [show ((-om : ℝ) : ℂ) + en3 M (other p v) * I = -om + I * en3 M (other p v) by push_cast; ring] at this
    · have := fermi_down hb hv.pos' (r := -om) (l := -l) (by push_cast; linarith) mu
      rwa [show ((-om : ℝ) : ℂ) - en3 M (other p v) * I = -om - I * en3 M (other p v) by push_cast; ring] at this
  have key := h.fermion hf ho hb hu hdn (n := fun E => occ beta (E - mu) + occ beta (E + mu)) (fun E => rfl)
    ((ae_generic p M mu).mono fun v hv => (pw v hv).2.2)
  refine ⟨?_, key.1, key.2.symm⟩
  filter_upwards [ae_generic p M mu] with v hv using ⟨(pw v hv).1, (pw v hv).2.1⟩

/-- **Quark loop at zero temperature.** -/
theorem IsDiagram.denseQuark (hf : ∀ Q, MvPolynomial.eval (-(external om p + Q)) f = MvPolynomial.eval Q f) (ho : om ≠ 0)
    (hd : f.totalDegree ≤ 2) (mu : ℝ) :
    Spec.IsDenseQuarkDiagram F mu (∫ q in Ioi (0 : ℝ), -lineQ om p (fun _ : Fin 1 => M) (fun _ : Fin 1 => M) f 0
      (fun E => (if E > mu then 0 else 1) + (if E > -mu then 0 else 1)) (fun E => (if E > mu then 0 else 1) + (if E > -mu then 0 else 1)) q) := by
  have hu : ∀ mu : ℝ, Decays (fun E => if E > mu then 0 else 1) 1 (Real.exp |mu|) := fun mu => by
    refine ⟨Measurable.ite measurableSet_Ioi measurable_const measurable_const, fun E _ => ?_⟩
    rw [← Real.exp_add]
    split_ifs with h0
    · rw [norm_zero]; positivity
    · rw [norm_one]
      exact Real.one_le_exp (by linarith [le_abs_self mu])
  have pw : ∀ v, Generic p M mu v → (Integrable fun w : ℝ => F (fourMomentum (w + I * mu) v)) ∧ (Integrable fun w : ℝ => F (fourMomentum w v)) ∧
      Spec.denseMinusVacuum (fun q0 => F (fourMomentum q0 v)) mu = -(onShellW F (fun E => if E > mu then 0 else 1) (fun E => if E > -mu then 0 else 1) M v
        + onShellW (swapped om p F) (fun E => if E > -mu then 0 else 1) (fun E => if E > mu then 0 else 1) M ((-p, 0, 0) - v)) := by
    intro v hv
    have hdeg := natDegree_inEnergy f v
    have key := (h.isLoop v).line_sub_line (fun _ => hv.pos) (fun _ => hv.pos') (injective_fin1 _) (injective_fin1 _) ho (by simp; omega) hv.pole
    refine ⟨key.1, key.2.1, key.2.2.trans ?_⟩
    have n1 : en3 M v ≠ -mu := fun h0 => hv.ne (by rw [← abs_neg, ← h0, abs_of_pos hv.pos])
    have n2 : en3 M (other p v) ≠ -mu := fun h0 => hv.ne' (by rw [← abs_neg, ← h0, abs_of_pos hv.pos'])
    refine h.pointwise_of ho hv.pos hv.pos' ?_ ?_ ?_ ?_
    · simpa using lineWeight_up hv.pos 0 mu
    · simpa using lineWeight_down hv.pos 0 n1
    · simpa using lineWeight_up hv.pos' (-om) mu
    · simpa using lineWeight_down hv.pos' (-om) n2
  have key := h.fermion hf ho one_pos (hu mu) (by simpa using hu (-mu)) (n := fun E => (if E > mu then 0 else 1) + (if E > -mu then 0 else 1)) (fun E => rfl)
    ((ae_generic p M mu).mono fun v hv => (pw v hv).2.2)
  refine ⟨?_, key.1, key.2.symm⟩
  filter_upwards [ae_generic p M mu] with v hv using ⟨(pw v hv).1, (pw v hv).2.1⟩

end

end Qcd.Matsubara
