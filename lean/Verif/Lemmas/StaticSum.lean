import Verif.Lemmas.StaticLimit

/-! # Static loops summed over the frequencies

At zero external frequency, and where the energies of the two lines differ, all the poles are simple. -/

namespace Qcd.Static
open Filter Topology Complex MeasureTheory Set Matsubara
open Spec (Vec msq external fourMomentum atPole)
open scoped Real

variable {p m : ℝ} {f : MvPolynomial (Fin 4) ℂ} {F : Vec → ℂ} {a c : ℝ} {v : ℝ × ℝ × ℝ}

theorem atPole_static {E K : ℝ} (hEK : K ^ 2 ≠ E ^ 2) {g : ℂ → ℂ}
    (hg : ∀ w : ℂ, w ^ 2 + (E : ℂ) ^ 2 ≠ 0 → w ^ 2 + (K : ℂ) ^ 2 ≠ 0 → g w = (a + c * w ^ 2) / ((w ^ 2 + (E : ℂ) ^ 2) * (w ^ 2 + (K : ℂ) ^ 2)))
    {z : ℂ} (hz : z ^ 2 = -(E : ℂ) ^ 2) (hz0 : z ≠ 0) : atPole g E z = ((a - c * E ^ 2) / (K ^ 2 - E ^ 2) : ℝ) := by
  have hd : (K : ℂ) ^ 2 - (E : ℂ) ^ 2 ≠ 0 := by
    have := sub_ne_zero.2 hEK
    exact_mod_cast this
  refine Tendsto.limUnder_eq ?_
  have h1 : Tendsto (fun w : ℂ => (a + c * w ^ 2) / (w ^ 2 + (K : ℂ) ^ 2)) (𝓝[≠] z) (𝓝 ((a + c * z ^ 2) / (z ^ 2 + (K : ℂ) ^ 2))) := by
    refine tendsto_nhdsWithin_of_tendsto_nhds (ContinuousAt.tendsto ?_)
    refine ContinuousAt.div (by fun_prop) (by fun_prop) ?_
    rw [hz, neg_add_eq_sub]; exact hd
  have e : ((a + c * z ^ 2) / (z ^ 2 + (K : ℂ) ^ 2) : ℂ) = (((a - c * E ^ 2) / (K ^ 2 - E ^ 2) : ℝ) : ℂ) := by
    rw [hz]; push_cast; congr 1 <;> ring
  rw [← e]
  refine h1.congr' ?_
  have n1 : ∀ᶠ w in 𝓝[≠] z, w ^ 2 + (E : ℂ) ^ 2 ≠ 0 := by
    have hc : ∀ᶠ w in 𝓝 z, w ≠ -z := by
      refine ContinuousAt.eventually_ne continuousAt_id ?_
      intro h
      refine hz0 ?_
      have h : z = -z := h
      linear_combination h / 2
    filter_upwards [hc.filter_mono nhdsWithin_le_nhds, self_mem_nhdsWithin] with w h2 h3
    intro h0
    have : (w - z) * (w + z) = 0 := by linear_combination h0 - hz
    rcases mul_eq_zero.1 this with h4 | h4
    · exact h3 (sub_eq_zero.1 h4)
    · exact h2 (eq_neg_of_add_eq_zero_left h4)
  have n2 : ∀ᶠ w in 𝓝[≠] z, w ^ 2 + (K : ℂ) ^ 2 ≠ 0 := by
    have : ContinuousAt (fun w : ℂ => w ^ 2 + (K : ℂ) ^ 2) z := by fun_prop
    refine (this.eventually_ne ?_).filter_mono nhdsWithin_le_nhds
    rw [hz, neg_add_eq_sub]; exact hd
  filter_upwards [n1, n2] with w h1 h2
  rw [hg w h1 h2]
  field_simp

/-- The two energies as one family. -/
def both (E K : ℝ) : Fin 2 → ℝ := ![E, K]

theorem both_pos {E K : ℝ} (hE : 0 < E) (hK : 0 < K) (i : Fin 2) : 0 < both E K i := by
  fin_cases i
  · exact hE
  · exact hK

theorem both_injective {E K : ℝ} (h : K ^ 2 ≠ E ^ 2) : Function.Injective (both E K) := by
  have h0 : K ≠ E := fun h1 => h (by rw [h1])
  intro i j
  fin_cases i <;> fin_cases j <;> simp [both, h0, h0.symm]

theorem isLoop_static (h : IsDiagram 0 p (fun _ : Fin 1 => m) (fun _ : Fin 1 => m) f F) (v : ℝ × ℝ × ℝ) :
    IsLoop 1 (both (en3 m v) (en3 m (other p v))) (Fin.elim0 : Fin 0 → ℝ) (inEnergy f v) fun q0 => F (fourMomentum q0 v) := by
  intro w h1 _
  have := h.isLoop v w (fun _ => by simpa [both] using h1 0) (fun _ => by simpa [both] using h1 1)
  rw [this]
  simp [both]

theorem static_poleSum (h : IsDiagram 0 p (fun _ : Fin 1 => m) (fun _ : Fin 1 => m) f F)
    (hf : ∀ w : ℂ, MvPolynomial.eval (fourMomentum w v) f = a + c * w ^ 2) (hE : 0 < en3 m v) (hK : 0 < en3 m (other p v))
    (hne : en3 m (other p v) ^ 2 ≠ en3 m v ^ 2) {W : ℂ → ℂ} {u d : ℝ → ℝ}
    (h1 : ∀ i, W (I * both (en3 m v) (en3 m (other p v)) i) = -(I * u (both (en3 m v) (en3 m (other p v)) i)))
    (h2 : ∀ i, W (-(I * both (en3 m v) (en3 m (other p v)) i)) = I * d (both (en3 m v) (en3 m (other p v)) i)) :
    poleSum (fun q0 => F (fourMomentum q0 v)) 1 (both (en3 m v) (en3 m (other p v))) (Fin.elim0 : Fin 0 → ℝ) W =
      ((static p m (fun E => u E + d E) (fun _ => a) (fun _ => c) v : ℝ) : ℂ) := by
  rw [poleSum_eq (u := fun E => ((u E : ℝ) : ℂ)) (d := fun E => ((d E : ℝ) : ℂ)) (both_pos hE hK) (fun b => b.elim0) h1 h2 (fun b => b.elim0) (fun b => b.elim0)]
  have hg : ∀ w : ℂ, w ^ 2 + (en3 m v : ℂ) ^ 2 ≠ 0 → w ^ 2 + (en3 m (other p v) : ℂ) ^ 2 ≠ 0 →
      F (fourMomentum w v) = (a + c * w ^ 2) / ((w ^ 2 + (en3 m v : ℂ) ^ 2) * (w ^ 2 + (en3 m (other p v) : ℂ) ^ 2)) := by
    intro w w1 w2
    have := h.isLoop v w (fun _ => w1) (fun _ => by simpa using w2)
    simp only [eval_inEnergy, hf, Finset.univ_unique, Finset.prod_singleton, Complex.ofReal_zero, add_zero] at this
    exact this
  have z1 : ∀ E : ℝ, (I * (E : ℂ)) ^ 2 = -(E : ℂ) ^ 2 := fun E => by rw [mul_pow, I_sq]; ring
  have z2 : ∀ E : ℝ, (-(I * (E : ℂ))) ^ 2 = -(E : ℂ) ^ 2 := fun E => by rw [neg_sq]; exact z1 E
  have z3 : ∀ E : ℝ, 0 < E → I * (E : ℂ) ≠ 0 := fun E hE => mul_ne_zero I_ne_zero (by exact_mod_cast hE.ne')
  have a1 := atPole_static hne (g := fun q0 => F (fourMomentum q0 v)) hg (z1 (en3 m v)) (z3 _ hE)
  have a2 := atPole_static hne (g := fun q0 => F (fourMomentum q0 v)) hg (z2 (en3 m v)) (neg_ne_zero.2 (z3 _ hE))
  have hg' : ∀ w : ℂ, w ^ 2 + (en3 m (other p v) : ℂ) ^ 2 ≠ 0 → w ^ 2 + (en3 m v : ℂ) ^ 2 ≠ 0 →
      F (fourMomentum w v) = (a + c * w ^ 2) / ((w ^ 2 + (en3 m (other p v) : ℂ) ^ 2) * (w ^ 2 + (en3 m v : ℂ) ^ 2)) := fun w w1 w2 => by
    rw [hg w w2 w1, mul_comm (w ^ 2 + (en3 m v : ℂ) ^ 2)]
  have a3 := atPole_static hne.symm (g := fun q0 => F (fourMomentum q0 v)) hg' (z1 (en3 m (other p v))) (z3 _ hK)
  have a4 := atPole_static hne.symm (g := fun q0 => F (fourMomentum q0 v)) hg' (z2 (en3 m (other p v))) (neg_ne_zero.2 (z3 _ hK))
  simp only [Fin.sum_univ_two, Finset.univ_eq_empty, Finset.sum_empty, add_zero]
  have b0 : both (en3 m v) (en3 m (other p v)) 0 = en3 m v := rfl
  have b1 : both (en3 m v) (en3 m (other p v)) 1 = en3 m (other p v) := rfl
  rw [b0, b1, a1, a2, a3, a4, static]
  have hd := sub_ne_zero.2 hne
  rw [show en3 m v ^ 2 - en3 m (other p v) ^ 2 = -(en3 m (other p v) ^ 2 - en3 m v ^ 2) by ring]
  generalize en3 m (other p v) ^ 2 - en3 m v ^ 2 = D at hd
  generalize en3 m v = E at *
  generalize en3 m (other p v) = K at *
  push_cast
  have hD : (D : ℂ) ≠ 0 := by exact_mod_cast hd
  have hE' : (E : ℂ) ≠ 0 := by exact_mod_cast hE.ne'
  have hK' : (K : ℂ) ≠ 0 := by exact_mod_cast hK.ne'
  field_simp
  ring

/-- Generic momenta of a static loop. -/
theorem ae_generic_static (hp : p ≠ 0) (m mu : ℝ) : ∀ᵐ v, Generic p m mu v ∧ en3 m (other p v) ^ 2 ≠ en3 m v ^ 2 :=
  (ae_generic p m mu).and (ae_static hp m)

theorem pole_static {mu : ℝ} (h : Generic p m mu v) (i : (Fin 2 ⊕ Fin 0) × Bool) :
    (pole 1 (both (en3 m v) (en3 m (other p v))) (Fin.elim0 : Fin 0 → ℝ) i).im ≠ mu := by
  rw [pole_im]
  have key : ∀ E : ℝ, 0 < E → E ≠ |mu| → E ≠ mu ∧ -E ≠ mu := fun E h0 h1 => by
    refine ⟨fun h2 => h1 ?_, fun h2 => h1 ?_⟩
    · rw [← h2, abs_of_pos h0]
    · rw [← h2, abs_neg, abs_of_pos h0]
  rcases i with ⟨i | i, s⟩
  · have k1 := key _ h.pos h.ne
    have k2 := key _ h.pos' h.ne'
    fin_cases i <;> cases s <;> simp [both, k1.1, k1.2, k2.1, k2.2]
  · exact i.elim0

section
variable {a c : ℝ × ℝ × ℝ → ℝ} (h : IsDiagram 0 p (fun _ : Fin 1 => m) (fun _ : Fin 1 => m) f F)
  (hf : ∀ (v : ℝ × ℝ × ℝ) (w : ℂ), MvPolynomial.eval (fourMomentum w v) f = a v + c v * w ^ 2) (hdeg : f.totalDegree ≤ 2) (hp : p ≠ 0)
include h hf hdeg hp

/-- **Static quark loop at finite temperature.** -/
theorem thermalQuark {beta : ℝ} (hb : 0 < beta) (mu : ℝ)
    (hi : Integrable fun v => ((static p m (fun E => occ beta (E - mu) + occ beta (E + mu)) a c v : ℝ) : ℂ)) :
    Spec.IsThermalQuarkDiagram F beta mu (1 / (2 * π) ^ 3 * ∫ v, ((static p m (fun E => occ beta (E - mu) + occ beta (E + mu)) a c v : ℝ) : ℂ)) := by
  have pw : ∀ v, Generic p m mu v ∧ en3 m (other p v) ^ 2 ≠ en3 m v ^ 2 →
      (Summable fun n : ℤ => F (fourMomentum (Spec.quarkFrequency beta mu n) v)) ∧ (Integrable fun w : ℝ => F (fourMomentum w v)) ∧
      Spec.quarkSumMinusIntegral (fun q0 => F (fourMomentum q0 v)) beta mu = ((static p m (fun E => occ beta (E - mu) + occ beta (E + mu)) a c v : ℝ) : ℂ) := by
    rintro v ⟨hv, hne⟩
    have hd := natDegree_inEnergy f v
    have pos := both_pos hv.pos hv.pos'
    have key := (isLoop_static h v).fermi pos (fun b => b.elim0) (both_injective hne) (fun b => b.elim0) one_ne_zero (by simp; omega) hb (pole_static hv)
    refine ⟨key.1, key.2.1, key.2.2.trans ?_⟩
    rw [static_poleSum h (hf v) hv.pos hv.pos' hne (u := fun E => occ beta (E - mu)) (d := fun E => occ beta (E + mu)) ?_ ?_]
    · rfl
    · intro i
      have := fermi_up hb (pos i) (r := 0) (l := 0) (by simp) mu
      rwa [show ((0 : ℝ) : ℂ) + both (en3 m v) (en3 m (other p v)) i * I = I * both (en3 m v) (en3 m (other p v)) i by push_cast; ring] at this
    · intro i
      have := fermi_down hb (pos i) (r := 0) (l := 0) (by simp) mu
      rwa [show ((0 : ℝ) : ℂ) - both (en3 m v) (en3 m (other p v)) i * I = -(I * both (en3 m v) (en3 m (other p v)) i) by push_cast; ring] at this
  have ae : (fun v => ((static p m (fun E => occ beta (E - mu) + occ beta (E + mu)) a c v : ℝ) : ℂ)) =ᵐ[volume]
      fun v => Spec.quarkSumMinusIntegral (fun q0 => F (fourMomentum q0 v)) beta mu :=
    (ae_generic_static hp m mu).mono fun v hv => (pw v hv).2.2.symm
  exact ⟨(ae_generic_static hp m mu).mono fun v hv => ⟨(pw v hv).1, (pw v hv).2.1⟩, hi.congr ae, by rw [integral_congr_ae ae]⟩

/-- **Static quark loop at zero temperature.** -/
theorem denseQuark (mu : ℝ)
    (hi : Integrable fun v => ((static p m (fun E => (if E > mu then 0 else 1) + (if E > -mu then 0 else 1)) a c v : ℝ) : ℂ)) :
    Spec.IsDenseQuarkDiagram F mu (1 / (2 * π) ^ 3 * ∫ v, ((static p m (fun E => (if E > mu then 0 else 1) + (if E > -mu then 0 else 1)) a c v : ℝ) : ℂ)) := by
  have pw : ∀ v, Generic p m mu v ∧ en3 m (other p v) ^ 2 ≠ en3 m v ^ 2 →
      (Integrable fun w : ℝ => F (fourMomentum (w + I * mu) v)) ∧ (Integrable fun w : ℝ => F (fourMomentum w v)) ∧
      Spec.denseMinusVacuum (fun q0 => F (fourMomentum q0 v)) mu = ((static p m (fun E => (if E > mu then 0 else 1) + (if E > -mu then 0 else 1)) a c v : ℝ) : ℂ) := by
    rintro v ⟨hv, hne⟩
    have hd := natDegree_inEnergy f v
    have pos := both_pos hv.pos hv.pos'
    have key := (isLoop_static h v).line_sub_line pos (fun b => b.elim0) (both_injective hne) (fun b => b.elim0) one_ne_zero (by simp; omega) (pole_static hv)
    refine ⟨key.1, key.2.1, key.2.2.trans ?_⟩
    have n1 : en3 m v ≠ -mu := fun h0 => hv.ne (by rw [← abs_neg, ← h0, abs_of_pos hv.pos])
    have n2 : en3 m (other p v) ≠ -mu := fun h0 => hv.ne' (by rw [← abs_neg, ← h0, abs_of_pos hv.pos'])
    have n3 : ∀ i, both (en3 m v) (en3 m (other p v)) i ≠ -mu := fun i => by fin_cases i <;> assumption
    rw [static_poleSum h (hf v) hv.pos hv.pos' hne (u := fun E => if E > mu then 0 else 1) (d := fun E => if E > -mu then 0 else 1) ?_ ?_]
    · rfl
    · intro i
      have := lineWeight_up (pos i) 0 mu
      simp only [Complex.ofReal_zero, zero_add] at this
      rw [this]; split_ifs <;> simp
    · intro i
      have := lineWeight_down (pos i) 0 (n3 i)
      simp only [Complex.ofReal_zero, zero_sub] at this
      rw [this]; split_ifs <;> simp
  have ae : (fun v => ((static p m (fun E => (if E > mu then 0 else 1) + (if E > -mu then 0 else 1)) a c v : ℝ) : ℂ)) =ᵐ[volume]
      fun v => Spec.denseMinusVacuum (fun q0 => F (fourMomentum q0 v)) mu :=
    (ae_generic_static hp m mu).mono fun v hv => (pw v hv).2.2.symm
  exact ⟨(ae_generic_static hp m mu).mono fun v hv => ⟨(pw v hv).1, (pw v hv).2.1⟩, hi.congr ae, by rw [integral_congr_ae ae]⟩

end

end Qcd.Static
