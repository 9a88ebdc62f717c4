import Verif.Lemmas.StaticSum
import Verif.Lemmas.StaticOccupation
import Verif.Props.QuarkMatsubara

/-! # C91: the quark loop at zero frequency

The zero-frequency functions evaluate the loop at a small frequency, the regulator of the configuration. As the regulator goes to
zero they converge to the static one-loop quark diagram, whose two lines have the same mass and the same frequency
(specification: `Verif/Spec/QuarkDiagram.lean`). The numerical integrator is taken to be exact. -/

namespace Qcd
open Set MeasureTheory Matsubara Matrix Filter Topology
open Spec (Vec msq external fourMomentum IsClifford quarkDiagram polL polT IsThermalQuarkDiagram IsDenseQuarkDiagram)

variable {g : Fin 4 → Matrix (Fin 4) (Fin 4) ℂ}

/-! ### The numerators of the loop -/

namespace Static

theorem isPolar_L {om p : ℝ} (ho : om ^ 2 + p ^ 2 ≠ 0) : IsPolar (Spec.polL om p) om p (pL om p) where
  ne := by simp [Spec.polL]
  unit := (polL_polarised (by exact_mod_cast ho) 0).unit
  orth := (polL_polarised (by exact_mod_cast ho) 0).orth
  avg Q := by
    have h2 : (((om : ℂ) ^ 2 + (p : ℂ) ^ 2) ^ ((1 : ℂ) / 2)) ^ 2 = (om : ℂ) ^ 2 + (p : ℂ) ^ 2 := by
      rw [← Complex.cpow_nat_mul]; norm_num
    simp only [Spec.average, Spec.polL, List.map_cons, List.map_nil, List.sum_cons, List.sum_nil, smul_dotProduct, smul_eq_mul, mul_pow, inv_pow, h2, pL]
    simp only [dotProduct, Fin.sum_univ_four, map_mul, map_sub, map_pow, MvPolynomial.eval_C, MvPolynomial.eval_X]
    simp
    ring_nf
    simp
  deg := by
    refine deg_mul (d := 0) (deg_C _ _) (deg_sq (d := 1) (deg_sub ?_ ?_))
    · exact deg_mul (d := 0) (deg_C _ _) (deg_X 0)
    · exact deg_mul (d := 0) (deg_C _ _) (deg_X 1)
  axis q0 v := by simp [pL, fourMomentum]

/-- The part of the numerator that does not depend on the polarization. -/
noncomputable def common (p m : ℝ) (v : ℝ × ℝ × ℝ) : ℝ := (r2 v + r2 (other p v) - p ^ 2) / 2 + m ^ 2

theorem common_eq (p m : ℝ) (v : ℝ × ℝ × ℝ) : common p m v = (en3 m v ^ 2 + en3 m (other p v) ^ 2 - p ^ 2) / 2 := by
  rw [common, en3_sq, en3_sq]; ring

theorem abs_common_le (p m : ℝ) (v : ℝ × ℝ × ℝ) : |common p m v| ≤ (13 + 9 * p ^ 2 + 2 * m ^ 2) * (1 + ‖v‖) ^ 2 := by
  have h := energies_le p m v
  have h6 : 1 ≤ (1 + ‖v‖) ^ 2 := by nlinarith [norm_nonneg v]
  have h7 := mul_le_mul_of_nonneg_left h6 (sq_nonneg p)
  have h8 := sq_nonneg (en3 m v)
  have h9 := sq_nonneg (en3 m (other p v))
  rw [common_eq, abs_le]
  constructor <;> nlinarith

theorem common_back (p m : ℝ) (v : ℝ × ℝ × ℝ) : common p m ((-p, 0, 0) - v) = common p m v := by
  rw [common_eq, common_eq, en3_back, en3_neg]; ring

theorem eval_numQuark (nc e p : ℝ) (V : Pol) (m : ℝ) (w : ℂ) (v : ℝ × ℝ × ℝ) :
    MvPolynomial.eval (fourMomentum w v) (numQuark nc (external e p) V m) =
      -(2 / (nc : ℂ)) * (2 * MvPolynomial.eval (fourMomentum w v) V - (w ^ 2 + w * e + (common p m v : ℝ))) := by
  have e1 : external (e : ℂ) p + fourMomentum w v = fourMomentum (w + e) (other p v) := by
    ext i; fin_cases i <;> simp [external, fourMomentum, other, add_comm]
  simp only [numQuark, map_add, map_sub, map_mul, MvPolynomial.eval_C, eval_pX, eval_pY, e1, msq_fourMomentum, msq_external]
  simp only [common]
  push_cast
  ring

theorem numer_T (nc p m : ℝ) : Numer p (fun e => numQuark nc (external e p) pT m) (fun _ v => -(2 / nc) * (v.2.1 ^ 2 + v.2.2 ^ 2 - common p m v))
    (fun e _ => 2 / nc * e) (fun _ _ => 2 / nc) (|2 / nc| * (15 + 9 * p ^ 2 + 2 * m ^ 2)) 2 := by
  have h6 : ∀ v : ℝ × ℝ × ℝ, 1 ≤ (1 + ‖v‖) ^ 2 := fun v => by nlinarith [norm_nonneg v]
  have hC : ∀ v : ℝ × ℝ × ℝ, |2 / nc| ≤ |2 / nc| * (15 + 9 * p ^ 2 + 2 * m ^ 2) * (1 + ‖v‖) ^ 2 := fun v => by
    rw [mul_assoc]
    refine le_mul_of_one_le_right (abs_nonneg _) ?_
    have := h6 v
    nlinarith [sq_nonneg p, sq_nonneg m]
  refine ⟨fun e w v => ?_, fun e v _ => ?_, fun e v _ => ?_, fun e v _ => hC v, fun e v _ => ?_, fun e v _ => ?_, fun v => tendsto_const_nhds, fun v => tendsto_const_nhds⟩
  · rw [eval_numQuark]
    have : MvPolynomial.eval (fourMomentum w v) pT = (v.2.1 ^ 2 + v.2.2 ^ 2) / 2 := by simp [pT, fourMomentum]; ring
    rw [this]; push_cast; ring
  · rw [abs_mul, abs_neg, mul_assoc]
    refine mul_le_mul_of_nonneg_left ?_ (abs_nonneg _)
    have h1 := abs_common_le p m v
    have h2 : |v.2.1| ≤ ‖v‖ := (norm_fst_le v.2).trans (norm_snd_le v)
    have h3 : |v.2.2| ≤ ‖v‖ := (norm_snd_le v.2).trans (norm_snd_le v)
    have h4 := sq_le_sq' (by linarith [abs_nonneg v.2.1, norm_nonneg v]) h2
    have h5 := sq_le_sq' (by linarith [abs_nonneg v.2.2, norm_nonneg v]) h3
    rw [sq_abs] at h4 h5
    have h7 : |v.2.1 ^ 2 + v.2.2 ^ 2 - common p m v| ≤ (v.2.1 ^ 2 + v.2.2 ^ 2) + |common p m v| := by
      have := abs_sub (v.2.1 ^ 2 + v.2.2 ^ 2) (common p m v)
      rwa [abs_of_nonneg (show 0 ≤ v.2.1 ^ 2 + v.2.2 ^ 2 by positivity)] at this
    nlinarith [norm_nonneg v]
  · rw [abs_mul, mul_comm]
    exact mul_le_mul_of_nonneg_left (hC v) (abs_nonneg _)
  · have : (((-p, 0, 0) - v).2.1 ^ 2 + ((-p, 0, 0) - v).2.2 ^ 2) = v.2.1 ^ 2 + v.2.2 ^ 2 := by simp
    rw [common_back, this, sub_self, abs_zero]
    have := (abs_nonneg _).trans (hC v)
    positivity
  · rw [sub_self, abs_zero]
    have := (abs_nonneg _).trans (hC v)
    positivity

theorem numer_L (nc : ℝ) {p : ℝ} (hp : p ≠ 0) (m : ℝ) : Numer p (fun e => numQuark nc (external e p) (pL e p) m)
    (fun e v => -(2 / nc) * (2 * e ^ 2 * v.1 ^ 2 / (e ^ 2 + p ^ 2) - common p m v))
    (fun e v => 2 / nc * (e * (4 * (p * v.1) / (e ^ 2 + p ^ 2) + 1))) (fun e _ => 2 / nc * (1 - 2 * p ^ 2 / (e ^ 2 + p ^ 2)))
    (|2 / nc| * (15 + 9 * p ^ 2 + 2 * m ^ 2 + 4 / |p|)) 2 := by
  have hp0 : 0 < |p| := abs_pos.2 hp
  have hp2 : 0 < p ^ 2 := by positivity
  have hs : ∀ e : ℝ, 0 < e ^ 2 + p ^ 2 := fun e => by positivity
  have h4p : 0 < 4 / |p| := by positivity
  have h6 : ∀ v : ℝ × ℝ × ℝ, 1 ≤ (1 + ‖v‖) ^ 2 := fun v => by nlinarith [norm_nonneg v]
  have h7 : ∀ v : ℝ × ℝ × ℝ, ‖v‖ ≤ (1 + ‖v‖) ^ 2 := fun v => by nlinarith [norm_nonneg v]
  have hv : ∀ v : ℝ × ℝ × ℝ, |v.1| ≤ ‖v‖ := fun v => norm_fst_le v
  have lift : ∀ (v : ℝ × ℝ × ℝ) (x y : ℝ), x ≤ (15 + 9 * p ^ 2 + 2 * m ^ 2 + 4 / |p|) * (1 + ‖v‖) ^ 2 → |y| ≤ x →
      |2 / nc * y| ≤ |2 / nc| * (15 + 9 * p ^ 2 + 2 * m ^ 2 + 4 / |p|) * (1 + ‖v‖) ^ 2 := fun v x y h1 h2 => by
    rw [abs_mul, mul_assoc]
    exact mul_le_mul_of_nonneg_left (h2.trans h1) (abs_nonneg _)
  have hpe : ∀ e x : ℝ, |p * x / (e ^ 2 + p ^ 2)| ≤ |x| / |p| := fun e x => by
    rw [abs_div, abs_mul, abs_of_pos (hs e), div_le_div_iff₀ (hs e) hp0]
    have : |p| * |p| = p ^ 2 := by rw [← sq, sq_abs]
    nlinarith [abs_nonneg x, mul_nonneg (abs_nonneg x) (sq_nonneg e)]
  refine ⟨fun e w v => ?_, fun e v _ => ?_, fun e v _ => ?_, fun e v _ => ?_, fun e v _ => ?_, fun e v _ => ?_, fun v => ?_, fun v => ?_⟩
  · rw [eval_numQuark]
    have hs' : (e : ℂ) ^ 2 + (p : ℂ) ^ 2 ≠ 0 := by exact_mod_cast (hs e).ne'
    have : MvPolynomial.eval (fourMomentum w v) (pL e p) = (p * w - e * v.1) ^ 2 / (e ^ 2 + p ^ 2) := by simp [pL, fourMomentum]; ring
    rw [this]; push_cast
    generalize (2 / (nc : ℂ)) = c
    field_simp
    ring
  · rw [neg_mul, abs_neg]
    have h1 : 2 * e ^ 2 * v.1 ^ 2 / (e ^ 2 + p ^ 2) ≤ 2 * ‖v‖ ^ 2 := by
      rw [div_le_iff₀ (hs e)]
      have := sq_le_sq' (by linarith [abs_nonneg v.1, norm_nonneg v]) (hv v)
      rw [sq_abs] at this
      nlinarith [mul_nonneg (sq_nonneg ‖v‖) hp2.le, mul_le_mul_of_nonneg_left this (sq_nonneg e)]
    have h0 : 0 ≤ 2 * e ^ 2 * v.1 ^ 2 / (e ^ 2 + p ^ 2) := by have := hs e; positivity
    have h2 := abs_common_le p m v
    refine lift v (2 * ‖v‖ ^ 2 + (13 + 9 * p ^ 2 + 2 * m ^ 2) * (1 + ‖v‖) ^ 2) _ ?_ ((abs_sub _ _).trans (add_le_add ((abs_of_nonneg h0).le.trans h1) h2))
    have h3 : ‖v‖ ^ 2 ≤ (1 + ‖v‖) ^ 2 := by nlinarith [norm_nonneg v]
    nlinarith [mul_nonneg h4p.le ((zero_le_one).trans (h6 v))]
  · have e1 : 2 / nc * (e * (4 * (p * v.1) / (e ^ 2 + p ^ 2) + 1)) = e * (2 / nc * (4 * (p * v.1 / (e ^ 2 + p ^ 2)) + 1)) := by ring
    simp only [e1]
    rw [abs_mul]
    refine mul_le_mul_of_nonneg_left (lift v (4 * (‖v‖ / |p|) + 1) _ ?_ ?_) (abs_nonneg _)
    · have : 4 * (‖v‖ / |p|) = 4 / |p| * ‖v‖ := by ring
      rw [this]
      have := mul_le_mul_of_nonneg_left (h7 v) h4p.le
      nlinarith [h6 v, mul_nonneg hp2.le (zero_le_one.trans (h6 v)), mul_nonneg (sq_nonneg m) (zero_le_one.trans (h6 v))]
    · refine (abs_add_le _ _).trans ?_
      rw [abs_one, abs_mul, abs_of_pos (show (0 : ℝ) < 4 by norm_num)]
      have h1 := hpe e v.1
      have h2 : |v.1| / |p| ≤ ‖v‖ / |p| := div_le_div_of_nonneg_right (hv v) hp0.le
      linarith
  · refine lift v 3 _ ?_ ?_
    · nlinarith [h6 v, mul_nonneg hp2.le (zero_le_one.trans (h6 v)), mul_nonneg (sq_nonneg m) (zero_le_one.trans (h6 v)), mul_nonneg h4p.le (zero_le_one.trans (h6 v))]
    · have h1 : 2 * p ^ 2 / (e ^ 2 + p ^ 2) ≤ 2 := by rw [div_le_iff₀ (hs e)]; nlinarith [sq_nonneg e]
      have h0 : 0 ≤ 2 * p ^ 2 / (e ^ 2 + p ^ 2) := by have := hs e; positivity
      rw [abs_le]; constructor <;> linarith
  · have e1 : -(2 / nc) * (2 * e ^ 2 * ((-p, 0, 0) - v).1 ^ 2 / (e ^ 2 + p ^ 2) - common p m ((-p, 0, 0) - v)) -
        -(2 / nc) * (2 * e ^ 2 * v.1 ^ 2 / (e ^ 2 + p ^ 2) - common p m v) = -(e ^ 2 * (2 / nc * (2 * (p * (p + 2 * v.1) / (e ^ 2 + p ^ 2))))) := by
      rw [common_back, Prod.fst_sub]; ring
    rw [e1, abs_neg, abs_mul, abs_of_nonneg (sq_nonneg e)]
    refine mul_le_mul_of_nonneg_left (lift v (2 * (1 + 2 * (‖v‖ / |p|))) _ ?_ ?_) (sq_nonneg e)
    · have : 2 * (1 + 2 * (‖v‖ / |p|)) = 2 + 4 / |p| * ‖v‖ := by ring
      rw [this]
      have := mul_le_mul_of_nonneg_left (h7 v) h4p.le
      nlinarith [h6 v, mul_nonneg hp2.le (zero_le_one.trans (h6 v)), mul_nonneg (sq_nonneg m) (zero_le_one.trans (h6 v))]
    · rw [abs_mul, abs_two]
      refine mul_le_mul_of_nonneg_left ((hpe e _).trans ?_) zero_le_two
      have h1 : |p + 2 * v.1| ≤ |p| + 2 * ‖v‖ := by
        refine (abs_add_le _ _).trans ?_
        rw [abs_mul, abs_two]
        linarith [hv v]
      calc |p + 2 * v.1| / |p| ≤ (|p| + 2 * ‖v‖) / |p| := by gcongr
        _ = _ := by field_simp
  · rw [sub_self, abs_zero]
    positivity
  · have hc : ContinuousAt (fun e : ℝ => -(2 / nc) * (2 * e ^ 2 * v.1 ^ 2 / (e ^ 2 + p ^ 2) - common p m v)) 0 := by
      have := (hs 0).ne'
      fun_prop (disch := assumption)
    exact hc.tendsto.mono_left nhdsWithin_le_nhds
  · have hc : ContinuousAt (fun e : ℝ => 2 / nc * (1 - 2 * p ^ 2 / (e ^ 2 + p ^ 2))) 0 := by
      have := (hs 0).ne'
      fun_prop (disch := assumption)
    exact hc.tendsto.mono_left nhdsWithin_le_nhds

theorem numer_zero {p : ℝ} {f : ℝ → Pol} {a b c : ℝ → ℝ × ℝ × ℝ → ℝ} {C : ℝ} {k : ℕ} (N : Numer p f a b c C k) (v : ℝ × ℝ × ℝ) (w : ℂ) :
    MvPolynomial.eval (fourMomentum w v) (f 0) = a 0 v + c 0 v * w ^ 2 := by
  have h := N.hb 0 v (by simp)
  rw [abs_zero, zero_mul] at h
  rw [N.eval, abs_nonpos_iff.1 h]
  simp

/-! ### Occupations -/

theorem decays_thermal {beta : ℝ} (mu : ℝ) :
    Decays (fun E => ((occ beta (E - mu) + occ beta (E + mu) : ℝ) : ℂ)) beta (Real.exp (beta * mu) + Real.exp (-(beta * mu))) := by
  have occ_bound : ∀ x, |occ beta x| ≤ Real.exp (-(beta * x)) := fun x => by
    rw [occ, abs_of_nonneg (by positivity), Real.exp_neg]
    gcongr
    linarith
  refine ⟨by unfold occ; fun_prop, fun E _ => ?_⟩
  rw [Complex.norm_real, add_mul, ← Real.exp_add, ← Real.exp_add]
  refine (abs_add_le _ _).trans (add_le_add ?_ ?_)
  · refine (occ_bound _).trans (le_of_eq ?_)
    congr 1; ring
  · refine (occ_bound _).trans (le_of_eq ?_)
    congr 1; ring

theorem decays_dense (mu : ℝ) : Decays (fun E => ((step mu E : ℝ) : ℂ)) 1 (Real.exp |mu| + Real.exp |mu|) := by
  have key : ∀ (s E : ℝ), |s| = |mu| → |(if E > s then 0 else 1 : ℝ)| ≤ Real.exp |mu| * Real.exp (-(1 * E)) := fun s E hs => by
    rw [← Real.exp_add]
    split_ifs with h0
    · rw [abs_zero]; positivity
    · rw [abs_one]
      exact Real.one_le_exp (by linarith [le_abs_self s])
  refine ⟨?_, fun E _ => ?_⟩
  · unfold step
    exact Complex.measurable_ofReal.comp ((Measurable.ite measurableSet_Ioi measurable_const measurable_const).add (Measurable.ite measurableSet_Ioi measurable_const measurable_const))
  · rw [Complex.norm_real, step, add_mul]
    exact (abs_add_le _ _).trans (add_le_add (key mu E rfl) (key (-mu) E (abs_neg mu)))

/-! ### The limit -/

/-- The functions of the code, integrated over the real part. -/
theorem limit_re {p m : ℝ} {n : ℝ → ℝ} {f : ℝ → Pol} {F : ℝ → Vec → ℂ} {a b c : ℝ → ℝ × ℝ × ℝ → ℝ} {C : ℝ} {k : ℕ}
    (N : Numer p f a b c C k) (hm : m ≠ 0) (hp : p ≠ 0)
    (h : ∀ e, e ≠ 0 → IsDiagram e p (fun _ : Fin 1 => m) (fun _ : Fin 1 => m) (f e) (F e))
    (hf : ∀ e : ℝ, e ≠ 0 → ∀ Q, MvPolynomial.eval (-(external e p + Q)) (f e) = MvPolynomial.eval Q (f e))
    {d Cn : ℝ} (hd : 0 < d) (hn : Decays (fun E => ((n E : ℝ) : ℂ)) d Cn) {K : ℝ × ℝ × ℝ → ℝ} (hK : ∀ j : ℕ, Integrable fun v => (1 + ‖v‖) ^ j * K v)
    (hnK : ∀ᵐ v, |n (en3 m v) - n (en3 m (other p v))| ≤ K v * |en3 m (other p v) ^ 2 - en3 m v ^ 2|)
    {X : ℝ → ℝ} {G : ℝ → ℝ → ℂ} (hX : ∀ e, X e = ∫ q in Ioi (0 : ℝ), (G e q).re)
    (hG : ∀ e, e ≠ 0 → ∀ q, 0 < q → G e q =
      -lineQ e p (fun _ : Fin 1 => m) (fun _ : Fin 1 => m) (f e) 0 (fun E => ((n E : ℝ) : ℂ)) (fun E => ((n E : ℝ) : ℂ)) q) :
    (Integrable fun v => ((static p m n (a 0) (c 0) v : ℝ) : ℂ)) ∧ ∃ x : ℝ, (x : ℂ) = 1 / (2 * Real.pi) ^ 3 * ∫ v, ((static p m n (a 0) (c 0) v : ℝ) : ℂ) ∧
      Tendsto X (𝓝[≠] 0) (𝓝 x) := by
  obtain ⟨hi, ht⟩ := N.limit hm hp h hf hd hn hK hnK
  have hx : ((1 / (2 * Real.pi) ^ 3 * ∫ v, static p m n (a 0) (c 0) v : ℝ) : ℂ) = 1 / (2 * Real.pi) ^ 3 * ∫ v, ((static p m n (a 0) (c 0) v : ℝ) : ℂ) := by
    rw [integral_complex_ofReal]; push_cast; ring
  refine ⟨hi, _, hx, ?_⟩
  rw [← hx] at ht
  have := (Complex.continuous_re.tendsto _).comp ht
  rw [Complex.ofReal_re] at this
  refine this.congr' ?_
  filter_upwards [self_mem_nhdsWithin] with e he
  have he : e ≠ 0 := he
  have il := ((h e he).lineQ_integral (Function.injective_of_subsingleton _) he 0 hd hn hn).1
  rw [Function.comp, hX, setIntegral_congr_fun measurableSet_Ioi fun q hq => congrArg Complex.re (hG e he q hq)]
  exact (integral_re il.neg).symm

/-- Finite temperature. -/
theorem thermal {pol : ℝ → List Vec} {V : ℝ → Pol} {p mq : ℝ} {nc : ℝ} (hg : IsClifford g) (h : ∀ e, IsPolar (pol e) e p (V e))
    {a b c : ℝ → ℝ × ℝ × ℝ → ℝ} {C : ℝ} {k : ℕ} (N : Numer p (fun e => numQuark nc (external e p) (V e) mq) a b c C k)
    {N' : ℝ → ℝ → ℂ → ℝ → ℂ} (hN : ∀ e q, Polarised (pol e) e p q (N' e q)) (hp : p ≠ 0) (hm : mq ≠ 0) {beta : ℝ} (hb : 0 < beta) (mu : ℝ)
    {X : ℝ → ℝ} {G : ℝ → ℝ → ℂ} (hX : ∀ e, X e = ∫ q in Ioi (0 : ℝ), (G e q).re)
    (hG : ∀ e, e ≠ 0 → ∀ q, 0 < q → G e q =
      Spec.quarkLoop (fun q0 z => 2 * N' e q q0 z - (Spec.den q0 q e p mq z - ((e : ℂ) ^ 2 + (p : ℂ) ^ 2)) / 2) nc
        (fermi_distribution_double (energy q mq) beta mu) q e p mq) :
    ∃ x : ℝ, IsThermalQuarkDiagram (fun Q => Spec.average (pol 0) fun e => quarkDiagram g nc e (external (0 : ℝ) p) mq Q) beta mu x ∧ Tendsto X (𝓝[≠] 0) (𝓝 x) := by
  have e2 : ∀ E : ℝ, fermi_distribution_double E beta mu = occ beta (E - mu) + occ beta (E + mu) := fun E => by
    simp [fermi_distribution_double, statistic_distribution_exponential, occ, mul_comm beta]
  obtain ⟨hi, x, hx, ht⟩ := limit_re N hm hp (fun e _ => isDiagram_quark hg (h e) nc mq) (fun e _ => numQuark_swap (h e) nc mq) hb
    (decays_thermal mu) (thermalK_integrable hb p mq mu) (.of_forall fun v => thermalK_le hb hm p mu v) hX fun e he q hq => by
      rw [hG e he q hq, e2]
      exact (lineQ_quark (h e) (hN e) nc mq (fun E => occ beta (E - mu) + occ beta (E + mu))).symm
  refine ⟨x, ?_, ht⟩
  rw [hx]
  exact thermalQuark (isDiagram_quark hg (h 0) nc mq) (fun v w => numer_zero N v w) (deg_numQuark nc _ (h 0).deg mq) hp hb mu hi

/-- Zero temperature. -/
theorem dense {pol : ℝ → List Vec} {V : ℝ → Pol} {p mq : ℝ} {nc : ℝ} (hg : IsClifford g) (h : ∀ e, IsPolar (pol e) e p (V e))
    {a b c : ℝ → ℝ × ℝ × ℝ → ℝ} {C : ℝ} {k : ℕ} (N : Numer p (fun e => numQuark nc (external e p) (V e) mq) a b c C k)
    {N' : ℝ → ℝ → ℂ → ℝ → ℂ} (hN : ∀ e q, Polarised (pol e) e p q (N' e q)) (hp : p ≠ 0) (hm : mq ≠ 0) (mu : ℝ)
    {X : ℝ → ℝ} {G : ℝ → ℝ → ℂ} (hX : ∀ e, X e = ∫ q in Ioi (0 : ℝ), (G e q).re)
    (hG : ∀ e, e ≠ 0 → ∀ q, 0 < q → G e q =
      Spec.quarkLoop (fun q0 z => 2 * N' e q q0 z - (Spec.den q0 q e p mq z - ((e : ℂ) ^ 2 + (p : ℂ) ^ 2)) / 2) nc
        (fermi_distribution_double_zero_temp (energy q mq) mu) q e p mq) :
    ∃ x : ℝ, IsDenseQuarkDiagram (fun Q => Spec.average (pol 0) fun e => quarkDiagram g nc e (external (0 : ℝ) p) mq Q) mu x ∧ Tendsto X (𝓝[≠] 0) (𝓝 x) := by
  obtain ⟨hi, x, hx, ht⟩ := limit_re N hm hp (fun e _ => isDiagram_quark hg (h e) nc mq) (fun e _ => numQuark_swap (h e) nc mq) one_pos
    (decays_dense mu) (denseK_integrable hp mq mu) ((ae_static hp mq).mono fun v hv => denseK_le hm mu hv) hX fun e he q hq => by
      rw [hG e he q hq]
      exact (lineQ_quark (h e) (hN e) nc mq (step mu)).symm
  refine ⟨x, ?_, ht⟩
  rw [hx]
  exact denseQuark (isDiagram_quark hg (h 0) nc mq) (fun v w => numer_zero N v w) (deg_numQuark nc _ (h 0).deg mq) hp mu hi

theorem dense_re {m mu : ℝ} {f : ℝ → ℂ} (hf : ∀ q, 0 < q → |mu| < |m| ∨ fermi_momentum m mu < q → f q = 0) :
    (open Classical in if |mu| < |m| then (0 : ℝ) else ∫ q in (0 : ℝ)..fermi_momentum m mu, (f q).re) = ∫ q in Ioi (0 : ℝ), (f q).re := by
  split_ifs with h
  · rw [setIntegral_congr_fun measurableSet_Ioi (g := fun _ => 0) fun q hq => ?_]
    · simp
    · simp only [hf q hq (.inl h), Complex.zero_re]
  · have hp : 0 ≤ fermi_momentum m mu := Real.sqrt_nonneg _
    rw [intervalIntegral.integral_of_le hp]
    symm
    refine setIntegral_eq_of_subset_of_forall_diff_eq_zero measurableSet_Ioi Ioc_subset_Ioi_self fun q hq => ?_
    have h1 : fermi_momentum m mu < q := by
      by_contra h2
      exact hq.2 ⟨hq.1, not_lt.1 h2⟩
    rw [hf q hq.1 (.inr h1), Complex.zero_re]

end Static

/-! ### The functions at zero frequency -/

/-- **C91**: the longitudinal quark part of the polarization at zero frequency converges to the static one-loop quark diagram. -/
theorem C91_static_quark_l (hg : IsClifford g) (k : consts.Consts ℝ) {p mq beta : ℝ} (hp : p ≠ 0) (hm : mq ≠ 0) (hb : 0 < beta) (mu : ℝ) :
    ∃ x : ℝ, IsThermalQuarkDiagram (fun Q => Spec.average (Spec.polL (0 : ℝ) p) fun e => quarkDiagram g k.nc e (external (0 : ℝ) p) mq Q) beta mu x ∧
      Tendsto (fun r => gluon.thermal.zero_matsubara.polarization_quark_l_thermal_part_landau .exact { k with matsubara_reg := r } p mq beta mu)
        (𝓝[≠] 0) (𝓝 x) := by
  have hs : ∀ e : ℝ, e ^ 2 + p ^ 2 ≠ 0 := fun e => by positivity
  refine Static.thermal (pol := fun e => Spec.polL e p) hg (fun e => Static.isPolar_L (hs e)) (Static.numer_L k.nc hp mq)
    (N' := fun e q => Spec.longitudinal q e p) (fun e q => polL_polarised (by exact_mod_cast hs e) q) hp hm hb mu
    (fun e => compactify_real fun q => (gluon.thermal.polarization_quark_l_thermal_part_landau_i { k with matsubara_reg := e } q e p mq beta mu).re) fun e he q hq => ?_
  have r := C62_regular_real hq he p mq mq
  exact C63_quark_l { k with matsubara_reg := e } (q := q) (om := e) (p := p) (mq := mq) hq.ne' hp he (by simpa using (by exact_mod_cast hs e : (e : ℂ) ^ 2 + (p : ℂ) ^ 2 ≠ 0)) (by simpa using r) beta mu

/-- **C91**: the transverse quark part of the polarization at zero frequency converges to the static one-loop quark diagram. -/
theorem C91_static_quark_t (hg : IsClifford g) (k : consts.Consts ℝ) {p mq beta : ℝ} (hp : p ≠ 0) (hm : mq ≠ 0) (hb : 0 < beta) (mu : ℝ) :
    ∃ x : ℝ, IsThermalQuarkDiagram (fun Q => Spec.average Spec.polT fun e => quarkDiagram g k.nc e (external (0 : ℝ) p) mq Q) beta mu x ∧
      Tendsto (fun r => gluon.thermal.zero_matsubara.polarization_quark_t_thermal_part_landau .exact { k with matsubara_reg := r } p mq beta mu)
        (𝓝[≠] 0) (𝓝 x) := by
  refine Static.thermal (pol := fun _ => Spec.polT) hg (fun e => isPolar_T e p) (Static.numer_T k.nc p mq)
    (N' := fun _ q => Spec.transverse q) (fun e q => polT_polarised e p q) hp hm hb mu
    (fun e => compactify_real fun q => (gluon.thermal.polarization_quark_t_thermal_part_landau_i { k with matsubara_reg := e } q e p mq beta mu).re) fun e he q hq => ?_
  have r := C62_regular_real hq he p mq mq
  exact C63_quark_t { k with matsubara_reg := e } (q := q) (om := e) (p := p) (mq := mq) hq.ne' hp (by simpa using r) beta mu

/-- **C91**: the longitudinal quark part of the polarization at zero frequency and zero temperature converges to the static one-loop quark diagram. -/
theorem C91_static_quark_l_zero_temp (hg : IsClifford g) (k : consts.Consts ℝ) {p mq : ℝ} (hp : p ≠ 0) (hm : mq ≠ 0) (mu : ℝ) :
    ∃ x : ℝ, IsDenseQuarkDiagram (fun Q => Spec.average (Spec.polL (0 : ℝ) p) fun e => quarkDiagram g k.nc e (external (0 : ℝ) p) mq Q) mu x ∧
      Tendsto (fun r => gluon.thermal.zero_matsubara.polarization_quark_l_thermal_part_zero_temp_landau .exact { k with matsubara_reg := r } p mq mu)
        (𝓝[≠] 0) (𝓝 x) := by
  have hs : ∀ e : ℝ, e ^ 2 + p ^ 2 ≠ 0 := fun e => by positivity
  have key : ∀ e : ℝ, e ≠ 0 → ∀ q : ℝ, 0 < q → _ := fun e he q hq =>
    C63_quark_l_zero_temp { k with matsubara_reg := e } (q := q) (om := e) (p := p) (mq := mq) (ne_of_gt hq) hp he (by simpa using (by exact_mod_cast hs e : (e : ℂ) ^ 2 + (p : ℂ) ^ 2 ≠ 0))
      (by simpa using C62_regular_real hq he p mq mq) mu
  refine Static.dense (pol := fun e => Spec.polL e p) hg (fun e => Static.isPolar_L (hs e)) (Static.numer_L k.nc hp mq)
    (N' := fun e q => Spec.longitudinal q e p) (fun e q => polL_polarised (by exact_mod_cast hs e) q) hp hm mu
    (fun e => Static.dense_re (f := fun q => gluon.thermal.polarization_quark_l_thermal_part_zero_temp_landau_i { k with matsubara_reg := e } q e p mq mu) fun q hq h => ?_) key
  simp [gluon.thermal.polarization_quark_l_thermal_part_zero_temp_landau_i, empty_states hq h]

/-- **C91**: the transverse quark part of the polarization at zero frequency and zero temperature converges to the static one-loop quark diagram. -/
theorem C91_static_quark_t_zero_temp (hg : IsClifford g) (k : consts.Consts ℝ) {p mq : ℝ} (hp : p ≠ 0) (hm : mq ≠ 0) (mu : ℝ) :
    ∃ x : ℝ, IsDenseQuarkDiagram (fun Q => Spec.average Spec.polT fun e => quarkDiagram g k.nc e (external (0 : ℝ) p) mq Q) mu x ∧
      Tendsto (fun r => gluon.thermal.zero_matsubara.polarization_quark_t_thermal_part_zero_temp_landau .exact { k with matsubara_reg := r } p mq mu)
        (𝓝[≠] 0) (𝓝 x) := by
  have key : ∀ e : ℝ, e ≠ 0 → ∀ q : ℝ, 0 < q → _ := fun e he q hq =>
    C63_quark_t_zero_temp { k with matsubara_reg := e } (q := q) (om := e) (p := p) (mq := mq) (ne_of_gt hq) hp
      (by simpa using C62_regular_real hq he p mq mq) mu
  refine Static.dense (pol := fun _ => Spec.polT) hg (fun e => isPolar_T e p) (Static.numer_T k.nc p mq)
    (N' := fun _ q => Spec.transverse q) (fun e q => polT_polarised e p q) hp hm mu
    (fun e => Static.dense_re (f := fun q => gluon.thermal.polarization_quark_t_thermal_part_zero_temp_landau_i { k with matsubara_reg := e } q e p mq mu) fun q hq h => ?_) key
  simp [gluon.thermal.polarization_quark_t_thermal_part_zero_temp_landau_i, empty_states hq h]

/-! ### Concrete cases -/

example (k : consts.Consts ℝ) : ∃ x : ℝ, IsThermalQuarkDiagram
    (fun Q => Spec.average (Spec.polL (0 : ℝ) (3 : ℝ)) fun e => quarkDiagram dirac k.nc e (external (0 : ℝ) (3 : ℝ)) (1 / 2 : ℝ) Q) 1 4 x ∧
      Tendsto (fun r => gluon.thermal.zero_matsubara.polarization_quark_l_thermal_part_landau .exact { k with matsubara_reg := r } 3 (1 / 2) 1 4)
        (𝓝[≠] 0) (𝓝 x) :=
  C91_static_quark_l dirac_clifford k (by norm_num) (by norm_num) one_pos 4

example (k : consts.Consts ℝ) : ∃ x : ℝ, IsDenseQuarkDiagram
    (fun Q => Spec.average Spec.polT fun e => quarkDiagram dirac k.nc e (external (0 : ℝ) (3 : ℝ)) (1 / 2 : ℝ) Q) 4 x ∧
      Tendsto (fun r => gluon.thermal.zero_matsubara.polarization_quark_t_thermal_part_zero_temp_landau .exact { k with matsubara_reg := r } 3 (1 / 2) 4)
        (𝓝[≠] 0) (𝓝 x) :=
  C91_static_quark_t_zero_temp dirac_clifford k (by norm_num) (by norm_num) 4

end Qcd
