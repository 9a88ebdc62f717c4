import Verif.Lemmas.FloatThermalDensity
import Verif.Props.Accuracy
import Verif.Lemmas.RunningError
import Mathlib.Analysis.Complex.ExponentialBounds

/-! # C123: accuracy of the charge density at finite temperature -/

namespace Qcd
open Fl Spec FTD

/-- Two different numbers of the type that are not small have a difference that is not small. -/
theorem difference_gap {a c : ℝ} (ha : Binary64 a) (hc : Binary64 c) (h0 : 2 ^ (-40 : ℤ) ≤ a) (h1 : c = 0 ∨ 2 ^ (-40 : ℤ) ≤ |c|) :
    a - c = 0 ∨ 2 ^ (-92 : ℤ) ≤ |a - c| := by
  have p : (2 : ℝ) ^ (-92 : ℤ) ≤ 2 ^ (-40 : ℤ) := zpow_le_zpow_right₀ (by norm_num) (by norm_num)
  have p0 : (0 : ℝ) < 2 ^ (-40 : ℤ) := by positivity
  have a0 : 0 < a := p0.trans_le h0
  by_cases hcp : c ≤ 0
  · right
    rw [abs_of_nonneg (by linarith)]
    linarith
  · rw [not_le] at hcp
    have hc1 : 2 ^ (-40 : ℤ) ≤ c := by
      rcases h1 with h | h
      · exact absurd h hcp.ne'
      · rwa [abs_of_pos hcp] at h
    have hX := roundPos_of_representable (binary64_fixed ha)
    have hY := roundPos_of_representable (binary64_fixed hc)
    rw [abs_of_pos a0] at hX
    rw [abs_of_pos hcp] at hY
    have gap : ∀ {u w : ℝ}, (2 : ℝ) ^ (-40 : ℤ) ≤ u → u < w → roundPos u = u → roundPos w = w → 2 ^ (-92 : ℤ) ≤ w - u := by
      intro u w hu huw e1 e2
      have hg := representable_gap (p0.trans_le hu) huw e1 e2
      have he := expo_mono p0 hu
      rw [expo_eq (by norm_num) (le_refl ((2 : ℝ) ^ (-40 : ℤ))) (zpow_lt_zpow_right₀ (by norm_num) (by norm_num))] at he
      have : (2 : ℝ) ^ (-92 : ℤ) ≤ 2 ^ (expo u - 52) := zpow_le_zpow_right₀ (by norm_num) (by omega)
      linarith
    rcases lt_trichotomy a c with h | h | h
    · right
      rw [abs_sub_comm, abs_of_pos (by linarith)]
      exact gap h0 h hX hY
    · left; linarith
    · right
      rw [abs_of_pos (by linarith)]
      exact gap hc1 h hY hX

/-- A small change of the energy changes the occupation by a small factor. -/
theorem occupation_change {v e b x d : ℝ} (hb : 0 < b) (hd : |v - e| * b ≤ d) (hd1 : d ≤ 1 / 4) : |occupation v b x - occupation e b x| ≤ 2 * d * occupation e b x := by
  have hd0 : 0 ≤ d := le_trans (by positivity) hd
  have hexp : ∀ u : ℝ, u ≤ d → Real.exp u ≤ 1 + 2 * d := fun u hu => (Real.exp_le_exp.2 hu).trans (exp_le_two hd0 (by linarith))
  unfold occupation
  have hav := abs_sub_comm v e ▸ hd
  have h1 : (v - e) * b ≤ d := (mul_le_mul_of_nonneg_right (le_abs_self _) hb.le).trans hd
  have h2 : (e - v) * b ≤ d := (mul_le_mul_of_nonneg_right (le_abs_self _) hb.le).trans hav
  have e1 : Real.exp (b * (v - x)) = Real.exp (b * (e - x)) * Real.exp ((v - e) * b) := by rw [← Real.exp_add]; congr 1; ring
  have e2 : Real.exp (b * (e - x)) = Real.exp (b * (v - x)) * Real.exp ((e - v) * b) := by rw [← Real.exp_add]; congr 1; ring
  have i1 := hexp _ h1
  have i2 := hexp _ h2
  have p1 := Real.exp_pos (b * (v - x))
  have p2 := Real.exp_pos (b * (e - x))
  generalize Real.exp (b * (v - x)) = V at *
  generalize Real.exp (b * (e - x)) = W at *
  generalize Real.exp ((v - e) * b) = r at *
  generalize Real.exp ((e - v) * b) = s at *
  have hV : V ≤ W * (1 + 2 * d) := by rw [e1]; exact mul_le_mul_of_nonneg_left i1 p2.le
  have hW : W ≤ V * (1 + 2 * d) := by rw [e2]; exact mul_le_mul_of_nonneg_left i2 p1.le
  have e3 : 1 / (V + 1) - 1 / (W + 1) = (W - V) / ((V + 1) * (W + 1)) := by field_simp; ring
  rw [e3, abs_div, abs_of_pos (by positivity : 0 < (V + 1) * (W + 1)), div_le_iff₀ (by positivity)]
  have e4 : 2 * d * (1 / (W + 1)) * ((V + 1) * (W + 1)) = 2 * d * (V + 1) := by field_simp
  rw [e4, abs_le]
  constructor
  · nlinarith
  · nlinarith

theorem occupation_pos (e b x : ℝ) : 0 < occupation e b x := by unfold occupation; positivity
theorem occupation_le_one (e b x : ℝ) : occupation e b x ≤ 1 := by
  unfold occupation
  have := Real.exp_pos (b * (e - x))
  rw [div_le_one (by positivity)]; linarith

theorem occupation_ge {e b x : ℝ} (h : b * (e - x) ≤ 390) : ((10 : ℝ) ^ 174)⁻¹ ≤ occupation e b x := by
  unfold occupation
  rw [one_div]
  have h1 : Real.exp (b * (e - x)) ≤ 10 ^ 170 := by
    refine (Real.exp_le_exp.2 h).trans ?_
    have : Real.exp 390 = Real.exp 1 ^ 390 := by rw [← Real.exp_nat_mul]; norm_num
    rw [this]
    have h1 : Real.exp 1 ^ 39 ≤ 10 ^ 17 := (pow_le_pow_left₀ (Real.exp_pos 1).le (Real.exp_one_lt_d9.le.trans (by norm_num : _ ≤ (2.72 : ℝ))) 39).trans (by norm_num)
    rw [show (390 : ℕ) = 39 * 10 from rfl, show (170 : ℕ) = 17 * 10 from rfl, pow_mul, pow_mul]
    exact pow_le_pow_left₀ (by positivity) h1 10
  refine inv_anti₀ (by positivity) ?_
  have : (10 : ℝ) ^ 170 + 1 ≤ 10 ^ 174 := by norm_num
  linarith

/-- The computed distribution, with the number of roundings of its error. -/
theorem fermi_track {en beta mu : Fl binary64} {v e b x : ℝ} {N c : ℕ} (hc : c ≤ 10) (he : Is en v) (hv : Binary64 v) (hb : Is beta b) (hmu : Is mu x) (hx : Binary64 x)
    (e0 : (10 ^ 10)⁻¹ ≤ e) (hve : |v - e| ≤ c * uu * e) (b0 : (10 ^ 10)⁻¹ ≤ b) (x0 : x = 0 ∨ (10 ^ 10)⁻¹ ≤ |x|) (hN : b * (e + |x|) ≤ N) (hN' : N ≤ 390) :
    Track (F.fermi_distribution en beta mu) (occupation e b x) (occupation e b x) ((2 * c + 6) * N + 5) 174 := by
  have hcr : (c : ℝ) ≤ 10 := by exact_mod_cast hc
  have hc0 : (0 : ℝ) ≤ c := Nat.cast_nonneg _
  have u1 : uu ≤ 1 / 10 ^ 15 := by unfold uu; norm_num
  have u0 := uu_pos
  have hbp : 0 < b := lt_of_lt_of_le (by positivity) b0
  have hep : 0 < e := lt_of_lt_of_le (by positivity) e0
  have hNr : (N : ℝ) ≤ 390 := by exact_mod_cast hN'
  have hax := abs_nonneg x
  have hbe : b * e ≤ N := le_trans (mul_le_mul_of_nonneg_left (by linarith) hbp.le) hN
  have hve' := abs_le.1 hve
  have hue : c * uu * e ≤ e / 10 ^ 14 := by
    have h1 : c * uu ≤ 10 * (1 / 10 ^ 15) := mul_le_mul hcr u1 u0.le (by norm_num)
    have := mul_le_mul_of_nonneg_right h1 hep.le
    linarith
  have hv40 : 2 ^ (-40 : ℤ) ≤ v := by
    have : (2 : ℝ) ^ (-40 : ℤ) ≤ (10 ^ 10)⁻¹ * (1 - 1 / 10 ^ 14) := by norm_num
    have h2 := mul_le_mul_of_nonneg_right e0 (by norm_num : (0 : ℝ) ≤ 1 - 1 / 10 ^ 14)
    have h3 := this.trans h2
    have h4 := hve'.1
    generalize (2 : ℝ) ^ (-40 : ℤ) = A at *
    generalize c * uu * e = B at *
    linarith only [h3, h4, hue]
  have hx40 : x = 0 ∨ 2 ^ (-40 : ℤ) ≤ |x| := x0.imp_right fun h => le_trans (by norm_num) h
  have hvx : |v - x| ≤ (1 + 1 / 10 ^ 14) * (e + |x|) := by
    have h1 := abs_sub v x
    have : |v| = v := abs_of_pos (lt_of_lt_of_le (by positivity) hv40)
    have : v ≤ e * (1 + 1 / 10 ^ 14) := by linarith
    nlinarith
  have hX : |(v - x) * b| ≤ N * (1 + 1 / 10 ^ 14) := by
    rw [abs_mul, abs_of_pos hbp]
    have := mul_le_mul_of_nonneg_right hvx hbp.le
    nlinarith
  have hvx2 : |v - x| ≤ 10 ^ 13 := by
    have h1 : |v - x| * b ≤ 391 := by rw [abs_mul, abs_of_pos hbp] at hX; linarith
    have h2 : |v - x| * (10 ^ 10)⁻¹ ≤ |v - x| * b := mul_le_mul_of_nonneg_left b0 (abs_nonneg _)
    have h3 : |v - x| * (10 ^ 10)⁻¹ ≤ 391 := h2.trans h1
    have : |v - x| = |v - x| * (10 ^ 10)⁻¹ * 10 ^ 10 := by field_simp
    rw [this]
    nlinarith
  have b1 : big⁻¹ ≤ 2 ^ (-92 : ℤ) := by unfold big; norm_num
  have b2 : big⁻¹ ≤ 2 ^ (-92 : ℤ) * (10 ^ 10)⁻¹ := by unfold big; norm_num
  have b3 : (10 : ℝ) ^ 13 ≤ big := by unfold big; norm_num
  have hgap := difference_gap hv hx hv40 hx40
  have hmod : Moderate (v - x) := hgap.imp_right fun h => ⟨b1.trans h, hvx2.trans b3⟩
  have hmod2 : Moderate ((v - x) * b) := by
    rcases hgap with h | h
    · left; rw [h, zero_mul]
    · right
      refine ⟨?_, hX.trans (le_trans (by nlinarith) b3)⟩
      rw [abs_mul, abs_of_pos hbp]
      exact b2.trans (mul_le_mul h b0 (by positivity) (abs_nonneg _))
  obtain ⟨w, hw, hwe⟩ := C112_fermi_f64 en beta mu v b x he hb hmu hbp hmod hmod2 (hX.trans (by nlinarith))
  have hu : (2 : ℝ) ^ (-53 : ℤ) = uu := by unfold uu; rw [zpow_neg, one_div]; rfl
  have hfo : fermi_distribution v b x = occupation v b x := by rw [fermi_real, occupation, one_div, mul_comm b]
  rw [hfo, hu] at hwe
  have hd : |v - e| * b ≤ c * uu * N := by
    have := mul_le_mul_of_nonneg_right hve hbp.le
    have h2 : c * uu * e * b ≤ c * uu * N := by rw [mul_assoc (c * uu)]; rw [mul_comm e]; gcongr
    linarith
  have hN0 : (0 : ℝ) ≤ N := Nat.cast_nonneg _
  have hd1 : c * uu * N ≤ 1 / 10 ^ 11 := by
    have h1 : c * uu ≤ 10 * (1 / 10 ^ 15) := mul_le_mul hcr u1 u0.le (by norm_num)
    have := mul_le_mul h1 hNr hN0 (by norm_num)
    exact this.trans (by norm_num)
  have hoc := occupation_change (x := x) hbp hd (hd1.trans (by norm_num))
  have hp := occupation_pos e b x
  have hb1 : b * (e - x) ≤ 390 := by
    have : e - x ≤ e + |x| := by have := neg_abs_le x; linarith
    exact (mul_le_mul_of_nonneg_left this hbp.le).trans (hN.trans hNr)
  refine ⟨⟨w, hw, by rw [abs_of_pos hp], ?_⟩, occupation_ge hb1, (occupation_le_one e b x).trans (by norm_num)⟩
  generalize occupation e b x = O at *
  have hO2 : occupation v b x ≤ O * (1 + 1 / 10 ^ 10) := by
    have := (abs_le.1 hoc).2
    nlinarith
  have hp' := occupation_pos v b x
  generalize occupation v b x = O' at *
  have h4 : (5 * |(v - x) * b| + 4) * uu * O' ≤ (5 * (N * (1 + 1 / 10 ^ 14)) + 4) * uu * (O * (1 + 1 / 10 ^ 10)) := by gcongr
  have h5 : |w - O| ≤ |w - O'| + |O' - O| := abs_sub_le w O' O
  have h6 : |w - O| ≤ ((5 * (N * (1 + 1 / 10 ^ 14)) + 4) * (1 + 1 / 10 ^ 10) + 2 * c * N) * (uu * O) := by
    have : (5 * (N * (1 + 1 / 10 ^ 14)) + 4) * uu * (O * (1 + 1 / 10 ^ 10)) + 2 * (c * uu * N) * O =
        ((5 * (N * (1 + 1 / 10 ^ 14)) + 4) * (1 + 1 / 10 ^ 10) + 2 * c * N) * (uu * O) := by ring
    linarith
  refine h6.trans ?_
  push_cast
  rw [mul_assoc _ uu O]
  refine mul_le_mul_of_nonneg_right ?_ (by positivity)
  nlinarith

/-- A number of the type between the bounds. -/
theorem track_exact {a : Fl binary64} {v : ℝ} {k : ℕ} (h : Is a v) (h0 : (10 ^ k)⁻¹ ≤ v) (h1 : v ≤ 10 ^ k) : Track a v v 0 k := by
  have hv : 0 ≤ v := le_trans (by positivity) h0
  refine ⟨?_, h0, h1⟩
  have := Run.exact h
  rw [abs_of_nonneg hv] at this
  exact_mod_cast this

/-- C123. The integrand as a function of the momentum. Its error is at most `24 N + 48` roundings of the density of quarks plus that of antiquarks, where `N` is a bound
for the energy plus the chemical potential, in units of the temperature. -/
theorem C123_accuracy {q m beta mu : Fl binary64} {z y b x : ℝ} {nc N : ℕ} (hq : Is q z) (hm : Is m y) (hb : Is beta b) (hmu : Is mu x) (hx : Binary64 x)
    (hnc : 0 < nc) (hnc' : nc ≤ 10 ^ 6) (z0 : (10 ^ 10)⁻¹ ≤ z) (z1 : z ≤ 10 ^ 10) (y0 : y = 0 ∨ (10 ^ 10)⁻¹ ≤ |y|) (y1 : |y| ≤ 10 ^ 10)
    (b0 : (10 ^ 10)⁻¹ ≤ b) (x0 : x = 0 ∨ (10 ^ 10)⁻¹ ≤ |x|) (hN : b * (Real.sqrt (z ^ 2 + y ^ 2) + |x|) ≤ N) (hN' : N ≤ 390) :
    ∃ v : ℝ, Is (F.charge_density_i nc q m beta mu) v ∧ |v - netDensity nc z y b x| ≤ (24 * N + 48) * 2 ^ (-53 : ℤ) * totalDensity nc z y b x := by
  have zp : 0 < z := lt_of_lt_of_le (by positivity) z0
  have b1 : big⁻¹ ≤ (10 ^ 10)⁻¹ := by unfold big; norm_num
  have b3 : (10 : ℝ) ^ 10 ≤ big := by unfold big; norm_num
  have hu : (2 : ℝ) ^ (-53 : ℤ) = uu := by unfold uu; rw [zpow_neg, one_div]; rfl
  obtain ⟨v, hv, hve⟩ := C112_energy_f64 q m z y hq hm (.inr (by rw [abs_of_pos zp]; exact ⟨b1.trans z0, z1.trans b3⟩)) (y0.imp_right fun h => ⟨b1.trans h, y1.trans b3⟩)
  have he : energy z y = Real.sqrt (z ^ 2 + y ^ 2) := by simp [energy, energy_squared]; congr 1; ring
  rw [he, hu] at hve
  have hvb : Binary64 v := by
    have h1 := energy_eq hq hm
    have h2 : (F.energy q m).value = some (v : EReal) := hv
    rw [h1, value_num, Option.some_inj] at h2
    unfold sqrtE at h2
    split_ifs at h2 with h
    · exact absurd h2.symm (EReal.coe_ne_top _)
    · exact round64_binary64 h2
  have he0 : (10 ^ 10)⁻¹ ≤ Real.sqrt (z ^ 2 + y ^ 2) := z0.trans (Real.le_sqrt_of_sq_le (by nlinarith [sq_nonneg y]))
  have t1 := fermi_track (c := 3) (by norm_num) hv hvb hb hmu hx he0 hve b0 x0 hN hN'
  have hmu2 : Is (-mu) (-x) := value_neg hmu
  have t2 := fermi_track (c := 3) (by norm_num) hv hvb hb hmu2 (binary64_neg hx) he0 hve b0 (by rwa [abs_neg, neg_eq_zero]) (by rwa [abs_neg]) hN'
  have d := t1.sub t2 (by omega)
  have c1 : (1 : ℝ) ≤ nc := by exact_mod_cast hnc
  have c2 : (nc : ℝ) ≤ 10 ^ 6 := by exact_mod_cast hnc'
  have tn : Track (ofR (nc : ℝ) : Fl binary64) nc nc 0 6 :=
    track_exact (is_ofR (binary64_nat (lt_of_le_of_lt hnc' (by norm_num)))) (le_trans (by norm_num) c1) c2
  have tq := track_exact (k := 10) hq z0 z1
  have tp : Track (ofR Real.pi : Fl binary64) Real.pi Real.pi 2 2 := Track.constR ((by norm_num : ((10 : ℝ) ^ 2)⁻¹ ≤ 2).trans Real.two_le_pi) (Real.pi_le_four.trans (by norm_num))
  have f := (((tn.mul tq).mul tq).mul d (by norm_num) (by omega)).div (tp.mul tp) (by omega)
  obtain ⟨w, hw, -, h⟩ := f.run
  refine ⟨w, hw, ?_⟩
  have hS : netDensity nc z y b x = ↑nc * z * z * (occupation (Real.sqrt (z ^ 2 + y ^ 2)) b x - occupation (Real.sqrt (z ^ 2 + y ^ 2)) b (-x)) / (Real.pi * Real.pi) := by
    unfold netDensity; field_simp
  have hT : totalDensity nc z y b x = ↑nc * z * z * (occupation (Real.sqrt (z ^ 2 + y ^ 2)) b x + occupation (Real.sqrt (z ^ 2 + y ^ 2)) b (-x)) / (Real.pi * Real.pi) := by
    unfold totalDensity; field_simp
  rw [hS, hT, hu]
  refine h.trans (le_of_eq ?_)
  push_cast
  rw [max_self]
  ring

/-- A change of the momentum changes the energy by at most as much. -/
theorem energy_lipschitz (z z' y : ℝ) : |Real.sqrt (z' ^ 2 + y ^ 2) - Real.sqrt (z ^ 2 + y ^ 2)| ≤ |z' - z| := by
  have key : ∀ a c : ℝ, Real.sqrt (a ^ 2 + y ^ 2) ≤ Real.sqrt (c ^ 2 + y ^ 2) + |a - c| := by
    intro a c
    rw [Real.sqrt_le_left (by positivity)]
    have h1 := Real.sq_sqrt (by positivity : 0 ≤ c ^ 2 + y ^ 2)
    have h2 : |c| ≤ Real.sqrt (c ^ 2 + y ^ 2) := Real.abs_le_sqrt (by nlinarith [sq_nonneg y])
    have h3 : |a| ≤ |c| + |a - c| := by have := abs_add_le c (a - c); rwa [add_sub_cancel] at this
    have h4 : a ^ 2 = |a| ^ 2 := (sq_abs a).symm
    have h5 : c ^ 2 = |c| ^ 2 := (sq_abs c).symm
    have h6 := abs_nonneg (a - c)
    have h7 : |a| ^ 2 ≤ (|c| + |a - c|) ^ 2 := pow_le_pow_left₀ (abs_nonneg _) h3 2
    nlinarith
  rw [abs_le]
  have h1 := key z' z
  have h2 := key z z'
  rw [abs_sub_comm z z'] at h2
  constructor <;> linarith

/-- C123. The integrand at a point of the interval, against the exact density at the exact momentum `(1 - s) / s`, over the square of `s`. -/
theorem C123_integrand_accuracy {t m beta mu : Fl binary64} {s y b x : ℝ} {nc N : ℕ} (ht : Is t s) (hm : Is m y) (hb : Is beta b) (hmu : Is mu x) (hx : Binary64 x)
    (hnc : 0 < nc) (hnc' : nc ≤ 10 ^ 6) (s0 : (10 ^ 8)⁻¹ ≤ s) (s1 : s ≤ 1 - (10 ^ 8)⁻¹) (y0 : y = 0 ∨ (10 ^ 10)⁻¹ ≤ |y|) (y1 : |y| ≤ 10 ^ 10)
    (b0 : (10 ^ 10)⁻¹ ≤ b) (x0 : x = 0 ∨ (10 ^ 10)⁻¹ ≤ |x|) (hN : b * (Real.sqrt (((1 - s) / s) ^ 2 + y ^ 2) + |x|) ≤ N) (hN' : N ≤ 190) :
    ∃ v : ℝ, Is (F.charge_density_integrand nc m beta mu t) v ∧
      |v - netDensity nc ((1 - s) / s) y b x / s ^ 2| ≤ (104 * N + 152) * 2 ^ (-53 : ℤ) * (totalDensity nc ((1 - s) / s) y b x / s ^ 2) := by
  have p8 : (0 : ℝ) < (10 ^ 8)⁻¹ := by positivity
  have sp : 0 < s := p8.trans_le s0
  have hs1 : (10 ^ 8)⁻¹ ≤ 1 - s := by linarith
  have hs2 : 1 - s ≤ 10 ^ 8 := by norm_num; linarith
  have ts := track_exact (k := 8) ht s0 (by norm_num at s1 ⊢; linarith)
  have t1s : Track (ofR 1 - t : Fl binary64) (1 - s) (1 - s) 2 8 := by
    have hv : IsE (ofR 1 - t : Fl binary64) (binary64.rnd (1 - s)) := by
      have := value_add is_one (show (neg t).value = some ((-s : ℝ) : EReal) from value_neg ht)
      rw [← sub_eq_add_neg] at this
      exact this
    have := Run.of_round (n := 0) (x := 1 - s) (B := 1 - s) hv (by rw [abs_of_nonneg (by linarith)]) (mid_of hs1 hs2 (by norm_num)) le_rfl (by norm_num) (by simp)
    exact ⟨by simpa using this, hs1, hs2⟩
  have tq : Track ((ofR 1 - t) / t : Fl binary64) ((1 - s) / s) ((1 - s) / s) 6 16 := t1s.div ts
  have z0 : (10 ^ 8)⁻¹ ≤ (1 - s) / s := by
    rw [le_div_iff₀ sp]
    nlinarith
  have z1 : (1 - s) / s ≤ 10 ^ 8 := by
    rw [div_le_iff₀ sp]
    have : (10 : ℝ) ^ 8 * (10 ^ 8)⁻¹ = 1 := by norm_num
    have h2 := mul_le_mul_of_nonneg_left s0 (by positivity : (0 : ℝ) ≤ 10 ^ 8)
    linarith
  generalize (1 - s) / s = z at *
  obtain ⟨z', hq, -, hz⟩ := tq.run
  have zp : 0 < z := p8.trans_le z0
  have u1 : uu ≤ 1 / 10 ^ 15 := by unfold uu; norm_num
  have u0 := uu_pos
  have hz6 : ((6 : ℕ) : ℝ) * uu * z ≤ z / 10 ^ 14 := by
    have := mul_le_mul_of_nonneg_right u1 zp.le
    push_cast
    linarith
  have hz' := abs_le.1 (hz.trans hz6)
  have zp' : 0 < z' := by linarith
  have b1 : big⁻¹ ≤ (10 ^ 10)⁻¹ := by unfold big; norm_num
  have b3 : (10 : ℝ) ^ 10 ≤ big := by unfold big; norm_num
  have hu : (2 : ℝ) ^ (-53 : ℤ) = uu := by unfold uu; rw [zpow_neg, one_div]; rfl
  have l1 : (10 ^ 10)⁻¹ ≤ z' := by norm_num at z0 ⊢; linarith
  have l2 : z' ≤ 10 ^ 10 := by norm_num at z1 ⊢; linarith
  obtain ⟨v, hv, hve⟩ := C112_energy_f64 ((ofR 1 - t) / t) m z' y hq hm (.inr (by rw [abs_of_pos zp']; exact ⟨b1.trans l1, l2.trans b3⟩))
    (y0.imp_right fun h => ⟨b1.trans h, y1.trans b3⟩)
  have he : energy z' y = Real.sqrt (z' ^ 2 + y ^ 2) := by simp [energy, energy_squared]; congr 1; ring
  rw [he, hu] at hve
  have hvb : Binary64 v := by
    have h1 := energy_eq hq hm
    have h2 : (F.energy ((ofR 1 - t) / t) m).value = some (v : EReal) := hv
    rw [h1, value_num, Option.some_inj] at h2
    unfold sqrtE at h2
    split_ifs at h2 with h
    · exact absurd h2.symm (EReal.coe_ne_top _)
    · exact round64_binary64 h2
  have hze : z ≤ Real.sqrt (z ^ 2 + y ^ 2) := Real.le_sqrt_of_sq_le (by nlinarith [sq_nonneg y])
  have he0 : (10 ^ 10)⁻¹ ≤ Real.sqrt (z ^ 2 + y ^ 2) := le_trans (by norm_num at z0 ⊢; linarith) hze
  have hlip := energy_lipschitz z z' y
  have hve2 : |v - Real.sqrt (z ^ 2 + y ^ 2)| ≤ (10 : ℕ) * uu * Real.sqrt (z ^ 2 + y ^ 2) := by
    have h1 := abs_sub_le v (Real.sqrt (z' ^ 2 + y ^ 2)) (Real.sqrt (z ^ 2 + y ^ 2))
    generalize Real.sqrt (z' ^ 2 + y ^ 2) = e' at *
    generalize Real.sqrt (z ^ 2 + y ^ 2) = e at *
    have h2 := abs_le.1 (hlip.trans (hz.trans hz6))
    have h3 : e' ≤ e * (1 + 1 / 10 ^ 14) := by linarith
    have h4 : uu * z ≤ uu * e := mul_le_mul_of_nonneg_left hze u0.le
    have h5 : uu * e' ≤ uu * (e * (1 + 1 / 10 ^ 14)) := mul_le_mul_of_nonneg_left h3 u0.le
    have h6 := hlip.trans hz
    have h7 : 0 ≤ uu * e := mul_nonneg u0.le (zp.le.trans hze)
    push_cast at h6 ⊢
    linarith
  have t1 := fermi_track (c := 10) le_rfl hv hvb hb hmu hx he0 hve2 b0 x0 hN (hN'.trans (by norm_num))
  have hmu2 : Is (-mu) (-x) := value_neg hmu
  have t2 := fermi_track (c := 10) le_rfl hv hvb hb hmu2 (binary64_neg hx) he0 hve2 b0 (by rwa [abs_neg, neg_eq_zero]) (by rwa [abs_neg]) (hN'.trans (by norm_num))
  have d := t1.sub t2 (by omega)
  have c1 : (1 : ℝ) ≤ nc := by exact_mod_cast hnc
  have c2 : (nc : ℝ) ≤ 10 ^ 6 := by exact_mod_cast hnc'
  have tn : Track (ofR (nc : ℝ) : Fl binary64) nc nc 0 6 :=
    track_exact (is_ofR (binary64_nat (lt_of_le_of_lt hnc' (by norm_num)))) (le_trans (by norm_num) c1) c2
  have tp : Track (ofR Real.pi : Fl binary64) Real.pi Real.pi 2 2 := Track.constR ((by norm_num : ((10 : ℝ) ^ 2)⁻¹ ≤ 2).trans Real.two_le_pi) (Real.pi_le_four.trans (by norm_num))
  have f := ((((tn.mul tq).mul tq).mul d (by norm_num) (by omega)).div (tp.mul tp) (by omega)).div (ts.mul ts) (by omega)
  obtain ⟨w, hw, -, h⟩ := f.run
  refine ⟨w, hw, ?_⟩
  have hS : netDensity nc z y b x / s ^ 2 = ↑nc * z * z * (occupation (Real.sqrt (z ^ 2 + y ^ 2)) b x - occupation (Real.sqrt (z ^ 2 + y ^ 2)) b (-x)) / (Real.pi * Real.pi) / (s * s) := by
    unfold netDensity; field_simp
  have hT : totalDensity nc z y b x / s ^ 2 = ↑nc * z * z * (occupation (Real.sqrt (z ^ 2 + y ^ 2)) b x + occupation (Real.sqrt (z ^ 2 + y ^ 2)) b (-x)) / (Real.pi * Real.pi) / (s * s) := by
    unfold totalDensity; field_simp
  rw [hS, hT, hu]
  refine h.trans (le_of_eq ?_)
  push_cast
  rw [max_self]
  ring

/-- Momentum and mass one, temperature and chemical potential one half: `N` is four. -/
example : ∃ v : ℝ, Is (F.charge_density_i 3 (num ((1 : ℝ) : EReal)) (num ((1 : ℝ) : EReal)) (num ((2 : ℝ) : EReal)) (num ((1 / 2 : ℝ) : EReal)) : Fl binary64) v ∧
    |v - netDensity (3 : ℕ) 1 1 2 (1 / 2)| ≤ (24 * (4 : ℕ) + 48) * 2 ^ (-53 : ℤ) * totalDensity (3 : ℕ) 1 1 2 (1 / 2) := by
  refine C123_accuracy rfl rfl rfl rfl ⟨1, -1, by norm_num, by norm_num, by norm_num, by norm_num⟩ (by norm_num) (by norm_num) (by norm_num) (by norm_num)
    (.inr (by norm_num)) (by norm_num) (by norm_num) (.inr (by rw [abs_of_pos (by norm_num)]; norm_num)) ?_ (by norm_num)
  have : Real.sqrt (1 ^ 2 + 1 ^ 2) ≤ 3 / 2 := by rw [Real.sqrt_le_left (by norm_num)]; norm_num
  rw [abs_of_pos (by norm_num)]
  push_cast
  linarith

/-- The middle of the interval: momentum one. -/
example : ∃ v : ℝ, Is (F.charge_density_integrand 3 (num ((1 : ℝ) : EReal)) (num ((2 : ℝ) : EReal)) (num ((1 / 2 : ℝ) : EReal)) (num ((1 / 2 : ℝ) : EReal)) : Fl binary64) v ∧
    |v - netDensity (3 : ℕ) ((1 - 1 / 2) / (1 / 2)) 1 2 (1 / 2) / (1 / 2) ^ 2| ≤
      (104 * (4 : ℕ) + 152) * 2 ^ (-53 : ℤ) * (totalDensity (3 : ℕ) ((1 - 1 / 2) / (1 / 2)) 1 2 (1 / 2) / (1 / 2) ^ 2) := by
  refine C123_integrand_accuracy rfl rfl rfl rfl ⟨1, -1, by norm_num, by norm_num, by norm_num, by norm_num⟩ (by norm_num) (by norm_num) (by norm_num) (by norm_num)
    (.inr (by norm_num)) (by norm_num) (by norm_num) (.inr (by rw [abs_of_pos (by norm_num)]; norm_num)) ?_ (by norm_num)
  have : Real.sqrt (((1 - 1 / 2) / (1 / 2)) ^ 2 + 1 ^ 2) ≤ 3 / 2 := by rw [Real.sqrt_le_left (by norm_num)]; norm_num
  rw [abs_of_pos (by norm_num)]
  push_cast
  linarith

end Qcd
