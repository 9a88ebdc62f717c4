import Verif.Model.ComplexFloats
import Verif.Lemmas.FloatDensity
import Verif.Lemmas.Residues

/-! # Lemmas on the accuracy of residues -/

namespace Qcd
open Fl Spec

/-- Zero, or of size between `10^-k` and `10^k`. -/
def Ord (k : ℕ) (x : ℝ) : Prop := x = 0 ∨ (1 / 10 ^ k ≤ |x| ∧ |x| ≤ 10 ^ k)

namespace Ord
variable {k l : ℕ} {x y : ℝ}

theorem mono (h : Ord k x) (hkl : k ≤ l) : Ord l x := by
  rcases h with h | ⟨h1, h2⟩
  · exact .inl h
  · have hp : (10 : ℝ) ^ k ≤ 10 ^ l := pow_le_pow_right₀ (by norm_num) hkl
    exact .inr ⟨(one_div_le_one_div_of_le (by positivity) hp).trans h1, h2.trans hp⟩

theorem mid (h : Ord k x) (hk : k ≤ 250) : x = 0 ∨ Mid |x| := h.imp_right fun h => mid_range hk h.1 h.2

theorem neg (h : Ord k x) : Ord k (-x) := by
  rcases h with h | h
  · exact .inl (by rw [h, neg_zero])
  · exact .inr (by rwa [abs_neg])

theorem mul (h : Ord k x) (g : Ord l y) : Ord (k + l) (x * y) := by
  rcases h with h | ⟨h1, h2⟩
  · exact .inl (by rw [h, zero_mul])
  rcases g with g | ⟨g1, g2⟩
  · exact .inl (by rw [g, mul_zero])
  right
  rw [abs_mul, pow_add]
  constructor
  · have e : (1 : ℝ) / (10 ^ k * 10 ^ l) = 1 / 10 ^ k * (1 / 10 ^ l) := by rw [div_mul_div_comm, one_mul]
    rw [e]
    exact mul_le_mul h1 g1 (by positivity) (abs_nonneg _)
  · exact mul_le_mul h2 g2 (abs_nonneg _) (by positivity)

theorem inv (h : Ord k x) : Ord k x⁻¹ := by
  rcases h with h | ⟨h1, h2⟩
  · exact .inl (by rw [h, inv_zero])
  · have h0 : 0 < |x| := lt_of_lt_of_le (by positivity) h1
    right
    rw [abs_inv, one_div]
    refine ⟨inv_anti₀ h0 h2, ?_⟩
    rw [one_div] at h1
    exact inv_le_of_inv_le₀ (by positivity) h1

theorem div (h : Ord k x) (g : Ord l y) : Ord (k + l) (x / y) := by rw [div_eq_mul_inv]; exact h.mul g.inv

theorem add (h : Ord k x) (g : Ord k y) (hs : 0 ≤ x * y) : Ord (k + 1) (x + y) := by
  rcases h with h | ⟨h1, h2⟩
  · rw [h, zero_add]; exact g.mono (by omega)
  rcases g with g | ⟨g1, g2⟩
  · rw [g, add_zero]; exact Ord.mono (.inr ⟨h1, h2⟩) (by omega)
  right
  have e : |x + y| = |x| + |y| := abs_add_eq_add_abs_iff x y |>.2 (mul_nonneg_iff.1 hs)
  have hp : (0 : ℝ) < 10 ^ k := by positivity
  rw [e, pow_succ]
  constructor
  · refine le_trans ?_ (h1.trans (le_add_of_nonneg_right (abs_nonneg _)))
    exact one_div_le_one_div_of_le hp (by linarith)
  · linarith

end Ord

namespace Rel
variable {a b : Fl binary64} {x y e f : ℝ}

theorem zero (h : Rel a 0 e) : Is a 0 := by
  obtain ⟨v, hv, h1⟩ := h
  rw [abs_zero, mul_zero, sub_zero] at h1
  rwa [abs_nonpos_iff.1 h1] at hv

theorem ofZero (h : Is a 0) : Rel a 0 e := ⟨0, h, by simp⟩

theorem mulO (h : Rel a x e) (hb : Rel b y f) (hx : x * y = 0 ∨ Mid |x * y|) (he : 0 ≤ e) (hf : 0 ≤ f) (hs : e + f + e * f ≤ 1 / 2) :
    Rel (a * b) (x * y) (e + f + e * f + 1 / 10 ^ 15) := by
  rcases hx with hx | hx
  · rw [hx]
    apply ofZero
    rcases mul_eq_zero.1 hx with rfl | rfl
    · obtain ⟨w, hw, -⟩ := hb
      have := value_mul h.zero hw
      rw [zero_mul, binary64.zero] at this
      exact this
    · obtain ⟨w, hw, -⟩ := h
      have := value_mul hw hb.zero
      rw [mul_zero, binary64.zero] at this
      exact this
  · exact h.mulSharp hb hx he hf hs

theorem negR (h : Rel a x e) : Rel (Fl.neg a) (-x) e := by
  obtain ⟨v, hv, h1⟩ := h
  refine ⟨-v, ?_, ?_⟩
  · have := value_neg hv
    rw [← EReal.coe_neg] at this
    exact this
  · rw [abs_neg, show -v - -x = -(v - x) by ring, abs_neg]; exact h1

theorem addO (h : Rel a x e) (hb : Rel b y e) (hs : 0 ≤ x * y) (hx : x + y = 0 ∨ Mid |x + y|) (he : 0 ≤ e) (he' : e ≤ 1 / 2) : Rel (a + b) (x + y) (e + 1 / 10 ^ 15) := by
  have hab : |x + y| = |x| + |y| := abs_add_eq_add_abs_iff x y |>.2 (mul_nonneg_iff.1 hs)
  rcases hx with hx | hx
  · rw [hx, abs_zero] at hab
    have h1 : x = 0 := abs_eq_zero.1 (by linarith [abs_nonneg x, abs_nonneg y])
    have h2 : y = 0 := abs_eq_zero.1 (by linarith [abs_nonneg x, abs_nonneg y])
    subst h1 h2
    rw [add_zero]
    apply ofZero
    have := value_add h.zero hb.zero
    rw [add_zero, binary64.zero] at this
    exact this
  · obtain ⟨v, hv, h1⟩ := h
    obtain ⟨w, hw, h2⟩ := hb
    refine of_round (value_add hv hw) hx he he' ?_
    rw [show v + w - (x + y) = (v - x) + (w - y) by ring, hab, mul_add]
    exact (abs_add_le _ _).trans (add_le_add h1 h2)

theorem subO (h : Rel a x e) (hb : Rel b y e) (hs : x * y ≤ 0) (hx : x - y = 0 ∨ Mid |x - y|) (he : 0 ≤ e) (he' : e ≤ 1 / 2) : Rel (a - b) (x - y) (e + 1 / 10 ^ 15) := by
  rw [sub_eq_add_neg] at hx ⊢
  exact h.addO hb.negR (by rw [mul_neg]; linarith) hx he he'

theorem divO (h : Rel a x e) (hb : Rel b y f) (hx : x / y = 0 ∨ Mid |x / y|) (hy : y ≠ 0) (he : 0 ≤ e) (hf : 0 ≤ f) (hf' : f ≤ 1 / 8) (hs : e ≤ 1 / 8) :
    Rel (a / b) (x / y) ((e + f) / (1 - f) + 1 / 10 ^ 15) := by
  rcases hx with hx | hx
  · rw [hx]
    apply ofZero
    have hx0 : x = 0 := by rcases div_eq_zero_iff.1 hx with h | h; exacts [h, absurd h hy]
    subst hx0
    obtain ⟨w, hw, h2⟩ := hb
    have hw0 : w ≠ 0 := by
      rintro rfl
      rw [zero_sub, abs_neg] at h2
      have := abs_pos.2 hy
      nlinarith
    have := is_div h.zero hw hw0
    rw [zero_div, binary64.zero] at this
    exact this
  · exact h.divSharp hb hx hy he hf hf' hs

end Rel

theorem is_numOne : Is (Fl.num 1 : Fl binary64) 1 := by show (Fl.num 1 : Fl binary64).value = _; rw [value_num]; rfl
theorem is_numZero : Is (Fl.num 0 : Fl binary64) 0 := by show (Fl.num 0 : Fl binary64).value = _; rw [value_num]; rfl

theorem ord_sq {k : ℕ} {a b : ℝ} (oa : Ord k a) (ob : Ord k b) : Ord (2 * k + 1) (a * a + b * b) := by
  have h1 := oa.mul oa
  have h2 := ob.mul ob
  have := h1.add h2 (mul_nonneg (mul_self_nonneg a) (mul_self_nonneg b))
  rwa [← two_mul] at this

theorem rel_inv {w : CFl binary64} {a b e : ℝ} {k : ℕ} (ha : Rel w.re a e) (hb : Rel w.im b e) (oa : Ord k a) (ob : Ord k b) (h0 : a * a + b * b ≠ 0)
    (he : 0 ≤ e) (he' : e ≤ 1 / 10 ^ 12) (hk : 3 * k + 1 ≤ 250) :
    Rel (CFl.inv w).re (a / (a * a + b * b)) (4 * e + 6 / 10 ^ 15) ∧ Rel (CFl.inv w).im (-b / (a * a + b * b)) (4 * e + 6 / 10 ^ 15) ∧
      Ord (3 * k + 1) (a / (a * a + b * b)) ∧ Ord (3 * k + 1) (-b / (a * a + b * b)) := by
  have oN := ord_sq oa ob
  have o1 : Ord (3 * k + 1) (a / (a * a + b * b)) := (oa.div oN).mono (by omega)
  have o2 : Ord (3 * k + 1) (b / (a * a + b * b)) := (ob.div oN).mono (by omega)
  have hee : e * e ≤ e := by nlinarith
  have n1 := ha.mulO ha ((oa.mul oa).mid (by omega)) he he (by nlinarith)
  have n2 := hb.mulO hb ((ob.mul ob).mid (by omega)) he he (by nlinarith)
  have hN := n1.addO n2 (mul_nonneg (mul_self_nonneg a) (mul_self_nonneg b)) (oN.mid (by omega)) (by positivity) (by norm_num at he' ⊢; nlinarith)
  have hN' := hN.mono (show _ ≤ (201 / 100) * e + 2 / 10 ^ 15 by norm_num at he' ⊢; nlinarith)
  have m1 := (Rel.exact is_numOne).mulO ha (by rw [one_mul]; exact oa.mid (by omega)) le_rfl he (by norm_num at he' ⊢; nlinarith)
  have m2 := (Rel.exact is_numOne).mulO hb (by rw [one_mul]; exact ob.mid (by omega)) le_rfl he (by norm_num at he' ⊢; nlinarith)
  rw [one_mul, zero_mul, zero_add, add_zero] at m1 m2
  have key : (e + 1 / 10 ^ 15 + ((201 / 100) * e + 2 / 10 ^ 15)) / (1 - ((201 / 100) * e + 2 / 10 ^ 15)) + 1 / 10 ^ 15 ≤ 4 * e + 5 / 10 ^ 15 := by
    have : 0 < 1 - ((201 / 100) * e + 2 / 10 ^ 15) := by norm_num at he' ⊢; linarith
    rw [← le_sub_iff_add_le, div_le_iff₀ this]
    norm_num at he' ⊢
    nlinarith
  have d1 := (m1.divO hN' (o1.mid hk) h0 (by positivity) (by positivity) (by norm_num at he' ⊢; linarith) (by norm_num at he' ⊢; linarith)).mono key
  have d2 := (m2.divO hN' (o2.mid hk) h0 (by positivity) (by positivity) (by norm_num at he' ⊢; linarith) (by norm_num at he' ⊢; linarith)).mono key
  have d3 := (Rel.ofZero (e := 4 * e + 5 / 10 ^ 15) is_numZero).subO d2 (by rw [zero_mul]) (by rw [zero_sub]; exact o2.neg.mid hk) (by positivity)
    (by norm_num at he' ⊢; linarith)
  rw [zero_sub] at d3
  refine ⟨d1.mono (by norm_num), ?_, o1, ?_⟩
  · rw [neg_div]; exact d3.mono (by norm_num; linarith)
  · rw [neg_div]; exact o2.neg

end Qcd

namespace Qcd
open Fl Spec

theorem roundPos_near {t : ℝ} {n : ℤ} (ht : 0 ≤ t) (hn : 0 ≤ n) (h : t < 2 ^ (n + 1)) : |roundPos t - t| ≤ 2 ^ (n - 53) := by
  refine abs_roundPos_sub.trans (zpow_le_zpow_right₀ (by norm_num) ?_)
  have : expo t ≤ n := by
    rcases ht.lt_or_eq with h0 | h0
    · refine max_le ?_ (by omega)
      have := (Int.lt_zpow_iff_log_lt (b := 2) (by norm_num) h0).1 (by exact_mod_cast h)
      omega
    · rw [← h0]; unfold expo; simp [hn]
  omega

/-- The error of rounding below `2^(n+1)`. -/
theorem round64_near {t y : ℝ} {n : ℤ} (hn : 0 ≤ n) (h : |t| < 2 ^ (n + 1)) (hy : round64 t = (y : EReal)) : |y - t| ≤ 2 ^ (n - 53) := by
  rw [← round64_real hy]
  unfold round53
  split_ifs with h0
  · have := roundPos_near (by linarith : 0 ≤ -t) hn (by rwa [abs_of_neg h0] at h)
    rw [show -roundPos (-t) - t = -(roundPos (-t) - -t) by ring, abs_neg]; exact this
  · rw [not_lt] at h0
    exact roundPos_near h0 hn (by rwa [abs_of_nonneg h0] at h)

theorem roundEven_eq {t : ℝ} {j : ℤ} (h : |t - j| < 1 / 2) : roundEven t = j := by
  have h1 := abs_roundEven t
  have h2 : |(roundEven t : ℝ) - j| < 1 := by
    have := abs_sub_le (roundEven t : ℝ) t j
    linarith
  have h3 : |roundEven t - j| < 1 := by exact_mod_cast h2
  have := Int.abs_lt_one_iff.1 h3
  omega

/-- The value of a rounding. -/
theorem round64_value {t y : ℝ} {n j : ℤ} (hn : -1022 ≤ n) (h1 : (2 : ℝ) ^ n ≤ t) (h2 : t < 2 ^ (n + 1)) (hj : |t * 2 ^ (52 - n) - j| < 1 / 2) (hy : round64 t = (y : EReal)) :
    y = j * 2 ^ (n - 52) := by
  have h0 : 0 < t := lt_of_lt_of_le (by positivity) h1
  rw [← round64_real hy, round53, if_neg (not_lt.2 h0.le), roundPos, expo_eq hn h1 h2, roundEven_eq hj]

theorem inv_close {v x e : ℝ} (hx : x ≠ 0) (he : 0 ≤ e) (he' : e ≤ 1 / 10 ^ 3) (h : |v - x| ≤ e * |x|) : |v⁻¹ - x⁻¹| ≤ 101 / 100 * e * |x⁻¹| := by
  have hxp : 0 < |x| := abs_pos.2 hx
  have hv1 : 999 / 1000 * |x| ≤ |v| := by
    have := abs_sub_abs_le_abs_sub x v
    rw [abs_sub_comm] at this
    norm_num at he'
    nlinarith
  have hvp : 0 < |v| := lt_of_lt_of_le (by positivity) hv1
  have hv : v ≠ 0 := abs_pos.1 hvp
  have e1 : v⁻¹ - x⁻¹ = -((v - x) * v⁻¹) * x⁻¹ := by field_simp; ring
  rw [e1, abs_mul]
  refine mul_le_mul_of_nonneg_right ?_ (abs_nonneg _)
  rw [abs_neg, abs_mul, abs_inv, ← div_eq_mul_inv, div_le_iff₀ hvp]
  nlinarith

theorem same_sign {v x e : ℝ} (he' : e < 1) (h : |v - x| ≤ e * |x|) (hx : x ≠ 0) : 0 < v * x := by
  have hxp : 0 < |x| := abs_pos.2 hx
  rw [abs_le] at h
  rcases lt_or_gt_of_ne hx with h0 | h0
  · rw [abs_of_neg h0] at h; exact mul_pos_of_neg_of_neg (by nlinarith) h0
  · rw [abs_of_pos h0] at h; exact mul_pos (by nlinarith) h0

end Qcd
