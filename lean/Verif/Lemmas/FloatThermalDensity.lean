import Verif.Model.FloatThermalDensity
import Verif.Spec.FloatThermalDensity
import Verif.Lemmas.FloatDensity
import Verif.Lemmas.Residues

/-! # Lemmas on the charge density at finite temperature in floating-point arithmetic -/

namespace Qcd.FTD
open Fl Spec

/-- The value of a sum of two numbers, one of which is small. -/
theorem absorb {E d : ℝ} {n : ℤ} (hE : Binary64 E) (hn : -1000 ≤ n) (hn' : n ≤ 900) (h : 2 ^ n ≤ E) (hd : |d| < 2 ^ (n - 54)) : round64 (E + d) = (E : EReal) := by
  have hle := binary64_le hE
  have hb1 : (2 : ℝ) ^ (n - 54) ≤ 2 ^ (970 : ℤ) := zpow_le_zpow_right₀ (by norm_num) (by omega)
  have e971 : (2 : ℝ) ^ (971 : ℤ) = 2 * 2 ^ (970 : ℤ) := by rw [← zpow_one_add₀ (by norm_num)]; norm_num
  obtain ⟨y, hy⟩ := round64_finite (x := E + d) (by
    have := abs_add_le E d
    rw [e971] at hle
    have aux : ∀ A B s t v w : ℝ, s ≤ A - 2 * B → t < w → w ≤ B → v ≤ s + t → v < A - B := fun A B s t v w h1 h2 h3 h4 => by linarith
    exact aux _ _ _ _ _ _ hle hd hb1 this)
  rw [hy]
  have hyb := round64_binary64 hy
  have hnr := round53_nearest (x := E + d) hE
  rw [round64_real hy, add_sub_cancel_left] at hnr
  have p0 : (0 : ℝ) < 2 ^ n := by positivity
  have p1 : (2 : ℝ) ^ (n - 53) = 2 * 2 ^ (n - 54) := by rw [← zpow_one_add₀ (by norm_num)]; congr 1; ring
  have p2 : (2 : ℝ) ^ n = 2 * 2 ^ (n - 1) := by rw [← zpow_one_add₀ (by norm_num)]; congr 1; ring
  have p3 : (2 : ℝ) ^ (n - 53) ≤ 2 ^ (n - 1) := zpow_le_zpow_right₀ (by norm_num) (by omega)
  have hyE : |y - E| < 2 ^ (n - 53) := by
    have h1 := abs_sub_abs_le_abs_sub (y - E) (y - (E + d))
    rw [show y - E - (y - (E + d)) = d by ring, abs_sub_comm y (E + d)] at h1
    linarith
  rw [abs_lt] at hyE
  have hy1 : (2 : ℝ) ^ (n - 1) ≤ y := by linarith
  have hy0 : 0 < y := lt_of_lt_of_le (by positivity) hy1
  have hE0 : 0 < E := lt_of_lt_of_le p0 h
  have hX := roundPos_of_representable (binary64_fixed hE)
  have hY := roundPos_of_representable (binary64_fixed hyb)
  rw [abs_of_pos hE0] at hX
  rw [abs_of_pos hy0] at hY
  have ex : ∀ {a : ℝ}, (2 : ℝ) ^ (n - 1) ≤ a → n - 1 ≤ expo a := by
    intro a ha
    have := expo_mono (by positivity : (0 : ℝ) < 2 ^ (n - 1)) ha
    rwa [expo_eq (by omega) (le_refl ((2 : ℝ) ^ (n - 1))) (zpow_lt_zpow_right₀ (by norm_num) (by omega))] at this
  have gap : ∀ {a b : ℝ}, (2 : ℝ) ^ (n - 1) ≤ a → a < b → roundPos a = a → roundPos b = b → a + 2 ^ (n - 53) ≤ b := by
    intro a b ha hab h1 h2
    have hg := representable_gap (lt_of_lt_of_le (by positivity) ha) hab h1 h2
    have : (2 : ℝ) ^ (n - 53) ≤ 2 ^ (expo a - 52) := zpow_le_zpow_right₀ (by norm_num) (by have := ex ha; omega)
    linarith
  rcases lt_trichotomy y E with hc | hc | hc
  · have := gap hy1 hc hY hX; linarith
  · rw [hc]
  · have := gap (by linarith) hc hX hY; linarith

/-- Numbers between two numbers of the type stay there. -/
theorem between {x a b : ℝ} (ha : Binary64 a) (hb : Binary64 b) (h1 : a ≤ x) (h2 : x ≤ b) : ∃ y : ℝ, round64 x = (y : EReal) ∧ a ≤ y ∧ y ≤ b := by
  have m1 : round64 a ≤ round64 x := binary64.mono h1
  have m2 : round64 x ≤ round64 b := binary64.mono h2
  rw [binary64_fixed ha] at m1
  rw [binary64_fixed hb] at m2
  induction hx : round64 x using EReal.rec with
  | bot => rw [hx] at m1; simp at m1
  | top => rw [hx] at m2; simp at m2
  | coe y => rw [hx] at m1 m2; exact ⟨y, rfl, by exact_mod_cast m1, by exact_mod_cast m2⟩

theorem b_zero : Binary64 0 := ⟨0, 0, by norm_num, by norm_num, by norm_num, by norm_num⟩
theorem b_one : Binary64 1 := ⟨1, 0, by norm_num, by norm_num, by norm_num, by norm_num⟩
theorem b_neg_one : Binary64 (-1) := ⟨-1, 0, by norm_num, by norm_num, by norm_num, by norm_num⟩
theorem b_pow {n : ℤ} (h1 : -1074 ≤ n) (h2 : n ≤ 971) : Binary64 (2 ^ n) := ⟨1, n, by norm_num, h1, h2, by norm_num⟩

/-- The value of the rounding. -/
noncomputable def rd (x : ℝ) : ℝ := (round64 x).toReal

theorem rd_eq {x y : ℝ} (h : round64 x = (y : EReal)) : rd x = y := by rw [rd, h, EReal.toReal_coe]

theorem rd_neg (x : ℝ) : rd (-x) = -rd x := by rw [rd, round64_neg, rd]; exact EReal.toReal_neg_eq

theorem rd_zero : rd 0 = 0 := rd_eq (binary64_fixed b_zero)

/-- Rounding within the range of a number of the type. -/
theorem within {x c : ℝ} (hc : Binary64 c) (h : |x| ≤ c) : round64 x = (rd x : EReal) ∧ |rd x| ≤ c := by
  obtain ⟨y, hy, h1, h2⟩ := between (binary64_neg hc) hc (abs_le.1 h).1 (abs_le.1 h).2
  rw [rd_eq hy]
  exact ⟨hy, abs_le.2 ⟨h1, h2⟩⟩

theorem rd_mono {x y c : ℝ} (hc : Binary64 c) (hx : |x| ≤ c) (hy : |y| ≤ c) (h : x ≤ y) : rd x ≤ rd y := by
  have := binary64.mono h
  rw [show binary64.rnd x = (rd x : EReal) from (within hc hx).1, show binary64.rnd y = (rd y : EReal) from (within hc hy).1] at this
  exact_mod_cast this

/-! ## The distributions -/

/-- The computed Fermi distribution for the computed energy `E`. -/
noncomputable def fermiV (E : EReal) (b x : ℝ) : ℝ := (addInv binary64 (expE binary64 (mulE binary64 (subE binary64 E x) b))).toReal

theorem fermiV_coe (E : EReal) (b x : ℝ) : addInv binary64 (expE binary64 (mulE binary64 (subE binary64 E x) b)) = (fermiV E b x : EReal) ∧ 0 ≤ fermiV E b x ∧ fermiV E b x ≤ 1 := by
  obtain ⟨h, h'⟩ := addInv_range (r := binary64) (expE_nonneg (mulE binary64 (subE binary64 E x) b))
  obtain ⟨w, hw, h0⟩ := real_of_nonneg h (by intro e; rw [e] at h'; simp at h'; exact one_ne_top h')
  have e : fermiV E b x = w := by rw [fermiV, hw, EReal.toReal_coe]
  rw [hw] at h'
  rw [e]
  exact ⟨hw, h0, by exact_mod_cast h'⟩

theorem is_fermi {en beta mu : Fl binary64} {E : EReal} {b x : ℝ} (he : en.value = some E) (hb : Is beta b) (hm : Is mu x) (hb0 : 0 < b) :
    Is (F.fermi_distribution en beta mu) (fermiV E b x) := by
  rw [Is, fermi_value he hb hm hb0, (fermiV_coe E b x).1]

theorem fermiV_mono (E : EReal) {b x x' : ℝ} (hb0 : 0 < b) (h : x ≤ x') : fermiV E b x ≤ fermiV E b x' := by
  have := addInv_anti (r := binary64) (expE_nonneg (r := binary64) (mulE binary64 (subE binary64 E x') b))
    (expE_mono (r := binary64) (mulE_mono (r := binary64) hb0 (subE_mono (r := binary64) (le_refl E) h)))
  rw [(fermiV_coe E b x).1, (fermiV_coe E b x').1] at this
  exact_mod_cast this

/-- The computed difference of the distributions. -/
noncomputable def diffV (E : EReal) (b x : ℝ) : ℝ := rd (fermiV E b x - fermiV E b (-x))

theorem diff_abs (E : EReal) (b x : ℝ) : |fermiV E b x - fermiV E b (-x)| ≤ 1 := by
  obtain ⟨-, h1, h2⟩ := fermiV_coe E b x
  obtain ⟨-, h3, h4⟩ := fermiV_coe E b (-x)
  rw [abs_le]; constructor <;> linarith

theorem diffV_abs (E : EReal) (b x : ℝ) : |diffV E b x| ≤ 1 := (within b_one (diff_abs E b x)).2

theorem is_diff {en beta mu : Fl binary64} {E : EReal} {b x : ℝ} (he : en.value = some E) (hb : Is beta b) (hm : Is mu x) (hb0 : 0 < b) :
    Is (F.fermi_distribution en beta mu - F.fermi_distribution en beta (-mu)) (diffV E b x) := by
  have hn : Is (-mu) (-x) := value_neg hm
  have h1 := is_fermi he hb hm hb0
  have h2 := is_fermi he hb hn hb0
  have h3 : (neg (F.fermi_distribution en beta (-mu))).value = some ((-fermiV E b (-x) : ℝ) : EReal) := value_neg h2
  have := value_add h1 h3
  rw [Is, sub_def, this, ← sub_eq_add_neg]
  exact congrArg some (within b_one (diff_abs E b x)).1

theorem diffV_neg (E : EReal) (b x : ℝ) : diffV E b (-x) = -diffV E b x := by
  unfold diffV
  rw [neg_neg, ← rd_neg, neg_sub]

theorem diffV_mono (E : EReal) {b x x' : ℝ} (hb0 : 0 < b) (h : x ≤ x') : diffV E b x ≤ diffV E b x' :=
  rd_mono b_one (diff_abs E b x) (diff_abs E b x') (sub_le_sub (fermiV_mono E hb0 h) (fermiV_mono E hb0 (neg_le_neg h)))

theorem diffV_zero (E : EReal) (b : ℝ) : diffV E b 0 = 0 := by rw [diffV, neg_zero, sub_self, rd_zero]

/-! ## The integrand -/

theorem pi2 : ∃ P : ℝ, Is (F.PI2 : Fl binary64) P ∧ 2 ≤ P ∧ P ≤ 20 := by
  obtain ⟨P, hP, h⟩ := rel_pi2
  obtain ⟨h1, h2⟩ := pi_sq_bounds
  rw [abs_of_pos (by linarith : 0 < Real.pi ^ 2), abs_le] at h
  refine ⟨P, hP, ?_, ?_⟩ <;> norm_num at h <;> linarith

/-- The computed integrand, from the prefactor `C`, the difference `D` and the constant `P`. -/
noncomputable def tail (C D P : ℝ) : ℝ := rd (rd (C * D) / P)

theorem tail_bounds {C D P : ℝ} (hC : Binary64 C) (hC0 : 0 ≤ C) (hD : |D| ≤ 1) (hP : 2 ≤ P) : |C * D| ≤ C ∧ |rd (C * D) / P| ≤ C ∧ |tail C D P| ≤ C := by
  have h1 : |C * D| ≤ C := by rw [abs_mul, abs_of_nonneg hC0]; exact mul_le_of_le_one_right hC0 hD
  have h2 := (within hC h1).2
  have h3 : |rd (C * D) / P| ≤ C := by
    rw [abs_div, abs_of_pos (by linarith : 0 < P), div_le_iff₀ (by linarith)]
    nlinarith
  exact ⟨h1, h3, (within hC h3).2⟩

theorem tail_neg (C D P : ℝ) : tail C (-D) P = -tail C D P := by rw [tail, mul_neg, rd_neg, neg_div, rd_neg, tail]

theorem tail_zero (C P : ℝ) : tail C 0 P = 0 := by rw [tail, mul_zero, rd_zero, zero_div, rd_zero]

theorem tail_mono {C D D' P : ℝ} (hC : Binary64 C) (hC0 : 0 ≤ C) (hD : |D| ≤ 1) (hD' : |D'| ≤ 1) (hP : 2 ≤ P) (h : D ≤ D') : tail C D P ≤ tail C D' P := by
  obtain ⟨a1, a2, -⟩ := tail_bounds hC hC0 hD hP
  obtain ⟨b1, b2, -⟩ := tail_bounds hC hC0 hD' hP
  refine rd_mono hC a2 b2 ?_
  gcongr
  exact rd_mono hC a1 b1 (mul_le_mul_of_nonneg_left h hC0)

/-- The prefactor. -/
theorem prefactor {nc : ℕ} (h1 : nc ≤ 10 ^ 6) {q : Fl binary64} {z : ℝ} (hq : Is q z) {k : ℤ} (hk : 0 ≤ k) (hk' : k ≤ 400) (hz : |z| ≤ 2 ^ k) :
    ∃ C : ℝ, Is (ofR (nc : ℝ) * q * q : Fl binary64) C ∧ Binary64 C ∧ 0 ≤ C ∧ C ≤ 2 ^ (20 + k + k) := by
  have hn : Is (ofR (nc : ℝ) : Fl binary64) nc := is_ofR (binary64_nat (lt_of_le_of_lt h1 (by norm_num)))
  have hn0 : (0 : ℝ) ≤ nc := Nat.cast_nonneg _
  have hn1 : (nc : ℝ) ≤ 2 ^ (20 : ℤ) := by
    have : (nc : ℝ) ≤ 10 ^ 6 := by exact_mod_cast h1
    exact this.trans (by norm_num)
  have e1 : (2 : ℝ) ^ (20 + k) = 2 ^ (20 : ℤ) * 2 ^ k := zpow_add₀ (by norm_num) _ _
  have e2 : (2 : ℝ) ^ (20 + k + k) = 2 ^ (20 + k) * 2 ^ k := zpow_add₀ (by norm_num) _ _
  have ha : |nc * z| ≤ 2 ^ (20 + k) := by
    rw [abs_mul, abs_of_nonneg hn0, e1]
    exact mul_le_mul hn1 hz (abs_nonneg _) (by positivity)
  obtain ⟨a1, a2⟩ := within (b_pow (by omega) (by omega)) ha
  have hA : Is (ofR (nc : ℝ) * q : Fl binary64) (rd (nc * z)) := (value_mul hn hq).trans (congrArg some a1)
  have hs : 0 ≤ rd (nc * z) * z := by
    rcases le_total 0 z with h0 | h0
    · have := rd_mono (c := 2 ^ (20 + k)) (b_pow (by omega) (by omega)) (x := 0) (by rw [abs_zero]; positivity) ha (by positivity)
      rw [rd_zero] at this
      positivity
    · have := rd_mono (c := 2 ^ (20 + k)) (b_pow (by omega) (by omega)) (y := 0) ha (by rw [abs_zero]; positivity) (mul_nonpos_of_nonneg_of_nonpos hn0 h0)
      rw [rd_zero] at this
      exact mul_nonneg_of_nonpos_of_nonpos this h0
  have hc : rd (nc * z) * z ≤ 2 ^ (20 + k + k) := by
    rw [e2, ← abs_of_nonneg hs, abs_mul]
    exact mul_le_mul a2 hz (abs_nonneg _) (by positivity)
  obtain ⟨C, hC, c1, c2⟩ := between b_zero (b_pow (n := 20 + k + k) (by omega) (by omega)) hs hc
  exact ⟨C, (value_mul hA hq).trans (congrArg some hC), round64_binary64 hC, c1, c2⟩

theorem is_density {nc : ℕ} {q m beta mu : Fl binary64} {E : EReal} {C b x P : ℝ} (hC : Is (ofR (nc : ℝ) * q * q : Fl binary64) C) (hCb : Binary64 C) (hC0 : 0 ≤ C)
    (he : (F.energy q m).value = some E) (hb : Is beta b) (hm : Is mu x) (hb0 : 0 < b) (hP : Is (F.PI2 : Fl binary64) P) (hP2 : 2 ≤ P) :
    Is (F.charge_density_i nc q m beta mu) (tail C (diffV E b x) P) := by
  obtain ⟨h1, h2, -⟩ := tail_bounds hCb hC0 (diffV_abs E b x) hP2
  have m1 : Is (ofR (nc : ℝ) * q * q * (F.fermi_distribution (F.energy q m) beta mu - F.fermi_distribution (F.energy q m) beta (-mu))) (rd (C * diffV E b x)) :=
    (value_mul hC (is_diff he hb hm hb0)).trans (congrArg some (within hCb h1).1)
  exact (Rel.is_div m1 hP (by linarith)).trans (congrArg some (within hCb h2).1)

/-! ## Overflow -/

theorem mul_comm_fl (a b : Fl binary64) : mul a b = mul b a := by
  unfold mul
  rw [mul_comm a.val.toReal, show (a.isNeg != b.isNeg) = (b.isNeg != a.isNeg) from Bool.xor_comm _ _]
  congr 1
  · rw [or_comm]
  · congr 1
    · rw [or_comm]
    · congr 1
      · apply propext; tauto
      · congr 2; exact propext eq_comm

theorem big_mul {a b : Fl binary64} {A B : EReal} (ha : a.value = some A) (hb : b.value = some B) (h1 : ((2 ^ (512 : ℤ) : ℝ) : EReal) ≤ A) (h2 : ((2 ^ (512 : ℤ) : ℝ) : EReal) ≤ B) :
    (mul a b).value = some ⊤ := by
  have p : (0 : ℝ) < 2 ^ (512 : ℤ) := by positivity
  induction B using EReal.rec with
  | bot => exact absurd (le_bot_iff.1 h2) (EReal.coe_ne_bot _)
  | top =>
    induction A using EReal.rec with
    | bot => exact absurd (le_bot_iff.1 h1) (EReal.coe_ne_bot _)
    | top =>
      have n1 : a.isNeg = false := isNeg_pos ha (by simp)
      have n2 : b.isNeg = false := isNeg_pos hb (by simp)
      unfold mul; simp [ha, hb, val_of ha, val_of hb, n1, n2]
    | coe A =>
      have h1' : (2 : ℝ) ^ (512 : ℤ) ≤ A := by exact_mod_cast h1
      rw [mul_comm_fl]
      exact value_mul_top hb ha (p.trans_le h1')
  | coe B =>
    have h2' : (2 : ℝ) ^ (512 : ℤ) ≤ B := by exact_mod_cast h2
    induction A using EReal.rec with
    | bot => exact absurd (le_bot_iff.1 h1) (EReal.coe_ne_bot _)
    | top => exact value_mul_top ha hb (p.trans_le h2')
    | coe A =>
      have h1' : (2 : ℝ) ^ (512 : ℤ) ≤ A := by exact_mod_cast h1
      rw [value_mul ha hb]
      congr 1
      refine round64_top.2 ?_
      unfold overflowBound
      have e : (2 : ℝ) ^ (1024 : ℤ) = 2 ^ (512 : ℤ) * 2 ^ (512 : ℤ) := by rw [← zpow_add₀ (by norm_num)]; norm_num
      have h3 : (2 : ℝ) ^ (512 : ℤ) * 2 ^ (512 : ℤ) ≤ A * B := mul_le_mul h1' h2' p.le (p.le.trans h1')
      have h4 : (0 : ℝ) < 2 ^ (970 : ℤ) := by positivity
      rw [← e] at h3
      exact (sub_le_self _ h4.le).trans h3

theorem big_energy {q m : Fl binary64} {X : EReal} {y : ℝ} (hq : q.value = some X) (hX : ((2 ^ (512 : ℤ) : ℝ) : EReal) ≤ X) (hm : Is m y) : (F.energy q m).value = some ⊤ := by
  have h := big_mul hq hq hX hX
  rw [mul_self_eq hq] at h
  have h2 : sqE binary64 X = ⊤ := by simpa using h
  rw [energy_eq hq hm, h2]
  simp [addE, sqrtE]

theorem fermiV_top (b x : ℝ) : fermiV ⊤ b x = 0 := by simp [fermiV, subE, mulE, expE, addInv]

theorem big_density {nc : ℕ} (h0 : 0 < nc) (h1 : nc ≤ 10 ^ 6) {q m beta mu : Fl binary64} {X : EReal} {y b x : ℝ} (hq : q.value = some X) (hX : ((2 ^ (512 : ℤ) : ℝ) : EReal) ≤ X) (hm : Is m y)
    (hb : Is beta b) (hb0 : 0 < b) (hmu : Is mu x) : F.charge_density_i nc q m beta mu = nan := by
  have hn : Is (ofR (nc : ℝ) : Fl binary64) nc := is_ofR (binary64_nat (lt_of_le_of_lt h1 (by norm_num)))
  have hn1 : (1 : ℝ) ≤ nc := by exact_mod_cast h0
  have hd := is_diff (big_energy hq hX hm) hb hmu hb0
  rw [diffV, fermiV_top, fermiV_top, sub_self, rd_zero] at hd
  have hA : (ofR (nc : ℝ) * q : Fl binary64).value = some (mulE binary64 X nc) := by
    rw [mul_def, mul_comm_fl]; exact value_mulE hq hn (by linarith)
  have hA1 : ((2 ^ (512 : ℤ) : ℝ) : EReal) ≤ mulE binary64 X nc := by
    induction X using EReal.rec with
    | bot => exact absurd (le_bot_iff.1 hX) (EReal.coe_ne_bot _)
    | top => simp [mulE]
    | coe z =>
      have hz : (2 : ℝ) ^ (512 : ℤ) ≤ z := by exact_mod_cast hX
      have p : (0 : ℝ) < 2 ^ (512 : ℤ) := by positivity
      have : (2 : ℝ) ^ (512 : ℤ) ≤ z * nc := by
        have := mul_le_mul hz hn1 zero_le_one (p.le.trans hz)
        rwa [mul_one] at this
      have m1 : round64 (2 ^ (512 : ℤ)) ≤ round64 (z * nc) := binary64.mono this
      rw [binary64_fixed (b_pow (by norm_num) (by norm_num))] at m1
      have e : mulE binary64 (z : EReal) nc = round64 (z * nc) := by simp [mulE]; rfl
      rwa [e]
  have hC : (ofR (nc : ℝ) * q * q : Fl binary64).value = some ⊤ := big_mul hA hq hA1 hX
  unfold F.charge_density_i
  have e : (ofR (nc : ℝ) * q * q * (F.fermi_distribution (F.energy q m) beta mu - F.fermi_distribution (F.energy q m) beta (-mu)) : Fl binary64) = nan := by
    rw [mul_def]
    generalize (ofR (nc : ℝ) * q * q : Fl binary64) = c at *
    generalize (F.fermi_distribution (F.energy q m) beta mu - F.fermi_distribution (F.energy q m) beta (-mu)) = d at *
    have hd' : d.value = some 0 := hd
    unfold mul
    simp [hC, hd', val_of hC, val_of hd']
  simp only [e]
  change div nan _ = nan
  simp [div]

end Qcd.FTD
