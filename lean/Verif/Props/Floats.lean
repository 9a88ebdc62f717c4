import Verif.Lemmas.Binary64
import Verif.Props.Distributions

/-! C111: the elementary thermal functions in floating-point arithmetic, for every rounding, and for binary64. -/

namespace Qcd
open Fl Spec

variable {r : Rounding}

/-! ### The rounding of `f64` -/

/-- **C111** (rounding of `f64`): the rounded value is a number of the type, and no number of the type is nearer. -/
theorem C111_binary64_nearest (x y : ℝ) (h : binary64.rnd x = (y : EReal)) :
    Binary64 y ∧ ∀ z, Binary64 z → |x - y| ≤ |x - z| := by
  refine ⟨round64_binary64 h, fun z hz => ?_⟩
  rw [← round64_real h]; exact round53_nearest hz

/-- **C111** (rounding of `f64`): numbers of the type are not changed by rounding. -/
theorem C111_binary64_fixed (x : ℝ) (h : Binary64 x) : binary64.rnd x = (x : EReal) := binary64_fixed h

/-- **C111** (rounding of `f64`): of two nearest numbers the one with even last digit is taken. -/
theorem C111_binary64_ties (x y z : ℝ) (h : binary64.rnd x = (y : EReal)) (hz : Binary64 z) (hne : z ≠ y) (ht : |x - z| = |x - y|) :
    ∃ k e : ℤ, Even k ∧ y = k * 2 ^ e ∧ |y - z| = 2 ^ e := round64_tie h hz hne ht

/-- **C111** (rounding of `f64`): which numbers are rounded to `+∞`. -/
theorem C111_binary64_overflow (x : ℝ) : binary64.rnd x = ⊤ ↔ 2 ^ (1024 : ℤ) - 2 ^ (970 : ℤ) ≤ x := round64_top

/-! ### The operations -/

/-- **C111** (operations): finite arguments give the rounded result; the product in `mul_add` is not rounded. -/
theorem C111_operations (a b c : Fl r) (x y z : ℝ) (ha : Is a x) (hb : Is b y) (hc : Is c z) :
    IsE (a + b) (r.rnd (x + y)) ∧ IsE (a - b) (r.rnd (x - y)) ∧ IsE (a * b) (r.rnd (x * y)) ∧ (y ≠ 0 → IsE (a / b) (r.rnd (x / y))) ∧
    Is (-a) (-x) ∧ IsE (mulAdd a b c) (r.rnd (x * y + z)) ∧ (0 ≤ x → IsE (NumOps.sqrt a) (r.rnd (Real.sqrt x))) ∧
    (x < 0 → IsNaN (NumOps.sqrt a)) := by
  have hn : (neg b).value = some ((-y : ℝ) : EReal) := value_neg hb
  refine ⟨value_add ha hb, by have := value_add ha hn; rwa [← sub_eq_add_neg] at this, value_mul ha hb, fun h => ?_, value_neg ha, ?_,
    fun h => ?_, fun h => (sqrt_value ha).1 (by exact_mod_cast h)⟩
  · have h' : (y : EReal) ≠ 0 := by exact_mod_cast h
    change (div a b).value = _
    unfold div
    simp only [show a.value = some (x : EReal) from ha, show b.value = some (y : EReal) from hb, val_of ha, val_of hb, EReal.toReal_coe]
    simp [value_round, h]
  · unfold mulAdd
    simp only [IsE, show a.value = some (x : EReal) from ha, show b.value = some (y : EReal) from hb, show c.value = some (z : EReal) from hc,
      val_of ha, val_of hb, val_of hc, EReal.toReal_coe]
    simp [value_round]
  · have := (sqrt_value ha).2 (by exact_mod_cast h)
    rw [show sqrtE r (x : EReal) = r.rnd (Real.sqrt x) by simp [sqrtE]] at this
    exact this

/-- **C111** (operations): infinities, zeros and NaN as in IEEE 754. -/
theorem C111_special :
    IsNaN ((num ⊤ : Fl r) - num ⊤) ∧ IsNaN ((num ⊤ : Fl r) + num ⊥) ∧ IsNaN ((num 0 : Fl r) * num ⊤) ∧ IsNaN ((num 0 : Fl r) / num 0) ∧
    IsNaN ((num ⊤ : Fl r) / num ⊤) ∧ (num 1 : Fl r) / num 0 = num ⊤ ∧ (num 1 : Fl r) / nz = num ⊥ ∧ (num 1 : Fl r) / num ⊤ = num 0 ∧
    (num 1 : Fl r) / num ⊥ = nz ∧ -(num 0 : Fl r) = nz ∧ (num 1 : Fl r) - num 1 = num 0 ∧ (nz : Fl r) + nz = nz ∧ (nz : Fl r) + num 0 = num 0 ∧
    (NumOps.sqrt nz : Fl r) = nz ∧ (NumOps.exp (num ⊥) : Fl r) = num 0 ∧ (NumOps.exp (num ⊤) : Fl r) = num ⊤ ∧
    (num ⊤ : Fl r) * num ⊥ = num ⊥ ∧ (NumOps.ln (num 0) : Fl r) = num ⊥ ∧ IsNaN (NumOps.ln (num ⊥) : Fl r) := by
  have d : ∀ a b : Fl r, a / b = div a b := fun _ _ => rfl
  have s : ∀ a : Fl r, NumOps.sqrt a = sqrt a := fun _ => rfl
  have e : ∀ a : Fl r, NumOps.exp a = exp a := fun _ => rfl
  have l : ∀ a : Fl r, NumOps.ln a = ln a := fun _ => rfl
  simp only [IsNaN, d, s, e, l, sub_def, add_def, mul_def, neg_def, neg_one]
  refine ⟨?_, ?_, ?_, ?_, ?_, ?_, ?_, ?_, ?_, ?_, ?_, ?_, ?_, ?_, ?_, ?_, ?_, ?_, ?_⟩ <;>
    simp [add, neg, mul, div, sqrt, exp, ln, isNeg, one_ne_top, one_ne_bot, Fl.round, r.zero]

/-! ### The energy -/

/-- **C111** (energy): whatever the rounding, if neither argument is NaN the result is not NaN, not negative and not the
negative zero. -/
theorem C111_energy (p m : Fl r) (hp : ¬ IsNaN p) (hm : ¬ IsNaN m) : ∃ v : EReal, F.energy p m = num v ∧ 0 ≤ v := by
  have g : ∀ a : Fl r, ¬ IsNaN a → ∃ x, a.value = some x := fun a h => by
    cases a with
    | nan => exact absurd rfl h
    | nz => exact ⟨0, rfl⟩
    | num x => exact ⟨x, rfl⟩
  obtain ⟨x, hx⟩ := g p hp
  obtain ⟨y, hy⟩ := g m hm
  exact ⟨_, energy_eq hx hy, sqrtE_nonneg _⟩

/-- **C111** (energy): the signs of momentum and mass do not matter, bit for bit. -/
theorem C111_energy_even (p m : Fl r) : F.energy (-p) m = F.energy p m ∧ F.energy p (-m) = F.energy p m := by
  have h : ∀ a : Fl r, mul (neg a) (neg a) = mul a a := fun a => by
    cases ha : a.value with
    | none =>
      have : a = nan := by cases a <;> simp_all
      subst this; rfl
    | some x => rw [mul_self_eq ha, mul_self_eq (value_neg ha), sqE_neg]
  have e : ∀ p m : Fl r, F.energy p m = sqrt (add (mul m m) (mul p p)) := fun _ _ => rfl
  constructor
  · rw [e, e, neg_def, h]
  · rw [e, e, neg_def, h]

/-- **C111** (energy): it does not decrease with momentum and mass. -/
theorem C111_energy_mono (p p' m m' : Fl r) (x x' y y' : EReal) (hp : IsE p x) (hp' : IsE p' x') (hm : IsE m y) (hm' : IsE m' y')
    (hx : 0 ≤ x) (hy : 0 ≤ y) (hxx : x ≤ x') (hyy : y ≤ y') :
    ∃ v v' : EReal, IsE (F.energy p m) v ∧ IsE (F.energy p' m') v' ∧ v ≤ v' := by
  refine ⟨_, _, by rw [IsE, energy_eq hp hm]; rfl, by rw [IsE, energy_eq hp' hm']; rfl, ?_⟩
  exact sqrtE_mono (addE_nonneg (sqE_nonneg _) (sqE_nonneg _))
    (addE_mono (sqE_nonneg _) (sqE_nonneg _) (sqE_mono hy hyy) (sqE_mono hx hxx))

/-! ### The Fermi distribution -/

/-- **C111** (Fermi distribution): whatever the rounding, the result is a number between zero and one, also if the exponential
overflows or the energy is infinite. -/
theorem C111_fermi_range (en beta mu : Fl r) (x : EReal) (b y : ℝ) (he : IsE en x) (hb : Is beta b) (hm : Is mu y) (hb0 : 0 < b) :
    ∃ v : EReal, IsE (F.fermi_distribution en beta mu) v ∧ 0 ≤ v ∧ v ≤ 1 :=
  ⟨_, fermi_value he hb hm hb0, addInv_range (expE_nonneg _)⟩

/-- **C111** (Fermi distribution): it does not increase with the energy and does not decrease with the chemical potential. -/
theorem C111_fermi_mono (en en' beta mu mu' : Fl r) (x x' : EReal) (b y y' : ℝ) (he : IsE en x) (he' : IsE en' x') (hb : Is beta b)
    (hm : Is mu y) (hm' : Is mu' y') (hb0 : 0 < b) (hx : x ≤ x') (hy : y' ≤ y) :
    ∃ v v' : EReal, IsE (F.fermi_distribution en beta mu) v ∧ IsE (F.fermi_distribution en' beta mu') v' ∧ v' ≤ v :=
  ⟨_, _, fermi_value he hb hm hb0, fermi_value he' hb hm' hb0,
    addInv_anti (expE_nonneg _) (expE_mono (mulE_mono hb0 (subE_mono hx hy)))⟩

/-- **C111** (Fermi distribution, zero chemical potential): between zero and one, not increasing, and at most the rounded half for
energies that are not negative. -/
theorem C111_fermi_zero_chempot (en en' beta : Fl r) (x x' : EReal) (b : ℝ) (he : IsE en x) (he' : IsE en' x') (hb : Is beta b)
    (hb0 : 0 < b) (hx : x ≤ x') :
    ∃ v v' : EReal, IsE (F.fermi_distribution_zero_chempot en beta) v ∧ IsE (F.fermi_distribution_zero_chempot en' beta) v' ∧
      0 ≤ v' ∧ v' ≤ v ∧ v ≤ 1 ∧ (0 ≤ x → v ≤ r.rnd (1 / 2)) := by
  refine ⟨_, _, fermi_zero_value he hb hb0, fermi_zero_value he' hb hb0, (addInv_range (expE_nonneg _)).1,
    addInv_anti (expE_nonneg _) (expE_mono (mulE_mono hb0 hx)), (addInv_range (expE_nonneg _)).2, fun h0 => ?_⟩
  have h1 : 1 ≤ expE r (mulE r x b) := one_le_expE (mulE_nonneg h0 hb0)
  have h2 : addInv r 1 = r.rnd (1 / 2) := by
    unfold addInv
    rw [if_neg one_ne_top, show (1 : EReal).toReal + 1 = 2 by rw [EReal.toReal_one]; norm_num, r.two,
      if_neg (show (2 : EReal) ≠ ⊤ from EReal.coe_ne_top 2)]
    rfl
  rw [← h2]
  exact addInv_anti (by exact_mod_cast (zero_le_one (α := ℝ))) h1

/-- **C111** (both signs of the chemical potential): between zero and two. -/
theorem C111_fermi_double_range (en beta mu : Fl r) (x : EReal) (b y : ℝ) (he : IsE en x) (hb : Is beta b) (hm : Is mu y) (hb0 : 0 < b) :
    ∃ v : EReal, IsE (F.fermi_distribution_double en beta mu) v ∧ 0 ≤ v ∧ v ≤ 2 := by
  refine ⟨_, double_value he hb hm hb0, ?_, ?_⟩
  · rw [← r.zero]
    exact r.mono (add_nonneg (EReal.toReal_nonneg (addInv_range (expE_nonneg _)).1) (EReal.toReal_nonneg (addInv_range (expE_nonneg _)).1))
  · rw [← r.two]
    have g : ∀ z : EReal, 0 ≤ z → (addInv r z).toReal ≤ 1 := fun z hz => by
      obtain ⟨h, h'⟩ := addInv_range (r := r) hz
      obtain ⟨w, hw, _⟩ := real_of_nonneg h (by intro e; rw [e] at h'; simp at h'; exact one_ne_top h')
      rw [hw] at h' ⊢
      exact_mod_cast h'
    have h1 := g _ (expE_nonneg (r := r) (mulE r (subE r x y) b))
    have h2 := g _ (expE_nonneg (r := r) (mulE r (subE r x (-y)) b))
    exact r.mono (by linarith)

/-- **C111** (both signs of the chemical potential): the sign of the chemical potential does not matter, bit for bit. -/
theorem C111_fermi_double_even (en beta mu : Fl r) :
    F.fermi_distribution_double en beta (-mu) = F.fermi_distribution_double en beta mu := by
  have e : ∀ mu : Fl r, F.fermi_distribution_double en beta mu = add (div (num 1) (add (exp (mul (add en (neg mu)) beta)) (num 1)))
      (div (num 1) (add (exp (mul (add en (neg (neg mu))) beta)) (num 1))) := fun _ => rfl
  rw [e, e, neg_def, neg_neg', add_comm']

/-- **C111** (zero temperature): zero or one; one if the comparison involves a NaN. -/
theorem C111_fermi_zero_temp (en mu : Fl r) :
    (∀ x y : EReal, IsE en x → IsE mu y →
      (y < x → F.fermi_distribution_zero_temp en mu = num 0) ∧ (x ≤ y → F.fermi_distribution_zero_temp en mu = num 1)) ∧
    (IsNaN en ∨ IsNaN mu → F.fermi_distribution_zero_temp en mu = num 1) := by
  unfold F.fermi_distribution_zero_temp
  refine ⟨fun x y hx hy => ⟨fun h => if_pos ⟨x, y, hx, hy, h⟩, fun h => if_neg ?_⟩, fun h => if_neg ?_⟩
  · rintro ⟨x', y', h1, h2, h3⟩
    rw [hx] at h1; rw [hy] at h2
    cases h1; cases h2
    exact absurd h3 (not_lt.2 h)
  · rintro ⟨x', y', h1, h2, h3⟩
    rcases h with h | h
    · rw [IsNaN] at h; rw [h] at h1; simp at h1
    · rw [IsNaN] at h; rw [h] at h2; simp at h2

/-! ### The Bose distribution -/

/-- **C111** (Bose distribution): for energies not below the chemical potential the result is a number or `+∞`, not NaN and not
negative, and it does not increase with the energy. -/
theorem C111_bose (en en' beta mu : Fl r) (x x' : EReal) (b y : ℝ) (he : IsE en x) (he' : IsE en' x') (hb : Is beta b) (hm : Is mu y)
    (hb0 : 0 < b) (hx : x ≤ x') (hy : (y : EReal) ≤ x) :
    ∃ v v' : EReal, IsE (F.bose_distribution en beta mu) v ∧ IsE (F.bose_distribution en' beta mu) v' ∧ 0 ≤ v' ∧ v' ≤ v :=
  ⟨_, _, bose_value he hb hm hb0 hy, bose_value he' hb hm hb0 (hy.trans hx),
    subInv_nonneg (one_le_expE (mulE_nonneg (subE_nonneg (hy.trans hx)) hb0)),
    subInv_anti (one_le_expE (mulE_nonneg (subE_nonneg hy) hb0)) (expE_mono (mulE_mono hb0 (subE_mono hx le_rfl)))⟩

/-- **C111** (Bose distribution, zero chemical potential): the same for energies that are not negative. -/
theorem C111_bose_zero_chempot (en en' beta : Fl r) (x x' : EReal) (b : ℝ) (he : IsE en x) (he' : IsE en' x') (hb : Is beta b)
    (hb0 : 0 < b) (hx : x ≤ x') (h0 : 0 ≤ x) :
    ∃ v v' : EReal, IsE (F.bose_distribution_zero_chempot en beta) v ∧ IsE (F.bose_distribution_zero_chempot en' beta) v' ∧
      0 ≤ v' ∧ v' ≤ v :=
  ⟨_, _, bose_zero_value he hb hb0 h0, bose_zero_value he' hb hb0 (h0.trans hx),
    subInv_nonneg (one_le_expE (mulE_nonneg (h0.trans hx) hb0)),
    subInv_anti (one_le_expE (mulE_nonneg h0 hb0)) (expE_mono (mulE_mono hb0 hx))⟩

/-- **C111** (Bose distribution, small energies): if the computed exponential is one the result is `+∞`, whatever the energy. -/
theorem C111_bose_infinite (en beta : Fl r) (x b w : ℝ) (he : Is en x) (hb : Is beta b) (h0 : 0 ≤ x) (hb0 : 0 < b)
    (hw : r.rnd (x * b) = (w : EReal)) (h1 : r.exp w = 1) : IsE (F.bose_distribution_zero_chempot en beta) ⊤ := by
  have h := bose_zero_value he hb hb0 (by exact_mod_cast h0)
  have e1 : mulE r (x : EReal) b = (w : EReal) := by simp [mulE, hw]
  have e2 : expE r (w : EReal) = 1 := by simp [expE, h1]
  have e3 : subInv r 1 = ⊤ := by simp [subInv, one_ne_top, r.zero]
  rw [e1, e2, e3] at h
  exact h

theorem round64_near_one {x : ℝ} (h1 : 1 ≤ x) (h2 : x ≤ 1 + 2 ^ (-54 : ℤ)) : round64 x = 1 := by
  have e := expo_eq (x := x) (e := 0) (by norm_num) (by simpa using h1) (by
    refine h2.trans_lt ?_
    norm_num)
  have hfl : ⌊x * (2 : ℝ) ^ (52 - 0 : ℤ)⌋ = 2 ^ 52 := by
    rw [Int.floor_eq_iff]
    push_cast
    constructor
    · norm_num; linarith
    · norm_num at h2 ⊢; linarith
  have hfr : Int.fract (x * (2 : ℝ) ^ (52 - 0 : ℤ)) < 1 / 2 := by
    unfold Int.fract; rw [hfl]; push_cast; norm_num at h2 ⊢; linarith
  have h3 : roundPos x = 1 := by
    unfold roundPos
    rw [e]
    have : roundEven (x * (2 : ℝ) ^ (52 - 0 : ℤ)) = 2 ^ 52 := by unfold roundEven; rw [if_pos hfr, hfl]
    rw [this]; norm_num
  have := round64_of (x := x) (y := 1) (by unfold round53; rw [if_neg (by linarith)]; exact h3) (by rw [abs_one]; exact one_lt_overflow)
  simpa using this

/-- **C111** (Bose distribution of `f64`, small energies): `n(2^-60, 1)` is `+∞`, although the exact value is less than `2^60`:
the code subtracts one from the rounded exponential. -/
theorem C111_bose_small_energy :
    IsE (F.bose_distribution_zero_chempot (num ((2 ^ (-60 : ℤ) : ℝ) : EReal) : Fl binary64) (num 1)) ⊤ ∧
    bose_distribution_zero_chempot ((2 : ℝ) ^ (-60 : ℤ)) 1 ≤ 2 ^ 60 := by
  have hx0 : (0 : ℝ) < 2 ^ (-60 : ℤ) := by positivity
  constructor
  · refine C111_bose_infinite _ _ (2 ^ (-60 : ℤ)) 1 (2 ^ (-60 : ℤ)) rfl rfl hx0.le one_pos ?_ ?_
    · rw [mul_one]
      exact binary64_fixed ⟨1, -60, by norm_num, by norm_num, by norm_num, by simp⟩
    · refine round64_near_one (Real.one_le_exp hx0.le) ?_
      have h := Real.abs_exp_sub_one_le (x := (2 : ℝ) ^ (-60 : ℤ)) (by rw [abs_of_pos hx0]; norm_num)
      rw [abs_of_pos hx0] at h
      have h' := (abs_le.1 h).2
      norm_num at h' ⊢
      linarith
  · have e : bose_distribution_zero_chempot ((2 : ℝ) ^ (-60 : ℤ)) 1 = (Real.exp ((2 : ℝ) ^ (-60 : ℤ)) - 1)⁻¹ := by
      simp [bose_distribution_zero_chempot, statistic_distribution_exponential_zero_chempot]
    rw [e]
    have h := Real.add_one_le_exp ((2 : ℝ) ^ (-60 : ℤ))
    calc (Real.exp ((2 : ℝ) ^ (-60 : ℤ)) - 1)⁻¹ ≤ ((2 : ℝ) ^ (-60 : ℤ))⁻¹ := by
          apply inv_anti₀ hx0; linarith
      _ = 2 ^ 60 := by norm_num

/-! ### NaN -/

/-- **C111** (NaN): a NaN argument gives NaN. -/
theorem C111_nan (a b : Fl r) :
    IsNaN (F.energy nan a) ∧ IsNaN (F.energy a nan) ∧ IsNaN (F.fermi_distribution nan a b) ∧ IsNaN (F.fermi_distribution a nan b) ∧
    IsNaN (F.fermi_distribution a b nan) ∧ IsNaN (F.bose_distribution_zero_chempot nan a) ∧
    IsNaN (F.bose_distribution_zero_chempot a nan) ∧ IsNaN (F.fermi_momentum nan a) ∧ IsNaN (F.fermi_momentum a nan) := by
  have ha1 : ∀ a : Fl r, add nan a = nan := fun a => by simp [add]
  have ha2 : ∀ a : Fl r, add a nan = nan := fun a => by simp [add]
  have hm1 : ∀ a : Fl r, mul nan a = nan := fun a => by simp [mul]
  have hm2 : ∀ a : Fl r, mul a nan = nan := fun a => by simp [mul]
  have hd : ∀ a : Fl r, div a nan = nan := fun a => by simp [div]
  have he : exp (nan : Fl r) = nan := by simp [exp]
  have hs : sqrt (nan : Fl r) = nan := rfl
  have hn : neg (nan : Fl r) = nan := rfl
  have hf1 : ∀ a b : Fl r, mulAdd a b nan = nan := fun a b => by simp [mulAdd]
  have hf2 : ∀ a b : Fl r, mulAdd nan a b = nan := fun a b => by simp [mulAdd]
  refine ⟨?_, ?_, ?_, ?_, ?_, ?_, ?_, ?_, ?_⟩
  · change sqrt (add (mul a a) (mul nan nan)) = nan; rw [hm1, ha2, hs]
  · change sqrt (add (mul nan nan) (mul a a)) = nan; rw [hm1, ha1, hs]
  · change div (num 1) (add (exp (mul (add nan (neg b)) a)) (num 1)) = nan; rw [ha1, hm1, he, ha1, hd]
  · change div (num 1) (add (exp (mul (add a (neg b)) nan)) (num 1)) = nan; rw [hm2, he, ha1, hd]
  · change div (num 1) (add (exp (mul (add a (neg nan)) b)) (num 1)) = nan; rw [hn, ha2, hm1, he, ha1, hd]
  · change div (num 1) (add (exp (mul nan a)) (neg (num 1))) = nan; rw [hm1, he, ha1, hd]
  · change div (num 1) (add (exp (mul a nan)) (neg (num 1))) = nan; rw [hm2, he, ha1, hd]
  · change sqrt (mulAdd a a (neg (mul nan nan))) = nan; rw [hm1, hn, hf1, hs]
  · change sqrt (mulAdd nan nan (neg (mul a a))) = nan; rw [hf2, hs]

/-! ### The Fermi momentum -/

/-- **C111** (Fermi momentum): when the result is NaN, whatever the rounding. The product `m * m` is rounded, `mu * mu` is not. -/
theorem C111_fermi_momentum_nan_iff (m mu : Fl r) (x y z : ℝ) (hm : Is m y) (hmu : Is mu x) (hz : r.rnd (y * y) = (z : EReal)) :
    IsNaN (F.fermi_momentum m mu) ↔ r.rnd (x * x - z) < 0 := by
  obtain ⟨h1, h2⟩ := fermi_momentum_cases hm hmu hz
  refine ⟨fun h => ?_, h1⟩
  by_contra hc
  have := h2 (not_lt.1 hc)
  rw [IsNaN] at h; rw [h] at this; simp at this

/-- **C111** (Fermi momentum of `f64`): for `|m| < |mu|`, if the square of the mass does not overflow, the result is a number which is
not negative. -/
theorem C111_fermi_momentum_above (m mu : Fl binary64) (x y z : ℝ) (hm : Is m y) (hmu : Is mu x) (hx : Binary64 x) (hy : Binary64 y)
    (h : |y| < |x|) (hz : binary64.rnd (y * y) = (z : EReal)) : ∃ v : EReal, IsE (F.fermi_momentum m mu) v ∧ 0 ≤ v := by
  have h0 : 0 ≤ binary64.rnd (x * x - z) := by
    rcases round64_sq_sub (binary64_fixed hx) (binary64_fixed hy) h hz with h1 | h1
    · rw [← binary64.zero]; exact binary64.mono (by linarith)
    · exact (round64_eq_zero_of_small h1).ge
  exact ⟨_, (fermi_momentum_cases hm hmu hz).2 h0, sqrtE_nonneg _⟩

/-- **C111** (Fermi momentum at the threshold): for `|mu| = |m|` the result is NaN if the square of the mass is rounded upwards (and
the difference does not underflow). -/
theorem C111_fermi_momentum_threshold (m mu : Fl binary64) (x y z : ℝ) (hm : Is m y) (hmu : Is mu x) (h : |x| = |y|)
    (hz : binary64.rnd (y * y) = (z : EReal)) (hup : y * y + 2 ^ (-1022 : ℤ) ≤ z) : IsNaN (F.fermi_momentum m mu) := by
  rw [C111_fermi_momentum_nan_iff m mu x y z hm hmu hz]
  have hsq : x * x = y * y := by rw [← abs_mul_abs_self x, h, abs_mul_abs_self]
  have hp : (0 : ℝ) < 2 ^ (-1022 : ℤ) := by positivity
  have h1 : round64 (-(2 ^ (-1022 : ℤ))) = ((-(2 ^ (-1022 : ℤ)) : ℝ) : EReal) :=
    binary64_fixed ⟨-1, -1022, by norm_num, by norm_num, by norm_num, by push_cast; ring⟩
  have h2 : round64 (x * x - z) ≤ round64 (-(2 ^ (-1022 : ℤ))) := round64_mono (by linarith)
  rw [h1] at h2
  exact lt_of_le_of_lt h2 (by exact_mod_cast neg_neg_of_pos hp)

/-- The number of `f64` written `0.1`. -/
noncomputable def tenth : ℝ := 3602879701896397 * 2 ^ (-55 : ℤ)

/-- **C111** (Fermi momentum at the threshold): `0.1` is such a mass. The functions at zero temperature return zero for
`|mu| < |mq|` only, and use this value as upper limit of integration for `mu = mq = 0.1`. -/
theorem C111_fermi_momentum_tenth :
    Binary64 tenth ∧ |tenth - 1 / 10| < 2 ^ (-57 : ℤ) ∧
      IsNaN (F.fermi_momentum (num (tenth : EReal)) (num (tenth : EReal)) : Fl binary64) := by
  have hb : Binary64 tenth := ⟨3602879701896397, -55, by norm_num, by norm_num, by norm_num, rfl⟩
  refine ⟨hb, ?_, ?_⟩
  · unfold tenth; norm_num [abs_lt]
  · have hexp : expo (tenth * tenth) = -7 := by
      apply expo_eq (by norm_num) <;> unfold tenth <;> norm_num
    have hfl : ⌊tenth * tenth * (2 : ℝ) ^ (52 - (-7) : ℤ)⌋ = 5764607523034235 := by
      rw [Int.floor_eq_iff]; unfold tenth; norm_num
    have hrd : roundEven (tenth * tenth * (2 : ℝ) ^ (52 - (-7) : ℤ)) = 5764607523034236 := by
      unfold roundEven Int.fract
      rw [hfl]
      have : (1 : ℝ) / 2 < tenth * tenth * (2 : ℝ) ^ (52 - (-7) : ℤ) - ((5764607523034235 : ℤ) : ℝ) := by
        unfold tenth; norm_num
      rw [if_neg (not_lt.2 this.le), if_pos this]; norm_num
    have h53 : round53 (tenth * tenth) = 5764607523034236 * 2 ^ (-59 : ℤ) := by
      unfold round53
      rw [if_neg (not_lt.2 (mul_self_nonneg _))]
      unfold roundPos
      rw [hexp, hrd]; norm_num
    have hz : binary64.rnd (tenth * tenth) = ((5764607523034236 * 2 ^ (-59 : ℤ) : ℝ) : EReal) := by
      refine round64_of h53 (lt_of_lt_of_le ?_ one_lt_overflow.le)
      norm_num
    refine C111_fermi_momentum_threshold _ _ tenth tenth _ rfl rfl rfl hz ?_
    have hs : (2 : ℝ) ^ (-1022 : ℤ) ≤ 2 ^ (-100 : ℤ) := zpow_le_zpow_right₀ (by norm_num) (by norm_num)
    have : tenth * tenth + 2 ^ (-100 : ℤ) ≤ 5764607523034236 * 2 ^ (-59 : ℤ) := by unfold tenth; norm_num
    linarith

/-- **C111** (Fermi momentum, overflow): if the square of the mass overflows the result is NaN, whatever the chemical potential. -/
theorem C111_fermi_momentum_overflow (m mu : Fl r) (x y : ℝ) (hm : Is m y) (hmu : Is mu x) (hz : r.rnd (y * y) = ⊤) :
    IsNaN (F.fermi_momentum m mu) := fermi_momentum_overflow hm hmu hz

/-! ### Without rounding -/

/-- **C111** (without rounding): the functions are those of the exact model. -/
theorem C111_exact (en beta mu p m : ℝ) (hb : 0 < beta) :
    IsE (F.energy (num p) (num m) : Fl exactRounding) (energy p m : ℝ) ∧
    IsE (F.fermi_distribution (num en) (num beta) (num mu) : Fl exactRounding) (fermi_distribution en beta mu : ℝ) ∧
    IsE (F.fermi_distribution_zero_chempot (num en) (num beta) : Fl exactRounding) (fermi_distribution_zero_chempot en beta : ℝ) ∧
    IsE (F.fermi_distribution_double (num en) (num beta) (num mu) : Fl exactRounding) (fermi_distribution_double en beta mu : ℝ) ∧
    (0 < en → IsE (F.bose_distribution_zero_chempot (num en) (num beta) : Fl exactRounding) (bose_distribution_zero_chempot en beta : ℝ)) ∧
    IsE (F.fermi_distribution_zero_temp (num en) (num mu) : Fl exactRounding) (fermi_distribution_zero_temp en mu : ℝ) ∧
    IsE (F.fermi_distribution_double_zero_temp (num en) (num mu) : Fl exactRounding) (fermi_distribution_double_zero_temp en mu : ℝ) ∧
    (mu < en → IsE (F.bose_distribution (num en) (num beta) (num mu) : Fl exactRounding) (bose_distribution en beta mu : ℝ)) ∧
    (|m| ≤ |mu| → IsE (F.fermi_momentum (num m) (num mu) : Fl exactRounding) (fermi_momentum m mu : ℝ)) := by
  have hexp : 0 < Real.exp ((en - mu) * beta) := Real.exp_pos _
  have hzt : ∀ x y : ℝ, F.fermi_distribution_zero_temp (num (x : EReal)) (num (y : EReal)) =
      (num ((fermi_distribution_zero_temp x y : ℝ) : EReal) : Fl exactRounding) := fun x y => by
    obtain ⟨h1, h2⟩ := (C111_fermi_zero_temp (num (x : EReal)) (num (y : EReal)) : _ ∧ _ ) |>.1 x y rfl rfl
    by_cases h : y < x
    · rw [h1 (by exact_mod_cast h)]; simp [fermi_distribution_zero_temp, re, h]
    · rw [h2 (by exact_mod_cast (not_lt.1 h))]; simp [fermi_distribution_zero_temp, re, h]
  refine ⟨?_, ?_, ?_, ?_, fun h => ?_, ?_, ?_, fun h => ?_, fun h => ?_⟩
  · rw [IsE, energy_eq (value_num _) (value_num _), value_num]
    simp only [sqE, addE, sqrtE, exactRounding, EReal.toReal_coe, EReal.coe_ne_top, EReal.coe_ne_bot, or_self, if_false]
    simp [energy, energy_squared]
  · rw [IsE, fermi_value (value_num _) (value_num _) (value_num _) hb, fermi_real]
    congr 1
    simp only [subE, mulE, expE, addInv, exactRounding, EReal.toReal_coe, EReal.coe_ne_top, EReal.coe_ne_bot, if_false]
    simp
  · rw [IsE, fermi_zero_value (value_num _) (value_num _) hb]
    congr 1
    simp only [mulE, expE, addInv, exactRounding, EReal.toReal_coe, EReal.coe_ne_top, EReal.coe_ne_bot, if_false]
    simp [fermi_distribution_zero_chempot, statistic_distribution_exponential_zero_chempot]
  · rw [IsE, double_value (value_num _) (value_num _) (value_num _) hb]
    congr 1
    simp only [subE, mulE, expE, addInv, exactRounding, EReal.toReal_coe, EReal.coe_ne_top, EReal.coe_ne_bot, if_false]
    simp [fermi_distribution_double, statistic_distribution_exponential]
  · have h1 : en * beta ≠ 0 := (mul_pos h hb).ne'
    have h2 : Real.exp (en * beta) - 1 ≠ 0 := by rw [sub_ne_zero]; simpa using h1
    have h3 : ((Real.exp (en * beta) - 1 : ℝ) : EReal) ≠ 0 := by exact_mod_cast h2
    rw [IsE, bose_zero_value (value_num _) (value_num _) hb (by exact_mod_cast h.le)]
    congr 1
    simp only [mulE, expE, subInv, exactRounding, EReal.toReal_coe, EReal.coe_ne_top, EReal.coe_ne_bot, if_false, h3]
    simp [bose_distribution_zero_chempot, statistic_distribution_exponential_zero_chempot]
  · rw [IsE, hzt]; rfl
  · have hn : (-(num (mu : EReal)) : Fl exactRounding) = num ((-mu : ℝ) : EReal) ∨ mu = 0 := by
      by_cases h : mu = 0
      · exact Or.inr h
      · left; rw [neg_def]; simp [neg, h]
    have key : F.fermi_distribution_zero_temp (num (en : EReal)) (-(num (mu : EReal))) =
        (num ((fermi_distribution_zero_temp en (-mu) : ℝ) : EReal) : Fl exactRounding) := by
      rcases hn with hn | hn
      · rw [hn, hzt]
      · subst hn
        obtain ⟨h1, h2⟩ := (C111_fermi_zero_temp (r := exactRounding) (num (en : EReal)) (-(num ((0 : ℝ) : EReal)))).1 en 0 rfl
          (by simp [IsE, neg_def, neg])
        by_cases h : 0 < en
        · rw [h1 (by exact_mod_cast h)]; simp [fermi_distribution_zero_temp, re, h]
        · rw [h2 (by exact_mod_cast (not_lt.1 h))]; simp [fermi_distribution_zero_temp, re, h]
    unfold F.fermi_distribution_double_zero_temp
    rw [key, hzt]
    exact value_add rfl rfl
  · have h1 : (en - mu) * beta ≠ 0 := (mul_pos (sub_pos.2 h) hb).ne'
    have h2 : Real.exp ((en - mu) * beta) - 1 ≠ 0 := by rw [sub_ne_zero]; simpa using h1
    have h3 : ((Real.exp ((en - mu) * beta) - 1 : ℝ) : EReal) ≠ 0 := by exact_mod_cast h2
    rw [IsE, bose_value (value_num _) (value_num _) (value_num _) hb (by exact_mod_cast h.le), bose_real]
    congr 1
    simp only [subE, mulE, expE, subInv, exactRounding, EReal.toReal_coe, EReal.coe_ne_top, EReal.coe_ne_bot, if_false, h3]
    simp
  · have h1 := fermi_momentum_cases (r := exactRounding) (m := num m) (mu := num mu) (x := mu) (y := m) (z := m * m) rfl rfl rfl
    have h2 : 0 ≤ mu * mu - m * m := by
      have := mul_self_le_mul_self (abs_nonneg m) h
      rw [abs_mul_abs_self, abs_mul_abs_self] at this
      linarith
    rw [IsE, h1.2 (show (0 : EReal) ≤ ((mu * mu - m * m : ℝ) : EReal) by exact_mod_cast h2)]
    simp only [sqrtE, exactRounding, fermi_momentum, EReal.toReal_coe, EReal.coe_ne_top, if_false, sub_eq_add_neg]

/-! ### Concrete cases -/

/-- Non-vacuity: `m = 0.5`, `mu = 1`, numbers of `f64`. -/
example : ∃ v : EReal, IsE (F.fermi_momentum (num ((2 ^ (-1 : ℤ) : ℝ) : EReal)) (num ((1 : ℝ) : EReal)) : Fl binary64) v ∧ 0 ≤ v := by
  refine C111_fermi_momentum_above _ _ 1 (2 ^ (-1 : ℤ)) (2 ^ (-2 : ℤ)) rfl rfl ⟨1, 0, by norm_num, by norm_num, by norm_num, by simp⟩
    ⟨1, -1, by norm_num, by norm_num, by norm_num, by simp⟩ (by norm_num [abs_of_pos]) ?_
  have := C111_binary64_fixed (2 ^ (-2 : ℤ)) ⟨1, -2, by norm_num, by norm_num, by norm_num, by simp⟩
  rw [← this]; congr 1; norm_num

/-- Non-vacuity: an infinite energy. -/
example : ∃ v : EReal, IsE (F.fermi_distribution (num ⊤) (num (2 : ℝ)) (num (1 : ℝ)) : Fl binary64) v ∧ 0 ≤ v ∧ v ≤ 1 :=
  C111_fermi_range _ _ _ ⊤ 2 1 rfl rfl rfl (by norm_num)

/-- Non-vacuity: two energies. -/
example : ∃ v v' : EReal, IsE (F.bose_distribution_zero_chempot (num (1 : ℝ)) (num (2 : ℝ)) : Fl binary64) v ∧
    IsE (F.bose_distribution_zero_chempot (num (3 : ℝ)) (num (2 : ℝ)) : Fl binary64) v' ∧ 0 ≤ v' ∧ v' ≤ v :=
  C111_bose_zero_chempot _ _ _ _ _ _ rfl rfl rfl (by norm_num) (by exact_mod_cast (by norm_num : (1 : ℝ) ≤ 3))
    (by exact_mod_cast (by norm_num : (0 : ℝ) ≤ 1))

end Qcd
