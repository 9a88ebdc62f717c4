import Mathlib.Data.EReal.Operations
import Mathlib.Tactic.Linarith
import Mathlib.Tactic.Positivity
import Mathlib.Tactic.FieldSimp
import Verif.Model.Floats

/-! # Lemmas on the operations of floating-point numbers -/

namespace Qcd.Fl
variable {r : Rounding}

@[simp] theorem value_nan : (nan : Fl r).value = none := rfl
@[simp] theorem value_nz : (nz : Fl r).value = some 0 := rfl
@[simp] theorem value_num (x : EReal) : (num x : Fl r).value = some x := rfl
@[simp] theorem val_nz : (nz : Fl r).val = 0 := rfl
@[simp] theorem val_num (x : EReal) : (num x : Fl r).val = x := rfl

theorem val_of {a : Fl r} {x : EReal} (h : a.value = some x) : a.val = x := by simp [val, h]

theorem value_round (s : Bool) (x : ℝ) : (round r s x).value = some (r.rnd x) := by
  unfold round; split_ifs with h
  · simp [h.1]
  · simp

theorem add_def (a b : Fl r) : a + b = add a b := rfl
theorem sub_def (a b : Fl r) : a - b = add a (neg b) := rfl
theorem mul_def (a b : Fl r) : a * b = mul a b := rfl
theorem neg_def (a : Fl r) : -a = neg a := rfl
theorem inv_def (a : Fl r) : a⁻¹ = div (num 1) a := rfl

theorem value_neg {a : Fl r} {x : EReal} (h : a.value = some x) : (neg a).value = some (-x) := by
  cases a with
  | nan => simp at h
  | nz => simp at h; subst h; simp [neg]
  | num y =>
    simp at h; subst h
    simp only [neg]; split_ifs with h
    · simp [h]
    · simp

theorem value_add {a b : Fl r} {x y : ℝ} (ha : a.value = some (x : EReal)) (hb : b.value = some (y : EReal)) :
    (add a b).value = some (r.rnd (x + y)) := by
  unfold add
  simp only [ha, hb, val_of ha, val_of hb, EReal.toReal_coe]
  simp [value_round]

theorem value_add_top {a b : Fl r} {x : ℝ} (ha : a.value = some ⊤) (hb : b.value = some (x : EReal)) :
    (add a b).value = some ⊤ := by
  unfold add
  simp [ha, hb, val_of ha, val_of hb]

theorem value_add_top' {a b : Fl r} {x : EReal} (ha : a.value = some ⊤) (hb : b.value = some x) (hx : x ≠ ⊥) :
    (add a b).value = some ⊤ := by
  unfold add
  simp [ha, hb, val_of ha, val_of hb, hx]

theorem value_add_top'' {a b : Fl r} {x : EReal} (ha : a.value = some x) (hb : b.value = some ⊤) (hx : x ≠ ⊥) :
    (add a b).value = some ⊤ := by
  unfold add
  simp [ha, hb, val_of ha, val_of hb, hx]

theorem value_mul {a b : Fl r} {x y : ℝ} (ha : a.value = some (x : EReal)) (hb : b.value = some (y : EReal)) :
    (mul a b).value = some (r.rnd (x * y)) := by
  unfold mul
  simp only [ha, hb, val_of ha, val_of hb, EReal.toReal_coe]
  simp [value_round]

theorem isNeg_of_ne {a : Fl r} {x : EReal} (h : a.value = some x) (hx : x ≠ 0) : a.isNeg = true ↔ x < 0 := by
  cases a with
  | nan => simp at h
  | nz => simp at h; exact absurd h.symm hx
  | num y => simp at h; subst h; simp [isNeg]

theorem isNeg_pos {a : Fl r} {x : EReal} (h : a.value = some x) (hx : 0 < x) : a.isNeg = false := by
  have := isNeg_of_ne h hx.ne'
  rw [Bool.eq_false_iff]; intro h'; exact absurd (this.1 h') (not_lt.2 hx.le)

theorem isNeg_neg {a : Fl r} {x : EReal} (h : a.value = some x) (hx : x < 0) : a.isNeg = true :=
  (isNeg_of_ne h hx.ne).2 hx

theorem value_mul_top {a b : Fl r} {y : ℝ} (ha : a.value = some ⊤) (hb : b.value = some (y : EReal)) (hy : 0 < y) :
    (mul a b).value = some ⊤ := by
  unfold mul
  have h1 : a.isNeg = false := isNeg_pos ha (by simp)
  have h2 : b.isNeg = false := isNeg_pos hb (by exact_mod_cast hy)
  have h3 : (y : EReal) ≠ 0 := by exact_mod_cast hy.ne'
  simp [ha, hb, val_of ha, val_of hb, h1, h2, h3]

theorem value_mul_bot {a b : Fl r} {y : ℝ} (ha : a.value = some ⊥) (hb : b.value = some (y : EReal)) (hy : 0 < y) :
    (mul a b).value = some ⊥ := by
  unfold mul
  have h1 : a.isNeg = true := isNeg_neg ha (by simp)
  have h2 : b.isNeg = false := isNeg_pos hb (by exact_mod_cast hy)
  have h3 : (y : EReal) ≠ 0 := by exact_mod_cast hy.ne'
  simp [ha, hb, val_of ha, val_of hb, h1, h2, h3]

theorem value_mul_inf {a b : Fl r} {x : EReal} {y : ℝ} (ha : a.value = some x) (hx : x = ⊤ ∨ x = ⊥)
    (hb : b.value = some (y : EReal)) (hy : y ≠ 0) : ∃ z, (mul a b).value = some z := by
  unfold mul
  have h3 : (y : EReal) ≠ 0 := by exact_mod_cast hy
  rcases hx with rfl | rfl <;> simp [ha, hb, val_of ha, val_of hb, h3]

/-- The exponential, with its limits at the infinities. -/
noncomputable def expE (r : Rounding) (x : EReal) : EReal := open Classical in
  if x = ⊤ then ⊤ else if x = ⊥ then 0 else r.exp x.toReal

theorem value_exp {a : Fl r} {x : EReal} (ha : a.value = some x) : (exp a).value = some (expE r x) := by
  unfold exp expE
  rw [val_of ha]; split_ifs <;> simp_all

theorem expE_nonneg (x : EReal) : 0 ≤ expE r x := by
  unfold expE; split_ifs
  · simp
  · simp
  · exact r.exp_nonneg _

theorem expE_mono : Monotone (expE r) := by
  intro x y h
  induction y using EReal.rec with
  | bot => simp at h; subst h; exact le_refl _
  | top => simp [expE]
  | coe y =>
    induction x using EReal.rec with
    | bot => simp only [expE]; simp; exact r.exp_nonneg _
    | top => simp at h
    | coe x => simp only [expE]; simp; exact r.exp_mono (by exact_mod_cast h)

/-- The reciprocal of `x + 1` for `0 ≤ x`, rounded twice. -/
noncomputable def addInv (r : Rounding) (x : EReal) : EReal := open Classical in
  if x = ⊤ then 0 else if r.rnd (x.toReal + 1) = ⊤ then 0 else r.rnd (1 / (r.rnd (x.toReal + 1)).toReal)

theorem one_le_rnd {x : ℝ} (hx : 0 ≤ x) : 1 ≤ r.rnd (x + 1) := by
  rw [← r.one]; exact r.mono (by linarith)

theorem value_div_one_top {a : Fl r} (ha : a.value = some ⊤) : (div (num 1) a).value = some 0 := by
  unfold div
  have h1 : a.isNeg = false := isNeg_pos ha (by simp)
  have h2 : (num 1 : Fl r).isNeg = false := isNeg_pos (value_num 1) (by simp)
  have h3 : (1 : EReal) ≠ ⊤ := by exact_mod_cast EReal.coe_ne_top 1
  have h4 : (1 : EReal) ≠ ⊥ := by exact_mod_cast EReal.coe_ne_bot 1
  simp [ha, val_of ha, h1, h2, h3, h4]

theorem value_div_one {a : Fl r} {x : ℝ} (ha : a.value = some (x : EReal)) (hx : x ≠ 0) :
    (div (num 1) a).value = some (r.rnd (1 / x)) := by
  unfold div
  have h3 : (1 : EReal) ≠ ⊤ := by exact_mod_cast EReal.coe_ne_top 1
  have h4 : (1 : EReal) ≠ ⊥ := by exact_mod_cast EReal.coe_ne_bot 1
  have h5 : (x : EReal) ≠ 0 := by exact_mod_cast hx
  simp [ha, val_of ha, h3, h4, h5, value_round]

theorem value_one : (num 1 : Fl r).value = some ((1 : ℝ) : EReal) := by simp

theorem one_ne_bot : (1 : EReal) ≠ ⊥ := by exact_mod_cast EReal.coe_ne_bot 1
theorem one_ne_top : (1 : EReal) ≠ ⊤ := by exact_mod_cast EReal.coe_ne_top 1

theorem real_of_one_le {x : EReal} (h : 1 ≤ x) (h' : x ≠ ⊤) : ∃ y : ℝ, x = (y : EReal) ∧ 1 ≤ y := by
  induction x using EReal.rec with
  | bot => simp at h; exact absurd h one_ne_bot
  | top => simp at h'
  | coe x => exact ⟨x, rfl, by exact_mod_cast h⟩

theorem real_of_nonneg {x : EReal} (h : 0 ≤ x) (h' : x ≠ ⊤) : ∃ y : ℝ, x = (y : EReal) ∧ 0 ≤ y := by
  induction x using EReal.rec with
  | bot => simp at h
  | top => simp at h'
  | coe x => exact ⟨x, rfl, by exact_mod_cast h⟩

theorem value_addInv {a : Fl r} {x : EReal} (ha : a.value = some x) (hx : 0 ≤ x) :
    (div (num 1) (add a (num 1))).value = some (addInv r x) := by
  by_cases ht : x = ⊤
  · subst ht
    rw [value_div_one_top (value_add_top ha value_one)]; simp [addInv]
  · obtain ⟨y, rfl, hy⟩ := real_of_nonneg hx ht
    have h1 := value_add (r := r) ha value_one
    have hge := one_le_rnd (r := r) hy
    by_cases hr : r.rnd (y + 1) = ⊤
    · rw [hr] at h1
      rw [value_div_one_top h1]; simp [addInv, hr]
    · obtain ⟨z, hz, hz1⟩ := real_of_one_le hge hr
      rw [hz] at h1
      rw [value_div_one h1 (by linarith)]; simp [addInv, hz]

theorem addInv_range {x : EReal} (hx : 0 ≤ x) : 0 ≤ addInv r x ∧ addInv r x ≤ 1 := by
  unfold addInv
  split_ifs with h h'
  · simp
  · simp
  · obtain ⟨y, rfl, hy⟩ := real_of_nonneg hx h
    rw [EReal.toReal_coe] at h' ⊢
    obtain ⟨z, hz, hz1⟩ := real_of_one_le (one_le_rnd hy) h'
    rw [hz, EReal.toReal_coe]
    constructor
    · rw [← r.zero]; exact r.mono (by positivity)
    · rw [← r.one]; exact r.mono (by rw [div_le_one (by linarith)]; exact hz1)

theorem addInv_anti {x y : EReal} (hx : 0 ≤ x) (h : x ≤ y) : addInv r y ≤ addInv r x := by
  by_cases hy : y = ⊤
  · subst hy; simpa [addInv] using (addInv_range hx).1
  by_cases hy' : r.rnd (y.toReal + 1) = ⊤
  · have : addInv r y = 0 := by unfold addInv; rw [if_neg hy, if_pos hy']
    rw [this]; exact (addInv_range hx).1
  obtain ⟨b, rfl, hb⟩ := real_of_nonneg (hx.trans h) hy
  have hx' : x ≠ ⊤ := by rintro rfl; simp at h
  obtain ⟨a, rfl, ha⟩ := real_of_nonneg hx hx'
  rw [EReal.toReal_coe] at hy'
  have hab : a ≤ b := by exact_mod_cast h
  have hm : r.rnd (a + 1) ≤ r.rnd (b + 1) := r.mono (by linarith)
  obtain ⟨z, hz, hz1⟩ := real_of_one_le (one_le_rnd hb) hy'
  have ha' : r.rnd (a + 1) ≠ ⊤ := by intro e; rw [e, hz] at hm; simp at hm
  obtain ⟨w, hw, hw1⟩ := real_of_one_le (one_le_rnd ha) ha'
  rw [hz, hw] at hm
  have hwz : w ≤ z := by exact_mod_cast hm
  unfold addInv
  rw [if_neg (by simp), if_neg (by simpa using hy'), if_neg (by simp), if_neg (by simpa using ha')]
  simp only [EReal.toReal_coe, hz, hw]
  exact r.mono (one_div_le_one_div_of_le (by linarith) hwz)

/-- The product with a positive number, with its limits. -/
noncomputable def mulE (r : Rounding) (x : EReal) (b : ℝ) : EReal := open Classical in
  if x = ⊤ then ⊤ else if x = ⊥ then ⊥ else r.rnd (x.toReal * b)

theorem value_mulE {a b : Fl r} {x : EReal} {y : ℝ} (ha : a.value = some x) (hb : b.value = some (y : EReal)) (hy : 0 < y) :
    (mul a b).value = some (mulE r x y) := by
  induction x using EReal.rec with
  | bot => rw [value_mul_bot ha hb hy]; simp [mulE]
  | top => rw [value_mul_top ha hb hy]; simp [mulE]
  | coe x => rw [value_mul ha hb]; simp [mulE]

theorem mulE_mono {b : ℝ} (hb : 0 < b) : Monotone (fun x => mulE r x b) := by
  intro x y h
  induction y using EReal.rec with
  | bot => simp at h; subst h; exact le_refl _
  | top => simp [mulE]
  | coe y =>
    induction x using EReal.rec with
    | bot => simp [mulE]
    | top => simp at h
    | coe x =>
      simp only [mulE]; simp
      exact r.mono (mul_le_mul_of_nonneg_right (by exact_mod_cast h) hb.le)

theorem value_mul_self {a : Fl r} {x : EReal} (ha : a.value = some x) :
    ∃ y, (mul a a).value = some y ∧ 0 ≤ y ∧ (mul a a).isNeg = false := by
  induction x using EReal.rec with
  | bot => refine ⟨⊤, ?_, by simp, ?_⟩ <;> unfold mul <;> simp [ha, val_of ha, isNeg]
  | top => refine ⟨⊤, ?_, by simp, ?_⟩ <;> unfold mul <;> simp [ha, val_of ha, isNeg]
  | coe x =>
    have h0 : 0 ≤ r.rnd (x * x) := by rw [← r.zero]; exact r.mono (mul_self_nonneg x)
    refine ⟨_, value_mul ha ha, h0, ?_⟩
    unfold mul; simp [ha, val_of ha, round, isNeg]; exact h0

/-- The square, with its limits. -/
noncomputable def sqE (r : Rounding) (x : EReal) : EReal := open Classical in
  if x = ⊤ ∨ x = ⊥ then ⊤ else r.rnd (x.toReal * x.toReal)

theorem mul_self_eq {a : Fl r} {x : EReal} (ha : a.value = some x) : mul a a = num (sqE r x) := by
  induction x using EReal.rec with
  | bot => unfold mul; simp [ha, val_of ha, sqE]
  | top => unfold mul; simp [ha, val_of ha, sqE]
  | coe x => unfold mul; simp [ha, val_of ha, sqE, round]

theorem sqE_nonneg (x : EReal) : 0 ≤ sqE r x := by
  unfold sqE; split_ifs
  · simp
  · rw [← r.zero]; exact r.mono (mul_self_nonneg _)

theorem sqE_neg (x : EReal) : sqE r (-x) = sqE r x := by
  induction x using EReal.rec with
  | bot => simp [sqE]
  | top => simp [sqE]
  | coe x => rw [← EReal.coe_neg]; simp [sqE]

theorem sqE_mono {x y : EReal} (hx : 0 ≤ x) (h : x ≤ y) : sqE r x ≤ sqE r y := by
  by_cases hy : y = ⊤
  · subst hy; simp [sqE]
  obtain ⟨b, rfl, hb⟩ := real_of_nonneg (hx.trans h) hy
  have hx' : x ≠ ⊤ := by rintro rfl; simp at h
  obtain ⟨a, rfl, ha⟩ := real_of_nonneg hx hx'
  have hab : a ≤ b := by exact_mod_cast h
  simp only [sqE]; simp
  exact r.mono (mul_self_le_mul_self ha hab)

/-- The sum of non-negative numbers, with its limits. -/
noncomputable def addE (r : Rounding) (x y : EReal) : EReal := open Classical in
  if x = ⊤ ∨ y = ⊤ then ⊤ else r.rnd (x.toReal + y.toReal)

theorem add_nonneg_eq {x y : EReal} (hx : 0 ≤ x) (hy : 0 ≤ y) : add (num x : Fl r) (num y) = num (addE r x y) := by
  have hxb : x ≠ ⊥ := by rintro rfl; simp at hx
  have hyb : y ≠ ⊥ := by rintro rfl; simp at hy
  unfold add addE
  by_cases h : x = ⊤ ∨ y = ⊤
  · simp [h, hxb, hyb]
  · have hn : ¬ (x.toReal + y.toReal < 0) := not_lt.2 (add_nonneg (EReal.toReal_nonneg hx) (EReal.toReal_nonneg hy))
    simp only [value_num, val_num, hxb, hyb, h, isNeg, not_lt.2 hx]
    simp [round, hn]

theorem addE_nonneg {x y : EReal} (hx : 0 ≤ x) (hy : 0 ≤ y) : 0 ≤ addE r x y := by
  unfold addE; split_ifs
  · simp
  · rw [← r.zero]; exact r.mono (add_nonneg (EReal.toReal_nonneg hx) (EReal.toReal_nonneg hy))

theorem addE_mono {x x' y y' : EReal} (hx : 0 ≤ x) (hy : 0 ≤ y) (h : x ≤ x') (h' : y ≤ y') : addE r x y ≤ addE r x' y' := by
  by_cases ht : x' = ⊤ ∨ y' = ⊤
  · simp [addE, ht]
  push Not at ht
  have h1 : x ≠ ⊤ := by rintro rfl; simp at h; exact ht.1 h
  have h2 : y ≠ ⊤ := by rintro rfl; simp at h'; exact ht.2 h'
  obtain ⟨a, rfl, _⟩ := real_of_nonneg hx h1
  obtain ⟨b, rfl, _⟩ := real_of_nonneg hy h2
  obtain ⟨c, rfl, _⟩ := real_of_nonneg (hx.trans h) ht.1
  obtain ⟨d, rfl, _⟩ := real_of_nonneg (hy.trans h') ht.2
  have e1 : a ≤ c := by exact_mod_cast h
  have e2 : b ≤ d := by exact_mod_cast h'
  simp only [addE]; simp
  exact r.mono (by linarith)

/-- The square root of a non-negative number, with its limit. -/
noncomputable def sqrtE (r : Rounding) (x : EReal) : EReal := open Classical in
  if x = ⊤ then ⊤ else r.rnd (Real.sqrt x.toReal)

theorem sqrt_nonneg_eq {x : EReal} (hx : 0 ≤ x) : sqrt (num x : Fl r) = num (sqrtE r x) := by
  unfold sqrt sqrtE
  simp only [not_lt.2 hx]
  by_cases h : x = ⊤ <;> simp [h, round]

theorem sqrtE_nonneg (x : EReal) : 0 ≤ sqrtE r x := by
  unfold sqrtE; split_ifs
  · simp
  · rw [← r.zero]; exact r.mono (Real.sqrt_nonneg _)

theorem sqrtE_mono {x y : EReal} (hx : 0 ≤ x) (h : x ≤ y) : sqrtE r x ≤ sqrtE r y := by
  by_cases hy : y = ⊤
  · subst hy; simp [sqrtE]
  obtain ⟨b, rfl, hb⟩ := real_of_nonneg (hx.trans h) hy
  have hx' : x ≠ ⊤ := by rintro rfl; simp at h
  obtain ⟨a, rfl, ha⟩ := real_of_nonneg hx hx'
  have hab : a ≤ b := by exact_mod_cast h
  simp only [sqrtE]; simp
  exact r.mono (Real.sqrt_le_sqrt hab)

theorem energy_eq {p m : Fl r} {x y : EReal} (hp : p.value = some x) (hm : m.value = some y) :
    F.energy p m = num (sqrtE r (addE r (sqE r y) (sqE r x))) := by
  change sqrt (add (mul m m) (mul p p)) = _
  rw [mul_self_eq hp, mul_self_eq hm, add_nonneg_eq (sqE_nonneg _) (sqE_nonneg _),
    sqrt_nonneg_eq (addE_nonneg (sqE_nonneg _) (sqE_nonneg _))]

/-- Subtracting one from a number at least one, and taking the reciprocal. -/
noncomputable def subInv (r : Rounding) (x : EReal) : EReal := open Classical in
  if x = ⊤ then 0 else if r.rnd (x.toReal - 1) = 0 then ⊤ else if r.rnd (x.toReal - 1) = ⊤ then 0
  else r.rnd (1 / (r.rnd (x.toReal - 1)).toReal)

theorem neg_one : neg (num 1 : Fl r) = num (((-1 : ℝ)) : EReal) := by
  unfold neg; simp

theorem subInv_eq {x : EReal} (hx : 1 ≤ x) : (div (num 1) (add (num x : Fl r) (neg (num 1)))).value = some (subInv r x) := by
  by_cases ht : x = ⊤
  · subst ht
    rw [value_div_one_top (value_add_top (x := -1) (by simp) (by rw [neg_one]; simp))]; simp [subInv]
  · obtain ⟨y, rfl, hy⟩ := real_of_one_le hx ht
    have h1 : (add (num (y : EReal) : Fl r) (neg (num 1))).value = some (r.rnd (y - 1)) := by
      rw [neg_one, value_add (x := y) (y := -1) (by simp) (by simp)]; rfl
    have h0 : 0 ≤ r.rnd (y - 1) := by rw [← r.zero]; exact r.mono (by linarith)
    by_cases hz : r.rnd (y - 1) = 0
    · have h2 : add (num (y : EReal) : Fl r) (neg (num 1)) = num 0 := by
        rw [neg_one]; unfold add
        have : ¬ (y + -1 < 0) := by linarith
        have hy0 : ¬ ((y : EReal) < 0) := not_lt.2 (by exact_mod_cast (by linarith : (0:ℝ) ≤ y))
        have hz' : r.rnd (y + -1) = 0 := hz
        have h5 : ¬ (y < 0 ∨ y < 1) := by push Not; constructor <;> linarith
        simp [isNeg, round, hz', one_ne_bot, one_ne_top, h5]
      rw [h2]
      have h3 : (1 : EReal) ≠ ⊤ := by exact_mod_cast EReal.coe_ne_top 1
      have h4 : (1 : EReal) ≠ ⊥ := by exact_mod_cast EReal.coe_ne_bot 1
      unfold div subInv
      simp [hz, isNeg]
    · by_cases hr : r.rnd (y - 1) = ⊤
      · rw [hr] at h1
        rw [value_div_one_top h1]; simp [subInv, hr]
      · obtain ⟨z, hz', _⟩ := real_of_nonneg h0 hr
        rw [hz'] at h1 hz
        rw [value_div_one h1 (by exact_mod_cast hz)]
        simp only [subInv, EReal.toReal_coe, hz']; simp
        intro h; exact absurd h (by exact_mod_cast hz)

theorem subInv_nonneg {x : EReal} (hx : 1 ≤ x) : 0 ≤ subInv r x := by
  unfold subInv
  split_ifs with h h' h''
  · simp
  · simp
  · simp
  · obtain ⟨y, rfl, hy⟩ := real_of_one_le hx h
    rw [← r.zero]; exact r.mono (by
      have : (0 : EReal) ≤ r.rnd (y - 1) := by rw [← r.zero]; exact r.mono (by linarith)
      have := EReal.toReal_nonneg this
      rw [EReal.toReal_coe]; positivity)

theorem subInv_anti {x y : EReal} (hx : 1 ≤ x) (h : x ≤ y) : subInv r y ≤ subInv r x := by
  by_cases hy : y = ⊤
  · subst hy; simpa [subInv] using subInv_nonneg hx
  have hx' : x ≠ ⊤ := by rintro rfl; simp at h; exact hy h
  obtain ⟨b, rfl, hb⟩ := real_of_one_le (hx.trans h) hy
  obtain ⟨a, rfl, ha⟩ := real_of_one_le hx hx'
  have hab : a ≤ b := by exact_mod_cast h
  have hm : r.rnd (a - 1) ≤ r.rnd (b - 1) := r.mono (by linarith)
  have h0 : 0 ≤ r.rnd (a - 1) := by rw [← r.zero]; exact r.mono (by linarith)
  by_cases hz : r.rnd (a - 1) = 0
  · have : subInv r (a : EReal) = ⊤ := by simp [subInv, hz]
    rw [this]; exact le_top
  by_cases ht : r.rnd (b - 1) = ⊤
  · have : subInv r (b : EReal) = 0 := by simp [subInv, ht]
    rw [this]; exact subInv_nonneg hx
  obtain ⟨d, hd, _⟩ := real_of_nonneg (h0.trans hm) ht
  have hta : r.rnd (a - 1) ≠ ⊤ := by intro e; rw [e, hd] at hm; simp at hm
  obtain ⟨c, hc, hc0⟩ := real_of_nonneg h0 hta
  rw [hc] at hz hm; rw [hd] at hm
  have hcd : c ≤ d := by exact_mod_cast hm
  have hc1 : 0 < c := lt_of_le_of_ne hc0 (fun e => hz (by rw [← e]; rfl))
  simp only [subInv, EReal.toReal_coe, hc, hd]
  have e1 : (c : EReal) ≠ 0 := by exact_mod_cast hc1.ne'
  have e2 : (d : EReal) ≠ 0 := by exact_mod_cast (hc1.trans_le hcd).ne'
  simp only [e1, e2, EReal.coe_ne_top, if_false]
  exact r.mono (one_div_le_one_div_of_le hc1 hcd)

theorem exp_eq {a : Fl r} {x : EReal} (ha : a.value = some x) : exp a = num (expE r x) := by
  unfold exp expE
  rw [val_of ha]; simp only [ha]
  split_ifs <;> simp_all

theorem one_le_expE {x : EReal} (hx : 0 ≤ x) : 1 ≤ expE r x := by
  have h := expE_mono (r := r) hx
  have h0 : expE r 0 = 1 := by simp [expE, r.exp_zero]
  rwa [h0] at h

/-- The difference with a finite number, with its limits. -/
noncomputable def subE (r : Rounding) (x : EReal) (y : ℝ) : EReal := open Classical in
  if x = ⊤ then ⊤ else if x = ⊥ then ⊥ else r.rnd (x.toReal - y)

theorem value_sub {a b : Fl r} {x : EReal} {y : ℝ} (ha : a.value = some x) (hb : b.value = some (y : EReal)) :
    (add a (neg b)).value = some (subE r x y) := by
  have hn : (neg b).value = some ((-y : ℝ) : EReal) := value_neg hb
  induction x using EReal.rec with
  | bot => unfold add; simp [ha, hn, val_of ha, val_of hn, subE, ← EReal.coe_neg]
  | top => rw [value_add_top ha hn]; simp [subE]
  | coe x => rw [value_add ha hn]; simp [subE, sub_eq_add_neg]

theorem subE_mono {x x' : EReal} {y y' : ℝ} (h : x ≤ x') (h' : y' ≤ y) : subE r x y ≤ subE r x' y' := by
  induction x' using EReal.rec with
  | bot => simp at h; subst h; simp [subE]
  | top => simp [subE]
  | coe x' =>
    induction x using EReal.rec with
    | bot => simp [subE]
    | top => simp at h
    | coe x =>
      have : x ≤ x' := by exact_mod_cast h
      simp only [subE]; simp
      exact r.mono (by linarith)

theorem subE_nonneg {x : EReal} {y : ℝ} (h : (y : EReal) ≤ x) : 0 ≤ subE r x y := by
  have := subE_mono (r := r) h (le_refl y)
  have h0 : subE r (y : EReal) y = 0 := by simp [subE, r.zero]
  rwa [h0] at this

theorem mulE_nonneg {x : EReal} {b : ℝ} (hx : 0 ≤ x) (hb : 0 < b) : 0 ≤ mulE r x b := by
  have := mulE_mono (r := r) hb hx
  have h0 : mulE r 0 b = 0 := by simp [mulE, r.zero]
  simpa [h0] using this

theorem neg_neg' (a : Fl r) : neg (neg a) = a := by
  cases a with
  | nan => rfl
  | nz => simp [neg]
  | num x =>
    by_cases h : x = 0
    · subst h; simp [neg]
    · simp [neg, h]

theorem add_comm' (a b : Fl r) : add a b = add b a := by
  unfold add
  rw [add_comm a.val.toReal, Bool.and_comm a.isNeg]
  congr 1
  · rw [or_comm]
  · congr 1
    · rw [or_comm]; congr 1 <;> rw [and_comm]
    · congr 1
      · rw [or_comm]
      · congr 1; rw [or_comm]

theorem fermi_value {en beta mu : Fl r} {x : EReal} {b y : ℝ} (he : en.value = some x) (hb : beta.value = some (b : EReal))
    (hm : mu.value = some (y : EReal)) (hb0 : 0 < b) :
    (F.fermi_distribution en beta mu).value = some (addInv r (expE r (mulE r (subE r x y) b))) :=
  value_addInv (value_exp (value_mulE (value_sub he hm) hb hb0)) (expE_nonneg _)

theorem fermi_zero_value {en beta : Fl r} {x : EReal} {b : ℝ} (he : en.value = some x) (hb : beta.value = some (b : EReal))
    (hb0 : 0 < b) :
    (F.fermi_distribution_zero_chempot en beta).value = some (addInv r (expE r (mulE r x b))) :=
  value_addInv (value_exp (value_mulE he hb hb0)) (expE_nonneg _)

theorem bose_value {en beta mu : Fl r} {x : EReal} {b y : ℝ} (he : en.value = some x) (hb : beta.value = some (b : EReal))
    (hm : mu.value = some (y : EReal)) (hb0 : 0 < b) (h : (y : EReal) ≤ x) :
    (F.bose_distribution en beta mu).value = some (subInv r (expE r (mulE r (subE r x y) b))) := by
  have e : F.bose_distribution en beta mu = div (num 1) (add (exp (mul (add en (neg mu)) beta)) (neg (num 1))) := rfl
  rw [e, exp_eq (value_mulE (value_sub he hm) hb hb0)]
  exact subInv_eq (one_le_expE (mulE_nonneg (subE_nonneg h) hb0))

theorem bose_zero_value {en beta : Fl r} {x : EReal} {b : ℝ} (he : en.value = some x) (hb : beta.value = some (b : EReal))
    (hb0 : 0 < b) (h : 0 ≤ x) :
    (F.bose_distribution_zero_chempot en beta).value = some (subInv r (expE r (mulE r x b))) := by
  have e : F.bose_distribution_zero_chempot en beta = div (num 1) (add (exp (mul en beta)) (neg (num 1))) := rfl
  rw [e, exp_eq (value_mulE he hb hb0)]
  exact subInv_eq (one_le_expE (mulE_nonneg h hb0))

theorem double_value {en beta mu : Fl r} {x : EReal} {b y : ℝ} (he : en.value = some x) (hb : beta.value = some (b : EReal))
    (hm : mu.value = some (y : EReal)) (hb0 : 0 < b) :
    (F.fermi_distribution_double en beta mu).value = some (r.rnd ((addInv r (expE r (mulE r (subE r x y) b))).toReal
      + (addInv r (expE r (mulE r (subE r x (-y)) b))).toReal)) := by
  have h1 := fermi_value he hb hm hb0
  have hn : (neg mu).value = some ((-y : ℝ) : EReal) := value_neg hm
  have h2 := fermi_value he hb hn hb0
  have g : ∀ z : EReal, 0 ≤ z → ∃ w : ℝ, addInv r z = (w : EReal) := fun z hz => by
    obtain ⟨h, h'⟩ := addInv_range (r := r) hz
    obtain ⟨w, hw, _⟩ := real_of_nonneg h (by intro e; rw [e] at h'; simp at h'; exact one_ne_top h')
    exact ⟨w, hw⟩
  obtain ⟨w1, e1⟩ := g _ (expE_nonneg (mulE r (subE r x y) b))
  obtain ⟨w2, e2⟩ := g _ (expE_nonneg (mulE r (subE r x (-y)) b))
  rw [e1] at h1 ⊢; rw [e2] at h2 ⊢
  exact value_add h1 h2

end Qcd.Fl
