import Verif.Lemmas.ComplexVacuumAccuracy
import Verif.Lemmas.FloatDensity

/-! # Lemmas: the complex operations at conjugate arguments in floating-point arithmetic

The value of a result depends on the values of the operands only, not on the signs of zeros, but for the quotient by zero and the functions with a cut. -/

namespace Qcd
open Fl Spec

namespace Fl
variable {a a' b b' : Fl binary64}

theorem val_congr (h : a.value = a'.value) : a.val = a'.val := by simp [val, h]

theorem isNeg_congr (h : a.value = a'.value) (h0 : a.val ≠ 0) : a.isNeg = a'.isNeg := by
  cases a <;> cases a' <;> simp_all [val, isNeg]

theorem eq_of_value (h : a.value = a'.value) (h0 : a.val ≠ 0) : a = a' := by
  cases a <;> cases a' <;> simp_all [val]

theorem neg_congr (h : a.value = a'.value) : (neg a).value = (neg a').value := by
  rcases e : a.value with _ | x
  · rw [neg_value_none.2 e, neg_value_none.2 (h ▸ e)]
  · rw [value_neg e, value_neg (h ▸ e)]

theorem neg_neg_value : (neg (neg a)).value = a.value := by
  rcases e : a.value with _ | x
  · rw [neg_value_none.2 (neg_value_none.2 e)]
  · rw [value_neg (value_neg e), neg_neg]

theorem add_congr (h : a.value = a'.value) (k : b.value = b'.value) : (a + b).value = (a' + b').value := by
  change (add a b).value = (add a' b').value
  unfold add
  rw [h, k, val_congr h, val_congr k]
  split_ifs <;> simp [value_round]

theorem sub_congr (h : a.value = a'.value) (k : b.value = b'.value) : (a - b).value = (a' - b').value :=
  add_congr h (neg_congr k)

theorem mul_congr (h : a.value = a'.value) (k : b.value = b'.value) : (a * b).value = (a' * b').value := by
  change (mul a b).value = (mul a' b').value
  by_cases ha : a.val = 0
  · have ha' : a'.val = 0 := val_congr h ▸ ha
    unfold mul
    rw [h, k, val_congr k, ha, ha']
    split_ifs with h1 h2 h3 <;> simp [value_round]
    all_goals
      simp at h2 h3
      exact absurd h3 (by tauto)
  · by_cases hb : b.val = 0
    · have hb' : b'.val = 0 := val_congr k ▸ hb
      unfold mul
      rw [h, k, val_congr h, hb, hb']
      split_ifs with h1 h2 h3 <;> simp [value_round]
      all_goals
        simp at h2 h3
        exact absurd h3 (by tauto)
    · unfold mul
      rw [h, k, val_congr h, val_congr k, isNeg_congr h ha, isNeg_congr k hb]

theorem div_congr (h : a.value = a'.value) : (a / b).value = (a' / b).value := by
  change (div a b).value = (div a' b).value
  by_cases ha : a.val = 0
  · have ha' : a'.val = 0 := val_congr h ▸ ha
    unfold div
    rw [h, ha, ha']
    split_ifs with h1 h2 h3 <;> simp_all [value_round]
  · unfold div
    rw [h, val_congr h, isNeg_congr h ha]

/-- Squares do not depend on signs. -/
theorem sq_congr (h : a.value = a'.value) : a * a = a' * a' := by
  by_cases ha : a.val = 0
  · have ha' : a'.val = 0 := val_congr h ▸ ha
    change mul a a = mul a' a'
    unfold mul
    rw [h, ha, ha']
    split_ifs <;> simp_all
  · change mul a a = mul a' a'
    unfold mul
    rw [h, val_congr h, isNeg_congr h ha]

theorem neg_neg_eq : neg (neg a) = a := by
  cases a with
  | nan => rfl
  | nz => simp [neg]
  | num x => by_cases h : x = 0 <;> simp [neg, h]

theorem sq_neg (h : a'.value = (neg a).value) : a' * a' = a * a := by
  rw [sq_congr h, neg_mul', mul_neg', neg_neg_eq]

theorem neg_add_value : (neg a + neg b).value = (neg (a + b)).value := by
  change (add (neg a) (neg b)).value = (neg (add a b)).value
  by_cases h : a.value = none ∨ b.value = none
  · have h' : (neg a).value = none ∨ (neg b).value = none := by rwa [neg_value_none, neg_value_none]
    rw [add, if_pos h', add, if_pos h]; rfl
  · have h' : ¬ ((neg a).value = none ∨ (neg b).value = none) := by rwa [neg_value_none, neg_value_none]
    have t : ∀ x : EReal, (-x = ⊤) = (x = ⊥) := fun x => by rw [EReal.neg_eq_top_iff]
    have t' : ∀ x : EReal, (-x = ⊥) = (x = ⊤) := fun x => by rw [EReal.neg_eq_bot_iff]
    have hT : neg (num ⊤ : Fl binary64) = num ⊥ := by simp [neg]
    have hB : neg (num ⊥ : Fl binary64) = num ⊤ := by simp [neg]
    have hN : neg (nan : Fl binary64) = nan := rfl
    rw [add, if_neg h', add, if_neg h]
    simp only [neg_val, t, t', toReal_neg_eq]
    by_cases c1 : a.val = ⊤ <;> by_cases c2 : a.val = ⊥ <;> by_cases c3 : b.val = ⊤ <;> by_cases c4 : b.val = ⊥ <;>
      simp_all
    rw [value_round, value_neg (value_round _ _), ← neg_add_rev, add_comm b.val.toReal]
    exact congrArg some (round64_neg _)

end Fl

/-- The parts of `b` are those of the conjugate of `a`, up to the signs of zeros. -/
structure CMirror (a b : CFl binary64) : Prop where
  re : b.re.value = a.re.value
  im : b.im.value = (neg a.im).value

namespace CMirror
variable {a a' b b' : CFl binary64} {x : Fl binary64}

theorem add (h : CMirror a a') (k : CMirror b b') : CMirror (a + b) (a' + b') :=
  ⟨add_congr h.re k.re, (add_congr h.im k.im).trans neg_add_value⟩

theorem neg (h : CMirror a a') : CMirror (-a) (-a') := ⟨neg_congr h.re, neg_congr h.im⟩

theorem sub (h : CMirror a a') (k : CMirror b b') : CMirror (a - b) (a' - b') :=
  ⟨sub_congr h.re k.re, (add_congr h.im (neg_congr k.im)).trans neg_add_value⟩

theorem addR (h : CMirror a a') : CMirror (a + x) (a' + x) := ⟨add_congr h.re rfl, h.im⟩
theorem subR (h : CMirror a a') : CMirror (a - x) (a' - x) := ⟨sub_congr h.re rfl, h.im⟩
theorem mulR (h : CMirror a a') : CMirror (a * x) (a' * x) :=
  ⟨mul_congr h.re rfl, (mul_congr h.im rfl).trans (congrArg value neg_mul')⟩
theorem divR (h : CMirror a a') : CMirror (a / x) (a' / x) := ⟨div_congr h.re, (div_congr h.im).trans (congrArg value neg_div')⟩

theorem mul (h : CMirror a a') (k : CMirror b b') : CMirror (a * b) (a' * b') := by
  refine ⟨sub_congr (mul_congr h.re k.re) ((mul_congr h.im k.im).trans ?_), ?_⟩
  · rw [neg_mul', mul_neg', neg_neg_eq]
  · refine (add_congr ((mul_congr h.re k.im).trans ?_) ((mul_congr h.im k.re).trans ?_)).trans neg_add_value
    · rw [mul_neg']
    · rw [neg_mul']

theorem norm (h : CMirror a a') : a'.re * a'.re + a'.im * a'.im = a.re * a.re + a.im * a.im := by rw [sq_congr h.re, sq_neg h.im]

theorem inv (h : CMirror a a') : CMirror a⁻¹ a'⁻¹ := by
  refine ⟨?_, ?_⟩
  · change (Fl.num 1 * a'.re / (a'.re * a'.re + a'.im * a'.im)).value = _
    rw [h.norm]
    exact div_congr (mul_congr rfl h.re)
  · change (Fl.num 0 - Fl.num 1 * a'.im / (a'.re * a'.re + a'.im * a'.im)).value = _
    rw [h.norm]
    have e : (Fl.num 1 * a'.im / (a.re * a.re + a.im * a.im)).value = (Fl.neg (Fl.num 1 * a.im / (a.re * a.re + a.im * a.im))).value := by
      refine (div_congr ((mul_congr rfl h.im).trans (congrArg value mul_neg'))).trans ?_
      rw [neg_div']
    refine (add_congr (a' := Fl.neg (Fl.num 0)) (by simp [Fl.neg]) (neg_congr e)).trans neg_add_value

theorem div (h : CMirror a a') (k : CMirror b b') : CMirror (a / b) (a' / b') := by
  refine ⟨?_, ?_⟩
  · change ((a'.re * b'.re + a'.im * b'.im) / (b'.re * b'.re + b'.im * b'.im)).value = _
    rw [k.norm]
    refine div_congr (add_congr (mul_congr h.re k.re) ((mul_congr h.im k.im).trans ?_))
    rw [neg_mul', mul_neg', neg_neg_eq]
  · change ((a'.im * b'.re - a'.re * b'.im) / (b'.re * b'.re + b'.im * b'.im)).value = _
    rw [k.norm]
    refine (div_congr ?_).trans (congrArg value neg_div')
    refine (add_congr ((mul_congr h.im k.re).trans (congrArg value neg_mul')) (neg_congr ((mul_congr h.re k.im).trans (congrArg value mul_neg')))).trans
      neg_add_value

theorem is (h : CMirror a a') {w : ℂ} (h1 : Is a.re w.re) (h2 : Is a.im w.im) : Is a'.re ((starRingEnd ℂ) w).re ∧ Is a'.im ((starRingEnd ℂ) w).im := by
  refine ⟨h.re.trans h1, h.im.trans ?_⟩
  rw [value_neg h2, Complex.conj_im]
  rfl

theorem hypot (h : CMirror a a') {w : ℂ} (h1 : Is a.re w.re) (h2 : Is a.im w.im) : Fl.hypot a'.re a'.im = Fl.hypot a.re a.im := by
  obtain ⟨k1, k2⟩ := h.is h1 h2
  unfold Fl.hypot
  simp only [show a.re.value = some (w.re : EReal) from h1, show a.im.value = some (w.im : EReal) from h2, val_of h1, val_of h2,
    show a'.re.value = some (_ : EReal) from k1, show a'.im.value = some (_ : EReal) from k2, val_of k1, val_of k2]
  simp

theorem atan2 (h : CMirror a a') {w : ℂ} (h1 : Is a.re w.re) (h2 : Is a.im w.im) (hw : w ∈ Complex.slitPlane) :
    (Fl.atan2 a'.im a'.re).value = (Fl.neg (Fl.atan2 a.im a.re)).value := by
  obtain ⟨k1, k2⟩ := h.is h1 h2
  have hw' : (starRingEnd ℂ) w ∈ Complex.slitPlane := by
    rw [Complex.mem_slitPlane_iff] at hw ⊢
    simpa using hw
  have e1 := CTrack.atan2_value h1 h2 hw
  have e2 := CTrack.atan2_value k1 k2 hw'
  rw [value_neg e1]
  refine e2.trans (congrArg some ?_)
  rw [Complex.arg_conj, if_neg (Complex.mem_slitPlane_iff_arg.1 hw).1]
  exact round64_neg _

theorem ln (h : CMirror a a') (hs : Slit a) : CMirror (CFl.ln a) (CFl.ln a') := by
  obtain ⟨w, h1, h2, hw⟩ := hs
  refine ⟨?_, h.atan2 h1 h2 hw⟩
  change (NumOps.ln (Fl.hypot a'.re a'.im)).value = (NumOps.ln (Fl.hypot a.re a.im)).value
  rw [h.hypot h1 h2]

theorem cos {t t' : Fl binary64} {x : ℝ} (h : Is t x) (h' : Is t' (-x)) : (Fl.cos t').value = (Fl.cos t).value := by
  have e : ∀ {t : Fl binary64} {x : ℝ}, Is t x → (Fl.cos t).value = some (binary64.rnd (Real.cos x)) := by
    intro t x h
    unfold Fl.cos
    simp only [show t.value = some (x : EReal) from h, val_of h]
    simp [value_round]
  rw [e h', e h, Real.cos_neg]

theorem sin {t t' : Fl binary64} {x : ℝ} (h : Is t x) (h' : Is t' (-x)) : (Fl.sin t').value = (Fl.neg (Fl.sin t)).value := by
  have e : ∀ {t : Fl binary64} {x : ℝ}, Is t x → (Fl.sin t).value = some (binary64.rnd (Real.sin x)) := by
    intro t x h
    unfold Fl.sin
    simp only [show t.value = some (x : EReal) from h, val_of h]
    simp [value_round]
  rw [e h', value_neg (e h), Real.sin_neg]
  exact congrArg some (round64_neg _)

theorem sqrt (h : CMirror a a') (hs : Slit a) : CMirror (CFl.sqrt a) (CFl.sqrt a') := by
  obtain ⟨w, h1, h2, hw⟩ := hs
  obtain ⟨k1, k2⟩ := h.is h1 h2
  have v1 : a.re.value = some (w.re : EReal) := h1
  have v2 : a.im.value = some (w.im : EReal) := h2
  have v1' : a'.re.value = some (w.re : EReal) := k1
  have v2' : a'.im.value = some ((-w.im : ℝ) : EReal) := k2
  by_cases c1 : w.im = 0
  · have hre : 0 < w.re := by
      rcases Complex.mem_slitPlane_iff.1 hw with h | h
      · exact h
      · exact absurd c1 h
    have e : a'.re = a.re := eq_of_value h.re (by rw [val_of v1']; exact_mod_cast hre.ne')
    have e1 : CFl.sqrt a = ⟨NumOps.sqrt a.re, a.im⟩ := by
      unfold CFl.sqrt
      rw [if_pos (by rw [v2, c1]; rfl), if_neg (by rw [CTrack.isNeg_pos h1 hre]; simp)]
    have e2 : CFl.sqrt a' = ⟨NumOps.sqrt a'.re, a'.im⟩ := by
      unfold CFl.sqrt
      rw [if_pos (by rw [v2', c1]; simp), if_neg (by rw [e, CTrack.isNeg_pos h1 hre]; simp)]
    rw [e1, e2, e]
    exact ⟨rfl, h.im⟩
  · have hne : ((-w.im : ℝ) : EReal) ≠ 0 := by exact_mod_cast neg_ne_zero.2 c1
    have hne' : (w.im : EReal) ≠ 0 := by exact_mod_cast c1
    have e : a'.im = Fl.neg a.im := eq_of_value h.im (by rw [val_of v2']; exact hne)
    have n1 : a.im.value ≠ some 0 := by rw [v2]; simpa using hne'
    have n2 : a'.im.value ≠ some 0 := by rw [v2']; simpa using hne
    by_cases c2 : w.re = 0
    · have hsg : a'.im.isNeg = !a.im.isNeg := by rw [e, neg_isNeg (by rw [v2]; simp)]
      have ha : Fl.abs a'.im = Fl.abs a.im := by
        unfold Fl.abs
        rw [hsg, e, neg_neg_eq]
        cases a.im.isNeg <;> simp
      have z1 : a.re.value = some 0 := by rw [v1, c2]; rfl
      have z2 : a'.re.value = some 0 := by rw [v1', c2]; rfl
      unfold CFl.sqrt
      rw [if_neg n1, if_neg n2, if_pos z1, if_pos z2]
      simp only [ha, hsg]
      generalize (NumOps.sqrt (Fl.abs a.im / ofR 2) : Fl binary64) = y
      refine ⟨rfl, ?_⟩
      cases a.im.isNeg
      · rfl
      · exact neg_neg_value.symm
    · have m1 : a.re.value ≠ some 0 := by rw [v1]; simpa using c2
      have m2 : a'.re.value ≠ some 0 := by rw [v1']; simpa using c2
      unfold CFl.sqrt
      rw [if_neg n1, if_neg n2, if_neg m1, if_neg m2]
      have ht : (Fl.atan2 a'.im a'.re / ofR 2).value = (Fl.neg (Fl.atan2 a.im a.re / ofR 2)).value :=
        (div_congr (h.atan2 h1 h2 hw)).trans (congrArg value neg_div')
      obtain ⟨x, hx, -⟩ := (CTrack.run_arg h1 h2 hw).divNum (c := 2) is_two (by norm_num) (by norm_num) (by norm_num) (CTrack.mid_num (by norm_num) (by norm_num))
      have hx' : Is (Fl.atan2 a'.im a'.re / ofR 2) (-x) := ht.trans (value_neg hx)
      simp only [h.hypot h1 h2]
      exact ⟨mul_congr rfl (cos hx hx'), (mul_congr rfl (sin hx hx')).trans (congrArg value mul_neg')⟩

end CMirror

/-! ## The vacuum functions -/

/-- The arguments of the roots and of the logarithms are not on the cut. -/
structure Slits (x : CFl binary64) : Prop where
  s : Slit x
  one : Slit (x + (ofR 1 : Fl binary64))
  root : Slit (x⁻¹ * (ofR 4 : Fl binary64) + (ofR 1 : Fl binary64))
  loop : Slit ((CFl.sqrt (x⁻¹ * (ofR 4 : Fl binary64) + (ofR 1 : Fl binary64)) - (ofR 1 : Fl binary64)) / (ofR 2 : Fl binary64))
  quark : Slit ((CFl.sqrt (x⁻¹ * (ofR 4 : Fl binary64) + (ofR 1 : Fl binary64)) - (ofR 1 : Fl binary64)) /
    (CFl.sqrt (x⁻¹ * (ofR 4 : Fl binary64) + (ofR 1 : Fl binary64)) + (ofR 1 : Fl binary64)))

theorem Spec.Sector.slits {x : CFl binary64} {s : ℂ} (h : Sector x s) : Slits x :=
  ⟨h.t.slit h.angle (Q := 1) (by rw [one_mul]) (by have := h.pos; simp), h.tl1S.1, h.rootS.1, h.root_lnS.1, h.quark_lnS.1⟩

namespace Slits
variable {x x' : CFl binary64} (h : Slits x) (m : CMirror x x')
include h m

theorem mirror_ghost : CMirror (CFl.ghost.g x) (CFl.ghost.g x') :=
  ((((m.addR.mul m.addR).mul ((m.inv.mulR).sub (m.inv.mul m.inv))).mul (m.addR.ln h.one)).sub (m.mulR.mul (m.ln h.s))).add m.inv.addR |>.divR

theorem mirror_ghost_xi : CMirror (CFl.ghost.g_xi x) (CFl.ghost.g_xi x') := (m.ln h.s).neg.divR

theorem mirror_root : CMirror (CFl.sqrt (x⁻¹ * (ofR 4 : Fl binary64) + (ofR 1 : Fl binary64))) (CFl.sqrt (x'⁻¹ * (ofR 4 : Fl binary64) + (ofR 1 : Fl binary64))) :=
  m.inv.mulR.addR.sqrt h.root

theorem mirror_gluon : CMirror (CFl.gluon.f x) (CFl.gluon.f x') := by
  have i := m.inv
  have r := h.mirror_root m
  have l := m.ln h.s
  have l1 := m.addR.ln h.one
  have la : CMirror (CFl.gluon.l_a x (CFl.ln x)) (CFl.gluon.l_a x' (CFl.ln x')) := (((((m.mul m).mulR).sub m.mulR).subR).sub i.mulR).mul r |>.mul ((((r.subR).divR).ln h.loop).mulR.add l)
  have lb : CMirror (CFl.gluon.l_b x (CFl.ln (x + (ofR 1 : Fl binary64)))) (CFl.gluon.l_b x' (CFl.ln (x' + (ofR 1 : Fl binary64)))) :=
    (((m.addR.mul m.addR).mul ((((i.neg.mulR).addR).add ((i.mul i).mulR)).sub ((i.mul (i.mul i)).mulR))).mulR).mul l1
  have lc : CMirror (CFl.gluon.l_c x (CFl.ln x)) (CFl.gluon.l_c x' (CFl.ln x')) := (((m.mul m).neg.mulR).addR).mul l
  have ra : CMirror (CFl.gluon.r_a x) (CFl.gluon.r_a x') := (m.addR).neg.mul ((m.subR).add i.mulR)
  have rb : CMirror (CFl.gluon.r_b x) (CFl.gluon.r_b x') := ((m.addR.mul m.addR).mulR).mul (((i.neg.mulR).addR).add (i.mul i))
  have rc : CMirror (CFl.gluon.r_c x) (CFl.gluon.r_c x') := (((i.mul i).mulR).addR).sub (m.mul m)
  exact ((((((la.add lb).add lc).add ra).add rb).add rc).divR).add i.mulR.divR

theorem mirror_gluon_xi : CMirror (CFl.gluon.f_xi x) (CFl.gluon.f_xi x') := by
  have i := m.inv
  have l := m.ln h.s
  have l1 := m.addR.ln h.one
  exact (i.divR).sub ((((((m.mulR).mul l).sub (((((i.mul i).sub i).mul (i.sub (m.mul m))).mulR).mul l1)).addR).sub i.mulR).add (i.mul i).mulR).divR

theorem mirror_quark : CMirror (CFl.gluon.f_q x) (CFl.gluon.f_q x') := by
  have i := m.inv
  have r := h.mirror_root m
  have l := (r.subR.div r.addR).ln h.quark
  exact (((((i.neg.addR).mul r).mul l).sub i.mulR).addR).mulR.divR

theorem mirror_crossed : CMirror (CFl.gluon.f_q_crossed x) (CFl.gluon.f_q_crossed x') := by
  have i := m.inv
  have r := h.mirror_root m
  have l := (r.subR.div r.addR).ln h.quark
  exact (((i.mulR.subR).add ((((i.addR).add (i.mul i).mulR).div r).mul l)).mulR).divR

end Slits
end Qcd
