import Verif.Model.FloatRoot
import Verif.Spec.FloatRoot
import Verif.Lemmas.RunningError

/-! # Lemmas on the root finder in floating-point arithmetic -/

namespace Qcd.Fl
open Spec
variable {r : Rounding} {a b : Fl r}

theorem notFinite_iff : NotFinite a ↔ a = nan ∨ a.value = some ⊤ ∨ a.value = some ⊥ := by
  constructor
  · intro h
    cases a with
    | nan => exact .inl rfl
    | nz => exact absurd (rfl : Is (nz : Fl r) 0) (h 0)
    | num x =>
      right
      induction x using EReal.rec with
      | bot => exact .inr rfl
      | coe y => exact absurd rfl (h y)
      | top => exact .inl rfl
  · rintro (rfl | h | h) x hx
    · exact absurd hx (by simp [Is])
    · rw [Is, h] at hx; simp at hx
    · rw [Is, h] at hx; simp at hx

theorem notFinite_nan : NotFinite (nan : Fl r) := notFinite_iff.2 (.inl rfl)
theorem notFinite_top : NotFinite (num ⊤ : Fl r) := notFinite_iff.2 (.inr (.inl rfl))
theorem notFinite_bot : NotFinite (num ⊥ : Fl r) := notFinite_iff.2 (.inr (.inr rfl))

theorem notFinite_mul (h : NotFinite a) (b : Fl r) : NotFinite (a * b) := by
  change NotFinite (mul a b)
  unfold mul
  split_ifs with h1 h2 h3 h4
  · exact notFinite_nan
  · exact notFinite_nan
  · exact notFinite_top
  · exact notFinite_bot
  · rcases notFinite_iff.1 h with rfl | h | h
    · exact absurd (.inl rfl) h1
    · exact absurd (.inl (val_of h)) h3
    · exact absurd (.inr (.inl (val_of h))) h3

theorem notFinite_mul' (h : NotFinite b) (a : Fl r) : NotFinite (a * b) := by
  change NotFinite (mul a b)
  unfold mul
  split_ifs with h1 h2 h3 h4
  · exact notFinite_nan
  · exact notFinite_nan
  · exact notFinite_top
  · exact notFinite_bot
  · rcases notFinite_iff.1 h with rfl | h | h
    · exact absurd (.inr rfl) h1
    · exact absurd (.inr (.inr (.inl (val_of h)))) h3
    · exact absurd (.inr (.inr (.inr (val_of h)))) h3

theorem notFinite_sub (h : NotFinite a) (b : Fl r) : NotFinite (a - b) := by
  change NotFinite (add a (neg b))
  unfold add
  split_ifs with h1 h2 h3 h4
  · exact notFinite_nan
  · exact notFinite_nan
  · exact notFinite_top
  · exact notFinite_bot
  · rcases notFinite_iff.1 h with rfl | h | h
    · exact absurd (.inl rfl) h1
    · exact absurd (.inl (val_of h)) h3
    · exact absurd (.inl (val_of h)) h4

theorem div_notFinite (ha : NotFinite a) (hb : NotFinite b) : a / b = nan := by
  change div a b = nan
  unfold div
  rcases notFinite_iff.1 ha with rfl | ha | ha
  · simp
  · rcases notFinite_iff.1 hb with rfl | hb | hb
    · simp
    · rw [if_neg (by simp [ha, hb]), if_pos (by simp [val_of ha, val_of hb])]
    · rw [if_neg (by simp [ha, hb]), if_pos (by simp [val_of ha, val_of hb])]
  · rcases notFinite_iff.1 hb with rfl | hb | hb
    · simp
    · rw [if_neg (by simp [ha, hb]), if_pos (by simp [val_of ha, val_of hb])]
    · rw [if_neg (by simp [ha, hb]), if_pos (by simp [val_of ha, val_of hb])]

theorem notFinite_div_zero (a : Fl r) (h : b.value = some 0) : NotFinite (a / b) := by
  change NotFinite (div a b)
  unfold div
  split_ifs with h1 h2 h3 h4
  · exact notFinite_nan
  · exact notFinite_nan
  · exact notFinite_top
  · exact notFinite_bot
  all_goals exact absurd (.inl (val_of h)) h3

theorem value_absF {x : EReal} (h : a.value = some x) : (absF a).value = some (if x < 0 then -x else x) := by
  cases a with
  | nan => simp at h
  | nz => simp at h; subst h; simp [absF]
  | num y => simp at h; subst h; simp [absF]

theorem lt_iff : lt a b = true ↔ ∃ x y, a.value = some x ∧ b.value = some y ∧ x < y := by simp [lt]
theorem beq_iff : beq a b = true ↔ ∃ x, a.value = some x ∧ b.value = some x := by simp [beq]

theorem abs_lt_iff {t : EReal} (ht : b.value = some t) : lt (absF a) b = true ↔ ∃ x, a.value = some x ∧ -t < x ∧ x < t := by
  rw [lt_iff]
  constructor
  · rintro ⟨x, y, hx, hy, h⟩
    rw [ht] at hy; cases hy
    cases hv : a.value with
    | none =>
      cases a with
      | nan => simp [absF] at hx
      | nz => simp at hv
      | num y => simp at hv
    | some v =>
      rw [value_absF hv] at hx; cases hx
      refine ⟨v, rfl, ?_⟩
      split_ifs at h with h0
      · exact ⟨EReal.neg_lt_comm.1 h, h0.trans (lt_trans (by simpa using EReal.neg_lt_neg_iff.2 h0) h)⟩
      · exact ⟨lt_of_lt_of_le (EReal.neg_lt_comm.1 (by simpa using lt_of_le_of_lt (not_lt.1 h0) h)) (not_lt.1 h0), h⟩
  · rintro ⟨x, hx, h1, h2⟩
    refine ⟨_, t, value_absF hx, ht, ?_⟩
    split_ifs
    · exact EReal.neg_lt_comm.1 h1
    · exact h2

theorem lt_absF_notFinite (h : NotFinite a) : lt (absF a) b = false := by
  by_contra hc
  rw [Bool.not_eq_false, lt_iff] at hc
  obtain ⟨x, y, hx, -, hlt⟩ := hc
  rcases notFinite_iff.1 h with rfl | h | h
  · simp [absF] at hx
  · rw [value_absF h] at hx; simp at hx; rw [← hx] at hlt; exact not_top_lt hlt
  · rw [value_absF h] at hx; simp at hx; rw [← hx] at hlt; exact not_top_lt hlt

end Qcd.Fl

namespace Qcd.utils
open Fl Spec
variable {r : Rounding}

theorem float_loop_nan {f : Fl r → Fl r} (tol : Fl r) (n : ℕ) (z0 z1 f0 : Fl r) : (loop (floatOps r) f tol n z0 z1 f0 nan).1 = .none := by
  cases n with
  | zero => rfl
  | succ n => simp only [loop]; rw [if_pos (by simp [floatOps])]

theorem float_loop_notFinite {f : Fl r → Fl r} (hf : f nan = nan) (tol : Fl r) (n : ℕ) (z0 z1 f0 : Fl r) {f1 : Fl r} (h : NotFinite f1) :
    (loop (floatOps r) f tol n z0 z1 f0 f1).1 = .none := by
  cases n with
  | zero => rfl
  | succ n =>
    simp only [loop]
    split_ifs with h1 h2
    · rfl
    · rw [show (floatOps r).lt ((floatOps r).abs f1) tol = false from lt_absF_notFinite h] at h2; cases h2
    · have e : (floatOps r).div ((floatOps r).sub ((floatOps r).mul z0 f1) ((floatOps r).mul z1 f0)) ((floatOps r).sub f1 f0) = nan :=
        div_notFinite (notFinite_sub (notFinite_mul' h z0) _) (notFinite_sub h f0)
      rw [e, hf]
      exact float_loop_nan tol n _ _ _

end Qcd.utils
