import Verif.Spec.Utils
import Mathlib.Topology.Algebra.GroupWithZero
import Mathlib.Analysis.Complex.Basic
import Mathlib.Analysis.Normed.Field.Lemmas
import Mathlib.Analysis.SpecialFunctions.Trigonometric.Basic
import Mathlib.Analysis.SpecialFunctions.ImproperIntegrals

/-! C07-C12: root finder, residues, spectral functions. -/

namespace Qcd.utils
variable {T R : Type}

/-- Helper: the loop started at the `m`-th and `m+1`-st secant points. -/
theorem loop_spec (o : RootOps T R) (f : T → T) (g0 g1 : T) (tol : R) (n m : ℕ) :
    let z := secant o f g0 g1
    let r := loop o f tol n (z m) (z (m + 1)) (f (z m)) (f (z (m + 1)))
    (∃ k, k < n ∧ (∀ j, j ≤ k → ¬ nanAt o f g0 g1 (m + j)) ∧
        (∀ j, j < k → ¬ smallAt o f g0 g1 tol (m + j)) ∧ smallAt o f g0 g1 tol (m + k) ∧
        r.1 = .some (z (m + k + 1)) (f (z (m + k + 1))) ∧
        r.2 = (List.range k).map (fun j => z (m + j + 2))) ∨
    (∃ k, k < n ∧ (∀ j, j < k → ¬ nanAt o f g0 g1 (m + j)) ∧
        (∀ j, j < k → ¬ smallAt o f g0 g1 tol (m + j)) ∧ nanAt o f g0 g1 (m + k) ∧
        r.1 = .none ∧ r.2 = (List.range k).map (fun j => z (m + j + 2))) ∨
    ((∀ j, j < n → ¬ nanAt o f g0 g1 (m + j)) ∧
        (∀ j, j < n → ¬ smallAt o f g0 g1 tol (m + j)) ∧
        r.1 = .none ∧ r.2 = (List.range n).map (fun j => z (m + j + 2))) := by
  intro z
  induction n generalizing m with
  | zero => right; right; simp [loop]
  | succ n ih =>
    intro r
    by_cases hn : nanAt o f g0 g1 m
    · right; left
      refine ⟨0, by omega, by simp, by simp, hn, ?_⟩
      have hn' : o.isNaN (f (z (m + 1))) = true := hn
      simp [r, loop, hn']
    · have hn' : o.isNaN (f (z (m + 1))) = false := by
        simpa [nanAt] using hn
      by_cases hs : smallAt o f g0 g1 tol m
      · left
        refine ⟨0, by omega, ?_, by simp, hs, ?_⟩
        · intro j hj; obtain rfl : j = 0 := by omega
          exact hn
        · have hs' : o.lt (o.abs (f (z (m + 1)))) tol = true := hs
          simp [r, loop, hn', hs']
      · have hs' : o.lt (o.abs (f (z (m + 1)))) tol = false := by
          simpa [smallAt] using hs
        have hr : r = ((loop o f tol n (z (m + 1)) (z (m + 2)) (f (z (m + 1))) (f (z (m + 2)))).1,
            z (m + 2) :: (loop o f tol n (z (m + 1)) (z (m + 2)) (f (z (m + 1)))
              (f (z (m + 2)))).2) := by
          simp only [r, loop, hn', hs']
          rfl
        have shift : ∀ j, m + 1 + j = m + (j + 1) := by intro j; omega
        rcases ih (m + 1) with ⟨k, h1, h2, h3, h4, h5, h6⟩ | ⟨k, h1, h2, h3, h4, h5, h6⟩ |
            ⟨h1, h2, h3, h4⟩
        · left
          refine ⟨k + 1, by omega, ?_, ?_, ?_, ?_, ?_⟩
          · intro j hj
            cases j with
            | zero => exact hn
            | succ j => rw [← shift]; exact h2 j (by omega)
          · intro j hj
            cases j with
            | zero => exact hs
            | succ j => rw [← shift]; exact h3 j (by omega)
          · rw [← shift]; exact h4
          · rw [hr, show m + (k + 1) + 1 = m + 1 + k + 1 by omega]; exact h5
          · rw [hr, List.range_succ_eq_map]
            simp only [List.map_cons, List.map_map]
            rw [show (m + 1 + 1 : ℕ) = m + 2 from rfl] at h6
            rw [h6]
            congr 1
            apply List.map_congr_left; intro j _
            simp only [Function.comp]; congr 1; omega
        · right; left
          refine ⟨k + 1, by omega, ?_, ?_, ?_, ?_, ?_⟩
          · intro j hj
            cases j with
            | zero => exact hn
            | succ j => rw [← shift]; exact h2 j (by omega)
          · intro j hj
            cases j with
            | zero => exact hs
            | succ j => rw [← shift]; exact h3 j (by omega)
          · rw [← shift]; exact h4
          · rw [hr]; exact h5
          · rw [hr, List.range_succ_eq_map]
            simp only [List.map_cons, List.map_map]
            rw [show (m + 1 + 1 : ℕ) = m + 2 from rfl] at h6
            rw [h6]
            congr 1
            apply List.map_congr_left; intro j _
            simp only [Function.comp]; congr 1; omega
        · right; right
          refine ⟨?_, ?_, ?_, ?_⟩
          · intro j hj
            cases j with
            | zero => exact hn
            | succ j => rw [← shift]; exact h1 j (by omega)
          · intro j hj
            cases j with
            | zero => exact hs
            | succ j => rw [← shift]; exact h2 j (by omega)
          · rw [hr]; exact h3
          · rw [hr, List.range_succ_eq_map]
            simp only [List.map_cons, List.map_map]
            rw [show (m + 1 + 1 : ℕ) = m + 2 from rfl] at h4
            rw [h4]
            congr 1
            apply List.map_congr_left; intro j _
            simp only [Function.comp]; congr 1; omega

/-- Helper: unfolding the two guards. -/
theorem find_root_log_of_guards {o : RootOps T R} {f : T → T} {g : T × T} {tol : R} {n : ℕ}
    (h1 : o.beq g.1 g.2 = false) (h2 : o.gt0 tol = true) :
    find_root_log o f g tol n =
      let r := loop o f tol n g.1 g.2 (f g.1) (f g.2)
      (r.1, g.1 :: g.2 :: r.2) := by
  simp [find_root_log, h1, h2]

/-- **C07**: whenever `find_root` returns a pair, its second component is the function's value at the
first and its absolute value passed the test `< tol`. For any arithmetic. -/
theorem C07_find_root_sound (o : RootOps T R) (f : T → T) (g : T × T) (tol : R) (n : ℕ) (z fz : T)
    (h : find_root o f g tol n = .some z fz) : fz = f z ∧ o.lt (o.abs fz) tol = true := by
  unfold find_root at h
  by_cases h1 : o.beq g.1 g.2 = true
  · simp [find_root_log, h1] at h
  by_cases h2 : o.gt0 tol = true
  · rw [find_root_log_of_guards (by simpa using h1) h2] at h
    have hs := loop_spec o f g.1 g.2 tol n 0
    simp only [secant, Nat.zero_add] at hs
    rcases hs with ⟨k, _, _, _, hsm, hr, _⟩ | ⟨k, _, _, _, _, hr, _⟩ | ⟨_, _, hr, _⟩
    · simp only [hr, RootResult.some.injEq] at h
      obtain ⟨rfl, rfl⟩ := h
      exact ⟨rfl, hsm⟩
    · simp [hr] at h
    · simp [hr] at h
  · simp [find_root_log, h1, h2] at h

/-- **C07** at exact arithmetic: the returned point is a root up to the tolerance. -/
theorem C07_find_root_sound_exact {T : Type} [Num T] (f : T → T) (g : T × T) (tol : ℝ) (n : ℕ)
    (z fz : T) (h : find_root (exactOps T) f g tol n = .some z fz) :
    fz = f z ∧ ‖toC (f z)‖ < tol := by
  obtain ⟨rfl, h⟩ := C07_find_root_sound _ _ _ _ _ _ _ h
  refine ⟨rfl, ?_⟩
  simpa [exactOps, Qcd.abs] using h

/-- **C08** (panics): exactly on equal guesses or a tolerance that is not positive. -/
theorem C08_panics_iff (o : RootOps T R) (f : T → T) (g : T × T) (tol : R) (n : ℕ) :
    find_root o f g tol n = .panic ↔ (o.beq g.1 g.2 = true ∨ o.gt0 tol = false) := by
  unfold find_root
  by_cases h1 : o.beq g.1 g.2 = true
  · simp [find_root_log, h1]
  by_cases h2 : o.gt0 tol = true
  · rw [find_root_log_of_guards (by simpa using h1) h2]
    have hs := loop_spec o f g.1 g.2 tol n 0
    simp only [secant, Nat.zero_add] at hs
    rcases hs with ⟨k, _, _, _, hsm, hr, _⟩ | ⟨k, _, _, _, _, hr, _⟩ | ⟨_, _, hr, _⟩ <;>
      simp [hr, h1, h2]
  · simp [find_root_log, h1, h2]

/-- **C08** (full characterisation): with the guards satisfied, `find_root` tests the secant iterates
`z₁, z₂, ...` in order, at most `max_iter` of them. It returns the first one that is not NaN and is
small, provided no earlier one was NaN; it returns `None` at the first NaN; and `None` if all
`max_iter` tested iterates are neither. -/
theorem C08_find_root_characterisation (o : RootOps T R) (f : T → T) (g : T × T) (tol : R) (n : ℕ)
    (h1 : o.beq g.1 g.2 = false) (h2 : o.gt0 tol = true) :
    let z := secant o f g.1 g.2
    (∀ k, k < n → (∀ j, j ≤ k → ¬ nanAt o f g.1 g.2 j) →
      (∀ j, j < k → ¬ smallAt o f g.1 g.2 tol j) → smallAt o f g.1 g.2 tol k →
      find_root o f g tol n = .some (z (k + 1)) (f (z (k + 1)))) ∧
    (∀ k, k < n → (∀ j, j < k → ¬ nanAt o f g.1 g.2 j) →
      (∀ j, j < k → ¬ smallAt o f g.1 g.2 tol j) → nanAt o f g.1 g.2 k →
      find_root o f g tol n = .none) ∧
    ((∀ k, k < n → ¬ nanAt o f g.1 g.2 k ∧ ¬ smallAt o f g.1 g.2 tol k) →
      find_root o f g tol n = .none) := by
  intro z
  have hlog := find_root_log_of_guards (f := f) (n := n) h1 h2
  have hs := loop_spec o f g.1 g.2 tol n 0
  simp only [secant, Nat.zero_add] at hs
  unfold find_root
  rw [hlog]
  rcases hs with ⟨k', hk', ha, hb, hc, hr, _⟩ | ⟨k', hk', ha, hb, hc, hr, _⟩ | ⟨ha, hb, hr, _⟩
  · refine ⟨?_, ?_, ?_⟩
    · intro k hk hA hB hC
      obtain rfl : k = k' := by
        by_contra hne
        rcases Nat.lt_or_gt_of_ne hne with h | h
        · exact hb k h hC
        · exact hB k' h hc
      exact hr
    · intro k hk hA hB hC
      exfalso
      rcases Nat.lt_or_ge k' k with h | h
      · exact hB k' h hc
      · exact ha k h hC
    · intro h; exact absurd hc (h k' hk').2
  · refine ⟨?_, ?_, fun _ => hr⟩
    · intro k hk hA hB hC
      exfalso
      rcases Nat.lt_or_ge k k' with h | h
      · exact hb k h hC
      · exact hA k' h hc
    · intro k _ _ _ _; exact hr
  · refine ⟨?_, fun _ _ _ _ _ => hr, fun _ => hr⟩
    intro k hk _ _ hC; exact absurd hC (hb k hk)

/-- **C08** (budget zero): even if a guess is a root, no iterations means no result. -/
theorem C08_zero_iterations (o : RootOps T R) (f : T → T) (g : T × T) (tol : R)
    (h1 : o.beq g.1 g.2 = false) (h2 : o.gt0 tol = true) :
    find_root o f g tol 0 = .none :=
  (C08_find_root_characterisation o f g tol 0 h1 h2).2.2 (by intro k hk; omega)

/-- **C09**: `f` is evaluated at most `max_iter + 2` times, at the first points of the secant
sequence, each once and in order. -/
theorem C09_evaluation_budget (o : RootOps T R) (f : T → T) (g : T × T) (tol : R) (n : ℕ) :
    ∃ m, m ≤ n + 2 ∧
      (find_root_log o f g tol n).2 = (List.range m).map (secant o f g.1 g.2) := by
  by_cases h1 : o.beq g.1 g.2 = true
  · exact ⟨0, by omega, by simp [find_root_log, h1]⟩
  by_cases h2 : o.gt0 tol = true
  · rw [find_root_log_of_guards (by simpa using h1) h2]
    have hs := loop_spec o f g.1 g.2 tol n 0
    simp only [Nat.zero_add] at hs
    have key : ∀ k, g.1 :: g.2 :: (List.range k).map (fun j => secant o f g.1 g.2 (j + 2)) =
        (List.range (k + 2)).map (secant o f g.1 g.2) := by
      intro k
      rw [List.range_succ_eq_map, List.map_cons, List.range_succ_eq_map]
      simp [Function.comp_def, secant]
    rcases hs with ⟨k, hk, _, _, hsm, _, hr⟩ | ⟨k, hk, _, _, _, _, hr⟩ | ⟨_, _, _, hr⟩
    · refine ⟨k + 2, by omega, ?_⟩
      rw [← key]; simp only [← hr]; rfl
    · refine ⟨k + 2, by omega, ?_⟩
      rw [← key]; simp only [← hr]; rfl
    · refine ⟨n + 2, by omega, ?_⟩
      rw [← key]; simp only [← hr]; rfl
  · exact ⟨0, by omega, by simp [find_root_log, h1, h2]⟩

/-- **C10**: on an affine function with nonzero slope `find_root` succeeds within two iterations, and
the point returned is the root, or the second guess if that is already within tolerance. -/
theorem C10_affine {T : Type} [Num T] (a b g0 g1 : T) (tol : ℝ) (n : ℕ) (ha : a ≠ 0)
    (hg : g0 ≠ g1) (htol : 0 < tol) (hn : 2 ≤ n) :
    find_root (exactOps T) (fun z => a * z + b) (g0, g1) tol n =
      if ‖toC (a * g1 + b)‖ < tol then .some g1 (a * g1 + b) else .some (-b / a) 0 := by
  obtain ⟨n, rfl⟩ := Nat.exists_eq_add_of_le hn
  have hz : (g0 * (a * g1 + b) - g1 * (a * g0 + b)) / (a * g1 + b - (a * g0 + b)) = -b / a := by
    have h1 : a * g1 + b - (a * g0 + b) ≠ 0 := by
      have : a * g1 + b - (a * g0 + b) = a * (g1 - g0) := by ring
      rw [this]; exact mul_ne_zero ha (sub_ne_zero.2 (Ne.symm hg))
    rw [div_eq_div_iff h1 ha]
    ring
  have hroot : a * (-b / a) + b = 0 := by field_simp; ring
  unfold find_root
  rw [find_root_log_of_guards (by simp [exactOps, hg]) (by simp [exactOps, htol])]
  rw [show 2 + n = n + 1 + 1 by omega]
  have hz' : (exactOps T).div ((exactOps T).sub ((exactOps T).mul g0 (a * g1 + b))
      ((exactOps T).mul g1 (a * g0 + b))) ((exactOps T).sub (a * g1 + b) (a * g0 + b)) = -b / a := hz
  simp only [loop, hz', hroot]
  have hlt : ∀ x, (exactOps T).lt ((exactOps T).abs x) tol = true ↔ ‖toC x‖ < tol := by
    intro x; simp [exactOps, Qcd.abs]
  have hnan : ∀ x, (exactOps T).isNaN x = false := fun _ => rfl
  have h0 : (exactOps T).lt ((exactOps T).abs 0) tol = true := by
    rw [hlt]; simpa using htol
  by_cases h : ‖toC (a * g1 + b)‖ < tol
  · rw [if_pos h]
    simp only [hnan, (hlt _).2 h, if_true, Bool.false_eq_true, if_false]
  · rw [if_neg h]
    have h' : (exactOps T).lt ((exactOps T).abs (a * g1 + b)) tol = false := by
      rw [← Bool.not_eq_true, hlt]; exact h
    simp only [hnan, h', h0, if_true, Bool.false_eq_true, if_false]

example : find_root (exactOps ℝ) (fun z => 2 * z + 1) (0, 1) (1 / 10) 2 = .some (-1 / 2) 0 := by
  rw [C10_affine (2 : ℝ) 1 0 1 (1 / 10) 2 (by norm_num) (by norm_num) (by norm_num) le_rfl]
  rw [if_neg]
  norm_num

/-- With one iteration only, the root found by the secant step is not tested: `None` is returned
although the last iterate is an exact root. -/
theorem C08_last_iterate_untested :
    find_root (exactOps ℝ) (fun z => 2 * z + 1) (0, 1) (1 / 10) 1 = .none := by
  apply (C08_find_root_characterisation (exactOps ℝ) (fun z => 2 * z + 1) (0, 1) (1 / 10) 1
    (by simp [exactOps]) (by simp [exactOps])).2.2
  intro k hk
  obtain rfl : k = 0 := by omega
  constructor
  · simp [nanAt, exactOps]
  · simp [smallAt, exactOps, secant, Qcd.abs]
    norm_num

/-! ### C11 -/

/-- **C11** (exactness): the residue of `r/(z - z₀)` is computed exactly for every `eps ≠ 0`. -/
theorem C11_simple_pole_exact {T : Type} [Num T] (r z0 : T) (eps : ℝ) (he : eps ≠ 0) :
    compute_residue_with_eps (fun z => r / (z - z0)) z0 eps = r := by
  have he' : (ofR eps : T) ≠ 0 := ofR_ne_zero he
  by_cases hr : r = 0
  · subst hr; simp [compute_residue_with_eps]
  simp only [compute_residue_with_eps, add_sub_cancel_left, sub_sub_cancel_left, ofR_ofNat]
  have : (r / ofR eps)⁻¹ - (r / -ofR eps)⁻¹ = 2 * ofR eps / r := by
    field_simp; ring
  rw [this]
  field_simp

/-- The function with the fixed step. -/
theorem C11_compute_residue_exact {T : Type} [Num T] (r z0 : T) :
    compute_residue (fun z => r / (z - z0)) z0 = r :=
  C11_simple_pole_exact r z0 _ (by positivity)

open Filter Topology in
/-- **C11** (limit, complex): for `f = h/(z - z₀)` with `h` continuous and nonzero at `z₀` the
computed residue converges to `h z₀`. -/
theorem C11_residue_limit (h : ℂ → ℂ) (z0 : ℂ) (hc : ContinuousAt h z0) (hne : h z0 ≠ 0) :
    Tendsto (fun eps : ℝ => compute_residue_with_eps (fun z => h z / (z - z0)) z0 eps)
      (𝓝[≠] 0) (𝓝 (h z0)) := by
  have hp : Tendsto (fun eps : ℝ => h (z0 + (eps : ℂ))) (𝓝[≠] 0) (𝓝 (h z0)) := by
    have : Tendsto (fun eps : ℝ => z0 + (eps : ℂ)) (𝓝[≠] 0) (𝓝 z0) := by
      have h0 : Continuous (fun eps : ℝ => z0 + (eps : ℂ)) := by fun_prop
      have := (h0.tendsto 0).mono_left (nhdsWithin_le_nhds (s := {0}ᶜ))
      simpa using this
    exact hc.tendsto.comp this
  have hm : Tendsto (fun eps : ℝ => h (z0 - (eps : ℂ))) (𝓝[≠] 0) (𝓝 (h z0)) := by
    have : Tendsto (fun eps : ℝ => z0 - (eps : ℂ)) (𝓝[≠] 0) (𝓝 z0) := by
      have h0 : Continuous (fun eps : ℝ => z0 - (eps : ℂ)) := by fun_prop
      have := (h0.tendsto 0).mono_left (nhdsWithin_le_nhds (s := {0}ᶜ))
      simpa using this
    exact hc.tendsto.comp this
  have hlim : Tendsto (fun eps : ℝ =>
      ((h (z0 + (eps : ℂ)))⁻¹ + (h (z0 - (eps : ℂ)))⁻¹)⁻¹ * 2) (𝓝[≠] 0) (𝓝 (h z0)) := by
    have h1 := ((hp.inv₀ hne).add (hm.inv₀ hne))
    have hs : (h z0)⁻¹ + (h z0)⁻¹ ≠ 0 := by
      have : (h z0)⁻¹ + (h z0)⁻¹ = 2 * (h z0)⁻¹ := by ring
      rw [this]; exact mul_ne_zero two_ne_zero (inv_ne_zero hne)
    have h2 := (h1.inv₀ hs).mul_const 2
    have e : ((h z0)⁻¹ + (h z0)⁻¹)⁻¹ * 2 = h z0 := by field_simp; norm_num
    rwa [e] at h2
  refine hlim.congr' ?_
  filter_upwards [self_mem_nhdsWithin] with eps he
  have he' : (eps : ℂ) ≠ 0 := by simpa using he
  simp only [compute_residue_with_eps, ofR_complex, add_sub_cancel_left, sub_sub_cancel_left,
    inv_div]
  rw [show (eps : ℂ) / h (z0 + eps) - -(eps : ℂ) / h (z0 - eps)
      = (eps : ℂ) * ((h (z0 + eps))⁻¹ + (h (z0 - eps))⁻¹) by ring, mul_inv]
  push_cast
  field_simp

/-! ### C12 -/

/-- **C12** (reality): for a reflection-symmetric function and a real point the spectral function
is `-Im f(x + i eps)/π`, a real number. -/
theorem C12_real (f : ℂ → ℂ) (hf : ∀ z, f ((starRingEnd ℂ) z) = (starRingEnd ℂ) (f z))
    (x eps : ℝ) :
    spectral_function_with_eps f (x : ℂ) eps = ((-(f (x + I * eps)).im / Real.pi : ℝ) : ℂ) := by
  have hc : ((x : ℂ) - I * eps) = (starRingEnd ℂ) ((x : ℂ) + I * eps) := by
    simp [sub_eq_add_neg]
  simp only [spectral_function_with_eps, ofR_complex]
  rw [hc, hf]
  have hpi : (Real.pi : ℂ) ≠ 0 := by exact_mod_cast Real.pi_ne_zero
  have : f (x + I * eps) - (starRingEnd ℂ) (f (x + I * eps)) = 2 * I * (f (x + I * eps)).im := by
    rw [Complex.sub_conj]; push_cast; ring
  rw [this]
  push_cast
  field_simp
  rw [show (I : ℂ) ^ 2 = -1 from Complex.I_sq]
  ring

/-- **C12** (no cut): if the values above and below agree the spectral function vanishes. -/
theorem C12_no_cut (f : ℂ → ℂ) (z : ℂ) (eps : ℝ) (h : f (z + I * eps) = f (z - I * eps)) :
    spectral_function_with_eps f z eps = 0 := by
  simp [spectral_function_with_eps, h]

/-- **C12** (pole): a simple pole on the real axis gives a Lorentzian of weight `r` and width `eps`. -/
theorem C12_lorentzian (r x0 x eps : ℝ) (he : eps ≠ 0) :
    spectral_function_with_eps (fun z => (r : ℂ) / (z - x0)) (x : ℂ) eps
      = ((r * (eps / Real.pi) / ((x - x0) ^ 2 + eps ^ 2) : ℝ) : ℂ) := by
  have hs : ∀ z : ℂ, (fun z => (r : ℂ) / (z - x0)) ((starRingEnd ℂ) z)
      = (starRingEnd ℂ) ((fun z => (r : ℂ) / (z - x0)) z) := by
    intro z; simp
  rw [C12_real _ hs]
  congr 1
  have hd : (x - x0) ^ 2 + eps ^ 2 ≠ 0 := by positivity
  simp [Complex.div_im, Complex.normSq_apply]
  have hd' : (x - x0) * (x - x0) + eps * eps ≠ 0 := by
    intro h; apply hd; linarith [h, sq (x - x0), sq eps]
  field_simp

/-- **C12** (weight): the spectral function of a simple pole on the real axis integrates to the residue, whatever the step. -/
theorem C12_weight (r x0 eps : ℝ) (he : 0 < eps) :
    ∫ x : ℝ, spectral_function_with_eps (fun z => (r : ℂ) / (z - x0)) (x : ℂ) eps = r := by
  have e : ∀ x : ℝ, spectral_function_with_eps (fun z => (r : ℂ) / (z - x0)) (x : ℂ) eps
      = ((r / (Real.pi * eps) * (1 + ((x - x0) / eps) ^ 2)⁻¹ : ℝ) : ℂ) := fun x => by
    rw [C12_lorentzian r x0 x eps he.ne']
    congr 1
    have := Real.pi_ne_zero
    have hd : (x - x0) ^ 2 + eps ^ 2 ≠ 0 := by positivity
    have hd' : 1 + ((x - x0) / eps) ^ 2 ≠ 0 := by positivity
    rw [div_pow] at hd' ⊢
    field_simp
    ring
  simp only [e]
  rw [integral_complex_ofReal, MeasureTheory.integral_const_mul, MeasureTheory.integral_sub_right_eq_self (fun x : ℝ => (1 + (x / eps) ^ 2)⁻¹) x0,
    MeasureTheory.Measure.integral_comp_div (fun x : ℝ => (1 + x ^ 2)⁻¹) eps, integral_univ_inv_one_add_sq, abs_of_pos he]
  have := Real.pi_ne_zero
  have := he.ne'
  congr 1
  simp only [smul_eq_mul]
  field_simp

/-- **C12** (default step): the function without a step uses `10⁻¹²`. -/
theorem C12_default (f : ℂ → ℂ) (hf : ∀ z, f ((starRingEnd ℂ) z) = (starRingEnd ℂ) (f z)) (x : ℝ) :
    spectral_function f x = ((-(f (x + I * (1 / 10 ^ 12 : ℝ))).im / Real.pi : ℝ) : ℂ) := C12_real f hf x _

/-- **C12** (default step, pole). -/
theorem C12_default_weight (r x0 : ℝ) : ∫ x : ℝ, spectral_function (fun z => (r : ℂ) / (z - x0)) (x : ℂ) = r :=
  C12_weight r x0 _ (by positivity)

end Qcd.utils
