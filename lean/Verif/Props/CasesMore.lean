import Verif.Props.Cases
import Verif.Props.FloatTc
import Verif.Props.QuarkAccuracy
import Verif.Props.SmallMomenta
import Verif.Props.ScansFiles
import Verif.Props.ComplexQcdAccuracy

/-!
# More concrete cases

One case for each theorem below, with hypotheses met by numbers.
-/

namespace Qcd

open Spec Fl consts

/-! ### Floats -/

private theorem b_one : Binary64 1 := ⟨1, 0, by norm_num, by norm_num, by norm_num, by norm_num⟩

private theorem b_five : Binary64 5 := ⟨5, 0, by norm_num, by norm_num, by norm_num, by norm_num⟩

example := C120_grid (vmin := num ((0 : ℝ) : EReal)) (vmax := num ((2 : ℝ) : EReal)) (dv := num ((1 / 2 : ℝ) : EReal)) (n := 4) rfl rfl rfl (by norm_num)
  ⟨by norm_num [abs_of_pos], by norm_num [abs_of_pos]⟩ (by norm_num) (by norm_num) (by norm_num)

example := C115_decimals (x := num ((5 : ℝ) : EReal)) rfl b_five (by norm_num) (by norm_num)

example (k : Consts ℝ) := C124_field_config k (x := num ((1 : ℝ) : EReal)) (s := 1) (f0 := 1) (xi := 1) (m := 1) (nc := 3)
  ⟨rfl, b_one, by norm_num, by norm_num⟩ b_one (by norm_num) b_one (by norm_num) b_one (by norm_num) (by norm_num) (by norm_num) [(2, 1), (1, 5)]
  (fun q hq => by
    simp only [List.mem_cons, List.not_mem_nil, or_false] at hq
    rcases hq with rfl | rfl
    · exact ⟨by norm_num, by norm_num, b_one, by norm_num, by norm_num, by norm_num, by norm_num⟩
    · exact ⟨by norm_num, by norm_num, b_five, by norm_num, by norm_num, by norm_num, by norm_num⟩) (by norm_num)

example := C124_global (k := consts.init) (x := num ((5 : ℝ) : EReal)) (s := 5) (f0 := 1) (xi := 1) (mq := 2) (nf := 1) (nc := 3)
  ⟨rfl, b_five, by norm_num, by norm_num⟩ b_one (by norm_num) b_one (by norm_num) (by norm_num [consts.init, consts.FloatOps.lit, consts.FloatOps.div]) (by norm_num) (by norm_num) (by norm_num) (by norm_num)
  (by norm_num) (by norm_num) (by norm_num) (by norm_num)

private theorem tiny : Tiny (num (((2 : ℝ) ^ (-60 : ℤ) : ℝ) : EReal)) (2 ^ (-60 : ℤ)) :=
  ⟨rfl, ⟨1, -60, by norm_num, by norm_num, by norm_num, by norm_num⟩, by norm_num, by norm_num⟩

example := C114_ghost (g0 := 1) tiny b_one (by norm_num)
example := C114_ghost_exact (g0 := 1) tiny b_one (by norm_num) (by norm_num)
example := C114_gluon (f0 := 1) tiny b_one (by norm_num)
example := C114_gluon_exact (f0 := 1) tiny b_one (by norm_num)

example := C111_fermi_range (r := binary64) (num ⊤) (num ((2 : ℝ) : EReal)) (num ((1 : ℝ) : EReal)) ⊤ 2 1 rfl rfl rfl (by norm_num)
example := C111_bose_zero_chempot (r := binary64) (num ((1 : ℝ) : EReal)) (num ⊤) (num ((2 : ℝ) : EReal)) ((1 : ℝ) : EReal) ⊤ 2 rfl rfl rfl (by norm_num) le_top
  (by exact_mod_cast zero_le_one)
example := C111_fermi_momentum_above (num ((1 : ℝ) : EReal)) (num ((5 : ℝ) : EReal)) 5 1 1 rfl rfl b_five b_one (by norm_num [abs_of_pos])
  (by rw [mul_one]; exact binary64_fixed b_one)
example := C111_fermi_momentum_overflow (r := binary64) (num (((2 : ℝ) ^ (600 : ℤ) : ℝ) : EReal)) (num ((1 : ℝ) : EReal)) 1 (2 ^ (600 : ℤ)) rfl rfl
  ((C111_binary64_overflow _).2 (by
    rw [← zpow_add₀ (by norm_num)]
    have : (2 : ℝ) ^ (1024 : ℤ) ≤ 2 ^ ((600 : ℤ) + 600) := zpow_le_zpow_right₀ (by norm_num) (by norm_num)
    have : (0 : ℝ) < 2 ^ (970 : ℤ) := by positivity
    generalize (2 : ℝ) ^ (970 : ℤ) = a at *
    generalize (2 : ℝ) ^ (1024 : ℤ) = b at *
    generalize (2 : ℝ) ^ ((600 : ℤ) + 600) = c at *
    linarith))

/-! ### The propagator is holomorphic: a value of the additive constant where the inverse dressing function is not zero -/

example (k : Consts ℝ) : ∃ f0 : ℝ, DifferentiableAt ℂ (fun s : ℂ => qcd.gluon.propagator_w_field_config k s f0 1 (FieldConfig.new 3 1 [(2, 1), (1, 3)])) (1 + Complex.I) := by
  have e (f0 : ℝ) := (C29_additive k (1 + Complex.I) f0 1 3 1 [(2, 1), (1, 3)]).2.1
  have a (f0 : ℝ) : ym.gluon.dressing_inv (1 + Complex.I) f0 1 = ym.gluon.dressing_inv (1 + Complex.I) 0 1 + (f0 : ℂ) := by
    simp only [ym.gluon.dressing_inv, gluon.ym_dressing_inv_sep, gluon.ym_dressing_inv_landau_sep, ofR_complex, Complex.ofReal_zero]
    ring
  generalize hz : ym.gluon.dressing_inv (1 + Complex.I) 0 1 + quarkSum gluon.f_q (1 + Complex.I) 3 1 [(2, 1), (1, 3)] = z
  refine ⟨1 - z.re, C20_propagator k _ 1 3 1 _ (by norm_num) (fun q hq => ?_) _ (Or.inl (by norm_num)) ?_⟩
  · simp only [List.mem_cons, List.not_mem_nil, or_false] at hq
    rcases hq with rfl | rfl <;> norm_num
  · intro h
    rw [e, a] at h
    have h1 : z + ((1 - z.re : ℝ) : ℂ) = 0 := by rw [← h, ← hz]; ring
    have h2 := congrArg Complex.re h1
    rw [Complex.add_re, Complex.ofReal_re, Complex.zero_re] at h2
    norm_num at h2

end Qcd

namespace Qcd.tc

open Spec

/-! ### Files of the scans -/

example (P : Propagators) (fmt : ℝ → String) (c : Config) (fs : Files) := C67_other_files P fmt "data" "_T_" c "other" (fun a h => by
  have := congrArg (fun s : String => s.toList.head?) h
  simp at this) fs

example := C67_renormalized_convention (fun p => ((p ^ 2 + 1 : ℝ) : ℂ)) 2 1 (by norm_num) (by rw [Complex.ofReal_re]; norm_num) 3 (by norm_num)

example (P : Propagators) (fs : Files) := C67_collision P (fun _ => "0.100") "data" "_T_"
  { pbase := 1, om := 0, fieldconfig := FieldConfig.new 3 1 [(2, 1)], correctedfieldconfig := none, renpoint := 4, f0 := -1, temps := [0, 1 / 10, 1001 / 10000], chempots := [0],
    momenta := [1, 2], renpoint2 := 4 * 4, correctedf0 := none, phase_boundary := none } fs 0 0 (1 / 10) (1001 / 10000) rfl rfl rfl rfl rfl rfl rfl

end Qcd.tc
