import Verif.Model.Qcd
import Mathlib.Tactic.FieldSimp
import Mathlib.Tactic.Ring

/-! C17, C18: algebra of the vacuum functions, for real and complex momenta alike. -/

namespace Qcd
open consts (Consts)
variable {T : Type} [Num T]

/-- **C17** (separated logarithms): passing `ln s` and `ln (s+1)` to the `_sep` variants reproduces
the plain functions. -/
theorem C17_sep (s : T) (f0 g0 xi : ℝ) :
    let ls := NumOps.ln s
    let lp := NumOps.ln (s + 1)
    ghost.g_sep s ls lp = ghost.g s ∧ ghost.g_xi_sep ls = ghost.g_xi s ∧
    gluon.f_sep s ls lp = gluon.f s ∧ gluon.f_xi_sep s ls lp = gluon.f_xi s ∧
    ghost.dressing_inv_landau_sep s ls lp g0 = ghost.dressing_inv_landau s g0 ∧
    ghost.dressing_inv_sep s ls lp g0 xi = ghost.dressing_inv s g0 xi ∧
    gluon.ym_dressing_inv_landau_sep s ls lp f0 = ym.gluon.dressing_inv_landau s f0 ∧
    gluon.ym_dressing_inv_sep s ls lp f0 xi = ym.gluon.dressing_inv s f0 xi := by
  simp [ghost.g, ghost.g_xi, ghost.g_xi_sep, gluon.f, gluon.f_xi, ghost.dressing_inv_landau,
    ghost.dressing_inv, ym.gluon.dressing_inv_landau, ym.gluon.dressing_inv]

/-- **C17** (meaning of the inverse dressings): they are the loop function plus the renormalisation
constant, plus `xi` times the gauge-dependent loop function. This covers `xi = 0` being the Landau
gauge, the affine dependence on the constant and on `xi`. -/
theorem C17_dressing_inv_affine (s : T) (f0 g0 xi : ℝ) :
    ghost.dressing_inv_landau s g0 = ghost.g s + ofR g0 ∧
    ghost.dressing_inv s g0 xi = ghost.g s + ofR g0 + ghost.g_xi s * ofR xi ∧
    ym.gluon.dressing_inv_landau s f0 = gluon.f s + ofR f0 ∧
    ym.gluon.dressing_inv s f0 xi = gluon.f s + ofR f0 + gluon.f_xi s * ofR xi := by
  simp [ghost.g, ghost.g_xi, ghost.g_xi_sep, gluon.f, gluon.f_xi, ghost.dressing_inv_landau,
    ghost.dressing_inv, ym.gluon.dressing_inv_landau, ym.gluon.dressing_inv,
    ghost.dressing_inv_landau_sep, ghost.dressing_inv_sep, gluon.ym_dressing_inv_landau_sep,
    gluon.ym_dressing_inv_sep]

/-- **C17** (Landau gauge) for all sectors, including QCD with global constants and with a field
configuration, crossed or not. -/
theorem C17_landau_gauge (k : Consts ℝ) (s : T) (mq f0 g0 : ℝ) (c : FieldConfig) :
    ghost.dressing_inv s g0 0 = ghost.dressing_inv_landau s g0 ∧
    ym.gluon.dressing_inv s f0 0 = ym.gluon.dressing_inv_landau s f0 ∧
    qcd.gluon.dressing_inv k s mq f0 0 = qcd.gluon.dressing_inv_landau k s mq f0 ∧
    qcd.gluon.dressing_crossed_inv k s mq f0 0 = qcd.gluon.dressing_crossed_inv_landau k s mq f0 ∧
    qcd.gluon.dressing_inv_w_field_config k s f0 0 c
      = qcd.gluon.dressing_inv_landau_w_field_config k s f0 c ∧
    qcd.gluon.dressing_crossed_inv_w_field_config k s f0 0 c
      = qcd.gluon.dressing_crossed_inv_landau_w_field_config k s f0 c := by
  simp [ghost.dressing_inv_landau,
    ghost.dressing_inv, ym.gluon.dressing_inv_landau, ym.gluon.dressing_inv,
    ghost.dressing_inv_sep, gluon.ym_dressing_inv_sep, qcd.gluon.dressing_inv,
    qcd.gluon.dressing_inv_landau, qcd.gluon.dressing_crossed_inv,
    qcd.gluon.dressing_crossed_inv_landau, qcd.gluon.dressing_inv_w_field_config,
    qcd.gluon.dressing_inv_landau_w_field_config, qcd.gluon.dressing_crossed_inv_w_field_config,
    qcd.gluon.dressing_crossed_inv_landau_w_field_config]

/-- A renormalisation-consistent triple: `D · D⁻¹ = 1` and `Δ · s · D⁻¹ = 1` when both factors
are nonzero. -/
def Consistent (s dinv d prop : T) : Prop :=
  dinv ≠ 0 → d * dinv = 1 ∧ (s ≠ 0 → prop * s * dinv = 1)

theorem consistent_of {s dinv : T} : Consistent s dinv dinv⁻¹ (dinv⁻¹ / s) := by
  intro h
  refine ⟨inv_mul_cancel₀ h, fun hs => ?_⟩
  field_simp

/-- **C18**: dressing, inverse dressing and propagator are consistent in every vacuum sector. -/
theorem C18_consistent (k : Consts ℝ) (s : T) (mq f0 g0 xi : ℝ) (c : FieldConfig) :
    Consistent s (ghost.dressing_inv_landau s g0)
      (ghost.dressing_landau s g0)
      (ghost.propagator_landau s g0) ∧
    Consistent s (ghost.dressing_inv s g0 xi)
      (ghost.dressing s g0 xi)
      (ghost.propagator s g0 xi) ∧
    Consistent s (ym.gluon.dressing_inv_landau s f0)
      (ym.gluon.dressing_landau s f0)
      (ym.gluon.propagator_landau s f0) ∧
    Consistent s (ym.gluon.dressing_inv s f0 xi)
      (ym.gluon.dressing s f0 xi)
      (ym.gluon.propagator s f0 xi) ∧
    Consistent s (qcd.gluon.dressing_inv_landau k s mq f0)
      (qcd.gluon.dressing_landau k s mq f0)
      (qcd.gluon.propagator_landau k s mq f0) ∧
    Consistent s (qcd.gluon.dressing_inv k s mq f0 xi)
      (qcd.gluon.dressing k s mq f0 xi)
      (qcd.gluon.propagator k s mq f0 xi) ∧
    Consistent s (qcd.gluon.dressing_crossed_inv_landau k s mq f0)
      (qcd.gluon.dressing_crossed_landau k s mq f0)
      (qcd.gluon.propagator_crossed_landau k s mq f0) ∧
    Consistent s (qcd.gluon.dressing_crossed_inv k s mq f0 xi)
      (qcd.gluon.dressing_crossed k s mq f0 xi)
      (qcd.gluon.propagator_crossed k s mq f0 xi) ∧
    Consistent s (qcd.gluon.dressing_inv_landau_w_field_config k s f0 c)
      (qcd.gluon.dressing_landau_w_field_config k s f0 c)
      (qcd.gluon.propagator_landau_w_field_config k s f0 c) ∧
    Consistent s (qcd.gluon.dressing_inv_w_field_config k s f0 xi c)
      (qcd.gluon.dressing_w_field_config k s f0 xi c)
      (qcd.gluon.propagator_w_field_config k s f0 xi c) ∧
    Consistent s (qcd.gluon.dressing_crossed_inv_landau_w_field_config k s f0 c)
      (qcd.gluon.dressing_crossed_landau_w_field_config k s f0 c)
      (qcd.gluon.propagator_crossed_landau_w_field_config k s f0 c) ∧
    Consistent s (qcd.gluon.dressing_crossed_inv_w_field_config k s f0 xi c)
      (qcd.gluon.dressing_crossed_w_field_config k s f0 xi c)
      (qcd.gluon.propagator_crossed_w_field_config k s f0 xi c) := by
  refine ⟨?_, ?_, ?_, ?_, ?_, ?_, ?_, ?_, ?_, ?_, ?_, ?_⟩
  all_goals
    intro h
    refine ⟨inv_mul_cancel₀ h, fun hs => ?_⟩
    have key := consistent_of (s := s) h
    first
      | exact key.2 hs
      | (have := key.2 hs; rw [div_eq_mul_inv] at this; exact this)
      | (have := key.2 hs; rw [div_eq_inv_mul] at this; exact this)

/-- The hypotheses are met: at `s = 1` the ghost inverse dressing is nonzero for a suitable `g0`. -/
example : ∃ g0 : ℝ, ghost.dressing_inv_landau (1 : ℝ) g0 ≠ 0 := by
  refine ⟨1 - ghost.g 1, ?_⟩
  rw [(C17_dressing_inv_affine (1 : ℝ) 0 _ 0).1]
  simp

end Qcd
