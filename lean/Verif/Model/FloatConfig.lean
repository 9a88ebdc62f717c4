import Verif.Model.Qcd
import Verif.Model.Binary64

/-! # Field configurations with computed numbers

In `Verif/Model/Qcd.lean` the numbers of a field configuration are exact real numbers. Here they have the type `F` of the momentum and are computed
with its operations, as in the code, where both are `f64`. For `F = ℝ` the two models agree (`C124_models_agree`). The variants of the functions
for complex momenta are in `Verif/Model/ComplexQcd.lean`. -/

namespace Qcd

/-- qcd/types.rs l.33-39. The fields `nf` and `mq` are not used by the functions below and left out. -/
structure ComputedQuark (F : Type) where
  nf_div_nc : F
  mq_div_m_2 : F

/-- qcd/types.rs l.6-16. -/
structure ComputedConfig (F : Type) where
  nc : ℕ
  gluon : F
  quarks : List (ℕ × F)
  quarks_internal : List (ComputedQuark F)

section
variable {F : Type} [NumOps F]

/-- qcd/types.rs l.42-53; `nf as R`, `nc as R`. -/
noncomputable def ComputedQuark.new (nc : ℕ) (m : F) (nf : ℕ) (mq : F) : ComputedQuark F :=
  let nf_div_nc := ofR (nf : ℝ) / ofR (nc : ℝ)
  let mq_div_m := mq / m
  let mq_div_m_2 := mq_div_m * mq_div_m
  { nf_div_nc, mq_div_m_2 }

/-- qcd/types.rs l.19-31. -/
noncomputable def ComputedConfig.new (nc : ℕ) (gluon : F) (quarks : List (ℕ × F)) : ComputedConfig F :=
  let quarks_internal := quarks.map (fun q => ComputedQuark.new nc gluon q.1 q.2)
  { nc, gluon, quarks, quarks_internal }

namespace computed
open Qcd.gluon

/-- qcd/gluon.rs l.355-365, real numbers. -/
noncomputable def dressing_inv_landau_w_field_config (s : F) (f0 : ℝ) (config : ComputedConfig F) : F :=
  let s_pl_1 := s + ofR 1
  let ln_s := NumOps.ln s
  let ln_s_pl_1 := NumOps.ln s_pl_1
  let res := ym_dressing_inv_landau_sep s ln_s ln_s_pl_1 f0
  config.quarks_internal.foldl (fun res qi =>
    let s_q := s / qi.mq_div_m_2
    res + f_q s_q * qi.nf_div_nc) res

/-- qcd/gluon.rs l.368-378, real numbers. -/
noncomputable def dressing_inv_w_field_config (s : F) (f0 xi : ℝ) (config : ComputedConfig F) : F :=
  let s_pl_1 := s + ofR 1
  let ln_s := NumOps.ln s
  let ln_s_pl_1 := NumOps.ln s_pl_1
  let res := ym_dressing_inv_sep s ln_s ln_s_pl_1 f0 xi
  config.quarks_internal.foldl (fun res qi =>
    let s_q := s / qi.mq_div_m_2
    res + f_q s_q * qi.nf_div_nc) res

/-- qcd/gluon.rs l.401-415, real numbers. -/
noncomputable def dressing_crossed_inv_landau_w_field_config (s : F) (f0 : ℝ) (config : ComputedConfig F) : F :=
  let s_pl_1 := s + ofR 1
  let ln_s := NumOps.ln s
  let ln_s_pl_1 := NumOps.ln s_pl_1
  let res := ym_dressing_inv_landau_sep s ln_s ln_s_pl_1 f0
  config.quarks_internal.foldl (fun res qi =>
    let s_q := s / qi.mq_div_m_2
    res + f_q_crossed s_q * qi.nf_div_nc) res

/-- qcd/gluon.rs l.418-433, real numbers. -/
noncomputable def dressing_crossed_inv_w_field_config (s : F) (f0 xi : ℝ) (config : ComputedConfig F) : F :=
  let s_pl_1 := s + ofR 1
  let ln_s := NumOps.ln s
  let ln_s_pl_1 := NumOps.ln s_pl_1
  let res := ym_dressing_inv_sep s ln_s ln_s_pl_1 f0 xi
  config.quarks_internal.foldl (fun res qi =>
    let s_q := s / qi.mq_div_m_2
    res + f_q_crossed s_q * qi.nf_div_nc) res

/-- qcd/gluon.rs l.381-383, real numbers. -/
noncomputable def dressing_landau_w_field_config (s : F) (f0 : ℝ) (config : ComputedConfig F) : F :=
  (dressing_inv_landau_w_field_config s f0 config)⁻¹

/-- qcd/gluon.rs l.391-393, real numbers. -/
noncomputable def propagator_landau_w_field_config (s : F) (f0 : ℝ) (config : ComputedConfig F) : F :=
  dressing_landau_w_field_config s f0 config / s

end computed
end
end Qcd
