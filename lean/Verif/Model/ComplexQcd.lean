import Verif.Model.ComplexVacuum
import Verif.Model.FloatConfig

/-! # Gluon functions with quarks of complex momenta, in floating-point arithmetic

The instances for `T = C` of `qcd/gluon.rs`. The numbers of the field configuration are computed with the operations of `f64` (`ComputedConfig.new`). -/

namespace Qcd.CFl
open Fl CFl.gluon

variable {r : Rounding}

namespace qcd

/-- qcd/gluon.rs l.275-282, `T = C`; the constant `nf_div_nc()` is the argument `k`. -/
noncomputable def dressing_inv_landau (k : Fl r) (s : CFl r) (mq f0 : Fl r) : CFl r :=
  let s_pl_1 := s + (ofR 1 : Fl r)
  let ln_s := ln s
  let ln_s_pl_1 := ln s_pl_1
  let mq2 := mq * mq
  let s_q := s / mq2
  ym_dressing_inv_landau_sep s ln_s ln_s_pl_1 f0 + f_q s_q * k

/-- qcd/gluon.rs l.285-292, `T = C`. -/
noncomputable def dressing_inv (k : Fl r) (s : CFl r) (mq f0 xi : Fl r) : CFl r :=
  let s_pl_1 := s + (ofR 1 : Fl r)
  let ln_s := ln s
  let ln_s_pl_1 := ln s_pl_1
  let mq2 := mq * mq
  let s_q := s / mq2
  ym_dressing_inv_sep s ln_s ln_s_pl_1 f0 xi + f_q s_q * k

/-- qcd/gluon.rs l.295-297, `T = C`. -/
noncomputable def dressing_landau (k : Fl r) (s : CFl r) (mq f0 : Fl r) : CFl r := (dressing_inv_landau k s mq f0)⁻¹

/-- qcd/gluon.rs l.300-302, `T = C`. -/
noncomputable def dressing (k : Fl r) (s : CFl r) (mq f0 xi : Fl r) : CFl r := (dressing_inv k s mq f0 xi)⁻¹

/-- qcd/gluon.rs l.305-307, `T = C`. -/
noncomputable def propagator_landau (k : Fl r) (s : CFl r) (mq f0 : Fl r) : CFl r := dressing_landau k s mq f0 / s

/-- qcd/gluon.rs l.310-312, `T = C`. -/
noncomputable def propagator (k : Fl r) (s : CFl r) (mq f0 xi : Fl r) : CFl r := dressing k s mq f0 xi / s

/-- qcd/gluon.rs l.315-322, `T = C`. -/
noncomputable def dressing_crossed_inv_landau (k : Fl r) (s : CFl r) (mq f0 : Fl r) : CFl r :=
  let s_pl_1 := s + (ofR 1 : Fl r)
  let ln_s := ln s
  let ln_s_pl_1 := ln s_pl_1
  let mq2 := mq * mq
  let s_q := s / mq2
  ym_dressing_inv_landau_sep s ln_s ln_s_pl_1 f0 + f_q_crossed s_q * k

/-- qcd/gluon.rs l.325-332, `T = C`. -/
noncomputable def dressing_crossed_inv (k : Fl r) (s : CFl r) (mq f0 xi : Fl r) : CFl r :=
  let s_pl_1 := s + (ofR 1 : Fl r)
  let ln_s := ln s
  let ln_s_pl_1 := ln s_pl_1
  let mq2 := mq * mq
  let s_q := s / mq2
  ym_dressing_inv_sep s ln_s ln_s_pl_1 f0 xi + f_q_crossed s_q * k

/-- qcd/gluon.rs l.335-337, `T = C`. -/
noncomputable def dressing_crossed_landau (k : Fl r) (s : CFl r) (mq f0 : Fl r) : CFl r := (dressing_crossed_inv_landau k s mq f0)⁻¹

/-- qcd/gluon.rs l.340-342, `T = C`. -/
noncomputable def dressing_crossed (k : Fl r) (s : CFl r) (mq f0 xi : Fl r) : CFl r := (dressing_crossed_inv k s mq f0 xi)⁻¹

/-- qcd/gluon.rs l.345-347, `T = C`. -/
noncomputable def propagator_crossed_landau (k : Fl r) (s : CFl r) (mq f0 : Fl r) : CFl r := dressing_crossed_landau k s mq f0 / s

/-- qcd/gluon.rs l.350-352, `T = C`. -/
noncomputable def propagator_crossed (k : Fl r) (s : CFl r) (mq f0 xi : Fl r) : CFl r := dressing_crossed k s mq f0 xi / s

/-- qcd/gluon.rs l.355-365, `T = C`. -/
noncomputable def dressing_inv_landau_w_field_config (s : CFl r) (f0 : Fl r) (config : ComputedConfig (Fl r)) : CFl r :=
  let s_pl_1 := s + (ofR 1 : Fl r)
  let ln_s := ln s
  let ln_s_pl_1 := ln s_pl_1
  let res := ym_dressing_inv_landau_sep s ln_s ln_s_pl_1 f0
  config.quarks_internal.foldl (fun (res : CFl r) (qi : ComputedQuark (Fl r)) =>
    let s_q := s / qi.mq_div_m_2
    res + f_q s_q * qi.nf_div_nc) res

/-- qcd/gluon.rs l.368-378, `T = C`. -/
noncomputable def dressing_inv_w_field_config (s : CFl r) (f0 xi : Fl r) (config : ComputedConfig (Fl r)) : CFl r :=
  let s_pl_1 := s + (ofR 1 : Fl r)
  let ln_s := ln s
  let ln_s_pl_1 := ln s_pl_1
  let res := ym_dressing_inv_sep s ln_s ln_s_pl_1 f0 xi
  config.quarks_internal.foldl (fun (res : CFl r) (qi : ComputedQuark (Fl r)) =>
    let s_q := s / qi.mq_div_m_2
    res + f_q s_q * qi.nf_div_nc) res

/-- qcd/gluon.rs l.381-383, `T = C`. -/
noncomputable def dressing_landau_w_field_config (s : CFl r) (f0 : Fl r) (config : ComputedConfig (Fl r)) : CFl r :=
  (dressing_inv_landau_w_field_config s f0 config)⁻¹

/-- qcd/gluon.rs l.386-388, `T = C`. -/
noncomputable def dressing_w_field_config (s : CFl r) (f0 xi : Fl r) (config : ComputedConfig (Fl r)) : CFl r :=
  (dressing_inv_w_field_config s f0 xi config)⁻¹

/-- qcd/gluon.rs l.391-393, `T = C`. -/
noncomputable def propagator_landau_w_field_config (s : CFl r) (f0 : Fl r) (config : ComputedConfig (Fl r)) : CFl r :=
  dressing_landau_w_field_config s f0 config / s

/-- qcd/gluon.rs l.396-398, `T = C`. -/
noncomputable def propagator_w_field_config (s : CFl r) (f0 xi : Fl r) (config : ComputedConfig (Fl r)) : CFl r :=
  dressing_w_field_config s f0 xi config / s

/-- qcd/gluon.rs l.401-415, `T = C`. -/
noncomputable def dressing_crossed_inv_landau_w_field_config (s : CFl r) (f0 : Fl r) (config : ComputedConfig (Fl r)) : CFl r :=
  let s_pl_1 := s + (ofR 1 : Fl r)
  let ln_s := ln s
  let ln_s_pl_1 := ln s_pl_1
  let res := ym_dressing_inv_landau_sep s ln_s ln_s_pl_1 f0
  config.quarks_internal.foldl (fun (res : CFl r) (qi : ComputedQuark (Fl r)) =>
    let s_q := s / qi.mq_div_m_2
    res + f_q_crossed s_q * qi.nf_div_nc) res

/-- qcd/gluon.rs l.418-433, `T = C`. -/
noncomputable def dressing_crossed_inv_w_field_config (s : CFl r) (f0 xi : Fl r) (config : ComputedConfig (Fl r)) : CFl r :=
  let s_pl_1 := s + (ofR 1 : Fl r)
  let ln_s := ln s
  let ln_s_pl_1 := ln s_pl_1
  let res := ym_dressing_inv_sep s ln_s ln_s_pl_1 f0 xi
  config.quarks_internal.foldl (fun (res : CFl r) (qi : ComputedQuark (Fl r)) =>
    let s_q := s / qi.mq_div_m_2
    res + f_q_crossed s_q * qi.nf_div_nc) res

/-- qcd/gluon.rs l.436-438, `T = C`. -/
noncomputable def dressing_crossed_landau_w_field_config (s : CFl r) (f0 : Fl r) (config : ComputedConfig (Fl r)) : CFl r :=
  (dressing_crossed_inv_landau_w_field_config s f0 config)⁻¹

/-- qcd/gluon.rs l.441-443, `T = C`. -/
noncomputable def dressing_crossed_w_field_config (s : CFl r) (f0 xi : Fl r) (config : ComputedConfig (Fl r)) : CFl r :=
  (dressing_crossed_inv_w_field_config s f0 xi config)⁻¹

/-- qcd/gluon.rs l.446-452, `T = C`. -/
noncomputable def propagator_crossed_landau_w_field_config (s : CFl r) (f0 : Fl r) (config : ComputedConfig (Fl r)) : CFl r :=
  dressing_crossed_landau_w_field_config s f0 config / s

/-- qcd/gluon.rs l.455-462, `T = C`. -/
noncomputable def propagator_crossed_w_field_config (s : CFl r) (f0 xi : Fl r) (config : ComputedConfig (Fl r)) : CFl r :=
  dressing_crossed_w_field_config s f0 xi config / s

end qcd
end Qcd.CFl
