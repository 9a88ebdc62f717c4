import Verif.Model.Vacuum
import Verif.Model.Consts

/-! # Vacuum QCD gluon: `qcd/types.rs`, `qcd/gluon.rs`

Every function of `qcd/gluon.rs` has access to the global constants; the model passes them
explicitly (`k : Consts ℝ`), also to the `*_w_field_config` functions, which do not read them. -/

namespace Qcd
open consts (Consts)

/-- qcd/types.rs l.36-41. -/
structure QuarkInternal where
  nf : ℕ
  mq : ℝ
  nf_div_nc : ℝ
  mq_div_m_2 : ℝ

/-- qcd/types.rs l.44-52. -/
noncomputable def QuarkInternal.new (nc : ℕ) (m : ℝ) (nf : ℕ) (mq : ℝ) : QuarkInternal :=
  let nf_div_nc := (nf : ℝ) / (nc : ℝ)
  let mq_div_m := mq / m
  let mq_div_m_2 := mq_div_m * mq_div_m
  { nf, mq, nf_div_nc, mq_div_m_2 }

/-- qcd/types.rs l.6-16. The first three fields are public and can be assigned by the user. -/
structure FieldConfig where
  nc : ℕ
  gluon : ℝ
  quarks : List (ℕ × ℝ)
  quarks_internal : List QuarkInternal

/-- qcd/types.rs l.19-31. -/
noncomputable def FieldConfig.new (nc : ℕ) (gluon : ℝ) (quarks : List (ℕ × ℝ)) : FieldConfig :=
  let quarks_internal := quarks.map (fun q => QuarkInternal.new nc gluon q.1 q.2)
  { nc, gluon, quarks, quarks_internal }

namespace qcd.gluon
open Qcd.gluon
variable {T : Type} [NumOps T]

/-- qcd/gluon.rs l.275-282. -/
noncomputable def dressing_inv_landau (k : Consts ℝ) (s : T) (mq f0 : ℝ) : T :=
  let s_pl_1 := s + ofR 1
  let ln_s := NumOps.ln s
  let ln_s_pl_1 := NumOps.ln s_pl_1
  let mq2 := mq * mq
  let s_q := s / ofR mq2
  ym_dressing_inv_landau_sep s ln_s ln_s_pl_1 f0 + f_q s_q * ofR k.nf_div_nc

/-- qcd/gluon.rs l.285-292. -/
noncomputable def dressing_inv (k : Consts ℝ) (s : T) (mq f0 xi : ℝ) : T :=
  let s_pl_1 := s + ofR 1
  let ln_s := NumOps.ln s
  let ln_s_pl_1 := NumOps.ln s_pl_1
  let mq2 := mq * mq
  let s_q := s / ofR mq2
  ym_dressing_inv_sep s ln_s ln_s_pl_1 f0 xi + f_q s_q * ofR k.nf_div_nc

/-- qcd/gluon.rs l.295-297. -/
noncomputable def dressing_landau (k : Consts ℝ) (s : T) (mq f0 : ℝ) : T :=
  (dressing_inv_landau k s mq f0)⁻¹

/-- qcd/gluon.rs l.300-302. -/
noncomputable def dressing (k : Consts ℝ) (s : T) (mq f0 xi : ℝ) : T :=
  (dressing_inv k s mq f0 xi)⁻¹

/-- qcd/gluon.rs l.305-307. -/
noncomputable def propagator_landau (k : Consts ℝ) (s : T) (mq f0 : ℝ) : T :=
  dressing_landau k s mq f0 / s

/-- qcd/gluon.rs l.310-312. -/
noncomputable def propagator (k : Consts ℝ) (s : T) (mq f0 xi : ℝ) : T :=
  dressing k s mq f0 xi / s

/-- qcd/gluon.rs l.315-322. -/
noncomputable def dressing_crossed_inv_landau (k : Consts ℝ) (s : T) (mq f0 : ℝ) : T :=
  let s_pl_1 := s + ofR 1
  let ln_s := NumOps.ln s
  let ln_s_pl_1 := NumOps.ln s_pl_1
  let mq2 := mq * mq
  let s_q := s / ofR mq2
  ym_dressing_inv_landau_sep s ln_s ln_s_pl_1 f0 + f_q_crossed s_q * ofR k.nf_div_nc

/-- qcd/gluon.rs l.325-332. -/
noncomputable def dressing_crossed_inv (k : Consts ℝ) (s : T) (mq f0 xi : ℝ) : T :=
  let s_pl_1 := s + ofR 1
  let ln_s := NumOps.ln s
  let ln_s_pl_1 := NumOps.ln s_pl_1
  let mq2 := mq * mq
  let s_q := s / ofR mq2
  ym_dressing_inv_sep s ln_s ln_s_pl_1 f0 xi + f_q_crossed s_q * ofR k.nf_div_nc

/-- qcd/gluon.rs l.335-337. -/
noncomputable def dressing_crossed_landau (k : Consts ℝ) (s : T) (mq f0 : ℝ) : T :=
  (dressing_crossed_inv_landau k s mq f0)⁻¹

/-- qcd/gluon.rs l.340-342. -/
noncomputable def dressing_crossed (k : Consts ℝ) (s : T) (mq f0 xi : ℝ) : T :=
  (dressing_crossed_inv k s mq f0 xi)⁻¹

/-- qcd/gluon.rs l.345-347. -/
noncomputable def propagator_crossed_landau (k : Consts ℝ) (s : T) (mq f0 : ℝ) : T :=
  dressing_crossed_landau k s mq f0 / s

/-- qcd/gluon.rs l.350-352. -/
noncomputable def propagator_crossed (k : Consts ℝ) (s : T) (mq f0 xi : ℝ) : T :=
  dressing_crossed k s mq f0 xi / s

/-- qcd/gluon.rs l.355-365. -/
noncomputable def dressing_inv_landau_w_field_config (_k : Consts ℝ) (s : T) (f0 : ℝ) (config : FieldConfig) : T :=
  let s_pl_1 := s + ofR 1
  let ln_s := NumOps.ln s
  let ln_s_pl_1 := NumOps.ln s_pl_1
  let res := ym_dressing_inv_landau_sep s ln_s ln_s_pl_1 f0
  config.quarks_internal.foldl (fun res qi =>
    let s_q := s / ofR qi.mq_div_m_2
    res + f_q s_q * ofR qi.nf_div_nc) res

/-- qcd/gluon.rs l.368-378. -/
noncomputable def dressing_inv_w_field_config (_k : Consts ℝ) (s : T) (f0 xi : ℝ) (config : FieldConfig) : T :=
  let s_pl_1 := s + ofR 1
  let ln_s := NumOps.ln s
  let ln_s_pl_1 := NumOps.ln s_pl_1
  let res := ym_dressing_inv_sep s ln_s ln_s_pl_1 f0 xi
  config.quarks_internal.foldl (fun res qi =>
    let s_q := s / ofR qi.mq_div_m_2
    res + f_q s_q * ofR qi.nf_div_nc) res

/-- qcd/gluon.rs l.381-383. -/
noncomputable def dressing_landau_w_field_config (k : Consts ℝ) (s : T) (f0 : ℝ) (config : FieldConfig) : T :=
  (dressing_inv_landau_w_field_config k s f0 config)⁻¹

/-- qcd/gluon.rs l.386-388. -/
noncomputable def dressing_w_field_config (k : Consts ℝ) (s : T) (f0 xi : ℝ) (config : FieldConfig) : T :=
  (dressing_inv_w_field_config k s f0 xi config)⁻¹

/-- qcd/gluon.rs l.391-393. -/
noncomputable def propagator_landau_w_field_config (k : Consts ℝ) (s : T) (f0 : ℝ) (config : FieldConfig) : T :=
  dressing_landau_w_field_config k s f0 config / s

/-- qcd/gluon.rs l.396-398. -/
noncomputable def propagator_w_field_config (k : Consts ℝ) (s : T) (f0 xi : ℝ) (config : FieldConfig) : T :=
  dressing_w_field_config k s f0 xi config / s

/-- qcd/gluon.rs l.401-415. -/
noncomputable def dressing_crossed_inv_landau_w_field_config (_k : Consts ℝ) (s : T) (f0 : ℝ) (config : FieldConfig) : T :=
  let s_pl_1 := s + ofR 1
  let ln_s := NumOps.ln s
  let ln_s_pl_1 := NumOps.ln s_pl_1
  let res := ym_dressing_inv_landau_sep s ln_s ln_s_pl_1 f0
  config.quarks_internal.foldl (fun res qi =>
    let s_q := s / ofR qi.mq_div_m_2
    res + f_q_crossed s_q * ofR qi.nf_div_nc) res

/-- qcd/gluon.rs l.418-433. -/
noncomputable def dressing_crossed_inv_w_field_config (_k : Consts ℝ) (s : T) (f0 xi : ℝ) (config : FieldConfig) : T :=
  let s_pl_1 := s + ofR 1
  let ln_s := NumOps.ln s
  let ln_s_pl_1 := NumOps.ln s_pl_1
  let res := ym_dressing_inv_sep s ln_s ln_s_pl_1 f0 xi
  config.quarks_internal.foldl (fun res qi =>
    let s_q := s / ofR qi.mq_div_m_2
    res + f_q_crossed s_q * ofR qi.nf_div_nc) res

/-- qcd/gluon.rs l.436-438. -/
noncomputable def dressing_crossed_landau_w_field_config (k : Consts ℝ) (s : T) (f0 : ℝ) (config : FieldConfig) : T :=
  (dressing_crossed_inv_landau_w_field_config k s f0 config)⁻¹

/-- qcd/gluon.rs l.441-443. -/
noncomputable def dressing_crossed_w_field_config (k : Consts ℝ) (s : T) (f0 xi : ℝ) (config : FieldConfig) : T :=
  (dressing_crossed_inv_w_field_config k s f0 xi config)⁻¹

/-- qcd/gluon.rs l.446-452. -/
noncomputable def propagator_crossed_landau_w_field_config (k : Consts ℝ) (s : T) (f0 : ℝ) (config : FieldConfig) : T :=
  dressing_crossed_landau_w_field_config k s f0 config / s

/-- qcd/gluon.rs l.455-462. -/
noncomputable def propagator_crossed_w_field_config (k : Consts ℝ) (s : T) (f0 xi : ℝ) (config : FieldConfig) : T :=
  dressing_crossed_w_field_config k s f0 xi config / s

end qcd.gluon
end Qcd
