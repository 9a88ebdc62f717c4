import Verif.Model.Num

/-! # Vacuum one-loop functions: `low_level/oneloop/{ghost,gluon}.rs`, `ym/{ghost,gluon}.rs` -/

namespace Qcd
variable {T : Type} [NumOps T]

namespace ghost

/-- low_level/oneloop/ghost.rs l.144-150. -/
noncomputable def l_g (s ln_s ln_s_pl_1 : T) : T :=
  let sinv := s⁻¹
  let sinv2 := sinv * sinv
  let s_pl_1 := s + ofR 1
  let s_pl_1_2 := s_pl_1 * s_pl_1
  s_pl_1_2 * (sinv * ofR 2 - sinv2) * ln_s_pl_1 - s * ofR 2 * ln_s

/-- low_level/oneloop/ghost.rs l.153-155. -/
noncomputable def r_g (s : T) : T := s⁻¹ + ofR 2

/-- low_level/oneloop/ghost.rs l.158-160. -/
noncomputable def g_sep (s ln_s ln_s_pl_1 : T) : T := (l_g s ln_s ln_s_pl_1 + r_g s) / ofR 12

/-- low_level/oneloop/ghost.rs l.163-168. -/
noncomputable def g (s : T) : T :=
  let s_pl_1 := s + ofR 1
  let ln_s := NumOps.ln s
  let ln_s_pl_1 := NumOps.ln s_pl_1
  g_sep s ln_s ln_s_pl_1

/-- low_level/oneloop/ghost.rs l.171-173. -/
noncomputable def g_xi_sep (ln_s : T) : T := -ln_s / ofR 12

/-- low_level/oneloop/ghost.rs l.176-178. -/
noncomputable def g_xi (s : T) : T := -NumOps.ln s / ofR 12

/-- low_level/oneloop/ghost.rs l.181-183. -/
noncomputable def dressing_inv_landau_sep (s ln_s ln_s_pl_1 : T) (g0 : ℝ) : T :=
  g_sep s ln_s ln_s_pl_1 + ofR g0

/-- low_level/oneloop/ghost.rs l.186-188. -/
noncomputable def dressing_inv_sep (s ln_s ln_s_pl_1 : T) (g0 xi : ℝ) : T :=
  dressing_inv_landau_sep s ln_s ln_s_pl_1 g0 + g_xi_sep ln_s * ofR xi

/-- ym/ghost.rs l.125-130 (also qcd/ghost.rs, a re-export). -/
noncomputable def dressing_inv_landau (s : T) (g0 : ℝ) : T :=
  let s_pl_1 := s + ofR 1
  let ln_s := NumOps.ln s
  let ln_s_pl_1 := NumOps.ln s_pl_1
  dressing_inv_landau_sep s ln_s ln_s_pl_1 g0

/-- ym/ghost.rs l.133-138. -/
noncomputable def dressing_inv (s : T) (g0 xi : ℝ) : T :=
  let s_pl_1 := s + ofR 1
  let ln_s := NumOps.ln s
  let ln_s_pl_1 := NumOps.ln s_pl_1
  dressing_inv_sep s ln_s ln_s_pl_1 g0 xi

/-- ym/ghost.rs l.141-143. -/
noncomputable def dressing_landau (s : T) (g0 : ℝ) : T := (dressing_inv_landau s g0)⁻¹

/-- ym/ghost.rs l.146-148. -/
noncomputable def dressing (s : T) (g0 xi : ℝ) : T := (dressing_inv s g0 xi)⁻¹

/-- ym/ghost.rs l.151-153. -/
noncomputable def propagator_landau (s : T) (g0 : ℝ) : T := s⁻¹ * dressing_landau s g0

/-- ym/ghost.rs l.156-158. -/
noncomputable def propagator (s : T) (g0 xi : ℝ) : T := s⁻¹ * dressing s g0 xi

end ghost

namespace gluon

/-- low_level/oneloop/gluon.rs l.172-177. -/
noncomputable def l_a (s ln_s : T) : T :=
  let s2 := s * s
  let sinv := s⁻¹
  let a := NumOps.sqrt (sinv * ofR 4 + ofR 1)
  (s2 * ofR 3 - s * ofR 34 - ofR 28 - sinv * ofR 24) * a
    * (NumOps.ln ((a - ofR 1) / ofR 2) * ofR 2 + ln_s)

/-- low_level/oneloop/gluon.rs l.180-187. -/
noncomputable def l_b (s ln_s_pl_1 : T) : T :=
  let sinv := s⁻¹
  let sinv2 := sinv * sinv
  let sinv3 := sinv * sinv2
  let s_pl_1 := s + ofR 1
  let s_pl_1_2 := s_pl_1 * s_pl_1
  s_pl_1_2 * (-sinv * ofR 20 + ofR 3 + sinv2 * ofR 11 - sinv3 * ofR 2) * ofR 2 * ln_s_pl_1

/-- low_level/oneloop/gluon.rs l.190-193. -/
noncomputable def l_c (s ln_s : T) : T :=
  let s2 := s * s
  (-s2 * ofR 3 + ofR 2) * ln_s

/-- low_level/oneloop/gluon.rs l.196-199. -/
noncomputable def r_a (s : T) : T :=
  let sinv := s⁻¹;
  -(s + ofR 4) * (s - ofR 20 + sinv * ofR 12)

/-- low_level/oneloop/gluon.rs l.202-208. -/
noncomputable def r_b (s : T) : T :=
  let sinv := s⁻¹
  let sinv2 := sinv * sinv
  let s_pl_1 := s + ofR 1
  let s_pl_1_2 := s_pl_1 * s_pl_1
  s_pl_1_2 * ofR 2 * (-sinv * ofR 10 + ofR 1 + sinv2)

/-- low_level/oneloop/gluon.rs l.211-216. -/
noncomputable def r_c (s : T) : T :=
  let s2 := s * s
  let sinv := s⁻¹
  let sinv2 := sinv * sinv
  sinv2 * ofR 2 + ofR 2 - s2

/-- low_level/oneloop/gluon.rs l.219-223. -/
noncomputable def f_sep (s ln_s ln_s_pl_1 : T) : T :=
  let sinv := s⁻¹
  (l_a s ln_s + l_b s ln_s_pl_1 + l_c s ln_s + r_a s + r_b s + r_c s) / ofR 72
    + sinv * ofR 5 / ofR 8

/-- low_level/oneloop/gluon.rs l.226-231. -/
noncomputable def f (s : T) : T :=
  let s_pl_1 := s + ofR 1
  let ln_s := NumOps.ln s
  let ln_s_pl_1 := NumOps.ln s_pl_1
  f_sep s ln_s ln_s_pl_1

/-- low_level/oneloop/gluon.rs l.234-242. -/
noncomputable def f_xi_sep (s ln_s ln_s_pl_1 : T) : T :=
  let s2 := s * s
  let sinv := s⁻¹
  let sinv2 := sinv * sinv
  sinv / ofR 4
    - (s * ofR 2 * ln_s - (sinv2 - sinv) * (sinv - s2) * ofR 2 * ln_s_pl_1 + ofR 3 - sinv * ofR 3
        + sinv2 * ofR 2)
      / ofR 12

/-- low_level/oneloop/gluon.rs l.245-250. -/
noncomputable def f_xi (s : T) : T :=
  let ln_s := NumOps.ln s
  let s_pl_1 := s + ofR 1
  let ln_s_pl_1 := NumOps.ln s_pl_1
  f_xi_sep s ln_s ln_s_pl_1

/-- low_level/oneloop/gluon.rs l.257-262. -/
noncomputable def f_q (s : T) : T :=
  let sinv := s⁻¹
  let a2 := sinv * ofR 4 + ofR 1
  let a := NumOps.sqrt a2
  ((-sinv + ofR (1 / 2)) * a * NumOps.ln ((a - ofR 1) / (a + ofR 1)) - sinv * ofR 2 + ofR (5 / 6))
    * ofR 4 / ofR 9

/-- low_level/oneloop/gluon.rs l.269-275. -/
noncomputable def f_q_crossed (s : T) : T :=
  let sinv := s⁻¹
  let sinv2 := sinv * sinv
  let a2 := sinv * ofR 4 + ofR 1
  let a := NumOps.sqrt a2
  (sinv * ofR 4 - ofR (1 / 6)
    + (sinv + ofR (1 / 2) + sinv2 * ofR 8) / a * NumOps.ln ((a - ofR 1) / (a + ofR 1))) * ofR 4 / ofR 9

/-- low_level/oneloop/gluon.rs l.278-280. -/
noncomputable def ym_dressing_inv_landau_sep (s ln_s ln_s_pl_1 : T) (f0 : ℝ) : T :=
  f_sep s ln_s ln_s_pl_1 + ofR f0

/-- low_level/oneloop/gluon.rs l.283-285. -/
noncomputable def ym_dressing_inv_sep (s ln_s ln_s_pl_1 : T) (f0 xi : ℝ) : T :=
  ym_dressing_inv_landau_sep s ln_s ln_s_pl_1 f0 + f_xi_sep s ln_s ln_s_pl_1 * ofR xi

end gluon

namespace ym.gluon
open Qcd.gluon

/-- ym/gluon.rs l.124-129. -/
noncomputable def dressing_inv_landau (s : T) (f0 : ℝ) : T :=
  let s_pl_1 := s + ofR 1
  let ln_s := NumOps.ln s
  let ln_s_pl_1 := NumOps.ln s_pl_1
  ym_dressing_inv_landau_sep s ln_s ln_s_pl_1 f0

/-- ym/gluon.rs l.132-137. -/
noncomputable def dressing_inv (s : T) (f0 xi : ℝ) : T :=
  let s_pl_1 := s + ofR 1
  let ln_s := NumOps.ln s
  let ln_s_pl_1 := NumOps.ln s_pl_1
  ym_dressing_inv_sep s ln_s ln_s_pl_1 f0 xi

/-- ym/gluon.rs l.140-142. -/
noncomputable def dressing_landau (s : T) (f0 : ℝ) : T := (dressing_inv_landau s f0)⁻¹

/-- ym/gluon.rs l.145-147. -/
noncomputable def dressing (s : T) (f0 xi : ℝ) : T := (dressing_inv s f0 xi)⁻¹

/-- ym/gluon.rs l.150-152. -/
noncomputable def propagator_landau (s : T) (f0 : ℝ) : T := dressing_landau s f0 * s⁻¹

/-- ym/gluon.rs l.155-157. -/
noncomputable def propagator (s : T) (f0 xi : ℝ) : T := dressing s f0 xi * s⁻¹

end ym.gluon
end Qcd
