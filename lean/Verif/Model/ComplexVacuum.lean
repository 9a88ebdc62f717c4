import Verif.Model.ComplexFloats

/-! # The vacuum functions of complex arguments in floating-point arithmetic

The instances of `low_level/oneloop/{ghost,gluon}.rs` and `ym/{ghost,gluon}.rs` for `T = C`, operation by operation: a sum, a difference, a product or a
quotient with a real number (`ops::Add<R>` and so on, types.rs l.33-40) acts on the components, which is not the complex operation with a number of
imaginary part zero. The complex operations are those of the crate `num` (`Complex<f64>`), and `hypot`, `atan2`, `cos` and `sin` those of the
mathematical library with correct rounding; neither is part of the repository. -/

namespace Qcd
open Fl

namespace Fl
variable {r : Rounding}

/-- `x.hypot(y)` (types.rs l.11-12 (`C` is `num::Complex<f64>`), used by `ln` and `sqrt` of types.rs l.118-130). -/
noncomputable def hypot (x y : Fl r) : Fl r := open Classical in
  if x.val = ⊤ ∨ x.val = ⊥ ∨ y.val = ⊤ ∨ y.val = ⊥ then num ⊤
  else if x.value = none ∨ y.value = none then nan
  else round r false (Real.sqrt (x.val.toReal ^ 2 + y.val.toReal ^ 2))

/-- `y.atan2(x)`. The sign bit of a zero `y` chooses the side of the negative axis
(types.rs l.11-12 (`C` is `num::Complex<f64>`), used by `ln` and `sqrt` of types.rs l.118-130). -/
noncomputable def atan2 (y x : Fl r) : Fl r := open Classical in
  let signed (t : ℝ) : Fl r := if y.isNeg = true then round r true (-t) else round r false t
  if x.value = none ∨ y.value = none then nan
  else if y.val = ⊤ ∨ y.val = ⊥ then
    if x.val = ⊤ then signed (Real.pi / 4) else if x.val = ⊥ then signed (3 * Real.pi / 4) else signed (Real.pi / 2)
  else if x.val = ⊤ then signed 0
  else if x.val = ⊥ then signed Real.pi
  else if y.val = 0 then (if x.isNeg = true then signed Real.pi else signed 0)
  else round r y.isNeg (Complex.arg ⟨x.val.toReal, y.val.toReal⟩)

/-- `x.cos()` (used by `sqrt` of types.rs l.128-130). -/
noncomputable def cos (x : Fl r) : Fl r := open Classical in
  if x.value = none ∨ x.val = ⊤ ∨ x.val = ⊥ then nan else round r (decide (Real.cos x.val.toReal < 0)) (Real.cos x.val.toReal)

/-- `x.sin()` (used by `sqrt` of types.rs l.128-130). -/
noncomputable def sin (x : Fl r) : Fl r := open Classical in
  if x.value = none ∨ x.val = ⊤ ∨ x.val = ⊥ then nan
  else round r (if x.val = 0 then x.isNeg else decide (Real.sin x.val.toReal < 0)) (Real.sin x.val.toReal)

/-- `x.abs()` (types.rs l.8-9 (`R` is `f64`)). -/
noncomputable def abs (x : Fl r) : Fl r := if x.isNeg = true then neg x else x

end Fl

namespace CFl
variable {r : Rounding}

/-- types.rs l.25-27: `C + C`. -/
noncomputable instance : Add (CFl r) := ⟨add⟩
/-- types.rs l.25-27: `C - C`. -/
noncomputable instance : Sub (CFl r) := ⟨sub⟩
/-- types.rs l.25-27: `C * C`. -/
noncomputable instance : Mul (CFl r) := ⟨mul⟩
/-- types.rs l.42. -/
noncomputable instance : Neg (CFl r) := ⟨fun a => ⟨-a.re, -a.im⟩⟩
/-- types.rs l.113-115. -/
noncomputable instance : Inv (CFl r) := ⟨inv⟩
/-- types.rs l.34. -/
noncomputable instance : HAdd (CFl r) (Fl r) (CFl r) := ⟨addReal⟩
/-- types.rs l.37. -/
noncomputable instance : HSub (CFl r) (Fl r) (CFl r) := ⟨subReal⟩
/-- types.rs l.35. -/
noncomputable instance : HMul (CFl r) (Fl r) (CFl r) := ⟨mulReal⟩
/-- types.rs l.36. -/
noncomputable instance : HDiv (CFl r) (Fl r) (CFl r) := ⟨divReal⟩

/-- The quotient of two complex numbers: the product with the conjugate, divided by the squared norm (types.rs l.25-27: `C / C`). -/
noncomputable instance : Div (CFl r) := ⟨fun a b =>
  ⟨(a.re * b.re + a.im * b.im) / (b.re * b.re + b.im * b.im), (a.im * b.re - a.re * b.im) / (b.re * b.re + b.im * b.im)⟩⟩

/-- `From<R> for C`: the imaginary part is zero, with a positive sign (types.rs l.47). -/
noncomputable def ofReal (x : Fl r) : CFl r := ⟨x, num 0⟩

/-- types.rs l.118-120: the logarithm of the norm, and the argument. -/
noncomputable def ln (z : CFl r) : CFl r := ⟨NumOps.ln (hypot z.re z.im), atan2 z.im z.re⟩

/-- types.rs l.128-130: the square root of the norm and half the argument, with special cases on the axes. -/
noncomputable def sqrt (z : CFl r) : CFl r := open Classical in
  if z.im.value = some 0 then
    if z.re.isNeg = true then
      let im := NumOps.sqrt (-z.re)
      ⟨num 0, if z.im.isNeg = true then -im else im⟩
    else ⟨NumOps.sqrt z.re, z.im⟩
  else if z.re.value = some 0 then
    let x := NumOps.sqrt (Fl.abs z.im / ofR 2)
    ⟨x, if z.im.isNeg = true then -x else x⟩
  else
    let n : Fl r := NumOps.sqrt (hypot z.re z.im)
    let theta := atan2 z.im z.re / ofR 2
    ⟨n * Fl.cos theta, n * Fl.sin theta⟩

/-! ## `low_level/oneloop/ghost.rs` and `ym/ghost.rs` -/

namespace ghost

/-- low_level/oneloop/ghost.rs l.144-150. -/
noncomputable def l_g (s ln_s ln_s_pl_1 : CFl r) : CFl r :=
  let sinv := s⁻¹
  let sinv2 := sinv * sinv
  let s_pl_1 := s + (ofR 1 : Fl r)
  let s_pl_1_2 := s_pl_1 * s_pl_1
  s_pl_1_2 * (sinv * (ofR 2 : Fl r) - sinv2) * ln_s_pl_1 - s * (ofR 2 : Fl r) * ln_s

/-- low_level/oneloop/ghost.rs l.153-155. -/
noncomputable def r_g (s : CFl r) : CFl r := s⁻¹ + (ofR 2 : Fl r)

/-- low_level/oneloop/ghost.rs l.158-160. -/
noncomputable def g_sep (s ln_s ln_s_pl_1 : CFl r) : CFl r := (l_g s ln_s ln_s_pl_1 + r_g s) / (ofR 12 : Fl r)

/-- low_level/oneloop/ghost.rs l.163-168. -/
noncomputable def g (s : CFl r) : CFl r :=
  let s_pl_1 := s + (ofR 1 : Fl r)
  let ln_s := ln s
  let ln_s_pl_1 := ln s_pl_1
  g_sep s ln_s ln_s_pl_1

/-- low_level/oneloop/ghost.rs l.171-173. -/
noncomputable def g_xi_sep (ln_s : CFl r) : CFl r := -ln_s / (ofR 12 : Fl r)

/-- low_level/oneloop/ghost.rs l.176-178. -/
noncomputable def g_xi (s : CFl r) : CFl r := -ln s / (ofR 12 : Fl r)

/-- low_level/oneloop/ghost.rs l.181-183. -/
noncomputable def dressing_inv_landau_sep (s ln_s ln_s_pl_1 : CFl r) (g0 : Fl r) : CFl r := g_sep s ln_s ln_s_pl_1 + g0

/-- low_level/oneloop/ghost.rs l.186-188. -/
noncomputable def dressing_inv_sep (s ln_s ln_s_pl_1 : CFl r) (g0 xi : Fl r) : CFl r :=
  dressing_inv_landau_sep s ln_s ln_s_pl_1 g0 + g_xi_sep ln_s * xi

/-- ym/ghost.rs l.125-130. -/
noncomputable def dressing_inv_landau (s : CFl r) (g0 : Fl r) : CFl r :=
  let s_pl_1 := s + (ofR 1 : Fl r)
  let ln_s := ln s
  let ln_s_pl_1 := ln s_pl_1
  dressing_inv_landau_sep s ln_s ln_s_pl_1 g0

/-- ym/ghost.rs l.133-138. -/
noncomputable def dressing_inv (s : CFl r) (g0 xi : Fl r) : CFl r :=
  let s_pl_1 := s + (ofR 1 : Fl r)
  let ln_s := ln s
  let ln_s_pl_1 := ln s_pl_1
  dressing_inv_sep s ln_s ln_s_pl_1 g0 xi

/-- ym/ghost.rs l.141-143. -/
noncomputable def dressing_landau (s : CFl r) (g0 : Fl r) : CFl r := (dressing_inv_landau s g0)⁻¹

/-- ym/ghost.rs l.146-148. -/
noncomputable def dressing (s : CFl r) (g0 xi : Fl r) : CFl r := (dressing_inv s g0 xi)⁻¹

/-- ym/ghost.rs l.151-153. -/
noncomputable def propagator_landau (s : CFl r) (g0 : Fl r) : CFl r := s⁻¹ * dressing_landau s g0

/-- ym/ghost.rs l.156-158. -/
noncomputable def propagator (s : CFl r) (g0 xi : Fl r) : CFl r := s⁻¹ * dressing s g0 xi

end ghost

/-! ## `low_level/oneloop/gluon.rs` and `ym/gluon.rs` -/

namespace gluon

/-- low_level/oneloop/gluon.rs l.172-177. -/
noncomputable def l_a (s ln_s : CFl r) : CFl r :=
  let s2 := s * s
  let sinv := s⁻¹
  let a := sqrt (sinv * (ofR 4 : Fl r) + (ofR 1 : Fl r))
  (s2 * (ofR 3 : Fl r) - s * (ofR 34 : Fl r) - (ofR 28 : Fl r) - sinv * (ofR 24 : Fl r)) * a
    * (ln ((a - (ofR 1 : Fl r)) / (ofR 2 : Fl r)) * (ofR 2 : Fl r) + ln_s)

/-- low_level/oneloop/gluon.rs l.180-187. -/
noncomputable def l_b (s ln_s_pl_1 : CFl r) : CFl r :=
  let sinv := s⁻¹
  let sinv2 := sinv * sinv
  let sinv3 := sinv * sinv2
  let s_pl_1 := s + (ofR 1 : Fl r)
  let s_pl_1_2 := s_pl_1 * s_pl_1
  s_pl_1_2 * (-sinv * (ofR 20 : Fl r) + (ofR 3 : Fl r) + sinv2 * (ofR 11 : Fl r) - sinv3 * (ofR 2 : Fl r)) * (ofR 2 : Fl r) * ln_s_pl_1

/-- low_level/oneloop/gluon.rs l.190-193. -/
noncomputable def l_c (s ln_s : CFl r) : CFl r :=
  let s2 := s * s
  (-s2 * (ofR 3 : Fl r) + (ofR 2 : Fl r)) * ln_s

/-- low_level/oneloop/gluon.rs l.196-199. -/
noncomputable def r_a (s : CFl r) : CFl r :=
  let sinv := s⁻¹;
  -(s + (ofR 4 : Fl r)) * (s - (ofR 20 : Fl r) + sinv * (ofR 12 : Fl r))

/-- low_level/oneloop/gluon.rs l.202-208. -/
noncomputable def r_b (s : CFl r) : CFl r :=
  let sinv := s⁻¹
  let sinv2 := sinv * sinv
  let s_pl_1 := s + (ofR 1 : Fl r)
  let s_pl_1_2 := s_pl_1 * s_pl_1
  s_pl_1_2 * (ofR 2 : Fl r) * (-sinv * (ofR 10 : Fl r) + (ofR 1 : Fl r) + sinv2)

/-- low_level/oneloop/gluon.rs l.211-216. -/
noncomputable def r_c (s : CFl r) : CFl r :=
  let s2 := s * s
  let sinv := s⁻¹
  let sinv2 := sinv * sinv
  sinv2 * (ofR 2 : Fl r) + (ofR 2 : Fl r) - s2

/-- low_level/oneloop/gluon.rs l.219-223. -/
noncomputable def f_sep (s ln_s ln_s_pl_1 : CFl r) : CFl r :=
  let sinv := s⁻¹
  (l_a s ln_s + l_b s ln_s_pl_1 + l_c s ln_s + r_a s + r_b s + r_c s) / (ofR 72 : Fl r) + sinv * (ofR 5 : Fl r) / (ofR 8 : Fl r)

/-- low_level/oneloop/gluon.rs l.226-231. -/
noncomputable def f (s : CFl r) : CFl r :=
  let s_pl_1 := s + (ofR 1 : Fl r)
  let ln_s := ln s
  let ln_s_pl_1 := ln s_pl_1
  f_sep s ln_s ln_s_pl_1

/-- low_level/oneloop/gluon.rs l.234-242. -/
noncomputable def f_xi_sep (s ln_s ln_s_pl_1 : CFl r) : CFl r :=
  let s2 := s * s
  let sinv := s⁻¹
  let sinv2 := sinv * sinv
  sinv / (ofR 4 : Fl r)
    - (s * (ofR 2 : Fl r) * ln_s - (sinv2 - sinv) * (sinv - s2) * (ofR 2 : Fl r) * ln_s_pl_1 + (ofR 3 : Fl r) - sinv * (ofR 3 : Fl r)
        + sinv2 * (ofR 2 : Fl r))
      / (ofR 12 : Fl r)

/-- low_level/oneloop/gluon.rs l.245-250. -/
noncomputable def f_xi (s : CFl r) : CFl r :=
  let ln_s := ln s
  let s_pl_1 := s + (ofR 1 : Fl r)
  let ln_s_pl_1 := ln s_pl_1
  f_xi_sep s ln_s ln_s_pl_1

/-- low_level/oneloop/gluon.rs l.257-262. The quotient `5. / 6.` is rounded. -/
noncomputable def f_q (s : CFl r) : CFl r :=
  let sinv := s⁻¹
  let a2 := sinv * (ofR 4 : Fl r) + (ofR 1 : Fl r)
  let a := sqrt a2
  ((-sinv + (ofR (1 / 2) : Fl r)) * a * ln ((a - (ofR 1 : Fl r)) / (a + (ofR 1 : Fl r))) - sinv * (ofR 2 : Fl r) + (ofR (5 / 6) : Fl r))
    * (ofR 4 : Fl r) / (ofR 9 : Fl r)

/-- low_level/oneloop/gluon.rs l.269-275. The quotient `1. / 6.` is rounded. -/
noncomputable def f_q_crossed (s : CFl r) : CFl r :=
  let sinv := s⁻¹
  let sinv2 := sinv * sinv
  let a2 := sinv * (ofR 4 : Fl r) + (ofR 1 : Fl r)
  let a := sqrt a2
  (sinv * (ofR 4 : Fl r) - (ofR (1 / 6) : Fl r)
    + (sinv + (ofR (1 / 2) : Fl r) + sinv2 * (ofR 8 : Fl r)) / a * ln ((a - (ofR 1 : Fl r)) / (a + (ofR 1 : Fl r)))) * (ofR 4 : Fl r) / (ofR 9 : Fl r)

/-- low_level/oneloop/gluon.rs l.278-280. -/
noncomputable def ym_dressing_inv_landau_sep (s ln_s ln_s_pl_1 : CFl r) (f0 : Fl r) : CFl r := f_sep s ln_s ln_s_pl_1 + f0

/-- low_level/oneloop/gluon.rs l.283-285. -/
noncomputable def ym_dressing_inv_sep (s ln_s ln_s_pl_1 : CFl r) (f0 xi : Fl r) : CFl r :=
  ym_dressing_inv_landau_sep s ln_s ln_s_pl_1 f0 + f_xi_sep s ln_s ln_s_pl_1 * xi

/-- ym/gluon.rs l.124-129. -/
noncomputable def dressing_inv_landau (s : CFl r) (f0 : Fl r) : CFl r :=
  let s_pl_1 := s + (ofR 1 : Fl r)
  let ln_s := ln s
  let ln_s_pl_1 := ln s_pl_1
  ym_dressing_inv_landau_sep s ln_s ln_s_pl_1 f0

/-- ym/gluon.rs l.132-137. -/
noncomputable def dressing_inv (s : CFl r) (f0 xi : Fl r) : CFl r :=
  let s_pl_1 := s + (ofR 1 : Fl r)
  let ln_s := ln s
  let ln_s_pl_1 := ln s_pl_1
  ym_dressing_inv_sep s ln_s ln_s_pl_1 f0 xi

/-- ym/gluon.rs l.140-142. -/
noncomputable def dressing_landau (s : CFl r) (f0 : Fl r) : CFl r := (dressing_inv_landau s f0)⁻¹

/-- ym/gluon.rs l.145-147. -/
noncomputable def dressing (s : CFl r) (f0 xi : Fl r) : CFl r := (dressing_inv s f0 xi)⁻¹

/-- ym/gluon.rs l.150-152. -/
noncomputable def propagator_landau (s : CFl r) (f0 : Fl r) : CFl r := dressing_landau s f0 * s⁻¹

/-- ym/gluon.rs l.155-157. -/
noncomputable def propagator (s : CFl r) (f0 xi : Fl r) : CFl r := dressing s f0 xi * s⁻¹

end gluon
end CFl
end Qcd
