import Verif.Model.Floats
import Verif.Model.Utils

/-! # Complex floating-point numbers, and the residues and spectral functions computed with them

The operations are those of the crate `num` (`Complex<f64>`), which is not part of the repository: sums, and products and quotients with real
numbers, act on the components; the reciprocal of `c + i d` is `(c - i d) / (c*c + d*d)`. -/

namespace Qcd

/-- The type `C` (types.rs l.11-12) with rounded components. -/
structure CFl (r : Rounding) where
  re : Fl r
  im : Fl r

namespace CFl
variable {r : Rounding}

/-- `+` of `Complex<f64>`: types.rs l.34-49 for `C`. -/
noncomputable def add (a b : CFl r) : CFl r := ⟨a.re + b.re, a.im + b.im⟩
/-- `-` of `Complex<f64>`: types.rs l.34-49 for `C`. -/
noncomputable def sub (a b : CFl r) : CFl r := ⟨a.re - b.re, a.im - b.im⟩
/-- `*` of `Complex<f64>`: types.rs l.34-49 for `C`. -/
noncomputable def mul (a b : CFl r) : CFl r := ⟨a.re * b.re - a.im * b.im, a.re * b.im + a.im * b.re⟩
/-- `C + R`: types.rs l.34. -/
noncomputable def addReal (a : CFl r) (x : Fl r) : CFl r := ⟨a.re + x, a.im⟩
/-- `C - R`: types.rs l.37. -/
noncomputable def subReal (a : CFl r) (x : Fl r) : CFl r := ⟨a.re - x, a.im⟩
/-- `C * R`: types.rs l.35. -/
noncomputable def mulReal (a : CFl r) (x : Fl r) : CFl r := ⟨a.re * x, a.im * x⟩
/-- `C / R`: types.rs l.36. -/
noncomputable def divReal (a : CFl r) (x : Fl r) : CFl r := ⟨a.re / x, a.im / x⟩

/-- `1. / self`, types.rs l.113-115. -/
noncomputable def inv (a : CFl r) : CFl r :=
  ⟨Fl.num 1 * a.re / (a.re * a.re + a.im * a.im), Fl.num 0 - Fl.num 1 * a.im / (a.re * a.re + a.im * a.im)⟩

/-- `I`, consts.rs l.15. -/
noncomputable def I : CFl r := ⟨Fl.num 0, Fl.num 1⟩

/-- utils.rs l.48-50, complex numbers. -/
noncomputable def compute_residue_with_eps (f : CFl r → CFl r) (z : CFl r) (eps : Fl r) : CFl r :=
  mulReal (mulReal (inv (sub (inv (f (addReal z eps))) (inv (f (subReal z eps))))) (ofR 2)) eps

/-- utils.rs l.54-56, complex numbers. -/
noncomputable def compute_residue (f : CFl r → CFl r) (z : CFl r) : CFl r := compute_residue_with_eps f z (ofR (1 / 10 ^ 12))

/-- utils.rs l.61-63. The constant `PI` is rounded. -/
noncomputable def spectral_function_with_eps (f : CFl r → CFl r) (z : CFl r) (eps : Fl r) : CFl r :=
  divReal (mul I (sub (f (add z (mulReal I eps))) (f (sub z (mulReal I eps))))) (ofR 2 * ofR Real.pi)

/-- utils.rs l.68-70. -/
noncomputable def spectral_function (f : CFl r → CFl r) (z : CFl r) : CFl r := spectral_function_with_eps f z (ofR (1 / 10 ^ 12))

end CFl
end Qcd
