import Verif.Model.Ffi
import Verif.Model.ThermalDressing

/-! # The Python scripts: `python/pyqcd_sme_so.pyx` and `tests/ym_gluon_propagator.py`

Simplifications: Python floats are read as `ℝ` and complex numbers as `ℂ`. A file is a list of
lines, a line a list of tokens, a token the number `float` returns for it, or `none` when `float`
raises `ValueError`. Opening the file and printing are not modelled. -/

namespace Qcd
namespace scripts

/-! ### `python/pyqcd_sme_so.pyx` -/

/-- The C structure `C` (pyqcd_sme_so.pyx l.1; types.rs l.12): real and imaginary part. -/
structure FfiC where
  re : ℝ
  im : ℝ

/-- The complex number a C structure holds (the layout of num-complex, `repr(C)`) (pyqcd_sme_so.pyx l.12, l.19). -/
def FfiC.toComplex (z : FfiC) : ℂ := ⟨z.re, z.im⟩

/-- The C structure that holds a complex number (pyqcd_sme_so.pyx l.11, l.18). -/
def FfiC.ofComplex (z : ℂ) : FfiC := ⟨z.re, z.im⟩

/-- The imported C function (pyqcd_sme_so.pyx l.3), on C structures. -/
noncomputable def ffi__ym__gluon__dressing_inv_landau__complex (s : FfiC) (f0 : ℝ) : FfiC :=
  FfiC.ofComplex (ffi.ym__gluon__dressing_inv_landau__complex s.toComplex f0)

/-- The imported C function (pyqcd_sme_so.pyx l.5), on C structures. -/
noncomputable def ffi__ym__gluon__dressing_landau__complex (s : FfiC) (f0 : ℝ) : FfiC :=
  FfiC.ofComplex (ffi.ym__gluon__dressing_landau__complex s.toComplex f0)

/-- python/pyqcd_sme_so.pyx l.7-8. -/
noncomputable def ym__gluon__dressing_inv_landau (s f0 : ℝ) : ℝ := ffi.ym__gluon__dressing_inv_landau s f0

/-- python/pyqcd_sme_so.pyx l.10-12. -/
noncomputable def ym__gluon__dressing_inv_landau__complex (s : ℂ) (f0 : ℝ) : ℂ :=
  let res := ffi__ym__gluon__dressing_inv_landau__complex ⟨s.re, s.im⟩ f0
  (res.re : ℂ) + Complex.I * (res.im : ℂ)

/-- python/pyqcd_sme_so.pyx l.14-15. -/
noncomputable def ym__gluon__dressing_landau (s f0 : ℝ) : ℝ := ffi.ym__gluon__dressing_landau s f0

/-- python/pyqcd_sme_so.pyx l.17-19. -/
noncomputable def ym__gluon__dressing_landau__complex (s : ℂ) (f0 : ℝ) : ℂ :=
  let res := ffi__ym__gluon__dressing_landau__complex ⟨s.re, s.im⟩ f0
  (res.re : ℂ) + Complex.I * (res.im : ℂ)

/-! ### `tests/ym_gluon_propagator.py` -/

/-- The exceptions the script can raise (tests/ym_gluon_propagator.py l.17-29). -/
inductive Err where
  | value
  | zeroDivision
  | assertion
  deriving DecidableEq

/-- tests/ym_gluon_propagator.py l.7-12, the column for a projection. -/
def column (proj : String) : ℕ :=
  if proj == "l" then 4 else if proj == "t" then 6 else 12

/-- Python division of floats (tests/ym_gluon_propagator.py l.21, 22, 29). -/
noncomputable def div (a b : ℝ) : Except Err ℝ :=
  open Classical in if b = 0 then .error .zeroDivision else .ok (a / b)

/-- `float(token)` (tests/ym_gluon_propagator.py l.17, 21). -/
def float (token : Option (Option ℝ)) : Except Err ℝ :=
  match token with
  | some (some x) => .ok x
  | _ => .error .value

/-- The local variables `data` and `norm` (l.4-5). -/
structure Local where
  data : List (ℝ × ℝ)
  norm : Option ℝ

/-- tests/ym_gluon_propagator.py l.14-25, one turn of the loop over the lines. -/
noncomputable def turn (idx : ℕ) (f0 : ℝ) (v : Local) (ll : List (Option ℝ)) : Except Err Local :=
  if ll.length ≠ 16 then .ok v
  else do
    let p ← float ll[0]?
    let x ← float ll[idx]?
    let r ← div 1 (p ^ 2 * x / 2.684)
    let dress_inv := r + f0 + 0.876
    let prop ← div 1 (p ^ 2 * dress_inv)
    let data := v.data ++ [(p, prop)]
    let norm := open Classical in if p = 2 then some prop else v.norm
    .ok { data, norm }

/-- tests/ym_gluon_propagator.py l.3-30. -/
noncomputable def read_file_data (file : List (List (Option ℝ))) (proj : String) (f0 : ℝ) :
    Except Err (List (ℝ × ℝ)) := do
  let v ← file.foldlM (turn (column proj) f0) { data := [], norm := none }
  match v.norm with
  | none => .error .assertion
  | some norm =>
    let norm := norm * 2 ^ 2
    v.data.mapM (fun d => do let y ← div d.2 norm; .ok (d.1, y))

end scripts
end Qcd
