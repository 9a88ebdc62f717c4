import Mathlib.Analysis.SpecialFunctions.Trigonometric.Arctan
import Verif.Model.Utils
import Verif.Model.ThermalDressing

/-! # `qcd-sme/examples/ym_thermal_gluon_poles.rs`

The example program that locates the gluon poles in the complex plane. Not modelled: the text printed on standard
output, except for the numbers in it (`Found`), the directory, and the drawing of the three plots from the data
handed to the plotting library. -/

namespace Qcd.examples.ym_thermal_gluon_poles
open consts (Consts)
open scoped ComplexConjugate

/-- l.7. -/
noncomputable def MG : ℝ := 656 / 1000
/-- l.9. -/
noncomputable def TOL : ℝ := 1 / 10 ^ 12
/-- l.10. -/
def MAX_ITER : ℕ := 1000000
/-- l.11. -/
noncomputable def Z0 : ℂ := ⟨-1, -1⟩
/-- l.12. -/
noncomputable def Z1 : ℂ := ⟨-(5 / 10), -(5 / 10)⟩

/-- The panics: the assertions of `utils::find_root`, l.27 and l.58, and l.64. -/
inductive Panic where
  | assertion
  | noRoot
  | notSymmetric
  deriving DecidableEq

/-- l.14-16. -/
noncomputable def find_root (f : ℂ → ℂ) : utils.RootResult ℂ :=
  utils.find_root (utils.exactOps ℂ) f (Z0, Z1) TOL MAX_ITER

/-- The numbers a call of `find_pole` or `find_thermal_pole` prints; the last two are what it pushes to `res` (ym_thermal_gluon_poles.rs l.19-72). -/
structure Found where
  root : ℂ
  value : ℂ
  residue : ℂ
  pole : ℂ
  ratio : ℝ

/-- l.19-42. -/
noncomputable def find_pole (f : ℂ → ℂ) : Except Panic Found :=
  match find_root f with
  | .panic => .error .assertion
  | .none => .error .noRoot
  | .some root value =>
    let residue := utils.compute_residue (fun z => 1 / f z) root / root
    let z_rat := residue.im / residue.re
    let pole := csqrt (-root) * (MG : ℂ)
    .ok ⟨root, value, residue, pole, z_rat⟩

/-- l.45-83. -/
noncomputable def find_thermal_pole (f : ℂ → ℂ) : Except Panic Found :=
  match find_root f with
  | .panic => .error .assertion
  | .none => .error .noRoot
  | .some root value =>
    open Classical in
    if TOL < ‖f (-root)‖ ∨ TOL < ‖f (conj root)‖ ∨ TOL < ‖f (-conj root)‖ then .error .notSymmetric
    else
      let residue := utils.compute_residue (fun z => 1 / f z) root * 2 / root
      let residue := conj residue
      let z_rat := residue.im / residue.re
      let pole := conj (root * Complex.I)
      .ok ⟨root, value, residue, pole, z_rat⟩

/-- l.88. -/
noncomputable def f0 : ℝ := -(876 / 1000)
/-- l.90. -/
noncomputable def temperatures : List ℝ := [0, 121 / 1000, 194 / 1000, 260 / 1000, 290 / 1000, 366 / 1000, 458 / 1000]
/-- l.91. -/
noncomputable def masses : List ℝ := [675 / 1000, 725 / 1000, 775 / 1000, 725 / 1000, 800 / 1000, 900 / 1000]
/-- l.92. -/
noncomputable def df0s : List ℝ := [5 / 100, 10 / 100, 30 / 100, 40 / 100, 50 / 100, 60 / 100]

/-- The loop of l.100-110: one call per temperature, in order, the results are appended to `res`. -/
noncomputable def loop (ig : Integrator) (k : Consts ℝ) : List (ℝ × ℝ × ℝ) → List (ℂ × ℝ) → Except Panic (List (ℂ × ℝ))
  | [], res => .ok res
  | (t, m, df0) :: l, res =>
    match find_thermal_pole (fun z => ym.thermal.zero_momentum.gluon.dressing_t_inv_landau ig k z m (1 / t) (df0 + f0)) with
    | .error e => .error e
    | .ok r => loop ig k l (res ++ [(r.pole, r.ratio)])

/-- What the program leaves: the lines of `poles.out` (temperature, pole, ratio) and the four series it plots
against `temperatures` (ym_thermal_gluon_poles.rs l.116-158). -/
structure Output where
  lines : List (ℝ × ℂ × ℝ)
  poles_re : List ℝ
  poles_im : List ℝ
  residues_ratio : List ℝ
  residues_phase : List ℝ

/-- l.85-127 (`main`), and the data of the plots (l.129-158). -/
noncomputable def main (ig : Integrator) (k : Consts ℝ) : Except Panic Output :=
  match find_pole (fun z => ym.gluon.dressing_inv_landau z f0) with
  | .error e => .error e
  | .ok r =>
    match loop ig k ((temperatures.drop 1).zip (masses.zip df0s)) [(r.pole, r.ratio)] with
    | .error e => .error e
    | .ok res =>
      let residues_ratio := res.map (fun v => v.2)
      .ok { lines := temperatures.zip res
            poles_re := res.map (fun v => v.1.re)
            poles_im := res.map (fun v => v.1.im)
            residues_ratio
            residues_phase := residues_ratio.map Real.arctan }

end Qcd.examples.ym_thermal_gluon_poles
