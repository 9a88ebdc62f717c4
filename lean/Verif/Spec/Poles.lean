import Mathlib.Analysis.Complex.Basic
import Mathlib.Topology.MetricSpace.Pseudo.Defs

/-! # Specification: residues, and the table of temperatures of the pole example -/

namespace Qcd.Spec
open Filter Topology

/-- `R` is the residue of `g`, as a function of `z`, at the simple pole `z0`. -/
def Residue (g : ℂ → ℂ) (z0 R : ℂ) : Prop :=
  Tendsto (fun z => (z - z0) * g z) (𝓝[≠] z0) (𝓝 R)

/-- `R` is the residue of `g`, as a function of the square of the frequency, at the square of `om0`. -/
def ResidueSq (g : ℂ → ℂ) (om0 R : ℂ) : Prop :=
  Tendsto (fun om => (om ^ 2 - om0 ^ 2) * g om) (𝓝[≠] om0) (𝓝 R)

/-- Temperature and gluon mass in GeV, and shift of the renormalization constant, of the six thermal poles. -/
def poleTable : List (ℚ × ℚ × ℚ) :=
  [(121 / 1000, 675 / 1000, 5 / 100), (194 / 1000, 725 / 1000, 10 / 100), (260 / 1000, 775 / 1000, 30 / 100),
   (290 / 1000, 725 / 1000, 40 / 100), (366 / 1000, 800 / 1000, 50 / 100), (458 / 1000, 900 / 1000, 60 / 100)]

end Qcd.Spec
