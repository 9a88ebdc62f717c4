import Verif.Model.Thermal
import Verif.Model.ThermalDressing
import Verif.Model.Overall

/-! # `qcd-sme/examples/qcd_gluon_propagator_asymptotics.rs`

The example program that compares the logarithm of the inverse gluon propagator with the logarithm of the hard-thermal-loop mass. The program
changes the constants of the library while it runs, so its functions act on them (`StateM`). Not modelled: titles, axes, messages
and the differences printed. `ln` of a number that is not positive is NaN in the code; the theorems are about limits where the argument is positive. -/

namespace Qcd.examples.qcd_gluon_propagator_asymptotics
open consts (Consts)

/-- l.14-18. -/
noncomputable def asymptotics_known (t mu : ℝ) (nc nf : ℕ) (rem : ℝ) : ℝ :=
  let nf : ℝ := nf
  let nc : ℝ := nc
  Real.log ((nc + nf / 2) * t * t + 3 * nf * mu * mu / (2 * Real.pi * Real.pi)) + rem

/-- l.21-33. -/
noncomputable def asymptotics_test (ig : Integrator) (t mu : ℝ) (nc nf : ℕ) : StateM (Consts ℝ) ℝ := do
  let k ← get
  let nc_old := k.nc
  let nf_old := k.nf
  let mq := k.m_quark
  modify fun k => (consts.set_number_of_colors nc k).state
  modify fun k => (consts.set_number_of_fermions nf k).state
  let om : ℝ := 1 / 1000
  let p : ℝ := 1 / 1000
  let m : ℝ := 3 / 10
  let beta := 1 / t
  let f0 : ℝ := 15 / 10
  let k ← get
  let res := -Real.log ((qcd.thermal.gluon.propagator_l_landau ig k om p m mq beta mu f0).re / nc)
  modify fun k => (consts.set_number_of_colors nc_old k).state
  modify fun k => (consts.set_number_of_fermions nf_old k).state
  return res

/-- l.48. -/
noncomputable def rem : ℝ := 202 / 100

/-- l.59-74 and l.88-103, for one value of `nf` and `nc`: the two curves with their labels. The argument `pt` turns a point of the domain into
the temperature and the chemical potential. -/
noncomputable def body (ig : Integrator) (domain : List ℝ) (pt : ℝ → ℝ × ℝ) (nf nc : ℕ) : StateM (Consts ℝ) (List (List ℝ × String)) := do
  let ys ← domain.mapM fun x => do
    let y1 := asymptotics_known (pt x).1 (pt x).2 nc nf rem
    let y2 ← asymptotics_test ig (pt x).1 (pt x).2 nc nf
    return (y1, y2)
  return [(ys.map Prod.fst, s!"nf = {nf}, nc = {nc} (known)"), (ys.map Prod.snd, s!"nf = {nf}, nc = {nc} (test)")]

/-- l.52-76 and l.81-105: a plot, over the pairs of the two loops. -/
noncomputable def plot (ig : Integrator) (path : String) (domain : List ℝ) (pt : ℝ → ℝ × ℝ) : StateM (Consts ℝ) tc.Plot := do
  let cs ← ([1, 2].flatMap fun nf => [2, 3, 5].map fun nc => (nf, nc)).mapM fun (nf, nc) => body ig domain pt nf nc
  return { path := path, domain := domain, legend := cs.flatten.map Prod.snd, images := cs.flatten.map Prod.fst }

/-- l.53, l.82. -/
def points : List ℝ := [8, 12, 15, 20]

/-- l.45-106 (`main`). -/
noncomputable def main (ig : Integrator) : StateM (Consts ℝ) (List tc.Plot) := do
  modify fun k => (consts.set_default_tol_integral (1 / 10000) k).state
  let plot1 ← plot ig "target/qcd_gluon_propagator_asymptotics_temperature.png" points fun t => (t, 3)
  let plot2 ← plot ig "target/qcd_gluon_propagator_asymptotics_chempot.png" points fun mu => (3, mu)
  return [plot1, plot2]

end Qcd.examples.qcd_gluon_propagator_asymptotics
