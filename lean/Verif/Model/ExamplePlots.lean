import Verif.Model.ChargeDensity
import Verif.Model.ThermalDressing
import Verif.Model.Overall
import Verif.Model.Qcd

/-! # The example programs that plot functions of the library

`qcd_quark_charge_density.rs`, `qcd_quark_chemical_potential.rs`, `qcd_gluon_propagator.rs`, `qcd_gluon_polarization_quark.rs`,
`qcd_gluon_polarization_quark_integrand.rs`, `qcd_gluon_quark_polarization.rs` and `qcd_gluon_propagator_compare.rs`, all in qcd-sme/examples. Parallel
iterators are lists. Not modelled: titles, axes, messages, failures of the file system. `fmt` is the text of a number (`{}`). The numbers of points are
those of exact arithmetic; with floats they are the same, but for `qcd_gluon_polarization_quark_integrand.rs`, where `(2 - 0.1) / 0.001` is
1899.9999999999998 and the grid has one interval less between the same end points. -/

namespace Qcd.examples
open consts (Consts)

/-- The grids of the programs: `(0..=n).map(|i| vmin + range * i / n)` with `n = (range / dv) as usize`
(qcd_gluon_propagator.rs l.15-22, qcd_gluon_polarization_quark.rs l.15-22, qcd_gluon_polarization_quark_integrand.rs l.17-24,
qcd_gluon_quark_polarization.rs l.10-17). -/
noncomputable def closed_grid (vmin vmax dv : ℝ) : List ℝ :=
  let n := ⌊(vmax - vmin) / dv⌋₊
  (List.range (n + 1)).map (fun i : ℕ => vmin + (vmax - vmin) * (i : ℝ) / (n : ℝ))

/-- The same without the last point, `0..n` (qcd_quark_charge_density.rs l.6-12, qcd_quark_chemical_potential.rs l.7-13). -/
noncomputable def open_grid (vmin vmax dv : ℝ) : List ℝ :=
  let n := ⌊(vmax - vmin) / dv⌋₊
  (List.range n).map (fun i : ℕ => vmin + (vmax - vmin) * (i : ℝ) / (n : ℝ))

/-- `v[c..(n - c)]` for a list of `n` elements (qcd_quark_charge_density.rs l.15 and l.21, qcd_quark_chemical_potential.rs l.16 and l.23). -/
def detail {A : Type} (c : ℕ) (v : List A) : List A := (v.take (v.length - c)).drop c

/-- qcd_quark_charge_density.rs l.25-27, qcd_quark_chemical_potential.rs l.27-29. -/
noncomputable def density_temperatures : List ℝ := [1 / 10, 2 / 10, 3 / 10, 4 / 10, 5 / 10, 6 / 10, 7 / 10, 8 / 10, 9 / 10, 1]

/-- The six temperatures of the gluon programs (qcd_gluon_propagator.rs l.29, qcd_gluon_polarization_quark.rs l.27,
qcd_gluon_polarization_quark_integrand.rs l.30). -/
noncomputable def gluon_temperatures : List ℝ := [100 / 1000, 75 / 1000, 50 / 1000, 25 / 1000, 10 / 1000, 5 / 1000]

namespace qcd_quark_charge_density

/-- l.6-12. -/
noncomputable def chempots : List ℝ := open_grid (-2) 2 (1 / 1000)
/-- l.13. -/
noncomputable def mq : ℝ := 5 / 10
/-- l.14. -/
def c : ℕ := 1250

/-- l.30-36. -/
noncomputable def vals_zero (k : Consts ℝ) : List ℝ := chempots.map fun mu => qcd.thermal.quark.charge_density_zero_temp k mq mu
/-- l.42-48. -/
noncomputable def vals (ig : Integrator) (k : Consts ℝ) (t : ℝ) : List ℝ := chempots.map fun mu => qcd.thermal.quark.charge_density ig k mq (1 / t) mu

/-- l.5-60 (`main`): the two plots. The labels are those of all the temperatures in both. -/
noncomputable def main (ig : Integrator) (k : Consts ℝ) (fmt : ℝ → String) : List tc.Plot :=
  open Classical in
  let legends := "T = 0.0 GeV" :: density_temperatures.map fun t => "T = " ++ fmt t ++ " GeV"
  [{ path := "target/qcd_quark_charge_density.png"
     domain := chempots
     legend := legends
     images := vals_zero k :: density_temperatures.map (vals ig k) },
   { path := "target/qcd_quark_charge_density_detail.png"
     domain := detail c chempots
     legend := legends
     images := detail c (vals_zero k) :: (density_temperatures.filter fun t => decide (t ≤ 2 / 10)).map fun t => detail c (vals ig k t) }]

end qcd_quark_charge_density

namespace qcd_quark_chemical_potential
open qcd.thermal.quark (Res)

/-- l.7-13. -/
noncomputable def densities : List ℝ := open_grid (-2) 2 (1 / 1000)
/-- l.14. -/
noncomputable def mq : ℝ := 5 / 10
/-- l.15. -/
def c : ℕ := 1250

/-- A list of results, or the panic of one of them (qcd_quark_chemical_potential.rs l.44-50). -/
def collect : List Res → Option (List ℝ)
  | [] => some []
  | .panic :: _ => none
  | .ok x :: l => (collect l).map (x :: ·)

/-- l.32-38. -/
noncomputable def vals_zero (k : Consts ℝ) : List ℝ := densities.map fun n => qcd.thermal.quark.chemical_potential_zero_temp k mq n
/-- l.44-50; `none` if a call panics. -/
noncomputable def vals (ig : Integrator) (k : Consts ℝ) (t : ℝ) : Option (List ℝ) :=
  collect (densities.map fun n => qcd.thermal.quark.chemical_potential ig k mq (1 / t) n)

/-- l.6-62 (`main`): the two plots, if no call panics, and the constants at the end. -/
noncomputable def main (ig : Integrator) (fmt : ℝ → String) (k : Consts ℝ) : Option (List tc.Plot) × Consts ℝ :=
  open Classical in
  let k := (consts.set_default_tol_integral (1 / 100000) k).state
  let legends := "T = 0.0 GeV" :: density_temperatures.map fun t => "T = " ++ fmt t ++ " GeV"
  (do
    let vs ← density_temperatures.mapM fun t => (vals ig k t).map fun v => (t, v)
    return [{ path := "target/qcd_quark_chemical_potential.png"
              domain := densities
              legend := legends
              images := vals_zero k :: vs.map Prod.snd },
            { path := "target/qcd_quark_chemical_potential_detail.png"
              domain := detail c densities
              legend := legends
              images := detail c (vals_zero k) :: (vs.filter fun v => decide (v.1 ≤ 2 / 10)).map fun v => detail c v.2 }], k)

end qcd_quark_chemical_potential

/-- A plot with a curve for each temperature and one for zero temperature (qcd_gluon_propagator.rs l.32-66 and l.69-103,
qcd_gluon_polarization_quark.rs l.30-66 and l.69-105, qcd_gluon_polarization_quark_integrand.rs l.34-71 and l.75-112). -/
noncomputable def temperature_plot (path : String) (label : String → String) (fmt : ℝ → String) (domain : List ℝ)
    (f : ℝ → ℝ → ℝ) (f0 : ℝ → ℝ) : tc.Plot :=
  { path := path
    domain := domain
    legend := gluon_temperatures.map (fun t => label (fmt t)) ++ [label "0"]
    images := gluon_temperatures.map (fun t => domain.map (f (1 / t))) ++ [domain.map f0] }

namespace qcd_gluon_propagator

/-- l.15-22. -/
noncomputable def momenta : List ℝ := closed_grid (1 / 10) 4 (1 / 100)
/-- l.23. -/
noncomputable def mu : ℝ := 12 / 10
/-- l.24. -/
noncomputable def m : ℝ := 656 / 1000
/-- l.25. -/
noncomputable def f0 : ℝ := -(876 / 1000)

/-- l.13-104 (`main`). -/
noncomputable def main (ig : Integrator) (k : Consts ℝ) (fmt : ℝ → String) : List tc.Plot :=
  let om := k.matsubara_reg
  let mq := k.m_quark
  let label := fun t => "T = " ++ t ++ " GeV"
  [temperature_plot "target/qcd_gluon_propagator_transverse.png" label fmt momenta
    (fun beta p => (qcd.thermal.gluon.propagator_t_landau ig k om p m mq beta mu f0).re)
    (fun p => (qcd.thermal.gluon.propagator_t_zero_temp_landau ig k om p m mq mu f0).re),
   temperature_plot "target/qcd_gluon_propagator_longitudinal.png" label fmt momenta
    (fun beta p => (qcd.thermal.gluon.propagator_l_landau ig k om p m mq beta mu f0).re)
    (fun p => (qcd.thermal.gluon.propagator_l_zero_temp_landau ig k om p m mq mu f0).re)]

end qcd_gluon_propagator

namespace qcd_gluon_polarization_quark

/-- l.15-22. -/
noncomputable def momenta : List ℝ := closed_grid (1 / 10) 4 (1 / 100)
/-- l.23. -/
noncomputable def mu : ℝ := 12 / 10

/-- l.13-106 (`main`). -/
noncomputable def main (ig : Integrator) (k : Consts ℝ) (fmt : ℝ → String) : List tc.Plot :=
  let om := k.matsubara_reg
  let mq := k.m_quark
  let label := fun t => "T = " ++ t ++ " GeV"
  [temperature_plot "target/qcd_gluon_polarization_quark_transverse.png" label fmt momenta
    (fun beta p => (gluon.thermal.polarization_quark_t_thermal_part_landau ig k om p mq beta mu).re)
    (fun p => (gluon.thermal.polarization_quark_t_thermal_part_zero_temp_landau ig k om p mq mu).re),
   temperature_plot "target/qcd_gluon_polarization_quark_longitudinal.png" label fmt momenta
    (fun beta p => (gluon.thermal.polarization_quark_l_thermal_part_landau ig k om p mq beta mu).re)
    (fun p => (gluon.thermal.polarization_quark_l_thermal_part_zero_temp_landau ig k om p mq mu).re)]

end qcd_gluon_polarization_quark

namespace qcd_gluon_polarization_quark_integrand

/-- l.17-24. -/
noncomputable def momenta : List ℝ := closed_grid (1 / 10) 2 (1 / 1000)
/-- l.25. -/
noncomputable def mu : ℝ := 12 / 10
/-- l.26. -/
noncomputable def momenta2 : List ℝ := [4 / 10, 12 / 10]

/-- l.15-113 (`main`). -/
noncomputable def main (k : Consts ℝ) (fmt : ℝ → String) : List tc.Plot :=
  let om := k.matsubara_reg
  let mq := k.m_quark
  let label := fun (p : ℝ) t => "T = " ++ t ++ " GeV, p = " ++ fmt p ++ " GeV"
  momenta2.map (fun p => temperature_plot ("target/qcd_gluon_polarization_quark_transverse_integrand_" ++ fmt p ++ ".png") (label p) fmt momenta
    (fun beta q => (gluon.thermal.polarization_quark_t_thermal_part_landau_i k q om p mq beta mu).re)
    (fun q => (gluon.thermal.polarization_quark_t_thermal_part_zero_temp_landau_i k q om p mq mu).re)) ++
  momenta2.map (fun p => temperature_plot ("target/qcd_gluon_polarization_quark_longitudinal_integrand_" ++ fmt p ++ ".png") (label p) fmt momenta
    (fun beta q => (gluon.thermal.polarization_quark_l_thermal_part_landau_i k q om p mq beta mu).re)
    (fun q => (gluon.thermal.polarization_quark_l_thermal_part_zero_temp_landau_i k q om p mq mu).re))

end qcd_gluon_polarization_quark_integrand

namespace qcd_gluon_quark_polarization

/-- l.10-17. -/
noncomputable def momenta : List ℝ := closed_grid (1 / 100) 1 (1 / 1000)
/-- l.20. -/
noncomputable def t : ℝ := 260 / 1000
/-- l.21. -/
noncomputable def beta : ℝ := 1 / t
/-- l.22. -/
noncomputable def mq : ℝ := 300 / 1000
/-- l.23. -/
noncomputable def om : ℝ := 1 / 10
/-- l.35. -/
noncomputable def ps : List ℝ := [1 / 10, 5 / 100, 1 / 100]

/-- l.8-77 (`main`). -/
noncomputable def main (k : Consts ℝ) (fmt : ℝ → String) : tc.Plot :=
  { path := "target/gluon_quark_polarization.png"
    domain := momenta
    legend := ps.flatMap (fun p => ["p = " ++ fmt p ++ " GeV (long.)", "p = " ++ fmt p ++ " GeV (trans.)"]) ++ ["p = 0 GeV"]
    images := ps.flatMap (fun p =>
        [momenta.map fun q => (gluon.thermal.polarization_quark_l_thermal_part_landau_i k q om p mq beta (12 / 10)).re,
         momenta.map fun q => (gluon.thermal.polarization_quark_t_thermal_part_landau_i k q om p mq beta (12 / 10)).re]) ++
      [momenta.map fun q => gluon.thermal.zero_momentum.polarization_quark_l_thermal_part_landau_i k q (1 / 10 : ℝ) mq beta (12 / 10)] }

end qcd_gluon_quark_polarization

namespace qcd_gluon_propagator_compare

/-- A file: the name and the rows (qcd_gluon_propagator_compare.rs l.20-40). -/
structure File where
  name : String
  rows : List (ℝ × ℝ)

/-- What the program changes: the library's constants, its own `PLOT_INDEX` (l.9), the files written, and the curves of the plot. -/
structure State where
  consts : Consts ℝ
  plot_index : ℕ
  files : List File
  images : List (List ℝ)

/-- l.11-46. -/
noncomputable def do_dressing (momenta : List ℝ) (m mq f0 z : ℝ) (nf : ℕ) (s : State) : State :=
  let name := "target/qcd_gluon_propagator_compare_" ++ toString s.plot_index ++ ".txt"
  let k := (consts.set_number_of_fermions nf s.consts).state
  let nf_div_nc := (nf : ℝ) / (k.nc : ℝ)
  let f0 := f0 + 2 * nf_div_nc / 27
  let m2 := m * m
  let values := momenta.map fun p2 => qcd.gluon.dressing_crossed_inv_landau k (p2 / m2) (mq / m) f0 / z
  { consts := k
    plot_index := s.plot_index + 1
    files := s.files ++ [⟨name, momenta.zip values⟩]
    images := s.images ++ [values] }

/-- l.49-59. -/
noncomputable def momenta : List ℝ :=
  let n := ⌊((10 : ℝ) - 3 / 100) / (1 / 100)⌋₊
  (List.range (n + 1)).map fun i : ℕ =>
    let p := 3 / 100 + (i : ℝ) / (n : ℝ) * ((10 : ℝ) - 3 / 100)
    p * p

/-- l.69-75. -/
noncomputable def calls : List (State → State) :=
  [do_dressing momenta (80 / 100) (65 / 100) (-(65 / 100)) (4 / 10) 2,
   do_dressing momenta (73 / 100) (65 / 100) (-(65 / 100)) (4 / 10) 2,
   do_dressing momenta (73 / 100) (65 / 100) (-(105 / 100)) 1 0,
   do_dressing momenta (80 / 100) (5 / 10) (-(60 / 100)) (4 / 10) 2,
   do_dressing momenta (73 / 100) (5 / 10) (-(60 / 100)) (4 / 10) 2,
   do_dressing momenta (73 / 100) (5 / 10) (-(105 / 100)) 1 0]

/-- l.48-80 (`main`): the state at the end and the plot. -/
noncomputable def main (k : Consts ℝ) : State × tc.Plot :=
  let s := calls.foldl (fun s f => f s) ⟨k, 0, [], []⟩
  (s, { path := "target/qcd_gluon_propagator_compare.png", domain := momenta, legend := [], images := s.images })

end qcd_gluon_propagator_compare

end Qcd.examples
