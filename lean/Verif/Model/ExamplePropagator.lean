import Verif.Model.Overall

/-! # `qcd-sme/examples/ym_thermal_gluon_propagator.rs`

The example program that computes the gluon propagators of Yang-Mills theory at finite temperature with the parameters of
each temperature. A run leaves files (name, rows of momentum and value) and plots. Not modelled: titles, axes, messages, failures
of the file system. Parallel iterators are lists. `(t * 1000.) as u32` truncates; with floats the six products are the exact
integers as well. -/

namespace Qcd.examples.ym_thermal_gluon_propagator
open consts (Consts)

/-- A file: the name and the rows (ym_thermal_gluon_propagator.rs l.52-56, l.91-97, l.121-127). -/
structure File where
  name : String
  rows : List (ℝ × ℝ)

/-- l.13-17. -/
noncomputable def momenta : List ℝ := tc.grid (2 / 10) 3 (1 / 100)
/-- l.18. -/
def renpoint : ℝ := 4
/-- l.19. -/
noncomputable def om : ℝ := 1 / 1000
/-- l.21. -/
noncomputable def mg : ℝ := 656 / 1000
/-- l.22. -/
noncomputable def f0 : ℝ := -(876 / 1000)
/-- l.24. -/
noncomputable def mg2 : ℝ := mg * mg
/-- l.25. -/
def renpoint2 : ℝ := renpoint * renpoint
/-- l.27. -/
noncomputable def temperatures : List ℝ := [121 / 1000, 194 / 1000, 260 / 1000, 290 / 1000, 366 / 1000, 458 / 1000]
/-- l.28. -/
noncomputable def ms_l : List ℝ := [525 / 1000, 175 / 1000, 25 / 1000, 100 / 1000, 350 / 1000, 650 / 1000]
/-- l.29. -/
noncomputable def f0s_l : List ℝ := [-(5 / 100), -(13 / 10), -(44 / 10), -1, 12 / 10, 18 / 10]
/-- l.30. -/
noncomputable def ms_t : List ℝ := [675 / 1000, 725 / 1000, 775 / 1000, 725 / 1000, 800 / 1000, 900 / 1000]
/-- l.31. -/
noncomputable def f0s_t : List ℝ := [5 / 100, 10 / 100, 30 / 100, 40 / 100, 50 / 100, 60 / 100]

/-- l.38-47. -/
noncomputable def vacuum_vals : List ℝ :=
  let norm := ym.gluon.propagator_landau (renpoint2 / mg2) f0 * renpoint2
  momenta.map (fun p => ym.gluon.propagator_landau (p * p / mg2) f0 / norm)

/-- l.49-58. -/
noncomputable def vacuum_file : File := ⟨"T000V.txt", momenta.zip vacuum_vals⟩

/-- `(t * 1000.) as u32` (ym_thermal_gluon_propagator.rs l.91, 100, 121, 130). -/
noncomputable def mev (t : ℝ) : String := toString ⌊t * 1000⌋₊

/-- The body of the loops over longitudinal propagators (l.76-101, l.104-131, l.147-172), with the frequency `om` and the entry `i` of
the tables: the file, the curve and its label. An index out of range is a panic; it does not occur and `getD` avoids it. -/
noncomputable def body_l (ig : Integrator) (k : Consts ℝ) (om : ℝ) (i : ℕ) : File × List ℝ × String :=
  let t := temperatures.getD i 0
  let beta := 1 / t
  let m := ms_l.getD i 0
  let f0 := f0s_l.getD i 0 + f0
  let norm := (ym.thermal.gluon.propagator_l_landau ig k om renpoint m beta f0).re * renpoint2
  let vals := momenta.map (fun p => (ym.thermal.gluon.propagator_l_landau ig k om p m beta f0).re / norm)
  (⟨"T" ++ mev t ++ "L.txt", momenta.zip vals⟩, vals, "$T=" ++ mev t ++ "$ MeV")

/-- The same for the transverse propagators (l.190-215, l.230-255). -/
noncomputable def body_t (ig : Integrator) (k : Consts ℝ) (om : ℝ) (i : ℕ) : File × List ℝ × String :=
  let t := temperatures.getD i 0
  let beta := 1 / t
  let m := ms_t.getD i 0
  let f0 := f0s_t.getD i 0 + f0
  let norm := (ym.thermal.gluon.propagator_t_landau ig k om renpoint m beta f0).re * renpoint2
  let vals := momenta.map (fun p => (ym.thermal.gluon.propagator_t_landau ig k om p m beta f0).re / norm)
  (⟨"T" ++ mev t ++ "T.txt", momenta.zip vals⟩, vals, "$T=" ++ mev t ++ "$ MeV")

/-- l.11-258 (`main`): the files in the order of creation and the four plots. -/
noncomputable def main (ig : Integrator) (k : Consts ℝ) : List File × List tc.Plot :=
  let dir := "target/ym_thermal_gluon_propagator/"
  let low_l := [0, 1].map (body_l ig k om) ++ [body_l ig k (2 / 1000) 2]
  let high_l := [3, 4, 5].map (body_l ig k om)
  let low_t := [0, 1, 2].map (body_t ig k om)
  let high_t := [3, 4, 5].map (body_t ig k om)
  ([vacuum_file] ++ low_l.map (fun x => x.1) ++ high_l.map (fun x => x.1) ++ low_t.map (fun x => x.1) ++ high_t.map (fun x => x.1),
   [{ path := dir ++ "gluon_propagator_l_low_t.png", domain := momenta
      legend := ["$T=0$ MeV"] ++ low_l.map (fun x => x.2.2), images := [vacuum_vals] ++ low_l.map (fun x => x.2.1) },
    { path := dir ++ "gluon_propagator_l_high_t.png", domain := momenta
      legend := high_l.map (fun x => x.2.2), images := high_l.map (fun x => x.2.1) },
    { path := dir ++ "gluon_propagator_t_low_t.png", domain := momenta
      legend := ["$T=0$ MeV"] ++ low_t.map (fun x => x.2.2), images := [vacuum_vals] ++ low_t.map (fun x => x.2.1) },
    { path := dir ++ "gluon_propagator_t_high_t.png", domain := momenta
      legend := high_t.map (fun x => x.2.2), images := high_t.map (fun x => x.2.1) }])

end Qcd.examples.ym_thermal_gluon_propagator
