import Verif.Model.Scans

/-! # The programs `tc_long_prop/src/bin/one_mass_overall.rs` and `two_masses_overall.rs`

Both are a `main` without input: the settings are literals, here a record (`one_mass_overall.settings`, `two_masses_overall.settings`
are the literals). The mutable global constants are threaded through the run, since the first program changes the number of fermions.
A run produces plots (path, domain, curves, legend; titles, axes and labels are left out) and the rows of the file `tc.out` (numbers,
not their text). `none` is a panic. Not modelled: failures of the file system, log messages. Parallel iterators are lists. Exact real
arithmetic; `fmt` is the format `{:.3}`. -/

namespace Qcd.tc
open consts (Consts set_number_of_fermions)

/-- `Plot2D`: what is drawn and where it is saved (one_mass_overall.rs l.50, 105, 155, 220, 269; two_masses_overall.rs l.54, 109, 162, 229, 280). -/
structure Plot where
  path : String
  domain : List ℝ
  legend : List String
  images : List (List ℝ)

/-- A line of `tc.out` (one_mass_overall.rs l.133, 253; two_masses_overall.rs l.137, 264). -/
structure Row (Q : Type) where
  nf : ℕ
  mq : Q
  mu : ℝ
  tc : ℝ

/-- The literals at the top of the programs (one_mass_overall.rs l.9-21, l.99, l.142; two_masses_overall.rs l.10-25, l.103, l.149). -/
structure Settings (Q : Type) where
  pmin : ℝ
  pmax : ℝ
  dp : ℝ
  m : ℝ
  f0 : ℝ
  om : ℝ
  renpoint : ℝ
  temperatures : List ℝ
  quark_masses : List Q
  chemical_potentials : List ℝ
  tmin : ℝ
  tmax : ℝ
  dt : ℝ
  nfs : List ℕ

/-- one_mass_overall.rs l.26-28 and l.100-102 (two_masses_overall.rs l.30-32 and l.104-106): `as usize` truncates and saturates at 0. -/
noncomputable def grid (vmin vmax dv : ℝ) : List ℝ :=
  let n := ⌊(vmax - vmin) / dv⌋₊
  (List.range (n + 1)).map (fun k : ℕ => vmin + dv * (k : ℝ))

namespace Settings
variable {Q : Type} (s : Settings Q)

/-- one_mass_overall.rs l.28; two_masses_overall.rs l.32. -/
noncomputable def momenta : List ℝ := grid s.pmin s.pmax s.dp

/-- one_mass_overall.rs l.102 and l.212; two_masses_overall.rs l.106 and l.219. -/
noncomputable def tdomain : List ℝ := grid s.tmin s.tmax s.dt

/-- one_mass_overall.rs l.106-107 and l.221-222; two_masses_overall.rs l.110-111 and l.230-231. -/
noncomputable def domain : List ℝ := [0] ++ s.tdomain

/-- one_mass_overall.rs l.31; two_masses_overall.rs l.35. -/
noncomputable def m2 : ℝ := s.m * s.m

/-- one_mass_overall.rs l.30-32; two_masses_overall.rs l.34-36. -/
noncomputable def renf : ℝ := s.renpoint * s.renpoint / s.m2

/-- one_mass_overall.rs l.42-45 and l.145-148; two_masses_overall.rs l.46-49 and l.150-153. -/
def legends (fmt : ℝ → String) : List String := ["$T/m=0.00$"] ++ s.temperatures.map (fun t => "$T/m=" ++ fmt t ++ "$")

/-- one_mass_overall.rs l.213-216; two_masses_overall.rs l.220-223. -/
def muLegends (fmt : ℝ → String) : List String := s.chemical_potentials.map (fun mu => "$\\mu=" ++ fmt mu ++ "$ GeV")

/-- one_mass_overall.rs l.57-88 (two_masses_overall.rs l.61-92): the curves without quarks. -/
noncomputable def ymImages (ig : Integrator) (k : Consts ℝ) : List (List ℝ) :=
  let z := ym.gluon.propagator_landau ((s.om * s.om + s.renpoint * s.renpoint) / s.m2) s.f0 * s.renf
  [s.momenta.map (fun p => ym.gluon.propagator_landau (s.om * s.om / s.m2 + p * p) s.f0 / z)] ++
  s.temperatures.map (fun t =>
    let beta := 1 / (t * s.m)
    let z := (ym.thermal.gluon.propagator_l_landau ig k s.om s.renpoint s.m beta s.f0).re * s.renf
    s.momenta.map (fun p => (ym.thermal.gluon.propagator_l_landau ig k s.om (p * s.m) s.m beta s.f0).re / z))

/-- one_mass_overall.rs l.114-130 (two_masses_overall.rs l.118-134): `data`. -/
noncomputable def ymData (ig : Integrator) (k : Consts ℝ) : List ℝ :=
  let pbase := s.pmin
  let z := ym.gluon.propagator_landau ((s.om * s.om + s.renpoint * s.renpoint) / s.m2) s.f0 * s.renf
  [ym.gluon.propagator_landau (s.om * s.om / s.m2 + pbase * pbase) s.f0 / z] ++
  s.tdomain.map (fun t =>
    let beta := 1 / (t * s.m)
    let z := (ym.thermal.gluon.propagator_l_landau ig k s.om s.renpoint s.m beta s.f0).re * s.renf
    (ym.thermal.gluon.propagator_l_landau ig k s.om (pbase * s.m) s.m beta s.f0).re / z)

end Settings

/-- The float test `a > b`, exact (tc_long_prop/src/lib.rs l.42). -/
noncomputable def gtReal (a b : ℝ) : Bool := open Classical in decide (a > b)

/-! ### one_mass_overall.rs -/

namespace one_mass_overall

/-- one_mass_overall.rs l.9-21, l.99, l.142. -/
noncomputable def settings : Settings ℝ where
  pmin := 0.01
  pmax := 3
  dp := 0.01
  m := 0.656
  f0 := -0.876
  om := 1e-5
  renpoint := 4
  temperatures := [0.05, 0.08, 0.12, 0.15, 0.18, 0.21]
  quark_masses := [0.08, 0.4, 0.8]
  chemical_potentials := [0, 0.1, 0.2, 0.3, 0.4, 0.5, 0.6, 0.7, 0.8, 0.9, 1]
  tmin := 0.01
  tmax := 0.2
  dt := 0.005
  nfs := [1, 2, 4, 6]

variable (ig : Integrator) (fmt : ℝ → String) (basedir : String) (s : Settings ℝ)

/-- l.164-194: the curves of one plot. -/
noncomputable def images (k : Consts ℝ) (mq mu : ℝ) : List (List ℝ) :=
  let z := (qcd.thermal.gluon.propagator_l_zero_temp_landau ig k s.om s.renpoint s.m mq mu s.f0).re * s.renf
  [s.momenta.map (fun p => (qcd.thermal.gluon.propagator_l_zero_temp_landau ig k s.om (p * s.m) s.m mq mu s.f0).re / z)] ++
  s.temperatures.map (fun t =>
    let beta := 1 / (t * s.m)
    let z := (qcd.thermal.gluon.propagator_l_landau ig k s.om s.renpoint s.m mq beta mu s.f0).re * s.renf
    s.momenta.map (fun p => (qcd.thermal.gluon.propagator_l_landau ig k s.om (p * s.m) s.m mq beta mu s.f0).re / z))

/-- l.233-249: `data`. -/
noncomputable def data (k : Consts ℝ) (mq mu : ℝ) : List ℝ :=
  let pbase := s.pmin
  let z := (qcd.thermal.gluon.propagator_l_zero_temp_landau ig k s.om s.renpoint s.m mq mu s.f0).re * s.renf
  [(qcd.thermal.gluon.propagator_l_zero_temp_landau ig k s.om (pbase * s.m) s.m mq mu s.f0).re / z] ++
  s.tdomain.map (fun t =>
    let beta := 1 / (t * s.m)
    let z := (qcd.thermal.gluon.propagator_l_landau ig k s.om s.renpoint s.m mq beta mu s.f0).re * s.renf
    (qcd.thermal.gluon.propagator_l_landau ig k s.om (pbase * s.m) s.m mq beta mu s.f0).re / z)

/-- l.152-204: the loops over quark masses and chemical potentials of the first part. -/
noncomputable def propagatorPlots (k : Consts ℝ) (nf : ℕ) : List Plot :=
  s.quark_masses.flatMap fun mq => s.chemical_potentials.map fun mu =>
    { path := basedir ++ "/nf_" ++ toString nf ++ "_mq_" ++ fmt mq ++ "_mu_" ++ fmt mu ++ ".png"
      domain := s.momenta
      legend := s.legends fmt
      images := images ig s k mq mu }

/-- l.232-258: the loop over chemical potentials of the second part: `tcs`, with what is inserted in the plot. -/
noncomputable def scanMu (k : Consts ℝ) (mq : ℝ) : Option (List (ℝ × List ℝ)) :=
  s.chemical_potentials.mapM fun mu =>
    let data := data ig s k mq mu
    (find_critical_temperature gtReal s.domain data).map fun tc => (tc, data)

/-- l.218-281, the body of the loop over quark masses: the two plots and the lines written. -/
noncomputable def scanMass (k : Consts ℝ) (nf : ℕ) (mq : ℝ) : Option (List Plot × List (Row ℝ)) :=
  (scanMu ig s k mq).map fun r =>
    ([{ path := basedir ++ "/ir_nf_" ++ toString nf ++ "_mq_" ++ fmt mq ++ ".png"
        domain := s.domain
        legend := s.muLegends fmt
        images := r.map Prod.snd },
      { path := basedir ++ "/tc_nf_" ++ toString nf ++ "_mq_" ++ fmt mq ++ ".png"
        domain := s.chemical_potentials
        legend := []
        images := [r.map Prod.fst] }],
     List.zipWith (fun mu x => ⟨nf, mq, mu, x.1⟩) s.chemical_potentials r)

/-- l.142-282: the loop over numbers of fermions. -/
noncomputable def loop (k : Consts ℝ) : List ℕ → Option (List Plot × List (Row ℝ) × Consts ℝ)
  | [] => some ([], [], k)
  | nf :: nfs =>
    let k := (set_number_of_fermions nf k).state
    match s.quark_masses.mapM (scanMass ig fmt basedir s k nf), loop k nfs with
    | some r, some (plots, rows, k') =>
      some (propagatorPlots ig fmt basedir s k nf ++ r.flatMap Prod.fst ++ plots, r.flatMap Prod.snd ++ rows, k')
    | _, _ => none

/-- l.5-283 `main`, from the global constants `k`: the plots, the lines of `tc.out` and the final constants. -/
noncomputable def main (k : Consts ℝ) : Option (List Plot × List (Row ℝ) × Consts ℝ) :=
  let data := s.ymData ig k
  match find_critical_temperature gtReal s.domain data, loop ig fmt basedir s k s.nfs with
  | some tc, some (plots, rows, k') =>
    some
      ([{ path := basedir ++ "/nf_0_mq_NA_mu_NA.png", domain := s.momenta, legend := s.legends fmt, images := s.ymImages ig k },
        { path := basedir ++ "/ir_nf_0_mq_NA.png", domain := s.domain, legend := [], images := [data] }] ++ plots,
       [⟨0, 0, 0, tc⟩] ++ rows, k')
  | _, _ => none

end one_mass_overall

/-! ### two_masses_overall.rs -/

namespace two_masses_overall

/-- two_masses_overall.rs l.10-25, l.103, l.149. -/
noncomputable def settings : Settings (ℝ × ℝ) where
  pmin := 0.01
  pmax := 3
  dp := 0.01
  m := 0.656
  f0 := -0.876
  om := 1e-5
  renpoint := 4
  temperatures := [0.05, 0.08, 0.12, 0.15, 0.18, 0.21]
  quark_masses := [(0.3, 0.4), (0.3, 0.6), (0.8, 1), (0.3, 1)]
  chemical_potentials := [0, 0.1, 0.2, 0.3, 0.4, 0.5, 0.6, 0.7, 0.8, 0.9, 1, 1.1, 1.2]
  tmin := 0.01
  tmax := 0.2
  dt := 0.005
  nfs := [1, 4]

/-- two_masses_overall.rs l.15. -/
def nc : ℕ := 3

variable (ig : Integrator) (fmt : ℝ → String) (basedir : String) (s : Settings (ℝ × ℝ))

/-- l.159 and l.227. -/
noncomputable def config (nf : ℕ) (mq : ℝ × ℝ) : FieldConfig := FieldConfig.new nc s.m [(nf, mq.1), (nf, mq.2)]

/-- l.171-201: the curves of one plot. -/
noncomputable def images (k : Consts ℝ) (config : FieldConfig) (mu : ℝ) : List (List ℝ) :=
  let z := (qcd.thermal.gluon.propagator_l_zero_temp_landau_w_field_config ig k s.om s.renpoint mu s.f0 config).re * s.renf
  [s.momenta.map (fun p => (qcd.thermal.gluon.propagator_l_zero_temp_landau_w_field_config ig k s.om (p * s.m) mu s.f0 config).re / z)] ++
  s.temperatures.map (fun t =>
    let beta := 1 / (t * s.m)
    let z := (qcd.thermal.gluon.propagator_l_landau_w_field_config ig k s.om s.renpoint beta mu s.f0 config).re * s.renf
    s.momenta.map (fun p => (qcd.thermal.gluon.propagator_l_landau_w_field_config ig k s.om (p * s.m) beta mu s.f0 config).re / z))

/-- l.244-260: `data`. -/
noncomputable def data (k : Consts ℝ) (config : FieldConfig) (mu : ℝ) : List ℝ :=
  let pbase := s.pmin
  let z := (qcd.thermal.gluon.propagator_l_zero_temp_landau_w_field_config ig k s.om s.renpoint mu s.f0 config).re * s.renf
  [(qcd.thermal.gluon.propagator_l_zero_temp_landau_w_field_config ig k s.om (pbase * s.m) mu s.f0 config).re / z] ++
  s.tdomain.map (fun t =>
    let beta := 1 / (t * s.m)
    let z := (qcd.thermal.gluon.propagator_l_landau_w_field_config ig k s.om s.renpoint beta mu s.f0 config).re * s.renf
    (qcd.thermal.gluon.propagator_l_landau_w_field_config ig k s.om (pbase * s.m) beta mu s.f0 config).re / z)

/-- l.157-211. -/
noncomputable def propagatorPlots (k : Consts ℝ) (nf : ℕ) : List Plot :=
  s.quark_masses.flatMap fun mq => s.chemical_potentials.map fun mu =>
    { path := basedir ++ "/nf_" ++ toString nf ++ "_mq1_" ++ fmt mq.1 ++ "_mq2_" ++ fmt mq.2 ++ "_mu_" ++ fmt mu ++ ".png"
      domain := s.momenta
      legend := s.legends fmt
      images := images ig s k (config s nf mq) mu }

/-- l.243-269. -/
noncomputable def scanMu (k : Consts ℝ) (config : FieldConfig) : Option (List (ℝ × List ℝ)) :=
  s.chemical_potentials.mapM fun mu =>
    let data := data ig s k config mu
    (find_critical_temperature gtReal s.domain data).map fun tc => (tc, data)

/-- l.225-294. -/
noncomputable def scanMass (k : Consts ℝ) (nf : ℕ) (mq : ℝ × ℝ) : Option (List Plot × List (Row (ℝ × ℝ))) :=
  (scanMu ig s k (config s nf mq)).map fun r =>
    ([{ path := basedir ++ "/ir_nf_" ++ toString nf ++ "_mq1_" ++ fmt mq.1 ++ "_mq2_" ++ fmt mq.2 ++ ".png"
        domain := s.domain
        legend := s.muLegends fmt
        images := r.map Prod.snd },
      { path := basedir ++ "/tc_nf_" ++ toString nf ++ "_mq1_" ++ fmt mq.1 ++ "_mq2_" ++ fmt mq.2 ++ ".png"
        domain := s.chemical_potentials
        legend := []
        images := [r.map Prod.fst] }],
     List.zipWith (fun mu x => ⟨nf, mq, mu, x.1⟩) s.chemical_potentials r)

/-- l.149-295; unlike the other program this one leaves the global constants alone. -/
noncomputable def loop (k : Consts ℝ) : List ℕ → Option (List Plot × List (Row (ℝ × ℝ)) × Consts ℝ)
  | [] => some ([], [], k)
  | nf :: nfs =>
    match s.quark_masses.mapM (scanMass ig fmt basedir s k nf), loop k nfs with
    | some r, some (plots, rows, k') =>
      some (propagatorPlots ig fmt basedir s k nf ++ r.flatMap Prod.fst ++ plots, r.flatMap Prod.snd ++ rows, k')
    | _, _ => none

/-- l.6-296 `main`. -/
noncomputable def main (k : Consts ℝ) : Option (List Plot × List (Row (ℝ × ℝ)) × Consts ℝ) :=
  let data := s.ymData ig k
  match find_critical_temperature gtReal s.domain data, loop ig fmt basedir s k s.nfs with
  | some tc, some (plots, rows, k') =>
    some
      ([{ path := basedir ++ "/nf_0_mq1_NA_mq2_NA_mu_NA.png", domain := s.momenta, legend := s.legends fmt, images := s.ymImages ig k },
        { path := basedir ++ "/ir_nf_0_mq1_NA_mq2_NA.png", domain := s.domain, legend := [], images := [data] }] ++ plots,
       [⟨0, (0, 0), 0, tc⟩] ++ rows, k')
  | _, _ => none

end two_masses_overall

end Qcd.tc
