import Verif.Model.TcLongProp
import Verif.Model.ThermalDressing

/-! # The scans of `tc_long_prop/src/bin/physical_tc.rs`

The propagators are parameters of the scans (`Propagators`); `longitudinal` and `transverse` at the end are the ones the program
passes. Exact real arithmetic. Plots, logging and creation of directories are not modelled, failures of the file system neither.
Parallel iterators compute the same list as sequential ones (the closures are pure), so they are lists here. -/

namespace Qcd.tc

/-- The two propagators a scan uses: `zero om p mu f0 fc` at vanishing temperature and `finite om p beta mu f0 fc`
(physical_tc.rs l.221-231, l.258-279, l.330-342, l.369-390). -/
structure Propagators where
  zero : ℝ → ℝ → ℝ → ℝ → FieldConfig → ℂ
  finite : ℝ → ℝ → ℝ → ℝ → ℝ → FieldConfig → ℂ

/-- The ways a scan can panic: l.158 (`Inconsistent 'corrected' configuration`), inside `is_deconfined_phase`, an index out of
range or an underflow of `usize` (l.503-508), the `unwrap`s of `find_critical_temperature` and of l.715. -/
inductive Panic where
  | inconsistent
  | phase
  | index
  | empty
  deriving DecidableEq

/-- `maybe_corrected_data` as an `Except` (physical_tc.rs l.144-160). -/
noncomputable def Config.data (c : Config) (mu t : ℝ) : Except Panic (FieldConfig × ℝ) :=
  match c.maybe_corrected_data mu t with
  | .panicInconsistent => .error .inconsistent
  | .panicPhase => .error .phase
  | .ok fc f0 => .ok (fc, f0)

/-- The numbers printed to a file, in order (physical_tc.rs l.246, 286, 357, 397, 518, 527, 725). -/
inductive Content where
  | table (rows : List (ℝ × ℝ))
  | params (ps : List ℝ)

/-- The output directory: names and contents, the most recent write first (physical_tc.rs l.237, 266, 348, 377, 514, 522, 722). -/
abbrev Files := List (String × Content)

/-- `fs::File::create` truncates (physical_tc.rs l.237, 266, 348, 377, 514, 522, 722). -/
def Files.read (fs : Files) (name : String) : Option Content := fs.lookup name

/-- A loop whose body writes files and may panic; the files written before the panic stay (physical_tc.rs l.220-300, l.329-411). -/
def forEach {α : Type} (f : α → Files → Option Panic × Files) : List α → Files → Option Panic × Files
  | [], fs => (none, fs)
  | x :: xs, fs =>
    match f x fs with
    | (some e, fs') => (some e, fs')
    | (none, fs') => forEach f xs fs'

/-- physical_tc.rs l.222-248 and l.259-289 (transverse: l.331-357, l.369-399): the rows of a file, `D p` being the propagator at momentum `p` (in GeV). The second
components are computed first (l.223-231, l.269-279), then zipped. -/
noncomputable def rows (c : Config) (D : ℝ → ℂ) : List (ℝ × ℝ) :=
  let m := c.fieldconfig.gluon
  let renfac := c.renpoint2 / (m * m)
  let z := (D c.renpoint).re * renfac
  c.momenta.zip (c.momenta.map (fun p => (D (p * m)).re / z))

/-- physical_tc.rs l.255-291 for one temperature, the closure of the second loop of `compute_propagators` (`infix` is
`_glulongprop_t_`) and of `compute_transverse_propagators` (l.365-401, `_glutransprop_t_`). `fmt` is `{:.4}`. -/
noncomputable def propagatorAtT (P : Propagators) (fmt : ℝ → String) (filename infix_ : String) (c : Config) (mu t : ℝ) (fs : Files) : Option Panic × Files :=
  let beta := 1 / (t * c.fieldconfig.gluon)
  match c.data mu t with
  | .error e => (some e, fs)
  | .ok (fieldconfig, f0) =>
    (none, (filename ++ infix_ ++ fmt t ++ "_mu_" ++ fmt mu ++ ".out", .table (rows c (fun p => P.finite c.om p beta mu f0 fieldconfig))) :: fs)

/-- physical_tc.rs l.193-300 `compute_propagators` and l.302-411 `compute_transverse_propagators`. -/
noncomputable def compute_propagators (P : Propagators) (fmt : ℝ → String) (filename infix_ : String) (c : Config) (fs : Files) : Option Panic × Files :=
  forEach (fun mu fs =>
    match c.data mu 0 with
    | .error e => (some e, fs)
    | .ok (fieldconfig, f0) =>
      forEach (propagatorAtT P fmt filename infix_ c mu) (c.temps.drop 1)
        ((filename ++ infix_ ++ "0.0000" ++ "_mu_" ++ fmt mu ++ ".out", .table (rows c (fun p => P.zero c.om p mu f0 fieldconfig))) :: fs))
    c.chempots fs

/-- physical_tc.rs, one value of l.431-450 and l.475-494: the renormalised propagator at momentum `pbase * m`. -/
noncomputable def irValue (c : Config) (D : ℝ → ℂ) : ℝ :=
  let m := c.fieldconfig.gluon
  let renfac := c.renpoint2 / (m * m)
  let z := (D c.renpoint).re * renfac
  (D (c.pbase * m)).re / z

/-- physical_tc.rs, the closure of l.441-449 and of l.485-493. -/
noncomputable def irAtT (P : Propagators) (c : Config) (mu t : ℝ) : Except Panic ℝ :=
  let beta := 1 / (t * c.fieldconfig.gluon)
  match c.data mu t with
  | .error e => .error e
  | .ok (fieldconfig, f0) => .ok (irValue c (fun p => P.finite c.om p beta mu f0 fieldconfig))

/-- `vals.extend(… .collect())`: the list, or the first panic (physical_tc.rs l.450, l.494). -/
def collect {α β : Type} (f : α → Except Panic β) : List α → Except Panic (List β)
  | [] => .ok []
  | x :: xs =>
    match f x with
    | .error e => .error e
    | .ok y =>
      match collect f xs with
      | .error e => .error e
      | .ok ys => .ok (y :: ys)

/-- physical_tc.rs l.430-451 and l.474-495: `vals` for one chemical potential. -/
noncomputable def irVals (P : Propagators) (c : Config) (mu : ℝ) : Except Panic (List ℝ) :=
  match c.data mu 0 with
  | .error e => .error e
  | .ok (fieldconfig, f0) =>
    match collect (irAtT P c mu) (c.temps.drop 1) with
    | .error e => .error e
    | .ok vs => .ok (irValue c (fun p => P.zero c.om p mu f0 fieldconfig) :: vs)

/-- physical_tc.rs l.413-460 `compute_ir_limit`: the curves handed to the plot, one for each chemical potential. -/
noncomputable def compute_ir_limit (P : Propagators) (c : Config) : Except Panic (List (List ℝ)) :=
  collect (irVals P c) c.chempots

/-- physical_tc.rs l.472-499: the critical temperature at one chemical potential. -/
noncomputable def criticalAt (P : Propagators) (c : Config) (mu : ℝ) : Except Panic ℝ :=
  match irVals P c mu with
  | .error e => .error e
  | .ok vals =>
    match find_critical_temperature (fun a b => open Classical in decide (a > b)) c.temps vals with
    | none => .error .empty
    | some tc => .ok tc

/-- physical_tc.rs l.11. -/
def D2W : ℕ := 2

/-- physical_tc.rs l.502-509: the pairs pushed to `tcsd2`. -/
noncomputable def secondDerivative (chempots tcs : List ℝ) : List (ℝ × ℝ) :=
  let cpl := chempots.length
  let dmu := chempots.getD 1 0 - chempots.getD 0 0
  let dmu2r := (((D2W * D2W : ℕ) : ℝ)) * dmu * dmu
  (List.range' D2W (cpl - D2W - D2W)).map (fun i =>
    (chempots.getD i 0, (tcs.getD (i + D2W) 0 + tcs.getD (i - D2W) 0 - 2 * tcs.getD i 0) / dmu2r))

/-- physical_tc.rs l.462-563 `compute_phase_diagram`: the phase boundary returned and the files `tc_….out`, `tcd2_….out`. With less
than two chemical potentials l.503 is out of range; with two or three, l.504 asks for a capacity `cpl - 4` that underflows (a panic
with overflow checks; without them a capacity overflow, a panic too). -/
noncomputable def compute_phase_diagram (P : Propagators) (filename : String) (c : Config) (fs : Files) : Except Panic (List (ℝ × ℝ)) × Files :=
  match collect (criticalAt P c) c.chempots with
  | .error e => (.error e, fs)
  | .ok tcs =>
    if c.chempots.length < 2 * D2W then (.error .index, fs)
    else
      (.ok (c.chempots.zip tcs),
        ("tcd2_" ++ filename ++ ".out", .table (secondDerivative c.chempots tcs)) :: ("tc_" ++ filename ++ ".out", .table (c.chempots.zip tcs)) :: fs)

/-- physical_tc.rs l.565-580 `InputData`, without the masses of the heaviest quark, which the program reads and does not use. -/
structure InputData where
  mg : ℝ
  om : ℝ
  renpoint : ℝ
  mq : ℝ × ℝ
  mqc : ℝ × ℝ
  f0 : ℝ
  fewtemps : ℝ × ℝ × ℝ
  moretemps : ℝ × ℝ × ℝ
  manytemps : ℝ × ℝ × ℝ
  fewchempots : ℝ × ℝ × ℝ
  morechempots : ℝ × ℝ × ℝ
  manychempots : ℝ × ℝ × ℝ
  momenta : ℝ × ℝ × ℝ

/-- physical_tc.rs l.662. -/
noncomputable def InputData.fieldconfig (i : InputData) : FieldConfig := FieldConfig.new 3 i.mg [(2, i.mq.1), (1, i.mq.2)]

/-- physical_tc.rs l.663. -/
noncomputable def InputData.corrected (i : InputData) : FieldConfig := FieldConfig.new 3 i.mg [(2, i.mqc.1), (1, i.mqc.2)]

/-- physical_tc.rs l.664-675. -/
noncomputable def InputData.config (i : InputData) : Config :=
  Config.new i.fewtemps i.fewchempots i.momenta i.om i.renpoint i.f0 i.fieldconfig

/-- physical_tc.rs l.661-731: the part of `main` after the configuration has been read. `L` and `T` are the longitudinal and transverse
propagators; `fit data n` are the parameters the external optimiser returns for a polynomial of degree `n` (tc_long_prop/src/lib.rs
l.85-131, which reduces its argument first). -/
noncomputable def main (L T : Propagators) (fit : List (ℝ × ℝ) → ℕ → List ℝ) (fmt : ℝ → String) (i : InputData) (fs : Files) : Option Panic × Files :=
  let config := i.config
  match compute_propagators L fmt "nf_2+1" "_glulongprop_t_" config fs with
  | (some e, fs) => (some e, fs)
  | (none, fs) =>
  match compute_propagators T fmt "nf_2+1" "_glutransprop_t_" config fs with
  | (some e, fs) => (some e, fs)
  | (none, fs) =>
  let config := (config.set_temperatures i.moretemps).set_chemicalpotentials i.morechempots
  match compute_ir_limit L config with
  | .error e => (some e, fs)
  | .ok _ =>
  let config := (config.set_temperatures i.manytemps).set_chemicalpotentials i.manychempots
  match compute_phase_diagram L "nf_2+1" config fs with
  | (.error e, fs) => (some e, fs)
  | (.ok pb, fs) =>
  match config.set_correctedfieldconfig (some i.corrected) with
  | (_, true) => (some .index, fs)
  | (config, false) =>
  let config := config.set_phase_boundary (some pb)
  match compute_phase_diagram L "nf_2+1_corrected" config fs with
  | (.error e, fs) => (some e, fs)
  | (.ok _, fs) =>
  match config.phase_boundary with
  | none => (some .empty, fs)
  | some boundary =>
  let fs := ("tc_nf_2+1_corrected_fit_parameters.out",
    .params (fit (reduce_phase_boundary (fun t => open Classical in decide (t = 0)) boundary) 8)) :: fs
  let config := (config.set_temperatures i.fewtemps).set_chemicalpotentials i.fewchempots
  match compute_propagators L fmt "nf_2+1_corrected" "_glulongprop_t_" config fs with
  | (some e, fs) => (some e, fs)
  | (none, fs) => compute_propagators T fmt "nf_2+1_corrected" "_glutransprop_t_" config fs

/-- tc_long_prop/src/lib.rs l.24-34: the functions `physical_tc.rs` calls `propagator_l_…`. -/
noncomputable def longitudinal (ig : Integrator) (k : consts.Consts ℝ) : Propagators where
  zero om p mu f0 fc := qcd.thermal.gluon.propagator_l_zero_temp_landau_w_field_config ig k om p mu f0 fc
  finite om p beta mu f0 fc := qcd.thermal.gluon.propagator_l_landau_w_field_config ig k om p beta mu f0 fc

/-- tc_long_prop/src/lib.rs l.24-34: the functions `physical_tc.rs` calls `propagator_t_…`. -/
noncomputable def transverse (ig : Integrator) (k : consts.Consts ℝ) : Propagators where
  zero om p mu f0 fc := qcd.thermal.gluon.propagator_t_zero_temp_landau_w_field_config ig k om p mu f0 fc
  finite om p beta mu f0 fc := qcd.thermal.gluon.propagator_t_landau_w_field_config ig k om p beta mu f0 fc

/-- physical_tc.rs l.661-731 with the functions its `use` declarations (l.1-9) name. -/
noncomputable def program (ig : Integrator) (k : consts.Consts ℝ) (fit : List (ℝ × ℝ) → ℕ → List ℝ) (fmt : ℝ → String) (i : InputData) (fs : Files) :
    Option Panic × Files :=
  main (longitudinal ig k) (transverse ig k) fit fmt i fs

end Qcd.tc
