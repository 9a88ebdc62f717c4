import Mathlib.Data.Real.Basic
import Mathlib.Algebra.Order.Round
import Mathlib.Algebra.Order.Floor.Semiring
import Mathlib.Analysis.SpecialFunctions.Log.Basic
import Verif.Model.Qcd

/-! # `tc_long_prop/src/lib.rs` and the `Config` of `tc_long_prop/src/bin/physical_tc.rs`

Slices are lists. A panic is the value `none` of an `Option` (or an explicit flag). -/

namespace Qcd.tc

/-- lib.rs l.39-47, the loop: `acc = (tc, dc)`. `gt a b` is the float test `a > b`. -/
def fctLoop {F : Type} (gt : F → F → Bool) : F × F → List (F × F) → F × F
  | acc, [] => acc
  | (tc, dc), (t, d) :: rest =>
    if gt d dc then fctLoop gt (t, d) rest else fctLoop gt (tc, dc) rest

/-- lib.rs l.39-47 `find_critical_temperature`; `none` is the panic of the two `unwrap`s. -/
def find_critical_temperature {F : Type} (gt : F → F → Bool) (ts ds : List F) : Option F :=
  match ts.head?, ds.head? with
  | some t, some d => some (fctLoop gt (t, d) ((ts.zip ds).drop 1)).1
  | _, _ => none

/-- lib.rs l.65-72 `parametric_phase_diagram`; `none` is the panic of `params[1..]`/`params[0]` on
an empty slice. -/
def parametric_phase_diagram {F : Type} [Add F] [Mul F] [Zero F] (mu : F) (params : List F) :
    Option F :=
  match params with
  | [] => none
  | p0 :: rest => some (rest.reverse.foldl (fun res p => (res + p) * mu) 0 + p0)

/-- lib.rs l.80-82 `reduce_phase_boundary`: the part before the first separator. `isZero t` is the
float test `*t == 0.`. -/
def reduce_phase_boundary {F : Type} (isZero : F → Bool) (pb : List (F × F)) : List (F × F) :=
  (pb.splitOnP (fun x => isZero x.2)).headD []

/-- lib.rs l.163-181, the scan of `is_deconfined_phase`. `prev` is the list of the points already
passed, latest first: `phase_boundary[i-1]` is its head, and indexing with `i = 0` would be an
integer underflow (a panic, `none`). Exact real arithmetic. -/
noncomputable def scan (mu t : ℝ) : List (ℝ × ℝ) → List (ℝ × ℝ) → Option Bool
  | _, [] => some true
  | prev, (mmu, tt) :: rest =>
    open Classical in
    if mmu = mu then some (decide (t > tt))
    else if tt = t then some (decide (mu > mmu))
    else if mmu > mu then
      match prev with
      | [] => none
      | (mu0, t0) :: _ =>
        let tc := t0 + (tt - t0) / (mmu - mu0) * (mu - mu0)
        some (decide (t > tc))
    else scan mu t ((mmu, tt) :: prev) rest

/-- lib.rs l.139-183 `is_deconfined_phase`, exact real arithmetic; `none` is a panic. -/
noncomputable def is_deconfined_phase (mu t : ℝ) (phase_boundary : List (ℝ × ℝ)) : Option Bool :=
  open Classical in
  let pb := reduce_phase_boundary (fun t => decide (t = 0)) phase_boundary
  match pb with
  | [] => none
  | first :: _ =>
    if mu < first.1 then none
    else if t = 0 then some (decide (mu > (pb.getLastD first).1))
    else if mu = 0 ∧ first.1 = 0 then some (decide (t > first.2))
    else scan mu t [] pb

/-- physical_tc.rs l.184-189 `compute_vec`. `as usize` saturates negative values to zero
(`Int.toNat`); exact real arithmetic, `round` is half-away-from-zero in Rust and half-up in
Mathlib: they agree for nonnegative arguments and both give at most 0 after saturation for
negative ones. -/
noncomputable def compute_vec (vmin vmax dv : ℝ) : List ℝ :=
  let vrange := vmax - vmin
  let n := (round (vrange / dv)).toNat
  (List.range (n + 1)).map (fun k : ℕ => vmin + dv * (k : ℝ))

/-- physical_tc.rs l.24-46 `Config`, without the labels and plotting data. -/
structure Config where
  pbase : ℝ
  om : ℝ
  fieldconfig : FieldConfig
  correctedfieldconfig : Option FieldConfig
  renpoint : ℝ
  f0 : ℝ
  temps : List ℝ
  chempots : List ℝ
  momenta : List ℝ
  renpoint2 : ℝ
  correctedf0 : Option ℝ
  phase_boundary : Option (List (ℝ × ℝ))

/-- physical_tc.rs l.49-98 `Config::new`. -/
noncomputable def Config.new (temps chempots momenta : ℝ × ℝ × ℝ) (om renpoint f0_init : ℝ)
    (fieldconfig : FieldConfig) : Config :=
  let pbase := momenta.1
  let temps := compute_vec temps.1 temps.2.1 temps.2.2
  let chempots := compute_vec chempots.1 chempots.2.1 chempots.2.2
  let momenta := compute_vec momenta.1 momenta.2.1 momenta.2.2
  let renpoint2 := renpoint * renpoint
  let mg := fieldconfig.gluon
  let f0 := f0_init
    + (fieldconfig.quarks.map (fun q => (q.1 : ℝ) * Real.log (mg / q.2))).sum * 4
      / (9 * (fieldconfig.nc : ℝ))
  { pbase, om, fieldconfig, correctedfieldconfig := none, renpoint, f0, temps, chempots, momenta,
    renpoint2, correctedf0 := none, phase_boundary := none }

/-- The terms of the sum in physical_tc.rs l.169-177, from index `i` on: `none` if
`self.fieldconfig.quarks[i]` is out of bounds. -/
noncomputable def corrTerms : List (ℕ × ℝ) → List (ℕ × ℝ) → Option (List ℝ)
  | _, [] => some []
  | [], _ :: _ => none
  | (_, mq) :: qs, (nf, mqc) :: cs =>
    (corrTerms qs cs).map (fun l => (nf : ℝ) * Real.log (mq / mqc) :: l)

/-- physical_tc.rs l.162-182 `set_correctedf0`. The result is the new state and whether the call
panicked (index out of bounds); on a panic `correctedf0` is not assigned. -/
noncomputable def Config.set_correctedf0 (c : Config) : Config × Bool :=
  match c.correctedfieldconfig with
  | none => ({ c with correctedf0 := none }, false)
  | some cfc =>
    match corrTerms c.fieldconfig.quarks cfc.quarks with
    | none => (c, true)
    | some l =>
      ({ c with correctedf0 := some (c.f0 + l.sum * 4 / (9 * (c.fieldconfig.nc : ℝ))) }, false)

/-- physical_tc.rs l.132-135. -/
noncomputable def Config.set_correctedfieldconfig (c : Config) (v : Option FieldConfig) :
    Config × Bool :=
  { c with correctedfieldconfig := v }.set_correctedf0

/-- physical_tc.rs l.137-140. -/
noncomputable def Config.set_phase_boundary (c : Config) (v : Option (List (ℝ × ℝ))) : Config :=
  open Classical in
  { c with phase_boundary := v.map (reduce_phase_boundary (fun t => decide (t = 0))) }

/-- physical_tc.rs l.124-126. -/
noncomputable def Config.set_temperatures (c : Config) (v : ℝ × ℝ × ℝ) : Config :=
  { c with temps := compute_vec v.1 v.2.1 v.2.2 }

/-- physical_tc.rs l.128-130. -/
noncomputable def Config.set_chemicalpotentials (c : Config) (v : ℝ × ℝ × ℝ) : Config :=
  { c with chempots := compute_vec v.1 v.2.1 v.2.2 }

/-- How `maybe_corrected_data` ends (physical_tc.rs l.144-160). -/
inductive Data where
  | panicInconsistent
  | panicPhase
  | ok (fc : FieldConfig) (f0 : ℝ)

/-- physical_tc.rs l.144-160. -/
noncomputable def Config.maybe_corrected_data (c : Config) (mu t : ℝ) : Data :=
  match c.correctedfieldconfig, c.correctedf0, c.phase_boundary with
  | some cfc, some cf0, some pb =>
    match is_deconfined_phase mu t pb with
    | none => .panicPhase
    | some true => .ok cfc cf0
    | some false => .ok c.fieldconfig c.f0
  | none, none, none => .ok c.fieldconfig c.f0
  | _, _, _ => .panicInconsistent

end Qcd.tc
