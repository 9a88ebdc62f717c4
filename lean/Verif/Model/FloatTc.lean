import Verif.Model.FloatRoot
import Verif.Model.TcLongProp

/-! # Phase boundaries, grids and fits of `tc_long_prop` in floating-point arithmetic -/

namespace Qcd.F
variable {r : Rounding}

/-- The constant `R::ZERO`, tc_long_prop/src/lib.rs l.56-58. -/
noncomputable instance : Zero (Fl r) := ⟨Fl.num 0⟩

/-- lib.rs l.80-82 `reduce_phase_boundary`, with the test `*t == 0.` of `f64`. -/
noncomputable def reduce_phase_boundary (pb : List (Fl r × Fl r)) : List (Fl r × Fl r) := tc.reduce_phase_boundary (fun t => Fl.beq t (Fl.num 0)) pb

/-- lib.rs l.163-181, the scan of `is_deconfined_phase`. `prev` is the list of the points already passed, latest first: `phase_boundary[i-1]` is its head,
and indexing with `i = 0` would be an integer underflow (a panic, `none`). -/
noncomputable def scan (mu t : Fl r) : List (Fl r × Fl r) → List (Fl r × Fl r) → Option Bool
  | _, [] => some true
  | prev, (mmu, tt) :: rest =>
    if Fl.beq mmu mu then some (Fl.lt tt t)
    else if Fl.beq tt t then some (Fl.lt mmu mu)
    else if Fl.lt mu mmu then
      match prev with
      | [] => none
      | (mu0, t0) :: _ => some (Fl.lt (t0 + (tt - t0) / (mmu - mu0) * (mu - mu0)) t)
    else scan mu t ((mmu, tt) :: prev) rest

/-- lib.rs l.139-183 `is_deconfined_phase`; `none` is a panic. -/
noncomputable def is_deconfined_phase (mu t : Fl r) (phase_boundary : List (Fl r × Fl r)) : Option Bool :=
  let pb := reduce_phase_boundary phase_boundary
  match pb with
  | [] => none
  | first :: _ =>
    if Fl.lt mu first.1 then none
    else if Fl.beq t (Fl.num 0) then some (Fl.lt (pb.getLastD first).1 mu)
    else if Fl.beq mu (Fl.num 0) && Fl.beq first.1 (Fl.num 0) then some (Fl.lt first.2 t)
    else scan mu t [] pb

/-- lib.rs l.65-72 `parametric_phase_diagram`, type `f64`. -/
noncomputable def parametric_phase_diagram (mu : Fl r) (params : List (Fl r)) : Option (Fl r) := tc.parametric_phase_diagram mu params

/-- The largest `usize`, on a machine of 64 bits (physical_tc.rs l.187). -/
def usizeMax : ℕ := 2 ^ 64 - 1

/-- `x.round() as usize`: halves are rounded up for positive numbers; the cast saturates, and NaN gives zero (physical_tc.rs l.187). -/
noncomputable def roundUsize (a : Fl r) : ℕ := open Classical in
  if a.value = none then 0 else if a.val = ⊤ then usizeMax else if a.val ≤ 0 then 0 else min ⌊a.val.toReal + 1 / 2⌋₊ usizeMax

/-- The number of `f64` whose size does not exceed `isize::MAX` bytes: more of them are a panic (capacity overflow) (physical_tc.rs l.188). -/
def maxLength : ℕ := 2 ^ 60 - 1

/-- tc_long_prop/src/bin/physical_tc.rs l.184-189 `compute_vec`; `none` is the panic of a vector which is too long. That the memory is exhausted by shorter
ones is not modelled. -/
noncomputable def compute_vec (vmin vmax dv : Fl r) : Option (List (Fl r)) :=
  let n := roundUsize ((vmax - vmin) / dv)
  if maxLength < n + 1 then none else some ((List.range (n + 1)).map (fun k : ℕ => vmin + dv * ofR (k : ℝ)))

end Qcd.F
