import Mathlib.Data.Real.Basic
import Mathlib.Data.Rat.Cast.Order
import Mathlib.Tactic.NormNum
import Mathlib.Tactic.Positivity

/-!
# The mutable global constants: `qcd-sme/src/consts.rs`

Simplifications: `u32` is read as `ℕ` (the code performs no integer arithmetic on these
values). Floats are an arbitrary type `F` with the operations below; the order test is an
arbitrary Boolean function, so NaN and infinities are covered.
-/

namespace Qcd.consts

/-- The float operations used by consts.rs: decimal literals, conversion `n as R` (l.32, 57),
division (l.32, 57, 68) and the test `x > 0.` (l.117, 177). The three laws are facts about
the literals in the file: `1E-10 > 0.` (l.101), `1E-5 > 0.` (l.161), and that `1.` and `3.`
are what `1 as R` and `3 as R` produce. -/
class FloatOps (F : Type) where
  lit : ℚ → F
  ofU32 : ℕ → F
  div : F → F → F
  gt0 : F → Bool
  gt0_tol : gt0 (lit (1 / 10 ^ 10)) = true
  gt0_reg : gt0 (lit (1 / 10 ^ 5)) = true
  lit_one : lit 1 = ofU32 1
  lit_three : lit 3 = ofU32 3

/-- Exact reals (the operations of consts.rs l.32, 57, 117, 177). -/
noncomputable instance : FloatOps ℝ where
  lit q := (q : ℝ)
  ofU32 n := (n : ℝ)
  div a b := a / b
  gt0 x := open Classical in decide (0 < x)
  gt0_tol := by simp
  gt0_reg := by simp
  lit_one := by simp
  lit_three := by simp

/-- Rationals with a not-a-number (`none`): division by zero gives `none` and no comparison with
`none` holds. A computable stand-in for a float type with NaN (an instance of the operations of consts.rs l.32, 57, 117, 177). -/
instance : FloatOps (Option ℚ) where
  lit q := some q
  ofU32 n := some n
  div a b := match a, b with
    | some x, some y => if y = 0 then none else some (x / y)
    | _, _ => none
  gt0 x := match x with
    | some x => decide (0 < x)
    | none => false
  gt0_tol := by norm_num
  gt0_reg := by norm_num
  lit_one := by norm_num
  lit_three := by norm_num

variable {F : Type} [FloatOps F]
open FloatOps

/-- The `static mut` variables of consts.rs: `NC` (l.19), `NF` (l.44), `NF_DIV_NC` (l.68),
`M_QUARK` (l.77), `TOL_INTEGRAL` (l.101), `MAX_ITER_INTEGRAL` (l.130), `MATSUBARA_REG` (l.161). -/
structure Consts (F : Type) where
  nc : ℕ
  nf : ℕ
  nf_div_nc : F
  m_quark : F
  tol_integral : F
  max_iter_integral : ℕ
  matsubara_reg : F

/-- The initial values of the statics, same lines (consts.rs l.19-161). -/
def init : Consts F where
  nc := 3
  nf := 1
  nf_div_nc := div (lit 1) (lit 3)
  m_quark := lit (1 / 2)
  tol_integral := lit (1 / 10 ^ 10)
  max_iter_integral := 50
  matsubara_reg := lit (1 / 10 ^ 5)

/-- How a call ends: the state of the statics after it, and whether it panicked (consts.rs l.29-181). -/
structure Outcome (F : Type) where
  state : Consts F
  panicked : Bool

/-- consts.rs l.29-34. -/
def set_number_of_colors (n : ℕ) (s : Consts F) : Outcome F :=
  let s := { s with nc := n }
  let s := { s with nf_div_nc := div (ofU32 s.nf) (ofU32 s.nc) }
  ⟨s, false⟩

/-- consts.rs l.54-59. -/
def set_number_of_fermions (n : ℕ) (s : Consts F) : Outcome F :=
  let s := { s with nf := n }
  let s := { s with nf_div_nc := div (ofU32 s.nf) (ofU32 s.nc) }
  ⟨s, false⟩

/-- consts.rs l.88-92. -/
def set_default_quark_mass (m : F) (s : Consts F) : Outcome F :=
  ⟨{ s with m_quark := m }, false⟩

/-- consts.rs l.116-121. -/
def set_default_tol_integral (tol : F) (s : Consts F) : Outcome F :=
  if gt0 tol then ⟨{ s with tol_integral := tol }, false⟩ else ⟨s, true⟩

/-- consts.rs l.141-145. -/
def set_default_max_iter_integral (iter : ℕ) (s : Consts F) : Outcome F :=
  ⟨{ s with max_iter_integral := iter }, false⟩

/-- consts.rs l.176-181. -/
def set_matsubara_reg (reg : F) (s : Consts F) : Outcome F :=
  if gt0 reg then ⟨{ s with matsubara_reg := reg }, false⟩ else ⟨s, true⟩

/-- A call of one of the six setters (consts.rs l.29, 54, 88, 116, 141, 176). -/
inductive Setter (F : Type) where
  | number_of_colors (n : ℕ)
  | number_of_fermions (n : ℕ)
  | default_quark_mass (m : F)
  | default_tol_integral (tol : F)
  | default_max_iter_integral (iter : ℕ)
  | matsubara_reg (reg : F)

/-- Perform a setter call (consts.rs l.29, 54, 88, 116, 141, 176). -/
def Setter.call : Setter F → Consts F → Outcome F
  | .number_of_colors n => set_number_of_colors n
  | .number_of_fermions n => set_number_of_fermions n
  | .default_quark_mass m => set_default_quark_mass m
  | .default_tol_integral t => set_default_tol_integral t
  | .default_max_iter_integral n => set_default_max_iter_integral n
  | .matsubara_reg r => set_matsubara_reg r

/-- The state after a sequential history of calls (a panicking call is caught by the caller
and the history goes on) (consts.rs l.29-181). -/
def run (h : List (Setter F)) (s : Consts F) : Consts F :=
  h.foldl (fun s c => (c.call s).state) s

/-- The state after a history starting from program start (consts.rs l.19-181). -/
def after (h : List (Setter F)) : Consts F := run h init

/-- peroxide's `Integral` (types.rs l.6), an external enumeration: the constructors with a
tolerance and an iteration limit, and the fixed-order ones. -/
inductive Integral (F : Type) where
  | gaussLegendre (n : ℕ)
  | newtonCotes (n : ℕ)
  | G7K15 (tol : F) (max_iter : ℕ)
  | G10K21 (tol : F) (max_iter : ℕ)
  | G15K31 (tol : F) (max_iter : ℕ)
  | G20K41 (tol : F) (max_iter : ℕ)
  | G25K51 (tol : F) (max_iter : ℕ)
  | G30K61 (tol : F) (max_iter : ℕ)
  | G7K15R (tol : F) (max_iter : ℕ)
  | G10K21R (tol : F) (max_iter : ℕ)
  | G15K31R (tol : F) (max_iter : ℕ)
  | G20K41R (tol : F) (max_iter : ℕ)
  | G25K51R (tol : F) (max_iter : ℕ)
  | G30K61R (tol : F) (max_iter : ℕ)

/-- peroxide's `Integral::get_tol`, external code: the tolerance of an adaptive method; `none` stands
for the panic of the methods without one (called at qcd/thermal.rs l.326). -/
def Integral.get_tol : Integral F → Option F
  | .gaussLegendre _ | .newtonCotes _ => none
  | .G7K15 tol _ | .G10K21 tol _ | .G15K31 tol _ | .G20K41 tol _ | .G25K51 tol _ | .G30K61 tol _
  | .G7K15R tol _ | .G10K21R tol _ | .G15K31R tol _ | .G20K41R tol _ | .G25K51R tol _
  | .G30K61R tol _ => some tol

/-- consts.rs l.156-158. -/
def get_default_integration_method (s : Consts F) : Integral F :=
  .G7K15 s.tol_integral s.max_iter_integral

/-! ## Micro-steps: setters running on threads without synchronisation -/

/-- The individual accesses to the statics performed by the bodies of `set_number_of_colors`
(l.29-34) and `set_number_of_fermions` (l.54-59). `loadNF`/`loadNC` read a static into a
thread-local temporary; `storeRatio` divides the temporaries and stores the result. -/
inductive Instr where
  | storeNC (n : ℕ)
  | storeNF (n : ℕ)
  | loadNF
  | loadNC
  | storeRatio
deriving DecidableEq

/-- The two setters that touch more than one static (consts.rs l.29-34, l.54-59). -/
inductive RatioCall where
  | colors (n : ℕ)
  | fermions (n : ℕ)
deriving DecidableEq

/-- The accesses of a call, in program order (`(NF as R) / (NC as R)` reads NF, then NC) (consts.rs l.29-34, l.54-59). -/
def RatioCall.code : RatioCall → List Instr
  | .colors n => [.storeNC n, .loadNF, .loadNC, .storeRatio]
  | .fermions n => [.storeNF n, .loadNF, .loadNC, .storeRatio]

/-- A thread: calls still to be made, accesses left in the call in progress, temporaries (the calls are those of consts.rs l.29-34, l.54-59). -/
structure Thread where
  pending : List RatioCall
  todo : List Instr
  regNF : ℕ
  regNC : ℕ

/-- The machine: the statics and the threads (consts.rs l.19, 44, 68). -/
structure Machine (F : Type) where
  shared : Consts F
  threads : ℕ → Thread

/-- One access by one thread (consts.rs l.31-32, l.56-57). -/
def exec (i : Instr) (s : Consts F) (t : Thread) : Consts F × Thread :=
  match i with
  | .storeNC n => ({ s with nc := n }, t)
  | .storeNF n => ({ s with nf := n }, t)
  | .loadNF => (s, { t with regNF := s.nf })
  | .loadNC => (s, { t with regNC := s.nc })
  | .storeRatio => ({ s with nf_div_nc := div (ofU32 t.regNF) (ofU32 t.regNC) }, t)

/-- Let thread `i` perform its next access (entering its next call if it is between calls);
nothing happens if it has finished (consts.rs l.31-32, l.56-57). -/
def Machine.step (m : Machine F) (i : ℕ) : Machine F :=
  let t := m.threads i
  let t := match t.todo, t.pending with
    | [], c :: cs => { t with todo := c.code, pending := cs }
    | _, _ => t
  match t.todo with
  | [] => m
  | ins :: rest =>
    let r := exec ins m.shared t
    { shared := r.1, threads := Function.update m.threads i { r.2 with todo := rest } }

/-- Run a schedule: the list of the thread that moves at each step (consts.rs l.31-32, l.56-57). -/
def Machine.runSched (m : Machine F) (sched : List ℕ) : Machine F := sched.foldl Machine.step m

/-- The machine at program start with the given calls to be made by each thread (consts.rs l.19, 44, 68). -/
def Machine.start (prog : ℕ → List RatioCall) : Machine F :=
  { shared := init, threads := fun i => ⟨prog i, [], 0, 0⟩ }

end Qcd.consts
