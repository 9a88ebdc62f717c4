import Verif.Model.Consts

/-! Specification of the global constants: what each getter should return after a history. -/

namespace Qcd.consts
variable {F : Type} [FloatOps F]

/-- The argument of the last call in the history selected by `pick`, or a default. -/
def lastOr {A : Type} (d : A) (pick : Setter F → Option A) (h : List (Setter F)) : A :=
  ((h.filterMap pick).getLast?).getD d

/-- A setting is rejected when it is a tolerance or regulator that is not `> 0`. -/
def rejected : Setter F → Bool
  | .default_tol_integral t => !FloatOps.gt0 t
  | .matsubara_reg r => !FloatOps.gt0 r
  | _ => false

def pickNc : Setter F → Option ℕ | .number_of_colors n => some n | _ => none
def pickNf : Setter F → Option ℕ | .number_of_fermions n => some n | _ => none
def pickMQuark : Setter F → Option F | .default_quark_mass m => some m | _ => none
def pickTol : Setter F → Option F | .default_tol_integral t => some t | _ => none
def pickMaxIter : Setter F → Option ℕ | .default_max_iter_integral n => some n | _ => none
def pickReg : Setter F → Option F | .matsubara_reg r => some r | _ => none

/-- The calls of the history that were not rejected. -/
def accepted (h : List (Setter F)) : List (Setter F) := h.filter (fun c => !rejected c)

/-- A schedule in which setter calls are mutually exclusive: whenever a thread moves, no other
thread is in the middle of a call. -/
def MutuallyExclusive (m : Machine F) : List ℕ → Prop
  | [] => True
  | i :: rest => (∀ j, j ≠ i → (m.threads j).todo = []) ∧ MutuallyExclusive (m.step i) rest

/-- No setter is running. -/
def Machine.Quiet (m : Machine F) : Prop := ∀ i, (m.threads i).todo = []

end Qcd.consts
