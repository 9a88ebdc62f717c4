import Verif.Model.Ffi
import Verif.Spec.Consts

/-! # Specification of the C interface -/

namespace Qcd.Spec
open consts

/-- The names the shared library defines. -/
noncomputable def symbols : List String := exports.map Export.symbol ++ setters.map ExportSetter.symbol

/-- Sequences of calls that follow the header, with the settings they make, in order. -/
inductive Follows : List CCall → List (Setter ℝ) → Prop
  | nil : Follows [] []
  | compute {cs h} (e : Export) (he : e ∈ exports) (args : List Val) (hargs : args.map Val.ty = e.args) :
    Follows cs h → Follows (⟨e.symbol, args⟩ :: cs) h
  | set {cs h} (e : ExportSetter) (he : e ∈ setters) (x : e.arg.Carrier) :
    Follows cs h → Follows (⟨e.symbol, [⟨e.arg, x⟩]⟩ :: cs) (e.setter x :: h)

end Qcd.Spec
