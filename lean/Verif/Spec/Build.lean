import Verif.Model.Build

/-! # What the headers should contain -/

namespace Qcd.build.Spec

/-- A sequence of white space. -/
def Blank (w : Text) : Prop := ∀ c ∈ w, isSpace c = true

/-- The declaration, as generated from the Rust source, of `C` as an alias of a generic type, which none of the languages has in this
form. -/
def Alias : Lang → Text → Prop
  | .C, d => ∃ u v w, Blank u ∧ Blank v ∧ Blank w ∧ u ≠ [] ∧ v ≠ [] ∧ d = "typedef".toList ++ u ++ "Complex<R>".toList ++ v ++ "C".toList ++ w ++ ";".toList
  | .Cpp, d => ∃ u v x w, Blank u ∧ Blank v ∧ Blank x ∧ Blank w ∧ u ≠ [] ∧ v ≠ [] ∧ x ≠ [] ∧
      d = "using".toList ++ u ++ "C".toList ++ v ++ "=".toList ++ x ++ "Complex<R>".toList ++ w ++ ";".toList
  | .Cython, d => ∃ u v w, Blank u ∧ Blank v ∧ Blank w ∧ u ≠ [] ∧ v ≠ [] ∧
      d = "ctypedef".toList ++ u ++ "Complex<R>".toList ++ v ++ "C".toList ++ w ++ ";".toList

/-- The declaration occurs in the text at the position `a.length`. -/
def AliasAt (l : Lang) (t a d b : Text) : Prop := Alias l d ∧ t = a ++ d ++ b

/-- The text has no such declaration. -/
def Free (l : Lang) (t : Text) : Prop := ∀ a d b, ¬ AliasAt l t a d b

/-- A definition of the complex numbers with the real and the imaginary part, in this order, and of `C`. -/
def definition : Lang → Text
  | .C => "struct Complex {R re; R im;};\n\ntypedef struct Complex C;".toList
  | .Cpp => "struct Complex {R re; R im;};\n\nusing C = Complex;".toList
  | .Cython => "cdef struct Complex:\n    double re;\n    double im;\n\n  ctypedef Complex C;".toList

end Qcd.build.Spec
