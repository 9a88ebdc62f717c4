import Mathlib.Data.List.Basic

/-! # The build script `qcd-sme/build.rs`: the headers for C, C++ and Cython

Text is a list of characters, a path the list of its components, the file system the contents of its files and the set of its
directories. `cbindgen` is a parameter: the text it generates for a language, or a failure. Not modelled: failures of the file
system, the contents of the generated text, the warning printed at l.16. -/

namespace Qcd.build

/-- Text, build.rs l.39, l.63-64, l.91-92. -/
abbrev Text := List Char
/-- Paths, build.rs l.18-28. -/
abbrev Path := List String

/-- `\s` of the crate `regex`: the Unicode property `White_Space` (build.rs l.40, l.65, l.93). -/
def isSpace (c : Char) : Bool :=
  let n := c.toNat
  (9 ≤ n && n ≤ 13) || n == 0x20 || n == 0x85 || n == 0xA0 || n == 0x1680 || (0x2000 ≤ n && n ≤ 0x200A) || n == 0x2028 || n == 0x2029
    || n == 0x202F || n == 0x205F || n == 0x3000

/-- The pieces of the regular expressions of the script (build.rs l.40, l.65, l.93). -/
inductive Piece where
  | lit (s : Text)
  | spaces1
  | spaces0

/-- What is left of the text after the piece. A sequence of spaces is taken as long as possible; in the expressions of the script it is
followed by something that is not a space, so that nothing shorter can match (build.rs l.40, l.65, l.93). -/
def Piece.strip : Piece → Text → Option Text
  | lit s, t => if s.isPrefixOf t then some (t.drop s.length) else none
  | spaces1, [] => none
  | spaces1, c :: t => if isSpace c then some (t.dropWhile isSpace) else none
  | spaces0, t => some (t.dropWhile isSpace)

/-- The text after a match of the expression at the beginning of the text (build.rs l.41-47, l.66-72, l.94-100). -/
def strip : List Piece → Text → Option Text
  | [], t => some t
  | p :: ps, t => (p.strip t).bind (strip ps)

/-- `Regex::find`: the text before and after the leftmost match (build.rs l.41, l.66, l.94). -/
def find (rx : List Piece) : Text → Option (Text × Text)
  | [] => (strip rx []).map fun b => ([], b)
  | c :: t => match strip rx (c :: t) with
    | some b => some ([], b)
    | none => (find rx t).map fun ab => (c :: ab.1, ab.2)

/-- l.44-53 (also l.68-77 and l.97-106): `replace` replaces the leftmost match; the replacements contain no `$`. -/
def rewrite (rx : List Piece) (repl : Text) (t : Text) : Text :=
  match find rx t with
  | some (a, b) => a ++ repl ++ b
  | none => t

/-- The languages of the headers (build.rs l.32, l.56 (the default), l.82). -/
inductive Lang where
  | C
  | Cpp
  | Cython
deriving DecidableEq

/-- l.43, l.67, l.96. -/
def regex : Lang → List Piece
  | .C => [.lit "typedef".toList, .spaces1, .lit "Complex<R>".toList, .spaces1, .lit "C".toList, .spaces0, .lit ";".toList]
  | .Cpp => [.lit "using".toList, .spaces1, .lit "C".toList, .spaces1, .lit "=".toList, .spaces1, .lit "Complex<R>".toList, .spaces0, .lit ";".toList]
  | .Cython => [.lit "ctypedef".toList, .spaces1, .lit "Complex<R>".toList, .spaces1, .lit "C".toList, .spaces0, .lit ";".toList]

/-- l.48, l.72, l.101. -/
def replacement : Lang → Text
  | .C => "struct Complex {R re; R im;};\n\ntypedef struct Complex C;".toList
  | .Cpp => "struct Complex {R re; R im;};\n\nusing C = Complex;".toList
  | .Cython => "cdef struct Complex:\n    double re;\n    double im;\n\n  ctypedef Complex C;".toList

/-- l.9-11. -/
def file_name : Lang → String
  | .C => "qcd_sme.h"
  | .Cpp => "qcd_sme.hpp"
  | .Cython => "qcd_sme.pxd"

/-- l.5-8: `HEADERS_DIR`, for a build with or without debug assertions. -/
def headers_dir (debug : Bool) : Path := if debug then ["debug", "include"] else ["release", "include"]

/-- The file system (build.rs l.37-51). -/
structure FS where
  files : Path → Option Text
  isDir : Path → Bool

/-- Write a file (build.rs l.37, l.48-51). -/
def FS.write (fs : FS) (p : Path) (t : Text) : FS := { fs with files := fun q => if q = p then some t else fs.files q }

/-- `Path::parent` (build.rs l.24). -/
def parent (p : Path) : Option Path := if p = [] then none else some p.dropLast

/-- l.33-55 (l.57-79, l.81-107): generate a header, read it, replace the alias. The flag says whether the program goes on. -/
def header (gen : Lang → Option Text) (dir : Path) (l : Lang) (fs : FS) : FS × Bool :=
  match gen l with
  | none => (fs, false)
  | some t =>
    let fs := fs.write (dir ++ [file_name l]) t
    match find (regex l) t with
    | some _ => (fs.write (dir ++ [file_name l]) (rewrite (regex l) (replacement l) t), true)
    | none => (fs, true)

/-- l.18-25: the target directory; `none` if the environment variable is not set or the crate directory has no parent. -/
def target_dir (manifest_dir : Option Path) (fs : FS) : Option Path :=
  manifest_dir.bind fun crate_dir =>
    if fs.isDir (crate_dir ++ ["target"]) then some (crate_dir ++ ["target"]) else (parent crate_dir).map fun p => p ++ ["target"]

/-- l.15-107. The second component is `false` after a panic. -/
def main (gen : Lang → Option Text) (debug : Bool) (manifest_dir : Option Path) (fs : FS) : FS × Bool :=
  match target_dir manifest_dir fs with
  | none => (fs, false)
  | some target =>
    let dir := target ++ headers_dir debug
    let r := header gen dir .C fs
    if r.2 then
      let r := header gen dir .Cpp r.1
      if r.2 then header gen dir .Cython r.1 else r
    else r

end Qcd.build
