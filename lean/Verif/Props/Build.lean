import Verif.Lemmas.Build

/-! # C110: the headers written by the build script -/

namespace Qcd.build
open Spec

/-- What happens to the generated text: without the declaration of `C` it stays as it is; otherwise the first declaration is replaced. -/
def Spec.Header (l : Lang) (t t' : Text) : Prop :=
  (Free l t → t' = t) ∧
  ∀ a d b, AliasAt l t a d b → (∀ a' d' b', AliasAt l t a' d' b' → a.length ≤ a'.length) → t' = a ++ definition l ++ b

theorem definition_eq (l : Lang) : definition l = replacement l := by cases l <;> rfl

theorem rewrite_header (l : Lang) (t : Text) : Header l t (rewrite (regex l) (replacement l) t) := by
  refine ⟨fun h => by rw [rewrite, find_none t h], ?_⟩
  rintro a d b ⟨hd, rfl⟩ h
  rw [rewrite, find_first hd a h, definition_eq]

/-- **C110** (text): the text without declaration is unchanged; otherwise the first declaration is replaced by the definition of the
structure, and everything before and after it is kept. -/
theorem C110_text (l : Lang) (t : Text) : Header l t (rewrite (regex l) (replacement l) t) := rewrite_header l t

/-- **C110** (no declaration left): if there was one declaration, there is none in the header. -/
theorem C110_replaced (l : Lang) (t a d b : Text) (h : AliasAt l t a d b) (hu : ∀ a' d' b', AliasAt l t a' d' b' → a' = a) :
    rewrite (regex l) (replacement l) t = a ++ definition l ++ b ∧ Free l (rewrite (regex l) (replacement l) t) := by
  have e := (rewrite_header l t).2 a d b h fun a' d' b' h' => (hu a' d' b' h' ▸ Nat.le_refl _)
  obtain ⟨hd, rfl⟩ := h
  exact ⟨e, by rw [e, definition_eq]; exact free_rewrite hu hd⟩

/-- **C110** (running it again): the step does not change a header it has produced. -/
theorem C110_idempotent (l : Lang) (t : Text) (h : ∀ a d b a' d' b', AliasAt l t a d b → AliasAt l t a' d' b' → a' = a) :
    rewrite (regex l) (replacement l) (rewrite (regex l) (replacement l) t) = rewrite (regex l) (replacement l) t := by
  by_cases hf : Free l t
  · rw [(rewrite_header l t).1 hf, (rewrite_header l t).1 hf]
  · simp only [Free, not_forall, not_not] at hf
    obtain ⟨a, d, b, hd⟩ := hf
    exact (rewrite_header l _).1 (C110_replaced l t a d b hd fun a' d' b' h' => h a d b a' d' b' hd h').2

theorem header_ok {gen : Lang → Option Text} {dir : Path} {l : Lang} {fs : FS} {t : Text} (h : gen l = some t) :
    (header gen dir l fs).2 = true ∧ (header gen dir l fs).1.files (dir ++ [file_name l]) = some (rewrite (regex l) (replacement l) t) ∧
    (∀ q, q ≠ dir ++ [file_name l] → (header gen dir l fs).1.files q = fs.files q) ∧ (header gen dir l fs).1.isDir = fs.isDir := by
  cases hf : find (regex l) t with
  | none =>
    have e : header gen dir l fs = (fs.write (dir ++ [file_name l]) t, true) := by rw [header, h]; simp only [hf]
    rw [e]
    exact ⟨rfl, by simp only [FS.write, if_true, rewrite, hf], fun q hq => by simp only [FS.write, if_neg hq], rfl⟩
  | some ab =>
    have e : header gen dir l fs = ((fs.write (dir ++ [file_name l]) t).write (dir ++ [file_name l]) (rewrite (regex l) (replacement l) t), true) := by
      rw [header, h]; simp only [hf]
    rw [e]
    exact ⟨rfl, by simp only [FS.write, if_true], fun q hq => by simp only [FS.write, if_neg hq], rfl⟩

theorem header_fail {gen : Lang → Option Text} {dir : Path} {l : Lang} {fs : FS} (h : gen l = none) : header gen dir l fs = (fs, false) := by
  rw [header, h]

theorem name_ne {l l' : Lang} (h : l ≠ l') (dir : Path) : dir ++ [file_name l] ≠ dir ++ [file_name l'] := by
  intro e
  have := List.append_cancel_left e
  cases l <;> cases l' <;> first | exact h rfl | (simp [file_name] at this)

/-- **C110** (the run): the target directory is the one in the directory of the crate if it exists, and otherwise the one of the
workspace. If the three texts can be generated, the build script succeeds; it writes the three headers below the directory of the build
profile, and no other file. -/
theorem C110_main (gen : Lang → Option Text) (debug : Bool) (root : Path) (name : String) (fs : FS) (text : Lang → Text)
    (h : ∀ l, gen l = some (text l)) :
    let target := if fs.isDir (root ++ [name, "target"]) then root ++ [name, "target"] else root ++ ["target"]
    let dir := target ++ [if debug then "debug" else "release", "include"]
    let path : Lang → Path := fun l => dir ++ [match l with | .C => "qcd_sme.h" | .Cpp => "qcd_sme.hpp" | .Cython => "qcd_sme.pxd"]
    let r := main gen debug (some (root ++ [name])) fs
    r.2 = true ∧ (∀ l, ∃ t', r.1.files (path l) = some t' ∧ Header l (text l) t') ∧ ∀ q, (∀ l, q ≠ path l) → r.1.files q = fs.files q := by
  intro target dir path r
  have hp : ∀ l, path l = dir ++ [file_name l] := by intro l; cases l <;> rfl
  have hd : target ++ headers_dir debug = dir := by cases debug <;> rfl
  have ht : target_dir (some (root ++ [name])) fs = some target := by
    simp only [target_dir, Option.bind_some, List.append_assoc, List.cons_append, List.nil_append, parent, target]
    split
    · rfl
    · rw [if_neg (by simp), List.dropLast_concat]; rfl
  obtain ⟨a1, a2, a3, -⟩ := header_ok (dir := dir) (fs := fs) (h .C)
  obtain ⟨b1, b2, b3, -⟩ := header_ok (dir := dir) (fs := (header gen dir .C fs).1) (h .Cpp)
  obtain ⟨c1, c2, c3, -⟩ := header_ok (dir := dir) (fs := (header gen dir .Cpp (header gen dir .C fs).1).1) (h .Cython)
  have hr : r = header gen dir .Cython (header gen dir .Cpp (header gen dir .C fs).1).1 := by
    simp only [r, main, ht, hd, a1, b1, if_true]
  rw [hr]
  refine ⟨c1, fun l => ⟨_, ?_, rewrite_header l (text l)⟩, fun q hq => ?_⟩
  · rw [hp]
    cases l
    · rw [c3 _ (name_ne (by decide) dir), b3 _ (name_ne (by decide) dir), a2]
    · rw [c3 _ (name_ne (by decide) dir), b2]
    · exact c2
  · simp only [hp] at hq
    rw [c3 q (hq _), b3 q (hq _), a3 q (hq _)]

/-- **C110** (failures): the script panics if the directory of the crate is not known, or a text cannot be generated; the headers that
come after in the order C, C++, Cython are not touched, and no other file is. -/
theorem C110_failure (gen : Lang → Option Text) (debug : Bool) (fs : FS) :
    main gen debug none fs = (fs, false) ∧
    ∀ root name,
      let target := if fs.isDir (root ++ [name, "target"]) then root ++ [name, "target"] else root ++ ["target"]
      let dir := target ++ [if debug then "debug" else "release", "include"]
      let r := main gen debug (some (root ++ [name])) fs
      (gen .C = none → r = (fs, false)) ∧
      (∀ t, gen .C = some t → gen .Cpp = none → r.2 = false ∧ ∀ q, q ≠ dir ++ ["qcd_sme.h"] → r.1.files q = fs.files q) ∧
      (∀ t t', gen .C = some t → gen .Cpp = some t' → gen .Cython = none →
        r.2 = false ∧ ∀ q, q ≠ dir ++ ["qcd_sme.h"] → q ≠ dir ++ ["qcd_sme.hpp"] → r.1.files q = fs.files q) := by
  refine ⟨rfl, fun root name => ?_⟩
  intro target dir r
  have hd : target ++ headers_dir debug = dir := by cases debug <;> rfl
  have ht : target_dir (some (root ++ [name])) fs = some target := by
    simp only [target_dir, Option.bind_some, List.append_assoc, List.cons_append, List.nil_append, parent, target]
    split
    · rfl
    · rw [if_neg (by simp), List.dropLast_concat]; rfl
  refine ⟨fun h => ?_, fun t h h' => ?_, fun t t' h h' h'' => ?_⟩
  · simp [r, main, ht, header_fail h]
  · obtain ⟨a1, -, a3, -⟩ := header_ok (dir := dir) (fs := fs) h
    have hr : r = ((header gen dir .C fs).1, false) := by
      simp [r, main, ht, hd, a1, header_fail h']
    rw [hr]
    exact ⟨rfl, a3⟩
  · obtain ⟨a1, -, a3, -⟩ := header_ok (dir := dir) (fs := fs) h
    obtain ⟨b1, -, b3, -⟩ := header_ok (dir := dir) (fs := (header gen dir .C fs).1) h'
    have hr : r = ((header gen dir .Cpp (header gen dir .C fs).1).1, false) := by
      simp [r, main, ht, hd, a1, b1, header_fail h'']
    rw [hr]
    exact ⟨rfl, fun q h1 h2 => by rw [b3 q h2, a3 q h1]⟩

/-- A header of the form the generator produces. -/
example : rewrite (regex .C) (replacement .C) "typedef double R;\n\ntypedef Complex<R> C;\n\nC f(C z);\n".toList =
    "typedef double R;\n\nstruct Complex {R re; R im;};\n\ntypedef struct Complex C;\n\nC f(C z);\n".toList := by decide

example : rewrite (regex .Cpp) (replacement .Cpp) "using R = double;\nusing C = Complex<R>;\n".toList =
    "using R = double;\nstruct Complex {R re; R im;};\n\nusing C = Complex;\n".toList := by decide

theorem unique_of_check {l : Lang} {t a d b : Text} (h : AliasAt l t a d b)
    (hc : ∀ i < t.length, (strip (regex l) (t.drop i)).isSome → i = a.length) : ∀ a' d' b', AliasAt l t a' d' b' → a' = a := by
  intro a' d' b' ⟨h1, h2⟩
  have hl : a'.length = a.length := by
    refine hc _ ?_ ?_
    · rw [h2]
      have := List.length_pos_iff.2 (alias_ne h1)
      simp only [List.length_append]
      omega
    · rw [h2, List.append_assoc, List.drop_left, strip_alias h1]; rfl
  have e := h.2.symm.trans h2
  rw [List.append_assoc, List.append_assoc] at e
  exact (List.append_inj_left e hl.symm).symm

theorem alias_example : AliasAt .C "typedef double R;\ntypedef  Complex<R> C ;\n".toList "typedef double R;\n".toList "typedef  Complex<R> C ;".toList "\n".toList :=
  ⟨⟨[' ', ' '], [' '], [' '], by simp [Blank]; decide, by simp [Blank]; decide, by simp [Blank]; decide, by simp, by simp, by decide⟩, by decide⟩

/-- One declaration and no other, as in `C110_replaced`. -/
example : ∃ a d b, AliasAt .C "typedef double R;\ntypedef  Complex<R> C ;\n".toList a d b ∧
    ∀ a' d' b', AliasAt .C "typedef double R;\ntypedef  Complex<R> C ;\n".toList a' d' b' → a' = a :=
  ⟨"typedef double R;\n".toList, "typedef  Complex<R> C ;".toList, "\n".toList, alias_example, unique_of_check alias_example (by decide)⟩
/-- A workspace in which the crate has no target directory of its own. -/
example : (main (fun _ => some "typedef Complex<R> C;".toList) true (some ["ws", "qcd-sme"]) ⟨fun _ => none, fun _ => false⟩).1.files
    ["ws", "target", "debug", "include", "qcd_sme.h"] = some "struct Complex {R re; R im;};\n\ntypedef struct Complex C;".toList := by decide

end Qcd.build
