import Verif.Model.TcLongProp
import Mathlib.Data.EReal.Basic

/-! Specifications for `tc_long_prop`. -/

namespace Qcd.tc

/-- The facts about the float test `a > b` that the specification of the maximum search uses: it is
irreflexive and transitive, false as soon as one side is NaN, and total on the numbers that
are not NaN in the sense that `a > c` implies `a > b` or `b > c`. -/
class FloatOrder (F : Type) where
  gt : F → F → Bool
  isNaN : F → Prop
  irrefl : ∀ a, gt a a = false
  trans : ∀ a b c, gt a b = true → gt b c = true → gt a c = true
  not_nan : ∀ a b, gt a b = true → ¬ isNaN a ∧ ¬ isNaN b
  cotrans : ∀ a b c, gt a c = true → ¬ isNaN b → gt a b = true ∨ gt b c = true

/-- Extended reals with a NaN: the values an IEEE double can take, without rounding. -/
noncomputable instance : FloatOrder (Option EReal) where
  gt a b := match a, b with
    | some x, some y => open Classical in decide (y < x)
    | _, _ => false
  isNaN a := a = none
  irrefl a := by cases a <;> simp
  trans a b c := by
    cases a <;> cases b <;> cases c <;> simp
    intro h1 h2; exact h2.trans h1
  not_nan a b := by cases a <;> cases b <;> simp
  cotrans a b c := by
    cases a <;> cases b <;> cases c <;> simp
    intro h
    rename_i x y z
    rcases lt_or_ge y x with h1 | h1
    · exact Or.inl h1
    · exact Or.inr (lt_of_lt_of_le h h1)

/-- Piecewise-linear interpolation of a boundary given by its points, in order: `none` beyond the
last point. -/
noncomputable def interpolate : List (ℝ × ℝ) → ℝ → Option ℝ
  | [], _ => none
  | [(a, ta)], mu => open Classical in if mu ≤ a then some ta else none
  | (a, ta) :: (b, tb) :: rest, mu =>
    open Classical in
    if mu ≤ b then some (ta * ((b - mu) / (b - a)) + tb * ((mu - a) / (b - a)))
    else interpolate ((b, tb) :: rest) mu

/-- A boundary of the expected shape: chemical potentials strictly increasing, temperatures strictly
decreasing and positive. -/
structure WellShaped (pb : List (ℝ × ℝ)) : Prop where
  shape : pb.Pairwise (fun p q => p.1 < q.1 ∧ q.2 < p.2)
  pos : ∀ p ∈ pb, 0 < p.2

/-- Setter calls on a `Config`. -/
inductive ConfigOp where
  | temperatures (v : ℝ × ℝ × ℝ)
  | chemicalpotentials (v : ℝ × ℝ × ℝ)
  | correctedfieldconfig (v : Option FieldConfig)
  | phase_boundary (v : Option (List (ℝ × ℝ)))

/-- Perform a call: new state and whether it panicked. -/
noncomputable def ConfigOp.call : ConfigOp → Config → Config × Bool
  | .temperatures v, c => (c.set_temperatures v, false)
  | .chemicalpotentials v, c => (c.set_chemicalpotentials v, false)
  | .correctedfieldconfig v, c => c.set_correctedfieldconfig v
  | .phase_boundary v, c => (c.set_phase_boundary v, false)

/-- Run a history; `none` as soon as a call panics. -/
noncomputable def ConfigOp.runAll (h : List ConfigOp) (c : Config) : Option Config :=
  h.foldlM (fun c op => let r := op.call c; if r.2 then none else some r.1) c

end Qcd.tc
