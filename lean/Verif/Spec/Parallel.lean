import Verif.Model.Parallel

/-! # Specification: parallel scans -/

namespace Qcd.Spec
open consts (Consts Integral)

/-- The table a loop on one thread gives: `xs.iter().map(g).collect()`, where `none` is a panic. The loop
panics as soon as one item does. -/
def tableOf {X A : Type} (g : X → Option A) : List X → Option (List A)
  | [] => some []
  | x :: xs => match g x with
    | none => none
    | some y => match tableOf g xs with
      | none => none
      | some ys => some (y :: ys)

/-- The integrator `ig` carries out the quadrature algorithm `alg`. -/
def CarriesOut (ig : Integrator) (alg : ℝ × ℝ → Integral ℝ → parallel.Quadrature) : Prop :=
  ∀ f r i, ig.real f r i = (alg r i).answer f

/-- `k` with another number of colours. -/
noncomputable def withColors (k : Consts ℝ) (n : ℕ) : Consts ℝ := (consts.set_number_of_colors n k).state

end Qcd.Spec
