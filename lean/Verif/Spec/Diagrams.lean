import Mathlib.LinearAlgebra.Matrix.Trace
import Mathlib.Data.Matrix.Mul
import Verif.Spec.ThermalLoop
import Verif.Spec.MassDerivative

/-! # Specification: the one-loop diagrams of the massive expansion, from the Feynman rules

Landau gauge, Euclidean momenta, four dimensions; the common factor `N g²` of colour and coupling is left out. The gluon
propagator is transverse with mass `m`, `t(Q)/(Q² + m²)`; the ghost propagator is massless. The expansion also has a two-gluon
vertex `m² t(Q)`; one insertion of it on the internal gluon lines of a diagram is the operation `-m² ∂/∂m²`, two insertions on
one line are `(m⁴/2) ∂²/∂(m²)²`.

Nothing here mentions a function of the model: vertices and propagators are written as they stand in the Feynman rules, with
their Lorentz indices, and the thermal part is taken by putting every internal line on shell in turn. -/

namespace Qcd.Spec
open Filter Topology Matrix

/-- Euclidean four-vectors: energy first; energies on shell are complex. -/
abbrev Vec := Fin 4 → ℂ

/-- `Q²`. -/
def msq (Q : Vec) : ℂ := Q ⬝ᵥ Q

/-- Transverse projector `t_{jk}(Q) = δ_{jk} - Q_j Q_k / Q²`. -/
noncomputable def projector (Q : Vec) : Matrix (Fin 4) (Fin 4) ℂ := 1 - (msq Q)⁻¹ • vecMulVec Q Q

/-- Kronecker delta. -/
def delta (i j : Fin 4) : ℂ := if i = j then 1 else 0

/-- Three-gluon vertex, momenta `P + Q + K = 0`:
`δ_{ij} (P - Q)_k + δ_{jk} (Q - K)_i + δ_{ki} (K - P)_j`. -/
def threeGluon (P Q K : Vec) (i j k : Fin 4) : ℂ :=
  delta i j * (P k - Q k) + delta j k * (Q i - K i) + delta k i * (K j - P j)

/-- The same contracted with the polarisation `e` of the external gluon. -/
def threeGluonAt (e P Q K : Vec) : Matrix (Fin 4) (Fin 4) ℂ := .of fun j k => ∑ i, e i * threeGluon P Q K i j k

/-- Gluon loop: two three-gluon vertices joined by two massive propagators, symmetry factor `1/2`. `M` is the mass squared. -/
noncomputable def gluonLoop (e P : Vec) (M : ℂ) (Q : Vec) : ℂ :=
  1 / 2 * trace ((threeGluonAt e P Q (-(P + Q)))ᵀ * projector Q * threeGluonAt e P Q (-(P + Q)) * projector (P + Q))
    / ((msq Q + M) * (msq (P + Q) + M))

/-- Ghost loop; the sign is the one of a closed loop of anticommuting fields. -/
noncomputable def ghostLoop (e P Q : Vec) : ℂ := -((e ⬝ᵥ Q) * (e ⬝ᵥ (P + Q))) / (msq Q * msq (P + Q))

/-- Tadpole: the four-gluon vertex, after the sum over colours `δ_{ij} δ_{kl} - (δ_{il} δ_{jk} + δ_{ik} δ_{jl})/2`, closed with a
propagator. -/
noncomputable def gluonTadpole (e : Vec) (M : ℂ) (Q : Vec) : ℂ :=
  -(∑ i, ∑ j, ∑ k, ∑ l, e i * e j * (delta i j * delta k l - (delta i l * delta j k + delta i k * delta j l) / 2) * projector Q k l)
    / (msq Q + M)

/-- Ghost self-energy: the ghost of momentum `P + Q` and a gluon of momentum `Q`; each vertex carries the momentum of the
outgoing ghost. -/
noncomputable def ghostSelfEnergy (P : Vec) (M : ℂ) (Q : Vec) : ℂ :=
  -(P ⬝ᵥ (projector Q *ᵥ (P + Q))) / ((msq Q + M) * msq (P + Q))

/-! ### Kinematics -/

/-- External momentum: energy `ω`, spatial momentum `p` along the first axis. -/
def external (om p : ℂ) : Vec := ![om, p, 0, 0]

/-- Loop momentum: energy `q₀`, spatial momentum of length `q` at an angle of cosine `z` with the external one. -/
noncomputable def loopMomentum (q0 : ℂ) (q z : ℝ) : Vec := ![q0, q * z, q * Real.sqrt (1 - z ^ 2), 0]

/-- Polarisations of the external gluon: the longitudinal one, in the plane of `P` and of the thermal bath. -/
noncomputable def polL (om p : ℂ) : List Vec := [((om ^ 2 + p ^ 2) ^ ((1 : ℂ) / 2))⁻¹ • ![p, -om, 0, 0]]

/-- The two transverse ones, orthogonal to `P` and to the thermal bath. -/
def polT : List Vec := [![0, 0, 1, 0], ![0, 0, 0, 1]]

/-- Average over a list of polarisations. -/
noncomputable def average (l : List Vec) (F : Vec → ℂ) : ℂ := (l.map F).sum / l.length

/-! ### Thermal part -/

/-- The value at `q₀ = w` of a function with a simple pole at `q₀² + E² = 0`, the pole taken off. -/
noncomputable def atPole (F : ℂ → ℂ) (E w : ℂ) : ℂ := limUnder (𝓝[≠] w) fun q0 => (q0 ^ 2 + E ^ 2) * F q0

/-- The line of momentum `Q` on shell with mass `m`: weight `n(E)/(2E)`, both signs of the energy, integral over the angle with
its measure. -/
noncomputable def line (F : Vec → ℂ) (q : ℝ) (m : ℂ) (beta : ℝ) : ℂ :=
  (q : ℂ) ^ 2 / (4 * (Real.pi : ℂ) ^ 2) * (bose beta (en q m) / (2 * en q m)) *
    ∫ z in (-1 : ℝ)..1,
      (atPole (fun q0 => F (loopMomentum q0 q z)) (en q m) (Complex.I * en q m)
        + atPole (fun q0 => F (loopMomentum q0 q z)) (en q m) (-(Complex.I * en q m)))

/-- Thermal part of `T ∑ₙ ∫ d³q/(2π)³ F(Q)`, before the integration over `q`: the poles in `Q²` sit at the masses `ms`; those in
`(P+Q)²` at the masses `ks`, and are brought to `Q²` with the change of variable `Q → -(P+Q)`. -/
noncomputable def thermalPart (F : Vec → ℂ) (P : Vec) (ms ks : List ℂ) (q : ℝ) (beta : ℝ) : ℂ :=
  (ms.map fun m => line F q m beta).sum + (ks.map fun m => line (fun Q => F (-(P + Q))) q m beta).sum

/-- Gluon loop: transverse massive propagators have poles at the mass `m` and, from the projector, at zero mass. -/
noncomputable def gluonLoopThermal (pol : List Vec) (om p : ℂ) (beta : ℝ) (q M : ℝ) : ℂ :=
  thermalPart (fun Q => average pol fun e => gluonLoop e (external om p) M Q) (external om p)
    [(Real.sqrt M : ℂ), 0] [(Real.sqrt M : ℂ), 0] q beta

noncomputable def ghostLoopThermal (pol : List Vec) (om p : ℂ) (beta : ℝ) (q : ℝ) : ℂ :=
  thermalPart (fun Q => average pol fun e => ghostLoop e (external om p) Q) (external om p) [0] [0] q beta

noncomputable def gluonTadpoleThermal (pol : List Vec) (om p : ℂ) (beta : ℝ) (q M : ℝ) : ℂ :=
  thermalPart (fun Q => average pol fun e => gluonTadpole e M Q) (external om p) [(Real.sqrt M : ℂ), 0] [] q beta

noncomputable def ghostSelfEnergyThermal (om p : ℂ) (beta : ℝ) (q M : ℝ) : ℂ :=
  thermalPart (ghostSelfEnergy (external om p) M) (external om p) [(Real.sqrt M : ℂ), 0] [0] q beta

/-! ### Insertions of the two-gluon vertex -/

/-- `v` is an integrand for `(1 - M ∂/∂M) ∫₀^∞ f(q, M) dq`. -/
def WithOneInsertion (f : ℝ → ℝ → ℂ) (M : ℝ) (v : ℝ → ℂ) : Prop :=
  ∃ d : ℝ → ℂ, IsMassDerivative f d M ∧ ∀ q, 0 < q → v q = f q M - M * d q

/-- `v` is an integrand for `(1 - M ∂/∂M + (M²/2) ∂²/∂M²) ∫₀^∞ f(q, M) dq`. -/
def WithTwoInsertions (f : ℝ → ℝ → ℂ) (M : ℝ) (v : ℝ → ℂ) : Prop :=
  ∃ (d : ℝ → ℝ → ℂ) (d2 : ℝ → ℂ), (∀ M', 0 < M' → IsMassDerivative f (fun q => d q M') M') ∧ IsMassDerivative d d2 M ∧
    ∀ q, 0 < q → v q = f q M - M * d q M + M ^ 2 / 2 * d2 q

end Qcd.Spec
