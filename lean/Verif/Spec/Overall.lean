import Verif.Spec.Scans
import Verif.Model.Overall

/-! # Specification of `one_mass_overall` and `two_masses_overall`

Temperatures and momenta are in units of the gluon mass `m`. `renormalized` is in Spec/Scans.lean. -/

namespace Qcd.tc.Spec
variable {Q : Type}

/-- The longitudinal propagator of the theory with fields `fc` at temperature `t` (zero or not) and chemical potential `mu`, as a
function of the momentum. -/
noncomputable def propagatorAt (P : Propagators) (s : Settings Q) (fc : FieldConfig) (mu t p : ℝ) : ℂ :=
  if t = 0 then P.zero s.om p mu s.f0 fc else P.finite s.om p (1 / (t * s.m)) mu s.f0 fc

/-- `m² Δ(p)`, renormalised. -/
noncomputable def propagatorValue (P : Propagators) (s : Settings Q) (fc : FieldConfig) (mu t p : ℝ) : ℝ :=
  renormalized (propagatorAt P s fc mu t) s.renpoint s.m p

/-- The same at the smallest momentum. -/
noncomputable def infraredValue (P : Propagators) (s : Settings Q) (fc : FieldConfig) (mu t : ℝ) : ℝ := propagatorValue P s fc mu t s.pmin

/-- The lowest of the temperatures `ts` at which `v` is largest. -/
def LowestMaximum (ts : List ℝ) (v : ℝ → ℝ) (tc : ℝ) : Prop := tc ∈ ts ∧ ∀ t ∈ ts, v t ≤ v tc ∧ (t < tc → v t < v tc)

/-- `nf` quarks of mass `mq` and gluons of mass `s.m`. -/
noncomputable def degenerate (nc : ℕ) (s : Settings Q) (nf : ℕ) (mq : ℝ) : FieldConfig := FieldConfig.new nc s.m [(nf, mq)]

/-- `nf` quarks of each of two masses. -/
noncomputable def twoMasses (nc : ℕ) (s : Settings Q) (nf : ℕ) (mq : ℝ × ℝ) : FieldConfig := FieldConfig.new nc s.m [(nf, mq.1), (nf, mq.2)]

/-- The curves of a plot of propagators: zero temperature first, then the temperatures of the settings. -/
noncomputable def curves (P : Propagators) (s : Settings Q) (fc : FieldConfig) (mu : ℝ) : List (List ℝ) :=
  (0 :: s.temperatures).map fun t => s.momenta.map fun p => propagatorValue P s fc mu t p

/-- The curve of a plot of infrared limits. -/
noncomputable def infraredCurve (P : Propagators) (s : Settings Q) (fc : FieldConfig) (mu : ℝ) : List ℝ := s.domain.map (infraredValue P s fc mu)

/-- The order of the lines of `tc.out`. -/
def keys (s : Settings Q) (q0 : Q) : List (ℕ × Q × ℝ) :=
  (0, q0, 0) :: s.nfs.flatMap fun nf => s.quark_masses.flatMap fun mq => s.chemical_potentials.map fun mu => (nf, mq, mu)

/-- Settings that make sense: masses, frequency and temperatures are not zero, temperatures increase from the first. -/
structure Sensible (s : Settings Q) : Prop where
  m : s.m ≠ 0
  om : s.om ≠ 0
  temperatures : ∀ t ∈ s.temperatures, t ≠ 0
  tmin : 0 < s.tmin
  dt : 0 < s.dt

/-- A plot that can be drawn: every curve has a value at each point of the domain, and there is a label for each curve if there are any. -/
def Plot.WellFormed (pl : Plot) : Prop :=
  (∀ im ∈ pl.images, im.length = pl.domain.length) ∧ (pl.legend = [] ∨ pl.legend.length = pl.images.length)

end Qcd.tc.Spec
