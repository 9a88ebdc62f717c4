import Verif.Model.Scans

/-! # Specification of the scans of `physical_tc`

The quantities printed are `m² Δ(p)` for a propagator renormalised at the scale `renpoint`, where the convention is
`Δ(renpoint) = 1 / renpoint²`; momenta and temperatures are in units of the gluon mass `m`. -/

namespace Qcd.tc.Spec

/-- `m² Δ(p)`, `p` in units of `m`, for the propagator proportional to the real part of `D` that equals `1 / ren²` at `ren`. -/
noncomputable def renormalized (D : ℝ → ℂ) (ren m p : ℝ) : ℝ :=
  (D (p * m)).re * ((1 / ren ^ 2) / (D ren).re) * m ^ 2

/-- The temperature at which the `k`-th entry of a grid of temperatures is computed: the first one stands for zero. -/
noncomputable def temperature (k : ℕ) (t : ℝ) : ℝ := if k = 0 then 0 else t

/-- The propagator as a function of the momentum at chemical potential `mu`, at zero temperature or at `T = t m`. -/
noncomputable def curve (P : Propagators) (c : Config) (mu : ℝ) (k : ℕ) (t f0 : ℝ) (fc : FieldConfig) (p : ℝ) : ℂ :=
  if k = 0 then P.zero c.om p mu f0 fc else P.finite c.om p (1 / (t * c.fieldconfig.gluon)) mu f0 fc

/-- `v` is the renormalised propagator at `p = p_base` for the `k`-th temperature of the grid, computed with the fields and the
constant that belong to the phase of the point. -/
def InfraredValue (P : Propagators) (c : Config) (mu : ℝ) (k : ℕ) (v : ℝ) : Prop :=
  ∃ t fc f0, c.temps[k]? = some t ∧ c.maybe_corrected_data mu (temperature k t) = .ok fc f0 ∧
    v = renormalized (curve P c mu k t f0 fc) c.renpoint c.fieldconfig.gluon c.pbase

/-- The fields and the constant are defined at every point of the grid. -/
def Defined (c : Config) (mu : ℝ) : Prop :=
  ∀ k t, c.temps[k]? = some t → ∃ fc f0, c.maybe_corrected_data mu (temperature k t) = .ok fc f0

/-- `tc` is the first temperature of the grid at which the renormalised propagator at `p = p_base` is largest. -/
def Critical (P : Propagators) (c : Config) (mu tc : ℝ) : Prop :=
  ∃ (k : ℕ) (v : ℝ), c.temps[k]? = some tc ∧ InfraredValue P c mu k v ∧
    ∀ j, j < c.temps.length → ∃ w, InfraredValue P c mu j w ∧ w ≤ v ∧ (j < k → w < v)

/-- The points at chemical potential `mu` have a phase: no correction is asked for, or both the corrected fields and a boundary that
begins at or below `mu` have been set. -/
def Runs (c : Config) (mu : ℝ) : Prop :=
  (c.correctedfieldconfig = none ∧ c.phase_boundary = none) ∨
  (c.correctedfieldconfig ≠ none ∧ ∃ pb p, c.phase_boundary = some pb ∧ pb.head? = some p ∧ p.1 ≤ mu)

/-- What is assumed of the format `{:.4}`: read back as a number the text is the argument rounded to four decimals, it has no
underscore, and `0.0000` is zero. -/
structure FourDecimals (fmt : ℝ → String) (parse : String → ℝ) : Prop where
  accurate : ∀ x, |parse (fmt x) - x| ≤ 1 / 20000
  zero : parse "0.0000" = 0
  plain : ∀ x, '_' ∉ (fmt x).toList

/-- The table of a propagator file: for each momentum (in units of the gluon mass) the renormalised propagator. -/
noncomputable def propagatorTable (P : Propagators) (c : Config) (mu : ℝ) (k : ℕ) (t f0 : ℝ) (fc : FieldConfig) : Content :=
  .table (c.momenta.map (fun p => (p, renormalized (curve P c mu k t f0 fc) c.renpoint c.fieldconfig.gluon p)))

/-- The symmetric second difference of `f` with step `h`. -/
noncomputable def secondDifference (f : ℝ → ℝ) (x h : ℝ) : ℝ := (f (x + h) + f (x - h) - 2 * f x) / h ^ 2

end Qcd.tc.Spec
