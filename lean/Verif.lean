import Verif.Lemmas.Accuracy
import Verif.Lemmas.Analytic
import Verif.Lemmas.Angular
import Verif.Lemmas.Asymptotics
import Verif.Lemmas.Binary64
import Verif.Lemmas.Branch
import Verif.Lemmas.Build
import Verif.Lemmas.ChargeDensity
import Verif.Lemmas.Compactify
import Verif.Lemmas.ComplexAccuracy
import Verif.Lemmas.ComplexMirror
import Verif.Lemmas.ComplexPlane
import Verif.Lemmas.ComplexVacuumAccuracy
import Verif.Lemmas.CovariantAngle
import Verif.Lemmas.CovariantRadial
import Verif.Lemmas.CovariantTrace
import Verif.Lemmas.DensitySearch
import Verif.Lemmas.DiagramAssembly
import Verif.Lemmas.DiagramLines
import Verif.Lemmas.Diagrams
import Verif.Lemmas.DiracTrace
import Verif.Lemmas.Domination
import Verif.Lemmas.DominationFull
import Verif.Lemmas.DominationParts
import Verif.Lemmas.DressingDefined
import Verif.Lemmas.Euclidean
import Verif.Lemmas.FermionDiagram
import Verif.Lemmas.FermionSum
import Verif.Lemmas.FinitePart
import Verif.Lemmas.FloatDensity
import Verif.Lemmas.FloatResidue
import Verif.Lemmas.FloatRoot
import Verif.Lemmas.FloatTc
import Verif.Lemmas.FloatThermalDensity
import Verif.Lemmas.Floats
import Verif.Lemmas.GluonFinite
import Verif.Lemmas.GluonMatch
import Verif.Lemmas.GluonRadial
import Verif.Lemmas.HardDense
import Verif.Lemmas.Holomorphic
import Verif.Lemmas.HolomorphicFull
import Verif.Lemmas.HolomorphicParts
import Verif.Lemmas.Htl
import Verif.Lemmas.HtlBose
import Verif.Lemmas.HtlGlue
import Verif.Lemmas.HtlIntegrals
import Verif.Lemmas.HtlLeg
import Verif.Lemmas.HtlParts
import Verif.Lemmas.HtlTadpole
import Verif.Lemmas.Hyperspherical
import Verif.Lemmas.MassDerivative
import Verif.Lemmas.MassLipschitz
import Verif.Lemmas.Matsubara
import Verif.Lemmas.MatsubaraDiagram
import Verif.Lemmas.MatsubaraLoops
import Verif.Lemmas.MatsubaraPoles
import Verif.Lemmas.Numerics
import Verif.Lemmas.NumericsVacuum
import Verif.Lemmas.Parallel
import Verif.Lemmas.PartialNum
import Verif.Lemmas.QuarkAccuracy
import Verif.Lemmas.QuarkDensity
import Verif.Lemmas.QuarkRadial
import Verif.Lemmas.Residues
import Verif.Lemmas.RunningError
import Verif.Lemmas.SecantFailure
import Verif.Lemmas.SmallMomenta
import Verif.Lemmas.SmallMomentaExact
import Verif.Lemmas.Spherical
import Verif.Lemmas.StaticLimit
import Verif.Lemmas.StaticOccupation
import Verif.Lemmas.StaticSum
import Verif.Lemmas.ThermalBranch
import Verif.Lemmas.ThermalDefined
import Verif.Lemmas.ThermalLog
import Verif.Lemmas.ThermalParity
import Verif.Lemmas.ThermalScale
import Verif.Lemmas.ThermalToC
import Verif.Lemmas.ThermalUnits
import Verif.Lemmas.VacuumAccuracy
import Verif.Lemmas.VacuumAngle
import Verif.Lemmas.VacuumBall
import Verif.Lemmas.VacuumGhost
import Verif.Lemmas.VacuumGluon
import Verif.Lemmas.VacuumPartial
import Verif.Lemmas.VacuumPolarised
import Verif.Lemmas.VacuumQuark
import Verif.Lemmas.ZeroMatsubara
import Verif.Lemmas.ZeroMomentum
import Verif.Model.Binary64
import Verif.Model.Build
import Verif.Model.ChargeDensity
import Verif.Model.Common
import Verif.Model.ComplexFloats
import Verif.Model.ComplexQcd
import Verif.Model.ComplexVacuum
import Verif.Model.Consts
import Verif.Model.DressingPartial
import Verif.Model.ExampleAsymptotics
import Verif.Model.ExampleHtl
import Verif.Model.ExamplePlots
import Verif.Model.ExamplePoles
import Verif.Model.ExamplePropagator
import Verif.Model.Ffi
import Verif.Model.FloatConfig
import Verif.Model.FloatDensity
import Verif.Model.FloatRoot
import Verif.Model.FloatTadpoles
import Verif.Model.FloatTc
import Verif.Model.FloatThermalDensity
import Verif.Model.Floats
import Verif.Model.Integrator
import Verif.Model.Num
import Verif.Model.Numerics
import Verif.Model.Overall
import Verif.Model.Parallel
import Verif.Model.Partial
import Verif.Model.PartialIntegrator
import Verif.Model.PartialNum
import Verif.Model.Qcd
import Verif.Model.Scans
import Verif.Model.Scripts
import Verif.Model.TcLongProp
import Verif.Model.Thermal
import Verif.Model.ThermalDressing
import Verif.Model.ThermalIntegrals
import Verif.Model.ThermalPartial
import Verif.Model.ThermalParts
import Verif.Model.Utils
import Verif.Model.Vacuum
import Verif.Props.Accuracy
import Verif.Props.Build
import Verif.Props.Cases
import Verif.Props.CasesMore
import Verif.Props.ChargeDensity
import Verif.Props.ComplexAccuracy
import Verif.Props.ComplexPlane
import Verif.Props.ComplexPropagators
import Verif.Props.ComplexQcd
import Verif.Props.ComplexQcdAccuracy
import Verif.Props.Consts
import Verif.Props.Covariant
import Verif.Props.DenseGluon
import Verif.Props.DensitySearch
import Verif.Props.Diagrams
import Verif.Props.Distributions
import Verif.Props.DressingDefined
import Verif.Props.Euclidean
import Verif.Props.EuclideanQuarks
import Verif.Props.ExampleAsymptotics
import Verif.Props.ExampleCompare
import Verif.Props.ExampleDensity
import Verif.Props.ExampleGluon
import Verif.Props.ExampleHtl
import Verif.Props.ExamplePoles
import Verif.Props.ExamplePropagator
import Verif.Props.Ffi
import Verif.Props.FloatDensity
import Verif.Props.FloatResidue
import Verif.Props.FloatRoot
import Verif.Props.FloatTadpoles
import Verif.Props.FloatTadpolesAccuracy
import Verif.Props.FloatTadpolesExact
import Verif.Props.FloatTadpolesSign
import Verif.Props.FloatTc
import Verif.Props.FloatThermalDensity
import Verif.Props.FloatThermalDensityAccuracy
import Verif.Props.FloatZeroMass
import Verif.Props.Floats
import Verif.Props.HighTemperature
import Verif.Props.HotGluon
import Verif.Props.IntegratedDiagrams
import Verif.Props.IntegratedDiagramsZero
import Verif.Props.LowTemperature
import Verif.Props.LowTemperaturePositive
import Verif.Props.MassDerivative
import Verif.Props.MassDerivativeSpecial
import Verif.Props.MassDerivativeTotal
import Verif.Props.MassIntegral
import Verif.Props.MassIntegralZero
import Verif.Props.Matsubara
import Verif.Props.Numerics
import Verif.Props.NumericsExpansion
import Verif.Props.NumericsParts
import Verif.Props.NumericsVacuum
import Verif.Props.Overall
import Verif.Props.Parallel
import Verif.Props.QcdDiagrams
import Verif.Props.QcdVacuum
import Verif.Props.QuarkAccuracy
import Verif.Props.QuarkDensity
import Verif.Props.QuarkLoop
import Verif.Props.QuarkMatsubara
import Verif.Props.Residues
import Verif.Props.Scans
import Verif.Props.ScansFiles
import Verif.Props.ScansMain
import Verif.Props.ScansRun
import Verif.Props.Scripts
import Verif.Props.SmallMomenta
import Verif.Props.StaticQuark
import Verif.Props.TcLongProp
import Verif.Props.ThermalAlgebra
import Verif.Props.ThermalComplex
import Verif.Props.ThermalDefined
import Verif.Props.ThermalDressing
import Verif.Props.ThermalGlobals
import Verif.Props.ThermalIntegrals
import Verif.Props.ThermalLoop
import Verif.Props.ThermalLoopMatsubara
import Verif.Props.ThermalLoopQuark
import Verif.Props.ThermalLoopSpecial
import Verif.Props.ThermalParity
import Verif.Props.ThermalQuarkLists
import Verif.Props.ThermalReal
import Verif.Props.ThermalRealComplex
import Verif.Props.ThermalReduction
import Verif.Props.ThermalUnits
import Verif.Props.ThermalZeroTemp
import Verif.Props.Utils
import Verif.Props.VacuumAccuracy
import Verif.Props.VacuumAlgebra
import Verif.Props.VacuumComplex
import Verif.Props.VacuumDefined
import Verif.Props.VacuumGhost
import Verif.Props.VacuumGluon
import Verif.Props.VacuumLimits
import Verif.Props.VacuumQuark
import Verif.Props.ZeroMatsubaraLimit
import Verif.Props.ZeroMatsubaraLimitParts
import Verif.Props.ZeroMatsubaraPoles
import Verif.Props.ZeroMomentumDiagrams
import Verif.Props.ZeroMomentumLimit
import Verif.Props.ZeroMomentumLimitParts
import Verif.Props.ZeroMomentumLimitSpecial
import Verif.Spec.Analytic
import Verif.Spec.Build
import Verif.Spec.ComplexAccuracy
import Verif.Spec.ComplexPlane
import Verif.Spec.ComplexQcd
import Verif.Spec.Consts
import Verif.Spec.Covariant
import Verif.Spec.Diagrams
import Verif.Spec.ExamplePlots
import Verif.Spec.Ffi
import Verif.Spec.FinitePart
import Verif.Spec.FloatDensity
import Verif.Spec.FloatResidue
import Verif.Spec.FloatRoot
import Verif.Spec.FloatTadpoles
import Verif.Spec.FloatTc
import Verif.Spec.FloatThermalDensity
import Verif.Spec.Floats
import Verif.Spec.GluonSum
import Verif.Spec.HardThermalLoop
import Verif.Spec.Insertions
import Verif.Spec.MassDerivative
import Verif.Spec.Matsubara
import Verif.Spec.Overall
import Verif.Spec.Parallel
import Verif.Spec.Poles
import Verif.Spec.Positive
import Verif.Spec.Qcd
import Verif.Spec.QuarkDiagram
import Verif.Spec.Scans
import Verif.Spec.Scripts
import Verif.Spec.SmallMomenta
import Verif.Spec.TcLongProp
import Verif.Spec.Thermal
import Verif.Spec.ThermalDressing
import Verif.Spec.ThermalLoop
import Verif.Spec.Utils
import Verif.Spec.Vacuum
import Verif.Spec.VacuumAccuracy
import Verif.Spec.VacuumQuark
import Verif.Spec.YmPropagators
import Verif.Spec.ZeroMatsubara
import Verif.Spec.ZeroMomentum
