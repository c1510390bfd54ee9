import Verif.Cases.Advance
import Verif.Cases.Compare
import Verif.Cases.Deformed
import Verif.Cases.Drift
import Verif.Cases.Output
import Verif.Cases.RoundingFields
import Verif.Cases.RoundingResults
import Verif.Cases.RoundingSaw
import Verif.Cases.RoundingSystem
import Verif.Cases.Site
import Verif.Cases.Slab
import Verif.Cases.Solve
import Verif.Cases.Touchdown
import Verif.Lemmas.Alike
import Verif.Lemmas.Assembly
import Verif.Lemmas.ChainBound
import Verif.Lemmas.Column
import Verif.Lemmas.ColumnCongr
import Verif.Lemmas.Compliance
import Verif.Lemmas.Congruence
import Verif.Lemmas.Decay
import Verif.Lemmas.Drift
import Verif.Lemmas.Energy
import Verif.Lemmas.Laminate
import Verif.Lemmas.Layering
import Verif.Lemmas.Lengthen
import Verif.Lemmas.LinearSystem
import Verif.Lemmas.LocalBound
import Verif.Lemmas.Mesh
import Verif.Lemmas.Modes
import Verif.Lemmas.Ode
import Verif.Lemmas.Quadrature
import Verif.Lemmas.Reciprocity
import Verif.Lemmas.Rounding
import Verif.Lemmas.Scale
import Verif.Lemmas.Snow
import Verif.Lemmas.Stability
import Verif.Lemmas.Stage
import Verif.Lemmas.Swap
import Verif.Lemmas.SwapTouch
import Verif.Lemmas.TipContinuous
import Verif.Lemmas.TipLength
import Verif.Lemmas.Tools
import Verif.Lemmas.Weights
import Verif.Lemmas.Work
import Verif.Model.Analysis
import Verif.Model.Criterion
import Verif.Model.Distance
import Verif.Model.Eigensystem
import Verif.Model.Envelope
import Verif.Model.Fields
import Verif.Model.Output
import Verif.Model.Plot
import Verif.Model.Potential
import Verif.Model.Raster
import Verif.Model.Rounded
import Verif.Model.RoundedFace
import Verif.Model.RoundedFields
import Verif.Model.RoundedSystem
import Verif.Model.Solution
import Verif.Model.Tools
import Verif.Props.AdvanceWorkflow
import Verif.Props.Anticrack
import Verif.Props.AnticrackEnds
import Verif.Props.AnticrackLevel
import Verif.Props.Assemble
import Verif.Props.Backward
import Verif.Props.Bedded
import Verif.Props.Cases
import Verif.Props.Column
import Verif.Props.ColumnLimits
import Verif.Props.ColumnMirror
import Verif.Props.Conditioning
import Verif.Props.Continuity
import Verif.Props.Coupled
import Verif.Props.DampenedAlone
import Verif.Props.Decay
import Verif.Props.Demo
import Verif.Props.Distance
import Verif.Props.Doubling
import Verif.Props.EitherSide
import Verif.Props.EnergyBalance
import Verif.Props.EnergyRelease
import Verif.Props.Envelope
import Verif.Props.Equilibrium
import Verif.Props.FirmSlab
import Verif.Props.FirstContact
import Verif.Props.ForceBalance
import Verif.Props.FullContact
import Verif.Props.Incremental
import Verif.Props.Laminate
import Verif.Props.LeastWeight
import Verif.Props.Lengthen
import Verif.Props.LevelWeight
import Verif.Props.Lifecycle
import Verif.Props.Loads
import Verif.Props.Materials
import Verif.Props.MaterialsLayered
import Verif.Props.Mesh
import Verif.Props.Mirror
import Verif.Props.MirrorOutput
import Verif.Props.Nucleation
import Verif.Props.OtherEigenvectors
import Verif.Props.OtherSolution
import Verif.Props.OtherVerdict
import Verif.Props.Output
import Verif.Props.PlotColours
import Verif.Props.PlotDeformed
import Verif.Props.PlotFields
import Verif.Props.PlotHelpers
import Verif.Props.PlotLines
import Verif.Props.Potential
import Verif.Props.Principal
import Verif.Props.Profiles
import Verif.Props.Propagation
import Verif.Props.PropagationDemo
import Verif.Props.Raster
import Verif.Props.Reciprocity
import Verif.Props.Release
import Verif.Props.Residual
import Verif.Props.Rounding
import Verif.Props.RoundingFace
import Verif.Props.RoundingFields
import Verif.Props.RoundingResults
import Verif.Props.RoundingSaw
import Verif.Props.RoundingSystem
import Verif.Props.Sag
import Verif.Props.SameSnow
import Verif.Props.Sampling
import Verif.Props.Scale
import Verif.Props.SearchSteps
import Verif.Props.Segments
import Verif.Props.Skier
import Verif.Props.SlabStress
import Verif.Props.SmallAdvance
import Verif.Props.SolveDemo
import Verif.Props.Spectrum
import Verif.Props.Springs
import Verif.Props.Standing
import Verif.Props.StressBound
import Verif.Props.Superposition
import Verif.Props.Symmetry
import Verif.Props.Tolerance
import Verif.Props.Tools
import Verif.Props.Touchdown
import Verif.Props.TouchdownEq
import Verif.Props.TouchdownRuns
import Verif.Props.Unique
import Verif.Props.VerticalFace
import Verif.Props.WeightFound
import Verif.Props.WeightLost
import Verif.Props.Weights
import Verif.Props.Workflow
import Verif.Py
import Verif.Spec.Bvp
import Verif.Spec.Eig
import Verif.Spec.Ends
import Verif.Spec.Layering
import Verif.Spec.Mechanics
import Verif.Spec.Nearly
import Verif.Spec.Overhang
import Verif.Spec.Response
import Verif.Spec.Rounding
import Verif.Spec.Scale
import Verif.Spec.State
