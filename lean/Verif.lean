import Verif.Model.Optics
import Verif.Lemmas.Vec
import Verif.Spec.Euclid
import Verif.Model.XR
import Verif.Lemmas.Rotation
import Verif.Sanity
import Verif.Props.Vectors
import Verif.Props.Rotations
import Verif.Lemmas.Shapes
import Verif.Props.Bundles
import Verif.Props.FlatShapes
import Verif.Props.Spheres
import Verif.Lemmas.Cylinder
import Verif.Props.Cylinders
import Verif.Lemmas.Lift
import Verif.Props.CylinderParallel
import Verif.Lemmas.Motion
import Verif.Props.Motions
import Verif.Props.Trees
import Verif.Props.Printing
import Verif.Lemmas.CsgRay
import Verif.Props.CsgRays
import Verif.Props.CsgCases
import Verif.Props.TreeErrors
import Verif.Props.Index
import Verif.Props.RayOptics
import Verif.Props.IdealLenses
import Verif.Props.Gratings
import Verif.Props.RunLoop
import Verif.Props.Termination
import Verif.Props.Nearest
import Verif.Lemmas.SceneRun
import Verif.Props.Soundness
import Verif.Props.SoundnessCases
import Verif.Props.Equivariance
import Verif.Lemmas.MoveX
import Verif.Lemmas.NanRun
import Verif.Lemmas.MoveRun
import Verif.Spec.Equivariance
import Verif.Props.FaerieFire
import Verif.Props.Mirrors
import Verif.Props.GlassBall
import Verif.Props.Order
import Verif.Props.CompoundGlass
import Verif.Props.Colours
import Verif.Props.Units
import Verif.Props.Files
import Verif.Props.TextArray
import Verif.Props.MovingAverage
import Verif.Props.SavitzkyGolay
import Verif.Props.Precision
import Verif.Props.FermiDirac
import Verif.Props.FermiDiracIntegral
import Verif.Props.Entropy
import Verif.Model.Draw
import Verif.Spec.Drawing
import Verif.Lemmas.Drawing
import Verif.Props.Drawing
import Verif.Spec.PlaneMirrors
import Verif.Spec.LightPaths
import Verif.Lemmas.NearestX
import Verif.Lemmas.PlaneMirrors
import Verif.Lemmas.LightPaths
import Verif.Props.NearestX
import Verif.Props.RoundedSpecial
import Verif.Lemmas.SnellPerturb
import Verif.Lemmas.SnellEnter
import Verif.Props.PlaneMirrors
import Verif.Props.CornerMirrors
import Verif.Props.LightPaths
import Verif.Props.CornerCase
import Verif.Props.Fermat
import Verif.Model.Print
import Verif.Spec.Printing
import Verif.Lemmas.Printing
import Verif.Props.Trajectory
import Verif.Spec.LensTrain
import Verif.Lemmas.LensTrain
import Verif.Props.LensTrain
import Verif.Model.Scripts
import Verif.Props.Scripts
import Verif.Lemmas.RoundMirrors
import Verif.Props.RoundMirrors
import Verif.Spec.RealRun
import Verif.Lemmas.RealRun
import Verif.Lemmas.RealBuild
import Verif.Props.RealRun
import Verif.Lemmas.BallLens
import Verif.Props.BallLens
import Verif.Lemmas.Singlet
import Verif.Lemmas.SingletAxis
import Verif.Lemmas.SingletScript
import Verif.Props.Singlet
import Verif.Props.Probes
import Verif.Props.Examples
import Verif.Props.Routes
import Verif.Lemmas.DmdBench
import Verif.Lemmas.DmdRoute
import Verif.Lemmas.DmdTurns
import Verif.Spec.DmdScript
import Verif.Props.DmdScript
import Verif.Spec.ScriptResults
import Verif.Props.ScriptResults
import Verif.Model.Rounded
import Verif.Lemmas.Rounding64
import Verif.Lemmas.Rounded
import Verif.Lemmas.RoundedClock
import Verif.Lemmas.Resonator64
import Verif.Props.RoundedTermination
import Verif.Spec.Rounded
import Verif.Lemmas.RoundedVec
import Verif.Lemmas.RoundedMirror
import Verif.Lemmas.RoundedRun
import Verif.Props.RoundedMirrors
import Verif.Spec.RoundedPath
import Verif.Lemmas.RoundedPlane
import Verif.Lemmas.RoundedPath
import Verif.Props.RoundedPositions
import Verif.Props.BallMirrors
import Verif.Props.GlassBall64
import Verif.Props.RoundedRefraction
import Verif.Props.NearBalls
import Verif.Props.NearGlass
import Verif.Props.RoundedAngles
import Verif.Props.RoundedLenses
import Verif.Props.Catalogs
import Verif.Props.RoundedRotations
import Verif.Props.RoundedGratings
import Verif.Props.RoundedApertures
import Verif.Lemmas.RoundedGratingRun
import Verif.Props.RoundedGratingRuns
import Verif.Lemmas.RoundedAlign
import Verif.Props.RoundedAlignment
import Verif.Model.Demos
import Verif.Props.Demos
import Verif.Lemmas.Idempotent64
import Verif.Lemmas.RoundedQuadratic
import Verif.Lemmas.RoundedRoots
import Verif.Lemmas.RoundedCylinder
import Verif.Spec.CylinderAhead
import Verif.Lemmas.CylinderGram
import Verif.Lemmas.CylinderPass
import Verif.Lemmas.CylinderFirst
import Verif.Lemmas.CylinderNormal
import Verif.Lemmas.CylinderScript
import Verif.Props.RoundedCylinders
import Verif.Lemmas.CylinderLeave
import Verif.Lemmas.CylinderGone
import Verif.Lemmas.CylinderRun
import Verif.Props.RoundedCylinderRuns
import Verif.Model.Tables
import Verif.Lemmas.LinearSpline
import Verif.Lemmas.LogTables
import Verif.Props.LogTables
import Verif.Spec.TextRows
import Verif.Lemmas.TextRows
import Verif.Props.SpacedText
import Verif.Spec.RoundedImaging
import Verif.Spec.SampleGrid
import Verif.Lemmas.ImagingRun
import Verif.Lemmas.ImagingLand
import Verif.Lemmas.ImagingLegs
import Verif.Lemmas.ImagingScript
import Verif.Lemmas.ImageAxis64
import Verif.Lemmas.ObjectRays64
import Verif.Props.RoundedImaging
import Verif.Props.RoundedImagingScript
import Verif.Lemmas.AmongOptics
import Verif.Lemmas.BeyondOptics
import Verif.Lemmas.Refocus
import Verif.Lemmas.RelayScene
import Verif.Lemmas.RelayBench
import Verif.Lemmas.RelayStep
import Verif.Lemmas.RelayLegs
import Verif.Lemmas.RelayEnd
import Verif.Spec.RoundedTrain
import Verif.Props.RoundedTrains
import Verif.Props.RoundedRelay
import Verif.Spec.RoundedCollimator
import Verif.Lemmas.RoundedCollimator
import Verif.Lemmas.RoundPassed
import Verif.Lemmas.BenchLeg
import Verif.Lemmas.TelescopeBench
import Verif.Lemmas.TelescopeEnd
import Verif.Props.RoundedCollimators
import Verif.Props.RoundedTelescope
