import Verif.Model.Arr
import Verif.Model.Blocks
import Verif.Model.ClosePairs
import Verif.Model.ClosePairsPeriodic
import Verif.Model.Ewald
import Verif.Model.Examples
import Verif.Model.Feed
import Verif.Model.Format
import Verif.Model.Frame
import Verif.Model.GrandResistance
import Verif.Model.Graphics
import Verif.Model.Green
import Verif.Model.Inputs
import Verif.Model.Layout
import Verif.Model.Midfield
import Verif.Model.Minfinity
import Verif.Model.Nearfield
import Verif.Model.Placement
import Verif.Model.PlacementPeriodic
import Verif.Model.Polygon
import Verif.Model.R2B
import Verif.Model.R2BPeriodic
import Verif.Model.Scalars
import Verif.Model.Setups
import Verif.Model.ShippedData
import Verif.Model.ShippedInputs
import Verif.Model.ShippedTable
import Verif.Model.SimTools
import Verif.Model.Solve
import Verif.Model.Startup
import Verif.Model.Tables
import Verif.Model.Timestep
import Verif.Spec.ArrayFlow
import Verif.Spec.BoxImage
import Verif.Spec.Converge
import Verif.Spec.Depend
import Verif.Spec.Dumbbell
import Verif.Spec.Ewald
import Verif.Spec.Examples
import Verif.Spec.FarField
import Verif.Spec.Feed
import Verif.Spec.Grand
import Verif.Spec.GrandResistance
import Verif.Spec.Graphics
import Verif.Spec.InputSymmetry
import Verif.Spec.Isotropy
import Verif.Spec.Layers
import Verif.Spec.Linear
import Verif.Spec.ListedForces
import Verif.Spec.Lubrication
import Verif.Spec.Motion
import Verif.Spec.Moved
import Verif.Spec.NearDissipation
import Verif.Spec.NearField
import Verif.Spec.Nearby
import Verif.Spec.PairMotion
import Verif.Spec.Passengers
import Verif.Spec.PeriodicNear
import Verif.Spec.Placement
import Verif.Spec.PlacementPeriodic
import Verif.Spec.Plane
import Verif.Spec.Polygon
import Verif.Spec.Power
import Verif.Spec.Progress
import Verif.Spec.Renumbered
import Verif.Spec.Repulsion
import Verif.Spec.Run
import Verif.Spec.SelfImage
import Verif.Spec.Separate
import Verif.Spec.Series
import Verif.Spec.Setups
import Verif.Spec.ShippedInputs
import Verif.Spec.Solve
import Verif.Spec.SolveStable
import Verif.Spec.Splitting
import Verif.Spec.Startup
import Verif.Spec.Still
import Verif.Spec.Superpose
import Verif.Spec.System
import Verif.Spec.Time
import Verif.Spec.Twist
import Verif.Spec.TwoSphere
import Verif.Spec.Units
import Verif.Lemmas.AnswerLip
import Verif.Lemmas.Axial
import Verif.Lemmas.AxialTwist
import Verif.Lemmas.Blocks
import Verif.Lemmas.BoxImage
import Verif.Lemmas.ClosePairs
import Verif.Lemmas.CodePivot
import Verif.Lemmas.Converge
import Verif.Lemmas.ConvergeAll
import Verif.Lemmas.ConvergeRun
import Verif.Lemmas.ConvergeStart
import Verif.Lemmas.ConvergeStep
import Verif.Lemmas.Conversions
import Verif.Lemmas.Covariance
import Verif.Lemmas.CovarianceGrand
import Verif.Lemmas.CovarianceParts
import Verif.Lemmas.Depend
import Verif.Lemmas.DependRun
import Verif.Lemmas.DependStep
import Verif.Lemmas.Dilute
import Verif.Lemmas.DumbRun
import Verif.Lemmas.Dumbbell
import Verif.Lemmas.EqualRows
import Verif.Lemmas.Erfc
import Verif.Lemmas.EwaldArray
import Verif.Lemmas.EwaldArrayGreen
import Verif.Lemmas.EwaldBox
import Verif.Lemmas.EwaldDecay
import Verif.Lemmas.EwaldEntry
import Verif.Lemmas.EwaldGreen
import Verif.Lemmas.EwaldKernels
import Verif.Lemmas.EwaldLarge
import Verif.Lemmas.EwaldLayers
import Verif.Lemmas.EwaldLimit
import Verif.Lemmas.EwaldLoop
import Verif.Lemmas.EwaldMatrix
import Verif.Lemmas.EwaldOpen
import Verif.Lemmas.EwaldPair
import Verif.Lemmas.EwaldParity
import Verif.Lemmas.EwaldScale
import Verif.Lemmas.EwaldSelf
import Verif.Lemmas.EwaldSplit
import Verif.Lemmas.EwaldSplitIndep
import Verif.Lemmas.EwaldSplitting
import Verif.Lemmas.EwaldStokes
import Verif.Lemmas.EwaldWaves
import Verif.Lemmas.FarField
import Verif.Lemmas.FarStrain
import Verif.Lemmas.Faxen
import Verif.Lemmas.FirstCoeffs
import Verif.Lemmas.FlowLip
import Verif.Lemmas.Frame
import Verif.Lemmas.GapModes
import Verif.Lemmas.GaussLattice
import Verif.Lemmas.Grand
import Verif.Lemmas.GrandResistance
import Verif.Lemmas.Green
import Verif.Lemmas.Hat
import Verif.Lemmas.InputSymmetry
import Verif.Lemmas.Isotropy
import Verif.Lemmas.IsotropySystem
import Verif.Lemmas.Lattice
import Verif.Lemmas.LatticeDeriv
import Verif.Lemmas.LatticeSum
import Verif.Lemmas.Layout
import Verif.Lemmas.ListedForces
import Verif.Lemmas.LocalLip
import Verif.Lemmas.LoneRun
import Verif.Lemmas.LubSeries
import Verif.Lemmas.Lubrication
import Verif.Lemmas.MinfEntry
import Verif.Lemmas.Minfinity
import Verif.Lemmas.Moved
import Verif.Lemmas.MovedProgram
import Verif.Lemmas.MovedRun
import Verif.Lemmas.MovedStage
import Verif.Lemmas.NearDissipation
import Verif.Lemmas.NearForm
import Verif.Lemmas.NearLoop
import Verif.Lemmas.NearSystem
import Verif.Lemmas.NearTensor
import Verif.Lemmas.NearTurn
import Verif.Lemmas.Nearby
import Verif.Lemmas.NearbyLip
import Verif.Lemmas.NearfieldSeries
import Verif.Lemmas.OpenPlaces
import Verif.Lemmas.Origin
import Verif.Lemmas.Overlap
import Verif.Lemmas.Overlapping
import Verif.Lemmas.Packing
import Verif.Lemmas.PairFar
import Verif.Lemmas.PairIntegral
import Verif.Lemmas.PairMotion
import Verif.Lemmas.Passengers
import Verif.Lemmas.PeriodicNear
import Verif.Lemmas.Perturb
import Verif.Lemmas.Pivot
import Verif.Lemmas.PivotAlg
import Verif.Lemmas.Placement
import Verif.Lemmas.PlacementExists
import Verif.Lemmas.PlacementPeriodic
import Verif.Lemmas.Polygon
import Verif.Lemmas.Positive
import Verif.Lemmas.Power
import Verif.Lemmas.Progress
import Verif.Lemmas.R2B
import Verif.Lemmas.R2BEntry
import Verif.Lemmas.Radial
import Verif.Lemmas.Reflections
import Verif.Lemmas.RenumRun
import Verif.Lemmas.RenumStage
import Verif.Lemmas.Repulsion
import Verif.Lemmas.Rotation
import Verif.Lemmas.Scalars
import Verif.Lemmas.SelfImage
import Verif.Lemmas.Setups
import Verif.Lemmas.ShippedInputs
import Verif.Lemmas.SignGreen
import Verif.Lemmas.Similar
import Verif.Lemmas.Smooth
import Verif.Lemmas.Solve
import Verif.Lemmas.SolveDecides
import Verif.Lemmas.SolveEcho
import Verif.Lemmas.SolveExists
import Verif.Lemmas.SolveRenum
import Verif.Lemmas.SolveRule
import Verif.Lemmas.SolveTurn
import Verif.Lemmas.Sphere
import Verif.Lemmas.Still
import Verif.Lemmas.StrainBound
import Verif.Lemmas.StrainSlack
import Verif.Lemmas.Swirl
import Verif.Lemmas.SwirlSum
import Verif.Lemmas.SwirlTorque
import Verif.Lemmas.SwirlUnique
import Verif.Lemmas.System
import Verif.Lemmas.Time
import Verif.Lemmas.Twist
import Verif.Lemmas.TwistGap
import Verif.Lemmas.TwistRate
import Verif.Lemmas.TwoSphere
import Verif.Lemmas.Units
import Verif.Lemmas.Viscosity
import Verif.Lemmas.Zonal
import Verif.Props.ArrayFlow
import Verif.Props.Blocks
import Verif.Props.BoxArray
import Verif.Props.BoxImage
import Verif.Props.Cache
import Verif.Props.Condense
import Verif.Props.Converge
import Verif.Props.Covariance
import Verif.Props.Depend
import Verif.Props.Dilute
import Verif.Props.Dissipation
import Verif.Props.DrivenSpheres
import Verif.Props.EwaldBox
import Verif.Props.EwaldKernels
import Verif.Props.EwaldMatrix
import Verif.Props.EwaldPair
import Verif.Props.EwaldSelf
import Verif.Props.Examples
import Verif.Props.FallingPair
import Verif.Props.FarField
import Verif.Props.Feed
import Verif.Props.GrandResistance
import Verif.Props.GraphicsColour
import Verif.Props.GraphicsView
import Verif.Props.InputSymmetry
import Verif.Props.Inputs
import Verif.Props.Isotropy
import Verif.Props.LargeBox
import Verif.Props.LargeBoxGrand
import Verif.Props.LargeBoxMatrix
import Verif.Props.Layers
import Verif.Props.LayersAnswers
import Verif.Props.LayersGrand
import Verif.Props.ListedForces
import Verif.Props.LoneSphere
import Verif.Props.Lubrication
import Verif.Props.LubricationFlow
import Verif.Props.LubricationSeries
import Verif.Props.LubricationTable
import Verif.Props.Midfield
import Verif.Props.MidfieldTable
import Verif.Props.Motion
import Verif.Props.Moved
import Verif.Props.NearDissipation
import Verif.Props.NearField
import Verif.Props.Nearby
import Verif.Props.PairMotion
import Verif.Props.Passengers
import Verif.Props.Periodic
import Verif.Props.PeriodicGrand
import Verif.Props.PeriodicNear
import Verif.Props.Placement
import Verif.Props.PlacementPeriodic
import Verif.Props.Polygon
import Verif.Props.Power
import Verif.Props.Progress
import Verif.Props.RangeJump
import Verif.Props.RenumberRun
import Verif.Props.Resume
import Verif.Props.Saving
import Verif.Props.ScalarTables
import Verif.Props.Scalars
import Verif.Props.SelfImage
import Verif.Props.Setups
import Verif.Props.ShippedInputs
import Verif.Props.ShippedRun
import Verif.Props.ShippedSolve
import Verif.Props.ShippedTable
import Verif.Props.Solve
import Verif.Props.SolveRenumber
import Verif.Props.SolveStable
import Verif.Props.SolveTurn
import Verif.Props.Splitting
import Verif.Props.Startup
import Verif.Props.Step
import Verif.Props.Still
import Verif.Props.Superpose
import Verif.Props.SymmetricRun
import Verif.Props.Time
import Verif.Props.Twist
import Verif.Props.TwistFar
import Verif.Props.TwoSpheres
import Verif.Props.UnequalGain
import Verif.Props.Video
