import Verif.Model.Np
import Verif.Model.Vec
import Verif.Model.Engine
import Verif.Lemmas.Child
import Verif.Model.Surface
import Verif.Model.Flat
import Verif.Model.Optics
import Verif.Lemmas.Default
import Verif.Spec.Surface
import Verif.Lemmas.Surface
import Verif.Lemmas.Contracts
import Verif.Examples.Scene
import Verif.Lemmas.Level
import Verif.Props.Engine
import Verif.Model.Tree
import Verif.Props.Tree
import Verif.Lemmas.Policy
import Verif.Props.Policy
import Verif.Lemmas.Energy
import Verif.Props.Energy
import Verif.Spec.Generation
import Verif.Lemmas.Generation
import Verif.Props.Independence
import Verif.Props.Bundle
import Verif.Props.BundleExact
import Verif.Props.FrameSharing
import Verif.Spec.Rod
import Verif.Lemmas.Rod
import Verif.Props.Rod
import Verif.Props.BundleRays
import Verif.Lemmas.Vec
import Verif.Model.Assembly
import Verif.Model.Frames
import Verif.Spec.Assembly
import Verif.Spec.Frames
import Verif.Props.Frames
import Verif.Props.FramesExact
import Verif.Props.FrameArrays
import Verif.Model.Spatial
import Verif.Model.Quadric
import Verif.Spec.Rigid
import Verif.Spec.Geometry
import Verif.Lemmas.Rigid
import Verif.Props.Spatial
import Verif.Props.Flat
import Verif.Spec.Curved
import Verif.Lemmas.Quadric
import Verif.Props.Quadric
import Verif.Props.Normals
import Verif.Props.Motion
import Verif.Props.CutSphere
import Verif.Props.CutSphereExact
import Verif.Model.Sources
import Verif.Model.Refraction
import Verif.Spec.Optics
import Verif.Spec.Receiver
import Verif.Lemmas.Refractive
import Verif.Props.Refraction
import Verif.Props.Fresnel
import Verif.Props.Callables
import Verif.Props.Receivers
import Verif.Spec.Balance
import Verif.Spec.Ties
import Verif.Lemmas.Balance
import Verif.Lemmas.Log
import Verif.Props.Balance
import Verif.Lemmas.Ties
import Verif.Props.Ties
import Verif.Lemmas.Count
import Verif.Props.Count
import Verif.Spec.Sources
import Verif.Props.Sources
import Verif.Model.Boundary
import Verif.Spec.Boundary
import Verif.Props.Boundary
import Verif.Model.Protocol
import Verif.Spec.Protocol
import Verif.Lemmas.Managers
import Verif.Lemmas.Protocol
import Verif.Props.Protocol
import Verif.Model.Scene
import Verif.Model.Mirrors
import Verif.Spec.Mirrors
import Verif.Lemmas.Mirrors
import Verif.Props.Homogenizer
import Verif.Props.Collectors
import Verif.Model.Heliostats
import Verif.Spec.Heliostats
import Verif.Props.Heliostats
import Verif.Props.Stagger
import Verif.Model.Triangulated
import Verif.Spec.Triangulated
import Verif.Props.Triangulated
import Verif.Model.ShowRays
import Verif.Spec.ShowRays
import Verif.Props.ShowRays
import Verif.Model.Mesh
import Verif.Spec.Mesh
import Verif.Props.Mesh
import Verif.Model.Lens
import Verif.Spec.Lens
import Verif.Props.Lens
import Verif.Props.LensFocus
import Verif.Lemmas.OneHit
import Verif.Lemmas.LensBatch
import Verif.Lemmas.LensLimit
import Verif.Props.LensTrace
import Verif.Spec.Simulation
import Verif.Lemmas.Simulation
import Verif.Spec.Motion
import Verif.Props.TraceMotion
import Verif.Spec.Relabel
import Verif.Props.Relabel
import Verif.Spec.Law
import Verif.Props.Law
import Verif.Spec.Catalogue
import Verif.Spec.Progress
import Verif.Lemmas.Progress
import Verif.Props.Progress
import Verif.Replay
import Verif.ReplayReal
import Verif.Model.Histogram
import Verif.Spec.Histogram
import Verif.Props.Histogram
import Verif.Model.AssemblyTree
import Verif.Spec.AssemblyTree
import Verif.Props.AssemblyTree
import Verif.Spec.Dimensions
import Verif.Props.Dimensions
import Verif.Spec.Distribution
import Verif.Props.Distribution
import Verif.Props.MeshCover
import Verif.Props.Findings
import Verif.Model.SceneView
import Verif.Spec.SceneView
import Verif.Lemmas.SceneView
import Verif.Props.SceneView
import Verif.Spec.Exact
import Verif.Spec.Variation
import Verif.Lemmas.Exact
import Verif.Lemmas.Variation
import Verif.Props.Variation
import Verif.Spec.Going
import Verif.Lemmas.Going
import Verif.Lemmas.GoingLog
import Verif.Props.Going
import Verif.Props.Receipts
import Verif.Model.Tower
import Verif.Spec.Tower
import Verif.Lemmas.Relay
import Verif.Props.Tower
import Verif.Props.TowerField
import Verif.Lemmas.Course
import Verif.Spec.Kaleidoscope
import Verif.Lemmas.Kaleidoscope
import Verif.Lemmas.Tube
import Verif.Lemmas.TubeCourse
import Verif.Props.CurvedMirrors
import Verif.Lemmas.TubeScene
import Verif.Lemmas.DishCourse
import Verif.Props.Kaleidoscope
import Verif.Spec.Specular
import Verif.Lemmas.Specular
import Verif.Props.Specular
import Verif.Spec.Window
import Verif.Lemmas.Window
import Verif.Lemmas.WindowScene
import Verif.Lemmas.WindowTrace
import Verif.Props.Window
import Verif.Spec.Reversal
import Verif.Lemmas.Reversal
import Verif.Props.Reversal
import Verif.Spec.Images
import Verif.Lemmas.Images
import Verif.Props.Images
import Verif.Spec.Cavity
import Verif.Lemmas.OneSurface
import Verif.Lemmas.Cavity
import Verif.Props.Cavity
import Verif.Spec.Pipe
import Verif.Lemmas.Pipe
import Verif.Props.Pipe
import Verif.Spec.Drop
import Verif.Lemmas.Fans
import Verif.Lemmas.Drop
import Verif.Props.Drop
import Verif.Spec.Raises
import Verif.Lemmas.Raises
import Verif.Props.Raises
import Verif.Props.ReceiversExact
import Verif.Props.BoundaryExact
import Verif.Spec.Media
import Verif.Props.Media
import Verif.Spec.EnergyLibrary
import Verif.Lemmas.EnergyLibrary
import Verif.Props.EnergyLibrary
import Verif.Spec.Symmetry
import Verif.Lemmas.Symmetry
import Verif.Props.Symmetry
import Verif.Spec.Fermat
import Verif.Lemmas.Fermat
import Verif.Props.Fermat
import Verif.Model.Rounded
import Verif.Spec.Rounded
import Verif.Lemmas.Rounded
import Verif.Lemmas.Leak
import Verif.Props.Rounded
import Verif.Model.RoundedSphere
import Verif.Spec.Arithmetic
import Verif.Lemmas.SphereLeak
import Verif.Lemmas.Binary64
import Verif.Props.RoundedSphere
import Verif.Spec.Tally
import Verif.Lemmas.Tally
import Verif.Props.Tally
import Verif.Model.Programs
import Verif.Lemmas.Programs
import Verif.Lemmas.Axial
import Verif.Props.Programs
import Verif.Spec.Following
import Verif.Props.Following
import Verif.Props.Drawing
import Verif.Model.Windows
import Verif.Props.Windows
import Verif.Props.Efficiency

import Verif.Lemmas.TwoMirrors
import Verif.Props.TwoMirrors
import Verif.Model.TowerWindow
import Verif.Spec.TowerWindow
import Verif.Lemmas.TowerWindow
import Verif.Props.TowerWindow
import Verif.Lemmas.Resume
import Verif.Props.Resume
import Verif.Spec.Saving
import Verif.Spec.SavingModels
import Verif.Lemmas.Saving
import Verif.Props.Saving
import Verif.Props.SavingModels
import Verif.Model.Integers
import Verif.Props.Integers
import Verif.Model.Shared
import Verif.Spec.Shared
import Verif.Lemmas.Shared
import Verif.Props.Shared
import Verif.Model.Graph
import Verif.Spec.Graph
import Verif.Lemmas.Graph
import Verif.Props.Graph
import Verif.Spec.MonteCarlo
import Verif.Lemmas.Measurable
import Verif.Lemmas.MonteCarlo
import Verif.Props.MonteCarlo
import Verif.Props.SunnyPlate
import Verif.Spec.Cost
import Verif.Props.Cost
import Verif.Spec.Sun
import Verif.Props.SunCone
import Verif.Spec.WhiteSphere
import Verif.Props.WhiteSphere
import Verif.Lemmas.PairBatch
import Verif.Lemmas.DiffusePair
import Verif.Spec.Factor
import Verif.Props.Factor
import Verif.Lemmas.ViewKernel
import Verif.Spec.Reciprocity
import Verif.Props.Reciprocity
import Verif.Spec.Chance
import Verif.Lemmas.Chance
import Verif.Props.Chance
import Verif.Props.Confidence
import Verif.Props.SunReport
import Verif.Props.SunField
import Verif.Props.Intercept
import Verif.Props.Delivered
import Verif.Spec.Calls
import Verif.Props.Calls
import Verif.Examples.Instances
