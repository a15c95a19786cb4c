import Verif.Base.Fl
import Verif.Base.Vec
import Verif.Lemmas.Alias
import Verif.Lemmas.Alias2
import Verif.Lemmas.Alias3
import Verif.Lemmas.Conv
import Verif.Lemmas.Deposit
import Verif.Lemmas.Detector
import Verif.Lemmas.Euler
import Verif.Lemmas.Image
import Verif.Lemmas.Laue
import Verif.Lemmas.Macro
import Verif.Lemmas.Macro2
import Verif.Lemmas.Mesh
import Verif.Lemmas.Moment
import Verif.Lemmas.Motion
import Verif.Lemmas.Nano
import Verif.Lemmas.Nano2
import Verif.Lemmas.Node
import Verif.Lemmas.Peaks
import Verif.Lemmas.PermRel
import Verif.Lemmas.Polycrystal
import Verif.Lemmas.Recip
import Verif.Lemmas.Scale
import Verif.Lemmas.Scale2
import Verif.Lemmas.Sphere
import Verif.Lemmas.Split
import Verif.Lemmas.Stale
import Verif.Lemmas.Strain
import Verif.Lemmas.SubSample
import Verif.Lemmas.Transpose
import Verif.Lemmas.Turn
import Verif.Lemmas.Turn2
import Verif.Model.Alias
import Verif.Model.Beam
import Verif.Model.BeamHull
import Verif.Model.Circum
import Verif.Model.Detector
import Verif.Model.Device
import Verif.Model.Diffractogram
import Verif.Model.Export
import Verif.Model.Helpers
import Verif.Model.Image
import Verif.Model.Intersect
import Verif.Model.Laue
import Verif.Model.LevelSet
import Verif.Model.Memory
import Verif.Model.Mesh
import Verif.Model.Motion
import Verif.Model.MotionShapes
import Verif.Model.Output
import Verif.Model.Peaks
import Verif.Model.Persist
import Verif.Model.Polycrystal
import Verif.Model.Progress
import Verif.Model.Proximity
import Verif.Model.Render
import Verif.Model.Sample
import Verif.Model.Scattering
import Verif.Model.Strain
import Verif.Model.StructureFactor
import Verif.Model.Templates
import Verif.Model.Warn
import Verif.Model.World
import Verif.Props.Alias
import Verif.Props.Alias2
import Verif.Props.Alias3
import Verif.Props.Auto
import Verif.Props.AutoReach
import Verif.Props.Backward
import Verif.Props.BeamHull
import Verif.Props.BeamSize
import Verif.Props.Blur
import Verif.Props.Bright
import Verif.Props.Circum
import Verif.Props.Clip
import Verif.Props.Columns
import Verif.Props.Convert
import Verif.Props.Covariance
import Verif.Props.Cylinder
import Verif.Props.Cylinder2
import Verif.Props.Deposit
import Verif.Props.Detector
import Verif.Props.Detector2
import Verif.Props.Device
import Verif.Props.Diffractogram
import Verif.Props.Diffractogram2
import Verif.Props.Directions
import Verif.Props.EndToEnd
import Verif.Props.Exact
import Verif.Props.Exact2
import Verif.Props.Exact3
import Verif.Props.Exact4
import Verif.Props.Exact5
import Verif.Props.Exact6
import Verif.Props.Exact7
import Verif.Props.Export
import Verif.Props.Facets
import Verif.Props.FirstFrames
import Verif.Props.FirstFrames2
import Verif.Props.FirstFrames3
import Verif.Props.Frames
import Verif.Props.Friedel
import Verif.Props.Helpers
import Verif.Props.ImgScene
import Verif.Props.Inside
import Verif.Props.Inside2
import Verif.Props.Intersect
import Verif.Props.IntersectFails
import Verif.Props.LevelSet
import Verif.Props.LevelSetScene
import Verif.Props.Limits
import Verif.Props.MacroBlock
import Verif.Props.MacroError
import Verif.Props.MacroFails
import Verif.Props.MacroNan
import Verif.Props.MacroRays
import Verif.Props.MacroReach
import Verif.Props.MacroSafe
import Verif.Props.MacroScene
import Verif.Props.MacroTotal
import Verif.Props.Memory
import Verif.Props.Mesh
import Verif.Props.Mesh2
import Verif.Props.Micro
import Verif.Props.MicroPixels
import Verif.Props.MicroReach
import Verif.Props.Misorientation
import Verif.Props.Motion
import Verif.Props.MotionShapes
import Verif.Props.MotionShapes2
import Verif.Props.Nano
import Verif.Props.Nano2
import Verif.Props.NanoFails
import Verif.Props.NanoMemory
import Verif.Props.NanoReach
import Verif.Props.NodeOrder
import Verif.Props.Nudge
import Verif.Props.Odf
import Verif.Props.Order
import Verif.Props.Output
import Verif.Props.Peaks
import Verif.Props.Peaks2
import Verif.Props.Persist
import Verif.Props.Phases
import Verif.Props.Pixels
import Verif.Props.Polycrystal
import Verif.Props.Position
import Verif.Props.Powder
import Verif.Props.Progress
import Verif.Props.Progress2
import Verif.Props.Proximity
import Verif.Props.Psf
import Verif.Props.Psf2
import Verif.Props.Range
import Verif.Props.Recip
import Verif.Props.Refine
import Verif.Props.Rerender
import Verif.Props.Resize
import Verif.Props.Rings
import Verif.Props.Rings2
import Verif.Props.Sample
import Verif.Props.Scattering
import Verif.Props.Scene
import Verif.Props.Shift
import Verif.Props.Snapshot
import Verif.Props.Spacing
import Verif.Props.Spacing2
import Verif.Props.Sphere
import Verif.Props.Sphere2
import Verif.Props.Split
import Verif.Props.SplitFails
import Verif.Props.Strain
import Verif.Props.StructureFactor
import Verif.Props.SubSample
import Verif.Props.Superpose
import Verif.Props.Symmetry
import Verif.Props.SymmetryFails
import Verif.Props.Templates
import Verif.Props.Transpose
import Verif.Props.Twice
import Verif.Props.Units
import Verif.Props.Warn
import Verif.Props.Warn2
import Verif.Props.Witness
import Verif.Props.World
import Verif.Spec
import Verif.SpecAlias
import Verif.SpecHull
import Verif.SpecImage
