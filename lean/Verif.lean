import Verif.Props.Bvh
import Verif.Props.BvhExamples
import Verif.Props.Scene
import Verif.Props.SceneExamples
import Verif.Props.Triangle
import Verif.Props.SphereMesh
import Verif.Props.ColourMap
import Verif.Props.Rgbe
import Verif.Props.Image
import Verif.Props.FalseColour
import Verif.Props.ColourMatrix
import Verif.Props.ColourMatrixExamples
import Verif.Props.Colour
import Verif.Props.Camera
import Verif.Props.Rounding
import Verif.Props.Render
import Verif.Props.Specular
import Verif.Props.Glass
import Verif.Props.Samplers
import Verif.Props.Ward
import Verif.Props.Tracer
import Verif.Props.TracerScenes
import Verif.Props.Ambient
import Verif.Props.Direct
import Verif.Props.TracerExamples
import Verif.Model.DcTracer
import Verif.Lemmas.DcTracer
import Verif.Props.Daylight
import Verif.Props.DaylightScenes
import Verif.Props.Interfaces
import Verif.Spec.Brighten
import Verif.Props.Linearity
import Verif.Props.LightSides
import Verif.Props.LightSampling
import Verif.Props.Radiance
import Verif.Model.Obj
import Verif.Props.Obj
import Verif.Model.SimpleModel
import Verif.Props.SimpleModel
import Verif.Props.Substances
import Verif.Model.PerezSky
import Verif.Props.PerezSky
import Verif.Model.Programs
import Verif.Props.Programs
import Verif.Props.Spict
import Verif.Spec.Safety
import Verif.Props.Safety
import Verif.Props.SafetyScenes
import Verif.Props.Glossy
import Verif.Props.GlossySampling
import Verif.Props.DcSafety
import Verif.Model.Sfluxmtx
import Verif.Props.Sfluxmtx
import Verif.Props.Termination
import Verif.Props.Boundaries
import Verif.Spec.Measures
import Verif.Lemmas.Jacobian
import Verif.Props.Uniformity
import Verif.Props.Unbiased
import Verif.Props.SkyView
import Verif.Spec.FalseColour
import Verif.Props.SphereLight
import Verif.Props.SpecularEval
import Verif.Props.Sunlight
import Verif.Props.SunShadow
import Verif.Spec.Tree
import Verif.Lemmas.BvhSplit
import Verif.Props.Tree
import Verif.Spec.Programs
import Verif.Props.FalseColourPrograms
import Verif.Props.LoadedScenes
import Verif.Spec.Randomness
import Verif.Props.Draws
import Verif.Props.SpecularTrees
import Verif.Props.SpecularEnds
import Verif.Props.AlmostSure
import Verif.Props.Noise
import Verif.Props.DcFailures
import Verif.Props.SunNoise
import Verif.Props.GlossyLight
import Verif.Model.Directions
import Verif.Props.Directions
import Verif.Props.Cases
import Verif.Spec.Moved
import Verif.Lemmas.Moved
import Verif.Props.Moved
import Verif.Props.MovedScenes
import Verif.Props.Text
import Verif.Props.Numbering
import Verif.Model.RgbeFloat
import Verif.Spec.Doubles
import Verif.Lemmas.Doubles
import Verif.Lemmas.RgbeFloat
import Verif.Lemmas.Resave
import Verif.Props.RgbeFloat
import Verif.Model.TriangleFloat
import Verif.Lemmas.TriangleFloat
import Verif.Props.TriangleFloat
import Verif.Spec.Brightness
import Verif.Lemmas.Brightness
import Verif.Props.Brightness
import Verif.Spec.Superposition
import Verif.Lemmas.Superposition
import Verif.Props.Superposition
import Verif.Spec.Obstacles
import Verif.Props.Obstacles
import Verif.Spec.Views
import Verif.Props.Views
import Verif.Spec.Rooms
import Verif.Props.Rooms
import Verif.Lemmas.Fresh
import Verif.Lemmas.MeasurableCast
import Verif.Lemmas.MeanLight
import Verif.Spec.RenderingEquation
import Verif.Lemmas.MeanBounce
import Verif.Props.RenderingEquation
import Verif.Lemmas.MeasurableBox
import Verif.Props.RenderingEquationExample
import Verif.Props.BlackSky
import Verif.Props.MeanPicture
import Verif.Props.MoreCases
import Verif.Lemmas.Redraw
import Verif.Spec.Windows
import Verif.Lemmas.Windows
import Verif.Props.Windows
import Verif.Props.WindowsExample
import Verif.Spec.ExactLight
import Verif.Lemmas.ExactLight
import Verif.Props.ExactLight
import Verif.Spec.Glazed
import Verif.Lemmas.Glazed
import Verif.Props.Glazed
import Verif.Props.GlazedExample
import Verif.Spec.GlassShade
import Verif.Props.GlassShade
import Verif.Props.YetMoreCases
import Verif.Lemmas.Noise
import Verif.Lemmas.SampleCounts
import Verif.Spec.Noise
import Verif.Props.SampleNoise
import Verif.Props.NoiseLimit
import Verif.Props.PictureNoise
import Verif.Props.PixelNoise
import Verif.Props.NoiseExample
import Verif.Spec.SkyThrough
import Verif.Props.DaylightMean
import Verif.Props.DaylightGrowth
import Verif.Props.SkyVector
import Verif.Spec.SameSurfaces
import Verif.Lemmas.SameSurfaces
import Verif.Props.DaylightInvariance
import Verif.Spec.MatrixFiles
import Verif.Lemmas.MatrixHeader
import Verif.Lemmas.Turns
import Verif.Spec.GeometricLight
import Verif.Lemmas.GeometricLight
import Verif.Props.GeometricLight
import Verif.Spec.GeometricDaylight
import Verif.Props.GeometricDaylight
import Verif.Model.BvhFloat
import Verif.Spec.BvhFloat
import Verif.Lemmas.BvhFloat
import Verif.Props.BvhFloat
import Verif.Spec.Repaint
import Verif.Lemmas.Repaint
import Verif.Props.Repaint
import Verif.Props.RepaintExample
import Verif.Spec.CutShort
import Verif.Lemmas.CutShort
import Verif.Props.CutShort
import Verif.Props.CutShortPicture
import Verif.Spec.ScaleOrder
import Verif.Props.ScaleOrder
import Verif.Model.FalseColourFloat
import Verif.Spec.FalseColourFloat
import Verif.Lemmas.FalseColourFloat
import Verif.Lemmas.FalseColourTop
import Verif.Lemmas.FalseColour64
import Verif.Props.FalseColourFloat
import Verif.Model.ProgramsFloat
import Verif.Props.ProgramsFloat
import Verif.Spec.GlazedEnergy
import Verif.Props.GlazedEnergy
import Verif.Props.GlazedPicture
import Verif.Spec.ExactGlazed
import Verif.Props.ExactGlazed
import Verif.Props.ExactGlazedExample
import Verif.Props.ExactGlazedPicture
import Verif.Props.ScaleOrderFloat
import Verif.Spec.Clearer
import Verif.Lemmas.Clearer
import Verif.Props.Clearer
import Verif.Props.ClearerExample
import Verif.Props.GlazedRepaint
import Verif.Props.GlazedRepaintExample
import Verif.Spec.Settings
import Verif.Props.Settings
import Verif.Props.SettingsExample
import Verif.Spec.Mirrors
import Verif.Props.Mirrors
import Verif.Props.MirrorsExample
import Verif.Spec.Panes
import Verif.Props.Panes
import Verif.Props.PanesExample
import Verif.Spec.Media
import Verif.Props.Media
import Verif.Props.MediaExample
