import Verif.Exec.Native
import Verif.Go.Exact
import Verif.Go.ExactLibm
import Verif.Go.Float
import Verif.Go.IEEE
import Verif.Go.Real
import Verif.Go.Scanner
import Verif.Go.Sort
import Verif.Go.SortInst
import Verif.Go.Str
import Verif.Go.Unicode
import Verif.Lemmas.Anchors
import Verif.Lemmas.ArcIEEE
import Verif.Lemmas.ArcLines
import Verif.Lemmas.ArcReal
import Verif.Lemmas.BallWay
import Verif.Lemmas.Bezier
import Verif.Lemmas.BezierAccuracy
import Verif.Lemmas.BezierCurve
import Verif.Lemmas.BezierGrid
import Verif.Lemmas.BezierIEEE
import Verif.Lemmas.BezierLength
import Verif.Lemmas.BezierLines
import Verif.Lemmas.BezierReal
import Verif.Lemmas.Bounds
import Verif.Lemmas.Calc
import Verif.Lemmas.Catmull
import Verif.Lemmas.CatmullIEEE
import Verif.Lemmas.Combo
import Verif.Lemmas.Curve
import Verif.Lemmas.CurveAngles
import Verif.Lemmas.CurveIEEE
import Verif.Lemmas.CurveReal
import Verif.Lemmas.DiffObjects
import Verif.Lemmas.Difficulty
import Verif.Lemmas.DistanceIEEE
import Verif.Lemmas.Drawn
import Verif.Lemmas.EndToEnd
import Verif.Lemmas.Enlarged
import Verif.Lemmas.ExactPP
import Verif.Lemmas.FairFile
import Verif.Lemmas.Faster
import Verif.Lemmas.FileLines
import Verif.Lemmas.FileMotion
import Verif.Lemmas.FileValues
import Verif.Lemmas.Flash
import Verif.Lemmas.Followed
import Verif.Lemmas.Harder
import Verif.Lemmas.IEEE
import Verif.Lemmas.Isometry
import Verif.Lemmas.LazyBounds
import Verif.Lemmas.LazyCursor
import Verif.Lemmas.Legible
import Verif.Lemmas.LineOrder
import Verif.Lemmas.Malformed
import Verif.Lemmas.MalformedFile
import Verif.Lemmas.Memory
import Verif.Lemmas.ModScore
import Verif.Lemmas.ModStrings
import Verif.Lemmas.Mods
import Verif.Lemmas.Motion
import Verif.Lemmas.Notes
import Verif.Lemmas.Numbers
import Verif.Lemmas.ObjBounds
import Verif.Lemmas.ObjFrame
import Verif.Lemmas.Order
import Verif.Lemmas.PPBounds
import Verif.Lemmas.PPMods
import Verif.Lemmas.PPReal
import Verif.Lemmas.PPStricter
import Verif.Lemmas.Parser
import Verif.Lemmas.ParserFinish
import Verif.Lemmas.ParserFrame
import Verif.Lemmas.ParserLines
import Verif.Lemmas.ParserObjects
import Verif.Lemmas.ParserSections
import Verif.Lemmas.ParserValues
import Verif.Lemmas.PathIEEE
import Verif.Lemmas.PathLength
import Verif.Lemmas.PathMotion
import Verif.Lemmas.PathReal
import Verif.Lemmas.PathTrim
import Verif.Lemmas.PeakGrowth
import Verif.Lemmas.Peaks
import Verif.Lemmas.Perfect
import Verif.Lemmas.Pi
import Verif.Lemmas.Placed
import Verif.Lemmas.PointOrder
import Verif.Lemmas.Rates
import Verif.Lemmas.Rating
import Verif.Lemmas.RatingInputs
import Verif.Lemmas.Returned
import Verif.Lemmas.Rhythm
import Verif.Lemmas.Rnd
import Verif.Lemmas.Runs
import Verif.Lemmas.Scanner
import Verif.Lemmas.Sections
import Verif.Lemmas.SectionsHang
import Verif.Lemmas.SectionsIEEE
import Verif.Lemmas.ShiftIEEE
import Verif.Lemmas.Signs
import Verif.Lemmas.SkillBounds
import Verif.Lemmas.Skills
import Verif.Lemmas.Slider
import Verif.Lemmas.SliderFile
import Verif.Lemmas.SliderIEEE
import Verif.Lemmas.SliderPosition
import Verif.Lemmas.SliderReal
import Verif.Lemmas.Sorting
import Verif.Lemmas.SpeedBounds
import Verif.Lemmas.SpeedMono
import Verif.Lemmas.Spread
import Verif.Lemmas.SqrtIEEE
import Verif.Lemmas.StackBounds
import Verif.Lemmas.StackGroup
import Verif.Lemmas.StackMotion
import Verif.Lemmas.StackSim
import Verif.Lemmas.Stacking
import Verif.Lemmas.StarBounds
import Verif.Lemmas.StarInputs
import Verif.Lemmas.Stats
import Verif.Lemmas.Steady
import Verif.Lemmas.SteadyMap
import Verif.Lemmas.Still
import Verif.Lemmas.Strain
import Verif.Lemmas.StrainBounds
import Verif.Lemmas.StrainCurve
import Verif.Lemmas.StrainSigns
import Verif.Lemmas.SwapIEEE
import Verif.Lemmas.TempoOrder
import Verif.Lemmas.Ticks
import Verif.Lemmas.Timing
import Verif.Lemmas.Turning
import Verif.Lemmas.Unicode
import Verif.Lemmas.Visible
import Verif.Lemmas.Window
import Verif.Lemmas.Within
import Verif.Lemmas.Within32
import Verif.Lemmas.Written
import Verif.Lemmas.WrittenFile
import Verif.Lemmas.WrittenObjects
import Verif.Lemmas.Zero
import Verif.Model.Bezier
import Verif.Model.BezierCurve
import Verif.Model.CurveAngles
import Verif.Model.Curves
import Verif.Model.Difficulty
import Verif.Model.DifficultyCalc
import Verif.Model.Mods
import Verif.Model.Objects
import Verif.Model.PP
import Verif.Model.PPBase
import Verif.Model.Parser
import Verif.Model.Placement
import Verif.Model.Preprocessing
import Verif.Model.Reader
import Verif.Model.Skills
import Verif.Model.Stacking
import Verif.Model.Timing
import Verif.Model.Utils
import Verif.Model.Vector
import Verif.Props.Anchors
import Verif.Props.AnyFiles
import Verif.Props.ArcFiles
import Verif.Props.Bezier
import Verif.Props.BezierCurve
import Verif.Props.BezierExact
import Verif.Props.BezierFloat
import Verif.Props.Calc
import Verif.Props.Catmull
import Verif.Props.CurveAngles
import Verif.Props.CurvedFiles
import Verif.Props.Curves
import Verif.Props.Derived
import Verif.Props.DiffObjects
import Verif.Props.Difficulty
import Verif.Props.Encodings
import Verif.Props.EndToEnd
import Verif.Props.Enlarged
import Verif.Props.Faster
import Verif.Props.FileMotion
import Verif.Props.FileValues
import Verif.Props.Flash
import Verif.Props.Flat
import Verif.Props.Harder
import Verif.Props.LazyCursor
import Verif.Props.LineEndings
import Verif.Props.LineOrder
import Verif.Props.Malformed
import Verif.Props.Memory
import Verif.Props.Mods
import Verif.Props.Motion
import Verif.Props.Names
import Verif.Props.Notes
import Verif.Props.PP
import Verif.Props.PPBounds
import Verif.Props.PPExact
import Verif.Props.PPMods
import Verif.Props.ParserLines
import Verif.Props.ParserObjects
import Verif.Props.ParserSections
import Verif.Props.ParserValues
import Verif.Props.PathLength
import Verif.Props.PathMotion
import Verif.Props.PathPositions
import Verif.Props.Paths
import Verif.Props.Peaks
import Verif.Props.Perfect
import Verif.Props.PointOrder
import Verif.Props.Points
import Verif.Props.Rate
import Verif.Props.Rating
import Verif.Props.RatingInputs
import Verif.Props.Reader
import Verif.Props.Returned
import Verif.Props.Rhythm
import Verif.Props.Sample
import Verif.Props.Sections
import Verif.Props.Shown
import Verif.Props.Slider
import Verif.Props.SliderFiles
import Verif.Props.SliderMaps
import Verif.Props.SliderTimes
import Verif.Props.Spread
import Verif.Props.StackBounds
import Verif.Props.Stacking
import Verif.Props.Stacks
import Verif.Props.StarBounds
import Verif.Props.StarInputs
import Verif.Props.Steady
import Verif.Props.Still
import Verif.Props.Strains
import Verif.Props.Ticks
import Verif.Props.Timing
import Verif.Props.Turning
import Verif.Props.Velocity
import Verif.Props.Visible
import Verif.Props.Written
import Verif.Props.Zero
import Verif.Spec.Anchors
import Verif.Spec.ArcLaws
import Verif.Spec.Bezier
import Verif.Spec.BezierCurve
import Verif.Spec.BezierReal
import Verif.Spec.Calc
import Verif.Spec.Catmull
import Verif.Spec.Derived
import Verif.Spec.DiffObjects
import Verif.Spec.Difficulty
import Verif.Spec.Drawn
import Verif.Spec.Encodings
import Verif.Spec.Enlarged
import Verif.Spec.Faster
import Verif.Spec.FileValues
import Verif.Spec.Flash
import Verif.Spec.Flipped
import Verif.Spec.Harder
import Verif.Spec.LazyCursor
import Verif.Spec.Legible
import Verif.Spec.LineOrder
import Verif.Spec.Malformed
import Verif.Spec.Memory
import Verif.Spec.Mods
import Verif.Spec.Motion
import Verif.Spec.Names
import Verif.Spec.Notes
import Verif.Spec.Objects
import Verif.Spec.Order
import Verif.Spec.PP
import Verif.Spec.PPBounds
import Verif.Spec.Parser
import Verif.Spec.Path
import Verif.Spec.Peaks
import Verif.Spec.Perfect
import Verif.Spec.PointOrder
import Verif.Spec.Points
import Verif.Spec.Rating
import Verif.Spec.RatingInputs
import Verif.Spec.Reader
import Verif.Spec.Returned
import Verif.Spec.Rhythm
import Verif.Spec.Sections
import Verif.Spec.Shown
import Verif.Spec.Signs
import Verif.Spec.Slider
import Verif.Spec.Spread
import Verif.Spec.Stacking
import Verif.Spec.StarBounds
import Verif.Spec.StarInputs
import Verif.Spec.Steady
import Verif.Spec.StrainCurve
import Verif.Spec.Timing
import Verif.Spec.Turning
import Verif.Spec.Visible
import Verif.Spec.Written
import Verif.Spec.Zero
