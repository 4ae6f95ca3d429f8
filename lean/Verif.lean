import Verif.Lemmas.Accuracy
import Verif.Lemmas.Array
import Verif.Lemmas.BentGrid
import Verif.Lemmas.BentRows
import Verif.Lemmas.Binary
import Verif.Lemmas.Centre
import Verif.Lemmas.Chessboard
import Verif.Lemmas.Cross
import Verif.Lemmas.DotDist
import Verif.Lemmas.DotGrid
import Verif.Lemmas.DotGridCrop
import Verif.Lemmas.DotMedian
import Verif.Lemmas.DotScript
import Verif.Lemmas.Dots
import Verif.Lemmas.DrawnGrid
import Verif.Lemmas.Ellipse
import Verif.Lemmas.Except
import Verif.Lemmas.Fisheye
import Verif.Lemmas.Fit
import Verif.Lemmas.FitUnique
import Verif.Lemmas.FourPointScript
import Verif.Lemmas.FourPoints
import Verif.Lemmas.Grid
import Verif.Lemmas.GridPara
import Verif.Lemmas.GridPhoto
import Verif.Lemmas.Grouping
import Verif.Lemmas.Hdf
import Verif.Lemmas.HdfCreate
import Verif.Lemmas.HdfKey
import Verif.Lemmas.HdfOrder
import Verif.Lemmas.Homography
import Verif.Lemmas.Ideal
import Verif.Lemmas.Image
import Verif.Lemmas.ImageIO
import Verif.Lemmas.InnerMask
import Verif.Lemmas.IntImages
import Verif.Lemmas.IntProfile
import Verif.Lemmas.Json
import Verif.Lemmas.Lattice
import Verif.Lemmas.LeastSquares
import Verif.Lemmas.LineDir
import Verif.Lemmas.LineRows
import Verif.Lemmas.Lines
import Verif.Lemmas.Loop
import Verif.Lemmas.Median
import Verif.Lemmas.Metadata
import Verif.Lemmas.ModelDifference
import Verif.Lemmas.Noise
import Verif.Lemmas.Normalize
import Verif.Lemmas.Num
import Verif.Lemmas.Otsu
import Verif.Lemmas.Path
import Verif.Lemmas.PathRepair
import Verif.Lemmas.Pattern
import Verif.Lemmas.Peak
import Verif.Lemmas.PerspFit
import Verif.Lemmas.Point
import Verif.Lemmas.PolyRows
import Verif.Lemmas.Post
import Verif.Lemmas.ProductSlope
import Verif.Lemmas.Profile
import Verif.Lemmas.Projective
import Verif.Lemmas.Radial
import Verif.Lemmas.RadialFit
import Verif.Lemmas.RankClose
import Verif.Lemmas.Ranking
import Verif.Lemmas.Reorder
import Verif.Lemmas.Repeats
import Verif.Lemmas.Ridge
import Verif.Lemmas.Rounded
import Verif.Lemmas.RoundedMore
import Verif.Lemmas.RoverScript
import Verif.Lemmas.Save
import Verif.Lemmas.Scatter
import Verif.Lemmas.Search
import Verif.Lemmas.Sensitivity
import Verif.Lemmas.Shift
import Verif.Lemmas.ShowsGrid
import Verif.Lemmas.Slope
import Verif.Lemmas.Slopes
import Verif.Lemmas.Sort
import Verif.Lemmas.Spacing
import Verif.Lemmas.StackScript
import Verif.Lemmas.Symmetry
import Verif.Lemmas.SymmetryFit
import Verif.Lemmas.SymmetryUnits
import Verif.Lemmas.Tent
import Verif.Lemmas.Threshold
import Verif.Lemmas.Tilted
import Verif.Lemmas.Transform
import Verif.Lemmas.TwoLevels
import Verif.Lemmas.Undistorted
import Verif.Lemmas.UnwarpScript
import Verif.Lemmas.Vanish
import Verif.Lemmas.VanishPoints
import Verif.Lemmas.Workflow
import Verif.Model.Binary
import Verif.Model.DotScript
import Verif.Model.Dots
import Verif.Model.Ellipse
import Verif.Model.Example
import Verif.Model.Fisheye
import Verif.Model.FourPointScript
import Verif.Model.GridPara
import Verif.Model.Hdf
import Verif.Model.ImageIO
import Verif.Model.IntImages
import Verif.Model.IntProfile
import Verif.Model.LinePattern
import Verif.Model.LineScript
import Verif.Model.Load
import Verif.Model.Metadata
import Verif.Model.Normalize
import Verif.Model.Otsu
import Verif.Model.Path
import Verif.Model.PathRepair
import Verif.Model.Pattern
import Verif.Model.Perspective
import Verif.Model.Post
import Verif.Model.Prep
import Verif.Model.Proc
import Verif.Model.Rounded
import Verif.Model.RoundedMore
import Verif.Model.RoverScript
import Verif.Model.Slopes
import Verif.Model.StackScript
import Verif.Model.Threshold
import Verif.Model.Transform
import Verif.Model.UnwarpScript
import Verif.Model.Util
import Verif.Model.Vanish
import Verif.Model.Video
import Verif.Props.C01
import Verif.Props.C02
import Verif.Props.C04
import Verif.Props.C05
import Verif.Props.C07
import Verif.Props.C100
import Verif.Props.C101
import Verif.Props.C102
import Verif.Props.C103
import Verif.Props.C104
import Verif.Props.C105
import Verif.Props.C106
import Verif.Props.C107
import Verif.Props.C108
import Verif.Props.C109
import Verif.Props.C11
import Verif.Props.C110
import Verif.Props.C111
import Verif.Props.C112
import Verif.Props.C113
import Verif.Props.C114
import Verif.Props.C115
import Verif.Props.C116
import Verif.Props.C117
import Verif.Props.C118
import Verif.Props.C119
import Verif.Props.C12
import Verif.Props.C120
import Verif.Props.C121
import Verif.Props.C122
import Verif.Props.C123
import Verif.Props.C124
import Verif.Props.C125
import Verif.Props.C126
import Verif.Props.C127
import Verif.Props.C128
import Verif.Props.C129
import Verif.Props.C130
import Verif.Props.C131
import Verif.Props.C132
import Verif.Props.C133
import Verif.Props.C134
import Verif.Props.C15
import Verif.Props.C17
import Verif.Props.C19
import Verif.Props.C20
import Verif.Props.C21
import Verif.Props.C22
import Verif.Props.C24
import Verif.Props.C25
import Verif.Props.C26
import Verif.Props.C27
import Verif.Props.C29
import Verif.Props.C32
import Verif.Props.C33
import Verif.Props.C35
import Verif.Props.C39
import Verif.Props.C40
import Verif.Props.C41
import Verif.Props.C42
import Verif.Props.C43
import Verif.Props.C44
import Verif.Props.C45
import Verif.Props.C46
import Verif.Props.C47
import Verif.Props.C48
import Verif.Props.C49
import Verif.Props.C50
import Verif.Props.C51
import Verif.Props.C52
import Verif.Props.C53
import Verif.Props.C54
import Verif.Props.C55
import Verif.Props.C56
import Verif.Props.C57
import Verif.Props.C58
import Verif.Props.C59
import Verif.Props.C60
import Verif.Props.C61
import Verif.Props.C62
import Verif.Props.C63
import Verif.Props.C67
import Verif.Props.C68
import Verif.Props.C69
import Verif.Props.C70
import Verif.Props.C71
import Verif.Props.C72
import Verif.Props.C73
import Verif.Props.C75
import Verif.Props.C76
import Verif.Props.C77
import Verif.Props.C78
import Verif.Props.C79
import Verif.Props.C80
import Verif.Props.C81
import Verif.Props.C82
import Verif.Props.C83
import Verif.Props.C84
import Verif.Props.C85
import Verif.Props.C86
import Verif.Props.C87
import Verif.Props.C88
import Verif.Props.C89
import Verif.Props.C90
import Verif.Props.C91
import Verif.Props.C92
import Verif.Props.C93
import Verif.Props.C94
import Verif.Props.C95
import Verif.Props.C96
import Verif.Props.C97
import Verif.Props.C98
import Verif.Props.C99
import Verif.Py.Array
import Verif.Py.Fit
import Verif.Py.Label
import Verif.Py.Loop
import Verif.Py.Num
import Verif.Spec.Accuracy
import Verif.Spec.BentGrid
import Verif.Spec.Binary
import Verif.Spec.Calibration
import Verif.Spec.Centre
import Verif.Spec.Chessboard
import Verif.Spec.Crop
import Verif.Spec.Cross
import Verif.Spec.Dots
import Verif.Spec.Ellipse
import Verif.Spec.Exposure
import Verif.Spec.Fisheye
import Verif.Spec.FourPoints
import Verif.Spec.Geometry
import Verif.Spec.Grid
import Verif.Spec.GridPhoto
import Verif.Spec.GridPicture
import Verif.Spec.Grouping
import Verif.Spec.Hdf
import Verif.Spec.Ideal
import Verif.Spec.Image
import Verif.Spec.ImageIO
import Verif.Spec.InnerMask
import Verif.Spec.IntImages
import Verif.Spec.IntProfile
import Verif.Spec.Interp
import Verif.Spec.Lattice
import Verif.Spec.LineDir
import Verif.Spec.LineExposure
import Verif.Spec.LineRows
import Verif.Spec.Lines
import Verif.Spec.Metadata
import Verif.Spec.ModelDifference
import Verif.Spec.Motion
import Verif.Spec.Noise
import Verif.Spec.Normalize
import Verif.Spec.Otsu
import Verif.Spec.Path
import Verif.Spec.PathRepair
import Verif.Spec.Pattern
import Verif.Spec.Peak
import Verif.Spec.PerspectiveError
import Verif.Spec.PolyRows
import Verif.Spec.Prep
import Verif.Spec.Profile
import Verif.Spec.Projective
import Verif.Spec.RadialModel
import Verif.Spec.Ranking
import Verif.Spec.Rect
import Verif.Spec.Reorder
import Verif.Spec.Ridge
import Verif.Spec.Rounded
import Verif.Spec.RoundedMore
import Verif.Spec.Rover
import Verif.Spec.Script
import Verif.Spec.ScriptPairs
import Verif.Spec.Selection
import Verif.Spec.Sensitivity
import Verif.Spec.Shift
import Verif.Spec.Slopes
import Verif.Spec.Spacing
import Verif.Spec.StackScript
import Verif.Spec.Symmetry
import Verif.Spec.Threshold
import Verif.Spec.TwoLevels
import Verif.Spec.TwoWays
import Verif.Spec.Undistorted
import Verif.Spec.UnwarpScript
import Verif.Spec.Vanish
import Verif.Spec.Verdict
import Verif.Spec.Workflow
