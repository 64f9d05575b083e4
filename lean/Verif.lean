import Verif.Lemmas.After
import Verif.Lemmas.Blend
import Verif.Lemmas.Boundary
import Verif.Lemmas.BuckleErr
import Verif.Lemmas.Cert
import Verif.Lemmas.CertCellNS
import Verif.Lemmas.CertCellS
import Verif.Lemmas.CertEdgeB
import Verif.Lemmas.CertEdgeI
import Verif.Lemmas.CertK0
import Verif.Lemmas.CertKG
import Verif.Lemmas.Compare
import Verif.Lemmas.Condition
import Verif.Lemmas.Congr
import Verif.Lemmas.Consist
import Verif.Lemmas.ConsistKG
import Verif.Lemmas.ConsistShear
import Verif.Lemmas.Converge
import Verif.Lemmas.ConvergeShear
import Verif.Lemmas.Cst
import Verif.Lemmas.Divergence
import Verif.Lemmas.EdgeShape
import Verif.Lemmas.Energy
import Verif.Lemmas.EnvK0
import Verif.Lemmas.Example
import Verif.Lemmas.Factors
import Verif.Lemmas.FloatAcc
import Verif.Lemmas.FloatEnv
import Verif.Lemmas.FloatExact
import Verif.Lemmas.FloatFlow
import Verif.Lemmas.FloatGeom
import Verif.Lemmas.FloatInterp
import Verif.Lemmas.FloatK0
import Verif.Lemmas.FloatK0s
import Verif.Lemmas.FloatKG
import Verif.Lemmas.FloatLike
import Verif.Lemmas.FloatMat
import Verif.Lemmas.FloatPos
import Verif.Lemmas.FloatRel
import Verif.Lemmas.FloatSolve
import Verif.Lemmas.FloatStatic
import Verif.Lemmas.FloatUnits
import Verif.Lemmas.FloatUnitsMore
import Verif.Lemmas.FloatUnitsRun
import Verif.Lemmas.FloatUnitsShear
import Verif.Lemmas.FloatUtils
import Verif.Lemmas.GenCellNS
import Verif.Lemmas.GenCellS
import Verif.Lemmas.GenEdgeB
import Verif.Lemmas.GenEdgeI
import Verif.Lemmas.GenK0
import Verif.Lemmas.GenKG
import Verif.Lemmas.Geom
import Verif.Lemmas.GradeCellNS
import Verif.Lemmas.GradeCellS
import Verif.Lemmas.GradeEdgeB
import Verif.Lemmas.GradeEdgeI
import Verif.Lemmas.GradeK0
import Verif.Lemmas.GradeKG
import Verif.Lemmas.Graded
import Verif.Lemmas.Green
import Verif.Lemmas.Grid
import Verif.Lemmas.Guided
import Verif.Lemmas.Hinged
import Verif.Lemmas.IeeeCellNS
import Verif.Lemmas.IeeeCellS
import Verif.Lemmas.IeeeEdgeB
import Verif.Lemmas.IeeeEdgeI
import Verif.Lemmas.IeeeEnv
import Verif.Lemmas.IeeeGeom
import Verif.Lemmas.IeeeK0
import Verif.Lemmas.IeeeK0s
import Verif.Lemmas.IeeeKG
import Verif.Lemmas.IeeeLike
import Verif.Lemmas.IeeeLikeS
import Verif.Lemmas.IeeeLim
import Verif.Lemmas.IeeeMat
import Verif.Lemmas.IeeeNan
import Verif.Lemmas.IeeeNanK0
import Verif.Lemmas.IeeeNanKG
import Verif.Lemmas.IeeeNanRun
import Verif.Lemmas.IeeeRun
import Verif.Lemmas.Interp
import Verif.Lemmas.Interp2
import Verif.Lemmas.Iso
import Verif.Lemmas.K0Edge
import Verif.Lemmas.K0Form
import Verif.Lemmas.K0sCell
import Verif.Lemmas.K0sEdgeForm
import Verif.Lemmas.K0sForm
import Verif.Lemmas.K0sLoop
import Verif.Lemmas.K0sPatch
import Verif.Lemmas.K0sPos
import Verif.Lemmas.KGEdge
import Verif.Lemmas.KGForm
import Verif.Lemmas.KGLin
import Verif.Lemmas.KGSize
import Verif.Lemmas.Korn
import Verif.Lemmas.Mag
import Verif.Lemmas.MagCell
import Verif.Lemmas.MagCellNS
import Verif.Lemmas.MagCellS
import Verif.Lemmas.MagCellSum
import Verif.Lemmas.MagCellT
import Verif.Lemmas.MagEdge
import Verif.Lemmas.MagEnv
import Verif.Lemmas.MagGeom
import Verif.Lemmas.MagK0
import Verif.Lemmas.MagKG
import Verif.Lemmas.MagKGEnv
import Verif.Lemmas.MagKGSum
import Verif.Lemmas.MagPts
import Verif.Lemmas.MagRun
import Verif.Lemmas.MagShear
import Verif.Lemmas.MagSum
import Verif.Lemmas.MagTria
import Verif.Lemmas.Mat
import Verif.Lemmas.Modal
import Verif.Lemmas.ModalPert
import Verif.Lemmas.ModeSpan
import Verif.Lemmas.Modes
import Verif.Lemmas.NearModal
import Verif.Lemmas.Nearby
import Verif.Lemmas.Numbered
import Verif.Lemmas.Parts
import Verif.Lemmas.Pencil
import Verif.Lemmas.PlateMode
import Verif.Lemmas.Reader
import Verif.Lemmas.ShearModes
import Verif.Lemmas.Shift
import Verif.Lemmas.Slope
import Verif.Lemmas.Stable
import Verif.Lemmas.Static
import Verif.Lemmas.StiffCount
import Verif.Lemmas.StiffErr
import Verif.Lemmas.SymPyBoth
import Verif.Lemmas.SymPyCall
import Verif.Lemmas.SymPyMul
import Verif.Lemmas.SymPyPow
import Verif.Lemmas.SymPyPrint
import Verif.Lemmas.SymPyScan
import Verif.Lemmas.SymPySeen
import Verif.Lemmas.SymPyValue
import Verif.Lemmas.Thin
import Verif.Lemmas.Tiles
import Verif.Lemmas.Triang
import Verif.Lemmas.Turn
import Verif.Lemmas.TurnK0s
import Verif.Lemmas.TurnKG
import Verif.Lemmas.TurnSolve
import Verif.Lemmas.Units
import Verif.Lemmas.Utils
import Verif.Lemmas.Volume
import Verif.Lemmas.WF
import Verif.Model.Basic
import Verif.Model.Float
import Verif.Model.FloatInterp
import Verif.Model.FloatRun
import Verif.Model.FloatSession
import Verif.Model.Gen.CellNS
import Verif.Model.Gen.CellS
import Verif.Model.Gen.EdgeB
import Verif.Model.Gen.EdgeI
import Verif.Model.Gen.K0
import Verif.Model.Gen.KG
import Verif.Model.Gen.Map
import Verif.Model.Ieee
import Verif.Model.Interp
import Verif.Model.K0
import Verif.Model.K0s
import Verif.Model.KG
import Verif.Model.Logger
import Verif.Model.Mesh
import Verif.Model.Session
import Verif.Model.SymPy
import Verif.Model.SymPyFull
import Verif.Model.Utils
import Verif.Props.ArrayAlways
import Verif.Props.Bending
import Verif.Props.Blend
import Verif.Props.Bound
import Verif.Props.BoundKG
import Verif.Props.BuckleDouble
import Verif.Props.BuckleWhole
import Verif.Props.Buckling
import Verif.Props.Cases
import Verif.Props.Compare
import Verif.Props.Condition
import Verif.Props.Consist
import Verif.Props.Converge
import Verif.Props.ConvergeCase
import Verif.Props.Cst
import Verif.Props.Double
import Verif.Props.Equilibrium
import Verif.Props.Factors
import Verif.Props.Float
import Verif.Props.FloatModal
import Verif.Props.FloatUnits
import Verif.Props.FloatUtils
import Verif.Props.FmtModal
import Verif.Props.Guided
import Verif.Props.History
import Verif.Props.Ieee
import Verif.Props.Interaction
import Verif.Props.Interp
import Verif.Props.K0Energy
import Verif.Props.K0Geom
import Verif.Props.K0Inv
import Verif.Props.K0Outcome
import Verif.Props.K0s
import Verif.Props.K0sEdge
import Verif.Props.K0sSymm
import Verif.Props.KG
import Verif.Props.Limit
import Verif.Props.Locking
import Verif.Props.Missing
import Verif.Props.Modal
import Verif.Props.Modes
import Verif.Props.Nan
import Verif.Props.Navier
import Verif.Props.Nearby
import Verif.Props.Order
import Verif.Props.Parts
import Verif.Props.Patch
import Verif.Props.Place
import Verif.Props.PlateMode
import Verif.Props.PlateModes
import Verif.Props.Prestress
import Verif.Props.Reader
import Verif.Props.RigidEdge
import Verif.Props.ShearBound
import Verif.Props.ShearBoundCell
import Verif.Props.ShearEdgeMat
import Verif.Props.ShearMat
import Verif.Props.Sizes
import Verif.Props.Slope
import Verif.Props.Stable
import Verif.Props.Stale
import Verif.Props.Static
import Verif.Props.StaticDouble
import Verif.Props.StiffDouble
import Verif.Props.SymPy
import Verif.Props.SymPyFull
import Verif.Props.SymPyInt
import Verif.Props.Thin
import Verif.Props.Turn
import Verif.Props.TurnSolve
import Verif.Props.Twist
import Verif.Props.Units
import Verif.Props.Utils
import Verif.Props.Workflow
import Verif.Spec.Blend
import Verif.Spec.Bound
import Verif.Spec.BoundKG
import Verif.Spec.BuckleDouble
import Verif.Spec.Buckling
import Verif.Spec.Compare
import Verif.Spec.Condition
import Verif.Spec.Consist
import Verif.Spec.Converge
import Verif.Spec.Cst
import Verif.Spec.Equilibrium
import Verif.Spec.Factors
import Verif.Spec.Float
import Verif.Spec.FloatRun
import Verif.Spec.FloatUnits
import Verif.Spec.FmtModal
import Verif.Spec.Geometric
import Verif.Spec.Guided
import Verif.Spec.Ieee
import Verif.Spec.Interaction
import Verif.Spec.Iso
import Verif.Spec.Locking
import Verif.Spec.Mesh
import Verif.Spec.Missing
import Verif.Spec.Modal
import Verif.Spec.Modes
import Verif.Spec.Nearby
import Verif.Spec.Parts
import Verif.Spec.Place
import Verif.Spec.Plate
import Verif.Spec.PlateMode
import Verif.Spec.Polygon
import Verif.Spec.Pure
import Verif.Spec.Shear
import Verif.Spec.ShearBound
import Verif.Spec.ShearEdge
import Verif.Spec.Slope
import Verif.Spec.Smooth
import Verif.Spec.Stable
import Verif.Spec.Stale
import Verif.Spec.StiffBound
import Verif.Spec.SymPy
import Verif.Spec.SymPyExpr
import Verif.Spec.SymPyInt
import Verif.Spec.SymPyPrint
import Verif.Spec.Thin
import Verif.Spec.Triang
import Verif.Spec.Turn
import Verif.Spec.TurnSolve
import Verif.Spec.Units
