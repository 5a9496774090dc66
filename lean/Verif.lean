import Verif.Props.GraphUnd
import Verif.Props.GraphDir
import Verif.Props.Shapes
import Verif.Props.Mesh
import Verif.Props.Geometry
import Verif.Props.Geometry2
import Verif.Props.GridSearch
import Verif.Props.Features
import Verif.Props.FeaturesQueries
import Verif.Props.FeaturesPairs
import Verif.Props.AnyPath
import Verif.Props.Join
import Verif.Props.Overlap
import Verif.Props.Scratchpad
import Verif.Props.MeshPad
import Verif.Props.Integ
import Verif.Props.Integ2
import Verif.Props.Integ3
import Verif.Props.Integ4
import Verif.Props.Gauss
import Verif.Props.MeshText
import Verif.Props.GridCells
import Verif.Props.Block
import Verif.Props.Block2
import Verif.Props.Block3
import Verif.Props.Block4
import Verif.Props.Block5
import Verif.Props.Convert2d
import Verif.Props.Recovery
import Verif.Props.TriSurface
import Verif.Props.TriSurface2
import Verif.Props.Paraview
import Verif.Props.Normals
import Verif.Props.Normals2
import Verif.Props.GraphConv
import Verif.Props.Rings
import Verif.Props.JoinExact
import Verif.Props.Rectangle
import Verif.Props.DisksFit
import Verif.Props.DisksExample
import Verif.Props.FromBlocks
import Verif.Props.FromBlocksExample
import Verif.Props.AnalyticalTri3
import Verif.Props.AnalyticalTet4
import Verif.Props.AnalyticalQua
import Verif.Props.AnalyticalDomain
import Verif.Props.Unstructured
import Verif.Props.UnstructuredPlc
import Verif.Props.UnstructuredPlc2
import Verif.Props.UnstructuredExample
import Verif.Props.UnstructuredRing
import Verif.Props.UnstructuredRing2
import Verif.Props.UnstructuredRing3
import Verif.Props.UnstructuredRingExample
import Verif.Props.UnstructuredTight
import Verif.Props.Draw
import Verif.Props.Closed3
import Verif.Props.Divergence5
import Verif.Spec.PatchTest
import Verif.Proofs.PatchDegree
import Verif.Proofs.PatchCell
import Verif.Props.PatchTest
import Verif.Props.PatchTest2
import Verif.Props.PatchTest3
import Verif.Model.Check
import Verif.Spec.Check
import Verif.Props.Check
import Verif.Model.DrawMarks
import Verif.Spec.DrawMarks
import Verif.Props.DrawMarks
import Verif.Props.DrawMarks2
import Verif.Props.DrawMarks3
import Verif.Props.DrawMarks4
import Verif.Props.DrawMarks5
import Verif.Props.DrawAll
import Verif.Spec.Winding
import Verif.Proofs.Winding
import Verif.Props.Winding
import Verif.Props.Winding2
import Verif.Proofs.OneToOne
import Verif.Props.OneToOne
import Verif.Props.OneToOne2
import Verif.Props.OneToOne3
import Verif.Model.MeshJson
import Verif.Spec.Json
import Verif.Spec.Json2
import Verif.Proofs.Json
import Verif.Proofs.Json2
import Verif.Proofs.Json3
import Verif.Proofs.Json4
import Verif.Props.Json
import Verif.Props.Json2
import Verif.Model.Programs
import Verif.Spec.Programs
import Verif.Props.Programs
import Verif.Props.Programs2
import Verif.Props.Programs3
import Verif.Model.Reports
import Verif.Props.Reports
import Verif.Props.Reports2
import Verif.Props.Reports3
import Verif.Props.Reports4
import Verif.Props.Reports5
import Verif.Model.DrawShape
import Verif.Spec.DrawShape
import Verif.Props.DrawShape
import Verif.Model.DrawGrids
import Verif.Spec.DrawGrids
import Verif.Props.DrawGrids
import Verif.Model.DrawGraph
import Verif.Spec.DrawGraph
import Verif.Props.DrawGraph
import Verif.Spec.Piercing
import Verif.Proofs.Piercing
import Verif.Props.Piercing
import Verif.Props.Piercing2
import Verif.Props.Piercing3
import Verif.Spec.Rounding
import Verif.Model.Rounded
import Verif.Proofs.Rounding
import Verif.Proofs.Rounded
import Verif.Proofs.Rounded2
import Verif.Props.Rounded
import Verif.Props.Rounded2
import Verif.Spec.CuthillMckee
import Verif.Proofs.CuthillMckee
import Verif.Proofs.CuthillMckee2
import Verif.Proofs.CuthillMckee3
import Verif.Props.CuthillMckee
import Verif.Props.RenumberFeatures
import Verif.Model.RoundedTriangle
import Verif.Proofs.RoundedTriangle
import Verif.Props.RoundedTriangle
import Verif.Props.RoundedTriangle2
import Verif.Model.RoundedTetrahedron
import Verif.Proofs.RoundedTetrahedron
import Verif.Props.RoundedTetrahedron
import Verif.Props.RoundedTetrahedron2
import Verif.Spec.RoundedNumbers
import Verif.Proofs.GraphDirRounded
import Verif.Props.GraphDirRounded
import Verif.Spec.RigidMotion
import Verif.Proofs.RigidMotion
import Verif.Props.RigidMotion
import Verif.Props.RigidMotion2
import Verif.Model.RoundedCells
import Verif.Spec.RoundedCells
import Verif.Proofs.RoundedCells
import Verif.Proofs.RoundedCells2
import Verif.Proofs.RoundedCells3
import Verif.Proofs.RoundedCells4
import Verif.Props.RoundedCells
import Verif.Props.RoundedCells2
import Verif.Props.RoundedCells3
import Verif.Spec.Definite
import Verif.Proofs.DefiniteTables
import Verif.Proofs.DefiniteTables2
import Verif.Proofs.Definite
import Verif.Proofs.Definite2
import Verif.Props.Definite
import Verif.Props.Definite2
import Verif.Spec.InverseMap
import Verif.Proofs.InverseMap
import Verif.Props.InverseMap
import Verif.Proofs.InverseQua4
import Verif.Props.InverseQua4
import Verif.Props.InverseExamples
import Verif.Spec.Scaling
import Verif.Proofs.Scaling
import Verif.Props.Scaling
import Verif.Props.Scaling2
import Verif.Spec.Renumber
import Verif.Proofs.RenumberTables
import Verif.Proofs.Renumber
import Verif.Proofs.Renumber2
import Verif.Props.Renumber
import Verif.Props.Renumber2
import Verif.Spec.Exactness
import Verif.Proofs.Exactness
import Verif.Proofs.Exactness2
import Verif.Props.Exactness
import Verif.Props.Exactness2
import Verif.Props.Exactness3
import Verif.Props.Exactness4
import Verif.Props.Exactness5
