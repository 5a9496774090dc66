import Mathlib.Data.Rat.Defs

/-!
# Model of `/repo/src/shapes/enums.rs` and of the constant tables in `/repo/src/shapes/*.rs`

GENERATED by `tools/gen_shapes.py` from the Rust source (tables are copied entry by entry). Reference coordinates are
exact rationals (`1.0 / 3.0` is 1/3). A function of the Rust code that indexes a table (`edge_node_id(e, i)` = `TABLE[e][i]`,
which panics out of range) is given here as the table itself, `edgeNodeIds`; kinds without the table have an empty one.
-/
namespace Gemlab

/-- `GeoClass` — enums.rs:84-99. -/
inductive GeoClass where
  | lin | tri | qua | tet | hex
  deriving DecidableEq, Repr

/-- `GeoKind` — enums.rs:116-176. -/
inductive GeoKind where
  | lin2 | lin3 | lin4 | lin5 | tri3 | tri6 | tri10 | tri15 | qua4 | qua8 | qua9 | qua12 | qua16 | qua17 | tet4 | tet10 | tet20 | hex8 | hex20 | hex32
  deriving DecidableEq, Repr

/-- `GeoKind::VALUES` — enums.rs:1467-1493. -/
def GeoKind.values : List GeoKind := [.lin2, .lin3, .lin4, .lin5, .tri3, .tri6, .tri10, .tri15, .qua4, .qua8, .qua9, .qua12, .qua16, .qua17, .tet4, .tet10, .tet20, .hex8, .hex20, .hex32]

/-- `GeoKind::from` — enums.rs:217-246 (`none` is the error). -/
def GeoKind.fromString : String → Option GeoKind
  | "lin2" => some .lin2
  | "lin3" => some .lin3
  | "lin4" => some .lin4
  | "lin5" => some .lin5
  | "tri3" => some .tri3
  | "tri6" => some .tri6
  | "tri10" => some .tri10
  | "tri15" => some .tri15
  | "qua4" => some .qua4
  | "qua8" => some .qua8
  | "qua9" => some .qua9
  | "qua12" => some .qua12
  | "qua16" => some .qua16
  | "qua17" => some .qua17
  | "tet4" => some .tet4
  | "tet10" => some .tet10
  | "tet20" => some .tet20
  | "hex8" => some .hex8
  | "hex20" => some .hex20
  | "hex32" => some .hex32
  | _ => none

/-- `GeoKind::to_string` — enums.rs:249-277. -/
def GeoKind.toStr : GeoKind → String
  | .lin2 => "lin2"
  | .lin3 => "lin3"
  | .lin4 => "lin4"
  | .lin5 => "lin5"
  | .tri3 => "tri3"
  | .tri6 => "tri6"
  | .tri10 => "tri10"
  | .tri15 => "tri15"
  | .qua4 => "qua4"
  | .qua8 => "qua8"
  | .qua9 => "qua9"
  | .qua12 => "qua12"
  | .qua16 => "qua16"
  | .qua17 => "qua17"
  | .tet4 => "tet4"
  | .tet10 => "tet10"
  | .tet20 => "tet20"
  | .hex8 => "hex8"
  | .hex20 => "hex20"
  | .hex32 => "hex32"

/-- `GeoKind::class` — enums.rs:280-308. -/
def GeoKind.classOf : GeoKind → GeoClass
  | .lin2 => .lin
  | .lin3 => .lin
  | .lin4 => .lin
  | .lin5 => .lin
  | .tri3 => .tri
  | .tri6 => .tri
  | .tri10 => .tri
  | .tri15 => .tri
  | .qua4 => .qua
  | .qua8 => .qua
  | .qua9 => .qua
  | .qua12 => .qua
  | .qua16 => .qua
  | .qua17 => .qua
  | .tet4 => .tet
  | .tet10 => .tet
  | .tet20 => .tet
  | .hex8 => .hex
  | .hex20 => .hex
  | .hex32 => .hex

/-- `GeoKind::ndim` — enums.rs:311-339. -/
def GeoKind.ndim : GeoKind → Nat
  | .lin2 => 1
  | .lin3 => 1
  | .lin4 => 1
  | .lin5 => 1
  | .tri3 => 2
  | .tri6 => 2
  | .tri10 => 2
  | .tri15 => 2
  | .qua4 => 2
  | .qua8 => 2
  | .qua9 => 2
  | .qua12 => 2
  | .qua16 => 2
  | .qua17 => 2
  | .tet4 => 3
  | .tet10 => 3
  | .tet20 => 3
  | .hex8 => 3
  | .hex20 => 3
  | .hex32 => 3

/-- `GeoKind::nnode` — enums.rs:342-370. -/
def GeoKind.nnode : GeoKind → Nat
  | .lin2 => 2
  | .lin3 => 3
  | .lin4 => 4
  | .lin5 => 5
  | .tri3 => 3
  | .tri6 => 6
  | .tri10 => 10
  | .tri15 => 15
  | .qua4 => 4
  | .qua8 => 8
  | .qua9 => 9
  | .qua12 => 12
  | .qua16 => 16
  | .qua17 => 17
  | .tet4 => 4
  | .tet10 => 10
  | .tet20 => 20
  | .hex8 => 8
  | .hex20 => 20
  | .hex32 => 32

/-- `GeoKind::nedge` — enums.rs:373-401. -/
def GeoKind.nedge : GeoKind → Nat
  | .lin2 => 0
  | .lin3 => 0
  | .lin4 => 0
  | .lin5 => 0
  | .tri3 => 3
  | .tri6 => 3
  | .tri10 => 3
  | .tri15 => 3
  | .qua4 => 4
  | .qua8 => 4
  | .qua9 => 4
  | .qua12 => 4
  | .qua16 => 4
  | .qua17 => 4
  | .tet4 => 6
  | .tet10 => 6
  | .tet20 => 6
  | .hex8 => 12
  | .hex20 => 12
  | .hex32 => 12

/-- `GeoKind::nface` — enums.rs:404-432. -/
def GeoKind.nface : GeoKind → Nat
  | .lin2 => 0
  | .lin3 => 0
  | .lin4 => 0
  | .lin5 => 0
  | .tri3 => 0
  | .tri6 => 0
  | .tri10 => 0
  | .tri15 => 0
  | .qua4 => 0
  | .qua8 => 0
  | .qua9 => 0
  | .qua12 => 0
  | .qua16 => 0
  | .qua17 => 0
  | .tet4 => 4
  | .tet10 => 4
  | .tet20 => 4
  | .hex8 => 6
  | .hex20 => 6
  | .hex32 => 6

/-- `GeoKind::edge_nnode` — enums.rs:435-463. -/
def GeoKind.edgeNnode : GeoKind → Nat
  | .lin2 => 0
  | .lin3 => 0
  | .lin4 => 0
  | .lin5 => 0
  | .tri3 => 2
  | .tri6 => 3
  | .tri10 => 4
  | .tri15 => 5
  | .qua4 => 2
  | .qua8 => 3
  | .qua9 => 3
  | .qua12 => 4
  | .qua16 => 4
  | .qua17 => 5
  | .tet4 => 2
  | .tet10 => 3
  | .tet20 => 4
  | .hex8 => 2
  | .hex20 => 3
  | .hex32 => 4

/-- `GeoKind::face_nnode` — enums.rs:466-494. -/
def GeoKind.faceNnode : GeoKind → Nat
  | .lin2 => 0
  | .lin3 => 0
  | .lin4 => 0
  | .lin5 => 0
  | .tri3 => 0
  | .tri6 => 0
  | .tri10 => 0
  | .tri15 => 0
  | .qua4 => 0
  | .qua8 => 0
  | .qua9 => 0
  | .qua12 => 0
  | .qua16 => 0
  | .qua17 => 0
  | .tet4 => 3
  | .tet10 => 6
  | .tet20 => 10
  | .hex8 => 4
  | .hex20 => 8
  | .hex32 => 12

/-- `GeoKind::face_nedge` — enums.rs:497-525. -/
def GeoKind.faceNedge : GeoKind → Nat
  | .lin2 => 0
  | .lin3 => 0
  | .lin4 => 0
  | .lin5 => 0
  | .tri3 => 0
  | .tri6 => 0
  | .tri10 => 0
  | .tri15 => 0
  | .qua4 => 0
  | .qua8 => 0
  | .qua9 => 0
  | .qua12 => 0
  | .qua16 => 0
  | .qua17 => 0
  | .tet4 => 3
  | .tet10 => 3
  | .tet20 => 3
  | .hex8 => 4
  | .hex20 => 4
  | .hex32 => 4

/-- `GeoKind::n_interior_nodes` — enums.rs:956-984. -/
def GeoKind.nInteriorNodes : GeoKind → Nat
  | .lin2 => 0
  | .lin3 => 1
  | .lin4 => 2
  | .lin5 => 3
  | .tri3 => 0
  | .tri6 => 0
  | .tri10 => 1
  | .tri15 => 3
  | .qua4 => 0
  | .qua8 => 0
  | .qua9 => 1
  | .qua12 => 0
  | .qua16 => 4
  | .qua17 => 1
  | .tet4 => 0
  | .tet10 => 0
  | .tet20 => 0
  | .hex8 => 0
  | .hex20 => 0
  | .hex32 => 0

/-- `GeoKind::triangulate_ntriangle` — enums.rs:1296-1324. -/
def GeoKind.triangulateNtriangle : GeoKind → Nat
  | .lin2 => 0
  | .lin3 => 0
  | .lin4 => 0
  | .lin5 => 0
  | .tri3 => 1
  | .tri6 => 4
  | .tri10 => 9
  | .tri15 => 16
  | .qua4 => 2
  | .qua8 => 8
  | .qua9 => 8
  | .qua12 => 18
  | .qua16 => 18
  | .qua17 => 32
  | .tet4 => 0
  | .tet10 => 0
  | .tet20 => 0
  | .hex8 => 0
  | .hex20 => 0
  | .hex32 => 0

/-- `GeoKind::triangulate_extra_nnode` — enums.rs:1374-1402. -/
def GeoKind.triangulateExtraNnode : GeoKind → Nat
  | .lin2 => 0
  | .lin3 => 0
  | .lin4 => 0
  | .lin5 => 0
  | .tri3 => 0
  | .tri6 => 0
  | .tri10 => 0
  | .tri15 => 0
  | .qua4 => 0
  | .qua8 => 1
  | .qua9 => 0
  | .qua12 => 4
  | .qua16 => 0
  | .qua17 => 8
  | .tet4 => 0
  | .tet10 => 0
  | .tet20 => 0
  | .hex8 => 0
  | .hex20 => 0
  | .hex32 => 0

/-- `GeoClass::ndim` — enums.rs:103-111. -/
def GeoClass.ndim : GeoClass → Nat
  | .lin => 1 | .tri => 2 | .qua => 2 | .tet => 3 | .hex => 3

/-- `GeoKind::edge_kind` — enums.rs:528-556. -/
def GeoKind.edgeKind : GeoKind → Option GeoKind
  | .lin2 => none
  | .lin3 => none
  | .lin4 => none
  | .lin5 => none
  | .tri3 => some .lin2
  | .tri6 => some .lin3
  | .tri10 => some .lin4
  | .tri15 => some .lin5
  | .qua4 => some .lin2
  | .qua8 => some .lin3
  | .qua9 => some .lin3
  | .qua12 => some .lin4
  | .qua16 => some .lin4
  | .qua17 => some .lin5
  | .tet4 => some .lin2
  | .tet10 => some .lin3
  | .tet20 => some .lin4
  | .hex8 => some .lin2
  | .hex20 => some .lin3
  | .hex32 => some .lin4

/-- `GeoKind::face_kind` — enums.rs:559-587. -/
def GeoKind.faceKind : GeoKind → Option GeoKind
  | .lin2 => none
  | .lin3 => none
  | .lin4 => none
  | .lin5 => none
  | .tri3 => none
  | .tri6 => none
  | .tri10 => none
  | .tri15 => none
  | .qua4 => none
  | .qua8 => none
  | .qua9 => none
  | .qua12 => none
  | .qua16 => none
  | .qua17 => none
  | .tet4 => some .tri3
  | .tet10 => some .tri6
  | .tet20 => some .tri10
  | .hex8 => some .qua4
  | .hex20 => some .qua8
  | .hex32 => some .qua12

/-- `GeoKind::lower_order` — enums.rs:590-618. -/
def GeoKind.lowerOrder : GeoKind → Option GeoKind
  | .lin2 => none
  | .lin3 => some .lin2
  | .lin4 => none
  | .lin5 => some .lin3
  | .tri3 => none
  | .tri6 => some .tri3
  | .tri10 => none
  | .tri15 => some .tri6
  | .qua4 => none
  | .qua8 => some .qua4
  | .qua9 => some .qua4
  | .qua12 => none
  | .qua16 => none
  | .qua17 => some .qua9
  | .tet4 => none
  | .tet10 => some .tet4
  | .tet20 => none
  | .hex8 => none
  | .hex20 => some .hex8
  | .hex32 => none

/-- `GeoKind::vtk_type` — enums.rs:1248-1288. -/
def GeoKind.vtkType : GeoKind → Option Nat
  | .lin2 => some 3
  | .lin3 => some 21
  | .lin4 => some 35
  | .lin5 => none
  | .tri3 => some 5
  | .tri6 => some 22
  | .tri10 => none
  | .tri15 => none
  | .qua4 => some 9
  | .qua8 => some 23
  | .qua9 => some 28
  | .qua12 => none
  | .qua16 => none
  | .qua17 => none
  | .tet4 => some 10
  | .tet10 => some 24
  | .tet20 => none
  | .hex8 => some 12
  | .hex20 => some 25
  | .hex32 => none

/-- `GeoKind::is_lin` — enums.rs:1155-1183. -/
def GeoKind.isLin : GeoKind → Bool
  | .lin2 => true
  | .lin3 => true
  | .lin4 => true
  | .lin5 => true
  | .tri3 => false
  | .tri6 => false
  | .tri10 => false
  | .tri15 => false
  | .qua4 => false
  | .qua8 => false
  | .qua9 => false
  | .qua12 => false
  | .qua16 => false
  | .qua17 => false
  | .tet4 => false
  | .tet10 => false
  | .tet20 => false
  | .hex8 => false
  | .hex20 => false
  | .hex32 => false

/-- `GeoKind::is_tri_or_tet` — enums.rs:1186-1214. -/
def GeoKind.isTriOrTet : GeoKind → Bool
  | .lin2 => false
  | .lin3 => false
  | .lin4 => false
  | .lin5 => false
  | .tri3 => true
  | .tri6 => true
  | .tri10 => true
  | .tri15 => true
  | .qua4 => false
  | .qua8 => false
  | .qua9 => false
  | .qua12 => false
  | .qua16 => false
  | .qua17 => false
  | .tet4 => true
  | .tet10 => true
  | .tet20 => true
  | .hex8 => false
  | .hex20 => false
  | .hex32 => false

/-- `GeoKind::is_qua_or_hex` — enums.rs:1217-1245. -/
def GeoKind.isQuaOrHex : GeoKind → Bool
  | .lin2 => false
  | .lin3 => false
  | .lin4 => false
  | .lin5 => false
  | .tri3 => false
  | .tri6 => false
  | .tri10 => false
  | .tri15 => false
  | .qua4 => true
  | .qua8 => true
  | .qua9 => true
  | .qua12 => true
  | .qua16 => true
  | .qua17 => true
  | .tet4 => false
  | .tet10 => false
  | .tet20 => false
  | .hex8 => true
  | .hex20 => true
  | .hex32 => true

/-- `GeoKind::ksi_min_ksi_del` — enums.rs:1092-1120. -/
def GeoKind.ksiMinKsiDel : GeoKind → ℚ × ℚ
  | .lin2 => (-1, 2)
  | .lin3 => (-1, 2)
  | .lin4 => (-1, 2)
  | .lin5 => (-1, 2)
  | .tri3 => (0, 1)
  | .tri6 => (0, 1)
  | .tri10 => (0, 1)
  | .tri15 => (0, 1)
  | .qua4 => (-1, 2)
  | .qua8 => (-1, 2)
  | .qua9 => (-1, 2)
  | .qua12 => (-1, 2)
  | .qua16 => (-1, 2)
  | .qua17 => (-1, 2)
  | .tet4 => (0, 1)
  | .tet10 => (0, 1)
  | .tet20 => (0, 1)
  | .hex8 => (-1, 2)
  | .hex20 => (-1, 2)
  | .hex32 => (-1, 2)

/-- The table behind `GeoKind::edge_node_id` — enums.rs:683-711; tri3.rs:60-64, tri6.rs:61-65, tri10.rs:58-62, tri15.rs:65-69, qua4.rs:51-56, qua8.rs:53-58, qua9.rs:54-59, qua12.rs:60-65, qua16.rs:60-65, qua17.rs:67-72, tet4.rs:124-131, tet10.rs:124-131, tet20.rs:125-132, hex8.rs:86-99, hex20.rs:87-100, hex32.rs:96-109. -/
def GeoKind.edgeNodeIds : GeoKind → List (List Nat)
  | .lin2 => []
  | .lin3 => []
  | .lin4 => []
  | .lin5 => []
  | .tri3 => [[1, 0], [2, 1], [0, 2]]
  | .tri6 => [[1, 0, 3], [2, 1, 4], [0, 2, 5]]
  | .tri10 => [[1, 0, 6, 3], [2, 1, 7, 4], [0, 2, 8, 5]]
  | .tri15 => [[1, 0, 3, 7, 6], [2, 1, 4, 9, 8], [0, 2, 5, 11, 10]]
  | .qua4 => [[1, 0], [2, 1], [3, 2], [0, 3]]
  | .qua8 => [[1, 0, 4], [2, 1, 5], [3, 2, 6], [0, 3, 7]]
  | .qua9 => [[1, 0, 4], [2, 1, 5], [3, 2, 6], [0, 3, 7]]
  | .qua12 => [[1, 0, 8, 4], [2, 1, 9, 5], [3, 2, 10, 6], [0, 3, 11, 7]]
  | .qua16 => [[1, 0, 8, 4], [2, 1, 9, 5], [3, 2, 10, 6], [0, 3, 11, 7]]
  | .qua17 => [[1, 0, 4, 10, 9], [2, 1, 5, 12, 11], [3, 2, 6, 14, 13], [0, 3, 7, 16, 15]]
  | .tet4 => [[0, 1], [1, 2], [2, 0], [0, 3], [1, 3], [2, 3]]
  | .tet10 => [[0, 1, 4], [1, 2, 5], [2, 0, 6], [0, 3, 7], [1, 3, 8], [2, 3, 9]]
  | .tet20 => [[0, 1, 4, 5], [1, 2, 14, 15], [2, 0, 7, 6], [0, 3, 8, 9], [1, 3, 12, 13], [2, 3, 10, 11]]
  | .hex8 => [[0, 1], [1, 2], [2, 3], [3, 0], [4, 5], [5, 6], [6, 7], [7, 4], [0, 4], [1, 5], [2, 6], [3, 7]]
  | .hex20 => [[0, 1, 8], [1, 2, 9], [2, 3, 10], [3, 0, 11], [4, 5, 12], [5, 6, 13], [6, 7, 14], [7, 4, 15], [0, 4, 16], [1, 5, 17], [2, 6, 18], [3, 7, 19]]
  | .hex32 => [[0, 1, 8, 9], [1, 2, 10, 11], [2, 3, 12, 13], [3, 0, 14, 15], [4, 5, 16, 17], [5, 6, 18, 19], [6, 7, 20, 21], [7, 4, 22, 23], [0, 4, 24, 25], [1, 5, 26, 27], [2, 6, 28, 29], [3, 7, 30, 31]]

/-- The table behind `GeoKind::edge_node_id_inward` — enums.rs:776-804; tri3.rs:67-71, tri6.rs:68-72, tri10.rs:65-69, tri15.rs:72-76, qua4.rs:59-64, qua8.rs:61-66, qua9.rs:62-67, qua12.rs:68-73, qua16.rs:68-73, qua17.rs:75-80, tet4.rs:124-131, tet10.rs:124-131, tet20.rs:125-132, hex8.rs:86-99, hex20.rs:87-100, hex32.rs:96-109. -/
def GeoKind.edgeNodeIdsInward : GeoKind → List (List Nat)
  | .lin2 => []
  | .lin3 => []
  | .lin4 => []
  | .lin5 => []
  | .tri3 => [[0, 1], [1, 2], [2, 0]]
  | .tri6 => [[0, 1, 3], [1, 2, 4], [2, 0, 5]]
  | .tri10 => [[0, 1, 3, 6], [1, 2, 4, 7], [2, 0, 5, 8]]
  | .tri15 => [[0, 1, 3, 6, 7], [1, 2, 4, 8, 9], [2, 0, 5, 10, 11]]
  | .qua4 => [[0, 1], [1, 2], [2, 3], [3, 0]]
  | .qua8 => [[0, 1, 4], [1, 2, 5], [2, 3, 6], [3, 0, 7]]
  | .qua9 => [[0, 1, 4], [1, 2, 5], [2, 3, 6], [3, 0, 7]]
  | .qua12 => [[0, 1, 4, 8], [1, 2, 5, 9], [2, 3, 6, 10], [3, 0, 7, 11]]
  | .qua16 => [[0, 1, 4, 8], [1, 2, 5, 9], [2, 3, 6, 10], [3, 0, 7, 11]]
  | .qua17 => [[0, 1, 4, 9, 10], [1, 2, 5, 11, 12], [2, 3, 6, 13, 14], [3, 0, 7, 15, 16]]
  | .tet4 => [[0, 1], [1, 2], [2, 0], [0, 3], [1, 3], [2, 3]]
  | .tet10 => [[0, 1, 4], [1, 2, 5], [2, 0, 6], [0, 3, 7], [1, 3, 8], [2, 3, 9]]
  | .tet20 => [[0, 1, 4, 5], [1, 2, 14, 15], [2, 0, 7, 6], [0, 3, 8, 9], [1, 3, 12, 13], [2, 3, 10, 11]]
  | .hex8 => [[0, 1], [1, 2], [2, 3], [3, 0], [4, 5], [5, 6], [6, 7], [7, 4], [0, 4], [1, 5], [2, 6], [3, 7]]
  | .hex20 => [[0, 1, 8], [1, 2, 9], [2, 3, 10], [3, 0, 11], [4, 5, 12], [5, 6, 13], [6, 7, 14], [7, 4, 15], [0, 4, 16], [1, 5, 17], [2, 6, 18], [3, 7, 19]]
  | .hex32 => [[0, 1, 8, 9], [1, 2, 10, 11], [2, 3, 12, 13], [3, 0, 14, 15], [4, 5, 16, 17], [5, 6, 18, 19], [6, 7, 20, 21], [7, 4, 22, 23], [0, 4, 24, 25], [1, 5, 26, 27], [2, 6, 28, 29], [3, 7, 30, 31]]

/-- The table behind `GeoKind::face_node_id` — enums.rs:847-875; tet4.rs:134-139, tet10.rs:134-139, tet20.rs:135-140, hex8.rs:102-109, hex20.rs:103-110, hex32.rs:112-119. -/
def GeoKind.faceNodeIds : GeoKind → List (List Nat)
  | .lin2 => []
  | .lin3 => []
  | .lin4 => []
  | .lin5 => []
  | .tri3 => []
  | .tri6 => []
  | .tri10 => []
  | .tri15 => []
  | .qua4 => []
  | .qua8 => []
  | .qua9 => []
  | .qua12 => []
  | .qua16 => []
  | .qua17 => []
  | .tet4 => [[0, 3, 2], [0, 1, 3], [0, 2, 1], [1, 2, 3]]
  | .tet10 => [[0, 3, 2, 7, 9, 6], [0, 1, 3, 4, 8, 7], [0, 2, 1, 6, 5, 4], [1, 2, 3, 5, 9, 8]]
  | .tet20 => [[0, 3, 2, 8, 11, 7, 9, 10, 6, 16], [0, 1, 3, 4, 12, 9, 5, 13, 8, 17], [0, 2, 1, 6, 15, 5, 7, 14, 4, 18], [1, 2, 3, 14, 10, 13, 15, 11, 12, 19]]
  | .hex8 => [[0, 4, 7, 3], [1, 2, 6, 5], [0, 1, 5, 4], [2, 3, 7, 6], [0, 3, 2, 1], [4, 5, 6, 7]]
  | .hex20 => [[0, 4, 7, 3, 16, 15, 19, 11], [1, 2, 6, 5, 9, 18, 13, 17], [0, 1, 5, 4, 8, 17, 12, 16], [2, 3, 7, 6, 10, 19, 14, 18], [0, 3, 2, 1, 11, 10, 9, 8], [4, 5, 6, 7, 12, 13, 14, 15]]
  | .hex32 => [[0, 4, 7, 3, 24, 23, 31, 14, 25, 22, 30, 15], [1, 2, 6, 5, 10, 28, 19, 27, 11, 29, 18, 26], [0, 1, 5, 4, 8, 26, 17, 25, 9, 27, 16, 24], [2, 3, 7, 6, 12, 30, 21, 29, 13, 31, 20, 28], [0, 3, 2, 1, 15, 13, 11, 9, 14, 12, 10, 8], [4, 5, 6, 7, 16, 18, 20, 22, 17, 19, 21, 23]]

/-- The table behind `GeoKind::face_edge_node_id` — enums.rs:925-953; tet4.rs:142-147, tet10.rs:142-147, tet20.rs:143-148, hex8.rs:112-119, hex20.rs:113-120, hex32.rs:122-129. -/
def GeoKind.faceEdgeNodeIds : GeoKind → List (List (List Nat))
  | .lin2 => []
  | .lin3 => []
  | .lin4 => []
  | .lin5 => []
  | .tri3 => []
  | .tri6 => []
  | .tri10 => []
  | .tri15 => []
  | .qua4 => []
  | .qua8 => []
  | .qua9 => []
  | .qua12 => []
  | .qua16 => []
  | .qua17 => []
  | .tet4 => [[[0, 3], [3, 2], [2, 0]], [[0, 1], [1, 3], [3, 0]], [[0, 2], [2, 1], [1, 0]], [[1, 2], [2, 3], [3, 1]]]
  | .tet10 => [[[0, 3, 7], [3, 2, 9], [2, 0, 6]], [[0, 1, 4], [1, 3, 8], [3, 0, 7]], [[0, 2, 6], [2, 1, 5], [1, 0, 4]], [[1, 2, 5], [2, 3, 9], [3, 1, 8]]]
  | .tet20 => [[[0, 3, 8, 9], [3, 2, 11, 10], [2, 0, 7, 6]], [[0, 1, 4, 5], [1, 3, 12, 13], [3, 0, 9, 8]], [[0, 2, 6, 7], [2, 1, 15, 14], [1, 0, 5, 4]], [[1, 2, 14, 15], [2, 3, 10, 11], [3, 1, 13, 12]]]
  | .hex8 => [[[0, 4], [4, 7], [7, 3], [3, 0]], [[1, 2], [2, 6], [6, 5], [5, 1]], [[0, 1], [1, 5], [5, 4], [4, 0]], [[2, 3], [3, 7], [7, 6], [6, 2]], [[0, 3], [3, 2], [2, 1], [1, 0]], [[4, 5], [5, 6], [6, 7], [7, 4]]]
  | .hex20 => [[[0, 4, 16], [4, 7, 15], [7, 3, 19], [3, 0, 11]], [[1, 2, 9], [2, 6, 18], [6, 5, 13], [5, 1, 17]], [[0, 1, 8], [1, 5, 17], [5, 4, 12], [4, 0, 16]], [[2, 3, 10], [3, 7, 19], [7, 6, 14], [6, 2, 18]], [[0, 3, 11], [3, 2, 10], [2, 1, 9], [1, 0, 8]], [[4, 5, 12], [5, 6, 13], [6, 7, 14], [7, 4, 15]]]
  | .hex32 => [[[0, 4, 24, 25], [4, 7, 23, 22], [7, 3, 31, 30], [3, 0, 14, 15]], [[1, 2, 10, 11], [2, 6, 28, 29], [6, 5, 19, 18], [5, 1, 27, 26]], [[0, 1, 8, 9], [1, 5, 26, 27], [5, 4, 17, 16], [4, 0, 25, 24]], [[2, 3, 12, 13], [3, 7, 30, 31], [7, 6, 21, 20], [6, 2, 29, 28]], [[0, 3, 15, 14], [3, 2, 13, 12], [2, 1, 11, 10], [1, 0, 9, 8]], [[4, 5, 16, 17], [5, 6, 18, 19], [6, 7, 20, 21], [7, 4, 22, 23]]]

/-- The table behind `GeoKind::interior_node` — enums.rs:990-1018; lin3.rs:38-38, lin4.rs:37-37, lin5.rs:39-39, tri10.rs:85-85, tri15.rs:97-97, qua9.rs:82-82, qua16.rs:95-95, qua17.rs:103-103. -/
def GeoKind.interiorNodes : GeoKind → List Nat
  | .lin2 => []
  | .lin3 => [2]
  | .lin4 => [2, 3]
  | .lin5 => [2, 3, 4]
  | .tri3 => []
  | .tri6 => []
  | .tri10 => [9]
  | .tri15 => [12, 13, 14]
  | .qua4 => []
  | .qua8 => []
  | .qua9 => [8]
  | .qua12 => []
  | .qua16 => [12, 13, 14, 15]
  | .qua17 => [8]
  | .tet4 => []
  | .tet10 => []
  | .tet20 => []
  | .hex8 => []
  | .hex20 => []
  | .hex32 => []

/-- The table behind `GeoKind::reference_coords` — enums.rs:1049-1077; lin2.rs:30-33, lin3.rs:32-36, lin4.rs:30-35, lin5.rs:31-37, tri3.rs:74-78, tri6.rs:75-82, tri10.rs:72-83, tri15.rs:79-95, qua4.rs:67-72, qua8.rs:69-78, qua9.rs:70-80, qua12.rs:76-89, qua16.rs:76-93, qua17.rs:83-101, tet4.rs:150-155, tet10.rs:150-161, tet20.rs:151-176, hex8.rs:122-131, hex20.rs:123-148, hex32.rs:132-169. -/
def GeoKind.referenceCoords : GeoKind → List (List ℚ)
  | .lin2 => [[-1], [1]]
  | .lin3 => [[-1], [1], [0]]
  | .lin4 => [[-1], [1], [-1/3], [1/3]]
  | .lin5 => [[-1], [1], [0], [-1/2], [1/2]]
  | .tri3 => [[0, 0], [1, 0], [0, 1]]
  | .tri6 => [[0, 0], [1, 0], [0, 1], [1/2, 0], [1/2, 1/2], [0, 1/2]]
  | .tri10 => [[0, 0], [1, 0], [0, 1], [1/3, 0], [2/3, 1/3], [0, 2/3], [2/3, 0], [1/3, 2/3], [0, 1/3], [1/3, 1/3]]
  | .tri15 => [[0, 0], [1, 0], [0, 1], [1/2, 0], [1/2, 1/2], [0, 1/2], [1/4, 0], [3/4, 0], [3/4, 1/4], [1/4, 3/4], [0, 3/4], [0, 1/4], [1/4, 1/4], [1/2, 1/4], [1/4, 1/2]]
  | .qua4 => [[-1, -1], [1, -1], [1, 1], [-1, 1]]
  | .qua8 => [[-1, -1], [1, -1], [1, 1], [-1, 1], [0, -1], [1, 0], [0, 1], [-1, 0]]
  | .qua9 => [[-1, -1], [1, -1], [1, 1], [-1, 1], [0, -1], [1, 0], [0, 1], [-1, 0], [0, 0]]
  | .qua12 => [[-1, -1], [1, -1], [1, 1], [-1, 1], [-1/3, -1], [1, -1/3], [1/3, 1], [-1, 1/3], [1/3, -1], [1, 1/3], [-1/3, 1], [-1, -1/3]]
  | .qua16 => [[-1, -1], [1, -1], [1, 1], [-1, 1], [-1/3, -1], [1, -1/3], [1/3, 1], [-1, 1/3], [1/3, -1], [1, 1/3], [-1/3, 1], [-1, -1/3], [-1/3, -1/3], [1/3, -1/3], [1/3, 1/3], [-1/3, 1/3]]
  | .qua17 => [[-1, -1], [1, -1], [1, 1], [-1, 1], [0, -1], [1, 0], [0, 1], [-1, 0], [0, 0], [-1/2, -1], [1/2, -1], [1, -1/2], [1, 1/2], [1/2, 1], [-1/2, 1], [-1, 1/2], [-1, -1/2]]
  | .tet4 => [[0, 0, 0], [1, 0, 0], [0, 1, 0], [0, 0, 1]]
  | .tet10 => [[0, 0, 0], [1, 0, 0], [0, 1, 0], [0, 0, 1], [1/2, 0, 0], [1/2, 1/2, 0], [0, 1/2, 0], [0, 0, 1/2], [1/2, 0, 1/2], [0, 1/2, 1/2]]
  | .tet20 => [[0, 0, 0], [1, 0, 0], [0, 1, 0], [0, 0, 1], [1/3, 0, 0], [2/3, 0, 0], [0, 1/3, 0], [0, 2/3, 0], [0, 0, 1/3], [0, 0, 2/3], [0, 2/3, 1/3], [0, 1/3, 2/3], [2/3, 0, 1/3], [1/3, 0, 2/3], [2/3, 1/3, 0], [1/3, 2/3, 0], [0, 1/3, 1/3], [1/3, 0, 1/3], [1/3, 1/3, 0], [1/3, 1/3, 1/3]]
  | .hex8 => [[-1, -1, -1], [1, -1, -1], [1, 1, -1], [-1, 1, -1], [-1, -1, 1], [1, -1, 1], [1, 1, 1], [-1, 1, 1]]
  | .hex20 => [[-1, -1, -1], [1, -1, -1], [1, 1, -1], [-1, 1, -1], [-1, -1, 1], [1, -1, 1], [1, 1, 1], [-1, 1, 1], [0, -1, -1], [1, 0, -1], [0, 1, -1], [-1, 0, -1], [0, -1, 1], [1, 0, 1], [0, 1, 1], [-1, 0, 1], [-1, -1, 0], [1, -1, 0], [1, 1, 0], [-1, 1, 0]]
  | .hex32 => [[-1, -1, -1], [1, -1, -1], [1, 1, -1], [-1, 1, -1], [-1, -1, 1], [1, -1, 1], [1, 1, 1], [-1, 1, 1], [-1/3, -1, -1], [1/3, -1, -1], [1, -1/3, -1], [1, 1/3, -1], [1/3, 1, -1], [-1/3, 1, -1], [-1, 1/3, -1], [-1, -1/3, -1], [-1/3, -1, 1], [1/3, -1, 1], [1, -1/3, 1], [1, 1/3, 1], [1/3, 1, 1], [-1/3, 1, 1], [-1, 1/3, 1], [-1, -1/3, 1], [-1, -1, -1/3], [-1, -1, 1/3], [1, -1, -1/3], [1, -1, 1/3], [1, 1, -1/3], [1, 1, 1/3], [-1, 1, -1/3], [-1, 1, 1/3]]

/-- The table behind `GeoKind::triangulate_triangle_nodes` — enums.rs:1337-1366; tri3.rs:81-83, tri6.rs:85-90, tri10.rs:88-98, tri15.rs:100-117, qua4.rs:75-78, qua8.rs:81-90, qua9.rs:85-94, qua12.rs:92-111, qua16.rs:98-117, qua17.rs:106-139. -/
def GeoKind.triangulateTriangles : GeoKind → List (List Nat)
  | .lin2 => []
  | .lin3 => []
  | .lin4 => []
  | .lin5 => []
  | .tri3 => [[0, 1, 2]]
  | .tri6 => [[0, 3, 5], [3, 4, 5], [3, 1, 4], [5, 4, 2]]
  | .tri10 => [[0, 3, 8], [3, 9, 8], [3, 6, 9], [6, 4, 9], [6, 1, 4], [8, 9, 5], [9, 7, 5], [9, 4, 7], [5, 7, 2]]
  | .tri15 => [[0, 6, 11], [6, 12, 11], [6, 3, 12], [3, 13, 12], [3, 7, 13], [7, 8, 13], [7, 1, 8], [11, 12, 5], [12, 14, 5], [12, 13, 14], [13, 4, 14], [13, 8, 4], [5, 14, 10], [14, 9, 10], [14, 4, 9], [10, 9, 2]]
  | .qua4 => [[0, 1, 3], [1, 2, 3]]
  | .qua8 => [[0, 4, 7], [4, 8, 7], [4, 1, 8], [1, 5, 8], [7, 8, 3], [8, 6, 3], [8, 5, 6], [5, 2, 6]]
  | .qua9 => [[0, 4, 7], [4, 8, 7], [4, 1, 8], [1, 5, 8], [7, 8, 3], [8, 6, 3], [8, 5, 6], [5, 2, 6]]
  | .qua12 => [[0, 4, 11], [4, 12, 11], [4, 8, 12], [8, 13, 12], [8, 1, 13], [1, 5, 13], [11, 12, 7], [12, 15, 7], [12, 13, 15], [13, 14, 15], [13, 5, 14], [5, 9, 14], [7, 15, 3], [15, 10, 3], [15, 14, 10], [14, 6, 10], [14, 9, 6], [9, 2, 6]]
  | .qua16 => [[0, 4, 11], [4, 12, 11], [4, 8, 12], [8, 13, 12], [8, 1, 13], [1, 5, 13], [11, 12, 7], [12, 15, 7], [12, 13, 15], [13, 14, 15], [13, 5, 14], [5, 9, 14], [7, 15, 3], [15, 10, 3], [15, 14, 10], [14, 6, 10], [14, 9, 6], [9, 2, 6]]
  | .qua17 => [[0, 9, 16], [9, 17, 16], [9, 4, 17], [4, 21, 17], [4, 10, 21], [10, 18, 21], [10, 1, 18], [1, 11, 18], [16, 17, 7], [17, 24, 7], [17, 21, 24], [21, 8, 24], [21, 18, 8], [18, 22, 8], [18, 11, 22], [11, 5, 22], [7, 24, 15], [24, 20, 15], [24, 8, 20], [8, 23, 20], [8, 22, 23], [22, 19, 23], [22, 5, 19], [5, 12, 19], [15, 20, 3], [20, 14, 3], [20, 23, 14], [23, 6, 14], [23, 19, 6], [19, 13, 6], [19, 12, 13], [12, 2, 13]]
  | .tet4 => []
  | .tet10 => []
  | .tet20 => []
  | .hex8 => []
  | .hex20 => []
  | .hex32 => []

/-- The table behind `GeoKind::triangulate_extra_coords` — enums.rs:1435-1464; qua8.rs:93-95, qua12.rs:114-119, qua17.rs:142-151. -/
def GeoKind.triangulateExtraCoords : GeoKind → List (List ℚ)
  | .lin2 => []
  | .lin3 => []
  | .lin4 => []
  | .lin5 => []
  | .tri3 => []
  | .tri6 => []
  | .tri10 => []
  | .tri15 => []
  | .qua4 => []
  | .qua8 => [[0, 0]]
  | .qua9 => []
  | .qua12 => [[-1/3, -1/3], [1/3, -1/3], [1/3, 1/3], [-1/3, 1/3]]
  | .qua16 => []
  | .qua17 => [[-1/2, -1/2], [1/2, -1/2], [1/2, 1/2], [-1/2, 1/2], [0, -1/2], [1/2, 0], [0, 1/2], [-1/2, 0]]
  | .tet4 => []
  | .tet10 => []
  | .tet20 => []
  | .hex8 => []
  | .hex20 => []
  | .hex32 => []

/-- `HEX_EDGE_TO_FACE` — enums.rs:1497-1510. -/
def hexEdgeToFace : List (List Nat) := [[2, 4], [1, 4], [3, 4], [0, 4], [2, 5], [1, 5], [3, 5], [0, 5], [0, 2], [1, 2], [1, 3], [0, 3]]

end Gemlab
