import Verif.Model.Index2D
import Verif.Model.Index3D

/-! # The crate's own randomised tests

`morton_index_2d.rs` 922-1873 and `morton_index_3d.rs` 982-1938: the test functions that draw cells at random, as
programs over the drawn cells. `get_test_quadrants` and `get_test_octants` can return any list of the wanted length (the
latter only of the octants `Zero` to `Three`).
Both files define the same functions inside the macros `test_fixed_depth!`, `test_static!`, `test_dynamic!` and
`test_conversions!`; they differ in the cell type, a few constants and the list of orderings, which are arguments here.
A test passes if the program returns `ok ()`. The message of an `assert!` is built only after it has failed and is left out. -/

namespace MortonRs

open MortonIndex VariableDepthMortonIndex

/-- `assert!` and `assert_eq!`; `morton_index_2d.rs` 946, 988. -/
def assertThat (b : Bool) : Res Unit := if b then .ok () else .error .panic

/-- `#[should_panic]`; `morton_index_2d.rs` 1025. A panic of any kind counts; undefined behaviour and the other
faults do not. -/
def shouldPanic {α : Type} : Res α → Res Unit
  | .error .panic => .ok ()
  | .error .overflow => .ok ()
  | .error .unwrap => .ok ()
  | .error .indexOutOfBounds => .ok ()
  | _ => .error .panic

/-- The derived `==` of `Option<M>` (`morton_index_2d.rs` 1222). -/
def optionEq {M : Type} [RustOrd M] : Option M → Option M → Bool
  | none, none => true
  | some a, some b => RustOrd.eq a b
  | _, _ => false

/-- What a test calls on the type given as `$typename`: `try_from(&[Cell])`, `try_from([Cell; N])`, `default()` and
`cells().collect::<Vec<_>>()` (`morton_index_2d.rs` 945, 955, 971, 981). -/
structure Tested (M Cell : Type) where
  tryFrom : List Cell → Res (Except Error M)
  tryFromArray : List Cell → Res (Except Error M)
  default : M
  cells : M → Res (List Cell)

namespace Tested

variable {M N Cell : Type} [DecidableEq Cell]

/-- `$typename::try_from(quadrants.as_slice()).expect(..)`; `morton_index_2d.rs` 955, 956. -/
def build (t : Tested M Cell) (cells : List Cell) : Res M := do unwrapResult (← t.tryFrom cells)

/-- `for (level, expected) in quadrants.iter().enumerate() { assert_eq!(*expected, idx.get_cell_at_level(level)) }`;
`morton_index_2d.rs` 958-960. -/
def checkCells (c : Cfg) [MortonIndex M Cell] (idx : M) (cells : List Cell) : Res Unit :=
  forEnum cells () fun level expected _ => do assertThat (decide (expected = (← getCellAtLevel c idx level)))

/-! ## Tests of all index types -/

/-- `from_quadrants`, `from_even_number_of_quadrants`, `from_odd_number_of_quadrants`, static
`from_fewer_quadrants_than_max_depth`; `morton_index_2d.rs` 953-961, 1121-1129, 1155-1163, 1421-1429, 1432-1440;
`morton_index_3d.rs` 1014-1022, 1180-1188, 1209-1217, 1220-1226, 1487-1495, 1498-1506. -/
def fromCells (c : Cfg) [MortonIndex M Cell] (t : Tested M Cell) (cells : List Cell) : Res Unit := do
  let idx ← t.build cells
  assertThat (decide (cells.length = depth idx))
  checkCells c idx cells

/-- `from_too_many_quadrants_fails`; `morton_index_2d.rs` 985-989, 1148-1152; `morton_index_3d.rs` 1041-1045,
1202-1206. -/
def tooMany (t : Tested M Cell) (cells : List Cell) : Res Unit := do
  match ← t.tryFrom cells with
  | .ok _ => .error .panic
  | .error _ => .ok ()

/-- `set_cell`; `morton_index_2d.rs` 1006-1022, 1166-1176, 1459-1470; `morton_index_3d.rs` 1062-1078, 1229-1239,
1520-1531. `start` is the index the test writes into. -/
def setCells (c : Cfg) [MortonIndex M Cell] (start : Res M) (levels : Nat) (cells : List Cell) : Res Unit := do
  let idx ← start
  let idx ← forRange 0 levels idx fun level idx => do setCellAtLevel c idx level (← index cells level)
  forRange 0 levels () fun level _ => do
    assertThat (decide ((← index cells level) = (← getCellAtLevel c idx level)))

/-- `set_cell_oob_panics`; `morton_index_2d.rs` 1026-1029, 1180-1185, 1474-1479; `morton_index_3d.rs` 1082-1085,
1243-1248, 1535-1540. -/
def setOutOfRange (c : Cfg) [MortonIndex M Cell] (t : Tested M Cell) (level : Nat) (cell : Cell) : Res Unit :=
  shouldPanic (setCellAtLevel c t.default level cell)

/-- `cells_iter`; `morton_index_2d.rs` 1032-1038, 1188-1194, 1482-1488; `morton_index_3d.rs` 1088-1094, 1251-1257,
1543-1549. -/
def cellsIter (t : Tested M Cell) (cells : List Cell) : Res Unit := do
  let idx ← t.build cells
  assertThat (decide (cells = (← t.cells idx)))

/-- The indices the test `ordering` draws; `morton_index_2d.rs` 1043-1049, 1292-1299, 1594-1600. -/
def buildAll (t : Tested M Cell) (draws : List (List Cell)) : Res (List M) := draws.mapM t.build

/-- The inner loop of `ordering`; `morton_index_2d.rs` 1059-1069. -/
def checkPairs [RustOrd Cell] (c : Cfg) : List (Cell × Cell) → Res Unit
  | [] => .ok ()
  | (cell_low, cell_high) :: rest => do
    if ← RustOrd.lt c cell_low cell_high then .ok ()
    else
      assertThat (← RustOrd.le c cell_low cell_high)
      checkPairs c rest

/-- `ordering` after `indices.sort()`; `morton_index_2d.rs` 1041-1071, 1289-1321, 1592-1622; `morton_index_3d.rs`
1097-1127, 1352-1384, 1650-1680. The two iterators are run to their ends before they are zipped. -/
def checkSorted [RustOrd Cell] (c : Cfg) (t : Tested M Cell) (indices : List M) : Res Unit :=
  forRange 0 (indices.length - 1) () fun idx _ => do
    let i ← index indices idx
    let j ← index indices (idx + 1)
    checkPairs c ((← t.cells i).zip (← t.cells j))

/-- `roundtrip_grid_index`, `.._with_odd_levels`, `.._with_one_level`; `morton_index_2d.rs` 1074-1088, 1324-1340,
1343-1365, 1368-1384, 1625-1639, 1642-1656; `morton_index_3d.rs` 1130-1147, 1387-1406, 1409-1428, 1431-1450,
1683-1700, 1703-1720. The 2D tests write the two orderings out one after the other. -/
def gridRoundTrip {G O : Type} [RustOrd M] (t : Tested M Cell) (toGrid : M → O → Res G) (fromGrid : G → O → Res M)
    (orderings : List O) (cells : List Cell) : Res Unit := do
  let idx ← t.build cells
  orderings.forM fun o => do
    let grid_index ← toGrid idx o
    let roundtrip_idx ← fromGrid grid_index o
    assertThat (RustOrd.eq idx roundtrip_idx)

/-- `inverted`; `morton_index_2d.rs` 1091-1101, 1387-1403, 1659-1675; `morton_index_3d.rs` 1150-1160, 1453-1469,
1723-1739. One round of the loop. -/
def invertedOnce (c : Cfg) [MortonIndex M Cell] [RustOrd M] (t : Tested M Cell) (cells : List Cell) : Res Unit := do
  let inv_cells := cells.reverse
  let idx ← t.build cells
  let expected_inv_idx ← t.build inv_cells
  assertThat (RustOrd.eq (← inverted c idx) expected_inv_idx)

/-- `inverted` with all rounds; `morton_index_2d.rs` 1391-1403, 1663-1675; `morton_index_3d.rs` 1457-1469, 1727-1739. -/
def invertedAll (c : Cfg) [MortonIndex M Cell] [RustOrd M] (t : Tested M Cell) (draws : List (List Cell)) : Res Unit :=
  draws.forM (invertedOnce c t)

/-! ## Tests of fixed depth indices -/

/-- `default`; `morton_index_2d.rs` 944-950; `morton_index_3d.rs` 1005-1011. -/
def fixedDefault (c : Cfg) [MortonIndex M Cell] (t : Tested M Cell) (max_levels : Nat) (zero : Cell) : Res Unit := do
  assertThat (decide (max_levels = depth t.default))
  forRange 0 max_levels () fun level _ => do
    assertThat (decide (zero = (← getCellAtLevel c t.default level)))

/-- `from_quadrants_array`; `morton_index_2d.rs` 964-982; `morton_index_3d.rs` 1025-1038. -/
def fixedFromArray (c : Cfg) (t : Tested M Cell) (max_levels : Nat) (zero : Cell) (cells : List Cell) : Res Unit := do
  let idx ← unwrapResult (← t.tryFromArray cells)
  let leftover_cells := List.replicate (← usub c max_levels cells.length) zero
  assertThat (decide (cells ++ leftover_cells = (← t.cells idx)))

/-- `from_fewer_quadrants_than_max_depth`; `morton_index_2d.rs` 992-1003; `morton_index_3d.rs` 1048-1059. -/
def fixedFewer (c : Cfg) [MortonIndex M Cell] (t : Tested M Cell) (max_levels : Nat) (zero : Cell) (cells : List Cell) :
    Res Unit := do
  let idx ← t.build cells
  assertThat (decide (max_levels = depth idx))
  checkCells c idx cells
  assertThat (decide (zero = (← getCellAtLevel c idx (max_levels - 2))))
  assertThat (decide (zero = (← getCellAtLevel c idx (max_levels - 1))))

/-! ## Tests of static and dynamic indices -/

/-- `default`; `morton_index_2d.rs` 1115-1118, 1415-1418; `morton_index_3d.rs` 1174-1177, 1481-1484. -/
def emptyDefault [MortonIndex M Cell] (t : Tested M Cell) : Res Unit := assertThat (decide (0 = depth t.default))

/-- `from_quadrants_array`; `morton_index_2d.rs` 1132-1145, 1443-1456; `morton_index_3d.rs` 1191-1199, 1509-1517. -/
def fromArray [MortonIndex M Cell] (t : Tested M Cell) (cells : List Cell) : Res Unit := do
  let idx ← unwrapResult (← t.tryFromArray cells)
  assertThat (decide (cells.length = depth idx))
  assertThat (decide (cells = (← t.cells idx)))

section
variable [VariableDepthMortonIndex M Cell]

/-- `child`; `morton_index_2d.rs` 1197-1204, 1491-1498; `morton_index_3d.rs` 1260-1267, 1552-1559. -/
def childOfRoot (c : Cfg) (t : Tested M Cell) (cell : Cell) : Res Unit := do
  let child_idx ← unwrapOption (← child c t.default cell)
  assertThat (decide (1 = depth child_idx))
  assertThat (decide (cell = (← getCellAtLevel c child_idx 0)))

/-- `child_at_four_levels`; `morton_index_2d.rs` 1501-1513; `morton_index_3d.rs` 1562-1571. -/
def childBelow (c : Cfg) (t : Tested M Cell) (cells : List Cell) (cell : Cell) : Res Unit := do
  let idx ← t.build cells
  let child_idx ← unwrapOption (← child c idx cell)
  assertThat (decide (cells.length + 1 = depth child_idx))
  assertThat (decide (cell = (← getCellAtLevel c child_idx cells.length)))

/-- `child_oob_yields_none`; `morton_index_2d.rs` 1207-1212; `morton_index_3d.rs` 1270-1275. -/
def childTooDeep [RustOrd M] (c : Cfg) (t : Tested M Cell) (cells : List Cell) (cell : Cell) : Res Unit := do
  let idx ← t.build cells
  assertThat (optionEq none (← child c idx cell))

/-- `descendant_multi_levels`; `morton_index_2d.rs` 1215-1223, 1516-1524; `morton_index_3d.rs` 1278-1286, 1574-1582.
The index is built from the first `split` cells. -/
def descendantMulti [RustOrd M] (c : Cfg) (t : Tested M Cell) (split : Nat) (cells : List Cell) : Res Unit := do
  let idx ← t.build (cells.take split)
  let child_idx ← descendant c idx (cells.drop split)
  let expected_idx ← t.build cells
  assertThat (optionEq (some expected_idx) child_idx)

/-- `descendant_too_far_yields_none`; `morton_index_2d.rs` 1226-1231; `morton_index_3d.rs` 1289-1294. -/
def descendantTooFar [RustOrd M] (c : Cfg) (t : Tested M Cell) (cells : List Cell) (cell : Cell) : Res Unit := do
  let idx ← t.build cells
  assertThat (optionEq none (← descendant c idx [cell]))

/-- `parent`, `parent_4`, `parent_5`; `morton_index_2d.rs` 1234-1242, 1527-1536, 1539-1548; `morton_index_3d.rs`
1297-1305, 1585-1594, 1597-1606. -/
def parentOf [RustOrd M] (c : Cfg) (t : Tested M Cell) (cells : List Cell) : Res Unit := do
  let parent_cells := cells.take (cells.length - 1)
  let child ← t.build cells
  let expected_parent ← t.build parent_cells
  assertThat (optionEq (some expected_parent) (← parent c child))

/-- `parent_of_root_yields_none`; `morton_index_2d.rs` 1245-1248, 1551-1554; `morton_index_3d.rs` 1308-1311,
1609-1612. -/
def parentOfRoot [RustOrd M] (c : Cfg) (t : Tested M Cell) : Res Unit := do
  assertThat (optionEq none (← parent c t.default))

/-- `ancestor_multi`; `morton_index_2d.rs` 1251-1263, 1557-1569; `morton_index_3d.rs` 1314-1326, 1615-1627. -/
def ancestorMulti [RustOrd M] (c : Cfg) (t : Tested M Cell) (ancestor_generations : NonZeroUsize) (cells : List Cell) :
    Res Unit := do
  let parent_cells := cells.take (cells.length - ancestor_generations.val)
  let child ← t.build cells
  let expected_parent ← t.build parent_cells
  assertThat (optionEq (some expected_parent) (← ancestor c child ancestor_generations))

/-- `ancestor_to_root`; `morton_index_2d.rs` 1266-1275, 1572-1581; `morton_index_3d.rs` 1329-1338, 1630-1639. -/
def ancestorToRoot [RustOrd M] (c : Cfg) (t : Tested M Cell) (generations : NonZeroUsize) (cells : List Cell) : Res Unit := do
  let child ← t.build cells
  assertThat (optionEq (some t.default) (← ancestor c child generations))

/-- `ancestor_too_far_yields_none`; `morton_index_2d.rs` 1278-1286, 1584-1589; `morton_index_3d.rs` 1341-1349,
1642-1647. -/
def ancestorTooFar [RustOrd M] (c : Cfg) (t : Tested M Cell) (generations : NonZeroUsize) (cells : List Cell) : Res Unit := do
  let child ← t.build cells
  assertThat (optionEq none (← ancestor c child generations))

end

/-! ## Tests of conversions -/

/-- `convert_static_to_fixed`, `convert_static_to_fixed_with_fewer_levels`, `convert_dynamic_to_fixed`,
`convert_dynamic_to_fixed_with_fewer_levels`; `morton_index_2d.rs` 1718-1728, 1731-1746, 1777-1790, 1793-1811;
`morton_index_3d.rs` 1782-1792, 1795-1810, 1841-1854, 1857-1875. -/
def convertPadded (src : Tested M Cell) (dst : Tested N Cell) (convert : M → Res N) (padding : List Cell)
    (cells : List Cell) : Res Unit := do
  let idx ← src.build cells
  let result ← convert idx
  assertThat (decide ((← src.cells idx) ++ padding = (← dst.cells result)))

/-- `convert_fixed_to_static`, `convert_fixed_to_dynamic`; `morton_index_2d.rs` 1690-1701, 1704-1715;
`morton_index_3d.rs` 1754-1765, 1768-1779. -/
def convertAtDepth [MortonIndex N Cell] (src : Tested M Cell) (dst : Tested N Cell) (convert : M → Res N)
    (max_levels : Nat) (cells : List Cell) : Res Unit := do
  let idx ← src.build cells
  let result ← convert idx
  assertThat (decide (max_levels = depth result))
  assertThat (decide ((← src.cells idx) = (← dst.cells result)))

/-- `convert_static_to_dynamic`, `convert_dynamic_to_static` and their `_with_fewer_levels` versions;
`morton_index_2d.rs` 1749-1760, 1763-1774, 1814-1828, 1831-1846; `morton_index_3d.rs` 1813-1824, 1827-1838, 1878-1892,
1895-1910. -/
def convertSameDepth [MortonIndex M Cell] [MortonIndex N Cell] (src : Tested M Cell) (dst : Tested N Cell)
    (convert : M → Res N) (cells : List Cell) : Res Unit := do
  let idx ← src.build cells
  let result ← convert idx
  assertThat (decide (depth idx = depth result))
  assertThat (decide ((← src.cells idx) = (← dst.cells result)))

end Tested

/-! ## The types under test -/

/-- `morton_index_2d.rs` 1851-1859: the fixed depth types `test_fixed_depth!` is used with. -/
def testedFixed2 (c : Cfg) (w : Nat) : Tested (MortonIndex2D (FixedDepthStorage2D w)) Quadrant where
  tryFrom := MortonIndex2D.tryFromSlice c
  tryFromArray := MortonIndex2D.tryFromArray c
  default := ⟨FixedDepthStorage2D.default w⟩
  cells m := Storage.collectCells c m.storage

/-- `morton_index_2d.rs` 1861-1865: the static types `test_static!` is used with. -/
def testedStatic2 (c : Cfg) (w : Nat) : Tested (MortonIndex2D (StaticStorage2D w)) Quadrant where
  tryFrom := MortonIndex2D.tryFromSlice c
  tryFromArray := MortonIndex2D.tryFromArray c
  default := ⟨StaticStorage2D.default w⟩
  cells m := Storage.collectCells c m.storage

/-- `morton_index_2d.rs` 1867: the dynamic type. -/
def testedDynamic2 (c : Cfg) : Tested (MortonIndex2D DynamicStorage2D) Quadrant where
  tryFrom := MortonIndex2D.tryFromSlice c
  tryFromArray := MortonIndex2D.tryFromArray c
  default := ⟨DynamicStorage2D.default⟩
  cells m := Storage.collectCells c m.storage

/-- `morton_index_3d.rs` 1915-1923: the fixed depth types `test_fixed_depth!` is used with. -/
def testedFixed3 (c : Cfg) (w : Nat) : Tested (MortonIndex3D (FixedDepthStorage3D w)) Octant where
  tryFrom := MortonIndex3D.tryFromSlice c
  tryFromArray := MortonIndex3D.tryFromArray c
  default := ⟨FixedDepthStorage3D.default w⟩
  cells m := Storage.collectCells c m.storage

/-- `morton_index_3d.rs` 1925-1929: the static types `test_static!` is used with. -/
def testedStatic3 (c : Cfg) (w : Nat) : Tested (MortonIndex3D (StaticStorage3D w)) Octant where
  tryFrom := MortonIndex3D.tryFromSlice c
  tryFromArray := MortonIndex3D.tryFromArray c
  default := ⟨StaticStorage3D.default w⟩
  cells m := Storage.collectCells c m.storage

/-- `morton_index_3d.rs` 1931: the dynamic type. -/
def testedDynamic3 (c : Cfg) : Tested (MortonIndex3D DynamicStorage3D) Octant where
  tryFrom := MortonIndex3D.tryFromSlice c
  tryFromArray := MortonIndex3D.tryFromArray c
  default := ⟨DynamicStorage3D.default⟩
  cells m := Storage.collectCells c m.storage

end MortonRs
