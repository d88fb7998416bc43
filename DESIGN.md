# morton-rs in Lean 4 — design

## What is modelled

The model is a transliteration of the Rust sources into total Lean functions, one Lean
definition per Rust function (per file, 2D and 3D kept separate where the Rust is duplicated). Every definition
cites the file and lines it models and says where it simplifies.

| Rust | Lean |
|---|---|
| language semantics (panic, overflow, UB, shifts, casts) | `Verif/Model/Rust.lean` |
| `src/number.rs` | `Verif/Model/Number.lean` |
| `src/align.rs` | `Verif/Model/Align.lean` |
| `src/dimensions/*.rs`, `src/error.rs` | `Verif/Model/Dimensions.lean` |
| `src/indices/storage.rs`, `src/indices/mod.rs`, `src/morton.rs` | `Verif/Model/Storage.lean` |
| `src/indices/morton_index_2d.rs` | `Verif/Model/Index2D.lean` |
| `src/indices/morton_index_3d.rs` | `Verif/Model/Index3D.lean` |
| `src/helper.rs` | `Verif/Model/Helper.lean` |
| the 2D and 3D storages, generic in the container | `Verif/Model/Containers2D.lean`, `Containers3D.lean` |
| `bits`/`bits_mut` of the storages | `Verif/Model/StorageBits.lean` |
| the randomised tests in `morton_index_2d.rs`, `morton_index_3d.rs` | `Verif/Model/CrateTests.lean` |
| `derive(Debug)` in all files | `Verif/Model/Debug.lean` |

Semantics choices:

* `Res α = Except Fault α`. A panic, an arithmetic overflow under overflow checks, a failed
  `unwrap`, an out-of-bounds index, a compile-time error, nontermination and undefined behaviour are distinct
  `Fault` values. `Result<_, crate::Error>` is an inner `Except Error`.
* `Cfg` is the compilation target: pointer width (`usize` bits), whether overflow checks are on
  (debug/release), endianness. Every function that depends on it takes it; theorems quantify over it
  (`Cfg.Supported`: 16, 32 or 64 bits, the widths the crate compiles for).
  With overflow checks off, arithmetic wraps and shifts are taken modulo the width, as in release builds.
* Unsigned integers used as bit containers (`B`, grid coordinates) are `BitVec w`; `usize` used as
  a length/level/bit position is `Nat` with checked `uadd/usub/umul`. `u8` depth is `Nat` with explicit
  `as u8` truncation. `Vec<u8>` is `List (BitVec 8)`.
* `&mut self` functions return the new value; loops are folds over the same index range.

## How properties are stated

Observations: `depth`, `get_cell_at_level`, `cells()`, `==`, `cmp`, `to_string`, `to_grid_index`.
`Verif/Spec.lean` holds a small specification that does not mention the model's storage: paths are lists of cells,
order is lexicographic with prefix first, grid coordinates are read bit by bit.
`Shows c m cs` ("index `m` shows the path `cs`") is the observational link: depth is `cs.length` and
`get_cell_at_level` returns each element.

Histories (`Verif/History.lean`): `Reach2D c sc i` / `Reach3D c sc i` are inductive, one constructor per safe public
function that returns an index, over all storages and conversions. Two scopes:

* `.all`: every call. Only left out: dynamic paths whose bit count does not fit a `usize` (`Addressable`, more than
  the address space can hold), static raw-bits indices with a depth beyond `MAX_LEVELS` (C44 covers those).
* `.canonical`: without the calls that leave *stray bits* behind the last cell. `==` compares stray bits, and the code
  does not keep them zero everywhere, so everything that mentions `==` is false for `.all` (proved, `*_refuted*`) and
  proved for `.canonical`. The stray-bit calls are: 2D dynamic `zeroed(d)` with `d % 4 == 0`; 3D `from_raw_index` with
  non-zero unused bits; 3D dynamic to fixed-depth conversion when the unused bits of the integer are more than
  the unused bits of the byte vector, or on big-endian targets. 2D fixed-depth and static indices never have stray bits
  (`fixed_scope2`, `static_scope2`), so everything about them is proved for `.all`.

Contents of dynamic indices are claimed for targets on which dynamic writes work (`DynWrites`: little-endian, or 16-bit).
On the others every write stores `Zero` (C47).

Property statements common to all index types are in `Verif/Props/Defs.lean`; the theorems are in `Verif/Props/*.lean`,
named after the property; helper lemmas are in `Verif/Lemmas/*.lean`. Next to each theorem there is an `example`
that applies it to a concrete index or input (`Verif/Props/Examples.lean` has the indices and their histories).

## Proof structure

* `Lemmas/Basic`, `Bits`, …: bit extensionality for `get_bits`/`set_bits` on integers and byte vectors.
* A storage is a number `value < 2^width` read as digits from the top (`BitStorage`: `value`, `width`, `fit`, `written`,
  `get_ok`, `set_ok`); `path` is its list of cells, `slot` a cell, `WF` says the depth fits the width.
  Each of the six storages is an instance, so cell access, folds of `set` and comparison are proved once.
* `Lemmas/ListLike`: an index type that behaves like lists of cells (`ListLike`, `AncLike`, `DescLike`, `EqLike`, `CmpLike`);
  instances for all six types on reachable indices in `Kinds2D/3D`. C01–C18, C43, C50 follow from these.
* Reachability invariants (`reach2D_good`, `reach3D_good`): `WF` for `.all`, zero tail and exact byte count for `.canonical`
  (2D static: zero tail for `.all`).
* Grid: chunk-loop invariants (`Grid*`), reading back by induction on levels (`GridRead*`).
* Safety (C44): `Safe r` (not UB, not nontermination) closed under all combinators, for arbitrary states.

* Debug against release (C60): `Refines r r'` (overflow panic, or equal) closed under the same combinators.

## Properties

Status and theorem names are in MANIFEST.json. How each is treated:

* C01–C10, C12, C13, C17, C18, C43, C50: proved for `.all`.
* C11, C15 (agreement with `==`), C16, C48 (root `==`): proved for `.canonical`, refuted for `.all`; for 2D static and
  fixed-depth indices proved for `.all`.
* C14: 2D for `.all`; 3D for `.canonical`, refuted for `.all` (unused bits take part in the derived comparison).
* C19, C27–C31, C35, C37, C42, C44, C45, C49: proved.
* C20: exact result for every depth; refuted beyond the pointer width.
* C21, C22, C23, C26: proved on the targets where the constructor works; C51 is the 16-bit case of C22.
* C24, C25: proved on the exact set of depths and targets that work; refuted by witnesses. What happens everywhere else
  is proved too (`Props/GridNarrow`): C24 panics or returns `zeroed(d)`; C25 keeps exactly the levels from `lostAbove`
  to `filledBelow`.
* C32, C34: proved; parts that mention `==` for `.canonical`. `Props/StraySteps` adds the order of converted 3D fixed-depth indices with any bits.
* C33: equivalence describing exactly when cells are kept; refuted by witness. The position of every bit of the result is
  proved on both byte orders (`C33_exact_bits_*`), as are the resulting cells in 2D. `C33_any_bits_*` (`Props/StrayConv`) does both for indices
  with any bits behind the path; `C33_kept_iff_*` is the equivalence for every dynamic index and target, in terms of the bytes that arrive.
* C36, C38, C39, C40: exact domain proved, refuted outside (`Props/NumbersExact` for single calls). C39 also has the exact result for every input.
* C41: display for `.all`, with the exact condition for a panic; comparison and `==` element by element for every type and value (`Props/SlicesExact`), in terms of the cells as for the elements.
* C46: complete except 2D dynamic `==`, where the equivalence with `d % 4 ≠ 0` is proved.
* C52–C58: proved; laws over the same `ListLike` structures (`Props/Laws`), byte containers in `Props/Bytes`.
  C57 needs `.canonical` (with stray bits in 3D the order can be reversed below an index only, `Props/StrayCount`); C55 for 3D fixed-depth indices with stray bits is in `Props/FixedStray`.
* C59: the three grid constructors agree wherever each of them works (see C24, C25); `Props/GridAgree` says exactly when they agree elsewhere.
* C60: a calculus `Refines` in the style of `Safe`, for arbitrary states; C61 follows from C43 on both sides.
* C62, C63: proved for `.all`; C63 reuses the C10/C13 proofs with equality of cells in place of `==`.
* C64: proved for arbitrary integers; C14 is its restriction to indices without stray bits.
* C65: induction over the number of levels on top of `ListLike`/`DescLike`/`CmpLike` (`Props/Traverse`).
* C66, C67: from the path order and the bit-by-bit description of `to_grid_index` (`Props/Space`); 3D fixed-depth indices with stray bits are compared with C64 (`Props/FixedStray`).
* C68: equation between the two programs; needs that whether a shift or `get_bits` fails does not depend on the operand.
* C69: induction over the sorted list with the C18 facts about paths (`Props/Sorted`).
* C70-C72: cells-to-coordinates bit formula (`toGridIndex_binary2/3`) applied to `set`, `reverse` and `++` (`Props/GridEdits*`).
* C73: each fallible call either fails its depth check with the stated error or cannot return an error (`Props/Messages`).
* C74, C75: path comparison with a prefix followed by copies of the least or greatest cell (`Props/Ranges`). For 3D fixed-depth indices with any bits in the unused places,
  `C75_prefix_range_any_bits_3D`: an index of the range may exceed `hi` only by having the cells of `hi`.
* C76 (partial): loop invariants up to the first access that leaves the container (`Props/OutOfRange`). The claim that there is no silent damage is false in
  release builds (`C76_refuted`, F26); `C76_release_builds` says what happens there. `C76_vec_first_fault` separates panics of vectors from undefined
  behaviour for values shorter than the range, `C76_vec_usize_reads` the faults of `usize` reads of vectors with ranges of any length,
  and `C76_vec_usize_value` the value where there is no fault (`Props/LongReads`).
* C77: longest common prefix of two paths (`Props/Common`).
* C78: digits contain no separator, so each text splits in one way; `{:#?}` after removing spaces and line breaks (`Props/DebugText`).
* C79: the address arithmetic overflows beyond the capacity; below it, a write changes one slot, which is no part of the path (`Props/Beyond`). Without overflow checks the address wraps around (`Props/BeyondRelease`): where a read or write lands is computed modulo the address space and the width of the integer.
* C80: `bits`/`bits_mut` (`Model/StorageBits`) expose the field the digit lemmas speak about, and those hold for every value of it (`Props/StorageBits`).
* C81: from C35, C37, C38 for the address arithmetic of the storage types on an arbitrary container (`Props/StorageTypes`); partial: 3D reads of vectors by the
  fixed-depth and static storage types panic where C38 leaks.
* C82: `runCalls` of the model against `Ideal.step` on (type, list of cells) by induction over the program; every value a regular call returns is reachable
  in the scope of the program (without stray bits, or without the calls that show them), and the per-call facts are those of the other properties (`Props/Programs*`).
* C83: a storage that keeps the contract of the `Storage` trait is a number with the cells as digits (`Lemmas/Foreign`), so the proofs for
  the crate's storages apply; the contracts are hypotheses, kept by the crate's storages and by an example storage (`Props/Foreign*`).
* C84: the storages modelled once more, generic in the container (`Model/Containers*`); a container is known by the contract `LawfulContainer`
  (`Lemmas/Containers`), kept by the integers and by byte arrays (`Lemmas/ContainersNative`). The proofs of the integer storages carry over;
  `C84_native_*` proves that both models agree on the integers, results and faults alike (`Props/Containers*`).
  `C33_big_endian_*_partial` and `C84_bytes_big_endian_*` (`Props/BigEndianConv`) give the condition on big-endian targets under which a dynamic index keeps
  its cells; the statement of C84 named the little-endian one for all targets until this was proved.
  `C84_exact_*` (`Props/ContainersNarrow`): static `from_grid_index` at every depth, also where C24 and C25 fail.
* C85 (partial): static indices over containers with 256 levels or more. The storage lemmas again, with the depth taken modulo 256;
  `C85_refuted_*` is the witness, `C85_storages_*_partial` what holds below 256 levels (`Props/LargeContainers*`,
  `Props/LargeGrid` for `from_grid_index` without overflow checks).
* C86: a dimension is known by the contract `DimensionContract` (cells are the numbers below 2^D); the accessors are reduced to C35 and C37
  (`Props/OtherDimensions`). Examples: four and nine dimensions with cells `Fin (2 ^ k)`.
  The integer storage types on byte vectors (`Props/OtherDimensionsBytes`): C38 and the loop invariant of `set_vec_u8_bits` with a
  new value of one byte.
* C87: an index type is known by the contract of the required methods; `inverted` by a loop invariant over the cells, the rest by
  the lemmas shared with C07-C11 (`Props/OtherIndices`). Example: a four-dimensional index that is a list.
* C88: the provided accessors unfold to those of the storage type on the borrowed container; for the storage types of the crate the
  levels are the bit groups of C86, over integers and byte vectors (`Props/OtherStorageTypes`). Examples: a four-dimensional storage on `StaticStorage`, a storage
  type that counts levels from the low end.
* C89: the hasher data are the fields in order, a byte vector preceded by its length; cancelling them from the front gives the fields
  (`Props/HashInput`).
* C90 (partial: false of 3D fixed-depth indices with stray bits, `C90_refuted_stray_bits_3D`, whose exact order is `C90_order_any_bits_3D`): paths filled up with `Zero` to a common length compare like the corners (C66), and the lengths decide between equal ones
  (`Props/Corners`).
* C91: the cells of a position are found bit by bit; disjointness is C67 divided by powers of two (`Props/Tiles`).
* C92: a digit is one byte, 48 plus the number of the cell, so byte order is path order and byte prefix is path prefix (`Props/StringOrder`; 3D fixed-depth indices with stray bits in `Props/FixedStray`).
* C93: positions of one depth determine the cells (C19), so the steps follow from C21, C22, C24–C26 and arithmetic modulo `2 ^ depth`, shared ancestors from C27 (`Props/Neighbours`); `Props/StraySteps` drops the restriction to indices without stray bits.
* C94: cutting a path keeps the lexicographic order; the rest are list inductions over `dedupAdjacent`, a specification of `Vec::dedup_by` (`Props/BottomUp`)
* C95: the leaves between a leaf and a node below it would be in the subtree of the leaf (C18), which disjointness excludes; the split points by induction over the list (`Props/Leaves`)
* C96: Kraft's inequality with its case of equality, for prefix-free lists of paths, by induction over `L`: the paths are grouped by their first cell; `try_from` gives the nodes needed for the converse
* C97: the query is run on paths by induction over the levels left; each call returns sorted prefix-free nodes inside the window that hold all its positions below, and every path inside the window extends one of them (`Props/Window`). Corners: C66 and C18; 3D fixed-depth indices with stray bits in `Props/StrayCount`.
* C98: `pathNumber` reads a path as a number to the base 4 or 8; for paths of one length the order is that of the numbers, and the carry loop adds one to it, by induction over the cells from the last one on (`Props/Counting`). `from_raw_index`: C49. 3D fixed-depth indices with the same stray bits are ordered by the cells alone, and writes keep them (`Props/StrayCount`).
* C99: group `j` of the bits of `pathNumber` is a cell, and bit `j` of a coordinate is a bit of that cell (C19), by induction over the cells (`Props/MortonCode`).
* C100: `behind` counts the paths with at most `L` cells that follow a path; the order is that of these counts reversed, and the step lowers the count by one (`Props/Stackless`).
* C101: the Morton code of the position read back (C99) is that of the position put in by C21–C26; a code determines the number of the path, and numbers of paths of one length compare as the paths (`Props/Encode`); 3D fixed-depth indices with any bits are sorted by the code and then by the bits outside the cells (`Props/FixedStray`).
* C102: the constructors put the index at the position of the point (C21–C26), subtrees are boxes (C67), and `i * 2 ^ (d - k) ≤ p * 2 ^ d / s` is `i * s ≤ p * 2 ^ k` (`Props/Points`). The calculation of the grid index is the caller's and part of the statement; it is exact, floating point is not modelled. 3D fixed-depth indices with stray bits in `Props/StrayCount`.
* C103: if a node is not below its predecessor in a sorted list then no later one is (C18), by induction over the list (`Props/Overlaps`).
* C104: ascending nodes with one parent have ascending last cells, so `K` of them have all cells; a path is apart from a node exactly if it is apart from all children of the node (`Props/Adapt`).
* C105: by induction on the levels, as for C97; a node that meets the condition extends to a path of the last level, which is below some leaf, and neither of the two can be above the other (`Props/Subdivide`). The completion is the subdivision by the criterion "a given leaf is properly below".
* C106: a loop is determined by the results of `next()`, which C06 gives; `try_from` is a function of the cells alone (`Props/Rebuild`).
* C107: paths that are apart stay apart when extended, so a cursor that passes a leaf passes no overlap, by induction over both lists; the difference is the subdivision of C105 by "a leaf of the second region is properly below" (`Props/Regions`).
* C108: the test functions are programs over the drawn cells (`Model/CrateTests`). Each follows from C01–C10, C12, C21–C26, C32, C33, C46 and C48 at the constants of the test, generically for every type that behaves like a list (`Props/CrateTests`). The constants avoid the depths at which C24, C25, C26, C33 and C46 are refuted, which is why the defects go unnoticed; where a condition fails, so does the test.
* C109: the exact version of C11, C15, C16 and C48 for all histories. `Lemmas/Hidden` follows every level of the capacity, not only those of the path, through `ancestor` and `descendant` (`slot` of the result as a function of `slot` of the argument) and shows that a 3D dynamic
  index never has a spare byte (`reach3D_noSpare`); `Props/StrayExact` compares the digits. "Unspoiled" is client code (`m == try_from(cells of m)`), not a predicate on the representation. `Props/ConvExact` follows the conversions (C32, C34) for all histories.
* C110: two maps against the traits, a hash table that looks only at the entries in the bucket of a key and a sorted vector with binary search (`Props/Maps`). Equal keys feed the same data to the hasher (C17), so the first hit is the entry with the same cells; a search ends at that entry or where all before are smaller and all behind greater (C12–C14). A call acts on the list of entries as on a function from cells to values, by induction over the calls. Keys with stray bits are told apart by `==`, not by `cmp` (`C110_spoiled_keys`).
* C111: client code that reads text back (`Props/SaveText`): cell strings with `char::to_digit`, `Cell::try_from` and `try_from` on the slice; grid index strings with `split('-')`, `usize::from_str` and `from_grid_index`. The parsers are models of the standard library's and are proved to accept exactly the digits of cells, so that text and lists of cells determine each other; writer and reader may be different targets.
* C112: the walk `successors(Some(m), |m| m.parent())` as client code (`Props/WalkUp`). Its nodes are the prefixes of the path, by induction on the number of items taken. Ways through the tree are an inductive relation (`Moves`); by induction every way has a common prefix of both ends that it pays for, and the longest common prefix is attained by going up and down.
* C113: client code that appends the cells of a node from some level on to another node (`Props/MoveSubtree`). On paths this is `root ++ path.drop d`; order and prefixes do not depend on a common beginning.
* C114: client code that replaces each cell by its image (`Props/Symmetries`), a loop of checked reads and writes with the invariant that the cells done are mapped. A coordinate of the grid position is the binary number made of one bit per cell; inverting these bits is counting from the other end of the axis.
* C115: client code that subdivides a common ancestor of two nodes (`Props/Gaps`, with `subdivide` of C105). A node that is not split is comparable with neither end or is one of them; whatever is apart from both ends stays so below it. The bound counts the children of the nodes on the way to either end.
* C116: client code that sorts by one stable pass per level (`Props/RadixSort`). Invariant by induction over the passes: the list is a permutation of the first one, sorted by the paths from the current level on, and indices with one path keep their order.
* C117: client code that searches by branch and bound (`Props/Nearest`). Invariant by induction over the levels: the best leaf so far is the nearest of those seen. A subtree may be left out since the box of a node holds those of the nodes below it: the coordinates of a node are those of the node above it, shifted, plus the lower bits (`toGridIndex_binary2/3`). The distance to a box is that of its nearest position (`axisDist_le`, `axisDist_attained`).
* C118: client code that counts equal cells (`Props/SharedLevels`); it computes the longest common prefix of the paths. For paths in ascending order the prefix of the outer two is also one of the middle one (`pathCmp_between`), which gives the minimum, and by induction that over all neighbours.
* C119: client code, `subdivide` of C105 with the children in another order (`Props/FrontToBack`). By induction over the levels the leaves are the same and the paths of an earlier and a later one part with cells of which the later does not hide the earlier one. What is in front in the grid is not behind on that level, as the coordinates of the level are those of the grid, shifted.
* C120: client code, loops over `get_cell_at_level` and over digits (`Props/LocationCodes`). The code is the number of the path (C104) plus the power of the base; reading is undone by induction over the path, order and prefixes of paths are order and quotients of codes.
* C121: positions as functions of the axis, so that 2D and 3D share the proof (`Props/Touching`). A position beside the box of a node, outside of it, is on the edge of the box of the node `q` beside it (`edge_of_touch`), and two boxes with a common position are nested (C67); the list part is C95 for `q`.
* C122: client code (`Props/Differences`), by induction over the list. The nodes that a new index adds are its prefixes longer than what it shares with the index before; none of them is above an earlier index, as what is between two indices of a subtree in the order is in the subtree (C18).
* C123: client code (`Props/Nesting`). Invariant of the stack: a chain, and for every node to come the nodes on it that are above that node are those of the whole list done so far (from the order between nodes of a subtree, C18); so unwinding is filtering.
* C124: client code (`Props/Jump`), with the test of C97. A skipped path stays skipped when it is extended (outside: the boxes are nested; before `q`: the order decides at the first cell that differs), so descending finds the first path that is not skipped.
* C125: client code (`Props/LocateAll`). Invariant: the passed leaves are `<=` all nodes still to be looked up, so the leaf around a node is a passed one; what lies between a leaf and a node of its subtree is in the subtree too, so it is the last one passed.
* C126: client code (`Props/Merge`), with the replacement of C104. If all children of a node are in a sorted list of leaves they are next to each other, so the top of the stack decides. If nothing is left to merge, a node whose places are all covered is covered by one node of the list (induction from the depth of the places upwards), so two such lists hold the same nodes.
* C127: client code (`Props/GridXor`). `XOR < 2^(n-k)` exactly if the positions agree after dropping `n-k` bits, which are the positions of the nodes above them with `k` levels; the position determines the cells.
* C128: client code (`Props/Carry`). Induction from the last cell upwards: the bits of the axis are a binary number to which one is added (subtracted), the bits of the other axes stay.
* C129: client code (`Props/Balance`), from C121 (what touches a node is above its neighbour or below it), C125 (look-up of one node) and C128. A leaf below the neighbour is not larger than the leaf itself, so only the one above it counts; touching is symmetric for leaves, so the smaller leaf of each pair finds the larger one.
* C130: client code (`Props/BoxSteps`), from the induction of C128 with any cells behind those of the loop.
* C131: client code (`Props/Balancing`), from C104, C121 and C129. Each split makes the sum of `(K+1)^(D-depth)` over the leaves smaller (`K` children per node). A balanced refinement that kept a leaf which is split would have a leaf inside the small leaf that touches it and is more than one level smaller; so it also refines the list after the split.
* C132: client code (`Props/BalanceUnique`). Two orderings place the cells alike up to an exchange of axes, which keeps touching; by C131 each of the two results refines the other one, and sorted lists of leaves that refine each other have the same nodes.
* C133: client code (`Props/BesideBalanced`), from C121: a node that touches is above the neighbour or below it and faces back; with at most one level of difference these are the nodes of the list. Static indices of full depth have no children, and then no leaf is deeper either.
* C134: client code (`Props/BalanceAnyOrder`). Induction over the sequence of splits with the single step of C131 (smaller weight, refined by every balanced refinement); the next split exists by the look of C131.
* C135: client code (`Props/BesideCount`). By C121 and balance each touching leaf is above the neighbour of the same size or a facing child of it; two leaves above it would be nested, and so would one above and one child, so there is one leaf, or different facing children.
* C47: reads are independent of endianness; writes proved where they work, and proved to store `Zero` elsewhere.

## Which properties determine which function

| Function | Properties |
|---|---|
| `get_cell_at_level`, `set_cell_at_level`, `depth` (all six index types) | C01, C02, C43, C50, C70, C98, C116, C118, C120, C122, C127–C135 |
| the unchecked accessors | C52, C79, C80, C81 |
| `try_from` slice / array | C03, C04, C05, C73 |
| `zeroed`, `default` | C46, C48 |
| `cells`, `into_iter`, `CellIter::next` | C06, C106 |
| `inverted` | C07, C71 |
| `ancestor`, `parent`, `with_depth` | C08, C09, C27, C56, C63, C77, C94–C96, C100, C103–C105, C107, C112, C113, C115, C122, C123, C124, C125, C126, C129, C131–C135 |
| `descendant`, `child` | C10, C56, C63, C65, C72, C97, C100, C104, C105, C107, C113, C115, C117, C119, C120, C122, C124, C131–C134 |
| `cmp`, `partial_cmp`, `<` … | C12–C15, C18, C45, C55, C57, C64, C66, C69, C74, C75, C90, C94–C98, C100, C101, C103–C105, C107, C110, C112, C113, C115, C116, C118, C120, C121, C122, C123, C124, C125, C126, C129, C131–C135 |
| `==`, `hash` | C11, C15, C16, C17, C62, C89, C109, C110 |
| `to_grid_index` | C19, C20, C27, C66, C67, C70–C72, C90, C91, C93, C97, C99, C102, C114, C117, C119, C121, C124, C127–C135 |
| `from_grid_index`, `from_grid_index_fast` | C21–C26, C51, C59, C68, C73, C93, C101, C102 |
| `to_string` | C28, C29, C92, C111 |
| `Display`, `Ord`, `Eq` of displayable slices | C41 |
| `Quadrant`/`Octant` and orderings | C30, C31, C68, C98, C114, C119, C120 |
| `From`/`TryFrom` between index types | C32, C33, C34, C57, C58, C73 |
| `from_raw_index` | C49, C64, C98, C99 |
| `Bits` for integers | C35, C36, C54, C76 |
| `Bits` for `Vec<u8>` | C37, C38, C42, C54, C76 |
| `MAX_LEVELS`, `max_depth` | C53 |
| bit spreading, `align_to` | C39, C40 |
| `bits`, `bits_mut` | C80 |
| `Error` texts | C73 |
| `Debug` | C78 |
| the randomised `#[test]` functions | C108 |
| everything: no undefined behaviour; builds and targets compared; whole programs | C44; C47, C60, C61; C43, C82 |
| `MortonIndex2D<S>`, `MortonIndex3D<S>` for storages `S` of other crates | C83 |
| `FixedDepthStorage{2D,3D}<B>`, `StaticStorage{2D,3D}<B>` for containers `B` of other crates | C84, C85 |
| storage types and `CellIter` for dimensions of other crates; provided methods for index types of other crates | C86; C87 |
| provided methods of `Storage` over any `StorageType` | C88 |

## Where the code disagrees with a property

F1. 3D static `from_grid_index` loses the lowest levels at inexact depths for u32/u64/u128 (C25).
F2. 2D static u128 `from_grid_index` at depth 0 on 64-bit targets shifts by 64: overflow panic in debug (C24).
F3. 2D `DynamicStorage2D::zeroed(d)` allocates `d/4 + 1` bytes, one too many when `d % 4 == 0` (C11, C15, C16, C46, C48). At the depth limit the conversion to a fixed-depth index then drops the byte with the first cells (`C33_refuted_zeroed_2D`).
F4. Dynamic to fixed-depth conversion puts the bytes at the low end of the integer, so cells move unless the byte count is
    the integer's size (C33).
F5. `Vec<u8>::get_bits` leaks bits beyond the range when `0 < end % 8 < start % 8` (C38).
F6. Integer `set_bits` does not mask the new value (C36).
F7. `add_zero_before_every_bit_u8/u16`, `add_zero_behind_every_bit_u8` do not drop high input bits as documented (C39).
F8. `align_to` overflows although the result is representable when `x + a >= 2^w` (debug); wrong in release when
    `x + a - 1 >= 2^w` (C40).
F9. `to_grid_index` and `GridIndex` strings beyond the pointer width: panic in debug, wrong in release (C20).
F10. Big-endian 32/64-bit targets: dynamic writes store `Zero` (C47).
F11. 3D `from_raw_index` accepts non-zero unused bits and depths beyond `MAX_LEVELS` (C14, C15, C16, C49).
F12. Dynamic `from_grid_index` panics for `grid_depth` beyond half the pointer width (C26).
F13. Dynamic 3D `zeroed` overflows `depth * 3` for huge depths.
F14. 3D dynamic to fixed-depth conversion can leave non-zero unused bits (C16).
F15. Big-endian dynamic to fixed-depth conversion swaps the bytes (`C33_exact_bits_*`).
F16. Static `from_grid_index` with `MAX_LEVELS` beyond the pointer width panics or returns a wrong index (C24).
F17. 3D fixed `from_grid_index` on 16-bit targets: see C51.
F18. `Vec<u8>::set_bits` panics for an empty unaligned range with an empty new value, and reads out of bounds when the new
     value is too short (it is an `unsafe fn`); integer `set_bits` with an empty range at `BITS` overflows in debug.
F19. `Vec<u8>::get_bits` has no big-endian branch: there it does not return what the crate's own `test_get_bits_vec_u8`
     expects (number.rs 662-724). C38 gives the exact, target-independent result.
F20. Integer `get_bits`/`set_bits` cast the start of the range to the integer type: bit 256 of a `u8` is bit 0 (`C76_start_wraps`).
F21. Safe code can change the unused bits of a storage with `bits_mut`; `cmp` then says `Equal` where `==` says no (`C80_unused_bits_split_order_and_equality`).
F22. `FixedDepthStorage`/`StaticStorage::get_cell_at_level_unchecked` for 3D on a `Vec<u8>` panics at levels across a byte boundary, by F5 (`C81_bytes_3D_refuted`).
F23. The depth of a static storage is a `u8`, `MAX_LEVELS` is not bounded by 255: over a container with 256 levels or more `try_from`, `descendant` and the conversions silently cut the depth (`C85_refuted_2D`, `C85_refuted_3D`).
F24. Static `from_grid_index` shifts a `usize` by `MAX_LEVELS - depth`: over a container with at least twice as many levels as a `usize` has bits it panics (debug) or returns zeros (release) at every depth (`C84_exact_grid_2D`, `C84_exact_cells_3D`, `C85_grid_2D`, `C85_grid_release_2D`).
F25. `FixedDepthStorage` and `StaticStorage` pass cells through a `u8`: beyond eight dimensions, as the comment in `storage.rs` 115 admits, the high bits of a cell are lost silently (`C86_integers`, `C86_refuted_nine_dimensions`).
F26. In release builds an integer `set_bits` that starts behind the last bit writes to the low bits: `0xFFu8.set_bits(8..10, 0)` is `0xFC`. With a range longer than the word `get_bits` is zero and `set_bits` clears nothing (`C76_refuted`, `C76_release_builds`). Debug builds panic. C76 was listed as proved up to commit 57a15d3 because its theorems left these cases out.
F27. In release builds `set_cell_at_level_unchecked` beyond the capacity silently overwrites a cell of the path: level 16 of a `u16` index is level 0, but `get_cell_at_level_unchecked` at the same level returns `Zero` (`C79_release_2D`). A dynamic index ignores the write or panics (`C79_release_dynamic_2D`). The calls are documented as undefined behaviour there, so the library breaks no promise.
F28. `set_cell_at_level_unchecked` of `FixedDepthStorage` and `StaticStorage` on a `Vec<u8>` hands `set_bits` a new value of one byte. In nine or more dimensions the loop may reach (from sixteen on it always does) a chunk that starts behind this byte; it takes the branch for two bytes and reads outside the vector (`C86_vectors_writes`); the level is inside the container, so the caller keeps every documented rule. No index of the crate does this.

## Tests of the theorems against wrong programs

`seeded/LOG.jsonl` lists realistic bugs put into a copy of the model and the theorems that stop proving.

For the hand-written bugs the rest of the build continues past errors, and `theorems_failed` lists every property theorem
that no longer has a complete proof: its own proof fails, its statement no longer elaborates, or it uses a lemma whose proof
fails. A theorem can be listed because a shared lemma broke although its own claim stays true under the edit;
`first_failures` names the declarations with errors, `claim_broken` the claims meant to break.

Lines with `"kind": "mechanical"` are generated edits (a literal, an operator, a mask bit). Their build stops at the first
failing declarations, and `theorems_failed` lists only those, usually lemmas. `not_checked_dependents` is computed from
the dependency graph of the unedited model; these theorems were not reached and not seen to fail. The
edits were not analysed one by one, and some are equivalent to the original although a proof broke, so they are
weaker evidence than the hand-written ones. Edits that do not elaborate are left out.

`Verif/Conformance.lean` evaluates the literal test vectors of the crate's unit tests, doc comments and examples on the
model. These are tests of the transliteration, not proofs of any property. The tests of the crate that draw random cells are
covered for all draws by C108: they pass on 64-bit little-endian targets, as they do in the crate.

## Not modelled

Performance, allocation failure and lengths beyond the address space, formatters that fail, the hasher
behind `Hash` (only the data fed to it), nalgebra beyond two/three-component vectors of `usize`, the safety contract of the
`unsafe` functions beyond what the safe API passes to them, aliasing of the slice borrowed by `as_u8_slice_mut`, threads (the crate has no shared
state). Implementations of the traits by other crates enter by their contract (storages: C83, containers: C84, dimensions: C86,
index types: C87, storage types: C88). A `cfg` branch or `const` that does not compile is the fault `compileError`.

## Trusted base

* Lean's kernel. Every theorem depends on at most `propext`, `Classical.choice`, `Quot.sound`; no axioms are
  added, no `sorry`, `native_decide` or `bv_decide`. `AXIOMS.txt` lists them theorem by theorem.
* `Verif/Model/*` as a faithful reading of the Rust source and of the parts of `core`/`alloc` it uses; the code was not run.
* `Verif/Spec.lean`, `Verif/History.lean`, `Verif/Props/Defs.lean` and the definitions at the head of the property
  files, as statements of what is claimed.
