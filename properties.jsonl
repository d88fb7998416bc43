{"id": "C01", "title": "Writing a cell is visible at its level and nowhere else", "statement": "After set_cell_at_level(level, cell) with level < depth(), get_cell_at_level(level) returns cell, get_cell_at_level(l) is unchanged for every other level l, and depth() is unchanged. Holds for fixed-depth, static and dynamic storage in 2D and 3D.", "quantifier": "every index obtainable through the safe API, every level below its depth, every cell, every integer width (u8..u128), every dynamic depth, debug and release overflow behaviour. Contents of dynamic indices: targets on which dynamic writes work (little-endian, or 16-bit); big-endian 32/64-bit targets are C47.", "why_tests_cant": "The bit ranges touched depend on level, width and byte alignment (3-bit cells straddle bytes); tests write random cells at a handful of depths.", "anchors": ["src/indices/storage.rs:FixedDepthStorage/StaticStorage/DynamicStorage get_/set_cell_at_level_unchecked", "src/number.rs:get_bits,set_bits,set_vec_u8_bits,get_bits_as_usize", "src/indices/morton_index_2d.rs:set_cell_at_level", "src/indices/morton_index_3d.rs:set_cell_at_level"]}
{"id": "C02", "title": "Checked accessors panic exactly on out-of-range levels", "statement": "get_cell_at_level(level) and set_cell_at_level(level, _) panic if and only if level >= depth(); for level < depth() they return normally, and in particular no internal arithmetic overflow or failed cell conversion can surface.", "quantifier": "every index obtainable through the safe API (3D static raw-bits indices up to MAX_LEVELS deep), every usize level, every target", "why_tests_cant": "Absence of panics for every level/width/depth combination is a universal statement; tests hit one out-of-range level per type.", "anchors": ["src/indices/morton_index_2d.rs:get_cell_at_level,set_cell_at_level", "src/indices/morton_index_3d.rs:get_cell_at_level,set_cell_at_level", "src/indices/storage.rs"]}
{"id": "C03", "title": "Building from cells and reading the cells back is lossless (static, dynamic)", "statement": "For static storage with cells.len() <= MAX_LEVELS, and for dynamic storage with any cells, try_from(cells) succeeds with an index whose depth() is cells.len() and whose cells() yields exactly the given cells in order. The array and the slice constructors agree.", "quantifier": "every list of cells, every integer width, unbounded length for dynamic storage. Contents of dynamic indices: targets on which dynamic writes work (little-endian, or 16-bit); big-endian 32/64-bit targets are C47.", "why_tests_cant": "4^n / 8^n inputs at every length; dynamic lengths are unbounded.", "anchors": ["src/indices/morton_index_2d.rs:TryFrom<&[Quadrant]>,TryFrom<[Quadrant;N]>", "src/indices/morton_index_3d.rs:TryFrom<&[Octant]>,TryFrom<[Octant;N]>"]}
{"id": "C04", "title": "Building a fixed-depth index pads with cell Zero", "statement": "FixedDepth try_from(cells) with cells.len() <= MAX_LEVELS succeeds; depth() is MAX_LEVELS and cells() yields the given cells followed by cell Zero up to MAX_LEVELS.", "quantifier": "every list of at most MAX_LEVELS cells, every integer width, 2D and 3D", "why_tests_cant": "Tests sample random lists; the claim covers every list and length.", "anchors": ["src/indices/morton_index_2d.rs:FixedDepthStorage2D TryFrom", "src/indices/morton_index_3d.rs:FixedDepthStorage3D TryFrom"]}
{"id": "C05", "title": "Too many cells are rejected with the right limit", "statement": "For fixed-depth and static storage try_from(cells) returns Err(DepthLimitedExceeded{max_depth}) exactly when cells.len() > BITS/DIMENSIONALITY, with max_depth = BITS/DIMENSIONALITY; it never panics or truncates. Dynamic try_from never returns an error.", "quantifier": "every list of cells, every integer width, 2D and 3D", "why_tests_cant": "Tests only try MAX_LEVELS+1.", "anchors": ["src/indices/morton_index_2d.rs:TryFrom", "src/indices/morton_index_3d.rs:TryFrom", "src/error.rs:Error"]}
{"id": "C06", "title": "The cell iterator agrees with indexed access and terminates", "statement": "cells() yields exactly depth() items, the k-th item equals get_cell_at_level(k), and after the last item next() returns None forever.", "quantifier": "every index obtainable through the safe API, every number of next() calls", "why_tests_cant": "The termination test is an equality check on a counter, so it must be shown that the counter can never skip past depth().", "anchors": ["src/indices/mod.rs:CellIter", "src/indices/morton_index_2d.rs:cells", "src/indices/morton_index_3d.rs:cells"]}
{"id": "C07", "title": "inverted() reverses the cells and is an involution", "statement": "inverted() returns an index of the same depth whose cells() are the reverse of the original's; applying it twice returns an index equal (==) to the original; it never panics.", "quantifier": "every index obtainable through the safe API, all storages, 2D and 3D. Contents of dynamic indices: targets on which dynamic writes work (little-endian, or 16-bit); big-endian 32/64-bit targets are C47.", "why_tests_cant": "In-place reversal has classic aliasing bugs that depend on depth parity; tests use random depths.", "anchors": ["src/morton.rs:MortonIndex::inverted"]}
{"id": "C08", "title": "ancestor(g) is the prefix of the path, or None when too far", "statement": "ancestor(g) is None iff g > depth(); otherwise its depth is depth()-g and its cells are the first depth()-g cells of the original.", "quantifier": "every variable-depth index obtainable through the safe API (static and dynamic, 2D and 3D), every non-zero g", "why_tests_cant": "Byte-skip and mask arithmetic in dynamic storage differs for every depth mod 4 (2D) / mod 8 (3D); tests try single depths.", "anchors": ["src/indices/morton_index_2d.rs:VariableDepthStorage::ancestor", "src/indices/morton_index_3d.rs:VariableDepthStorage::ancestor", "src/morton.rs:VariableDepthMortonIndex"]}
{"id": "C09", "title": "parent() and with_depth()", "statement": "parent() is None iff depth()=0 and otherwise drops the last cell. with_depth(d) is None iff d > depth() and otherwise is the index of the first d cells (for d = depth() an equal copy). Neither reaches the undefined behaviour of NonZeroUsize::new_unchecked(0).", "quantifier": "every variable-depth index obtainable through the safe API, every usize d", "why_tests_cant": "with_depth is untested in the repository; the unsafe NonZeroUsize construction needs a universal argument.", "anchors": ["src/morton.rs:parent,with_depth"]}
{"id": "C10", "title": "descendant(cells) appends the path; child(c) appends one cell", "statement": "For static storage descendant(cells) is None iff depth()+cells.len() > MAX_LEVELS; for dynamic storage it is never None. Otherwise the result's cells are the original cells followed by the given ones. child(c) = descendant([c]).", "quantifier": "every variable-depth index obtainable through the safe API, every list of cells. Contents of dynamic indices: targets on which dynamic writes work (little-endian, or 16-bit); big-endian 32/64-bit targets are C47.", "why_tests_cant": "Depends on depth mod byte boundary and on stale bits below the old depth; histories of ancestor/descendant/set must not leave residue.", "anchors": ["src/indices/morton_index_2d.rs:descendant", "src/indices/morton_index_3d.rs:descendant", "src/morton.rs:child"]}
{"id": "C11", "title": "Navigation round trips up to ==", "statement": "If child(c) is Some(k) then k.parent() == Some(original); if descendant(cs) is Some(k) and cs non-empty then k.ancestor(cs.len()) == original; and for depth()>0, parent().child(last cell) == original. Equality is the library's ==.", "quantifier": "every index obtainable through the safe API", "why_tests_cant": "The library's == compares raw storage bits, so any stale bit left by navigation breaks it; needs an invariant over all histories.", "anchors": ["src/indices/morton_index_2d.rs:ancestor,descendant,PartialEq", "src/indices/morton_index_3d.rs:ancestor,descendant,PartialEq"]}
{"id": "C12", "title": "Static indices sort in pre-order (lexicographic, prefix first)", "statement": "For static storage, a.cmp(b) is the lexicographic comparison of the cell sequences, a proper prefix sorting before its extensions; it does not panic and partial_cmp/<,<=,>,>= agree with it.", "quantifier": "every pair of static indices obtainable through the safe API, all widths, 2D and 3D, equal or different depths", "why_tests_cant": "Comparison is done on bit windows with width-dependent shifts incl. shift by the full word; pairs of all depths cannot be enumerated.", "anchors": ["src/indices/morton_index_2d.rs:StaticStorage2D Ord", "src/indices/morton_index_3d.rs:StaticStorage3D Ord"]}
{"id": "C13", "title": "Dynamic indices sort in the same order", "statement": "For dynamic storage, a.cmp(b) is the lexicographic comparison of the cell sequences with a proper prefix first, for any two depths.", "quantifier": "every pair of dynamic indices obtainable through the safe API, unbounded depth", "why_tests_cant": "Unbounded depth and byte-straddling cells.", "anchors": ["src/indices/morton_index_2d.rs:DynamicStorage2D Ord", "src/indices/morton_index_3d.rs:DynamicStorage3D Ord"]}
{"id": "C14", "title": "Fixed-depth indices sort in the same order", "statement": "For fixed-depth storage built through the cell- and grid-based API, the derived comparison is the lexicographic comparison of the cell sequences.", "quantifier": "every pair of fixed-depth indices of the same width not built from raw bits, 2D and 3D", "why_tests_cant": "Relies on every 3D index having zero in the unused low bits, an invariant over histories.", "anchors": ["src/indices/morton_index_2d.rs:FixedDepthStorage2D derive(Ord)", "src/indices/morton_index_3d.rs:FixedDepthStorage3D derive(Ord)"]}
{"id": "C15", "title": "cmp is a total order consistent with ==", "statement": "cmp is reflexive, antisymmetric (swap), transitive, and returns Equal exactly when == holds, for every storage type. Sorting, BTreeMap and binary search rely on it.", "quantifier": "all triples of indices of one type obtainable through the safe API", "why_tests_cant": "Order laws quantify over triples of indices of arbitrary depth.", "anchors": ["src/indices/morton_index_2d.rs:Ord,PartialEq", "src/indices/morton_index_3d.rs:Ord,PartialEq"]}
{"id": "C16", "title": "== means same cells, independent of construction history", "statement": "Two indices of the same type compare == exactly when they have the same depth and the same cells, no matter by which sequence of constructors, set_cell_at_level, ancestor, descendant, inverted or conversions they were produced.", "quantifier": "all pairs of indices reachable by any finite history of safe API calls (raw-bits constructors excluded)", "why_tests_cant": "Quantifies over all histories; == looks at unused storage bits that the API does not expose.", "anchors": ["src/indices/morton_index_2d.rs:PartialEq", "src/indices/morton_index_3d.rs:PartialEq, comment at StaticStorage3D::eq", "src/indices/morton_index_2d.rs:DynamicStorage2D::zeroed"]}
{"id": "C17", "title": "Equal indices hash equally", "statement": "If a == b then a and b feed the same data to any Hasher, for all storage types, so HashMap/HashSet lookups are sound.", "quantifier": "all pairs of values of each index type", "why_tests_cant": "Universal over pairs; StaticStorage derives Hash but implements PartialEq by hand.", "anchors": ["src/indices/morton_index_2d.rs:derive(Hash)", "src/indices/morton_index_3d.rs:derive(Hash)"]}
{"id": "C18", "title": "A subtree is a contiguous run of the sorted order", "statement": "If x is an ancestor-or-self of y then x <= y; and if x is an ancestor-or-self of both a and b and a <= m <= b then x is an ancestor-or-self of m. So sorting indices lays out a quadtree/octree in pre-order.", "quantifier": "all indices of variable-depth types obtainable through the safe API", "why_tests_cant": "Claims about all triples; the README's 'sort and you have a quadtree' is this statement.", "anchors": ["README.md", "src/indices/morton_index_2d.rs:Ord", "src/indices/morton_index_3d.rs:Ord"]}
{"id": "C19", "title": "to_grid_index reads one bit per axis per level, most significant first", "statement": "If depth() <= usize bits, to_grid_index(o) does not panic; each coordinate is < 2^depth() and bit depth()-1-l of each coordinate is the coordinate of the level-l cell under o.to_index.", "quantifier": "every index with depth at most the pointer width, every ordering, 2D and 3D", "why_tests_cant": "All cell sequences and depths.", "anchors": ["src/indices/morton_index_2d.rs:to_grid_index", "src/indices/morton_index_3d.rs:to_grid_index"]}
{"id": "C20", "title": "to_grid_index works for every index the library can represent", "statement": "to_grid_index (and to_string with GridIndex naming) never panics and never loses levels, including dynamic indices deeper than the pointer width.", "quantifier": "every dynamic index, every depth", "why_tests_cant": "TODO.md asks what happens; needs reasoning about shift overflow beyond tested depths.", "anchors": ["TODO.md", "src/indices/morton_index_2d.rs:to_grid_index", "src/indices/morton_index_3d.rs:to_grid_index"]}
{"id": "C21", "title": "2D fixed-depth: from_grid_index and to_grid_index are mutually inverse", "statement": "For every ordering, to_grid_index(from_grid_index(g,o),o) = g with each coordinate reduced modulo 2^MAX_LEVELS, and from_grid_index(to_grid_index(i,o),o) == i; no panic when MAX_LEVELS <= pointer width, explicit panic otherwise.", "quantifier": "every grid index, ordering and width", "why_tests_cant": "2^128 grid indices for the largest type.", "anchors": ["src/indices/morton_index_2d.rs:MortonIndex2D<FixedDepthStorage2D>::from_grid_index"]}
{"id": "C22", "title": "3D fixed-depth: from_grid_index and to_grid_index are mutually inverse", "statement": "As for 2D: to_grid_index(from_grid_index(g,o),o) = g modulo 2^MAX_LEVELS per coordinate and from_grid_index(to_grid_index(i,o),o) == i for indices not built from raw bits.", "quantifier": "every grid index, all six orderings, every width u8..u128, 32- and 64-bit targets (16-bit targets are C51; MAX_LEVELS at or above the pointer width does not compile); the round trip from an index: indices whose bits below the last cell are zero", "why_tests_cant": "Large input space, 21-bit chunking with leftover bits.", "anchors": ["src/indices/morton_index_3d.rs:MortonIndex3D<FixedDepthStorage3D>::from_grid_index"]}
{"id": "C23", "title": "The fast 64-bit 3D constructor equals the generic one", "statement": "from_grid_index_fast(g,o) == from_grid_index(g,o) for FixedDepthMortonIndex3D64.", "quantifier": "every grid index and all six orderings, 32- and 64-bit targets", "why_tests_cant": "2^192 inputs; no test compares the two.", "anchors": ["src/indices/morton_index_3d.rs:from_grid_index_fast", "CHANGELOG"]}
{"id": "C24", "title": "2D static: from_grid_index round trips at every depth", "statement": "For grid_depth <= MAX_LEVELS from_grid_index(g,grid_depth,o) is Ok(i) without panicking, i.depth()=grid_depth and i.to_grid_index(o) is g modulo 2^grid_depth; for larger grid_depth it is Err(DepthLimitedExceeded). from_grid_index(to_grid_index(i),depth,o) == i.", "quantifier": "every grid index, every depth 0..=MAX_LEVELS, ordering, width", "why_tests_cant": "Depth 0 and non-multiple-of-4 depths interact with shifts by the full word.", "anchors": ["src/indices/morton_index_2d.rs:MortonIndex2D<StaticStorage2D>::from_grid_index"]}
{"id": "C25", "title": "3D static: from_grid_index round trips at every depth", "statement": "For grid_depth <= MAX_LEVELS from_grid_index(g,grid_depth,o) is Ok(i), i.depth()=grid_depth and i.to_grid_index(o) is g modulo 2^grid_depth; for larger grid_depth Err(DepthLimitedExceeded).", "quantifier": "every grid index, every depth 0..=MAX_LEVELS, all six orderings, width u8..u128", "why_tests_cant": "Tests only cover depths 1, MAX_LEVELS-1 and MAX_LEVELS, where the chunk loop happens to cover all levels.", "anchors": ["src/indices/morton_index_3d.rs:MortonIndex3D<StaticStorage3D>::from_grid_index"]}
{"id": "C26", "title": "Dynamic: from_grid_index round trips", "statement": "For grid_depth <= half the pointer width from_grid_index(g,grid_depth,o) does not panic, has depth grid_depth and to_grid_index(o) = g modulo 2^grid_depth; for larger grid_depth it panics. 2D and 3D.", "quantifier": "every grid index, depth and ordering, 2D on every target, 3D on targets on which dynamic writes work (little-endian, or 16-bit)", "why_tests_cant": "Large input space; partial last chunk.", "anchors": ["src/indices/morton_index_2d.rs:MortonIndex2D<DynamicStorage2D>::from_grid_index", "src/indices/morton_index_3d.rs:MortonIndex3D<DynamicStorage3D>::from_grid_index"]}
{"id": "C27", "title": "Moving up the tree halves the grid", "statement": "to_grid_index(ancestor(i,g),o) equals to_grid_index(i,o) with every coordinate shifted right by g; to_grid_index of child(i,c) is 2*coordinate plus the coordinate of c.", "quantifier": "every variable-depth index with depth at most the pointer width, every g, ordering. Contents of dynamic indices: targets on which dynamic writes work (little-endian, or 16-bit); big-endian 32/64-bit targets are C47.", "why_tests_cant": "Relates two operations for all inputs.", "anchors": ["src/morton.rs:to_grid_index docs", "src/indices/morton_index_2d.rs", "src/indices/morton_index_3d.rs"]}
{"id": "C28", "title": "Cell-concatenation strings", "statement": "to_string(CellConcatenation) has one decimal digit per level, digit l being the index of cell l; CellConcatenationWithRoot is the same prefixed by 'r'. Both are injective: equal strings from two indices imply equal cells. They never panic.", "quantifier": "every index obtainable through the safe API", "why_tests_cant": "Injectivity quantifies over pairs.", "anchors": ["src/morton.rs:MortonIndexNaming", "src/indices/morton_index_2d.rs:to_string", "src/indices/morton_index_3d.rs:to_string"]}
{"id": "C29", "title": "Grid-index strings identify the node", "statement": "For depth() <= pointer width to_string(GridIndex) is depth-x-y (2D) / depth-x-y-z (3D) in decimal with the default ordering, and two indices with the same string have the same cells.", "quantifier": "every pair of indices with depth at most the pointer width", "why_tests_cant": "Injectivity over pairs, incl. decimal rendering.", "anchors": ["src/indices/morton_index_2d.rs:to_string", "src/indices/morton_index_3d.rs:to_string"]}
{"id": "C30", "title": "Orderings are bijections that match their documentation", "statement": "For each QuadrantOrdering / OctantOrdering, to_index is a bijection from cells to {0,1}^n, sends cells 1, 2, 4 to the documented unit vectors, and get_bit_shifts_for_xyz gives exactly the bit positions to_index reads. The default orderings are XY and XYZ.", "quantifier": "all orderings and all cells (finite, complete), plus all pairs for injectivity", "why_tests_cant": "Finite but used as the basis of every grid statement; tests check the shift table only.", "anchors": ["src/dimensions/dim_2d.rs:QuadrantOrdering", "src/dimensions/dim_3d.rs:OctantOrdering"]}
{"id": "C31", "title": "Cell conversions to and from usize are exact", "statement": "usize -> cell conversion succeeds exactly for values < 2^DIMENSIONALITY, otherwise Err(CellIndexOutOfRange); into() and index() invert it; ==, cmp, partial_cmp, <, <=, >, >= of cells are those of their numbers.", "quantifier": "every usize", "why_tests_cant": "All usize values.", "anchors": ["src/dimensions/dim_2d.rs:Quadrant", "src/dimensions/dim_3d.rs:Octant"]}
{"id": "C32", "title": "Fixed, static and dynamic conversions preserve the path", "statement": "fixed->static, fixed->dynamic, static->dynamic and dynamic->static (when depth fits) preserve depth and cells; static->fixed preserves the cells and pads with Zero; dynamic->static fails exactly when depth() > MAX_LEVELS with max_depth = MAX_LEVELS. fixed->static->fixed and static->dynamic->static are identities up to ==.", "quantifier": "every index obtainable through the safe API, every width, 2D and 3D; zero padding and the identities up to ==: indices without stray bits behind the last cell (which calls leave some is listed in DESIGN.md). Contents of dynamic indices: targets on which dynamic writes work (little-endian, or 16-bit); big-endian 32/64-bit targets are C47.", "why_tests_cant": "Every depth/width pair and every cell content.", "anchors": ["src/indices/morton_index_2d.rs:From/TryFrom conversions", "src/indices/morton_index_3d.rs:From/TryFrom conversions"]}
{"id": "C33", "title": "Dynamic to fixed-depth conversion keeps every cell at its level", "statement": "try_from(dynamic) for fixed-depth succeeds exactly when depth() <= MAX_LEVELS; the result's first depth() cells are the dynamic index's cells and the rest are Zero.", "quantifier": "every dynamic index obtainable through the safe API, every target width, 2D and 3D", "why_tests_cant": "Tests only use depths within one byte of the full width.", "anchors": ["src/indices/morton_index_2d.rs:TryFrom<MortonIndex2D<DynamicStorage2D>> for FixedDepth", "src/indices/morton_index_3d.rs:TryFrom<MortonIndex3D<DynamicStorage3D>> for FixedDepth", "src/number.rs:from_u8_slice"]}
{"id": "C34", "title": "Conversions preserve order and equality", "statement": "For two indices a, b of one storage type, converting both to another storage type (where the conversion preserves cells) preserves cmp and ==. 3D fixed-depth indices with stray bits: their static and dynamic versions compare in the same way, except that those of indices which differ in the stray bits only are Equal.", "quantifier": "all pairs of indices obtainable through the safe API; for == those without stray bits behind the last cell (the others: C109). Contents of dynamic indices: targets on which dynamic writes work (little-endian, or 16-bit); big-endian 32/64-bit targets are C47.", "why_tests_cant": "Pairs of indices of arbitrary depth.", "anchors": ["src/indices/morton_index_2d.rs", "src/indices/morton_index_3d.rs"]}
{"id": "C35", "title": "Integer get_bits / set_bits contract", "statement": "For start <= end <= BITS get_bits(start..end) returns exactly bits start..end shifted down; for start < BITS and new_value < 2^(end-start) set_bits replaces exactly those bits. get after set returns the value. No panic in that domain.", "quantifier": "every value of every unsigned width, every in-range bit range (including empty and full-word ranges)", "why_tests_cant": "All values and all ranges of five widths; full-word shifts are the classic edge case.", "anchors": ["src/number.rs:impl_bits!"]}
{"id": "C36", "title": "set_bits never writes outside the range", "statement": "Integer set_bits(start..end, v) leaves every bit outside start..end unchanged whatever v is.", "quantifier": "every value, range and new_value", "why_tests_cant": "Needs all new_value incl. over-wide ones.", "anchors": ["src/number.rs:impl_bits! set_bits"]}
{"id": "C37", "title": "Vec<u8> set_bits / set_bits_from_usize / get_bits_as_usize contract", "statement": "On little-endian targets, for an in-range bit range, set_bits and set_bits_from_usize replace exactly the addressed bits of the little-endian bit string by the low bits of the new value and keep the length; get_bits_as_usize (range at most the pointer width) returns exactly the addressed bits.", "quantifier": "every byte vector, every in-range range whose end plus 7 is representable in usize, every new value of at least one byte that is long enough to cover the range", "why_tests_cant": "Unbounded vectors, unaligned ranges spanning any number of bytes.", "anchors": ["src/number.rs:set_vec_u8_bits", "src/number.rs:impl Bits for Vec<u8>"]}
{"id": "C38", "title": "Vec<u8> get_bits returns exactly the addressed bits", "statement": "For start <= end <= 8*len, get_bits(start..end) returns ceil((end-start)/8) bytes holding exactly bits start..end, zero-padded.", "quantifier": "every byte vector and in-range bit range whose end plus 7 is representable in usize", "why_tests_cant": "Tests use five ranges.", "anchors": ["src/number.rs:Vec<u8>::get_bits"]}
{"id": "C39", "title": "Bit spreading helpers", "statement": "add_zero_before_every_bit_u8/u16, add_zero_behind_every_bit_u8 and add_two_zeroes_before_every_bit_u8/u32 move bit i of the input to bit 2i (2i+1, 3i) and produce zero everywhere else, for inputs within their documented number of bits; higher input bits are ignored as documented.", "quantifier": "every input value", "why_tests_cant": "2^32 inputs for the largest; tests only use all-ones prefixes.", "anchors": ["src/number.rs:add_zero_before_every_bit_u8 .. add_two_zeroes_before_every_bit_u32"]}
{"id": "C40", "title": "align_to rounds up to the next multiple", "statement": "x.align_to(a) with a != 0 is the least multiple of a that is >= x whenever that is representable; align_to(0) is x.", "quantifier": "every pair of values of every unsigned width", "why_tests_cant": "All pairs up to u128.", "anchors": ["src/align.rs:Alignable"]}
{"id": "C41", "title": "Displayable slices", "statement": "make_displayable(slice, naming) displays as '[' + the to_string of each index joined by ', ' + ']', the empty slice as '[]', without panicking; its ==, cmp are those of the slices (lexicographic), independent of naming.", "quantifier": "every slice of indices, every naming", "why_tests_cant": "Unbounded slices; the separator logic uses len()-1.", "anchors": ["src/helper.rs:DisplayableMortonIndexSlice"]}
{"id": "C42", "title": "from_u8_slice reads the leading bytes and zero-fills", "statement": "For every unsigned integer width, from_u8_slice(bytes, LittleEndian) is the little-endian value of the first size_of bytes, missing bytes being zero; BigEndian is the big-endian value of the same zero-filled array.", "quantifier": "every byte slice, both endiannesses, every width", "why_tests_cant": "Slices of every length.", "anchors": ["src/number.rs:from_u8_slice"]}
{"id": "C43", "title": "Any history of safe operations behaves like a list of cells", "statement": "Running any finite sequence of set_cell_at_level, ancestor, parent, with_depth, descendant, child, inverted, on a static or dynamic index yields the same observations (results, None, panics) as running it on a plain list of cells with the storage's capacity.", "quantifier": "every finite operation sequence from every constructor, all widths, 2D and 3D. Contents of dynamic indices: targets on which dynamic writes work (little-endian, or 16-bit); big-endian 32/64-bit targets are C47.", "why_tests_cant": "Unbounded histories.", "anchors": ["src/indices/morton_index_2d.rs", "src/indices/morton_index_3d.rs", "src/morton.rs"]}
{"id": "C44", "title": "Safe API calls never reach undefined behaviour", "statement": "No sequence of safe public index operations performs an out-of-bounds raw read, NonZeroUsize::new_unchecked(0) or any other modelled undefined behaviour, on any input, including operations that panic.", "quantifier": "every finite history of safe API calls incl. raw-bits constructors with any depth, every input", "why_tests_cant": "Absence of UB for all inputs is not observable by tests.", "anchors": ["src/number.rs:set_vec_u8_bits", "src/morton.rs:with_depth"]}
{"id": "C45", "title": "Fixed-depth order is Z-order of the grid", "statement": "For fixed-depth indices made by from_grid_index with the same ordering, the comparison is decided by the highest bit position in which any coordinate differs, and is monotone in each coordinate: increasing coordinates never decreases the index.", "quantifier": "all pairs of grid indices below 2^MAX_LEVELS, all orderings, widths whose MAX_LEVELS fits the pointer width; 3D on 32- and 64-bit targets", "why_tests_cant": "Pairs of grid points.", "anchors": ["src/indices/morton_index_2d.rs:from_grid_index", "src/indices/morton_index_3d.rs:from_grid_index", "README.md"]}
{"id": "C46", "title": "zeroed(depth) is the all-Zero path", "statement": "Static zeroed(d) is None iff d > MAX_LEVELS, otherwise an index of depth d with all cells Zero, equal (==) to try_from([Zero; d]). Dynamic zeroed(d) has depth d with all cells Zero and equals try_from([Zero; d]).", "quantifier": "every depth. Contents of dynamic indices: targets on which dynamic writes work (little-endian, or 16-bit); big-endian 32/64-bit targets are C47.", "why_tests_cant": "Every depth; equality depends on the byte count chosen.", "anchors": ["src/indices/morton_index_2d.rs:zeroed", "src/indices/morton_index_3d.rs:zeroed"]}
{"id": "C47", "title": "Dynamic indices work on every supported target", "statement": "The cell read/write contract of dynamic indices does not depend on the target's endianness.", "quantifier": "little- and big-endian targets, every index", "why_tests_cant": "CI runs on one architecture.", "anchors": ["src/number.rs:set_bits_from_usize,set_vec_u8_bits", "src/indices/morton_index_2d.rs:cfg(target_endian)", "src/indices/morton_index_3d.rs:cfg(target_endian)"]}
{"id": "C48", "title": "Default indices are the root (or the all-Zero path)", "statement": "Default static and dynamic indices have depth 0 and no cells, are == to try_from([]) and are the ancestor of every index at generations = depth(); the default fixed-depth index has all cells Zero.", "quantifier": "all widths, 2D and 3D, every index", "why_tests_cant": "ancestor(depth()) == default must hold for every history.", "anchors": ["src/indices/morton_index_2d.rs:Default", "src/indices/morton_index_3d.rs:Default"]}
{"id": "C49", "title": "Raw-bits constructors expose the stored cells and round trip", "statement": "3D from_raw_index(b) (fixed) has depth MAX_LEVELS and its level-l cell is bits BITS-3(l+1)..BITS-3l of b; static from_raw_index(b, d) with d <= MAX_LEVELS has depth d and the same cells; indices built from raw bits with zero unused bits are == to the same cells built with try_from.", "quantifier": "every raw value of every width, every depth up to MAX_LEVELS", "why_tests_cant": "All raw values.", "anchors": ["src/indices/morton_index_3d.rs:from_raw_index"]}
{"id": "C50", "title": "Writing a cell back restores an equal index", "statement": "If get_cell_at_level(l) is old, then set_cell_at_level(l, v) followed by set_cell_at_level(l, old) gives an index == to the original, for any v: a write leaves nothing behind that a second write does not undo.", "quantifier": "every index obtainable through the safe API including raw-bits ones with stray bits, every level below the depth, every pair of cells, all storages, 2D and 3D. Contents of dynamic indices: targets on which dynamic writes work (little-endian, or 16-bit); big-endian 32/64-bit targets are C47.", "why_tests_cant": "The claim is about == on the hidden bit pattern for every level, width and history; a test sees a few patterns, and a write that disturbs padding bits only shows up in == and hashing.", "anchors": ["src/indices/morton_index_2d.rs: set_cell_at_level, set_cell_at_level_unchecked", "src/indices/morton_index_3d.rs: set_cell_at_level, set_cell_at_level_unchecked", "src/number.rs: set_bits"]}
{"id": "C51", "title": "3D fixed-depth from_grid_index on 16-bit targets", "statement": "On 16-bit targets fixed-depth 3D from_grid_index never delivers the position: for u8..u32 it overflows (debug) or returns the all-Zero index whatever the position (release), and for u64/u128 it does not compile. So C22 cannot be claimed for every supported target.", "quantifier": "every grid index, all six orderings, every width, debug and release, 16-bit pointers", "why_tests_cant": "The test suite runs on the 64-bit host; the behaviour on a 16-bit target for every position needs a model with the pointer width as a parameter.", "anchors": ["src/indices/morton_index_3d.rs: from_grid_index (fixed depth)"]}
{"id": "C52", "title": "The unchecked accessors agree with the checked ones", "statement": "For every level below the depth, get_cell_at_level_unchecked returns the same cell as get_cell_at_level and set_cell_at_level_unchecked leaves the same index as set_cell_at_level; neither pair panics.", "quantifier": "every index obtainable through the safe API, every level below its depth, every cell, all storages, 2D and 3D, every target", "why_tests_cant": "The agreement is over all bit patterns, depths, widths and levels of six storages; a test compares a few of them.", "anchors": ["src/indices/morton_index_2d.rs: get_cell_at_level_unchecked, set_cell_at_level_unchecked", "src/indices/morton_index_3d.rs: get_cell_at_level_unchecked, set_cell_at_level_unchecked"]}
{"id": "C53", "title": "The declared depth limits are exactly the capacity", "statement": "The limit declared by a fixed-depth or static storage (Storage::max_depth() and the MAX_LEVELS constants) is the largest number of cells try_from accepts: every slice of at most that length succeeds, every longer one is rejected with DepthLimitedExceeded carrying that constant, no obtainable index is deeper, and fixed-depth indices have exactly this depth. Dynamic storages declare no limit and reject nothing. The 3D MAX_LEVELS_BITMASK has exactly the lowest MAX_LEVELS bits set, and does not compile where usize is too narrow for it.", "quantifier": "every slice of cells, every obtainable index (3D static raw-bits indices up to MAX_LEVELS deep), every width u8..u128, 2D and 3D, every target; dynamic: slices that fit in memory", "why_tests_cant": "Ties a constant to the behaviour on all slices and all reachable indices; unit tests check single lengths.", "anchors": ["src/indices/storage.rs: Storage::max_depth", "src/indices/morton_index_2d.rs: MAX_LEVELS, try_from", "src/indices/morton_index_3d.rs: MAX_LEVELS, try_from"]}
{"id": "C54", "title": "Whole-number conversions of Bits containers", "statement": "as_uN and from_uN of an integer truncate or zero-extend its value. from_uN of a byte vector is the memory of the number; as_uN undoes it, returns the number in native byte order for every vector of exactly N/8 bytes, and panics for every other length. from_u8_slice keeps the number while changing the byte order to that of the target; as_u8_slice is the memory, and bytes written through as_u8_slice_mut are what it shows afterwards; as_u8 of a vector is its first byte and panics if there is none.", "quantifier": "every integer and width pair, every byte vector of any length, both byte orders as argument and as target", "why_tests_cant": "The values depend on the byte order of the target and on every length of the vector relative to the integer size.", "anchors": ["src/number.rs: Bits for integers and Vec<u8>, ToFromBytes"]}
{"id": "C55", "title": "Order follows the cells: siblings, parents and single-cell writes", "statement": "Children of one index compare like their cell numbers, are == only for the same cell, and come strictly after their parent; and replacing the cell at a level by v or by w gives two indices that compare like v and w.", "quantifier": "every obtainable index, every pair of cells, every level, all storages, 2D and 3D. Contents of dynamic indices: targets on which dynamic writes work (little-endian, or 16-bit); big-endian 32/64-bit targets are C47.", "why_tests_cant": "Monotonicity is a statement over all pairs of cells at all levels of all bit patterns; the comparison code walks chunks and bytes whose boundaries tests seldom hit.", "anchors": ["src/indices/morton_index_2d.rs: Ord::cmp, child, set_cell_at_level", "src/indices/morton_index_3d.rs: Ord::cmp, child, set_cell_at_level"]}
{"id": "C56", "title": "Navigation composes", "statement": "ancestor(g) then ancestor(h) equals ancestor(g+h) (both none or Equal indices); descendant(cs) then descendant(ds) equals descendant(cs ++ ds); and an ancestor extended by the cells that were cut off compares Equal to the original.", "quantifier": "every obtainable variable-depth index, all generations and all slices (descendant of dynamic indices: results that fit in memory), 2D and 3D. Contents of dynamic indices: targets on which dynamic writes work (little-endian, or 16-bit); big-endian 32/64-bit targets are C47.", "why_tests_cant": "Composition laws quantify over two or three arguments and every depth; errors show up only in the bits that cmp ignores or at byte boundaries.", "anchors": ["src/indices/morton_index_2d.rs: ancestor, descendant", "src/indices/morton_index_3d.rs: ancestor, descendant"]}
{"id": "C57", "title": "Converting static to fixed-depth never reverses the order", "statement": "If a <= b for two static indices, then the fixed-depth indices converted from them satisfy a <= b, although different depths may collapse to equal indices. Static indices with stray bits (3D only): the order can be reversed only between an index and one in its subtree.", "quantifier": "all pairs of obtainable static indices, every width u8..u128, 2D and 3D, every target", "why_tests_cant": "A relation between two different comparison algorithms over all pairs of indices of different depths.", "anchors": ["src/indices/morton_index_2d.rs: From<static> for fixed depth, Ord::cmp", "src/indices/morton_index_3d.rs: From<static> for fixed depth, Ord::cmp"]}
{"id": "C58", "title": "Conversions between static and dynamic commute with the operations", "statement": "Converting a static index to dynamic (or a dynamic index that fits to static) and then writing a cell, inverting the path or going to an ancestor gives an index comparing Equal to the one obtained by doing the operation first and converting afterwards; ancestors exist on one side exactly when they exist on the other.", "quantifier": "every obtainable static index, every obtainable dynamic index that fits, every argument, every width, 2D and 3D, targets on which dynamic writes work (little-endian, or 16-bit)", "why_tests_cant": "Commuting squares over all states and arguments across two implementations of the same operation.", "anchors": ["src/indices/morton_index_2d.rs: From/TryFrom between storages, set_cell_at_level, inverted, ancestor", "src/indices/morton_index_3d.rs: From/TryFrom between storages, set_cell_at_level, inverted, ancestor"]}
{"id": "C59", "title": "The grid constructors agree with each other", "statement": "Fixed-depth from_grid_index equals static from_grid_index at MAX_LEVELS; dynamic and static from_grid_index agree at the same depth; and the k-th ancestor of from_grid_index(g, d+k) is from_grid_index(g >> k, d).", "quantifier": "every grid index, depth, ordering and width u8..u128, 2D and 3D, every target", "why_tests_cant": "Three independent bit-spreading loops must agree on every position at every depth.", "anchors": ["src/indices/morton_index_2d.rs: from_grid_index", "src/indices/morton_index_3d.rs: from_grid_index"]}
{"id": "C60", "title": "Debug and release builds differ only where a debug build reports overflow", "statement": "For the same call on the same target, a build with overflow checks either panics with an arithmetic overflow or does exactly what the build without checks does: same value, same error, same panic. A whole program none of whose steps overflowed in a debug build makes the same observations in a release build.", "quantifier": "every public operation, conversion, constructor and Bits function on arbitrary values (reachable or not) and arguments, all storages and widths, 2D and 3D, every target; programs of any length", "why_tests_cant": "Tests run in one profile. The claim compares two semantics of every arithmetic operation in the crate on all states, including those only unchecked arithmetic reaches.", "anchors": ["src/indices/morton_index_2d.rs: all", "src/indices/morton_index_3d.rs: all", "src/number.rs", "src/align.rs", "src/helper.rs"]}
{"id": "C61", "title": "Storage and target are interchangeable", "statement": "A program over variable-depth indices (get, set, iterate, invert, navigate, compare) makes the same observations whether it runs on static indices of any width or on dynamic ones, and on any two targets, as long as it is started on indices with the same cells and does not hit different depth limits.", "quantifier": "all programs of any length, all starting indices obtainable through the safe API (programs using ==: without stray bits), all pairs of storages, widths and targets, 2D and 3D; extensions that fit in memory. Contents of dynamic indices: targets on which dynamic writes work (little-endian, or 16-bit); big-endian 32/64-bit targets are C47.", "why_tests_cant": "A relation between two runs of arbitrary programs on two implementations and two targets; tests execute one run on one target.", "anchors": ["src/indices/morton_index_2d.rs: static and dynamic storages", "src/indices/morton_index_3d.rs: static and dynamic storages", "src/morton.rs"]}
{"id": "C62", "title": "== never confuses two indices", "statement": "== is an equivalence relation, and two indices it calls equal have the same depth, the same cells, compare as Equal and feed the same data to the hasher.", "quantifier": "all pairs of indices obtainable through the safe API, with no exception for stray bits (equivalence: all values of the types); every storage and width, 2D and 3D, every target", "why_tests_cant": "Soundness of a hand-written comparison against a derived equality over all pairs of states, including those with stray bits.", "anchors": ["src/indices/morton_index_2d.rs: PartialEq, Ord, Hash", "src/indices/morton_index_3d.rs: PartialEq, Ord, Hash"]}
{"id": "C63", "title": "Navigation round trips keep the place, whatever the history", "statement": "Descending along cells and going up as many generations, going to a child and back to its parent, and going to the parent and back along the last cell all lead to an index with the same depth and cells that compares as Equal to the start (although == may say no when stray bits are involved).", "quantifier": "every variable-depth index obtainable through the safe API with no exception, every path that fits in memory, 2D and 3D. Contents of dynamic indices: targets on which dynamic writes work (little-endian, or 16-bit); big-endian 32/64-bit targets are C47.", "why_tests_cant": "Quantifies over all histories, including those through zeroed, from_raw_index and conversions that leave stray bits, and over paths of any length.", "anchors": ["src/indices/morton_index_2d.rs: ancestor, descendant, parent, child, Ord::cmp", "src/indices/morton_index_3d.rs: ancestor, descendant, parent, child, Ord::cmp"]}
{"id": "C64", "title": "Order of 3D fixed-depth indices for all bit patterns", "statement": "Two 3D fixed-depth indices compare by their cells, lexicographically from the root, whenever their cells differ; with the same cells they compare by the unused low bits, so they compare as Equal exactly when those agree.", "quantifier": "all pairs of integers of any width u8..u128 as raw index, every target", "why_tests_cant": "A statement over all pairs of 128-bit patterns.", "anchors": ["src/indices/morton_index_3d.rs: FixedDepthStorage3D PartialOrd/Ord"]}
{"id": "C65", "title": "A recursive walk with child visits a subtree in order, each node once", "statement": "A depth-first walk written with child (visit a node, then its children in ascending cell order, stopping where child returns None) visits exactly the nodes of the subtree down to the requested number of levels, each exactly once, in strictly ascending order.", "quantifier": "every static or dynamic start index obtainable through the safe API, every number of levels (dynamic: as far as memory can address), 2D and 3D. Contents of dynamic indices: targets on which dynamic writes work (little-endian, or 16-bit); big-endian 32/64-bit targets are C47.", "why_tests_cant": "The number of visited nodes is exponential in the depth, and the claim covers all start nodes and depths, including where the walk is cut off by the depth limit.", "anchors": ["src/indices/morton_index_2d.rs: child, Ord::cmp", "src/indices/morton_index_3d.rs: child, Ord::cmp"]}
{"id": "C66", "title": "The order of indices is the Z-order of their grid positions", "statement": "Two indices of the same depth compare the way their grid positions do in Z-order: the highest bit level at which the positions differ decides, the axis order within a level being the chosen ordering. In particular comparison is monotone in the coordinates, and only equal positions compare as Equal. (3D fixed-depth indices at equal positions are ordered by the bits that belong to no cell, which are equal unless one was made from a raw integer or by bits_mut.)", "quantifier": "all pairs of indices of equal depth up to the pointer width obtainable through the safe API, all orderings, every storage and width, 2D and 3D, every target", "why_tests_cant": "Relates two independent functions, cmp and to_grid_index, on all pairs of states.", "anchors": ["src/indices/morton_index_2d.rs: Ord::cmp, to_grid_index", "src/indices/morton_index_3d.rs: Ord::cmp, to_grid_index"]}
{"id": "C67", "title": "A subtree is an axis-aligned box of the grid", "statement": "An index lies in the subtree of another one (its ancestor at that depth compares as Equal) exactly when its grid position lies in the square or cube that the other one covers.", "quantifier": "all pairs of variable-depth indices of depth up to the pointer width obtainable through the safe API, all orderings, 2D and 3D, every target", "why_tests_cant": "An equivalence over all pairs of states between navigation and grid arithmetic.", "anchors": ["src/indices/morton_index_2d.rs: ancestor, Ord::cmp, to_grid_index", "src/indices/morton_index_3d.rs: ancestor, Ord::cmp, to_grid_index"]}
{"id": "C68", "title": "Choosing an ordering only renames the axes", "statement": "Each from_grid_index gives the same result (same index, same error, same panic) for two positions under two orderings whenever the coordinates agree axis by axis in the order of the orderings' names; to_grid_index under two orderings gives the same coordinates up to that renaming, and fails for one ordering exactly when it fails for the other.", "quantifier": "all positions, depths, pairs of orderings, storages and widths, 2D and 3D, including from_grid_index_fast; to_grid_index on all values, reachable or not; every target, debug and release", "why_tests_cant": "A relation between pairs of calls over all positions and all 36 pairs of 3D orderings, including the failing calls.", "anchors": ["src/indices/morton_index_2d.rs: from_grid_index, to_grid_index", "src/indices/morton_index_3d.rs: from_grid_index, to_grid_index", "src/dimensions/dim_2d.rs", "src/dimensions/dim_3d.rs"]}
{"id": "C69", "title": "Sort a bunch of indices and you have a quadtree (octree)", "statement": "Every list of indices can be sorted by the library's order. In a sorted list the nodes of any subtree form one contiguous block; everything before the block is smaller than the root of the subtree, everything after it greater than every node of the subtree; inside the block the root precedes the nodes below it, and these are grouped by child in cell order.", "quantifier": "all lists of static or dynamic indices obtainable through the safe API, of any length and with repetitions, all subtree roots (in the list or not), 2D and 3D, every target", "why_tests_cant": "A statement about all sorted lists and all subtrees.", "anchors": ["src/indices/morton_index_2d.rs: Ord::cmp, with_depth", "src/indices/morton_index_3d.rs: Ord::cmp, with_depth", "README.md"]}
{"id": "C70", "title": "Writing a cell moves the index by one bit per axis", "statement": "After set_cell_at_level(l, cell) the grid position differs from the one before at most in the bit of level l of each coordinate, and that bit is the one the cell stands for under the ordering.", "quantifier": "every index of depth up to the pointer width obtainable through the safe API, every level below the depth, every cell and ordering, every storage and width, 2D and 3D. Contents of dynamic indices: targets on which dynamic writes work (little-endian, or 16-bit); big-endian 32/64-bit targets are C47.", "why_tests_cant": "Relates set_cell_at_level and to_grid_index on all states.", "anchors": ["src/indices/morton_index_2d.rs: set_cell_at_level, to_grid_index", "src/indices/morton_index_3d.rs: set_cell_at_level, to_grid_index"]}
{"id": "C71", "title": "inverted reverses the bits of the grid position", "statement": "The grid position of inverted() has, in each coordinate, the lowest depth bits in reverse order and all higher bits zero.", "quantifier": "every index of depth up to the pointer width obtainable through the safe API, every ordering, storage and width, 2D and 3D. Contents of dynamic indices: targets on which dynamic writes work (little-endian, or 16-bit); big-endian 32/64-bit targets are C47.", "why_tests_cant": "Relates inverted and to_grid_index on all states.", "anchors": ["src/indices/morton_index_2d.rs: inverted, to_grid_index", "src/indices/morton_index_3d.rs: inverted, to_grid_index"]}
{"id": "C72", "title": "Grid position of a descendant", "statement": "The grid position of a descendant k levels down is, per axis, the position of the start times 2^k plus the position that the k cells of the path describe on their own.", "quantifier": "every variable-depth index obtainable through the safe API and every path such that the total depth is at most the pointer width, every ordering, 2D and 3D. Contents of dynamic indices: targets on which dynamic writes work (little-endian, or 16-bit); big-endian 32/64-bit targets are C47.", "why_tests_cant": "All start states and all paths.", "anchors": ["src/indices/morton_index_2d.rs: descendant, child, to_grid_index", "src/indices/morton_index_3d.rs: descendant, child, to_grid_index"]}
{"id": "C73", "title": "Errors are reported exactly for inputs that are too deep, and name the limit", "statement": "Each fallible constructor and conversion (try_from a slice or array, static from_grid_index, dynamic to static, dynamic to fixed depth) returns Err exactly when the input is deeper than the type allows, and the message of the error spells out that limit in decimal; converting a number to a cell fails only with the out-of-range message. Different errors have different messages.", "quantifier": "all inputs, all integer widths, 2D and 3D, every target, debug and release", "why_tests_cant": "All inputs and widths, in particular that no other error is ever returned.", "anchors": ["src/indices/morton_index_2d.rs: TryFrom, from_grid_index", "src/indices/morton_index_3d.rs: TryFrom, from_grid_index", "src/error.rs"]}
{"id": "C74", "title": "A subtree is a range of the order that can be computed", "statement": "For a node m and a number of levels k, let lo and hi be the descendants of m along k copies of the first and of the last cell. A node no deeper than hi lies in the subtree of m exactly when m <= x <= hi; a node as deep as hi lies in it exactly when lo <= x <= hi. So subtrees can be looked up as ranges of a sorted collection.", "quantifier": "all variable-depth indices obtainable through the safe API as m and x, all k, 2D and 3D. Contents of dynamic indices: targets on which dynamic writes work (little-endian, or 16-bit); big-endian 32/64-bit targets are C47.", "why_tests_cant": "An equivalence over all pairs of nodes and all depths.", "anchors": ["src/indices/morton_index_2d.rs: descendant, ancestor, Ord::cmp", "src/indices/morton_index_3d.rs: descendant, ancestor, Ord::cmp"]}
{"id": "C75", "title": "Fixed-depth indices with a common prefix are a range that can be computed", "statement": "Let lo be made by try_from from some cells and hi from the same cells followed by copies of the last cell up to the fixed depth. A fixed-depth index starts with these cells exactly when lo <= x <= hi.", "quantifier": "all slices of cells up to the fixed depth, all fixed-depth indices obtainable through the safe API (3D indices with stray bits: the range is the same except that those with the cells of its last index may lie behind it), every width, 2D and 3D, every target", "why_tests_cant": "An equivalence over all cell prefixes and all indices of up to 128 bits.", "anchors": ["src/indices/morton_index_2d.rs: TryFrom, Ord::cmp, get_cell_at_level", "src/indices/morton_index_3d.rs: TryFrom, Ord::cmp, get_cell_at_level"]}
{"id": "C76", "title": "Bit ranges that reach beyond the container", "statement": "get_bits / set_bits (and the usize variants) with a range that leaves the container do no silent damage. A Vec<u8> panics with an index out of bounds, in debug and release; for a range inside the vector the unsafe write is defined exactly when the bits for the last byte start inside the new value. An integer reads zeros behind its last bit and drops written bits that do not fit; debug builds panic when the range is longer than the word or a write starts behind the last bit.", "quantifier": "all containers, values and non-empty ranges (end + 7 representable in usize), all integer widths (range starts below 2^width and 2^32; beyond, the start wraps), every target", "why_tests_cant": "All containers and ranges; the unsafe read must be shown to stay in bounds for every input the contract allows.", "anchors": ["src/number.rs: impl_bits!, set_vec_u8_bits, impl Bits for Vec<u8>"]}
{"id": "C77", "title": "Common ancestors", "statement": "For two nodes there is a depth n such that cutting both with with_depth(d) gives the same node exactly for d <= n, so the lowest common ancestor can be found by (binary) search. The cells at level n, if both exist, differ and decide the order; if one node is the common ancestor it is not greater; every index that sorts between the two has the same first n cells.", "quantifier": "all pairs (and triples) of variable-depth indices obtainable through the safe API, static and dynamic, 2D and 3D, every target", "why_tests_cant": "All pairs and triples of paths of any depth.", "anchors": ["src/indices/morton_index_2d.rs: with_depth, ancestor, Ord::cmp", "src/indices/morton_index_3d.rs: with_depth, ancestor, Ord::cmp"]}
{"id": "C78", "title": "Debug output tells values apart exactly as == does", "statement": "The {:?} texts, and the {:#?} texts, of two indices of the same type are the same exactly when == holds, whatever bits they hold, so a failed assert_eq! never prints two identical sides. The texts of cells, errors, orderings and naming styles tell their values apart as well.", "quantifier": "all pairs of values of every index type (fixed-depth, static, dynamic; 2D and 3D; every integer width), all errors, cells, orderings and naming styles", "why_tests_cant": "All pairs of values, including byte vectors of any length.", "anchors": ["src/indices/morton_index_2d.rs: derive(Debug), PartialEq", "src/indices/morton_index_3d.rs: derive(Debug), PartialEq", "src/error.rs: derive(Debug)"]}
{"id": "C79", "title": "Unchecked accesses beyond the depth", "statement": "get_cell_at_level_unchecked and set_cell_at_level_unchecked with a level at or beyond the depth do not corrupt memory, whatever the stored bits. With overflow checks a level beyond the capacity of the storage panics. Without them (release builds) the address wraps around. In 2D a write then goes to another level, the level modulo the capacity, and replaces its cell (at the first level beyond the capacity it combines the bits of both cells), while a read returns Zero unless the level is congruent to one inside modulo 2^(min(w, 32, usize bits) - 1); in 3D it goes to the wrapped bits, which may belong to two cells; a dynamic index reads Zero and ignores writes at the levels of the first byte behind its bytes (up to ten bits before the end of the address space in 3D) and panics beyond. Between depth and capacity a write of a static or dynamic index changes no cell that checked reads return, neither the depth nor the order, and makes the index unequal under == exactly if it changes the (otherwise invisible) stored cell, which is Zero as long as no such write happened.", "quantifier": "every supported target, every integer width, every stored value (every history for the part between depth and capacity), every level, every cell; that only Zero is stored there: 2D static indices, and other indices without stray bits. Contents of dynamic indices: targets on which dynamic writes work (little-endian, or 16-bit); big-endian 32/64-bit targets are C47.", "why_tests_cant": "The documentation calls these calls undefined behaviour, so a test of them proves nothing; whether anything can go wrong is a question about all stored values and all levels.", "anchors": ["src/morton.rs: MortonIndex::get_cell_at_level_unchecked, set_cell_at_level_unchecked", "src/storage.rs: FixedDepthStorage, StaticStorage, DynamicStorage accessors"]}
{"id": "C80", "title": "Editing the bits of a storage", "statement": "bits_mut of a storage edits what bits returns and neither the depth nor anything else; == compares exactly bits and depth. Whatever bits have been written: the cell at a level is the digit in base 4 (8) of the number the bits form, counted from its most significant end (for byte vectors, last byte first); writing a cell replaces this digit only; the order of variable-depth storages is the pre-order of the paths so shown, the order of fixed-depth storages is that of the numbers; ancestor and descendant drop and append cells.", "quantifier": "all values of the six storage types with room for their depth (safe code can construct any of them through bits_mut), all edits, levels, cells, generations, slices; every integer width and supported target. Contents of dynamic indices: targets on which dynamic writes work (little-endian, or 16-bit); big-endian 32/64-bit targets are C47.", "why_tests_cant": "All bit patterns of up to 128 bits and byte vectors of any length, including those no sequence of index operations produces.", "anchors": ["src/indices/storage.rs: Storage::bits, bits_mut", "src/indices/morton_index_2d.rs: Storage for ..., Ord::cmp, ancestor, descendant", "src/indices/morton_index_3d.rs: Storage for ..., Ord::cmp, ancestor, descendant"]}
{"id": "C81", "title": "The accessors of the storage types on any container", "statement": "StorageType::get_cell_at_level_unchecked and set_cell_at_level_unchecked are generic in the container. Every storage type reads and writes the same bits in every container that is large enough: the D bits of the level counted down from the bit width of the storage type (of the container, for DynamicStorage), in an integer of any width as in the little-endian bytes of a vector; a write changes no other bit.", "quantifier": "all integers of every width at least that of the storage type, all byte vectors with enough bytes, all levels inside, all cells, 2D and 3D, every supported target (dynamic writes to vectors: little-endian and 16-bit big-endian)", "why_tests_cant": "All containers, levels and combinations of storage type and container, most of which the crate itself never uses.", "anchors": ["src/indices/storage.rs: StorageType for FixedDepthStorage, StaticStorage, DynamicStorage"]}
{"id": "C82", "title": "Programs over all index types", "statement": "A program that starts with nothing and mixes construction (default, try_from, zeroed, from_grid_index, from_grid_index_fast, from_raw_index), conversions between fixed-depth, static and dynamic indices, reads, writes, navigation, iteration, comparison, grid positions and strings observes at every call exactly what it would observe if an index were nothing but its type and its list of cells, including None, errors, panics and calls the type does not have.", "quantifier": "all programs of any length over any number of indices of all types and integer widths, every supported target, 2D and 3D; each call is one the properties about it cover when it is reached (sizes representable in usize; grid depths of C21-C26; the depths and byte orders of C33). Of the calls that leave stray bits (integers with bits outside the cells, C49; 2D dynamic zeroed depths divisible by four, C46) there are none, or the program does without the calls that show stray bits: == on dynamic and all 3D indices, comparison of 3D fixed-depth indices, conversion of dynamic and all 3D indices to fixed-depth ones. Contents of dynamic indices: targets on which dynamic writes work (little-endian, or 16-bit); big-endian 32/64-bit targets are C47.", "why_tests_cant": "All programs and all data; the state one call leaves behind must be fit for every later call on it.", "anchors": ["src/indices/morton_index_2d.rs: the public API of all index types", "src/indices/morton_index_3d.rs: the public API of all index types"]}
{"id": "C83", "title": "Indices over storages of other crates", "statement": "Storage and VariableDepthStorage are public traits. If a storage keeps their documented contract (it holds a list of cells; depth is its length; the accessors read and write one cell; ancestor and descendant drop and append cells, None beyond its greatest depth; == and cmp are those of the lists), then MortonIndex2D and MortonIndex3D over it read, write, panic, invert, navigate, compare, form subtrees, give grid positions and strings exactly as C01, C02, C06-C13, C15, C16, C18-C20, C27-C29, C50, C52, C66, C67, C69-C72 say, and programs over them observe what they would observe on lists. The storages of the crate keep the contract.", "quantifier": "all storage types, whatever their representation, that keep the contract on a set of values closed under the operations; all such values, levels, cells, generations, programs; every supported target", "why_tests_cant": "The storage type itself is universally quantified; a test can only try storages that exist.", "anchors": ["src/indices/storage.rs: Storage, VariableDepthStorage", "src/indices/morton_index_2d.rs: MortonIndex and VariableDepthMortonIndex for MortonIndex<S>", "src/indices/morton_index_3d.rs: MortonIndex and VariableDepthMortonIndex for MortonIndex<S>"]}
{"id": "C84", "title": "Fixed-depth and static indices over any container", "statement": "FixedDepthStorage2D/3D<B> and StaticStorage2D/3D<B> accept any B: FixedStorageType, described as an integer with an arbitrary number of bits. If B behaves as a number of B::BITS bits (get_bits and set_bits read and replace a range of digits, comparison and equality are those of numbers, conversions keep numbers that fit, as_u8_slice and from_u8_slice are the bytes of the number), then the indices over B behave as those over the integers of the crate: default, zeroed, try_from and from_raw_index give the requested cells or the error naming BITS/dimension levels; the storages keep the contract of C83 with everything it implies; from_grid_index and to_grid_index are inverse within the limits of C21-C25; conversions among fixed-depth, static and dynamic indices keep the cells (dynamic to fixed depth on little-endian targets exactly when the byte counts agree or all cells are Zero, on big-endian targets exactly when the path, filled up to whole bytes, is the same with its bytes reversed); equal indices hash equally. The integers of the crate and byte arrays of any length meet the contract.", "quantifier": "all container types, whatever their representation and size (static indices: at most 255 levels; 2D grid positions: a whole number of bytes), that keep the contract; all values, cell lists, depths, grid positions and orderings; every supported target", "why_tests_cant": "The container type itself is universally quantified, with an unbounded number of bits; a test can only try containers that exist.", "anchors": ["src/indices/mod.rs: FixedStorageType", "src/indices/morton_index_2d.rs: FixedDepthStorage, StaticStorage, from_grid_index, zeroed, try_from, From conversions", "src/indices/morton_index_3d.rs: FixedDepthStorage, StaticStorage, from_grid_index, zeroed, try_from, From conversions"]}
{"id": "C85", "title": "Static indices as deep as their container", "statement": "A static index over any container keeps every cell that try_from, descendant, child or a conversion accept: as many as MAX_LEVELS of the container says. (False from 256 levels on: the depth is a u8 and is cut to its lowest byte, so the cells are written but only their number modulo 256 is visible; from_grid_index panics at every depth with overflow checks and returns nothing but Zero cells without. Proved: exactly what each call returns, and that nothing goes wrong below 256 levels.)", "quantifier": "all containers that keep the contract of C84, of any size; all cell lists, indices, fixed-depth and dynamic sources; every supported target", "why_tests_cant": "Containers of any size; the integers of the crate, the only containers the tests can use, have at most 64 levels.", "anchors": ["src/indices/storage.rs: StorageType::MAX_LEVELS", "src/indices/morton_index_2d.rs: StaticStorage: depth, try_from, descendant, From conversions", "src/indices/morton_index_3d.rs: StaticStorage: depth, try_from, descendant, From conversions"]}
{"id": "C86", "title": "The storage types in other dimensions", "statement": "Dimension is a public trait and the storage types are generic in it; a comment says that they only work up to dimensionality 8. For a dimension whose cells are the numbers below 2^D: on integers FixedDepthStorage and StaticStorage read and write exactly the D bits of a level if and only if D is at most 8 (beyond it a cell keeps only its lowest eight bits, other levels are untouched); DynamicStorage does so for every D that fits a usize, on integers and on byte vectors; on byte vectors FixedDepthStorage and StaticStorage do so in one, two, four and eight dimensions, and otherwise reading returns or rejects what get_bits leaks (C38) and writing works up to eight dimensions, loses the high bits beyond and, where the level needs the second byte of the new value, is an out-of-bounds read; MAX_LEVELS is the number of levels that fit; the cell iterator over a storage of any dimension yields its cells in order, then None forever.", "quantifier": "all dimensions D and cell types that keep the contract of Dimension; all integer widths, byte vectors, levels and cells; every supported target (writes of DynamicStorage to byte vectors: little-endian)", "why_tests_cant": "The dimension itself is universally quantified; the crate implements only two of them.", "anchors": ["src/dimensions/mod.rs: Dimension", "src/indices/storage.rs: StorageType for FixedDepthStorage, StaticStorage, DynamicStorage", "src/indices/mod.rs: CellIter"]}
{"id": "C87", "title": "The provided methods of the index traits", "statement": "MortonIndex and VariableDepthMortonIndex are public traits. If an implementation keeps the documented contract of the required methods (depth, the checked and unchecked accessors, ancestor, descendant behave as those of a list of cells), then the methods with a body in the trait are correct: inverted never panics, reverses the cells and is its own inverse; parent drops the last cell and is None at the root; with_depth keeps the first cells and is None beyond the depth; child appends a cell and is None beyond the greatest depth; the parent of a child and the child of a parent are equal to where one started.", "quantifier": "all index types of any dimension, whatever their representation, that keep the contract; all indices, depths, cells; every target", "why_tests_cant": "The index type itself is universally quantified; a test can only try the types that exist.", "anchors": ["src/morton.rs: MortonIndex::inverted, VariableDepthMortonIndex::parent, with_depth, child"]}
{"id": "C88", "title": "Storages built on a storage type", "statement": "Storage and StorageType are public traits; an implementation of Storage gives bits, bits_mut and depth and names a StorageType, and the cell accessors are provided. If the storage type reads and writes one cell of the list of levels a container holds, and bits and bits_mut borrow the same container, which does not hold the depth, then the storage is a list of cells: its first depth levels. So everything C83 says holds for indices over it. FixedDepthStorage and StaticStorage keep this contract over integers in up to eight dimensions and over byte vectors in one, two, four and eight, DynamicStorage over integers and byte vectors in every dimension whose cells fit a usize.", "quantifier": "all storage types, containers, storages and dimensions that keep the contracts; all levels and cells; every supported target (DynamicStorage over byte vectors: little-endian)", "why_tests_cant": "Storage type, container, storage and dimension are universally quantified; a test can only try those that exist.", "anchors": ["src/indices/storage.rs: StorageType, Storage::get_cell_at_level_unchecked, set_cell_at_level_unchecked"]}
{"id": "C89", "title": "Hasher data tells indices apart", "statement": "Two indices of one type, or two cells, feed the same data to a hasher exactly when == holds. If they differ, the data differ before either ends, whatever is hashed after them (no prefix collisions), so lists of indices of equal length feed the same data exactly when they are equal element by element. Storages over other containers inherit this from the container, indices over other storages from the storage.", "quantifier": "all cells; all indices of all fixed-depth, static and dynamic types in 2D and 3D and over all containers and storages that tell their values apart in this way; all lists of them; all data hashed afterwards", "why_tests_cant": "Injectivity and prefix freedom range over all pairs of indices and all continuations; a test compares finitely many pairs.", "anchors": ["src/indices/morton_index_2d.rs: derive(Hash)", "src/indices/morton_index_3d.rs: derive(Hash)"]}
{"id": "C90", "title": "Nodes of any depth sort by the lowest corner of their box, then by depth", "statement": "A node covers a box of the grid of any depth at least its own. Comparing two nodes of any depths compares the lowest corners of their boxes in Z-order; nodes with the same corner are ordered by depth, and only nodes with equal corner and equal depth compare as Equal. In particular the order is monotone: if no coordinate of the corner of a exceeds that of b then a <= b, unless both corners are the same and b is less deep.", "quantifier": "all indices made by any history of safe calls, of any two depths up to the width of usize; all orderings; all grid depths; every supported target", "why_tests_cant": "Pairs of indices of all depths and histories; the grids have up to 2^64 positions per axis.", "anchors": ["src/indices/morton_index_2d.rs: cmp, to_grid_index", "src/indices/morton_index_3d.rs: cmp, to_grid_index"]}
{"id": "C91", "title": "The nodes of each depth tile the grid", "statement": "At every depth that fits, each position of the grid (of that depth or any greater one) lies in the box of a node, which try_from makes from some cells, and the nodes of that depth whose box holds the position are exactly those that compare as Equal to it. The boxes of two nodes of any depths are nested if the deeper node is in the subtree of the other one, and have no position in common otherwise.", "quantifier": "all depths up to the capacity and the width of usize; all grids at least as deep; all positions; all pairs of static and all pairs of dynamic indices made by any history of safe calls; all orderings; every supported target (making dynamic indices: see C47)", "why_tests_cant": "Exactly-one and disjointness over all positions of grids with up to 2^64 positions per axis and more.", "anchors": ["src/indices/morton_index_2d.rs: to_grid_index, try_from, cmp", "src/indices/morton_index_3d.rs: to_grid_index, try_from, cmp"]}
{"id": "C92", "title": "Cell strings sort and nest like the indices", "statement": "For two indices of one type, comparing their to_string(CellConcatenation) strings as Rust compares str (byte by byte, a proper prefix first) gives the same result as cmp and partial_cmp of the indices; the same for CellConcatenationWithRoot. A node is in the subtree of another one exactly if its string starts with the string of the other one. (3D fixed-depth indices with the same string are ordered by the bits that belong to no cell.)", "quantifier": "all pairs of indices of a type made by any history of safe calls; both namings; every supported target", "why_tests_cant": "All pairs of strings of all lengths; a test only sees a few.", "anchors": ["src/indices/morton_index_2d.rs: to_string, cmp, partial_cmp, ancestor", "src/indices/morton_index_3d.rs: to_string, cmp, partial_cmp, ancestor"]}
{"id": "C93", "title": "Neighbours can be found through the grid", "statement": "Adding an offset to the grid position of an index (wrapping_add, so that negative offsets are allowed) and calling from_grid_index at the same depth gives the node at that offset, on a grid that wraps around at its edges. The opposite step leads back to an index with the cells of the first one, which is == to the first one exactly if that holds no stray bits (it == the index made of its own cells), and a step ends where it began exactly if each component of the offset is a multiple of the side of the grid. Two nodes of one depth have Equal ancestors k levels up exactly if their positions agree after a right shift by k.", "quantifier": "all indices made by any history of safe calls, all offsets, all orderings, every supported target (steps of dynamic indices with stray bits: where writes work, see C47). Steps: fixed-depth, static and dynamic indices at the depths at which from_grid_index keeps every level (C21, C22, C24-C26 say which; it is false at the others). Ancestors: static and dynamic indices, all depths up to the width of usize", "why_tests_cant": "All offsets from all positions of grids with up to 2^64 positions per axis; wrapping of the grid and of usize meet only at extreme values.", "anchors": ["src/indices/morton_index_2d.rs: to_grid_index, from_grid_index, ancestor", "src/indices/morton_index_3d.rs: to_grid_index, from_grid_index, ancestor"]}
{"id": "C94", "title": "Trees can be built from sorted leaves, bottom up", "statement": "Cutting two indices to at most d levels with with_depth keeps their order, and if the cut indices differ in order so do the indices. If a < b and b is not in the subtree of a, everything in the subtree of a is < everything in the subtree of b. So a sorted Vec of indices with d or more levels, each cut to d levels, is still sorted, and after dropping adjacent repetitions (dedup_by with cmp) it holds each node of depth d that has one of the indices in its subtree exactly once, in strictly ascending order.", "quantifier": "all lists and pairs of static and dynamic indices made by any history of safe calls, in 2D and 3D; all depths; every supported target", "why_tests_cant": "All lists of all lengths of indices of mixed depths; a test sorts a few.", "anchors": ["src/morton.rs: with_depth", "src/indices/morton_index_2d.rs: cmp, ancestor", "src/indices/morton_index_3d.rs: cmp, ancestor"]}
{"id": "C95", "title": "Binary search in a sorted list of leaves finds the leaf of a node", "statement": "Given a sorted Vec of indices none of which is in the subtree of another one (the leaves of a tree) and any index q: the leaves <= q form a prefix of the Vec and only the last of them can have q in its subtree, so one binary search decides in which leaf q is. The leaves in the subtree of q that are not q itself come directly behind that prefix, contiguously, and there are none if q is in the subtree of a leaf.", "quantifier": "all sorted lists of leaves and all indices, static and dynamic, made by any history of safe calls, in 2D and 3D; every supported target", "why_tests_cant": "All trees of all shapes and all query positions; a test tries a few trees.", "anchors": ["src/indices/morton_index_2d.rs: cmp, ancestor", "src/indices/morton_index_3d.rs: cmp, ancestor", "src/morton.rs: with_depth"]}
{"id": "C96", "title": "Leaves cover the whole space exactly if their sizes add up to it", "statement": "For indices with at most L levels none of which is in the subtree of another one, the sum of 4^(L - depth) (8^(L - depth) in 3D) is at most 4^L (8^L). If it is 4^L (8^L), every index with L or more levels is in the subtree of one of them. Conversely, if every index with L levels is in the subtree of one of them, the sum is 4^L (8^L).", "quantifier": "all lists of static and dynamic indices made by any history of safe calls, in 2D and 3D; all L (for the converse, all L for which indices with L levels can be made); every supported target", "why_tests_cant": "A statement about all trees and, through its converse, about all indices of a depth at once.", "anchors": ["src/morton.rs: depth, with_depth", "src/indices/morton_index_2d.rs: cmp, ancestor, try_from", "src/indices/morton_index_3d.rs: cmp, ancestor, try_from"]}
{"id": "C97", "title": "A window of the grid is found through few nodes and between its corners", "statement": "Walk down from a node with child, test each node by to_grid_index and its depth against a window of the grid (an interval per axis), take the nodes inside, drop those outside, and visit the children of the others. The nodes found are in increasing order, none in the subtree of another, and their boxes hold exactly the positions of the window in the box of the first node; they are the largest such nodes: each node with its whole box in the window is in the subtree of one of them. A node whose position lies between those of two others of its depth along each axis sorts between them and is in every subtree that holds both.", "quantifier": "all windows, all orderings, all grid depths up to the capacity and the width of usize, all static and dynamic indices made by any history of safe calls as first node; corners: also fixed-depth indices (3D with stray bits: if these are in the same order); 2D and 3D, every supported target (queries with dynamic indices: see C47)", "why_tests_cant": "Windows, nodes, depths and orderings combine freely; that no position is missed or found twice is a statement about all of them.", "anchors": ["src/morton.rs: VariableDepthMortonIndex::child, MortonIndex::to_grid_index, MortonIndex::depth", "src/indices/morton_index_2d.rs: to_grid_index, descendant, Ord::cmp", "src/indices/morton_index_3d.rs: to_grid_index, descendant, Ord::cmp"]}
{"id": "C98", "title": "Counting through the cells visits the nodes of a depth in order", "statement": "Read the cells of an index as the digits of a number to the base 4 (8 in 3D), the first cell being the most significant. Increase the last cell that Quadrant/Octant::try_from(index + 1) accepts and set the cells behind it to Zero (get_cell_at_level, set_cell_at_level): the result has a number greater by one and is the next node of that depth in the order of cmp; the procedure finds no cell exactly at the last node of the depth. So counting on from an index visits every node of its depth that does not sort before it, in strictly ascending order, each once; from the index with only Zero cells all 4^depth (8^depth) of them. In 3D, from_raw_index makes the node of a given number: the number shifted to the top bits.", "quantifier": "all indices of all types made by any history of safe calls (3D fixed-depth: next among the indices with the same stray bits), all depths; from_raw_index: all depths and numbers; every supported target (dynamic: where writes work, see C47)", "why_tests_cant": "Carries run over any number of levels and the enumeration has up to 4^64 nodes; a test follows a few steps.", "anchors": ["src/morton.rs: MortonIndex::get_cell_at_level, set_cell_at_level", "src/dimensions/dim_2d.rs: TryFrom<usize> for Quadrant", "src/dimensions/dim_3d.rs: TryFrom<usize> for Octant", "src/indices/morton_index_3d.rs: from_raw_index", "src/indices/morton_index_2d.rs: Ord::cmp", "src/indices/morton_index_3d.rs: Ord::cmp"]}
{"id": "C99", "title": "The cells are the Morton code of the grid position", "statement": "The cells of an index, read as the digits of a number to the base 4 (8 in 3D), are the Morton code of its to_grid_index position: the bits of the coordinates interleaved, the coordinate that the ordering names first in the lowest place. In 3D, from_raw_index of a Morton code shifted to the top bits gives the node at the position the code stands for.", "quantifier": "all indices of all types made by any history of safe calls, of all depths up to the width of usize; all orderings; from_raw_index: all depths and codes; every supported target", "why_tests_cant": "All bit positions of all codes of up to 192 bits under all orderings; a test compares a few.", "anchors": ["src/indices/morton_index_3d.rs: from_raw_index", "src/indices/morton_index_2d.rs: to_grid_index", "src/indices/morton_index_3d.rs: to_grid_index"]}
{"id": "C100", "title": "A tree can be walked without a stack", "statement": "From a node with fewer than L levels step to its first child (child(Zero)); from a node with L levels increase the last cell, or that of the parent if it is the last cell there is, and so on up (parent, Quadrant/Octant::try_from(index + 1), set_cell_at_level). Each step leads to the next node, in the order of cmp, among all nodes with at most L levels, and ends exactly at the last one. So from the root the steps visit all 1 + 4 + ... + 4^L (8 in 3D) nodes with at most L levels in strictly ascending order, each once.", "quantifier": "all static and dynamic indices made by any history of safe calls, all L up to the capacity of the static type or for which dynamic indices can be addressed; 2D and 3D; every supported target (dynamic: where writes work, see C47)", "why_tests_cant": "Every node of every tree must have the right successor; a test walks a few small trees.", "anchors": ["src/morton.rs: VariableDepthMortonIndex::child, parent, MortonIndex::set_cell_at_level", "src/dimensions/dim_2d.rs: TryFrom<usize> for Quadrant", "src/dimensions/dim_3d.rs: TryFrom<usize> for Octant", "src/indices/morton_index_2d.rs: descendant, ancestor, Ord::cmp", "src/indices/morton_index_3d.rs: descendant, ancestor, Ord::cmp"]}
{"id": "C101", "title": "from_grid_index encodes Morton codes, and the codes sort the indices", "statement": "The cells of the index that from_grid_index (from_grid_index_fast) makes at depth d, read as the digits of a number to the base 4 (8 in 3D), are the Morton code of the lowest d bits of the coordinates. Indices of one depth compare as the Morton codes of their positions compare as integers, under every ordering.", "quantifier": "all positions, all orderings, all depths at which from_grid_index keeps every level (C21-C26 say which), every supported target; comparison: all indices of all types made by any history of safe calls (3D fixed-depth indices with equal codes: by the bits that belong to no cell), of all depths up to the width of usize", "why_tests_cant": "The constructors interleave the coordinates in chunks of tables and masks; a wrong bit anywhere in up to 128 positions shows only at some of the 2^128 positions.", "anchors": ["src/indices/morton_index_3d.rs: from_grid_index_fast", "src/indices/morton_index_2d.rs: from_grid_index, to_grid_index, Ord::cmp", "src/indices/morton_index_3d.rs: from_grid_index, to_grid_index, Ord::cmp"]}
{"id": "C102", "title": "The index of a point in a bounding box", "statement": "For a point inside a box, let the caller calculate which of the 2^d equal intervals of each side the point is in and give these numbers to from_grid_index (from_grid_index_fast). The index returned has depth d, and a node of depth at most d is an ancestor of it (or the index itself) exactly when the box of the node, which is read from to_grid_index and its depth, holds the point. So the indices of one point at different depths are ancestors of each other. Among fixed-depth indices it is the only one whose box holds the point.", "quantifier": "all points and all boxes, with coordinates in any unit relative to the corner and the grid index calculated exactly; all orderings, all depths at which from_grid_index keeps every level (C21-C26 say which), all nodes made by any history of safe calls (3D fixed-depth with stray bits: those with the same cells), every supported target", "why_tests_cant": "Points, boxes, depths and nodes are unbounded in combination; a test places a few points in one box.", "anchors": ["README.md: Conversions between Morton indices and indices within an N-dimensional grid", "examples/morton_2d.rs", "src/indices/morton_index_3d.rs: from_grid_index_fast", "src/indices/morton_index_2d.rs: from_grid_index, to_grid_index, Ord::cmp, ancestor", "src/indices/morton_index_3d.rs: from_grid_index, to_grid_index, Ord::cmp, ancestor"]}
{"id": "C103", "title": "Overlaps are removed from a sorted list in one pass", "statement": "Take a sorted Vec of indices. dedup_by, dropping an index that is in the subtree of the last one kept, leaves indices none of which is in the subtree of another one, in strictly ascending order, and an index is in the subtree of one of them exactly if it is in the subtree of an index of the Vec. Dropping instead every index whose successor is in its subtree also leaves such a list; it has the same ancestors as the indices of the Vec, and if the Vec was merged from two lists of leaves, every index in the subtree of a leaf of both is in the subtree of one of those left.", "quantifier": "all sorted lists of static or dynamic indices made by any history of safe calls, with repetitions; 2D and 3D; every supported target", "why_tests_cant": "That looking at neighbours is enough depends on the order of all indices of the list; a test removes the overlaps of a few lists.", "anchors": ["src/morton.rs: VariableDepthMortonIndex::with_depth", "src/indices/morton_index_2d.rs: Ord::cmp, ancestor", "src/indices/morton_index_3d.rs: Ord::cmp, ancestor"]}
{"id": "C104", "title": "Leaves can be refined and coarsened in place", "statement": "The children of a node, taken in cell order, are in strictly ascending order and have that node as parent. Conversely, 4 (8 in 3D) indices in strictly ascending order with the same parent are all its children in cell order. In a list of indices, replace a node by its children or all its children by the node: one list is sorted with no index in the subtree of another one exactly if the other is, and an index other than the node itself is in the subtree of an index of the one list exactly if it is in the subtree of an index of the other.", "quantifier": "all lists of static or dynamic indices made by any history of safe calls and all positions in the list; 2D and 3D; every supported target (children of dynamic indices: where writes work, see C47)", "why_tests_cant": "It must hold at every position of every list; a test refines a few leaves.", "anchors": ["src/morton.rs: VariableDepthMortonIndex::child, parent, with_depth", "src/indices/morton_index_2d.rs: Ord::cmp, ancestor, descendant", "src/indices/morton_index_3d.rs: Ord::cmp, ancestor, descendant"]}
{"id": "C105", "title": "Recursive subdivision by any criterion gives a tree", "statement": "Start at an index, ask a criterion whether to split it, go on with the children in cell order, at most n levels down, and collect the indices that are not split. Whatever the criterion, as long as it treats indices that compare equal alike: the result is in strictly ascending order, none of its indices is in the subtree of another one, and every index below the start at or below the last level is in the subtree of one of them. An index is part of the result exactly if the criterion splits every index from the start down to it and not the index itself, unless it is at the last level. In particular, splitting the indices that have one of some given leaves properly below them completes these leaves to a tree which contains all of them and is the coarsest one.", "quantifier": "all criteria, start indices and numbers of levels; static and dynamic indices made by any history of safe calls (the last level must fit); 2D and 3D; every supported target (dynamic indices: where writes work, see C47)", "why_tests_cant": "The criterion is an arbitrary function of the application; a test runs a few of them.", "anchors": ["src/morton.rs: VariableDepthMortonIndex::child, with_depth", "src/indices/morton_index_2d.rs: descendant, Ord::cmp", "src/indices/morton_index_3d.rs: descendant, Ord::cmp"]}
{"id": "C106", "title": "Loops over cells(), and rebuilding an index from its cells", "statement": "After any number of calls of next() on cells(), a loop over the rest of the iterator (for, collect, count, last and every other fold) sees exactly the remaining cells in order and ends. try_from on the collected cells of an index, in its own index type or another one that is deep enough (exactly as deep for fixed-depth types), succeeds with an index of the same depth and cells. Two indices are rebuilt as the very same value exactly if they have the same cells, so rebuilding removes the differences in unused bits and spare bytes that == can see (C16).", "quantifier": "all fixed-depth, static and dynamic indices made by any history of safe calls, all numbers of calls, all loop bodies; all pairs of index types and widths; 2D and 3D; every supported target (into dynamic indices: where writes work, see C47)", "why_tests_cant": "The loop bodies, the histories and the pairs of types are unbounded; a test runs a few.", "anchors": ["src/indices/mod.rs: CellIter::next", "src/indices/morton_index_2d.rs: cells, TryFrom<&[Cell]>", "src/indices/morton_index_3d.rs: cells, TryFrom<&[Cell]>"]}
{"id": "C107", "title": "Regions kept as sorted leaves can be united, intersected and subtracted", "statement": "A region is a strictly ascending list of indices none of which is in the subtree of another one. The usual client code computes on regions: merging the lists and dropping of overlapping neighbours the lower one (union), walking with two cursors and keeping the lower one of two that overlap (intersection), splitting the indices of the first list by child as long as an index of the second list is properly below and dropping the parts that are below one (difference). The results are regions again, and they cover exactly the indices that are covered by one of the two regions, by both of them, and by the first one without overlapping the second one.", "quantifier": "all pairs of regions of static or dynamic indices made by any history of safe calls, and all indices, of any depth, that may be covered; 2D and 3D; every supported target (difference: the deepest level must fit, dynamic indices: where writes work, see C47)", "why_tests_cant": "That the two cursors never pass an overlap depends on the order of all indices of both lists; a test combines a few regions.", "anchors": ["src/morton.rs: VariableDepthMortonIndex::child, with_depth", "src/indices/morton_index_2d.rs: descendant, ancestor, Ord::cmp", "src/indices/morton_index_3d.rs: descendant, ancestor, Ord::cmp"]}
{"id": "C108", "title": "The randomised tests of the crate pass whatever they draw", "statement": "The test macros test_fixed_depth!, test_static!, test_dynamic! and test_conversions! draw random cells once per run. With their constants (8, 9, 29, 32 levels, MAX_LEVELS - 3 and so on) every one of these tests passes for every draw of the drawn length, for every integer width and whatever arrangement sort() leaves; so a test run that fails is never bad luck. The grid tests need a usize as wide as the grid (64 bits for the dynamic types); on narrower targets those of the dynamic types, and those of fixed-depth types that are deeper than a usize, fail whatever they draw. The dynamic types need working writes (C47) and the conversions a little endian target: on a big endian one the tests fail for some draws.", "quantifier": "all draws of cells of the lengths the tests use; all five integer widths; 2D and 3D; every supported target, with the conditions named in the statement", "why_tests_cant": "The tests themselves see one draw per run out of up to 4^64 (8^42); none of them can say that all other draws pass.", "anchors": ["src/indices/morton_index_2d.rs: test_fixed_depth!, test_static!, test_dynamic!, test_conversions!", "src/indices/morton_index_3d.rs: test_fixed_depth!, test_static!, test_dynamic!, test_conversions!"]}
{"id": "C109", "title": "Exactly when == and the round trips see what is outside the cells", "statement": "Call an index unspoiled if it == the index try_from makes of its own cells. Fixed-depth and static 2D indices always are; the others exactly if they can be made without zeroed at a multiple of four (2D dynamic), from_raw_index with non-zero unused bits and the conversions that leave such bits (3D). An unspoiled index == another one exactly if the cells are the same and the other one is unspoiled too. In general == holds exactly if the depths, the capacities, the cells get_cell_at_level_unchecked reads at all levels of the capacity and the bits behind the last whole level are the same. Down by some cells and up again gives an equal index: of a static 3D index exactly if the levels passed held Zero; of a dynamic 3D index exactly if it is unspoiled; of a dynamic 2D index without spare byte exactly if the levels behind the last cell hold Zero, and with a spare byte exactly if its first four levels behind the last cell already hold the new cells and the ones after that Zero. Up and down again by the last cell: static 3D always; dynamic 3D exactly if unspoiled; dynamic 2D exactly if the levels behind the last cell (behind the next three, with a spare byte) hold Zero. The ancestor at depth zero == default: static 3D exactly if the index is unspoiled, dynamic 3D always, dynamic 2D exactly if there is no spare byte; there is never more than one. Conversions between static and dynamic indices take over the cells only: the results are unspoiled, == exactly if the cells were the same, and converting back gives an index == the original exactly if that was unspoiled. Conversions of 3D fixed-depth indices keep being unspoiled or not and keep ==; static to fixed-depth (3D) shows the cells stored behind the depth.", "quantifier": "all indices made by any history of safe calls, all cells and lengths that fit; every integer width; 2D and 3D; every supported target (round trips of dynamic indices: where writes work, see C47)", "why_tests_cant": "The properties C11, C15, C16 and C48 fail for some histories only; which ones is a statement about all of them, and the bits in question are not visible through the cells.", "anchors": ["src/morton.rs: VariableDepthMortonIndex::parent, child", "src/indices/morton_index_2d.rs: PartialEq, descendant, ancestor, zeroed, from_raw_index", "src/indices/morton_index_3d.rs: PartialEq, descendant, ancestor, zeroed, from_raw_index"]}
{"id": "C110", "title": "Indices as keys of hash maps and sorted maps", "statement": "A program that inserts, looks up and removes values under index keys in a map gets the same answers, and in the end the same entries (each key once), as if the keys were the lists of cells. This holds for a hash map with any hasher and any number of buckets that may change on the way, which compares a key by == with the entries of its bucket only, and for a sorted vector searched by binary search with cmp, whose entries moreover stay in strictly ascending order. Of indices with other histories (stray bits) a hash map tells apart those that == tells apart, a sorted map of static and dynamic indices still only the cells: zeroed(4) and the index made of four Zero cells are two keys of a hash map and one key of a sorted map.", "quantifier": "all sequences of calls, all hashers and numbers of buckets, all keys: for hash maps the 2D fixed-depth and static indices made by any history of safe calls and the others without stray bits, for sorted maps all static, dynamic and 2D fixed-depth indices made by any history of safe calls and the 3D fixed-depth ones without stray bits (with stray bits: the numbers they store); every supported target", "why_tests_cant": "That no collision and no order of insertion and removal loses or doubles a key is a statement about all call sequences and all hash functions.", "anchors": ["src/indices/morton_index_2d.rs: derive(Hash), PartialEq, Ord::cmp", "src/indices/morton_index_3d.rs: derive(Hash), PartialEq, Ord::cmp"]}
{"id": "C111", "title": "Indices can be saved as text and loaded again", "statement": "A client that writes an index with to_string (either naming that lists the cells) and reads it back with char::to_digit, Cell::try_from(usize) and try_from on the slice gets an index with the same cells, whose text is the same again, also if it is read as an index of another type or on another target; two indices have the same text exactly if they have the same cells. Reading arbitrary text never panics and succeeds exactly on text of this form with at most as many cells as the type holds; the result prints as the text that was read, padded with zeros for a fixed-depth index. Grid index strings are read back with split, usize::from_str and from_grid_index of the dynamic index.", "quantifier": "all indices of all types made by any history of safe calls, all texts, all pairs of writing and reading types (fixed-depth reader: texts of full length for the same cells) and of supported targets; dynamic readers: lengths that fit in usize, targets on which writes work (C47; the grid index strings in 2D on all targets); grid index strings: depths up to the width of usize of the writer and half of that of the reader", "why_tests_cant": "That no text is accepted wrongly and no index is lost is a statement about all texts and all indices, and about pairs of targets that one test run cannot combine.", "anchors": ["src/morton.rs: MortonIndexNaming", "src/indices/morton_index_2d.rs: to_string, try_from, from_grid_index", "src/indices/morton_index_3d.rs: to_string, try_from, from_grid_index", "src/dimensions/dim_2d.rs: TryFrom<usize> for Quadrant", "src/dimensions/dim_3d.rs: TryFrom<usize> for Octant"]}
{"id": "C112", "title": "Walking up the tree with parent", "statement": "Following parent() from a node (std::iter::successors) ends after one node per level, at the root; the i-th node is the start cut by i levels. The walk visits exactly the nodes that hold the start in their subtree, in strictly descending order. The first visited node that also holds another node b is their lowest common ancestor, and going up to it and down to b is the shortest way from the start to b by moves to a parent or a child.", "quantifier": "all static and dynamic indices made by any history of safe calls, all pairs of them, all ways from one to the other, 2D and 3D, every supported target", "why_tests_cant": "Termination from every state, and minimality among all ways between all pairs of nodes.", "anchors": ["src/morton.rs: VariableDepthMortonIndex::parent", "src/indices/morton_index_2d.rs: ancestor, with_depth, Ord::cmp", "src/indices/morton_index_3d.rs: ancestor, with_depth, Ord::cmp"]}
{"id": "C113", "title": "Subtrees can be moved", "statement": "Appending the cells of a node from level d on to another node with descendant moves the node: it succeeds exactly if the result fits, the result lies below the new root and shows these cells behind those of the root, and moving it back gives a node that compares as Equal to the first one. All nodes of a subtree that are moved in the same way keep their order and stay above and below each other, and every node below the new root that is not too deep for the old place is the image of one there.", "quantifier": "all static and dynamic indices made by any history of safe calls as nodes and roots, all levels, 2D and 3D, every supported target (dynamic: where writes work, see C47, and depths that fit in memory)", "why_tests_cant": "All pairs of nodes and all levels, and a statement about all nodes of two subtrees.", "anchors": ["src/indices/morton_index_2d.rs: descendant, get_cell_at_level, Ord::cmp", "src/indices/morton_index_3d.rs: descendant, get_cell_at_level, Ord::cmp"]}
{"id": "C114", "title": "Mirroring and rotating nodes cell by cell", "statement": "Replacing every cell of an index by its image under a map of cells, with get_cell_at_level and set_cell_at_level, changes no depth and nothing else; a map with an inverse is undone by it and keeps which nodes lie below which. If the map mirrors or exchanges axes of a single cell (as the ordering places the cells), the grid position of the index is mirrored in the grid of its depth and its axes are exchanged in the same way. Every symmetry of the square (cube) is such a map.", "quantifier": "all indices of all types made by any history of safe calls, all maps of cells, all symmetries, all orderings; grid positions: depths up to the width of usize; every supported target (dynamic: where writes work, see C47)", "why_tests_cant": "All indices of all depths and all 8 (48) symmetries under all orderings.", "anchors": ["src/indices/morton_index_2d.rs: get_cell_at_level, set_cell_at_level, to_grid_index", "src/indices/morton_index_3d.rs: get_cell_at_level, set_cell_at_level, to_grid_index", "src/dimensions/dim_2d.rs: QuadrantOrdering::to_index", "src/dimensions/dim_3d.rs: OctantOrdering::to_index"]}
{"id": "C115", "title": "What lies between two nodes is few subtrees", "statement": "A recursive walk with child that splits the nodes with one of two given nodes a, b properly below them, and keeps those that come after a, outside of its subtree, and before b, fills the gap between a and b: it yields nodes in strictly ascending order, none below another, that cover exactly the nodes after a and before b which are not below a and do not have b below them. No yielded node can be replaced by a node above it (that would have a or b below it), and there are at most as many as the levels down to a and to b have children.", "quantifier": "all pairs of static or dynamic indices made by any history of safe calls, all common ancestors to start from, 2D and 3D, every supported target (dynamic: where writes work, see C47, and depths that fit in memory)", "why_tests_cant": "An exact cover is a statement about all nodes of all depths, for all pairs of ends.", "anchors": ["src/indices/morton_index_2d.rs: child, with_depth, Ord::cmp", "src/indices/morton_index_3d.rs: child, with_depth, Ord::cmp"]}
{"id": "C116", "title": "Indices can be sorted by their cells (radix sort)", "statement": "Passing over a list of indices once per level, from the deepest to the first one, and each time grouping them by the cell at this level (those that end above it first, each group in the order in which they came) sorts the list by cmp: the result holds the same indices in ascending order, and those that compare as Equal are in the order in which they came. 3D fixed-depth indices with stray bits are sorted by their cells: each one is less than the later ones or has the same cells.", "quantifier": "all lists of indices of one type made by any history of safe calls, of equal or different depths, all numbers of levels not below the deepest one, 2D and 3D, every supported target", "why_tests_cant": "All lists of all lengths; that a sequence of stable passes agrees with the comparison for all of them is an induction over the levels.", "anchors": ["src/indices/morton_index_2d.rs: get_cell_at_level, depth, Ord::cmp", "src/indices/morton_index_3d.rs: get_cell_at_level, depth, Ord::cmp"]}
{"id": "C117", "title": "The leaf nearest to a position is found by descending the tree", "statement": "A recursive search with child that looks for the leaf of a list nearest to a grid position, and leaves out a node with all that is below it if the box of the node (calculated from to_grid_index and depth) is not nearer than the best leaf so far, ends with a leaf of the list; the distance it reports is that of a position in the box of this leaf, and no position in the box of any leaf of the list is nearer. It ends with nothing only for an empty list.", "quantifier": "all lists of static or dynamic indices made by any history of safe calls, overlapping or not, all nodes to start from that have the list below them, all positions, all orderings, grids of up to as many levels as usize has bits, 2D and 3D, every supported target (dynamic: where writes work, see C47, and depths that fit in memory)", "why_tests_cant": "Leaving out a subtree is right only if the box of every node holds the boxes of all nodes below it, for all nodes and all positions.", "anchors": ["src/indices/morton_index_2d.rs: child, to_grid_index, depth", "src/indices/morton_index_3d.rs: child, to_grid_index, depth"]}
{"id": "C118", "title": "Neighbours in a sorted list decide what its indices have in common", "statement": "Comparing cells level by level counts the levels that two indices share. In a list sorted by cmp, any two indices share as many levels as the smallest count of the neighbours between them. If a sorted list is cut in two, the nodes that have indices of both parts below them are exactly those above the last index of the first part that are not deeper than the levels it shares with the first index of the second part: one for each depth.", "quantifier": "all sorted lists of indices of one type made by any history of safe calls, 3D fixed-depth indices also with stray bits, all pairs, all places of the cut (static and dynamic types), 2D and 3D, every supported target", "why_tests_cant": "All sorted lists of all lengths; that neighbours decide follows from the order being that of the paths, for all of them.", "anchors": ["src/indices/morton_index_2d.rs: get_cell_at_level, depth, Ord::cmp, with_depth", "src/indices/morton_index_3d.rs: get_cell_at_level, depth, Ord::cmp, with_depth"]}
{"id": "C119", "title": "Trees can be visited from front to back", "statement": "For a viewer far away in any of the four (eight) diagonal directions: if the children of each node are visited in an order in which no cell hides an earlier one, as the ordering places the cells, then recursive subdivision gives the same leaves as in the order of the numbers, and no position in the box of a leaf hides a position in the box of an earlier leaf. Such an order is try_from(i ^ n) for i = 0, 1, ..., where n is the number of the cell nearest to the viewer.", "quantifier": "all criteria to split by, all nodes to start from, all directions, all orderings, all orders of the cells in which none hides an earlier one, static and dynamic indices made by any history of safe calls, grids of up to as many levels as usize has bits, 2D and 3D, every supported target (dynamic: where writes work, see C47, and depths that fit in memory)", "why_tests_cant": "A statement about all pairs of positions in all pairs of leaves of all trees.", "anchors": ["src/indices/morton_index_2d.rs: child, to_grid_index, depth", "src/indices/morton_index_3d.rs: child, to_grid_index, depth", "src/dimensions/dim_2d.rs: TryFrom<usize> for Quadrant, QuadrantOrdering", "src/dimensions/dim_3d.rs: TryFrom<usize> for Octant, OctantOrdering"]}
{"id": "C120", "title": "A number names a node: cells as digits behind a leading 1", "statement": "Starting with 1 and appending the cells of an index as digits (base 4 in 2D, 8 in 3D) gives its location code, as in hashed octrees. From the code, try_from(n % base) gives back the depth and all cells; two indices have one code exactly if they compare as Equal, codes sort by depth and then like the indices, and every number in the range of a depth is the code of the index with the cells read from it. The code of a child is the code with one more digit, and a node is in the subtree of another one exactly if dropping the digits below gives the code of that one.", "quantifier": "all indices of all types made by any history of safe calls whose codes fit into usize (2 * base^depth <= 2^bits; up to 31 levels in 2D and 21 in 3D on 64 bits), 3D fixed-depth indices with stray bits except for the comparison, all numbers in the range, every supported target (moves of dynamic indices: where writes work, see C47)", "why_tests_cant": "A bijection between all nodes and all numbers of a range, and its agreement with order and subtrees, for all pairs.", "anchors": ["src/indices/morton_index_2d.rs: get_cell_at_level, depth, Ord::cmp, child", "src/indices/morton_index_3d.rs: get_cell_at_level, depth, Ord::cmp, child", "src/dimensions/dim_2d.rs: From<Quadrant> for usize, TryFrom<usize> for Quadrant", "src/dimensions/dim_3d.rs: From<Octant> for usize, TryFrom<usize> for Octant"]}
{"id": "C121", "title": "All leaves that touch a leaf on a side are found by one binary search", "statement": "Let q be the node of the depth of x beside x on one axis, up or down, by to_grid_index. A node of any size touches x on this side (a position in its box, outside of the box of x, is beside a position in the box of x) exactly if q is in its subtree, or it is in the subtree of q and its coordinate on the axis is the one next to x. So in a sorted list of leaves, split where the elements are no longer <= q, the leaves that touch x are the last one before the split, if q is below it, else those below q right behind the split that face x.", "quantifier": "all pairs of static or dynamic indices made by any history of safe calls, all sorted lists of leaves, all axes and both directions, all orderings, grids of up to as many levels as usize has bits, 2D and 3D, every supported target", "why_tests_cant": "A statement about all positions in the boxes of all pairs of nodes of all depths.", "anchors": ["src/indices/morton_index_2d.rs: to_grid_index, depth, Ord::cmp", "src/indices/morton_index_3d.rs: to_grid_index, depth, Ord::cmp"]}
{"id": "C122", "title": "Lists can be stored by differences, a sorted one in as many cells as its tree has nodes", "statement": "If each index of a list is stored as the number of levels that it shares with the one before and its cells below them, then with_depth and descendant restore the list: as many indices, each one Equal to the one stored. If the list is sorted and starts from the root, the number of cells stored is exactly the number of different nodes in the list or above its indices, without the root.", "quantifier": "all lists of static or dynamic indices made by any history of safe calls, sorted or not, from any start (count: sorted lists from the root), 2D and 3D, every supported target (dynamic: where writes work, see C47)", "why_tests_cant": "All lists of all lengths; that the shared levels add up to the number of nodes is an induction over sorted lists.", "anchors": ["src/indices/morton_index_2d.rs: get_cell_at_level, depth, with_depth, descendant, Ord::cmp", "src/indices/morton_index_3d.rs: get_cell_at_level, depth, with_depth, descendant, Ord::cmp"]}
{"id": "C123", "title": "A sorted list of nodes is a tree: one pass with a stack finds the nearest node around each", "statement": "Go through a sorted list of nodes that may lie in one another, keep a stack, unwind it before each node up to the first node that has it in its subtree, take that one (or None) as the answer and push the node. The answer is an earlier node of the list that has the node in its subtree, with no other such node between them, and None only if there is no such node before it. No node of the list above the node is missed: each one is Equal to the node or has the answer in its subtree.", "quantifier": "all sorted lists, with or without duplicates, of static or dynamic indices made by any history of safe calls, 2D and 3D, every supported target", "why_tests_cant": "That what is unwound is never needed again is an invariant of the stack over all lists; it depends on the order placing each subtree together, behind its node.", "anchors": ["src/indices/morton_index_2d.rs: Ord::cmp, depth, with_depth", "src/indices/morton_index_3d.rs: Ord::cmp, depth, with_depth"]}
{"id": "C124", "title": "A range search in a sorted list may jump over what is outside its window", "statement": "Let a window be a box of grid positions, and q a node of depth L. One descent with child that skips each node whose box is outside the window, or which is before q.with_depth(its depth), finds the first node of depth L that is in the window and not before q (the one called BIGMIN for Z-order); it returns None only if every node in the window is before q. A search of a sorted list of nodes of depth L that jumps to this node whenever it meets a node outside the window returns exactly the nodes of the list that are in the window, as looking at each one would.", "quantifier": "all windows, all orderings, all L up to the bits of usize, all q and roots of the search, all sorted lists with or without duplicates, of static or dynamic indices made by any history of safe calls, 2D and 3D, every supported target (dynamic: where writes work, see C47)", "why_tests_cant": "That no node in the window lies between q and the node found is a statement about all nodes of all depths and all windows.", "anchors": ["src/indices/morton_index_2d.rs: child, with_depth, to_grid_index, Ord::cmp", "src/indices/morton_index_3d.rs: child, with_depth, to_grid_index, Ord::cmp"]}
{"id": "C125", "title": "Many nodes are located in a sorted list of leaves by one pass over both lists", "statement": "Go through a sorted list of nodes and pass, for each one, the leaves that are <= it; the last leaf passed so far is the answer if it has the node in its subtree, else None. No leaf is looked at again that was passed. There is one answer for each node: the leaf that has it in its subtree, which is the only one, or None exactly if there is no such leaf.", "quantifier": "all sorted lists of leaves none of which is in the subtree of another one, all sorted lists of nodes with or without duplicates and of any depths, static or dynamic indices made by any history of safe calls, 2D and 3D, every supported target", "why_tests_cant": "That the leaves passed before the last one are never needed again is an invariant over all pairs of lists.", "anchors": ["src/indices/morton_index_2d.rs: Ord::cmp, depth, with_depth", "src/indices/morton_index_3d.rs: Ord::cmp, depth, with_depth"]}
{"id": "C126", "title": "Every region has one shortest list, found by one pass", "statement": "Push the nodes of a region on a stack; whenever the last 4 (8 in 3D) nodes have the same parent, replace them by it, as often as possible. The pass returns a region that covers the same places at every depth not above its nodes, in which no node has all its children, and no region that covers the same places is shorter. Two regions cover the same places exactly if the pass returns equally many nodes for both and these compare as Equal one by one.", "quantifier": "all regions (strictly ascending lists of indices none of which is in the subtree of another one) and pairs of regions, static or dynamic indices made by any history of safe calls, all depths of places, 2D and 3D, every supported target", "why_tests_cant": "That looking at the top of the stack is enough, and that two lists with nothing left to merge are equal if they cover the same places, are statements about all trees.", "anchors": ["src/indices/morton_index_2d.rs: Ord::cmp, ancestor, parent", "src/indices/morton_index_3d.rs: Ord::cmp, ancestor, parent"]}
{"id": "C127", "title": "Shared levels are seen from the XOR of grid positions", "statement": "Take two indices of any depths, shift the grid position of the deeper one right by the difference of the depths, and combine the positions by XOR on each axis and the results by OR. The smaller depth minus the number of bits up to the highest one set (usize::BITS - leading_zeros) is the number of levels on which the two indices have the same cells, from the first level on; neither the shifts nor the subtraction overflow if the smaller depth is not 0.", "quantifier": "all pairs of indices of each type made by any history of safe calls, all orderings, depths up to the bits of usize, 2D and 3D, every supported target and build mode", "why_tests_cant": "A statement about all pairs of indices of all depths.", "anchors": ["src/indices/morton_index_2d.rs: to_grid_index, get_cell_at_level, depth", "src/indices/morton_index_3d.rs: to_grid_index, get_cell_at_level, depth"]}
{"id": "C128", "title": "Neighbours are found by carrying through the cells", "statement": "A client flips the bit of an axis in the last cell (Quadrant::try_from(q.index() ^ bit), set_cell_at_level) and goes one level up as long as the bit was already 1 (for a step down: 0). The result is the node of the same depth whose to_grid_index position is the next one on the axis and the same on the other axes; the loop reaches the root exactly at the edge of the grid. Also at depths whose positions do not fit usize, a step back after a step gives the same cells, and there is no neighbour exactly if every cell lies on this side of the axis.", "quantifier": "all indices of all types made by any history of safe calls; all axes, both directions, all orderings; all depths (positions: up to the width of usize); dynamic indices on targets where writes of cells work (C47)", "why_tests_cant": "A carry may run through any number of levels across bytes and words of the storage; a test tries a few nodes.", "anchors": ["src/indices/morton_index_2d.rs: set_cell_at_level, get_cell_at_level, to_grid_index", "src/indices/morton_index_3d.rs: set_cell_at_level, get_cell_at_level, to_grid_index"]}
{"id": "C129", "title": "Whether a tree is balanced is seen by one look per leaf and side", "statement": "A tree is balanced (2:1) if leaves that touch on a side differ by at most one level. A client has the leaves as a sorted list; for each leaf and each side it makes the neighbour of the same size (C128), finds the leaf around it by binary search with <= and compares the depths. The answer is true exactly if the tree is balanced: no leaf has to be compared with the smaller ones beside it, and gaps between the leaves do no harm.", "quantifier": "all sorted lists of leaves made by any history of safe calls, complete or with gaps, of all depths up to the width of usize; all orderings; static indices, and dynamic ones on targets where writes of cells work (C47)", "why_tests_cant": "A statement about all pairs of leaves of all trees; the tests contain no tree.", "anchors": ["src/indices/morton_index_2d.rs: set_cell_at_level, to_grid_index, Ord::cmp, ancestor", "src/indices/morton_index_3d.rs: set_cell_at_level, to_grid_index, Ord::cmp, ancestor"]}
{"id": "C130", "title": "Started at a higher level, the carry moves by whole boxes", "statement": "The loop of C128 over only the first l cells of an index moves it by 2^(depth - l) grid positions along the axis: to the same place within the neighbouring box of level l. The cells from level l on and the positions on the other axes stay; there is no result exactly if the move would leave the grid; a level beyond the depth panics and returns nothing.", "quantifier": "all indices of all types made by any history of safe calls; all levels, axes, directions and orderings; all depths (positions: up to the width of usize); dynamic indices on targets where writes of cells work (C47)", "why_tests_cant": "All levels of all nodes; the carry may run through any number of cells.", "anchors": ["src/indices/morton_index_2d.rs: set_cell_at_level, get_cell_at_level, to_grid_index", "src/indices/morton_index_3d.rs: set_cell_at_level, get_cell_at_level, to_grid_index"]}
{"id": "C131", "title": "Splitting the leaves that are too large balances a tree, with as few leaves as possible", "statement": "As long as the look of C129 finds a leaf more than one level larger than a leaf beside it, a client replaces the larger one in the sorted list by its children. This ends without a panic. The result is a sorted list of disjoint leaves, is balanced, refines the tree and covers exactly the same grid positions; every balanced list of nodes that refines the tree and covers these positions refines the result, so that no balanced refinement has a larger leaf anywhere.", "quantifier": "all sorted lists of leaves made by any history of safe calls, complete or with gaps, of all depths up to the width of usize; all orderings; all balanced refinements; static indices, and dynamic ones on targets where writes of cells work (C47)", "why_tests_cant": "A loop over trees whose splits force further splits, compared with all other balanced trees; the tests contain no tree.", "anchors": ["src/indices/morton_index_2d.rs: child, set_cell_at_level, to_grid_index, Ord::cmp, ancestor", "src/indices/morton_index_3d.rs: child, set_cell_at_level, to_grid_index, Ord::cmp, ancestor"]}
{"id": "C132", "title": "What is balanced, and the balanced tree, do not depend on the ordering", "statement": "A list of leaves is balanced for one ordering of the axes exactly if it is for any other. Two clients that balance the same tree (C131) with different orderings, and look at the sides in different orders (so that they split leaves in different orders), end with the same nodes at the same places of the list.", "quantifier": "all pairs of orderings; all orders (and repetitions) of the sides; all sorted lists of leaves made by any history of safe calls, of all depths up to the width of usize; static indices, and dynamic ones on targets where writes of cells work (C47)", "why_tests_cant": "Compares two runs of a loop over all trees, in which different leaves are split first.", "anchors": ["src/indices/morton_index_2d.rs: to_grid_index, child, set_cell_at_level, Ord::cmp", "src/indices/morton_index_3d.rs: to_grid_index, child, set_cell_at_level, Ord::cmp"]}
{"id": "C133", "title": "Beside a leaf of a balanced tree there are only the neighbour, its parent and its facing children", "statement": "A client takes the neighbour of a leaf on a side (C128), its parent, and its two (four in 3D) children on the side that faces back, as far as they exist. In a balanced tree a leaf touches the leaf on this side exactly if it compares Equal to one of these at most four (six) nodes; so all leaves beside a leaf are found by a constant number of exact look-ups, without a search. At the edge of the grid there are none. Nothing panics.", "quantifier": "all balanced lists of nodes made by any history of safe calls, of all depths up to the width of usize; all leaves, sides and orderings; static indices, and dynamic ones on targets where writes of cells work (C47)", "why_tests_cant": "All leaves of all balanced trees; children of nodes of full depth do not exist, which a test with small depths does not meet.", "anchors": ["src/indices/morton_index_2d.rs: parent, child, set_cell_at_level, to_grid_index, Ord::cmp", "src/indices/morton_index_3d.rs: parent, child, set_cell_at_level, to_grid_index, Ord::cmp"]}
{"id": "C134", "title": "Leaves can be split in any order to balance a tree", "statement": "A client splits, again and again, any leaf that is more than one level larger than any leaf touching it, in whatever order. The number of splits is bounded; after each the leaves are sorted and disjoint, and the result of C131 refines them, so no leaf is split that need not be. As long as the tree is not balanced there is a leaf to split, and when it is balanced it has the same nodes as the result of C131.", "quantifier": "all sequences of splits from all sorted lists of leaves made by any history of safe calls, complete or with gaps, of all depths up to the width of usize; all orderings; static indices, and dynamic ones on targets where writes of cells work (C47)", "why_tests_cant": "All orders of work on all trees; a test follows one of them.", "anchors": ["src/indices/morton_index_2d.rs: child, to_grid_index, Ord::cmp, ancestor", "src/indices/morton_index_3d.rs: child, to_grid_index, Ord::cmp, ancestor"]}
{"id": "C135", "title": "At most two leaves of a balanced tree, four in 3D, touch a leaf on a side", "statement": "Of the nodes of C133 not all can be leaves of one tree. Whichever leaves of a balanced tree touch one of its leaves on one side, there are at most two of them in 2D and four in 3D; so a client can keep the leaves beside a leaf in an array of fixed size (8 in 2D, 24 in 3D, for all sides).", "quantifier": "all balanced sorted lists of disjoint leaves made by any history of safe calls, complete or with gaps, of all depths up to the width of usize; all leaves, sides and orderings; static indices, and dynamic ones on targets where writes of cells work (C47)", "why_tests_cant": "A bound over all balanced trees; the tests contain no tree.", "anchors": ["src/indices/morton_index_2d.rs: to_grid_index, Ord::cmp, ancestor", "src/indices/morton_index_3d.rs: to_grid_index, Ord::cmp, ancestor"]}
