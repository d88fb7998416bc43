import Verif.Spec

/-! # Histories of safe API calls

`Reach2D c sc i`: the index `i` is the result of some finite sequence of calls of the safe public API on
target `c`. One constructor per function that returns an index. Calls that fault return nothing, so they end a
history. The only inputs left out are dynamic paths so long that their bit count does not fit a `usize`
(`Addressable`), and static raw-bits indices deeper than the storage (see property C44 for those).
A slice of cells has at most `isize::MAX` elements (`cs.length < 2 ^ (c.ptrBits - 1)`).

The scope `sc` says which constructors may occur. `.all` is everything. `.canonical` leaves out the calls
that can leave stray bits behind the last cell (each is shown to do so in `Verif/Props/Findings.lean`):

* 2D dynamic `zeroed(d)` when `d` is a multiple of four (one byte too many),
* 3D `from_raw_index` with non-zero unused bits,
* 3D dynamic to fixed-depth conversion when the unused bits of the integer are not covered by the
  unused bits of the byte vector, or on big-endian targets. -/

namespace MortonRs

inductive Scope where
  | all
  | canonical
  deriving DecidableEq

/-- An index of one of the 2D index types. -/
inductive AnyIndex2D where
  | fixed (w : Nat) (m : MortonIndex2D (FixedDepthStorage2D w))
  | static (w : Nat) (m : MortonIndex2D (StaticStorage2D w))
  | dynamic (m : MortonIndex2D DynamicStorage2D)

/-- An index of one of the 3D index types. -/
inductive AnyIndex3D where
  | fixed (w : Nat) (m : MortonIndex3D (FixedDepthStorage3D w))
  | static (w : Nat) (m : MortonIndex3D (StaticStorage3D w))
  | dynamic (m : MortonIndex3D DynamicStorage3D)

open MortonIndex VariableDepthMortonIndex in
/-- Results of finite histories of safe API calls, 2D. -/
inductive Reach2D (c : Cfg) (sc : Scope) : AnyIndex2D → Prop where
  -- fixed depth
  | fixedDefault (w) : IntWidth w → Reach2D c sc (.fixed w ⟨FixedDepthStorage2D.default w⟩)
  | fixedTryFromSlice {w cs m} : IntWidth w → MortonIndex2D.tryFromSlice c cs = .ok (.ok m) → Reach2D c sc (.fixed w m)
  | fixedTryFromArray {w cs m} : IntWidth w → MortonIndex2D.tryFromArray c cs = .ok (.ok m) → Reach2D c sc (.fixed w m)
  | fixedFromGrid {w g o m} : IntWidth w → MortonIndex2D.fixedFromGridIndex c w g o = .ok m → Reach2D c sc (.fixed w m)
  | fixedSet {w m l v m'} : Reach2D c sc (.fixed w m) → setCellAtLevel c m l v = .ok m' → Reach2D c sc (.fixed w m')
  | fixedInverted {w m m'} : Reach2D c sc (.fixed w m) → inverted c m = .ok m' → Reach2D c sc (.fixed w m')
  -- static
  | staticDefault (w) : IntWidth w → Reach2D c sc (.static w ⟨StaticStorage2D.default w⟩)
  | staticTryFromSlice {w cs m} : IntWidth w → MortonIndex2D.tryFromSlice c cs = .ok (.ok m) → Reach2D c sc (.static w m)
  | staticTryFromArray {w cs m} : IntWidth w → MortonIndex2D.tryFromArray c cs = .ok (.ok m) → Reach2D c sc (.static w m)
  | staticFromGrid {w g d o m} : IntWidth w →
      MortonIndex2D.staticFromGridIndex c w g d o = .ok (.ok m) → Reach2D c sc (.static w m)
  | staticZeroed {w d m} : IntWidth w → MortonIndex2D.staticZeroed w d = some m → Reach2D c sc (.static w m)
  | staticSet {w m l v m'} : Reach2D c sc (.static w m) → setCellAtLevel c m l v = .ok m' → Reach2D c sc (.static w m')
  | staticInverted {w m m'} : Reach2D c sc (.static w m) → inverted c m = .ok m' → Reach2D c sc (.static w m')
  | staticAncestor {w m g m'} : Reach2D c sc (.static w m) → ancestor c m g = .ok (some m') → Reach2D c sc (.static w m')
  | staticParent {w m m'} : Reach2D c sc (.static w m) → parent c m = .ok (some m') → Reach2D c sc (.static w m')
  | staticWithDepth {w m d m'} : Reach2D c sc (.static w m) → withDepth c m d = .ok (some m') → Reach2D c sc (.static w m')
  | staticDescendant {w m cs m'} : Reach2D c sc (.static w m) → cs.length < 2 ^ (c.ptrBits - 1) →
      descendant c m cs = .ok (some m') → Reach2D c sc (.static w m')
  | staticChild {w m v m'} : Reach2D c sc (.static w m) → child c m v = .ok (some m') → Reach2D c sc (.static w m')
  -- dynamic
  | dynamicDefault : Reach2D c sc (.dynamic ⟨DynamicStorage2D.default⟩)
  | dynamicTryFromSlice {cs m} : Addressable c (cs.length * 2) →
      MortonIndex2D.tryFromSlice c cs = .ok (.ok m) → Reach2D c sc (.dynamic m)
  | dynamicTryFromArray {cs m} : Addressable c (cs.length * 2) →
      MortonIndex2D.tryFromArray c cs = .ok (.ok m) → Reach2D c sc (.dynamic m)
  | dynamicFromGrid {g d o m} : MortonIndex2D.dynamicFromGridIndex c g d o = .ok m → Reach2D c sc (.dynamic m)
  | dynamicZeroed {d} : Addressable c (d * 2) → sc = .all ∨ d % 4 ≠ 0 → Reach2D c sc (.dynamic (MortonIndex2D.dynamicZeroed d))
  | dynamicSet {m l v m'} : Reach2D c sc (.dynamic m) → setCellAtLevel c m l v = .ok m' → Reach2D c sc (.dynamic m')
  | dynamicInverted {m m'} : Reach2D c sc (.dynamic m) → inverted c m = .ok m' → Reach2D c sc (.dynamic m')
  | dynamicAncestor {m g m'} : Reach2D c sc (.dynamic m) → ancestor c m g = .ok (some m') → Reach2D c sc (.dynamic m')
  | dynamicParent {m m'} : Reach2D c sc (.dynamic m) → parent c m = .ok (some m') → Reach2D c sc (.dynamic m')
  | dynamicWithDepth {m d m'} : Reach2D c sc (.dynamic m) → withDepth c m d = .ok (some m') → Reach2D c sc (.dynamic m')
  | dynamicDescendant {m cs m'} : Reach2D c sc (.dynamic m) → Addressable c ((depth m + cs.length) * 2) →
      descendant c m cs = .ok (some m') → Reach2D c sc (.dynamic m')
  | dynamicChild {m v m'} : Reach2D c sc (.dynamic m) → Addressable c ((depth m + 1) * 2) →
      child c m v = .ok (some m') → Reach2D c sc (.dynamic m')
  -- conversions
  | fixedToStatic {w m} : Reach2D c sc (.fixed w m) → Reach2D c sc (.static w (MortonIndex2D.fixedToStatic m))
  | fixedToDynamic {w m} : Reach2D c sc (.fixed w m) → Reach2D c sc (.dynamic (MortonIndex2D.fixedToDynamic c m))
  | staticToFixed {w m} : Reach2D c sc (.static w m) → Reach2D c sc (.fixed w (MortonIndex2D.staticToFixed m))
  | staticToDynamic {w m m'} : Reach2D c sc (.static w m) → MortonIndex2D.staticToDynamic c m = .ok m' → Reach2D c sc (.dynamic m')
  | dynamicToFixed {w m m'} : IntWidth w → Reach2D c sc (.dynamic m) → MortonIndex2D.dynamicToFixed c w m = .ok m' →
      Reach2D c sc (.fixed w m')
  | dynamicToStatic {w m m'} : IntWidth w → Reach2D c sc (.dynamic m) → MortonIndex2D.dynamicToStatic c w m = .ok (.ok m') →
      Reach2D c sc (.static w m')

open MortonIndex VariableDepthMortonIndex in
/-- Results of finite histories of safe API calls, 3D. -/
inductive Reach3D (c : Cfg) (sc : Scope) : AnyIndex3D → Prop where
  -- fixed depth
  | fixedDefault (w) : IntWidth w → Reach3D c sc (.fixed w ⟨FixedDepthStorage3D.default w⟩)
  | fixedTryFromSlice {w cs m} : IntWidth w → MortonIndex3D.tryFromSlice c cs = .ok (.ok m) → Reach3D c sc (.fixed w m)
  | fixedTryFromArray {w cs m} : IntWidth w → MortonIndex3D.tryFromArray c cs = .ok (.ok m) → Reach3D c sc (.fixed w m)
  | fixedFromGrid {w g o m} : IntWidth w →
      MortonIndex3D.fixedFromGridIndex c w g o = .ok m → Reach3D c sc (.fixed w m)
  | fixedFromGridFast {g o m} :
      MortonIndex3D.fixedFromGridIndexFast c g o = .ok m → Reach3D c sc (.fixed 64 m)
  | fixedFromRaw {w} {b : BitVec w} : IntWidth w → sc = .all ∨ b.toNat % 2 ^ (w % 3) = 0 →
      Reach3D c sc (.fixed w (MortonIndex3D.fixedFromRawIndex b))
  | fixedSet {w m l v m'} : Reach3D c sc (.fixed w m) → setCellAtLevel c m l v = .ok m' → Reach3D c sc (.fixed w m')
  | fixedInverted {w m m'} : Reach3D c sc (.fixed w m) → inverted c m = .ok m' → Reach3D c sc (.fixed w m')
  -- static
  | staticDefault (w) : IntWidth w → Reach3D c sc (.static w ⟨StaticStorage3D.default w⟩)
  | staticTryFromSlice {w cs m} : IntWidth w → MortonIndex3D.tryFromSlice c cs = .ok (.ok m) → Reach3D c sc (.static w m)
  | staticTryFromArray {w cs m} : IntWidth w → MortonIndex3D.tryFromArray c cs = .ok (.ok m) → Reach3D c sc (.static w m)
  | staticFromGrid {w g d o m} : IntWidth w →
      MortonIndex3D.staticFromGridIndex c w g d o = .ok (.ok m) → Reach3D c sc (.static w m)
  | staticFromRaw {w} {b : BitVec w} {d} : IntWidth w → d ≤ w / 3 → sc = .all ∨ b.toNat % 2 ^ (w - 3 * d) = 0 →
      Reach3D c sc (.static w (MortonIndex3D.staticFromRawIndex b d))
  | staticZeroed {w d m} : IntWidth w → MortonIndex3D.staticZeroed w d = some m → Reach3D c sc (.static w m)
  | staticSet {w m l v m'} : Reach3D c sc (.static w m) → setCellAtLevel c m l v = .ok m' → Reach3D c sc (.static w m')
  | staticInverted {w m m'} : Reach3D c sc (.static w m) → inverted c m = .ok m' → Reach3D c sc (.static w m')
  | staticAncestor {w m g m'} : Reach3D c sc (.static w m) → ancestor c m g = .ok (some m') → Reach3D c sc (.static w m')
  | staticParent {w m m'} : Reach3D c sc (.static w m) → parent c m = .ok (some m') → Reach3D c sc (.static w m')
  | staticWithDepth {w m d m'} : Reach3D c sc (.static w m) → withDepth c m d = .ok (some m') → Reach3D c sc (.static w m')
  | staticDescendant {w m cs m'} : Reach3D c sc (.static w m) → cs.length < 2 ^ (c.ptrBits - 1) →
      descendant c m cs = .ok (some m') → Reach3D c sc (.static w m')
  | staticChild {w m v m'} : Reach3D c sc (.static w m) → child c m v = .ok (some m') → Reach3D c sc (.static w m')
  -- dynamic
  | dynamicDefault : Reach3D c sc (.dynamic ⟨DynamicStorage3D.default⟩)
  | dynamicTryFromSlice {cs m} : Addressable c (cs.length * 3) →
      MortonIndex3D.tryFromSlice c cs = .ok (.ok m) → Reach3D c sc (.dynamic m)
  | dynamicTryFromArray {cs m} : Addressable c (cs.length * 3) →
      MortonIndex3D.tryFromArray c cs = .ok (.ok m) → Reach3D c sc (.dynamic m)
  | dynamicFromGrid {g d o m} : MortonIndex3D.dynamicFromGridIndex c g d o = .ok m → Reach3D c sc (.dynamic m)
  | dynamicZeroed {d m} : Addressable c (d * 3) → MortonIndex3D.dynamicZeroed c d = .ok m → Reach3D c sc (.dynamic m)
  | dynamicSet {m l v m'} : Reach3D c sc (.dynamic m) → setCellAtLevel c m l v = .ok m' → Reach3D c sc (.dynamic m')
  | dynamicInverted {m m'} : Reach3D c sc (.dynamic m) → inverted c m = .ok m' → Reach3D c sc (.dynamic m')
  | dynamicAncestor {m g m'} : Reach3D c sc (.dynamic m) → ancestor c m g = .ok (some m') → Reach3D c sc (.dynamic m')
  | dynamicParent {m m'} : Reach3D c sc (.dynamic m) → parent c m = .ok (some m') → Reach3D c sc (.dynamic m')
  | dynamicWithDepth {m d m'} : Reach3D c sc (.dynamic m) → withDepth c m d = .ok (some m') → Reach3D c sc (.dynamic m')
  | dynamicDescendant {m cs m'} : Reach3D c sc (.dynamic m) → Addressable c ((depth m + cs.length) * 3) →
      descendant c m cs = .ok (some m') → Reach3D c sc (.dynamic m')
  | dynamicChild {m v m'} : Reach3D c sc (.dynamic m) → Addressable c ((depth m + 1) * 3) →
      child c m v = .ok (some m') → Reach3D c sc (.dynamic m')
  -- conversions
  | fixedToStatic {w m} : Reach3D c sc (.fixed w m) → Reach3D c sc (.static w (MortonIndex3D.fixedToStatic m))
  | fixedToDynamic {w m} : Reach3D c sc (.fixed w m) → Reach3D c sc (.dynamic (MortonIndex3D.fixedToDynamic c m))
  | staticToFixed {w m} : Reach3D c sc (.static w m) → Reach3D c sc (.fixed w (MortonIndex3D.staticToFixed m))
  | staticToDynamic {w m m'} : Reach3D c sc (.static w m) → MortonIndex3D.staticToDynamic c m = .ok m' → Reach3D c sc (.dynamic m')
  | dynamicToFixed {w m m'} : IntWidth w → Reach3D c sc (.dynamic m) →
      sc = .all ∨ (c.bigEndian = false ∧ w % 3 ≤ (8 - depth m * 3 % 8) % 8) →
      MortonIndex3D.dynamicToFixed c w m = .ok m' → Reach3D c sc (.fixed w m')
  | dynamicToStatic {w m m'} : IntWidth w → Reach3D c sc (.dynamic m) → MortonIndex3D.dynamicToStatic c w m = .ok (.ok m') →
      Reach3D c sc (.static w m')

end MortonRs
