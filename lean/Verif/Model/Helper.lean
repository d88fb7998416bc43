import Verif.Model.Storage

/-! # Model of `/repo/src/helper.rs` -/

namespace MortonRs

/-- `helper.rs` 9-12: `struct DisplayableMortonIndexSlice`. -/
structure DisplayableMortonIndexSlice (M : Type) where
  morton_indices : List M
  naming : MortonIndexNaming

/-- `helper.rs` 57-59: `make_displayable`. -/
def makeDisplayable {M : Type} (morton_indices : List M) (naming : MortonIndexNaming) :
    DisplayableMortonIndexSlice M := ⟨morton_indices, naming⟩

/-- `helper.rs` 20-31: `Display::fmt`, as the string written to a formatter that never fails; `Debug`
(14-18) forwards to it. -/
def DisplayableMortonIndexSlice.fmt (c : Cfg) {M Cell : Type} [MortonIndex M Cell]
    (self : DisplayableMortonIndexSlice M) : Res String := do
  let f := "["
  let f ← forEnum self.morton_indices f fun idx morton f => do
    let f := f ++ (← MortonIndex.toString c morton self.naming)
    if idx < (← usub c self.morton_indices.length 1) then return f ++ ", " else return f
  return f ++ "]"

/-- `PartialEq for [T]` of `core`, used by `helper.rs` 33-37. -/
def sliceEq {M : Type} [RustOrd M] : List M → List M → Bool
  | [], [] => true
  | a :: as, b :: bs => RustOrd.eq a b && sliceEq as bs
  | _, _ => false

/-- `Ord for [T]` of `core` (lexicographic, shorter first), used by `helper.rs` 48-52. -/
def sliceCmp (c : Cfg) {M : Type} [RustOrd M] : List M → List M → Res Ordering
  | [], [] => .ok .eq
  | [], _ :: _ => .ok .lt
  | _ :: _, [] => .ok .gt
  | a :: as, b :: bs => do
    match ← RustOrd.cmp c a b with
    | .eq => sliceCmp c as bs
    | o => return o

/-- `PartialOrd for [T]` of `core`, used by `helper.rs` 42-46: element by element with `partial_cmp`, an
incomparable pair ends the comparison. -/
def slicePartialCmp (c : Cfg) {M : Type} [RustOrd M] : List M → List M → Res (Option Ordering)
  | [], [] => .ok (some .eq)
  | [], _ :: _ => .ok (some .lt)
  | _ :: _, [] => .ok (some .gt)
  | a :: as, b :: bs => do
    match ← RustOrd.partialCmp c a b with
    | some .eq => slicePartialCmp c as bs
    | o => return o

/-- `helper.rs` 33-37: `PartialEq` of the displayable slice. -/
def DisplayableMortonIndexSlice.eq {M : Type} [RustOrd M] (self other : DisplayableMortonIndexSlice M) :
    Bool := sliceEq self.morton_indices other.morton_indices

/-- `helper.rs` 42-46: `PartialOrd` of the displayable slice. -/
def DisplayableMortonIndexSlice.partialCmp (c : Cfg) {M : Type} [RustOrd M]
    (self other : DisplayableMortonIndexSlice M) : Res (Option Ordering) :=
  slicePartialCmp c self.morton_indices other.morton_indices

/-- `helper.rs` 48-52: `Ord` of the displayable slice. -/
def DisplayableMortonIndexSlice.cmp (c : Cfg) {M : Type} [RustOrd M]
    (self other : DisplayableMortonIndexSlice M) : Res Ordering :=
  sliceCmp c self.morton_indices other.morton_indices

end MortonRs
