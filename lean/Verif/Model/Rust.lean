/-!
# The fragment of Rust's semantics the model needs

Panics, overflow, shifts, casts, ranges and `for` loops. These definitions model the language and
`core`/`alloc`, not a file of `/repo`; they are part of the trusted base. Each comment names a place where `/repo/src` uses
the construct.
-/

namespace MortonRs

/-- The compilation target: `target_pointer_width`, whether arithmetic overflow is checked (debug
profile) or wraps (release profile), and `target_endian` (`number.rs` 241-263, `morton_index_2d.rs` 812-815). -/
structure Cfg where
  ptrBits : Nat
  overflowChecks : Bool
  bigEndian : Bool
  deriving DecidableEq, Repr

/-- The pointer widths supported by `number.rs` 241-263 (anything else is a `compile_error!`). -/
def Cfg.Supported (c : Cfg) : Prop := c.ptrBits = 16 ∨ c.ptrBits = 32 ∨ c.ptrBits = 64

instance (c : Cfg) : Decidable c.Supported := by unfold Cfg.Supported; infer_instance

/-- Everything that can make a call not return a value, e.g. the `panic!` of `morton_index_2d.rs` 310. -/
inductive Fault where
  /-- arithmetic overflow, under-flow or over-long shift with overflow checks enabled -/
  | overflow
  /-- an explicit `panic!` -/
  | panic
  /-- `unwrap` on `None`/`Err` -/
  | unwrap
  /-- slice or `Vec` index out of bounds -/
  | indexOutOfBounds
  /-- overflow in a `const`: the program does not compile -/
  | compileError
  /-- a loop of the model ran out of fuel, i.e. the Rust loop would not terminate -/
  | nontermination
  /-- undefined behaviour -/
  | undefinedBehaviour
  deriving DecidableEq, Repr

/-- Result of a Rust call, e.g. `morton_index_2d.rs` 308: a value or a fault. -/
abbrev Res (α : Type) := Except Fault α

/-- `a + b` on `usize`; `storage.rs` 113, 114. -/
def uadd (c : Cfg) (a b : Nat) : Res Nat :=
  if a + b < 2 ^ c.ptrBits then .ok (a + b)
  else if c.overflowChecks then .error .overflow else .ok ((a + b) % 2 ^ c.ptrBits)

/-- `a - b` on `usize`; `storage.rs` 113. -/
def usub (c : Cfg) (a b : Nat) : Res Nat :=
  if b ≤ a then .ok (a - b)
  else if c.overflowChecks then .error .overflow else .ok ((2 ^ c.ptrBits + a - b) % 2 ^ c.ptrBits)

/-- `a * b` on `usize`; `storage.rs` 113. -/
def umul (c : Cfg) (a b : Nat) : Res Nat :=
  if a * b < 2 ^ c.ptrBits then .ok (a * b)
  else if c.overflowChecks then .error .overflow else .ok ((a * b) % 2 ^ c.ptrBits)

/-- `x << s` on a `w`-bit unsigned integer: overflow if `s >= w`, else (release) `s` modulo `w`
(`w` is a power of two); `number.rs` 21, 22. -/
def shl (c : Cfg) {w : Nat} (x : BitVec w) (s : Nat) : Res (BitVec w) :=
  if s < w then .ok (x <<< s)
  else if c.overflowChecks then .error .overflow else .ok (x <<< (s % w))

/-- `x >> s` on a `w`-bit unsigned integer; `number.rs` 333, `morton_index_3d.rs` 425. -/
def shr (c : Cfg) {w : Nat} (x : BitVec w) (s : Nat) : Res (BitVec w) :=
  if s < w then .ok (x >>> s)
  else if c.overflowChecks then .error .overflow else .ok (x >>> (s % w))

/-- `uN::checked_shr`; `number.rs` 11, 12. -/
def checkedShr {w : Nat} (x : BitVec w) (s : Nat) : Option (BitVec w) :=
  if s < w then some (x >>> s) else none

/-- `a - b` on `u8` (values are `< 256`); `morton_index_2d.rs` 531. -/
def u8sub (c : Cfg) (a b : Nat) : Res Nat :=
  if b ≤ a then .ok (a - b)
  else if c.overflowChecks then .error .overflow else .ok ((256 + a - b) % 256)

/-- `n as u8` for a `usize` `n`; `morton_index_2d.rs` 531. -/
def asU8 (n : Nat) : Nat := n % 256

/-- `core::ops::Range<usize>`; `number.rs` 5. -/
structure Range where
  start : Nat
  stop : Nat
  deriving DecidableEq, Repr

/-- `Range::len`: zero if `start > end`; `number.rs` 7. -/
def Range.len (r : Range) : Nat := r.stop - r.start

/-- `for i in a..b { state = body(i, state) }`; a fault in the body aborts the loop; `morton_index_2d.rs` 112. -/
def forRange {σ : Type} (a b : Nat) (init : σ) (body : Nat → σ → Res σ) : Res σ :=
  (List.range' a (b - a)).foldlM (fun s i => body i s) init

/-- `for i in (a..b).rev() { state = body(i, state) }`; `morton_index_2d.rs` 181. -/
def forRangeRev {σ : Type} (a b : Nat) (init : σ) (body : Nat → σ → Res σ) : Res σ :=
  (List.range' a (b - a)).reverse.foldlM (fun s i => body i s) init

/-- `for (i, x) in xs.iter().enumerate() { state = body(i, x, state) }`, counting from `i`; `morton_index_2d.rs` 399. -/
def forEnumFrom {α σ : Type} (i : Nat) (xs : List α) (init : σ) (body : Nat → α → σ → Res σ) : Res σ :=
  match xs with
  | [] => .ok init
  | x :: xs => do
    let s ← body i x init
    forEnumFrom (i + 1) xs s body

/-- `for (i, x) in xs.iter().enumerate()`; `morton_index_2d.rs` 399. -/
def forEnum {α σ : Type} (xs : List α) (init : σ) (body : Nat → α → σ → Res σ) : Res σ :=
  forEnumFrom 0 xs init body

/-- `xs[i]`; `number.rs` 326. -/
def index {α : Type} (xs : List α) (i : Nat) : Res α :=
  match xs[i]? with
  | some x => .ok x
  | none => .error .indexOutOfBounds

/-- `xs[i] = v`; `number.rs` 334. -/
def indexSet {α : Type} (xs : List α) (i : Nat) (v : α) : Res (List α) :=
  if i < xs.length then .ok (xs.set i v) else .error .indexOutOfBounds

/-- `NonZeroUsize`; `morton.rs` 130. -/
abbrev NonZeroUsize := { n : Nat // 0 < n }

/-- `NonZeroUsize::new_unchecked`: undefined behaviour on zero; `morton.rs` 134, 149. -/
def NonZeroUsize.newUnchecked (n : Nat) : Res NonZeroUsize :=
  if h : 0 < n then .ok ⟨n, h⟩ else .error .undefinedBehaviour

/-- `Option::unwrap`; `morton_index_2d.rs` 340. -/
def unwrapOption {α : Type} : Option α → Res α
  | some a => .ok a
  | none => .error .unwrap

/-- `Result::unwrap`; `morton_index_3d.rs` 428. -/
def unwrapResult {ε α : Type} : Except ε α → Res α
  | .ok a => .ok a
  | .error _ => .error .unwrap

/-- Little-endian value of a byte string, for `number.rs` 146. -/
def leValue : List (BitVec 8) → Nat
  | [] => 0
  | b :: bs => b.toNat + 256 * leValue bs

/-- `uN::from_le_bytes`; `number.rs` 146. -/
def fromLeBytes (w : Nat) (bs : List (BitVec 8)) : BitVec w := BitVec.ofNat w (leValue bs)

/-- `uN::from_be_bytes`; `number.rs` 145. -/
def fromBeBytes (w : Nat) (bs : List (BitVec 8)) : BitVec w := fromLeBytes w bs.reverse

/-- `uN::from_ne_bytes`; `number.rs` 356. -/
def fromNeBytes (c : Cfg) (w : Nat) (bs : List (BitVec 8)) : BitVec w :=
  if c.bigEndian then fromBeBytes w bs else fromLeBytes w bs

/-- Bytes of an unsigned integer, least significant first, for `number.rs` 47. -/
def leBytes {w : Nat} (x : BitVec w) : List (BitVec 8) :=
  (List.range (w / 8)).map fun i => (x >>> (8 * i)).setWidth 8

/-- `bytemuck::bytes_of`: the bytes in memory order of the target; `number.rs` 47. -/
def bytesOf (c : Cfg) {w : Nat} (x : BitVec w) : List (BitVec 8) :=
  if c.bigEndian then (leBytes x).reverse else leBytes x

/-- `(bytes.as_ptr().add(i) as *const u16).read_unaligned()`: undefined behaviour unless both bytes
lie inside the slice; `number.rs` 292, 293. -/
def readU16 (c : Cfg) (bytes : List (BitVec 8)) (i : Nat) : Res (BitVec 16) :=
  match bytes[i]?, bytes[i + 1]? with
  | some a, some b => .ok (fromNeBytes c 16 [a, b])
  | _, _ => .error .undefinedBehaviour

/-- `std::char::from_digit(d, 10)`; `morton_index_2d.rs` 340. -/
def fromDigit10 (d : Nat) : Option Char :=
  if d < 10 then some (Char.ofNat (48 + d)) else none

/-- Rust's `Ord`/`PartialOrd`/`PartialEq`/`Hash` for a type: `cmp`, `partial_cmp`, `==` and the sequence of
values a derived `Hash` writes to the hasher; `morton_index_2d.rs` 39. -/
class RustOrd (α : Type) where
  cmp : Cfg → α → α → Res Ordering
  partialCmp : Cfg → α → α → Res (Option Ordering)
  eq : α → α → Bool
  hashInput : α → List Nat

/-- `a < b` (provided method of `PartialOrd`); `morton_index_2d.rs` 39. -/
def RustOrd.lt {α : Type} [RustOrd α] (c : Cfg) (a b : α) : Res Bool := do
  return (← RustOrd.partialCmp c a b) == some .lt

/-- `a <= b` (provided method of `PartialOrd`); `morton_index_2d.rs` 39. -/
def RustOrd.le {α : Type} [RustOrd α] (c : Cfg) (a b : α) : Res Bool := do
  let o ← RustOrd.partialCmp c a b
  return o == some .lt || o == some .eq

/-- `a > b` (provided method of `PartialOrd`); `morton_index_2d.rs` 39. -/
def RustOrd.gt {α : Type} [RustOrd α] (c : Cfg) (a b : α) : Res Bool := do
  return (← RustOrd.partialCmp c a b) == some .gt

/-- `a >= b` (provided method of `PartialOrd`); `morton_index_2d.rs` 39. -/
def RustOrd.ge {α : Type} [RustOrd α] (c : Cfg) (a b : α) : Res Bool := do
  let o ← RustOrd.partialCmp c a b
  return o == some .gt || o == some .eq

end MortonRs
