import Verif.Model.Rust

/-! # Model of `/repo/src/align.rs` -/

namespace MortonRs

/-- `+` on a `w`-bit unsigned integer; `align.rs` 12. -/
def addN (c : Cfg) {w : Nat} (a b : BitVec w) : Res (BitVec w) :=
  if a.toNat + b.toNat < 2 ^ w then .ok (a + b)
  else if c.overflowChecks then .error .overflow else .ok (a + b)

/-- `-` on a `w`-bit unsigned integer; `align.rs` 12. -/
def subN (c : Cfg) {w : Nat} (a b : BitVec w) : Res (BitVec w) :=
  if b.toNat ≤ a.toNat then .ok (a - b)
  else if c.overflowChecks then .error .overflow else .ok (a - b)

/-- `*` on a `w`-bit unsigned integer; `align.rs` 12. -/
def mulN (c : Cfg) {w : Nat} (a b : BitVec w) : Res (BitVec w) :=
  if a.toNat * b.toNat < 2 ^ w then .ok (a * b)
  else if c.overflowChecks then .error .overflow else .ok (a * b)

/-- `align.rs` 7-65: `Alignable::align_to` of `u8`, `u16`, `u32`, `u64`, `u128`, `usize` (six
textually identical bodies), for the width `w`. The divisor is non-zero in the branch that divides. -/
def alignTo (c : Cfg) {w : Nat} (self alignment : BitVec w) : Res (BitVec w) :=
  if alignment = 0#w then .ok self
  else do
    let s ← addN c self alignment
    let s ← subN c s 1#w
    mulN c (s / alignment) alignment

end MortonRs
