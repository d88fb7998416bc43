import Verif.Lemmas.GridRead2D
import Verif.Lemmas.GridRead3D
import Verif.Props.Examples

/-! # Cells and orderings (C30, C31) -/

namespace MortonRs

variable {c : Cfg}

/-! ## C30 -/

/-- `to_index` of a cell: zero or one on each axis, as documented; every corner of the unit square is
the position of exactly one quadrant. -/
theorem C30_orderings_2D (hc : c.Supported) (o : QuadrantOrdering) :
    (∀ q, (o.toIndex c.ptrBits q).x.toNat = (quadrantX o q).toNat ∧
      (o.toIndex c.ptrBits q).y.toNat = (quadrantY o q).toNat) ∧
    (∀ p q, o.toIndex c.ptrBits p = o.toIndex c.ptrBits q → p = q) ∧
    (∀ x y : Bool, ∃ q, (o.toIndex c.ptrBits q).x.toNat = x.toNat ∧ (o.toIndex c.ptrBits q).y.toNat = y.toNat) ∧
    QuadrantOrdering.default = .XY := by
  have key : ∀ q, (o.toIndex c.ptrBits q).x.toNat = (quadrantX o q).toNat ∧
      (o.toIndex c.ptrBits q).y.toNat = (quadrantY o q).toNat := by
    intro q
    rcases hc with h | h | h <;> rw [h] <;> cases o <;> cases q <;> decide
  refine ⟨key, fun p q h => ?_, fun x y => ?_, rfl⟩
  · have hx := congrArg (fun v => v.x.toNat) h
    have hy := congrArg (fun v => v.y.toNat) h
    simp only [(key p).1, (key q).1] at hx
    simp only [(key p).2, (key q).2] at hy
    revert hx hy
    cases o <;> cases p <;> cases q <;> decide
  · have : ∃ q, quadrantX o q = x ∧ quadrantY o q = y := by
      have all : ∃ q ∈ [Quadrant.Zero, .One, .Two, .Three], quadrantX o q = x ∧ quadrantY o q = y := by
        cases o <;> cases x <;> cases y <;> decide
      obtain ⟨q, -, h⟩ := all
      exact ⟨q, h⟩
    obtain ⟨q, h1, h2⟩ := this
    exact ⟨q, by rw [(key q).1, h1], by rw [(key q).2, h2]⟩

/-- The documentation of the two orderings: quadrant 1 is the next one along the first axis. -/
example : quadrantX .XY .One = true ∧ quadrantY .XY .One = false ∧ quadrantX .XY .Two = false ∧
    quadrantY .XY .Two = true ∧ quadrantX .YX .One = false ∧ quadrantY .YX .One = true := by decide

example : (QuadrantOrdering.XY.toIndex 64 .One).x.toNat = 1 := ((C30_orderings_2D x64_supported .XY).1 .One).1

theorem C30_orderings_3D (hc : c.Supported) (o : OctantOrdering) :
    (∀ q, (o.toIndex c.ptrBits q).x.toNat = (octantX o q).toNat ∧
      (o.toIndex c.ptrBits q).y.toNat = (octantY o q).toNat ∧
      (o.toIndex c.ptrBits q).z.toNat = (octantZ o q).toNat) ∧
    (∀ p q, o.toIndex c.ptrBits p = o.toIndex c.ptrBits q → p = q) ∧
    (∀ x y z : Bool, ∃ q, (o.toIndex c.ptrBits q).x.toNat = x.toNat ∧ (o.toIndex c.ptrBits q).y.toNat = y.toNat ∧
      (o.toIndex c.ptrBits q).z.toNat = z.toNat) ∧
    (∀ q, octantKey q = (o.toIndex c.ptrBits q).x.toNat * 2 ^ o.getBitShiftsForXyz.1 +
      (o.toIndex c.ptrBits q).y.toNat * 2 ^ o.getBitShiftsForXyz.2.1 +
      (o.toIndex c.ptrBits q).z.toNat * 2 ^ o.getBitShiftsForXyz.2.2) ∧
    OctantOrdering.default = .XYZ := by
  have key : ∀ q, (o.toIndex c.ptrBits q).x.toNat = (octantX o q).toNat ∧
      (o.toIndex c.ptrBits q).y.toNat = (octantY o q).toNat ∧
      (o.toIndex c.ptrBits q).z.toNat = (octantZ o q).toNat := by
    intro q
    rcases hc with h | h | h <;> rw [h] <;> cases o <;> cases q <;> decide
  refine ⟨key, fun p q h => ?_, fun x y z => ?_, fun q => ?_, rfl⟩
  · have hx := congrArg (fun v => v.x.toNat) h
    have hy := congrArg (fun v => v.y.toNat) h
    have hz := congrArg (fun v => v.z.toNat) h
    simp only [(key p).1, (key q).1] at hx
    simp only [(key p).2.1, (key q).2.1] at hy
    simp only [(key p).2.2, (key q).2.2] at hz
    revert hx hy hz
    cases o <;> cases p <;> cases q <;> decide
  · have : ∃ q, octantX o q = x ∧ octantY o q = y ∧ octantZ o q = z := by
      have all : ∃ q ∈ [Octant.Zero, .One, .Two, .Three, .Four, .Five, .Six, .Seven],
          octantX o q = x ∧ octantY o q = y ∧ octantZ o q = z := by
        cases o <;> cases x <;> cases y <;> cases z <;> decide
      obtain ⟨q, -, h⟩ := all
      exact ⟨q, h⟩
    obtain ⟨q, h1, h2, h3⟩ := this
    exact ⟨q, by rw [(key q).1, h1], by rw [(key q).2.1, h2], by rw [(key q).2.2, h3]⟩
  · rw [(key q).1, (key q).2.1, (key q).2.2]
    cases o <;> cases q <;> decide

/-- The documentation of the orderings: octants 1, 2, 4 lie along the first, second and third axis. -/
example : octantY .YZX .One = true ∧ octantZ .YZX .Two = true ∧ octantX .YZX .Four = true ∧
    octantX .YZX .One = false ∧ octantX .YZX .Two = false := by decide

example : (OctantOrdering.ZXY.toIndex 64 .Two).x.toNat = 1 := ((C30_orderings_3D x64_supported .ZXY).1 .Two).1

/-! ## C31 -/

theorem C31_cell_numbers_2D :
    (∀ n, n < 2 ^ Dimension.DIMENSIONALITY Quadrant →
      ∃ q, Quadrant.tryFromUsize n = .ok q ∧ q.toUsize = n ∧ quadrantKey q = n) ∧
    (∀ n, 2 ^ Dimension.DIMENSIONALITY Quadrant ≤ n → Quadrant.tryFromUsize n = .error .CellIndexOutOfRange) ∧
    (∀ q, Quadrant.tryFromUsize q.toUsize = .ok q ∧ q.toUsize < 2 ^ Dimension.DIMENSIONALITY Quadrant) ∧
    (∀ p q : Quadrant, p.cmp q = compare p.toUsize q.toUsize) := by
  have hD : 2 ^ Dimension.DIMENSIONALITY Quadrant = 4 := rfl
  rw [hD]
  refine ⟨fun n hn => ?_, fun n hn => ?_, fun q => by cases q <;> decide, fun p q => by cases p <;> cases q <;> rfl⟩
  · match n with
    | 0 => exact ⟨.Zero, rfl, rfl, rfl⟩
    | 1 => exact ⟨.One, rfl, rfl, rfl⟩
    | 2 => exact ⟨.Two, rfl, rfl, rfl⟩
    | 3 => exact ⟨.Three, rfl, rfl, rfl⟩
    | n + 4 => omega
  · match n with
    | 0 | 1 | 2 | 3 => omega
    | n + 4 => rfl

example : Quadrant.tryFromUsize 4 = .error .CellIndexOutOfRange := C31_cell_numbers_2D.2.1 4 (by decide)

theorem C31_cell_numbers_3D :
    (∀ n, n < 2 ^ Dimension.DIMENSIONALITY Octant →
      ∃ q, Octant.tryFromUsize n = .ok q ∧ q.toUsize = n ∧ octantKey q = n) ∧
    (∀ n, 2 ^ Dimension.DIMENSIONALITY Octant ≤ n → Octant.tryFromUsize n = .error .CellIndexOutOfRange) ∧
    (∀ q, Octant.tryFromUsize q.toUsize = .ok q ∧ q.toUsize < 2 ^ Dimension.DIMENSIONALITY Octant) ∧
    (∀ p q : Octant, p.cmp q = compare p.toUsize q.toUsize) := by
  have hD : 2 ^ Dimension.DIMENSIONALITY Octant = 8 := rfl
  rw [hD]
  refine ⟨fun n hn => ?_, fun n hn => ?_, fun q => by cases q <;> decide, fun p q => by cases p <;> cases q <;> rfl⟩
  · match n with
    | 0 => exact ⟨.Zero, rfl, rfl, rfl⟩
    | 1 => exact ⟨.One, rfl, rfl, rfl⟩
    | 2 => exact ⟨.Two, rfl, rfl, rfl⟩
    | 3 => exact ⟨.Three, rfl, rfl, rfl⟩
    | 4 => exact ⟨.Four, rfl, rfl, rfl⟩
    | 5 => exact ⟨.Five, rfl, rfl, rfl⟩
    | 6 => exact ⟨.Six, rfl, rfl, rfl⟩
    | 7 => exact ⟨.Seven, rfl, rfl, rfl⟩
    | n + 8 => omega
  · match n with
    | 0 | 1 | 2 | 3 | 4 | 5 | 6 | 7 => omega
    | n + 8 => rfl

example : Octant.tryFromUsize 255 = .error .CellIndexOutOfRange := C31_cell_numbers_3D.2.1 255 (by decide)

/-- **C31**: `==`, `cmp`, `partial_cmp`, `<`, `<=`, `>`, `>=` of cells are those of their numbers. -/
theorem C31_cell_comparisons_2D (p q : Quadrant) :
    (RustOrd.eq p q = true ↔ p = q) ∧ RustOrd.cmp c p q = .ok (compare (quadrantKey p) (quadrantKey q)) ∧
    RustOrd.partialCmp c p q = .ok (some (compare (quadrantKey p) (quadrantKey q))) ∧
    RustOrd.lt c p q = .ok (decide (quadrantKey p < quadrantKey q)) ∧
    RustOrd.le c p q = .ok (decide (quadrantKey p ≤ quadrantKey q)) ∧
    RustOrd.gt c p q = .ok (decide (quadrantKey q < quadrantKey p)) ∧
    RustOrd.ge c p q = .ok (decide (quadrantKey q ≤ quadrantKey p)) := by
  cases p <;> cases q <;> exact ⟨by decide, rfl, rfl, rfl, rfl, rfl, rfl⟩

example : RustOrd.lt x64 Quadrant.One Quadrant.Three = .ok true := (C31_cell_comparisons_2D .One .Three).2.2.2.1

/-- **C31**: `==`, `cmp`, `partial_cmp`, `<`, `<=`, `>`, `>=` of cells are those of their numbers. -/
theorem C31_cell_comparisons_3D (p q : Octant) :
    (RustOrd.eq p q = true ↔ p = q) ∧ RustOrd.cmp c p q = .ok (compare (octantKey p) (octantKey q)) ∧
    RustOrd.partialCmp c p q = .ok (some (compare (octantKey p) (octantKey q))) ∧
    RustOrd.lt c p q = .ok (decide (octantKey p < octantKey q)) ∧
    RustOrd.le c p q = .ok (decide (octantKey p ≤ octantKey q)) ∧
    RustOrd.gt c p q = .ok (decide (octantKey q < octantKey p)) ∧
    RustOrd.ge c p q = .ok (decide (octantKey q ≤ octantKey p)) := by
  cases p <;> cases q <;> exact ⟨by decide, rfl, rfl, rfl, rfl, rfl, rfl⟩

example : RustOrd.lt x64 Octant.One Octant.Three = .ok true := (C31_cell_comparisons_3D .One .Three).2.2.2.1

end MortonRs
