import Verif.Lemmas.Kinds2D
import Verif.Lemmas.Grid2D
import Verif.Lemmas.Binary

/-! # Grid positions of 2D indices as binary numbers -/

namespace MortonRs

open BitStorage MortonIndex

variable {c : Cfg}

theorem quadrantX_eq {W : Nat} (hW : 2 ≤ W) (o : QuadrantOrdering) (q : Quadrant) :
    (o.toIndex W q).x.getLsbD 0 = quadrantX o q := by
  rw [(o.toIndex_getLsbD hW q).1]
  cases o <;> cases q <;> decide

theorem quadrantY_eq {W : Nat} (hW : 2 ≤ W) (o : QuadrantOrdering) (q : Quadrant) :
    (o.toIndex W q).y.getLsbD 0 = quadrantY o q := by
  rw [(o.toIndex_getLsbD hW q).2]
  cases o <;> cases q <;> decide

theorem quadrant_eq_of_coords {o : QuadrantOrdering} {p q : Quadrant} (hx : quadrantX o p = quadrantX o q)
    (hy : quadrantY o p = quadrantY o q) : p = q := by
  revert hx hy
  cases o <;> cases p <;> cases q <;> decide

/-- The cells of a path are determined by its coordinates. -/
theorem path_of_coords2 {o : QuadrantOrdering} {as bs : List Quadrant}
    (hx : as.map (quadrantX o) = bs.map (quadrantX o)) (hy : as.map (quadrantY o) = bs.map (quadrantY o)) : as = bs := by
  induction as generalizing bs with
  | nil => cases bs <;> simp_all
  | cons a as ih =>
    cases bs with
    | nil => simp at hx
    | cons b bs =>
      simp only [List.map_cons, List.cons.injEq] at hx hy
      rw [quadrant_eq_of_coords hx.1 hy.1, ih hx.2 hy.2]

theorem coord_binary {Cell S : Type} [LawfulDim Cell] [Storage S Cell] [BitStorage S Cell] {W : Nat} {v : BitVec W}
    {s : S} {f : Cell → Bool}
    (h : ∀ i, v.getLsbD i = (decide (i < Storage.depth s) && f (slot s (Storage.depth s - 1 - i)))) :
    v.toNat = binary ((path s).map f) := by
  apply Nat.eq_of_testBit_eq
  intro i
  rw [← BitVec.getLsbD, h i, binary_testBit, List.length_map, path_length]
  by_cases hi : i < Storage.depth s
  · simp only [hi, decide_true, Bool.true_and]
    rw [List.getD, List.getElem?_eq_getElem (by rw [List.length_map, path_length]; omega), Option.getD_some,
      List.getElem_map, path_getElem]
  · simp [hi]

section
variable {S : Type} [Storage S Quadrant] [BitStorage S Quadrant]

theorem toGridIndex_binary2 (hc : c.Supported) {m : MortonIndex2D S} (h : WF c m.storage)
    (hd : Storage.depth m.storage ≤ c.ptrBits) (o : QuadrantOrdering) :
    ∃ v, m.toGridIndex c o = .ok v ∧ v.x.toNat = binary ((path m.storage).map (quadrantX o)) ∧
      v.y.toNat = binary ((path m.storage).map (quadrantY o)) := by
  have hW : 2 ≤ c.ptrBits := by rcases hc with h | h | h <;> omega
  obtain ⟨v, h1, h2, h3⟩ := MortonIndex2D.toGridIndex_ok hc h hd o
  exact ⟨v, h1, coord_binary fun i => by rw [h2 i, quadrantX_eq hW], coord_binary fun i => by rw [h3 i, quadrantY_eq hW]⟩

end

end MortonRs
