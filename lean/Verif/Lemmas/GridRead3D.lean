import Verif.Lemmas.Kinds3D
import Verif.Lemmas.Grid3D
import Verif.Lemmas.GridRead2D

/-! # Grid positions of 3D indices as binary numbers -/

namespace MortonRs

open BitStorage MortonIndex

variable {c : Cfg}

theorem octantX_eq {W : Nat} (hW : 3 ≤ W) (o : OctantOrdering) (q : Octant) :
    (o.toIndex W q).x.getLsbD 0 = octantX o q := by
  rw [(o.toIndex_getLsbD hW q).1]
  cases o <;> cases q <;> decide

theorem octantY_eq {W : Nat} (hW : 3 ≤ W) (o : OctantOrdering) (q : Octant) :
    (o.toIndex W q).y.getLsbD 0 = octantY o q := by
  rw [(o.toIndex_getLsbD hW q).2.1]
  cases o <;> cases q <;> decide

theorem octantZ_eq {W : Nat} (hW : 3 ≤ W) (o : OctantOrdering) (q : Octant) :
    (o.toIndex W q).z.getLsbD 0 = octantZ o q := by
  rw [(o.toIndex_getLsbD hW q).2.2]
  cases o <;> cases q <;> decide

theorem octant_eq_of_coords {o : OctantOrdering} {p q : Octant} (hx : octantX o p = octantX o q)
    (hy : octantY o p = octantY o q) (hz : octantZ o p = octantZ o q) : p = q := by
  revert hx hy hz
  cases o <;> cases p <;> cases q <;> decide

/-- The cells of a path are determined by its coordinates. -/
theorem path_of_coords3 {o : OctantOrdering} {as bs : List Octant}
    (hx : as.map (octantX o) = bs.map (octantX o)) (hy : as.map (octantY o) = bs.map (octantY o))
    (hz : as.map (octantZ o) = bs.map (octantZ o)) : as = bs := by
  induction as generalizing bs with
  | nil => cases bs <;> simp_all
  | cons a as ih =>
    cases bs with
    | nil => simp at hx
    | cons b bs =>
      simp only [List.map_cons, List.cons.injEq] at hx hy hz
      rw [octant_eq_of_coords hx.1 hy.1 hz.1, ih hx.2 hy.2 hz.2]

section
variable {S : Type} [Storage S Octant] [BitStorage S Octant]

theorem toGridIndex_binary3 (hc : c.Supported) {m : MortonIndex3D S} (h : WF c m.storage)
    (hd : Storage.depth m.storage ≤ c.ptrBits) (o : OctantOrdering) :
    ∃ v, m.toGridIndex c o = .ok v ∧ v.x.toNat = binary ((path m.storage).map (octantX o)) ∧
      v.y.toNat = binary ((path m.storage).map (octantY o)) ∧ v.z.toNat = binary ((path m.storage).map (octantZ o)) := by
  have hW : 3 ≤ c.ptrBits := by rcases hc with h | h | h <;> omega
  obtain ⟨v, h1, h2, h3, h4⟩ := MortonIndex3D.toGridIndex_ok hc h hd o
  exact ⟨v, h1, coord_binary fun i => by rw [h2 i, octantX_eq hW], coord_binary fun i => by rw [h3 i, octantY_eq hW],
    coord_binary fun i => by rw [h4 i, octantZ_eq hW]⟩

end

end MortonRs
