import Verif.Props.GridEdits2D
import Verif.Props.Grid3D

/-! # Cell operations in terms of 3D grid positions (C70, C71, C72) -/

namespace MortonRs

open BitStorage MortonIndex VariableDepthMortonIndex

variable {c : Cfg}

/-! ## Statements -/

/-- C70: writing the cell at `l` sets the bit of that level in each coordinate and leaves the other bits. -/
def WriteMovesInGrid3D (c : Cfg) {S : Type} [Storage S Octant] (ok : MortonIndex3D S → Prop) : Prop :=
  ∀ m, ok m → depth m ≤ c.ptrBits → ∀ l, l < depth m → ∀ q o, ∃ m' v v', setCellAtLevel c m l q = .ok m' ∧
    m.toGridIndex c o = .ok v ∧ m'.toGridIndex c o = .ok v' ∧
    ∀ t, v'.x.getLsbD t = (if t + l + 1 = depth m then octantX o q else v.x.getLsbD t) ∧
      v'.y.getLsbD t = (if t + l + 1 = depth m then octantY o q else v.y.getLsbD t) ∧
      v'.z.getLsbD t = (if t + l + 1 = depth m then octantZ o q else v.z.getLsbD t)

/-- C71: inverting reverses the lowest `depth` bits of each coordinate. -/
def InvertedMirrorsGrid3D (c : Cfg) {S : Type} [Storage S Octant] (ok : MortonIndex3D S → Prop) : Prop :=
  ∀ m, ok m → depth m ≤ c.ptrBits → ∀ o, ∃ r v vr, inverted c m = .ok r ∧
    m.toGridIndex c o = .ok v ∧ r.toGridIndex c o = .ok vr ∧
    (∀ s t, s + t + 1 = depth m → vr.x.getLsbD s = v.x.getLsbD t ∧ vr.y.getLsbD s = v.y.getLsbD t ∧
      vr.z.getLsbD s = v.z.getLsbD t) ∧
    (∀ t, depth m ≤ t → vr.x.getLsbD t = false ∧ vr.y.getLsbD t = false ∧ vr.z.getLsbD t = false)

/-- C72: the position of a descendant is the position of the corner of the cube plus the position of the remaining
path inside the cube. -/
def DescendantGrid3D (c : Cfg) {S : Type} [VariableDepthStorage S Octant] (ok : MortonIndex3D S → Prop) : Prop :=
  ∀ m, ok m → ∀ cs d, depth m + cs.length ≤ c.ptrBits → descendant c m cs = .ok (some d) → ∀ o, ∃ v vd,
    m.toGridIndex c o = .ok v ∧ d.toGridIndex c o = .ok vd ∧
    vd.x.toNat = v.x.toNat * 2 ^ cs.length + binary (cs.map (octantX o)) ∧
    vd.y.toNat = v.y.toNat * 2 ^ cs.length + binary (cs.map (octantY o)) ∧
    vd.z.toNat = v.z.toNat * 2 ^ cs.length + binary (cs.map (octantZ o))

/-! ## Lemmas -/

section
variable {S : Type} [Storage S Octant] [BitStorage S Octant] {ok : MortonIndex3D S → Prop}

theorem writeMovesInGrid_of3 (hc : c.Supported) (hwf : ∀ m, ok m → WF c m.storage)
    (hL : ListLike c ok (cells3 (S := S)) id) : WriteMovesInGrid3D c ok := by
  intro m hm hd l hl q o
  have lm : (path m.storage).length = depth m := path_length _
  obtain ⟨m', h1, h2, h3⟩ := hL.set m hm l q (Nat.lt_of_lt_of_eq hl (hL.depth_eq m hm))
  have h3' : path m'.storage = (path m.storage).set l q := h3
  have hd' : depth m' = depth m := by
    rw [show depth m' = (path m'.storage).length from (path_length _).symm, h3', List.length_set, lm]
  obtain ⟨v, e1, e2, e3, e4⟩ := toGridIndex_binary3 hc (hwf m hm) hd o
  obtain ⟨v', f1, f2, f3, f4⟩ := toGridIndex_binary3 hc (hwf m' h2) (Nat.le_trans (Nat.le_of_eq hd') hd) o
  rw [h3'] at f2 f3 f4
  exact ⟨m', v, v', h1, e1, f1, fun t => ⟨binary_set_bit e2 f2 lm hl t, binary_set_bit e3 f3 lm hl t,
    binary_set_bit e4 f4 lm hl t⟩⟩

theorem invertedMirrorsGrid_of3 (hc : c.Supported) (hwf : ∀ m, ok m → WF c m.storage)
    (hL : ListLike c ok (cells3 (S := S)) id) : InvertedMirrorsGrid3D c ok := by
  intro m hm hd o
  have lm : (path m.storage).length = depth m := path_length _
  obtain ⟨r, h1, h2, h3⟩ := hL.inv m hm
  rw [List.map_id] at h3
  have h3' : path r.storage = (path m.storage).reverse := h3
  have hd' : depth r = depth m := by
    rw [show depth r = (path r.storage).length from (path_length _).symm, h3', List.length_reverse, lm]
  obtain ⟨v, e1, e2, e3, e4⟩ := toGridIndex_binary3 hc (hwf m hm) hd o
  obtain ⟨v', f1, f2, f3, f4⟩ := toGridIndex_binary3 hc (hwf r h2) (Nat.le_trans (Nat.le_of_eq hd') hd) o
  rw [h3'] at f2 f3 f4
  have bx := binary_reverse_bit e2 f2 lm
  have by' := binary_reverse_bit e3 f3 lm
  have bz := binary_reverse_bit e4 f4 lm
  exact ⟨r, v, v', h1, e1, f1, fun s t e => ⟨bx.1 s t e, by'.1 s t e, bz.1 s t e⟩,
    fun t ht => ⟨bx.2 t ht, by'.2 t ht, bz.2 t ht⟩⟩

end

theorem descendantGrid_of3 {S : Type} [VariableDepthStorage S Octant] [BitStorage S Octant]
    {ok : MortonIndex3D S → Prop} (hc : c.Supported) (hwf : ∀ m, ok m → WF c m.storage) {room limit}
    (hD : DescLike c ok (cells3 (S := S)) room limit)
    (hroom : ∀ m k, ok m → depth m + k ≤ c.ptrBits → room m k) : DescendantGrid3D c ok := by
  intro m hm cs d hd hk o
  obtain ⟨h1, h2⟩ := hD.of_some (cs := cs) hm (hroom m _ hm hd) hk
  have h2' : path d.storage = path m.storage ++ cs := h2
  have hdk : Storage.depth d.storage ≤ c.ptrBits := by
    rw [← path_length d.storage, h2', List.length_append, path_length]; exact hd
  obtain ⟨v, e1, e2, e3, e4⟩ := toGridIndex_binary3 hc (hwf m hm) (Nat.le_trans (Nat.le_add_right _ _) hd) o
  obtain ⟨vk, f1, f2, f3, f4⟩ := toGridIndex_binary3 hc (hwf d h1) hdk o
  refine ⟨v, vk, e1, f1, ?_, ?_, ?_⟩
  · rw [e2, f2, h2', List.map_append, binary_append_list, List.length_map, Nat.mul_comm]
  · rw [e3, f3, h2', List.map_append, binary_append_list, List.length_map, Nat.mul_comm]
  · rw [e4, f4, h2', List.map_append, binary_append_list, List.length_map, Nat.mul_comm]

/-! ## C70 -/

theorem C70_write_moves_in_grid_3D (hc : c.Supported) :
    (∀ w, WriteMovesInGrid3D c (fun m => Reach3D c .all (.fixed w m))) ∧
    (∀ w, WriteMovesInGrid3D c (fun m => Reach3D c .all (.static w m))) ∧
    (DynWrites c → WriteMovesInGrid3D c (fun m => Reach3D c .all (.dynamic m))) :=
  ⟨fun _ => writeMovesInGrid_of3 hc (fixed_wf3 hc) (fixed_list3 hc),
    fun _ => writeMovesInGrid_of3 hc (static_wf3 hc) (static_list3 hc),
    fun hw => writeMovesInGrid_of3 hc (dynamic_wf3 hc) (dynamic_list3 hc hw)⟩

/-- Changing the middle cell of `[Five, One, Six]` to `Two`. -/
example : ∃ m' v v', setCellAtLevel x64 exS3 1 Octant.Two = .ok m' ∧ exS3.toGridIndex x64 .XYZ = .ok v ∧
    m'.toGridIndex x64 .XYZ = .ok v' ∧ v'.x.getLsbD 1 = false ∧ v'.y.getLsbD 1 = true ∧ v'.z.getLsbD 1 = false := by
  obtain ⟨m', v, v', h1, h2, h3, h4⟩ := (C70_write_moves_in_grid_3D x64_supported).2.1 32 exS3 (exS3_reach _) (by decide) 1
    (by decide) .Two .XYZ
  exact ⟨m', v, v', h1, h2, h3, h4 1⟩

/-! ## C71 -/

theorem C71_inverted_mirrors_grid_3D (hc : c.Supported) :
    (∀ w, InvertedMirrorsGrid3D c (fun m => Reach3D c .all (.fixed w m))) ∧
    (∀ w, InvertedMirrorsGrid3D c (fun m => Reach3D c .all (.static w m))) ∧
    (DynWrites c → InvertedMirrorsGrid3D c (fun m => Reach3D c .all (.dynamic m))) :=
  ⟨fun _ => invertedMirrorsGrid_of3 hc (fixed_wf3 hc) (fixed_list3 hc),
    fun _ => invertedMirrorsGrid_of3 hc (static_wf3 hc) (static_list3 hc),
    fun hw => invertedMirrorsGrid_of3 hc (dynamic_wf3 hc) (dynamic_list3 hc hw)⟩

example : ∃ r v vr, inverted x64 exD3 = .ok r ∧ exD3.toGridIndex x64 .ZXY = .ok v ∧ r.toGridIndex x64 .ZXY = .ok vr ∧
    vr.x.getLsbD 0 = v.x.getLsbD 2 ∧ vr.y.getLsbD 0 = v.y.getLsbD 2 ∧ vr.z.getLsbD 0 = v.z.getLsbD 2 := by
  obtain ⟨r, v, vr, h1, h2, h3, h4, -⟩ := (C71_inverted_mirrors_grid_3D x64_supported).2.2 x64_writes exD3 (exD3_reach _)
    (by decide) .ZXY
  exact ⟨r, v, vr, h1, h2, h3, h4 0 2 rfl⟩

/-! ## C72 -/

theorem C72_descendant_grid_3D (hc : c.Supported) :
    (∀ w, DescendantGrid3D c (fun m => Reach3D c .all (.static w m))) ∧
    (DynWrites c → DescendantGrid3D c (fun m => Reach3D c .all (.dynamic m))) := by
  have := hc.le
  have h64 := hc.intWidth.le
  refine ⟨fun w => descendantGrid_of3 hc (static_wf3 hc) (static_desc3 hc) (fun m k _ hd => ?_),
    fun hw => descendantGrid_of3 hc (dynamic_wf3 hc) (dynamic_desc3 hc hw) (fun m k _ hd => ?_)⟩
  · exact lt_isize hc (Nat.le_trans (Nat.le_add_left _ _) hd)
  · change (depth m + k) * 3 + 64 < 2 ^ c.ptrBits
    omega

/-- `[Zero, Seven]` below `[Five, One, Six]`. -/
example : ∃ v vd, exS3.toGridIndex x64 .XYZ = .ok v ∧
    (⟨⟨0xA70E0000#32, 5⟩⟩ : MortonIndex3D (StaticStorage3D 32)).toGridIndex x64 .XYZ = .ok vd ∧
    vd.x.toNat = v.x.toNat * 2 ^ 2 + 1 ∧ vd.y.toNat = v.y.toNat * 2 ^ 2 + 1 ∧ vd.z.toNat = v.z.toNat * 2 ^ 2 + 1 :=
  (C72_descendant_grid_3D x64_supported).1 32 exS3 (exS3_reach _) [.Zero, .Seven] ⟨⟨0xA70E0000#32, 5⟩⟩ (by decide)
    (by decide +kernel) .XYZ

end MortonRs
