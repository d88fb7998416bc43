import Verif.Props.GridEdits2D
import Verif.Props.GridEdits3D
import Verif.Props.Rebuild
import Verif.Props.Examples

/-! # Mirroring and rotating (C114)

A client mirrors or rotates a node by replacing every cell with its image. The grid position is mirrored and rotated in the
same way. -/

namespace MortonRs

open BitStorage MortonIndex VariableDepthMortonIndex

variable {M Cell : Type} {c : Cfg}

/-! ## Statements -/

/-- Client code: `for level in 0..m.depth() { m.set_cell_at_level(level, f(m.get_cell_at_level(level))); }`. -/
def mapCells [MortonIndex M Cell] (c : Cfg) (f : Cell → Cell) (m : M) : Res M :=
  forRange 0 (depth m) m fun level m => do setCellAtLevel c m level (f (← getCellAtLevel c m level))

/-- A coordinate of a grid with `2 ^ d` positions per axis, counted from the other end if `flip`. -/
def reflected (flip : Bool) (d n : Nat) : Nat := if flip then 2 ^ d - 1 - n else n

/-- The coordinates of a position by axis, in two dimensions `false` for x and `true` for y. -/
def coord2 {W : Nat} (v : Vector2 W) : Bool → BitVec W
  | false => v.x
  | true => v.y
def coord3 {W : Nat} (v : Vector3 W) : Axis → BitVec W
  | .X => v.x
  | .Y => v.y
  | .Z => v.z

/-- The documented coordinates of a quadrant, by axis. -/
def quadrantCoord (o : QuadrantOrdering) : Bool → Quadrant → Bool
  | false => quadrantX o
  | true => quadrantY o

/-- C114, the cells: every cell is replaced by its image, and a map with a left inverse can be undone. -/
def MapsCells [MortonIndex M Cell] (c : Cfg) (ok : M → Prop) : Prop :=
  ∀ m, ok m → ∀ f : Cell → Cell, ∃ r, mapCells c f m = .ok r ∧ ok r ∧ depth r = depth m ∧
    (∀ l, l < depth m → ∃ v, getCellAtLevel c m l = .ok v ∧ getCellAtLevel c r l = .ok (f v)) ∧
    ∀ g : Cell → Cell, (∀ v, g (f v) = v) → ∃ m', mapCells c g r = .ok m' ∧ SameCells c m' m

/-- C114, the tree: a map that tells cells apart keeps what is above and below what. -/
def MapsTree [VariableDepthMortonIndex M Cell] [RustOrd M] (c : Cfg) (ok : M → Prop) : Prop :=
  ∀ a b, ok a → ok b → ∀ f : Cell → Cell, (∀ u v, f u = f v → u = v) → ∀ a' b', mapCells c f a = .ok a' →
    mapCells c f b = .ok b' → (InSubtree c a' b' ↔ InSubtree c a b)

/-- C114, the grid, 2D: if the image of a quadrant has on each axis the coordinate of the quadrant on the axis `σ`, counted from
the other end for `flip`, so has the image of a node. There is such a map for all `σ` and `flip`. -/
def MapsGrid2D (c : Cfg) {S : Type} [Storage S Quadrant] (ok : MortonIndex2D S → Prop) : Prop :=
  ∀ m, ok m → depth m ≤ c.ptrBits → ∀ o (σ flip : Bool → Bool) (f : Quadrant → Quadrant),
    (∀ q i, quadrantCoord o i (f q) = (quadrantCoord o (σ i) q ^^ flip i)) →
    ∃ r v v', mapCells c f m = .ok r ∧ m.toGridIndex c o = .ok v ∧ r.toGridIndex c o = .ok v' ∧
      ∀ i, (coord2 v' i).toNat = reflected (flip i) (depth m) (coord2 v (σ i)).toNat

def MapsGrid3D (c : Cfg) {S : Type} [Storage S Octant] (ok : MortonIndex3D S → Prop) : Prop :=
  ∀ m, ok m → depth m ≤ c.ptrBits → ∀ o (σ : Axis → Axis) (flip : Axis → Bool) (f : Octant → Octant),
    (∀ q i, octantCoord o i (f q) = (octantCoord o (σ i) q ^^ flip i)) →
    ∃ r v v', mapCells c f m = .ok r ∧ m.toGridIndex c o = .ok v ∧ r.toGridIndex c o = .ok v' ∧
      ∀ i, (coord3 v' i).toNat = reflected (flip i) (depth m) (coord3 v (σ i)).toNat

/-! ## Proof -/

theorem ListLike.mapCells [MortonIndex M Cell] {ok : M → Prop} {p : M → List Cell} (h : ListLike c ok p id) {m : M} (hm : ok m)
    (f : Cell → Cell) : ∃ r, MortonRs.mapCells c f m = .ok r ∧ ok r ∧ p r = (p m).map f := by
  have hd := h.depth_eq m hm
  obtain ⟨r, h1, h2, h3⟩ := forRange_invariant
    (P := fun i s => ok s ∧ p s = ((p m).take i).map f ++ (p m).drop i)
    (body := fun level m => do setCellAtLevel c m level (f (← getCellAtLevel c m level)))
    (init := m) (Nat.zero_le (depth m)) ⟨hm, by simp⟩ (fun i s _ hi ⟨hs, e⟩ => by
      rw [hd] at hi
      have hl : i < (p s).length := by simp [e]; omega
      have hv : (p s)[i] = (p m)[i] := by
        simp only [e]
        rw [List.getElem_append_right (by simp; omega)]
        simp [Nat.min_eq_left (Nat.le_of_lt hi)]
      obtain ⟨s', s1, s2, s3⟩ := h.set s hs i (f (p m)[i]) hl
      refine ⟨s', ?_, s2, ?_⟩
      · rw [h.get s hs i hl, hv]; exact s1
      · rw [s3, e, id, List.take_add_one, List.getElem?_eq_getElem hi, List.map_append, List.set_append_right _ _ (by simp; omega),
          List.drop_eq_getElem_cons hi, List.length_map, List.length_take, Nat.min_eq_left (Nat.le_of_lt hi), Nat.sub_self,
          List.set_cons_zero, List.append_assoc]
        rfl)
  refine ⟨r, h1, h2, ?_⟩
  rw [h3, hd, List.take_length, List.drop_length, List.append_nil]

theorem mapsCells_of [MortonIndex M Cell] {ok : M → Prop} {p : M → List Cell} (h : ListLike c ok p id) : MapsCells c ok := by
  intro m hm f
  obtain ⟨r, r1, r2, r3⟩ := h.mapCells hm f
  have hl : (p r).length = (p m).length := by rw [r3, List.length_map]
  refine ⟨r, r1, r2, by rw [h.depth_eq r r2, h.depth_eq m hm, hl], fun l hlm => ?_, fun g hg => ?_⟩
  · rw [h.depth_eq m hm] at hlm
    refine ⟨_, h.get m hm l hlm, ?_⟩
    rw [h.get r r2 l (by omega)]
    simp only [r3, List.getElem_map]
  · obtain ⟨m', m1, m2, m3⟩ := h.mapCells r2 g
    have e : p m' = p m := by rw [m3, r3, List.map_map, show g ∘ f = id from funext hg, List.map_id]
    exact ⟨m', m1, by rw [h.depth_eq m' m2, h.depth_eq m hm, e], fun l => by rw [h.get_eq m2, h.get_eq hm, e]⟩

theorem prefix_map_iff {f : Cell → Cell} (hf : ∀ u v, f u = f v → u = v) {as bs : List Cell} :
    as.map f <+: bs.map f ↔ as <+: bs := by
  induction as generalizing bs with
  | nil => simp
  | cons a as ih =>
    cases bs with
    | nil => simp
    | cons b bs =>
      rw [List.map_cons, List.map_cons, List.cons_prefix_cons, List.cons_prefix_cons, ih]
      exact ⟨fun h => ⟨hf _ _ h.1, h.2⟩, fun h => ⟨congrArg f h.1, h.2⟩⟩

theorem mapsTree_of [VariableDepthMortonIndex M Cell] [RustOrd M] {ok : M → Prop} {p : M → List Cell}
    {key : Cell → Nat} (hk : Function.Injective key) (h : ListLike c ok p id) (hA : AncLike c ok p) (hC : CmpLike c key ok p) :
    MapsTree c ok := by
  intro a b ha hb f hf a' b' ea eb
  obtain ⟨x, x1, x2, x3⟩ := h.mapCells ha f
  obtain ⟨y, y1, y2, y3⟩ := h.mapCells hb f
  rw [ea, Except.ok.injEq] at x1
  rw [eb, Except.ok.injEq] at y1
  subst x1 y1
  rw [inSubtree_iff hk h hA hC x2 y2, inSubtree_iff hk h hA hC ha hb, x3, y3, prefix_map_iff hf]

theorem binary_flip (bs : List Bool) (b : Bool) : binary (bs.map (· ^^ b)) = reflected b bs.length (binary bs) := by
  unfold reflected
  cases b with
  | false => simp
  | true =>
    rw [if_pos rfl]
    induction bs using snocInduction with
    | nil => rfl
    | append_singleton bs x ih =>
      have := binary_lt bs
      rw [List.map_append, List.map_cons, List.map_nil, binary_append, ih, List.length_append, List.length_singleton,
        binary_append, Nat.pow_succ]
      cases x <;> simp <;> omega

theorem binary_image {f : Cell → Cell} {g g' : Cell → Bool} {b : Bool} (h : ∀ q, g (f q) = (g' q ^^ b)) (cs : List Cell) :
    binary ((cs.map f).map g) = reflected b cs.length (binary (cs.map g')) := by
  rw [List.map_map, show g ∘ f = (· ^^ b) ∘ g' from funext h, ← List.map_map, binary_flip, List.length_map]

theorem mapsGrid_of2 {S : Type} [Storage S Quadrant] [BitStorage S Quadrant] {ok : MortonIndex2D S → Prop}
    (hc : c.Supported) (hwf : ∀ m, ok m → WF c m.storage) (hL : ListLike c ok (cells2 (S := S)) id) : MapsGrid2D c ok := by
  intro m hm hd o σ flip f hf
  obtain ⟨r, r1, r2, r3⟩ := hL.mapCells hm f
  have hl : (path m.storage).length = depth m := path_length _
  have r3' : path r.storage = (path m.storage).map f := r3
  have hd' : depth r = depth m := by
    rw [show depth r = (path r.storage).length from (path_length _).symm, r3', List.length_map, hl]
  obtain ⟨v, e1, e2, e3⟩ := toGridIndex_binary2 hc (hwf m hm) hd o
  obtain ⟨v', f1, f2, f3⟩ := toGridIndex_binary2 hc (hwf r r2) (Nat.le_trans (Nat.le_of_eq hd') hd) o
  have key : ∀ i, (coord2 v i).toNat = binary ((path m.storage).map (quadrantCoord o i)) := fun i => by
    cases i <;> assumption
  have key' : ∀ i, (coord2 v' i).toNat = binary ((path r.storage).map (quadrantCoord o i)) := fun i => by
    cases i <;> assumption
  refine ⟨r, v, v', r1, e1, f1, fun i => ?_⟩
  rw [key', key, r3', binary_image (fun q => hf q i), hl]

theorem mapsGrid_of3 {S : Type} [Storage S Octant] [BitStorage S Octant] {ok : MortonIndex3D S → Prop}
    (hc : c.Supported) (hwf : ∀ m, ok m → WF c m.storage) (hL : ListLike c ok (cells3 (S := S)) id) : MapsGrid3D c ok := by
  intro m hm hd o σ flip f hf
  obtain ⟨r, r1, r2, r3⟩ := hL.mapCells hm f
  have hl : (path m.storage).length = depth m := path_length _
  have r3' : path r.storage = (path m.storage).map f := r3
  have hd' : depth r = depth m := by
    rw [show depth r = (path r.storage).length from (path_length _).symm, r3', List.length_map, hl]
  obtain ⟨v, e1, e2, e3, e4⟩ := toGridIndex_binary3 hc (hwf m hm) hd o
  obtain ⟨v', f1, f2, f3, f4⟩ := toGridIndex_binary3 hc (hwf r r2) (Nat.le_trans (Nat.le_of_eq hd') hd) o
  have key : ∀ i, (coord3 v i).toNat = binary ((path m.storage).map (octantCoord o i)) := fun i => by
    cases i <;> assumption
  have key' : ∀ i, (coord3 v' i).toNat = binary ((path r.storage).map (octantCoord o i)) := fun i => by
    cases i <;> assumption
  refine ⟨r, v, v', r1, e1, f1, fun i => ?_⟩
  rw [key', key, r3', binary_image (fun q => hf q i), hl]

/-! ## C114 -/

theorem C114_map_cells_2D (hc : c.Supported) :
    (∀ w, MapsCells c (fun m : MortonIndex2D (FixedDepthStorage2D w) => Reach2D c .all (.fixed w m))) ∧
    (∀ w, MapsCells c (fun m : MortonIndex2D (StaticStorage2D w) => Reach2D c .all (.static w m)) ∧
      MapsTree c (fun m : MortonIndex2D (StaticStorage2D w) => Reach2D c .all (.static w m))) ∧
    (DynWrites c → MapsCells c (fun m : MortonIndex2D DynamicStorage2D => Reach2D c .all (.dynamic m)) ∧
      MapsTree c (fun m : MortonIndex2D DynamicStorage2D => Reach2D c .all (.dynamic m))) :=
  ⟨fun _ => mapsCells_of (fixed_list2 hc),
    fun _ => ⟨mapsCells_of (static_list2 hc), mapsTree_of quadrantKey_inj (static_list2 hc) (static_anc2 hc) (static_cmp2 hc)⟩,
    fun hw => ⟨mapsCells_of (dynamic_list2 hc hw),
      mapsTree_of quadrantKey_inj (dynamic_list2 hc hw) (dynamic_anc2 hc) (dynamic_cmp2 hc)⟩⟩

theorem C114_map_cells_3D (hc : c.Supported) :
    (∀ w, MapsCells c (fun m : MortonIndex3D (FixedDepthStorage3D w) => Reach3D c .all (.fixed w m))) ∧
    (∀ w, MapsCells c (fun m : MortonIndex3D (StaticStorage3D w) => Reach3D c .all (.static w m)) ∧
      MapsTree c (fun m : MortonIndex3D (StaticStorage3D w) => Reach3D c .all (.static w m))) ∧
    (DynWrites c → MapsCells c (fun m : MortonIndex3D DynamicStorage3D => Reach3D c .all (.dynamic m)) ∧
      MapsTree c (fun m : MortonIndex3D DynamicStorage3D => Reach3D c .all (.dynamic m))) :=
  ⟨fun _ => mapsCells_of (fixed_list3 hc),
    fun _ => ⟨mapsCells_of (static_list3 hc), mapsTree_of octantKey_inj (static_list3 hc) (static_anc3 hc) (static_cmp3 hc)⟩,
    fun hw => ⟨mapsCells_of (dynamic_list3 hc hw),
      mapsTree_of octantKey_inj (dynamic_list3 hc hw) (dynamic_anc3 hc) (dynamic_cmp3 hc)⟩⟩

theorem C114_symmetries_2D (hc : c.Supported) :
    (∀ w, MapsGrid2D c (fun m => Reach2D c .all (.fixed w m))) ∧
    (∀ w, MapsGrid2D c (fun m => Reach2D c .all (.static w m))) ∧
    (DynWrites c → MapsGrid2D c (fun m => Reach2D c .all (.dynamic m))) :=
  ⟨fun _ => mapsGrid_of2 hc (fixed_wf2 hc) (fixed_list2 hc), fun _ => mapsGrid_of2 hc (static_wf2 hc) (static_list2 hc),
    fun hw => mapsGrid_of2 hc (dynamic_wf2 hc) (dynamic_list2 hc hw)⟩

theorem C114_symmetries_3D (hc : c.Supported) :
    (∀ w, MapsGrid3D c (fun m => Reach3D c .all (.fixed w m))) ∧
    (∀ w, MapsGrid3D c (fun m => Reach3D c .all (.static w m))) ∧
    (DynWrites c → MapsGrid3D c (fun m => Reach3D c .all (.dynamic m))) :=
  ⟨fun _ => mapsGrid_of3 hc (fixed_wf3 hc) (fixed_list3 hc), fun _ => mapsGrid_of3 hc (static_wf3 hc) (static_list3 hc),
    fun hw => mapsGrid_of3 hc (dynamic_wf3 hc) (dynamic_list3 hc hw)⟩

theorem exists_quadrant (o : QuadrantOrdering) : ∀ b0 b1 : Bool, ∃ q, quadrantCoord o false q = b0 ∧ quadrantCoord o true q = b1 := by
  intro b0 b1
  cases o <;> cases b0 <;> cases b1 <;>
    first
    | exact ⟨.Zero, by decide⟩ | exact ⟨.One, by decide⟩ | exact ⟨.Two, by decide⟩ | exact ⟨.Three, by decide⟩

theorem exists_octant (o : OctantOrdering) : ∀ b0 b1 b2 : Bool, ∃ q, octantCoord o .X q = b0 ∧ octantCoord o .Y q = b1 ∧
    octantCoord o .Z q = b2 := by
  intro b0 b1 b2
  cases o <;> cases b0 <;> cases b1 <;> cases b2 <;>
    first
    | exact ⟨.Zero, by decide⟩ | exact ⟨.One, by decide⟩ | exact ⟨.Two, by decide⟩ | exact ⟨.Three, by decide⟩
    | exact ⟨.Four, by decide⟩ | exact ⟨.Five, by decide⟩ | exact ⟨.Six, by decide⟩ | exact ⟨.Seven, by decide⟩

/-- All symmetries of the square are maps of quadrants; if no axis is used twice the map can be undone. -/
theorem C114_maps_exist_2D (o : QuadrantOrdering) (σ flip : Bool → Bool) :
    ∃ f : Quadrant → Quadrant, (∀ q i, quadrantCoord o i (f q) = (quadrantCoord o (σ i) q ^^ flip i)) ∧
      ((∀ j, ∃ i, σ i = j) → ∀ u v, f u = f v → u = v) := by
  have h : ∀ q, ∃ q', ∀ i, quadrantCoord o i q' = (quadrantCoord o (σ i) q ^^ flip i) := fun q => by
    obtain ⟨q', h0, h1⟩ := exists_quadrant o (quadrantCoord o (σ false) q ^^ flip false) (quadrantCoord o (σ true) q ^^ flip true)
    exact ⟨q', fun i => by cases i <;> assumption⟩
  refine ⟨fun q => Classical.choose (h q), fun q => Classical.choose_spec (h q), fun hσ u v e => ?_⟩
  have key : ∀ j, quadrantCoord o j u = quadrantCoord o j v := fun j => by
    obtain ⟨i, rfl⟩ := hσ j
    have h1 := Classical.choose_spec (h u) i
    have h2 := Classical.choose_spec (h v) i
    rw [show Classical.choose (h u) = Classical.choose (h v) from e, h2] at h1
    exact (Bool.xor_left_inj.mp h1).symm
  have k0 := key false
  have k1 := key true
  revert k0 k1
  cases o <;> cases u <;> cases v <;> decide

/-- All symmetries of the cube are maps of octants; if no axis is used twice the map can be undone. -/
theorem C114_maps_exist_3D (o : OctantOrdering) (σ : Axis → Axis) (flip : Axis → Bool) :
    ∃ f : Octant → Octant, (∀ q i, octantCoord o i (f q) = (octantCoord o (σ i) q ^^ flip i)) ∧
      ((∀ j, ∃ i, σ i = j) → ∀ u v, f u = f v → u = v) := by
  have h : ∀ q, ∃ q', ∀ i, octantCoord o i q' = (octantCoord o (σ i) q ^^ flip i) := fun q => by
    obtain ⟨q', h0, h1, h2⟩ := exists_octant o (octantCoord o (σ .X) q ^^ flip .X) (octantCoord o (σ .Y) q ^^ flip .Y)
      (octantCoord o (σ .Z) q ^^ flip .Z)
    exact ⟨q', fun i => by cases i <;> assumption⟩
  refine ⟨fun q => Classical.choose (h q), fun q => Classical.choose_spec (h q), fun hσ u v e => ?_⟩
  have key : ∀ j, octantCoord o j u = octantCoord o j v := fun j => by
    obtain ⟨i, rfl⟩ := hσ j
    have h1 := Classical.choose_spec (h u) i
    have h2 := Classical.choose_spec (h v) i
    rw [show Classical.choose (h u) = Classical.choose (h v) from e, h2] at h1
    exact (Bool.xor_left_inj.mp h1).symm
  have k0 := key .X
  have k1 := key .Y
  have k2 := key .Z
  revert k0 k1 k2
  cases o <;> cases u <;> cases v <;> decide

/-- Mirroring x: `One` and `Zero`, `Three` and `Two` are exchanged. -/
def mirrorX : Quadrant → Quadrant
  | .Zero => .One | .One => .Zero | .Two => .Three | .Three => .Two

/-- `[Three, One, Two]` is at (6, 5) of 8; mirrored it is `[Two, Zero, Three]` at (1, 5). -/
example : mapCells x64 mirrorX exS2 = .ok ⟨⟨0x8C00#16, 3⟩⟩ := by decide +kernel

example : ∃ r v v', mapCells x64 mirrorX exS2 = .ok r ∧ exS2.toGridIndex x64 .XY = .ok v ∧ r.toGridIndex x64 .XY = .ok v' ∧
    v'.x.toNat = 2 ^ 3 - 1 - v.x.toNat ∧ v'.y.toNat = v.y.toNat := by
  obtain ⟨r, v, v', h1, h2, h3, h4⟩ := (C114_symmetries_2D x64_supported).2.1 16 exS2 (exS2_reach _) (by decide) .XY id (!·)
    mirrorX (by intro q i; cases q <;> cases i <;> decide)
  exact ⟨r, v, v', h1, h2, h3, h4 false, h4 true⟩

/-- A rotation of the cube about its diagonal: x takes the place of y, y that of z, z that of x. -/
def turnAxis : Axis → Axis
  | .X => .Y | .Y => .Z | .Z => .X

example : ∃ f r v v', mapCells x64 f exD3 = .ok r ∧ exD3.toGridIndex x64 .XYZ = .ok v ∧ r.toGridIndex x64 .XYZ = .ok v' ∧
    v'.x.toNat = v.y.toNat ∧ v'.y.toNat = v.z.toNat ∧ v'.z.toNat = v.x.toNat := by
  obtain ⟨f, hf, -⟩ := C114_maps_exist_3D .XYZ turnAxis (fun _ => false)
  obtain ⟨r, v, v', h1, h2, h3, h4⟩ := (C114_symmetries_3D x64_supported).2.2 x64_writes exD3 (exD3_reach _) (by decide) .XYZ
    turnAxis (fun _ => false) f hf
  exact ⟨f, r, v, v', h1, h2, h3, h4 .X, h4 .Y, h4 .Z⟩

/-- Mirroring twice shows the same cells. -/
example : ∃ r, mapCells x64 mirrorX exF2 = .ok r ∧ ∃ m', mapCells x64 mirrorX r = .ok m' ∧ SameCells x64 m' exF2 := by
  obtain ⟨r, h1, -, -, -, h2⟩ := (C114_map_cells_2D x64_supported).1 16 exF2 (exF2_reach _) mirrorX
  exact ⟨r, h1, h2 mirrorX (by intro v; cases v <;> rfl)⟩

end MortonRs
