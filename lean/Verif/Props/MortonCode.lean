import Verif.Props.Counting
import Verif.Props.ZOrder

/-! # The number of a node is the Morton code of its position (C99) -/

namespace MortonRs

open BitStorage MortonIndex

variable {Cell : Type}

/-! ## Statements -/

/-- The coordinates in the order in which an ordering names them. -/
def namedAxes2D {W : Nat} : QuadrantOrdering → Vector2 W → BitVec W × BitVec W
  | .XY, g => (g.x, g.y)
  | .YX, g => (g.y, g.x)

/-- `n` is the Morton code of two coordinates: their bits interleaved. -/
def IsMortonCode2D (n a b : Nat) : Prop := ∀ j, n.testBit (2 * j) = a.testBit j ∧ n.testBit (2 * j + 1) = b.testBit j

/-- C99. The cells, read as digits to the base 4, are the Morton code of the grid position. -/
def MortonCode2D (c : Cfg) {S : Type} [Storage S Quadrant] (ok : MortonIndex2D S → Prop) : Prop :=
  ∀ m, ok m → depth m ≤ c.ptrBits → ∀ o, ∃ cs g, Shows c m cs ∧ m.toGridIndex c o = .ok g ∧
    IsMortonCode2D (pathNumber 4 quadrantKey cs) (namedAxes2D o g).1.toNat (namedAxes2D o g).2.toNat

/-- `n` is the Morton code of three coordinates. -/
def IsMortonCode3D (n a b d : Nat) : Prop :=
  ∀ j, n.testBit (3 * j) = a.testBit j ∧ n.testBit (3 * j + 1) = b.testBit j ∧ n.testBit (3 * j + 2) = d.testBit j

/-- C99 in 3D. -/
def MortonCode3D (c : Cfg) {S : Type} [Storage S Octant] (ok : MortonIndex3D S → Prop) : Prop :=
  ∀ m, ok m → depth m ≤ c.ptrBits → ∀ o, ∃ cs g, Shows c m cs ∧ m.toGridIndex c o = .ok g ∧
    IsMortonCode3D (pathNumber 8 octantKey cs) (axisOf g (octantAxes o).1).toNat (axisOf g (octantAxes o).2.1).toNat
      (axisOf g (octantAxes o).2.2).toNat

/-! ## Bits of numbers of paths -/

/-- Each group of `k` bits is a cell; `coord` is one of its bits. -/
theorem pathNumber_testBit {k i : Nat} (hi : i < k) {key : Cell → Nat} (hk : ∀ v, key v < 2 ^ k) {coord : Cell → Bool}
    (hc : ∀ v, (key v).testBit i = coord v) (cs : List Cell) :
    ∀ j, (pathNumber (2 ^ k) key cs).testBit (k * j + i) = (binary (cs.map coord)).testBit j := by
  induction cs using snocInduction with
  | nil => intro j; simp [pathNumber, binary]
  | append_singleton cs v ih =>
    intro j
    rw [pathNumber_append, Nat.testBit_two_pow_mul_add _ (hk v), List.map_append, List.map_singleton, binary_append]
    have hb : (coord v).toNat < 2 ^ 1 := by cases coord v <;> decide
    have h2 := Nat.testBit_two_pow_mul_add (binary (cs.map coord)) hb j
    rw [Nat.pow_one] at h2
    rw [h2]
    cases j with
    | zero =>
      rw [if_pos (by omega), if_pos (by omega), Nat.mul_zero, Nat.zero_add, hc]
      cases coord v <;> rfl
    | succ j =>
      have e : k * (j + 1) + i - k = k * j + i := by rw [Nat.mul_add]; omega
      rw [if_neg (by rw [Nat.mul_add]; omega), if_neg (by omega), e, ih]
      rfl

variable {c : Cfg}

theorem mortonCode_of2 {S : Type} [Storage S Quadrant] [BitStorage S Quadrant] (hc : c.Supported) {ok : MortonIndex2D S → Prop}
    {wr : Quadrant → Quadrant} (hwf : ∀ m, ok m → WF c m.storage) (h : ListLike c ok (cells2 (S := S)) wr) : MortonCode2D c ok := by
  intro m hm hd o
  obtain ⟨g, g1, g2, g3⟩ := toGridIndex_binary2 hc (hwf m hm) hd o
  refine ⟨cells2 m, g, h.shows hm, g1, fun j => ?_⟩
  have bit : ∀ i coord, i < 2 → (∀ v, (quadrantKey v).testBit i = coord v) →
      (pathNumber 4 quadrantKey (cells2 m)).testBit (2 * j + i) = (binary ((cells2 m).map coord)).testBit j :=
    fun i coord hi hv => pathNumber_testBit (k := 2) hi (fun v => by cases v <;> decide) hv (cells2 m) j
  cases o
  · simp only [namedAxes2D, g2, g3]
    exact ⟨bit 0 _ (by decide) fun v => by cases v <;> decide, bit 1 _ (by decide) fun v => by cases v <;> decide⟩
  · simp only [namedAxes2D, g2, g3]
    exact ⟨bit 0 _ (by decide) fun v => by cases v <;> decide, bit 1 _ (by decide) fun v => by cases v <;> decide⟩

theorem mortonCode_of3 {S : Type} [Storage S Octant] [BitStorage S Octant] (hc : c.Supported) {ok : MortonIndex3D S → Prop}
    {wr : Octant → Octant} (hwf : ∀ m, ok m → WF c m.storage) (h : ListLike c ok (cells3 (S := S)) wr) : MortonCode3D c ok := by
  intro m hm hd o
  obtain ⟨g, g1, g2, g3, g4⟩ := toGridIndex_binary3 hc (hwf m hm) hd o
  have hg : ∀ ax, (axisOf g ax).toNat = binary ((cells3 m).map (octantCoord o ax)) := by
    intro ax
    cases ax
    · exact g2
    · exact g3
    · exact g4
  refine ⟨cells3 m, g, h.shows hm, g1, fun j => ?_⟩
  rw [hg, hg, hg]
  exact ⟨pathNumber_testBit (k := 3) (i := 0) (by decide) (fun v => by cases v <;> decide) (fun v => by cases o <;> cases v <;> decide) _ j,
    pathNumber_testBit (k := 3) (i := 1) (by decide) (fun v => by cases v <;> decide) (fun v => by cases o <;> cases v <;> decide) _ j,
    pathNumber_testBit (k := 3) (i := 2) (by decide) (fun v => by cases v <;> decide) (fun v => by cases o <;> cases v <;> decide) _ j⟩

/-! ## Theorems -/

/-- C99. -/
theorem C99_morton_code_2D (hc : c.Supported) :
    (∀ w, MortonCode2D c (fun m => Reach2D c .all (.fixed w m))) ∧ (∀ w, MortonCode2D c (fun m => Reach2D c .all (.static w m))) ∧
    MortonCode2D c (fun m => Reach2D c .all (.dynamic m)) :=
  ⟨fun _ => mortonCode_of2 hc (fixed_wf2 hc) (fixed_list2 hc), fun _ => mortonCode_of2 hc (static_wf2 hc) (static_list2 hc),
    mortonCode_of2 hc (dynamic_wf2 hc) (dynamic_list2' hc)⟩

/-- C99 in 3D. -/
theorem C99_morton_code_3D (hc : c.Supported) :
    (∀ w, MortonCode3D c (fun m => Reach3D c .all (.fixed w m))) ∧ (∀ w, MortonCode3D c (fun m => Reach3D c .all (.static w m))) ∧
    MortonCode3D c (fun m => Reach3D c .all (.dynamic m)) :=
  ⟨fun _ => mortonCode_of3 hc (fixed_wf3 hc) (fixed_list3 hc), fun _ => mortonCode_of3 hc (static_wf3 hc) (static_list3 hc),
    mortonCode_of3 hc (dynamic_wf3 hc) (dynamic_list3' hc)⟩

/-- C99. `from_raw_index` of a Morton code, shifted to the top, is the node at the position it encodes. -/
theorem C99_raw_code_3D (hc : c.Supported) (w : Nat) (hw : IntWidth w) (i : Nat) (o : OctantOrdering) :
    (w / 3 ≤ c.ptrBits → i < 8 ^ (w / 3) → ∃ g,
      (MortonIndex3D.fixedFromRawIndex (BitVec.ofNat w i <<< (w % 3))).toGridIndex c o = .ok g ∧
      IsMortonCode3D i (axisOf g (octantAxes o).1).toNat (axisOf g (octantAxes o).2.1).toNat (axisOf g (octantAxes o).2.2).toNat) ∧
    ∀ d, d ≤ w / 3 → d ≤ c.ptrBits → i < 8 ^ d → ∃ g,
      (MortonIndex3D.staticFromRawIndex (BitVec.ofNat w i <<< (w - 3 * d)) d).toGridIndex c o = .ok g ∧
      IsMortonCode3D i (axisOf g (octantAxes o).1).toNat (axisOf g (octantAxes o).2.1).toNat (axisOf g (octantAxes o).2.2).toNat := by
  obtain ⟨h1, h2⟩ := C98_raw_number_3D hc w hw i
  obtain ⟨k1, k2, -⟩ := C99_morton_code_3D hc
  refine ⟨fun hp hi => ?_, fun d hd hp hi => ?_⟩
  · obtain ⟨cs, e1, -, e2⟩ := h1 hi
    obtain ⟨cs', g, f1, f2, f3⟩ := k1 w (MortonIndex3D.fixedFromRawIndex (BitVec.ofNat w i <<< (w % 3))) (.fixedFromRaw hw (.inl rfl)) hp o
    rw [shows_unique f1 e1, e2] at f3
    exact ⟨g, f2, f3⟩
  · obtain ⟨cs, e1, -, e2⟩ := h2 d hd hi
    obtain ⟨cs', g, f1, f2, f3⟩ := k2 w (MortonIndex3D.staticFromRawIndex (BitVec.ofNat w i <<< (w - 3 * d)) d)
      (.staticFromRaw hw hd (.inl rfl)) hp o
    rw [shows_unique f1 e1, e2] at f3
    exact ⟨g, f2, f3⟩

/-! ## Examples -/

/-- `[Three, One, Two]` under `XY`: x = 110, y = 101, interleaved 11 01 10. -/
example : pathNumber 4 quadrantKey [.Three, .One, .Two] = 0b110110 ∧
    (⟨⟨0xD800#16, 3⟩⟩ : MortonIndex2D (StaticStorage2D 16)).toGridIndex x64 .XY = .ok ⟨0b110#64, 0b101#64⟩ := by decide +kernel

/-- The dynamic index of these cells. -/
example : ∃ cs g, Shows x64 exD2 cs ∧ exD2.toGridIndex x64 .YX = .ok g ∧
    IsMortonCode2D (pathNumber 4 quadrantKey cs) g.y.toNat g.x.toNat :=
  (C99_morton_code_2D x64_supported).2.2 exD2 (exD2_reach _) (by decide) .YX

/-- Code 334 = 101 001 110 in the octree: under `XYZ`, x = 110, y = 001, z = 101. -/
example : (MortonIndex3D.staticFromRawIndex (BitVec.ofNat 32 334 <<< (32 - 3 * 3)) 3).toGridIndex x64 .XYZ =
    .ok ⟨0b110#64, 0b001#64, 0b101#64⟩ := by decide +kernel

example : ∃ g, (MortonIndex3D.staticFromRawIndex (BitVec.ofNat 32 334 <<< (32 - 3 * 3)) 3).toGridIndex x64 .XYZ = .ok g ∧
    IsMortonCode3D 334 g.x.toNat g.y.toNat g.z.toNat :=
  (C99_raw_code_3D x64_supported 32 (by decide) 334 .XYZ).2 3 (by decide) (by decide) (by decide)

end MortonRs
