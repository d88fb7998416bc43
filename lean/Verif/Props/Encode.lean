import Verif.Props.MortonCode
import Verif.Props.Grid3D

/-! # The grid constructors compute Morton codes, and these sort the indices (C101) -/

namespace MortonRs

open BitStorage MortonIndex

variable {c : Cfg}

/-! ## Statements -/

/-- The index has `d` levels and its cells are the Morton code of the lowest `d` bits of the coordinates. -/
def Encodes2D (c : Cfg) {S : Type} [Storage S Quadrant] (m : MortonIndex2D S) (o : QuadrantOrdering) (g : Vector2 c.ptrBits)
    (d : Nat) : Prop :=
  ∃ cs, Shows c m cs ∧ cs.length = d ∧
    IsMortonCode2D (pathNumber 4 quadrantKey cs) ((namedAxes2D o g).1.toNat % 2 ^ d) ((namedAxes2D o g).2.toNat % 2 ^ d)

/-- The same in 3D. -/
def Encodes3D (c : Cfg) {S : Type} [Storage S Octant] (m : MortonIndex3D S) (o : OctantOrdering) (g : Vector3 c.ptrBits)
    (d : Nat) : Prop :=
  ∃ cs, Shows c m cs ∧ cs.length = d ∧
    IsMortonCode3D (pathNumber 8 octantKey cs) ((axisOf g (octantAxes o).1).toNat % 2 ^ d)
      ((axisOf g (octantAxes o).2.1).toNat % 2 ^ d) ((axisOf g (octantAxes o).2.2).toNat % 2 ^ d)

/-- Nodes of one depth compare as the Morton codes of their positions, whatever the ordering. -/
def SortsByCode2D (c : Cfg) {S : Type} [Storage S Quadrant] [RustOrd S] (ok : MortonIndex2D S → Prop) : Prop :=
  ∀ a b, ok a → ok b → depth a = depth b → ∀ o ga gb na nb, a.toGridIndex c o = .ok ga → b.toGridIndex c o = .ok gb →
    depth a ≤ c.ptrBits →
    IsMortonCode2D na (namedAxes2D o ga).1.toNat (namedAxes2D o ga).2.toNat →
    IsMortonCode2D nb (namedAxes2D o gb).1.toNat (namedAxes2D o gb).2.toNat →
    RustOrd.cmp c a b = .ok (compare na nb)

/-- The same in 3D. -/
def SortsByCode3D (c : Cfg) {S : Type} [Storage S Octant] [RustOrd S] (ok : MortonIndex3D S → Prop) : Prop :=
  ∀ a b, ok a → ok b → depth a = depth b → ∀ o ga gb na nb, a.toGridIndex c o = .ok ga → b.toGridIndex c o = .ok gb →
    depth a ≤ c.ptrBits →
    IsMortonCode3D na (axisOf ga (octantAxes o).1).toNat (axisOf ga (octantAxes o).2.1).toNat (axisOf ga (octantAxes o).2.2).toNat →
    IsMortonCode3D nb (axisOf gb (octantAxes o).1).toNat (axisOf gb (octantAxes o).2.1).toNat (axisOf gb (octantAxes o).2.2).toNat →
    RustOrd.cmp c a b = .ok (compare na nb)

/-! ## Proofs -/

/-- A Morton code is determined by the coordinates. -/
theorem mortonCode_unique2 {n n' a b : Nat} (h : IsMortonCode2D n a b) (h' : IsMortonCode2D n' a b) : n = n' := by
  apply Nat.eq_of_testBit_eq
  intro i
  rcases (by omega : i = 2 * (i / 2) ∨ i = 2 * (i / 2) + 1) with e | e
  · rw [e, (h _).1, (h' _).1]
  · rw [e, (h _).2, (h' _).2]

theorem mortonCode_unique3 {n n' a b d : Nat} (h : IsMortonCode3D n a b d) (h' : IsMortonCode3D n' a b d) : n = n' := by
  apply Nat.eq_of_testBit_eq
  intro i
  rcases (by omega : i = 3 * (i / 3) ∨ i = 3 * (i / 3) + 1 ∨ i = 3 * (i / 3) + 2) with e | e | e
  · rw [e, (h _).1, (h' _).1]
  · rw [e, (h _).2.1, (h' _).2.1]
  · rw [e, (h _).2.2, (h' _).2.2]

theorem encodes_of2 {S : Type} [Storage S Quadrant] {ok : MortonIndex2D S → Prop} (h : MortonCode2D c ok) {m : MortonIndex2D S}
    (hm : ok m) {d : Nat} (hd : depth m = d) (hp : d ≤ c.ptrBits) {o : QuadrantOrdering} {g : Vector2 c.ptrBits}
    (hg : GridAt2D c m o g d) : Encodes2D c m o g d := by
  obtain ⟨v, v1, v2, v3⟩ := hg
  obtain ⟨cs, g', h1, h2, h3⟩ := h m hm (by omega) o
  rw [v1] at h2
  cases h2
  refine ⟨cs, h1, by rw [← h1.1, hd], ?_⟩
  cases o <;> simp only [namedAxes2D, v2, v3] at h3 ⊢ <;> exact h3

theorem encodes_of3 {S : Type} [Storage S Octant] {ok : MortonIndex3D S → Prop} (h : MortonCode3D c ok) {m : MortonIndex3D S}
    (hm : ok m) {d : Nat} (hd : depth m = d) (hp : d ≤ c.ptrBits) {o : OctantOrdering} {g : Vector3 c.ptrBits}
    (hg : GridAt3D c m o g d) : Encodes3D c m o g d := by
  obtain ⟨v, v1, v2, v3, v4⟩ := hg
  obtain ⟨cs, g', h1, h2, h3⟩ := h m hm (by omega) o
  rw [v1] at h2
  cases h2
  refine ⟨cs, h1, by rw [← h1.1, hd], ?_⟩
  have e : ∀ ax, (axisOf v ax).toNat = (axisOf g ax).toNat % 2 ^ d := by
    intro ax
    cases ax
    · exact v2
    · exact v3
    · exact v4
  rw [e, e, e] at h3
  exact h3

theorem sortsByCode_of2 {S : Type} [Storage S Quadrant] [RustOrd S] {ok : MortonIndex2D S → Prop} {p : MortonIndex2D S → List Quadrant}
    {wr : Quadrant → Quadrant} (h : MortonCode2D c ok) (hl : ListLike c ok p wr) (hC : CmpLike c quadrantKey ok p) : SortsByCode2D c ok := by
  intro a b ha hb hd o ga gb na nb ea eb hp ca cb
  obtain ⟨as, ga', a1, a2, a3⟩ := h a ha hp o
  obtain ⟨bs, gb', b1, b2, b3⟩ := h b hb (by omega) o
  rw [ea] at a2
  rw [eb] at b2
  cases a2
  cases b2
  rw [mortonCode_unique2 ca a3, mortonCode_unique2 cb b3, (hC a b ha hb).1, shows_unique (hl.shows ha) a1, shows_unique (hl.shows hb) b1,
    pathCmp_number quadrant_digits.lt _ _ (by rw [← a1.1, ← b1.1, hd])]

theorem sortsByCode_of3 {S : Type} [Storage S Octant] [RustOrd S] {ok : MortonIndex3D S → Prop} {p : MortonIndex3D S → List Octant}
    {wr : Octant → Octant} (h : MortonCode3D c ok) (hl : ListLike c ok p wr) (hC : CmpLike c octantKey ok p) : SortsByCode3D c ok := by
  intro a b ha hb hd o ga gb na nb ea eb hp ca cb
  obtain ⟨as, ga', a1, a2, a3⟩ := h a ha hp o
  obtain ⟨bs, gb', b1, b2, b3⟩ := h b hb (by omega) o
  rw [ea] at a2
  rw [eb] at b2
  cases a2
  cases b2
  rw [mortonCode_unique3 ca a3, mortonCode_unique3 cb b3, (hC a b ha hb).1, shows_unique (hl.shows ha) a1, shows_unique (hl.shows hb) b1,
    pathCmp_number octant_digits.lt _ _ (by rw [← a1.1, ← b1.1, hd])]

/-! ## Theorems -/

/-- C101. The conditions are those under which the constructors keep the position (C21, C24, C26). -/
theorem C101_encodes_2D (hc : c.Supported) (g : Vector2 c.ptrBits) (o : QuadrantOrdering) :
    (∀ w, IntWidth w → w / 2 ≤ c.ptrBits → ∃ m, MortonIndex2D.fixedFromGridIndex c w g o = .ok m ∧ Encodes2D c m o g (w / 2)) ∧
    (∀ w, IntWidth w → ∀ d, d ≤ w / 2 → w / 2 ≤ c.ptrBits → w / 2 - d < c.ptrBits ∨ c.overflowChecks = false →
      ∃ m, MortonIndex2D.staticFromGridIndex c w g d o = .ok (.ok m) ∧ Encodes2D c m o g d) ∧
    (∀ d, d ≤ c.ptrBits / 2 → ∃ m, MortonIndex2D.dynamicFromGridIndex c g d o = .ok m ∧ Encodes2D c m o g d) := by
  obtain ⟨k1, k2, k3⟩ := C99_morton_code_2D hc
  refine ⟨fun w hw hp => ?_, fun w hw d hd hp hs => ?_, fun d hd => ?_⟩
  · obtain ⟨m, h1, h2⟩ := ((C21_fixed_grid_2D hc w hw).1 hp).1 g o
    exact ⟨m, h1, encodes_of2 (k1 w) (.fixedFromGrid hw h1) rfl hp h2⟩
  · obtain ⟨m, h1, h2, h3⟩ := ((C24_static_grid_2D_partial hc w hw d).2 hd hp hs).1 g o
    exact ⟨m, h1, encodes_of2 (k2 w) (.staticFromGrid hw h1) h2 (by omega) h3⟩
  · obtain ⟨m, h1, h2, h3⟩ := ((C26_dynamic_grid_2D hc d).2 hd).1 g o
    exact ⟨m, h1, encodes_of2 k3 (.dynamicFromGrid h1) h2 (by omega) h3⟩

/-- C101 in 3D. The conditions are those of C22, C23, C25 and C26. -/
theorem C101_encodes_3D (hc : c.Supported) (g : Vector3 c.ptrBits) (o : OctantOrdering) :
    (32 ≤ c.ptrBits → ∀ w, IntWidth w → w / 3 < c.ptrBits →
      ∃ m, MortonIndex3D.fixedFromGridIndex c w g o = .ok m ∧ Encodes3D c m o g (w / 3)) ∧
    (32 ≤ c.ptrBits → ∃ m, MortonIndex3D.fixedFromGridIndexFast c g o = .ok m ∧ Encodes3D c m o g 21) ∧
    (∀ w, IntWidth w → ∀ d, d ≤ w / 3 → w / 3 ≤ c.ptrBits → d = 0 ∨ StaticGridExact w d →
      ∃ m, MortonIndex3D.staticFromGridIndex c w g d o = .ok (.ok m) ∧ Encodes3D c m o g d) ∧
    (DynWrites c → ∀ d, d ≤ c.ptrBits / 2 →
      ∃ m, MortonIndex3D.dynamicFromGridIndex c g d o = .ok m ∧ Encodes3D c m o g d) := by
  obtain ⟨k1, k2, k3⟩ := C99_morton_code_3D hc
  have fixed : 32 ≤ c.ptrBits → ∀ w, IntWidth w → w / 3 < c.ptrBits →
      ∃ m, MortonIndex3D.fixedFromGridIndex c w g o = .ok m ∧ Encodes3D c m o g (w / 3) := by
    intro h32 w hw hp
    obtain ⟨m, h1, h2⟩ := ((C22_fixed_grid_3D hc h32 w hw).1 hp).1 g o
    exact ⟨m, h1, encodes_of3 (k1 w) (.fixedFromGrid hw h1) rfl (Nat.le_of_lt hp) h2⟩
  refine ⟨fixed, fun h32 => ?_, fun w hw d hd hp hs => ?_, fun hw d hd => ?_⟩
  · obtain ⟨m, h1, h2⟩ := fixed h32 64 (by decide) (by omega)
    obtain ⟨m', e1, e2, -⟩ := C23_fast_equals_generic_3D hc h32 g o
    rw [h1] at e1
    cases e1
    exact ⟨m, e2, h2⟩
  · obtain ⟨m, h1, h2, h3⟩ := ((C25_static_grid_3D_partial hc w hw d).2 hd hp hs).1 g o
    exact ⟨m, h1, encodes_of3 (k2 w) (.staticFromGrid hw h1) h2 (by omega) h3⟩
  · obtain ⟨m, h1, h2, h3⟩ := ((C26_dynamic_grid_3D hc d).2 hd hw).1 g o
    exact ⟨m, h1, encodes_of3 k3 (.dynamicFromGrid h1) h2 (by omega) h3⟩

/-- C101. -/
theorem C101_sorts_by_code_2D (hc : c.Supported) :
    (∀ w, SortsByCode2D c (fun m => Reach2D c .all (.fixed w m))) ∧ (∀ w, SortsByCode2D c (fun m => Reach2D c .all (.static w m))) ∧
    SortsByCode2D c (fun m => Reach2D c .all (.dynamic m)) :=
  ⟨fun w => sortsByCode_of2 ((C99_morton_code_2D hc).1 w) (fixed_list2 hc) (fixed_cmp2 hc),
    fun w => sortsByCode_of2 ((C99_morton_code_2D hc).2.1 w) (static_list2 hc) (static_cmp2 hc),
    sortsByCode_of2 (C99_morton_code_2D hc).2.2 (dynamic_list2' hc) (dynamic_cmp2 hc)⟩

/-- C101 in 3D; fixed-depth indices without stray bits. -/
theorem C101_sorts_by_code_3D (hc : c.Supported) :
    (∀ w, SortsByCode3D c (fun m => Reach3D c .canonical (.fixed w m))) ∧
    (∀ w, SortsByCode3D c (fun m => Reach3D c .all (.static w m))) ∧
    SortsByCode3D c (fun m => Reach3D c .all (.dynamic m)) :=
  ⟨fun _ => sortsByCode_of3 (mortonCode_of3 hc (fixed_wf3 hc) (fixed_list3 hc)) (fixed_list3 hc) (fixed_cmp3 hc),
    fun w => sortsByCode_of3 ((C99_morton_code_3D hc).2.1 w) (static_list3 hc) (static_cmp3 hc),
    sortsByCode_of3 (C99_morton_code_3D hc).2.2 (dynamic_list3' hc) (dynamic_cmp3 hc)⟩

/-! ## Examples -/

/-- Position (6, 5) at depth 3: the code of x = 110, y = 101 is 11 01 10. -/
example : ∃ m, MortonIndex2D.staticFromGridIndex x64 16 ⟨6#64, 5#64⟩ 3 .XY = .ok (.ok m) ∧ Encodes2D x64 m .XY ⟨6#64, 5#64⟩ 3 :=
  (C101_encodes_2D x64_supported _ _).2.1 16 (by decide) 3 (by decide) (by decide) (by decide)

example : MortonIndex2D.staticFromGridIndex x64 16 ⟨6#64, 5#64⟩ 3 .XY = .ok (.ok ⟨⟨0xD800#16, 3⟩⟩) := by decide +kernel

/-- Coordinates that do not fit are taken modulo the size of the grid. -/
example : ∃ m, MortonIndex3D.dynamicFromGridIndex x64 ⟨9#64, 3#64, 12#64⟩ 3 .ZXY = .ok m ∧ Encodes3D x64 m .ZXY ⟨9#64, 3#64, 12#64⟩ 3 :=
  (C101_encodes_3D x64_supported _ _).2.2.2 x64_writes 3 (by decide)

/-- (2, 1) has the code 6, (1, 2) the code 9. -/
example : RustOrd.cmp x64 (⟨⟨6#8⟩⟩ : MortonIndex2D (FixedDepthStorage2D 8)) ⟨⟨9#8⟩⟩ = .ok (compare 6 9) ∧
    (⟨⟨6#8⟩⟩ : MortonIndex2D (FixedDepthStorage2D 8)).toGridIndex x64 .XY = .ok ⟨2#64, 1#64⟩ ∧
    (⟨⟨9#8⟩⟩ : MortonIndex2D (FixedDepthStorage2D 8)).toGridIndex x64 .XY = .ok ⟨1#64, 2#64⟩ := by decide +kernel

end MortonRs
