import Verif.Props.Corners

/-! # The nodes tile the grid (C91) -/

namespace MortonRs

open BitStorage MortonIndex VariableDepthMortonIndex

variable {c : Cfg}

/-! ## Statements -/

/-- Coordinate `p` of the grid of depth `n` lies in the interval covered by coordinate `v` of a node at depth `d`. -/
def InBox {W : Nat} (n d : Nat) (v : BitVec W) (p : Nat) : Prop :=
  v.toNat * 2 ^ (n - d) ≤ p ∧ p < (v.toNat + 1) * 2 ^ (n - d)

/-- The position `(x, y)` of the grid of depth `n` lies in the box of `m`. -/
def Covers2D (c : Cfg) {S : Type} [Storage S Quadrant] (o : QuadrantOrdering) (n : Nat) (m : MortonIndex2D S) (x y : Nat) : Prop :=
  ∃ g, m.toGridIndex c o = .ok g ∧ InBox n (depth m) g.x x ∧ InBox n (depth m) g.y y

/-- C91: at each depth up to `cap`, each position lies in the box of a node that `try_from` makes, and only in boxes of nodes
that compare as `Equal` to it. -/
def Tiles2D (c : Cfg) {S : Type} [Storage S Quadrant] [TryFromCells S Quadrant] [RustOrd (MortonIndex2D S)]
    (ok : MortonIndex2D S → Prop) (cap : Nat) : Prop :=
  ∀ o d n, d ≤ n → d ≤ cap → d ≤ c.ptrBits → ∀ x y, x < 2 ^ n → y < 2 ^ n →
    ∃ cells : List Quadrant, cells.length = d ∧ ∃ m : MortonIndex2D S,
      MortonIndex2D.tryFromSlice c cells = .ok (.ok m) ∧ ok m ∧ depth m = d ∧ Covers2D c o n m x y ∧
      ∀ m', ok m' → depth m' = d → (Covers2D c o n m' x y ↔ RustOrd.cmp c m m' = .ok .eq)

/-- C91: the boxes of two nodes are nested if the deeper one is in the subtree of the other, and disjoint otherwise. -/
def NestedOrDisjoint2D (c : Cfg) {S : Type} [VariableDepthStorage S Quadrant] [RustOrd (MortonIndex2D S)]
    (ok : MortonIndex2D S → Prop) : Prop :=
  ∀ a b, ok a → ok b → depth a ≤ depth b → depth b ≤ c.ptrBits → ∀ o n, depth b ≤ n →
    (InSubtree c a b → ∀ x y, Covers2D c o n b x y → Covers2D c o n a x y) ∧
    (¬ InSubtree c a b → ∀ x y, ¬ (Covers2D c o n a x y ∧ Covers2D c o n b x y))

def Covers3D (c : Cfg) {S : Type} [Storage S Octant] (o : OctantOrdering) (n : Nat) (m : MortonIndex3D S) (p : Axis → Nat) : Prop :=
  ∃ g, m.toGridIndex c o = .ok g ∧ ∀ ax, InBox n (depth m) (axisOf g ax) (p ax)

/-- C91 in 3D. -/
def Tiles3D (c : Cfg) {S : Type} [Storage S Octant] [TryFromCells S Octant] [RustOrd (MortonIndex3D S)]
    (ok : MortonIndex3D S → Prop) (cap : Nat) : Prop :=
  ∀ o d n, d ≤ n → d ≤ cap → d ≤ c.ptrBits → ∀ p : Axis → Nat, (∀ ax, p ax < 2 ^ n) →
    ∃ cells : List Octant, cells.length = d ∧ ∃ m : MortonIndex3D S,
      MortonIndex3D.tryFromSlice c cells = .ok (.ok m) ∧ ok m ∧ depth m = d ∧ Covers3D c o n m p ∧
      ∀ m', ok m' → depth m' = d → (Covers3D c o n m' p ↔ RustOrd.cmp c m m' = .ok .eq)

/-- C91 in 3D. -/
def NestedOrDisjoint3D (c : Cfg) {S : Type} [VariableDepthStorage S Octant] [RustOrd (MortonIndex3D S)]
    (ok : MortonIndex3D S → Prop) : Prop :=
  ∀ a b, ok a → ok b → depth a ≤ depth b → depth b ≤ c.ptrBits → ∀ o n, depth b ≤ n →
    (InSubtree c a b → ∀ p, Covers3D c o n b p → Covers3D c o n a p) ∧
    (¬ InSubtree c a b → ∀ p, ¬ (Covers3D c o n a p ∧ Covers3D c o n b p))

/-! ## Lemmas -/

theorem inBox_iff {W n d : Nat} {v : BitVec W} {p : Nat} : InBox n d v p ↔ p / 2 ^ (n - d) = v.toNat := in_box

/-- A coarser interval of a position. -/
theorem div_coarser {n d e p : Nat} (h1 : d ≤ e) (h2 : e ≤ n) : p / 2 ^ (n - e) / 2 ^ (e - d) = p / 2 ^ (n - d) := by
  rw [Nat.div_div_eq_div_mul, ← Nat.pow_add, show n - e + (e - d) = n - d by omega]

theorem exists_cells2 (o : QuadrantOrdering) : ∀ d x y, x < 2 ^ d → y < 2 ^ d → ∃ cs : List Quadrant, cs.length = d ∧
    binary (cs.map (quadrantX o)) = x ∧ binary (cs.map (quadrantY o)) = y
  | 0, x, y, hx, hy => ⟨[], rfl, by have : x = 0 := by omega
                                    rw [this]; rfl, by have : y = 0 := by omega
                                                       rw [this]; rfl⟩
  | d + 1, x, y, hx, hy => by
    obtain ⟨cs, h1, h2, h3⟩ := exists_cells2 o d (x / 2) (y / 2) (by omega) (by omega)
    have : ∀ bx by' : Bool, ∃ q, quadrantX o q = bx ∧ quadrantY o q = by' := by
      intro bx by'
      cases o <;> cases bx <;> cases by' <;>
        first
        | exact ⟨.Zero, rfl, rfl⟩ | exact ⟨.One, rfl, rfl⟩ | exact ⟨.Two, rfl, rfl⟩ | exact ⟨.Three, rfl, rfl⟩
    obtain ⟨q, q1, q2⟩ := this (decide (x % 2 = 1)) (decide (y % 2 = 1))
    have bit : ∀ v : Nat, (decide (v % 2 = 1)).toNat = v % 2 := by
      intro v
      rcases Nat.mod_two_eq_zero_or_one v with h | h <;> rw [h] <;> rfl
    refine ⟨cs ++ [q], by simp [h1], ?_, ?_⟩
    · rw [List.map_append, List.map_singleton, binary_append, h2, q1, bit]; omega
    · rw [List.map_append, List.map_singleton, binary_append, h3, q2, bit]; omega

theorem exists_cells3 (o : OctantOrdering) : ∀ d (p : Axis → Nat), (∀ ax, p ax < 2 ^ d) → ∃ cs : List Octant, cs.length = d ∧
    ∀ ax, binary (cs.map (octantCoord o ax)) = p ax
  | 0, p, hp => ⟨[], rfl, fun ax => by
      have := hp ax
      have : p ax = 0 := by omega
      rw [this]; rfl⟩
  | d + 1, p, hp => by
    obtain ⟨cs, h1, h2⟩ := exists_cells3 o d (fun ax => p ax / 2) (fun ax => by have := hp ax; omega)
    have : ∀ bx by' bz : Bool, ∃ q, octantCoord o .X q = bx ∧ octantCoord o .Y q = by' ∧ octantCoord o .Z q = bz := by
      intro bx by' bz
      cases o <;> cases bx <;> cases by' <;> cases bz <;>
        first
        | exact ⟨.Zero, rfl, rfl, rfl⟩ | exact ⟨.One, rfl, rfl, rfl⟩ | exact ⟨.Two, rfl, rfl, rfl⟩ | exact ⟨.Three, rfl, rfl, rfl⟩
        | exact ⟨.Four, rfl, rfl, rfl⟩ | exact ⟨.Five, rfl, rfl, rfl⟩ | exact ⟨.Six, rfl, rfl, rfl⟩ | exact ⟨.Seven, rfl, rfl, rfl⟩
    obtain ⟨q, q1, q2, q3⟩ := this (decide (p .X % 2 = 1)) (decide (p .Y % 2 = 1)) (decide (p .Z % 2 = 1))
    have bit : ∀ v : Nat, (decide (v % 2 = 1)).toNat = v % 2 := by
      intro v
      rcases Nat.mod_two_eq_zero_or_one v with h | h <;> rw [h] <;> rfl
    have q' : ∀ ax, octantCoord o ax q = decide (p ax % 2 = 1) := by
      intro ax; cases ax
      · exact q1
      · exact q2
      · exact q3
    refine ⟨cs ++ [q], by simp [h1], fun ax => ?_⟩
    rw [List.map_append, List.map_singleton, binary_append, h2, q', bit]
    omega

theorem covers_iff2 {S : Type} [Storage S Quadrant] [BitStorage S Quadrant] (hc : c.Supported) {m : MortonIndex2D S}
    (h : WF c m.storage) (hd : depth m ≤ c.ptrBits) (o : QuadrantOrdering) (n x y : Nat) :
    Covers2D c o n m x y ↔ x / 2 ^ (n - depth m) = binary ((path m.storage).map (quadrantX o)) ∧
      y / 2 ^ (n - depth m) = binary ((path m.storage).map (quadrantY o)) := by
  obtain ⟨g, e1, e2, e3⟩ := toGridIndex_binary2 hc h hd o
  rw [← e2, ← e3, ← inBox_iff, ← inBox_iff]
  constructor
  · rintro ⟨g', h1, h2⟩
    obtain rfl : g = g' := by rw [e1] at h1; exact Except.ok.inj h1
    exact h2
  · exact fun h2 => ⟨g, e1, h2⟩

theorem covers_iff3 {S : Type} [Storage S Octant] [BitStorage S Octant] (hc : c.Supported) {m : MortonIndex3D S}
    (h : WF c m.storage) (hd : depth m ≤ c.ptrBits) (o : OctantOrdering) (n : Nat) (p : Axis → Nat) :
    Covers3D c o n m p ↔ ∀ ax, p ax / 2 ^ (n - depth m) = binary ((path m.storage).map (octantCoord o ax)) := by
  obtain ⟨g, e1, e2, e3, e4⟩ := toGridIndex_binary3 hc h hd o
  have e : ∀ ax, (axisOf g ax).toNat = binary ((path m.storage).map (octantCoord o ax)) := by
    intro ax; cases ax
    · exact e2
    · exact e3
    · exact e4
  constructor
  · rintro ⟨g', h1, h2⟩ ax
    obtain rfl : g = g' := by rw [e1] at h1; exact Except.ok.inj h1
    rw [← e, ← inBox_iff]
    exact h2 ax
  · exact fun h2 => ⟨g, e1, fun ax => by rw [inBox_iff, e, h2]⟩

theorem tiles_of2 {S : Type} [Storage S Quadrant] [BitStorage S Quadrant] [TryFromCells S Quadrant] [RustOrd (MortonIndex2D S)]
    (hc : c.Supported) {ok : MortonIndex2D S → Prop} {cap : Nat} (hwf : ∀ m, ok m → WF c m.storage)
    (hC : CmpLike c quadrantKey ok (cells2 (S := S)))
    (hmk : ∀ cs : List Quadrant, cs.length ≤ cap → cs.length ≤ c.ptrBits → ∃ m : MortonIndex2D S,
      MortonIndex2D.tryFromSlice c cs = .ok (.ok m) ∧ ok m ∧ path m.storage = cs) : Tiles2D c ok cap := by
  intro o d n hdn hcap hW x y hx hy
  have small : ∀ v, v < 2 ^ n → v / 2 ^ (n - d) < 2 ^ d := by
    intro v hv
    rw [Nat.div_lt_iff_lt_mul (Nat.two_pow_pos _), ← Nat.pow_add, show d + (n - d) = n by omega]
    exact hv
  obtain ⟨cs, h1, h2, h3⟩ := exists_cells2 o d _ _ (small x hx) (small y hy)
  obtain ⟨m, m1, m2, m3⟩ := hmk cs (by omega) (by omega)
  have hd : depth m = d := by
    rw [← h1, ← m3]; exact (path_length m.storage).symm
  refine ⟨cs, h1, m, m1, m2, hd, ?_, fun m' ok' hd' => ?_⟩
  · rw [covers_iff2 hc (hwf m m2) (by omega), hd, m3]
    exact ⟨h2.symm, h3.symm⟩
  · have hl : (path m'.storage).length = (path m.storage).length :=
      (path_length m'.storage).trans (hd'.trans (by rw [m3, h1]))
    have e : RustOrd.cmp c m m' = .ok (pathCmp quadrantKey (path m.storage) (path m'.storage)) := (hC m m' m2 ok').1
    rw [covers_iff2 hc (hwf m' ok') (by omega), hd', e, Except.ok.injEq, pathCmp_eq_iff _ quadrantKey_inj, ← h2, ← h3, m3]
    rw [m3] at hl
    constructor
    · rintro ⟨q1, q2⟩
      exact path_of_coords2 (o := o) (binary_inj (by rw [List.length_map, List.length_map, hl]) q1)
        (binary_inj (by rw [List.length_map, List.length_map, hl]) q2)
    · intro q
      rw [← q]
      exact ⟨rfl, rfl⟩

theorem tiles_of3 {S : Type} [Storage S Octant] [BitStorage S Octant] [TryFromCells S Octant] [RustOrd (MortonIndex3D S)]
    (hc : c.Supported) {ok : MortonIndex3D S → Prop} {cap : Nat} (hwf : ∀ m, ok m → WF c m.storage)
    (hC : CmpLike c octantKey ok (cells3 (S := S)))
    (hmk : ∀ cs : List Octant, cs.length ≤ cap → cs.length ≤ c.ptrBits → ∃ m : MortonIndex3D S,
      MortonIndex3D.tryFromSlice c cs = .ok (.ok m) ∧ ok m ∧ path m.storage = cs) : Tiles3D c ok cap := by
  intro o d n hdn hcap hW p hp
  have small : ∀ v, v < 2 ^ n → v / 2 ^ (n - d) < 2 ^ d := by
    intro v hv
    rw [Nat.div_lt_iff_lt_mul (Nat.two_pow_pos _), ← Nat.pow_add, show d + (n - d) = n by omega]
    exact hv
  obtain ⟨cs, h1, h2⟩ := exists_cells3 o d (fun ax => p ax / 2 ^ (n - d)) (fun ax => small _ (hp ax))
  obtain ⟨m, m1, m2, m3⟩ := hmk cs (by omega) (by omega)
  have hd : depth m = d := by
    rw [← h1, ← m3]; exact (path_length m.storage).symm
  refine ⟨cs, h1, m, m1, m2, hd, ?_, fun m' ok' hd' => ?_⟩
  · rw [covers_iff3 hc (hwf m m2) (by omega), hd, m3]
    exact fun ax => (h2 ax).symm
  · have hl : (path m'.storage).length = cs.length :=
      (path_length m'.storage).trans (hd'.trans h1.symm)
    have e : RustOrd.cmp c m m' = .ok (pathCmp octantKey (path m.storage) (path m'.storage)) := (hC m m' m2 ok').1
    rw [covers_iff3 hc (hwf m' ok') (by omega), hd', e, Except.ok.injEq, pathCmp_eq_iff _ octantKey_inj, m3]
    simp only [← h2]
    constructor
    · intro q
      have : ∀ ax, cs.map (octantCoord o ax) = (path m'.storage).map (octantCoord o ax) := fun ax =>
        binary_inj (by rw [List.length_map, List.length_map, hl]) (q ax)
      exact path_of_coords3 (o := o) (this .X) (this .Y) (this .Z)
    · intro q ax
      rw [← q]

theorem nestedOrDisjoint_of2 {S : Type} [VariableDepthStorage S Quadrant] [RustOrd (MortonIndex2D S)]
    {ok : MortonIndex2D S → Prop} (hB : SubtreeIsBox2D c ok) : NestedOrDisjoint2D c ok := by
  intro a b ha hb hd hdb o n hn
  obtain ⟨ga, gb, e1, f1, h⟩ := hB a b ha hb hd hdb o
  rw [in_box, in_box] at h
  have one : ∀ {m : MortonIndex2D S} {g : Vector2 c.ptrBits}, m.toGridIndex c o = .ok g → ∀ x y,
      (Covers2D c o n m x y ↔ x / 2 ^ (n - depth m) = g.x.toNat ∧ y / 2 ^ (n - depth m) = g.y.toNat) := by
    intro m g hg x y
    rw [← inBox_iff, ← inBox_iff]
    constructor
    · rintro ⟨g', h1, h2⟩
      obtain rfl : g = g' := by rw [hg] at h1; exact Except.ok.inj h1
      exact h2
    · exact fun h2 => ⟨g, hg, h2⟩
  constructor
  · intro hin x y hb
    obtain ⟨q1, q2⟩ := h.mp hin
    rw [one f1] at hb
    rw [one e1, ← q1, ← q2, ← hb.1, ← hb.2, div_coarser hd hn, div_coarser hd hn]
    exact ⟨rfl, rfl⟩
  · rintro hni x y ⟨h1, h2⟩
    rw [one e1] at h1
    rw [one f1] at h2
    refine hni (h.mpr ?_)
    rw [← h1.1, ← h1.2, ← h2.1, ← h2.2, div_coarser hd hn, div_coarser hd hn]
    exact ⟨rfl, rfl⟩

theorem nestedOrDisjoint_of3 {S : Type} [VariableDepthStorage S Octant] [RustOrd (MortonIndex3D S)]
    {ok : MortonIndex3D S → Prop} (hB : SubtreeIsBox3D c ok) : NestedOrDisjoint3D c ok := by
  intro a b ha hb hd hdb o n hn
  obtain ⟨ga, gb, e1, f1, h⟩ := hB a b ha hb hd hdb o
  rw [in_box, in_box, in_box] at h
  have h : InSubtree c a b ↔ ∀ ax, (axisOf gb ax).toNat / 2 ^ (depth b - depth a) = (axisOf ga ax).toNat := by
    rw [h]
    constructor
    · rintro ⟨q1, q2, q3⟩ ax
      cases ax
      · exact q1
      · exact q2
      · exact q3
    · exact fun q => ⟨q .X, q .Y, q .Z⟩
  have one : ∀ {m : MortonIndex3D S} {g : Vector3 c.ptrBits}, m.toGridIndex c o = .ok g → ∀ p,
      (Covers3D c o n m p ↔ ∀ ax, p ax / 2 ^ (n - depth m) = (axisOf g ax).toNat) := by
    intro m g hg p
    constructor
    · rintro ⟨g', h1, h2⟩ ax
      obtain rfl : g = g' := by rw [hg] at h1; exact Except.ok.inj h1
      exact inBox_iff.mp (h2 ax)
    · exact fun h2 => ⟨g, hg, fun ax => inBox_iff.mpr (h2 ax)⟩
  constructor
  · intro hin p hb
    have q := h.mp hin
    rw [one f1] at hb
    rw [one e1]
    intro ax
    rw [← q, ← hb, div_coarser hd hn]
  · rintro hni p ⟨h1, h2⟩
    rw [one e1] at h1
    rw [one f1] at h2
    refine hni (h.mpr fun ax => ?_)
    rw [← h1, ← h2, div_coarser hd hn]

/-! ## C91 -/

/-- Dynamic indices are made on targets where writes work (C47). -/
theorem C91_tiles_2D (hc : c.Supported) :
    (∀ w, IntWidth w → Tiles2D c (fun m => Reach2D c .all (.static w m)) (w / 2)) ∧
    (DynWrites c → Tiles2D c (fun m => Reach2D c .all (.dynamic m)) c.ptrBits) := by
  refine ⟨fun w hw => tiles_of2 hc (static_wf2 hc) (static_cmp2 hc) fun cs h1 _ => ?_,
    fun hw => tiles_of2 hc (dynamic_wf2 hc) (dynamic_cmp2 hc) fun cs h1 _ => ?_⟩
  · obtain ⟨m, m1, -, -, -, m5⟩ := MortonIndex2D.static_tryFrom hc hw h1
    exact ⟨m, m1, .staticTryFromSlice hw m1, m5⟩
  · have had : Addressable c (cs.length * 2) := by
      have := hc.le
      have : c.ptrBits ≤ 64 := by rcases hc with h | h | h <;> omega
      unfold Addressable; omega
    obtain ⟨m, m1, -, -, -, m5⟩ := MortonIndex2D.dynamic_tryFrom hc had
    exact ⟨m, m1, .dynamicTryFromSlice had m1, m5 hw⟩

theorem C91_tiles_3D (hc : c.Supported) :
    (∀ w, IntWidth w → Tiles3D c (fun m => Reach3D c .all (.static w m)) (w / 3)) ∧
    (DynWrites c → Tiles3D c (fun m => Reach3D c .all (.dynamic m)) c.ptrBits) := by
  refine ⟨fun w hw => tiles_of3 hc (static_wf3 hc) (static_cmp3 hc) fun cs h1 _ => ?_,
    fun hw => tiles_of3 hc (dynamic_wf3 hc) (dynamic_cmp3 hc) fun cs h1 _ => ?_⟩
  · obtain ⟨m, m1, -, -, -, m5⟩ := MortonIndex3D.static_tryFrom hc hw h1
    exact ⟨m, m1, .staticTryFromSlice hw m1, m5⟩
  · have had : Addressable c (cs.length * 3) := by
      have := hc.le
      have : c.ptrBits ≤ 64 := by rcases hc with h | h | h <;> omega
      unfold Addressable; omega
    obtain ⟨m, m1, -, -, -, m5⟩ := MortonIndex3D.dynamic_tryFrom hc had
    exact ⟨m, m1, .dynamicTryFromSlice had m1, m5 hw⟩

theorem C91_nested_or_disjoint_2D (hc : c.Supported) :
    (∀ w, NestedOrDisjoint2D c (fun m => Reach2D c .all (.static w m))) ∧
    NestedOrDisjoint2D c (fun m => Reach2D c .all (.dynamic m)) :=
  ⟨fun w => nestedOrDisjoint_of2 ((C67_subtree_is_box_2D hc).1 w),
    nestedOrDisjoint_of2 (C67_subtree_is_box_2D hc).2⟩

theorem C91_nested_or_disjoint_3D (hc : c.Supported) :
    (∀ w, NestedOrDisjoint3D c (fun m => Reach3D c .all (.static w m))) ∧
    NestedOrDisjoint3D c (fun m => Reach3D c .all (.dynamic m)) :=
  ⟨fun w => nestedOrDisjoint_of3 ((C67_subtree_is_box_3D hc).1 w),
    nestedOrDisjoint_of3 (C67_subtree_is_box_3D hc).2⟩

/-! ## Examples -/

/-- Position (13, 10) of the grid of depth 4 lies in one square of depth 2. -/
example : ∃ cells : List Quadrant, cells.length = 2 ∧ ∃ m : MortonIndex2D (StaticStorage2D 8),
    MortonIndex2D.tryFromSlice x64 cells = .ok (.ok m) ∧ depth m = 2 ∧ Covers2D x64 .YX 4 m 13 10 := by
  obtain ⟨cs, h1, m, h2, -, h3, h4, -⟩ :=
    (C91_tiles_2D x64_supported).1 8 (by decide) .YX 2 4 (by decide) (by decide) (by decide) 13 10 (by decide) (by decide)
  exact ⟨cs, h1, m, h2, h3, h4⟩

/-- A position of a grid deeper than any static index. -/
example : ∃ cells : List Octant, cells.length = 10 ∧ ∃ m : MortonIndex3D (StaticStorage3D 32),
    MortonIndex3D.tryFromSlice x64 cells = .ok (.ok m) ∧ depth m = 10 ∧ Covers3D x64 .ZXY 100 m (fun _ => 2 ^ 99 + 7) := by
  obtain ⟨cs, h1, m, h2, -, h3, h4, -⟩ :=
    (C91_tiles_3D x64_supported).1 32 (by decide) .ZXY 10 100 (by decide) (by decide) (by decide) (fun _ => 2 ^ 99 + 7)
      (fun _ => by decide)
  exact ⟨cs, h1, m, h2, h3, h4⟩

/-- `[Three, One]` against `[Three, One, Two]` (nested). -/
example : (∀ x y, Covers2D x64 .XY 5 exD2 x y → Covers2D x64 .XY 5 (⟨⟨[0xD0#8], 2⟩⟩ : MortonIndex2D DynamicStorage2D) x y) := by
  have hr : Reach2D x64 .all (.dynamic ⟨⟨[0xD0#8], 2⟩⟩) :=
    .dynamicTryFromSlice (cs := [.Three, .One]) (by unfold Addressable; decide) (by rfl)
  exact ((C91_nested_or_disjoint_2D x64_supported).2 _ exD2 hr (exD2_reach _) (by decide) (by decide) .XY 5 (by decide)).1
    ⟨⟨⟨[0xD0#8], 2⟩⟩, by decide +kernel, by decide +kernel⟩

end MortonRs
