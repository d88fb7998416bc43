import Verif.Props.ZOrder

/-! # Order and subtrees in terms of grid positions (C66, C67) -/

namespace MortonRs

open BitStorage MortonIndex VariableDepthMortonIndex

variable {c : Cfg}

/-! ## Statements -/

/-- C66: between indices of the same depth, `cmp` is the Z-order of the grid positions; it is monotone in the
coordinates, and only equal positions compare equal. -/
def OrderIsZOrder2D (c : Cfg) {S : Type} [Storage S Quadrant] [RustOrd (MortonIndex2D S)] (ok : MortonIndex2D S → Prop) :
    Prop :=
  ∀ a b, ok a → ok b → depth a = depth b → depth a ≤ c.ptrBits → ∀ o, ∃ ga gb,
    a.toGridIndex c o = .ok ga ∧ b.toGridIndex c o = .ok gb ∧
    (RustOrd.cmp c a b = .ok .lt ↔ ZLess (depth a) (zDigit2D o ga) (zDigit2D o gb)) ∧
    (RustOrd.cmp c a b = .ok .gt ↔ ZLess (depth a) (zDigit2D o gb) (zDigit2D o ga)) ∧
    (RustOrd.cmp c a b = .ok .eq ↔ ga.x = gb.x ∧ ga.y = gb.y) ∧
    (ga.x.toNat ≤ gb.x.toNat → ga.y.toNat ≤ gb.y.toNat → RustOrd.le c a b = .ok true)

/-- C67: a node lies in the subtree of `x` exactly when its grid position lies in the square of `x`. -/
def SubtreeIsBox2D (c : Cfg) {S : Type} [VariableDepthStorage S Quadrant] [RustOrd (MortonIndex2D S)]
    (ok : MortonIndex2D S → Prop) : Prop :=
  ∀ x y, ok x → ok y → depth x ≤ depth y → depth y ≤ c.ptrBits → ∀ o, ∃ gx gy,
    x.toGridIndex c o = .ok gx ∧ y.toGridIndex c o = .ok gy ∧
    (InSubtree c x y ↔
      (gx.x.toNat * 2 ^ (depth y - depth x) ≤ gy.x.toNat ∧ gy.x.toNat < (gx.x.toNat + 1) * 2 ^ (depth y - depth x)) ∧
      (gx.y.toNat * 2 ^ (depth y - depth x) ≤ gy.y.toNat ∧ gy.y.toNat < (gx.y.toNat + 1) * 2 ^ (depth y - depth x)))

/-! ## Lemmas -/

theorem bitAt_binary {W n : Nat} {Cell : Type} {v : BitVec W} {cs : List Cell} {f : Cell → Bool}
    (h : v.toNat = binary (cs.map f)) (hn : cs.length = n) (l : Nat) (hl : l < cs.length) :
    bitAt v (n - 1 - l) = (f cs[l]).toNat := by
  subst hn
  rw [bitAt_eq, BitVec.getLsbD, h, binary_testBit, List.length_map, decide_eq_true (by omega), Bool.true_and,
    show cs.length - 1 - (cs.length - 1 - l) = l by omega, List.getD, List.getElem?_map, List.getElem?_eq_getElem hl,
    Option.map_some, Option.getD_some]

theorem binary_map_lt {n : Nat} {Cell : Type} {cs : List Cell} (f : Cell → Bool) (h : cs.length = n) :
    binary (cs.map f) < 2 ^ n := by
  have := binary_lt (cs.map f)
  rwa [List.length_map, h] at this

theorem binary_map_take {n k : Nat} {Cell : Type} {cs : List Cell} (f : Cell → Bool) (h : cs.length = n) (hk : k ≤ n) :
    binary (cs.map f) / 2 ^ (n - k) = binary ((cs.take k).map f) := by
  rw [List.map_take, binary_take (by rw [List.length_map, h]; exact hk), List.length_map, h]

theorem in_box {a b k : Nat} : a * 2 ^ k ≤ b ∧ b < (a + 1) * 2 ^ k ↔ b / 2 ^ k = a := by
  have hp := Nat.two_pow_pos k
  rw [Nat.div_eq_iff hp, Nat.add_mul, Nat.one_mul]
  omega

/-- The monotone half of Z-order. -/
theorem not_zless_of_le2 {W n : Nat} {o : QuadrantOrdering} {a b : Vector2 W}
    (ax : a.x.toNat < 2 ^ n) (ay : a.y.toNat < 2 ^ n) (bx : b.x.toNat < 2 ^ n) (by' : b.y.toNat < 2 ^ n)
    (hx : a.x.toNat ≤ b.x.toNat) (hy : a.y.toNat ≤ b.y.toNat) : ¬ ZLess n (zDigit2D o b) (zDigit2D o a) := by
  rintro ⟨k, hk, h1, h2⟩
  have both : ∀ t, t < n → k < t → bitAt b.x t = bitAt a.x t ∧ bitAt b.y t = bitAt a.y t := by
    intro t htn ht
    have := h1 t htn ht
    have := bitAt_lt_two a.x t
    have := bitAt_lt_two a.y t
    have := bitAt_lt_two b.x t
    have := bitAt_lt_two b.y t
    cases o <;> simp only [zDigit2D] at * <;> omega
  have : bitAt b.x k < bitAt a.x k ∨ bitAt b.y k < bitAt a.y k := by
    cases o <;> simp only [zDigit2D] at * <;> omega
  rcases this with h | h
  · have := lt_of_bits bx ax h (fun t htn ht => (both t htn ht).1)
    omega
  · have := lt_of_bits by' ay h (fun t htn ht => (both t htn ht).2)
    omega

theorem orderIsZOrder_of2 {S : Type} [Storage S Quadrant] [BitStorage S Quadrant] [RustOrd (MortonIndex2D S)]
    (hc : c.Supported) {ok : MortonIndex2D S → Prop} (hwf : ∀ m, ok m → WF c m.storage)
    (hC : CmpLike c quadrantKey ok (cells2 (S := S))) : OrderIsZOrder2D c ok := by
  intro a b ha hb hd hda o
  obtain ⟨ga, e1, e2, e3⟩ := toGridIndex_binary2 hc (hwf a ha) hda o
  obtain ⟨gb, f1, f2, f3⟩ := toGridIndex_binary2 hc (hwf b hb) (Nat.le_trans (Nat.le_of_eq hd.symm) hda) o
  have la : (path a.storage).length = depth a := path_length _
  have lb : (path b.storage).length = depth a := (path_length b.storage).trans hd.symm
  have keyOf : ∀ (cs : List Quadrant) (g : Vector2 c.ptrBits), g.x.toNat = binary (cs.map (quadrantX o)) →
      g.y.toNat = binary (cs.map (quadrantY o)) → cs.length = depth a → ∀ l (hl : l < cs.length),
      quadrantKey cs[l] = zDigit2D o g (depth a - 1 - l) := by
    intro cs g hx hy hn l hl
    have b1 := bitAt_binary hx hn l hl
    have b2 := bitAt_binary hy hn l hl
    rw [quadrantKey_coords o]
    cases o <;> simp only [zDigit2D, b1, b2]
  have ka := keyOf _ ga e2 e3 la
  have kb := keyOf _ gb f2 f3 lb
  have z1 := pathCmp_zless la lb ka kb
  have z2 := pathCmp_zless lb la kb ka
  obtain ⟨h1, h2⟩ := hC a b ha hb
  have h1' : RustOrd.cmp c a b = .ok (pathCmp quadrantKey (path a.storage) (path b.storage)) := h1
  refine ⟨ga, gb, e1, f1, ?_, ?_, ?_, fun hx hy => ?_⟩
  · rw [h1', Except.ok.injEq]; exact z1
  · rw [h1', Except.ok.injEq, pathCmp_gt_iff_lt]; exact z2
  · rw [h1', Except.ok.injEq, pathCmp_eq_iff _ quadrantKey_inj]
    constructor
    · intro h
      exact ⟨BitVec.eq_of_toNat_eq (by rw [e2, f2, h]), BitVec.eq_of_toNat_eq (by rw [e3, f3, h])⟩
    · rintro ⟨hx, hy⟩
      apply path_of_coords2 (o := o)
      · exact binary_inj (by simp [la, lb]) (by rw [← e2, ← f2, hx])
      · exact binary_inj (by simp [la, lb]) (by rw [← e3, ← f3, hy])
  · rw [hC.le_iff ha hb]
    change pathCmp quadrantKey (path a.storage) (path b.storage) ≠ .gt
    rw [ne_eq, pathCmp_gt_iff_lt, z2]
    exact not_zless_of_le2 (by rw [e2]; exact binary_map_lt _ la) (by rw [e3]; exact binary_map_lt _ la) (by rw [f2]; exact binary_map_lt _ lb)
      (by rw [f3]; exact binary_map_lt _ lb) hx hy

theorem subtreeIsBox_of2 {S : Type} [VariableDepthStorage S Quadrant] [BitStorage S Quadrant] [RustOrd (MortonIndex2D S)]
    (hc : c.Supported) {ok : MortonIndex2D S → Prop} {wr : Quadrant → Quadrant} (hwf : ∀ m, ok m → WF c m.storage)
    (hL : ListLike c ok (cells2 (S := S)) wr) (hA : AncLike c ok (cells2 (S := S)))
    (hC : CmpLike c quadrantKey ok (cells2 (S := S))) : SubtreeIsBox2D c ok := by
  intro x y hx hy hd hdy o
  obtain ⟨gx, e1, e2, e3⟩ := toGridIndex_binary2 hc (hwf x hx) (Nat.le_trans hd hdy) o
  obtain ⟨gy, f1, f2, f3⟩ := toGridIndex_binary2 hc (hwf y hy) hdy o
  have lx : (path x.storage).length = depth x := path_length _
  have ly : (path y.storage).length = depth y := path_length _
  refine ⟨gx, gy, e1, f1, ?_⟩
  rw [inSubtree_iff quadrantKey_inj hL hA hC hx hy, in_box, in_box]
  change path x.storage <+: path y.storage ↔ _
  rw [List.prefix_iff_eq_take, lx, e2, e3, f2, f3, binary_map_take _ ly hd, binary_map_take _ ly hd]
  constructor
  · intro h
    rw [← h]
    exact ⟨rfl, rfl⟩
  · rintro ⟨h1, h2⟩
    have hl : ((path y.storage).take (depth x)).length = (path x.storage).length := by
      rw [List.length_take, lx, ly]; omega
    exact (path_of_coords2 (o := o) (binary_inj (by rw [List.length_map, List.length_map, hl]) h1)
      (binary_inj (by rw [List.length_map, List.length_map, hl]) h2)).symm

/-! ## C66 -/

theorem C66_order_is_z_order_2D (hc : c.Supported) :
    (∀ w, OrderIsZOrder2D c (fun m => Reach2D c .all (.fixed w m))) ∧
    (∀ w, OrderIsZOrder2D c (fun m => Reach2D c .all (.static w m))) ∧
    OrderIsZOrder2D c (fun m => Reach2D c .all (.dynamic m)) :=
  ⟨fun _ => orderIsZOrder_of2 hc (fixed_wf2 hc) (fixed_cmp2 hc),
    fun _ => orderIsZOrder_of2 hc (static_wf2 hc) (static_cmp2 hc),
    orderIsZOrder_of2 hc (dynamic_wf2 hc) (dynamic_cmp2 hc)⟩

/-! ## C67 -/

theorem C67_subtree_is_box_2D (hc : c.Supported) :
    (∀ w, SubtreeIsBox2D c (fun m => Reach2D c .all (.static w m))) ∧
    SubtreeIsBox2D c (fun m => Reach2D c .all (.dynamic m)) :=
  ⟨fun _ => subtreeIsBox_of2 hc (static_wf2 hc) (static_list2 hc) (static_anc2 hc) (static_cmp2 hc),
    subtreeIsBox_of2 hc (dynamic_wf2 hc) (dynamic_list2' hc) (dynamic_anc2 hc) (dynamic_cmp2 hc)⟩

/-- `[Three, One, Two]` is at (6, 5), `[Three, One, Three]` at (7, 5). -/
example : ∃ ga gb, exD2.toGridIndex x64 .XY = .ok ga ∧
    (⟨⟨[0xDC#8], 3⟩⟩ : MortonIndex2D DynamicStorage2D).toGridIndex x64 .XY = .ok gb ∧
    (RustOrd.cmp x64 exD2 ⟨⟨[0xDC#8], 3⟩⟩ = .ok .lt ↔ ZLess 3 (zDigit2D .XY ga) (zDigit2D .XY gb)) := by
  have hr : Reach2D x64 .all (.dynamic ⟨⟨[0xDC#8], 3⟩⟩) :=
    .dynamicTryFromSlice (cs := [.Three, .One, .Three]) (by unfold Addressable; decide) (by rfl)
  obtain ⟨ga, gb, h1, h2, h3, -⟩ := (C66_order_is_z_order_2D x64_supported).2.2 exD2 ⟨⟨[0xDC#8], 3⟩⟩ (exD2_reach _) hr rfl
    (by decide) .XY
  exact ⟨ga, gb, h1, h2, h3⟩

/-- The square of `[Three, One]` holds `[Three, One, Two]`. -/
example : ∃ gx gy, (⟨⟨[0xD0#8], 2⟩⟩ : MortonIndex2D DynamicStorage2D).toGridIndex x64 .XY = .ok gx ∧
    exD2.toGridIndex x64 .XY = .ok gy ∧ (InSubtree x64 (⟨⟨[0xD0#8], 2⟩⟩ : MortonIndex2D DynamicStorage2D) exD2 ↔
      (gx.x.toNat * 2 ^ 1 ≤ gy.x.toNat ∧ gy.x.toNat < (gx.x.toNat + 1) * 2 ^ 1) ∧
      (gx.y.toNat * 2 ^ 1 ≤ gy.y.toNat ∧ gy.y.toNat < (gx.y.toNat + 1) * 2 ^ 1)) := by
  have hr : Reach2D x64 .all (.dynamic ⟨⟨[0xD0#8], 2⟩⟩) :=
    .dynamicTryFromSlice (cs := [.Three, .One]) (by unfold Addressable; decide) (by rfl)
  exact (C67_subtree_is_box_2D x64_supported).2 ⟨⟨[0xD0#8], 2⟩⟩ exD2 hr (exD2_reach _) (by decide) (by decide) .XY

/-! ## 3D -/

/-- C66 in 3D. -/
def OrderIsZOrder3D (c : Cfg) {S : Type} [Storage S Octant] [RustOrd (MortonIndex3D S)] (ok : MortonIndex3D S → Prop) :
    Prop :=
  ∀ a b, ok a → ok b → depth a = depth b → depth a ≤ c.ptrBits → ∀ o, ∃ ga gb,
    a.toGridIndex c o = .ok ga ∧ b.toGridIndex c o = .ok gb ∧
    (RustOrd.cmp c a b = .ok .lt ↔ ZLess (depth a) (zDigit3D o ga) (zDigit3D o gb)) ∧
    (RustOrd.cmp c a b = .ok .gt ↔ ZLess (depth a) (zDigit3D o gb) (zDigit3D o ga)) ∧
    (RustOrd.cmp c a b = .ok .eq ↔ ga.x = gb.x ∧ ga.y = gb.y ∧ ga.z = gb.z) ∧
    (ga.x.toNat ≤ gb.x.toNat → ga.y.toNat ≤ gb.y.toNat → ga.z.toNat ≤ gb.z.toNat → RustOrd.le c a b = .ok true)

/-- C67 in 3D. -/
def SubtreeIsBox3D (c : Cfg) {S : Type} [VariableDepthStorage S Octant] [RustOrd (MortonIndex3D S)]
    (ok : MortonIndex3D S → Prop) : Prop :=
  ∀ x y, ok x → ok y → depth x ≤ depth y → depth y ≤ c.ptrBits → ∀ o, ∃ gx gy,
    x.toGridIndex c o = .ok gx ∧ y.toGridIndex c o = .ok gy ∧
    (InSubtree c x y ↔
      (gx.x.toNat * 2 ^ (depth y - depth x) ≤ gy.x.toNat ∧ gy.x.toNat < (gx.x.toNat + 1) * 2 ^ (depth y - depth x)) ∧
      (gx.y.toNat * 2 ^ (depth y - depth x) ≤ gy.y.toNat ∧ gy.y.toNat < (gx.y.toNat + 1) * 2 ^ (depth y - depth x)) ∧
      (gx.z.toNat * 2 ^ (depth y - depth x) ≤ gy.z.toNat ∧ gy.z.toNat < (gx.z.toNat + 1) * 2 ^ (depth y - depth x)))

theorem not_zless_of_le3 {W n : Nat} {o : OctantOrdering} {a b : Vector3 W}
    (ha : ∀ ax, (axisOf a ax).toNat < 2 ^ n) (hb : ∀ ax, (axisOf b ax).toNat < 2 ^ n)
    (h : ∀ ax, (axisOf a ax).toNat ≤ (axisOf b ax).toNat) : ¬ ZLess n (zDigit3D o b) (zDigit3D o a) := by
  rintro ⟨k, hk, h1, h2⟩
  have hall : ∀ ax, ax = (octantAxes o).1 ∨ ax = (octantAxes o).2.1 ∨ ax = (octantAxes o).2.2 := by
    intro ax; cases o <;> cases ax <;> decide
  have both : ∀ t, t < n → k < t → ∀ ax, bitAt (axisOf b ax) t = bitAt (axisOf a ax) t := by
    intro t htn ht ax
    have := h1 t htn ht
    have r1 := fun ax => bitAt_lt_two (axisOf a ax) t
    have r2 := fun ax => bitAt_lt_two (axisOf b ax) t
    have s1 := r1 (octantAxes o).1
    have s2 := r1 (octantAxes o).2.1
    have s4 := r2 (octantAxes o).1
    have s5 := r2 (octantAxes o).2.1
    unfold zDigit3D at this
    rcases hall ax with h | h | h <;> rw [h] <;> omega
  have : ∃ ax, bitAt (axisOf b ax) k < bitAt (axisOf a ax) k := by
    unfold zDigit3D at h2
    by_cases q1 : bitAt (axisOf b (octantAxes o).1) k < bitAt (axisOf a (octantAxes o).1) k
    · exact ⟨_, q1⟩
    · by_cases q2 : bitAt (axisOf b (octantAxes o).2.1) k < bitAt (axisOf a (octantAxes o).2.1) k
      · exact ⟨_, q2⟩
      · exact ⟨(octantAxes o).2.2, by omega⟩
  obtain ⟨ax, hl⟩ := this
  have := lt_of_bits (hb ax) (ha ax) hl (fun t htn ht => both t htn ht ax)
  have := h ax
  omega

theorem orderIsZOrder_of3 {S : Type} [Storage S Octant] [BitStorage S Octant] [RustOrd (MortonIndex3D S)]
    (hc : c.Supported) {ok : MortonIndex3D S → Prop} (hwf : ∀ m, ok m → WF c m.storage)
    (hC : CmpLike c octantKey ok (cells3 (S := S))) : OrderIsZOrder3D c ok := by
  intro a b ha hb hd hda o
  obtain ⟨ga, e1, e2, e3, e4⟩ := toGridIndex_binary3 hc (hwf a ha) hda o
  obtain ⟨gb, f1, f2, f3, f4⟩ := toGridIndex_binary3 hc (hwf b hb) (Nat.le_trans (Nat.le_of_eq hd.symm) hda) o
  have la : (path a.storage).length = depth a := path_length _
  have lb : (path b.storage).length = depth a := (path_length b.storage).trans hd.symm
  have axis : ∀ (cs : List Octant) (g : Vector3 c.ptrBits), g.x.toNat = binary (cs.map (octantX o)) →
      g.y.toNat = binary (cs.map (octantY o)) → g.z.toNat = binary (cs.map (octantZ o)) →
      ∀ ax, (axisOf g ax).toNat = binary (cs.map (octantCoord o ax)) := by
    intro cs g hx hy hz ax
    cases ax
    · exact hx
    · exact hy
    · exact hz
  have keyOf : ∀ (cs : List Octant) (g : Vector3 c.ptrBits),
      (∀ ax, (axisOf g ax).toNat = binary (cs.map (octantCoord o ax))) → cs.length = depth a → ∀ l (hl : l < cs.length),
      octantKey cs[l] = zDigit3D o g (depth a - 1 - l) := by
    intro cs g hg hn l hl
    rw [octantKey_coords o, zDigit3D, bitAt_binary (hg _) hn l hl, bitAt_binary (hg _) hn l hl,
      bitAt_binary (hg _) hn l hl]
  have xa := axis _ ga e2 e3 e4
  have xb := axis _ gb f2 f3 f4
  have z1 := pathCmp_zless la lb (keyOf _ ga xa la) (keyOf _ gb xb lb)
  have z2 := pathCmp_zless lb la (keyOf _ gb xb lb) (keyOf _ ga xa la)
  obtain ⟨h1, h2⟩ := hC a b ha hb
  have h1' : RustOrd.cmp c a b = .ok (pathCmp octantKey (path a.storage) (path b.storage)) := h1
  refine ⟨ga, gb, e1, f1, ?_, ?_, ?_, fun hx hy hz => ?_⟩
  · rw [h1', Except.ok.injEq]; exact z1
  · rw [h1', Except.ok.injEq, pathCmp_gt_iff_lt]; exact z2
  · rw [h1', Except.ok.injEq, pathCmp_eq_iff _ octantKey_inj]
    constructor
    · intro h
      exact ⟨BitVec.eq_of_toNat_eq (by rw [e2, f2, h]), BitVec.eq_of_toNat_eq (by rw [e3, f3, h]),
        BitVec.eq_of_toNat_eq (by rw [e4, f4, h])⟩
    · rintro ⟨hx, hy, hz⟩
      apply path_of_coords3 (o := o)
      · exact binary_inj (by simp [la, lb]) (by rw [← e2, ← f2, hx])
      · exact binary_inj (by simp [la, lb]) (by rw [← e3, ← f3, hy])
      · exact binary_inj (by simp [la, lb]) (by rw [← e4, ← f4, hz])
  · rw [hC.le_iff ha hb]
    change pathCmp octantKey (path a.storage) (path b.storage) ≠ .gt
    rw [ne_eq, pathCmp_gt_iff_lt, z2]
    refine not_zless_of_le3 (fun ax => by rw [xa]; exact binary_map_lt _ la) (fun ax => by rw [xb]; exact binary_map_lt _ lb)
      (fun ax => ?_)
    cases ax
    · exact hx
    · exact hy
    · exact hz

theorem subtreeIsBox_of3 {S : Type} [VariableDepthStorage S Octant] [BitStorage S Octant] [RustOrd (MortonIndex3D S)]
    (hc : c.Supported) {ok : MortonIndex3D S → Prop} {wr : Octant → Octant} (hwf : ∀ m, ok m → WF c m.storage)
    (hL : ListLike c ok (cells3 (S := S)) wr) (hA : AncLike c ok (cells3 (S := S)))
    (hC : CmpLike c octantKey ok (cells3 (S := S))) : SubtreeIsBox3D c ok := by
  intro x y hx hy hd hdy o
  obtain ⟨gx, e1, e2, e3, e4⟩ := toGridIndex_binary3 hc (hwf x hx) (Nat.le_trans hd hdy) o
  obtain ⟨gy, f1, f2, f3, f4⟩ := toGridIndex_binary3 hc (hwf y hy) hdy o
  have lx : (path x.storage).length = depth x := path_length _
  have ly : (path y.storage).length = depth y := path_length _
  refine ⟨gx, gy, e1, f1, ?_⟩
  rw [inSubtree_iff octantKey_inj hL hA hC hx hy, in_box, in_box, in_box]
  change path x.storage <+: path y.storage ↔ _
  rw [List.prefix_iff_eq_take, lx, e2, e3, e4, f2, f3, f4, binary_map_take _ ly hd, binary_map_take _ ly hd,
    binary_map_take _ ly hd]
  constructor
  · intro h
    rw [← h]
    exact ⟨rfl, rfl, rfl⟩
  · rintro ⟨h1, h2, h3⟩
    have hl : ((path y.storage).take (depth x)).length = (path x.storage).length := by
      rw [List.length_take, lx, ly]; omega
    exact (path_of_coords3 (o := o) (binary_inj (by rw [List.length_map, List.length_map, hl]) h1)
      (binary_inj (by rw [List.length_map, List.length_map, hl]) h2)
      (binary_inj (by rw [List.length_map, List.length_map, hl]) h3)).symm

/-- For fixed-depth indices without stray bits; with stray bits see C64. -/
theorem C66_order_is_z_order_3D (hc : c.Supported) :
    (∀ w, OrderIsZOrder3D c (fun m => Reach3D c .canonical (.fixed w m))) ∧
    (∀ w, OrderIsZOrder3D c (fun m => Reach3D c .all (.static w m))) ∧
    OrderIsZOrder3D c (fun m => Reach3D c .all (.dynamic m)) :=
  ⟨fun _ => orderIsZOrder_of3 hc (fixed_wf3 hc) (fixed_cmp3 hc),
    fun _ => orderIsZOrder_of3 hc (static_wf3 hc) (static_cmp3 hc),
    orderIsZOrder_of3 hc (dynamic_wf3 hc) (dynamic_cmp3 hc)⟩

theorem C67_subtree_is_box_3D (hc : c.Supported) :
    (∀ w, SubtreeIsBox3D c (fun m => Reach3D c .all (.static w m))) ∧
    SubtreeIsBox3D c (fun m => Reach3D c .all (.dynamic m)) :=
  ⟨fun _ => subtreeIsBox_of3 hc (static_wf3 hc) (static_list3 hc) (static_anc3 hc) (static_cmp3 hc),
    subtreeIsBox_of3 hc (dynamic_wf3 hc) (dynamic_list3' hc) (dynamic_anc3 hc) (dynamic_cmp3 hc)⟩

/-- A node against itself: both sides hold. -/
example : ∃ ga gb, exS3.toGridIndex x64 .ZXY = .ok ga ∧ exS3.toGridIndex x64 .ZXY = .ok gb ∧
    (RustOrd.cmp x64 exS3 exS3 = .ok .eq ↔ ga.x = gb.x ∧ ga.y = gb.y ∧ ga.z = gb.z) := by
  obtain ⟨ga, gb, h1, h2, -, -, h5, -⟩ := (C66_order_is_z_order_3D x64_supported).2.1 32 exS3 exS3 (exS3_reach _)
    (exS3_reach _) rfl (by decide) .ZXY
  exact ⟨ga, gb, h1, h2, h5⟩

example : ∃ gx gy, (⟨⟨0xA4000000#32, 2⟩⟩ : MortonIndex3D (StaticStorage3D 32)).toGridIndex x64 .XYZ = .ok gx ∧
    exS3.toGridIndex x64 .XYZ = .ok gy ∧ InSubtree x64 (⟨⟨0xA4000000#32, 2⟩⟩ : MortonIndex3D (StaticStorage3D 32)) exS3 ∧
      gx.x.toNat * 2 ≤ gy.x.toNat ∧ gy.x.toNat < (gx.x.toNat + 1) * 2 := by
  have hr : Reach3D x64 .all (.static 32 ⟨⟨0xA4000000#32, 2⟩⟩) :=
    .staticTryFromSlice (cs := [.Five, .One]) (by decide) (by decide +kernel)
  obtain ⟨gx, gy, h1, h2, h3⟩ := (C67_subtree_is_box_3D x64_supported).1 32 ⟨⟨0xA4000000#32, 2⟩⟩ exS3 hr (exS3_reach _)
    (by decide) (by decide) .XYZ
  have hin : InSubtree x64 (⟨⟨0xA4000000#32, 2⟩⟩ : MortonIndex3D (StaticStorage3D 32)) exS3 :=
    ⟨⟨⟨0xA4000000#32, 2⟩⟩, by decide +kernel, by decide +kernel⟩
  exact ⟨gx, gy, h1, h2, hin, (h3.mp hin).1⟩

end MortonRs
