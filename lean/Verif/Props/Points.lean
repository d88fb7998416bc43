import Verif.Props.Encode
import Verif.Props.Space

/-! # Indices of points in a bounding box (C102)

`README.md` 8 and `examples/morton_2d.rs` 54-56 suggest to calculate the grid index of a point first and to convert it into a Morton index.
The grid index is calculated by the caller. Here it is calculated exactly, from coordinates relative to the corner of the box in any
unit: natural numbers below the side length. -/

namespace MortonRs

open BitStorage MortonIndex VariableDepthMortonIndex

variable {c : Cfg}

/-! ## Statements -/

/-- `p` is in interval `i` of the `2 ^ d` equal intervals of `[0, s)`, which is `[i * s / 2 ^ d, (i + 1) * s / 2 ^ d)`. -/
def InInterval (p s d i : Nat) : Prop := i * s ≤ p * 2 ^ d ∧ p * 2 ^ d < (i + 1) * s

/-- The grid index the caller calculates: the interval on each axis. -/
def gridOfPoint2D (W : Nat) (px py sx sy d : Nat) : Vector2 W := ⟨BitVec.ofNat W (px * 2 ^ d / sx), BitVec.ofNat W (py * 2 ^ d / sy)⟩

def gridOfPoint3D (W : Nat) (px py pz sx sy sz d : Nat) : Vector3 W :=
  ⟨BitVec.ofNat W (px * 2 ^ d / sx), BitVec.ofNat W (py * 2 ^ d / sy), BitVec.ofNat W (pz * 2 ^ d / sz)⟩

/-- `m` is the node of depth `d` of the point: the nodes up to depth `d` whose box holds the point are its ancestors and `m` itself. -/
def NodeOfPoint2D (c : Cfg) {S : Type} [VariableDepthStorage S Quadrant] [RustOrd (MortonIndex2D S)] (ok : MortonIndex2D S → Prop)
    (o : QuadrantOrdering) (px py sx sy d : Nat) (m : MortonIndex2D S) : Prop :=
  ok m ∧ depth m = d ∧ ∀ n, ok n → depth n ≤ d → ∃ g, n.toGridIndex c o = .ok g ∧
    (InSubtree c n m ↔ InInterval px sx (depth n) g.x.toNat ∧ InInterval py sy (depth n) g.y.toNat)

/-- The same where all indices have one depth: `m` is the one whose box holds the point. -/
def FixedNodeOfPoint2D (c : Cfg) {S : Type} [Storage S Quadrant] [RustOrd (MortonIndex2D S)] (ok : MortonIndex2D S → Prop)
    (o : QuadrantOrdering) (px py sx sy : Nat) (m : MortonIndex2D S) : Prop :=
  ok m ∧ ∀ n, ok n → ∃ g, n.toGridIndex c o = .ok g ∧
    (RustOrd.cmp c n m = .ok .eq ↔ InInterval px sx (depth n) g.x.toNat ∧ InInterval py sy (depth n) g.y.toNat)

/-- `m` is the node of depth `d` of the point: the nodes up to depth `d` whose box holds the point are its ancestors and `m` itself. -/
def NodeOfPoint3D (c : Cfg) {S : Type} [VariableDepthStorage S Octant] [RustOrd (MortonIndex3D S)] (ok : MortonIndex3D S → Prop)
    (o : OctantOrdering) (px py pz sx sy sz d : Nat) (m : MortonIndex3D S) : Prop :=
  ok m ∧ depth m = d ∧ ∀ n, ok n → depth n ≤ d → ∃ g, n.toGridIndex c o = .ok g ∧
    (InSubtree c n m ↔ InInterval px sx (depth n) g.x.toNat ∧ InInterval py sy (depth n) g.y.toNat ∧ InInterval pz sz (depth n) g.z.toNat)

/-- The same where all indices have one depth: `m` is the one whose box holds the point. -/
def FixedNodeOfPoint3D (c : Cfg) {S : Type} [Storage S Octant] [RustOrd (MortonIndex3D S)] (ok : MortonIndex3D S → Prop)
    (o : OctantOrdering) (px py pz sx sy sz : Nat) (m : MortonIndex3D S) : Prop :=
  ok m ∧ ∀ n, ok n → ∃ g, n.toGridIndex c o = .ok g ∧
    (RustOrd.cmp c n m = .ok .eq ↔ InInterval px sx (depth n) g.x.toNat ∧ InInterval py sy (depth n) g.y.toNat ∧ InInterval pz sz (depth n) g.z.toNat)

/-! ## Proofs -/

theorem interval_lt {p s d : Nat} (h : p < s) : p * 2 ^ d / s < 2 ^ d := by
  rw [Nat.div_lt_iff_lt_mul (by omega), Nat.mul_comm (2 ^ d)]
  exact Nat.mul_lt_mul_of_pos_right h (Nat.two_pow_pos d)

theorem inInterval_iff {p s k d i : Nat} (hs : 0 < s) (hk : k ≤ d) :
    InInterval p s k i ↔ i * 2 ^ (d - k) ≤ p * 2 ^ d / s ∧ p * 2 ^ d / s < (i + 1) * 2 ^ (d - k) := by
  have e : 2 ^ d = 2 ^ k * 2 ^ (d - k) := by rw [← Nat.pow_add, Nat.add_sub_cancel' hk]
  have hp : 0 < 2 ^ (d - k) := Nat.two_pow_pos _
  rw [Nat.le_div_iff_mul_le hs, Nat.div_lt_iff_lt_mul hs, e, ← Nat.mul_assoc p, Nat.mul_right_comm i, Nat.mul_right_comm (i + 1)]
  unfold InInterval
  rw [Nat.mul_le_mul_right_iff hp, Nat.mul_lt_mul_right hp]

theorem inInterval_self {p s d i : Nat} (hs : 0 < s) : InInterval p s d i ↔ i = p * 2 ^ d / s := by
  rw [inInterval_iff hs (Nat.le_refl d), Nat.sub_self, Nat.pow_zero]
  omega

theorem interval_toNat {W p s d : Nat} (h : p < s) (hd : d ≤ W) :
    (BitVec.ofNat W (p * 2 ^ d / s)).toNat % 2 ^ d = p * 2 ^ d / s := by
  have h1 := interval_lt (d := d) h
  have h2 : 2 ^ d ≤ 2 ^ W := Nat.pow_le_pow_right (by decide) hd
  rw [BitVec.toNat_ofNat, Nat.mod_eq_of_lt (Nat.lt_of_lt_of_le h1 h2), Nat.mod_eq_of_lt h1]

theorem nodeOfPoint_of2 {S : Type} [VariableDepthStorage S Quadrant] [RustOrd (MortonIndex2D S)] {ok : MortonIndex2D S → Prop}
    (h : SubtreeIsBox2D c ok) {m : MortonIndex2D S} (hm : ok m) {d : Nat} (hd : depth m = d) (hp : d ≤ c.ptrBits)
    {o : QuadrantOrdering} {px py sx sy : Nat} (hx : px < sx) (hy : py < sy) (hg : GridAt2D c m o (gridOfPoint2D c.ptrBits px py sx sy d) d) :
    NodeOfPoint2D c ok o px py sx sy d m := by
  refine ⟨hm, hd, fun n hn hnd => ?_⟩
  obtain ⟨gn, gm, e1, e2, e3⟩ := h n m hn hm (by omega) (by omega) o
  obtain ⟨v, v1, v2, v3⟩ := hg
  rw [e2] at v1
  cases v1
  refine ⟨gn, e1, ?_⟩
  rw [e3, hd, v2, v3]
  simp only [gridOfPoint2D]
  rw [interval_toNat hx hp, interval_toNat hy hp, inInterval_iff (Nat.zero_lt_of_lt hx) hnd, inInterval_iff (Nat.zero_lt_of_lt hy) hnd]

theorem fixedNodeOfPoint_of2 {S : Type} [Storage S Quadrant] [RustOrd (MortonIndex2D S)] {ok : MortonIndex2D S → Prop}
    (h : OrderIsZOrder2D c ok) {d : Nat} (hdep : ∀ n, ok n → depth n = d) {m : MortonIndex2D S} (hm : ok m) (hp : d ≤ c.ptrBits)
    {o : QuadrantOrdering} {px py sx sy : Nat} (hx : px < sx) (hy : py < sy) (hg : GridAt2D c m o (gridOfPoint2D c.ptrBits px py sx sy d) d) :
    FixedNodeOfPoint2D c ok o px py sx sy m := by
  refine ⟨hm, fun n hn => ?_⟩
  have hd := hdep m hm
  have hdn := hdep n hn
  obtain ⟨gn, gm, e1, e2, -, -, e3, -⟩ := h n m hn hm (by omega) (by omega) o
  obtain ⟨v, v1, v2, v3⟩ := hg
  rw [e2] at v1
  cases v1
  refine ⟨gn, e1, ?_⟩
  simp only [gridOfPoint2D] at v2 v3
  rw [interval_toNat hx hp] at v2
  rw [interval_toNat hy hp] at v3
  rw [e3, hdn, inInterval_self (Nat.zero_lt_of_lt hx), inInterval_self (Nat.zero_lt_of_lt hy), ← BitVec.toNat_inj, ← BitVec.toNat_inj, v2, v3]

theorem nodeOfPoint_nested2 {S : Type} [VariableDepthStorage S Quadrant] [RustOrd (MortonIndex2D S)] {ok : MortonIndex2D S → Prop}
    (h : SubtreeIsBox2D c ok) {o : QuadrantOrdering} {px py sx sy k d : Nat} (hp : k ≤ c.ptrBits) (hk : k ≤ d) {n m : MortonIndex2D S}
    (hn : NodeOfPoint2D c ok o px py sx sy k n) (hm : NodeOfPoint2D c ok o px py sx sy d m) : InSubtree c n m := by
  obtain ⟨n1, n2, n3⟩ := hn
  obtain ⟨-, -, m3⟩ := hm
  obtain ⟨ga, gb, e1, e2, e3⟩ := h n n n1 n1 (Nat.le_refl _) (by omega) o
  rw [e1] at e2
  cases e2
  have self : InSubtree c n n := by
    rw [e3, Nat.sub_self, Nat.pow_zero]
    omega
  obtain ⟨g, g1, g2⟩ := n3 n n1 (by omega)
  obtain ⟨g', g1', g2'⟩ := m3 n n1 (by omega)
  rw [g1] at g1'
  cases g1'
  exact g2'.2 (g2.1 self)

theorem nodeOfPoint_of3 {S : Type} [VariableDepthStorage S Octant] [RustOrd (MortonIndex3D S)] {ok : MortonIndex3D S → Prop}
    (h : SubtreeIsBox3D c ok) {m : MortonIndex3D S} (hm : ok m) {d : Nat} (hd : depth m = d) (hp : d ≤ c.ptrBits)
    {o : OctantOrdering} {px py pz sx sy sz : Nat} (hx : px < sx) (hy : py < sy) (hz : pz < sz) (hg : GridAt3D c m o (gridOfPoint3D c.ptrBits px py pz sx sy sz d) d) :
    NodeOfPoint3D c ok o px py pz sx sy sz d m := by
  refine ⟨hm, hd, fun n hn hnd => ?_⟩
  obtain ⟨gn, gm, e1, e2, e3⟩ := h n m hn hm (by omega) (by omega) o
  obtain ⟨v, v1, v2, v3, v4⟩ := hg
  rw [e2] at v1
  cases v1
  refine ⟨gn, e1, ?_⟩
  rw [e3, hd, v2, v3, v4]
  simp only [gridOfPoint3D]
  rw [interval_toNat hx hp, interval_toNat hy hp, interval_toNat hz hp,
    inInterval_iff (Nat.zero_lt_of_lt hx) hnd, inInterval_iff (Nat.zero_lt_of_lt hy) hnd, inInterval_iff (Nat.zero_lt_of_lt hz) hnd]

theorem fixedNodeOfPoint_of3 {S : Type} [Storage S Octant] [RustOrd (MortonIndex3D S)] {ok : MortonIndex3D S → Prop}
    (h : OrderIsZOrder3D c ok) {d : Nat} (hdep : ∀ n, ok n → depth n = d) {m : MortonIndex3D S} (hm : ok m) (hp : d ≤ c.ptrBits)
    {o : OctantOrdering} {px py pz sx sy sz : Nat} (hx : px < sx) (hy : py < sy) (hz : pz < sz) (hg : GridAt3D c m o (gridOfPoint3D c.ptrBits px py pz sx sy sz d) d) :
    FixedNodeOfPoint3D c ok o px py pz sx sy sz m := by
  refine ⟨hm, fun n hn => ?_⟩
  have hd := hdep m hm
  have hdn := hdep n hn
  obtain ⟨gn, gm, e1, e2, -, -, e3, -⟩ := h n m hn hm (by omega) (by omega) o
  obtain ⟨v, v1, v2, v3, v4⟩ := hg
  rw [e2] at v1
  cases v1
  refine ⟨gn, e1, ?_⟩
  simp only [gridOfPoint3D] at v2 v3 v4
  rw [interval_toNat hx hp] at v2
  rw [interval_toNat hy hp] at v3
  rw [interval_toNat hz hp] at v4
  rw [e3, hdn, inInterval_self (Nat.zero_lt_of_lt hx), inInterval_self (Nat.zero_lt_of_lt hy), inInterval_self (Nat.zero_lt_of_lt hz),
    ← BitVec.toNat_inj, ← BitVec.toNat_inj, ← BitVec.toNat_inj, v2, v3, v4]

theorem nodeOfPoint_nested3 {S : Type} [VariableDepthStorage S Octant] [RustOrd (MortonIndex3D S)] {ok : MortonIndex3D S → Prop}
    (h : SubtreeIsBox3D c ok) {o : OctantOrdering} {px py pz sx sy sz k d : Nat} (hp : k ≤ c.ptrBits) (hk : k ≤ d) {n m : MortonIndex3D S}
    (hn : NodeOfPoint3D c ok o px py pz sx sy sz k n) (hm : NodeOfPoint3D c ok o px py pz sx sy sz d m) : InSubtree c n m := by
  obtain ⟨n1, n2, n3⟩ := hn
  obtain ⟨-, -, m3⟩ := hm
  obtain ⟨ga, gb, e1, e2, e3⟩ := h n n n1 n1 (Nat.le_refl _) (by omega) o
  rw [e1] at e2
  cases e2
  have self : InSubtree c n n := by
    rw [e3, Nat.sub_self, Nat.pow_zero]
    omega
  obtain ⟨g, g1, g2⟩ := n3 n n1 (by omega)
  obtain ⟨g', g1', g2'⟩ := m3 n n1 (by omega)
  rw [g1] at g1'
  cases g1'
  exact g2'.2 (g2.1 self)

/-! ## Theorems -/

/-- C102. The conditions are those under which the constructors keep the position (C21, C24, C26). -/
theorem C102_points_2D (hc : c.Supported) (o : QuadrantOrdering) (px py sx sy : Nat) (hx : px < sx) (hy : py < sy) :
    (∀ w, IntWidth w → w / 2 ≤ c.ptrBits →
      ∃ m, MortonIndex2D.fixedFromGridIndex c w (gridOfPoint2D c.ptrBits px py sx sy (w / 2)) o = .ok m ∧
        FixedNodeOfPoint2D c (fun m => Reach2D c .all (.fixed w m)) o px py sx sy m) ∧
    (∀ w, IntWidth w → ∀ d, d ≤ w / 2 → w / 2 ≤ c.ptrBits → w / 2 - d < c.ptrBits ∨ c.overflowChecks = false →
      ∃ m, MortonIndex2D.staticFromGridIndex c w (gridOfPoint2D c.ptrBits px py sx sy d) d o = .ok (.ok m) ∧
        NodeOfPoint2D c (fun m => Reach2D c .all (.static w m)) o px py sx sy d m) ∧
    (∀ d, d ≤ c.ptrBits / 2 →
      ∃ m, MortonIndex2D.dynamicFromGridIndex c (gridOfPoint2D c.ptrBits px py sx sy d) d o = .ok m ∧
        NodeOfPoint2D c (fun m => Reach2D c .all (.dynamic m)) o px py sx sy d m) := by
  refine ⟨fun w hw hp => ?_, fun w hw d hd hp hs => ?_, fun d hd => ?_⟩
  · obtain ⟨m, h1, h2⟩ := ((C21_fixed_grid_2D hc w hw).1 hp).1 (gridOfPoint2D c.ptrBits px py sx sy (w / 2)) o
    exact ⟨m, h1, fixedNodeOfPoint_of2 ((C66_order_is_z_order_2D hc).1 w) (fun _ _ => rfl) (.fixedFromGrid hw h1) hp hx hy h2⟩
  · obtain ⟨m, h1, h2, h3⟩ := ((C24_static_grid_2D_partial hc w hw d).2 hd hp hs).1 (gridOfPoint2D c.ptrBits px py sx sy d) o
    exact ⟨m, h1, nodeOfPoint_of2 ((C67_subtree_is_box_2D hc).1 w) (.staticFromGrid hw h1) h2 (by omega) hx hy h3⟩
  · obtain ⟨m, h1, h2, h3⟩ := ((C26_dynamic_grid_2D hc d).2 hd).1 (gridOfPoint2D c.ptrBits px py sx sy d) o
    exact ⟨m, h1, nodeOfPoint_of2 (C67_subtree_is_box_2D hc).2 (.dynamicFromGrid h1) h2 (by omega) hx hy h3⟩

/-- C102 in 3D. The conditions are those of C22, C23, C25 and C26. -/
theorem C102_points_3D (hc : c.Supported) (o : OctantOrdering) (px py pz sx sy sz : Nat) (hx : px < sx) (hy : py < sy) (hz : pz < sz) :
    (32 ≤ c.ptrBits → ∀ w, IntWidth w → w / 3 < c.ptrBits →
      ∃ m, MortonIndex3D.fixedFromGridIndex c w (gridOfPoint3D c.ptrBits px py pz sx sy sz (w / 3)) o = .ok m ∧
        FixedNodeOfPoint3D c (fun m => Reach3D c .canonical (.fixed w m)) o px py pz sx sy sz m) ∧
    (32 ≤ c.ptrBits → ∃ m, MortonIndex3D.fixedFromGridIndexFast c (gridOfPoint3D c.ptrBits px py pz sx sy sz 21) o = .ok m ∧
      FixedNodeOfPoint3D c (fun m => Reach3D c .canonical (.fixed 64 m)) o px py pz sx sy sz m) ∧
    (∀ w, IntWidth w → ∀ d, d ≤ w / 3 → w / 3 ≤ c.ptrBits → d = 0 ∨ StaticGridExact w d →
      ∃ m, MortonIndex3D.staticFromGridIndex c w (gridOfPoint3D c.ptrBits px py pz sx sy sz d) d o = .ok (.ok m) ∧
        NodeOfPoint3D c (fun m => Reach3D c .all (.static w m)) o px py pz sx sy sz d m) ∧
    (DynWrites c → ∀ d, d ≤ c.ptrBits / 2 →
      ∃ m, MortonIndex3D.dynamicFromGridIndex c (gridOfPoint3D c.ptrBits px py pz sx sy sz d) d o = .ok m ∧
        NodeOfPoint3D c (fun m => Reach3D c .all (.dynamic m)) o px py pz sx sy sz d m) := by
  have fixed : 32 ≤ c.ptrBits → ∀ w, IntWidth w → w / 3 < c.ptrBits →
      ∃ m, MortonIndex3D.fixedFromGridIndex c w (gridOfPoint3D c.ptrBits px py pz sx sy sz (w / 3)) o = .ok m ∧
        FixedNodeOfPoint3D c (fun m => Reach3D c .canonical (.fixed w m)) o px py pz sx sy sz m := by
    intro h32 w hw hp
    obtain ⟨m, h1, h2⟩ := ((C22_fixed_grid_3D hc h32 w hw).1 hp).1 (gridOfPoint3D c.ptrBits px py pz sx sy sz (w / 3)) o
    exact ⟨m, h1, fixedNodeOfPoint_of3 ((C66_order_is_z_order_3D hc).1 w) (fun _ _ => rfl) (.fixedFromGrid hw h1) (Nat.le_of_lt hp)
      hx hy hz h2⟩
  refine ⟨fixed, fun h32 => ?_, fun w hw d hd hp hs => ?_, fun hw d hd => ?_⟩
  · obtain ⟨m, h1, h2⟩ := fixed h32 64 (by decide) (by omega)
    obtain ⟨m', e1, e2, -⟩ := C23_fast_equals_generic_3D hc h32 (gridOfPoint3D c.ptrBits px py pz sx sy sz 21) o
    rw [h1] at e1
    cases e1
    exact ⟨m, e2, h2⟩
  · obtain ⟨m, h1, h2, h3⟩ := ((C25_static_grid_3D_partial hc w hw d).2 hd hp hs).1 (gridOfPoint3D c.ptrBits px py pz sx sy sz d) o
    exact ⟨m, h1, nodeOfPoint_of3 ((C67_subtree_is_box_3D hc).1 w) (.staticFromGrid hw h1) h2 (by omega) hx hy hz h3⟩
  · obtain ⟨m, h1, h2, h3⟩ := ((C26_dynamic_grid_3D hc d).2 hd hw).1 (gridOfPoint3D c.ptrBits px py pz sx sy sz d) o
    exact ⟨m, h1, nodeOfPoint_of3 (C67_subtree_is_box_3D hc).2 (.dynamicFromGrid h1) h2 (by omega) hx hy hz h3⟩

/-- C102: of two indices of one point the coarser one is an ancestor of the finer one. -/
theorem C102_nested_2D (hc : c.Supported) {o : QuadrantOrdering} {px py sx sy k d : Nat} (hp : k ≤ c.ptrBits) (hk : k ≤ d) :
    (∀ w n m, NodeOfPoint2D c (fun m => Reach2D c .all (.static w m)) o px py sx sy k n →
      NodeOfPoint2D c (fun m => Reach2D c .all (.static w m)) o px py sx sy d m → InSubtree c n m) ∧
    (∀ n m, NodeOfPoint2D c (fun m => Reach2D c .all (.dynamic m)) o px py sx sy k n →
      NodeOfPoint2D c (fun m => Reach2D c .all (.dynamic m)) o px py sx sy d m → InSubtree c n m) :=
  ⟨fun w _ _ => nodeOfPoint_nested2 ((C67_subtree_is_box_2D hc).1 w) hp hk, fun _ _ => nodeOfPoint_nested2 (C67_subtree_is_box_2D hc).2 hp hk⟩

/-- C102: of two indices of one point the coarser one is an ancestor of the finer one. -/
theorem C102_nested_3D (hc : c.Supported) {o : OctantOrdering} {px py pz sx sy sz k d : Nat} (hp : k ≤ c.ptrBits) (hk : k ≤ d) :
    (∀ w n m, NodeOfPoint3D c (fun m => Reach3D c .all (.static w m)) o px py pz sx sy sz k n →
      NodeOfPoint3D c (fun m => Reach3D c .all (.static w m)) o px py pz sx sy sz d m → InSubtree c n m) ∧
    (∀ n m, NodeOfPoint3D c (fun m => Reach3D c .all (.dynamic m)) o px py pz sx sy sz k n →
      NodeOfPoint3D c (fun m => Reach3D c .all (.dynamic m)) o px py pz sx sy sz d m → InSubtree c n m) :=
  ⟨fun w _ _ => nodeOfPoint_nested3 ((C67_subtree_is_box_3D hc).1 w) hp hk, fun _ _ => nodeOfPoint_nested3 (C67_subtree_is_box_3D hc).2 hp hk⟩

/-! ## Examples -/

/-- The point (31, 7) of a box of 50 by 20: at depth 2 it is in the square (2, 1). -/
example : ∃ m, MortonIndex2D.staticFromGridIndex x64 16 ⟨2#64, 1#64⟩ 2 .XY = .ok (.ok m) ∧
    NodeOfPoint2D x64 (fun m => Reach2D x64 .all (.static 16 m)) .XY 31 7 50 20 2 m :=
  (C102_points_2D x64_supported .XY 31 7 50 20 (by decide) (by decide)).2.1 16 (by decide) 2 (by decide) (by decide) (by decide)

/-- Its parent is in the square (1, 0), and 31 is in the second half of 50 and 7 in the first half of 20. -/
example : InInterval 31 50 1 1 ∧ InInterval 7 20 1 0 ∧ ¬ InInterval 31 50 1 0 := by
  unfold InInterval
  decide

/-- The squares of the point at depths 2 and 3. -/
example : ∃ n m, MortonIndex2D.dynamicFromGridIndex x64 ⟨2#64, 1#64⟩ 2 .XY = .ok n ∧
    MortonIndex2D.dynamicFromGridIndex x64 ⟨4#64, 2#64⟩ 3 .XY = .ok m ∧ InSubtree x64 n m := by
  obtain ⟨n, n1, n2⟩ := (C102_points_2D x64_supported .XY 31 7 50 20 (by decide) (by decide)).2.2 2 (by decide)
  obtain ⟨m, m1, m2⟩ := (C102_points_2D x64_supported .XY 31 7 50 20 (by decide) (by decide)).2.2 3 (by decide)
  exact ⟨n, m, n1, m1, (C102_nested_2D x64_supported (by decide) (by decide)).2 n m n2 m2⟩

example : ∃ m, MortonIndex3D.dynamicFromGridIndex x64 ⟨4#64, 2#64, 7#64⟩ 3 .YXZ = .ok m ∧
    NodeOfPoint3D x64 (fun m => Reach3D x64 .all (.dynamic m)) .YXZ 31 7 99 50 20 100 3 m :=
  (C102_points_3D x64_supported .YXZ 31 7 99 50 20 100 (by decide) (by decide) (by decide)).2.2.2 x64_writes 3 (by decide)

end MortonRs
