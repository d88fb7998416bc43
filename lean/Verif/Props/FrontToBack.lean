import Verif.Props.Nearest

/-! # Front to back (C119)

Drawing a tree, or casting rays through it, from a direction: the children of each node are visited in an order in which none of
them hides an earlier one, and then no leaf hides an earlier one. -/

namespace MortonRs

open MortonIndex VariableDepthMortonIndex

variable {M Cell : Type}

/-! ## Statement -/

/-- `q` is in front of `p`, or beside it, on one axis: with `flip` the viewer is at the upper end of the axis. -/
def infront (flip : Bool) (q p : Nat) : Prop := if flip then p ≤ q else q ≤ p

instance (flip : Bool) (q p : Nat) : Decidable (infront flip q p) := by unfold infront; infer_instance

/-- For a viewer far away from the grid, in the quarter that `fx` and `fy` name, the position `q` may hide `p`: a line of sight, which
only goes away from the viewer on each axis, can meet `q` before `p`. -/
def hides2 (fx fy : Bool) (q p : Nat × Nat) : Prop := infront fx q.1 p.1 ∧ infront fy q.2 p.2

/-- The same in 3D. -/
def hides3 (fx fy fz : Bool) (q p : Nat × Nat × Nat) : Prop := infront fx q.1 p.1 ∧ infront fy q.2.1 p.2.1 ∧ infront fz q.2.2 p.2.2

/-- The cell `v` does not hide `u`, both being cells of a grid of two places per axis, as the ordering `o` places them. -/
def near2 (o : QuadrantOrdering) (fx fy : Bool) (u v : Quadrant) : Prop :=
  ¬ hides2 fx fy ((quadrantX o v).toNat, (quadrantY o v).toNat) ((quadrantX o u).toNat, (quadrantY o u).toNat)

/-- The same in 3D. -/
def near3 (o : OctantOrdering) (fx fy fz : Bool) (u v : Octant) : Prop :=
  ¬ hides3 fx fy fz ((octantX o v).toNat, (octantY o v).toNat, (octantZ o v).toNat)
    ((octantX o u).toNat, (octantY o u).toNat, (octantZ o u).toNat)

instance (o : QuadrantOrdering) (fx fy : Bool) (u v : Quadrant) : Decidable (near2 o fx fy u v) := by
  unfold near2 hides2; infer_instance

instance (o : OctantOrdering) (fx fy fz : Bool) (u v : Octant) : Decidable (near3 o fx fy fz u v) := by
  unfold near3 hides3; infer_instance

/-- C119. `order'` lists the cells so that none hides an earlier one (`near`). Subdividing with the children in this order gives the
same leaves as in the order of the numbers, and no position in the box of a leaf hides one in the box of an earlier leaf. -/
def FrontToBack [VariableDepthMortonIndex M Cell] {P : Type} (c : Cfg) (order : List Cell) (ok : M → Prop)
    (room : M → Nat → Prop) (D : Nat) (box : M → P → Prop) (near : Cell → Cell → Prop) (hides : P → P → Prop) : Prop :=
  ∀ order', order'.Perm order → order'.Pairwise near → ∀ (split : M → Bool) m n, ok m → room m n → depth m + n ≤ D →
    ∃ ms ms', subdivide c split order n m = .ok ms ∧ subdivide c split order' n m = .ok ms' ∧ ms'.Perm ms ∧
      ms'.Pairwise fun a b => ∀ p q, box a p → box b q → ¬ hides q p

/-! ## The walk -/

/-- Two paths part with cells that are in the relation `R`. -/
def Branch (R : Cell → Cell → Prop) (xs ys : List Cell) : Prop := ∃ zs u s v t, xs = zs ++ u :: s ∧ ys = zs ++ v :: t ∧ R u v

theorem mapM_eq_map {α β : Type} {f : α → Res β} {g : α → β} (h : ∀ v, f v = .ok (g v)) (l : List α) :
    l.mapM f = .ok (l.map g) := by
  induction l with
  | nil => rfl
  | cons v l ih =>
    rw [List.mapM_cons, h v, ok_bind, ih]
    rfl

theorem flatMap_perm {α β : Type} {f g : α → List β} (h : ∀ v, (f v).Perm (g v)) (l : List α) : (l.flatMap f).Perm (l.flatMap g) := by
  induction l with
  | nil => exact .refl _
  | cons v l ih => exact (h v).append ih

section walk
variable [VariableDepthMortonIndex M Cell] {c : Cfg} {ok : M → Prop} {p : M → List Cell}
  {room room' : M → Nat → Prop} {limit : Option Nat} {order order' : List Cell} {split : M → Bool} {R : Cell → Cell → Prop}

theorem subdivide_orders (hD : DescLike c ok p room limit) (hperm : order'.Perm order) (hR : order'.Pairwise R)
    (hr : ∀ m, ok m → ∀ k, room' m (k + 1) → room m 1 ∧ ¬ Exceeds limit ((p m).length + 1) ∧
      ∀ a v, ok a → p a = p m ++ [v] → room' a k) (k : Nat) : ∀ m, ok m → room' m k →
    ∃ ms ms', subdivide c split order k m = .ok ms ∧ subdivide c split order' k m = .ok ms' ∧ ms'.Perm ms ∧
      (∀ a ∈ ms', ok a ∧ p m <+: p a ∧ (p a).length ≤ (p m).length + k) ∧ ms'.Pairwise fun a b => Branch R (p a) (p b) := by
  induction k with
  | zero =>
    intro m hm _
    exact ⟨[m], [m], rfl, rfl, .refl _, by simp [hm], by simp⟩
  | succ k ih =>
    intro m hm hrm
    obtain ⟨r1, r2, r3⟩ := hr m hm k hrm
    by_cases hs : split m = true
    · have key : ∀ v, ∃ x : List M × List M, (do
            match ← child c m v with
            | none => .ok []
            | some a => subdivide c split order k a) = .ok x.1 ∧
          (do
            match ← child c m v with
            | none => .ok []
            | some a => subdivide c split order' k a) = .ok x.2 ∧ x.2.Perm x.1 ∧
          (∀ a ∈ x.2, ok a ∧ p m ++ [v] <+: p a ∧ (p a).length ≤ (p m).length + (k + 1)) ∧
          x.2.Pairwise fun a b => Branch R (p a) (p b) := by
        intro v
        have hchild : child c m v = descendant c m [v] := rfl
        obtain ⟨a, a1, a2, a3⟩ := hD.yes m hm [v] r1 r2
        obtain ⟨ms, ms', i1, i2, i3, i4, i5⟩ := ih a a2 (r3 a v a2 a3)
        rw [a3] at i4
        refine ⟨(ms, ms'), by rw [hchild, a1]; exact i1, by rw [hchild, a1]; exact i2, i3, fun b hb => ?_, i5⟩
        obtain ⟨g1, g2, g3⟩ := i4 b hb
        rw [List.length_append, List.length_singleton] at g3
        exact ⟨g1, g2, by omega⟩
      obtain ⟨F, hF⟩ := Classical.axiomOfChoice key
      refine ⟨order.flatMap fun v => (F v).1, order'.flatMap fun v => (F v).2, ?_, ?_, ?_, ?_, ?_⟩
      · have e : (order.mapM fun v => do
            match ← child c m v with
            | none => .ok []
            | some a => subdivide c split order k a) = .ok (order.map fun v => (F v).1) := mapM_eq_map (fun v => (hF v).1) order
        rw [subdivide, if_pos hs]
        exact congrArg (fun r : Res (List (List M)) => r >>= fun parts => pure parts.flatten) e
      · have e : (order'.mapM fun v => do
            match ← child c m v with
            | none => .ok []
            | some a => subdivide c split order' k a) = .ok (order'.map fun v => (F v).2) := mapM_eq_map (fun v => (hF v).2.1) order'
        rw [subdivide, if_pos hs]
        exact congrArg (fun r : Res (List (List M)) => r >>= fun parts => pure parts.flatten) e
      · exact (flatMap_perm (fun v => (hF v).2.2.1) order').trans (hperm.flatMap_right _)
      · intro a ha
        obtain ⟨v, -, ha⟩ := List.mem_flatMap.mp ha
        obtain ⟨g1, g2, g3⟩ := (hF v).2.2.2.1 a ha
        exact ⟨g1, (List.prefix_append _ _).trans g2, g3⟩
      · rw [List.pairwise_flatMap]
        refine ⟨fun v _ => (hF v).2.2.2.2, hR.imp fun {u v} huv a ha b hb => ?_⟩
        obtain ⟨-, ⟨s, g2⟩, -⟩ := (hF u).2.2.2.1 a ha
        obtain ⟨-, ⟨t, g3⟩, -⟩ := (hF v).2.2.2.1 b hb
        exact ⟨p m, u, s, v, t, by rw [← g2]; simp, by rw [← g3]; simp, huv⟩
    · exact ⟨[m], [m], by rw [subdivide, if_neg hs], by rw [subdivide, if_neg hs], .refl _, by simp [hm], by simp⟩

theorem frontToBack_of {P : Type} {D : Nat} {box : M → P → Prop} {near : Cell → Cell → Prop} {hides : P → P → Prop}
    {wr : Cell → Cell} (h : ListLike c ok p wr) (hD : DescLike c ok p room limit)
    (hr : ∀ m, ok m → ∀ k, room' m (k + 1) → room m 1 ∧ ¬ Exceeds limit ((p m).length + 1) ∧
      ∀ a v, ok a → p a = p m ++ [v] → room' a k)
    (hbox : ∀ a b, ok a → ok b → (p a).length ≤ D → (p b).length ≤ D → Branch near (p a) (p b) →
      ∀ x y, box a x → box b y → ¬ hides y x) : FrontToBack c order ok room' D box near hides := by
  intro order' hperm hR split m n hm hrm hn
  rw [h.depth_eq m hm] at hn
  obtain ⟨ms, ms', h1, h2, h3, h4, h5⟩ := subdivide_orders (split := split) hD hperm hR hr n m hm hrm
  refine ⟨ms, ms', h1, h2, h3, List.Pairwise.imp_of_mem (fun {a b} ha hb hab => ?_) h5⟩
  obtain ⟨a1, -, a2⟩ := h4 a ha
  obtain ⟨b1, -, b2⟩ := h4 b hb
  exact hbox a b a1 b1 (by omega) (by omega) hab

end walk

/-! ## Boxes -/

section boxes
variable {c : Cfg} {D : Nat}

/-- What is in front in the grid is not behind on the level where the paths part. -/
theorem infront_parts {f : Cell → Bool} {zs s t : List Cell} {u v : Cell} {x y : Nat} {flip : Bool}
    (hx : x / 2 ^ (D - (zs ++ u :: s).length) = binary ((zs ++ u :: s).map f))
    (hy : y / 2 ^ (D - (zs ++ v :: t).length) = binary ((zs ++ v :: t).map f)) (lx : (zs ++ u :: s).length ≤ D)
    (ly : (zs ++ v :: t).length ≤ D) (h : infront flip y x) : infront flip (f v).toNat (f u).toNat := by
  have hx := coord_above (xs := zs ++ [u]) lx ⟨s, by simp⟩ hx
  have hy := coord_above (xs := zs ++ [v]) ly ⟨t, by simp⟩ hy
  have hb : ∀ w, binary ((zs ++ [w]).map f) = 2 * binary (zs.map f) + (f w).toNat := fun w => by simp [binary, List.foldl_append]
  have hl : (zs ++ [u]).length = (zs ++ [v]).length := by simp
  rw [hb] at hx hy
  rw [hl] at hx
  cases flip with
  | false =>
    have : y / 2 ^ (D - (zs ++ [v]).length) ≤ x / 2 ^ (D - (zs ++ [v]).length) := Nat.div_le_div_right h
    change (f v).toNat ≤ (f u).toNat
    omega
  | true =>
    have : x / 2 ^ (D - (zs ++ [v]).length) ≤ y / 2 ^ (D - (zs ++ [v]).length) := Nat.div_le_div_right h
    change (f u).toNat ≤ (f v).toNat
    omega

theorem front_box2 (hc : c.Supported) {S : Type} [Storage S Quadrant] [BitStorage S Quadrant] {a b : MortonIndex2D S}
    (ha : WF c a.storage) (hb : WF c b.storage) (hda : depth a = (cells2 a).length) (hdb : depth b = (cells2 b).length)
    (hD : D ≤ c.ptrBits) (la : (cells2 a).length ≤ D) (lb : (cells2 b).length ≤ D) (o : QuadrantOrdering) (fx fy : Bool)
    (hbr : Branch (near2 o fx fy) (cells2 a) (cells2 b)) (x y : Nat × Nat) (hx : InBox2D c o D a x) (hy : InBox2D c o D b y) :
    ¬ hides2 fx fy y x := by
  obtain ⟨g, g1, g2, g3⟩ := toGridIndex_binary2 hc ha (Nat.le_trans (Nat.le_of_eq hda) (Nat.le_trans la hD)) o
  obtain ⟨k, k1, k2, k3⟩ := toGridIndex_binary2 hc hb (Nat.le_trans (Nat.le_of_eq hdb) (Nat.le_trans lb hD)) o
  obtain ⟨g', e, x1, x2⟩ := hx
  rw [g1] at e
  cases e
  obtain ⟨k', e, y1, y2⟩ := hy
  rw [k1] at e
  cases e
  rw [hda, g2] at x1
  rw [hda, g3] at x2
  rw [hdb, k2] at y1
  rw [hdb, k3] at y2
  obtain ⟨zs, u, s, v, t, ea, eb, hn⟩ := hbr
  change x.1 / _ = binary ((cells2 a).map _) at x1
  change x.2 / _ = binary ((cells2 a).map _) at x2
  change y.1 / _ = binary ((cells2 b).map _) at y1
  change y.2 / _ = binary ((cells2 b).map _) at y2
  rw [ea] at la x1 x2
  rw [eb] at lb y1 y2
  exact fun hh => hn ⟨infront_parts x1 y1 la lb hh.1, infront_parts x2 y2 la lb hh.2⟩

theorem front_box3 (hc : c.Supported) {S : Type} [Storage S Octant] [BitStorage S Octant] {a b : MortonIndex3D S}
    (ha : WF c a.storage) (hb : WF c b.storage) (hda : depth a = (cells3 a).length) (hdb : depth b = (cells3 b).length)
    (hD : D ≤ c.ptrBits) (la : (cells3 a).length ≤ D) (lb : (cells3 b).length ≤ D) (o : OctantOrdering) (fx fy fz : Bool)
    (hbr : Branch (near3 o fx fy fz) (cells3 a) (cells3 b)) (x y : Nat × Nat × Nat) (hx : InBox3D c o D a x)
    (hy : InBox3D c o D b y) : ¬ hides3 fx fy fz y x := by
  obtain ⟨g, g1, g2, g3, g4⟩ := toGridIndex_binary3 hc ha (Nat.le_trans (Nat.le_of_eq hda) (Nat.le_trans la hD)) o
  obtain ⟨k, k1, k2, k3, k4⟩ := toGridIndex_binary3 hc hb (Nat.le_trans (Nat.le_of_eq hdb) (Nat.le_trans lb hD)) o
  obtain ⟨g', e, x1, x2, x3⟩ := hx
  rw [g1] at e
  cases e
  obtain ⟨k', e, y1, y2, y3⟩ := hy
  rw [k1] at e
  cases e
  rw [hda, g2] at x1
  rw [hda, g3] at x2
  rw [hda, g4] at x3
  rw [hdb, k2] at y1
  rw [hdb, k3] at y2
  rw [hdb, k4] at y3
  obtain ⟨zs, u, s, v, t, ea, eb, hn⟩ := hbr
  change x.1 / _ = binary ((cells3 a).map _) at x1
  change x.2.1 / _ = binary ((cells3 a).map _) at x2
  change x.2.2 / _ = binary ((cells3 a).map _) at x3
  change y.1 / _ = binary ((cells3 b).map _) at y1
  change y.2.1 / _ = binary ((cells3 b).map _) at y2
  change y.2.2 / _ = binary ((cells3 b).map _) at y3
  rw [ea] at la x1 x2 x3
  rw [eb] at lb y1 y2 y3
  exact fun hh => hn ⟨infront_parts x1 y1 la lb hh.1, infront_parts x2 y2 la lb hh.2.1, infront_parts x3 y3 la lb hh.2.2⟩

/-! ## C119 -/

theorem C119_front_to_back_2D (hc : c.Supported) (hD : D ≤ c.ptrBits) (o : QuadrantOrdering) (fx fy : Bool) :
    (∀ w, FrontToBack c [Quadrant.Zero, .One, .Two, .Three]
      (fun m : MortonIndex2D (StaticStorage2D w) => Reach2D c .all (.static w m)) (fun m n => depth m + n ≤ w / 2) D
      (InBox2D c o D) (near2 o fx fy) (hides2 fx fy)) ∧
    (DynWrites c → FrontToBack c [Quadrant.Zero, .One, .Two, .Three]
      (fun m : MortonIndex2D DynamicStorage2D => Reach2D c .all (.dynamic m)) (fun m n => Addressable c ((depth m + n) * 2)) D
      (InBox2D c o D) (near2 o fx fy) (hides2 fx fy)) :=
  ⟨fun _ => frontToBack_of (static_list2 hc) (static_desc2 hc) (fun _ hm k => static_room2 hc hm k)
      fun a b ha hb la lb e => front_box2 hc (static_wf2 hc a ha) (static_wf2 hc b hb) ((static_list2 hc).depth_eq a ha)
        ((static_list2 hc).depth_eq b hb) hD la lb o fx fy e,
    fun hw => frontToBack_of (dynamic_list2 hc hw) (dynamic_desc2 hc hw) (fun _ hm k => dynamic_room2 hc hm k)
      fun a b ha hb la lb e => front_box2 hc (dynamic_wf2 hc a ha) (dynamic_wf2 hc b hb) ((dynamic_list2 hc hw).depth_eq a ha)
        ((dynamic_list2 hc hw).depth_eq b hb) hD la lb o fx fy e⟩

theorem C119_front_to_back_3D (hc : c.Supported) (hD : D ≤ c.ptrBits) (o : OctantOrdering) (fx fy fz : Bool) :
    (∀ w, FrontToBack c [Octant.Zero, .One, .Two, .Three, .Four, .Five, .Six, .Seven]
      (fun m : MortonIndex3D (StaticStorage3D w) => Reach3D c .all (.static w m)) (fun m n => depth m + n ≤ w / 3) D
      (InBox3D c o D) (near3 o fx fy fz) (hides3 fx fy fz)) ∧
    (DynWrites c → FrontToBack c [Octant.Zero, .One, .Two, .Three, .Four, .Five, .Six, .Seven]
      (fun m : MortonIndex3D DynamicStorage3D => Reach3D c .all (.dynamic m)) (fun m n => Addressable c ((depth m + n) * 3)) D
      (InBox3D c o D) (near3 o fx fy fz) (hides3 fx fy fz)) :=
  ⟨fun _ => frontToBack_of (static_list3 hc) (static_desc3 hc) (fun _ hm k => static_room3 hc hm k)
      fun a b ha hb la lb e => front_box3 hc (static_wf3 hc a ha) (static_wf3 hc b hb) ((static_list3 hc).depth_eq a ha)
        ((static_list3 hc).depth_eq b hb) hD la lb o fx fy fz e,
    fun hw => frontToBack_of (dynamic_list3 hc hw) (dynamic_desc3 hc hw) (fun _ hm k => dynamic_room3 hc hm k)
      fun a b ha hb la lb e => front_box3 hc (dynamic_wf3 hc a ha) (dynamic_wf3 hc b hb) ((dynamic_list3 hc hw).depth_eq a ha)
        ((dynamic_list3 hc hw).depth_eq b hb) hD la lb o fx fy fz e⟩

end boxes

/-! ## Orders exist -/

/-- Client code: the cells from front to back, `(0..4).map(|i| Quadrant::try_from(i ^ mask))` with the number of the nearest cell as
mask. -/
def frontOrder2 (nearest : Quadrant) : Except Error (List Quadrant) :=
  (List.range 4).mapM fun i => Quadrant.tryFromUsize (i ^^^ nearest.toUsize)

/-- Client code: the same in 3D, `i` in `0..8`. -/
def frontOrder3 (nearest : Octant) : Except Error (List Octant) :=
  (List.range 8).mapM fun i => Octant.tryFromUsize (i ^^^ nearest.toUsize)

/-- For each ordering and each viewer there is a nearest cell, and `frontOrder2` lists the cells in such an order. -/
theorem C119_orders_exist_2D (o : QuadrantOrdering) (fx fy : Bool) : ∃ u order', quadrantX o u = fx ∧ quadrantY o u = fy ∧
    frontOrder2 u = .ok order' ∧ order'.Perm [Quadrant.Zero, .One, .Two, .Three] ∧ order'.Pairwise (near2 o fx fy) := by
  cases o <;> cases fx <;> cases fy <;> first
    | exact ⟨.Zero, _, by decide, by decide, rfl, by decide, by decide⟩ | exact ⟨.One, _, by decide, by decide, rfl, by decide, by decide⟩
    | exact ⟨.Two, _, by decide, by decide, rfl, by decide, by decide⟩ | exact ⟨.Three, _, by decide, by decide, rfl, by decide, by decide⟩

theorem C119_orders_exist_3D (o : OctantOrdering) (fx fy fz : Bool) : ∃ u order', octantX o u = fx ∧ octantY o u = fy ∧
    octantZ o u = fz ∧ frontOrder3 u = .ok order' ∧
    order'.Perm [Octant.Zero, .One, .Two, .Three, .Four, .Five, .Six, .Seven] ∧ order'.Pairwise (near3 o fx fy fz) := by
  cases o <;> cases fx <;> cases fy <;> cases fz <;> first
    | exact ⟨.Zero, _, by decide, by decide, by decide, rfl, by decide +kernel, by decide +kernel⟩
    | exact ⟨.One, _, by decide, by decide, by decide, rfl, by decide +kernel, by decide +kernel⟩
    | exact ⟨.Two, _, by decide, by decide, by decide, rfl, by decide +kernel, by decide +kernel⟩
    | exact ⟨.Three, _, by decide, by decide, by decide, rfl, by decide +kernel, by decide +kernel⟩
    | exact ⟨.Four, _, by decide, by decide, by decide, rfl, by decide +kernel, by decide +kernel⟩
    | exact ⟨.Five, _, by decide, by decide, by decide, rfl, by decide +kernel, by decide +kernel⟩
    | exact ⟨.Six, _, by decide, by decide, by decide, rfl, by decide +kernel, by decide +kernel⟩
    | exact ⟨.Seven, _, by decide, by decide, by decide, rfl, by decide +kernel, by decide +kernel⟩

/-! ## Examples -/

/-- A viewer at large x and small y: `One`, `Zero`, `Three`, `Two`. -/
example : frontOrder2 .One = .ok [.One, .Zero, .Three, .Two] := rfl

/-- The root is split, and `[One]` again. -/
example : subdivide x64 (fun m : MortonIndex2D (StaticStorage2D 16) => m.storage.depth = 0 ∨ m = ⟨⟨0x4000#16, 1⟩⟩)
      [.One, .Zero, .Three, .Two] 2 ⟨⟨0#16, 0⟩⟩ =
    .ok [⟨⟨0x5000#16, 2⟩⟩, ⟨⟨0x4000#16, 2⟩⟩, ⟨⟨0x7000#16, 2⟩⟩, ⟨⟨0x6000#16, 2⟩⟩, ⟨⟨0#16, 1⟩⟩, ⟨⟨0xC000#16, 1⟩⟩, ⟨⟨0x8000#16, 1⟩⟩] := by
  decide +kernel

example : ∃ ms ms', subdivide x64 (fun m : MortonIndex2D (StaticStorage2D 16) => m.storage.depth = 0 ∨ m = ⟨⟨0x4000#16, 1⟩⟩)
      [.Zero, .One, .Two, .Three] 2 ⟨⟨0#16, 0⟩⟩ = .ok ms ∧
    subdivide x64 (fun m : MortonIndex2D (StaticStorage2D 16) => m.storage.depth = 0 ∨ m = ⟨⟨0x4000#16, 1⟩⟩)
      [.One, .Zero, .Three, .Two] 2 ⟨⟨0#16, 0⟩⟩ = .ok ms' ∧ ms'.Perm ms := by
  obtain ⟨ms, ms', h1, h2, h3, -⟩ := (C119_front_to_back_2D (D := 3) x64_supported (by decide) .XY true false).1 16 [.One, .Zero, .Three, .Two]
    (by decide) (by decide) (fun m => m.storage.depth = 0 ∨ m = ⟨⟨0x4000#16, 1⟩⟩) ⟨⟨0#16, 0⟩⟩ 2
    (.staticTryFromSlice (cs := []) (by decide) (by rfl)) (by decide) (by decide)
  exact ⟨ms, ms', h1, h2, h3⟩

end MortonRs
