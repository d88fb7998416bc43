import Verif.Props.Regions

/-! # What lies between two nodes (C115)

The nodes between two others in the order, as few nodes as possible: a range of the order, for instance what is missing between
two neighbours of a sorted list of leaves, is turned into a list of subtrees. -/

namespace MortonRs

open MortonIndex VariableDepthMortonIndex

variable {M Cell : Type}

/-! ## Statement -/

/-- Client code: go down from `top`, split the nodes that have `a` or `b` properly below them, and keep the parts that come after
`a`, outside of its subtree, and before `b`. `n` levels are enough to reach `a` and `b`. -/
def fillGap [VariableDepthMortonIndex M Cell] (c : Cfg) (below less : M → M → Bool) (order : List Cell) (n : Nat) (top a b : M) :
    Res (List M) := do
  let ms ← subdivide c (fun x => below x a && !below a x || below x b && !below b x) order n top
  return ms.filter fun x => less a x && !below a x && less x b

/-- C115. `below` decides whether its second argument is in the subtree of the first, `less` is `<`. The result is a sorted list of
nodes none of which is below another one. They cover exactly the nodes that come after `a` and before `b` and neither are below `a`
nor have `b` below them. None of them can be replaced by a node above it, and there are few of them. -/
def FillsGaps [VariableDepthMortonIndex M Cell] [RustOrd M] (c : Cfg) (order : List Cell) (ok : M → Prop)
    (room : M → Nat → Prop) : Prop :=
  ∀ (below less : M → M → Bool),
    (∀ a b, ok a → ok b → (below a b = true ↔ InSubtree c a b)) →
    (∀ a b, ok a → ok b → (less a b = true ↔ RustOrd.lt c a b = .ok true)) →
  ∀ top a b n, ok top → ok a → ok b → InSubtree c top a → InSubtree c top b → room top n → depth a ≤ depth top + n →
    depth b ≤ depth top + n →
    ∃ xs, fillGap c below less order n top a b = .ok xs ∧ Region c ok xs ∧
      (∀ q, ok q → (Covers c xs q ↔ RustOrd.lt c a q = .ok true ∧ ¬ InSubtree c a q ∧
        RustOrd.lt c q b = .ok true ∧ ¬ InSubtree c q b)) ∧
      (∀ x ∈ xs, ∀ y, ok y → InSubtree c y x → depth y < depth x → InSubtree c y a ∨ InSubtree c y b) ∧
      xs.length ≤ order.length * ((depth a - depth top) + (depth b - depth top))

/-! ## On paths -/

section paths
variable {key : Cell → Nat}

theorem length_le_of_nodup_subset {α : Type} {l ys : List α} (hn : l.Nodup) (hs : ∀ x ∈ l, x ∈ ys) : l.length ≤ ys.length := by
  classical
  induction l generalizing ys with
  | nil => simp
  | cons x l ih =>
    obtain ⟨h1, h2⟩ := List.nodup_cons.mp hn
    have hx := hs x (by simp)
    have := ih (ys := ys.erase x) h2 (fun y hy =>
      (List.mem_erase_of_ne (fun e => by subst e; exact h1 hy)).mpr (hs y (List.mem_cons_of_mem _ hy)))
    rw [List.length_erase_of_mem hx] at this
    have := List.length_pos_of_mem hx
    simp only [List.length_cons]
    omega

theorem apart_irrefl {xs : List Cell} (h : Apart key xs xs) : False := h.2.1 (List.prefix_refl _)

/-- Children of the nodes on the way from level `d` to `xs`. -/
def sideNodes (order : List Cell) (d : Nat) (xs : List Cell) : List (List Cell) :=
  (List.range' d (xs.length - d)).flatMap fun i => order.map fun v => xs.take i ++ [v]

theorem length_sideNodes (order : List Cell) (d : Nat) (xs : List Cell) :
    (sideNodes order d xs).length = order.length * (xs.length - d) := by
  unfold sideNodes
  generalize xs.length - d = k
  induction k generalizing d with
  | zero => simp
  | succ k ih => rw [List.range'_succ, List.flatMap_cons, List.length_append, ih, List.length_map, Nat.mul_succ]; omega

theorem mem_sideNodes {order : List Cell} (hall : ∀ v, v ∈ order) {d : Nat} {xs ys : List Cell} (hd : d < ys.length)
    (hx : ys.dropLast <+: xs) (hne : ys.dropLast.length < xs.length) : ys ∈ sideNodes order d xs := by
  have hl : ys.dropLast.length = ys.length - 1 := List.length_dropLast
  have hy : ys ≠ [] := fun e => by simp [e] at hd
  refine List.mem_flatMap.mpr ⟨ys.dropLast.length, ?_, List.mem_map.mpr ⟨ys.getLast hy, hall _, ?_⟩⟩
  · rw [List.mem_range'_1]
    omega
  · rw [← List.prefix_iff_eq_take.mp hx, List.dropLast_concat_getLast]

end paths

/-! ## On indices -/

section indices
variable [VariableDepthMortonIndex M Cell] [RustOrd M] {c : Cfg} {ok : M → Prop} {p : M → List Cell} {wr : Cell → Cell}
  {key : Cell → Nat} {room room' : M → Nat → Prop} {limit : Option Nat} {order : List Cell}

theorem fillsGaps_of (hk : Function.Injective key) (h : ListLike c ok p wr) (hA : AncLike c ok p)
    (hD : DescLike c ok p room limit) (hC : CmpLike c key ok p) (hord : order.Pairwise (fun v w => key v < key w)) (v₀ : Cell)
    (hall : ∀ v, v ∈ order) (hr : ∀ m, ok m → ∀ k, room' m (k + 1) → room m 1 ∧ ¬ Exceeds limit ((p m).length + 1) ∧
      ∀ a v, ok a → p a = p m ++ [v] → room' a k) : FillsGaps c order ok room' := by
  intro below less hbelow hless top a b n htop ha hb hta htb hrt hla hlb
  have hin : ∀ {a b : M}, ok a → ok b → (InSubtree c a b ↔ p a <+: p b) := fun ha hb => inSubtree_iff hk h hA hC ha hb
  have hbl : ∀ a b, ok a → ok b → (below a b = true ↔ p a <+: p b) := fun a b ha hb => (hbelow a b ha hb).trans (hin ha hb)
  have hls : ∀ a b, ok a → ok b → (less a b = true ↔ pathCmp key (p a) (p b) = .lt) := fun a b ha hb =>
    (hless a b ha hb).trans (lt_iff_path hC ha hb)
  rw [hin htop ha] at hta
  rw [hin htop hb] at htb
  rw [h.depth_eq a ha, h.depth_eq top htop] at hla
  rw [h.depth_eq b hb, h.depth_eq top htop] at hlb
  have hnot : ∀ x y, ok x → ok y → ((!below x y) = true ↔ ¬ p x <+: p y) := fun x y hx hy => by
    rw [Bool.not_eq_true', Bool.eq_false_iff, ne_eq, hbl x y hx hy]
  have hsp : ∀ x, ok x → ((below x a && !below a x || below x b && !below b x) = true ↔
      (p x <+: p a ∧ ¬ p a <+: p x) ∨ p x <+: p b ∧ ¬ p b <+: p x) := by
    intro x hx
    rw [Bool.or_eq_true, Bool.and_eq_true, Bool.and_eq_true, hbl x a hx ha, hbl x b hx hb, hnot a x ha hx, hnot b x hb hx]
  have hkeep : ∀ x, ok x → ((less a x && !below a x && less x b) = true ↔
      (pathCmp key (p a) (p x) = .lt ∧ ¬ p a <+: p x) ∧ pathCmp key (p x) (p b) = .lt) := by
    intro x hx
    rw [Bool.and_eq_true, Bool.and_eq_true, hls a x ha hx, hnot a x ha hx, hls x b hx hb]
  -- what comes first is not above
  have hfirst : ∀ {xs ys : List Cell}, pathCmp key xs ys = .lt → ¬ ys <+: xs := fun {xs ys} e e' =>
    pathCmp_prefix (key := key) e' (by rw [← pathCmp_swap key, e]; rfl)
  have either : ∀ {xs ys : List Cell}, ¬ xs <+: ys → ¬ ys <+: xs → Apart key xs ys ∨ Apart key ys xs := by
    intro xs ys h1 h2
    by_cases hlt : pathCmp key xs ys = .lt
    · exact .inl ⟨hlt, h1, h2⟩
    · exact .inr (apart_of_le hk (fun e => hlt (by rw [← pathCmp_swap key, e]; rfl)) h2 h1)
  obtain ⟨ms, m1, m2⟩ := subdivide_subdivided (key := key) (room' := room')
    (split := fun x => below x a && !below a x || below x b && !below b x) hD hord hall
    (fun x y hx hy e => by rw [Bool.eq_iff_iff, hsp x hx, hsp y hy, e]) hr n top htop hrt
  -- the nodes kept are apart from both ends
  have hx : ∀ x ∈ ms.filter (fun x => less a x && !below a x && less x b),
      ok x ∧ Apart key (p a) (p x) ∧ Apart key (p x) (p b) ∧ p top <+: p x ∧
      ∀ y, ok y → p y <+: p x → (p y).length < (p x).length → p y <+: p a ∨ p y <+: p b := by
    intro x hx
    obtain ⟨hx1, hx2⟩ := List.mem_filter.mp hx
    obtain ⟨g1, g2, g3, g4, g5⟩ := m2.all x hx1
    obtain ⟨⟨k1, k2⟩, k3⟩ := (hkeep x g1).mp hx2
    have hnb : ¬ p x <+: p b := by
      intro e
      rcases g5 with g5 | g5
      · rw [Bool.eq_false_iff] at g5
        exact g5 ((hsp x g1).mpr (.inr ⟨e, hfirst k3⟩))
      · exact hfirst k3 (e.eq_of_length (by have := e.length_le; omega) ▸ List.prefix_refl _)
    refine ⟨g1, ⟨k1, k2, hfirst k1⟩, ⟨k3, hnb, hfirst k3⟩, g2, fun y hy e hl => ?_⟩
    rcases Nat.lt_or_ge (p y).length (p top).length with hyt | hyt
    · exact .inl ((List.prefix_of_prefix_length_le e g2 (Nat.le_of_lt hyt)).trans hta)
    · exact ((hsp y hy).mp (g4 y hy hyt e hl)).imp (·.1) (·.1)
  refine ⟨_, by unfold fillGap; rw [m1]; rfl, (region_iff_apart hk h hA hC).mpr ⟨fun x h' => (hx x h').1, m2.sorted.filter _⟩,
    fun q hq => ?_, fun x hx' y hy e hl => ?_, ?_⟩
  · rw [lt_iff_path hC ha hq, lt_iff_path hC hq hb, hin ha hq, hin hq hb]
    constructor
    · rintro ⟨x, hx', e⟩
      obtain ⟨x1, x2, x3, -⟩ := hx x hx'
      rw [hin x1 hq] at e
      have q1 := apart_extend hk x2 (List.prefix_refl _) e
      have q2 := apart_extend hk x3 e (List.prefix_refl _)
      exact ⟨q1.1, q1.2.1, q2.1, q2.2.1⟩
    · rintro ⟨q1, q2, q3, q4⟩
      have hqa : Apart key (p a) (p q) := ⟨q1, q2, hfirst q1⟩
      have hqb : Apart key (p q) (p b) := ⟨q3, q4, hfirst q3⟩
      -- `q` is below `top`, which has both ends below it
      have htq : p top <+: p q := by
        apply Classical.byContradiction
        intro hn
        have hqt : ¬ p q <+: p top := fun e => q4 (e.trans htb)
        rcases either hqt hn with e | e
        · have := (apart_extend hk e (List.prefix_refl _) hta).1
          rw [← pathCmp_swap key, q1] at this
          exact absurd this (by decide)
        · have := (apart_extend hk e htb (List.prefix_refl _)).1
          rw [← pathCmp_swap key, q3] at this
          exact absurd this (by decide)
      obtain ⟨t, ht⟩ := htq
      obtain ⟨x, hx1, hxq⟩ := m2.cover (t ++ List.replicate n v₀) (by simp)
      rw [← List.append_assoc, ht] at hxq
      obtain ⟨g1, g2, g3, g4, g5⟩ := m2.all x hx1
      have hle : (p x).length ≤ (p q).length := by
        apply Nat.le_of_not_lt
        intro hlt
        have hqx : p q <+: p x := List.prefix_of_prefix_length_le (List.prefix_append _ _) hxq (by omega)
        rcases (hsp q hq).mp (g4 q hq (by rw [← ht]; simp) hqx hlt) with e | e
        · exact hfirst q1 e.1
        · exact q4 e.1
      have hxq' : p x <+: p q := List.prefix_of_prefix_length_le hxq (List.prefix_append _ _) hle
      refine ⟨x, List.mem_filter.mpr ⟨hx1, (hkeep x g1).mpr ?_⟩, (hin g1 hq).mpr hxq'⟩
      -- `x` has neither end below it, nor is it below one
      have up : ∀ z, ok z → (p z).length ≤ (p top).length + n → ¬ p z <+: p q →
          (¬ (p x <+: p z ∧ ¬ p z <+: p x) ∨ (p x).length = (p top).length + n) → ¬ p x <+: p z := by
        intro z hz hl hzq hs e
        rcases hs with hs | hs
        · exact hs ⟨e, fun e' => hzq (e'.trans hxq')⟩
        · exact hzq ((e.eq_of_length (by have := e.length_le; omega)) ▸ hxq')
      have hs : ¬ ((p x <+: p a ∧ ¬ p a <+: p x) ∨ p x <+: p b ∧ ¬ p b <+: p x) ∨ (p x).length = (p top).length + n :=
        g5.imp (fun g5 e => by rw [Bool.eq_false_iff] at g5; exact g5 ((hsp x g1).mpr e)) id
      have xa : ¬ p x <+: p a := up a ha hla q2 (hs.imp (fun e e' => e (.inl e')) id)
      have xb : ¬ p x <+: p b := up b hb hlb hqb.2.2 (hs.imp (fun e e' => e (.inr e')) id)
      have ax : ¬ p a <+: p x := fun e => q2 (e.trans hxq')
      have bx : ¬ p b <+: p x := fun e => hqb.2.2 (e.trans hxq')
      refine ⟨⟨(either xa ax).elim (fun e => ?_) (·.1), ax⟩, (either xb bx).elim (·.1) (fun e => ?_)⟩
      · have := (apart_extend hk e hxq' (List.prefix_refl _)).1
        rw [← pathCmp_swap key, q1] at this
        exact absurd this (by decide)
      · have := (apart_extend hk e (List.prefix_refl _) hxq').1
        rw [← pathCmp_swap key, q3] at this
        exact absurd this (by decide)
  · obtain ⟨x1, -, -, -, x2⟩ := hx x hx'
    rw [hin hy x1] at e
    rw [h.depth_eq y hy, h.depth_eq x x1] at hl
    rw [hin hy ha, hin hy hb]
    exact x2 y hy e hl
  · rw [h.depth_eq a ha, h.depth_eq b hb, h.depth_eq top htop, Nat.mul_add, ← length_sideNodes, ← length_sideNodes,
      ← List.length_append, ← List.length_map (f := p)]
    refine length_le_of_nodup_subset ?_ ?_
    · rw [List.Nodup, List.pairwise_map]
      refine (m2.sorted.filter _).imp fun {x y} e (e' : p x = p y) => ?_
      rw [e'] at e
      exact apart_irrefl e
    · intro ys hys
      obtain ⟨x, hx', rfl⟩ := List.mem_map.mp hys
      obtain ⟨x1, x2, x3, x4, x5⟩ := hx x hx'
      have hlt : (p top).length < (p x).length := by
        refine Nat.lt_of_le_of_ne x4.length_le fun e => x2.2.2 ?_
        rw [← x4.eq_of_length e]
        exact hta
      obtain ⟨y, -, y2, y3⟩ := hA.withDepth_take h x1 (d := (p x).length - 1) (by omega)
      have hdl : p y = (p x).dropLast := by rw [y3, List.dropLast_eq_take]
      have hyx : (p x).dropLast <+: p x := List.dropLast_prefix _
      have hyl : (p x).dropLast.length = (p x).length - 1 := List.length_dropLast
      rw [List.mem_append]
      refine (x5 y y2 (by rw [hdl]; exact hyx) (by rw [hdl]; omega)).imp (fun e => ?_) (fun e => ?_)
      · rw [hdl] at e
        refine mem_sideNodes hall hlt e (Nat.lt_of_le_of_ne e.length_le fun e' => x2.2.1 ?_)
        rw [← e.eq_of_length e']
        exact hyx
      · rw [hdl] at e
        refine mem_sideNodes hall hlt e (Nat.lt_of_le_of_ne e.length_le fun e' => x3.2.2 ?_)
        rw [← e.eq_of_length e']
        exact hyx

end indices

/-! ## C115 -/

variable {c : Cfg}

theorem C115_gaps_2D (hc : c.Supported) :
    (∀ w, FillsGaps c [Quadrant.Zero, .One, .Two, .Three]
      (fun m : MortonIndex2D (StaticStorage2D w) => Reach2D c .all (.static w m)) (fun m n => depth m + n ≤ w / 2)) ∧
    (DynWrites c → FillsGaps c [Quadrant.Zero, .One, .Two, .Three]
      (fun m : MortonIndex2D DynamicStorage2D => Reach2D c .all (.dynamic m)) (fun m n => Addressable c ((depth m + n) * 2))) :=
  ⟨fun w => fillsGaps_of quadrantKey_inj (static_list2 hc) (static_anc2 hc) (static_desc2 hc) (static_cmp2 hc) (by decide) .Zero
      (fun v => by cases v <;> decide) (fun m hm k => static_room2 hc hm k),
    fun hw => fillsGaps_of quadrantKey_inj (dynamic_list2 hc hw) (dynamic_anc2 hc) (dynamic_desc2 hc hw) (dynamic_cmp2 hc)
      (by decide) .Zero (fun v => by cases v <;> decide) (fun m hm k => dynamic_room2 hc hm k)⟩

theorem C115_gaps_3D (hc : c.Supported) :
    (∀ w, FillsGaps c [Octant.Zero, .One, .Two, .Three, .Four, .Five, .Six, .Seven]
      (fun m : MortonIndex3D (StaticStorage3D w) => Reach3D c .all (.static w m)) (fun m n => depth m + n ≤ w / 3)) ∧
    (DynWrites c → FillsGaps c [Octant.Zero, .One, .Two, .Three, .Four, .Five, .Six, .Seven]
      (fun m : MortonIndex3D DynamicStorage3D => Reach3D c .all (.dynamic m)) (fun m n => Addressable c ((depth m + n) * 3))) :=
  ⟨fun w => fillsGaps_of octantKey_inj (static_list3 hc) (static_anc3 hc) (static_desc3 hc) (static_cmp3 hc) (by decide) .Zero
      (fun v => by cases v <;> decide) (fun m hm k => static_room3 hc hm k),
    fun hw => fillsGaps_of octantKey_inj (dynamic_list3 hc hw) (dynamic_anc3 hc) (dynamic_desc3 hc hw) (dynamic_cmp3 hc)
      (by decide) .Zero (fun v => by cases v <;> decide) (fun m hm k => dynamic_room3 hc hm k)⟩

/-! ## Examples -/

/-- Between `[Zero, Two]` and `[Three, One, Two]` lie `[Zero, Three]`, `[One]`, `[Two]`, `[Three, Zero]`, `[Three, One, Zero]` and
`[Three, One, One]`. -/
example : fillGap x64 exBelow2 exLess2 [Quadrant.Zero, .One, .Two, .Three] 3 ⟨⟨0#16, 0⟩⟩ ⟨⟨0x2000#16, 2⟩⟩ exS2 =
    .ok [⟨⟨0x3000#16, 2⟩⟩, ⟨⟨0x4000#16, 1⟩⟩, ⟨⟨0x8000#16, 1⟩⟩, ⟨⟨0xC000#16, 2⟩⟩, ⟨⟨0xD000#16, 3⟩⟩, ⟨⟨0xD400#16, 3⟩⟩] := by
  decide +kernel

/-- The theorem applied to them. -/
example : ∃ xs, fillGap x64 exBelow2 exLess2 [Quadrant.Zero, .One, .Two, .Three] 3 ⟨⟨0#16, 0⟩⟩ ⟨⟨0x2000#16, 2⟩⟩ exS2 = .ok xs ∧
    (∀ q, Reach2D x64 .all (.static 16 q) → (Covers x64 xs q ↔ RustOrd.lt x64 ⟨⟨0x2000#16, 2⟩⟩ q = .ok true ∧
      ¬ InSubtree x64 ⟨⟨0x2000#16, 2⟩⟩ q ∧ RustOrd.lt x64 q exS2 = .ok true ∧ ¬ InSubtree x64 q exS2)) ∧ xs.length ≤ 20 := by
  obtain ⟨xs, h1, -, h2, -, h3⟩ := (C115_gaps_2D x64_supported).1 16 exBelow2 exLess2 (fun a b _ _ => by simp [exBelow2])
    (fun a b _ _ => by simp [exLess2]) ⟨⟨0#16, 0⟩⟩ ⟨⟨0x2000#16, 2⟩⟩ exS2 3
    (.staticTryFromSlice (cs := []) (by decide) (by rfl)) (.staticTryFromSlice (cs := [.Zero, .Two]) (by decide) (by rfl))
    (exS2_reach _) (by decide +kernel) (by decide +kernel) (by decide) (by decide) (by decide)
  exact ⟨xs, h1, h2, h3⟩

/-- Dynamic octree nodes: from `[Five]` to `[Five, One, Six]`, which is below it, there is nothing to fill. -/
example : fillGap x64 (fun a b => decide (InSubtree x64 a b)) (fun a b => RustOrd.lt x64 a b == .ok true)
      [Octant.Zero, .One, .Two, .Three, .Four, .Five, .Six, .Seven] 2 (⟨⟨[0xA0#8], 1⟩⟩ : MortonIndex3D DynamicStorage3D)
      ⟨⟨[0xA0#8], 1⟩⟩ exD3 = .ok [] := by
  decide +kernel

/-- The theorem for dynamic octree nodes: at most 32 nodes fill the gap between `[Five, One, Six]` and `[Five, Two, Zero]`. -/
example : ∃ xs, fillGap x64 (fun a b => decide (InSubtree x64 a b)) (fun a b => RustOrd.lt x64 a b == .ok true)
      [Octant.Zero, .One, .Two, .Three, .Four, .Five, .Six, .Seven] 2 (⟨⟨[0xA0#8], 1⟩⟩ : MortonIndex3D DynamicStorage3D)
      exD3 ⟨⟨[0#8, 0xA8#8], 3⟩⟩ = .ok xs ∧ xs.length ≤ 32 := by
  obtain ⟨xs, h1, -, -, -, h3⟩ := (C115_gaps_3D x64_supported).2 x64_writes (fun a b => decide (InSubtree x64 a b))
    (fun a b => RustOrd.lt x64 a b == .ok true) (fun a b _ _ => by simp) (fun a b _ _ => by simp)
    ⟨⟨[0xA0#8], 1⟩⟩ exD3 ⟨⟨[0#8, 0xA8#8], 3⟩⟩ 2
    (.dynamicTryFromSlice (cs := [.Five]) (by unfold Addressable; decide) (by rfl)) (exD3_reach _)
    (.dynamicTryFromSlice (cs := [.Five, .Two, .Zero]) (by unfold Addressable; decide) (by rfl))
    (by decide +kernel) (by decide +kernel) (by unfold Addressable; decide) (by decide) (by decide)
  exact ⟨xs, h1, h3⟩

end MortonRs
