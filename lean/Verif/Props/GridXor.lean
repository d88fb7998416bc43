import Verif.Props.SharedLevels
import Verif.Props.Space

/-! # Shared levels from grid positions (C127)

How many levels two nodes have in common is seen from the first bit at which their grid positions differ. -/

namespace MortonRs

open BitStorage MortonIndex

variable {c : Cfg}

/-! ## Statement -/

/-- `usize::BITS - v.leading_zeros()`: the number of bits up to the highest one that is set. -/
def bitLength (n : Nat) : Nat := if n = 0 then 0 else Nat.log2 n + 1

/-- Client code: shifts the position of the deeper index up to the depth of the other one; the highest bit that differs on any axis
gives the level. -/
def sharedInGrid2D {S : Type} [Storage S Quadrant] [BitStorage S Quadrant] (c : Cfg) (o : QuadrantOrdering) (a b : MortonIndex2D S) :
    Res Nat := do
  let n := min (depth a) (depth b)
  if n = 0 then return 0
  else
    let u ← a.toGridIndex c o
    let v ← b.toGridIndex c o
    let x := (← shr c u.x (depth a - n)) ^^^ (← shr c v.x (depth b - n))
    let y := (← shr c u.y (depth a - n)) ^^^ (← shr c v.y (depth b - n))
    usub c n (bitLength (x ||| y).toNat)

/-- The same in 3D. -/
def sharedInGrid3D {S : Type} [Storage S Octant] [BitStorage S Octant] (c : Cfg) (o : OctantOrdering) (a b : MortonIndex3D S) :
    Res Nat := do
  let n := min (depth a) (depth b)
  if n = 0 then return 0
  else
    let u ← a.toGridIndex c o
    let v ← b.toGridIndex c o
    let x := (← shr c u.x (depth a - n)) ^^^ (← shr c v.x (depth b - n))
    let y := (← shr c u.y (depth a - n)) ^^^ (← shr c v.y (depth b - n))
    let z := (← shr c u.z (depth a - n)) ^^^ (← shr c v.z (depth b - n))
    usub c n (bitLength (x ||| y ||| z).toNat)

/-- C127. `shared` returns the number of levels on which the cells are the same, from the first level on. -/
def FindsShared {M Cell : Type} [MortonIndex M Cell] (c : Cfg) (ok : M → Prop) (shared : M → M → Res Nat) : Prop :=
  ∀ a b, ok a → ok b → depth a ≤ c.ptrBits → depth b ≤ c.ptrBits → ∃ n, shared a b = .ok n ∧ n ≤ depth a ∧ n ≤ depth b ∧
    (∀ l, l < n → getCellAtLevel c a l = getCellAtLevel c b l) ∧
    (n < depth a → n < depth b → getCellAtLevel c a n ≠ getCellAtLevel c b n)

/-! ## Numbers -/

theorem bitLength_le_iff {n j : Nat} : bitLength n ≤ j ↔ n < 2 ^ j := by
  unfold bitLength
  by_cases h : n = 0
  · simp [h, Nat.two_pow_pos]
  · rw [if_neg h, ← Nat.log2_lt h]
    omega

theorem xor_lt_iff {u v j : Nat} : u ^^^ v < 2 ^ j ↔ u / 2 ^ j = v / 2 ^ j := by
  rw [← Nat.div_eq_zero_iff_lt (Nat.two_pow_pos j), ← Nat.shiftRight_eq_div_pow, ← Nat.shiftRight_eq_div_pow, ← Nat.shiftRight_eq_div_pow,
    Nat.shiftRight_xor_distrib]
  constructor
  · intro h
    rw [← Nat.xor_zero (u >>> j), ← Nat.xor_self (v >>> j), ← Nat.xor_assoc, h, Nat.zero_xor]
  · intro h
    rw [h, Nat.xor_self]

theorem or_lt_iff {u v j : Nat} : u ||| v < 2 ^ j ↔ u < 2 ^ j ∧ v < 2 ^ j :=
  ⟨fun h => ⟨Nat.lt_of_le_of_lt Nat.left_le_or h, Nat.lt_of_le_of_lt Nat.right_le_or h⟩, fun h => Nat.or_lt_two_pow h.1 h.2⟩

variable {Cell : Type}

/-- One axis: the positions agree above the last `n - k` bits exactly if the first `k` cells agree on the axis. -/
theorem axis_agree {f : Cell → Bool} {as bs : List Cell} {n k : Nat} (ha : n ≤ as.length) (hb : n ≤ bs.length) (hk : k ≤ n) :
    (binary (as.map f) / 2 ^ (as.length - n)) ^^^ (binary (bs.map f) / 2 ^ (bs.length - n)) < 2 ^ (n - k) ↔
      (as.take k).map f = (bs.take k).map f := by
  rw [xor_lt_iff, binary_map_take f rfl ha, binary_map_take f rfl hb,
    binary_map_take f (List.length_take_of_le ha) hk, binary_map_take f (List.length_take_of_le hb) hk, List.take_take, List.take_take,
    Nat.min_eq_left hk]
  constructor
  · exact binary_inj (by simp; omega)
  · exact congrArg _

theorem common_eq_of [DecidableEq Cell] {as bs : List Cell} {d : Nat}
    (h : ∀ k, k ≤ min as.length bs.length → (d < 2 ^ (min as.length bs.length - k) ↔ as.take k = bs.take k)) :
    bitLength d ≤ min as.length bs.length ∧ min as.length bs.length - bitLength d = common as bs := by
  have h0 : bitLength d ≤ min as.length bs.length := bitLength_le_iff.mpr ((h 0 (Nat.zero_le _)).mpr rfl)
  refine ⟨h0, ?_⟩
  have key : ∀ k, k ≤ min as.length bs.length - bitLength d ↔ k ≤ common as bs := by
    intro k
    rw [le_common_iff]
    by_cases hk : k ≤ min as.length bs.length
    · have := h k hk
      rw [← bitLength_le_iff] at this
      constructor
      · intro e; exact ⟨by omega, by omega, this.mp (by omega)⟩
      · intro e; have := this.mpr e.2.2; omega
    · omega
  exact Nat.le_antisymm ((key _).mp (Nat.le_refl _)) ((key _).mpr (Nat.le_refl _))

theorem map_pair_inj {f g : Cell → Bool} (hfg : ∀ a b, f a = f b → g a = g b → a = b) : ∀ {as bs : List Cell},
    (as.map f = bs.map f ∧ as.map g = bs.map g ↔ as = bs)
  | [], [] => by simp
  | [], _ :: _ => by simp
  | _ :: _, [] => by simp
  | a :: as, b :: bs => by
    simp only [List.map_cons, List.cons.injEq]
    rw [← map_pair_inj hfg (as := as) (bs := bs)]
    exact ⟨fun ⟨⟨h1, h2⟩, h3, h4⟩ => ⟨hfg a b h1 h3, h2, h4⟩, fun ⟨h1, h2, h3⟩ => ⟨⟨by rw [h1], h2⟩, by rw [h1], h3⟩⟩

theorem map_triple_inj {f g e : Cell → Bool} (hfg : ∀ a b, f a = f b → g a = g b → e a = e b → a = b) : ∀ {as bs : List Cell},
    ((as.map f = bs.map f ∧ as.map g = bs.map g) ∧ as.map e = bs.map e ↔ as = bs)
  | [], [] => by simp
  | [], _ :: _ => by simp
  | _ :: _, [] => by simp
  | a :: as, b :: bs => by
    simp only [List.map_cons, List.cons.injEq]
    rw [← map_triple_inj hfg (as := as) (bs := bs)]
    exact ⟨fun ⟨⟨⟨h1, h2⟩, h3, h4⟩, h5, h6⟩ => ⟨hfg a b h1 h3 h5, ⟨h2, h4⟩, h6⟩,
      fun ⟨h1, ⟨h2, h3⟩, h4⟩ => ⟨⟨⟨by rw [h1], h2⟩, by rw [h1], h3⟩, by rw [h1], h4⟩⟩

theorem quadrant_axes_inj (o : QuadrantOrdering) : ∀ a b, quadrantX o a = quadrantX o b → quadrantY o a = quadrantY o b → a = b := by
  intro a b; cases o <;> cases a <;> cases b <;> decide

theorem octant_axes_inj (o : OctantOrdering) : ∀ a b, octantX o a = octantX o b → octantY o a = octantY o b →
    octantZ o a = octantZ o b → a = b := by
  intro a b; cases o <;> cases a <;> cases b <;> decide

/-! ## Indices -/

theorem findsShared2_of {S : Type} [Storage S Quadrant] [BitStorage S Quadrant] (hc : c.Supported) {ok : MortonIndex2D S → Prop}
    {wr : Quadrant → Quadrant} (h : ListLike c ok (fun m => path m.storage) wr) (hW : ∀ m, ok m → WF c m.storage)
    (o : QuadrantOrdering) : FindsShared c ok (sharedInGrid2D c o) := by
  intro a b ha hb da db
  obtain ⟨n, e, hn⟩ := countsShared_of h a b ha hb
  refine ⟨n, ?_, hn⟩
  have e' := sharedLevels_common h ha hb
  rw [e] at e'
  cases e'
  have la := h.depth_eq a ha
  have lb := h.depth_eq b hb
  obtain ⟨u, u1, u2, u3⟩ := toGridIndex_binary2 hc (hW a ha) da o
  obtain ⟨v, v1, v2, v3⟩ := toGridIndex_binary2 hc (hW b hb) db o
  unfold sharedInGrid2D
  simp only []
  by_cases h0 : min (depth a) (depth b) = 0
  · rw [if_pos h0]
    have := hn.1
    have := hn.2.1
    rw [show common (path a.storage) (path b.storage) = 0 by omega]
    rfl
  · have s1 : depth a - min (depth a) (depth b) < c.ptrBits := by omega
    have s2 : depth b - min (depth a) (depth b) < c.ptrBits := by omega
    rw [if_neg h0, u1, ok_bind, v1, ok_bind]
    simp only [shr, s1, s2, if_true, ok_bind]
    have key := common_eq_of (as := path a.storage) (bs := path b.storage)
      (d := (((u.x >>> (depth a - min (depth a) (depth b))) ^^^ (v.x >>> (depth b - min (depth a) (depth b)))) |||
        ((u.y >>> (depth a - min (depth a) (depth b))) ^^^ (v.y >>> (depth b - min (depth a) (depth b))))).toNat) fun k hk => by
      rw [← map_pair_inj (quadrant_axes_inj o), BitVec.toNat_or, BitVec.toNat_xor, BitVec.toNat_xor, BitVec.toNat_ushiftRight,
        BitVec.toNat_ushiftRight, BitVec.toNat_ushiftRight, BitVec.toNat_ushiftRight, u2, u3, v2, v3, or_lt_iff, la, lb]
      simp only [Nat.shiftRight_eq_div_pow]
      rw [axis_agree (by omega) (by omega) hk, axis_agree (by omega) (by omega) hk]
    rw [← la, ← lb] at key
    rw [usub_ok key.1, key.2]

theorem findsShared3_of {S : Type} [Storage S Octant] [BitStorage S Octant] (hc : c.Supported) {ok : MortonIndex3D S → Prop}
    {wr : Octant → Octant} (h : ListLike c ok (fun m => path m.storage) wr) (hW : ∀ m, ok m → WF c m.storage)
    (o : OctantOrdering) : FindsShared c ok (sharedInGrid3D c o) := by
  intro a b ha hb da db
  obtain ⟨n, e, hn⟩ := countsShared_of h a b ha hb
  refine ⟨n, ?_, hn⟩
  have e' := sharedLevels_common h ha hb
  rw [e] at e'
  cases e'
  have la := h.depth_eq a ha
  have lb := h.depth_eq b hb
  obtain ⟨u, u1, u2, u3, u4⟩ := toGridIndex_binary3 hc (hW a ha) da o
  obtain ⟨v, v1, v2, v3, v4⟩ := toGridIndex_binary3 hc (hW b hb) db o
  unfold sharedInGrid3D
  simp only []
  by_cases h0 : min (depth a) (depth b) = 0
  · rw [if_pos h0]
    have := hn.1
    have := hn.2.1
    rw [show common (path a.storage) (path b.storage) = 0 by omega]
    rfl
  · have s1 : depth a - min (depth a) (depth b) < c.ptrBits := by omega
    have s2 : depth b - min (depth a) (depth b) < c.ptrBits := by omega
    rw [if_neg h0, u1, ok_bind, v1, ok_bind]
    simp only [shr, s1, s2, if_true, ok_bind]
    have key := common_eq_of (as := path a.storage) (bs := path b.storage)
      (d := (((u.x >>> (depth a - min (depth a) (depth b))) ^^^ (v.x >>> (depth b - min (depth a) (depth b)))) |||
        ((u.y >>> (depth a - min (depth a) (depth b))) ^^^ (v.y >>> (depth b - min (depth a) (depth b)))) |||
        ((u.z >>> (depth a - min (depth a) (depth b))) ^^^ (v.z >>> (depth b - min (depth a) (depth b))))).toNat) fun k hk => by
      rw [← map_triple_inj (octant_axes_inj o), BitVec.toNat_or, BitVec.toNat_or, BitVec.toNat_xor, BitVec.toNat_xor, BitVec.toNat_xor]
      simp only [BitVec.toNat_ushiftRight]
      rw [u2, u3, u4, v2, v3, v4, or_lt_iff, or_lt_iff, la, lb]
      simp only [Nat.shiftRight_eq_div_pow]
      rw [axis_agree (by omega) (by omega) hk, axis_agree (by omega) (by omega) hk, axis_agree (by omega) (by omega) hk]
    rw [← la, ← lb] at key
    rw [usub_ok key.1, key.2]

/-! ## C127 -/

/-- C127 in 2D. -/
theorem C127_grid_xor_2D (hc : c.Supported) (o : QuadrantOrdering) :
    (∀ w, FindsShared c (fun m : MortonIndex2D (FixedDepthStorage2D w) => Reach2D c .all (.fixed w m)) (sharedInGrid2D c o)) ∧
    (∀ w, FindsShared c (fun m : MortonIndex2D (StaticStorage2D w) => Reach2D c .all (.static w m)) (sharedInGrid2D c o)) ∧
    FindsShared c (fun m : MortonIndex2D DynamicStorage2D => Reach2D c .all (.dynamic m)) (sharedInGrid2D c o) :=
  ⟨fun _ => findsShared2_of hc (fixed_list2 hc) (fixed_wf2 hc) o, fun _ => findsShared2_of hc (static_list2 hc) (static_wf2 hc) o,
    findsShared2_of hc (dynamic_list2' hc) (dynamic_wf2 hc) o⟩

/-- C127 in 3D. -/
theorem C127_grid_xor_3D (hc : c.Supported) (o : OctantOrdering) :
    (∀ w, FindsShared c (fun m : MortonIndex3D (FixedDepthStorage3D w) => Reach3D c .all (.fixed w m)) (sharedInGrid3D c o)) ∧
    (∀ w, FindsShared c (fun m : MortonIndex3D (StaticStorage3D w) => Reach3D c .all (.static w m)) (sharedInGrid3D c o)) ∧
    FindsShared c (fun m : MortonIndex3D DynamicStorage3D => Reach3D c .all (.dynamic m)) (sharedInGrid3D c o) :=
  ⟨fun _ => findsShared3_of hc (fixed_list3 hc) (fixed_wf3 hc) o, fun _ => findsShared3_of hc (static_list3 hc) (static_wf3 hc) o,
    findsShared3_of hc (dynamic_list3' hc) (dynamic_wf3 hc) o⟩

/-! ## Examples -/

/-- `[Three, One, Two]` (`exS2`) is at (6, 5), `[Three, Two]` at (2, 3). Shifted up to two levels these are (3, 2) and (2, 3): one level
is shared. -/
example : sharedInGrid2D x64 .XY exS2 ⟨⟨0xE000#16, 2⟩⟩ = .ok 1 ∧ sharedInGrid2D x64 .YX exS2 ⟨⟨0xD000#16, 2⟩⟩ = .ok 2 := by
  decide +kernel

example : getCellAtLevel x64 exS2 0 = getCellAtLevel x64 (⟨⟨0xE000#16, 2⟩⟩ : MortonIndex2D (StaticStorage2D 16)) 0 ∧
    getCellAtLevel x64 exS2 1 ≠ getCellAtLevel x64 (⟨⟨0xE000#16, 2⟩⟩ : MortonIndex2D (StaticStorage2D 16)) 1 := by
  obtain ⟨n, e, -, -, h1, h2⟩ := (C127_grid_xor_2D x64_supported .XY).2.1 16 exS2 ⟨⟨0xE000#16, 2⟩⟩ (exS2_reach _)
    (.staticTryFromSlice (cs := [.Three, .Two]) (by decide) (by rfl)) (by decide) (by decide)
  have e' : sharedInGrid2D x64 .XY exS2 ⟨⟨0xE000#16, 2⟩⟩ = .ok 1 := by decide +kernel
  rw [e] at e'
  cases e'
  exact ⟨h1 0 (by decide), h2 (by decide) (by decide)⟩

/-- The dynamic index `[Five, One, Six]` (`exD3`) shares all its levels with itself. -/
example : ∃ n, sharedInGrid3D x64 .ZXY exD3 exD3 = .ok n ∧ n = 3 := by
  obtain ⟨n, e, h1, h2, h3, h4⟩ := (C127_grid_xor_3D x64_supported .ZXY).2.2 exD3 exD3 (exD3_reach _) (exD3_reach _) (by decide) (by decide)
  refine ⟨n, e, ?_⟩
  have h5 : ¬ n < 3 := fun h => h4 h h rfl
  have h6 : n ≤ 3 := h1
  omega

end MortonRs
