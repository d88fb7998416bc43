import Verif.Props.Nav2D
import Verif.Props.Nav3D
import Verif.Props.Order3D

/-! # What holds in spite of stray bits (C62-C64)

`==` compares bits that belong to no cell, so C11, C14, C15 and C16 fail for some histories. These are the
parts that hold for every history. -/

namespace MortonRs

open BitStorage MortonIndex VariableDepthMortonIndex

variable {M Cell : Type} {c : Cfg}

/-! ## Statements -/

/-- `a` and `b` show the same cells and `cmp` says `Equal`. -/
def SamePlace (c : Cfg) [MortonIndex M Cell] [RustOrd M] (a b : M) : Prop :=
  depth a = depth b ∧ (∀ l, getCellAtLevel c a l = getCellAtLevel c b l) ∧ RustOrd.cmp c a b = .ok .eq

/-- C62: `==` never confuses two indices: what it calls equal shows the same cells, compares as `Equal` and
hashes the same. -/
def EqIsSound (c : Cfg) [MortonIndex M Cell] [RustOrd M] (ok : M → Prop) : Prop :=
  ∀ a b, ok a → ok b → RustOrd.eq a b = true → SamePlace c a b ∧ RustOrd.hashInput a = RustOrd.hashInput b

/-- C62: `==` is an equivalence relation. -/
def EqIsEquivalence (M : Type) [RustOrd M] : Prop :=
  (∀ a : M, RustOrd.eq a a = true) ∧ (∀ a b : M, RustOrd.eq a b = RustOrd.eq b a) ∧
  ∀ a b d : M, RustOrd.eq a b = true → RustOrd.eq b d = true → RustOrd.eq a d = true

section
variable [VariableDepthMortonIndex M Cell] [RustOrd M]

/-- C63: down and up again. -/
def DownUp (c : Cfg) (ok : M → Prop) (room : M → Nat → Prop) : Prop :=
  ∀ m, ok m → ∀ (cs : List Cell) (h : 0 < cs.length), room m cs.length → ∀ k, descendant c m cs = .ok (some k) →
    ∃ q, ancestor c k ⟨cs.length, h⟩ = .ok (some q) ∧ SamePlace c q m

/-- C63: to a child and back. -/
def ChildUp (c : Cfg) (ok : M → Prop) (room : M → Nat → Prop) : Prop :=
  ∀ m, ok m → ∀ v : Cell, room m 1 → ∀ k, child c m v = .ok (some k) →
    ∃ q, parent c k = .ok (some q) ∧ SamePlace c q m

/-- C63: up and down again along the last cell. -/
def UpChild (c : Cfg) (ok : M → Prop) : Prop :=
  ∀ m, ok m → ∀ q, parent c m = .ok (some q) → ∃ v, getCellAtLevel c m (depth m - 1) = .ok v ∧
    ∃ k, child c q v = .ok (some k) ∧ SamePlace c k m

end

/-! ## Proofs -/

section
variable {ok : M → Prop} {p : M → List Cell} {wr : Cell → Cell} {key : Cell → Nat} {room : M → Nat → Prop}
  {limit : Option Nat}

theorem ListLike.samePlace [MortonIndex M Cell] [RustOrd M] (h : ListLike c ok p wr) (hC : CmpLike c key ok p) {a b : M}
    (ha : ok a) (hb : ok b) (e : p a = p b) : SamePlace c a b :=
  ⟨by rw [h.depth_eq a ha, h.depth_eq b hb, e], fun l => by rw [h.get_eq ha, h.get_eq hb, e],
    by rw [(hC a b ha hb).1, e, pathCmp_refl]⟩

/-- The list equality of good indices as an `==`. -/
@[reducible] noncomputable def pathEq [i : RustOrd M] (ok : M → Prop) (p : M → List Cell) : RustOrd M :=
  { i with eq := fun a b => @decide (ok a ∧ ok b ∧ p a = p b) (Classical.propDecidable _) }

theorem pathEq_like [RustOrd M] : @EqLike M Cell (pathEq ok p) ok p := by
  intro a b ha hb
  change @decide (ok a ∧ ok b ∧ p a = p b) (Classical.propDecidable _) = true ↔ _
  simp [ha, hb]

variable [VariableDepthMortonIndex M Cell] [RustOrd M]

theorem samePlace_of_pathEq (h : ListLike c ok p wr) (hC : CmpLike c key ok p) {a b : M}
    (e : (pathEq ok p).eq a b = true) : SamePlace c a b := by
  have e : ok a ∧ ok b ∧ p a = p b := @of_decide_eq_true _ (Classical.propDecidable _) e
  exact h.samePlace hC e.1 e.2.1 e.2.2

theorem DescLike.downUp (h : ListLike c ok p wr) (hA : AncLike c ok p) (hD : DescLike c ok p room limit)
    (hC : CmpLike c key ok p) : DownUp c ok room := by
  intro m hm cs h0 hr k hk
  obtain ⟨q, h1, h2⟩ := @DescLike.descendantAncestor _ _ _ _ _ _ _ _ (pathEq ok p) hA hD pathEq_like m hm cs h0 hr k hk
  exact ⟨q, h1, samePlace_of_pathEq h hC h2⟩

theorem DescLike.childUp (h : ListLike c ok p wr) (hA : AncLike c ok p) (hD : DescLike c ok p room limit)
    (hC : CmpLike c key ok p) : ChildUp c ok room := by
  intro m hm v hr k hk
  rw [parent_eq]
  exact hD.downUp h hA hC m hm [v] (by simp) hr k hk

theorem DescLike.upChild (h : ListLike c ok p wr) (hA : AncLike c ok p) (hD : DescLike c ok p room limit)
    (hC : CmpLike c key ok p) (hroom : ∀ q m : M, ok m → ok q → (p q).length + 1 = (p m).length → room q 1)
    (hlim : ∀ m : M, ok m → ¬ Exceeds limit (p m).length) : UpChild c ok := by
  intro m hm q hq
  obtain ⟨v, h1, k, h2, h3⟩ :=
    @DescLike.parentChild _ _ _ _ _ _ _ _ _ (pathEq ok p) h hA hD pathEq_like hroom hlim m hm q hq
  exact ⟨v, h1, k, h2, samePlace_of_pathEq h hC h3⟩

end

theorem eqIsSound_of [MortonIndex M Cell] [RustOrd M] {ok : M → Prop} (heq : ∀ a b : M, RustOrd.eq a b = true → a = b)
    (hC : ∀ a, ok a → RustOrd.cmp c a a = .ok .eq) : EqIsSound c ok := by
  intro a b ha hb e
  cases heq a b e
  exact ⟨⟨rfl, fun _ => rfl, hC a ha⟩, rfl⟩

theorem eqIsEquivalence_of [RustOrd M] (heq : ∀ a b : M, RustOrd.eq a b = true ↔ a = b) : EqIsEquivalence M := by
  refine ⟨fun a => (heq a a).mpr rfl, fun a b => ?_, fun a b d h1 h2 => ?_⟩
  · rw [Bool.eq_iff_iff, heq, heq]
    exact eq_comm
  · cases (heq a b).mp h1
    exact h2

theorem index_eq2 {S : Type} [RustOrd S] (h : ∀ a b : S, RustOrd.eq a b = true ↔ a = b) (a b : MortonIndex2D S) :
    RustOrd.eq a b = true ↔ a = b := by
  cases a; cases b
  rw [MortonIndex2D.mk.injEq]
  exact h _ _

theorem index_eq3 {S : Type} [RustOrd S] (h : ∀ a b : S, RustOrd.eq a b = true ↔ a = b) (a b : MortonIndex3D S) :
    RustOrd.eq a b = true ↔ a = b := by
  cases a; cases b
  rw [MortonIndex3D.mk.injEq]
  exact h _ _

theorem fixed_eq_self2 {w : Nat} (a b : MortonIndex2D (FixedDepthStorage2D w)) : RustOrd.eq a b = true ↔ a = b :=
  index_eq2 (fun _ _ => FixedDepthStorage2D.eq_iff_eq) a b
theorem static_eq_self2 {w : Nat} (a b : MortonIndex2D (StaticStorage2D w)) : RustOrd.eq a b = true ↔ a = b :=
  index_eq2 (fun _ _ => StaticStorage2D.eq_iff_eq) a b
theorem dynamic_eq_self2 (a b : MortonIndex2D DynamicStorage2D) : RustOrd.eq a b = true ↔ a = b :=
  index_eq2 (fun _ _ => DynamicStorage2D.eq_iff_eq) a b
theorem fixed_eq_self3 {w : Nat} (a b : MortonIndex3D (FixedDepthStorage3D w)) : RustOrd.eq a b = true ↔ a = b :=
  index_eq3 (fun _ _ => FixedDepthStorage3D.eq_iff_eq) a b
theorem static_eq_self3 {w : Nat} (a b : MortonIndex3D (StaticStorage3D w)) : RustOrd.eq a b = true ↔ a = b :=
  index_eq3 (fun _ _ => StaticStorage3D.eq_iff_eq) a b
theorem dynamic_eq_self3 (a b : MortonIndex3D DynamicStorage3D) : RustOrd.eq a b = true ↔ a = b :=
  index_eq3 (fun _ _ => DynamicStorage3D.eq_iff_eq) a b

/-! ## C62 -/

theorem C62_eq_is_sound_2D (hc : c.Supported) :
    (∀ w, EqIsSound c (fun _ : MortonIndex2D (FixedDepthStorage2D w) => True)) ∧
    (∀ w, EqIsSound c (fun m => Reach2D c .all (.static w m))) ∧
    EqIsSound c (fun m => Reach2D c .all (.dynamic m)) :=
  ⟨fun _ => eqIsSound_of (fun a b => (fixed_eq_self2 a b).mp) (fun _ _ => congrArg Except.ok Std.ReflCmp.compare_self),
    fun _ => eqIsSound_of (fun a b => (static_eq_self2 a b).mp) ((static_cmp2 hc).totalOrder quadrantKey_inj).1,
    eqIsSound_of (fun a b => (dynamic_eq_self2 a b).mp) ((dynamic_cmp2 hc).totalOrder quadrantKey_inj).1⟩

theorem C62_eq_is_sound_3D (hc : c.Supported) :
    (∀ w, EqIsSound c (fun _ : MortonIndex3D (FixedDepthStorage3D w) => True)) ∧
    (∀ w, EqIsSound c (fun m => Reach3D c .all (.static w m))) ∧
    EqIsSound c (fun m => Reach3D c .all (.dynamic m)) :=
  ⟨fun _ => eqIsSound_of (fun a b => (fixed_eq_self3 a b).mp) (fun _ _ => congrArg Except.ok Std.ReflCmp.compare_self),
    fun _ => eqIsSound_of (fun a b => (static_eq_self3 a b).mp) ((static_cmp3 hc).totalOrder octantKey_inj).1,
    eqIsSound_of (fun a b => (dynamic_eq_self3 a b).mp) ((dynamic_cmp3 hc).totalOrder octantKey_inj).1⟩

theorem C62_eq_is_equivalence :
    (∀ w, EqIsEquivalence (MortonIndex2D (FixedDepthStorage2D w)) ∧ EqIsEquivalence (MortonIndex2D (StaticStorage2D w)) ∧
      EqIsEquivalence (MortonIndex3D (FixedDepthStorage3D w)) ∧ EqIsEquivalence (MortonIndex3D (StaticStorage3D w))) ∧
    EqIsEquivalence (MortonIndex2D DynamicStorage2D) ∧ EqIsEquivalence (MortonIndex3D DynamicStorage3D) :=
  ⟨fun _ => ⟨eqIsEquivalence_of fixed_eq_self2, eqIsEquivalence_of static_eq_self2, eqIsEquivalence_of fixed_eq_self3,
    eqIsEquivalence_of static_eq_self3⟩, eqIsEquivalence_of dynamic_eq_self2, eqIsEquivalence_of dynamic_eq_self3⟩

/-- Also for an index with stray bits. -/
example : RustOrd.eq (⟨⟨0x80000001#32, 1⟩⟩ : MortonIndex3D (StaticStorage3D 32)) ⟨⟨0x80000001#32, 1⟩⟩ = true :=
  (C62_eq_is_equivalence.1 32).2.2.2.1 _

example : SamePlace x64 exD2 exD2 ∧ RustOrd.hashInput exD2 = RustOrd.hashInput exD2 :=
  (C62_eq_is_sound_2D x64_supported).2.2 exD2 exD2 (exD2_reach _) (exD2_reach _) (by decide)

/-- Two indices with different cells, neither of them free of stray bits. -/
example : RustOrd.eq (⟨⟨0x80000001#32, 1⟩⟩ : MortonIndex3D (StaticStorage3D 32)) ⟨⟨0x40000001#32, 1⟩⟩ = false := by
  have h := (C62_eq_is_sound_3D x64_supported).2.1 32 ⟨⟨0x80000001#32, 1⟩⟩ ⟨⟨0x40000001#32, 1⟩⟩
    (.staticFromRaw (d := 1) (by decide) (by decide) (.inl rfl))
    (.staticFromRaw (d := 1) (by decide) (by decide) (.inl rfl))
  cases e : RustOrd.eq (⟨⟨0x80000001#32, 1⟩⟩ : MortonIndex3D (StaticStorage3D 32)) ⟨⟨0x40000001#32, 1⟩⟩ with
  | false => rfl
  | true => exact absurd ((h e).1.2.1 0) (by decide +kernel)

/-! ## C63 -/

theorem C63_round_trips_2D (hc : c.Supported) :
    (∀ w, DownUp c (fun m => Reach2D c .all (.static w m)) (fun _ n => n < 2 ^ (c.ptrBits - 1)) ∧
      ChildUp c (fun m => Reach2D c .all (.static w m)) (fun _ _ => True) ∧
      UpChild c (fun m => Reach2D c .all (.static w m))) ∧
    (DynWrites c →
      DownUp c (fun m : MortonIndex2D DynamicStorage2D => Reach2D c .all (.dynamic m))
        (fun m n => Addressable c ((depth m + n) * 2)) ∧
      ChildUp c (fun m : MortonIndex2D DynamicStorage2D => Reach2D c .all (.dynamic m))
        (fun m n => Addressable c ((depth m + n) * 2)) ∧
      UpChild c (fun m => Reach2D c .all (.dynamic m))) := by
  refine ⟨fun w => ⟨?_, ?_, ?_⟩, fun hw => ⟨?_, ?_, ?_⟩⟩
  · exact (static_desc2 hc).downUp (static_list2 hc) (static_anc2 hc) (static_cmp2 hc)
  · exact fun m hm v _ => (static_desc2 hc).childUp (static_list2 hc) (static_anc2 hc) (static_cmp2 hc) m hm v
      (one_lt_isize hc (x := v))
  · exact (static_desc2 hc).upChild (static_list2 hc) (static_anc2 hc) (static_cmp2 hc)
      (fun _ _ _ _ _ => one_lt_isize hc (x := Quadrant.Zero)) (fun m hm => Nat.not_lt.mpr (static_depth_le2 hc m hm))
  · exact (dynamic_desc2 hc hw).downUp (dynamic_list2 hc hw) (dynamic_anc2 hc) (dynamic_cmp2 hc)
  · exact (dynamic_desc2 hc hw).childUp (dynamic_list2 hc hw) (dynamic_anc2 hc) (dynamic_cmp2 hc)
  · refine (dynamic_desc2 hc hw).upChild (dynamic_list2 hc hw) (dynamic_anc2 hc) (dynamic_cmp2 hc)
      (fun q m hm hq e => ?_) (fun _ _ h => h)
    have := dynamic_addr2 hc m hm
    rw [← e, ← (dynamic_list2 hc hw).depth_eq q hq] at this
    exact this

theorem C63_round_trips_3D (hc : c.Supported) :
    (∀ w, DownUp c (fun m => Reach3D c .all (.static w m)) (fun _ n => n < 2 ^ (c.ptrBits - 1)) ∧
      ChildUp c (fun m => Reach3D c .all (.static w m)) (fun _ _ => True) ∧
      UpChild c (fun m => Reach3D c .all (.static w m))) ∧
    (DynWrites c →
      DownUp c (fun m : MortonIndex3D DynamicStorage3D => Reach3D c .all (.dynamic m))
        (fun m n => Addressable c ((depth m + n) * 3)) ∧
      ChildUp c (fun m : MortonIndex3D DynamicStorage3D => Reach3D c .all (.dynamic m))
        (fun m n => Addressable c ((depth m + n) * 3)) ∧
      UpChild c (fun m => Reach3D c .all (.dynamic m))) := by
  refine ⟨fun w => ⟨?_, ?_, ?_⟩, fun hw => ⟨?_, ?_, ?_⟩⟩
  · exact (static_desc3 hc).downUp (static_list3 hc) (static_anc3 hc) (static_cmp3 hc)
  · exact fun m hm v _ => (static_desc3 hc).childUp (static_list3 hc) (static_anc3 hc) (static_cmp3 hc) m hm v
      (one_lt_isize hc (x := v))
  · exact (static_desc3 hc).upChild (static_list3 hc) (static_anc3 hc) (static_cmp3 hc)
      (fun _ _ _ _ _ => one_lt_isize hc (x := Octant.Zero)) (fun m hm => Nat.not_lt.mpr (static_depth_le3 hc m hm))
  · exact (dynamic_desc3 hc hw).downUp (dynamic_list3 hc hw) (dynamic_anc3 hc) (dynamic_cmp3 hc)
  · exact (dynamic_desc3 hc hw).childUp (dynamic_list3 hc hw) (dynamic_anc3 hc) (dynamic_cmp3 hc)
  · refine (dynamic_desc3 hc hw).upChild (dynamic_list3 hc hw) (dynamic_anc3 hc) (dynamic_cmp3 hc)
      (fun q m hm hq e => ?_) (fun _ _ h => h)
    have := dynamic_addr3 hc m hm
    rw [← e, ← (dynamic_list3 hc hw).depth_eq q hq] at this
    exact this

/-- `zeroed(4)` has one byte too many; C11 fails there. -/
example : ∃ q, parent x64 (⟨⟨[0x00#8, 0xC0#8, 0x00#8], 5⟩⟩ : MortonIndex2D DynamicStorage2D) = .ok (some q) ∧
    SamePlace x64 q (MortonIndex2D.dynamicZeroed 4) :=
  ((C63_round_trips_2D x64_supported).2 x64_writes).2.1 _ (.dynamicZeroed (by unfold Addressable; decide) (.inl rfl)) .Three
    (by unfold Addressable; decide) _ (by decide +kernel)

/-- An index with stray bits from `from_raw_index`. -/
example : ∃ q, parent x64 (⟨⟨0x94000001#32, 2⟩⟩ : MortonIndex3D (StaticStorage3D 32)) = .ok (some q) ∧
    SamePlace x64 q (⟨⟨0x80000001#32, 1⟩⟩ : MortonIndex3D (StaticStorage3D 32)) :=
  ((C63_round_trips_3D x64_supported).1 32).2.1 _ (.staticFromRaw (d := 1) (by decide) (by decide) (.inl rfl)) .Five
    trivial _ (by decide +kernel)

/-! ## C64 -/

theorem pathCmp_compare_div (x y : Nat) (n : Nat) :
    compare x y = match compare (x / 2 ^ n) (y / 2 ^ n) with
      | .eq => compare (x % 2 ^ n) (y % 2 ^ n)
      | o => o := by
  have hx := Nat.div_add_mod x (2 ^ n)
  have hy := Nat.div_add_mod y (2 ^ n)
  have hx' := Nat.mod_lt x (Nat.two_pow_pos n)
  have hy' := Nat.mod_lt y (Nat.two_pow_pos n)
  generalize x / 2 ^ n = a at *
  generalize y / 2 ^ n = b at *
  simp only [Nat.compare_eq_ite_lt]
  rcases Nat.lt_trichotomy a b with h | h | h
  · have : 2 ^ n * (a + 1) ≤ 2 ^ n * b := Nat.mul_le_mul_left _ h
    rw [Nat.mul_add, Nat.mul_one] at this
    rw [if_pos h, if_pos (by omega)]
  · subst h
    simp only [Nat.lt_irrefl, if_false]
    congr 1
    · apply propext; omega
    · congr 1; apply propext; omega
  · have : 2 ^ n * (b + 1) ≤ 2 ^ n * a := Nat.mul_le_mul_left _ h
    rw [Nat.mul_add, Nat.mul_one] at this
    rw [if_neg (by omega : ¬ a < b), if_pos h, if_neg (by omega : ¬ x < y), if_pos (by omega)]

/-- The comparison of two fixed-depth 3D indices, whatever bits they hold: by their cells, and between indices with
the same cells by the one or two bits that belong to no cell. -/
theorem C64_fixed_order_all_bits_3D (hc : c.Supported) {w : Nat} (hw : IntWidth w) (x y : BitVec w) :
    let a : MortonIndex3D (FixedDepthStorage3D w) := MortonIndex3D.fixedFromRawIndex x
    let b : MortonIndex3D (FixedDepthStorage3D w) := MortonIndex3D.fixedFromRawIndex y
    ∃ as bs, Shows c a as ∧ Shows c b bs ∧
      (as ≠ bs → RustOrd.cmp c a b = .ok (pathCmp octantKey as bs) ∧ RustOrd.eq a b = false) ∧
      (as = bs → RustOrd.cmp c a b = .ok (compare (x.toNat % 2 ^ (w % 3)) (y.toNat % 2 ^ (w % 3)))) ∧
      ∀ o, RustOrd.cmp c a b = .ok o → RustOrd.partialCmp c a b = .ok (some o) ∧
        RustOrd.lt c a b = .ok (decide (o = .lt)) ∧ RustOrd.le c a b = .ok (decide (o ≠ .gt)) ∧
        RustOrd.gt c a b = .ok (decide (o = .gt)) ∧ RustOrd.ge c a b = .ok (decide (o ≠ .lt)) ∧
        (o = .eq ↔ RustOrd.eq a b = true) := by
  intro a b
  have hra : Reach3D c .all (.fixed w a) := .fixedFromRaw hw (.inl rfl)
  have hrb : Reach3D c .all (.fixed w b) := .fixedFromRaw hw (.inl rfl)
  refine ⟨cells3 a, cells3 b, (fixed_list3 hc).shows hra, (fixed_list3 hc).shows hrb, ?_⟩
  have hk : w / dim Octant * dim Octant ≤ w := Nat.div_mul_le_self _ _
  have hm : w - w / 3 * 3 = w % 3 := by omega
  have htop := compare_top a.storage b.storage rfl (w / 3) hk
  have hcmp : RustOrd.cmp c a b = .ok (compare x.toNat y.toNat) := rfl
  have hops : ∀ o, RustOrd.cmp c a b = .ok o → RustOrd.partialCmp c a b = .ok (some o) ∧
      RustOrd.lt c a b = .ok (decide (o = .lt)) ∧ RustOrd.le c a b = .ok (decide (o ≠ .gt)) ∧
      RustOrd.gt c a b = .ok (decide (o = .gt)) ∧ RustOrd.ge c a b = .ok (decide (o ≠ .lt)) ∧
      (o = .eq ↔ RustOrd.eq a b = true) := by
    intro o ho
    obtain rfl := Except.ok.inj (hcmp.symm.trans ho)
    have hpart : RustOrd.partialCmp c a b = .ok (some (compare x.toNat y.toNat)) := rfl
    have heq : RustOrd.eq a b = true ↔ x = y := by
      rw [fixed_eq_self3]
      exact ⟨fun h => congrArg (fun m : MortonIndex3D (FixedDepthStorage3D w) => m.storage.bits) h, fun h => by subst h; rfl⟩
    refine ⟨hpart, ?_, ?_, ?_, ?_, ?_⟩
    · rw [RustOrd.lt, hpart]; cases compare x.toNat y.toNat <;> rfl
    · rw [RustOrd.le, hpart]; cases compare x.toNat y.toNat <;> rfl
    · rw [RustOrd.gt, hpart]; cases compare x.toNat y.toNat <;> rfl
    · rw [RustOrd.ge, hpart]; cases compare x.toNat y.toNat <;> rfl
    · rw [heq, Nat.compare_eq_eq]
      exact ⟨BitVec.eq_of_toNat_eq, fun h => by rw [h]⟩
  have hp : compare (x.toNat / 2 ^ (w % 3)) (y.toNat / 2 ^ (w % 3)) = pathCmp octantKey (cells3 a) (cells3 b) := by
    rw [octantKey_fun, ← hm]
    exact htop
  refine ⟨?_, ?_, hops⟩ <;> rw [hcmp, pathCmp_compare_div _ _ (w % 3), hp]
  · intro hne
    refine ⟨?_, ?_⟩
    · cases e : pathCmp octantKey (cells3 a) (cells3 b) with
      | eq => exact absurd ((pathCmp_eq_iff octantKey octantKey_inj _ _).mp e) hne
      | lt => rfl
      | gt => rfl
    · cases e : RustOrd.eq a b with
      | false => rfl
      | true => exact absurd (by rw [(fixed_eq_self3 a b).mp e]) hne
  · intro he
    rw [he, pathCmp_refl]

/-- Same cells, different unused bits. -/
example : RustOrd.cmp x64 (MortonIndex3D.fixedFromRawIndex 0xA7000001#32 : MortonIndex3D _)
    (MortonIndex3D.fixedFromRawIndex 0xA7000002#32) = .ok .lt := by
  obtain ⟨as, bs, h1, h2, -, h4, -⟩ := C64_fixed_order_all_bits_3D x64_supported (w := 32) (by decide) 0xA7000001#32 0xA7000002#32
  refine h4 (shows_unique h1 ⟨h2.1, fun l hl => ?_⟩)
  rw [← h2.2 l hl]
  have hl : l < 10 := by rw [← h2.1] at hl; exact hl
  have key : ∀ l, l < 10 → getCellAtLevel x64 (MortonIndex3D.fixedFromRawIndex 0xA7000001#32 : MortonIndex3D _) l =
      getCellAtLevel x64 (MortonIndex3D.fixedFromRawIndex 0xA7000002#32 : MortonIndex3D _) l := by decide +kernel
  exact key l hl

end MortonRs
