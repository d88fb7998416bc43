import Verif.Model.Containers3D
import Verif.Lemmas.Order
import Verif.Lemmas.Ops3D

/-! # Containers known only by their contract

What `FixedDepthStorage{2D,3D}<B>` and `StaticStorage{2D,3D}<B>` need to know about their container `B`. -/

namespace MortonRs

/-- The contract of `FixedStorageType` (`indices/mod.rs` 38-50: "generalize unsigned integer types with an arbitrary number of
bits"): on the targets picked out by `on`, a value of the container is a number `val` of `BITS` bits, and the functions of `Bits`,
`Ord`, `Eq` and `Default` are the ones of that number. Conversions are only required to keep numbers that fit. -/
class LawfulContainer (B : Type) [FixedStorageType B] where
  val : B → Nat
  on : Cfg → Prop
  usize : ∀ {c}, on c → Bits.BITS B < 2 ^ c.ptrBits
  val_lt : ∀ b : B, val b < 2 ^ Bits.BITS B
  default : val FixedStorageType.default = 0
  get : ∀ {c}, on c → ∀ (b : B) (s e : Nat), s ≤ e → e ≤ Bits.BITS B →
    ∃ r, Bits.getBits c b ⟨s, e⟩ = .ok r ∧ val r = val b / 2 ^ s % 2 ^ (e - s)
  set : ∀ {c}, on c → ∀ (b v : B) (s e : Nat), s < e → e ≤ Bits.BITS B → val v < 2 ^ (e - s) →
    ∃ r, Bits.setBits c b ⟨s, e⟩ v = .ok r ∧
      ∀ i, (val r).testBit i = if s ≤ i ∧ i < e then (val v).testBit (i - s) else (val b).testBit i
  asU8 : ∀ b : B, val b < 256 → Bits.asU8 b = .ok (BitVec.ofNat 8 (val b))
  fromUN : ∀ {c}, on c → ∀ {n} (x : BitVec n), x.toNat < 2 ^ Bits.BITS B → val (Bits.fromUN c x : B) = x.toNat
  cmp : ∀ {c}, on c → ∀ a b : B, RustOrd.cmp c a b = .ok (compare (val a) (val b))
  partialCmp : ∀ {c}, on c → ∀ a b : B, RustOrd.partialCmp c a b = .ok (some (compare (val a) (val b)))
  eq : ∀ a b : B, RustOrd.eq a b = true ↔ val a = val b
  hash : ∀ a b : B, val a = val b → RustOrd.hashInput a = RustOrd.hashInput b

/-- The part of the contract about bytes, needed for the conversions from and to dynamic indices: `as_u8_slice` is the value in
native byte order, `from_u8_slice` reads it back from `BITS / 8` bytes, missing ones filled with zeros behind the given ones
(`number.rs` 113-115). -/
class LawfulBytes (B : Type) [FixedStorageType B] extends LawfulContainer B where
  mod8 : Bits.BITS B % 8 = 0
  asSlice : ∀ {c}, on c → ∀ b : B, Bits.asU8Slice c b = bytesOf c (BitVec.ofNat (Bits.BITS B) (val b))
  fromSlice : ∀ {c}, on c → ∀ bytes : List (BitVec 8), bytes.length ≤ Bits.BITS B / 8 →
    val (Bits.fromU8Slice c bytes .LittleEndian : B) = leValue bytes ∧
    val (Bits.fromU8Slice c bytes .BigEndian : B) =
      leValue (bytes ++ List.replicate (Bits.BITS B / 8 - bytes.length) 0#8).reverse

open LawfulContainer

/-- The cells a container holds: the number `n` of them, digits of the value from the most significant end. -/
def containerCells (Cell : Type) [LawfulDim Cell] {B : Type} [FixedStorageType B] [LawfulContainer B] (n : Nat) (b : B) : List Cell :=
  (List.range n).map fun l => LawfulDim.ofNat (val b / 2 ^ (Bits.BITS B - (l + 1) * dim Cell) % 2 ^ dim Cell)

section
variable {B : Type} [FixedStorageType B] [LawfulContainer B] {c : Cfg} {Cell : Type} [LawfulDim Cell]

theorem containerGet_ok (hf : on B c) (b : B) (l : Nat) (hl : (l + 1) * dim Cell ≤ Bits.BITS B) :
    FixedDepthStorage.getCellAtLevelUnchecked c (Bits.BITS B) b l =
      .ok (LawfulDim.ofNat (digit (dim Cell) (val b) (Bits.BITS B) l) : Cell) := by
  have hu := usize hf
  have hD := dim_pos Cell
  have hD3 := dim_le Cell
  have hlw : l + 1 ≤ (l + 1) * dim Cell := Nat.le_mul_of_pos_right _ hD
  have hDl : dim Cell ≤ (l + 1) * dim Cell := Nat.le_mul_of_pos_left _ (by omega)
  have a1 : l + 1 < 2 ^ c.ptrBits := by omega
  have a2 : (l + 1) * dim Cell < 2 ^ c.ptrBits := by omega
  have a3 : Bits.BITS B - (l + 1) * dim Cell + dim Cell < 2 ^ c.ptrBits := by omega
  obtain ⟨y, h1, h2⟩ := get hf b (Bits.BITS B - (l + 1) * dim Cell) (Bits.BITS B - (l + 1) * dim Cell + dim Cell)
    (by omega) (by omega)
  rw [Nat.add_sub_cancel_left] at h2
  have h2' : val y = digit (dim Cell) (val b) (Bits.BITS B) l := h2
  have hlt := digit_lt (dim Cell) (val b) (Bits.BITS B) l
  have h8 : 2 ^ dim Cell ≤ 2 ^ 3 := Nat.pow_le_pow_right (by decide) hD3
  unfold FixedDepthStorage.getCellAtLevelUnchecked
  simp only [uadd_ok a1, ok_bind, umul_ok a2, usub_ok hl, uadd_ok a3, h1]
  rw [LawfulContainer.asU8 y (by omega)]
  simp only [ok_bind, h2', BitVec.toNat_ofNat]
  rw [Nat.mod_eq_of_lt (by omega), LawfulDim.tryFrom_ok _ hlt]
  rfl

theorem containerSet_ok (hf : on B c) (b : B) (l : Nat) (v : Cell) (hl : (l + 1) * dim Cell ≤ Bits.BITS B) :
    ∃ y, FixedDepthStorage.setCellAtLevelUnchecked c (Bits.BITS B) b l v = .ok y ∧
      ∀ i, (val y).testBit i =
        if Bits.BITS B - (l + 1) * dim Cell ≤ i ∧ i < Bits.BITS B - (l + 1) * dim Cell + dim Cell then
          (Dimension.toUsize v).testBit (i - (Bits.BITS B - (l + 1) * dim Cell))
        else (val b).testBit i := by
  have hu := usize hf
  have hD := dim_pos Cell
  have hD3 := dim_le Cell
  have hlw : l + 1 ≤ (l + 1) * dim Cell := Nat.le_mul_of_pos_right _ hD
  have hDl : dim Cell ≤ (l + 1) * dim Cell := Nat.le_mul_of_pos_left _ (by omega)
  have a1 : l + 1 < 2 ^ c.ptrBits := by omega
  have a2 : (l + 1) * dim Cell < 2 ^ c.ptrBits := by omega
  have a3 : Bits.BITS B - (l + 1) * dim Cell + dim Cell < 2 ^ c.ptrBits := by omega
  have hv := toUsize_lt v
  have hv8 := toUsize_lt_8 v
  have hB : 2 ^ dim Cell ≤ 2 ^ Bits.BITS B := Nat.pow_le_pow_right (by decide) (by omega)
  have e8 : (BitVec.ofNat 8 (Dimension.toUsize v)).toNat = Dimension.toUsize v := by
    rw [BitVec.toNat_ofNat, Nat.mod_eq_of_lt (by omega)]
  have e : val (Bits.fromUN c (BitVec.ofNat 8 (Dimension.toUsize v)) : B) = Dimension.toUsize v := by
    rw [LawfulContainer.fromUN hf _ (by omega), e8]
  obtain ⟨y, h1, h2⟩ := LawfulContainer.set hf b (Bits.fromUN c (BitVec.ofNat 8 (Dimension.toUsize v)))
    (Bits.BITS B - (l + 1) * dim Cell) (Bits.BITS B - (l + 1) * dim Cell + dim Cell) (by omega) (by omega)
    (by rw [e, Nat.add_sub_cancel_left]; exact hv)
  refine ⟨y, ?_, ?_⟩
  · unfold FixedDepthStorage.setCellAtLevelUnchecked
    simp only [uadd_ok a1, ok_bind, umul_ok a2, usub_ok hl, uadd_ok a3, h1]
  · intro i
    rw [h2 i, e]

/-- The bits from a position up to the top. -/
theorem containerGet_top (hf : on B c) (b : B) {s : Nat} (hs : s ≤ Bits.BITS B) :
    ∃ y, Bits.getBits c b ⟨s, Bits.BITS B⟩ = .ok y ∧ val y = val b / 2 ^ s := by
  obtain ⟨y, h1, h2⟩ := get hf b s (Bits.BITS B) hs (Nat.le_refl _)
  refine ⟨y, h1, ?_⟩
  rw [h2]
  apply Nat.mod_eq_of_lt
  rw [Nat.div_lt_iff_lt_mul (Nat.two_pow_pos _), ← Nat.pow_add, show Bits.BITS B - s + s = Bits.BITS B by omega]
  exact val_lt b

theorem container_gt (hf : on B c) (a b : B) : RustOrd.gt c a b = .ok (decide (val a > val b)) := by
  rw [RustOrd.gt, LawfulContainer.partialCmp hf]
  rcases Nat.lt_trichotomy (val a) (val b) with h | h | h
  · rw [Nat.compare_eq_lt.mpr h]; simp [pure, Except.pure]; omega
  · rw [Nat.compare_eq_eq.mpr h]; simp [pure, Except.pure]; omega
  · rw [Nat.compare_eq_gt.mpr h]; simp [pure, Except.pure]; omega

theorem container_ge (hf : on B c) (a b : B) : RustOrd.ge c a b = .ok (decide (val a ≥ val b)) := by
  rw [RustOrd.ge, LawfulContainer.partialCmp hf]
  rcases Nat.lt_trichotomy (val a) (val b) with h | h | h
  · rw [Nat.compare_eq_lt.mpr h]; simp [pure, Except.pure]; omega
  · rw [Nat.compare_eq_eq.mpr h]; simp [pure, Except.pure]; omega
  · rw [Nat.compare_eq_gt.mpr h]; simp [pure, Except.pure]; omega

end

/-- Writing a cell of the path. -/
theorem set_path {S Cell : Type} [LawfulDim Cell] [Storage S Cell] [BitStorage S Cell] {c : Cfg} (hc : c.Supported) {s : S}
    (h : WF c s) {l : Nat} (v : Cell) (hl : l < Storage.depth s) :
    ∃ s' : S, Storage.setCellAtLevelUnchecked c s l v = .ok s' ∧ WF c s' ∧
      path s' = (path s).set l (BitStorage.written S c v) ∧ (TailZero s → TailZero s') := by
  have hle := level_le h hl
  obtain ⟨s', h1, h2, h3, h4, h5, h6, h7⟩ := set_slot hc h.fit v hle
  refine ⟨s', h1, ⟨h2, by rw [h3, h4]; exact h.depth_le⟩, ?_, ?_⟩
  · apply path_of_slots
    · simpa using h4
    · intro k hk
      rw [List.length_set, path_length] at hk
      rw [List.getElem_set]
      by_cases hkl : l = k
      · subst hkl; rw [if_pos rfl, h5]
      · rw [if_neg hkl, path_getElem]
        exact h6 k (level_le h hk) (by omega)
  · intro hz i hi
    rw [h3, h4] at hi
    have hmul : (l + 1) * dim Cell ≤ Storage.depth s * dim Cell := Nat.mul_le_mul_right _ hl
    rw [h7 i (by omega)]
    exact hz i hi

end MortonRs
