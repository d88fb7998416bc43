import Verif.Lemmas.Containers
import Verif.Lemmas.FromBytes

/-! # Two families of containers: the integers of the crate, and byte arrays

The integers keep the contract of `Lemmas/Containers.lean` (for the widths and targets that exist). `Bytes n` stands for the
`[u8; n]` of `indices/mod.rs` 41: a container with any number of bytes. -/

namespace MortonRs

/-! ## The integers -/

instance (w : Nat) : LawfulContainer (BitVec w) where
  val := BitVec.toNat
  on c := c.Supported ∧ IntWidth w
  usize {c} h := by
    have := h.2.le
    have := h.1.le
    change w < _
    omega
  val_lt b := b.isLt
  default := by change (0#w).toNat = 0; simp
  get {c} h b s e hse he := by
    have hw := h.2.le
    change e ≤ w at he
    obtain ⟨y, h1, h2⟩ := intGetBits_ok (c := c) b s e (by omega) (by omega)
      (Nat.lt_of_le_of_lt (by omega) (Nat.lt_two_pow_self (n := w))) (by omega)
    refine ⟨y, h1, ?_⟩
    apply Nat.eq_of_testBit_eq
    intro i
    rw [← getLsbD_eq_testBit, h2, Nat.testBit_mod_two_pow, Nat.testBit_div_two_pow, getLsbD_eq_testBit, Nat.add_comm]
  set {c} h b v s e hse he hv := by
    have hw := h.2.le
    change e ≤ w at he
    obtain ⟨y, h1, h2⟩ := intSetBits_ok (c := c) b s e v (by omega) (by omega) (by omega)
    refine ⟨y, h1, ?_⟩
    intro i
    by_cases hi : i < w
    · rw [← getLsbD_eq_testBit, h2 i hi, ← getLsbD_eq_testBit, ← getLsbD_eq_testBit]
      by_cases h3 : s ≤ i
      · by_cases h4 : i < e
        · rw [if_pos h3, if_pos (by omega), if_pos ⟨h3, h4⟩]
        · have : v.toNat < 2 ^ (i - s) := Nat.lt_of_lt_of_le hv (Nat.pow_le_pow_right (by decide) (by omega))
          rw [if_pos h3, if_neg (by omega), if_neg (by omega), getLsbD_eq_testBit (x := v), Nat.testBit_lt_two_pow this,
            Bool.or_false]
      · rw [if_neg h3, if_neg (by omega)]
    · rw [← getLsbD_eq_testBit, ← getLsbD_eq_testBit (x := b), BitVec.getLsbD_of_ge _ _ (by omega),
        BitVec.getLsbD_of_ge _ _ (by omega), if_neg (by omega)]
  asU8 b hb := by
    change Except.ok (b.setWidth 8) = _
    rw [BitVec.ofNat_toNat]
  fromUN {c} _ {n} x hx := by
    change (x.setWidth w).toNat = _
    rw [BitVec.toNat_setWidth]
    exact Nat.mod_eq_of_lt hx
  cmp _ _ _ := rfl
  partialCmp _ _ _ := rfl
  eq a b := by
    change (a == b) = true ↔ _
    rw [beq_iff_eq, BitVec.toNat_inj]
  hash a b h := by
    change [a.toNat] = [b.toNat]
    exact congrArg (fun n => [n]) h

/-- The integers also keep the contract about bytes. -/
@[instance_reducible]
def nativeBytes {w : Nat} (hw : IntWidth w) : LawfulBytes (BitVec w) where
  toLawfulContainer := inferInstance
  mod8 := hw.mod8
  asSlice {c} _ b := by
    change bytesOf c b = bytesOf c (BitVec.ofNat w b.toNat)
    rw [BitVec.ofNat_toNat, BitVec.setWidth_eq]
  fromSlice {c} _ bytes hlen := by
    change bytes.length ≤ w / 8 at hlen
    have hw8 := hw.mod8
    have hlt := leValue_lt bytes
    constructor
    · apply Nat.eq_of_testBit_eq
      intro i
      change (BitVec.toNat _).testBit i = _
      rw [← getLsbD_eq_testBit, fromU8Slice_le hw, testBit_leValue]
      by_cases hi : i < w
      · rw [decide_eq_true hi, Bool.true_and]
      · rw [decide_eq_false hi, Bool.false_and, bitOf_of_ge (by omega)]
    · apply Nat.eq_of_testBit_eq
      intro i
      change (BitVec.toNat _).testBit i = (leValue (bytes ++ List.replicate (w / 8 - bytes.length) 0#8).reverse).testBit i
      rw [← getLsbD_eq_testBit, fromU8Slice_be hw, testBit_leValue]
      have hl : (bytes ++ List.replicate (w / 8 - bytes.length) 0#8).length = w / 8 := by
        rw [List.length_append, List.length_replicate]; omega
      by_cases hi : i < w
      · rw [decide_eq_true hi, Bool.true_and, bitOf_reverse _ _ (by rw [hl]; omega), bitOf_append_zeros, hl]
      · rw [decide_eq_false hi, Bool.false_and, bitOf_of_ge (by rw [List.length_reverse, hl]; omega)]

/-! ## Byte arrays -/

/-- `[u8; n]` read as a number, least significant byte first. -/
structure Bytes (n : Nat) where
  bytes : List (BitVec 8)
  len : bytes.length = n

/-- The array that holds a number. -/
def Bytes.ofNat (n v : Nat) : Bytes n := ⟨leBytes (BitVec.ofNat (8 * n) v), by rw [leBytes_length]; omega⟩

theorem Bytes.value_lt {n : Nat} (b : Bytes n) : leValue b.bytes < 2 ^ (8 * n) := by
  have := leValue_lt b.bytes
  rwa [b.len] at this

theorem Bytes.value_ofNat {n v : Nat} (h : v < 2 ^ (8 * n)) : leValue (Bytes.ofNat n v).bytes = v := by
  rw [Bytes.ofNat, leValue_leBytes _ (by omega), BitVec.toNat_ofNat]
  exact Nat.mod_eq_of_lt h

theorem Bytes.ext {n : Nat} {a b : Bytes n} (h : leValue a.bytes = leValue b.bytes) : a = b := by
  have : ∀ (xs ys : List (BitVec 8)), xs.length = ys.length → leValue xs = leValue ys → xs = ys := by
    intro xs
    induction xs with
    | nil => intro ys hl _; exact (List.length_eq_zero_iff.mp hl.symm).symm
    | cons x xs ih =>
      intro ys hl hv
      cases ys with
      | nil => simp at hl
      | cons y ys =>
        simp only [leValue] at hv
        have hx := x.isLt
        have hy := y.isLt
        have e1 : x.toNat = y.toNat := by omega
        have e2 : leValue xs = leValue ys := by omega
        rw [BitVec.eq_of_toNat_eq e1, ih ys (by simpa using hl) e2]
  obtain ⟨a, ha⟩ := a
  obtain ⟨b, hb⟩ := b
  have e := this a b (by omega) h
  subst e
  rfl

/-- What a crate with byte arrays would write, as plain arithmetic on the number. -/
instance (n : Nat) : FixedStorageType (Bytes n) where
  BITS := 8 * n
  getBits _ b r := .ok (.ofNat n (leValue b.bytes / 2 ^ r.start % 2 ^ (r.stop - r.start)))
  getBitsAsUsize _ b r := .ok (BitVec.ofNat _ (leValue b.bytes / 2 ^ r.start % 2 ^ (r.stop - r.start)))
  setBits _ b r v := .ok (.ofNat n (leValue b.bytes / 2 ^ r.stop * 2 ^ r.stop +
    leValue v.bytes % 2 ^ (r.stop - r.start) * 2 ^ r.start + leValue b.bytes % 2 ^ r.start))
  setBitsFromUsize _ b r v := .ok (.ofNat n (leValue b.bytes / 2 ^ r.stop * 2 ^ r.stop +
    v.toNat % 2 ^ (r.stop - r.start) * 2 ^ r.start + leValue b.bytes % 2 ^ r.start))
  asU8 b := .ok (BitVec.ofNat 8 (leValue b.bytes))
  asUN _ k b := .ok (BitVec.ofNat k (leValue b.bytes))
  asU8Slice c b := if c.bigEndian then b.bytes.reverse else b.bytes
  asU8SliceMut _ b write := .ofNat n (leValue (write b.bytes))
  fromUN _ {_} x := .ofNat n x.toNat
  fromU8Slice _ bytes e := match e with
    | .LittleEndian => .ofNat n (leValue bytes)
    | .BigEndian => .ofNat n (leValue (bytes ++ List.replicate (n - bytes.length) 0#8).reverse)
  size _ := n
  cmp _ a b := .ok (compare (leValue a.bytes) (leValue b.bytes))
  partialCmp _ a b := .ok (some (compare (leValue a.bytes) (leValue b.bytes)))
  eq a b := a.bytes == b.bytes
  hashInput a := a.bytes.map BitVec.toNat
  default := .ofNat n 0

/-- On every target that can address their bits. -/
instance (n : Nat) : LawfulBytes (Bytes n) where
  val b := leValue b.bytes
  on c := Addressable c (8 * n)
  usize {c} h := by
    change 8 * n < _
    unfold Addressable at h
    omega
  val_lt b := b.value_lt
  default := Bytes.value_ofNat (Nat.two_pow_pos _)
  get {c} _ b s e hse he := by
    refine ⟨_, rfl, Bytes.value_ofNat (Nat.lt_of_lt_of_le (Nat.mod_lt _ (Nat.two_pow_pos _)) ?_)⟩
    change e ≤ 8 * n at he
    exact Nat.pow_le_pow_right (by decide) (by simp only; omega)
  set {c} _ b v s e hse he hv := by
    change e ≤ 8 * n at he
    refine ⟨_, rfl, ?_⟩
    have hb := b.value_lt
    generalize leValue b.bytes = x at hb ⊢
    generalize leValue v.bytes = y at hv ⊢
    have h1 : y * 2 ^ s + x % 2 ^ s < 2 ^ e := by
      have : x % 2 ^ s < 2 ^ s := Nat.mod_lt _ (Nat.two_pow_pos _)
      have e1 : 2 ^ e = 2 ^ (e - s) * 2 ^ s := by rw [← Nat.pow_add]; congr 1; omega
      have e2 : (y + 1) * 2 ^ s ≤ 2 ^ (e - s) * 2 ^ s := Nat.mul_le_mul_right _ hv
      rw [Nat.add_mul] at e2
      omega
    have h2 : x / 2 ^ e * 2 ^ e + y % 2 ^ (e - s) * 2 ^ s + x % 2 ^ s = 2 ^ e * (x / 2 ^ e) + (2 ^ s * y + x % 2 ^ s) := by
      rw [Nat.mod_eq_of_lt hv, Nat.mul_comm (x / 2 ^ e), Nat.mul_comm y]
      omega
    have h3 : x / 2 ^ e * 2 ^ e + y % 2 ^ (e - s) * 2 ^ s + x % 2 ^ s < 2 ^ (8 * n) := by
      have e1 : 2 ^ (8 * n) = 2 ^ (8 * n - e) * 2 ^ e := by rw [← Nat.pow_add]; congr 1; omega
      have e2 : x / 2 ^ e < 2 ^ (8 * n - e) := by
        rw [Nat.div_lt_iff_lt_mul (Nat.two_pow_pos _), ← e1]
        exact hb
      have e3 : (x / 2 ^ e + 1) * 2 ^ e ≤ 2 ^ (8 * n - e) * 2 ^ e := Nat.mul_le_mul_right _ e2
      rw [Nat.add_mul] at e3
      rw [Nat.mod_eq_of_lt hv]
      omega
    intro i
    rw [Bytes.value_ofNat h3, h2, Nat.testBit_two_pow_mul_add _ (by rw [Nat.mul_comm]; exact h1)]
    by_cases h4 : i < e
    · rw [if_pos h4, Nat.testBit_two_pow_mul_add _ (Nat.mod_lt _ (Nat.two_pow_pos _))]
      by_cases h5 : i < s
      · rw [if_pos h5, if_neg (by omega), Nat.testBit_mod_two_pow, decide_eq_true h5, Bool.true_and]
      · rw [if_neg h5, if_pos (by omega)]
    · rw [if_neg h4, if_neg (by omega), Nat.testBit_div_two_pow]
      congr 1
      omega
  asU8 b _ := rfl
  fromUN {_} _ {_} x hx := Bytes.value_ofNat hx
  cmp _ _ _ := rfl
  partialCmp _ _ _ := rfl
  eq a b := by
    change (a.bytes == b.bytes) = true ↔ _
    rw [beq_iff_eq]
    exact ⟨fun h => by rw [h], fun h => by rw [Bytes.ext h]⟩
  hash a b h := by rw [Bytes.ext h]
  mod8 := Nat.mul_mod_right 8 n
  asSlice {c} _ b := by
    change (if c.bigEndian then b.bytes.reverse else b.bytes) = bytesOf c (BitVec.ofNat (8 * n) (leValue b.bytes))
    have : (Bytes.ofNat n (leValue b.bytes)) = b := Bytes.ext (Bytes.value_ofNat b.value_lt)
    have e : leBytes (BitVec.ofNat (8 * n) (leValue b.bytes)) = b.bytes := congrArg Bytes.bytes this
    rw [bytesOf, e]
  fromSlice {c} _ bytes hlen := by
    change bytes.length ≤ 8 * n / 8 at hlen
    constructor
    · refine Bytes.value_ofNat (Nat.lt_of_lt_of_le (leValue_lt bytes) (Nat.pow_le_pow_right (by decide) (by omega)))
    · have hl : (bytes ++ List.replicate (n - bytes.length) 0#8).reverse.length = n := by
        rw [List.length_reverse, List.length_append, List.length_replicate]; omega
      change leValue (Bytes.ofNat n _).bytes = leValue (bytes ++ List.replicate (8 * n / 8 - bytes.length) 0#8).reverse
      rw [show 8 * n / 8 = n by omega, Bytes.value_ofNat]
      have := leValue_lt (bytes ++ List.replicate (n - bytes.length) 0#8).reverse
      rwa [hl] at this

/-! ## Loops over values seen through a function -/

theorem forEnumFrom_map {α σ τ : Type} (φ : σ → τ) {f : Nat → α → σ → Res σ} {g : Nat → α → τ → Res τ}
    (h : ∀ i x s, g i x (φ s) = (f i x s).map φ) (i : Nat) (xs : List α) (s : σ) :
    forEnumFrom i xs (φ s) g = (forEnumFrom i xs s f).map φ := by
  induction xs generalizing i s with
  | nil => rfl
  | cons x xs ih =>
    rw [forEnumFrom, forEnumFrom, h]
    cases f i x s with
    | error e => rfl
    | ok s' => exact ih (i + 1) s'

theorem foldlM_map {α σ τ : Type} (φ : σ → τ) {f : σ → α → Res σ} {g : τ → α → Res τ}
    (h : ∀ x s, g (φ s) x = (f s x).map φ) (xs : List α) (s : σ) :
    xs.foldlM g (φ s) = (xs.foldlM f s).map φ := by
  induction xs generalizing s with
  | nil => rfl
  | cons x xs ih =>
    rw [List.foldlM_cons, List.foldlM_cons, h]
    cases f s x with
    | error e => rfl
    | ok s' => exact ih s'

theorem forRange_map {σ τ : Type} (φ : σ → τ) {f : Nat → σ → Res σ} {g : Nat → τ → Res τ}
    (h : ∀ i s, g i (φ s) = (f i s).map φ) (a b : Nat) (s : σ) :
    forRange a b (φ s) g = (forRange a b s f).map φ := foldlM_map φ h _ _

theorem bind_map_congr {α β γ : Type} {x : Res α} {f : α → Res β} {g : α → Res γ} {φ : β → γ}
    (h : ∀ a, g a = (f a).map φ) : (x >>= g) = (x >>= f).map φ := by
  cases x with
  | error e => rfl
  | ok a => exact h a

theorem collectCells_map {S T Cell : Type} [Storage S Cell] [Storage T Cell] {c : Cfg} (φ : S → T)
    (hd : ∀ s, Storage.depth (φ s) = Storage.depth s)
    (hg : ∀ s l, Storage.getCellAtLevelUnchecked c (φ s) l = Storage.getCellAtLevelUnchecked c s l) (s : S) :
    Storage.collectCells c (φ s) = Storage.collectCells c s := by
  have h : ∀ fuel i, CellIter.collect c fuel ⟨φ s, i⟩ = CellIter.collect c fuel ⟨s, i⟩ := by
    intro fuel
    induction fuel with
    | zero => intro i; rfl
    | succ fuel ih =>
      intro i
      unfold CellIter.collect CellIter.next
      simp only [hd, hg]
      split
      · rfl
      · cases uadd c i 1 with
        | error e => rfl
        | ok j =>
          simp only [ok_bind]
          cases Storage.getCellAtLevelUnchecked c s i with
          | error e => rfl
          | ok x =>
            simp only [ok_bind, pure_eq_ok]
            rw [ih]
  unfold Storage.collectCells Storage.cells
  rw [hd]
  exact h _ _

theorem native_gt {w : Nat} (c : Cfg) (a b : BitVec w) : RustOrd.gt c a b = .ok (decide (a.toNat > b.toNat)) := by
  rw [RustOrd.gt, show RustOrd.partialCmp c a b = .ok (some (compare a.toNat b.toNat)) from rfl]
  rcases Nat.lt_trichotomy a.toNat b.toNat with h | h | h
  · rw [Nat.compare_eq_lt.mpr h]; simp [pure, Except.pure]; omega
  · rw [Nat.compare_eq_eq.mpr h]; simp [pure, Except.pure]; omega
  · rw [Nat.compare_eq_gt.mpr h]; simp [pure, Except.pure]; omega

theorem native_ge {w : Nat} (c : Cfg) (a b : BitVec w) : RustOrd.ge c a b = .ok (decide (a.toNat ≥ b.toNat)) := by
  rw [RustOrd.ge, show RustOrd.partialCmp c a b = .ok (some (compare a.toNat b.toNat)) from rfl]
  rcases Nat.lt_trichotomy a.toNat b.toNat with h | h | h
  · rw [Nat.compare_eq_lt.mpr h]; simp [pure, Except.pure]; omega
  · rw [Nat.compare_eq_eq.mpr h]; simp [pure, Except.pure]; omega
  · rw [Nat.compare_eq_gt.mpr h]; simp [pure, Except.pure]; omega

end MortonRs
