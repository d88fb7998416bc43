import Verif.Model.StorageBits
import Verif.Props.OtherDimensionsBytes
import Verif.Props.Foreign2D

/-! # C88: storages built on a storage type

`StorageType` and `Storage` are public traits. An implementation of `Storage` gives `bits`, `bits_mut`, `depth` and names a
`StorageType`; the accessors are provided. Any storage type that keeps its contract gives a storage that keeps the contract of
C83, and the storage types of the crate keep it in every dimension up to the limits of C86. -/

namespace MortonRs

/-- The contract of `StorageType` (`storage.rs` 22-33) on the containers in `ok`: the accessors read and write one of the cells
`levels x`. -/
structure TypeContract {T Cell : Type} (get : T → Nat → Res Cell) (set : T → Nat → Cell → Res T) (ok : T → Prop)
    (levels : T → List Cell) : Prop where
  get : ∀ x, ok x → ∀ l (h : l < (levels x).length), get x l = .ok (levels x)[l]
  set : ∀ x, ok x → ∀ l v, l < (levels x).length → ∃ y, set x l v = .ok y ∧ ok y ∧ levels y = (levels x).set l v

/-- The contract of `bits`, `bits_mut` and `depth` (`storage.rs` 50-54): the first two borrow the same container, which is not
where the depth is kept. -/
structure BitsContract {S Cell T : Type} [StorageBits S Cell T] (depth : S → Nat) : Prop where
  bits : ∀ (s : S) (f : T → T), StorageBits.bits (StorageBits.bitsMut s f) = f (StorageBits.bits s)
  depth : ∀ (s : S) (f : T → T), depth (StorageBits.bitsMut s f) = depth s

/-- C88. The provided accessors of `Storage` over any storage type keep the contract of C83: the cells of a storage are the
first `depth` levels of its container. -/
theorem C88_storages {S Cell T : Type} [StorageBits S Cell T] {c : Cfg} {depth : S → Nat} {maxDepth : Option Nat}
    {ok : T → Prop} {levels : T → List Cell}
    (hT : TypeContract (StorageBits.typeGet S c) (StorageBits.typeSet S c) ok levels)
    (hB : BitsContract (S := S) (Cell := Cell) (T := T) depth) :
    letI := StorageBits.storage (S := S) depth maxDepth
    StorageContract c
      (fun s : S => ok (StorageBits.bits s) ∧ depth s ≤ (levels (StorageBits.bits s)).length ∧ depth s < 2 ^ c.ptrBits)
      (fun s => (levels (StorageBits.bits s)).take (depth s)) := by
  letI := StorageBits.storage (S := S) depth maxDepth
  have hlen : ∀ s : S, depth s ≤ (levels (StorageBits.bits s)).length →
      ((levels (StorageBits.bits s)).take (depth s)).length = depth s := fun s h => by
    rw [List.length_take, Nat.min_eq_left h]
  refine ⟨fun s hs => (hlen s hs.2.1).symm, fun s hs => ?_, fun s hs l hl => ?_, fun s hs l v hl => ?_⟩
  · rw [hlen s hs.2.1]
    exact hs.2.2
  · rw [List.getElem_take]
    exact hT.get _ hs.1 l _
  · rw [hlen s hs.2.1] at hl
    obtain ⟨y, e1, e2, e3⟩ := hT.set _ hs.1 l v (Nat.lt_of_lt_of_le hl hs.2.1)
    have hy : StorageBits.bits (StorageBits.bitsMut s fun _ => y) = y := hB.bits s _
    have hd : depth (StorageBits.bitsMut s fun _ => y) = depth s := hB.depth s _
    refine ⟨StorageBits.bitsMut s fun _ => y, ?_, ⟨by rw [hy]; exact e2, ?_, by rw [hd]; exact hs.2.2⟩, ?_⟩
    · show (do let bits ← StorageBits.typeSet S c (StorageBits.bits s) l v
               return StorageBits.bitsMut s fun _ => bits) = _
      rw [e1]
      rfl
    · rw [hy, hd, e3, List.length_set]
      exact hs.2.1
    · show (levels (StorageBits.bits (StorageBits.bitsMut s fun _ => y))).take _ = _
      rw [hy, hd, e3, List.take_set]

/-! ## The storage types of the crate -/

/-- The cells a container holds in `D`-bit groups counted down from bit `top`. -/
def HoldsCells {T Cell : Type} (D : Nat) (key : Cell → Nat) (number top : T → Nat) (ok : T → Prop) (levels : T → List Cell) :
    Prop :=
  ∀ x, ok x → (levels x).length = top x / D ∧
    ∀ l (h : l < (levels x).length), key (levels x)[l] = bitsIn (top x - (l + 1) * D) (top x - (l + 1) * D + D) (number x)

section
variable {c : Cfg} {Cell : Type} [Dimension Cell]

local notation "D" => Dimension.DIMENSIONALITY Cell

theorem DimensionContract.inj (h : DimensionContract Cell) {u v : Cell} (e : Dimension.toUsize u = Dimension.toUsize v) :
    u = v := by
  have h1 := h.back u
  rw [e, h.back v] at h1
  injection h1 with h1
  exact h1.symm

theorem typeContract_of_bits {T : Type} {get : T → Nat → Res Cell} {set : T → Nat → Cell → Res T} {number size top : T → Nat}
    {ok : T → Prop} (h : DimensionContract Cell)
    (H : CellsAreBits D (Dimension.toUsize (Cell := Cell)) get set number size top ok)
    (htop : ∀ x y, size y = size x → top y = top x) (hok : ∀ x y, size y = size x → ok x → ok y) :
    ∃ levels, HoldsCells D (Dimension.toUsize (Cell := Cell)) number top ok levels ∧ TypeContract get set ok levels := by
  have hD := h.pos
  obtain ⟨z, -⟩ := h.all 0 (Nat.two_pow_pos _)
  let cell : T → Nat → Cell := fun x l => match get x l with
    | .ok v => v
    | .error _ => z
  let levels : T → List Cell := fun x => (List.range (top x / D)).map (cell x)
  have hlen : ∀ x, (levels x).length = top x / D := fun x => by simp [levels]
  have hlev : ∀ {x l}, l < (levels x).length → (l + 1) * D ≤ top x := fun {x l} hl =>
    (Nat.le_div_iff_mul_le hD).mp (by rw [hlen] at hl; exact hl)
  have hcell : ∀ x l, ok x → (l + 1) * D ≤ top x → get x l = .ok (cell x l) ∧
      Dimension.toUsize (cell x l) = bitsIn (top x - (l + 1) * D) (top x - (l + 1) * D + D) (number x) := by
    intro x l hx hl
    obtain ⟨v, e1, e2⟩ := (H x l hx hl).1
    have e3 : cell x l = v := by simp only [cell, e1]
    rw [e3]
    exact ⟨e1, e2⟩
  have hget : ∀ x l (hl : l < (levels x).length), (levels x)[l] = cell x l := fun x l hl => by simp [levels]
  refine ⟨levels, fun x hx => ⟨hlen x, fun l hl => ?_⟩, fun x hx l hl => ?_, fun x hx l v hl => ?_⟩
  · rw [hget]
    exact (hcell x l hx (hlev hl)).2
  · rw [hget]
    exact (hcell x l hx (hlev hl)).1
  · obtain ⟨y, e1, e2, e3⟩ := (H x l hx (hlev hl)).2 v
    have hy := hok x y e2 hx
    have ht := htop x y e2
    refine ⟨y, e1, hy, ?_⟩
    apply List.ext_getElem
    · rw [List.length_set, hlen, hlen, ht]
    · intro k h1 h2
      rw [List.length_set] at h2
      have hk := hlev h2
      have hl' := hlev hl
      rw [List.getElem_set]
      apply h.inj
      rw [hget, (hcell y k hy (by rw [ht]; exact hk)).2, ht]
      split
      · next e =>
        subst e
        rw [e3.inside, Nat.add_sub_cancel_left]
        exact Nat.mod_eq_of_lt (h.lt v)
      · next e =>
        rw [hget, (hcell x k hx hk).2]
        apply e3.outside
        rcases Nat.lt_or_gt_of_ne e with hlt | hlt
        · have : (l + 1 + 1) * D ≤ (k + 1) * D := Nat.mul_le_mul_right _ (by omega)
          rw [Nat.add_mul (l + 1)] at this
          omega
        · have : (k + 1 + 1) * D ≤ (l + 1) * D := Nat.mul_le_mul_right _ (by omega)
          rw [Nat.add_mul (k + 1)] at this
          omega

/-- C88. The storage types of the crate keep the contract: fixed depth and static over integers in up to eight dimensions;
dynamic over integers, and on little-endian targets over byte vectors, in every dimension whose cells fit a `usize`. -/
theorem C88_crate_types (hc : c.Supported) (h : DimensionContract Cell) :
    (∀ {B w : Nat}, IntWidth w → B ≤ w → D ≤ B → D ≤ 8 → ∃ levels,
      HoldsCells D (Dimension.toUsize (Cell := Cell)) (BitVec.toNat : BitVec w → Nat) (fun _ => B) (fun _ => True) levels ∧
      TypeContract (FixedDepthStorage.getCellAtLevelUnchecked c B) (FixedDepthStorage.setCellAtLevelUnchecked c B)
        (fun _ => True) levels ∧
      TypeContract (StaticStorage.getCellAtLevelUnchecked c B) (StaticStorage.setCellAtLevelUnchecked c B)
        (fun _ => True) levels) ∧
    (∀ {w : Nat}, IntWidth w → D ≤ c.ptrBits → ∃ levels,
      HoldsCells D (Dimension.toUsize (Cell := Cell)) (BitVec.toNat : BitVec w → Nat) (fun _ => w) (fun _ => True) levels ∧
      TypeContract (DynamicStorage.getCellAtLevelUnchecked c) (DynamicStorage.setCellAtLevelUnchecked c) (fun _ => True)
        levels) ∧
    (c.bigEndian = false → D ≤ c.ptrBits → ∃ levels,
      HoldsCells D (Dimension.toUsize (Cell := Cell)) leNumber (fun bs : List (BitVec 8) => 8 * bs.length)
        (fun bs => Addressable c (8 * bs.length)) levels ∧
      TypeContract (DynamicStorage.getCellAtLevelUnchecked c) (DynamicStorage.setCellAtLevelUnchecked c)
        (fun bs : List (BitVec 8) => Addressable c (8 * bs.length)) levels) := by
  refine ⟨fun {B w} hw hB hDB h8 => ?_, fun {w} hw hD => ?_, fun hle hD => ?_⟩
  · obtain ⟨levels, h1, h2⟩ := typeContract_of_bits h ((C86_integers hc h hw hB hDB).1.mpr h8) (fun _ _ _ => rfl)
      (fun _ _ _ _ => trivial)
    exact ⟨levels, h1, h2, h2⟩
  · exact typeContract_of_bits h (C86_integers_dynamic hc h hw hD) (fun _ _ _ => rfl) (fun _ _ _ _ => trivial)
  · exact typeContract_of_bits h (C86_vectors_dynamic hc hle h hD) (fun x y e => by rw [e]) (fun x y e hx => by rw [e]; exact hx)

/-- C88. Fixed depth and static also keep it over byte vectors, in one, two, four and eight dimensions (C86). -/
theorem C88_crate_types_vectors (hc : c.Supported) (h : DimensionContract Cell) {B : Nat} (hB : B % 8 = 0)
    (hD : D = 1 ∨ D = 2 ∨ D = 4 ∨ D = 8) : ∃ levels,
    HoldsCells D (Dimension.toUsize (Cell := Cell)) leNumber (fun _ => B)
      (fun bs : List (BitVec 8) => Addressable c (8 * bs.length) ∧ B ≤ 8 * bs.length) levels ∧
    TypeContract (FixedDepthStorage.getCellAtLevelUnchecked c B) (FixedDepthStorage.setCellAtLevelUnchecked c B)
      (fun bs : List (BitVec 8) => Addressable c (8 * bs.length) ∧ B ≤ 8 * bs.length) levels ∧
    TypeContract (StaticStorage.getCellAtLevelUnchecked c B) (StaticStorage.setCellAtLevelUnchecked c B)
      (fun bs : List (BitVec 8) => Addressable c (8 * bs.length) ∧ B ≤ 8 * bs.length) levels := by
  obtain ⟨levels, h1, h2⟩ := typeContract_of_bits h (C86_vectors hc h hB hD).1 (fun _ _ _ => rfl)
    (fun x y e hx => by rw [e]; exact hx)
  exact ⟨levels, h1, h2, h2⟩

end

example : ∃ levels, TypeContract (StaticStorage.getCellAtLevelUnchecked x32r 24)
    (StaticStorage.setCellAtLevelUnchecked (Cell := Fin (2 ^ 4)) x32r 24)
    (fun bs : List (BitVec 8) => Addressable x32r (8 * bs.length) ∧ 24 ≤ 8 * bs.length) levels :=
  have ⟨levels, _, _, h⟩ := C88_crate_types_vectors (Cell := Fin (2 ^ 4)) x32r_supported (fin_contract (by decide))
    (B := 24) (by decide) (by decide)
  ⟨levels, h⟩

/-! ## A four-dimensional storage over a storage type of the crate -/

/-- A storage of another crate, `type StorageType = StaticStorage<Dim4, u32>`: up to eight cells of four dimensions. -/
structure Paths4 where
  bits : BitVec 32
  levels : Nat
  deriving DecidableEq

instance : StorageBits Paths4 (Fin (2 ^ 4)) (BitVec 32) where
  bits s := s.bits
  bitsMut s f := { s with bits := f s.bits }
  typeGet c bits level := StaticStorage.getCellAtLevelUnchecked c 32 bits level
  typeSet c bits level cell := StaticStorage.setCellAtLevelUnchecked c 32 bits level cell

instance : Storage Paths4 (Fin (2 ^ 4)) := StorageBits.storage (fun s => s.levels) (StaticStorage.maxDepth 32 (Fin (2 ^ 4)))

/-- Its cells are its leading hexadecimal digits, and it keeps the contract of C83. -/
theorem paths4_contract {c : Cfg} (hc : c.Supported) : ∃ view : Paths4 → List (Fin (2 ^ 4)),
    StorageContract c (fun s : Paths4 => s.levels ≤ 8) view ∧
    ∀ s : Paths4, s.levels ≤ 8 → ∀ l (h : l < (view s).length), (view s)[l].val = s.bits.toNat / 2 ^ (28 - l * 4) % 16 := by
  obtain ⟨levels, h1, -, h2⟩ := (C88_crate_types (Cell := Fin (2 ^ 4)) hc (fin_contract (by decide))).1 (B := 32) (w := 32)
    (by decide) (by decide) (by decide) (by decide)
  have hlen : ∀ x, (levels x).length = 8 := fun x => by
    rw [(h1 x trivial).1]
    exact (by decide : 32 / Dimension.DIMENSIONALITY (Fin (2 ^ 4)) = 8)
  have hp : 2 ^ 16 ≤ 2 ^ c.ptrBits := hc.le
  have key := C88_storages (S := Paths4) (depth := fun s => s.levels)
    (maxDepth := StaticStorage.maxDepth 32 (Fin (2 ^ 4))) h2 ⟨fun _ _ => rfl, fun _ _ => rfl⟩
  have hok : ∀ s : Paths4, (True ∧ s.levels ≤ (levels (StorageBits.bits s)).length ∧ s.levels < 2 ^ c.ptrBits) ↔
      s.levels ≤ 8 := fun s => by
    rw [hlen]
    exact ⟨fun h => h.2.1, fun h => ⟨trivial, h, by omega⟩⟩
  refine ⟨_, by simpa only [hok] using key, fun s hs l hl => ?_⟩
  have hl8 : l < 8 := by rw [List.length_take, hlen] at hl; omega
  have e := (h1 s.bits trivial).2 l (by rw [hlen]; exact hl8)
  simp only [List.getElem_take]
  refine Eq.trans e ?_
  change bitsIn (32 - (l + 1) * 4) (32 - (l + 1) * 4 + 4) s.bits.toNat = _
  rw [bitsIn, Nat.add_sub_cancel_left, show 32 - (l + 1) * 4 = 28 - l * 4 by omega]

example : Storage.collectCells x64 (⟨0xABCD0000#32, 3⟩ : Paths4) = .ok [0xA, 0xB, 0xC] := by
  obtain ⟨view, h1, h2⟩ := paths4_contract x64_supported
  rw [(C86_cells h1 ⟨0xABCD0000#32, 3⟩ (by decide)).2]
  have hd : (view ⟨0xABCD0000#32, 3⟩).length = 3 := (h1.depth _ (by decide)).symm
  congr 1
  apply List.ext_getElem (by rw [hd]; rfl)
  intro l g1 g2
  have hl : l < 3 := g2
  apply Fin.ext
  rw [h2 _ (by decide) l g1]
  match l, hl with
  | 0, _ => rfl
  | 1, _ => rfl
  | 2, _ => rfl

/-! ## A storage type of another crate -/

/-- A storage type of another crate that counts the levels up from the least significant bit. -/
def upwardGet (c : Cfg) {T : Type} [Bits T] (bits : T) (level : Nat) : Res Quadrant := do
  unwrapResult (Dimension.tryFromUsize (← Bits.asU8 (← Bits.getBits c bits ⟨2 * level, 2 * level + 2⟩)).toNat)

def upwardSet (c : Cfg) {T : Type} [Bits T] (bits : T) (level : Nat) (cell : Quadrant) : Res T :=
  Bits.setBits c bits ⟨2 * level, 2 * level + 2⟩ (Bits.fromUN c (BitVec.ofNat 8 (Dimension.toUsize cell)))

/-- The pairs of bits from the least significant on. -/
def upwardLevels (x : BitVec 64) : List Quadrant :=
  (List.range 32).map fun l => match x.toNat / 2 ^ (2 * l) % 4 with
    | 0 => .Zero
    | 1 => .One
    | 2 => .Two
    | _ => .Three

theorem upward_key (x : BitVec 64) (l : Nat) (h : l < (upwardLevels x).length) :
    Dimension.toUsize (upwardLevels x)[l] = bitsIn (2 * l) (2 * l + 2) x.toNat := by
  rw [bitsIn, Nat.add_sub_cancel_left]
  simp only [upwardLevels, List.getElem_map, List.getElem_range]
  have hlt : x.toNat / 2 ^ (2 * l) % 4 < 4 := Nat.mod_lt _ (by decide)
  change _ = x.toNat / 2 ^ (2 * l) % 4
  revert hlt
  generalize x.toNat / 2 ^ (2 * l) % 4 = n
  intro hlt
  match n, hlt with
  | 0, _ => rfl
  | 1, _ => rfl
  | 2, _ => rfl
  | 3, _ => rfl

theorem upward_contract {c : Cfg} : TypeContract (upwardGet c) (upwardSet c) (fun _ : BitVec 64 => True) upwardLevels := by
  have hlen : ∀ x, (upwardLevels x).length = 32 := fun x => by simp [upwardLevels]
  have hQ : ∀ v : Quadrant, Dimension.toUsize v < 4 := fun v => by cases v <;> decide
  have hback : ∀ v : Quadrant, (Dimension.tryFromUsize (Dimension.toUsize v) : Except Error Quadrant) = .ok v := fun v => by
    cases v <;> rfl
  refine ⟨fun x _ l hl => ?_, fun x _ l v hl => ?_⟩
  · obtain ⟨y, e1, e2⟩ := (C35_integer_get_bits (w := 64) (by decide) c x (s := 2 * l) (e := 2 * l + 2) (by omega)
      (by rw [hlen] at hl; omega)).1
    have h1 : (y.setWidth 8).toNat = Dimension.toUsize (upwardLevels x)[l] := by
      rw [upward_key, BitVec.toNat_setWidth, e2]
      have := bitsIn_lt (2 * l) 2 x.toNat
      exact Nat.mod_eq_of_lt (by omega)
    have e1' : Bits.getBits c x ⟨2 * l, 2 * l + 2⟩ = .ok y := e1
    rw [upwardGet, e1']
    simp only [ok_bind, Bits.asU8, h1, hback]
    rfl
  · have hv : ((BitVec.ofNat 8 (Dimension.toUsize v)).setWidth 64).toNat = Dimension.toUsize v := by cases v <;> rfl
    obtain ⟨y, e1, e2, -⟩ := (C35_integer_set_bits (w := 64) (by decide) c x (s := 2 * l) (e := 2 * l + 2) (by omega)
      (by rw [hlen] at hl; omega) (by rw [hlen] at hl; omega)).1 ((BitVec.ofNat 8 (Dimension.toUsize v)).setWidth 64)
      (by rw [hv, Nat.add_sub_cancel_left]; exact hQ v)
    rw [hv] at e2
    refine ⟨y, e1, trivial, ?_⟩
    apply List.ext_getElem (by rw [List.length_set, hlen, hlen])
    intro k h1 h2
    have hinj : ∀ {u v : Quadrant}, Dimension.toUsize u = Dimension.toUsize v → u = v := fun {u v} e => by
      have := hback u
      rw [e, hback v] at this
      injection this with this
      exact this.symm
    apply hinj
    rw [List.getElem_set, upward_key]
    split
    · next e =>
      subst e
      rw [e2.inside, Nat.add_sub_cancel_left]
      exact Nat.mod_eq_of_lt (hQ v)
    · next e =>
      rw [upward_key]
      exact e2.outside (by omega)

/-- A storage over it. -/
structure Upward where
  bits : BitVec 64
  levels : Nat
  deriving DecidableEq

instance : StorageBits Upward Quadrant (BitVec 64) where
  bits s := s.bits
  bitsMut s f := { s with bits := f s.bits }
  typeGet c bits level := upwardGet c bits level
  typeSet c bits level cell := upwardSet c bits level cell

instance : Storage Upward Quadrant := StorageBits.storage (fun s => s.levels) (some 32)

/-- C83 applies to the index over it. -/
example : Shows x64 (⟨⟨0b101101#64, 3⟩⟩ : MortonIndex2D Upward) [.One, .Three, .Two] :=
  (C83_access_2D x64_supported (C88_storages (c := x64) (S := Upward) (depth := fun s => s.levels) (maxDepth := some 32)
    upward_contract ⟨fun _ _ => rfl, fun _ _ => rfl⟩)).1 ⟨⟨0b101101#64, 3⟩⟩
    ⟨trivial, by decide, by decide⟩

example : MortonIndex2D.setCellAtLevel x64 (⟨⟨0b101101#64, 3⟩⟩ : MortonIndex2D Upward) 1 .Zero = .ok ⟨⟨0b100001#64, 3⟩⟩ := by
  decide +kernel

end MortonRs
