import Verif.Model.StorageBits
import Verif.Lemmas.Wide2D
import Verif.Lemmas.Wide3D
import Verif.Lemmas.Kinds2D
import Verif.Lemmas.Kinds3D
import Verif.Props.Examples
import Verif.Props.Numbers

/-! # C80: the bits of a storage

The storages are public types, and safe code can edit their bits with `bits_mut`. -/

namespace MortonRs

open BitStorage

section statements
variable (c : Cfg) (S : Type) {Cell T : Type} [Storage S Cell] [StorageBits S Cell T]

/-- `bits_mut` edits what `bits` shows and nothing else, and bits and depth are all there is to `==`. -/
def BitsAccess [RustOrd S] : Prop :=
  (∀ (s : S) (f : T → T), StorageBits.bits (StorageBits.bitsMut s f) = f (StorageBits.bits s) ∧
    Storage.depth (StorageBits.bitsMut s f) = Storage.depth s) ∧
  ∀ s t : S, RustOrd.eq s t = true ↔ StorageBits.bits s = StorageBits.bits t ∧ Storage.depth s = Storage.depth t

/-- For all bits for which there is room, the cell at a level is the digit in base `2 ^ D` of the number the bits are,
counted from the top; writing a cell replaces this digit and keeps all other bits and the depth. -/
def DigitLayout (D : Nat) (key : Cell → Nat) (number size : T → Nat) (room : T → Prop) : Prop :=
  ∀ (s : S) (l : Nat), room (StorageBits.bits s) → (l + 1) * D ≤ size (StorageBits.bits s) →
    (∃ v, Storage.getCellAtLevelUnchecked c s l = .ok v ∧
      key v = number (StorageBits.bits s) / 2 ^ (size (StorageBits.bits s) - (l + 1) * D) % 2 ^ D) ∧
    ∀ v, ∃ s', Storage.setCellAtLevelUnchecked c s l v = .ok s' ∧ Storage.depth s' = Storage.depth s ∧
      size (StorageBits.bits s') = size (StorageBits.bits s) ∧
      ∀ i, (number (StorageBits.bits s')).testBit i =
        if size (StorageBits.bits s) - (l + 1) * D ≤ i ∧ i < size (StorageBits.bits s) - (l + 1) * D + D then
          (key v).testBit (i - (size (StorageBits.bits s) - (l + 1) * D))
        else (number (StorageBits.bits s)).testBit i

variable {S}

/-- The storage shows the path `cs` through `depth` and `get_cell_at_level_unchecked`. -/
def StorageShows (s : S) (cs : List Cell) : Prop :=
  Storage.depth s = cs.length ∧ ∀ l (h : l < cs.length), Storage.getCellAtLevelUnchecked c s l = .ok cs[l]

end statements

section statements
variable (c : Cfg) {S Cell : Type}

/-- Whatever the bits are, every storage in `ok` shows a path, the order is the order of the paths. -/
def StorageOrders [Storage S Cell] [RustOrd S] (key : Cell → Nat) (ok : S → Prop) : Prop :=
  (∀ s, ok s → ∃ cs : List Cell, StorageShows c s cs) ∧
  ∀ s t cs ds, ok s → ok t → StorageShows c s cs → StorageShows c t ds →
    RustOrd.cmp c s t = .ok (pathCmp key cs ds) ∧ RustOrd.partialCmp c s t = .ok (some (pathCmp key cs ds))

/-- Whatever the bits are, `ancestor` drops cells from the end of the path and `descendant` appends cells to it; `room`
says for how many cells there is room. -/
def StorageNavigates [VariableDepthStorage S Cell] (ok : S → Prop) (room : S → Nat → Prop) (cap : Option Nat) : Prop :=
  ∀ s (cs : List Cell), ok s → StorageShows c s cs →
    (∀ g : NonZeroUsize, (cs.length < g.val → VariableDepthStorage.ancestor c s g = .ok none) ∧
      (g.val ≤ cs.length → ∃ a, VariableDepthStorage.ancestor c s g = .ok (some a) ∧ ok a ∧
        StorageShows c a (cs.take (cs.length - g.val)))) ∧
    ∀ ds : List Cell, room s ds.length →
      ((∃ n, cap = some n ∧ n < cs.length + ds.length) → VariableDepthStorage.descendant c s ds = .ok none) ∧
      ((∀ n, cap = some n → cs.length + ds.length ≤ n) → ∃ a, VariableDepthStorage.descendant c s ds = .ok (some a) ∧
        ok a ∧ StorageShows c a (cs ++ ds))

end statements

section generic
variable {c : Cfg} {S Cell T : Type} [LawfulDim Cell] [Storage S Cell] [BitStorage S Cell] [StorageBits S Cell T]

theorem digitLayout_of (hc : c.Supported) {D : Nat} (hD : dim Cell = D) {key : Cell → Nat}
    (hk : ∀ v : Cell, key v = Dimension.toUsize v) {number size : T → Nat} {room : T → Prop}
    (hn : ∀ s : S, number (StorageBits.bits s) = value s) (hs : ∀ s : S, size (StorageBits.bits s) = width s)
    (hr : ∀ s : S, room (StorageBits.bits s) → fit c s ∧ ∀ v : Cell, written S c v = v) :
    DigitLayout c S D key number size room := by
  intro s l h1 h2
  subst hD
  obtain ⟨hf, hwr⟩ := hr s h1
  rw [hs] at h2
  refine ⟨⟨_, get_ok hc hf h2, ?_⟩, fun v => ?_⟩
  · rw [hk, LawfulDim.toUsize_ofNat _ (digit_lt _ _ _ _), hn, hs]
    rfl
  · obtain ⟨s', e1, -, e3, e4, e5⟩ := set_ok v hc hf h2
    refine ⟨s', e1, e4, by rw [hs, hs, e3], fun i => ?_⟩
    rw [hn, hn, hs, e5, hwr, hk]

omit [StorageBits S Cell T] in
theorem storageShows_iff (hc : c.Supported) {s : S} (h : WF c s) {cs : List Cell} :
    StorageShows c s cs ↔ path s = cs := by
  constructor
  · rintro ⟨h1, h2⟩
    apply path_of_slots h1
    intro k hk
    have := h2 k hk
    rw [get_slot hc h (by rw [h1]; exact hk)] at this
    exact Except.ok.inj this
  · rintro rfl
    refine ⟨(path_length s).symm, fun l hl => ?_⟩
    rw [path_getElem, get_slot hc h (by simpa using hl)]

end generic

variable {c : Cfg} {w : Nat}

/-! ## The provided methods -/

/-- C80. The accessors of the six storages are those of their storage types on their bits. -/
theorem C80_provided_methods (c : Cfg) (w : Nat) :
    (∀ (s : FixedDepthStorage2D w) l,
      Storage.getCellAtLevelUnchecked c s l = StorageBits.getCellAtLevelUnchecked c s l ∧
      ∀ v, Storage.setCellAtLevelUnchecked c s l v = StorageBits.setCellAtLevelUnchecked c s l v) ∧
    (∀ (s : StaticStorage2D w) l,
      Storage.getCellAtLevelUnchecked c s l = StorageBits.getCellAtLevelUnchecked c s l ∧
      ∀ v, Storage.setCellAtLevelUnchecked c s l v = StorageBits.setCellAtLevelUnchecked c s l v) ∧
    (∀ (s : DynamicStorage2D) l,
      Storage.getCellAtLevelUnchecked c s l = StorageBits.getCellAtLevelUnchecked c s l ∧
      ∀ v, Storage.setCellAtLevelUnchecked c s l v = StorageBits.setCellAtLevelUnchecked c s l v) ∧
    (∀ (s : FixedDepthStorage3D w) l,
      Storage.getCellAtLevelUnchecked c s l = StorageBits.getCellAtLevelUnchecked c s l ∧
      ∀ v, Storage.setCellAtLevelUnchecked c s l v = StorageBits.setCellAtLevelUnchecked c s l v) ∧
    (∀ (s : StaticStorage3D w) l,
      Storage.getCellAtLevelUnchecked c s l = StorageBits.getCellAtLevelUnchecked c s l ∧
      ∀ v, Storage.setCellAtLevelUnchecked c s l v = StorageBits.setCellAtLevelUnchecked c s l v) ∧
    (∀ (s : DynamicStorage3D) l,
      Storage.getCellAtLevelUnchecked c s l = StorageBits.getCellAtLevelUnchecked c s l ∧
      ∀ v, Storage.setCellAtLevelUnchecked c s l v = StorageBits.setCellAtLevelUnchecked c s l v) :=
  ⟨fun _ _ => ⟨rfl, fun _ => rfl⟩, fun _ _ => ⟨rfl, fun _ => rfl⟩, fun _ _ => ⟨rfl, fun _ => rfl⟩,
    fun _ _ => ⟨rfl, fun _ => rfl⟩, fun _ _ => ⟨rfl, fun _ => rfl⟩, fun _ _ => ⟨rfl, fun _ => rfl⟩⟩

example : StorageBits.getCellAtLevelUnchecked x64 exS2.storage 1 = .ok .One := by decide +kernel
example : StorageBits.setCellAtLevelUnchecked x64 exD3.storage 0 .Two = .ok ⟨[0x00#8, 0x47#8], 3⟩ := by decide +kernel

/-- Enough bytes and addressable is well-formed. -/
theorem dynWf2 {s : DynamicStorage2D} (h1 : Addressable c (8 * (StorageBits.bits s).length))
    (h2 : Storage.depth s * 2 ≤ 8 * (StorageBits.bits s).length) : WF c s := by
  refine ⟨?_, h2⟩
  have h1 : 8 * s.bits.length + 64 < 2 ^ c.ptrBits := h1
  change 8 * s.bits.length + 15 < _
  omega

/-! ## 2D -/

/-- C80. `bits` and `bits_mut` of the 2D storages. -/
theorem C80_bits_2D (w : Nat) :
    BitsAccess (FixedDepthStorage2D w) ∧ BitsAccess (StaticStorage2D w) ∧ BitsAccess DynamicStorage2D := by
  refine ⟨⟨fun s f => ⟨rfl, rfl⟩, fun s t => ?_⟩, ⟨fun s f => ⟨rfl, rfl⟩, fun s t => ?_⟩,
    ⟨fun s f => ⟨rfl, rfl⟩, fun s t => ?_⟩⟩
  · rw [FixedDepthStorage2D.eq_iff_eq]
    exact ⟨fun h => h ▸ ⟨rfl, rfl⟩, fun h => by cases s; cases t; cases h.1; rfl⟩
  · rw [StaticStorage2D.eq_iff_eq]
    exact ⟨fun h => h ▸ ⟨rfl, rfl⟩, fun h => by cases s; cases t; cases h.1; cases h.2; rfl⟩
  · rw [DynamicStorage2D.eq_iff_eq]
    exact ⟨fun h => h ▸ ⟨rfl, rfl⟩, fun h => by cases s; cases t; cases h.1; cases h.2; rfl⟩

example : StorageBits.bits (StorageBits.bitsMut exS2.storage (· + 7#16)) = 0xD807#16 :=
  ((C80_bits_2D 16).2.1.1 exS2.storage (· + 7#16)).1

/-- C80. The cells of the 2D storages are digits of their bits. -/
theorem C80_layout_2D (hc : c.Supported) (w : Nat) :
    DigitLayout c (FixedDepthStorage2D w) 2 quadrantKey BitVec.toNat (fun _ => w) (fun _ => IntWidth w) ∧
    DigitLayout c (StaticStorage2D w) 2 quadrantKey BitVec.toNat (fun _ => w) (fun _ => IntWidth w) ∧
    DigitLayout c DynamicStorage2D 2 quadrantKey leNumber (fun bs => 8 * bs.length)
      (fun bs => Addressable c (8 * bs.length) ∧ DynWrites c) :=
  ⟨digitLayout_of hc rfl quadrantKey_eq (fun _ => rfl) (fun _ => rfl) (fun _ h => ⟨h, fun _ => rfl⟩),
    digitLayout_of hc rfl quadrantKey_eq (fun _ => rfl) (fun _ => rfl) (fun _ h => ⟨h, fun _ => rfl⟩),
    digitLayout_of hc rfl quadrantKey_eq (fun _ => leNumber_eq _) (fun _ => rfl) (fun s h => ⟨by
      have h1 : 8 * s.bits.length + 64 < 2 ^ c.ptrBits := h.1
      change 8 * s.bits.length + 15 < _
      omega, fun v => congrFun (written_dynamic2 h.2) v⟩)⟩

example : ∃ v, Storage.getCellAtLevelUnchecked x64 (⟨0xB7#8, 2⟩ : StaticStorage2D 8) 1 = .ok v ∧
    quadrantKey v = 0xB7 / 2 ^ (8 - (1 + 1) * 2) % 2 ^ 2 :=
  ((C80_layout_2D x64_supported 8).2.1 ⟨0xB7#8, 2⟩ 1 (by decide) (by decide)).1

/-- C80. The order of the 2D storages is the order of the paths, for all bits. (The order of the fixed-depth storages
is the order of the bits as numbers.) -/
theorem C80_order_2D (hc : c.Supported) (w : Nat) :
    StorageOrders c quadrantKey (fun s : StaticStorage2D w => IntWidth w ∧ Storage.depth s ≤ w / 2) ∧
    StorageOrders c quadrantKey (fun s : DynamicStorage2D => Addressable c (8 * (StorageBits.bits s).length) ∧
      Storage.depth s * 2 ≤ 8 * (StorageBits.bits s).length) ∧
    ∀ s t : FixedDepthStorage2D w,
      RustOrd.cmp c s t = .ok (compare (StorageBits.bits s).toNat (StorageBits.bits t).toNat) ∧
      RustOrd.partialCmp c s t = .ok (some (compare (StorageBits.bits s).toNat (StorageBits.bits t).toNat)) := by
  refine ⟨⟨fun s h => ⟨_, (storageShows_iff hc ((StaticStorage2D.wf_iff h.1 s).mpr h.2)).mpr rfl⟩,
    fun s t cs ds hs ht h1 h2 => ?_⟩,
    ⟨fun s h => ⟨_, (storageShows_iff hc (dynWf2 h.1 h.2)).mpr rfl⟩, fun s t cs ds hs ht h1 h2 => ?_⟩,
    fun _ _ => ⟨rfl, rfl⟩⟩
  · have ws : WF c s := (StaticStorage2D.wf_iff hs.1 s).mpr hs.2
    have wt : WF c t := (StaticStorage2D.wf_iff ht.1 t).mpr ht.2
    rw [← (storageShows_iff hc ws).mp h1, ← (storageShows_iff hc wt).mp h2]
    have h := StaticStorage2D.cmp_ok hc ws wt
    refine ⟨h, ?_⟩
    change (do return some (← RustOrd.cmp c s t)) = _
    rw [h]; rfl
  · have ws := dynWf2 hs.1 hs.2
    have wt := dynWf2 ht.1 ht.2
    rw [← (storageShows_iff hc ws).mp h1, ← (storageShows_iff hc wt).mp h2]
    have h := DynamicStorage2D.cmp_ok hc ws wt
    refine ⟨h, ?_⟩
    change (do return some (← RustOrd.cmp c s t)) = _
    rw [h]; rfl

example : RustOrd.cmp x64 (⟨0xB7#8, 2⟩ : StaticStorage2D 8) ⟨0xB0#8, 2⟩ = .ok .eq :=
  ((C80_order_2D x64_supported 8).1.2 ⟨0xB7#8, 2⟩ ⟨0xB0#8, 2⟩ [.Two, .Three] [.Two, .Three] ⟨by decide, by decide⟩
    ⟨by decide, by decide⟩ (by unfold StorageShows; decide +kernel) (by unfold StorageShows; decide +kernel)).1

/-- C80. Navigation of the 2D storages looks at the path only, for all bits. -/
theorem C80_navigation_2D (hc : c.Supported) (w : Nat) :
    StorageNavigates c (fun s : StaticStorage2D w => IntWidth w ∧ Storage.depth s ≤ w / 2)
      (fun _ n => n < 2 ^ (c.ptrBits - 1)) (some (w / 2)) ∧
    (DynWrites c → StorageNavigates c (fun s : DynamicStorage2D =>
        Addressable c (8 * (StorageBits.bits s).length) ∧
        Storage.depth s * 2 ≤ 8 * (StorageBits.bits s).length)
      (fun s n => Addressable c (8 * (StorageBits.bits s).length + n * 2 + 7)) none) := by
  refine ⟨fun s cs hs h => ?_, fun hw s cs hs h => ?_⟩
  · have ws : WF c s := (StaticStorage2D.wf_iff hs.1 s).mpr hs.2
    obtain rfl := (storageShows_iff hc ws).mp h
    have hds : Storage.depth s = s.depth := rfl
    refine ⟨fun g => ⟨fun hg => ?_, fun hg => ?_⟩, fun ds hr => ⟨fun ⟨n, e, hn⟩ => ?_, fun hn => ?_⟩⟩
    · rw [path_length] at hg
      exact StaticStorage2D.ancestor_none s g hg
    · rw [path_length] at hg
      obtain ⟨a, h1, h2, -, h4⟩ := StaticStorage2D.ancestor_some hc ws g hg
      refine ⟨a, h1, ⟨hs.1, (StaticStorage2D.wf_iff hs.1 a).mp h2⟩, (storageShows_iff hc h2).mpr ?_⟩
      rw [h4, path_length, hds]
    · cases e
      rw [path_length] at hn
      have hsm := StaticStorage2D.depth_small hs.1 hs.2
      have hp : 16 ≤ c.ptrBits := by have := hc; unfold Cfg.Supported at this; omega
      have hpow : 2 ^ c.ptrBits = 2 * 2 ^ (c.ptrBits - 1) := by
        rw [← Nat.pow_succ']; congr 1; omega
      have h15 : 2 ^ 15 ≤ 2 ^ (c.ptrBits - 1) := Nat.pow_le_pow_right (by decide) (by omega)
      refine StaticStorage2D.descendant_none s ds ?_ hn
      rw [hds] at hsm
      omega
    · have hn := hn _ rfl
      rw [path_length] at hn
      obtain ⟨a, h1, h2, -, h4⟩ := StaticStorage2D.descendant_some hc ws ds hn
      exact ⟨a, h1, ⟨hs.1, (StaticStorage2D.wf_iff hs.1 a).mp h2⟩, (storageShows_iff hc h2).mpr h4⟩
  · have hn : DynamicStorage2D.numBytes s.depth ≤ s.bits.length := by
      have : s.depth * 2 ≤ 8 * s.bits.length := hs.2
      unfold DynamicStorage2D.numBytes
      rw [dim_Quadrant]
      omega
    have hi : DynamicStorage2D.Wide c s := ⟨hs.1, hn⟩
    obtain rfl := (storageShows_iff hc hi.wf).mp h
    have hds : Storage.depth s = s.depth := rfl
    refine ⟨fun g => ⟨fun hg => ?_, fun hg => ?_⟩, fun ds hr => ⟨fun ⟨n, e, hn⟩ => (nomatch e), fun hn => ?_⟩⟩
    · rw [path_length] at hg
      exact DynamicStorage2D.ancestor_none s g hg
    · rw [path_length] at hg
      obtain ⟨a, h1, h2, h4⟩ := DynamicStorage2D.wide_ancestor hi g hg
      refine ⟨a, h1, ⟨h2.addr, h2.wf.depth_le⟩, (storageShows_iff hc h2.wf).mpr ?_⟩
      rw [h4, path_length, hds]
    · obtain ⟨a, h1, h2, -, h4⟩ := DynamicStorage2D.wide_descendant hc hi ds (by
        have hr : 8 * s.bits.length + ds.length * 2 + 7 + 64 < _ := hr
        unfold Addressable DynamicStorage2D.numBytes
        rw [dim_Quadrant]
        omega)
      exact ⟨a, h1, ⟨h2.addr, h2.wf.depth_le⟩, (storageShows_iff hc h2.wf).mpr (h4 hw)⟩

example : ∃ a, VariableDepthStorage.ancestor x64 (⟨0xB7#8, 2⟩ : StaticStorage2D 8) ⟨1, by decide⟩ = .ok (some a) ∧
    StorageShows x64 a [Quadrant.Two] := by
  obtain ⟨a, h1, -, h2⟩ := (((C80_navigation_2D x64_supported 8).1 ⟨0xB7#8, 2⟩ [.Two, .Three] ⟨by decide, by decide⟩
    (by unfold StorageShows; decide +kernel)).1 ⟨1, by decide⟩).2 (by decide)
  exact ⟨a, h1, h2⟩

/-- Three bytes more than two levels need. -/
example : ∃ a, VariableDepthStorage.descendant x64 (⟨[0x11#8, 0x22#8, 0x33#8, 0xB7#8], 2⟩ : DynamicStorage2D) [.One] = .ok (some a) ∧
    StorageShows x64 a [Quadrant.Two, .Three, .One] := by
  obtain ⟨a, h1, -, h2⟩ := (((C80_navigation_2D x64_supported 8).2 (by unfold DynWrites; decide)
    ⟨[0x11#8, 0x22#8, 0x33#8, 0xB7#8], 2⟩ [.Two, .Three] ⟨by unfold Addressable; decide, by decide⟩
    (by unfold StorageShows; decide +kernel)).2 [.One] (by unfold Addressable; decide)).2 (fun _ e => nomatch e)
  exact ⟨a, h1, h2⟩

/-- Enough bytes and addressable is well-formed. -/
theorem dynWf3 {s : DynamicStorage3D} (h1 : Addressable c (8 * (StorageBits.bits s).length))
    (h2 : Storage.depth s * 3 ≤ 8 * (StorageBits.bits s).length) : WF c s := by
  refine ⟨?_, h2⟩
  have h1 : 8 * s.bits.length + 64 < 2 ^ c.ptrBits := h1
  change 8 * s.bits.length + 15 < _
  omega

/-! ## 3D -/

/-- C80. `bits` and `bits_mut` of the 3D storages. -/
theorem C80_bits_3D (w : Nat) :
    BitsAccess (FixedDepthStorage3D w) ∧ BitsAccess (StaticStorage3D w) ∧ BitsAccess DynamicStorage3D := by
  refine ⟨⟨fun s f => ⟨rfl, rfl⟩, fun s t => ?_⟩, ⟨fun s f => ⟨rfl, rfl⟩, fun s t => ?_⟩,
    ⟨fun s f => ⟨rfl, rfl⟩, fun s t => ?_⟩⟩
  · rw [FixedDepthStorage3D.eq_iff_eq]
    exact ⟨fun h => h ▸ ⟨rfl, rfl⟩, fun h => by cases s; cases t; cases h.1; rfl⟩
  · rw [StaticStorage3D.eq_iff_eq]
    exact ⟨fun h => h ▸ ⟨rfl, rfl⟩, fun h => by cases s; cases t; cases h.1; cases h.2; rfl⟩
  · rw [DynamicStorage3D.eq_iff_eq]
    exact ⟨fun h => h ▸ ⟨rfl, rfl⟩, fun h => by cases s; cases t; cases h.1; cases h.2; rfl⟩

example : RustOrd.eq (StorageBits.bitsMut exD3.storage (0#8 :: ·)) exD3.storage = true ↔
    StorageBits.bits (StorageBits.bitsMut exD3.storage (0#8 :: ·)) = StorageBits.bits exD3.storage ∧ 3 = 3 :=
  (C80_bits_3D 16).2.2.2 _ _

/-- C80. The cells of the 3D storages are digits of their bits. -/
theorem C80_layout_3D (hc : c.Supported) (w : Nat) :
    DigitLayout c (FixedDepthStorage3D w) 3 octantKey BitVec.toNat (fun _ => w) (fun _ => IntWidth w) ∧
    DigitLayout c (StaticStorage3D w) 3 octantKey BitVec.toNat (fun _ => w) (fun _ => IntWidth w) ∧
    DigitLayout c DynamicStorage3D 3 octantKey leNumber (fun bs => 8 * bs.length)
      (fun bs => Addressable c (8 * bs.length) ∧ DynWrites c) :=
  ⟨digitLayout_of hc rfl octantKey_eq (fun _ => rfl) (fun _ => rfl) (fun _ h => ⟨h, fun _ => rfl⟩),
    digitLayout_of hc rfl octantKey_eq (fun _ => rfl) (fun _ => rfl) (fun _ h => ⟨h, fun _ => rfl⟩),
    digitLayout_of hc rfl octantKey_eq (fun _ => leNumber_eq _) (fun _ => rfl) (fun s h => ⟨by
      have h1 : 8 * s.bits.length + 64 < 2 ^ c.ptrBits := h.1
      change 8 * s.bits.length + 15 < _
      omega, fun v => congrFun (written_dynamic3 h.2) v⟩)⟩

example : ∃ v, Storage.getCellAtLevelUnchecked x64 (⟨[0x37#8, 0xA5#8], 3⟩ : DynamicStorage3D) 2 = .ok v ∧
    octantKey v = 0xA537 / 2 ^ (16 - (2 + 1) * 3) % 2 ^ 3 :=
  ((C80_layout_3D x64_supported 8).2.2 ⟨[0x37#8, 0xA5#8], 3⟩ 2 ⟨by unfold Addressable; decide, by decide⟩ (by decide)).1

/-- C80. The order of the 3D storages is the order of the paths, for all bits. (The order of the fixed-depth storages
is the order of the bits as numbers.) -/
theorem C80_order_3D (hc : c.Supported) (w : Nat) :
    StorageOrders c octantKey (fun s : StaticStorage3D w => IntWidth w ∧ Storage.depth s ≤ w / 3) ∧
    StorageOrders c octantKey (fun s : DynamicStorage3D => Addressable c (8 * (StorageBits.bits s).length) ∧
      Storage.depth s * 3 ≤ 8 * (StorageBits.bits s).length) ∧
    ∀ s t : FixedDepthStorage3D w,
      RustOrd.cmp c s t = .ok (compare (StorageBits.bits s).toNat (StorageBits.bits t).toNat) ∧
      RustOrd.partialCmp c s t = .ok (some (compare (StorageBits.bits s).toNat (StorageBits.bits t).toNat)) := by
  refine ⟨⟨fun s h => ⟨_, (storageShows_iff hc ((StaticStorage3D.wf_iff h.1 s).mpr h.2)).mpr rfl⟩,
    fun s t cs ds hs ht h1 h2 => ?_⟩,
    ⟨fun s h => ⟨_, (storageShows_iff hc (dynWf3 h.1 h.2)).mpr rfl⟩, fun s t cs ds hs ht h1 h2 => ?_⟩,
    fun _ _ => ⟨rfl, rfl⟩⟩
  · have ws : WF c s := (StaticStorage3D.wf_iff hs.1 s).mpr hs.2
    have wt : WF c t := (StaticStorage3D.wf_iff ht.1 t).mpr ht.2
    rw [← (storageShows_iff hc ws).mp h1, ← (storageShows_iff hc wt).mp h2]
    have h := StaticStorage3D.cmp_ok hc ws wt
    refine ⟨h, ?_⟩
    change (do return some (← RustOrd.cmp c s t)) = _
    rw [h]; rfl
  · have ws := dynWf3 hs.1 hs.2
    have wt := dynWf3 ht.1 ht.2
    rw [← (storageShows_iff hc ws).mp h1, ← (storageShows_iff hc wt).mp h2]
    have h := DynamicStorage3D.cmp_ok hc ws wt
    refine ⟨h, ?_⟩
    change (do return some (← RustOrd.cmp c s t)) = _
    rw [h]; rfl

example : RustOrd.cmp x64 (⟨[0x37#8, 0xA5#8], 3⟩ : DynamicStorage3D) ⟨[0x00#8, 0xA5#8], 3⟩ = .ok .eq :=
  ((C80_order_3D x64_supported 8).2.1.2 ⟨[0x37#8, 0xA5#8], 3⟩ ⟨[0x00#8, 0xA5#8], 3⟩ [.Five, .One, .Two] [.Five, .One, .Two]
    ⟨by unfold Addressable; decide, by decide⟩ ⟨by unfold Addressable; decide, by decide⟩
    (by unfold StorageShows; decide +kernel) (by unfold StorageShows; decide +kernel)).1

/-- C80. Navigation of the 3D storages looks at the path only, for all bits. -/
theorem C80_navigation_3D (hc : c.Supported) (w : Nat) :
    StorageNavigates c (fun s : StaticStorage3D w => IntWidth w ∧ Storage.depth s ≤ w / 3)
      (fun _ n => n < 2 ^ (c.ptrBits - 1)) (some (w / 3)) ∧
    (DynWrites c → StorageNavigates c (fun s : DynamicStorage3D =>
        Addressable c (8 * (StorageBits.bits s).length) ∧
        Storage.depth s * 3 ≤ 8 * (StorageBits.bits s).length)
      (fun s n => Addressable c (8 * (StorageBits.bits s).length + n * 3 + 7)) none) := by
  refine ⟨fun s cs hs h => ?_, fun hw s cs hs h => ?_⟩
  · have ws : WF c s := (StaticStorage3D.wf_iff hs.1 s).mpr hs.2
    obtain rfl := (storageShows_iff hc ws).mp h
    have hds : Storage.depth s = s.depth := rfl
    refine ⟨fun g => ⟨fun hg => ?_, fun hg => ?_⟩, fun ds hr => ⟨fun ⟨n, e, hn⟩ => ?_, fun hn => ?_⟩⟩
    · rw [path_length] at hg
      exact StaticStorage3D.ancestor_none s g hg
    · rw [path_length] at hg
      obtain ⟨a, h1, h2, -, h4⟩ := StaticStorage3D.ancestor_some hc ws g hg
      refine ⟨a, h1, ⟨hs.1, (StaticStorage3D.wf_iff hs.1 a).mp h2⟩, (storageShows_iff hc h2).mpr ?_⟩
      rw [h4, path_length, hds]
    · cases e
      rw [path_length] at hn
      have hsm := StaticStorage3D.depth_small hs.1 hs.2
      have hp : 16 ≤ c.ptrBits := by have := hc; unfold Cfg.Supported at this; omega
      have hpow : 2 ^ c.ptrBits = 2 * 2 ^ (c.ptrBits - 1) := by
        rw [← Nat.pow_succ']; congr 1; omega
      have h15 : 2 ^ 15 ≤ 2 ^ (c.ptrBits - 1) := Nat.pow_le_pow_right (by decide) (by omega)
      refine StaticStorage3D.descendant_none s ds ?_ hn
      rw [hds] at hsm
      omega
    · have hn := hn _ rfl
      rw [path_length] at hn
      obtain ⟨a, h1, h2, -, h4⟩ := StaticStorage3D.descendant_some hc ws ds hn
      exact ⟨a, h1, ⟨hs.1, (StaticStorage3D.wf_iff hs.1 a).mp h2⟩, (storageShows_iff hc h2).mpr h4⟩
  · have hn : DynamicStorage3D.numBytes s.depth ≤ s.bits.length := by
      have : s.depth * 3 ≤ 8 * s.bits.length := hs.2
      unfold DynamicStorage3D.numBytes
      rw [dim_Octant]
      omega
    have hi : DynamicStorage3D.Wide c s := ⟨hs.1, hn⟩
    obtain rfl := (storageShows_iff hc hi.wf).mp h
    have hds : Storage.depth s = s.depth := rfl
    refine ⟨fun g => ⟨fun hg => ?_, fun hg => ?_⟩, fun ds hr => ⟨fun ⟨n, e, hn⟩ => (nomatch e), fun hn => ?_⟩⟩
    · rw [path_length] at hg
      exact DynamicStorage3D.ancestor_none s g hg
    · rw [path_length] at hg
      obtain ⟨a, h1, h2, h4⟩ := DynamicStorage3D.wide_ancestor hi g hg
      refine ⟨a, h1, ⟨h2.addr, h2.wf.depth_le⟩, (storageShows_iff hc h2.wf).mpr ?_⟩
      rw [h4, path_length, hds]
    · obtain ⟨a, h1, h2, -, h4⟩ := DynamicStorage3D.wide_descendant hc hi ds (by
        have hr : 8 * s.bits.length + ds.length * 3 + 7 + 64 < _ := hr
        unfold Addressable DynamicStorage3D.numBytes
        rw [dim_Octant]
        omega)
      exact ⟨a, h1, ⟨h2.addr, h2.wf.depth_le⟩, (storageShows_iff hc h2.wf).mpr (h4 hw)⟩

example : ∃ a, VariableDepthStorage.descendant x64 (⟨[0x37#8, 0xA5#8], 3⟩ : DynamicStorage3D) [.Seven] = .ok (some a) ∧
    StorageShows x64 a [Octant.Five, .One, .Two, .Seven] := by
  obtain ⟨a, h1, -, h2⟩ := (((C80_navigation_3D x64_supported 8).2 x64_writes ⟨[0x37#8, 0xA5#8], 3⟩ [.Five, .One, .Two]
    ⟨by unfold Addressable; decide, by decide⟩ (by unfold StorageShows; decide +kernel)).2 [.Seven]
    (by unfold Addressable; decide)).2 (fun _ e => nomatch e)
  exact ⟨a, h1, h2⟩

/-! ## Unused bits

`==` compares all bits, the order only those of the path. -/

/-- C80. Two storages that differ only in unused bits are `Equal` but not `==`: safe code can make such storages with
`bits_mut`. -/
theorem C80_unused_bits_split_order_and_equality :
    ∃ s t : StaticStorage2D 8, StaticStorage2D.tryFromSlice x64 8 [.Two] = .ok (.ok s) ∧
      t = StorageBits.bitsMut s (fun b => b ||| 1#8) ∧ RustOrd.cmp x64 s t = .ok .eq ∧ RustOrd.eq s t = false :=
  ⟨⟨0x80#8, 1⟩, ⟨0x81#8, 1⟩, by decide +kernel, rfl, by decide +kernel, by decide +kernel⟩

end MortonRs
