import Verif.Lemmas.ContainersGrid3D
import Verif.Props.Foreign3D
import Verif.Props.Containers2D

/-! # C84 for 3D indices: fixed-depth and static indices over any container

`FixedDepthStorage3D<B>` and `StaticStorage3D<B>` accept a container `B` of another crate (`indices/mod.rs` 38-50). What a user
relies on holds for every container that keeps the contract `LawfulContainer` (and `LawfulBytes` for the conversions that copy
bytes). -/

namespace MortonRs

open BitStorage LawfulContainer MortonIndex VariableDepthMortonIndex

section
variable {B : Type} [FixedStorageType B]

/-- A fixed-depth storage as the crate makes them: the bits below the lowest cell (none in 3D if `BITS` is even) are zero. -/
def FixedDepthStorage3DOf.Ok [LawfulContainer B] (s : FixedDepthStorage3DOf B) : Prop :=
  val s.bits % 2 ^ (Bits.BITS B % 3) = 0

/-- A static storage as the crate makes them: no deeper than the container, the bits below the cells are zero. -/
def StaticStorage3DOf.Ok [LawfulContainer B] (s : StaticStorage3DOf B) : Prop :=
  s.depth ≤ Bits.BITS B / 3 ∧ val s.bits % 2 ^ (Bits.BITS B - s.depth * 3) = 0

/-- The cells of a fixed-depth storage: the base-8 digits of the number, from the top. -/
def FixedDepthStorage3DOf.view [LawfulContainer B] (s : FixedDepthStorage3DOf B) : List Octant :=
  containerCells Octant (Bits.BITS B / 3) s.bits

/-- The cells of a static storage. -/
def StaticStorage3DOf.view [LawfulContainer B] (s : StaticStorage3DOf B) : List Octant :=
  containerCells Octant s.depth s.bits

end

section
variable {B : Type} [FixedStorageType B] [LawfulContainer B] {c : Cfg}

theorem fixedOf_view3 (s : FixedDepthStorage3DOf B) : s.view = path s := rfl

theorem staticOf_view3 (s : StaticStorage3DOf B) : s.view = path s := rfl

theorem fixedOf_ok3 (s : FixedDepthStorage3DOf B) : s.Ok ↔ TailZero s := by
  unfold FixedDepthStorage3DOf.Ok
  rw [mod_two_pow_zero, show Bits.BITS B % 3 = Bits.BITS B - Bits.BITS B / 3 * 3 by omega]
  rfl

theorem staticOf_ok3 (hf : on B c) (s : StaticStorage3DOf B) : s.Ok ↔ WF c s ∧ TailZero s := by
  unfold StaticStorage3DOf.Ok
  rw [mod_two_pow_zero, StaticStorage3DOf.wf_iff hf]
  rfl

omit [LawfulContainer B] in
theorem partialCmp_of_cmp3 {a b : StaticStorage3DOf B} {r : Ordering} (h : RustOrd.cmp c a b = .ok r) :
    RustOrd.partialCmp c a b = .ok (some r) := by
  change (do return some (← StaticStorage3DOf.cmp c a b) : Res (Option Ordering)) = _
  rw [show StaticStorage3DOf.cmp c a b = .ok r from h]
  rfl

/-! ## The storages -/

/-- Both storages keep the contracts of C83 over every container, so all C83 theorems (access, navigation, order, grid positions,
strings, whole programs) hold for the indices over them. The depth of a static index is a `u8`, hence at most 255 levels. -/
theorem C84_storages_3D (hc : c.Supported) (hf : on B c) :
    (StorageContract c (FixedDepthStorage3DOf.Ok (B := B)) FixedDepthStorage3DOf.view ∧
      EqContract (FixedDepthStorage3DOf.Ok (B := B)) FixedDepthStorage3DOf.view ∧
      OrdContract c octantKey (FixedDepthStorage3DOf.Ok (B := B)) FixedDepthStorage3DOf.view) ∧
    (Bits.BITS B / 3 < 256 →
      StorageContract c (StaticStorage3DOf.Ok (B := B)) StaticStorage3DOf.view ∧
      VariableContract c (StaticStorage3DOf.Ok (B := B)) StaticStorage3DOf.view (fun _ k => k < 2 ^ (c.ptrBits - 1))
        (some (Bits.BITS B / 3)) ∧
      EqContract (StaticStorage3DOf.Ok (B := B)) StaticStorage3DOf.view ∧
      OrdContract c octantKey (StaticStorage3DOf.Ok (B := B)) StaticStorage3DOf.view) := by
  have hu := usize hf
  have hp : 2 ^ 15 ≤ 2 ^ (c.ptrBits - 1) := Nat.pow_le_pow_right (by decide) (by rcases hc with h | h | h <;> omega)
  have hp2 : 2 ^ c.ptrBits = 2 * 2 ^ (c.ptrBits - 1) := by
    rw [← Nat.pow_succ']
    congr 1
    rcases hc with h | h | h <;> omega
  refine ⟨⟨⟨?_, ?_, ?_, ?_⟩, ⟨?_, ?_⟩, ?_⟩, fun hB => ⟨⟨?_, ?_, ?_, ?_⟩, ⟨?_, ?_, ?_, ?_, ?_, ?_⟩, ⟨?_, ?_⟩, ?_⟩⟩
  · intro s _
    exact (path_length s).symm
  · intro s _
    rw [fixedOf_view3, path_length]
    change Bits.BITS B / 3 < _
    omega
  · intro s _ l hl
    rw [fixedOf_view3, path_length] at hl
    simp only [fixedOf_view3, path_getElem]
    exact get_slot hc (FixedDepthStorage3DOf.wf hf s) hl
  · intro s hs l v hl
    rw [fixedOf_view3, path_length] at hl
    obtain ⟨s', h1, h2, h3, h4⟩ := set_path hc (FixedDepthStorage3DOf.wf hf s) v hl
    exact ⟨s', h1, (fixedOf_ok3 s').mpr (h4 ((fixedOf_ok3 s).mp hs)), h3⟩
  · intro s
    exact (LawfulContainer.eq s.bits s.bits).mpr rfl
  · intro a b ha hb
    exact FixedDepthStorage3DOf.eq_iff ((fixedOf_ok3 a).mp ha) ((fixedOf_ok3 b).mp hb)
  · intro a b ha hb
    have h := FixedDepthStorage3DOf.cmp_ok hf ((fixedOf_ok3 a).mp ha) ((fixedOf_ok3 b).mp hb)
    refine ⟨h, ?_⟩
    change RustOrd.partialCmp c a.bits b.bits = _
    change RustOrd.cmp c a.bits b.bits = _ at h
    rw [LawfulContainer.cmp hf] at h
    rw [LawfulContainer.partialCmp hf]
    injection h with h
    rw [h]
    rfl
  · intro s _
    exact (path_length s).symm
  · intro s hs
    rw [staticOf_view3, path_length]
    have := hs.1
    change s.depth < _
    omega
  · intro s hs l hl
    rw [staticOf_view3, path_length] at hl
    simp only [staticOf_view3, path_getElem]
    exact get_slot hc ((staticOf_ok3 hf s).mp hs).1 hl
  · intro s hs l v hl
    rw [staticOf_view3, path_length] at hl
    obtain ⟨h1, h2⟩ := (staticOf_ok3 hf s).mp hs
    obtain ⟨s', g1, g2, g3, g4⟩ := set_path hc h1 v hl
    exact ⟨s', g1, (staticOf_ok3 hf s').mpr ⟨g2, g4 h2⟩, g3⟩
  · intro s hs g hg
    rw [staticOf_view3, path_length] at hg
    exact StaticStorage3DOf.ancestor_none s g hg
  · intro s hs g hg
    rw [staticOf_view3, path_length] at *
    obtain ⟨h1, h2⟩ := (staticOf_ok3 hf s).mp hs
    obtain ⟨a, g1, g2, g3, g4⟩ := StaticStorage3DOf.ancestor_some hc hB h1 g hg
    exact ⟨a, g1, (staticOf_ok3 hf a).mpr ⟨g2, g3 h2⟩, g4⟩
  · intro s hs cs hr he
    rw [staticOf_view3, path_length] at he
    have := hs.1
    have he' : Bits.BITS B / 3 < s.depth + cs.length := he
    exact StaticStorage3DOf.descendant_none s cs (by omega) he'
  · intro s hs cs hr he
    rw [staticOf_view3, path_length] at he
    obtain ⟨h1, h2⟩ := (staticOf_ok3 hf s).mp hs
    have he' : ¬ Bits.BITS B / 3 < s.depth + cs.length := he
    obtain ⟨a, g1, g2, g3, g4⟩ := StaticStorage3DOf.descendant_some hc hB h1 cs (Nat.not_lt.mp he')
    exact ⟨a, g1, (staticOf_ok3 hf a).mpr ⟨g2, g3 h2⟩, g4⟩
  · intro s hs
    rw [staticOf_view3, path_length]
    exact Nat.not_lt.mpr hs.1
  · intro s hs n k h
    rw [staticOf_view3, path_length] at h
    have := hs.1
    change n + k ≤ s.depth at h
    omega
  · intro s
    change (RustOrd.eq s.bits s.bits && s.depth == s.depth) = true
    rw [(LawfulContainer.eq s.bits s.bits).mpr rfl]
    simp
  · intro a b ha hb
    obtain ⟨h1, h2⟩ := (staticOf_ok3 hf a).mp ha
    obtain ⟨h3, h4⟩ := (staticOf_ok3 hf b).mp hb
    exact StaticStorage3DOf.eq_iff h1 h2 h4
  · intro a b ha hb
    have h := StaticStorage3DOf.cmp_ok ((staticOf_ok3 hf a).mp ha).1 ((staticOf_ok3 hf b).mp hb).1
    exact ⟨h, partialCmp_of_cmp3 h⟩

/-! ## Constructors -/

/-- Fixed depth: `default()` is all `Zero`; `try_from` keeps the cells and fills the rest with `Zero`, or names the maximum depth. -/
theorem C84_fixed_constructors_3D (hc : c.Supported) (hf : on B c) :
    ((FixedDepthStorage3DOf.default B).Ok ∧
      Shows c (⟨FixedDepthStorage3DOf.default B⟩ : MortonIndex3D _) (List.replicate (Bits.BITS B / 3) .Zero)) ∧
    (∀ cs : List Octant, cs.length ≤ Bits.BITS B / 3 → ∃ m : MortonIndex3D (FixedDepthStorage3DOf B),
      MortonIndex3D.tryFromSlice c cs = .ok (.ok m) ∧ MortonIndex3D.tryFromArray c cs = .ok (.ok m) ∧ m.storage.Ok ∧
      Shows c m (cs ++ List.replicate (Bits.BITS B / 3 - cs.length) .Zero)) ∧
    (∀ cs : List Octant, cs.length > Bits.BITS B / 3 →
      (MortonIndex3D.tryFromSlice c cs : Res (Except Error (MortonIndex3D (FixedDepthStorage3DOf B)))) =
        .ok (.error (.DepthLimitedExceeded (Bits.BITS B / 3))) ∧
      (MortonIndex3D.tryFromArray c cs : Res (Except Error (MortonIndex3D (FixedDepthStorage3DOf B)))) =
        .ok (.error (.DepthLimitedExceeded (Bits.BITS B / 3)))) := by
  have hsh := fun m : MortonIndex3D (FixedDepthStorage3DOf B) =>
    MortonIndex3D.shows_path hc (m := m) (FixedDepthStorage3DOf.wf hf m.storage)
  refine ⟨⟨(fixedOf_ok3 _).mpr FixedDepthStorage3DOf.tailZero_default, ?_⟩, fun cs h => ?_, fun cs h => ?_⟩
  · have := hsh ⟨FixedDepthStorage3DOf.default B⟩
    rwa [show path (FixedDepthStorage3DOf.default B) = List.replicate (Bits.BITS B / 3) .Zero from
      StaticStorage3DOf.zero_path (B := B) _ (Nat.le_refl _)] at this
  · obtain ⟨s, h1, h2, h3, h4⟩ := FixedDepthStorage3DOf.tryFrom_ok hc hf cs h
    refine ⟨⟨s⟩, ?_, ?_, (fixedOf_ok3 _).mpr h3, h4 ▸ hsh ⟨s⟩⟩
    · simp only [MortonIndex3D.tryFromSlice, TryFromCells.tryFromSlice, h1, ok_bind, pure_eq_ok, Except.map]
    · simp only [MortonIndex3D.tryFromArray, TryFromCells.tryFromArray, h2, ok_bind, pure_eq_ok, Except.map]
  · obtain ⟨h1, h2⟩ := FixedDepthStorage3DOf.tryFrom_error (B := B) (c := c) cs h
    constructor
    · simp only [MortonIndex3D.tryFromSlice, TryFromCells.tryFromSlice, h1, ok_bind, pure_eq_ok, Except.map]; rfl
    · simp only [MortonIndex3D.tryFromArray, TryFromCells.tryFromArray, h2, ok_bind, pure_eq_ok, Except.map]; rfl

/-- Static: `default()` is the root, `zeroed(d)` is `d` times `Zero`, `try_from` keeps the cells; beyond the maximum depth `None`
and the error that names it. -/
theorem C84_static_constructors_3D (hc : c.Supported) (hf : on B c) (hB : Bits.BITS B / 3 < 256) :
    ((StaticStorage3DOf.default B).Ok ∧ Shows c (⟨StaticStorage3DOf.default B⟩ : MortonIndex3D _) []) ∧
    (∀ d, d ≤ Bits.BITS B / 3 → ∃ m, MortonIndex3D.staticZeroedOf B d = some m ∧ m.storage.Ok ∧
      Shows c m (List.replicate d .Zero)) ∧
    (∀ d, d > Bits.BITS B / 3 → MortonIndex3D.staticZeroedOf B d = none) ∧
    (∀ cs : List Octant, cs.length ≤ Bits.BITS B / 3 → ∃ m : MortonIndex3D (StaticStorage3DOf B),
      MortonIndex3D.tryFromSlice c cs = .ok (.ok m) ∧ MortonIndex3D.tryFromArray c cs = .ok (.ok m) ∧ m.storage.Ok ∧
      Shows c m cs) ∧
    (∀ cs : List Octant, cs.length > Bits.BITS B / 3 →
      (MortonIndex3D.tryFromSlice c cs : Res (Except Error (MortonIndex3D (StaticStorage3DOf B)))) =
        .ok (.error (.DepthLimitedExceeded (Bits.BITS B / 3))) ∧
      (MortonIndex3D.tryFromArray c cs : Res (Except Error (MortonIndex3D (StaticStorage3DOf B)))) =
        .ok (.error (.DepthLimitedExceeded (Bits.BITS B / 3)))) := by
  have hz : ∀ d, d ≤ Bits.BITS B / 3 → (⟨FixedStorageType.default, d⟩ : StaticStorage3DOf B).Ok ∧
      Shows c (⟨⟨FixedStorageType.default, d⟩⟩ : MortonIndex3D (StaticStorage3DOf B)) (List.replicate d .Zero) := by
    intro d hd
    have hwf := (StaticStorage3DOf.wf_iff hf (⟨FixedStorageType.default, d⟩ : StaticStorage3DOf B)).mpr hd
    refine ⟨(staticOf_ok3 hf _).mpr ⟨hwf, fun i _ => StaticStorage3DOf.default_bits i d⟩, ?_⟩
    have := MortonIndex3D.shows_path hc
      (m := (⟨⟨FixedStorageType.default, d⟩⟩ : MortonIndex3D (StaticStorage3DOf B))) hwf
    rwa [StaticStorage3DOf.zero_path d hd] at this
  refine ⟨hz 0 (Nat.zero_le _), fun d hd => ⟨_, ?_, hz d hd⟩, fun d hd => ?_, fun cs h => ?_, fun cs h => ?_⟩
  · exact if_neg (Nat.not_lt.mpr hd)
  · exact if_pos hd
  · obtain ⟨s, h1, h2, h3, h4, h5⟩ := StaticStorage3DOf.tryFrom_ok hc hB hf cs h
    refine ⟨⟨s⟩, ?_, ?_, (staticOf_ok3 hf _).mpr ⟨h3, h4⟩, h5 ▸ MortonIndex3D.shows_path hc (m := ⟨s⟩) h3⟩
    · simp only [MortonIndex3D.tryFromSlice, TryFromCells.tryFromSlice, h1, ok_bind, pure_eq_ok, Except.map]
    · simp only [MortonIndex3D.tryFromArray, TryFromCells.tryFromArray, h2, ok_bind, pure_eq_ok, Except.map]
  · obtain ⟨h1, h2⟩ := StaticStorage3DOf.tryFrom_error (B := B) (c := c) cs h
    constructor
    · simp only [MortonIndex3D.tryFromSlice, TryFromCells.tryFromSlice, h1, ok_bind, pure_eq_ok, Except.map]; rfl
    · simp only [MortonIndex3D.tryFromArray, TryFromCells.tryFromArray, h2, ok_bind, pure_eq_ok, Except.map]; rfl

/-! ## Raw indices -/

/-- `from_raw_index` shows the octal digits of the number, from the top. The stray bits below the cells are kept: the index is as
the crate makes them iff they are zero. -/
theorem C84_raw_3D (hc : c.Supported) (hf : on B c) (b : B) :
    (Shows c (MortonIndex3D.fixedFromRawIndexOf b) (containerCells Octant (Bits.BITS B / 3) b) ∧
      ((MortonIndex3D.fixedFromRawIndexOf b).storage.Ok ↔ val b % 2 ^ (Bits.BITS B % 3) = 0)) ∧
    (∀ d, d ≤ Bits.BITS B / 3 → Shows c (MortonIndex3D.staticFromRawIndexOf b d) (containerCells Octant d b) ∧
      ((MortonIndex3D.staticFromRawIndexOf b d).storage.Ok ↔ val b % 2 ^ (Bits.BITS B - d * 3) = 0)) := by
  refine ⟨⟨MortonIndex3D.shows_path hc (m := MortonIndex3D.fixedFromRawIndexOf b) (FixedDepthStorage3DOf.wf hf _), Iff.rfl⟩,
    fun d hd => ⟨MortonIndex3D.shows_path hc (m := MortonIndex3D.staticFromRawIndexOf b d)
      ((StaticStorage3DOf.wf_iff hf _).mpr hd), fun h => h.2, fun h => ⟨hd, h⟩⟩⟩

/-! ## Equality and hashes -/

/-- Equal indices feed the same bytes to a hasher, whatever the storages hold. -/
theorem C84_hash_3D :
    (∀ a b : MortonIndex3D (FixedDepthStorage3DOf B), RustOrd.eq a b = true → RustOrd.hashInput a = RustOrd.hashInput b) ∧
    (∀ a b : MortonIndex3D (StaticStorage3DOf B), RustOrd.eq a b = true → RustOrd.hashInput a = RustOrd.hashInput b) := by
  refine ⟨fun a b h => ?_, fun a b h => ?_⟩
  · exact LawfulContainer.hash _ _ ((LawfulContainer.eq _ _).mp h)
  · have h' : (RustOrd.eq a.storage.bits b.storage.bits && a.storage.depth == b.storage.depth) = true := h
    rw [Bool.and_eq_true, beq_iff_eq] at h'
    change RustOrd.hashInput a.storage.bits ++ [a.storage.depth] = RustOrd.hashInput b.storage.bits ++ [b.storage.depth]
    rw [LawfulContainer.hash _ _ ((LawfulContainer.eq _ _).mp h'.1), h'.2]

/-! ## Grid positions -/

/-- Fixed depth: `from_grid_index` finds the cell at the position, reading the position finds the index back. It does not compile if a
coordinate has no more bits than the index has levels. -/
theorem C84_fixed_grid_3D (hc : c.Supported) (hf : on B c) (h32 : 32 ≤ c.ptrBits) :
    (Bits.BITS B / 3 < c.ptrBits →
      (∀ g o, ∃ m : MortonIndex3D (FixedDepthStorage3DOf B), MortonIndex3D.fixedFromGridIndexOf c g o = .ok m ∧ m.storage.Ok ∧
        GridAt3D c m o g (Bits.BITS B / 3)) ∧
      (∀ m : MortonIndex3D (FixedDepthStorage3DOf B), m.storage.Ok → ∀ o, ∃ g m', m.toGridIndex c o = .ok g ∧
        MortonIndex3D.fixedFromGridIndexOf c g o = .ok m' ∧ RustOrd.eq m' m = true)) ∧
    (Bits.BITS B / 3 ≥ c.ptrBits → ∀ g o,
      (MortonIndex3D.fixedFromGridIndexOf c g o : Res (MortonIndex3D (FixedDepthStorage3DOf B))) = .error .compileError) := by
  refine ⟨fun hfit => ⟨fun g o => ?_, fun m hm o => ?_⟩,
    fun h g o => MortonIndex3D.fixedFromGridIndexOf_error h g o⟩
  · obtain ⟨m, h1, h2, h3⟩ := MortonIndex3D.fixedFromGridIndexOf_ok hc hf (by omega) hfit g o
    exact ⟨m, h1, (fixedOf_ok3 _).mpr h2,
      MortonIndex3D.toGridIndex_of_gridPath hc (FixedDepthStorage3DOf.wf hf m.storage) (Nat.le_of_lt hfit) h3⟩
  · have hwf := FixedDepthStorage3DOf.wf hf m.storage
    obtain ⟨g, h1, -, -⟩ := MortonIndex3D.toGridIndex_ok hc hwf (Nat.le_of_lt hfit) o
    obtain ⟨m', g1, g2, g3⟩ := MortonIndex3D.fixedFromGridIndexOf_ok hc hf (by omega) hfit g o
    refine ⟨g, m', h1, g1, ?_⟩
    exact (FixedDepthStorage3DOf.eq_iff g2 ((fixedOf_ok3 _).mp hm)).mpr
      (MortonIndex3D.path_of_toGridIndex hc hwf (Nat.le_of_lt hfit) h1 (s := m'.storage) rfl g3)

theorem gridPath3Of_of_exact {d : Nat} {o : OctantOrdering} {g : Vector3 c.ptrBits} {s : StaticStorage3DOf B}
    (hd : d ≤ Bits.BITS B / 3) (he : d = 0 ∨ StaticGridExact (Bits.BITS B) d)
    (h : ∀ l, l < d → if MortonIndex3D.staticVisited (Bits.BITS B) d l then GridCell3 o g (d - 1 - l) (slot s l)
      else slot s l = .Zero) : GridPath3 o g d s := by
  intro l hl
  have := h l hl
  rwa [if_pos] at this
  unfold MortonIndex3D.staticVisited
  rcases he with rfl | he
  · omega
  · unfold StaticGridExact at he
    omega

/-- Static, wherever the code does not hit the limits of C25. -/
theorem C84_static_grid_3D (hc : c.Supported) (hf : on B c) (d : Nat) :
    (d > Bits.BITS B / 3 → ∀ g o,
      (MortonIndex3D.staticFromGridIndexOf c g d o : Res (Except Error (MortonIndex3D (StaticStorage3DOf B)))) =
        .ok (.error (.DepthLimitedExceeded (Bits.BITS B / 3)))) ∧
    (d ≤ Bits.BITS B / 3 → Bits.BITS B / 3 ≤ c.ptrBits → Bits.BITS B / 3 - d < c.ptrBits ∨ c.overflowChecks = false →
      d = 0 ∨ StaticGridExact (Bits.BITS B) d →
      (∀ g o, ∃ m : MortonIndex3D (StaticStorage3DOf B), MortonIndex3D.staticFromGridIndexOf c g d o = .ok (.ok m) ∧
        m.storage.Ok ∧ depth m = d ∧ GridAt3D c m o g d) ∧
      (∀ m : MortonIndex3D (StaticStorage3DOf B), m.storage.Ok → depth m = d → ∀ o, ∃ g m', m.toGridIndex c o = .ok g ∧
        MortonIndex3D.staticFromGridIndexOf c g d o = .ok (.ok m') ∧ RustOrd.eq m' m = true)) := by
  refine ⟨fun h g o => MortonIndex3D.staticFromGridIndexOf_error g d h o, fun hd hfit hs he => ⟨fun g o => ?_, fun m hm hdm o => ?_⟩⟩
  · obtain ⟨m, h1, h2, h3, h4⟩ := MortonIndex3D.staticFromGridIndexOf_ok (B := B) hc hf hfit g d hd hs o
    have hwf : WF c m.storage := (StaticStorage3DOf.wf_iff hf m.storage).mpr (by rw [h2]; exact hd)
    have hdep : Storage.depth m.storage = d := h2
    refine ⟨m, h1, (staticOf_ok3 hf _).mpr ⟨hwf, h3⟩, h2, ?_⟩
    have := MortonIndex3D.toGridIndex_of_gridPath hc hwf (o := o) (g := g) (by omega) (by rw [hdep]; exact gridPath3Of_of_exact hd he h4)
    rwa [hdep] at this
  · obtain ⟨hwf, ht⟩ := (staticOf_ok3 hf _).mp hm
    have hdep : Storage.depth m.storage = d := hdm
    obtain ⟨g, h1, -, -⟩ := MortonIndex3D.toGridIndex_ok hc hwf (by omega) o
    obtain ⟨m', g1, g2, g3, g4⟩ := MortonIndex3D.staticFromGridIndexOf_ok (B := B) hc hf hfit g d hd hs o
    have hdep' : Storage.depth m'.storage = d := g2
    have hwf' : WF c m'.storage := (StaticStorage3DOf.wf_iff hf m'.storage).mpr (by rw [g2]; exact hd)
    refine ⟨g, m', h1, g1, ?_⟩
    exact (StaticStorage3DOf.eq_iff hwf' g3 ht).mpr
      (MortonIndex3D.path_of_toGridIndex hc hwf (by omega) h1 (s := m'.storage) (by omega) (by rw [hdep']; exact gridPath3Of_of_exact hd he g4))

end

/-! ## Conversions -/

theorem reach_of_canon3 {c : Cfg} {sc : Scope} (hc : c.Supported) (hdw : DynWrites c) {m : MortonIndex3D DynamicStorage3D}
    (h : DynamicStorage3D.Canon c m.storage) : Reach3D c sc (.dynamic m) := by
  have ha : Addressable c ((path m.storage).length * 3) := by rw [path_length]; exact h.addr
  obtain ⟨m', h1, -, -, h4, h5⟩ := MortonIndex3D.dynamic_tryFrom hc ha
  have : m'.storage = m.storage :=
    DynamicStorage3D.eq_iff_eq.mp ((DynamicStorage3D.eq_iff h4 h).mpr (h5 hdw))
  have e : m' = m := by cases m; cases m'; exact congrArg _ this
  exact e ▸ .dynamicTryFromSlice ha h1

section
variable {B : Type} [FixedStorageType B] [LawfulContainer B] {c : Cfg}

/-- Conversions between fixed-depth, static and dynamic indices that go cell by cell. -/
theorem C84_conversions_3D (hc : c.Supported) (hf : on B c) (hB : Bits.BITS B / 3 < 256) :
    (∀ m : MortonIndex3D (FixedDepthStorage3DOf B), m.storage.Ok → ∀ cs, Shows c m cs →
      (MortonIndex3D.fixedToStaticOf m).storage.Ok ∧ Shows c (MortonIndex3D.fixedToStaticOf m) cs ∧
      RustOrd.eq (MortonIndex3D.staticToFixedOf (MortonIndex3D.fixedToStaticOf m)) m = true) ∧
    (∀ m : MortonIndex3D (StaticStorage3DOf B), m.storage.Ok → ∀ cs, Shows c m cs →
      (MortonIndex3D.staticToFixedOf m).storage.Ok ∧
      Shows c (MortonIndex3D.staticToFixedOf m) (cs ++ List.replicate (Bits.BITS B / 3 - cs.length) .Zero)) ∧
    (DynWrites c → ∀ m : MortonIndex3D (StaticStorage3DOf B), m.storage.Ok → ∀ cs, Shows c m cs →
      ∃ n m', MortonIndex3D.staticToDynamicOf c m = .ok n ∧ Reach3D c .canonical (.dynamic n) ∧ Shows c n cs ∧
      MortonIndex3D.dynamicToStaticOf c B n = .ok (.ok m') ∧ RustOrd.eq m' m = true) ∧
    (∀ m, Reach3D c .all (.dynamic m) → ∀ cs, Shows c m cs → cs.length ≤ Bits.BITS B / 3 →
      ∃ n, MortonIndex3D.dynamicToStaticOf c B m = .ok (.ok n) ∧ n.storage.Ok ∧ Shows c n cs) ∧
    (∀ m, depth m > Bits.BITS B / 3 →
      MortonIndex3D.dynamicToStaticOf c B m = .ok (.error (.DepthLimitedExceeded (Bits.BITS B / 3)))) := by
  have hdet : ∀ {S : Type} [Storage S Octant] [BitStorage S Octant] {m : MortonIndex3D S} {cs}, WF c m.storage →
      Shows c m cs → cs = path m.storage := fun hwf h => shows_unique h (MortonIndex3D.shows_path hc hwf)
  refine ⟨fun m hm cs hs => ?_, fun m hm cs hs => ?_, fun hdw m hm cs hs => ?_, fun m hm cs hs hl => ?_, fun m hd => ?_⟩
  · obtain ⟨h1, h2, h3⟩ := MortonIndex3D.fixedToStaticOf_ok hB hf m
    rw [hdet (FixedDepthStorage3DOf.wf hf _) hs]
    exact ⟨(staticOf_ok3 hf _).mpr ⟨h1, h3 ((fixedOf_ok3 _).mp hm)⟩, h2 ▸ MortonIndex3D.shows_path hc h1,
      (LawfulContainer.eq m.storage.bits m.storage.bits).mpr rfl⟩
  · obtain ⟨h1, h2⟩ := (staticOf_ok3 hf _).mp hm
    obtain ⟨h3, h4⟩ := (MortonIndex3D.staticToFixedOf_ok hf h1).2 h2
    have h5 := MortonIndex3D.shows_path hc (m := MortonIndex3D.staticToFixedOf m) (FixedDepthStorage3DOf.wf hf _)
    rw [h4] at h5
    rw [hdet h1 hs, path_length]
    exact ⟨(fixedOf_ok3 _).mpr h3, h5⟩
  · obtain ⟨h1, h2⟩ := (staticOf_ok3 hf _).mp hm
    obtain ⟨n, g1, g2, g3, g4⟩ := MortonIndex3D.staticToDynamicOf_ok hc hB h1
    obtain ⟨m', k1, k2, k3, k4⟩ := MortonIndex3D.dynamicToStaticOf_ok hc hB hf g2.inv.wf (by rw [g3]; exact hm.1)
    rw [hdet h1 hs, ← g4 hdw]
    exact ⟨n, m', g1, reach_of_canon3 hc hdw g2, MortonIndex3D.shows_path hc g2.inv.wf, k1,
      (StaticStorage3DOf.eq_iff k2 k3 h2).mpr (k4.trans (g4 hdw))⟩
  · have hwf := dynamic_wf3 hc m hm
    rw [hdet hwf hs] at hl ⊢
    rw [path_length] at hl
    obtain ⟨n, h1, h2, h3, h4⟩ := MortonIndex3D.dynamicToStaticOf_ok hc hB hf hwf hl
    exact ⟨n, h1, (staticOf_ok3 hf _).mpr ⟨h2, h3⟩, h4 ▸ MortonIndex3D.shows_path hc h2⟩
  · exact MortonIndex3D.dynamicToStaticOf_error hd

end

section
variable {B : Type} [FixedStorageType B] [LawfulBytes B] {c : Cfg}

/-- Conversions that copy bytes. From a dynamic index the cells arrive in place only if it has as many bytes as the container
(the flaw of C33). -/
theorem C84_bytes_3D (hc : c.Supported) (hf : on B c) (ha : Addressable c (Bits.BITS B)) :
    (DynWrites c → ∀ m : MortonIndex3D (FixedDepthStorage3DOf B), m.storage.Ok → ∀ cs, Shows c m cs →
      Reach3D c .canonical (.dynamic (MortonIndex3D.fixedToDynamicOf c m)) ∧
      Shows c (MortonIndex3D.fixedToDynamicOf c m) cs) ∧
    (∀ m : MortonIndex3D (FixedDepthStorage3DOf B), ∀ cs, Shows c m cs → Shows c (MortonIndex3D.fixedToDynamicOf c m) cs) ∧
    (c.bigEndian = false → ∀ m, Reach3D c .canonical (.dynamic m) → ∀ cs, Shows c m cs → cs.length ≤ Bits.BITS B / 3 →
      ∃ n, MortonIndex3D.dynamicToFixedOf c B m = .ok n ∧
        (Shows c n (cs ++ List.replicate (Bits.BITS B / 3 - cs.length) .Zero) ↔
          (cs.length * 3 + 7) / 8 = Bits.BITS B / 8 ∨ ∀ x ∈ cs, x = .Zero)) ∧
    (∀ m, depth m > Bits.BITS B / 3 →
      MortonIndex3D.dynamicToFixedOf c B m = .error (.DepthLimitedExceeded (Bits.BITS B / 3))) := by
  have hdet : ∀ {S : Type} [Storage S Octant] [BitStorage S Octant] {m : MortonIndex3D S} {cs}, WF c m.storage →
      (Shows c m cs ↔ cs = path m.storage) := fun hwf =>
    ⟨fun h => shows_unique h (MortonIndex3D.shows_path hc hwf), fun h => h ▸ MortonIndex3D.shows_path hc hwf⟩
  have hfx := fun m : MortonIndex3D (FixedDepthStorage3DOf B) => FixedDepthStorage3DOf.wf hf m.storage
  refine ⟨fun hdw m hm cs hs => ?_, fun m cs hs => ?_, fun hle m hm cs hs hl => ?_, fun m hd => ?_⟩
  · obtain ⟨h1, h2, h3⟩ := MortonIndex3D.fixedToDynamicOf_ok ha hf m
    exact ⟨reach_of_canon3 hc hdw (h3 ((fixedOf_ok3 _).mp hm)), (hdet h1.wf).mpr (((hdet (hfx m)).mp hs).trans h2.symm)⟩
  · obtain ⟨h1, h2, -⟩ := MortonIndex3D.fixedToDynamicOf_ok ha hf m
    exact (hdet h1.wf).mpr (((hdet (hfx m)).mp hs).trans h2.symm)
  · have hk := (reach3D_good hc hm).2 rfl
    have hcs := (hdet hk.inv.wf).mp hs
    have hlen : cs.length = m.storage.depth := by rw [hcs, path_length]; rfl
    obtain ⟨f, h1, h2⟩ := MortonIndex3D.dynamicToFixedOf_keeps hf hle hk (by rw [← hlen]; exact hl)
    refine ⟨f, h1, ?_⟩
    rw [hdet (hfx f), eq_comm, hcs, path_length]
    exact h2
  · exact MortonIndex3D.dynamicToFixedOf_error hd

end

/-! ## The integers of the crate -/

/-- A storage of the model `Index3D.lean` in the model that is generic in the container. -/
def FixedDepthStorage3D.generic {w : Nat} (s : FixedDepthStorage3D w) : FixedDepthStorage3DOf (BitVec w) := ⟨s.bits⟩

/-- The same for a static storage. -/
def StaticStorage3D.generic {w : Nat} (s : StaticStorage3D w) : StaticStorage3DOf (BitVec w) := ⟨s.bits, s.depth⟩

theorem fixedSet_generic3 {w : Nat} (c : Cfg) (s : FixedDepthStorage3D w) (l : Nat) (q : Octant) :
    Storage.setCellAtLevelUnchecked c s.generic l q =
      (Storage.setCellAtLevelUnchecked c s l q).map FixedDepthStorage3D.generic := by
  simp only [Storage.setCellAtLevelUnchecked, FixedDepthStorage3D.generic]
  change (FixedDepthStorage.setCellAtLevelUnchecked c w s.bits l q >>= _) = _
  cases FixedDepthStorage.setCellAtLevelUnchecked c w s.bits l q <;> rfl

theorem staticSet_generic3 {w : Nat} (c : Cfg) (s : StaticStorage3D w) (l : Nat) (q : Octant) :
    Storage.setCellAtLevelUnchecked c s.generic l q =
      (Storage.setCellAtLevelUnchecked c s l q).map StaticStorage3D.generic := by
  simp only [Storage.setCellAtLevelUnchecked, StaticStorage3D.generic]
  change (StaticStorage.setCellAtLevelUnchecked c w s.bits l q >>= _) = _
  cases StaticStorage.setCellAtLevelUnchecked c w s.bits l q <;> rfl

theorem staticCmp_generic3 {w : Nat} (c : Cfg) (a b : StaticStorage3D w) :
    StaticStorage3DOf.cmp c a.generic b.generic = StaticStorage3D.cmp c a b := by
  have get : ∀ (x : BitVec w) r, Bits.getBits c x r = intGetBits c x r := fun _ _ => rfl
  simp only [StaticStorage3DOf.cmp, StaticStorage3D.cmp, StaticStorage3D.generic, native_gt, native_ge, ok_bind,
    decide_eq_true_eq, get]
  rfl

/-- Both models of the storages agree on the integers of the crate, results and faults alike. -/
theorem C84_native_storages_3D (c : Cfg) (w : Nat) :
    (∀ s : FixedDepthStorage3D w, Storage.depth s.generic = Storage.depth s ∧
      (∀ l, Storage.getCellAtLevelUnchecked c s.generic l = Storage.getCellAtLevelUnchecked c s l) ∧
      (∀ l q, Storage.setCellAtLevelUnchecked c s.generic l q =
        (Storage.setCellAtLevelUnchecked c s l q).map FixedDepthStorage3D.generic) ∧
      RustOrd.hashInput s.generic = RustOrd.hashInput s ∧
      ∀ t : FixedDepthStorage3D w, RustOrd.cmp c s.generic t.generic = RustOrd.cmp c s t ∧
        RustOrd.partialCmp c s.generic t.generic = RustOrd.partialCmp c s t ∧
        RustOrd.eq s.generic t.generic = RustOrd.eq s t) ∧
    (∀ cs, (FixedDepthStorage3DOf.tryFromSlice c cs : Res (Except Error (FixedDepthStorage3DOf (BitVec w)))) =
        (FixedDepthStorage3D.tryFromSlice c w cs).map (·.map FixedDepthStorage3D.generic) ∧
      (FixedDepthStorage3DOf.tryFromArray c cs : Res (Except Error (FixedDepthStorage3DOf (BitVec w)))) =
        (FixedDepthStorage3D.tryFromArray c w cs).map (·.map FixedDepthStorage3D.generic)) ∧
    (∀ s : StaticStorage3D w, Storage.depth s.generic = Storage.depth s ∧
      (∀ l, Storage.getCellAtLevelUnchecked c s.generic l = Storage.getCellAtLevelUnchecked c s l) ∧
      (∀ l q, Storage.setCellAtLevelUnchecked c s.generic l q =
        (Storage.setCellAtLevelUnchecked c s l q).map StaticStorage3D.generic) ∧
      (∀ g, s.generic.ancestor c g = (s.ancestor c g).map (·.map StaticStorage3D.generic)) ∧
      (∀ cs, s.generic.descendant c cs = (s.descendant c cs).map (·.map StaticStorage3D.generic)) ∧
      RustOrd.hashInput s.generic = RustOrd.hashInput s ∧
      ∀ t : StaticStorage3D w, RustOrd.cmp c s.generic t.generic = RustOrd.cmp c s t ∧
        RustOrd.partialCmp c s.generic t.generic = RustOrd.partialCmp c s t ∧
        RustOrd.eq s.generic t.generic = RustOrd.eq s t) ∧
    (∀ cs, (StaticStorage3DOf.tryFromSlice c cs : Res (Except Error (StaticStorage3DOf (BitVec w)))) =
        (StaticStorage3D.tryFromSlice c w cs).map (·.map StaticStorage3D.generic) ∧
      (StaticStorage3DOf.tryFromArray c cs : Res (Except Error (StaticStorage3DOf (BitVec w)))) =
        (StaticStorage3D.tryFromArray c w cs).map (·.map StaticStorage3D.generic)) := by
  have hF : ∀ cs : List Octant, forEnum cs (FixedDepthStorage3DOf.default (BitVec w))
      (fun level cell ret => Storage.setCellAtLevelUnchecked c ret level cell) =
      (forEnum cs (FixedDepthStorage3D.default w)
        (fun level cell ret => Storage.setCellAtLevelUnchecked c ret level cell)).map FixedDepthStorage3D.generic :=
    fun cs => forEnumFrom_map FixedDepthStorage3D.generic (fun i x s => fixedSet_generic3 c s i x) 0 cs (FixedDepthStorage3D.default w)
  have hS : ∀ cs : List Octant, forEnum cs (StaticStorage3DOf.default (BitVec w))
      (fun level cell ret => Storage.setCellAtLevelUnchecked c ret level cell) =
      (forEnum cs (StaticStorage3D.default w)
        (fun level cell ret => Storage.setCellAtLevelUnchecked c ret level cell)).map StaticStorage3D.generic :=
    fun cs => forEnumFrom_map StaticStorage3D.generic (fun i x s => staticSet_generic3 c s i x) 0 cs (StaticStorage3D.default w)
  have bits : Bits.BITS (BitVec w) = w := rfl
  refine ⟨fun s => ⟨rfl, fun _ => rfl, fixedSet_generic3 c s, rfl, fun t => ⟨rfl, rfl, rfl⟩⟩, fun cs => ⟨?_, ?_⟩,
    fun s => ⟨rfl, fun _ => rfl, staticSet_generic3 c s, fun g => ?_, fun cs => ?_, rfl,
      fun t => ⟨staticCmp_generic3 c s t, ?_, rfl⟩⟩, fun cs => ⟨?_, ?_⟩⟩
  · simp only [FixedDepthStorage3DOf.tryFromSlice, FixedDepthStorage3D.tryFromSlice, hF, bits]
    split
    · rfl
    · cases forEnum cs (FixedDepthStorage3D.default w) _ <;> rfl
  · simp only [FixedDepthStorage3DOf.tryFromArray, FixedDepthStorage3D.tryFromArray, hF, bits]
    split
    · rfl
    · cases forEnum cs (FixedDepthStorage3D.default w) _ <;> rfl
  · have h : ∀ a b, forRange a b s.generic (fun level ret => Storage.setCellAtLevelUnchecked c ret level Octant.Zero) =
        (forRange a b s (fun level ret => Storage.setCellAtLevelUnchecked c ret level Octant.Zero)).map
          StaticStorage3D.generic :=
      fun a b => forRange_map StaticStorage3D.generic (fun i s => staticSet_generic3 c s i _) a b s
    have hd : s.generic.depth = s.depth := rfl
    simp only [StaticStorage3DOf.ancestor, StaticStorage3D.ancestor, hd, h]
    split
    · rfl
    · cases u8sub c s.depth (asU8 g.val) with
      | error e => rfl
      | ok d =>
        simp only [ok_bind]
        cases forRange d s.depth s _ <;> rfl
  · have h : forEnum cs s.generic (fun offset cell ret => do
          Storage.setCellAtLevelUnchecked c ret (← uadd c s.depth offset) cell) =
        (forEnum cs s (fun offset cell ret => do
          Storage.setCellAtLevelUnchecked c ret (← uadd c s.depth offset) cell)).map StaticStorage3D.generic := by
      apply forEnumFrom_map
      intro i x s'
      cases uadd c s.depth i with
      | error e => rfl
      | ok k => exact staticSet_generic3 c s' k x
    have hd : s.generic.depth = s.depth := rfl
    simp only [StaticStorage3DOf.descendant, StaticStorage3D.descendant, hd, bits]
    cases uadd c s.depth cs.length with
    | error e => rfl
    | ok d =>
      simp only [ok_bind]
      split
      · rfl
      · rw [h]
        cases forEnum cs s _ <;> rfl
  · change (do return some (← StaticStorage3DOf.cmp c s.generic t.generic) : Res (Option Ordering)) = _
    rw [staticCmp_generic3]
    rfl
  · simp only [StaticStorage3DOf.tryFromSlice, StaticStorage3D.tryFromSlice, hS, bits]
    split
    · rfl
    · cases forEnum cs (StaticStorage3D.default w) _ <;> rfl
  · simp only [StaticStorage3DOf.tryFromArray, StaticStorage3D.tryFromArray, hS, bits]
    split
    · rfl
    · cases forEnum cs (StaticStorage3D.default w) _ <;> rfl

/-- The index over the same storage in the generic model. -/
def MortonIndex3D.genericF {w : Nat} (m : MortonIndex3D (FixedDepthStorage3D w)) :
    MortonIndex3D (FixedDepthStorage3DOf (BitVec w)) := ⟨m.storage.generic⟩

/-- The same for a static index. -/
def MortonIndex3D.genericS {w : Nat} (m : MortonIndex3D (StaticStorage3D w)) :
    MortonIndex3D (StaticStorage3DOf (BitVec w)) := ⟨m.storage.generic⟩

/-- Both models of the constructors and conversions agree on the integers of the crate. -/
theorem C84_native_3D (c : Cfg) (w : Nat) :
    (∀ g o, MortonIndex3D.fixedFromGridIndexOf c g o = (MortonIndex3D.fixedFromGridIndex c w g o).map MortonIndex3D.genericF) ∧
    (∀ d, MortonIndex3D.staticZeroedOf (BitVec w) d = (MortonIndex3D.staticZeroed w d).map MortonIndex3D.genericS) ∧
    (∀ g d o, MortonIndex3D.staticFromGridIndexOf c g d o =
      (MortonIndex3D.staticFromGridIndex c w g d o).map (·.map MortonIndex3D.genericS)) ∧
    (∀ m : MortonIndex3D (FixedDepthStorage3D w),
      MortonIndex3D.fixedToStaticOf m.genericF = (MortonIndex3D.fixedToStatic m).genericS ∧
      MortonIndex3D.fixedToDynamicOf c m.genericF = MortonIndex3D.fixedToDynamic c m) ∧
    (∀ m : MortonIndex3D (StaticStorage3D w),
      MortonIndex3D.staticToFixedOf m.genericS = (MortonIndex3D.staticToFixed m).genericF ∧
      MortonIndex3D.staticToDynamicOf c m.genericS = MortonIndex3D.staticToDynamic c m) ∧
    (∀ (b : BitVec w) d, MortonIndex3D.fixedFromRawIndexOf b = (MortonIndex3D.fixedFromRawIndex b).genericF ∧
      MortonIndex3D.staticFromRawIndexOf b d = (MortonIndex3D.staticFromRawIndex b d).genericS) ∧
    (∀ m, MortonIndex3D.dynamicToFixedOf c (BitVec w) m = (MortonIndex3D.dynamicToFixed c w m).map MortonIndex3D.genericF ∧
      MortonIndex3D.dynamicToStaticOf c (BitVec w) m =
        (MortonIndex3D.dynamicToStatic c w m).map (·.map MortonIndex3D.genericS)) := by
  have bits : Bits.BITS (BitVec w) = w := rfl
  refine ⟨fun g o => ?_, fun d => ?_, fun g d o => ?_, fun m => ⟨rfl, rfl⟩, fun m => ⟨rfl, ?_⟩, fun b d => ⟨rfl, rfl⟩, fun m => ⟨?_, ?_⟩⟩
  · simp only [MortonIndex3D.fixedFromGridIndexOf, MortonIndex3D.fixedFromGridIndex, bits]
    refine bind_map_congr fun _ => ?_
    split
    · rfl
    · repeat' (first | rfl | (refine bind_map_congr fun _ => ?_))
  · unfold MortonIndex3D.staticZeroedOf MortonIndex3D.staticZeroed
    rw [bits]
    split <;> rfl
  · simp only [MortonIndex3D.staticFromGridIndexOf, MortonIndex3D.staticFromGridIndex, bits]
    split
    · rfl
    · repeat' (first | rfl | (refine bind_map_congr fun _ => ?_))
  · unfold MortonIndex3D.staticToDynamicOf MortonIndex3D.staticToDynamic
    have h := collectCells_map (c := c) (StaticStorage3D.generic (w := w)) (fun _ => rfl) (fun _ _ => rfl) m.storage
    change (Storage.collectCells c m.storage.generic >>= _) = _
    rw [h]
  · unfold MortonIndex3D.dynamicToFixedOf MortonIndex3D.dynamicToFixed
    rw [bits]
    split <;> rfl
  · have h : forRange 0 m.depth (⟨StaticStorage3DOf.default (BitVec w)⟩ : MortonIndex3D _) (fun level ret => do
          MortonIndex3D.setCellAtLevelUnchecked c ret level (← m.getCellAtLevelUnchecked c level)) =
        (forRange 0 m.depth (⟨StaticStorage3D.default w⟩ : MortonIndex3D _) (fun level ret => do
          MortonIndex3D.setCellAtLevelUnchecked c ret level (← m.getCellAtLevelUnchecked c level))).map
          MortonIndex3D.genericS := by
      refine forRange_map MortonIndex3D.genericS (fun i s => ?_) 0 m.depth ⟨StaticStorage3D.default w⟩
      cases m.getCellAtLevelUnchecked c i with
      | error e => rfl
      | ok q =>
        simp only [ok_bind, MortonIndex3D.setCellAtLevelUnchecked]
        change (Storage.setCellAtLevelUnchecked c s.storage.generic i q >>= _) = _
        rw [staticSet_generic3]
        cases Storage.setCellAtLevelUnchecked c s.storage i q <;> rfl
    simp only [MortonIndex3D.dynamicToStaticOf, MortonIndex3D.dynamicToStatic, bits, h]
    split
    · rfl
    · cases forRange 0 m.depth (⟨StaticStorage3D.default w⟩ : MortonIndex3D _) _ <;> rfl

/-! ## Concrete cases -/

/-- 8 levels in three bytes. -/
example : ∃ m : MortonIndex3D (FixedDepthStorage3DOf (Bytes 3)),
    MortonIndex3D.tryFromSlice x64 [.One, .Three] = .ok (.ok m) ∧ m.storage.Ok ∧
    Shows x64 m ([.One, .Three] ++ List.replicate 6 .Zero) := by
  obtain ⟨m, h1, -, h2, h3⟩ := (C84_fixed_constructors_3D x64_supported (x64_bytes 3 (by decide))).2.1 [.One, .Three] (by decide)
  exact ⟨m, h1, h2, h3⟩

/-- 85 levels in 32 bytes: more than any integer offers. -/
example : ∃ m : MortonIndex3D (StaticStorage3DOf (Bytes 32)),
    MortonIndex3D.tryFromSlice x64 (List.replicate 80 .Two) = .ok (.ok m) ∧ m.storage.Ok ∧
    Shows x64 m (List.replicate 80 .Two) := by
  obtain ⟨m, h1, -, h2, h3⟩ := (C84_static_constructors_3D x64_supported (x64_bytes 32 (by decide)) (by decide)).2.2.2.1
    (List.replicate 80 .Two) (by decide)
  exact ⟨m, h1, h2, h3⟩

example : StorageContract x64 (StaticStorage3DOf.Ok (B := Bytes 32)) StaticStorage3DOf.view :=
  ((C84_storages_3D x64_supported (x64_bytes 32 (by decide))).2 (by decide)).1

example : StorageContract x64 (StaticStorage3DOf.Ok (B := BitVec 16)) StaticStorage3DOf.view :=
  ((C84_storages_3D x64_supported ((C84_containers x64 x64_supported).1 16 (by decide))).2 (by decide)).1

example : ∃ m : MortonIndex3D (FixedDepthStorage3DOf (Bytes 3)), MortonIndex3D.fixedFromGridIndexOf x64 ⟨300#64, 77#64, 9#64⟩ .XYZ = .ok m ∧
    m.storage.Ok ∧ GridAt3D x64 m .XYZ ⟨300#64, 77#64, 9#64⟩ 8 :=
  ((C84_fixed_grid_3D x64_supported (x64_bytes 3 (by decide)) (by decide)).1 (by decide)).1 _ _

example : ∃ m : MortonIndex3D (StaticStorage3DOf (Bytes 3)),
    MortonIndex3D.staticFromGridIndexOf x64 ⟨300#64, 77#64, 9#64⟩ 5 .YXZ = .ok (.ok m) ∧ m.storage.Ok ∧ depth m = 5 ∧
    GridAt3D x64 m .YXZ ⟨300#64, 77#64, 9#64⟩ 5 :=
  ((C84_static_grid_3D x64_supported (x64_bytes 3 (by decide)) 5).2 (by decide) (by decide) (.inl (by decide)) (by decide)).1 _ _

/-- A dynamic index goes into three bytes and keeps its cells. -/
example : ∃ n, MortonIndex3D.dynamicToStaticOf x64 (Bytes 3) exD3 = .ok (.ok n) ∧ n.storage.Ok ∧
    Shows x64 n (path exD3.storage) :=
  (C84_conversions_3D x64_supported (x64_bytes 3 (by decide)) (by decide)).2.2.2.1 exD3 (exD3_reach _) _
    (MortonIndex3D.shows_path x64_supported (dynamic_wf3 x64_supported _ (exD3_reach .all))) (by decide)

/-- Bytes are copied: the all-`Seven` index over three bytes. -/
example : Shows x64 (MortonIndex3D.fixedToDynamicOf x64 ⟨⟨Bytes.ofNat 3 0xFFFFFF⟩⟩) (List.replicate 8 .Seven) := by
  refine (C84_bytes_3D (B := Bytes 3) x64_supported (x64_bytes 3 (by decide)) (by unfold Addressable; decide)).2.1 _ _ ?_
  have h := MortonIndex3D.shows_path x64_supported
    (FixedDepthStorage3DOf.wf (x64_bytes 3 (by decide)) (⟨Bytes.ofNat 3 0xFFFFFF⟩ : FixedDepthStorage3DOf (Bytes 3)))
    (m := (⟨⟨Bytes.ofNat 3 0xFFFFFF⟩⟩ : MortonIndex3D (FixedDepthStorage3DOf (Bytes 3))))
  have e : path (⟨Bytes.ofNat 3 0xFFFFFF⟩ : FixedDepthStorage3DOf (Bytes 3)) = List.replicate 8 .Seven := by decide +kernel
  rwa [e] at h

example : RustOrd.hashInput (⟨⟨Bytes.ofNat 3 5⟩⟩ : MortonIndex3D (FixedDepthStorage3DOf (Bytes 3))) =
    RustOrd.hashInput (⟨⟨Bytes.ofNat 3 5⟩⟩ : MortonIndex3D (FixedDepthStorage3DOf (Bytes 3))) :=
  C84_hash_3D.1 _ _ (by decide +kernel)

/-- `u16` in both models. -/
example : (MortonIndex3D.fixedFromGridIndexOf x64 ⟨300#64, 77#64, 9#64⟩ .XYZ : Res (MortonIndex3D (FixedDepthStorage3DOf (BitVec 16)))) =
    (MortonIndex3D.fixedFromGridIndex x64 16 ⟨300#64, 77#64, 9#64⟩ .XYZ).map MortonIndex3D.genericF :=
  (C84_native_3D x64 16).1 _ _

example : Shows x64 (MortonIndex3D.staticFromRawIndexOf (Bytes.ofNat 3 0b101011110000000000000000) 2) [.Five, .Three] := by
  have h := ((C84_raw_3D x64_supported (x64_bytes 3 (by decide)) (Bytes.ofNat 3 0b101011110000000000000000)).2 2 (by decide)).1
  have e : containerCells Octant 2 (Bytes.ofNat 3 0b101011110000000000000000) = [.Five, .Three] := by decide +kernel
  rwa [e] at h

end MortonRs
