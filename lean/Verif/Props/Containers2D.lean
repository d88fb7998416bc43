import Verif.Lemmas.ContainersGrid2D
import Verif.Lemmas.ContainersNative
import Verif.Props.Foreign2D

/-! # C84 for 2D indices: fixed-depth and static indices over any container

`FixedDepthStorage2D<B>` and `StaticStorage2D<B>` accept a container `B` of another crate (`indices/mod.rs` 38-50). What a user
relies on holds for every container that keeps the contract `LawfulContainer` (and `LawfulBytes` for the conversions that copy
bytes). -/

namespace MortonRs

open BitStorage LawfulContainer MortonIndex VariableDepthMortonIndex

section
variable {B : Type} [FixedStorageType B]

/-- A fixed-depth storage as the crate makes them: the bits below the lowest cell (none in 2D if `BITS` is even) are zero. -/
def FixedDepthStorage2DOf.Ok [LawfulContainer B] (s : FixedDepthStorage2DOf B) : Prop :=
  val s.bits % 2 ^ (Bits.BITS B % 2) = 0

/-- A static storage as the crate makes them: no deeper than the container, the bits below the cells are zero. -/
def StaticStorage2DOf.Ok [LawfulContainer B] (s : StaticStorage2DOf B) : Prop :=
  s.depth ≤ Bits.BITS B / 2 ∧ val s.bits % 2 ^ (Bits.BITS B - s.depth * 2) = 0

/-- The cells of a fixed-depth storage: the base-4 digits of the number, from the top. -/
def FixedDepthStorage2DOf.view [LawfulContainer B] (s : FixedDepthStorage2DOf B) : List Quadrant :=
  containerCells Quadrant (Bits.BITS B / 2) s.bits

/-- The cells of a static storage. -/
def StaticStorage2DOf.view [LawfulContainer B] (s : StaticStorage2DOf B) : List Quadrant :=
  containerCells Quadrant s.depth s.bits

end

theorem mod_two_pow_zero {n k : Nat} : n % 2 ^ k = 0 ↔ ∀ i, i < k → n.testBit i = false := by
  constructor
  · intro h i hi
    have : (n % 2 ^ k).testBit i = false := by rw [h, Nat.zero_testBit]
    rwa [Nat.testBit_mod_two_pow, decide_eq_true hi, Bool.true_and] at this
  · intro h
    apply Nat.eq_of_testBit_eq
    intro i
    rw [Nat.testBit_mod_two_pow, Nat.zero_testBit]
    by_cases hi : i < k
    · rw [h i hi, Bool.and_false]
    · rw [decide_eq_false hi, Bool.false_and]

section
variable {B : Type} [FixedStorageType B] [LawfulContainer B] {c : Cfg}

theorem fixedOf_view2 (s : FixedDepthStorage2DOf B) : s.view = path s := rfl

theorem staticOf_view2 (s : StaticStorage2DOf B) : s.view = path s := rfl

theorem fixedOf_ok2 (s : FixedDepthStorage2DOf B) : s.Ok ↔ TailZero s := by
  unfold FixedDepthStorage2DOf.Ok
  rw [mod_two_pow_zero, show Bits.BITS B % 2 = Bits.BITS B - Bits.BITS B / 2 * 2 by omega]
  rfl

theorem staticOf_ok2 (hf : on B c) (s : StaticStorage2DOf B) : s.Ok ↔ WF c s ∧ TailZero s := by
  unfold StaticStorage2DOf.Ok
  rw [mod_two_pow_zero, StaticStorage2DOf.wf_iff hf]
  rfl

omit [LawfulContainer B] in
theorem partialCmp_of_cmp2 {a b : StaticStorage2DOf B} {r : Ordering} (h : RustOrd.cmp c a b = .ok r) :
    RustOrd.partialCmp c a b = .ok (some r) := by
  change (do return some (← StaticStorage2DOf.cmp c a b) : Res (Option Ordering)) = _
  rw [show StaticStorage2DOf.cmp c a b = .ok r from h]
  rfl

/-! ## The storages -/

/-- Both storages keep the contracts of C83 over every container, so all C83 theorems (access, navigation, order, grid positions,
strings, whole programs) hold for the indices over them. The depth of a static index is a `u8`, hence at most 255 levels. -/
theorem C84_storages_2D (hc : c.Supported) (hf : on B c) :
    (StorageContract c (FixedDepthStorage2DOf.Ok (B := B)) FixedDepthStorage2DOf.view ∧
      EqContract (FixedDepthStorage2DOf.Ok (B := B)) FixedDepthStorage2DOf.view ∧
      OrdContract c quadrantKey (FixedDepthStorage2DOf.Ok (B := B)) FixedDepthStorage2DOf.view) ∧
    (Bits.BITS B / 2 < 256 →
      StorageContract c (StaticStorage2DOf.Ok (B := B)) StaticStorage2DOf.view ∧
      VariableContract c (StaticStorage2DOf.Ok (B := B)) StaticStorage2DOf.view (fun _ k => k < 2 ^ (c.ptrBits - 1))
        (some (Bits.BITS B / 2)) ∧
      EqContract (StaticStorage2DOf.Ok (B := B)) StaticStorage2DOf.view ∧
      OrdContract c quadrantKey (StaticStorage2DOf.Ok (B := B)) StaticStorage2DOf.view) := by
  have hu := usize hf
  have hp : 2 ^ 15 ≤ 2 ^ (c.ptrBits - 1) := Nat.pow_le_pow_right (by decide) (by rcases hc with h | h | h <;> omega)
  have hp2 : 2 ^ c.ptrBits = 2 * 2 ^ (c.ptrBits - 1) := by
    rw [← Nat.pow_succ']
    congr 1
    rcases hc with h | h | h <;> omega
  refine ⟨⟨⟨?_, ?_, ?_, ?_⟩, ⟨?_, ?_⟩, ?_⟩, fun hB => ⟨⟨?_, ?_, ?_, ?_⟩, ⟨?_, ?_, ?_, ?_, ?_, ?_⟩, ⟨?_, ?_⟩, ?_⟩⟩
  · intro s _
    exact (path_length s).symm
  · intro s _
    rw [fixedOf_view2, path_length]
    change Bits.BITS B / 2 < _
    omega
  · intro s _ l hl
    rw [fixedOf_view2, path_length] at hl
    simp only [fixedOf_view2, path_getElem]
    exact get_slot hc (FixedDepthStorage2DOf.wf hf s) hl
  · intro s hs l v hl
    rw [fixedOf_view2, path_length] at hl
    obtain ⟨s', h1, h2, h3, h4⟩ := set_path hc (FixedDepthStorage2DOf.wf hf s) v hl
    exact ⟨s', h1, (fixedOf_ok2 s').mpr (h4 ((fixedOf_ok2 s).mp hs)), h3⟩
  · intro s
    exact (LawfulContainer.eq s.bits s.bits).mpr rfl
  · intro a b ha hb
    exact FixedDepthStorage2DOf.eq_iff ((fixedOf_ok2 a).mp ha) ((fixedOf_ok2 b).mp hb)
  · intro a b ha hb
    have h := FixedDepthStorage2DOf.cmp_ok hf ((fixedOf_ok2 a).mp ha) ((fixedOf_ok2 b).mp hb)
    refine ⟨h, ?_⟩
    change RustOrd.partialCmp c a.bits b.bits = _
    change RustOrd.cmp c a.bits b.bits = _ at h
    rw [LawfulContainer.cmp hf] at h
    rw [LawfulContainer.partialCmp hf]
    injection h with h
    rw [h]
    rfl
  · intro s _
    exact (path_length s).symm
  · intro s hs
    rw [staticOf_view2, path_length]
    have := hs.1
    change s.depth < _
    omega
  · intro s hs l hl
    rw [staticOf_view2, path_length] at hl
    simp only [staticOf_view2, path_getElem]
    exact get_slot hc ((staticOf_ok2 hf s).mp hs).1 hl
  · intro s hs l v hl
    rw [staticOf_view2, path_length] at hl
    obtain ⟨h1, h2⟩ := (staticOf_ok2 hf s).mp hs
    obtain ⟨s', g1, g2, g3, g4⟩ := set_path hc h1 v hl
    exact ⟨s', g1, (staticOf_ok2 hf s').mpr ⟨g2, g4 h2⟩, g3⟩
  · intro s hs g hg
    rw [staticOf_view2, path_length] at hg
    exact StaticStorage2DOf.ancestor_none s g hg
  · intro s hs g hg
    rw [staticOf_view2, path_length] at *
    obtain ⟨h1, h2⟩ := (staticOf_ok2 hf s).mp hs
    obtain ⟨a, g1, g2, g3, g4⟩ := StaticStorage2DOf.ancestor_some hc hB h1 g hg
    exact ⟨a, g1, (staticOf_ok2 hf a).mpr ⟨g2, g3 h2⟩, g4⟩
  · intro s hs cs hr he
    rw [staticOf_view2, path_length] at he
    have := hs.1
    have he' : Bits.BITS B / 2 < s.depth + cs.length := he
    exact StaticStorage2DOf.descendant_none s cs (by omega) he'
  · intro s hs cs hr he
    rw [staticOf_view2, path_length] at he
    obtain ⟨h1, h2⟩ := (staticOf_ok2 hf s).mp hs
    have he' : ¬ Bits.BITS B / 2 < s.depth + cs.length := he
    obtain ⟨a, g1, g2, g3, g4⟩ := StaticStorage2DOf.descendant_some hc hB h1 cs (Nat.not_lt.mp he')
    exact ⟨a, g1, (staticOf_ok2 hf a).mpr ⟨g2, g3 h2⟩, g4⟩
  · intro s hs
    rw [staticOf_view2, path_length]
    exact Nat.not_lt.mpr hs.1
  · intro s hs n k h
    rw [staticOf_view2, path_length] at h
    have := hs.1
    change n + k ≤ s.depth at h
    omega
  · intro s
    change (RustOrd.eq s.bits s.bits && s.depth == s.depth) = true
    rw [(LawfulContainer.eq s.bits s.bits).mpr rfl]
    simp
  · intro a b ha hb
    obtain ⟨h1, h2⟩ := (staticOf_ok2 hf a).mp ha
    obtain ⟨h3, h4⟩ := (staticOf_ok2 hf b).mp hb
    exact StaticStorage2DOf.eq_iff h1 h2 h4
  · intro a b ha hb
    have h := StaticStorage2DOf.cmp_ok ((staticOf_ok2 hf a).mp ha).1 ((staticOf_ok2 hf b).mp hb).1
    exact ⟨h, partialCmp_of_cmp2 h⟩

/-! ## Constructors -/

/-- Fixed depth: `default()` is all `Zero`; `try_from` keeps the cells and fills the rest with `Zero`, or names the maximum depth. -/
theorem C84_fixed_constructors_2D (hc : c.Supported) (hf : on B c) :
    ((FixedDepthStorage2DOf.default B).Ok ∧
      Shows c (⟨FixedDepthStorage2DOf.default B⟩ : MortonIndex2D _) (List.replicate (Bits.BITS B / 2) .Zero)) ∧
    (∀ cs : List Quadrant, cs.length ≤ Bits.BITS B / 2 → ∃ m : MortonIndex2D (FixedDepthStorage2DOf B),
      MortonIndex2D.tryFromSlice c cs = .ok (.ok m) ∧ MortonIndex2D.tryFromArray c cs = .ok (.ok m) ∧ m.storage.Ok ∧
      Shows c m (cs ++ List.replicate (Bits.BITS B / 2 - cs.length) .Zero)) ∧
    (∀ cs : List Quadrant, cs.length > Bits.BITS B / 2 →
      (MortonIndex2D.tryFromSlice c cs : Res (Except Error (MortonIndex2D (FixedDepthStorage2DOf B)))) =
        .ok (.error (.DepthLimitedExceeded (Bits.BITS B / 2))) ∧
      (MortonIndex2D.tryFromArray c cs : Res (Except Error (MortonIndex2D (FixedDepthStorage2DOf B)))) =
        .ok (.error (.DepthLimitedExceeded (Bits.BITS B / 2)))) := by
  have hsh := fun m : MortonIndex2D (FixedDepthStorage2DOf B) =>
    MortonIndex2D.shows_path hc (m := m) (FixedDepthStorage2DOf.wf hf m.storage)
  refine ⟨⟨(fixedOf_ok2 _).mpr FixedDepthStorage2DOf.tailZero_default, ?_⟩, fun cs h => ?_, fun cs h => ?_⟩
  · have := hsh ⟨FixedDepthStorage2DOf.default B⟩
    rwa [show path (FixedDepthStorage2DOf.default B) = List.replicate (Bits.BITS B / 2) .Zero from
      StaticStorage2DOf.zero_path (B := B) _ (Nat.le_refl _)] at this
  · obtain ⟨s, h1, h2, h3, h4⟩ := FixedDepthStorage2DOf.tryFrom_ok hc hf cs h
    refine ⟨⟨s⟩, ?_, ?_, (fixedOf_ok2 _).mpr h3, h4 ▸ hsh ⟨s⟩⟩
    · simp only [MortonIndex2D.tryFromSlice, TryFromCells.tryFromSlice, h1, ok_bind, pure_eq_ok, Except.map]
    · simp only [MortonIndex2D.tryFromArray, TryFromCells.tryFromArray, h2, ok_bind, pure_eq_ok, Except.map]
  · obtain ⟨h1, h2⟩ := FixedDepthStorage2DOf.tryFrom_error (B := B) (c := c) cs h
    constructor
    · simp only [MortonIndex2D.tryFromSlice, TryFromCells.tryFromSlice, h1, ok_bind, pure_eq_ok, Except.map]; rfl
    · simp only [MortonIndex2D.tryFromArray, TryFromCells.tryFromArray, h2, ok_bind, pure_eq_ok, Except.map]; rfl

/-- Static: `default()` is the root, `zeroed(d)` is `d` times `Zero`, `try_from` keeps the cells; beyond the maximum depth `None`
and the error that names it. -/
theorem C84_static_constructors_2D (hc : c.Supported) (hf : on B c) (hB : Bits.BITS B / 2 < 256) :
    ((StaticStorage2DOf.default B).Ok ∧ Shows c (⟨StaticStorage2DOf.default B⟩ : MortonIndex2D _) []) ∧
    (∀ d, d ≤ Bits.BITS B / 2 → ∃ m, MortonIndex2D.staticZeroedOf B d = some m ∧ m.storage.Ok ∧
      Shows c m (List.replicate d .Zero)) ∧
    (∀ d, d > Bits.BITS B / 2 → MortonIndex2D.staticZeroedOf B d = none) ∧
    (∀ cs : List Quadrant, cs.length ≤ Bits.BITS B / 2 → ∃ m : MortonIndex2D (StaticStorage2DOf B),
      MortonIndex2D.tryFromSlice c cs = .ok (.ok m) ∧ MortonIndex2D.tryFromArray c cs = .ok (.ok m) ∧ m.storage.Ok ∧
      Shows c m cs) ∧
    (∀ cs : List Quadrant, cs.length > Bits.BITS B / 2 →
      (MortonIndex2D.tryFromSlice c cs : Res (Except Error (MortonIndex2D (StaticStorage2DOf B)))) =
        .ok (.error (.DepthLimitedExceeded (Bits.BITS B / 2))) ∧
      (MortonIndex2D.tryFromArray c cs : Res (Except Error (MortonIndex2D (StaticStorage2DOf B)))) =
        .ok (.error (.DepthLimitedExceeded (Bits.BITS B / 2)))) := by
  have hz : ∀ d, d ≤ Bits.BITS B / 2 → (⟨FixedStorageType.default, d⟩ : StaticStorage2DOf B).Ok ∧
      Shows c (⟨⟨FixedStorageType.default, d⟩⟩ : MortonIndex2D (StaticStorage2DOf B)) (List.replicate d .Zero) := by
    intro d hd
    have hwf := (StaticStorage2DOf.wf_iff hf (⟨FixedStorageType.default, d⟩ : StaticStorage2DOf B)).mpr hd
    refine ⟨(staticOf_ok2 hf _).mpr ⟨hwf, fun i _ => StaticStorage2DOf.default_bits i d⟩, ?_⟩
    have := MortonIndex2D.shows_path hc
      (m := (⟨⟨FixedStorageType.default, d⟩⟩ : MortonIndex2D (StaticStorage2DOf B))) hwf
    rwa [StaticStorage2DOf.zero_path d hd] at this
  refine ⟨hz 0 (Nat.zero_le _), fun d hd => ⟨_, ?_, hz d hd⟩, fun d hd => ?_, fun cs h => ?_, fun cs h => ?_⟩
  · exact if_neg (Nat.not_lt.mpr hd)
  · exact if_pos hd
  · obtain ⟨s, h1, h2, h3, h4, h5⟩ := StaticStorage2DOf.tryFrom_ok hc hB hf cs h
    refine ⟨⟨s⟩, ?_, ?_, (staticOf_ok2 hf _).mpr ⟨h3, h4⟩, h5 ▸ MortonIndex2D.shows_path hc (m := ⟨s⟩) h3⟩
    · simp only [MortonIndex2D.tryFromSlice, TryFromCells.tryFromSlice, h1, ok_bind, pure_eq_ok, Except.map]
    · simp only [MortonIndex2D.tryFromArray, TryFromCells.tryFromArray, h2, ok_bind, pure_eq_ok, Except.map]
  · obtain ⟨h1, h2⟩ := StaticStorage2DOf.tryFrom_error (B := B) (c := c) cs h
    constructor
    · simp only [MortonIndex2D.tryFromSlice, TryFromCells.tryFromSlice, h1, ok_bind, pure_eq_ok, Except.map]; rfl
    · simp only [MortonIndex2D.tryFromArray, TryFromCells.tryFromArray, h2, ok_bind, pure_eq_ok, Except.map]; rfl

/-! ## Equality and hashes -/

/-- Equal indices feed the same bytes to a hasher, whatever the storages hold. -/
theorem C84_hash_2D :
    (∀ a b : MortonIndex2D (FixedDepthStorage2DOf B), RustOrd.eq a b = true → RustOrd.hashInput a = RustOrd.hashInput b) ∧
    (∀ a b : MortonIndex2D (StaticStorage2DOf B), RustOrd.eq a b = true → RustOrd.hashInput a = RustOrd.hashInput b) := by
  refine ⟨fun a b h => ?_, fun a b h => ?_⟩
  · exact LawfulContainer.hash _ _ ((LawfulContainer.eq _ _).mp h)
  · have h' : (RustOrd.eq a.storage.bits b.storage.bits && a.storage.depth == b.storage.depth) = true := h
    rw [Bool.and_eq_true, beq_iff_eq] at h'
    change RustOrd.hashInput a.storage.bits ++ [a.storage.depth] = RustOrd.hashInput b.storage.bits ++ [b.storage.depth]
    rw [LawfulContainer.hash _ _ ((LawfulContainer.eq _ _).mp h'.1), h'.2]

/-! ## Grid positions -/

/-- Fixed depth: `from_grid_index` finds the cell at the position, reading the position finds the index back. It panics if a
coordinate has fewer bits than the index has levels. -/
theorem C84_fixed_grid_2D (hc : c.Supported) (hf : on B c) (h8 : Bits.BITS B % 8 = 0) :
    (Bits.BITS B / 2 ≤ c.ptrBits →
      (∀ g o, ∃ m : MortonIndex2D (FixedDepthStorage2DOf B), MortonIndex2D.fixedFromGridIndexOf c g o = .ok m ∧ m.storage.Ok ∧
        GridAt2D c m o g (Bits.BITS B / 2)) ∧
      (∀ m : MortonIndex2D (FixedDepthStorage2DOf B), m.storage.Ok → ∀ o, ∃ g m', m.toGridIndex c o = .ok g ∧
        MortonIndex2D.fixedFromGridIndexOf c g o = .ok m' ∧ RustOrd.eq m' m = true)) ∧
    (Bits.BITS B / 2 > c.ptrBits → ∀ g o,
      (MortonIndex2D.fixedFromGridIndexOf c g o : Res (MortonIndex2D (FixedDepthStorage2DOf B))) = .error .panic) := by
  refine ⟨fun hfit => ⟨fun g o => ?_, fun m hm o => ?_⟩,
    fun h g o => MortonIndex2D.fixedFromGridIndexOf_panic h g o⟩
  · obtain ⟨m, h1, h2, h3⟩ := MortonIndex2D.fixedFromGridIndexOf_ok hc h8 hf hfit g o
    exact ⟨m, h1, (fixedOf_ok2 _).mpr h2,
      MortonIndex2D.toGridIndex_of_gridPath hc (FixedDepthStorage2DOf.wf hf m.storage) hfit h3⟩
  · have hwf := FixedDepthStorage2DOf.wf hf m.storage
    obtain ⟨g, h1, -, -⟩ := MortonIndex2D.toGridIndex_ok hc hwf hfit o
    obtain ⟨m', g1, g2, g3⟩ := MortonIndex2D.fixedFromGridIndexOf_ok hc h8 hf hfit g o
    refine ⟨g, m', h1, g1, ?_⟩
    exact (FixedDepthStorage2DOf.eq_iff g2 ((fixedOf_ok2 _).mp hm)).mpr
      (MortonIndex2D.path_of_toGridIndex hc hwf hfit h1 (s := m'.storage) rfl g3)

/-- Static, wherever the code does not hit the limits of C24. -/
theorem C84_static_grid_2D (hc : c.Supported) (hf : on B c) (h8 : Bits.BITS B % 8 = 0) (d : Nat) :
    (d > Bits.BITS B / 2 → ∀ g o,
      (MortonIndex2D.staticFromGridIndexOf c g d o : Res (Except Error (MortonIndex2D (StaticStorage2DOf B)))) =
        .ok (.error (.DepthLimitedExceeded (Bits.BITS B / 2)))) ∧
    (d ≤ Bits.BITS B / 2 → Bits.BITS B / 2 ≤ c.ptrBits → Bits.BITS B / 2 - d < c.ptrBits ∨ c.overflowChecks = false →
      (∀ g o, ∃ m : MortonIndex2D (StaticStorage2DOf B), MortonIndex2D.staticFromGridIndexOf c g d o = .ok (.ok m) ∧
        m.storage.Ok ∧ depth m = d ∧ GridAt2D c m o g d) ∧
      (∀ m : MortonIndex2D (StaticStorage2DOf B), m.storage.Ok → depth m = d → ∀ o, ∃ g m', m.toGridIndex c o = .ok g ∧
        MortonIndex2D.staticFromGridIndexOf c g d o = .ok (.ok m') ∧ RustOrd.eq m' m = true)) := by
  refine ⟨fun h g o => MortonIndex2D.staticFromGridIndexOf_error g d h o, fun hd hfit hs => ⟨fun g o => ?_, fun m hm hdm o => ?_⟩⟩
  · obtain ⟨m, h1, h2, h3, h4⟩ := MortonIndex2D.staticFromGridIndexOf_ok (B := B) hc h8 hf hfit g d hd hs o
    have hwf : WF c m.storage := (StaticStorage2DOf.wf_iff hf m.storage).mpr (by rw [h2]; exact hd)
    have hdep : Storage.depth m.storage = d := h2
    refine ⟨m, h1, (staticOf_ok2 hf _).mpr ⟨hwf, h3⟩, h2, ?_⟩
    have := MortonIndex2D.toGridIndex_of_gridPath hc hwf (o := o) (g := g) (by omega) (by rw [hdep]; exact h4)
    rwa [hdep] at this
  · obtain ⟨hwf, ht⟩ := (staticOf_ok2 hf _).mp hm
    have hdep : Storage.depth m.storage = d := hdm
    obtain ⟨g, h1, -, -⟩ := MortonIndex2D.toGridIndex_ok hc hwf (by omega) o
    obtain ⟨m', g1, g2, g3, g4⟩ := MortonIndex2D.staticFromGridIndexOf_ok (B := B) hc h8 hf hfit g d hd hs o
    have hdep' : Storage.depth m'.storage = d := g2
    have hwf' : WF c m'.storage := (StaticStorage2DOf.wf_iff hf m'.storage).mpr (by rw [g2]; exact hd)
    refine ⟨g, m', h1, g1, ?_⟩
    exact (StaticStorage2DOf.eq_iff hwf' g3 ht).mpr
      (MortonIndex2D.path_of_toGridIndex hc hwf (by omega) h1 (s := m'.storage) (by omega) (by rw [hdep']; exact g4))

end

/-! ## Conversions -/

theorem reach_of_canon2 {c : Cfg} {sc : Scope} (hc : c.Supported) (hdw : DynWrites c) {m : MortonIndex2D DynamicStorage2D}
    (h : DynamicStorage2D.Canon c m.storage) : Reach2D c sc (.dynamic m) := by
  have ha : Addressable c ((path m.storage).length * 2) := by rw [path_length]; exact h.addr
  obtain ⟨m', h1, -, -, h4, h5⟩ := MortonIndex2D.dynamic_tryFrom hc ha
  have : m'.storage = m.storage :=
    DynamicStorage2D.eq_iff_eq.mp ((DynamicStorage2D.eq_iff h4 h).mpr (h5 hdw))
  have e : m' = m := by cases m; cases m'; exact congrArg _ this
  exact e ▸ .dynamicTryFromSlice ha h1

section
variable {B : Type} [FixedStorageType B] [LawfulContainer B] {c : Cfg}

/-- Conversions between fixed-depth, static and dynamic indices that go cell by cell. -/
theorem C84_conversions_2D (hc : c.Supported) (hf : on B c) (hB : Bits.BITS B / 2 < 256) :
    (∀ m : MortonIndex2D (FixedDepthStorage2DOf B), m.storage.Ok → ∀ cs, Shows c m cs →
      (MortonIndex2D.fixedToStaticOf m).storage.Ok ∧ Shows c (MortonIndex2D.fixedToStaticOf m) cs ∧
      RustOrd.eq (MortonIndex2D.staticToFixedOf (MortonIndex2D.fixedToStaticOf m)) m = true) ∧
    (∀ m : MortonIndex2D (StaticStorage2DOf B), m.storage.Ok → ∀ cs, Shows c m cs →
      (MortonIndex2D.staticToFixedOf m).storage.Ok ∧
      Shows c (MortonIndex2D.staticToFixedOf m) (cs ++ List.replicate (Bits.BITS B / 2 - cs.length) .Zero)) ∧
    (DynWrites c → ∀ m : MortonIndex2D (StaticStorage2DOf B), m.storage.Ok → ∀ cs, Shows c m cs →
      ∃ n m', MortonIndex2D.staticToDynamicOf c m = .ok n ∧ Reach2D c .canonical (.dynamic n) ∧ Shows c n cs ∧
      MortonIndex2D.dynamicToStaticOf c B n = .ok (.ok m') ∧ RustOrd.eq m' m = true) ∧
    (∀ m, Reach2D c .all (.dynamic m) → ∀ cs, Shows c m cs → cs.length ≤ Bits.BITS B / 2 →
      ∃ n, MortonIndex2D.dynamicToStaticOf c B m = .ok (.ok n) ∧ n.storage.Ok ∧ Shows c n cs) ∧
    (∀ m, depth m > Bits.BITS B / 2 →
      MortonIndex2D.dynamicToStaticOf c B m = .ok (.error (.DepthLimitedExceeded (Bits.BITS B / 2)))) := by
  have hdet : ∀ {S : Type} [Storage S Quadrant] [BitStorage S Quadrant] {m : MortonIndex2D S} {cs}, WF c m.storage →
      Shows c m cs → cs = path m.storage := fun hwf h => shows_unique h (MortonIndex2D.shows_path hc hwf)
  refine ⟨fun m hm cs hs => ?_, fun m hm cs hs => ?_, fun hdw m hm cs hs => ?_, fun m hm cs hs hl => ?_, fun m hd => ?_⟩
  · obtain ⟨h1, h2, h3⟩ := MortonIndex2D.fixedToStaticOf_ok hB hf m
    rw [hdet (FixedDepthStorage2DOf.wf hf _) hs]
    exact ⟨(staticOf_ok2 hf _).mpr ⟨h1, h3 ((fixedOf_ok2 _).mp hm)⟩, h2 ▸ MortonIndex2D.shows_path hc h1,
      (LawfulContainer.eq m.storage.bits m.storage.bits).mpr rfl⟩
  · obtain ⟨h1, h2⟩ := (staticOf_ok2 hf _).mp hm
    obtain ⟨h3, h4⟩ := (MortonIndex2D.staticToFixedOf_ok hf h1).2 h2
    have h5 := MortonIndex2D.shows_path hc (m := MortonIndex2D.staticToFixedOf m) (FixedDepthStorage2DOf.wf hf _)
    rw [h4] at h5
    rw [hdet h1 hs, path_length]
    exact ⟨(fixedOf_ok2 _).mpr h3, h5⟩
  · obtain ⟨h1, h2⟩ := (staticOf_ok2 hf _).mp hm
    obtain ⟨n, g1, g2, g3, g4⟩ := MortonIndex2D.staticToDynamicOf_ok hc hB h1
    obtain ⟨m', k1, k2, k3, k4⟩ := MortonIndex2D.dynamicToStaticOf_ok hc hB hf g2.inv.wf (by rw [g3]; exact hm.1)
    rw [hdet h1 hs, ← g4 hdw]
    exact ⟨n, m', g1, reach_of_canon2 hc hdw g2, MortonIndex2D.shows_path hc g2.inv.wf, k1,
      (StaticStorage2DOf.eq_iff k2 k3 h2).mpr (k4.trans (g4 hdw))⟩
  · have hwf := dynamic_wf2 hc m hm
    rw [hdet hwf hs] at hl ⊢
    rw [path_length] at hl
    obtain ⟨n, h1, h2, h3, h4⟩ := MortonIndex2D.dynamicToStaticOf_ok hc hB hf hwf hl
    exact ⟨n, h1, (staticOf_ok2 hf _).mpr ⟨h2, h3⟩, h4 ▸ MortonIndex2D.shows_path hc h2⟩
  · exact MortonIndex2D.dynamicToStaticOf_error hd

end

section
variable {B : Type} [FixedStorageType B] [LawfulBytes B] {c : Cfg}

/-- Conversions that copy bytes. From a dynamic index the cells arrive in place only if it has as many bytes as the container
(the flaw of C33). -/
theorem C84_bytes_2D (hc : c.Supported) (hf : on B c) (ha : Addressable c (Bits.BITS B)) :
    (DynWrites c → ∀ m : MortonIndex2D (FixedDepthStorage2DOf B), m.storage.Ok → ∀ cs, Shows c m cs →
      Reach2D c .canonical (.dynamic (MortonIndex2D.fixedToDynamicOf c m)) ∧
      Shows c (MortonIndex2D.fixedToDynamicOf c m) cs) ∧
    (∀ m : MortonIndex2D (FixedDepthStorage2DOf B), ∀ cs, Shows c m cs → Shows c (MortonIndex2D.fixedToDynamicOf c m) cs) ∧
    (c.bigEndian = false → ∀ m, Reach2D c .canonical (.dynamic m) → ∀ cs, Shows c m cs → cs.length ≤ Bits.BITS B / 2 →
      ∃ n, MortonIndex2D.dynamicToFixedOf c B m = .ok n ∧
        (Shows c n (cs ++ List.replicate (Bits.BITS B / 2 - cs.length) .Zero) ↔
          (cs.length * 2 + 7) / 8 = Bits.BITS B / 8 ∨ ∀ x ∈ cs, x = .Zero)) ∧
    (∀ m, depth m > Bits.BITS B / 2 →
      MortonIndex2D.dynamicToFixedOf c B m = .error (.DepthLimitedExceeded (Bits.BITS B / 2))) := by
  have hdet : ∀ {S : Type} [Storage S Quadrant] [BitStorage S Quadrant] {m : MortonIndex2D S} {cs}, WF c m.storage →
      (Shows c m cs ↔ cs = path m.storage) := fun hwf =>
    ⟨fun h => shows_unique h (MortonIndex2D.shows_path hc hwf), fun h => h ▸ MortonIndex2D.shows_path hc hwf⟩
  have hfx := fun m : MortonIndex2D (FixedDepthStorage2DOf B) => FixedDepthStorage2DOf.wf hf m.storage
  refine ⟨fun hdw m hm cs hs => ?_, fun m cs hs => ?_, fun hle m hm cs hs hl => ?_, fun m hd => ?_⟩
  · obtain ⟨h1, h2, h3⟩ := MortonIndex2D.fixedToDynamicOf_ok ha hf m
    exact ⟨reach_of_canon2 hc hdw (h3 ((fixedOf_ok2 _).mp hm)), (hdet h1.wf).mpr (((hdet (hfx m)).mp hs).trans h2.symm)⟩
  · obtain ⟨h1, h2, -⟩ := MortonIndex2D.fixedToDynamicOf_ok ha hf m
    exact (hdet h1.wf).mpr (((hdet (hfx m)).mp hs).trans h2.symm)
  · have hk := (reach2D_good hc hm).2 rfl
    have hcs := (hdet hk.inv.wf).mp hs
    have hlen : cs.length = m.storage.depth := by rw [hcs, path_length]; rfl
    obtain ⟨f, h1, h2⟩ := MortonIndex2D.dynamicToFixedOf_keeps hf hle hk (by rw [← hlen]; exact hl)
    refine ⟨f, h1, ?_⟩
    rw [hdet (hfx f), eq_comm, hcs, path_length]
    exact h2
  · exact MortonIndex2D.dynamicToFixedOf_error hd

end

/-! ## The integers of the crate -/

/-- A storage of the model `Index2D.lean` in the model that is generic in the container. -/
def FixedDepthStorage2D.generic {w : Nat} (s : FixedDepthStorage2D w) : FixedDepthStorage2DOf (BitVec w) := ⟨s.bits⟩

/-- The same for a static storage. -/
def StaticStorage2D.generic {w : Nat} (s : StaticStorage2D w) : StaticStorage2DOf (BitVec w) := ⟨s.bits, s.depth⟩

theorem fixedSet_generic2 {w : Nat} (c : Cfg) (s : FixedDepthStorage2D w) (l : Nat) (q : Quadrant) :
    Storage.setCellAtLevelUnchecked c s.generic l q =
      (Storage.setCellAtLevelUnchecked c s l q).map FixedDepthStorage2D.generic := by
  simp only [Storage.setCellAtLevelUnchecked, FixedDepthStorage2D.generic]
  change (FixedDepthStorage.setCellAtLevelUnchecked c w s.bits l q >>= _) = _
  cases FixedDepthStorage.setCellAtLevelUnchecked c w s.bits l q <;> rfl

theorem staticSet_generic2 {w : Nat} (c : Cfg) (s : StaticStorage2D w) (l : Nat) (q : Quadrant) :
    Storage.setCellAtLevelUnchecked c s.generic l q =
      (Storage.setCellAtLevelUnchecked c s l q).map StaticStorage2D.generic := by
  simp only [Storage.setCellAtLevelUnchecked, StaticStorage2D.generic]
  change (StaticStorage.setCellAtLevelUnchecked c w s.bits l q >>= _) = _
  cases StaticStorage.setCellAtLevelUnchecked c w s.bits l q <;> rfl

theorem staticCmp_generic2 {w : Nat} (c : Cfg) (a b : StaticStorage2D w) :
    StaticStorage2DOf.cmp c a.generic b.generic = StaticStorage2D.cmp c a b := by
  have get : ∀ (x : BitVec w) r, Bits.getBits c x r = intGetBits c x r := fun _ _ => rfl
  simp only [StaticStorage2DOf.cmp, StaticStorage2D.cmp, StaticStorage2D.generic, native_gt, native_ge, ok_bind,
    decide_eq_true_eq, get]
  rfl

/-- Both models of the storages agree on the integers of the crate, results and faults alike. -/
theorem C84_native_storages_2D (c : Cfg) (w : Nat) :
    (∀ s : FixedDepthStorage2D w, Storage.depth s.generic = Storage.depth s ∧
      (∀ l, Storage.getCellAtLevelUnchecked c s.generic l = Storage.getCellAtLevelUnchecked c s l) ∧
      (∀ l q, Storage.setCellAtLevelUnchecked c s.generic l q =
        (Storage.setCellAtLevelUnchecked c s l q).map FixedDepthStorage2D.generic) ∧
      RustOrd.hashInput s.generic = RustOrd.hashInput s ∧
      ∀ t : FixedDepthStorage2D w, RustOrd.cmp c s.generic t.generic = RustOrd.cmp c s t ∧
        RustOrd.partialCmp c s.generic t.generic = RustOrd.partialCmp c s t ∧
        RustOrd.eq s.generic t.generic = RustOrd.eq s t) ∧
    (∀ cs, (FixedDepthStorage2DOf.tryFromSlice c cs : Res (Except Error (FixedDepthStorage2DOf (BitVec w)))) =
        (FixedDepthStorage2D.tryFromSlice c w cs).map (·.map FixedDepthStorage2D.generic) ∧
      (FixedDepthStorage2DOf.tryFromArray c cs : Res (Except Error (FixedDepthStorage2DOf (BitVec w)))) =
        (FixedDepthStorage2D.tryFromArray c w cs).map (·.map FixedDepthStorage2D.generic)) ∧
    (∀ s : StaticStorage2D w, Storage.depth s.generic = Storage.depth s ∧
      (∀ l, Storage.getCellAtLevelUnchecked c s.generic l = Storage.getCellAtLevelUnchecked c s l) ∧
      (∀ l q, Storage.setCellAtLevelUnchecked c s.generic l q =
        (Storage.setCellAtLevelUnchecked c s l q).map StaticStorage2D.generic) ∧
      (∀ g, s.generic.ancestor c g = (s.ancestor c g).map (·.map StaticStorage2D.generic)) ∧
      (∀ cs, s.generic.descendant c cs = (s.descendant c cs).map (·.map StaticStorage2D.generic)) ∧
      RustOrd.hashInput s.generic = RustOrd.hashInput s ∧
      ∀ t : StaticStorage2D w, RustOrd.cmp c s.generic t.generic = RustOrd.cmp c s t ∧
        RustOrd.partialCmp c s.generic t.generic = RustOrd.partialCmp c s t ∧
        RustOrd.eq s.generic t.generic = RustOrd.eq s t) ∧
    (∀ cs, (StaticStorage2DOf.tryFromSlice c cs : Res (Except Error (StaticStorage2DOf (BitVec w)))) =
        (StaticStorage2D.tryFromSlice c w cs).map (·.map StaticStorage2D.generic) ∧
      (StaticStorage2DOf.tryFromArray c cs : Res (Except Error (StaticStorage2DOf (BitVec w)))) =
        (StaticStorage2D.tryFromArray c w cs).map (·.map StaticStorage2D.generic)) := by
  have hF : ∀ cs : List Quadrant, forEnum cs (FixedDepthStorage2DOf.default (BitVec w))
      (fun level cell ret => Storage.setCellAtLevelUnchecked c ret level cell) =
      (forEnum cs (FixedDepthStorage2D.default w)
        (fun level cell ret => Storage.setCellAtLevelUnchecked c ret level cell)).map FixedDepthStorage2D.generic :=
    fun cs => forEnumFrom_map FixedDepthStorage2D.generic (fun i x s => fixedSet_generic2 c s i x) 0 cs (FixedDepthStorage2D.default w)
  have hS : ∀ cs : List Quadrant, forEnum cs (StaticStorage2DOf.default (BitVec w))
      (fun level cell ret => Storage.setCellAtLevelUnchecked c ret level cell) =
      (forEnum cs (StaticStorage2D.default w)
        (fun level cell ret => Storage.setCellAtLevelUnchecked c ret level cell)).map StaticStorage2D.generic :=
    fun cs => forEnumFrom_map StaticStorage2D.generic (fun i x s => staticSet_generic2 c s i x) 0 cs (StaticStorage2D.default w)
  have bits : Bits.BITS (BitVec w) = w := rfl
  refine ⟨fun s => ⟨rfl, fun _ => rfl, fixedSet_generic2 c s, rfl, fun t => ⟨rfl, rfl, rfl⟩⟩, fun cs => ⟨?_, ?_⟩,
    fun s => ⟨rfl, fun _ => rfl, staticSet_generic2 c s, fun g => ?_, fun cs => ?_, rfl,
      fun t => ⟨staticCmp_generic2 c s t, ?_, rfl⟩⟩, fun cs => ⟨?_, ?_⟩⟩
  · simp only [FixedDepthStorage2DOf.tryFromSlice, FixedDepthStorage2D.tryFromSlice, hF, bits]
    split
    · rfl
    · cases forEnum cs (FixedDepthStorage2D.default w) _ <;> rfl
  · simp only [FixedDepthStorage2DOf.tryFromArray, FixedDepthStorage2D.tryFromArray, hF, bits]
    split
    · rfl
    · cases forEnum cs (FixedDepthStorage2D.default w) _ <;> rfl
  · have h : ∀ a b, forRange a b s.generic (fun level ret => Storage.setCellAtLevelUnchecked c ret level Quadrant.Zero) =
        (forRange a b s (fun level ret => Storage.setCellAtLevelUnchecked c ret level Quadrant.Zero)).map
          StaticStorage2D.generic :=
      fun a b => forRange_map StaticStorage2D.generic (fun i s => staticSet_generic2 c s i _) a b s
    have hd : s.generic.depth = s.depth := rfl
    simp only [StaticStorage2DOf.ancestor, StaticStorage2D.ancestor, hd, h]
    split
    · rfl
    · cases u8sub c s.depth (asU8 g.val) with
      | error e => rfl
      | ok d =>
        simp only [ok_bind]
        cases forRange d s.depth s _ <;> rfl
  · have h : forEnum cs s.generic (fun offset cell ret => do
          Storage.setCellAtLevelUnchecked c ret (← uadd c s.depth offset) cell) =
        (forEnum cs s (fun offset cell ret => do
          Storage.setCellAtLevelUnchecked c ret (← uadd c s.depth offset) cell)).map StaticStorage2D.generic := by
      apply forEnumFrom_map
      intro i x s'
      cases uadd c s.depth i with
      | error e => rfl
      | ok k => exact staticSet_generic2 c s' k x
    have hd : s.generic.depth = s.depth := rfl
    simp only [StaticStorage2DOf.descendant, StaticStorage2D.descendant, hd, bits]
    cases uadd c s.depth cs.length with
    | error e => rfl
    | ok d =>
      simp only [ok_bind]
      split
      · rfl
      · rw [h]
        cases forEnum cs s _ <;> rfl
  · change (do return some (← StaticStorage2DOf.cmp c s.generic t.generic) : Res (Option Ordering)) = _
    rw [staticCmp_generic2]
    rfl
  · simp only [StaticStorage2DOf.tryFromSlice, StaticStorage2D.tryFromSlice, hS, bits]
    split
    · rfl
    · cases forEnum cs (StaticStorage2D.default w) _ <;> rfl
  · simp only [StaticStorage2DOf.tryFromArray, StaticStorage2D.tryFromArray, hS, bits]
    split
    · rfl
    · cases forEnum cs (StaticStorage2D.default w) _ <;> rfl

/-- The index over the same storage in the generic model. -/
def MortonIndex2D.genericF {w : Nat} (m : MortonIndex2D (FixedDepthStorage2D w)) :
    MortonIndex2D (FixedDepthStorage2DOf (BitVec w)) := ⟨m.storage.generic⟩

/-- The same for a static index. -/
def MortonIndex2D.genericS {w : Nat} (m : MortonIndex2D (StaticStorage2D w)) :
    MortonIndex2D (StaticStorage2DOf (BitVec w)) := ⟨m.storage.generic⟩

/-- Both models of the constructors and conversions agree on the integers of the crate. -/
theorem C84_native_2D (c : Cfg) (w : Nat) :
    (∀ g o, MortonIndex2D.fixedFromGridIndexOf c g o = (MortonIndex2D.fixedFromGridIndex c w g o).map MortonIndex2D.genericF) ∧
    (∀ d, MortonIndex2D.staticZeroedOf (BitVec w) d = (MortonIndex2D.staticZeroed w d).map MortonIndex2D.genericS) ∧
    (∀ g d o, MortonIndex2D.staticFromGridIndexOf c g d o =
      (MortonIndex2D.staticFromGridIndex c w g d o).map (·.map MortonIndex2D.genericS)) ∧
    (∀ m : MortonIndex2D (FixedDepthStorage2D w),
      MortonIndex2D.fixedToStaticOf m.genericF = (MortonIndex2D.fixedToStatic m).genericS ∧
      MortonIndex2D.fixedToDynamicOf c m.genericF = MortonIndex2D.fixedToDynamic c m) ∧
    (∀ m : MortonIndex2D (StaticStorage2D w),
      MortonIndex2D.staticToFixedOf m.genericS = (MortonIndex2D.staticToFixed m).genericF ∧
      MortonIndex2D.staticToDynamicOf c m.genericS = MortonIndex2D.staticToDynamic c m) ∧
    (∀ m, MortonIndex2D.dynamicToFixedOf c (BitVec w) m = (MortonIndex2D.dynamicToFixed c w m).map MortonIndex2D.genericF ∧
      MortonIndex2D.dynamicToStaticOf c (BitVec w) m =
        (MortonIndex2D.dynamicToStatic c w m).map (·.map MortonIndex2D.genericS)) := by
  have bits : Bits.BITS (BitVec w) = w := rfl
  refine ⟨fun g o => ?_, fun d => ?_, fun g d o => ?_, fun m => ⟨rfl, rfl⟩, fun m => ⟨rfl, ?_⟩, fun m => ⟨?_, ?_⟩⟩
  · simp only [MortonIndex2D.fixedFromGridIndexOf, MortonIndex2D.fixedFromGridIndex, bits]
    split
    · rfl
    · repeat' (first | rfl | (refine bind_map_congr fun _ => ?_))
  · unfold MortonIndex2D.staticZeroedOf MortonIndex2D.staticZeroed
    rw [bits]
    split <;> rfl
  · simp only [MortonIndex2D.staticFromGridIndexOf, MortonIndex2D.staticFromGridIndex, bits]
    split
    · rfl
    · repeat' (first | rfl | (refine bind_map_congr fun _ => ?_))
  · unfold MortonIndex2D.staticToDynamicOf MortonIndex2D.staticToDynamic
    have h := collectCells_map (c := c) (StaticStorage2D.generic (w := w)) (fun _ => rfl) (fun _ _ => rfl) m.storage
    change (Storage.collectCells c m.storage.generic >>= _) = _
    rw [h]
  · unfold MortonIndex2D.dynamicToFixedOf MortonIndex2D.dynamicToFixed
    rw [bits]
    split <;> rfl
  · have h : forRange 0 m.depth (⟨StaticStorage2DOf.default (BitVec w)⟩ : MortonIndex2D _) (fun level ret => do
          MortonIndex2D.setCellAtLevelUnchecked c ret level (← m.getCellAtLevelUnchecked c level)) =
        (forRange 0 m.depth (⟨StaticStorage2D.default w⟩ : MortonIndex2D _) (fun level ret => do
          MortonIndex2D.setCellAtLevelUnchecked c ret level (← m.getCellAtLevelUnchecked c level))).map
          MortonIndex2D.genericS := by
      refine forRange_map MortonIndex2D.genericS (fun i s => ?_) 0 m.depth ⟨StaticStorage2D.default w⟩
      cases m.getCellAtLevelUnchecked c i with
      | error e => rfl
      | ok q =>
        simp only [ok_bind, MortonIndex2D.setCellAtLevelUnchecked]
        change (Storage.setCellAtLevelUnchecked c s.storage.generic i q >>= _) = _
        rw [staticSet_generic2]
        cases Storage.setCellAtLevelUnchecked c s.storage i q <;> rfl
    simp only [MortonIndex2D.dynamicToStaticOf, MortonIndex2D.dynamicToStatic, bits, h]
    split
    · rfl
    · cases forRange 0 m.depth (⟨StaticStorage2D.default w⟩ : MortonIndex2D _) _ <;> rfl

/-! ## Concrete cases -/

/-- The contract is met by the integers of the crate and by byte arrays of any length the target can address in bits. -/
theorem C84_containers (c : Cfg) (hc : c.Supported) :
    (∀ w, IntWidth w → on (BitVec w) c) ∧ (∀ n, Addressable c (8 * n) → on (Bytes n) c) :=
  ⟨fun _ hw => ⟨hc, hw⟩, fun _ h => h⟩

theorem x64_bytes (n : Nat) (h : n ≤ 1000) : on (Bytes n) x64 := by
  change 8 * n + 64 < 2 ^ 64
  omega

/-- 12 levels in three bytes. -/
example : ∃ m : MortonIndex2D (FixedDepthStorage2DOf (Bytes 3)),
    MortonIndex2D.tryFromSlice x64 [.One, .Three] = .ok (.ok m) ∧ m.storage.Ok ∧
    Shows x64 m ([.One, .Three] ++ List.replicate 10 .Zero) := by
  obtain ⟨m, h1, -, h2, h3⟩ := (C84_fixed_constructors_2D x64_supported (x64_bytes 3 (by decide))).2.1 [.One, .Three] (by decide)
  exact ⟨m, h1, h2, h3⟩

/-- 128 levels in 32 bytes: more than any integer offers. -/
example : ∃ m : MortonIndex2D (StaticStorage2DOf (Bytes 32)),
    MortonIndex2D.tryFromSlice x64 (List.replicate 100 .Two) = .ok (.ok m) ∧ m.storage.Ok ∧
    Shows x64 m (List.replicate 100 .Two) := by
  obtain ⟨m, h1, -, h2, h3⟩ := (C84_static_constructors_2D x64_supported (x64_bytes 32 (by decide)) (by decide)).2.2.2.1
    (List.replicate 100 .Two) (by decide)
  exact ⟨m, h1, h2, h3⟩

example : StorageContract x64 (StaticStorage2DOf.Ok (B := Bytes 32)) StaticStorage2DOf.view :=
  ((C84_storages_2D x64_supported (x64_bytes 32 (by decide))).2 (by decide)).1

example : StorageContract x64 (StaticStorage2DOf.Ok (B := BitVec 16)) StaticStorage2DOf.view :=
  ((C84_storages_2D x64_supported ((C84_containers x64 x64_supported).1 16 (by decide))).2 (by decide)).1

example : ∃ m : MortonIndex2D (FixedDepthStorage2DOf (Bytes 3)), MortonIndex2D.fixedFromGridIndexOf x64 ⟨300#64, 77#64⟩ .XY = .ok m ∧
    m.storage.Ok ∧ GridAt2D x64 m .XY ⟨300#64, 77#64⟩ 12 :=
  ((C84_fixed_grid_2D x64_supported (x64_bytes 3 (by decide)) (by decide)).1 (by decide)).1 _ _

example : ∃ m : MortonIndex2D (StaticStorage2DOf (Bytes 3)),
    MortonIndex2D.staticFromGridIndexOf x64 ⟨300#64, 77#64⟩ 5 .YX = .ok (.ok m) ∧ m.storage.Ok ∧ depth m = 5 ∧
    GridAt2D x64 m .YX ⟨300#64, 77#64⟩ 5 :=
  ((C84_static_grid_2D x64_supported (x64_bytes 3 (by decide)) (by decide) 5).2 (by decide) (by decide) (.inl (by decide))).1 _ _

/-- A dynamic index goes into three bytes and keeps its cells. -/
example : ∃ n, MortonIndex2D.dynamicToStaticOf x64 (Bytes 3) exD2 = .ok (.ok n) ∧ n.storage.Ok ∧
    Shows x64 n (path exD2.storage) :=
  (C84_conversions_2D x64_supported (x64_bytes 3 (by decide)) (by decide)).2.2.2.1 exD2 (exD2_reach _) _
    (MortonIndex2D.shows_path x64_supported (dynamic_wf2 x64_supported _ (exD2_reach .all))) (by decide)

/-- Bytes are copied: the all-`Three` index over three bytes. -/
example : Shows x64 (MortonIndex2D.fixedToDynamicOf x64 ⟨⟨Bytes.ofNat 3 0xFFFFFF⟩⟩) (List.replicate 12 .Three) := by
  refine (C84_bytes_2D (B := Bytes 3) x64_supported (x64_bytes 3 (by decide)) (by unfold Addressable; decide)).2.1 _ _ ?_
  have h := MortonIndex2D.shows_path x64_supported
    (FixedDepthStorage2DOf.wf (x64_bytes 3 (by decide)) (⟨Bytes.ofNat 3 0xFFFFFF⟩ : FixedDepthStorage2DOf (Bytes 3)))
    (m := (⟨⟨Bytes.ofNat 3 0xFFFFFF⟩⟩ : MortonIndex2D (FixedDepthStorage2DOf (Bytes 3))))
  have e : path (⟨Bytes.ofNat 3 0xFFFFFF⟩ : FixedDepthStorage2DOf (Bytes 3)) = List.replicate 12 .Three := by decide +kernel
  rwa [e] at h

example : RustOrd.hashInput (⟨⟨Bytes.ofNat 3 5⟩⟩ : MortonIndex2D (FixedDepthStorage2DOf (Bytes 3))) =
    RustOrd.hashInput (⟨⟨Bytes.ofNat 3 5⟩⟩ : MortonIndex2D (FixedDepthStorage2DOf (Bytes 3))) :=
  C84_hash_2D.1 _ _ (by decide +kernel)

/-- `u16` in both models. -/
example : (MortonIndex2D.fixedFromGridIndexOf x64 ⟨300#64, 77#64⟩ .XY : Res (MortonIndex2D (FixedDepthStorage2DOf (BitVec 16)))) =
    (MortonIndex2D.fixedFromGridIndex x64 16 ⟨300#64, 77#64⟩ .XY).map MortonIndex2D.genericF :=
  (C84_native_2D x64 16).1 _ _

end MortonRs
