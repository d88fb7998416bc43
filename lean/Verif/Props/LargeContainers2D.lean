import Verif.Lemmas.LargeContainers2D
import Verif.Lemmas.ContainersNarrow
import Verif.Props.Containers2D

/-! # C85 for 2D indices: static indices over containers with 256 levels or more

`StaticStorage2D` keeps its depth in a `u8` (`morton_index_2d.rs` 450-453), but `MAX_LEVELS` is that of the container and nothing
limits it to 255. Where the depth of an index reaches 256 it is cut to its lowest byte. -/

namespace MortonRs

open BitStorage LawfulContainer MortonIndex VariableDepthMortonIndex

section
variable {B : Type} [FixedStorageType B] [LawfulContainer B] {c : Cfg}

theorem shows_wrapped2 (hc : c.Supported) (hf : on B c) {bits : B} {n : Nat} (hn : n ≤ Bits.BITS B / 2) {cs : List Quadrant}
    (hp : path (⟨bits, n⟩ : StaticStorage2DOf B) = cs) :
    Shows c (⟨⟨bits, n % 256⟩⟩ : MortonIndex2D (StaticStorage2DOf B)) (cs.take (n % 256)) := by
  have hm := Nat.mod_le n 256
  have := MortonIndex2D.shows_path hc (m := (⟨⟨bits, n % 256⟩⟩ : MortonIndex2D (StaticStorage2DOf B)))
    ((StaticStorage2DOf.wf_iff hf _).mpr (Nat.le_trans hm hn))
  rwa [StaticStorage2DOf.take_path hm, hp] at this

theorem fixed_of_static2 (hf : on B c) {bits : B} {n : Nat} (hn : n ≤ Bits.BITS B / 2) {cs : List Quadrant}
    (hz : TailZero (⟨bits, n⟩ : StaticStorage2DOf B)) (hp : path (⟨bits, n⟩ : StaticStorage2DOf B) = cs) :
    TailZero (⟨bits⟩ : FixedDepthStorage2DOf B) ∧
      path (⟨bits⟩ : FixedDepthStorage2DOf B) = cs ++ List.replicate (Bits.BITS B / 2 - cs.length) .Zero := by
  have hwf := (StaticStorage2DOf.wf_iff hf (⟨bits, n⟩ : StaticStorage2DOf B)).mpr hn
  obtain ⟨h1, h2⟩ := (MortonIndex2D.staticToFixedOf_ok hf (m := ⟨⟨bits, n⟩⟩) hwf).2 hz
  exact ⟨h1, by rw [← hp, path_length]; exact h2⟩

/-- `try_from` accepts any number of cells up to the maximum depth. It writes all of them, as converting to a fixed-depth index
shows, but the depth is `len % 256` and only so many cells can be seen. The result equals the index of the visible cells only if
the cells behind them are all `Zero`. -/
theorem C85_try_from_2D (hc : c.Supported) (hf : on B c) (cs : List Quadrant) (hlen : cs.length ≤ Bits.BITS B / 2) :
    ∃ m : MortonIndex2D (StaticStorage2DOf B), MortonIndex2D.tryFromSlice c cs = .ok (.ok m) ∧
      MortonIndex2D.tryFromArray c cs = .ok (.ok m) ∧ depth m = cs.length % 256 ∧
      Shows c m (cs.take (cs.length % 256)) ∧
      Shows c (MortonIndex2D.staticToFixedOf m) (cs ++ List.replicate (Bits.BITS B / 2 - cs.length) .Zero) ∧
      ∀ m', MortonIndex2D.tryFromSlice c (cs.take (cs.length % 256)) = .ok (.ok m') →
        (RustOrd.eq m m' = true ↔ ∀ q ∈ cs.drop (cs.length % 256), q = .Zero) := by
  obtain ⟨bits, h1, h2, h3, h4⟩ := StaticStorage2DOf.tryFrom_wrap hc hf cs hlen
  obtain ⟨h5, h6⟩ := fixed_of_static2 hf hlen h3 h4
  refine ⟨⟨⟨bits, cs.length % 256⟩⟩, ?_, ?_, rfl, shows_wrapped2 hc hf hlen h4, ?_, ?_⟩
  · simp only [MortonIndex2D.tryFromSlice, TryFromCells.tryFromSlice, h1, ok_bind, pure_eq_ok, Except.map]
  · simp only [MortonIndex2D.tryFromArray, TryFromCells.tryFromArray, h2, ok_bind, pure_eq_ok, Except.map]
  · have := MortonIndex2D.shows_path hc (m := (⟨⟨bits⟩⟩ : MortonIndex2D (FixedDepthStorage2DOf B))) (FixedDepthStorage2DOf.wf hf _)
    rwa [h6] at this
  · intro m' hm'
    have hm := Nat.mod_le cs.length 256
    have hk : (cs.take (cs.length % 256)).length = cs.length % 256 := by rw [List.length_take]; omega
    obtain ⟨bits', g1, -, g3, g4⟩ := StaticStorage2DOf.tryFrom_wrap (B := B) hc hf (cs.take (cs.length % 256)) (by rw [hk]; exact Nat.le_trans hm hlen)
    obtain ⟨g5, g6⟩ := fixed_of_static2 hf (by rw [hk]; omega) g3 g4
    simp only [MortonIndex2D.tryFromSlice, TryFromCells.tryFromSlice, g1, ok_bind, pure_eq_ok, Except.map] at hm'
    cases hm'
    rw [hk] at g6
    rw [hk]
    change (RustOrd.eq bits bits' && (cs.length % 256 == cs.length % 256 % 256)) = true ↔ _
    rw [Nat.mod_mod, beq_self_eq_true, Bool.and_true]
    have := FixedDepthStorage2DOf.eq_iff h5 g5
    rw [h6, g6] at this
    refine Iff.trans this ?_
    have hrep : List.replicate (Bits.BITS B / 2 - cs.length % 256) Quadrant.Zero =
        List.replicate (cs.length - cs.length % 256) .Zero ++ List.replicate (Bits.BITS B / 2 - cs.length) .Zero := by
      rw [List.replicate_append_replicate]
      congr 1
      omega
    rw [hrep, ← List.append_assoc, List.append_left_inj]
    have hcs := List.take_append_drop (cs.length % 256) cs
    constructor
    · intro h q hq
      have : cs.drop (cs.length % 256) = List.replicate (cs.length - cs.length % 256) .Zero := by
        exact List.append_cancel_left (hcs.trans h)
      rw [this] at hq
      exact (List.mem_replicate.mp hq).2
    · intro h
      have : cs.drop (cs.length % 256) = List.replicate (cs.length - cs.length % 256) .Zero :=
        List.eq_replicate_iff.mpr ⟨List.length_drop, h⟩
      rw [← this]
      exact hcs.symm

/-- `descendant`, `child` included: the cells are appended, then the depth is cut to a byte. No assumption on the bits of the index. -/
theorem C85_descendant_2D (hc : c.Supported) (hf : on B c) (m : MortonIndex2D (StaticStorage2DOf B)) (ds cs : List Quadrant)
    (hd : m.storage.depth ≤ Bits.BITS B / 2) (hs : Shows c m ds) (hn : ds.length + cs.length ≤ Bits.BITS B / 2) :
    ∃ a, descendant c m cs = .ok (some a) ∧ depth a = (ds.length + cs.length) % 256 ∧
      Shows c a ((ds ++ cs).take ((ds.length + cs.length) % 256)) := by
  have hwf := (StaticStorage2DOf.wf_iff hf m.storage).mpr hd
  have e : ds = path m.storage := shows_unique hs (MortonIndex2D.shows_path hc hwf)
  have hl : ds.length = m.storage.depth := by rw [e, path_length]; rfl
  rw [hl] at hn ⊢
  obtain ⟨bits, h1, -, h3⟩ := StaticStorage2DOf.descendant_wrap hc hwf cs hn
  refine ⟨⟨⟨bits, (m.storage.depth + cs.length) % 256⟩⟩, ?_, rfl, ?_⟩
  · change (do return (← m.storage.descendant c cs).map MortonIndex2D.mk : Res (Option (MortonIndex2D (StaticStorage2DOf B)))) = _
    rw [h1]
    rfl
  · rw [e]
    exact shows_wrapped2 hc hf hn h3

/-- From a fixed-depth index: `MAX_LEVELS % 256` cells. From a dynamic index: `depth % 256` cells. -/
theorem C85_conversions_2D (hc : c.Supported) (hf : on B c) :
    (∀ (m : MortonIndex2D (FixedDepthStorage2DOf B)) (cs : List Quadrant), Shows c m cs →
      depth (MortonIndex2D.fixedToStaticOf m) = Bits.BITS B / 2 % 256 ∧
      Shows c (MortonIndex2D.fixedToStaticOf m) (cs.take (Bits.BITS B / 2 % 256))) ∧
    (∀ m, Reach2D c .all (.dynamic m) → ∀ cs, Shows c m cs → cs.length ≤ Bits.BITS B / 2 →
      ∃ n, MortonIndex2D.dynamicToStaticOf c B m = .ok (.ok n) ∧ depth n = cs.length % 256 ∧
        Shows c n (cs.take (cs.length % 256))) := by
  refine ⟨fun m cs hs => ?_, fun m hm cs hs hl => ?_⟩
  · have e : cs = path m.storage := shows_unique hs (MortonIndex2D.shows_path hc (FixedDepthStorage2DOf.wf hf _))
    obtain ⟨h1, h2⟩ := MortonIndex2D.fixedToStaticOf_wrap m
    refine ⟨h1, ?_⟩
    have := MortonIndex2D.shows_path hc (m := MortonIndex2D.fixedToStaticOf m)
      ((StaticStorage2DOf.wf_iff hf _).mpr (by rw [h1]; exact Nat.mod_le _ _))
    rw [h2, ← e] at this
    exact this
  · have hwf := dynamic_wf2 hc m hm
    have e : cs = path m.storage := shows_unique hs (MortonIndex2D.shows_path hc hwf)
    have hlen : cs.length = m.storage.depth := by rw [e, path_length]; rfl
    rw [hlen] at hl ⊢
    obtain ⟨bits, h1, -, h3⟩ := MortonIndex2D.dynamicToStaticOf_wrap hc hf hwf hl
    exact ⟨_, h1, rfl, e ▸ shows_wrapped2 hc hf hl h3⟩

omit [LawfulContainer B] in
/-- `from_grid_index` never gets as far as the depth: with overflow checks it panics at every depth the container has. -/
theorem C85_grid_2D (hc : c.Supported) (ho : c.overflowChecks = true) (hB : 256 ≤ Bits.BITS B / 2) (g : Vector2 c.ptrBits)
    (d : Nat) (hd : d ≤ Bits.BITS B / 2) (o : QuadrantOrdering) :
    (MortonIndex2D.staticFromGridIndexOf c g d o : Res (Except Error (MortonIndex2D (StaticStorage2DOf B)))) = .error .overflow := by
  have hW : c.ptrBits ≤ 64 := by rcases hc with h | h | h <;> omega
  exact MortonIndex2D.staticFromGridIndexOf_overflow ho g hd (by omega) o

/-- What is left of C84 over every container, however large: static storages shallower than 256 levels keep the contracts of C83 as
long as no step reaches 256 levels. Missing: the steps that do (`C85_descendant_2D` says what they return). -/
theorem C85_storages_2D_partial (hc : c.Supported) (hf : on B c) :
    StorageContract c (fun s : StaticStorage2DOf B => s.Ok ∧ s.depth < 256) StaticStorage2DOf.view ∧
    VariableContract c (fun s : StaticStorage2DOf B => s.Ok ∧ s.depth < 256) StaticStorage2DOf.view
      (fun n k => k < 2 ^ (c.ptrBits - 1) ∧ (n + k < 256 ∨ n + k > Bits.BITS B / 2)) (some (Bits.BITS B / 2)) ∧
    EqContract (fun s : StaticStorage2DOf B => s.Ok ∧ s.depth < 256) StaticStorage2DOf.view ∧
    OrdContract c quadrantKey (fun s : StaticStorage2DOf B => s.Ok ∧ s.depth < 256) StaticStorage2DOf.view := by
  have hu := usize hf
  have hp : 2 ^ 15 ≤ 2 ^ (c.ptrBits - 1) := Nat.pow_le_pow_right (by decide) (by rcases hc with h | h | h <;> omega)
  have hp2 : 2 ^ c.ptrBits = 2 * 2 ^ (c.ptrBits - 1) := by
    rw [← Nat.pow_succ']
    congr 1
    rcases hc with h | h | h <;> omega
  refine ⟨⟨?_, ?_, ?_, ?_⟩, ⟨?_, ?_, ?_, ?_, ?_, ?_⟩, ⟨?_, ?_⟩, ?_⟩
  · intro s _
    exact (path_length s).symm
  · intro s hs
    rw [staticOf_view2, path_length]
    have := hs.1.1
    change s.depth < _
    omega
  · intro s hs l hl
    rw [staticOf_view2, path_length] at hl
    simp only [staticOf_view2, path_getElem]
    exact get_slot hc ((staticOf_ok2 hf s).mp hs.1).1 hl
  · intro s hs l v hl
    rw [staticOf_view2, path_length] at hl
    obtain ⟨h1, h2⟩ := (staticOf_ok2 hf s).mp hs.1
    obtain ⟨s', g1, g2, g3, g4⟩ := set_path hc h1 v hl
    refine ⟨s', g1, ⟨(staticOf_ok2 hf s').mpr ⟨g2, g4 h2⟩, ?_⟩, g3⟩
    have := congrArg List.length g3
    rw [path_length, List.length_set, path_length] at this
    change s'.depth = s.depth at this
    omega
  · intro s hs g hg
    rw [staticOf_view2, path_length] at hg
    exact StaticStorage2DOf.ancestor_none s g hg
  · intro s hs g hg
    rw [staticOf_view2, path_length] at *
    obtain ⟨h1, h2⟩ := (staticOf_ok2 hf s).mp hs.1
    obtain ⟨a, g1, g2, g3, g4, g5⟩ := StaticStorage2DOf.ancestor_wrap hc hs.2 h1 g hg
    exact ⟨a, g1, ⟨(staticOf_ok2 hf a).mpr ⟨g3, g4 h2⟩, by rw [g2]; have := hs.2; omega⟩, g5⟩
  · intro s hs cs hr he
    rw [staticOf_view2, path_length] at he
    have := hs.1.1
    have he' : Bits.BITS B / 2 < s.depth + cs.length := he
    exact StaticStorage2DOf.descendant_none s cs (by omega) he'
  · intro s hs cs hr he
    rw [staticOf_view2, path_length] at he hr
    obtain ⟨h1, h2⟩ := (staticOf_ok2 hf s).mp hs.1
    have he' : ¬ Bits.BITS B / 2 < s.depth + cs.length := he
    have hlt : s.depth + cs.length < 256 := by
      rcases hr.2 with h | h
      · exact h
      · exact absurd h he'
    obtain ⟨bits, g1, g2, g3⟩ := StaticStorage2DOf.descendant_wrap hc h1 cs (Nat.not_lt.mp he')
    rw [Nat.mod_eq_of_lt hlt] at g1
    exact ⟨_, g1, ⟨(staticOf_ok2 hf _).mpr ⟨(StaticStorage2DOf.wf_iff hf _).mpr (Nat.not_lt.mp he'), g2 h2⟩, hlt⟩, g3⟩
  · intro s hs
    rw [staticOf_view2, path_length]
    exact Nat.not_lt.mpr hs.1.1
  · intro s hs n k h
    rw [staticOf_view2, path_length] at h
    have := hs.1.1
    have := hs.2
    change n + k ≤ s.depth at h
    omega
  · intro s
    change (RustOrd.eq s.bits s.bits && s.depth == s.depth) = true
    rw [(LawfulContainer.eq s.bits s.bits).mpr rfl]
    simp
  · intro a b ha hb
    obtain ⟨h1, h2⟩ := (staticOf_ok2 hf a).mp ha.1
    obtain ⟨h3, h4⟩ := (staticOf_ok2 hf b).mp hb.1
    exact StaticStorage2DOf.eq_iff h1 h2 h4
  · intro a b ha hb
    have h := StaticStorage2DOf.cmp_ok ((staticOf_ok2 hf a).mp ha.1).1 ((staticOf_ok2 hf b).mp hb.1).1
    exact ⟨h, partialCmp_of_cmp2 h⟩

end

/-! ## Concrete cases: 256 levels in 64 bytes -/

/-- 256 cells are accepted and the index is as deep as the root, shows no cell, and is not the root. -/
theorem C85_refuted_2D : ∃ m r : MortonIndex2D (StaticStorage2DOf (Bytes 64)),
    MortonIndex2D.tryFromSlice x64 (List.replicate 256 .One) = .ok (.ok m) ∧ depth m = 0 ∧ Shows x64 m [] ∧
    MortonIndex2D.tryFromSlice x64 [] = .ok (.ok r) ∧ Shows x64 r [] ∧ RustOrd.eq m r = false := by
  obtain ⟨m, h1, -, h2, h3, -, h4⟩ := C85_try_from_2D (B := Bytes 64) x64_supported (x64_bytes 64 (by decide))
    (List.replicate 256 .One) (by rw [List.length_replicate]; decide)
  obtain ⟨r, g1, -, -, g3, -⟩ := C85_try_from_2D (B := Bytes 64) x64_supported (x64_bytes 64 (by decide)) [] (by decide)
  rw [List.length_replicate] at *
  refine ⟨m, r, h1, h2, h3, g1, g3, ?_⟩
  cases he : RustOrd.eq m r
  · rfl
  · rw [show (256 % 256) = 0 from rfl, List.drop_zero] at h4
    exact absurd ((h4 r g1).mp he .One (List.mem_replicate.mpr ⟨by decide, rfl⟩)) (by decide)

/-- The 255-level index still has a child: the root's depth, none of the 256 cells. -/
example : ∃ m a : MortonIndex2D (StaticStorage2DOf (Bytes 64)), MortonIndex2D.tryFromSlice x64 (List.replicate 255 .Two) = .ok (.ok m) ∧
    Shows x64 m (List.replicate 255 .Two) ∧ descendant x64 m [.One] = .ok (some a) ∧ depth a = 0 ∧ Shows x64 a [] := by
  obtain ⟨m, h1, -, h2, h3, -⟩ := C85_try_from_2D (B := Bytes 64) x64_supported (x64_bytes 64 (by decide))
    (List.replicate 255 .Two) (by rw [List.length_replicate]; decide)
  rw [List.length_replicate] at h2 h3
  rw [List.take_replicate, show min (255 % 256) 255 = 255 from rfl] at h3
  have hd : m.storage.depth = 255 := h2
  obtain ⟨a, g1, g2, g3⟩ := C85_descendant_2D (B := Bytes 64) x64_supported (x64_bytes 64 (by decide)) m _ [.One]
    (by change m.storage.depth ≤ 256; omega) h3 (by rw [List.length_replicate]; decide)
  rw [List.length_replicate] at g2 g3
  exact ⟨m, a, h1, h3, g1, g2, g3⟩

example (m : MortonIndex2D (FixedDepthStorage2DOf (Bytes 64))) (cs : List Quadrant) (hs : Shows x64 m cs) :
    depth (MortonIndex2D.fixedToStaticOf m) = 0 ∧ Shows x64 (MortonIndex2D.fixedToStaticOf m) [] :=
  (C85_conversions_2D x64_supported (x64_bytes 64 (by decide))).1 m cs hs

example : ∃ n, MortonIndex2D.dynamicToStaticOf x64 (Bytes 100) exD2 = .ok (.ok n) ∧
    depth n = (path exD2.storage).length % 256 ∧ Shows x64 n ((path exD2.storage).take ((path exD2.storage).length % 256)) :=
  (C85_conversions_2D x64_supported (x64_bytes 100 (by decide))).2 exD2 (exD2_reach _) _
    (MortonIndex2D.shows_path x64_supported (dynamic_wf2 x64_supported _ (exD2_reach .all))) (by decide)

example : (MortonIndex2D.staticFromGridIndexOf x64 ⟨5#64, 6#64⟩ 3 .XY : Res (Except Error (MortonIndex2D (StaticStorage2DOf (Bytes 64))))) =
    .error .overflow :=
  C85_grid_2D x64_supported rfl (by decide) _ 3 (by decide) _

example : StorageContract x64 (fun s : StaticStorage2DOf (Bytes 64) => s.Ok ∧ s.depth < 256) StaticStorage2DOf.view :=
  (C85_storages_2D_partial x64_supported (x64_bytes 64 (by decide))).1

end MortonRs
