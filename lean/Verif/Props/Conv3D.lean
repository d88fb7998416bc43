import Verif.Lemmas.PathBits
import Verif.Props.Conv2D
import Verif.Lemmas.Kinds3D
import Verif.Props.Examples

/-! # Conversions between the 3D index types (C32, C33, C34) -/

namespace MortonRs

open BitStorage MortonIndex

variable {c : Cfg}

/-! ## C32 -/

theorem C32_conversions_3D (hc : c.Supported) (w : Nat) (hw : IntWidth w) :
    ConversionKeepsCells c (fun m => Reach3D c .all (.fixed w m)) (fun m => .ok (MortonIndex3D.fixedToStatic m)) ∧
    ConversionKeepsCells c (fun m => Reach3D c .all (.fixed w m)) (fun m => .ok (MortonIndex3D.fixedToDynamic c m)) ∧
    (DynWrites c → ConversionKeepsCells c (fun m => Reach3D c .all (.static w m)) (MortonIndex3D.staticToDynamic c)) ∧
    ConversionKeepsCells c (fun m => Reach3D c .all (.dynamic m) ∧ depth m ≤ w / 3)
      (fun m => okOf (MortonIndex3D.dynamicToStatic c w m)) ∧
    (∀ m, Reach3D c .all (.dynamic m) → depth m > w / 3 →
      MortonIndex3D.dynamicToStatic c w m = .ok (.error (.DepthLimitedExceeded (w / 3)))) ∧
    (∀ m, Reach3D c .all (.static w m) → ∃ cs ds, Shows c m cs ∧
      Shows c (MortonIndex3D.staticToFixed m) (cs ++ ds) ∧ cs.length + ds.length = w / 3 ∧
      (Reach3D c .canonical (.static w m) → ∀ x ∈ ds, x = .Zero)) := by
  refine ⟨fun m hm => ?_, fun m hm => ?_, fun hdw m hm => ?_, fun m hm => ?_, fun m hm hd => ?_, fun m hm => ?_⟩
  · obtain ⟨h1, h2, -⟩ := MortonIndex3D.fixedToStatic_ok (c := c) hw m
    exact ⟨_, _, MortonIndex3D.shows_path hc (fixed_wf3 hc m hm), rfl, h2 ▸ MortonIndex3D.shows_path hc h1⟩
  · obtain ⟨h1, h2, -⟩ := MortonIndex3D.fixedToDynamic_ok hc hw m
    exact ⟨_, _, MortonIndex3D.shows_path hc (fixed_wf3 hc m hm), rfl, h2 ▸ MortonIndex3D.shows_path hc h1.wf⟩
  · obtain ⟨m', h1, h2, -, h3⟩ := MortonIndex3D.staticToDynamic_ok hc (static_wf3 hc m hm)
    exact ⟨_, m', MortonIndex3D.shows_path hc (static_wf3 hc m hm), h1,
      h3 hdw ▸ MortonIndex3D.shows_path hc h2.inv.wf⟩
  · obtain ⟨m', h1, h2, -, h3⟩ := MortonIndex3D.dynamicToStatic_ok hc hw (dynamic_wf3 hc m hm.1) hm.2
    exact ⟨_, m', MortonIndex3D.shows_path hc (dynamic_wf3 hc m hm.1), congrArg okOf h1,
      h3 ▸ MortonIndex3D.shows_path hc h2⟩
  · exact MortonIndex3D.dynamicToStatic_error hd
  · have hwf := static_wf3 hc m hm
    obtain ⟨h1, h2⟩ := MortonIndex3D.staticToFixed_ok hw hwf
    have hs := MortonIndex3D.shows_path hc (m := MortonIndex3D.staticToFixed m) (FixedDepthStorage3D.wf hw _)
    have hlen : (path (MortonIndex3D.staticToFixed m).storage).length = w / 3 := path_length _
    refine ⟨path m.storage, (path (MortonIndex3D.staticToFixed m).storage).drop (Storage.depth m.storage),
      MortonIndex3D.shows_path hc hwf, ?_, ?_, fun hcan x hx => ?_⟩
    · rw [h1, List.take_append_drop]; exact hs
    · have : Storage.depth m.storage ≤ w / 3 := (StaticStorage3D.wf_iff hw _).mp hwf
      rw [path_length, List.length_drop, hlen]
      omega
    · rw [(h2 ((reach3D_good hc hcan).2 rfl)).2, List.drop_left' (path_length _)] at hx
      exact (List.mem_replicate.mp hx).2

example : ∃ cs n, Shows x64 exF3 cs ∧ Except.ok (MortonIndex3D.fixedToDynamic x64 exF3) = Except.ok (ε := Fault) n ∧
    Shows x64 n cs :=
  (C32_conversions_3D x64_supported 32 (by decide)).2.1 exF3 (exF3_reach _)

example : ∃ cs n, Shows x64 exD3 cs ∧ okOf (MortonIndex3D.dynamicToStatic x64 32 exD3) = .ok n ∧ Shows x64 n cs :=
  (C32_conversions_3D x64_supported 32 (by decide)).2.2.2.1 exD3 ⟨exD3_reach _, by decide⟩

theorem C32_round_trips_3D (hc : c.Supported) (w : Nat) (hw : IntWidth w) :
    ConvertsBack (fun m => Reach3D c .all (.fixed w m)) (fun m => .ok (MortonIndex3D.fixedToStatic m))
      (fun m => .ok (MortonIndex3D.staticToFixed m)) ∧
    (DynWrites c → ConvertsBack (fun m => Reach3D c .canonical (.static w m)) (MortonIndex3D.staticToDynamic c)
      (fun m => okOf (MortonIndex3D.dynamicToStatic c w m))) ∧
    (DynWrites c → ConvertsBack (fun m => Reach3D c .canonical (.dynamic m) ∧ depth m ≤ w / 3)
      (fun m => okOf (MortonIndex3D.dynamicToStatic c w m)) (MortonIndex3D.staticToDynamic c)) := by
  refine ⟨fun m hm => ⟨_, m, rfl, rfl, ?_⟩, fun hdw m hm => ?_, fun hdw m hm => ?_⟩
  · exact beq_self_eq_true m.storage.bits
  · have hwf := static_wf3 hc m hm
    obtain ⟨n, h1, h2, h3, h4⟩ := MortonIndex3D.staticToDynamic_ok hc hwf
    obtain ⟨m', g1, g2, g3, g4⟩ := MortonIndex3D.dynamicToStatic_ok hc hw h2.inv.wf
      (by rw [h3]; exact (StaticStorage3D.wf_iff hw _).mp hwf)
    refine ⟨n, m', h1, congrArg okOf g1, ?_⟩
    exact (StaticStorage3D.eq_iff g2 g3 ((reach3D_good hc hm).2 rfl)).mpr (g4.trans (h4 hdw))
  · have hwf := dynamic_wf3 hc m hm.1
    obtain ⟨n, h1, h2, h3, h4⟩ := MortonIndex3D.dynamicToStatic_ok hc hw hwf hm.2
    obtain ⟨m', g1, g2, g3, g4⟩ := MortonIndex3D.staticToDynamic_ok hc h2
    refine ⟨n, m', congrArg okOf h1, g1, ?_⟩
    exact (DynamicStorage3D.eq_iff g2 ((reach3D_good hc hm.1).2 rfl)).mpr ((g4 hdw).trans h4)

example : ∃ n m', MortonIndex3D.staticToDynamic x64 exS3 = .ok n ∧
    okOf (MortonIndex3D.dynamicToStatic x64 32 n) = .ok m' ∧ RustOrd.eq m' exS3 = true :=
  (C32_round_trips_3D x64_supported 32 (by decide)).2.1 x64_writes exS3 (exS3_reach _)

/-! ## C33 -/

/-- Missing: depths whose byte count is not the size of the integer. There the conversion moves the cells unless all
of them are `Zero`, which the equivalence states (`C33_refuted` is a concrete case). Big-endian targets are `C33_big_endian_3D_partial`. Indices
with stray bits are `C33_any_bits_3D`. -/
theorem C33_dynamic_to_fixed_3D_partial (hc : c.Supported) (w : Nat) (hw : IntWidth w)
    (m : MortonIndex3D DynamicStorage3D) (hm : Reach3D c .canonical (.dynamic m)) :
    (depth m > w / 3 → MortonIndex3D.dynamicToFixed c w m = .error (.DepthLimitedExceeded (w / 3))) ∧
    (depth m ≤ w / 3 → c.bigEndian = false → ∃ cs ds f, Shows c m cs ∧ MortonIndex3D.dynamicToFixed c w m = .ok f ∧
      Shows c f ds ∧
      (ds = cs ++ List.replicate (w / 3 - cs.length) .Zero ↔ (cs.length * 3 + 7) / 8 = w / 8 ∨ ∀ x ∈ cs, x = .Zero)) := by
  refine ⟨fun hd => MortonIndex3D.dynamicToFixed_error hd, fun hd hle => ?_⟩
  obtain ⟨f, h1, h2⟩ := MortonIndex3D.dynamicToFixed_keeps hw hle ((reach3D_good hc hm).2 rfl) hd
  refine ⟨path m.storage, path f.storage, f, MortonIndex3D.shows_path hc (dynamic_wf3 hc m hm), h1,
    MortonIndex3D.shows_path hc (FixedDepthStorage3D.wf hw _), ?_⟩
  rw [path_length]
  exact h2

/-- A depth at which the cells are kept: three octants take two bytes. -/
example : ∃ cs ds f, Shows x64 exD3 cs ∧ MortonIndex3D.dynamicToFixed x64 16 exD3 = .ok f ∧ Shows x64 f ds ∧
    (ds = cs ++ List.replicate (5 - cs.length) .Zero ↔ (cs.length * 3 + 7) / 8 = 2 ∨ ∀ x ∈ cs, x = .Zero) :=
  (C33_dynamic_to_fixed_3D_partial x64_supported 16 (by decide) exD3 (exD3_reach _)).2 (by decide) rfl

/-- **C33**, what the conversion does instead: where every bit of the path goes. The bytes of the dynamic index hold
the path from the last byte to the first; they become the lowest bytes of the integer on little-endian targets and
the highest bytes, in the opposite order, on big-endian targets. -/
theorem C33_exact_bits_3D (hc : c.Supported) (w : Nat) (hw : IntWidth w)
    (m : MortonIndex3D DynamicStorage3D) (hm : Reach3D c .canonical (.dynamic m)) (hd : depth m ≤ w / 3) :
    ∃ cs ds f, Shows c m cs ∧ MortonIndex3D.dynamicToFixed c w m = .ok f ∧ Shows c f ds ∧
      ∀ j, j < w / 3 * 3 → pathBit 3 octantKey ds j =
        if c.bigEndian then
          decide (j / 8 < (cs.length * 3 + 7) / 8) &&
            pathBit 3 octantKey cs (8 * ((cs.length * 3 + 7) / 8 - 1 - j / 8) + j % 8)
        else
          decide (w - 8 * ((cs.length * 3 + 7) / 8) ≤ j) &&
            pathBit 3 octantKey cs (j - (w - 8 * ((cs.length * 3 + 7) / 8))) := by
  have hk : octantKey = Dimension.toUsize := by funext x; cases x <;> rfl
  obtain ⟨f, h1, h2⟩ := MortonIndex3D.dynamicToFixed_bits hw ((reach3D_good hc hm).2 rfl) hd
  refine ⟨path m.storage, path f.storage, f, MortonIndex3D.shows_path hc (dynamic_wf3 hc m hm), h1,
    MortonIndex3D.shows_path hc (FixedDepthStorage3D.wf hw _), ?_⟩
  rw [path_length, hk]
  exact h2

/-- `[Five, One, Six]` takes two bytes and comes out 16 bits further down in a 32-bit index. -/
example : ∃ cs ds f, Shows x64 exD3 cs ∧ MortonIndex3D.dynamicToFixed x64 32 exD3 = .ok f ∧ Shows x64 f ds ∧
    ∀ j, j < 30 → pathBit 3 octantKey ds j = if x64.bigEndian then
      decide (j / 8 < (cs.length * 3 + 7) / 8) &&
        pathBit 3 octantKey cs (8 * ((cs.length * 3 + 7) / 8 - 1 - j / 8) + j % 8)
      else decide (32 - 8 * ((cs.length * 3 + 7) / 8) ≤ j) &&
        pathBit 3 octantKey cs (j - (32 - 8 * ((cs.length * 3 + 7) / 8))) :=
  C33_exact_bits_3D x64_supported 32 (by decide) exD3 (exD3_reach _) (by decide)
example : (MortonIndex3D.dynamicToFixed x64 32 exD3).toOption.map (·.storage.bits) = some 0x0000A700#32 ∧
    (MortonIndex3D.dynamicToFixed ⟨16, true, true⟩ 32 exD3).toOption.map (·.storage.bits) = some 0x00A70000#32 := by
  decide +kernel

/-! ## C34 -/

theorem C34_conversions_keep_order_3D (hc : c.Supported) (w : Nat) (hw : IntWidth w) :
    ConversionKeepsOrder c (fun m => Reach3D c .canonical (.fixed w m)) (fun m => .ok (MortonIndex3D.fixedToStatic m)) ∧
    ConversionKeepsOrder c (fun m => Reach3D c .canonical (.fixed w m)) (fun m => .ok (MortonIndex3D.fixedToDynamic c m)) ∧
    (DynWrites c → ConversionKeepsOrder c (fun m => Reach3D c .canonical (.static w m)) (MortonIndex3D.staticToDynamic c)) ∧
    ConversionKeepsOrder c (fun m => Reach3D c .canonical (.dynamic m) ∧ depth m ≤ w / 3)
      (fun m => okOf (MortonIndex3D.dynamicToStatic c w m)) := by
  refine ⟨?_, ?_, fun hdw => ?_, ?_⟩
  · refine keepsOrder_of (fixed_eq3 hc) (fixed_cmp3 hc) (static_eq3 hc) (static_cmp3 hc) (fun m hm => ?_)
    exact ⟨_, rfl, .fixedToStatic hm, (MortonIndex3D.fixedToStatic_ok (c := c) hw m).2.1⟩
  · refine keepsOrder_of (fixed_eq3 hc) (fixed_cmp3 hc) (dynamic_eq3 hc) (dynamic_cmp3 hc) (fun m hm => ?_)
    exact ⟨_, rfl, .fixedToDynamic hm, (MortonIndex3D.fixedToDynamic_ok hc hw m).2.1⟩
  · refine keepsOrder_of (static_eq3 hc) (static_cmp3 hc) (dynamic_eq3 hc) (dynamic_cmp3 hc) (fun m hm => ?_)
    obtain ⟨n, h1, -, -, h4⟩ := MortonIndex3D.staticToDynamic_ok hc (static_wf3 hc m hm)
    exact ⟨n, h1, .staticToDynamic hm h1, h4 hdw⟩
  · have he : EqLike (fun m => Reach3D c .canonical (.dynamic m) ∧ depth m ≤ w / 3) cells3 :=
      fun a b ha hb => dynamic_eq3 hc a b ha.1 hb.1
    have hcm : CmpLike c octantKey (fun m => Reach3D c .canonical (.dynamic m) ∧ depth m ≤ w / 3) cells3 :=
      fun a b ha hb => dynamic_cmp3 hc a b ha.1 hb.1
    refine keepsOrder_of he hcm (static_eq3 hc) (static_cmp3 hc) (fun m hm => ?_)
    obtain ⟨n, h1, -, -, h4⟩ := MortonIndex3D.dynamicToStatic_ok hc hw (dynamic_wf3 hc m hm.1) hm.2
    exact ⟨n, congrArg okOf h1, .dynamicToStatic hw hm.1 h1, h4⟩

example : ∃ a' b', MortonIndex3D.staticToDynamic x64 exS3 = .ok a' ∧ MortonIndex3D.staticToDynamic x64 exS3 = .ok b' ∧
    RustOrd.eq a' b' = RustOrd.eq exS3 exS3 ∧ RustOrd.cmp x64 a' b' = RustOrd.cmp x64 exS3 exS3 ∧
    RustOrd.partialCmp x64 a' b' = RustOrd.partialCmp x64 exS3 exS3 :=
  (C34_conversions_keep_order_3D x64_supported 32 (by decide)).2.2.1 x64_writes exS3 exS3 (exS3_reach _) (exS3_reach _)

/-- The order is kept for all histories of static and dynamic indices, also those that leave stray bits. -/
theorem C34_conversions_keep_cmp_3D (hc : c.Supported) (w : Nat) (hw : IntWidth w) :
    ConversionKeepsCmp c (fun m => Reach3D c .canonical (.fixed w m)) (fun m => .ok (MortonIndex3D.fixedToStatic m)) ∧
    ConversionKeepsCmp c (fun m => Reach3D c .canonical (.fixed w m)) (fun m => .ok (MortonIndex3D.fixedToDynamic c m)) ∧
    (DynWrites c → ConversionKeepsCmp c (fun m => Reach3D c .all (.static w m)) (MortonIndex3D.staticToDynamic c)) ∧
    ConversionKeepsCmp c (fun m => Reach3D c .all (.dynamic m) ∧ depth m ≤ w / 3)
      (fun m => okOf (MortonIndex3D.dynamicToStatic c w m)) := by
  refine ⟨?_, ?_, fun hdw => ?_, ?_⟩
  · refine keepsCmp_of (fixed_cmp3 hc) (static_cmp3 (sc := .canonical) hc) (fun m hm => ?_)
    exact ⟨_, rfl, .fixedToStatic hm, (MortonIndex3D.fixedToStatic_ok (c := c) hw m).2.1⟩
  · refine keepsCmp_of (fixed_cmp3 hc) (dynamic_cmp3 (sc := .canonical) hc) (fun m hm => ?_)
    exact ⟨_, rfl, .fixedToDynamic hm, (MortonIndex3D.fixedToDynamic_ok hc hw m).2.1⟩
  · refine keepsCmp_of (static_cmp3 hc) (dynamic_cmp3 (sc := .all) hc) (fun m hm => ?_)
    obtain ⟨n, h1, -, -, h4⟩ := MortonIndex3D.staticToDynamic_ok hc (static_wf3 hc m hm)
    exact ⟨n, h1, .staticToDynamic hm h1, h4 hdw⟩
  · have hcm : CmpLike c octantKey (fun m => Reach3D c .all (.dynamic m) ∧ depth m ≤ w / 3) cells3 :=
      fun a b ha hb => dynamic_cmp3 hc a b ha.1 hb.1
    refine keepsCmp_of hcm (static_cmp3 (sc := .all) hc) (fun m hm => ?_)
    obtain ⟨n, h1, -, -, h4⟩ := MortonIndex3D.dynamicToStatic_ok hc hw (dynamic_wf3 hc m hm.1) hm.2
    exact ⟨n, congrArg okOf h1, .dynamicToStatic hw hm.1 h1, h4⟩

example : ∃ a b, MortonIndex3D.staticToDynamic x64 exS3 = .ok a ∧
    MortonIndex3D.staticToDynamic x64 (⟨⟨0xC0000000#32, 1⟩⟩ : MortonIndex3D (StaticStorage3D 32)) = .ok b ∧
    RustOrd.cmp x64 a b = .ok .lt :=
  let ⟨a, b, h1, h2, h3, _⟩ := (C34_conversions_keep_cmp_3D x64_supported 32 (by decide)).2.2.1 x64_writes exS3
    ⟨⟨0xC0000000#32, 1⟩⟩ (exS3_reach _) (.staticTryFromSlice (cs := [.Six]) (by decide) (by rfl))
  ⟨a, b, h1, h2, h3.trans (by decide +kernel)⟩

end MortonRs
