import Verif.Lemmas.PathBits
import Verif.Lemmas.FromBytes
import Verif.Lemmas.Kinds2D
import Verif.Props.Examples

/-! # Conversions between the 2D index types (C32, C33, C34) -/

namespace MortonRs

open BitStorage MortonIndex

variable {c : Cfg}

/-! ## Statements -/

/-- `f` returns an index with the same cells. -/
def ConversionKeepsCells (c : Cfg) {M N Cell : Type} [MortonIndex M Cell] [MortonIndex N Cell] (ok : M → Prop)
    (f : M → Res N) : Prop :=
  ∀ m, ok m → ∃ cs n, Shows c m cs ∧ f m = .ok n ∧ Shows c n cs

/-- `g` takes the result of `f` back to an index equal to the original. -/
def ConvertsBack {M N : Type} [RustOrd M] (ok : M → Prop) (f : M → Res N) (g : N → Res M) : Prop :=
  ∀ m, ok m → ∃ n m', f m = .ok n ∧ g n = .ok m' ∧ RustOrd.eq m' m = true

/-- `f` keeps `==`, `cmp` and `partial_cmp`. -/
def ConversionKeepsOrder (c : Cfg) {M N : Type} [RustOrd M] [RustOrd N] (ok : M → Prop) (f : M → Res N) : Prop :=
  ∀ a b, ok a → ok b → ∃ a' b', f a = .ok a' ∧ f b = .ok b' ∧ RustOrd.eq a' b' = RustOrd.eq a b ∧
    RustOrd.cmp c a' b' = RustOrd.cmp c a b ∧ RustOrd.partialCmp c a' b' = RustOrd.partialCmp c a b

/-- `Result<T, Error>` as an outcome of the model: an `Err` counts as an error. -/
def okOf {α : Type} : Res (Except Error α) → Res α
  | .ok (.ok a) => .ok a
  | .ok (.error _) => .error .unwrap
  | .error e => .error e

/-! ## C32 -/

theorem C32_conversions_2D (hc : c.Supported) (w : Nat) (hw : IntWidth w) :
    ConversionKeepsCells c (fun m => Reach2D c .all (.fixed w m)) (fun m => .ok (MortonIndex2D.fixedToStatic m)) ∧
    ConversionKeepsCells c (fun m => Reach2D c .all (.fixed w m)) (fun m => .ok (MortonIndex2D.fixedToDynamic c m)) ∧
    (DynWrites c → ConversionKeepsCells c (fun m => Reach2D c .all (.static w m)) (MortonIndex2D.staticToDynamic c)) ∧
    ConversionKeepsCells c (fun m => Reach2D c .all (.dynamic m) ∧ depth m ≤ w / 2)
      (fun m => okOf (MortonIndex2D.dynamicToStatic c w m)) ∧
    (∀ m, Reach2D c .all (.dynamic m) → depth m > w / 2 →
      MortonIndex2D.dynamicToStatic c w m = .ok (.error (.DepthLimitedExceeded (w / 2)))) ∧
    (∀ m, Reach2D c .all (.static w m) → ∃ cs ds, Shows c m cs ∧
      Shows c (MortonIndex2D.staticToFixed m) (cs ++ ds) ∧ cs.length + ds.length = w / 2 ∧
      ∀ x ∈ ds, x = .Zero) := by
  refine ⟨fun m hm => ?_, fun m hm => ?_, fun hdw m hm => ?_, fun m hm => ?_, fun m hm hd => ?_, fun m hm => ?_⟩
  · obtain ⟨h1, h2, -⟩ := MortonIndex2D.fixedToStatic_ok (c := c) hw m
    exact ⟨_, _, MortonIndex2D.shows_path hc (fixed_wf2 hc m hm), rfl, h2 ▸ MortonIndex2D.shows_path hc h1⟩
  · obtain ⟨h1, h2, -⟩ := MortonIndex2D.fixedToDynamic_ok hc hw m
    exact ⟨_, _, MortonIndex2D.shows_path hc (fixed_wf2 hc m hm), rfl, h2 ▸ MortonIndex2D.shows_path hc h1.wf⟩
  · obtain ⟨m', h1, h2, -, h3⟩ := MortonIndex2D.staticToDynamic_ok hc (static_wf2 hc m hm)
    exact ⟨_, m', MortonIndex2D.shows_path hc (static_wf2 hc m hm), h1,
      h3 hdw ▸ MortonIndex2D.shows_path hc h2.inv.wf⟩
  · obtain ⟨m', h1, h2, -, h3⟩ := MortonIndex2D.dynamicToStatic_ok hc hw (dynamic_wf2 hc m hm.1) hm.2
    exact ⟨_, m', MortonIndex2D.shows_path hc (dynamic_wf2 hc m hm.1), congrArg okOf h1,
      h3 ▸ MortonIndex2D.shows_path hc h2⟩
  · exact MortonIndex2D.dynamicToStatic_error hd
  · have hwf := static_wf2 hc m hm
    obtain ⟨h1, h2⟩ := MortonIndex2D.staticToFixed_ok hw hwf
    have hs := MortonIndex2D.shows_path hc (m := MortonIndex2D.staticToFixed m) (FixedDepthStorage2D.wf hw _)
    have hlen : (path (MortonIndex2D.staticToFixed m).storage).length = w / 2 := path_length _
    refine ⟨path m.storage, (path (MortonIndex2D.staticToFixed m).storage).drop (Storage.depth m.storage),
      MortonIndex2D.shows_path hc hwf, ?_, ?_, fun x hx => ?_⟩
    · rw [h1, List.take_append_drop]; exact hs
    · have : Storage.depth m.storage ≤ w / 2 := (StaticStorage2D.wf_iff hw _).mp hwf
      rw [path_length, List.length_drop, hlen]
      omega
    · rw [(h2 (reach2D_good hc hm).2).2, List.drop_left' (path_length _)] at hx
      exact (List.mem_replicate.mp hx).2

example : ∃ cs n, Shows x64 exF2 cs ∧ Except.ok (MortonIndex2D.fixedToDynamic x64 exF2) = Except.ok (ε := Fault) n ∧
    Shows x64 n cs :=
  (C32_conversions_2D x64_supported 16 (by decide)).2.1 exF2 (exF2_reach _)

example : ∃ cs n, Shows x64 exD2 cs ∧ okOf (MortonIndex2D.dynamicToStatic x64 32 exD2) = .ok n ∧ Shows x64 n cs :=
  (C32_conversions_2D x64_supported 32 (by decide)).2.2.2.1 exD2 ⟨exD2_reach _, by decide⟩

theorem C32_round_trips_2D (hc : c.Supported) (w : Nat) (hw : IntWidth w) :
    ConvertsBack (fun m => Reach2D c .all (.fixed w m)) (fun m => .ok (MortonIndex2D.fixedToStatic m))
      (fun m => .ok (MortonIndex2D.staticToFixed m)) ∧
    (DynWrites c → ConvertsBack (fun m => Reach2D c .all (.static w m)) (MortonIndex2D.staticToDynamic c)
      (fun m => okOf (MortonIndex2D.dynamicToStatic c w m))) ∧
    (DynWrites c → ConvertsBack (fun m => Reach2D c .canonical (.dynamic m) ∧ depth m ≤ w / 2)
      (fun m => okOf (MortonIndex2D.dynamicToStatic c w m)) (MortonIndex2D.staticToDynamic c)) := by
  refine ⟨fun m hm => ⟨_, m, rfl, rfl, ?_⟩, fun hdw m hm => ?_, fun hdw m hm => ?_⟩
  · exact beq_self_eq_true m.storage.bits
  · have hwf := static_wf2 hc m hm
    obtain ⟨n, h1, h2, h3, h4⟩ := MortonIndex2D.staticToDynamic_ok hc hwf
    obtain ⟨m', g1, g2, g3, g4⟩ := MortonIndex2D.dynamicToStatic_ok hc hw h2.inv.wf
      (by rw [h3]; exact (StaticStorage2D.wf_iff hw _).mp hwf)
    refine ⟨n, m', h1, congrArg okOf g1, ?_⟩
    exact (StaticStorage2D.eq_iff g2 g3 (reach2D_good hc hm).2).mpr (g4.trans (h4 hdw))
  · have hwf := dynamic_wf2 hc m hm.1
    obtain ⟨n, h1, h2, h3, h4⟩ := MortonIndex2D.dynamicToStatic_ok hc hw hwf hm.2
    obtain ⟨m', g1, g2, g3, g4⟩ := MortonIndex2D.staticToDynamic_ok hc h2
    refine ⟨n, m', congrArg okOf h1, g1, ?_⟩
    exact (DynamicStorage2D.eq_iff g2 ((reach2D_good hc hm.1).2 rfl)).mpr ((g4 hdw).trans h4)

example : ∃ n m', MortonIndex2D.staticToDynamic x64 exS2 = .ok n ∧
    okOf (MortonIndex2D.dynamicToStatic x64 16 n) = .ok m' ∧ RustOrd.eq m' exS2 = true :=
  (C32_round_trips_2D x64_supported 16 (by decide)).2.1 x64_writes exS2 (exS2_reach _)

/-! ## C33 -/

/-- Missing: depths whose byte count is not the size of the integer. There the conversion moves the cells unless all
of them are `Zero`, which the equivalence states (`C33_refuted` is a concrete case). Big-endian targets are `C33_big_endian_2D_partial`. Indices
with stray bits are `C33_any_bits_2D`. -/
theorem C33_dynamic_to_fixed_2D_partial (hc : c.Supported) (w : Nat) (hw : IntWidth w)
    (m : MortonIndex2D DynamicStorage2D) (hm : Reach2D c .canonical (.dynamic m)) :
    (depth m > w / 2 → MortonIndex2D.dynamicToFixed c w m = .error (.DepthLimitedExceeded (w / 2))) ∧
    (depth m ≤ w / 2 → c.bigEndian = false → ∃ cs ds f, Shows c m cs ∧ MortonIndex2D.dynamicToFixed c w m = .ok f ∧
      Shows c f ds ∧
      (ds = cs ++ List.replicate (w / 2 - cs.length) .Zero ↔ (cs.length * 2 + 7) / 8 = w / 8 ∨ ∀ x ∈ cs, x = .Zero)) := by
  refine ⟨fun hd => MortonIndex2D.dynamicToFixed_error hd, fun hd hle => ?_⟩
  obtain ⟨f, h1, h2⟩ := MortonIndex2D.dynamicToFixed_keeps hw hle ((reach2D_good hc hm).2 rfl) hd
  refine ⟨path m.storage, path f.storage, f, MortonIndex2D.shows_path hc (dynamic_wf2 hc m hm), h1,
    MortonIndex2D.shows_path hc (FixedDepthStorage2D.wf hw _), ?_⟩
  rw [path_length]
  exact h2

/-- A depth at which the cells are kept: four quadrants fill the byte. -/
example : ∃ cs ds f, Shows x64 exD2 cs ∧ MortonIndex2D.dynamicToFixed x64 8 exD2 = .ok f ∧ Shows x64 f ds ∧
    (ds = cs ++ List.replicate (4 - cs.length) .Zero ↔ (cs.length * 2 + 7) / 8 = 1 ∨ ∀ x ∈ cs, x = .Zero) :=
  (C33_dynamic_to_fixed_2D_partial x64_supported 8 (by decide) exD2 (exD2_reach _)).2 (by decide) rfl

/-- **C33**, what the conversion does instead: where every bit of the path goes. The bytes of the dynamic index hold
the path from the last byte to the first; they become the lowest bytes of the integer on little-endian targets and
the highest bytes, in the opposite order, on big-endian targets. -/
theorem C33_exact_bits_2D (hc : c.Supported) (w : Nat) (hw : IntWidth w)
    (m : MortonIndex2D DynamicStorage2D) (hm : Reach2D c .canonical (.dynamic m)) (hd : depth m ≤ w / 2) :
    ∃ cs ds f, Shows c m cs ∧ MortonIndex2D.dynamicToFixed c w m = .ok f ∧ Shows c f ds ∧
      ∀ j, j < w / 2 * 2 → pathBit 2 quadrantKey ds j =
        if c.bigEndian then
          decide (j / 8 < (cs.length * 2 + 7) / 8) &&
            pathBit 2 quadrantKey cs (8 * ((cs.length * 2 + 7) / 8 - 1 - j / 8) + j % 8)
        else
          decide (w - 8 * ((cs.length * 2 + 7) / 8) ≤ j) &&
            pathBit 2 quadrantKey cs (j - (w - 8 * ((cs.length * 2 + 7) / 8))) := by
  have hk : quadrantKey = Dimension.toUsize := by funext x; cases x <;> rfl
  obtain ⟨f, h1, h2⟩ := MortonIndex2D.dynamicToFixed_bits hw ((reach2D_good hc hm).2 rfl) hd
  refine ⟨path m.storage, path f.storage, f, MortonIndex2D.shows_path hc (dynamic_wf2 hc m hm), h1,
    MortonIndex2D.shows_path hc (FixedDepthStorage2D.wf hw _), ?_⟩
  rw [path_length, hk]
  exact h2

/-- **C33** on little-endian targets in terms of cells: the cells are shifted towards the end by the missing bytes. -/
theorem C33_exact_cells_2D (hc : c.Supported) (hle : c.bigEndian = false) (w : Nat) (hw : IntWidth w)
    (m : MortonIndex2D DynamicStorage2D) (hm : Reach2D c .canonical (.dynamic m)) (hd : depth m ≤ w / 2) :
    ∃ cs f, Shows c m cs ∧ MortonIndex2D.dynamicToFixed c w m = .ok f ∧
      Shows c f (List.replicate (w / 2 - 4 * ((cs.length * 2 + 7) / 8)) .Zero ++ cs ++
        List.replicate (4 * ((cs.length * 2 + 7) / 8) - cs.length) .Zero) := by
  obtain ⟨f, h1, h2⟩ := MortonIndex2D.dynamicToFixed_path hw hle ((reach2D_good hc hm).2 rfl) hd
  refine ⟨path m.storage, f, MortonIndex2D.shows_path hc (dynamic_wf2 hc m hm), h1, ?_⟩
  rw [path_length]
  have := MortonIndex2D.shows_path hc (FixedDepthStorage2D.wf hw f.storage)
  rw [h2] at this
  exact this

/-- `[Three, One, Two]` in a 16-bit index comes out at levels 4 to 6. -/
example : ∃ cs f, Shows x64 exD2 cs ∧ MortonIndex2D.dynamicToFixed x64 16 exD2 = .ok f ∧
    Shows x64 f (List.replicate (8 - 4 * ((cs.length * 2 + 7) / 8)) .Zero ++ cs ++
      List.replicate (4 * ((cs.length * 2 + 7) / 8) - cs.length) .Zero) :=
  C33_exact_cells_2D x64_supported rfl 16 (by decide) exD2 (exD2_reach _) (by decide)
example : (MortonIndex2D.dynamicToFixed x64 16 exD2).toOption.map (·.storage.bits) = some 0x00D8#16 ∧
    (MortonIndex2D.dynamicToFixed ⟨16, true, true⟩ 16 exD2).toOption.map (·.storage.bits) = some 0xD800#16 := by
  decide +kernel
example : ∃ cs ds f, Shows x64 exD2 cs ∧ MortonIndex2D.dynamicToFixed x64 16 exD2 = .ok f ∧ Shows x64 f ds ∧
    ∀ j, j < 16 → pathBit 2 quadrantKey ds j = if x64.bigEndian then
      decide (j / 8 < (cs.length * 2 + 7) / 8) &&
        pathBit 2 quadrantKey cs (8 * ((cs.length * 2 + 7) / 8 - 1 - j / 8) + j % 8)
      else decide (16 - 8 * ((cs.length * 2 + 7) / 8) ≤ j) &&
        pathBit 2 quadrantKey cs (j - (16 - 8 * ((cs.length * 2 + 7) / 8))) :=
  C33_exact_bits_2D x64_supported 16 (by decide) exD2 (exD2_reach _) (by decide)
example : (List.range 7).map (pathBit 2 quadrantKey [.Three, .One, .Two]) =
    [true, true, false, true, true, false, false] := by decide

/-! ## C34 -/

theorem keepsOrder_of {M N Cell : Type} [RustOrd M] [RustOrd N] {key : Cell → Nat} {ok : M → Prop} {ok' : N → Prop}
    {p : M → List Cell} {q : N → List Cell} {f : M → Res N}
    (he : EqLike ok p) (hcm : CmpLike c key ok p) (he' : EqLike ok' q) (hcm' : CmpLike c key ok' q)
    (hf : ∀ m, ok m → ∃ n, f m = .ok n ∧ ok' n ∧ q n = p m) : ConversionKeepsOrder c ok f := by
  intro a b ha hb
  obtain ⟨a', h1, h2, h3⟩ := hf a ha
  obtain ⟨b', g1, g2, g3⟩ := hf b hb
  refine ⟨a', b', h1, g1, ?_, ?_, ?_⟩
  · have e1 := he a b ha hb
    have e2 := he' a' b' h2 g2
    rw [h3, g3] at e2
    rw [Bool.eq_iff_iff, e1, e2]
  · rw [(hcm a b ha hb).1, (hcm' a' b' h2 g2).1, h3, g3]
  · rw [(hcm a b ha hb).2, (hcm' a' b' h2 g2).2, h3, g3]

theorem C34_conversions_keep_order_2D (hc : c.Supported) (w : Nat) (hw : IntWidth w) :
    ConversionKeepsOrder c (fun m => Reach2D c .all (.fixed w m)) (fun m => .ok (MortonIndex2D.fixedToStatic m)) ∧
    ConversionKeepsOrder c (fun m => Reach2D c .all (.fixed w m)) (fun m => .ok (MortonIndex2D.fixedToDynamic c m)) ∧
    (DynWrites c → ConversionKeepsOrder c (fun m => Reach2D c .all (.static w m)) (MortonIndex2D.staticToDynamic c)) ∧
    ConversionKeepsOrder c (fun m => Reach2D c .canonical (.dynamic m) ∧ depth m ≤ w / 2)
      (fun m => okOf (MortonIndex2D.dynamicToStatic c w m)) := by
  refine ⟨?_, ?_, fun hdw => ?_, ?_⟩
  · refine keepsOrder_of (fixed_eq2 hc) (fixed_cmp2 hc) (static_eq2 (sc := .all) hc) (static_cmp2 hc) (fun m hm => ?_)
    exact ⟨_, rfl, .fixedToStatic hm, (MortonIndex2D.fixedToStatic_ok (c := c) hw m).2.1⟩
  · refine keepsOrder_of (fixed_eq2 hc) (fixed_cmp2 hc) (dynamic_eq2 hc) (dynamic_cmp2 hc) (fun m hm => ?_)
    exact ⟨_, rfl, .fixedToDynamic (fixed_scope2 hc hm), (MortonIndex2D.fixedToDynamic_ok hc hw m).2.1⟩
  · refine keepsOrder_of (static_eq2 hc) (static_cmp2 hc) (dynamic_eq2 hc) (dynamic_cmp2 hc) (fun m hm => ?_)
    obtain ⟨n, h1, -, -, h4⟩ := MortonIndex2D.staticToDynamic_ok hc (static_wf2 hc m hm)
    exact ⟨n, h1, .staticToDynamic (static_scope2 hc hm) h1, h4 hdw⟩
  · have he : EqLike (fun m => Reach2D c .canonical (.dynamic m) ∧ depth m ≤ w / 2) cells2 :=
      fun a b ha hb => dynamic_eq2 hc a b ha.1 hb.1
    have hcm : CmpLike c quadrantKey (fun m => Reach2D c .canonical (.dynamic m) ∧ depth m ≤ w / 2) cells2 :=
      fun a b ha hb => dynamic_cmp2 hc a b ha.1 hb.1
    refine keepsOrder_of he hcm (static_eq2 (sc := .canonical) hc) (static_cmp2 hc) (fun m hm => ?_)
    obtain ⟨n, h1, -, -, h4⟩ := MortonIndex2D.dynamicToStatic_ok hc hw (dynamic_wf2 hc m hm.1) hm.2
    exact ⟨n, congrArg okOf h1, .dynamicToStatic hw hm.1 h1, h4⟩

example : ∃ a' b', MortonIndex2D.staticToDynamic x64 exS2 = .ok a' ∧ MortonIndex2D.staticToDynamic x64 exS2 = .ok b' ∧
    RustOrd.eq a' b' = RustOrd.eq exS2 exS2 ∧ RustOrd.cmp x64 a' b' = RustOrd.cmp x64 exS2 exS2 ∧
    RustOrd.partialCmp x64 a' b' = RustOrd.partialCmp x64 exS2 exS2 :=
  (C34_conversions_keep_order_2D x64_supported 16 (by decide)).2.2.1 x64_writes exS2 exS2 (exS2_reach _) (exS2_reach _)

/-- `f` keeps `cmp` and `partial_cmp`. -/
def ConversionKeepsCmp (c : Cfg) {M N : Type} [RustOrd M] [RustOrd N] (ok : M → Prop) (f : M → Res N) : Prop :=
  ∀ a b, ok a → ok b → ∃ a' b', f a = .ok a' ∧ f b = .ok b' ∧
    RustOrd.cmp c a' b' = RustOrd.cmp c a b ∧ RustOrd.partialCmp c a' b' = RustOrd.partialCmp c a b

theorem keepsCmp_of {M N Cell : Type} [RustOrd M] [RustOrd N] {key : Cell → Nat} {ok : M → Prop} {ok' : N → Prop}
    {p : M → List Cell} {q : N → List Cell} {f : M → Res N}
    (hcm : CmpLike c key ok p) (hcm' : CmpLike c key ok' q)
    (hf : ∀ m, ok m → ∃ n, f m = .ok n ∧ ok' n ∧ q n = p m) : ConversionKeepsCmp c ok f := by
  intro a b ha hb
  obtain ⟨a', h1, h2, h3⟩ := hf a ha
  obtain ⟨b', g1, g2, g3⟩ := hf b hb
  refine ⟨a', b', h1, g1, ?_, ?_⟩
  · rw [(hcm a b ha hb).1, (hcm' a' b' h2 g2).1, h3, g3]
  · rw [(hcm a b ha hb).2, (hcm' a' b' h2 g2).2, h3, g3]

/-- The order is kept for all histories, also those that leave stray bits. -/
theorem C34_conversions_keep_cmp_2D (hc : c.Supported) (w : Nat) (hw : IntWidth w) :
    ConversionKeepsCmp c (fun m => Reach2D c .all (.fixed w m)) (fun m => .ok (MortonIndex2D.fixedToStatic m)) ∧
    ConversionKeepsCmp c (fun m => Reach2D c .all (.fixed w m)) (fun m => .ok (MortonIndex2D.fixedToDynamic c m)) ∧
    (DynWrites c → ConversionKeepsCmp c (fun m => Reach2D c .all (.static w m)) (MortonIndex2D.staticToDynamic c)) ∧
    ConversionKeepsCmp c (fun m => Reach2D c .all (.dynamic m) ∧ depth m ≤ w / 2)
      (fun m => okOf (MortonIndex2D.dynamicToStatic c w m)) := by
  refine ⟨?_, ?_, fun hdw => ?_, ?_⟩
  · refine keepsCmp_of (fixed_cmp2 hc) (static_cmp2 (sc := .all) hc) (fun m hm => ?_)
    exact ⟨_, rfl, .fixedToStatic hm, (MortonIndex2D.fixedToStatic_ok (c := c) hw m).2.1⟩
  · refine keepsCmp_of (fixed_cmp2 hc) (dynamic_cmp2 (sc := .all) hc) (fun m hm => ?_)
    exact ⟨_, rfl, .fixedToDynamic (fixed_scope2 hc hm), (MortonIndex2D.fixedToDynamic_ok hc hw m).2.1⟩
  · refine keepsCmp_of (static_cmp2 hc) (dynamic_cmp2 (sc := .all) hc) (fun m hm => ?_)
    obtain ⟨n, h1, -, -, h4⟩ := MortonIndex2D.staticToDynamic_ok hc (static_wf2 hc m hm)
    exact ⟨n, h1, .staticToDynamic (static_scope2 hc hm) h1, h4 hdw⟩
  · have hcm : CmpLike c quadrantKey (fun m => Reach2D c .all (.dynamic m) ∧ depth m ≤ w / 2) cells2 :=
      fun a b ha hb => dynamic_cmp2 hc a b ha.1 hb.1
    refine keepsCmp_of hcm (static_cmp2 (sc := .all) hc) (fun m hm => ?_)
    obtain ⟨n, h1, -, -, h4⟩ := MortonIndex2D.dynamicToStatic_ok hc hw (dynamic_wf2 hc m hm.1) hm.2
    exact ⟨n, congrArg okOf h1, .dynamicToStatic hw hm.1 h1, h4⟩

example : ∃ a b, MortonIndex2D.staticToDynamic x64 exS2 = .ok a ∧
    MortonIndex2D.staticToDynamic x64 (⟨⟨0xC000#16, 1⟩⟩ : MortonIndex2D (StaticStorage2D 16)) = .ok b ∧
    RustOrd.cmp x64 a b = .ok .gt :=
  let ⟨a, b, h1, h2, h3, _⟩ := (C34_conversions_keep_cmp_2D x64_supported 16 (by decide)).2.2.1 x64_writes exS2 ⟨⟨0xC000#16, 1⟩⟩
    (exS2_reach _) (.staticTryFromSlice (cs := [.Three]) (by decide) (by rfl))
  ⟨a, b, h1, h2, h3.trans (by decide +kernel)⟩

end MortonRs
