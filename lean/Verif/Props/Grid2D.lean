import Verif.Lemmas.GridRead2D
import Verif.Props.Examples

/-! # Grid positions of 2D indices (C19, C21, C24, C26, C27) -/

namespace MortonRs

open BitStorage MortonIndex VariableDepthMortonIndex

variable {c : Cfg}

/-! ## Statements -/

/-- C19: the coordinates are the binary numbers whose digits are the coordinates of the cells, level 0 the most
significant. -/
def ReadsGrid2D (c : Cfg) {S : Type} [Storage S Quadrant] (ok : MortonIndex2D S → Prop) : Prop :=
  ∀ m, ok m → depth m ≤ c.ptrBits → ∀ o, ∃ cs v, Shows c m cs ∧ m.toGridIndex c o = .ok v ∧
    v.x.toNat = binary (cs.map (quadrantX o)) ∧ v.y.toNat = binary (cs.map (quadrantY o))

/-- The grid position of `m` is `g` modulo `2 ^ n`. -/
def GridAt2D (c : Cfg) {S : Type} [Storage S Quadrant] (m : MortonIndex2D S) (o : QuadrantOrdering)
    (g : Vector2 c.ptrBits) (n : Nat) : Prop :=
  ∃ v, m.toGridIndex c o = .ok v ∧ v.x.toNat = g.x.toNat % 2 ^ n ∧ v.y.toNat = g.y.toNat % 2 ^ n

/-- C27: the grid position of an ancestor. -/
def AncestorShiftsGrid2D (c : Cfg) {S : Type} [VariableDepthStorage S Quadrant] (ok : MortonIndex2D S → Prop) : Prop :=
  ∀ m, ok m → depth m ≤ c.ptrBits → ∀ g a, ancestor c m g = .ok (some a) → ∀ o,
    ∃ v va, m.toGridIndex c o = .ok v ∧ a.toGridIndex c o = .ok va ∧
      va.x.toNat = v.x.toNat / 2 ^ g.val ∧ va.y.toNat = v.y.toNat / 2 ^ g.val

/-- C27: the grid position of a child. -/
def ChildDoublesGrid2D (c : Cfg) {S : Type} [VariableDepthStorage S Quadrant] (ok : MortonIndex2D S → Prop) : Prop :=
  ∀ m, ok m → depth m + 1 ≤ c.ptrBits → ∀ q k, child c m q = .ok (some k) → ∀ o,
    ∃ v vk, m.toGridIndex c o = .ok v ∧ k.toGridIndex c o = .ok vk ∧
      vk.x.toNat = 2 * v.x.toNat + (quadrantX o q).toNat ∧ vk.y.toNat = 2 * v.y.toNat + (quadrantY o q).toNat

/-! ## C19 -/

theorem readsGrid_of2 {S : Type} [Storage S Quadrant] [BitStorage S Quadrant] (hc : c.Supported)
    {ok : MortonIndex2D S → Prop} (hwf : ∀ m, ok m → WF c m.storage) : ReadsGrid2D c ok := by
  intro m hm hd o
  obtain ⟨v, h1, h2, h3⟩ := toGridIndex_binary2 hc (hwf m hm) hd o
  exact ⟨_, v, MortonIndex2D.shows_path hc (hwf m hm), h1, h2, h3⟩

theorem C19_reads_grid_2D (hc : c.Supported) :
    (∀ w, ReadsGrid2D c (fun m => Reach2D c .all (.fixed w m))) ∧
    (∀ w, ReadsGrid2D c (fun m => Reach2D c .all (.static w m))) ∧
    ReadsGrid2D c (fun m => Reach2D c .all (.dynamic m)) :=
  ⟨fun _ => readsGrid_of2 hc (fixed_wf2 hc), fun _ => readsGrid_of2 hc (static_wf2 hc),
    readsGrid_of2 hc (dynamic_wf2 hc)⟩

example : ∃ cs v, Shows x64 exD2 cs ∧ exD2.toGridIndex x64 .YX = .ok v ∧
    v.x.toNat = binary (cs.map (quadrantX .YX)) ∧ v.y.toNat = binary (cs.map (quadrantY .YX)) :=
  (C19_reads_grid_2D x64_supported).2.2 exD2 (exD2_reach _) (by decide) .YX

/-- The specification by hand: cells `[Three, One, Two]` under `XY` are at x = 110, y = 101. -/
example : binary ([Quadrant.Three, .One, .Two].map (quadrantX .XY)) = 6 ∧
    binary ([Quadrant.Three, .One, .Two].map (quadrantY .XY)) = 5 := by decide

/-! ## C21 -/

theorem C21_fixed_grid_2D (hc : c.Supported) (w : Nat) (hw : IntWidth w) :
    (w / 2 ≤ c.ptrBits →
      (∀ g o, ∃ m, MortonIndex2D.fixedFromGridIndex c w g o = .ok m ∧ GridAt2D c m o g (w / 2)) ∧
      (∀ m, Reach2D c .all (.fixed w m) → ∀ o, ∃ g m', m.toGridIndex c o = .ok g ∧
        MortonIndex2D.fixedFromGridIndex c w g o = .ok m' ∧ RustOrd.eq m' m = true)) ∧
    (w / 2 > c.ptrBits → ∀ g o, MortonIndex2D.fixedFromGridIndex c w g o = .error .panic) := by
  refine ⟨fun hfit => ⟨fun g o => ?_, fun m hm o => ?_⟩,
    fun h g o => MortonIndex2D.fixedFromGridIndex_panic h g o⟩
  · obtain ⟨m, h1, h2, h3⟩ := MortonIndex2D.fixedFromGridIndex_ok hc hw hfit g o
    exact ⟨m, h1, MortonIndex2D.toGridIndex_of_gridPath hc (FixedDepthStorage2D.wf hw m.storage) hfit h3⟩
  · have hwf := fixed_wf2 hc m hm
    obtain ⟨g, h1, -, -⟩ := MortonIndex2D.toGridIndex_ok hc hwf hfit o
    obtain ⟨m', g1, g2, g3⟩ := MortonIndex2D.fixedFromGridIndex_ok hc hw hfit g o
    refine ⟨g, m', h1, g1, ?_⟩
    rw [fixed_eq2 hc _ _ (.fixedFromGrid (sc := .all) hw g1) hm]
    exact MortonIndex2D.path_of_toGridIndex hc hwf hfit h1 (s := m'.storage) rfl g3

example : ∃ m, MortonIndex2D.fixedFromGridIndex x64 16 ⟨300#64, 77#64⟩ .XY = .ok m ∧
    GridAt2D x64 m .XY ⟨300#64, 77#64⟩ 8 :=
  ((C21_fixed_grid_2D x64_supported 16 (by decide)).1 (by decide)).1 _ _

/-! ## C24 -/

/-- Missing: `MAX_LEVELS` beyond the pointer width, and in debug builds the shift by the pointer width
(`u128` on 64-bit targets at depth 0, `u64` on 32-bit, `u32` on 16-bit); both fail (`C24_refuted`). -/
theorem C24_static_grid_2D_partial (hc : c.Supported) (w : Nat) (hw : IntWidth w) (d : Nat) :
    (d > w / 2 → ∀ g o, MortonIndex2D.staticFromGridIndex c w g d o = .ok (.error (.DepthLimitedExceeded (w / 2)))) ∧
    (d ≤ w / 2 → w / 2 ≤ c.ptrBits → w / 2 - d < c.ptrBits ∨ c.overflowChecks = false →
      (∀ g o, ∃ m, MortonIndex2D.staticFromGridIndex c w g d o = .ok (.ok m) ∧ depth m = d ∧ GridAt2D c m o g d) ∧
      (∀ m, Reach2D c .all (.static w m) → depth m = d → ∀ o, ∃ g m', m.toGridIndex c o = .ok g ∧
        MortonIndex2D.staticFromGridIndex c w g d o = .ok (.ok m') ∧ RustOrd.eq m' m = true)) := by
  refine ⟨fun h g o => MortonIndex2D.staticFromGridIndex_error g d h o, fun hd hfit hs => ⟨fun g o => ?_, fun m hm hdm o => ?_⟩⟩
  · obtain ⟨m, h1, h2, h3, h4⟩ := MortonIndex2D.staticFromGridIndex_ok hc hw hfit g d hd hs o
    have hwf : WF c m.storage := (StaticStorage2D.wf_iff hw m.storage).mpr (by rw [h2]; exact hd)
    have hdep : Storage.depth m.storage = d := h2
    refine ⟨m, h1, h2, ?_⟩
    have := MortonIndex2D.toGridIndex_of_gridPath hc hwf (o := o) (g := g) (by omega) (by rw [hdep]; exact h4)
    rwa [hdep] at this
  · have hwf := static_wf2 hc m hm
    have hdep : Storage.depth m.storage = d := hdm
    obtain ⟨g, h1, -, -⟩ := MortonIndex2D.toGridIndex_ok hc hwf (by omega) o
    obtain ⟨m', g1, g2, g3, g4⟩ := MortonIndex2D.staticFromGridIndex_ok hc hw hfit g d hd hs o
    have hdep' : Storage.depth m'.storage = d := g2
    refine ⟨g, m', h1, g1, ?_⟩
    rw [static_eq2 hc _ _ (.staticFromGrid hw g1) hm]
    exact MortonIndex2D.path_of_toGridIndex hc hwf (by omega) h1 (s := m'.storage) (by omega) (by rw [hdep']; exact g4)

example : ∃ m, MortonIndex2D.staticFromGridIndex x64 16 ⟨300#64, 77#64⟩ 5 .YX = .ok (.ok m) ∧ depth m = 5 ∧
    GridAt2D x64 m .YX ⟨300#64, 77#64⟩ 5 :=
  ((C24_static_grid_2D_partial x64_supported 16 (by decide) 5).2 (by decide) (by decide) (.inl (by decide))).1 _ _

/-! ## C26 -/

theorem C26_dynamic_grid_2D (hc : c.Supported) (d : Nat) :
    (d > c.ptrBits / 2 → ∀ g o, MortonIndex2D.dynamicFromGridIndex c g d o = .error .panic) ∧
    (d ≤ c.ptrBits / 2 →
      (∀ g o, ∃ m, MortonIndex2D.dynamicFromGridIndex c g d o = .ok m ∧ depth m = d ∧ GridAt2D c m o g d) ∧
      (∀ m, Reach2D c .canonical (.dynamic m) → depth m = d → ∀ o, ∃ g m', m.toGridIndex c o = .ok g ∧
        MortonIndex2D.dynamicFromGridIndex c g d o = .ok m' ∧ RustOrd.eq m' m = true)) := by
  refine ⟨fun h g o => MortonIndex2D.dynamicFromGridIndex_panic g d h o, fun hd => ⟨fun g o => ?_, fun m hm hdm o => ?_⟩⟩
  · obtain ⟨m, h1, h2, h3, h4⟩ := MortonIndex2D.dynamicFromGridIndex_ok hc g d hd o
    have hdep : Storage.depth m.storage = d := h2
    refine ⟨m, h1, h2, ?_⟩
    have := MortonIndex2D.toGridIndex_of_gridPath hc h3.inv.wf (o := o) (g := g) (by omega) (by rw [hdep]; exact h4)
    rwa [hdep] at this
  · have hwf := dynamic_wf2 hc m hm
    have hdep : Storage.depth m.storage = d := hdm
    obtain ⟨g, h1, -, -⟩ := MortonIndex2D.toGridIndex_ok hc hwf (by omega) o
    obtain ⟨m', g1, g2, g3, g4⟩ := MortonIndex2D.dynamicFromGridIndex_ok hc g d hd o
    have hdep' : Storage.depth m'.storage = d := g2
    refine ⟨g, m', h1, g1, ?_⟩
    rw [dynamic_eq2 hc _ _ (.dynamicFromGrid g1) hm]
    exact MortonIndex2D.path_of_toGridIndex hc hwf (by omega) h1 (s := m'.storage) (by omega) (by rw [hdep']; exact g4)

example : ∃ m, MortonIndex2D.dynamicFromGridIndex x64 ⟨300#64, 77#64⟩ 9 .XY = .ok m ∧ depth m = 9 ∧
    GridAt2D x64 m .XY ⟨300#64, 77#64⟩ 9 :=
  ((C26_dynamic_grid_2D x64_supported 9).2 (by decide)).1 _ _

/-! ## C27 -/

section
variable {S : Type} [VariableDepthStorage S Quadrant] [BitStorage S Quadrant] {ok : MortonIndex2D S → Prop}

theorem ancestorShiftsGrid_of2 (hc : c.Supported) (hwf : ∀ m, ok m → WF c m.storage)
    (hA : AncLike c ok (cells2 (S := S))) : AncestorShiftsGrid2D c ok := by
  intro m hm hd g a ha o
  by_cases hg : g.val ≤ (cells2 m).length
  · obtain ⟨a', h1, h2, h3⟩ := hA.yes m hm g hg
    rw [ha] at h1; cases h1
    have hl : (cells2 m).length = depth m := path_length m.storage
    have hda : depth a ≤ depth m := by
      rw [show depth a = (cells2 a).length from (path_length a.storage).symm, h3, List.length_take]; omega
    obtain ⟨v, e1, e2, e3⟩ := toGridIndex_binary2 hc (hwf m hm) hd o
    obtain ⟨va, f1, f2, f3⟩ := toGridIndex_binary2 hc (hwf a h2) (Nat.le_trans hda hd) o
    have h3' : path a.storage = (path m.storage).take ((path m.storage).length - g.val) := h3
    have hsub : (path m.storage).length - ((path m.storage).length - g.val) = g.val := by
      have : g.val ≤ (path m.storage).length := hg
      omega
    refine ⟨v, va, e1, f1, ?_, ?_⟩
    · rw [e2, f2, h3', List.map_take, binary_take (by rw [List.length_map]; omega), List.length_map, hsub]
    · rw [e3, f3, h3', List.map_take, binary_take (by rw [List.length_map]; omega), List.length_map, hsub]
  · rw [hA.no m hm g (by omega)] at ha
    simp at ha

theorem childDoublesGrid_of2 (hc : c.Supported) (hwf : ∀ m, ok m → WF c m.storage) {room limit}
    (hD : DescLike c ok (cells2 (S := S)) room limit) (hroom : ∀ m, ok m → depth m + 1 ≤ c.ptrBits → room m 1) :
    ChildDoublesGrid2D c ok := by
  intro m hm hd q k hk o
  obtain ⟨h1, h2⟩ := hD.of_some (cs := [q]) hm (hroom m hm hd) hk
  have h2' : path k.storage = path m.storage ++ [q] := h2
  have hdk : Storage.depth k.storage ≤ c.ptrBits := by
    rw [← path_length k.storage, h2', List.length_append, path_length]; exact hd
  obtain ⟨v, e1, e2, e3⟩ := toGridIndex_binary2 hc (hwf m hm) (Nat.le_of_succ_le hd) o
  obtain ⟨vk, f1, f2, f3⟩ := toGridIndex_binary2 hc (hwf k h1) hdk o
  refine ⟨v, vk, e1, f1, ?_, ?_⟩
  · rw [e2, f2, h2', List.map_append, List.map_singleton, binary_append]
  · rw [e3, f3, h2', List.map_append, List.map_singleton, binary_append]

end

theorem C27_moving_in_the_grid_2D (hc : c.Supported) :
    (∀ w, AncestorShiftsGrid2D c (fun m => Reach2D c .all (.static w m)) ∧
      ChildDoublesGrid2D c (fun m => Reach2D c .all (.static w m))) ∧
    AncestorShiftsGrid2D c (fun m => Reach2D c .all (.dynamic m)) ∧
    (DynWrites c → ChildDoublesGrid2D c (fun m => Reach2D c .all (.dynamic m))) := by
  refine ⟨fun w => ⟨?_, ?_⟩, ?_, fun hw => ?_⟩
  · exact ancestorShiftsGrid_of2 hc (static_wf2 hc) (static_anc2 hc)
  · exact childDoublesGrid_of2 hc (static_wf2 hc) (static_desc2 hc)
      (fun _ _ _ => one_lt_isize hc (x := Quadrant.Zero))
  · exact ancestorShiftsGrid_of2 hc (dynamic_wf2 hc) (dynamic_anc2 hc)
  · refine childDoublesGrid_of2 hc (dynamic_wf2 hc) (dynamic_desc2 hc hw) (fun m _ hd => ?_)
    have := hc.le
    have := hc.intWidth.le
    change (depth m + 1) * 2 + 64 < 2 ^ c.ptrBits
    omega

example : ∃ v va, exS2.toGridIndex x64 .XY = .ok v ∧
    (⟨⟨0xC000#16, 1⟩⟩ : MortonIndex2D (StaticStorage2D 16)).toGridIndex x64 .XY = .ok va ∧
    va.x.toNat = v.x.toNat / 2 ^ 2 ∧ va.y.toNat = v.y.toNat / 2 ^ 2 :=
  ((C27_moving_in_the_grid_2D x64_supported).1 16).1 exS2 (exS2_reach _) (by decide) ⟨2, by decide⟩ _ (by rfl) .XY

end MortonRs
