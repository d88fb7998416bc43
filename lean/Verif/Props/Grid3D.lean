import Verif.Lemmas.GridRead3D
import Verif.Props.Examples

/-! # Grid positions of 3D indices (C19, C22, C23, C25, C26, C27) -/

namespace MortonRs

open BitStorage MortonIndex VariableDepthMortonIndex

variable {c : Cfg}

/-! ## Statements -/

/-- C19: the coordinates are the binary numbers whose digits are the coordinates of the cells, level 0 the most
significant. -/
def ReadsGrid3D (c : Cfg) {S : Type} [Storage S Octant] (ok : MortonIndex3D S → Prop) : Prop :=
  ∀ m, ok m → depth m ≤ c.ptrBits → ∀ o, ∃ cs v, Shows c m cs ∧ m.toGridIndex c o = .ok v ∧
    v.x.toNat = binary (cs.map (octantX o)) ∧ v.y.toNat = binary (cs.map (octantY o)) ∧
    v.z.toNat = binary (cs.map (octantZ o))

/-- The grid position of `m` is `g` modulo `2 ^ n`. -/
def GridAt3D (c : Cfg) {S : Type} [Storage S Octant] (m : MortonIndex3D S) (o : OctantOrdering)
    (g : Vector3 c.ptrBits) (n : Nat) : Prop :=
  ∃ v, m.toGridIndex c o = .ok v ∧ v.x.toNat = g.x.toNat % 2 ^ n ∧ v.y.toNat = g.y.toNat % 2 ^ n ∧
    v.z.toNat = g.z.toNat % 2 ^ n

/-- C27: the grid position of an ancestor. -/
def AncestorShiftsGrid3D (c : Cfg) {S : Type} [VariableDepthStorage S Octant] (ok : MortonIndex3D S → Prop) : Prop :=
  ∀ m, ok m → depth m ≤ c.ptrBits → ∀ g a, ancestor c m g = .ok (some a) → ∀ o,
    ∃ v va, m.toGridIndex c o = .ok v ∧ a.toGridIndex c o = .ok va ∧
      va.x.toNat = v.x.toNat / 2 ^ g.val ∧ va.y.toNat = v.y.toNat / 2 ^ g.val ∧
      va.z.toNat = v.z.toNat / 2 ^ g.val

/-- C27: the grid position of a child. -/
def ChildDoublesGrid3D (c : Cfg) {S : Type} [VariableDepthStorage S Octant] (ok : MortonIndex3D S → Prop) : Prop :=
  ∀ m, ok m → depth m + 1 ≤ c.ptrBits → ∀ q k, child c m q = .ok (some k) → ∀ o,
    ∃ v vk, m.toGridIndex c o = .ok v ∧ k.toGridIndex c o = .ok vk ∧
      vk.x.toNat = 2 * v.x.toNat + (octantX o q).toNat ∧ vk.y.toNat = 2 * v.y.toNat + (octantY o q).toNat ∧
      vk.z.toNat = 2 * v.z.toNat + (octantZ o q).toNat

/-! ## C19 -/

theorem readsGrid_of3 {S : Type} [Storage S Octant] [BitStorage S Octant] (hc : c.Supported)
    {ok : MortonIndex3D S → Prop} (hwf : ∀ m, ok m → WF c m.storage) : ReadsGrid3D c ok := by
  intro m hm hd o
  obtain ⟨v, h1, h2, h3, h4⟩ := toGridIndex_binary3 hc (hwf m hm) hd o
  exact ⟨_, v, MortonIndex3D.shows_path hc (hwf m hm), h1, h2, h3, h4⟩

theorem C19_reads_grid_3D (hc : c.Supported) :
    (∀ w, ReadsGrid3D c (fun m => Reach3D c .all (.fixed w m))) ∧
    (∀ w, ReadsGrid3D c (fun m => Reach3D c .all (.static w m))) ∧
    ReadsGrid3D c (fun m => Reach3D c .all (.dynamic m)) :=
  ⟨fun _ => readsGrid_of3 hc (fixed_wf3 hc), fun _ => readsGrid_of3 hc (static_wf3 hc),
    readsGrid_of3 hc (dynamic_wf3 hc)⟩

example : ∃ cs v, Shows x64 exD3 cs ∧ exD3.toGridIndex x64 .YXZ = .ok v ∧
    v.x.toNat = binary (cs.map (octantX .YXZ)) ∧ v.y.toNat = binary (cs.map (octantY .YXZ)) ∧
    v.z.toNat = binary (cs.map (octantZ .YXZ)) :=
  (C19_reads_grid_3D x64_supported).2.2 exD3 (exD3_reach _) (by decide) .YXZ

/-- The specification by hand: the cells `[Five, One, Six]` under `XYZ` (x the lowest bit of a cell). -/
example : binary ([Octant.Five, .One, .Six].map (octantX .XYZ)) = 6 ∧
    binary ([Octant.Five, .One, .Six].map (octantY .XYZ)) = 1 ∧
    binary ([Octant.Five, .One, .Six].map (octantZ .XYZ)) = 5 := by decide

/-! ## C22 -/

theorem C22_fixed_grid_3D (hc : c.Supported) (h32 : 32 ≤ c.ptrBits) (w : Nat) (hw : IntWidth w) :
    (w / 3 < c.ptrBits →
      (∀ g o, ∃ m, MortonIndex3D.fixedFromGridIndex c w g o = .ok m ∧ GridAt3D c m o g (w / 3)) ∧
      (∀ m, Reach3D c .canonical (.fixed w m) → ∀ o, ∃ g m', m.toGridIndex c o = .ok g ∧
        MortonIndex3D.fixedFromGridIndex c w g o = .ok m' ∧ RustOrd.eq m' m = true)) ∧
    (w / 3 ≥ c.ptrBits → ∀ g o, MortonIndex3D.fixedFromGridIndex c w g o = .error .compileError) := by
  have h21 : 21 ≤ c.ptrBits := by omega
  refine ⟨fun hfit => ⟨fun g o => ?_, fun m hm o => ?_⟩,
    fun h g o => MortonIndex3D.fixedFromGridIndex_error h g o⟩
  · obtain ⟨m, h1, h2, h3⟩ := MortonIndex3D.fixedFromGridIndex_ok hc hw h21 hfit g o
    exact ⟨m, h1, MortonIndex3D.toGridIndex_of_gridPath hc (FixedDepthStorage3D.wf hw m.storage)
      (Nat.le_of_lt hfit) h3⟩
  · have hwf := fixed_wf3 hc m hm
    obtain ⟨g, h1, -, -⟩ := MortonIndex3D.toGridIndex_ok hc hwf (Nat.le_of_lt hfit) o
    obtain ⟨m', g1, g2, g3⟩ := MortonIndex3D.fixedFromGridIndex_ok hc hw h21 hfit g o
    refine ⟨g, m', h1, g1, ?_⟩
    rw [fixed_eq3 hc _ _ (.fixedFromGrid hw g1) hm]
    exact MortonIndex3D.path_of_toGridIndex hc hwf (Nat.le_of_lt hfit) h1 (s := m'.storage) rfl g3

example : ∃ m, MortonIndex3D.fixedFromGridIndex x64 32 ⟨300#64, 77#64, 1023#64⟩ .XYZ = .ok m ∧
    GridAt3D x64 m .XYZ ⟨300#64, 77#64, 1023#64⟩ 10 :=
  ((C22_fixed_grid_3D x64_supported (by decide) 32 (by decide)).1 (by decide)).1 _ _

example : ∃ g m', exF3.toGridIndex x64 .ZYX = .ok g ∧
    MortonIndex3D.fixedFromGridIndex x64 32 g .ZYX = .ok m' ∧ RustOrd.eq m' exF3 = true :=
  ((C22_fixed_grid_3D x64_supported (by decide) 32 (by decide)).1 (by decide)).2 _ (exF3_reach _) _

/-! ## C23 -/

theorem C23_fast_equals_generic_3D (hc : c.Supported) (h32 : 32 ≤ c.ptrBits) (g : Vector3 c.ptrBits)
    (o : OctantOrdering) :
    ∃ m, MortonIndex3D.fixedFromGridIndex c 64 g o = .ok m ∧ MortonIndex3D.fixedFromGridIndexFast c g o = .ok m ∧
      RustOrd.eq m m = true := by
  obtain ⟨m, h1, -⟩ := MortonIndex3D.fixedFromGridIndex_ok hc (w := 64) (by decide) (by omega)
    (show 64 / 3 < c.ptrBits by omega) g o
  refine ⟨m, h1, ?_, ?_⟩
  · rw [MortonIndex3D.fixedFromGridIndexFast_eq hc (by omega), h1]
  · exact (fixed_eq3 hc m m (.fixedFromGrid (by decide) h1) (.fixedFromGrid (by decide) h1)).mpr rfl

example : ∃ m, MortonIndex3D.fixedFromGridIndex x32r 64 ⟨5#32, 6#32, 0xFFFFFFFF#32⟩ .ZXY = .ok m ∧
    MortonIndex3D.fixedFromGridIndexFast x32r ⟨5#32, 6#32, 0xFFFFFFFF#32⟩ .ZXY = .ok m ∧ RustOrd.eq m m = true :=
  C23_fast_equals_generic_3D (by decide) (by decide) _ _

/-! ## C25 -/

/-- The depths at which the static constructor works: it starts reading the position at a multiple of eight levels
that depends on `grid_depth`, and skips the levels below it. -/
def StaticGridExact (w d : Nat) : Prop := 8 * ((w / 3 + 7) / 8 - (d + 7) / 8) ≤ w / 3 - d

instance (w d : Nat) : Decidable (StaticGridExact w d) := by unfold StaticGridExact; infer_instance

/-- All depths are exact for `u8` and `u16`, and the deepest ones for every width. -/
theorem staticGridExact_small {w d : Nat} (hd : d ≤ w / 3) (h : w = 8 ∨ w = 16) : d = 0 ∨ StaticGridExact w d := by
  unfold StaticGridExact
  rcases h with rfl | rfl <;> omega

theorem staticGridExact_max (w : Nat) : StaticGridExact w (w / 3) := by
  unfold StaticGridExact
  omega

theorem gridPath3_of_exact {w d : Nat} {o : OctantOrdering} {g : Vector3 c.ptrBits} {s : StaticStorage3D w}
    (hd : d ≤ w / 3) (he : d = 0 ∨ StaticGridExact w d)
    (h : ∀ l, l < d → if MortonIndex3D.staticVisited w d l then GridCell3 o g (d - 1 - l) (slot s l) else slot s l = .Zero) :
    GridPath3 o g d s := by
  intro l hl
  have := h l hl
  rwa [if_pos] at this
  unfold MortonIndex3D.staticVisited
  rcases he with rfl | he
  · omega
  · unfold StaticGridExact at he
    omega

/-- No integer width has a third equal to a pointer width, so the shift is never too long. -/
theorem shift_fits {w d : Nat} (hc : c.Supported) (hw : IntWidth w) (hfit : w / dim Octant ≤ c.ptrBits) :
    w / dim Octant - d < c.ptrBits := by
  rw [dim_Octant] at *
  rcases hc with h | h | h <;> rcases hw with h' | h' | h' | h' | h' <;> omega

/-- Missing: the depths that are not exact, where levels are lost (`C25_refuted`, `C25_inexact_loses_levels_3D`);
`MAX_LEVELS` beyond the pointer width (`C25_exact_cells_3D` says what happens there). -/
theorem C25_static_grid_3D_partial (hc : c.Supported) (w : Nat) (hw : IntWidth w) (d : Nat) :
    (d > w / 3 → ∀ g o, MortonIndex3D.staticFromGridIndex c w g d o = .ok (.error (.DepthLimitedExceeded (w / 3)))) ∧
    (d ≤ w / 3 → w / 3 ≤ c.ptrBits → d = 0 ∨ StaticGridExact w d →
      (∀ g o, ∃ m, MortonIndex3D.staticFromGridIndex c w g d o = .ok (.ok m) ∧ depth m = d ∧ GridAt3D c m o g d) ∧
      (∀ m, Reach3D c .canonical (.static w m) → depth m = d → ∀ o, ∃ g m', m.toGridIndex c o = .ok g ∧
        MortonIndex3D.staticFromGridIndex c w g d o = .ok (.ok m') ∧ RustOrd.eq m' m = true)) := by
  refine ⟨fun h g o => MortonIndex3D.staticFromGridIndex_error g d h o,
    fun hd hfit he => ⟨fun g o => ?_, fun m hm hdm o => ?_⟩⟩
  · obtain ⟨m, h1, h2, h3, h4⟩ := MortonIndex3D.staticFromGridIndex_ok hc hw hfit g d hd (.inl (shift_fits hc hw hfit)) o
    have hwf : WF c m.storage := (StaticStorage3D.wf_iff hw m.storage).mpr (by rw [h2]; exact hd)
    have hdep : Storage.depth m.storage = d := h2
    refine ⟨m, h1, h2, ?_⟩
    have := MortonIndex3D.toGridIndex_of_gridPath hc hwf (o := o) (g := g) (by omega)
      (by rw [hdep]; exact gridPath3_of_exact hd he h4)
    rwa [hdep] at this
  · have hwf := static_wf3 hc m hm
    have hdep : Storage.depth m.storage = d := hdm
    obtain ⟨g, h1, -, -⟩ := MortonIndex3D.toGridIndex_ok hc hwf (by omega) o
    obtain ⟨m', g1, g2, g3, g4⟩ := MortonIndex3D.staticFromGridIndex_ok hc hw hfit g d hd (.inl (shift_fits hc hw hfit)) o
    have hdep' : Storage.depth m'.storage = d := g2
    refine ⟨g, m', h1, g1, ?_⟩
    rw [static_eq3 hc _ _ (.staticFromGrid hw g1) hm]
    exact MortonIndex3D.path_of_toGridIndex hc hwf (by omega) h1 (s := m'.storage) (by omega)
      (by rw [hdep']; exact gridPath3_of_exact hd he g4)

example : ∃ m, MortonIndex3D.staticFromGridIndex x64 64 ⟨300#64, 77#64, 1#64⟩ 19 .YXZ = .ok (.ok m) ∧ depth m = 19 ∧
    GridAt3D x64 m .YXZ ⟨300#64, 77#64, 1#64⟩ 19 :=
  ((C25_static_grid_3D_partial x64_supported 64 (by decide) 19).2 (by decide) (by decide) (by decide)).1 _ _

/-- The same from the other side: at every depth that is not exact the deepest level is lost. -/
theorem C25_inexact_loses_levels_3D (hc : c.Supported) (w : Nat) (hw : IntWidth w) (d : Nat) (hd : d ≤ w / 3)
    (hfit : w / 3 ≤ c.ptrBits) (h0 : d ≠ 0)
    (hne : ¬ StaticGridExact w d) (g : Vector3 c.ptrBits) (o : OctantOrdering) :
    ∃ m v, MortonIndex3D.staticFromGridIndex c w g d o = .ok (.ok m) ∧ m.toGridIndex c o = .ok v ∧
      v.x.toNat % 2 = 0 ∧ v.y.toNat % 2 = 0 ∧ v.z.toNat % 2 = 0 := by
  obtain ⟨m, h1, h2, h3, h4⟩ := MortonIndex3D.staticFromGridIndex_ok hc hw hfit g d hd (.inl (shift_fits hc hw hfit)) o
  have hwf : WF c m.storage := (StaticStorage3D.wf_iff hw m.storage).mpr (by rw [h2]; exact hd)
  have hdep : Storage.depth m.storage = d := h2
  obtain ⟨v, e1, e2, e3, e4⟩ := toGridIndex_binary3 hc hwf (by omega) o
  have hlast := h4 (d - 1) (by omega)
  rw [if_neg] at hlast
  · obtain ⟨cs, hcs⟩ : ∃ cs, path m.storage = cs ++ [.Zero] := by
      have hne : path m.storage ≠ [] := by
        intro h
        have := path_length m.storage
        rw [h, hdep] at this
        simp at this
        omega
      refine ⟨(path m.storage).dropLast, ?_⟩
      have hl : (path m.storage).getLast hne = .Zero := by
        rw [List.getLast_eq_getElem, path_getElem]
        have : (path m.storage).length = d := by rw [path_length, hdep]
        rw [this]
        exact hlast
      rw [← hl]
      exact (List.dropLast_concat_getLast hne).symm
    have hz : octantX o .Zero = false ∧ octantY o .Zero = false ∧ octantZ o .Zero = false := by
      cases o <;> decide
    refine ⟨m, v, h1, e1, ?_, ?_, ?_⟩
    · rw [e2, hcs, List.map_append, List.map_singleton, binary_append, hz.1]; simp
    · rw [e3, hcs, List.map_append, List.map_singleton, binary_append, hz.2.1]; simp
    · rw [e4, hcs, List.map_append, List.map_singleton, binary_append, hz.2.2]; simp
  · unfold MortonIndex3D.staticVisited
    unfold StaticGridExact at hne
    omega

example : ∃ m v, MortonIndex3D.staticFromGridIndex x64 32 ⟨7#64, 7#64, 7#64⟩ 3 .XYZ = .ok (.ok m) ∧
    m.toGridIndex x64 .XYZ = .ok v ∧ v.x.toNat % 2 = 0 ∧ v.y.toNat % 2 = 0 ∧ v.z.toNat % 2 = 0 :=
  C25_inexact_loses_levels_3D x64_supported 32 (by decide) 3 (by decide) (by decide) (by decide)
    (by decide) _ _

/-! ## C26 -/

theorem C26_dynamic_grid_3D (hc : c.Supported) (d : Nat) :
    (d > c.ptrBits / 2 → ∀ g o, MortonIndex3D.dynamicFromGridIndex c g d o = .error .panic) ∧
    (d ≤ c.ptrBits / 2 → DynWrites c →
      (∀ g o, ∃ m, MortonIndex3D.dynamicFromGridIndex c g d o = .ok m ∧ depth m = d ∧ GridAt3D c m o g d) ∧
      (∀ m, Reach3D c .canonical (.dynamic m) → depth m = d → ∀ o, ∃ g m', m.toGridIndex c o = .ok g ∧
        MortonIndex3D.dynamicFromGridIndex c g d o = .ok m' ∧ RustOrd.eq m' m = true)) := by
  refine ⟨fun h g o => MortonIndex3D.dynamicFromGridIndex_panic g d h o,
    fun hd hw => ⟨fun g o => ?_, fun m hm hdm o => ?_⟩⟩
  · obtain ⟨m, h1, h2, h3, h4⟩ := MortonIndex3D.dynamicFromGridIndex_ok hc g d hd o
    have hdep : Storage.depth m.storage = d := h2
    refine ⟨m, h1, h2, ?_⟩
    have := MortonIndex3D.toGridIndex_of_gridPath hc h3.inv.wf (o := o) (g := g) (by omega) (by rw [hdep]; exact h4 hw)
    rwa [hdep] at this
  · have hwf := dynamic_wf3 hc m hm
    have hdep : Storage.depth m.storage = d := hdm
    obtain ⟨g, h1, -, -⟩ := MortonIndex3D.toGridIndex_ok hc hwf (by omega) o
    obtain ⟨m', g1, g2, g3, g4⟩ := MortonIndex3D.dynamicFromGridIndex_ok hc g d hd o
    have hdep' : Storage.depth m'.storage = d := g2
    refine ⟨g, m', h1, g1, ?_⟩
    rw [dynamic_eq3 hc _ _ (.dynamicFromGrid g1) hm]
    exact MortonIndex3D.path_of_toGridIndex hc hwf (by omega) h1 (s := m'.storage) (by omega)
      (by rw [hdep']; exact g4 hw)

example : ∃ m, MortonIndex3D.dynamicFromGridIndex x64 ⟨300#64, 77#64, 511#64⟩ 9 .XYZ = .ok m ∧ depth m = 9 ∧
    GridAt3D x64 m .XYZ ⟨300#64, 77#64, 511#64⟩ 9 :=
  ((C26_dynamic_grid_3D x64_supported 9).2 (by decide) x64_writes).1 _ _

/-! ## C27 -/

section
variable {S : Type} [VariableDepthStorage S Octant] [BitStorage S Octant] {ok : MortonIndex3D S → Prop}

theorem ancestorShiftsGrid_of3 (hc : c.Supported) (hwf : ∀ m, ok m → WF c m.storage)
    (hA : AncLike c ok (cells3 (S := S))) : AncestorShiftsGrid3D c ok := by
  intro m hm hd g a ha o
  by_cases hg : g.val ≤ (cells3 m).length
  · obtain ⟨a', h1, h2, h3⟩ := hA.yes m hm g hg
    rw [ha] at h1; cases h1
    have hl : (cells3 m).length = depth m := path_length m.storage
    have hda : depth a ≤ depth m := by
      rw [show depth a = (cells3 a).length from (path_length a.storage).symm, h3, List.length_take]; omega
    obtain ⟨v, e1, e2, e3, e4⟩ := toGridIndex_binary3 hc (hwf m hm) hd o
    obtain ⟨va, f1, f2, f3, f4⟩ := toGridIndex_binary3 hc (hwf a h2) (Nat.le_trans hda hd) o
    have h3' : path a.storage = (path m.storage).take ((path m.storage).length - g.val) := h3
    have hsub : (path m.storage).length - ((path m.storage).length - g.val) = g.val := by
      have : g.val ≤ (path m.storage).length := hg
      omega
    refine ⟨v, va, e1, f1, ?_, ?_, ?_⟩
    · rw [e2, f2, h3', List.map_take, binary_take (by rw [List.length_map]; omega), List.length_map, hsub]
    · rw [e3, f3, h3', List.map_take, binary_take (by rw [List.length_map]; omega), List.length_map, hsub]
    · rw [e4, f4, h3', List.map_take, binary_take (by rw [List.length_map]; omega), List.length_map, hsub]
  · rw [hA.no m hm g (by omega)] at ha
    simp at ha

theorem childDoublesGrid_of3 (hc : c.Supported) (hwf : ∀ m, ok m → WF c m.storage) {room limit}
    (hD : DescLike c ok (cells3 (S := S)) room limit) (hroom : ∀ m, ok m → depth m + 1 ≤ c.ptrBits → room m 1) :
    ChildDoublesGrid3D c ok := by
  intro m hm hd q k hk o
  obtain ⟨h1, h2⟩ := hD.of_some (cs := [q]) hm (hroom m hm hd) hk
  have h2' : path k.storage = path m.storage ++ [q] := h2
  have hdk : Storage.depth k.storage ≤ c.ptrBits := by
    rw [← path_length k.storage, h2', List.length_append, path_length]; exact hd
  obtain ⟨v, e1, e2, e3, e4⟩ := toGridIndex_binary3 hc (hwf m hm) (Nat.le_of_succ_le hd) o
  obtain ⟨vk, f1, f2, f3, f4⟩ := toGridIndex_binary3 hc (hwf k h1) hdk o
  refine ⟨v, vk, e1, f1, ?_, ?_, ?_⟩
  · rw [e2, f2, h2', List.map_append, List.map_singleton, binary_append]
  · rw [e3, f3, h2', List.map_append, List.map_singleton, binary_append]
  · rw [e4, f4, h2', List.map_append, List.map_singleton, binary_append]

end

theorem C27_moving_in_the_grid_3D (hc : c.Supported) :
    (∀ w, AncestorShiftsGrid3D c (fun m => Reach3D c .all (.static w m)) ∧
      ChildDoublesGrid3D c (fun m => Reach3D c .all (.static w m))) ∧
    AncestorShiftsGrid3D c (fun m => Reach3D c .all (.dynamic m)) ∧
    (DynWrites c → ChildDoublesGrid3D c (fun m => Reach3D c .all (.dynamic m))) := by
  refine ⟨fun w => ⟨?_, ?_⟩, ?_, fun hw => ?_⟩
  · exact ancestorShiftsGrid_of3 hc (static_wf3 hc) (static_anc3 hc)
  · exact childDoublesGrid_of3 hc (static_wf3 hc) (static_desc3 hc)
      (fun _ _ _ => one_lt_isize hc (x := Octant.Zero))
  · exact ancestorShiftsGrid_of3 hc (dynamic_wf3 hc) (dynamic_anc3 hc)
  · refine childDoublesGrid_of3 hc (dynamic_wf3 hc) (dynamic_desc3 hc hw) (fun m _ hd => ?_)
    have := hc.le
    have := hc.intWidth.le
    change (depth m + 1) * 3 + 64 < 2 ^ c.ptrBits
    omega

example : ∃ v va, exS3.toGridIndex x64 .XYZ = .ok v ∧
    (⟨⟨0xA0000000#32, 1⟩⟩ : MortonIndex3D (StaticStorage3D 32)).toGridIndex x64 .XYZ = .ok va ∧
    va.x.toNat = v.x.toNat / 2 ^ 2 ∧ va.y.toNat = v.y.toNat / 2 ^ 2 ∧ va.z.toNat = v.z.toNat / 2 ^ 2 :=
  ((C27_moving_in_the_grid_3D x64_supported).1 32).1 exS3 (exS3_reach _) (by decide) ⟨2, by decide⟩ _ (by rfl) .XYZ

end MortonRs
