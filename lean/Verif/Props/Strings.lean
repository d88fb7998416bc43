import Verif.Lemmas.Strings
import Verif.Props.Examples

/-! # Strings (C28, C29) -/

namespace MortonRs

open BitStorage MortonIndex

variable {c : Cfg}

theorem shows_inj {M Cell : Type} [MortonIndex M Cell] {m : M} {cs ds : List Cell} (h : Shows c m cs) (g : Shows c m ds) :
    cs = ds := by
  have hl : cs.length = ds.length := by rw [← h.1, g.1]
  apply List.ext_getElem hl
  intro l h1 h2
  have := h.2 l h1
  rw [g.2 l h2] at this
  exact (Except.ok.inj this).symm

/-! ## 2D -/

def quadrantDigit : Quadrant → Char
  | .Zero => '0' | .One => '1' | .Two => '2' | .Three => '3'

/-- `to_string` of an index of any of the 2D types. -/
def AnyIndex2D.name (c : Cfg) (naming : MortonIndexNaming) : AnyIndex2D → Res String
  | .fixed _ m => MortonIndex.toString c m naming
  | .static _ m => MortonIndex.toString c m naming
  | .dynamic m => MortonIndex.toString c m naming

def AnyIndex2D.Shows (c : Cfg) (cs : List Quadrant) : AnyIndex2D → Prop
  | .fixed _ m => MortonRs.Shows c m cs
  | .static _ m => MortonRs.Shows c m cs
  | .dynamic m => MortonRs.Shows c m cs

section
variable {S : Type} [Storage S Quadrant] [BitStorage S Quadrant]

theorem cellConcatenation_ok2 (hc : c.Supported) {m : MortonIndex2D S} (h : WF c m.storage) :
    m.cellConcatenation c = .ok (String.ofList ((path m.storage).map quadrantDigit)) := by
  have e : (List.range' 0 m.depth).mapM (fun level => do
      let cell ← m.getCellAtLevelUnchecked c level
      unwrapOption (fromDigit10 cell.toUsize)) =
      Except.ok ((List.range' 0 m.depth).map fun l => quadrantDigit (slot m.storage l)) := by
    apply mapM_range'_ok
    intro l _ hl
    have hg : m.getCellAtLevelUnchecked c l = .ok (slot m.storage l) := get_slot hc h (by
      have : m.depth = Storage.depth m.storage := rfl
      omega)
    rw [hg]
    change unwrapOption (fromDigit10 (slot m.storage l).toUsize) = _
    generalize slot m.storage l = q
    cases q <;> rfl
  rw [MortonIndex2D.cellConcatenation, e, path, List.map_map, List.range_eq_range']
  rfl

theorem gridString_ok2 (hc : c.Supported) {m : MortonIndex2D S} (h : WF c m.storage)
    (hd : Storage.depth m.storage ≤ c.ptrBits) :
    m.toString c .GridIndex = .ok (Nat.repr (path m.storage).length ++ "-" ++
      Nat.repr (binary ((path m.storage).map (quadrantX .XY))) ++ "-" ++
      Nat.repr (binary ((path m.storage).map (quadrantY .XY)))) := by
  obtain ⟨v, h1, h2, h3⟩ := toGridIndex_binary2 hc h hd .XY
  have h1' : m.toGridIndex c QuadrantOrdering.default = .ok v := h1
  rw [MortonIndex2D.toString, h1', ← h2, ← h3, path_length]
  rfl

end

/-- What the strings of a reachable index are. -/
theorem any_strings2 (hc : c.Supported) {i : AnyIndex2D} (hi : Reach2D c .all i) :
    ∃ cs, i.Shows c cs ∧
      i.name c .CellConcatenation = .ok (String.ofList (cs.map quadrantDigit)) ∧
      i.name c .CellConcatenationWithRoot = .ok ("r" ++ String.ofList (cs.map quadrantDigit)) ∧
      (cs.length ≤ c.ptrBits → i.name c .GridIndex = .ok (Nat.repr cs.length ++ "-" ++
        Nat.repr (binary (cs.map (quadrantX .XY))) ++ "-" ++ Nat.repr (binary (cs.map (quadrantY .XY))))) := by
  have key : ∀ {S : Type} [Storage S Quadrant] [BitStorage S Quadrant] (m : MortonIndex2D S), WF c m.storage →
      ∃ cs, MortonRs.Shows c m cs ∧
      m.toString c .CellConcatenation = .ok (String.ofList (cs.map quadrantDigit)) ∧
      m.toString c .CellConcatenationWithRoot = .ok ("r" ++ String.ofList (cs.map quadrantDigit)) ∧
      (cs.length ≤ c.ptrBits → m.toString c .GridIndex = .ok (Nat.repr cs.length ++ "-" ++
        Nat.repr (binary (cs.map (quadrantX .XY))) ++ "-" ++ Nat.repr (binary (cs.map (quadrantY .XY))))) := by
    intro S _ _ m h
    refine ⟨path m.storage, MortonIndex2D.shows_path hc h, cellConcatenation_ok2 hc h, ?_, fun hd => ?_⟩
    · rw [MortonIndex2D.toString, cellConcatenation_ok2 hc h]; rfl
    · exact gridString_ok2 hc h (by rwa [path_length] at hd)
  cases i with
  | fixed w m => exact key m (fixed_wf2 hc m hi)
  | static w m => exact key m (static_wf2 hc m hi)
  | dynamic m => exact key m (dynamic_wf2 hc m hi)

theorem quadrantDigit_inj {p q : Quadrant} (h : quadrantDigit p = quadrantDigit q) : p = q := by
  revert h
  cases p <;> cases q <;> decide

theorem C28_cell_strings_2D (hc : c.Supported) :
    (∀ i, Reach2D c .all i → ∃ cs, i.Shows c cs ∧
      i.name c .CellConcatenation = .ok (String.ofList (cs.map quadrantDigit)) ∧
      i.name c .CellConcatenationWithRoot = .ok ("r" ++ String.ofList (cs.map quadrantDigit))) ∧
    (∀ i j, Reach2D c .all i → Reach2D c .all j →
      i.name c .CellConcatenation = j.name c .CellConcatenation ∨
        i.name c .CellConcatenationWithRoot = j.name c .CellConcatenationWithRoot →
      ∃ cs, i.Shows c cs ∧ j.Shows c cs) := by
  refine ⟨fun i hi => ?_, fun i j hi hj h => ?_⟩
  · obtain ⟨cs, h1, h2, h3, -⟩ := any_strings2 hc hi
    exact ⟨cs, h1, h2, h3⟩
  · obtain ⟨cs, h1, h2, h3, -⟩ := any_strings2 hc hi
    obtain ⟨ds, g1, g2, g3, -⟩ := any_strings2 hc hj
    have : cs.map quadrantDigit = ds.map quadrantDigit := by
      rcases h with h | h
      · rw [h2, g2] at h
        simpa using congrArg String.toList (Except.ok.inj h)
      · rw [h3, g3] at h
        have := congrArg String.toList (Except.ok.inj h)
        simpa using this
    have : cs = ds := List.map_inj_right (fun _ _ => quadrantDigit_inj) |>.mp this
    exact ⟨cs, h1, this ▸ g1⟩

example : ∃ cs, (AnyIndex2D.dynamic exD2).Shows x64 cs ∧
    (AnyIndex2D.dynamic exD2).name x64 .CellConcatenation = .ok (String.ofList (cs.map quadrantDigit)) ∧
    (AnyIndex2D.dynamic exD2).name x64 .CellConcatenationWithRoot =
      .ok ("r" ++ String.ofList (cs.map quadrantDigit)) :=
  (C28_cell_strings_2D x64_supported).1 _ (exD2_reach _)

example : (AnyIndex2D.dynamic exD2).name x64 .CellConcatenationWithRoot = .ok "r312" := by decide +kernel

theorem C29_grid_strings_2D (hc : c.Supported) :
    (∀ i, Reach2D c .all i → ∃ cs, i.Shows c cs ∧ (cs.length ≤ c.ptrBits →
      i.name c .GridIndex = .ok (Nat.repr cs.length ++ "-" ++
        Nat.repr (binary (cs.map (quadrantX .XY))) ++ "-" ++ Nat.repr (binary (cs.map (quadrantY .XY)))))) ∧
    (∀ i j, Reach2D c .all i → Reach2D c .all j → ∀ cs ds, i.Shows c cs → j.Shows c ds →
      cs.length ≤ c.ptrBits → ds.length ≤ c.ptrBits → i.name c .GridIndex = j.name c .GridIndex → cs = ds) := by
  refine ⟨fun i hi => ?_, fun i j hi hj cs ds hcs hds hlc hld h => ?_⟩
  · obtain ⟨cs, h1, -, -, h2⟩ := any_strings2 hc hi
    exact ⟨cs, h1, h2⟩
  · obtain ⟨cs', h1, -, -, h2⟩ := any_strings2 hc hi
    obtain ⟨ds', g1, -, -, g2⟩ := any_strings2 hc hj
    have e1 : cs = cs' := by cases i <;> exact shows_inj hcs h1
    have e2 : ds = ds' := by cases j <;> exact shows_inj hds g1
    subst e1 e2
    rw [h2 hlc, g2 hld] at h
    obtain ⟨f1, f2, f3⟩ := dashed3_inj (Except.ok.inj h)
    exact path_of_coords2 (binary_inj (by simpa using f1) f2) (binary_inj (by simpa using f1) f3)

example : (AnyIndex2D.static 16 exS2).name x64 .GridIndex = .ok "3-6-5" := by decide +kernel

example : ∀ cs ds, (AnyIndex2D.static 16 exS2).Shows x64 cs → (AnyIndex2D.dynamic exD2).Shows x64 ds →
    cs.length ≤ 64 → ds.length ≤ 64 → cs = ds := fun cs ds h1 h2 h3 h4 =>
  (C29_grid_strings_2D x64_supported).2 _ _ (exS2_reach _) (exD2_reach _) cs ds h1 h2 h3 h4 (by decide +kernel)

/-! ## 3D -/

def octantDigit : Octant → Char
  | .Zero => '0' | .One => '1' | .Two => '2' | .Three => '3'
  | .Four => '4' | .Five => '5' | .Six => '6' | .Seven => '7'

/-- `to_string` of an index of any of the 3D types. -/
def AnyIndex3D.name (c : Cfg) (naming : MortonIndexNaming) : AnyIndex3D → Res String
  | .fixed _ m => MortonIndex.toString c m naming
  | .static _ m => MortonIndex.toString c m naming
  | .dynamic m => MortonIndex.toString c m naming

def AnyIndex3D.Shows (c : Cfg) (cs : List Octant) : AnyIndex3D → Prop
  | .fixed _ m => MortonRs.Shows c m cs
  | .static _ m => MortonRs.Shows c m cs
  | .dynamic m => MortonRs.Shows c m cs

section
variable {S : Type} [Storage S Octant] [BitStorage S Octant]

theorem cellConcatenation_ok3 (hc : c.Supported) {m : MortonIndex3D S} (h : WF c m.storage) :
    m.cellConcatenation c = .ok (String.ofList ((path m.storage).map octantDigit)) := by
  have e : (List.range' 0 m.depth).mapM (fun level => do
      let cell ← m.getCellAtLevelUnchecked c level
      unwrapOption (fromDigit10 cell.toUsize)) =
      Except.ok ((List.range' 0 m.depth).map fun l => octantDigit (slot m.storage l)) := by
    apply mapM_range'_ok
    intro l _ hl
    have hg : m.getCellAtLevelUnchecked c l = .ok (slot m.storage l) := get_slot hc h (by
      have : m.depth = Storage.depth m.storage := rfl
      omega)
    rw [hg]
    change unwrapOption (fromDigit10 (slot m.storage l).toUsize) = _
    generalize slot m.storage l = q
    cases q <;> rfl
  rw [MortonIndex3D.cellConcatenation, e, path, List.map_map, List.range_eq_range']
  rfl

theorem gridString_ok3 (hc : c.Supported) {m : MortonIndex3D S} (h : WF c m.storage)
    (hd : Storage.depth m.storage ≤ c.ptrBits) :
    m.toString c .GridIndex = .ok (Nat.repr (path m.storage).length ++ "-" ++
      Nat.repr (binary ((path m.storage).map (octantX .XYZ))) ++ "-" ++
      Nat.repr (binary ((path m.storage).map (octantY .XYZ))) ++ "-" ++
        Nat.repr (binary ((path m.storage).map (octantZ .XYZ)))) := by
  obtain ⟨v, h1, h2, h3, h4⟩ := toGridIndex_binary3 hc h hd .XYZ
  have h1' : m.toGridIndex c OctantOrdering.default = .ok v := h1
  rw [MortonIndex3D.toString, h1', ← h2, ← h3, ← h4, path_length]
  rfl

end

/-- What the strings of a reachable index are. -/
theorem any_strings3 (hc : c.Supported) {i : AnyIndex3D} (hi : Reach3D c .all i) :
    ∃ cs, i.Shows c cs ∧
      i.name c .CellConcatenation = .ok (String.ofList (cs.map octantDigit)) ∧
      i.name c .CellConcatenationWithRoot = .ok ("r" ++ String.ofList (cs.map octantDigit)) ∧
      (cs.length ≤ c.ptrBits → i.name c .GridIndex = .ok (Nat.repr cs.length ++ "-" ++
        Nat.repr (binary (cs.map (octantX .XYZ))) ++ "-" ++ Nat.repr (binary (cs.map (octantY .XYZ))) ++ "-" ++
        Nat.repr (binary (cs.map (octantZ .XYZ))))) := by
  have key : ∀ {S : Type} [Storage S Octant] [BitStorage S Octant] (m : MortonIndex3D S), WF c m.storage →
      ∃ cs, MortonRs.Shows c m cs ∧
      m.toString c .CellConcatenation = .ok (String.ofList (cs.map octantDigit)) ∧
      m.toString c .CellConcatenationWithRoot = .ok ("r" ++ String.ofList (cs.map octantDigit)) ∧
      (cs.length ≤ c.ptrBits → m.toString c .GridIndex = .ok (Nat.repr cs.length ++ "-" ++
        Nat.repr (binary (cs.map (octantX .XYZ))) ++ "-" ++ Nat.repr (binary (cs.map (octantY .XYZ))) ++ "-" ++
        Nat.repr (binary (cs.map (octantZ .XYZ))))) := by
    intro S _ _ m h
    refine ⟨path m.storage, MortonIndex3D.shows_path hc h, cellConcatenation_ok3 hc h, ?_, fun hd => ?_⟩
    · rw [MortonIndex3D.toString, cellConcatenation_ok3 hc h]; rfl
    · exact gridString_ok3 hc h (by rwa [path_length] at hd)
  cases i with
  | fixed w m => exact key m (fixed_wf3 hc m hi)
  | static w m => exact key m (static_wf3 hc m hi)
  | dynamic m => exact key m (dynamic_wf3 hc m hi)

theorem octantDigit_inj {p q : Octant} (h : octantDigit p = octantDigit q) : p = q := by
  revert h
  cases p <;> cases q <;> decide

theorem C28_cell_strings_3D (hc : c.Supported) :
    (∀ i, Reach3D c .all i → ∃ cs, i.Shows c cs ∧
      i.name c .CellConcatenation = .ok (String.ofList (cs.map octantDigit)) ∧
      i.name c .CellConcatenationWithRoot = .ok ("r" ++ String.ofList (cs.map octantDigit))) ∧
    (∀ i j, Reach3D c .all i → Reach3D c .all j →
      i.name c .CellConcatenation = j.name c .CellConcatenation ∨
        i.name c .CellConcatenationWithRoot = j.name c .CellConcatenationWithRoot →
      ∃ cs, i.Shows c cs ∧ j.Shows c cs) := by
  refine ⟨fun i hi => ?_, fun i j hi hj h => ?_⟩
  · obtain ⟨cs, h1, h2, h3, -⟩ := any_strings3 hc hi
    exact ⟨cs, h1, h2, h3⟩
  · obtain ⟨cs, h1, h2, h3, -⟩ := any_strings3 hc hi
    obtain ⟨ds, g1, g2, g3, -⟩ := any_strings3 hc hj
    have : cs.map octantDigit = ds.map octantDigit := by
      rcases h with h | h
      · rw [h2, g2] at h
        simpa using congrArg String.toList (Except.ok.inj h)
      · rw [h3, g3] at h
        have := congrArg String.toList (Except.ok.inj h)
        simpa using this
    have : cs = ds := List.map_inj_right (fun _ _ => octantDigit_inj) |>.mp this
    exact ⟨cs, h1, this ▸ g1⟩

example : ∃ cs, (AnyIndex3D.dynamic exD3).Shows x64 cs ∧
    (AnyIndex3D.dynamic exD3).name x64 .CellConcatenation = .ok (String.ofList (cs.map octantDigit)) ∧
    (AnyIndex3D.dynamic exD3).name x64 .CellConcatenationWithRoot =
      .ok ("r" ++ String.ofList (cs.map octantDigit)) :=
  (C28_cell_strings_3D x64_supported).1 _ (exD3_reach _)

example : (AnyIndex3D.dynamic exD3).name x64 .CellConcatenationWithRoot = .ok "r516" := by decide +kernel

theorem C29_grid_strings_3D (hc : c.Supported) :
    (∀ i, Reach3D c .all i → ∃ cs, i.Shows c cs ∧ (cs.length ≤ c.ptrBits →
      i.name c .GridIndex = .ok (Nat.repr cs.length ++ "-" ++
        Nat.repr (binary (cs.map (octantX .XYZ))) ++ "-" ++ Nat.repr (binary (cs.map (octantY .XYZ))) ++ "-" ++
        Nat.repr (binary (cs.map (octantZ .XYZ)))))) ∧
    (∀ i j, Reach3D c .all i → Reach3D c .all j → ∀ cs ds, i.Shows c cs → j.Shows c ds →
      cs.length ≤ c.ptrBits → ds.length ≤ c.ptrBits → i.name c .GridIndex = j.name c .GridIndex → cs = ds) := by
  refine ⟨fun i hi => ?_, fun i j hi hj cs ds hcs hds hlc hld h => ?_⟩
  · obtain ⟨cs, h1, -, -, h2⟩ := any_strings3 hc hi
    exact ⟨cs, h1, h2⟩
  · obtain ⟨cs', h1, -, -, h2⟩ := any_strings3 hc hi
    obtain ⟨ds', g1, -, -, g2⟩ := any_strings3 hc hj
    have e1 : cs = cs' := by cases i <;> exact shows_inj hcs h1
    have e2 : ds = ds' := by cases j <;> exact shows_inj hds g1
    subst e1 e2
    rw [h2 hlc, g2 hld] at h
    obtain ⟨f1, f2, f3, f4⟩ := dashed4_inj (Except.ok.inj h)
    exact path_of_coords3 (binary_inj (by simpa using f1) f2) (binary_inj (by simpa using f1) f3)
      (binary_inj (by simpa using f1) f4)

example : (AnyIndex3D.static 32 exS3).name x64 .GridIndex = .ok "3-6-1-5" := by decide +kernel

example : ∀ cs ds, (AnyIndex3D.static 32 exS3).Shows x64 cs → (AnyIndex3D.dynamic exD3).Shows x64 ds →
    cs.length ≤ 64 → ds.length ≤ 64 → cs = ds := fun cs ds h1 h2 h3 h4 =>
  (C29_grid_strings_3D x64_supported).2 _ _ (exS3_reach _) (exD3_reach _) cs ds h1 h2 h3 h4 (by decide +kernel)

end MortonRs
