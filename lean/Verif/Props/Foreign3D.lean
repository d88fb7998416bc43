import Verif.Lemmas.Foreign
import Verif.Props.Laws3D
import Verif.Props.GridEdits3D
import Verif.Props.Deep3D
import Verif.Props.Space
import Verif.Props.Ranges
import Verif.Props.Sorted
import Verif.Props.Strings
import Verif.Props.Machine

/-! # 3D indices over storages of other crates (C83)

`Storage` and `VariableDepthStorage` are public traits, and `MortonIndex3D<S>` works with any implementation. The storage is known
here only by its contract (`StorageContract`, `VariableContract`, `EqContract`, `OrdContract` in `Lemmas/Foreign.lean`). -/

namespace MortonRs

open BitStorage MortonIndex VariableDepthMortonIndex

variable {c : Cfg} {S : Type} {ok : S → Prop} {view : S → List Octant} {room : Nat → Nat → Prop} {limit : Option Nat}

/-! ## Indices over such storages behave like lists -/

section
variable [Storage S Octant]

theorem foreign_cells3 (h : StorageContract c ok view) (m : MortonIndex3D S) (hm : ok m.storage) :
    letI := h.bits
    cells3 m = view m.storage := h.path hm

theorem foreign_bits_list3 (hc : c.Supported) (h : StorageContract c ok view) :
    letI := h.bits
    ListLike c (fun m : MortonIndex3D S => ok m.storage) cells3 id := by
  letI := h.bits
  refine listLike_of3 hc (fun m hm => h.wf hm) (fun m m' l v hm hs => ?_) (fun m m' hm hi => ?_)
  · have hl : l < Storage.depth m.storage := by
      apply Decidable.byContradiction
      intro hl
      rw [MortonIndex3D.set_ge (by omega) v] at hs
      cases hs
    obtain ⟨m'', h1, h2, -⟩ := MortonIndex3D.set_lt hc (h.wf hm) hl v
    rw [h1] at hs
    cases hs
    exact h2.fit.2
  · obtain ⟨m'', h1, h2, -⟩ := MortonIndex3D.inverted_ok hc (h.wf hm)
    rw [h1] at hi
    cases hi
    exact h2.fit.2

theorem foreign_list3 (hc : c.Supported) (h : StorageContract c ok view) :
    ListLike c (fun m : MortonIndex3D S => ok m.storage) (fun m => view m.storage) id := by
  letI := h.bits
  exact (foreign_bits_list3 hc h).congr (foreign_cells3 h)

theorem foreign_wf3 (h : StorageContract c ok view) :
    letI := h.bits
    ∀ m : MortonIndex3D S, ok m.storage → WF c m.storage := fun _ hm => h.wf hm

theorem foreign_iterates3 (hc : c.Supported) (h : StorageContract c ok view) :
    IteratesCells c (fun m : MortonIndex3D S => m.cells) (fun m => ok m.storage) := by
  letI := h.bits
  exact iterates_of3 hc (foreign_wf3 h) (fun m hm => by rw [h.depth _ hm]; exact h.usize _ hm)

end

section
variable [VariableDepthStorage S Octant]

theorem foreign_anc3 (h : VariableContract c ok view room limit) :
    AncLike c (fun m : MortonIndex3D S => ok m.storage) (fun m => view m.storage) where
  no m hm g hg := by
    change (do return (← VariableDepthStorage.ancestor c m.storage g).map MortonIndex3D.mk : Res _) = _
    rw [h.ancestor_none _ hm g hg]
    rfl
  yes m hm g hg := by
    obtain ⟨a, h1, h2, h3⟩ := h.ancestor_some _ hm g hg
    refine ⟨⟨a⟩, ?_, h2, h3⟩
    change (do return (← VariableDepthStorage.ancestor c m.storage g).map MortonIndex3D.mk : Res _) = _
    rw [h1]
    rfl

theorem foreign_desc3 (h : VariableContract c ok view room limit) :
    DescLike c (fun m : MortonIndex3D S => ok m.storage) (fun m => view m.storage)
      (fun m n => room (view m.storage).length n) limit where
  no m hm cs hr he := by
    change (do return (← VariableDepthStorage.descendant c m.storage cs).map MortonIndex3D.mk : Res _) = _
    rw [h.descendant_none _ hm cs hr he]
    rfl
  yes m hm cs hr he := by
    obtain ⟨a, h1, h2, h3⟩ := h.descendant_some _ hm cs hr he
    refine ⟨⟨a⟩, ?_, h2, h3⟩
    change (do return (← VariableDepthStorage.descendant c m.storage cs).map MortonIndex3D.mk : Res _) = _
    rw [h1]
    rfl

end

theorem foreign_eq3 [RustOrd S] (h : EqContract ok view) :
    EqLike (fun m : MortonIndex3D S => ok m.storage) (fun m => view m.storage) := fun _ _ ha hb => h.eq _ _ ha hb

theorem foreign_cmp3 [RustOrd S] {key : Octant → Nat} (h : OrdContract c key ok view) :
    CmpLike c key (fun m : MortonIndex3D S => ok m.storage) (fun m => view m.storage) := fun _ _ ha hb => h _ _ ha hb

/-! ## The theorems -/

/-- Access: cells, writes, panics, the iterator, `inverted`. -/
theorem C83_access_3D [Storage S Octant] (hc : c.Supported) (h : StorageContract c ok view) :
    (∀ m : MortonIndex3D S, ok m.storage → Shows c m (view m.storage)) ∧
    SetGet c (fun m : MortonIndex3D S => ok m.storage) ∧
    PanicsExactlyOutOfRange c (fun m : MortonIndex3D S => ok m.storage) ∧
    UncheckedAgrees c (fun m : MortonIndex3D S => ok m.storage) ∧
    IteratesCells c (fun m : MortonIndex3D S => m.cells) (fun m => ok m.storage) ∧
    InvertedReverses c (fun m : MortonIndex3D S => ok m.storage) ∧
    ([RustOrd S] → EqContract ok view → InvertedInvolutive c (fun m : MortonIndex3D S => ok m.storage) ∧
      SetRestores c (fun m : MortonIndex3D S => ok m.storage)) :=
  have hL := foreign_list3 hc h
  ⟨fun _ hm => hL.shows hm, hL.setGet, hL.panics, uncheckedAgrees_of3 hL.panics, foreign_iterates3 hc h,
    hL.invertedReverses, fun hE => hL.restores (foreign_eq3 hE)⟩

/-- Navigation. -/
theorem C83_navigation_3D [VariableDepthStorage S Octant] [RustOrd S] (hc : c.Supported) (h : StorageContract c ok view)
    (hV : VariableContract c ok view room limit) (hE : EqContract ok view) :
    AncestorSpec c (fun m : MortonIndex3D S => ok m.storage) ∧
    ParentSpec c (fun m : MortonIndex3D S => ok m.storage) ∧
    WithDepthSpec c (fun m : MortonIndex3D S => ok m.storage) ∧
    DescendantSpec c (fun m : MortonIndex3D S => ok m.storage) (fun m n => room (depth m) n) limit ∧
    ChildSpec c (fun m : MortonIndex3D S => ok m.storage) (fun m n => room (depth m) n) limit ∧
    DescendantAncestor c (fun m : MortonIndex3D S => ok m.storage) (fun m n => room (depth m) n) ∧
    ChildParent c (fun m : MortonIndex3D S => ok m.storage) (fun m n => room (depth m) n) ∧
    ParentChild c (fun m : MortonIndex3D S => ok m.storage) := by
  have hL := foreign_list3 hc h
  have hA := foreign_anc3 hV
  have hD := foreign_desc3 hV
  have e : ∀ m : MortonIndex3D S, ok m.storage → ∀ n, room (depth m) n → room (view m.storage).length n := by
    intro m hm n hr
    rw [hL.depth_eq m hm] at hr
    exact hr
  refine ⟨hA.spec hL, hA.parentSpec hL, hA.withDepthSpec hL (fun m => hE.refl m.storage),
    fun m hm cs hr => hD.spec hL m hm cs (e m hm _ hr), fun m hm v hr => hD.childSpec hL m hm v (e m hm _ hr),
    fun m hm cs h0 hr => hD.descendantAncestor hA (foreign_eq3 hE) m hm cs h0 (e m hm _ hr),
    fun m hm v hr => hD.childParent hA (foreign_eq3 hE) m hm v (e m hm _ hr),
    hD.parentChild hL hA (foreign_eq3 hE) (fun q m hm _ hl => ?_) (fun m hm => hV.limit _ hm)⟩
  exact hV.room _ hm _ _ (Nat.le_of_eq hl)

/-- Order. -/
theorem C83_order_3D [VariableDepthStorage S Octant] [RustOrd S] (hc : c.Supported) (h : StorageContract c ok view)
    (hV : VariableContract c ok view room limit) (hC : OrdContract c octantKey ok view) :
    ComparesPaths c octantKey (fun m : MortonIndex3D S => ok m.storage) ∧
    TotalOrder c (fun m : MortonIndex3D S => ok m.storage) ∧
    (EqContract ok view → CmpAgreesWithEq c (fun m : MortonIndex3D S => ok m.storage) ∧
      EqMeansSameCells c (fun m : MortonIndex3D S => ok m.storage)) ∧
    SubtreeContiguous c (fun m : MortonIndex3D S => ok m.storage) ∧
    SortedIsTree c octantKey (fun m : MortonIndex3D S => ok m.storage) ∧
    OrderIsZOrder3D c (fun m : MortonIndex3D S => ok m.storage) ∧
    SubtreeIsBox3D c (fun m : MortonIndex3D S => ok m.storage) := by
  letI := h.bits
  have hL := foreign_list3 hc h
  have hA := foreign_anc3 hV
  have hC' := foreign_cmp3 hC
  have e := fun m hm => (foreign_cells3 (c := c) h m hm).symm
  exact ⟨hL.comparesPaths hC', hC'.totalOrder octantKey_inj,
    fun hE => ⟨hC'.agreesWithEq octantKey_inj (foreign_eq3 hE), hL.eqMeansSameCells (foreign_eq3 hE)⟩,
    subtreeContiguous octantKey_inj hL hA hC', sortedIsTree_of octantKey_inj hL hA hC',
    orderIsZOrder_of3 hc (foreign_wf3 h) (hC'.congr e),
    subtreeIsBox_of3 hc (foreign_wf3 h) (foreign_bits_list3 hc h) (hA.congr e) (hC'.congr e)⟩

/-- Grid positions. -/
theorem C83_grid_3D [Storage S Octant] (hc : c.Supported) (h : StorageContract c ok view) :
    ReadsGrid3D c (fun m : MortonIndex3D S => ok m.storage) ∧
    (c.overflowChecks = true → ∀ m : MortonIndex3D S, ok m.storage → c.ptrBits < depth m → ∀ o,
      m.toGridIndex c o = .error .overflow) ∧
    WriteMovesInGrid3D c (fun m : MortonIndex3D S => ok m.storage) ∧
    InvertedMirrorsGrid3D c (fun m : MortonIndex3D S => ok m.storage) := by
  letI := h.bits
  have hw := foreign_wf3 h
  have hL := foreign_bits_list3 hc h
  exact ⟨readsGrid_of3 hc hw, fun hd m hm hdeep o => toGridIndex_overflow3 hc hd (hw m hm) o hdeep,
    writeMovesInGrid_of3 hc hw hL, invertedMirrorsGrid_of3 hc hw hL⟩

/-- Grid positions of ancestors and descendants. -/
theorem C83_grid_navigation_3D [VariableDepthStorage S Octant] (hc : c.Supported) (h : StorageContract c ok view)
    (hV : VariableContract c ok view room limit) :
    AncestorShiftsGrid3D c (fun m : MortonIndex3D S => ok m.storage) ∧
    ((∀ n k, n + k ≤ c.ptrBits → room n k) → ChildDoublesGrid3D c (fun m : MortonIndex3D S => ok m.storage) ∧
      DescendantGrid3D c (fun m : MortonIndex3D S => ok m.storage)) := by
  letI := h.bits
  have hw := foreign_wf3 h
  have e := fun m hm => (foreign_cells3 (c := c) h m hm).symm
  have hd : ∀ m : MortonIndex3D S, ok m.storage → depth m = (view m.storage).length := fun m hm => h.depth _ hm
  refine ⟨ancestorShiftsGrid_of3 hc hw ((foreign_anc3 hV).congr e), fun hr =>
    ⟨childDoublesGrid_of3 hc hw ((foreign_desc3 hV).congr e) (fun m hm hk => ?_),
      descendantGrid_of3 hc hw ((foreign_desc3 hV).congr e) (fun m k hm hk => ?_)⟩⟩ <;>
  · rw [hd m hm] at hk
    exact hr _ _ hk

/-- Strings. -/
theorem C83_strings_3D [Storage S Octant] (hc : c.Supported) (h : StorageContract c ok view) (m : MortonIndex3D S)
    (hm : ok m.storage) :
    MortonIndex.toString c m .CellConcatenation = .ok (String.ofList ((view m.storage).map octantDigit)) ∧
    MortonIndex.toString c m .CellConcatenationWithRoot =
      .ok ("r" ++ String.ofList ((view m.storage).map octantDigit)) ∧
    (depth m ≤ c.ptrBits → MortonIndex.toString c m .GridIndex = .ok (Nat.repr (view m.storage).length ++ "-" ++
      Nat.repr (binary ((view m.storage).map (octantX .XYZ))) ++ "-" ++
      Nat.repr (binary ((view m.storage).map (octantY .XYZ))) ++ "-" ++
      Nat.repr (binary ((view m.storage).map (octantZ .XYZ))))) := by
  letI := h.bits
  have hw := h.wf hm
  have e : path m.storage = view m.storage := h.path hm
  refine ⟨?_, ?_, fun hd => ?_⟩
  · rw [← e]; exact cellConcatenation_ok3 hc hw
  · change MortonIndex3D.toString c m .CellConcatenationWithRoot = _
    rw [MortonIndex3D.toString, cellConcatenation_ok3 hc hw, ← e]; rfl
  · rw [← e]; exact gridString_ok3 hc hw hd

/-- Programs over such indices are programs over lists. -/
theorem C83_programs_3D [VariableDepthStorage S Octant] [RustOrd S] (hc : c.Supported) (h : StorageContract c ok view)
    (hV : VariableContract c ok view room limit) (hE : EqContract ok view) (hC : OrdContract c octantKey ok view) :
    BehavesLikeLists c (fun m : MortonIndex3D S => m.cells) octantKey room limit (fun _ => True)
      (fun m => ok m.storage) :=
  behaves (foreign_list3 hc h) (foreign_anc3 hV) (foreign_desc3 hV) (foreign_iterates3 hc h)
    (fun _ _ => .inl (foreign_eq3 hE)) (foreign_cmp3 hC) (fun _ _ _ hr => hr)

/-! ## The storages of the crate keep the contract -/

theorem contract_of_list3 [Storage S Octant] {okM : MortonIndex3D S → Prop} {p : MortonIndex3D S → List Octant}
    (h : ListLike c okM p id) (hu : ∀ m, okM m → Storage.depth m.storage < 2 ^ c.ptrBits) :
    StorageContract c (fun s => okM ⟨s⟩) (fun s => p ⟨s⟩) := by
  have hu' := uncheckedAgrees_of3 h.panics
  refine ⟨fun s hs => h.depth_eq _ hs, fun s hs => ?_, fun s hs l hl => ?_, fun s hs l v hl => ?_⟩
  · have := h.depth_eq _ hs
    rw [← this]
    exact hu _ hs
  · have e : l < depth (⟨s⟩ : MortonIndex3D S) := by rw [h.depth_eq _ hs]; exact hl
    obtain ⟨v, h1, h2⟩ := (hu' _ hs l e).1
    rw [h.get _ hs l hl] at h2
    cases h2
    exact h1
  · have e : l < depth (⟨s⟩ : MortonIndex3D S) := by rw [h.depth_eq _ hs]; exact hl
    obtain ⟨m', h1, h2⟩ := (hu' _ hs l e).2 v
    obtain ⟨m'', g1, g2, g3⟩ := h.set _ hs l v hl
    rw [h2] at g1
    cases g1
    change (do return ⟨← Storage.setCellAtLevelUnchecked c s l v⟩ : Res (MortonIndex3D S)) = _ at h1
    cases hr : Storage.setCellAtLevelUnchecked c s l v with
    | error f => rw [hr] at h1; cases h1
    | ok s' =>
      rw [hr] at h1
      cases h1
      exact ⟨s', rfl, g2, g3⟩

theorem ancestor_storage3 [VariableDepthStorage S Octant] {s : S} {g : NonZeroUsize} {r : Option (MortonIndex3D S)}
    (h : ancestor c (⟨s⟩ : MortonIndex3D S) g = .ok r) :
    VariableDepthStorage.ancestor c s g = .ok (r.map MortonIndex3D.storage) := by
  change (do return (← VariableDepthStorage.ancestor c s g).map MortonIndex3D.mk : Res _) = _ at h
  cases hr : VariableDepthStorage.ancestor c s g with
  | error f => rw [hr] at h; cases h
  | ok o =>
    rw [hr] at h
    cases h
    cases o <;> rfl

theorem descendant_storage3 [VariableDepthStorage S Octant] {s : S} {cs : List Octant} {r : Option (MortonIndex3D S)}
    (h : descendant c (⟨s⟩ : MortonIndex3D S) cs = .ok r) :
    VariableDepthStorage.descendant c s cs = .ok (r.map MortonIndex3D.storage) := by
  change (do return (← VariableDepthStorage.descendant c s cs).map MortonIndex3D.mk : Res _) = _ at h
  cases hr : VariableDepthStorage.descendant c s cs with
  | error f => rw [hr] at h; cases h
  | ok o =>
    rw [hr] at h
    cases h
    cases o <;> rfl

theorem variable_of_list3 [VariableDepthStorage S Octant] {okM : MortonIndex3D S → Prop} {p : MortonIndex3D S → List Octant}
    {roomM : MortonIndex3D S → Nat → Prop} (hA : AncLike c okM p) (hD : DescLike c okM p roomM limit)
    (hr : ∀ m, okM m → ∀ k, room (p m).length k → roomM m k) (hlim : ∀ m, okM m → ¬ Exceeds limit (p m).length)
    (hroom : ∀ m, okM m → ∀ n k, n + k ≤ (p m).length → room n k) :
    VariableContract c (fun s => okM ⟨s⟩) (fun s => p ⟨s⟩) room limit where
  ancestor_none s hs g hg := ancestor_storage3 (hA.no _ hs g hg)
  ancestor_some s hs g hg := by
    obtain ⟨a, h1, h2, h3⟩ := hA.yes _ hs g hg
    exact ⟨a.storage, ancestor_storage3 h1, h2, h3⟩
  descendant_none s hs cs h he := descendant_storage3 (hD.no _ hs cs (hr _ hs _ h) he)
  descendant_some s hs cs h he := by
    obtain ⟨a, h1, h2, h3⟩ := hD.yes _ hs cs (hr _ hs _ h) he
    exact ⟨a.storage, descendant_storage3 h1, h2, h3⟩
  limit s hs := hlim _ hs
  room s hs := hroom _ hs

/-- The three storages of the crate keep the contracts (with the cells their indices show), so the theorems above speak about
them too. -/
theorem C83_crate_storages_3D (hc : c.Supported) :
    (∀ w, ∃ view, StorageContract c (fun s : FixedDepthStorage3D w => Reach3D c .canonical (.fixed w ⟨s⟩)) view ∧
      EqContract (fun s : FixedDepthStorage3D w => Reach3D c .canonical (.fixed w ⟨s⟩)) view ∧
      OrdContract c octantKey (fun s : FixedDepthStorage3D w => Reach3D c .canonical (.fixed w ⟨s⟩)) view) ∧
    (∀ w, ∃ view, StorageContract c (fun s : StaticStorage3D w => Reach3D c .canonical (.static w ⟨s⟩)) view ∧
      VariableContract c (fun s : StaticStorage3D w => Reach3D c .canonical (.static w ⟨s⟩)) view
        (fun _ k => k < 2 ^ (c.ptrBits - 1)) (some (w / 3)) ∧
      EqContract (fun s : StaticStorage3D w => Reach3D c .canonical (.static w ⟨s⟩)) view ∧
      OrdContract c octantKey (fun s : StaticStorage3D w => Reach3D c .canonical (.static w ⟨s⟩)) view) ∧
    (DynWrites c → ∃ view, StorageContract c (fun s => Reach3D c .canonical (.dynamic ⟨s⟩)) view ∧
      VariableContract c (fun s => Reach3D c .canonical (.dynamic ⟨s⟩)) view (fun n k => Addressable c ((n + k) * 3)) none ∧
      EqContract (fun s => Reach3D c .canonical (.dynamic ⟨s⟩)) view ∧
      OrdContract c octantKey (fun s => Reach3D c .canonical (.dynamic ⟨s⟩)) view) := by
  refine ⟨fun w => ⟨_, contract_of_list3 (fixed_list3 hc) (fixed_depth_lt3 hc), 
      ⟨fun s => by simp [RustOrd.eq], fun a b ha hb => fixed_eq3 hc _ _ ha hb⟩,
      fun a b ha hb => fixed_cmp3 hc _ _ ha hb⟩,
    fun w => ⟨_, contract_of_list3 (static_list3 hc) (static_depth_lt3 hc),
      variable_of_list3 (static_anc3 hc) (static_desc3 hc) (fun _ _ _ h => h)
        (fun m hm => Nat.not_lt.mpr (static_depth_le3 hc m hm)) (fun m hm n k h => ?_),
      ⟨fun s => static_refl3 ⟨s⟩, fun a b ha hb => static_eq3 hc _ _ ha hb⟩, fun a b ha hb => static_cmp3 hc _ _ ha hb⟩,
    fun hw => ⟨_, contract_of_list3 (dynamic_list3 hc hw) (dynamic_depth_lt3 hc),
      variable_of_list3 (dynamic_anc3 hc) (dynamic_desc3 hc hw)
        (fun m hm k h => ?_) (fun _ _ h => h) (fun m hm n k h => ?_),
      ⟨fun s => dynamic_refl3 ⟨s⟩, fun a b ha hb => dynamic_eq3 hc _ _ ha hb⟩, fun a b ha hb => dynamic_cmp3 hc _ _ ha hb⟩⟩
  · have h1 := StaticStorage3D.depth_small (reach3D_good hc hm).1.fit (static_depth_le3 hc m hm)
    have h2 : 2 ^ 8 ≤ 2 ^ (c.ptrBits - 1) := Nat.pow_le_pow_right (by decide) (by rcases hc with h | h | h <;> omega)
    omega
  · rw [dynRoom3, (dynamic_list3 hc hw).depth_eq m hm]
    exact h
  · have := dynamic_addr3 hc m hm
    unfold Addressable at *
    omega

/-! ## A storage of another crate -/

/-- A storage with a `Vec<Octant>` of at most 40 cells, the deepest cell first. -/
structure LeafFirst3 where
  cells : List Octant
  deriving DecidableEq

instance : VariableDepthStorage LeafFirst3 Octant where
  depth s := s.cells.length
  getCellAtLevelUnchecked _ s l := match s.cells.reverse[l]? with
    | some v => .ok v
    | none => .error .indexOutOfBounds
  setCellAtLevelUnchecked _ s l v := .ok ⟨s.cells.set (s.cells.length - 1 - l) v⟩
  maxDepth := some 40
  ancestor _ s g := .ok (if g.val > s.cells.length then none else some ⟨s.cells.drop g.val⟩)
  descendant _ s cs := .ok (if s.cells.length + cs.length > 40 then none else some ⟨cs.reverse ++ s.cells⟩)

instance : RustOrd LeafFirst3 where
  cmp _ a b := .ok (pathCmp octantKey a.cells.reverse b.cells.reverse)
  partialCmp _ a b := .ok (some (pathCmp octantKey a.cells.reverse b.cells.reverse))
  eq a b := a = b
  hashInput a := a.cells.map octantKey

def LeafFirst3.Ok (s : LeafFirst3) : Prop := s.cells.length ≤ 40

theorem leafFirst3_contract (hc : c.Supported) : StorageContract c LeafFirst3.Ok (fun s => s.cells.reverse) where
  depth s _ := List.length_reverse.symm
  usize s hs := by
    have := hc.le
    have h2 : 2 ^ 6 ≤ 2 ^ c.ptrBits := Nat.pow_le_pow_right (by decide) (by rcases hc with h | h | h <;> omega)
    rw [List.length_reverse]
    unfold LeafFirst3.Ok at hs
    omega
  get s _ l hl := by
    change (match s.cells.reverse[l]? with | some v => .ok v | none => .error .indexOutOfBounds : Res Octant) = _
    rw [List.getElem?_eq_getElem hl]
  set s hs l v hl := by
    refine ⟨⟨s.cells.set (s.cells.length - 1 - l) v⟩, rfl, ?_, ?_⟩
    · unfold LeafFirst3.Ok
      rw [List.length_set]
      exact hs
    · rw [List.length_reverse] at hl
      apply List.ext_getElem (by simp)
      intro k h1 h2
      rw [List.getElem_reverse, List.getElem_set, List.getElem_set, List.getElem_reverse]
      simp only [List.length_set]
      by_cases e : l = k
      · subst e
        rw [if_pos rfl, if_pos rfl]
      · rw [if_neg e, if_neg]
        have : k < s.cells.length := by simpa using h2
        omega

theorem leafFirst3_variable :
    VariableContract c LeafFirst3.Ok (fun s => s.cells.reverse) (fun _ _ => True) (some 40) where
  ancestor_none s _ g hg := by
    rw [List.length_reverse] at hg
    exact congrArg _ (if_pos hg)
  ancestor_some s hs g hg := by
    rw [List.length_reverse] at hg
    refine ⟨⟨s.cells.drop g.val⟩, congrArg _ (if_neg (by omega)), ?_, ?_⟩
    · unfold LeafFirst3.Ok at *
      rw [List.length_drop]
      omega
    · rw [List.length_reverse, List.reverse_drop]
  descendant_none s _ cs _ he := by
    rw [List.length_reverse] at he
    exact congrArg _ (if_pos he)
  descendant_some s hs cs _ he := by
    rw [List.length_reverse] at he
    refine ⟨⟨cs.reverse ++ s.cells⟩, congrArg _ (if_neg he), ?_, by simp⟩
    have he' : ¬ 40 < s.cells.length + cs.length := he
    unfold LeafFirst3.Ok
    rw [List.length_append, List.length_reverse]
    omega
  limit s hs := by
    rw [List.length_reverse]
    exact Nat.not_lt.mpr hs
  room _ _ _ _ _ := trivial

theorem leafFirst3_eq : EqContract LeafFirst3.Ok (fun s => s.cells.reverse) where
  refl s := decide_eq_true rfl
  eq a b _ _ := by
    change decide (a = b) = true ↔ _
    rw [decide_eq_true_iff, List.reverse_inj]
    cases a; cases b; simp

theorem leafFirst3_ord : OrdContract c octantKey LeafFirst3.Ok (fun s => s.cells.reverse) := fun _ _ _ _ => ⟨rfl, rfl⟩

/-- The path `[Five, One, Six]`. -/
def exLeaf3 : MortonIndex3D LeafFirst3 := ⟨⟨[.Six, .One, .Five]⟩⟩

theorem exLeaf3_ok : exLeaf3.storage.Ok := by unfold LeafFirst3.Ok; decide

example : Shows x64 exLeaf3 [.Five, .One, .Six] := (C83_access_3D x64_supported (leafFirst3_contract x64_supported)).1 _ exLeaf3_ok

example : MortonIndex.toString x64 exLeaf3 .GridIndex = .ok "3-6-1-5" :=
  (C83_strings_3D x64_supported (leafFirst3_contract x64_supported) exLeaf3 exLeaf3_ok).2.2 (by decide)

example : ∃ a, ancestor x64 exLeaf3 ⟨2, by decide⟩ = .ok (some a) ∧ IsPrefix x64 exLeaf3 a 1 :=
  ((C83_navigation_3D x64_supported (leafFirst3_contract x64_supported) leafFirst3_variable leafFirst3_eq).1 exLeaf3 exLeaf3_ok
    ⟨2, by decide⟩).2 (by decide)

example : RustOrd.le x64 exLeaf3 (⟨⟨[.Seven, .One, .Five]⟩⟩ : MortonIndex3D LeafFirst3) = .ok true := by
  obtain ⟨-, -, -, -, -, h, -⟩ := C83_order_3D x64_supported (leafFirst3_contract x64_supported) leafFirst3_variable leafFirst3_ord
  obtain ⟨ga, gb, h1, h2, -, -, -, h3⟩ := h exLeaf3 ⟨⟨[.Seven, .One, .Five]⟩⟩ exLeaf3_ok (by unfold LeafFirst3.Ok; decide) rfl
    (by decide) .XYZ
  have e1 : exLeaf3.toGridIndex x64 .XYZ = .ok ⟨6#64, 1#64, 5#64⟩ := by decide +kernel
  have e2 : (⟨⟨[.Seven, .One, .Five]⟩⟩ : MortonIndex3D LeafFirst3).toGridIndex x64 .XYZ = .ok ⟨7#64, 1#64, 5#64⟩ := by decide +kernel
  rw [e1] at h1
  rw [e2] at h2
  cases h1
  cases h2
  exact h3 (by decide) (by decide) (by decide)

example : ∃ cs v, Shows x64 exLeaf3 cs ∧ exLeaf3.toGridIndex x64 .YZX = .ok v ∧
    v.x.toNat = binary (cs.map (octantX .YZX)) ∧ v.y.toNat = binary (cs.map (octantY .YZX)) ∧
    v.z.toNat = binary (cs.map (octantZ .YZX)) :=
  (C83_grid_3D x64_supported (leafFirst3_contract x64_supported)).1 exLeaf3 exLeaf3_ok (by decide) .YZX

example : ∃ v vk, exLeaf3.toGridIndex x64 .XYZ = .ok v ∧
    (⟨⟨[.Three, .Six, .One, .Five]⟩⟩ : MortonIndex3D LeafFirst3).toGridIndex x64 .XYZ = .ok vk ∧
    vk.x.toNat = 2 * v.x.toNat + 1 ∧ vk.y.toNat = 2 * v.y.toNat + 1 ∧
    vk.z.toNat = 2 * v.z.toNat + 0 :=
  ((C83_grid_navigation_3D x64_supported (leafFirst3_contract x64_supported) leafFirst3_variable).2 (fun _ _ _ => trivial)).1
    exLeaf3 exLeaf3_ok (by decide) .Three _ rfl .XYZ

example : ∃ view, StorageContract x64 (fun s : StaticStorage3D 32 => Reach3D x64 .canonical (.static 32 ⟨s⟩)) view ∧
    view exS3.storage = [.Five, .One, .Six] := by
  obtain ⟨view, h, -⟩ := (C83_crate_storages_3D x64_supported).2.1 32
  refine ⟨view, h, ?_⟩
  have e : Shows x64 exS3 [.Five, .One, .Six] := by
    refine ⟨rfl, fun l hl => ?_⟩
    match l, hl with
    | 0, _ | 1, _ | 2, _ => rfl
  exact shows_unique ((C83_access_3D x64_supported h).1 exS3 (exS3_reach _)) e

/-- The program of C43 makes the same observations on this storage as on lists. -/
example : runIndices x64 (fun m : MortonIndex3D LeafFirst3 => m.cells) exProgram3 [exLeaf3] =
    runLists octantKey (some 40) exProgram3 [[.Five, .One, .Six]] := by
  refine C83_programs_3D x64_supported (leafFirst3_contract x64_supported) leafFirst3_variable leafFirst3_eq leafFirst3_ord
    [exLeaf3] _ exProgram3 (by simpa using exLeaf3_ok) rfl (fun k h h' => ?_) ?_ trivial
  · cases k with
    | zero => exact (C83_access_3D x64_supported (leafFirst3_contract x64_supported)).1 _ exLeaf3_ok
    | succ k => exact absurd h (by simp)
  · exact affordable_all (fun _ _ => trivial) _ _

end MortonRs
