import Verif.Lemmas.Reach3D
import Verif.Lemmas.Cmp3D
import Verif.Lemmas.Kinds2D

/-! # Every 3D index type behaves like a list -/

namespace MortonRs

open BitStorage MortonIndex VariableDepthMortonIndex

variable {c : Cfg} {sc : Scope} {w : Nat}

/-- The cells of an index. -/
def cells3 {S : Type} [Storage S Octant] [BitStorage S Octant] (m : MortonIndex3D S) : List Octant :=
  path m.storage

theorem listLike_of3 {S : Type} [Storage S Octant] [BitStorage S Octant] (hc : c.Supported)
    {ok : MortonIndex3D S → Prop} (hwf : ∀ m, ok m → WF c m.storage)
    (hset : ∀ m m' l v, ok m → setCellAtLevel c m l v = .ok m' → ok m')
    (hinv : ∀ m m', ok m → inverted c m = .ok m' → ok m') :
    ListLike c ok cells3 (written S c) where
  depth_eq m hm := (path_length _).symm
  get m hm l hl := ((MortonIndex3D.shows_path hc (hwf m hm)).2 l hl)
  get_ge m hm l hl := MortonIndex3D.get_ge (by rw [← path_length]; exact hl)
  set m hm l v hl := by
    obtain ⟨m', h1, -, -, -, h5, -⟩ := MortonIndex3D.set_lt hc (hwf m hm) (by rw [← path_length]; exact hl) v
    exact ⟨m', h1, hset m m' l v hm h1, h5⟩
  set_ge m hm l v hl := MortonIndex3D.set_ge (by rw [← path_length]; exact hl) v
  inv m hm := by
    obtain ⟨m', h1, -, -, -, h5, -⟩ := MortonIndex3D.inverted_ok hc (hwf m hm)
    exact ⟨m', h1, hinv m m' hm h1, h5⟩

theorem iterates_of3 {S : Type} [Storage S Octant] [BitStorage S Octant] (hc : c.Supported)
    {ok : MortonIndex3D S → Prop} (hwf : ∀ m, ok m → WF c m.storage)
    (hd : ∀ m, ok m → Storage.depth m.storage < 2 ^ c.ptrBits) :
    IteratesCells c (fun m : MortonIndex3D S => m.cells) ok := by
  intro m hm n
  have h := hwf m hm
  have hdm := hd m hm
  have key : ∀ n i, i ≤ Storage.depth m.storage → ∃ items, nexts c n ⟨m.storage, i⟩ = .ok items ∧ items.length = n ∧
      ∀ k (hk : k < items.length), (i + k < Storage.depth m.storage → items[k] = some (slot m.storage (i + k))) ∧
        (Storage.depth m.storage ≤ i + k → items[k] = none) := by
    intro n
    induction n with
    | zero => intro i _; exact ⟨[], rfl, rfl, fun k hk => absurd hk (by simp)⟩
    | succ n ih =>
      intro i hi
      by_cases h1 : i = Storage.depth m.storage
      · obtain ⟨items, e1, e2, e3⟩ := ih i hi
        refine ⟨none :: items, ?_, by simp [e2], ?_⟩
        · simp only [nexts, CellIter.next, h1, if_true, ok_bind, pure_eq_ok]
          rw [← h1, e1]
          rfl
        · intro k hk
          cases k with
          | zero => exact ⟨fun h => by omega, fun _ => rfl⟩
          | succ k =>
            obtain ⟨g1, g2⟩ := e3 k (by simpa using hk)
            exact ⟨fun h => by omega, fun h => g2 (by omega)⟩
      · obtain ⟨items, e1, e2, e3⟩ := ih (i + 1) (by omega)
        have h2 : i + 1 < 2 ^ c.ptrBits := by omega
        refine ⟨some (slot m.storage i) :: items, ?_, by simp [e2], ?_⟩
        · simp only [nexts, CellIter.next, h1, if_false, uadd_ok h2, ok_bind,
            get_slot hc h (show i < Storage.depth m.storage by omega), pure_eq_ok]
          rw [e1]
          rfl
        · intro k hk
          cases k with
          | zero => exact ⟨fun _ => rfl, fun h => by omega⟩
          | succ k =>
            obtain ⟨g1, g2⟩ := e3 k (by simpa using hk)
            rw [show i + (k + 1) = i + 1 + k by omega]
            exact ⟨g1, g2⟩
  obtain ⟨items, e1, e2, e3⟩ := key n 0 (Nat.zero_le _)
  refine ⟨items, e1, e2, fun k hk => ?_⟩
  obtain ⟨g1, g2⟩ := e3 k hk
  rw [Nat.zero_add] at g1 g2
  exact ⟨fun hlt => ⟨_, MortonIndex3D.get_lt hc h hlt, g1 hlt⟩, g2⟩

theorem written_fixed3 : written (FixedDepthStorage3D w) c = id := rfl

theorem written_static3 : written (StaticStorage3D w) c = id := rfl

theorem written_dynamic3 (h : DynWrites c) : written DynamicStorage3D c = id := by
  funext v
  change dynWritten c v = v
  simp [dynWritten, h]

/-! ## Fixed depth -/

theorem fixed_wf3 (hc : c.Supported) (m : MortonIndex3D (FixedDepthStorage3D w)) (h : Reach3D c sc (.fixed w m)) :
    WF c m.storage := FixedDepthStorage3D.wf (reach3D_good hc h).1 m.storage

theorem fixed_list3 (hc : c.Supported) :
    ListLike c (fun m => Reach3D c sc (.fixed w m)) cells3 id :=
  listLike_of3 hc (fixed_wf3 hc) (fun _ _ _ _ h e => .fixedSet h e) (fun _ _ h e => .fixedInverted h e)

theorem fixed_depth_lt3 (hc : c.Supported) (m : MortonIndex3D (FixedDepthStorage3D w)) (h : Reach3D c sc (.fixed w m)) :
    Storage.depth m.storage < 2 ^ c.ptrBits := by
  have := hc.le
  have := StaticStorage3D.depth_small (reach3D_good hc h).1 (Nat.le_refl (w / dim Octant))
  change w / dim Octant < _
  omega

theorem fixed_tail3 (hc : c.Supported) (m : MortonIndex3D (FixedDepthStorage3D w))
    (h : Reach3D c .canonical (.fixed w m)) : TailZero m.storage := (reach3D_good hc h).2 rfl

theorem fixed_eq3 (hc : c.Supported) :
    EqLike (fun m => Reach3D c .canonical (.fixed w m)) cells3 := fun a b ha hb =>
  FixedDepthStorage3D.eq_iff (fixed_tail3 hc a ha) (fixed_tail3 hc b hb)

theorem fixed_cmp3 (hc : c.Supported) :
    CmpLike c octantKey (fun m => Reach3D c .canonical (.fixed w m)) cells3 := by
  intro a b ha hb
  have h := FixedDepthStorage3D.cmp_ok (c := c) (fixed_tail3 hc a ha) (fixed_tail3 hc b hb)
  refine ⟨h, ?_⟩
  have h' : compare a.storage.bits.toNat b.storage.bits.toNat = _ := Except.ok.inj h
  change Except.ok (some (compare a.storage.bits.toNat b.storage.bits.toNat)) = _
  rw [h']
  rfl

/-! ## Static -/

theorem static_wf3 (hc : c.Supported) (m : MortonIndex3D (StaticStorage3D w)) (h : Reach3D c sc (.static w m)) :
    WF c m.storage := (reach3D_good hc h).1

theorem static_list3 (hc : c.Supported) :
    ListLike c (fun m => Reach3D c sc (.static w m)) cells3 id :=
  listLike_of3 hc (static_wf3 hc) (fun _ _ _ _ h e => .staticSet h e) (fun _ _ h e => .staticInverted h e)

theorem static_depth_le3 (hc : c.Supported) (m : MortonIndex3D (StaticStorage3D w)) (h : Reach3D c sc (.static w m)) :
    (cells3 m).length ≤ w / 3 := by
  have h := (reach3D_good hc h).1
  rw [cells3, path_length]
  exact (StaticStorage3D.wf_iff h.fit _).mp h

theorem static_depth_lt3 (hc : c.Supported) (m : MortonIndex3D (StaticStorage3D w)) (h : Reach3D c sc (.static w m)) :
    Storage.depth m.storage < 2 ^ c.ptrBits := by
  have := hc.le
  have h := (reach3D_good hc h).1
  have := StaticStorage3D.depth_small h.fit ((StaticStorage3D.wf_iff h.fit _).mp h)
  change m.storage.depth < _
  omega

theorem static_anc3 (hc : c.Supported) : AncLike c (fun m => Reach3D c sc (.static w m)) cells3 where
  no m hm g hg := MortonIndex3D.static_ancestor_none (by rw [cells3, path_length] at hg; exact hg)
  yes m hm g hg := by
    obtain ⟨a, h1, -, -, h4⟩ := MortonIndex3D.static_ancestor hc (static_wf3 hc m hm)
      (by rw [cells3, path_length] at hg; exact hg)
    exact ⟨a, h1, .staticAncestor hm h1, by rw [cells3, h4, cells3, path_length]; rfl⟩

theorem static_desc3 (hc : c.Supported) :
    DescLike c (fun m => Reach3D c sc (.static w m)) cells3 (sliceRoom c) (some (w / 3)) where
  no m hm cs hr he := MortonIndex3D.static_descendant_none hc (static_wf3 hc m hm) hr
    (by rw [cells3, path_length] at he; exact he)
  yes m hm cs hr he := by
    obtain ⟨a, h1, -, -, h4⟩ := MortonIndex3D.static_descendant hc (static_wf3 hc m hm)
      (cs := cs) (by rw [cells3, path_length] at he; exact Nat.le_of_not_gt he)
    exact ⟨a, h1, .staticDescendant hm hr h1, h4⟩

theorem static_eq3 (hc : c.Supported) :
    EqLike (fun m => Reach3D c .canonical (.static w m)) cells3 := fun a _b ha hb =>
  StaticStorage3D.eq_iff (static_wf3 hc a ha) ((reach3D_good hc ha).2 rfl) ((reach3D_good hc hb).2 rfl)

theorem static_cmp3 (hc : c.Supported) :
    CmpLike c octantKey (fun m => Reach3D c sc (.static w m)) cells3 := by
  intro a b ha hb
  have h := StaticStorage3D.cmp_ok hc (static_wf3 hc a ha) (static_wf3 hc b hb)
  refine ⟨h, ?_⟩
  have h' : StaticStorage3D.cmp c a.storage b.storage = _ := h
  change (StaticStorage3D.cmp c a.storage b.storage >>= fun o => pure (some o)) = _
  rw [h']
  rfl

theorem static_refl3 (m : MortonIndex3D (StaticStorage3D w)) : RustOrd.eq m m = true :=
  StaticStorage3D.eq_iff_eq.mpr rfl

/-! ## Dynamic -/

theorem dynamic_wf3 (hc : c.Supported) (m : MortonIndex3D DynamicStorage3D) (h : Reach3D c sc (.dynamic m)) :
    WF c m.storage := (reach3D_good hc h).1.wf

theorem dynamic_list3' (hc : c.Supported) :
    ListLike c (fun m => Reach3D c sc (.dynamic m)) cells3 (written DynamicStorage3D c) :=
  listLike_of3 hc (dynamic_wf3 hc) (fun _ _ _ _ h e => .dynamicSet h e) (fun _ _ h e => .dynamicInverted h e)

theorem dynamic_list3 (hc : c.Supported) (hw : DynWrites c) :
    ListLike c (fun m => Reach3D c sc (.dynamic m)) cells3 id :=
  written_dynamic3 hw ▸ dynamic_list3' hc

theorem dynamic_depth_lt3 (hc : c.Supported) (m : MortonIndex3D DynamicStorage3D) (h : Reach3D c sc (.dynamic m)) :
    Storage.depth m.storage < 2 ^ c.ptrBits := by
  have := (reach3D_good hc h).1.depth_lt
  change m.storage.depth < _
  omega

theorem dynamic_addr3 (hc : c.Supported) (m : MortonIndex3D DynamicStorage3D) (h : Reach3D c sc (.dynamic m)) :
    Addressable c ((cells3 m).length * 3) := by
  rw [cells3, path_length]
  exact (reach3D_good hc h).1.addr

theorem dynamic_anc3 (hc : c.Supported) : AncLike c (fun m => Reach3D c sc (.dynamic m)) cells3 where
  no m hm g hg := MortonIndex3D.dynamic_ancestor_none (by rw [cells3, path_length] at hg; exact hg)
  yes m hm g hg := by
    obtain ⟨a, h1, -, -, h4⟩ := MortonIndex3D.dynamic_ancestor (reach3D_good hc hm).1
      (by rw [cells3, path_length] at hg; exact hg)
    exact ⟨a, h1, .dynamicAncestor hm h1, by rw [cells3, h4, cells3, path_length]; rfl⟩

/-- A dynamic index with `n` more cells is addressable. -/
def dynRoom3 (c : Cfg) (m : MortonIndex3D DynamicStorage3D) (n : Nat) : Prop := Addressable c ((depth m + n) * 3)

theorem dynamic_desc3 (hc : c.Supported) (hw : DynWrites c) :
    DescLike c (fun m => Reach3D c sc (.dynamic m)) cells3 (dynRoom3 c) none where
  no m hm cs hr he := he.elim
  yes m hm cs hr he := by
    obtain ⟨a, h1, -, -, -, h4⟩ := MortonIndex3D.dynamic_descendant hc (reach3D_good hc hm).1 hr
    exact ⟨a, h1, .dynamicDescendant hm hr h1, h4 hw⟩

theorem dynamic_eq3 (hc : c.Supported) :
    EqLike (fun m => Reach3D c .canonical (.dynamic m)) cells3 := fun _a _b ha hb =>
  DynamicStorage3D.eq_iff ((reach3D_good hc ha).2 rfl) ((reach3D_good hc hb).2 rfl)

theorem dynamic_cmp3 (hc : c.Supported) :
    CmpLike c octantKey (fun m => Reach3D c sc (.dynamic m)) cells3 := by
  intro a b ha hb
  have h := DynamicStorage3D.cmp_ok hc (dynamic_wf3 hc a ha) (dynamic_wf3 hc b hb)
  refine ⟨h, ?_⟩
  have h' : DynamicStorage3D.cmp c a.storage b.storage = _ := h
  change (DynamicStorage3D.cmp c a.storage b.storage >>= fun o => pure (some o)) = _
  rw [h']
  rfl

theorem dynamic_refl3 (m : MortonIndex3D DynamicStorage3D) : RustOrd.eq m m = true :=
  DynamicStorage3D.eq_iff_eq.mpr rfl

end MortonRs
