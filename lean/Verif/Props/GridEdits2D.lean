import Verif.Props.Grid2D

/-! # Cell operations in terms of 2D grid positions (C70, C71, C72) -/

namespace MortonRs

open BitStorage MortonIndex VariableDepthMortonIndex

variable {c : Cfg}

/-! ## Statements -/

/-- C70: writing the cell at `l` sets the bit of that level in each coordinate and leaves the other bits. -/
def WriteMovesInGrid2D (c : Cfg) {S : Type} [Storage S Quadrant] (ok : MortonIndex2D S → Prop) : Prop :=
  ∀ m, ok m → depth m ≤ c.ptrBits → ∀ l, l < depth m → ∀ q o, ∃ m' v v', setCellAtLevel c m l q = .ok m' ∧
    m.toGridIndex c o = .ok v ∧ m'.toGridIndex c o = .ok v' ∧
    ∀ t, v'.x.getLsbD t = (if t + l + 1 = depth m then quadrantX o q else v.x.getLsbD t) ∧
      v'.y.getLsbD t = (if t + l + 1 = depth m then quadrantY o q else v.y.getLsbD t)

/-- C71: inverting reverses the lowest `depth` bits of each coordinate. -/
def InvertedMirrorsGrid2D (c : Cfg) {S : Type} [Storage S Quadrant] (ok : MortonIndex2D S → Prop) : Prop :=
  ∀ m, ok m → depth m ≤ c.ptrBits → ∀ o, ∃ r v vr, inverted c m = .ok r ∧
    m.toGridIndex c o = .ok v ∧ r.toGridIndex c o = .ok vr ∧
    (∀ s t, s + t + 1 = depth m → vr.x.getLsbD s = v.x.getLsbD t ∧ vr.y.getLsbD s = v.y.getLsbD t) ∧
    (∀ t, depth m ≤ t → vr.x.getLsbD t = false ∧ vr.y.getLsbD t = false)

/-- C72: the position of a descendant is the position of the corner of the square plus the position of the remaining
path inside the square. -/
def DescendantGrid2D (c : Cfg) {S : Type} [VariableDepthStorage S Quadrant] (ok : MortonIndex2D S → Prop) : Prop :=
  ∀ m, ok m → ∀ cs d, depth m + cs.length ≤ c.ptrBits → descendant c m cs = .ok (some d) → ∀ o, ∃ v vd,
    m.toGridIndex c o = .ok v ∧ d.toGridIndex c o = .ok vd ∧
    vd.x.toNat = v.x.toNat * 2 ^ cs.length + binary (cs.map (quadrantX o)) ∧
    vd.y.toNat = v.y.toNat * 2 ^ cs.length + binary (cs.map (quadrantY o))

/-! ## Lemmas -/

theorem binary_set_bit {W n l : Nat} {Cell : Type} {v v' : BitVec W} {cs : List Cell} {q : Cell} {f : Cell → Bool}
    (h : v.toNat = binary (cs.map f)) (h' : v'.toNat = binary ((cs.set l q).map f)) (hn : cs.length = n) (hl : l < n)
    (t : Nat) : v'.getLsbD t = if t + l + 1 = n then f q else v.getLsbD t := by
  subst hn
  rw [BitVec.getLsbD, BitVec.getLsbD, h, h', binary_testBit, binary_testBit, List.length_map, List.length_map,
    List.length_set]
  split
  · next e =>
    rw [decide_eq_true (by omega), Bool.true_and, show cs.length - 1 - t = l by omega, List.getD, List.getElem?_map,
      List.getElem?_set_self hl, Option.map_some, Option.getD_some]
  · next e =>
    by_cases ht : t < cs.length
    · rw [List.getD, List.getElem?_map, List.getElem?_set_ne (by omega), List.getD, List.getElem?_map]
    · rw [decide_eq_false ht, Bool.false_and, Bool.false_and]

theorem binary_reverse_bit {W n : Nat} {Cell : Type} {v v' : BitVec W} {cs : List Cell} {f : Cell → Bool}
    (h : v.toNat = binary (cs.map f)) (h' : v'.toNat = binary (cs.reverse.map f)) (hn : cs.length = n) :
    (∀ s t, s + t + 1 = n → v'.getLsbD s = v.getLsbD t) ∧ ∀ t, n ≤ t → v'.getLsbD t = false := by
  subst hn
  refine ⟨fun s t e => ?_, fun t ht => ?_⟩
  · rw [BitVec.getLsbD, BitVec.getLsbD, h, h', binary_testBit, binary_testBit, List.length_map, List.length_map,
      List.length_reverse, decide_eq_true (by omega), decide_eq_true (by omega), List.getD, List.getD, List.getElem?_map,
      List.getElem?_map, List.getElem?_reverse (by omega), show cs.length - 1 - (cs.length - 1 - s) = cs.length - 1 - t by omega]
  · rw [BitVec.getLsbD, h', binary_testBit, List.length_map, List.length_reverse, decide_eq_false (by omega), Bool.false_and]

theorem lt_isize {k : Nat} (hc : c.Supported) (h : k ≤ c.ptrBits) : k < 2 ^ (c.ptrBits - 1) := by
  rcases hc with h' | h' | h' <;> rw [h'] at h ⊢ <;> exact Nat.lt_of_le_of_lt h (by decide)

section
variable {S : Type} [Storage S Quadrant] [BitStorage S Quadrant] {ok : MortonIndex2D S → Prop}

theorem writeMovesInGrid_of2 (hc : c.Supported) (hwf : ∀ m, ok m → WF c m.storage)
    (hL : ListLike c ok (cells2 (S := S)) id) : WriteMovesInGrid2D c ok := by
  intro m hm hd l hl q o
  have lm : (path m.storage).length = depth m := path_length _
  obtain ⟨m', h1, h2, h3⟩ := hL.set m hm l q (Nat.lt_of_lt_of_eq hl (hL.depth_eq m hm))
  have h3' : path m'.storage = (path m.storage).set l q := h3
  have hd' : depth m' = depth m := by
    rw [show depth m' = (path m'.storage).length from (path_length _).symm, h3', List.length_set, lm]
  obtain ⟨v, e1, e2, e3⟩ := toGridIndex_binary2 hc (hwf m hm) hd o
  obtain ⟨v', f1, f2, f3⟩ := toGridIndex_binary2 hc (hwf m' h2) (Nat.le_trans (Nat.le_of_eq hd') hd) o
  rw [h3'] at f2 f3
  exact ⟨m', v, v', h1, e1, f1, fun t => ⟨binary_set_bit e2 f2 lm hl t, binary_set_bit e3 f3 lm hl t⟩⟩

theorem invertedMirrorsGrid_of2 (hc : c.Supported) (hwf : ∀ m, ok m → WF c m.storage)
    (hL : ListLike c ok (cells2 (S := S)) id) : InvertedMirrorsGrid2D c ok := by
  intro m hm hd o
  have lm : (path m.storage).length = depth m := path_length _
  obtain ⟨r, h1, h2, h3⟩ := hL.inv m hm
  rw [List.map_id] at h3
  have h3' : path r.storage = (path m.storage).reverse := h3
  have hd' : depth r = depth m := by
    rw [show depth r = (path r.storage).length from (path_length _).symm, h3', List.length_reverse, lm]
  obtain ⟨v, e1, e2, e3⟩ := toGridIndex_binary2 hc (hwf m hm) hd o
  obtain ⟨v', f1, f2, f3⟩ := toGridIndex_binary2 hc (hwf r h2) (Nat.le_trans (Nat.le_of_eq hd') hd) o
  rw [h3'] at f2 f3
  have bx := binary_reverse_bit e2 f2 lm
  have by' := binary_reverse_bit e3 f3 lm
  exact ⟨r, v, v', h1, e1, f1, fun s t e => ⟨bx.1 s t e, by'.1 s t e⟩, fun t ht => ⟨bx.2 t ht, by'.2 t ht⟩⟩

end

theorem descendantGrid_of2 {S : Type} [VariableDepthStorage S Quadrant] [BitStorage S Quadrant]
    {ok : MortonIndex2D S → Prop} (hc : c.Supported) (hwf : ∀ m, ok m → WF c m.storage) {room limit}
    (hD : DescLike c ok (cells2 (S := S)) room limit)
    (hroom : ∀ m k, ok m → depth m + k ≤ c.ptrBits → room m k) : DescendantGrid2D c ok := by
  intro m hm cs d hd hk o
  obtain ⟨h1, h2⟩ := hD.of_some (cs := cs) hm (hroom m _ hm hd) hk
  have h2' : path d.storage = path m.storage ++ cs := h2
  have hdk : Storage.depth d.storage ≤ c.ptrBits := by
    rw [← path_length d.storage, h2', List.length_append, path_length]; exact hd
  obtain ⟨v, e1, e2, e3⟩ := toGridIndex_binary2 hc (hwf m hm) (Nat.le_trans (Nat.le_add_right _ _) hd) o
  obtain ⟨vk, f1, f2, f3⟩ := toGridIndex_binary2 hc (hwf d h1) hdk o
  refine ⟨v, vk, e1, f1, ?_, ?_⟩
  · rw [e2, f2, h2', List.map_append, binary_append_list, List.length_map, Nat.mul_comm]
  · rw [e3, f3, h2', List.map_append, binary_append_list, List.length_map, Nat.mul_comm]

/-! ## C70 -/

theorem C70_write_moves_in_grid_2D (hc : c.Supported) :
    (∀ w, WriteMovesInGrid2D c (fun m => Reach2D c .all (.fixed w m))) ∧
    (∀ w, WriteMovesInGrid2D c (fun m => Reach2D c .all (.static w m))) ∧
    (DynWrites c → WriteMovesInGrid2D c (fun m => Reach2D c .all (.dynamic m))) :=
  ⟨fun _ => writeMovesInGrid_of2 hc (fixed_wf2 hc) (fixed_list2 hc),
    fun _ => writeMovesInGrid_of2 hc (static_wf2 hc) (static_list2 hc),
    fun hw => writeMovesInGrid_of2 hc (dynamic_wf2 hc) (dynamic_list2 hc hw)⟩

/-- Changing the middle cell of `[Three, One, Two]` to `Two` moves (6, 5) to (4, 7). -/
example : ∃ m' v v', setCellAtLevel x64 exS2 1 Quadrant.Two = .ok m' ∧ exS2.toGridIndex x64 .XY = .ok v ∧
    m'.toGridIndex x64 .XY = .ok v' ∧ v'.x.getLsbD 1 = false ∧ v'.y.getLsbD 1 = true := by
  obtain ⟨m', v, v', h1, h2, h3, h4⟩ := (C70_write_moves_in_grid_2D x64_supported).2.1 16 exS2 (exS2_reach _) (by decide) 1
    (by decide) .Two .XY
  exact ⟨m', v, v', h1, h2, h3, (h4 1).1, (h4 1).2⟩

/-! ## C71 -/

theorem C71_inverted_mirrors_grid_2D (hc : c.Supported) :
    (∀ w, InvertedMirrorsGrid2D c (fun m => Reach2D c .all (.fixed w m))) ∧
    (∀ w, InvertedMirrorsGrid2D c (fun m => Reach2D c .all (.static w m))) ∧
    (DynWrites c → InvertedMirrorsGrid2D c (fun m => Reach2D c .all (.dynamic m))) :=
  ⟨fun _ => invertedMirrorsGrid_of2 hc (fixed_wf2 hc) (fixed_list2 hc),
    fun _ => invertedMirrorsGrid_of2 hc (static_wf2 hc) (static_list2 hc),
    fun hw => invertedMirrorsGrid_of2 hc (dynamic_wf2 hc) (dynamic_list2 hc hw)⟩

example : ∃ r v vr, inverted x64 exD2 = .ok r ∧ exD2.toGridIndex x64 .XY = .ok v ∧ r.toGridIndex x64 .XY = .ok vr ∧
    vr.x.getLsbD 0 = v.x.getLsbD 2 ∧ vr.y.getLsbD 2 = v.y.getLsbD 0 := by
  obtain ⟨r, v, vr, h1, h2, h3, h4, -⟩ := (C71_inverted_mirrors_grid_2D x64_supported).2.2 x64_writes exD2 (exD2_reach _)
    (by decide) .XY
  exact ⟨r, v, vr, h1, h2, h3, (h4 0 2 rfl).1, (h4 2 0 rfl).2⟩

/-! ## C72 -/

theorem C72_descendant_grid_2D (hc : c.Supported) :
    (∀ w, DescendantGrid2D c (fun m => Reach2D c .all (.static w m))) ∧
    (DynWrites c → DescendantGrid2D c (fun m => Reach2D c .all (.dynamic m))) := by
  have := hc.le
  have h64 := hc.intWidth.le
  refine ⟨fun w => descendantGrid_of2 hc (static_wf2 hc) (static_desc2 hc) (fun m k _ hd => ?_),
    fun hw => descendantGrid_of2 hc (dynamic_wf2 hc) (dynamic_desc2 hc hw) (fun m k _ hd => ?_)⟩
  · exact lt_isize hc (Nat.le_trans (Nat.le_add_left _ _) hd)
  · change (depth m + k) * 2 + 64 < 2 ^ c.ptrBits
    omega

/-- `[Zero, Three]` below `[Three, One, Two]`, which is at (6, 5). -/
example : ∃ v vd, exS2.toGridIndex x64 .XY = .ok v ∧
    (⟨⟨0xD8C0#16, 5⟩⟩ : MortonIndex2D (StaticStorage2D 16)).toGridIndex x64 .XY = .ok vd ∧
    vd.x.toNat = v.x.toNat * 2 ^ 2 + 1 ∧ vd.y.toNat = v.y.toNat * 2 ^ 2 + 1 :=
  (C72_descendant_grid_2D x64_supported).1 16 exS2 (exS2_reach _) [.Zero, .Three] ⟨⟨0xD8C0#16, 5⟩⟩ (by decide)
    (by decide +kernel) .XY

end MortonRs
