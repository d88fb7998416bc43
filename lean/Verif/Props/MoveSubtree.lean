import Verif.Props.Sorted
import Verif.Props.Examples
import Verif.Lemmas.Strings

/-! # Moving subtrees (C113)

A node is moved from below one node to below another by appending its remaining cells with `descendant`. -/

namespace MortonRs

open MortonIndex VariableDepthMortonIndex

variable {M Cell : Type}

/-! ## Statement -/

/-- Client code: `(d..m.depth()).map(|l| m.get_cell_at_level(l)).collect::<Vec<_>>()`. -/
def cellsFrom [MortonIndex M Cell] (c : Cfg) (m : M) (d : Nat) : Res (List Cell) :=
  (List.range' d (depth m - d)).mapM fun l => getCellAtLevel c m l

/-- Client code: the node `m` without its first `d` cells, below `root`:
`root.descendant(&cells_from(m, d))`. -/
def graft [VariableDepthMortonIndex M Cell] (c : Cfg) (m : M) (d : Nat) (root : M) : Res (Option M) := do
  descendant c root (← cellsFrom c m d)

/-- C113. `room root n`: `n` more cells below `root` are within what memory can hold. `limit` is the capacity of the type. -/
def MovesSubtrees [VariableDepthMortonIndex M Cell] [RustOrd M] (c : Cfg) (ok : M → Prop) (room : M → Nat → Prop)
    (limit : Option Nat) : Prop :=
  -- What the call returns.
  (∀ m root, ok m → ok root → ∀ d, d ≤ depth m → room root (depth m - d) →
    (Exceeds limit (depth root + (depth m - d)) → graft c m d root = .ok none) ∧
    (¬ Exceeds limit (depth root + (depth m - d)) → ∃ g, graft c m d root = .ok (some g) ∧
      depth g = depth root + (depth m - d) ∧ InSubtree c root g ∧
      (∀ k, k < depth m - d → getCellAtLevel c g (depth root + k) = getCellAtLevel c m (d + k)) ∧
      -- Moving it back leads to the place it came from.
      ∃ q m', withDepth c m d = .ok (some q) ∧ graft c g (depth root) q = .ok (some m') ∧ RustOrd.cmp c m' m = .ok .eq)) ∧
  -- All nodes of a subtree moved in this way keep their order and stay above and below each other.
  (∀ a b s root x y, ok a → ok b → ok s → ok root → InSubtree c s a → InSubtree c s b →
    room root (depth a - depth s) → room root (depth b - depth s) →
    graft c a (depth s) root = .ok (some x) → graft c b (depth s) root = .ok (some y) →
    RustOrd.cmp c x y = RustOrd.cmp c a b ∧ (InSubtree c x y ↔ InSubtree c a b)) ∧
  -- Every node of the new place that is not too deep for the old one comes from there.
  (∀ s root y, ok s → ok root → ok y → InSubtree c root y → room s (depth y - depth root) →
    ¬ Exceeds limit (depth s + (depth y - depth root)) →
    ∃ a x, ok a ∧ InSubtree c s a ∧ graft c a (depth s) root = .ok (some x) ∧ RustOrd.cmp c x y = .ok .eq)

/-! ## Proof -/

section

theorem cellsFrom_ok [MortonIndex M Cell] {c : Cfg} {ok : M → Prop} {p : M → List Cell} {wr : Cell → Cell}
    (h : ListLike c ok p wr) {m : M} (hm : ok m) (d : Nat) : cellsFrom c m d = .ok ((p m).drop d) := by
  unfold cellsFrom
  rw [h.depth_eq m hm]
  by_cases hd : d < (p m).length
  · rw [mapM_range'_ok (g := fun l => (p m).getD l (p m)[d]) _ _ (fun l h1 h2 => by
      rw [h.get m hm l (by omega), List.getD_eq_getElem?_getD, List.getElem?_eq_getElem (by omega), Option.getD_some])]
    congr 1
    refine List.ext_getElem (by simp) fun i h1 h2 => ?_
    have : d + i < (p m).length := by simp at h1; omega
    simp [this]
  · rw [List.drop_of_length_le (by omega), show (p m).length - d = 0 by omega]
    rfl

theorem pathCmp_append_left {key : Cell → Nat} (zs as bs : List Cell) :
    pathCmp key (zs ++ as) (zs ++ bs) = pathCmp key as bs := by
  induction zs with
  | nil => rfl
  | cons z zs ih => simp only [List.cons_append, pathCmp, Nat.lt_irrefl, if_false]; exact ih

variable [VariableDepthMortonIndex M Cell] [RustOrd M] {c : Cfg} {ok : M → Prop} {p : M → List Cell}
  {key : Cell → Nat} {room room' : M → Nat → Prop} {limit : Option Nat}

omit [RustOrd M] in
theorem graft_eq (h : ListLike c ok p id) {m : M} (hm : ok m) (d : Nat) (root : M) :
    graft c m d root = descendant c root ((p m).drop d) := by
  unfold graft
  rw [cellsFrom_ok h hm]
  rfl

omit [RustOrd M] in
theorem graft_some (h : ListLike c ok p id) (hD : DescLike c ok p room limit) {m root x : M} (hm : ok m) (hr : ok root) {d : Nat}
    (hroom : room root ((p m).length - d)) (e : graft c m d root = .ok (some x)) : ok x ∧ p x = p root ++ (p m).drop d := by
  rw [graft_eq h hm] at e
  have hl : ((p m).drop d).length = (p m).length - d := List.length_drop
  by_cases he : Exceeds limit ((p root).length + ((p m).drop d).length)
  · rw [hD.no root hr _ (by rw [hl]; exact hroom) he] at e
    simp at e
  · obtain ⟨g, g1, g2, g3⟩ := hD.yes root hr _ (by rw [hl]; exact hroom) he
    rw [e] at g1
    simp only [Except.ok.injEq, Option.some.injEq] at g1
    subst g1
    exact ⟨g2, g3⟩

theorem movesSubtrees_of (hk : Function.Injective key) (h : ListLike c ok p id) (hA : AncLike c ok p)
    (hD : DescLike c ok p room limit) (hC : CmpLike c key ok p)
    (hlim : ∀ m, ok m → ¬ Exceeds limit (p m).length)
    (hroom : ∀ m root, ok m → ok root → ∀ k, k ≤ (p m).length → room' root k → room root k)
    (hback : ∀ m q, ok m → ok q → ∀ k, (p q).length + k = (p m).length → room q k) :
    MovesSubtrees c ok room' limit := by
  have cmpEq : ∀ a b, ok a → ok b → (RustOrd.cmp c a b = .ok .eq ↔ p a = p b) := fun a b ha hb => by
    rw [(hC a b ha hb).1, ← pathCmp_eq_iff key hk]
    exact ⟨fun e => Except.ok.inj e, fun e => congrArg _ e⟩
  refine ⟨fun m root hm hr d hd hro => ?_, fun a b s root x y ha hb hs hr hsa hsb ra rb ex ey => ?_,
    fun s root y hs hr hy hry hro hlm => ?_⟩
  · rw [h.depth_eq m hm] at hd hro ⊢
    rw [h.depth_eq root hr]
    have hl : ((p m).drop d).length = (p m).length - d := List.length_drop
    have hro' : room root ((p m).drop d).length := by rw [hl]; exact hroom m root hm hr _ (by omega) hro
    refine ⟨fun he => ?_, fun he => ?_⟩
    · rw [graft_eq h hm]
      exact hD.no root hr _ hro' (by rw [hl]; exact he)
    · obtain ⟨g, g1, g2, g3⟩ := hD.yes root hr _ hro' (by rw [hl]; exact he)
      have gl : (p g).length = (p root).length + ((p m).length - d) := by rw [g3, List.length_append, hl]
      refine ⟨g, by rw [graft_eq h hm]; exact g1, by rw [h.depth_eq g g2]; exact gl,
        (inSubtree_iff hk h hA hC hr g2).mpr (by rw [g3]; exact List.prefix_append _ _), fun k hk' => ?_, ?_⟩
      · rw [h.get g g2 _ (by omega), h.get m hm _ (by omega)]
        simp only [g3]
        rw [List.getElem_append_right (by omega)]
        simp
      · obtain ⟨q, q1, q2, q3⟩ := hA.withDepth_take h hm hd
        have ql : (p q).length = d := by rw [q3, List.length_take]; omega
        have e1 : (p g).drop (p root).length = (p m).drop d := by rw [g3, List.drop_left]
        obtain ⟨m', m1, m2, m3⟩ := hD.yes q q2 ((p m).drop d)
          (by rw [hl]; exact hback m q hm q2 _ (by omega)) (by
            rw [ql, hl, show d + ((p m).length - d) = (p m).length by omega]; exact hlim m hm)
        refine ⟨q, m', q1, by rw [graft_eq h g2, e1]; exact m1, (cmpEq _ _ m2 hm).mpr ?_⟩
        rw [m3, q3, List.take_append_drop]
  · rw [inSubtree_iff hk h hA hC hs ha] at hsa
    rw [inSubtree_iff hk h hA hC hs hb] at hsb
    rw [h.depth_eq s hs, h.depth_eq a ha] at ra
    rw [h.depth_eq s hs, h.depth_eq b hb] at rb
    rw [h.depth_eq s hs] at ex ey
    obtain ⟨x1, x2⟩ := graft_some h hD ha hr (hroom a root ha hr _ (by omega) ra) ex
    obtain ⟨y1, y2⟩ := graft_some h hD hb hr (hroom b root hb hr _ (by omega) rb) ey
    obtain ⟨as, has⟩ := hsa
    obtain ⟨bs, hbs⟩ := hsb
    rw [← has, List.drop_left] at x2
    rw [← hbs, List.drop_left] at y2
    refine ⟨?_, ?_⟩
    · rw [(hC x y x1 y1).1, (hC a b ha hb).1, x2, y2, ← has, ← hbs, pathCmp_append_left, pathCmp_append_left]
    · rw [inSubtree_iff hk h hA hC x1 y1, inSubtree_iff hk h hA hC ha hb, x2, y2, ← has, ← hbs,
        List.prefix_append_right_inj, List.prefix_append_right_inj]
  · rw [inSubtree_iff hk h hA hC hr hy] at hry
    rw [h.depth_eq root hr, h.depth_eq y hy] at hro hlm
    rw [h.depth_eq s hs] at hlm ⊢
    obtain ⟨ys, hys⟩ := hry
    have hl : ys.length = (p y).length - (p root).length := by rw [← hys, List.length_append]; omega
    rw [← hl] at hro hlm
    obtain ⟨a, a1, a2, a3⟩ := hD.yes s hs ys (hroom y s hy hs _ (by rw [← hys, List.length_append]; omega) hro) hlm
    obtain ⟨x, x1, x2, x3⟩ := hD.yes root hr ys (hback y root hy hr _ (by rw [← hys, List.length_append])) (by
      rw [← List.length_append, hys]; exact hlim y hy)
    refine ⟨a, x, a2, (inSubtree_iff hk h hA hC hs a2).mpr (by rw [a3]; exact List.prefix_append _ _), ?_,
      (cmpEq _ _ x2 hy).mpr (x3.trans hys)⟩
    rw [graft_eq h a2, a3, List.drop_left]
    exact x1

end

/-! ## C113 -/

theorem Addressable.mono {c : Cfg} {a b : Nat} (h : Addressable c b) (hab : a ≤ b) : Addressable c a := by
  unfold Addressable at *
  omega

theorem lt_isize_of_lt {c : Cfg} (hc : c.Supported) {k : Nat} (h : k ≤ 64) : k < 2 ^ (c.ptrBits - 1) := by
  rcases hc with h' | h' | h' <;> rw [h'] <;> exact Nat.lt_of_le_of_lt h (by decide)

theorem C113_move_subtree_2D {c : Cfg} (hc : c.Supported) :
    (∀ w, IntWidth w → MovesSubtrees c (fun m : MortonIndex2D (StaticStorage2D w) => Reach2D c .all (.static w m))
      (fun _ _ => True) (some (w / 2))) ∧
    (DynWrites c → MovesSubtrees c (fun m : MortonIndex2D DynamicStorage2D => Reach2D c .all (.dynamic m))
      (fun root n => Addressable c ((depth root + n) * 2)) none) := by
  refine ⟨fun w hw => ?_, fun hw => ?_⟩
  · have hle : w / 2 ≤ 64 := by rcases hw with h | h | h | h | h <;> subst h <;> decide
    refine movesSubtrees_of quadrantKey_inj (static_list2 hc) (static_anc2 hc) (static_desc2 hc) (static_cmp2 hc)
      (fun m hm => Nat.not_lt.mpr (static_depth_le2 hc m hm)) (fun m root hm _ k hk _ => ?_) (fun m q hm _ k hk => ?_)
    · exact lt_isize_of_lt hc (Nat.le_trans hk (Nat.le_trans (static_depth_le2 hc m hm) hle))
    · exact lt_isize_of_lt hc (by have := static_depth_le2 hc m hm; omega)
  · refine movesSubtrees_of quadrantKey_inj (dynamic_list2 hc hw) (dynamic_anc2 hc) (dynamic_desc2 hc hw) (dynamic_cmp2 hc)
      (fun _ _ h => h) (fun m root _ _ k _ h => h) (fun m q hm hq k hk => ?_)
    refine (dynamic_addr2 hc m hm).mono ?_
    rw [(dynamic_list2 hc hw).depth_eq q hq]
    omega

theorem C113_move_subtree_3D {c : Cfg} (hc : c.Supported) :
    (∀ w, IntWidth w → MovesSubtrees c (fun m : MortonIndex3D (StaticStorage3D w) => Reach3D c .all (.static w m))
      (fun _ _ => True) (some (w / 3))) ∧
    (DynWrites c → MovesSubtrees c (fun m : MortonIndex3D DynamicStorage3D => Reach3D c .all (.dynamic m))
      (fun root n => Addressable c ((depth root + n) * 3)) none) := by
  refine ⟨fun w hw => ?_, fun hw => ?_⟩
  · have hle : w / 3 ≤ 64 := by rcases hw with h | h | h | h | h <;> subst h <;> decide
    refine movesSubtrees_of octantKey_inj (static_list3 hc) (static_anc3 hc) (static_desc3 hc) (static_cmp3 hc)
      (fun m hm => Nat.not_lt.mpr (static_depth_le3 hc m hm)) (fun m root hm _ k hk _ => ?_) (fun m q hm _ k hk => ?_)
    · exact lt_isize_of_lt hc (Nat.le_trans hk (Nat.le_trans (static_depth_le3 hc m hm) hle))
    · exact lt_isize_of_lt hc (by have := static_depth_le3 hc m hm; omega)
  · refine movesSubtrees_of octantKey_inj (dynamic_list3 hc hw) (dynamic_anc3 hc) (dynamic_desc3 hc hw) (dynamic_cmp3 hc)
      (fun _ _ h => h) (fun m root _ _ k _ h => h) (fun m q hm hq k hk => ?_)
    refine (dynamic_addr3 hc m hm).mono ?_
    rw [(dynamic_list3 hc hw).depth_eq q hq]
    omega

/-- `[Three, One, Two]` without its first cell, below `[Zero, One]`, is `[Zero, One, One, Two]`. -/
example : graft x64 (⟨⟨0xD800#16, 3⟩⟩ : MortonIndex2D (StaticStorage2D 16)) 1 ⟨⟨0x1000#16, 2⟩⟩ =
    .ok (some ⟨⟨0x1600#16, 4⟩⟩) := by decide +kernel

example : ∃ g, graft x64 exS2 1 (⟨⟨0x1000#16, 2⟩⟩ : MortonIndex2D (StaticStorage2D 16)) = .ok (some g) ∧
    depth g = 4 ∧ InSubtree x64 (⟨⟨0x1000#16, 2⟩⟩ : MortonIndex2D (StaticStorage2D 16)) g := by
  have h1 : Reach2D x64 .all (.static 16 ⟨⟨0x1000#16, 2⟩⟩) :=
    .staticTryFromSlice (cs := [.Zero, .One]) (by decide) (by rfl)
  obtain ⟨g, g1, g2, g3, -⟩ := ((((C113_move_subtree_2D x64_supported).1 16 (by decide)).1 exS2 _ (exS2_reach _) h1 1
    (by decide) trivial).2 (by unfold Exceeds; decide))
  exact ⟨g, g1, g2, g3⟩

/-- A subtree that would become too deep is refused: three and three levels in 16 bits. -/
example : graft x64 (⟨⟨0xA700#16, 3⟩⟩ : MortonIndex3D (StaticStorage3D 16)) 0 ⟨⟨0xA700#16, 3⟩⟩ = .ok none := by
  have h1 : Reach3D x64 .all (.static 16 ⟨⟨0xA700#16, 3⟩⟩) :=
    .staticTryFromSlice (cs := [.Five, .One, .Six]) (by decide) (by rfl)
  exact (((C113_move_subtree_3D x64_supported).1 16 (by decide)).1 _ _ h1 h1 0 (by decide) trivial).1
    (by unfold Exceeds; decide)

/-- The dynamic index of `[Five, One, Six]` below itself. -/
example : ∃ g, graft x64 exD3 1 exD3 = .ok (some g) ∧ depth g = 5 := by
  obtain ⟨g, g1, g2, -⟩ := (((C113_move_subtree_3D x64_supported).2 x64_writes).1 exD3 exD3 (exD3_reach _) (exD3_reach _) 1
    (by decide) (by unfold Addressable; decide)).2 (by unfold Exceeds; exact id)
  exact ⟨g, g1, g2⟩

end MortonRs
