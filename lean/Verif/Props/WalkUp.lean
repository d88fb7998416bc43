import Verif.Props.Sorted
import Verif.Props.Examples

/-! # Walking up the tree with `parent` (C112)

`std::iter::successors(Some(m), |m| m.parent())` is the usual way to visit a node and everything above it. The walk ends,
visits exactly the nodes whose subtree holds the start, and the first visited node whose subtree holds another node is the
lowest common ancestor of the two; through it leads the shortest way from one to the other. -/

namespace MortonRs

open MortonIndex VariableDepthMortonIndex

variable {M Cell : Type}

/-! ## Statement -/

/-- Client code: `successors(Some(m), |m| m.parent()).take(n).collect()`. Like `Successors::next`, every item asks for its
parent before it is handed out. -/
def takeUp [VariableDepthMortonIndex M Cell] (c : Cfg) : Nat → M → Res (List M)
  | 0, _ => .ok []
  | n + 1, m => do
    match ← parent c m with
    | none => .ok [m]
    | some q => .ok (m :: (← takeUp c n q))

/-- `b` is reached from `a` by `n` moves, each to the parent or to a node whose parent compares as Equal. -/
inductive Moves [VariableDepthMortonIndex M Cell] [RustOrd M] (c : Cfg) (ok : M → Prop) : Nat → M → M → Prop
  | done {a b : M} : RustOrd.cmp c a b = .ok .eq → Moves c ok 0 a b
  | up {n : Nat} {a q b : M} : parent c a = .ok (some q) → Moves c ok n q b → Moves c ok (n + 1) a b
  | down {n : Nat} {a k q b : M} : ok k → parent c k = .ok (some q) → RustOrd.cmp c q a = .ok .eq → Moves c ok n k b →
      Moves c ok (n + 1) a b

/-- C112. -/
def WalksUp [VariableDepthMortonIndex M Cell] [RustOrd M] (c : Cfg) (ok : M → Prop) : Prop :=
  -- The walk has one node per level, ends with the root, and the i-th node is the start cut by `i` levels.
  (∀ m, ok m → ∀ n, ∃ xs, takeUp c n m = .ok xs ∧ xs.length = min n (depth m + 1) ∧
    ∀ i (hi : i < xs.length), IsPrefix c m xs[i] (depth m - i) ∧
      ∃ y, withDepth c m (depth m - i) = .ok (some y) ∧ RustOrd.cmp c xs[i] y = .ok .eq) ∧
  -- It visits exactly the nodes that hold the start, in strictly descending order.
  (∀ m, ok m → ∀ n, depth m < n → ∀ xs, takeUp c n m = .ok xs →
    (∀ x, ok x → (InSubtree c x m ↔ ∃ y ∈ xs, RustOrd.cmp c x y = .ok .eq)) ∧
    xs.Pairwise fun x y => RustOrd.lt c y x = .ok true) ∧
  -- The first visited node that holds `b` is the lowest common ancestor, and the shortest way from `a` to `b` is up to it
  -- and down again.
  (∀ a b, ok a → ok b → ∀ n, depth a < n → ∀ xs, takeUp c n a = .ok xs →
    ∃ i, ∃ hi : i < xs.length, InSubtree c xs[i] b ∧ (∀ j (hj : j < i), ¬ InSubtree c xs[j] b) ∧
      (∀ w, ok w → InSubtree c w a → InSubtree c w b → InSubtree c w xs[i]) ∧
      Moves c ok (i + (depth b - depth xs[i])) a b ∧
      ∀ k, Moves c ok k a b → i + (depth b - depth xs[i]) ≤ k)

/-! ## Proof -/

theorem exists_longest_common_prefix (as bs : List Cell) :
    ∃ z, z <+: as ∧ z <+: bs ∧ ∀ w, w <+: as → w <+: bs → w <+: z := by
  induction as generalizing bs with
  | nil => exact ⟨[], List.nil_prefix, List.nil_prefix, fun w hw _ => hw⟩
  | cons a as ih =>
    cases bs with
    | nil => exact ⟨[], List.nil_prefix, List.nil_prefix, fun w _ hw => hw⟩
    | cons b bs =>
      by_cases hab : a = b
      · subst hab
        obtain ⟨z, h1, h2, h3⟩ := ih bs
        refine ⟨a :: z, List.cons_prefix_cons.mpr ⟨rfl, h1⟩, List.cons_prefix_cons.mpr ⟨rfl, h2⟩, fun w hw1 hw2 => ?_⟩
        cases w with
        | nil => exact List.nil_prefix
        | cons x w =>
          rw [List.cons_prefix_cons] at hw1 hw2 ⊢
          exact ⟨hw1.1, h3 w hw1.2 hw2.2⟩
      · refine ⟨[], List.nil_prefix, List.nil_prefix, fun w hw1 hw2 => ?_⟩
        cases w with
        | nil => exact List.nil_prefix
        | cons x w =>
          rw [List.cons_prefix_cons] at hw1 hw2
          exact absurd (hw1.1.symm.trans hw2.1) hab

section

variable [VariableDepthMortonIndex M Cell] {c : Cfg} {ok : M → Prop} {p : M → List Cell}
  {wr : Cell → Cell} {key : Cell → Nat}

theorem AncLike.parent_none (hA : AncLike c ok p) {m : M} (hm : ok m) (h0 : (p m).length = 0) :
    parent c m = .ok none := by
  rw [parent_eq]
  exact hA.no m hm _ (by change 1 > _; omega)

theorem AncLike.parent_some (hA : AncLike c ok p) {m : M} (hm : ok m) (h0 : 0 < (p m).length) :
    ∃ q, parent c m = .ok (some q) ∧ ok q ∧ p q = (p m).take ((p m).length - 1) := by
  rw [parent_eq]
  exact hA.yes m hm ⟨1, by decide⟩ h0

theorem AncLike.parent_inv (hA : AncLike c ok p) {m q : M} (hm : ok m) (h : parent c m = .ok (some q)) :
    0 < (p m).length ∧ ok q ∧ p q = (p m).take ((p m).length - 1) := by
  rcases Nat.eq_zero_or_pos (p m).length with h0 | h0
  · rw [hA.parent_none hm h0] at h
    simp at h
  · obtain ⟨q', e, h2, h3⟩ := hA.parent_some hm h0
    rw [e] at h
    simp only [Except.ok.injEq, Option.some.injEq] at h
    subst h
    exact ⟨h0, h2, h3⟩

theorem takeUp_paths (hA : AncLike c ok p) (n : Nat) : ∀ m, ok m → ∃ xs, takeUp c n m = .ok xs ∧
    xs.length = min n ((p m).length + 1) ∧
    ∀ i (hi : i < xs.length), ok xs[i] ∧ p xs[i] = (p m).take ((p m).length - i) := by
  induction n with
  | zero => exact fun m _ => ⟨[], rfl, by simp, fun i hi => absurd hi (by simp)⟩
  | succ n ih =>
    intro m hm
    rcases Nat.eq_zero_or_pos (p m).length with h0 | h0
    · refine ⟨[m], ?_, ?_, ?_⟩
      · rw [takeUp, hA.parent_none hm h0]; rfl
      · rw [h0]; simp
      · intro i hi
        have : i = 0 := by simpa using hi
        subst this
        exact ⟨hm, by simp⟩
    · obtain ⟨q, e, hq, hp⟩ := hA.parent_some hm h0
      obtain ⟨xs, e1, e2, e3⟩ := ih q hq
      have hl : (p q).length = (p m).length - 1 := by rw [hp, List.length_take]; omega
      refine ⟨m :: xs, ?_, ?_, ?_⟩
      · rw [takeUp, e]
        change (takeUp c n q >>= fun r => .ok (m :: r)) = _
        rw [e1]; rfl
      · rw [List.length_cons, e2, hl]; omega
      · intro i hi
        cases i with
        | zero => exact ⟨hm, by simp⟩
        | succ i =>
          have := e3 i (by simpa using hi)
          refine ⟨this.1, ?_⟩
          rw [List.getElem_cons_succ, this.2, hl, hp, List.take_take]
          congr 1
          omega

variable [RustOrd M]

omit [VariableDepthMortonIndex M Cell] in
theorem CmpLike.cmp_eq_iff (hk : Function.Injective key) (hC : CmpLike c key ok p) {a b : M} (ha : ok a) (hb : ok b) :
    RustOrd.cmp c a b = .ok .eq ↔ p a = p b := by
  rw [(hC a b ha hb).1, ← pathCmp_eq_iff key hk]
  exact ⟨fun e => Except.ok.inj e, fun e => congrArg _ e⟩

theorem Moves.congr_left (hk : Function.Injective key) (hA : AncLike c ok p) (hC : CmpLike c key ok p) {n : Nat} {a a' b : M}
    (ha : ok a) (ha' : ok a') (hb : ok b) (e : p a = p a') (h : Moves c ok n a b) : Moves c ok n a' b := by
  induction h generalizing a' with
  | done h =>
    rw [hC.cmp_eq_iff hk ha hb] at h
    exact .done ((hC.cmp_eq_iff hk ha' hb).mpr (e.symm.trans h))
  | up h1 h2 ih =>
    obtain ⟨g1, g2, g3⟩ := hA.parent_inv ha h1
    obtain ⟨q', f1, f2, f3⟩ := hA.parent_some ha' (by rw [← e]; exact g1)
    exact .up f1 (ih g2 f2 hb (by rw [g3, f3, e]))
  | down hok h1 h2 h3 _ =>
    obtain ⟨-, g2, g3⟩ := hA.parent_inv hok h1
    rw [hC.cmp_eq_iff hk g2 ha] at h2
    exact .down hok h1 ((hC.cmp_eq_iff hk g2 ha').mpr (h2.trans e)) h3

/-- Down from an ancestor. -/
theorem moves_down (hk : Function.Injective key) (h : ListLike c ok p wr) (hA : AncLike c ok p) (hC : CmpLike c key ok p)
    {b : M} (hb : ok b) (k : Nat) : k ≤ (p b).length → ∀ z, ok z → p z = (p b).take ((p b).length - k) →
      Moves c ok k z b := by
  induction k with
  | zero =>
    intro _ z hz e
    exact .done ((hC.cmp_eq_iff hk hz hb).mpr (by rw [e]; simp))
  | succ k ih =>
    intro hkb z hz e
    obtain ⟨y, -, y2, y3⟩ := hA.withDepth_take h hb (d := (p b).length - k) (by omega)
    have hl : (p y).length = (p b).length - k := by rw [y3, List.length_take]; omega
    obtain ⟨q, q1, q2, q3⟩ := hA.parent_some y2 (by omega)
    refine .down y2 q1 ((hC.cmp_eq_iff hk q2 hz).mpr ?_) (ih (by omega) y y2 y3)
    rw [q3, e, hl, y3, List.take_take]
    congr 1
    omega

/-- Up to an ancestor and on from there. -/
theorem moves_up (hk : Function.Injective key) (hA : AncLike c ok p) (hC : CmpLike c key ok p)
    {b z : M} (hb : ok b) (hz : ok z) {n : Nat} (hn : Moves c ok n z b) (k : Nat) : ∀ a, ok a → k ≤ (p a).length →
      p z = (p a).take ((p a).length - k) → Moves c ok (k + n) a b := by
  induction k with
  | zero =>
    intro a ha _ e
    rw [Nat.zero_add]
    exact hn.congr_left hk hA hC hz ha hb (by rw [e]; simp)
  | succ k ih =>
    intro a ha hka e
    obtain ⟨q, q1, q2, q3⟩ := hA.parent_some ha (by omega)
    have hl : (p q).length = (p a).length - 1 := by rw [q3, List.length_take]; omega
    rw [show k + 1 + n = (k + n) + 1 by omega]
    refine .up q1 (ih q q2 (by omega) ?_)
    rw [e, hl, q3, List.take_take]
    congr 1
    omega

/-- Every way has a highest node above both ends. -/
theorem moves_common (hk : Function.Injective key) (hA : AncLike c ok p) (hC : CmpLike c key ok p)
    {a b : M} (ha : ok a) (hb : ok b) {n : Nat} (h : Moves c ok n a b) :
    ∃ z, z <+: p a ∧ z <+: p b ∧ ((p a).length - z.length) + ((p b).length - z.length) ≤ n := by
  induction h with
  | done h =>
    rw [hC.cmp_eq_iff hk ha hb] at h
    exact ⟨p _, List.prefix_rfl, by rw [h]; exact List.prefix_rfl, by rw [h]; omega⟩
  | up h1 h2 ih =>
    obtain ⟨g1, g2, g3⟩ := hA.parent_inv ha h1
    obtain ⟨z, z1, z2, z3⟩ := ih g2 hb
    refine ⟨z, z1.trans (by rw [g3]; exact List.take_prefix _ _), z2, ?_⟩
    have := congrArg List.length g3
    rw [List.length_take] at this
    omega
  | down hok h1 h2 h3 ih =>
    obtain ⟨g1, g2, g3⟩ := hA.parent_inv hok h1
    rw [hC.cmp_eq_iff hk g2 ha] at h2
    obtain ⟨z, z1, z2, z3⟩ := ih hok hb
    have hl := congrArg List.length g3
    rw [List.length_take, h2] at hl
    rw [h2] at g3
    have zl := z1.length_le
    rcases Nat.lt_or_eq_of_le zl with hlt | heq
    · refine ⟨z, ?_, z2, by omega⟩
      rw [g3, List.prefix_take_iff]
      exact ⟨z1, by omega⟩
    · refine ⟨p _, List.prefix_rfl, ?_, ?_⟩
      · have : z = p _ := z1.eq_of_length heq
        rw [g3]
        exact (List.take_prefix _ _).trans (this ▸ z2)
      · omega

theorem walksUp_of (hk : Function.Injective key) (h : ListLike c ok p wr) (hA : AncLike c ok p) (hC : CmpLike c key ok p) :
    WalksUp c ok := by
  refine ⟨fun m hm n => ?_, fun m hm n hn xs hxs => ?_, fun a b ha hb n hn xs hxs => ?_⟩
  · obtain ⟨xs, e1, e2, e3⟩ := takeUp_paths hA n m hm
    rw [h.depth_eq m hm]
    refine ⟨xs, e1, e2, fun i hi => ⟨isPrefix_of_take h hm (e3 i hi).1 (by omega) (e3 i hi).2, ?_⟩⟩
    obtain ⟨y, y1, y2, y3⟩ := hA.withDepth_take h hm (d := (p m).length - i) (by omega)
    exact ⟨y, y1, (hC.cmp_eq_iff hk (e3 i hi).1 y2).mpr ((e3 i hi).2.trans y3.symm)⟩
  · obtain ⟨xs', e1, e2, e3⟩ := takeUp_paths hA n m hm
    rw [e1, Except.ok.injEq] at hxs
    subst hxs
    rw [h.depth_eq m hm] at hn
    refine ⟨fun x hx => ?_, ?_⟩
    · rw [inSubtree_iff hk h hA hC hx hm]
      constructor
      · intro hp
        have hi : (p m).length - (p x).length < xs'.length := by omega
        refine ⟨xs'[_]'hi, List.getElem_mem _, (hC.cmp_eq_iff hk hx (e3 _ hi).1).mpr ?_⟩
        have hl := hp.length_le
        rw [(e3 _ hi).2, show (p m).length - ((p m).length - (p x).length) = (p x).length by omega]
        exact List.prefix_iff_eq_take.mp hp
      · rintro ⟨y, hy, e⟩
        obtain ⟨i, hi, rfl⟩ := List.mem_iff_getElem.mp hy
        rw [hC.cmp_eq_iff hk hx (e3 i hi).1] at e
        rw [e, (e3 i hi).2]
        exact List.take_prefix _ _
    · rw [List.pairwise_iff_getElem]
      intro i j hi hj hij
      rw [lt_iff_path hC (e3 j hj).1 (e3 i hi).1]
      have hle : pathCmp key (p xs'[j]) (p xs'[i]) ≠ .gt := pathCmp_prefix (by
        rw [(e3 j hj).2, (e3 i hi).2, List.prefix_take_iff]
        exact ⟨List.take_prefix _ _, by rw [List.length_take]; omega⟩)
      cases e : pathCmp key (p xs'[j]) (p xs'[i]) with
      | lt => rfl
      | gt => exact absurd e hle
      | eq =>
        rw [pathCmp_eq_iff key hk] at e
        have := congrArg List.length e
        rw [(e3 j hj).2, (e3 i hi).2, List.length_take, List.length_take] at this
        omega
  · obtain ⟨xs', e1, e2, e3⟩ := takeUp_paths hA n a ha
    rw [e1, Except.ok.injEq] at hxs
    subst hxs
    rw [h.depth_eq a ha] at hn
    obtain ⟨z, z1, z2, z3⟩ := exists_longest_common_prefix (p a) (p b)
    have zl := z1.length_le
    have zl' := z2.length_le
    have hi : (p a).length - z.length < xs'.length := by omega
    have hz : p (xs'[(p a).length - z.length]'hi) = z := by
      rw [(e3 _ hi).2, show (p a).length - ((p a).length - z.length) = z.length by omega]
      exact (List.prefix_iff_eq_take.mp z1).symm
    refine ⟨_, hi, ?_, fun j hj => ?_, fun w hw h1 h2 => ?_, ?_, fun k hkm => ?_⟩
    · rw [inSubtree_iff hk h hA hC (e3 _ hi).1 hb, hz]; exact z2
    · rw [inSubtree_iff hk h hA hC (e3 j (by omega)).1 hb, (e3 j (by omega)).2]
      intro hp
      have := (z3 _ (List.take_prefix _ _) hp).length_le
      rw [List.length_take] at this
      omega
    · rw [inSubtree_iff hk h hA hC hw ha] at h1
      rw [inSubtree_iff hk h hA hC hw hb] at h2
      rw [inSubtree_iff hk h hA hC hw (e3 _ hi).1, hz]
      exact z3 _ h1 h2
    · rw [h.depth_eq b hb, h.depth_eq _ (e3 _ hi).1, hz]
      refine moves_up hk hA hC hb (e3 _ hi).1 (moves_down hk h hA hC hb _ (by omega) _ (e3 _ hi).1 ?_) _ a ha (by omega) (e3 _ hi).2
      rw [hz, show (p b).length - ((p b).length - z.length) = z.length by omega]
      exact List.prefix_iff_eq_take.mp z2
    · rw [h.depth_eq b hb, h.depth_eq _ (e3 _ hi).1, hz]
      obtain ⟨w, w1, w2, w3⟩ := moves_common hk hA hC ha hb hkm
      have := (z3 w w1 w2).length_le
      omega

end

/-! ## C112 -/

theorem C112_walk_up_2D {c : Cfg} (hc : c.Supported) :
    (∀ w, WalksUp c (fun m : MortonIndex2D (StaticStorage2D w) => Reach2D c .all (.static w m))) ∧
    WalksUp c (fun m : MortonIndex2D DynamicStorage2D => Reach2D c .all (.dynamic m)) :=
  ⟨fun _ => walksUp_of quadrantKey_inj (static_list2 hc) (static_anc2 hc) (static_cmp2 hc),
    walksUp_of quadrantKey_inj (dynamic_list2' hc) (dynamic_anc2 hc) (dynamic_cmp2 hc)⟩

theorem C112_walk_up_3D {c : Cfg} (hc : c.Supported) :
    (∀ w, WalksUp c (fun m : MortonIndex3D (StaticStorage3D w) => Reach3D c .all (.static w m))) ∧
    WalksUp c (fun m : MortonIndex3D DynamicStorage3D => Reach3D c .all (.dynamic m)) :=
  ⟨fun _ => walksUp_of octantKey_inj (static_list3 hc) (static_anc3 hc) (static_cmp3 hc),
    walksUp_of octantKey_inj (dynamic_list3' hc) (dynamic_anc3 hc) (dynamic_cmp3 hc)⟩

/-- The walk from `[Three, Two]`. -/
example : takeUp x64 5 (⟨⟨0xE000#16, 2⟩⟩ : MortonIndex2D (StaticStorage2D 16)) =
    .ok [⟨⟨0xE000#16, 2⟩⟩, ⟨⟨0xC000#16, 1⟩⟩, ⟨⟨0#16, 0⟩⟩] := by decide +kernel

/-- Up from `[Three, Two]` to `[Three]` and down to `[Three, One, Two]`: three moves are the fewest. -/
example : (∀ k, Moves x64 (fun m : MortonIndex2D (StaticStorage2D 16) => Reach2D x64 .all (.static 16 m)) k
    ⟨⟨0xE000#16, 2⟩⟩ ⟨⟨0xD800#16, 3⟩⟩ → 3 ≤ k) ∧
    Moves x64 (fun m : MortonIndex2D (StaticStorage2D 16) => Reach2D x64 .all (.static 16 m)) 3
    ⟨⟨0xE000#16, 2⟩⟩ ⟨⟨0xD800#16, 3⟩⟩ := by
  have h1 : Reach2D x64 .all (.static 16 ⟨⟨0xE000#16, 2⟩⟩) :=
    .staticTryFromSlice (cs := [.Three, .Two]) (by decide) (by rfl)
  have h2 : Reach2D x64 .all (.static 16 ⟨⟨0xD800#16, 3⟩⟩) :=
    .staticTryFromSlice (cs := [.Three, .One, .Two]) (by decide) (by rfl)
  obtain ⟨i, hi, g1, g2, g3, g4, g5⟩ := ((C112_walk_up_2D x64_supported).1 16).2.2 _ _ h1 h2 5 (by decide)
    [⟨⟨0xE000#16, 2⟩⟩, ⟨⟨0xC000#16, 1⟩⟩, ⟨⟨0#16, 0⟩⟩] (by decide +kernel)
  have no0 : ¬ InSubtree x64 (⟨⟨0xE000#16, 2⟩⟩ : MortonIndex2D (StaticStorage2D 16)) ⟨⟨0xD800#16, 3⟩⟩ := by
    rintro ⟨z, z1, z2⟩
    have : withDepth x64 (⟨⟨0xD800#16, 3⟩⟩ : MortonIndex2D (StaticStorage2D 16)) 2 = .ok (some ⟨⟨0xD000#16, 2⟩⟩) := by
      decide +kernel
    change withDepth x64 _ 2 = _ at z1
    rw [this] at z1
    simp only [Except.ok.injEq, Option.some.injEq] at z1
    subst z1
    revert z2
    decide +kernel
  have yes1 : InSubtree x64 (⟨⟨0xC000#16, 1⟩⟩ : MortonIndex2D (StaticStorage2D 16)) ⟨⟨0xD800#16, 3⟩⟩ :=
    ⟨⟨⟨0xC000#16, 1⟩⟩, by decide +kernel, by decide +kernel⟩
  match i, hi with
  | 0, _ => exact absurd g1 no0
  | 1, _ => exact ⟨g5, g4⟩
  | 2, _ => exact absurd yes1 (g2 1 (by decide))

/-- The walk from the dynamic `[Five, One, Six]` has four nodes. -/
example : ∃ xs, takeUp x64 10 exD3 = .ok xs ∧ xs.length = 4 := by
  obtain ⟨xs, h1, h2, -⟩ := (C112_walk_up_3D x64_supported).2.1 exD3 (exD3_reach _) 10
  exact ⟨xs, h1, h2⟩

end MortonRs
