import Verif.Props.Sorted

/-! # Building a tree from its leaves (C94)

With the indices sorted, the nodes of a level above are obtained by cutting each index with `with_depth` and dropping
repetitions next to each other (`Vec::dedup_by`), without sorting again. -/

namespace MortonRs

open MortonIndex VariableDepthMortonIndex

variable {M Cell : Type}

/-! ## Statement -/

/-- Dropping every element that is the same as the last one kept, like `Vec::dedup_by`. -/
def dedupAdjacent (same : M → M → Bool) : List M → List M
  | [] => []
  | [x] => [x]
  | x :: y :: l => if same x y then dedupAdjacent same (x :: l) else x :: dedupAdjacent same (y :: l)
  termination_by l => l.length

/-- C94. Cutting to at most `d` levels keeps the order; nodes compare like their ancestors at a common depth if those
differ; subtrees do not interleave. A sorted list of nodes of depth `d` or more, cut to depth `d`, is sorted, and without its
adjacent repetitions it holds every node of depth `d` that has one of them below it exactly once, in strictly ascending order. -/
def BottomUp [VariableDepthMortonIndex M Cell] [RustOrd M] (c : Cfg) (ok : M → Prop) : Prop :=
  (∀ a b, ok a → ok b → ∀ d, ∃ x y, withDepth c a (min d (depth a)) = .ok (some x) ∧
    withDepth c b (min d (depth b)) = .ok (some y) ∧
    (RustOrd.le c a b = .ok true → RustOrd.le c x y = .ok true) ∧
    (RustOrd.lt c x y = .ok true → RustOrd.lt c a b = .ok true)) ∧
  (∀ a b, ok a → ok b → RustOrd.lt c a b = .ok true → ¬ InSubtree c a b →
    ∀ x y, ok x → ok y → InSubtree c a x → InSubtree c b y → RustOrd.lt c x y = .ok true) ∧
  (∀ (ms : List M) d, (∀ m ∈ ms, ok m ∧ d ≤ depth m) → Sorted c ms →
    ∃ xs : List M, xs.length = ms.length ∧
      (∀ i (h1 : i < ms.length) (h2 : i < xs.length), withDepth c ms[i] d = .ok (some xs[i])) ∧ Sorted c xs ∧
      ∀ same : M → M → Bool, (∀ a b, same a b = true ↔ RustOrd.cmp c a b = .ok .eq) →
        (dedupAdjacent same xs).Pairwise (fun a b => RustOrd.lt c a b = .ok true) ∧
        (∀ x ∈ dedupAdjacent same xs, ∃ m ∈ ms, withDepth c m d = .ok (some x)) ∧
        (∀ m ∈ ms, ∃ x ∈ dedupAdjacent same xs, ∃ y, withDepth c m d = .ok (some y) ∧ RustOrd.cmp c x y = .ok .eq))

/-! ## Proof -/

section lists

variable {key : Cell → Nat}

theorem pathCmp_take {xs ys : List Cell} (h : pathCmp key xs ys ≠ .gt) (d : Nat) :
    pathCmp key (xs.take d) (ys.take d) ≠ .gt := by
  induction xs generalizing ys d with
  | nil => cases ys.take d <;> simp [pathCmp]
  | cons x xs ih =>
    cases ys with
    | nil => simp [pathCmp] at h
    | cons y ys =>
      cases d with
      | zero => simp [pathCmp]
      | succ d =>
        simp only [List.take_succ_cons, pathCmp] at h ⊢
        split
        · simp
        · next h1 =>
          split
          · next h2 => simp [h1, h2] at h
          · next h2 => simp only [h1, h2, if_false] at h; exact ih h d

theorem pathCmp_lt_of_le (hk : Function.Injective key) {xs ys zs : List Cell} (h1 : pathCmp key xs ys = .lt)
    (h2 : pathCmp key ys zs ≠ .gt) : pathCmp key xs zs = .lt := by
  have h3 := pathCmp_trans key (xs := xs) (by rw [h1]; decide) h2
  cases h : pathCmp key xs zs with
  | lt => rfl
  | gt => exact absurd h h3
  | eq =>
    rw [pathCmp_eq_iff key hk] at h
    subst h
    rw [← pathCmp_swap key, h1] at h2
    exact absurd rfl h2

theorem mem_skip {x y z : M} {l : List M} (h : z ∈ x :: l) : z ∈ x :: y :: l := by
  rcases List.mem_cons.mp h with rfl | h
  · simp
  · simp [h]

theorem dedupAdjacent_subset (same : M → M → Bool) (l : List M) : ∀ x ∈ dedupAdjacent same l, x ∈ l := by
  induction l using dedupAdjacent.induct same with
  | case1 => simp [dedupAdjacent]
  | case2 x => simp [dedupAdjacent]
  | case3 x y l h ih =>
    intro z hz
    rw [dedupAdjacent, if_pos h] at hz
    exact mem_skip (ih z hz)
  | case4 x y l h ih =>
    intro z hz
    rw [dedupAdjacent, if_neg h] at hz
    rcases List.mem_cons.mp hz with rfl | hz
    · simp
    · exact List.mem_cons_of_mem _ (ih z hz)

theorem dedupAdjacent_covers {same : M → M → Bool} {p : M → List Cell} {l : List M}
    (hs : ∀ a ∈ l, ∀ b ∈ l, same a b = true ↔ p a = p b) : ∀ x ∈ l, ∃ y ∈ dedupAdjacent same l, p y = p x := by
  induction l using dedupAdjacent.induct same with
  | case1 => simp
  | case2 x => simp [dedupAdjacent]
  | case3 x y l h ih =>
    intro z hz
    rw [dedupAdjacent, if_pos h]
    have hxy := (hs x (by simp) y (by simp)).mp h
    have ih' := ih (fun a ha b hb => hs a (mem_skip ha) b (mem_skip hb))
    simp only [List.mem_cons] at hz
    rcases hz with rfl | rfl | hz
    · exact ih' z (by simp)
    · obtain ⟨w, h1, h2⟩ := ih' x (by simp)
      exact ⟨w, h1, h2.trans hxy⟩
    · exact ih' z (by simp [hz])
  | case4 x y l h ih =>
    intro z hz
    rw [dedupAdjacent, if_neg h]
    rcases List.mem_cons.mp hz with rfl | hz
    · exact ⟨z, by simp, rfl⟩
    · obtain ⟨w, h1, h2⟩ := ih (fun a ha b hb => hs a (List.mem_cons_of_mem _ ha) b (List.mem_cons_of_mem _ hb)) z hz
      exact ⟨w, List.mem_cons_of_mem _ h1, h2⟩

theorem dedupAdjacent_strict (hk : Function.Injective key) {same : M → M → Bool} {p : M → List Cell} {l : List M}
    (hs : ∀ a ∈ l, ∀ b ∈ l, same a b = true ↔ p a = p b) (hl : l.Pairwise fun a b => pathCmp key (p a) (p b) ≠ .gt) :
    (dedupAdjacent same l).Pairwise fun a b => pathCmp key (p a) (p b) = .lt := by
  induction l using dedupAdjacent.induct same with
  | case1 => simp [dedupAdjacent]
  | case2 x => simp [dedupAdjacent]
  | case3 x y l h ih =>
    rw [dedupAdjacent, if_pos h]
    refine ih (fun a ha b hb => hs a (mem_skip ha) b (mem_skip hb)) ?_
    rw [List.pairwise_cons] at hl ⊢
    exact ⟨fun a ha => hl.1 a (List.mem_cons_of_mem _ ha), (List.pairwise_cons.mp hl.2).2⟩
  | case4 x y l h ih =>
    rw [dedupAdjacent, if_neg h]
    rw [List.pairwise_cons] at hl
    refine List.pairwise_cons.mpr ⟨fun z hz => ?_, ih (fun a ha b hb => hs a (List.mem_cons_of_mem _ ha) b
      (List.mem_cons_of_mem _ hb)) hl.2⟩
    have hz' := dedupAdjacent_subset same _ z hz
    have hxy : pathCmp key (p x) (p y) = .lt := by
      have h1 := hl.1 y (by simp)
      cases e : pathCmp key (p x) (p y) with
      | lt => rfl
      | gt => exact absurd e h1
      | eq =>
        rw [pathCmp_eq_iff key hk] at e
        exact absurd ((hs x (by simp) y (by simp)).mpr e) h
    rcases List.mem_cons.mp hz' with rfl | hz'
    · exact hxy
    · exact pathCmp_lt_of_le hk hxy ((List.pairwise_cons.mp hl.2).1 z hz')

end lists

theorem bottomUp_of [VariableDepthMortonIndex M Cell] [RustOrd M] {c : Cfg} {ok : M → Prop} {p : M → List Cell}
    {wr : Cell → Cell} {key : Cell → Nat} (hk : Function.Injective key) (h : ListLike c ok p wr) (hA : AncLike c ok p)
    (hC : CmpLike c key ok p) : BottomUp c ok := by
  have gt_lt : ∀ {xs ys : List Cell}, pathCmp key xs ys = .lt ↔ ¬ pathCmp key ys xs ≠ .gt := fun {xs ys} => by
    rw [← pathCmp_swap (key := key) xs ys]; cases pathCmp key xs ys <;> decide
  refine ⟨fun a b ha hb d => ?_, fun a b ha hb hlt hn x y hx hy hax hby => ?_, fun ms d hms hsort => ?_⟩
  · rw [h.depth_eq a ha, h.depth_eq b hb]
    obtain ⟨x, x1, x2, x3⟩ := hA.withDepth_take h ha (Nat.min_le_right d (p a).length)
    obtain ⟨y, y1, y2, y3⟩ := hA.withDepth_take h hb (Nat.min_le_right d (p b).length)
    rw [← List.take_eq_take_min] at x3 y3
    refine ⟨x, y, x1, y1, ?_, ?_⟩
    · rw [le_iff_path hC ha hb, le_iff_path hC x2 y2, x3, y3]
      exact fun e => pathCmp_take e d
    · rw [lt_iff_path hC ha hb, lt_iff_path hC x2 y2, x3, y3, gt_lt, gt_lt]
      exact mt fun e => pathCmp_take e d
  · rw [inSubtree_iff hk h hA hC ha hb] at hn
    rw [inSubtree_iff hk h hA hC ha hx] at hax
    rw [inSubtree_iff hk h hA hC hb hy] at hby
    rw [lt_iff_path hC ha hb] at hlt
    rw [lt_iff_path hC hx hy]
    exact pathCmp_lt_of_le hk (pathCmp_after key hk hlt hn hax) (pathCmp_prefix hby)
  · have hex : ∀ m : {m // m ∈ ms}, ∃ x, withDepth c m.1 d = .ok (some x) ∧ ok x ∧ p x = (p m.1).take d := fun m =>
      hA.withDepth_take h (hms m.1 m.2).1 (by rw [← h.depth_eq m.1 (hms m.1 m.2).1]; exact (hms m.1 m.2).2)
    let f : {m // m ∈ ms} → M := fun m => Classical.choose (hex m)
    have hf : ∀ m, withDepth c m.1 d = .ok (some (f m)) ∧ ok (f m) ∧ p (f m) = (p m.1).take d := fun m =>
      Classical.choose_spec (hex m)
    refine ⟨ms.attach.map f, by simp, fun i h1 h2 => ?_, ?_, fun same hsame => ?_⟩
    · rw [List.getElem_map, List.getElem_attach]
      exact (hf ⟨ms[i], _⟩).1
    · unfold Sorted at hsort ⊢
      rw [List.pairwise_map]
      have : ms.attach.Pairwise fun a b => RustOrd.le c a.1 b.1 = .ok true := by
        rw [← List.pairwise_map (f := Subtype.val) (R := fun a b => RustOrd.le c a b = .ok true), List.attach_map_subtype_val]
        exact hsort
      refine this.imp fun {a b} e => ?_
      rw [le_iff_path hC (hms a.1 a.2).1 (hms b.1 b.2).1] at e
      rw [le_iff_path hC (hf a).2.1 (hf b).2.1, (hf a).2.2, (hf b).2.2]
      exact pathCmp_take e d
    · have hok : ∀ x ∈ ms.attach.map f, ok x := by
        intro x hx
        obtain ⟨m, -, rfl⟩ := List.mem_map.mp hx
        exact (hf m).2.1
      have hs : ∀ a ∈ ms.attach.map f, ∀ b ∈ ms.attach.map f, same a b = true ↔ p a = p b := fun a ha b hb => by
        rw [hsame, (hC a b (hok a ha) (hok b hb)).1, ← pathCmp_eq_iff key hk]
        exact ⟨fun e => Except.ok.inj e, fun e => congrArg _ e⟩
      have hl : (ms.attach.map f).Pairwise fun a b => pathCmp key (p a) (p b) ≠ .gt := by
        rw [List.pairwise_map]
        have : ms.attach.Pairwise fun a b => RustOrd.le c a.1 b.1 = .ok true := by
          rw [← List.pairwise_map (f := Subtype.val) (R := fun a b => RustOrd.le c a b = .ok true), List.attach_map_subtype_val]
          exact hsort
        refine this.imp fun {a b} e => ?_
        rw [le_iff_path hC (hms a.1 a.2).1 (hms b.1 b.2).1] at e
        rw [(hf a).2.2, (hf b).2.2]
        exact pathCmp_take e d
      refine ⟨?_, fun x hx => ?_, fun m hm => ?_⟩
      · refine (dedupAdjacent_strict hk hs hl).imp_of_mem fun {a b} ha hb e => ?_
        exact (lt_iff_path hC (hok a (dedupAdjacent_subset _ _ a ha)) (hok b (dedupAdjacent_subset _ _ b hb))).mpr e
      · obtain ⟨m, -, rfl⟩ := List.mem_map.mp (dedupAdjacent_subset _ _ x hx)
        exact ⟨m.1, m.2, (hf m).1⟩
      · have hmem : f ⟨m, hm⟩ ∈ ms.attach.map f := List.mem_map.mpr ⟨⟨m, hm⟩, List.mem_attach .., rfl⟩
        obtain ⟨x, h1, h2⟩ := dedupAdjacent_covers hs _ hmem
        refine ⟨x, h1, f ⟨m, hm⟩, (hf ⟨m, hm⟩).1, ?_⟩
        have hx := dedupAdjacent_subset _ _ x h1
        exact (hsame x _).mp ((hs x hx _ hmem).mpr h2)

/-! ## C94 -/

theorem C94_bottom_up_2D {c : Cfg} (hc : c.Supported) :
    (∀ w, BottomUp c (fun m : MortonIndex2D (StaticStorage2D w) => Reach2D c .all (.static w m))) ∧
    BottomUp c (fun m : MortonIndex2D DynamicStorage2D => Reach2D c .all (.dynamic m)) :=
  ⟨fun _ => bottomUp_of quadrantKey_inj (static_list2 hc) (static_anc2 hc) (static_cmp2 hc),
    bottomUp_of quadrantKey_inj (dynamic_list2' hc) (dynamic_anc2 hc) (dynamic_cmp2 hc)⟩

theorem C94_bottom_up_3D {c : Cfg} (hc : c.Supported) :
    (∀ w, BottomUp c (fun m : MortonIndex3D (StaticStorage3D w) => Reach3D c .all (.static w m))) ∧
    BottomUp c (fun m : MortonIndex3D DynamicStorage3D => Reach3D c .all (.dynamic m)) :=
  ⟨fun _ => bottomUp_of octantKey_inj (static_list3 hc) (static_anc3 hc) (static_cmp3 hc),
    bottomUp_of octantKey_inj (dynamic_list3' hc) (dynamic_anc3 hc) (dynamic_cmp3 hc)⟩

/-- The two leaves below `[Three]` give that node once; the leaf below `[Zero]` gives another. -/
example : dedupAdjacent (fun a b => decide (RustOrd.cmp x64 a b = .ok .eq))
    [(⟨⟨0#16, 1⟩⟩ : MortonIndex2D (StaticStorage2D 16)), ⟨⟨0xC000#16, 1⟩⟩, ⟨⟨0xC000#16, 1⟩⟩] =
    [⟨⟨0#16, 1⟩⟩, ⟨⟨0xC000#16, 1⟩⟩] := by decide +kernel

example : ∃ xs : List (MortonIndex2D (StaticStorage2D 16)), xs.length = 3 ∧ Sorted x64 xs ∧
    ∀ same : _ → _ → Bool, (∀ a b, same a b = true ↔ RustOrd.cmp x64 a b = .ok .eq) →
      (dedupAdjacent same xs).Pairwise fun a b => RustOrd.lt x64 a b = .ok true := by
  have h1 : Reach2D x64 .all (.static 16 ⟨⟨0x1000#16, 2⟩⟩) :=
    .staticTryFromSlice (cs := [.Zero, .One]) (by decide) (by rfl)
  have h2 : Reach2D x64 .all (.static 16 ⟨⟨0xE000#16, 2⟩⟩) :=
    .staticTryFromSlice (cs := [.Three, .Two]) (by decide) (by rfl)
  obtain ⟨xs, e1, -, e2, e3⟩ := ((C94_bottom_up_2D x64_supported).1 16).2.2
    [⟨⟨0x1000#16, 2⟩⟩, exS2, ⟨⟨0xE000#16, 2⟩⟩] 1
    (by
      intro a ha
      simp only [List.mem_cons, List.not_mem_nil, or_false] at ha
      rcases ha with rfl | rfl | rfl
      · exact ⟨h1, by decide⟩
      · exact ⟨exS2_reach _, by decide⟩
      · exact ⟨h2, by decide⟩)
    (by unfold Sorted; decide +kernel)
  exact ⟨xs, e1, e2, fun same hs => (e3 same hs).1⟩

/-- Cutting the dynamic index of `[Five, One, Six]` and its parent to one level. -/
example : ∃ x y, withDepth x64 exD3 (min 1 (depth exD3)) = .ok (some x) ∧
    withDepth x64 (⟨⟨[0xA4#8], 2⟩⟩ : MortonIndex3D DynamicStorage3D) (min 1 2) = .ok (some y) ∧
    (RustOrd.lt x64 x y = .ok true → RustOrd.lt x64 exD3 ⟨⟨[0xA4#8], 2⟩⟩ = .ok true) := by
  obtain ⟨x, y, h1, h2, -, h3⟩ := (C94_bottom_up_3D x64_supported).2.1 exD3 ⟨⟨[0xA4#8], 2⟩⟩ (exD3_reach _)
    (.dynamicTryFromSlice (cs := [.Five, .One]) (by unfold Addressable; decide) (by rfl)) 1
  exact ⟨x, y, h1, h2, h3⟩

end MortonRs
