import Verif.Props.Leaves

/-! # Removing overlaps from a sorted list (C103)

In a sorted list one pass that looks only at neighbours removes all nodes that lie in the subtree of another one, or all
nodes that have another one in their subtree. -/

namespace MortonRs

open MortonIndex VariableDepthMortonIndex

variable {M Cell : Type}

/-! ## Statement -/

/-- Dropping every element that has its successor below it. -/
def dropAncestors (below : M → M → Bool) : List M → List M
  | [] => []
  | [x] => [x]
  | x :: y :: l => if below x y then dropAncestors below (y :: l) else x :: dropAncestors below (y :: l)

/-- Elements of `ms` in their old order, strictly ascending, none in the subtree of another one. -/
def LeavesOf [VariableDepthMortonIndex M Cell] [RustOrd M] (c : Cfg) (ms xs : List M) : Prop :=
  xs.Sublist ms ∧ xs.Pairwise (fun a b => RustOrd.lt c a b = .ok true) ∧ Disjoint c xs

/-- C103. `ms` is sorted and `below` decides whether its second argument is in the subtree of the first. `dedup_by` with `below`
leaves the coarsest nodes, which cover what the list covers. Dropping the nodes with their successor below them leaves the finest
nodes, with the same nodes above them; if `ms` consists of two lists of leaves, they cover what both lists cover. -/
def RemovingOverlaps [VariableDepthMortonIndex M Cell] [RustOrd M] (c : Cfg) (ok : M → Prop) : Prop :=
  ∀ (ms : List M) (below : M → M → Bool), (∀ m ∈ ms, ok m) → Sorted c ms →
    (∀ a b, ok a → ok b → (below a b = true ↔ InSubtree c a b)) →
    LeavesOf c ms (dedupAdjacent below ms) ∧ LeavesOf c ms (dropAncestors below ms) ∧
    (∀ q, ok q → ((∃ x ∈ dedupAdjacent below ms, InSubtree c x q) ↔ ∃ m ∈ ms, InSubtree c m q)) ∧
    (∀ q, ok q → ((∃ x ∈ dropAncestors below ms, InSubtree c q x) ↔ ∃ m ∈ ms, InSubtree c q m)) ∧
    (∀ as bs : List M, Disjoint c as → Disjoint c bs → (∀ m, m ∈ ms ↔ m ∈ as ∨ m ∈ bs) → ∀ q, ok q →
      ((∃ a ∈ as, InSubtree c a q) ∧ (∃ b ∈ bs, InSubtree c b q)) → ∃ x ∈ dropAncestors below ms, InSubtree c x q)

/-! ## Proof -/

section lists

variable {key : Cell → Nat} {p : M → List Cell} {below : M → M → Bool}

/-- The first node of a sorted list, if the second is not below it, comes before all others and overlaps none of them. -/
theorem head_apart (hk : Function.Injective key) {x y z : M} {l : List M}
    (hl : (x :: y :: l).Pairwise fun a b => pathCmp key (p a) (p b) ≠ .gt) (hn : ¬ p x <+: p y) (hz : z ∈ y :: l) :
    pathCmp key (p x) (p z) = .lt ∧ ¬ p x <+: p z ∧ ¬ p z <+: p x := by
  rw [List.pairwise_cons] at hl
  have hxy : pathCmp key (p x) (p y) = .lt := by
    cases e : pathCmp key (p x) (p y) with
    | lt => rfl
    | gt => exact absurd e (hl.1 y (by simp))
    | eq =>
      rw [pathCmp_eq_iff key hk] at e
      exact absurd (e ▸ List.prefix_refl (p x)) hn
  have hyz : pathCmp key (p y) (p z) ≠ .gt := by
    rcases List.mem_cons.mp hz with rfl | hz
    · rw [(pathCmp_eq_iff key hk _ _).mpr rfl]; decide
    · exact (List.pairwise_cons.mp hl.2).1 z hz
  have hxz := pathCmp_lt_of_le hk hxy hyz
  refine ⟨hxz, fun h => ?_, fun h => ?_⟩
  · have := pathCmp_after key hk hxy hn h
    rw [← pathCmp_swap key, this] at hyz
    exact hyz rfl
  · have := pathCmp_prefix (key := key) h
    rw [← pathCmp_swap key, hxz] at this
    exact this rfl

theorem dedupAdjacent_sublist (same : M → M → Bool) (l : List M) : (dedupAdjacent same l).Sublist l := by
  induction l using dedupAdjacent.induct same with
  | case1 => simp [dedupAdjacent]
  | case2 x => simp [dedupAdjacent]
  | case3 x y l h ih =>
    rw [dedupAdjacent, if_pos h]
    exact ih.trans (List.Sublist.cons_cons x (List.sublist_cons_self y l))
  | case4 x y l h ih =>
    rw [dedupAdjacent, if_neg h]
    exact ih.cons_cons x

theorem dropAncestors_sublist (below : M → M → Bool) (l : List M) : (dropAncestors below l).Sublist l := by
  induction l using dropAncestors.induct below with
  | case1 => simp [dropAncestors]
  | case2 x => simp [dropAncestors]
  | case3 x y l h ih =>
    rw [dropAncestors, if_pos h]
    exact ih.trans (List.sublist_cons_self x _)
  | case4 x y l h ih =>
    rw [dropAncestors, if_neg h]
    exact ih.cons_cons x

theorem dedupAdjacent_apart (hk : Function.Injective key) {l : List M}
    (hb : ∀ a ∈ l, ∀ b ∈ l, below a b = true ↔ p a <+: p b) (hl : l.Pairwise fun a b => pathCmp key (p a) (p b) ≠ .gt) :
    ((dedupAdjacent below l).Pairwise fun a b => pathCmp key (p a) (p b) = .lt ∧ ¬ p a <+: p b ∧ ¬ p b <+: p a) ∧
    ∀ m ∈ l, ∃ x ∈ dedupAdjacent below l, p x <+: p m := by
  induction l using dedupAdjacent.induct below with
  | case1 => simp [dedupAdjacent]
  | case2 x => simp [dedupAdjacent]
  | case3 x y l h ih =>
    rw [dedupAdjacent, if_pos h]
    have hxy := (hb x (by simp) y (by simp)).mp h
    obtain ⟨i1, i2⟩ := ih (fun a ha b hb' => hb a (mem_skip ha) b (mem_skip hb'))
      (hl.sublist (List.Sublist.cons_cons x (List.sublist_cons_self y l)))
    refine ⟨i1, fun m hm => ?_⟩
    simp only [List.mem_cons] at hm
    rcases hm with rfl | rfl | hm
    · exact i2 m (by simp)
    · obtain ⟨w, h1, h2⟩ := i2 x (by simp)
      exact ⟨w, h1, h2.trans hxy⟩
    · exact i2 m (by simp [hm])
  | case4 x y l h ih =>
    rw [dedupAdjacent, if_neg h]
    have hn : ¬ p x <+: p y := fun e => h ((hb x (by simp) y (by simp)).mpr e)
    obtain ⟨i1, i2⟩ := ih (fun a ha b hb' => hb a (List.mem_cons_of_mem _ ha) b (List.mem_cons_of_mem _ hb'))
      (List.pairwise_cons.mp hl).2
    refine ⟨List.pairwise_cons.mpr ⟨fun z hz => head_apart hk hl hn ((dedupAdjacent_sublist _ _).subset hz), i1⟩, fun m hm => ?_⟩
    rcases List.mem_cons.mp hm with rfl | hm
    · exact ⟨m, by simp, List.prefix_refl _⟩
    · obtain ⟨w, h1, h2⟩ := i2 m hm
      exact ⟨w, List.mem_cons_of_mem _ h1, h2⟩

theorem dropAncestors_apart (hk : Function.Injective key) {l : List M}
    (hb : ∀ a ∈ l, ∀ b ∈ l, below a b = true ↔ p a <+: p b) (hl : l.Pairwise fun a b => pathCmp key (p a) (p b) ≠ .gt) :
    ((dropAncestors below l).Pairwise fun a b => pathCmp key (p a) (p b) = .lt ∧ ¬ p a <+: p b ∧ ¬ p b <+: p a) ∧
    ∀ m ∈ l, ∃ x ∈ dropAncestors below l, p m <+: p x := by
  induction l using dropAncestors.induct below with
  | case1 => simp [dropAncestors]
  | case2 x => simp [dropAncestors]
  | case3 x y l h ih =>
    rw [dropAncestors, if_pos h]
    have hxy := (hb x (by simp) y (by simp)).mp h
    obtain ⟨i1, i2⟩ := ih (fun a ha b hb' => hb a (List.mem_cons_of_mem _ ha) b (List.mem_cons_of_mem _ hb'))
      (List.pairwise_cons.mp hl).2
    refine ⟨i1, fun m hm => ?_⟩
    rcases List.mem_cons.mp hm with rfl | hm
    · obtain ⟨w, h1, h2⟩ := i2 y (by simp)
      exact ⟨w, h1, hxy.trans h2⟩
    · exact i2 m hm
  | case4 x y l h ih =>
    rw [dropAncestors, if_neg h]
    have hn : ¬ p x <+: p y := fun e => h ((hb x (by simp) y (by simp)).mpr e)
    obtain ⟨i1, i2⟩ := ih (fun a ha b hb' => hb a (List.mem_cons_of_mem _ ha) b (List.mem_cons_of_mem _ hb'))
      (List.pairwise_cons.mp hl).2
    refine ⟨List.pairwise_cons.mpr ⟨fun z hz => head_apart hk hl hn ((dropAncestors_sublist _ _).subset hz), i1⟩, fun m hm => ?_⟩
    rcases List.mem_cons.mp hm with rfl | hm
    · exact ⟨m, by simp, List.prefix_refl _⟩
    · obtain ⟨w, h1, h2⟩ := i2 m hm
      exact ⟨w, List.mem_cons_of_mem _ h1, h2⟩

/-- In a list of leaves a node below another one is the same element. -/
theorem disjoint_same [VariableDepthMortonIndex M Cell] [RustOrd M] {c : Cfg} {l : List M} (h : Disjoint c l) {a b : M}
    (ha : a ∈ l) (hb : b ∈ l) (hab : InSubtree c a b) : a = b := by
  induction l with
  | nil => simp at ha
  | cons x l ih =>
    obtain ⟨h1, h2⟩ := List.pairwise_cons.mp h
    rcases List.mem_cons.mp ha with rfl | ha'
    · rcases List.mem_cons.mp hb with rfl | hb'
      · rfl
      · exact absurd hab (h1 b hb').1
    · rcases List.mem_cons.mp hb with rfl | hb'
      · exact absurd hab (h1 a ha').2
      · exact ih h2 ha' hb'

end lists

theorem removingOverlaps_of [VariableDepthMortonIndex M Cell] [RustOrd M] {c : Cfg} {ok : M → Prop} {p : M → List Cell}
    {wr : Cell → Cell} {key : Cell → Nat} (hk : Function.Injective key) (h : ListLike c ok p wr) (hA : AncLike c ok p)
    (hC : CmpLike c key ok p) : RemovingOverlaps c ok := by
  intro ms below hms hsort hbelow
  have hin : ∀ {a b : M}, ok a → ok b → (InSubtree c a b ↔ p a <+: p b) := fun ha hb => inSubtree_iff hk h hA hC ha hb
  have hb : ∀ a ∈ ms, ∀ b ∈ ms, below a b = true ↔ p a <+: p b := fun a ha b hb =>
    (hbelow a b (hms a ha) (hms b hb)).trans (hin (hms a ha) (hms b hb))
  have hl : ms.Pairwise fun a b => pathCmp key (p a) (p b) ≠ .gt :=
    List.Pairwise.imp_of_mem (fun {a b} ha hb e => (le_iff_path hC (hms a ha) (hms b hb)).mp e) hsort
  obtain ⟨c1, c2⟩ := dedupAdjacent_apart hk hb hl
  obtain ⟨f1, f2⟩ := dropAncestors_apart hk hb hl
  have hleaves : ∀ xs : List M, xs.Sublist ms →
      (xs.Pairwise fun a b => pathCmp key (p a) (p b) = .lt ∧ ¬ p a <+: p b ∧ ¬ p b <+: p a) → LeavesOf c ms xs := by
    intro xs hs hp
    have hok : ∀ x ∈ xs, ok x := fun x hx => hms x (hs.subset hx)
    refine ⟨hs, hp.imp_of_mem fun {a b} ha hb e => (lt_iff_path hC (hok a ha) (hok b hb)).mpr e.1, ?_⟩
    refine hp.imp_of_mem fun {a b} ha hb e => ?_
    rw [hin (hok a ha) (hok b hb), hin (hok b hb) (hok a ha)]
    exact e.2
  have hcs := dedupAdjacent_sublist below ms
  have hfs := dropAncestors_sublist below ms
  refine ⟨hleaves _ hcs c1, hleaves _ hfs f1, fun q hq => ⟨?_, ?_⟩, fun q hq => ⟨?_, ?_⟩, ?_⟩
  · exact fun ⟨x, hx, e⟩ => ⟨x, hcs.subset hx, e⟩
  · rintro ⟨m, hm, e⟩
    obtain ⟨x, hx, e'⟩ := c2 m hm
    exact ⟨x, hx, (hin (hms x (hcs.subset hx)) hq).mpr (e'.trans ((hin (hms m hm) hq).mp e))⟩
  · exact fun ⟨x, hx, e⟩ => ⟨x, hfs.subset hx, e⟩
  · rintro ⟨m, hm, e⟩
    obtain ⟨x, hx, e'⟩ := f2 m hm
    exact ⟨x, hx, (hin hq (hms x (hfs.subset hx))).mpr (((hin hq (hms m hm)).mp e).trans e')⟩
  · intro as bs hda hdb hmem q hq
    -- the deeper of the two leaves around `q`, seen from the list of the other one
    have key : ∀ as bs : List M, Disjoint c as → Disjoint c bs → (∀ m, m ∈ ms ↔ m ∈ as ∨ m ∈ bs) → ∀ a ∈ as, ∀ b ∈ bs,
        p a <+: p b → p b <+: p q → ∃ x ∈ dropAncestors below ms, InSubtree c x q := by
      intro as bs hda hdb hmem a ha b hb' hab hbq
      have hma := hms a ((hmem a).mpr (.inl ha))
      have hmb := hms b ((hmem b).mpr (.inr hb'))
      obtain ⟨x, hx, e⟩ := f2 b ((hmem b).mpr (.inr hb'))
      have hmx := hms x (hfs.subset hx)
      refine ⟨x, hx, (hin hmx hq).mpr ?_⟩
      rcases (hmem x).mp (hfs.subset hx) with hxa | hxb
      · rw [← disjoint_same hda ha hxa ((hin hma hmx).mpr (hab.trans e))]
        exact hab.trans hbq
      · rw [← disjoint_same hdb hb' hxb ((hin hmb hmx).mpr e)]
        exact hbq
    rintro ⟨⟨a, ha, ea⟩, ⟨b, hb', eb⟩⟩
    have ea := (hin (hms a ((hmem a).mpr (.inl ha))) hq).mp ea
    have eb := (hin (hms b ((hmem b).mpr (.inr hb'))) hq).mp eb
    rcases Nat.le_total (p a).length (p b).length with hlen | hlen
    · exact key as bs hda hdb hmem a ha b hb' (List.prefix_of_prefix_length_le ea eb hlen) eb
    · exact key bs as hdb hda (fun m => (hmem m).trans Or.comm) b hb' a ha (List.prefix_of_prefix_length_le eb ea hlen) ea

/-! ## C103 -/

theorem C103_overlaps_2D {c : Cfg} (hc : c.Supported) :
    (∀ w, RemovingOverlaps c (fun m : MortonIndex2D (StaticStorage2D w) => Reach2D c .all (.static w m))) ∧
    RemovingOverlaps c (fun m : MortonIndex2D DynamicStorage2D => Reach2D c .all (.dynamic m)) :=
  ⟨fun _ => removingOverlaps_of quadrantKey_inj (static_list2 hc) (static_anc2 hc) (static_cmp2 hc),
    removingOverlaps_of quadrantKey_inj (dynamic_list2' hc) (dynamic_anc2 hc) (dynamic_cmp2 hc)⟩

theorem C103_overlaps_3D {c : Cfg} (hc : c.Supported) :
    (∀ w, RemovingOverlaps c (fun m : MortonIndex3D (StaticStorage3D w) => Reach3D c .all (.static w m))) ∧
    RemovingOverlaps c (fun m : MortonIndex3D DynamicStorage3D => Reach3D c .all (.dynamic m)) :=
  ⟨fun _ => removingOverlaps_of octantKey_inj (static_list3 hc) (static_anc3 hc) (static_cmp3 hc),
    removingOverlaps_of octantKey_inj (dynamic_list3' hc) (dynamic_anc3 hc) (dynamic_cmp3 hc)⟩

/-- `[Zero]`, `[Three]` and `exS2`, which is `[Three, One, Two]`. -/
def exOverlap2 : List (MortonIndex2D (StaticStorage2D 16)) := [⟨⟨0#16, 1⟩⟩, ⟨⟨0xC000#16, 1⟩⟩, exS2]

theorem exOverlap2_reach : ∀ m ∈ exOverlap2, Reach2D x64 .all (.static 16 m) := by
  intro m hm
  simp only [exOverlap2, List.mem_cons, List.not_mem_nil, or_false] at hm
  rcases hm with rfl | rfl | rfl
  · exact .staticTryFromSlice (cs := [.Zero]) (by decide) (by rfl)
  · exact .staticTryFromSlice (cs := [.Three]) (by decide) (by rfl)
  · exact exS2_reach _

/-- The coarse list is `[Zero]`, `[Three]`, the fine one `[Zero]`, `[Three, One, Two]`. -/
example : dedupAdjacent (fun a b => decide (InSubtree x64 a b)) exOverlap2 = [⟨⟨0#16, 1⟩⟩, ⟨⟨0xC000#16, 1⟩⟩] ∧
    dropAncestors (fun a b => decide (InSubtree x64 a b)) exOverlap2 = [⟨⟨0#16, 1⟩⟩, exS2] := by decide +kernel

example : LeavesOf x64 exOverlap2 (dropAncestors (fun a b => decide (InSubtree x64 a b)) exOverlap2) ∧
    ∀ q, Reach2D x64 .all (.static 16 q) → (∃ a ∈ [(⟨⟨0#16, 1⟩⟩ : MortonIndex2D (StaticStorage2D 16)), exS2], InSubtree x64 a q) ∧
      (∃ b ∈ [(⟨⟨0xC000#16, 1⟩⟩ : MortonIndex2D (StaticStorage2D 16))], InSubtree x64 b q) →
      ∃ x ∈ dropAncestors (fun a b => decide (InSubtree x64 a b)) exOverlap2, InSubtree x64 x q := by
  obtain ⟨-, h1, -, -, h2⟩ := (C103_overlaps_2D x64_supported).1 16 exOverlap2 (fun a b => decide (InSubtree x64 a b))
    exOverlap2_reach (by unfold Sorted; decide +kernel) (fun a b _ _ => by simp)
  refine ⟨h1, h2 [⟨⟨0#16, 1⟩⟩, exS2] [⟨⟨0xC000#16, 1⟩⟩] (by unfold Disjoint; decide +kernel)
    (by unfold Disjoint; decide +kernel) (fun m => ?_)⟩
  simp only [exOverlap2, List.mem_cons, List.not_mem_nil, or_false]
  exact ⟨fun e => e.elim (fun e => .inl (.inl e)) (fun e => e.elim .inr (fun e => .inl (.inr e))),
    fun e => e.elim (fun e => e.elim .inl (fun e => .inr (.inr e))) (fun e => .inr (.inl e))⟩

/-- The dynamic indices `[Five]` and `[Five, One, Six]`: what they cover is the first one. -/
example : ∀ q, Reach3D x64 .all (.dynamic q) →
    ((∃ x ∈ dedupAdjacent (fun a b => decide (InSubtree x64 a b)) [(⟨⟨[0xA0#8], 1⟩⟩ : MortonIndex3D DynamicStorage3D), exD3],
      InSubtree x64 x q) ↔ ∃ m ∈ [(⟨⟨[0xA0#8], 1⟩⟩ : MortonIndex3D DynamicStorage3D), exD3], InSubtree x64 m q) :=
  ((C103_overlaps_3D x64_supported).2 [⟨⟨[0xA0#8], 1⟩⟩, exD3] (fun a b => decide (InSubtree x64 a b))
    (by
      intro m hm
      simp only [List.mem_cons, List.not_mem_nil, or_false] at hm
      rcases hm with rfl | rfl
      · exact .dynamicTryFromSlice (cs := [.Five]) (by unfold Addressable; decide) (by rfl)
      · exact exD3_reach _)
    (by unfold Sorted; decide +kernel) (fun a b _ _ => by simp)).2.2.1

end MortonRs
