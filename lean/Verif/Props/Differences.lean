import Verif.Props.SharedLevels
import Verif.Props.MoveSubtree

/-! # Lists stored by differences (C122)

Each index of a list is stored as the number of levels that it shares with the one before, and its cells below them. For a sorted list
these are as many cells as the tree of the list has nodes. -/

namespace MortonRs

open MortonIndex VariableDepthMortonIndex

variable {M Cell : Type}

/-! ## Statement -/

/-- Client code: for each index the number of levels shared with the one before, `prev` for the first one, and the cells below. -/
def differences [MortonIndex M Cell] [DecidableEq Cell] (c : Cfg) : M → List M → Res (List (Nat × List Cell))
  | _, [] => .ok []
  | prev, m :: ms => do
    let n ← sharedLevels c prev m
    let cs ← cellsFrom c m n
    return (n, cs) :: (← differences c m ms)

/-- Client code: `prev.with_depth(n)` and `descendant(cells)` for each entry; `None` if one of them is `None`. -/
def fromDifferences [VariableDepthMortonIndex M Cell] (c : Cfg) : M → List (Nat × List Cell) → Res (Option (List M))
  | _, [] => .ok (some [])
  | prev, (n, cs) :: es => do
    match ← withDepth c prev n with
    | none => return none
    | some a =>
      match ← descendant c a cs with
      | none => return none
      | some m =>
        match ← fromDifferences c m es with
        | none => return none
        | some ms => return some (m :: ms)

/-- C122. Every list comes back from its differences: as many indices, each one `Equal` to the one stored. If the list is sorted and
starts from the root, the number of cells stored is the number of nodes of the tree of the list, which are the indices `ns`: each
one above or in the list, all different, and none is missing (the root is not counted). -/
def StoresDifferences [VariableDepthMortonIndex M Cell] [RustOrd M] [DecidableEq Cell] (c : Cfg) (ok : M → Prop) : Prop :=
  ∀ start ms, ok start → (∀ m ∈ ms, ok m) → ∃ es ms', differences c start ms = .ok es ∧ fromDifferences c start es = .ok (some ms') ∧
    ms'.length = ms.length ∧ (∀ (i : Nat) a b, ms[i]? = some a → ms'[i]? = some b → ok b ∧ RustOrd.cmp c a b = .ok .eq) ∧
    (depth start = 0 → Sorted c ms → ∃ ns : List M, (es.map fun e => e.2.length).sum = ns.length ∧
      (∀ n ∈ ns, ok n ∧ depth n ≠ 0 ∧ ∃ m ∈ ms, InSubtree c n m) ∧ ns.Pairwise (fun a b => RustOrd.cmp c a b ≠ .ok .eq) ∧
      ∀ x, ok x → depth x ≠ 0 → (∃ m ∈ ms, InSubtree c x m) → ∃ n ∈ ns, RustOrd.cmp c n x = .ok .eq)

/-! ## Proof -/

section generic
variable {c : Cfg} {ok : M → Prop} {p : M → List Cell} {wr : Cell → Cell} {key : Cell → Nat}

variable [VariableDepthMortonIndex M Cell] [DecidableEq Cell] {room : M → Nat → Prop} {limit : Option Nat}

theorem differences_ok (h : ListLike c ok p wr) (ms : List M) : ∀ prev, ok prev → (∀ m ∈ ms, ok m) →
    differences c prev ms = .ok (((prev :: ms).zip ms).map fun x => (common (p x.1) (p x.2), (p x.2).drop (common (p x.1) (p x.2)))) := by
  induction ms with
  | nil => intro prev _ _; rfl
  | cons m ms ih =>
    intro prev hp hms
    have hm := hms m (by simp)
    rw [differences, sharedLevels_common h hp hm, ok_bind, cellsFrom_ok h hm, ok_bind,
      ih m hm fun x hx => hms x (List.mem_cons_of_mem _ hx)]
    rfl

theorem fromDifferences_ok (h : ListLike c ok p wr) (hA : AncLike c ok p) (hD : DescLike c ok p room limit)
    (hlim : ∀ m, ok m → ¬ Exceeds limit (p m).length)
    (hroom : ∀ m a, ok m → ok a → ∀ k, (p a).length + k = (p m).length → room a k) (ms : List M) : ∀ prev prev', ok prev → ok prev' →
    p prev = p prev' → (∀ m ∈ ms, ok m) → ∃ es ms', differences c prev ms = .ok es ∧ fromDifferences c prev' es = .ok (some ms') ∧
      ms'.length = ms.length ∧ ∀ (i : Nat) a b, ms[i]? = some a → ms'[i]? = some b → ok b ∧ p a = p b := by
  induction ms with
  | nil => exact fun prev prev' _ _ _ _ => ⟨[], [], rfl, rfl, rfl, by simp⟩
  | cons m ms ih =>
    intro prev prev' hp hp' ep hms
    have hm := hms m (by simp)
    obtain ⟨l1, l2, l3⟩ := le_common_iff.mp (Nat.le_refl (common (p prev) (p m)))
    obtain ⟨a, a1, a2, a3⟩ := hA.withDepth_take h hp' (d := common (p prev) (p m)) (by rw [← ep]; exact l1)
    have e : p a ++ (p m).drop (common (p prev) (p m)) = p m := by
      rw [a3, ← ep, l3, List.take_append_drop]
    have el : (p a).length + ((p m).drop (common (p prev) (p m))).length = (p m).length := by
      rw [← List.length_append, e]
    obtain ⟨m', m1, m2, m3⟩ := hD.yes a a2 ((p m).drop (common (p prev) (p m))) (hroom m a hm a2 _ el) (by rw [el]; exact hlim m hm)
    rw [e] at m3
    obtain ⟨es, ms', i1, i2, i3, i4⟩ := ih m m' hm m2 m3.symm fun x hx => hms x (List.mem_cons_of_mem _ hx)
    refine ⟨(common (p prev) (p m), (p m).drop (common (p prev) (p m))) :: es, m' :: ms', ?_, ?_, by simp [i3], fun i x y hx hy => ?_⟩
    · rw [differences, sharedLevels_common h hp hm, ok_bind, cellsFrom_ok h hm, ok_bind, i1]
      rfl
    · rw [fromDifferences, a1, ok_bind]
      simp only [m1, ok_bind, i2]
      rfl
    · cases i with
      | zero => cases hx; cases hy; exact ⟨m2, m3.symm⟩
      | succ i => exact i4 i x y hx hy

/-- The nodes of the tree of a sorted list that are not above `prev`, one for each cell stored. -/
theorem new_nodes (hk : Function.Injective key) (h : ListLike c ok p wr) (hA : AncLike c ok p) (ms : List M) : ∀ prev, ok prev →
    (∀ m ∈ ms, ok m) → (prev :: ms).Pairwise (fun a b => pathCmp key (p a) (p b) ≠ .gt) → ∀ es, differences c prev ms = .ok es →
    ∃ ns : List M, (es.map fun e => e.2.length).sum = ns.length ∧
      (∀ n ∈ ns, ok n ∧ ¬ p n <+: p prev ∧ ∃ m ∈ ms, p n <+: p m) ∧ ns.Pairwise (fun a b => p a ≠ p b) ∧
      ∀ z, ¬ z <+: p prev → (∃ m ∈ ms, z <+: p m) → ∃ n ∈ ns, p n = z := by
  induction ms with
  | nil =>
    intro prev _ _ _ es he
    cases he
    exact ⟨[], rfl, by simp, by simp, by simp⟩
  | cons m ms ih =>
    intro prev hp hms hs es he
    have hm := hms m (by simp)
    have hms' : ∀ x ∈ ms, ok x := fun x hx => hms x (List.mem_cons_of_mem _ hx)
    obtain ⟨l1, l2, l3⟩ := le_common_iff.mp (Nat.le_refl (common (p prev) (p m)))
    rw [List.pairwise_cons] at hs
    rw [differences, sharedLevels_common h hp hm, ok_bind, cellsFrom_ok h hm, ok_bind,
      differences_ok h ms m hm hms'] at he
    cases he
    obtain ⟨ns, n1, n2, n3, n4⟩ := ih m hm hms' hs.2 _ (differences_ok h ms m hm hms')
    obtain ⟨f, hf⟩ := Classical.axiomOfChoice fun i : Fin (p m).length =>
      hA.withDepth_take h hm (d := i.val + 1) i.isLt
    have hlen : ∀ i : Fin (p m).length, (p (f i)).length = i.val + 1 := fun i => by
      rw [(hf i).2.2, List.length_take]; omega
    have hpre : ∀ z, z <+: p m → (z <+: p prev ↔ z.length ≤ common (p prev) (p m)) := fun z hz => by
      have ez := List.prefix_iff_eq_take.mp hz
      constructor
      · intro hz'
        exact le_common_iff.mpr ⟨hz'.length_le, hz.length_le, by rw [← List.prefix_iff_eq_take.mp hz', ← ez]⟩
      · intro hl
        obtain ⟨-, -, e3⟩ := le_common_iff.mp hl
        rw [ez, ← e3]
        exact List.take_prefix _ _
    refine ⟨((List.finRange (p m).length).drop (common (p prev) (p m))).map f ++ ns, ?_, fun n hn => ?_, ?_, fun z hz hzm => ?_⟩
    · rw [List.length_append, List.length_map, List.length_drop, List.length_finRange, ← n1]
      simp
    · rcases List.mem_append.mp hn with hn | hn
      · obtain ⟨i, hi, rfl⟩ := List.mem_map.mp hn
        have hpf : p (f i) <+: p m := by rw [(hf i).2.2]; exact List.take_prefix _ _
        refine ⟨(hf i).2.1, fun hq => ?_, m, by simp, hpf⟩
        rw [hpre _ hpf, hlen] at hq
        obtain ⟨j, hj⟩ := List.mem_iff_getElem?.mp hi
        rw [List.getElem?_drop] at hj
        have := List.getElem?_eq_some_iff.mp hj
        obtain ⟨hj1, hj2⟩ := this
        rw [List.getElem_finRange] at hj2
        rw [← hj2] at hq
        simp at hq
        omega
      · obtain ⟨q1, q2, y, hy, q3⟩ := n2 n hn
        refine ⟨q1, fun hq => q2 ?_, y, List.mem_cons_of_mem _ hy, q3⟩
        exact pathCmp_between hk hq q3 (hs.1 m (by simp)) ((List.pairwise_cons.mp hs.2).1 y hy)
    · rw [List.pairwise_append]
      refine ⟨?_, n3, fun a ha b hb e => ?_⟩
      · rw [List.pairwise_map]
        refine List.Pairwise.sublist (List.drop_sublist _ _) ?_
        have hn : (List.finRange (p m).length).Pairwise (· ≠ ·) := List.nodup_finRange _
        refine hn.imp fun {i j} hij => ?_
        intro e
        have := congrArg List.length e
        rw [hlen, hlen] at this
        exact hij (Fin.ext (by omega))
      · obtain ⟨i, -, rfl⟩ := List.mem_map.mp ha
        refine (n2 b hb).2.1 ?_
        rw [← e, (hf i).2.2]
        exact List.take_prefix _ _
    · by_cases hzm' : z <+: p m
      · have hl : common (p prev) (p m) < z.length := by
          rw [hpre z hzm'] at hz
          omega
        have hl2 := hzm'.length_le
        refine ⟨f ⟨z.length - 1, by omega⟩, List.mem_append_left _ (List.mem_map.mpr ⟨_, ?_, rfl⟩), ?_⟩
        · rw [List.mem_iff_getElem?]
          refine ⟨z.length - 1 - common (p prev) (p m), ?_⟩
          rw [List.getElem?_drop, List.getElem?_eq_some_iff]
          refine ⟨by rw [List.length_finRange]; omega, ?_⟩
          rw [List.getElem_finRange]
          apply Fin.ext
          simp
          omega
        · rw [(hf _).2.2]
          refine Eq.trans ?_ (List.prefix_iff_eq_take.mp hzm').symm
          congr 1
          simp
          omega
      · obtain ⟨y, hy, hzy⟩ := hzm
        rcases List.mem_cons.mp hy with rfl | hy
        · exact absurd hzy hzm'
        · obtain ⟨n, q1, q2⟩ := n4 z hzm' ⟨y, hy, hzy⟩
          exact ⟨n, List.mem_append_right _ q1, q2⟩

theorem storesDifferences_of [RustOrd M] (hk : Function.Injective key) (h : ListLike c ok p wr) (hA : AncLike c ok p)
    (hD : DescLike c ok p room limit) (hC : CmpLike c key ok p) (hlim : ∀ m, ok m → ¬ Exceeds limit (p m).length)
    (hroom : ∀ m a, ok m → ok a → ∀ k, (p a).length + k = (p m).length → room a k) : StoresDifferences c ok := by
  intro start ms hst hms
  have hcmp : ∀ {a b}, ok a → ok b → (RustOrd.cmp c a b = .ok .eq ↔ p a = p b) := fun ha hb => by
    rw [(hC _ _ ha hb).1, ← pathCmp_eq_iff key hk]
    exact ⟨Except.ok.inj, congrArg _⟩
  obtain ⟨es, ms', e1, e2, e3, e4⟩ := fromDifferences_ok h hA hD hlim hroom ms start start hst hst rfl hms
  refine ⟨es, ms', e1, e2, e3, fun i a b ha hb => ?_, fun h0 hs => ?_⟩
  · obtain ⟨q1, q2⟩ := e4 i a b ha hb
    exact ⟨q1, (hcmp (hms a (List.mem_of_getElem? ha)) q1).mpr q2⟩
  · have hnil : p start = [] := by
      rw [h.depth_eq start hst] at h0
      exact List.length_eq_zero_iff.mp h0
    obtain ⟨ns, n1, n2, n3, n4⟩ := new_nodes hk h hA ms start hst hms (by
      rw [List.pairwise_cons]
      refine ⟨fun x _ => pathCmp_prefix (by rw [hnil]; exact List.nil_prefix), ?_⟩
      exact List.Pairwise.imp_of_mem (fun {a b} ha hb hab => (le_iff_path hC (hms a ha) (hms b hb)).mp hab) hs) es e1
    refine ⟨ns, n1, fun n hn => ?_, ?_, fun x hx h0x ⟨m, hm, hxm⟩ => ?_⟩
    · obtain ⟨q1, q2, m, hm, q3⟩ := n2 n hn
      refine ⟨q1, fun e => q2 ?_, m, hm, (inSubtree_iff hk h hA hC q1 (hms m hm)).mpr q3⟩
      rw [h.depth_eq n q1] at e
      rw [List.length_eq_zero_iff.mp e]
      exact List.nil_prefix
    · exact List.Pairwise.imp_of_mem (fun {a b} ha hb hab e => hab ((hcmp (n2 a ha).1 (n2 b hb).1).mp e)) n3
    · obtain ⟨n, hn, en⟩ := n4 (p x) (fun e => h0x (by
        rw [hnil] at e
        rw [h.depth_eq x hx, List.prefix_nil.mp e]
        rfl)) ⟨m, hm, (inSubtree_iff hk h hA hC hx (hms m hm)).mp hxm⟩
      exact ⟨n, hn, (hcmp (n2 n hn).1 hx).mpr en⟩

end generic

/-! ## C122 -/

/-- C122 in 2D. -/
theorem C122_differences_2D {c : Cfg} (hc : c.Supported) :
    (∀ w, IntWidth w → StoresDifferences c (fun m : MortonIndex2D (StaticStorage2D w) => Reach2D c .all (.static w m))) ∧
    (DynWrites c → StoresDifferences c (fun m : MortonIndex2D DynamicStorage2D => Reach2D c .all (.dynamic m))) := by
  refine ⟨fun w hw => ?_, fun hw => ?_⟩
  · have hle : w / 2 ≤ 64 := by rcases hw with h | h | h | h | h <;> subst h <;> decide
    refine storesDifferences_of quadrantKey_inj (static_list2 hc) (static_anc2 hc) (static_desc2 hc) (static_cmp2 hc)
      (fun m hm => Nat.not_lt.mpr (static_depth_le2 hc m hm)) fun m a hm _ k hk => ?_
    exact lt_isize_of_lt hc (by have := static_depth_le2 hc m hm; omega)
  · refine storesDifferences_of quadrantKey_inj (dynamic_list2 hc hw) (dynamic_anc2 hc) (dynamic_desc2 hc hw) (dynamic_cmp2 hc)
      (fun _ _ h => h) fun m a hm ha k hk => ?_
    refine (dynamic_addr2 hc m hm).mono ?_
    rw [(dynamic_list2 hc hw).depth_eq a ha]
    omega

/-- C122 in 3D. -/
theorem C122_differences_3D {c : Cfg} (hc : c.Supported) :
    (∀ w, IntWidth w → StoresDifferences c (fun m : MortonIndex3D (StaticStorage3D w) => Reach3D c .all (.static w m))) ∧
    (DynWrites c → StoresDifferences c (fun m : MortonIndex3D DynamicStorage3D => Reach3D c .all (.dynamic m))) := by
  refine ⟨fun w hw => ?_, fun hw => ?_⟩
  · have hle : w / 3 ≤ 64 := by rcases hw with h | h | h | h | h <;> subst h <;> decide
    refine storesDifferences_of octantKey_inj (static_list3 hc) (static_anc3 hc) (static_desc3 hc) (static_cmp3 hc)
      (fun m hm => Nat.not_lt.mpr (static_depth_le3 hc m hm)) fun m a hm _ k hk => ?_
    exact lt_isize_of_lt hc (by have := static_depth_le3 hc m hm; omega)
  · refine storesDifferences_of octantKey_inj (dynamic_list3 hc hw) (dynamic_anc3 hc) (dynamic_desc3 hc hw) (dynamic_cmp3 hc)
      (fun _ _ h => h) fun m a hm ha k hk => ?_
    refine (dynamic_addr3 hc m hm).mono ?_
    rw [(dynamic_list3 hc hw).depth_eq a ha]
    omega

/-! ## Examples -/

/-- `[Three]`, `[Three, One, Two]`, `[Three, One, Three]`: four cells instead of seven, for the nodes `[Three]`, `[Three, One]` and the
two below. -/
def exDiff : List (MortonIndex2D (StaticStorage2D 16)) := [⟨⟨0xC000#16, 1⟩⟩, exS2, ⟨⟨0xDC00#16, 3⟩⟩]

example : differences x64 (⟨⟨0#16, 0⟩⟩ : MortonIndex2D (StaticStorage2D 16)) exDiff =
    .ok [(0, [.Three]), (1, [.One, .Two]), (2, [.Three])] := by decide +kernel

example : fromDifferences x64 (⟨⟨0#16, 0⟩⟩ : MortonIndex2D (StaticStorage2D 16)) [(0, [.Three]), (1, [.One, .Two]), (2, [.Three])] =
    .ok (some exDiff) := by rfl

/-- The theorem applied to this list: the tree has four nodes below the root. -/
example : ∃ ns : List (MortonIndex2D (StaticStorage2D 16)), ns.length = 4 ∧ (∀ n ∈ ns, ∃ m ∈ exDiff, InSubtree x64 n m) ∧
    ns.Pairwise (fun a b => RustOrd.cmp x64 a b ≠ .ok .eq) := by
  obtain ⟨es, ms', h1, -, -, -, h2⟩ := (C122_differences_2D x64_supported).1 16 (by decide) ⟨⟨0#16, 0⟩⟩ exDiff
    (.staticTryFromSlice (cs := []) (by decide) (by rfl))
    (by
      intro m hm
      simp only [exDiff, List.mem_cons, List.not_mem_nil, or_false] at hm
      rcases hm with rfl | rfl | rfl
      · exact .staticTryFromSlice (cs := [.Three]) (by decide) (by rfl)
      · exact exS2_reach _
      · exact .staticTryFromSlice (cs := [.Three, .One, .Three]) (by decide) (by rfl))
  obtain ⟨ns, n1, n2, n3, -⟩ := h2 rfl (by unfold Sorted; decide +kernel)
  have e : differences x64 (⟨⟨0#16, 0⟩⟩ : MortonIndex2D (StaticStorage2D 16)) exDiff =
    .ok [(0, [.Three]), (1, [.One, .Two]), (2, [.Three])] := by decide +kernel
  rw [e] at h1
  cases h1
  exact ⟨ns, n1.symm, fun n hn => (n2 n hn).2.2, n3⟩

/-- In 3D, with dynamic indices, unsorted and from any start. -/
example : ∃ es ms', differences x64 exD3 [exD3, exD3] = .ok es ∧ fromDifferences x64 exD3 es = .ok (some ms') ∧ ms'.length = 2 := by
  obtain ⟨es, ms', h1, h2, h3, -⟩ := (C122_differences_3D x64_supported).2 x64_writes exD3 [exD3, exD3] (exD3_reach _)
    (by intro m hm; simp only [List.mem_cons, List.not_mem_nil, or_false, or_self] at hm; rw [hm]; exact exD3_reach _)
  exact ⟨es, ms', h1, h2, h3⟩

end MortonRs
