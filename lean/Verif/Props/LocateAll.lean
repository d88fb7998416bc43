import Verif.Props.Overlaps
import Verif.Props.Examples

/-! # Many nodes located in one pass (C125)

Both the leaves of a tree and the nodes to be looked up are sorted. Then one pass over both lists finds the leaf around each node; no
leaf is looked at again that was passed. -/

namespace MortonRs

open MortonIndex VariableDepthMortonIndex

variable {M Cell : Type}

/-! ## Statement -/

/-- Client code: for each node the leaves that are `<=` it are passed; the last leaf passed so far, `cur`, is the answer if it has the
node in its subtree. -/
def locateAll (le below : M → M → Bool) : Option M → List M → List M → List (Option M)
  | _, _, [] => []
  | cur, leaves, q :: qs =>
    let cur := (leaves.takeWhile (le · q)).getLast?.or cur
    cur.filter (below · q) :: locateAll le below cur (leaves.dropWhile (le · q)) qs

/-- C125. `le` and `below` decide `<=` and the relation of a node and its subtree. There is one answer for each node looked up: the leaf
that has it in its subtree, which is the only one, or `None` if there is no such leaf. -/
def LocatesAll [VariableDepthMortonIndex M Cell] [RustOrd M] (c : Cfg) (ok : M → Prop) : Prop :=
  ∀ (leaves qs : List M) (le below : M → M → Bool), (∀ m ∈ leaves, ok m) → (∀ q ∈ qs, ok q) → Sorted c leaves → Disjoint c leaves →
    Sorted c qs → (∀ a b, ok a → ok b → (le a b = true ↔ RustOrd.le c a b = .ok true)) →
    (∀ a b, ok a → ok b → (below a b = true ↔ InSubtree c a b)) →
    (locateAll le below none leaves qs).length = qs.length ∧
    ∀ (i : Nat) q r, qs[i]? = some q → (locateAll le below none leaves qs)[i]? = some r →
      (∀ a, r = some a ↔ a ∈ leaves ∧ InSubtree c a q) ∧ (r = none ↔ ∀ a ∈ leaves, ¬ InSubtree c a q)

/-! ## Proof -/

section lists

variable {key : Cell → Nat} {p : M → List Cell} {le below : M → M → Bool} {ok : M → Prop}

theorem locateAll_length (qs : List M) : ∀ cur leaves, (locateAll le below cur leaves qs).length = qs.length := by
  induction qs with
  | nil => intro cur leaves; rfl
  | cons q qs ih => intro cur leaves; simp [locateAll, ih]

/-- In a sorted list the nodes behind the first one that is not `<=` a node are not either. -/
theorem dropWhile_behind {q : M} {l : List M} (hle : ∀ a ∈ l, le a q = true ↔ pathCmp key (p a) (p q) ≠ .gt)
    (hl : l.Pairwise fun a b => pathCmp key (p a) (p b) ≠ .gt) : ∀ a ∈ l.dropWhile (le · q), le a q = false := by
  induction l with
  | nil => simp
  | cons x l ih =>
    obtain ⟨h1, h2⟩ := List.pairwise_cons.mp hl
    cases e : le x q with
    | true =>
      rw [List.dropWhile_cons_of_pos (p := (le · q)) e]
      exact ih (fun a ha => hle a (List.mem_cons_of_mem _ ha)) h2
    | false =>
      rw [List.dropWhile_cons_of_neg (p := (le · q)) (by simp [e])]
      intro a ha
      rcases List.mem_cons.mp ha with rfl | ha'
      · exact e
      · cases e' : le a q with
        | false => rfl
        | true =>
          have := pathCmp_trans key (h1 a ha') ((hle a ha).mp e')
          rw [(hle x (by simp)).mpr this] at e
          exact absurd e (by decide)

/-- The last node of the list, if it is `<=` another one, is in every subtree of the list that the other one is in. -/
theorem last_below (hk : Function.Injective key) {l : List M} {a z q : M} (hl : l.Pairwise fun a b => pathCmp key (p a) (p b) ≠ .gt)
    (ha : a ∈ l) (hz : l.getLast? = some z) (hzq : pathCmp key (p z) (p q) ≠ .gt) (haq : p a <+: p q) : p a <+: p z := by
  obtain ⟨l', rfl⟩ := List.getLast?_eq_some_iff.mp hz
  rw [List.pairwise_append] at hl
  rcases List.mem_append.mp ha with ha | ha
  · exact pathCmp_between hk (List.prefix_refl _) haq (hl.2.2 a ha z (by simp)) hzq
  · rw [List.mem_singleton.mp ha]
    exact List.prefix_refl _

theorem locateAll_ok (hk : Function.Injective key) (hle : ∀ a b, ok a → ok b → (le a b = true ↔ pathCmp key (p a) (p b) ≠ .gt))
    (hb : ∀ a b, ok a → ok b → (below a b = true ↔ p a <+: p b)) (qs : List M) : ∀ passed leaves, (∀ q ∈ qs, ok q) →
    (∀ m ∈ passed ++ leaves, ok m) → (passed ++ leaves).Pairwise (fun a b => pathCmp key (p a) (p b) ≠ .gt) →
    (passed ++ leaves).Pairwise (fun a b => ¬ p a <+: p b ∧ ¬ p b <+: p a) →
    qs.Pairwise (fun a b => pathCmp key (p a) (p b) ≠ .gt) → (∀ a ∈ passed, ∀ q ∈ qs, pathCmp key (p a) (p q) ≠ .gt) →
    ∀ (i : Nat) q r, qs[i]? = some q → (locateAll le below passed.getLast? leaves qs)[i]? = some r →
      (∀ a, r = some a → a ∈ passed ++ leaves ∧ p a <+: p q) ∧ ∀ a ∈ passed ++ leaves, p a <+: p q → r = some a := by
  induction qs with
  | nil => intro passed leaves _ _ _ _ _ _ i q r hi; simp at hi
  | cons x qs ih =>
    intro passed leaves hqs hok hsort hdis hqsort hpass i q r hi hr
    have hx := hqs x (by simp)
    obtain ⟨s1, s2⟩ := List.pairwise_cons.mp hqsort
    have e0 := List.takeWhile_append_dropWhile (p := (le · x)) (l := leaves)
    have e : (passed ++ leaves.takeWhile (le · x)) ++ leaves.dropWhile (le · x) = passed ++ leaves := by
      rw [List.append_assoc, e0]
    have ecur : (leaves.takeWhile (le · x)).getLast?.or passed.getLast? = (passed ++ leaves.takeWhile (le · x)).getLast? := by
      rw [List.getLast?_append]
    have hleaves : ∀ a ∈ leaves, ok a := fun a ha => hok a (List.mem_append_right _ ha)
    have hpx : ∀ a ∈ passed ++ leaves.takeWhile (le · x), pathCmp key (p a) (p x) ≠ .gt := by
      intro a ha
      rcases List.mem_append.mp ha with ha | ha
      · exact hpass a ha x (by simp)
      · exact (hle a x (hleaves a ((List.takeWhile_sublist _).subset ha)) hx).mp (List.all_eq_true.mp List.all_takeWhile a ha)
    rw [locateAll] at hr
    simp only [ecur] at hr
    cases i with
    | zero =>
      cases hi
      have hr : (passed ++ leaves.takeWhile (le · x)).getLast?.filter (below · x) = r := Option.some.inj hr
      constructor
      · intro a ha
        rw [ha, Option.filter_eq_some_iff] at hr
        have hmem : a ∈ passed ++ leaves := by
          rw [← e]
          exact List.mem_append_left _ (List.mem_of_getLast? hr.1)
        exact ⟨hmem, (hb a x (hok a hmem) hx).mp hr.2⟩
      · intro a ha hax
        have hmem : a ∈ passed ++ leaves.takeWhile (le · x) := by
          rw [← e] at ha
          rcases List.mem_append.mp ha with ha | ha
          · exact ha
          · have h1 := dropWhile_behind (key := key) (p := p) (fun a ha => hle a x (hleaves a ha) hx) (List.pairwise_append.mp hsort).2.1 a ha
            rw [(hle a x (hleaves a ((List.dropWhile_sublist _).subset ha)) hx).mpr (pathCmp_prefix hax)] at h1
            exact absurd h1 (by decide)
        cases hz : (passed ++ leaves.takeWhile (le · x)).getLast? with
        | none =>
          rw [List.getLast?_eq_none_iff] at hz
          rw [hz] at hmem
          cases hmem
        | some z =>
          have hzm : z ∈ passed ++ leaves.takeWhile (le · x) := List.mem_of_getLast? hz
          have hsub : (passed ++ leaves.takeWhile (le · x)).Sublist (passed ++ leaves) :=
            List.Sublist.append (List.Sublist.refl _) (List.takeWhile_sublist _)
          have haz := last_below hk (hsort.sublist hsub) hmem hz (hpx z hzm) hax
          have : a = z := by
            obtain ⟨l', hl'⟩ := List.getLast?_eq_some_iff.mp hz
            have hd := hdis.sublist hsub
            rw [hl'] at hd hmem
            rcases List.mem_append.mp hmem with hm | hm
            · exact absurd haz ((List.pairwise_append.mp hd).2.2 a hm z (by simp)).1
            · exact List.mem_singleton.mp hm
          rw [← hr, hz, ← this, Option.filter_some, if_pos ((hb a x (hok a ha) hx).mpr hax)]
    | succ i =>
      rw [List.getElem?_cons_succ] at hi hr
      have := ih (passed ++ leaves.takeWhile (le · x)) (leaves.dropWhile (le · x)) (fun q hq => hqs q (List.mem_cons_of_mem _ hq))
        (by rw [e]; exact hok) (by rw [e]; exact hsort) (by rw [e]; exact hdis) s2
        (fun a ha q hq => pathCmp_trans key (hpx a ha) (s1 q hq)) i q r hi hr
      rw [e] at this
      exact this

end lists

theorem locatesAll_of [VariableDepthMortonIndex M Cell] [RustOrd M] {c : Cfg} {ok : M → Prop} {p : M → List Cell}
    {wr : Cell → Cell} {key : Cell → Nat} (hk : Function.Injective key) (h : ListLike c ok p wr) (hA : AncLike c ok p)
    (hC : CmpLike c key ok p) : LocatesAll c ok := by
  intro leaves qs le below hleaves hqs hsort hdis hqsort hle hbelow
  have hin : ∀ {a b : M}, ok a → ok b → (InSubtree c a b ↔ p a <+: p b) := fun ha hb => inSubtree_iff hk h hA hC ha hb
  have path : ∀ l : List M, (∀ m ∈ l, ok m) → Sorted c l → l.Pairwise fun a b => pathCmp key (p a) (p b) ≠ .gt := fun l hl hs =>
    List.Pairwise.imp_of_mem (fun {a b} ha hb e => (le_iff_path hC (hl a ha) (hl b hb)).mp e) hs
  refine ⟨locateAll_length _ _ _, fun i q r hi hr => ?_⟩
  have hq := hqs q (List.mem_of_getElem? hi)
  obtain ⟨h1, h2⟩ := locateAll_ok hk (fun a b ha hb => (hle a b ha hb).trans (le_iff_path hC ha hb))
    (fun a b ha hb => (hbelow a b ha hb).trans (hin ha hb)) qs [] leaves hqs hleaves (path leaves hleaves hsort)
    (List.Pairwise.imp_of_mem (fun {a b} ha hb e => by
      rw [← hin (hleaves a ha) (hleaves b hb), ← hin (hleaves b hb) (hleaves a ha)]; exact e) hdis)
    (path qs hqs hqsort) (by simp) i q r hi hr
  simp only [List.nil_append] at h1 h2
  refine ⟨fun a => ⟨fun e => ?_, fun e => h2 a e.1 ((hin (hleaves a e.1) hq).mp e.2)⟩, fun e a ha hs => ?_, fun hn => ?_⟩
  · obtain ⟨q1, q2⟩ := h1 a e
    exact ⟨q1, (hin (hleaves a q1) hq).mpr q2⟩
  · have := h2 a ha ((hin (hleaves a ha) hq).mp hs)
    rw [e] at this
    cases this
  · cases e : r with
    | none => rfl
    | some a =>
      obtain ⟨q1, q2⟩ := h1 a e
      exact absurd ((hin (hleaves a q1) hq).mpr q2) (hn a q1)

/-! ## C125 -/

/-- C125 in 2D. -/
theorem C125_locates_all_2D {c : Cfg} (hc : c.Supported) :
    (∀ w, LocatesAll c (fun m : MortonIndex2D (StaticStorage2D w) => Reach2D c .all (.static w m))) ∧
    LocatesAll c (fun m : MortonIndex2D DynamicStorage2D => Reach2D c .all (.dynamic m)) :=
  ⟨fun _ => locatesAll_of quadrantKey_inj (static_list2 hc) (static_anc2 hc) (static_cmp2 hc),
    locatesAll_of quadrantKey_inj (dynamic_list2' hc) (dynamic_anc2 hc) (dynamic_cmp2 hc)⟩

/-- C125 in 3D. -/
theorem C125_locates_all_3D {c : Cfg} (hc : c.Supported) :
    (∀ w, LocatesAll c (fun m : MortonIndex3D (StaticStorage3D w) => Reach3D c .all (.static w m))) ∧
    LocatesAll c (fun m : MortonIndex3D DynamicStorage3D => Reach3D c .all (.dynamic m)) :=
  ⟨fun _ => locatesAll_of octantKey_inj (static_list3 hc) (static_anc3 hc) (static_cmp3 hc),
    locatesAll_of octantKey_inj (dynamic_list3' hc) (dynamic_anc3 hc) (dynamic_cmp3 hc)⟩

/-! ## Examples -/

/-- The leaves `[Zero]`, `[Three, One]`, `[Three, Two]`. -/
def exLocLeaves : List (MortonIndex2D (StaticStorage2D 16)) := [⟨⟨0#16, 1⟩⟩, ⟨⟨0xD000#16, 2⟩⟩, ⟨⟨0xE000#16, 2⟩⟩]

/-- The nodes `[Zero, Zero]`, `[Zero, Two]`, `[One]`, `[Three, One, Two]` (`exS2`). -/
def exLocNodes : List (MortonIndex2D (StaticStorage2D 16)) := [⟨⟨0#16, 2⟩⟩, ⟨⟨0x2000#16, 2⟩⟩, ⟨⟨0x4000#16, 1⟩⟩, exS2]

/-- `[One]` is in no leaf. -/
example : locateAll (fun a b => decide (RustOrd.le x64 a b = .ok true)) (fun a b => decide (InSubtree x64 a b)) none exLocLeaves exLocNodes =
    [some ⟨⟨0#16, 1⟩⟩, some ⟨⟨0#16, 1⟩⟩, none, some ⟨⟨0xD000#16, 2⟩⟩] := by decide +kernel

/-- The theorem applied to these lists, and the third node. -/
example : ∀ a ∈ exLocLeaves, ¬ InSubtree x64 a (⟨⟨0x4000#16, 1⟩⟩ : MortonIndex2D (StaticStorage2D 16)) :=
  ((((C125_locates_all_2D x64_supported).1 16 exLocLeaves exLocNodes (fun a b => decide (RustOrd.le x64 a b = .ok true))
    (fun a b => decide (InSubtree x64 a b))
    (by
      intro m hm
      simp only [exLocLeaves, List.mem_cons, List.not_mem_nil, or_false] at hm
      rcases hm with rfl | rfl | rfl
      · exact .staticTryFromSlice (cs := [.Zero]) (by decide) (by rfl)
      · exact .staticTryFromSlice (cs := [.Three, .One]) (by decide) (by rfl)
      · exact .staticTryFromSlice (cs := [.Three, .Two]) (by decide) (by rfl))
    (by
      intro m hm
      simp only [exLocNodes, List.mem_cons, List.not_mem_nil, or_false] at hm
      rcases hm with rfl | rfl | rfl | rfl
      · exact .staticTryFromSlice (cs := [.Zero, .Zero]) (by decide) (by rfl)
      · exact .staticTryFromSlice (cs := [.Zero, .Two]) (by decide) (by rfl)
      · exact .staticTryFromSlice (cs := [.One]) (by decide) (by rfl)
      · exact exS2_reach _)
    (by unfold Sorted; decide +kernel) (by unfold Disjoint; decide +kernel) (by unfold Sorted; decide +kernel)
    (fun a b _ _ => by simp) (fun a b _ _ => by simp)).2 2 _ none rfl (by decide +kernel)).2).mp rfl

/-- The dynamic leaf `[Five]`, with `[Five, One, Six]` (`exD3`) twice. -/
example : (⟨⟨[0xA0#8], 1⟩⟩ : MortonIndex3D DynamicStorage3D) ∈ [(⟨⟨[0xA0#8], 1⟩⟩ : MortonIndex3D DynamicStorage3D)] ∧
    InSubtree x64 (⟨⟨[0xA0#8], 1⟩⟩ : MortonIndex3D DynamicStorage3D) exD3 :=
  ((((C125_locates_all_3D x64_supported).2 [⟨⟨[0xA0#8], 1⟩⟩] [exD3, exD3] (fun a b => decide (RustOrd.le x64 a b = .ok true))
    (fun a b => decide (InSubtree x64 a b))
    (by
      intro m hm
      rw [List.mem_singleton.mp hm]
      exact .dynamicTryFromSlice (cs := [.Five]) (by unfold Addressable; decide) (by rfl))
    (by
      intro m hm
      simp only [List.mem_cons, List.not_mem_nil, or_false, or_self] at hm
      rw [hm]
      exact exD3_reach _)
    (by unfold Sorted; decide +kernel) (by unfold Disjoint; decide +kernel) (by unfold Sorted; decide +kernel)
    (fun a b _ _ => by simp) (fun a b _ _ => by simp)).2 1 exD3 _ rfl (by decide +kernel)).1 _).mp rfl

end MortonRs
