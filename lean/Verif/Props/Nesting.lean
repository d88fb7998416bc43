import Verif.Props.Overlaps
import Verif.Props.Examples

/-! # The nodes of a list around each of its nodes (C123)

A list of nodes that may lie in one another is a tree: the parent of a node is the nearest node of the list above it. In a sorted list
all parents are found in one pass with a stack, as for a text with brackets. -/

namespace MortonRs

open MortonIndex VariableDepthMortonIndex

variable {M Cell : Type}

/-! ## Statement -/

/-- Client code: for each node the stack is unwound to the first node that has it below; the node found (if there is one) is the answer,
and the node is put on the stack. -/
def enclosing (below : M → M → Bool) : List M → List M → List (Option M)
  | _, [] => []
  | stack, m :: ms =>
    let rest := stack.dropWhile fun a => !below a m
    rest.head? :: enclosing below (m :: rest) ms

/-- C123. `ms` is sorted and `below` decides whether its second argument is in the subtree of the first. There is one answer for each
node: an earlier node that has it in its subtree with no such node between them in the list, or `None` if there is no such node before
it. No node of the list above the node is missed: each one is `Equal` to the node or has the answer in its subtree, which thus is the
nearest one. -/
def FindsEnclosing [VariableDepthMortonIndex M Cell] [RustOrd M] (c : Cfg) (ok : M → Prop) : Prop :=
  ∀ (ms : List M) (below : M → M → Bool), (∀ m ∈ ms, ok m) → Sorted c ms →
    (∀ a b, ok a → ok b → (below a b = true ↔ InSubtree c a b)) →
    (enclosing below [] ms).length = ms.length ∧
    ∀ (i : Nat) m r, ms[i]? = some m → (enclosing below [] ms)[i]? = some r →
      (∀ a, r = some a → ∃ j : Nat, j < i ∧ ms[j]? = some a ∧ InSubtree c a m ∧
        ∀ (k : Nat) b, j < k → k < i → ms[k]? = some b → ¬ InSubtree c b m) ∧
      (r = none → ∀ (k : Nat) b, k < i → ms[k]? = some b → ¬ InSubtree c b m) ∧
      ∀ b ∈ ms, InSubtree c b m → RustOrd.cmp c b m = .ok .eq ∨ ∃ a, r = some a ∧ InSubtree c b a

/-! ## Proof -/

section lists

variable {key : Cell → Nat} {p : M → List Cell} {below : M → M → Bool} {ok : M → Prop}

theorem enclosing_length (below : M → M → Bool) (ms : List M) : ∀ stack, (enclosing below stack ms).length = ms.length := by
  induction ms with
  | nil => intro stack; rfl
  | cons m ms ih => intro stack; simp [enclosing, ih]

/-- In a chain the nodes above `m` are at the end. -/
theorem dropWhile_chain {m : M} {l : List M} (hb : ∀ a ∈ l, below a m = true ↔ p a <+: p m)
    (hl : l.Pairwise fun a b => p b <+: p a) : l.dropWhile (fun a => !below a m) = l.filter fun a => below a m := by
  induction l with
  | nil => rfl
  | cons x l ih =>
    obtain ⟨h1, h2⟩ := List.pairwise_cons.mp hl
    cases e : below x m with
    | false =>
      rw [List.dropWhile_cons_of_pos (by simp [e]), List.filter_cons_of_neg (by simp [e])]
      exact ih (fun a ha => hb a (List.mem_cons_of_mem _ ha)) h2
    | true =>
      rw [List.dropWhile_cons_of_neg (by simp [e])]
      refine (List.filter_eq_self.mpr fun a ha => ?_).symm
      rcases List.mem_cons.mp ha with rfl | ha'
      · exact e
      · exact (hb a ha).mpr ((h1 a ha').trans ((hb x (by simp)).mp e))

/-- The stack holds what of the nodes done so far can be above a node to come, so the answer is the last node done that is above. -/
theorem enclosing_find (hk : Function.Injective key) (hb : ∀ a b, ok a → ok b → (below a b = true ↔ p a <+: p b)) (ms : List M) :
    ∀ stack done, (∀ m ∈ ms, ok m) → (∀ x ∈ done, ok x) → (∀ x ∈ stack, x ∈ done) →
    ms.Pairwise (fun a b => pathCmp key (p a) (p b) ≠ .gt) → (∀ x ∈ done, ∀ m ∈ ms, pathCmp key (p x) (p m) ≠ .gt) →
    stack.Pairwise (fun a b => p b <+: p a) →
    (∀ m, ok m → (∀ x ∈ done, pathCmp key (p x) (p m) ≠ .gt) → stack.filter (below · m) = done.filter (below · m)) →
    ∀ (i : Nat) m, ms[i]? = some m →
      (enclosing below stack ms)[i]? = some (((ms.take i).reverse ++ done).find? (below · m)) := by
  induction ms with
  | nil => intro stack done _ _ _ _ _ _ _ i m hi; simp at hi
  | cons x ms ih =>
    intro stack done hms hdone hsub hsort hle hchain hinv i m hi
    have hx := hms x (by simp)
    have hms' : ∀ m ∈ ms, ok m := fun m hm => hms m (List.mem_cons_of_mem _ hm)
    obtain ⟨s1, s2⟩ := List.pairwise_cons.mp hsort
    have hst : ∀ a ∈ stack, ok a := fun a ha => hdone a (hsub a ha)
    have hdrop := dropWhile_chain (p := p) (fun a ha => hb a x (hst a ha) hx) hchain
    have hfx := hinv x hx fun y hy => hle y hy x (by simp)
    have hrest : stack.dropWhile (fun a => !below a x) = done.filter (below · x) := hdrop.trans hfx
    cases i with
    | zero =>
      cases hi
      show some _ = some _
      rw [hrest, List.head?_filter]
      rfl
    | succ i =>
      rw [List.getElem?_cons_succ] at hi
      have hstep := ih (x :: stack.dropWhile fun a => !below a x) (x :: done) hms'
        (by simpa using ⟨hx, hdone⟩)
        (fun a ha => by
          rcases List.mem_cons.mp ha with rfl | ha
          · simp
          · exact List.mem_cons_of_mem _ (hsub a ((List.dropWhile_sublist _).subset ha)))
        s2
        (fun y hy m hm => by
          rcases List.mem_cons.mp hy with rfl | hy
          · exact s1 m hm
          · exact hle y hy m (List.mem_cons_of_mem _ hm))
        (by
          rw [List.pairwise_cons]
          refine ⟨fun a ha => ?_, hchain.sublist (List.dropWhile_sublist _)⟩
          rw [hdrop] at ha
          obtain ⟨q1, q2⟩ := List.mem_filter.mp ha
          exact (hb a x (hst a q1) hx).mp q2)
        (fun y hy hley => by
          rw [hrest, List.filter_cons, List.filter_cons, List.filter_filter]
          have e : done.filter (fun a => below a y && below a x) = done.filter (below · y) := by
            refine List.filter_congr fun a ha => ?_
            cases e : below a y with
            | false => rfl
            | true =>
              have h1 := (hb a y (hdone a ha) hy).mp e
              have h2 := pathCmp_between hk (List.prefix_refl _) h1 (hle a ha x (by simp)) (hley x (by simp))
              rw [(hb a x (hdone a ha) hx).mpr h2]
              rfl
          rw [e]) i m hi
      rw [enclosing, List.getElem?_cons_succ, hstep, List.take_succ_cons, List.reverse_cons, List.append_assoc]
      rfl

end lists

theorem findsEnclosing_of [VariableDepthMortonIndex M Cell] [RustOrd M] {c : Cfg} {ok : M → Prop} {p : M → List Cell}
    {wr : Cell → Cell} {key : Cell → Nat} (hk : Function.Injective key) (h : ListLike c ok p wr) (hA : AncLike c ok p)
    (hC : CmpLike c key ok p) : FindsEnclosing c ok := by
  intro ms below hms hsort hbelow
  have hin : ∀ {a b : M}, ok a → ok b → (InSubtree c a b ↔ p a <+: p b) := fun ha hb => inSubtree_iff hk h hA hC ha hb
  have hb : ∀ a b, ok a → ok b → (below a b = true ↔ p a <+: p b) := fun a b ha hb => (hbelow a b ha hb).trans (hin ha hb)
  have hl : ms.Pairwise fun a b => pathCmp key (p a) (p b) ≠ .gt :=
    List.Pairwise.imp_of_mem (fun {a b} ha hb e => (le_iff_path hC (hms a ha) (hms b hb)).mp e) hsort
  refine ⟨enclosing_length _ _ _, fun i m r hi hr => ?_⟩
  have hm := hms m (List.mem_of_getElem? hi)
  have hok : ∀ {k : Nat} {b}, ms[k]? = some b → ok b := fun e => hms _ (List.mem_of_getElem? e)
  rw [enclosing_find hk hb ms [] [] hms (by simp) (by simp) hl (by simp) (by simp) (fun _ _ _ => rfl) i m hi,
    List.append_nil] at hr
  have hr := Option.some.inj hr
  have hil := (List.getElem?_eq_some_iff.mp hi).1
  have hlen : (ms.take i).length = i := by rw [List.length_take]; omega
  -- the answer as a position
  have hsome : ∀ a, r = some a → ∃ j : Nat, j < i ∧ ms[j]? = some a ∧ InSubtree c a m ∧
      ∀ (k : Nat) b, j < k → k < i → ms[k]? = some b → ¬ InSubtree c b m := by
    intro a ha
    rw [ha, List.find?_eq_some_iff_getElem] at hr
    obtain ⟨q1, n, q2, q3, q4⟩ := hr
    rw [List.length_reverse, hlen] at q2
    have qa : ms[i - 1 - n]? = some a := by
      rw [← q3, List.getElem_reverse, List.getElem_take]
      simp only [hlen]
      exact List.getElem?_eq_getElem _
    refine ⟨i - 1 - n, by omega, qa, (hbelow a m (hok qa) hm).mp q1, fun k b hk1 hk2 hkb hsub => ?_⟩
    have := q4 (i - 1 - k) (by omega)
    rw [List.getElem_reverse, List.getElem_take] at this
    have e : ms[(ms.take i).length - 1 - (i - 1 - k)]'(by rw [hlen]; omega) = b := by
      have e1 : (ms.take i).length - 1 - (i - 1 - k) = k := by rw [hlen]; omega
      rw [← Option.some.injEq, ← List.getElem?_eq_getElem, e1, hkb]
    rw [e, (hbelow b m (hok hkb) hm).mpr hsub] at this
    exact absurd this (by decide)
  have hnone : r = none → ∀ (k : Nat) b, k < i → ms[k]? = some b → ¬ InSubtree c b m := by
    intro hn k b hki hkb hsub
    rw [hn, List.find?_eq_none] at hr
    refine hr b ?_ ((hbelow b m (hok hkb) hm).mpr hsub)
    rw [List.mem_reverse, List.mem_iff_getElem?]
    exact ⟨k, by rw [List.getElem?_take_of_lt hki]; exact hkb⟩
  refine ⟨hsome, hnone, fun b hb' hsub => ?_⟩
  obtain ⟨k, hkb⟩ := List.mem_iff_getElem?.mp hb'
  have hbok := hms b hb'
  have hbm := (hin hbok hm).mp hsub
  have hle : ∀ {x y : Nat} {u v}, x < y → ms[x]? = some u → ms[y]? = some v → pathCmp key (p u) (p v) ≠ .gt := by
    intro x y u v hxy hu hv
    obtain ⟨hx, rfl⟩ := List.getElem?_eq_some_iff.mp hu
    obtain ⟨hy, rfl⟩ := List.getElem?_eq_some_iff.mp hv
    exact List.pairwise_iff_getElem.mp hl x y hx hy hxy
  by_cases hki : k < i
  · right
    cases hr' : r with
    | none => exact absurd hsub (hnone hr' k b hki hkb)
    | some a =>
      obtain ⟨j, j1, j2, j3, j4⟩ := hsome a hr'
      refine ⟨a, rfl, (hin hbok (hok j2)).mpr ?_⟩
      have ham := (hin (hok j2) hm).mp j3
      rcases Nat.lt_trichotomy k j with hkj | hkj | hkj
      · exact pathCmp_between hk (List.prefix_refl _) hbm (hle hkj hkb j2) (hle j1 j2 hi)
      · subst hkj
        rw [hkb] at j2
        cases j2
        exact List.prefix_refl _
      · exact absurd hsub (j4 k b hkj hki hkb)
  · left
    rw [(hC _ _ hbok hm).1]
    congr 1
    have h1 := pathCmp_prefix (key := key) hbm
    by_cases hki' : k = i
    · subst hki'
      rw [hi] at hkb
      cases hkb
      exact (pathCmp_eq_iff key hk _ _).mpr rfl
    · have h2 := hle (Nat.lt_of_le_of_ne (Nat.le_of_not_lt hki) (Ne.symm hki')) hi hkb
      rw [← pathCmp_swap key] at h2
      cases e : pathCmp key (p b) (p m) with
      | eq => rfl
      | gt => exact absurd e h1
      | lt => rw [e] at h2; exact absurd rfl h2

/-! ## C123 -/

/-- C123 in 2D. -/
theorem C123_enclosing_2D {c : Cfg} (hc : c.Supported) :
    (∀ w, FindsEnclosing c (fun m : MortonIndex2D (StaticStorage2D w) => Reach2D c .all (.static w m))) ∧
    FindsEnclosing c (fun m : MortonIndex2D DynamicStorage2D => Reach2D c .all (.dynamic m)) :=
  ⟨fun _ => findsEnclosing_of quadrantKey_inj (static_list2 hc) (static_anc2 hc) (static_cmp2 hc),
    findsEnclosing_of quadrantKey_inj (dynamic_list2' hc) (dynamic_anc2 hc) (dynamic_cmp2 hc)⟩

/-- C123 in 3D. -/
theorem C123_enclosing_3D {c : Cfg} (hc : c.Supported) :
    (∀ w, FindsEnclosing c (fun m : MortonIndex3D (StaticStorage3D w) => Reach3D c .all (.static w m))) ∧
    FindsEnclosing c (fun m : MortonIndex3D DynamicStorage3D => Reach3D c .all (.dynamic m)) :=
  ⟨fun _ => findsEnclosing_of octantKey_inj (static_list3 hc) (static_anc3 hc) (static_cmp3 hc),
    findsEnclosing_of octantKey_inj (dynamic_list3' hc) (dynamic_anc3 hc) (dynamic_cmp3 hc)⟩

/-! ## Examples -/

/-- `[Zero]`, `[Three]`, `[Three, One]`, `[Three, One, Two]` (`exS2`), `[Three, Two]`. -/
def exNested : List (MortonIndex2D (StaticStorage2D 16)) :=
  [⟨⟨0#16, 1⟩⟩, ⟨⟨0xC000#16, 1⟩⟩, ⟨⟨0xD000#16, 2⟩⟩, exS2, ⟨⟨0xE000#16, 2⟩⟩]

theorem exNested_reach : ∀ m ∈ exNested, Reach2D x64 .all (.static 16 m) := by
  intro m hm
  simp only [exNested, List.mem_cons, List.not_mem_nil, or_false] at hm
  rcases hm with rfl | rfl | rfl | rfl | rfl
  · exact .staticTryFromSlice (cs := [.Zero]) (by decide) (by rfl)
  · exact .staticTryFromSlice (cs := [.Three]) (by decide) (by rfl)
  · exact .staticTryFromSlice (cs := [.Three, .One]) (by decide) (by rfl)
  · exact exS2_reach _
  · exact .staticTryFromSlice (cs := [.Three, .Two]) (by decide) (by rfl)

/-- The answers: nothing around the first two, `[Three]`, `[Three, One]`, and `[Three]` again. -/
example : enclosing (fun a b => decide (InSubtree x64 a b)) [] exNested =
    [none, none, some ⟨⟨0xC000#16, 1⟩⟩, some ⟨⟨0xD000#16, 2⟩⟩, some ⟨⟨0xC000#16, 1⟩⟩] := by decide +kernel

/-- The theorem applied to this list and its fourth node: nothing above `exS2` is nearer than `[Three, One]`. -/
example : ∀ b ∈ exNested, InSubtree x64 b exS2 → RustOrd.cmp x64 b exS2 = .ok .eq ∨
    ∃ a, some (⟨⟨0xD000#16, 2⟩⟩ : MortonIndex2D (StaticStorage2D 16)) = some a ∧ InSubtree x64 b a :=
  (((C123_enclosing_2D x64_supported).1 16 exNested (fun a b => decide (InSubtree x64 a b)) exNested_reach
    (by unfold Sorted; decide +kernel) (fun a b _ _ => by simp)).2 3 exS2 _ rfl (by decide +kernel)).2.2

/-- The dynamic indices `[Five]` and `[Five, One, Six]` (`exD3`), twice: the second one is found around the third. -/
example : ∃ j : Nat, j < 2 ∧ [(⟨⟨[0xA0#8], 1⟩⟩ : MortonIndex3D DynamicStorage3D), exD3, exD3][j]? = some exD3 ∧ InSubtree x64 exD3 exD3 := by
  obtain ⟨j, h1, h2, h3, -⟩ := (((C123_enclosing_3D x64_supported).2 [⟨⟨[0xA0#8], 1⟩⟩, exD3, exD3] (fun a b => decide (InSubtree x64 a b))
    (by
      intro m hm
      simp only [List.mem_cons, List.not_mem_nil, or_false] at hm
      rcases hm with rfl | rfl | rfl
      · exact .dynamicTryFromSlice (cs := [.Five]) (by unfold Addressable; decide) (by rfl)
      · exact exD3_reach _
      · exact exD3_reach _)
    (by unfold Sorted; decide +kernel) (fun a b _ _ => by simp)).2 2 exD3 _ rfl (by decide +kernel)).1 exD3 rfl
  exact ⟨j, h1, h2, h3⟩

end MortonRs
