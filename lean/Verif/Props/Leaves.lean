import Verif.Props.BottomUp

/-! # Lists of leaves (C95, C96)

A list of nodes none of which is in the subtree of another one is a set of leaves of a quadtree or octree. -/

namespace MortonRs

open MortonIndex VariableDepthMortonIndex

variable {M Cell : Type}

/-! ## Statements -/

/-- No node of the list is in the subtree of another one. -/
def Disjoint [VariableDepthMortonIndex M Cell] [RustOrd M] (c : Cfg) (ms : List M) : Prop :=
  ms.Pairwise fun a b => ¬ InSubtree c a b ∧ ¬ InSubtree c b a

/-- C95. A sorted list of leaves, split where the elements are no longer `<=` a node `q` (`partition_point`): only the last leaf
before the split can have `q` in its subtree, the leaves below `q` come right behind the split, and there are none of them if `q`
is in the subtree of a leaf. -/
def PointLocation [VariableDepthMortonIndex M Cell] [RustOrd M] (c : Cfg) (ok : M → Prop) : Prop :=
  ∀ (ms : List M) q, (∀ m ∈ ms, ok m) → ok q → Sorted c ms → Disjoint c ms →
    ∃ before inside rest, ms = before ++ (inside ++ rest) ∧ (∀ a ∈ before, RustOrd.le c a q = .ok true) ∧
      (∀ b ∈ inside ++ rest, RustOrd.lt c q b = .ok true) ∧
      (∀ b ∈ inside, InSubtree c q b) ∧ (∀ b ∈ rest, ¬ InSubtree c q b) ∧
      (∀ m ∈ ms, InSubtree c m q → before.getLast? = some m ∧ inside = [])

/-- C96. The sizes of the leaves, counted in nodes of depth `L`, add up to at most the size of the root; they add up to it
exactly if every node of depth `L` is in the subtree of a leaf, and then the deeper ones are as well. `makes L` says that all
nodes of depth `L` can be created. -/
def LeavesFill [VariableDepthMortonIndex M Cell] [RustOrd M] (c : Cfg) (K : Nat) (ok : M → Prop) (makes : Nat → Prop) : Prop :=
  ∀ (ms : List M) L, (∀ m ∈ ms, ok m ∧ depth m ≤ L) → Disjoint c ms →
    (ms.map fun m => K ^ (L - depth m)).sum ≤ K ^ L ∧
    ((ms.map fun m => K ^ (L - depth m)).sum = K ^ L → ∀ q, ok q → L ≤ depth q → ∃ m ∈ ms, InSubtree c m q) ∧
    (makes L → (∀ q, ok q → depth q = L → ∃ m ∈ ms, InSubtree c m q) → (ms.map fun m => K ^ (L - depth m)).sum = K ^ L)

/-! ## Sizes of prefix-free sets of paths -/

section kraft

theorem sum_le_of_le {α : Type} (l : List α) (f : α → Nat) (B : Nat) (h : ∀ x ∈ l, f x ≤ B) :
    (l.map f).sum ≤ l.length * B ∧ ((l.map f).sum = l.length * B ↔ ∀ x ∈ l, f x = B) := by
  induction l with
  | nil => simp
  | cons a l ih =>
    obtain ⟨h1, h2⟩ := ih fun x hx => h x (List.mem_cons_of_mem _ hx)
    have ha := h a (by simp)
    simp only [List.map_cons, List.sum_cons, List.length_cons, Nat.succ_mul, List.forall_mem_cons]
    rw [← h2]
    omega

/-- The rests of the paths that begin with `x`. -/
def rests [DecidableEq Cell] (x : Cell) (P : List (List Cell)) : List (List Cell) :=
  P.filterMap fun | y :: t => if y = x then some t else none | [] => none

theorem mem_rests [DecidableEq Cell] {x : Cell} {P : List (List Cell)} {t : List Cell} : t ∈ rests x P ↔ x :: t ∈ P := by
  rw [rests, List.mem_filterMap]
  constructor
  · rintro ⟨p, hp, e⟩
    split at e
    · next y u =>
      split at e
      · next hy => cases e; subst hy; exact hp
      · cases e
    · cases e
  · exact fun h => ⟨_, h, by simp⟩

theorem sum_add_one {α : Type} [DecidableEq α] {l : List α} (hn : l.Nodup) {y : α} (hy : y ∈ l) (f : α → Nat) (v : Nat) :
    (l.map fun x => (if y = x then v else 0) + f x).sum = v + (l.map f).sum := by
  induction l with
  | nil => cases hy
  | cons a l ih =>
    rw [List.nodup_cons] at hn
    simp only [List.map_cons, List.sum_cons]
    rcases List.mem_cons.mp hy with rfl | hy
    · have : (l.map fun x => (if y = x then v else 0) + f x) = l.map f :=
        List.map_congr_left fun x hx => by
          rw [if_neg (fun e : y = x => hn.1 (e ▸ hx)), Nat.zero_add]
      rw [this, if_pos rfl]
      omega
    · rw [ih hn.2 hy, if_neg (fun e : y = a => hn.1 (e ▸ hy))]
      omega

theorem sum_by_first [DecidableEq Cell] {alphabet : List Cell} (hn : alphabet.Nodup) (hall : ∀ x, x ∈ alphabet) (f : Nat → Nat)
    (P : List (List Cell)) (h : [] ∉ P) :
    (P.map fun p => f p.length).sum = (alphabet.map fun x => ((rests x P).map fun t => f (t.length + 1)).sum).sum := by
  induction P with
  | nil =>
    have : ∀ l : List Cell, (l.map fun x => ((rests x []).map fun t => f (t.length + 1)).sum).sum = 0 := by
      intro l
      induction l with
      | nil => rfl
      | cons a l ih => simp only [List.map_cons, List.sum_cons, ih]; rfl
    rw [this]; rfl
  | cons p P ih =>
    cases p with
    | nil => exact absurd (by simp) h
    | cons y t =>
      rw [List.map_cons, List.sum_cons, ih fun e => h (List.mem_cons_of_mem _ e), ← sum_add_one hn (hall y)]
      congr 1
      refine List.map_congr_left fun x _ => ?_
      by_cases e : y = x
      · subst e; simp [rests]
      · simp [rests, e]

theorem kraft [DecidableEq Cell] {alphabet : List Cell} (hn : alphabet.Nodup) (hall : ∀ x, x ∈ alphabet) (L : Nat)
    (P : List (List Cell)) (hL : ∀ p ∈ P, p.length ≤ L) (hP : P.Pairwise fun a b => ¬ a <+: b ∧ ¬ b <+: a) :
    (P.map fun p => alphabet.length ^ (L - p.length)).sum ≤ alphabet.length ^ L ∧
    ((P.map fun p => alphabet.length ^ (L - p.length)).sum = alphabet.length ^ L ↔ ∀ q, q.length = L → ∃ p ∈ P, p <+: q) := by
  have single : [] ∈ P → P = [[]] := by
    intro h
    cases P with
    | nil => cases h
    | cons a P =>
      rw [List.pairwise_cons] at hP
      cases P with
      | nil => rw [List.mem_singleton] at h; rw [← h]
      | cons b P =>
        rcases List.mem_cons.mp h with rfl | h
        · exact absurd List.nil_prefix (hP.1 b (by simp)).1
        · exact absurd List.nil_prefix (hP.1 [] h).2
  by_cases h0 : [] ∈ P
  · rw [single h0]
    simp
  · induction L generalizing P with
    | zero =>
      cases P with
      | nil => simp
      | cons a P =>
        have := hL a (by simp)
        rw [Nat.le_zero, List.length_eq_zero_iff] at this
        exact absurd (by simp [this]) h0
    | succ L ih =>
      have hr : ∀ x, ((rests x P).map fun t => alphabet.length ^ (L - t.length)).sum ≤ alphabet.length ^ L ∧
          (((rests x P).map fun t => alphabet.length ^ (L - t.length)).sum = alphabet.length ^ L ↔
            ∀ q, q.length = L → ∃ t ∈ rests x P, t <+: q) := by
        intro x
        have e1 : ∀ t ∈ rests x P, t.length ≤ L := fun t ht => by
          have := hL _ (mem_rests.mp ht)
          rw [List.length_cons] at this
          omega
        have e2 : (rests x P).Pairwise fun a b => ¬ a <+: b ∧ ¬ b <+: a := by
          rw [rests, List.pairwise_filterMap]
          refine hP.imp fun {a b} hab s hs t ht => ?_
          split at hs
          · split at hs
            · next y u hy =>
              cases hs
              split at ht
              · split at ht
                · next z v hz =>
                  cases ht
                  subst hy hz
                  simpa [List.cons_prefix_cons] using hab
                · cases ht
              · cases ht
            · cases hs
          · cases hs
        by_cases h : [] ∈ rests x P
        · have : rests x P = [[]] := by
            cases hq : rests x P with
            | nil => rw [hq] at h; cases h
            | cons a Q =>
              rw [hq] at h e2
              rw [List.pairwise_cons] at e2
              cases Q with
              | nil => rw [List.mem_singleton] at h; rw [← h]
              | cons b Q =>
                rcases List.mem_cons.mp h with rfl | h
                · exact absurd List.nil_prefix (e2.1 b (by simp)).1
                · exact absurd List.nil_prefix (e2.1 [] h).2
          rw [this]
          simp
        · exact ih (rests x P) e1 e2 (fun e => absurd e h) h
      have e : (P.map fun p => alphabet.length ^ (L + 1 - p.length)).sum =
          (alphabet.map fun x => ((rests x P).map fun t => alphabet.length ^ (L - t.length)).sum).sum := by
        rw [sum_by_first hn hall (fun n => alphabet.length ^ (L + 1 - n)) P h0]
        simp only [Nat.add_sub_add_right]
      obtain ⟨s1, s2⟩ := sum_le_of_le alphabet (fun x => ((rests x P).map fun t => alphabet.length ^ (L - t.length)).sum) _
        (fun x _ => (hr x).1)
      rw [e, Nat.pow_succ', s2]
      refine ⟨s1, fun h q hq => ?_, fun h x _ => (hr x).2.mpr fun t ht => ?_⟩
      · cases q with
        | nil => cases hq
        | cons x t =>
          obtain ⟨u, h1, h2⟩ := (hr x).2.mp (h x (hall x)) t (by simpa using hq)
          exact ⟨x :: u, mem_rests.mp h1, List.cons_prefix_cons.mpr ⟨rfl, h2⟩⟩
      · obtain ⟨p, h1, h2⟩ := h (x :: t) (by simp [ht])
        cases p with
        | nil => exact absurd h1 h0
        | cons y u =>
          obtain ⟨rfl, h3⟩ := List.cons_prefix_cons.mp h2
          exact ⟨u, mem_rests.mpr h1, h3⟩

end kraft

/-! ## Proof -/

section

variable {c : Cfg} {ok : M → Prop} {p : M → List Cell} {wr : Cell → Cell} {key : Cell → Nat}

theorem leavesFill_of [VariableDepthMortonIndex M Cell] [RustOrd M] [DecidableEq Cell] {alphabet : List Cell} (hn : alphabet.Nodup)
    (hall : ∀ x, x ∈ alphabet) (hk : Function.Injective key) (h : ListLike c ok p wr) (hA : AncLike c ok p)
    (hC : CmpLike c key ok p) {makes : Nat → Prop} (hm : ∀ cs, makes cs.length → ∃ q, ok q ∧ p q = cs) :
    LeavesFill c alphabet.length ok makes := by
  intro ms L hms hd
  have e : (ms.map fun m => alphabet.length ^ (L - depth m)) = (ms.map p).map fun t => alphabet.length ^ (L - t.length) := by
    rw [List.map_map]
    exact List.map_congr_left fun m hm => by rw [h.depth_eq m (hms m hm).1]; rfl
  obtain ⟨k1, k2⟩ := kraft hn hall L (ms.map p)
    (by
      intro t ht
      obtain ⟨m, h1, rfl⟩ := List.mem_map.mp ht
      rw [← h.depth_eq m (hms m h1).1]
      exact (hms m h1).2)
    (by
      rw [List.pairwise_map]
      refine hd.imp_of_mem fun {a b} ha hb hab => ?_
      rw [← inSubtree_iff hk h hA hC (hms a ha).1 (hms b hb).1, ← inSubtree_iff hk h hA hC (hms b hb).1 (hms a ha).1]
      exact hab)
  rw [e]
  refine ⟨k1, fun hs q hq hL => ?_, fun hmk hall => k2.mpr fun t ht => ?_⟩
  · rw [h.depth_eq q hq] at hL
    obtain ⟨t, h1, h2⟩ := k2.mp hs ((p q).take L) (by rw [List.length_take]; omega)
    obtain ⟨m, h3, rfl⟩ := List.mem_map.mp h1
    exact ⟨m, h3, (inSubtree_iff hk h hA hC (hms m h3).1 hq).mpr (h2.trans (List.take_prefix ..))⟩
  · obtain ⟨q, h1, rfl⟩ := hm t (by rw [ht]; exact hmk)
    obtain ⟨m, h2, h3⟩ := hall q h1 (by rw [h.depth_eq q h1]; exact ht)
    exact ⟨p m, List.mem_map_of_mem h2, (inSubtree_iff hk h hA hC (hms m h2).1 h1).mp h3⟩

theorem split_sorted [RustOrd M] (hC : CmpLike c key ok p) {ms : List M} {q : M} (hms : ∀ m ∈ ms, ok m) (hq : ok q)
    (hs : Sorted c ms) : ∃ before after, ms = before ++ after ∧ (∀ a ∈ before, RustOrd.le c a q = .ok true) ∧
      (∀ b ∈ after, RustOrd.lt c q b = .ok true) := by
  induction ms with
  | nil => exact ⟨[], [], rfl, by simp, by simp⟩
  | cons a ms ih =>
    unfold Sorted at hs
    rw [List.pairwise_cons] at hs
    have ha := hms a (by simp)
    by_cases hle : pathCmp key (p a) (p q) = .gt
    · refine ⟨[], a :: ms, rfl, by simp, fun b hb => ?_⟩
      have hb' := hms b hb
      rw [lt_iff_path hC hq hb']
      have h1 : pathCmp key (p q) (p a) = .lt := by rw [← pathCmp_swap key (p a), hle]; rfl
      rcases List.mem_cons.mp hb with rfl | hb
      · exact h1
      · have h2 := (le_iff_path hC ha hb').mp (hs.1 b hb)
        cases h : pathCmp key (p q) (p b) with
        | lt => rfl
        | gt => exact absurd h (pathCmp_trans key (by rw [h1]; decide) h2)
        | eq =>
          have h3 : pathCmp key (p b) (p q) ≠ .gt := by rw [← pathCmp_swap key (p q), h]; decide
          exact absurd hle (pathCmp_trans key h2 h3)
    · obtain ⟨bf, af, e, h1, h2⟩ := ih (fun m hm => hms m (List.mem_cons_of_mem _ hm)) hs.2
      refine ⟨a :: bf, af, by rw [e]; rfl, fun x hx => ?_, h2⟩
      rcases List.mem_cons.mp hx with rfl | hx
      · exact (le_iff_path hC ha hq).mpr hle
      · exact h1 x hx

theorem split_inside [VariableDepthMortonIndex M Cell] [RustOrd M] (hk : Function.Injective key) (h : ListLike c ok p wr)
    (hA : AncLike c ok p) (hC : CmpLike c key ok p) {ms : List M} {q : M} (hms : ∀ m ∈ ms, ok m) (hq : ok q) (hs : Sorted c ms)
    (hlt : ∀ m ∈ ms, RustOrd.lt c q m = .ok true) :
    ∃ inside rest, ms = inside ++ rest ∧ (∀ b ∈ inside, InSubtree c q b) ∧ (∀ b ∈ rest, ¬ InSubtree c q b) := by
  induction ms with
  | nil => exact ⟨[], [], rfl, by simp, by simp⟩
  | cons a ms ih =>
    unfold Sorted at hs
    rw [List.pairwise_cons] at hs
    have ha := hms a (by simp)
    by_cases hin : InSubtree c q a
    · obtain ⟨i, r, e, h1, h2⟩ := ih (fun m hm => hms m (List.mem_cons_of_mem _ hm)) hs.2
        (fun m hm => hlt m (List.mem_cons_of_mem _ hm))
      refine ⟨a :: i, r, by rw [e]; rfl, fun b hb => ?_, h2⟩
      rcases List.mem_cons.mp hb with rfl | hb
      · exact hin
      · exact h1 b hb
    · refine ⟨[], a :: ms, rfl, by simp, fun b hb hqb => ?_⟩
      rcases List.mem_cons.mp hb with rfl | hb
      · exact hin hqb
      · have hb' := hms b (List.mem_cons_of_mem _ hb)
        have h1 := (lt_iff_path hC hq ha).mp (hlt a (by simp))
        have h2 := (le_iff_path hC ha hb').mp (hs.1 b hb)
        exact hin ((inSubtree_iff hk h hA hC hq ha).mpr (pathCmp_between hk (List.prefix_refl _)
          ((inSubtree_iff hk h hA hC hq hb').mp hqb) (by rw [h1]; decide) h2))

theorem pointLocation_of [VariableDepthMortonIndex M Cell] [RustOrd M] (hk : Function.Injective key) (h : ListLike c ok p wr)
    (hA : AncLike c ok p) (hC : CmpLike c key ok p) : PointLocation c ok := by
  intro ms q hms hq hs hd
  obtain ⟨bf, af, rfl, h1, h2⟩ := split_sorted hC hms hq hs
  have hokb : ∀ m ∈ bf, ok m := fun m hm => hms m (List.mem_append_left _ hm)
  have hoka : ∀ m ∈ af, ok m := fun m hm => hms m (List.mem_append_right _ hm)
  unfold Sorted at hs
  unfold Disjoint at hd
  rw [List.pairwise_append] at hs hd
  obtain ⟨i, r, rfl, h3, h4⟩ := split_inside hk h hA hC hoka hq hs.2.1 h2
  refine ⟨bf, i, r, rfl, h1, h2, h3, h4, fun m hm hin => ?_⟩
  rw [inSubtree_iff hk h hA hC (hms m hm) hq] at hin
  have hle := pathCmp_prefix (key := key) hin
  rcases List.mem_append.mp hm with hb | hb
  · constructor
    · obtain ⟨l1, l2, rfl⟩ := List.append_of_mem hb
      cases l2 with
      | nil => simp
      | cons b l2 =>
        have hb' : b ∈ l1 ++ m :: b :: l2 := by simp
        have hpw := (List.pairwise_append.mp hs.1).2.1
        have hpd := (List.pairwise_append.mp hd.1).2.1
        rw [List.pairwise_cons] at hpw hpd
        have hmb := (le_iff_path hC (hokb m hb) (hokb b hb')).mp (hpw.1 b (by simp))
        have hbq := (le_iff_path hC (hokb b hb') hq).mp (h1 b hb')
        have := pathCmp_between hk (List.prefix_refl _) hin hmb hbq
        exact absurd ((inSubtree_iff hk h hA hC (hokb m hb) (hokb b hb')).mpr this) (hpd.1 b (by simp)).1
    · cases i with
      | nil => rfl
      | cons x i =>
        have hx : x ∈ x :: i ++ r := by simp
        have := hin.trans ((inSubtree_iff hk h hA hC hq (hoka x hx)).mp (h3 x (by simp)))
        exact absurd ((inSubtree_iff hk h hA hC (hokb m hb) (hoka x hx)).mpr this) (hd.2.2 m hb x hx).1
  · have := (lt_iff_path hC hq (hoka m hb)).mp (h2 m hb)
    rw [← pathCmp_swap key, this] at hle
    exact absurd rfl hle

end

/-! ## C95, C96 -/

theorem C95_point_location_2D {c : Cfg} (hc : c.Supported) :
    (∀ w, PointLocation c (fun m : MortonIndex2D (StaticStorage2D w) => Reach2D c .all (.static w m))) ∧
    PointLocation c (fun m : MortonIndex2D DynamicStorage2D => Reach2D c .all (.dynamic m)) :=
  ⟨fun _ => pointLocation_of quadrantKey_inj (static_list2 hc) (static_anc2 hc) (static_cmp2 hc),
    pointLocation_of quadrantKey_inj (dynamic_list2' hc) (dynamic_anc2 hc) (dynamic_cmp2 hc)⟩

theorem C95_point_location_3D {c : Cfg} (hc : c.Supported) :
    (∀ w, PointLocation c (fun m : MortonIndex3D (StaticStorage3D w) => Reach3D c .all (.static w m))) ∧
    PointLocation c (fun m : MortonIndex3D DynamicStorage3D => Reach3D c .all (.dynamic m)) :=
  ⟨fun _ => pointLocation_of octantKey_inj (static_list3 hc) (static_anc3 hc) (static_cmp3 hc),
    pointLocation_of octantKey_inj (dynamic_list3' hc) (dynamic_anc3 hc) (dynamic_cmp3 hc)⟩

theorem C96_leaves_fill_2D {c : Cfg} (hc : c.Supported) :
    (∀ w, IntWidth w → LeavesFill c 4 (fun m : MortonIndex2D (StaticStorage2D w) => Reach2D c .all (.static w m))
      (fun L => L ≤ w / 2)) ∧
    LeavesFill c 4 (fun m : MortonIndex2D DynamicStorage2D => Reach2D c .all (.dynamic m))
      (fun L => DynWrites c ∧ Addressable c (L * 2)) := by
  have hall : ∀ x : Quadrant, x ∈ [Quadrant.Zero, .One, .Two, .Three] := by intro x; cases x <;> decide
  refine ⟨fun w hw => leavesFill_of (alphabet := [Quadrant.Zero, .One, .Two, .Three]) (by decide) hall quadrantKey_inj
      (static_list2 hc) (static_anc2 hc) (static_cmp2 hc) fun cs h => ?_,
    leavesFill_of (alphabet := [Quadrant.Zero, .One, .Two, .Three]) (by decide) hall quadrantKey_inj
      (dynamic_list2' hc) (dynamic_anc2 hc) (dynamic_cmp2 hc) fun cs h => ?_⟩
  · obtain ⟨m, h1, -, -, -, h2⟩ := MortonIndex2D.static_tryFrom (w := w) hc hw h
    exact ⟨m, .staticTryFromSlice hw h1, h2⟩
  · obtain ⟨m, h1, -, -, -, h2⟩ := MortonIndex2D.dynamic_tryFrom hc h.2
    exact ⟨m, .dynamicTryFromSlice h.2 h1, h2 h.1⟩

theorem C96_leaves_fill_3D {c : Cfg} (hc : c.Supported) :
    (∀ w, IntWidth w → LeavesFill c 8 (fun m : MortonIndex3D (StaticStorage3D w) => Reach3D c .all (.static w m))
      (fun L => L ≤ w / 3)) ∧
    LeavesFill c 8 (fun m : MortonIndex3D DynamicStorage3D => Reach3D c .all (.dynamic m))
      (fun L => DynWrites c ∧ Addressable c (L * 3)) := by
  have hall : ∀ x : Octant, x ∈ [Octant.Zero, .One, .Two, .Three, .Four, .Five, .Six, .Seven] := by intro x; cases x <;> decide
  refine ⟨fun w hw => leavesFill_of (alphabet := [Octant.Zero, .One, .Two, .Three, .Four, .Five, .Six, .Seven]) (by decide) hall
      octantKey_inj (static_list3 hc) (static_anc3 hc) (static_cmp3 hc) fun cs h => ?_,
    leavesFill_of (alphabet := [Octant.Zero, .One, .Two, .Three, .Four, .Five, .Six, .Seven]) (by decide) hall
      octantKey_inj (dynamic_list3' hc) (dynamic_anc3 hc) (dynamic_cmp3 hc) fun cs h => ?_⟩
  · obtain ⟨m, h1, -, -, -, h2⟩ := MortonIndex3D.static_tryFrom (w := w) hc hw h
    exact ⟨m, .staticTryFromSlice hw h1, h2⟩
  · obtain ⟨m, h1, -, -, -, h2⟩ := MortonIndex3D.dynamic_tryFrom hc h.2
    exact ⟨m, .dynamicTryFromSlice h.2 h1, h2 h.1⟩

/-! ## Examples -/

instance [VariableDepthMortonIndex M Cell] [RustOrd M] (c : Cfg) (x y : M) : Decidable (InSubtree c x y) :=
  match h : withDepth c y (depth x) with
  | .ok (some z) =>
    if e : RustOrd.cmp c z x = .ok .eq then .isTrue ⟨z, h, e⟩
    else .isFalse fun ⟨z', h', e'⟩ => by rw [h] at h'; cases h'; exact e e'
  | .ok none => .isFalse fun ⟨_, h', _⟩ => by rw [h] at h'; cases h'
  | .error _ => .isFalse fun ⟨_, h', _⟩ => by rw [h] at h'; cases h'

/-- `[Zero]`, `[One]`, `[Two]` and the four children of `[Three]`. -/
def exLeaves2 : List (MortonIndex2D (StaticStorage2D 16)) :=
  [⟨⟨0#16, 1⟩⟩, ⟨⟨0x4000#16, 1⟩⟩, ⟨⟨0x8000#16, 1⟩⟩, ⟨⟨0xC000#16, 2⟩⟩, ⟨⟨0xD000#16, 2⟩⟩, ⟨⟨0xE000#16, 2⟩⟩, ⟨⟨0xF000#16, 2⟩⟩]

theorem exLeaves2_reach : ∀ m ∈ exLeaves2, Reach2D x64 .all (.static 16 m) := by
  intro m hm
  simp only [exLeaves2, List.mem_cons, List.not_mem_nil, or_false] at hm
  rcases hm with rfl | rfl | rfl | rfl | rfl | rfl | rfl
  · exact .staticTryFromSlice (cs := [.Zero]) (by decide) (by rfl)
  · exact .staticTryFromSlice (cs := [.One]) (by decide) (by rfl)
  · exact .staticTryFromSlice (cs := [.Two]) (by decide) (by rfl)
  · exact .staticTryFromSlice (cs := [.Three, .Zero]) (by decide) (by rfl)
  · exact .staticTryFromSlice (cs := [.Three, .One]) (by decide) (by rfl)
  · exact .staticTryFromSlice (cs := [.Three, .Two]) (by decide) (by rfl)
  · exact .staticTryFromSlice (cs := [.Three, .Three]) (by decide) (by rfl)

theorem exLeaves2_disjoint : Disjoint x64 exLeaves2 := by unfold Disjoint; decide +kernel

/-- `exS2`, the node of `[Three, One, Two]`, is in the subtree of the fifth leaf. -/
example : ∃ before inside rest, exLeaves2 = before ++ (inside ++ rest) ∧ before.getLast? = some ⟨⟨0xD000#16, 2⟩⟩ ∧ inside = [] := by
  obtain ⟨b, i, r, e, -, -, -, -, h⟩ := ((C95_point_location_2D x64_supported).1 16) exLeaves2 exS2 exLeaves2_reach (exS2_reach _)
    (by unfold Sorted; decide +kernel) exLeaves2_disjoint
  exact ⟨b, i, r, e, h ⟨⟨0xD000#16, 2⟩⟩ (by decide) (by decide +kernel)⟩

/-- Three quarters and four sixteenths: every node from depth two on is below a leaf. -/
example : ∀ q, Reach2D x64 .all (.static 16 q) → 2 ≤ depth q → ∃ m ∈ exLeaves2, InSubtree x64 m q :=
  ((C96_leaves_fill_2D x64_supported).1 16 (by decide) exLeaves2 2 (fun m hm => ⟨exLeaves2_reach m hm, by
    revert m; decide⟩) exLeaves2_disjoint).2.1 (by decide)

/-- Without the second leaf the sum is too small, so a node of depth two is in no leaf. -/
example : ¬ ∀ q, Reach2D x64 .all (.static 16 q) → depth q = 2 → ∃ m ∈ exLeaves2.eraseIdx 1, InSubtree x64 m q := fun h =>
  absurd (((C96_leaves_fill_2D x64_supported).1 16 (by decide) (exLeaves2.eraseIdx 1) 2
    (fun m hm => ⟨exLeaves2_reach m (List.mem_of_mem_eraseIdx hm), by revert m; decide⟩)
    (by unfold Disjoint; decide +kernel)).2.2 (by decide) h) (by decide)

/-- The dynamic leaves `[Five, One, Six]` and `[Six]` seen from `[Five]`: the first is below it. -/
example : ∃ before inside rest, [exD3, (⟨⟨[0xC0#8], 1⟩⟩ : MortonIndex3D DynamicStorage3D)] = before ++ (inside ++ rest) ∧
    (∀ b ∈ inside, InSubtree x64 (⟨⟨[0xA0#8], 1⟩⟩ : MortonIndex3D DynamicStorage3D) b) ∧
    (∀ b ∈ rest, ¬ InSubtree x64 (⟨⟨[0xA0#8], 1⟩⟩ : MortonIndex3D DynamicStorage3D) b) := by
  obtain ⟨b, i, r, e, -, -, h1, h2, -⟩ := (C95_point_location_3D x64_supported).2
    [exD3, ⟨⟨[0xC0#8], 1⟩⟩] ⟨⟨[0xA0#8], 1⟩⟩
    (by
      intro m hm
      simp only [List.mem_cons, List.not_mem_nil, or_false] at hm
      rcases hm with rfl | rfl
      · exact exD3_reach _
      · exact .dynamicTryFromSlice (cs := [.Six]) (by unfold Addressable; decide) (by rfl))
    (.dynamicTryFromSlice (cs := [.Five]) (by unfold Addressable; decide) (by rfl))
    (by unfold Sorted; decide +kernel) (by unfold Disjoint; decide +kernel)
  exact ⟨b, i, r, e, h1, h2⟩

/-- Two disjoint dynamic leaves, of one 512th and one eighth of the root. -/
example : 8 ^ (3 - 3) + 8 ^ (3 - 1) ≤ 8 ^ 3 := by
  have := ((C96_leaves_fill_3D x64_supported).2 [exD3, ⟨⟨[0xC0#8], 1⟩⟩] 3
    (by
      intro m hm
      simp only [List.mem_cons, List.not_mem_nil, or_false] at hm
      rcases hm with rfl | rfl
      · exact ⟨exD3_reach _, by decide⟩
      · exact ⟨.dynamicTryFromSlice (cs := [.Six]) (by unfold Addressable; decide) (by rfl), by decide⟩)
    (by unfold Disjoint; decide +kernel)).1
  exact this

end MortonRs
