import Verif.Props.Window

/-! # Jumping over what is outside a window (C124)

A range search in a sorted list that has left its window can jump to the next node of the window in the order ("BIGMIN"). The node is
found by one descent, and jumping leaves out nothing. -/

namespace MortonRs

open BitStorage MortonIndex VariableDepthMortonIndex

variable {M Cell : Type}

/-! ## Statement -/

/-- Client code: the first node `n` levels below `m`, in the order of the cells, that is not skipped; a skipped node is not descended
into. -/
def firstBelow [VariableDepthMortonIndex M Cell] (c : Cfg) (skip : M → Res Bool) (order : List Cell) : Nat → M → Res (Option M)
  | 0, m => do
    if ← skip m then return none else return some m
  | n + 1, m => do
    if ← skip m then return none
    else order.findSomeM? fun v => do
      match ← child c m v with
      | none => return none
      | some k => firstBelow c skip order n k

/-- Client code: the first node of the depth of `q` below `root` that is in the window and not before `q`. A node is skipped if it is
outside the window, or before `q.with_depth(its depth)`. -/
def nextInWindow [VariableDepthMortonIndex M Cell] [RustOrd M] (c : Cfg) (test : M → Res Verdict) (order : List Cell) (root q : M) :
    Res (Option M) :=
  firstBelow c (fun m => do
    match ← test m with
    | .outside => return true
    | _ =>
      match ← withDepth c q (depth m) with
      | none => return false
      | some a => RustOrd.lt c m a) order (depth q - depth root) root

/-- Client code: what of a sorted list is in the window. From a node that is not in the window the search jumps to the first node of the
list that is not before the next node in the window; `before` is the comparison with `<`, and `n` is at least the number of nodes. -/
def jumpScan (test : M → Res Verdict) (next : M → Res (Option M)) (before : M → M → Bool) : Nat → List M → Res (List M)
  | n + 1, m :: ms => do
    match ← test m with
    | .inside => return m :: (← jumpScan test next before n ms)
    | _ =>
      match ← next m with
      | none => return []
      | some k => jumpScan test next before n (ms.dropWhile (before · k))
  | _, _ => .ok []

/-- C124. `has m` says that the node `m`, one position of the grid of its depth, is in the window, and `test L` is the test against
the window in the grid of depth `L`. The node found is in the window, not before `q`, and before all others like it; if `None` is
returned all nodes in the window are before `q`. The search with jumps returns what looking at each node returns. -/
def JumpsAhead [VariableDepthMortonIndex M Cell] [RustOrd M] (c : Cfg) (ok : M → Prop) (order : List Cell) (test : Nat → M → Res Verdict)
    (has : M → Prop) (room : M → Nat → Prop) : Prop :=
  ∀ root L, ok root → depth root ≤ L → L ≤ c.ptrBits → room root (L - depth root) →
    (∀ q, ok q → depth q = L →
      (nextInWindow c (test L) order root q = .ok none ∧
        ∀ k, ok k → depth k = L → InSubtree c root k → has k → RustOrd.lt c k q = .ok true) ∨
      ∃ n, nextInWindow c (test L) order root q = .ok (some n) ∧ ok n ∧ depth n = L ∧ InSubtree c root n ∧ has n ∧
        RustOrd.le c q n = .ok true ∧
        ∀ k, ok k → depth k = L → InSubtree c root k → has k → RustOrd.le c q k = .ok true → RustOrd.le c n k = .ok true) ∧
    ∀ ms (before : M → M → Bool) (inWindow : M → Bool) n, (∀ m ∈ ms, ok m ∧ depth m = L ∧ InSubtree c root m) → Sorted c ms →
      (∀ a b, ok a → ok b → (before a b = true ↔ RustOrd.lt c a b = .ok true)) → (∀ m ∈ ms, inWindow m = true ↔ has m) → ms.length ≤ n →
      jumpScan (test L) (nextInWindow c (test L) order root) before n ms = .ok (ms.filter inWindow)

/-- The position of the node is in the window. -/
def Window2D.HasNode {S : Type} [Storage S Quadrant] (b : Window2D) (c : Cfg) (o : QuadrantOrdering) (m : MortonIndex2D S) : Prop :=
  ∃ g, m.toGridIndex c o = .ok g ∧ b.Has g.x.toNat g.y.toNat

/-- The same in 3D. -/
def Window3D.HasNode {S : Type} [Storage S Octant] (b : Window3D) (c : Cfg) (o : OctantOrdering) (m : MortonIndex3D S) : Prop :=
  ∃ g, m.toGridIndex c o = .ok g ∧ b.Has fun | .X => g.x.toNat | .Y => g.y.toNat | .Z => g.z.toNat

/-! ## Proof -/

section generic
variable [VariableDepthMortonIndex M Cell] {c : Cfg} {ok : M → Prop} {p : M → List Cell} {wr : Cell → Cell} {key : Cell → Nat}
  {room room' : M → Nat → Prop} {limit : Option Nat} {order : List Cell} {skip : M → Res Bool} {Skip : List Cell → Prop} {L : Nat}

/-- The first one of the paths `xs ++ t` with `t` in `T` that is not skipped. -/
def FirstOf (ok : M → Prop) (p : M → List Cell) (key : Cell → Nat) (Skip : List Cell → Prop) (xs : List Cell) (T : List Cell → Prop)
    (r : Res (Option M)) : Prop :=
  (r = .ok none ∧ ∀ t, T t → Skip (xs ++ t)) ∨
  ∃ a t, r = .ok (some a) ∧ ok a ∧ T t ∧ p a = xs ++ t ∧ ¬ Skip (p a) ∧ ∀ t, T t → ¬ Skip (xs ++ t) → pathCmp key (p a) (xs ++ t) ≠ .gt

theorem firstBelow_children (hD : DescLike c ok p room limit) {m : M} (hm : ok m) (k : Nat) (h1 : room m 1)
    (he : ¬ Exceeds limit ((p m).length + 1))
    (ih : ∀ a v, ok a → p a = p m ++ [v] → FirstOf ok p key Skip (p a) (fun t => t.length = k) (firstBelow c skip order k a))
    (vs : List Cell) (hvs : vs.Pairwise (fun v w => key v < key w)) :
    FirstOf ok p key Skip (p m) (fun t => ∃ v ∈ vs, ∃ s, s.length = k ∧ t = v :: s) (vs.findSomeM? fun v => do
      match ← child c m v with
      | none => return none
      | some a => firstBelow c skip order k a) := by
  induction vs with
  | nil => exact .inl ⟨rfl, by simp⟩
  | cons v vs ihv =>
    rw [List.pairwise_cons] at hvs
    have hchild : child c m v = descendant c m [v] := rfl
    obtain ⟨a, a1, a2, a3⟩ := hD.yes m hm [v] h1 he
    have e : ∀ s, p a ++ s = p m ++ v :: s := fun s => by rw [a3]; simp
    rw [List.findSomeM?, hchild, a1]
    rcases ih a v a2 a3 with ⟨w1, w2⟩ | ⟨b, t, w1, w2, w3, w4, w5, w6⟩
    · simp only [ok_bind, w1]
      rcases ihv hvs.2 with ⟨g1, g2⟩ | ⟨b, t, g1, g2, ⟨u, hu, s, hs, et⟩, g4, g5, g6⟩
      · refine .inl ⟨g1, fun t ⟨u, hu, s, hs, et⟩ => ?_⟩
        rcases List.mem_cons.mp hu with rfl | hu
        · rw [et, ← e]
          exact w2 s hs
        · exact g2 t ⟨u, hu, s, hs, et⟩
      · refine .inr ⟨b, t, g1, g2, ⟨u, List.mem_cons_of_mem _ hu, s, hs, et⟩, g4, g5, fun t' ⟨u', hu', s', hs', et'⟩ hn => ?_⟩
        rcases List.mem_cons.mp hu' with rfl | hu'
        · rw [et', ← e] at hn
          exact absurd (w2 s' hs') hn
        · exact g6 t' ⟨u', hu', s', hs', et'⟩ hn
    · simp only [ok_bind, w1]
      refine .inr ⟨b, v :: t, rfl, w2, ⟨v, by simp, t, w3, rfl⟩, by rw [w4, e], w5, fun t' ⟨u', hu', s', hs', et'⟩ hn => ?_⟩
      rcases List.mem_cons.mp hu' with rfl | hu'
      · rw [et', ← e] at hn ⊢
        exact w6 s' hs' hn
      · rw [w4, e, et', pathCmp_branch key (hvs.1 u' hu')]
        decide

theorem firstBelow_first (hD : DescLike c ok p room limit) (hord : order.Pairwise (fun v w => key v < key w)) (hall : ∀ v, v ∈ order)
    (hr : ∀ m, ok m → ∀ k, room' m (k + 1) → room m 1 ∧ ¬ Exceeds limit ((p m).length + 1) ∧
      ∀ a v, ok a → p a = p m ++ [v] → room' a k)
    (hS : ∀ m, ok m → (p m).length ≤ L → ∃ b, skip m = .ok b ∧ (b = true ↔ Skip (p m)))
    (hext : ∀ xs t, (xs ++ t).length ≤ L → Skip xs → Skip (xs ++ t))
    (k : Nat) : ∀ m, ok m → (p m).length + k = L → room' m k →
      FirstOf ok p key Skip (p m) (fun t => t.length = k) (firstBelow c skip order k m) := by
  induction k with
  | zero =>
    intro m hm hl _
    obtain ⟨b, b1, b2⟩ := hS m hm (by omega)
    rw [firstBelow, b1]
    cases b with
    | true => exact .inl ⟨rfl, fun t ht => hext _ _ (by rw [List.length_append]; omega) (b2.mp rfl)⟩
    | false =>
      refine .inr ⟨m, [], rfl, hm, rfl, by simp, fun hs => by simpa using b2.mpr hs, fun t ht _ => ?_⟩
      rw [List.length_eq_zero_iff.mp ht, List.append_nil, pathCmp_refl]
      decide
  | succ k ih =>
    intro m hm hl hrm
    obtain ⟨b, b1, b2⟩ := hS m hm (by omega)
    rw [firstBelow, b1]
    cases b with
    | true => exact .inl ⟨rfl, fun t ht => hext _ _ (by rw [List.length_append]; omega) (b2.mp rfl)⟩
    | false =>
      obtain ⟨r1, r2, r3⟩ := hr m hm k hrm
      have := firstBelow_children (key := key) (Skip := Skip) (skip := skip) (order := order) hD hm k r1 r2
        (fun a v ha ea => ih a ha (by rw [ea, List.length_append, List.length_singleton]; omega) (r3 a v ha ea)) order hord
      simp only [ok_bind, Bool.false_eq_true, if_false]
      have conv : ∀ t : List Cell, t.length = k + 1 ↔ ∃ v ∈ order, ∃ s, s.length = k ∧ t = v :: s := by
        intro t
        constructor
        · intro ht
          cases t with
          | nil => simp at ht
          | cons v s => exact ⟨v, hall v, s, by simpa using ht, rfl⟩
        · rintro ⟨v, -, s, hs, rfl⟩
          simp [hs]
      simpa only [conv] using this

end generic

section window
variable [VariableDepthMortonIndex M Cell] [RustOrd M] {c : Cfg} {ok : M → Prop} {p : M → List Cell} {wr : Cell → Cell} {key : Cell → Nat}
  {room room' : M → Nat → Prop} {limit : Option Nat} {order : List Cell} {test : Nat → M → Res Verdict} {has : M → Prop}

omit [RustOrd M] in
theorem jumpScan_filter {ok : M → Prop} {test : M → Res Verdict} {next : M → Res (Option M)} {before : M → M → Bool} {inWindow : M → Bool}
    {le : M → M → Prop}
    (hT : ∀ m, ok m → ∃ v, test m = .ok v ∧ (v = .inside ↔ has m))
    (hN : ∀ m, ok m → (next m = .ok none ∧ ∀ k, ok k → has k → ¬ le m k) ∨
      ∃ n, next m = .ok (some n) ∧ ∀ k, ok k → has k → le m k → before k n = false)
    (n : Nat) : ∀ ms, ms.length ≤ n → (∀ m ∈ ms, ok m) → (∀ m ∈ ms, inWindow m = true ↔ has m) → ms.Pairwise le →
      jumpScan test next before n ms = .ok (ms.filter inWindow) := by
  induction n with
  | zero =>
    intro ms hl _ _ _
    rw [List.length_eq_zero_iff.mp (Nat.le_zero.mp hl)]
    rfl
  | succ n ih =>
    intro ms hl hms hw hs
    cases ms with
    | nil => rfl
    | cons m ms =>
      obtain ⟨s1, s2⟩ := List.pairwise_cons.mp hs
      have hms' : ∀ x ∈ ms, ok x := fun x hx => hms x (List.mem_cons_of_mem _ hx)
      have hw' : ∀ x ∈ ms, inWindow x = true ↔ has x := fun x hx => hw x (List.mem_cons_of_mem _ hx)
      rw [List.length_cons] at hl
      obtain ⟨v, v1, v2⟩ := hT m (hms m (by simp))
      by_cases hv : v = .inside
      · subst hv
        rw [jumpScan, v1, List.filter_cons_of_pos ((hw m (by simp)).mpr (v2.mp rfl))]
        simp only [ok_bind, ih ms (by omega) hms' hw' s2]
        rfl
      · have hno : ¬ inWindow m = true := fun e => hv (v2.mpr ((hw m (by simp)).mp e))
        have step : jumpScan test next before (n + 1) (m :: ms) = (do
            match ← next m with
            | none => return []
            | some k => jumpScan test next before n (ms.dropWhile (before · k))) := by
          rw [jumpScan, v1]
          cases v with
          | inside => exact absurd rfl hv
          | outside => rfl
          | partly => rfl
        rw [step, List.filter_cons_of_neg hno]
        rcases hN m (hms m (by simp)) with ⟨h1, h2⟩ | ⟨k, h1, h2⟩
        · simp only [h1, ok_bind]
          have : ms.filter inWindow = [] := List.filter_eq_nil_iff.mpr fun x hx e => h2 x (hms' x hx) ((hw' x hx).mp e) (s1 x hx)
          rw [this]
          rfl
        · simp only [h1, ok_bind]
          have hsub := List.dropWhile_sublist (l := ms) (before · k)
          rw [ih _ (Nat.le_trans hsub.length_le (by omega)) (fun x hx => hms' x (hsub.subset hx)) (fun x hx => hw' x (hsub.subset hx))
            (s2.sublist hsub)]
          congr 1
          have e := List.takeWhile_append_dropWhile (p := (before · k)) (l := ms)
          have : (ms.takeWhile (before · k)).filter inWindow = [] := by
            refine List.filter_eq_nil_iff.mpr fun x hx e => ?_
            have hx' := (List.takeWhile_sublist (before · k)).subset hx
            have hb : before x k = true := List.all_eq_true.mp List.all_takeWhile x hx
            rw [h2 x (hms' x hx') ((hw' x hx').mp e) (s1 x hx')] at hb
            exact absurd hb (by decide)
          refine Eq.trans ?_ (congrArg (List.filter inWindow) e)
          rw [List.filter_append, this, List.nil_append]

theorem jumpsAhead_of (hk : Function.Injective key) (h : ListLike c ok p wr) (hA : AncLike c ok p) (hD : DescLike c ok p room limit)
    (hC : CmpLike c key ok p) (hord : order.Pairwise (fun v w => key v < key w)) (hall : ∀ v, v ∈ order)
    (hr : ∀ m, ok m → ∀ k, room' m (k + 1) → room m 1 ∧ ¬ Exceeds limit ((p m).length + 1) ∧
      ∀ a v, ok a → p a = p m ++ [v] → room' a k)
    (Out : Nat → List Cell → Prop)
    (hT : ∀ L, L ≤ c.ptrBits → ∀ m, ok m → (p m).length ≤ L → ∃ v, test L m = .ok v ∧ (v = .outside ↔ Out L (p m)) ∧
      ((p m).length = L → (v = .inside ↔ has m) ∧ (has m ↔ ¬ Out L (p m))))
    (hext : ∀ L xs t, (xs ++ t).length ≤ L → Out L xs → Out L (xs ++ t)) : JumpsAhead c ok order test has room' := by
  intro root L hroot hrl hL hrm
  have sub : ∀ {a b : M}, ok a → ok b → (InSubtree c a b ↔ p a <+: p b) := fun ha hb => inSubtree_iff hk h hA hC ha hb
  have main : ∀ q, ok q → depth q = L →
      (nextInWindow c (test L) order root q = .ok none ∧
        ∀ k, ok k → depth k = L → InSubtree c root k → has k → RustOrd.lt c k q = .ok true) ∨
      ∃ n, nextInWindow c (test L) order root q = .ok (some n) ∧ ok n ∧ depth n = L ∧ InSubtree c root n ∧ has n ∧
        RustOrd.le c q n = .ok true ∧
        ∀ k, ok k → depth k = L → InSubtree c root k → has k → RustOrd.le c q k = .ok true → RustOrd.le c n k = .ok true := by
    intro q hq hqL
    have hqp : (p q).length = L := by rw [← h.depth_eq q hq]; exact hqL
    have hrp : (p root).length + (L - depth root) = L := by rw [← h.depth_eq root hroot]; omega
    have := firstBelow_first (L := L) (key := key) (order := order) hD hord hall hr
      (skip := fun m => do
        match ← test L m with
        | .outside => return true
        | _ =>
          match ← withDepth c q (depth m) with
          | none => return false
          | some a => RustOrd.lt c m a)
      (Skip := fun xs => Out L xs ∨ pathCmp key xs ((p q).take xs.length) = .lt)
      (fun m hm hl => by
        obtain ⟨v, v1, v2, -⟩ := hT L hL m hm hl
        obtain ⟨a, a1, a2, a3⟩ := hA.withDepth_take h hq (d := depth m) (by rw [h.depth_eq m hm, hqp]; exact hl)
        by_cases hv : v = .outside
        · refine ⟨true, ?_, by simp [v2.mp hv]⟩
          rw [v1, hv]
          rfl
        · have hlt : ∃ b, RustOrd.lt c m a = .ok b ∧ (b = true ↔ pathCmp key (p m) (p a) = .lt) := by
            rw [RustOrd.lt, (hC m a hm a2).2]
            cases pathCmp key (p m) (p a) <;> exact ⟨_, rfl, by decide⟩
          obtain ⟨b, b1, b2⟩ := hlt
          refine ⟨b, ?_, ?_⟩
          · rw [v1]
            cases v with
            | outside => exact absurd rfl hv
            | inside => simp only [ok_bind, a1, b1]
            | partly => simp only [ok_bind, a1, b1]
          · rw [b2, a3, h.depth_eq m hm]
            exact ⟨.inr, fun e => e.resolve_left fun e => hv (v2.mpr e)⟩)
      (fun xs t ht hs => by
        rcases hs with hs | hs
        · exact .inl (hext L xs t ht hs)
        · right
          rw [List.length_append] at ht
          have e : (p q).take (xs ++ t).length = (p q).take xs.length ++ ((p q).drop xs.length).take t.length := by
            rw [List.length_append, List.take_add]
          rw [e, pathCmp_append key (by rw [List.length_take, hqp]; omega), hs]
          rfl)
      (L - depth root) root hroot hrp hrm
    have hfull : ∀ k, ok k → depth k = L → InSubtree c root k → ∃ t, t.length = L - depth root ∧ p root ++ t = p k := by
      intro k hk' hkL hsub
      obtain ⟨t, ht⟩ := (sub hroot hk').mp hsub
      refine ⟨t, ?_, ht⟩
      have := congrArg List.length ht
      rw [List.length_append, ← h.depth_eq root hroot, ← h.depth_eq k hk', hkL] at this
      omega
    have hskip : ∀ k, ok k → depth k = L → has k → RustOrd.le c q k = .ok true →
        ¬ (Out L (p k) ∨ pathCmp key (p k) ((p q).take (p k).length) = .lt) := by
      intro k hk' hkL hhas hle
      have hkp : (p k).length = L := by rw [← h.depth_eq k hk']; exact hkL
      obtain ⟨v, -, -, v3⟩ := hT L hL k hk' (by omega)
      rintro (ho | ho)
      · exact (v3 hkp).2.mp hhas ho
      · rw [hkp, ← hqp, List.take_length] at ho
        refine (le_iff_path hC hq hk').mp hle ?_
        rw [← pathCmp_swap key, ho]
        rfl
    have e0 : nextInWindow c (test L) order root q = firstBelow c (fun m => do
        match ← test L m with
        | .outside => return true
        | _ =>
          match ← withDepth c q (depth m) with
          | none => return false
          | some a => RustOrd.lt c m a) order (L - depth root) root := by
      rw [nextInWindow, hqL]
    rcases this with ⟨f1, f2⟩ | ⟨n, t, f1, f2, f3, f4, f5, f6⟩
    · refine .inl ⟨e0.trans f1, fun k hk' hkL hsub hhas => ?_⟩
      obtain ⟨t, t1, t2⟩ := hfull k hk' hkL hsub
      have hs := f2 t t1
      rw [t2] at hs
      rw [lt_iff_path hC hk' hq]
      have hkp : (p k).length = L := by rw [← h.depth_eq k hk']; exact hkL
      obtain ⟨v, -, -, v3⟩ := hT L hL k hk' (by omega)
      rcases hs with hs | hs
      · exact absurd hs ((v3 hkp).2.mp hhas)
      · rw [hkp, ← hqp, List.take_length] at hs
        exact hs
    · have hnp : (p n).length = L := by rw [f4, List.length_append, f3]; exact hrp
      obtain ⟨v, -, -, v3⟩ := hT L hL n f2 (by omega)
      refine .inr ⟨n, e0.trans f1, f2, by rw [h.depth_eq n f2]; exact hnp, (sub hroot f2).mpr ⟨t, f4.symm⟩,
        (v3 hnp).2.mpr fun e => f5 (.inl e), ?_, fun k hk' hkL hsub hhas hle => ?_⟩
      · rw [le_iff_path hC hq f2]
        intro e
        refine f5 (.inr ?_)
        rw [hnp, ← hqp, List.take_length, ← pathCmp_swap key, e]
        rfl
      · obtain ⟨t', t1, t2⟩ := hfull k hk' hkL hsub
        rw [le_iff_path hC f2 hk', ← t2]
        refine f6 t' t1 ?_
        rw [t2]
        exact hskip k hk' hkL hhas hle
  refine ⟨main, fun ms before inWindow n hms hs hb hw hn => ?_⟩
  refine jumpScan_filter (has := has) (ok := fun m => ok m ∧ depth m = L ∧ InSubtree c root m)
    (le := fun a b => RustOrd.le c a b = .ok true) (fun m hm => ?_) (fun m hm => ?_) n ms hn hms hw hs
  · have hmp : (p m).length = L := by rw [← h.depth_eq m hm.1]; exact hm.2.1
    obtain ⟨v, v1, -, v3⟩ := hT L hL m hm.1 (by omega)
    exact ⟨v, v1, (v3 hmp).1⟩
  · rcases main m hm.1 hm.2.1 with ⟨g1, g2⟩ | ⟨k, g1, g2, g3, g4, g5, g6, g7⟩
    · refine .inl ⟨g1, fun k hk' hhas hle => ?_⟩
      have := (lt_iff_path hC hk'.1 hm.1).mp (g2 k hk'.1 hk'.2.1 hk'.2.2 hhas)
      refine (le_iff_path hC hm.1 hk'.1).mp hle ?_
      rw [← pathCmp_swap key, this]
      rfl
    · refine .inr ⟨k, g1, fun x hx hhas hle => ?_⟩
      have h1 := (le_iff_path hC g2 hx.1).mp (g7 x hx.1 hx.2.1 hx.2.2 hhas hle)
      cases e : before x k with
      | false => rfl
      | true =>
        have := (lt_iff_path hC hx.1 g2).mp ((hb x k hx.1 g2).mp e)
        rw [← pathCmp_swap key, this] at h1
        exact absurd rfl h1

end window

theorem outside_extends {Ax : Type} {coord : Ax → Cell → Bool} {lo hi : Ax → Nat} {n : Nat} {xs t : List Cell} (h : (xs ++ t).length ≤ n)
    (ho : PathOutside coord lo hi n xs) : PathOutside coord lo hi n (xs ++ t) := by
  obtain ⟨ax, ho⟩ := ho
  obtain ⟨h1, h2⟩ := lowEnd_append (coord := coord) h ax
  refine ⟨ax, ?_⟩
  have := Nat.two_pow_pos (n - (xs ++ t).length)
  omega

variable {c : Cfg}

theorem jumps_of2 {S : Type} [VariableDepthStorage S Quadrant] [BitStorage S Quadrant] [RustOrd (MortonIndex2D S)]
    (hc : c.Supported) {ok : MortonIndex2D S → Prop} {wr : Quadrant → Quadrant} {room room' : MortonIndex2D S → Nat → Prop}
    {limit : Option Nat} (hwf : ∀ m, ok m → WF c m.storage) (h : ListLike c ok (cells2 (S := S)) wr) (hA : AncLike c ok (cells2 (S := S)))
    (hD : DescLike c ok (cells2 (S := S)) room limit) (hC : CmpLike c quadrantKey ok (cells2 (S := S)))
    (hr : ∀ m, ok m → ∀ k, room' m (k + 1) → room m 1 ∧ ¬ Exceeds limit ((cells2 m).length + 1) ∧
      ∀ a v, ok a → cells2 a = cells2 m ++ [v] → room' a k) (b : Window2D) (o : QuadrantOrdering) :
    JumpsAhead c ok [Quadrant.Zero, .One, .Two, .Three] (fun L => b.test c o L) (b.HasNode c o) room' := by
  refine jumpsAhead_of quadrantKey_inj h hA hD hC (by decide) (fun v => by cases v <;> decide) hr
    (fun L xs => PathOutside (axes2 o) b.lo b.hi L xs) (fun L hL m hm hl => ?_) (fun L xs t ht ho => outside_extends ht ho)
  obtain ⟨v, v1, v2, v3⟩ := b.test_ok hc hwf h o hL m hm hl
  refine ⟨v, v1, v3, fun hmL => ?_⟩
  have hin : PathInside (axes2 o) b.lo b.hi L (cells2 m) ↔ ¬ PathOutside (axes2 o) b.lo b.hi L (cells2 m) :=
    ⟨fun h1 h2 => not_inside_outside (t := []) (by simpa using hl) (by simpa using h1) h2, leaf_decided hmL⟩
  have hhas : b.HasNode c o m ↔ PathInside (axes2 o) b.lo b.hi L (cells2 m) := by
    obtain ⟨g, g1, g2, g3⟩ := toGridIndex_binary2 hc (hwf m hm)
      (by have := h.depth_eq m hm; change Storage.depth m.storage = _ at this; omega) o
    have e : ∀ ax, lowEnd (axes2 o) L (cells2 m) ax = binary ((cells2 m).map (axes2 o ax)) := fun ax => by
      rw [lowEnd, hmL, Nat.sub_self, Nat.pow_zero, Nat.mul_one]
    constructor
    · rintro ⟨g', h1, h2, h3⟩ ax
      rw [g1] at h1
      cases h1
      rw [g2] at h2
      rw [g3] at h3
      rw [e, hmL, Nat.sub_self, Nat.pow_zero]
      cases ax
      · exact h3
      · exact h2
    · intro hi
      refine ⟨g, g1, ?_, ?_⟩
      · have := hi true
        rw [e, hmL, Nat.sub_self, Nat.pow_zero] at this
        rw [g2]
        exact this
      · have := hi false
        rw [e, hmL, Nat.sub_self, Nat.pow_zero] at this
        rw [g3]
        exact this
  exact ⟨v2.trans hhas.symm, hhas.trans hin⟩

theorem jumps_of3 {S : Type} [VariableDepthStorage S Octant] [BitStorage S Octant] [RustOrd (MortonIndex3D S)]
    (hc : c.Supported) {ok : MortonIndex3D S → Prop} {wr : Octant → Octant} {room room' : MortonIndex3D S → Nat → Prop}
    {limit : Option Nat} (hwf : ∀ m, ok m → WF c m.storage) (h : ListLike c ok (cells3 (S := S)) wr) (hA : AncLike c ok (cells3 (S := S)))
    (hD : DescLike c ok (cells3 (S := S)) room limit) (hC : CmpLike c octantKey ok (cells3 (S := S)))
    (hr : ∀ m, ok m → ∀ k, room' m (k + 1) → room m 1 ∧ ¬ Exceeds limit ((cells3 m).length + 1) ∧
      ∀ a v, ok a → cells3 a = cells3 m ++ [v] → room' a k) (b : Window3D) (o : OctantOrdering) :
    JumpsAhead c ok [Octant.Zero, .One, .Two, .Three, .Four, .Five, .Six, .Seven] (fun L => b.test c o L) (b.HasNode c o) room' := by
  refine jumpsAhead_of octantKey_inj h hA hD hC (by decide) (fun v => by cases v <;> decide) hr
    (fun L xs => PathOutside (octantCoord o) b.lo b.hi L xs) (fun L hL m hm hl => ?_) (fun L xs t ht ho => outside_extends ht ho)
  obtain ⟨v, v1, v2, v3⟩ := b.test_ok hc hwf h o hL m hm hl
  refine ⟨v, v1, v3, fun hmL => ?_⟩
  have hin : PathInside (octantCoord o) b.lo b.hi L (cells3 m) ↔ ¬ PathOutside (octantCoord o) b.lo b.hi L (cells3 m) :=
    ⟨fun h1 h2 => not_inside_outside (t := []) (by simpa using hl) (by simpa using h1) h2, leaf_decided hmL⟩
  have hhas : b.HasNode c o m ↔ PathInside (octantCoord o) b.lo b.hi L (cells3 m) := by
    obtain ⟨g, g1, g2, g3, g4⟩ := toGridIndex_binary3 hc (hwf m hm)
      (by have := h.depth_eq m hm; change Storage.depth m.storage = _ at this; omega) o
    have e : ∀ ax, lowEnd (octantCoord o) L (cells3 m) ax = binary ((cells3 m).map (octantCoord o ax)) := fun ax => by
      rw [lowEnd, hmL, Nat.sub_self, Nat.pow_zero, Nat.mul_one]
    have e' : ∀ ax, (match ax with | .X => g.x.toNat | .Y => g.y.toNat | .Z => g.z.toNat) =
        binary ((cells3 m).map (octantCoord o ax)) := fun ax => by
      cases ax
      · exact g2
      · exact g3
      · exact g4
    constructor
    · rintro ⟨g', h1, h2⟩ ax
      rw [g1] at h1
      cases h1
      have := h2 ax
      rw [e, hmL, Nat.sub_self, Nat.pow_zero, ← e']
      exact this
    · intro hi
      refine ⟨g, g1, fun ax => ?_⟩
      have := hi ax
      rw [e, hmL, Nat.sub_self, Nat.pow_zero, ← e'] at this
      exact this
  exact ⟨v2.trans hhas.symm, hhas.trans hin⟩

/-! ## C124 -/

/-- C124 in 2D. `room` says that the nodes of the depth searched fit. Dynamic indices are made on targets where writes work (C47). -/
theorem C124_jumps_2D (hc : c.Supported) (b : Window2D) (o : QuadrantOrdering) :
    (∀ w, JumpsAhead c (fun m : MortonIndex2D (StaticStorage2D w) => Reach2D c .all (.static w m)) [Quadrant.Zero, .One, .Two, .Three]
      (fun L => b.test c o L) (b.HasNode c o) (fun m n => depth m + n ≤ w / 2)) ∧
    (DynWrites c → JumpsAhead c (fun m : MortonIndex2D DynamicStorage2D => Reach2D c .all (.dynamic m)) [Quadrant.Zero, .One, .Two, .Three]
      (fun L => b.test c o L) (b.HasNode c o) (fun m n => Addressable c ((depth m + n) * 2))) := by
  refine ⟨fun w => ?_, fun hw => ?_⟩
  · refine jumps_of2 hc (static_wf2 hc) (static_list2 hc) (static_anc2 hc) (static_desc2 hc) (static_cmp2 hc) (fun m hm k hr => ?_) b o
    have e := (static_list2 hc).depth_eq m hm
    refine ⟨one_lt_isize hc (x := Quadrant.Zero), ?_, fun a v ha ea => ?_⟩
    · change ¬ _ < _
      omega
    · have e2 := (static_list2 hc).depth_eq a ha
      rw [ea, List.length_append, List.length_singleton] at e2
      omega
  · refine jumps_of2 hc (dynamic_wf2 hc) (dynamic_list2 hc hw) (dynamic_anc2 hc) (dynamic_desc2 hc hw) (dynamic_cmp2 hc)
      (fun m hm k hr => ⟨?_, id, fun a v ha ea => ?_⟩) b o
    · unfold dynRoom2 Addressable at *
      omega
    · have e2 := (dynamic_list2' hc).depth_eq a ha
      rw [ea, List.length_append, ← (dynamic_list2' hc).depth_eq m hm, List.length_singleton] at e2
      rw [e2]
      unfold Addressable at *
      omega

/-- C124 in 3D. -/
theorem C124_jumps_3D (hc : c.Supported) (b : Window3D) (o : OctantOrdering) :
    (∀ w, JumpsAhead c (fun m : MortonIndex3D (StaticStorage3D w) => Reach3D c .all (.static w m))
      [Octant.Zero, .One, .Two, .Three, .Four, .Five, .Six, .Seven]
      (fun L => b.test c o L) (b.HasNode c o) (fun m n => depth m + n ≤ w / 3)) ∧
    (DynWrites c → JumpsAhead c (fun m : MortonIndex3D DynamicStorage3D => Reach3D c .all (.dynamic m))
      [Octant.Zero, .One, .Two, .Three, .Four, .Five, .Six, .Seven]
      (fun L => b.test c o L) (b.HasNode c o) (fun m n => Addressable c ((depth m + n) * 3))) := by
  refine ⟨fun w => ?_, fun hw => ?_⟩
  · refine jumps_of3 hc (static_wf3 hc) (static_list3 hc) (static_anc3 hc) (static_desc3 hc) (static_cmp3 hc) (fun m hm k hr => ?_) b o
    have e := (static_list3 hc).depth_eq m hm
    refine ⟨one_lt_isize hc (x := Octant.Zero), ?_, fun a v ha ea => ?_⟩
    · change ¬ _ < _
      omega
    · have e2 := (static_list3 hc).depth_eq a ha
      rw [ea, List.length_append, List.length_singleton] at e2
      omega
  · refine jumps_of3 hc (dynamic_wf3 hc) (dynamic_list3 hc hw) (dynamic_anc3 hc) (dynamic_desc3 hc hw) (dynamic_cmp3 hc)
      (fun m hm k hr => ⟨?_, id, fun a v ha ea => ?_⟩) b o
    · unfold dynRoom3 Addressable at *
      omega
    · have e2 := (dynamic_list3' hc).depth_eq a ha
      rw [ea, List.length_append, ← (dynamic_list3' hc).depth_eq m hm, List.length_singleton] at e2
      rw [e2]
      unfold Addressable at *
      omega

/-! ## Examples -/

/-- The static `u16` index with the cells `cs`. -/
def exAt (cs : List Quadrant) : MortonIndex2D (StaticStorage2D 16) :=
  match (MortonIndex2D.tryFromSlice x64 cs : Res (Except Error (MortonIndex2D (StaticStorage2D 16)))) with
  | .ok (.ok m) => m
  | _ => ⟨⟨0#16, 0⟩⟩

/-- The 3 × 4 window from (1, 2) on in the grid of depth 3. From `[Zero, Three, Zero]` at (2, 2), which is in the window, the search
stays; from `[One, Zero, Zero]` at (4, 0), which is not, it jumps to `[Two, Zero, One]` at (1, 4), and from `[Three, Zero, Zero]` at
(4, 4) there is nothing left. -/
example : nextInWindow x64 ((⟨1, 4, 2, 6⟩ : Window2D).test x64 .XY 3) [Quadrant.Zero, .One, .Two, .Three] exRoot2
      (exAt [.Zero, .Three, .Zero]) = .ok (some (exAt [.Zero, .Three, .Zero])) ∧
    nextInWindow x64 ((⟨1, 4, 2, 6⟩ : Window2D).test x64 .XY 3) [Quadrant.Zero, .One, .Two, .Three] exRoot2
      (exAt [.One, .Zero, .Zero]) = .ok (some (exAt [.Two, .Zero, .One])) ∧
    nextInWindow x64 ((⟨1, 4, 2, 6⟩ : Window2D).test x64 .XY 3) [Quadrant.Zero, .One, .Two, .Three] exRoot2
      (exAt [.Three, .Zero, .Zero]) = .ok none := by decide +kernel

/-- A sorted list of four nodes, the second and the fourth one in the window. -/
def exJump : List (MortonIndex2D (StaticStorage2D 16)) :=
  [⟨⟨0#16, 3⟩⟩, exAt [.Zero, .Three, .Zero], exAt [.One, .Zero, .Zero], exAt [.Two, .Zero, .One]]

theorem exJump_reach : ∀ m ∈ exJump, Reach2D x64 .all (.static 16 m) := by
  intro m hm
  simp only [exJump, List.mem_cons, List.not_mem_nil, or_false] at hm
  rcases hm with rfl | rfl | rfl | rfl
  · exact .staticTryFromSlice (cs := [.Zero, .Zero, .Zero]) (by decide) (by decide +kernel)
  · exact .staticTryFromSlice (cs := [.Zero, .Three, .Zero]) (by decide) (by decide +kernel)
  · exact .staticTryFromSlice (cs := [.One, .Zero, .Zero]) (by decide) (by decide +kernel)
  · exact .staticTryFromSlice (cs := [.Two, .Zero, .One]) (by decide) (by decide +kernel)

/-- The search with jumps, run. -/
example : jumpScan ((⟨1, 4, 2, 6⟩ : Window2D).test x64 .XY 3)
    (nextInWindow x64 ((⟨1, 4, 2, 6⟩ : Window2D).test x64 .XY 3) [Quadrant.Zero, .One, .Two, .Three] exRoot2)
    (fun a b => decide (RustOrd.lt x64 a b = .ok true)) 4 exJump =
    .ok [exAt [.Zero, .Three, .Zero], exAt [.Two, .Zero, .One]] := by decide +kernel

/-- The theorem applied to any window and a test that decides it. -/
example (b : Window2D) (inWindow : MortonIndex2D (StaticStorage2D 16) → Bool)
    (h : ∀ m ∈ exJump, inWindow m = true ↔ b.HasNode x64 .XY m) :
    jumpScan (b.test x64 .XY 3) (nextInWindow x64 (b.test x64 .XY 3) [Quadrant.Zero, .One, .Two, .Three] exRoot2)
      (fun a b => decide (RustOrd.lt x64 a b = .ok true)) 4 exJump = .ok (exJump.filter inWindow) :=
  ((C124_jumps_2D x64_supported b .XY).1 16 exRoot2 3 exRoot2_reach (by decide) (by decide) (by decide)).2 exJump
    (fun a b => decide (RustOrd.lt x64 a b = .ok true)) inWindow 4
    (fun m hm => ⟨exJump_reach m hm, (show ∀ m ∈ exJump, depth m = 3 by decide +kernel) m hm,
      (show ∀ m ∈ exJump, InSubtree x64 exRoot2 m by decide +kernel) m hm⟩)
    (by unfold Sorted; decide +kernel) (fun a b _ _ => by simp) h (by decide)

/-- In 3D with dynamic indices: of the nodes two levels below `[Five, One, Six]` (`exD3`), seen from one of them. -/
example (b : Window3D) (q : MortonIndex3D DynamicStorage3D) (hq : Reach3D x64 .all (.dynamic q)) (hd : depth q = 5)
    (h : nextInWindow x64 (b.test x64 .XYZ 5) [Octant.Zero, .One, .Two, .Three, .Four, .Five, .Six, .Seven] exD3 q = .ok none) :
    ∀ k, Reach3D x64 .all (.dynamic k) → depth k = 5 → InSubtree x64 exD3 k → b.HasNode x64 .XYZ k → RustOrd.lt x64 k q = .ok true := by
  rcases ((C124_jumps_3D x64_supported b .XYZ).2 x64_writes exD3 5 (exD3_reach _) (by decide) (by decide)
    (show (3 + (5 - 3)) * 3 + 64 < 2 ^ 64 by decide)).1 q hq hd with ⟨-, h2⟩ | ⟨n, h1, -⟩
  · exact h2
  · rw [h] at h1
    simp at h1

end MortonRs
