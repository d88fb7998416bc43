import Verif.Props.Adapt
import Verif.Props.Regions
import Verif.Props.Examples

/-! # The shortest list of a region (C126)

Wherever all children of a node are in a list of leaves they can be replaced by the node, and then perhaps this node and its
siblings by their parent. One pass with a stack does all of it, and what it returns depends on the region only. -/

namespace MortonRs

open MortonIndex VariableDepthMortonIndex

variable {M Cell : Type}

/-! ## Statement -/

/-- Client code: whether `x` has the parent `y`. -/
def hasParent [VariableDepthMortonIndex M Cell] [RustOrd M] (c : Cfg) (y x : M) : Res Bool := do
  match ← parent c x with
  | none => return false
  | some z => return (← RustOrd.cmp c z y) == .eq

/-- Client code: whether all nodes of a list have the parent `y`. -/
def allHaveParent [VariableDepthMortonIndex M Cell] [RustOrd M] (c : Cfg) (y : M) : List M → Res Bool
  | [] => return true
  | x :: xs => do if ← hasParent c y x then allHaveParent c y xs else return false

/-- Client code: pushes a node on the stack, whose top comes first. If the last `K - 1` nodes have the same parent as the new one,
they are taken from the stack and the parent is pushed instead, in the same way. The number bounds the repetitions. -/
def pushMerged [VariableDepthMortonIndex M Cell] [RustOrd M] (c : Cfg) (K : Nat) : Nat → List M → M → Res (List M)
  | 0, stack, m => return m :: stack
  | n + 1, stack, m => do
    match ← parent c m with
    | none => return m :: stack
    | some y =>
      let last := stack.take (K - 1)
      if last.length = K - 1 then
        if ← allHaveParent c y last then pushMerged c K n (stack.drop (K - 1)) y else return m :: stack
      else return m :: stack

/-- Client code: pushes all nodes. -/
def pushAll [VariableDepthMortonIndex M Cell] [RustOrd M] (c : Cfg) (K : Nat) : List M → List M → Res (List M)
  | stack, [] => return stack
  | stack, m :: ms => do pushAll c K (← pushMerged c K (depth m) stack m) ms

/-- Client code: the stack at the end, from the bottom. -/
def mergeSiblings [VariableDepthMortonIndex M Cell] [RustOrd M] (c : Cfg) (K : Nat) (ms : List M) : Res (List M) := do
  return (← pushAll c K [] ms).reverse

/-- The place with the cells `cs` is in the region: it begins with the cells of a node of the list. -/
def CoversPlace [MortonIndex M Cell] (c : Cfg) (ms : List M) (cs : List Cell) : Prop := ∃ m ∈ ms, ∃ n, Shows c m (cs.take n)

/-- Two lists cover the same places of depth `L`. -/
def SamePlaces [MortonIndex M Cell] (c : Cfg) (L : Nat) (as bs : List M) : Prop :=
  ∀ cs : List Cell, cs.length = L → (CoversPlace c as cs ↔ CoversPlace c bs cs)

/-- No `K` nodes of the list are all the children of one node. -/
def Merged [VariableDepthMortonIndex M Cell] [RustOrd M] (c : Cfg) (K : Nat) (ok : M → Prop) (ms : List M) : Prop :=
  ∀ m xs, ok m → (∀ x ∈ xs, x ∈ ms) → ¬ Siblings c K m xs

/-- C126. The pass returns a region with nothing left to merge, which covers the same places, at any depth `L` at which no node of the
list is cut off. No region with the same places is shorter. Two regions cover the same places exactly if the pass returns equally
many nodes for both, which compare as `Equal` one by one. -/
def MergesSiblings [VariableDepthMortonIndex M Cell] [RustOrd M] (c : Cfg) (K : Nat) (ok : M → Prop) : Prop :=
  (∀ ms, Region c ok ms → ∃ out, mergeSiblings c K ms = .ok out ∧ Region c ok out ∧ Merged c K ok out ∧
    (∀ L, (∀ m ∈ ms, depth m ≤ L) → (∀ m ∈ out, depth m ≤ L) ∧ SamePlaces c L out ms) ∧
    ∀ other L, Region c ok other → (∀ m ∈ ms ++ other, depth m ≤ L) → SamePlaces c L ms other → out.length ≤ other.length) ∧
  ∀ as bs as' bs' L, Region c ok as → Region c ok bs → (∀ m ∈ as ++ bs, depth m ≤ L) → mergeSiblings c K as = .ok as' →
    mergeSiblings c K bs = .ok bs' → (SamePlaces c L as bs ↔
      as'.length = bs'.length ∧ ∀ (i : Nat) a b, as'[i]? = some a → bs'[i]? = some b → RustOrd.cmp c a b = .ok .eq)

/-! ## On paths -/

/-- Two lists in strictly ascending order with the same elements are the same. -/
theorem ascending_ext {α : Type} {r : α → α → Prop} (hr : ∀ a b, r a b → ¬ r b a) {l1 l2 : List α} (h1 : l1.Pairwise r)
    (h2 : l2.Pairwise r) (h : ∀ x, x ∈ l1 ↔ x ∈ l2) : l1 = l2 := by
  induction l1 generalizing l2 with
  | nil =>
    cases l2 with
    | nil => rfl
    | cons b l2 => exact absurd ((h b).mpr (by simp)) (by simp)
  | cons a l1 ih =>
    cases l2 with
    | nil => exact absurd ((h a).mp (by simp)) (by simp)
    | cons b l2 =>
      obtain ⟨ha, h1'⟩ := List.pairwise_cons.mp h1
      obtain ⟨hb, h2'⟩ := List.pairwise_cons.mp h2
      have irr : ∀ x, ¬ r x x := fun x e => hr x x e e
      have e : a = b := by
        rcases List.mem_cons.mp ((h a).mp (by simp)) with e | e
        · exact e
        · rcases List.mem_cons.mp ((h b).mpr (by simp)) with e' | e'
          · exact e'.symm
          · exact absurd (ha b e') (hr _ _ (hb a e))
      subst e
      congr 1
      refine ih h1' h2' fun x => ⟨fun hx => ?_, fun hx => ?_⟩
      · rcases List.mem_cons.mp ((h x).mp (List.mem_cons_of_mem _ hx)) with e | e
        · exact absurd (ha x hx) (e ▸ irr a)
        · exact e
      · rcases List.mem_cons.mp ((h x).mpr (List.mem_cons_of_mem _ hx)) with e | e
        · exact absurd (hb x hx) (e ▸ irr a)
        · exact e

section paths
variable {key : Cell → Nat}

theorem apart_asymm {a b : List Cell} (h : Apart key a b) : ¬ Apart key b a := fun h' => by
  have := h'.1
  rw [← pathCmp_swap key, h.1] at this
  exact absurd this (by decide)

/-- A path that begins with a path of the list. -/
def CovPath (l : List (List Cell)) (cs : List Cell) : Prop := ∃ xs ∈ l, xs <+: cs

/-- No path has all its children in the list. -/
def NoFull (l : List (List Cell)) : Prop := ∀ ps, ¬ ∀ v, ps ++ [v] ∈ l

theorem NoFull.mono {l l' : List (List Cell)} (h : NoFull l) (hl : ∀ x ∈ l', x ∈ l) : NoFull l' :=
  fun ps hp => h ps fun v => hl _ (hp v)

/-- What is covered at depth `L` is covered as a whole. -/
theorem covPath_of_places {l : List (List Cell)} (hl : NoFull l) (n : Nat) : ∀ xs : List Cell,
    (∀ cs, cs.length = xs.length + n → xs <+: cs → CovPath l cs) → CovPath l xs := by
  induction n with
  | zero => intro xs h; exact h xs rfl (List.prefix_refl _)
  | succ n ih =>
    intro xs h
    have hv : ∀ v, CovPath l (xs ++ [v]) := fun v => ih _ fun cs e hp =>
      h cs (by rw [e, List.length_append]; simp; omega) ((List.prefix_append ..).trans hp)
    by_cases hx : CovPath l xs
    · exact hx
    · refine absurd (fun v => ?_) (hl xs)
      obtain ⟨a, ha, hp⟩ := hv v
      rcases List.prefix_concat_iff.mp hp with e | e
      · exact e ▸ ha
      · exact absurd ⟨a, ha, e⟩ hx

theorem apart_prefix_eq {l : List (List Cell)} (hl : l.Pairwise (Apart key)) {a b : List Cell} (ha : a ∈ l) (hb : b ∈ l) (h : a <+: b) :
    a = b := by
  induction l with
  | nil => cases ha
  | cons x l ih =>
    obtain ⟨h1, h2⟩ := List.pairwise_cons.mp hl
    rcases List.mem_cons.mp ha with rfl | ha' <;> rcases List.mem_cons.mp hb with rfl | hb'
    · rfl
    · exact absurd h (h1 b hb').2.1
    · exact absurd h (h1 a ha').2.2
    · exact ih h2 ha' hb'

theorem covPath_subset {as bs : List (List Cell)} (ha : as.Pairwise (Apart key)) (na : NoFull as) (nb : NoFull bs)
    {L : Nat} (hLa : ∀ x ∈ as, x.length ≤ L) (hLb : ∀ x ∈ bs, x.length ≤ L)
    (h : ∀ cs, cs.length = L → (CovPath as cs ↔ CovPath bs cs)) : ∀ x ∈ as, x ∈ bs := by
  intro a hm
  obtain ⟨b, hb, h1⟩ := covPath_of_places nb (L - a.length) a fun cs e hp => by
    have := hLa a hm
    exact (h cs (by omega)).mp ⟨a, hm, hp⟩
  obtain ⟨a', ha', h2⟩ := covPath_of_places na (L - b.length) b fun cs e hp => by
    have := hLb b hb
    exact (h cs (by omega)).mpr ⟨b, hb, hp⟩
  have e := apart_prefix_eq ha ha' hm (h2.trans h1)
  subst e
  rw [h2.eq_of_length (Nat.le_antisymm h2.length_le h1.length_le)]
  exact hb

/-- A region has only one list with nothing left to merge. -/
theorem merged_unique {as bs : List (List Cell)} (ha : as.Pairwise (Apart key)) (hb : bs.Pairwise (Apart key))
    (na : NoFull as) (nb : NoFull bs) {L : Nat} (hLa : ∀ x ∈ as, x.length ≤ L) (hLb : ∀ x ∈ bs, x.length ≤ L)
    (h : ∀ cs, cs.length = L → (CovPath as cs ↔ CovPath bs cs)) : as = bs :=
  ascending_ext (fun _ _ => apart_asymm) ha hb fun x =>
    ⟨covPath_subset ha na nb hLa hLb h x, covPath_subset hb nb na hLb hLa (fun cs e => (h cs e).symm) x⟩

/-- If all children of `ps` are in a list of leaves, the last of the list being one of them, they are its last nodes. -/
theorem full_at_top (hk : Function.Injective key) {order : List Cell} (hord : order.map key = List.range order.length)
    (hall : ∀ v : Cell, v ∈ order) {l : List (List Cell)} {ps : List Cell} {v : Cell} (hl : (l ++ [ps ++ [v]]).Pairwise (Apart key))
    (hf : ∀ w, ps ++ [w] ∈ l ++ [ps ++ [v]]) : ∃ front back, l = front ++ back ∧ back.length + 1 = order.length ∧
      ∀ x ∈ back, ∃ w, x = ps ++ [w] := by
  have hchild : ∀ x ∈ l, ps <+: x → ∃ w, x = ps ++ [w] := by
    intro x hx hp
    rcases prefix_or_child.mp hp with ⟨w, e⟩ | e
    · exact ⟨w, (apart_prefix_eq hl (hf w) (List.mem_append_left _ hx) e).symm⟩
    · have := ((List.pairwise_append.mp hl).2.2 x hx (ps ++ [v]) (by simp)).2.1
      exact absurd (e ▸ List.prefix_append ..) this
  -- the nodes not below `ps` come first
  have hsplit : ∀ l : List (List Cell), (l ++ [ps ++ [v]]).Pairwise (Apart key) →
      ∃ front back, l = front ++ back ∧ (∀ x ∈ front, ¬ ps <+: x) ∧ ∀ x ∈ back, ps <+: x := by
    intro l
    induction l with
    | nil => intro _; exact ⟨[], [], rfl, by simp, by simp⟩
    | cons x l ih =>
      intro hl
      obtain ⟨h1, h2⟩ := List.pairwise_cons.mp hl
      obtain ⟨f, b, e, hf, hb⟩ := ih h2
      by_cases hx : ps <+: x
      · refine ⟨[], x :: l, rfl, by simp, fun y hy => ?_⟩
        rcases List.mem_cons.mp hy with rfl | hy
        · exact hx
        · refine pathCmp_between hk hx (List.prefix_append ps [v]) (by rw [(h1 y (List.mem_append_left _ hy)).1]; decide) ?_
          rw [((List.pairwise_append.mp h2).2.2 y hy _ (by simp)).1]; decide
      · exact ⟨x :: f, b, by rw [e]; rfl, fun y hy => (List.mem_cons.mp hy).elim (fun e => e ▸ hx) (hf y), hb⟩
  obtain ⟨front, back, e, h1, h2⟩ := hsplit l hl
  refine ⟨front, back, e, ?_, fun x hx => hchild x (by rw [e]; exact List.mem_append_right _ hx) (h2 x hx)⟩
  have hback : back ++ [ps ++ [v]] = order.map (ps ++ [·]) := by
    refine ascending_ext (r := fun a b => pathCmp key a b = .lt) (fun a b e e' => ?_) ?_ ?_ fun x => ?_
    · rw [← pathCmp_swap key, e] at e'
      exact absurd e' (by decide)
    · rw [e, List.append_assoc] at hl
      exact (List.pairwise_append.mp hl).2.1.imp fun e => e.1
    · rw [List.pairwise_map]
      have : (order.map key).Pairwise (· < ·) := by rw [hord]; exact List.pairwise_lt_range
      rw [List.pairwise_map] at this
      exact this.imp fun e => pathCmp_branch key e ps [] []
    · rw [List.mem_map]
      constructor
      · intro hx
        rcases List.mem_append.mp hx with hx | hx
        · obtain ⟨w, ew⟩ := hchild x (by rw [e]; exact List.mem_append_right _ hx) (h2 x hx)
          exact ⟨w, hall w, ew.symm⟩
        · exact ⟨v, hall v, (List.mem_singleton.mp hx).symm⟩
      · rintro ⟨w, -, rfl⟩
        have := hf w
        rw [e, List.append_assoc] at this
        rcases List.mem_append.mp this with hx | hx
        · exact absurd (List.prefix_append ..) (h1 _ hx)
        · exact hx
  have := congrArg List.length hback
  simpa using this

end paths

/-! ## On indices -/

section
variable [VariableDepthMortonIndex M Cell] [RustOrd M] {c : Cfg} {ok : M → Prop} {p : M → List Cell} {wr : Cell → Cell}
  {key : Cell → Nat} {order : List Cell}

omit [RustOrd M] in
theorem parent_cases (hA : AncLike c ok p) {m : M} (hm : ok m) :
    (p m = [] ∧ parent c m = .ok none) ∨ ∃ y v, parent c m = .ok (some y) ∧ ok y ∧ p m = p y ++ [v] := by
  rw [parent_eq]
  by_cases h0 : 0 < (p m).length
  · obtain ⟨y, g1, g2, g3⟩ := hA.yes m hm ⟨1, by decide⟩ h0
    change p y = (p m).take ((p m).length - 1) at g3
    refine .inr ⟨y, (p m)[(p m).length - 1], g1, g2, ?_⟩
    rw [g3, List.take_append_getElem (by omega), show (p m).length - 1 + 1 = (p m).length by omega, List.take_length]
  · exact .inl ⟨List.length_eq_zero_iff.mp (by omega), hA.no m hm _ (by change 1 > _; omega)⟩

theorem hasParent_ok (hk : Function.Injective key) (hA : AncLike c ok p) (hC : CmpLike c key ok p) {x y : M} (hx : ok x) (hy : ok y) :
    ∃ b, hasParent c y x = .ok b ∧ (b = true ↔ ∃ v, p x = p y ++ [v]) := by
  unfold hasParent
  rcases parent_cases hA hx with ⟨e, e'⟩ | ⟨z, v, e', hz, e⟩
  · refine ⟨false, by rw [e']; rfl, ?_⟩
    rw [e]; simp
  · refine ⟨pathCmp key (p z) (p y) == .eq, by rw [e', ok_bind]; simp only []; rw [(hC z y hz hy).1]; rfl, ?_⟩
    rw [beq_iff_eq, pathCmp_eq_iff key hk, e]
    constructor
    · intro e; exact ⟨v, by rw [e]⟩
    · rintro ⟨w, ew⟩; exact (List.append_inj' ew rfl).1

theorem allHaveParent_ok (hk : Function.Injective key) (hA : AncLike c ok p) (hC : CmpLike c key ok p) {y : M} (hy : ok y) {xs : List M}
    (hxs : ∀ x ∈ xs, ok x) : ∃ b, allHaveParent c y xs = .ok b ∧ (b = true ↔ ∀ x ∈ xs, ∃ v, p x = p y ++ [v]) := by
  induction xs with
  | nil => exact ⟨true, rfl, by simp⟩
  | cons x xs ih =>
    obtain ⟨b, e1, e2⟩ := hasParent_ok hk hA hC (hxs x (by simp)) hy
    obtain ⟨b', e3, e4⟩ := ih fun x hx => hxs x (List.mem_cons_of_mem _ hx)
    rw [allHaveParent, e1, ok_bind]
    cases b with
    | false =>
      refine ⟨false, rfl, ?_⟩
      simp only [Bool.false_eq_true, false_iff] at e2 ⊢
      exact fun e => e2 (e x (by simp))
    | true =>
      refine ⟨b', e3, ?_⟩
      rw [e4, List.forall_mem_cons]
      exact ⟨fun e => ⟨e2.mp rfl, e⟩, fun e => e.2⟩

theorem pushMerged_ok [Inhabited Cell] (hk : Function.Injective key) (h : ListLike c ok p wr) (hA : AncLike c ok p)
    (hC : CmpLike c key ok p) (hord : order.map key = List.range order.length) (hall : ∀ v : Cell, v ∈ order) (after : List M)
    (haf : ∀ x ∈ after, ok x) (n : Nat) : ∀ stack m, (∀ x ∈ stack, ok x) → ok m → (p m).length ≤ n →
    (stack.reverse ++ m :: after).Pairwise (fun a b => Apart key (p a) (p b)) → NoFull (stack.map p) →
    ∃ out, pushMerged c order.length n stack m = .ok out ∧ (∀ x ∈ out, ok x) ∧
      (out.reverse ++ after).Pairwise (fun a b => Apart key (p a) (p b)) ∧ NoFull (out.map p) ∧ out.length ≤ stack.length + 1 ∧
      ∀ L, (p m).length ≤ L → (∀ x ∈ stack, (p x).length ≤ L) → (∀ x ∈ out, (p x).length ≤ L) ∧
        ∀ cs, cs.length = L → (CovPath (out.map p) cs ↔ CovPath ((m :: stack).map p) cs) := by
  -- nothing is merged
  have keep : ∀ stack m, (∀ x ∈ stack, ok x) → ok m → (stack.reverse ++ m :: after).Pairwise (fun a b => Apart key (p a) (p b)) →
      NoFull ((m :: stack).map p) → (∀ x ∈ m :: stack, ok x) ∧
      ((m :: stack).reverse ++ after).Pairwise (fun a b => Apart key (p a) (p b)) ∧ NoFull ((m :: stack).map p) ∧
      (m :: stack).length ≤ stack.length + 1 ∧
      ∀ L, (p m).length ≤ L → (∀ x ∈ stack, (p x).length ≤ L) → (∀ x ∈ m :: stack, (p x).length ≤ L) ∧
        ∀ cs, cs.length = L → (CovPath ((m :: stack).map p) cs ↔ CovPath ((m :: stack).map p) cs) := by
    intro stack m hs hm hp hn
    refine ⟨List.forall_mem_cons.mpr ⟨hm, hs⟩, ?_, hn, Nat.le_refl _, fun L h1 h2 =>
      ⟨List.forall_mem_cons.mpr ⟨h1, h2⟩, fun _ _ => Iff.rfl⟩⟩
    rw [List.reverse_cons, List.append_assoc]
    exact hp
  have root : ∀ stack m, p m = [] → NoFull (stack.map p) → NoFull ((m :: stack).map p) := by
    intro stack m e hn ps hp
    refine hn ps fun v => ?_
    have := hp v
    rw [List.map_cons, e] at this
    exact (List.mem_cons.mp this).elim (fun e => by simp at e) id
  induction n with
  | zero =>
    intro stack m hs hm hlen hp hn
    exact ⟨m :: stack, rfl, keep stack m hs hm hp (root stack m (List.length_eq_zero_iff.mp (by omega)) hn)⟩
  | succ n ih =>
    intro stack m hs hm hlen hp hn
    rw [pushMerged]
    rcases parent_cases hA hm with ⟨e, e'⟩ | ⟨y, v, e', hy, e⟩
    · rw [e', ok_bind]
      exact ⟨m :: stack, rfl, keep stack m hs hm hp (root stack m e hn)⟩
    · rw [e', ok_bind]
      simp only []
      have hlast : ∀ x ∈ stack.take (order.length - 1), ok x := fun x hx => hs x (List.mem_of_mem_take hx)
      obtain ⟨b, e1, e2⟩ := allHaveParent_ok hk hA hC hy hlast
      by_cases hmerge : (stack.take (order.length - 1)).length = order.length - 1 ∧ b = true
      · obtain ⟨hl, rfl⟩ := hmerge
        rw [if_pos hl, e1, ok_bind, if_pos rfl]
        have hpar := e2.mp rfl
        have h1 : 1 ≤ order.length := List.length_pos_of_mem (hall v)
        have hxs : ∀ x ∈ (stack.take (order.length - 1)).reverse ++ [m], ok x := by
          intro x hx
          rcases List.mem_append.mp hx with hx | hx
          · exact hlast x (List.mem_reverse.mp hx)
          · rw [List.mem_singleton.mp hx]; exact hm
        have hxp : ∀ x ∈ (stack.take (order.length - 1)).reverse ++ [m], ∃ w, p x = p y ++ [w] := by
          intro x hx
          rcases List.mem_append.mp hx with hx | hx
          · exact hpar x (List.mem_reverse.mp hx)
          · rw [List.mem_singleton.mp hx]; exact ⟨v, e⟩
        have hlist : stack.reverse ++ m :: after = (stack.drop (order.length - 1)).reverse ++
            (((stack.take (order.length - 1)).reverse ++ [m]) ++ after) := by
          have := congrArg List.reverse (List.take_append_drop (order.length - 1) stack)
          rw [List.reverse_append] at this
          rw [← this]
          simp
        rw [hlist] at hp
        have hsib : Siblings c order.length y ((stack.take (order.length - 1)).reverse ++ [m]) := by
          refine ⟨by rw [List.length_append, List.length_reverse, hl]; simp; omega, ?_, fun x hx => ?_⟩
          · have := (List.pairwise_append.mp (List.pairwise_append.mp hp).2.1).1
            exact this.imp_of_mem fun {a b} ha hb g => (lt_iff_path hC (hxs a ha) (hxs b hb)).mpr g.1
          · obtain ⟨w, ew⟩ := hxp x hx
            rcases parent_cases hA (hxs x hx) with ⟨e0, -⟩ | ⟨z, w', ez, hz, ez'⟩
            · rw [e0] at ew; simp at ew
            · refine ⟨z, ez, ?_⟩
              rw [(hC z y hz hy).1, (pathCmp_eq_iff key hk _ _).mpr]
              rw [ez'] at ew
              exact (List.append_inj' ew rfl).1
        have hdr : ∀ x ∈ stack.drop (order.length - 1), ok x := fun x hx => hs x (List.mem_of_mem_drop hx)
        have hdr' : ∀ x ∈ (stack.drop (order.length - 1)).reverse, ok x := fun x hx => hdr x (List.mem_reverse.mp hx)
        have hrep := ((siblingsReplace_of hk h hA hC hord hall y hy _ hxs hsib).2 _ after hdr' haf).1
        rw [leaves_iff_apart hk h hA hC (by
            intro x hx
            rcases List.mem_append.mp hx with hx | hx
            · exact hdr' x hx
            · exact (List.mem_append.mp hx).elim (hxs x) (haf x)),
          leaves_iff_apart hk h hA hC (by
            intro x hx
            rcases List.mem_append.mp hx with hx | hx
            · exact hdr' x hx
            · exact (List.mem_cons.mp hx).elim (fun e => e ▸ hy) (haf x))] at hrep
        have hylen : (p m).length = (p y).length + 1 := by rw [e]; simp
        obtain ⟨out, o1, o2, o3, o4, o5, o6⟩ := ih (stack.drop (order.length - 1)) y hdr hy (by omega) (hrep.mp hp)
          (hn.mono fun x hx => by
            obtain ⟨z, hz, rfl⟩ := List.mem_map.mp hx
            exact List.mem_map_of_mem (List.mem_of_mem_drop hz))
        refine ⟨out, o1, o2, o3, o4, by rw [List.length_drop] at o5; omega, fun L h1 h2 => ?_⟩
        obtain ⟨g1, g2⟩ := o6 L (by omega) fun x hx => h2 x (List.mem_of_mem_drop hx)
        refine ⟨g1, fun cs hcs => (g2 cs hcs).trans ?_⟩
        have hpaths := siblings_paths hk hA hC hord hall hy hxs hsib
        constructor
        · rintro ⟨xs, hx, hxc⟩
          rw [List.map_cons] at hx
          rcases List.mem_cons.mp hx with rfl | hx
          · rcases prefix_or_child.mp hxc with ⟨w, hw⟩ | e0
            · obtain ⟨i, hi, ei⟩ := List.getElem_of_mem (hall w)
              have hi' : i < ((stack.take (order.length - 1)).reverse ++ [m]).length := by rw [hsib.1]; exact hi
              refine ⟨p (((stack.take (order.length - 1)).reverse ++ [m])[i]), List.mem_map_of_mem ?_, ?_⟩
              · rcases List.mem_append.mp (List.getElem_mem hi') with hx | hx
                · exact List.mem_cons_of_mem _ (List.mem_of_mem_take (List.mem_reverse.mp hx))
                · exact List.mem_cons.mpr (.inl (List.mem_singleton.mp hx))
              · rw [hpaths i hi' hi, ei]; exact hw
            · rw [e0] at hcs; omega
          · obtain ⟨z, hz, rfl⟩ := List.mem_map.mp hx
            exact ⟨p z, List.mem_map_of_mem (List.mem_cons_of_mem _ (List.mem_of_mem_drop hz)), hxc⟩
        · rintro ⟨xs, hx, hxc⟩
          obtain ⟨z, hz, rfl⟩ := List.mem_map.mp hx
          rcases List.mem_cons.mp hz with rfl | hz
          · exact ⟨p y, by simp, (e ▸ List.prefix_append ..).trans hxc⟩
          · rw [← List.take_append_drop (order.length - 1) stack] at hz
            rcases List.mem_append.mp hz with hz | hz
            · obtain ⟨w, ew⟩ := hpar z hz
              exact ⟨p y, by simp, (ew ▸ List.prefix_append ..).trans hxc⟩
            · exact ⟨p z, List.mem_map_of_mem (List.mem_cons_of_mem _ hz), hxc⟩
      · have hfull : NoFull ((m :: stack).map p) := by
          intro ps hps
          have hm' : ∃ w, p m = ps ++ [w] := by
            refine Classical.byContradiction fun hno => hn ps fun w => ?_
            have := hps w
            rw [List.map_cons] at this
            exact (List.mem_cons.mp this).elim (fun e => absurd ⟨w, e.symm⟩ hno) id
          obtain ⟨w, ew⟩ := hm'
          have hpy : p y = ps := by rw [ew] at e; exact (List.append_inj' e rfl).1.symm
          have hp' : ((stack.reverse.map p) ++ [ps ++ [w]]).Pairwise (Apart key) := by
            rw [← ew, show stack.reverse.map p ++ [p m] = (stack.reverse ++ [m]).map p by simp, List.pairwise_map]
            exact hp.sublist (List.Sublist.append (List.Sublist.refl _) (by simp))
          obtain ⟨front, back, e3, e4, e5⟩ := full_at_top hk hord hall hp' fun u => by
            have := hps u
            rw [List.map_cons] at this
            rw [List.mem_append, List.map_reverse, List.mem_reverse]
            exact (List.mem_cons.mp this).elim (fun e => .inr (by rw [e, ew]; simp)) .inl
          have hst : stack.map p = back.reverse ++ front.reverse := by
            rw [← List.reverse_append, ← e3, List.map_reverse, List.reverse_reverse]
          have htake : (stack.take (order.length - 1)).map p = back.reverse := by
            rw [List.map_take, hst, List.take_left' (by rw [List.length_reverse]; omega)]
          refine hmerge ⟨?_, e2.mpr fun x hx => ?_⟩
          · have := congrArg List.length htake
            rw [List.length_map, List.length_reverse] at this
            omega
          · have : p x ∈ back.reverse := htake ▸ List.mem_map_of_mem hx
            rw [hpy]
            exact e5 _ (List.mem_reverse.mp this)
        refine ⟨m :: stack, ?_, keep stack m hs hm hp hfull⟩
        by_cases hl : (stack.take (order.length - 1)).length = order.length - 1
        · rw [if_pos hl, e1, ok_bind, if_neg fun e => hmerge ⟨hl, e⟩]; rfl
        · rw [if_neg hl]; rfl

theorem pushAll_ok [Inhabited Cell] (hk : Function.Injective key) (h : ListLike c ok p wr) (hA : AncLike c ok p)
    (hC : CmpLike c key ok p) (hord : order.map key = List.range order.length) (hall : ∀ v : Cell, v ∈ order) (ms : List M) :
    ∀ stack, (∀ x ∈ stack, ok x) → (∀ x ∈ ms, ok x) → (stack.reverse ++ ms).Pairwise (fun a b => Apart key (p a) (p b)) →
    NoFull (stack.map p) → ∃ out, pushAll c order.length stack ms = .ok out ∧ (∀ x ∈ out, ok x) ∧
      out.reverse.Pairwise (fun a b => Apart key (p a) (p b)) ∧ NoFull (out.map p) ∧ out.length ≤ stack.length + ms.length ∧
      ∀ L, (∀ x ∈ ms, (p x).length ≤ L) → (∀ x ∈ stack, (p x).length ≤ L) → (∀ x ∈ out, (p x).length ≤ L) ∧
        ∀ cs, cs.length = L → (CovPath (out.map p) cs ↔ CovPath ((stack ++ ms).map p) cs) := by
  induction ms with
  | nil =>
    intro stack hs _ hp hn
    refine ⟨stack, rfl, hs, by simpa using hp, hn, by simp, fun L _ h2 => ⟨h2, fun cs _ => by rw [List.append_nil]⟩⟩
  | cons m ms ih =>
    intro stack hs hms hp hn
    have hm := hms m (by simp)
    have hms' : ∀ x ∈ ms, ok x := fun x hx => hms x (List.mem_cons_of_mem _ hx)
    obtain ⟨o, o1, o2, o3, o4, o5, o6⟩ := pushMerged_ok hk h hA hC hord hall ms hms' (depth m) stack m hs hm
      (Nat.le_of_eq (h.depth_eq m hm).symm) hp hn
    obtain ⟨out, q1, q2, q3, q4, q5, q6⟩ := ih o o2 hms' o3 o4
    refine ⟨out, by rw [pushAll, o1]; exact q1, q2, q3, q4, by rw [List.length_cons]; omega, fun L h1 h2 => ?_⟩
    obtain ⟨g1, g2⟩ := o6 L (h1 m (by simp)) h2
    obtain ⟨g3, g4⟩ := q6 L (fun x hx => h1 x (List.mem_cons_of_mem _ hx)) g1
    refine ⟨g3, fun cs hcs => (g4 cs hcs).trans ?_⟩
    have := g2 cs hcs
    unfold CovPath at this ⊢
    simp only [List.map_append, List.map_cons, List.mem_append, List.mem_cons] at this ⊢
    constructor
    · rintro ⟨xs, hx | hx, hc⟩
      · obtain ⟨ys, hy | hy, hc⟩ := this.mp ⟨xs, hx, hc⟩
        · exact ⟨ys, .inr (.inl hy), hc⟩
        · exact ⟨ys, .inl hy, hc⟩
      · exact ⟨xs, .inr (.inr hx), hc⟩
    · rintro ⟨xs, hx | hx | hx, hc⟩
      · obtain ⟨ys, hy, hc⟩ := this.mpr ⟨xs, .inr hx, hc⟩
        exact ⟨ys, .inl hy, hc⟩
      · obtain ⟨ys, hy, hc⟩ := this.mpr ⟨xs, .inl hx, hc⟩
        exact ⟨ys, .inl hy, hc⟩
      · exact ⟨xs, .inr hx, hc⟩

omit [RustOrd M] in
theorem coversPlace_iff (h : ListLike c ok p wr) {ms : List M} (hms : ∀ m ∈ ms, ok m) (cs : List Cell) :
    CoversPlace c ms cs ↔ CovPath (ms.map p) cs := by
  constructor
  · rintro ⟨m, hm, n, hn⟩
    refine ⟨p m, List.mem_map_of_mem hm, ?_⟩
    rw [h.eq_of_shows (hms m hm) hn]
    exact List.take_prefix ..
  · rintro ⟨xs, hx, hc⟩
    obtain ⟨m, hm, rfl⟩ := List.mem_map.mp hx
    refine ⟨m, hm, (p m).length, ?_⟩
    rw [← List.prefix_iff_eq_take.mp hc]
    exact h.shows (hms m hm)

theorem mergesSiblings_of [Inhabited Cell] (hk : Function.Injective key) (h : ListLike c ok p wr) (hA : AncLike c ok p)
    (hC : CmpLike c key ok p) (hord : order.map key = List.range order.length) (hall : ∀ v : Cell, v ∈ order) :
    MergesSiblings c order.length ok := by
  -- the pass, on paths
  have main : ∀ ms, Region c ok ms → ∃ out, mergeSiblings c order.length ms = .ok out ∧ (∀ x ∈ out, ok x) ∧
      (out.map p).Pairwise (Apart key) ∧ NoFull (out.map p) ∧ out.length ≤ ms.length ∧
      ∀ L, (∀ x ∈ ms, (p x).length ≤ L) → (∀ x ∈ out.map p, x.length ≤ L) ∧
        ∀ cs, cs.length = L → (CovPath (out.map p) cs ↔ CovPath (ms.map p) cs) := by
    intro ms hms
    obtain ⟨h1, h2⟩ := (region_iff_apart hk h hA hC).mp hms
    obtain ⟨out, o1, o2, o3, o4, o5, o6⟩ := pushAll_ok hk h hA hC hord hall ms [] (by simp) h1 (by simpa using h2)
      (fun ps hp => by have := hp default; simp at this)
    refine ⟨out.reverse, by rw [mergeSiblings, o1]; rfl, fun x hx => o2 x (List.mem_reverse.mp hx), by rw [List.pairwise_map]; exact o3,
      o4.mono fun x hx => by simpa using hx, by simpa using o5, fun L hL => ?_⟩
    obtain ⟨g1, g2⟩ := o6 L hL (by simp)
    refine ⟨fun x hx => ?_, fun cs hcs => ?_⟩
    · obtain ⟨z, hz, rfl⟩ := List.mem_map.mp hx
      exact g1 z (List.mem_reverse.mp hz)
    · rw [List.nil_append] at g2
      rw [← g2 cs hcs]
      unfold CovPath
      simp
  have places : ∀ {as bs : List M}, (∀ m ∈ as, ok m) → (∀ m ∈ bs, ok m) → ∀ L, (SamePlaces c L as bs ↔
      ∀ cs, cs.length = L → (CovPath (as.map p) cs ↔ CovPath (bs.map p) cs)) := by
    intro as bs ha hb L
    unfold SamePlaces
    simp only [coversPlace_iff h ha, coversPlace_iff h hb]
  have len : ∀ {ms : List M} {L : Nat}, (∀ m ∈ ms, ok m) → (∀ m ∈ ms, depth m ≤ L) → ∀ m ∈ ms, (p m).length ≤ L :=
    fun ho hd m hm => h.depth_eq m (ho m hm) ▸ hd m hm
  have same : ∀ as bs as' bs' L, Region c ok as → Region c ok bs → (∀ m ∈ as ++ bs, depth m ≤ L) →
      mergeSiblings c order.length as = .ok as' → mergeSiblings c order.length bs = .ok bs' →
      (SamePlaces c L as bs ↔ as'.map p = bs'.map p) := by
    intro as bs as' bs' L ha hb hL ea eb
    obtain ⟨_, o1, o2, o3, o4, -, o6⟩ := main as ha
    obtain ⟨_, q1, q2, q3, q4, -, q6⟩ := main bs hb
    rw [ea] at o1; cases o1
    rw [eb] at q1; cases q1
    obtain ⟨g1, g2⟩ := o6 L (len ha.1 fun m hm => hL m (List.mem_append_left _ hm))
    obtain ⟨g3, g4⟩ := q6 L (len hb.1 fun m hm => hL m (List.mem_append_right _ hm))
    rw [places ha.1 hb.1]
    constructor
    · intro e
      exact merged_unique o3 q3 o4 q4 g1 g3 fun cs hcs => (g2 cs hcs).trans ((e cs hcs).trans (g4 cs hcs).symm)
    · intro e cs hcs
      rw [← g2 cs hcs, ← g4 cs hcs, e]
  refine ⟨fun ms hms => ?_, fun as bs as' bs' L ha hb hL ea eb => ?_⟩
  · obtain ⟨out, o1, o2, o3, o4, o5, o6⟩ := main ms hms
    refine ⟨out, o1, (region_iff_apart hk h hA hC).mpr ⟨o2, List.pairwise_map.mp o3⟩, fun m xs hm hxs hs => ?_, fun L hL => ?_,
      fun other L hother hL hsame => ?_⟩
    · have hpaths := siblings_paths hk hA hC hord hall hm (fun x hx => o2 x (hxs x hx)) hs
      refine o4 (p m) fun v => ?_
      obtain ⟨i, hi, ei⟩ := List.getElem_of_mem (hall v)
      have hi' : i < xs.length := by rw [hs.1]; exact hi
      rw [← ei, ← hpaths i hi' hi]
      exact List.mem_map_of_mem (hxs _ (List.getElem_mem hi'))
    · obtain ⟨g1, g2⟩ := o6 L (len hms.1 hL)
      exact ⟨fun m hm => h.depth_eq m (o2 m hm) ▸ g1 _ (List.mem_map_of_mem hm), (places o2 hms.1 L).mpr g2⟩
    · obtain ⟨out', q1, -, -, -, q5, -⟩ := main other hother
      have := congrArg List.length ((same ms other out out' L hms hother hL o1 q1).mp hsame)
      rw [List.length_map, List.length_map] at this
      omega
  · rw [same as bs as' bs' L ha hb hL ea eb]
    obtain ⟨_, o1, o2, -⟩ := main as ha
    obtain ⟨_, q1, q2, -⟩ := main bs hb
    rw [ea] at o1; cases o1
    rw [eb] at q1; cases q1
    have hcmp : ∀ a b, ok a → ok b → (RustOrd.cmp c a b = .ok .eq ↔ p a = p b) := fun a b ha hb => by
      rw [(hC a b ha hb).1, ← pathCmp_eq_iff key hk]
      exact ⟨Except.ok.inj, congrArg _⟩
    constructor
    · intro e
      refine ⟨by simpa using congrArg List.length e, fun i a b hi hj => ?_⟩
      rw [hcmp a b (o2 a (List.mem_of_getElem? hi)) (q2 b (List.mem_of_getElem? hj))]
      have := congrArg (·[i]?) e
      simp only [List.getElem?_map, hi, hj, Option.map_some] at this
      exact Option.some.inj this
    · rintro ⟨hl, e⟩
      refine List.ext_getElem (by simpa using hl) fun i h1 h2 => ?_
      rw [List.length_map] at h1 h2
      rw [List.getElem_map, List.getElem_map, ← hcmp _ _ (o2 _ (List.getElem_mem h1)) (q2 _ (List.getElem_mem h2))]
      exact e i _ _ (List.getElem?_eq_getElem h1) (List.getElem?_eq_getElem h2)

end

/-! ## C126 -/

/-- C126 in 2D. -/
theorem C126_merges_2D {c : Cfg} (hc : c.Supported) :
    (∀ w, MergesSiblings c 4 (fun m : MortonIndex2D (StaticStorage2D w) => Reach2D c .all (.static w m))) ∧
    MergesSiblings c 4 (fun m : MortonIndex2D DynamicStorage2D => Reach2D c .all (.dynamic m)) :=
  have : Inhabited Quadrant := ⟨.Zero⟩
  ⟨fun _ => mergesSiblings_of (order := [Quadrant.Zero, .One, .Two, .Three]) quadrantKey_inj (static_list2 hc) (static_anc2 hc)
      (static_cmp2 hc) (by decide) (fun v => by cases v <;> decide),
    mergesSiblings_of (order := [Quadrant.Zero, .One, .Two, .Three]) quadrantKey_inj (dynamic_list2' hc) (dynamic_anc2 hc)
      (dynamic_cmp2 hc) (by decide) (fun v => by cases v <;> decide)⟩

/-- C126 in 3D. -/
theorem C126_merges_3D {c : Cfg} (hc : c.Supported) :
    (∀ w, MergesSiblings c 8 (fun m : MortonIndex3D (StaticStorage3D w) => Reach3D c .all (.static w m))) ∧
    MergesSiblings c 8 (fun m : MortonIndex3D DynamicStorage3D => Reach3D c .all (.dynamic m)) :=
  have : Inhabited Octant := ⟨.Zero⟩
  ⟨fun _ => mergesSiblings_of (order := [Octant.Zero, .One, .Two, .Three, .Four, .Five, .Six, .Seven]) octantKey_inj (static_list3 hc)
      (static_anc3 hc) (static_cmp3 hc) (by decide) (fun v => by cases v <;> decide),
    mergesSiblings_of (order := [Octant.Zero, .One, .Two, .Three, .Four, .Five, .Six, .Seven]) octantKey_inj (dynamic_list3' hc)
      (dynamic_anc3 hc) (dynamic_cmp3 hc) (by decide) (fun v => by cases v <;> decide)⟩

/-! ## Examples -/

/-- The children of `[Zero]`, then `[One]`, `[Two]`, and the children of `[Three]`. -/
def exMergeA : List (MortonIndex2D (StaticStorage2D 16)) :=
  [⟨⟨0#16, 2⟩⟩, ⟨⟨0x1000#16, 2⟩⟩, ⟨⟨0x2000#16, 2⟩⟩, ⟨⟨0x3000#16, 2⟩⟩, ⟨⟨0x4000#16, 1⟩⟩, ⟨⟨0x8000#16, 1⟩⟩, ⟨⟨0xC000#16, 2⟩⟩,
    ⟨⟨0xD000#16, 2⟩⟩, ⟨⟨0xE000#16, 2⟩⟩, ⟨⟨0xF000#16, 2⟩⟩]

/-- `[Zero]`, `[One]`, `[Two]` and `[Three]` without its last child. -/
def exMergeB : List (MortonIndex2D (StaticStorage2D 16)) :=
  [⟨⟨0#16, 1⟩⟩, ⟨⟨0x4000#16, 1⟩⟩, ⟨⟨0x8000#16, 1⟩⟩, ⟨⟨0xC000#16, 2⟩⟩, ⟨⟨0xD000#16, 2⟩⟩, ⟨⟨0xE000#16, 2⟩⟩]

theorem exMergeA_region : Region x64 (fun m => Reach2D x64 .all (.static 16 m)) exMergeA := by
  refine ⟨fun m hm => ?_, by decide +kernel, by unfold Disjoint; decide +kernel⟩
  simp only [exMergeA, List.mem_cons, List.not_mem_nil, or_false] at hm
  rcases hm with rfl | rfl | rfl | rfl | rfl | rfl | rfl | rfl | rfl | rfl
  · exact .staticTryFromSlice (cs := [.Zero, .Zero]) (by decide) (by rfl)
  · exact .staticTryFromSlice (cs := [.Zero, .One]) (by decide) (by rfl)
  · exact .staticTryFromSlice (cs := [.Zero, .Two]) (by decide) (by rfl)
  · exact .staticTryFromSlice (cs := [.Zero, .Three]) (by decide) (by rfl)
  · exact .staticTryFromSlice (cs := [.One]) (by decide) (by rfl)
  · exact .staticTryFromSlice (cs := [.Two]) (by decide) (by rfl)
  · exact .staticTryFromSlice (cs := [.Three, .Zero]) (by decide) (by rfl)
  · exact .staticTryFromSlice (cs := [.Three, .One]) (by decide) (by rfl)
  · exact .staticTryFromSlice (cs := [.Three, .Two]) (by decide) (by rfl)
  · exact .staticTryFromSlice (cs := [.Three, .Three]) (by decide) (by rfl)

theorem exMergeB_region : Region x64 (fun m => Reach2D x64 .all (.static 16 m)) exMergeB := by
  refine ⟨fun m hm => ?_, by decide +kernel, by unfold Disjoint; decide +kernel⟩
  simp only [exMergeB, List.mem_cons, List.not_mem_nil, or_false] at hm
  rcases hm with rfl | rfl | rfl | rfl | rfl | rfl
  · exact .staticTryFromSlice (cs := [.Zero]) (by decide) (by rfl)
  · exact .staticTryFromSlice (cs := [.One]) (by decide) (by rfl)
  · exact .staticTryFromSlice (cs := [.Two]) (by decide) (by rfl)
  · exact .staticTryFromSlice (cs := [.Three, .Zero]) (by decide) (by rfl)
  · exact .staticTryFromSlice (cs := [.Three, .One]) (by decide) (by rfl)
  · exact .staticTryFromSlice (cs := [.Three, .Two]) (by decide) (by rfl)

/-- The first list is the whole space, and only the root is left. In the second one nothing can be merged. -/
example : mergeSiblings x64 4 exMergeA = .ok [⟨⟨0#16, 0⟩⟩] ∧ mergeSiblings x64 4 exMergeB = .ok exMergeB := by decide +kernel

/-- So the two regions are not the same, but the first one and the one of the root are. -/
example : ¬ SamePlaces x64 2 exMergeA exMergeB ∧ SamePlaces x64 2 exMergeA [(⟨⟨0#16, 0⟩⟩ : MortonIndex2D (StaticStorage2D 16))] := by
  have hroot : Region x64 (fun m => Reach2D x64 .all (.static 16 m)) [⟨⟨0#16, 0⟩⟩] :=
    ⟨fun m hm => by rw [List.mem_singleton.mp hm]; exact .staticTryFromSlice (cs := []) (by decide) (by rfl), by simp,
      by simp [Disjoint]⟩
  constructor
  · rw [((C126_merges_2D x64_supported).1 16).2 exMergeA exMergeB [⟨⟨0#16, 0⟩⟩] exMergeB 2 exMergeA_region exMergeB_region
      (by decide) (by decide +kernel) (by decide +kernel)]
    exact fun e => absurd e.1 (by decide)
  · exact (((C126_merges_2D x64_supported).1 16).2 exMergeA [⟨⟨0#16, 0⟩⟩] [⟨⟨0#16, 0⟩⟩] [⟨⟨0#16, 0⟩⟩] 2 exMergeA_region hroot (by decide)
      (by decide +kernel) (by decide +kernel)).mpr ⟨rfl, fun i a b ha hb => by
        rw [ha] at hb
        cases hb
        rw [List.mem_singleton.mp (List.mem_of_getElem? ha)]
        decide +kernel⟩

/-- The eight children of the dynamic index `[Five]`. -/
def exMergeD : List (MortonIndex3D DynamicStorage3D) :=
  [⟨⟨[0xA0#8], 2⟩⟩, ⟨⟨[0xA4#8], 2⟩⟩, ⟨⟨[0xA8#8], 2⟩⟩, ⟨⟨[0xAC#8], 2⟩⟩, ⟨⟨[0xB0#8], 2⟩⟩, ⟨⟨[0xB4#8], 2⟩⟩, ⟨⟨[0xB8#8], 2⟩⟩, ⟨⟨[0xBC#8], 2⟩⟩]

theorem exMergeD_region : Region x64 (fun m => Reach3D x64 .all (.dynamic m)) exMergeD :=
  ⟨((C104_refine_3D x64_supported).2 x64_writes ⟨⟨[0xA0#8], 1⟩⟩
      (.dynamicTryFromSlice (cs := [.Five]) (by unfold Addressable; decide) (by rfl)) (by unfold Addressable; decide) exMergeD rfl
      (by decide +kernel)).1, by decide +kernel, by unfold Disjoint; decide +kernel⟩

/-- They are merged, and the list of one node is a region that covers the same places of depth 5. -/
example : ∃ out, mergeSiblings x64 8 exMergeD = .ok out ∧ out = [⟨⟨[0xA0#8], 1⟩⟩] ∧ SamePlaces x64 5 out exMergeD := by
  obtain ⟨out, h1, -, -, h2, -⟩ := (C126_merges_3D x64_supported).2.1 exMergeD exMergeD_region
  have e : mergeSiblings x64 8 exMergeD = .ok [⟨⟨[0xA0#8], 1⟩⟩] := by decide +kernel
  exact ⟨out, h1, Except.ok.inj (h1.symm.trans e), (h2 5 (by decide)).2⟩

end MortonRs
