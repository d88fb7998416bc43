import Verif.Props.Overlaps
import Verif.Props.Window

/-! # Refining and coarsening a list of leaves (C104)

A leaf is replaced by its children, or four (eight) leaves by their parent, at their place in the sorted list. -/

namespace MortonRs

open MortonIndex VariableDepthMortonIndex

variable {M Cell : Type}

/-! ## Statement -/

/-- `K` nodes in strictly ascending order that all have the parent `m`. -/
def Siblings [VariableDepthMortonIndex M Cell] [RustOrd M] (c : Cfg) (K : Nat) (m : M) (xs : List M) : Prop :=
  xs.length = K ∧ xs.Pairwise (fun a b => RustOrd.lt c a b = .ok true) ∧
  ∀ x ∈ xs, ∃ y, parent c x = .ok (some y) ∧ RustOrd.cmp c y m = .ok .eq

/-- C104, first half. The children of a node, taken in the order of the cells, are siblings. `room` says that the children can
be addressed. -/
def ChildrenAreSiblings [VariableDepthMortonIndex M Cell] [RustOrd M] (c : Cfg) (order : List Cell) (ok : M → Prop)
    (room : M → Prop) : Prop :=
  ∀ m, ok m → room m → ∀ xs : List M, xs.length = order.length →
    (∀ i (h1 : i < xs.length) (h2 : i < order.length), child c m order[i] = .ok (some xs[i])) →
    (∀ x ∈ xs, ok x) ∧ Siblings c order.length m xs

/-- C104, second half. As many siblings as there are cells are all children of the parent, in the order of the cells. In a list
they can be replaced by the parent and the parent by them: if one list is a sorted list of leaves so is the other, and both lists
cover the same nodes except for the parent itself. -/
def SiblingsReplaceParent [VariableDepthMortonIndex M Cell] [RustOrd M] (c : Cfg) (order : List Cell) (ok : M → Prop) : Prop :=
  ∀ m, ok m → ∀ xs : List M, (∀ x ∈ xs, ok x) → Siblings c order.length m xs →
    (∀ i (h1 : i < xs.length) (h2 : i < order.length), depth xs[i] = depth m + 1 ∧
      getCellAtLevel c xs[i] (depth m) = .ok order[i]) ∧
    ∀ before after : List M, (∀ x ∈ before, ok x) → (∀ x ∈ after, ok x) →
      (Sorted c (before ++ (xs ++ after)) ∧ Disjoint c (before ++ (xs ++ after)) ↔
        Sorted c (before ++ m :: after) ∧ Disjoint c (before ++ m :: after)) ∧
      ∀ q, ok q → ((∃ a ∈ before ++ m :: after, InSubtree c a q) ↔
        (∃ a ∈ before ++ (xs ++ after), InSubtree c a q) ∨ RustOrd.cmp c q m = .ok .eq)

/-! ## Proof -/

theorem ascending_range {l : List Nat} (hl : l.Pairwise (· < ·)) (hlt : ∀ x ∈ l, x < l.length) : l = List.range l.length := by
  have step : ∀ j i (h : i + j < l.length), l[i] + j ≤ l[i + j] := by
    intro j
    induction j with
    | zero => intro i h; simp
    | succ j ih =>
      intro i h
      have h1 := ih i (by omega)
      have h2 := List.pairwise_iff_getElem.mp hl (i + j) (i + (j + 1)) (by omega) h (by omega)
      omega
  apply List.ext_getElem (by simp)
  intro i h1 h2
  rw [List.getElem_range]
  have a := step i 0 (by omega)
  have b := step (l.length - 1 - i) i (by omega)
  have d := hlt _ (List.getElem_mem (l := l) (n := i + (l.length - 1 - i)) (by omega))
  simp only [Nat.zero_add] at a
  omega

section paths

variable {key : Cell → Nat}

theorem apart_of_le (hk : Function.Injective key) {xs ys : List Cell} (h : pathCmp key xs ys ≠ .gt) (h1 : ¬ xs <+: ys)
    (h2 : ¬ ys <+: xs) : Apart key xs ys := by
  refine ⟨?_, h1, h2⟩
  cases e : pathCmp key xs ys with
  | lt => rfl
  | gt => exact absurd e h
  | eq =>
    rw [pathCmp_eq_iff key hk] at e
    exact absurd (e ▸ List.prefix_refl xs) h1

theorem not_prefix_child {as ms : List Cell} (h1 : ¬ as <+: ms) (h2 : ¬ ms <+: as) (v : Cell) :
    ¬ as <+: ms ++ [v] ∧ ¬ ms ++ [v] <+: as := by
  refine ⟨fun h => ?_, fun h => h2 ((List.prefix_append ..).trans h)⟩
  rcases List.prefix_concat_iff.mp h with e | h
  · exact h2 (e ▸ List.prefix_append ..)
  · exact h1 h

theorem not_prefix_parent [Inhabited Cell] {as ms : List Cell} (h1 : ∀ v, ¬ as <+: ms ++ [v]) (h2 : ∀ v, ¬ ms ++ [v] <+: as) :
    ¬ as <+: ms ∧ ¬ ms <+: as := by
  have h : ¬ as <+: ms := fun h => h1 default (h.trans (List.prefix_append ..))
  refine ⟨h, ?_⟩
  rintro ⟨t, e⟩
  cases t with
  | nil => rw [List.append_nil] at e; exact h (e ▸ List.prefix_refl _)
  | cons v t => exact h2 v ⟨t, by rw [List.append_assoc]; exact e⟩

theorem apart_before [Inhabited Cell] (hk : Function.Injective key) (as ms : List Cell) :
    Apart key as ms ↔ ∀ v, Apart key as (ms ++ [v]) := by
  constructor
  · rintro ⟨h1, h2, h3⟩ v
    exact ⟨pathCmp_lt_of_le hk h1 (pathCmp_prefix (List.prefix_append ..)), not_prefix_child h2 h3 v⟩
  · intro h
    obtain ⟨h2, h3⟩ := not_prefix_parent (fun v => (h v).2.1) (fun v => (h v).2.2)
    refine apart_of_le hk (fun e => ?_) h2 h3
    rw [← pathCmp_swap key, Ordering.swap_eq_gt] at e
    have h4 := pathCmp_after key hk e h3 (List.prefix_append ms [default])
    have h5 := (h default).1
    rw [← pathCmp_swap key, h4] at h5
    exact absurd h5 (by decide)

theorem apart_behind [Inhabited Cell] (hk : Function.Injective key) (ms bs : List Cell) :
    Apart key ms bs ↔ ∀ v, Apart key (ms ++ [v]) bs := by
  constructor
  · rintro ⟨h1, h2, h3⟩ v
    exact ⟨pathCmp_after key hk h1 h2 (List.prefix_append ..), (not_prefix_child h3 h2 v).symm⟩
  · intro h
    obtain ⟨h2, h3⟩ := not_prefix_parent (fun v => (h v).2.2) (fun v => (h v).2.1)
    refine apart_of_le hk (fun e => ?_) h3 h2
    rw [← pathCmp_swap key, Ordering.swap_eq_gt] at e
    have h4 := pathCmp_lt_of_le hk e (pathCmp_prefix (key := key) (List.prefix_append ms [default]))
    have h5 := (h default).1
    rw [← pathCmp_swap key, h4] at h5
    exact absurd h5 (by decide)

theorem prefix_or_child {ms qs : List Cell} : ms <+: qs ↔ (∃ v, ms ++ [v] <+: qs) ∨ qs = ms := by
  constructor
  · rintro ⟨t, rfl⟩
    cases t with
    | nil => exact .inr (by simp)
    | cons v t => exact .inl ⟨v, t, by simp⟩
  · rintro (⟨v, h⟩ | rfl)
    · exact (List.prefix_append ..).trans h
    · exact List.prefix_refl _

end paths

section

variable [VariableDepthMortonIndex M Cell] [RustOrd M] {c : Cfg} {ok : M → Prop} {p : M → List Cell} {wr : Cell → Cell}
  {key : Cell → Nat} {order : List Cell}

theorem leaves_iff_apart (hk : Function.Injective key) (h : ListLike c ok p wr) (hA : AncLike c ok p) (hC : CmpLike c key ok p)
    {ms : List M} (hms : ∀ m ∈ ms, ok m) :
    Sorted c ms ∧ Disjoint c ms ↔ ms.Pairwise fun a b => Apart key (p a) (p b) := by
  have hin : ∀ {a b : M}, ok a → ok b → (InSubtree c a b ↔ p a <+: p b) := fun ha hb => inSubtree_iff hk h hA hC ha hb
  unfold Sorted Disjoint
  rw [← List.pairwise_and_iff]
  constructor
  · refine List.Pairwise.imp_of_mem fun {a b} ha hb e => ?_
    rw [le_iff_path hC (hms a ha) (hms b hb), hin (hms a ha) (hms b hb), hin (hms b hb) (hms a ha)] at e
    exact apart_of_le hk e.1 e.2.1 e.2.2
  · refine List.Pairwise.imp_of_mem fun {a b} ha hb e => ?_
    rw [le_iff_path hC (hms a ha) (hms b hb), hin (hms a ha) (hms b hb), hin (hms b hb) (hms a ha)]
    exact ⟨by rw [e.1]; decide, e.2⟩

/-- The paths of siblings. -/
theorem siblings_paths (hk : Function.Injective key) (hA : AncLike c ok p) (hC : CmpLike c key ok p)
    (hord : order.map key = List.range order.length) (hall : ∀ v : Cell, v ∈ order) {m : M} (hm : ok m) {xs : List M}
    (hxs : ∀ x ∈ xs, ok x) (hs : Siblings c order.length m xs) :
    ∀ i (h1 : i < xs.length) (h2 : i < order.length), p xs[i] = p m ++ [order[i]] := by
  obtain ⟨hlen, hsort, hpar⟩ := hs
  have hlast : ∀ x ∈ xs, ∃ v, p x = p m ++ [v] := by
    intro x hx
    obtain ⟨y, e1, e2⟩ := hpar x hx
    rw [parent_eq] at e1
    by_cases h0 : 0 < (p x).length
    · obtain ⟨a, g1, g2, g3⟩ := hA.yes x (hxs x hx) ⟨1, by decide⟩ h0
      rw [e1] at g1; cases g1
      rw [(hC y m g2 hm).1] at e2
      have e3 := (pathCmp_eq_iff key hk _ _).mp (Except.ok.inj e2)
      change p y = (p x).take ((p x).length - 1) at g3
      refine ⟨(p x)[(p x).length - 1], ?_⟩
      rw [← e3, g3, List.take_append_getElem (by omega), show (p x).length - 1 + 1 = (p x).length by omega, List.take_length]
    · rw [hA.no x (hxs x hx) _ (by change 1 > _; omega)] at e1
      simp at e1
  have hkey : ∀ v : Cell, key v < order.length := fun v => by
    have : key v ∈ order.map key := List.mem_map_of_mem (hall v)
    rw [hord] at this
    exact List.mem_range.mp this
  let last : M → Nat := fun x => ((p x).getLast?.map key).getD 0
  have hl : ∀ x v, p x = p m ++ [v] → last x = key v := fun x v e => by
    change ((p x).getLast?.map key).getD 0 = _
    rw [e, List.getLast?_append]; rfl
  have hrange : xs.map last = List.range xs.length := by
    have := ascending_range (l := xs.map last) (by
      rw [List.pairwise_map]
      refine hsort.imp_of_mem fun {a b} ha hb e => ?_
      rw [lt_iff_path hC (hxs a ha) (hxs b hb)] at e
      obtain ⟨v, ev⟩ := hlast a ha
      obtain ⟨w, ew⟩ := hlast b hb
      rw [hl a v ev, hl b w ew]
      rw [ev, ew] at e
      rcases Nat.lt_trichotomy (key v) (key w) with g | g | g
      · exact g
      · rw [hk g, (pathCmp_eq_iff key hk _ _).mpr rfl] at e
        exact absurd e (by decide)
      · rw [← pathCmp_swap key, pathCmp_branch key g (p m) [] []] at e
        exact absurd e (by decide)) (by
      intro k hk'
      obtain ⟨x, hx, rfl⟩ := List.mem_map.mp hk'
      obtain ⟨v, ev⟩ := hlast x hx
      rw [hl x v ev, List.length_map, hlen]
      exact hkey v)
    simpa using this
  intro i h1 h2
  obtain ⟨v, ev⟩ := hlast xs[i] (List.getElem_mem h1)
  have e1 : last xs[i] = i := by
    have : (xs.map last)[i]'(by simpa using h1) = (List.range xs.length)[i]'(by simpa using h1) := by simp only [hrange]
    rwa [List.getElem_map, List.getElem_range] at this
  have e2 : key order[i] = i := by
    have : (order.map key)[i]'(by simpa using h2) = (List.range order.length)[i]'(by simpa using h2) := by simp only [hord]
    rwa [List.getElem_map, List.getElem_range] at this
  rw [hl xs[i] v ev] at e1
  rw [ev, hk (e1.trans e2.symm)]

theorem siblingsReplace_of [Inhabited Cell] (hk : Function.Injective key) (h : ListLike c ok p wr) (hA : AncLike c ok p)
    (hC : CmpLike c key ok p) (hord : order.map key = List.range order.length) (hall : ∀ v : Cell, v ∈ order) :
    SiblingsReplaceParent c order ok := by
  intro m hm xs hxs hs
  have hp := siblings_paths hk hA hC hord hall hm hxs hs
  have hlen := hs.1
  refine ⟨fun i h1 h2 => ?_, fun before after hbe haf => ⟨?_, fun q hq => ?_⟩⟩
  · have hx := hxs xs[i] (List.getElem_mem h1)
    rw [h.depth_eq _ hx, h.depth_eq m hm, h.get_eq hx, hp i h1 h2]
    simp
  · -- what holds for the path of every element of `xs` holds for the paths of all children
    have hmem : ∀ P : List Cell → Prop, (∀ x ∈ xs, P (p x)) ↔ ∀ v, P (p m ++ [v]) := by
      intro P
      constructor
      · intro e v
        obtain ⟨i, hi, ei⟩ := List.getElem_of_mem (hall v)
        have := e xs[i] (List.getElem_mem (by omega))
        rwa [hp i (by omega) hi, ei] at this
      · intro e x hx
        obtain ⟨i, hi, ei⟩ := List.getElem_of_mem hx
        rw [← ei, hp i hi (by omega)]
        exact e _
    have hself : xs.Pairwise fun a b => Apart key (p a) (p b) := by
      refine hs.2.1.imp_of_mem fun {a b} ha hb e => ?_
      have e' := (lt_iff_path hC (hxs a ha) (hxs b hb)).mp e
      have hla : ∀ x ∈ xs, (p x).length = (p m).length + 1 := (hmem fun l => l.length = (p m).length + 1).mpr (by simp)
      have hne : p a ≠ p b := fun e => by
        rw [e, (pathCmp_eq_iff key hk _ _).mpr rfl] at e'
        exact absurd e' (by decide)
      exact ⟨e', fun g => hne (g.eq_of_length (by rw [hla a ha, hla b hb])),
        fun g => hne (g.eq_of_length (by rw [hla a ha, hla b hb])).symm⟩
    have h1 : ∀ a ∈ before ++ (xs ++ after), ok a := by
      simp only [List.mem_append]
      exact fun a ha => ha.elim (hbe a) fun ha => ha.elim (hxs a) (haf a)
    have h2 : ∀ a ∈ before ++ m :: after, ok a := by
      simp only [List.mem_append, List.mem_cons]
      exact fun a ha => ha.elim (hbe a) fun ha => ha.elim (fun e => e ▸ hm) (haf a)
    rw [leaves_iff_apart hk h hA hC h1, leaves_iff_apart hk h hA hC h2, List.pairwise_append, List.pairwise_append,
      List.pairwise_append, List.pairwise_cons]
    simp only [List.mem_append, List.mem_cons]
    have hb : ∀ a, (∀ x ∈ xs, Apart key (p a) (p x)) ↔ Apart key (p a) (p m) := fun a =>
      (hmem fun l => Apart key (p a) l).trans (apart_before hk _ _).symm
    have ha : ∀ b, (∀ x ∈ xs, Apart key (p x) (p b)) ↔ Apart key (p m) (p b) := fun b =>
      (hmem fun l => Apart key l (p b)).trans (apart_behind hk _ _).symm
    constructor
    · rintro ⟨g1, ⟨-, g2, g3⟩, g4⟩
      refine ⟨g1, ⟨fun b hb' => (ha b).mp fun x hx => g3 x hx b hb', g2⟩, fun a ha' b hb' => ?_⟩
      rcases hb' with rfl | hb'
      · exact (hb a).mp fun x hx => g4 a ha' x (.inl hx)
      · exact g4 a ha' b (.inr hb')
    · rintro ⟨g1, ⟨g2, g3⟩, g4⟩
      refine ⟨g1, ⟨hself, g3, fun x hx b hb' => (ha b).mpr (g2 b hb') x hx⟩, fun a ha' b hb' => ?_⟩
      rcases hb' with hb' | hb'
      · exact (hb a).mpr (g4 a ha' m (.inl rfl)) b hb'
      · exact g4 a ha' b (.inr hb')
  · have hin : ∀ {a b : M}, ok a → ok b → (InSubtree c a b ↔ p a <+: p b) := fun ha hb => inSubtree_iff hk h hA hC ha hb
    have heq : RustOrd.cmp c q m = .ok .eq ↔ p q = p m := by
      rw [(hC q m hq hm).1, ← pathCmp_eq_iff key hk]
      exact ⟨Except.ok.inj, congrArg _⟩
    have hx : (∃ x ∈ xs, InSubtree c x q) ↔ ∃ v, p m ++ [v] <+: p q := by
      constructor
      · rintro ⟨x, hx, e⟩
        obtain ⟨i, hi, ei⟩ := List.getElem_of_mem hx
        have e := (hin (hxs x hx) hq).mp e
        rw [← ei, hp i hi (by omega)] at e
        exact ⟨_, e⟩
      · rintro ⟨v, e⟩
        obtain ⟨i, hi, ei⟩ := List.getElem_of_mem (hall v)
        have hmi := List.getElem_mem (l := xs) (n := i) (by omega)
        exact ⟨_, hmi, (hin (hxs _ hmi) hq).mpr (by rw [hp i (by omega) hi, ei]; exact e)⟩
    have hmq : InSubtree c m q ↔ (∃ x ∈ xs, InSubtree c x q) ∨ p q = p m := by
      rw [hin hm hq, prefix_or_child, hx]
    rw [heq]
    simp only [List.mem_append, List.mem_cons]
    constructor
    · rintro ⟨a, ha | rfl | ha, e⟩
      · exact .inl ⟨a, .inl ha, e⟩
      · rcases hmq.mp e with ⟨x, hx, e⟩ | e
        · exact .inl ⟨x, .inr (.inl hx), e⟩
        · exact .inr e
      · exact .inl ⟨a, .inr (.inr ha), e⟩
    · rintro (⟨a, ha | ha | ha, e⟩ | e)
      · exact ⟨a, .inl ha, e⟩
      · exact ⟨m, .inr (.inl rfl), hmq.mpr (.inl ⟨a, ha, e⟩)⟩
      · exact ⟨a, .inr (.inr ha), e⟩
      · exact ⟨m, .inr (.inl rfl), hmq.mpr (.inr e)⟩

theorem childrenAreSiblings_of (hk : Function.Injective key) (hA : AncLike c ok p) (hC : CmpLike c key ok p)
    {room : M → Nat → Prop} {limit : Option Nat} (hD : DescLike c ok p room limit)
    (hord : order.map key = List.range order.length) {room' : M → Prop} (hroom : ∀ m, ok m → room' m → room m 1) :
    ChildrenAreSiblings c order ok room' := by
  intro m hm hr xs hlen hch
  have hx : ∀ i (h1 : i < xs.length) (h2 : i < order.length), ok xs[i] ∧ p xs[i] = p m ++ [order[i]] := fun i h1 h2 =>
    hD.of_some (cs := [order[i]]) hm (hroom m hm hr) (hch i h1 h2)
  have hok : ∀ x ∈ xs, ok x := fun x hx' => by
    obtain ⟨i, hi, rfl⟩ := List.getElem_of_mem hx'
    exact (hx i hi (by omega)).1
  refine ⟨hok, hlen, List.pairwise_iff_getElem.mpr fun i j hi hj hij => ?_, fun x hx' => ?_⟩
  · rw [lt_iff_path hC (hok _ (List.getElem_mem hi)) (hok _ (List.getElem_mem hj)), (hx i hi (by omega)).2,
      (hx j hj (by omega)).2]
    refine pathCmp_branch key ?_ (p m) [] []
    have e : ∀ k (hk : k < order.length), key order[k] = k := fun k hk => by
      have : (order.map key)[k]'(by simpa using hk) = (List.range order.length)[k]'(by simpa using hk) := by simp only [hord]
      rwa [List.getElem_map, List.getElem_range] at this
    rw [e i (by omega), e j (by omega)]
    exact hij
  · obtain ⟨i, hi, rfl⟩ := List.getElem_of_mem hx'
    obtain ⟨g1, g2⟩ := hx i hi (by omega)
    obtain ⟨y, e1, e2, e3⟩ := hA.yes xs[i] g1 ⟨1, by decide⟩ (by rw [g2]; simp)
    refine ⟨y, by rw [parent_eq]; exact e1, ?_⟩
    rw [(hC y m e2 hm).1, e3, g2, (pathCmp_eq_iff key hk _ _).mpr]
    change ((p m ++ [order[i]]).take ((p m ++ [order[i]]).length - 1)) = _
    simp

end

/-! ## C104 -/

theorem C104_refine_2D {c : Cfg} (hc : c.Supported) :
    (∀ w, ChildrenAreSiblings c [Quadrant.Zero, .One, .Two, .Three]
      (fun m : MortonIndex2D (StaticStorage2D w) => Reach2D c .all (.static w m)) (fun _ => True)) ∧
    (DynWrites c → ChildrenAreSiblings c [Quadrant.Zero, .One, .Two, .Three]
      (fun m : MortonIndex2D DynamicStorage2D => Reach2D c .all (.dynamic m)) (fun m => Addressable c ((depth m + 1) * 2))) :=
  ⟨fun _ => childrenAreSiblings_of quadrantKey_inj (static_anc2 hc) (static_cmp2 hc) (static_desc2 hc) (by decide)
      (fun _ _ _ => one_lt_isize hc (x := Quadrant.Zero)),
    fun hw => childrenAreSiblings_of quadrantKey_inj (dynamic_anc2 hc) (dynamic_cmp2 hc) (dynamic_desc2 hc hw) (by decide)
      (fun _ _ hr => hr)⟩

theorem C104_refine_3D {c : Cfg} (hc : c.Supported) :
    (∀ w, ChildrenAreSiblings c [Octant.Zero, .One, .Two, .Three, .Four, .Five, .Six, .Seven]
      (fun m : MortonIndex3D (StaticStorage3D w) => Reach3D c .all (.static w m)) (fun _ => True)) ∧
    (DynWrites c → ChildrenAreSiblings c [Octant.Zero, .One, .Two, .Three, .Four, .Five, .Six, .Seven]
      (fun m : MortonIndex3D DynamicStorage3D => Reach3D c .all (.dynamic m)) (fun m => Addressable c ((depth m + 1) * 3))) :=
  ⟨fun _ => childrenAreSiblings_of octantKey_inj (static_anc3 hc) (static_cmp3 hc) (static_desc3 hc) (by decide)
      (fun _ _ _ => one_lt_isize hc (x := Octant.Zero)),
    fun hw => childrenAreSiblings_of octantKey_inj (dynamic_anc3 hc) (dynamic_cmp3 hc) (dynamic_desc3 hc hw) (by decide)
      (fun _ _ hr => hr)⟩

theorem C104_replace_2D {c : Cfg} (hc : c.Supported) :
    (∀ w, SiblingsReplaceParent c [Quadrant.Zero, .One, .Two, .Three]
      (fun m : MortonIndex2D (StaticStorage2D w) => Reach2D c .all (.static w m))) ∧
    SiblingsReplaceParent c [Quadrant.Zero, .One, .Two, .Three]
      (fun m : MortonIndex2D DynamicStorage2D => Reach2D c .all (.dynamic m)) :=
  have : Inhabited Quadrant := ⟨.Zero⟩
  ⟨fun _ => siblingsReplace_of quadrantKey_inj (static_list2 hc) (static_anc2 hc) (static_cmp2 hc) (by decide)
      (fun v => by cases v <;> decide),
    siblingsReplace_of quadrantKey_inj (dynamic_list2' hc) (dynamic_anc2 hc) (dynamic_cmp2 hc) (by decide)
      (fun v => by cases v <;> decide)⟩

theorem C104_replace_3D {c : Cfg} (hc : c.Supported) :
    (∀ w, SiblingsReplaceParent c [Octant.Zero, .One, .Two, .Three, .Four, .Five, .Six, .Seven]
      (fun m : MortonIndex3D (StaticStorage3D w) => Reach3D c .all (.static w m))) ∧
    SiblingsReplaceParent c [Octant.Zero, .One, .Two, .Three, .Four, .Five, .Six, .Seven]
      (fun m : MortonIndex3D DynamicStorage3D => Reach3D c .all (.dynamic m)) :=
  have : Inhabited Octant := ⟨.Zero⟩
  ⟨fun _ => siblingsReplace_of octantKey_inj (static_list3 hc) (static_anc3 hc) (static_cmp3 hc) (by decide)
      (fun v => by cases v <;> decide),
    siblingsReplace_of octantKey_inj (dynamic_list3' hc) (dynamic_anc3 hc) (dynamic_cmp3 hc) (by decide)
      (fun v => by cases v <;> decide)⟩

/-- The four children of `[Three]`, the last four of `exLeaves2`. -/
def exSiblings2 : List (MortonIndex2D (StaticStorage2D 16)) :=
  [⟨⟨0xC000#16, 2⟩⟩, ⟨⟨0xD000#16, 2⟩⟩, ⟨⟨0xE000#16, 2⟩⟩, ⟨⟨0xF000#16, 2⟩⟩]

theorem exThree_reach : Reach2D x64 .all (.static 16 ⟨⟨0xC000#16, 1⟩⟩) :=
  .staticTryFromSlice (cs := [.Three]) (by decide) (by rfl)

example : (∀ x ∈ exSiblings2, Reach2D x64 .all (.static 16 x)) ∧ Siblings x64 4 ⟨⟨0xC000#16, 1⟩⟩ exSiblings2 :=
  (C104_refine_2D x64_supported).1 16 ⟨⟨0xC000#16, 1⟩⟩ exThree_reach trivial exSiblings2 rfl (by decide +kernel)

theorem exSiblings2_reach : ∀ x ∈ exSiblings2, Reach2D x64 .all (.static 16 x) :=
  ((C104_refine_2D x64_supported).1 16 ⟨⟨0xC000#16, 1⟩⟩ exThree_reach trivial exSiblings2 rfl (by decide +kernel)).1

theorem exSiblings2_siblings : Siblings x64 4 ⟨⟨0xC000#16, 1⟩⟩ exSiblings2 :=
  ((C104_refine_2D x64_supported).1 16 ⟨⟨0xC000#16, 1⟩⟩ exThree_reach trivial exSiblings2 rfl (by decide +kernel)).2

/-- In `exLeaves2` they can be replaced by `[Three]`. -/
example : Sorted x64 (exLeaves2.take 3 ++ [⟨⟨0xC000#16, 1⟩⟩]) ∧ Disjoint x64 (exLeaves2.take 3 ++ [⟨⟨0xC000#16, 1⟩⟩]) := by
  have h := (((C104_replace_2D x64_supported).1 16 ⟨⟨0xC000#16, 1⟩⟩ exThree_reach exSiblings2 exSiblings2_reach
    exSiblings2_siblings).2 (exLeaves2.take 3) [] (fun x hx => exLeaves2_reach x (List.mem_of_mem_take hx)) (by simp)).1
  exact h.mp ⟨by unfold Sorted; decide +kernel, by unfold Disjoint; decide +kernel⟩

/-- The eight children of the dynamic index `[Five]`, and the sixth of them. -/
example : ∃ xs : List (MortonIndex3D DynamicStorage3D), xs.length = 8 ∧ Siblings x64 8 ⟨⟨[0xA0#8], 1⟩⟩ xs ∧
    ∀ h : 5 < xs.length, getCellAtLevel x64 xs[5] 1 = .ok Octant.Five := by
  have hm : Reach3D x64 .all (.dynamic ⟨⟨[0xA0#8], 1⟩⟩) :=
    .dynamicTryFromSlice (cs := [.Five]) (by unfold Addressable; decide) (by rfl)
  obtain ⟨g1, g2⟩ := (C104_refine_3D x64_supported).2 x64_writes ⟨⟨[0xA0#8], 1⟩⟩ hm (by unfold Addressable; decide)
    [⟨⟨[0xA0#8], 2⟩⟩, ⟨⟨[0xA4#8], 2⟩⟩, ⟨⟨[0xA8#8], 2⟩⟩, ⟨⟨[0xAC#8], 2⟩⟩, ⟨⟨[0xB0#8], 2⟩⟩, ⟨⟨[0xB4#8], 2⟩⟩, ⟨⟨[0xB8#8], 2⟩⟩,
      ⟨⟨[0xBC#8], 2⟩⟩] rfl (by decide +kernel)
  exact ⟨_, rfl, g2, fun h => (((C104_replace_3D x64_supported).2 _ hm _ g1 g2).1 5 h (by decide)).2⟩

end MortonRs
