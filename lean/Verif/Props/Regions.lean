import Verif.Props.Subdivide

/-! # Regions as sorted lists of leaves (C107)

A region of space, kept as a sorted list of nodes none of which is below another one. Union, intersection and difference of two
regions by the usual client code: merging and one pass over neighbours, two cursors, and recursive subdivision. -/

namespace MortonRs

open MortonIndex VariableDepthMortonIndex

variable {M Cell : Type}

/-! ## Statement -/

/-- Client code: merge the two sorted lists and keep of neighbours that overlap the upper one. -/
def uniteLeaves (below less : M → M → Bool) (as bs : List M) : List M :=
  dedupAdjacent below (as.merge bs fun a b => !less b a)

/-- Client code: two cursors. Of two leaves that overlap the lower one is kept, and its cursor moves on; otherwise the cursor at
the smaller leaf moves on. -/
def intersectLeaves (below less : M → M → Bool) : List M → List M → List M
  | [], _ => []
  | _ :: _, [] => []
  | a :: as, b :: bs =>
    if below a b then b :: intersectLeaves below less (a :: as) bs
    else if below b a then a :: intersectLeaves below less as (b :: bs)
    else if less a b then intersectLeaves below less as (b :: bs)
    else intersectLeaves below less (a :: as) bs
termination_by as bs => as.length + bs.length

/-- Client code: split every leaf of the first list as long as a leaf of the second one is properly below, down to level `L` at
most, and keep the parts that are not below a leaf of the second one. -/
def subtractLeaves [VariableDepthMortonIndex M Cell] (c : Cfg) (below : M → M → Bool) (order : List Cell) (L : Nat)
    (as bs : List M) : Res (List M) := do
  let parts ← as.mapM fun a => do
    let ms ← subdivide c (fun x => bs.any fun b => below x b && !below b x) order (L - depth a) a
    return ms.filter fun x => !bs.any fun b => below b x
  return parts.flatten

/-- A list of leaves in strictly ascending order. -/
def Region [VariableDepthMortonIndex M Cell] [RustOrd M] (c : Cfg) (ok : M → Prop) (ms : List M) : Prop :=
  (∀ m ∈ ms, ok m) ∧ ms.Pairwise (fun a b => RustOrd.lt c a b = .ok true) ∧ Disjoint c ms

/-- The node `q` lies in the region. -/
def Covers [VariableDepthMortonIndex M Cell] [RustOrd M] (c : Cfg) (ms : List M) (q : M) : Prop := ∃ m ∈ ms, InSubtree c m q

/-- C107. `below` decides whether its second argument is in the subtree of the first, `less` is `<`. Union, intersection and
difference of two regions are regions, and cover exactly the nodes that are covered by one of the two, by both, and by the first
one without overlapping the second one. `L` is at least the depth of all leaves, and `room` says that nodes of that depth exist. -/
def RegionAlgebra [VariableDepthMortonIndex M Cell] [RustOrd M] (c : Cfg) (order : List Cell) (ok : M → Prop)
    (room : M → Nat → Prop) : Prop :=
  ∀ (as bs : List M) (below less : M → M → Bool), Region c ok as → Region c ok bs →
    (∀ a b, ok a → ok b → (below a b = true ↔ InSubtree c a b)) →
    (∀ a b, ok a → ok b → (less a b = true ↔ RustOrd.lt c a b = .ok true)) →
    (Region c ok (uniteLeaves below less as bs) ∧
      ∀ q, ok q → (Covers c (uniteLeaves below less as bs) q ↔ Covers c as q ∨ Covers c bs q)) ∧
    (Region c ok (intersectLeaves below less as bs) ∧
      ∀ q, ok q → (Covers c (intersectLeaves below less as bs) q ↔ Covers c as q ∧ Covers c bs q)) ∧
    ∀ L, (∀ a ∈ as, depth a ≤ L ∧ room a (L - depth a)) → (∀ b ∈ bs, depth b ≤ L) →
      ∃ xs, subtractLeaves c below order L as bs = .ok xs ∧ Region c ok xs ∧
        ∀ q, ok q → (Covers c xs q ↔ Covers c as q ∧ ∀ b ∈ bs, ¬ InSubtree c b q ∧ ¬ InSubtree c q b)

/-! ## On paths -/

section paths
variable {key : Cell → Nat}

theorem apart_trans (hk : Function.Injective key) {xs ys zs : List Cell} (h1 : Apart key xs ys) (h2 : Apart key ys zs) :
    Apart key xs zs := by
  have hlt : pathCmp key xs zs = .lt := pathCmp_lt_of_le hk h1.1 (by rw [h2.1]; decide)
  refine ⟨hlt, fun h => ?_, fun h => ?_⟩
  · have := pathCmp_after key hk h1.1 h1.2.1 h
    rw [← pathCmp_swap key, h2.1] at this
    exact absurd this (by decide)
  · have := pathCmp_prefix (key := key) h
    rw [← pathCmp_swap key, hlt] at this
    exact this rfl

theorem apart_extend (hk : Function.Injective key) {xs ys xs' ys' : List Cell} (h : Apart key xs ys) (hx : xs <+: xs')
    (hy : ys <+: ys') : Apart key xs' ys' := by
  have h1 : pathCmp key xs' ys = .lt := pathCmp_after key hk h.1 h.2.1 hx
  have h2 : pathCmp key xs' ys' = .lt := pathCmp_lt_of_le hk h1 (pathCmp_prefix hy)
  refine ⟨h2, fun e => ?_, fun e => ?_⟩
  · rcases Nat.le_total xs.length ys.length with hl | hl
    · exact h.2.1 (List.prefix_of_prefix_length_le (hx.trans e) hy hl)
    · exact h.2.2 (List.prefix_of_prefix_length_le hy (hx.trans e) hl)
  · rcases Nat.le_total xs.length ys.length with hl | hl
    · exact h.2.1 (List.prefix_of_prefix_length_le hx (hy.trans e) hl)
    · exact h.2.2 (List.prefix_of_prefix_length_le (hy.trans e) hx hl)

/-- Two paths that are apart have nothing in common below them. -/
theorem apart_not_both {xs ys qs : List Cell} (h : Apart key xs ys) (hx : xs <+: qs) (hy : ys <+: qs) : False := by
  rcases Nat.le_total xs.length ys.length with hl | hl
  · exact h.2.1 (List.prefix_of_prefix_length_le hx hy hl)
  · exact h.2.2 (List.prefix_of_prefix_length_le hy hx hl)

variable {p : M → List Cell} {below less : M → M → Bool}

theorem intersectLeaves_paths (hk : Function.Injective key) (as bs : List M) :
    (∀ a ∈ as, ∀ b ∈ bs, below a b = true ↔ p a <+: p b) → (∀ a ∈ as, ∀ b ∈ bs, below b a = true ↔ p b <+: p a) →
    (∀ a ∈ as, ∀ b ∈ bs, less a b = true ↔ pathCmp key (p a) (p b) = .lt) →
    (as.Pairwise fun a b => Apart key (p a) (p b)) → (bs.Pairwise fun a b => Apart key (p a) (p b)) →
    (∀ x ∈ intersectLeaves below less as bs, x ∈ as ∨ x ∈ bs) ∧
    ((intersectLeaves below less as bs).Pairwise fun a b => Apart key (p a) (p b)) ∧
    ∀ q, (∃ x ∈ intersectLeaves below less as bs, p x <+: q) ↔ (∃ a ∈ as, p a <+: q) ∧ ∃ b ∈ bs, p b <+: q := by
  induction as, bs using intersectLeaves.induct below less with
  | case1 => intros; simp [intersectLeaves]
  | case2 => intros; simp [intersectLeaves]
  | case3 a as b bs h ih =>
    intro h1 h2 h3 ha hb
    have hab := (h1 a (by simp) b (by simp)).mp h
    obtain ⟨hb1, hb2⟩ := List.pairwise_cons.mp hb
    obtain ⟨i1, i2, i3⟩ := ih (fun x hx y hy => h1 x hx y (List.mem_cons_of_mem _ hy))
      (fun x hx y hy => h2 x hx y (List.mem_cons_of_mem _ hy)) (fun x hx y hy => h3 x hx y (List.mem_cons_of_mem _ hy)) ha hb2
    rw [intersectLeaves, if_pos h]
    refine ⟨fun x hx => ?_, List.pairwise_cons.mpr ⟨fun z hz => ?_, i2⟩, fun q => ?_⟩
    · rcases List.mem_cons.mp hx with rfl | hx
      · exact .inr (by simp)
      · exact (i1 x hx).imp id (List.mem_cons_of_mem _)
    · obtain ⟨-, y, hy, e⟩ := (i3 (p z)).mp ⟨z, hz, List.prefix_refl _⟩
      exact apart_extend hk (hb1 y hy) (List.prefix_refl _) e
    · constructor
      · rintro ⟨x, hx, e⟩
        rcases List.mem_cons.mp hx with rfl | hx
        · exact ⟨⟨a, by simp, hab.trans e⟩, ⟨x, by simp, e⟩⟩
        · obtain ⟨e1, y, hy, e2⟩ := (i3 q).mp ⟨x, hx, e⟩
          exact ⟨e1, y, List.mem_cons_of_mem _ hy, e2⟩
      · rintro ⟨e1, y, hy, e2⟩
        rcases List.mem_cons.mp hy with rfl | hy
        · exact ⟨y, by simp, e2⟩
        · obtain ⟨x, hx, e⟩ := (i3 q).mpr ⟨e1, y, hy, e2⟩
          exact ⟨x, List.mem_cons_of_mem _ hx, e⟩
  | case4 a as b bs h h' ih =>
    intro h1 h2 h3 ha hb
    have hab := (h2 a (by simp) b (by simp)).mp h'
    obtain ⟨ha1, ha2⟩ := List.pairwise_cons.mp ha
    obtain ⟨i1, i2, i3⟩ := ih (fun x hx y hy => h1 x (List.mem_cons_of_mem _ hx) y hy)
      (fun x hx y hy => h2 x (List.mem_cons_of_mem _ hx) y hy) (fun x hx y hy => h3 x (List.mem_cons_of_mem _ hx) y hy) ha2 hb
    rw [intersectLeaves, if_neg h, if_pos h']
    refine ⟨fun x hx => ?_, List.pairwise_cons.mpr ⟨fun z hz => ?_, i2⟩, fun q => ?_⟩
    · rcases List.mem_cons.mp hx with rfl | hx
      · exact .inl (by simp)
      · exact (i1 x hx).imp (List.mem_cons_of_mem _) id
    · obtain ⟨⟨y, hy, e⟩, -⟩ := (i3 (p z)).mp ⟨z, hz, List.prefix_refl _⟩
      exact apart_extend hk (ha1 y hy) (List.prefix_refl _) e
    · constructor
      · rintro ⟨x, hx, e⟩
        rcases List.mem_cons.mp hx with rfl | hx
        · exact ⟨⟨x, by simp, e⟩, ⟨b, by simp, hab.trans e⟩⟩
        · obtain ⟨⟨y, hy, e1⟩, e2⟩ := (i3 q).mp ⟨x, hx, e⟩
          exact ⟨⟨y, List.mem_cons_of_mem _ hy, e1⟩, e2⟩
      · rintro ⟨⟨y, hy, e1⟩, e2⟩
        rcases List.mem_cons.mp hy with rfl | hy
        · exact ⟨y, by simp, e1⟩
        · obtain ⟨x, hx, e⟩ := (i3 q).mpr ⟨⟨y, hy, e1⟩, e2⟩
          exact ⟨x, List.mem_cons_of_mem _ hx, e⟩
  | case5 a as b bs h h' h'' ih =>
    intro h1 h2 h3 ha hb
    have hlt := (h3 a (by simp) b (by simp)).mp h''
    have hap : Apart key (p a) (p b) := ⟨hlt, fun e => h ((h1 a (by simp) b (by simp)).mpr e),
      fun e => h' ((h2 a (by simp) b (by simp)).mpr e)⟩
    obtain ⟨ha1, ha2⟩ := List.pairwise_cons.mp ha
    obtain ⟨hb1, hb2⟩ := List.pairwise_cons.mp hb
    obtain ⟨i1, i2, i3⟩ := ih (fun x hx y hy => h1 x (List.mem_cons_of_mem _ hx) y hy)
      (fun x hx y hy => h2 x (List.mem_cons_of_mem _ hx) y hy) (fun x hx y hy => h3 x (List.mem_cons_of_mem _ hx) y hy) ha2 hb
    rw [intersectLeaves, if_neg h, if_neg h', if_pos h'']
    refine ⟨fun x hx => (i1 x hx).imp (List.mem_cons_of_mem _) id, i2, fun q => (i3 q).trans ⟨?_, ?_⟩⟩
    · rintro ⟨⟨y, hy, e1⟩, e2⟩
      exact ⟨⟨y, List.mem_cons_of_mem _ hy, e1⟩, e2⟩
    · rintro ⟨⟨y, hy, e1⟩, z, hz, e2⟩
      rcases List.mem_cons.mp hy with rfl | hy
      · refine absurd e2 (fun e2 => apart_not_both (key := key) ?_ e1 e2)
        rcases List.mem_cons.mp hz with rfl | hz
        · exact hap
        · exact apart_trans hk hap (hb1 z hz)
      · exact ⟨⟨y, hy, e1⟩, z, hz, e2⟩
  | case6 a as b bs h h' h'' ih =>
    intro h1 h2 h3 ha hb
    have hnp : ¬ p b <+: p a := fun e => h' ((h2 a (by simp) b (by simp)).mpr e)
    have hnp' : ¬ p a <+: p b := fun e => h ((h1 a (by simp) b (by simp)).mpr e)
    have hap : Apart key (p b) (p a) := by
      refine apart_of_le hk (fun e => h'' ((h3 a (by simp) b (by simp)).mpr ?_)) hnp hnp'
      rw [← pathCmp_swap key, e]
      rfl
    obtain ⟨ha1, ha2⟩ := List.pairwise_cons.mp ha
    obtain ⟨hb1, hb2⟩ := List.pairwise_cons.mp hb
    obtain ⟨i1, i2, i3⟩ := ih (fun x hx y hy => h1 x hx y (List.mem_cons_of_mem _ hy))
      (fun x hx y hy => h2 x hx y (List.mem_cons_of_mem _ hy)) (fun x hx y hy => h3 x hx y (List.mem_cons_of_mem _ hy)) ha hb2
    rw [intersectLeaves, if_neg h, if_neg h', if_neg h'']
    refine ⟨fun x hx => (i1 x hx).imp id (List.mem_cons_of_mem _), i2, fun q => (i3 q).trans ⟨?_, ?_⟩⟩
    · rintro ⟨e1, z, hz, e2⟩
      exact ⟨e1, z, List.mem_cons_of_mem _ hz, e2⟩
    · rintro ⟨⟨y, hy, e1⟩, z, hz, e2⟩
      rcases List.mem_cons.mp hz with rfl | hz
      · refine absurd e1 (fun e1 => apart_not_both (key := key) ?_ e2 e1)
        rcases List.mem_cons.mp hy with rfl | hy
        · exact hap
        · exact apart_trans hk hap (ha1 y hy)
      · exact ⟨⟨y, hy, e1⟩, z, hz, e2⟩

theorem merge_congr {le le' : M → M → Bool} (as bs : List M) : (∀ a ∈ as, ∀ b ∈ bs, le a b = le' a b) →
    as.merge bs le = as.merge bs le' := by
  induction as generalizing bs with
  | nil => intro _; simp
  | cons a as iha =>
    induction bs with
    | nil => intro _; simp
    | cons b bs ihb =>
      intro h
      rw [List.cons_merge_cons, List.cons_merge_cons, ← h a (by simp) b (by simp)]
      rw [iha (b :: bs) (fun x hx y hy => h x (List.mem_cons_of_mem _ hx) y hy),
        ihb (fun x hx y hy => h x hx y (List.mem_cons_of_mem _ hy))]

end paths

/-! ## On indices -/

section indices
variable [VariableDepthMortonIndex M Cell] [RustOrd M] {c : Cfg} {ok : M → Prop} {p : M → List Cell} {wr : Cell → Cell}
  {key : Cell → Nat} {room room' : M → Nat → Prop} {limit : Option Nat} {order : List Cell}

theorem region_iff_apart (hk : Function.Injective key) (h : ListLike c ok p wr) (hA : AncLike c ok p) (hC : CmpLike c key ok p)
    {ms : List M} : Region c ok ms ↔ (∀ m ∈ ms, ok m) ∧ ms.Pairwise fun a b => Apart key (p a) (p b) := by
  have hin : ∀ {a b : M}, ok a → ok b → (InSubtree c a b ↔ p a <+: p b) := fun ha hb => inSubtree_iff hk h hA hC ha hb
  unfold Region Disjoint
  rw [← List.pairwise_and_iff]
  constructor
  · rintro ⟨hok, hp⟩
    refine ⟨hok, hp.imp_of_mem fun {a b} ha hb e => ?_⟩
    rw [lt_iff_path hC (hok a ha) (hok b hb), hin (hok a ha) (hok b hb), hin (hok b hb) (hok a ha)] at e
    exact e
  · rintro ⟨hok, hp⟩
    refine ⟨hok, hp.imp_of_mem fun {a b} ha hb e => ?_⟩
    rw [lt_iff_path hC (hok a ha) (hok b hb), hin (hok a ha) (hok b hb), hin (hok b hb) (hok a ha)]
    exact e

omit [RustOrd M] in
theorem subtractLeaves_paths (hk : Function.Injective key) (hD : DescLike c ok p room limit)
    (hord : order.Pairwise (fun v w => key v < key w)) (v₀ : Cell) (hall : ∀ v, v ∈ order) (hdep : ∀ m, ok m → depth m = (p m).length)
    (hr : ∀ m, ok m → ∀ k, room' m (k + 1) → room m 1 ∧ ¬ Exceeds limit ((p m).length + 1) ∧
      ∀ a v, ok a → p a = p m ++ [v] → room' a k)
    {bs : List M} {below : M → M → Bool} (hbs : ∀ b ∈ bs, ok b) (hb : ∀ a b, ok a → ok b → (below a b = true ↔ p a <+: p b))
    {L : Nat} (hL : ∀ b ∈ bs, depth b ≤ L) {as : List M} (has : ∀ a ∈ as, ok a) (hap : as.Pairwise fun a b => Apart key (p a) (p b))
    (haL : ∀ a ∈ as, depth a ≤ L ∧ room' a (L - depth a)) :
    ∃ xs, subtractLeaves c below order L as bs = .ok xs ∧ (∀ x ∈ xs, ok x) ∧ (xs.Pairwise fun a b => Apart key (p a) (p b)) ∧
      ∀ q, ok q → ((∃ x ∈ xs, p x <+: p q) ↔ (∃ a ∈ as, p a <+: p q) ∧ ∀ b ∈ bs, ¬ p b <+: p q ∧ ¬ p q <+: p b) := by
  have hsp : ∀ x, ok x → ((bs.any fun b => below x b && !below b x) = true ↔ ∃ b ∈ bs, p x <+: p b ∧ ¬ p b <+: p x) := by
    intro x hx
    simp only [List.any_eq_true, Bool.and_eq_true, Bool.not_eq_true']
    constructor
    · rintro ⟨b, hb', e1, e2⟩
      exact ⟨b, hb', (hb x b hx (hbs b hb')).mp e1, fun e => by rw [(hb b x (hbs b hb') hx).mpr e] at e2; exact absurd e2 (by decide)⟩
    · rintro ⟨b, hb', e1, e2⟩
      refine ⟨b, hb', (hb x b hx (hbs b hb')).mpr e1, ?_⟩
      rw [Bool.eq_false_iff]
      exact fun e => e2 ((hb b x (hbs b hb') hx).mp e)
  have hcov : ∀ x, ok x → ((!bs.any fun b => below b x) = true ↔ ∀ b ∈ bs, ¬ p b <+: p x) := by
    intro x hx
    simp only [Bool.not_eq_true', List.any_eq_false]
    exact ⟨fun e b hb' e2 => e b hb' ((hb b x (hbs b hb') hx).mpr e2), fun e b hb' e2 => e b hb' ((hb b x (hbs b hb') hx).mp e2)⟩
  have hresp : ∀ a b, ok a → ok b → p a = p b →
      (bs.any fun d => below a d && !below d a) = (bs.any fun d => below b d && !below d b) := by
    intro a b ha hb' e
    rw [Bool.eq_iff_iff, hsp a ha, hsp b hb', e]
  induction as with
  | nil => exact ⟨[], rfl, by simp, by simp, by simp⟩
  | cons a as ih =>
    obtain ⟨hap1, hap2⟩ := List.pairwise_cons.mp hap
    obtain ⟨xs, x1, x2, x3, x4⟩ := ih (fun m hm => has m (List.mem_cons_of_mem _ hm)) hap2 (fun m hm => haL m (List.mem_cons_of_mem _ hm))
    have hoka := has a (by simp)
    obtain ⟨hla, hra⟩ := haL a (by simp)
    obtain ⟨ms, m1, m2⟩ := subdivide_subdivided (key := key) hD hord hall hresp hr (L - depth a) a hoka hra
    have hlen : (p a).length + (L - depth a) = L := by rw [← hdep a hoka]; omega
    refine ⟨(ms.filter fun x => !bs.any fun b => below b x) ++ xs, ?_, ?_, ?_, ?_⟩
    · unfold subtractLeaves at x1 ⊢
      rw [List.mapM_cons]
      simp only [m1, ok_bind]
      cases e : (as.mapM fun a => do
          let ms ← subdivide c (fun x => bs.any fun b => below x b && !below b x) order (L - depth a) a
          return ms.filter fun x => !bs.any fun b => below b x : Res _) with
      | error f => rw [e] at x1; exact absurd x1 (by intro h; cases h)
      | ok parts =>
        rw [e] at x1
        have : parts.flatten = xs := Except.ok.inj x1
        rw [← this]
        rfl
    · intro x hx
      rcases List.mem_append.mp hx with hx | hx
      · exact (m2.all x (List.mem_filter.mp hx).1).1
      · exact x2 x hx
    · rw [List.pairwise_append]
      refine ⟨m2.sorted.filter _, x3, fun x hx y hy => ?_⟩
      obtain ⟨-, hxa, -⟩ := m2.all x (List.mem_filter.mp hx).1
      obtain ⟨⟨a', ha', e⟩, -⟩ := (x4 y (x2 y hy)).mp ⟨y, hy, List.prefix_refl _⟩
      exact apart_extend hk (hap1 a' ha') hxa e
    · intro q hq
      have here : (∃ x ∈ ms.filter (fun x => !bs.any fun b => below b x), p x <+: p q) ↔
          p a <+: p q ∧ ∀ b ∈ bs, ¬ p b <+: p q ∧ ¬ p q <+: p b := by
        constructor
        · rintro ⟨x, hx, e⟩
          obtain ⟨hx, hx'⟩ := List.mem_filter.mp hx
          obtain ⟨g1, g2, g3, g4, g5⟩ := m2.all x hx
          have hn := (hcov x g1).mp hx'
          -- nothing of the second region is below `x`
          have hno : ∀ b ∈ bs, ¬ p x <+: p b := by
            intro b hb' e'
            rcases g5 with g5 | g5
            · rw [Bool.eq_false_iff] at g5
              exact g5 ((hsp x g1).mpr ⟨b, hb', e', hn b hb'⟩)
            · have := hL b hb'
              rw [hdep b (hbs b hb')] at this
              exact hn b hb' ((e'.eq_of_length (by have := e'.length_le; omega)) ▸ List.prefix_refl _)
          refine ⟨g2.trans e, fun b hb' => ⟨fun e' => ?_, fun e' => hno b hb' (e.trans e')⟩⟩
          rcases Nat.le_total (p x).length (p b).length with hl | hl
          · exact hno b hb' (List.prefix_of_prefix_length_le e e' hl)
          · exact hn b hb' (List.prefix_of_prefix_length_le e' e hl)
        · rintro ⟨⟨t, ht⟩, e⟩
          obtain ⟨x, hx, hxq⟩ := m2.cover (t ++ List.replicate (L - depth a) v₀) (by simp)
          rw [← List.append_assoc, ht] at hxq
          obtain ⟨g1, g2, g3, g4, g5⟩ := m2.all x hx
          have hle : (p x).length ≤ (p q).length := by
            apply Nat.le_of_not_lt
            intro hlt
            have hqx : p q <+: p x := List.prefix_of_prefix_length_le (List.prefix_append _ _) hxq (by omega)
            obtain ⟨b, hb', e1, -⟩ := (hsp q hq).mp (g4 q hq (by rw [← ht]; simp) hqx hlt)
            exact (e b hb').2 e1
          have hxq' : p x <+: p q := List.prefix_of_prefix_length_le hxq (List.prefix_append _ _) hle
          exact ⟨x, List.mem_filter.mpr ⟨hx, (hcov x g1).mpr fun b hb' e' => (e b hb').1 (e'.trans hxq')⟩, hxq'⟩
      have e1 : ∀ ys : List M, (∃ x ∈ ys ++ xs, p x <+: p q) ↔ (∃ x ∈ ys, p x <+: p q) ∨ ∃ x ∈ xs, p x <+: p q := by
        intro ys
        simp only [List.mem_append]
        exact ⟨fun ⟨x, hx, e⟩ => hx.imp (fun hx => ⟨x, hx, e⟩) (fun hx => ⟨x, hx, e⟩),
          fun hx => hx.elim (fun ⟨x, hx, e⟩ => ⟨x, .inl hx, e⟩) (fun ⟨x, hx, e⟩ => ⟨x, .inr hx, e⟩)⟩
      have e2 : (∃ x ∈ a :: as, p x <+: p q) ↔ p a <+: p q ∨ ∃ x ∈ as, p x <+: p q := by simp
      rw [e1, here, x4 q hq, e2]
      exact or_and_right.symm

theorem regionAlgebra_of (hk : Function.Injective key) (h : ListLike c ok p wr) (hA : AncLike c ok p)
    (hD : DescLike c ok p room limit) (hC : CmpLike c key ok p) (hord : order.Pairwise (fun v w => key v < key w)) (v₀ : Cell)
    (hall : ∀ v, v ∈ order) (hr : ∀ m, ok m → ∀ k, room' m (k + 1) → room m 1 ∧ ¬ Exceeds limit ((p m).length + 1) ∧
      ∀ a v, ok a → p a = p m ++ [v] → room' a k) : RegionAlgebra c order ok room' := by
  intro as bs below less hra hrb hbelow hless
  have hin : ∀ {a b : M}, ok a → ok b → (InSubtree c a b ↔ p a <+: p b) := fun ha hb => inSubtree_iff hk h hA hC ha hb
  have hb : ∀ a b, ok a → ok b → (below a b = true ↔ p a <+: p b) := fun a b ha hb => (hbelow a b ha hb).trans (hin ha hb)
  have hl : ∀ a b, ok a → ok b → (less a b = true ↔ pathCmp key (p a) (p b) = .lt) := fun a b ha hb =>
    (hless a b ha hb).trans (lt_iff_path hC ha hb)
  have hreg := fun ms => region_iff_apart (ms := ms) hk h hA hC
  obtain ⟨ha1, ha2⟩ := (hreg as).mp hra
  obtain ⟨hb1, hb2⟩ := (hreg bs).mp hrb
  have hcov : ∀ ms : List M, (∀ m ∈ ms, ok m) → ∀ q, ok q → (Covers c ms q ↔ ∃ m ∈ ms, p m <+: p q) := fun ms hms q hq =>
    ⟨fun ⟨m, hm, e⟩ => ⟨m, hm, (hin (hms m hm) hq).mp e⟩, fun ⟨m, hm, e⟩ => ⟨m, hm, (hin (hms m hm) hq).mpr e⟩⟩
  refine ⟨?_, ?_, ?_⟩
  · let le := fun a b : M => pathCmp key (p a) (p b) != .gt
    have hmerge : as.merge bs (fun a b => !less b a) = as.merge bs le := by
      refine merge_congr as bs fun a ha b hb' => ?_
      rw [Bool.eq_iff_iff, Bool.not_eq_true', Bool.eq_false_iff, ne_eq, hl b a (hb1 b hb') (ha1 a ha)]
      simp only [le, bne_iff_ne, ne_eq]
      rw [← pathCmp_swap key (p a) (p b), Ordering.swap_eq_lt]
    have hle : ∀ ms : List M, (ms.Pairwise fun a b => Apart key (p a) (p b)) → ms.Pairwise fun a b => le a b = true :=
      fun ms hp => hp.imp fun {a b} e => by simp [le, e.1]
    have hsort : (as.merge bs le).Pairwise fun a b => le a b = true := by
      refine List.pairwise_merge ?_ ?_ as bs (hle as ha2) (hle bs hb2)
      · intro a b d h1 h2
        simp only [le, bne_iff_ne] at *
        exact pathCmp_trans key h1 h2
      · intro a b
        simp only [le, Bool.or_eq_true, bne_iff_ne]
        rw [← pathCmp_swap key (p a) (p b)]
        cases pathCmp key (p a) (p b) <;> decide
    have hok : ∀ m ∈ as.merge bs le, ok m := fun m hm => (List.mem_merge.mp hm).elim (ha1 m) (hb1 m)
    have hsub := dedupAdjacent_sublist below (as.merge bs le)
    obtain ⟨d1, d2⟩ := dedupAdjacent_apart hk (fun a ha b hb' => hb a b (hok a ha) (hok b hb'))
      (hsort.imp fun {a b} e => by simpa [le] using e)
    have hok' : ∀ m ∈ dedupAdjacent below (as.merge bs le), ok m := fun m hm => hok m (hsub.subset hm)
    unfold uniteLeaves
    rw [hmerge]
    refine ⟨(hreg _).mpr ⟨hok', d1⟩, fun q hq => ?_⟩
    rw [hcov _ hok' q hq, hcov as ha1 q hq, hcov bs hb1 q hq]
    constructor
    · rintro ⟨x, hx, e⟩
      exact (List.mem_merge.mp (hsub.subset hx)).imp (fun hx => ⟨x, hx, e⟩) (fun hx => ⟨x, hx, e⟩)
    · rintro (⟨x, hx, e⟩ | ⟨x, hx, e⟩)
      · obtain ⟨y, hy, e'⟩ := d2 x (List.mem_merge.mpr (.inl hx))
        exact ⟨y, hy, e'.trans e⟩
      · obtain ⟨y, hy, e'⟩ := d2 x (List.mem_merge.mpr (.inr hx))
        exact ⟨y, hy, e'.trans e⟩
  · obtain ⟨i1, i2, i3⟩ := intersectLeaves_paths (below := below) (less := less) hk as bs
      (fun a ha b hb' => hb a b (ha1 a ha) (hb1 b hb')) (fun a ha b hb' => hb b a (hb1 b hb') (ha1 a ha))
      (fun a ha b hb' => hl a b (ha1 a ha) (hb1 b hb')) ha2 hb2
    have hok : ∀ m ∈ intersectLeaves below less as bs, ok m := fun m hm => (i1 m hm).elim (ha1 m) (hb1 m)
    refine ⟨(hreg _).mpr ⟨hok, i2⟩, fun q hq => ?_⟩
    rw [hcov _ hok q hq, hcov as ha1 q hq, hcov bs hb1 q hq]
    exact i3 (p q)
  · intro L haL hbL
    obtain ⟨xs, x1, x2, x3, x4⟩ := subtractLeaves_paths hk hD hord v₀ hall h.depth_eq hr hb1 hb hbL ha1 ha2 haL
    refine ⟨xs, x1, (hreg _).mpr ⟨x2, x3⟩, fun q hq => ?_⟩
    rw [hcov _ x2 q hq, hcov as ha1 q hq, x4 q hq]
    refine and_congr_right fun _ => ?_
    exact ⟨fun e b hb' => by rw [hin (hb1 b hb') hq, hin hq (hb1 b hb')]; exact e b hb',
      fun e b hb' => by have := e b hb'; rwa [hin (hb1 b hb') hq, hin hq (hb1 b hb')] at this⟩

end indices

/-! ## C107 -/

variable {c : Cfg}

/-! A node with room for some levels leaves all but one of them to its children. -/

theorem static_room2 (hc : c.Supported) {w : Nat} {m : MortonIndex2D (StaticStorage2D w)} (hm : Reach2D c .all (.static w m))
    (k : Nat) (hr : depth m + (k + 1) ≤ w / 2) : sliceRoom c m 1 ∧ ¬ Exceeds (some (w / 2)) ((cells2 m).length + 1) ∧
    ∀ a v, Reach2D c .all (.static w a) → cells2 a = cells2 m ++ [v] → depth a + k ≤ w / 2 := by
  have e := (static_list2 hc).depth_eq m hm
  refine ⟨one_lt_isize hc (x := Quadrant.Zero), ?_, fun a v ha ea => ?_⟩
  · change ¬ _ < _
    omega
  · have e2 := (static_list2 hc).depth_eq a ha
    rw [ea, List.length_append, List.length_singleton] at e2
    omega

theorem dynamic_room2 (hc : c.Supported) {m : MortonIndex2D DynamicStorage2D} (hm : Reach2D c .all (.dynamic m))
    (k : Nat) (hr : Addressable c ((depth m + (k + 1)) * 2)) : dynRoom2 c m 1 ∧ ¬ Exceeds none ((cells2 m).length + 1) ∧
    ∀ a v, Reach2D c .all (.dynamic a) → cells2 a = cells2 m ++ [v] → Addressable c ((depth a + k) * 2) := by
  refine ⟨?_, id, fun a v ha ea => ?_⟩
  · unfold dynRoom2 Addressable at *
    omega
  · have e2 := (dynamic_list2' hc).depth_eq a ha
    rw [ea, List.length_append, ← (dynamic_list2' hc).depth_eq m hm, List.length_singleton] at e2
    rw [e2]
    unfold Addressable at *
    omega

theorem static_room3 (hc : c.Supported) {w : Nat} {m : MortonIndex3D (StaticStorage3D w)} (hm : Reach3D c .all (.static w m))
    (k : Nat) (hr : depth m + (k + 1) ≤ w / 3) : sliceRoom c m 1 ∧ ¬ Exceeds (some (w / 3)) ((cells3 m).length + 1) ∧
    ∀ a v, Reach3D c .all (.static w a) → cells3 a = cells3 m ++ [v] → depth a + k ≤ w / 3 := by
  have e := (static_list3 hc).depth_eq m hm
  refine ⟨one_lt_isize hc (x := Octant.Zero), ?_, fun a v ha ea => ?_⟩
  · change ¬ _ < _
    omega
  · have e2 := (static_list3 hc).depth_eq a ha
    rw [ea, List.length_append, List.length_singleton] at e2
    omega

theorem dynamic_room3 (hc : c.Supported) {m : MortonIndex3D DynamicStorage3D} (hm : Reach3D c .all (.dynamic m))
    (k : Nat) (hr : Addressable c ((depth m + (k + 1)) * 3)) : dynRoom3 c m 1 ∧ ¬ Exceeds none ((cells3 m).length + 1) ∧
    ∀ a v, Reach3D c .all (.dynamic a) → cells3 a = cells3 m ++ [v] → Addressable c ((depth a + k) * 3) := by
  refine ⟨?_, id, fun a v ha ea => ?_⟩
  · unfold dynRoom3 Addressable at *
    omega
  · have e2 := (dynamic_list3' hc).depth_eq a ha
    rw [ea, List.length_append, ← (dynamic_list3' hc).depth_eq m hm, List.length_singleton] at e2
    rw [e2]
    unfold Addressable at *
    omega

theorem C107_regions_2D (hc : c.Supported) :
    (∀ w, RegionAlgebra c [Quadrant.Zero, .One, .Two, .Three]
      (fun m : MortonIndex2D (StaticStorage2D w) => Reach2D c .all (.static w m)) (fun m n => depth m + n ≤ w / 2)) ∧
    (DynWrites c → RegionAlgebra c [Quadrant.Zero, .One, .Two, .Three]
      (fun m : MortonIndex2D DynamicStorage2D => Reach2D c .all (.dynamic m)) (fun m n => Addressable c ((depth m + n) * 2))) :=
  ⟨fun w => regionAlgebra_of quadrantKey_inj (static_list2 hc) (static_anc2 hc) (static_desc2 hc) (static_cmp2 hc) (by decide) .Zero
      (fun v => by cases v <;> decide) (fun m hm k => static_room2 hc hm k),
    fun hw => regionAlgebra_of quadrantKey_inj (dynamic_list2 hc hw) (dynamic_anc2 hc) (dynamic_desc2 hc hw) (dynamic_cmp2 hc)
      (by decide) .Zero (fun v => by cases v <;> decide) (fun m hm k => dynamic_room2 hc hm k)⟩

theorem C107_regions_3D (hc : c.Supported) :
    (∀ w, RegionAlgebra c [Octant.Zero, .One, .Two, .Three, .Four, .Five, .Six, .Seven]
      (fun m : MortonIndex3D (StaticStorage3D w) => Reach3D c .all (.static w m)) (fun m n => depth m + n ≤ w / 3)) ∧
    (DynWrites c → RegionAlgebra c [Octant.Zero, .One, .Two, .Three, .Four, .Five, .Six, .Seven]
      (fun m : MortonIndex3D DynamicStorage3D => Reach3D c .all (.dynamic m)) (fun m n => Addressable c ((depth m + n) * 3))) :=
  ⟨fun w => regionAlgebra_of octantKey_inj (static_list3 hc) (static_anc3 hc) (static_desc3 hc) (static_cmp3 hc) (by decide) .Zero
      (fun v => by cases v <;> decide) (fun m hm k => static_room3 hc hm k),
    fun hw => regionAlgebra_of octantKey_inj (dynamic_list3 hc hw) (dynamic_anc3 hc) (dynamic_desc3 hc hw) (dynamic_cmp3 hc)
      (by decide) .Zero (fun v => by cases v <;> decide) (fun m hm k => dynamic_room3 hc hm k)⟩

/-! ## Examples -/

/-- `below` and `less` by the library. -/
def exBelow2 (a b : MortonIndex2D (StaticStorage2D 16)) : Bool := decide (InSubtree x64 a b)

def exLess2 (a b : MortonIndex2D (StaticStorage2D 16)) : Bool := RustOrd.lt x64 a b == .ok true

/-- Two regions: `[Zero]` and `[Three, One, Two]`; `[Zero, Three]`, `[One]` and `[Three]`. -/
def exRegionA : List (MortonIndex2D (StaticStorage2D 16)) := [⟨⟨0#16, 1⟩⟩, exS2]

def exRegionB : List (MortonIndex2D (StaticStorage2D 16)) := [⟨⟨0x3000#16, 2⟩⟩, ⟨⟨0x4000#16, 1⟩⟩, ⟨⟨0xC000#16, 1⟩⟩]

/-- The union is `[Zero]`, `[One]`, `[Three]`; the intersection `[Zero, Three]`, `[Three, One, Two]`; the difference the other three
children of `[Zero]`. -/
example : uniteLeaves exBelow2 exLess2 exRegionA exRegionB = [⟨⟨0#16, 1⟩⟩, ⟨⟨0x4000#16, 1⟩⟩, ⟨⟨0xC000#16, 1⟩⟩] ∧
    intersectLeaves exBelow2 exLess2 exRegionA exRegionB = [⟨⟨0x3000#16, 2⟩⟩, exS2] ∧
    subtractLeaves x64 exBelow2 [Quadrant.Zero, .One, .Two, .Three] 3 exRegionA exRegionB =
      .ok [⟨⟨0#16, 2⟩⟩, ⟨⟨0x1000#16, 2⟩⟩, ⟨⟨0x2000#16, 2⟩⟩] := by
  refine ⟨?_, ?_, by decide +kernel⟩
  · rw [uniteLeaves, exRegionA, exRegionB, List.cons_merge_cons, if_pos (by decide +kernel), List.cons_merge_cons,
      if_neg (by decide +kernel), List.cons_merge_cons, if_neg (by decide +kernel), List.cons_merge_cons,
      if_neg (by decide +kernel), List.merge_right]
    decide +kernel
  · rw [exRegionA, exRegionB, intersectLeaves, if_pos (by decide +kernel), intersectLeaves, if_neg (by decide +kernel),
      if_neg (by decide +kernel), if_pos (by decide +kernel), intersectLeaves, if_neg (by decide +kernel), if_neg (by decide +kernel),
      if_neg (by decide +kernel), intersectLeaves, if_neg (by decide +kernel), if_pos (by decide +kernel), intersectLeaves]

theorem exRegionA_region : Region x64 (fun m => Reach2D x64 .all (.static 16 m)) exRegionA := by
  refine ⟨fun m hm => ?_, by decide +kernel, by unfold Disjoint; decide +kernel⟩
  simp only [exRegionA, List.mem_cons, List.not_mem_nil, or_false] at hm
  rcases hm with rfl | rfl
  · exact .staticTryFromSlice (cs := [.Zero]) (by decide) (by rfl)
  · exact exS2_reach _

theorem exRegionB_region : Region x64 (fun m => Reach2D x64 .all (.static 16 m)) exRegionB := by
  refine ⟨fun m hm => ?_, by decide +kernel, by unfold Disjoint; decide +kernel⟩
  simp only [exRegionB, List.mem_cons, List.not_mem_nil, or_false] at hm
  rcases hm with rfl | rfl | rfl
  · exact .staticTryFromSlice (cs := [.Zero, .Three]) (by decide) (by rfl)
  · exact .staticTryFromSlice (cs := [.One]) (by decide) (by rfl)
  · exact .staticTryFromSlice (cs := [.Three]) (by decide) (by rfl)

/-- The theorem applied to them. -/
example : (∀ q, Reach2D x64 .all (.static 16 q) → (Covers x64 (intersectLeaves exBelow2 exLess2 exRegionA exRegionB) q ↔
      Covers x64 exRegionA q ∧ Covers x64 exRegionB q)) ∧
    ∃ xs, subtractLeaves x64 exBelow2 [Quadrant.Zero, .One, .Two, .Three] 8 exRegionA exRegionB = .ok xs ∧
      ∀ q, Reach2D x64 .all (.static 16 q) →
        (Covers x64 xs q ↔ Covers x64 exRegionA q ∧ ∀ b ∈ exRegionB, ¬ InSubtree x64 b q ∧ ¬ InSubtree x64 q b) := by
  obtain ⟨-, ⟨-, h1⟩, h2⟩ := (C107_regions_2D x64_supported).1 16 exRegionA exRegionB exBelow2 exLess2 exRegionA_region
    exRegionB_region (fun a b _ _ => by simp [exBelow2]) (fun a b _ _ => by simp [exLess2])
  obtain ⟨xs, h3, -, h4⟩ := h2 8 (by decide) (by decide)
  exact ⟨h1, xs, h3, h4⟩

/-- Dynamic octree regions: `[Five]` without `[Five, One, Six]`. -/
example : ∃ xs, subtractLeaves x64 (fun a b => decide (InSubtree x64 a b)) [Octant.Zero, .One, .Two, .Three, .Four, .Five, .Six, .Seven]
      3 [(⟨⟨[0xA0#8], 1⟩⟩ : MortonIndex3D DynamicStorage3D)] [exD3] = .ok xs ∧
    ∀ q, Reach3D x64 .all (.dynamic q) → (Covers x64 xs q ↔ Covers x64 [(⟨⟨[0xA0#8], 1⟩⟩ : MortonIndex3D DynamicStorage3D)] q ∧
      ∀ b ∈ [exD3], ¬ InSubtree x64 b q ∧ ¬ InSubtree x64 q b) := by
  obtain ⟨xs, h1, -, h2⟩ := ((C107_regions_3D x64_supported).2 x64_writes [⟨⟨[0xA0#8], 1⟩⟩] [exD3]
    (fun a b => decide (InSubtree x64 a b)) (fun a b => RustOrd.lt x64 a b == .ok true)
    ⟨fun m hm => by
      rw [List.mem_singleton] at hm
      subst hm
      exact .dynamicTryFromSlice (cs := [.Five]) (by unfold Addressable; decide) (by rfl), by simp, by simp [Disjoint]⟩
    ⟨fun m hm => by
      rw [List.mem_singleton] at hm
      subst hm
      exact exD3_reach _, by simp, by simp [Disjoint]⟩
    (fun a b _ _ => by simp) (fun a b _ _ => by simp)).2.2 3
    (fun a ha => by
      rw [List.mem_singleton] at ha
      subst ha
      exact ⟨by decide, by unfold Addressable; decide⟩) (by decide)
  exact ⟨xs, h1, h2⟩

end MortonRs
