import Verif.Props.Balancing

/-! # What is beside a leaf of a balanced tree (C133)

In a balanced tree (C129) the leaves that touch a leaf on a side need no search: a few nodes are made from the neighbour, and the leaves
are among them. -/

namespace MortonRs

open BitStorage MortonIndex VariableDepthMortonIndex

variable {M Cell A : Type} {c : Cfg}

/-! ## Statement -/

/-- Client code: `m.child(v)` for some cells, without those that do not exist. -/
def someChildren [VariableDepthMortonIndex M Cell] (c : Cfg) (m : M) : List Cell → Res (List M)
  | [] => return []
  | v :: vs => do
    match ← child c m v with
    | none => someChildren c m vs
    | some x => return x :: (← someChildren c m vs)

/-- Client code: the neighbour of `x` on a side, its parent, and its children that face back. -/
def besideNodes [VariableDepthMortonIndex M Cell] (c : Cfg) (next : A → Bool → M → Res (Option M)) (facing : A → Bool → List Cell) (a : A)
    (up : Bool) (x : M) : Res (List M) := do
  match ← next a up x with
  | none => return []
  | some q => return (← parent c q).toList ++ q :: (← someChildren c q (facing a up))

/-- C133. There are at most `K` such nodes, and the leaves of a balanced tree that touch a leaf are the leaves among them. -/
def ListsBeside [VariableDepthMortonIndex M Cell] [RustOrd M] (c : Cfg) (ok : M → Prop) (D : Nat) (place : M → (A → Nat) → Prop)
    (next : A → Bool → M → Res (Option M)) (facing : A → Bool → List Cell) (K : Nat) : Prop :=
  ∀ leaves : List M, (∀ m ∈ leaves, ok m ∧ depth m ≤ D) → Balanced D place leaves → ∀ x ∈ leaves, ∀ a up,
    ∃ ns, besideNodes c next facing a up x = .ok ns ∧ ns.length ≤ K ∧
      ∀ y ∈ leaves, ∀ gx gy, place x gx → place y gy →
        (Touches D a up (depth x) gx (depth y) gy ↔ ∃ n ∈ ns, RustOrd.cmp c n y = .ok .eq)

/-- The cells of a square on the side that faces back. -/
def facing2D (o : QuadrantOrdering) : Axis2 → Bool → List Quadrant
  | .X, up => [.Zero, .One, .Two, .Three].filter fun v => quadrantX o v != up
  | .Y, up => [.Zero, .One, .Two, .Three].filter fun v => quadrantY o v != up

/-- The cells of a cube on the side that faces back. -/
def facing3D (o : OctantOrdering) (a : Axis) (up : Bool) : List Octant :=
  [.Zero, .One, .Two, .Three, .Four, .Five, .Six, .Seven].filter fun v => octantCoord o a v != up

/-! ## Proof -/

theorem someChildren_ok [VariableDepthMortonIndex M Cell] {m : M} {R : Cell → M → Prop} {N : Cell → Prop} : ∀ {cells : List Cell},
    (∀ v ∈ cells, (child c m v = .ok none ∧ N v) ∨ ∃ x, child c m v = .ok (some x) ∧ R v x) →
    ∃ xs, someChildren c m cells = .ok xs ∧ xs.length ≤ cells.length ∧ (∀ x ∈ xs, ∃ v ∈ cells, R v x) ∧
      ∀ v ∈ cells, N v ∨ ∃ x ∈ xs, R v x
  | [], _ => ⟨[], rfl, Nat.le_refl _, by simp, by simp⟩
  | v :: vs, h => by
    obtain ⟨xs, e', h1, h3, h4⟩ := someChildren_ok fun v hv => h v (List.mem_cons_of_mem _ hv)
    have h3' : ∀ x ∈ xs, ∃ w ∈ v :: vs, R w x := fun x hx => by
      obtain ⟨w, hw, r⟩ := h3 x hx
      exact ⟨w, List.mem_cons_of_mem _ hw, r⟩
    rcases h v (by simp) with ⟨e, n⟩ | ⟨x, e, r⟩
    · exact ⟨xs, by rw [someChildren, e, ok_bind]; exact e', by rw [List.length_cons]; omega, h3',
        List.forall_mem_cons.mpr ⟨.inl n, h4⟩⟩
    · refine ⟨x :: xs, by rw [someChildren, e, ok_bind]; simp only []; rw [e', ok_bind]; rfl,
        by rw [List.length_cons, List.length_cons]; omega, List.forall_mem_cons.mpr ⟨⟨v, by simp, r⟩, h3'⟩,
        List.forall_mem_cons.mpr ⟨.inr ⟨x, by simp, r⟩, fun w hw => ?_⟩⟩
      rcases h4 w hw with n | ⟨y, hy, ry⟩
      · exact .inl n
      · exact .inr ⟨y, List.mem_cons_of_mem _ hy, ry⟩

section like
variable {ok : M → Prop} {D K : Nat} {place : M → (A → Nat) → Prop} {next : A → Bool → M → Res (Option M)}
  [VariableDepthMortonIndex M Cell] [RustOrd M] {key : Cell → Nat} {p : M → List Cell} {wr : Cell → Cell}

theorem listsBeside_of (hk : Function.Injective key) (h : ListLike c ok p wr) (hA : AncLike c ok p)
    (hC : CmpLike c key ok p) {room : M → Nat → Prop} {limit : Option Nat} (hDe : DescLike c ok p room limit)
    (hroom : ∀ q, ok q → depth q ≤ D → room q 1) (hmax : ∀ y, ok y → ¬ Exceeds limit (depth y))
    (coord : A → Cell → Bool) (hplace : ∀ m, ok m → depth m ≤ D → ∀ g, place m g ↔ ∀ b, g b = binary ((p m).map (coord b)))
    {facing : A → Bool → List Cell} (hface : ∀ a up v, v ∈ facing a up ↔ coord a v = !up) (hlen : ∀ a up, (facing a up).length + 2 ≤ K)
    (hT : FindsTouching c ok D place) (hB : ∀ y gy, ok y → depth y ≤ D → place y gy → ∀ b, gy b < 2 ^ depth y)
    (hN : ∀ x, ok x → depth x ≤ D → ∀ a up, ∃ r gx, next a up x = .ok r ∧ place x gx ∧ (r = none → AtEdge up (depth x) (gx a)) ∧
      ∀ q, r = some q → ok q ∧ depth q = depth x ∧ ∃ gq, place q gq ∧ Beside a up gx gq) :
    ListsBeside c ok D place next facing K := by
  intro leaves hok hbal x hx a up
  obtain ⟨ox, dx⟩ := hok x hx
  have huniq : ∀ gx gx', place x gx → place x gx' → gx = gx' := fun gx gx' h1 h2 => funext fun b =>
    ((hplace x ox dx gx).mp h1 b).trans ((hplace x ox dx gx').mp h2 b).symm
  obtain ⟨r, gx, n1, px, n2, n3⟩ := hN x ox dx a up
  rw [besideNodes, n1, ok_bind]
  cases r with
  | none =>
    refine ⟨[], rfl, Nat.zero_le _, fun y hy gx' gy px' py => ?_⟩
    rw [huniq gx' gx px' px]
    exact ⟨fun ht => absurd ht (not_touches_edge dx (hok y hy).2 (n2 rfl) (hB y gy (hok y hy).1 (hok y hy).2 py a)), by simp⟩
  | some q =>
    obtain ⟨oq, dq, gq, pq, bq⟩ := n3 q rfl
    have lq := h.depth_eq q oq
    -- the children that face back
    obtain ⟨xs, c1, c2, c3, c4⟩ := someChildren_ok (c := c) (m := q) (cells := facing a up) (R := fun v x => ok x ∧ p x = p q ++ [v])
      (N := fun _ => Exceeds limit (depth q + 1)) fun v _ => by
        by_cases he : Exceeds limit ((p q).length + 1)
        · exact .inl ⟨hDe.no q oq [v] (hroom q oq (by omega)) he, by rw [lq]; exact he⟩
        · obtain ⟨z, a1, a2, a3⟩ := hDe.yes q oq [v] (hroom q oq (by omega)) he
          exact .inr ⟨z, a1, a2, a3⟩
    -- the parent
    obtain ⟨ps, e1, e2, e3, e4⟩ : ∃ ps, parent c q = .ok ps ∧ (∀ y, ps = some y → ok y ∧ ∃ v, p q = p y ++ [v]) ∧
        (ps = none → p q = []) ∧ ps.toList.length ≤ 1 := by
      rw [parent_eq]
      by_cases h0 : 0 < (p q).length
      · obtain ⟨y, g1, g2, g3⟩ := hA.yes q oq ⟨1, by decide⟩ h0
        change p y = (p q).take ((p q).length - 1) at g3
        refine ⟨some y, g1, fun z hz => ?_, fun k => (by cases k), by simp⟩
        cases hz
        refine ⟨g2, (p q)[(p q).length - 1], ?_⟩
        rw [g3, List.take_append_getElem (by omega), show (p q).length - 1 + 1 = (p q).length by omega, List.take_length]
      · exact ⟨none, hA.no q oq _ (by change 1 > _; omega), fun z hz => (by cases hz), fun _ => List.length_eq_zero_iff.mp (by omega),
          by simp⟩
    refine ⟨ps.toList ++ q :: xs, by simp only []; rw [e1, ok_bind, c1, ok_bind]; rfl, ?_, fun y hy gx' gy px' py => ?_⟩
    · have := hlen a up
      rw [List.length_append, List.length_cons]
      omega
    rw [huniq gx' gx px' px]
    obtain ⟨oy, dy⟩ := hok y hy
    have ly := h.depth_eq y oy
    have key' := (hT x q gx gq a up ox oq dx dq px pq bq).1 y gy oy dy py
    have hgq := (hplace q oq (by omega) gq).mp pq
    have hgy := (hplace y oy dy gy).mp py
    have same : ∀ n, ok n → p n = p y → RustOrd.cmp c n y = .ok .eq := fun n hn e => by
      rw [(hC n y hn oy).1, (pathCmp_eq_iff key hk _ _).mpr e]
    constructor
    · intro ht
      obtain ⟨b1, b2⟩ := hbal x hx y hy gx gy px py a up ht
      rcases key'.mp ht with k | ⟨k, kf⟩
      · obtain ⟨t, et⟩ := (inSubtree_iff hk h hA hC oy oq).mp k
        have hl := congrArg List.length et
        rw [List.length_append] at hl
        cases t with
        | nil => exact ⟨q, by simp, same q oq (by rw [← et, List.append_nil])⟩
        | cons v t =>
          rw [List.length_cons] at hl
          have : t = [] := List.length_eq_zero_iff.mp (by omega)
          subst this
          cases ps with
          | none => rw [e3 rfl] at et; simp at et
          | some z =>
            obtain ⟨oz, w, ez⟩ := e2 z rfl
            exact ⟨z, by simp, same z oz (List.append_inj' (ez.symm.trans et.symm) rfl).1⟩
      · obtain ⟨t, et⟩ := (inSubtree_iff hk h hA hC oq oy).mp k
        have hl := congrArg List.length et
        rw [List.length_append] at hl
        cases t with
        | nil => exact ⟨q, by simp, same q oq (by rw [← et, List.append_nil])⟩
        | cons v t =>
          rw [List.length_cons] at hl
          have : t = [] := List.length_eq_zero_iff.mp (by omega)
          subst this
          have hd1 : depth y - depth q = 1 := by simp only [List.length_nil] at hl; omega
          have hv : v ∈ facing a up := by
            rw [hface]
            have e := hgy a
            rw [← et, List.map_append, List.map_singleton, binary_append, ← hgq a] at e
            rw [hd1] at kf
            unfold facesBack at kf
            cases up <;> cases hcv : coord a v <;> rw [hcv] at e <;> simp at kf e ⊢ <;> omega
          rcases c4 v hv with n | ⟨z, hz, oz, ez⟩
          · exact absurd (by rw [show depth q + 1 = depth y by omega] at n; exact n) (hmax y oy)
          · exact ⟨z, by simp [hz], same z oz (ez.trans et)⟩
    · rintro ⟨n, hn, en⟩
      refine key'.mpr ?_
      have path : ok n → p n = p y := fun on => by
        rw [(hC n y on oy).1, Except.ok.injEq, pathCmp_eq_iff key hk] at en
        exact en
      rcases List.mem_append.mp hn with hn | hn
      · obtain ⟨on, v, ev⟩ := e2 n (by simpa using hn)
        left
        rw [inSubtree_iff hk h hA hC oy oq, ← path on, ev]
        exact List.prefix_append _ _
      · rcases List.mem_cons.mp hn with rfl | hn
        · left
          rw [inSubtree_iff hk h hA hC oy oq, path oq]
          exact List.prefix_refl _
        · obtain ⟨v, hv, on, ev⟩ := c3 n hn
          right
          have ey := (path on).symm.trans ev
          refine ⟨(inSubtree_iff hk h hA hC oq oy).mpr (by rw [ey]; exact List.prefix_append _ _), ?_⟩
          have hl := congrArg List.length ey
          rw [List.length_append, List.length_singleton] at hl
          have e := hgy a
          rw [ey, List.map_append, List.map_singleton, binary_append, ← hgq a, (hface a up v).mp hv] at e
          rw [show depth y - depth q = 1 by omega]
          unfold facesBack
          cases up <;> simp at e ⊢ <;> omega

end like

section kinds
variable {D : Nat}

theorem mem_facing2D (o : QuadrantOrdering) (a : Axis2) (up : Bool) (v : Quadrant) : v ∈ facing2D o a up ↔ coordOf2 o a v = !up := by
  cases o <;> cases a <;> cases up <;> cases v <;> decide

theorem mem_facing3D (o : OctantOrdering) (a : Axis) (up : Bool) (v : Octant) : v ∈ facing3D o a up ↔ coordOf3 o a v = !up := by
  cases o <;> cases a <;> cases up <;> cases v <;> decide

theorem length_facing2D (o : QuadrantOrdering) (a : Axis2) (up : Bool) : (facing2D o a up).length + 2 ≤ 4 := by
  cases o <;> cases a <;> cases up <;> decide

theorem length_facing3D (o : OctantOrdering) (a : Axis) (up : Bool) : (facing3D o a up).length + 2 ≤ 6 := by
  cases o <;> cases a <;> cases up <;> decide

/-- The same for one level more. -/
theorem addressable_of_le' (hc : c.Supported) {n : Nat} (h : n ≤ c.ptrBits * 3 + 3) : Addressable c n := by
  unfold Addressable
  rcases hc with e | e | e <;> rw [e] at h ⊢ <;> omega

/-! ## C133 -/

/-- C133 in 2D: four nodes. -/
theorem C133_beside_balanced_2D (hc : c.Supported) (hD : D ≤ c.ptrBits) (o : QuadrantOrdering) :
    (∀ w, ListsBeside c (fun m : MortonIndex2D (StaticStorage2D w) => Reach2D c .all (.static w m)) D (Place2D c o) (nextTo2D c o)
      (facing2D o) 4) ∧
    (DynWrites c → ListsBeside c (fun m : MortonIndex2D DynamicStorage2D => Reach2D c .all (.dynamic m)) D (Place2D c o) (nextTo2D c o)
      (facing2D o) 4) :=
  ⟨fun w => listsBeside_of quadrantKey_inj (static_list2 hc) (static_anc2 hc) (static_cmp2 hc) (static_desc2 hc)
      (fun _ _ _ => one_lt_isize hc (x := Quadrant.Zero))
      (fun y hy => Nat.not_lt.mpr (Nat.le_trans (Nat.le_of_eq ((static_list2 hc).depth_eq y hy)) (static_depth_le2 hc y hy)))
      (coordOf2 o) (place_iff2 hc hD (static_wf2 hc) o) (mem_facing2D o) (length_facing2D o)
      ((C121_touching_2D hc hD o).1 w) (place_lt2 hc hD (static_wf2 hc) o) (next_ok2 hD ((C128_carry_2D hc).2.1 w) o),
    fun hw => listsBeside_of quadrantKey_inj (dynamic_list2' hc) (dynamic_anc2 hc) (dynamic_cmp2 hc) (dynamic_desc2 hc hw)
      (fun q _ hd => addressable_of_le' hc (by
        have : Storage.depth q.storage ≤ D := hd
        omega)) (fun _ _ => id)
      (coordOf2 o) (place_iff2 hc hD (dynamic_wf2 hc) o) (mem_facing2D o) (length_facing2D o)
      (C121_touching_2D hc hD o).2 (place_lt2 hc hD (dynamic_wf2 hc) o) (next_ok2 hD ((C128_carry_2D hc).2.2 hw) o)⟩

/-- C133 in 3D: six nodes. -/
theorem C133_beside_balanced_3D (hc : c.Supported) (hD : D ≤ c.ptrBits) (o : OctantOrdering) :
    (∀ w, ListsBeside c (fun m : MortonIndex3D (StaticStorage3D w) => Reach3D c .all (.static w m)) D (Place3D c o) (neighbour3D c o)
      (facing3D o) 6) ∧
    (DynWrites c → ListsBeside c (fun m : MortonIndex3D DynamicStorage3D => Reach3D c .all (.dynamic m)) D (Place3D c o) (neighbour3D c o)
      (facing3D o) 6) :=
  ⟨fun w => listsBeside_of octantKey_inj (static_list3 hc) (static_anc3 hc) (static_cmp3 hc) (static_desc3 hc)
      (fun _ _ _ => one_lt_isize hc (x := Octant.Zero))
      (fun y hy => Nat.not_lt.mpr (Nat.le_trans (Nat.le_of_eq ((static_list3 hc).depth_eq y hy)) (static_depth_le3 hc y hy)))
      (coordOf3 o) (place_iff3 hc hD (static_wf3 hc) o) (mem_facing3D o) (length_facing3D o)
      ((C121_touching_3D hc hD o).1 w) (place_lt3 hc hD (static_wf3 hc) o) (next_ok3 hD ((C128_carry_3D hc).2.1 w) o),
    fun hw => listsBeside_of octantKey_inj (dynamic_list3' hc) (dynamic_anc3 hc) (dynamic_cmp3 hc) (dynamic_desc3 hc hw)
      (fun q _ hd => addressable_of_le' hc (by
        have : Storage.depth q.storage ≤ D := hd
        omega)) (fun _ _ => id)
      (coordOf3 o) (place_iff3 hc hD (dynamic_wf3 hc) o) (mem_facing3D o) (length_facing3D o)
      (C121_touching_3D hc hD o).2 (place_lt3 hc hD (dynamic_wf3 hc) o) (next_ok3 hD ((C128_carry_3D hc).2.2 hw) o)⟩

end kinds

/-! ## Examples -/

/-- Beside `[Zero]` to the right: the root, `[One]`, `[One, Zero]` and `[One, Two]`. -/
example : besideNodes x64 (nextTo2D x64 .XY) (facing2D .XY) .X true (⟨⟨0#16, 1⟩⟩ : MortonIndex2D (StaticStorage2D 16)) =
    .ok [⟨⟨0#16, 0⟩⟩, ⟨⟨0x4000#16, 1⟩⟩, ⟨⟨0x4000#16, 2⟩⟩, ⟨⟨0x6000#16, 2⟩⟩] := by decide +kernel

/-- So `[One, Zero]`, a leaf of `exBalanced`, touches `[Zero]` there, and `[Two]` does not. -/
example : ∀ gx gy gz, Place2D x64 .XY (⟨⟨0#16, 1⟩⟩ : MortonIndex2D (StaticStorage2D 16)) gx →
    Place2D x64 .XY (⟨⟨0x4000#16, 2⟩⟩ : MortonIndex2D (StaticStorage2D 16)) gy →
    Place2D x64 .XY (⟨⟨0x8000#16, 1⟩⟩ : MortonIndex2D (StaticStorage2D 16)) gz →
    Touches 5 .X true 1 gx 2 gy ∧ ¬ Touches 5 .X true 1 gx 1 gz := by
  intro gx gy gz hx hy hz
  obtain ⟨b, e, hb⟩ := (C129_balance_2D x64_supported (D := 5) (by decide) .XY).1 16 exBalanced exLe exBelow exBalance_reach.1
    (by unfold Sorted; decide +kernel) (by unfold Disjoint; decide +kernel) (fun a b _ _ => decide_eq_true_iff)
    (fun a b _ _ => decide_eq_true_iff)
  have k : balanced (nextTo2D x64 .XY) exLe exBelow sides2D exBalanced = .ok true := by decide +kernel
  rw [k, Except.ok.injEq] at e
  obtain ⟨ns, h1, -, h2⟩ := (C133_beside_balanced_2D x64_supported (D := 5) (by decide) .XY).1 16 exBalanced exBalance_reach.1
    (hb.mp e.symm) ⟨⟨0#16, 1⟩⟩ (by simp [exBalanced]) .X true
  have k' : besideNodes x64 (nextTo2D x64 .XY) (facing2D .XY) .X true (⟨⟨0#16, 1⟩⟩ : MortonIndex2D (StaticStorage2D 16)) =
    .ok [⟨⟨0#16, 0⟩⟩, ⟨⟨0x4000#16, 1⟩⟩, ⟨⟨0x4000#16, 2⟩⟩, ⟨⟨0x6000#16, 2⟩⟩] := by decide +kernel
  rw [k', Except.ok.injEq] at h1
  subst h1
  exact ⟨(h2 ⟨⟨0x4000#16, 2⟩⟩ (by simp [exBalanced]) gx gy hx hy).mpr ⟨⟨⟨0x4000#16, 2⟩⟩, by simp, by decide +kernel⟩,
    fun ht => absurd ((h2 ⟨⟨0x8000#16, 1⟩⟩ (by simp [exBalanced]) gx gz hx hz).mp ht) (by decide +kernel)⟩

/-- Beside the dynamic octant `[Zero, Zero]` upwards on the axis Z: `[Zero]`, `[Zero, Four]` and the four lower children of the latter. -/
example : besideNodes x64 (neighbour3D x64 .XYZ) (facing3D .XYZ) .Z true (⟨⟨[0#8], 2⟩⟩ : MortonIndex3D DynamicStorage3D) =
    .ok [⟨⟨[0#8], 1⟩⟩, ⟨⟨[0x10#8], 2⟩⟩, ⟨⟨[0#8, 0x10#8], 3⟩⟩, ⟨⟨[0x80#8, 0x10#8], 3⟩⟩, ⟨⟨[0#8, 0x11#8], 3⟩⟩, ⟨⟨[0x80#8, 0x11#8], 3⟩⟩] := by
  decide +kernel

end MortonRs
