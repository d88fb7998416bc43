import Verif.Props.BesideBalanced

/-! # How many leaves are beside a leaf of a balanced tree (C135)

C133 lists the nodes that may touch a leaf on a side. Not all of them can be leaves of one tree. -/

namespace MortonRs

open BitStorage MortonIndex VariableDepthMortonIndex

variable {M Cell A : Type} {c : Cfg}

/-! ## Statement -/

/-- C135. At most `K` leaves of a balanced tree touch a leaf on a side. -/
def FewBeside [VariableDepthMortonIndex M Cell] [RustOrd M] (c : Cfg) (ok : M → Prop) (D : Nat) (place : M → (A → Nat) → Prop) (K : Nat) :
    Prop :=
  ∀ leaves : List M, (∀ m ∈ leaves, ok m ∧ depth m ≤ D) → Sorted c leaves → Disjoint c leaves → Balanced D place leaves →
    ∀ x ∈ leaves, ∀ (a : A) (up : Bool) (ys : List M), ys.Sublist leaves →
      (∀ y ∈ ys, ∃ gx gy, place x gx ∧ place y gy ∧ Touches D a up (depth x) gx (depth y) gy) → ys.length ≤ K

/-! ## Proof -/

/-- A list without repetitions is not longer than a list that contains it. -/
theorem length_le_of_distinct {α : Type} [DecidableEq α] : ∀ {l : List α} {m : List α}, l.Pairwise (· ≠ ·) → (∀ x ∈ l, x ∈ m) →
    l.length ≤ m.length
  | [], _, _, _ => Nat.zero_le _
  | x :: l, m, hl, h => by
    obtain ⟨h1, h2⟩ := List.pairwise_cons.mp hl
    have hx : x ∈ m := h x (by simp)
    have := length_le_of_distinct (m := m.erase x) h2 fun y hy =>
      (List.mem_erase_of_ne (fun e => h1 y hy e.symm)).mpr (h y (List.mem_cons_of_mem _ hy))
    rw [List.length_erase_of_mem hx] at this
    have := List.length_pos_of_mem hx
    rw [List.length_cons]
    omega

section like
variable {ok : M → Prop} {D K : Nat} {place : M → (A → Nat) → Prop} {next : A → Bool → M → Res (Option M)}
  [VariableDepthMortonIndex M Cell] [RustOrd M] {key : Cell → Nat} {p : M → List Cell} {wr : Cell → Cell}

theorem fewBeside_of [DecidableEq Cell] (hk : Function.Injective key) (h : ListLike c ok p wr) (hA : AncLike c ok p)
    (hC : CmpLike c key ok p) (G : Geometry c ok D place next)
    (coord : A → Cell → Bool) (hplace : ∀ m, ok m → depth m ≤ D → ∀ g, place m g ↔ ∀ b, g b = binary ((p m).map (coord b)))
    {facing : A → Bool → List Cell} (hface : ∀ a up v, v ∈ facing a up ↔ coord a v = !up) (hlen : ∀ a up, (facing a up).length ≤ K)
    (hK : 1 ≤ K) : FewBeside c ok D place K := by
  intro leaves hok hs hd hbal x hx a up ys hsub hys
  obtain ⟨ox, dx⟩ := hok x hx
  have hok' : ∀ y ∈ ys, ok y ∧ depth y ≤ D := fun y hy => hok y (hsub.subset hy)
  have hap : ys.Pairwise fun u v => Apart key (p u) (p v) :=
    (leaves_iff_apart hk h hA hC fun y hy => (hok' y hy).1).mp ⟨List.Pairwise.sublist hsub hs, List.Pairwise.sublist hsub hd⟩
  have huniq : ∀ gx gx', place x gx → place x gx' → gx = gx' := fun gx gx' h1 h2 => funext fun b =>
    ((hplace x ox dx gx).mp h1 b).trans ((hplace x ox dx gx').mp h2 b).symm
  obtain ⟨r, gx, n1, px, n2, n3⟩ := G.steps x ox dx a up
  cases r with
  | none =>
    cases ys with
    | nil => exact Nat.zero_le _
    | cons y ys =>
      exfalso
      obtain ⟨gx', gy, px', py, ht⟩ := hys y (by simp)
      rw [huniq gx' gx px' px] at ht
      exact not_touches_edge dx (hok' y (by simp)).2 (n2 rfl) (G.bound y gy (hok' y (by simp)).1 (hok' y (by simp)).2 py a) ht
  | some q =>
    obtain ⟨oq, dq, gq, pq, bq⟩ := n3 q rfl
    have lq := h.depth_eq q oq
    have hgq := (hplace q oq (by omega) gq).mp pq
    -- each of them is above the neighbour, or a child of it
    have cases' : ∀ y ∈ ys, p y <+: p q ∨ ∃ v ∈ facing a up, p y = p q ++ [v] := by
      intro y hy
      obtain ⟨oy, dy⟩ := hok' y hy
      obtain ⟨gx', gy, px', py, ht⟩ := hys y hy
      obtain ⟨-, b2⟩ := hbal x hx y (hsub.subset hy) gx' gy px' py a up ht
      rw [huniq gx' gx px' px] at ht
      have ly := h.depth_eq y oy
      rcases ((G.touching x q gx gq a up ox oq dx dq px pq bq).1 y gy oy dy py).mp ht with k | ⟨k, kf⟩
      · exact .inl ((inSubtree_iff hk h hA hC oy oq).mp k)
      · obtain ⟨t, et⟩ := (inSubtree_iff hk h hA hC oq oy).mp k
        have hl := congrArg List.length et
        rw [List.length_append] at hl
        cases t with
        | nil => exact .inl (by rw [← et, List.append_nil]; exact List.prefix_refl _)
        | cons v t =>
          rw [List.length_cons] at hl
          have : t = [] := List.length_eq_zero_iff.mp (by omega)
          subst this
          have hd1 : depth y - depth q = 1 := by simp only [List.length_nil] at hl; omega
          refine .inr ⟨v, ?_, et.symm⟩
          rw [hface]
          have e := (hplace y oy dy gy).mp py a
          rw [← et, List.map_append, List.map_singleton, binary_append, ← hgq a] at e
          rw [hd1] at kf
          unfold facesBack at kf
          cases up <;> cases hcv : coord a v <;> rw [hcv] at e <;> simp at kf e ⊢ <;> omega
    have nest : ∀ u ∈ ys, ∀ v ∈ ys, p u <+: p v → u = v := fun u hu v hv hp => by
      rcases pairwise_mem (R := fun u v => ¬ p u <+: p v ∧ ¬ p v <+: p u) (fun _ _ k => k.symm) (hap.imp fun k => k.2) hu hv with e | e
      · exact e
      · exact absurd hp e.1
    by_cases hup : ∃ y ∈ ys, p y <+: p q
    · -- one leaf around the neighbour, and no other
      obtain ⟨y, hy, hp⟩ := hup
      have all : ∀ z ∈ ys, z = y := fun z hz => by
        rcases cases' z hz with k | ⟨v, -, k⟩
        · rcases List.prefix_or_prefix_of_prefix k hp with e | e
          · exact nest z hz y hy e
          · exact (nest y hy z hz e).symm
        · exact (nest y hy z hz (by rw [k]; exact hp.trans (List.prefix_append _ _))).symm
      have : ys.length ≤ 1 := by
        cases ys with
        | nil => simp
        | cons u ys =>
          cases ys with
          | nil => simp
          | cons v ys =>
            exfalso
            have k := (List.pairwise_cons.mp hap).1 v (by simp)
            rw [all u (by simp), all v (by simp)] at k
            exact k.2.1 (List.prefix_refl _)
      omega
    · have child' : ∀ y ∈ ys, ∃ v ∈ facing a up, p y = p q ++ [v] := fun y hy => (cases' y hy).resolve_left fun k => hup ⟨y, hy, k⟩
      have := length_le_of_distinct (l := ys.map p) (m := (facing a up).map (p q ++ [·]))
        (List.pairwise_map.mpr (hap.imp fun {u v} (k : Apart key (p u) (p v)) (e : p u = p v) => k.2.1 (e ▸ List.prefix_refl _))) fun z hz => by
          obtain ⟨y, hy, rfl⟩ := List.mem_map.mp hz
          obtain ⟨v, hv, e⟩ := child' y hy
          exact List.mem_map.mpr ⟨v, hv, e.symm⟩
      rw [List.length_map, List.length_map] at this
      exact Nat.le_trans this (hlen a up)

end like

/-! ## C135 -/

section kinds
variable {D : Nat}

/-- C135 in 2D: two leaves per side. -/
theorem C135_few_beside_2D (hc : c.Supported) (hD : D ≤ c.ptrBits) (o : QuadrantOrdering) :
    (∀ w, FewBeside c (fun m : MortonIndex2D (StaticStorage2D w) => Reach2D c .all (.static w m)) D (Place2D c o) 2) ∧
    (DynWrites c → FewBeside c (fun m : MortonIndex2D DynamicStorage2D => Reach2D c .all (.dynamic m)) D (Place2D c o) 2) :=
  ⟨fun w => fewBeside_of quadrantKey_inj (static_list2 hc) (static_anc2 hc) (static_cmp2 hc) (static_geometry2 hc hD o w)
      (coordOf2 o) (place_iff2 hc hD (static_wf2 hc) o) (mem_facing2D o) (fun a up => Nat.le_of_add_le_add_right (length_facing2D o a up))
      (by decide),
    fun hw => fewBeside_of quadrantKey_inj (dynamic_list2' hc) (dynamic_anc2 hc) (dynamic_cmp2 hc) (dynamic_geometry2 hc hw hD o)
      (coordOf2 o) (place_iff2 hc hD (dynamic_wf2 hc) o) (mem_facing2D o) (fun a up => Nat.le_of_add_le_add_right (length_facing2D o a up))
      (by decide)⟩

/-- C135 in 3D: four leaves per side. -/
theorem C135_few_beside_3D (hc : c.Supported) (hD : D ≤ c.ptrBits) (o : OctantOrdering) :
    (∀ w, FewBeside c (fun m : MortonIndex3D (StaticStorage3D w) => Reach3D c .all (.static w m)) D (Place3D c o) 4) ∧
    (DynWrites c → FewBeside c (fun m : MortonIndex3D DynamicStorage3D => Reach3D c .all (.dynamic m)) D (Place3D c o) 4) :=
  ⟨fun w => fewBeside_of octantKey_inj (static_list3 hc) (static_anc3 hc) (static_cmp3 hc) (static_geometry3 hc hD o w)
      (coordOf3 o) (place_iff3 hc hD (static_wf3 hc) o) (mem_facing3D o) (fun a up => Nat.le_of_add_le_add_right (length_facing3D o a up))
      (by decide),
    fun hw => fewBeside_of octantKey_inj (dynamic_list3' hc) (dynamic_anc3 hc) (dynamic_cmp3 hc) (dynamic_geometry3 hc hw hD o)
      (coordOf3 o) (place_iff3 hc hD (dynamic_wf3 hc) o) (mem_facing3D o) (fun a up => Nat.le_of_add_le_add_right (length_facing3D o a up))
      (by decide)⟩

end kinds

/-! ## Examples -/

/-- The quadrants `[Zero]`, `[One, Zero]`, `[One, Two]` and `[Two]`. -/
def exBeside : List (MortonIndex2D (StaticStorage2D 16)) := [⟨⟨0#16, 1⟩⟩, ⟨⟨0x4000#16, 2⟩⟩, ⟨⟨0x6000#16, 2⟩⟩, ⟨⟨0x8000#16, 1⟩⟩]

theorem exBeside_reach : ∀ m ∈ exBeside, Reach2D x64 .all (.static 16 m) ∧ depth m ≤ 5 := by
  intro m hm
  simp only [exBeside, List.mem_cons, List.not_mem_nil, or_false] at hm
  rcases hm with rfl | rfl | rfl | rfl
  · exact ⟨.staticTryFromSlice (cs := [.Zero]) (by decide) (by rfl), by decide⟩
  · exact ⟨.staticTryFromSlice (cs := [.One, .Zero]) (by decide) (by rfl), by decide⟩
  · exact ⟨.staticTryFromSlice (cs := [.One, .Two]) (by decide) (by rfl), by decide⟩
  · exact ⟨.staticTryFromSlice (cs := [.Two]) (by decide) (by rfl), by decide⟩

/-- They meet the hypotheses, and two of them touch `[Zero]` on the right: the bound is reached. -/
example : ∃ ys : List (MortonIndex2D (StaticStorage2D 16)), ys.length = 2 ∧ ys.Sublist exBeside ∧
    (∀ y ∈ ys, ∃ gx gy, Place2D x64 .XY (⟨⟨0#16, 1⟩⟩ : MortonIndex2D (StaticStorage2D 16)) gx ∧ Place2D x64 .XY y gy ∧
      Touches 5 .X true 1 gx (depth y) gy) ∧
    ∀ zs : List (MortonIndex2D (StaticStorage2D 16)), zs.Sublist exBeside →
      (∀ y ∈ zs, ∃ gx gy, Place2D x64 .XY (⟨⟨0#16, 1⟩⟩ : MortonIndex2D (StaticStorage2D 16)) gx ∧ Place2D x64 .XY y gy ∧
        Touches 5 .X true 1 gx (depth y) gy) → zs.length ≤ 2 := by
  have hs : Sorted x64 exBeside := by unfold Sorted; decide +kernel
  have hd : Disjoint x64 exBeside := by unfold Disjoint; decide +kernel
  obtain ⟨b, e, hb⟩ := (C129_balance_2D x64_supported (D := 5) (by decide) .XY).1 16 exBeside exLe exBelow exBeside_reach
    hs hd (fun a b _ _ => decide_eq_true_iff) (fun a b _ _ => decide_eq_true_iff)
  have k : balanced (nextTo2D x64 .XY) exLe exBelow sides2D exBeside = .ok true := by decide +kernel
  rw [k, Except.ok.injEq] at e
  have hbal := hb.mp e.symm
  have hsub : [⟨⟨0x4000#16, 2⟩⟩, ⟨⟨0x6000#16, 2⟩⟩].Sublist exBeside := by decide +kernel
  refine ⟨[⟨⟨0x4000#16, 2⟩⟩, ⟨⟨0x6000#16, 2⟩⟩], rfl, hsub, ?_, fun zs h1 h2 =>
    (C135_few_beside_2D x64_supported (D := 5) (by decide) .XY).1 16 exBeside exBeside_reach hs hd hbal ⟨⟨0#16, 1⟩⟩
      (by simp [exBeside]) .X true zs h1 h2⟩
  have hp : ∀ m ∈ exBeside, ∃ g, Place2D x64 .XY m g := fun m hm =>
    ⟨_, (place_iff2 x64_supported (D := 5) (by decide) (static_wf2 x64_supported) .XY m (exBeside_reach m hm).1 (exBeside_reach m hm).2
      fun b => binary ((cells2 m).map (coordOf2 .XY b))).mpr fun _ => rfl⟩
  obtain ⟨ns, h1, -, h2⟩ := (C133_beside_balanced_2D x64_supported (D := 5) (by decide) .XY).1 16 exBeside exBeside_reach
    hbal ⟨⟨0#16, 1⟩⟩ (by simp [exBeside]) .X true
  have k' : besideNodes x64 (nextTo2D x64 .XY) (facing2D .XY) .X true (⟨⟨0#16, 1⟩⟩ : MortonIndex2D (StaticStorage2D 16)) =
    .ok [⟨⟨0#16, 0⟩⟩, ⟨⟨0x4000#16, 1⟩⟩, ⟨⟨0x4000#16, 2⟩⟩, ⟨⟨0x6000#16, 2⟩⟩] := by decide +kernel
  rw [k', Except.ok.injEq] at h1
  subst h1
  intro y hy
  obtain ⟨gx, hgx⟩ := hp ⟨⟨0#16, 1⟩⟩ (by simp [exBeside])
  obtain ⟨gy, hgy⟩ := hp y (hsub.subset hy)
  refine ⟨gx, gy, hgx, hgy, (h2 y (hsub.subset hy) gx gy hgx hgy).mpr ⟨y, ?_, ?_⟩⟩
  · simp only [List.mem_cons, List.not_mem_nil, or_false] at hy
    rcases hy with rfl | rfl <;> simp
  · simp only [List.mem_cons, List.not_mem_nil, or_false] at hy
    rcases hy with rfl | rfl <;> decide +kernel

end MortonRs
