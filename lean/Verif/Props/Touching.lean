import Verif.Props.FrontToBack
import Verif.Props.Neighbours

/-! # Leaves that touch a leaf (C121)

The neighbours of a leaf in a tree whose leaves have different sizes: the node of the same size beside it is found through the grid
(C93), the leaves that touch the leaf are the one above this node, or those below it on the side that faces the leaf. -/

namespace MortonRs

open BitStorage MortonIndex VariableDepthMortonIndex

variable {M Cell A : Type}

/-! ## Statement -/

/-- The position `q` is beside `p`: one place further on the axis `a`, up or down. -/
def Beside (a : A) (up : Bool) (p q : A → Nat) : Prop :=
  (if up then q a = p a + 1 else q a + 1 = p a) ∧ ∀ b, b ≠ a → q b = p b

/-- The position `p` of the grid with `2 ^ D` places per axis is in the box of a node of depth `d` at `g`. -/
def Holds (D d : Nat) (g p : A → Nat) : Prop := ∀ b, p b / 2 ^ (D - d) = g b

/-- A node of depth `e` at `h` touches a node of depth `d` at `g` on a side: a position in the box of the one, outside of the box of the
other, is beside a position in the box of the other. -/
def Touches (D : Nat) (a : A) (up : Bool) (d : Nat) (g : A → Nat) (e : Nat) (h : A → Nat) : Prop :=
  ∃ p q, Holds D d g p ∧ ¬ Holds D d g q ∧ Holds D e h q ∧ Beside a up p q

/-- Client code: the coordinate `h` of a node `k` levels below a node with the coordinate `g` is the lowest one below it, or
the highest one if the axis is walked downwards. -/
def facesBack (up : Bool) (k g h : Nat) : Bool := if up then h == g * 2 ^ k else h + 1 == (g + 1) * 2 ^ k

/-- C121. `q` is the node of the depth of `x` beside `x`. A node touches `x` on this side exactly if it has `q` in its subtree, or is in the
subtree of `q` on the side that faces back. So all the leaves of a sorted list that touch `x` are found by one binary search for `q`: the
last one before the split, if `q` is below it, else those right behind the split that are below `q` and face back. `place m g` says that
`m` is at the position `g` of the grid of its depth. -/
def FindsTouching [VariableDepthMortonIndex M Cell] [RustOrd M] (c : Cfg) (ok : M → Prop) (D : Nat) (place : M → (A → Nat) → Prop) : Prop :=
  ∀ x q gx gq a up, ok x → ok q → depth x ≤ D → depth q = depth x → place x gx → place q gq → Beside a up gx gq →
    (∀ y gy, ok y → depth y ≤ D → place y gy → (Touches D a up (depth x) gx (depth y) gy ↔
      InSubtree c y q ∨ InSubtree c q y ∧ facesBack up (depth y - depth q) (gq a) (gy a) = true)) ∧
    ∀ ms, (∀ y ∈ ms, ok y ∧ depth y ≤ D) → Sorted c ms → Disjoint c ms →
      ∃ before inside rest, ms = before ++ (inside ++ rest) ∧ (∀ y ∈ before, RustOrd.le c y q = .ok true) ∧
        (∀ y ∈ inside ++ rest, RustOrd.lt c q y = .ok true) ∧ (∀ y ∈ inside, InSubtree c q y) ∧ (∀ y ∈ rest, ¬ InSubtree c q y) ∧
        ∀ y ∈ ms, ∀ gy, place y gy → (Touches D a up (depth x) gx (depth y) gy ↔
          (before.getLast? = some y ∧ InSubtree c y q) ∨ y ∈ inside ∧ facesBack up (depth y - depth q) (gq a) (gy a) = true)

/-- The axes of the plane. -/
inductive Axis2 where
  | X | Y
  deriving DecidableEq

/-- `to_grid_index` of `m` gives `g`. -/
def Place2D (c : Cfg) {S : Type} [Storage S Quadrant] (o : QuadrantOrdering) (m : MortonIndex2D S) (g : Axis2 → Nat) : Prop :=
  ∃ v, m.toGridIndex c o = .ok v ∧ g .X = v.x.toNat ∧ g .Y = v.y.toNat

/-- The same in 3D. -/
def Place3D (c : Cfg) {S : Type} [Storage S Octant] (o : OctantOrdering) (m : MortonIndex3D S) (g : Axis → Nat) : Prop :=
  ∃ v, m.toGridIndex c o = .ok v ∧ g .X = v.x.toNat ∧ g .Y = v.y.toNat ∧ g .Z = v.z.toNat

/-! ## Positions -/

section positions
variable {D d e : Nat} {a : A} {up : Bool} {g h k p q : A → Nat}

theorem Holds.coarser (hp : Holds D e h p) (hd : d ≤ e) (he : e ≤ D) : Holds D d g p ↔ ∀ b, h b / 2 ^ (e - d) = g b := by
  unfold Holds at *
  constructor
  · intro hg b
    rw [← hp b, ← hg b, div_coarser hd he]
  · intro hg b
    rw [← hg b, ← hp b, div_coarser hd he]

theorem div_unique {x s n : Nat} (h1 : n * s ≤ x) (h2 : x < (n + 1) * s) : x / s = n := by
  rw [Nat.mul_comm] at h1 h2
  rw [Nat.div_eq_of_lt_le] <;> rw [Nat.mul_comm] <;> assumption

/-- The edge of the box at `k` that faces back. -/
def Edge (up : Bool) (s n x : Nat) : Prop := if up then x = n * s else x + 1 = (n + 1) * s

theorem edge_div {s n x : Nat} (hs : 0 < s) (h : Edge up s n x) : x / s = n := by
  unfold Edge at h
  have e : (n + 1) * s = n * s + s := Nat.succ_mul n s
  cases up <;> simp only [if_true, Bool.false_eq_true, if_false] at h <;> exact div_unique (by omega) (by omega)

theorem edge_of_touch (hp : Holds D d g p) (hq : ¬ Holds D d g q) (hb : Beside a up p q) (hk : Beside a up g k) :
    Holds D d k q ∧ Edge up (2 ^ (D - d)) (k a) (q a) := by
  have hs := Nat.two_pow_pos (D - d)
  unfold Holds at *
  generalize 2 ^ (D - d) = s at *
  have ho : ∀ b, b ≠ a → q b / s = g b := fun b hba => by rw [hb.2 b hba]; exact hp b
  have ha : q a / s ≠ g a := fun e => hq fun b => by
    by_cases hba : b = a
    · rw [hba]; exact e
    · exact ho b hba
  have h1 : g a * s ≤ p a ∧ p a < (g a + 1) * s := by
    have := (Nat.div_eq_iff hs).mp (hp a)
    have e : (g a + 1) * s = g a * s + s := Nat.succ_mul _ _
    omega
  have hE : Edge up s (k a) (q a) := by
    have hb1 := hb.1
    have hk1 := hk.1
    unfold Edge
    cases up <;> simp only [if_true, Bool.false_eq_true, if_false] at *
    · rw [hk1]
      rcases Nat.lt_or_ge (q a) (g a * s) with h | h
      · omega
      · exact absurd (div_unique h (by omega)) ha
    · rw [hk1]
      rcases Nat.lt_or_ge (q a) ((g a + 1) * s) with h | h
      · exact absurd (div_unique (by omega) h) ha
      · omega
  refine ⟨fun b => ?_, hE⟩
  by_cases hba : b = a
  · rw [hba]; exact edge_div hs hE
  · rw [hk.2 b hba]; exact ho b hba

theorem touch_of_edge [DecidableEq A] (hq : Holds D d k q) (hE : Edge up (2 ^ (D - d)) (k a) (q a)) (hk : Beside a up g k) :
    ∃ p, Holds D d g p ∧ ¬ Holds D d g q ∧ Beside a up p q := by
  have hs := Nat.two_pow_pos (D - d)
  unfold Holds at *
  generalize 2 ^ (D - d) = s at *
  refine ⟨fun b => if b = a then (if up then q a - 1 else q a + 1) else q b, fun b => ?_, fun hg => ?_, ?_, fun b hba => by simp [hba]⟩
  · by_cases hba : b = a
    · subst hba
      have hk1 := hk.1
      unfold Edge at hE
      cases up <;> simp only [if_true, Bool.false_eq_true, if_false] at *
      · rw [hE, hk1, Nat.mul_div_cancel _ hs]
      · rw [hk1, Nat.succ_mul] at hE
        have e : (g b + 1) * s = g b * s + s := Nat.succ_mul _ _
        exact div_unique (by omega) (by omega)
    · simp only [hba, if_false]
      rw [hq b, hk.2 b hba]
  · have := hk.1
    have e1 := hq a
    rw [hg a] at e1
    cases up <;> simp only [if_true, Bool.false_eq_true, if_false] at this <;> omega
  · have hk1 := hk.1
    unfold Edge at hE
    cases up <;> simp only [if_true, Bool.false_eq_true, if_false] at *
    have : 0 < (g a + 1) * s := Nat.mul_pos (by omega) hs
    rw [← hk1] at this
    omega

end positions

section indices
variable [VariableDepthMortonIndex M Cell] [RustOrd M] {c : Cfg} {ok : M → Prop} {p : M → List Cell} {wr : Cell → Cell}
  {key : Cell → Nat} {D : Nat} {place : M → (A → Nat) → Prop}

theorem touches_iff [DecidableEq A] (hk : Function.Injective key) (h : ListLike c ok p wr) (hA : AncLike c ok p)
    (hC : CmpLike c key ok p) (hP : ∀ x y gx gy, ok x → ok y → depth x ≤ depth y → depth y ≤ D → place x gx → place y gy →
      (InSubtree c x y ↔ ∀ b, gy b / 2 ^ (depth y - depth x) = gx b))
    {x q y : M} {gx gq gy : A → Nat} {a : A} {up : Bool} (hq : ok q) (hy : ok y) (hD : depth x ≤ D)
    (hdq : depth q = depth x) (hDy : depth y ≤ D) (pq : place q gq) (py : place y gy) (hb : Beside a up gx gq) :
    Touches D a up (depth x) gx (depth y) gy ↔
      InSubtree c y q ∨ InSubtree c q y ∧ facesBack up (depth y - depth q) (gq a) (gy a) = true := by
  have hle : ∀ {u v}, ok u → ok v → InSubtree c u v → depth u ≤ depth v := fun hu hv hi => by
    rw [inSubtree_iff hk h hA hC hu hv] at hi
    rw [h.depth_eq _ hu, h.depth_eq _ hv]
    exact hi.length_le
  rw [← hdq] at hD ⊢
  have hpow : ∀ {n : Nat}, depth q ≤ n → n ≤ D → 2 ^ (D - depth q) = 2 ^ (n - depth q) * 2 ^ (D - n) := fun h1 h2 => by
    rw [← Nat.pow_add]
    congr 1
    omega
  have ht := Nat.two_pow_pos (D - depth y)
  constructor
  · rintro ⟨u, v, h1, h2, h3, h4⟩
    obtain ⟨h5, h6⟩ := edge_of_touch h1 h2 h4 hb
    rcases Nat.le_total (depth y) (depth q) with hd | hd
    · exact .inl ((hP y q gy gq hy hq hd hD py pq).mpr ((h5.coarser hd hD).mp h3))
    · refine .inr ⟨(hP q y gq gy hq hy hd hDy pq py).mpr ((h3.coarser hd hDy).mp h5), ?_⟩
      have e := h3 a
      rw [hpow hd hDy] at h6
      unfold Edge at h6
      unfold facesBack
      generalize 2 ^ (D - depth y) = t at *
      cases up <;> simp only [if_true, Bool.false_eq_true, if_false, beq_iff_eq] at *
      · rw [← Nat.mul_assoc] at h6
        have e1 := (Nat.div_eq_iff ht).mp e
        have e2 : (gy a + 1) * t = (gq a + 1) * 2 ^ (depth y - depth q) * t := by
          have e3 : (gy a + 1) * t = gy a * t + t := Nat.succ_mul _ _
          have : v a + 1 = gy a * t + t := by
            obtain ⟨n, hn⟩ : t ∣ v a + 1 := ⟨_, by rw [h6, Nat.mul_comm]⟩
            rw [Nat.mul_comm] at hn
            have l1 : gy a < n := Nat.lt_of_mul_lt_mul_right (a := t) (by omega)
            have l2 : n ≤ gy a + 1 := Nat.le_of_mul_le_mul_right (c := t) (by omega) ht
            rw [hn, ← e3, show n = gy a + 1 by omega]
          omega
        exact Nat.eq_of_mul_eq_mul_right ht e2
      · rw [← e, h6, ← Nat.mul_assoc, Nat.mul_div_cancel _ ht]
  · have hmk : ∀ {n : Nat} {g : A → Nat}, ∃ v : A → Nat, Holds D n g v ∧ Edge up (2 ^ (D - n)) (g a) (v a) := fun {n g} => by
      have hs := Nat.two_pow_pos (D - n)
      have hE : Edge up (2 ^ (D - n)) (g a) (if up then g a * 2 ^ (D - n) else g a * 2 ^ (D - n) + (2 ^ (D - n) - 1)) := by
        unfold Edge
        cases up <;> simp only [if_true, Bool.false_eq_true, if_false]
        rw [Nat.succ_mul]
        omega
      refine ⟨fun b => if b = a then (if up then g a * 2 ^ (D - n) else g a * 2 ^ (D - n) + (2 ^ (D - n) - 1)) else g b * 2 ^ (D - n),
        fun b => ?_, by simpa using hE⟩
      by_cases hba : b = a
      · subst hba
        simp only [if_true]
        exact edge_div hs hE
      · simp only [hba, if_false]
        exact Nat.mul_div_cancel _ hs
    rintro (hi | ⟨hi, hf⟩)
    · have hd := hle hy hq hi
      obtain ⟨v, v1, v2⟩ := hmk (n := depth q) (g := gq)
      obtain ⟨u, u1, u2, u3⟩ := touch_of_edge v1 v2 hb
      exact ⟨u, v, u1, u2, (v1.coarser hd hD).mpr ((hP y q gy gq hy hq hd hD py pq).mp hi), u3⟩
    · have hd := hle hq hy hi
      obtain ⟨v, v1, v2⟩ := hmk (n := depth y) (g := gy)
      have v3 := (v1.coarser hd hDy).mpr ((hP q y gq gy hq hy hd hDy pq py).mp hi)
      have v4 : Edge up (2 ^ (D - depth q)) (gq a) (v a) := by
        rw [hpow hd hDy]
        unfold Edge at v2 ⊢
        unfold facesBack at hf
        cases up <;> simp only [if_true, Bool.false_eq_true, if_false, beq_iff_eq] at *
        · rw [v2, hf, Nat.mul_assoc]
        · rw [v2, hf, Nat.mul_assoc]
      obtain ⟨u, u1, u2, u3⟩ := touch_of_edge v3 v4 hb
      exact ⟨u, v, u1, u2, v1, u3⟩

theorem findsTouching_of [DecidableEq A] (hk : Function.Injective key) (h : ListLike c ok p wr) (hA : AncLike c ok p)
    (hC : CmpLike c key ok p) (hP : ∀ x y gx gy, ok x → ok y → depth x ≤ depth y → depth y ≤ D → place x gx → place y gy →
      (InSubtree c x y ↔ ∀ b, gy b / 2 ^ (depth y - depth x) = gx b)) : FindsTouching c ok D place := by
  intro x q gx gq a up _ hq hD hdq _ pq hb
  refine ⟨fun y gy hy hDy py => touches_iff hk h hA hC hP hq hy hD hdq hDy pq py hb, fun ms hms hs hd => ?_⟩
  obtain ⟨bf, ins, rest, rfl, h1, h2, h3, h4, h5⟩ :=
    pointLocation_of hk h hA hC ms q (fun y hy => (hms y hy).1) hq hs hd
  refine ⟨bf, ins, rest, rfl, h1, h2, h3, h4, fun y hy gy py => ?_⟩
  obtain ⟨oy, dy⟩ := hms y hy
  rw [touches_iff hk h hA hC hP hq oy hD hdq dy pq py hb]
  constructor
  · rintro (hi | ⟨hi, hf⟩)
    · exact .inl ⟨(h5 y hy hi).1, hi⟩
    · rcases List.mem_append.mp hy with hy' | hy'
      · left
        have hle := (le_iff_path hC oy hq).mp (h1 y hy')
        have hpre := (inSubtree_iff hk h hA hC hq oy).mp hi
        have hge := pathCmp_prefix (key := key) hpre
        have heq : pathCmp key (p y) (p q) = .eq := by
          have hsw := pathCmp_swap key (p y) (p q)
          cases hcmp : pathCmp key (p y) (p q)
          · rw [hcmp] at hsw
            exact absurd hsw.symm hge
          · rfl
          · exact absurd hcmp hle
        have hpe := (pathCmp_eq_iff key hk _ _).mp heq
        have hi' : InSubtree c y q := (inSubtree_iff hk h hA hC oy hq).mpr (by rw [hpe]; exact List.prefix_refl _)
        exact ⟨(h5 y hy hi').1, hi'⟩
      · rcases List.mem_append.mp hy' with hy' | hy'
        · exact .inr ⟨hy', hf⟩
        · exact absurd hi (h4 y hy')
  · rintro (⟨-, hi⟩ | ⟨hi, hf⟩)
    · exact .inl hi
    · exact .inr ⟨h3 y hi, hf⟩

end indices

/-! ## C121 -/

section boxes
variable {c : Cfg} {D : Nat}

theorem place_nested2 {S : Type} [VariableDepthStorage S Quadrant] [RustOrd (MortonIndex2D S)] {ok : MortonIndex2D S → Prop}
    (h : SubtreeIsBox2D c ok) (hD : D ≤ c.ptrBits) (o : QuadrantOrdering) (x y : MortonIndex2D S) (gx gy : Axis2 → Nat) (hx : ok x)
    (hy : ok y) (hd : depth x ≤ depth y) (hy' : depth y ≤ D) (px : Place2D c o x gx) (py : Place2D c o y gy) :
    InSubtree c x y ↔ ∀ b, gy b / 2 ^ (depth y - depth x) = gx b := by
  obtain ⟨vx, vy, e1, e2, e3⟩ := h x y hx hy hd (Nat.le_trans hy' hD) o
  obtain ⟨ux, f1, f2, f3⟩ := px
  obtain ⟨uy, g1, g2, g3⟩ := py
  rw [e1] at f1
  rw [e2] at g1
  cases f1
  cases g1
  rw [e3, in_box, in_box, ← f2, ← f3, ← g2, ← g3]
  exact ⟨fun ⟨a, b⟩ ax => by cases ax <;> assumption, fun h => ⟨h _, h _⟩⟩

theorem place_nested3 {S : Type} [VariableDepthStorage S Octant] [RustOrd (MortonIndex3D S)] {ok : MortonIndex3D S → Prop}
    (h : SubtreeIsBox3D c ok) (hD : D ≤ c.ptrBits) (o : OctantOrdering) (x y : MortonIndex3D S) (gx gy : Axis → Nat) (hx : ok x)
    (hy : ok y) (hd : depth x ≤ depth y) (hy' : depth y ≤ D) (px : Place3D c o x gx) (py : Place3D c o y gy) :
    InSubtree c x y ↔ ∀ b, gy b / 2 ^ (depth y - depth x) = gx b := by
  obtain ⟨vx, vy, e1, e2, e3⟩ := h x y hx hy hd (Nat.le_trans hy' hD) o
  obtain ⟨ux, f1, f2, f3, f4⟩ := px
  obtain ⟨uy, g1, g2, g3, g4⟩ := py
  rw [e1] at f1
  rw [e2] at g1
  cases f1
  cases g1
  rw [e3, in_box, in_box, in_box, ← f2, ← f3, ← f4, ← g2, ← g3, ← g4]
  exact ⟨fun ⟨a, b, d⟩ ax => by cases ax <;> assumption, fun h => ⟨h _, h _, h _⟩⟩

/-- C121 in 2D. -/
theorem C121_touching_2D (hc : c.Supported) (hD : D ≤ c.ptrBits) (o : QuadrantOrdering) :
    (∀ w, FindsTouching c (fun m : MortonIndex2D (StaticStorage2D w) => Reach2D c .all (.static w m)) D (Place2D c o)) ∧
    FindsTouching c (fun m : MortonIndex2D DynamicStorage2D => Reach2D c .all (.dynamic m)) D (Place2D c o) :=
  ⟨fun w => findsTouching_of quadrantKey_inj (static_list2 hc) (static_anc2 hc) (static_cmp2 hc)
      (place_nested2 ((C67_subtree_is_box_2D hc).1 w) hD o),
    findsTouching_of quadrantKey_inj (dynamic_list2' hc) (dynamic_anc2 hc) (dynamic_cmp2 hc)
      (place_nested2 (C67_subtree_is_box_2D hc).2 hD o)⟩

/-- C121 in 3D. -/
theorem C121_touching_3D (hc : c.Supported) (hD : D ≤ c.ptrBits) (o : OctantOrdering) :
    (∀ w, FindsTouching c (fun m : MortonIndex3D (StaticStorage3D w) => Reach3D c .all (.static w m)) D (Place3D c o)) ∧
    FindsTouching c (fun m : MortonIndex3D DynamicStorage3D => Reach3D c .all (.dynamic m)) D (Place3D c o) :=
  ⟨fun w => findsTouching_of octantKey_inj (static_list3 hc) (static_anc3 hc) (static_cmp3 hc)
      (place_nested3 ((C67_subtree_is_box_3D hc).1 w) hD o),
    findsTouching_of octantKey_inj (dynamic_list3' hc) (dynamic_anc3 hc) (dynamic_cmp3 hc)
      (place_nested3 (C67_subtree_is_box_3D hc).2 hD o)⟩

end boxes

/-! ## Examples -/

/-- `[Zero]` at (0, 0), beside it `[One]` at (1, 0). -/
def exTouchX : MortonIndex2D (StaticStorage2D 16) := ⟨⟨0x0000#16, 1⟩⟩
def exTouchQ : MortonIndex2D (StaticStorage2D 16) := ⟨⟨0x4000#16, 1⟩⟩
/-- `[One, Two]` at (2, 1), which touches `[Zero]`, and `[One, Three]` at (3, 1), which does not. -/
def exTouchY : MortonIndex2D (StaticStorage2D 16) := ⟨⟨0x6000#16, 2⟩⟩
def exTouchN : MortonIndex2D (StaticStorage2D 16) := ⟨⟨0x7000#16, 2⟩⟩

example : Touches 5 Axis2.X true 1 (fun _ => 0) 2 (fun | .X => 2 | .Y => 1) ∧
    ¬ Touches 5 Axis2.X true 1 (fun _ => 0) 2 (fun | .X => 3 | .Y => 1) := by
  have h := ((C121_touching_2D x64_supported (D := 5) (by decide) .XY).1 16 exTouchX exTouchQ (fun _ => 0)
    (fun | .X => 1 | .Y => 0) .X true (.staticTryFromSlice (cs := [.Zero]) (by decide) (by rfl))
    (.staticTryFromSlice (cs := [.One]) (by decide) (by rfl)) (by decide) rfl ⟨⟨0, 0⟩, by decide +kernel, rfl, rfl⟩
    ⟨⟨1, 0⟩, by decide +kernel, rfl, rfl⟩ ⟨by decide, fun b => by cases b <;> simp⟩).1
  refine ⟨(h exTouchY _ (.staticTryFromSlice (cs := [.One, .Two]) (by decide) (by rfl)) (by decide)
    ⟨⟨2, 1⟩, by decide +kernel, rfl, rfl⟩).mpr (.inr ⟨⟨_, rfl, rfl⟩, by decide⟩), fun ht => ?_⟩
  rcases (h exTouchN _ (.staticTryFromSlice (cs := [.One, .Three]) (by decide) (by rfl)) (by decide)
    ⟨⟨3, 1⟩, by decide +kernel, rfl, rfl⟩).mp ht with h' | ⟨-, h'⟩
  · revert h'; decide +kernel
  · revert h'; decide

/-- In the sorted leaves `[Zero]`, `[One, Two]`, `[One, Three]` one binary search finds what touches `[Zero]`. -/
example : ∃ before inside rest : List (MortonIndex2D (StaticStorage2D 16)),
    [exTouchX, exTouchY, exTouchN] = before ++ (inside ++ rest) ∧ (∀ y ∈ inside, InSubtree x64 exTouchQ y) := by
  obtain ⟨b, i, r, h1, -, -, h2, -⟩ := ((C121_touching_2D x64_supported (D := 5) (by decide) .XY).1 16 exTouchX exTouchQ (fun _ => 0)
    (fun | .X => 1 | .Y => 0) .X true (.staticTryFromSlice (cs := [.Zero]) (by decide) (by rfl))
    (.staticTryFromSlice (cs := [.One]) (by decide) (by rfl)) (by decide) rfl ⟨⟨0, 0⟩, by decide +kernel, rfl, rfl⟩
    ⟨⟨1, 0⟩, by decide +kernel, rfl, rfl⟩ ⟨by decide, fun b => by cases b <;> simp⟩).2 [exTouchX, exTouchY, exTouchN]
    (by
      intro y hy
      simp only [List.mem_cons, List.not_mem_nil, or_false] at hy
      rcases hy with rfl | rfl | rfl
      · exact ⟨.staticTryFromSlice (cs := [.Zero]) (by decide) (by rfl), by decide⟩
      · exact ⟨.staticTryFromSlice (cs := [.One, .Two]) (by decide) (by rfl), by decide⟩
      · exact ⟨.staticTryFromSlice (cs := [.One, .Three]) (by decide) (by rfl), by decide⟩)
    (by unfold Sorted; decide +kernel) (by unfold Disjoint; decide +kernel)
  exact ⟨b, i, r, h1, h2⟩

/-- In 3D: `[Zero, Three]` at (1, 1, 0) touches `[One]` at (1, 0, 0) on the lower side of the X axis, as it faces back below `[Zero]`. -/
example : Touches 2 Axis.X false 1 (fun | .X => 1 | _ => 0) 2 (fun | .X => 1 | .Y => 1 | .Z => 0) :=
  (((C121_touching_3D x64_supported (D := 2) (by decide) .XYZ).2 (⟨⟨[0x20#8], 1⟩⟩ : MortonIndex3D DynamicStorage3D) ⟨⟨[0x00#8], 1⟩⟩ _
    (fun _ => 0) .X false (.dynamicTryFromSlice (cs := [.One]) (by unfold Addressable; decide) (by rfl))
    (.dynamicTryFromSlice (cs := [.Zero]) (by unfold Addressable; decide) (by rfl)) (by decide) rfl
    ⟨⟨1, 0, 0⟩, by decide +kernel, rfl, rfl, rfl⟩ ⟨⟨0, 0, 0⟩, by decide +kernel, rfl, rfl, rfl⟩
    ⟨by decide, fun b => by cases b <;> simp⟩).1 ⟨⟨[0x0C#8], 2⟩⟩ _
    (.dynamicTryFromSlice (cs := [.Zero, .Three]) (by unfold Addressable; decide) (by rfl)) (by decide)
    ⟨⟨1, 1, 0⟩, by decide +kernel, rfl, rfl, rfl⟩).mpr (.inr ⟨⟨_, rfl, rfl⟩, by decide⟩)

end MortonRs
