import Verif.Props.Space

/-! # Order of nodes of different depths in terms of grid positions (C90) -/

namespace MortonRs

open BitStorage MortonIndex

variable {c : Cfg}

/-! ## Statements

The box of a node at depth `d` and position `g` starts at `g * 2 ^ (n - d)` in the grid with `2 ^ n` positions per axis. -/

/-- Lowest coordinate of a box in the grid of depth `n`. -/
def lowest {W : Nat} (n d : Nat) (v : BitVec W) : Nat := v.toNat * 2 ^ (n - d)

/-- Bits `i` of two coordinates side by side, the first axis of the ordering lowest. -/
def zDigitOf2D (o : QuadrantOrdering) (x y i : Nat) : Nat :=
  match o with
  | .XY => x / 2 ^ i % 2 + 2 * (y / 2 ^ i % 2)
  | .YX => y / 2 ^ i % 2 + 2 * (x / 2 ^ i % 2)

/-- C90: `cmp` is the Z-order of the lowest corners; nodes with the same corner are ordered by depth. It is monotone in the
corners: the only node that is smaller although its corner is not is one with the same corner. -/
def OrderByCorner2D (c : Cfg) {S : Type} [Storage S Quadrant] [RustOrd (MortonIndex2D S)] (ok : MortonIndex2D S → Prop) :
    Prop :=
  ∀ a b, ok a → ok b → depth a ≤ c.ptrBits → depth b ≤ c.ptrBits → ∀ o n, depth a ≤ n → depth b ≤ n → ∃ ga gb,
    a.toGridIndex c o = .ok ga ∧ b.toGridIndex c o = .ok gb ∧
    let ax := lowest n (depth a) ga.x
    let ay := lowest n (depth a) ga.y
    let bx := lowest n (depth b) gb.x
    let by' := lowest n (depth b) gb.y
    (RustOrd.cmp c a b = .ok .lt ↔
      ZLess n (zDigitOf2D o ax ay) (zDigitOf2D o bx by') ∨ (ax = bx ∧ ay = by') ∧ depth a < depth b) ∧
    (RustOrd.cmp c a b = .ok .gt ↔
      ZLess n (zDigitOf2D o bx by') (zDigitOf2D o ax ay) ∨ (ax = bx ∧ ay = by') ∧ depth b < depth a) ∧
    (RustOrd.cmp c a b = .ok .eq ↔ (ax = bx ∧ ay = by') ∧ depth a = depth b) ∧
    (ax ≤ bx → ay ≤ by' → RustOrd.le c a b = .ok true ∨ (ax = bx ∧ ay = by') ∧ depth b < depth a)

def zDigitOf3D (o : OctantOrdering) (p : Axis → Nat) (i : Nat) : Nat :=
  p (octantAxes o).1 / 2 ^ i % 2 + 2 * (p (octantAxes o).2.1 / 2 ^ i % 2) + 4 * (p (octantAxes o).2.2 / 2 ^ i % 2)

/-- C90 in 3D. -/
def OrderByCorner3D (c : Cfg) {S : Type} [Storage S Octant] [RustOrd (MortonIndex3D S)] (ok : MortonIndex3D S → Prop) :
    Prop :=
  ∀ a b, ok a → ok b → depth a ≤ c.ptrBits → depth b ≤ c.ptrBits → ∀ o n, depth a ≤ n → depth b ≤ n → ∃ ga gb,
    a.toGridIndex c o = .ok ga ∧ b.toGridIndex c o = .ok gb ∧
    let pa := fun ax => lowest n (depth a) (axisOf ga ax)
    let pb := fun ax => lowest n (depth b) (axisOf gb ax)
    (RustOrd.cmp c a b = .ok .lt ↔
      ZLess n (zDigitOf3D o pa) (zDigitOf3D o pb) ∨ (∀ ax, pa ax = pb ax) ∧ depth a < depth b) ∧
    (RustOrd.cmp c a b = .ok .gt ↔
      ZLess n (zDigitOf3D o pb) (zDigitOf3D o pa) ∨ (∀ ax, pa ax = pb ax) ∧ depth b < depth a) ∧
    (RustOrd.cmp c a b = .ok .eq ↔ (∀ ax, pa ax = pb ax) ∧ depth a = depth b) ∧
    ((∀ ax, pa ax ≤ pb ax) → RustOrd.le c a b = .ok true ∨ (∀ ax, pa ax = pb ax) ∧ depth b < depth a)

/-! ## Paths -/

/-- A path filled up with `z`. -/
def padTo {Cell : Type} (z : Cell) (n : Nat) (cs : List Cell) : List Cell := cs ++ List.replicate (n - cs.length) z

theorem padTo_length {Cell : Type} {z : Cell} {n : Nat} {cs : List Cell} (h : cs.length ≤ n) : (padTo z n cs).length = n := by
  simp [padTo]; omega

theorem pathCmp_least {Cell : Type} (key : Cell → Nat) {z : Cell} (hz : key z = 0) :
    ∀ cs : List Cell, pathCmp key (List.replicate cs.length z) cs ≠ .gt
  | [] => by simp [pathCmp]
  | v :: cs => by
    rw [List.length_cons, List.replicate_succ, pathCmp, hz]
    by_cases h : 0 < key v
    · rw [if_pos h]; simp
    · rw [if_neg h, if_neg (by omega)]
      exact pathCmp_least key hz cs

theorem pathCmp_padTo {Cell : Type} (key : Cell → Nat) {z : Cell} (hz : key z = 0) :
    ∀ (xs ys : List Cell) (n : Nat), xs.length ≤ n → ys.length ≤ n →
      pathCmp key xs ys = (pathCmp key (padTo z n xs) (padTo z n ys)).then (compare xs.length ys.length)
  | [], [], n, _, _ => by
    rw [pathCmp_refl, pathCmp_refl]; rfl
  | [], y :: ys, n, _, hy => by
    have h1 := pathCmp_least key hz (padTo z n (y :: ys))
    rw [padTo_length hy] at h1
    have h2 : compare ([] : List Cell).length (y :: ys).length = .lt := by
      rw [Nat.compare_eq_lt]; simp
    rw [h2, show padTo z n [] = List.replicate n z by simp [padTo]]
    rw [pathCmp]
    revert h1
    cases pathCmp key (List.replicate n z) (padTo z n (y :: ys)) <;> simp
  | x :: xs, [], n, hx, _ => by
    have h1 := pathCmp_least key hz (padTo z n (x :: xs))
    rw [padTo_length hx, ← pathCmp_swap] at h1
    have h2 : compare (x :: xs).length ([] : List Cell).length = .gt := by
      rw [Nat.compare_eq_gt]; simp
    rw [h2, show padTo z n [] = List.replicate n z by simp [padTo]]
    rw [pathCmp]
    revert h1
    cases pathCmp key (padTo z n (x :: xs)) (List.replicate n z) <;> simp
  | x :: xs, y :: ys, 0, hx, _ => by simp at hx
  | x :: xs, y :: ys, n + 1, hx, hy => by
    have ih := pathCmp_padTo key hz xs ys n (by simpa using hx) (by simpa using hy)
    have e : ∀ (v : Cell) vs, padTo z (n + 1) (v :: vs) = v :: padTo z n vs := by
      intro v vs; simp [padTo]
    have hl : compare (x :: xs).length (y :: ys).length = compare xs.length ys.length := by
      simp only [List.length_cons, compare, compareOfLessAndEq, Nat.add_lt_add_iff_right, Nat.add_right_cancel_iff]
    rw [e, e, hl, pathCmp, pathCmp]
    by_cases h1 : key x < key y
    · rw [if_pos h1, if_pos h1]; rfl
    · rw [if_neg h1, if_neg h1]
      by_cases h2 : key y < key x
      · rw [if_pos h2, if_pos h2]; rfl
      · rw [if_neg h2, if_neg h2, ih]

theorem binary_replicate_false : ∀ n, binary (List.replicate n false) = 0
  | 0 => rfl
  | n + 1 => by rw [List.replicate_succ', binary_append, binary_replicate_false n]; rfl

theorem binary_padTo {Cell : Type} {z : Cell} {f : Cell → Bool} (hz : f z = false) (n : Nat) (cs : List Cell) :
    binary ((padTo z n cs).map f) = binary (cs.map f) * 2 ^ (n - cs.length) := by
  rw [padTo, List.map_append, List.map_replicate, hz, binary_append_list, binary_replicate_false, List.length_replicate,
    Nat.add_zero, Nat.mul_comm]

/-- Comparison of paths of any lengths from the order of the padded ones. -/
theorem pathCmp_corner {Cell : Type} {key : Cell → Nat} (hk : Function.Injective key) {z : Cell} (hz : key z = 0)
    {xs ys : List Cell} {n : Nat} (hx : xs.length ≤ n) (hy : ys.length ≤ n) {f g : Nat → Nat} {same : Prop}
    (hf : ∀ l (h : l < (padTo z n xs).length), key (padTo z n xs)[l] = f (n - 1 - l))
    (hg : ∀ l (h : l < (padTo z n ys).length), key (padTo z n ys)[l] = g (n - 1 - l))
    (hs : padTo z n xs = padTo z n ys ↔ same) :
    (pathCmp key xs ys = .lt ↔ ZLess n f g ∨ same ∧ xs.length < ys.length) ∧
    (pathCmp key xs ys = .gt ↔ ZLess n g f ∨ same ∧ ys.length < xs.length) ∧
    (pathCmp key xs ys = .eq ↔ same ∧ xs.length = ys.length) := by
  have lx : (padTo z n xs).length = n := padTo_length hx
  have ly : (padTo z n ys).length = n := padTo_length hy
  have z1 := pathCmp_zless lx ly hf hg
  have z2 := pathCmp_zless ly lx hg hf
  rw [← pathCmp_gt_iff_lt] at z2
  have z3 := pathCmp_eq_iff key hk (padTo z n xs) (padTo z n ys)
  rw [hs] at z3
  rw [pathCmp_padTo key hz xs ys n hx hy, ← z1, ← z2, ← z3]
  cases pathCmp key (padTo z n xs) (padTo z n ys) <;>
    simp [Ordering.then, Nat.compare_eq_lt, Nat.compare_eq_gt]

theorem nat_bit_binary {n : Nat} {Cell : Type} {v : Nat} {cs : List Cell} {f : Cell → Bool}
    (h : v = binary (cs.map f)) (hn : cs.length = n) (l : Nat) (hl : l < cs.length) :
    v / 2 ^ (n - 1 - l) % 2 = (f cs[l]).toNat := by
  have hv : v < 2 ^ n := by rw [h]; exact binary_map_lt f hn
  have e : (BitVec.ofNat n v).toNat = v := by rw [BitVec.toNat_ofNat, Nat.mod_eq_of_lt hv]
  have := bitAt_binary (v := BitVec.ofNat n v) (by rw [e]; exact h) hn l hl
  rw [bitAt, e] at this
  exact this

/-! ## Proofs -/

theorem orderByCorner_of2 {S : Type} [Storage S Quadrant] [BitStorage S Quadrant] [RustOrd (MortonIndex2D S)]
    (hc : c.Supported) {ok : MortonIndex2D S → Prop} (hwf : ∀ m, ok m → WF c m.storage)
    (hC : CmpLike c quadrantKey ok (cells2 (S := S))) : OrderByCorner2D c ok := by
  intro a b ha hb hda hdb o n hna hnb
  obtain ⟨ga, e1, e2, e3⟩ := toGridIndex_binary2 hc (hwf a ha) hda o
  obtain ⟨gb, f1, f2, f3⟩ := toGridIndex_binary2 hc (hwf b hb) hdb o
  have la : (path a.storage).length = depth a := path_length _
  have lb : (path b.storage).length = depth b := path_length _
  refine ⟨ga, gb, e1, f1, ?_⟩
  have corner : ∀ (v : BitVec c.ptrBits) (cs : List Quadrant) (d : Nat) (f : Quadrant → Bool), cs.length = d →
      v.toNat = binary (cs.map f) → f .Zero = false → lowest n d v = binary ((padTo .Zero n cs).map f) := by
    intro v cs d f hl hv hz
    rw [binary_padTo hz, lowest, hv, hl]
  have zx : quadrantX o .Zero = false := by cases o <;> rfl
  have zy : quadrantY o .Zero = false := by cases o <;> rfl
  have cax := corner _ _ _ _ la e2 zx
  have cay := corner _ _ _ _ la e3 zy
  have cbx := corner _ _ _ _ lb f2 zx
  have cby := corner _ _ _ _ lb f3 zy
  have ka : (path a.storage).length ≤ n := by rw [la]; exact hna
  have kb : (path b.storage).length ≤ n := by rw [lb]; exact hnb
  have pa : (padTo Quadrant.Zero n (path a.storage)).length = n := padTo_length ka
  have pb : (padTo Quadrant.Zero n (path b.storage)).length = n := padTo_length kb
  have keyOf : ∀ (cs : List Quadrant) (x y : Nat), x = binary (cs.map (quadrantX o)) → y = binary (cs.map (quadrantY o)) →
      cs.length = n → ∀ l (hl : l < cs.length), quadrantKey cs[l] = zDigitOf2D o x y (n - 1 - l) := by
    intro cs x y hx hy hn l hl
    rw [quadrantKey_coords o]
    cases o <;> simp only [zDigitOf2D, nat_bit_binary hx hn l hl, nat_bit_binary hy hn l hl]
  generalize lowest n (depth a) ga.x = ax at *
  generalize lowest n (depth a) ga.y = ay at *
  generalize lowest n (depth b) gb.x = bx at *
  generalize lowest n (depth b) gb.y = by' at *
  have same : padTo Quadrant.Zero n (path a.storage) = padTo Quadrant.Zero n (path b.storage) ↔ ax = bx ∧ ay = by' := by
    constructor
    · intro h
      rw [cax, cay, cbx, cby, h]
      exact ⟨rfl, rfl⟩
    · rintro ⟨hx, hy⟩
      apply path_of_coords2 (o := o)
      · exact binary_inj (by simp only [List.length_map, pa, pb]) (by rw [← cax, ← cbx, hx])
      · exact binary_inj (by simp only [List.length_map, pa, pb]) (by rw [← cay, ← cby, hy])
  obtain ⟨k1, k2, k3⟩ := pathCmp_corner (key := quadrantKey) quadrantKey_inj (z := .Zero) rfl ka kb (keyOf _ _ _ cax cay pa)
    (keyOf _ _ _ cbx cby pb) same
  rw [la, lb] at k1 k2 k3
  obtain ⟨h1, -⟩ := hC a b ha hb
  have h1' : RustOrd.cmp c a b = .ok (pathCmp quadrantKey (path a.storage) (path b.storage)) := h1
  refine ⟨?_, ?_, ?_, fun hx hy => ?_⟩
  · rw [h1', Except.ok.injEq]; exact k1
  · rw [h1', Except.ok.injEq]; exact k2
  · rw [h1', Except.ok.injEq]; exact k3
  · by_cases hs : (ax = bx ∧ ay = by') ∧ depth b < depth a
    · exact .inr hs
    · refine .inl ?_
      rw [hC.le_iff ha hb]
      change pathCmp quadrantKey (path a.storage) (path b.storage) ≠ .gt
      rw [ne_eq, k2]
      rintro (h | h)
      · have lt : ∀ (v : Nat) (cs : List Quadrant) (f : Quadrant → Bool), cs.length = n → v = binary (cs.map f) →
            (BitVec.ofNat n v).toNat = v ∧ v < 2 ^ n := by
          intro v cs f hl hv
          have : v < 2 ^ n := by rw [hv]; exact binary_map_lt f hl
          exact ⟨by rw [BitVec.toNat_ofNat, Nat.mod_eq_of_lt this], this⟩
        obtain ⟨q1, r1⟩ := lt _ _ _ pa cax
        obtain ⟨q2, r2⟩ := lt _ _ _ pa cay
        obtain ⟨q3, r3⟩ := lt _ _ _ pb cbx
        obtain ⟨q4, r4⟩ := lt _ _ _ pb cby
        refine not_zless_of_le2 (W := n) (o := o) (a := ⟨.ofNat n ax, .ofNat n ay⟩) (b := ⟨.ofNat n bx, .ofNat n by'⟩) (n := n)
          (by rw [q1]; exact r1) (by rw [q2]; exact r2) (by rw [q3]; exact r3) (by rw [q4]; exact r4)
          (by rw [q1, q3]; exact hx) (by rw [q2, q4]; exact hy) ?_
        have conv : ∀ x y, (BitVec.ofNat n x).toNat = x → (BitVec.ofNat n y).toNat = y →
            zDigit2D o (⟨.ofNat n x, .ofNat n y⟩ : Vector2 n) = zDigitOf2D o x y := by
          intro x y hx hy
          funext i
          cases o <;> simp only [zDigit2D, zDigitOf2D, bitAt, hx, hy]
        rw [conv _ _ q1 q2, conv _ _ q3 q4]
        exact h
      · exact hs h

theorem orderByCorner_of3 {S : Type} [Storage S Octant] [BitStorage S Octant] [RustOrd (MortonIndex3D S)]
    (hc : c.Supported) {ok : MortonIndex3D S → Prop} (hwf : ∀ m, ok m → WF c m.storage)
    (hC : CmpLike c octantKey ok (cells3 (S := S))) : OrderByCorner3D c ok := by
  intro a b ha hb hda hdb o n hna hnb
  obtain ⟨ga, e1, e2, e3, e4⟩ := toGridIndex_binary3 hc (hwf a ha) hda o
  obtain ⟨gb, f1, f2, f3, f4⟩ := toGridIndex_binary3 hc (hwf b hb) hdb o
  have la : (path a.storage).length = depth a := path_length _
  have lb : (path b.storage).length = depth b := path_length _
  refine ⟨ga, gb, e1, f1, ?_⟩
  have zax : ∀ ax, octantCoord o ax .Zero = false := by intro ax; cases o <;> cases ax <;> rfl
  have corner : ∀ (g : Vector3 c.ptrBits) (cs : List Octant) (d : Nat), cs.length = d → g.x.toNat = binary (cs.map (octantX o)) →
      g.y.toNat = binary (cs.map (octantY o)) → g.z.toNat = binary (cs.map (octantZ o)) → ∀ ax,
      lowest n d (axisOf g ax) = binary ((padTo .Zero n cs).map (octantCoord o ax)) := by
    intro g cs d hl hx hy hz ax
    rw [binary_padTo (zax ax), lowest, hl]
    cases ax
    · exact congrArg (· * _) hx
    · exact congrArg (· * _) hy
    · exact congrArg (· * _) hz
  have ca := corner ga _ _ la e2 e3 e4
  have cb := corner gb _ _ lb f2 f3 f4
  have ka : (path a.storage).length ≤ n := by rw [la]; exact hna
  have kb : (path b.storage).length ≤ n := by rw [lb]; exact hnb
  have pla : (padTo Octant.Zero n (path a.storage)).length = n := padTo_length ka
  have plb : (padTo Octant.Zero n (path b.storage)).length = n := padTo_length kb
  have keyOf : ∀ (cs : List Octant) (p : Axis → Nat), (∀ ax, p ax = binary (cs.map (octantCoord o ax))) →
      cs.length = n → ∀ l (hl : l < cs.length), octantKey cs[l] = zDigitOf3D o p (n - 1 - l) := by
    intro cs p hp hn l hl
    rw [octantKey_coords o, zDigitOf3D, nat_bit_binary (hp _) hn l hl, nat_bit_binary (hp _) hn l hl,
      nat_bit_binary (hp _) hn l hl]
  dsimp only
  generalize hpa : (fun ax => lowest n (depth a) (axisOf ga ax)) = pa
  generalize hpb : (fun ax => lowest n (depth b) (axisOf gb ax)) = pb
  have ca : ∀ ax, pa ax = binary ((padTo .Zero n (path a.storage)).map (octantCoord o ax)) := by
    rw [← hpa]; exact ca
  have cb : ∀ ax, pb ax = binary ((padTo .Zero n (path b.storage)).map (octantCoord o ax)) := by
    rw [← hpb]; exact cb
  simp only [show ∀ ax, lowest n (depth a) (axisOf ga ax) = pa ax from fun ax => congrFun hpa ax,
    show ∀ ax, lowest n (depth b) (axisOf gb ax) = pb ax from fun ax => congrFun hpb ax]
  have same : padTo Octant.Zero n (path a.storage) = padTo Octant.Zero n (path b.storage) ↔ ∀ ax, pa ax = pb ax := by
    constructor
    · intro h ax
      rw [ca, cb, h]
    · intro h
      have : ∀ ax, (padTo Octant.Zero n (path a.storage)).map (octantCoord o ax) =
          (padTo Octant.Zero n (path b.storage)).map (octantCoord o ax) := fun ax =>
        binary_inj (by simp only [List.length_map, pla, plb]) (by rw [← ca, ← cb, h])
      exact path_of_coords3 (o := o) (this .X) (this .Y) (this .Z)
  obtain ⟨k1, k2, k3⟩ := pathCmp_corner (key := octantKey) octantKey_inj (z := .Zero) rfl ka kb (keyOf _ _ ca pla)
    (keyOf _ _ cb plb) same
  rw [la, lb] at k1 k2 k3
  obtain ⟨h1, -⟩ := hC a b ha hb
  have h1' : RustOrd.cmp c a b = .ok (pathCmp octantKey (path a.storage) (path b.storage)) := h1
  refine ⟨?_, ?_, ?_, fun hle => ?_⟩
  · rw [h1', Except.ok.injEq]; exact k1
  · rw [h1', Except.ok.injEq]; exact k2
  · rw [h1', Except.ok.injEq]; exact k3
  · by_cases hs : (∀ ax, pa ax = pb ax) ∧ depth b < depth a
    · exact .inr hs
    · refine .inl ?_
      rw [hC.le_iff ha hb]
      change pathCmp octantKey (path a.storage) (path b.storage) ≠ .gt
      rw [ne_eq, k2]
      rintro (h | h)
      · have ra : ∀ ax, pa ax < 2 ^ n := fun ax => by rw [ca]; exact binary_map_lt _ pla
        have rb : ∀ ax, pb ax < 2 ^ n := fun ax => by rw [cb]; exact binary_map_lt _ plb
        have conv : ∀ p : Axis → Nat, (∀ ax, p ax < 2 ^ n) → ∀ ax,
            (axisOf (⟨.ofNat n (p .X), .ofNat n (p .Y), .ofNat n (p .Z)⟩ : Vector3 n) ax).toNat = p ax := by
          intro p hp ax
          cases ax <;> simp only [axisOf] <;> rw [BitVec.toNat_ofNat, Nat.mod_eq_of_lt (hp _)]
        have digit : ∀ p : Axis → Nat, (∀ ax, p ax < 2 ^ n) →
            zDigit3D o (⟨.ofNat n (p .X), .ofNat n (p .Y), .ofNat n (p .Z)⟩ : Vector3 n) = zDigitOf3D o p := by
          intro p hp
          funext i
          simp only [zDigit3D, zDigitOf3D, bitAt, conv p hp]
        refine not_zless_of_le3 (W := n) (o := o) (n := n) (a := ⟨.ofNat n (pa .X), .ofNat n (pa .Y), .ofNat n (pa .Z)⟩)
          (b := ⟨.ofNat n (pb .X), .ofNat n (pb .Y), .ofNat n (pb .Z)⟩) (fun ax => by rw [conv pa ra]; exact ra ax)
          (fun ax => by rw [conv pb rb]; exact rb ax) (fun ax => by rw [conv pa ra, conv pb rb]; exact hle ax) ?_
        rw [digit pa ra, digit pb rb]
        exact h
      · exact hs h

/-! ## C90 -/

theorem C90_order_by_corner_2D (hc : c.Supported) :
    (∀ w, OrderByCorner2D c (fun m => Reach2D c .all (.fixed w m))) ∧
    (∀ w, OrderByCorner2D c (fun m => Reach2D c .all (.static w m))) ∧
    OrderByCorner2D c (fun m => Reach2D c .all (.dynamic m)) :=
  ⟨fun _ => orderByCorner_of2 hc (fixed_wf2 hc) (fixed_cmp2 hc),
    fun _ => orderByCorner_of2 hc (static_wf2 hc) (static_cmp2 hc),
    orderByCorner_of2 hc (dynamic_wf2 hc) (dynamic_cmp2 hc)⟩

/-- Missing: fixed-depth indices with stray bits, for which it is false (`C90_refuted_stray_bits_3D`); their order is C64. -/
theorem C90_order_by_corner_3D_partial (hc : c.Supported) :
    (∀ w, OrderByCorner3D c (fun m => Reach3D c .canonical (.fixed w m))) ∧
    (∀ w, OrderByCorner3D c (fun m => Reach3D c .all (.static w m))) ∧
    OrderByCorner3D c (fun m => Reach3D c .all (.dynamic m)) :=
  ⟨fun _ => orderByCorner_of3 hc (fixed_wf3 hc) (fixed_cmp3 hc),
    fun _ => orderByCorner_of3 hc (static_wf3 hc) (static_cmp3 hc),
    orderByCorner_of3 hc (dynamic_wf3 hc) (dynamic_cmp3 hc)⟩

/-! ## Examples -/

/-- `[Three, One]` (depth 2) against `[Three, One, Two]`: in the grid of depth 4 the corners are (12, 8) and (12, 10). -/
example : ∃ ga gb, (⟨⟨[0xD0#8], 2⟩⟩ : MortonIndex2D DynamicStorage2D).toGridIndex x64 .XY = .ok ga ∧
    exD2.toGridIndex x64 .XY = .ok gb ∧ lowest 4 2 ga.x = 12 ∧ lowest 4 2 ga.y = 8 ∧ lowest 4 3 gb.x = 12 ∧
    lowest 4 3 gb.y = 10 ∧ RustOrd.le x64 (⟨⟨[0xD0#8], 2⟩⟩ : MortonIndex2D DynamicStorage2D) exD2 = .ok true := by
  have hr : Reach2D x64 .all (.dynamic ⟨⟨[0xD0#8], 2⟩⟩) :=
    .dynamicTryFromSlice (cs := [.Three, .One]) (by unfold Addressable; decide) (by rfl)
  obtain ⟨ga, gb, h1, h2, -, -, -, h3⟩ := (C90_order_by_corner_2D x64_supported).2.2 _ exD2 hr (exD2_reach _) (by decide) (by decide)
    .XY 4 (by decide) (by decide)
  have q1 : (⟨⟨[0xD0#8], 2⟩⟩ : MortonIndex2D DynamicStorage2D).toGridIndex x64 .XY = .ok ⟨3#64, 2#64⟩ := by decide +kernel
  have q2 : exD2.toGridIndex x64 .XY = .ok ⟨6#64, 5#64⟩ := by decide +kernel
  obtain rfl : ga = ⟨3#64, 2#64⟩ := by rw [h1] at q1; exact Except.ok.inj q1
  obtain rfl : gb = ⟨6#64, 5#64⟩ := by rw [h2] at q2; exact Except.ok.inj q2
  refine ⟨_, _, h1, h2, rfl, rfl, rfl, rfl, (h3 (by decide) (by decide)).resolve_right (by decide)⟩

/-- The root and `[Zero, Zero]` have the same corner in every grid; the root comes first. -/
example : let r : MortonIndex3D (StaticStorage3D 32) := ⟨⟨0#32, 0⟩⟩
    let m : MortonIndex3D (StaticStorage3D 32) := ⟨⟨0#32, 2⟩⟩
    RustOrd.cmp x64 r m = .ok .lt := by
  have hr : Reach3D x64 .all (.static 32 ⟨⟨0#32, 0⟩⟩) := .staticTryFromSlice (cs := []) (by decide) (by decide +kernel)
  have hm : Reach3D x64 .all (.static 32 ⟨⟨0#32, 2⟩⟩) :=
    .staticTryFromSlice (cs := [.Zero, .Zero]) (by decide) (by decide +kernel)
  obtain ⟨ga, gb, h1, h2, h3, -⟩ := (C90_order_by_corner_3D_partial x64_supported).2.1 32 _ _ hr hm (by decide) (by decide) .ZXY 10
    (by decide) (by decide)
  have q1 : (⟨⟨0#32, 0⟩⟩ : MortonIndex3D (StaticStorage3D 32)).toGridIndex x64 .ZXY = .ok ⟨0#64, 0#64, 0#64⟩ := by decide +kernel
  have q2 : (⟨⟨0#32, 2⟩⟩ : MortonIndex3D (StaticStorage3D 32)).toGridIndex x64 .ZXY = .ok ⟨0#64, 0#64, 0#64⟩ := by decide +kernel
  obtain rfl : ga = ⟨0#64, 0#64, 0#64⟩ := by rw [h1] at q1; exact Except.ok.inj q1
  obtain rfl : gb = ⟨0#64, 0#64, 0#64⟩ := by rw [h2] at q2; exact Except.ok.inj q2
  exact h3.mpr (.inr ⟨fun ax => by cases ax <;> rfl, by decide⟩)

/-- **C90** is false of 3D fixed-depth indices with stray bits: 0 and 1 as `u8` have the same corner and depth, but compare as
`Less`. -/
theorem C90_refuted_stray_bits_3D : ¬ OrderByCorner3D x64 (fun m => Reach3D x64 .all (.fixed 8 m)) := by
  intro h
  have hr : ∀ b : BitVec 8, Reach3D x64 .all (.fixed 8 (MortonIndex3D.fixedFromRawIndex b)) :=
    fun b => .fixedFromRaw (by decide) (.inl rfl)
  obtain ⟨ga, gb, h1, h2, -, -, h3, -⟩ := h _ _ (hr 0#8) (hr 1#8) (by decide) (by decide) .XYZ 2 (by decide) (by decide)
  have e : (MortonIndex3D.fixedFromRawIndex 0#8).toGridIndex x64 .XYZ =
    (MortonIndex3D.fixedFromRawIndex 1#8).toGridIndex x64 .XYZ := by decide +kernel
  rw [h1, h2] at e
  cases e
  exact absurd (h3.mpr ⟨fun _ => rfl, rfl⟩) (by decide +kernel)

end MortonRs
