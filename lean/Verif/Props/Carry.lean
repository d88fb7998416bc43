import Verif.Props.GridXor
import Verif.Props.Symmetries

/-! # Neighbours by carrying through the cells (C128)

A step along an axis is an addition of one: it flips the bit of the axis in the last cell and carries to the cell above. -/

namespace MortonRs

open BitStorage MortonIndex

variable {M Cell : Type} {c : Cfg}

/-! ## Statement -/

/-- Client code: from the last level on, flips the bit of the axis; stops at the first cell where the bit was 0 (up) or 1 (down).
`None` if there is no such cell. -/
def stepAcross [MortonIndex M Cell] (c : Cfg) (flip : Cell → Res Cell) (on : Cell → Bool) (up : Bool) : Nat → M → Res (Option M)
  | 0, _ => return none
  | level + 1, m => do
    let q ← getCellAtLevel c m level
    let m' ← setCellAtLevel c m level (← flip q)
    if on q != up then return some m' else stepAcross c flip on up level m'

/-- Client code: the bit of an axis in the number of a quadrant. -/
def axisBit2D : QuadrantOrdering → Bool → Nat
  | .XY, false => 1
  | .XY, true => 2
  | .YX, false => 2
  | .YX, true => 1

/-- Client code: `Quadrant::try_from(q.index() ^ bit).unwrap()`. -/
def crossQuadrant (bit : Nat) (q : Quadrant) : Res Quadrant :=
  match Quadrant.tryFromUsize (q.toUsize ^^^ bit) with
  | .ok r => .ok r
  | .error _ => .error .panic

/-- Client code: the neighbour of a node on an axis. -/
def neighbour2D {S : Type} [Storage S Quadrant] (c : Cfg) (o : QuadrantOrdering) (axis up : Bool) (m : MortonIndex2D S) :
    Res (Option (MortonIndex2D S)) :=
  stepAcross c (crossQuadrant (axisBit2D o axis)) (fun q => q.toUsize &&& axisBit2D o axis != 0) up (depth m) m

/-- The same in 3D. -/
def axisBit3D (o : OctantOrdering) (axis : Axis) : Nat :=
  if axis = (octantAxes o).1 then 1 else if axis = (octantAxes o).2.1 then 2 else 4

def crossOctant (bit : Nat) (q : Octant) : Res Octant :=
  match Octant.tryFromUsize (q.toUsize ^^^ bit) with
  | .ok r => .ok r
  | .error _ => .error .panic

def neighbour3D {S : Type} [Storage S Octant] (c : Cfg) (o : OctantOrdering) (axis : Axis) (up : Bool) (m : MortonIndex3D S) :
    Res (Option (MortonIndex3D S)) :=
  stepAcross c (crossOctant (axisBit3D o axis)) (fun q => q.toUsize &&& axisBit3D o axis != 0) up (depth m) m

/-- `n` is the last position of `2 ^ d` in a direction. -/
def AtEdge (up : Bool) (d n : Nat) : Prop := if up then n + 1 = 2 ^ d else n = 0

/-- `n'` is the next position in a direction. -/
def NextTo (up : Bool) (n n' : Nat) : Prop := if up then n' = n + 1 else n' + 1 = n

/-- C128, 2D. The neighbour is the node of the same depth at the next position on the axis; there is none exactly at the edge. At any
depth, also where grid positions do not fit `usize`: the step back leads to the same cells, and there is no neighbour exactly if every
cell lies on this side. -/
def StepsAcross2D (c : Cfg) {S : Type} [Storage S Quadrant] (ok : MortonIndex2D S → Prop) : Prop :=
  ∀ m, ok m → ∀ o axis up, ∃ r, neighbour2D c o axis up m = .ok r ∧
    (depth m ≤ c.ptrBits → ∃ g, m.toGridIndex c o = .ok g ∧
      (r = none ↔ AtEdge up (depth m) (coord2 g axis).toNat) ∧
      ∀ m', r = some m' → ok m' ∧ depth m' = depth m ∧ ∃ g', m'.toGridIndex c o = .ok g' ∧
        NextTo up (coord2 g axis).toNat (coord2 g' axis).toNat ∧ coord2 g' (!axis) = coord2 g (!axis)) ∧
    (∀ m', r = some m' → ∃ m'', neighbour2D c o axis (!up) m' = .ok (some m'') ∧ SameCells c m'' m) ∧
    (r = none ↔ ∀ l q, getCellAtLevel c m l = .ok q → quadrantCoord o axis q = up)

/-- C128, 3D. -/
def StepsAcross3D (c : Cfg) {S : Type} [Storage S Octant] (ok : MortonIndex3D S → Prop) : Prop :=
  ∀ m, ok m → ∀ o axis up, ∃ r, neighbour3D c o axis up m = .ok r ∧
    (depth m ≤ c.ptrBits → ∃ g, m.toGridIndex c o = .ok g ∧
      (r = none ↔ AtEdge up (depth m) (coord3 g axis).toNat) ∧
      ∀ m', r = some m' → ok m' ∧ depth m' = depth m ∧ ∃ g', m'.toGridIndex c o = .ok g' ∧
        NextTo up (coord3 g axis).toNat (coord3 g' axis).toNat ∧ ∀ other, other ≠ axis → coord3 g' other = coord3 g other) ∧
    (∀ m', r = some m' → ∃ m'', neighbour3D c o axis (!up) m' = .ok (some m'') ∧ SameCells c m'' m) ∧
    (r = none ↔ ∀ l q, getCellAtLevel c m l = .ok q → octantCoord o axis q = up)

/-! ## Proof -/

/-- What a step does to the first `l` cells. -/
theorem stepAcross_ok [MortonIndex M Cell] {ok : M → Prop} {p : M → List Cell} (h : ListLike c ok p id) {flip : Cell → Res Cell}
    {fl : Cell → Cell} {f : Cell → Bool} (hfl : ∀ q, flip q = .ok (fl q)) (hf : ∀ q, f (fl q) = !f q) (up : Bool) (bs : List Cell)
    (as : List Cell) : ∀ m, ok m → p m = as ++ bs → ∃ r, stepAcross c flip f up as.length m = .ok r ∧
      (r = none ↔ AtEdge up as.length (binary (as.map f))) ∧
      ∀ m', r = some m' → ok m' ∧ ∃ as', p m' = as' ++ bs ∧ as'.length = as.length ∧
        NextTo up (binary (as.map f)) (binary (as'.map f)) ∧ ∀ g : Cell → Bool, (∀ q, g (fl q) = g q) → as'.map g = as.map g := by
  induction as using snocInduction generalizing bs with
  | nil =>
    intro m hm hp
    refine ⟨none, rfl, ?_, fun m' e => by cases e⟩
    cases up <;> simp [AtEdge, binary]
  | append_singleton as q ih =>
    intro m hm hp
    have hl : as.length < (p m).length := by rw [hp]; simp
    have hq : (p m)[as.length] = q := by simp [hp]
    obtain ⟨m1, e1, o1, p1⟩ := h.set m hm as.length (fl q) hl
    have p1' : p m1 = as ++ fl q :: bs := by
      rw [p1, hp, List.append_assoc, List.set_append_right _ _ (Nat.le_refl _)]
      simp
    have lt := binary_lt (as.map f)
    rw [List.length_map] at lt
    rw [List.length_append, List.length_singleton, stepAcross, h.get m hm _ hl, ok_bind, hq, hfl, ok_bind, e1, ok_bind,
      List.map_append, List.map_singleton, binary_append]
    by_cases hs : (f q != up) = true
    · rw [if_pos hs]
      refine ⟨some m1, rfl, ?_, fun m' e => ?_⟩
      · constructor
        · intro e; cases e
        · intro e
          exfalso
          cases up <;> cases hfq : f q <;> simp [hfq] at hs <;>
            simp only [AtEdge, hfq, Bool.toNat_false, Bool.toNat_true, if_true, Bool.false_eq_true, if_false, Nat.pow_succ] at e <;> omega
      · cases e
        refine ⟨o1, as ++ [fl q], by rw [p1']; simp, by simp, ?_, fun g hg => by simp [hg]⟩
        rw [List.map_append, List.map_singleton, binary_append, hf]
        cases up <;> cases hfq : f q <;> simp [hfq] at hs <;> simp [NextTo]
    · rw [if_neg hs]
      obtain ⟨r, r1, r2, r3⟩ := ih (fl q :: bs) m1 o1 p1'
      refine ⟨r, r1, ?_, fun m' e => ?_⟩
      · rw [r2]
        cases up <;> cases hfq : f q <;> simp [hfq] at hs <;> simp [AtEdge, Nat.pow_succ] <;> omega
      · obtain ⟨o2, as', a1, a2, a3, a4⟩ := r3 m' e
        refine ⟨o2, as' ++ [fl q], by rw [a1]; simp, by simp [a2], ?_, fun g hg => by simp [hg, a4 g hg]⟩
        rw [List.map_append, List.map_singleton, binary_append, hf]
        cases up <;> cases hfq : f q <;> simp [hfq] at hs <;> simp [NextTo] at a3 ⊢ <;> omega

theorem atEdge_iff {f : Cell → Bool} {up : Bool} (as : List Cell) :
    AtEdge up as.length (binary (as.map f)) ↔ ∀ q, q ∈ as → f q = up := by
  induction as using snocInduction with
  | nil => cases up <;> simp [AtEdge, binary]
  | append_singleton as q ih =>
    have lt := binary_lt (as.map f)
    rw [List.length_map] at lt
    have e : (∀ x, x ∈ as ++ [q] → f x = up) ↔ (∀ x, x ∈ as → f x = up) ∧ f q = up := by
      simp only [List.mem_append, List.mem_singleton]
      exact ⟨fun h => ⟨fun x hx => h x (.inl hx), h q (.inr rfl)⟩, fun h x hx => hx.elim (h.1 x) (fun e => e ▸ h.2)⟩
    rw [e, ← ih, List.map_append, List.map_singleton, binary_append, List.length_append, List.length_singleton]
    cases up <;> cases f q <;> simp [AtEdge, Nat.pow_succ] <;> omega

theorem mem_iff_get [MortonIndex M Cell] {ok : M → Prop} {p : M → List Cell} (h : ListLike c ok p id) {m : M} (hm : ok m) {q : Cell} :
    q ∈ p m ↔ ∃ l, getCellAtLevel c m l = .ok q := by
  rw [List.mem_iff_getElem?]
  constructor
  · rintro ⟨l, e⟩
    exact ⟨l, by rw [h.get_eq hm, e]⟩
  · rintro ⟨l, e⟩
    refine ⟨l, ?_⟩
    rw [h.get_eq hm] at e
    cases hl : (p m)[l]? with
    | none => rw [hl] at e; cases e
    | some x => rw [hl] at e; cases e; rfl

/-- A whole step, and back. -/
theorem stepAcross_back [MortonIndex M Cell] {ok : M → Prop} {p : M → List Cell} (h : ListLike c ok p id) {flip : Cell → Res Cell}
    {fl : Cell → Cell} {f : Cell → Bool} (hfl : ∀ q, flip q = .ok (fl q)) (hf : ∀ q, f (fl q) = !f q)
    (hinj : ∀ as bs : List Cell, as.map f = bs.map f → (∀ g : Cell → Bool, (∀ q, g (fl q) = g q) → as.map g = bs.map g) → as = bs)
    (up : Bool) (m : M) (hm : ok m) : ∃ r, stepAcross c flip f up (depth m) m = .ok r ∧
      (r = none ↔ AtEdge up (depth m) (binary ((p m).map f))) ∧
      (∀ m', r = some m' → ok m' ∧ depth m' = depth m ∧ NextTo up (binary ((p m).map f)) (binary ((p m').map f)) ∧
        ∀ g : Cell → Bool, (∀ q, g (fl q) = g q) → (p m').map g = (p m).map g) ∧
      (∀ m', r = some m' → ∃ m'', stepAcross c flip f (!up) (depth m') m' = .ok (some m'') ∧ SameCells c m'' m) ∧
      (r = none ↔ ∀ l q, getCellAtLevel c m l = .ok q → f q = up) := by
  obtain ⟨r, r1, r2, r3⟩ := stepAcross_ok h hfl hf up [] (p m) m hm (by simp)
  rw [h.depth_eq m hm]
  have key : ∀ m', r = some m' → ok m' ∧ (p m').length = (p m).length ∧ NextTo up (binary ((p m).map f)) (binary ((p m').map f)) ∧
      ∀ g : Cell → Bool, (∀ q, g (fl q) = g q) → (p m').map g = (p m).map g := fun m' e => by
    obtain ⟨o2, as', a1, a2, a3, a4⟩ := r3 m' e
    rw [List.append_nil] at a1
    rw [a1]
    exact ⟨o2, a2, a3, a4⟩
  refine ⟨r, r1, r2, fun m' e => ?_, fun m' e => ?_, ?_⟩
  · obtain ⟨k1, k2, k3⟩ := key m' e
    exact ⟨k1, by rw [h.depth_eq m' k1, k2], k3⟩
  · obtain ⟨k1, k2, k3, k4⟩ := key m' e
    obtain ⟨s, s1, s2, s3⟩ := stepAcross_ok h hfl hf (!up) [] (p m') m' k1 (by simp)
    have lt := binary_lt ((p m).map f)
    rw [List.length_map] at lt
    cases s with
    | none =>
      have := s2.mp rfl
      rw [k2] at this
      exfalso
      cases up <;> simp [AtEdge, NextTo] at this k3 <;> omega
    | some m'' =>
      obtain ⟨o2, as', a1, a2, a3, a4⟩ := s3 m'' rfl
      rw [List.append_nil] at a1
      subst a1
      have e2 : p m'' = p m := by
        refine hinj _ _ (binary_inj (by simp [a2, k2]) ?_) fun g hg => by rw [a4 g hg, k4 g hg]
        cases up <;> simp [NextTo] at a3 k3 <;> omega
      exact ⟨m'', by rw [h.depth_eq m' k1]; exact s1, by rw [h.depth_eq m'' o2, h.depth_eq m hm, e2],
        fun l => by rw [h.get_eq o2, h.get_eq hm, e2]⟩
  · rw [r2, atEdge_iff]
    exact ⟨fun k l q e => k q ((mem_iff_get h hm).mpr ⟨l, e⟩), fun k q hq => by
      obtain ⟨l, e⟩ := (mem_iff_get h hm).mp hq
      exact k l q e⟩

/-- The quadrant on the other side of the axis. -/
def acrossQuadrant (o : QuadrantOrdering) (axis : Bool) (q : Quadrant) : Quadrant :=
  match crossQuadrant (axisBit2D o axis) q with
  | .ok r => r
  | .error _ => q

theorem crossQuadrant_ok (o : QuadrantOrdering) (axis : Bool) (q : Quadrant) :
    crossQuadrant (axisBit2D o axis) q = .ok (acrossQuadrant o axis q) := by
  cases o <;> cases axis <;> cases q <;> rfl

theorem quadrant_on (o : QuadrantOrdering) (axis : Bool) :
    (fun q : Quadrant => q.toUsize &&& axisBit2D o axis != 0) = quadrantCoord o axis := by
  funext q
  cases o <;> cases axis <;> cases q <;> rfl

theorem quadrant_across (o : QuadrantOrdering) (axis : Bool) (q : Quadrant) :
    quadrantCoord o axis (acrossQuadrant o axis q) = !quadrantCoord o axis q ∧
      quadrantCoord o (!axis) (acrossQuadrant o axis q) = quadrantCoord o (!axis) q := by
  cases o <;> cases axis <;> cases q <;> exact ⟨rfl, rfl⟩

theorem stepsAcross_of2 {S : Type} [Storage S Quadrant] [BitStorage S Quadrant] {ok : MortonIndex2D S → Prop}
    (hc : c.Supported) (hwf : ∀ m, ok m → WF c m.storage) (hL : ListLike c ok (cells2 (S := S)) id) : StepsAcross2D c ok := by
  intro m hm o axis up
  have hinj : ∀ as bs : List Quadrant, as.map (quadrantCoord o axis) = bs.map (quadrantCoord o axis) →
      (∀ g : Quadrant → Bool, (∀ q, g (acrossQuadrant o axis q) = g q) → as.map g = bs.map g) → as = bs := fun as bs h1 h2 => by
    have h3 := h2 (quadrantCoord o (!axis)) fun q => (quadrant_across o axis q).2
    apply (map_pair_inj (quadrant_axes_inj o)).mp
    cases axis
    · exact ⟨h1, h3⟩
    · exact ⟨h3, h1⟩
  obtain ⟨r, r1, r2, r3, r4⟩ := stepAcross_back hL (crossQuadrant_ok o axis) (fun q => (quadrant_across o axis q).1) hinj up m hm
  unfold neighbour2D
  rw [quadrant_on]
  refine ⟨r, r1, fun hd => ?_, r4.1, r4.2⟩
  obtain ⟨v, e1, e2, e3⟩ := toGridIndex_binary2 hc (hwf m hm) hd o
  have key : ∀ i, (coord2 v i).toNat = binary ((path m.storage).map (quadrantCoord o i)) := fun i => by
    cases i <;> assumption
  refine ⟨v, e1, by rw [key]; exact r2, fun m' e => ?_⟩
  obtain ⟨k1, k2, k3, k4⟩ := r3 m' e
  obtain ⟨v', f1, f2, f3⟩ := toGridIndex_binary2 hc (hwf m' k1) (Nat.le_trans (Nat.le_of_eq k2) hd) o
  have key' : ∀ i, (coord2 v' i).toNat = binary ((path m'.storage).map (quadrantCoord o i)) := fun i => by
    cases i <;> assumption
  refine ⟨k1, k2, v', f1, by rw [key, key']; exact k3, BitVec.eq_of_toNat_eq ?_⟩
  rw [key, key']
  exact congrArg _ (k4 _ fun q => (quadrant_across o axis q).2)

/-- The octant on the other side of the axis. -/
def acrossOctant (o : OctantOrdering) (axis : Axis) (q : Octant) : Octant :=
  match crossOctant (axisBit3D o axis) q with
  | .ok r => r
  | .error _ => q

theorem crossOctant_ok (o : OctantOrdering) (axis : Axis) (q : Octant) :
    crossOctant (axisBit3D o axis) q = .ok (acrossOctant o axis q) := by
  cases o <;> cases axis <;> cases q <;> rfl

theorem octant_on (o : OctantOrdering) (axis : Axis) :
    (fun q : Octant => q.toUsize &&& axisBit3D o axis != 0) = octantCoord o axis := by
  funext q
  cases o <;> cases axis <;> cases q <;> rfl

theorem octant_across (o : OctantOrdering) (axis other : Axis) (q : Octant) :
    octantCoord o other (acrossOctant o axis q) = (octantCoord o other q ^^ decide (other = axis)) := by
  cases o <;> cases axis <;> cases other <;> cases q <;> rfl

theorem stepsAcross_of3 {S : Type} [Storage S Octant] [BitStorage S Octant] {ok : MortonIndex3D S → Prop}
    (hc : c.Supported) (hwf : ∀ m, ok m → WF c m.storage) (hL : ListLike c ok (cells3 (S := S)) id) : StepsAcross3D c ok := by
  intro m hm o axis up
  have hother : ∀ other, other ≠ axis → ∀ q, octantCoord o other (acrossOctant o axis q) = octantCoord o other q :=
    fun other hne q => by rw [octant_across, decide_eq_false hne, Bool.xor_false]
  have hinj : ∀ as bs : List Octant, as.map (octantCoord o axis) = bs.map (octantCoord o axis) →
      (∀ g : Octant → Bool, (∀ q, g (acrossOctant o axis q) = g q) → as.map g = bs.map g) → as = bs := fun as bs h1 h2 => by
    have h3 : ∀ i, as.map (octantCoord o i) = bs.map (octantCoord o i) := fun i => by
      by_cases e : i = axis
      · rw [e]; exact h1
      · exact h2 _ (hother i e)
    exact (map_triple_inj (octant_axes_inj o)).mp ⟨⟨h3 .X, h3 .Y⟩, h3 .Z⟩
  obtain ⟨r, r1, r2, r3, r4⟩ := stepAcross_back hL (crossOctant_ok o axis)
    (fun q => by rw [octant_across, decide_eq_true rfl, Bool.xor_true]) hinj up m hm
  unfold neighbour3D
  rw [octant_on]
  refine ⟨r, r1, fun hd => ?_, r4.1, r4.2⟩
  obtain ⟨v, e1, e2, e3, e4⟩ := toGridIndex_binary3 hc (hwf m hm) hd o
  have key : ∀ i, (coord3 v i).toNat = binary ((path m.storage).map (octantCoord o i)) := fun i => by
    cases i <;> assumption
  refine ⟨v, e1, by rw [key]; exact r2, fun m' e => ?_⟩
  obtain ⟨k1, k2, k3, k4⟩ := r3 m' e
  obtain ⟨v', f1, f2, f3, f4⟩ := toGridIndex_binary3 hc (hwf m' k1) (Nat.le_trans (Nat.le_of_eq k2) hd) o
  have key' : ∀ i, (coord3 v' i).toNat = binary ((path m'.storage).map (octantCoord o i)) := fun i => by
    cases i <;> assumption
  refine ⟨k1, k2, v', f1, by rw [key, key']; exact k3, fun other hne => BitVec.eq_of_toNat_eq ?_⟩
  rw [key, key']
  exact congrArg _ (k4 _ (hother other hne))

/-! ## C128 -/

/-- C128 in 2D. -/
theorem C128_carry_2D (hc : c.Supported) :
    (∀ w, StepsAcross2D c (fun m : MortonIndex2D (FixedDepthStorage2D w) => Reach2D c .all (.fixed w m))) ∧
    (∀ w, StepsAcross2D c (fun m : MortonIndex2D (StaticStorage2D w) => Reach2D c .all (.static w m))) ∧
    (DynWrites c → StepsAcross2D c (fun m : MortonIndex2D DynamicStorage2D => Reach2D c .all (.dynamic m))) :=
  ⟨fun _ => stepsAcross_of2 hc (fixed_wf2 hc) (fixed_list2 hc), fun _ => stepsAcross_of2 hc (static_wf2 hc) (static_list2 hc),
    fun hw => stepsAcross_of2 hc (dynamic_wf2 hc) (dynamic_list2 hc hw)⟩

/-- C128 in 3D. -/
theorem C128_carry_3D (hc : c.Supported) :
    (∀ w, StepsAcross3D c (fun m : MortonIndex3D (FixedDepthStorage3D w) => Reach3D c .all (.fixed w m))) ∧
    (∀ w, StepsAcross3D c (fun m : MortonIndex3D (StaticStorage3D w) => Reach3D c .all (.static w m))) ∧
    (DynWrites c → StepsAcross3D c (fun m : MortonIndex3D DynamicStorage3D => Reach3D c .all (.dynamic m))) :=
  ⟨fun _ => stepsAcross_of3 hc (fixed_wf3 hc) (fixed_list3 hc), fun _ => stepsAcross_of3 hc (static_wf3 hc) (static_list3 hc),
    fun hw => stepsAcross_of3 hc (dynamic_wf3 hc) (dynamic_list3 hc hw)⟩

/-! ## Examples -/

/-- `[Three, One, Two]` (`exS2`) is at (6, 5). To (7, 5) no carry is needed; to (5, 5) one; to (6, 4) none; from (7, 5) there is no
step up. -/
example : neighbour2D x64 .XY false true exS2 = .ok (some ⟨⟨0xDC00#16, 3⟩⟩) ∧
    neighbour2D x64 .XY false false exS2 = .ok (some ⟨⟨0xCC00#16, 3⟩⟩) ∧
    neighbour2D x64 .XY true false exS2 = .ok (some ⟨⟨0xD000#16, 3⟩⟩) ∧
    neighbour2D x64 .XY false true ⟨⟨0xDC00#16, 3⟩⟩ = .ok (none : Option (MortonIndex2D (StaticStorage2D 16))) := by
  decide +kernel

example : ∃ m g, neighbour2D x64 .XY false false exS2 = .ok (some m) ∧ m.toGridIndex x64 .XY = .ok g ∧ g.x = 5 ∧ g.y = 5 := by
  obtain ⟨r, e, h1, -⟩ := (C128_carry_2D x64_supported).2.1 16 exS2 (exS2_reach _) .XY false false
  obtain ⟨g, g1, g2, g3⟩ := h1 (by decide)
  have e0 : exS2.toGridIndex x64 .XY = .ok ⟨6, 5⟩ := by decide +kernel
  rw [e0] at g1
  cases g1
  cases r with
  | none => exact absurd (g2.mp rfl) (by unfold AtEdge; decide)
  | some m =>
    obtain ⟨-, -, g', k1, k2, k3⟩ := g3 m rfl
    have k2' : (g'.x).toNat + 1 = 6 := k2
    have k3' : g'.y = 5 := k3
    exact ⟨m, g', e, k1, BitVec.eq_of_toNat_eq (by rw [show g'.x.toNat = 5 by omega]; rfl), k3'⟩

/-- The dynamic index `[Five, One, Six]` (`exD3`): a step back after a step leads to the same cells. -/
example : ∀ o axis up m, neighbour3D x64 o axis up exD3 = .ok (some m) →
    ∃ m', neighbour3D x64 o axis (!up) m = .ok (some m') ∧ SameCells x64 m' exD3 := by
  intro o axis up m e
  obtain ⟨r, e', -, h⟩ := (C128_carry_3D x64_supported).2.2 x64_writes exD3 (exD3_reach _) o axis up
  rw [e, Except.ok.injEq] at e'
  exact h.1 m e'.symm

end MortonRs
