import Verif.Props.Counting
import Verif.Props.Traverse

/-! # Walking a tree without a stack (C100) -/

namespace MortonRs

open MortonIndex VariableDepthMortonIndex

variable {M Cell : Type}

/-! ## Statements -/

/-- The next node that is not below `m`: the last cell is increased, in the parent if it is the last cell there is, and so on; `l` is the
depth of `m`. -/
def nextBeside [VariableDepthMortonIndex M Cell] [Dimension Cell] (c : Cfg) : Nat → M → Res (Option M)
  | 0, _ => .ok none
  | l + 1, m => do
    let v ← getCellAtLevel c m l
    match Dimension.tryFromUsize (Dimension.toUsize v + 1) with
    | .ok v' => return some (← setCellAtLevel c m l v')
    | .error _ =>
      match ← parent c m with
      | none => return none
      | some q => nextBeside c l q

/-- The next node of the tree with `L` levels, as a user would compute it: the first child, or at the lowest level the next node beside. -/
def nextInTree [VariableDepthMortonIndex M Cell] [Dimension Cell] (c : Cfg) (zero : Cell) (L : Nat) (m : M) : Res (Option M) :=
  if depth m < L then child c m zero else nextBeside c (depth m) m

/-- The nodes from `m` on, at most `n` more. -/
def treeFrom [VariableDepthMortonIndex M Cell] [Dimension Cell] (c : Cfg) (zero : Cell) (L : Nat) : Nat → M → Res (List M)
  | 0, m => .ok [m]
  | n + 1, m => do
    match ← nextInTree c zero L m with
    | none => return [m]
    | some m' => return m :: (← treeFrom c zero L n m')

/-- C100. The step leads from each node of the tree with `L` levels to the next one in the order, and to `None` at the last one. -/
def StepsThroughTree (c : Cfg) [VariableDepthMortonIndex M Cell] [Dimension Cell] [RustOrd M] (zero : Cell) (ok : M → Prop)
    (room : Nat → Prop) : Prop :=
  ∀ L m, room L → ok m → depth m ≤ L →
    (nextInTree c zero L m = .ok none ∧ ∀ k, ok k → depth k ≤ L → RustOrd.le c k m = .ok true) ∨
    (∃ n, nextInTree c zero L m = .ok (some n) ∧ ok n ∧ depth n ≤ L ∧ RustOrd.lt c m n = .ok true ∧
      ∀ k, ok k → depth k ≤ L → RustOrd.lt c m k = .ok true → RustOrd.le c n k = .ok true)

/-- C100. Stepping on from the root visits the nodes with at most `L` levels in increasing order and each once, all
`1 + b + … + b ^ L` of them. -/
def VisitsTree (c : Cfg) [VariableDepthMortonIndex M Cell] [Dimension Cell] [RustOrd M] (b : Nat) (zero : Cell) (ok : M → Prop)
    (room : Nat → Prop) : Prop :=
  ∀ L m, room L → ok m → depth m = 0 → ∀ n, b ^ (L + 1) ≤ n → ∃ ms, treeFrom c zero L n m = .ok ms ∧
    ms.length * (b - 1) + 1 = b ^ (L + 1) ∧ (∀ a ∈ ms, ok a ∧ depth a ≤ L) ∧
    ms.Pairwise (fun x y => RustOrd.lt c x y = .ok true) ∧
    ∀ k, ok k → depth k ≤ L → ∃ a ∈ ms, RustOrd.cmp c a k = .ok .eq

/-! ## The step on paths -/

/-- Number of nodes of a tree with `L` levels below the root. -/
def treeSize (b : Nat) : Nat → Nat
  | 0 => 1
  | L + 1 => 1 + b * treeSize b L

/-- Number of nodes behind a path in the tree with `L` levels. -/
def behind (b : Nat) (key : Cell → Nat) : Nat → List Cell → Nat
  | L, [] => treeSize b L - 1
  | 0, _ :: _ => 0
  | L + 1, v :: t => behind b key L t + (b - 1 - key v) * treeSize b L

/-- The next cell. -/
def nextCell [Dimension Cell] (v : Cell) : Option Cell := (Dimension.tryFromUsize (Dimension.toUsize v + 1)).toOption

/-- The step, from the first cell on. -/
def nextPath [Dimension Cell] (zero : Cell) : Nat → List Cell → Option (List Cell)
  | 0, _ => none
  | _ + 1, [] => some [zero]
  | L + 1, v :: t =>
    match nextPath zero L t with
    | some t' => some (v :: t')
    | none => (nextCell v).map ([·])

section paths
variable {b : Nat} {key : Cell → Nat} {zero : Cell}

theorem treeSize_pos (L : Nat) : 0 < treeSize b L := by
  cases L
  · exact Nat.one_pos
  · rw [treeSize]; omega

theorem treeSize_pow (hb : 0 < b) (L : Nat) : treeSize b L * (b - 1) + 1 = b ^ (L + 1) := by
  induction L with
  | zero => rw [treeSize]; simp; omega
  | succ L ih =>
    rw [Nat.pow_succ, ← ih, treeSize, Nat.add_mul, Nat.add_mul, Nat.mul_assoc, Nat.mul_comm b]
    omega

theorem behind_lt (hk : ∀ v, key v < b) : ∀ L (p : List Cell), p.length ≤ L → behind b key L p < treeSize b L := by
  intro L
  induction L with
  | zero =>
    intro p hp
    rw [List.eq_nil_of_length_eq_zero (by omega : p.length = 0), behind]
    exact Nat.sub_lt (treeSize_pos _) Nat.one_pos
  | succ L ih =>
    intro p hp
    cases p with
    | nil =>
      rw [behind]
      exact Nat.sub_lt (treeSize_pos _) Nat.one_pos
    | cons v t =>
      rw [List.length_cons] at hp
      have h1 := ih t (by omega)
      have h2 := hk v
      have h3 : (b - 1 - key v + 1) * treeSize b L ≤ b * treeSize b L := Nat.mul_le_mul_right _ (by omega)
      rw [Nat.add_mul, Nat.one_mul] at h3
      rw [behind, treeSize]
      omega

/-- The order of paths with at most `L` cells is that of the numbers of paths behind them. -/
theorem pathCmp_behind (hk : ∀ v, key v < b) : ∀ L (p q : List Cell), p.length ≤ L → q.length ≤ L →
    pathCmp key p q = compare (behind b key L q) (behind b key L p) := by
  intro L
  induction L with
  | zero =>
    intro p q hp hq
    rw [List.eq_nil_of_length_eq_zero (by omega : p.length = 0), List.eq_nil_of_length_eq_zero (by omega : q.length = 0),
      Nat.compare_eq_eq.mpr rfl]
    rfl
  | succ L ih =>
    intro p q hp hq
    have small : ∀ (v : Cell) t, (v :: t).length ≤ L + 1 → behind b key (L + 1) (v :: t) < behind b key (L + 1) ([] : List Cell) := by
      intro v t ht
      rw [List.length_cons] at ht
      have h1 := behind_lt hk L t (by omega)
      have h2 := hk v
      have h3 : (b - 1 - key v + 1) * treeSize b L ≤ b * treeSize b L := Nat.mul_le_mul_right _ (by omega)
      rw [Nat.add_mul, Nat.one_mul] at h3
      rw [behind, behind, treeSize]
      omega
    have apart : ∀ (v w : Cell) s t, (w :: t).length ≤ L + 1 → key v < key w →
        behind b key (L + 1) (w :: t) < behind b key (L + 1) (v :: s) := by
      intro v w s t ht hvw
      rw [List.length_cons] at ht
      have h1 := behind_lt hk L t (by omega)
      have h2 := hk w
      have h3 : (b - 1 - key w + 1) * treeSize b L ≤ (b - 1 - key v) * treeSize b L := Nat.mul_le_mul_right _ (by omega)
      rw [Nat.add_mul, Nat.one_mul] at h3
      rw [behind, behind]
      omega
    cases p with
    | nil =>
      cases q with
      | nil => rw [Nat.compare_eq_eq.mpr rfl]; rfl
      | cons w t => rw [Nat.compare_eq_lt.mpr (small w t hq)]; rfl
    | cons v s =>
      cases q with
      | nil => rw [Nat.compare_eq_gt.mpr (small v s hp)]; rfl
      | cons w t =>
        rw [pathCmp]
        split
        · rename_i h
          rw [Nat.compare_eq_lt.mpr (apart v w s t hq h)]
        · split
          · rename_i h
            rw [Nat.compare_eq_gt.mpr (apart w v t s hp h)]
          · have e : key v = key w := by omega
            rw [List.length_cons] at hp hq
            rw [ih s t (by omega) (by omega), behind, behind, e]
            generalize (b - 1 - key w) * treeSize b L = X
            generalize behind b key L s = A
            generalize behind b key L t = B
            rcases Nat.lt_trichotomy A B with h | h | h
            · rw [Nat.compare_eq_gt.mpr h, Nat.compare_eq_gt.mpr (by omega)]
            · rw [Nat.compare_eq_eq.mpr h.symm, Nat.compare_eq_eq.mpr (by omega)]
            · rw [Nat.compare_eq_lt.mpr h, Nat.compare_eq_lt.mpr (by omega)]

variable [Dimension Cell]

theorem Digits.nextCell (hd : Digits b key zero) (v : Cell) :
    (∃ v', MortonRs.nextCell v = some v' ∧ key v' = key v + 1) ∨ (MortonRs.nextCell v = none ∧ key v + 1 = b) := by
  rcases hd.next v with ⟨v', h1, h2⟩ | ⟨⟨e, h1⟩, h2⟩
  · exact .inl ⟨v', by rw [MortonRs.nextCell, h1]; rfl, h2⟩
  · exact .inr ⟨by rw [MortonRs.nextCell, h1]; rfl, h2⟩

/-- The step leaves one path fewer behind. -/
theorem nextPath_behind (hd : Digits b key zero) : ∀ L (p : List Cell), p.length ≤ L →
    (nextPath zero L p = none ∧ behind b key L p = 0) ∨
    (∃ n, nextPath zero L p = some n ∧ n.length ≤ L ∧ behind b key L n + 1 = behind b key L p) := by
  intro L
  induction L with
  | zero =>
    intro p hp
    rw [List.eq_nil_of_length_eq_zero (by omega : p.length = 0)]
    exact .inl ⟨rfl, rfl⟩
  | succ L ih =>
    intro p hp
    cases p with
    | nil =>
      right
      refine ⟨[zero], rfl, by simp, ?_⟩
      have hs := treeSize_pos (b := b) L
      have hb := hd.lt zero
      rw [behind, behind, behind, treeSize, hd.zero, Nat.sub_zero]
      have e : b * treeSize b L = (b - 1) * treeSize b L + treeSize b L := by
        rw [Nat.sub_mul, Nat.one_mul, Nat.sub_add_cancel]
        exact Nat.le_mul_of_pos_left _ (by omega)
      omega
    | cons v t =>
      rw [List.length_cons] at hp
      rw [nextPath]
      rcases ih t (by omega) with ⟨h1, h2⟩ | ⟨t', h1, h2, h3⟩
      · rw [h1]
        rcases hd.nextCell v with ⟨v', g1, g2⟩ | ⟨g1, g2⟩
        · right
          refine ⟨[v'], by rw [g1]; rfl, by simp, ?_⟩
          have hs := treeSize_pos (b := b) L
          have hb := hd.lt v'
          have e : b - 1 - key v = (b - 1 - key v') + 1 := by omega
          rw [behind, behind, behind, h2, e, Nat.add_mul, Nat.one_mul]
          omega
        · left
          refine ⟨by rw [g1]; rfl, ?_⟩
          rw [behind, h2, show b - 1 - key v = 0 by omega, Nat.zero_mul]
      · right
        refine ⟨v :: t', by rw [h1], by simp; omega, ?_⟩
        rw [behind, behind]
        omega

/-- The step at the lowest level, from the last cell on. -/
theorem nextPath_append (p : List Cell) (v : Cell) : nextPath zero (p.length + 1) (p ++ [v]) =
    match nextCell v with
    | some v' => some (p ++ [v'])
    | none => nextPath zero p.length p := by
  induction p with
  | nil =>
    change (nextCell v).map _ = _
    cases nextCell v <;> rfl
  | cons a p ih =>
    rw [List.length_cons, List.cons_append, nextPath, ih]
    cases nextCell v with
    | none => rfl
    | some v' => rfl

theorem nextPath_child : ∀ L (p : List Cell), p.length < L → nextPath zero L p = some (p ++ [zero]) := by
  intro L
  induction L with
  | zero => intro p h; omega
  | succ L ih =>
    intro p h
    cases p with
    | nil => rfl
    | cons v t =>
      rw [List.length_cons] at h
      rw [nextPath, ih t (by omega)]
      rfl

end paths

/-! ## The step on indices -/

section steps
variable [VariableDepthMortonIndex M Cell] [Dimension Cell] [RustOrd M] {c : Cfg} {ok : M → Prop} {p : M → List Cell} {b : Nat}
  {key : Cell → Nat} {zero : Cell} {room : M → Nat → Prop} {limit : Option Nat} {room' : Nat → Prop}

/-- The index with the path `o`, if there is one. -/
def Finds (ok : M → Prop) (p : M → List Cell) (r : Res (Option M)) : Option (List Cell) → Prop
  | none => r = .ok none
  | some xs => ∃ n, r = .ok (some n) ∧ ok n ∧ p n = xs

omit [RustOrd M] in
theorem nextBeside_ok (h : ListLike c ok p id) (hA : AncLike c ok p) (xs : List Cell) : ∀ m, ok m → p m = xs →
    Finds ok p (nextBeside c xs.length m) (nextPath zero xs.length xs) := by
  induction xs using snocInduction with
  | nil => intro m _ _; rfl
  | append_singleton xs v ih =>
    intro m hm e
    have hl : xs.length < (p m).length := by rw [e]; simp
    have hv : (p m)[xs.length] = v := by simp [e]
    rw [List.length_append, List.length_singleton, nextPath_append, nextBeside, h.get m hm _ hl, hv, nextCell]
    simp only [ok_bind]
    cases hn : Dimension.tryFromUsize (Cell := Cell) (Dimension.toUsize v + 1) with
    | ok v' =>
      obtain ⟨m', g1, g2, g3⟩ := h.set m hm xs.length v' hl
      refine ⟨m', ?_, g2, ?_⟩
      · simp only [g1, ok_bind]
        rfl
      · rw [g3, e]
        simp
    | error err =>
      obtain ⟨a, a1, a2, a3⟩ := hA.yes m hm ⟨1, by decide⟩ (by change 1 ≤ _; omega)
      have e' : p a = xs := by
        rw [a3, e]
        change (xs ++ [v]).take ((xs ++ [v]).length - 1) = xs
        simp
      simp only [parent_eq, a1, ok_bind]
      exact ih a a2 e'

omit [RustOrd M] in
theorem nextInTree_ok (h : ListLike c ok p id) (hA : AncLike c ok p) (hD : DescLike c ok p room limit)
    {L : Nat} (hr : ∀ m, ok m → (p m).length < L → room m 1 ∧ ¬ Exceeds limit ((p m).length + 1)) {m : M} (hm : ok m)
    (hl : (p m).length ≤ L) : Finds ok p (nextInTree c zero L m) (nextPath zero L (p m)) := by
  rw [nextInTree, h.depth_eq m hm]
  by_cases h1 : (p m).length < L
  · rw [if_pos h1, nextPath_child L _ h1]
    obtain ⟨r1, r2⟩ := hr m hm h1
    obtain ⟨a, a1, a2, a3⟩ := hD.yes m hm [zero] r1 r2
    exact ⟨a, a1, a2, a3⟩
  · rw [if_neg h1, show L = (p m).length by omega]
    exact nextBeside_ok h hA (p m) m hm rfl

omit [VariableDepthMortonIndex M Cell] [Dimension Cell] in
theorem lt_iff_behind (hk : ∀ v, key v < b) (hC : CmpLike c key ok p) {L : Nat} {x y : M} (hx : ok x) (hy : ok y)
    (h1 : (p x).length ≤ L) (h2 : (p y).length ≤ L) :
    RustOrd.lt c x y = .ok true ↔ behind b key L (p y) < behind b key L (p x) := by
  rw [RustOrd.lt, (hC x y hx hy).2, pathCmp_behind hk L _ _ h1 h2, ← Nat.compare_eq_lt]
  cases compare (behind b key L (p y)) (behind b key L (p x)) <;> simp [pure, Except.pure]

omit [VariableDepthMortonIndex M Cell] [Dimension Cell] in
theorem le_iff_behind (hk : ∀ v, key v < b) (hC : CmpLike c key ok p) {L : Nat} {x y : M} (hx : ok x) (hy : ok y)
    (h1 : (p x).length ≤ L) (h2 : (p y).length ≤ L) :
    RustOrd.le c x y = .ok true ↔ behind b key L (p y) ≤ behind b key L (p x) := by
  rw [RustOrd.le, (hC x y hx hy).2, pathCmp_behind hk L _ _ h1 h2, ← Nat.isLE_compare]
  cases compare (behind b key L (p y)) (behind b key L (p x)) <;> simp [pure, Except.pure]

omit [VariableDepthMortonIndex M Cell] [Dimension Cell] in
theorem cmp_iff_behind (hk : ∀ v, key v < b) (hC : CmpLike c key ok p) {L : Nat} {x y : M} (hx : ok x) (hy : ok y)
    (h1 : (p x).length ≤ L) (h2 : (p y).length ≤ L) :
    RustOrd.cmp c x y = .ok .eq ↔ behind b key L (p y) = behind b key L (p x) := by
  rw [(hC x y hx hy).1, pathCmp_behind hk L _ _ h1 h2, ← Nat.compare_eq_eq]
  constructor
  · exact fun h => Except.ok.inj h
  · exact fun h => by rw [h]

theorem stepsThroughTree_of (hd : Digits b key zero) (h : ListLike c ok p id) (hA : AncLike c ok p) (hD : DescLike c ok p room limit)
    (hC : CmpLike c key ok p) (hr : ∀ L, room' L → ∀ m, ok m → (p m).length < L → room m 1 ∧ ¬ Exceeds limit ((p m).length + 1)) :
    StepsThroughTree c zero ok room' := by
  intro L m hL hm hl
  rw [h.depth_eq m hm] at hl
  have hf := nextInTree_ok (zero := zero) h hA hD (hr L hL) hm hl
  rcases nextPath_behind hd L (p m) hl with ⟨h1, h2⟩ | ⟨xs, h1, h2, h3⟩
  · rw [h1] at hf
    refine .inl ⟨hf, fun k hk hkl => ?_⟩
    rw [h.depth_eq k hk] at hkl
    rw [le_iff_behind hd.lt hC hk hm hkl hl]
    omega
  · rw [h1] at hf
    obtain ⟨n, g1, g2, rfl⟩ := hf
    refine .inr ⟨n, g1, g2, by rw [h.depth_eq n g2]; exact h2, ?_, fun k hk hkl hlt => ?_⟩
    · rw [lt_iff_behind hd.lt hC hm g2 hl h2]
      omega
    · rw [h.depth_eq k hk] at hkl
      rw [lt_iff_behind hd.lt hC hm hk hl hkl] at hlt
      rw [le_iff_behind hd.lt hC g2 hk h2 hkl]
      omega

omit [RustOrd M] in
theorem treeFrom_ok (hd : Digits b key zero) (h : ListLike c ok p id) (hA : AncLike c ok p) (hD : DescLike c ok p room limit)
    {L : Nat} (hr : ∀ m, ok m → (p m).length < L → room m 1 ∧ ¬ Exceeds limit ((p m).length + 1)) (n : Nat) :
    ∀ m, ok m → (p m).length ≤ L → behind b key L (p m) ≤ n →
    ∃ ms, treeFrom c zero L n m = .ok ms ∧ ms.length = behind b key L (p m) + 1 ∧
      ∀ i (hi : i < ms.length), ok ms[i] ∧ (p ms[i]).length ≤ L ∧ behind b key L (p ms[i]) + i = behind b key L (p m) := by
  have single : ∀ m, ok m → (p m).length ≤ L → ∀ i (hi : i < [m].length), ok [m][i] ∧ (p [m][i]).length ≤ L ∧
      behind b key L (p [m][i]) + i = behind b key L (p m) := by
    intro m hm hl i hi
    have : i = 0 := by simpa using hi
    subst this
    exact ⟨hm, hl, rfl⟩
  induction n with
  | zero =>
    intro m hm hl hb
    refine ⟨[m], rfl, ?_, single m hm hl⟩
    rw [List.length_singleton]
    omega
  | succ n ih =>
    intro m hm hl hb
    have hf := nextInTree_ok (zero := zero) h hA hD hr hm hl
    rw [treeFrom]
    rcases nextPath_behind hd L (p m) hl with ⟨h1, h2⟩ | ⟨xs, h1, h2, h3⟩
    · rw [h1] at hf
      have hf' : nextInTree c zero L m = .ok none := hf
      refine ⟨[m], by simp only [hf', ok_bind]; rfl, ?_, single m hm hl⟩
      rw [List.length_singleton]
      omega
    · rw [h1] at hf
      obtain ⟨m', g1, g2, rfl⟩ := hf
      obtain ⟨ms, k1, k2, k3⟩ := ih m' g2 h2 (by omega)
      refine ⟨m :: ms, by simp only [g1, ok_bind, k1]; rfl, ?_, fun i hi => ?_⟩
      · rw [List.length_cons]
        omega
      · cases i with
        | zero => exact ⟨hm, hl, rfl⟩
        | succ i =>
          obtain ⟨j1, j2, j3⟩ := k3 i (by simpa using hi)
          rw [List.getElem_cons_succ]
          exact ⟨j1, j2, by omega⟩

theorem visitsTree_of (hd : Digits b key zero) (hb1 : 1 < b) (h : ListLike c ok p id) (hA : AncLike c ok p)
    (hD : DescLike c ok p room limit) (hC : CmpLike c key ok p)
    (hr : ∀ L, room' L → ∀ m, ok m → (p m).length < L → room m 1 ∧ ¬ Exceeds limit ((p m).length + 1)) :
    VisitsTree c b zero ok room' := by
  intro L m hL hm h0 n hn
  rw [h.depth_eq m hm] at h0
  have e0 : p m = [] := List.eq_nil_of_length_eq_zero h0
  have hs := treeSize_pow (b := b) (by omega) L
  have hpos := treeSize_pos (b := b) L
  have hle : treeSize b L ≤ treeSize b L * (b - 1) := Nat.le_mul_of_pos_right _ (by omega)
  have hB : behind b key L (p m) = treeSize b L - 1 := by
    rw [e0]
    cases L <;> rfl
  obtain ⟨ms, h1, h2, h3⟩ := treeFrom_ok hd h hA hD (hr L hL) n m hm (by omega) (by omega)
  rw [hB] at h2 h3
  have hlen : ms.length = treeSize b L := by omega
  refine ⟨ms, h1, by rw [hlen]; exact hs, fun a ha => ?_, ?_, fun k hk hkl => ?_⟩
  · obtain ⟨i, hi, rfl⟩ := List.getElem_of_mem ha
    obtain ⟨j1, j2, -⟩ := h3 i hi
    exact ⟨j1, by rw [h.depth_eq _ j1]; exact j2⟩
  · rw [List.pairwise_iff_getElem]
    intro i j hi hj hij
    obtain ⟨i1, i2, i3⟩ := h3 i hi
    obtain ⟨j1, j2, j3⟩ := h3 j hj
    rw [lt_iff_behind hd.lt hC i1 j1 i2 j2]
    omega
  · rw [h.depth_eq k hk] at hkl
    have hkb := behind_lt hd.lt L (p k) hkl
    have hi : treeSize b L - 1 - behind b key L (p k) < ms.length := by omega
    obtain ⟨j1, j2, j3⟩ := h3 _ hi
    refine ⟨_, List.getElem_mem hi, (cmp_iff_behind hd.lt hC j1 hk j2 hkl).mpr ?_⟩
    omega

end steps

/-! ## Theorems -/

variable {c : Cfg}

/-- C100. The tree has at most as many levels as fit; dynamic indices need working writes (C47). -/
theorem C100_stackless_2D (hc : c.Supported) :
    (∀ w, StepsThroughTree c .Zero (fun m => Reach2D c .all (.static w m)) (fun L => L ≤ w / 2) ∧
      VisitsTree c 4 .Zero (fun m => Reach2D c .all (.static w m)) (fun L => L ≤ w / 2)) ∧
    (DynWrites c → StepsThroughTree c .Zero (fun m => Reach2D c .all (.dynamic m)) (fun L => Addressable c (L * 2)) ∧
      VisitsTree c 4 .Zero (fun m => Reach2D c .all (.dynamic m)) (fun L => Addressable c (L * 2))) := by
  have hs : ∀ w L, L ≤ w / 2 → ∀ m, Reach2D c .all (.static w m) → (cells2 m).length < L →
      [Quadrant.Zero].length < 2 ^ (c.ptrBits - 1) ∧ ¬ Exceeds (some (w / 2)) ((cells2 m).length + 1) := by
    intro w L hL m _ hl
    refine ⟨one_lt_isize hc (x := Quadrant.Zero), ?_⟩
    change ¬ _ < _
    omega
  have hy : ∀ L, Addressable c (L * 2) → ∀ m : MortonIndex2D DynamicStorage2D, Reach2D c .all (.dynamic m) → (cells2 m).length < L →
      dynRoom2 c m 1 ∧ ¬ Exceeds none ((cells2 m).length + 1) := by
    intro L hL m hm hl
    rw [← (dynamic_list2' hc).depth_eq m hm] at hl
    refine ⟨?_, id⟩
    unfold dynRoom2 Addressable at *
    omega
  exact ⟨fun w => ⟨stepsThroughTree_of quadrant_digits (static_list2 hc) (static_anc2 hc) (static_desc2 hc) (static_cmp2 hc) (hs w),
      visitsTree_of quadrant_digits (by decide) (static_list2 hc) (static_anc2 hc) (static_desc2 hc) (static_cmp2 hc) (hs w)⟩,
    fun hw => ⟨stepsThroughTree_of quadrant_digits (dynamic_list2 hc hw) (dynamic_anc2 hc) (dynamic_desc2 hc hw) (dynamic_cmp2 hc) hy,
      visitsTree_of quadrant_digits (by decide) (dynamic_list2 hc hw) (dynamic_anc2 hc) (dynamic_desc2 hc hw) (dynamic_cmp2 hc) hy⟩⟩

/-- C100 in 3D. -/
theorem C100_stackless_3D (hc : c.Supported) :
    (∀ w, StepsThroughTree c .Zero (fun m => Reach3D c .all (.static w m)) (fun L => L ≤ w / 3) ∧
      VisitsTree c 8 .Zero (fun m => Reach3D c .all (.static w m)) (fun L => L ≤ w / 3)) ∧
    (DynWrites c → StepsThroughTree c .Zero (fun m => Reach3D c .all (.dynamic m)) (fun L => Addressable c (L * 3)) ∧
      VisitsTree c 8 .Zero (fun m => Reach3D c .all (.dynamic m)) (fun L => Addressable c (L * 3))) := by
  have hs : ∀ w L, L ≤ w / 3 → ∀ m, Reach3D c .all (.static w m) → (cells3 m).length < L →
      [Octant.Zero].length < 2 ^ (c.ptrBits - 1) ∧ ¬ Exceeds (some (w / 3)) ((cells3 m).length + 1) := by
    intro w L hL m _ hl
    refine ⟨one_lt_isize hc (x := Octant.Zero), ?_⟩
    change ¬ _ < _
    omega
  have hy : ∀ L, Addressable c (L * 3) → ∀ m : MortonIndex3D DynamicStorage3D, Reach3D c .all (.dynamic m) → (cells3 m).length < L →
      dynRoom3 c m 1 ∧ ¬ Exceeds none ((cells3 m).length + 1) := by
    intro L hL m hm hl
    rw [← (dynamic_list3' hc).depth_eq m hm] at hl
    refine ⟨?_, id⟩
    unfold dynRoom3 Addressable at *
    omega
  exact ⟨fun w => ⟨stepsThroughTree_of octant_digits (static_list3 hc) (static_anc3 hc) (static_desc3 hc) (static_cmp3 hc) (hs w),
      visitsTree_of octant_digits (by decide) (static_list3 hc) (static_anc3 hc) (static_desc3 hc) (static_cmp3 hc) (hs w)⟩,
    fun hw => ⟨stepsThroughTree_of octant_digits (dynamic_list3 hc hw) (dynamic_anc3 hc) (dynamic_desc3 hc hw) (dynamic_cmp3 hc) hy,
      visitsTree_of octant_digits (by decide) (dynamic_list3 hc hw) (dynamic_anc3 hc) (dynamic_desc3 hc hw) (dynamic_cmp3 hc) hy⟩⟩

/-! ## Examples -/

/-- In the tree with two levels, `[One, Three]` is followed by `[Two]`, and this by `[Two, Zero]`. -/
example : nextInTree x64 Quadrant.Zero 2 (⟨⟨0x7000#16, 2⟩⟩ : MortonIndex2D (StaticStorage2D 16)) = .ok (some ⟨⟨0x8000#16, 1⟩⟩) ∧
    nextInTree x64 Quadrant.Zero 2 (⟨⟨0x8000#16, 1⟩⟩ : MortonIndex2D (StaticStorage2D 16)) = .ok (some ⟨⟨0x8000#16, 2⟩⟩) := by
  decide +kernel

/-- The 21 nodes of the tree with two levels. -/
example : ∃ ms, treeFrom x64 Quadrant.Zero 2 64 (⟨⟨0#16, 0⟩⟩ : MortonIndex2D (StaticStorage2D 16)) = .ok ms ∧ ms.length = 21 := by
  obtain ⟨ms, h1, h2, -⟩ := ((C100_stackless_2D x64_supported).1 16).2 2 ⟨⟨0#16, 0⟩⟩ (by decide)
    (.staticTryFromSlice (w := 16) (cs := []) (by decide) (by decide +kernel)) rfl 64 (by decide)
  exact ⟨ms, h1, by omega⟩

/-- The step from the dynamic octree node of the examples in a tree with five levels. -/
example : ∃ r, nextInTree x64 Octant.Zero 5 exD3 = .ok r := by
  rcases ((C100_stackless_3D x64_supported).2 x64_writes).1 5 exD3 (by unfold Addressable; decide) (exD3_reach _) (by decide) with
    ⟨h, -⟩ | ⟨n, h, -⟩
  · exact ⟨_, h⟩
  · exact ⟨_, h⟩

end MortonRs
