import Verif.Props.Grid2D
import Verif.Props.Strings

/-! # Grid positions of indices deeper than the pointer width (C20), 2D -/

namespace MortonRs

open BitStorage MortonIndex

variable {c : Cfg}

/-- One step of the loop of `to_grid_index` on one coordinate, with a wrapping shift. -/
theorem or_shift_wrap {W n k : Nat} {v t : BitVec W} {f : Nat → Bool} (hW : 0 < W)
    (hv : ∀ i, i < W → (v.getLsbD i = true ↔ ∃ l, l < k ∧ (n - 1 - l) % W = i ∧ f l = true))
    (ht : ∀ i, t.getLsbD i = (decide (i = 0) && f k)) :
    ∀ i, i < W → ((v ||| t <<< ((n - 1 - k) % W)).getLsbD i = true ↔
      ∃ l, l < k + 1 ∧ (n - 1 - l) % W = i ∧ f l = true) := by
  intro i hi
  have hs := Nat.mod_lt (n - 1 - k) hW
  rw [BitVec.getLsbD_or, Bool.or_eq_true, hv i hi, BitVec.getLsbD_shiftLeft, ht, decide_eq_true hi, Bool.true_and]
  simp only [Bool.and_eq_true, Bool.not_eq_true', decide_eq_false_iff_not, decide_eq_true_eq]
  constructor
  · rintro (⟨l, h1, h2⟩ | ⟨h1, h2, h3⟩)
    · exact ⟨l, by omega, h2⟩
    · exact ⟨k, by omega, by omega, h3⟩
  · rintro ⟨l, h1, h2, h3⟩
    by_cases hl : l < k
    · exact .inl ⟨l, hl, h2, h3⟩
    · have : l = k := by omega
      subst this
      exact .inr ⟨by omega, by omega, h3⟩

theorem shl_release {w : Nat} (hr : c.overflowChecks = false) (x : BitVec w) (s : Nat) :
    shl c x s = .ok (x <<< (s % w)) := by
  unfold shl
  split
  · rename_i h; rw [Nat.mod_eq_of_lt h]
  · simp [hr]

theorem shl_overflow {w : Nat} (hd : c.overflowChecks = true) (x : BitVec w) {s : Nat} (h : w ≤ s) :
    shl c x s = .error .overflow := by
  unfold shl
  rw [if_neg (by omega), hd]
  rfl

theorem forRange_fails {σ : Type} {n : Nat} {init : σ} {body : Nat → σ → Res σ} {e : Fault} (hn : 0 < n)
    (h : body 0 init = .error e) : forRange 0 n init body = .error e := by
  unfold forRange
  obtain ⟨k, rfl⟩ : ∃ k, n = k + 1 := ⟨n - 1, by omega⟩
  rw [Nat.sub_zero, List.range'_succ, List.foldlM_cons, h]
  rfl

/-- Coordinate bit `i` is the disjunction of the coordinates of the levels whose distance from the deepest one is `i`
modulo the pointer width. -/
def WrappedCoord {C : Type} (W : Nat) (f : C → Bool) (cs : List C) (x : Nat) : Prop :=
  ∀ i, i < W → (x.testBit i = true ↔ ∃ l, ∃ h : l < cs.length, (cs.length - 1 - l) % W = i ∧ f cs[l] = true)

/-- `to_grid_index` of an index of any of the 2D types. -/
def AnyIndex2D.grid (c : Cfg) (o : QuadrantOrdering) : AnyIndex2D → Res (Vector2 c.ptrBits)
  | .fixed _ m => m.toGridIndex c o
  | .static _ m => m.toGridIndex c o
  | .dynamic m => m.toGridIndex c o

section
variable {S : Type} [Storage S Quadrant] [BitStorage S Quadrant]

theorem toGridIndex_release2 (hc : c.Supported) (hr : c.overflowChecks = false) {m : MortonIndex2D S}
    (h : WF c m.storage) (o : QuadrantOrdering) :
    ∃ v, m.toGridIndex c o = .ok v ∧ WrappedCoord c.ptrBits (quadrantX o) (path m.storage) v.x.toNat ∧
      WrappedCoord c.ptrBits (quadrantY o) (path m.storage) v.y.toNat := by
  have hW : 16 ≤ c.ptrBits := by rcases hc with h | h | h <;> omega
  let n := Storage.depth m.storage
  obtain ⟨v, h1, h2, h3⟩ := forRange_invariant (a := 0) (b := n) (init := ⟨0#c.ptrBits, 0#c.ptrBits⟩)
    (body := fun level index => do
      let quadrant ← m.getCellAtLevelUnchecked c level
      let quadrant_index := o.toIndex c.ptrBits quadrant
      let shift ← usub c (← usub c m.depth level) 1
      let x := index.x ||| (← shl c quadrant_index.x shift)
      let y := index.y ||| (← shl c quadrant_index.y shift)
      return (⟨x, y⟩ : Vector2 c.ptrBits))
    (fun k v => (∀ i, i < c.ptrBits → (v.x.getLsbD i = true ↔
        ∃ l, l < k ∧ (n - 1 - l) % c.ptrBits = i ∧ quadrantX o (slot m.storage l) = true)) ∧
      (∀ i, i < c.ptrBits → (v.y.getLsbD i = true ↔
        ∃ l, l < k ∧ (n - 1 - l) % c.ptrBits = i ∧ quadrantY o (slot m.storage l) = true))) (by omega)
    (by constructor <;> intro i _ <;> simp)
    (by
      rintro k v - hk ⟨gx, gy⟩
      have a1 : k ≤ m.depth := by change k ≤ n; omega
      have a2 : 1 ≤ m.depth - k := by change 1 ≤ n - k; omega
      have a3 : m.depth - k - 1 = n - 1 - k := by change n - k - 1 = _; omega
      have hb := MortonIndex2D.toIndex_bit (W := c.ptrBits) o (slot m.storage k)
      refine ⟨⟨v.x ||| (o.toIndex c.ptrBits (slot m.storage k)).x <<< ((n - 1 - k) % c.ptrBits),
        v.y ||| (o.toIndex c.ptrBits (slot m.storage k)).y <<< ((n - 1 - k) % c.ptrBits)⟩, ?_, ?_, ?_⟩
      · simp only [MortonIndex2D.getCellAtLevelUnchecked, get_slot hc h (show k < Storage.depth m.storage from hk), ok_bind,
          usub_ok a1, usub_ok a2, a3, shl_release hr, pure_eq_ok]
      · refine or_shift_wrap (by omega) gx fun i => ?_
        rw [(hb i).1, quadrantX_eq (by omega)]
      · refine or_shift_wrap (by omega) gy fun i => ?_
        rw [(hb i).2, quadrantY_eq (by omega)])
  have hl : (path m.storage).length = n := path_length _
  refine ⟨v, h1, fun i hi => ?_, fun i hi => ?_⟩
  · rw [← BitVec.getLsbD, h2 i hi]
    constructor
    · rintro ⟨l, g1, g2, g3⟩
      exact ⟨l, by rw [hl]; exact g1, by rw [hl]; exact g2, by rw [path_getElem]; exact g3⟩
    · rintro ⟨l, g1, g2, g3⟩
      exact ⟨l, by rw [hl] at g1; exact g1, by rw [hl] at g2; exact g2, by rw [path_getElem] at g3; exact g3⟩
  · rw [← BitVec.getLsbD, h3 i hi]
    constructor
    · rintro ⟨l, g1, g2, g3⟩
      exact ⟨l, by rw [hl]; exact g1, by rw [hl]; exact g2, by rw [path_getElem]; exact g3⟩
    · rintro ⟨l, g1, g2, g3⟩
      exact ⟨l, by rw [hl] at g1; exact g1, by rw [hl] at g2; exact g2, by rw [path_getElem] at g3; exact g3⟩

theorem toGridIndex_overflow2 (hc : c.Supported) (hd : c.overflowChecks = true) {m : MortonIndex2D S}
    (h : WF c m.storage) (o : QuadrantOrdering) (hdeep : c.ptrBits < Storage.depth m.storage) :
    m.toGridIndex c o = .error .overflow := by
  have a1 : 0 ≤ m.depth := Nat.zero_le _
  have a2 : 1 ≤ m.depth - 0 := by change 1 ≤ Storage.depth m.storage - 0; omega
  have a3 : c.ptrBits ≤ m.depth - 0 - 1 := by change c.ptrBits ≤ Storage.depth m.storage - 0 - 1; omega
  unfold MortonIndex2D.toGridIndex
  apply forRange_fails (by omega)
  simp only [MortonIndex2D.getCellAtLevelUnchecked, get_slot hc h (show 0 < Storage.depth m.storage by omega), ok_bind,
    usub_ok a1, usub_ok a2, shl_overflow hd _ a3]
  rfl

theorem deep_grid2 (hc : c.Supported) {m : MortonIndex2D S} (h : WF c m.storage) (o : QuadrantOrdering) :
    ∃ cs, Shows c m cs ∧
      (cs.length ≤ c.ptrBits → ∃ v, m.toGridIndex c o = .ok v ∧ v.x.toNat = binary (cs.map (quadrantX o)) ∧
        v.y.toNat = binary (cs.map (quadrantY o))) ∧
      (c.ptrBits < cs.length → c.overflowChecks = true →
        m.toGridIndex c o = .error .overflow ∧ MortonIndex.toString c m .GridIndex = .error .overflow) ∧
      (c.overflowChecks = false → ∃ v, m.toGridIndex c o = .ok v ∧ WrappedCoord c.ptrBits (quadrantX o) cs v.x.toNat ∧
        WrappedCoord c.ptrBits (quadrantY o) cs v.y.toNat) := by
  refine ⟨path m.storage, MortonIndex2D.shows_path hc h, fun hl => ?_, fun hl hd => ⟨?_, ?_⟩, fun hr => ?_⟩
  · rw [path_length] at hl
    exact toGridIndex_binary2 hc h hl o
  · rw [path_length] at hl
    exact toGridIndex_overflow2 hc hd h o hl
  · rw [path_length] at hl
    change MortonIndex2D.toString c m .GridIndex = _
    unfold MortonIndex2D.toString
    simp only
    rw [toGridIndex_overflow2 hc hd h _ hl]
    rfl
  · exact toGridIndex_release2 hc hr h o

end

/-- **C20**, what is true of it: up to the pointer width the position is exact. Beyond it, every index panics in builds with
overflow checks, both in `to_grid_index` and in `to_string(GridIndex)`; without overflow checks the levels wrap around, as
`WrappedCoord` says exactly. So no level is lost exactly for depths up to the pointer width (`C20_refuted_2D`). -/
theorem C20_deep_grid_2D_partial (hc : c.Supported) (i : AnyIndex2D) (hi : Reach2D c .all i) (o : QuadrantOrdering) :
    ∃ cs, i.Shows c cs ∧
      (cs.length ≤ c.ptrBits → ∃ v, i.grid c o = .ok v ∧ v.x.toNat = binary (cs.map (quadrantX o)) ∧
        v.y.toNat = binary (cs.map (quadrantY o))) ∧
      (c.ptrBits < cs.length → c.overflowChecks = true →
        i.grid c o = .error .overflow ∧ i.name c .GridIndex = .error .overflow) ∧
      (c.overflowChecks = false → ∃ v, i.grid c o = .ok v ∧ WrappedCoord c.ptrBits (quadrantX o) cs v.x.toNat ∧
        WrappedCoord c.ptrBits (quadrantY o) cs v.y.toNat) := by
  cases i with
  | fixed w m => exact deep_grid2 hc (fixed_wf2 hc m hi) o
  | static w m => exact deep_grid2 hc (static_wf2 hc m hi) o
  | dynamic m => exact deep_grid2 hc (dynamic_wf2 hc m hi) o

/-- A depth beyond the pointer width: 65 levels on a 64-bit target. -/
example : (MortonIndex2D.dynamicZeroed 65).toGridIndex x64 .XY = .error .overflow := by
  obtain ⟨cs, h1, -, h2, -⟩ := C20_deep_grid_2D_partial x64_supported (.dynamic (MortonIndex2D.dynamicZeroed 65))
    (.dynamicZeroed (by unfold Addressable; decide) (.inl rfl)) .XY
  exact (h2 (by rw [← h1.1]; decide) rfl).1

/-- A path of `d` levels that is `Three` at level `k` and `Zero` elsewhere. -/
def spike2 (d k : Nat) : List Quadrant := (List.range d).map fun l => if l = k then .Three else .Zero

theorem wrapped_spike2 {W d k : Nat} {f : Quadrant → Bool} (hk : k < d) (h0 : f .Zero = false) (h3 : f .Three = true)
    {x : Nat} (h : WrappedCoord W f (spike2 d k) x) :
    ∀ i, i < W → (x.testBit i = true ↔ (d - 1 - k) % W = i) := by
  intro i hi
  rw [h i hi]
  have hl : (spike2 d k).length = d := by simp [spike2]
  constructor
  · rintro ⟨l, g1, g2, g3⟩
    simp only [spike2, List.getElem_map, List.getElem_range] at g3
    by_cases hlk : l = k
    · subst hlk; rw [hl] at g2; exact g2
    · rw [if_neg hlk, h0] at g3; cases g3
  · intro g
    refine ⟨k, by omega, by rw [hl]; exact g, ?_⟩
    simp only [spike2, List.getElem_map, List.getElem_range, if_true, h3]

/-- **C20** is false at every depth beyond the pointer width. With overflow checks every index panics (the theorem above);
without, there are two dynamic indices of the same depth with different cells and the same position and grid string. -/
theorem C20_refuted_2D (hc : c.Supported) (hw : DynWrites c) (hr : c.overflowChecks = false) (d : Nat)
    (hd : c.ptrBits < d) (ha : Addressable c (d * 2)) :
    ∃ (a b : MortonIndex2D DynamicStorage2D) (as bs : List Quadrant), Reach2D c .canonical (.dynamic a) ∧
      Reach2D c .canonical (.dynamic b) ∧ Shows c a as ∧ Shows c b bs ∧ as.length = d ∧ bs.length = d ∧ as ≠ bs ∧
      (∀ o, a.toGridIndex c o = b.toGridIndex c o) ∧
      MortonIndex.toString c a .GridIndex = MortonIndex.toString c b .GridIndex := by
  have hl : ∀ k, (spike2 d k).length = d := fun k => by simp [spike2]
  obtain ⟨a, a1, -, a3, a4, a5⟩ := MortonIndex2D.dynamic_tryFrom (cs := spike2 d 0) hc (by rw [hl]; exact ha)
  obtain ⟨b, b1, -, b3, b4, b5⟩ := MortonIndex2D.dynamic_tryFrom (cs := spike2 d c.ptrBits) hc (by rw [hl]; exact ha)
  have ra : Reach2D c .canonical (.dynamic a) := .dynamicTryFromSlice (by rw [hl]; exact ha) a1
  have rb : Reach2D c .canonical (.dynamic b) := .dynamicTryFromSlice (by rw [hl]; exact ha) b1
  have pos : 0 < c.ptrBits := by rcases hc with h | h | h <;> omega
  have hgrid : ∀ o, a.toGridIndex c o = b.toGridIndex c o := by
    intro o
    obtain ⟨v, v1, v2, v3⟩ := toGridIndex_release2 hc hr (dynamic_wf2 hc a ra) o
    obtain ⟨u, u1, u2, u3⟩ := toGridIndex_release2 hc hr (dynamic_wf2 hc b rb) o
    rw [a5 hw] at v2 v3
    rw [b5 hw] at u2 u3
    rw [v1, u1]
    have hmod : (d - 1 - 0) % c.ptrBits = (d - 1 - c.ptrBits) % c.ptrBits := by
      rw [Nat.sub_zero, Nat.mod_eq_sub_mod (by omega)]
    have key : ∀ (f : Quadrant → Bool) (x y : BitVec c.ptrBits), f .Zero = false → f .Three = true →
        WrappedCoord c.ptrBits f (spike2 d 0) x.toNat → WrappedCoord c.ptrBits f (spike2 d c.ptrBits) y.toNat → x = y := by
      intro f x y h0 h3 hx hy
      apply BitVec.eq_of_getLsbD_eq
      intro i hi
      rw [Bool.eq_iff_iff, BitVec.getLsbD, BitVec.getLsbD, wrapped_spike2 (by omega) h0 h3 hx i hi,
        wrapped_spike2 (by omega) h0 h3 hy i hi, hmod]
    have ex := key (quadrantX o) v.x u.x (by cases o <;> rfl) (by cases o <;> rfl) v2 u2
    have ey := key (quadrantY o) v.y u.y (by cases o <;> rfl) (by cases o <;> rfl) v3 u3
    cases v; cases u; cases ex; cases ey; rfl
  refine ⟨a, b, spike2 d 0, spike2 d c.ptrBits, ra, rb, ?_, ?_, hl _, hl _, ?_, hgrid, ?_⟩
  · have := MortonIndex2D.shows_path hc (dynamic_wf2 hc a ra)
    rwa [a5 hw] at this
  · have := MortonIndex2D.shows_path hc (dynamic_wf2 hc b rb)
    rwa [b5 hw] at this
  · intro h
    have h0 : (spike2 d 0)[0]'(by rw [hl]; omega) = (spike2 d c.ptrBits)[0]'(by rw [hl]; omega) := by
      congr 1
    simp only [spike2, List.getElem_map, List.getElem_range] at h0
    rw [if_pos trivial, if_neg (by omega)] at h0
    cases h0
  · change MortonIndex2D.toString c a .GridIndex = MortonIndex2D.toString c b .GridIndex
    unfold MortonIndex2D.toString
    simp only
    rw [hgrid, show a.depth = b.depth by change a.storage.depth = b.storage.depth; rw [a3, b3, hl, hl]]

example : ∃ (a b : MortonIndex2D DynamicStorage2D) (as bs : List Quadrant), Reach2D x32r .canonical (.dynamic a) ∧
    Reach2D x32r .canonical (.dynamic b) ∧ Shows x32r a as ∧ Shows x32r b bs ∧ as.length = 33 ∧ bs.length = 33 ∧ as ≠ bs ∧
    (∀ o, a.toGridIndex x32r o = b.toGridIndex x32r o) ∧
    MortonIndex.toString x32r a .GridIndex = MortonIndex.toString x32r b .GridIndex :=
  C20_refuted_2D x32r_supported x32r_writes rfl 33 (by decide) (by unfold Addressable; decide)

end MortonRs
