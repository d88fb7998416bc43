import Verif.Lemmas.Ops3D
import Verif.Lemmas.Order

/-! # Order, equality and hash of the 3D storages -/

namespace MortonRs

open BitStorage

theorem octantKey_eq (q : Octant) : octantKey q = Dimension.toUsize q := by cases q <;> rfl

theorem octantKey_fun : octantKey = Dimension.toUsize := funext octantKey_eq

theorem octantKey_inj : Function.Injective octantKey := by
  intro a b h
  rw [octantKey_eq, octantKey_eq] at h
  exact toUsize_inj h

theorem Octant.cmp_eq (a b : Octant) : a.cmp b = compare (octantKey a) (octantKey b) := by
  cases a <;> cases b <;> rfl

namespace FixedDepthStorage3D

variable {w : Nat} {c : Cfg}

theorem cmp_ok {a b : FixedDepthStorage3D w} (ha : TailZero a) (hb : TailZero b) :
    RustOrd.cmp c a b = .ok (pathCmp octantKey (path a) (path b)) := by
  have hk : w / dim Octant * dim Octant ≤ w := Nat.div_mul_le_self _ _
  rw [octantKey_fun, path, path, show Storage.depth b = Storage.depth a from rfl,
    ← compare_top a b rfl (Storage.depth a) hk]
  change Except.ok (compare (value a) (value b)) = _
  have e : ∀ s : FixedDepthStorage3D w, TailZero s →
      value s = value s / 2 ^ (w - Storage.depth s * dim Octant) * 2 ^ (w - Storage.depth s * dim Octant) := by
    intro s hs
    have h0 : value s % 2 ^ (w - Storage.depth s * dim Octant) = 0 := by
      apply Nat.eq_of_testBit_eq
      intro i
      rw [Nat.testBit_mod_two_pow, Nat.zero_testBit]
      by_cases hi : i < w - Storage.depth s * dim Octant
      · rw [hs i hi]; simp
      · simp [hi]
    have := Nat.div_add_mod (value s) (2 ^ (w - Storage.depth s * dim Octant))
    rw [h0, Nat.add_zero, Nat.mul_comm] at this
    exact this.symm
  congr 1
  have hp : 0 < 2 ^ (w - Storage.depth a * dim Octant) := Nat.two_pow_pos _
  have e' : compare (value a) (value b) =
      compare (value a / 2 ^ (w - Storage.depth a * dim Octant) * 2 ^ (w - Storage.depth a * dim Octant))
        (value b / 2 ^ (w - Storage.depth a * dim Octant) * 2 ^ (w - Storage.depth a * dim Octant)) :=
    congr (congrArg compare (e a ha)) (e b hb)
  rw [e']
  change compare (value a / 2 ^ (w - Storage.depth a * dim Octant) * 2 ^ (w - Storage.depth a * dim Octant))
    (value b / 2 ^ (w - Storage.depth a * dim Octant) * 2 ^ (w - Storage.depth a * dim Octant)) =
    compare (value a / 2 ^ (w - Storage.depth a * dim Octant)) (value b / 2 ^ (w - Storage.depth a * dim Octant))
  generalize value a / 2 ^ (w - Storage.depth a * dim Octant) = x
  generalize value b / 2 ^ (w - Storage.depth a * dim Octant) = y
  rw [Nat.compare_eq_ite_lt, Nat.compare_eq_ite_lt]
  simp only [Nat.mul_lt_mul_right hp]

theorem eq_iff {a b : FixedDepthStorage3D w} (ha : TailZero a) (hb : TailZero b) :
    RustOrd.eq a b = true ↔ path a = path b := by
  constructor
  · intro h
    have : a.bits = b.bits := by simpa [RustOrd.eq] using h
    have : a = b := by cases a; cases b; simp_all
    rw [this]
  · intro h
    have hk : w / dim Octant * dim Octant ≤ w := Nat.div_mul_le_self _ _
    have : a = b := ext_value (value_eq_of_path hk rfl ha hb h)
    subst this
    simp [RustOrd.eq]

theorem eq_iff_eq {a b : FixedDepthStorage3D w} : RustOrd.eq a b = true ↔ a = b := by
  cases a; cases b; simp [RustOrd.eq]

end FixedDepthStorage3D

namespace StaticStorage3D

variable {w : Nat} {c : Cfg}

theorem cmp_ok (hc : c.Supported) {a b : StaticStorage3D w} (ha : WF c a) (hb : WF c b) :
    RustOrd.cmp c a b = .ok (pathCmp octantKey (path a) (path b)) := by
  have hw : IntWidth w := ha.fit
  have hwl := hw.le
  have hp := hc.le
  have hda : a.depth * dim Octant ≤ w := ha.depth_le
  have hdb : b.depth * dim Octant ≤ w := hb.depth_le
  rw [dim_Octant] at hda hdb
  have a1 : a.depth * 3 < 2 ^ c.ptrBits := by omega
  have a2 : b.depth * 3 < 2 ^ c.ptrBits := by omega
  change StaticStorage3D.cmp c a b = _
  unfold StaticStorage3D.cmp
  simp only [umul_ok a1, umul_ok a2, ok_bind, usub_ok hda, usub_ok hdb]
  have sa : w - a.depth * 3 ≤ w := by omega
  have sb : w - b.depth * 3 ≤ w := by omega
  obtain ⟨x1, g1, h1⟩ := intGetBits_top (c := c) hw a.bits sa
  obtain ⟨x2, g2, h2⟩ := intGetBits_top (c := c) hw b.bits sa
  obtain ⟨x3, g3, h3⟩ := intGetBits_top (c := c) hw a.bits sb
  obtain ⟨x4, g4, h4⟩ := intGetBits_top (c := c) hw b.bits sb
  rw [octantKey_fun]
  rcases Nat.lt_trichotomy a.depth b.depth with h | h | h
  · rw [Nat.compare_eq_lt.mpr h]
    simp only [g1, g2, ok_bind]
    rw [pathCmp_lt a b h]
    have key := compare_top a b rfl a.depth ha.depth_le
    change _ = pathCmp _ (path a) _ at key
    change _ = Except.ok (Ordering.then (pathCmp _ (path a) ((List.range a.depth).map (slot b))) _)
    rw [← key]
    change _ = Except.ok ((compare (a.bits.toNat / 2 ^ (w - a.depth * 3)) (b.bits.toNat / 2 ^ (w - a.depth * 3))).then .lt)
    rw [← h1, ← h2]
    rcases Nat.lt_trichotomy x1.toNat x2.toNat with g | g | g
    · rw [if_neg (by omega), Nat.compare_eq_lt.mpr g]; rfl
    · rw [if_neg (by omega), Nat.compare_eq_eq.mpr g]; rfl
    · rw [if_pos g, Nat.compare_eq_gt.mpr g]; rfl
  · rw [Nat.compare_eq_eq.mpr h]
    simp only [g1, g4, ok_bind]
    have key := compare_top a b rfl a.depth ha.depth_le
    change _ = pathCmp _ (path a) _ at key
    rw [h] at key
    change _ = pathCmp _ (path a) (path b) at key
    rw [← key, h1, h4, h]
    rfl
  · rw [Nat.compare_eq_gt.mpr h]
    simp only [g3, g4, ok_bind]
    rw [pathCmp_gt a b h]
    have key := compare_top a b rfl b.depth hb.depth_le
    change _ = pathCmp _ _ (path b) at key
    change _ = Except.ok (Ordering.then (pathCmp _ ((List.range b.depth).map (slot a)) (path b)) _)
    rw [← key]
    change _ = Except.ok ((compare (a.bits.toNat / 2 ^ (w - b.depth * 3)) (b.bits.toNat / 2 ^ (w - b.depth * 3))).then .gt)
    rw [← h3, ← h4]
    rcases Nat.lt_trichotomy x3.toNat x4.toNat with g | g | g
    · rw [if_neg (by omega), Nat.compare_eq_lt.mpr g]; rfl
    · rw [if_pos (by omega), Nat.compare_eq_eq.mpr g]; rfl
    · rw [if_pos (by omega), Nat.compare_eq_gt.mpr g]; rfl

theorem eq_iff_eq {a b : StaticStorage3D w} : RustOrd.eq a b = true ↔ a = b := by
  cases a; cases b; simp [RustOrd.eq, StaticStorage3D.eq]

theorem eq_iff {a b : StaticStorage3D w} (ha : WF c a) (ta : TailZero a) (tb : TailZero b) :
    RustOrd.eq a b = true ↔ path a = path b := by
  rw [eq_iff_eq]
  constructor
  · rintro rfl; rfl
  · intro h
    have hd : Storage.depth a = Storage.depth b := by rw [← path_length a, ← path_length b, h]
    exact ext_value (value_eq_of_path ha.depth_le rfl ta tb h) hd

end StaticStorage3D

namespace DynamicStorage3D

variable {c : Cfg}

theorem orNone_ok (hc : c.Supported) {s : DynamicStorage3D} (h : WF c s) (l : Nat) :
    s.getCellAtLevelOrNone c l = .ok ((path s)[l]?) := by
  unfold getCellAtLevelOrNone
  by_cases hl : l < s.depth
  · have h1 : ¬ l ≥ s.depth := by omega
    have hl' : l < (path s).length := by rw [path_length]; exact hl
    simp only [h1, if_false, get_slot hc h (show l < Storage.depth s from hl), ok_bind, pure_eq_ok]
    rw [List.getElem?_eq_getElem hl', path_getElem]
  · have h1 : l ≥ s.depth := by omega
    have hl' : (path s).length ≤ l := by rw [path_length]; exact h1
    rw [if_pos h1, List.getElem?_eq_none hl']

theorem cmpLevels_ok (hc : c.Supported) {a b : DynamicStorage3D} (ha : WF c a) (hb : WF c b) (n : Nat) :
    ∀ k, k + n = max a.depth b.depth →
      cmpLevels c a b (List.range' k n) = .ok (pathCmp octantKey ((path a).drop k) ((path b).drop k)) := by
  induction n with
  | zero =>
    intro k hk
    have h1 : (path a).drop k = [] := by
      rw [List.drop_eq_nil_iff, path_length]; exact Nat.le_trans (Nat.le_max_left a.depth b.depth) (by omega)
    have h2 : (path b).drop k = [] := by
      rw [List.drop_eq_nil_iff, path_length]; exact Nat.le_trans (Nat.le_max_right a.depth b.depth) (by omega)
    rw [h1, h2]; rfl
  | succ n ih =>
    intro k hk
    rw [List.range'_succ, cmpLevels, orNone_ok hc ha, orNone_ok hc hb]
    simp only [ok_bind]
    rw [ih (k + 1) (by omega)]
    by_cases h1 : k < (path a).length
    · by_cases h2 : k < (path b).length
      · rw [List.drop_eq_getElem_cons h1, List.drop_eq_getElem_cons h2, List.getElem?_eq_getElem h1,
          List.getElem?_eq_getElem h2, pathCmp]
        simp only [Octant.optionCmp, Octant.cmp_eq]
        rcases Nat.lt_trichotomy (octantKey (path a)[k]) (octantKey (path b)[k]) with g | g | g
        · rw [Nat.compare_eq_lt.mpr g]; simp [g]
        · rw [Nat.compare_eq_eq.mpr g]; simp [g]
        · rw [Nat.compare_eq_gt.mpr g]; simp [g, Nat.lt_asymm g]
      · rw [List.drop_eq_getElem_cons h1, List.drop_eq_nil_of_le (show (path b).length ≤ k by omega), List.getElem?_eq_getElem h1,
          List.getElem?_eq_none (by omega)]
        rfl
    · have h2 : k < (path b).length := by
        rw [path_length] at h1 ⊢
        change ¬ k < a.depth at h1
        change k < b.depth
        omega
      rw [List.drop_eq_getElem_cons h2, List.drop_eq_nil_of_le (show (path a).length ≤ k by omega), List.getElem?_eq_getElem h2,
          List.getElem?_eq_none (by omega)]
      rfl

theorem cmp_ok (hc : c.Supported) {a b : DynamicStorage3D} (ha : WF c a) (hb : WF c b) :
    RustOrd.cmp c a b = .ok (pathCmp octantKey (path a) (path b)) := by
  have := cmpLevels_ok hc ha hb (max a.depth b.depth) 0 (by omega)
  rw [List.drop_zero, List.drop_zero] at this
  exact this

theorem eq_iff_eq {a b : DynamicStorage3D} : RustOrd.eq a b = true ↔ a = b := by
  cases a; cases b; simp [RustOrd.eq]

theorem eq_iff {a b : DynamicStorage3D} (ha : Canon c a) (hb : Canon c b) :
    RustOrd.eq a b = true ↔ path a = path b := by
  rw [eq_iff_eq]
  constructor
  · rintro rfl; rfl
  · intro h
    have hd : Storage.depth a = Storage.depth b := by rw [← path_length a, ← path_length b, h]
    have hl : a.bits.length = b.bits.length := by
      rw [ha.len, hb.len]; change a.depth = b.depth at hd; rw [hd]
    have hw : width a = width b := by change 8 * a.bits.length = 8 * b.bits.length; rw [hl]
    exact ext_value (value_eq_of_path ha.inv.wf.depth_le hw ha.tail hb.tail h) hl hd

end DynamicStorage3D

end MortonRs
