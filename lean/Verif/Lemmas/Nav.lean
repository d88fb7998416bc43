import Verif.Lemmas.Basic
import Verif.Model.Storage

/-! # `parent`, `with_depth` and `child` in terms of `ancestor` and `descendant` -/

namespace MortonRs

open VariableDepthMortonIndex

variable {M Cell : Type} [VariableDepthMortonIndex M Cell]

theorem parent_eq (c : Cfg) (m : M) : parent c m = ancestor c m ⟨1, by decide⟩ := by
  simp [parent, NonZeroUsize.newUnchecked, ok_bind]

theorem withDepth_gt {c : Cfg} {m : M} {d : Nat} (h : d > MortonIndex.depth m) : withDepth c m d = .ok none := by
  simp only [withDepth, h, if_true, pure_eq_ok]

theorem withDepth_self {c : Cfg} {m : M} : withDepth c m (MortonIndex.depth m) = .ok (some m) := by
  simp [withDepth, usub_ok (Nat.le_refl _), ok_bind, pure_eq_ok]

theorem withDepth_lt {c : Cfg} {m : M} {d : Nat} (h : d < MortonIndex.depth m) :
    withDepth c m d = ancestor c m ⟨MortonIndex.depth m - d, by omega⟩ := by
  have h1 : ¬ d > MortonIndex.depth m := by omega
  have h2 : ¬ MortonIndex.depth m - d = 0 := by omega
  have h3 : 0 < MortonIndex.depth m - d := by omega
  simp only [withDepth, h1, if_false, usub_ok (Nat.le_of_lt h), ok_bind, h2, NonZeroUsize.newUnchecked, h3,
    dif_pos]

theorem withDepth_some {c : Cfg} {m m' : M} {d : Nat} (h : withDepth c m d = .ok (some m')) :
    m' = m ∨ ∃ g, ancestor c m g = .ok (some m') := by
  rcases Nat.lt_trichotomy d (MortonIndex.depth m) with h1 | h1 | h1
  · rw [withDepth_lt h1] at h
    exact .inr ⟨_, h⟩
  · subst h1
    rw [withDepth_self] at h
    exact .inl (Option.some.inj (Except.ok.inj h)).symm
  · rw [withDepth_gt h1] at h
    simp at h

theorem one_lt_isize {c : Cfg} (hc : c.Supported) {Cell : Type} {x : Cell} : [x].length < 2 ^ (c.ptrBits - 1) := by
  rcases hc with h | h | h <;> rw [h, List.length_singleton] <;> decide

end MortonRs
