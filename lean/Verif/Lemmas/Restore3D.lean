import Verif.Lemmas.Kinds3D

/-! # Writes that are undone leave every bit as it was -/

namespace MortonRs

open BitStorage MortonIndex

variable {c : Cfg} {sc : Scope} {w : Nat}

section
variable {S : Type} [Storage S Octant] [BitStorage S Octant] [RustOrd S]

theorem involutive_of3 (hc : c.Supported) {ok : MortonIndex3D S → Prop} (hwf : ∀ m, ok m → WF c m.storage)
    (hwr : written S c = id)
    (hext : ∀ s t : S, width s = width t → Storage.depth s = Storage.depth t → value s = value t →
      RustOrd.eq s t = true) : InvertedInvolutive c ok := by
  intro m hm
  obtain ⟨r, h1, h2, h3, h4, h5, h6⟩ := MortonIndex3D.inverted_full hc (hwf m hm)
  obtain ⟨rr, g1, g2, g3, g4, g5, g6⟩ := MortonIndex3D.inverted_full hc h2
  refine ⟨r, rr, h1, g1, hext _ _ (g3.trans h3) (g4.trans h4) ?_⟩
  refine value_eq_of_path_tail g2.depth_le (g3.trans h3) ?_ ?_
  · rw [g3, h3, g4, h4]
    rw [h3, h4] at g6
    exact fun i hi => (g6 i hi).trans (h6 i hi)
  · rw [g5, h5, hwr]
    simp

theorem restores_of3 (hc : c.Supported) {ok : MortonIndex3D S → Prop} (hwf : ∀ m, ok m → WF c m.storage)
    (hwr : written S c = id)
    (hext : ∀ s t : S, width s = width t → Storage.depth s = Storage.depth t → value s = value t →
      RustOrd.eq s t = true) : SetRestores c ok := by
  intro m hm l v old hold
  by_cases hl : l < Storage.depth m.storage
  · have hold' : slot m.storage l = old := by
      rw [MortonIndex3D.get_lt hc (hwf m hm) hl] at hold
      exact Except.ok.inj hold
    obtain ⟨r, h1, h2, h3, h4, h5, h6⟩ := MortonIndex3D.set_full hc (hwf m hm) hl v
    obtain ⟨rr, g1, g2, g3, g4, g5, g6⟩ := MortonIndex3D.set_full hc h2 (by rw [h4]; exact hl) old
    refine ⟨r, rr, h1, g1, hext _ _ (g3.trans h3) (g4.trans h4) ?_⟩
    refine value_eq_of_path_tail g2.depth_le (g3.trans h3) ?_ ?_
    · rw [g3, h3, g4, h4]
      rw [h3, h4] at g6
      exact fun i hi => (g6 i hi).trans (h6 i hi)
    · rw [g5, h5, hwr, List.set_set]
      apply List.ext_getElem (by simp)
      intro k h1 h2
      rw [List.getElem_set]
      split
      · next h => subst h; rw [path_getElem]; exact hold'.symm
      · rfl
  · rw [MortonIndex3D.get_ge (by omega)] at hold
    exact absurd hold (by simp)

end

theorem fixed_ext3 (s t : FixedDepthStorage3D w) (_ : width s = width t) (_ : Storage.depth s = Storage.depth t)
    (h : value s = value t) : RustOrd.eq s t = true :=
  FixedDepthStorage3D.eq_iff_eq.mpr (FixedDepthStorage3D.ext_value h)

theorem static_ext3 (s t : StaticStorage3D w) (_ : width s = width t) (hd : Storage.depth s = Storage.depth t)
    (h : value s = value t) : RustOrd.eq s t = true :=
  StaticStorage3D.eq_iff_eq.mpr (StaticStorage3D.ext_value h hd)

theorem dynamic_ext3 (s t : DynamicStorage3D) (hw : width s = width t) (hd : Storage.depth s = Storage.depth t)
    (h : value s = value t) : RustOrd.eq s t = true := by
  refine DynamicStorage3D.eq_iff_eq.mpr (DynamicStorage3D.ext_value h ?_ hd)
  change 8 * s.bits.length = 8 * t.bits.length at hw
  omega

theorem fixed_involutive3 (hc : c.Supported) : InvertedInvolutive c (fun m => Reach3D c sc (.fixed w m)) :=
  involutive_of3 hc (fixed_wf3 hc) written_fixed3 fixed_ext3

theorem static_involutive3 (hc : c.Supported) : InvertedInvolutive c (fun m => Reach3D c sc (.static w m)) :=
  involutive_of3 hc (static_wf3 hc) written_static3 static_ext3

theorem dynamic_involutive3 (hc : c.Supported) (hw : DynWrites c) :
    InvertedInvolutive c (fun m => Reach3D c sc (.dynamic m)) :=
  involutive_of3 hc (dynamic_wf3 hc) (written_dynamic3 hw) dynamic_ext3

theorem fixed_restores3 (hc : c.Supported) : SetRestores c (fun m => Reach3D c sc (.fixed w m)) :=
  restores_of3 hc (fixed_wf3 hc) written_fixed3 fixed_ext3

theorem static_restores3 (hc : c.Supported) : SetRestores c (fun m => Reach3D c sc (.static w m)) :=
  restores_of3 hc (static_wf3 hc) written_static3 static_ext3

theorem dynamic_restores3 (hc : c.Supported) (hw : DynWrites c) :
    SetRestores c (fun m => Reach3D c sc (.dynamic m)) :=
  restores_of3 hc (dynamic_wf3 hc) (written_dynamic3 hw) dynamic_ext3

end MortonRs
