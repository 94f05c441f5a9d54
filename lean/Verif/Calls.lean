import Verif.TripLemmas
import Verif.Blend

/-! Helper lemmas: running conversions inside larger functions. -/

open Outcome Fl Prog ObjectSpec ConvSpec

section
variable [FloatModel]

/-- Converting to type `t`; a colour that already has the type is used as it is. -/
noncomputable def Val.to (s t : ColorType) (w : World) (c : Color) : Outcome Color := if s = t then ok c else Val.conv s t w c

/-- The converted object: what a call of `to_<t>` returns and leaves behind. -/
structure Called (h : Heap) (i : Nat) (c c' : Color) (t : ColorType) (q : Nat) (h' : Heap) : Prop where
  world : h'.world = h.world
  here : h'.colors[q]? = some c'
  col : IsColor t c'
  space : c'.space = c.space
  others : ∀ j d, j ≠ i → h.colors[j]? = some d → h'.colors[j]? = some d
  frame : ¬ (c.ctype = .rgbDeep ∧ Cie t) → Frame h h'
  fresh : (q = i ∧ h' = h ∧ c' = c ∧ c.ctype = t) ∨ (h.colors.length ≤ q ∧ c.ctype ≠ t)
  grows : h.colors.length ≤ h'.colors.length

theorem call_to {s t : ColorType} (hs : s ≠ .undefined) (ht : t ≠ .undefined) {c c' : Color} (hcol : IsColor s c) {h : Heap} {i : Nat}
    (hi : h.colors[i]? = some c) (hv : Val.to s t h.world c = ok c') :
    ∃ q h', Conv.dispatcher t (some i) h = (ok (some q), h') ∧ Called h i c c' t q h' := by
  by_cases hst : s = t
  · subst hst
    have : c' = c := by simpa [Val.to, eq_comm] using hv
    subst this
    exact ⟨i, h, Conv.dispatcher_same s hs h i _ hi hcol.cls hcol.ctype, rfl, hi, hcol, rfl, fun _ _ _ h => h, fun _ => ⟨rfl, fun _ _ h => h⟩,
      Or.inl ⟨rfl, rfl, rfl, hcol.ctype⟩, le_refl _⟩
  · simp only [Val.to, if_neg hst] at hv
    have hd := Conv.dispatcher_spec s t hs ht hst h i c hi hcol
    rw [hv] at hd
    obtain ⟨ext, hd⟩ := hd
    have hg := (Conv.good_direct s t hs ht hst).result _ _ _ hv
    have hres := convert_result s t hs ht h i c hi hcol _ _ hd hst
    obtain ⟨k, c'', hk, h1, h2, h3, h4, h5, h6⟩ := hres
    have hk : h.colors.length + ext.length = k := by simpa using hk
    have : c'' = c' := by rw [hv] at h6; simpa [eq_comm] using h6
    subst this
    refine ⟨_, _, hd, h4, by rw [hk]; exact h1, hg.col, hg.space, ?_, ?_, Or.inr ⟨by simp, by rw [hcol.ctype]; exact hst⟩, by simp⟩
    · intro j d hj hjd
      rw [h5 j d hjd, if_neg hj]
    · intro hn
      refine ⟨h4, fun j d hj => ?_⟩
      rw [h5 j d hj]
      split
      · next hji =>
        subst hji
        have : d = c := by rw [hj] at hi; exact Option.some.inj hi
        subst this
        have : Conv.effect s t h.world d = d := by
          rw [hcol.ctype] at hn
          cases s <;> try rfl
          have : Conv.viaXyz t = false := by
            cases hv : Conv.viaXyz t
            · rfl
            · exact absurd ⟨rfl, (viaXyz_iff t).mp hv⟩ hn
          simp [Conv.effect, this, Conv.keep]
        rw [this]
      · rfl

theorem val_to_total {s t : ColorType} (hs : s ≠ .undefined) (ht : t ≠ .undefined) {w : World} {c : Color} (hcol : IsColor s c)
    (hw : Cie s ∨ Cie t → s ≠ t → w.Usable c.space) : ∃ c', Val.to s t w c = ok c' ∧ IsColor t c' ∧ c'.space = c.space := by
  by_cases hst : s = t
  · subst hst
    exact ⟨c, by simp [Val.to], hcol, rfl⟩
  · obtain ⟨c', e⟩ := (Conv.good_direct s t hs ht hst).total w c hcol (fun hv => hw (hv.imp (viaXyz_iff s).mp (viaXyz_iff t).mp) hst)
    have hg := (Conv.good_direct s t hs ht hst).result _ _ _ e
    exact ⟨c', by simp [Val.to, hst, e], hg.col, hg.space⟩

theorem convertTo_dispatcher {t : ColorType} (h1 : t ≠ .lchAb) (h2 : t ≠ .lchUv) (h3 : t ≠ .undefined) (p : Ptr) : Converter.convertTo p t = Conv.dispatcher t p := by
  cases t <;> first | rfl | contradiction

end

theorem ConvSpec.Frame.trans {a b c : Heap} (h1 : Frame a b) (h2 : Frame b c) : Frame a c :=
  ⟨h2.1.trans h1.1, fun j d h => h2.2 j d (h1.2 j d h)⟩

theorem ConvSpec.Frame.alloc (h : Heap) (c : Color) : Frame h ⟨h.world, h.colors ++ [c]⟩ :=
  ⟨rfl, fun j d hj => by
    have := (List.getElem?_eq_some_iff.mp hj).1
    simp [List.getElem?_append_left this, hj]⟩
