import Verif.RouteLemmas

/-!
# C103: every conversion is made of elementary steps

The types form a tree: RGB_DEEP in the middle, RGB_TRUE, the two greys, CMYK and the four hue spaces around it, XYZ next to it, around XYZ the spaces xyY, LAB
and CIELUV, and LCH_AB behind LAB, LCH_UV behind CIELUV.  Converting between two types gives the same colour as stopping at any type on the path between them.  Eight pairs of
neighbours of RGB_DEEP have a conversion of their own and are left out here (C44 and C45 treat them).
-/

open Outcome Fl ObjectSpec ConvSpec BlendSpec

namespace RouteSpec

/-- The neighbour of the type `m` in the tree that leads to the type `x`. -/
def towards : ColorType → ColorType → ColorType
  | .rgbDeep, .xyz | .rgbDeep, .xyy | .rgbDeep, .cieluv | .rgbDeep, .lab | .rgbDeep, .lchAb | .rgbDeep, .lchUv => .xyz
  | .rgbDeep, x => x
  | .xyz, .xyy => .xyy
  | .xyz, .lab | .xyz, .lchAb => .lab
  | .xyz, .cieluv | .xyz, .lchUv => .cieluv
  | .xyz, _ => .rgbDeep
  | .lab, .lchAb => .lchAb
  | .lab, _ => .xyz
  | .cieluv, .lchUv => .lchUv
  | .cieluv, _ => .xyz
  | .xyy, _ => .xyz
  | .lchAb, _ => .lab
  | .lchUv, _ => .cieluv
  | _, _ => .rgbDeep

/-- The type `m` lies on the path from `s` to `t`, between them. -/
def OnPath (s m t : ColorType) : Prop := s ≠ .undefined ∧ m ≠ .undefined ∧ t ≠ .undefined ∧ s ≠ m ∧ t ≠ m ∧ towards m s ≠ towards m t

/-- The pairs with a conversion of their own. -/
def Shortcut (s t : ColorType) : Prop :=
  (s, t) ∈ [(.rgbTrue, .greyTrue), (.rgbTrue, .greyDeep), (.greyTrue, .rgbTrue), (.greyTrue, .greyDeep), (.greyDeep, .rgbTrue), (.greyDeep, .greyTrue), (.hsv, .hsl),
    ((.hsl, .hsv) : ColorType × ColorType)]

instance (s m t : ColorType) : Decidable (OnPath s m t) := by unfold OnPath; infer_instance
instance (s t : ColorType) : Decidable (Shortcut s t) := by unfold Shortcut; infer_instance

theorem passes_rgbDeep (s t : ColorType) (h : OnPath s .rgbDeep t) (hs : ¬ Shortcut s t) : (s, t) ∈ Val.passes .rgbDeep := by
  revert h hs
  cases s <;> cases t <;> decide

theorem passes_xyz (s t : ColorType) (h : OnPath s .xyz t) : (s, t) ∈ Val.passes .xyz := by
  revert h
  cases s <;> cases t <;> decide

theorem passes_lab (s t : ColorType) (h : OnPath s .lab t) : (s, t) ∈ Val.passes .lab := by
  revert h
  cases s <;> cases t <;> decide

theorem passes_cieluv (s t : ColorType) (h : OnPath s .cieluv t) : (s, t) ∈ Val.passes .cieluv := by
  revert h
  cases s <;> cases t <;> decide

theorem passes_of_onPath (s m t : ColorType) (h : OnPath s m t) (hs : ¬ Shortcut s t) : (s, t) ∈ Val.passes m := by
  cases m
  case rgbDeep => exact passes_rgbDeep s t h hs
  case xyz => exact passes_xyz s t h
  case lab => exact passes_lab s t h
  case cieluv => exact passes_cieluv s t h
  all_goals exact absurd rfl h.2.2.2.2.2

/-- Stopping at a station whose value functions compose gives the same colour. -/
theorem agree_of_passes [FloatModel] {s m t : ColorType} (hs : s ≠ .undefined) (hm : m ≠ .undefined) (ht : t ≠ .undefined) (hsm : s ≠ m) (htm : t ≠ m) (hst : s ≠ t)
    (hp : (s, t) ∈ Val.passes m) {w : World} {c : Color} (hcol : IsColor s c) (hw : Cie s ∨ Cie t → w.Usable c.space) : Agree w c m t := by
  obtain ⟨e, he⟩ := (Conv.good_direct s t hs ht hst).total w c hcol (fun hv => hw (hv.imp (viaXyz_iff s).mp (viaXyz_iff t).mp))
  have hc := Val.cut_all m w c (s, t) hp
  simp only [he] at hc
  obtain ⟨d, hd, hd'⟩ := bind_eq_ok.mp hc.symm
  exact agree_of hs hm ht hsm hst (Ne.symm htm) hcol he hd hd'

end RouteSpec

open RouteSpec

section
variable [FloatModel]

/-- C103: converting directly and stopping at any type on the path between the two types give the same colour, for every rounding, wherever the colour is stored. -/
theorem C103_path (s m t : ColorType) (h : OnPath s m t) (hn : ¬ Shortcut s t) (w : World) (c : Color) (hcol : IsColor s c) (hw : Cie s ∨ Cie t → w.Usable c.space) :
    Agree w c m t := by
  have hst : s ≠ t := fun e => h.2.2.2.2.2 (e ▸ rfl)
  exact agree_of_passes h.1 h.2.1 h.2.2.1 h.2.2.2.1 h.2.2.2.2.1 hst (passes_of_onPath s m t h hn) hcol hw

/-- The 8-bit grey of a colour that is not 8-bit is the grey of its RGB_TRUE version. -/
theorem C103_grey_true (s : ColorType) (hs : s ≠ .undefined) (h1 : s ≠ .rgbTrue) (h2 : s ≠ .greyTrue) (h3 : s ≠ .greyDeep) (w : World) (c : Color) (hcol : IsColor s c)
    (hw : Cie s → w.Usable c.space) : Agree w c .rgbTrue .greyTrue := by
  refine agree_of_passes hs (by simp) (by simp) h1 (by simp) h2 ?_ hcol (fun hh => hw (hh.resolve_right (by simp [Cie])))
  revert hs h1 h2 h3
  cases s <;> decide

end

/- The path from HSV to LCH_UV stops at RGB_DEEP, XYZ and CIELUV, and nowhere else. -/
example (m : ColorType) : OnPath .hsv m .lchUv ↔ m = .rgbDeep ∨ m = .xyz ∨ m = .cieluv := by cases m <;> decide

/- Another path, and two types whose path does not touch RGB_DEEP. -/
example : ¬ Shortcut .hsv .lchUv ∧ OnPath .lchAb .rgbDeep .hsl ∧ ¬ OnPath .lab .rgbDeep .cieluv := by decide

/- A concrete HSL colour in sRGB, converted to LAB by way of XYZ. -/
example [StdSort] [FloatModel] [ExactModel] : ∃ (w : World) (c : Color), Color.construct .hsl [200, fin 0.5, fin 0.25] 1 (some 0) = ok c ∧ Agree w c .xyz .lab := by
  obtain ⟨w, hw, -⟩ := exists_world .sRGB .sRGB
  obtain ⟨c, e⟩ := Conv.construct_total .hsl (vs := [200, fin 0.5, fin 0.25]) 1 (some 0) rfl
  have hf := Conv.construct_result (t := .hsl) (by simp) rfl e
  exact ⟨w, c, e, C103_path .hsl .xyz .lab (by decide) (by decide) w c hf.col (fun _ => hf.space ▸ hw)⟩
