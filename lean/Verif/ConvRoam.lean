import Verif.Dispatch

/-! Proof machinery: conversions between types outside the CIE family do not read the colour space of their input.  Generated. -/

open Outcome Fl Prog ObjectSpec

namespace Conv
variable [FloatModel]

/-- A result with another colour space. -/
def rehome (sp : Option Nat) : Outcome Color → Outcome Color
  | ok c => ok { c with space := sp }
  | Outcome.throw e => Outcome.throw e
  | ub => ub

/-- Neither the colour space of the input nor anything else outside the object has an influence on the result, except on its colour space. -/
def Roams (f : World → Color → Outcome Color) : Prop := ∀ w w' c sp, f w' { c with space := sp } = rehome sp (f w c)

omit [FloatModel] in
theorem roam_bind {α : Type} (sp : Option Nat) (o : Outcome α) {f g : α → Outcome Color} (h : ∀ a, f a = rehome sp (g a)) : (o >>= f) = rehome sp (o >>= g) := by
  cases o with
  | ok a => exact h a
  | throw e => rfl
  | ub => rfl

omit [FloatModel] in
theorem roam_bind' (sp : Option Nat) {o o' : Outcome Color} {f g : Color → Outcome Color} (ho : o' = rehome sp o) (h : ∀ a, f { a with space := sp } = rehome sp (g a)) :
    (o' >>= f) = rehome sp (o >>= g) := by
  subst ho
  cases o with
  | ok a => exact h a
  | throw e => rfl
  | ub => rfl

theorem Roams.comp {f g : World → Color → Outcome Color} (hf : Roams f) (hg : Roams g) : Roams fun w c => f w c >>= g w :=
  fun w w' c sp => roam_bind' sp (hf w w' c sp) fun d => hg w w' d sp

theorem roam_setLim (v : Fl) (i : Int) (mx mn : Fl) (c : Color) (sp : Option Nat) : ({ c with space := sp } : Color).setComponentLim v i mx mn = rehome sp (c.setComponentLim v i mx mn) := by
  simp only [Color.setComponentLim]
  split <;> rfl

theorem roam_setChannel (i : Nat) (v : Fl) (c : Color) (sp : Option Nat) : ({ c with space := sp } : Color).setChannel i v = rehome sp (c.setChannel i v) := by
  simp only [Color.setChannel, Color.setHue, Color.setComponent]
  split <;> exact roam_setLim ..

theorem roam_setChannels (vs : List Fl) (i : Nat) (c : Color) (sp : Option Nat) : Color.setChannels i vs { c with space := sp } = rehome sp (Color.setChannels i vs c) := by
  induction vs generalizing i c with
  | nil => rfl
  | cons v vs ih => exact roam_bind' sp (roam_setChannel i v c sp) fun d => ih _ d

theorem roam_construct (t : ColorType) (vs : List Fl) (al : Fl) (sp' sp : Option Nat) : Color.construct t vs al sp = rehome sp (Color.construct t vs al sp') := by
  refine roam_bind' sp (roam_setChannels vs 0 { Color.base al sp' (Color.count t) (Color.maxOf t) (Color.minOf t) with cls := t, ctype := t } sp) fun a => ?_
  split <;> rfl

/-- Runs through a conversion function. -/
macro "roam" : tactic => `(tactic|
  repeat' first
    | exact roam_construct _ _ _ _ _
    | exact roam_bind' _ (roam_construct _ _ _ _ _) fun _ => rfl
    | refine roam_bind _ _ fun _ => ?_
    | split)

theorem roams_rgb_true_to_rgb_deep : Roams Val.rgb_true_to_rgb_deep := fun w w' c sp => by
  simp only [Val.rgb_true_to_rgb_deep, Leaf.rgb_true_to_rgb_deep, Color.constructGrey]
  roam

theorem roams_rgb_true_to_grey_true : Roams Val.rgb_true_to_grey_true := fun w w' c sp => by
  simp only [Val.rgb_true_to_grey_true, Leaf.rgb_true_to_grey_true, Color.constructGrey]
  roam

theorem roams_rgb_true_to_grey_deep : Roams Val.rgb_true_to_grey_deep := fun w w' c sp => by
  refine roam_bind' sp (roams_rgb_true_to_grey_true w w' c sp) fun g => ?_
  simp only [Leaf.grey_copy_to_deep]
  refine roam_bind _ _ fun _ => ?_
  exact roam_construct _ _ _ _ _

theorem roams_rgb_deep_to_rgb_true : Roams Val.rgb_deep_to_rgb_true := fun w w' c sp => by
  simp only [Val.rgb_deep_to_rgb_true, Leaf.rgb_deep_to_rgb_true, Color.constructGrey]
  roam

theorem roams_rgb_deep_to_grey_deep : Roams Val.rgb_deep_to_grey_deep := fun w w' c sp => by
  simp only [Val.rgb_deep_to_grey_deep, Leaf.rgb_deep_to_grey_deep, Color.constructGrey]
  roam

theorem roams_rgb_deep_to_cmyk : Roams Val.rgb_deep_to_cmyk := fun w w' c sp => by
  simp only [Val.rgb_deep_to_cmyk, Leaf.rgb_deep_to_cmyk, Color.constructGrey]
  roam

theorem roams_rgb_deep_to_hsi : Roams Val.rgb_deep_to_hsi := fun w w' c sp => by
  simp only [Val.rgb_deep_to_hsi, Leaf.rgb_deep_to_hsi, Color.constructGrey]
  roam

theorem roams_rgb_deep_to_hsv : Roams Val.rgb_deep_to_hsv := fun w w' c sp => by
  simp only [Val.rgb_deep_to_hsv, Leaf.rgb_deep_to_hsv, Color.constructGrey]
  roam

theorem roams_rgb_deep_to_hsl : Roams Val.rgb_deep_to_hsl := fun w w' c sp => by
  simp only [Val.rgb_deep_to_hsl, Leaf.rgb_deep_to_hsl, Color.constructGrey]
  roam

theorem roams_rgb_deep_to_hcy : Roams Val.rgb_deep_to_hcy := fun w w' c sp => by
  simp only [Val.rgb_deep_to_hcy, Leaf.rgb_deep_to_hcy, Color.constructGrey]
  roam

theorem roams_grey_true_to_rgb_true : Roams Val.grey_true_to_rgb_true := fun w w' c sp => by
  simp only [Val.grey_true_to_rgb_true, Leaf.grey_true_to_rgb_true, Color.constructGrey]
  roam

theorem roams_grey_true_to_rgb_deep : Roams Val.grey_true_to_rgb_deep := fun w w' c sp => by
  simp only [Val.grey_true_to_rgb_deep, Leaf.grey_true_to_rgb_deep, Color.constructGrey]
  roam

theorem roams_grey_true_to_grey_deep : Roams Val.grey_true_to_grey_deep := fun w w' c sp => by
  simp only [Val.grey_true_to_grey_deep, Leaf.grey_true_to_grey_deep, Color.constructGrey]
  roam

theorem roams_grey_deep_to_rgb_true : Roams Val.grey_deep_to_rgb_true := fun w w' c sp => by
  simp only [Val.grey_deep_to_rgb_true, Leaf.grey_deep_to_rgb_true, Color.constructGrey]
  roam

theorem roams_grey_deep_to_rgb_deep : Roams Val.grey_deep_to_rgb_deep := fun w w' c sp => by
  simp only [Val.grey_deep_to_rgb_deep, Leaf.grey_deep_to_rgb_deep, Color.constructGrey]
  roam

theorem roams_grey_deep_to_grey_true : Roams Val.grey_deep_to_grey_true := fun w w' c sp => by
  simp only [Val.grey_deep_to_grey_true, Leaf.grey_deep_to_grey_true, Color.constructGrey]
  roam

theorem roams_cmyk_to_rgb_deep : Roams Val.cmyk_to_rgb_deep := fun w w' c sp => by
  simp only [Val.cmyk_to_rgb_deep, Leaf.cmyk_to_rgb_deep, Color.constructGrey]
  roam

theorem roams_hsi_to_rgb_deep : Roams Val.hsi_to_rgb_deep := fun w w' c sp => by
  simp only [Val.hsi_to_rgb_deep, Leaf.hsi_to_rgb_deep, Color.constructGrey]
  roam

theorem roams_hsv_to_rgb_deep : Roams Val.hsv_to_rgb_deep := fun w w' c sp => by
  simp only [Val.hsv_to_rgb_deep, Leaf.hsv_to_rgb_deep, Color.constructGrey]
  roam

theorem roams_hsv_to_hsl : Roams Val.hsv_to_hsl := fun w w' c sp => by
  simp only [Val.hsv_to_hsl, Leaf.hsv_to_hsl, Color.constructGrey]
  roam

theorem roams_hsl_to_rgb_deep : Roams Val.hsl_to_rgb_deep := fun w w' c sp => by
  simp only [Val.hsl_to_rgb_deep, Leaf.hsl_to_rgb_deep, Color.constructGrey]
  roam

theorem roams_hsl_to_hsv : Roams Val.hsl_to_hsv := fun w w' c sp => by
  simp only [Val.hsl_to_hsv, Leaf.hsl_to_hsv, Color.constructGrey]
  roam

theorem roams_hcy_to_rgb_deep : Roams Val.hcy_to_rgb_deep := fun w w' c sp => by
  simp only [Val.hcy_to_rgb_deep, Leaf.hcy_to_rgb_deep, Color.constructGrey]
  roam

theorem roams_rgb_true_to_cmyk : Roams Val.rgb_true_to_cmyk := roams_rgb_true_to_rgb_deep.comp roams_rgb_deep_to_cmyk
theorem roams_rgb_true_to_hsi : Roams Val.rgb_true_to_hsi := roams_rgb_true_to_rgb_deep.comp roams_rgb_deep_to_hsi
theorem roams_rgb_true_to_hsv : Roams Val.rgb_true_to_hsv := roams_rgb_true_to_rgb_deep.comp roams_rgb_deep_to_hsv
theorem roams_rgb_true_to_hsl : Roams Val.rgb_true_to_hsl := roams_rgb_true_to_rgb_deep.comp roams_rgb_deep_to_hsl
theorem roams_rgb_true_to_hcy : Roams Val.rgb_true_to_hcy := roams_rgb_true_to_rgb_deep.comp roams_rgb_deep_to_hcy
theorem roams_rgb_deep_to_grey_true : Roams Val.rgb_deep_to_grey_true := roams_rgb_deep_to_rgb_true.comp roams_rgb_true_to_grey_true
theorem roams_grey_true_to_cmyk : Roams Val.grey_true_to_cmyk := roams_grey_true_to_rgb_deep.comp roams_rgb_deep_to_cmyk
theorem roams_grey_true_to_hsi : Roams Val.grey_true_to_hsi := roams_grey_true_to_rgb_deep.comp roams_rgb_deep_to_hsi
theorem roams_grey_true_to_hsv : Roams Val.grey_true_to_hsv := roams_grey_true_to_rgb_deep.comp roams_rgb_deep_to_hsv
theorem roams_grey_true_to_hsl : Roams Val.grey_true_to_hsl := roams_grey_true_to_rgb_deep.comp roams_rgb_deep_to_hsl
theorem roams_grey_true_to_hcy : Roams Val.grey_true_to_hcy := roams_grey_true_to_rgb_deep.comp roams_rgb_deep_to_hcy
theorem roams_grey_deep_to_cmyk : Roams Val.grey_deep_to_cmyk := roams_grey_deep_to_rgb_deep.comp roams_rgb_deep_to_cmyk
theorem roams_grey_deep_to_hsi : Roams Val.grey_deep_to_hsi := roams_grey_deep_to_rgb_deep.comp roams_rgb_deep_to_hsi
theorem roams_grey_deep_to_hsv : Roams Val.grey_deep_to_hsv := roams_grey_deep_to_rgb_deep.comp roams_rgb_deep_to_hsv
theorem roams_grey_deep_to_hsl : Roams Val.grey_deep_to_hsl := roams_grey_deep_to_rgb_deep.comp roams_rgb_deep_to_hsl
theorem roams_grey_deep_to_hcy : Roams Val.grey_deep_to_hcy := roams_grey_deep_to_rgb_deep.comp roams_rgb_deep_to_hcy
theorem roams_cmyk_to_rgb_true : Roams Val.cmyk_to_rgb_true := roams_cmyk_to_rgb_deep.comp roams_rgb_deep_to_rgb_true
theorem roams_cmyk_to_grey_true : Roams Val.cmyk_to_grey_true := roams_cmyk_to_rgb_deep.comp roams_rgb_deep_to_grey_true
theorem roams_cmyk_to_grey_deep : Roams Val.cmyk_to_grey_deep := roams_cmyk_to_rgb_deep.comp roams_rgb_deep_to_grey_deep
theorem roams_cmyk_to_hsi : Roams Val.cmyk_to_hsi := roams_cmyk_to_rgb_deep.comp roams_rgb_deep_to_hsi
theorem roams_cmyk_to_hsv : Roams Val.cmyk_to_hsv := roams_cmyk_to_rgb_deep.comp roams_rgb_deep_to_hsv
theorem roams_cmyk_to_hsl : Roams Val.cmyk_to_hsl := roams_cmyk_to_rgb_deep.comp roams_rgb_deep_to_hsl
theorem roams_cmyk_to_hcy : Roams Val.cmyk_to_hcy := roams_cmyk_to_rgb_deep.comp roams_rgb_deep_to_hcy
theorem roams_hsi_to_rgb_true : Roams Val.hsi_to_rgb_true := roams_hsi_to_rgb_deep.comp roams_rgb_deep_to_rgb_true
theorem roams_hsi_to_grey_true : Roams Val.hsi_to_grey_true := roams_hsi_to_rgb_deep.comp roams_rgb_deep_to_grey_true
theorem roams_hsi_to_grey_deep : Roams Val.hsi_to_grey_deep := roams_hsi_to_rgb_deep.comp roams_rgb_deep_to_grey_deep
theorem roams_hsi_to_cmyk : Roams Val.hsi_to_cmyk := roams_hsi_to_rgb_deep.comp roams_rgb_deep_to_cmyk
theorem roams_hsi_to_hsv : Roams Val.hsi_to_hsv := roams_hsi_to_rgb_deep.comp roams_rgb_deep_to_hsv
theorem roams_hsi_to_hsl : Roams Val.hsi_to_hsl := roams_hsi_to_rgb_deep.comp roams_rgb_deep_to_hsl
theorem roams_hsi_to_hcy : Roams Val.hsi_to_hcy := roams_hsi_to_rgb_deep.comp roams_rgb_deep_to_hcy
theorem roams_hsv_to_rgb_true : Roams Val.hsv_to_rgb_true := roams_hsv_to_rgb_deep.comp roams_rgb_deep_to_rgb_true
theorem roams_hsv_to_grey_true : Roams Val.hsv_to_grey_true := roams_hsv_to_rgb_deep.comp roams_rgb_deep_to_grey_true
theorem roams_hsv_to_grey_deep : Roams Val.hsv_to_grey_deep := roams_hsv_to_rgb_deep.comp roams_rgb_deep_to_grey_deep
theorem roams_hsv_to_cmyk : Roams Val.hsv_to_cmyk := roams_hsv_to_rgb_deep.comp roams_rgb_deep_to_cmyk
theorem roams_hsv_to_hsi : Roams Val.hsv_to_hsi := roams_hsv_to_rgb_deep.comp roams_rgb_deep_to_hsi
theorem roams_hsv_to_hcy : Roams Val.hsv_to_hcy := roams_hsv_to_rgb_deep.comp roams_rgb_deep_to_hcy
theorem roams_hsl_to_rgb_true : Roams Val.hsl_to_rgb_true := roams_hsl_to_rgb_deep.comp roams_rgb_deep_to_rgb_true
theorem roams_hsl_to_grey_true : Roams Val.hsl_to_grey_true := roams_hsl_to_rgb_deep.comp roams_rgb_deep_to_grey_true
theorem roams_hsl_to_grey_deep : Roams Val.hsl_to_grey_deep := roams_hsl_to_rgb_deep.comp roams_rgb_deep_to_grey_deep
theorem roams_hsl_to_cmyk : Roams Val.hsl_to_cmyk := roams_hsl_to_rgb_deep.comp roams_rgb_deep_to_cmyk
theorem roams_hsl_to_hsi : Roams Val.hsl_to_hsi := roams_hsl_to_rgb_deep.comp roams_rgb_deep_to_hsi
theorem roams_hsl_to_hcy : Roams Val.hsl_to_hcy := roams_hsl_to_rgb_deep.comp roams_rgb_deep_to_hcy
theorem roams_hcy_to_rgb_true : Roams Val.hcy_to_rgb_true := roams_hcy_to_rgb_deep.comp roams_rgb_deep_to_rgb_true
theorem roams_hcy_to_grey_true : Roams Val.hcy_to_grey_true := roams_hcy_to_rgb_deep.comp roams_rgb_deep_to_grey_true
theorem roams_hcy_to_grey_deep : Roams Val.hcy_to_grey_deep := roams_hcy_to_rgb_deep.comp roams_rgb_deep_to_grey_deep
theorem roams_hcy_to_cmyk : Roams Val.hcy_to_cmyk := roams_hcy_to_rgb_deep.comp roams_rgb_deep_to_cmyk
theorem roams_hcy_to_hsi : Roams Val.hcy_to_hsi := roams_hcy_to_rgb_deep.comp roams_rgb_deep_to_hsi
theorem roams_hcy_to_hsv : Roams Val.hcy_to_hsv := roams_hcy_to_rgb_deep.comp roams_rgb_deep_to_hsv
theorem roams_hcy_to_hsl : Roams Val.hcy_to_hsl := roams_hcy_to_rgb_deep.comp roams_rgb_deep_to_hsl

theorem roams_conv (s t : ColorType) (hs : s ≠ .undefined) (ht : t ≠ .undefined) (hst : s ≠ t) (hs' : ¬ viaXyz s) (ht' : ¬ viaXyz t) : Roams (Val.conv s t) := by
  cases s <;> cases t
  · exact absurd rfl hst
  · exact roams_rgb_true_to_rgb_deep
  · exact roams_rgb_true_to_grey_true
  · exact roams_rgb_true_to_grey_deep
  · exact roams_rgb_true_to_cmyk
  · exact roams_rgb_true_to_hsi
  · exact roams_rgb_true_to_hsv
  · exact roams_rgb_true_to_hsl
  · exact roams_rgb_true_to_hcy
  · exact absurd rfl ht'
  · exact absurd rfl ht'
  · exact absurd rfl ht'
  · exact absurd rfl ht'
  · exact absurd rfl ht'
  · exact absurd rfl ht'
  · exact absurd rfl ht
  · exact roams_rgb_deep_to_rgb_true
  · exact absurd rfl hst
  · exact roams_rgb_deep_to_grey_true
  · exact roams_rgb_deep_to_grey_deep
  · exact roams_rgb_deep_to_cmyk
  · exact roams_rgb_deep_to_hsi
  · exact roams_rgb_deep_to_hsv
  · exact roams_rgb_deep_to_hsl
  · exact roams_rgb_deep_to_hcy
  · exact absurd rfl ht'
  · exact absurd rfl ht'
  · exact absurd rfl ht'
  · exact absurd rfl ht'
  · exact absurd rfl ht'
  · exact absurd rfl ht'
  · exact absurd rfl ht
  · exact roams_grey_true_to_rgb_true
  · exact roams_grey_true_to_rgb_deep
  · exact absurd rfl hst
  · exact roams_grey_true_to_grey_deep
  · exact roams_grey_true_to_cmyk
  · exact roams_grey_true_to_hsi
  · exact roams_grey_true_to_hsv
  · exact roams_grey_true_to_hsl
  · exact roams_grey_true_to_hcy
  · exact absurd rfl ht'
  · exact absurd rfl ht'
  · exact absurd rfl ht'
  · exact absurd rfl ht'
  · exact absurd rfl ht'
  · exact absurd rfl ht'
  · exact absurd rfl ht
  · exact roams_grey_deep_to_rgb_true
  · exact roams_grey_deep_to_rgb_deep
  · exact roams_grey_deep_to_grey_true
  · exact absurd rfl hst
  · exact roams_grey_deep_to_cmyk
  · exact roams_grey_deep_to_hsi
  · exact roams_grey_deep_to_hsv
  · exact roams_grey_deep_to_hsl
  · exact roams_grey_deep_to_hcy
  · exact absurd rfl ht'
  · exact absurd rfl ht'
  · exact absurd rfl ht'
  · exact absurd rfl ht'
  · exact absurd rfl ht'
  · exact absurd rfl ht'
  · exact absurd rfl ht
  · exact roams_cmyk_to_rgb_true
  · exact roams_cmyk_to_rgb_deep
  · exact roams_cmyk_to_grey_true
  · exact roams_cmyk_to_grey_deep
  · exact absurd rfl hst
  · exact roams_cmyk_to_hsi
  · exact roams_cmyk_to_hsv
  · exact roams_cmyk_to_hsl
  · exact roams_cmyk_to_hcy
  · exact absurd rfl ht'
  · exact absurd rfl ht'
  · exact absurd rfl ht'
  · exact absurd rfl ht'
  · exact absurd rfl ht'
  · exact absurd rfl ht'
  · exact absurd rfl ht
  · exact roams_hsi_to_rgb_true
  · exact roams_hsi_to_rgb_deep
  · exact roams_hsi_to_grey_true
  · exact roams_hsi_to_grey_deep
  · exact roams_hsi_to_cmyk
  · exact absurd rfl hst
  · exact roams_hsi_to_hsv
  · exact roams_hsi_to_hsl
  · exact roams_hsi_to_hcy
  · exact absurd rfl ht'
  · exact absurd rfl ht'
  · exact absurd rfl ht'
  · exact absurd rfl ht'
  · exact absurd rfl ht'
  · exact absurd rfl ht'
  · exact absurd rfl ht
  · exact roams_hsv_to_rgb_true
  · exact roams_hsv_to_rgb_deep
  · exact roams_hsv_to_grey_true
  · exact roams_hsv_to_grey_deep
  · exact roams_hsv_to_cmyk
  · exact roams_hsv_to_hsi
  · exact absurd rfl hst
  · exact roams_hsv_to_hsl
  · exact roams_hsv_to_hcy
  · exact absurd rfl ht'
  · exact absurd rfl ht'
  · exact absurd rfl ht'
  · exact absurd rfl ht'
  · exact absurd rfl ht'
  · exact absurd rfl ht'
  · exact absurd rfl ht
  · exact roams_hsl_to_rgb_true
  · exact roams_hsl_to_rgb_deep
  · exact roams_hsl_to_grey_true
  · exact roams_hsl_to_grey_deep
  · exact roams_hsl_to_cmyk
  · exact roams_hsl_to_hsi
  · exact roams_hsl_to_hsv
  · exact absurd rfl hst
  · exact roams_hsl_to_hcy
  · exact absurd rfl ht'
  · exact absurd rfl ht'
  · exact absurd rfl ht'
  · exact absurd rfl ht'
  · exact absurd rfl ht'
  · exact absurd rfl ht'
  · exact absurd rfl ht
  · exact roams_hcy_to_rgb_true
  · exact roams_hcy_to_rgb_deep
  · exact roams_hcy_to_grey_true
  · exact roams_hcy_to_grey_deep
  · exact roams_hcy_to_cmyk
  · exact roams_hcy_to_hsi
  · exact roams_hcy_to_hsv
  · exact roams_hcy_to_hsl
  · exact absurd rfl hst
  · exact absurd rfl ht'
  · exact absurd rfl ht'
  · exact absurd rfl ht'
  · exact absurd rfl ht'
  · exact absurd rfl ht'
  · exact absurd rfl ht'
  · exact absurd rfl ht
  · exact absurd rfl hs'
  · exact absurd rfl hs'
  · exact absurd rfl hs'
  · exact absurd rfl hs'
  · exact absurd rfl hs'
  · exact absurd rfl hs'
  · exact absurd rfl hs'
  · exact absurd rfl hs'
  · exact absurd rfl hs'
  · exact absurd rfl hst
  · exact absurd rfl hs'
  · exact absurd rfl hs'
  · exact absurd rfl hs'
  · exact absurd rfl hs'
  · exact absurd rfl hs'
  · exact absurd rfl ht
  · exact absurd rfl hs'
  · exact absurd rfl hs'
  · exact absurd rfl hs'
  · exact absurd rfl hs'
  · exact absurd rfl hs'
  · exact absurd rfl hs'
  · exact absurd rfl hs'
  · exact absurd rfl hs'
  · exact absurd rfl hs'
  · exact absurd rfl hs'
  · exact absurd rfl hst
  · exact absurd rfl hs'
  · exact absurd rfl hs'
  · exact absurd rfl hs'
  · exact absurd rfl hs'
  · exact absurd rfl ht
  · exact absurd rfl hs'
  · exact absurd rfl hs'
  · exact absurd rfl hs'
  · exact absurd rfl hs'
  · exact absurd rfl hs'
  · exact absurd rfl hs'
  · exact absurd rfl hs'
  · exact absurd rfl hs'
  · exact absurd rfl hs'
  · exact absurd rfl hs'
  · exact absurd rfl hs'
  · exact absurd rfl hst
  · exact absurd rfl hs'
  · exact absurd rfl hs'
  · exact absurd rfl hs'
  · exact absurd rfl ht
  · exact absurd rfl hs'
  · exact absurd rfl hs'
  · exact absurd rfl hs'
  · exact absurd rfl hs'
  · exact absurd rfl hs'
  · exact absurd rfl hs'
  · exact absurd rfl hs'
  · exact absurd rfl hs'
  · exact absurd rfl hs'
  · exact absurd rfl hs'
  · exact absurd rfl hs'
  · exact absurd rfl hs'
  · exact absurd rfl hst
  · exact absurd rfl hs'
  · exact absurd rfl hs'
  · exact absurd rfl ht
  · exact absurd rfl hs'
  · exact absurd rfl hs'
  · exact absurd rfl hs'
  · exact absurd rfl hs'
  · exact absurd rfl hs'
  · exact absurd rfl hs'
  · exact absurd rfl hs'
  · exact absurd rfl hs'
  · exact absurd rfl hs'
  · exact absurd rfl hs'
  · exact absurd rfl hs'
  · exact absurd rfl hs'
  · exact absurd rfl hs'
  · exact absurd rfl hst
  · exact absurd rfl hs'
  · exact absurd rfl ht
  · exact absurd rfl hs'
  · exact absurd rfl hs'
  · exact absurd rfl hs'
  · exact absurd rfl hs'
  · exact absurd rfl hs'
  · exact absurd rfl hs'
  · exact absurd rfl hs'
  · exact absurd rfl hs'
  · exact absurd rfl hs'
  · exact absurd rfl hs'
  · exact absurd rfl hs'
  · exact absurd rfl hs'
  · exact absurd rfl hs'
  · exact absurd rfl hs'
  · exact absurd rfl hst
  · exact absurd rfl ht
  · exact absurd rfl hs
  · exact absurd rfl hs
  · exact absurd rfl hs
  · exact absurd rfl hs
  · exact absurd rfl hs
  · exact absurd rfl hs
  · exact absurd rfl hs
  · exact absurd rfl hs
  · exact absurd rfl hs
  · exact absurd rfl hs
  · exact absurd rfl hs
  · exact absurd rfl hs
  · exact absurd rfl hs
  · exact absurd rfl hs
  · exact absurd rfl hs
  · exact absurd rfl hs

end Conv
