import Verif.GrowConv

/-! The rules of `Verif/Grow.lean` applied to the functions of the library that are not conversions. -/

open Outcome Fl Prog

namespace Grow
variable [FloatModel] {p q : Ptr}

/-- A function of one pointer that adds at most five objects. -/
class Five (f : Ptr → Prog Ptr) : Prop where
  upTo : ∀ p, UpTo 5 (f p)

theorem five {f : Ptr → Prog Ptr} [h : Five f] (p : Ptr) : UpTo 5 (f p) := h.upTo p

instance f_pure : Five (pure : Ptr → Prog Ptr) := ⟨fun _ => (adds_pure _).1.weaken (by omega)⟩

theorem case_call {n : Nat} {t : ColorType} {f : Ptr → Prog Ptr} [Makes f n] (hn : n ≤ 5 := by decide) : UpTo 5 (Converter.cast t p >>= f) :=
  UpTo.skip (adds_cast _ _) fun _ => (adds_call _).1.weaken hn

instance f_to_rgb_true : Five Converter.to_rgb_true := ⟨fun _ => UpTo.skip (adds_load _) fun _ => by
  split <;> first | exact case_call | exact (adds_cast _ _).1.weaken (by omega) | exact (adds_pure _).1.weaken (by omega)⟩

instance f_to_rgb_deep : Five Converter.to_rgb_deep := ⟨fun _ => UpTo.skip (adds_load _) fun _ => by
  split <;> first | exact case_call | exact (adds_cast _ _).1.weaken (by omega) | exact (adds_pure _).1.weaken (by omega)⟩

instance f_to_grey_true : Five Converter.to_grey_true := ⟨fun _ => UpTo.skip (adds_load _) fun _ => by
  split <;> first | exact case_call | exact (adds_cast _ _).1.weaken (by omega) | exact (adds_pure _).1.weaken (by omega)⟩

instance f_to_grey_deep : Five Converter.to_grey_deep := ⟨fun _ => UpTo.skip (adds_load _) fun _ => by
  split <;> first | exact case_call | exact (adds_cast _ _).1.weaken (by omega) | exact (adds_pure _).1.weaken (by omega)⟩

instance f_to_cmyk : Five Converter.to_cmyk := ⟨fun _ => UpTo.skip (adds_load _) fun _ => by
  split <;> first | exact case_call | exact (adds_cast _ _).1.weaken (by omega) | exact (adds_pure _).1.weaken (by omega)⟩

instance f_to_hsi : Five Converter.to_hsi := ⟨fun _ => UpTo.skip (adds_load _) fun _ => by
  split <;> first | exact case_call | exact (adds_cast _ _).1.weaken (by omega) | exact (adds_pure _).1.weaken (by omega)⟩

instance f_to_hsv : Five Converter.to_hsv := ⟨fun _ => UpTo.skip (adds_load _) fun _ => by
  split <;> first | exact case_call | exact (adds_cast _ _).1.weaken (by omega) | exact (adds_pure _).1.weaken (by omega)⟩

instance f_to_hsl : Five Converter.to_hsl := ⟨fun _ => UpTo.skip (adds_load _) fun _ => by
  split <;> first | exact case_call | exact (adds_cast _ _).1.weaken (by omega) | exact (adds_pure _).1.weaken (by omega)⟩

instance f_to_hcy : Five Converter.to_hcy := ⟨fun _ => UpTo.skip (adds_load _) fun _ => by
  split <;> first | exact case_call | exact (adds_cast _ _).1.weaken (by omega) | exact (adds_pure _).1.weaken (by omega)⟩

instance f_to_xyz : Five Converter.to_xyz := ⟨fun _ => UpTo.skip (adds_load _) fun _ => by
  split <;> first | exact case_call | exact (adds_cast _ _).1.weaken (by omega) | exact (adds_pure _).1.weaken (by omega)⟩

instance f_to_xyy : Five Converter.to_xyy := ⟨fun _ => UpTo.skip (adds_load _) fun _ => by
  split <;> first | exact case_call | exact (adds_cast _ _).1.weaken (by omega) | exact (adds_pure _).1.weaken (by omega)⟩

instance f_to_cieluv : Five Converter.to_cieluv := ⟨fun _ => UpTo.skip (adds_load _) fun _ => by
  split <;> first | exact case_call | exact (adds_cast _ _).1.weaken (by omega) | exact (adds_pure _).1.weaken (by omega)⟩

instance f_to_lab : Five Converter.to_lab := ⟨fun _ => UpTo.skip (adds_load _) fun _ => by
  split <;> first | exact case_call | exact (adds_cast _ _).1.weaken (by omega) | exact (adds_pure _).1.weaken (by omega)⟩

instance f_to_lch_ab : Five Converter.to_lch_ab := ⟨fun _ => UpTo.skip (adds_load _) fun _ => by
  split <;> first | exact case_call | exact (adds_cast _ _).1.weaken (by omega) | exact (adds_pure _).1.weaken (by omega)⟩

instance f_to_lch_uv : Five Converter.to_lch_uv := ⟨fun _ => UpTo.skip (adds_load _) fun _ => by
  split <;> first | exact case_call | exact (adds_cast _ _).1.weaken (by omega) | exact (adds_pure _).1.weaken (by omega)⟩

theorem f_convertTo (t : ColorType) (p : Ptr) : UpTo 5 (Converter.convertTo p t) := by
  cases t <;> simp only [Converter.convertTo] <;> first | exact five p | exact (adds_pure _).1.weaken (by omega)

theorem f_dispatcher (t : ColorType) (p : Ptr) : UpTo 5 (Conv.dispatcher t p) := by
  cases t <;> simp only [Conv.dispatcher] <;> first | exact five p | exact (adds_pure _).1.weaken (by omega)

theorem f_direct (s t : ColorType) (p : Ptr) : UpTo 5 (Conv.direct s t p) := by
  cases s <;> cases t <;> simp only [Conv.direct, Conv.direct_rgb_true, Conv.direct_rgb_deep, Conv.direct_grey_true, Conv.direct_grey_deep, Conv.direct_cmyk, Conv.direct_hsi,
    Conv.direct_hsv, Conv.direct_hsl, Conv.direct_hcy, Conv.direct_xyz, Conv.direct_xyy, Conv.direct_cieluv, Conv.direct_lab, Conv.direct_lch_ab, Conv.direct_lch_uv] <;>
    first | exact (adds_call p).1.weaken (by decide) | exact (adds_pure _).1.weaken (by omega)

/-! ### Adjustments -/

/-- An object is made and converted. -/
theorem f_made (o : Outcome Color) (t : ColorType) : UpTo 6 (lift o >>= fun n => alloc n >>= fun n => Converter.convertTo n t) :=
  UpTo.skip (adds_lift _) fun _ => ((adds_alloc _).1.bind fun _ => f_convertTo _ _).weaken (by omega)

theorem f_saturate_in_rgb_space (x : Fl) : UpTo 11 (Adjust.saturate_in_rgb_space p x) :=
  (f_convertTo _ _).bind (m := 6) fun _ => UpTo.skip (adds_load _) fun _ => UpTo.skip (adds_lift _) fun _ => UpTo.skip (adds_lift _) fun _ => UpTo.skip (adds_lift _) fun _ =>
    UpTo.skip (adds_load _) fun _ => f_made _ _

theorem f_luminate_in_rgb_space (x : Fl) : UpTo 11 (Adjust.luminate_in_rgb_space p x) :=
  (f_convertTo _ _).bind (m := 6) fun _ => UpTo.skip (adds_load _) fun _ => UpTo.skip (adds_lift _) fun _ => UpTo.skip (adds_lift _) fun _ => UpTo.skip (adds_lift _) fun _ =>
    UpTo.skip (adds_load _) fun _ => f_made _ _

theorem f_saturate_in_hsl_space (x : Fl) : UpTo 10 (Adjust.saturate_in_hsl_space p x) := by
  simp only [Adjust.saturate_in_hsl_space]
  split
  · exact (adds_pure _).1.weaken (by omega)
  · exact (f_convertTo _ _).bind (m := 5) fun _ => UpTo.skip (adds_load _) fun _ => UpTo.skip (adds_lift _) fun _ => UpTo.skip (adds_lift _) fun _ => UpTo.skip (adds_store _ _) fun _ =>
      UpTo.skip (adds_load _) fun _ => f_convertTo _ _

theorem f_luminate_in_hsl_space (x : Fl) : UpTo 10 (Adjust.luminate_in_hsl_space p x) := by
  simp only [Adjust.luminate_in_hsl_space]
  split
  · exact (adds_pure _).1.weaken (by omega)
  · exact (f_convertTo _ _).bind (m := 5) fun _ => UpTo.skip (adds_load _) fun _ => UpTo.skip (adds_lift _) fun _ => UpTo.skip (adds_lift _) fun _ => UpTo.skip (adds_store _ _) fun _ =>
      UpTo.skip (adds_load _) fun _ => f_convertTo _ _

theorem f_byReference {n : Nat} {f : Ptr → Fl → Prog Ptr} {x : Fl} (hf : ∀ p, UpTo n (f p x)) (i : Nat) : UpTo n (Adjust.byReference f i x) :=
  (hf _).bind (m := 0) fun _ => UpTo.skip (adds_load _) fun _ => UpTo.skip (adds_load _) fun _ => (adds_store _ _).1

/-! ### Combinations -/

theorem f_turned (f : Fl → Fl) : UpTo 6 (Combine.turned p q f) :=
  UpTo.skip (adds_load _) fun _ => UpTo.skip (adds_lift _) fun _ => UpTo.skip (adds_lift _) fun _ => UpTo.skip (adds_lift _) fun _ => UpTo.skip (adds_load _) fun _ => f_made _ _

theorem f_turns (x : Fl) (n i : Nat) : UpTo (6 * n) (Combine.turns p q x n i) := by
  induction n generalizing i with
  | zero => exact (adds_pure _).1
  | succ n ih => exact ((f_turned _).bind fun _ => (ih _).bind fun _ => (adds_pure _).1).weaken (by omega)

theorem f_create_combination (n : Int) : UpTo (5 + 6 * (n - 1).toNat) (Combine.create_combination p n) := by
  simp only [Combine.create_combination]
  split
  · exact adds_throw.1
  · exact (f_convertTo _ _).bind (m := 6 * (n - 1).toNat) fun _ => (f_turns _ _ _).bind (m := 0) fun _ => (adds_pure _).1

theorem f_create_complimentary : UpTo 11 (Combine.create_complimentary p) :=
  (f_create_combination 2).bind (m := 0) fun v => by
    split
    · exact (adds_pure _).1
    · exact adds_ub.1

theorem f_create_analogous (x : Fl) : UpTo 17 (Combine.create_analogous p x) := by
  simp only [Combine.create_analogous]
  split
  · exact adds_throw.1
  · exact (f_convertTo _ _).bind (m := 12) fun _ => (f_turned _).bind (m := 6) fun _ => (f_turned _).bind (m := 0) fun _ => (adds_pure _).1

theorem f_renewed : UpTo 1 (Combine.renewed p q) :=
  UpTo.skip (adds_load _) fun _ => UpTo.skip (adds_lift _) fun _ => UpTo.skip (adds_lift _) fun _ => UpTo.skip (adds_lift _) fun _ => UpTo.skip (adds_load _) fun _ =>
    UpTo.skip (adds_lift _) fun _ => (adds_alloc _).1

theorem f_shade (t : ColorType) (mode : Int) (x : Fl) : UpTo 31 (Combine.shade p t mode x q) :=
  (f_convertTo _ _).bind (m := 26) fun _ => by
    split
    · exact (f_renewed.bind fun _ => (f_saturate_in_hsl_space x).bind fun _ => f_convertTo _ _).weaken (by omega)
    · split
      · exact (f_renewed.bind fun _ => (f_luminate_in_hsl_space x).bind fun _ => f_convertTo _ _).weaken (by omega)
      · split
        · exact f_renewed.bind (m := 25) fun _ => (f_saturate_in_hsl_space x).bind (m := 15) fun _ => (f_luminate_in_hsl_space x).bind (m := 5) fun _ => f_convertTo _ _
        · exact adds_throw.1

theorem f_shades (t : ColorType) (mode : Int) (x : Fl) (n : Nat) (q : Ptr) : UpTo (31 * n) (Combine.shades p t mode x n q) := by
  induction n generalizing q with
  | zero => exact (adds_pure _).1
  | succ n ih => exact ((f_shade t mode x).bind fun _ => (ih _).bind fun _ => (adds_pure _).1).weaken (by omega)

theorem f_create_monochromatic (mode : Int) (x : Fl) (n : Int) : UpTo (31 * (n - 1).toNat) (Combine.create_monochromatic p mode x n) := by
  simp only [Combine.create_monochromatic]
  split
  · exact adds_throw.1
  · exact UpTo.skip (adds_load _) fun _ => (f_shades _ _ _ _ _).bind (m := 0) fun _ => (adds_pure _).1

theorem f_create_complimentary_split (x : Fl) : UpTo 33 (Combine.create_complimentary_split p x) :=
  (f_convertTo _ _).bind (m := 28) fun _ => f_create_complimentary.bind (m := 17) fun _ => (f_create_analogous x).bind (m := 0) fun v => by
    split
    · exact (adds_pure _).1
    · exact adds_ub.1

/-! ### Chromatic adaptation -/

theorem f_newDefinition (a : Nat) (old target : Option Nat) : UpTo 0 (Adapt.newDefinition a old target) := fun h => by
  unfold Adapt.newDefinition
  split
  · exact ⟨le_rfl, le_rfl⟩
  · exact ⟨le_rfl, le_rfl⟩
  · split <;> exact ⟨le_rfl, le_rfl⟩

theorem f_adapt (f : Adapt.Core) (a : Nat) (target : Option Nat) : UpTo 11 (Adapt.adapt f a p target) :=
  UpTo.skip (adds_load _) fun _ => UpTo.skip adds_world fun _ => UpTo.skip (adds_lift _) fun _ => by
    split
    · exact (adds_pure _).1.weaken (by omega)
    · exact (five _).bind (m := 6) fun _ => UpTo.skip (adds_load _) fun _ => UpTo.skip (adds_load _) fun _ => UpTo.skip adds_world fun _ => UpTo.skip (adds_lift _) fun _ =>
        UpTo.skip (adds_lift _) fun _ => UpTo.skip (adds_lift _) fun _ => UpTo.skip (adds_lift _) fun _ => ((f_newDefinition _ _ _).bind fun _ => UpTo.skip (adds_lift _) fun _ =>
          UpTo.skip (adds_lift _) fun _ => UpTo.skip (adds_lift _) fun _ => f_made _ _).weaken (by omega)

/-! ### Compositing and blending -/

theorem f_generalPorterDuff (us ud ub : Bool) (f : Nat → Fl → Fl → Fl) : UpTo 1 (Blend.generalPorterDuff p q us ud ub f) := by
  simp only [Blend.generalPorterDuff]
  split
  · exact adds_throw.1
  · split
    · exact adds_throw.1
    · exact UpTo.skip (adds_load _) fun _ => UpTo.skip (adds_load _) fun _ => by
        split
        · exact adds_throw.1
        · exact UpTo.skip (adds_lift _) fun _ => (adds_alloc _).1

theorem f_operator (us ud ub : Bool) (f : Color → Color → Nat → Fl → Fl → Fl) : UpTo 16 (Blend.operator us ud ub f p q) := by
  simp only [Blend.operator]
  split
  · exact adds_throw.1
  · split
    · exact adds_throw.1
    · exact UpTo.skip (adds_load _) fun _ => UpTo.skip (adds_load _) fun _ => by
        split
        · exact adds_throw.1
        · exact (five _).bind (m := 11) fun _ => (five _).bind (m := 6) fun _ => (f_generalPorterDuff _ _ _ _).bind (m := 5) fun _ => f_convertTo _ _

theorem f_hue (us ud : Bool) : UpTo 16 (ColorBlend.hue us ud p q) :=
  (five _).bind (m := 11) fun _ => UpTo.skip (adds_load _) fun _ => (five _).bind (m := 6) fun _ => UpTo.skip (adds_load _) fun _ => UpTo.skip (adds_lift _) fun _ =>
    (adds_alloc _).1.bind (m := 5) fun _ => UpTo.skip (adds_load _) fun _ => f_convertTo _ _

theorem f_saturation (us ud : Bool) : UpTo 16 (ColorBlend.saturation us ud p q) :=
  (five _).bind (m := 11) fun _ => UpTo.skip (adds_load _) fun _ => (five _).bind (m := 6) fun _ => UpTo.skip (adds_load _) fun _ => UpTo.skip (adds_lift _) fun _ =>
    (adds_alloc _).1.bind (m := 5) fun _ => UpTo.skip (adds_load _) fun _ => f_convertTo _ _

theorem f_color (us ud : Bool) : UpTo 16 (ColorBlend.color us ud p q) :=
  (five _).bind (m := 11) fun _ => UpTo.skip (adds_load _) fun _ => (five _).bind (m := 6) fun _ => UpTo.skip (adds_load _) fun _ => UpTo.skip (adds_lift _) fun _ =>
    (adds_alloc _).1.bind (m := 5) fun _ => UpTo.skip (adds_load _) fun _ => f_convertTo _ _

theorem f_luminosity (us ud : Bool) : UpTo 16 (ColorBlend.luminosity us ud p q) :=
  (five _).bind (m := 11) fun _ => UpTo.skip (adds_load _) fun _ => (five _).bind (m := 6) fun _ => UpTo.skip (adds_load _) fun _ => UpTo.skip (adds_lift _) fun _ =>
    (adds_alloc _).1.bind (m := 5) fun _ => UpTo.skip (adds_load _) fun _ => f_convertTo _ _

/-! ### Distances -/

theorem f_between {conv : Ptr → Prog Ptr} [Five conv] (f : Color → Color → Outcome Fl) : UpTo 10 (Distance.between conv f p q) := by
  unfold Distance.between
  split
  · exact (adds_pure _).1.weaken (by omega)
  · exact (five _).bind (m := 5) fun _ => (five _).bind (m := 0) fun _ => by
      split
      · exact (adds_pure _).1
      · exact UpTo.skip (adds_load _) fun _ => UpTo.skip (adds_load _) fun _ => (adds_lift _).1

theorem f_squared (t : ColorType) : UpTo 10 (Distance.euclidean_distance_squared p q t) := by
  unfold Distance.euclidean_distance_squared
  split
  · exact (adds_pure _).1.weaken (by omega)
  · split <;> exact f_between _

theorem f_euclidean (t : ColorType) : UpTo 10 (Distance.euclidean_distance p q t) := by
  unfold Distance.euclidean_distance
  split
  · exact (adds_pure _).1.weaken (by omega)
  · exact (f_squared _).bind (m := 0) fun _ => (adds_pure _).1

/-! ### Arithmetic -/

theorem f_checked {α : Type} {n : Nat} {x : Prog α} (w : Fl) (h : UpTo n x) : UpTo n (Calc.checked w x) := by
  unfold Calc.checked
  split
  · exact adds_throw.1
  · exact h

theorem f_checkedPositive {α : Type} {n : Nat} {x : Prog α} (w : Fl) (h : UpTo n x) : UpTo n (Calc.checkedPositive w x) := by
  unfold Calc.checkedPositive
  split
  · exact adds_throw.1
  · exact h

theorem f_binary (f : Color → Color → Outcome Color) (p q : Ptr) : UpTo 1 (Calc.binary f p q) :=
  UpTo.skip (adds_load _) fun _ => UpTo.skip (adds_load _) fun _ => UpTo.skip (adds_lift _) fun _ => (adds_alloc _).1

theorem f_via {n : Nat} {conv back : Ptr → Prog Ptr} [Five conv] [Five back] {f : Ptr → Ptr → Prog Ptr} (hf : ∀ p q, UpTo n (f p q)) : UpTo (n + 15) (Calc.via conv back f p q) :=
  ((five _).bind fun _ => (five _).bind fun _ => (hf _ _).bind fun _ => five _).weaken (by omega)

theorem f_via_pure {n : Nat} {conv : Ptr → Prog Ptr} [Five conv] {f : Ptr → Ptr → Prog Ptr} (hf : ∀ p q, UpTo n (f p q)) : UpTo (n + 10) (Calc.via conv pure f p q) :=
  ((five _).bind fun _ => (five _).bind fun _ => (hf _ _).bind fun _ => (adds_pure _).1).weaken (by omega)

theorem f_addOwn (t : ColorType) (w1 w2 : Fl) (ia : Bool) (p q : Ptr) : UpTo 1 (Calc.addOwn t w1 w2 ia p q) := f_checked _ (f_checked _ (f_binary _ _ _))

theorem f_subOwn (t : ColorType) (w : Fl) (ia : Bool) (p q : Ptr) : UpTo 1 (Calc.subOwn t w ia p q) := f_checked _ (f_binary _ _ _)

theorem f_addOf (t : ColorType) (w1 w2 : Fl) (ia : Bool) (p q : Ptr) : UpTo 16 (Calc.addOf t w1 w2 ia p q) := by
  cases t <;> first
    | exact (f_addOwn _ w1 w2 ia _ _).weaken (by omega)
    | exact f_checked _ (f_checked _ (f_via (f_addOwn _ w1 w2 ia)))

theorem f_subOf (t : ColorType) (w : Fl) (ia : Bool) (p q : Ptr) : UpTo 16 (Calc.subOf t w ia p q) := by
  cases t <;> first
    | exact (f_subOwn _ w ia _ _).weaken (by omega)
    | exact f_checked _ (f_via (f_subOwn _ w false))

theorem f_mixOf (t : ColorType) (w : Fl) (ia : Bool) (p q : Ptr) : UpTo 16 (Calc.mixOf t w ia p q) := by
  cases t <;> first
    | exact f_addOf _ w (1 - w) ia _ _
    | exact f_checked _ (f_addOf _ w (1 - w) ia _ _)

theorem f_add (w1 w2 : Fl) (ia : Bool) : UpTo 26 (Calc.add w1 w2 ia p q) := f_checked _ (f_checked _ (UpTo.skip (adds_load _) fun c => by
  split <;> first
    | exact f_via_pure (f_addOf _ w1 w2 ia)
    | exact (adds_pure _).1.weaken (by omega)))

theorem f_mix (w : Fl) (ia : Bool) : UpTo 26 (Calc.mix w ia p q) := f_checkedPositive _ (UpTo.skip (adds_load _) fun c => by
  split <;> first
    | exact f_via_pure (f_mixOf _ w ia)
    | exact (adds_pure _).1.weaken (by omega))

theorem f_subtract (w : Fl) (ia : Bool) : UpTo 26 (Calc.subtract w ia p q) := f_checkedPositive _ (UpTo.skip (adds_load _) fun c => by
  split <;> first
    | exact f_via_pure (f_subOf _ w ia)
    | exact (adds_pure _).1.weaken (by omega))

theorem f_loadAll (ps : List Ptr) : UpTo 0 (Calc.loadAll ps) := by
  induction ps with
  | nil => exact (adds_pure _).1
  | cons _ _ ih => exact UpTo.skip (adds_load _) fun _ => ih.bind (m := 0) fun _ => (adds_pure _).1

theorem f_average (t : ColorType) (ia : Bool) (ps : List Ptr) : UpTo 1 (Calc.average t ia ps) := by
  unfold Calc.average
  split
  · exact adds_throw.1
  · exact ((f_loadAll ps).bind fun _ => UpTo.skip (adds_lift _) fun _ => (adds_alloc _).1).weaken (by omega)

end Grow
