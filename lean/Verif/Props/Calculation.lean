import Verif.CalcExact

/-!
# Colour arithmetic: C63, C65, C68

The properties are about `Calc.addOf t`, `Calc.mixOf t`, `Calc.subOf t`, the overloads for one class, and `Calc.add`, `Calc.mix`, `Calc.subtract`, the
functions for `color_base`.
-/

open Outcome Fl Prog ObjectSpec ConvSpec BlendSpec

namespace CalcSpec

/-- The call returns a new valid colour of type `t` in colour space `sp`. -/
def Gives (p : Prog Ptr) (h : Heap) (t : ColorType) (sp : Option Nat) : Prop :=
  ∃ q h' r, p h = (ok (some q), h') ∧ h'.colors[q]? = some r ∧ h.colors.length ≤ q ∧ IsColor t r ∧ ComponentsInRange r ∧ r.space = sp

/-- The call throws invalid_argument and changes nothing. -/
def Rejects (p : Prog Ptr) (h : Heap) : Prop := p h = (.throw ⟨.invalidArgument, true⟩, h)

/-- The documented range of a weight. -/
def Weight (w : Fl) : Prop := InRange 0 1 w

/-- The types `add` supports for `color_base`. -/
def Addable (t : ColorType) : Prop := t ≠ .undefined ∧ t ≠ .hsi ∧ t ≠ .hcy

/-- The types `mix` and `subtract` support for `color_base`. -/
def Mixable (t : ColorType) : Prop := t ≠ .undefined ∧ t ≠ .hsi ∧ t ≠ .hcy ∧ t ≠ .xyy ∧ t ≠ .cieluv

end CalcSpec

open CalcSpec

namespace Calc

section
variable [FloatModel]

theorem not_pass {w : Fl} (h1 : w ≠ nan) (h2 : ¬ Weight w) : ¬ Pass w := by
  rw [pass_iff]
  exact fun h => h.elim h2 h1

theorem rejects_throw (h : Heap) : Rejects Prog.throwNewInvalid h := rfl

theorem Yields.gives {p : Ptr → Ptr → Prog Ptr} {w : World} {a b r : Color} {t : ColorType} (hy : Yields p w a b r) (hf : Conv.Fresh t a.space r)
    {h : Heap} {i j : Nat} (hw : h.world = w) (hi : h.colors[i]? = some a) (hj : h.colors[j]? = some b) : Gives (p (some i) (some j)) h t a.space := by
  obtain ⟨q, h', e, l, n, -⟩ := hy h i j hw hi hj
  exact ⟨q, h', r, e, l, n, hf.col, hf.rng, hf.space⟩

/-- The `color_base` functions: convert the second colour, then call the overload. -/
theorem dispatch {s t : ColorType} (hs : s ≠ .undefined) (ht : t ≠ .undefined) {F : Ptr → Ptr → Prog Ptr} {a b b' r : Color} {h : Heap} {i j : Nat}
    (ha : IsColor t a) (hb : IsColor s b) (hi : h.colors[i]? = some a) (hj : h.colors[j]? = some b) (vb : Val.to s t h.world b = ok b') (hF : Yields F h.world a b' r) :
    ∃ q h', via (Conv.dispatcher t) pure F (some i) (some j) h = (ok (some q), h') ∧ h'.colors[q]? = some r ∧ h.colors.length ≤ q ∧
      (¬ (s = .rgbDeep ∧ Cie t) → Frame h h') := by
  have e1 := Conv.dispatcher_same t ht h i _ hi ha.cls ha.ctype
  obtain ⟨q2, g2, e2, c2⟩ := call_to hs ht hb hj vb
  have hi2 : g2.colors[i]? = some a := by
    by_cases hij : i = j
    · subst hij
      have hab : a = b := by rw [hi] at hj; exact Option.some.inj hj
      rcases c2.fresh with ⟨-, rfl, -, -⟩ | ⟨-, hn⟩
      · exact hi
      · rw [← hab] at hn; exact absurd ha.ctype hn
    · exact c2.others i a hij hi
  obtain ⟨q3, g3, e3, l3, n3, f3⟩ := hF g2 i q2 c2.world hi2 c2.here
  refine ⟨q3, g3, ?_, l3, c2.grows.trans n3, fun hn => (c2.frame (by rw [hb.ctype]; exact hn)).trans f3⟩
  simp only [via, Prog.bind_def, e1, e2, e3, pure_run]

theorem add_pass {w1 w2 : Fl} (h1 : Pass w1) (h2 : Pass w2) (ia : Bool) {t : ColorType} (ht : Addable t) {h : Heap} {i : Nat} {a : Color} (hi : h.colors[i]? = some a) (ha : IsColor t a)
    (p : Ptr) : add w1 w2 ia (some i) p h = via (Conv.dispatcher t) pure (addOf t w1 w2 ia) (some i) p h := by
  simp only [add, checked_pass h1, checked_pass h2, Prog.bind_def, load, hi, ha.ctype]
  obtain ⟨h1, h2, h3⟩ := ht
  cases t <;> first | contradiction | rfl

theorem mix_pass {w : Fl} (h1 : ¬ (w ≤ 0 ∨ w > 1)) (ia : Bool) {t : ColorType} (ht : Mixable t) {h : Heap} {i : Nat} {a : Color} (hi : h.colors[i]? = some a) (ha : IsColor t a)
    (p : Ptr) : mix w ia (some i) p h = via (Conv.dispatcher t) pure (mixOf t w ia) (some i) p h := by
  simp only [mix, checkedPositive, if_neg h1, Prog.bind_def, load, hi, ha.ctype]
  obtain ⟨h1, h2, h3, h4, h5⟩ := ht
  cases t <;> first | contradiction | rfl

theorem subtract_pass {w : Fl} (h1 : ¬ (w ≤ 0 ∨ w > 1)) (ia : Bool) {t : ColorType} (ht : Mixable t) {h : Heap} {i : Nat} {a : Color} (hi : h.colors[i]? = some a) (ha : IsColor t a)
    (p : Ptr) : subtract w ia (some i) p h = via (Conv.dispatcher t) pure (subOf t w ia) (some i) p h := by
  simp only [subtract, checkedPositive, if_neg h1, Prog.bind_def, load, hi, ha.ctype]
  obtain ⟨h1, h2, h3, h4, h5⟩ := ht
  cases t <;> first | contradiction | rfl

theorem addOf_fail {w1 w2 : Fl} (h : ¬ (Pass w1 ∧ Pass w2)) (t : ColorType) (ia : Bool) (p q : Ptr) : addOf t w1 w2 ia p q = Prog.throwNewInvalid := by
  by_cases h1 : Pass w1
  · have h2 : ¬ Pass w2 := fun h2 => h ⟨h1, h2⟩
    cases t <;> simp only [addOf, addOwn, checked_pass h1, checked_fail h2]
  · cases t <;> simp only [addOf, addOwn, checked_fail h1]

theorem add_fail {w1 w2 : Fl} (h : ¬ (Pass w1 ∧ Pass w2)) (ia : Bool) (p q : Ptr) : add w1 w2 ia p q = Prog.throwNewInvalid := by
  by_cases h1 : Pass w1
  · have h2 : ¬ Pass w2 := fun h2 => h ⟨h1, h2⟩
    simp only [add, checked_pass h1, checked_fail h2]
  · simp only [add, checked_fail h1]

theorem subOf_fail {w : Fl} (h : ¬ Pass w) (t : ColorType) (ia : Bool) (p q : Ptr) : subOf t w ia p q = Prog.throwNewInvalid := by
  cases t <;> simp only [subOf, subOwn, checked_fail h]

theorem mixOf_fail {w : Fl} (h : ¬ Pass w) (t : ColorType) (ia : Bool) (p q : Ptr) : mixOf t w ia p q = Prog.throwNewInvalid := by
  cases t <;> simp only [mixOf, checked_fail h]
  exact addOf_fail (fun hh => h hh.1) _ _ _ _

theorem mixOf_pass {w : Fl} (h : Pass w) (t : ColorType) (ia : Bool) : mixOf t w ia = addOf t w (1 - w) ia := by
  funext p q
  cases t <;> simp only [mixOf, checked_pass h]

/-- `1 - w` of a valid weight is a valid weight. -/
theorem weight_rest [IntExact] {w : Fl} (h : Weight w) : Weight (1 - w) := by
  obtain ⟨x, rfl, h0, h1⟩ := h
  have r1 : rnd (1 : ℝ) = fin 1 := by simpa using IntExact.rnd_int 1 (by norm_num)
  rw [one_def, fin_sub]
  have lo : rnd 0 ≤ rnd (1 - x) := FloatModel.rnd_mono _ _ (by linarith)
  have hi : rnd (1 - x) ≤ rnd 1 := FloatModel.rnd_mono _ _ (by linarith)
  rw [FloatModel.rnd_zero] at lo
  rw [r1] at hi
  exact inRange_iff.mpr ⟨by simpa using lo, hi⟩

theorem positive_of {w : Fl} (h : Weight w) (hz : w ≠ 0) : ¬ (w ≤ 0 ∨ w > 1) := by
  obtain ⟨x, rfl, h0, h1⟩ := h
  simp only [zero_def, ne_eq, fin_inj, fin_le, one_def, gt_iff_lt, fin_lt, not_or, not_le, not_lt] at hz ⊢
  exact ⟨lt_of_le_of_ne h0 (Ne.symm hz), h1⟩

theorem not_positive {w : Fl} (h1 : w ≠ nan) (h2 : ¬ (Weight w ∧ w ≠ 0)) : w ≤ 0 ∨ w > 1 := by
  by_contra hn
  apply h2
  cases w with
  | nan => exact absurd rfl h1
  | pinf => simp at hn
  | ninf => simp at hn
  | fin x =>
    simp only [zero_def, fin_le, one_def, gt_iff_lt, fin_lt, not_or, not_le, not_lt] at hn
    exact ⟨⟨x, rfl, hn.1.le, hn.2⟩, by simp; exact hn.1.ne'⟩

end

end Calc

open Calc

section
variable [FloatModel]

/-! ## C63: the weights -/

/-- C63 for the overloads of `add`, all fifteen types: a weight outside 0..1 is rejected, otherwise a new valid colour of the type and in the space of the
first colour is returned. -/
theorem C63_add (t : ColorType) (ht : t ≠ .undefined) (w1 w2 : Fl) (n1 : w1 ≠ nan) (n2 : w2 ≠ nan) (ia : Bool) (h : Heap) (i j : Nat) (a b : Color)
    (hi : h.colors[i]? = some a) (hj : h.colors[j]? = some b) (ha : IsColor t a) (hb : IsColor t b) (hw : Cie t → h.world.Usable a.space ∧ h.world.Usable b.space) :
    (Weight w1 ∧ Weight w2 → Gives (addOf t w1 w2 ia (some i) (some j)) h t a.space) ∧
    (¬ (Weight w1 ∧ Weight w2) → Rejects (addOf t w1 w2 ia (some i) (some j)) h) := by
  constructor
  · rintro ⟨h1, h2⟩
    obtain ⟨r, -, hy, hf⟩ := addOf_yields ht (pass_of h1) (pass_of h2) ia ha hb hw
    exact Yields.gives hy hf rfl hi hj
  · intro hn
    rw [addOf_fail (by rw [pass_iff, pass_iff]; exact fun hh => hn ⟨hh.1.resolve_right n1, hh.2.resolve_right n2⟩)]
    exact rejects_throw h

/-- C63 for the overloads of `mix`, all fifteen types. -/
theorem C63_mix [IntExact] (t : ColorType) (ht : t ≠ .undefined) (w : Fl) (n : w ≠ nan) (ia : Bool) (h : Heap) (i j : Nat) (a b : Color)
    (hi : h.colors[i]? = some a) (hj : h.colors[j]? = some b) (ha : IsColor t a) (hb : IsColor t b) (hw : Cie t → h.world.Usable a.space ∧ h.world.Usable b.space) :
    (Weight w → Gives (mixOf t w ia (some i) (some j)) h t a.space) ∧ (¬ Weight w → Rejects (mixOf t w ia (some i) (some j)) h) := by
  constructor
  · intro h1
    rw [mixOf_pass (pass_of h1)]
    obtain ⟨r, -, hy, hf⟩ := addOf_yields ht (pass_of h1) (pass_of (weight_rest h1)) ia ha hb hw
    exact Yields.gives hy hf rfl hi hj
  · intro hn
    rw [mixOf_fail (not_pass n hn)]
    exact rejects_throw h

/-- C63 for the overloads of `subtract`, all fifteen types. -/
theorem C63_subtract (t : ColorType) (ht : t ≠ .undefined) (w : Fl) (n : w ≠ nan) (ia : Bool) (h : Heap) (i j : Nat) (a b : Color)
    (hi : h.colors[i]? = some a) (hj : h.colors[j]? = some b) (ha : IsColor t a) (hb : IsColor t b) (hw : Cie t → h.world.Usable a.space ∧ h.world.Usable b.space) :
    (Weight w → Gives (subOf t w ia (some i) (some j)) h t a.space) ∧ (¬ Weight w → Rejects (subOf t w ia (some i) (some j)) h) := by
  constructor
  · intro h1
    obtain ⟨r, -, hy, hf⟩ := subOf_yields ht (pass_of h1) ia ha hb hw
    exact Yields.gives hy hf rfl hi hj
  · intro hn
    rw [subOf_fail (not_pass n hn)]
    exact rejects_throw h

/-- C63 for `add` of two `color_base` objects of any types.  Missing: HSI and HCY as first colour, see `C63_null_violated`, and NaN, see `C63_nan_violated`. -/
theorem C63_add_base_partial (s t : ColorType) (hs : s ≠ .undefined) (ht : Addable t) (w1 w2 : Fl) (n1 : w1 ≠ nan) (n2 : w2 ≠ nan) (ia : Bool) (h : Heap) (i j : Nat) (a b : Color)
    (hi : h.colors[i]? = some a) (hj : h.colors[j]? = some b) (ha : IsColor t a) (hb : IsColor s b) (hwa : Cie t → h.world.Usable a.space)
    (hwb : Cie t ∨ Cie s → h.world.Usable b.space) :
    (Weight w1 ∧ Weight w2 → Gives (add w1 w2 ia (some i) (some j)) h t a.space) ∧
    (¬ (Weight w1 ∧ Weight w2) → Rejects (add w1 w2 ia (some i) (some j)) h) := by
  constructor
  · rintro ⟨h1, h2⟩
    obtain ⟨b', eb, cb, sb⟩ := val_to_total hs ht.1 (w := h.world) hb (fun hc _ => hwb hc.symm)
    obtain ⟨r, -, hy, hf⟩ := addOf_yields ht.1 (pass_of h1) (pass_of h2) ia ha cb (fun hc => ⟨hwa hc, sb ▸ hwb (Or.inl hc)⟩)
    obtain ⟨q, h', e, l, n, -⟩ := dispatch hs ht.1 ha hb hi hj eb hy
    exact ⟨q, h', r, by rw [add_pass (pass_of h1) (pass_of h2) ia ht hi ha]; exact e, l, n, hf.col, hf.rng, hf.space⟩
  · intro hn
    rw [add_fail (by rw [pass_iff, pass_iff]; exact fun hh => hn ⟨hh.1.resolve_right n1, hh.2.resolve_right n2⟩)]
    exact rejects_throw h

/-- C63 for `mix` of two `color_base` objects of any types.  Missing: HSI, HCY, XYY and CIELUV as first colour, see `C63_null_violated`, NaN, and the weight 0,
which the documentation allows, see `C63_zero_violated`. -/
theorem C63_mix_base_partial [IntExact] (s t : ColorType) (hs : s ≠ .undefined) (ht : Mixable t) (w : Fl) (n : w ≠ nan) (ia : Bool) (h : Heap) (i j : Nat) (a b : Color)
    (hi : h.colors[i]? = some a) (hj : h.colors[j]? = some b) (ha : IsColor t a) (hb : IsColor s b) (hwa : Cie t → h.world.Usable a.space)
    (hwb : Cie t ∨ Cie s → h.world.Usable b.space) :
    (Weight w ∧ w ≠ 0 → Gives (mix w ia (some i) (some j)) h t a.space) ∧ (¬ Weight w → Rejects (mix w ia (some i) (some j)) h) := by
  constructor
  · rintro ⟨h1, hz⟩
    obtain ⟨b', eb, cb, sb⟩ := val_to_total hs ht.1 (w := h.world) hb (fun hc _ => hwb hc.symm)
    obtain ⟨r, -, hy, hf⟩ := addOf_yields ht.1 (pass_of h1) (pass_of (weight_rest h1)) ia ha cb (fun hc => ⟨hwa hc, sb ▸ hwb (Or.inl hc)⟩)
    obtain ⟨q, h', e, l, n, -⟩ := dispatch hs ht.1 ha hb hi hj eb hy
    refine ⟨q, h', r, ?_, l, n, hf.col, hf.rng, hf.space⟩
    rw [mix_pass (positive_of h1 hz) ia ht hi ha, mixOf_pass (pass_of h1)]
    exact e
  · intro hn
    rw [mix, checkedPositive, if_pos (not_positive n fun hh => hn hh.1)]
    exact rejects_throw h

/-- C63 for `subtract` of two `color_base` objects of any types; the same gaps as for `mix`. -/
theorem C63_subtract_base_partial (s t : ColorType) (hs : s ≠ .undefined) (ht : Mixable t) (w : Fl) (n : w ≠ nan) (ia : Bool) (h : Heap) (i j : Nat) (a b : Color)
    (hi : h.colors[i]? = some a) (hj : h.colors[j]? = some b) (ha : IsColor t a) (hb : IsColor s b) (hwa : Cie t → h.world.Usable a.space)
    (hwb : Cie t ∨ Cie s → h.world.Usable b.space) :
    (Weight w ∧ w ≠ 0 → Gives (subtract w ia (some i) (some j)) h t a.space) ∧ (¬ Weight w → Rejects (subtract w ia (some i) (some j)) h) := by
  constructor
  · rintro ⟨h1, hz⟩
    obtain ⟨b', eb, cb, sb⟩ := val_to_total hs ht.1 (w := h.world) hb (fun hc _ => hwb hc.symm)
    obtain ⟨r, -, hy, hf⟩ := subOf_yields ht.1 (pass_of h1) ia ha cb (fun hc => ⟨hwa hc, sb ▸ hwb (Or.inl hc)⟩)
    obtain ⟨q, h', e, l, n, -⟩ := dispatch hs ht.1 ha hb hi hj eb hy
    refine ⟨q, h', r, ?_, l, n, hf.col, hf.rng, hf.space⟩
    rw [subtract_pass (positive_of h1 hz) ia ht hi ha]
    exact e
  · intro hn
    rw [subtract, checkedPositive, if_pos (not_positive n fun hh => hn hh.1)]
    exact rejects_throw h

/-- The documented weight 0 is rejected by `mix` and `subtract` of `color_base` objects, whatever the colours. -/
theorem C63_zero_violated (ia : Bool) (h : Heap) (p q : Ptr) : Weight 0 ∧ Rejects (mix 0 ia p q) h ∧ Rejects (subtract 0 ia p q) h := by
  have hz : (0 : Fl) ≤ 0 ∨ (0 : Fl) > 1 := Or.inl (by simp)
  refine ⟨⟨0, by simp, by norm_num, by norm_num⟩, ?_, ?_⟩
  · rw [mix, checkedPositive, if_pos hz]
    exact rejects_throw h
  · rw [subtract, checkedPositive, if_pos hz]
    exact rejects_throw h

/-- With an HSI or HCY colour `add` returns null for every valid weight; with these and with XYY and CIELUV colours so do `mix` and `subtract`. -/
theorem C63_null_violated (t : ColorType) (w1 w2 : Fl) (h1 : Weight w1) (h2 : Weight w2) (hz : w1 ≠ 0) (ia : Bool) (h : Heap) (i : Nat) (q : Ptr) (a : Color) (hi : h.colors[i]? = some a) (ha : IsColor t a) :
    (t = .hsi ∨ t = .hcy → add w1 w2 ia (some i) q h = (ok none, h)) ∧
    (t = .hsi ∨ t = .hcy ∨ t = .xyy ∨ t = .cieluv → mix w1 ia (some i) q h = (ok none, h) ∧ subtract w1 ia (some i) q h = (ok none, h)) := by
  constructor
  · rintro (rfl | rfl) <;>
      simp only [Calc.add, checked_pass (pass_of h1), checked_pass (pass_of h2), Prog.bind_def, load, hi, ha.ctype, pure_run]
  · rintro (rfl | rfl | rfl | rfl) <;>
      simp only [mix, subtract, checkedPositive, if_neg (positive_of h1 hz), Prog.bind_def, load, hi, ha.ctype, pure_run, and_self]

/-- NaN is not a weight of the documented range, and is accepted: `add` of two grey colours with a NaN weight returns white. -/
theorem C63_nan_violated (a b : Color) (ha : IsColor .greyDeep a) (hb : IsColor .greyDeep b) (w : World) :
    ¬ Weight nan ∧ ∃ r, Yields (add nan 1 false) w a b r ∧ r.comps = [fin 1] := by
  refine ⟨by simp [Weight, InRange], ?_⟩
  have p1 : Pass nan := pass_iff.mpr (Or.inr rfl)
  have p2 : Pass 1 := pass_of ⟨1, by simp, by norm_num, le_rfl⟩
  obtain ⟨r, er, hy, -⟩ := addOf_yields (t := .greyDeep) (by simp) p1 p2 false (w := w) ha hb (fun hc => by simp [Cie] at hc)
  refine ⟨r, ?_, ?_⟩
  · intro h i j hw hi hj
    subst hw
    obtain ⟨q, h', e, l, n, f⟩ := dispatch (s := .greyDeep) (t := .greyDeep) (by simp) (by simp) ha hb hi hj (by simp [Val.to]) hy
    exact ⟨q, h', by rw [add_pass p1 p2 false ⟨by simp, by simp, by simp⟩ hi ha]; exact e, l, n, f (by simp [Cie])⟩
  · obtain ⟨k, t, v, al, mx, mn, sp⟩ := a
    obtain ⟨k', t', v', al', mx', mn', sp'⟩ := b
    have la := ha.len
    have lb := hb.len
    simp only [Color.count] at la lb
    match v, v', la, lb with
    | [x], [y], _, _ =>
      have g0 : ∀ (k t : ColorType) (x a mx mn : Fl) (sp : Option Nat), Color.getComponent ⟨k, t, [x], a, mx, mn, sp⟩ (0 : Nat) = ok x := fun _ _ _ _ _ _ _ => rfl
      simp only [throughVal, middle, Val.to, if_true, ok_bind, addVal, Calc.zip, g0, linear, Color.construct_greyDeep, ok_inj] at er
      have hn : nan * x + 1 * y = nan := by cases x <;> cases y <;> rfl
      rw [← er, Color.mkGreyDeep, hn, one_def, zero_def, Color.clamp_nan _ _ (by norm_num)]

end

/-- A CMYK and an HSV colour and the weight 1/4 meet the hypotheses. -/
noncomputable example (w : World) : letI := exactFloat; ∃ (h : Heap) (a b : Color), h.world = w ∧ h.colors[0]? = some a ∧ h.colors[1]? = some b ∧ IsColor .cmyk a ∧ IsColor .hsv b ∧
    Addable .cmyk ∧ Mixable .cmyk ∧ Weight (fin 0.25) ∧ fin 0.25 ≠ 0 := by
  letI := exactFloat
  exact ⟨⟨w, [Color.mkCmyk 0 0 0 (fin 0.5) 1 none, Color.mkHue .hsv 0 0 1 1 none]⟩, _, _, rfl, rfl, rfl,
    ⟨rfl, rfl, rfl, rfl, rfl⟩, ⟨rfl, rfl, rfl, rfl, rfl⟩, by simp [Addable], by simp [Mixable], ⟨_, rfl, by norm_num, by norm_num⟩, by simp only [zero_def, ne_eq, fin_inj]; norm_num⟩

/-! ## C65: symmetry of `add` -/

section
variable [FloatModel]

namespace Calc

theorem quadratic_swap (w1 w2 x y : Fl) : quadratic w1 w2 x y = quadratic w2 w1 y x := by simp only [quadratic, add_comm']

theorem linear_swap (w1 w2 x y : Fl) : linear w1 w2 x y = linear w2 w1 y x := by simp only [linear, add_comm']

theorem alphaOf_swap {f g : Fl → Fl → Fl} (hfg : ∀ x y, f x y = g y x) {ia : Bool} {a b : Color} (h : ia = true ∨ a.alpha = b.alpha) : alphaOf f ia a b = alphaOf g ia b a := by
  unfold alphaOf
  cases ia
  · simpa using h
  · simp [hfg]

omit [FloatModel] in
theorem zipWith_swap {f g : Fl → Fl → Fl} (hfg : ∀ x y, f x y = g y x) (l m : List Fl) : List.zipWith f l m = List.zipWith g m l := by
  induction l generalizing m with
  | nil => simp
  | cons x l ih =>
    cases m with
    | nil => simp
    | cons y m => simp [hfg, ih]

theorem addVal_swap {m : ColorType} {w1 w2 : Fl} {ia : Bool} {a b : Color} (ha : IsColor m a) (hb : IsColor m b) (hsp : a.space = b.space) (hal : ia = true ∨ a.alpha = b.alpha) :
    addVal m w1 w2 ia a b = addVal m w2 w1 ia b a := by
  have q1 := zip_all (quadratic w1 w2) ha hb
  have q2 := zip_all (quadratic w2 w1) hb ha
  have l1 := zip_all (linear w1 w2) ha hb
  have l2 := zip_all (linear w2 w1) hb ha
  rw [zipWith_swap (quadratic_swap w1 w2)] at q1
  rw [zipWith_swap (linear_swap w1 w2)] at l1
  have e1 := alphaOf_swap (quadratic_swap w1 w2) hal
  have e2 := alphaOf_swap (linear_swap w1 w2) hal
  cases m <;> simp only [Color.count] at q1 q2 l1 l2 <;> try simp only [addVal, q1, q2, l1, l2, ok_bind, e1, e2, hsp]
  case hsv =>
    obtain ⟨x, y, z, ea⟩ := Conv.isColor_three rfl ha
    obtain ⟨x', y', z', eb⟩ := Conv.isColor_three rfl hb
    rw [ea, eb]
    simp only [Conv.get3_0, Conv.get3_1, Conv.get3_2, ok_bind]
    simp only [linear_swap w1 w2]

/-- The components of a sum do not depend on the alphas and the spaces. -/
theorem addVal_comps {m : ColorType} {w1 w2 : Fl} {ia : Bool} {a b a' b' r r' : Color} (ha : IsColor m a) (hb : IsColor m b) (ha' : IsColor m a') (hb' : IsColor m b')
    (ea : a.comps = a'.comps) (eb : b.comps = b'.comps) {ia' : Bool} (e : addVal m w1 w2 ia a b = ok r) (e' : addVal m w1 w2 ia' a' b' = ok r') : r.comps = r'.comps := by
  have key : ∀ (t : ColorType) (vs : List Fl) (al al' : Fl) (sp sp' : Option Nat) (c c' : Color), t ≠ .undefined → vs.length = Color.count t →
      Color.construct t vs al sp = ok c → Color.construct t vs al' sp' = ok c' → c.comps = c'.comps := by
    intro t vs al al' sp sp' c c' ht hl h h'
    cases t <;> simp only [Color.count] at hl
    case undefined => exact absurd rfl ht
    case cmyk =>
      match vs, hl with
      | [x, y, z, k], _ =>
        simp only [Color.construct_cmyk, ok_inj] at h h'
        rw [← h, ← h']; rfl
    case greyTrue =>
      match vs, hl with
      | [x], _ =>
        simp only [Color.construct_greyTrue, ok_inj] at h h'
        rw [← h, ← h']; rfl
    case greyDeep =>
      match vs, hl with
      | [x], _ =>
        simp only [Color.construct_greyDeep, ok_inj] at h h'
        rw [← h, ← h']; rfl
    all_goals
      match vs, hl with
      | [x, y, z], _ =>
        simp only [Color.construct_rgbTrue, Color.construct_rgbDeep, Color.construct_hsi, Color.construct_hsv, Color.construct_hsl, Color.construct_hcy, Color.construct_xyz,
          Color.construct_xyy, Color.construct_cieluv, Color.construct_lab, Color.construct_lchAb, Color.construct_lchUv, ok_inj] at h h'
        rw [← h, ← h']; rfl
  have q1 := zip_all (quadratic w1 w2) ha hb
  have q2 := zip_all (quadratic w1 w2) ha' hb'
  have l1 := zip_all (linear w1 w2) ha hb
  have l2 := zip_all (linear w1 w2) ha' hb'
  have hl : ∀ f : Fl → Fl → Fl, (List.zipWith f a.comps b.comps).length = Color.count m := fun f => by simp [ha.len, hb.len]
  rw [← ea, ← eb] at q2 l2
  cases m <;> simp only [Color.count] at q1 q2 l1 l2 hl <;> try simp only [addVal, q1, q2, l1, l2, ok_bind, reduceCtorEq] at e e'
  case hsv =>
    obtain ⟨x, y, z, fa⟩ := Conv.isColor_three rfl ha
    obtain ⟨x', y', z', fb⟩ := Conv.isColor_three rfl hb
    obtain ⟨x1, y1, z1, fa'⟩ := Conv.isColor_three rfl ha'
    obtain ⟨x1', y1', z1', fb'⟩ := Conv.isColor_three rfl hb'
    rw [fa, fa'] at ea
    rw [fb, fb'] at eb
    simp only [List.cons.injEq, and_true] at ea eb
    obtain ⟨rfl, rfl, rfl⟩ := ea
    obtain ⟨rfl, rfl, rfl⟩ := eb
    rw [fa, fb] at e
    rw [fa', fb'] at e'
    simp only [Conv.get3_0, Conv.get3_1, Conv.get3_2, ok_bind] at e e'
    exact key _ _ _ _ _ _ _ _ (by simp) rfl e e'
  all_goals
    refine key _ _ _ _ _ _ _ _ (by simp) ?_ e e'
    first | exact hl _ | (rw [List.length_map]; exact hl _)

end Calc

/-- C65: swapping the colours together with their weights does not change the sum, for every rounding and all fifteen types, when alpha is included.  (Without it the alpha of
the first colour is used; see `C65_components`.) -/
theorem C65_symmetric (t : ColorType) (ht : t ≠ .undefined) (w1 w2 : Fl) (h1 : Weight w1) (h2 : Weight w2) (w : World) (a b : Color) (ha : IsColor t a) (hb : IsColor t b)
    (hsp : a.space = b.space) (hw : Cie t → w.Usable a.space) :
    ∃ r, Yields (addOf t w1 w2 true) w a b r ∧ Yields (addOf t w2 w1 true) w b a r ∧
      (Addable t → Yields (add w1 w2 true) w a b r ∧ Yields (add w2 w1 true) w b a r) := by
  obtain ⟨r, er, hy, -⟩ := addOf_yields ht (pass_of h1) (pass_of h2) true ha hb (fun hc => ⟨hw hc, hsp ▸ hw hc⟩)
  obtain ⟨r', er', hy', -⟩ := addOf_yields ht (pass_of h2) (pass_of h1) true hb ha (fun hc => ⟨hsp ▸ hw hc, hw hc⟩)
  have hrr : r' = r := by
    obtain ⟨a', b', u, u', ea, eb, eu, cu, eu', -⟩ :=
      through_total (f := fun m => addVal m w1 w2 true) ht (fun m hm hd a b ha hb => addVal_total hm hd w1 w2 true ha hb) ha hb (fun hc => ⟨hw hc, hsp ▸ hw hc⟩)
    have ca : IsColor (middle t) a' ∧ a'.space = a.space := by
      obtain ⟨x, ex, cx, sx⟩ := val_to_total ht (middle_defined ht) (w := w) ha (fun _ hn => hw (by revert hn; cases t <;> simp [middle, Cie] at *))
      rw [ea, ok_inj] at ex
      exact ex ▸ ⟨cx, sx⟩
    have cb : IsColor (middle t) b' ∧ b'.space = b.space := by
      obtain ⟨x, ex, cx, sx⟩ := val_to_total ht (middle_defined ht) (w := w) hb (fun _ hn => hsp ▸ hw (by revert hn; cases t <;> simp [middle, Cie] at *))
      rw [eb, ok_inj] at ex
      exact ex ▸ ⟨cx, sx⟩
    have hsw := addVal_swap (w1 := w1) (w2 := w2) (ia := true) ca.1 cb.1 (by rw [ca.2, cb.2, hsp]) (Or.inl rfl)
    have eu2 := hsw.symm.trans eu
    simp only [throughVal, ea, eb, eu, eu', ok_bind, ok_inj] at er
    simp only [throughVal, ea, eb, eu2, eu', ok_bind, ok_inj] at er'
    rw [← er, ← er']
  subst hrr
  refine ⟨r', hy, hy', fun had => ⟨?_, ?_⟩⟩
  · intro h i j hw hi hj
    subst hw
    obtain ⟨q, h', e, l, n, f⟩ := dispatch ht ht ha hb hi hj (by simp [Val.to]) hy
    exact ⟨q, h', by rw [add_pass (pass_of h1) (pass_of h2) true had hi ha]; exact e, l, n, f (by rintro ⟨rfl, hc⟩; simp [Cie] at hc)⟩
  · intro h i j hw hi hj
    subst hw
    obtain ⟨q, h', e, l, n, f⟩ := dispatch ht ht hb ha hi hj (by simp [Val.to]) hy'
    exact ⟨q, h', by rw [add_pass (pass_of h2) (pass_of h1) true had hi hb]; exact e, l, n, f (by rintro ⟨rfl, hc⟩; simp [Cie] at hc)⟩

/-- C65 without alpha and for any two spaces: all components agree, for the nine types with an arithmetic of their own. -/
theorem C65_components (t : ColorType) (ht : Flat t ∨ t = .hsv) (w1 w2 : Fl) (h1 : Weight w1) (h2 : Weight w2) (ia : Bool) (w : World) (a b : Color) (ha : IsColor t a) (hb : IsColor t b) :
    ∃ r r', Yields (addOf t w1 w2 ia) w a b r ∧ Yields (addOf t w2 w1 ia) w b a r' ∧ r.comps = r'.comps := by
  have hd : t ≠ .undefined := by rintro rfl; simp [Flat] at ht
  have hm : middle t = t := by rcases ht with ht | rfl; (rcases ht with rfl | rfl | rfl | rfl | rfl | rfl | rfl | rfl <;> rfl); rfl
  have ho : ∀ w1 w2, addOf t w1 w2 ia = addOwn t w1 w2 ia := by intro w1 w2; cases t <;> first | rfl | simp [middle] at hm
  obtain ⟨r, er, -⟩ := addVal_total hm hd w1 w2 ia ha hb
  obtain ⟨r', er', -⟩ := addVal_total hm hd w2 w1 ia hb ha
  refine ⟨r, r', by rw [ho]; exact addOwn_yields (pass_of h1) (pass_of h2) er, by rw [ho]; exact addOwn_yields (pass_of h2) (pass_of h1) er', ?_⟩
  -- give both colours the same space and include alpha
  set b2 : Color := { b with space := a.space } with hb2
  have cb2 : IsColor t b2 := ⟨hb.cls, hb.ctype, hb.len, hb.maxv, hb.minv⟩
  obtain ⟨u, eu, -⟩ := addVal_total hm hd w1 w2 true ha cb2
  have eu' : addVal t w2 w1 true b2 a = ok u := by rw [← addVal_swap ha cb2 rfl (Or.inl rfl)]; exact eu
  rw [addVal_comps ha hb ha cb2 rfl rfl er eu, addVal_comps hb ha cb2 ha rfl rfl er' eu']

end

/-- Two RGB colours in the same space and the weights 1/4 and 1 meet the hypotheses. -/
noncomputable example : letI := exactFloat; ∃ a b : Color, IsColor .rgbDeep a ∧ IsColor .rgbDeep b ∧ a.space = b.space ∧ a ≠ b ∧ Weight (fin 0.25) ∧ Weight (fin 1) ∧ Addable .rgbDeep ∧
    Flat .rgbDeep ∧ ¬ Cie .rgbDeep := by
  letI := exactFloat
  refine ⟨⟨.rgbDeep, .rgbDeep, [fin 1, fin 0, fin 0], fin 1, 1, 0, none⟩, ⟨.rgbDeep, .rgbDeep, [fin 0, fin 1, fin 0], fin 0, 1, 0, none⟩, ⟨rfl, rfl, rfl, rfl, rfl⟩, ⟨rfl, rfl, rfl, rfl, rfl⟩, rfl, by simp,
    ⟨_, rfl, by norm_num, by norm_num⟩, ⟨_, rfl, by norm_num, by norm_num⟩, by simp [Addable], by simp [Flat], by simp [Cie]⟩
