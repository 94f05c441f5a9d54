import Verif.Props.Objects

/-!
# Properties of colour objects, continued (C05–C12)
-/

open Fl Outcome ObjectSpec Color

namespace ObjectLemmas
variable [FloatModel]

theorem clamp01 (v : Fl) : InRange 0 1 (Color.clamp v 1 0) := by
  simpa using clamp_inRange v (by norm_num : (0:ℝ) ≤ 1)

theorem scale255 [IntExact] {m : Fl} (h : InRange 0 1 m) : InRange 0 255 (m * 255) := by
  obtain ⟨r, rfl, h0, h1⟩ := h
  simp only [lit_def, fin_mul]
  have e0 := FloatModel.rnd_mono 0 (r * 255) (by positivity)
  have e1 := FloatModel.rnd_mono (r * 255) 255 (by linarith)
  have e2 : rnd (255 : ℝ) = fin 255 := by
    have := IntExact.rnd_int 255 (by norm_num)
    push_cast at this; exact this
  rw [FloatModel.rnd_zero] at e0
  rw [e2] at e1
  exact inRange_iff.mpr ⟨e0, e1⟩

/-- Invariant behind C05: raw alpha by dynamic class and type. -/
def AlphaInv (c : Color) : Prop :=
  (scalesAlpha c.cls = true ∧ InRange 0 1 c.malpha) ∨ (scalesAlpha c.cls = false ∧ InRange 0 (alphaTop c.ctype) c.malpha)

theorem one_le_alphaTop (t : ColorType) : 1 ≤ alphaTop t := by cases t <;> norm_num [alphaTop]
theorem alphaTop_eq (t : ColorType) : alphaTop t = if scalesAlpha t then 255 else 1 := by
  cases t <;> simp [alphaTop, scalesAlpha]

theorem AlphaInv.alpha [IntExact] {c : Color} (h : AlphaInv c) (hc : c.cls = c.ctype ∨ c.cls = .undefined) :
    InRange 0 (alphaTop c.ctype) c.alpha := by
  unfold Color.alpha
  rcases h with ⟨h1, h2⟩ | ⟨h1, h2⟩
  · rw [if_pos h1]
    rcases hc with hc | hc
    · rw [alphaTop_eq, ← hc, if_pos h1]; exact scale255 h2
    · rw [hc] at h1; simp [scalesAlpha] at h1
  · rw [if_neg (by simp [h1])]; exact h2

theorem alphaInv_of_unit {c : Color} (h : InRange 0 1 c.malpha) : AlphaInv c := by
  cases hs : scalesAlpha c.cls
  · exact Or.inr ⟨hs, h.mono le_rfl (one_le_alphaTop _)⟩
  · exact Or.inl ⟨hs, h⟩

theorem construct_alpha {t : ColorType} (ht : t ≠ .undefined) {vs : List Fl} {a : Fl} {sp : Option Nat} {c : Color}
    (hl : vs.length = count t) (ha : validAlpha t a) (e : construct t vs a sp = ok c) : AlphaInv c := by
  obtain ⟨h1, h2, h3, h4⟩ := construct_inv ht hl e
  cases hs : scalesAlpha t
  · apply alphaInv_of_unit
    rw [h4 hs]
    unfold validAlpha at ha
    rw [alphaTop_eq, hs] at ha; simpa using ha
  · apply alphaInv_of_unit
    simp only [construct, Outcome.bind_eq_ok] at e
    obtain ⟨d, hd, e⟩ := e
    simp only [pure_eq, ok_inj, hs, if_true] at e
    subst e
    simp only [Color.setAlpha]
    exact clamp01 _

theorem reach_alpha [IntExact] {raw : Prop} {c : Color} (h : Reach raw validAlpha c) : AlphaInv c := by
  induction h with
  | construct t vs a sp c ht ha hl e => exact construct_alpha ht hl ha e
  | constructGrey t v a sp c ht ha e =>
    exact construct_alpha (by rcases ht with rfl | rfl <;> simp) (by rcases ht with rfl | rfl <;> rfl) ha e
  | hexInt code sp c e =>
    simp [fromHexInt, Color.setChannel, Color.setComponent, setComponentLim, Color.setAlpha, base, scalesAlpha] at e
    subst e
    exact alphaInv_of_unit (by simpa using clamp01 _)
  | hexString s sp c e =>
    obtain ⟨_, _, _, _, e⟩ := hexString_cases e
    simp [hexFinish, Color.setChannel, Color.setComponent, setComponentLim, Color.setAlpha, base, scalesAlpha] at e
    subst e
    exact alphaInv_of_unit (by simpa using clamp01 _)
  | copy c _ _ ih => exact alphaInv_of_unit (by simp only [Color.copy, Color.setAlpha]; exact clamp01 _)
  | fromBase t c c' ht hr e ih =>
    have inv := reach_inv hr
    have hal := ih.alpha inv.cls
    unfold Color.fromBase throwNewInvalid at e
    split at e
    · rename_i hh
      simp only [ok_inj] at e; subst e
      obtain ⟨h1, h2⟩ := hh
      have hlen := inv.len
      rw [h2, h1] at hlen
      have hs : scalesAlpha t = false := by
        cases t <;> simp [fromBaseSize, count, scalesAlpha] at hlen ⊢
      apply alphaInv_of_unit
      rw [h1, alphaTop_eq, hs] at hal
      simpa using hal
    · simp at e
  | assign c o hr1 hr2 hcls hne ih1 ih2 =>
    have i1 := (reach_inv hr1).cls.resolve_right hne
    have i2 := (reach_inv hr2).cls.resolve_right (hcls ▸ hne)
    have : o.ctype = c.ctype := by rw [← i1, ← i2, hcls]
    unfold AlphaInv Color.assign
    simp only [this]
    exact ih1
  | setChannel c c' i v _ _ e ih =>
    obtain ⟨f1, f2, f3, _⟩ := setChannel_frame e
    unfold AlphaInv; rw [f1, f2, f3]; exact ih
  | setAlpha c a _ ih => exact alphaInv_of_unit (by simp only [Color.setAlpha]; exact clamp01 _)
  | setSpace c sp _ ih => exact ih
  | setComponent c c' v i _ _ e ih =>
    obtain ⟨f1, f2, f3, _⟩ := setComponentLim_cls e
    unfold AlphaInv; rw [f1, f2, f3]; exact ih
  | plus a b c _ hr1 _ e ih1 ih2 =>
    have hal := ih1.alpha (reach_inv hr1).cls
    unfold Color.plus throwNewInvalid at e
    split at e
    · simp only [ok_inj] at e; subst e
      exact Or.inr ⟨rfl, hal⟩
    · simp at e
  | gamma c g _ _ ih => exact ih

end ObjectLemmas

section props
variable [FloatModel]

/-! ### C05 -/

/-- **C05 (violated).** A constructor stores any alpha value: an HSV colour with alpha 7. -/
theorem C05_alpha_violated : ∃ c, Reach False anyAlpha c ∧ c.ctype = .hsv ∧ c.alpha = fin 7 :=
  ⟨mkHue .hsv 0 0 0 7 none, .construct .hsv [0, 0, 0] 7 none _ (by simp) trivial rfl (construct_hsv _ _ _ _ _), rfl,
    by simp [mkHue, Color.alpha, scalesAlpha]⟩

/-- **C05 (partial).** In every history whose constructor calls are given valid alpha values, `alpha()` is in 0..1 (0..255 for
the true-colour types), whatever is passed to the setters.  Missing: constructor calls with invalid alpha, see
`C05_alpha_violated`. -/
theorem C05_alpha_partial [IntExact] (c : Color) (h : Reach True validAlpha c) : InRange 0 (alphaTop c.ctype) c.alpha :=
  (ObjectLemmas.reach_alpha h).alpha (ObjectLemmas.reach_inv h).cls

/-- **C05.** The true-colour constructors limit alpha whatever they are given. -/
theorem C05_true_constructors [IntExact] (t : ColorType) (ht : t = .rgbTrue ∨ t = .greyTrue) (vs : List Fl) (a : Fl)
    (sp : Option Nat) (c : Color) (h : construct t vs a sp = ok c) (hl : vs.length = count t) : InRange 0 255 c.alpha := by
  have hne : t ≠ .undefined := by rcases ht with rfl | rfl <;> simp
  obtain ⟨i, hc, _, _⟩ := ObjectLemmas.construct_inv hne hl h
  have hs : scalesAlpha t = true := by rcases ht with rfl | rfl <;> rfl
  simp only [construct, Outcome.bind_eq_ok] at h
  obtain ⟨d, hd, e⟩ := h
  simp only [pure_eq, ok_inj, hs, if_true] at e
  unfold Color.alpha
  rw [hc, hs, if_pos rfl]
  subst e
  exact ObjectLemmas.scale255 (ObjectLemmas.clamp01 _)

/-- **C05.** After the alpha setter, alpha is valid, whatever the object was before and whatever is passed. -/
theorem C05_setter [IntExact] (c : Color) (a : Fl) (hc : c.cls = c.ctype) :
    InRange 0 (alphaTop c.ctype) (c.setAlpha a).alpha := by
  have h1 : ObjectLemmas.AlphaInv (c.setAlpha a) :=
    ObjectLemmas.alphaInv_of_unit (by simp only [Color.setAlpha]; exact ObjectLemmas.clamp01 _)
  exact h1.alpha (Or.inl hc)

/-- **C05.** A valid alpha value reads back unchanged: for every rounding on the 0..1 types. -/
theorem C05_set_get (c : Color) (a : ℝ) (hs : scalesAlpha c.cls = false) (h0 : 0 ≤ a) (h1 : a ≤ 1) :
    (c.setAlpha (fin a)).alpha = fin a := by
  unfold Color.alpha Color.setAlpha
  simp only [hs]
  simpa using clamp_of_inRange (v := fin a) (by simp [h0, h1])

/-- **C05.** … and in exact arithmetic on the 0..255 types. -/
theorem C05_set_get_true [ExactModel] (c : Color) (a : ℝ) (hs : scalesAlpha c.cls = true) (h0 : 0 ≤ a) (h1 : a ≤ 255) :
    (c.setAlpha (fin a)).alpha = fin a := by
  unfold Color.alpha Color.setAlpha
  simp only [hs, if_true, lit_def, one_def, zero_def]
  rw [div_exact _ _ (by norm_num), clamp_of_inRange, mul_exact]
  · simp
  · simp only [inRange_fin]; constructor
    · positivity
    · rw [div_le_one] <;> linarith

example : Reach True validAlpha (mkHue .hsv 0 0 0 1 none) :=
  .construct .hsv [0, 0, 0] 1 none _ (by simp) (by simp [validAlpha, alphaTop]) rfl (construct_hsv _ _ _ _ _)
example : scalesAlpha (mkRgbTrue 1 2 3 4 none).cls = true := rfl

/-! ### C06 -/

/-- The classes whose hue setter wraps. -/
def ObjectSpec.wrapsHue (t : ColorType) : Prop := t = .hsi ∨ t = .hsv ∨ t = .hsl ∨ t = .hcy

theorem ObjectLemmas.setChannel_hue (c : Color) (hc : wrapsHue c.cls) (h : Fl) : c.setChannel 0 h = c.setHue h := by
  rcases hc with hc | hc | hc | hc <;> simp [Color.setChannel, hc]

/-- **C06.** The loop of the hue setter ends after at most one pass, for every float (also NaN and infinities) and every
rounding, and leaves `hueReduce h`. -/
theorem C06_hue_loop_terminates (h : Fl) (n : Nat) (hn : 2 ≤ n) : hueLoop n (fmod h 360) = some (hueReduce h) :=
  hueLoop_terminates h n hn

/-- **C06.** Shifting a hue by whole turns makes no difference.  The hypothesis says that the hue reduced to 0..360 is a
representable number; it is trivial in exact arithmetic and holds for integer hues in every `IntExact` arithmetic. -/
theorem C06_hue_periodic (c : Color) (hc : wrapsHue c.cls) (h : ℝ) (k : ℤ)
    (hr : rnd (360 * Int.fract (h / 360)) = fin (360 * Int.fract (h / 360))) :
    c.setChannel 0 (fin (h + 360 * k)) = c.setChannel 0 (fin h) := by
  rw [ObjectLemmas.setChannel_hue c hc, ObjectLemmas.setChannel_hue c hc]
  unfold setHue
  have e : (h + 360 * (k:ℝ)) / 360 = h / 360 + k := by ring
  have e2 : Int.fract ((h + 360 * (k:ℝ)) / 360) = Int.fract (h / 360) := by rw [e, Int.fract_add_intCast]
  rw [hueReduce_fin h hr, hueReduce_fin (h + 360 * k) (by rw [e2]; exact hr), e2]

/-- **C06 (violated).** A hue of 359.5 degrees is stored as 359, not as 359.5. -/
theorem C06_hue_violated (c : Color) (hc : wrapsHue c.cls) (hl : 0 < c.comps.length) :
    ∃ c', c.setChannel 0 (fin 359.5) = ok c' ∧ c'.comps[0]? = some (fin 359) := by
  rw [ObjectLemmas.setChannel_hue c hc]
  refine ⟨_, setComponentLim_ok.mpr ⟨le_rfl, hl, rfl⟩, ?_⟩
  rw [hueReduce_id (by norm_num) (by norm_num)]
  have : Color.clamp (fin 359.5) (fin 359) (fin 0) = fin 359 := by
    rw [clamp_fin]; norm_num
  simp [this, hl]

/-- **C06 (partial).** The stored hue is `h mod 360` whenever that is at most 359.  Missing: reduced hues strictly between 359
and 360, which become 359 (`C06_hue_violated`). -/
theorem C06_hue_mod_360_partial (c : Color) (hc : wrapsHue c.cls) (hl : 0 < c.comps.length) (h : ℝ)
    (hr : rnd (360 * Int.fract (h / 360)) = fin (360 * Int.fract (h / 360))) (h359 : 360 * Int.fract (h / 360) ≤ 359) :
    ∃ c', c.setChannel 0 (fin h) = ok c' ∧ c'.comps[0]? = some (fin (h - 360 * ⌊h / 360⌋)) := by
  rw [ObjectLemmas.setChannel_hue c hc]
  refine ⟨_, setComponentLim_ok.mpr ⟨le_rfl, hl, rfl⟩, ?_⟩
  rw [hueReduce_fin h hr]
  have e : h - 360 * (⌊h / 360⌋ : ℝ) = 360 * Int.fract (h / 360) := by rw [Int.fract]; ring
  rw [e]
  have : Color.clamp (fin (360 * Int.fract (h / 360))) (fin 359) (fin 0) = fin (360 * Int.fract (h / 360)) :=
    clamp_of_inRange (by simp [Int.fract_nonneg, h359])
  simp [this, hl]

/-- The representability hypothesis of C06 holds for all integer hues in every arithmetic that keeps small integers. -/
theorem C06_integer_hues [IntExact] (n : ℤ) :
    rnd (360 * Int.fract ((n : ℝ) / 360)) = fin (360 * Int.fract ((n : ℝ) / 360)) := by
  have : 360 * Int.fract ((n : ℝ) / 360) = ((n % 360 : ℤ) : ℝ) := by
    have h1 : ⌊(n : ℝ) / 360⌋ = n / 360 := by
      have := Int.floor_div_natCast (n : ℝ) 360
      simp at this
      exact this
    rw [Int.fract, h1]
    have : n = 360 * (n / 360) + n % 360 := (Int.mul_ediv_add_emod n 360).symm
    have h2 : (n : ℝ) = 360 * ((n / 360 : ℤ) : ℝ) + ((n % 360 : ℤ) : ℝ) := by exact_mod_cast this
    linarith
  rw [this]
  apply IntExact.rnd_int
  have h1 := Int.emod_nonneg n (by norm_num : (360:ℤ) ≠ 0)
  have h2 := Int.emod_lt_of_pos n (by norm_num : (0:ℤ) < 360)
  rw [abs_of_nonneg h1]; omega

/-- **C06.** Non-numbers: a hue of NaN or infinity is stored as 359. -/
theorem C06_hue_nonfinite (c : Color) (hc : wrapsHue c.cls) (hl : 0 < c.comps.length) (h : Fl) (hn : ¬ h.IsFin) :
    ∃ c', c.setChannel 0 h = ok c' ∧ c'.comps[0]? = some (fin 359) := by
  rw [ObjectLemmas.setChannel_hue c hc]
  refine ⟨_, setComponentLim_ok.mpr ⟨le_rfl, hl, rfl⟩, ?_⟩
  have e : hueReduce h = nan := by
    cases h <;> first | (exact absurd (isFin_fin _) hn) | (simp [hueReduce, fmod])
  have : Color.clamp nan (fin 359) (fin 0) = fin 359 := clamp_nan 359 0 (by norm_num)
  simp [e, this, hl]

example : wrapsHue (mkHue .hsl 10 1 1 1 none).cls ∧ 0 < (mkHue .hsl 10 1 1 1 none).comps.length := by
  simp [wrapsHue, mkHue]

/-! ### C07 -/

omit [FloatModel] in
/-- **C07.** Two colours are equal exactly when type and components agree and no component is NaN; alpha, limits and colour
space do not matter. -/
theorem C07_eq_iff (a b : Color) : a.eq b ↔ a.ctype = b.ctype ∧ a.comps = b.comps ∧ NoNaN a := by
  unfold Color.eq NoNaN
  constructor
  · rintro ⟨h1, h2, h3⟩
    refine ⟨h1, List.ext_getElem h2 (fun i h h' => (h3 i h h').1), ?_⟩
    intro x hx
    obtain ⟨i, hi, rfl⟩ := List.getElem_of_mem hx
    exact (h3 i hi (h2 ▸ hi)).2
  · rintro ⟨h1, h2, h3⟩
    refine ⟨h1, by rw [h2], ?_⟩
    intro i h h'
    exact ⟨by simp [h2], h3 _ (List.getElem_mem h)⟩

omit [FloatModel] in
/-- **C07.** `==` is an equivalence on colours without NaN components. -/
theorem C07_equivalence :
    (∀ a : Color, NoNaN a → a.eq a) ∧ (∀ a b : Color, a.eq b → b.eq a) ∧
    (∀ a b c : Color, a.eq b → b.eq c → a.eq c) := by
  refine ⟨?_, ?_, ?_⟩
  · intro a h; rw [C07_eq_iff]; exact ⟨rfl, rfl, h⟩
  · intro a b h
    rw [C07_eq_iff] at *
    obtain ⟨h1, h2, h3⟩ := h
    exact ⟨h1.symm, h2.symm, by unfold NoNaN at *; rwa [← h2]⟩
  · intro a b c h h'
    rw [C07_eq_iff] at *
    exact ⟨h.1.trans h'.1, h.2.1.trans h'.2.1, h.2.2⟩

/-- **C07.** All colours a program can build are NaN-free, so that `==` is an equivalence on them. -/
theorem C07_reachable_no_nan (c : Color) (h : Reach True anyAlpha c) : NoNaN c := by
  intro x hx
  obtain ⟨i, hi, rfl⟩ := List.getElem_of_mem hx
  exact ((C01_components_in_range c h).2.2.2 i hi).ne_nan

example : NoNaN (mkCmyk 0 1 0 1 1 none) := by
  have : ∀ x : Fl, Color.clamp x 1 0 ≠ nan := fun x => (ObjectLemmas.clamp01 x).ne_nan
  intro x hx
  simp only [mkCmyk, List.mem_cons, List.not_mem_nil, or_false] at hx
  rcases hx with rfl | rfl | rfl | rfl <;> exact this _

/-! ### C08 -/

/-- **C08.** `a + b` throws exactly when types or component counts differ. -/
theorem C08_plus_throws_iff (a b : Color) :
    a.plus b = .throw ⟨.invalidArgument, true⟩ ↔ (a.ctype ≠ b.ctype ∨ a.comps.length ≠ b.comps.length) := by
  unfold Color.plus throwNewInvalid
  split
  · rename_i h; simp [h.1, h.2]
  · rename_i h; simp; tauto

/-- **C08.** Otherwise the result has the type, limits and colour space of the left operand and each component is the sum
limited to the range of the left operand. -/
theorem C08_plus_components (a b c : Color) (h : a.plus b = ok c) :
    c.ctype = a.ctype ∧ c.space = a.space ∧ c.maxv = a.maxv ∧ c.minv = a.minv ∧ c.alpha = a.alpha ∧
    c.comps.length = a.comps.length ∧
    ∀ i (h : i < c.comps.length) (h1 : i < a.comps.length) (h2 : i < b.comps.length),
      c.comps[i] = fmax (fmin (a.comps[i] + b.comps[i]) a.maxv) a.minv := by
  unfold Color.plus throwNewInvalid at h
  split at h
  · rename_i hh
    simp only [ok_inj] at h; subst h
    refine ⟨rfl, rfl, rfl, rfl, by simp [Color.alpha, scalesAlpha], by simp [hh.2], ?_⟩
    intro i h h1 h2
    simp [Color.clamp]
  · simp at h

/-- **C08.** The components do not depend on the order of the operands, for colours with the same limits. -/
theorem C08_plus_comm (a b c d : Color) (hm : a.maxv = b.maxv) (hn : a.minv = b.minv)
    (h1 : a.plus b = ok c) (h2 : b.plus a = ok d) : c.comps = d.comps := by
  unfold Color.plus throwNewInvalid at h1 h2
  split at h1
  · split at h2
    · simp only [ok_inj] at h1 h2; subst h1; subst h2
      simp only [hm, hn]
      rw [List.zipWith_comm]
      congr 1; funext x y; rw [add_comm' x y]
    · simp at h2
  · simp at h1

/-- A hue channel is involved. -/
def ObjectSpec.hasHue (t : ColorType) : Prop := wrapsHue t ∨ t = .lchAb ∨ t = .lchUv

/-- **C08 (violated).** Zero is not neutral for the cylindrical spaces: adding HSV (0,0,0) to HSV (200,…) gives hue 1. -/
theorem C08_zero_not_neutral [ExactModel] : ∃ c, (mkHue .hsv 200 1 1 1 none).plus (mkHue .hsv 0 0 0 1 none) = ok c ∧
    c.comps[0]? = some (fin 1) := by
  have h200 : Color.clamp (hueReduce (fin 200)) (fin 359) (fin 0) = fin 200 := by
    rw [hueReduce_id (by norm_num) (by norm_num), clamp_of_inRange]; norm_num
  have h0 : Color.clamp (hueReduce (fin 0)) (fin 359) (fin 0) = fin 0 := by
    rw [hueReduce_id (by norm_num) (by norm_num), clamp_of_inRange]; norm_num
  refine ⟨_, if_pos ⟨rfl, rfl⟩, ?_⟩
  simp [mkHue, h200, h0, clamp_fin]

/-- **C08 (partial).** For the spaces without a hue channel, zero is neutral (exact arithmetic).  Missing: the six spaces with a
hue channel, for which it is false (`C08_zero_not_neutral`). -/
theorem C08_zero_neutral_partial [ExactModel] (a z c : Color) (ha : Reach True anyAlpha a) (hz : ∀ x ∈ z.comps, x = fin 0)
    (hh : ¬ hasHue a.ctype) (h : a.plus z = ok c) : c.comps = a.comps := by
  have inv := ObjectLemmas.reach_inv ha
  have hp := C08_plus_components a z c h
  unfold Color.plus throwNewInvalid at h
  split at h
  · rename_i hc
    refine List.ext_getElem hp.2.2.2.2.2.1 ?_
    intro i h1 h2
    have h3 : i < z.comps.length := by rw [← hc.2]; exact h2
    rw [hp.2.2.2.2.2.2 i h1 h2 h3, hz _ (List.getElem_mem h3)]
    have hr := inv.rng i h2
    have hlim : (channelRange a.ctype i) = (minR a.ctype, maxR a.ctype) := by
      revert hh; unfold hasHue wrapsHue
      cases a.ctype <;> simp [channelRange, minR, maxR]
    rw [hlim] at hr
    obtain ⟨r, hr1, hr2⟩ := hr
    rw [hr1, add_exact, add_zero, inv.maxv, inv.minv, maxOf_eq, minOf_eq]
    exact clamp_of_inRange (by simpa using hr2)
  · simp at h

example : ∃ c, (mkLab 50 1 2 1 none).plus (mkLab 0 0 0 1 none) = ok c := ⟨_, by simp [Color.plus, mkLab]; rfl⟩

/-! ### C09 -/

/-- **C09.** In exact arithmetic, multiplying and then dividing by a non-zero alpha gives back the colour. -/
theorem C09_multiply_divide [ExactModel] (c : Color) (a : ℝ) (ha : c.malpha = fin a) (h0 : a ≠ 0)
    (hf : ∀ x ∈ c.comps, x.IsFin) : c.alphaMultiply.alphaDivide = c := by
  unfold alphaDivide alphaMultiply
  have : ¬ feq c.malpha 0 := by rw [ha]; simp [h0]
  rw [if_neg this]
  cases c
  simp only at *
  subst ha
  congr 1
  rw [List.map_map]
  refine (List.map_congr_left (g := id) ?_).trans (List.map_id _)
  intro x hx
  obtain ⟨r, rfl⟩ := hf x hx
  simp only [Function.comp, mul_exact, id]
  rw [div_exact _ _ h0, mul_div_cancel_right₀ _ h0]

/-- **C09.** With alpha zero all components become zero and dividing leaves them alone (every rounding). -/
theorem C09_zero_alpha (c : Color) (ha : c.malpha = fin 0) (hf : ∀ x ∈ c.comps, x.IsFin) :
    (∀ x ∈ c.alphaMultiply.comps, x = fin 0) ∧ c.alphaMultiply.alphaDivide = c.alphaMultiply := by
  constructor
  · intro x hx
    simp only [alphaMultiply, List.mem_map, ha] at hx
    obtain ⟨y, hy, rfl⟩ := hx
    obtain ⟨r, rfl⟩ := hf y hy
    rw [fin_mul, mul_zero, FloatModel.rnd_zero]
  · unfold alphaDivide
    rw [if_pos]
    simp [alphaMultiply, ha]

example : ∀ x ∈ (mkCmyk 0 1 0 1 (fin 0.5) none).comps, x.IsFin := by
  intro x hx
  simp only [mkCmyk, List.mem_cons, List.not_mem_nil, or_false] at hx
  rcases hx with rfl | rfl | rfl | rfl <;> exact (ObjectLemmas.clamp01 _).isFin

/-! ### C10 -/

/-- **C10.** A copy has the same type, components, limits and colour space (every rounding). -/
theorem C10_copy (c : Color) :
    c.copy.cls = c.cls ∧ c.copy.ctype = c.ctype ∧ c.copy.comps = c.comps ∧ c.copy.maxv = c.maxv ∧ c.copy.minv = c.minv ∧
    c.copy.space = c.space ∧ (NoNaN c → c.copy.eq c) :=
  ⟨rfl, rfl, rfl, rfl, rfl, rfl, fun h => (C07_eq_iff _ _).mpr ⟨rfl, rfl, h⟩⟩

/-- **C10.** The alpha of the copy is the alpha of the original limited to 0..1 (every rounding), for the 0..1 types. -/
theorem C10_copy_alpha (c : Color) (hs : scalesAlpha c.cls = false) :
    c.copy.alpha = fmax (fmin c.alpha 1) 0 := by
  simp [Color.copy, Color.setAlpha, Color.alpha, hs, Color.clamp]

/-- **C10.** For the true-colour types the alpha of the copy is the alpha of the original limited to 0..255, in exact
arithmetic. -/
theorem C10_copy_alpha_true [ExactModel] (c : Color) (hs : scalesAlpha c.cls = true) (a : ℝ) (ha : c.alpha = fin a) :
    c.copy.alpha = fin (max (min a 255) 0) := by
  have : c.copy.alpha = Color.clamp (c.alpha / 255) 1 0 * 255 := by
    simp [Color.copy, Color.setAlpha, Color.alpha, hs]
  rw [this, ha]
  simp only [lit_def, one_def, zero_def]
  rw [div_exact _ _ (by norm_num), clamp_fin, mul_exact]
  congr 1
  rw [max_mul_of_nonneg _ _ (by norm_num), min_mul_of_nonneg _ _ (by norm_num)]
  norm_num

/-- **C10.** A copy of a colour with valid alpha is indistinguishable from the original on the 0..1 types. -/
theorem C10_copy_same (c : Color) (hs : scalesAlpha c.cls = false) (ha : InRange 0 1 c.alpha) : c.copy = c := by
  have hm : c.malpha = c.alpha := by simp [Color.alpha, hs]
  have : Color.clamp c.alpha 1 0 = c.alpha := by simpa using clamp_of_inRange ha
  have e : c.copy = { c with malpha := Color.clamp c.alpha 1 0 } := by
    unfold Color.copy Color.setAlpha
    simp only [hs]
    rfl
  rw [e, this, ← hm]

example : scalesAlpha (mkLab 1 2 3 1 none).cls = false ∧ InRange 0 1 (mkLab 1 2 3 1 none).alpha := by
  simp [mkLab, scalesAlpha, Color.alpha]

/-! ### C11 -/

/-- **C11 (violated).** Assignment keeps the old alpha and the old colour space. -/
theorem C11_assign_violated : ∃ a b : Color, Reach False anyAlpha a ∧ Reach False anyAlpha b ∧ a.cls = b.cls ∧
    (a.assign b).alpha ≠ b.alpha ∧ (a.assign b).space ≠ b.space :=
  ⟨mkHue .hsv 0 0 0 0 (some 1), mkHue .hsv 0 0 0 1 (some 2),
    .construct .hsv [0, 0, 0] 0 (some 1) _ (by simp) trivial rfl (construct_hsv _ _ _ _ _),
    .construct .hsv [0, 0, 0] 1 (some 2) _ (by simp) trivial rfl (construct_hsv _ _ _ _ _), rfl,
    by simp [Color.assign, Color.alpha, mkHue, scalesAlpha], by simp [Color.assign, mkHue]⟩

/-- **C11 (partial).** After `a = b`, type, components and limits are those of `b` (so that `a == b`), and assigning again
changes nothing.  Missing: alpha and colour space, see `C11_assign_violated`. -/
theorem C11_assign_partial (a b : Color) :
    (a.assign b).ctype = b.ctype ∧ (a.assign b).comps = b.comps ∧ (a.assign b).maxv = b.maxv ∧ (a.assign b).minv = b.minv ∧
    (NoNaN b → (a.assign b).eq b) ∧ (a.assign b).assign b = a.assign b ∧ a.assign a = a :=
  ⟨rfl, rfl, rfl, rfl, fun h => (C07_eq_iff _ _).mpr ⟨rfl, rfl, h⟩, rfl, rfl⟩

/-! ### C12 -/

/-- **C12 (violated).** The base-reference constructors of rgb_truecolor, rgb_deepcolor, grey_truecolor and cieluv throw for
every colour a program can build, also for colours of their own type. -/
theorem C12_from_base_always_throws (t : ColorType) (ht : t = .rgbTrue ∨ t = .rgbDeep ∨ t = .greyTrue ∨ t = .cieluv)
    (c : Color) (h : Reach True anyAlpha c) : fromBase t c = .throw ⟨.invalidArgument, true⟩ := by
  have inv := ObjectLemmas.reach_inv h
  unfold fromBase throwNewInvalid
  rw [if_neg]
  rintro ⟨h1, h2⟩
  have := inv.len
  rw [h1, h2] at this
  rcases ht with rfl | rfl | rfl | rfl <;> simp [fromBaseSize, count] at this

/-- **C12 (partial).** For the other eleven types the constructor succeeds exactly for colours of that type, and the result has the same
components, limits, colour space and alpha.  Missing: the four types of `C12_from_base_always_throws`. -/
theorem C12_from_base_partial (t : ColorType)
    (ht : t ≠ .undefined ∧ t ≠ .rgbTrue ∧ t ≠ .rgbDeep ∧ t ≠ .greyTrue ∧ t ≠ .cieluv)
    (c : Color) (h : Reach True anyAlpha c) :
    (c.ctype = t → ∃ c', fromBase t c = ok c' ∧ c'.cls = t ∧ c'.ctype = t ∧ c'.comps = c.comps ∧ c'.maxv = c.maxv ∧
      c'.minv = c.minv ∧ c'.space = c.space ∧ c'.alpha = c.alpha) ∧
    (c.ctype ≠ t → fromBase t c = .throw ⟨.invalidArgument, true⟩) := by
  have inv := ObjectLemmas.reach_inv h
  constructor
  · intro hc
    have hlen : c.comps.length = fromBaseSize t := by
      rw [inv.len, hc]; cases t <;> simp [fromBaseSize, count] at ht ⊢
    refine ⟨_, if_pos ⟨hc, hlen⟩, rfl, rfl, rfl, rfl, rfl, rfl, ?_⟩
    have hs : scalesAlpha t = false := by cases t <;> simp [scalesAlpha] at ht ⊢
    simp [Color.alpha, hs]
  · intro hc
    unfold fromBase throwNewInvalid
    rw [if_neg]; exact fun hh => hc hh.1

example : Reach True anyAlpha (mkLab 1 2 3 1 none) :=
  .construct .lab [1, 2, 3] 1 none _ (by simp) trivial rfl (construct_lab _ _ _ _ _)

end props
