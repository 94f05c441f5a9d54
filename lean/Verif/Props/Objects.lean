import Verif.ColorLemmas

/-!
# Properties of colour objects (C01–C12)

Specification vocabulary first, then one theorem (or a small group) per property.
-/

open Fl Outcome

namespace ObjectSpec

/-- The documented range of channel `i` of colour space `t`: hues 0..359, true colours 0..255, CIE spaces as in the
README, everything else 0..1. -/
def channelRange (t : ColorType) (i : Nat) : ℝ × ℝ :=
  match t, i with
  | .hsi, 0 => (0, 359)
  | .hsv, 0 => (0, 359)
  | .hsl, 0 => (0, 359)
  | .hcy, 0 => (0, 359)
  | .lchAb, 2 => (0, 359)
  | .lchUv, 2 => (0, 359)
  | .rgbTrue, _ => (0, 255)
  | .greyTrue, _ => (0, 255)
  | .xyz, _ => (0, 100)
  | .xyy, _ => (0, 100)
  | .lchAb, _ => (0, 100)
  | .lchUv, _ => (0, 100)
  | .cieluv, _ => (-100, 100)
  | .lab, _ => (-128, 128)
  | _, _ => (0, 1)

/-- Every component is a number inside its documented range. -/
def ComponentsInRange (c : Color) : Prop :=
  ∀ i (h : i < c.comps.length), InRange (channelRange c.ctype i).1 (channelRange c.ctype i).2 c.comps[i]

/-- Colours that a program can produce.  `raw = True` admits the writes that bypass the named channel setters:
`set_component(value, index)`, `+`, the gamma functions.  `A t a` says which alpha values the program passes to the constructor of
type `t`. -/
inductive Reach [FloatModel] (raw : Prop) (A : ColorType → Fl → Prop) : Color → Prop
  | construct (t : ColorType) (vs : List Fl) (a : Fl) (sp : Option Nat) (c : Color) :
      t ≠ .undefined → A t a → vs.length = Color.count t → Color.construct t vs a sp = ok c → Reach raw A c
  | constructGrey (t : ColorType) (v a : Fl) (sp : Option Nat) (c : Color) :
      t = .rgbTrue ∨ t = .rgbDeep → A t a → Color.constructGrey t v a sp = ok c → Reach raw A c
  | hexInt (code : BitVec 32) (sp : Option Nat) (c : Color) : Color.fromHexInt code sp = ok c → Reach raw A c
  | hexString (s : List Char) (sp : Option Nat) (c : Color) : Color.fromHexString s sp = ok c → Reach raw A c
  | copy (c : Color) : Reach raw A c → c.cls ≠ .undefined → Reach raw A c.copy
  | fromBase (t : ColorType) (c c' : Color) : t ≠ .undefined → Reach raw A c → Color.fromBase t c = ok c' → Reach raw A c'
  | assign (c o : Color) : Reach raw A c → Reach raw A o → c.cls = o.cls → c.cls ≠ .undefined → Reach raw A (c.assign o)
  | setChannel (c c' : Color) (i : Nat) (v : Fl) :
      Reach raw A c → c.cls ≠ .undefined → c.setChannel i v = ok c' → Reach raw A c'
  | setAlpha (c : Color) (a : Fl) : Reach raw A c → Reach raw A (c.setAlpha a)
  | setSpace (c : Color) (sp : Option Nat) : Reach raw A c → Reach raw A (c.setSpace sp)
  | setComponent (c c' : Color) (v : Fl) (i : Int) : raw → Reach raw A c → c.setComponent v i = ok c' → Reach raw A c'
  | plus (a b c : Color) : raw → Reach raw A a → Reach raw A b → a.plus b = ok c → Reach raw A c
  | gamma (c : Color) (g : Fl → Fl) : raw → Reach raw A c → Reach raw A (c.applyGamma g)

/-- Every alpha value. -/
def anyAlpha : ColorType → Fl → Prop := fun _ _ => True

/-- The largest alpha value of a colour space. -/
def alphaTop : ColorType → ℝ
  | .rgbTrue => 255
  | .greyTrue => 255
  | _ => 1

/-- `a` is a valid alpha value for colour space `t`. -/
def validAlpha (t : ColorType) (a : Fl) : Prop := InRange 0 (alphaTop t) a

/-- No component is NaN. -/
def NoNaN (c : Color) : Prop := ∀ x ∈ c.comps, x ≠ .nan

end ObjectSpec

open ObjectSpec Color

namespace ObjectLemmas
variable [FloatModel]

/-- Invariant of all reachable colours. -/
structure Inv (c : Color) : Prop where
  defined : c.ctype ≠ .undefined
  cls : c.cls = c.ctype ∨ c.cls = .undefined
  len : c.comps.length = count c.ctype
  maxv : c.maxv = maxOf c.ctype
  minv : c.minv = minOf c.ctype
  rng : ComponentsInRange c

/-- The limits of the whole colour are inside the range of each channel. -/
theorem limits_sub (t : ColorType) (i : Nat) : (channelRange t i).1 ≤ minR t ∧ maxR t ≤ (channelRange t i).2 := by
  cases t <;> simp only [channelRange, minR, maxR] <;> (try split) <;> first | (norm_num; done) | simp_all

theorem clamp_channel (t : ColorType) (i : Nat) (v : Fl) :
    InRange (channelRange t i).1 (channelRange t i).2 (Color.clamp v (maxOf t) (minOf t)) := by
  rw [maxOf_eq, minOf_eq]
  exact (clamp_inRange v (minR_le_maxR t)).mono (limits_sub t i).1 (limits_sub t i).2

theorem Inv.set {c : Color} (h : Inv c) {i : Nat} {x : Fl}
    (hx : InRange (channelRange c.ctype i).1 (channelRange c.ctype i).2 x) :
    Inv { c with comps := c.comps.set i x } := by
  refine ⟨h.defined, h.cls, by simpa using h.len, h.maxv, h.minv, ?_⟩
  intro j hj
  simp only [List.length_set] at hj
  simp only [List.getElem_set]
  split
  · rename_i hij; subst hij; exact hx
  · exact h.rng j hj

theorem Inv.setComponent {c c' : Color} (h : Inv c) {v : Fl} {i : Int} (e : c.setComponent v i = ok c') : Inv c' := by
  rw [Color.setComponent, setComponentLim_ok] at e
  obtain ⟨h0, h1, rfl⟩ := e
  exact h.set (by rw [h.maxv, h.minv]; exact clamp_channel _ _ _)

theorem Inv.setLim {c c' : Color} (h : Inv c) {v : Fl} {i : Int} {mx mn : ℝ} (hm : mn ≤ mx)
    (hlo : (channelRange c.ctype i.toNat).1 ≤ mn) (hhi : mx ≤ (channelRange c.ctype i.toNat).2)
    (e : c.setComponentLim v i (fin mx) (fin mn) = ok c') : Inv c' := by
  rw [setComponentLim_ok] at e
  obtain ⟨h0, h1, rfl⟩ := e
  exact h.set ((clamp_inRange v hm).mono hlo hhi)

theorem Inv.setChannel {c c' : Color} (h : Inv c) (hc : c.cls = c.ctype) {v : Fl} {i : Nat}
    (e : c.setChannel i v = ok c') : Inv c' := by
  unfold Color.setChannel setHue at e
  have hdeg : (359 : Fl) = fin 359 := by simp
  have h100 : (100 : Fl) = fin 100 := by simp
  rw [hc] at e
  split at e
  all_goals first
    | exact h.setComponent e
    | (rename_i hcl
       simp only [lit_def, zero_def] at e
       exact h.setLim (by norm_num) (by rw [hcl]; norm_num [channelRange, show Int.toNat 2 = 2 from rfl])
         (by rw [hcl]; norm_num [channelRange, show Int.toNat 2 = 2 from rfl]) e)

theorem setComponentLim_cls {c c' : Color} {v : Fl} {i : Int} {mx mn : Fl} (e : c.setComponentLim v i mx mn = ok c') :
    c'.cls = c.cls ∧ c'.ctype = c.ctype ∧ c'.malpha = c.malpha ∧ c'.maxv = c.maxv ∧ c'.minv = c.minv ∧ c'.space = c.space
     ∧ c'.comps.length = c.comps.length ∧ ∀ j, j ≠ i.toNat → c'.comps[j]? = c.comps[j]? := by
  rw [setComponentLim_ok] at e
  obtain ⟨h0, h1, rfl⟩ := e
  refine ⟨rfl, rfl, rfl, rfl, rfl, rfl, by simp, ?_⟩
  intro j hj
  simp [List.getElem?_set, Ne.symm hj]

theorem setChannel_frame {c c' : Color} {v : Fl} {i : Nat} (e : c.setChannel i v = ok c') :
    c'.cls = c.cls ∧ c'.ctype = c.ctype ∧ c'.malpha = c.malpha ∧ c'.maxv = c.maxv ∧ c'.minv = c.minv ∧ c'.space = c.space
     ∧ c'.comps.length = c.comps.length ∧ ∀ j, j ≠ i → c'.comps[j]? = c.comps[j]? := by
  unfold Color.setChannel setHue Color.setComponent at e
  split at e <;> simpa using setComponentLim_cls e

/-- Constructor bodies: the components written so far are in range. -/
theorem setChannels_inv (t : ColorType) (ht : t ≠ .undefined) : ∀ (vs : List Fl) (k : Nat) (c c' : Color),
    c.cls = t → c.ctype = t → c.comps.length = count t → c.maxv = maxOf t → c.minv = minOf t →
    (∀ i (h : i < c.comps.length), i < k → InRange (channelRange t i).1 (channelRange t i).2 c.comps[i]) →
    k + vs.length = count t → setChannels k vs c = ok c' → Inv c' ∧ c'.cls = t ∧ c'.malpha = c.malpha ∧ c'.space = c.space := by
  intro vs
  induction vs with
  | nil =>
    intro k c c' h1 h2 h3 h4 h5 h6 h7 e
    simp only [setChannels, ok_inj] at e
    subst e
    refine ⟨⟨h2 ▸ ht, Or.inl (h1.trans h2.symm), by rw [h2]; exact h3, by rw [h2]; exact h4, by rw [h2]; exact h5, ?_⟩, h1, rfl, rfl⟩
    intro i hi
    rw [h2]
    exact h6 i hi (by simp at h7; omega)
  | cons v vs ih =>
    intro k c c' h1 h2 h3 h4 h5 h6 h7 e
    simp only [setChannels, Outcome.bind_eq_ok] at e
    obtain ⟨d, hd, e⟩ := e
    obtain ⟨f1, f2, f3, f4, f5, f6, f7, f8⟩ := setChannel_frame hd
    have := ih (k+1) d c' (f1.trans h1) (f2.trans h2) (f7.trans h3) (f4.trans h4) (f5.trans h5) ?_
      (by simp at h7; omega) e
    · exact ⟨this.1, this.2.1, this.2.2.1.trans f3, this.2.2.2.trans f6⟩
    · intro i hi hik
      by_cases hlt : i < k
      · have h8 := f8 i (by omega)
        have hi' : i < c.comps.length := by omega
        rw [List.getElem?_eq_getElem hi, List.getElem?_eq_getElem hi'] at h8
        rw [Option.some.inj h8]
        exact h6 i hi' hlt
      · have hk : i = k := by omega
        subst hk
        unfold Color.setChannel setHue Color.setComponent at hd
        rw [h1] at hd
        split at hd
        all_goals
          rw [setComponentLim_ok] at hd
          obtain ⟨g0, g1, rfl⟩ := hd
          simp
        all_goals first
          | (refine InRange.mono (clamp_inRange _ ?_) ?_ ?_ <;> norm_num [channelRange])
          | (rw [h4, h5]; exact clamp_channel _ _ _)

theorem construct_inv {t : ColorType} (ht : t ≠ .undefined) {vs : List Fl} {a : Fl} {sp : Option Nat} {c : Color}
    (hl : vs.length = count t) (e : construct t vs a sp = ok c) :
    Inv c ∧ c.cls = t ∧ c.space = sp ∧ (scalesAlpha t = false → c.malpha = a) := by
  simp only [construct, Outcome.bind_eq_ok] at e
  obtain ⟨d, hd, e⟩ := e
  obtain ⟨h1, h2, h3, h4⟩ := setChannels_inv t ht vs 0 _ d rfl rfl (by simp [base]) rfl rfl (by simp) (by simpa using hl) hd
  simp only [pure_eq, ok_inj] at e
  subst e
  split
  · rename_i hs
    refine ⟨⟨h1.defined, h1.cls, h1.len, h1.maxv, h1.minv, h1.rng⟩, h2, h4, by simp [hs]⟩
  · exact ⟨h1, h2, h4, fun _ => h3⟩

theorem hexInt_inv {code : BitVec 32} {sp : Option Nat} {c : Color} (e : fromHexInt code sp = ok c) :
    Inv c ∧ c.cls = .rgbTrue ∧ c.space = sp := by
  simp [fromHexInt, Color.setChannel, Color.setComponent, setComponentLim, Color.setAlpha, base, scalesAlpha] at e
  subst e
  refine ⟨⟨by simp, by simp, by simp [count], by simp [maxOf], by simp [minOf], ?_⟩, rfl, rfl⟩
  intro i hi
  simp at hi
  have : i = 0 ∨ i = 1 ∨ i = 2 := by omega
  rcases this with rfl | rfl | rfl <;> simpa [channelRange] using clamp_inRange _ (by norm_num)

theorem hexFields_inv {sp : Option Nat} {al r g b : Fl} {c : Color} (e : hexFinish sp al r g b = ok c) :
    Inv c ∧ c.cls = .rgbTrue ∧ c.space = sp := by
  simp [hexFinish, Color.setChannel, Color.setComponent, setComponentLim, Color.setAlpha, base, scalesAlpha] at e
  subst e
  refine ⟨⟨by simp, by simp, by simp [count], by simp [maxOf], by simp [minOf], ?_⟩, rfl, rfl⟩
  intro i hi
  simp at hi
  have : i = 0 ∨ i = 1 ∨ i = 2 := by omega
  rcases this with rfl | rfl | rfl <;> simpa [channelRange] using clamp_inRange _ (by norm_num)

theorem hexString_cases {s : List Char} {sp : Option Nat} {c : Color} (e : fromHexString s sp = ok c) :
    ∃ al r g b : Nat, hexFinish sp (ofByte al) (ofByte r) (ofByte g) (ofByte b) = ok c := by
  unfold fromHexString at e
  split at e
  · simp at e
  · dsimp only at e
    split at e
    · split at e
      · rename_i r g b _
        refine ⟨255, r, g, b, ?_⟩
        have : ofByte 255 = 255 := by simp [ofByte]
        rw [this]; exact e
      · simp at e
    · split at e
      · split at e
        · rename_i a r g b _
          exact ⟨a, r, g, b, e⟩
        · simp at e
      · simp at e

theorem reach_inv {raw : Prop} {A : ColorType → Fl → Prop} {c : Color} (h : Reach raw A c) : Inv c := by
  induction h with
  | construct t vs a sp c ht _ hl e => exact (construct_inv ht hl e).1
  | constructGrey t v a sp c ht _ e =>
    have : t ≠ .undefined := by rcases ht with rfl | rfl <;> simp
    exact (construct_inv this (by rcases ht with rfl | rfl <;> rfl) e).1
  | hexInt code sp c e => exact (hexInt_inv e).1
  | hexString s sp c e => obtain ⟨_, _, _, _, e⟩ := hexString_cases e; exact (hexFields_inv e).1
  | copy c _ _ ih => exact ⟨ih.defined, ih.cls, ih.len, ih.maxv, ih.minv, ih.rng⟩
  | fromBase t c c' ht _ e ih =>
    unfold Color.fromBase throwNewInvalid at e
    split at e
    · rename_i hh
      simp only [ok_inj] at e; subst e
      obtain ⟨h1, h2⟩ := hh
      subst h1
      exact ⟨ht, Or.inl rfl, ih.len, ih.maxv, ih.minv, ih.rng⟩
    · simp at e
  | assign c o _ _ hcls hne ih1 ih2 =>
    refine ⟨ih2.defined, ?_, ih2.len, ih2.maxv, ih2.minv, ih2.rng⟩
    rcases ih2.cls with h | h
    · left; exact hcls.trans h
    · right; exact hcls.trans h
  | setChannel c c' i v _ hne e ih =>
    exact ih.setChannel (ih.cls.resolve_right hne) e
  | setAlpha c a _ ih => exact ⟨ih.defined, ih.cls, ih.len, ih.maxv, ih.minv, ih.rng⟩
  | setSpace c sp _ ih => exact ⟨ih.defined, ih.cls, ih.len, ih.maxv, ih.minv, ih.rng⟩
  | setComponent c c' v i _ _ e ih => exact ih.setComponent e
  | plus a b c _ _ _ e ih1 ih2 =>
    unfold Color.plus throwNewInvalid at e
    split at e
    · rename_i hh
      simp only [ok_inj] at e; subst e
      refine ⟨ih1.defined, Or.inr rfl, by simp [← hh.2, ih1.len], ih1.maxv, ih1.minv, ?_⟩
      intro i hi
      simp only [List.getElem_zipWith, ih1.maxv, ih1.minv]
      exact clamp_channel _ _ _
    · simp at e
  | gamma c g _ _ ih =>
    refine ⟨ih.defined, ih.cls, by simpa [applyGamma] using ih.len, ih.maxv, ih.minv, ?_⟩
    intro i hi
    simp only [applyGamma, List.getElem_map, ih.maxv, ih.minv]
    exact clamp_channel _ _ _

end ObjectLemmas

section props
variable [FloatModel]

/-! ### C01 -/

/-- **C01.** After every history of constructors, setters, copies, assignments, `+` and gamma calls, with arbitrary float
arguments and any rounding: the object has the number of components and the limits of its type, and every component is a
number in the documented range of its channel. -/
theorem C01_components_in_range (c : Color) (h : Reach True anyAlpha c) :
    c.comps.length = count c.ctype ∧ c.maxv = maxOf c.ctype ∧ c.minv = minOf c.ctype ∧ ComponentsInRange c :=
  let i := ObjectLemmas.reach_inv h
  ⟨i.len, i.maxv, i.minv, i.rng⟩

/-- C01 is not vacuous: an HSV colour built from NaN, an infinity and -7 is reachable. -/
example : ∃ c, Reach True anyAlpha c ∧ construct .hsv [nan, pinf, fin (-7)] (fin 1) none = ok c :=
  ⟨_, .construct .hsv [nan, pinf, fin (-7)] (fin 1) none _ (by simp) trivial rfl (construct_hsv _ _ _ _ _), construct_hsv _ _ _ _ _⟩

/-! ### C02 -/

/-- **C02 (violated).** The lightness of a LAB colour can be driven below zero: `set_component(-128, 0)`. -/
theorem C02_lightness_violated : ∃ c, Reach True anyAlpha c ∧ c.ctype = .lab ∧ c.comps[0]? = some (fin (-128)) := by
  refine ⟨{ mkLab 50 0 0 1 none with comps := (mkLab 50 0 0 1 none).comps.set 0 (fin (-128)) }, ?_, rfl, by simp [mkLab]⟩
  refine .setComponent (mkLab 50 0 0 1 none) _ (fin (-128)) 0 trivial
    (.construct .lab [50, 0, 0] 1 none _ (by simp) trivial rfl (construct_lab _ _ _ _ _)) ?_
  have : Color.clamp (fin (-128)) 128 (-128) = fin (-128) := by
    simp only [lit_def, neg_fin]; exact clamp_of_inRange (by norm_num)
  simp [Color.setComponent, setComponentLim, mkLab] at this ⊢
  exact this

/-- **C02 (partial).** With the constructors, the named setters, copies, assignments and alpha/space setters only, the
lightness of LAB and CIELUV colours is between 0 and 100.  Missing: `set_component(value, 0)`, `+`, gamma functions, for
which the claim is false (`C02_lightness_violated`). -/
theorem C02_lightness_partial (c : Color) (h : Reach False anyAlpha c) (ht : c.ctype = .lab ∨ c.ctype = .cieluv) :
    ∃ l rest, c.comps = l :: rest ∧ InRange 0 100 l := by
  have key : ∀ c, Reach False anyAlpha c → (c.ctype = .lab ∨ c.ctype = .cieluv) → ∃ l rest, c.comps = l :: rest ∧ InRange 0 100 l := by
    intro c h
    induction h with
    | construct t vs a sp c hne _ hl e =>
      intro ht
      have h1 := ObjectLemmas.construct_inv hne hl e
      have hct : c.ctype = t := by
        rcases h1.1.cls with h | h
        · rw [← h]; exact h1.2.1
        · rw [h1.2.1] at h; exact absurd h hne
      rw [hct] at ht
      rcases ht with rfl | rfl
      · match vs, hl with
        | [x, y, z], _ =>
          rw [construct_lab] at e
          simp only [ok_inj] at e; subst e
          exact ⟨_, _, rfl, by simpa using clamp_inRange x (by norm_num : (0:ℝ) ≤ 100)⟩
      · match vs, hl with
        | [x, y, z], _ =>
          rw [construct_cieluv] at e
          simp only [ok_inj] at e; subst e
          exact ⟨_, _, rfl, by simpa using clamp_inRange x (by norm_num : (0:ℝ) ≤ 100)⟩
    | constructGrey t v a sp c hh _ e =>
      intro ht
      exfalso
      have hne : t ≠ .undefined := by rcases hh with rfl | rfl <;> simp
      have h1 := ObjectLemmas.construct_inv hne (by rcases hh with rfl | rfl <;> rfl) e
      rcases h1.1.cls with h | h
      · rw [← h, h1.2.1] at ht
        rcases hh with rfl | rfl <;> simp at ht
      · rw [h1.2.1] at h; exact hne h
    | hexInt code sp c e =>
      intro ht; exfalso
      have h1 := ObjectLemmas.hexInt_inv e
      rcases h1.1.cls with h | h
      · rw [← h, h1.2.1] at ht; simp at ht
      · rw [h1.2.1] at h; simp at h
    | hexString s sp c e =>
      intro ht; exfalso
      obtain ⟨_, _, _, _, e⟩ := ObjectLemmas.hexString_cases e
      have h1 := ObjectLemmas.hexFields_inv e
      rcases h1.1.cls with h | h
      · rw [← h, h1.2.1] at ht; simp at ht
      · rw [h1.2.1] at h; simp at h
    | copy c _ _ ih => exact fun ht => ih ht
    | fromBase t c c' hne _ e ih =>
      intro ht
      unfold Color.fromBase throwNewInvalid at e
      split at e
      · rename_i hh
        simp only [ok_inj] at e; subst e
        exact ih (by rw [hh.1]; exact ht)
      · simp at e
    | assign c o _ _ _ _ _ ih2 => exact fun ht => ih2 ht
    | setAlpha c a _ ih => exact fun ht => ih ht
    | setSpace c sp _ ih => exact fun ht => ih ht
    | setComponent c c' v i f => exact f.elim
    | plus a b c f => exact f.elim
    | gamma c g f => exact f.elim
    | setChannel c c' i v hr hne e ih =>
      intro ht
      have inv := ObjectLemmas.reach_inv hr
      obtain ⟨f1, f2, f3, f4, f5, f6, f7, f8⟩ := ObjectLemmas.setChannel_frame e
      rw [f2] at ht
      obtain ⟨l, rest, hl, hr'⟩ := ih ht
      have hcls := inv.cls.resolve_right hne
      by_cases hi : i = 0
      · subst hi
        have : c'.comps = Color.clamp v 100 0 :: rest := by
          unfold Color.setChannel at e
          rw [hcls] at e
          rcases ht with ht | ht <;> rw [ht] at e <;> simp only [setComponentLim_ok] at e <;> obtain ⟨_, _, rfl⟩ := e <;> simp [hl]
        exact ⟨_, _, this, by simpa using clamp_inRange v (by norm_num : (0:ℝ) ≤ 100)⟩
      · have := f8 0 (by omega)
        rw [hl] at this
        cases hc' : c'.comps with
        | nil => rw [hc'] at this; simp at this
        | cons x xs =>
          rw [hc'] at this
          simp at this
          subst this
          exact ⟨_, _, rfl, hr'⟩
  exact key c h ht

/-- C02 partial is not vacuous. -/
example : Reach False anyAlpha (mkLab nan 0 0 1 none) ∧ (mkLab nan 0 0 1 none).ctype = .lab :=
  ⟨.construct .lab [nan, 0, 0] 1 none _ (by simp) trivial rfl (construct_lab _ _ _ _ _), rfl⟩

/-! ### C03 -/

/-- **C03.** `get_component` throws `out_of_range` exactly for indices outside the component vector and otherwise returns
the component. -/
theorem C03_get_component (c : Color) (i : Int) :
    (c.getComponent i = .throw ⟨.outOfRange, true⟩ ↔ (i < 0 ∨ (c.comps.length : Int) ≤ i)) ∧
    (∀ (h0 : 0 ≤ i) (h : i.toNat < c.comps.length), c.getComponent i = ok c.comps[i.toNat]) ∧
    c.getComponent i ≠ ub := by
  unfold getComponent throwNewRange
  by_cases h : i < 0 ∨ (c.comps.length : Int) ≤ i
  · rw [if_pos h]
    refine ⟨by simp [h], ?_, by simp⟩
    intro h0 h1; omega
  · rw [if_neg h]
    have hlt : i.toNat < c.comps.length := by omega
    rw [List.getElem?_eq_getElem hlt]
    refine ⟨by simp [h], ?_, by simp⟩
    intro _ _; rfl

/-- **C03.** `set_component` throws for the same indices; otherwise a read returns the written value limited to the
component range of the object (and exactly the value, when that is in range). -/
theorem C03_set_component (c : Color) (v : Fl) (i : Int) :
    (c.setComponent v i = .throw ⟨.outOfRange, true⟩ ↔ (i < 0 ∨ (c.comps.length : Int) ≤ i)) ∧
    (0 ≤ i → i < c.comps.length → ∃ c', c.setComponent v i = ok c' ∧
      c'.getComponent i = ok (fmax (fmin v c.maxv) c.minv)) := by
  unfold Color.setComponent setComponentLim throwNewRange
  by_cases h : i < 0 ∨ (c.comps.length : Int) ≤ i
  · rw [if_pos h]
    refine ⟨by simp [h], ?_⟩
    intro h0 h1; omega
  · rw [if_neg h]
    refine ⟨by simp [h], ?_⟩
    intro h0 h1
    refine ⟨_, rfl, ?_⟩
    unfold getComponent
    rw [if_neg (by simpa using h)]
    have hlt : i.toNat < c.comps.length := by omega
    simp [List.getElem?_set, hlt, Color.clamp]

/-- **C03.** A value inside the limits is stored unchanged. -/
theorem C03_set_get (c : Color) (v mx mn : ℝ) (i : Int) (hmx : c.maxv = fin mx) (hmn : c.minv = fin mn)
    (h1 : mn ≤ v) (h2 : v ≤ mx) (h0 : 0 ≤ i) (h : i < c.comps.length) :
    ∃ c', c.setComponent (fin v) i = ok c' ∧ c'.getComponent i = ok (fin v) := by
  obtain ⟨c', e, e'⟩ := (C03_set_component c (fin v) i).2 h0 h
  refine ⟨c', e, ?_⟩
  rw [e', hmx, hmn]
  simp [h1, h2]

example : (mkXyz .xyz 1 2 3 1 none).maxv = fin 100 ∧ (mkXyz .xyz 1 2 3 1 none).minv = fin 0 ∧
    (2 : Int) < (mkXyz .xyz 1 2 3 1 none).comps.length := by simp [mkXyz]

/-! ### C04 -/

/-- **C04.** A named channel setter changes nothing but its channel. -/
theorem C04_setter_frame (c c' : Color) (i : Nat) (v : Fl) (h : c.setChannel i v = ok c') :
    c'.cls = c.cls ∧ c'.ctype = c.ctype ∧ c'.alpha = c.alpha ∧ c'.maxv = c.maxv ∧ c'.minv = c.minv ∧ c'.space = c.space ∧
    c'.comps.length = c.comps.length ∧ ∀ j, j ≠ i → c'.comps[j]? = c.comps[j]? := by
  obtain ⟨f1, f2, f3, f4, f5, f6, f7, f8⟩ := ObjectLemmas.setChannel_frame h
  exact ⟨f1, f2, by simp [Color.alpha, f1, f3], f4, f5, f6, f7, f8⟩

/-- **C04.** `set_component` (both versions) changes nothing but its component. -/
theorem C04_set_component_frame (c c' : Color) (i : Int) (v mx mn : Fl)
    (h : c.setComponent v i = ok c' ∨ c.setComponentLim v i mx mn = ok c') :
    c'.cls = c.cls ∧ c'.ctype = c.ctype ∧ c'.alpha = c.alpha ∧ c'.maxv = c.maxv ∧ c'.minv = c.minv ∧ c'.space = c.space ∧
    c'.comps.length = c.comps.length ∧ ∀ j : Nat, (j : Int) ≠ i → c'.comps[j]? = c.comps[j]? := by
  have key : ∀ mx mn, c.setComponentLim v i mx mn = ok c' → c'.cls = c.cls ∧ c'.ctype = c.ctype ∧ c'.alpha = c.alpha ∧
      c'.maxv = c.maxv ∧ c'.minv = c.minv ∧ c'.space = c.space ∧
      c'.comps.length = c.comps.length ∧ ∀ j : Nat, (j : Int) ≠ i → c'.comps[j]? = c.comps[j]? := by
    intro mx mn h
    obtain ⟨f1, f2, f3, f4, f5, f6, f7, f8⟩ := ObjectLemmas.setComponentLim_cls h
    refine ⟨f1, f2, by simp [Color.alpha, f1, f3], f4, f5, f6, f7, ?_⟩
    intro j hj
    have := (setComponentLim_ok.mp h).1
    exact f8 j (by omega)
  rcases h with h | h
  · exact key _ _ h
  · exact key _ _ h

/-- **C04.** The alpha setter leaves all components, the type, the limits and the colour space alone; the colour space
setter leaves everything else alone. -/
theorem C04_alpha_frame (c : Color) (a : Fl) (s : Option Nat) :
    ((c.setAlpha a).comps = c.comps ∧ (c.setAlpha a).ctype = c.ctype ∧ (c.setAlpha a).maxv = c.maxv ∧
      (c.setAlpha a).minv = c.minv ∧ (c.setAlpha a).space = c.space) ∧
    ((c.setSpace s).comps = c.comps ∧ (c.setSpace s).ctype = c.ctype ∧ (c.setSpace s).alpha = c.alpha ∧
      (c.setSpace s).space = s) :=
  ⟨⟨rfl, rfl, rfl, rfl, rfl⟩, ⟨rfl, rfl, rfl, rfl⟩⟩

example : ∃ c', (mkCmyk 0 1 0 1 1 none).setChannel 2 nan = ok c' := by
  simp [mkCmyk, Color.setChannel, Color.setComponent, setComponentLim]

end props
