import Verif.Calc
import Verif.BlendLemmas

/-! Helper lemmas: colour arithmetic. -/

open Outcome Fl Prog ObjectSpec ConvSpec BlendSpec

section
variable [FloatModel]

/-- The range the named setter of a channel limits to. -/
def Calc.setterRange (t : ColorType) (i : Nat) : ℝ × ℝ :=
  match t, i with
  | .cieluv, 0 => (0, 100)
  | .lab, 0 => (0, 100)
  | t, i => channelRange t i

omit [FloatModel] in
theorem Calc.clamp_keep {x : Fl} {lo hi : ℝ} (h : InRange lo hi x) : Color.clamp x (fin hi) (fin lo) = x := Color.clamp_of_inRange h

theorem Calc.hue_keep {x : Fl} (h : InRange 0 359 x) : Color.hueReduce x = x := by
  obtain ⟨r, rfl, h0, h1⟩ := h
  exact Color.hueReduce_id h0 (by linarith)

/-- Values inside the ranges of the setters are stored as they are. -/
theorem Calc.construct_keep {t : ColorType} (ht : t ≠ .undefined) {vs : List Fl} (a : Fl) (sp : Option Nat) (hl : vs.length = Color.count t)
    (hr : ∀ i (h : i < vs.length), InRange (setterRange t i).1 (setterRange t i).2 vs[i]) :
    Color.construct t vs a sp = ok ⟨t, t, vs, if Color.scalesAlpha t then Color.clamp (a / 255) 1 0 else a, Color.maxOf t, Color.minOf t, sp⟩ := by
  have three : ∀ x y z, (∀ i (h : i < [x, y, z].length), InRange (setterRange t i).1 (setterRange t i).2 [x, y, z][i]) →
      InRange (setterRange t 0).1 (setterRange t 0).2 x ∧ InRange (setterRange t 1).1 (setterRange t 1).2 y ∧ InRange (setterRange t 2).1 (setterRange t 2).2 z :=
    fun x y z h => ⟨h 0 (by simp), h 1 (by simp), h 2 (by simp)⟩
  cases t <;> simp only [Color.count] at hl
  case undefined => exact absurd rfl ht
  case cmyk =>
    match vs, hl with
    | [x, y, z, k], _ =>
      have h0 := hr 0 (by simp)
      have h1 := hr 1 (by simp)
      have h2 := hr 2 (by simp)
      have h3 := hr 3 (by simp)
      simp only [setterRange, channelRange, List.getElem_cons_zero, List.getElem_cons_succ] at h0 h1 h2 h3
      rw [Color.construct_cmyk]
      simp only [Color.mkCmyk, one_def, zero_def, clamp_keep h0, clamp_keep h1, clamp_keep h2, clamp_keep h3]
      simp [Color.maxOf, Color.minOf, Color.scalesAlpha]
  case greyTrue =>
    match vs, hl with
    | [x], _ =>
      have h0 := hr 0 (by simp)
      simp only [setterRange, channelRange, List.getElem_cons_zero] at h0
      rw [Color.construct_greyTrue]
      simp only [Color.mkGreyTrue, zero_def, lit_def, clamp_keep h0]
      simp [Color.maxOf, Color.minOf, Color.scalesAlpha]
  case greyDeep =>
    match vs, hl with
    | [x], _ =>
      have h0 := hr 0 (by simp)
      simp only [setterRange, channelRange, List.getElem_cons_zero] at h0
      rw [Color.construct_greyDeep]
      simp only [Color.mkGreyDeep, zero_def, one_def, clamp_keep h0]
      simp [Color.maxOf, Color.minOf, Color.scalesAlpha]
  all_goals
    match vs, hl with
    | [x, y, z], _ =>
      obtain ⟨h0, h1, h2⟩ := three x y z hr
      simp only [setterRange, channelRange] at h0 h1 h2
      simp only [Color.construct_rgbTrue, Color.construct_rgbDeep, Color.construct_hsi, Color.construct_hsv, Color.construct_hsl, Color.construct_hcy, Color.construct_xyz,
        Color.construct_xyy, Color.construct_cieluv, Color.construct_lab, Color.construct_lchAb, Color.construct_lchUv, Color.mkRgbTrue, Color.mkRgbDeep, Color.mkHue,
        Color.mkXyz, Color.mkCieluv, Color.mkLab, Color.mkLch, zero_def, one_def, lit_def, Fl.neg_fin]
      first
        | simp only [hue_keep h0, clamp_keep h0, clamp_keep h1, clamp_keep h2]
        | simp only [clamp_keep h0, clamp_keep h1, clamp_keep h2]
      simp [Color.maxOf, Color.minOf, Color.scalesAlpha]

theorem Calc.zip_eq (f : Fl → Fl → Fl) (a b : Color) (n i : Nat) (ha : a.comps.length = i + n) (hb : b.comps.length = i + n) :
    Calc.zip f a b n i = ok (List.zipWith f (a.comps.drop i) (b.comps.drop i)) := by
  induction n generalizing i with
  | zero => simp [Calc.zip, List.drop_eq_nil_of_le (show a.comps.length ≤ i by omega)]
  | succ n ih =>
    have ga : a.getComponent (i : Int) = ok (a.comps[i]'(by omega)) := Conv.getComponent_of (by omega) (by simp)
    have gb : b.getComponent (i : Int) = ok (b.comps[i]'(by omega)) := Conv.getComponent_of (by omega) (by simp)
    rw [Calc.zip, ga, gb, ok_bind, ok_bind, ih (i + 1) (by omega) (by omega), ok_bind, List.drop_eq_getElem_cons (show i < a.comps.length by omega),
      List.drop_eq_getElem_cons (show i < b.comps.length by omega)]
    rfl

theorem Calc.zip_all {t : ColorType} (f : Fl → Fl → Fl) {a b : Color} (ha : IsColor t a) (hb : IsColor t b) :
    Calc.zip f a b (Color.count t) 0 = ok (List.zipWith f a.comps b.comps) := by
  rw [Calc.zip_eq f a b _ 0 (by simp [ha.len]) (by simp [hb.len])]
  simp

theorem Calc.accumulate_eq (sums : List Fl) (c : Color) (i : Nat) (h : c.comps.length = i + sums.length) :
    Calc.accumulate sums c i = ok (List.zipWith (· + ·) sums (c.comps.drop i)) := by
  induction sums generalizing i with
  | nil => simp [Calc.accumulate]
  | cons s ss ih =>
    simp only [List.length_cons] at h
    have g : c.getComponent (i : Int) = ok (c.comps[i]'(by omega)) := Conv.getComponent_of (by omega) (by simp)
    rw [Calc.accumulate, g, ok_bind, ih (i + 1) (by omega), ok_bind, List.drop_eq_getElem_cons (show i < c.comps.length by omega)]
    rfl

namespace Calc

/-- Reading two objects and creating a third. -/
theorem binary_yields {f : Color → Color → Outcome Color} {w : World} {a b r : Color} (e : f a b = ok r) : Yields (binary f) w a b r := by
  intro h i j hw hi hj
  refine ⟨h.colors.length, ⟨h.world, h.colors ++ [r]⟩, ?_, by simp, le_refl _, Frame.alloc h r⟩
  simp only [binary, Prog.bind_def, load, hi, hj, lift, e, Prog.alloc]

/-- Converting two objects, combining them and converting the result. -/
theorem via_yields {m t : ColorType} (hm : m ≠ .undefined) (ht : t ≠ .undefined) (hd : t ≠ .rgbDeep) {F : Ptr → Ptr → Prog Ptr} {w : World} {a b a' b' r r' : Color}
    (ha : IsColor t a) (hb : IsColor t b) (va : Val.to t m w a = ok a') (vb : Val.to t m w b = ok b') (hF : Yields F w a' b' r) (hr : IsColor m r)
    (vr : Val.to m t w r = ok r') : Yields (via (Conv.dispatcher m) (Conv.dispatcher t) F) w a b r' := by
  intro h i j hw hi hj
  subst hw
  obtain ⟨q1, g1, e1, c1⟩ := call_to ht hm ha hi va
  have f1 := c1.frame (by rw [ha.ctype]; exact fun h => hd h.1)
  obtain ⟨q2, g2, e2, c2⟩ := call_to ht hm hb (f1.2 _ _ hj) (c1.world ▸ vb)
  have f2 := c2.frame (by rw [hb.ctype]; exact fun h => hd h.1)
  obtain ⟨q3, g3, e3, l3, n3, f3⟩ := hF g2 q1 q2 (c2.world.trans c1.world) (f2.2 _ _ c1.here) c2.here
  have hw3 : g3.world = h.world := f3.1.trans (c2.world.trans c1.world)
  obtain ⟨q4, g4, e4, c4⟩ := call_to (t := t) hm ht hr l3 (hw3 ▸ vr)
  refine ⟨q4, g4, ?_, c4.here, ?_, ?_⟩
  · simp only [via, Prog.bind_def, e1, e2, e3, e4]
  · have h12 : h.colors.length ≤ g2.colors.length := c1.grows.trans c2.grows
    have h3 : q3 < g3.colors.length := (List.getElem?_eq_some_iff.mp l3).1
    rcases c4.fresh with ⟨e, -⟩ | ⟨e, -⟩ <;> omega
  · refine ⟨c4.world.trans hw3, fun k c hk => ?_⟩
    have hk2 := (f1.trans f2).2 _ _ hk
    refine c4.others k c ?_ (f3.2 _ _ hk2)
    have := (List.getElem?_eq_some_iff.mp hk2).1
    omega

/-- The weight passes the check. -/
def Pass (w : Fl) : Prop := ¬ (w < 0 ∨ w > 1)

theorem checked_pass {α : Type} {w : Fl} (h : Pass w) (p : Prog α) : checked w p = p := if_neg h

theorem checked_fail {α : Type} {w : Fl} (h : ¬ Pass w) (p : Prog α) : checked w p = Prog.throwNewInvalid := if_pos (not_not.mp h)

omit [FloatModel] in
theorem pass_of {w : Fl} (h : InRange 0 1 w) : Pass w := by
  obtain ⟨x, rfl, h0, h1⟩ := h
  simp [Pass, h0, h1]

omit [FloatModel] in
theorem pass_iff {w : Fl} : Pass w ↔ InRange 0 1 w ∨ w = nan := by
  cases w <;> simp [Pass, InRange]

/-- The class in which a class does its arithmetic. -/
def middle : ColorType → ColorType
  | .hsi => .hsv
  | .hsl => .hsv
  | .hcy => .hsv
  | .lab => .xyz
  | .lchAb => .xyz
  | .lchUv => .xyz
  | t => t

/-- Arithmetic of one class, through `middle`. -/
noncomputable def throughVal (f : ColorType → Color → Color → Outcome Color) (t : ColorType) (w : World) (a b : Color) : Outcome Color := do
  let a' ← Val.to t (middle t) w a
  let b' ← Val.to t (middle t) w b
  let r ← f (middle t) a' b'
  Val.to (middle t) t w r

omit [FloatModel] in
theorem middle_defined {t : ColorType} (h : t ≠ .undefined) : middle t ≠ .undefined := by cases t <;> simp_all [middle]

theorem construct_fresh {t : ColorType} (ht : t ≠ .undefined) (vs : List Fl) (al : Fl) (sp : Option Nat) (hl : vs.length = Color.count t) :
    ∃ r, Color.construct t vs al sp = ok r ∧ Conv.Fresh t sp r := by
  obtain ⟨c, hc⟩ := Conv.construct_total t al sp hl
  exact ⟨c, hc, Conv.construct_result ht hl hc⟩

theorem addVal_total {m : ColorType} (hm : middle m = m) (hd : m ≠ .undefined) (w1 w2 : Fl) (ia : Bool) {a b : Color} (ha : IsColor m a) (hb : IsColor m b) :
    ∃ r, addVal m w1 w2 ia a b = ok r ∧ Conv.Fresh m a.space r := by
  have hl : (List.zipWith (quadratic w1 w2) a.comps b.comps).length = Color.count m := by simp [ha.len, hb.len]
  have hl' : (List.zipWith (linear w1 w2) a.comps b.comps).length = Color.count m := by simp [ha.len, hb.len]
  cases m <;> simp [middle] at hm hd
  case hsv =>
    obtain ⟨x, y, z, ea⟩ := Conv.isColor_three rfl ha
    obtain ⟨x', y', z', eb⟩ := Conv.isColor_three rfl hb
    rw [ea, eb]
    simp only [addVal, Conv.get3_0, Conv.get3_1, Conv.get3_2, ok_bind, fromVector]
    exact construct_fresh (by simp) _ _ _ rfl
  all_goals
    simp only [Color.count] at hl hl'
    simp only [addVal]
    have hz := zip_all (quadratic w1 w2) ha hb
    have hz' := zip_all (linear w1 w2) ha hb
    simp only [Color.count] at hz hz'
    simp only [hz, hz', ok_bind]
    refine construct_fresh (by simp) _ _ _ ?_
    first | exact hl | exact hl' | (rw [List.length_map]; first | exact hl | exact hl')

theorem subVal_total {m : ColorType} (hm : middle m = m) (hd : m ≠ .undefined) (w : Fl) (ia : Bool) {a b : Color} (ha : IsColor m a) (hb : IsColor m b) :
    ∃ r, subVal m w ia a b = ok r ∧ Conv.Fresh m a.space r := by
  have hl : (List.zipWith (minus w) a.comps b.comps).length = Color.count m := by simp [ha.len, hb.len]
  cases m <;> simp [middle] at hm hd
  case hsv =>
    obtain ⟨x, y, z, ea⟩ := Conv.isColor_three rfl ha
    obtain ⟨x', y', z', eb⟩ := Conv.isColor_three rfl hb
    rw [ea, eb]
    simp only [subVal, Conv.get3_0, Conv.get3_1, Conv.get3_2, ok_bind, fromVector]
    exact construct_fresh (by simp) _ _ _ rfl
  all_goals
    simp only [Color.count] at hl
    simp only [subVal]
    have hz := zip_all (minus w) ha hb
    simp only [Color.count] at hz
    simp only [hz, ok_bind]
    exact construct_fresh (by simp) _ _ _ hl

/-- Arithmetic of a class is defined and gives a colour of the class. -/
theorem through_total {f : ColorType → Color → Color → Outcome Color} {t : ColorType} (ht : t ≠ .undefined)
    (hf : ∀ m, middle m = m → m ≠ .undefined → ∀ a b, IsColor m a → IsColor m b → ∃ r, f m a b = ok r ∧ Conv.Fresh m a.space r)
    {w : World} {a b : Color} (ha : IsColor t a) (hb : IsColor t b) (hw : Cie t → w.Usable a.space ∧ w.Usable b.space) :
    ∃ a' b' r r', Val.to t (middle t) w a = ok a' ∧ Val.to t (middle t) w b = ok b' ∧ f (middle t) a' b' = ok r ∧ IsColor (middle t) r ∧
      Val.to (middle t) t w r = ok r' ∧ Conv.Fresh t a.space r' := by
  have hm := middle_defined ht
  have hmm : middle (middle t) = middle t := by cases t <;> rfl
  have hc : Cie (middle t) → middle t ≠ t → Cie t := by cases t <;> simp [middle, Cie]
  have hc' : Cie t ∨ Cie (middle t) → t ≠ middle t → Cie t := fun h hn => h.elim id fun h => hc h hn.symm
  obtain ⟨a', ea, ca, sa⟩ := val_to_total ht hm ha (fun h hn => (hw (hc' h hn)).1)
  obtain ⟨b', eb, cb, sb⟩ := val_to_total ht hm hb (fun h hn => (hw (hc' h hn)).2)
  obtain ⟨r, er, fr⟩ := hf _ hmm hm _ _ ca cb
  by_cases hst : middle t = t
  · refine ⟨a', b', r, r, ea, eb, er, fr.col, by simp [Val.to, hst], ?_⟩
    have := sa ▸ fr
    rwa [hst] at this
  · obtain ⟨r', er', -, -⟩ := val_to_total hm ht fr.col (fun h hn => by rw [fr.space, sa]; exact (hw (hc' h.symm (Ne.symm hn))).1)
    refine ⟨a', b', r, r', ea, eb, er, fr.col, er', ?_⟩
    simp only [Val.to, if_neg hst] at er'
    have := (Conv.good_direct _ _ hm ht hst).result _ _ _ er'
    rwa [fr.space, sa] at this

theorem addOwn_yields {m : ColorType} {w1 w2 : Fl} (h1 : Pass w1) (h2 : Pass w2) {ia : Bool} {w : World} {a b r : Color} (e : addVal m w1 w2 ia a b = ok r) :
    Yields (addOwn m w1 w2 ia) w a b r := by
  have : addOwn m w1 w2 ia = binary (addVal m w1 w2 ia) := by
    funext p q
    simp only [addOwn, checked_pass h1, checked_pass h2]
  rw [this]
  exact binary_yields e

theorem subOwn_yields {m : ColorType} {w1 : Fl} (h1 : Pass w1) {ia : Bool} {w : World} {a b r : Color} (e : subVal m w1 ia a b = ok r) :
    Yields (subOwn m w1 ia) w a b r := by
  have : subOwn m w1 ia = binary (subVal m w1 ia) := by
    funext p q
    simp only [subOwn, checked_pass h1]
  rw [this]
  exact binary_yields e

/-- What `add` of one class does. -/
theorem addOf_yields {t : ColorType} (ht : t ≠ .undefined) {w1 w2 : Fl} (h1 : Pass w1) (h2 : Pass w2) (ia : Bool) {w : World} {a b : Color} (ha : IsColor t a) (hb : IsColor t b)
    (hw : Cie t → w.Usable a.space ∧ w.Usable b.space) :
    ∃ r, throughVal (fun m => addVal m w1 w2 ia) t w a b = ok r ∧ Yields (addOf t w1 w2 ia) w a b r ∧ Conv.Fresh t a.space r := by
  obtain ⟨a', b', r, r', ea, eb, er, cr, er', hf⟩ :=
    through_total (f := fun m => addVal m w1 w2 ia) ht (fun m hm hd a b ha hb => addVal_total hm hd w1 w2 ia ha hb) ha hb hw
  refine ⟨r', by simp only [throughVal, ea, eb, er, er', ok_bind], ?_, hf⟩
  by_cases hst : middle t = t
  · have ha' : a' = a := by simpa [Val.to, hst, eq_comm] using ea
    have hb' : b' = b := by simpa [Val.to, hst, eq_comm] using eb
    have hr' : r' = r := by simpa [Val.to, hst, eq_comm] using er'
    subst ha' hb' hr'
    rw [hst] at er
    have : addOf t w1 w2 ia = addOwn t w1 w2 ia := by cases t <;> first | rfl | simp [middle] at hst
    rw [this]
    exact addOwn_yields h1 h2 er
  · have : addOf t w1 w2 ia = via (Conv.dispatcher (middle t)) (Conv.dispatcher t) (addOwn (middle t) w1 w2 ia) := by
      funext p q
      cases t <;> first | (simp [middle] at hst; done) | (simp only [addOf, checked_pass h1, checked_pass h2]; rfl)
    rw [this]
    exact via_yields (middle_defined ht) ht (by rintro rfl; exact hst rfl) ha hb ea eb (addOwn_yields h1 h2 er) cr er'

/-- Whether the alpha flag reaches the class that does the arithmetic of `subtract`. -/
def subAlpha (t : ColorType) (ia : Bool) : Bool := if middle t = t then ia else false

/-- What `subtract` of one class does. -/
theorem subOf_yields {t : ColorType} (ht : t ≠ .undefined) {w1 : Fl} (h1 : Pass w1) (ia : Bool) {w : World} {a b : Color} (ha : IsColor t a) (hb : IsColor t b)
    (hw : Cie t → w.Usable a.space ∧ w.Usable b.space) :
    ∃ r, throughVal (fun m => subVal m w1 (subAlpha t ia)) t w a b = ok r ∧ Yields (subOf t w1 ia) w a b r ∧ Conv.Fresh t a.space r := by
  obtain ⟨a', b', r, r', ea, eb, er, cr, er', hf⟩ :=
    through_total (f := fun m => subVal m w1 (subAlpha t ia)) ht (fun m hm hd a b ha hb => subVal_total hm hd w1 _ ha hb) ha hb hw
  refine ⟨r', by simp only [throughVal, ea, eb, er, er', ok_bind], ?_, hf⟩
  by_cases hst : middle t = t
  · have ha' : a' = a := by simpa [Val.to, hst, eq_comm] using ea
    have hb' : b' = b := by simpa [Val.to, hst, eq_comm] using eb
    have hr' : r' = r := by simpa [Val.to, hst, eq_comm] using er'
    subst ha' hb' hr'
    simp only [hst, subAlpha, if_true] at er
    have : subOf t w1 ia = subOwn t w1 ia := by cases t <;> first | rfl | simp [middle] at hst
    rw [this]
    exact subOwn_yields h1 er
  · have : subOf t w1 ia = via (Conv.dispatcher (middle t)) (Conv.dispatcher t) (subOwn (middle t) w1 false) := by
      funext p q
      cases t <;> first | (simp [middle] at hst; done) | (simp only [subOf, checked_pass h1]; rfl)
    rw [this]
    simp only [subAlpha, if_neg hst] at er
    exact via_yields (middle_defined ht) ht (by rintro rfl; exact hst rfl) ha hb ea eb (subOwn_yields h1 er) cr er'

end Calc

end
