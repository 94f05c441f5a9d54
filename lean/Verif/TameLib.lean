import Verif.TameConv

/-! The rules of `Verif/Tame.lean` applied to compositing, blending, arithmetic, distances, adjustments, combinations and adaptation. -/

open Outcome Fl Prog ObjectSpec FrameSpec

namespace Tame
section
variable [FloatModel] {Q : ColorType → Color → Prop} {F : Nat → Prop}

theorem setChannel_kept {c c' : Color} {v : Fl} {i : Nat} (e : c.setChannel i v = ok c') : Kept c c' := by
  obtain ⟨h1, h2, h3, h4, h5, h6, -⟩ := ObjectLemmas.setChannel_frame e
  obtain ⟨_, _, _, _, _, _, _⟩ := c'
  simp only at h1 h2 h3 h4 h5 h6
  subst h1 h2 h3 h4 h5 h6
  rfl

theorem spec_like {p : Ptr} {f : Color → Prog Ptr} (hQ : Closed Q) (hf : ∀ c t, t ≠ .undefined → Q t c → Spec Q F (f c) (IsA Q F c.ctype)) : Spec Q F (load p >>= f) (Like Q F p) := by
  intro h hg hfr
  rw [bind_def]
  rcases load_cases p h with ⟨i, c, rfl, hc, e⟩ | e
  · rw [e]
    obtain ⟨t, ht, hq⟩ := hg i c hc
    obtain ⟨k1, k2, k3⟩ := hf c t ht hq h hg hfr
    refine ⟨k1, k2, fun a ha => ⟨fun n hn => (k3 a ha n hn).1, Or.inr ?_⟩⟩
    obtain ⟨c', hc', kk⟩ := k1.there i c hc
    have : c'.ctype = c.ctype := by rw [kk]
    exact ⟨i, c', rfl, hc', by rw [this]; exact k3 a ha⟩
  · rw [e]; exact ⟨after_refl h, hg, by simp⟩

theorem spec_self {p : Ptr} (hp : Within F p) : Spec Q F (pure p) (Like Q F p) := spec_pure p fun _ => ⟨hp, Or.inl rfl⟩

theorem isA_after (hQ : Closed Q) {t : ColorType} {h h' : Heap} {q : Ptr} (ha : After F h h') (hg : Good Q h') (hq : IsA Q F t h q) : IsA Q F t h' q := fun i hi => by
  obtain ⟨hf, c, hc, q⟩ := hq i hi
  obtain ⟨c', hc', k⟩ := ha.there i c hc
  obtain ⟨t', -, q'⟩ := hg i c' hc'
  have : t' = t := by rw [← (hQ.col _ _ q').ctype, ← (hQ.col _ _ q).ctype, k]
  exact ⟨hf, c', hc', this ▸ q'⟩

theorem like_after (hQ : Closed Q) {h h' : Heap} {o q : Ptr} (ha : After F h h') (hg : Good Q h') (hq : Like Q F o h q) : Like Q F o h' q := by
  refine ⟨hq.1, hq.2.imp_right fun ⟨i, c, ho, hc, k⟩ => ?_⟩
  obtain ⟨c', hc', kk⟩ := ha.there i c hc
  have : c'.ctype = c.ctype := by rw [kk]
  exact ⟨i, c', ho, hc', by rw [this]; exact isA_after hQ ha hg k⟩

theorem like_trans (hQ : Closed Q) {h : Heap} {a b c : Ptr} (hg : Good Q h) (h1 : Like Q F a h b) (h2 : Like Q F b h c) : Like Q F a h c := by
  rcases h2 with ⟨hw, rfl | ⟨j, y, hj, hy, k2⟩⟩
  · exact h1
  rcases h1 with ⟨-, e | ⟨i, x, hi, hx, k1⟩⟩
  · exact ⟨hw, Or.inr ⟨j, y, e ▸ hj, hy, k2⟩⟩
  · obtain ⟨-, z, hz, q⟩ := k1 j hj
    have : z = y := by rw [hy] at hz; exact (Option.some.inj hz).symm
    subst this
    exact ⟨hw, Or.inr ⟨i, x, hi, hx, by rw [← (hQ.col _ _ q).ctype]; exact k2⟩⟩

/-- What is known of a result stays known until the end of the program. -/
theorem _root_.FrameSpec.Spec.bindk {β : Type} {S : Heap → β → Prop} (hQ : Closed Q) {p : Prog Ptr} {o : Ptr} {f : Ptr → Prog β} (hp : Spec Q F p (Like Q F o))
    (hf : ∀ q, Within F q → Spec Q F (f q) (fun h b => Like Q F o h q → S h b)) : Spec Q F (p >>= f) S :=
  Spec.bind' hp fun a h hg hfr hr => by
    obtain ⟨k1, k2, k3⟩ := hf a hr.1 h hg hfr
    exact ⟨k1, k2, fun b hb => k3 b hb (like_after hQ k1 k2 hr)⟩

theorem bind_pure_prog {α : Type} (p : Prog α) : (p >>= pure) = p := by
  funext h
  rw [bind_def]
  rcases p h with ⟨_ | _ | _, h'⟩ <;> rfl

/-! ### Compositing and blending -/

theorem makes_loop (hQ : Closed Q) {t : ColorType} (s d : Color) (sa da ba : Fl) (us ud : Bool) (f : Nat → Fl → Fl → Fl) :
    ∀ n i r, Q t r → Makes Q t (Blend.loop s d sa da ba us ud f n i r) := by
  intro n
  induction n with
  | zero => intro i r hr x hx; simp only [Blend.loop, ok_inj] at hx; exact hx ▸ hr
  | succ n ih =>
    intro i r hr
    simp only [Blend.loop]
    split
    · refine Makes.bind_color (t := t) (fun x hx => hQ.comp t r i _ x hr hx) fun a ha => ih _ a ha
    · intro x hx; simp at hx

theorem s_generalPorterDuff (hQ : Closed Q) (hd : Divisible Q) (ps pd : Ptr) (us ud ub : Bool) (f : Nat → Fl → Fl → Fl) :
    Spec Q F (Blend.generalPorterDuff ps pd us ud ub f) (IsA Q F .rgbDeep) := by
  unfold Blend.generalPorterDuff
  split
  · exact spec_throw
  split
  · exact spec_throw
  refine spec_load_bind fun s _ _ _ => spec_load_bind fun d _ _ _ => ?_
  split
  · exact spec_throw
  refine spec_lift_bind fun r hr => spec_alloc (by decide) ?_
  have : Makes Q .rgbDeep (Blend.gpdVal s d us ud ub f) := by
    simp only [Blend.gpdVal]
    refine Makes.bind_color (makes_grey hQ (by decide) rfl) fun a ha => Makes.bind_color (makes_loop hQ _ _ _ _ _ _ _ _ _ _ _ ha) fun b hb => ?_
    intro x hx
    obtain rfl := ok_inj.mp hx
    exact hd b hb
  exact this r hr

theorem s_operator (hQ : Closed Q) (hd : Divisible Q) (us ud ub : Bool) (f : Color → Color → Nat → Fl → Fl → Fl) {source destination : Ptr} (hp : Within F source) (hq : Within F destination) :
    Spec Q F (Blend.operator us ud ub f source destination) (Like Q F source) := by
  unfold Blend.operator
  split
  · exact spec_throw
  split
  · exact spec_throw
  refine spec_like hQ fun s _ _ _ => spec_load_bind fun d _ _ _ => ?_
  split
  · exact spec_throw
  exact Spec.bindp (s_to_rgb_deep hQ hp) fun _ _ => Spec.bindp (s_to_rgb_deep hQ hq) fun _ _ => Spec.bindp (s_generalPorterDuff hQ hd _ _ _ _ _ _) fun _ hr => s_convertTo hQ hr _

theorem s_hueMode (hQ : Closed Q) (x y z : Color → Color → Outcome Fl) {source destination : Ptr} (hp : Within F source) (hq : Within F destination) :
    Spec Q F (do
      let s ← load (← Converter.to_hcy source)
      let d ← load (← Converter.to_hcy destination)
      let r ← lift (do Color.construct .hcy [← x s d, ← y s d, ← z s d] s.alpha s.space)
      let r ← alloc r
      let c ← load source
      Converter.convertTo r c.ctype) (Like Q F source) := by
  refine Spec.bind (s_to_hcy hQ hp) fun _ => spec_load_bind fun s _ _ _ => Spec.bind (s_to_hcy hQ hq) fun _ => spec_load_bind fun d _ _ _ => spec_lift_bind fun r hr => ?_
  have : Makes Q .hcy (do Color.construct .hcy [← x s d, ← y s d, ← z s d] s.alpha s.space) := by makes_steps hQ
  exact Spec.bindp (spec_alloc (by decide) (this r hr)) fun _ hn => spec_like hQ fun c _ _ _ => s_convertTo hQ hn _

theorem s_hue (hQ : Closed Q) (us ud : Bool) {p q : Ptr} (hp : Within F p) (hq : Within F q) : Spec Q F (ColorBlend.hue us ud p q) (Like Q F p) :=
  s_hueMode hQ (fun s _ => s.getComponent 0) (fun _ d => d.getComponent 1) (fun _ d => d.getComponent 2) hp hq
theorem s_saturation (hQ : Closed Q) (us ud : Bool) {p q : Ptr} (hp : Within F p) (hq : Within F q) : Spec Q F (ColorBlend.saturation us ud p q) (Like Q F p) :=
  s_hueMode hQ (fun _ d => d.getComponent 0) (fun s _ => s.getComponent 1) (fun _ d => d.getComponent 2) hp hq
theorem s_color (hQ : Closed Q) (us ud : Bool) {p q : Ptr} (hp : Within F p) (hq : Within F q) : Spec Q F (ColorBlend.color us ud p q) (Like Q F p) :=
  s_hueMode hQ (fun s _ => s.getComponent 0) (fun s _ => s.getComponent 1) (fun _ d => d.getComponent 2) hp hq
theorem s_luminosity (hQ : Closed Q) (us ud : Bool) {p q : Ptr} (hp : Within F p) (hq : Within F q) : Spec Q F (ColorBlend.luminosity us ud p q) (Like Q F p) :=
  s_hueMode hQ (fun _ d => d.getComponent 0) (fun _ d => d.getComponent 1) (fun s _ => s.getComponent 2) hp hq

/-! ### Arithmetic -/

section arith
open Calc

theorem zip_length (f : Fl → Fl → Fl) (a b : Color) : ∀ n i l, zip f a b n i = ok l → l.length = n := by
  intro n
  induction n with
  | zero => intro i l h; simp only [zip, ok_inj] at h; subst h; rfl
  | succ n ih =>
    intro i l h
    simp only [zip, bind_eq_ok] at h
    obtain ⟨x, -, y, -, r, hr, h⟩ := h
    obtain rfl := ok_inj.mp h
    simp [ih _ _ hr]

theorem makes_zip (hQ : Closed Q) {t : ColorType} (ht : t ≠ .undefined) {f : Fl → Fl → Fl} {a b : Color} {n : Nat} (hn : n = Color.count t) {g : List Fl → List Fl} (hg : ∀ l, (g l).length = l.length) {al : Fl} {sp : Option Nat} :
    Makes Q t (zip f a b n 0 >>= fun l => Color.construct t (g l) al sp) := by
  intro r hr
  obtain ⟨l, hl, h⟩ := bind_eq_ok.mp hr
  exact hQ.make t _ al sp r ht (by rw [hg, zip_length _ _ _ _ _ _ hl, hn]) h

theorem makes_addVal (hQ : Closed Q) (t : ColorType) (w1 w2 : Fl) (ia : Bool) (a b : Color) : Makes Q t (addVal t w1 w2 ia a b) := by
  cases t
  case hsv =>
    simp only [addVal, fromVector]
    makes_steps hQ
  case rgbTrue => exact makes_zip hQ (by decide) rfl (g := fun l => l.map byteLimit) (fun l => by simp)
  case greyTrue => exact makes_zip hQ (by decide) rfl (g := fun l => l.map byteLimit) (fun l => by simp)
  case rgbDeep => exact makes_zip hQ (by decide) rfl (g := id) (fun _ => rfl)
  case greyDeep => exact makes_zip hQ (by decide) rfl (g := id) (fun _ => rfl)
  case cmyk => exact makes_zip hQ (by decide) rfl (g := id) (fun _ => rfl)
  case xyz => exact makes_zip hQ (by decide) rfl (g := id) (fun _ => rfl)
  case xyy => exact makes_zip hQ (by decide) rfl (g := id) (fun _ => rfl)
  case cieluv => exact makes_zip hQ (by decide) rfl (g := id) (fun _ => rfl)
  all_goals (intro r hr; simp [addVal] at hr)

theorem makes_subVal (hQ : Closed Q) (t : ColorType) (w : Fl) (ia : Bool) (a b : Color) : Makes Q t (subVal t w ia a b) := by
  cases t
  case hsv =>
    simp only [subVal, fromVector]
    makes_steps hQ
  case rgbTrue => exact makes_zip hQ (by decide) rfl (g := id) (fun _ => rfl)
  case greyTrue => exact makes_zip hQ (by decide) rfl (g := id) (fun _ => rfl)
  case rgbDeep => exact makes_zip hQ (by decide) rfl (g := id) (fun _ => rfl)
  case greyDeep => exact makes_zip hQ (by decide) rfl (g := id) (fun _ => rfl)
  case cmyk => exact makes_zip hQ (by decide) rfl (g := id) (fun _ => rfl)
  case xyz => exact makes_zip hQ (by decide) rfl (g := id) (fun _ => rfl)
  case xyy => exact makes_zip hQ (by decide) rfl (g := id) (fun _ => rfl)
  case cieluv => exact makes_zip hQ (by decide) rfl (g := id) (fun _ => rfl)
  all_goals (intro r hr; simp [subVal] at hr)

theorem spec_checked {α : Type} {R : Heap → α → Prop} {p : Prog α} (w : Fl) (hp : Spec Q F p R) : Spec Q F (checked w p) R := by
  unfold checked
  split
  · exact spec_throw
  · exact hp

theorem spec_checkedPositive {α : Type} {R : Heap → α → Prop} {p : Prog α} (w : Fl) (hp : Spec Q F p R) : Spec Q F (checkedPositive w p) R := by
  unfold checkedPositive
  split
  · exact spec_throw
  · exact hp

theorem spec_binary {t : ColorType} (ht : t ≠ .undefined) {f : Color → Color → Outcome Color} (hf : ∀ a b, Makes Q t (f a b)) (p1 p2 : Ptr) : Spec Q F (binary f p1 p2) (IsA Q F t) :=
  spec_load_bind fun a _ _ _ => spec_load_bind fun b _ _ _ => spec_lift_bind fun r hr => spec_alloc ht (hf a b r hr)

theorem spec_via {t t' : ColorType} {S : Heap → Ptr → Prop} {conv back : Ptr → Prog Ptr} {f : Ptr → Ptr → Prog Ptr} (hc : ∀ p, Within F p → Spec Q F (conv p) (IsA Q F t))
    (hf : ∀ a b, Within F a → Within F b → Spec Q F (f a b) (IsA Q F t')) (hb : ∀ p, Within F p → Spec Q F (back p) S) {p1 p2 : Ptr} (h1 : Within F p1) (h2 : Within F p2) :
    Spec Q F (via conv back f p1 p2) S :=
  Spec.bindp (hc p1 h1) fun _ ha => Spec.bindp (hc p2 h2) fun _ hb' => Spec.bindp (hf _ _ ha hb') fun _ hr => hb _ hr

theorem spec_via_pure {t : ColorType} {S : Heap → Ptr → Prop} {conv : Ptr → Prog Ptr} {f : Ptr → Ptr → Prog Ptr} (hc : ∀ p, Within F p → Spec Q F (conv p) (IsA Q F t))
    (hf : ∀ a b, Within F a → Within F b → Spec Q F (f a b) S) {p1 p2 : Ptr} (h1 : Within F p1) (h2 : Within F p2) : Spec Q F (via conv pure f p1 p2) S := by
  have e : via conv pure f p1 p2 = (conv p1 >>= fun a => conv p2 >>= fun b => f a b) := by
    simp only [via, bind_pure_prog]
  rw [e]
  exact Spec.bindp (hc p1 h1) fun _ ha => Spec.bindp (hc p2 h2) fun _ hb => hf _ _ ha hb

theorem s_addOwn (hQ : Closed Q) (t : ColorType) (ht : t ≠ .undefined) (w1 w2 : Fl) (ia : Bool) {p1 p2 : Ptr} (h1 : Within F p1) (h2 : Within F p2) : Spec Q F (addOwn t w1 w2 ia p1 p2) (IsA Q F t) :=
  spec_checked _ (spec_checked _ (spec_binary ht (makes_addVal hQ t w1 w2 ia) p1 p2))

theorem s_addOf (hQ : Closed Q) (t : ColorType) (ht : t ≠ .undefined) (w1 w2 : Fl) (ia : Bool) {p1 p2 : Ptr} (h1 : Within F p1) (h2 : Within F p2) : Spec Q F (addOf t w1 w2 ia p1 p2) (IsA Q F t) := by
  have hv := fun a b (ha : Within F a) (hb : Within F b) => s_addOwn hQ .hsv (by decide) w1 w2 ia ha hb
  have hx := fun a b (ha : Within F a) (hb : Within F b) => s_addOwn hQ .xyz (by decide) w1 w2 ia ha hb
  cases t
  case hsi => exact spec_checked _ (spec_checked _ (spec_via (fun _ => s_to_hsv hQ) hv (fun _ => s_to_hsi hQ) h1 h2))
  case hsl => exact spec_checked _ (spec_checked _ (spec_via (fun _ => s_to_hsv hQ) hv (fun _ => s_to_hsl hQ) h1 h2))
  case hcy => exact spec_checked _ (spec_checked _ (spec_via (fun _ => s_to_hsv hQ) hv (fun _ => s_to_hcy hQ) h1 h2))
  case lab => exact spec_checked _ (spec_checked _ (spec_via (fun _ => s_to_xyz hQ) hx (fun _ => s_to_lab hQ) h1 h2))
  case lchAb => exact spec_checked _ (spec_checked _ (spec_via (fun _ => s_to_xyz hQ) hx (fun _ => s_to_lch_ab hQ) h1 h2))
  case lchUv => exact spec_checked _ (spec_checked _ (spec_via (fun _ => s_to_xyz hQ) hx (fun _ => s_to_lch_uv hQ) h1 h2))
  all_goals exact s_addOwn hQ _ ht w1 w2 ia h1 h2

theorem s_mixOf (hQ : Closed Q) (t : ColorType) (ht : t ≠ .undefined) (w : Fl) (ia : Bool) {p1 p2 : Ptr} (h1 : Within F p1) (h2 : Within F p2) : Spec Q F (mixOf t w ia p1 p2) (IsA Q F t) := by
  have h := s_addOf hQ t ht w (1 - w) ia h1 h2
  cases t <;> first | exact h | exact spec_checked _ h

theorem s_subOwn (hQ : Closed Q) (t : ColorType) (ht : t ≠ .undefined) (w : Fl) (ia : Bool) {p1 p2 : Ptr} (h1 : Within F p1) (h2 : Within F p2) : Spec Q F (subOwn t w ia p1 p2) (IsA Q F t) :=
  spec_checked _ (spec_binary ht (makes_subVal hQ t w ia) p1 p2)

theorem s_subOf (hQ : Closed Q) (t : ColorType) (ht : t ≠ .undefined) (w : Fl) (ia : Bool) {p1 p2 : Ptr} (h1 : Within F p1) (h2 : Within F p2) : Spec Q F (subOf t w ia p1 p2) (IsA Q F t) := by
  have hv := fun a b (ha : Within F a) (hb : Within F b) => s_subOwn hQ .hsv (by decide) w false ha hb
  have hx := fun a b (ha : Within F a) (hb : Within F b) => s_subOwn hQ .xyz (by decide) w false ha hb
  cases t
  case hsi => exact spec_checked _ (spec_via (fun _ => s_to_hsv hQ) hv (fun _ => s_to_hsi hQ) h1 h2)
  case hsl => exact spec_checked _ (spec_via (fun _ => s_to_hsv hQ) hv (fun _ => s_to_hsl hQ) h1 h2)
  case hcy => exact spec_checked _ (spec_via (fun _ => s_to_hsv hQ) hv (fun _ => s_to_hcy hQ) h1 h2)
  case lab => exact spec_checked _ (spec_via (fun _ => s_to_xyz hQ) hx (fun _ => s_to_lab hQ) h1 h2)
  case lchAb => exact spec_checked _ (spec_via (fun _ => s_to_xyz hQ) hx (fun _ => s_to_lch_ab hQ) h1 h2)
  case lchUv => exact spec_checked _ (spec_via (fun _ => s_to_xyz hQ) hx (fun _ => s_to_lch_uv hQ) h1 h2)
  all_goals exact s_subOwn hQ _ ht w ia h1 h2

/-- The functions for `color_base`: by the type of the first colour. -/
theorem spec_dispatch (hQ : Closed Q) {f : ColorType → Prog Ptr} {p : Ptr} (hf : ∀ t, t ≠ .undefined → Spec Q F (f t) (IsA Q F t)) : Spec Q F (load p >>= fun c => f c.ctype) (Like Q F p) :=
  spec_like hQ fun c t ht hq => by
    have : c.ctype ≠ .undefined := by rw [(hQ.col _ _ hq).ctype]; exact ht
    exact hf _ this

theorem s_add (hQ : Closed Q) (w1 w2 : Fl) (ia : Bool) {p1 p2 : Ptr} (h1 : Within F p1) (h2 : Within F p2) : Spec Q F (add w1 w2 ia p1 p2) (Like Q F p1) := by
  refine spec_checked _ (spec_checked _ (spec_dispatch hQ (f := fun t => match t with
    | .rgbTrue => via Converter.to_rgb_true pure (addOf .rgbTrue w1 w2 ia) p1 p2
    | .rgbDeep => via Converter.to_rgb_deep pure (addOf .rgbDeep w1 w2 ia) p1 p2
    | .greyTrue => via Converter.to_grey_true pure (addOf .greyTrue w1 w2 ia) p1 p2
    | .greyDeep => via Converter.to_grey_deep pure (addOf .greyDeep w1 w2 ia) p1 p2
    | .cmyk => via Converter.to_cmyk pure (addOf .cmyk w1 w2 ia) p1 p2
    | .hsv => via Converter.to_hsv pure (addOf .hsv w1 w2 ia) p1 p2
    | .hsl => via Converter.to_hsl pure (addOf .hsl w1 w2 ia) p1 p2
    | .xyz => via Converter.to_xyz pure (addOf .xyz w1 w2 ia) p1 p2
    | .xyy => via Converter.to_xyy pure (addOf .xyy w1 w2 ia) p1 p2
    | .cieluv => via Converter.to_cieluv pure (addOf .cieluv w1 w2 ia) p1 p2
    | .lab => via Converter.to_lab pure (addOf .lab w1 w2 ia) p1 p2
    | .lchAb => via Converter.to_lch_ab pure (addOf .lchAb w1 w2 ia) p1 p2
    | .lchUv => via Converter.to_lch_uv pure (addOf .lchUv w1 w2 ia) p1 p2
    | _ => pure none) fun t ht => ?_))
  have hf := fun t ht a b (ha : Within F a) (hb : Within F b) => s_addOf hQ t ht w1 w2 ia ha hb
  cases t
  · exact spec_via_pure (fun _ => s_to_rgb_true hQ) (hf _ ht) h1 h2
  · exact spec_via_pure (fun _ => s_to_rgb_deep hQ) (hf _ ht) h1 h2
  · exact spec_via_pure (fun _ => s_to_grey_true hQ) (hf _ ht) h1 h2
  · exact spec_via_pure (fun _ => s_to_grey_deep hQ) (hf _ ht) h1 h2
  · exact spec_via_pure (fun _ => s_to_cmyk hQ) (hf _ ht) h1 h2
  · exact s_none _
  · exact spec_via_pure (fun _ => s_to_hsv hQ) (hf _ ht) h1 h2
  · exact spec_via_pure (fun _ => s_to_hsl hQ) (hf _ ht) h1 h2
  · exact s_none _
  · exact spec_via_pure (fun _ => s_to_xyz hQ) (hf _ ht) h1 h2
  · exact spec_via_pure (fun _ => s_to_xyy hQ) (hf _ ht) h1 h2
  · exact spec_via_pure (fun _ => s_to_cieluv hQ) (hf _ ht) h1 h2
  · exact spec_via_pure (fun _ => s_to_lab hQ) (hf _ ht) h1 h2
  · exact spec_via_pure (fun _ => s_to_lch_ab hQ) (hf _ ht) h1 h2
  · exact spec_via_pure (fun _ => s_to_lch_uv hQ) (hf _ ht) h1 h2
  · exact s_none _

theorem s_eleven (hQ : Closed Q) (g : ColorType → Ptr → Ptr → Prog Ptr) (hg : ∀ t, t ≠ .undefined → ∀ a b, Within F a → Within F b → Spec Q F (g t a b) (IsA Q F t)) {p1 p2 : Ptr} (h1 : Within F p1) (h2 : Within F p2) :
    Spec Q F (do
      let c ← load p1
      match c.ctype with
      | .rgbTrue => via Converter.to_rgb_true pure (g .rgbTrue) p1 p2
      | .rgbDeep => via Converter.to_rgb_deep pure (g .rgbDeep) p1 p2
      | .greyTrue => via Converter.to_grey_true pure (g .greyTrue) p1 p2
      | .greyDeep => via Converter.to_grey_deep pure (g .greyDeep) p1 p2
      | .cmyk => via Converter.to_cmyk pure (g .cmyk) p1 p2
      | .hsv => via Converter.to_hsv pure (g .hsv) p1 p2
      | .hsl => via Converter.to_hsl pure (g .hsl) p1 p2
      | .xyz => via Converter.to_xyz pure (g .xyz) p1 p2
      | .lab => via Converter.to_lab pure (g .lab) p1 p2
      | .lchAb => via Converter.to_lch_ab pure (g .lchAb) p1 p2
      | .lchUv => via Converter.to_lch_uv pure (g .lchUv) p1 p2
      | _ => pure none) (Like Q F p1) := by
  refine spec_like hQ fun c t ht hq => ?_
  have hc : c.ctype ≠ .undefined := by rw [(hQ.col _ _ hq).ctype]; exact ht
  revert hc
  generalize c.ctype = t
  intro hc
  cases t
  · exact spec_via_pure (fun _ => s_to_rgb_true hQ) (hg _ hc) h1 h2
  · exact spec_via_pure (fun _ => s_to_rgb_deep hQ) (hg _ hc) h1 h2
  · exact spec_via_pure (fun _ => s_to_grey_true hQ) (hg _ hc) h1 h2
  · exact spec_via_pure (fun _ => s_to_grey_deep hQ) (hg _ hc) h1 h2
  · exact spec_via_pure (fun _ => s_to_cmyk hQ) (hg _ hc) h1 h2
  · exact s_none _
  · exact spec_via_pure (fun _ => s_to_hsv hQ) (hg _ hc) h1 h2
  · exact spec_via_pure (fun _ => s_to_hsl hQ) (hg _ hc) h1 h2
  · exact s_none _
  · exact spec_via_pure (fun _ => s_to_xyz hQ) (hg _ hc) h1 h2
  · exact s_none _
  · exact s_none _
  · exact spec_via_pure (fun _ => s_to_lab hQ) (hg _ hc) h1 h2
  · exact spec_via_pure (fun _ => s_to_lch_ab hQ) (hg _ hc) h1 h2
  · exact spec_via_pure (fun _ => s_to_lch_uv hQ) (hg _ hc) h1 h2
  · exact s_none _

theorem s_mix (hQ : Closed Q) (w : Fl) (ia : Bool) {p1 p2 : Ptr} (h1 : Within F p1) (h2 : Within F p2) : Spec Q F (mix w ia p1 p2) (Like Q F p1) :=
  spec_checkedPositive _ (s_eleven hQ (fun t => mixOf t w ia) (fun t ht _ _ ha hb => s_mixOf hQ t ht w ia ha hb) h1 h2)

theorem s_subtract (hQ : Closed Q) (w : Fl) (ia : Bool) {p1 p2 : Ptr} (h1 : Within F p1) (h2 : Within F p2) : Spec Q F (subtract w ia p1 p2) (Like Q F p1) :=
  spec_checkedPositive _ (s_eleven hQ (fun t => subOf t w ia) (fun t ht _ _ ha hb => s_subOf hQ t ht w ia ha hb) h1 h2)

theorem spec_loadAll : ∀ ps : List Ptr, Spec Q F (loadAll ps) (fun _ _ => True)
  | [] => spec_pure _ fun _ => trivial
  | _ :: ps => spec_load_bind fun _ _ _ _ => Spec.bind (spec_loadAll ps) fun _ => spec_pure _ fun _ => trivial

theorem accumulate_length : ∀ (sums : List Fl) (c : Color) (i : Nat) (r : List Fl), accumulate sums c i = ok r → r.length = sums.length
  | [], c, i, r, h => by simp only [accumulate, ok_inj] at h; subst h; rfl
  | s :: ss, c, i, r, h => by
    simp only [accumulate, bind_eq_ok] at h
    obtain ⟨x, -, y, hy, h⟩ := h
    obtain rfl := ok_inj.mp h
    simp [accumulate_length ss c (i + 1) y hy]

theorem averageLoop_length (t : ColorType) (ia : Bool) (f : Color) : ∀ (cs : List Color) (sums : List Fl) (al : Fl) (r : List Fl × Fl), averageLoop t ia f cs sums al = ok r → r.1.length = sums.length
  | [], sums, al, r, h => by simp only [averageLoop, ok_inj] at h; subst h; rfl
  | c :: cs, sums, al, r, h => by
    simp only [averageLoop, bind_eq_ok] at h
    obtain ⟨s, hs, h⟩ := h
    rw [averageLoop_length t ia f cs _ _ _ h, accumulate_length _ _ _ _ hs]

theorem s_average (hQ : Closed Q) (t : ColorType) (ht : t ≠ .undefined) (ia : Bool) (ps : List Ptr) : Spec Q F (average t ia ps) (IsA Q F t) := by
  unfold average
  split
  · exact spec_throw
  refine Spec.bind (spec_loadAll ps) fun cs => spec_lift_bind fun r hr => spec_alloc ht ?_
  cases cs with
  | nil => simp [averageVal] at hr
  | cons c cs =>
    simp only [averageVal, bind_eq_ok] at hr
    obtain ⟨⟨s, al⟩, hs, h⟩ := hr
    exact hQ.make t _ _ _ r ht (by rw [List.length_map]; simpa using averageLoop_length _ _ _ _ _ _ _ hs) h

end arith

/-! ### Distances -/

theorem spec_between {t : ColorType} {conv : Ptr → Prog Ptr} (hc : ∀ p, Within F p → Spec Q F (conv p) (IsA Q F t)) (f : Color → Color → Outcome Fl) {p1 p2 : Ptr} (h1 : Within F p1) (h2 : Within F p2) :
    Spec Q F (Distance.between conv f p1 p2) (fun _ _ => True) := by
  unfold Distance.between
  split
  · exact spec_pure _ fun _ => trivial
  refine Spec.bind (hc _ h1) fun _ => Spec.bind (hc _ h2) fun _ => ?_
  split
  · exact spec_pure _ fun _ => trivial
  exact spec_load_bind fun _ _ _ _ => spec_load_bind fun _ _ _ _ => spec_lift _ fun _ _ _ => trivial

theorem s_squared (hQ : Closed Q) {p1 p2 : Ptr} (h1 : Within F p1) (h2 : Within F p2) (t : ColorType) : Spec Q F (Distance.euclidean_distance_squared p1 p2 t) (fun _ _ => True) := by
  unfold Distance.euclidean_distance_squared
  split
  · exact spec_pure _ fun _ => trivial
  split
  · exact spec_between (fun _ => s_to_cieluv hQ) _ h1 h2
  · exact spec_between (fun _ => s_to_rgb_deep hQ) _ h1 h2

theorem s_euclidean (hQ : Closed Q) {p1 p2 : Ptr} (h1 : Within F p1) (h2 : Within F p2) (t : ColorType) : Spec Q F (Distance.euclidean_distance p1 p2 t) (fun _ _ => True) := by
  unfold Distance.euclidean_distance
  split
  · exact spec_pure _ fun _ => trivial
  exact Spec.bind (s_squared hQ h1 h2 _) fun _ => spec_pure _ fun _ => trivial

/-! ### Adjustments -/

theorem update_prog (q : Ptr) (i : Int) (j : Nat) (g : Fl → Fl) (k : Prog Ptr) :
    (do
      let c ← load q
      let s ← lift (c.getComponent i)
      let c' ← lift (c.setChannel j (g s))
      store q c'
      k) = (update q (fun _ c => do
        let s ← c.getComponent i
        c.setChannel j (g s)) >>= fun _ => k) := by
  funext h
  rcases load_cases q h with ⟨n, c, rfl, hc, e⟩ | e
  · have hi := (List.getElem?_eq_some_iff.mp hc).1
    simp only [update, bind_def, e]
    cases o : c.getComponent i with
    | ok s => cases o' : c.setChannel j (g s) <;> simp [lift, world, o', store, hi]
    | throw e => simp [lift, world]
    | ub => simp [lift, world]
  · simp only [update, bind_def, e]

theorem s_adjust_hsl (hQ : Closed Q) {p : Ptr} (hp : Within F p) (i : Int) (j : Nat) (g : Fl → Fl) :
    Spec Q F (do
      let q ← Converter.convertTo p .hsl
      let c ← load q
      let s ← lift (c.getComponent i)
      let c' ← lift (c.setChannel j (g s))
      store q c'
      let o ← load p
      Converter.convertTo q o.ctype) (Like Q F p) := by
  refine Spec.bindp (s_convertTo hQ hp _) fun q hq => ?_
  rw [update_prog]
  refine Spec.bind (spec_update hq fun t w c d _ hq hd => ?_) fun _ => spec_like hQ fun c _ _ _ => s_convertTo hQ hq _
  obtain ⟨s, -, hd⟩ := bind_eq_ok.mp hd
  exact ⟨hQ.chan t c _ _ d hq hd, setChannel_kept hd⟩

theorem s_saturate_hsl (hQ : Closed Q) {p : Ptr} (hp : Within F p) (x : Fl) : Spec Q F (Adjust.saturate_in_hsl_space p x) (Like Q F p) := by
  unfold Adjust.saturate_in_hsl_space
  split
  · exact spec_self hp
  · exact s_adjust_hsl hQ hp 1 1 (fun s => s * (1 + x))

theorem s_luminate_hsl (hQ : Closed Q) {p : Ptr} (hp : Within F p) (x : Fl) : Spec Q F (Adjust.luminate_in_hsl_space p x) (Like Q F p) := by
  unfold Adjust.luminate_in_hsl_space
  split
  · exact spec_self hp
  · exact s_adjust_hsl hQ hp 2 2 (fun s => s * (1 + x))

theorem s_saturate_rgb (hQ : Closed Q) {p : Ptr} (hp : Within F p) (x : Fl) : Spec Q F (Adjust.saturate_in_rgb_space p x) (Like Q F p) :=
  Spec.bind (s_convertTo hQ hp _) fun _ => spec_load_bind fun _ _ _ _ => spec_lift_bind fun _ _ => spec_lift_bind fun _ _ => spec_lift_bind fun _ _ =>
    spec_like hQ fun _ _ _ _ => spec_lift_bind fun r hr => Spec.bindp (spec_alloc (t := .rgbDeep) (by decide) (hQ.make _ _ _ _ r (by decide) rfl hr)) fun _ hn => s_convertTo hQ hn _

theorem s_luminate_rgb (hQ : Closed Q) {p : Ptr} (hp : Within F p) (x : Fl) : Spec Q F (Adjust.luminate_in_rgb_space p x) (Like Q F p) :=
  Spec.bind (s_convertTo hQ hp _) fun _ => spec_load_bind fun _ _ _ _ => spec_lift_bind fun _ _ => spec_lift_bind fun _ _ => spec_lift_bind fun _ _ =>
    spec_like hQ fun _ _ _ _ => spec_lift_bind fun r hr => Spec.bindp (spec_alloc (t := .rgbDeep) (by decide) (hQ.make _ _ _ _ r (by decide) rfl hr)) fun _ hn => s_convertTo hQ hn _

/-! ### Combinations -/

/-- All pointers in the list are null or point to objects of the type of the object behind `p`. -/
def _root_.FrameSpec.AllLike (Q : ColorType → Color → Prop) (F : Nat → Prop) (p : Ptr) (h : Heap) (l : List Ptr) : Prop := ∀ q ∈ l, Like Q F p h q

theorem all_nil {p : Ptr} (h : Heap) : AllLike Q F p h [] := fun q hq => by simp at hq

theorem all_cons {p : Ptr} {h : Heap} {q : Ptr} {l : List Ptr} (hq : Like Q F p h q) (hl : AllLike Q F p h l) : AllLike Q F p h (q :: l) := fun x hx => by
  rcases List.mem_cons.mp hx with rfl | hx
  · exact hq
  · exact hl x hx

theorem _root_.FrameSpec.Spec.binds {α : Type} {S : Heap → α → Prop} {o : Ptr} {p : Prog (List Ptr)} {f : List Ptr → Prog α} (hQ : Closed Q) (hp : Spec Q F p (AllLike Q F o))
    (hf : ∀ l, (∀ q ∈ l, Within F q) → Spec Q F (f l) (fun h b => AllLike Q F o h l → S h b)) : Spec Q F (p >>= f) S :=
  Spec.bind' hp fun a h hg hfr hr => by
    obtain ⟨k1, k2, k3⟩ := hf a (fun q hq => (hr q hq).1) h hg hfr
    exact ⟨k1, k2, fun b hb => k3 b hb fun q hq => like_after hQ k1 k2 (hr q hq)⟩

theorem s_turned (hQ : Closed Q) (p q : Ptr) (f : Fl → Fl) : Spec Q F (Combine.turned p q f) (Like Q F p) :=
  spec_load_bind fun _ _ _ _ => spec_lift_bind fun _ _ => spec_lift_bind fun _ _ => spec_lift_bind fun _ _ =>
    spec_like hQ fun _ _ _ _ => spec_lift_bind fun r hr => Spec.bindp (spec_alloc (t := .hsl) (by decide) (hQ.make _ _ _ _ r (by decide) rfl hr)) fun _ hn => s_convertTo hQ hn _

theorem s_turns (hQ : Closed Q) (p q : Ptr) (d : Fl) : ∀ n i, Spec Q F (Combine.turns p q d n i) (AllLike Q F p)
  | 0, _ => spec_pure _ all_nil
  | n + 1, i => Spec.bindk hQ (s_turned hQ _ _ _) fun _ _ => Spec.binds hQ (s_turns hQ p q d n (i + 1)) fun _ _ => spec_pure _ fun _ hl hr => all_cons hr hl

theorem s_create_combination (hQ : Closed Q) {p : Ptr} (hp : Within F p) (n : Int) : Spec Q F (Combine.create_combination p n) (AllLike Q F p) := by
  unfold Combine.create_combination
  split
  · exact spec_throw
  · exact Spec.bind (s_convertTo hQ hp _) fun _ => Spec.binds hQ (s_turns hQ _ _ _ _ _) fun _ _ => spec_pure _ fun _ hl => all_cons ⟨hp, Or.inl rfl⟩ hl

theorem s_create_complimentary (hQ : Closed Q) {p : Ptr} (hp : Within F p) : Spec Q F (Combine.create_complimentary p) (Like Q F p) := by
  refine Spec.binds hQ (s_create_combination hQ hp _) fun v _ => ?_
  split
  · next e => exact spec_pure _ fun _ hv => hv _ (List.mem_of_getElem? e)
  · exact spec_lift _ fun _ h => by cases h

theorem s_create_analogous (hQ : Closed Q) {p : Ptr} (hp : Within F p) (d : Fl) : Spec Q F (Combine.create_analogous p d) (AllLike Q F p) := by
  unfold Combine.create_analogous
  split
  · exact spec_throw
  · exact Spec.bind (s_convertTo hQ hp _) fun _ => Spec.bindk hQ (s_turned hQ _ _ _) fun _ _ => Spec.bindk hQ (s_turned hQ _ _ _) fun _ _ =>
      spec_pure _ fun _ hb ha => all_cons ha (all_cons ⟨hp, Or.inl rfl⟩ (all_cons hb (all_nil _)))

theorem s_renewed (hQ : Closed Q) (p q : Ptr) : Spec Q F (Combine.renewed p q) (IsA Q F .hsl) :=
  spec_load_bind fun _ _ _ _ => spec_lift_bind fun _ _ => spec_lift_bind fun _ _ => spec_lift_bind fun _ _ =>
    spec_load_bind fun _ _ _ _ => spec_lift_bind fun r hr => spec_alloc (t := .hsl) (by decide) (hQ.make _ _ _ _ r (by decide) rfl hr)

theorem s_shade (hQ : Closed Q) (p : Ptr) (t : ColorType) (mode : Int) (x : Fl) {last : Ptr} (hl : Within F last) : Spec Q F (Combine.shade p t mode x last) (IsA Q F t) := by
  refine Spec.bind (s_convertTo hQ hl _) fun q => ?_
  split
  · exact Spec.bindp (s_renewed hQ _ _) fun _ hm => Spec.bindl (s_saturate_hsl hQ hm _) fun _ hm => s_convertTo hQ hm _
  split
  · exact Spec.bindp (s_renewed hQ _ _) fun _ hm => Spec.bindl (s_luminate_hsl hQ hm _) fun _ hm => s_convertTo hQ hm _
  split
  · exact Spec.bindp (s_renewed hQ _ _) fun _ hm => Spec.bindl (s_saturate_hsl hQ hm _) fun _ hm => Spec.bindl (s_luminate_hsl hQ hm _) fun _ hm => s_convertTo hQ hm _
  · exact spec_throw

theorem s_shades (hQ : Closed Q) (p : Ptr) (t : ColorType) (mode : Int) (x : Fl) : ∀ n {last : Ptr}, Within F last →
    Spec Q F (Combine.shades p t mode x n last) (fun h l => ∀ q ∈ l, IsA Q F t h q)
  | 0, _, _ => spec_pure _ fun _ q hq => by simp at hq
  | n + 1, _, hl => Spec.bind' (s_shade hQ _ _ _ _ hl) fun r h hg hfr hr =>
    have h2 : Spec Q F (Combine.shades p t mode x n r >>= fun rs => pure (r :: rs)) (fun h l => IsA Q F t h r → ∀ q ∈ l, IsA Q F t h q) :=
      Spec.bind' (s_shades hQ p t mode x n fun i hi => (hr i hi).1) fun l h' hg' hfr' hl => by
        refine ⟨after_refl _, hg', fun b hb hr q hq => ?_⟩
        have : b = r :: l := by simpa [eq_comm] using hb
        subst this
        rcases List.mem_cons.mp hq with rfl | hq
        · exact hr
        · exact hl q hq
    have k := h2 h hg hfr
    ⟨k.1, k.2.1, fun b hb => k.2.2 b hb (isA_after hQ k.1 k.2.1 hr)⟩

theorem s_create_monochromatic (hQ : Closed Q) {p : Ptr} (hp : Within F p) (mode : Int) (x : Fl) (n : Int) : Spec Q F (Combine.create_monochromatic p mode x n) (AllLike Q F p) := by
  unfold Combine.create_monochromatic
  split
  · exact spec_throw
  intro h hg hfr
  rw [bind_def]
  rcases load_cases p h with ⟨i, c, rfl, hc, e⟩ | e
  · rw [e]
    have key : Spec Q F (Combine.shades (some i) c.ctype mode (x * (-1)) (n - 1).toNat (some i) >>= fun rs => pure (some i :: rs))
        (fun h l => ∀ q ∈ l, q = some i ∨ IsA Q F c.ctype h q) :=
      Spec.bind' (s_shades hQ _ _ _ _ _ hp) fun l h' hg' hfr' hl => by
        refine ⟨after_refl _, hg', fun b hb q hq => ?_⟩
        have : b = some i :: l := by simpa [eq_comm] using hb
        subst this
        rcases List.mem_cons.mp hq with rfl | hq
        · exact Or.inl rfl
        · exact Or.inr (hl q hq)
    obtain ⟨k1, k2, k3⟩ := key h hg hfr
    refine ⟨k1, k2, fun a ha q hq => ?_⟩
    rcases k3 a ha q hq with rfl | k
    · exact ⟨hp, Or.inl rfl⟩
    · obtain ⟨c', hc', kk⟩ := k1.there i c hc
      have : c'.ctype = c.ctype := by rw [kk]
      exact ⟨fun j hj => (k j hj).1, Or.inr ⟨i, c', rfl, hc', by rw [this]; exact k⟩⟩
  · rw [e]; exact ⟨after_refl h, hg, by simp⟩

theorem s_create_complimentary_split (hQ : Closed Q) {p : Ptr} (hp : Within F p) (x : Fl) : Spec Q F (Combine.create_complimentary_split p x) (AllLike Q F p) := by
  refine Spec.bind (s_convertTo hQ hp _) fun _ => Spec.bindk hQ (s_create_complimentary hQ hp) fun c hc => ?_
  refine Spec.bind' (s_create_analogous hQ hc _) fun v h hg _ hv => ?_
  generalize e1 : v[0]? = x0
  generalize e2 : v[2]? = x2
  rcases x0 with _ | a
  · exact ⟨after_refl _, hg, fun l hl => by cases hl⟩
  rcases x2 with _ | b
  · exact ⟨after_refl _, hg, fun l hl => by cases hl⟩
  · 
    refine ⟨after_refl _, hg, fun l hl hc => ?_⟩
    have : l = [a, p, b] := by simpa [eq_comm] using hl
    subst this
    exact all_cons (like_trans hQ hg hc (hv _ (List.mem_of_getElem? e1))) (all_cons ⟨hp, Or.inl rfl⟩ (all_cons (like_trans hQ hg hc (hv _ (List.mem_of_getElem? e2))) (all_nil _)))

end

end Tame
