import Verif.Safe

/-! The rules of `Verif/Safe.lean` applied to the functions of the library. -/

open Outcome Fl Prog ObjectSpec ConvSpec FrameSpec Tame

namespace Safe
variable [FloatModel] {P : ColorType → Prop} {x : Prop} {α β : Type} {h : Heap}

/-- A pointer to an object of type `t`; null only for the types `convertTo` does not know. -/
def Known (x : Prop) (h : Heap) (t : ColorType) (p : Ptr) : Prop := p = none ∧ ¬ Combine.Target t ∨ Has x h t p

theorem Known.mono {h h' : Heap} {t : ColorType} {p : Ptr} (hp : Known x h t p) (ha : After Any h h') (hg : Good (Ranged P) h') : Known x h' t p :=
  hp.imp id fun hh => hh.mono ha hg

theorem Known.has {t : ColorType} {p : Ptr} (hp : Known x h t p) (ht : Combine.Target t) : Has x h t p := hp.elim (fun hh => absurd ht hh.2) id

theorem Known.maybe {t : ColorType} {p : Ptr} (hp : Known x h t p) : Maybe x h t p := hp.imp And.left id

theorem convert_known {s t : ColorType} {p : Ptr} (hg : Good (Ranged P) h) (hp : Has x h s p) (hx : Cie t → x) :
    Runs P (Converter.convertTo p t) h fun q h' => Known x h' t q := by
  by_cases ht : Combine.Target t
  · exact (convert ht hg hp hx).weaken fun _ => Or.inr
  · have : Converter.convertTo p t = pure none := by
      cases t <;> first | rfl | exact absurd (by simp [Combine.Target]) ht
    rw [this]
    exact r_pure hg (Or.inl ⟨rfl, ht⟩)

theorem made {t : ColorType} (ht : t ≠ .undefined) {vs : List Fl} (al : Fl) (sp : Option Nat) (hl : vs.length = Color.count t) :
    ∃ r, Color.construct t vs al sp = ok r ∧ Ranged P t r ∧ r.space = sp := by
  obtain ⟨c, e⟩ := Conv.construct_total t al sp hl
  have hc := Conv.construct_result ht hl e
  exact ⟨c, e, ⟨hc.col, fun _ => hc.rng⟩, hc.space⟩

/-! ### Compositing and blending -/

theorem loop_total (s d : Color) (sa da ba : Fl) (us ud : Bool) (f : Nat → Fl → Fl → Fl) : ∀ (n i : Nat) (r : Color), i + n ≤ s.comps.length → i + n ≤ d.comps.length → i + n ≤ r.comps.length →
    ∃ r', Blend.loop s d sa da ba us ud f n i r = ok r' ∧ Kept r r' ∧ r'.comps.length = r.comps.length
  | 0, _, r, _, _, _ => ⟨r, rfl, rfl, rfl⟩
  | n + 1, i, r, h1, h2, h3 => by
    have e1 : s.comps[i]? = some (s.comps[i]'(by omega)) := List.getElem?_eq_getElem _
    have e2 : d.comps[i]? = some (d.comps[i]'(by omega)) := List.getElem?_eq_getElem _
    simp only [Blend.loop, e1, e2]
    have hn : ¬ ((i : Int) < 0 ∨ (r.comps.length : Int) ≤ i) := by omega
    simp only [Color.setComponent, Color.setComponentLim, if_neg hn, ok_bind]
    generalize hv : (r.comps.set _ _) = l
    have hl0 : l.length = r.comps.length := by rw [← hv, List.length_set]
    obtain ⟨r', e, hk, hl⟩ := loop_total s d sa da ba us ud f n (i + 1) { r with comps := l } (by omega) (by omega) (show i + 1 + n ≤ l.length by omega)
    exact ⟨r', e, Kept.trans (show Kept r { r with comps := l } from rfl) hk, hl.trans hl0⟩

theorem gpdVal_total {s d : Color} (hs : IsColor .rgbDeep s) (hd : IsColor .rgbDeep d) (us ud ub : Bool) (f : Nat → Fl → Fl → Fl) :
    ∃ r, Blend.gpdVal s d us ud ub f = ok r ∧ IsColor .rgbDeep r ∧ r.space = s.space := by
  simp only [Blend.gpdVal, Color.constructGrey, Color.construct_rgbDeep, ok_bind]
  obtain ⟨r', e, hk, hl⟩ := loop_total s d (s.alpha * (1 - d.alpha)) (d.alpha * (1 - s.alpha)) (s.alpha * d.alpha) us ud f 3 0
    (Color.mkRgbDeep 0 0 0 (s.alpha * (1 - d.alpha) * (if us then 1 else 0) + d.alpha * (1 - s.alpha) * (if ud then 1 else 0) + s.alpha * d.alpha * (if ub then 1 else 0)) s.space)
    (by rw [hs.len]; rfl) (by rw [hd.len]; rfl) le_rfl
  refine ⟨r'.alphaDivide, by rw [show (Color.mkRgbDeep 0 0 0 _ s.space).comps.length = 3 from rfl, e]; rfl, ?_, ?_⟩
  · have : IsColor .rgbDeep r' := isColor_kept (c := Color.mkRgbDeep 0 0 0 _ s.space) ⟨rfl, rfl, rfl, rfl, rfl⟩ hk hl
    unfold Color.alphaDivide
    split
    · exact this
    · exact ⟨this.cls, this.ctype, by simpa using this.len, this.maxv, this.minv⟩
  · have : r'.space = s.space := by rw [hk]; rfl
    unfold Color.alphaDivide
    split <;> exact this

theorem gpd_run (hP : ¬ P .rgbDeep) {ps pd : Ptr} (hg : Good (Ranged P) h) (hs : Has x h .rgbDeep ps) (hd : Has x h .rgbDeep pd) (us ud ub : Bool) (f : Nat → Fl → Fl → Fl) :
    Runs P (Blend.generalPorterDuff ps pd us ud ub f) h fun q h' => Has x h' .rgbDeep q := by
  have n1 : ps ≠ none := by obtain ⟨i, c, rfl, -⟩ := hs; simp
  have n2 : pd ≠ none := by obtain ⟨i, c, rfl, -⟩ := hd; simp
  rw [Blend.generalPorterDuff, if_neg n1, if_neg n2]
  refine load_bind hs fun s hsc _ h1 h2 _ => load_bind hd fun d hdc _ _ _ _ => ?_
  split
  · exact r_throw hg
  · obtain ⟨r, e, hr, hsp⟩ := gpdVal_total hsc hdc us ud ub f
    exact lift_bind e (r_alloc hg (by simp) ⟨hr, fun hp => absurd hp hP⟩ h1 (fun hx => by rw [hsp]; exact h2 hx))

theorem operator_run (hP : ¬ P .rgbDeep) (us ud ub : Bool) (f : Color → Color → Nat → Fl → Fl → Fl) {p q : Ptr} {s t : ColorType} (hg : Good (Ranged P) h) (hp : Maybe x h s p) (hq : Maybe x h t q) :
    Runs P (Blend.operator us ud ub f p q) h fun r h' => Maybe x h' s r := by
  rw [Blend.operator]
  split
  · exact r_throw hg
  · next hp0 =>
    split
    · exact r_throw hg
    · next hq0 =>
      have hp := hp.resolve_left hp0
      have hq := hq.resolve_left hq0
      refine load_bind hp fun c hc _ h1 _ _ => load_bind hq fun d _ _ _ _ _ => ?_
      split
      · exact r_throw hg
      · refine r_bind (dispatcher (t := .rgbDeep) (by simp) hg hp (by simp [Cie])) fun a h1' ha1 hg1 hA => ?_
        refine r_bind (dispatcher (t := .rgbDeep) (by simp) hg1 (hq.mono ha1 hg1) (by simp [Cie])) fun b h2' ha2 hg2 hB => ?_
        refine r_bind (gpd_run hP hg2 (hA.mono ha2 hg2) hB us ud ub _) fun r h3' _ hg3 hR => ?_
        rw [hc.ctype]
        exact convert_any hg3 hR h1

theorem hueMode_run {a b c : Color → Color → Outcome Fl} {p q : Ptr} {s t : ColorType} (ha : ∀ u v, IsColor .hcy u → IsColor .hcy v → ∃ y, a u v = ok y)
    (hb : ∀ u v, IsColor .hcy u → IsColor .hcy v → ∃ y, b u v = ok y) (hc : ∀ u v, IsColor .hcy u → IsColor .hcy v → ∃ y, c u v = ok y) (hg : Good (Ranged P) h) (hp : Has x h s p) (hq : Has x h t q) :
    Runs P (do
      let s ← load (← Converter.to_hcy p)
      let d ← load (← Converter.to_hcy q)
      let r ← lift (do Color.construct .hcy [← a s d, ← b s d, ← c s d] s.alpha s.space)
      let r ← Prog.alloc r
      let c ← load p
      Converter.convertTo r c.ctype) h fun r h' => Known x h' s r := by
  refine r_bind (dispatcher (t := .hcy) (by simp) hg hp (by simp [Cie])) fun p1 h1 ha1 hg1 hp1 => ?_
  refine load_bind hp1 fun u hu _ _ hu2 _ => ?_
  refine r_bind (dispatcher (t := .hcy) (by simp) hg1 (hq.mono ha1 hg1) (by simp [Cie])) fun q1 h2 ha2 hg2 hq1 => ?_
  refine load_bind hq1 fun v hv _ _ _ _ => ?_
  obtain ⟨y1, e1⟩ := ha u v hu hv
  obtain ⟨y2, e2⟩ := hb u v hu hv
  obtain ⟨y3, e3⟩ := hc u v hu hv
  simp only [e1, e2, e3, ok_bind]
  refine make (x := x) hg2 (by simp) rfl (by simp [Cie]) (fun hx => by rw [ha2.world]; exact hu2 hx) fun r h3 ha3 hg3 hr => ?_
  refine load_bind ((hp.mono ha1 hg1).mono (ha2.trans ha3) hg3) fun o ho _ hx _ _ => ?_
  rw [ho.ctype]
  exact convert_known hg3 hr hx

theorem hue_run (us ud : Bool) {p q : Ptr} {s t : ColorType} (hg : Good (Ranged P) h) (hp : Has x h s p) (hq : Has x h t q) : Runs P (ColorBlend.hue us ud p q) h fun r h' => Known x h' s r :=
  hueMode_run (a := fun u _ => u.getComponent 0) (b := fun _ v => v.getComponent 1) (c := fun _ v => v.getComponent 2) (fun _ _ hu _ => get hu 0 (by decide)) (fun _ _ _ hv => get hv 1 (by decide))
    (fun _ _ _ hv => get hv 2 (by decide)) hg hp hq

theorem saturation_run (us ud : Bool) {p q : Ptr} {s t : ColorType} (hg : Good (Ranged P) h) (hp : Has x h s p) (hq : Has x h t q) :
    Runs P (ColorBlend.saturation us ud p q) h fun r h' => Known x h' s r :=
  hueMode_run (a := fun _ v => v.getComponent 0) (b := fun u _ => u.getComponent 1) (c := fun _ v => v.getComponent 2) (fun _ _ _ hv => get hv 0 (by decide)) (fun _ _ hu _ => get hu 1 (by decide))
    (fun _ _ _ hv => get hv 2 (by decide)) hg hp hq

theorem color_run (us ud : Bool) {p q : Ptr} {s t : ColorType} (hg : Good (Ranged P) h) (hp : Has x h s p) (hq : Has x h t q) : Runs P (ColorBlend.color us ud p q) h fun r h' => Known x h' s r :=
  hueMode_run (a := fun u _ => u.getComponent 0) (b := fun u _ => u.getComponent 1) (c := fun _ v => v.getComponent 2) (fun _ _ hu _ => get hu 0 (by decide)) (fun _ _ hu _ => get hu 1 (by decide))
    (fun _ _ _ hv => get hv 2 (by decide)) hg hp hq

theorem luminosity_run (us ud : Bool) {p q : Ptr} {s t : ColorType} (hg : Good (Ranged P) h) (hp : Has x h s p) (hq : Has x h t q) :
    Runs P (ColorBlend.luminosity us ud p q) h fun r h' => Known x h' s r :=
  hueMode_run (a := fun _ v => v.getComponent 0) (b := fun _ v => v.getComponent 1) (c := fun u _ => u.getComponent 2) (fun _ _ _ hv => get hv 0 (by decide)) (fun _ _ _ hv => get hv 1 (by decide))
    (fun _ _ hu _ => get hu 2 (by decide)) hg hp hq

/-! ### Colour arithmetic -/

theorem zip_total (f : Fl → Fl → Fl) {t : ColorType} {a b : Color} (ha : IsColor t a) (hb : IsColor t b) : ∀ n i, i + n ≤ Color.count t → ∃ l, Calc.zip f a b n i = ok l ∧ l.length = n
  | 0, _, _ => ⟨[], rfl, rfl⟩
  | n + 1, i, hn => by
    obtain ⟨l, e, hl⟩ := zip_total f ha hb n (i + 1) (by omega)
    obtain ⟨u, e1⟩ := get ha i (by omega)
    obtain ⟨v, e2⟩ := get hb i (by omega)
    exact ⟨f u v :: l, by simp only [Calc.zip, e1, e2, ok_bind, e], by simp [hl]⟩

/-- Types with a sum and a difference of their own. -/
def Own (t : ColorType) : Prop := t ≠ .undefined ∧ t ≠ .hsi ∧ t ≠ .hsl ∧ t ≠ .hcy ∧ t ≠ .lab ∧ t ≠ .lchAb ∧ t ≠ .lchUv

theorem vectors {a b : Color} {t : ColorType} (hc : Color.count t = 3) (ha : IsColor t a) (hb : IsColor t b) : ∃ a0 a1 a2 b0 b1 b2, a.getComponent 0 = ok a0 ∧ a.getComponent 1 = ok a1 ∧
    a.getComponent 2 = ok a2 ∧ b.getComponent 0 = ok b0 ∧ b.getComponent 1 = ok b1 ∧ b.getComponent 2 = ok b2 := by
  obtain ⟨a0, e0⟩ := get ha 0 (by omega)
  obtain ⟨a1, e1⟩ := get ha 1 (by omega)
  obtain ⟨a2, e2⟩ := get ha 2 (by omega)
  obtain ⟨b0, f0⟩ := get hb 0 (by omega)
  obtain ⟨b1, f1⟩ := get hb 1 (by omega)
  obtain ⟨b2, f2⟩ := get hb 2 (by omega)
  exact ⟨a0, a1, a2, b0, b1, b2, e0, e1, e2, f0, f1, f2⟩

theorem zip_made {t : ColorType} (ht : t ≠ .undefined) {a b : Color} (ha : IsColor t a) (hb : IsColor t b) (f : Fl → Fl → Fl) (g : List Fl → List Fl) (hg : ∀ l, (g l).length = l.length) (al : Fl) (n : Nat)
    (hn : n = Color.count t) : ∃ r, (do Color.construct t (g (← Calc.zip f a b n 0)) al a.space) = ok r ∧ Ranged P t r ∧ r.space = a.space := by
  subst hn
  obtain ⟨l, e, hl⟩ := zip_total f ha hb (Color.count t) 0 (by omega)
  rw [e, ok_bind]
  exact made ht al a.space ((hg l).trans hl)

theorem addVal_total {t : ColorType} (ht : Own t) (w1 w2 : Fl) (ia : Bool) {a b : Color} (ha : IsColor t a) (hb : IsColor t b) :
    ∃ r, Calc.addVal t w1 w2 ia a b = ok r ∧ Ranged P t r ∧ r.space = a.space := by
  cases t
  case hsv =>
    obtain ⟨a0, a1, a2, b0, b1, b2, e0, e1, e2, f0, f1, f2⟩ := vectors rfl ha hb
    simp only [Calc.addVal, e0, e1, e2, f0, f1, f2, ok_bind]
    exact made (by simp) _ _ rfl
  case rgbTrue => exact zip_made (by simp) ha hb _ (·.map Calc.byteLimit) (fun _ => List.length_map ..) _ 3 rfl
  case greyTrue => exact zip_made (by simp) ha hb _ (·.map Calc.byteLimit) (fun _ => List.length_map ..) _ 1 rfl
  all_goals first
    | exact zip_made (by simp) ha hb _ id (fun _ => rfl) _ _ rfl
    | simp [Own] at ht

theorem subVal_total {t : ColorType} (ht : Own t) (w : Fl) (ia : Bool) {a b : Color} (ha : IsColor t a) (hb : IsColor t b) :
    ∃ r, Calc.subVal t w ia a b = ok r ∧ Ranged P t r ∧ r.space = a.space := by
  cases t
  case hsv =>
    obtain ⟨a0, a1, a2, b0, b1, b2, e0, e1, e2, f0, f1, f2⟩ := vectors rfl ha hb
    simp only [Calc.subVal, e0, e1, e2, f0, f1, f2, ok_bind]
    exact made (by simp) _ _ rfl
  all_goals first
    | exact zip_made (by simp) ha hb _ id (fun _ => rfl) _ _ rfl
    | simp [Own] at ht

theorem binary_run {t : ColorType} {f : Color → Color → Outcome Color} (hf : ∀ a b, IsColor t a → IsColor t b → ∃ r, f a b = ok r ∧ Ranged P t r ∧ r.space = a.space) {p q : Ptr}
    (hg : Good (Ranged P) h) (hp : Has x h t p) (hq : Has x h t q) : Runs P (Calc.binary f p q) h fun r h' => Has x h' t r := by
  refine load_bind hp fun a ha ht h1 h2 _ => load_bind hq fun b hb _ _ _ _ => ?_
  obtain ⟨r, e, hr, hsp⟩ := hf a b ha hb
  exact lift_bind e (r_alloc hg ht hr h1 (fun hx => by rw [hsp]; exact h2 hx))

theorem checked_run {w : Fl} {p : Prog α} {R : α → Heap → Prop} (hg : Good (Ranged P) h) (hp : Runs P p h R) : Runs P (Calc.checked w p) h R := by
  unfold Calc.checked
  split
  · exact r_throw hg
  · exact hp

theorem checkedPositive_run {w : Fl} {p : Prog α} {R : α → Heap → Prop} (hg : Good (Ranged P) h) (hp : Runs P p h R) : Runs P (Calc.checkedPositive w p) h R := by
  unfold Calc.checkedPositive
  split
  · exact r_throw hg
  · exact hp

theorem addOwn_run {t : ColorType} (ht : Own t) (w1 w2 : Fl) (ia : Bool) {p q : Ptr} (hg : Good (Ranged P) h) (hp : Has x h t p) (hq : Has x h t q) :
    Runs P (Calc.addOwn t w1 w2 ia p q) h fun r h' => Has x h' t r :=
  checked_run hg (checked_run hg (binary_run (fun _ _ ha hb => addVal_total ht w1 w2 ia ha hb) hg hp hq))

theorem subOwn_run {t : ColorType} (ht : Own t) (w : Fl) (ia : Bool) {p q : Ptr} (hg : Good (Ranged P) h) (hp : Has x h t p) (hq : Has x h t q) :
    Runs P (Calc.subOwn t w ia p q) h fun r h' => Has x h' t r :=
  checked_run hg (binary_run (fun _ _ ha hb => subVal_total ht w ia ha hb) hg hp hq)

theorem via_run {m t s s' : ColorType} (hm : m ≠ .undefined) (ht : t ≠ .undefined) (xm : Cie m → x) (xt : Cie t → x) {f : Ptr → Ptr → Prog Ptr}
    (hf : ∀ a b h', Good (Ranged P) h' → Has x h' m a → Has x h' m b → Runs P (f a b) h' fun r h'' => Has x h'' m r) {p q : Ptr} (hg : Good (Ranged P) h) (hp : Has x h s p) (hq : Has x h s' q) :
    Runs P (Calc.via (Conv.dispatcher m) (Conv.dispatcher t) f p q) h fun r h' => Has x h' t r := by
  refine r_bind (dispatcher hm hg hp xm) fun a h1 ha1 hg1 hA => ?_
  refine r_bind (dispatcher hm hg1 (hq.mono ha1 hg1) xm) fun b h2 ha2 hg2 hB => ?_
  refine r_bind (hf a b h2 hg2 (hA.mono ha2 hg2) hB) fun r h3 _ hg3 hR => ?_
  exact dispatcher ht hg3 hR xt

theorem via_pure_run {m s s' : ColorType} (hm : m ≠ .undefined) (xm : Cie m → x) {f : Ptr → Ptr → Prog Ptr}
    (hf : ∀ a b h', Good (Ranged P) h' → Has x h' m a → Has x h' m b → Runs P (f a b) h' fun r h'' => Has x h'' m r) {p q : Ptr} (hg : Good (Ranged P) h) (hp : Has x h s p) (hq : Has x h s' q) :
    Runs P (Calc.via (Conv.dispatcher m) pure f p q) h fun r h' => Maybe x h' m r := by
  refine r_bind (dispatcher hm hg hp xm) fun a h1 ha1 hg1 hA => ?_
  refine r_bind (dispatcher hm hg1 (hq.mono ha1 hg1) xm) fun b h2 ha2 hg2 hB => ?_
  refine r_bind (hf a b h2 hg2 (hA.mono ha2 hg2) hB) fun r h3 _ hg3 hR => ?_
  exact r_pure hg3 (Or.inr hR)

theorem addOf_run {t : ColorType} (ht : t ≠ .undefined) (w1 w2 : Fl) (ia : Bool) {p q : Ptr} (hg : Good (Ranged P) h) (hp : Has x h t p) (hq : Has x h t q) :
    Runs P (Calc.addOf t w1 w2 ia p q) h fun r h' => Has x h' t r := by
  have hx : Cie t → x := by obtain ⟨_, _, _, _, _, _, h1, _⟩ := hp; exact h1
  have hv : ∀ a b h', Good (Ranged P) h' → Has x h' .hsv a → Has x h' .hsv b → Runs P (Calc.addOwn .hsv w1 w2 ia a b) h' fun r h'' => Has x h'' .hsv r :=
    fun a b h' hg' ha hb => addOwn_run (by simp [Own]) w1 w2 ia hg' ha hb
  have hz : ∀ a b h', Good (Ranged P) h' → Has x h' .xyz a → Has x h' .xyz b → Runs P (Calc.addOwn .xyz w1 w2 ia a b) h' fun r h'' => Has x h'' .xyz r :=
    fun a b h' hg' ha hb => addOwn_run (by simp [Own]) w1 w2 ia hg' ha hb
  cases t
  case undefined => exact absurd rfl ht
  case hsi => exact checked_run hg (checked_run hg (via_run (m := .hsv) (t := .hsi) (by simp) (by simp) (by simp [Cie]) hx hv hg hp hq))
  case hsl => exact checked_run hg (checked_run hg (via_run (m := .hsv) (t := .hsl) (by simp) (by simp) (by simp [Cie]) hx hv hg hp hq))
  case hcy => exact checked_run hg (checked_run hg (via_run (m := .hsv) (t := .hcy) (by simp) (by simp) (by simp [Cie]) hx hv hg hp hq))
  case lab => exact checked_run hg (checked_run hg (via_run (m := .xyz) (t := .lab) (by simp) (by simp) (fun _ => hx (by simp [Cie])) hx hz hg hp hq))
  case lchAb => exact checked_run hg (checked_run hg (via_run (m := .xyz) (t := .lchAb) (by simp) (by simp) (fun _ => hx (by simp [Cie])) hx hz hg hp hq))
  case lchUv => exact checked_run hg (checked_run hg (via_run (m := .xyz) (t := .lchUv) (by simp) (by simp) (fun _ => hx (by simp [Cie])) hx hz hg hp hq))
  all_goals exact addOwn_run (by simp [Own]) w1 w2 ia hg hp hq

theorem mixOf_run {t : ColorType} (ht : t ≠ .undefined) (w : Fl) (ia : Bool) {p q : Ptr} (hg : Good (Ranged P) h) (hp : Has x h t p) (hq : Has x h t q) :
    Runs P (Calc.mixOf t w ia p q) h fun r h' => Has x h' t r := by
  have := addOf_run ht w (1 - w) ia hg hp hq
  cases t <;> first | exact this | exact checked_run hg this

theorem subOf_run {t : ColorType} (ht : t ≠ .undefined) (w : Fl) (ia : Bool) {p q : Ptr} (hg : Good (Ranged P) h) (hp : Has x h t p) (hq : Has x h t q) :
    Runs P (Calc.subOf t w ia p q) h fun r h' => Has x h' t r := by
  have hx : Cie t → x := by obtain ⟨_, _, _, _, _, _, h1, _⟩ := hp; exact h1
  have hv : ∀ a b h', Good (Ranged P) h' → Has x h' .hsv a → Has x h' .hsv b → Runs P (Calc.subOwn .hsv w false a b) h' fun r h'' => Has x h'' .hsv r :=
    fun a b h' hg' ha hb => subOwn_run (by simp [Own]) w false hg' ha hb
  have hz : ∀ a b h', Good (Ranged P) h' → Has x h' .xyz a → Has x h' .xyz b → Runs P (Calc.subOwn .xyz w false a b) h' fun r h'' => Has x h'' .xyz r :=
    fun a b h' hg' ha hb => subOwn_run (by simp [Own]) w false hg' ha hb
  cases t
  case undefined => exact absurd rfl ht
  case hsi => exact checked_run hg (via_run (m := .hsv) (t := .hsi) (by simp) (by simp) (by simp [Cie]) hx hv hg hp hq)
  case hsl => exact checked_run hg (via_run (m := .hsv) (t := .hsl) (by simp) (by simp) (by simp [Cie]) hx hv hg hp hq)
  case hcy => exact checked_run hg (via_run (m := .hsv) (t := .hcy) (by simp) (by simp) (by simp [Cie]) hx hv hg hp hq)
  case lab => exact checked_run hg (via_run (m := .xyz) (t := .lab) (by simp) (by simp) (fun _ => hx (by simp [Cie])) hx hz hg hp hq)
  case lchAb => exact checked_run hg (via_run (m := .xyz) (t := .lchAb) (by simp) (by simp) (fun _ => hx (by simp [Cie])) hx hz hg hp hq)
  case lchUv => exact checked_run hg (via_run (m := .xyz) (t := .lchUv) (by simp) (by simp) (fun _ => hx (by simp [Cie])) hx hz hg hp hq)
  all_goals exact subOwn_run (by simp [Own]) w ia hg hp hq

theorem add_run (w1 w2 : Fl) (ia : Bool) {p q : Ptr} {s t : ColorType} (hg : Good (Ranged P) h) (hp : Has x h s p) (hq : Has x h t q) :
    Runs P (Calc.add w1 w2 ia p q) h fun r h' => Maybe x h' s r := by
  refine checked_run hg (checked_run hg (load_bind hp fun c hc hs h1 _ _ => ?_))
  rw [hc.ctype]
  have key := via_pure_run hs h1 (fun a b h' hg' ha hb => addOf_run hs w1 w2 ia hg' ha hb) hg hp hq
  cases s <;> first | exact key | exact r_pure hg (Or.inl rfl)

theorem mix_run (w : Fl) (ia : Bool) {p q : Ptr} {s t : ColorType} (hg : Good (Ranged P) h) (hp : Has x h s p) (hq : Has x h t q) : Runs P (Calc.mix w ia p q) h fun r h' => Maybe x h' s r := by
  refine checkedPositive_run hg (load_bind hp fun c hc hs h1 _ _ => ?_)
  rw [hc.ctype]
  have key := via_pure_run hs h1 (fun a b h' hg' ha hb => mixOf_run hs w ia hg' ha hb) hg hp hq
  cases s <;> first | exact key | exact r_pure hg (Or.inl rfl)

theorem subtract_run (w : Fl) (ia : Bool) {p q : Ptr} {s t : ColorType} (hg : Good (Ranged P) h) (hp : Has x h s p) (hq : Has x h t q) :
    Runs P (Calc.subtract w ia p q) h fun r h' => Maybe x h' s r := by
  refine checkedPositive_run hg (load_bind hp fun c hc hs h1 _ _ => ?_)
  rw [hc.ctype]
  have key := via_pure_run hs h1 (fun a b h' hg' ha hb => subOf_run hs w ia hg' ha hb) hg hp hq
  cases s <;> first | exact key | exact r_pure hg (Or.inl rfl)

theorem accumulate_total {t : ColorType} {c : Color} (hc : IsColor t c) : ∀ (sums : List Fl) (i : Nat), i + sums.length ≤ Color.count t → ∃ r, Calc.accumulate sums c i = ok r ∧ r.length = sums.length
  | [], i, _ => ⟨[], by simp [Calc.accumulate], rfl⟩
  | s :: ss, i, hi => by
    simp only [List.length_cons] at hi
    obtain ⟨r, e, hr⟩ := accumulate_total hc ss (i + 1) (by omega)
    obtain ⟨v, ev⟩ := get hc i (by omega)
    exact ⟨(s + v) :: r, by rw [Calc.accumulate]; simp only [ev, ok_bind, e], by simp [hr]⟩

theorem averageLoop_total {t : ColorType} (ia : Bool) (first : Color) : ∀ (cs : List Color) (sums : List Fl) (al : Fl), (∀ c ∈ cs, IsColor t c) → sums.length = Color.count t →
    ∃ r, Calc.averageLoop t ia first cs sums al = ok r ∧ r.1.length = Color.count t
  | [], sums, al, _, hl => ⟨(sums, al), rfl, hl⟩
  | c :: cs, sums, al, hc, hl => by
    obtain ⟨s', e, hl'⟩ := accumulate_total (hc c (by simp)) sums 0 (by omega)
    obtain ⟨r, e2, hr⟩ := averageLoop_total ia first cs s' (if ia then (if t = .cmyk then (s'[3]?).getD 0 + c.alpha else al + c.alpha) else first.alpha) (fun d hd => hc d (by simp [hd])) (hl'.trans hl)
    exact ⟨r, by simp only [Calc.averageLoop, e, ok_bind]; exact e2, hr⟩

theorem loadAll_bind {t : ColorType} {f : List Color → Prog β} {R : β → Heap → Prop} : ∀ (ps : List Ptr), (∀ p ∈ ps, Has x h t p) →
    (∀ cs, cs.length = ps.length → (∀ c ∈ cs, IsColor t c ∧ (x → h.world.Usable c.space)) → Runs P (f cs) h R) → Runs P (Calc.loadAll ps >>= f) h R
  | [], _, hf => hf [] rfl (by simp)
  | p :: ps, hp, hf => by
    obtain ⟨i, c, e, hi, hc, ht, h1, h2⟩ := hp p (by simp)
    have := loadAll_bind (f := fun cs => f (c :: cs)) (R := R) ps (fun q hq => hp q (by simp [hq])) fun cs hl hcs => hf (c :: cs) (by simp [hl]) (by
      intro d hd
      rcases List.mem_cons.mp hd with rfl | hd
      · exact ⟨hc, h2⟩
      · exact hcs d hd)
    subst e
    have e2 : (Calc.loadAll (some i :: ps) >>= f) h = (Calc.loadAll ps >>= fun cs => f (c :: cs)) h := by
      simp only [Calc.loadAll, bind_def, load, hi]
      rcases Calc.loadAll ps h with ⟨o, h'⟩
      cases o <;> rfl
    unfold Runs at *
    rw [e2]
    exact this

theorem average_run {t : ColorType} (ht : t ≠ .undefined) (xt : Cie t → x) (ia : Bool) {ps : List Ptr} (hg : Good (Ranged P) h) (hp : ∀ p ∈ ps, Has x h t p) :
    Runs P (Calc.average t ia ps) h fun r h' => Has x h' t r := by
  unfold Calc.average
  split
  · exact r_throw hg
  · next hne =>
    refine loadAll_bind ps hp fun cs hl hcs => ?_
    match cs, hl, hcs with
    | [], hl, _ => exact absurd (List.eq_nil_of_length_eq_zero (by simpa using hl.symm)) hne
    | c :: cs, hl, hcs =>
      obtain ⟨r, e, hr⟩ := averageLoop_total (t := t) ia c (c :: cs) (List.replicate (Color.count t) 0) 0 (fun d hd => (hcs d hd).1) (by simp)
      obtain ⟨n, e2, hn, hsp⟩ := made (P := P) ht (vs := r.1.map (· / lit ((c :: cs).length : ℝ))) (if ia then r.2 / lit ((c :: cs).length : ℝ) else r.2) c.space (by simpa using hr)
      refine lift_bind (a := n) ?_ (r_alloc hg ht hn xt fun hx => by rw [hsp]; exact (hcs c (by simp)).2 hx)
      simp only [Calc.averageVal, e, ok_bind]
      exact e2

/-! ### Distances -/

theorem between_run {m s t : ColorType} (hm : m ≠ .undefined) (xm : Cie m → x) {f : Color → Color → Outcome Fl} (hf : ∀ a b, Ranged P m a → Ranged P m b → f a b ≠ .ub) {p q : Ptr} (hg : Good (Ranged P) h)
    (hp : Has x h s p) (hq : Has x h t q) : Runs P (Distance.between (Conv.dispatcher m) f p q) h fun _ _ => True := by
  unfold Distance.between
  split
  · exact r_pure hg trivial
  · refine r_bind (dispatcher hm hg hp xm) fun a h1 ha1 hg1 hA => ?_
    refine r_bind (dispatcher hm hg1 (hq.mono ha1 hg1) xm) fun b h2 ha2 hg2 hB => ?_
    split
    · exact r_pure hg2 trivial
    · refine load_bind (hA.mono ha2 hg2) fun c hc _ _ _ hic => load_bind hB fun d hd _ _ _ hid => lift_run hg2 (hf c d ?_ ?_) fun _ _ => trivial
      · obtain ⟨i, _, rfl, _⟩ := hA
        obtain ⟨t', -, hr⟩ := hg2 i c (hic i rfl)
        have : t' = m := by rw [← hr.1.ctype, hc.ctype]
        exact this ▸ hr
      · obtain ⟨i, _, rfl, _⟩ := hB
        obtain ⟨t', -, hr⟩ := hg2 i d (hid i rfl)
        have : t' = m := by rw [← hr.1.ctype, hd.ctype]
        exact this ▸ hr

theorem squares_total (a b : Color) : ∀ (n i : Nat) (s : Fl), i + n ≤ a.comps.length → i + n ≤ b.comps.length → ∃ v, Distance.squares a b n i s = ok v
  | 0, _, s, _, _ => ⟨s, rfl⟩
  | n + 1, i, s, h1, h2 => by
    have e1 : a.comps[i]? = some (a.comps[i]'(by omega)) := List.getElem?_eq_getElem _
    have e2 : b.comps[i]? = some (b.comps[i]'(by omega)) := List.getElem?_eq_getElem _
    simp only [Distance.squares, e1, e2]
    exact squares_total a b n (i + 1) _ (by omega) (by omega)

theorem squares_safe {t : ColorType} {a b : Color} (ha : IsColor t a) (hb : IsColor t b) : ∃ v, Distance.squares a b a.comps.length 0 0 = ok v :=
  squares_total a b _ _ _ (by omega) (by rw [ha.len, hb.len]; omega)

theorem squared_run (c : ColorType) {p q : Ptr} {s t : ColorType} (hc : c = .cieluv → x) (hg : Good (Ranged P) h) (hp : Has x h s p) (hq : Has x h t q) :
    Runs P (Distance.euclidean_distance_squared p q c) h fun _ _ => True := by
  unfold Distance.euclidean_distance_squared
  split
  · exact r_pure hg trivial
  · split
    · next hcl =>
      exact between_run (m := .cieluv) (by simp) (fun _ => hc hcl) (fun a b ha hb => by obtain ⟨v, e⟩ := squares_safe ha.1 hb.1; rw [e]; simp) hg hp hq
    · exact between_run (m := .rgbDeep) (by simp) (by simp [Cie]) (fun a b ha hb => by obtain ⟨v, e⟩ := squares_safe ha.1 hb.1; rw [e]; simp) hg hp hq

theorem euclidean_run (c : ColorType) {p q : Ptr} {s t : ColorType} (hg : Good (Ranged P) h) (hp : Has x h s p) (hq : Has x h t q) :
    Runs P (Distance.euclidean_distance p q c) h fun _ _ => True := by
  unfold Distance.euclidean_distance
  split
  · exact r_pure hg trivial
  · exact r_bind (squared_run .rgbDeep (by simp) hg hp hq) fun _ h' _ hg' _ => r_pure hg' trivial

theorem weighted_run {p q : Ptr} {s t : ColorType} (hg : Good (Ranged P) h) (hp : Has x h s p) (hq : Has x h t q) :
    Runs P (Distance.euclidean_distance_weighted p q) h fun _ _ => True :=
  between_run (m := .rgbDeep) (by simp) (by simp [Cie]) (fun a b ha hb => by
    obtain ⟨a0, a1, a2, b0, b1, b2, e0, e1, e2, f0, f1, f2⟩ := vectors rfl ha.1 hb.1
    simp only [Distance.weighted, e0, e1, e2, f0, f1, f2, ok_bind]
    simp) hg hp hq

theorem cie76_run {p q : Ptr} {s t : ColorType} (hx : x) (hg : Good (Ranged P) h) (hp : Has x h s p) (hq : Has x h t q) : Runs P (Distance.cielab_delta_e_cie76 p q) h fun _ _ => True :=
  between_run (m := .lab) (by simp) (fun _ => hx) (fun a b ha hb => by
    obtain ⟨v, e⟩ := squares_safe ha.1 hb.1
    simp only [Distance.cie76, e, ok_bind]
    simp) hg hp hq

theorem cie94_run (kL k1 k2 kC kH : Fl) {p q : Ptr} {s t : ColorType} (hx : x) (hg : Good (Ranged P) h) (hp : Has x h s p) (hq : Has x h t q) :
    Runs P (Distance.cielab_delta_e_cie94 kL k1 k2 kC kH p q) h fun _ _ => True :=
  between_run (m := .lab) (by simp) (fun _ => hx) (fun a b ha hb => by
    obtain ⟨a0, a1, a2, b0, b1, b2, e0, e1, e2, f0, f1, f2⟩ := vectors rfl ha.1 hb.1
    simp only [Distance.cie94, e0, e1, e2, f0, f1, f2, ok_bind]
    simp) hg hp hq

theorem cmc_run (l c : Fl) {p q : Ptr} {s t : ColorType} (hx : x) (hg : Good (Ranged P) h) (hp : Has x h s p) (hq : Has x h t q) :
    Runs P (Distance.cmc_delta_e_lc84 l c p q) h fun _ _ => True :=
  between_run (m := .lab) (by simp) (fun _ => hx) (fun a b ha hb => by
    obtain ⟨a0, a1, a2, b0, b1, b2, e0, e1, e2, f0, f1, f2⟩ := vectors rfl ha.1 hb.1
    simp only [Distance.cmc, e0, e1, e2, f0, f1, f2, ok_bind]
    simp) hg hp hq

/-! ### Adjustments -/

theorem saturateRgb_run (v : Fl) {p : Ptr} {s : ColorType} (hg : Good (Ranged P) h) (hp : Has x h s p) : Runs P (Adjust.saturate_in_rgb_space p v) h fun r h' => Known x h' s r := by
  refine r_bind (convert Combine.rgb_target hg hp (by simp [Cie])) fun q h1 ha1 hg1 hq => ?_
  refine load_bind hq fun c hc _ _ _ _ => ?_
  obtain ⟨r, er⟩ := get hc 0 (by decide)
  obtain ⟨g, eg⟩ := get hc 1 (by decide)
  obtain ⟨b, eb⟩ := get hc 2 (by decide)
  refine lift_bind er (lift_bind eg (lift_bind eb ?_))
  refine load_bind (hp.mono ha1 hg1) fun o ho _ hx hu _ => ?_
  refine make (x := x) hg1 (by simp) rfl (by simp [Cie]) hu fun n h2 ha2 hg2 hn => ?_
  rw [ho.ctype]
  exact convert_known hg2 hn hx

theorem luminateRgb_run (v : Fl) {p : Ptr} {s : ColorType} (hg : Good (Ranged P) h) (hp : Has x h s p) : Runs P (Adjust.luminate_in_rgb_space p v) h fun r h' => Known x h' s r := by
  refine r_bind (convert Combine.rgb_target hg hp (by simp [Cie])) fun q h1 ha1 hg1 hq => ?_
  refine load_bind hq fun c hc _ _ _ _ => ?_
  obtain ⟨r, er⟩ := get hc 0 (by decide)
  obtain ⟨g, eg⟩ := get hc 1 (by decide)
  obtain ⟨b, eb⟩ := get hc 2 (by decide)
  refine lift_bind er (lift_bind eg (lift_bind eb ?_))
  refine load_bind (hp.mono ha1 hg1) fun o ho _ hx hu _ => ?_
  refine make (x := x) hg1 (by simp) rfl (by simp [Cie]) hu fun n h2 ha2 hg2 hn => ?_
  rw [ho.ctype]
  exact convert_known hg2 hn hx

theorem hsl_chan {c : Color} (hc : IsColor .hsl c) (i : Nat) (hi : i < 3) (v : Fl) : ∃ c', c.setChannel i v = ok c' := by
  obtain ⟨a, b, d, e⟩ := Combine.hslColor hc
  rw [e]
  match i, hi with
  | 0, _ => exact ⟨_, rfl⟩
  | 1, _ => exact ⟨_, rfl⟩
  | 2, _ => exact ⟨_, rfl⟩

theorem adjustHsl_run (k : Nat) (hk : k < 3) (g : Fl → Fl) {p : Ptr} {s : ColorType} (hg : Good (Ranged P) h) (hp : Has x h s p) :
    Runs P (do
      let q ← Converter.convertTo p .hsl
      let c ← load q
      let s ← lift (c.getComponent k)
      let c' ← lift (c.setChannel k (g s))
      store q c'
      let o ← load p
      Converter.convertTo q o.ctype) h fun r h' => Known x h' s r := by
  refine r_bind (convert Combine.hsl_target hg hp (by simp [Cie])) fun q h1 ha1 hg1 hq => ?_
  refine load_bind hq fun c hc _ _ _ hi => ?_
  obtain ⟨v, ev⟩ := get hc k hk
  obtain ⟨c', ec⟩ := hsl_chan hc k hk (g v)
  refine lift_bind ev (lift_bind ec ?_)
  have hr : Ranged P .hsl c := by
    obtain ⟨i, _, rfl, _⟩ := hq
    obtain ⟨t', -, hr⟩ := hg1 i c (hi i rfl)
    have : t' = .hsl := by rw [← hr.1.ctype, hc.ctype]
    exact this ▸ hr
  refine store_bind hg1 hq (ranged_closed.chan _ _ _ _ _ hr ec) (fun i d e hd => ?_) fun h2 ha2 hg2 => ?_
  · rw [hi i e] at hd
    obtain rfl := Option.some.inj hd
    exact setChannel_kept ec
  · refine load_bind ((hp.mono ha1 hg1).mono ha2 hg2) fun o ho _ hx _ _ => ?_
    rw [ho.ctype]
    exact convert_known hg2 (hq.mono ha2 hg2) hx

theorem saturateHsl_run (v : Fl) {p : Ptr} {s : ColorType} (hg : Good (Ranged P) h) (hp : Has x h s p) : Runs P (Adjust.saturate_in_hsl_space p v) h fun r h' => Known x h' s r := by
  unfold Adjust.saturate_in_hsl_space
  split
  · exact r_pure hg (Or.inr hp)
  · exact adjustHsl_run 1 (by decide) (fun s => s * (1 + v)) hg hp

theorem luminateHsl_run (v : Fl) {p : Ptr} {s : ColorType} (hg : Good (Ranged P) h) (hp : Has x h s p) : Runs P (Adjust.luminate_in_hsl_space p v) h fun r h' => Known x h' s r := by
  unfold Adjust.luminate_in_hsl_space
  split
  · exact r_pure hg (Or.inr hp)
  · exact adjustHsl_run 2 (by decide) (fun s => s * (1 + v)) hg hp

/-! ### Combinations -/

theorem turned_safe (f : Fl → Fl) {p q : Ptr} {s : ColorType} (hg : Good (Ranged P) h) (hp : Has x h s p) (hq : Has x h .hsl q) : Runs P (Combine.turned p q f) h fun r h' => Known x h' s r := by
  refine load_bind hq fun c hc _ _ _ _ => ?_
  obtain ⟨u, eu⟩ := get hc 0 (by decide)
  obtain ⟨v, ev⟩ := get hc 1 (by decide)
  obtain ⟨w, ew⟩ := get hc 2 (by decide)
  refine lift_bind eu (lift_bind ev (lift_bind ew ?_))
  refine load_bind hp fun o ho _ hx hu _ => ?_
  refine make (x := x) hg (by simp) rfl (by simp [Cie]) hu fun n h2 ha2 hg2 hn => ?_
  rw [ho.ctype]
  exact convert_known hg2 hn hx

theorem turns_safe (d : Fl) {p q : Ptr} {s : ColorType} : ∀ (n i : Nat) {h : Heap}, Good (Ranged P) h → Has x h s p → Has x h .hsl q →
    Runs P (Combine.turns p q d n i) h fun l h' => l.length = n ∧ ∀ r ∈ l, Known x h' s r
  | 0, _, _, hg, _, _ => r_pure hg ⟨rfl, by simp⟩
  | n + 1, i, _, hg, hp, hq => by
    refine r_bind (turned_safe _ hg hp hq) fun r h1 ha1 hg1 hr => ?_
    refine r_bind (turns_safe d n (i + 1) hg1 (hp.mono ha1 hg1) (hq.mono ha1 hg1)) fun l h2 ha2 hg2 hl => ?_
    refine r_pure hg2 ⟨by simp [hl.1], fun a ha => ?_⟩
    rcases List.mem_cons.mp ha with rfl | ha
    · exact hr.mono ha2 hg2
    · exact hl.2 a ha

theorem combination_run (n : Int) {p : Ptr} {s : ColorType} (hg : Good (Ranged P) h) (hp : Has x h s p) :
    Runs P (Combine.create_combination p n) h fun l h' => l.length = (n - 1).toNat + 1 ∧ ∀ r ∈ l, Known x h' s r := by
  unfold Combine.create_combination
  split
  · exact r_throw hg
  · refine r_bind (convert Combine.hsl_target hg hp (by simp [Cie])) fun q h1 ha1 hg1 hq => ?_
    refine r_bind (turns_safe _ _ _ hg1 (hp.mono ha1 hg1) hq) fun l h2 ha2 hg2 hl => ?_
    refine r_pure hg2 ⟨by simp [hl.1], fun a ha => ?_⟩
    rcases List.mem_cons.mp ha with rfl | ha
    · exact Or.inr ((hp.mono ha1 hg1).mono ha2 hg2)
    · exact hl.2 a ha

theorem complimentary_run {p : Ptr} {s : ColorType} (hg : Good (Ranged P) h) (hp : Has x h s p) : Runs P (Combine.create_complimentary p) h fun r h' => Known x h' s r := by
  refine r_bind (combination_run 2 hg hp) fun l h1 ha1 hg1 hl => ?_
  match l, hl with
  | [a, b], hl => exact r_pure hg1 (hl.2 b (by simp))

theorem analogous_run (d : Fl) {p : Ptr} {s : ColorType} (hg : Good (Ranged P) h) (hp : Has x h s p) :
    Runs P (Combine.create_analogous p d) h fun l h' => l.length = 3 ∧ ∀ r ∈ l, Known x h' s r := by
  unfold Combine.create_analogous
  split
  · exact r_throw hg
  · refine r_bind (convert Combine.hsl_target hg hp (by simp [Cie])) fun q h1 ha1 hg1 hq => ?_
    refine r_bind (turned_safe _ hg1 (hp.mono ha1 hg1) hq) fun a h2 ha2 hg2 hA => ?_
    refine r_bind (turned_safe _ hg2 ((hp.mono ha1 hg1).mono ha2 hg2) (hq.mono ha2 hg2)) fun b h3 ha3 hg3 hB => ?_
    refine r_pure hg3 ⟨rfl, fun r hr => ?_⟩
    simp only [List.mem_cons, List.not_mem_nil, or_false] at hr
    rcases hr with rfl | rfl | rfl
    · exact hA.mono ha3 hg3
    · exact Or.inr (((hp.mono ha1 hg1).mono ha2 hg2).mono ha3 hg3)
    · exact hB

theorem split_run (d : Fl) {p : Ptr} {s : ColorType} (hs : Combine.Target s) (hg : Good (Ranged P) h) (hp : Has x h s p) :
    Runs P (Combine.create_complimentary_split p d) h fun l h' => l.length = 3 ∧ ∀ r ∈ l, Known x h' s r := by
  refine r_bind (convert Combine.hsl_target hg hp (by simp [Cie])) fun q h1 ha1 hg1 _ => ?_
  refine r_bind (complimentary_run hg1 (hp.mono ha1 hg1)) fun c h2 ha2 hg2 hc => ?_
  refine r_bind (analogous_run d hg2 (hc.has hs)) fun l h3 ha3 hg3 hl => ?_
  match l, hl with
  | [a, b, e], hl =>
    refine r_pure hg3 ⟨rfl, fun r hr => ?_⟩
    simp only [List.mem_cons, List.not_mem_nil, or_false] at hr
    rcases hr with rfl | rfl | rfl
    · exact hl.2 _ (by simp)
    · exact Or.inr (((hp.mono ha1 hg1).mono ha2 hg2).mono ha3 hg3)
    · exact hl.2 _ (by simp)

theorem renewed_safe {p q : Ptr} {s : ColorType} (hg : Good (Ranged P) h) (hp : Has x h s p) (hq : Has x h .hsl q) : Runs P (Combine.renewed p q) h fun r h' => Has x h' .hsl r := by
  refine load_bind hq fun c hc _ _ _ _ => ?_
  obtain ⟨u, eu⟩ := get hc 0 (by decide)
  obtain ⟨v, ev⟩ := get hc 1 (by decide)
  obtain ⟨w, ew⟩ := get hc 2 (by decide)
  refine lift_bind eu (lift_bind ev (lift_bind ew ?_))
  exact load_bind hp fun o ho _ hx hu _ => make_last hg (by simp) rfl (by simp [Cie]) hu

theorem shade_safe (mode : Int) (a : Fl) {p q : Ptr} {s : ColorType} (hs : Combine.Target s) (hg : Good (Ranged P) h) (hp : Has x h s p) (hq : Has x h s q) :
    Runs P (Combine.shade p s mode a q) h fun r h' => Has x h' s r := by
  have hx : Cie s → x := by obtain ⟨_, _, _, _, _, _, h1, _⟩ := hp; exact h1
  refine r_bind (convert Combine.hsl_target hg hq (by simp [Cie])) fun q1 h1 ha1 hg1 hq1 => ?_
  have hp1 := hp.mono ha1 hg1
  split
  · refine r_bind (renewed_safe hg1 hp1 hq1) fun m h2 _ hg2 hm => ?_
    refine r_bind (saturateHsl_run a hg2 hm) fun m h3 _ hg3 hm => ?_
    exact convert hs hg3 (hm.has Combine.hsl_target) hx
  · split
    · refine r_bind (renewed_safe hg1 hp1 hq1) fun m h2 _ hg2 hm => ?_
      refine r_bind (luminateHsl_run a hg2 hm) fun m h3 _ hg3 hm => ?_
      exact convert hs hg3 (hm.has Combine.hsl_target) hx
    · split
      · refine r_bind (renewed_safe hg1 hp1 hq1) fun m h2 _ hg2 hm => ?_
        refine r_bind (saturateHsl_run a hg2 hm) fun m h3 _ hg3 hm => ?_
        refine r_bind (luminateHsl_run a hg3 (hm.has Combine.hsl_target)) fun m h4 _ hg4 hm => ?_
        exact convert hs hg4 (hm.has Combine.hsl_target) hx
      · exact r_throw hg1

theorem shades_safe (mode : Int) (a : Fl) {p : Ptr} {s : ColorType} (hs : Combine.Target s) : ∀ (n : Nat) {q : Ptr} {h : Heap}, Good (Ranged P) h → Has x h s p → Has x h s q →
    Runs P (Combine.shades p s mode a n q) h fun l h' => l.length = n ∧ ∀ r ∈ l, Known x h' s r
  | 0, _, _, hg, _, _ => r_pure hg ⟨rfl, by simp⟩
  | n + 1, q, _, hg, hp, hq => by
    refine r_bind (shade_safe mode a hs hg hp hq) fun r h1 ha1 hg1 hr => ?_
    refine r_bind (shades_safe mode a hs n hg1 (hp.mono ha1 hg1) hr) fun l h2 ha2 hg2 hl => ?_
    refine r_pure hg2 ⟨by simp [hl.1], fun b hb => ?_⟩
    rcases List.mem_cons.mp hb with rfl | hb
    · exact Or.inr (hr.mono ha2 hg2)
    · exact hl.2 b hb

theorem monochromatic_run (mode : Int) (a : Fl) (n : Int) {p : Ptr} {s : ColorType} (hs : Combine.Target s) (hg : Good (Ranged P) h) (hp : Has x h s p) :
    Runs P (Combine.create_monochromatic p mode a n) h fun l h' => ∀ r ∈ l, Known x h' s r := by
  unfold Combine.create_monochromatic
  split
  · exact r_throw hg
  · refine load_bind hp fun o ho _ _ _ _ => ?_
    rw [ho.ctype]
    refine r_bind (shades_safe mode _ hs _ hg hp hp) fun l h1 ha1 hg1 hl => ?_
    refine r_pure hg1 fun b hb => ?_
    rcases List.mem_cons.mp hb with rfl | hb
    · exact Or.inr (hp.mono ha1 hg1)
    · exact hl.2 b hb

end Safe
