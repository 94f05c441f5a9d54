import Verif.LocConv

/-! The rules of `Verif/Loc.lean` applied to the functions of the library that are not conversions. -/

open Outcome Fl Prog

namespace Loc
variable [FloatModel] {R : Map} {p q p' q' : Ptr}

theorem Both.mono {α : Type} {R R' : Map} (h : R ≤ R') {V : Map → α → α → Prop} {p q : Prog α} (b : Both R V p q) : Both R' V p q := fun _ m k le e => b _ m k (h.trans le) e

instance l_dispatcher (t : ColorType) : Local (Conv.dispatcher t) := by
  cases t <;> simp only [Conv.dispatcher] <;> first | infer_instance | exact local_none

instance l_direct (s t : ColorType) : Local (Conv.direct s t) := by
  cases s <;> cases t <;> simp only [Conv.direct, Conv.direct_rgb_true, Conv.direct_rgb_deep, Conv.direct_grey_true, Conv.direct_grey_deep, Conv.direct_cmyk, Conv.direct_hsi,
    Conv.direct_hsv, Conv.direct_hsl, Conv.direct_hcy, Conv.direct_xyz, Conv.direct_xyy, Conv.direct_cieluv, Conv.direct_lab, Conv.direct_lch_ab, Conv.direct_lch_uv] <;>
    first | infer_instance | exact local_none | exact local_pure

/-! ### Adjustments -/

theorem both_made (o : Outcome Color) {k k' : Ptr → Prog Ptr} (hf : ∀ R' a b, R ≤ R' → PRel R' a b → Both R' PRel (k a) (k' b)) :
    Both R PRel (lift o >>= fun n => alloc n >>= k) (lift o >>= fun n => alloc n >>= k') := both_liftBind _ fun _ => both_allocBind _ hf

theorem l_saturate_in_rgb_space (hp : PRel R p q) (x : Fl) : Both R PRel (Adjust.saturate_in_rgb_space p x) (Adjust.saturate_in_rgb_space q x) :=
  (l_convertTo _ hp).bind fun _ _ _ le hq => both_loadBind hq fun _ => both_liftBind _ fun _ => both_liftBind _ fun _ => both_liftBind _ fun _ => both_loadBind (hp.mono le) fun _ =>
    both_made _ fun _ _ _ _ hr => l_convertTo _ hr

theorem l_luminate_in_rgb_space (hp : PRel R p q) (x : Fl) : Both R PRel (Adjust.luminate_in_rgb_space p x) (Adjust.luminate_in_rgb_space q x) :=
  (l_convertTo _ hp).bind fun _ _ _ le hq => both_loadBind hq fun _ => both_liftBind _ fun _ => both_liftBind _ fun _ => both_liftBind _ fun _ => both_loadBind (hp.mono le) fun _ =>
    both_made _ fun _ _ _ _ hr => l_convertTo _ hr

theorem l_saturate_in_hsl_space (hp : PRel R p q) (x : Fl) : Both R PRel (Adjust.saturate_in_hsl_space p x) (Adjust.saturate_in_hsl_space q x) := by
  simp only [Adjust.saturate_in_hsl_space]
  split
  · exact both_pure fun _ le => hp.mono le
  · exact (l_convertTo _ hp).bind fun _ _ _ le hq => both_loadBind hq fun _ => both_liftBind _ fun _ => both_liftBind _ fun _ => both_storeBind hq _ (both_loadBind (hp.mono le) fun _ =>
      l_convertTo _ hq)

theorem l_luminate_in_hsl_space (hp : PRel R p q) (x : Fl) : Both R PRel (Adjust.luminate_in_hsl_space p x) (Adjust.luminate_in_hsl_space q x) := by
  simp only [Adjust.luminate_in_hsl_space]
  split
  · exact both_pure fun _ le => hp.mono le
  · exact (l_convertTo _ hp).bind fun _ _ _ le hq => both_loadBind hq fun _ => both_liftBind _ fun _ => both_liftBind _ fun _ => both_storeBind hq _ (both_loadBind (hp.mono le) fun _ =>
      l_convertTo _ hq)

theorem l_byReference {f : Ptr → Fl → Prog Ptr} {x : Fl} (hf : ∀ (R : Map) (p q : Ptr), PRel R p q → Both R PRel (f p x) (f q x)) {i j : Nat} (hi : R i j) :
    Both R Same (Adjust.byReference f i x) (Adjust.byReference f j x) :=
  (hf _ _ _ (.obj hi)).bind fun _ _ _ le hq => both_loadBind hq fun _ => both_loadBind (.obj (le _ _ hi)) fun _ => both_store (.obj (le _ _ hi)) _

/-! ### Combinations -/

theorem l_turned (hp : PRel R p q) (hp' : PRel R p' q') (f : Fl → Fl) : Both R PRel (Combine.turned p p' f) (Combine.turned q q' f) :=
  both_loadBind hp' fun _ => both_liftBind _ fun _ => both_liftBind _ fun _ => both_liftBind _ fun _ => both_loadBind hp fun _ => both_made _ fun _ _ _ _ hr => l_convertTo _ hr

theorem l_turns (hp : PRel R p q) (hp' : PRel R p' q') (x : Fl) (n i : Nat) : Both R LRel (Combine.turns p p' x n i) (Combine.turns q q' x n i) := by
  induction n generalizing i R with
  | zero => exact both_pure fun _ _ => .nil
  | succ n ih => exact (l_turned hp hp' _).bind fun _ _ _ le hr => (ih (hp.mono le) (hp'.mono le) _).bind fun _ _ _ le' hrs => both_pure fun _ le'' => .cons ((hr.mono le').mono le'') (hrs.mono le'')

theorem l_create_combination (hp : PRel R p q) (n : Int) : Both R LRel (Combine.create_combination p n) (Combine.create_combination q n) := by
  simp only [Combine.create_combination]
  split
  · exact both_throw
  · exact (l_convertTo _ hp).bind fun _ _ _ le hq => (l_turns (hp.mono le) hq _ _ _).bind fun _ _ _ le' hrs => both_pure fun _ le'' => .cons (hp.mono ((le.trans le').trans le'')) (hrs.mono le'')

theorem forall₂_get {α : Type} {r : α → α → Prop} {l l' : List α} (h : List.Forall₂ r l l') (n : Nat) : (l[n]? = none ∧ l'[n]? = none) ∨ ∃ a b, l[n]? = some a ∧ l'[n]? = some b ∧ r a b := by
  induction h generalizing n with
  | nil => exact Or.inl ⟨rfl, rfl⟩
  | cons h _ ih =>
    cases n with
    | zero => exact Or.inr ⟨_, _, rfl, rfl, h⟩
    | succ n => exact ih n

theorem l_create_complimentary (hp : PRel R p q) : Both R PRel (Combine.create_complimentary p) (Combine.create_complimentary q) :=
  (l_create_combination hp 2).bind fun _ v v' _ hv => by
    rcases forall₂_get hv 1 with ⟨h1, h2⟩ | ⟨a, b, h1, h2, h3⟩
    · rw [h1, h2]; exact both_ub
    · rw [h1, h2]; exact both_pure fun _ le => h3.mono le

theorem l_create_analogous (hp : PRel R p q) (x : Fl) : Both R LRel (Combine.create_analogous p x) (Combine.create_analogous q x) := by
  simp only [Combine.create_analogous]
  split
  · exact both_throw
  · exact (l_convertTo _ hp).bind fun _ _ _ le hq => (l_turned (hp.mono le) hq _).bind fun _ _ _ le1 h1 => (l_turned (hp.mono (le.trans le1)) (hq.mono le1) _).bind fun _ _ _ le2 h2 =>
      both_pure fun _ le3 => .cons (h1.mono (le2.trans le3)) (.cons (hp.mono ((le.trans le1).trans (le2.trans le3))) (.cons (h2.mono le3) .nil))

theorem l_renewed (hp : PRel R p q) (hp' : PRel R p' q') : Both R PRel (Combine.renewed p p') (Combine.renewed q q') :=
  both_loadBind hp' fun _ => both_liftBind _ fun _ => both_liftBind _ fun _ => both_liftBind _ fun _ => both_loadBind hp fun _ => both_liftBind _ fun _ => both_alloc _

theorem l_shade (hp : PRel R p q) (t : ColorType) (mode : Int) (x : Fl) (hp' : PRel R p' q') : Both R PRel (Combine.shade p t mode x p') (Combine.shade q t mode x q') :=
  (l_convertTo _ hp').bind fun _ _ _ le hq => by
    split
    · exact (l_renewed (hp.mono le) hq).bind fun _ _ _ _ h1 => (l_saturate_in_hsl_space h1 x).bind fun _ _ _ _ h2 => l_convertTo _ h2
    · split
      · exact (l_renewed (hp.mono le) hq).bind fun _ _ _ _ h1 => (l_luminate_in_hsl_space h1 x).bind fun _ _ _ _ h2 => l_convertTo _ h2
      · split
        · exact (l_renewed (hp.mono le) hq).bind fun _ _ _ _ h1 => (l_saturate_in_hsl_space h1 x).bind fun _ _ _ _ h2 => (l_luminate_in_hsl_space h2 x).bind fun _ _ _ _ h3 => l_convertTo _ h3
        · exact both_throw

theorem l_shades (hp : PRel R p q) (t : ColorType) (mode : Int) (x : Fl) (n : Nat) (hp' : PRel R p' q') : Both R LRel (Combine.shades p t mode x n p') (Combine.shades q t mode x n q') := by
  induction n generalizing R p' q' with
  | zero => exact both_pure fun _ _ => .nil
  | succ n ih => exact (l_shade hp t mode x hp').bind fun _ _ _ le hr => (ih (hp.mono le) hr).bind fun _ _ _ le' hrs => both_pure fun _ le'' => .cons (hr.mono (le'.trans le'')) (hrs.mono le'')

theorem l_create_monochromatic (hp : PRel R p q) (mode : Int) (x : Fl) (n : Int) : Both R LRel (Combine.create_monochromatic p mode x n) (Combine.create_monochromatic q mode x n) := by
  simp only [Combine.create_monochromatic]
  split
  · exact both_throw
  · exact both_loadBind hp fun _ => (l_shades hp _ _ _ _ hp).bind fun _ _ _ le hrs => both_pure fun _ le' => .cons (hp.mono (le.trans le')) (hrs.mono le')

theorem l_create_complimentary_split (hp : PRel R p q) (x : Fl) : Both R LRel (Combine.create_complimentary_split p x) (Combine.create_complimentary_split q x) :=
  (l_convertTo _ hp).bind fun _ _ _ le _ => (l_create_complimentary (hp.mono le)).bind fun _ _ _ le1 hc => (l_create_analogous hc x).bind fun _ v v' le2 hv => by
    rcases forall₂_get hv 0 with ⟨h1, h2⟩ | ⟨a, b, h1, h2, h3⟩
    · rw [h1, h2]; exact both_ub
    · rcases forall₂_get hv 2 with ⟨k1, k2⟩ | ⟨a', b', k1, k2, k3⟩
      · rw [h1, h2, k1, k2]; exact both_ub
      · rw [h1, h2, k1, k2]
        exact both_pure fun _ le3 => .cons (h3.mono le3) (.cons (hp.mono ((le.trans le1).trans (le2.trans le3))) (.cons (k3.mono le3) .nil))

/-! ### Chromatic adaptation -/

theorem end_same {α : Type} (o : Outcome α) {V : α → α → Prop} (h : ∀ a, V a a) : End V o o := by
  cases o with
  | ok a => exact .ok (h a)
  | throw e => exact .throw e
  | ub => exact .ub

theorem l_newDefinition (a : Nat) (old target : Option Nat) : Both R Same (Adapt.newDefinition a old target) (Adapt.newDefinition a old target) := fun R' h g _ e => by
  refine ⟨R', le_rfl, ?_⟩
  unfold Adapt.newDefinition
  rw [← e.world]
  split
  · exact ⟨e, .ub⟩
  · exact ⟨e, .throw _⟩
  · split
    · exact ⟨e, .ub⟩
    · exact ⟨e, .throw _⟩
    · exact ⟨⟨rfl, e.right, e.left, e.same⟩, end_same _ fun _ => rfl⟩

theorem l_adapt (f : Adapt.Core) (a : Nat) (hp : PRel R p q) (target : Option Nat) : Both R PRel (Adapt.adapt f a p target) (Adapt.adapt f a q target) :=
  both_loadBind hp fun _ => both_worldBind fun _ => both_liftBind _ fun _ => by
    split
    · exact both_pure fun _ le => hp.mono le
    · exact both_callBind hp fun _ _ _ le hq => both_loadBind hq fun _ => both_loadBind (hp.mono le) fun _ => both_worldBind fun _ => both_liftBind _ fun _ => both_liftBind _ fun _ =>
        both_liftBind _ fun _ => both_liftBind _ fun _ => (l_newDefinition _ _ _).bind fun _ _ _ _ _ => both_liftBind _ fun _ => both_liftBind _ fun _ => both_liftBind _ fun _ =>
          both_made _ fun _ _ _ _ hr => l_convertTo _ hr

/-! ### Compositing and blending -/

theorem prel_none (hp : PRel R p q) : p = none ↔ q = none := by cases hp <;> simp

theorem l_generalPorterDuff (hp : PRel R p q) (hp' : PRel R p' q') (us ud ub : Bool) (f : Nat → Fl → Fl → Fl) :
    Both R PRel (Blend.generalPorterDuff p p' us ud ub f) (Blend.generalPorterDuff q q' us ud ub f) := by
  simp only [Blend.generalPorterDuff, prel_none hp, prel_none hp']
  split
  · exact both_throw
  · split
    · exact both_throw
    · exact both_loadBind hp fun _ => both_loadBind hp' fun _ => by
        split
        · exact both_throw
        · exact both_liftBind _ fun _ => both_alloc _

theorem l_operator (us ud ub : Bool) (f : Color → Color → Nat → Fl → Fl → Fl) (hp : PRel R p q) (hp' : PRel R p' q') : Both R PRel (Blend.operator us ud ub f p p') (Blend.operator us ud ub f q q') := by
  simp only [Blend.operator, prel_none hp, prel_none hp']
  split
  · exact both_throw
  · split
    · exact both_throw
    · exact both_loadBind hp fun _ => both_loadBind hp' fun _ => by
        split
        · exact both_throw
        · exact both_callBind hp fun _ _ _ le hs => both_callBind (hp'.mono le) fun _ _ _ le' hd => (l_generalPorterDuff (hs.mono le') hd _ _ _ _).bind fun _ _ _ _ hr => l_convertTo _ hr

theorem l_hue (us ud : Bool) (hp : PRel R p q) (hp' : PRel R p' q') : Both R PRel (ColorBlend.hue us ud p p') (ColorBlend.hue us ud q q') :=
  both_callBind hp fun _ _ _ le hs => both_loadBind hs fun _ => both_callBind (hp'.mono le) fun _ _ _ le' hd => both_loadBind hd fun _ => both_made _ fun _ _ _ le'' hr =>
    both_loadBind (hp.mono ((le.trans le').trans le'')) fun _ => l_convertTo _ hr

theorem l_saturation (us ud : Bool) (hp : PRel R p q) (hp' : PRel R p' q') : Both R PRel (ColorBlend.saturation us ud p p') (ColorBlend.saturation us ud q q') :=
  both_callBind hp fun _ _ _ le hs => both_loadBind hs fun _ => both_callBind (hp'.mono le) fun _ _ _ le' hd => both_loadBind hd fun _ => both_made _ fun _ _ _ le'' hr =>
    both_loadBind (hp.mono ((le.trans le').trans le'')) fun _ => l_convertTo _ hr

theorem l_color (us ud : Bool) (hp : PRel R p q) (hp' : PRel R p' q') : Both R PRel (ColorBlend.color us ud p p') (ColorBlend.color us ud q q') :=
  both_callBind hp fun _ _ _ le hs => both_loadBind hs fun _ => both_callBind (hp'.mono le) fun _ _ _ le' hd => both_loadBind hd fun _ => both_made _ fun _ _ _ le'' hr =>
    both_loadBind (hp.mono ((le.trans le').trans le'')) fun _ => l_convertTo _ hr

theorem l_luminosity (us ud : Bool) (hp : PRel R p q) (hp' : PRel R p' q') : Both R PRel (ColorBlend.luminosity us ud p p') (ColorBlend.luminosity us ud q q') :=
  both_callBind hp fun _ _ _ le hs => both_loadBind hs fun _ => both_callBind (hp'.mono le) fun _ _ _ le' hd => both_loadBind hd fun _ => both_made _ fun _ _ _ le'' hr =>
    both_loadBind (hp.mono ((le.trans le').trans le'')) fun _ => l_convertTo _ hr

/-! ### Distances -/

/-- A test whether two pointers are equal. -/
theorem both_ifEq {α : Type} {V : Map → α → α → Prop} (hp : PRel R p q) (hp' : PRel R p' q') {x y x' y' : Prog α} (h1 : Both R V x x') (h2 : Both R V y y') :
    Both R V (if p = p' then x else y) (if q = q' then x' else y') := fun R' h g le e => by
  have := e.eq_iff (hp.mono le) (hp'.mono le)
  by_cases hpp : p = p'
  · rw [if_pos hpp, if_pos (this.mp hpp)]; exact h1 R' h g le e
  · rw [if_neg hpp, if_neg (fun h => hpp (this.mpr h))]; exact h2 R' h g le e

theorem l_between {conv : Ptr → Prog Ptr} [Local conv] (f : Color → Color → Outcome Fl) (hp : PRel R p q) (hp' : PRel R p' q') : Both R Same (Distance.between conv f p p') (Distance.between conv f q q') :=
  both_ifEq hp hp' (both_pure fun _ _ => rfl) (both_callBind hp fun _ _ _ le h1 => both_callBind (hp'.mono le) fun _ _ _ le' h2 =>
    both_ifEq (h1.mono le') h2 (both_pure fun _ _ => rfl) (both_loadBind (h1.mono le') fun _ => both_loadBind h2 fun _ => both_lift _))

theorem l_squared (hp : PRel R p q) (hp' : PRel R p' q') (t : ColorType) : Both R Same (Distance.euclidean_distance_squared p p' t) (Distance.euclidean_distance_squared q q' t) := by
  unfold Distance.euclidean_distance_squared
  refine both_ifEq hp hp' (both_pure fun _ _ => rfl) ?_
  split
  · exact l_between _ hp hp'
  · exact l_between _ hp hp'

theorem l_euclidean (hp : PRel R p q) (hp' : PRel R p' q') (t : ColorType) : Both R Same (Distance.euclidean_distance p p' t) (Distance.euclidean_distance q q' t) :=
  both_ifEq hp hp' (both_pure fun _ _ => rfl) ((l_squared hp hp' _).bind fun _ _ _ _ e => by rw [show _ = _ from e]; exact both_pure fun _ _ => rfl)

/-! ### Arithmetic -/

theorem l_checked {α : Type} {V : Map → α → α → Prop} {x y : Prog α} (w : Fl) (h : Both R V x y) : Both R V (Calc.checked w x) (Calc.checked w y) := by
  unfold Calc.checked
  split
  · exact both_throw
  · exact h

theorem l_checkedPositive {α : Type} {V : Map → α → α → Prop} {x y : Prog α} (w : Fl) (h : Both R V x y) : Both R V (Calc.checkedPositive w x) (Calc.checkedPositive w y) := by
  unfold Calc.checkedPositive
  split
  · exact both_throw
  · exact h

/-- A function of two pointers that depends only on the objects behind them. -/
def Local2 (f : Ptr → Ptr → Prog Ptr) : Prop := ∀ (R : Map) (p q p' q' : Ptr), PRel R p q → PRel R p' q' → Both R PRel (f p p') (f q q')

theorem l_binary (f : Color → Color → Outcome Color) : Local2 (Calc.binary f) := fun _ _ _ _ _ hp hp' => both_loadBind hp fun _ => both_loadBind hp' fun _ => both_liftBind _ fun _ => both_alloc _

theorem l_via {conv back : Ptr → Prog Ptr} [Local conv] [Local back] {f : Ptr → Ptr → Prog Ptr} (hf : Local2 f) : Local2 (Calc.via conv back f) := fun _ _ _ _ _ hp hp' =>
  both_callBind hp fun _ _ _ le h1 => both_callBind (hp'.mono le) fun _ _ _ le' h2 => (hf _ _ _ _ _ (h1.mono le') h2).bind fun _ _ _ _ h3 => both_call h3

theorem l_addOwn (t : ColorType) (w1 w2 : Fl) (ia : Bool) : Local2 (Calc.addOwn t w1 w2 ia) := fun _ _ _ _ _ hp hp' => l_checked _ (l_checked _ (l_binary _ _ _ _ _ _ hp hp'))

theorem l_subOwn (t : ColorType) (w : Fl) (ia : Bool) : Local2 (Calc.subOwn t w ia) := fun _ _ _ _ _ hp hp' => l_checked _ (l_binary _ _ _ _ _ _ hp hp')

theorem l_addOf (t : ColorType) (w1 w2 : Fl) (ia : Bool) : Local2 (Calc.addOf t w1 w2 ia) := fun R p q p' q' hp hp' => by
  cases t <;> first
    | exact l_addOwn _ w1 w2 ia _ _ _ _ _ hp hp'
    | exact l_checked _ (l_checked _ (l_via (l_addOwn _ w1 w2 ia) _ _ _ _ _ hp hp'))

theorem l_subOf (t : ColorType) (w : Fl) (ia : Bool) : Local2 (Calc.subOf t w ia) := fun R p q p' q' hp hp' => by
  cases t <;> first
    | exact l_subOwn _ w ia _ _ _ _ _ hp hp'
    | exact l_checked _ (l_via (l_subOwn _ w false) _ _ _ _ _ hp hp')

theorem l_mixOf (t : ColorType) (w : Fl) (ia : Bool) : Local2 (Calc.mixOf t w ia) := fun R p q p' q' hp hp' => by
  cases t <;> first
    | exact l_addOf _ w (1 - w) ia _ _ _ _ _ hp hp'
    | exact l_checked _ (l_addOf _ w (1 - w) ia _ _ _ _ _ hp hp')

theorem l_add (w1 w2 : Fl) (ia : Bool) : Local2 (Calc.add w1 w2 ia) := fun R p q p' q' hp hp' => l_checked _ (l_checked _ (both_loadBind hp fun c => by
  split <;> first
    | exact l_via (l_addOf _ w1 w2 ia) _ _ _ _ _ hp hp'
    | exact both_pure fun _ _ => .null))

theorem l_mix (w : Fl) (ia : Bool) : Local2 (Calc.mix w ia) := fun R p q p' q' hp hp' => l_checkedPositive _ (both_loadBind hp fun c => by
  split <;> first
    | exact l_via (l_mixOf _ w ia) _ _ _ _ _ hp hp'
    | exact both_pure fun _ _ => .null)

theorem l_subtract (w : Fl) (ia : Bool) : Local2 (Calc.subtract w ia) := fun R p q p' q' hp hp' => l_checkedPositive _ (both_loadBind hp fun c => by
  split <;> first
    | exact l_via (l_subOf _ w ia) _ _ _ _ _ hp hp'
    | exact both_pure fun _ _ => .null)

theorem l_loadAll {ps qs : List Ptr} (h : LRel R ps qs) : Both R Same (Calc.loadAll ps) (Calc.loadAll qs) := by
  induction h with
  | nil => exact both_pure fun _ _ => rfl
  | cons h _ ih => exact both_loadBind h fun _ => ih.bind fun _ _ _ _ e => both_pure fun _ _ => by rw [show _ = _ from e]; rfl

theorem l_average (t : ColorType) (ia : Bool) {ps qs : List Ptr} (h : LRel R ps qs) : Both R PRel (Calc.average t ia ps) (Calc.average t ia qs) := by
  have hn : ps = [] ↔ qs = [] := by cases h <;> simp
  simp only [Calc.average, hn]
  split
  · exact both_throw
  · exact (l_loadAll h).bind fun _ _ _ _ e => by rw [show _ = _ from e]; exact both_liftBind _ fun _ => both_alloc _

/-! ### All calls -/

/-- Results: corresponding pointers, and equal numbers if there are no pointers. -/
def Res {α : Type} (res : α → List Ptr) : Map → α → α → Prop := fun R a b => LRel R (res a) (res b) ∧ (res a = [] → a = b)

theorem Both.one {x y : Prog Ptr} (h : Both R PRel x y) : Both R (Res fun q => [q]) x y := h.weaken fun _ _ _ _ e => ⟨.cons e .nil, fun h => by cases h⟩

theorem Both.many {x y : Prog (List Ptr)} (h : Both R LRel x y) : Both R (Res id) x y := h.weaken fun _ a b _ e => ⟨e, fun h => by
  simp only [id_eq] at h; subst h; cases e; rfl⟩

theorem Both.number {x y : Prog Fl} (h : Both R Same x y) : Both R (Res fun _ => []) x y := h.weaken fun _ _ _ _ e => ⟨.nil, fun _ => e⟩

open SessionSpec in
theorem l_call {args : List Ptr} {α : Type} {p : Prog α} {res : α → List Ptr} {pr : Promise} (h : Call True args α p res pr) (ha : ∀ x ∈ args, PRel R x x) : Both R (Res res) p p := by
  cases h with
  | create t vs al sp => exact Both.one (both_liftBind _ fun _ => both_alloc _)
  | hexInt code sp => exact Both.one (both_liftBind _ fun _ => both_alloc _)
  | hexString s sp => exact Both.one (both_liftBind _ fun _ => both_alloc _)
  | copy p => exact Both.one (both_loadBind (ha _ (by simp)) fun _ => both_alloc _)
  | fromBase t p => exact Both.one (both_loadBind (ha _ (by simp)) fun _ => both_liftBind _ fun _ => both_alloc _)
  | convertTo p t => exact Both.one (l_convertTo t (ha _ (by simp)))
  | dispatcher p t => exact Both.one (both_call (ha _ (by simp)))
  | direct p s t => exact Both.one (both_call (ha _ (by simp)))
  | blend us ud ub f p q => exact Both.one (l_operator _ _ _ _ (ha _ (by simp)) (ha _ (by simp)))
  | hue us ud p q => exact Both.one (l_hue _ _ (ha _ (by simp)) (ha _ (by simp)))
  | saturation us ud p q => exact Both.one (l_saturation _ _ (ha _ (by simp)) (ha _ (by simp)))
  | color us ud p q => exact Both.one (l_color _ _ (ha _ (by simp)) (ha _ (by simp)))
  | luminosity us ud p q => exact Both.one (l_luminosity _ _ (ha _ (by simp)) (ha _ (by simp)))
  | add w1 w2 ia p q => exact Both.one (l_add _ _ _ _ _ _ _ _ (ha _ (by simp)) (ha _ (by simp)))
  | addOf t w1 w2 ia p q => exact Both.one (l_addOf _ _ _ _ _ _ _ _ _ (ha _ (by simp)) (ha _ (by simp)))
  | mix w ia p q => exact Both.one (l_mix _ _ _ _ _ _ _ (ha _ (by simp)) (ha _ (by simp)))
  | mixOf t w ia p q => exact Both.one (l_mixOf _ _ _ _ _ _ _ _ (ha _ (by simp)) (ha _ (by simp)))
  | subtract w ia p q => exact Both.one (l_subtract _ _ _ _ _ _ _ (ha _ (by simp)) (ha _ (by simp)))
  | subOf t w ia p q => exact Both.one (l_subOf _ _ _ _ _ _ _ _ (ha _ (by simp)) (ha _ (by simp)))
  | average t ia ps => exact Both.one (l_average _ _ (List.forall₂_same.mpr ha))
  | squared p q t => exact Both.number (l_squared (ha _ (by simp)) (ha _ (by simp)) _)
  | euclidean p q t => exact Both.number (l_euclidean (ha _ (by simp)) (ha _ (by simp)) _)
  | weighted p q => exact Both.number (l_between _ (ha _ (by simp)) (ha _ (by simp)))
  | cie76 p q => exact Both.number (l_between _ (ha _ (by simp)) (ha _ (by simp)))
  | cie94 kL k1 k2 kC kH p q => exact Both.number (l_between _ (ha _ (by simp)) (ha _ (by simp)))
  | cie00 kL k1 k2 kC kH p q => exact Both.number (l_between _ (ha _ (by simp)) (ha _ (by simp)))
  | cmc l c p q => exact Both.number (l_between _ (ha _ (by simp)) (ha _ (by simp)))
  | saturateRgb p x => exact Both.one (l_saturate_in_rgb_space (ha _ (by simp)) _)
  | saturateHsl p x => exact Both.one (l_saturate_in_hsl_space (ha _ (by simp)) _)
  | luminateRgb p x => exact Both.one (l_luminate_in_rgb_space (ha _ (by simp)) _)
  | luminateHsl p x => exact Both.one (l_luminate_in_hsl_space (ha _ (by simp)) _)
  | combination p n => exact Both.many (l_create_combination (ha _ (by simp)) _)
  | complimentary p => exact Both.one (l_create_complimentary (ha _ (by simp)))
  | triplet p => exact Both.many (l_create_combination (ha _ (by simp)) _)
  | quartet p => exact Both.many (l_create_combination (ha _ (by simp)) _)
  | quintet p => exact Both.many (l_create_combination (ha _ (by simp)) _)
  | analogous p x => exact Both.many (l_create_analogous (ha _ (by simp)) _)
  | monochromatic p mode x n => exact Both.many (l_create_monochromatic (ha _ (by simp)) _ _ _)
  | complimentarySplit p x => exact Both.many (l_create_complimentary_split (ha _ (by simp)) _)

open SessionSpec in
theorem l_rewrite {i : Nat} (hi : R i i) (f : Color → Outcome Color) : Both R Same (rewrite i f) (rewrite i f) := both_loadBind (.obj hi) fun _ => both_liftBind _ fun _ => both_store (.obj hi) _

open SessionSpec in
theorem l_write {i : Nat} {p : Prog Unit} (h : Write True i p) : ∃ other : List Ptr, other.length ≤ 1 ∧ ∀ R : Map, R i i → (∀ x ∈ other, PRel R x x) → Both R Same p p := by
  cases h with
  | assign q => exact ⟨[q], le_rfl, fun R hi ho => both_loadBind (ho q (by simp)) fun _ => l_rewrite hi _⟩
  | saturateRgb x => exact ⟨[], by simp, fun R hi _ => l_byReference (fun _ _ _ h => l_saturate_in_rgb_space h _) hi⟩
  | saturateHsl x => exact ⟨[], by simp, fun R hi _ => l_byReference (fun _ _ _ h => l_saturate_in_hsl_space h _) hi⟩
  | luminateRgb x => exact ⟨[], by simp, fun R hi _ => l_byReference (fun _ _ _ h => l_luminate_in_rgb_space h _) hi⟩
  | luminateHsl x => exact ⟨[], by simp, fun R hi _ => l_byReference (fun _ _ _ h => l_luminate_in_hsl_space h _) hi⟩
  | _ => exact ⟨[], by simp, fun R hi _ => l_rewrite hi _⟩

end Loc
