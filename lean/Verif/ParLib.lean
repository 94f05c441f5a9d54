import Verif.ParConv
import Verif.SessionSpec
import Verif.Props.Opacity

/-! The rules of `Verif/Par.lean` applied to the functions of the library that are not conversions. -/

open Outcome Fl Prog ParSpec

namespace Par
variable [FloatModel]

instance d_dispatcher (t : ColorType) (p : Ptr) : Dull (Conv.dispatcher t p) := by
  cases t <;> simp only [Conv.dispatcher] <;> infer_instance

instance d_direct (s t : ColorType) (p : Ptr) : Dull (Conv.direct s t p) := by
  cases s <;> cases t <;> simp only [Conv.direct, Conv.direct_rgb_true, Conv.direct_rgb_deep, Conv.direct_grey_true, Conv.direct_grey_deep, Conv.direct_cmyk, Conv.direct_hsi,
    Conv.direct_hsv, Conv.direct_hsl, Conv.direct_hcy, Conv.direct_xyz, Conv.direct_xyy, Conv.direct_cieluv, Conv.direct_lab, Conv.direct_lch_ab, Conv.direct_lch_uv] <;> infer_instance

/-! ### Adjustments -/

/-- A new object is made and converted. -/
theorem both_made {t : ColorType} {vs : List Fl} {al al' : Fl} {sp : Option Nat} {f g : Ptr → Prog Ptr} (h : ∀ q, Both Eq (f q) (g q)) :
    Both Eq (lift (Color.construct t vs al sp) >>= fun n => alloc n >>= f) (lift (Color.construct t vs al' sp) >>= fun n => alloc n >>= g) :=
  both_allocSmapBind (Conv.smap_construct t vs al al' sp) h

instance d_saturate_in_rgb_space (p : Ptr) (x : Fl) : Dull (Adjust.saturate_in_rgb_space p x) :=
  ⟨Both.bindDull fun _ => both_loadBind fun _ _ => both_liftBind _ fun _ => both_liftBind _ fun _ => both_liftBind _ fun _ => both_loadBind fun _ _ => both_made fun _ => Dull.both⟩

instance d_luminate_in_rgb_space (p : Ptr) (x : Fl) : Dull (Adjust.luminate_in_rgb_space p x) :=
  ⟨Both.bindDull fun _ => both_loadBind fun _ _ => both_liftBind _ fun _ => both_liftBind _ fun _ => both_liftBind _ fun _ => both_loadBind fun _ _ => both_made fun _ => Dull.both⟩

instance d_saturate_in_hsl_space (p : Ptr) (x : Fl) : Dull (Adjust.saturate_in_hsl_space p x) := ⟨by
  rw [Adjust.saturate_in_hsl_space]
  split
  · exact Dull.both
  · exact Both.bindDull fun q => both_loadBind fun c a => both_liftBind _ fun s => (both_smap (Conv.smap_setChannel (c := c) (d := { c with malpha := a }) 1 _ rfl)).bind fun c d e =>
      (both_store q (eqv_eq e)).bindEq' fun _ => both_loadBind fun _ _ => Dull.both⟩

instance d_luminate_in_hsl_space (p : Ptr) (x : Fl) : Dull (Adjust.luminate_in_hsl_space p x) := ⟨by
  rw [Adjust.luminate_in_hsl_space]
  split
  · exact Dull.both
  · exact Both.bindDull fun q => both_loadBind fun c a => both_liftBind _ fun s => (both_smap (Conv.smap_setChannel (c := c) (d := { c with malpha := a }) 2 _ rfl)).bind fun c d e =>
      (both_store q (eqv_eq e)).bindEq' fun _ => both_loadBind fun _ _ => Dull.both⟩

theorem d_byReference {f : Ptr → Fl → Prog Ptr} (hf : ∀ p x, Dull (f p x)) (i : Nat) (x : Fl) : Dull (Adjust.byReference f i x) :=
  ⟨(hf _ _).both.bindEq fun _ => both_loadBind fun _ _ => both_loadBind fun _ _ => both_store _ rfl⟩

/-! ### Combinations -/

instance d_turned (p q : Ptr) (f : Fl → Fl) : Dull (Combine.turned p q f) :=
  ⟨both_loadBind fun _ _ => both_liftBind _ fun _ => both_liftBind _ fun _ => both_liftBind _ fun _ => both_loadBind fun _ _ => both_made fun _ => Dull.both⟩

instance d_turns (p q : Ptr) (x : Fl) (n i : Nat) : Dull (Combine.turns p q x n i) := by
  induction n generalizing i with
  | zero => exact ⟨both_pure rfl⟩
  | succ n ih => exact dull_bind

instance d_create_combination (p : Ptr) (n : Int) : Dull (Combine.create_combination p n) := dull_ite

instance d_create_complimentary (p : Ptr) : Dull (Combine.create_complimentary p) := ⟨Both.bindDull fun v => by split <;> exact Dull.both⟩

instance d_create_analogous (p : Ptr) (x : Fl) : Dull (Combine.create_analogous p x) := by
  unfold Combine.create_analogous
  infer_instance

instance d_renewed (p q : Ptr) : Dull (Combine.renewed p q) :=
  ⟨both_loadBind fun _ _ => both_liftBind _ fun _ => both_liftBind _ fun _ => both_liftBind _ fun _ => both_loadBind fun _ _ => both_allocSmap (Conv.smap_construct _ _ _ _ _)⟩

instance d_shade (p : Ptr) (t : ColorType) (mode : Int) (x : Fl) (last : Ptr) : Dull (Combine.shade p t mode x last) := by
  unfold Combine.shade
  infer_instance

instance d_shades (p : Ptr) (t : ColorType) (mode : Int) (x : Fl) (n : Nat) (last : Ptr) : Dull (Combine.shades p t mode x n last) := by
  induction n generalizing last with
  | zero => exact ⟨both_pure rfl⟩
  | succ n ih => exact dull_bind

instance d_create_monochromatic (p : Ptr) (mode : Int) (x : Fl) (n : Int) : Dull (Combine.create_monochromatic p mode x n) := ⟨by
  rw [Combine.create_monochromatic]
  split
  · exact both_throw
  · exact both_loadBind fun _ _ => Dull.both⟩

instance d_create_complimentary_split (p : Ptr) (x : Fl) : Dull (Combine.create_complimentary_split p x) :=
  ⟨Both.bindDull fun _ => Both.bindDull fun _ => Both.bindDull fun v => by split <;> exact Dull.both⟩

/-! ### Chromatic adaptation -/

omit [FloatModel] in
theorem sameEnd_refl {α : Type} (o : Outcome α) : SameEnd Eq o o := by
  cases o with
  | ok a => exact .ok rfl
  | throw e => exact .throw e
  | ub => exact .ub

instance d_newDefinition (a : Nat) (old target : Option Nat) : Dull (Adapt.newDefinition a old target) := ⟨fun h g e => by
  have hw := e.world
  unfold Adapt.newDefinition
  rw [← hw]
  split
  · exact ⟨.ub, e⟩
  · exact ⟨.throw _, e⟩
  · split
    · exact ⟨.ub, e⟩
    · exact ⟨.throw _, e⟩
    · refine ⟨?_, ⟨rfl, e.count, e.same⟩⟩
      exact sameEnd_refl _⟩

instance d_adapt (f : Adapt.Core) (a : Nat) (p : Ptr) (target : Option Nat) : Dull (Adapt.adapt f a p target) :=
  ⟨both_loadBind fun c al => both_worldBind fun w => both_liftBind _ fun wp => by
    split
    · exact Dull.both
    · exact Both.bindDull fun q => both_loadBind fun x _ => both_loadBind fun c _ => both_worldBind fun w => both_liftBind _ fun _ => both_liftBind _ fun _ => both_liftBind _ fun _ =>
        both_liftBind _ fun _ => Both.bindDull fun _ => both_liftBind _ fun _ => both_liftBind _ fun _ => both_liftBind _ fun _ => both_made fun _ => Dull.both⟩

/-! ### Blend modes that work in HCY -/

instance d_hue (us ud : Bool) (p q : Ptr) : Dull (ColorBlend.hue us ud p q) :=
  ⟨Both.bindDull fun _ => both_loadBind fun s a => Both.bindDull fun _ => both_loadBind fun d b => both_allocSmapBind (Conv.smap_bind _ fun _ => Conv.smap_bind _ fun _ => Conv.smap_bind _ fun _ => Conv.smap_construct _ _ _ _ _) fun _ => both_loadBind fun _ _ => Dull.both⟩

instance d_saturation (us ud : Bool) (p q : Ptr) : Dull (ColorBlend.saturation us ud p q) :=
  ⟨Both.bindDull fun _ => both_loadBind fun s a => Both.bindDull fun _ => both_loadBind fun d b => both_allocSmapBind (Conv.smap_bind _ fun _ => Conv.smap_bind _ fun _ => Conv.smap_bind _ fun _ => Conv.smap_construct _ _ _ _ _) fun _ => both_loadBind fun _ _ => Dull.both⟩

instance d_color (us ud : Bool) (p q : Ptr) : Dull (ColorBlend.color us ud p q) :=
  ⟨Both.bindDull fun _ => both_loadBind fun s a => Both.bindDull fun _ => both_loadBind fun d b => both_allocSmapBind (Conv.smap_bind _ fun _ => Conv.smap_bind _ fun _ => Conv.smap_bind _ fun _ => Conv.smap_construct _ _ _ _ _) fun _ => both_loadBind fun _ _ => Dull.both⟩

instance d_luminosity (us ud : Bool) (p q : Ptr) : Dull (ColorBlend.luminosity us ud p q) :=
  ⟨Both.bindDull fun _ => both_loadBind fun s a => Both.bindDull fun _ => both_loadBind fun d b => both_allocSmapBind (Conv.smap_bind _ fun _ => Conv.smap_bind _ fun _ => Conv.smap_bind _ fun _ => Conv.smap_construct _ _ _ _ _) fun _ => both_loadBind fun _ _ => Dull.both⟩

/-! ### Distances -/

theorem d_between {conv : Ptr → Prog Ptr} (hc : ∀ p, Dull (conv p)) {f : Color → Color → Outcome Fl} (hf : Distance.Reads f) (p q : Ptr) : Dull (Distance.between conv f p q) := ⟨by
  rw [Distance.between]
  split
  · exact Dull.both
  · refine Both.bindDull fun q1 => Both.bindDull fun q2 => ?_
    split
    · exact Dull.both
    · refine both_loadBind fun a x => both_loadBind fun b y => ?_
      rw [hf { a with malpha := x } { b with malpha := y } a b rfl rfl]
      exact both_lift _⟩

instance d_squared (p q : Ptr) (t : ColorType) : Dull (Distance.euclidean_distance_squared p q t) := ⟨by
  rw [Distance.euclidean_distance_squared]
  split
  · exact Dull.both
  · split
    · exact (d_between (fun _ => inferInstance) Distance.reads_squares p q).both
    · exact (d_between (fun _ => inferInstance) Distance.reads_squares p q).both⟩

instance d_euclidean (p q : Ptr) (t : ColorType) : Dull (Distance.euclidean_distance p q t) := by
  unfold Distance.euclidean_distance
  infer_instance

instance d_weighted (p q : Ptr) : Dull (Distance.euclidean_distance_weighted p q) := d_between (fun _ => inferInstance) Distance.reads_weighted p q

instance d_cie76 (p q : Ptr) : Dull (Distance.cielab_delta_e_cie76 p q) := d_between (fun _ => inferInstance) Distance.reads_cie76 p q

instance d_cie94 (kL k1 k2 kC kH : Fl) (p q : Ptr) : Dull (Distance.cielab_delta_e_cie94 kL k1 k2 kC kH p q) := d_between (fun _ => inferInstance) (Distance.reads_cie94 _ _ _ _ _) p q

instance d_cie00 (kL k1 k2 kC kH : Fl) (p q : Ptr) : Dull (Distance.cielab_delta_e_cie00 kL k1 k2 kC kH p q) := d_between (fun _ => inferInstance) (Distance.reads_cie00 _ _ _ _ _) p q

instance d_cmc (l c : Fl) (p q : Ptr) : Dull (Distance.cmc_delta_e_lc84 l c p q) := d_between (fun _ => inferInstance) (Distance.reads_cmc _ _) p q

/-! ### Arithmetic -/

theorem zip_reads (f : Fl → Fl → Fl) (a b : Color) (x y : Fl) (n i : Nat) : Calc.zip f { a with malpha := x } { b with malpha := y } n i = Calc.zip f a b n i := by
  induction n generalizing i with
  | zero => rfl
  | succ n ih => simp only [Calc.zip, ih]; rfl

theorem addVal_reads (t : ColorType) (w1 w2 : Fl) (ia : Bool) (a b : Color) (x y : Fl) :
    Conv.smap (Calc.addVal t w1 w2 ia a b) = Conv.smap (Calc.addVal t w1 w2 ia { a with malpha := x } { b with malpha := y }) := by
  cases t <;> simp only [Calc.addVal, zip_reads]
  all_goals repeat' first
    | with_reducible rfl
    | with_reducible exact Conv.smap_construct _ _ _ _ _
    | refine Conv.smap_bind _ fun _ => ?_

theorem subVal_reads (t : ColorType) (w : Fl) (ia : Bool) (a b : Color) (x y : Fl) :
    Conv.smap (Calc.subVal t w ia a b) = Conv.smap (Calc.subVal t w ia { a with malpha := x } { b with malpha := y }) := by
  cases t <;> simp only [Calc.subVal, zip_reads]
  all_goals repeat' first
    | with_reducible rfl
    | with_reducible exact Conv.smap_construct _ _ _ _ _
    | refine Conv.smap_bind _ fun _ => ?_

instance d_checked {α : Type} (w : Fl) (p : Prog α) [Dull p] : Dull (Calc.checked w p) := dull_ite
instance d_checkedPositive {α : Type} (w : Fl) (p : Prog α) [Dull p] : Dull (Calc.checkedPositive w p) := dull_ite

instance d_via {conv back : Ptr → Prog Ptr} {f : Ptr → Ptr → Prog Ptr} [∀ p, Dull (conv p)] [∀ p, Dull (back p)] [∀ p q, Dull (f p q)] (p q : Ptr) : Dull (Calc.via conv back f p q) := by
  unfold Calc.via
  infer_instance

instance d_addOwn (t : ColorType) (w1 w2 : Fl) (ia : Bool) (p q : Ptr) : Dull (Calc.addOwn t w1 w2 ia p q) := by
  have : Dull (Calc.binary (Calc.addVal t w1 w2 ia) p q) := ⟨both_loadBind fun a x => both_loadBind fun b y => both_allocSmap (addVal_reads t w1 w2 ia a b x y)⟩
  unfold Calc.addOwn
  infer_instance

instance d_subOwn (t : ColorType) (w : Fl) (ia : Bool) (p q : Ptr) : Dull (Calc.subOwn t w ia p q) := by
  have : Dull (Calc.binary (Calc.subVal t w ia) p q) := ⟨both_loadBind fun a x => both_loadBind fun b y => both_allocSmap (subVal_reads t w ia a b x y)⟩
  unfold Calc.subOwn
  infer_instance

instance d_addOf (t : ColorType) (w1 w2 : Fl) (ia : Bool) (p q : Ptr) : Dull (Calc.addOf t w1 w2 ia p q) := by
  cases t <;> simp only [Calc.addOf] <;> infer_instance

instance d_subOf (t : ColorType) (w : Fl) (ia : Bool) (p q : Ptr) : Dull (Calc.subOf t w ia p q) := by
  cases t <;> simp only [Calc.subOf] <;> infer_instance

instance d_mixOf (t : ColorType) (w : Fl) (ia : Bool) (p q : Ptr) : Dull (Calc.mixOf t w ia p q) := by
  cases t <;> simp only [Calc.mixOf] <;> infer_instance

instance d_add (w1 w2 : Fl) (ia : Bool) (p q : Ptr) : Dull (Calc.add w1 w2 ia p q) := by
  unfold Calc.add Calc.checked
  refine ⟨?_⟩
  split
  · exact both_throw
  · split
    · exact both_throw
    · exact both_loadBind fun c a => by
        simp only []
        split <;> exact Dull.both

instance d_mix (w : Fl) (ia : Bool) (p q : Ptr) : Dull (Calc.mix w ia p q) := by
  unfold Calc.mix Calc.checkedPositive
  refine ⟨?_⟩
  split
  · exact both_throw
  · exact both_loadBind fun c a => by
      simp only []
      split <;> exact Dull.both

instance d_subtract (w : Fl) (ia : Bool) (p q : Ptr) : Dull (Calc.subtract w ia p q) := by
  unfold Calc.subtract Calc.checkedPositive
  refine ⟨?_⟩
  split
  · exact both_throw
  · exact both_loadBind fun c a => by
      simp only []
      split <;> exact Dull.both

/-! ### Averages -/

theorem both_loadAll (ps : List Ptr) : Both (List.Forall₂ Eqv) (Calc.loadAll ps) (Calc.loadAll ps) := by
  induction ps with
  | nil => exact both_pure .nil
  | cons p ps ih => exact both_loadBind fun c a => ih.bind fun cs ds e => both_pure (.cons rfl e)

theorem accumulate_reads (sums : List Fl) {c d : Color} (e : Eqv c d) (i : Nat) : Calc.accumulate sums c i = Calc.accumulate sums d i := by
  rw [eqv_eq e]
  induction sums generalizing i with
  | nil => rfl
  | cons s ss ih => simp only [Calc.accumulate, ih]; rfl

theorem loop_reads (t : ColorType) (ia : Bool) {f g : Color} {cs ds : List Color} (e : List.Forall₂ Eqv cs ds) (sums : List Fl) (al al' : Fl) :
    (Calc.averageLoop t ia f cs sums al >>= fun r => ok r.1) = (Calc.averageLoop t ia g ds sums al' >>= fun r => ok r.1) := by
  induction e generalizing sums al al' with
  | nil => rfl
  | cons h _ ih =>
    simp only [Calc.averageLoop, accumulate_reads sums h]
    cases Calc.accumulate sums _ 0 with
    | ok s => exact ih s _ _
    | throw e => rfl
    | ub => rfl

theorem averageVal_reads (t : ColorType) (ia : Bool) {cs ds : List Color} (e : List.Forall₂ Eqv cs ds) : Conv.smap (Calc.averageVal t ia cs) = Conv.smap (Calc.averageVal t ia ds) := by
  cases e with
  | nil => rfl
  | @cons c d cs ds h hs =>
    have hl := loop_reads t ia (f := c) (g := d) (List.Forall₂.cons h hs) (List.replicate (Color.count t) 0) 0 0
    have hn : (c :: cs).length = (d :: ds).length := (List.Forall₂.cons h hs).length_eq
    have hsp : d.space = c.space := by rw [eqv_eq h]
    simp only [Calc.averageVal, hsp, hn]
    cases h1 : Calc.averageLoop t ia c (c :: cs) (List.replicate (Color.count t) 0) 0 with
    | ok r =>
      cases h2 : Calc.averageLoop t ia d (d :: ds) (List.replicate (Color.count t) 0) 0 with
      | ok r' =>
        rw [h1, h2] at hl
        have : r.1 = r'.1 := ok_inj.mp hl
        obtain ⟨a, b⟩ := r
        obtain ⟨a', b'⟩ := r'
        obtain rfl : a = a' := this
        exact Conv.smap_construct _ _ _ _ _
      | throw e => rw [h1, h2] at hl; cases hl
      | ub => rw [h1, h2] at hl; cases hl
    | throw e =>
      cases h2 : Calc.averageLoop t ia d (d :: ds) (List.replicate (Color.count t) 0) 0 with
      | ok r' => rw [h1, h2] at hl; cases hl
      | throw e => rw [h1, h2] at hl; cases hl; rfl
      | ub => rw [h1, h2] at hl; cases hl
    | ub =>
      cases h2 : Calc.averageLoop t ia d (d :: ds) (List.replicate (Color.count t) 0) 0 with
      | ok r' => rw [h1, h2] at hl; cases hl
      | throw e => rw [h1, h2] at hl; cases hl
      | ub => rfl

instance d_average (t : ColorType) (ia : Bool) (ps : List Ptr) : Dull (Calc.average t ia ps) := ⟨by
  rw [Calc.average]
  split
  · exact both_throw
  · exact (both_loadAll ps).bind fun cs ds e => both_allocSmap (averageVal_reads t ia e)⟩

/-! ### Objects -/

theorem d_copy (p : Ptr) : Dull (load p >>= fun c => alloc c.copy) := ⟨both_loadBind fun _ _ => both_alloc rfl⟩

theorem d_fromBase (t : ColorType) (p : Ptr) : Dull (load p >>= fun c => lift (Color.fromBase t c) >>= alloc) := ⟨both_loadBind fun c a => both_allocSmap (by
  simp only [Color.fromBase]
  split <;> rfl)⟩

theorem d_made (o : Outcome Color) : Dull (lift o >>= alloc) := ⟨both_allocSmap rfl⟩

/-- Writing to an object something that differs only in its opacity. -/
theorem d_rewrite (i : Nat) {g : Color → Outcome Color} (hg : ∀ c a, Conv.smap (g c) = Conv.smap (g { c with malpha := a })) : Dull (SessionSpec.rewrite i g) :=
  ⟨both_loadBind fun c a => (both_smap (hg c a)).bind fun _ _ e => both_store _ (eqv_eq e)⟩

open SessionSpec in
theorem d_call {args : List Ptr} {α : Type} {p : Prog α} {res : α → List Ptr} {pr : Promise} (h : Call False args α p res pr) : Dull p := by
  cases h <;> first
    | infer_instance
    | exact d_create_combination _ _
    | exact d_made _
    | exact d_copy _
    | exact d_fromBase _ _
    | contradiction

open SessionSpec in
theorem d_write {i : Nat} {p : Prog Unit} (h : Write False i p) : Dull p := by
  cases h with
  | setChannel k v => exact d_rewrite _ fun c a => Conv.smap_setChannel (c := c) (d := { c with malpha := a }) _ _ rfl
  | setComponent k v => exact d_rewrite _ fun c a => Conv.smap_setLim (c := c) (d := { c with malpha := a }) _ _ _ _ rfl
  | setAlpha a => exact d_rewrite _ fun c a => rfl
  | setSpace sp => exact d_rewrite _ fun c a => rfl
  | gamma g => exact d_rewrite _ fun c a => rfl
  | alphaMultiply h => exact h.elim
  | alphaDivide h => exact h.elim
  | assign q => exact ⟨both_loadBind fun o a => both_loadBind fun c b => (both_smap (by simp only []; split <;> rfl)).bind fun _ _ e => both_store _ (eqv_eq e)⟩
  | saturateRgb x => exact d_byReference (fun _ _ => inferInstance) _ x
  | saturateHsl x => exact d_byReference (fun _ _ => inferInstance) _ x
  | luminateRgb x => exact d_byReference (fun _ _ => inferInstance) _ x
  | luminateHsl x => exact d_byReference (fun _ _ => inferInstance) _ x

end Par
