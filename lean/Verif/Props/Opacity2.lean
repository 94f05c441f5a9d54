import Verif.ParLib

/-!
# C144: opacities influence nothing but opacities

Two memories are `Alike` if they hold the same objects at the same addresses and differ at most in opacities.  Compositing, the blend modes built on it, `alpha_multiply` and
`alpha_divide` are meant to look at opacities and are left out (`Call False`, `Write False`); `C144_needed` shows that they do.
-/

open Outcome Fl Prog ObjectSpec ParSpec SessionSpec

section
variable [FloatModel]

/-- C144: a constructor, conversion, adjustment, combination, distance, sum, difference, mixture, average or HCY blend mode called in two memories that differ only in opacities ends
the same way: the same pointers, numbers or exception; and the memories still differ only in opacities.  No other assumption: objects, pointers, parameters and rounding are arbitrary. -/
theorem C144_call {args : List Ptr} {α : Type} {p : Prog α} {res : α → List Ptr} {pr : Promise} (hp : Call False args α p res pr) (h g : Heap) (e : Alike h g) :
    (p h).1 = (p g).1 ∧ Alike (p h).2 (p g).2 := by
  obtain ⟨h1, h2⟩ := (Par.d_call hp).both h g e
  refine ⟨?_, h2⟩
  generalize (p h).1 = a at h1
  generalize (p g).1 = b at h1
  cases h1 with
  | ok e => rw [e]
  | throw e => rfl
  | ub => rfl

/-- C144 for the functions that write to an object: setters, gamma correction, assignment and the adjustments that take a reference. -/
theorem C144_write {i : Nat} {p : Prog Unit} (hp : Write False i p) (h g : Heap) (e : Alike h g) : (p h).1 = (p g).1 ∧ Alike (p h).2 (p g).2 := by
  obtain ⟨h1, h2⟩ := (Par.d_write hp).both h g e
  refine ⟨?_, h2⟩
  generalize (p h).1 = a at h1
  generalize (p g).1 = b at h1
  cases h1 with
  | ok e => rfl
  | throw e => rfl
  | ub => rfl

/-- C144 for the chromatic adaptations, whatever they compute from the components and the white points. -/
theorem C144_adapt (f : Adapt.Core) (a : Nat) (p : Ptr) (target : Option Nat) (h g : Heap) (e : Alike h g) :
    (Adapt.adapt f a p target h).1 = (Adapt.adapt f a p target g).1 ∧ Alike (Adapt.adapt f a p target h).2 (Adapt.adapt f a p target g).2 := by
  obtain ⟨h1, h2⟩ := (Par.d_adapt f a p target).both h g e
  refine ⟨?_, h2⟩
  generalize (Adapt.adapt f a p target h).1 = x at h1
  generalize (Adapt.adapt f a p target g).1 = y at h1
  cases h1 with
  | ok e => rw [e]
  | throw e => rfl
  | ub => rfl

/-- A constructor call with its four arguments. -/
noncomputable def ParSpec.created (t : ColorType) (vs : List Fl) (al : Fl) (sp : Option Nat) : Prog Ptr := do alloc (← lift (Color.construct t vs al sp))

/-- `alpha(a)` on the object at `i`. -/
noncomputable def ParSpec.faded (i : Nat) (a : Fl) : Prog Unit := rewrite i fun c => ok (c.setAlpha a)

/-- The memories of two runs of a program, of any length, that make the same calls except for the opacities they pass to constructors and to `alpha(float)`.  In between the program
may do anything with colour spaces, white points and gamma curves, the same in both runs. -/
inductive ParSpec.Twins : Heap → Heap → Prop
  | start (w : World) : Twins ⟨w, []⟩ ⟨w, []⟩
  | create (h g : Heap) (t : ColorType) (vs : List Fl) (al al' : Fl) (sp : Option Nat) : Twins h g → Twins (created t vs al sp h).2 (created t vs al' sp g).2
  | fade (h g : Heap) (i : Nat) (a a' : Fl) : Twins h g → Twins (faded i a h).2 (faded i a' g).2
  | call (h g : Heap) (args : List Ptr) (α : Type) (p : Prog α) (res : α → List Ptr) (pr : Promise) : Twins h g → Call False args α p res pr → Twins (p h).2 (p g).2
  | write (h g : Heap) (i : Nat) (p : Prog Unit) : Twins h g → Write False i p → Twins (p h).2 (p g).2
  | adapt (h g : Heap) (f : Adapt.Core) (a : Nat) (p : Ptr) (target : Option Nat) : Twins h g → Twins (Adapt.adapt f a p target h).2 (Adapt.adapt f a p target g).2
  | world (h g : Heap) (w : World) : Twins h g → Twins ⟨w, h.colors⟩ ⟨w, g.colors⟩

/-- C144 for whole programs: however many calls two runs make, as long as they differ only in the opacities they set, all their objects agree up to opacities, and every further call
returns the same pointers and numbers or throws the same exception. -/
theorem C144_runs (h g : Heap) (r : Twins h g) : Alike h g ∧
    ∀ (args : List Ptr) (α : Type) (p : Prog α) (res : α → List Ptr) (pr : Promise), Call False args α p res pr → (p h).1 = (p g).1 := by
  have key : Alike h g := by
    induction r with
    | start w => exact Par.Alike.refl _
    | create h g t vs al al' sp _ ih => exact (Par.both_allocSmap (Conv.smap_construct t vs al al' sp) h g ih).2
    | fade h g i a a' _ ih =>
      exact (Par.both_loadBind (S := Eq) (p := some i) (f := fun c => lift (ok (c.setAlpha a)) >>= store (some i)) (g := fun c => lift (ok (c.setAlpha a')) >>= store (some i))
        (fun c b => (Par.both_smap (o := ok (c.setAlpha a)) (o' := ok (Color.setAlpha { c with malpha := b } a')) rfl).bind fun _ _ e => Par.both_store _ (Par.eqv_eq e)) h g ih).2
    | call h g args α p res pr _ hp ih => exact (C144_call hp h g ih).2
    | write h g i p _ hp ih => exact (C144_write hp h g ih).2
    | adapt h g f a p target _ ih => exact (C144_adapt f a p target h g ih).2
    | world h g w _ ih => exact ⟨rfl, ih.count, ih.same⟩
  exact ⟨key, fun args α p res pr hp => (C144_call hp h g key).1⟩

end

/-- The exclusions of C144 are needed: `alpha_multiply` on a half transparent and on an opaque white leaves different components. -/
theorem C144_needed [FloatModel] [ExactModel] (w : World) :
    ∃ h g : Heap, h.world = w ∧ Alike h g ∧ ¬ Alike (rewrite 0 (fun c => ok c.alphaMultiply) h).2 (rewrite 0 (fun c => ok c.alphaMultiply) g).2 := by
  refine ⟨⟨w, [⟨.rgbDeep, .rgbDeep, [fin 1, fin 1, fin 1], fin 1, 1, 0, none⟩]⟩, ⟨w, [⟨.rgbDeep, .rgbDeep, [fin 1, fin 1, fin 1], fin 0, 1, 0, none⟩]⟩, rfl, ⟨rfl, rfl, fun i c d hc hd => ?_⟩, fun e => ?_⟩
  · rcases i with _ | i
    · simp at hc hd; subst hc hd; rfl
    · simp at hc
  · have := e.same 0 _ _ rfl rfl
    have hcomps := congrArg Color.comps this
    simp only [Color.alphaMultiply, List.map_cons, List.map_nil, List.cons.injEq] at hcomps
    have h0 := hcomps.1
    rw [mul_exact, mul_exact] at h0
    norm_num at h0

/-- A case of C144: a half transparent and an opaque red in otherwise equal memories; their complements and their CMC distances to a second colour. -/
example [FloatModel] (w : World) (a b : Fl) (d : Color) :
    let h : Heap := ⟨w, [⟨.rgbDeep, .rgbDeep, [1, 0, 0], a, 1, 0, none⟩, d]⟩
    let g : Heap := ⟨w, [⟨.rgbDeep, .rgbDeep, [1, 0, 0], b, 1, 0, none⟩, d]⟩
    (Combine.create_complimentary (some 0) h).1 = (Combine.create_complimentary (some 0) g).1 ∧
      (Distance.cmc_delta_e_lc84 1 1 (some 0) (some 1) h).1 = (Distance.cmc_delta_e_lc84 1 1 (some 0) (some 1) g).1 := by
  intro h g
  have e : Alike h g := ⟨rfl, rfl, fun i c d hc hd => by
    rcases i with _ | _ | i
    · simp [h, g] at hc hd; subst hc hd; rfl
    · simp [h, g] at hc hd; subst hc hd; rfl
    · simp [h] at hc⟩
  exact ⟨(C144_call (.complimentary _) h g e).1, (C144_call (.cmc 1 1 _ _) h g e).1⟩

/-- A case of `C144_runs`: create a colour, convert it to HSL and saturate it; once opaque, once with opacity 0.3. -/
example [FloatModel] (w : World) : let s (a : Fl) : Heap := (Adjust.saturate_in_hsl_space (some 1) 1 (Converter.convertTo (some 0) .hsl (created .rgbDeep [1, 0, 0] a none ⟨w, []⟩).2).2).2
    Alike (s 1) (s (lit 0.3)) :=
  (C144_runs _ _ (.call _ _ _ _ _ _ _ (.call _ _ _ _ _ _ _ (.create _ _ .rgbDeep [1, 0, 0] 1 (lit 0.3) none (.start w)) (.convertTo _ .hsl)) (.saturateHsl _ 1))).1
