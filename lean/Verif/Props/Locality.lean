import Verif.LocLib

/-!
# C145: a call depends only on the objects it is given

Objects of the library are shared through pointers, so a function could in principle be influenced by any object of the program.  It is not: what a call returns, and what it leaves in the
objects it was given, is determined by these objects (and the world of colour spaces, white points and gamma curves).  All other objects, their number and their addresses are irrelevant.
-/

open Outcome Fl Prog SessionSpec

namespace LocalitySpec

/-- The same world, and the same objects behind the given pointers. -/
structure Agree (args : List Ptr) (h g : Heap) : Prop where
  world : h.world = g.world
  same : ∀ i, some i ∈ args → ∃ c, h.colors[i]? = some c ∧ g.colors[i]? = some c

/-- The two pointers are null, or there are equal objects behind them. -/
def Equal (h g : Heap) (p q : Ptr) : Prop := (p = none ∧ q = none) ∨ ∃ i j c, p = some i ∧ q = some j ∧ h.colors[i]? = some c ∧ g.colors[j]? = some c

/-- How the two calls end: the same exception, both undefined, or normally with `V`. -/
inductive Ends {α : Type} (V : α → α → Prop) : Outcome α → Outcome α → Prop
  | ok {a b : α} : V a b → Ends V (Outcome.ok a) (Outcome.ok b)
  | throw (e : Exn) : Ends V (Outcome.throw e) (Outcome.throw e)
  | ub : Ends V Outcome.ub Outcome.ub

end LocalitySpec

open LocalitySpec

namespace Loc

/-- The given addresses, and nothing else. -/
def diag (args : List Ptr) : Map := fun i j => i = j ∧ some i ∈ args

theorem sim_diag {args : List Ptr} {h g : Heap} (e : Agree args h g) : Sim (diag args) h g := ⟨e.world, fun _ _ _ a b => a.1.symm.trans b.1, fun _ _ _ a b => a.1.trans b.1.symm, fun i j a => by
  obtain ⟨rfl, hi⟩ := a; exact e.same i hi⟩

theorem diag_rel {args : List Ptr} : ∀ x ∈ args, PRel (diag args) x x := fun x hx => by
  cases x with
  | none => exact .null
  | some i => exact .obj ⟨rfl, hx⟩

theorem agree_of {args : List Ptr} {R : Map} {h g : Heap} (l : diag args ≤ R) (s : Sim R h g) : Agree args h g := ⟨s.world, fun i hi => s.same i i (l i i ⟨rfl, hi⟩)⟩

theorem equal_of {R : Map} {h g : Heap} (s : Sim R h g) {p q : Ptr} (e : PRel R p q) : Equal h g p q := by
  cases e with
  | null => exact Or.inl ⟨rfl, rfl⟩
  | obj hr => obtain ⟨c, h1, h2⟩ := s.same _ _ hr; exact Or.inr ⟨_, _, c, rfl, rfl, h1, h2⟩

theorem ends_of {α : Type} {V W : α → α → Prop} {o o' : Outcome α} (e : End V o o') (hv : ∀ a b, V a b → W a b) : Ends W o o' := by
  cases e with
  | ok h => exact .ok (hv _ _ h)
  | throw e => exact .throw e
  | ub => exact .ub

end Loc

open Loc

section
variable [FloatModel]

/-- C145: take any call of the library, constructors, conversions, adjustments, combinations, compositing, blend modes, arithmetic and distances alike, and two memories that agree on the
objects the call is given.  The call ends the same way in both: the same exception, or results that point to equal objects (the same number, if the result is a number); a returned pointer
is one of the arguments in one memory exactly if it is in the other; and the objects the call was given are still the same in both. -/
theorem C145_call {args : List Ptr} {α : Type} {p : Prog α} {res : α → List Ptr} {pr : Promise} (hp : Call True args α p res pr) (h g : Heap) (e : Agree args h g) :
    Ends (fun a b => (res a = [] → a = b) ∧ List.Forall₂ (fun x y => Equal (p h).2 (p g).2 x y ∧ ∀ z ∈ args, x = z ↔ y = z) (res a) (res b)) (p h).1 (p g).1 ∧ Agree args (p h).2 (p g).2 := by
  obtain ⟨R, l, s, e'⟩ := l_call (R := diag args) hp diag_rel (diag args) h g le_rfl (sim_diag e)
  exact ⟨ends_of e' fun a b hr => ⟨hr.2, List.Forall₂.imp (fun x y hxy => ⟨equal_of s hxy, fun z hz => s.eq_iff hxy ((diag_rel z hz).mono l)⟩) hr.1⟩, agree_of l s⟩

/-- C145 for the functions that write to an object: what they write depends on that object and on at most one other (the right hand side of an assignment). -/
theorem C145_write {i : Nat} {p : Prog Unit} (hp : Write True i p) :
    ∃ other : List Ptr, other.length ≤ 1 ∧ ∀ h g : Heap, Agree (some i :: other) h g → Ends Eq (p h).1 (p g).1 ∧ Agree (some i :: other) (p h).2 (p g).2 := by
  obtain ⟨other, hl, ho⟩ := l_write hp
  refine ⟨other, hl, fun h g e => ?_⟩
  obtain ⟨R, l, s, e'⟩ := ho (diag (some i :: other)) ⟨rfl, by simp⟩ (fun x hx => diag_rel x (by simp [hx])) _ h g le_rfl (sim_diag e)
  exact ⟨ends_of e' fun _ _ h => h, agree_of l s⟩

/-- C145 for the chromatic adaptations, whatever they compute. -/
theorem C145_adapt (f : Adapt.Core) (a : Nat) (p : Ptr) (target : Option Nat) (h g : Heap) (e : Agree [p] h g) :
    Ends (Equal (Adapt.adapt f a p target h).2 (Adapt.adapt f a p target g).2) (Adapt.adapt f a p target h).1 (Adapt.adapt f a p target g).1 ∧
      Agree [p] (Adapt.adapt f a p target h).2 (Adapt.adapt f a p target g).2 := by
  obtain ⟨R, l, s, e'⟩ := l_adapt (R := diag [p]) f a (diag_rel p (by simp)) target _ h g le_rfl (sim_diag e)
  exact ⟨ends_of e' fun _ _ hr => equal_of s hr, agree_of l s⟩

/-- Addresses do not matter either: an object converted at one place of one memory and an equal object at another place of another memory give equal results. -/
theorem C145_convert_anywhere (i j : Nat) (c : Color) (t : ColorType) (h g : Heap) (hw : h.world = g.world) (hi : h.colors[i]? = some c) (hj : g.colors[j]? = some c) :
    Ends (Equal (Converter.convertTo (some i) t h).2 (Converter.convertTo (some j) t g).2) (Converter.convertTo (some i) t h).1 (Converter.convertTo (some j) t g).1 := by
  obtain ⟨R, l, s, e'⟩ := l_convertTo (R := fun a b => a = i ∧ b = j) (p := some i) (q := some j) t (.obj ⟨rfl, rfl⟩) _ h g le_rfl
    ⟨hw, fun _ _ _ a b => a.2.trans b.2.symm, fun _ _ _ a b => a.1.trans b.1.symm, fun _ _ a => ⟨c, by rw [a.1]; exact hi, by rw [a.2]; exact hj⟩⟩
  exact ends_of e' fun _ _ hr => equal_of s hr

/-- The same for two objects: compositing and blending. -/
theorem C145_blend_anywhere (us ud ub : Bool) (f : Color → Color → Nat → Fl → Fl → Fl) (i j i' j' : Nat) (c d : Color) (h g : Heap) (hw : h.world = g.world) (hn : i = i' ↔ j = j')
    (hi : h.colors[i]? = some c) (hj : g.colors[j]? = some c) (hi' : h.colors[i']? = some d) (hj' : g.colors[j']? = some d) :
    Ends (Equal (Blend.operator us ud ub f (some i) (some i') h).2 (Blend.operator us ud ub f (some j) (some j') g).2) (Blend.operator us ud ub f (some i) (some i') h).1
      (Blend.operator us ud ub f (some j) (some j') g).1 := by
  obtain ⟨R, l, s, e'⟩ := l_operator (R := fun a b => (a = i ∧ b = j) ∨ (a = i' ∧ b = j')) (p := some i) (q := some j) (p' := some i') (q' := some j') us ud ub f (.obj (Or.inl ⟨rfl, rfl⟩))
    (.obj (Or.inr ⟨rfl, rfl⟩)) _ h g le_rfl
    ⟨hw, fun x y y' a b => by
      rcases a with ⟨rfl, rfl⟩ | ⟨rfl, rfl⟩ <;> rcases b with ⟨h1, h2⟩ | ⟨h1, h2⟩
      · exact h2.symm
      · exact (hn.mp h1).trans h2.symm
      · exact (hn.mp h1.symm).symm.trans h2.symm
      · exact h2.symm, fun x y y' a b => by
      rcases a with ⟨rfl, rfl⟩ | ⟨rfl, rfl⟩ <;> rcases b with ⟨h1, h2⟩ | ⟨h1, h2⟩
      · exact h1.symm
      · exact (hn.mpr h2).trans h1.symm
      · exact (hn.mpr h2.symm).symm.trans h1.symm
      · exact h1.symm, fun _ _ a => by
      rcases a with ⟨rfl, rfl⟩ | ⟨rfl, rfl⟩
      · exact ⟨c, hi, hj⟩
      · exact ⟨d, hi', hj'⟩⟩
  exact ends_of e' fun _ _ hr => equal_of s hr

/-- Distances, at any addresses. -/
theorem C145_distance_anywhere (l k : Fl) (i j i' j' : Nat) (c d : Color) (h g : Heap) (hw : h.world = g.world) (hn : i ≠ i') (hm : j ≠ j')
    (hi : h.colors[i]? = some c) (hj : g.colors[j]? = some c) (hi' : h.colors[i']? = some d) (hj' : g.colors[j']? = some d) :
    (Distance.cmc_delta_e_lc84 l k (some i) (some i') h).1 = (Distance.cmc_delta_e_lc84 l k (some j) (some j') g).1 ∧
    (Distance.cielab_delta_e_cie76 (some i) (some i') h).1 = (Distance.cielab_delta_e_cie76 (some j) (some j') g).1 ∧
    (Distance.euclidean_distance_weighted (some i) (some i') h).1 = (Distance.euclidean_distance_weighted (some j) (some j') g).1 := by
  have key : ∀ (conv : Ptr → Prog Ptr) [Local conv] (f : Color → Color → Outcome Fl), (Distance.between conv f (some i) (some i') h).1 = (Distance.between conv f (some j) (some j') g).1 := fun conv _ f => by
    obtain ⟨R, l, s, e'⟩ := l_between (R := fun a b => (a = i ∧ b = j) ∨ (a = i' ∧ b = j')) (conv := conv) (p := some i) (q := some j) (p' := some i') (q' := some j') f (.obj (Or.inl ⟨rfl, rfl⟩))
      (.obj (Or.inr ⟨rfl, rfl⟩)) _ h g le_rfl
      ⟨hw, fun x y y' a b => by
        rcases a with ⟨rfl, rfl⟩ | ⟨rfl, rfl⟩ <;> rcases b with ⟨h1, h2⟩ | ⟨h1, h2⟩
        · exact h2.symm
        · exact (hn h1).elim
        · exact (hn h1.symm).elim
        · exact h2.symm, fun x y y' a b => by
        rcases a with ⟨rfl, rfl⟩ | ⟨rfl, rfl⟩ <;> rcases b with ⟨h1, h2⟩ | ⟨h1, h2⟩
        · exact h1.symm
        · exact (hm h2).elim
        · exact (hm h2.symm).elim
        · exact h1.symm, fun _ _ a => by
        rcases a with ⟨rfl, rfl⟩ | ⟨rfl, rfl⟩
        · exact ⟨c, hi, hj⟩
        · exact ⟨d, hi', hj'⟩⟩
    generalize (Distance.between conv f (some i) (some i') h).1 = x at e'
    generalize (Distance.between conv f (some j) (some j') g).1 = y at e'
    cases e' with
    | ok e => rw [show _ = _ from e]
    | throw e => rfl
    | ub => rfl
  exact ⟨key _ _, key _ _, key _ _⟩

end

/-- A case of C145: the complement of the object at address 0, in a memory with one object and in a memory with two. -/
example [FloatModel] (w : World) (c d : Color) : let h : Heap := ⟨w, [c]⟩; let g : Heap := ⟨w, [c, d]⟩
    Ends (fun a b => Equal (Combine.create_complimentary (some 0) h).2 (Combine.create_complimentary (some 0) g).2 a b) (Combine.create_complimentary (some 0) h).1
      (Combine.create_complimentary (some 0) g).1 := by
  intro h g
  have := (C145_call (.complimentary (some 0)) h g ⟨rfl, fun i hi => by simp at hi; subst hi; exact ⟨c, rfl, rfl⟩⟩).1
  generalize (Combine.create_complimentary (some 0) h).1 = x at this ⊢
  generalize (Combine.create_complimentary (some 0) g).1 = y at this ⊢
  cases this with
  | ok h => obtain ⟨_, h⟩ := h; cases h with | cons h _ => exact .ok h.1
  | throw e => exact .throw e
  | ub => exact .ub

/-- A case of `C145_distance_anywhere`: the two objects swapped with a third one in between. -/
example [FloatModel] (w : World) (c d x : Color) : (Distance.cielab_delta_e_cie76 (some 0) (some 1) ⟨w, [c, d]⟩).1 = (Distance.cielab_delta_e_cie76 (some 2) (some 0) ⟨w, [d, x, c]⟩).1 :=
  (C145_distance_anywhere 1 1 0 2 1 0 c d ⟨w, [c, d]⟩ ⟨w, [d, x, c]⟩ rfl (by decide) (by decide) rfl rfl rfl rfl).2.1
