import Verif.ConvBlind
import Verif.TameLib

/-! Helper definitions and rules: two runs of a program in memories that differ in nothing but the opacities of the objects. -/

open Outcome Fl Prog

namespace ParSpec

/-- The two memories hold the same objects up to their opacities. -/
structure Alike (h g : Heap) : Prop where
  world : h.world = g.world
  count : h.colors.length = g.colors.length
  same : ∀ (i : Nat) c d, h.colors[i]? = some c → g.colors[i]? = some d → d = { c with malpha := d.malpha }

/-- The two calls end the same way, with results related by `R`. -/
inductive SameEnd {α : Type} (R : α → α → Prop) : Outcome α → Outcome α → Prop
  | ok {a b : α} : R a b → SameEnd R (Outcome.ok a) (Outcome.ok b)
  | throw (e : Exn) : SameEnd R (Outcome.throw e) (Outcome.throw e)
  | ub : SameEnd R Outcome.ub Outcome.ub

end ParSpec

open ParSpec

namespace Par

/-- Run in memories that differ only in opacities, the two programs end the same way and leave memories that differ only in opacities. -/
def Both {α : Type} (R : α → α → Prop) (p q : Prog α) : Prop := ∀ h g, Alike h g → SameEnd R (p h).1 (q g).1 ∧ Alike (p h).2 (q g).2

/-- The program does not read opacities except to write opacities. -/
class Dull {α : Type} (p : Prog α) : Prop where
  both : Both Eq p p

section
variable {α β : Type} {R : α → α → Prop} {S : β → β → Prop}

theorem Alike.refl (h : Heap) : Alike h h := ⟨rfl, rfl, fun i c d hc hd => by rw [hc] at hd; cases hd; rfl⟩

theorem Both.bind {p q : Prog α} {f g : α → Prog β} (hp : Both R p q) (hf : ∀ a b, R a b → Both S (f a) (g b)) : Both S (p >>= f) (q >>= g) := by
  intro h k e
  obtain ⟨h1, h2⟩ := hp h k e
  rw [bind_def, bind_def]
  rcases ep : p h with ⟨o, h'⟩
  rcases eq : q k with ⟨o', k'⟩
  rw [ep, eq] at h1 h2
  cases h1 with
  | ok hr => exact hf _ _ hr h' k' h2
  | throw e => exact ⟨.throw e, h2⟩
  | ub => exact ⟨.ub, h2⟩

theorem Both.bindEq {p : Prog α} {f g : α → Prog β} (hp : Both Eq p p) (hf : ∀ a, Both S (f a) (g a)) : Both S (p >>= f) (p >>= g) :=
  hp.bind fun a b e => e ▸ hf a

theorem Both.bindEq' {p q : Prog α} {f g : α → Prog β} (hp : Both Eq p q) (hf : ∀ a, Both S (f a) (g a)) : Both S (p >>= f) (q >>= g) :=
  hp.bind fun a b e => e ▸ hf a

theorem Both.bindDull {p : Prog α} [hp : Dull p] {f g : α → Prog β} (hf : ∀ a, Both S (f a) (g a)) : Both S (p >>= f) (p >>= g) := hp.both.bindEq hf

theorem both_pure {a b : α} (h : R a b) : Both R (pure a) (pure b) := fun _ _ e => ⟨.ok h, e⟩

theorem both_lift (o : Outcome α) : Both Eq (lift o) (lift o) := fun _ _ e => ⟨by cases o <;> constructor; rfl, e⟩

theorem both_ub : Both R (lift ub) (lift ub) := fun _ _ e => ⟨.ub, e⟩

theorem both_throw : Both R (throwNewInvalid : Prog α) throwNewInvalid := fun _ _ e => ⟨.throw _, e⟩

theorem both_liftBind (o : Outcome α) {f g : α → Prog β} (hf : ∀ a, Both S (f a) (g a)) : Both S (lift o >>= f) (lift o >>= g) := (both_lift o).bindEq hf

theorem both_worldBind {f g : World → Prog β} (hf : ∀ w, Both S (f w) (g w)) : Both S (world >>= f) (world >>= g) := fun h k e => by
  have := hf h.world h k e
  rw [bind_def, bind_def]
  simp only [world, ← e.world]
  exact this

theorem both_loadBind {p : Ptr} {f g : Color → Prog β} (hf : ∀ c a, Both S (f c) (g { c with malpha := a })) : Both S (load p >>= f) (load p >>= g) := fun h k e => by
  rw [bind_def, bind_def]
  cases p with
  | none => exact ⟨.ub, e⟩
  | some i =>
    cases hc : h.colors[i]? with
    | none =>
      have : k.colors[i]? = none := by
        rw [List.getElem?_eq_none_iff] at hc ⊢
        rw [← e.count]; exact hc
      simp only [load, hc, this]
      exact ⟨.ub, e⟩
    | some c =>
      have hi : i < k.colors.length := e.count ▸ (List.getElem?_eq_some_iff.mp hc).1
      obtain ⟨d, hd⟩ : ∃ d, k.colors[i]? = some d := ⟨_, List.getElem?_eq_getElem hi⟩
      simp only [load, hc, hd]
      rw [e.same i c d hc hd]
      exact hf c _ h k e

theorem Alike.set {h g : Heap} (e : Alike h g) (i : Nat) (c : Color) (a : Fl) : Alike ⟨h.world, h.colors.set i c⟩ ⟨g.world, g.colors.set i { c with malpha := a }⟩ :=
  ⟨e.world, by simp [e.count], fun j x y hx hy => by
    by_cases hij : i = j
    · subst hij
      rw [List.getElem?_set] at hx hy
      simp only [if_true] at hx hy
      split at hx <;> split at hy <;> simp at hx hy
      subst hx hy; rfl
    · simp only [List.getElem?_set_ne hij] at hx hy
      exact e.same j x y hx hy⟩

theorem both_store (p : Ptr) {c d : Color} (h : d = { c with malpha := d.malpha }) : Both Eq (store p c) (store p d) := fun m k e => by
  cases p with
  | none => exact ⟨.ub, e⟩
  | some i =>
    by_cases hi : i < m.colors.length
    · simp only [store, if_pos hi, if_pos (e.count ▸ hi : i < k.colors.length)]
      refine ⟨.ok rfl, ?_⟩
      rw [h]; exact Alike.set e i c _
    · simp only [store, if_neg hi, if_neg (e.count ▸ hi : ¬ i < k.colors.length)]
      exact ⟨.ub, e⟩

theorem Alike.alloc {h g : Heap} (e : Alike h g) (c : Color) (a : Fl) : Alike ⟨h.world, h.colors ++ [c]⟩ ⟨g.world, g.colors ++ [{ c with malpha := a }]⟩ :=
  ⟨e.world, by simp [e.count], fun j x y hx hy => by
    by_cases hj : j < h.colors.length
    · rw [List.getElem?_append_left hj] at hx
      rw [List.getElem?_append_left (e.count ▸ hj)] at hy
      exact e.same j x y hx hy
    · rw [List.getElem?_append_right (by omega)] at hx
      rw [List.getElem?_append_right (by rw [← e.count]; omega), ← e.count] at hy
      rcases hk : j - h.colors.length with _ | n
      · rw [hk] at hx hy; simp at hx hy; subst hx hy; rfl
      · rw [hk] at hx; simp at hx⟩

theorem both_alloc {c d : Color} (h : d = { c with malpha := d.malpha }) : Both Eq (alloc c) (alloc d) := fun m k e => by
  refine ⟨?_, ?_⟩
  · simp only [alloc, e.count]; exact .ok rfl
  · simp only [alloc]; rw [h]; exact Alike.alloc e c _

variable [FloatModel]

/-- A colour and the same colour with another opacity. -/
def Eqv (c d : Color) : Prop := Conv.strip c = Conv.strip d

omit [FloatModel] in
theorem eqv_eq {c d : Color} (h : Eqv c d) : d = { c with malpha := d.malpha } := Conv.strip_eq h.symm

theorem both_smap {o o' : Outcome Color} (h : Conv.smap o = Conv.smap o') : Both Eqv (lift o) (lift o') := fun _ _ e => by
  refine ⟨?_, e⟩
  cases o <;> cases o' <;> simp [Conv.smap] at h
  · exact .ok h
  · rw [h]; exact .throw _
  · exact .ub

theorem both_allocSmap {o o' : Outcome Color} (h : Conv.smap o = Conv.smap o') : Both Eq (lift o >>= alloc) (lift o' >>= alloc) :=
  (both_smap h).bind fun _ _ e => both_alloc (eqv_eq e)

theorem both_allocSmapBind {o o' : Outcome Color} (h : Conv.smap o = Conv.smap o') {f g : Ptr → Prog β} (hf : ∀ a, Both S (f a) (g a)) :
    Both S (lift o >>= fun c => alloc c >>= f) (lift o' >>= fun c => alloc c >>= g) :=
  (both_smap h).bind fun _ _ e => (both_alloc (eqv_eq e)).bindEq' hf

theorem dull_map {f : World → Color → Outcome Color} (h : Conv.Blind f) (p : Ptr) : Dull (Prog.map f p) :=
  ⟨both_loadBind fun c a => both_worldBind fun w => both_allocSmap (h w c a).symm⟩

instance (o : Outcome α) : Dull (lift o) := ⟨both_lift o⟩

instance (a : α) : Dull (pure a : Prog α) := ⟨both_pure rfl⟩

instance : Dull (throwNewInvalid : Prog α) := ⟨both_throw⟩

instance dull_bind {p : Prog α} {f : α → Prog β} [Dull p] [∀ a, Dull (f a)] : Dull (p >>= f) := ⟨Both.bindDull fun a => Dull.both⟩

instance dull_ite {P : Prop} [Decidable P] {p q : Prog α} [Dull p] [Dull q] : Dull (if P then p else q) := ⟨by split <;> exact Dull.both⟩

instance dull_cast (t : ColorType) (p : Ptr) : Dull (Converter.cast t p) := ⟨both_loadBind fun c a => by
  simp only []
  split
  · exact both_pure rfl
  · exact both_ub⟩

end

end Par
