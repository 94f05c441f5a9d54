import Verif.ConvLemmas
import Verif.Adapt
import Verif.Adjust
import Verif.Calc
import Verif.Distance
import Verif.Blend
import Verif.Predefined
import Verif.Props.Objects

/-! Helper definitions and rules: what every function of the library does to memory, whatever its arguments and however it ends. -/

open Outcome Fl Prog ObjectSpec

namespace FrameSpec

/-- At most the values of the components differ. -/
def Kept (c c' : Color) : Prop := c' = { c with comps := c'.comps }

/-- The memory `h'` after a call in the memory `h`: the shared data are the same, every object is still there with its class, type, opacity, limits and colour space, and objects
outside `F` are unchanged. -/
structure After (F : Nat → Prop) (h h' : Heap) : Prop where
  world : h'.world = h.world
  same : ∀ (i : Nat) c, ¬ F i → h.colors[i]? = some c → h'.colors[i]? = some c
  there : ∀ (i : Nat) c, h.colors[i]? = some c → ∃ c', h'.colors[i]? = some c' ∧ Kept c c'

/-- All objects in memory satisfy `Q`. -/
def Good (Q : ColorType → Color → Prop) (h : Heap) : Prop := ∀ (i : Nat) c, h.colors[i]? = some c → ∃ t, t ≠ .undefined ∧ Q t c

/-- The pointer is null or points into `F`. -/
def Within (F : Nat → Prop) (q : Ptr) : Prop := ∀ i, q = some i → F i

/-- The pointer is null or points to an object in `F` with `Q t`. -/
def IsA (Q : ColorType → Color → Prop) (F : Nat → Prop) (t : ColorType) (h : Heap) (q : Ptr) : Prop := ∀ i, q = some i → F i ∧ ∃ c, h.colors[i]? = some c ∧ Q t c

/-- All addresses not yet in use belong to `F`. -/
def Fresh (F : Nat → Prop) (h : Heap) : Prop := ∀ i, h.colors.length ≤ i → F i

/-- Every constructor makes objects with `Q`, and the functions that write into existing objects keep `Q`. -/
structure Closed [FloatModel] (Q : ColorType → Color → Prop) : Prop where
  col : ∀ t c, Q t c → IsColor t c
  make : ∀ t vs al sp r, t ≠ .undefined → vs.length = Color.count t → Color.construct t vs al sp = ok r → Q t r
  gamma : ∀ t c g, Q t c → Q t (c.applyGamma g)
  chan : ∀ t c i v c', Q t c → c.setChannel i v = ok c' → Q t c'
  comp : ∀ t c i v c', Q t c → c.setComponent v i = ok c' → Q t c'
  alpha : ∀ t c al, Q t c → Q t (c.setAlpha al)

/-- The pointer `q` is `p` itself, or `p` points to an object and `q` is null or points to an object of the same type. -/
def Like (Q : ColorType → Color → Prop) (F : Nat → Prop) (p : Ptr) (h : Heap) (q : Ptr) : Prop :=
  Within F q ∧ (q = p ∨ ∃ i c, p = some i ∧ h.colors[i]? = some c ∧ IsA Q F c.ctype h q)

/-- The result of compositing may leave the range of the components. -/
def Divisible [FloatModel] (Q : ColorType → Color → Prop) : Prop := ∀ c, Q .rgbDeep c → Q .rgbDeep c.alphaDivide

/-- In every memory with `Good Q` in which the free addresses belong to `F`, for every outcome: the memory stays as `After` says and `Good Q`; a result satisfies `R`. -/
def Spec (Q : ColorType → Color → Prop) (F : Nat → Prop) {α : Type} (p : Prog α) (R : Heap → α → Prop) : Prop :=
  ∀ h, Good Q h → Fresh F h → After F h (p h).2 ∧ Good Q (p h).2 ∧ ∀ a, (p h).1 = ok a → R (p h).2 a

/-- A value computed without touching memory satisfies `Q t`. -/
def Makes (Q : ColorType → Color → Prop) (t : ColorType) (o : Outcome Color) : Prop := ∀ r, o = ok r → Q t r

end FrameSpec

open FrameSpec

namespace Tame

theorem kept_refl (c : Color) : Kept c c := rfl

theorem _root_.FrameSpec.Kept.trans {a b c : Color} (h1 : Kept a b) (h2 : Kept b c) : Kept a c := by
  unfold Kept at *
  rw [h2, h1]

theorem after_refl {F : Nat → Prop} (h : Heap) : After F h h := ⟨rfl, fun _ _ _ h => h, fun _ c hc => ⟨c, hc, rfl⟩⟩

theorem _root_.FrameSpec.After.trans {F : Nat → Prop} {a b c : Heap} (h1 : After F a b) (h2 : After F b c) : After F a c :=
  ⟨h2.world.trans h1.world, fun i x hi hx => h2.same i x hi (h1.same i x hi hx), fun i x hx => by
    obtain ⟨y, hy, k1⟩ := h1.there i x hx
    obtain ⟨z, hz, k2⟩ := h2.there i y hy
    exact ⟨z, hz, Kept.trans k1 k2⟩⟩

theorem _root_.FrameSpec.After.fresh {F : Nat → Prop} {a b : Heap} (h1 : After F a b) (h : Fresh F a) : Fresh F b := fun i hi => by
  by_cases hl : i < a.colors.length
  · obtain ⟨y, hy, -⟩ := h1.there i _ (List.getElem?_eq_getElem hl)
    exact absurd (List.getElem?_eq_some_iff.mp hy).1 (by omega)
  · exact h i (by omega)

theorem after_alloc {F : Nat → Prop} (h : Heap) (c : Color) : After F h ⟨h.world, h.colors ++ [c]⟩ := by
  have key : ∀ (i : Nat) x, h.colors[i]? = some x → (h.colors ++ [c])[i]? = some x := fun i x hx => by
    rw [List.getElem?_append_left (List.getElem?_eq_some_iff.mp hx).1, hx]
  exact ⟨rfl, fun i x _ hx => key i x hx, fun i x hx => ⟨x, key i x hx, rfl⟩⟩

section
variable {Q : ColorType → Color → Prop} {F : Nat → Prop} {α β : Type} {R : Heap → α → Prop} {S : Heap → β → Prop}

theorem _root_.FrameSpec.Spec.bind {p : Prog α} {f : α → Prog β} (hp : Spec Q F p R) (hf : ∀ a, Spec Q F (f a) S) : Spec Q F (p >>= f) S := by
  intro h hg hfr
  obtain ⟨h1, h2, -⟩ := hp h hg hfr
  rw [bind_def]
  rcases e : p h with ⟨o, h'⟩
  rw [e] at h1 h2
  cases o with
  | ok a =>
    obtain ⟨k1, k2, k3⟩ := hf a h' h2 (h1.fresh hfr)
    exact ⟨h1.trans k1, k2, k3⟩
  | throw e => exact ⟨h1, h2, by simp⟩
  | ub => exact ⟨h1, h2, by simp⟩

/-- The rest of the program may use what is known of the result. -/
theorem _root_.FrameSpec.Spec.bind' {p : Prog α} {f : α → Prog β} (hp : Spec Q F p R) (hf : ∀ a h, Good Q h → Fresh F h → R h a → After F h (f a h).2 ∧ Good Q (f a h).2 ∧ ∀ b, (f a h).1 = ok b → S (f a h).2 b) :
    Spec Q F (p >>= f) S := by
  intro h hg hfr
  obtain ⟨h1, h2, h3⟩ := hp h hg hfr
  rw [bind_def]
  rcases e : p h with ⟨o, h'⟩
  rw [e] at h1 h2 h3
  cases o with
  | ok a =>
    obtain ⟨k1, k2, k3⟩ := hf a h' h2 (h1.fresh hfr) (h3 a rfl)
    exact ⟨h1.trans k1, k2, k3⟩
  | throw e => exact ⟨h1, h2, by simp⟩
  | ub => exact ⟨h1, h2, by simp⟩

/-- The rest of the program may use what the result is, whatever the memory. -/
theorem _root_.FrameSpec.Spec.bindw {p : Prog α} {f : α → Prog β} (hp : Spec Q F p R) {P : α → Prop} (hR : ∀ h a, R h a → P a) (hf : ∀ a, P a → Spec Q F (f a) S) : Spec Q F (p >>= f) S :=
  Spec.bind' hp fun a h hg hfr hr => hf a (hR h a hr) h hg hfr

/-- The result is a pointer that may be handed on. -/
theorem _root_.FrameSpec.Spec.bindp {p : Prog Ptr} {t : ColorType} {f : Ptr → Prog β} (hp : Spec Q F p (IsA Q F t)) (hf : ∀ q, Within F q → Spec Q F (f q) S) : Spec Q F (p >>= f) S :=
  Spec.bindw hp (P := Within F) (fun _ _ h i hi => (h i hi).1) hf

theorem _root_.FrameSpec.Spec.bindl {p : Prog Ptr} {o : Ptr} {f : Ptr → Prog β} (hp : Spec Q F p (Like Q F o)) (hf : ∀ q, Within F q → Spec Q F (f q) S) : Spec Q F (p >>= f) S :=
  Spec.bindw hp (P := Within F) (fun _ _ h => h.1) hf

theorem _root_.FrameSpec.Spec.mono {p : Prog α} {R' : Heap → α → Prop} (hp : Spec Q F p R) (hr : ∀ h a, R h a → R' h a) : Spec Q F p R' := fun h hg hfr =>
  ⟨(hp h hg hfr).1, (hp h hg hfr).2.1, fun a ha => hr _ _ ((hp h hg hfr).2.2 a ha)⟩

theorem _root_.FrameSpec.Spec.any {p : Prog α} (hp : Spec Q F p R) : Spec Q F p (fun _ _ => True) := Spec.mono hp fun _ _ _ => trivial

theorem spec_lift (o : Outcome α) (ho : ∀ a, o = ok a → ∀ h, R h a) : Spec Q F (lift o) R := fun h hg hfr => ⟨after_refl h, hg, fun a ha => ho a ha _⟩

theorem spec_pure (a : α) (ha : ∀ h, R h a) : Spec Q F (pure a) R := fun h hg hfr => ⟨after_refl h, hg, fun b hb => by
  have : b = a := by simpa [eq_comm] using hb
  subst this; exact ha _⟩

theorem spec_throw : Spec Q F (throwNewInvalid : Prog α) R := fun h hg hfr => ⟨after_refl h, hg, fun a ha => by cases ha⟩

theorem spec_lift_bind {o : Outcome α} {f : α → Prog β} (hf : ∀ a, o = ok a → Spec Q F (f a) S) : Spec Q F (lift o >>= f) S := by
  intro h hg hfr
  rw [bind_def]
  cases o with
  | ok a => exact hf a rfl h hg hfr
  | throw e => exact ⟨after_refl h, hg, by simp [lift]⟩
  | ub => exact ⟨after_refl h, hg, by simp [lift]⟩

theorem spec_world_bind {f : World → Prog β} (hf : ∀ w, Spec Q F (f w) S) : Spec Q F (world >>= f) S := fun h hg hfr => hf h.world h hg hfr

theorem load_cases (p : Ptr) (h : Heap) : (∃ i c, p = some i ∧ h.colors[i]? = some c ∧ load p h = (ok c, h)) ∨ load p h = (.ub, h) := by
  cases p with
  | none => exact Or.inr rfl
  | some i =>
    cases e : h.colors[i]? with
    | none => exact Or.inr (by simp [load, e])
    | some c => exact Or.inl ⟨i, c, rfl, e, by simp [load, e]⟩

theorem spec_load_bind {p : Ptr} {f : Color → Prog β} (hf : ∀ c t, t ≠ .undefined → Q t c → Spec Q F (f c) S) : Spec Q F (load p >>= f) S := by
  intro h hg hfr
  rw [bind_def]
  rcases load_cases p h with ⟨i, c, -, hc, e⟩ | e
  · rw [e]
    obtain ⟨t, ht, hq⟩ := hg i c hc
    exact hf c t ht hq h hg hfr
  · rw [e]; exact ⟨after_refl h, hg, by simp⟩

theorem spec_alloc {t : ColorType} (ht : t ≠ .undefined) {c : Color} (hc : Q t c) : Spec Q F (alloc c) (IsA Q F t) := by
  intro h hg hfr
  refine ⟨after_alloc h c, fun i x hx => ?_, fun a ha => ?_⟩
  · simp only [alloc] at hx
    by_cases hi : i < h.colors.length
    · rw [List.getElem?_append_left hi] at hx; exact hg i x hx
    · rw [List.getElem?_append_right (by omega)] at hx
      have : x = c := by
        rcases hk : i - h.colors.length with _ | k
        · rw [hk] at hx; simpa [eq_comm] using hx
        · rw [hk] at hx; simp at hx
      subst this; exact ⟨t, ht, hc⟩
  · intro i hi
    have : i = h.colors.length := by
      simp only [alloc, ok_inj] at ha
      rw [← ha] at hi; simpa [eq_comm] using hi
    subst this
    exact ⟨hfr _ (le_refl _), c, by simp [alloc], hc⟩

theorem spec_map {t : ColorType} (ht : t ≠ .undefined) {f : World → Color → Outcome Color} (hf : ∀ w c, Makes Q t (f w c)) (p : Ptr) : Spec Q F (Prog.map f p) (IsA Q F t) :=
  spec_load_bind fun c _ _ _ => spec_world_bind fun w => spec_lift_bind fun r hr => spec_alloc ht (hf w c r hr)

/-- Read an object, compute a new value for it and write it back. -/
def update (p : Ptr) (g : World → Color → Outcome Color) : Prog Color := do
  let c ← load p
  let w ← world
  let d ← lift (g w c)
  store p d
  pure d

theorem spec_update {p : Ptr} (hp : Within F p) {g : World → Color → Outcome Color} (hg : ∀ t w c d, t ≠ .undefined → Q t c → g w c = ok d → Q t d ∧ Kept c d) : Spec Q F (update p g) (fun _ _ => True) := by
  intro h hgood hfr
  rcases load_cases p h with ⟨i, c, rfl, hc, e⟩ | e
  · obtain ⟨t, ht, hq⟩ := hgood i c hc
    have hi := (List.getElem?_eq_some_iff.mp hc).1
    cases o : g h.world c with
    | ok d =>
      have : update (some i) g h = (ok d, ⟨h.world, h.colors.set i d⟩) := by
        rw [update, bind_def, e]; simp [bind_def, world, lift, o, store, hi]
      rw [this]
      obtain ⟨q, k⟩ := hg t _ c d ht hq o
      refine ⟨⟨rfl, fun j x hj hx => ?_, fun j x hx => ?_⟩, fun j x hx => ?_, fun _ _ => trivial⟩
      · rw [List.getElem?_set_ne (fun e => hj (hp _ (congrArg some e)))]; exact hx
      · by_cases hj : j = i
        · subst hj
          rw [hc] at hx
          obtain rfl := Option.some.inj hx
          exact ⟨d, by simp [hi], k⟩
        · exact ⟨x, by rw [List.getElem?_set_ne (fun h => hj h.symm)]; exact hx, rfl⟩
      · simp only at hx
        by_cases hj : j = i
        · subst hj
          rw [List.getElem?_set_self hi] at hx
          obtain rfl := Option.some.inj hx
          exact ⟨t, ht, q⟩
        · rw [List.getElem?_set_ne (fun h => hj h.symm)] at hx
          exact hgood j x hx
    | throw e' =>
      have : update (some i) g h = (.throw e', h) := by rw [update, bind_def, e]; simp [bind_def, world, lift, o]
      rw [this]; exact ⟨after_refl h, hgood, by simp⟩
    | ub =>
      have : update (some i) g h = (.ub, h) := by rw [update, bind_def, e]; simp [bind_def, world, lift, o]
      rw [this]; exact ⟨after_refl h, hgood, by simp⟩
  · have : update p g h = (.ub, h) := by simp [update, bind_def, e]
    rw [this]; exact ⟨after_refl h, hgood, by simp⟩

theorem _root_.FrameSpec.Makes.bind {t : ColorType} {o : Outcome α} {f : α → Outcome Color} (hf : ∀ a, Makes Q t (f a)) : Makes Q t (o >>= f) := by
  intro r hr
  obtain ⟨a, -, h⟩ := bind_eq_ok.mp hr
  exact hf a r h

variable [FloatModel]

theorem _root_.FrameSpec.Makes.bind_color {t t' : ColorType} {o : Outcome Color} {f : Color → Outcome Color} (ho : Makes Q t o) (hf : ∀ a, Q t a → Makes Q t' (f a)) :
    Makes Q t' (o >>= f) := by
  intro r hr
  obtain ⟨a, h1, h⟩ := bind_eq_ok.mp hr
  exact hf a (ho a h1) r h

theorem makes_alpha (hQ : Closed Q) {t : ColorType} {c : Color} (hc : Q t c) (al : Fl) : Makes Q t (ok (c.setAlpha al)) := fun r hr => by
  obtain rfl := ok_inj.mp hr
  exact hQ.alpha t c al hc

theorem makes_chan (hQ : Closed Q) {t : ColorType} {c : Color} (hc : Q t c) (i : Nat) (v : Fl) : Makes Q t (c.setChannel i v) := fun r hr => hQ.chan t c i v r hc hr

theorem makes_gamma (hQ : Closed Q) {t : ColorType} {c : Color} (hc : Q t c) (g : Fl → Fl) : Makes Q t (ok (c.applyGamma g)) := fun r hr => by
  obtain rfl := ok_inj.mp hr
  exact hQ.gamma t c g hc

theorem makes_construct (hQ : Closed Q) {t : ColorType} (ht : t ≠ .undefined) {vs : List Fl} {al : Fl} {sp : Option Nat} (hl : vs.length = Color.count t) :
    Makes Q t (Color.construct t vs al sp) := fun r hr => hQ.make t vs al sp r ht hl hr

theorem makes_grey (hQ : Closed Q) {t : ColorType} (ht : t ≠ .undefined) {v : Fl} {al : Fl} {sp : Option Nat} (hl : 3 = Color.count t) :
    Makes Q t (Color.constructGrey t v al sp) := fun r hr => hQ.make t [v, v, v] al sp r ht hl hr

end

end Tame

/-- Steps through a computation that ends in a constructor. -/
macro "makes_steps" hQ:term : tactic => `(tactic| repeat' first
  | with_reducible exact Tame.makes_construct $hQ (by decide) rfl
  | with_reducible exact Tame.makes_grey $hQ (by decide) rfl
  | with_reducible refine FrameSpec.Makes.bind_color (Tame.makes_construct $hQ (by decide) rfl) fun _ _ => ?_
  | with_reducible refine FrameSpec.Makes.bind fun _ => ?_
  | exact Tame.makes_alpha $hQ (by assumption) _
  | split
  | dsimp only
  | (intro r hr; simp [Outcome.throwNewInvalid, Outcome.throwNewRange] at hr))
