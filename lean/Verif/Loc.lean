import Verif.SessionSpec

/-! Helper definitions and rules: two runs of a function in memories that agree on the objects the function is given. -/

open Outcome Fl Prog

namespace Loc

/-- Which addresses of two memories correspond to each other. -/
abbrev Map := Nat → Nat → Prop

/-- Corresponding addresses hold equal objects; no address corresponds to two. -/
structure Sim (R : Map) (h g : Heap) : Prop where
  world : h.world = g.world
  right : ∀ i j j', R i j → R i j' → j = j'
  left : ∀ i i' j, R i j → R i' j → i = i'
  same : ∀ i j, R i j → ∃ c, h.colors[i]? = some c ∧ g.colors[j]? = some c

/-- Both null or corresponding. -/
inductive PRel (R : Map) : Ptr → Ptr → Prop
  | null : PRel R none none
  | obj {i j : Nat} : R i j → PRel R (some i) (some j)

/-- The two results. -/
inductive End {α : Type} (V : α → α → Prop) : Outcome α → Outcome α → Prop
  | ok {a b : α} : V a b → End V (Outcome.ok a) (Outcome.ok b)
  | throw (e : Exn) : End V (Outcome.throw e) (Outcome.throw e)
  | ub : End V Outcome.ub Outcome.ub

/-- In any two memories that correspond at least as `R₀` says, the programs end the same way, with results related by `V`, in memories that correspond as before and for more addresses. -/
def Both (R₀ : Map) {α : Type} (V : Map → α → α → Prop) (p q : Prog α) : Prop :=
  ∀ R h g, R₀ ≤ R → Sim R h g → ∃ R', R ≤ R' ∧ Sim R' (p h).2 (q g).2 ∧ End (V R') (p h).1 (q g).1

/-- Related by equality. -/
def Same {α : Type} : Map → α → α → Prop := fun _ a b => a = b

/-- Lists of pointers. -/
def LRel (R : Map) : List Ptr → List Ptr → Prop := List.Forall₂ (PRel R)

theorem PRel.mono {R R' : Map} (h : R ≤ R') {p q : Ptr} (e : PRel R p q) : PRel R' p q := by
  cases e with
  | null => exact .null
  | obj e => exact .obj (h _ _ e)

theorem LRel.mono {R R' : Map} (h : R ≤ R') {p q : List Ptr} (e : LRel R p q) : LRel R' p q := List.Forall₂.imp (fun _ _ => PRel.mono h) e

theorem Sim.eq_iff {R : Map} {h g : Heap} (s : Sim R h g) {p q p' q' : Ptr} (e : PRel R p q) (e' : PRel R p' q') : p = p' ↔ q = q' := by
  cases e <;> cases e' <;> simp
  rename_i h1 _ _ h2
  exact ⟨fun e => by subst e; exact s.right _ _ _ h1 h2, fun e => by subst e; exact s.left _ _ _ h1 h2⟩

/-- A function of one pointer that depends only on the object behind it. -/
class Local (f : Ptr → Prog Ptr) : Prop where
  both : ∀ R p q, PRel R p q → Both R PRel (f p) (f q)

section
variable {R₀ : Map} {α β : Type} {V : Map → α → α → Prop} {W : Map → β → β → Prop}

theorem Both.bind {p q : Prog α} {f g : α → Prog β} (hp : Both R₀ V p q) (hf : ∀ R a b, R₀ ≤ R → V R a b → Both R W (f a) (g b)) : Both R₀ W (p >>= f) (q >>= g) := by
  intro R h k le e
  obtain ⟨R', l1, s1, e1⟩ := hp R h k le e
  rw [bind_def, bind_def]
  rcases ep : p h with ⟨o, h'⟩
  rcases eq : q k with ⟨o', k'⟩
  rw [ep, eq] at s1 e1
  cases e1 with
  | ok hr =>
    obtain ⟨R'', l2, s2, e2⟩ := hf R' _ _ (le.trans l1) hr R' h' k' le_rfl s1
    exact ⟨R'', l1.trans l2, s2, e2⟩
  | throw e => exact ⟨R', l1, s1, .throw e⟩
  | ub => exact ⟨R', l1, s1, .ub⟩

theorem both_pure {a b : α} (h : ∀ R, R₀ ≤ R → V R a b) : Both R₀ V (pure a) (pure b) := fun R _ _ le e => ⟨R, le_rfl, e, .ok (h R le)⟩

theorem both_lift (o : Outcome α) : Both R₀ Same (lift o) (lift o) := fun R _ _ _ e => ⟨R, le_rfl, e, by cases o <;> constructor; rfl⟩

theorem both_ub : Both R₀ V (lift ub) (lift ub) := fun R _ _ _ e => ⟨R, le_rfl, e, .ub⟩

theorem both_throw : Both R₀ V (throwNewInvalid : Prog α) throwNewInvalid := fun R _ _ _ e => ⟨R, le_rfl, e, .throw _⟩

theorem both_liftBind (o : Outcome α) {f g : α → Prog β} (hf : ∀ a, Both R₀ W (f a) (g a)) : Both R₀ W (lift o >>= f) (lift o >>= g) := fun R h k le e => by
  rw [bind_def, bind_def]
  cases o with
  | ok a => exact hf a R h k le e
  | throw e' => exact ⟨R, le_rfl, e, .throw e'⟩
  | ub => exact ⟨R, le_rfl, e, .ub⟩

theorem both_worldBind {f g : World → Prog β} (hf : ∀ w, Both R₀ W (f w) (g w)) : Both R₀ W (world >>= f) (world >>= g) := fun R h k le e => by
  have := hf h.world R h k le e
  rw [bind_def, bind_def]
  simp only [world, ← e.world]
  exact this

theorem load_rel {R : Map} {h g : Heap} (e : Sim R h g) {p q : Ptr} (hp : PRel R p q) : (∃ c, load p h = (ok c, h) ∧ load q g = (ok c, g)) ∨ (load p h = (.ub, h) ∧ load q g = (.ub, g)) := by
  cases hp with
  | null => exact Or.inr ⟨rfl, rfl⟩
  | obj hr =>
    obtain ⟨c, h1, h2⟩ := e.same _ _ hr
    exact Or.inl ⟨c, by simp only [load, h1], by simp only [load, h2]⟩

theorem both_loadBind {p q : Ptr} (hp : PRel R₀ p q) {f g : Color → Prog β} (hf : ∀ c, Both R₀ W (f c) (g c)) : Both R₀ W (load p >>= f) (load q >>= g) := fun R h k le e => by
  rw [bind_def, bind_def]
  rcases load_rel e (hp.mono le) with ⟨c, e1, e2⟩ | ⟨e1, e2⟩
  · rw [e1, e2]; exact hf c R h k le e
  · rw [e1, e2]; exact ⟨R, le_rfl, e, .ub⟩

theorem both_store {p q : Ptr} (hp : PRel R₀ p q) (c : Color) : Both R₀ Same (store p c) (store q c) := fun R h g le e => by
  cases hp with
  | null => exact ⟨R, le_rfl, e, .ub⟩
  | @obj i j hr =>
    obtain ⟨d, h1, h2⟩ := e.same _ _ (le _ _ hr)
    have hi := (List.getElem?_eq_some_iff.mp h1).1
    have hj := (List.getElem?_eq_some_iff.mp h2).1
    refine ⟨R, le_rfl, ?_, ?_⟩
    · simp only [store, if_pos hi, if_pos hj]
      refine ⟨e.world, e.right, e.left, fun i' j' hr' => ?_⟩
      by_cases hii : i = i'
      · subst hii
        have : j = j' := e.right _ _ _ (le _ _ hr) hr'
        subst this
        exact ⟨c, by simp [hi], by simp [hj]⟩
      · have hjj : j ≠ j' := fun h => hii (by subst h; exact e.left _ _ _ (le _ _ hr) hr')
        obtain ⟨x, hx, hy⟩ := e.same _ _ hr'
        exact ⟨x, by simp only [List.getElem?_set_ne hii, hx], by simp only [List.getElem?_set_ne hjj, hy]⟩
    · simp only [store, if_pos hi, if_pos hj]
      exact .ok rfl

theorem both_storeBind {p q : Ptr} (hp : PRel R₀ p q) (c : Color) {f g : Unit → Prog β} (hf : Both R₀ W (f ()) (g ())) : Both R₀ W (store p c >>= f) (store q c >>= g) :=
  (both_store hp c).bind fun R _ _ le _ => fun R' h g le' e => hf R' h g (le.trans le') e

theorem both_alloc (c : Color) : Both R₀ PRel (alloc c) (alloc c) := fun R h g le e => by
  refine ⟨fun i j => R i j ∨ (i = h.colors.length ∧ j = g.colors.length), fun _ _ hr => Or.inl hr, ?_, .ok (.obj (Or.inr ⟨rfl, rfl⟩))⟩
  have bound : ∀ i j, R i j → i < h.colors.length ∧ j < g.colors.length := fun i j hr => by
    obtain ⟨x, h1, h2⟩ := e.same i j hr
    exact ⟨(List.getElem?_eq_some_iff.mp h1).1, (List.getElem?_eq_some_iff.mp h2).1⟩
  refine ⟨e.world, fun i j j' h1 h2 => ?_, fun i i' j h1 h2 => ?_, fun i j hr => ?_⟩
  · rcases h1 with h1 | h1 <;> rcases h2 with h2 | h2
    · exact e.right _ _ _ h1 h2
    · have := bound _ _ h1; omega
    · have := bound _ _ h2; omega
    · omega
  · rcases h1 with h1 | h1 <;> rcases h2 with h2 | h2
    · exact e.left _ _ _ h1 h2
    · have := bound _ _ h1; omega
    · have := bound _ _ h2; omega
    · omega
  · rcases hr with hr | ⟨rfl, rfl⟩
    · obtain ⟨x, h1, h2⟩ := e.same i j hr
      obtain ⟨b1, b2⟩ := bound _ _ hr
      exact ⟨x, by simp only [alloc, List.getElem?_append_left b1, h1], by simp only [alloc, List.getElem?_append_left b2, h2]⟩
    · exact ⟨c, by simp [alloc], by simp [alloc]⟩

theorem both_call {f : Ptr → Prog Ptr} [hl : Local f] {p q : Ptr} (hp : PRel R₀ p q) : Both R₀ PRel (f p) (f q) := hl.both R₀ p q hp

theorem both_callBind {f : Ptr → Prog Ptr} [hl : Local f] {p q : Ptr} (hp : PRel R₀ p q) {k k' : Ptr → Prog β} (hf : ∀ R a b, R₀ ≤ R → PRel R a b → Both R W (k a) (k' b)) :
    Both R₀ W (f p >>= k) (f q >>= k') := (both_call hp).bind hf

/-- A new object is made and used. -/
theorem both_allocBind (c : Color) {k k' : Ptr → Prog β} (hf : ∀ R a b, R₀ ≤ R → PRel R a b → Both R W (k a) (k' b)) : Both R₀ W (alloc c >>= k) (alloc c >>= k') := (both_alloc c).bind hf

theorem Both.weaken {V' : Map → α → α → Prop} {p q : Prog α} (h : Both R₀ V p q) (hv : ∀ R a b, R₀ ≤ R → V R a b → V' R a b) : Both R₀ V' p q := fun R m k le e => by
  obtain ⟨R', l, s, e'⟩ := h R m k le e
  refine ⟨R', l, s, ?_⟩
  generalize (p m).1 = x at e'
  generalize (q k).1 = y at e'
  cases e' with
  | ok hr => exact .ok (hv _ _ _ (le.trans l) hr)
  | throw e => exact .throw e
  | ub => exact .ub

instance local_pure : Local (pure : Ptr → Prog Ptr) := ⟨fun _ _ _ hp => both_pure fun _ le => hp.mono le⟩


theorem local_none : Local (fun _ => pure none) := ⟨fun _ _ _ _ => both_pure fun _ _ => .null⟩

theorem local_comp {f g : Ptr → Prog Ptr} [Local f] [Local g] : Local (fun p => f p >>= g) := ⟨fun _ _ _ hp => both_callBind hp fun _ _ _ _ hq => both_call hq⟩

theorem local_map (f : World → Color → Outcome Color) : Local (Prog.map f) :=
  ⟨fun _ _ _ hp => both_loadBind hp fun _ => both_worldBind fun _ => both_liftBind _ fun _ => both_alloc _⟩

variable [FloatModel]

instance local_cast (t : ColorType) : Local (Converter.cast t) := ⟨fun R p q hp => both_loadBind hp fun c => by
  split
  · exact both_pure fun _ le => hp.mono le
  · exact both_ub⟩

end

end Loc
