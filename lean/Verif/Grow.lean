import Verif.SessionSpec

/-! Helper definitions and rules: how many colour objects a function adds to the memory. -/

open Outcome Fl Prog

namespace Grow

/-- Adds at most `n` objects, however it ends, and removes none. -/
def UpTo {α : Type} (n : Nat) (p : Prog α) : Prop := ∀ h, h.colors.length ≤ (p h).2.colors.length ∧ (p h).2.colors.length ≤ h.colors.length + n

/-- Adds `n` objects if it ends normally, and never more. -/
def Adds {α : Type} (n : Nat) (p : Prog α) : Prop := UpTo n p ∧ ∀ h a, (p h).1 = ok a → (p h).2.colors.length = h.colors.length + n

/-- A function of one pointer that adds `n` objects. -/
class Makes (f : Ptr → Prog Ptr) (n : outParam Nat) : Prop where
  adds : ∀ p, Adds n (f p)

section
variable {α β : Type} {n m : Nat}

theorem UpTo.weaken {p : Prog α} (h : UpTo n p) (hle : n ≤ m) : UpTo m p := fun g => ⟨(h g).1, (h g).2.trans (by omega)⟩

theorem UpTo.bind {p : Prog α} {f : α → Prog β} (hp : UpTo n p) (hf : ∀ a, UpTo m (f a)) : UpTo (n + m) (p >>= f) := fun h => by
  have h1 := hp h
  rw [bind_def]
  rcases ep : p h with ⟨o, h'⟩
  rw [ep] at h1
  cases o with
  | ok a => have h2 := hf a h'; exact ⟨h1.1.trans h2.1, h2.2.trans (by have := h1.2; simp only at this; omega)⟩
  | throw e => exact ⟨h1.1, h1.2.trans (by omega)⟩
  | ub => exact ⟨h1.1, h1.2.trans (by omega)⟩

theorem Adds.bind {p : Prog α} {f : α → Prog β} (hp : Adds n p) (hf : ∀ a, Adds m (f a)) : Adds (n + m) (p >>= f) := by
  refine ⟨hp.1.bind fun a => (hf a).1, fun h b hb => ?_⟩
  rw [bind_def] at hb ⊢
  have h1 := hp.2 h
  rcases ep : p h with ⟨o, h'⟩
  rw [ep] at hb h1
  cases o with
  | ok a =>
    have h2 := (hf a).2 h' b hb
    have h3 := h1 a rfl
    simp only at h2 h3 ⊢
    omega
  | throw e => cases hb
  | ub => cases hb

/-- Nothing is added before the rest. -/
theorem Adds.skip {p : Prog α} {f : α → Prog β} (hp : Adds 0 p) (hf : ∀ a, Adds m (f a)) : Adds m (p >>= f) := by
  have := hp.bind hf
  rwa [Nat.zero_add] at this

theorem UpTo.skip {p : Prog α} {f : α → Prog β} (hp : Adds 0 p) (hf : ∀ a, UpTo m (f a)) : UpTo m (p >>= f) := by
  have := hp.1.bind hf
  rwa [Nat.zero_add] at this

theorem adds_pure (a : α) : Adds 0 (pure a) := ⟨fun _ => ⟨le_rfl, le_rfl⟩, fun _ _ _ => rfl⟩

theorem adds_lift (o : Outcome α) : Adds 0 (lift o) := ⟨fun _ => ⟨le_rfl, le_rfl⟩, fun _ _ _ => rfl⟩

theorem adds_ub : Adds n (lift ub : Prog α) := ⟨fun _ => ⟨le_rfl, Nat.le_add_right _ _⟩, fun _ _ h => by cases h⟩

theorem adds_throw : Adds n (throwNewInvalid : Prog α) := ⟨fun _ => ⟨le_rfl, Nat.le_add_right _ _⟩, fun _ _ h => by cases h⟩

theorem adds_world : Adds 0 world := ⟨fun _ => ⟨le_rfl, le_rfl⟩, fun _ _ _ => rfl⟩

theorem load_heap (p : Ptr) (h : Heap) : (load p h).2 = h := by
  unfold load
  split
  · rfl
  · split <;> rfl

theorem adds_load (p : Ptr) : Adds 0 (load p) := ⟨fun h => by rw [load_heap]; exact ⟨le_rfl, le_rfl⟩, fun h _ _ => by rw [load_heap]; rfl⟩

theorem store_length (p : Ptr) (c : Color) (h : Heap) : (store p c h).2.colors.length = h.colors.length := by
  unfold store
  split
  · rfl
  · split
    · simp
    · rfl

theorem adds_store (p : Ptr) (c : Color) : Adds 0 (store p c) := ⟨fun h => by rw [store_length]; exact ⟨le_rfl, le_rfl⟩, fun h _ _ => store_length _ _ _⟩

theorem adds_alloc (c : Color) : Adds 1 (alloc c) := ⟨fun h => by simp [alloc], fun h _ _ => by simp [alloc]⟩

theorem adds_call {f : Ptr → Prog Ptr} [hf : Makes f n] (p : Ptr) : Adds n (f p) := hf.adds p

theorem makes_map (f : World → Color → Outcome Color) : Makes (Prog.map f) 1 :=
  ⟨fun _ => (adds_load _).skip fun _ => adds_world.skip fun _ => (adds_lift _).skip fun _ => adds_alloc _⟩

theorem makes_comp {f g : Ptr → Prog Ptr} {k : Nat} [Makes f n] [Makes g m] (hk : n + m = k := by rfl) : Makes (fun p => f p >>= g) k :=
  ⟨fun p => hk ▸ (adds_call p).bind fun q => adds_call q⟩

theorem makes_none : Makes (fun _ => pure none) 0 := ⟨fun _ => adds_pure _⟩

instance makes_pure : Makes (pure : Ptr → Prog Ptr) 0 := ⟨fun _ => adds_pure _⟩

variable [FloatModel]

theorem adds_cast (t : ColorType) (p : Ptr) : Adds 0 (Converter.cast t p) := (adds_load _).skip fun c => by
  split
  · exact adds_pure _
  · exact adds_ub

end

end Grow
