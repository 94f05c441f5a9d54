import Verif.SessionLemmas
import Verif.AdaptLemmas

/-! Helper definitions and rules: functions that, given pointers to existing colours, do not run into undefined behaviour. -/

open Outcome Fl Prog ObjectSpec ConvSpec FrameSpec Tame

namespace Safe
variable [FloatModel] {P : ColorType → Prop} {x : Prop} {α β : Type}

/-- Any address. -/
abbrev Any : Nat → Prop := fun _ => True

/-- The pointer points to an object of type `t`.  With `x`, its colour space definition is usable; the CIE types only come with `x`. -/
def Has (x : Prop) (h : Heap) (t : ColorType) (p : Ptr) : Prop :=
  ∃ i c, p = some i ∧ h.colors[i]? = some c ∧ IsColor t c ∧ t ≠ .undefined ∧ (Cie t → x) ∧ (x → h.world.Usable c.space)

/-- Null, or a pointer to an object of type `t`. -/
def Maybe (x : Prop) (h : Heap) (t : ColorType) (p : Ptr) : Prop := p = none ∨ Has x h t p

/-- The program does not run into undefined behaviour; it keeps all objects, and a result satisfies `R`. -/
def Runs (P : ColorType → Prop) (p : Prog α) (h : Heap) (R : α → Heap → Prop) : Prop :=
  After Any h (p h).2 ∧ Good (Ranged P) (p h).2 ∧ (p h).1 ≠ .ub ∧ ∀ a, (p h).1 = ok a → R a (p h).2

theorem Has.mono {h h' : Heap} {t : ColorType} {p : Ptr} (hp : Has x h t p) (ha : After Any h h') (hg : Good (Ranged P) h') : Has x h' t p := by
  obtain ⟨i, c, rfl, hi, hc, ht, h1, h2⟩ := hp
  obtain ⟨c', hi', hk⟩ := ha.there i c hi
  obtain ⟨t', ht', hc', -⟩ := hg i c' hi'
  have e : c'.ctype = c.ctype := by rw [hk]
  have : t' = t := by rw [← hc'.ctype, e, hc.ctype]
  subst this
  refine ⟨i, c', rfl, hi', hc', ht', h1, fun hx => ?_⟩
  have e2 : c'.space = c.space := by rw [hk]
  rw [ha.world, e2]
  exact h2 hx

theorem Maybe.mono {h h' : Heap} {t : ColorType} {p : Ptr} (hp : Maybe x h t p) (ha : After Any h h') (hg : Good (Ranged P) h') : Maybe x h' t p :=
  hp.imp id fun hh => hh.mono ha hg

theorem Runs.weaken {p : Prog α} {h : Heap} {R S : α → Heap → Prop} (hp : Runs P p h R) (hr : ∀ a, R a (p h).2 → S a (p h).2) : Runs P p h S :=
  ⟨hp.1, hp.2.1, hp.2.2.1, fun a e => hr a (hp.2.2.2 a e)⟩

theorem r_bind {p : Prog α} {f : α → Prog β} {h : Heap} {R : α → Heap → Prop} {S : β → Heap → Prop} (hp : Runs P p h R)
    (hf : ∀ a h', After Any h h' → Good (Ranged P) h' → R a h' → Runs P (f a) h' S) : Runs P (p >>= f) h S := by
  obtain ⟨h1, h2, h3, h4⟩ := hp
  unfold Runs
  rw [bind_def]
  rcases e : p h with ⟨o, h'⟩
  rw [e] at h1 h2 h3 h4
  cases o with
  | ok a =>
    obtain ⟨k1, k2, k3, k4⟩ := hf a h' h1 h2 (h4 a rfl)
    exact ⟨h1.trans k1, k2, k3, k4⟩
  | throw e => exact ⟨h1, h2, by simp, by simp⟩
  | ub => exact absurd rfl h3

theorem r_pure {a : α} {h : Heap} {R : α → Heap → Prop} (hg : Good (Ranged P) h) (hr : R a h) : Runs P (pure a) h R :=
  ⟨after_refl h, hg, by simp, fun b e => by
    have : a = b := by simpa using e
    subst this
    exact hr⟩

theorem r_throw {h : Heap} {R : α → Heap → Prop} (hg : Good (Ranged P) h) : Runs P Prog.throwNewInvalid h R :=
  ⟨after_refl h, hg, by simp [Prog.throwNewInvalid, lift, Outcome.throwNewInvalid], fun a e => by simp [Prog.throwNewInvalid, lift, Outcome.throwNewInvalid] at e⟩

theorem lift_bind {o : Outcome α} {a : α} (e : o = ok a) {f : α → Prog β} {h : Heap} {R : β → Heap → Prop} (hf : Runs P (f a) h R) : Runs P (lift o >>= f) h R := by
  unfold Runs at *
  simp only [bind_def, lift, e]
  exact hf

theorem lift_run {o : Outcome α} {h : Heap} {R : α → Heap → Prop} (hg : Good (Ranged P) h) (hu : o ≠ .ub) (hr : ∀ a, o = ok a → R a h) : Runs P (lift o) h R :=
  ⟨after_refl h, hg, hu, hr⟩

theorem load_bind {t : ColorType} {p : Ptr} {f : Color → Prog β} {h : Heap} {R : β → Heap → Prop} (hp : Has x h t p)
    (hf : ∀ c, IsColor t c → t ≠ .undefined → (Cie t → x) → (x → h.world.Usable c.space) → (∀ i, p = some i → h.colors[i]? = some c) → Runs P (f c) h R) : Runs P (load p >>= f) h R := by
  obtain ⟨i, c, rfl, hi, hc, ht, h1, h2⟩ := hp
  have := hf c hc ht h1 h2 (fun j e => by obtain rfl := Option.some.inj e; exact hi)
  unfold Runs at *
  simp only [bind_def, load, hi]
  exact this

theorem r_alloc {t : ColorType} {c : Color} {h : Heap} (hg : Good (Ranged P) h) (ht : t ≠ .undefined) (hc : Ranged P t c) (h1 : Cie t → x) (h2 : x → h.world.Usable c.space) :
    Runs P (alloc c) h fun q h' => Has x h' t q := by
  have hs := spec_alloc (Q := Ranged P) (F := Any) ht hc h hg (fun _ _ => trivial)
  refine ⟨hs.1, hs.2.1, by simp [alloc], fun q e => ?_⟩
  have : q = some h.colors.length := by simpa [alloc, eq_comm] using e
  exact ⟨h.colors.length, c, this, by simp [alloc], hc.1, ht, h1, h2⟩

/-- A constructor and `new`. -/
theorem make {t : ColorType} {vs : List Fl} {al : Fl} {sp : Option Nat} {f : Ptr → Prog β} {h : Heap} {R : β → Heap → Prop} (hg : Good (Ranged P) h) (ht : t ≠ .undefined)
    (hl : vs.length = Color.count t) (h1 : Cie t → x) (h2 : x → h.world.Usable sp)
    (hf : ∀ q h', After Any h h' → Good (Ranged P) h' → Has x h' t q → Runs P (f q) h' R) : Runs P (lift (Color.construct t vs al sp) >>= fun n => alloc n >>= f) h R := by
  obtain ⟨c, e⟩ := Conv.construct_total t al sp hl
  have hc := Conv.construct_result ht hl e
  exact lift_bind e (r_bind (r_alloc (x := x) hg ht ⟨hc.col, fun _ => hc.rng⟩ h1 (fun hx => by rw [hc.space]; exact h2 hx)) hf)

theorem make_last {t : ColorType} {vs : List Fl} {al : Fl} {sp : Option Nat} {h : Heap} (hg : Good (Ranged P) h) (ht : t ≠ .undefined)
    (hl : vs.length = Color.count t) (h1 : Cie t → x) (h2 : x → h.world.Usable sp) : Runs P (lift (Color.construct t vs al sp) >>= fun n => alloc n) h fun q h' => Has x h' t q := by
  obtain ⟨c, e⟩ := Conv.construct_total t al sp hl
  have hc := Conv.construct_result ht hl e
  exact lift_bind e (r_alloc hg ht ⟨hc.col, fun _ => hc.rng⟩ h1 (fun hx => by rw [hc.space]; exact h2 hx))

/-- Components that exist can be read. -/
theorem get {t : ColorType} {c : Color} (hc : IsColor t c) (i : Nat) (hi : i < Color.count t) : ∃ v, c.getComponent i = ok v := by
  have : i < c.comps.length := by rw [hc.len]; exact hi
  exact ⟨_, Conv.getComponent_of (by omega) (by rw [Int.toNat_natCast]; exact List.getElem?_eq_getElem this)⟩

theorem dispatcher {s t : ColorType} (ht : t ≠ .undefined) {p : Ptr} {h : Heap} (hg : Good (Ranged P) h) (hp : Has x h s p) (hx : Cie t → x) :
    Runs P (Conv.dispatcher t p) h fun q h' => Has x h' t q := by
  obtain ⟨i, c, rfl, hi, hc, hs, h1, h2⟩ := hp
  have hs2 := s_dispatcher (F := Any) (ranged_closed (P := P)) (p := some i) (fun _ _ => trivial) t h hg (fun _ _ => trivial)
  obtain ⟨c', e, hc', hsp⟩ := val_to_total (w := h.world) hs ht hc (fun hh _ => h2 (hh.elim h1 hx))
  obtain ⟨q, h', er, hcd⟩ := call_to hs ht hc hi e
  rw [er] at hs2
  unfold Runs
  rw [er]
  refine ⟨hs2.1, hs2.2.1, by simp, fun a ea => ?_⟩
  obtain rfl : some q = a := by simpa using ea
  exact ⟨q, c', rfl, hcd.here, hc', ht, hx, fun hh => by rw [hcd.world, hsp]; exact h2 hh⟩

theorem direct {s t : ColorType} (ht : t ≠ .undefined) {p : Ptr} {h : Heap} (hg : Good (Ranged P) h) (hp : Has x h s p) (hx : Cie t → x) :
    Runs P (Conv.direct s t p) h fun q h' => Has x h' t q := by
  have hd := dispatcher ht hg hp hx
  obtain ⟨i, c, rfl, hi, hc, hs, h1, h2⟩ := hp
  unfold Runs at *
  rw [← Conv.dispatch_eq s t hs ht h i c hi hc.cls hc.ctype]
  exact hd

theorem convert {s t : ColorType} (ht : Combine.Target t) {p : Ptr} {h : Heap} (hg : Good (Ranged P) h) (hp : Has x h s p) (hx : Cie t → x) :
    Runs P (Converter.convertTo p t) h fun q h' => Has x h' t q := by
  rw [convertTo_dispatcher ht.2.1 ht.2.2 ht.1]
  exact dispatcher ht.1 hg hp hx

theorem convert_any {s t : ColorType} {p : Ptr} {h : Heap} (hg : Good (Ranged P) h) (hp : Has x h s p) (hx : Cie t → x) :
    Runs P (Converter.convertTo p t) h fun q h' => Maybe x h' t q := by
  by_cases ht : Combine.Target t
  · exact (convert ht hg hp hx).weaken fun _ => Or.inr
  · have : Converter.convertTo p t = pure none := by
      cases t <;> first | rfl | exact absurd (by simp [Combine.Target]) ht
    rw [this]
    exact r_pure hg (Or.inl rfl)

/-- Writing an object of the same type and colour space. -/
theorem store_bind {t : ColorType} {q : Ptr} {c' : Color} {f : Unit → Prog β} {h : Heap} {R : β → Heap → Prop} (hg : Good (Ranged P) h) (hq : Has x h t q) (hc' : Ranged P t c')
    (hk : ∀ i c, q = some i → h.colors[i]? = some c → Kept c c') (hf : ∀ h', After Any h h' → Good (Ranged P) h' → Runs P (f ()) h' R) : Runs P (store q c' >>= f) h R := by
  obtain ⟨i, c, rfl, hi, hc, ht, h1, h2⟩ := hq
  have hl := (List.getElem?_eq_some_iff.mp hi).1
  have hk1 := hk i c rfl hi
  refine r_bind (R := fun _ _ => True) ?_ fun _ h' ha hg' _ => hf h' ha hg'
  unfold Runs
  simp only [store, if_pos hl]
  refine ⟨⟨rfl, fun j d hj _ => absurd trivial hj, fun j d hj => ?_⟩, fun j d hj => ?_, by simp, fun _ _ => trivial⟩
  · by_cases hji : j = i
    · subst hji
      rw [hi] at hj
      obtain rfl := Option.some.inj hj
      exact ⟨c', by simp [hl], hk1⟩
    · exact ⟨d, by simp [List.getElem?_set, Ne.symm hji, hj], rfl⟩
  · by_cases hji : j = i
    · subst hji
      have : c' = d := by simpa [hl] using hj
      subst this
      exact ⟨t, ht, hc'⟩
    · exact hg j d (by simpa [List.getElem?_set, Ne.symm hji] using hj)

end Safe
