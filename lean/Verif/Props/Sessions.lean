import Verif.SessionLemmas
import Verif.Props.Blends2

/-! Properties C117 to C120: whole programs that use the library. -/

open Outcome Fl Prog ObjectSpec FrameSpec SessionSpec BlendSpec Hue

namespace Tame
variable [FloatModel]

theorem session_new {blends raws : Prop} {h : Heap} (hs : Session blends raws h) {t : ColorType} {vs : List Fl} {al : Fl} {sp : Option Nat} {c : Color} (ht : t ≠ .undefined)
    (hl : vs.length = Color.count t) (e : Color.construct t vs al sp = ok c) : Session blends raws ⟨h.world, h.colors ++ [c]⟩ := by
  have k := Session.call h _ _ _ _ _ hs (Call.create t vs al sp ht hl) (by simp [bind_def, lift, e, alloc])
  simpa [bind_def, lift, e, alloc] using k

theorem good_of_sound {h : Heap} (hs : Sound h) : Good (Ranged fun _ => False) h := fun i c hc => by
  obtain ⟨t, ht, hk⟩ := wellFormed_iff.mp (hs i c hc)
  exact ⟨t, ht, hk, False.elim⟩

theorem sound_of_good {P : ColorType → Prop} {h : Heap} (hg : Good (Ranged P) h) : Sound h := fun i c hc => by
  obtain ⟨t, ht, hk⟩ := hg i c hc
  exact wellFormed_iff.mpr ⟨t, ht, hk.1⟩

end Tame

open Tame

/-! ## C117 -/

section
variable [FloatModel]

/-- C117: whatever a program does with the library, every colour in memory is an instance of the class its type tag names and has the components and limits of that class. -/
theorem C117_sound (h : Heap) (hs : Session True True h) : Sound h :=
  sound_of_good (session_good (P := fun _ => False) (fun _ => id) (fun _ _ => id) hs)

/-- C117: a call of any function, with any arguments and any outcome, keeps every object in place with its class and type. -/
theorem C117_permanent (h : Heap) (hs : Session True True h) (i : Nat) (c : Color) (hc : h.colors[i]? = some c) :
    (∀ args α p res pr, Call True args α p res pr → ∃ c', (p h).2.colors[i]? = some c' ∧ c'.cls = c.cls ∧ c'.ctype = c.ctype) ∧
    (∀ k p, Write True k p → ∃ c', (p h).2.colors[i]? = some c' ∧ c'.cls = c.cls ∧ c'.ctype = c.ctype) ∧
    (∀ f a p target, ∃ c', (Adapt.adapt f a p target h).2.colors[i]? = some c' ∧ c'.cls = c.cls ∧ c'.ctype = c.ctype) := by
  have hg : Good (Ranged fun _ => False) h := session_good (fun _ => id) (fun _ _ => id) hs
  refine ⟨fun args α p res pr hp => ?_, fun k p hp => ?_, fun f a p target => ?_⟩
  · obtain ⟨c', h1, h2⟩ := (call_spec (P := fun _ => False) (F := fun _ => True) (fun _ => id) hp (fun _ _ _ _ => trivial) h hg fun _ _ => trivial).1.there i c hc
    exact ⟨c', h1, by rw [h2], by rw [h2]⟩
  · have hw := (write_spec (P := fun _ => False) (fun _ _ => id) hp h hg).2
    by_cases hi : i = k
    · subst hi; exact hw.here c hc
    · exact ⟨c, hw.others i c hi hc, rfl, rfl⟩
  · obtain ⟨⟨w, -, hw⟩, -⟩ := adapt_spec (F := fun _ => True) ranged_closed f a (p := p) (fun _ _ => trivial) target h hg fun _ _ => trivial
    obtain ⟨c', h1, h2⟩ := hw.there i c hc
    exact ⟨c', h1, by rw [h2], by rw [h2]⟩

/-- Two RGB_DEEP colours and the first of them written to: a memory a program reaches. -/
theorem Tame.demo {blends raws : Prop} (w : World) : ∃ c d, Session blends raws ⟨w, [c, d]⟩ ∧ c.ctype = .rgbDeep ∧ d.ctype = .hsv := by
  obtain ⟨c, hc⟩ := Conv.construct_total .rgbDeep (vs := [fin 0.25, fin 7, .nan]) 1 none rfl
  obtain ⟨d, hd⟩ := Conv.construct_total .hsv (vs := [fin 400, fin 0.5, fin (-1)]) 1 none rfl
  have s := session_new (session_new (Session.start (blends := blends) (raws := raws) w) (by decide) rfl hc) (by decide) rfl hd
  have hct := (ranged_closed (P := fun _ => True)).make _ _ _ _ _ (by decide) rfl hc
  have hdt := (ranged_closed (P := fun _ => True)).make _ _ _ _ _ (by decide) rfl hd
  obtain ⟨c', hc'⟩ : ∃ c', c.setComponent (fin 3) 1 = ok c' := by
    simp [Color.setComponent, Color.setComponentLim, hct.1.len, Color.count]
  have s' := Session.write _ 0 _ s (Write.setComponent 0 1 (fin 3)) (by simp [rewrite, bind_def, load, lift, hc', store])
  refine ⟨c', d, by simpa [rewrite, bind_def, load, lift, hc', store] using s', ?_, hdt.1.ctype⟩
  exact ((ranged_closed (P := fun _ => True)).comp _ _ _ _ _ hct hc').1.ctype

/-- Case: after two constructors and a write, all objects are well-formed. -/
example (w : World) : ∃ c d, Sound ⟨w, [c, d]⟩ ∧ c.ctype = .rgbDeep ∧ d.ctype = .hsv := by
  obtain ⟨c, d, hs, h1, h2⟩ := demo (blends := True) (raws := True) w
  exact ⟨c, d, C117_sound _ hs, h1, h2⟩

/-- Case: `to_lab` of the first colour keeps the class of both. -/
example (w : World) : ∃ c d, ∃ c' d', (Converter.to_lab (some 0) ⟨w, [c, d]⟩).2.colors[0]? = some c' ∧ (Converter.to_lab (some 0) ⟨w, [c, d]⟩).2.colors[1]? = some d' ∧
    c'.ctype = .rgbDeep ∧ d'.ctype = .hsv := by
  obtain ⟨c, d, hs, h1, h2⟩ := demo (blends := True) (raws := True) w
  obtain ⟨c', k1, -, k2⟩ := (C117_permanent _ hs 0 c rfl).1 _ _ _ _ _ (Call.dispatcher (some 0) .lab)
  obtain ⟨d', k3, -, k4⟩ := (C117_permanent _ hs 1 d rfl).1 _ _ _ _ _ (Call.dispatcher (some 0) .lab)
  exact ⟨c, d, c', d', k1, k3, k2.trans h1, k4.trans h2⟩

/-! ## C118 -/

/-- C118: in a program without compositing, component-wise blending, `alpha_multiply` and `alpha_divide`, every component of every colour is always a number in its documented range. -/
theorem C118_in_range_partial (h : Heap) (hs : Session False False h) (i : Nat) (c : Color) (hc : h.colors[i]? = some c) : ComponentsInRange c := by
  obtain ⟨t, -, hk⟩ := session_good (P := fun _ => True) False.elim False.elim hs i c hc
  exact hk.2 trivial

/-- C118: with compositing and blending the same holds for all types but RGB_DEEP. -/
theorem C118_blending_partial (h : Heap) (hs : Session True False h) (i : Nat) (c : Color) (hc : h.colors[i]? = some c) (ht : c.ctype ≠ .rgbDeep) : ComponentsInRange c := by
  obtain ⟨t, -, hk⟩ := session_good (P := fun t => t ≠ .rgbDeep) (fun _ h => h rfl) False.elim hs i c hc
  exact hk.2 (by rw [← hk.1.ctype]; exact ht)

/-- Case: the components are in range although the program passed 7, NaN, 400, -1 and 3. -/
example (w : World) : ∃ c d, Session False False ⟨w, [c, d]⟩ ∧ ComponentsInRange c ∧ ComponentsInRange d := by
  obtain ⟨c, d, hs, -, -⟩ := demo (blends := False) (raws := False) w
  exact ⟨c, d, hs, C118_in_range_partial _ hs 0 c rfl, C118_in_range_partial _ hs 1 d rfl⟩

/-- Case: with blending, the HSV colour is in range. -/
example (w : World) : ∃ c d, Session True False ⟨w, [c, d]⟩ ∧ ComponentsInRange d := by
  obtain ⟨c, d, hs, -, h2⟩ := demo (blends := True) (raws := False) w
  exact ⟨c, d, hs, C118_blending_partial _ hs 1 d rfl (by rw [h2]; decide)⟩

/-! ## C119 -/

/-- The address `i` belongs to one of the objects handed over, or was free. -/
def Tame.footprint (args : List Ptr) (h : Heap) (i : Nat) : Prop := some i ∈ args ∨ h.colors.length ≤ i

/-- C119: no function changes shared data or the class, type, opacity, limits or colour space of any object, however the call ends, and only the objects handed to it can change at all. -/
theorem C119_calls (h : Heap) (hs : Session True True h) (args : List Ptr) (α : Type) (p : Prog α) (res : α → List Ptr) (pr : Promise) (hp : Call True args α p res pr) :
    (p h).2.world = h.world ∧ ∀ (i : Nat) c, h.colors[i]? = some c → ∃ c', (p h).2.colors[i]? = some c' ∧ c' = { c with comps := c'.comps } ∧ (some i ∉ args → c' = c) := by
  have hg : Good (Ranged fun _ => False) h := session_good (fun _ => id) (fun _ _ => id) hs
  have hF : ∀ q ∈ args, Within (footprint args h) q := fun q hq j hj => Or.inl (hj ▸ hq)
  obtain ⟨ha, -⟩ := call_spec (P := fun _ => False) (fun _ => id) hp hF h hg fun j hj => Or.inr hj
  refine ⟨ha.world, fun i c hc => ?_⟩
  obtain ⟨c', h1, h2⟩ := ha.there i c hc
  refine ⟨c', h1, h2, fun hn => ?_⟩
  have := ha.same i c (fun hf => hf.elim hn fun hl => absurd (List.getElem?_eq_some_iff.mp hc).1 (by omega)) hc
  rw [h1] at this
  exact Option.some.inj this

/-- C119: setters, assignment, gamma correction and the adjustments that take a reference change nothing but the one object. -/
theorem C119_writes (h : Heap) (hs : Session True True h) (k : Nat) (p : Prog Unit) (hp : Write True k p) :
    (p h).2.world = h.world ∧ ∀ (i : Nat) c, i ≠ k → h.colors[i]? = some c → (p h).2.colors[i]? = some c := by
  have hw := (write_spec (P := fun _ => False) (fun _ _ => id) hp h (session_good (fun _ => id) (fun _ _ => id) hs)).2
  exact ⟨hw.world, hw.others⟩

/-- C119: adaptation adds one colour space definition and changes no other shared data; of the colours it changes at most components of the one it is given. -/
theorem C119_adapt (h : Heap) (hs : Session True True h) (f : Adapt.Core) (a : Nat) (p : Ptr) (target : Option Nat) (h' : Heap) (hh : h' = (Adapt.adapt f a p target h).2) :
    h'.world.parts = h.world.parts ∧ h'.world.gammas = h.world.gammas ∧ h'.world.whites = h.world.whites ∧ (∀ b, b ≠ a → h'.world.spaces b = h.world.spaces b) ∧
    ∀ (i : Nat) c, h.colors[i]? = some c → ∃ c', h'.colors[i]? = some c' ∧ c' = { c with comps := c'.comps } ∧ (p ≠ some i → c' = c) := by
  have hg : Good (Ranged fun _ => False) h := session_good (fun _ => id) (fun _ _ => id) hs
  obtain ⟨⟨w, hw, ha⟩, -⟩ := adapt_spec (F := footprint [p] h) ranged_closed f a (p := p) (fun j hj => Or.inl (by simp [hj])) target h hg fun j hj => Or.inr hj
  rw [← hh] at ha
  have e : h'.world = w := ha.world
  refine ⟨e ▸ hw.parts, e ▸ hw.gammas, e ▸ hw.whites, fun b hb => e ▸ hw.spaces b hb, fun i c hc => ?_⟩
  obtain ⟨c', h1, h2⟩ := ha.there i c hc
  refine ⟨c', h1, h2, fun hn => ?_⟩
  have := ha.same i c (fun hf => hf.elim (fun hm => hn (by simpa [eq_comm] using hm)) fun hl => absurd (List.getElem?_eq_some_iff.mp hc).1 (by omega)) hc
  rw [h1] at this
  exact Option.some.inj this

/-- Case: converting the first colour to LAB leaves the second as it is. -/
example (w : World) : ∃ c d, Session True True ⟨w, [c, d]⟩ ∧ (Converter.to_lab (some 0) ⟨w, [c, d]⟩).2.colors[1]? = some d := by
  obtain ⟨c, d, hs, -, -⟩ := demo (blends := True) (raws := True) w
  obtain ⟨d', k, -, e⟩ := (C119_calls _ hs _ _ _ _ _ (Call.dispatcher (some 0) .lab)).2 1 d rfl
  obtain rfl := e (by simp)
  exact ⟨c, d', hs, k⟩

/-- Case: saturating the first colour by reference leaves the second as it is. -/
example (w : World) : ∃ c d, Session True True ⟨w, [c, d]⟩ ∧ (Adjust.byReference Adjust.saturate_in_hsl_space 0 (fin 0.5) ⟨w, [c, d]⟩).2.colors[1]? = some d := by
  obtain ⟨c, d, hs, -, -⟩ := demo (blends := True) (raws := True) w
  exact ⟨c, d, hs, (C119_writes _ hs 0 _ (Write.saturateHsl 0 (fin 0.5))).2 1 d (by decide) rfl⟩

/-- Case: Bradford adaptation of the first colour leaves the second and the gamma curves as they are. -/
example (w : World) : ∃ c d, Session True True ⟨w, [c, d]⟩ ∧ (Adapt.bradford_adaptation 9 (some 0) (some 1) ⟨w, [c, d]⟩).2.world.gammas = w.gammas ∧
    ∃ d', (Adapt.bradford_adaptation 9 (some 0) (some 1) ⟨w, [c, d]⟩).2.colors[1]? = some d' ∧ d' = d := by
  obtain ⟨c, d, hs, -, -⟩ := demo (blends := True) (raws := True) w
  obtain ⟨-, h2, -, -, h5⟩ := C119_adapt _ hs Adapt.bradfordCore 9 (some 0) (some 1) _ rfl
  obtain ⟨d', k, -, e⟩ := h5 1 d rfl
  exact ⟨c, d, hs, h2, d', k, e (by simp)⟩

/-! ## C120 -/

/-- C120: a pointer a function returns is null, or points to an object of the promised type; it is one of the pointers handed over or points to a new object. -/
theorem C120_promises (h : Heap) (hs : Session True True h) (args : List Ptr) (α : Type) (p : Prog α) (res : α → List Ptr) (pr : Promise) (hp : Call True args α p res pr)
    (x : α) (h' : Heap) (e : p h = (ok x, h')) (k : Nat) (hk : some k ∈ res x) :
    (some k ∈ args ∨ h.colors.length ≤ k) ∧
    (∀ t, pr = .typed t → ∃ d, h'.colors[k]? = some d ∧ d.cls = t ∧ d.ctype = t) ∧
    (∀ i c, pr = .like (some i) → h.colors[i]? = some c → ∃ d, h'.colors[k]? = some d ∧ d.cls = c.cls ∧ d.ctype = c.ctype) := by
  have hg : Good (Ranged fun _ => False) h := session_good (fun _ => id) (fun _ _ => id) hs
  have hF : ∀ q ∈ args, Within (footprint args h) q := fun q hq j hj => Or.inl (hj ▸ hq)
  obtain ⟨ha, hg', hr⟩ := call_spec (P := fun _ => False) (fun _ => id) hp hF h hg fun j hj => Or.inr hj
  rw [e] at ha hg' hr
  have hr := hr x rfl (some k) hk
  cases pr with
  | typed t =>
    obtain ⟨h1, d, h2, h3⟩ := hr k rfl
    exact ⟨h1, fun t' ht => by cases ht; exact ⟨d, h2, h3.1.cls, h3.1.ctype⟩, fun i c hh => by cases hh⟩
  | like o =>
    refine ⟨hr.1 k rfl, fun _ ht => (nomatch ht), fun i c ho hc => ?_⟩
    have ho : o = some i := by injection ho
    subst ho
    obtain ⟨c', hc', hkept⟩ := ha.there i c hc
    have hcls : c'.cls = c.cls := by rw [hkept]
    have hct : c'.ctype = c.ctype := by rw [hkept]
    rcases hr.2 with hh | ⟨j, y, hj, hy, hq⟩
    · obtain rfl := Option.some.inj hh
      exact ⟨c', hc', hcls, hct⟩
    · obtain rfl := Option.some.inj hj
      have : y = c' := by rw [hc'] at hy; exact (Option.some.inj hy).symm
      subst this
      obtain ⟨-, d, h2, h3⟩ := hq k rfl
      obtain ⟨t, -, ht⟩ := hg' i y hc'
      exact ⟨d, h2, by rw [h3.1.cls, ← hcls, ht.1.cls, ht.1.ctype], by rw [h3.1.ctype, hct]⟩

/-- Case: what `to_hsl` returns for the second colour is null or an HSL colour. -/
example (w : World) : ∃ c d, Session True True ⟨w, [c, d]⟩ ∧ ∀ k h', Converter.to_hsl (some 1) ⟨w, [c, d]⟩ = (ok (some k), h') → ∃ x, h'.colors[k]? = some x ∧ x.cls = .hsl := by
  obtain ⟨c, d, hs, -, -⟩ := demo (blends := True) (raws := True) w
  refine ⟨c, d, hs, fun k h' e => ?_⟩
  obtain ⟨x, h1, h2, -⟩ := (C120_promises _ hs _ _ _ _ _ (Call.dispatcher (some 1) .hsl) _ _ e k (by simp)).2.1 .hsl rfl
  exact ⟨x, h1, h2⟩

/-- C118 fails for RGB_DEEP: a program of three calls (two constructors and `linear_dodge`) holds a colour that is out of range. -/
theorem C118_violated [ExactModel] (w : World) : ∃ (h : Heap) (i : Nat) (c : Color), Session True False h ∧ h.world = w ∧ h.colors[i]? = some c ∧ c.ctype = .rgbDeep ∧ ¬ ComponentsInRange c := by
  obtain ⟨r, x, hy, hx, h1⟩ := C58_violated .linear_dodge 1 .linear_dodge w none
  have e : Color.construct .rgbDeep [1, 1, 1] (fin 0.5) none = ok (obj .rgbDeep 1 1 1 (fin 0.5) none) := by
    rw [Color.construct_rgbDeep]
    simp [Color.mkRgbDeep, obj, Color.maxOf, Color.minOf, Color.clamp]
  have s2 : ∀ raws, Session True raws ⟨w, [obj .rgbDeep 1 1 1 (fin 0.5) none, obj .rgbDeep 1 1 1 (fin 0.5) none]⟩ := fun _ =>
    session_new (session_new (Session.start w) (by decide) rfl e) (by decide) rfl e
  obtain ⟨q, h', hrun, hq, -, hframe⟩ := hy ⟨w, [obj .rgbDeep 1 1 1 (fin 0.5) none, obj .rgbDeep 1 1 1 (fin 0.5) none]⟩ 0 1 rfl rfl rfl
  have hc := Call.blend (blends := True) true true true (fun _ _ _ s d => ColorBlend.linear_dodge_func s d) (some 0) (some 1) trivial
  have s3 := Session.call _ _ _ _ _ _ (s2 False) hc (by
    have : (Blend.operator true true true (fun _ _ _ s d => ColorBlend.linear_dodge_func s d) (some 0) (some 1) ⟨w, [obj .rgbDeep 1 1 1 (fin 0.5) none, obj .rgbDeep 1 1 1 (fin 0.5) none]⟩).1 = ok (some q) :=
      congrArg Prod.fst hrun
    rw [this]; simp)
  have e2 : (Blend.operator true true true (fun _ _ _ s d => ColorBlend.linear_dodge_func s d) (some 0) (some 1) ⟨w, [obj .rgbDeep 1 1 1 (fin 0.5) none, obj .rgbDeep 1 1 1 (fin 0.5) none]⟩) = (ok (some q), h') := hrun
  rw [e2] at s3
  have hbad : r.ctype = .rgbDeep → ¬ ComponentsInRange r := fun ht hr => by
    obtain ⟨hl, hget⟩ := List.getElem?_eq_some_iff.mp hx
    have := hr 0 hl
    rw [hget, ht] at this
    have := (inRange_fin.mp this).2
    simp [channelRange] at this
    linarith
  obtain ⟨d, hd, -, ht⟩ := (C120_promises _ (s2 True) _ _ _ _ _ hc _ _ e2 q (by simp)).2.2 0 _ rfl rfl
  rw [hq] at hd
  obtain rfl := Option.some.inj hd
  exact ⟨h', q, r, s3, hframe.1, hq, ht, hbad ht⟩

end
