import Verif.AdaptCores
import Verif.Props.Combinations

/-!
# Properties C79–C81 and C96–C99: chromatic adaptation

Pointers, memory and shared objects: every arithmetic.  Colour values: exact arithmetic.
-/

open Outcome Fl Prog ObjectSpec ConvSpec CombineSpec Matrix

namespace AdaptSpec

/-- The adaptation methods with their parameters. -/
inductive Method where
  | simple (m : AdaptMatrix)
  | bradford
  | cmccat97 (f la : Fl)
  | cmccat2000 (f la lr : Fl)
  | cat02 (f la : Fl)

namespace Method

/-- The function of the library. -/
noncomputable def fn [FloatModel] : Method → Nat → Ptr → Option Nat → Prog Ptr
  | simple .von_kries => Adapt.von_kries_adaptation
  | simple .bradford => Adapt.bradford_adaptation_simplified
  | simple .xyz_scale => Adapt.xyz_scale_adaptation
  | simple .sharp => Adapt.sharp_adaptation
  | simple .cmccat97 => Adapt.cmccat97_adaptation_simplified
  | simple .cmccat2000 => Adapt.cmccat2000_adaptation_simplified
  | simple .cat02 => Adapt.cat02_adaptation_simplified
  | bradford => Adapt.bradford_adaptation
  | cmccat97 f la => Adapt.cmccat97_adaptation f la
  | cmccat2000 f la lr => Adapt.cmccat2000_adaptation f la lr
  | cat02 f la => Adapt.cat02_adaptation f la

/-- The methods that look at the second component of the colour. -/
def Normalises : Method → Prop
  | bradford => True
  | cmccat97 _ _ => True
  | _ => False

end Method

/-- Object `i` of memory `h` is the colour `c` of class `s`; its colour space definition at `sp` is usable and has the white point at `u`, which is not `t`. -/
structure Setting (h : Heap) (i : Nat) (s : ColorType) (c : Color) (sp u t : Nat) : Prop where
  here : h.colors[i]? = some c
  col : IsColor s c
  space : c.space = some sp
  usable : (h.world.spaces sp).Usable
  white : (h.world.spaces sp).white = some u
  other : u ≠ t

/-- `d` is the definition `s` with the white point `t` and otherwise the same primaries and gamma curve. -/
structure Rewhited (s : SpaceDef) (t : Nat) (d : SpaceDef) : Prop where
  red : d.red = s.red
  green : d.green = s.green
  blue : d.blue = s.blue
  gamma : d.gamma = s.gamma
  white : d.white = some t

/-- Classes whose objects have at least two components. -/
def Wide (s : ColorType) : Prop := s ≠ .greyTrue ∧ s ≠ .greyDeep

section
variable [FloatModel]

theorem fn_core (q : Method) : ∃ f, q.fn = Adapt.adapt f := by
  rcases q with m | _ | _ | _ | _
  · cases m <;> exact ⟨_, rfl⟩
  all_goals exact ⟨_, rfl⟩

theorem core_total (q : Method) : ∃ f, q.fn = Adapt.adapt f ∧ ∀ (own : List Fl), (q.Normalises → 2 ≤ own.length) → ∀ x y z s d, ∃ v0 v1 v2, f [x, y, z] own s d = ok [v0, v1, v2] := by
  have two : ∀ own : List Fl, 2 ≤ own.length → ∃ a b l, own = a :: b :: l
    | [], h => by simp at h
    | [_], h => by simp at h
    | a :: b :: l, _ => ⟨a, b, l, rfl⟩
  rcases q with m | _ | ⟨f, la⟩ | ⟨f, la, lr⟩ | ⟨f, la⟩
  · refine ⟨Adapt.simplified m, by cases m <;> rfl, fun own _ x y z s d => Adapt.simplified_total m x y z own s d⟩
  · refine ⟨Adapt.bradfordCore, rfl, fun own h x y z s d => ?_⟩
    obtain ⟨a, b, l, rfl⟩ := two own (h trivial)
    exact Adapt.bradfordCore_total x y z a b l s d
  · refine ⟨Adapt.cmccat97Core f la, rfl, fun own h x y z s d => ?_⟩
    obtain ⟨a, b, l, rfl⟩ := two own (h trivial)
    exact Adapt.cmccat97Core_total f la x y z a b l s d
  · exact ⟨Adapt.cmccat2000Core f la lr, rfl, fun own _ x y z s d => Adapt.cmccat2000Core_total f la lr x y z own s d⟩
  · exact ⟨Adapt.cat02Core f la, rfl, fun own _ x y z s d => Adapt.cat02Core_total f la x y z own s d⟩

theorem wide_count {s : ColorType} (hd : s ≠ .undefined) (h : Wide s) : 2 ≤ Color.count s := by
  cases s <;> simp_all [Color.count, Wide]

/-- Every method runs on every colour it can handle. -/
theorem method_run (q : Method) {h : Heap} {i : Nat} {s : ColorType} {c : Color} {sp u t : Nat} (hs : Setting h i s c sp u t) (ht : Combine.Target s) (hq : q.Normalises → Wide s) (a : Nat) :
    ∃ f x v0 v1 v2 d r k h', q.fn = Adapt.adapt f ∧ f x.comps (Conv.effect s .xyz h.world c).comps (h.world.whites u).tri (h.world.whites t).tri = ok [v0, v1, v2] ∧
      (h.world.spaces sp).setWhitePoint h.world.whites (some t) = (d, ok ()) ∧ SpaceDef.Redefined (h.world.spaces sp) t d ∧ d.Usable ∧ Adapt.Run f a h i s c t x v0 v1 v2 d r k h' := by
  obtain ⟨f, e, hf⟩ := core_total q
  have hown := (Adapt.effect_color (w := h.world) hs.col).1.len
  obtain ⟨x, v0, v1, v2, d, r, k, h', h1, h2, h3, h4, h5⟩ := Adapt.adapt_run (a := a) ht hs.col hs.here hs.space hs.usable hs.white hs.other
    (fun x y z => hf (Conv.effect s .xyz h.world c).comps (fun hn => by rw [hown]; exact wide_count ht.1 (hq hn)) x y z (h.world.whites u).tri (h.world.whites t).tri)
  exact ⟨f, x, v0, v1, v2, d, r, k, h', e, h1, h2, h3, h4, h5⟩

end

end AdaptSpec

open AdaptSpec

section every
variable [FloatModel]

/-! ## C81: shared objects -/

/-- C81 for all methods: the colour space definition of the input, every other definition, all white points and gamma curves are untouched; the result gets a definition of its own
with the target white point, the old primaries and the old gamma curve.  Missing: LCH colours (`C99_lch_violated`), grey colours for the two methods that read a second component
(`C99_grey_violated`). -/
theorem C81_partial (q : Method) (h : Heap) (i : Nat) (s : ColorType) (c : Color) (sp u t a : Nat) (hs : Setting h i s c sp u t) (hd : s ≠ .undefined) (hl : s ≠ .lchAb ∧ s ≠ .lchUv)
    (hq : q.Normalises → Wide s) (ha : a ≠ sp) :
    ∃ k r h', q.fn a (some i) (some t) h = (ok (some k), h') ∧ h'.colors[k]? = some r ∧ r.space = some a ∧ Rewhited (h.world.spaces sp) t (h'.world.spaces a) ∧ (h'.world.spaces a).Usable ∧
      h'.world.spaces sp = h.world.spaces sp ∧ (∀ b, b ≠ a → h'.world.spaces b = h.world.spaces b) ∧ h'.world.whites = h.world.whites ∧ h'.world.gammas = h.world.gammas ∧
      h'.world.parts = h.world.parts := by
  obtain ⟨f, x, v0, v1, v2, d, r, k, h', e, -, -, h3, h4, h5⟩ := method_run q hs ⟨hd, hl⟩ hq a
  have hw := h5.world
  refine ⟨k, r, h', by rw [e]; exact h5.run, h5.here, h5.space, ?_⟩
  rw [hw]
  refine ⟨?_, by simpa [Adapt.extend] using h4, by simp [Adapt.extend, Function.update_of_ne (Ne.symm ha)], fun b hb => by simp [Adapt.extend, Function.update_of_ne hb], rfl, rfl, rfl⟩
  simp only [Adapt.extend, Function.update_self]
  exact ⟨h3.red, h3.green, h3.blue, h3.gamma, h3.white⟩

/-- The new definition maps RGB white to the target white point. -/
theorem C81_transform_partial [ExactModel] (q : Method) (h : Heap) (i : Nat) (s : ColorType) (c : Color) (sp u t a : Nat) (hs : Setting h i s c sp u t) (hd : s ≠ .undefined)
    (hl : s ≠ .lchAb ∧ s ≠ .lchUv) (hq : q.Normalises → Wide s) (P : Matrix (Fin 3) (Fin 3) ℝ) (w v : Fin 3 → ℝ) (hr : SpaceDef.Regular h.world.whites (h.world.spaces sp) P w)
    (hv : (h.world.whites t).tri = ⟨fin (v 0), fin (v 1), fin (v 2)⟩) :
    ∃ k h', q.fn a (some i) (some t) h = (ok (some k), h') ∧ (h'.world.spaces a).transform.mulVec [1, 1, 1] = ok [fin (v 0), fin (v 1), fin (v 2)] := by
  obtain ⟨f, x, v0, v1, v2, d, r, k, h', e, -, h2, h3, h4, h5⟩ := method_run q hs ⟨hd, hl⟩ hq a
  refine ⟨k, h', by rw [e]; exact h5.run, ?_⟩
  have hreg : SpaceDef.Regular h.world.whites { h.world.spaces sp with white := some t } P v := ⟨hr.red, hr.green, hr.blue, ⟨t, rfl, hv⟩, hr.det⟩
  rw [SpaceDef.setWhitePoint, SpaceDef.recompute_ok hreg] at h2
  rw [h5.world]
  simp only [Adapt.extend, Function.update_self, ← (Prod.mk.inj h2).1]
  have : ([1, 1, 1] : List Fl) = [fin ((![1, 1, 1] : Fin 3 → ℝ) 0), fin ((![1, 1, 1] : Fin 3 → ℝ) 1), fin ((![1, 1, 1] : Fin 3 → ℝ) 2)] := by simp [one_def]
  rw [this, Mat.mulVec_three Mat.emb_fin, SpaceDef.idealMat_white P v hr.det]

/-! ## C96: the input colour -/

/-- C96 except for RGB_DEEP: every colour that existed before, the input included, is unchanged.  Missing: RGB_DEEP (`C96_violated`), LCH, and grey for the two methods of C99. -/
theorem C96_partial (q : Method) (h : Heap) (i : Nat) (s : ColorType) (c : Color) (sp u t a : Nat) (hs : Setting h i s c sp u t) (hd : s ≠ .undefined) (hl : s ≠ .lchAb ∧ s ≠ .lchUv)
    (hq : q.Normalises → Wide s) (hr : s ≠ .rgbDeep) :
    ∃ k h', q.fn a (some i) (some t) h = (ok (some k), h') ∧ h.colors.length ≤ k ∧ ∀ (j : Nat) (e : Color), h.colors[j]? = some e → h'.colors[j]? = some e := by
  obtain ⟨f, x, v0, v1, v2, d, r, k, h', e, -, -, -, -, h5⟩ := method_run q hs ⟨hd, hl⟩ hq a
  refine ⟨k, h', by rw [e]; exact h5.run, h5.new, fun j o hj => ?_⟩
  rw [h5.others j o hj]
  split
  · next hji =>
    subst hji
    have : Conv.effect s .xyz h.world c = c := by cases s <;> first | rfl | exact absurd rfl hr
    rw [this]
    have := hs.here
    rw [hj] at this
    exact this.symm
  · rfl

/-- C96, all other objects: also for RGB_DEEP. -/
theorem C96_others (q : Method) (h : Heap) (i : Nat) (s : ColorType) (c : Color) (sp u t a : Nat) (hs : Setting h i s c sp u t) (hd : s ≠ .undefined) (hl : s ≠ .lchAb ∧ s ≠ .lchUv)
    (hq : q.Normalises → Wide s) :
    ∃ k h', q.fn a (some i) (some t) h = (ok (some k), h') ∧ h.colors.length ≤ k ∧ ∀ (j : Nat) (e : Color), j ≠ i → h.colors[j]? = some e → h'.colors[j]? = some e := by
  obtain ⟨f, x, v0, v1, v2, d, r, k, h', e, -, -, -, -, h5⟩ := method_run q hs ⟨hd, hl⟩ hq a
  refine ⟨k, h', by rw [e]; exact h5.run, h5.new, fun j o hne hj => ?_⟩
  rw [h5.others j o hj, if_neg hne]

/-! ## C99: the type of the result -/

/-- C99: the result is a colour of the class of the input, with all components within the limits of the class. -/
theorem C99_partial (q : Method) (h : Heap) (i : Nat) (s : ColorType) (c : Color) (sp u t a : Nat) (hs : Setting h i s c sp u t) (hd : s ≠ .undefined) (hl : s ≠ .lchAb ∧ s ≠ .lchUv)
    (hq : q.Normalises → Wide s) :
    ∃ k h' r, q.fn a (some i) (some t) h = (ok (some k), h') ∧ h'.colors[k]? = some r ∧ h.colors.length ≤ k ∧ IsColor s r ∧ ComponentsInRange r := by
  obtain ⟨f, x, v0, v1, v2, d, r, k, h', e, -, -, -, -, h5⟩ := method_run q hs ⟨hd, hl⟩ hq a
  refine ⟨k, h', r, by rw [e]; exact h5.run, h5.here, h5.new, h5.col, ?_⟩
  have er := h5.back
  by_cases hx : s = .xyz
  · subst hx
    rw [Val.to, if_pos rfl, ok_inj] at er
    rw [← er]
    exact (Conv.construct_result (t := .xyz) (by simp) rfl (Color.construct_xyz v0 v1 v2 (a := x.alpha) (sp := some a))).rng
  · rw [Val.to, if_neg (Ne.symm hx)] at er
    exact ((Conv.good_direct .xyz s (by simp) hd (Ne.symm hx)).result _ _ _ er).rng

/-- C99 fails for LCH colours: every method returns a null pointer. -/
theorem C99_lch_violated (q : Method) (h : Heap) (i : Nat) (s : ColorType) (c : Color) (sp u t a : Nat) (hs : Setting h i s c sp u t) (hl : s = .lchAb ∨ s = .lchUv) :
    (q.fn a (some i) (some t) h).1 = ok none := by
  obtain ⟨f, e, hf⟩ := core_total q
  have hown := (Adapt.effect_color (w := h.world) hs.col).1.len
  have hw : Wide s := by rcases hl with rfl | rfl <;> simp [Wide]
  have hd : s ≠ .undefined := by rcases hl with rfl | rfl <;> simp
  obtain ⟨x, v0, v1, v2, d, h1, -, -, -, -, -, -, -, -, -, e'⟩ := Adapt.adapt_most (a := a) hd hs.col hs.here hs.space hs.usable hs.white hs.other
    (fun x y z => hf (Conv.effect s .xyz h.world c).comps (fun _ => by rw [hown]; exact wide_count hd hw) x y z (h.world.whites u).tri (h.world.whites t).tri)
  rw [e, e']
  rcases hl with rfl | rfl <;> rfl

/-- C99 fails for grey colours with `bradford_adaptation` and `cmccat97_adaptation`: they read the second component, which does not exist. -/
theorem C99_grey_violated (q : Method) (hq : q.Normalises) (h : Heap) (i : Nat) (s : ColorType) (c : Color) (sp u t a : Nat) (hs : Setting h i s c sp u t) (hg : s = .greyTrue ∨ s = .greyDeep) :
    (q.fn a (some i) (some t) h).1 = .ub := by
  have hd : s ≠ .undefined := by rcases hg with rfl | rfl <;> simp
  have he : Conv.effect s .xyz h.world c = c := by rcases hg with rfl | rfl <;> rfl
  obtain ⟨o, ho⟩ : ∃ o, c.comps = [o] := by
    have : c.comps.length = 1 := by rw [hs.col.len]; rcases hg with rfl | rfl <;> rfl
    exact List.length_eq_one_iff.mp this
  rcases q with m | _ | ⟨f, la⟩ | ⟨f, la, lr⟩ | ⟨f, la⟩
  · exact hq.elim
  · exact Adapt.adapt_ub (f := Adapt.bradfordCore) hd hs.col hs.here hs.space hs.usable hs.white hs.other (fun x y z => by rw [he, ho]; rfl)
  · exact Adapt.adapt_ub (f := Adapt.cmccat97Core f la) hd hs.col hs.here hs.space hs.usable hs.white hs.other (fun x y z => by rw [he, ho]; rfl)
  · exact hq.elim
  · exact hq.elim

end every

/-! ## An example -/

/-- A memory with the colour `c`: colour space definition 0 with the identity as matrix; white point 0 is (1, 1, 1), all others are (0.9, 1, 0.8). -/
noncomputable def AdaptSpec.demo [FloatModel] (w : World) (c : Color) : Heap :=
  ⟨{ w with
      whites := fun n => if n = 0 then ⟨⟨1, 1, 1⟩, ⟨fin 1, fin 1, fin 1⟩⟩ else ⟨⟨1, 1, 1⟩, ⟨fin 0.9, fin 1, fin 0.8⟩⟩
      spaces := fun _ => ⟨⟨1, 0, 0⟩, ⟨0, 1, 0⟩, ⟨0, 0, 1⟩, some 0, ⟨3, 3, [[1, 0, 0], [0, 1, 0], [0, 0, 1]]⟩, ⟨3, 3, [[1, 0, 0], [0, 1, 0], [0, 0, 1]]⟩, some 0⟩ }, [c]⟩

theorem AdaptSpec.demo_setting [FloatModel] (w : World) (s : ColorType) (c : Color) (hc : IsColor s c) (hsp : c.space = some 0) : Setting (demo w c) 0 s c 0 0 1 :=
  ⟨rfl, hc, hsp, ⟨by simp [demo], by simp [demo], Mat.mk_shape3 _ _ _ _ _ _ _ _ _, Mat.mk_shape3 _ _ _ _ _ _ _ _ _⟩, rfl, by simp⟩

/-- A CMYK colour, all methods. -/
example [FloatModel] (w : World) (q : Method) : ∃ c k r h', Color.construct .cmyk [fin 0.25, fin 0.5, fin 0, fin 0.125] 1 (some 0) = ok c ∧
    q.fn 7 (some 0) (some 1) (demo w c) = (ok (some k), h') ∧ h'.colors[k]? = some r ∧ r.space = some 7 ∧ (h'.world.spaces 7).white = some 1 ∧ (h'.world.spaces 0).white = some 0 := by
  obtain ⟨c, e⟩ := Conv.construct_total .cmyk (vs := [fin 0.25, fin 0.5, fin 0, fin 0.125]) 1 (some 0) rfl
  have hf := Conv.construct_result (t := .cmyk) (by simp) rfl e
  obtain ⟨k, r, h', h1, h2, h3, h4, -, h6, -⟩ := C81_partial q (demo w c) 0 .cmyk c 0 0 1 7 (demo_setting w .cmyk c hf.col hf.space) (by simp) (by simp) (fun _ => by simp [Wide]) (by simp)
  exact ⟨c, k, r, h', e, h1, h2, h3, h4.white, by rw [h6]; rfl⟩

/-- An RGB_TRUE colour: unchanged, with a result in RGB_TRUE. -/
example [FloatModel] (w : World) (q : Method) (c : Color) (e : Color.construct .rgbTrue [200, 100, 50] 255 (some 0) = ok c) :
    (∃ k h', q.fn 7 (some 0) (some 1) (demo w c) = (ok (some k), h') ∧ h'.colors[0]? = some c) ∧
    ∃ k h' r, q.fn 7 (some 0) (some 1) (demo w c) = (ok (some k), h') ∧ h'.colors[k]? = some r ∧ IsColor .rgbTrue r := by
  have hf := Conv.construct_result (t := .rgbTrue) (by simp) rfl e
  have hs := demo_setting w .rgbTrue c hf.col hf.space
  obtain ⟨k, h', h1, -, h3⟩ := C96_partial q (demo w c) 0 .rgbTrue c 0 0 1 7 hs (by simp) (by simp) (fun _ => by simp [Wide]) (by simp)
  obtain ⟨k2, h2', r, g1, g2, -, g3, -⟩ := C99_partial q (demo w c) 0 .rgbTrue c 0 0 1 7 hs (by simp) (by simp) (fun _ => by simp [Wide])
  exact ⟨⟨k, h', h1, h3 0 c rfl⟩, k2, h2', r, g1, g2, g3⟩

/-- The transform of the example. -/
example [FloatModel] [ExactModel] (w : World) (q : Method) (c : Color) (e : Color.construct .hsl [120, 1, fin 0.5] 1 (some 0) = ok c) :
    ∃ k h', q.fn 7 (some 0) (some 1) (demo w c) = (ok (some k), h') ∧ (h'.world.spaces 7).transform.mulVec [1, 1, 1] = ok [fin 0.9, fin 1, fin 0.8] := by
  have hf := Conv.construct_result (t := .hsl) (by simp) rfl e
  have hs := demo_setting w .hsl c hf.col hf.space
  refine C81_transform_partial q (demo w c) 0 .hsl c 0 0 1 7 hs (by simp) (by simp) (fun _ => by simp [Wide]) 1 ![1, 1, 1] ![0.9, 1, 0.8] ?_ (by simp [demo])
  refine ⟨?_, ?_, ?_, ⟨0, rfl, by simp [demo]⟩, by simp⟩ <;> simp [demo, one_def, zero_def]

/-- LCH and grey colours as in the negative theorems exist. -/
example [FloatModel] (w : World) : ∃ c d, Color.construct .lchAb [50, 20, 30] 1 (some 0) = ok c ∧ (Adapt.sharp_adaptation 7 (some 0) (some 1) (demo w c)).1 = ok none ∧
    Color.construct .greyDeep [fin 0.5] 1 (some 0) = ok d ∧ (Adapt.bradford_adaptation 7 (some 0) (some 1) (demo w d)).1 = .ub := by
  obtain ⟨c, e⟩ := Conv.construct_total .lchAb (vs := [50, 20, 30]) 1 (some 0) rfl
  obtain ⟨d, e'⟩ := Conv.construct_total .greyDeep (vs := [fin 0.5]) 1 (some 0) rfl
  have hf := Conv.construct_result (t := .lchAb) (by simp) rfl e
  have hf' := Conv.construct_result (t := .greyDeep) (by simp) rfl e'
  exact ⟨c, d, e, C99_lch_violated (.simple .sharp) _ 0 .lchAb c 0 0 1 7 (demo_setting w _ c hf.col hf.space) (Or.inl rfl),
    e', C99_grey_violated .bradford trivial _ 0 .greyDeep d 0 0 1 7 (demo_setting w _ d hf'.col hf'.space) (Or.inr rfl)⟩

/-- C96 fails for RGB_DEEP: adapting mid grey of an sRGB space with gamma 2.2 darkens the grey that was passed in, whatever the method. -/
theorem C96_violated [StdSort] [FloatModel] [ExactModel] (q : Method) : ∃ (h : Heap) (c d : Color) (t k : Nat) (h' : Heap),
    Color.construct .rgbDeep [fin 0.5, fin 0.5, fin 0.5] 1 (some 0) = ok c ∧ h.colors = [c] ∧ q.fn 1 (some 0) (some t) h = (ok (some k), h') ∧ h'.colors[0]? = some d ∧
    ∃ x : ℝ, x < 0.3 ∧ d.comps = [fin x, fin x, fin x] := by
  obtain ⟨w, ⟨sp, hsp, hu⟩, hg, hwh, -, -, -, hcurve⟩ := exists_world .sRGB .g2_2
  obtain rfl : 0 = sp := by simpa using hsp
  have hc : Color.clamp (fin 0.5) 1 0 = fin 0.5 := Conv.clamp_unit (by norm_num) (by norm_num)
  have e : Color.construct .rgbDeep [fin 0.5, fin 0.5, fin 0.5] 1 (some 0) = ok (Color.mkRgbDeep (fin 0.5) (fin 0.5) (fin 0.5) 1 (some 0)) :=
    Color.construct_rgbDeep _ _ _ _ _
  set c := Color.mkRgbDeep (fin 0.5) (fin 0.5) (fin 0.5) 1 (some 0) with hcdef
  have hf := Conv.construct_result (t := .rgbDeep) (by simp) rfl e
  have hs : Setting ⟨w, [c]⟩ 0 .rgbDeep c 0 0 1 := ⟨rfl, hf.col, hf.space, hu, hwh, by simp⟩
  obtain ⟨f, x, v0, v1, v2, d, r, k, h', ef, -, -, -, -, h5⟩ := method_run q hs ⟨by simp, by simp, by simp⟩ (fun _ => by simp [Wide]) 1
  have h0 := h5.others 0 c rfl
  rw [if_pos rfl] at h0
  refine ⟨⟨w, [c]⟩, c, _, 1, k, h', e, rfl, by rw [ef]; exact h5.run, h0, (0.5 : ℝ) ^ (11/5 : ℝ), ?_, ?_⟩
  · have := GammaPreset.rpow_lt_of_pow (a := 0.5) (b := 0.3) (m := 11) (n := 5) (by norm_num) (by norm_num) (by norm_num) (by norm_num)
    simpa using this
  · have hx : (w.gammas 0).inverse w.parts (fin 0.5) = fin ((0.5 : ℝ) ^ (11/5 : ℝ)) := by
      rw [(hcurve _).2, (GammaPreset.eval_power (p := .g2_2) (by simp [GammaPreset.IsPower]) (by norm_num) (by norm_num)).2]; rfl
    have hu := GammaPreset.pow_unit (x := 0.5) (a := 11/5) (by norm_num) (by norm_num) (by norm_num)
    simp only [Conv.effect, Conv.viaXyz, Val.linearised, Leaf.inverseGamma, World.space, World.gamma, hcdef, Color.mkRgbDeep, hg, ok_bind, Color.applyGamma, hc, List.map_cons, List.map_nil, hx,
      Conv.clamp_unit hu.1 hu.2]
