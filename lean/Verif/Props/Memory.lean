import Verif.MemorySpec
import Verif.GrowLib
import Verif.Props.Sessions

open Outcome Fl Prog ObjectSpec SessionSpec MemorySpec Grow

/-! ## C148 -/

section
variable [FloatModel]

/-- Helper: the conversion functions for two classes. -/
theorem Grow.adds_direct (s t : ColorType) (p : Ptr) : Adds (hops s t) (Conv.direct s t p) := by
  cases s <;> cases t <;> simp only [Conv.direct, Conv.direct_rgb_true, Conv.direct_rgb_deep, Conv.direct_grey_true, Conv.direct_grey_deep, Conv.direct_cmyk, Conv.direct_hsi,
    Conv.direct_hsv, Conv.direct_hsl, Conv.direct_hcy, Conv.direct_xyz, Conv.direct_xyy, Conv.direct_cieluv, Conv.direct_lab, Conv.direct_lch_ab, Conv.direct_lch_uv] <;>
    first | exact adds_call p | exact adds_pure _

/-- Helper: one case of a conversion that looks at the type. -/
theorem Grow.adds_case {n : Nat} {t : ColorType} {f : Ptr → Prog Ptr} [Makes f n] (p : Ptr) : Adds n (Converter.cast t p >>= f) := (adds_cast _ _).skip fun _ => adds_call _

/-- Helper: the rest after reading the object. -/
theorem Grow.adds_at {n : Nat} {α : Type} {i : Nat} {c : Color} {h : Heap} {f : Color → Prog α} (hi : h.colors[i]? = some c) (hf : Adds n (f c)) :
    ((load (some i) >>= f) h).2.colors.length ≤ h.colors.length + n ∧ ∀ a, ((load (some i) >>= f) h).1 = ok a → ((load (some i) >>= f) h).2.colors.length = h.colors.length + n := by
  have e : (load (some i) >>= f) h = f c h := by rw [bind_def]; simp [load, hi]
  rw [e]
  exact ⟨(hf.1 h).2, hf.2 h⟩

/-- C148: a conversion between two given classes that ends normally makes exactly the objects of the table; one that fails makes no more. -/
theorem C148_direct (s t : ColorType) (p : Ptr) (h : Heap) : (Conv.direct s t p h).2.colors.length ≤ h.colors.length + hops s t ∧
    ∀ q, (Conv.direct s t p h).1 = ok q → (Conv.direct s t p h).2.colors.length = h.colors.length + hops s t := ⟨((adds_direct s t p).1 h).2, (adds_direct s t p).2 h⟩

/-- C148: the conversions that look at the type of their argument. -/
theorem C148_dispatcher (t : ColorType) (h : Heap) (i : Nat) (c : Color) (hi : h.colors[i]? = some c) : (Conv.dispatcher t (some i) h).2.colors.length ≤ h.colors.length + hops c.ctype t ∧
    ∀ q, (Conv.dispatcher t (some i) h).1 = ok q → (Conv.dispatcher t (some i) h).2.colors.length = h.colors.length + hops c.ctype t := by
  rcases c with ⟨k, s, vs, a, mx, mn, sp⟩
  cases t <;> cases s <;> simp only [Conv.dispatcher] <;> first
    | exact adds_at hi (adds_case _)
    | exact adds_at hi (adds_cast _ _)
    | exact adds_at hi (adds_pure _)
    | exact ⟨le_rfl, fun _ _ => rfl⟩

/-- C148: `convertTo` likewise; it makes nothing for the two types it does not know. -/
theorem C148_convertTo (t : ColorType) (h : Heap) (i : Nat) (c : Color) (hi : h.colors[i]? = some c) (q : Ptr) (hq : (Converter.convertTo (some i) t h).1 = ok q) :
    (Converter.convertTo (some i) t h).2.colors.length = h.colors.length + if t = .lchAb ∨ t = .lchUv then 0 else hops c.ctype t := by
  have key := (C148_dispatcher t h i c hi).2
  cases t <;> first
    | exact key q hq
    | rfl

/-- C148: a conversion to the own type makes nothing; every other conversion makes something. -/
theorem C148_identity (s t : ColorType) (hs : s ≠ .undefined) (ht : t ≠ .undefined) : hops s t = 0 ↔ s = t := by
  cases s <;> cases t <;> first | exact absurd rfl hs | exact absurd rfl ht | decide

/-- Case: from LCH_AB to GREY_TRUE there are five objects, four of them not returned to anybody. -/
example (p : Ptr) (h : Heap) (q : Ptr) (hq : (Conv.direct .lchAb .greyTrue p h).1 = ok q) : (Conv.direct .lchAb .greyTrue p h).2.colors.length = h.colors.length + 5 := (C148_direct _ _ p h).2 q hq

/-- Case: such a conversion does end normally: an RGB_DEEP colour as CMYK. -/
example (w : World) : ∃ c q h', Color.construct .rgbDeep [1, 0, 0] 1 none = ok c ∧ Conv.dispatcher .cmyk (some 0) ⟨w, [c]⟩ = (ok q, h') ∧ h'.colors.length = 2 := by
  obtain ⟨c, e⟩ := Conv.construct_total .rgbDeep (vs := [1, 0, 0]) 1 none rfl
  have hf := Conv.construct_result (t := .rgbDeep) (by simp) rfl e
  obtain ⟨d, hd, -⟩ := val_to_total (s := .rgbDeep) (t := .cmyk) (by simp) (by simp) (w := w) hf.col (by simp [ConvSpec.Cie])
  obtain ⟨q, h', e', -⟩ := call_to (h := ⟨w, [c]⟩) (i := 0) (by simp) (by simp) hf.col rfl hd
  have := (C148_dispatcher .cmyk ⟨w, [c]⟩ 0 c rfl).2 (some q) (by rw [e'])
  rw [e', hf.col.ctype] at this
  exact ⟨c, some q, h', e, e', this⟩

/-! ## C149 -/

/-- Helper: at most 33 objects for every colour asked for. -/
theorem Grow.asks {α : Type} {p : Prog α} {k : Nat} (h : Asks α p k) : UpTo (33 * k) p := by
  cases h with
  | small h hl =>
    cases h with
    | create => exact (UpTo.skip (adds_lift _) fun _ => (adds_alloc _).1).weaken (by omega)
    | hexInt => exact (UpTo.skip (adds_lift _) fun _ => (adds_alloc _).1).weaken (by omega)
    | hexString => exact (UpTo.skip (adds_lift _) fun _ => (adds_alloc _).1).weaken (by omega)
    | copy => exact (UpTo.skip (adds_load _) fun _ => (adds_alloc _).1).weaken (by omega)
    | fromBase => exact (UpTo.skip (adds_load _) fun _ => UpTo.skip (adds_lift _) fun _ => (adds_alloc _).1).weaken (by omega)
    | convertTo => exact (f_convertTo _ _).weaken (by omega)
    | dispatcher => exact (f_dispatcher _ _).weaken (by omega)
    | direct => exact (f_direct _ _ _).weaken (by omega)
    | blend => exact (f_operator _ _ _ _).weaken (by omega)
    | hue => exact (f_hue _ _).weaken (by omega)
    | saturation => exact (f_saturation _ _).weaken (by omega)
    | color => exact (f_color _ _).weaken (by omega)
    | luminosity => exact (f_luminosity _ _).weaken (by omega)
    | add => exact (f_add _ _ _).weaken (by omega)
    | addOf => exact (f_addOf _ _ _ _ _ _).weaken (by omega)
    | mix => exact (f_mix _ _).weaken (by omega)
    | mixOf => exact (f_mixOf _ _ _ _ _).weaken (by omega)
    | subtract => exact (f_subtract _ _).weaken (by omega)
    | subOf => exact (f_subOf _ _ _ _ _).weaken (by omega)
    | average => exact (f_average _ _ _).weaken (by omega)
    | saturateRgb => exact (f_saturate_in_rgb_space _).weaken (by omega)
    | saturateHsl => exact (f_saturate_in_hsl_space _).weaken (by omega)
    | luminateRgb => exact (f_luminate_in_rgb_space _).weaken (by omega)
    | luminateHsl => exact (f_luminate_in_hsl_space _).weaken (by omega)
    | complimentary => exact f_create_complimentary.weaken (by omega)
    | squared => exact (f_squared _).weaken (by omega)
    | euclidean => exact (f_euclidean _).weaken (by omega)
    | weighted => exact (f_between _).weaken (by omega)
    | cie76 => exact (f_between _).weaken (by omega)
    | cie94 => exact (f_between _).weaken (by omega)
    | cie00 => exact (f_between _).weaken (by omega)
    | cmc => exact (f_between _).weaken (by omega)
    | _ => exact absurd (hl [none, none]) (by decide)
  | combination p n => exact (f_create_combination n).weaken (by omega)
  | triplet => exact (f_create_combination 3).weaken (by decide)
  | quartet => exact (f_create_combination 4).weaken (by decide)
  | quintet => exact (f_create_combination 5).weaken (by decide)
  | analogous => exact (f_create_analogous _).weaken (by omega)
  | monochromatic p mode x n => exact (f_create_monochromatic mode x n).weaken (by omega)
  | complimentarySplit => exact (f_create_complimentary_split _).weaken (by omega)

/-- Helper: a call that writes. -/
theorem Grow.writes {i : Nat} {p : Prog Unit} (h : Write True i p) : UpTo 33 p := by
  have rw : ∀ i g, UpTo 33 (rewrite i g) := fun i g => (UpTo.skip (adds_load _) fun _ => UpTo.skip (adds_lift _) fun _ => (adds_store _ _).1).weaken (by omega)
  cases h with
  | saturateRgb => exact (f_byReference (fun _ => f_saturate_in_rgb_space _) _).weaken (by omega)
  | saturateHsl => exact (f_byReference (fun _ => f_saturate_in_hsl_space _) _).weaken (by omega)
  | luminateRgb => exact (f_byReference (fun _ => f_luminate_in_rgb_space _) _).weaken (by omega)
  | luminateHsl => exact (f_byReference (fun _ => f_luminate_in_hsl_space _) _).weaken (by omega)
  | assign => exact UpTo.skip (adds_load _) fun _ => rw _ _
  | _ => exact rw _ _

/-- C149: no call, however it ends, removes objects or adds more than 33 for every colour it is asked for. -/
theorem C149_call {α : Type} {p : Prog α} {k : Nat} (hp : Asks α p k) (h : Heap) : h.colors.length ≤ (p h).2.colors.length ∧ (p h).2.colors.length ≤ h.colors.length + 33 * k := Grow.asks hp h

/-- C149: a program that has asked for `n` colours has at most `33 n` objects in memory. -/
theorem C149_program (n : Nat) (h : Heap) (hr : Run n h) : h.colors.length ≤ 33 * n := by
  induction hr with
  | start => simp
  | call n k h α p _ hp _ ih => have := (Grow.asks hp h).2; omega
  | write n h i p _ hp _ ih => have := (Grow.writes hp h).2; omega
  | adapt n h f a p target _ _ ih => have := (f_adapt (p := p) f a target h).2; omega
  | world n h w _ ih => exact ih

/-- C149: this covers all programs. -/
theorem C149_all (h : Heap) (hs : Session True True h) : ∃ n, Run n h := by
  induction hs with
  | start w => exact ⟨0, .start w⟩
  | call h args α p res pr _ hp hu ih =>
    obtain ⟨n, hn⟩ := ih
    have : ∃ k, Asks α p k := by
      cases hp with
      | squared => exact ⟨_, .small (.squared _ _ _) fun _ => Nat.zero_le _⟩
      | euclidean => exact ⟨_, .small (.euclidean _ _ _) fun _ => Nat.zero_le _⟩
      | weighted => exact ⟨_, .small (.weighted _ _) fun _ => Nat.zero_le _⟩
      | cie76 => exact ⟨_, .small (.cie76 _ _) fun _ => Nat.zero_le _⟩
      | cie94 => exact ⟨_, .small (.cie94 _ _ _ _ _ _ _) fun _ => Nat.zero_le _⟩
      | cie00 => exact ⟨_, .small (.cie00 _ _ _ _ _ _ _) fun _ => Nat.zero_le _⟩
      | cmc => exact ⟨_, .small (.cmc _ _ _ _) fun _ => Nat.zero_le _⟩
      | combination => exact ⟨_, .combination _ _⟩
      | triplet => exact ⟨_, .triplet _⟩
      | quartet => exact ⟨_, .quartet _⟩
      | quintet => exact ⟨_, .quintet _⟩
      | analogous => exact ⟨_, .analogous _ _⟩
      | monochromatic => exact ⟨_, .monochromatic _ _ _ _⟩
      | complimentarySplit => exact ⟨_, .complimentarySplit _ _⟩
      | create t vs al sp h1 h2 => exact ⟨_, .small (.create t vs al sp h1 h2) fun _ => le_rfl⟩
      | hexInt c sp => exact ⟨_, .small (.hexInt c sp) fun _ => le_rfl⟩
      | hexString s sp => exact ⟨_, .small (.hexString s sp) fun _ => le_rfl⟩
      | copy p => exact ⟨_, .small (.copy p) fun _ => le_rfl⟩
      | fromBase t p h1 => exact ⟨_, .small (.fromBase t p h1) fun _ => le_rfl⟩
      | convertTo p t => exact ⟨_, .small (.convertTo p t) fun _ => le_rfl⟩
      | dispatcher p t => exact ⟨_, .small (.dispatcher p t) fun _ => le_rfl⟩
      | direct p s t h1 => exact ⟨_, .small (.direct p s t h1) fun _ => le_rfl⟩
      | blend us ud ub f p q h1 => exact ⟨_, .small (.blend us ud ub f p q h1) fun _ => le_rfl⟩
      | hue us ud p q => exact ⟨_, .small (.hue us ud p q) fun _ => le_rfl⟩
      | saturation us ud p q => exact ⟨_, .small (.saturation us ud p q) fun _ => le_rfl⟩
      | color us ud p q => exact ⟨_, .small (.color us ud p q) fun _ => le_rfl⟩
      | luminosity us ud p q => exact ⟨_, .small (.luminosity us ud p q) fun _ => le_rfl⟩
      | add w1 w2 ia p q => exact ⟨_, .small (.add w1 w2 ia p q) fun _ => le_rfl⟩
      | addOf t w1 w2 ia p q h1 => exact ⟨_, .small (.addOf t w1 w2 ia p q h1) fun _ => le_rfl⟩
      | mix w ia p q => exact ⟨_, .small (.mix w ia p q) fun _ => le_rfl⟩
      | mixOf t w ia p q h1 => exact ⟨_, .small (.mixOf t w ia p q h1) fun _ => le_rfl⟩
      | subtract w ia p q => exact ⟨_, .small (.subtract w ia p q) fun _ => le_rfl⟩
      | subOf t w ia p q h1 => exact ⟨_, .small (.subOf t w ia p q h1) fun _ => le_rfl⟩
      | average t ia ps h1 => exact ⟨_, .small (.average t ia _ h1) fun _ => le_rfl⟩
      | saturateRgb p x => exact ⟨_, .small (.saturateRgb p x) fun _ => le_rfl⟩
      | saturateHsl p x => exact ⟨_, .small (.saturateHsl p x) fun _ => le_rfl⟩
      | luminateRgb p x => exact ⟨_, .small (.luminateRgb p x) fun _ => le_rfl⟩
      | luminateHsl p x => exact ⟨_, .small (.luminateHsl p x) fun _ => le_rfl⟩
      | complimentary p => exact ⟨_, .small (.complimentary p) fun _ => le_rfl⟩
    obtain ⟨k, hk⟩ := this
    exact ⟨n + k, .call n k h α p hn hk hu⟩
  | write h i p _ hp hu ih => obtain ⟨n, hn⟩ := ih; exact ⟨n + 1, .write n h i p hn hp hu⟩
  | adapt h f a p target _ hu ih => obtain ⟨n, hn⟩ := ih; exact ⟨n + 1, .adapt n h f a p target hn hu⟩
  | world h w _ ih => obtain ⟨n, hn⟩ := ih; exact ⟨n, .world n h w hn⟩

/-- Case: a program that asks for one colour. -/
example (w : World) : ∃ c, Color.construct .hsv [fin 120, 1, 1] 1 none = ok c ∧ Run 1 ⟨w, [c]⟩ := by
  obtain ⟨c, e⟩ := Conv.construct_total .hsv (vs := [fin 120, 1, 1]) 1 none rfl
  refine ⟨c, e, ?_⟩
  have := Run.call 0 1 ⟨w, []⟩ Ptr _ (.start w) (.small (.create .hsv [fin 120, 1, 1] 1 none (by simp) rfl) fun _ => le_rfl) (by rw [e]; simp [bind_def, lift, alloc])
  rw [e] at this
  exact this

/-! ## C150 -/

/-- The functions that return the distance of two colours, with the type they compare in. -/
inductive MemorySpec.Measure : (Ptr → Ptr → Prog Fl) → ColorType → Prop
  | weighted : Measure Distance.euclidean_distance_weighted .rgbDeep
  | cie76 : Measure Distance.cielab_delta_e_cie76 .lab
  | cie94 (kL k1 k2 kC kH : Fl) : Measure (Distance.cielab_delta_e_cie94 kL k1 k2 kC kH) .lab
  | cie00 (kL k1 k2 kC kH : Fl) : Measure (Distance.cielab_delta_e_cie00 kL k1 k2 kC kH) .lab
  | cmc (l c : Fl) : Measure (Distance.cmc_delta_e_lc84 l c) .lab
  | squared (s : ColorType) : Measure (fun p q => Distance.euclidean_distance_squared p q s) (if s = .cieluv then .cieluv else .rgbDeep)
  | euclidean (s : ColorType) : Measure (fun p q => Distance.euclidean_distance p q s) .rgbDeep

/-- Helper: the part of a distance after the conversions. -/
theorem Grow.between_rest (g : Color → Color → Outcome Fl) (q q' : Ptr) : Adds 0 (if q = q' then (pure 0 : Prog Fl) else do
    let a ← load q
    let b ← load q'
    lift (g a b)) := by
  split
  · exact adds_pure _
  · exact (adds_load _).skip fun _ => (adds_load _).skip fun _ => adds_lift _

/-- Helper: all distances have the same frame. -/
theorem Grow.measure {f : Ptr → Ptr → Prog Fl} {t : ColorType} (h : Measure f t) : ∃ g : Ptr → Ptr → Prog Fl, (∀ q q', Adds 0 (g q q')) ∧ ∀ p q, p ≠ q → f p q = (do
    let a ← Conv.dispatcher t p
    let b ← Conv.dispatcher t q
    g a b) := by
  have sq : ∀ s, ∃ g : Ptr → Ptr → Prog Fl, (∀ q q', Adds 0 (g q q')) ∧ ∀ p q, p ≠ q → Distance.euclidean_distance_squared p q s = (do
      let a ← Conv.dispatcher (if s = .cieluv then .cieluv else .rgbDeep) p
      let b ← Conv.dispatcher (if s = .cieluv then .cieluv else .rgbDeep) q
      g a b) := fun s => by
    by_cases hs : s = .cieluv
    · refine ⟨_, between_rest fun a b => Distance.squares a b a.comps.length 0 0, fun p q hpq => ?_⟩
      simp only [Distance.euclidean_distance_squared, if_neg hpq, if_pos hs, Distance.between]
      rfl
    · refine ⟨_, between_rest fun a b => Distance.squares a b a.comps.length 0 0, fun p q hpq => ?_⟩
      simp only [Distance.euclidean_distance_squared, if_neg hpq, if_neg hs, Distance.between]
      rfl
  cases h with
  | squared s => exact sq s
  | euclidean s =>
    obtain ⟨g, hg, e⟩ := sq .rgbDeep
    refine ⟨fun a b => g a b >>= fun v => pure (Fl.sqrt v), fun a b => (hg a b).bind (m := 0) fun _ => adds_pure _, fun p q hpq => ?_⟩
    simp only [Distance.euclidean_distance, if_neg hpq, e p q hpq, reduceCtorEq, if_false]
    funext h
    simp only [bind_def]
    rcases Conv.dispatcher _ p h with ⟨_ | _ | _, h'⟩ <;> simp only
    rcases Conv.dispatcher _ q h' with ⟨_ | _ | _, h''⟩ <;> simp only
  | weighted => exact ⟨_, between_rest Distance.weighted, fun p q hpq => if_neg hpq⟩
  | cie76 => exact ⟨_, between_rest Distance.cie76, fun p q hpq => if_neg hpq⟩
  | cie94 kL k1 k2 kC kH => exact ⟨_, between_rest (Distance.cie94 kL k1 k2 kC kH), fun p q hpq => if_neg hpq⟩
  | cie00 kL k1 k2 kC kH => exact ⟨_, between_rest (Distance.cie00 kL k1 k2 kC kH), fun p q hpq => if_neg hpq⟩
  | cmc l c => exact ⟨_, between_rest (Distance.cmc l c), fun p q hpq => if_neg hpq⟩

/-- C150: measuring a distance leaves behind every object made by the two conversions, although only a number is returned. -/
theorem C150_exact (f : Ptr → Ptr → Prog Fl) (t : ColorType) (hf : Measure f t) (h : Heap) (hs : Session True True h) (i j : Nat) (hij : i ≠ j) (a b : Color) (hi : h.colors[i]? = some a)
    (hj : h.colors[j]? = some b) (v : Fl) (hv : (f (some i) (some j) h).1 = ok v) : (f (some i) (some j) h).2.colors.length = h.colors.length + (hops a.ctype t + hops b.ctype t) := by
  obtain ⟨g, hg, e⟩ := Grow.measure hf
  have hne : (some i : Ptr) ≠ some j := fun e => hij (Option.some.inj e)
  rw [e _ _ hne] at hv ⊢
  have h1 := C148_dispatcher t h i a hi
  obtain ⟨-, hk⟩ := C119_calls h hs _ _ _ _ _ (.dispatcher (some i) t)
  obtain ⟨b', hb', hkept, -⟩ := hk j b hj
  rw [bind_def] at hv ⊢
  rcases e1 : Conv.dispatcher t (some i) h with ⟨o, h'⟩
  rw [e1] at hv h1 hb'
  cases o with
  | throw e => cases hv
  | ub => cases hv
  | ok q =>
    simp only at hv hb' ⊢
    have l1 := h1.2 q rfl
    have h2 := C148_dispatcher t h' j b' hb'
    have ht : b'.ctype = b.ctype := by rw [hkept]
    rw [bind_def] at hv ⊢
    rcases e2 : Conv.dispatcher t (some j) h' with ⟨o', h''⟩
    rw [e2] at hv h2
    cases o' with
    | throw e => cases hv
    | ub => cases hv
    | ok q' =>
      simp only at hv ⊢
      have l2 := h2.2 q' rfl
      have l3 := (hg q q').2 h'' v hv
      simp only [ht] at l1 l2 l3 ⊢
      omega

/-- C150: nothing is left behind only if both colours are of the right type already. -/
theorem C150_partial (f : Ptr → Ptr → Prog Fl) (t : ColorType) (hf : Measure f t) (h : Heap) (hs : Session True True h) (i j : Nat) (hij : i ≠ j) (a b : Color) (hi : h.colors[i]? = some a)
    (hj : h.colors[j]? = some b) (v : Fl) (hv : (f (some i) (some j) h).1 = ok v) : (f (some i) (some j) h).2.colors.length = h.colors.length ↔ a.ctype = t ∧ b.ctype = t := by
  have ht : t ≠ .undefined := by cases hf <;> first | decide | (split <;> decide)
  have hd := C117_sound h hs
  rw [C150_exact f t hf h hs i j hij a b hi hj v hv, ← C148_identity a.ctype t (hd i a hi).defined ht, ← C148_identity b.ctype t (hd j b hj).defined ht]
  omega

/-- Helper: the weighted distance of two RGB_TRUE colours. -/
theorem Grow.weighted_ok {h : Heap} (hs : Session True True h) {a b : Color} (hi : h.colors[0]? = some a) (hj : h.colors[1]? = some b) (ha : a.ctype = .rgbTrue) (hb : b.ctype = .rgbTrue) :
    ∃ v, (Distance.euclidean_distance_weighted (some 0) (some 1) h).1 = ok v := by
  have col : ∀ (i : Nat) c, h.colors[i]? = some c → c.ctype = .rgbTrue → IsColor .rgbTrue c := fun i c hc ht => by
    obtain ⟨t, -, hk⟩ := Tame.wellFormed_iff.mp (C117_sound h hs i c hc)
    have : t = .rgbTrue := by rw [← hk.ctype, ht]
    exact this ▸ hk
  have ca := col 0 a hi ha
  have cb := col 1 b hj hb
  obtain ⟨a', ea, ka, -⟩ := val_to_total (s := .rgbTrue) (t := .rgbDeep) (by simp) (by simp) (w := h.world) ca (by simp [ConvSpec.Cie])
  obtain ⟨q, h', e1, c1⟩ := call_to (by simp) (by simp) ca hi ea
  obtain ⟨b', eb, kb, -⟩ := val_to_total (s := .rgbTrue) (t := .rgbDeep) (by simp) (by simp) (w := h'.world) cb (by simp [ConvSpec.Cie])
  have hj' := c1.others 1 b (by simp) hj
  obtain ⟨q', h'', e2, c2⟩ := call_to (by simp) (by simp) cb hj' eb
  have l1 : h.colors.length ≤ q := by
    rcases c1.fresh with hh | hh
    · exact absurd hh.2.2.2 (by rw [ha]; simp)
    · exact hh.1
  have l2 : h'.colors.length ≤ q' := by
    rcases c2.fresh with hh | hh
    · exact absurd hh.2.2.2 (by rw [hb]; simp)
    · exact hh.1
  have hq := (List.getElem?_eq_some_iff.mp c1.here).1
  have h1 := (List.getElem?_eq_some_iff.mp hj).1
  have hq1 := c2.others q a' (by omega) c1.here
  have e3 : Converter.to_rgb_deep (some 0) h = (ok (some q), h') := e1
  have e4 : Converter.to_rgb_deep (some 1) h' = (ok (some q'), h'') := e2
  have hne : q ≠ q' := by omega
  obtain ⟨x, y, z, xa⟩ := Conv.isColor_three rfl ka
  obtain ⟨x', y', z', xb⟩ := Conv.isColor_three rfl kb
  exact ⟨_, by simp only [Distance.euclidean_distance_weighted, Distance.between, Prog.bind_def, e3, e4, if_neg hne, load, hq1, c2.here, lift, reduceCtorEq, Option.some.injEq, zero_ne_one,
    if_false]; rw [xa, xb]; rfl⟩

/-- Case: two RGB_TRUE colours; their distance is computed, and memory is not as before. -/
example (w : World) : ∃ (a : Color) (v : Fl), Color.construct .rgbTrue [1, 0, 0] 1 none = ok a ∧ (Distance.euclidean_distance_weighted (some 0) (some 1) ⟨w, [a, a]⟩).1 = ok v ∧
    (Distance.euclidean_distance_weighted (some 0) (some 1) ⟨w, [a, a]⟩).2.colors.length = 4 ∧ (Distance.euclidean_distance_weighted (some 0) (some 1) ⟨w, [a, a]⟩).2.colors.length ≠ 2 := by
  obtain ⟨a, ea⟩ := Conv.construct_total .rgbTrue (vs := [1, 0, 0]) 1 none rfl
  have ha := Conv.construct_result (t := .rgbTrue) (by simp) rfl ea
  have hs := Tame.session_new (Tame.session_new (.start (blends := True) (raws := True) w) (by simp) rfl ea) (by simp) rfl ea
  obtain ⟨v, hv⟩ := Grow.weighted_ok hs (a := a) (b := a) rfl rfl ha.col.ctype ha.col.ctype
  refine ⟨a, v, ea, hv, ?_, fun e => ?_⟩
  · have := C150_exact _ _ .weighted _ hs 0 1 (by simp) a a rfl rfl v hv
    rw [ha.col.ctype] at this
    exact this
  · have := (C150_partial _ _ .weighted _ hs 0 1 (by simp) a a rfl rfl v hv).mp e
    rw [ha.col.ctype] at this
    exact absurd this.1 (by simp)

/-- C150 fails: a program that makes two colours and then does nothing but measure their distance needs as much memory as you like. -/
theorem C150_violated (w : World) : ∃ a b : Color, Session True True ⟨w, [a, b]⟩ ∧
    ∀ n : Nat, ((fun h => (Distance.euclidean_distance_weighted (some 0) (some 1) h).2)^[n] ⟨w, [a, b]⟩).colors.length = 2 + 2 * n := by
  obtain ⟨a, ea⟩ := Conv.construct_total .rgbTrue (vs := [1, 0, 0]) 1 none rfl
  have ha := Conv.construct_result (t := .rgbTrue) (by simp) rfl ea
  have s1 := Tame.session_new (.start (blends := True) (raws := True) w) (by simp) rfl ea
  have s2 := Tame.session_new s1 (by simp) rfl ea
  refine ⟨a, a, s2, fun n => ?_⟩
  suffices key : ∀ h' : Heap, h' = (fun h => (Distance.euclidean_distance_weighted (some 0) (some 1) h).2)^[n] ⟨w, [a, a]⟩ → Session True True h' ∧ h'.colors.length = 2 + 2 * n ∧
      (∃ c, h'.colors[0]? = some c ∧ c.ctype = .rgbTrue) ∧ ∃ c, h'.colors[1]? = some c ∧ c.ctype = .rgbTrue from (key _ rfl).2.1
  induction n with
  | zero => rintro h' rfl; exact ⟨s2, rfl, ⟨a, rfl, ha.col.ctype⟩, a, rfl, ha.col.ctype⟩
  | succ n ih =>
    rintro h' rfl
    rw [Function.iterate_succ_apply']
    generalize (fun h => (Distance.euclidean_distance_weighted (some 0) (some 1) h).2)^[n] ⟨w, [a, a]⟩ = g at ih
    obtain ⟨hs, hl, ⟨c, hc, tc⟩, d, hd, td⟩ := ih g rfl
    obtain ⟨v, hv⟩ := Grow.weighted_ok hs hc hd tc td
    have grown := C150_exact _ _ .weighted g hs 0 1 (by simp) c d hc hd v hv
    obtain ⟨-, hk⟩ := C119_calls g hs _ _ _ _ _ (.weighted (some 0) (some 1))
    obtain ⟨c', hc', kc, -⟩ := hk 0 c hc
    obtain ⟨d', hd', kd, -⟩ := hk 1 d hd
    refine ⟨.call g _ _ _ _ _ hs (.weighted (some 0) (some 1)) (by rw [hv]; simp), ?_, ⟨c', hc', by rw [kc]; exact tc⟩, d', hd', by rw [kd]; exact td⟩
    show (Distance.euclidean_distance_weighted (some 0) (some 1) g).2.colors.length = _
    rw [grown, hl, tc, td]
    show 2 + 2 * n + (1 + 1) = _
    omega

end
