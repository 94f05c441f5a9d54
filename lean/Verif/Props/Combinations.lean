import Verif.AdjustLemmas
import Verif.Props.Convert
import Verif.Props.Calculation

/-!
# Properties C75–C78 and C93: colour combinations

Sizes, pointers and side effects hold in every arithmetic; formulas for hues, saturations and lightnesses are in exact arithmetic.
-/

open Outcome Fl Prog ObjectSpec ConvSpec BlendSpec

namespace CombineSpec
variable [FloatModel]

/-- A colour of class `s` that `convertTo` can convert to HSL and back. -/
structure Base (w : World) (s : ColorType) (c : Color) : Prop where
  defined : s ≠ .undefined
  notLch : s ≠ .lchAb ∧ s ≠ .lchUv
  col : IsColor s c
  space : Cie s → w.Usable c.space

/-- `p` throws `std::invalid_argument` before it does anything. -/
def Refuses {α : Type} (p : Prog α) (h : Heap) : Prop := p h = (.throw ⟨.invalidArgument, true⟩, h)

/-- `k` points to the object `c` of memory `h'`, which memory `h` did not contain. -/
def IsNew (h h' : Heap) (k : Ptr) (c : Color) : Prop := ∃ i, k = some i ∧ h.colors.length ≤ i ∧ h'.colors[i]? = some c

/-- `r` is the colour `o` with its HSL hue changed by `f`, converted back to class `s`. -/
def Rehued (w : World) (s : ColorType) (o : Color) (f : Fl → Fl) (r : Color) : Prop :=
  ∃ d x y z e, Converts w o .hsl d ∧ d.comps = [x, y, z] ∧ Color.construct .hsl [f x, y, z] o.alpha o.space = ok e ∧ Converts w e s r

/-- An angle between 0 and 360 degrees. -/
noncomputable def angle (x : ℝ) : ℝ := 360 * Int.fract (x / 360)

/-- An HSL colour with legal channels. -/
structure IsHsl (c : Color) (x y z : ℝ) : Prop where
  col : IsColor .hsl c
  comps : c.comps = [fin x, fin y, fin z]
  x0 : 0 ≤ x
  x1 : x ≤ 359
  y0 : 0 ≤ y
  y1 : y ≤ 1
  z0 : 0 ≤ z
  z1 : z ≤ 1

omit [FloatModel] in
theorem IsHsl.eq {c : Color} {x y z : ℝ} (h : IsHsl c x y z) : c = ⟨.hsl, .hsl, [fin x, fin y, fin z], c.malpha, 1, 0, c.space⟩ := by
  obtain ⟨⟨h1, h2, -, h3, h4⟩, h5, -⟩ := h
  cases c
  simp only at h1 h2 h3 h4 h5
  simp [h1, h2, h3, h4, h5, Color.maxOf, Color.minOf]

theorem Base.target {w : World} {s : ColorType} {c : Color} (h : Base w s c) : Combine.Target s := ⟨h.defined, h.notLch.1, h.notLch.2⟩

theorem IsHsl.base {c : Color} {x y z : ℝ} (h : IsHsl c x y z) (w : World) : Base w .hsl c := ⟨by simp, by simp, h.col, by simp [Cie]⟩

/-- Every such colour can be converted to HSL. -/
theorem Base.hsl {w : World} {s : ColorType} {c : Color} (h : Base w s c) : ∃ d x y z, Val.to s .hsl w c = ok d ∧ d.comps = [x, y, z] ∧ Converts w c .hsl d := by
  obtain ⟨d, e, hd, -⟩ := val_to_total (s := s) (t := .hsl) h.defined (by simp) h.col (fun hh _ => h.space (hh.resolve_right (by simp [Cie])))
  obtain ⟨x, y, z, hx⟩ := Combine.hslColor hd
  exact ⟨d, x, y, z, e, by rw [hx], (converts_iff h.defined (by simp) h.col).mpr e⟩

theorem Base.rehued {w : World} {s : ColorType} {o d r : Color} (h : Base w s o) {x y z : Fl} (hd : d.comps = [x, y, z]) (hc : Converts w o .hsl d) {f : Fl → Fl}
    (hv : Val.to .hsl s w (Color.mkHue .hsl (f x) y z o.alpha o.space) = ok r) : Rehued w s o f r :=
  ⟨d, x, y, z, _, hc, hd, Color.construct_hsl .., (converts_iff (by simp) h.defined (Combine.mkHsl_color ..)).mpr hv⟩

/-- `Rehued` describes one colour only. -/
theorem Base.rehued_unique {w : World} {s : ColorType} {o r r' : Color} (h : Base w s o) {f : Fl → Fl} (h1 : Rehued w s o f r) (h2 : Rehued w s o f r') : r = r' := by
  obtain ⟨d, x, y, z, e, a1, a2, a3, a4⟩ := h1
  obtain ⟨d', x', y', z', e', b1, b2, b3, b4⟩ := h2
  have a1 := (converts_iff h.defined (by simp) h.col).mp a1
  rw [(converts_iff h.defined (by simp) h.col).mp b1, ok_inj] at a1
  subst a1
  rw [a2] at b2
  simp only [List.cons.injEq, and_true] at b2
  obtain ⟨rfl, rfl, rfl⟩ := b2
  rw [a3, ok_inj] at b3
  subst b3
  rw [Color.construct_hsl, ok_inj] at a3
  have he : IsColor .hsl e := a3 ▸ Combine.mkHsl_color ..
  have a4 := (converts_iff (by simp) h.defined he).mp a4
  rw [(converts_iff (by simp) h.defined he).mp b4, ok_inj] at a4
  exact a4.symm

/-- On an HSL colour. -/
theorem IsHsl.rehued [ExactModel] {w : World} {o r : Color} {x y z u : ℝ} (h : IsHsl o x y z) {f : Fl → Fl} (hf : f (fin x) = fin u) (hr : Rehued w .hsl o f r) :
    r = { o with comps := [fin (min (angle u) 359), fin y, fin z] } := by
  obtain ⟨d, x', y', z', e, a1, a2, a3, a4⟩ := hr
  have a1 := (converts_iff (by simp) (by simp) h.col).mp a1
  rw [Val.to, if_pos rfl, ok_inj] at a1
  subst a1
  rw [h.comps] at a2
  simp only [List.cons.injEq, and_true] at a2
  obtain ⟨rfl, rfl, rfl⟩ := a2
  rw [Color.construct_hsl, ok_inj] at a3
  have he : IsColor .hsl e := a3 ▸ Combine.mkHsl_color ..
  have a4 := (converts_iff (by simp) (by simp) he).mp a4
  rw [Val.to, if_pos rfl, ok_inj] at a4
  subst a4
  rw [← a3, hf, Color.mkHue, Color.hueReduce_fin _ (rnd_exact _)]
  have hal : o.alpha = o.malpha := by rw [h.eq]; rfl
  have g0 : 0 ≤ 360 * Int.fract (u / 360) := mul_nonneg (by norm_num) (Int.fract_nonneg _)
  have hc : Color.clamp (fin (360 * Int.fract (u / 360))) 359 0 = fin (min (angle u) 359) := by
    simp only [lit_def, zero_def, Color.clamp_fin, angle]
    rw [max_eq_left (le_min g0 (by norm_num))]
  rw [hc, Hue.clamp01 h.y0 h.y1, Hue.clamp01 h.z0 h.z1, hal]
  conv_rhs => rw [h.eq]

end CombineSpec

open CombineSpec

section
variable [FloatModel]

/-! ## C75 -/

/-- **C75** 0, 1 and more than 360 colours are refused, whatever the colour. -/
theorem C75_illegal (p : Ptr) (n : ℤ) (hn : n = 0 ∨ n = 1 ∨ 360 < n) (h : Heap) : Refuses (Combine.create_combination p n) h := by
  rw [Refuses, Combine.create_combination, if_pos hn]
  rfl

/-- **C75 (partial)** For 2 to 360 colours the result has the requested size, its first element is the given pointer, every other one points to a new colour of the
same class, and nothing else changes.  Missing: negative numbers (`C75_negative_violated`) and LCH colours (`C75_lch_violated`). -/
theorem C75_size_partial (s : ColorType) (c : Color) (h : Heap) (i : Nat) (hi : h.colors[i]? = some c) (hb : Base h.world s c) (n : ℤ) (h2 : 2 ≤ n) (h360 : n ≤ 360) :
    ∃ ks h', Combine.create_combination (some i) n h = (ok ks, h') ∧ (ks.length : ℤ) = n ∧ ks[0]? = some (some i) ∧ Frame h h' ∧
      ∀ (j : ℕ) k, 0 < j → ks[j]? = some k → ∃ r, IsNew h h' k r ∧ IsColor s r ∧ r.space = c.space := by
  obtain ⟨d, x, y, z, e, hd, -⟩ := hb.hsl
  obtain ⟨ks, h', rs, e1, f, p, l, all⟩ := Combine.combination_run hb.target hb.col h2 h360 hi hb.space e hd
  have hlen := p.length_eq
  refine ⟨some i :: ks, h', e1, by simp; omega, rfl, f, fun j k hj hk => ?_⟩
  obtain ⟨j, rfl⟩ := Nat.exists_eq_succ_of_ne_zero hj.ne'
  rw [Nat.succ_eq_add_one, List.getElem?_cons_succ] at hk
  obtain ⟨hjl, rfl⟩ := List.getElem?_eq_some_iff.mp hk
  obtain ⟨r, a1, -, a3, a4⟩ := all j (by omega)
  obtain ⟨q, b1, b2, b3⟩ := p.get hjl (by omega)
  refine ⟨r, ⟨q, b1, b2, ?_⟩, a3, a4⟩
  have : rs.get ⟨j, by omega⟩ = r := by
    have := (List.getElem?_eq_some_iff.mp a1).2
    simpa using this
  rw [← this]
  exact b3

/-- **C75 (partial)** Triplets, quartets and quintets are such combinations of 3, 4 and 5 colours.  Missing: LCH colours. -/
theorem C75_sets_partial (s : ColorType) (c : Color) (h : Heap) (i : Nat) (hi : h.colors[i]? = some c) (hb : Base h.world s c) :
    (∃ ks h', Combine.create_triplet (some i) h = (ok ks, h') ∧ ks.length = 3 ∧ ks[0]? = some (some i) ∧ none ∉ ks ∧ Frame h h') ∧
    (∃ ks h', Combine.create_quartet (some i) h = (ok ks, h') ∧ ks.length = 4 ∧ ks[0]? = some (some i) ∧ none ∉ ks ∧ Frame h h') ∧
    (∃ ks h', Combine.create_quintet (some i) h = (ok ks, h') ∧ ks.length = 5 ∧ ks[0]? = some (some i) ∧ none ∉ ks ∧ Frame h h') := by
  have key : ∀ n : ℕ, 2 ≤ n → n ≤ 360 → ∃ ks h', Combine.create_combination (some i) n h = (ok ks, h') ∧ ks.length = n ∧ ks[0]? = some (some i) ∧ none ∉ ks ∧ Frame h h' := by
    intro n h2 h360
    obtain ⟨ks, h', e, l, k0, f, all⟩ := C75_size_partial s c h i hi hb n (by omega) (by omega)
    refine ⟨ks, h', e, by omega, k0, fun hn => ?_, f⟩
    obtain ⟨j, hj⟩ := List.getElem?_of_mem hn
    rcases Nat.eq_zero_or_pos j with rfl | hj0
    · simp [k0] at hj
    · obtain ⟨r, ⟨q, hq, -⟩, -⟩ := all j none hj0 hj
      simp at hq
  exact ⟨key 3 (by norm_num) (by norm_num), key 4 (by norm_num) (by norm_num), key 5 (by norm_num) (by norm_num)⟩

/-- **C75 violated** A negative number of colours is not refused: the result consists of the given colour only. -/
theorem C75_negative_violated (s : ColorType) (c : Color) (h : Heap) (i : Nat) (hi : h.colors[i]? = some c) (hb : Base h.world s c) (n : ℤ) (hn : n < 0) :
    ∃ h', Combine.create_combination (some i) n h = (ok [some i], h') := by
  obtain ⟨d, x, y, z, e, hd, -⟩ := hb.hsl
  obtain ⟨q, h1, e1, c1⟩ := Combine.convert_run hb.defined Combine.hsl_target hb.col hi e
  refine ⟨h1, ?_⟩
  rw [Combine.create_combination, if_neg (by omega)]
  have : (n - 1).toNat = 0 := by omega
  simp only [Prog.bind_def, e1, this, Combine.turns, Prog.pure_run]

/-- **C75 violated** For an LCH colour all colours but the first are null pointers. -/
theorem C75_lch_violated (s : ColorType) (hs : s = .lchAb ∨ s = .lchUv) (c : Color) (h : Heap) (i : Nat) (hi : h.colors[i]? = some c) (hc : IsColor s c)
    (hw : h.world.Usable c.space) : ∃ h', Combine.create_complimentary (some i) h = (ok none, h') ∧ Combine.create_combination (some i) 2 h = (ok [some i, none], h') := by
  have hsd : s ≠ .undefined := by rcases hs with rfl | rfl <;> simp
  obtain ⟨d, e, hd, -⟩ := val_to_total (s := s) (t := .hsl) (w := h.world) hsd (by simp) hc (fun _ _ => hw)
  obtain ⟨x, y, z, hx⟩ := Combine.hslColor hd
  obtain ⟨g0, g1, g2⟩ := Combine.getHsl (c := d) (x := x) (y := y) (z := z) (by rw [hx])
  obtain ⟨q, h1, e1, c1⟩ := Combine.convert_run hsd Combine.hsl_target hc hi e
  have f1 := c1.frame (by simp [Cie])
  have hnull : ∀ p g, Converter.convertTo p s g = (ok none, g) := by rcases hs with rfl | rfl <;> exact fun _ _ => rfl
  have key : ∃ h', Combine.create_combination (some i) 2 h = (ok [some i, none], h') := by
    refine ⟨⟨h1.world, h1.colors ++ [Color.mkHue .hsl (x + rnd ((1 : ℕ) : ℝ) * (360 / rnd ((2 : ℤ) : ℝ))) y z c.alpha c.space]⟩, ?_⟩
    rw [Combine.create_combination, if_neg (by norm_num)]
    simp only [Prog.bind_def, e1, show ((2 : ℤ) - 1).toNat = 1 from rfl, Combine.turns, Combine.turned, Combine.load_some c1.here, Combine.load_some (f1.2 _ _ hi), lift, g0, g1, g2,
      Color.construct_hsl, Combine.alloc_run, hc.ctype, hnull, Prog.pure_run]
  obtain ⟨h', e'⟩ := key
  refine ⟨h', ?_, e'⟩
  simp only [Combine.create_complimentary, Prog.bind_def, e', List.getElem?_cons_succ, List.getElem?_cons_zero, Prog.pure_run]

/-- The hypotheses can be met: five colours from an RGB_DEEP colour. -/
example (w : World) : ∃ c ks h', Color.construct .rgbDeep [1, fin 0.5, 0] 1 none = ok c ∧ Combine.create_combination (some 0) 5 ⟨w, [c]⟩ = (ok ks, h') ∧ ks.length = 5 := by
  obtain ⟨c, ec⟩ := Conv.construct_total .rgbDeep (vs := [1, fin 0.5, 0]) 1 none rfl
  have hf := Conv.construct_result (t := .rgbDeep) (by simp) rfl ec
  obtain ⟨ks, h', e, l, -⟩ := C75_size_partial .rgbDeep c ⟨w, [c]⟩ 0 rfl ⟨by simp, by simp, hf.col, by simp [Cie]⟩ 5 (by norm_num) (by norm_num)
  exact ⟨c, ks, h', ec, e, by exact_mod_cast l⟩

example (w : World) (c : Color) : Refuses (Combine.create_combination (some 0) 361) ⟨w, [c]⟩ := C75_illegal _ _ (by norm_num) _

/-! ## C76 -/

/-- **C76** In every arithmetic and for every class: the j-th colour is the given one, converted to HSL, with `j` times `360 / n` added to its hue, and converted back. -/
theorem C76_converted (s : ColorType) (c : Color) (h : Heap) (i : Nat) (hi : h.colors[i]? = some c) (hb : Base h.world s c) (n : ℤ) (h2 : 2 ≤ n) (h360 : n ≤ 360) :
    ∃ ks h', Combine.create_combination (some i) n h = (ok ks, h') ∧ ∀ j : ℕ, 0 < j → (j : ℤ) < n → ∃ k r, ks[j]? = some k ∧ IsNew h h' k r ∧
      Rehued h.world s c (fun x => x + rnd (j : ℝ) * (360 / rnd (n : ℝ))) r := by
  obtain ⟨d, x, y, z, e, hd, hcv⟩ := hb.hsl
  obtain ⟨ks, h', rs, e1, f, p, l, all⟩ := Combine.combination_run hb.target hb.col h2 h360 hi hb.space e hd
  have hlen := p.length_eq
  refine ⟨some i :: ks, h', e1, fun j hj hjn => ?_⟩
  obtain ⟨j, rfl⟩ := Nat.exists_eq_succ_of_ne_zero hj.ne'
  rw [Nat.succ_eq_add_one] at hjn ⊢
  obtain ⟨r, a1, a2, -⟩ := all j (by omega)
  obtain ⟨q, b1, b2, b3⟩ := p.get (i := j) (by omega) (by omega)
  refine ⟨some q, r, ?_, ⟨q, rfl, b2, ?_⟩, hb.rehued hd hcv a2⟩
  · rw [List.getElem?_cons_succ, List.getElem?_eq_getElem (by omega), ← b1]
    rfl
  · have : rs.get ⟨j, by omega⟩ = r := by
      have := (List.getElem?_eq_some_iff.mp a1).2
      simpa using this
    rw [← this]
    exact b3

variable [ExactModel]

/-- The general formula behind C76 for HSL colours: the hue, brought between 0 and 360, and limited to 359. -/
theorem hsl_hues (c : Color) (x y z : ℝ) (hc : IsHsl c x y z) (h : Heap) (i : Nat) (hi : h.colors[i]? = some c) (n : ℤ) (h2 : 2 ≤ n) (h360 : n ≤ 360) :
    ∃ ks h', Combine.create_combination (some i) n h = (ok ks, h') ∧ (ks.length : ℤ) = n ∧ ∀ j : ℕ, (j : ℤ) < n → ∃ q, ks[j]? = some (some q) ∧
      h'.colors[q]? = some { c with comps := [fin (min (angle (x + j * (360 / n))) 359), fin y, fin z] } := by
  obtain ⟨ks, h', e1, e2⟩ := C76_converted .hsl c h i hi (hc.base h.world) n h2 h360
  obtain ⟨ks', h'', e1', l, k0, f, -⟩ := C75_size_partial .hsl c h i hi (hc.base h.world) n h2 h360
  rw [e1, Prod.mk.injEq, ok_inj] at e1'
  obtain ⟨rfl, rfl⟩ := e1'
  refine ⟨ks, h', e1, l, fun j hj => ?_⟩
  rcases Nat.eq_zero_or_pos j with rfl | hj0
  · refine ⟨i, k0, ?_⟩
    rw [f.2 _ _ hi]
    simp only [angle, Nat.cast_zero, zero_mul, add_zero]
    rw [Color.fract_small hc.x0 (by linarith [hc.x1]), min_eq_left hc.x1, ← hc.comps]
  · obtain ⟨k, r, a1, ⟨q, rfl, -, a2⟩, a3⟩ := e2 j hj0 hj
    refine ⟨q, a1, ?_⟩
    rw [a2, hc.rehued (u := x + j * (360 / n)) ?_ a3]
    have hn : (n : ℝ) ≠ 0 := by
      have : n ≠ 0 := by omega
      exact_mod_cast this
    simp only [rnd_exact, lit_def]
    rw [div_exact _ _ hn]
    simp

/-- **C76 (partial)** Combinations of HSL colours: the j-th colour has the hue of the given one plus `j * 360 / n` degrees modulo 360, and the same saturation, lightness,
alpha and colour space.  Missing: hues that end up strictly between 359 and 360 degrees (`C76_violated`). -/
theorem C76_hues_partial (c : Color) (x y z : ℝ) (hc : IsHsl c x y z) (h : Heap) (i : Nat) (hi : h.colors[i]? = some c) (n : ℤ) (h2 : 2 ≤ n) (h360 : n ≤ 360) (j : ℕ) (hj : (j : ℤ) < n)
    (v : ℝ) (m : ℤ) (hv : v = x + j * (360 / n) - 360 * m) (v0 : 0 ≤ v) (v1 : v ≤ 359) :
    ∃ ks h' q, Combine.create_combination (some i) n h = (ok ks, h') ∧ ks[j]? = some (some q) ∧ h'.colors[q]? = some { c with comps := [fin v, fin y, fin z] } := by
  obtain ⟨ks, h', e1, -, e2⟩ := hsl_hues c x y z hc h i hi n h2 h360
  obtain ⟨q, a1, a2⟩ := e2 j hj
  refine ⟨ks, h', q, e1, a1, ?_⟩
  have : angle (x + j * (360 / n)) = v := by
    have : (x + j * (360 / n)) / 360 = v / 360 + m := by rw [hv]; ring
    rw [angle, this, Int.fract_add_intCast, Color.fract_small v0 (by linarith)]
  rw [a2, this, min_eq_left v1]

/-- **C76 (partial)** For the remaining hues the error is less than one degree. -/
theorem C76_limited_partial (c : Color) (x y z : ℝ) (hc : IsHsl c x y z) (h : Heap) (i : Nat) (hi : h.colors[i]? = some c) (n : ℤ) (h2 : 2 ≤ n) (h360 : n ≤ 360) (j : ℕ) (hj : (j : ℤ) < n) :
    ∃ ks h' q v, Combine.create_combination (some i) n h = (ok ks, h') ∧ ks[j]? = some (some q) ∧ h'.colors[q]? = some { c with comps := [fin v, fin y, fin z] } ∧
      0 ≤ v ∧ v ≤ 359 ∧ ∃ m : ℤ, |x + j * (360 / n) - 360 * m - v| < 1 := by
  obtain ⟨ks, h', e1, -, e2⟩ := hsl_hues c x y z hc h i hi n h2 h360
  obtain ⟨q, a1, a2⟩ := e2 j hj
  have g0 : 0 ≤ angle (x + j * (360 / n)) := mul_nonneg (by norm_num) (Int.fract_nonneg _)
  have g1 : angle (x + j * (360 / n)) < 360 := by
    have := Int.fract_lt_one ((x + j * (360 / n)) / 360)
    rw [angle]; linarith
  refine ⟨ks, h', q, _, e1, a1, a2, le_min g0 (by norm_num), min_le_right _ _, ⌊(x + j * (360 / n)) / 360⌋, ?_⟩
  have : x + j * (360 / n) - 360 * ⌊(x + j * (360 / n)) / 360⌋ = angle (x + j * (360 / n)) := by
    rw [angle, Int.fract]; ring
  rw [this]
  rcases le_total (angle (x + j * (360 / n))) 359 with hle | hle
  · rw [min_eq_left hle, sub_self, abs_zero]; norm_num
  · rw [min_eq_right hle, abs_lt]; constructor <;> linarith

/-- **C76 violated** The complement of a colour with hue 179.5 has hue 359 instead of 359.5. -/
theorem C76_violated (h : Heap) (c : Color) (i : Nat) (hi : h.colors[i]? = some c) (hc : IsHsl c 179.5 1 0.5) :
    ∃ ks h' q r, Combine.create_combination (some i) 2 h = (ok ks, h') ∧ ks[1]? = some (some q) ∧ h'.colors[q]? = some r ∧ r.comps = [fin 359, fin 1, fin 0.5] := by
  obtain ⟨ks, h', e1, -, e2⟩ := hsl_hues c _ _ _ hc h i hi 2 (by norm_num) (by norm_num)
  obtain ⟨q, a1, a2⟩ := e2 1 (by norm_num)
  refine ⟨ks, h', q, _, e1, a1, a2, ?_⟩
  have : angle (179.5 + (1 : ℕ) * (360 / (2 : ℤ))) = 359.5 := by
    have := Color.fract_small (h := 359.5) (by norm_num) (by norm_num)
    rw [angle, ← this]; norm_num
  rw [this]
  norm_num

omit [ExactModel] in
/-- Cases: a triplet of the hue 300 is at 60 and 180 degrees; the colour of `C76_violated` exists. -/
theorem exists_hsl (x y z : ℝ) (al : Fl) (sp : Option Nat) (h : 0 ≤ x ∧ x ≤ 359 ∧ 0 ≤ y ∧ y ≤ 1 ∧ 0 ≤ z ∧ z ≤ 1) :
    ∃ c, Color.construct .hsl [fin x, fin y, fin z] al sp = ok c ∧ IsHsl c x y z ∧ c.malpha = al ∧ c.space = sp := by
  refine ⟨_, Color.construct_hsl .., ⟨Combine.mkHsl_color .., ?_, h.1, h.2.1, h.2.2.1, h.2.2.2.1, h.2.2.2.2.1, h.2.2.2.2.2⟩, rfl, rfl⟩
  have hx : Color.clamp (fin x) 359 0 = fin x := by
    simpa using Color.clamp_of_inRange (v := fin x) (mn := 0) (mx := 359) (by simp [h.1, h.2.1])
  simp only [Color.mkHue, Color.hueReduce_id h.1 (by linarith [h.2.1]), hx, Hue.clamp01 h.2.2.1 h.2.2.2.1, Hue.clamp01 h.2.2.2.2.1 h.2.2.2.2.2]

example (w : World) : ∃ c ks h' q r, IsHsl c 300 0.5 0.25 ∧ Combine.create_triplet (some 0) ⟨w, [c]⟩ = (ok ks, h') ∧ ks[1]? = some (some q) ∧ h'.colors[q]? = some r ∧
    r.comps = [fin 60, fin 0.5, fin 0.25] := by
  obtain ⟨c, -, hc, -⟩ := exists_hsl 300 0.5 0.25 1 none (by norm_num)
  obtain ⟨ks, h', q, e1, e2, e3⟩ := C76_hues_partial c _ _ _ hc ⟨w, [c]⟩ 0 rfl 3 (by norm_num) (by norm_num) 1 (by norm_num) 60 1 (by norm_num) (by norm_num) (by norm_num)
  exact ⟨c, ks, h', q, _, hc, e1, e2, e3, rfl⟩
example (w : World) : ∃ c, IsHsl c 179.5 1 0.5 ∧ ∃ ks h' q r, Combine.create_combination (some 0) 2 ⟨w, [c]⟩ = (ok ks, h') ∧ ks[1]? = some (some q) ∧ h'.colors[q]? = some r ∧
    r.comps = [fin 359, fin 1, fin 0.5] := by
  obtain ⟨c, -, hc, -⟩ := exists_hsl 179.5 1 0.5 1 none (by norm_num)
  exact ⟨c, hc, C76_violated ⟨w, [c]⟩ c 0 rfl hc⟩

end
