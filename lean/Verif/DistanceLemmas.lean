import Verif.Distance
import Verif.BlendLemmas
import Mathlib.Analysis.InnerProductSpace.PiL2
import Mathlib.Analysis.Real.Pi.Bounds
import Mathlib.Analysis.SpecialFunctions.Trigonometric.Arctan

/-! Helper lemmas about colour distances, and the vocabulary in which their properties are stated. -/

open Outcome Fl Prog ObjectSpec ConvSpec BlendSpec Hue

namespace DistSpec
variable [FloatModel]

/-- Called with pointers to two different objects `a` and `b`, wherever these are stored, the distance function `d` returns `v`.  It creates objects but
changes none other than the two. -/
def Measures (d : Ptr → Ptr → Prog Fl) (w : World) (a b : Color) (v : Fl) : Prop :=
  ∀ (h : Heap) (i j : Nat), h.world = w → i ≠ j → h.colors[i]? = some a → h.colors[j]? = some b →
    ∃ h', d (some i) (some j) h = (ok v, h') ∧ h'.world = w ∧ ∀ k c, k ≠ i → k ≠ j → h.colors[k]? = some c → h'.colors[k]? = some c

/-- The colour `c`, converted to type `t`, has the components `x`, `y`, `z`. -/
def View (w : World) (c : Color) (t : ColorType) (x y z : ℝ) : Prop := ∃ c', Converts w c t c' ∧ c'.comps = [fin x, fin y, fin z]

/-- Colours a distance is defined for: a valid object of a defined type whose colour space, if the conversion looks at it, is usable. -/
structure Valid (w : World) (t : ColorType) (c : Color) : Prop where
  def_ : c.ctype ≠ .undefined
  col : IsColor c.ctype c
  rng : ComponentsInRange c
  space : c.ctype ≠ t → Cie c.ctype ∨ Cie t → w.Usable c.space

end DistSpec

open DistSpec

namespace Distance
variable [FloatModel]

/-- Both colours are converted and `f` is applied to the results. -/
theorem between_measures {s s' t : ColorType} (hs : s ≠ .undefined) (hs' : s' ≠ .undefined) (ht : t ≠ .undefined) {w : World} {a b a' b' : Color}
    (ha : IsColor s a) (hb : IsColor s' b) (va : Val.to s t w a = ok a') (vb : Val.to s' t w b = ok b') {f : Color → Color → Outcome Fl} {v : Fl} (hf : f a' b' = ok v) :
    Measures (between (Conv.dispatcher t) f) w a b v ∧
    (¬ (a.ctype = .rgbDeep ∧ Cie t) → ¬ (b.ctype = .rgbDeep ∧ Cie t) → ∀ (h : Heap) (i j : Nat), h.world = w → i ≠ j → h.colors[i]? = some a → h.colors[j]? = some b →
      ∃ h', between (Conv.dispatcher t) f (some i) (some j) h = (ok v, h') ∧ Frame h h') := by
  have key : ∀ (h : Heap) (i j : Nat), h.world = w → i ≠ j → h.colors[i]? = some a → h.colors[j]? = some b →
      ∃ h', between (Conv.dispatcher t) f (some i) (some j) h = (ok v, h') ∧ h'.world = w ∧ (∀ k c, k ≠ i → k ≠ j → h.colors[k]? = some c → h'.colors[k]? = some c) ∧
        (¬ (a.ctype = .rgbDeep ∧ Cie t) → ¬ (b.ctype = .rgbDeep ∧ Cie t) → Frame h h') := by
    intro h i j hw hij hi hj
    subst hw
    obtain ⟨q1, h1, e1, c1⟩ := call_to hs ht ha hi va
    have hj1 := c1.others j b (Ne.symm hij) hj
    rw [← c1.world] at vb
    obtain ⟨q2, h2, e2, c2⟩ := call_to hs' ht hb hj1 vb
    have hjl : j < h.colors.length := (List.getElem?_eq_some_iff.mp hj).1
    have hil : i < h.colors.length := (List.getElem?_eq_some_iff.mp hi).1
    have hq1l : q1 < h1.colors.length := (List.getElem?_eq_some_iff.mp c1.here).1
    have hg := c1.grows
    have hq1j : q1 ≠ j := by
      rcases c1.fresh with hh | hh
      · rw [hh.1]; exact hij
      · omega
    have hq : q1 ≠ q2 := by
      rcases c2.fresh with hh | hh
      · rw [hh.1]; exact hq1j
      · omega
    refine ⟨h2, ?_, c2.world.trans c1.world, fun k c hki hkj hk => c2.others k c hkj (c1.others k c hki hk), fun h1 h2 => (c1.frame h1).trans (c2.frame h2)⟩
    have hne : (some i : Ptr) ≠ some j := by simpa using hij
    have hne' : (some q1 : Ptr) ≠ some q2 := by simpa using hq
    simp only [between, if_neg hne, Prog.bind_def, e1, e2, if_neg hne', load, c2.others q1 a' hq1j c1.here, c2.here, lift, hf]
  refine ⟨fun h i j hw hij hi hj => ?_, fun n1 n2 h i j hw hij hi hj => ?_⟩
  · obtain ⟨h', e, h1, h2, -⟩ := key h i j hw hij hi hj
    exact ⟨h', e, h1, h2⟩
  · obtain ⟨h', e, -, -, h3⟩ := key h i j hw hij hi hj
    exact ⟨h', e, h3 n1 n2⟩

theorem measures_unique {d : Ptr → Ptr → Prog Fl} {w : World} {a b : Color} {v v' : Fl} (h : Measures d w a b v) (h' : Measures d w a b v') : v = v' := by
  obtain ⟨g, e1, -⟩ := h ⟨w, [a, b]⟩ 0 1 rfl (by simp) rfl rfl
  obtain ⟨g', e2, -⟩ := h' ⟨w, [a, b]⟩ 0 1 rfl (by simp) rfl rfl
  rw [e1] at e2
  simpa using congrArg Prod.fst e2

theorem measures_congr {d d' : Ptr → Ptr → Prog Fl} {w : World} {a b : Color} {v : Fl} (h : Measures d w a b v) (e : ∀ i j, i ≠ j → d' (some i) (some j) = d (some i) (some j)) :
    Measures d' w a b v := by
  intro g i j hw hij hi hj
  rw [e i j hij]
  exact h g i j hw hij hi hj

/-- Every valid colour has a view in every three-channel type. -/
theorem view_exists {w : World} {t : ColorType} (ht : t ≠ .undefined) (h3 : Color.count t = 3) {c : Color} (hv : Valid w t c) :
    ∃ c' x y z, Val.to c.ctype t w c = ok c' ∧ IsColor t c' ∧ c'.comps = [fin x, fin y, fin z] ∧ c'.space = c.space ∧
      ((channelRange t 0).1 ≤ x ∧ x ≤ (channelRange t 0).2) ∧ ((channelRange t 1).1 ≤ y ∧ y ≤ (channelRange t 1).2) ∧ ((channelRange t 2).1 ≤ z ∧ z ≤ (channelRange t 2).2) ∧
      (c.ctype ≠ t → t = .lab ∨ t = .cieluv → 0 ≤ x ∧ x ≤ 100) := by
  obtain ⟨c', e, hc', hsp⟩ := val_to_total hv.def_ ht hv.col (fun h n => hv.space n h)
  have hr : ComponentsInRange c' := by
    by_cases hst : c.ctype = t
    · have : c' = c := by simpa [Val.to, hst, eq_comm] using e
      rw [this]
      exact hv.rng
    · rw [Val.to, if_neg hst] at e
      exact ((Conv.good_direct _ _ hv.def_ ht hst).result _ _ _ e).rng
  obtain ⟨u0, u1, u2, ec⟩ := Conv.isColor_three h3 hc'
  have el : c'.comps = [u0, u1, u2] := by rw [ec]
  have hl : c'.comps.length = 3 := by rw [el]; rfl
  have g0 := hr 0 (by omega)
  have g1 := hr 1 (by omega)
  have g2 := hr 2 (by omega)
  simp only [el, List.getElem_cons_zero, List.getElem_cons_succ, hc'.ctype] at g0 g1 g2
  obtain ⟨x, rfl, x0, x1⟩ := g0
  obtain ⟨y, rfl, y0, y1⟩ := g1
  obtain ⟨z, rfl, z0, z1⟩ := g2
  refine ⟨c', x, y, z, e, hc', el, hsp, ⟨x0, x1⟩, ⟨y0, y1⟩, ⟨z0, z1⟩, fun hst hl => ?_⟩
  rw [Val.to, if_neg hst] at e
  have := ((Conv.good_direct _ _ hv.def_ ht hst).result _ _ _ e).lum hl (fin x) (by rw [el]; rfl)
  simpa using this

theorem view_val {w : World} {t : ColorType} (ht : t ≠ .undefined) {c : Color} (hd : c.ctype ≠ .undefined) (hc : IsColor c.ctype c) {x y z : ℝ} (hv : View w c t x y z) :
    ∃ c', Val.to c.ctype t w c = ok c' ∧ c'.comps = [fin x, fin y, fin z] := by
  obtain ⟨c', h1, h2⟩ := hv
  exact ⟨c', (converts_iff hd ht hc).mp h1, h2⟩

omit [FloatModel] in
theorem get_comps {c : Color} {x y z : Fl} (h : c.comps = [x, y, z]) : c.getComponent 0 = ok x ∧ c.getComponent 1 = ok y ∧ c.getComponent 2 = ok z := by
  obtain ⟨k, t, cs, a, mx, mn, sp⟩ := c
  simp only at h
  subst h
  exact ⟨rfl, rfl, rfl⟩

section exact
variable [ExactModel]

theorem powf_nat (x : ℝ) (n : ℕ) : powf (fin x) (fin n) = fin (x ^ n) := by
  rw [ExactModel.powf_eq _ _ (Or.inr (Or.inr ⟨n, rfl⟩)), Real.rpow_natCast]

theorem powf_two (x : ℝ) : powf (fin x) 2 = fin (x ^ 2) := by
  have := powf_nat x 2
  simpa only [lit_def, Nat.cast_ofNat] using this

theorem powf_four (x : ℝ) : powf (fin x) 4 = fin (x ^ 4) := by
  have := powf_nat x 4
  simpa only [lit_def, Nat.cast_ofNat] using this

theorem powf_seven (x : ℝ) : powf (fin x) 7 = fin (x ^ 7) := by
  have := powf_nat x 7
  simpa only [lit_def, Nat.cast_ofNat] using this

/-- Squared Euclidean distance of two triples. -/
def sq3 (x y z x' y' z' : ℝ) : ℝ := (x - x') ^ 2 + (y - y') ^ 2 + (z - z') ^ 2

omit [FloatModel] [ExactModel] in
theorem sq3_nonneg (x y z x' y' z' : ℝ) : 0 ≤ sq3 x y z x' y' z' := by unfold sq3; positivity

omit [FloatModel] [ExactModel] in
theorem sq3_zero {x y z x' y' z' : ℝ} : sq3 x y z x' y' z' = 0 ↔ x = x' ∧ y = y' ∧ z = z' := by
  unfold sq3
  constructor
  · intro h
    have h1 := sq_nonneg (x - x')
    have h2 := sq_nonneg (y - y')
    have h3 := sq_nonneg (z - z')
    exact ⟨sub_eq_zero.mp (pow_eq_zero_iff (two_ne_zero) |>.mp (by linarith)), sub_eq_zero.mp (pow_eq_zero_iff (two_ne_zero) |>.mp (by linarith)),
      sub_eq_zero.mp (pow_eq_zero_iff (two_ne_zero) |>.mp (by linarith))⟩
  · rintro ⟨rfl, rfl, rfl⟩
    ring

omit [FloatModel] [ExactModel] in
theorem sq3_comm (x y z x' y' z' : ℝ) : sq3 x y z x' y' z' = sq3 x' y' z' x y z := by unfold sq3; ring

omit [FloatModel] [ExactModel] in
theorem sq3_triangle (x y z x' y' z' x'' y'' z'' : ℝ) :
    Real.sqrt (sq3 x y z x'' y'' z'') ≤ Real.sqrt (sq3 x y z x' y' z') + Real.sqrt (sq3 x' y' z' x'' y'' z'') := by
  have e : ∀ x y z x' y' z' : ℝ, Real.sqrt (sq3 x y z x' y' z') = dist (!₂[x, y, z] : EuclideanSpace ℝ (Fin 3)) !₂[x', y', z'] := by
    intro x y z x' y' z'
    rw [EuclideanSpace.dist_eq]
    congr 1
    simp [Fin.sum_univ_three, sq3, Real.dist_eq, sq_abs]
  rw [e, e, e]
  exact dist_triangle _ _ _

theorem squares_exact {a b : Color} {x y z x' y' z' : ℝ} (ha : a.comps = [fin x, fin y, fin z]) (hb : b.comps = [fin x', fin y', fin z']) :
    squares a b a.comps.length 0 0 = ok (fin (sq3 x y z x' y' z')) := by
  have hl : a.comps.length = 3 := by rw [ha]; rfl
  rw [hl]
  simp only [squares, ha, hb, List.getElem?_cons_zero, List.getElem?_cons_succ, sub_exact, powf_two, zero_def, add_exact]
  congr 2
  unfold sq3
  ring

theorem cie76_exact {a b : Color} {x y z x' y' z' : ℝ} (ha : a.comps = [fin x, fin y, fin z]) (hb : b.comps = [fin x', fin y', fin z']) :
    cie76 a b = ok (fin (Real.sqrt (sq3 x y z x' y' z'))) := by
  rw [cie76, squares_exact ha hb, ok_bind, sqrt_exact _ (sq3_nonneg _ _ _ _ _ _)]

theorem weighted_exact {a b : Color} {x y z x' y' z' : ℝ} (ha : a.comps = [fin x, fin y, fin z]) (hb : b.comps = [fin x', fin y', fin z'])
    (hn : 0 ≤ (2 + (x + x') / 2 * 255 / 256) * ((x - x') * 255) ^ 2 + 4 * ((y - y') * 255) ^ 2 + (2 + (255 - (x + x') / 2 * 255) / 256) * ((z - z') * 255) ^ 2) :
    weighted a b = ok (fin (Real.sqrt ((2 + (x + x') / 2 * 255 / 256) * ((x - x') * 255) ^ 2 + 4 * ((y - y') * 255) ^ 2 +
      (2 + (255 - (x + x') / 2 * 255) / 256) * ((z - z') * 255) ^ 2) / 255)) := by
  obtain ⟨e0, e1, e2⟩ := get_comps ha
  obtain ⟨f0, f1, f2⟩ := get_comps hb
  simp only [weighted, e0, e1, e2, f0, f1, f2, ok_bind, lit_def, add_exact, sub_exact, mul_exact]
  rw [div_exact _ _ (by norm_num : (2 : ℝ) ≠ 0)]
  simp only [mul_exact, sub_exact]
  rw [div_exact _ _ (by norm_num : (256 : ℝ) ≠ 0), div_exact _ _ (by norm_num : (256 : ℝ) ≠ 0)]
  have e : ∀ x : ℝ, powf (fin x) (fin 2) = fin (x ^ 2) := fun x => by
    have := powf_two x
    simpa only [lit_def] using this
  simp only [e, add_exact, mul_exact]
  rw [sqrt_exact _ hn, div_exact _ _ (by norm_num : (255 : ℝ) ≠ 0)]

theorem chroma_exact (x y : ℝ) : chroma (fin x) (fin y) = fin (Real.sqrt (x ^ 2 + y ^ 2)) := by
  rw [chroma, powf_two, powf_two, add_exact, sqrt_exact _ (by positivity)]

omit [FloatModel] [ExactModel] in
/-- The chroma difference is at most the distance in the chroma plane. -/
theorem hue_part_nonneg (a b a' b' : ℝ) : 0 ≤ (a - a') ^ 2 + (b - b') ^ 2 - (Real.sqrt (a ^ 2 + b ^ 2) - Real.sqrt (a' ^ 2 + b' ^ 2)) ^ 2 := by
  have h1 := Real.sq_sqrt (by positivity : 0 ≤ a ^ 2 + b ^ 2)
  have h2 := Real.sq_sqrt (by positivity : 0 ≤ a' ^ 2 + b' ^ 2)
  have h3 : a * a' + b * b' ≤ Real.sqrt (a ^ 2 + b ^ 2) * Real.sqrt (a' ^ 2 + b' ^ 2) := by
    rw [← Real.sqrt_mul (by positivity)]
    apply Real.le_sqrt_of_sq_le
    nlinarith [sq_nonneg (a * b' - b * a')]
  nlinarith

theorem cie94_exact {p q : Color} {l a b l' a' b' kL k1 k2 kC kH : ℝ} (hp : p.comps = [fin l, fin a, fin b]) (hq : q.comps = [fin l', fin a', fin b'])
    (h0 : kL ≠ 0) (h1 : kC * (1 + k1 * Real.sqrt (a ^ 2 + b ^ 2)) ≠ 0) (h2 : kH * (1 + k2 * Real.sqrt (a ^ 2 + b ^ 2)) ≠ 0) :
    cie94 (fin kL) (fin k1) (fin k2) (fin kC) (fin kH) p q = ok (fin (Real.sqrt (((l - l') / kL) ^ 2 +
      ((Real.sqrt (a ^ 2 + b ^ 2) - Real.sqrt (a' ^ 2 + b' ^ 2)) / (kC * (1 + k1 * Real.sqrt (a ^ 2 + b ^ 2)))) ^ 2 +
      (Real.sqrt ((a - a') ^ 2 + (b - b') ^ 2 - (Real.sqrt (a ^ 2 + b ^ 2) - Real.sqrt (a' ^ 2 + b' ^ 2)) ^ 2) / (kH * (1 + k2 * Real.sqrt (a ^ 2 + b ^ 2)))) ^ 2))) := by
  obtain ⟨e0, e1, e2⟩ := get_comps hp
  obtain ⟨f0, f1, f2⟩ := get_comps hq
  simp only [cie94, e0, e1, e2, f0, f1, f2, ok_bind, chroma_exact, sub_exact, powf_two, add_exact]
  rw [sqrt_exact _ (hue_part_nonneg a b a' b')]
  simp only [one_def, mul_exact, add_exact]
  rw [mul_one, div_exact _ _ h0, div_exact _ _ h1, div_exact _ _ h2]
  simp only [powf_two, add_exact]
  rw [sqrt_exact _ (by positivity)]

theorem toRad_exact (d : ℝ) : toRad (fin d) = fin (d * (Real.pi / 180)) := by
  simp only [toRad, lit_exact, lit_def]
  rw [div_exact _ _ (by norm_num), mul_exact]

theorem toDeg_exact (d : ℝ) : toDeg (fin d) = fin (d * (180 / Real.pi)) := by
  simp only [toDeg, lit_exact, lit_def]
  rw [div_exact _ _ Real.pi_ne_zero, mul_exact]

/-- `T` of the CMC formula. -/
noncomputable def tR (H : ℝ) : ℝ :=
  if 164 < H ∧ H ≤ 345 then 0.56 + |0.2 * Real.cos ((H + 168) * (Real.pi / 180))| else 0.36 + |0.4 * Real.cos ((H + 35) * (Real.pi / 180))|

theorem cmcT_exact (H : ℝ) : cmcT (fin H) = fin (tR H) := by
  unfold cmcT tR
  simp only [lit_exact, lit_def, fin_lt, fin_le, add_exact, toRad_exact, ExactModel.cosf_eq, mul_exact, Fl.abs]
  split_ifs <;> rfl

omit [FloatModel] [ExactModel] in
theorem tR_pos (H : ℝ) : 0 < tR H := by
  unfold tR
  split_ifs
  · have := abs_nonneg (0.2 * Real.cos ((H + 168) * (Real.pi / 180)))
    linarith
  · have := abs_nonneg (0.4 * Real.cos ((H + 35) * (Real.pi / 180)))
    linarith

/-- The hue angle in degrees, from 0 to below 360. -/
noncomputable def hueR (a b : ℝ) : ℝ :=
  let H := Complex.arg ⟨a, b⟩ * (180 / Real.pi)
  if H < 0 then H + 360 else H

noncomputable def sLR (l : ℝ) : ℝ := if l < 16 then 0.511 else (0.040975 * l) / (1 + 0.01765 * l)

noncomputable def sCR (c : ℝ) : ℝ := (0.0638 * c) / (1 + 0.0131 * c) + 0.638

noncomputable def fR (c : ℝ) : ℝ := Real.sqrt (c ^ 4 / (c ^ 4 + 1900))

omit [FloatModel] [ExactModel] in
theorem sLR_pos (l : ℝ) : 0 < sLR l := by
  unfold sLR
  split_ifs with h
  · norm_num
  · have : 16 ≤ l := not_lt.mp h
    positivity

omit [FloatModel] [ExactModel] in
theorem sCR_pos {c : ℝ} (h : 0 ≤ c) : 0 < sCR c := by unfold sCR; positivity

omit [FloatModel] [ExactModel] in
theorem fR_range (c : ℝ) : 0 ≤ fR c ∧ fR c < 1 := by
  refine ⟨Real.sqrt_nonneg _, ?_⟩
  unfold fR
  rw [Real.sqrt_lt' (by norm_num), div_lt_iff₀ (by positivity)]
  linarith

omit [FloatModel] [ExactModel] in
theorem sHR_pos {c H : ℝ} (h : 0 ≤ c) : 0 < sCR c * (fR c * tR H + 1 - fR c) := by
  have h1 := fR_range c
  have h2 := mul_nonneg h1.1 (tR_pos H).le
  exact mul_pos (sCR_pos h) (by linarith)

theorem cmc_exact {p q : Color} {l a b l' a' b' kl kc : ℝ} (hp : p.comps = [fin l, fin a, fin b]) (hq : q.comps = [fin l', fin a', fin b'])
    (h0 : kl ≠ 0) (h1 : kc ≠ 0) :
    cmc (fin kl) (fin kc) p q = ok (fin (Real.sqrt (((l - l') / (kl * sLR l)) ^ 2 +
      ((Real.sqrt (a ^ 2 + b ^ 2) - Real.sqrt (a' ^ 2 + b' ^ 2)) / (kc * sCR (Real.sqrt (a ^ 2 + b ^ 2)))) ^ 2 +
      (Real.sqrt ((a - a') ^ 2 + (b - b') ^ 2 - (Real.sqrt (a ^ 2 + b ^ 2) - Real.sqrt (a' ^ 2 + b' ^ 2)) ^ 2) /
        (sCR (Real.sqrt (a ^ 2 + b ^ 2)) * (fR (Real.sqrt (a ^ 2 + b ^ 2)) * tR (hueR a b) + 1 - fR (Real.sqrt (a ^ 2 + b ^ 2))))) ^ 2))) := by
  obtain ⟨e0, e1, e2⟩ := get_comps hp
  obtain ⟨f0, f1, f2⟩ := get_comps hq
  simp only [cmc, e0, e1, e2, f0, f1, f2, ok_bind, chroma_exact, sub_exact, powf_two, powf_four, add_exact]
  rw [sqrt_exact _ (hue_part_nonneg a b a' b')]
  have hH : (if toDeg (atan2f (fin b) (fin a)) < 0 then toDeg (atan2f (fin b) (fin a)) + 360 else toDeg (atan2f (fin b) (fin a))) = fin (hueR a b) := by
    simp only [ExactModel.atan2f_eq, toDeg_exact, lit_def, zero_def, fin_lt, add_exact, hueR]
    split_ifs <;> rfl
  have hF : Fl.sqrt (fin (Real.sqrt (a ^ 2 + b ^ 2) ^ 4) / (fin (Real.sqrt (a ^ 2 + b ^ 2) ^ 4) + 1900)) = fin (fR (Real.sqrt (a ^ 2 + b ^ 2))) := by
    simp only [lit_def, add_exact]
    rw [div_exact _ _ (by positivity), sqrt_exact _ (by positivity)]
    rfl
  have hL : (if fin l < 16 then lit 0.511 else lit 0.040975 * fin l / (1 + lit 0.01765 * fin l)) = fin (sLR l) := by
    simp only [lit_def, one_def, fin_lt, lit_exact, mul_exact, add_exact, sLR]
    split_ifs with h
    · rfl
    · have : 16 ≤ l := not_lt.mp h
      rw [div_exact _ _ (by positivity)]
  have hC : lit 0.0638 * fin (Real.sqrt (a ^ 2 + b ^ 2)) / (1 + lit 0.0131 * fin (Real.sqrt (a ^ 2 + b ^ 2))) + lit 0.638 = fin (sCR (Real.sqrt (a ^ 2 + b ^ 2))) := by
    simp only [one_def, lit_exact, mul_exact, add_exact]
    rw [div_exact _ _ (by positivity), add_exact]
    rfl
  have hc := Real.sqrt_nonneg (a ^ 2 + b ^ 2)
  simp only [hH, hF, hL, hC, cmcT_exact]
  simp only [one_def, mul_exact, add_exact, sub_exact]
  rw [div_exact _ _ (mul_ne_zero h0 (sLR_pos l).ne'), div_exact _ _ (mul_ne_zero h1 (sCR_pos hc).ne'), div_exact _ _ (sHR_pos hc).ne']
  simp only [powf_two, add_exact]
  rw [sqrt_exact _ (by positivity)]

/-! CIEDE2000 -/

noncomputable def gR (c : ℝ) : ℝ := Real.sqrt (c ^ 7 / (c ^ 7 + 25 ^ 7))

omit [FloatModel] [ExactModel] in
theorem gR_range {c : ℝ} (h : 0 ≤ c) : 0 ≤ gR c ∧ gR c < 1 := by
  refine ⟨Real.sqrt_nonneg _, ?_⟩
  unfold gR
  rw [Real.sqrt_lt' (by norm_num), div_lt_iff₀ (by positivity)]
  linarith [show (0 : ℝ) < 25 ^ 7 by positivity]

/-- The hue in whole degrees as the code computes it: cut off towards 0, then shifted to be non-negative. -/
noncomputable def hueZ (b a : ℝ) : ℤ :=
  let n := truncR (Complex.arg ⟨a, b⟩ * (180 / Real.pi))
  if n < 0 then n + 360 else n

omit [FloatModel] [ExactModel] in
theorem arg_deg (z : ℂ) : -180 < Complex.arg z * (180 / Real.pi) ∧ Complex.arg z * (180 / Real.pi) ≤ 180 := by
  have h1 := Complex.neg_pi_lt_arg z
  have h2 := Complex.arg_le_pi z
  have hp := Real.pi_pos
  constructor
  · rw [mul_div_assoc', lt_div_iff₀ hp]; linarith
  · rw [mul_div_assoc', div_le_iff₀ hp]; linarith

omit [FloatModel] [ExactModel] in
theorem truncR_deg {r : ℝ} (h1 : -180 < r) (h2 : r ≤ 180) : -180 ≤ truncR r ∧ truncR r ≤ 180 := by
  unfold truncR
  split_ifs with h
  · exact ⟨by have := Int.floor_nonneg.mpr h; omega, by exact_mod_cast (Int.floor_le r).trans h2⟩
  · constructor
    · have : ((-180 : ℤ) : ℝ) ≤ (⌈r⌉ : ℝ) := by push_cast; exact h1.le.trans (Int.le_ceil r)
      exact_mod_cast this
    · exact Int.ceil_le.mpr (by exact_mod_cast h2)

omit [FloatModel] [ExactModel] in
theorem hueZ_range (b a : ℝ) : 0 ≤ hueZ b a ∧ hueZ b a < 360 := by
  have h := arg_deg ⟨a, b⟩
  have h' := truncR_deg h.1 h.2
  unfold hueZ
  simp only
  split_ifs <;> omega

theorem hueInt_exact (b a : ℝ) : hueInt (fin b) (fin a) = ok (hueZ b a) := by
  have h := arg_deg ⟨a, b⟩
  have h' := truncR_deg h.1 h.2
  simp only [hueInt, ExactModel.atan2f_eq, toDeg_exact, toInt]
  rw [if_pos (by constructor <;> omega), ok_bind]
  have e : (truncR (Complex.arg ⟨a, b⟩ * (180 / Real.pi))).tmod 360 = truncR (Complex.arg ⟨a, b⟩ * (180 / Real.pi)) := by
    generalize truncR (Complex.arg ⟨a, b⟩ * (180 / Real.pi)) = n at h'
    rcases le_or_gt 0 n with hn | hn
    · exact Int.tmod_eq_of_lt hn (by omega)
    · have := Int.tmod_eq_of_lt (a := -n) (b := 360) (by omega) (by omega)
      rw [Int.neg_tmod] at this
      omega
  rw [e]
  rfl

noncomputable def meanR (h1 h2 : ℤ) : ℝ := if 180 < |h1 - h2| then ((h1 + h2 : ℤ) + 360) / 2 else ((h1 + h2 : ℤ) : ℝ) / 2

theorem meanHue_exact (h1 h2 : ℤ) : meanHue h1 h2 = fin (meanR h1 h2) := by
  unfold meanHue meanR ofInt
  simp only [rnd_exact, lit_def, add_exact]
  rw [div_exact _ _ (by norm_num), div_exact _ _ (by norm_num)]
  split_ifs <;> rfl

noncomputable def tR00 (H : ℝ) : ℝ := 1 - 0.17 * Real.cos ((H - 30) * (Real.pi / 180)) + 0.24 * Real.cos ((2 * H) * (Real.pi / 180)) +
  0.32 * Real.cos ((3 * H + 6) * (Real.pi / 180)) - 0.2 * Real.cos ((4 * H - 63) * (Real.pi / 180))

omit [FloatModel] [ExactModel] in
theorem tR00_pos (H : ℝ) : 0 < tR00 H := by
  unfold tR00
  have h1 := Real.cos_le_one ((H - 30) * (Real.pi / 180))
  have h2 := Real.neg_one_le_cos ((2 * H) * (Real.pi / 180))
  have h3 := Real.neg_one_le_cos ((3 * H + 6) * (Real.pi / 180))
  have h4 := Real.cos_le_one ((4 * H - 63) * (Real.pi / 180))
  linarith

noncomputable def sL00 (k2 m : ℝ) : ℝ := 1 + (k2 * (m - 50) ^ 2) / Real.sqrt (20 + (m - 50) ^ 2)

/-- The rotation factor as coded: the exponent is positive. -/
noncomputable def rtR (c H : ℝ) : ℝ := (-2) * gR c * Real.sin ((60 * Real.exp ((-(H - 275) / 25) ^ 2)) * (Real.pi / 180))

omit [FloatModel] [ExactModel] in
theorem rtR_abs {c H : ℝ} (h : 0 ≤ c) : |rtR c H| < 2 := by
  have hg := gR_range h
  unfold rtR
  rw [abs_mul, abs_mul]
  have hs := Real.abs_sin_le_one ((60 * Real.exp ((-(H - 275) / 25) ^ 2)) * (Real.pi / 180))
  have h2 : |(-2 : ℝ)| = 2 := by norm_num
  rw [h2, abs_of_nonneg hg.1]
  have hs0 := abs_nonneg (Real.sin ((60 * Real.exp ((-(H - 275) / 25) ^ 2)) * (Real.pi / 180)))
  nlinarith

omit [FloatModel] [ExactModel] in
/-- The quadratic form under the root. -/
theorem quad_nonneg {r : ℝ} (h : |r| < 2) (u x y : ℝ) : 0 ≤ u ^ 2 + x ^ 2 + y ^ 2 + r * x * y ∧ (u ^ 2 + x ^ 2 + y ^ 2 + r * x * y = 0 → u = 0 ∧ x = 0 ∧ y = 0) := by
  have h1 := abs_lt.mp h
  have e : u ^ 2 + x ^ 2 + y ^ 2 + r * x * y = u ^ 2 + (x + r / 2 * y) ^ 2 + (1 - r / 2) * (1 + r / 2) * y ^ 2 := by ring
  have hk : 0 < (1 - r / 2) * (1 + r / 2) := mul_pos (by linarith) (by linarith)
  have hy : 0 ≤ (1 - r / 2) * (1 + r / 2) * y ^ 2 := by positivity
  refine ⟨by rw [e]; positivity, fun h0 => ?_⟩
  rw [e] at h0
  have hu := sq_nonneg u
  have hx := sq_nonneg (x + r / 2 * y)
  have y0 : y ^ 2 = 0 := by
    have : (1 - r / 2) * (1 + r / 2) * y ^ 2 = 0 := by linarith
    exact (mul_eq_zero.mp this).resolve_left hk.ne'
  have y0 : y = 0 := by simpa using y0
  have u0 : u ^ 2 = 0 := by linarith
  have x0 : (x + r / 2 * y) ^ 2 = 0 := by linarith
  have x0 : x + r / 2 * y = 0 := by simpa using x0
  refine ⟨by simpa using u0, ?_, y0⟩
  rw [y0] at x0
  linarith

/-- The three weighted differences and the radicand of CIEDE2000 as coded. -/
noncomputable def de00 (kL k1 k2 kC kH l a b l' a' b' : ℝ) : ℝ :=
  let c := Real.sqrt (a ^ 2 + b ^ 2)
  let c' := Real.sqrt (a' ^ 2 + b' ^ 2)
  let m := (c + c') / 2
  let h := hueZ b (a + a / 2 * (1 - gR m))
  let h' := hueZ b' (a' + a' / 2 * (1 - gR m))
  let u := (l' - l) / (kL * sL00 k2 ((l + l') / 2))
  let x := (c' - c) / (kC * (1 + k1 * m))
  let y := 2 * Real.sqrt (c * c') * Real.sin (deltaHue h h' / 2 * (Real.pi / 180)) / (kH * (1 + k2 * m * tR00 (meanR h h')))
  u ^ 2 + x ^ 2 + y ^ 2 + rtR m (meanR h h') * x * y

theorem cie00_exact {p q : Color} {l a b l' a' b' kL k1 k2 kC kH : ℝ} (hp : p.comps = [fin l, fin a, fin b]) (hq : q.comps = [fin l', fin a', fin b'])
    (h0 : 0 < kL) (h1 : 0 ≤ k1) (h2 : 0 ≤ k2) (h3 : 0 < kC) (h4 : 0 < kH) :
    cie00 (fin kL) (fin k1) (fin k2) (fin kC) (fin kH) p q = ok (fin (Real.sqrt (de00 kL k1 k2 kC kH l a b l' a' b'))) := by
  obtain ⟨e0, e1, e2⟩ := get_comps hp
  obtain ⟨f0, f1, f2⟩ := get_comps hq
  simp only [cie00, e0, e1, e2, f0, f1, f2, ok_bind, chroma_exact, sub_exact, add_exact]
  set c := Real.sqrt (a ^ 2 + b ^ 2) with hc
  set c' := Real.sqrt (a' ^ 2 + b' ^ 2) with hc'
  have c0 : 0 ≤ c := Real.sqrt_nonneg _
  have c0' : 0 ≤ c' := Real.sqrt_nonneg _
  have d2 : ∀ x : ℝ, fin x / 2 = fin (x / 2) := fun x => by rw [lit_def, div_exact _ _ (by norm_num)]
  have hm : 0 ≤ (c + c') / 2 := by positivity
  have hg : Fl.sqrt (powf (fin ((c + c') / 2)) 7 / (powf (fin ((c + c') / 2)) 7 + powf 25 7)) = fin (gR ((c + c') / 2)) := by
    have : (25 : Fl) = fin 25 := lit_def 25
    rw [this, powf_seven, powf_seven, add_exact, div_exact _ _ (by positivity), sqrt_exact _ (by positivity)]
    rfl
  simp only [d2, hg, one_def, sub_exact, mul_exact, add_exact, hueInt_exact, ok_bind, meanHue_exact]
  set m := (c + c') / 2 with hmd
  set h := hueZ b (a + a / 2 * (1 - gR m)) with hh
  set h' := hueZ b' (a' + a' / 2 * (1 - gR m)) with hh'
  have hsL : (fin 1 + fin k2 * powf (fin ((l + l') / 2) - 50) 2 / Fl.sqrt (20 + powf (fin ((l + l') / 2) - 50) 2)) = fin (sL00 k2 ((l + l') / 2)) := by
    have e50 : fin ((l + l') / 2) - 50 = fin ((l + l') / 2 - 50) := by rw [lit_def, sub_exact]
    rw [e50, powf_two, lit_def 20, add_exact, sqrt_exact _ (by positivity), mul_exact, div_exact _ _ (by positivity), add_exact]
    rfl
  have hT : (fin 1 - lit 0.17 * cosf (toRad (fin (meanR h h') - 30)) + lit 0.24 * cosf (toRad (2 * fin (meanR h h'))) + lit 0.32 * cosf (toRad (3 * fin (meanR h h') + 6)) -
      lit 0.2 * cosf (toRad (4 * fin (meanR h h') - 63))) = fin (tR00 (meanR h h')) := by
    simp only [lit_def, lit_exact, sub_exact, mul_exact, add_exact, toRad_exact, ExactModel.cosf_eq]
    rfl
  have hrt : ((-2) * fin (gR m) * sinf (toRad (60 * expf (powf (-(fin (meanR h h') - 275) / 25) 2)))) = fin (rtR m (meanR h h')) := by
    have e1 : -(fin (meanR h h') - 275) / 25 = fin (-(meanR h h' - 275) / 25) := by
      simp only [lit_def, sub_exact, neg_fin]
      rw [div_exact _ _ (by norm_num)]
    rw [e1, powf_two, ExactModel.expf_eq]
    simp only [lit_def, neg_fin, mul_exact, toRad_exact, ExactModel.sinf_eq]
    rfl
  have hdH : 2 * Fl.sqrt (fin (c * c')) * sinf (toRad (ofInt (deltaHue h h') / 2)) = fin (2 * Real.sqrt (c * c') * Real.sin (deltaHue h h' / 2 * (Real.pi / 180))) := by
    rw [sqrt_exact _ (by positivity), ofInt, rnd_exact, d2, toRad_exact, ExactModel.sinf_eq, lit_def, mul_exact, mul_exact]
  simp only [hsL, hT, hrt, hdH, mul_exact, add_exact]
  have p1 : 0 < kL * sL00 k2 ((l + l') / 2) := mul_pos h0 (by unfold sL00; positivity)
  have p2 : 0 < kC * (1 + k1 * m) := by positivity
  have p3 : 0 < kH * (1 + k2 * m * tR00 (meanR h h')) := by
    have := (tR00_pos (meanR h h')).le
    positivity
  rw [div_exact _ _ p1.ne', div_exact _ _ p2.ne', div_exact _ _ p3.ne']
  simp only [powf_two, add_exact, mul_exact]
  rw [sqrt_exact _ (quad_nonneg (rtR_abs hm) _ _ _).1]
  rfl

omit [FloatModel] [ExactModel] in
/-- The sum of the three weighted squares vanishes only if all components agree. -/
theorem three_zero {l a b l' a' b' u s t : ℝ} (hu : u ≠ 0) (hs : s ≠ 0) (ht : t ≠ 0) :
    ((l - l') / u) ^ 2 + ((Real.sqrt (a ^ 2 + b ^ 2) - Real.sqrt (a' ^ 2 + b' ^ 2)) / s) ^ 2 +
      (Real.sqrt ((a - a') ^ 2 + (b - b') ^ 2 - (Real.sqrt (a ^ 2 + b ^ 2) - Real.sqrt (a' ^ 2 + b' ^ 2)) ^ 2) / t) ^ 2 = 0 ↔ l = l' ∧ a = a' ∧ b = b' := by
  constructor
  · intro h
    have h1 := sq_nonneg ((l - l') / u)
    have h2 := sq_nonneg ((Real.sqrt (a ^ 2 + b ^ 2) - Real.sqrt (a' ^ 2 + b' ^ 2)) / s)
    have h3 := sq_nonneg (Real.sqrt ((a - a') ^ 2 + (b - b') ^ 2 - (Real.sqrt (a ^ 2 + b ^ 2) - Real.sqrt (a' ^ 2 + b' ^ 2)) ^ 2) / t)
    have e1 : ((l - l') / u) ^ 2 = 0 := by linarith
    have e2 : ((Real.sqrt (a ^ 2 + b ^ 2) - Real.sqrt (a' ^ 2 + b' ^ 2)) / s) ^ 2 = 0 := by linarith
    have e3 : (Real.sqrt ((a - a') ^ 2 + (b - b') ^ 2 - (Real.sqrt (a ^ 2 + b ^ 2) - Real.sqrt (a' ^ 2 + b' ^ 2)) ^ 2) / t) ^ 2 = 0 := by linarith
    have e1 := (div_eq_zero_iff.mp (pow_eq_zero_iff two_ne_zero |>.mp e1)).resolve_right hu
    have e2 := (div_eq_zero_iff.mp (pow_eq_zero_iff two_ne_zero |>.mp e2)).resolve_right hs
    have e3 := (div_eq_zero_iff.mp (pow_eq_zero_iff two_ne_zero |>.mp e3)).resolve_right ht
    rw [Real.sqrt_eq_zero (hue_part_nonneg a b a' b'), e2] at e3
    have := sq3_zero (x := l - l') (y := a) (z := b) (x' := 0) (y' := a') (z' := b')
    have := this.mp (by unfold sq3; rw [e1]; linarith)
    exact ⟨by linarith, this.2.1, this.2.2⟩
  · rintro ⟨rfl, rfl, rfl⟩
    simp

omit [FloatModel] [ExactModel] in
theorem deltaHue_comm (h h' : ℤ) : deltaHue h' h = - deltaHue h h' := by
  unfold deltaHue
  rw [abs_sub_comm h h']
  rcases abs_cases (h' - h) with hc | hc <;> split_ifs <;> omega

omit [FloatModel] [ExactModel] in
theorem meanR_comm (h h' : ℤ) : meanR h' h = meanR h h' := by
  unfold meanR
  rw [abs_sub_comm h h', add_comm h h']

omit [FloatModel] [ExactModel] in
theorem de00_comm (kL k1 k2 kC kH l a b l' a' b' : ℝ) : de00 kL k1 k2 kC kH l a b l' a' b' = de00 kL k1 k2 kC kH l' a' b' l a b := by
  unfold de00
  simp only
  rw [add_comm (Real.sqrt (a' ^ 2 + b' ^ 2)) (Real.sqrt (a ^ 2 + b ^ 2)), add_comm l' l, mul_comm (Real.sqrt (a' ^ 2 + b' ^ 2)) (Real.sqrt (a ^ 2 + b ^ 2))]
  set m := (Real.sqrt (a ^ 2 + b ^ 2) + Real.sqrt (a' ^ 2 + b' ^ 2)) / 2
  set h := hueZ b (a + a / 2 * (1 - gR m))
  set h' := hueZ b' (a' + a' / 2 * (1 - gR m))
  rw [meanR_comm h h', deltaHue_comm h h']
  push_cast
  rw [neg_div, neg_mul, Real.sin_neg]
  ring

omit [FloatModel] [ExactModel] in
theorem de00_self (kL k1 k2 kC kH l a b : ℝ) : de00 kL k1 k2 kC kH l a b l a b = 0 := by
  unfold de00
  simp [deltaHue]

omit [FloatModel] [ExactModel] in
theorem de00_zero {kL k1 k2 kC kH l a b l' a' b' : ℝ} (h0 : 0 < kL) (h1 : 0 ≤ k1) (h2 : 0 ≤ k2) (h3 : 0 < kC) (h : Real.sqrt (de00 kL k1 k2 kC kH l a b l' a' b') = 0) (_ : 0 < kH) :
    l = l' ∧ Real.sqrt (a ^ 2 + b ^ 2) = Real.sqrt (a' ^ 2 + b' ^ 2) := by
  have c0 : 0 ≤ Real.sqrt (a ^ 2 + b ^ 2) := Real.sqrt_nonneg _
  have c0' : 0 ≤ Real.sqrt (a' ^ 2 + b' ^ 2) := Real.sqrt_nonneg _
  unfold de00 at h
  simp only at h
  have hm : 0 ≤ (Real.sqrt (a ^ 2 + b ^ 2) + Real.sqrt (a' ^ 2 + b' ^ 2)) / 2 := by positivity
  rw [Real.sqrt_eq_zero (quad_nonneg (rtR_abs hm) _ _ _).1] at h
  obtain ⟨e1, e2, -⟩ := (quad_nonneg (rtR_abs hm) _ _ _).2 h
  have p1 : 0 < kL * sL00 k2 ((l + l') / 2) := mul_pos h0 (by unfold sL00; positivity)
  have p2 : 0 < kC * (1 + k1 * ((Real.sqrt (a ^ 2 + b ^ 2) + Real.sqrt (a' ^ 2 + b' ^ 2)) / 2)) := by positivity
  have e1 := (div_eq_zero_iff.mp e1).resolve_right p1.ne'
  have e2 := (div_eq_zero_iff.mp e2).resolve_right p2.ne'
  exact ⟨by linarith, by linarith⟩

omit [FloatModel] [ExactModel] in
/-- Angles close to the positive real axis are cut to 0. -/
theorem hueZ_small {a b : ℝ} (ha : 100 ≤ a) (hb : |b| = 1) : hueZ b a = 0 := by
  have harg : Complex.arg ⟨a, b⟩ = Real.arctan (b / a) := by
    have h1 := Complex.abs_arg_lt_pi_div_two_iff (z := ⟨a, b⟩) |>.mpr (Or.inl (by simp only; linarith))
    exact (Real.arctan_eq_of_tan_eq (Complex.tan_arg ⟨a, b⟩) (abs_lt.mp h1)).symm
  have hp := Real.pi_gt_three
  have hp4 := Real.pi_le_four
  have hsmall : |Complex.arg ⟨a, b⟩ * (180 / Real.pi)| < 1 := by
    have h1 : |Real.arctan (b / a)| ≤ 1 / 100 := by
      have hle : |b / a| ≤ 1 / 100 := by
        rw [abs_div, hb, abs_of_pos (by linarith : 0 < a)]
        exact one_div_le_one_div_of_le (by norm_num) ha
      have hat : ∀ x : ℝ, 0 ≤ x → Real.arctan x ≤ x := by
        intro x hx
        have := Real.le_tan (Real.arctan_nonneg.mpr hx) (Real.arctan_lt_pi_div_two x)
        rwa [Real.tan_arctan] at this
      rw [abs_le] at hle ⊢
      constructor
      · have h2 := Real.arctan_strictMono.monotone hle.1
        rw [Real.arctan_neg] at h2
        have := hat (1 / 100) (by norm_num)
        linarith
      · have h2 := Real.arctan_strictMono.monotone hle.2
        have := hat (1 / 100) (by norm_num)
        linarith
    rw [harg, abs_mul, abs_of_pos (by positivity : 0 < 180 / Real.pi), mul_div_assoc', div_lt_one (by positivity)]
    linarith
  rw [abs_lt] at hsmall
  have ht : truncR (Complex.arg ⟨a, b⟩ * (180 / Real.pi)) = 0 := by
    unfold truncR
    split_ifs with h
    · exact Int.floor_eq_zero_iff.mpr ⟨h, hsmall.2⟩
    · exact Int.ceil_eq_zero_iff.mpr ⟨hsmall.1, (not_le.mp h).le⟩
  unfold hueZ
  simp [ht]

omit [FloatModel] [ExactModel] in
theorem de00_mirror : de00 1 0.045 0.015 1 1 50 100 1 50 100 (-1) = 0 := by
  have hc : Real.sqrt ((100 : ℝ) ^ 2 + (-1) ^ 2) = Real.sqrt ((100 : ℝ) ^ 2 + 1 ^ 2) := by norm_num
  unfold de00
  simp only [hc]
  set m := (Real.sqrt ((100 : ℝ) ^ 2 + 1 ^ 2) + Real.sqrt ((100 : ℝ) ^ 2 + 1 ^ 2)) / 2
  have hg := gR_range (c := m) (by positivity)
  have ha : (100 : ℝ) ≤ 100 + 100 / 2 * (1 - gR m) := by nlinarith [hg.2]
  rw [hueZ_small ha (by norm_num), hueZ_small ha (by norm_num)]
  simp [deltaHue]

end exact

end Distance
