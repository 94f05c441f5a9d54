import Verif.SquareNear
import Verif.Props.Distances
import Verif.Props.SingleTurn

/-!
# Euclidean colour distances in single precision (C165)

The theorems hold for every arithmetic with the precision of `float`; `Binary32.binary32` is one, and the last two theorems are about it.
-/

open Outcome Fl Prog ObjectSpec ConvSpec BlendSpec DistSpec CombineSpec

namespace DistSpec

/-- The squared distance of two 8-bit colours in steps. -/
def steps (R G B R' G' B' : ℤ) : ℤ := (R - R') ^ 2 + (G - G') ^ 2 + (B - B') ^ 2

end DistSpec

namespace Distance

section
variable [FloatModel]

/-- The distance is the root of the squared distance, whatever space is asked for. -/
theorem euclid_root {w : World} {a b : Color} {space : ColorType} {s : Fl}
    (h : Measures (fun p q => Distance.euclidean_distance_squared p q .rgbDeep) w a b s) : Measures (fun p q => Distance.euclidean_distance p q space) w a b (Fl.sqrt s) := by
  intro g i j hw hij hi hj
  obtain ⟨h', e, h1, h2⟩ := h g i j hw hij hi hj
  refine ⟨h', ?_, h1, h2⟩
  have : (some i : Ptr) ≠ some j := by simpa using hij
  simp only [Distance.euclidean_distance, if_neg this, Prog.bind_def, e, Prog.pure_run]

theorem squared_frame {w : World} {a b : Color} {s : Fl} {space : ColorType} (hs : space ≠ .cieluv)
    (h : Measures (between (Conv.dispatcher .rgbDeep) (fun a b => squares a b a.comps.length 0 0)) w a b s) :
    Measures (fun p q => Distance.euclidean_distance_squared p q space) w a b s := by
  refine measures_congr h ?_
  intro i j hij
  have : (some i : Ptr) ≠ some j := by simpa using hij
  simp only [Distance.euclidean_distance_squared, if_neg this, if_neg hs]
  rfl

variable [FineError] [SquareNear]

theorem unit_sq3 {x y z x' y' z' : ℝ} (hx : 0 ≤ x ∧ x ≤ 1) (hy : 0 ≤ y ∧ y ≤ 1) (hz : 0 ≤ z ∧ z ≤ 1) (hx' : 0 ≤ x' ∧ x' ≤ 1) (hy' : 0 ≤ y' ∧ y' ≤ 1) (hz' : 0 ≤ z' ∧ z' ≤ 1) :
    sq3 x y z x' y' z' ≤ 3 := by
  have key : ∀ u v : ℝ, 0 ≤ u ∧ u ≤ 1 → 0 ≤ v ∧ v ≤ 1 → (u - v) ^ 2 ≤ 1 := by
    rintro u v ⟨u0, u1⟩ ⟨v0, v1⟩
    rw [sq_le_one_iff_abs_le_one, abs_le]
    constructor <;> linarith
  have h1 := key x x' hx hx'
  have h2 := key y y' hy hy'
  have h3 := key z z' hz hz'
  unfold sq3
  linarith

theorem abs_unit {x : ℝ} (h : 0 ≤ x ∧ x ≤ 1) : |x| ≤ 1000 := by rw [abs_of_nonneg h.1]; linarith [h.2]

end

end Distance

section
variable [FloatModel] [FineError] [SquareNear]

/-- C165: the squared Euclidean distance and the Euclidean distance of colours of all types are those of their RGB components up to one part in a million. -/
theorem C165_euclidean (w : World) (a b : Color) (ha : Valid w .rgbDeep a) (hb : Valid w .rgbDeep b) (x y z x' y' z' : ℝ)
    (va : View w a .rgbDeep x y z) (vb : View w b .rgbDeep x' y' z') (space : ColorType) (hs : space ≠ .cieluv) :
    ∃ s d : ℝ, Measures (fun p q => Distance.euclidean_distance_squared p q space) w a b (fin s) ∧ Measures (fun p q => Distance.euclidean_distance p q space) w a b (fin d) ∧ 0 ≤ s ∧ 0 ≤ d ∧
      |s - ((x - x') ^ 2 + (y - y') ^ 2 + (z - z') ^ 2)| ≤ ((x - x') ^ 2 + (y - y') ^ 2 + (z - z') ^ 2) * (11 / 10000000) + 1 / 10 ^ 20 ∧
      |d - Real.sqrt ((x - x') ^ 2 + (y - y') ^ 2 + (z - z') ^ 2)| ≤ Real.sqrt ((x - x') ^ 2 + (y - y') ^ 2 + (z - z') ^ 2) * (1 / 1000000) + 1 / 10 ^ 9 := by
  obtain ⟨u, v, t, va', hx, hy, hz⟩ := view_of_valid (by simp) rfl ha
  obtain ⟨rfl, rfl, rfl⟩ := view_unique (by simp) ha.def_ ha.col va' va
  obtain ⟨u', v', t', vb', hx', hy', hz'⟩ := view_of_valid (by simp) rfl hb
  obtain ⟨rfl, rfl, rfl⟩ := view_unique (by simp) hb.def_ hb.col vb' vb
  obtain ⟨a', ea, ha'⟩ := Distance.view_val (by simp) ha.def_ ha.col va
  obtain ⟨b', eb, hb'⟩ := Distance.view_val (by simp) hb.def_ hb.col vb
  obtain ⟨s, es, rs⟩ := Distance.squares_near ha' hb' (Distance.abs_unit hx) (Distance.abs_unit hy) (Distance.abs_unit hz) (Distance.abs_unit hx') (Distance.abs_unit hy') (Distance.abs_unit hz')
  have hm := (Distance.between_measures ha.def_ hb.def_ (by simp) ha.col hb.col ea eb (f := fun a b => Distance.squares a b a.comps.length 0 0) es).1
  have h3 := Distance.unit_sq3 hx hy hz hx' hy' hz'
  have h0 := Distance.sq3_nonneg u v t u' v' t'
  obtain ⟨d, ed, d0, nd⟩ := rs.sqrt h0 (h3.trans (by norm_num)) (by norm_num) (by norm_num) (by positivity) le_rfl
  obtain ⟨y, rfl, s0, ns⟩ := rs
  have hr := Real.sqrt_nonneg (Distance.sq3 u v t u' v' t')
  refine ⟨y, d, Distance.squared_frame hs hm, ?_, s0, d0, ?_, ?_⟩
  · have := Distance.euclid_root (space := space) (Distance.squared_frame (by simp) hm)
    rwa [ed] at this
  · change |y - Distance.sq3 u v t u' v' t'| ≤ Distance.sq3 u v t u' v' t' * (11 / 10000000) + 1 / 10 ^ 20
    refine ns.trans ?_
    norm_num at *
    linarith
  · change |d - Real.sqrt (Distance.sq3 u v t u' v' t')| ≤ Real.sqrt (Distance.sq3 u v t u' v' t') * (1 / 1000000) + 1 / 10 ^ 9
    refine nd.trans ?_
    norm_num at *
    linarith [Real.sqrt_nonneg (Distance.sq3 u v t u' v' t')]

/-- C165: the CIE76 difference of colours of all types is that of their LAB components up to one part in a million. -/
theorem C165_cie76 (w : World) (a b : Color) (ha : Valid w .lab a) (hb : Valid w .lab b) (x y z x' y' z' : ℝ) (va : View w a .lab x y z) (vb : View w b .lab x' y' z') :
    ∃ d : ℝ, Measures Distance.cielab_delta_e_cie76 w a b (fin d) ∧ 0 ≤ d ∧
      |d - Real.sqrt ((x - x') ^ 2 + (y - y') ^ 2 + (z - z') ^ 2)| ≤ Real.sqrt ((x - x') ^ 2 + (y - y') ^ 2 + (z - z') ^ 2) * (1 / 1000000) + 1 / 10 ^ 9 := by
  obtain ⟨u, v, t, va', hx, hy, hz⟩ := view_of_valid (by simp) rfl ha
  obtain ⟨rfl, rfl, rfl⟩ := view_unique (by simp) ha.def_ ha.col va' va
  obtain ⟨u', v', t', vb', hx', hy', hz'⟩ := view_of_valid (by simp) rfl hb
  obtain ⟨rfl, rfl, rfl⟩ := view_unique (by simp) hb.def_ hb.col vb' vb
  obtain ⟨a', ea, ha'⟩ := Distance.view_val (by simp) ha.def_ ha.col va
  obtain ⟨b', eb, hb'⟩ := Distance.view_val (by simp) hb.def_ hb.col vb
  have lim : ∀ {c : ℝ} {i : ℕ}, (channelRange .lab i).1 ≤ c ∧ c ≤ (channelRange .lab i).2 → -128 ≤ c ∧ c ≤ 128 := fun h => by simpa [channelRange] using h
  have ab : ∀ {c : ℝ} {i : ℕ}, (channelRange .lab i).1 ≤ c ∧ c ≤ (channelRange .lab i).2 → |c| ≤ 1000 := fun h => by
    have := lim h; rw [abs_le]; constructor <;> linarith
  obtain ⟨s, es, rs⟩ := Distance.squares_near ha' hb' (ab hx) (ab hy) (ab hz) (ab hx') (ab hy') (ab hz')
  have h0 := Distance.sq3_nonneg u v t u' v' t'
  have h3 : Distance.sq3 u v t u' v' t' ≤ 2 ^ 40 := by
    have key : ∀ p q : ℝ, -128 ≤ p ∧ p ≤ 128 → -128 ≤ q ∧ q ≤ 128 → (p - q) ^ 2 ≤ 256 ^ 2 := by
      rintro p q ⟨p0, p1⟩ ⟨q0, q1⟩
      refine sq_le_sq' ?_ ?_ <;> linarith
    have k1 := key _ _ (lim hx) (lim hx')
    have k2 := key _ _ (lim hy) (lim hy')
    have k3 := key _ _ (lim hz) (lim hz')
    unfold Distance.sq3
    norm_num at *
    linarith
  obtain ⟨d, ed, d0, nd⟩ := rs.sqrt h0 h3 (by norm_num) (by norm_num) (by positivity) le_rfl
  have hm := (Distance.between_measures ha.def_ hb.def_ (by simp) ha.col hb.col ea eb (f := Distance.cie76) (v := fin d) (by rw [Distance.cie76, es, ok_bind, ed])).1
  refine ⟨d, hm, d0, ?_⟩
  change |d - Real.sqrt (Distance.sq3 u v t u' v' t')| ≤ Real.sqrt (Distance.sq3 u v t u' v' t') * (1 / 1000000) + 1 / 10 ^ 9
  refine nd.trans ?_
  norm_num at *
  linarith [Real.sqrt_nonneg (Distance.sq3 u v t u' v' t')]

namespace Distance

/-- The fraction that an 8-bit channel becomes. -/
theorem byte_unit {R : ℕ} (hR : R ≤ 255) : ∃ r : ℝ, Color.clamp (fin R / 255) 1 0 = fin r ∧ (0 ≤ r ∧ r ≤ 1) ∧ |r - R / 255| ≤ 12 / 10 ^ 8 := by
  have h1 : (R : ℝ) ≤ 255 := by exact_mod_cast hR
  have h0 : (0 : ℝ) ≤ R := Nat.cast_nonneg R
  have hq : (R : ℝ) / 255 ≤ 1 := by linarith
  have hq0 : (0 : ℝ) ≤ R / 255 := by positivity
  obtain ⟨y, e, n⟩ := FineError.rnd_near ((R : ℝ) / 255) (by rw [abs_of_nonneg hq0]; exact hq.trans (by norm_num))
  rw [abs_of_nonneg hq0] at n
  have hd : fin (R : ℝ) / (255 : Fl) = fin y := by rw [lit_def, fin_div _ _ (by norm_num), e]
  have hn : Near (fin (R : ℝ) / 255) ((R : ℝ) / 255) (12 / 10 ^ 8) := ⟨y, hd, n.trans (by norm_num at *; linarith)⟩
  obtain ⟨r, er, nr⟩ := hn.clamp01 hq0 hq
  have := Color.clamp_inRange (fin (R : ℝ) / 255) (mx := 1) (mn := 0) (by norm_num)
  simp only [one_def, zero_def] at er
  rw [er] at this
  exact ⟨r, by simpa only [one_def, zero_def] using er, by simpa using this, nr⟩

/-- The squared distance of two 8-bit colours. -/
theorem bytes_squared {w : World} {a b : Color} {R G B R' G' B' : ℕ} (ha : IsBytes a R G B) (hb : IsBytes b R' G' B') : ∃ s : ℝ,
    Measures (fun p q => Distance.euclidean_distance_squared p q .rgbDeep) w a b (fin s) ∧ 0 ≤ s ∧ s ≤ 301 / 100 ∧ |s - (steps R G B R' G' B' : ℤ) / 65025| ≤ 48 / 10 ^ 7 := by
  obtain ⟨r, er, lr, nr⟩ := byte_unit ha.red
  obtain ⟨g, eg, lg, ng⟩ := byte_unit ha.green
  obtain ⟨u, eu, lu, nu⟩ := byte_unit ha.blue
  obtain ⟨r', er', lr', nr'⟩ := byte_unit hb.red
  obtain ⟨g', eg', lg', ng'⟩ := byte_unit hb.green
  obtain ⟨u', eu', lu', nu'⟩ := byte_unit hb.blue
  have deep : ∀ (c : Color) (P Q S : ℕ) (p q s : ℝ), IsBytes c P Q S → Color.clamp (fin P / 255) 1 0 = fin p → Color.clamp (fin Q / 255) 1 0 = fin q → Color.clamp (fin S / 255) 1 0 = fin s →
      ∃ c', Val.to .rgbTrue .rgbDeep w c = ok c' ∧ c'.comps = [fin p, fin q, fin s] := by
    intro c P Q S p q s h e1 e2 e3
    have hc := h.comps
    obtain ⟨cls, ct, comps, al, mx, mn, sp⟩ := c
    simp only at hc
    subst hc
    refine ⟨Color.mkRgbDeep (fin P / 255) (fin Q / 255) (fin S / 255) ((Color.mk cls ct [fin P, fin Q, fin S] al mx mn sp).alpha / 255) sp, ?_, ?_⟩
    · change Leaf.rgb_true_to_rgb_deep _ = _
      simp only [Leaf.rgb_true_to_rgb_deep, Conv.get3_0, Conv.get3_1, Conv.get3_2, ok_bind, Color.construct_rgbDeep]
    · simp only [Color.mkRgbDeep, e1, e2, e3]
  obtain ⟨a', va, ea⟩ := deep a R G B r g u ha er eg eu
  obtain ⟨b', vb, eb⟩ := deep b R' G' B' r' g' u' hb er' eg' eu'
  obtain ⟨s, es, rs⟩ := squares_near ea eb (abs_unit lr) (abs_unit lg) (abs_unit lu) (abs_unit lr') (abs_unit lg') (abs_unit lu')
  have hm := (between_measures (by simp) (by simp) (by simp) ha.col hb.col va vb (f := fun a b => squares a b a.comps.length 0 0) es).1
  obtain ⟨y, rfl, y0, ny⟩ := rs
  have h3 := unit_sq3 lr lg lu lr' lg' lu'
  -- the fractions are close to the bytes
  have close : ∀ (p p' : ℝ) (P P' : ℕ), P ≤ 255 → P' ≤ 255 → |p - P / 255| ≤ 12 / 10 ^ 8 → |p' - P' / 255| ≤ 12 / 10 ^ 8 → |(p - p') ^ 2 - ((P : ℝ) - P') ^ 2 / 65025| ≤ 5 / 10 ^ 7 := by
    intro p p' P P' hP hP' n n'
    have hP1 : (P : ℝ) ≤ 255 := by exact_mod_cast hP
    have hP1' : (P' : ℝ) ≤ 255 := by exact_mod_cast hP'
    have hP0 : (0 : ℝ) ≤ P := Nat.cast_nonneg P
    have hP0' : (0 : ℝ) ≤ P' := Nat.cast_nonneg P'
    have e : (p - p') ^ 2 - ((P : ℝ) - P') ^ 2 / 65025 = ((p - P / 255) - (p' - P' / 255)) * (2 * (((P : ℝ) - P') / 255) + ((p - P / 255) - (p' - P' / 255))) := by ring
    have h1 : |(p - P / 255) - (p' - P' / 255)| ≤ 24 / 10 ^ 8 := (abs_sub _ _).trans (by linarith)
    have h2 : |2 * (((P : ℝ) - P') / 255)| ≤ 2 := by rw [abs_le]; constructor <;> linarith
    rw [e, abs_mul]
    calc _ ≤ (24 / 10 ^ 8 : ℝ) * (2 + 24 / 10 ^ 8) := mul_le_mul h1 ((abs_add_le _ _).trans (add_le_add h2 h1)) (abs_nonneg _) (by norm_num)
      _ ≤ _ := by norm_num
  have c1 := abs_le.mp (close r r' R R' ha.red hb.red nr nr')
  have c2 := abs_le.mp (close g g' G G' ha.green hb.green ng ng')
  have c3 := abs_le.mp (close u u' B B' ha.blue hb.blue nu nu')
  have ny' := abs_le.mp ny
  have hst : ((steps R G B R' G' B' : ℤ) : ℝ) / 65025 = ((R : ℝ) - R') ^ 2 / 65025 + ((G : ℝ) - G') ^ 2 / 65025 + ((B : ℝ) - B') ^ 2 / 65025 := by
    unfold steps; push_cast; ring
  have hsq : sq3 r g u r' g' u' = (r - r') ^ 2 + (g - g') ^ 2 + (u - u') ^ 2 := rfl
  refine ⟨y, squared_frame (by simp) hm, y0, ?_, ?_⟩
  · norm_num at *
    linarith
  · rw [hst, abs_le]
    constructor <;> (norm_num at *; linarith)

end Distance

/-- C165: single precision orders the distances of 8-bit colours correctly.  A pair of 8-bit colours that is closer than another has a smaller squared distance and a smaller distance, so a search
for the nearest 8-bit colour finds a nearest one. -/
theorem C165_order (w : World) (a b c d : Color) (R G B R' G' B' P Q S P' Q' S' : ℕ) (ha : IsBytes a R G B) (hb : IsBytes b R' G' B') (hc : IsBytes c P Q S) (hd : IsBytes d P' Q' S')
    (h : steps R G B R' G' B' < steps P Q S P' Q' S') (space : ColorType) (hs : space ≠ .cieluv) :
    (∃ u v : ℝ, Measures (fun p q => Distance.euclidean_distance_squared p q space) w a b (fin u) ∧ Measures (fun p q => Distance.euclidean_distance_squared p q space) w c d (fin v) ∧ u < v) ∧
    (∃ u v : ℝ, Measures (fun p q => Distance.euclidean_distance p q space) w a b (fin u) ∧ Measures (fun p q => Distance.euclidean_distance p q space) w c d (fin v) ∧ u < v) := by
  obtain ⟨s, ms, s0, s3, ns⟩ := Distance.bytes_squared (w := w) ha hb
  obtain ⟨t, mt, t0, t3, nt⟩ := Distance.bytes_squared (w := w) hc hd
  have hz : ((steps R G B R' G' B' : ℤ) : ℝ) + 1 ≤ (steps P Q S P' Q' S' : ℤ) := by exact_mod_cast h
  rw [abs_le] at ns nt
  have gap : s + 57 / 10 ^ 7 ≤ t := by norm_num at *; linarith
  have other : ∀ {x y : Color} {v : Fl}, Measures (fun p q => Distance.euclidean_distance_squared p q .rgbDeep) w x y v → Measures (fun p q => Distance.euclidean_distance_squared p q space) w x y v := by
    intro x y v hm
    refine Distance.measures_congr hm fun i j hij => ?_
    simp only [Distance.euclidean_distance_squared, if_neg hs, reduceCtorEq, if_false]
  refine ⟨⟨s, t, other ms, other mt, by norm_num at gap; linarith⟩, ?_⟩
  have root : ∀ x : ℝ, 0 ≤ x → x ≤ 301 / 100 → ∃ v, Fl.sqrt (fin x) = fin v ∧ |v - Real.sqrt x| ≤ 3 / 10 ^ 7 ∧ Real.sqrt x ≤ 174 / 100 := by
    intro x h0 h3
    have hr : Real.sqrt x ≤ 174 / 100 := by rw [Real.sqrt_le_left (by norm_num)]; exact h3.trans (by norm_num)
    obtain ⟨v, e, n⟩ := FineError.rnd_near (Real.sqrt x) (by rw [abs_of_nonneg (Real.sqrt_nonneg x)]; exact hr.trans (by norm_num))
    rw [abs_of_nonneg (Real.sqrt_nonneg x)] at n
    refine ⟨v, by simp [Fl.sqrt, not_lt.mpr h0, e], n.trans ?_, hr⟩
    norm_num at *
    linarith
  obtain ⟨u, eu, nu, ru⟩ := root s s0 s3
  obtain ⟨v, ev, nv, rv⟩ := root t t0 t3
  refine ⟨u, v, by have := Distance.euclid_root (space := space) ms; rwa [eu] at this, by have := Distance.euclid_root (space := space) mt; rwa [ev] at this, ?_⟩
  have q1 := Real.sq_sqrt s0
  have q2 := Real.sq_sqrt t0
  have p1 := Real.sqrt_nonneg s
  have p2 := Real.sqrt_nonneg t
  have hroot : Real.sqrt s + 16 / 10 ^ 7 ≤ Real.sqrt t := by
    by_contra hcon
    rw [not_le] at hcon
    have : Real.sqrt t ^ 2 < Real.sqrt s ^ 2 + 57 / 10 ^ 7 := by
      calc Real.sqrt t ^ 2 < (Real.sqrt s + 16 / 10 ^ 7) ^ 2 := by gcongr
        _ = Real.sqrt s ^ 2 + Real.sqrt s * (32 / 10 ^ 7) + (16 / 10 ^ 7) ^ 2 := by ring
        _ ≤ Real.sqrt s ^ 2 + 174 / 100 * (32 / 10 ^ 7) + (16 / 10 ^ 7) ^ 2 := by gcongr
        _ ≤ _ := by norm_num; linarith
    rw [q1, q2] at this
    linarith
  rw [abs_le] at nu nv
  norm_num at *
  linarith

end

namespace Binary32

theorem round_neg {r u : ℝ} (h : round32 r = .fin u) : round32 (-r) = .fin (-u) := by
  unfold round32 at *
  rw [value_neg]
  split_ifs at h with h1 h2
  rw [if_neg (fun k => h2 (by linarith)), if_neg (fun k => h1 (by linarith))]
  simpa using h

/-- Everything below half of the smallest number is rounded to zero. -/
theorem round_tiny {r : ℝ} (h : |r| < 2 ^ (-150 : ℤ)) : round32 r = .fin 0 := by
  have hu : r = 0 ∨ ulpExp r = -149 := by
    by_cases h0 : r = 0
    · exact .inl h0
    · have l2 : Int.log 2 |r| < -150 := (Int.lt_zpow_iff_log_lt (b := 2) (by norm_num) (abs_pos.mpr h0)).mp (by exact_mod_cast h)
      exact .inr (by unfold ulpExp; omega)
  rcases hu with rfl | hu
  · exact round_zero
  · have hv : value r = 0 := by
      unfold value
      rw [hu, rne_eq (m := 0)]
      · simp
      · rw [abs_lt] at *
        norm_num at *
        constructor <;> linarith
    unfold round32
    rw [hv]
    norm_num

end Binary32

section

/-- C165: in binary32 both distances are symmetric to the last bit, and colours with the same RGB components have the distance zero. -/
theorem C165_symmetric (w : World) (a b : Color) : letI := Binary32.binary32
    ∀ (_ : Valid w .rgbDeep a) (_ : Valid w .rgbDeep b) (space : ColorType) (_ : space ≠ .cieluv),
    ∃ s d : ℝ, Measures (fun p q => Distance.euclidean_distance_squared p q space) w a b (fin s) ∧ Measures (fun p q => Distance.euclidean_distance_squared p q space) w b a (fin s) ∧
      Measures (fun p q => Distance.euclidean_distance p q space) w a b (fin d) ∧ Measures (fun p q => Distance.euclidean_distance p q space) w b a (fin d) ∧
      (SameView w .rgbDeep a b → s = 0 ∧ d = 0) := by
  letI := Binary32.binary32
  haveI := Binary32.binary32_fine
  haveI := Binary32.binary32_square
  intro ha hb space hs
  obtain ⟨x, y, z, va, hx, hy, hz⟩ := view_of_valid (by simp) rfl ha
  obtain ⟨x', y', z', vb, hx', hy', hz'⟩ := view_of_valid (by simp) rfl hb
  obtain ⟨a', ea, ha'⟩ := Distance.view_val (by simp) ha.def_ ha.col va
  obtain ⟨b', eb, hb'⟩ := Distance.view_val (by simp) hb.def_ hb.col vb
  have lim : ∀ {c : ℝ} {i : ℕ}, (channelRange .rgbDeep i).1 ≤ c ∧ c ≤ (channelRange .rgbDeep i).2 → 0 ≤ c ∧ c ≤ 1 := fun h => by simpa [channelRange] using h
  have comm : ∀ u v : ℝ, 0 ≤ u ∧ u ≤ 1 → 0 ≤ v ∧ v ≤ 1 → powf (fin u - fin v) 2 = powf (fin v - fin u) 2 := by
    rintro u v ⟨u0, u1⟩ ⟨v0, v1⟩
    have h1 : |u - v| ≤ 1 := by rw [abs_le]; constructor <;> linarith
    obtain ⟨t, e, -⟩ := Binary32.round_fine (r := u - v) (h1.trans (by norm_num))
    have e' := Binary32.round_neg e
    rw [neg_sub] at e'
    have h2 : (2 : Fl) = fin 2 := by simp
    have f1 : fin u - fin v = fin t := (fin_sub u v).trans e
    have f2 : fin v - fin u = fin (-t) := (fin_sub v u).trans e'
    rw [f1, f2, h2, Binary32.powf_two, Binary32.powf_two, neg_sq]
  obtain ⟨s, es, rs⟩ := Distance.squares_near ha' hb' (Distance.abs_unit (lim hx)) (Distance.abs_unit (lim hy)) (Distance.abs_unit (lim hz)) (Distance.abs_unit (lim hx'))
    (Distance.abs_unit (lim hy')) (Distance.abs_unit (lim hz'))
  have la : a'.comps.length = 3 := by rw [ha']; rfl
  have lb : b'.comps.length = 3 := by rw [hb']; rfl
  have es' : Distance.squares b' a' b'.comps.length 0 0 = ok s := by
    rw [← es, la, lb]
    simp only [Distance.squares, ha', hb', List.getElem?_cons_zero, List.getElem?_cons_succ]
    rw [comm x x' (lim hx) (lim hx'), comm y y' (lim hy) (lim hy'), comm z z' (lim hz) (lim hz')]
  have h3 := Distance.unit_sq3 (lim hx) (lim hy) (lim hz) (lim hx') (lim hy') (lim hz')
  obtain ⟨d, ed, d0, -⟩ := rs.sqrt (Distance.sq3_nonneg _ _ _ _ _ _) (h3.trans (by norm_num)) (by norm_num) (by norm_num) (by positivity) le_rfl
  obtain ⟨p, hp, p0, -⟩ := rs
  have m1 := (Distance.between_measures ha.def_ hb.def_ (by simp) ha.col hb.col ea eb (f := fun a b => Distance.squares a b a.comps.length 0 0) es).1
  have m2 := (Distance.between_measures hb.def_ ha.def_ (by simp) hb.col ha.col eb ea (f := fun a b => Distance.squares a b a.comps.length 0 0) es').1
  have r1 := Distance.euclid_root (space := space) (Distance.squared_frame (space := .rgbDeep) (by simp) m1)
  have r2 := Distance.euclid_root (space := space) (Distance.squared_frame (space := .rgbDeep) (by simp) m2)
  rw [ed] at r1 r2
  have q1 := Distance.squared_frame hs m1
  have q2 := Distance.squared_frame hs m2
  rw [hp] at q1 q2
  refine ⟨p, d, q1, q2, r1, r2, fun hv => ?_⟩
  obtain ⟨rfl, rfl, rfl⟩ := view_unique (by simp) hb.def_ hb.col vb ((hv _ _ _).mp va)
  have zero : ∀ u : ℝ, powf (fin u - fin u) 2 = fin 0 := by
    intro u
    have f1 : fin u - fin u = fin 0 := (fin_sub u u).trans (by rw [sub_self]; exact FloatModel.rnd_zero)
    have h2 : (2 : Fl) = fin 2 := by simp
    rw [f1, h2, Binary32.powf_two]
    norm_num [Binary32.round_zero]
  have e0 : s = fin 0 := by
    have : Distance.squares a' b' a'.comps.length 0 0 = ok (fin 0) := by
      rw [la]
      simp only [Distance.squares, ha', hb', List.getElem?_cons_zero, List.getElem?_cons_succ, zero, zero_def]
      simp [fin_add, FloatModel.rnd_zero]
    rw [es] at this
    simpa using this
  rw [e0] at hp ed
  have hd : Fl.sqrt (fin 0) = fin 0 := by simp [Fl.sqrt, FloatModel.rnd_zero]
  rw [hd] at ed
  exact ⟨by simpa using hp.symm, by simpa using ed.symm⟩

/-- C165: in binary32 a distance of zero does not mean that the colours are equal.  A red of `2^-80` is a `float` number, and its square is not. -/
theorem C165_zero_violated (w : World) (sp : Option Nat) : letI := Binary32.binary32
    ∃ a b : Color, Color.construct .rgbDeep [fin (2 ^ (-80 : ℤ)), 0, 0] 1 sp = ok a ∧ Color.construct .rgbDeep [0, 0, 0] 1 sp = ok b ∧
      View w a .rgbDeep (2 ^ (-80 : ℤ)) 0 0 ∧ View w b .rgbDeep 0 0 0 ∧
      Measures (fun p q => Distance.euclidean_distance_squared p q .rgbDeep) w a b (fin 0) ∧ Measures (fun p q => Distance.euclidean_distance p q .rgbDeep) w a b (fin 0) := by
  letI := Binary32.binary32
  have c0 : Color.clamp (0 : Fl) 1 0 = fin 0 := by simp [Color.clamp]
  have c1 : Color.clamp (fin (2 ^ (-80 : ℤ))) 1 0 = fin (2 ^ (-80 : ℤ)) := by
    have h0 : (0 : ℝ) ≤ 2 ^ (-80 : ℤ) := by positivity
    have h1 : (2 : ℝ) ^ (-80 : ℤ) ≤ 1 := by norm_num
    rw [one_def, zero_def, Color.clamp_fin, min_eq_left h1, max_eq_left h0]
  set a := Color.mkRgbDeep (fin (2 ^ (-80 : ℤ))) 0 0 1 sp with hadef
  set b := Color.mkRgbDeep 0 0 0 1 sp with hbdef
  have ha' : a.comps = [fin (2 ^ (-80 : ℤ)), fin 0, fin 0] := by simp only [hadef, Color.mkRgbDeep, c0, c1]
  have hb' : b.comps = [fin 0, fin 0, fin 0] := by simp only [hbdef, Color.mkRgbDeep, c0]
  have ca : IsColor .rgbDeep a := Adjust.mkRgb_color _ _ _ _ _
  have cb : IsColor .rgbDeep b := Adjust.mkRgb_color _ _ _ _ _
  have va : Val.to .rgbDeep .rgbDeep w a = ok a := by simp [Val.to]
  have vb : Val.to .rgbDeep .rgbDeep w b = ok b := by simp [Val.to]
  have f1 : fin (2 ^ (-80 : ℤ)) - fin 0 = fin (2 ^ (-80 : ℤ)) := by
    refine (fin_sub _ _).trans ?_
    have := Binary32.round_exact 1 (-80) (by norm_num) (by norm_num) (by norm_num)
    rw [sub_zero]
    change Binary32.round32 _ = _
    simpa using this
  have f0 : fin 0 - fin 0 = fin 0 := (fin_sub _ _).trans (by rw [sub_self]; exact FloatModel.rnd_zero)
  have h2 : (2 : Fl) = fin 2 := by simp
  have p1 : powf (fin (2 ^ (-80 : ℤ))) 2 = fin 0 := by
    rw [h2, Binary32.powf_two]
    exact Binary32.round_tiny (by norm_num [abs_of_pos])
  have p0 : powf (fin 0) 2 = fin 0 := by
    rw [h2, Binary32.powf_two]
    norm_num [Binary32.round_zero]
  have es : Distance.squares a b a.comps.length 0 0 = ok (fin 0) := by
    have la : a.comps.length = 3 := by rw [ha']; rfl
    rw [la]
    simp only [Distance.squares, ha', hb', List.getElem?_cons_zero, List.getElem?_cons_succ, f1, f0, p1, p0, zero_def]
    simp [fin_add, FloatModel.rnd_zero]
  have m := Distance.squared_frame (space := .rgbDeep) (by simp) (Distance.between_measures (by simp) (by simp) (by simp) ca cb va vb (f := fun a b => Distance.squares a b a.comps.length 0 0) es).1
  have r := Distance.euclid_root (space := .rgbDeep) m
  have hd : Fl.sqrt (fin 0) = fin 0 := by simp [Fl.sqrt, FloatModel.rnd_zero]
  rw [hd] at r
  exact ⟨a, b, Color.construct_rgbDeep _ _ _ _ _, Color.construct_rgbDeep _ _ _ _ _, ⟨a, (converts_iff (by simp) (by simp) ca).mpr va, ha'⟩, ⟨b, (converts_iff (by simp) (by simp) cb).mpr vb, hb'⟩, m, r⟩

/-! Cases that meet the hypotheses -/

/-- Three 8-bit colours: the second is one step closer to the first than the third. -/
example (w : World) (sp : Option Nat) : letI := Binary32.binary32
    ∃ a b c : Color, Color.construct .rgbTrue [fin 10, fin 20, fin 30] 255 sp = ok a ∧ Color.construct .rgbTrue [fin 200, fin 100, fin 31] 255 sp = ok b ∧
      Color.construct .rgbTrue [fin 200, fin 100, fin 28] 255 sp = ok c ∧
      ∃ u v : ℝ, Measures (fun p q => Distance.euclidean_distance p q .rgbDeep) w a b (fin u) ∧ Measures (fun p q => Distance.euclidean_distance p q .rgbDeep) w a c (fin v) ∧ u < v := by
  letI := Binary32.binary32
  haveI := Binary32.binary32_fine
  haveI := Binary32.binary32_square
  have mk : ∀ R G B : ℕ, R ≤ 255 → G ≤ 255 → B ≤ 255 → ∃ a, Color.construct .rgbTrue [fin R, fin G, fin B] 255 sp = ok a ∧ IsBytes a R G B := by
    intro R G B hR hG hB
    obtain ⟨a, ea⟩ := Conv.construct_total .rgbTrue (vs := [fin (R : ℝ), fin (G : ℝ), fin (B : ℝ)]) 255 sp rfl
    have hf := Conv.construct_result (t := .rgbTrue) (by simp) rfl ea
    refine ⟨a, ea, hf.col, ?_, hR, hG, hB⟩
    have h255 : (255 : Fl) = fin 255 := by simp
    have cl : ∀ k : ℕ, k ≤ 255 → Color.clamp (fin (k : ℝ)) 255 0 = fin k := by
      intro k hk
      have : (k : ℝ) ≤ 255 := by exact_mod_cast hk
      rw [h255, zero_def, Color.clamp_fin, min_eq_left this, max_eq_left (Nat.cast_nonneg k)]
    rw [Color.construct_rgbTrue] at ea
    obtain rfl : Color.mkRgbTrue (fin (R : ℝ)) (fin (G : ℝ)) (fin (B : ℝ)) 255 sp = a := by simpa using ea
    simp only [Color.mkRgbTrue, cl R hR, cl G hG, cl B hB]
  obtain ⟨a, ea, ha⟩ := mk 10 20 30 (by norm_num) (by norm_num) (by norm_num)
  obtain ⟨b, eb, hb⟩ := mk 200 100 31 (by norm_num) (by norm_num) (by norm_num)
  obtain ⟨c, ec, hc⟩ := mk 200 100 28 (by norm_num) (by norm_num) (by norm_num)
  have := (C165_order w a b a c _ _ _ _ _ _ _ _ _ _ _ _ ha hb ha hc (by norm_num [DistSpec.steps]) .rgbDeep (by simp)).2
  norm_num at ea eb ec
  exact ⟨a, b, c, ea, eb, ec, this⟩

/-- The CIE76 difference of two LAB colours whose components are `float` numbers. -/
example (w : World) : letI := Binary32.binary32
    ∃ a b : Color, Color.construct .lab [fin 50, fin 10, fin 20] 1 none = ok a ∧ Color.construct .lab [fin 60, fin (-10), fin 20] 1 none = ok b ∧
      ∃ d : ℝ, Measures Distance.cielab_delta_e_cie76 w a b (fin d) ∧ |d - Real.sqrt 500| ≤ Real.sqrt 500 * (1 / 1000000) + 1 / 10 ^ 9 := by
  letI := Binary32.binary32
  haveI := Binary32.binary32_fine
  haveI := Binary32.binary32_square
  obtain ⟨a, ea, -, va, ua⟩ := exists_lab w 50 10 20 (by norm_num) (by norm_num) (by norm_num)
  obtain ⟨b, eb, -, vb, ub⟩ := exists_lab w 60 (-10) 20 (by norm_num) (by norm_num) (by norm_num)
  obtain ⟨d, m, -, n⟩ := C165_cie76 w a b va vb _ _ _ _ _ _ ua ub
  rw [show ((50 : ℝ) - 60) ^ 2 + (10 - -10) ^ 2 + (20 - 20) ^ 2 = 500 by norm_num] at n
  exact ⟨a, b, ea, eb, d, m, n⟩

/-- An RGB and an HSV colour. -/
example (w : World) : letI := Binary32.binary32
    ∃ a b : Color, Color.construct .rgbDeep [1, 0, 0] 1 none = ok a ∧ Color.construct .hsv [fin 120, 1, 1] 1 none = ok b ∧
      (∃ d : ℝ, Measures (fun p q => Distance.euclidean_distance p q .rgbDeep) w a b (fin d) ∧ Measures (fun p q => Distance.euclidean_distance p q .rgbDeep) w b a (fin d)) ∧
      ∃ x y z x' y' z' s : ℝ, View w a .rgbDeep x y z ∧ View w b .rgbDeep x' y' z' ∧ Measures (fun p q => Distance.euclidean_distance_squared p q .rgbDeep) w a b (fin s) ∧
        |s - ((x - x') ^ 2 + (y - y') ^ 2 + (z - z') ^ 2)| ≤ ((x - x') ^ 2 + (y - y') ^ 2 + (z - z') ^ 2) * (11 / 10000000) + 1 / 10 ^ 20 := by
  letI := Binary32.binary32
  haveI := Binary32.binary32_fine
  haveI := Binary32.binary32_square
  obtain ⟨a, ea⟩ := Conv.construct_total .rgbDeep (vs := [1, 0, 0]) 1 none rfl
  have ha := Conv.construct_result (t := .rgbDeep) (by simp) rfl ea
  obtain ⟨b, eb⟩ := Conv.construct_total .hsv (vs := [fin 120, 1, 1]) 1 none rfl
  have hb := Conv.construct_result (t := .hsv) (by simp) rfl eb
  have va : Valid w .rgbDeep a := valid_own (by simp) ha.col ha.rng
  have vb : Valid w .rgbDeep b := ⟨by rw [hb.col.ctype]; simp, by rw [hb.col.ctype]; exact hb.col, hb.rng, fun _ h => by simp [hb.col.ctype, Cie] at h⟩
  obtain ⟨s, d, -, -, m1, m2, -⟩ := C165_symmetric w a b va vb .rgbDeep (by simp)
  obtain ⟨x, y, z, ua, -⟩ := view_of_valid (by simp) rfl va
  obtain ⟨x', y', z', ub, -⟩ := view_of_valid (by simp) rfl vb
  obtain ⟨s', d', m, -, -, -, n, -⟩ := C165_euclidean w a b va vb _ _ _ _ _ _ ua ub .rgbDeep (by simp)
  exact ⟨a, b, ea, eb, ⟨d, m1, m2⟩, x, y, z, x', y', z', s', ua, ub, m, n⟩

end
