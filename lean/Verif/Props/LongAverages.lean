import Verif.AverageNear
import Verif.Binary32
import Verif.Props.Calculation2

/-!
# Averages of many colours in single precision (C164)

The theorems hold for every arithmetic with the precision of `float`; `Binary32.binary32` is one, and the last theorem is about it.
-/

open Outcome Fl Prog ObjectSpec ConvSpec BlendSpec CalcSpec Calc

namespace CalcSpec

/-- The largest magnitude a channel of the class can have. -/
def span : ColorType → ℕ
  | .rgbTrue => 255
  | .greyTrue => 255
  | .hsi => 359
  | .hsv => 359
  | .hsl => 359
  | .hcy => 359
  | .lchAb => 359
  | .lchUv => 359
  | .xyz => 100
  | .xyy => 100
  | .cieluv => 100
  | .lab => 128
  | _ => 1

/-- White with full opacity. -/
def white (sp : Option Nat) : Color := ⟨.rgbDeep, .rgbDeep, [fin 1, fin 1, fin 1], fin 1, 1, 0, sp⟩

end CalcSpec

namespace Calc

/-- The limits of a channel are whole numbers. -/
theorem limits_whole (t : ColorType) (i : ℕ) : ∃ a b : ℤ, setterRange t i = ((a : ℝ), (b : ℝ)) ∧ |a| ≤ span t ∧ |b| ≤ span t := by
  have key : ∀ (a b : ℤ) (N : ℕ), |a| ≤ N → |b| ≤ N → ∀ p : ℝ × ℝ, p = ((a : ℝ), (b : ℝ)) → ∃ a b : ℤ, p = ((a : ℝ), (b : ℝ)) ∧ |a| ≤ N ∧ |b| ≤ N := fun a b N h1 h2 p hp => ⟨a, b, hp, h1, h2⟩
  have cie : t = .cieluv ∨ t = .lab → ∃ a b : ℤ, setterRange t i = ((a : ℝ), (b : ℝ)) ∧ |a| ≤ span t ∧ |b| ≤ span t := by
    rintro (rfl | rfl)
    · rcases i with _ | i
      · exact key 0 100 100 (by norm_num) (by norm_num) _ (by simp [setterRange])
      · exact key (-100) 100 100 (by norm_num) (by norm_num) _ (by simp [setterRange, channelRange])
    · rcases i with _ | i
      · exact key 0 100 128 (by norm_num) (by norm_num) _ (by simp [setterRange])
      · exact key (-128) 128 128 (by norm_num) (by norm_num) _ (by simp [setterRange, channelRange])
  have hue0 : t = .hsi ∨ t = .hsv ∨ t = .hsl ∨ t = .hcy → ∃ a b : ℤ, setterRange t i = ((a : ℝ), (b : ℝ)) ∧ |a| ≤ span t ∧ |b| ≤ span t := by
    rintro (rfl | rfl | rfl | rfl) <;>
    · rcases i with _ | i
      · exact key 0 359 359 (by norm_num) (by norm_num) _ (by simp [setterRange, channelRange])
      · exact key 0 1 359 (by norm_num) (by norm_num) _ (by simp [setterRange, channelRange])
  have hue2 : t = .lchAb ∨ t = .lchUv → ∃ a b : ℤ, setterRange t i = ((a : ℝ), (b : ℝ)) ∧ |a| ≤ span t ∧ |b| ≤ span t := by
    rintro (rfl | rfl) <;>
    · rcases i with _ | _ | _ | i
      · exact key 0 100 359 (by norm_num) (by norm_num) _ (by simp [setterRange, channelRange])
      · exact key 0 100 359 (by norm_num) (by norm_num) _ (by simp [setterRange, channelRange])
      · exact key 0 359 359 (by norm_num) (by norm_num) _ (by simp [setterRange, channelRange])
      · exact key 0 100 359 (by norm_num) (by norm_num) _ (by simp [setterRange, channelRange])
  cases t
  case cieluv => exact cie (by simp)
  case lab => exact cie (by simp)
  case hsi => exact hue0 (by simp)
  case hsv => exact hue0 (by simp)
  case hsl => exact hue0 (by simp)
  case hcy => exact hue0 (by simp)
  case lchAb => exact hue2 (by simp)
  case lchUv => exact hue2 (by simp)
  case rgbTrue => exact key 0 255 255 (by norm_num) (by norm_num) _ (by simp [setterRange, channelRange])
  case greyTrue => exact key 0 255 255 (by norm_num) (by norm_num) _ (by simp [setterRange, channelRange])
  case xyz => exact key 0 100 100 (by norm_num) (by norm_num) _ (by simp [setterRange, channelRange])
  case xyy => exact key 0 100 100 (by norm_num) (by norm_num) _ (by simp [setterRange, channelRange])
  all_goals exact key 0 1 1 (by norm_num) (by norm_num) _ (by simp [setterRange, channelRange])

section
variable [FloatModel] [IntExact]

omit [FloatModel] [IntExact] in
theorem span_pos (t : ColorType) : 1 ≤ span t := by cases t <;> simp [span]

omit [FloatModel] [IntExact] in
theorem parts_eq {t : ColorType} {cs : List Color} (hp : ∀ c ∈ cs, Proper t c) {i : ℕ} (hi : i < Color.count t) : cs.map (part · i) = (cs.map (chan · i)).map fin := by
  rw [List.map_map]
  exact List.map_congr_left fun c hc => (hp c hc).part_eq hi

/-- The sum of a channel and its quotient. -/
theorem channel {t : ColorType} {cs : List Color} (hn : cs ≠ []) (hp : ∀ c ∈ cs, Proper t c) (hl : cs.length * span t ≤ 2 ^ 24) {i : ℕ} (hi : i < Color.count t) :
    ∃ S v, run 0 (cs.map (part · i)) = fin S ∧ fin S / lit (cs.length : ℝ) = fin v ∧ rnd (S / cs.length) = fin v ∧ (setterRange t i).1 ≤ v ∧ v ≤ (setterRange t i).2 := by
  obtain ⟨a, b, hr, ha, hb⟩ := limits_whole t i
  have hlen : 0 < cs.length := List.length_pos_iff.mpr hn
  have hs := span_pos t
  have bound : ∀ z : ℤ, |z| ≤ span t → ((0 : ℕ) + (cs.map (chan · i)).length : ℤ) * |z| ≤ 2 ^ 24 := by
    intro z hz
    rw [List.length_map]
    have h1 : (cs.length : ℤ) * span t ≤ 2 ^ 24 := by exact_mod_cast hl
    have h2 : (cs.length : ℤ) * |z| ≤ cs.length * span t := by gcongr
    simpa using h2.trans h1
  have hsp : (span t : ℤ) ≤ 2 ^ 24 := by
    have : span t ≤ cs.length * span t := Nat.le_mul_of_pos_left _ hlen
    exact_mod_cast this.trans hl
  have hlen2 : cs.length ≤ 2 ^ 24 := (Nat.le_mul_of_pos_right _ hs).trans hl
  obtain ⟨S, e, h1, h2⟩ := run_between (a := a) (b := b) (cs.map (chan · i)) (by
    simp only [List.mem_map]
    rintro _ ⟨c, hc, rfl⟩
    have := (hp c hc).chan_range hi
    rw [hr] at this; exact this) 0 0 (by simp) (bound a ha) (bound b hb)
  simp only [List.length_map, zero_add] at h1 h2
  obtain ⟨v, e1, e2, v1, v2⟩ := quotient_between (a := a) (b := b) (ha.trans hsp) (hb.trans hsp) hlen hlen2 h1 h2
  exact ⟨S, v, by rw [parts_eq hp hi, zero_def]; exact e, e1, e2, by rw [hr]; exact v1, by rw [hr]; exact v2⟩

/-- The average of many colours: its channels are the quotients as they are. -/
theorem average_any {t : ColorType} (ht : t ≠ .undefined) (ia : Bool) {cs : List Color} (hn : cs ≠ []) (hp : ∀ c ∈ cs, Proper t c) (hl : cs.length * span t ≤ 2 ^ 24) :
    ∃ r al, Averages t ia cs r ∧ IsColor t r ∧ r.space = (cs.head hn).space ∧ r.comps = (List.range (Color.count t)).map (fun i => run 0 (cs.map (part · i)) / lit (cs.length : ℝ)) ∧
      r.malpha = (let v := if ia then al / lit (cs.length : ℝ) else al; if Color.scalesAlpha t then Color.clamp (v / 255) 1 0 else v) ∧
      (ia = true → t ≠ .cmyk → al = run 0 (cs.map Color.alpha)) ∧ (ia = false → al = (cs.head hn).alpha) := by
  obtain ⟨first, rest, rfl⟩ := List.exists_cons_of_ne_nil hn
  have hz : List.replicate (Color.count t) (0 : Fl) = (List.range (Color.count t)).map (fun _ => (0 : Fl)) := by simp [List.map_const']
  obtain ⟨al, e, hal, hfa⟩ := loop_any ia first (first :: rest) (fun c hc => (hp c hc).col) (fun _ => 0) 0
  have ev : averageVal t ia (first :: rest) = ok ⟨t, t, (List.range (Color.count t)).map (fun i => run 0 ((first :: rest).map (part · i)) / lit ((first :: rest).length : ℝ)),
      (let v := if ia then al / lit ((first :: rest).length : ℝ) else al; if Color.scalesAlpha t then Color.clamp (v / 255) 1 0 else v), Color.maxOf t, Color.minOf t, first.space⟩ := by
    rw [averageVal, hz]
    simp only [e, ok_bind]
    rw [construct_keep ht _ _ (by simp)]
    · simp [List.map_map, Function.comp_def]
    · intro i hi
      have hi' : i < Color.count t := by simpa using hi
      obtain ⟨S, v, e1, e2, -, v1, v2⟩ := channel hn hp hl hi'
      simp only [List.getElem_map, List.getElem_range, e1, e2]
      exact ⟨v, rfl, v1, v2⟩
  exact ⟨_, al, averages_of hn ev, ⟨rfl, rfl, by simp, rfl, rfl⟩, rfl, rfl, rfl, hal, fun h => hfa h (.inl hn)⟩

end

end Calc

section
variable [FloatModel] [IntExact]

/-- C164: the average of up to `2^24 / span t` colours has channels inside the limits of the class, and if at most `2^23` colours with channels of magnitude at most `M` are averaged,
each channel is the mean of that channel up to `n + 2` rounding errors of numbers of that magnitude. -/
theorem C164_accurate_partial [FineError] (t : ColorType) (ht : t ≠ .undefined) (ia : Bool) (cs : List Color) (hn : cs ≠ []) (hp : ∀ c ∈ cs, Proper t c) (hl : cs.length * span t ≤ 2 ^ 24) :
    ∃ r, Averages t ia cs r ∧ IsColor t r ∧ r.space = (cs.head hn).space ∧ ∀ i < Color.count t, ∃ v : ℝ,
      r.comps[i]? = some (fin v) ∧ (setterRange t i).1 ≤ v ∧ v ≤ (setterRange t i).2 ∧
      ∀ M : ℝ, cs.length ≤ 2 ^ 23 → M ≤ 1000 → (∀ c ∈ cs, |chan c i| ≤ M) →
        |v - (cs.map (chan · i)).sum / cs.length| ≤ (cs.length + 2) * (M / 2 ^ 23 + 1 / 2 ^ 100) := by
  obtain ⟨r, al, h1, h2, h3, h4, -⟩ := average_any ht ia hn hp hl
  refine ⟨r, h1, h2, h3, fun i hi => ?_⟩
  obtain ⟨S, v, e1, e2, e3, v1, v2⟩ := channel hn hp hl hi
  refine ⟨v, by rw [h4]; simp only [List.getElem?_map, List.getElem?_range hi, Option.map_some, e1, e2], v1, v2, fun M hlen hM hb => ?_⟩
  have hM0 : 0 ≤ M := by
    obtain ⟨c, hc⟩ := List.exists_mem_of_ne_nil cs hn
    exact (abs_nonneg _).trans (hb c hc)
  obtain ⟨S', e, n1, n2⟩ := run_near hM (cs.map (chan · i)) (by simp only [List.mem_map]; rintro _ ⟨c, hc, rfl⟩; exact hb c hc) 0 0 0 (by simp) (by simp) (by simpa using hlen)
  rw [parts_eq hp hi, zero_def, e] at e1
  obtain rfl : S' = S := by simpa using e1
  simp only [List.length_map, zero_add] at n1 n2
  exact quotient_near hM0 hM (List.length_pos_iff.mpr hn) hlen n1 n2 e3

/-- C164: a channel that is a whole number in every colour, such as the channels of 8-bit colours, is averaged without any error but that of rounding the mean. -/
theorem C164_whole_partial (t : ColorType) (ht : t ≠ .undefined) (ia : Bool) (cs : List Color) (hn : cs ≠ []) (hp : ∀ c ∈ cs, Proper t c) (hl : cs.length * span t ≤ 2 ^ 24) :
    ∃ r, Averages t ia cs r ∧ IsColor t r ∧ ∀ i < Color.count t, (∀ c ∈ cs, ∃ k : ℤ, chan c i = k) → r.comps[i]? = some (rnd ((cs.map (chan · i)).sum / cs.length)) := by
  obtain ⟨r, al, h1, h2, -, h4, -⟩ := average_any ht ia hn hp hl
  refine ⟨r, h1, h2, fun i hi hw => ?_⟩
  obtain ⟨S, v, e1, e2, e3, -⟩ := channel hn hp hl hi
  have hk : ∀ c ∈ cs, chan c i = ((⌊chan c i⌋ : ℤ) : ℝ) := by
    intro c hc
    obtain ⟨k, hk⟩ := hw c hc
    rw [hk, Int.floor_intCast]
  have hmap : cs.map (chan · i) = (cs.map (fun c => ⌊chan c i⌋)).map (fun k : ℤ => (k : ℝ)) := by
    rw [List.map_map]; exact List.map_congr_left hk
  have hb : ∀ ds : List Color, (∀ c ∈ ds, Proper t c) → (∀ c ∈ ds, ∃ k : ℤ, chan c i = k) → ((ds.map (fun c => ⌊chan c i⌋)).map (fun k : ℤ => |k|)).sum ≤ ds.length * (span t : ℤ) := by
    intro ds
    induction ds with
    | nil => simp
    | cons d ds ih =>
      intro q1 q2
      have := ih (fun c hc => q1 c (by simp [hc])) (fun c hc => q2 c (by simp [hc]))
      obtain ⟨a, b, hr, ha, hb⟩ := limits_whole t i
      have hd := (q1 d (by simp)).chan_range hi
      obtain ⟨k, hk⟩ := q2 d (by simp)
      rw [hr, hk] at hd
      have d1 : a ≤ k := Int.cast_le.mp hd.1
      have d2 : k ≤ b := Int.cast_le.mp hd.2
      have : |k| ≤ span t := by rw [abs_le] at ha hb ⊢; omega
      simp only [List.map_cons, List.sum_cons, List.length_cons, Nat.cast_add, Nat.cast_one, hk, Int.floor_intCast]
      linarith
  have hsum := run_whole (cs.map (fun c => ⌊chan c i⌋)) 0 (by
    rw [abs_zero, zero_add]
    refine (hb cs hp hw).trans ?_
    exact_mod_cast hl)
  rw [parts_eq hp hi, hmap, List.map_map, zero_def] at e1
  simp only [Int.cast_zero] at hsum
  have e1' := hsum.symm.trans e1
  have hS : S = (cs.map (chan · i)).sum := by
    have := (Fl.fin.inj e1').symm
    rw [this, hmap]
    push_cast
    rw [zero_add]
  rw [h4]
  simp only [List.getElem?_map, List.getElem?_range hi, Option.map_some]
  rw [← hS, e3, ← e2]
  congr 2
  rw [parts_eq hp hi, hmap, List.map_map, zero_def]
  exact e1

/-- C164: copies of a colour with whole channels average to channels that are exactly those of the colour. -/
theorem C164_copies_partial (t : ColorType) (ht : t ≠ .undefined) (ia : Bool) (c : Color) (hp : Proper t c) (hw : ∀ i < Color.count t, ∃ k : ℤ, chan c i = k) (n : ℕ) (h0 : 0 < n)
    (hl : n * span t ≤ 2 ^ 24) : ∃ r, Averages t ia (List.replicate n c) r ∧ r.comps = c.comps := by
  have hall : ∀ d ∈ List.replicate n c, Proper t d := fun d hd => by rw [List.eq_of_mem_replicate hd]; exact hp
  have hn : List.replicate n c ≠ [] := by simp; omega
  obtain ⟨r, h1, h2, h3⟩ := C164_whole_partial t ht ia (List.replicate n c) hn hall (by simpa using hl)
  refine ⟨r, h1, ?_⟩
  have hp0 : (n : ℝ) ≠ 0 := by exact_mod_cast h0.ne'
  apply List.ext_getElem?
  intro i
  by_cases hi : i < Color.count t
  · rw [h3 i hi (fun d hd => by rw [List.eq_of_mem_replicate hd]; exact hw i hi)]
    obtain ⟨k, hk⟩ := hw i hi
    have hle : |k| ≤ 2 ^ 24 := by
      obtain ⟨a, b, hr, ha, hb⟩ := limits_whole t i
      have hd := hp.chan_range hi
      rw [hr, hk] at hd
      have d1 : a ≤ k := Int.cast_le.mp hd.1
      have d2 : k ≤ b := Int.cast_le.mp hd.2
      have hs : (span t : ℤ) ≤ 2 ^ 24 := by exact_mod_cast (Nat.le_mul_of_pos_left _ h0).trans hl
      rw [abs_le] at ha hb ⊢; omega
    rw [hp.comps]
    simp only [List.getElem?_map, List.getElem?_range hi, Option.map_some, List.map_replicate, List.sum_replicate, List.length_replicate, nsmul_eq_mul, hk]
    rw [mul_div_cancel_left₀ _ hp0, IntExact.rnd_int k hle]
  · rw [List.getElem?_eq_none (by rw [h2.len]; omega), List.getElem?_eq_none (by rw [hp.col.len]; omega)]

/-- C164: the averaged opacity, where the class stores it as a fraction, is a fraction again and likewise accurate. CMYK is excluded, see `C67_violated`. -/
theorem C164_opacity_partial [FineError] (t : ColorType) (ht : t ≠ .undefined) (hc : t ≠ .cmyk) (hs : Color.scalesAlpha t = false) (cs : List Color) (hn : cs ≠ []) (hp : ∀ c ∈ cs, Proper t c)
    (hl : cs.length * span t ≤ 2 ^ 24) : ∃ r, Averages t true cs r ∧ ∃ v : ℝ, r.malpha = fin v ∧ 0 ≤ v ∧ v ≤ 1 ∧
      (cs.length ≤ 2 ^ 23 → |v - (cs.map opac).sum / cs.length| ≤ (cs.length + 2) * (1 / 2 ^ 23 + 1 / 2 ^ 100)) := by
  obtain ⟨r, al, h1, -, -, -, h5, h6, -⟩ := average_any ht true hn hp hl
  refine ⟨r, h1, ?_⟩
  have hm : cs.map Color.alpha = (cs.map opac).map fin := by
    rw [List.map_map]
    refine List.map_congr_left fun c h => ?_
    have q := hp c h
    simp only [Color.alpha, q.col.cls, hs, Bool.false_eq_true, if_false, q.opac_eq, Function.comp]
  have hlen : 0 < cs.length := List.length_pos_iff.mpr hn
  have hlen2 : cs.length ≤ 2 ^ 24 := (Nat.le_mul_of_pos_right _ (span_pos t)).trans hl
  have hlz : (cs.length : ℤ) ≤ 2 ^ 24 := by exact_mod_cast hlen2
  have hr : ∀ x ∈ cs.map opac, 0 ≤ x ∧ x ≤ 1 := by
    simp only [List.mem_map]
    rintro _ ⟨c, h, rfl⟩
    exact (hp c h).opac_range
  obtain ⟨S, e, s1, s2⟩ := run_between (a := 0) (b := 1) (cs.map opac) (by simpa using hr) 0 0 (by simp) (by simp) (by simpa using hlz)
  simp only [List.length_map, zero_add] at s1 s2
  obtain ⟨v, e1, e2, v1, v2⟩ := quotient_between (a := 0) (b := 1) (by norm_num) (by norm_num) hlen hlen2 s1 s2
  rw [h6 rfl hc, hm, zero_def, e] at h5
  simp only [hs, Bool.false_eq_true, if_false, if_true, e1] at h5
  refine ⟨v, h5, by simpa using v1, by simpa using v2, fun h23 => ?_⟩
  obtain ⟨S', e', n1, n2⟩ := run_near (M := 1) (by norm_num) (cs.map opac) (fun x hx => by rw [abs_of_nonneg (hr x hx).1]; exact (hr x hx).2) 0 0 0 (by simp) (by simp) (by simpa using h23)
  rw [e] at e'
  obtain rfl : S = S' := by simpa using e'
  simp only [List.length_map, zero_add] at n1 n2
  exact quotient_near (by norm_num) (by norm_num) hlen h23 n1 n2 e2

end

/-! ### Where averages stop being averages -/

namespace Binary32

/-- Adding one to `2^24` changes nothing. -/
theorem stuck : round32 ((2 : ℝ) ^ 24 + 1) = .fin (2 ^ 24) := by
  have hu : ulpExp ((2 : ℝ) ^ 24 + 1) = 1 := ulp_eq (by norm_num) (by norm_num) (by norm_num)
  have hf : ⌊((2 : ℝ) ^ 24 + 1) / 2 ^ (1 : ℤ)⌋ = 2 ^ 23 := by
    rw [Int.floor_eq_iff]; norm_num
  have hv : value ((2 : ℝ) ^ 24 + 1) = 2 ^ 24 := by
    unfold value rne
    rw [hu, hf]
    norm_num [show Even (8388608 : ℤ) from ⟨4194304, by norm_num⟩]
  unfold round32
  rw [hv]
  norm_num

end Binary32

namespace Calc

theorem run_ones (m k : ℕ) (hk : k ≤ 2 ^ 24) : letI := Binary32.binary32
    run (fin (k : ℝ)) (List.replicate m (fin 1)) = fin ((min (k + m) (2 ^ 24) : ℕ) : ℝ) := by
  letI := Binary32.binary32
  haveI := Binary32.binary32_int
  induction m generalizing k with
  | zero => rw [Nat.add_zero, min_eq_left hk]; rfl
  | succ m ih =>
    rw [List.replicate_succ, run_cons, fin_add]
    rcases Nat.lt_or_eq_of_le hk with h | h
    · have := IntExact.rnd_int ((k : ℤ) + 1) (by rw [abs_of_nonneg (by positivity)]; omega)
      push_cast at this
      rw [this]
      have e := ih (k + 1) h
      push_cast at e
      rw [e]
      congr 2
      push_cast
      congr 1
      ring
    · subst h
      have e1 : rnd (((2 ^ 24 : ℕ) : ℝ) + 1) = fin ((2 ^ 24 : ℕ) : ℝ) := by
        rw [Nat.cast_pow, Nat.cast_ofNat]; exact Binary32.stuck
      rw [e1, ih _ le_rfl]
      congr 2
      omega

/-- The sum of `n` ones divided by their number. -/
theorem quotient_white (n : ℕ) (h0 : 0 < n) : letI := Binary32.binary32
    ∃ q : ℝ, fin ((min n (2 ^ 24) : ℕ) : ℝ) / lit (n : ℝ) = fin q ∧ 0 ≤ q ∧ q ≤ 1 ∧ (q = 1 ↔ n ≤ 2 ^ 24 + 1) ∧ (n = 2 ^ 25 → q = 1 / 2) := by
  letI := Binary32.binary32
  haveI := Binary32.binary32_int
  have one : rnd (1 : ℝ) = fin 1 := by simpa using IntExact.rnd_int 1 (by norm_num)
  have hp : (0 : ℝ) < n := by exact_mod_cast h0
  rcases Nat.lt_or_ge (2 ^ 24 + 1) n with h | h
  · rw [min_eq_right (by omega)]
    have hge : ((2 ^ 24 + 2 : ℕ) : ℝ) ≤ n := by exact_mod_cast h
    have base : rnd ((2 ^ 24 + 2 : ℕ) : ℝ) = fin ((2 ^ 24 + 2 : ℕ) : ℝ) := by
      have := Binary32.round_exact (2 ^ 23 + 1) 1 (by norm_num) (by norm_num) (by norm_num)
      have e : (((2 ^ 23 + 1 : ℤ) : ℝ) * 2 ^ (1 : ℤ)) = ((2 ^ 24 + 2 : ℕ) : ℝ) := by norm_num
      rw [e] at this
      exact this
    have m1 := FloatModel.rnd_mono _ _ hge
    rw [base] at m1
    have cap : rnd (1 - 1 / 2 ^ 24 : ℝ) = fin (1 - 1 / 2 ^ 24) := by
      have := Binary32.round_exact (2 ^ 24 - 1) (-24) (by norm_num) (by norm_num) (by norm_num)
      have e : (((2 ^ 24 - 1 : ℤ) : ℝ) * 2 ^ (-24 : ℤ)) = 1 - 1 / 2 ^ 24 := by norm_num
      rw [e] at this
      exact this
    cases hr : rnd (n : ℝ) with
    | nan => rw [hr] at m1; simp at m1
    | ninf => rw [hr] at m1; simp at m1
    | pinf =>
      refine ⟨0, by rw [lit, hr]; rfl, le_rfl, by norm_num, ⟨fun h => by norm_num at h, fun h' => by omega⟩, ?_⟩
      rintro rfl
      have := Binary32.round_exact 1 25 (by norm_num) (by norm_num) (by norm_num)
      have e : (((1 : ℤ) : ℝ) * 2 ^ (25 : ℤ)) = ((2 ^ 25 : ℕ) : ℝ) := by norm_num
      rw [e] at this
      have h2 : rnd ((2 ^ 25 : ℕ) : ℝ) = fin ((2 ^ 25 : ℕ) : ℝ) := this
      rw [h2] at hr
      simp at hr
    | fin N =>
      rw [hr] at m1
      simp only [fin_le] at m1
      have hN : (2 : ℝ) ^ 24 + 2 ≤ N := by push_cast at m1; norm_num at m1 ⊢; exact m1
      have hN0 : (0 : ℝ) < N := by norm_num at hN; linarith
      have hx : (((2 ^ 24 : ℕ) : ℝ) / N) ≤ 1 - 1 / 2 ^ 24 := by
        rw [div_le_iff₀ hN0]
        push_cast
        have : (1 - 1 / 2 ^ 24 : ℝ) * (2 ^ 24 + 2) ≤ (1 - 1 / 2 ^ 24) * N := mul_le_mul_of_nonneg_left hN (by norm_num)
        refine le_trans (by norm_num) this
      have m2 := FloatModel.rnd_mono _ _ hx
      have m3 := FloatModel.rnd_mono 0 (((2 ^ 24 : ℕ) : ℝ) / N) (by positivity)
      rw [FloatModel.rnd_zero] at m3
      rw [cap] at m2
      have hd : fin (((2 ^ 24 : ℕ) : ℝ)) / lit (n : ℝ) = rnd (((2 ^ 24 : ℕ) : ℝ) / N) := by rw [lit, hr, fin_div _ _ hN0.ne']
      cases e : rnd (((2 ^ 24 : ℕ) : ℝ) / N) with
      | nan => rw [e] at m2; simp at m2
      | pinf => rw [e] at m2; simp at m2
      | ninf => rw [e] at m3; simp at m3
      | fin q =>
        rw [e] at m2 m3
        simp only [fin_le] at m2 m3
        have q1 : q < 1 := by norm_num at m2; linarith
        refine ⟨q, hd.trans e, m3, q1.le, ⟨fun h => by linarith, fun h' => by omega⟩, ?_⟩
        rintro rfl
        have := Binary32.round_exact 1 25 (by norm_num) (by norm_num) (by norm_num)
        have e' : (((1 : ℤ) : ℝ) * 2 ^ (25 : ℤ)) = ((2 ^ 25 : ℕ) : ℝ) := by norm_num
        rw [e'] at this
        have h2 : rnd ((2 ^ 25 : ℕ) : ℝ) = fin ((2 ^ 25 : ℕ) : ℝ) := this
        rw [h2] at hr
        obtain rfl : ((2 ^ 25 : ℕ) : ℝ) = N := Fl.fin.inj hr
        have h3 := Binary32.round_exact 1 (-1) (by norm_num) (by norm_num) (by norm_num)
        have e3 : (((1 : ℤ) : ℝ) * 2 ^ (-1 : ℤ)) = 1 / 2 := by norm_num
        rw [e3] at h3
        have h4 : rnd (1 / 2 : ℝ) = fin (1 / 2) := h3
        have e4 : ((2 ^ 24 : ℕ) : ℝ) / ((2 ^ 25 : ℕ) : ℝ) = 1 / 2 := by norm_num
        rw [e4, h4] at e
        exact (Fl.fin.inj e).symm
  · refine ⟨1, ?_, by norm_num, le_rfl, ⟨fun _ => h, fun _ => rfl⟩, fun h' => by omega⟩
    rcases Nat.lt_or_ge (2 ^ 24) n with h1 | h1
    · obtain rfl : n = 2 ^ 24 + 1 := by omega
      have hl : lit ((2 ^ 24 + 1 : ℕ) : ℝ) = fin ((2 ^ 24 : ℕ) : ℝ) := by
        rw [Nat.cast_add, Nat.cast_pow, Nat.cast_ofNat, Nat.cast_one]; exact Binary32.stuck
      rw [min_eq_right (by norm_num), hl, fin_div _ _ (by norm_num), div_self (by norm_num), one]
    · have hl : lit (n : ℝ) = fin (n : ℝ) := by
        have := IntExact.rnd_int (n : ℤ) (by rw [abs_of_nonneg (by positivity)]; exact_mod_cast h1)
        simpa [lit] using this
      rw [min_eq_left h1, hl, fin_div _ _ hp.ne', div_self hp.ne', one]

end Calc

/-- C164: in binary32 the average of `n` opaque white colours is white exactly as long as `n` is at most `2^24 + 1`.  Beyond that the sum no longer grows, since `2^24 + 1` is rounded to
`2^24`: the average of the pixels of a white picture with `2^25` of them, about 33 megapixels, is a medium grey, and half transparent if the opacity is averaged too. -/
theorem C164_white_violated (sp : Option Nat) (ia : Bool) (n : ℕ) (h0 : 0 < n) : letI := Binary32.binary32
    ∃ r, Averages .rgbDeep ia (List.replicate n (white sp)) r ∧ (r = white sp ↔ n ≤ 2 ^ 24 + 1) ∧
      (2 ^ 24 + 2 ≤ n → ∀ i < 3, ∃ v : ℝ, r.comps[i]? = some (fin v) ∧ 0 ≤ v ∧ v < 1) ∧
      (n = 2 ^ 25 → r.comps = [fin (1 / 2), fin (1 / 2), fin (1 / 2)] ∧ r.malpha = fin (if ia then 1 / 2 else 1)) := by
  letI := Binary32.binary32
  haveI := Binary32.binary32_int
  have hn : List.replicate n (white sp) ≠ [] := by simp; omega
  -- the quotient
  obtain ⟨q, hq, q0, q1, qw, qh⟩ : ∃ q : ℝ, fin ((min n (2 ^ 24) : ℕ) : ℝ) / lit (n : ℝ) = fin q ∧ 0 ≤ q ∧ q ≤ 1 ∧ (q = 1 ↔ n ≤ 2 ^ 24 + 1) ∧ (n = 2 ^ 25 → q = 1 / 2) := quotient_white n h0
  obtain ⟨m, rfl⟩ : ∃ m, n = m + 1 := ⟨n - 1, by omega⟩
  have hcol : ∀ c ∈ List.replicate (m + 1) (white sp), IsColor .rgbDeep c := fun c hc => by
    rw [List.eq_of_mem_replicate hc]; exact ⟨rfl, rfl, rfl, rfl, rfl⟩
  obtain ⟨al, e, hal, hfa⟩ := loop_any ia (white sp) (List.replicate (m + 1) (white sp)) hcol (fun _ => 0) 0
  have hpart : ∀ i < 3, run 0 ((List.replicate (m + 1) (white sp)).map (part · i)) = fin ((min (m + 1) (2 ^ 24) : ℕ) : ℝ) := by
    intro i hi
    have h1 : part (white sp) i = fin 1 := by
      match i, hi with
      | 0, _ => rfl
      | 1, _ => rfl
      | 2, _ => rfl
    rw [List.map_replicate, h1]
    simpa using run_ones (m + 1) 0 (by norm_num)
  have hz : List.replicate (Color.count .rgbDeep) (0 : Fl) = (List.range (Color.count .rgbDeep)).map (fun _ => (0 : Fl)) := by simp [List.map_const']
  have ev : averageVal .rgbDeep ia (List.replicate (m + 1) (white sp)) = ok ⟨.rgbDeep, .rgbDeep, [fin q, fin q, fin q], if ia then fin q else fin 1, 1, 0, sp⟩ := by
    have hcons : List.replicate (m + 1) (white sp) = white sp :: List.replicate m (white sp) := rfl
    rw [hcons] at e hal hfa hpart ⊢
    have hlen : ((white sp :: List.replicate m (white sp)).length : ℝ) = ((m + 1 : ℕ) : ℝ) := by simp
    have hal' : (if ia then al / lit (((white sp :: List.replicate m (white sp)).length : ℝ)) else al) = if ia then fin q else fin 1 := by
      cases ia
      · simp only [Bool.false_eq_true, if_false]
        rw [hfa rfl (.inl (by simp))]; rfl
      · simp only [if_true]
        have ha : (white sp :: List.replicate m (white sp)).map Color.alpha = List.replicate (m + 1) (fin 1) := by
          rw [← hcons, List.map_replicate]; rfl
        have h1 := run_ones (m + 1) 0 (by norm_num)
        rw [hal rfl (by simp), ha, hlen, ← hq]
        congr 1
        simpa using h1
    rw [averageVal, hz]
    simp only [e, ok_bind]
    rw [hal']
    simp only [Color.count, List.range, List.range.loop, List.map_cons (f := fun i => run 0 _), List.map_nil, List.map_cons, List.map_nil] at hpart ⊢
    rw [hpart 0 (by norm_num), hpart 1 (by norm_num), hpart 2 (by norm_num), hlen, hq, Color.construct_rgbDeep, Color.mkRgbDeep]
    have hcl : Color.clamp (fin q) 1 0 = fin q := Conv.clamp_unit q0 q1
    rw [hcl]
    rfl
  refine ⟨_, averages_of hn ev, ?_, ?_, ?_⟩
  · rw [← qw]
    constructor
    · intro h
      simpa [white] using (congrArg Color.comps h)
    · rintro rfl
      simp [white]
  · intro h i hi
    have hlt : q < 1 := lt_of_le_of_ne q1 (fun h' => by have := qw.mp h'; omega)
    match i, hi with
    | 0, _ => exact ⟨q, rfl, q0, hlt⟩
    | 1, _ => exact ⟨q, rfl, q0, hlt⟩
    | 2, _ => exact ⟨q, rfl, q0, hlt⟩
  · intro h
    rw [qh h]
    refine ⟨rfl, ?_⟩
    cases ia <;> rfl

/-! Cases in single precision: thirty thousand pixels of two 8-bit oranges, sixty-five thousand copies of one, translucent deep colours, a picture with 33 megapixels. -/

/-- An 8-bit colour is proper. -/
theorem proper_bytes (R G B : ℕ) (hR : R ≤ 255) (hG : G ≤ 255) (hB : B ≤ 255) (sp : Option Nat) : Proper .rgbTrue ⟨.rgbTrue, .rgbTrue, [fin R, fin G, fin B], fin 1, 255, 0, sp⟩ := by
  have hR' : (R : ℝ) ≤ 255 := by exact_mod_cast hR
  have hG' : (G : ℝ) ≤ 255 := by exact_mod_cast hG
  have hB' : (B : ℝ) ≤ 255 := by exact_mod_cast hB
  refine ⟨⟨rfl, rfl, rfl, rfl, rfl⟩, fun i hi => ?_, ⟨1, rfl, by norm_num, le_rfl⟩⟩
  match i, hi with
  | 0, _ => exact ⟨R, rfl, Nat.cast_nonneg R, hR'⟩
  | 1, _ => exact ⟨G, rfl, Nat.cast_nonneg G, hG'⟩
  | 2, _ => exact ⟨B, rfl, Nat.cast_nonneg B, hB'⟩

example (n m : ℕ) (hn : n + m + 1 ≤ 30000) : letI := Binary32.binary32
    ∃ r, Averages .rgbTrue true (⟨.rgbTrue, .rgbTrue, [fin (250 : ℕ), fin (128 : ℕ), fin (10 : ℕ)], fin 1, 255, 0, none⟩ ::
      (List.replicate n ⟨.rgbTrue, .rgbTrue, [fin (250 : ℕ), fin (128 : ℕ), fin (10 : ℕ)], fin 1, 255, 0, none⟩ ++
      List.replicate m ⟨.rgbTrue, .rgbTrue, [fin (255 : ℕ), fin (120 : ℕ), fin (0 : ℕ)], fin 1, 255, 0, none⟩)) r ∧ IsColor .rgbTrue r :=
  letI := Binary32.binary32
  letI := Binary32.binary32_int
  letI := Binary32.binary32_fine
  (C164_accurate_partial .rgbTrue (by simp) true _ (by simp) (by
    intro c hc
    simp only [List.mem_cons, List.mem_append, List.mem_replicate] at hc
    rcases hc with rfl | ⟨-, rfl⟩ | ⟨-, rfl⟩ <;> exact proper_bytes _ _ _ (by norm_num) (by norm_num) (by norm_num) _) (by
    simp only [List.length_cons, List.length_append, List.length_replicate, span]; omega)).imp fun r h => ⟨h.1, h.2.1⟩
example : letI := Binary32.binary32
    ∃ r, Averages .rgbTrue true (List.replicate 65000 ⟨.rgbTrue, .rgbTrue, [fin (250 : ℕ), fin (128 : ℕ), fin (10 : ℕ)], fin 1, 255, 0, none⟩) r ∧ r.comps = [fin (250 : ℕ), fin (128 : ℕ), fin (10 : ℕ)] :=
  letI := Binary32.binary32
  letI := Binary32.binary32_int
  C164_copies_partial .rgbTrue (by simp) true _ (proper_bytes 250 128 10 (by norm_num) (by norm_num) (by norm_num) none) (fun i hi => by
    match i, hi with
    | 0, _ => exact ⟨250, by simp [chan]⟩
    | 1, _ => exact ⟨128, by simp [chan]⟩
    | 2, _ => exact ⟨10, by simp [chan]⟩) 65000 (by norm_num) (by norm_num [span])
example : letI := Binary32.binary32
    ∃ r, Averages .rgbTrue false [⟨.rgbTrue, .rgbTrue, [fin (250 : ℕ), fin (128 : ℕ), fin (10 : ℕ)], fin 1, 255, 0, none⟩, ⟨.rgbTrue, .rgbTrue, [fin (255 : ℕ), fin (120 : ℕ), fin (0 : ℕ)], fin 1, 255, 0, none⟩] r ∧
      r.comps[1]? = some (fin 124) := by
  letI := Binary32.binary32
  letI := Binary32.binary32_int
  obtain ⟨r, h1, -, h2⟩ := C164_whole_partial .rgbTrue (by simp) false [⟨.rgbTrue, .rgbTrue, [fin (250 : ℕ), fin (128 : ℕ), fin (10 : ℕ)], fin 1, 255, 0, none⟩,
    ⟨.rgbTrue, .rgbTrue, [fin (255 : ℕ), fin (120 : ℕ), fin (0 : ℕ)], fin 1, 255, 0, none⟩] (by simp) (by
      intro c hc
      simp only [List.mem_cons, List.not_mem_nil, or_false] at hc
      rcases hc with rfl | rfl <;> exact proper_bytes _ _ _ (by norm_num) (by norm_num) (by norm_num) _) (by norm_num [span])
  refine ⟨r, h1, ?_⟩
  rw [h2 1 (by norm_num [Color.count]) (by
    intro c hc
    simp only [List.mem_cons, List.not_mem_nil, or_false] at hc
    rcases hc with rfl | rfl
    · exact ⟨128, by simp [chan]⟩
    · exact ⟨120, by simp [chan]⟩)]
  have := IntExact.rnd_int 124 (by norm_num)
  simp only [chan, List.map_cons, List.map_nil, List.getElem?_cons_succ, List.getElem?_cons_zero, List.sum_cons, List.sum_nil, List.length_cons, List.length_nil]
  norm_num at this ⊢
  exact this
example : letI := Binary32.binary32
    ∃ r, Averages .rgbDeep true [⟨.rgbDeep, .rgbDeep, [fin 1, fin 1, fin 1], fin 1, 1, 0, none⟩, ⟨.rgbDeep, .rgbDeep, [fin 1, fin 1, fin 1], fin 0, 1, 0, none⟩] r ∧ ∃ v : ℝ, r.malpha = fin v ∧ |v - 1 / 2| ≤ 1 / 1000000 := by
  letI := Binary32.binary32
  letI := Binary32.binary32_int
  letI := Binary32.binary32_fine
  have hp : ∀ a : ℝ, 0 ≤ a → a ≤ 1 → Proper .rgbDeep ⟨.rgbDeep, .rgbDeep, [fin 1, fin 1, fin 1], fin a, 1, 0, none⟩ := fun a h0 h1 => by
    refine ⟨⟨rfl, rfl, rfl, rfl, rfl⟩, fun i hi => ?_, ⟨a, rfl, h0, h1⟩⟩
    match i, hi with
    | 0, _ => exact ⟨1, rfl, zero_le_one, le_rfl⟩
    | 1, _ => exact ⟨1, rfl, zero_le_one, le_rfl⟩
    | 2, _ => exact ⟨1, rfl, zero_le_one, le_rfl⟩
  obtain ⟨r, h1, v, h2, -, -, h3⟩ := C164_opacity_partial .rgbDeep (by simp) (by simp) rfl [⟨.rgbDeep, .rgbDeep, [fin 1, fin 1, fin 1], fin 1, 1, 0, none⟩, ⟨.rgbDeep, .rgbDeep, [fin 1, fin 1, fin 1], fin 0, 1, 0, none⟩]
    (by simp) (by
      intro c hc
      simp only [List.mem_cons, List.not_mem_nil, or_false] at hc
      rcases hc with rfl | rfl
      · exact hp 1 zero_le_one le_rfl
      · exact hp 0 le_rfl zero_le_one) (by norm_num [span])
  refine ⟨r, h1, v, h2, ?_⟩
  have := h3 (by norm_num)
  simp only [opac, List.map_cons, List.map_nil, List.sum_cons, List.sum_nil, List.length_cons, List.length_nil] at this
  norm_num at this ⊢
  linarith
example : letI := Binary32.binary32
    ∃ r, Averages .rgbDeep true (List.replicate (2 ^ 25) (white none)) r ∧ r.comps = [fin (1 / 2), fin (1 / 2), fin (1 / 2)] :=
  letI := Binary32.binary32
  (C164_white_violated none true (2 ^ 25) (by norm_num)).imp fun _ h => ⟨h.1, (h.2.2.2 rfl).1⟩
