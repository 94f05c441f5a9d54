import Verif.CalcExact
import Verif.FineError

/-! Helper lemmas: long sums in an arithmetic that rounds. -/

open Outcome Fl Prog ObjectSpec ConvSpec BlendSpec

namespace Calc

/-- The float in channel `i`. -/
def part (c : Color) (i : Nat) : Fl := (c.comps[i]?).getD nan

theorem Proper.part_eq {t : ColorType} {c : Color} (h : Proper t c) {i : Nat} (hi : i < Color.count t) : part c i = fin (chan c i) := by
  rw [part, h.comps]; simp [hi]

section
variable [FloatModel]

/-- Adding up from `s`. -/
noncomputable def run (s : Fl) (xs : List Fl) : Fl := xs.foldl (· + ·) s

theorem run_nil (s : Fl) : run s [] = s := rfl

theorem run_cons (s x : Fl) (xs : List Fl) : run s (x :: xs) = run (s + x) xs := rfl

theorem accumulate_any {t : ColorType} {c : Color} (h : IsColor t c) (S : Nat → Fl) :
    accumulate ((List.range (Color.count t)).map S) c 0 = ok ((List.range (Color.count t)).map (fun i => S i + part c i)) := by
  rw [accumulate_eq _ _ _ (by simp [h.len]), List.drop_zero]
  congr 1
  apply List.ext_getElem
  · simp [h.len]
  · intro i h1 h2
    have hi : i < c.comps.length := by rw [h.len]; simpa using h2
    simp [part, List.getElem?_eq_getElem hi]

/-- The loop of the averages in any arithmetic. -/
theorem loop_any {t : ColorType} (ia : Bool) (first : Color) (cs : List Color) (h : ∀ c ∈ cs, IsColor t c) (S : Nat → Fl) (al : Fl) :
    ∃ al', averageLoop t ia first cs ((List.range (Color.count t)).map S) al = ok ((List.range (Color.count t)).map (fun i => run (S i) (cs.map (part · i))), al') ∧
      (ia = true → t ≠ .cmyk → al' = run al (cs.map Color.alpha)) ∧ (ia = false → cs ≠ [] ∨ al = first.alpha → al' = first.alpha) := by
  induction cs generalizing S al with
  | nil => exact ⟨al, by simp [averageLoop, run], fun _ _ => rfl, fun _ h => h.resolve_left (by simp)⟩
  | cons c cs ih =>
    obtain ⟨al', e, ha, hf⟩ := ih (fun x hx => h x (by simp [hx])) (fun i => S i + part c i)
      (if ia then (if t = .cmyk then ((((List.range (Color.count t)).map (fun i => S i + part c i))[3]?).getD 0 + c.alpha) else al + c.alpha) else first.alpha)
    refine ⟨al', ?_, fun h1 h2 => ?_, fun h1 _ => hf h1 (.inr (if_neg (by simp [h1])))⟩
    · rw [averageLoop, accumulate_any (h c (by simp)), ok_bind]
      exact e
    · rw [ha h1 h2, if_pos h1, if_neg h2]; rfl

/-- Values between whole numbers add up to a value between their multiples. -/
theorem run_between [IntExact] {a b : ℤ} (xs : List ℝ) (hx : ∀ x ∈ xs, (a : ℝ) ≤ x ∧ x ≤ b) (k : ℕ) (s : ℝ) (hs : (k * a : ℝ) ≤ s ∧ s ≤ k * b)
    (ha : (k + xs.length : ℤ) * |a| ≤ 2 ^ 24) (hb : (k + xs.length : ℤ) * |b| ≤ 2 ^ 24) :
    ∃ S, run (fin s) (xs.map fin) = fin S ∧ ((k + xs.length : ℕ) * a : ℝ) ≤ S ∧ S ≤ ((k + xs.length : ℕ) * b : ℝ) := by
  induction xs generalizing k s with
  | nil => exact ⟨s, rfl, by simpa using hs.1, by simpa using hs.2⟩
  | cons x xs ih =>
    obtain ⟨x1, x2⟩ := hx x (by simp)
    simp only [List.length_cons, Nat.cast_add, Nat.cast_one] at ha hb
    have hk : (0 : ℤ) ≤ (k : ℤ) + 1 := by positivity
    have hle : (k : ℤ) + 1 ≤ k + (xs.length + 1) := by omega
    have ra : rnd (((k + 1) * a : ℤ) : ℝ) = fin (((k + 1) * a : ℤ) : ℝ) := IntExact.rnd_int _ (by
      rw [abs_mul, abs_of_nonneg hk]; exact (mul_le_mul_of_nonneg_right hle (abs_nonneg a)).trans ha)
    have rb : rnd (((k + 1) * b : ℤ) : ℝ) = fin (((k + 1) * b : ℤ) : ℝ) := IntExact.rnd_int _ (by
      rw [abs_mul, abs_of_nonneg hk]; exact (mul_le_mul_of_nonneg_right hle (abs_nonneg b)).trans hb)
    have m1 := FloatModel.rnd_mono (((k + 1) * a : ℤ) : ℝ) (s + x) (by push_cast; linarith [hs.1])
    have m2 := FloatModel.rnd_mono (s + x) (((k + 1) * b : ℤ) : ℝ) (by push_cast; linarith [hs.2])
    rw [ra] at m1
    rw [rb] at m2
    obtain ⟨y, hy⟩ : ∃ y, rnd (s + x) = fin y := by
      cases e : rnd (s + x) with
      | nan => rw [e] at m1; simp at m1
      | pinf => rw [e] at m2; simp at m2
      | ninf => rw [e] at m1; simp at m1
      | fin y => exact ⟨y, rfl⟩
    rw [hy] at m1 m2
    simp only [fin_le] at m1 m2
    push_cast at m1 m2
    obtain ⟨S, e, h1, h2⟩ := ih (fun z hz => hx z (by simp [hz])) (k + 1) y ⟨by push_cast; linarith, by push_cast; linarith⟩
      (by push_cast; rw [show (k : ℤ) + 1 + xs.length = k + (xs.length + 1) by ring]; exact ha)
      (by push_cast; rw [show (k : ℤ) + 1 + xs.length = k + (xs.length + 1) by ring]; exact hb)
    refine ⟨S, ?_, ?_, ?_⟩
    · rw [List.map_cons, run_cons, fin_add, hy, e]
    · simp only [List.length_cons]; push_cast at h1 ⊢; linarith
    · simp only [List.length_cons]; push_cast at h2 ⊢; linarith

/-- Whole numbers add up exactly. -/
theorem run_whole [IntExact] (xs : List ℤ) (s : ℤ) (h : |s| + (xs.map (fun k : ℤ => |k|)).sum ≤ 2 ^ 24) :
    run (fin (s : ℝ)) (xs.map (fun k : ℤ => fin (k : ℝ))) = fin ((s + xs.sum : ℤ) : ℝ) := by
  induction xs generalizing s with
  | nil => simp [run]
  | cons x xs ih =>
    simp only [List.map_cons, List.sum_cons] at h
    have h0 : 0 ≤ (xs.map (fun k : ℤ => |k|)).sum := List.sum_nonneg (by simp only [List.mem_map]; rintro _ ⟨z, -, rfl⟩; exact abs_nonneg z)
    have ha := abs_add_le s x
    rw [List.map_cons, run_cons, fin_add, show (s : ℝ) + (x : ℝ) = ((s + x : ℤ) : ℝ) by push_cast; ring, IntExact.rnd_int _ (by omega), ih _ (by omega)]
    simp [add_assoc]

/-- The error of a long sum. -/
theorem run_near [FineError] {M : ℝ} (hM : M ≤ 1000) (xs : List ℝ) (hx : ∀ x ∈ xs, |x| ≤ M) (k : ℕ) (s T : ℝ) (hT : |T| ≤ k * M)
    (hs : |s - T| ≤ k ^ 2 * (M / 2 ^ 23 + 1 / 2 ^ 100)) (hn : k + xs.length ≤ 2 ^ 23) :
    ∃ S, run (fin s) (xs.map fin) = fin S ∧ |T + xs.sum| ≤ (k + xs.length : ℕ) * M ∧ |S - (T + xs.sum)| ≤ ((k + xs.length : ℕ) : ℝ) ^ 2 * (M / 2 ^ 23 + 1 / 2 ^ 100) := by
  induction xs generalizing k s T with
  | nil => exact ⟨s, rfl, by simpa using hT, by simpa using hs⟩
  | cons x xs ih =>
    have hx0 := hx x (by simp)
    have hM0 : 0 ≤ M := (abs_nonneg x).trans hx0
    simp only [List.length_cons] at hn
    have hk : (k : ℝ) + 1 ≤ 2 ^ 23 := by
      have : k + 1 ≤ 2 ^ 23 := by omega
      exact_mod_cast this
    have hk0 : (0 : ℝ) ≤ k := Nat.cast_nonneg k
    set A : ℝ := M / 2 ^ 23 + 1 / 2 ^ 100 with hA
    have hA0 : 0 ≤ A := by positivity
    have hA1 : A ≤ 1 := by rw [hA]; norm_num; linarith
    have hku : (k : ℝ) / 2 ^ 23 ≤ 1 := by rw [div_le_one (by positivity)]; linarith
    have hT' : |T + x| ≤ (k + 1) * M := (abs_add_le _ _).trans (by linarith)
    have hsz : |s + x| ≤ (k + 1) * M + k ^ 2 * A := by
      have : s + x = (T + x) + (s - T) := by ring
      rw [this]; exact (abs_add_le _ _).trans (add_le_add hT' hs)
    have hbig : |s + x| ≤ 2 ^ 100 := by
      refine hsz.trans ?_
      have h1 : ((k : ℝ) + 1) * M ≤ 2 ^ 23 * 1000 := by gcongr
      have h2 : (k : ℝ) ^ 2 * A ≤ (2 ^ 23) ^ 2 * 1 := by gcongr; linarith
      refine (add_le_add h1 h2).trans (by norm_num)
    obtain ⟨y, hy, ny⟩ := FineError.rnd_near (s + x) hbig
    have e1 : |y - (T + x)| ≤ ((k + 1 : ℕ) : ℝ) ^ 2 * A := by
      have h3 : |s + x| / 2 ^ 23 ≤ ((k + 1) * M + k ^ 2 * A) / 2 ^ 23 := by gcongr
      have h4 : (k : ℝ) ^ 2 * A / 2 ^ 23 ≤ k * A := by
        have : (k : ℝ) ^ 2 * A / 2 ^ 23 = (k * A) * (k / 2 ^ 23) := by ring
        rw [this]
        exact mul_le_of_le_one_right (by positivity) hku
      have h5 : ((k : ℝ) + 1) * M / 2 ^ 23 + 1 / 2 ^ 100 ≤ (k + 1) * A := by
        rw [hA]
        have : (0 : ℝ) ≤ k * (1 / 2 ^ 100) := by positivity
        have e : ((k : ℝ) + 1) * (M / 2 ^ 23 + 1 / 2 ^ 100) = (k + 1) * M / 2 ^ 23 + 1 / 2 ^ 100 + k * (1 / 2 ^ 100) := by ring
        linarith
      have h6 : ((k + 1) * M + k ^ 2 * A) / 2 ^ 23 = ((k : ℝ) + 1) * M / 2 ^ 23 + k ^ 2 * A / 2 ^ 23 := by ring
      have h7 : y - (T + x) = (y - (s + x)) + (s - T) := by ring
      rw [h7]
      refine (abs_add_le _ _).trans ?_
      have h8 : ((k + 1 : ℕ) : ℝ) ^ 2 * A = k ^ 2 * A + (k * A + (k + 1) * A) := by push_cast; ring
      rw [h8]
      linarith
    obtain ⟨S, e, h1, h2⟩ := ih (fun z hz => hx z (by simp [hz])) (k + 1) y (T + x) (by push_cast; exact hT') e1 (by omega)
    refine ⟨S, by rw [List.map_cons, run_cons, fin_add, hy, e], ?_, ?_⟩
    · rw [List.sum_cons, List.length_cons, ← add_assoc, show k + (xs.length + 1) = k + 1 + xs.length by ring]; exact h1
    · rw [List.sum_cons, List.length_cons, ← add_assoc, show k + (xs.length + 1) = k + 1 + xs.length by ring]; exact h2

/-- Dividing the sum by the number of colours. -/
theorem quotient_between [IntExact] {a b : ℤ} (ha : |a| ≤ 2 ^ 24) (hb : |b| ≤ 2 ^ 24) {n : ℕ} (h0 : 0 < n) (hn : n ≤ 2 ^ 24) {S : ℝ} (h1 : (n * a : ℝ) ≤ S) (h2 : S ≤ n * b) :
    ∃ v, fin S / lit (n : ℝ) = fin v ∧ rnd (S / n) = fin v ∧ (a : ℝ) ≤ v ∧ v ≤ b := by
  have hp : (0 : ℝ) < n := by exact_mod_cast h0
  have hl : lit (n : ℝ) = fin (n : ℝ) := by
    have := IntExact.rnd_int (n : ℤ) (by rw [abs_of_nonneg (by positivity)]; exact_mod_cast hn)
    simpa [lit] using this
  have hq : fin S / lit (n : ℝ) = rnd (S / n) := by rw [hl, fin_div _ _ hp.ne']
  have m1 := FloatModel.rnd_mono (a : ℝ) (S / n) (by rw [le_div_iff₀ hp]; linarith)
  have m2 := FloatModel.rnd_mono (S / n) (b : ℝ) (by rw [div_le_iff₀ hp]; linarith)
  rw [IntExact.rnd_int a ha] at m1
  rw [IntExact.rnd_int b hb] at m2
  cases e : rnd (S / n) with
  | nan => rw [e] at m1; simp at m1
  | pinf => rw [e] at m2; simp at m2
  | ninf => rw [e] at m1; simp at m1
  | fin v =>
    rw [e] at m1 m2
    exact ⟨v, hq.trans e, rfl, by simpa using m1, by simpa using m2⟩

theorem quotient_near [FineError] {M : ℝ} (hM0 : 0 ≤ M) (hM : M ≤ 1000) {n : ℕ} (h0 : 0 < n) (hn : n ≤ 2 ^ 23) {S T v : ℝ} (hT : |T| ≤ n * M)
    (hS : |S - T| ≤ (n : ℝ) ^ 2 * (M / 2 ^ 23 + 1 / 2 ^ 100)) (hv : rnd (S / n) = fin v) : |v - T / n| ≤ (n + 2) * (M / 2 ^ 23 + 1 / 2 ^ 100) := by
  have hp : (0 : ℝ) < n := by exact_mod_cast h0
  have hn' : (n : ℝ) ≤ 2 ^ 23 := by exact_mod_cast hn
  set A : ℝ := M / 2 ^ 23 + 1 / 2 ^ 100 with hA
  have hA0 : 0 ≤ A := by positivity
  have hA1 : A ≤ 1 := by rw [hA]; norm_num; linarith
  have e1 : |S / n - T / n| ≤ n * A := by
    rw [← sub_div, abs_div, abs_of_pos hp, div_le_iff₀ hp]
    calc |S - T| ≤ _ := hS
      _ = n * A * n := by ring
  have e2 : |T / n| ≤ M := by rw [abs_div, abs_of_pos hp, div_le_iff₀ hp]; linarith
  have e3 : |S / n| ≤ M + n * A := by
    have : S / n = T / n + (S / n - T / n) := by ring
    rw [this]; exact (abs_add_le _ _).trans (add_le_add e2 e1)
  have hbig : |S / n| ≤ 2 ^ 100 := by
    refine e3.trans ?_
    have : (n : ℝ) * A ≤ 2 ^ 23 * 1 := by gcongr
    refine (add_le_add hM this).trans (by norm_num)
  obtain ⟨y, hy, ny⟩ := FineError.rnd_near (S / n) hbig
  rw [hv] at hy
  obtain rfl : v = y := by simpa using hy
  have h3 : |S / n| / 2 ^ 23 ≤ (M + n * A) / 2 ^ 23 := by gcongr
  have h4 : (n : ℝ) * A / 2 ^ 23 ≤ A := by
    have : (n : ℝ) * A / 2 ^ 23 = A * (n / 2 ^ 23) := by ring
    rw [this]
    exact mul_le_of_le_one_right hA0 ((div_le_one (by positivity)).mpr hn')
  have h6 : (M + n * A) / 2 ^ 23 = M / 2 ^ 23 + n * A / 2 ^ 23 := by ring
  have h7 : v - T / n = (v - S / n) + (S / n - T / n) := by ring
  rw [h7]
  refine (abs_add_le _ _).trans ?_
  linarith

end

end Calc
