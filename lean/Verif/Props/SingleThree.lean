import Verif.Props.SingleMean
import Verif.Props.LongAverages

/-!
# The average of three equal colours in single precision (C164)
-/

open Outcome Fl Prog ObjectSpec ConvSpec BlendSpec CalcSpec Calc

/-- **C164** The average of three copies of a colour in binary32, channel by channel: a normal number up to 1 with the 24-bit significand `M` is kept unless `M` is 2 modulo 4 and at least a third of `2^25`;
then the average is one unit in the last place off. -/
theorem C164_three_partial (t : ColorType) (ht : t ≠ .undefined) (ia : Bool) (c : Color) (hp : Proper t c) : letI := Binary32.binary32
    ∃ r, Averages t ia (List.replicate 3 c) r ∧ IsColor t r ∧ ∀ i < Color.count t, ∀ M e : ℤ, chan c i = M * 2 ^ e → 2 ^ 23 ≤ M → M < 2 ^ 24 → -149 ≤ e → (M : ℝ) * 2 ^ e ≤ 1 →
      ∃ N : ℤ, r.comps[i]? = some (fin (N * 2 ^ e)) ∧ |N - M| ≤ 1 ∧ (N = M ↔ ¬ (M % 4 = 2 ∧ 2 ^ 25 ≤ 3 * M)) := by
  letI := Binary32.binary32
  haveI := Binary32.binary32_int
  have hs : span t ≤ 359 := by cases t <;> simp [span]
  obtain ⟨r, al, h1, h2, -, h4, -⟩ := average_any ht ia (cs := List.replicate 3 c) (by simp) (fun d hd => by rw [List.eq_of_mem_replicate hd]; exact hp) (by rw [List.length_replicate]; omega)
  refine ⟨r, h1, h2, fun i hi M e hv m1 m2 he hle => ?_⟩
  obtain ⟨N, hN, n1, -, n3⟩ := Binary32.third_of_three M e m1 m2 he hle
  refine ⟨N, ?_, n1, n3⟩
  have hz : (0 : Fl) + fin (M * 2 ^ e) = fin (M * 2 ^ e) := by
    rw [zero_def, fin_add, zero_add]
    refine Binary32.round_exact M e (by rw [abs_of_nonneg (by omega)]; omega) he ?_
    have m0 : (0 : ℝ) ≤ M := by exact_mod_cast (show (0 : ℤ) ≤ M by omega)
    have p := Binary32.two_pos e
    rw [abs_of_nonneg (by positivity)]
    exact lt_of_le_of_lt hle (by norm_num)
  have h3 : lit ((3 : ℕ) : ℝ) = (3 : Fl) := by
    have := IntExact.rnd_int 3 (by norm_num)
    rw [lit_def]
    simpa [lit] using this
  rw [h4, List.getElem?_map, List.getElem?_range hi, Option.map_some]
  congr 1
  rw [← hN]
  simp only [List.map_replicate, hp.part_eq hi, hv, List.length_replicate]
  change run 0 [fin (M * 2 ^ e), fin (M * 2 ^ e), fin (M * 2 ^ e)] / lit ((3 : ℕ) : ℝ) = _
  rw [run_cons, hz, run_cons, run_cons, run_nil, h3]

/-- **C164 violated** Three copies of one grey do not average to that grey, although they do with exact arithmetic (C66_copies). -/
theorem C164_three_violated (ia : Bool) (sp : Option Nat) : letI := Binary32.binary32
    ∃ r, Averages .greyDeep ia (List.replicate 3 ⟨.greyDeep, .greyDeep, [fin (11184814 / 2 ^ 24)], fin 1, 1, 0, sp⟩) r ∧ r.comps ≠ [fin (11184814 / 2 ^ 24)] := by
  letI := Binary32.binary32
  have ec : ((11184814 : ℤ) : ℝ) * 2 ^ (-24 : ℤ) = 11184814 / 2 ^ 24 := by norm_num
  obtain ⟨r, h1, -, h2⟩ := C164_three_partial .greyDeep (by decide) ia ⟨.greyDeep, .greyDeep, [fin (11184814 / 2 ^ 24)], fin 1, 1, 0, sp⟩
    ⟨⟨rfl, rfl, rfl, rfl, rfl⟩, by
      intro i hi
      obtain rfl : i = 0 := by simpa using hi
      simp [setterRange, channelRange]
      norm_num, by simp⟩
  obtain ⟨N, hN, -, n3⟩ := h2 0 (by decide) 11184814 (-24) (by rw [ec]; rfl) (by norm_num) (by norm_num) (by norm_num) (by norm_num)
  refine ⟨r, h1, fun h => ?_⟩
  rw [h] at hN
  simp only [List.getElem?_cons_zero, Option.some.injEq, fin_inj] at hN
  rw [← ec] at hN
  have := mul_right_cancel₀ (Binary32.two_pos (-24)).ne' hN
  have : (11184814 : ℤ) = N := by exact_mod_cast this
  exact n3.mp this.symm (by norm_num)

/-- Three copies of a medium grey average to it. -/
example (ia : Bool) : letI := Binary32.binary32
    ∃ r, Averages .greyDeep ia (List.replicate 3 ⟨.greyDeep, .greyDeep, [fin (1 / 2)], fin 1, 1, 0, none⟩) r ∧ r.comps[0]? = some (fin (1 / 2)) := by
  letI := Binary32.binary32
  have ec : ((8388608 : ℤ) : ℝ) * 2 ^ (-24 : ℤ) = 1 / 2 := by norm_num
  obtain ⟨r, h1, -, h2⟩ := C164_three_partial .greyDeep (by decide) ia ⟨.greyDeep, .greyDeep, [fin (1 / 2)], fin 1, 1, 0, none⟩
    ⟨⟨rfl, rfl, rfl, rfl, rfl⟩, by
      intro i hi
      obtain rfl : i = 0 := by simpa using hi
      simp [setterRange, channelRange]
      norm_num, by simp⟩
  obtain ⟨N, hN, -, n3⟩ := h2 0 (by decide) 8388608 (-24) (by rw [ec]; rfl) (by norm_num) (by norm_num) (by norm_num) (by norm_num)
  rw [n3.mpr (by norm_num), ec] at hN
  exact ⟨r, h1, hN⟩
