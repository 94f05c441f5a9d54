import Verif.GammaLemmas
import Mathlib.Tactic.NormNum

/-! # Properties of gamma curves (C26–C29) -/

open Outcome Fl

/-! ## C26: the part lists stay ordered -/

/-- Ascending by upper border; with two or more entries none of them is null. -/
def Ascending (st : PartStore) (l : List (Option Nat)) : Prop :=
  l.Pairwise fun a b => ∃ p q, a = some p ∧ b = some q ∧ (st p).border ≤ (st q).border

/-- All gamma objects a program can make from the parts in memory. -/
inductive GammaReach [StdSort] (st : PartStore) : Gamma → Prop
  | empty : GammaReach st Gamma.empty
  | construct {l l' g} : Gamma.construct st l l' = ok g → GammaReach st g
  | copy {o g} : GammaReach st o → Gamma.copy st o = ok g → GammaReach st g
  | assign {a o g} : GammaReach st a → GammaReach st o → Gamma.assign st a o = ok g → GammaReach st g
  | addPart {o p g} : GammaReach st o → Gamma.addPart st o p = ok g → GammaReach st g
  | addInvPart {o p g} : GammaReach st o → Gamma.addInvPart st o p = ok g → GammaReach st g
  | setParts {o l g} : GammaReach st o → Gamma.setParts st o l = ok g → GammaReach st g
  | setInvParts {o l g} : GammaReach st o → Gamma.setInvParts st o l = ok g → GammaReach st g
  | removePart {o i g} : GammaReach st o → Gamma.removePart o i = ok g → GammaReach st g
  | removeInvPart {o i g} : GammaReach st o → Gamma.removeInvPart o i = ok g → GammaReach st g

/-- C26, for parts whose border is not NaN.  Missing: removing a part is undefined behaviour (`C26_remove_violated`), and NaN borders. -/
theorem C26_ordered_partial [StdSort] (st : PartStore) (hn : ∀ p, (st p).border ≠ .nan) (g : Gamma) (h : GammaReach st g) :
    Ascending st g.parts ∧ Ascending st g.inv := by
  have con : ∀ {l l' g}, Gamma.construct st l l' = ok g → Ascending st g.parts ∧ Ascending st g.inv := by
    intro l l' g h
    simp only [Gamma.construct, Outcome.bind_eq_ok] at h
    obtain ⟨a, ha, b, hb, e⟩ := h
    obtain rfl := Outcome.ok_inj.mp e
    exact ⟨Gamma.sort_sorted ha fun p _ => hn p, Gamma.sort_sorted hb fun p _ => hn p⟩
  induction h with
  | empty => exact ⟨List.Pairwise.nil, List.Pairwise.nil⟩
  | construct h => exact con h
  | copy _ h _ => exact con h
  | assign _ _ h _ _ => exact con h
  | addPart _ h ih | setParts _ h ih =>
    simp only [Gamma.addPart, Gamma.setParts, Outcome.bind_eq_ok] at h
    obtain ⟨a, ha, e⟩ := h
    obtain rfl := Outcome.ok_inj.mp e
    exact ⟨Gamma.sort_sorted ha fun p _ => hn p, ih.2⟩
  | addInvPart _ h ih | setInvParts _ h ih =>
    simp only [Gamma.addInvPart, Gamma.setInvParts, Outcome.bind_eq_ok] at h
    obtain ⟨a, ha, e⟩ := h
    obtain rfl := Outcome.ok_inj.mp e
    exact ⟨ih.1, Gamma.sort_sorted ha fun p _ => hn p⟩
  | removePart _ h _ => exact absurd h (by simp [Gamma.removePart])
  | removeInvPart _ h _ => exact absurd h (by simp [Gamma.removeInvPart])

/-- The operations that should work do: without null pointers and NaN borders nothing is undefined, and no part is lost or invented. -/
theorem C26_operations [StdSort] (st : PartStore) (hn : ∀ p, (st p).border ≠ .nan) (l l' : List Nat) :
    ∃ g, Gamma.construct st (l.map some) (l'.map some) = ok g ∧ g.parts.Perm (l.map some) ∧ g.inv.Perm (l'.map some) ∧
      (∀ p, ∃ g', Gamma.addPart st g (some p) = ok g' ∧ g'.parts.Perm (some p :: g.parts) ∧ g'.inv = g.inv) ∧
      ∀ p, ∃ g', Gamma.addInvPart st g (some p) = ok g' ∧ g'.inv.Perm (some p :: g.inv) ∧ g'.parts = g.parts := by
  have srt : ∀ ps : List (Option Nat), none ∉ ps → ∃ l', Gamma.sort st ps = ok l' ∧ l'.Perm ps := by
    intro ps hps
    have : ∃ l', Gamma.sort st ps = ok l' := by
      unfold Gamma.sort
      split_ifs with h1
      · exact ⟨_, rfl⟩
      · cases hq : Gamma.pointers ps with
        | none => exact absurd (Gamma.pointers_eq_none.mp hq) hps
        | some qs =>
          simp only
          rw [if_neg (by rintro ⟨⟨p, hp, e⟩, -⟩; exact hn p e)]
          exact ⟨_, rfl⟩
    obtain ⟨l', h⟩ := this
    exact ⟨l', h, Gamma.sort_perm h⟩
  obtain ⟨a, ha, ha'⟩ := srt (l.map some) (by simp)
  obtain ⟨b, hb, hb'⟩ := srt (l'.map some) (by simp)
  refine ⟨⟨a, b⟩, by simp [Gamma.construct, ha, hb], ha', hb', fun p => ?_, fun p => ?_⟩
  swap
  · obtain ⟨c, hc, hc'⟩ := srt (b ++ [some p]) (by
      intro h; rcases List.mem_append.mp h with h | h
      · simpa using hb'.mem_iff.mp h
      · simp at h)
    exact ⟨⟨a, c⟩, by simp [Gamma.addInvPart, hc], hc'.trans (List.perm_append_singleton _ _), rfl⟩
  obtain ⟨c, hc, hc'⟩ := srt (a ++ [some p]) (by
    intro h; rcases List.mem_append.mp h with h | h
    · simpa using ha'.mem_iff.mp h
    · simp at h)
  exact ⟨⟨c, b⟩, by simp [Gamma.addPart, hc], hc'.trans (List.perm_append_singleton _ _), rfl⟩

/-- Removing a part is always undefined behaviour (the function flows off its end). -/
theorem C26_remove_violated (g : Gamma) (i : Nat) : Gamma.removePart g i = ub ∧ Gamma.removeInvPart g i = ub := ⟨rfl, rfl⟩

/-- Outside the histories of C26: changing the border of a part that is in the list leaves the list unsorted. -/
theorem C26_shared_part_violated [StdSort] : ∃ (st st' : PartStore) (g : Gamma), GammaReach st g ∧ (∀ p, (st' p).border ≠ .nan) ∧
    (∀ p, p ≠ 0 → st' p = st p) ∧ ¬ Ascending st' g.parts := by
  classical
  let st : PartStore := fun p => ⟨none, fin p⟩
  let st' : PartStore := fun p => if p = 0 then ⟨none, 2⟩ else ⟨none, fin p⟩
  have hs : Gamma.sort st ([0, 1].map some) = ok ([0, 1].map some) := by
    apply Gamma.sort_of_strict <;> simp [st]
  refine ⟨st, st', ⟨[some 0, some 1], []⟩, ?_, ?_, ?_, ?_⟩
  · refine GammaReach.construct (l := [some 0, some 1]) (l' := []) ?_
    simp only [Gamma.construct]
    rw [show [some 0, some 1] = [0, 1].map some from rfl, hs]
    simp [Gamma.sort]
  · intro p; by_cases h : p = 0 <;> simp [st', h]
  · intro p h; simp [st', st, h]
  · simp [Ascending, st']

example [StdSort] : ∃ g, GammaReach (fun p => ⟨none, fin p⟩) g ∧ g.parts.length = 3 := by
  obtain ⟨g, hg, hp, -⟩ := C26_operations (fun p => ⟨none, fin p⟩) (by simp) [2, 1, 3] []
  exact ⟨g, .construct hg, by simpa using hp.length_eq⟩
noncomputable example : StdSort := StdSort.insertion

/-! ## C27: evaluation -/

/-- `y` is the result of the curve given by the parts in `l` (in any order): the function of a usable part with the smallest border
not below `x`, or `x` itself. -/
def CurveResult (st : PartStore) (l : List (Option Nat)) (x y : Fl) : Prop :=
  (y = x ∧ ∀ p, some p ∈ l → (st p).fn ≠ none → ¬ x ≤ (st p).border) ∨
  ∃ p f, some p ∈ l ∧ (st p).fn = some f ∧ x ≤ (st p).border ∧ y = f x ∧
    ∀ q, some q ∈ l → (st q).fn ≠ none → x ≤ (st q).border → (st p).border ≤ (st q).border

/-- C27, both directions, for every object made by the operations of C26. -/
theorem C27_evaluation [StdSort] (st : PartStore) (hn : ∀ p, (st p).border ≠ .nan) (g : Gamma) (h : GammaReach st g) (x : Fl) :
    CurveResult st g.parts x (g.correct st x) ∧ CurveResult st g.inv x (g.inverse st x) := by
  obtain ⟨h1, h2⟩ := C26_ordered_partial st hn g h
  have key : ∀ l, Ascending st l → CurveResult st l x (Gamma.pick st l x) := by
    intro l hl
    rcases Gamma.pick_cases st l x hl fun p _ => hn p with ⟨e, h⟩ | ⟨p, f, hp, hf, hx, e, hmin⟩
    · left
      refine ⟨e, fun p hp hf => ?_⟩
      obtain ⟨f, hf⟩ := Option.ne_none_iff_exists'.mp hf
      exact h p f hp hf
    · right
      refine ⟨p, f, hp, hf, hx, e, fun q hq hf' hx' => ?_⟩
      obtain ⟨f', hf'⟩ := Option.ne_none_iff_exists'.mp hf'
      exact hmin q f' hq hf' hx'
  exact ⟨key _ h1, key _ h2⟩

/-- C27: two objects holding the same parts with distinct borders compute the same, whatever the history of each. -/
theorem C27_order_irrelevant [StdSort] (st : PartStore) (hn : ∀ p, (st p).border ≠ .nan) (g g' : Gamma) (h : GammaReach st g)
    (h' : GammaReach st g') (hp : g.parts.Perm g'.parts)
    (hd : ∀ p q, some p ∈ g.parts → some q ∈ g.parts → (st p).border = (st q).border → p = q) (x : Fl) :
    g.correct st x = g'.correct st x := by
  rcases (C27_evaluation st hn g h x).1 with ⟨e, hx⟩ | ⟨p, f, hp1, hf, hx, e, hmin⟩ <;>
  rcases (C27_evaluation st hn g' h' x).1 with ⟨e', hx'⟩ | ⟨p', f', hp1', hf', hx', e', hmin'⟩
  · rw [e, e']
  · exact absurd hx' (hx p' (hp.mem_iff.mpr hp1') (by simp [hf']))
  · exact absurd hx (hx' p (hp.mem_iff.mp hp1) (by simp [hf]))
  · have hb := Fl.le_antisymm' (hmin p' (hp.mem_iff.mpr hp1') (by simp [hf']) hx') (hmin' p (hp.mem_iff.mp hp1) (by simp [hf]) hx)
    obtain rfl := hd p p' hp1 (hp.mem_iff.mpr hp1') hb
    rw [hf] at hf'
    obtain rfl : f = f' := by simpa using hf'
    rw [e, e']

/-- Three parts added in two different orders. -/
example [StdSort] : ∃ g g', GammaReach (fun p => ⟨some fun x => x, fin p⟩) g ∧ GammaReach (fun p => ⟨some fun x => x, fin p⟩) g' ∧
    g.parts.Perm g'.parts ∧ ∀ p q, some p ∈ g.parts → some q ∈ g.parts → (fin (p : ℝ)) = fin (q : ℝ) → p = q := by
  obtain ⟨g, hg, hp, -⟩ := C26_operations (fun p => ⟨some fun x => x, fin p⟩) (by simp) [2, 1, 3] []
  obtain ⟨g', hg', hp', -⟩ := C26_operations (fun p => ⟨some fun x => x, fin p⟩) (by simp) [3, 1, 2] []
  refine ⟨g, g', .construct hg, .construct hg', hp.trans (.trans (List.Perm.map _ (by decide)) hp'.symm), ?_⟩
  intro p q _ _ h; simpa using h

/-! ## C28 and C29: the presets -/

namespace GammaPreset

/-- Comparing a rational power with a number by comparing natural powers. -/
theorem rpow_lt_of_pow {a b : ℝ} {m n : ℕ} (ha : 0 ≤ a) (hb : 0 ≤ b) (hn : n ≠ 0) (h : a ^ m < b ^ n) : a ^ ((m : ℝ) / n) < b := by
  have : a ^ ((m : ℝ) / n) = (a ^ m) ^ (1 / (n : ℝ)) := by
    rw [← Real.rpow_natCast, ← Real.rpow_mul ha]; congr 1; ring
  rw [this]
  have e : b = (b ^ n) ^ (1 / (n : ℝ)) := by
    rw [← Real.rpow_natCast, ← Real.rpow_mul hb]; field_simp; simp
  rw [e]
  exact Real.rpow_lt_rpow (by positivity) h (by positivity)

theorem lt_rpow_of_pow {a b : ℝ} {m n : ℕ} (ha : 0 ≤ a) (hb : 0 ≤ b) (hn : n ≠ 0) (h : b ^ n < a ^ m) : b < a ^ ((m : ℝ) / n) := by
  have : a ^ ((m : ℝ) / n) = (a ^ m) ^ (1 / (n : ℝ)) := by
    rw [← Real.rpow_natCast, ← Real.rpow_mul ha]; congr 1; ring
  rw [this]
  have e : b = (b ^ n) ^ (1 / (n : ℝ)) := by
    rw [← Real.rpow_natCast, ← Real.rpow_mul hb]; field_simp; simp
  rw [e]
  exact Real.rpow_lt_rpow (by positivity) h (by positivity)

theorem rpow_inv_cancel {x a b : ℝ} (hx : 0 ≤ x) (h : a * b = 1) : (x ^ a) ^ b = x := by
  rw [← Real.rpow_mul hx, h, Real.rpow_one]

theorem pow_unit {x a : ℝ} (h0 : 0 ≤ x) (h1 : x ≤ 1) (ha : 0 ≤ a) : 0 ≤ x ^ a ∧ x ^ a ≤ 1 :=
  ⟨Real.rpow_nonneg h0 _, Real.rpow_le_one h0 h1 ha⟩

/-- The second piece of the sRGB curve starts below the end of the first, but is above it at 0.0031309. -/
theorem sRGB_knee : (12.92 * 0.0031308 + 0.055) / 1.055 < (0.0031309 : ℝ) ^ (5/12 : ℝ) := by
  have := lt_rpow_of_pow (a := 0.0031309) (b := (12.92 * 0.0031308 + 0.055) / 1.055) (m := 5) (n := 12) (by norm_num) (by norm_num) (by norm_num) (by norm_num)
  simpa using this
theorem sRGB_inv_knee : (0.04045 : ℝ) / 12.92 < ((0.04045 + 0.055) / 1.055) ^ (12/5 : ℝ) := by
  have := lt_rpow_of_pow (a := (0.04045 + 0.055) / 1.055) (b := 0.04045 / 12.92) (m := 12) (n := 5) (by norm_num) (by norm_num) (by norm_num) (by norm_num)
  simpa using this
theorem romm_knee : (16 : ℝ) * 0.001953 < (0.001953 : ℝ) ^ (5/9 : ℝ) := by
  have := lt_rpow_of_pow (a := 0.001953) (b := 16 * 0.001953) (m := 5) (n := 9) (by norm_num) (by norm_num) (by norm_num) (by norm_num)
  simpa using this
theorem uhdtv_inv_knee : ((4.5 : ℝ) * 0.018053968510807 + 0.099) / 1.099 < (0.018053968510807 : ℝ) ^ (9/20 : ℝ) := by
  have := lt_rpow_of_pow (a := 0.018053968510807) (b := (4.5 * 0.018053968510807 + 0.099) / 1.099) (m := 9) (n := 20) (by norm_num) (by norm_num) (by norm_num) (by norm_num)
  simpa using this
theorem romm_inv_knee : (0.001953 : ℝ) / 16 < (0.0067 : ℝ) ^ (9/5 : ℝ) := by
  have := lt_rpow_of_pow (a := 0.0067) (b := 0.001953 / 16) (m := 9) (n := 5) (by norm_num) (by norm_num) (by norm_num) (by norm_num)
  simpa using this
theorem uhdtv_knee : (0.081 : ℝ) / 4.5 < ((0.0813 + 0.099) / 1.099) ^ (20/9 : ℝ) := by
  have := lt_rpow_of_pow (a := (0.0813 + 0.099) / 1.099) (b := 0.081 / 4.5) (m := 20) (n := 9) (by norm_num) (by norm_num) (by norm_num) (by norm_num)
  simpa using this

end GammaPreset

open GammaPreset

/-- A preset can always be built; its object maps `fin x` to `fin (c x)` and back by `ic`. -/
theorem preset_curves [StdSort] [FloatModel] [ExactModel] (p : GammaPreset) (st : PartStore) (next : Nat) :
    ∃ g, (p.create st next).2 = ok g ∧ ∀ x, g.correct (p.create st next).1 x = evalParts p.parts x ∧
      g.inverse (p.create st next).1 x = evalParts p.invParts x := create_eval p st next

section
variable [StdSort] [FloatModel] [ExactModel]

/-- C28 for the presets 1.8, 2.2, 2.6, 2.8 and Adobe. -/
theorem C28_power (p : GammaPreset) (hp : p = g1_8 ∨ p = g2_2 ∨ p = g2_6 ∨ p = g2_8 ∨ p = adobe) (st : PartStore) (next : Nat) :
    ∃ g, (p.create st next).2 = ok g ∧ ∀ x : ℝ, 0 ≤ x → x ≤ 1 →
      g.inverse (p.create st next).1 (g.correct (p.create st next).1 (fin x)) = fin x ∧
      g.correct (p.create st next).1 (g.inverse (p.create st next).1 (fin x)) = fin x := by
  obtain ⟨g, hg, he⟩ := preset_curves p st next
  refine ⟨g, hg, fun x h0 h1 => ?_⟩
  have hpos := p.expo_pos
  obtain ⟨a0, a1⟩ := pow_unit h0 h1 (show 0 ≤ 1 / p.expo by positivity)
  obtain ⟨b0, b1⟩ := pow_unit h0 h1 hpos.le
  have e1 := eval_power hp h0 h1
  constructor
  · rw [(he _).1, (he _).2, e1.1, (eval_power hp a0 a1).2, rpow_inv_cancel h0 (by field_simp)]
  · rw [(he _).2, (he _).1, e1.2, (eval_power hp b0 b1).1, rpow_inv_cancel h0 (by field_simp)]

/-- C28 for sRGB, outside the gaps that the rounded published constants leave at the knee. -/
theorem C28_sRGB_partial (st : PartStore) (next : Nat) :
    ∃ g, (sRGB.create st next).2 = ok g ∧ ∀ x : ℝ, 0 ≤ x → x ≤ 1 →
      ((x ≤ 0.0031308 ∨ 0.0031309 ≤ x) →
        g.inverse (sRGB.create st next).1 (g.correct (sRGB.create st next).1 (fin x)) = fin x) ∧
      ((x ≤ 0.040449936 ∨ 0.04045 < x) →
        g.correct (sRGB.create st next).1 (g.inverse (sRGB.create st next).1 (fin x)) = fin x) := by
  obtain ⟨g, hg, he⟩ := preset_curves sRGB st next
  refine ⟨g, hg, fun x h0 h1 => ⟨fun hx => ?_, fun hx => ?_⟩⟩
  · rw [(he _).1, (he _).2, (eval_sRGB h0 h1).1]
    rcases hx with hx | hx
    · rw [if_pos hx, (eval_sRGB (by positivity) (by linarith)).2, if_pos (by linarith)]
      congr 1; field_simp
    · have hk : (0.09545 : ℝ) / 1.055 < x ^ (5/12 : ℝ) := by
        have := lt_rpow_of_pow (a := 0.0031309) (b := 0.09545 / 1.055) (m := 5) (n := 12) (by norm_num) (by norm_num) (by norm_num) (by norm_num)
        refine lt_of_lt_of_le (by simpa using this) (Real.rpow_le_rpow (by norm_num) hx (by norm_num))
      have hu := pow_unit h0 h1 (show (0:ℝ) ≤ 5/12 by norm_num)
      have hk' : 0.09545 < 1.055 * x ^ (5/12 : ℝ) := by
        rw [div_lt_iff₀ (by norm_num)] at hk; linarith
      rw [if_neg (by linarith), (eval_sRGB (by linarith) (by linarith)).2, if_neg (by linarith)]
      congr 1
      rw [show (1.055 * x ^ (5/12 : ℝ) - 0.055 + 0.055) / 1.055 = x ^ (5/12 : ℝ) by field_simp; ring]
      exact rpow_inv_cancel h0 (by norm_num)
  · rw [(he _).2, (he _).1, (eval_sRGB h0 h1).2]
    rcases hx with hx | hx
    · rw [if_pos (by linarith), (eval_sRGB (by positivity) (by rw [div_le_iff₀ (by norm_num)]; linarith)).1, if_pos (by rw [div_le_iff₀ (by norm_num)]; linarith)]
      congr 1; field_simp
    · have hk : (0.0031308 : ℝ) < ((x + 0.055) / 1.055) ^ (12/5 : ℝ) := by
        refine lt_of_lt_of_le (lt_trans (by norm_num) sRGB_inv_knee) (Real.rpow_le_rpow (by norm_num) (by gcongr) (by norm_num))
      have hu := pow_unit (x := (x + 0.055) / 1.055) (by positivity) (by rw [div_le_one (by norm_num)]; linarith) (show (0:ℝ) ≤ 12/5 by norm_num)
      rw [if_neg (by linarith), (eval_sRGB hu.1 hu.2).1, if_neg (by linarith), rpow_inv_cancel (by positivity) (by norm_num)]
      congr 1; field_simp; ring

/-- The gaps are real: 0.003130804 does not come back. -/
theorem C28_sRGB_violated (st : PartStore) (next : Nat) :
    ∃ g, (sRGB.create st next).2 = ok g ∧
      g.inverse (sRGB.create st next).1 (g.correct (sRGB.create st next).1 (fin 0.003130804)) ≠ fin 0.003130804 := by
  obtain ⟨g, hg, he⟩ := preset_curves sRGB st next
  refine ⟨g, hg, ?_⟩
  have h1 : (0.003130804 : ℝ) ^ (5/12 : ℝ) < 0.09545 / 1.055 := by
    have := rpow_lt_of_pow (a := 0.003130804) (b := 0.09545 / 1.055) (m := 5) (n := 12) (by norm_num) (by norm_num) (by norm_num) (by norm_num)
    simpa using this
  have h2 : (0.003130804 : ℝ) ^ (5/12 : ℝ) < (12.92 * 0.003130804 + 0.055) / 1.055 := by
    have := rpow_lt_of_pow (a := 0.003130804) (b := (12.92 * 0.003130804 + 0.055) / 1.055) (m := 5) (n := 12) (by norm_num) (by norm_num) (by norm_num) (by norm_num)
    simpa using this
  have h3 : (0.07 : ℝ) < (0.003130804 : ℝ) ^ (5/12 : ℝ) := by
    have := lt_rpow_of_pow (a := 0.003130804) (b := 0.07) (m := 5) (n := 12) (by norm_num) (by norm_num) (by norm_num) (by norm_num)
    simpa using this
  rw [lt_div_iff₀ (by norm_num)] at h1 h2
  rw [(he _).1, (he _).2, (eval_sRGB (by norm_num) (by norm_num)).1, if_neg (by norm_num), (eval_sRGB (by linarith) (by linarith)).2, if_pos (by linarith)]
  rw [Ne, fin_inj, div_eq_iff (by norm_num)]
  intro h; linarith

/-- C28 for ROMM: the linear piece of the inverse curve ends at 0.001953 instead of 16 times that. -/
theorem C28_romm_partial (st : PartStore) (next : Nat) :
    ∃ g, (romm.create st next).2 = ok g ∧ ∀ x : ℝ, 0 ≤ x → x ≤ 1 →
      ((x ≤ 0.001953 / 16 ∨ 0.001953 < x) →
        g.inverse (romm.create st next).1 (g.correct (romm.create st next).1 (fin x)) = fin x) ∧
      ((x ≤ 0.001953 ∨ 0.03125 ≤ x) →
        g.correct (romm.create st next).1 (g.inverse (romm.create st next).1 (fin x)) = fin x) := by
  obtain ⟨g, hg, he⟩ := preset_curves romm st next
  refine ⟨g, hg, fun x h0 h1 => ⟨fun hx => ?_, fun hx => ?_⟩⟩
  · rw [(he _).1, (he _).2, (eval_romm h0 h1).1]
    rcases hx with hx | hx
    · rw [if_pos (by linarith), (eval_romm (by positivity) (by linarith)).2, if_pos (by linarith)]
      congr 1; field_simp
    · have hu := pow_unit h0 h1 (show (0:ℝ) ≤ 5/9 by norm_num)
      have hk : x ≤ x ^ (5/9 : ℝ) := by
        calc x = x ^ (1:ℝ) := (Real.rpow_one x).symm
          _ ≤ x ^ (5/9 : ℝ) := Real.rpow_le_rpow_of_exponent_ge (by linarith) h1 (by norm_num)
      rw [if_neg (by linarith), (eval_romm hu.1 hu.2).2, if_neg (by linarith), rpow_inv_cancel h0 (by norm_num)]
  · rw [(he _).2, (he _).1, (eval_romm h0 h1).2]
    rcases hx with hx | hx
    · rw [if_pos hx, (eval_romm (by positivity) (by linarith)).1, if_pos (by linarith)]
      congr 1; field_simp
    · have hu := pow_unit h0 h1 (show (0:ℝ) ≤ 9/5 by norm_num)
      have hk : 0.001953 < x ^ (9/5 : ℝ) := by
        have := lt_rpow_of_pow (a := 0.03125) (b := 0.001953) (m := 9) (n := 5) (by norm_num) (by norm_num) (by norm_num) (by norm_num)
        refine lt_of_lt_of_le (by simpa using this) (Real.rpow_le_rpow (by norm_num) hx (by norm_num))
      rw [if_neg (by linarith), (eval_romm hu.1 hu.2).1, if_neg (by linarith), rpow_inv_cancel h0 (by norm_num)]

/-- ROMM: 0.001 comes back as less than 0.0006. -/
theorem C28_romm_violated (st : PartStore) (next : Nat) :
    ∃ g r, (romm.create st next).2 = ok g ∧
      g.inverse (romm.create st next).1 (g.correct (romm.create st next).1 (fin 0.001)) = fin r ∧ r < 0.0006 := by
  obtain ⟨g, hg, he⟩ := preset_curves romm st next
  refine ⟨g, (0.016 : ℝ) ^ (9/5 : ℝ), hg, ?_, ?_⟩
  · rw [(he _).1, (he _).2, (eval_romm (by norm_num) (by norm_num)).1, if_pos (by norm_num), (eval_romm (by norm_num) (by norm_num)).2, if_neg (by norm_num)]
    norm_num
  · have := rpow_lt_of_pow (a := 0.016) (b := 0.0006) (m := 9) (n := 5) (by norm_num) (by norm_num) (by norm_num) (by norm_num)
    simpa using this

/-- C28 for UHDTV outside the gap at the knee. -/
theorem C28_uhdtv_partial (st : PartStore) (next : Nat) :
    ∃ g, (uhdtv.create st next).2 = ok g ∧ ∀ x : ℝ, 0 ≤ x → x ≤ 1 →
      ((x ≤ 0.081 ∨ 0.0815 ≤ x) →
        g.inverse (uhdtv.create st next).1 (g.correct (uhdtv.create st next).1 (fin x)) = fin x) ∧
      ((x ≤ 0.018 ∨ 0.018053968510807 < x) →
        g.correct (uhdtv.create st next).1 (g.inverse (uhdtv.create st next).1 (fin x)) = fin x) := by
  obtain ⟨g, hg, he⟩ := preset_curves uhdtv st next
  refine ⟨g, hg, fun x h0 h1 => ⟨fun hx => ?_, fun hx => ?_⟩⟩
  · rw [(he _).1, (he _).2, (eval_uhdtv h0 h1).1]
    rcases hx with hx | hx
    · rw [if_pos hx, (eval_uhdtv (by positivity) (by rw [div_le_iff₀ (by norm_num)]; linarith)).2, if_pos (by rw [div_le_iff₀ (by norm_num)]; linarith)]
      congr 1; field_simp
    · have hu := pow_unit (x := (x + 0.099) / 1.099) (by positivity) (by rw [div_le_one (by norm_num)]; linarith) (show (0:ℝ) ≤ 20/9 by norm_num)
      have hk : 0.018053968510807 < ((x + 0.099) / 1.099) ^ (20/9 : ℝ) := by
        have := lt_rpow_of_pow (a := (0.0815 + 0.099) / 1.099) (b := 0.018053968510807) (m := 20) (n := 9) (by norm_num) (by norm_num) (by norm_num) (by norm_num)
        refine lt_of_lt_of_le (by simpa using this) (Real.rpow_le_rpow (by norm_num) (by gcongr) (by norm_num))
      rw [if_neg (by linarith), (eval_uhdtv hu.1 hu.2).2, if_neg (by linarith), rpow_inv_cancel (by positivity) (by norm_num)]
      congr 1; field_simp; ring
  · rw [(he _).2, (he _).1, (eval_uhdtv h0 h1).2]
    rcases hx with hx | hx
    · rw [if_pos (by linarith), (eval_uhdtv (by positivity) (by linarith)).1, if_pos (by linarith)]
      congr 1; field_simp
    · have hu := pow_unit h0 h1 (show (0:ℝ) ≤ 9/20 by norm_num)
      have hk : ((4.5 : ℝ) * 0.018053968510807 + 0.099) / 1.099 < x ^ (9/20 : ℝ) :=
        lt_of_lt_of_le uhdtv_inv_knee (Real.rpow_le_rpow (by norm_num) hx.le (by norm_num))
      rw [div_lt_iff₀ (by norm_num)] at hk
      rw [if_neg (by linarith), (eval_uhdtv (by linarith) (by linarith)).1, if_neg (by linarith)]
      rw [show (1.099 * x ^ (9/20 : ℝ) - 0.099 + 0.099) / 1.099 = x ^ (9/20 : ℝ) by field_simp; ring]
      rw [rpow_inv_cancel h0 (by norm_num)]

/-- UHDTV: 0.0811 comes back as less than 0.0809. -/
theorem C28_uhdtv_violated (st : PartStore) (next : Nat) :
    ∃ g r, (uhdtv.create st next).2 = ok g ∧
      g.inverse (uhdtv.create st next).1 (g.correct (uhdtv.create st next).1 (fin 0.0811)) = fin r ∧ r < 0.08099 := by
  obtain ⟨g, hg, he⟩ := preset_curves uhdtv st next
  have hk : (((0.0811 : ℝ) + 0.099) / 1.099) ^ (20/9 : ℝ) < 0.08099 / 4.5 := by
    have := rpow_lt_of_pow (a := (0.0811 + 0.099) / 1.099) (b := 0.08099 / 4.5) (m := 20) (n := 9) (by norm_num) (by norm_num) (by norm_num) (by norm_num)
    simpa using this
  have hu := pow_unit (x := ((0.0811 : ℝ) + 0.099) / 1.099) (by norm_num) (by norm_num) (show (0:ℝ) ≤ 20/9 by norm_num)
  refine ⟨g, 4.5 * (((0.0811 : ℝ) + 0.099) / 1.099) ^ (20/9 : ℝ), hg, ?_, ?_⟩
  · rw [(he _).1, (he _).2, (eval_uhdtv (by norm_num) (by norm_num)).1, if_neg (by norm_num), (eval_uhdtv hu.1 hu.2).2, if_pos (by linarith)]
  · linarith

/-! ### C29 -/

/-- What C29 asks of a curve on the unit interval. -/
def UnitCurve (c : Fl → Fl) : Prop :=
  c (fin 0) = fin 0 ∧ c (fin 1) = fin 1 ∧ (∀ x : ℝ, 0 ≤ x → x ≤ 1 → InRange 0 1 (c (fin x))) ∧
  ∀ x y : ℝ, 0 ≤ x → x ≤ y → y ≤ 1 → c (fin x) ≤ c (fin y)

/-- The pairs for which the curve is known to be monotone: not on both sides of the knee `k` with the larger one still below `k'`. -/
def MonoExcept (k k' : ℝ) (c : Fl → Fl) : Prop :=
  ∀ x y : ℝ, 0 ≤ x → x ≤ y → y ≤ 1 → ¬ (x ≤ k ∧ k < y ∧ y < k') → c (fin x) ≤ c (fin y)

/-- Endpoints and range. -/
def UnitEnds (c : Fl → Fl) : Prop :=
  c (fin 0) = fin 0 ∧ c (fin 1) = fin 1 ∧ ∀ x : ℝ, 0 ≤ x → x ≤ 1 → InRange 0 1 (c (fin x))

omit [StdSort] [FloatModel] [ExactModel] in
/-- Two increasing pieces. -/
theorem pieces {c : Fl → Fl} {f g : ℝ → ℝ} {k k' : ℝ} (h : ∀ x, 0 ≤ x → x ≤ 1 → c (fin x) = fin (if x ≤ k then f x else g x))
    (hf : ∀ x y, 0 ≤ x → x ≤ y → y ≤ 1 → f x ≤ f y) (hg : ∀ x y, 0 ≤ x → x ≤ y → y ≤ 1 → g x ≤ g y)
    (hk : f k ≤ g k') (hk0 : 0 ≤ k) (hkk : k ≤ k') (hk1 : k < 1) (hk1' : k' ≤ 1) (f0 : f 0 = 0) (g0 : 0 ≤ g k) (g1 : g 1 = 1) :
    UnitEnds c ∧ MonoExcept k k' c := by
  have fk : f k ≤ 1 := g1 ▸ hk.trans (hg k' 1 (hk0.trans hkk) hk1' le_rfl)
  refine ⟨⟨?_, ?_, ?_⟩, ?_⟩
  · rw [h 0 le_rfl zero_le_one, if_pos hk0, f0]
  · rw [h 1 zero_le_one le_rfl, if_neg (not_le.mpr hk1), g1]
  · intro x h0 h1
    rw [h x h0 h1, inRange_fin]
    split_ifs with hx
    · exact ⟨f0 ▸ hf 0 x le_rfl h0 h1, (hf x k h0 hx hk1.le).trans fk⟩
    · exact ⟨g0.trans (hg k x hk0 (not_le.mp hx).le h1), g1 ▸ hg x 1 h0 h1 le_rfl⟩
  · intro x y hx hxy hy hne
    rw [h x hx (hxy.trans hy), h y (hx.trans hxy) hy, fin_le]
    split_ifs with h1 h2 h2
    · exact hf x y hx hxy hy
    · have : k' ≤ y := not_lt.mp fun h3 => hne ⟨h1, not_le.mp h2, h3⟩
      exact (hf x k hx h1 hk1.le).trans (hk.trans (hg k' y (hk0.trans hkk) this hy))
    · exact absurd (hxy.trans h2) h1
    · exact hg x y hx hxy hy

omit [StdSort] [FloatModel] [ExactModel] in
theorem unitCurve_of_pieces {c : Fl → Fl} {k : ℝ} (h : UnitEnds c ∧ MonoExcept k k c) : UnitCurve c :=
  ⟨h.1.1, h.1.2.1, h.1.2.2, fun x y h0 h1 h2 => h.2 x y h0 h1 h2 fun ⟨_, h4, h5⟩ => absurd h4 (not_lt.mpr h5.le)⟩

omit [StdSort] [FloatModel] [ExactModel] in
theorem pow_mono {a : ℝ} (ha : 0 < a) : ∀ x y : ℝ, 0 ≤ x → x ≤ y → y ≤ 1 → x ^ a ≤ y ^ a :=
  fun x y hx hxy _ => Real.rpow_le_rpow hx hxy ha.le

omit [StdSort] in
theorem sRGB_fwd : UnitEnds (evalParts sRGB.parts) ∧ MonoExcept 0.0031308 0.0031309 (evalParts sRGB.parts) := by
  refine pieces (f := fun x => 12.92 * x) (g := fun x => 1.055 * x ^ (5/12 : ℝ) - 0.055) ?_ ?_ ?_ ?_ ?_ ?_ ?_ ?_ ?_ ?_ ?_
  · intro x h0 h1; rw [(eval_sRGB h0 h1).1]
  · intro x y _ h _; linarith
  · intro x y hx h hy
    have := pow_mono (a := 5/12) (by norm_num) x y hx h hy
    linarith
  · have := sRGB_knee; rw [div_lt_iff₀ (by norm_num)] at this; linarith
  any_goals norm_num
  have := lt_rpow_of_pow (a := 0.0031308) (b := 0.055/1.055) (m := 5) (n := 12) (by norm_num) (by norm_num) (by norm_num) (by norm_num)
  rw [div_lt_iff₀ (by norm_num)] at this
  norm_num at this
  linarith

omit [StdSort] in
theorem sRGB_bwd : UnitEnds (evalParts sRGB.invParts) ∧ MonoExcept 0.04045 0.04045 (evalParts sRGB.invParts) := by
  refine pieces (f := fun x => x / 12.92) (g := fun x => ((x + 0.055) / 1.055) ^ (12/5 : ℝ)) ?_ ?_ ?_ ?_ ?_ ?_ ?_ ?_ ?_ ?_ ?_
  · intro x h0 h1; rw [(eval_sRGB h0 h1).2]
  · intro x y _ h _; gcongr
  · intro x y hx h hy; gcongr
  · exact sRGB_inv_knee.le
  any_goals norm_num
  positivity

omit [StdSort] in
theorem romm_fwd : UnitEnds (evalParts romm.parts) ∧ MonoExcept 0.001953 0.001953 (evalParts romm.parts) := by
  refine pieces (f := fun x => 16 * x) (g := fun x => x ^ (5/9 : ℝ)) ?_ ?_ ?_ ?_ ?_ ?_ ?_ ?_ ?_ ?_ ?_
  · intro x h0 h1; rw [(eval_romm h0 h1).1]
  · intro x y _ h _; gcongr
  · intro x y hx h hy; gcongr
  · exact romm_knee.le
  any_goals norm_num
  positivity

omit [StdSort] in
theorem romm_bwd : UnitEnds (evalParts romm.invParts) ∧ MonoExcept 0.001953 0.0067 (evalParts romm.invParts) := by
  refine pieces (f := fun x => x / 16) (g := fun x => x ^ (9/5 : ℝ)) ?_ ?_ ?_ ?_ ?_ ?_ ?_ ?_ ?_ ?_ ?_
  · intro x h0 h1; rw [(eval_romm h0 h1).2]
  · intro x y _ h _; gcongr
  · intro x y hx h hy; gcongr
  · exact romm_inv_knee.le
  any_goals norm_num
  positivity

omit [StdSort] in
theorem uhdtv_fwd : UnitEnds (evalParts uhdtv.parts) ∧ MonoExcept 0.081 0.0813 (evalParts uhdtv.parts) := by
  refine pieces (f := fun x => x / 4.5) (g := fun x => ((x + 0.099) / 1.099) ^ (20/9 : ℝ)) ?_ ?_ ?_ ?_ ?_ ?_ ?_ ?_ ?_ ?_ ?_
  · intro x h0 h1; rw [(eval_uhdtv h0 h1).1]
  · intro x y _ h _; gcongr
  · intro x y hx h hy; gcongr
  · exact uhdtv_knee.le
  any_goals norm_num
  positivity

omit [StdSort] in
theorem uhdtv_bwd : UnitEnds (evalParts uhdtv.invParts) ∧ MonoExcept 0.018053968510807 0.018053968510807 (evalParts uhdtv.invParts) := by
  refine pieces (f := fun x => 4.5 * x) (g := fun x => 1.099 * x ^ (9/20 : ℝ) - 0.099) ?_ ?_ ?_ ?_ ?_ ?_ ?_ ?_ ?_ ?_ ?_
  · intro x h0 h1; rw [(eval_uhdtv h0 h1).2]
  · intro x y _ h _; gcongr
  · intro x y hx h hy; gcongr
  · have := uhdtv_inv_knee; rw [div_lt_iff₀ (by norm_num)] at this; linarith
  any_goals norm_num
  have := uhdtv_inv_knee; rw [div_lt_iff₀ (by norm_num)] at this
  norm_num at this
  linarith

omit [StdSort] in
theorem power_both (p : GammaPreset) (hp : p.IsPower) : UnitCurve (evalParts p.parts) ∧ UnitCurve (evalParts p.invParts) := by
  have hpos := p.expo_pos
  constructor
  · refine unitCurve_of_pieces (k := 0) (pieces (f := fun x => x ^ (1 / p.expo)) (g := fun x => x ^ (1 / p.expo)) ?_
      (pow_mono (by positivity)) (pow_mono (by positivity)) le_rfl le_rfl le_rfl (by norm_num) (by norm_num) (Real.zero_rpow (by positivity)) (by positivity) (Real.one_rpow _))
    intro x h0 h1; rw [(eval_power hp h0 h1).1, ite_self]
  · refine unitCurve_of_pieces (k := 0) (pieces (f := fun x => x ^ p.expo) (g := fun x => x ^ p.expo) ?_
      (pow_mono (by positivity)) (pow_mono (by positivity)) le_rfl le_rfl le_rfl (by norm_num) (by norm_num) (Real.zero_rpow (by positivity)) (by positivity) (Real.one_rpow _))
    intro x h0 h1; rw [(eval_power hp h0 h1).2, ite_self]

/-- C29 without monotonicity: every preset in both directions keeps 0, 1 and the unit interval. -/
theorem C29_ends (p : GammaPreset) (st : PartStore) (next : Nat) : ∃ g, (p.create st next).2 = ok g ∧
    UnitEnds (g.correct (p.create st next).1) ∧ UnitEnds (g.inverse (p.create st next).1) := by
  obtain ⟨g, hg, he⟩ := preset_curves p st next
  have h1 : g.correct (p.create st next).1 = evalParts p.parts := funext fun x => (he x).1
  have h2 : g.inverse (p.create st next).1 = evalParts p.invParts := funext fun x => (he x).2
  refine ⟨g, hg, ?_⟩
  rw [h1, h2]
  by_cases hP : p.IsPower
  · obtain ⟨⟨a, b, c, -⟩, ⟨a', b', c', -⟩⟩ := power_both p hP
    exact ⟨⟨a, b, c⟩, ⟨a', b', c'⟩⟩
  · cases p <;> simp [IsPower] at hP
    · exact ⟨sRGB_fwd.1, sRGB_bwd.1⟩
    · exact ⟨romm_fwd.1, romm_bwd.1⟩
    · exact ⟨uhdtv_fwd.1, uhdtv_bwd.1⟩

/-- C29 for both directions of 1.8, 2.2, 2.6, 2.8, Adobe, and one direction each of sRGB, ROMM and UHDTV. -/
theorem C29_unit_partial (p : GammaPreset) (st : PartStore) (next : Nat) : ∃ g, (p.create st next).2 = ok g ∧
    (p ≠ sRGB → p ≠ uhdtv → UnitCurve (g.correct (p.create st next).1)) ∧
    (p ≠ romm → UnitCurve (g.inverse (p.create st next).1)) := by
  obtain ⟨g, hg, he⟩ := preset_curves p st next
  have h1 : g.correct (p.create st next).1 = evalParts p.parts := funext fun x => (he x).1
  have h2 : g.inverse (p.create st next).1 = evalParts p.invParts := funext fun x => (he x).2
  refine ⟨g, hg, ?_⟩
  rw [h1, h2]
  by_cases hP : p.IsPower
  · exact ⟨fun _ _ => (power_both p hP).1, fun _ => (power_both p hP).2⟩
  · cases p <;> simp [IsPower] at hP
    · exact ⟨by simp, fun _ => unitCurve_of_pieces sRGB_bwd⟩
    · exact ⟨fun _ _ => unitCurve_of_pieces romm_fwd, by simp⟩
    · exact ⟨by simp, fun _ => unitCurve_of_pieces uhdtv_bwd⟩

/-- The other three curves are monotone except across their knee. -/
theorem C29_knees_partial (st : PartStore) (next : Nat) :
    (∃ g, (sRGB.create st next).2 = ok g ∧ MonoExcept 0.0031308 0.0031309 (g.correct (sRGB.create st next).1)) ∧
    (∃ g, (romm.create st next).2 = ok g ∧ MonoExcept 0.001953 0.0067 (g.inverse (romm.create st next).1)) ∧
    (∃ g, (uhdtv.create st next).2 = ok g ∧ MonoExcept 0.081 0.0813 (g.correct (uhdtv.create st next).1)) := by
  refine ⟨?_, ?_, ?_⟩
  · obtain ⟨g, hg, he⟩ := preset_curves sRGB st next
    have h1 : g.correct (sRGB.create st next).1 = evalParts sRGB.parts := funext fun x => (he x).1
    exact ⟨g, hg, h1 ▸ sRGB_fwd.2⟩
  · obtain ⟨g, hg, he⟩ := preset_curves romm st next
    have h1 : g.inverse (romm.create st next).1 = evalParts romm.invParts := funext fun x => (he x).2
    exact ⟨g, hg, h1 ▸ romm_bwd.2⟩
  · obtain ⟨g, hg, he⟩ := preset_curves uhdtv st next
    have h1 : g.correct (uhdtv.create st next).1 = evalParts uhdtv.parts := funext fun x => (he x).1
    exact ⟨g, hg, h1 ▸ uhdtv_fwd.2⟩

/-- The sRGB and UHDTV forward curves and the ROMM inverse curve decrease at their knee. -/
theorem C29_violated (st : PartStore) (next : Nat) :
    (∃ g, (romm.create st next).2 = ok g ∧ g.inverse (romm.create st next).1 (fin 0.002) < g.inverse (romm.create st next).1 (fin 0.0019)) ∧
    (∃ g, (uhdtv.create st next).2 = ok g ∧ g.correct (uhdtv.create st next).1 (fin 0.08101) < g.correct (uhdtv.create st next).1 (fin 0.081)) ∧
    (∃ g, (sRGB.create st next).2 = ok g ∧ g.correct (sRGB.create st next).1 (fin 0.003130801) < g.correct (sRGB.create st next).1 (fin 0.0031308)) := by
  refine ⟨?_, ?_, ?_⟩
  on_goal 3 =>
    obtain ⟨g, hg, he⟩ := preset_curves sRGB st next
    refine ⟨g, hg, ?_⟩
    rw [(he _).1, (he _).1, (eval_sRGB (by norm_num) (by norm_num)).1, (eval_sRGB (by norm_num) (by norm_num)).1, if_neg (by norm_num), if_pos (by norm_num), fin_lt]
    have := rpow_lt_of_pow (a := 0.003130801) (b := (12.92 * 0.0031308 + 0.055) / 1.055) (m := 5) (n := 12) (by norm_num) (by norm_num) (by norm_num) (by norm_num)
    rw [lt_div_iff₀ (by norm_num)] at this
    push_cast at this
    linarith
  · obtain ⟨g, hg, he⟩ := preset_curves romm st next
    refine ⟨g, hg, ?_⟩
    rw [(he _).2, (he _).2, (eval_romm (by norm_num) (by norm_num)).2, (eval_romm (by norm_num) (by norm_num)).2, if_neg (by norm_num), if_pos (by norm_num), fin_lt]
    have := rpow_lt_of_pow (a := 0.002) (b := 0.0019 / 16) (m := 9) (n := 5) (by norm_num) (by norm_num) (by norm_num) (by norm_num)
    simpa using this
  · obtain ⟨g, hg, he⟩ := preset_curves uhdtv st next
    refine ⟨g, hg, ?_⟩
    rw [(he _).1, (he _).1, (eval_uhdtv (by norm_num) (by norm_num)).1, (eval_uhdtv (by norm_num) (by norm_num)).1, if_neg (by norm_num), if_pos (by norm_num), fin_lt]
    have := rpow_lt_of_pow (a := (0.08101 + 0.099) / 1.099) (b := 0.081 / 4.5) (m := 20) (n := 9) (by norm_num) (by norm_num) (by norm_num) (by norm_num)
    simpa using this

end

/-- The hypotheses of the preset theorems can be met. -/
example : ∃ (_ : StdSort) (_ : FloatModel), ExactModel := ⟨StdSort.insertion, exactFloat, exactFloat_exact⟩
