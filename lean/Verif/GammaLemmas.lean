import Verif.Gamma
import Mathlib.Data.List.Sort
import Mathlib.Analysis.SpecialFunctions.Pow.NNReal
import Mathlib.Tactic.Linarith
import Mathlib.Tactic.FieldSimp

/-! Helper lemmas about gamma curves. -/

open Outcome

namespace Fl
theorem le_total' {a b : Fl} (ha : a ≠ nan) (hb : b ≠ nan) : a ≤ b ∨ b ≤ a := by
  cases a <;> cases b <;> simp_all
  exact le_total _ _
theorem le_antisymm' {a b : Fl} (h : a ≤ b) (h' : b ≤ a) : a = b := by
  cases a <;> cases b <;> simp_all
  exact le_antisymm h h'
theorem le_refl' {a : Fl} (h : a ≠ nan) : a ≤ a := by cases a <;> simp_all
theorem not_le' {a b : Fl} (ha : a ≠ nan) (hb : b ≠ nan) : ¬ a ≤ b ↔ b < a := by
  cases a <;> cases b <;> simp_all
  trivial
end Fl

/-- `StdSort` can be met: insertion sort that puts NaN keys last. -/
@[instance_reducible] noncomputable def StdSort.insertion : StdSort :=
  letI rel : (Nat → Fl) → Nat → Nat → Prop := fun key a b => key b = .nan ∨ key a ≤ key b
  letI dec : ∀ key, DecidableRel (rel key) := fun _ _ _ => Classical.propDecidable _
  { run := fun key l => l.insertionSort (rel key)
    perm := fun key l => List.perm_insertionSort _ l
    sorted := by
      intro key l h
      haveI : Std.Total (rel key) := ⟨fun a b => by
        by_cases ha : key a = .nan
        · right; left; exact ha
        by_cases hb : key b = .nan
        · left; left; exact hb
        rcases Fl.le_total' ha hb with h | h
        · left; right; exact h
        · right; right; exact h⟩
      haveI : IsTrans Nat (rel key) := ⟨fun a b c hab hbc => by
        rcases hbc with hc | hbc
        · left; exact hc
        · rcases hab with hb | hab
          · rw [hb] at hbc; exact absurd hbc Fl.nan_le
          · right; exact Fl.le_trans' hab hbc⟩
      have := List.pairwise_insertionSort (rel key) l
      refine List.Pairwise.imp_of_mem ?_ this
      intro a b _ hb hr
      have hb' := h b ((List.perm_insertionSort _ l).mem_iff.mp hb)
      rcases hr with hr | hr
      · exact absurd hr hb'
      · exact hr }

namespace Gamma

theorem pointers_eq_some {l : List (Option Nat)} {ps : List Nat} : pointers l = some ps ↔ l = ps.map some := by
  induction l generalizing ps with
  | nil => cases ps <;> simp [pointers]
  | cons a l ih =>
    cases a with
    | none => cases ps <;> simp [pointers]
    | some p =>
      cases ps with
      | nil => simp [pointers]
      | cons q qs => simp [pointers, ih, and_comm]

theorem pointers_eq_none {l : List (Option Nat)} : pointers l = none ↔ none ∈ l := by
  induction l with
  | nil => simp [pointers]
  | cons a l ih => cases a <;> simp [pointers, ih]

variable [StdSort]

theorem sort_perm {st : PartStore} {l l' : List (Option Nat)} (h : sort st l = ok l') : l'.Perm l := by
  unfold sort at h
  split_ifs at h with h1
  · obtain rfl := Outcome.ok_inj.mp h; exact List.Perm.refl _
  · split at h
    · exact absurd h (by simp)
    · rename_i ps hps
      split_ifs at h with h2
      obtain rfl := Outcome.ok_inj.mp h
      rw [pointers_eq_some.mp hps]
      exact (StdSort.perm _ _).map _

theorem sort_sorted {st : PartStore} {l l' : List (Option Nat)} (h : sort st l = ok l')
    (hn : ∀ p, some p ∈ l → (st p).border ≠ .nan) :
    l'.Pairwise fun a b => ∃ p q, a = some p ∧ b = some q ∧ (st p).border ≤ (st q).border := by
  unfold sort at h
  split_ifs at h with h1
  · obtain rfl := Outcome.ok_inj.mp h
    match l, h1 with
    | [], _ => simp
    | [a], _ => simp
  · split at h
    · exact absurd h (by simp)
    · rename_i ps hps
      split_ifs at h with h2
      obtain rfl := Outcome.ok_inj.mp h
      have hl := pointers_eq_some.mp hps
      rw [List.pairwise_map]
      refine List.Pairwise.imp ?_ (StdSort.sorted (fun p => (st p).border) ps ?_)
      · intro a b hab; exact ⟨a, b, rfl, rfl, hab⟩
      · intro p hp; exact hn p (by rw [hl]; exact List.mem_map.mpr ⟨p, hp, rfl⟩)

/-- A list that is strictly ascending already is not changed. -/
theorem sort_of_strict {st : PartStore} {ps : List Nat} (h : ps.Pairwise fun a b => (st a).border < (st b).border)
    (hn : ∀ p ∈ ps, (st p).border ≠ .nan) : sort st (ps.map some) = ok (ps.map some) := by
  unfold sort
  split_ifs with h1
  · rfl
  · rw [pointers_eq_some.mpr rfl]
    simp only
    rw [if_neg (by rintro ⟨⟨p, hp, e⟩, -⟩; exact hn p hp e)]
    congr 2
    have hne : ∀ a ∈ ps, ∀ b ∈ ps, (st a).border = (st b).border → a = b := by
      have : ps.Pairwise fun a b => (st a).border = (st b).border → a = b := by
        refine h.imp ?_
        intro a b hab e
        rw [e] at hab
        cases hb : (st b).border <;> simp [hb] at hab
      haveI : Std.Symm fun a b : Nat => (st a).border = (st b).border → a = b := ⟨fun a b h e => (h e.symm).symm⟩
      exact fun a ha b hb => List.Pairwise.forall_of_forall (R := fun a b : Nat => (st a).border = (st b).border → a = b)
        (fun _ _ _ => rfl) ‹_› ha hb
    refine List.Perm.eq_of_pairwise ?_ (StdSort.sorted _ _ hn) (h.imp ?_) (StdSort.perm _ _)
    · intro a b ha hb hab hba
      exact hne a ((StdSort.perm _ _).mem_iff.mp ha) b hb (Fl.le_antisymm' hab hba)
    · intro a b hab
      cases ha : (st a).border <;> cases hb : (st b).border <;> simp_all
      exact hab.le

omit [StdSort] in
theorem pick_cases (st : PartStore) (l : List (Option Nat)) (x : Fl)
    (ho : l.Pairwise fun a b => ∃ p q, a = some p ∧ b = some q ∧ (st p).border ≤ (st q).border)
    (hn : ∀ p, some p ∈ l → (st p).border ≠ .nan) :
    (pick st l x = x ∧ ∀ p f, some p ∈ l → (st p).fn = some f → ¬ x ≤ (st p).border) ∨
    (∃ p f, some p ∈ l ∧ (st p).fn = some f ∧ x ≤ (st p).border ∧ pick st l x = f x ∧
      ∀ q f', some q ∈ l → (st q).fn = some f' → x ≤ (st q).border → (st p).border ≤ (st q).border) := by
  induction l with
  | nil => left; simp [pick]
  | cons a l ih =>
    have ih' := ih (List.Pairwise.of_cons ho) (fun p hp => hn p (List.mem_cons_of_mem _ hp))
    have hhead := (List.pairwise_cons.mp ho).1
    cases a with
    | none =>
      simp only [pick]
      rcases ih' with ⟨h1, h2⟩ | ⟨p, f, h1, h2, h3, h4, h5⟩
      · left; refine ⟨h1, ?_⟩
        intro p f hp; rcases List.mem_cons.mp hp with hp | hp
        · cases hp
        · exact h2 p f hp
      · right; refine ⟨p, f, List.mem_cons_of_mem _ h1, h2, h3, h4, ?_⟩
        intro q f' hq; rcases List.mem_cons.mp hq with hq | hq
        · cases hq
        · exact h5 q f' hq
    | some p0 =>
      have skip : ((st p0).fn = none ∨ ¬ x ≤ (st p0).border) → pick st (some p0 :: l) x = pick st l x := by
        rintro (h | h)
        · simp [pick, h]
        · cases hf : (st p0).fn <;> simp [pick, hf, h]
      have noPart : ((st p0).fn = none ∨ ¬ x ≤ (st p0).border) → ∀ q f', (st q).fn = some f' → x ≤ (st q).border → some q ∈ some p0 :: l → some q ∈ l := by
        intro hs q f' hq hx hm
        rcases List.mem_cons.mp hm with e | e
        · obtain rfl : q = p0 := by simpa using e
          rcases hs with h | h
          · rw [h] at hq; cases hq
          · exact absurd hx h
        · exact e
      by_cases hs : (st p0).fn = none ∨ ¬ x ≤ (st p0).border
      · rw [skip hs]
        rcases ih' with ⟨h1, h2⟩ | ⟨p, f, h1, h2, h3, h4, h5⟩
        · left; refine ⟨h1, ?_⟩
          intro p f hp hf hx
          exact h2 p f (noPart hs p f hf hx hp) hf hx
        · right; refine ⟨p, f, List.mem_cons_of_mem _ h1, h2, h3, h4, ?_⟩
          intro q f' hq hf hx
          exact h5 q f' (noPart hs q f' hf hx hq) hf hx
      · rw [not_or, not_not] at hs
        obtain ⟨f, hf⟩ := Option.ne_none_iff_exists'.mp hs.1
        right
        refine ⟨p0, f, List.mem_cons_self, hf, hs.2, by simp [pick, hf, hs.2], ?_⟩
        intro q f' hq hf' hx
        rcases List.mem_cons.mp hq with e | e
        · obtain rfl : q = p0 := by simpa using e
          exact Fl.le_refl' (hn _ List.mem_cons_self)
        · obtain ⟨a, b, ha, hb, hab⟩ := hhead _ e
          obtain rfl : p0 = a := by simpa using ha
          obtain rfl : q = b := by simpa using hb
          exact hab

end Gamma

namespace GammaPreset
open Fl
variable [FloatModel] [ExactModel]

/-- The loop over part values. -/
noncomputable def evalParts : List GammaPart → Fl → Fl
  | [], x => x
  | p :: l, x => match p.fn with
    | none => evalParts l x
    | some f => if x ≤ p.border then f x else evalParts l x

omit [FloatModel] [ExactModel] in
theorem pick_eq (st : PartStore) (ps : List Nat) (x : Fl) : Gamma.pick st (ps.map some) x = evalParts (ps.map st) x := by
  induction ps with
  | nil => rfl
  | cons p ps ih => simp only [List.map_cons, Gamma.pick, evalParts]; rw [ih]; cases (st p).fn <;> rfl

omit [FloatModel] [ExactModel] in
theorem allocParts_before (l : List GammaPart) (st : PartStore) (n m : Nat) (h : m < n) : allocParts st n l m = st m := by
  induction l generalizing st n with
  | nil => rfl
  | cons a l ih => simp only [allocParts]; rw [ih _ _ (by omega), Function.update_of_ne (by omega)]

omit [FloatModel] [ExactModel] in
theorem allocParts_map (l : List GammaPart) (st : PartStore) (n : Nat) :
    (List.range' n l.length).map (allocParts st n l) = l := by
  induction l generalizing st n with
  | nil => rfl
  | cons a l ih =>
    simp only [allocParts, List.length_cons, List.range'_succ, List.map_cons]
    rw [allocParts_before _ _ _ _ (by omega), Function.update_self, ih]

omit [FloatModel] [ExactModel] in
theorem allocParts_append (l l' : List GammaPart) (st : PartStore) (n : Nat) :
    allocParts st n (l ++ l') = allocParts (allocParts st n l) (n + l.length) l' := by
  induction l generalizing st n with
  | nil => rfl
  | cons a l ih => simp only [List.cons_append, allocParts, List.length_cons]; rw [ih]; congr 1; omega

theorem parts_strict (p : GammaPreset) : (p.parts.Pairwise fun a b => a.border < b.border) ∧ (∀ a ∈ p.parts, a.border ≠ .nan) := by
  cases p <;> simp [parts, GammaPart.make] <;> norm_num

theorem invParts_strict (p : GammaPreset) : (p.invParts.Pairwise fun a b => a.border < b.border) ∧ (∀ a ∈ p.invParts, a.border ≠ .nan) := by
  cases p <;> simp [invParts, GammaPart.make] <;> norm_num

omit [ExactModel] in
/-- The object a preset function returns evaluates its parts in order if their borders ascend. -/
theorem create_eval_of [StdSort] (p : GammaPreset) (hp : (p.parts.Pairwise fun a b => a.border < b.border) ∧ (∀ a ∈ p.parts, a.border ≠ .nan))
    (hi : (p.invParts.Pairwise fun a b => a.border < b.border) ∧ (∀ a ∈ p.invParts, a.border ≠ .nan)) (st : PartStore) (next : Nat) :
    ∃ g, (p.create st next).2 = ok g ∧ ∀ x, g.correct (p.create st next).1 x = evalParts p.parts x ∧
      g.inverse (p.create st next).1 x = evalParts p.invParts x := by
  set st' := allocParts st next (p.parts ++ p.invParts) with hst
  have h1 : (List.range' next p.parts.length).map st' = p.parts := by
    have := allocParts_map p.parts st next
    refine Eq.trans ?_ this
    rw [List.map_inj_left]
    intro a ha
    rw [hst, allocParts_append, allocParts_before]
    simp only [List.mem_range'_1] at ha; omega
  have h2 : (List.range' (next + p.parts.length) p.invParts.length).map st' = p.invParts := by
    rw [hst, allocParts_append]; exact allocParts_map _ _ _
  refine ⟨⟨addresses next p.parts.length, addresses (next + p.parts.length) p.invParts.length⟩, ?_, ?_⟩
  · show Gamma.construct st' _ _ = _
    have e1 : Gamma.sort st' (addresses next p.parts.length) = ok (addresses next p.parts.length) := by
      apply Gamma.sort_of_strict
      · have := hp.1; rw [← h1, List.pairwise_map] at this; simpa using this
      · intro q hq; apply hp.2; rw [← h1]; exact List.mem_map_of_mem (by simpa using hq)
    have e2 : Gamma.sort st' (addresses (next + p.parts.length) p.invParts.length) = ok (addresses (next + p.parts.length) p.invParts.length) := by
      apply Gamma.sort_of_strict
      · have := hi.1; rw [← h2, List.pairwise_map] at this; simpa using this
      · intro q hq; apply hi.2; rw [← h2]; exact List.mem_map_of_mem (by simpa using hq)
    simp only [Gamma.construct, e1, e2, ok_bind]
  · intro x
    constructor
    · show Gamma.pick st' (addresses next p.parts.length) x = _
      rw [addresses, pick_eq, h1]
    · show Gamma.pick st' (addresses (next + p.parts.length) p.invParts.length) x = _
      rw [addresses, pick_eq, h2]

theorem create_eval [StdSort] (p : GammaPreset) (st : PartStore) (next : Nat) :
    ∃ g, (p.create st next).2 = ok g ∧ ∀ x, g.correct (p.create st next).1 x = evalParts p.parts x ∧
      g.inverse (p.create st next).1 x = evalParts p.invParts x := create_eval_of p p.parts_strict p.invParts_strict st next

/-! ### The curves as real functions -/

/-- Exponent of the pure power curves. -/
noncomputable def expo : GammaPreset → ℝ
  | g1_8 => 9/5
  | g2_2 => 11/5
  | g2_6 => 13/5
  | g2_8 => 14/5
  | adobe => 2.19921875
  | _ => 1

/-- A pure power curve. -/
def IsPower (p : GammaPreset) : Prop := p = g1_8 ∨ p = g2_2 ∨ p = g2_6 ∨ p = g2_8 ∨ p = adobe

theorem expo_pos (p : GammaPreset) : 0 < p.expo := by cases p <;> norm_num [expo]

theorem powf_fin {x y : ℝ} (hx : 0 ≤ x) (hy : 0 < y) : powf (fin x) (fin y) = fin (x ^ y) := by
  apply ExactModel.powf_eq
  rcases hx.eq_or_lt with h | h
  · right; left; exact ⟨h.symm, hy⟩
  · left; exact h

theorem eval_power {p : GammaPreset} (hp : p.IsPower) {x : ℝ} (h0 : 0 ≤ x) (h1 : x ≤ 1) :
    evalParts p.parts (fin x) = fin (x ^ (1 / p.expo)) ∧ evalParts p.invParts (fin x) = fin (x ^ p.expo) := by
  rcases hp with rfl | rfl | rfl | rfl | rfl <;>
  · simp only [parts, invParts, evalParts, GammaPart.make, expo, one_def, lit_exact, fin_le, h1, if_true]
    constructor
    · rw [div_exact _ _ (by norm_num), powf_fin h0 (by norm_num)]
    · rw [powf_fin h0 (by norm_num)]

theorem eval_sRGB {x : ℝ} (h0 : 0 ≤ x) (h1 : x ≤ 1) :
    evalParts sRGB.parts (fin x) = fin (if x ≤ 0.0031308 then 12.92 * x else 1.055 * x ^ (5/12 : ℝ) - 0.055) ∧
    evalParts sRGB.invParts (fin x) = fin (if x ≤ 0.04045 then x / 12.92 else ((x + 0.055) / 1.055) ^ (12/5 : ℝ)) := by
  have e : (1 / (12/5) : ℝ) = 5/12 := by norm_num
  simp only [parts, invParts, evalParts, GammaPart.make, one_def, lit_exact, fin_le, h1, if_true]
  constructor
  · rw [div_exact _ _ (by norm_num), powf_fin h0 (by norm_num), e]; split_ifs <;> simp
  · rw [add_exact, div_exact _ _ (by norm_num), div_exact _ _ (by norm_num), powf_fin (by positivity) (by norm_num)]; split_ifs <;> simp

theorem eval_romm {x : ℝ} (h0 : 0 ≤ x) (h1 : x ≤ 1) :
    evalParts romm.parts (fin x) = fin (if x ≤ 0.001953 then 16 * x else x ^ (5/9 : ℝ)) ∧
    evalParts romm.invParts (fin x) = fin (if x ≤ 0.001953 then x / 16 else x ^ (9/5 : ℝ)) := by
  have e : (1 / (9/5) : ℝ) = 5/9 := by norm_num
  simp only [parts, invParts, evalParts, GammaPart.make, one_def, lit_def, lit_exact, fin_le, h1, if_true]
  constructor
  · rw [div_exact _ _ (by norm_num), powf_fin h0 (by norm_num), e]; split_ifs <;> simp
  · rw [div_exact _ _ (by norm_num), powf_fin h0 (by norm_num)]; split_ifs <;> simp

theorem eval_uhdtv {x : ℝ} (h0 : 0 ≤ x) (h1 : x ≤ 1) :
    evalParts uhdtv.parts (fin x) = fin (if x ≤ 0.081 then x / 4.5 else ((x + 0.099) / 1.099) ^ (20/9 : ℝ)) ∧
    evalParts uhdtv.invParts (fin x) = fin (if x ≤ 0.018053968510807 then 4.5 * x else 1.099 * x ^ (9/20 : ℝ) - 0.099) := by
  have e : (1 / 0.45 : ℝ) = 20/9 := by norm_num
  have e' : (0.45 : ℝ) = 9/20 := by norm_num
  simp only [parts, invParts, evalParts, GammaPart.make, one_def, lit_exact, fin_le, h1, if_true]
  constructor
  · rw [add_exact, div_exact _ _ (by norm_num), div_exact _ _ (by norm_num), div_exact _ _ (by norm_num), powf_fin (by positivity) (by norm_num), e]; split_ifs <;> simp
  · rw [powf_fin h0 (by norm_num), e']; split_ifs <;> simp

end GammaPreset
