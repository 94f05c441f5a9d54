import Verif.Props.Gammas

/-!
# Replacing the parts of a gamma curve (C26)
-/

open Outcome Fl

/-- C26: the setters replace one of the two lists by the given parts, whatever the curve held before, and leave the other list alone; without null pointers and NaN borders nothing is undefined. -/
theorem C26_replace [FloatModel] [StdSort] (st : PartStore) (hn : ∀ p, (st p).border ≠ .nan) (g : Gamma) (l : List Nat) :
    (∃ g', Gamma.setParts st g (l.map some) = ok g' ∧ g'.parts.Perm (l.map some) ∧ g'.inv = g.inv) ∧
      ∃ g', Gamma.setInvParts st g (l.map some) = ok g' ∧ g'.inv.Perm (l.map some) ∧ g'.parts = g.parts := by
  obtain ⟨a, h⟩ : ∃ a, Gamma.sort st (l.map some) = ok a := by
    unfold Gamma.sort
    split_ifs with h1
    · exact ⟨_, rfl⟩
    · cases hq : Gamma.pointers (l.map some) with
      | none => exact absurd (Gamma.pointers_eq_none.mp hq) (by simp)
      | some qs =>
        simp only
        rw [if_neg (by rintro ⟨⟨p, hp, e⟩, -⟩; exact hn p e)]
        exact ⟨_, rfl⟩
  have hp := Gamma.sort_perm h
  exact ⟨⟨⟨a, g.inv⟩, by simp [Gamma.setParts, h], hp, rfl⟩, ⟨g.parts, a⟩, by simp [Gamma.setInvParts, h], hp, rfl⟩

/-- A curve with the part 0 gets the parts 2 and 1 instead. -/
example [FloatModel] [StdSort] : ∃ g', Gamma.setParts (fun p => ⟨none, fin p⟩) ⟨[some 0], [some 5]⟩ [some 2, some 1] = ok g' ∧ g'.parts.Perm [some 2, some 1] ∧ g'.inv = [some 5] :=
  (C26_replace (fun p => ⟨none, fin p⟩) (by simp) ⟨[some 0], [some 5]⟩ [2, 1]).1
