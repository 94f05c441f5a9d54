import Verif.Props.Objects2
import Mathlib.Tactic.IntervalCases

/-!
# Properties of hex codes (C13, C14)
-/

open Fl Outcome ObjectSpec Color

namespace HexLemmas

theorem and_ff_toNat (x : BitVec 32) : (x &&& 0xff#32).toNat = x.toNat % 256 := by
  rw [BitVec.toNat_and]
  exact Nat.and_two_pow_sub_one_eq_mod x.toNat 8

theorem sshift_and (code : BitVec 32) (k : Nat) (hk : k + 8 ≤ 32) :
    (code.sshiftRight k &&& 0xff#32) = (code.ushiftRight k &&& 0xff#32) := by
  apply BitVec.eq_of_getLsbD_eq
  intro i hi
  simp only [BitVec.getLsbD_and, BitVec.getLsbD_sshiftRight, BitVec.ushiftRight_eq, BitVec.getLsbD_ushiftRight]
  by_cases h : i < 8
  · have : k + i < 32 := by omega
    have h3 : ¬ 32 ≤ i := by omega
    simp [this, hi, h3]
  · have : (255#32).getLsbD i = false := by
      have h' : 8 ≤ i := by omega
      interval_cases i <;> rfl
    rw [this]; simp

theorem byte_toNat (code : BitVec 32) (k : Nat) (hk : k + 8 ≤ 32) :
    (code.sshiftRight k &&& 0xff#32).toNat = code.toNat / 2 ^ k % 256 := by
  rw [sshift_and code k hk, and_ff_toNat]
  simp [Nat.shiftRight_eq_div_pow]

variable [FloatModel]

theorem clamp_byte {n : Nat} (h : n ≤ 255) : Color.clamp (ofByte n) (fin 255) (fin 0) = fin n := by
  unfold ofByte
  apply clamp_of_inRange
  simp only [inRange_fin]
  exact ⟨by positivity, by exact_mod_cast h⟩

theorem hexFinish_eq (sp : Option Nat) (a : Fl) (r g b : Nat) (hr : r ≤ 255) (hg : g ≤ 255) (hb : b ≤ 255) :
    hexFinish sp a (ofByte r) (ofByte g) (ofByte b) = ok (mkRgbTrue (ofByte r) (ofByte g) (ofByte b) a sp) := by
  simp [hexFinish, mkRgbTrue, Color.setChannel, Color.setComponent, setComponentLim, Color.setAlpha, base, scalesAlpha]

theorem mkRgbTrue_byte_comps (sp : Option Nat) (a : Fl) (r g b : Nat) (hr : r ≤ 255) (hg : g ≤ 255) (hb : b ≤ 255) :
    (mkRgbTrue (ofByte r) (ofByte g) (ofByte b) a sp).comps = [fin r, fin g, fin b] := by
  have h1 := clamp_byte hr
  have h2 := clamp_byte hg
  have h3 := clamp_byte hb
  simp [mkRgbTrue, h1, h2, h3]

theorem mkRgbTrue_byte_alpha [ExactModel] (sp : Option Nat) (a : Nat) (r g b : Fl) (ha : a ≤ 255) :
    (mkRgbTrue r g b (ofByte a) sp).alpha = fin a := by
  have h0 : (0:ℝ) ≤ a := by positivity
  have h1 : (a:ℝ) ≤ 255 := by exact_mod_cast ha
  have : (mkRgbTrue r g b (ofByte a) sp) = (mkRgbTrue r g b (ofByte a) sp).setAlpha (fin a) := by
    simp [mkRgbTrue, Color.setAlpha, scalesAlpha, ofByte]
  rw [this]
  exact C05_set_get_true _ a rfl h0 h1

theorem fromHexInt_eq (code : BitVec 32) (sp : Option Nat) :
    fromHexInt code sp = ok (mkRgbTrue (ofByte (code.toNat / 2 ^ 16 % 256)) (ofByte (code.toNat / 2 ^ 8 % 256))
      (ofByte (code.toNat % 256)) (ofByte (code.toNat / 2 ^ 24)) sp) := by
  have h24 := byte_toNat code 24 (by norm_num)
  have h16 := byte_toNat code 16 (by norm_num)
  have h8 := byte_toNat code 8 (by norm_num)
  have h0 := and_ff_toNat code
  have hlt : code.toNat / 2 ^ 24 % 256 = code.toNat / 2 ^ 24 := by
    have := code.isLt
    omega
  unfold fromHexInt
  rw [h24, h16, h8, h0, hlt]
  simp [mkRgbTrue, Color.setChannel, Color.setComponent, setComponentLim, Color.setAlpha, base, scalesAlpha]

omit [FloatModel] in
/-- A hex digit is below sixteen. -/
theorem hexVal_lt {c : Char} {v : Nat} (h : hexVal c = some v) : v < 16 := by
  unfold hexVal at h
  have e0 : '0'.toNat = 48 := rfl
  have e9 : '9'.toNat = 57 := rfl
  have ea : 'a'.toNat = 97 := rfl
  have ef : 'f'.toNat = 102 := rfl
  have eA : 'A'.toNat = 65 := rfl
  have eF : 'F'.toNat = 70 := rfl
  have key : ∀ a b : Char, a ≤ b ↔ a.toNat ≤ b.toNat := fun a b => Iff.rfl
  simp only [key] at h
  split at h
  · simp at h; omega
  · split at h
    · simp at h; omega
    · split at h
      · simp at h; omega
      · simp at h

end HexLemmas

namespace HexSpec

/-- The sixteen digits in order. -/
def digits : List Char := ['0', '1', '2', '3', '4', '5', '6', '7', '8', '9', 'a', 'b', 'c', 'd', 'e', 'f']
def upperDigits : List Char := ['0', '1', '2', '3', '4', '5', '6', '7', '8', '9', 'A', 'B', 'C', 'D', 'E', 'F']

/-- `c` is a hex digit (either case) with value `v`. -/
def Digit (c : Char) (v : Nat) : Prop := digits[v]? = some c ∨ upperDigits[v]? = some c

/-- `c` is a hex digit. -/
def IsDigit (c : Char) : Prop := ∃ v, Digit c v

/-- The documented language: `RRGGBB` or `AARRGGBB`, optionally preceded by `#`. -/
def Documented (s : List Char) : Prop :=
  ∃ t, (s = t ∨ s = '#' :: t) ∧ (t.length = 6 ∨ t.length = 8) ∧ ∀ c ∈ t, IsDigit c

end HexSpec

open HexSpec

namespace HexLemmas

theorem digit_iff (c : Char) (v : Nat) : Digit c v ↔ hexVal c = some v := by
  constructor
  · intro h
    rcases h with h | h
    · have hv : v < 16 := by
        by_contra hh
        rw [List.getElem?_eq_none (by simp [digits]; omega)] at h; simp at h
      interval_cases v <;> (simp [digits] at h; subst h; rfl)
    · have hv : v < 16 := by
        by_contra hh
        rw [List.getElem?_eq_none (by simp [upperDigits]; omega)] at h; simp at h
      interval_cases v <;> (simp [upperDigits] at h; subst h; rfl)
  · intro h
    have hv := hexVal_lt h
    have ext : ∀ d : Char, c.toNat = d.toNat → c = d := fun d hd => Char.toNat_inj.mp hd
    unfold hexVal at h
    have key : ∀ a b : Char, a ≤ b ↔ a.toNat ≤ b.toNat := fun a b => Iff.rfl
    have e0 : '0'.toNat = 48 := rfl
    have e9 : '9'.toNat = 57 := rfl
    have ea : 'a'.toNat = 97 := rfl
    have ef : 'f'.toNat = 102 := rfl
    have eA : 'A'.toNat = 65 := rfl
    have eF : 'F'.toNat = 70 := rfl
    simp only [key] at h
    split at h
    · simp at h
      have hc : c.toNat = 48 + v := by omega
      have : v < 10 := by omega
      left
      interval_cases v <;> (simp [digits]; symm; exact ext _ hc)
    · split at h
      · simp at h
        have hc : c.toNat = 87 + v := by omega
        have : 10 ≤ v := by omega
        left
        interval_cases v <;> (simp [digits]; symm; exact ext _ hc)
      · split at h
        · simp at h
          have hc : c.toNat = 55 + v := by omega
          have : 10 ≤ v := by omega
          right
          interval_cases v <;> (simp [upperDigits]; symm; exact ext _ hc)
        · simp at h

theorem isDigit_iff (c : Char) : IsDigit c ↔ (hexVal c).isSome := by
  unfold IsDigit
  simp only [digit_iff, Option.isSome_iff_exists]

theorem hash_not_digit : hexVal '#' = none := rfl

theorem stripHash_eq {s t : List Char} (h : s = t ∨ s = '#' :: t) (ht : ∀ c ∈ t, IsDigit c) : stripHash s = t := by
  rcases h with rfl | rfl
  · cases s with
    | nil => rfl
    | cons c s =>
      have := (isDigit_iff c).mp (ht c (by simp))
      have hc : c ≠ '#' := by
        rintro rfl
        simp [hash_not_digit] at this
      simp [stripHash, hc]
  · simp [stripHash]

end HexLemmas

section props
variable [FloatModel]

/-! ### C13 -/

/-- **C13.** The colour of a 32-bit code has the bytes of the code as red, green and blue (every rounding). -/
theorem C13_hex_int (code : BitVec 32) (sp : Option Nat) :
    ∃ c, fromHexInt code sp = ok c ∧ c.ctype = .rgbTrue ∧ c.space = sp ∧
      c.comps = [fin (code.toNat / 2 ^ 16 % 256 : Nat), fin (code.toNat / 2 ^ 8 % 256 : Nat), fin (code.toNat % 256 : Nat)] :=
  ⟨_, HexLemmas.fromHexInt_eq code sp, rfl, rfl,
    HexLemmas.mkRgbTrue_byte_comps sp _ _ _ _ (by omega) (by omega) (by omega)⟩

/-- **C13.** … and the top byte as alpha (exact arithmetic). -/
theorem C13_hex_int_alpha [ExactModel] (code : BitVec 32) (sp : Option Nat) (c : Color) (h : fromHexInt code sp = ok c) :
    c.alpha = fin (code.toNat / 2 ^ 24 : Nat) := by
  rw [HexLemmas.fromHexInt_eq] at h
  simp only [ok_inj] at h; subst h
  exact HexLemmas.mkRgbTrue_byte_alpha sp _ _ _ _ (by have := code.isLt; omega)

/-- **C13.** Packing alpha, red, green and blue gives back the code; hence distinct codes give distinguishable colours. -/
theorem C13_hex_int_injective [ExactModel] (code code' : BitVec 32) (sp : Option Nat) (c c' : Color)
    (h : fromHexInt code sp = ok c) (h' : fromHexInt code' sp = ok c') :
    (∃ a r g b : Nat, c.alpha = fin a ∧ c.comps = [fin r, fin g, fin b] ∧
      code.toNat = a * 2 ^ 24 + r * 2 ^ 16 + g * 2 ^ 8 + b) ∧
    (c.alpha = c'.alpha → c.comps = c'.comps → code = code') := by
  have ha := C13_hex_int_alpha code sp c h
  have ha' := C13_hex_int_alpha code' sp c' h'
  obtain ⟨d, hd, _, _, hc⟩ := C13_hex_int code sp
  obtain ⟨d', hd', _, _, hc'⟩ := C13_hex_int code' sp
  rw [h] at hd; rw [h'] at hd'
  simp only [ok_inj] at hd hd'; subst hd; subst hd'
  refine ⟨⟨_, _, _, _, ha, hc, by omega⟩, ?_⟩
  intro e1 e2
  rw [ha, ha'] at e1
  rw [hc, hc'] at e2
  simp only [List.cons.injEq, fin_inj, Nat.cast_inj, and_true] at e1 e2
  apply BitVec.eq_of_toNat_eq
  omega

/-! ### C14 -/

/-- **C14.** Six hex digits, with or without `#`: the bytes are red, green, blue; alpha is 255. -/
theorem C14_rrggbb (c1 c2 c3 c4 c5 c6 : Char) (v1 v2 v3 v4 v5 v6 : Nat)
    (h1 : Digit c1 v1) (h2 : Digit c2 v2) (h3 : Digit c3 v3) (h4 : Digit c4 v4) (h5 : Digit c5 v5) (h6 : Digit c6 v6)
    (sp : Option Nat) (s : List Char)
    (hs : s = [c1, c2, c3, c4, c5, c6] ∨ s = '#' :: [c1, c2, c3, c4, c5, c6]) :
    ∃ c, fromHexString s sp = ok c ∧ c.ctype = .rgbTrue ∧ c.space = sp ∧
      c.comps = [fin (16 * v1 + v2 : Nat), fin (16 * v3 + v4 : Nat), fin (16 * v5 + v6 : Nat)] ∧
      c = mkRgbTrue (fin (16 * v1 + v2 : Nat)) (fin (16 * v3 + v4 : Nat)) (fin (16 * v5 + v6 : Nat)) (fin 255) sp := by
  have hd : ∀ c ∈ [c1, c2, c3, c4, c5, c6], IsDigit c := by
    intro c hc
    simp only [List.mem_cons, List.not_mem_nil, or_false] at hc
    rcases hc with rfl | rfl | rfl | rfl | rfl | rfl
    exacts [⟨_, h1⟩, ⟨_, h2⟩, ⟨_, h3⟩, ⟨_, h4⟩, ⟨_, h5⟩, ⟨_, h6⟩]
  have hstrip := HexLemmas.stripHash_eq hs hd
  have hall : s ≠ [] ∧ s.all hexOrHash = true := by
    constructor
    · rcases hs with rfl | rfl <;> simp
    · rw [List.all_eq_true]
      intro c hc
      have : c = '#' ∨ c ∈ [c1, c2, c3, c4, c5, c6] := by
        rcases hs with rfl | rfl
        · right; exact hc
        · simpa using hc
      rcases this with rfl | hc
      · rfl
      · simp [hexOrHash, (HexLemmas.isDigit_iff c).mp (hd c hc)]
  rw [HexLemmas.digit_iff] at h1 h2 h3 h4 h5 h6
  have b1 := HexLemmas.hexVal_lt h1; have b2 := HexLemmas.hexVal_lt h2; have b3 := HexLemmas.hexVal_lt h3
  have b4 := HexLemmas.hexVal_lt h4; have b5 := HexLemmas.hexVal_lt h5; have b6 := HexLemmas.hexVal_lt h6
  have hscan : scanFields 3 [c1, c2, c3, c4, c5, c6] = some [16 * v1 + v2, 16 * v3 + v4, 16 * v5 + v6] := by
    simp [scanFields, scanHex2, h1, h2, h3, h4, h5, h6]
  have e : fromHexString s sp = ok (mkRgbTrue (ofByte (16 * v1 + v2)) (ofByte (16 * v3 + v4)) (ofByte (16 * v5 + v6)) 255 sp) := by
    unfold fromHexString
    rw [if_neg (by simp [hall.1, hall.2]), hstrip]
    simp only [hscan, List.length_cons, List.length_nil, if_true]
    exact HexLemmas.hexFinish_eq sp _ _ _ _ (by omega) (by omega) (by omega)
  exact ⟨_, e, rfl, rfl, HexLemmas.mkRgbTrue_byte_comps sp _ _ _ _ (by omega) (by omega) (by omega), by simp [ofByte]⟩

/-- **C14.** Eight hex digits: alpha, red, green, blue. -/
theorem C14_aarrggbb (c1 c2 c3 c4 c5 c6 c7 c8 : Char) (v1 v2 v3 v4 v5 v6 v7 v8 : Nat)
    (h1 : Digit c1 v1) (h2 : Digit c2 v2) (h3 : Digit c3 v3) (h4 : Digit c4 v4) (h5 : Digit c5 v5) (h6 : Digit c6 v6)
    (h7 : Digit c7 v7) (h8 : Digit c8 v8) (sp : Option Nat) (s : List Char)
    (hs : s = [c1, c2, c3, c4, c5, c6, c7, c8] ∨ s = '#' :: [c1, c2, c3, c4, c5, c6, c7, c8]) :
    ∃ c, fromHexString s sp = ok c ∧ c.ctype = .rgbTrue ∧ c.space = sp ∧
      c.comps = [fin (16 * v3 + v4 : Nat), fin (16 * v5 + v6 : Nat), fin (16 * v7 + v8 : Nat)] ∧
      c = mkRgbTrue (fin (16 * v3 + v4 : Nat)) (fin (16 * v5 + v6 : Nat)) (fin (16 * v7 + v8 : Nat))
        (fin (16 * v1 + v2 : Nat)) sp := by
  have hd : ∀ c ∈ [c1, c2, c3, c4, c5, c6, c7, c8], IsDigit c := by
    intro c hc
    simp only [List.mem_cons, List.not_mem_nil, or_false] at hc
    rcases hc with rfl | rfl | rfl | rfl | rfl | rfl | rfl | rfl
    exacts [⟨_, h1⟩, ⟨_, h2⟩, ⟨_, h3⟩, ⟨_, h4⟩, ⟨_, h5⟩, ⟨_, h6⟩, ⟨_, h7⟩, ⟨_, h8⟩]
  have hstrip := HexLemmas.stripHash_eq hs hd
  have hall : s ≠ [] ∧ s.all hexOrHash = true := by
    constructor
    · rcases hs with rfl | rfl <;> simp
    · rw [List.all_eq_true]
      intro c hc
      have : c = '#' ∨ c ∈ [c1, c2, c3, c4, c5, c6, c7, c8] := by
        rcases hs with rfl | rfl
        · right; exact hc
        · simpa using hc
      rcases this with rfl | hc
      · rfl
      · simp [hexOrHash, (HexLemmas.isDigit_iff c).mp (hd c hc)]
  rw [HexLemmas.digit_iff] at h1 h2 h3 h4 h5 h6 h7 h8
  have b1 := HexLemmas.hexVal_lt h1; have b2 := HexLemmas.hexVal_lt h2; have b3 := HexLemmas.hexVal_lt h3
  have b4 := HexLemmas.hexVal_lt h4; have b5 := HexLemmas.hexVal_lt h5; have b6 := HexLemmas.hexVal_lt h6
  have b7 := HexLemmas.hexVal_lt h7; have b8 := HexLemmas.hexVal_lt h8
  have hscan : scanFields 4 [c1, c2, c3, c4, c5, c6, c7, c8] =
      some [16 * v1 + v2, 16 * v3 + v4, 16 * v5 + v6, 16 * v7 + v8] := by
    simp [scanFields, scanHex2, h1, h2, h3, h4, h5, h6, h7, h8]
  have e : fromHexString s sp = ok (mkRgbTrue (ofByte (16 * v3 + v4)) (ofByte (16 * v5 + v6)) (ofByte (16 * v7 + v8))
      (ofByte (16 * v1 + v2)) sp) := by
    unfold fromHexString
    rw [if_neg (by simp [hall.1, hall.2]), hstrip]
    simp only [hscan, List.length_cons, List.length_nil, show (8:ℕ) ≠ 6 by norm_num, if_true, if_false]
    exact HexLemmas.hexFinish_eq sp _ _ _ _ (by omega) (by omega) (by omega)
  exact ⟨_, e, rfl, rfl, HexLemmas.mkRgbTrue_byte_comps sp _ _ _ _ (by omega) (by omega) (by omega), by simp [ofByte]⟩

/-- **C14.** The alpha of the two formats, in exact arithmetic. -/
theorem C14_alpha [ExactModel] (r g b : Fl) (sp : Option Nat) (a : Nat) (ha : a ≤ 255) :
    (mkRgbTrue r g b (fin a) sp).alpha = fin a ∧ (mkRgbTrue r g b (fin 255) sp).alpha = fin 255 := by
  refine ⟨HexLemmas.mkRgbTrue_byte_alpha sp a r g b ha, ?_⟩
  have := HexLemmas.mkRgbTrue_byte_alpha sp 255 r g b le_rfl
  simpa [ofByte] using this

/-- **C14 (violated).** A `#` inside the code: `12345#` is accepted as (0x12, 0x34, 0x05), and `1#2345` makes the constructor read
uninitialised variables. -/
theorem C14_violated (sp : Option Nat) :
    fromHexString ['1', '2', '3', '4', '5', '#'] sp = ok (mkRgbTrue (fin 18) (fin 52) (fin 5) 255 sp) ∧
    fromHexString ['1', '#', '2', '3', '4', '5'] sp = ub := by
  constructor
  · have hs : scanFields 3 ['1', '2', '3', '4', '5', '#'] = some [18, 52, 5] := by decide
    have h : fromHexString ['1', '2', '3', '4', '5', '#'] sp = hexFinish sp 255 (ofByte 18) (ofByte 52) (ofByte 5) := by
      unfold fromHexString
      rw [if_neg (by decide), show stripHash ['1', '2', '3', '4', '5', '#'] = ['1', '2', '3', '4', '5', '#'] from rfl]
      simp only [hs]
      rfl
    rw [h, HexLemmas.hexFinish_eq sp _ _ _ _ (by norm_num) (by norm_num) (by norm_num)]
    simp [ofByte]
  · have hs : scanFields 3 ['1', '#', '2', '3', '4', '5'] = none := by decide
    unfold fromHexString
    rw [if_neg (by decide), show stripHash ['1', '#', '2', '3', '4', '5'] = ['1', '#', '2', '3', '4', '5'] from rfl]
    simp only [hs]
    rfl

/-- **C14 (partial).** A string without `#` after its first character is either of the documented form or rejected with
`std::invalid_argument` (thrown by value).  Missing: strings with an inner `#`, see `C14_violated`. -/
theorem C14_rejects_partial (s : List Char) (sp : Option Nat) (hh : '#' ∉ s.tail) (hd : ¬ Documented s) :
    fromHexString s sp = .throw ⟨.invalidArgument, false⟩ := by
  unfold fromHexString
  by_cases h : s = [] ∨ ¬ (s.all hexOrHash)
  · rw [if_pos h]
  · rw [if_neg h]
    push Not at h
    obtain ⟨hne, hall⟩ := h
    rw [List.all_eq_true] at hall
    obtain ⟨c, t, rfl⟩ : ∃ c t, s = c :: t := by
      cases s with
      | nil => exact absurd rfl hne
      | cons c t => exact ⟨c, t, rfl⟩
    have ht : ∀ x ∈ t, IsDigit x := by
      intro x hx
      have := hall x (by simp [hx])
      rw [HexLemmas.isDigit_iff]
      unfold hexOrHash at this
      rw [Bool.or_eq_true, beq_iff_eq] at this
      rcases this with rfl | h
      · exact absurd hx hh
      · exact h
    have hlen : (stripHash (c :: t)).length ≠ 6 ∧ (stripHash (c :: t)).length ≠ 8 := by
      by_cases hc : c = '#'
      · subst hc
        simp only [stripHash, if_true]
        constructor
        · intro hl; exact hd ⟨t, Or.inr rfl, Or.inl hl, ht⟩
        · intro hl; exact hd ⟨t, Or.inr rfl, Or.inr hl, ht⟩
      · have hcd : ∀ x ∈ c :: t, IsDigit x := by
          intro x hx
          rcases List.mem_cons.mp hx with rfl | hx
          · have := hall x (by simp)
            rw [HexLemmas.isDigit_iff]
            unfold hexOrHash at this
            rw [Bool.or_eq_true, beq_iff_eq] at this
            exact this.resolve_left hc
          · exact ht x hx
        simp only [stripHash, if_neg hc]
        constructor
        · intro hl; exact hd ⟨c :: t, Or.inl rfl, Or.inl hl, hcd⟩
        · intro hl; exact hd ⟨c :: t, Or.inl rfl, Or.inr hl, hcd⟩
    simp only [hlen.1, hlen.2, if_false]

/-- C14 partial is not vacuous: `12 45G` is neither documented nor contains `#`. -/
example : '#' ∉ (['1', '2', 'g'] : List Char).tail ∧ ¬ Documented ['1', '2', 'g'] := by
  refine ⟨by decide, ?_⟩
  rintro ⟨t, h, hl, _⟩
  rcases h with h | h
  · subst h; simp at hl
  · simp at h
example : Digit 'f' 15 ∧ Digit 'F' 15 ∧ Digit '0' 0 := by
  refine ⟨Or.inl rfl, Or.inr rfl, Or.inl rfl⟩

end props
