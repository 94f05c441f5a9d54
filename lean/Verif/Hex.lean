import Verif.Color

/-!
# Colours from hex codes

Model of `ColorMagic/spaces/rgb_truecolor.cpp:22-69`.
-/

namespace Color
open Fl Outcome
variable [FloatModel]

/-- `(float)n` for a small non-negative integer (exact). -/
def ofByte (n : Nat) : Fl := .fin n

/-- rgb_truecolor.cpp:62-69: constructor from a 32-bit code.  `base(0, …)`, then the alpha, red, green and blue setters. -/
noncomputable def fromHexInt (code : BitVec 32) (sp : Option Nat) : Outcome Color := do
  let c := { base 0 sp 3 255 0 with cls := .rgbTrue, ctype := .rgbTrue }
  let c := c.setAlpha (ofByte ((code.sshiftRight 24) &&& 0xff#32).toNat)
  let c ← c.setChannel 0 (ofByte ((code.sshiftRight 16) &&& 0xff#32).toNat)
  let c ← c.setChannel 1 (ofByte ((code.sshiftRight 8) &&& 0xff#32).toNat)
  c.setChannel 2 (ofByte (code &&& 0xff#32).toNat)

/-- Value of a hex digit (`sscanf` `%x`). -/
def hexVal (c : Char) : Option Nat :=
  if '0' ≤ c ∧ c ≤ '9' then some (c.toNat - '0'.toNat)
  else if 'a' ≤ c ∧ c ≤ 'f' then some (c.toNat - 'a'.toNat + 10)
  else if 'A' ≤ c ∧ c ≤ 'F' then some (c.toNat - 'A'.toNat + 10)
  else none

/-- One `%02x` conversion: at least one and at most two hex digits.  (A sign, white space or an `x` cannot occur: the
regular expression has excluded them.) -/
def scanHex2 : List Char → Option (Nat × List Char)
  | [] => none
  | a :: rest =>
    match hexVal a with
    | none => none
    | some x =>
      match rest with
      | [] => some (x, [])
      | b :: rest' =>
        match hexVal b with
        | none => some (x, rest)
        | some y => some (16 * x + y, rest')

/-- `n` consecutive `%02x` conversions.  `none`: a conversion failed, so that some of the variables stay uninitialised. -/
def scanFields : Nat → List Char → Option (List Nat)
  | 0, _ => some []
  | n + 1, s =>
    match scanHex2 s with
    | none => none
    | some (x, s') => (scanFields n s').map (x :: ·)

/-- A character of the class `[#0-9A-Fa-f]`. -/
def hexOrHash (c : Char) : Bool := c == '#' || (hexVal c).isSome

/-- rgb_truecolor.cpp:41-45 and 51-55: the alpha, red, green and blue setters on the fresh object. -/
noncomputable def hexFinish (sp : Option Nat) (a r g b : Fl) : Outcome Color := do
  let c := { base 0 sp 3 255 0 with cls := .rgbTrue, ctype := .rgbTrue }
  let c := c.setAlpha a
  let c ← c.setChannel 0 r
  let c ← c.setChannel 1 g
  c.setChannel 2 b

/-- rgb_truecolor.cpp:31-34: one leading `#` is dropped. -/
def stripHash : List Char → List Char
  | [] => []
  | c :: t => if c = '#' then t else c :: t

/-- rgb_truecolor.cpp:22-60: constructor from a string.  Both exceptions are thrown by value. -/
noncomputable def fromHexString (s : List Char) (sp : Option Nat) : Outcome Color :=
  -- regex ^[#0-9A-Fa-f]+$
  if s = [] ∨ ¬ (s.all hexOrHash) then .throw ⟨.invalidArgument, false⟩
  else
    let s := stripHash s
    if s.length = 6 then
      match scanFields 3 s with
      | some [r, g, b] => hexFinish sp 255 (ofByte r) (ofByte g) (ofByte b)
      | _ => ub            -- r, g or b is read uninitialised
    else if s.length = 8 then
      match scanFields 4 s with
      | some [a, r, g, b] => hexFinish sp (ofByte a) (ofByte r) (ofByte g) (ofByte b)
      | _ => ub
    else .throw ⟨.invalidArgument, false⟩

end Color
