import Mathlib.Algebra.Order.Field.Rat

/-!
# Specification vocabulary for the free-format decoders

Independent of the model: what a number *written in a string* means.
-/

namespace Pal.Spec

/-- A decimal digit character. -/
abbrev Digit (c : Char) : Prop := c ∈ ['0','1','2','3','4','5','6','7','8','9']

/-- C white space. -/
abbrev White (c : Char) : Prop := c.toNat = 32 ∨ (9 ≤ c.toNat ∧ c.toNat ≤ 13)

/-- An ASCII letter. -/
abbrev Letter (c : Char) : Prop := (65 ≤ c.toNat ∧ c.toNat ≤ 90) ∨ (97 ≤ c.toNat ∧ c.toNat ≤ 122)

/-- Space or tab. -/
abbrev Blank (c : Char) : Prop := c = ' ' ∨ c = '\t'

/-- Value of a digit string in positional notation: the leading digit has weight `10 ^ (digits after it)`. -/
def decVal : List Char → Nat
  | [] => 0
  | c :: cs => (c.toNat - 48) * 10 ^ cs.length + decVal cs

/-- A written sign. -/
inductive Sgn where
  | none | plus | minus
  deriving DecidableEq

/-- How the sign is written. -/
def Sgn.text : Sgn → List Char
  | .none => []
  | .plus => ['+']
  | .minus => ['-']

/-- Meaning of a signed natural number. -/
def Sgn.app (s : Sgn) (n : Nat) : Int := if s = .minus then -n else n

/-- Number of characters that separate one field from the next: one comma, otherwise all blanks. -/
def sepLen (rest : List Char) : Nat :=
  if rest.head? = some ',' then 1 else (rest.takeWhile (fun c => c = ' ' || c = '\t')).length

/-- Status required for a decoded number: -1 if it was written with a minus sign, else 0. -/
def signStatus (s : Sgn) : Int := if s = .minus then -1 else 0

/-- One integer field of a list: white space, sign, digits, and what separates it from the next field. -/
structure IntField where
  lead : List Char
  sgn : Sgn
  digits : List Char
  sep : List Char

/-- Its text. -/
def IntField.text (f : IntField) : List Char := f.lead ++ f.sgn.text ++ f.digits ++ f.sep

/-- Its value. -/
def IntField.value (f : IntField) : Int := f.sgn.app (decVal f.digits)

/-- A field that may be followed by another: the separator is one comma or a non-empty run of blanks,
and the value fits a 32-bit int. -/
def IntField.Ok (f : IntField) : Prop :=
  (∀ c ∈ f.lead, White c) ∧ f.digits ≠ [] ∧ (∀ c ∈ f.digits, Digit c) ∧
  (f.sep = [','] ∨ (f.sep ≠ [] ∧ ∀ c ∈ f.sep, Blank c)) ∧
  -2 ^ 31 ≤ f.value ∧ f.value < 2 ^ 31

/-- A delimited list of integer fields; the last one need not be followed by a separator. -/
def ListOk : List IntField → Prop
  | [] => True
  | [f] => f.Ok ∨ ({ f with sep := [','] }.Ok ∧ f.sep = [])
  | f :: g :: fs => f.Ok ∧ ListOk (g :: fs)

/-- Text of a list of fields. -/
def listText (fs : List IntField) : List Char := (fs.map IntField.text).flatten

/-- A decimal floating field. `point` says whether a decimal point is written, `expo` is the optional exponent
(letter, sign, digits). -/
structure FltField where
  lead : List Char
  sgn : Sgn
  ip : List Char
  point : Bool
  fp : List Char
  expo : Option (Char × Sgn × List Char)

/-- Text of the exponent. -/
def expoText : Option (Char × Sgn × List Char) → List Char
  | none => []
  | some (c, s, ds) => c :: (s.text ++ ds)

/-- Value of the exponent. -/
def expoVal : Option (Char × Sgn × List Char) → Int
  | none => 0
  | some (_, s, ds) => s.app (decVal ds)

/-- Text of a floating field. -/
def FltField.text (f : FltField) : List Char :=
  f.lead ++ f.sgn.text ++ f.ip ++ (if f.point then '.' :: f.fp else []) ++ expoText f.expo

/-- Magnitude of a floating field. -/
def FltField.mag (f : FltField) : ℚ :=
  ((decVal f.ip : ℚ) + (decVal f.fp : ℚ) / 10 ^ f.fp.length) * (10 : ℚ) ^ (expoVal f.expo)

/-- Well-formedness of a floating field. -/
def FltField.Ok (f : FltField) : Prop :=
  (∀ c ∈ f.lead, White c) ∧ (∀ c ∈ f.ip, Digit c) ∧ (∀ c ∈ f.fp, Digit c) ∧
  f.ip ++ f.fp ≠ [] ∧ (f.point = false → f.fp = []) ∧
  (∀ c s ds, f.expo = some (c, s, ds) → c ∈ ['e', 'E', 'd', 'D'] ∧ ds ≠ [] ∧ ∀ d ∈ ds, Digit d)

/-- The magnitude is zero or in the normal range of double. -/
def NormalRange (q : ℚ) : Prop := q = 0 ∨ (1 ≤ q * 2 ^ 1022 ∧ q < 2 ^ 1024 - 2 ^ 970)

end Pal.Spec
