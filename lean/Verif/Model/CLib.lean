import Mathlib.Algebra.Order.Field.Rat
import Mathlib.Tactic.NormNum

/-!
# The pieces of the C library used by the string decoders

A C string is modelled by the list of its characters before the terminating NUL.  Characters are
assumed to lie in 1..127 (for other values `isdigit(*p)` with a signed `char` is undefined behaviour
in C).  Classification is that of the "C" locale.
-/

namespace Pal

/-- `isdigit` in the C locale, as used in /repo/palIntin.c:130 and inside strtol/strtod. -/
def isDigit (c : Char) : Bool := decide ('0'.toNat ≤ c.toNat) && decide (c.toNat ≤ '9'.toNat)

/-- The numeric value of a decimal digit character (strtol and strtod, called at /repo/palIntin.c:143 and /repo/palDfltin.c:205). -/
def digitVal (c : Char) : Nat := c.toNat - '0'.toNat

/-- `isspace` in the C locale (white space skipped by strtol and strtod) (strtol and strtod, called at /repo/palIntin.c:143 and /repo/palDfltin.c:205). -/
def isSpace (c : Char) : Bool :=
  c == ' ' || c == '\t' || c == '\n' || c == Char.ofNat 11 || c == Char.ofNat 12 || c == '\r'

/-- `ISBLANK`: /repo/palIntin.c:90-104 and /repo/palDfltin.c:107-120 (space or tab). -/
def isBlank (c : Char) : Bool := c == ' ' || c == '\t'

/-- `isalpha` in the C locale, as used in /repo/palIntin.c:152 and /repo/palDfltin.c:214. -/
def isAlpha (c : Char) : Bool :=
  (decide ('a'.toNat ≤ c.toNat) && decide (c.toNat ≤ 'z'.toNat)) ||
  (decide ('A'.toNat ≤ c.toNat) && decide (c.toNat ≤ 'Z'.toNat))

/-- ASCII `tolower` (strcasecmp, /repo/palObs.c:936, and strtod, called at /repo/palDfltin.c:205). -/
def toLowerC (c : Char) : Char :=
  if 'A'.toNat ≤ c.toNat ∧ c.toNat ≤ 'Z'.toNat then Char.ofNat (c.toNat + 32) else c

/-- ASCII `toupper` (used in /repo/palEpco.c:85-86 and /repo/palPreces.c). -/
def toUpperC (c : Char) : Char :=
  if 'a'.toNat ≤ c.toNat ∧ c.toNat ≤ 'z'.toNat then Char.ofNat (c.toNat - 32) else c

/-- Accumulation of a digit string, most significant digit first, as strtol does (strtol and strtod, called at /repo/palIntin.c:143 and /repo/palDfltin.c:205). -/
def accDigits (acc : Nat) (ds : List Char) : Nat := ds.foldl (fun a c => a * 10 + digitVal c) acc

/-- Largest value of the result type of strtol (`long`, 64 bit) (strtol, called at /repo/palIntin.c:143). -/
def LONG_MAX : Int := 2 ^ 63 - 1
/-- Smallest value of `long` (strtol, called at /repo/palIntin.c:143). -/
def LONG_MIN : Int := -2 ^ 63

/-- Conversion of a `long` to a 32-bit `int` (gcc/clang: reduction modulo 2^32), as happens in the
assignment `retval = strtol(...)` with `int retval` at /repo/palIntin.c:116,142. -/
def toInt32 (v : Int) : Int := v.bmod (2 ^ 32)

/-- Result of strtol: the value, the number of characters consumed (`endptr - nptr`), `errno == ERANGE` (strtol, called at /repo/palIntin.c:143). -/
structure StrtolRes where
  value : Int
  used : Nat
  erange : Bool
  deriving DecidableEq, Repr

/-- Optional sign shared by strtol and strtod: (is negative, characters used, remaining text) (strtol and strtod, called at /repo/palIntin.c:143 and /repo/palDfltin.c:205). -/
def takeSign : List Char → Bool × Nat × List Char
  | '-' :: t => (true, 1, t)
  | '+' :: t => (false, 1, t)
  | t => (false, 0, t)

/-- `strtol(nptr,&endptr,10)` of the C standard, 7.22.1.4, with 64-bit `long` (called at /repo/palIntin.c:143). -/
def strtol (s : List Char) : StrtolRes :=
  let ws := (s.takeWhile isSpace).length
  let (neg, sl, r) := takeSign (s.dropWhile isSpace)
  let ds := r.takeWhile isDigit
  if ds = [] then ⟨0, 0, false⟩
  else
    let m : Int := accDigits 0 ds
    let v := if neg then -m else m
    let used := ws + sl + ds.length
    if LONG_MAX < v then ⟨LONG_MAX, used, true⟩
    else if v < LONG_MIN then ⟨LONG_MIN, used, true⟩
    else ⟨v, used, false⟩

/-- A double as far as the decoders need it: a finite value given by sign bit and exact magnitude,
an infinity, or a NaN.  (Rounding to 53 bits is not modelled.) (/repo/palDfltin.c:205). -/
inductive DVal where
  | fin (neg : Bool) (mag : ℚ)
  | inf (neg : Bool)
  | nan
  deriving DecidableEq

/-- Result of strtod (strtod, called at /repo/palDfltin.c:205). -/
structure StrtodRes where
  value : DVal
  used : Nat
  erange : Bool
  deriving DecidableEq

/-- `strtod` reports ERANGE when the correctly rounded result overflows or the (nonzero) value is below the
normal range.  Simplification: every nonzero value below 2^-1022 is taken to raise ERANGE (strtod, called at /repo/palDfltin.c:205, errno at line 218). -/
def dblRangeError (q : ℚ) : Bool :=
  decide ((2 : ℚ) ^ 1024 - 2 ^ 970 ≤ q) || (decide (0 < q) && decide (q * 2 ^ 1022 < 1))

/-- The value delivered for a sign and exact magnitude: HUGE_VAL (infinity) on overflow (strtod, called at /repo/palDfltin.c:205). -/
def finOrInf (neg : Bool) (q : ℚ) : DVal :=
  if (2 : ℚ) ^ 1024 - 2 ^ 970 ≤ q then .inf neg else .fin neg q

/-- Optional exponent part for a given set of introducing letters: (exponent, characters used) (strtod, called at /repo/palDfltin.c:205). -/
def takeExp (isE : Char → Bool) : List Char → Int × Nat
  | c :: t =>
    if isE c then
      let (neg, sl, r) := takeSign t
      let ds := r.takeWhile isDigit
      if ds = [] then (0, 0)
      else
        let m : Int := accDigits 0 ds
        (if neg then -m else m, 1 + sl + ds.length)
    else (0, 0)
  | [] => (0, 0)

/-- `base ^ e` for an integer exponent (strtod, called at /repo/palDfltin.c:205). -/
def powInt (base : ℚ) : Int → ℚ
  | Int.ofNat n => base ^ n
  | Int.negSucc n => 1 / base ^ (n + 1)

/-- Fraction part: (fraction digits, characters used) (strtod, called at /repo/palDfltin.c:205). -/
def takeFrac (isD : Char → Bool) : List Char → List Char × Nat
  | '.' :: t => (t.takeWhile isD, 1 + (t.takeWhile isD).length)
  | _ => ([], 0)

/-- Decimal floating constant (no sign): magnitude and number of characters, `none` if there is none (strtod, called at /repo/palDfltin.c:205). -/
def decFloat (s : List Char) : Option (ℚ × Nat) :=
  let ip := s.takeWhile isDigit
  let (fp, fl) := takeFrac isDigit (s.drop ip.length)
  if ip = [] ∧ fp = [] then none
  else
    let (e, el) := takeExp (fun c => c == 'e' || c == 'E') (s.drop (ip.length + fl))
    some ((accDigits 0 (ip ++ fp) : ℚ) * powInt 10 (e - fp.length), ip.length + fl + el)

/-- `isxdigit` (strtod, called at /repo/palDfltin.c:205). -/
def isXDigit (c : Char) : Bool :=
  isDigit c || (decide ('a'.toNat ≤ c.toNat) && decide (c.toNat ≤ 'f'.toNat)) ||
  (decide ('A'.toNat ≤ c.toNat) && decide (c.toNat ≤ 'F'.toNat))

/-- Value of a hexadecimal digit (strtod, called at /repo/palDfltin.c:205). -/
def xDigitVal (c : Char) : Nat := if isDigit c then digitVal c else (toLowerC c).toNat - 'a'.toNat + 10

/-- Accumulation of hexadecimal digits (strtod, called at /repo/palDfltin.c:205). -/
def accXDigits (acc : Nat) (ds : List Char) : Nat := ds.foldl (fun a c => a * 16 + xDigitVal c) acc

/-- Hexadecimal floating constant after `0x` (C99 strtod): magnitude and number of characters (strtod, called at /repo/palDfltin.c:205). -/
def hexFloat (s : List Char) : Option (ℚ × Nat) :=
  let ip := s.takeWhile isXDigit
  let (fp, fl) := takeFrac isXDigit (s.drop ip.length)
  if ip = [] ∧ fp = [] then none
  else
    let (e, el) := takeExp (fun c => c == 'p' || c == 'P') (s.drop (ip.length + fl))
    some ((accXDigits 0 (ip ++ fp) : ℚ) * powInt 2 (e - 4 * fp.length), ip.length + fl + el)

/-- Case-insensitive prefix test for a lower-case word (strtod, called at /repo/palDfltin.c:205). -/
def hasPrefixCI (word s : List Char) : Bool := (s.take word.length).map toLowerC == word

/-- Length of an optional `(n-char-sequence)` after NAN (strtod, called at /repo/palDfltin.c:205). -/
def nanTail : List Char → Nat
  | '(' :: t =>
    let body := t.takeWhile (fun c => isDigit c || isAlpha c || c == '_')
    if (t.drop body.length).head? = some ')' then body.length + 2 else 0
  | _ => 0

/-- Subject sequence of strtod after white space and sign: value magnitude class and characters used (strtod, called at /repo/palDfltin.c:205). -/
def strtodBody (neg : Bool) (s : List Char) : Option (DVal × Nat × Bool) :=
  if hasPrefixCI ['i','n','f','i','n','i','t','y'] s then some (.inf neg, 8, false)
  else if hasPrefixCI ['i','n','f'] s then some (.inf neg, 3, false)
  else if hasPrefixCI ['n','a','n'] s then some (.nan, 3 + nanTail (s.drop 3), false)
  else
    let hex := if hasPrefixCI ['0','x'] s then hexFloat (s.drop 2) else none
    match hex with
    | some (q, n) => some (finOrInf neg q, n + 2, dblRangeError q)
    | none =>
      match decFloat s with
      | some (q, n) => some (finOrInf neg q, n, dblRangeError q)
      | none => none

/-- `strtod(nptr,&endptr)` of the C standard 7.22.1.3 (decimal, hexadecimal, infinity and NaN forms).
On underflow (ERANGE) the model keeps the exact tiny value; C delivers a denormal or zero near it (called at /repo/palDfltin.c:205). -/
def strtod (s : List Char) : StrtodRes :=
  let ws := (s.takeWhile isSpace).length
  let (neg, sl, r) := takeSign (s.dropWhile isSpace)
  match strtodBody neg r with
  | some (v, n, e) => ⟨v, ws + sl + n, e⟩
  | none => ⟨.fin false 0, 0, false⟩

end Pal
