import Verif.Model.CLib

/-!
# Model of the free-format decoders palIntin, palDfltin and palDafin
-/

namespace Pal

/-- The three values written back by palIntin (/repo/palIntin.c:110). -/
structure IntinOut where
  nstrt : Nat
  ireslt : Int
  jflag : Int
  deriving DecidableEq, Repr

/-- The scan for a minus sign, /repo/palIntin.c:126-138: the flag after the loop. -/
def scanMinus : Bool → List Char → Bool
  | m, [] => m
  | m, c :: cs => if isDigit c then m else scanMinus (c == '-') cs

/-- Characters stepped over when nothing was found, /repo/palIntin.c:152. -/
def intinSkip (c : Char) : Bool := isBlank c || isAlpha c || c == '+'

/-- Delimiter skipping shared by /repo/palIntin.c:171-180 and /repo/palDfltin.c:247-256: how many
characters are stepped over: one comma, or else all leading blanks. -/
def delimSkip : List Char → Nat
  | ',' :: _ => 1
  | s => (s.takeWhile isBlank).length

/-- palIntin on the text from the start position: status, value of `retval`, characters stepped over.
/repo/palIntin.c:120-180.  `retval` is an `int`, so the `long` from strtol is reduced modulo 2^32. -/
def intinCore (s : List Char) : Int × Int × Nat :=
  let hasminus := scanMinus false s
  let r := strtol s
  let retval := toInt32 r.value
  let (jflag, adv) : Int × Nat :=
    if retval = 0 ∧ r.used = 0 then (1, (s.takeWhile intinSkip).length)
    else if r.erange then (2, r.used)
    else if retval < 0 ∨ hasminus = true then (-1, r.used)
    else (0, r.used)
  (jflag, retval, adv + delimSkip (s.drop adv))

/-- `palIntin`, /repo/palIntin.c:110-185.  `none` is undefined behaviour: the start position (1-based) is not
inside the string or its terminator.  `old` is the previous value of `*ireslt`. -/
def palIntin (string : List Char) (nstrt : Nat) (old : Int) : Option IntinOut :=
  if nstrt < 1 ∨ string.length + 1 < nstrt then none
  else
    let (jflag, retval, adv) := intinCore (string.drop (nstrt - 1))
    some { nstrt := nstrt + adv, ireslt := if jflag ≠ 1 then retval else old, jflag := jflag }

/-- `sizeof(tempbuf)` in /repo/palDfltin.c:158. -/
def tempbufSize : Nat := 256

/-- The three values written back by palDfltin (/repo/palDfltin.c:145). -/
structure DfltinOut where
  nstrt : Nat
  dreslt : DVal
  jflag : Int
  deriving DecidableEq

/-- Conversion of Fortran exponent letters, /repo/palDfltin.c:196-200. -/
def dToE (c : Char) : Char := if c == 'd' || c == 'D' then 'E' else c

/-- Status from the converted value, /repo/palDfltin.c:223-240 (build with copysign: `SCAN_FOR_MINUS` is 0). -/
def dfltinSign : DVal → Int
  | .fin neg _ => if neg then -1 else 0
  | .inf neg => if neg then -1 else 0
  | .nan => 0

/-- Is the value 0.0 (of either sign)? (/repo/palDfltin.c:223-240). -/
def DVal.isZero : DVal → Bool
  | .fin _ q => decide (q = 0)
  | _ => false

/-- palDfltin on the text from the start position: status, value, characters stepped over.
/repo/palDfltin.c:181-256.  The text is first copied, truncated to 255 characters, into `tempbuf`. -/
def dfltinCore (s : List Char) : Int × DVal × Nat :=
  let tempbuf := (s.take (tempbufSize - 1)).map dToE
  let r := strtod tempbuf
  let (jflag, adv) : Int × Nat :=
    if r.value.isZero = true ∧ r.used = 0 then
      (1, (tempbuf.takeWhile (fun c => isBlank c || isAlpha c)).length)
    else if r.erange then (2, r.used)
    else (dfltinSign r.value, r.used)
  (jflag, r.value, adv + delimSkip (tempbuf.drop adv))

/-- `palDfltin`, /repo/palDfltin.c:145-259, in the configuration with `copysign`.  `none` is undefined behaviour
(start position outside the string). -/
def palDfltin (string : List Char) (nstrt : Nat) (old : DVal) : Option DfltinOut :=
  if nstrt < 1 ∨ string.length + 1 < nstrt then none
  else
    let (jflag, retval, adv) := dfltinCore (string.drop (nstrt - 1))
    some { nstrt := nstrt + adv, dreslt := if jflag ≠ 1 then retval else old, jflag := jflag }

/-- `DINT(x) == x` for a double (/repo/palmac.h:120): true for infinities, false for NaN. -/
def DVal.integral : DVal → Bool
  | .fin _ q => decide (q.den = 1)
  | .inf _ => true
  | .nan => false

/-- `x >= 60.0` for a double (/repo/palDafin.c:151-184). -/
def DVal.ge60 : DVal → Bool
  | .fin neg q => decide (60 ≤ if neg then -q else q)
  | .inf neg => !neg
  | .nan => false

/-- The angle computed at /repo/palDafin.c:187-190: `none` when a field is infinite or NaN, otherwise
`das2r * (60*(60*|deg| + arcmin) + arcsec)`, negated when the degrees field was negative. -/
def dafinAngle (das2r : ℚ) (jd : Int) : DVal → DVal → DVal → Option ℚ
  | .fin _ d, .fin mn m, .fin sn s =>
    let a := das2r * (60 * (60 * d + (if mn then -m else m)) + (if sn then -s else s))
    some (if jd < 0 then -a else a)
  | _, _, _ => none

/-- The decision logic of /repo/palDafin.c:151-184, given the statuses and values of the three decoded fields. -/
def dafinStatus (jd : Int) (deg : DVal) (jm : Int) (arcmin : DVal) (js : Int) (arcsec : DVal) : Int :=
  if js < 0 ∨ js > 1 then -3
  else if jd > 0 then
    if jm = 0 then -2 else if js = 0 then -3 else 1
  else if jm ≠ 0 ∧ js = 0 then -3
  else if jm = 0 ∧ deg.integral = false then -1
  else if (js = 0 ∧ arcmin.integral = false) ∨ arcmin.ge60 = true then -2
  else if arcsec.ge60 = true then -3
  else 0

/-- What palDafin writes back: position, angle (`none` inside: not a finite number) and status (/repo/palDafin.c:135). -/
structure DafinOut where
  ipos : Nat
  a : Option ℚ
  j : Int
  deriving DecidableEq

/-- `palDafin`, /repo/palDafin.c:135-194.  `das2r` is the constant `PAL__DAS2R`; `olda` the previous `*a`. -/
def palDafin (das2r : ℚ) (string : List Char) (ipos : Nat) (olda : Option ℚ) : Option DafinOut := do
  let z : DVal := .fin false 0
  let d ← palDfltin string ipos z
  if d.jflag > 1 then
    some ⟨d.nstrt, dafinAngle das2r d.jflag d.dreslt z z, -1⟩
  else
    let m ← palDfltin string d.nstrt z
    if m.jflag < 0 ∨ m.jflag > 1 then
      some ⟨m.nstrt, dafinAngle das2r d.jflag d.dreslt m.dreslt z, -2⟩
    else
      let s ← palDfltin string m.nstrt z
      let jf := dafinStatus d.jflag d.dreslt m.jflag m.dreslt s.jflag s.dreslt
      some ⟨s.nstrt,
        if jf ≤ 0 then dafinAngle das2r d.jflag d.dreslt m.dreslt s.dreslt else olda, jf⟩

end Pal
