import Verif.Model.ObsTable
import Verif.Model.CLib

/-!
# Model of palObs and palVers
-/

namespace Pal

/-- The NUL character (/repo/palObs.c:149-156). -/
def nul : Char := Char.ofNat 0

/-- The text a C reader sees in a character array (/repo/palObs.c:149-156). -/
def cText (buf : List Char) : List Char := buf.takeWhile (fun c => c != nul)

/-- `strncpy(dest,src,size)` on an array of `dest.length` bytes (`size ≤ dest.length`): copies at most `size` characters and
pads with NULs up to `size` (called at /repo/palObs.c:152). -/
def strncpy (dest src : List Char) (size : Nat) : List Char :=
  (src ++ List.replicate size nul).take size ++ dest.drop size

/-- `star__strellcpy` / `my__strlcpy`, /repo/palObs.c:149-156 and /repo/palVers.c:79-86 (build without strlcpy, the
standard-C branch).  `none` is undefined behaviour: the size is 0 (then `dest[size-1]` is out of bounds) or exceeds the array. -/
def strellcpy (dest src : List Char) (size : Nat) : Option (List Char) :=
  if size = 0 ∨ dest.length < size then none
  else some ((strncpy dest src size).set (size - 1) nul)

/-- `strcasecmp(a,b) == 0` (called at /repo/palObs.c:936). -/
def strcaseeq (a b : List Char) : Bool := a.map toLowerC == b.map toLowerC

/-- The caller's variables written by palObs (/repo/palObs.c:179-182). -/
structure ObsState where
  ident : List Char
  name : List Char
  w : ℚ
  p : ℚ
  h : ℚ
  deriving DecidableEq

/-- Copy of a table entry to the outputs, /repo/palObs.c:923-928 and 938-943. -/
def obsAssign (t : TelData) (identlen namelen : Nat) (st : ObsState) : Option ObsState := do
  let id ← strellcpy st.ident t.shortname identlen
  let nm ← strellcpy st.name t.longname namelen
  some { ident := id, name := nm, w := t.w, p := t.p, h := t.h }

/-- `palObs`, /repo/palObs.c:182-952, over an arbitrary table.  `c = none` is the NULL pointer.  `none` is undefined behaviour.
Longitude and latitude are in arcseconds. -/
def palObsT (table : List TelData) (n : Nat) (c : Option (List Char)) (identlen namelen : Nat) (st : ObsState) :
    Option (Int × ObsState) := do
  let nm ← strellcpy st.name ['?'] namelen
  let st1 := { st with name := nm }
  if 0 < n then
    if n ≤ table.length then
      match table[n - 1]? with
      | some t => (obsAssign t identlen namelen st1).map fun s => (0, s)
      | none => none
    else some (-1, st1)
  else
    match c with
    | none => none
    | some c =>
      match table.find? (fun t => strcaseeq c t.shortname) with
      | some t => (obsAssign t identlen namelen st1).map fun s => (0, s)
      | none => some (-1, st1)

/-- `palObs` with the table of the source (/repo/palObs.c:179-952). -/
def palObs := palObsT telTable

/-- `palVers`, /repo/palVers.c:88-92: `package`/`ver` are PACKAGE_VERSION and PACKAGE_VERSION_INTEGER from the build. A NULL buffer
is `none`. -/
def palVers (package : List Char) (ver : Int) (verstring : Option (List Char)) (verlen : Nat) :
    Option (Int × Option (List Char)) :=
  match verstring with
  | none => some (ver, none)
  | some b => (strellcpy b package verlen).map fun r => (ver, some r)

end Pal
