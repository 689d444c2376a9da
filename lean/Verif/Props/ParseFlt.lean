import Verif.Lemmas.ParseFlt

/-!
# Properties C05–C07, C69 of palDfltin and palDafin
-/

namespace Pal.Props
open Pal Pal.Spec

/-- **C05** Every decimal floating field (e, E, d or D exponent) that, with its delimiter, fits palDfltin's buffer and whose
value is zero or a normal double is decoded to its exact value (rounding not modelled), with the sign bit of the
written sign (so "-0" is negative zero), status -1 for a minus sign and 0 otherwise, and the position moves past the
field and its delimiter.  `rest` is the text after the field. -/
theorem C05_dfltin_decodes (pre : List Char) (f : FltField) (rest : List Char) (old : DVal) (hf : f.Ok)
    (hr : ∀ c, rest.head? = some c → ¬ Digit c ∧ c ∉ ['.', 'e', 'E', 'd', 'D', 'x', 'X'])
    (hrange : NormalRange f.mag) (hfit : f.text.length + sepLen rest ≤ 255) :
    palDfltin (pre ++ (f.text ++ rest)) (pre.length + 1) old =
      some { dreslt := .fin (decide (f.sgn = .minus)) f.mag,
             jflag := signStatus f.sgn,
             nstrt := (pre ++ f.text).length + sepLen rest + 1 } := by
  rw [palDfltin_at, dfltinCore_field f rest hf hr hrange hfit]
  have : signStatus f.sgn ≠ 1 := by unfold signStatus; split <;> decide
  simp only [this, ne_eq, not_false_eq_true, if_true, List.length_append]
  congr 2; omega

/-- The field "-1.50D+3" followed by ", 7". -/
def exFlt : FltField := ⟨[' '], .minus, ['1'], true, ['5','0'], some ('D', .plus, ['3'])⟩

theorem exFlt_ok : exFlt.Ok := by
  refine ⟨by simp [exFlt, White], by decide, by decide, by simp [exFlt], by simp [exFlt], ?_⟩
  intro c s ds h
  simp only [exFlt, Option.some.injEq, Prod.mk.injEq] at h
  obtain ⟨rfl, rfl, rfl⟩ := h
  exact ⟨by decide, by decide, by decide⟩

theorem exFlt_mag : exFlt.mag = 1500 := by
  simp only [exFlt, FltField.mag, decVal, expoVal, Sgn.app]
  have h1 : '1'.toNat - 48 = 1 := rfl
  have h2 : '5'.toNat - 48 = 5 := rfl
  have h3 : '0'.toNat - 48 = 0 := rfl
  have h4 : '3'.toNat - 48 = 3 := rfl
  rw [h1, h2, h3, h4, if_neg (by decide)]; norm_num

theorem normal_1500 : NormalRange 1500 := by
  right
  constructor
  · have : (1 : ℚ) ≤ 2 ^ 1022 := one_le_pow₀ (by norm_num)
    generalize (2 : ℚ) ^ 1022 = B at *
    linarith
  · have h : (2 : ℚ) ^ 1024 = 2 ^ 54 * 2 ^ 970 := by rw [← pow_add]
    have : (1 : ℚ) ≤ 2 ^ 970 := one_le_pow₀ (by norm_num)
    rw [h]; clear h
    generalize (2 : ℚ) ^ 970 = B at *
    norm_num; linarith

example : palDfltin "x -1.50D+3, 7".toList 2 .nan =
    some { dreslt := .fin true 1500, jflag := -1, nstrt := 12 } := by
  have := C05_dfltin_decodes ['x'] exFlt [',', ' ', '7'] .nan exFlt_ok (by simp [Digit])
    (by rw [exFlt_mag]; exact normal_1500) (by decide)
  rw [exFlt_mag] at this
  exact this

/-- **C69** For every string and legal start position palDfltin is defined, reports one of the four documented statuses, keeps the
position inside the string (or just past its end), strictly advances if it reports a number, and leaves the
result unchanged with status 1. -/
theorem C69_dfltin_frame (string : List Char) (nstrt : Nat) (old : DVal)
    (h1 : 1 ≤ nstrt) (h2 : nstrt ≤ string.length + 1) :
    ∃ o, palDfltin string nstrt old = some o ∧ o.jflag ∈ [-1, 0, 1, 2] ∧
      nstrt ≤ o.nstrt ∧ o.nstrt ≤ string.length + 1 ∧
      (o.jflag ≠ 1 → nstrt < o.nstrt) ∧ (o.jflag = 1 → o.dreslt = old) :=
  palDfltin_frame string nstrt old h1 h2

example : palDfltin "  abc, 1".toList 1 (.fin false 3) = some { nstrt := 7, dreslt := .fin false 3, jflag := 1 } := by
  have h := palDfltin_at [] "  abc, 1".toList (.fin false 3)
  decide +kernel

/-- **C69** (where the next field starts when there is no number) With status 1 palDfltin steps over the run of blanks and letters at the start position,
and then over one comma or the following blanks (texts of up to 255 characters). -/
theorem C69_dfltin_nothing (pre junk rest : List Char) (old : DVal) (hj : ∀ c ∈ junk, Blank c ∨ Letter c)
    (hr : ∀ c, rest.head? = some c → ¬ Blank c ∧ ¬ Letter c) (hlen : (junk ++ rest).length ≤ 255) (o : DfltinOut)
    (h : palDfltin (pre ++ (junk ++ rest)) (pre.length + 1) old = some o) (h1 : o.jflag = 1) :
    o = { nstrt := pre.length + junk.length + sepLen rest + 1, dreslt := old, jflag := 1 } := by
  rw [palDfltin_at, Option.some.injEq] at h
  have hf : (dfltinCore (junk ++ rest)).1 = 1 := by rw [← h] at h1; exact h1
  have hsk : ∀ c, (isBlank c || isAlpha c) = true ↔ Blank c ∨ Letter c := by
    intro c
    rw [← isAlpha_iff c]
    simp only [isBlank, Bool.or_eq_true, beq_iff_eq, Blank]
  have hd : ∀ c, (isBlank (dToE c) || isAlpha (dToE c)) = (isBlank c || isAlpha c) := by
    intro c
    unfold dToE
    split_ifs with hc
    · simp only [Bool.or_eq_true, beq_iff_eq] at hc
      rcases hc with hc | hc <;> subst hc <;> decide
    · rfl
  have hcomp : (fun c => isBlank c || isAlpha c) ∘ dToE = fun c => isBlank c || isAlpha c := funext hd
  have hstop : ((junk ++ rest).takeWhile fun c => isBlank c || isAlpha c) = junk :=
    takeWhile_append_stop _ _ _ (fun a haj => (hsk a).2 (hj a haj)) (fun c hc => by
      rw [Bool.eq_false_iff]; intro hh
      rcases (hsk c).1 hh with h2 | h2
      · exact (hr c hc).1 h2
      · exact (hr c hc).2 h2)
  have hv : (dfltinCore (junk ++ rest)).2.2 = junk.length + sepLen rest := by
    unfold dfltinCore tempbufSize at hf ⊢
    rw [show (256 - 1 : Nat) = 255 from rfl, List.take_of_length_le hlen] at hf ⊢
    dsimp only at hf ⊢
    generalize strtod ((junk ++ rest).map dToE) = r at *
    by_cases hc : r.value.isZero = true ∧ r.used = 0
    · rw [if_pos hc]
      dsimp only
      rw [List.takeWhile_map, hcomp, hstop, List.length_map, ← List.map_drop, List.drop_left, delimSkip_eq, sepLen_map]
    · rw [if_neg hc] at hf
      split_ifs at hf with h2
      · simp at hf
      · dsimp only at hf
        unfold dfltinSign at hf
        split at hf <;> (try split_ifs at hf) <;> simp at hf
  rw [← h, hv, hf]
  simp only [ne_eq, not_true_eq_false, if_false, DfltinOut.mk.injEq, and_true]
  omega

/-- **C06** (refuted) A digit string of more than 255 digits is cut: the value delivered is that of its first 255 digits,
with status 0 and the position left inside the number, so the rest of the number is taken for the next field. -/
theorem C06_dfltin_truncates (ds rest : List Char) (old : DVal)
    (hd : ∀ c ∈ ds, Digit c) (hlen : 255 < ds.length) (hlead : ds.head? ≠ some '0') :
    ∃ q, palDfltin (ds ++ rest) 1 old = some { nstrt := 256, dreslt := .fin false q, jflag := 0 } ∧
      q ≠ (decVal ds : ℚ) := by
  let f : FltField := ⟨[], .none, ds.take 255, false, [], none⟩
  have htl : (ds.take 255).length = 255 := by rw [List.length_take]; omega
  have hdt : ∀ c ∈ ds.take 255, Digit c := fun c hc => hd c (List.mem_of_mem_take hc)
  have hft : f.text = ds.take 255 := by simp [f, FltField.text, Sgn.text, expoText]
  have hmag : f.mag = decVal (ds.take 255) := by simp [f, FltField.mag, decVal, expoVal]
  have hlt := decVal_lt _ hdt
  rw [htl] at hlt
  -- size of the leading digit
  have hge : 10 ^ 254 ≤ decVal (ds.take 255) := by
    cases ds with
    | nil => simp at hlen
    | cons c t =>
      rw [show (c :: t).take 255 = c :: t.take 254 from rfl, decVal]
      have hl2 : (t.take 254).length = 254 := by
        rw [List.length_take]; simp at hlen; omega
      have hc1 : 1 ≤ c.toNat - 48 := by
        have h := hd c (by simp)
        simp only [Digit, List.mem_cons, List.not_mem_nil, or_false] at h
        rcases h with h|h|h|h|h|h|h|h|h|h
        · subst h; simp at hlead
        all_goals subst h; decide
      rw [hl2]
      calc 10 ^ 254 = 1 * 10 ^ 254 := by rw [one_mul]
        _ ≤ (c.toNat - 48) * 10 ^ 254 := Nat.mul_le_mul_right _ hc1
        _ ≤ _ := Nat.le_add_right _ _
  have hrange : NormalRange f.mag := by
    rw [hmag]; right
    have h1 : (1 : ℚ) ≤ (decVal (ds.take 255) : ℚ) := by
      have : 1 ≤ decVal (ds.take 255) := le_trans (Nat.one_le_pow _ _ (by norm_num)) hge
      exact_mod_cast this
    have h2 : (decVal (ds.take 255) : ℚ) < 10 ^ 255 := by exact_mod_cast hlt
    constructor
    · have : (1 : ℚ) ≤ 2 ^ 1022 := one_le_pow₀ (by norm_num)
      generalize (2 : ℚ) ^ 1022 = B at *
      nlinarith
    · have h3 : (10 : ℚ) ^ 255 ≤ 16 ^ 242 * 2 ^ 2 := by norm_num
      have h4 : (16 : ℚ) ^ 242 * 2 ^ 2 = 2 ^ 970 := by
        rw [show (16 : ℚ) = 2 ^ 4 by norm_num, ← pow_mul, ← pow_add]
      have h5 : (2 : ℚ) ^ 1024 = 2 ^ 54 * 2 ^ 970 := by rw [← pow_add]
      have h6 : (0 : ℚ) < 2 ^ 970 := by positivity
      rw [h4] at h3
      rw [h5]
      generalize (2 : ℚ) ^ 970 = B at *
      generalize (10 : ℚ) ^ 255 = T at *
      norm_num; linarith
  have hcore : dfltinCore (ds ++ rest) = dfltinCore (f.text ++ []) := by
    unfold dfltinCore tempbufSize
    rw [hft, List.append_nil, show (256 - 1 : Nat) = 255 from rfl, List.take_append_of_le_length (by omega),
      List.take_take, Nat.min_self]
  have hfield := dfltinCore_field f [] ⟨by simp [f], hdt, by simp [f], by
      simp only [f, List.append_nil]; intro h; rw [h] at htl; simp at htl, by simp [f], by simp [f]⟩
      (by simp) hrange (by rw [hft, htl]; decide)
  rw [← hcore, hmag] at hfield
  refine ⟨decVal (ds.take 255), ?_, ?_⟩
  · have := palDfltin_at [] (ds ++ rest) old
    rw [hfield, hft, htl] at this
    simpa [f, signStatus, sepLen] using this
  · have hsplit : ds = ds.take 255 ++ ds.drop 255 := (List.take_append_drop ..).symm
    have hdl : 0 < (ds.drop 255).length := by rw [List.length_drop]; omega
    have hv : decVal ds = decVal (ds.take 255) * 10 ^ (ds.drop 255).length + decVal (ds.drop 255) := by
      conv_lhs => rw [hsplit]
      exact decVal_append _ _
    have h10 : 10 ≤ 10 ^ (ds.drop 255).length := by
      calc 10 = 10 ^ 1 := by norm_num
        _ ≤ _ := Nat.pow_le_pow_right (by norm_num) hdl
    have hpos : 1 ≤ decVal (ds.take 255) := le_trans (Nat.one_le_pow _ _ (by norm_num)) hge
    have : decVal (ds.take 255) < decVal ds := by rw [hv]; nlinarith
    intro h
    have : decVal (ds.take 255) = decVal ds := by exact_mod_cast h
    omega

example : (∀ c ∈ List.replicate 300 '7', Digit c) ∧ 255 < (List.replicate 300 '7').length ∧
    (List.replicate 300 '7').head? ≠ some '0' := by
  refine ⟨?_, by rw [List.length_replicate]; norm_num, by rw [List.head?_replicate]; decide⟩
  intro c hc; rw [List.mem_replicate] at hc; rw [hc.2]; decide

/-- **C06** (partial) What holds: the text beyond the field and its delimiter does not matter, whatever its length, provided field and
delimiter occupy at most 255 characters.  Missing: longer fields (see `C06_dfltin_truncates`). -/
theorem C06_dfltin_local_partial (pre pre' : List Char) (f : FltField) (rest : List Char) (old : DVal) (hf : f.Ok)
    (hr : ∀ c, rest.head? = some c → ¬ Digit c ∧ c ∉ ['.', 'e', 'E', 'd', 'D', 'x', 'X'])
    (hrange : NormalRange f.mag) (hfit : f.text.length + sepLen rest ≤ 255) :
    (palDfltin (pre ++ (f.text ++ rest)) (pre.length + 1) old).map (fun o => (o.dreslt, o.jflag, o.nstrt - (pre.length + 1))) =
    (palDfltin (pre' ++ f.text) (pre'.length + 1) old).map
      (fun o => (o.dreslt, o.jflag, o.nstrt - (pre'.length + 1) + sepLen rest)) := by
  rw [C05_dfltin_decodes pre f rest old hf hr hrange hfit]
  have := C05_dfltin_decodes pre' f [] old hf (by simp) hrange (by simp [sepLen]; omega)
  rw [List.append_nil] at this
  rw [this]
  simp [sepLen]; omega

example : exFlt.text.length + sepLen (',' :: List.replicate 1000 'z') ≤ 255 := by
  rw [sepLen_comma]; decide

/-- **C07** (decoding) A string with a degrees field (optionally signed), an unsigned arcminutes field and an unsigned
arcseconds field, separated by commas or blanks, in the documented ranges, is decoded with status 0 to
`sign · (|deg| + arcmin/60 + arcsec/3600)` degrees in radians, for `das2r` radians per arcsecond. -/
theorem C07_dafin_decodes (das2r : ℚ) (pre : List Char) (fd fm fs : FltField) (sep1 sep2 rest : List Char)
    (olda : Option ℚ)
    (hd : fd.Ok) (hm : fm.Ok) (hs : fs.Ok)
    (hml : fm.lead = []) (hsl : fs.lead = []) (hmp : fm.sgn = .none) (hsp : fs.sgn = .none)
    (h1 : sep1 = [','] ∨ (sep1 ≠ [] ∧ ∀ c ∈ sep1, Blank c)) (h2 : sep2 = [','] ∨ (sep2 ≠ [] ∧ ∀ c ∈ sep2, Blank c))
    (hr : ∀ c, rest.head? = some c → ¬ Digit c ∧ c ∉ ['.', 'e', 'E', 'd', 'D', 'x', 'X'])
    (nd : NormalRange fd.mag) (nm : NormalRange fm.mag) (ns : NormalRange fs.mag)
    (ld : fd.text.length + sep1.length ≤ 255) (lm : fm.text.length + sep2.length ≤ 255)
    (ls : fs.text.length + sepLen rest ≤ 255)
    (id : fd.mag.den = 1) (im : fm.mag.den = 1) (rm : fm.mag < 60) (rs : fs.mag < 60) :
    palDafin das2r (pre ++ (fd.text ++ (sep1 ++ (fm.text ++ (sep2 ++ (fs.text ++ rest)))))) (pre.length + 1) olda =
      some { ipos := (pre ++ fd.text ++ sep1 ++ fm.text ++ sep2 ++ fs.text).length + sepLen rest + 1,
             a := some ((if fd.sgn = .minus then -1 else 1) * (fd.mag * 3600 + fm.mag * 60 + fs.mag) * das2r),
             j := 0 } := by
  have hhead : ∀ (f : FltField), f.Ok → f.lead = [] → f.sgn = .none → ∀ r c, (f.text ++ r).head? = some c → isBlank c = false := by
    intro f hf hl hsg r c hc
    obtain ⟨_, hip, hfp, hne, hpt, _⟩ := hf
    have : isDigit c = true ∨ c = '.' := by
      simp only [FltField.text, hl, hsg, Sgn.text, List.nil_append] at hc
      cases hip' : f.ip with
      | cons d t =>
        rw [hip'] at hc; simp at hc; subst hc
        left; rw [isDigit_iff]; exact hip d (by rw [hip']; simp)
      | nil =>
        rw [hip'] at hc
        cases hp : f.point with
        | true => rw [hp] at hc; simp at hc; right; exact hc.symm
        | false => exact absurd (by rw [hip', hpt hp]; rfl) hne
    rcases this with h | h
    · have := digit_not_space h
      by_contra hb
      rcases (isBlank_iff c).1 (by simpa using hb) with h' | h' <;> subst h' <;> revert this <;> decide
    · subst h; decide
  have hsepLen : ∀ (sep : List Char) (f : FltField) (r : List Char), f.Ok → f.lead = [] → f.sgn = .none →
      (sep = [','] ∨ (sep ≠ [] ∧ ∀ c ∈ sep, Blank c)) → sepLen (sep ++ (f.text ++ r)) = sep.length := by
    intro sep f r hf hl hsg hsep
    rcases hsep with h | ⟨h, hb⟩
    · subst h; simp [sepLen]
    · exact sepLen_blanks _ _ hb h (hhead f hf hl hsg r)
  have hstop : ∀ (sep : List Char) (r : List Char), (sep = [','] ∨ (sep ≠ [] ∧ ∀ c ∈ sep, Blank c)) →
      ∀ c, (sep ++ r).head? = some c → ¬ Digit c ∧ c ∉ ['.', 'e', 'E', 'd', 'D', 'x', 'X'] := by
    intro sep r hsep c hc
    rcases hsep with h | ⟨h, hb⟩
    · subst h; simp at hc; subst hc; decide
    · rw [head?_append_ne _ _ h] at hc
      rcases hb c (List.mem_of_mem_head? hc) with h' | h' <;> subst h' <;> decide
  have e1 := hsepLen sep1 fm (sep2 ++ (fs.text ++ rest)) hm hml hmp h1
  have e2 := hsepLen sep2 fs rest hs hsl hsp h2
  have c1 := C05_dfltin_decodes pre fd (sep1 ++ (fm.text ++ (sep2 ++ (fs.text ++ rest)))) (.fin false 0) hd
    (hstop _ _ h1) nd (by rw [e1]; exact ld)
  have c2 := C05_dfltin_decodes (pre ++ fd.text ++ sep1) fm (sep2 ++ (fs.text ++ rest)) (.fin false 0) hm
    (hstop _ _ h2) nm (by rw [e2]; exact lm)
  have c3 := C05_dfltin_decodes (pre ++ fd.text ++ sep1 ++ fm.text ++ sep2) fs rest (.fin false 0) hs hr ns ls
  simp only [List.append_assoc] at c1 c2 c3 ⊢
  rw [e1] at c1
  rw [e2] at c2
  unfold palDafin
  simp only [c1, Option.bind_eq_bind, Option.bind_some]
  have p2 : (pre ++ fd.text).length + sep1.length + 1 = (pre ++ (fd.text ++ sep1)).length + 1 := by simp; omega
  have p3 : (pre ++ (fd.text ++ (sep1 ++ fm.text))).length + sep2.length + 1 =
      (pre ++ (fd.text ++ (sep1 ++ (fm.text ++ sep2)))).length + 1 := by simp; omega
  rw [p2, c2]
  have s0 : signStatus Sgn.none = 0 := rfl
  have hd1 : ¬ signStatus fd.sgn > 1 := by unfold signStatus; split <;> decide
  have hdn : ¬ signStatus fd.sgn > 0 := by unfold signStatus; split <;> decide
  simp only [hd1, if_false, Option.bind_some, hmp, s0, hsp] at *
  rw [p3, c3]
  have hst : dafinStatus (signStatus fd.sgn) (.fin (decide (fd.sgn = .minus)) fd.mag) 0 (.fin (decide (Sgn.none = .minus)) fm.mag) 0 (.fin (decide (Sgn.none = .minus)) fs.mag) = 0 := by
    unfold dafinStatus
    simp only [DVal.integral, DVal.ge60, id, im]
    have a1 : ¬ (60 ≤ fm.mag) := not_le.2 rm
    have a2 : ¬ (60 ≤ fs.mag) := not_le.2 rs
    simp [hdn, a1, a2]
  simp only [gt_iff_lt, Int.reduceLT, or_self, if_false, Option.bind_some, hst, le_refl, if_true]
  congr 1
  have hsgn : (if signStatus fd.sgn < 0 then (-(das2r * (60 * (60 * fd.mag + fm.mag) + fs.mag))) else das2r * (60 * (60 * fd.mag + fm.mag) + fs.mag)) =
      (if fd.sgn = .minus then -1 else 1) * (fd.mag * 3600 + fm.mag * 60 + fs.mag) * das2r := by
    unfold signStatus
    by_cases h : fd.sgn = .minus
    · simp only [h, if_true]; norm_num; ring
    · simp only [h, if_false]; norm_num; ring
  simp only [dafinAngle]
  rw [← hsgn]
  simp

/-- The outcome of one field: absent (status 1), given without error (0 or -1), or in error. -/
abbrev absent (o : DfltinOut) : Prop := o.jflag = 1

/-- **C07** (decision table) For every string and position: palDafin is defined; with the three fields decoded by palDfltin
(`d`,`m`,`s`, where `m` starts where `d` stopped and so on)
* status 1 and an unchanged angle are reported exactly if all three fields are absent (and no earlier field is in error);
* status 0 is reported exactly for degrees alone, degrees and arcminutes, or all three, with arcminutes and arcseconds
  unsigned and below 60 and every field but the last one present integral;
* any other case is reported as -1, -2 or -3, and then as for status 0 the angle is computed. -/
theorem C07_dafin_table (das2r : ℚ) (string : List Char) (ipos : Nat) (olda : Option ℚ)
    (h1 : 1 ≤ ipos) (h2 : ipos ≤ string.length + 1) :
    ∃ d m s o, palDfltin string ipos (.fin false 0) = some d ∧
      palDfltin string d.nstrt (.fin false 0) = some m ∧ palDfltin string m.nstrt (.fin false 0) = some s ∧
      palDafin das2r string ipos olda = some o ∧
      o.j ∈ [-3, -2, -1, 0, 1] ∧
      (o.j = 1 ↔ absent d ∧ absent m ∧ absent s) ∧ (o.j = 1 → o.a = olda) ∧
      (o.j = 0 ↔ (d.jflag = 0 ∨ d.jflag = -1) ∧
        ((absent m ∧ absent s) ∨
         (m.jflag = 0 ∧ absent s ∧ d.dreslt.integral = true ∧ m.dreslt.ge60 = false) ∨
         (m.jflag = 0 ∧ s.jflag = 0 ∧ d.dreslt.integral = true ∧ m.dreslt.integral = true ∧
            m.dreslt.ge60 = false ∧ s.dreslt.ge60 = false))) ∧
      (o.j = 0 → o.a = dafinAngle das2r d.jflag d.dreslt m.dreslt s.dreslt) := by
  obtain ⟨d, hd, hdj, hdl, hdu, _, hd1⟩ := C69_dfltin_frame string ipos (.fin false 0) h1 h2
  obtain ⟨m, hm, hmj, hml, hmu, _, hm1⟩ := C69_dfltin_frame string d.nstrt (.fin false 0) (by omega) hdu
  obtain ⟨s, hs, hsj, hsl, hsu, _, hs1⟩ := C69_dfltin_frame string m.nstrt (.fin false 0) (by omega) hmu
  refine ⟨d, m, s, ?_⟩
  have z60 : (DVal.fin false 0).ge60 = false := by decide +kernel
  have zint : (DVal.fin false 0).integral = true := by decide +kernel
  have hunf : palDafin das2r string ipos olda = some
      (if d.jflag > 1 then ⟨d.nstrt, dafinAngle das2r d.jflag d.dreslt (.fin false 0) (.fin false 0), -1⟩
       else if m.jflag < 0 ∨ m.jflag > 1 then
         ⟨m.nstrt, dafinAngle das2r d.jflag d.dreslt m.dreslt (.fin false 0), -2⟩
       else ⟨s.nstrt, if dafinStatus d.jflag d.dreslt m.jflag m.dreslt s.jflag s.dreslt ≤ 0 then
           dafinAngle das2r d.jflag d.dreslt m.dreslt s.dreslt else olda,
           dafinStatus d.jflag d.dreslt m.jflag m.dreslt s.jflag s.dreslt⟩) := by
    unfold palDafin
    simp only [hd, Option.bind_eq_bind, Option.bind_some, hm, hs]
    split
    · rfl
    · split <;> rfl
  refine ⟨_, hd, hm, hs, hunf, ?_⟩
  simp only [List.mem_cons, List.not_mem_nil, or_false] at hdj hmj hsj
  unfold absent
  have hb : ∀ b : Bool, b = false ↔ ¬ b = true := by decide
  by_cases hj : d.jflag > 1
  · rw [if_pos hj]; simp; omega
  rw [if_neg hj]
  by_cases hjm : m.jflag < 0 ∨ m.jflag > 1
  · rw [if_pos hjm]; simp; omega
  rw [if_neg hjm]
  simp only
  have hmd : m.jflag = 1 → m.dreslt = .fin false 0 := hm1
  have hsd : s.jflag = 1 → s.dreslt = .fin false 0 := hs1
  clear hunf hd hm hs
  have hmd1 : m.jflag = 1 → m.dreslt.integral = true := fun h => by rw [hmd h]; exact zint
  have hmd2 : m.jflag = 1 → m.dreslt.ge60 = false := fun h => by rw [hmd h]; exact z60
  have hsd2 : s.jflag = 1 → s.dreslt.ge60 = false := fun h => by rw [hsd h]; exact z60
  simp only [dafinStatus]
  generalize dafinAngle das2r d.jflag d.dreslt m.dreslt s.dreslt = A
  clear hmd hsd hd1 hm1 hs1
  obtain ⟨di, hdi⟩ : ∃ b, d.dreslt.integral = b := ⟨_, rfl⟩
  obtain ⟨mi, hmi⟩ : ∃ b, m.dreslt.integral = b := ⟨_, rfl⟩
  obtain ⟨mg, hmg⟩ : ∃ b, m.dreslt.ge60 = b := ⟨_, rfl⟩
  obtain ⟨sg, hsg⟩ : ∃ b, s.dreslt.ge60 = b := ⟨_, rfl⟩
  have hj3 : d.jflag = -1 ∨ d.jflag = 0 ∨ d.jflag = 1 := by omega
  have hm3 : m.jflag = 0 ∨ m.jflag = 1 := by omega
  rcases hj3 with e1 | e1 | e1 <;> rcases hm3 with e2 | e2 <;> rcases hsj with e3 | e3 | e3 | e3 <;>
    simp only [e1, e2, e3, hdi, hmi, hmg, hsg] at hmd1 hmd2 hsd2 ⊢ <;>
    clear hdi hmi hmg hsg <;>
    cases di <;> cases mi <;> cases mg <;> cases sg <;> simp at hmd1 hmd2 hsd2 ⊢

example : palDafin 1 "-57 17 44.806  12 34 56.7".toList 1 none =
    some { ipos := 16, a := some (-103132403 / 500), j := 0 } := by decide +kernel
example : (palDafin 1 "57 60".toList 1 none).map (·.j) = some (-2) := by decide +kernel
example : palDafin 1 "".toList 1 (some 5) = some { ipos := 1, a := some 5, j := 1 } := by decide +kernel

/-- A decoded field holds a whole number (an infinity counts as whole, as in C). -/
def Whole : DVal → Prop
  | .fin _ q => ∃ n : ℤ, q = n
  | .inf _ => True
  | .nan => False

/-- A decoded field is at least 60. -/
def AtLeast60 : DVal → Prop
  | .fin neg q => 60 ≤ (if neg then -q else q)
  | .inf neg => neg = false
  | .nan => False

lemma whole_iff (v : DVal) : Whole v ↔ v.integral = true := by
  cases v with
  | fin n q =>
    simp only [Whole, DVal.integral, decide_eq_true_eq]
    constructor
    · rintro ⟨k, rfl⟩; rfl
    · intro h; exact ⟨q.num, ((Rat.den_eq_one_iff q).1 h).symm⟩
  | inf n => simp [Whole, DVal.integral]
  | nan => simp [Whole, DVal.integral]

lemma atLeast60_iff (v : DVal) : AtLeast60 v ↔ v.ge60 = true := by
  cases v <;> simp [AtLeast60, DVal.ge60]

set_option maxHeartbeats 2000000 in
/-- **C07** (which field is blamed) Exactly when -1 and -2 are reported (-3 is every remaining failure, by
`C07_dafin_table`): an unreadable field is blamed first, in the order degrees, arcminutes, arcseconds, where a sign makes
arcminutes or arcseconds unreadable; then a field whose larger neighbour is missing; then the first field, among
degrees, arcminutes, arcseconds, that should be whole and is not or is not below 60.  In all of these cases, as for
status 0, the angle is computed from the fields read so far, with the missing ones counted as zero. -/
theorem C07_dafin_fault (das2r : ℚ) (string : List Char) (ipos : Nat) (olda : Option ℚ)
    (h1 : 1 ≤ ipos) (h2 : ipos ≤ string.length + 1) :
    ∃ d m s o, palDfltin string ipos (.fin false 0) = some d ∧
      palDfltin string d.nstrt (.fin false 0) = some m ∧ palDfltin string m.nstrt (.fin false 0) = some s ∧
      palDafin das2r string ipos olda = some o ∧
      (o.j = -1 ↔ d.jflag = 2 ∨
        ((d.jflag = 0 ∨ d.jflag = -1) ∧ m.jflag = 0 ∧ (s.jflag = 0 ∨ s.jflag = 1) ∧ ¬ Whole d.dreslt)) ∧
      (o.j = -2 ↔ d.jflag ≠ 2 ∧
        (m.jflag = -1 ∨ m.jflag = 2 ∨
         (m.jflag = 0 ∧ (s.jflag = 0 ∨ s.jflag = 1) ∧
           (d.jflag = 1 ∨ (Whole d.dreslt ∧ ((s.jflag = 0 ∧ ¬ Whole m.dreslt) ∨ AtLeast60 m.dreslt)))))) ∧
      (o.j = -3 ↔ d.jflag ≠ 2 ∧
        ((m.jflag = 0 ∨ m.jflag = 1) ∧
          (s.jflag = -1 ∨ s.jflag = 2 ∨ (m.jflag = 1 ∧ s.jflag = 0) ∨
           ((d.jflag = 0 ∨ d.jflag = -1) ∧ m.jflag = 0 ∧ s.jflag = 0 ∧ Whole d.dreslt ∧ Whole m.dreslt ∧
             ¬ AtLeast60 m.dreslt ∧ AtLeast60 s.dreslt)))) ∧
      (o.j ≤ 0 → ∀ nd D nm M ns S, d.dreslt = .fin nd D →
        (if d.jflag = 2 then DVal.fin false 0 else m.dreslt) = .fin nm M →
        (if d.jflag = 2 ∨ m.jflag = -1 ∨ m.jflag = 2 then DVal.fin false 0 else s.dreslt) = .fin ns S →
        o.a = some ((if d.jflag = -1 then -1 else 1) *
          (3600 * D + 60 * (if nm then -M else M) + (if ns then -S else S)) * das2r)) ∧
      o.ipos = if d.jflag = 2 then d.nstrt else if m.jflag = -1 ∨ m.jflag = 2 then m.nstrt else s.nstrt := by
  obtain ⟨d, hd, hdj, hdl, hdu, _, hd1⟩ := C69_dfltin_frame string ipos (.fin false 0) h1 h2
  obtain ⟨m, hm, hmj, hml, hmu, _, hm1⟩ := C69_dfltin_frame string d.nstrt (.fin false 0) (by omega) hdu
  obtain ⟨s, hs, hsj, hsl, hsu, _, hs1⟩ := C69_dfltin_frame string m.nstrt (.fin false 0) (by omega) hmu
  refine ⟨d, m, s, ?_⟩
  have z60 : (DVal.fin false 0).ge60 = false := by decide +kernel
  have zint : (DVal.fin false 0).integral = true := by decide +kernel
  have hunf : palDafin das2r string ipos olda = some
      (if d.jflag > 1 then ⟨d.nstrt, dafinAngle das2r d.jflag d.dreslt (.fin false 0) (.fin false 0), -1⟩
       else if m.jflag < 0 ∨ m.jflag > 1 then
         ⟨m.nstrt, dafinAngle das2r d.jflag d.dreslt m.dreslt (.fin false 0), -2⟩
       else ⟨s.nstrt, if dafinStatus d.jflag d.dreslt m.jflag m.dreslt s.jflag s.dreslt ≤ 0 then
           dafinAngle das2r d.jflag d.dreslt m.dreslt s.dreslt else olda,
           dafinStatus d.jflag d.dreslt m.jflag m.dreslt s.jflag s.dreslt⟩) := by
    unfold palDafin
    simp only [hd, Option.bind_eq_bind, Option.bind_some, hm, hs]
    split
    · rfl
    · split <;> rfl
  refine ⟨_, hd, hm, hs, hunf, ?_⟩
  simp only [List.mem_cons, List.not_mem_nil, or_false] at hdj hmj hsj
  simp only [whole_iff, atLeast60_iff]
  have hang : ∀ nd D nm M ns S, dafinAngle das2r d.jflag (.fin nd D) (.fin nm M) (.fin ns S) =
      some ((if d.jflag = -1 then -1 else 1) *
          (3600 * D + 60 * (if nm then -M else M) + (if ns then -S else S)) * das2r) := by
    intro nd D nm M ns S
    simp only [dafinAngle]
    have : (d.jflag < 0) ↔ d.jflag = -1 := by omega
    simp only [this]
    congr 1
    generalize (if nm then -M else M) = M'
    generalize (if ns then -S else S) = S'
    split <;> ring
  by_cases hj : d.jflag > 1
  · have e : d.jflag = 2 := by omega
    rw [if_pos hj]
    refine ⟨by simp [e], by simp [e], by simp [e], ?_, by simp [e]⟩
    intro _ nd D nm M ns S a1 a2 a3
    rw [if_pos e] at a2
    rw [if_pos (Or.inl e)] at a3
    cases a2; cases a3
    simp only [a1]
    exact hang _ _ _ _ _ _
  rw [if_neg hj]
  have e2 : d.jflag ≠ 2 := by omega
  by_cases hjm : m.jflag < 0 ∨ m.jflag > 1
  · rw [if_pos hjm]
    have em : m.jflag = -1 ∨ m.jflag = 2 := by omega
    have en : m.jflag ≠ 0 ∧ m.jflag ≠ 1 := by omega
    refine ⟨by simp [e2, en.1], ?_, by simp [en.1, en.2], ?_, by simp [e2, em]⟩
    · simp only [true_iff]
      refine ⟨e2, ?_⟩
      rcases em with h | h
      · exact Or.inl h
      · exact Or.inr (Or.inl h)
    intro _ nd D nm M ns S a1 a2 a3
    rw [if_neg e2] at a2
    rw [if_pos (Or.inr em)] at a3
    simp only [a1, a2, a3]
    exact hang _ _ _ _ _ _
  rw [if_neg hjm]
  simp only
  have em : ¬ (m.jflag = -1 ∨ m.jflag = 2) := by omega
  have hA : ∀ nd D nm M ns S, d.dreslt = .fin nd D →
        (if d.jflag = 2 then DVal.fin false 0 else m.dreslt) = .fin nm M →
        (if d.jflag = 2 ∨ m.jflag = -1 ∨ m.jflag = 2 then DVal.fin false 0 else s.dreslt) = .fin ns S →
        dafinAngle das2r d.jflag d.dreslt m.dreslt s.dreslt = some ((if d.jflag = -1 then -1 else 1) *
          (3600 * D + 60 * (if nm then -M else M) + (if ns then -S else S)) * das2r) := by
    intro nd D nm M ns S a1 a2 a3
    rw [if_neg e2] at a2
    rw [if_neg (not_or.2 ⟨e2, em⟩)] at a3
    rw [a1, a2, a3]
    exact hang _ _ _ _ _ _
  rw [← and_assoc, ← and_assoc, ← and_assoc]
  refine ⟨⟨?_, ?_⟩, by rw [if_neg e2, if_neg em]⟩
  swap
  · intro hle nd D nm M ns S a1 a2 a3
    rw [if_pos hle]
    exact hA _ _ _ _ _ _ a1 a2 a3
  rw [and_assoc]
  have hmd : m.jflag = 1 → m.dreslt = .fin false 0 := hm1
  have hsd : s.jflag = 1 → s.dreslt = .fin false 0 := hs1
  clear hunf hd hm hs hA hang
  have hmd1 : m.jflag = 1 → m.dreslt.integral = true := fun h => by rw [hmd h]; exact zint
  have hmd2 : m.jflag = 1 → m.dreslt.ge60 = false := fun h => by rw [hmd h]; exact z60
  have hsd2 : s.jflag = 1 → s.dreslt.ge60 = false := fun h => by rw [hsd h]; exact z60
  simp only [dafinStatus]
  clear hmd hsd hd1 hm1 hs1
  obtain ⟨di, hdi⟩ : ∃ b, d.dreslt.integral = b := ⟨_, rfl⟩
  obtain ⟨mi, hmi⟩ : ∃ b, m.dreslt.integral = b := ⟨_, rfl⟩
  obtain ⟨mg, hmg⟩ : ∃ b, m.dreslt.ge60 = b := ⟨_, rfl⟩
  obtain ⟨sg, hsg⟩ : ∃ b, s.dreslt.ge60 = b := ⟨_, rfl⟩
  have hj3 : d.jflag = -1 ∨ d.jflag = 0 ∨ d.jflag = 1 := by omega
  have hm3 : m.jflag = 0 ∨ m.jflag = 1 := by omega
  rcases hj3 with e1 | e1 | e1 <;> rcases hm3 with e2 | e2 <;> rcases hsj with e3 | e3 | e3 | e3 <;>
    simp only [e1, e2, e3, hdi, hmi, hmg, hsg] at hmd1 hmd2 hsd2 ⊢ <;>
    clear hdi hmi hmg hsg <;>
    cases di <;> cases mi <;> cases mg <;> cases sg <;> simp at hmd1 hmd2 hsd2 ⊢

/-- The field blamed is not always the first one at fault: here the degrees should be whole, but the signed arcseconds are
reported; without the sign the degrees are. -/
theorem C07_not_first_fault :
    (palDafin 1 "1.5 2 -3".toList 1 none).map (·.j) = some (-3) ∧
      (palDafin 1 "1.5 2 3".toList 1 none).map (·.j) = some (-1) := by decide +kernel

example : palDafin 1 "1.5 2 3".toList 1 none = some { ipos := 8, a := some 5523, j := -1 } := by decide +kernel
example : palDafin 1 "-1 -2 3".toList 1 none = some { ipos := 7, a := some (-3480), j := -2 } := by decide +kernel
example : palDafin 1 "1 2 60".toList 1 none = some { ipos := 7, a := some 3780, j := -3 } := by decide +kernel

end Pal.Props
