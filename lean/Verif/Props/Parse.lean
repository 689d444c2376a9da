import Verif.Lemmas.Parse

/-!
# Properties C01–C04 of palIntin
-/

namespace Pal.Props
open Pal Pal.Spec

/-- **C01** Every decimal integer field whose value fits a C `int` is decoded exactly, with status -1 iff a
minus sign was written (so also for "-0"), and the position moves past the number and its delimiter. -/
theorem C01_intin_decodes (pre ws : List Char) (s : Sgn) (ds rest : List Char) (old : Int)
    (hws : ∀ c ∈ ws, White c) (h0 : ds ≠ []) (hd : ∀ c ∈ ds, Digit c)
    (hr : ∀ c, rest.head? = some c → ¬ Digit c)
    (hlo : -2 ^ 31 ≤ s.app (decVal ds)) (hhi : s.app (decVal ds) < 2 ^ 31) :
    palIntin (pre ++ (ws ++ (s.text ++ (ds ++ rest)))) (pre.length + 1) old =
      some { ireslt := s.app (decVal ds),
             jflag := signStatus s,
             nstrt := (pre ++ ws ++ s.text ++ ds).length + sepLen rest + 1 } := by
  rw [palIntin_at, intinCore_field ws s ds rest hws h0 hd hr hlo hhi]
  have : signStatus s ≠ 1 := by unfold signStatus; split <;> decide
  simp only [this, ne_eq, not_false_eq_true, if_true, List.length_append]
  congr 2; omega

example : palIntin "ab  -0012,x".toList 3 99 = some { ireslt := -12, jflag := -1, nstrt := 11 } := by
  have := C01_intin_decodes ['a','b'] [' ',' '] .minus ['0','0','1','2'] [',','x'] 99
    (by intro c hc; simp at hc; subst hc; left; rfl) (by simp) (by decide) (by simp [Digit])
    (by decide) (by decide)
  exact this

/-- Successive calls of palIntin on one string, feeding back position and result. -/
def intinCalls (string : List Char) : Nat → Nat → Int → Option (List (Int × Int) × Nat)
  | 0, nstrt, _ => some ([], nstrt)
  | k + 1, nstrt, old =>
    match palIntin string nstrt old with
    | none => none
    | some o => (intinCalls string k o.nstrt o.ireslt).map fun r => ((o.jflag, o.ireslt) :: r.1, r.2)

private theorem field_rest (f : IntField) (r : List Char) (old : Int) (pre : List Char)
    (hl : ∀ c ∈ f.lead, White c) (h0 : f.digits ≠ []) (hd : ∀ c ∈ f.digits, Digit c)
    (hr : ∀ c, (f.sep ++ r).head? = some c → ¬ Digit c)
    (hlo : -2 ^ 31 ≤ f.value) (hhi : f.value < 2 ^ 31) :
    palIntin (pre ++ (f.text ++ r)) (pre.length + 1) old =
      some { ireslt := f.value, jflag := signStatus f.sgn,
             nstrt := (pre ++ f.lead ++ f.sgn.text ++ f.digits).length + sepLen (f.sep ++ r) + 1 } := by
  have := C01_intin_decodes pre f.lead f.sgn f.digits (f.sep ++ r) old hl h0 hd hr hlo hhi
  simpa [IntField.text, IntField.value, List.append_assoc] using this

private theorem calls_aux : ∀ (fs : List IntField) (f : IntField) (pre : List Char) (old : Int), ListOk (f :: fs) →
    intinCalls (pre ++ listText (f :: fs)) (fs.length + 1) (pre.length + 1) old =
      some ((f :: fs).map (fun g => (signStatus g.sgn, g.value)), (pre ++ listText (f :: fs)).length + 1) := by
  intro fs
  induction fs with
  | nil =>
    intro f pre old h
    have hsep : (f.sep = [] ∨ f.sep = [','] ∨ (f.sep ≠ [] ∧ ∀ c ∈ f.sep, Blank c)) ∧ (∀ c ∈ f.lead, White c) ∧
        f.digits ≠ [] ∧ (∀ c ∈ f.digits, Digit c) ∧ -2 ^ 31 ≤ f.value ∧ f.value < 2 ^ 31 := by
      rcases h with h | ⟨h, hs⟩
      · exact ⟨Or.inr h.2.2.2.1, h.1, h.2.1, h.2.2.1, h.2.2.2.2⟩
      · exact ⟨Or.inl hs, h.1, h.2.1, h.2.2.1, h.2.2.2.2⟩
    obtain ⟨hs, hl, h0, hd, hlo, hhi⟩ := hsep
    have hnd : ∀ c, (f.sep ++ []).head? = some c → ¬ Digit c := by
      intro c hc
      rcases hs with hs | hs | ⟨hs, hb⟩
      · simp [hs] at hc
      · simp [hs] at hc; subst hc; decide
      · rw [List.append_nil] at hc
        have := (blank_props (hb c (List.mem_of_mem_head? hc))).2.1
        intro hdg; rw [(isDigit_iff c).2 hdg] at this; exact absurd this (by decide)
    have hsl : sepLen (f.sep ++ []) = f.sep.length := by
      rcases hs with hs | hs | ⟨hs, hb⟩
      · simp [hs, sepLen]
      · rw [hs]; simp [sepLen]
      · exact sepLen_blanks _ _ hb hs (by simp)
    have key := field_rest f [] old pre hl h0 hd hnd hlo hhi
    have e : listText [f] = f.text ++ [] := by simp [listText]
    simp only [List.length_nil, intinCalls, e, key, hsl, Option.map_some]
    simp [IntField.text]; omega
  | cons g fs ih =>
    intro f pre old h
    obtain ⟨hf, hg⟩ := h
    obtain ⟨hl, h0, hd, hs, hlo, hhi⟩ := hf
    -- facts on the next field
    have hgl : (∀ c ∈ g.lead, White c) ∧ g.digits ≠ [] ∧ (∀ c ∈ g.digits, Digit c) := by
      cases fs with
      | nil => rcases hg with hg | ⟨hg, _⟩ <;> exact ⟨hg.1, hg.2.1, hg.2.2.1⟩
      | cons _ _ => exact ⟨hg.1.1, hg.1.2.1, hg.1.2.2.1⟩
    have e : listText (f :: g :: fs) = f.text ++ listText (g :: fs) := by simp [listText]
    have eg : ∀ g' : IntField, listText (g' :: fs) = g'.lead ++ (g'.sgn.text ++ g'.digits ++ g'.sep ++ listText fs) := by
      intro g'; simp [listText, IntField.text]
    have hnd : ∀ c, (f.sep ++ listText (g :: fs)).head? = some c → ¬ Digit c := by
      intro c hc
      rcases hs with hs | ⟨hs, hb⟩
      · simp [hs] at hc; subst hc; decide
      · rw [head?_append_ne _ _ hs] at hc
        have := (blank_props (hb c (List.mem_of_mem_head? hc))).2.1
        intro hdg; rw [(isDigit_iff c).2 hdg] at this; exact absurd this (by decide)
    have key := field_rest f (listText (g :: fs)) old pre hl h0 hd hnd hlo hhi
    -- the next field with the blanks already skipped
    obtain ⟨g', hg', hgt, hgv, hgs⟩ : ∃ g' : IntField, ListOk (g' :: fs) ∧
        (pre ++ f.lead ++ f.sgn.text ++ f.digits).length + sepLen (f.sep ++ listText (g :: fs)) + (listText (g' :: fs)).length =
          (pre ++ (f.text ++ listText (g :: fs))).length ∧
        g'.value = g.value ∧ g'.sgn = g.sgn ∧ (∃ p, g.lead = p ++ g'.lead) ∧
        g'.digits = g.digits ∧ g'.sep = g.sep := by
      rcases hs with hs | ⟨hs, hb⟩
      · refine ⟨g, hg, ?_, rfl, rfl, ⟨[], rfl⟩, rfl, rfl⟩
        simp [hs, sepLen, IntField.text]; omega
      · refine ⟨{ g with lead := g.lead.dropWhile isBlank }, ?_, ?_, rfl, rfl, ?_, rfl, rfl⟩
        · have hd' : ∀ c ∈ g.lead.dropWhile isBlank, White c := fun c hc => hgl.1 c (List.dropWhile_subset _ hc)
          cases fs with
          | nil =>
            rcases hg with hg | ⟨hg, hse⟩
            · exact Or.inl ⟨hd', hg.2⟩
            · exact Or.inr ⟨⟨hd', hg.2⟩, hse⟩
          | cons _ _ => exact ⟨⟨hd', hg.1.2⟩, hg.2⟩
        · have hsl : sepLen (f.sep ++ listText (g :: fs)) = f.sep.length + (g.lead.takeWhile isBlank).length := by
            rw [eg g]
            conv_lhs => rw [← List.takeWhile_append_dropWhile (p := isBlank) (l := g.lead)]
            rw [List.append_assoc, ← List.append_assoc f.sep]
            rw [sepLen_blanks (f.sep ++ g.lead.takeWhile isBlank)]
            · simp
            · intro c hc
              rcases List.mem_append.1 hc with hc | hc
              · exact hb c hc
              · exact (isBlank_iff c).1 (List.mem_takeWhile_imp hc)
            · simp [hs]
            · intro c hc
              by_cases hdw : g.lead.dropWhile isBlank = []
              · rw [hdw, List.nil_append] at hc
                have hns : isSpace c = false := by
                  have := sgn_text_not_space g.sgn g.digits hgl.2.1 (fun c hc => (isDigit_iff c).2 (hgl.2.2 c hc)) (g.sep ++ listText fs) c
                  apply this; simpa [List.append_assoc] using hc
                by_contra hbl
                have hbl' : isBlank c = true := by simpa using hbl
                rcases (isBlank_iff c).1 hbl' with h | h <;> subst h <;> revert hns <;> decide
              · rw [head?_append_ne _ _ hdw] at hc
                have := List.head?_dropWhile_not isBlank g.lead
                rw [hc] at this; simpa using this
          rw [hsl, eg, eg g]
          have := congrArg List.length (List.takeWhile_append_dropWhile (p := isBlank) (l := g.lead))
          simp only [List.length_append] at this
          simp only [IntField.text, List.length_append]; omega
        · exact ⟨_, (List.takeWhile_append_dropWhile ..).symm⟩
    obtain ⟨hgsgn, ⟨p, hp⟩, hgd, hgsep⟩ := hgs
    -- split the string at the new position
    obtain ⟨pre', hpre⟩ : ∃ pre', pre ++ (f.text ++ listText (g :: fs)) = pre' ++ listText (g' :: fs) := by
      refine ⟨pre ++ f.text ++ p, ?_⟩
      rw [eg g, eg g', hp, hgsgn, hgd, hgsep]; simp [List.append_assoc]
    have hlen : pre'.length = (pre ++ f.lead ++ f.sgn.text ++ f.digits).length + sepLen (f.sep ++ listText (g :: fs)) := by
      rw [hpre, List.length_append (as := pre')] at hgt; omega
    have step := ih g' pre' f.value hg'
    rw [e, List.length_cons, intinCalls, key]
    simp only
    rw [hpre, ← hlen]
    rw [step]
    simp [hgv, hgsgn]

/-- **C02** On a string of integers separated by commas or blanks, as many calls as there are fields deliver
exactly the integers in order, leaving the position at the end of the string; every further call reports
"nothing found" (jflag 1), and changes neither result nor position. -/
theorem C02_intin_list (fs : List IntField) (h : ListOk fs) (old : Int) :
    intinCalls (listText fs) fs.length 1 old =
      some (fs.map (fun f => (signStatus f.sgn, f.value)), (listText fs).length + 1) ∧
    ∀ old', palIntin (listText fs) ((listText fs).length + 1) old' =
      some { nstrt := (listText fs).length + 1, ireslt := old', jflag := 1 } := by
  constructor
  · cases fs with
    | nil => rfl
    | cons f fs =>
      have := calls_aux fs f [] old h
      simpa using this
  · intro old'
    have := palIntin_at (listText fs) [] old'
    rw [List.append_nil] at this
    rw [this]; rfl

example : intinCalls "12, -7  +03".toList 3 1 0 = some ([(0, 12), (-1, -7), (0, 3)], 12) := by
  have := (C02_intin_list
    [⟨[], .none, ['1','2'], [',']⟩, ⟨[' '], .minus, ['7'], [' ',' ']⟩, ⟨[], .plus, ['0','3'], []⟩]
    ⟨⟨by simp, by simp, by decide, Or.inl rfl, by decide, by decide⟩,
     ⟨by simp [White], by simp, by decide, Or.inr ⟨by simp, by simp [Blank]⟩, by decide, by decide⟩,
     Or.inr ⟨⟨by simp, by simp, by decide, Or.inl rfl, by decide, by decide⟩, rfl⟩⟩ 0).1
  exact this

/-- **C03** (refuted) Values of 2^31 and more that still fit a 64-bit long are *never* reported as out of range:
for every such digit string the status is 0 or -1 and the value delivered is wrong.  The documentation of
palIntin promises jflag 2. -/
theorem C03_intin_overflow_not_reported (ds rest : List Char) (old : Int)
    (h0 : ds ≠ []) (hd : ∀ c ∈ ds, Digit c) (hr : ∀ c, rest.head? = some c → ¬ Digit c)
    (hlo : 2 ^ 31 ≤ decVal ds) (hhi : decVal ds < 2 ^ 63) :
    ∃ o, palIntin (ds ++ rest) 1 old = some o ∧ (o.jflag = 0 ∨ o.jflag = -1) ∧ o.ireslt ≠ decVal ds := by
  have hst := strtol_plain ds rest h0 hd hr hhi
  have hat := palIntin_at [] (ds ++ rest) old
  simp only [List.nil_append, List.length_nil, Nat.zero_add] at hat
  have hj := intinCore_status (ds ++ rest)
    (by rw [hst]; exact Nat.ne_of_gt (List.length_pos_iff.2 h0)) (by rw [hst])
  have hj1 : (intinCore (ds ++ rest)).1 ≠ 1 := by rcases hj with h | h <;> rw [h] <;> decide
  obtain ⟨_, _, _, hv, _⟩ := intinCore_form (ds ++ rest)
  rw [hst] at hv
  dsimp only at hv
  refine ⟨_, hat, hj, ?_⟩
  dsimp only
  rw [if_pos hj1, hv]
  exact toInt32_ne _ hlo

example : palIntin "3000000000".toList 1 0 = some { nstrt := 11, ireslt := -1294967296, jflag := -1 } := by decide

/-- **C03** (partial) What does hold: values beyond a 64-bit long are reported with jflag 2.  Missing: values
between the `int` range and the `long` range (see `C03_intin_overflow_not_reported`). -/
theorem C03_intin_overflow_partial (ws : List Char) (s : Sgn) (ds rest : List Char) (old : Int)
    (hws : ∀ c ∈ ws, White c) (h0 : ds ≠ []) (hd : ∀ c ∈ ds, Digit c)
    (hr : ∀ c, rest.head? = some c → ¬ Digit c)
    (hbig : s.app (decVal ds) < -2 ^ 63 ∨ 2 ^ 63 ≤ s.app (decVal ds)) :
    ∃ o, palIntin (ws ++ (s.text ++ (ds ++ rest))) 1 old = some o ∧ o.jflag = 2 := by
  have hws' : ∀ c ∈ ws, isSpace c = true := fun c hc => (isSpace_iff c).2 (hws c hc)
  have hd' : ∀ c ∈ ds, isDigit c = true := fun c hc => (isDigit_iff c).2 (hd c hc)
  have hr' : ∀ c, rest.head? = some c → isDigit c = false := by
    intro c hc; by_contra h; exact hr c hc ((isDigit_iff c).1 (by simpa using h))
  have hlen : 0 < ds.length := List.length_pos_iff.2 h0
  have hst := strtol_field ws s ds rest hws' h0 hd' hr'
  have hat := palIntin_at [] (ws ++ (s.text ++ (ds ++ rest))) old
  simp only [List.nil_append, List.length_nil, Nat.zero_add] at hat
  refine ⟨_, hat, ?_⟩
  simp only [intinCore]
  rw [hst]
  by_cases hmax : LONG_MAX < s.app (decVal ds)
  · rw [if_pos hmax]; simp only; rw [if_neg (by omega)]; simp
  · have : s.app (decVal ds) < LONG_MIN := by unfold LONG_MAX LONG_MIN at *; omega
    rw [if_neg hmax, if_pos this]; simp only; rw [if_neg (by omega)]; simp

/-- The documented replacement values LONG_MAX / LONG_MIN are not delivered either: they are cut to 32 bits. -/
example : palIntin "99999999999999999999".toList 1 0 = some { nstrt := 21, ireslt := -1, jflag := 2 } := by decide

/-- **C04** For every string and every legal start position: palIntin is defined, the status is one of the four documented,
the new position is between the old one and one past the last character, it has strictly advanced when a number was reported,
and with status 1 the result is unchanged. -/
theorem C04_intin_frame (string : List Char) (nstrt : Nat) (old : Int)
    (h1 : 1 ≤ nstrt) (h2 : nstrt ≤ string.length + 1) :
    ∃ o, palIntin string nstrt old = some o ∧ o.jflag ∈ [-1, 0, 1, 2] ∧
      nstrt ≤ o.nstrt ∧ o.nstrt ≤ string.length + 1 ∧
      (o.jflag ≠ 1 → nstrt < o.nstrt) ∧ (o.jflag = 1 → o.ireslt = old) := by
  obtain ⟨pre, s, rfl, hp⟩ : ∃ pre s, string = pre ++ s ∧ pre.length + 1 = nstrt :=
    ⟨string.take (nstrt - 1), string.drop (nstrt - 1), (List.take_append_drop ..).symm, by
      rw [List.length_take]; omega⟩
  subst hp
  refine ⟨_, palIntin_at pre s old, ?_⟩
  obtain ⟨adv, ha, hle, hv, hcase⟩ := intinCore_form s
  have hdl := delimSkip_le (s.drop adv)
  rw [List.length_drop] at hdl
  refine ⟨?_, by simp, ?_, ?_, ?_⟩
  · rcases hcase with ⟨h, _⟩ | ⟨h, _⟩
    · simp [h]
    · simp only [List.mem_cons, List.not_mem_nil, or_false] at h ⊢; omega
  · simp only [ha, List.length_append]; omega
  · intro hj
    rcases hcase with ⟨h, _⟩ | ⟨_, hu, hnz⟩
    · exact absurd h hj
    · have : (strtol s).used ≠ 0 := by
        rcases hnz with h | h
        · intro h0; rw [strtol_zero_of_unused s h0] at h; exact h (by decide)
        · exact h
      simp only [ha]; omega
  · intro hj; simp only at hj; simp [hj]

example : palIntin "abc 12".toList 1 5 = some { nstrt := 5, ireslt := 5, jflag := 1 } := by decide

/-- **C04** (where the next field starts when there is no number) With status 1 palIntin steps over the run of blanks, letters and plus signs at the start position,
and then over one comma or the following blanks. -/
theorem C04_intin_nothing (pre junk rest : List Char) (old : Int) (hj : ∀ c ∈ junk, c ∈ [' ', '\t', '+'] ∨ Letter c)
    (hr : ∀ c, rest.head? = some c → c ∉ [' ', '\t', '+'] ∧ ¬ Letter c) (o : IntinOut)
    (h : palIntin (pre ++ (junk ++ rest)) (pre.length + 1) old = some o) (h1 : o.jflag = 1) :
    o = { nstrt := pre.length + junk.length + sepLen rest + 1, ireslt := old, jflag := 1 } := by
  rw [palIntin_at, Option.some.injEq] at h
  obtain ⟨adv, ha, -, -, hcase⟩ := intinCore_form (junk ++ rest)
  have hf : (intinCore (junk ++ rest)).1 = 1 := by rw [← h] at h1; exact h1
  have hsk : ∀ c, intinSkip c = true ↔ c ∈ [' ', '\t', '+'] ∨ Letter c := by
    intro c
    rw [← isAlpha_iff c]
    simp only [intinSkip, isBlank, Bool.or_eq_true, beq_iff_eq, List.mem_cons, List.not_mem_nil, or_false]
    tauto
  rcases hcase with ⟨-, hadv, -⟩ | ⟨hn, -⟩
  · rw [takeWhile_append_stop _ _ _ (fun a haj => (hsk a).2 (hj a haj)) (fun c hc => by
      rw [Bool.eq_false_iff]; intro hh
      rcases (hsk c).1 hh with h2 | h2
      · exact (hr c hc).1 h2
      · exact (hr c hc).2 h2)] at hadv
    subst hadv
    rw [List.drop_left, delimSkip_eq] at ha
    rw [← h, ha, hf]
    simp only [ne_eq, not_true_eq_false, if_false, IntinOut.mk.injEq, and_true]
    omega
  · rw [hf] at hn; simp at hn

example : palIntin "x +ab ,12".toList 2 7 = some { nstrt := 8, ireslt := 7, jflag := 1 } := by decide

/-- **C04** (when there is no number) After the white space there is neither a digit nor a sign followed by a digit: status 1. -/
theorem C04_intin_status_one (pre ws rest : List Char) (old : Int) (hw : ∀ c ∈ ws, White c)
    (hr : ∀ c, rest.head? = some c → ¬ White c ∧ ¬ Digit c ∧ c ≠ '+' ∧ c ≠ '-') :
    ∃ n, palIntin (pre ++ (ws ++ rest)) (pre.length + 1) old = some { nstrt := n, ireslt := old, jflag := 1 } := by
  rw [palIntin_at]
  have hu : (strtol (ws ++ rest)).used = 0 := strtol_unused ws rest hw hr
  have hf : (intinCore (ws ++ rest)).1 = 1 := by
    obtain ⟨adv, -, -, -, hcase⟩ := intinCore_form (ws ++ rest)
    rcases hcase with ⟨h, -⟩ | ⟨-, -, hn⟩
    · exact h
    · rcases hn with hn | hn
      · rw [strtol_zero_of_unused _ hu] at hn; exact absurd (by decide) hn
      · exact absurd hu hn
  rw [hf]
  refine ⟨pre.length + 1 + (intinCore (ws ++ rest)).2.2, ?_⟩
  simp only [ne_eq, not_true_eq_false, if_false]

example : (∀ c ∈ [' '], White c) ∧ ∀ c, ("abc".toList).head? = some c → ¬ White c ∧ ¬ Digit c ∧ c ≠ '+' ∧ c ≠ '-' := by
  constructor
  · intro c hc; simp at hc; subst hc; decide
  · intro c hc; simp at hc; subst hc; decide

end Pal.Props
