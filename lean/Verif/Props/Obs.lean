import Verif.Lemmas.Obs

/-!
# Properties C08–C11, C70 of palObs and palVers
-/

namespace Pal.Props
open Pal

/-- Caller's obligations: both sizes are non-zero and not larger than the arrays. -/
structure BuffersOk (st : ObsState) (identlen namelen : Nat) : Prop where
  id0 : identlen ≠ 0
  nm0 : namelen ≠ 0
  idl : identlen ≤ st.ident.length
  nml : namelen ≤ st.name.length

/-- Equality of identifiers ignoring ASCII case. -/
def SameId (a b : List Char) : Prop := a.map toLowerC = b.map toLowerC

/-- What a successful call delivers for table row `t`: numbers of the row, identifier and name as text cut to the
buffers, and nothing written beyond the buffers. -/
structure Delivered (t : TelData) (identlen namelen : Nat) (st st' : ObsState) : Prop where
  w : st'.w = t.w
  p : st'.p = t.p
  h : st'.h = t.h
  ident : cText st'.ident = t.shortname.take (identlen - 1)
  name : cText st'.name = t.longname.take (namelen - 1)
  identBeyond : st'.ident.length = st.ident.length ∧ st'.ident.drop identlen = st.ident.drop identlen
  nameBeyond : st'.name.length = st.name.length ∧ st'.name.drop namelen = st.name.drop namelen

/-- **C10** (copy) For every array, text and non-zero size within the array the bounded copy is defined, changes nothing at or beyond
`size`, and leaves the longest prefix of the text that fits together with its terminator. -/
theorem C10_bounded_copy (dest src : List Char) (size : Nat) (h0 : size ≠ 0) (hs : size ≤ dest.length)
    (hsrc : ∀ c ∈ src, c ≠ nul) :
    ∃ r, strellcpy dest src size = some r ∧ r.length = dest.length ∧ r.drop size = dest.drop size ∧
      cText r = src.take (size - 1) ∧ (cText r).length < size := by
  obtain ⟨r, h1, h2, h3, h4⟩ := strellcpy_spec dest src size h0 hs hsrc
  exact ⟨r, h1, h2, h3, h4, by rw [h4, List.length_take]; omega⟩

example : strellcpy "abcdefgh".toList "WXYZ".toList 3 = some ['W', 'X', nul, 'd', 'e', 'f', 'g', 'h'] := by decide

/-- **C10** (palVers) The version string is delivered cut to the buffer, and the version number does not depend on the buffer.
A zero-length buffer is undefined behaviour in the standard-C build. -/
theorem C10_vers (package : List Char) (ver : Int) (buf : List Char) (len : Nat)
    (hp : ∀ c ∈ package, c ≠ nul) (h0 : len ≠ 0) (hl : len ≤ buf.length) :
    ∃ r, palVers package ver (some buf) len = some (ver, some r) ∧ cText r = package.take (len - 1) ∧
      r.length = buf.length ∧ r.drop len = buf.drop len ∧
      palVers package ver none len = some (ver, none) ∧ palVers package ver (some buf) 0 = none := by
  obtain ⟨r, h1, h2, h3, h4⟩ := strellcpy_spec buf package len h0 hl hp
  exact ⟨r, by simp [palVers, h1], h4, h2, h3, rfl, by simp [palVers, strellcpy]⟩

example : (palVers "0.9.8".toList 9008 (some "zzzzzzzz".toList) 4).map (fun r => (r.1, r.2.map cText)) =
    some (9008, some "0.9".toList) := by decide

theorem telTable_noNul : ∀ t ∈ telTable, (∀ c ∈ t.shortname, c ≠ nul) ∧ ∀ c ∈ t.longname, c ≠ nul := by
  decide +kernel

private theorem assign_delivered (t : TelData) (ht : t ∈ telTable) (identlen namelen : Nat) (st : ObsState) (nm : List Char)
    (hb : BuffersOk st identlen namelen) (hnl : nm.length = st.name.length)
    (hnd : nm.drop namelen = st.name.drop namelen) :
    ∃ st', obsAssign t identlen namelen { st with name := nm } = some st' ∧ Delivered t identlen namelen st st' := by
  obtain ⟨hs, hl⟩ := telTable_noNul t ht
  obtain ⟨r, h1, h2, h3, h4⟩ := strellcpy_spec st.ident t.shortname identlen hb.id0 hb.idl hs
  obtain ⟨r', h1', h2', h3', h4'⟩ := strellcpy_spec nm t.longname namelen hb.nm0 (hnl ▸ hb.nml) hl
  refine ⟨_, by simp [obsAssign, h1, h1']; rfl, ⟨rfl, rfl, rfl, h4, h4', ⟨h2, h3⟩, ⟨by dsimp only; rw [h2', hnl], by dsimp only; rw [h3', hnd]⟩⟩⟩

private theorem prefill (identlen namelen : Nat) (st : ObsState) (hb : BuffersOk st identlen namelen) :
    ∃ nm, strellcpy st.name ['?'] namelen = some nm ∧ nm.length = st.name.length ∧
      nm.drop namelen = st.name.drop namelen ∧ cText nm = ['?'].take (namelen - 1) :=
  strellcpy_spec st.name ['?'] namelen hb.nm0 hb.nml (by decide)

/-- **C08** (by number) For every station number from 1 to the number of stations palObs succeeds and delivers that row. -/
theorem C08_obs_by_number (n : Nat) (c : Option (List Char)) (identlen namelen : Nat) (st : ObsState)
    (hb : BuffersOk st identlen namelen) (h1 : 1 ≤ n) (h2 : n ≤ telTable.length) :
    ∃ st', palObs n c identlen namelen st = some (0, st') ∧
      Delivered telTable[n - 1] identlen namelen st st' := by
  obtain ⟨nm, e1, e2, e3, _⟩ := prefill identlen namelen st hb
  obtain ⟨st', hs, hd⟩ := assign_delivered telTable[n - 1] (List.getElem_mem _) identlen namelen st nm hb e2 e3
  refine ⟨st', ?_, hd⟩
  unfold palObs palObsT
  simp only [e1, Option.bind_eq_bind, Option.bind_some]
  rw [if_pos (by omega), if_pos h2, List.getElem?_eq_getElem (by omega)]
  simp only [hs, Option.map_some]

/-- **C08** (by name) With n = 0 palObs succeeds exactly if some row's identifier equals the given string ignoring case, and it
then delivers the first such row. -/
theorem C08_obs_by_name (c : List Char) (identlen namelen : Nat) (st : ObsState)
    (hb : BuffersOk st identlen namelen) :
    (∀ i (hi : i < telTable.length), SameId c telTable[i].shortname →
        (∀ j (hj : j < i), ¬ SameId c telTable[j].shortname) →
        ∃ st', palObs 0 (some c) identlen namelen st = some (0, st') ∧
          Delivered telTable[i] identlen namelen st st') ∧
    ((∀ t ∈ telTable, ¬ SameId c t.shortname) →
        ∃ st', palObs 0 (some c) identlen namelen st = some (-1, st')) := by
  obtain ⟨nm, e1, e2, e3, _⟩ := prefill identlen namelen st hb
  constructor
  · intro i hi hsame hfirst
    obtain ⟨st', hs, hd⟩ := assign_delivered telTable[i] (List.getElem_mem _) identlen namelen st nm hb e2 e3
    refine ⟨st', ?_, hd⟩
    have hf : telTable.find? (fun t => strcaseeq c t.shortname) = some telTable[i] := by
      rw [List.find?_eq_some_iff_getElem]
      refine ⟨by simpa [strcaseeq, SameId] using hsame, i, hi, rfl, ?_⟩
      intro j hj
      have := hfirst j hj
      simpa [strcaseeq, SameId] using this
    unfold palObs palObsT
    simp only [e1, Option.bind_eq_bind, Option.bind_some]
    rw [if_neg (by omega)]
    simp only [hf, hs, Option.map_some]
  · intro hnone
    have hf : telTable.find? (fun t => strcaseeq c t.shortname) = none := by
      rw [List.find?_eq_none]
      intro t ht
      have := hnone t ht
      simpa [strcaseeq, SameId] using this
    refine ⟨{ st with name := nm }, ?_⟩
    · unfold palObs palObsT
      simp only [e1, Option.bind_eq_bind, Option.bind_some]
      rw [if_neg (by omega)]
      simp only [hf]

/-- **C11** Every row of the table is a geographic position (latitude within ±90°, longitude within ±180°, in arcseconds), its
texts fit the documented buffers of 11 and 41 bytes without being cut and contain no spaces in the identifier, and no two rows have the same identifier ignoring case. -/
theorem C11_table_valid :
    (∀ t ∈ telTable, |t.p| ≤ 324000 ∧ |t.w| ≤ 648000 ∧ t.shortname.length ≤ 10 ∧ t.longname.length ≤ 40 ∧
      t.shortname ≠ [] ∧ ' ' ∉ t.shortname) ∧
    telTable.Pairwise (fun a b => ¬ SameId a.shortname b.shortname) := by
  constructor
  · have h : ∀ t ∈ telTable, -324000 ≤ t.p ∧ t.p ≤ 324000 ∧ -648000 ≤ t.w ∧ t.w ≤ 648000 ∧ t.shortname.length ≤ 10 ∧ t.longname.length ≤ 40 ∧
      t.shortname ≠ [] ∧ ' ' ∉ t.shortname := by decide +kernel
    intro t ht
    obtain ⟨a, b, c, d, e⟩ := h t ht
    exact ⟨abs_le.2 ⟨a, b⟩, abs_le.2 ⟨c, d⟩, e⟩
  · have h : telTable.Pairwise (fun a b => ¬ (a.shortname.map toLowerC = b.shortname.map toLowerC)) := by decide +kernel
    exact h

/-- **C08** (agreement) Looking up by name, in any letter case, the identifier delivered for station number n gives the same
station: longitude, latitude, height, identifier and name. -/
theorem C08_obs_number_name_agree (n : Nat) (c : Option (List Char)) (c' : List Char) (identlen namelen : Nat) (st st2 : ObsState)
    (hb : BuffersOk st identlen namelen) (hb2 : BuffersOk st2 identlen namelen)
    (h1 : 1 ≤ n) (h2 : n ≤ telTable.length) (hlen : 11 ≤ identlen) :
    ∃ s, palObs n c identlen namelen st = some (0, s) ∧
      (SameId c' (cText s.ident) → ∃ s', palObs 0 (some c') identlen namelen st2 = some (0, s') ∧
        s'.w = s.w ∧ s'.p = s.p ∧ s'.h = s.h ∧ cText s'.ident = cText s.ident ∧ cText s'.name = cText s.name) := by
  obtain ⟨s, hs, hd⟩ := C08_obs_by_number n c identlen namelen st hb h1 h2
  have hi : n - 1 < telTable.length := by omega
  have hshort : cText s.ident = telTable[n - 1].shortname := by
    rw [hd.ident, List.take_of_length_le]
    have := (C11_table_valid.1 telTable[n - 1] (List.getElem_mem _)).2.2.1
    omega
  refine ⟨s, hs, fun hsame => ?_⟩
  · rw [hshort] at hsame
    obtain ⟨s', hs', hd'⟩ := (C08_obs_by_name c' identlen namelen st2 hb2).1 (n - 1) hi hsame (by
      intro j hj hsj
      have := List.pairwise_iff_getElem.1 C11_table_valid.2 j (n - 1) (by omega) hi hj
      exact this (hsj.symm.trans hsame))
    exact ⟨s', hs', by rw [hd'.w, hd.w], by rw [hd'.p, hd.p], by rw [hd'.h, hd.h],
      by rw [hd'.ident, hd.ident], by rw [hd'.name, hd.name]⟩

/-- A caller with buffers of 11 and 41 bytes. -/
def exState : ObsState := ⟨List.replicate 11 'u', List.replicate 41 'u', 7, 7, 7⟩

example : BuffersOk exState 11 41 := ⟨by decide, by decide, by decide, by decide⟩

example : (palObs 58 none 11 41 exState).map (fun r => (r.1, cText r.2.ident, r.2.h)) =
    some (0, "ESONTT".toList, 2377) := by decide +kernel
example : (palObs 0 (some "jcmt".toList) 11 41 exState).map (fun r => (r.1, cText r.2.ident, r.2.h)) =
    some (0, "JCMT".toList, 4124.75) := by decide +kernel

/-- **C09** When nothing matches (number beyond the table, or no identifier equal ignoring case) the status is -1, the name is "?" (if the buffer has room for it),
and identifier, longitude, latitude and height are unchanged.  No other status than 0 and -1 occurs. -/
theorem C09_obs_miss (n : Nat) (c : List Char) (identlen namelen : Nat) (st : ObsState)
    (hb : BuffersOk st identlen namelen)
    (hmiss : telTable.length < n ∨ (n = 0 ∧ ∀ t ∈ telTable, ¬ SameId c t.shortname)) :
    ∃ st', palObs n (some c) identlen namelen st = some (-1, st') ∧
      st'.ident = st.ident ∧ st'.w = st.w ∧ st'.p = st.p ∧ st'.h = st.h ∧
      cText st'.name = ['?'].take (namelen - 1) ∧
      st'.name.length = st.name.length ∧ st'.name.drop namelen = st.name.drop namelen := by
  obtain ⟨nm, e1, e2, e3, e4⟩ := prefill identlen namelen st hb
  refine ⟨{ st with name := nm }, ?_, rfl, rfl, rfl, rfl, e4, e2, e3⟩
  unfold palObs palObsT
  simp only [e1, Option.bind_eq_bind, Option.bind_some]
  rcases hmiss with h | ⟨h, hnone⟩
  · rw [if_pos (by omega), if_neg (by omega)]
  · have hf : telTable.find? (fun t => strcaseeq c t.shortname) = none := by
      rw [List.find?_eq_none]
      intro t ht
      have := hnone t ht
      simpa [strcaseeq, SameId] using this
    rw [if_neg (by omega)]
    simp only [hf]

/-- Every call with proper buffers and a non-NULL identifier is defined and returns 0 or -1. -/
theorem C09_obs_status (n : Nat) (c : List Char) (identlen namelen : Nat) (st : ObsState)
    (hb : BuffersOk st identlen namelen) :
    ∃ st', palObs n (some c) identlen namelen st = some (0, st') ∨
      palObs n (some c) identlen namelen st = some (-1, st') := by
  by_cases hn : n = 0
  · by_cases hm : ∀ t ∈ telTable, ¬ SameId c t.shortname
    · obtain ⟨st', h, _⟩ := C09_obs_miss n c identlen namelen st hb (Or.inr ⟨hn, hm⟩)
      exact ⟨st', Or.inr h⟩
    · subst hn
      cases hf : telTable.find? (fun t => strcaseeq c t.shortname) with
      | none =>
        exfalso; apply hm
        intro t ht
        have := List.find?_eq_none.1 hf t ht
        simpa [strcaseeq, SameId] using this
      | some t =>
        obtain ⟨nm, e1, e2, e3, e4⟩ := prefill identlen namelen st hb
        obtain ⟨st', hs, _⟩ := assign_delivered t (List.mem_of_find?_eq_some hf) identlen namelen st nm hb e2 e3
        refine ⟨st', Or.inl ?_⟩
        unfold palObs palObsT
        simp only [e1, Option.bind_eq_bind, Option.bind_some]
        rw [if_neg (by omega)]
        simp only [hf, hs, Option.map_some]
  · by_cases hl : n ≤ telTable.length
    · obtain ⟨st', h, _⟩ := C08_obs_by_number n (some c) identlen namelen st hb (by omega) hl
      exact ⟨st', Or.inl h⟩
    · obtain ⟨st', h, _⟩ := C09_obs_miss n c identlen namelen st hb (Or.inl (by omega))
      exact ⟨st', Or.inr h⟩

example : ∀ t ∈ telTable, ¬ SameId "NOWHERE".toList t.shortname := by
  have h : ∀ t ∈ telTable, ¬ ("NOWHERE".toList.map toLowerC = t.shortname.map toLowerC) := by decide +kernel
  exact h

/-- **C70** (refuted) The documentation says that only the characters of "c" up to the first space are checked and that an
abbreviated identifier selects the first station it abbreviates.  In fact every identifier with a space in it fails, … -/
theorem C70_obs_space_never_matches (c : List Char) (identlen namelen : Nat) (st : ObsState)
    (hb : BuffersOk st identlen namelen) (hsp : ' ' ∈ c) :
    ∃ st', palObs 0 (some c) identlen namelen st = some (-1, st') := by
  apply (C08_obs_by_name c identlen namelen st hb).2
  intro t ht hs
  have hns : ∀ t ∈ telTable, ' ' ∉ t.shortname.map toLowerC := by decide +kernel
  apply hns t ht
  rw [← hs]
  exact List.mem_map.2 ⟨' ', hsp, by decide⟩

/-- … and so does every proper abbreviation, for instance "JCM" for JCMT. -/
theorem C70_obs_no_abbreviation : (palObs 0 (some "JCM".toList) 11 41 exState).map (·.1) = some (-1) := by
  decide +kernel

example : ' ' ∈ "JCMT ".toList := by decide

end Pal.Props
