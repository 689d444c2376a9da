import Verif.Model.Parse
import Verif.Spec.Parse
import Mathlib.Tactic.Ring
import Mathlib.Tactic.Linarith
import Mathlib.Data.Nat.Basic
import Mathlib.Data.List.TakeWhile

namespace Pal
open Spec

theorem isDigit_iff (c : Char) : isDigit c = true ↔ Digit c := by
  unfold isDigit
  simp only [Bool.and_eq_true, decide_eq_true_eq, List.mem_cons, List.not_mem_nil, or_false]
  constructor
  · rintro ⟨h1, h2⟩
    have h1' : 48 ≤ c.toNat := h1
    have h2' : c.toNat ≤ 57 := h2
    have : ∀ d : Char, c.toNat = d.toNat → c = d := fun d h => Char.toNat_inj.mp h
    have hc : c.toNat = 48 ∨ c.toNat = 49 ∨ c.toNat = 50 ∨ c.toNat = 51 ∨ c.toNat = 52 ∨ c.toNat = 53 ∨ c.toNat = 54 ∨ c.toNat = 55 ∨ c.toNat = 56 ∨ c.toNat = 57 := by omega
    rcases hc with h|h|h|h|h|h|h|h|h|h
    · exact Or.inl (this '0' h)
    · exact Or.inr (Or.inl (this '1' h))
    · exact Or.inr (Or.inr (Or.inl (this '2' h)))
    · exact Or.inr (Or.inr (Or.inr (Or.inl (this '3' h))))
    · exact Or.inr (Or.inr (Or.inr (Or.inr (Or.inl (this '4' h)))))
    · exact Or.inr (Or.inr (Or.inr (Or.inr (Or.inr (Or.inl (this '5' h))))))
    · exact Or.inr (Or.inr (Or.inr (Or.inr (Or.inr (Or.inr (Or.inl (this '6' h)))))))
    · exact Or.inr (Or.inr (Or.inr (Or.inr (Or.inr (Or.inr (Or.inr (Or.inl (this '7' h))))))))
    · exact Or.inr (Or.inr (Or.inr (Or.inr (Or.inr (Or.inr (Or.inr (Or.inr (Or.inl (this '8' h)))))))))
    · exact Or.inr (Or.inr (Or.inr (Or.inr (Or.inr (Or.inr (Or.inr (Or.inr (Or.inr (this '9' h)))))))))
  · rintro (h|h|h|h|h|h|h|h|h|h) <;> subst h <;> decide

theorem isSpace_iff (c : Char) : isSpace c = true ↔ White c := by
  unfold isSpace White
  simp only [Bool.or_eq_true, beq_iff_eq]
  have key : ∀ d : Char, c = d ↔ c.toNat = d.toNat := fun d => Char.toNat_inj.symm
  rw [key, key, key, key, key, key]
  have e1 : ' '.toNat = 32 := rfl
  have e2 : '\t'.toNat = 9 := rfl
  have e3 : '\n'.toNat = 10 := rfl
  have e4 : (Char.ofNat 11).toNat = 11 := rfl
  have e5 : (Char.ofNat 12).toNat = 12 := rfl
  have e6 : '\r'.toNat = 13 := rfl
  rw [e1,e2,e3,e4,e5,e6]; omega

theorem isBlank_iff (c : Char) : isBlank c = true ↔ Blank c := by
  unfold isBlank Blank; simp

theorem accDigits_cons (acc : Nat) (c : Char) (cs : List Char) :
    accDigits acc (c :: cs) = accDigits (acc * 10 + digitVal c) cs := by
  unfold accDigits; rw [List.foldl_cons]

theorem accDigits_eq (ds : List Char) : ∀ acc, accDigits acc ds = acc * 10 ^ ds.length + decVal ds := by
  induction ds with
  | nil => intro acc; simp [accDigits, decVal]
  | cons c cs ih =>
    intro acc
    have hx : digitVal c = c.toNat - 48 := rfl
    rw [accDigits_cons, decVal, ih, hx, List.length_cons]
    generalize c.toNat - 48 = k
    rw [pow_succ]; ring

theorem takeWhile_append_stop {α} (p : α → Bool) (l r : List α) (hl : ∀ a ∈ l, p a = true)
    (hr : ∀ a, r.head? = some a → p a = false) : (l ++ r).takeWhile p = l := by
  induction l with
  | nil => cases r with
    | nil => rfl
    | cons a t => simp [hr a rfl]
  | cons a t ih =>
    simp only [List.cons_append, List.takeWhile, hl a (by simp)]
    rw [ih (fun b hb => hl b (by simp [hb]))]

theorem dropWhile_append_stop {α} (p : α → Bool) (l r : List α) (hl : ∀ a ∈ l, p a = true)
    (hr : ∀ a, r.head? = some a → p a = false) : (l ++ r).dropWhile p = r := by
  induction l with
  | nil => cases r with
    | nil => rfl
    | cons a t => simp [hr a rfl]
  | cons a t ih =>
    simp only [List.cons_append, List.dropWhile, hl a (by simp)]
    exact ih (fun b hb => hl b (by simp [hb]))

theorem head?_append_ne {α} (l r : List α) (h : l ≠ []) : (l ++ r).head? = l.head? := by
  cases l with
  | nil => exact absurd rfl h
  | cons a t => rfl

theorem delimSkip_eq (s : List Char) : delimSkip s = sepLen s := by
  unfold sepLen
  cases s with
  | nil => simp [delimSkip]
  | cons c t =>
    by_cases h : c = ','
    · subst h; simp [delimSkip]
    · have : delimSkip (c :: t) = ((c :: t).takeWhile isBlank).length := by
        unfold delimSkip; split
        · rename_i heq; simp at heq; exact absurd heq.1 h
        · rfl
      rw [this]; simp only [List.head?_cons, Option.some.injEq, h, if_false]
      congr 2

/-- digits are neither white space nor sign characters -/
theorem digit_not_space {c : Char} (h : isDigit c = true) : isSpace c = false := by
  rw [isDigit_iff] at h; unfold Digit at h
  simp at h
  rcases h with h|h|h|h|h|h|h|h|h|h <;> subst h <;> decide

theorem digit_ne_minus {c : Char} (h : isDigit c = true) : c ≠ '-' := by
  rintro rfl; revert h; decide
theorem digit_ne_plus {c : Char} (h : isDigit c = true) : c ≠ '+' := by
  rintro rfl; revert h; decide

theorem takeSign_text (s : Sgn) (r : List Char) (hr : ∀ c, r.head? = some c → c ≠ '-' ∧ c ≠ '+') :
    takeSign (s.text ++ r) = (decide (s = .minus), s.text.length, r) := by
  cases s
  · cases r with
    | nil => rfl
    | cons c t =>
      have := hr c rfl
      simp only [Sgn.text, List.nil_append, List.length_nil]
      unfold takeSign
      split
      · rename_i h; simp at h; exact absurd h.1 this.1
      · rename_i h; simp at h; exact absurd h.1 this.2
      · simp
  · simp [Sgn.text, takeSign]
  · simp [Sgn.text, takeSign]

theorem sgn_text_not_space (s : Sgn) (ds : List Char) (h0 : ds ≠ []) (hd : ∀ c ∈ ds, isDigit c = true) (rest : List Char) :
    ∀ a, (s.text ++ (ds ++ rest)).head? = some a → isSpace a = false := by
  intro a ha
  cases s
  · cases ds with
    | nil => exact absurd rfl h0
    | cons c t =>
      simp [Sgn.text] at ha; subst ha; exact digit_not_space (hd c (by simp))
  · simp [Sgn.text] at ha; subst ha; decide
  · simp [Sgn.text] at ha; subst ha; decide

theorem strtol_field (ws : List Char) (s : Sgn) (ds rest : List Char)
    (hws : ∀ c ∈ ws, isSpace c = true) (h0 : ds ≠ []) (hd : ∀ c ∈ ds, isDigit c = true)
    (hr : ∀ c, rest.head? = some c → isDigit c = false) :
    strtol (ws ++ (s.text ++ (ds ++ rest))) =
      (if LONG_MAX < s.app (decVal ds) then ⟨LONG_MAX, ws.length + s.text.length + ds.length, true⟩
       else if s.app (decVal ds) < LONG_MIN then ⟨LONG_MIN, ws.length + s.text.length + ds.length, true⟩
       else ⟨s.app (decVal ds), ws.length + s.text.length + ds.length, false⟩) := by
  have hstop := sgn_text_not_space s ds h0 hd rest
  unfold strtol
  rw [takeWhile_append_stop _ _ _ hws hstop, dropWhile_append_stop _ _ _ hws hstop]
  rw [takeSign_text s (ds ++ rest) (by
    intro c hc
    cases ds with
    | nil => exact absurd rfl h0
    | cons d t =>
      simp at hc; subst hc
      exact ⟨digit_ne_minus (hd d (by simp)), digit_ne_plus (hd d (by simp))⟩)]
  simp only [takeWhile_append_stop isDigit ds rest hd hr, h0, if_false, accDigits_eq, Nat.zero_mul, Nat.zero_add]
  cases s <;> simp [Sgn.app]

theorem scanMinus_append (l r : List Char) : ∀ m, (∀ c ∈ l, isDigit c = false) →
    scanMinus m (l ++ r) = scanMinus (if h : l = [] then m else l.getLast h == '-') r := by
  induction l with
  | nil => intro m _; simp
  | cons c t ih =>
    intro m h
    simp only [List.cons_append, scanMinus, h c (by simp)]
    rw [if_neg (by simp), ih _ (fun d hd => h d (by simp [hd]))]
    congr 1
    by_cases ht : t = []
    · subst ht; simp
    · simp [ht, List.getLast_cons]

theorem space_not_digit {c : Char} (h : isSpace c = true) : isDigit c = false := by
  by_contra hc
  have := digit_not_space (c := c) (by simpa using hc)
  simp [this] at h

theorem space_ne_minus {c : Char} (h : isSpace c = true) : c ≠ '-' := by
  rintro rfl; revert h; decide

theorem scanMinus_field (ws : List Char) (s : Sgn) (ds rest : List Char)
    (hws : ∀ c ∈ ws, isSpace c = true) (h0 : ds ≠ []) (hd : ∀ c ∈ ds, isDigit c = true) :
    scanMinus false (ws ++ (s.text ++ (ds ++ rest))) = decide (s = .minus) := by
  rw [← List.append_assoc, scanMinus_append]
  · cases ds with
    | nil => exact absurd rfl h0
    | cons d t =>
      simp only [List.cons_append, scanMinus, hd d (by simp), if_true]
      cases s
      · simp only [Sgn.text, List.append_nil]
        by_cases hw : ws = []
        · subst hw; simp
        · simp [hw, space_ne_minus (hws _ (List.getLast_mem hw))]
      · simp [Sgn.text]
      · simp [Sgn.text]
  · intro c hc
    simp only [List.mem_append] at hc
    rcases hc with hc | hc
    · exact space_not_digit (hws c hc)
    · cases s <;> simp [Sgn.text] at hc <;> subst hc <;> decide

theorem toInt32_of_range (v : Int) (h1 : -2 ^ 31 ≤ v) (h2 : v < 2 ^ 31) : toInt32 v = v := by
  unfold toInt32
  rw [Int.bmod_eq_of_le] <;> omega

theorem toInt32_ne (n : Nat) (hlo : 2 ^ 31 ≤ n) : toInt32 (n : Int) ≠ n := by
  unfold toInt32
  intro h
  have : (Int.bmod (n : Int) (2 ^ 32)) < 2 ^ 31 := by
    have := Int.bmod_lt (x := (n : Int)) (m := 2 ^ 32) (by decide)
    omega
  omega

theorem intinCore_field (ws : List Char) (s : Sgn) (ds rest : List Char)
    (hws : ∀ c ∈ ws, White c) (h0 : ds ≠ []) (hd : ∀ c ∈ ds, Digit c)
    (hr : ∀ c, rest.head? = some c → ¬ Digit c)
    (hlo : -2 ^ 31 ≤ s.app (decVal ds)) (hhi : s.app (decVal ds) < 2 ^ 31) :
    intinCore (ws ++ (s.text ++ (ds ++ rest))) =
      (signStatus s, s.app (decVal ds), ws.length + s.text.length + ds.length + sepLen rest) := by
  have hws' : ∀ c ∈ ws, isSpace c = true := fun c hc => (isSpace_iff c).2 (hws c hc)
  have hd' : ∀ c ∈ ds, isDigit c = true := fun c hc => (isDigit_iff c).2 (hd c hc)
  have hr' : ∀ c, rest.head? = some c → isDigit c = false := by
    intro c hc; by_contra h; exact hr c hc ((isDigit_iff c).1 (by simpa using h))
  have hlen : 0 < ds.length := List.length_pos_iff.2 h0
  unfold intinCore
  rw [strtol_field ws s ds rest hws' h0 hd' hr', scanMinus_field ws s ds rest hws' h0 hd']
  rw [if_neg (by unfold LONG_MAX; omega), if_neg (by unfold LONG_MIN; omega)]
  simp only [toInt32_of_range _ hlo hhi]
  rw [if_neg (by omega)]
  simp only [Bool.false_eq_true, if_false, decide_eq_true_eq]
  have hdrop : (ws ++ (s.text ++ (ds ++ rest))).drop (ws.length + s.text.length + ds.length) = rest := by
    rw [show ws ++ (s.text ++ (ds ++ rest)) = (ws ++ s.text ++ ds) ++ rest by simp]
    rw [List.drop_left' (by simp [Nat.add_assoc])]
  by_cases hm : s = .minus
  · rw [if_pos (Or.inr hm)]; simp only [signStatus, hm, if_true]
    subst hm
    rw [hdrop, delimSkip_eq]
  · have : ¬ (s.app (decVal ds) < 0 ∨ s = .minus) := by
      simp only [hm, or_false, Sgn.app, if_false]; omega
    rw [if_neg this]; simp only [signStatus, hm, if_false]
    rw [hdrop, delimSkip_eq]

end Pal

namespace Pal
open Spec

theorem palIntin_at (pre s : List Char) (old : Int) :
    palIntin (pre ++ s) (pre.length + 1) old =
      some { nstrt := pre.length + 1 + (intinCore s).2.2,
             ireslt := if (intinCore s).1 ≠ 1 then (intinCore s).2.1 else old,
             jflag := (intinCore s).1 } := by
  unfold palIntin
  rw [if_neg (by simp)]
  simp

theorem length_takeWhile_le' {α} (p : α → Bool) (t : List α) : (t.takeWhile p).length ≤ t.length :=
  (List.takeWhile_sublist p).length_le

theorem strtol_used_le (s : List Char) : (strtol s).used ≤ s.length := by
  have h1 : (s.takeWhile isSpace).length + (s.dropWhile isSpace).length = s.length := by
    rw [← List.length_append, List.takeWhile_append_dropWhile]
  have h2 : ∀ t : List Char, (takeSign t).2.1 + (takeSign t).2.2.length = t.length := by
    intro t; unfold takeSign; split <;> simp <;> omega
  have h3 : ∀ t : List Char, (t.takeWhile isDigit).length ≤ t.length := fun t => length_takeWhile_le' ..
  have h4 := h2 (s.dropWhile isSpace)
  have h5 := h3 (takeSign (s.dropWhile isSpace)).2.2
  unfold strtol
  generalize takeSign (s.dropWhile isSpace) = q at *
  obtain ⟨neg, sl, r⟩ := q
  simp only at *
  repeat' split
  all_goals simp only; omega

theorem delimSkip_le (s : List Char) : delimSkip s ≤ s.length := by
  unfold delimSkip
  split
  · simp
  · exact length_takeWhile_le' ..

/-- the pair (status, characters before delimiter skipping) chosen by `intinCore` -/
theorem intinCore_form (s : List Char) : ∃ adv, (intinCore s).2.2 = adv + delimSkip (s.drop adv) ∧ adv ≤ s.length ∧
    (intinCore s).2.1 = toInt32 (strtol s).value ∧
    (((intinCore s).1 = 1 ∧ adv = (s.takeWhile intinSkip).length ∧ (strtol s).used = 0) ∨
     ((intinCore s).1 ∈ [-1, 0, 2] ∧ adv = (strtol s).used ∧
       (toInt32 (strtol s).value ≠ 0 ∨ (strtol s).used ≠ 0))) := by
  unfold intinCore
  dsimp only
  split
  · rename_i h
    exact ⟨_, rfl, length_takeWhile_le' .., rfl, Or.inl ⟨rfl, rfl, h.2⟩⟩
  · rename_i h
    have h' : toInt32 (strtol s).value ≠ 0 ∨ (strtol s).used ≠ 0 := by
      by_contra hc; push Not at hc; exact h hc
    split
    · exact ⟨_, rfl, strtol_used_le s, rfl, Or.inr ⟨by simp, rfl, h'⟩⟩
    · split
      · exact ⟨_, rfl, strtol_used_le s, rfl, Or.inr ⟨by simp, rfl, h'⟩⟩
      · exact ⟨_, rfl, strtol_used_le s, rfl, Or.inr ⟨by simp, rfl, h'⟩⟩

theorem intinCore_status (s : List Char) (hu : (strtol s).used ≠ 0) (he : (strtol s).erange = false) :
    (intinCore s).1 = 0 ∨ (intinCore s).1 = -1 := by
  unfold intinCore
  generalize strtol s = r at *
  obtain ⟨v, u, e⟩ := r
  dsimp only at *
  generalize toInt32 v = t
  rw [if_neg (fun h => hu h.2), if_neg (by simp [he])]
  split
  · exact Or.inr rfl
  · exact Or.inl rfl

theorem strtol_plain (ds rest : List Char)
    (h0 : ds ≠ []) (hd : ∀ c ∈ ds, Digit c) (hr : ∀ c, rest.head? = some c → ¬ Digit c)
    (hhi : decVal ds < 2 ^ 63) : strtol (ds ++ rest) = ⟨decVal ds, ds.length, false⟩ := by
  have hd' : ∀ c ∈ ds, isDigit c = true := fun c hc => (isDigit_iff c).2 (hd c hc)
  have hr' : ∀ c, rest.head? = some c → isDigit c = false := by
    intro c hc; by_contra h; exact hr c hc ((isDigit_iff c).1 (by simpa using h))
  have hst := strtol_field [] .none ds rest (by simp) h0 hd' hr'
  simp only [Sgn.text, Sgn.app, List.nil_append, reduceCtorEq, if_false, List.length_nil, Nat.zero_add] at hst
  rw [if_neg (by unfold LONG_MAX; omega), if_neg (by unfold LONG_MIN; omega)] at hst
  exact hst

theorem strtol_zero_of_unused (s : List Char) (h : (strtol s).used = 0) : (strtol s).value = 0 := by
  unfold strtol at *
  generalize takeSign (s.dropWhile isSpace) = q at *
  obtain ⟨neg, sl, r⟩ := q
  simp only at *
  by_cases hd : r.takeWhile isDigit = []
  · simp [hd]
  · exfalso
    rw [if_neg hd] at h
    have : 0 < (r.takeWhile isDigit).length := List.length_pos_iff.2 hd
    repeat' split at h
    all_goals simp only at h; omega

/-- a blank is not a digit, sign or comma -/
theorem blank_props {c : Char} (h : Blank c) : isBlank c = true ∧ isDigit c = false ∧ c ≠ ',' := by
  rcases h with h | h <;> subst h <;> decide

theorem sepLen_comma (r : List Char) : sepLen (',' :: r) = 1 := by simp [sepLen]

theorem sepLen_blanks (b r : List Char) (hb : ∀ c ∈ b, Blank c) (h0 : b ≠ [])
    (hr : ∀ c, r.head? = some c → isBlank c = false) : sepLen (b ++ r) = b.length := by
  rw [← delimSkip_eq]
  cases b with
  | nil => exact absurd rfl h0
  | cons c t =>
    have hc := blank_props (hb c (by simp))
    have : delimSkip (c :: t ++ r) = ((c :: t ++ r).takeWhile isBlank).length := by
      unfold delimSkip; split
      · rename_i heq; simp at heq; exact absurd heq.1 hc.2.2
      · rfl
    rw [this, takeWhile_append_stop _ _ _ (fun a ha => (blank_props (hb a ha)).1) hr]

theorem isAlpha_iff (c : Char) : isAlpha c = true ↔ Letter c := by
  unfold isAlpha
  simp only [Bool.or_eq_true, Bool.and_eq_true, decide_eq_true_eq]
  have e1 : 'a'.toNat = 97 := rfl
  have e2 : 'z'.toNat = 122 := rfl
  have e3 : 'A'.toNat = 65 := rfl
  have e4 : 'Z'.toNat = 90 := rfl
  rw [e1, e2, e3, e4]
  tauto

theorem strtol_unused (ws rest : List Char) (hw : ∀ c ∈ ws, White c)
    (hr : ∀ c, rest.head? = some c → ¬ White c ∧ ¬ Digit c ∧ c ≠ '+' ∧ c ≠ '-') : (strtol (ws ++ rest)).used = 0 := by
  have hd : (ws ++ rest).dropWhile isSpace = rest := by
    rw [List.dropWhile_append_of_pos (fun c hc => (isSpace_iff c).2 (hw c hc))]
    cases rest with
    | nil => rfl
    | cons c t =>
      have : isSpace c = false := by
        rw [Bool.eq_false_iff]; exact fun h => (hr c rfl).1 ((isSpace_iff c).1 h)
      rw [List.dropWhile_cons_of_neg (by simp [this])]
  unfold strtol
  rw [hd]
  cases rest with
  | nil => rfl
  | cons c t =>
    obtain ⟨h1, h2, h3, h4⟩ := hr c rfl
    have hs : takeSign (c :: t) = (false, 0, c :: t) := by
      unfold takeSign
      split
      · rename_i h; simp at h; exact absurd h.1 h4
      · rename_i h; simp at h; exact absurd h.1 h3
      · rfl
    have hdg : isDigit c = false := by
      rw [Bool.eq_false_iff]; exact fun h => h2 ((isDigit_iff c).1 h)
    rw [hs]
    simp [hdg]

end Pal
