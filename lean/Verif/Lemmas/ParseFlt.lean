import Verif.Lemmas.Parse
import Mathlib.Tactic.FieldSimp
import Mathlib.Tactic.Positivity
import Mathlib.Tactic.NormNum
import Mathlib.Tactic.IntervalCases

namespace Pal
open Spec

theorem powInt_eq (b : ℚ) (z : Int) : powInt b z = b ^ z := by
  cases z with
  | ofNat n => simp [powInt]
  | negSucc n => simp [powInt, zpow_negSucc]

theorem decVal_append (a b : List Char) : decVal (a ++ b) = decVal a * 10 ^ b.length + decVal b := by
  induction a with
  | nil => simp [decVal]
  | cons c t ih =>
    rw [List.cons_append, decVal, decVal, ih, List.length_append, pow_add]; ring

theorem decVal_lt (ds : List Char) (h : ∀ c ∈ ds, Digit c) : decVal ds < 10 ^ ds.length := by
  induction ds with
  | nil => simp [decVal]
  | cons c t ih =>
    have h1 := ih (fun d hd => h d (by simp [hd]))
    have hc : c.toNat - 48 ≤ 9 := by
      have := h c (by simp)
      simp only [Digit, List.mem_cons, List.not_mem_nil, or_false] at this
      rcases this with h|h|h|h|h|h|h|h|h|h <;> subst h <;> decide
    rw [decVal, List.length_cons, pow_succ]
    have : (c.toNat - 48) * 10 ^ t.length ≤ 9 * 10 ^ t.length := Nat.mul_le_mul_right _ hc
    omega

/-- expoText/number tail: what may follow a number without continuing it -/
def Stops (rest : List Char) : Prop :=
  ∀ c, rest.head? = some c → isDigit c = false ∧ c ≠ '.' ∧ c ≠ 'e' ∧ c ≠ 'E' ∧ c ≠ 'd' ∧ c ≠ 'D' ∧ c ≠ 'x' ∧ c ≠ 'X'

/-- exponent letters after conversion -/
def isE (c : Char) : Bool := c == 'e' || c == 'E'

theorem takeExp_none (rest : List Char) (h : Stops rest) : takeExp isE rest = (0, 0) := by
  cases rest with
  | nil => rfl
  | cons c t =>
    have := h c rfl
    simp only [takeExp]
    rw [if_neg (by unfold isE; simp [this])]

theorem takeExp_some (c : Char) (hc : isE c = true) (s : Sgn) (ds rest : List Char) (h0 : ds ≠ [])
    (hd : ∀ c ∈ ds, isDigit c = true) (hr : ∀ c, rest.head? = some c → isDigit c = false) :
    takeExp isE (c :: (s.text ++ (ds ++ rest))) = (s.app (decVal ds), 1 + s.text.length + ds.length) := by
  simp only [takeExp, hc, if_true]
  rw [takeSign_text s (ds ++ rest) (by
    intro c hc
    cases ds with
    | nil => exact absurd rfl h0
    | cons d t =>
      simp at hc; subst hc
      exact ⟨digit_ne_minus (hd d (by simp)), digit_ne_plus (hd d (by simp))⟩)]
  simp only [takeWhile_append_stop isDigit ds rest hd hr, h0, if_false, accDigits_eq, Nat.zero_mul, Nat.zero_add]
  cases s <;> simp [Sgn.app]

/-- exponent well-formedness after letter conversion -/
def ExpoOk : Option (Char × Sgn × List Char) → Prop
  | none => True
  | some (c, _, ds) => isE c = true ∧ ds ≠ [] ∧ ∀ d ∈ ds, isDigit d = true

theorem takeExp_text (x : Option (Char × Sgn × List Char)) (hx : ExpoOk x) (rest : List Char) (h : Stops rest) :
    takeExp isE (expoText x ++ rest) = (expoVal x, (expoText x).length) := by
  match x, hx with
  | none, _ => simpa [expoText, expoVal] using takeExp_none rest h
  | some (c, s, ds), hx =>
    have := takeExp_some c hx.1 s ds rest hx.2.1 hx.2.2 (fun d hd => (h d hd).1)
    simp only [expoText, expoVal, List.cons_append, List.append_assoc, List.length_cons, List.length_append] at *
    rw [this]; congr 1; omega

theorem expoText_head (x : Option (Char × Sgn × List Char)) (hx : ExpoOk x) (rest : List Char) (h : Stops rest) :
    ∀ c, (expoText x ++ rest).head? = some c → isDigit c = false ∧ c ≠ '.' ∧ c ≠ 'x' ∧ c ≠ 'X' := by
  intro c hc
  match x, hx with
  | none, _ => have := h c (by simpa [expoText] using hc); tauto
  | some (d, s, ds), hx =>
    simp [expoText] at hc; subst hc
    have : d = 'e' ∨ d = 'E' := by simpa [isE] using hx.1
    rcases this with h | h <;> subst h <;> decide

/-- The mantissa text. -/
def mantText (ip : List Char) (point : Bool) (fp : List Char) : List Char :=
  ip ++ (if point then '.' :: fp else [])

theorem decFloat_text (ip : List Char) (point : Bool) (fp : List Char) (x : Option (Char × Sgn × List Char))
    (rest : List Char) (hip : ∀ c ∈ ip, isDigit c = true) (hfp : ∀ c ∈ fp, isDigit c = true)
    (hne : ip ++ fp ≠ []) (hpt : point = false → fp = []) (hx : ExpoOk x) (hr : Stops rest) :
    decFloat (mantText ip point fp ++ (expoText x ++ rest)) =
      some (((decVal ip : ℚ) + (decVal fp : ℚ) / 10 ^ fp.length) * (10 : ℚ) ^ (expoVal x),
        (mantText ip point fp ++ expoText x).length) := by
  have hhead := expoText_head x hx rest hr
  have hexp := takeExp_text x hx rest hr
  have e1 : (mantText ip point fp ++ (expoText x ++ rest)).takeWhile isDigit = ip := by
    unfold mantText; rw [List.append_assoc]
    apply takeWhile_append_stop _ _ _ hip
    intro c hc
    cases point with
    | true => simp at hc; subst hc; decide
    | false => simp only [Bool.false_eq_true, if_false, List.nil_append] at hc; exact (hhead c hc).1
  have e2 : (mantText ip point fp ++ (expoText x ++ rest)).drop ip.length =
      (if point then '.' :: fp else []) ++ (expoText x ++ rest) := by
    unfold mantText; rw [List.append_assoc, List.drop_left' rfl]
  have e3 : takeFrac isDigit ((if point then '.' :: fp else []) ++ (expoText x ++ rest)) =
      (fp, (if point then '.' :: fp else []).length) := by
    cases point with
    | true =>
      simp only [if_true, List.cons_append, takeFrac]
      rw [takeWhile_append_stop _ _ _ hfp (fun c hc => (hhead c hc).1)]
      simp; omega
    | false =>
      simp only [Bool.false_eq_true, if_false, List.nil_append, List.length_nil, hpt rfl]
      unfold takeFrac
      split
      · rename_i heq; exact absurd rfl (hhead '.' (by rw [heq]; rfl)).2.1
      · rfl
  have e4 : (mantText ip point fp ++ (expoText x ++ rest)).drop (ip.length + (if point then '.' :: fp else []).length) =
      expoText x ++ rest := by
    rw [List.drop_left' (by simp [mantText])]
  unfold decFloat
  rw [e1]
  dsimp only
  rw [e2, e3]
  dsimp only
  rw [e4, if_neg (by rintro ⟨h1, h2⟩; exact hne (by simp [h1, h2]))]
  rw [show (fun c => c == 'e' || c == 'E') = isE from rfl, hexp]
  dsimp only
  rw [powInt_eq, accDigits_eq, decVal_append, zpow_sub₀ (by norm_num)]
  simp only [Nat.zero_mul, Nat.zero_add, Option.some.injEq, Prod.mk.injEq]
  constructor
  · push_cast; field_simp; norm_num; ring
  · simp [mantText]; omega

theorem not_prefix_of_head (w : Char) (ws : List Char) (s : List Char)
    (h : ∀ c, s.head? = some c → toLowerC c ≠ w) : hasPrefixCI (w :: ws) s = false := by
  unfold hasPrefixCI
  cases s with
  | nil => simp
  | cons c t =>
    have := h c rfl
    simp [this]

theorem strtodBody_text (neg : Bool) (ip : List Char) (point : Bool) (fp : List Char) (x : Option (Char × Sgn × List Char))
    (rest : List Char) (hip : ∀ c ∈ ip, isDigit c = true) (hfp : ∀ c ∈ fp, isDigit c = true)
    (hne : ip ++ fp ≠ []) (hpt : point = false → fp = []) (hx : ExpoOk x) (hr : Stops rest)
    (hrange : NormalRange (((decVal ip : ℚ) + (decVal fp : ℚ) / 10 ^ fp.length) * (10 : ℚ) ^ (expoVal x))) :
    strtodBody neg (mantText ip point fp ++ (expoText x ++ rest)) =
      some (.fin neg (((decVal ip : ℚ) + (decVal fp : ℚ) / 10 ^ fp.length) * (10 : ℚ) ^ (expoVal x)),
        (mantText ip point fp ++ expoText x).length, false) := by
  have hdec := decFloat_text ip point fp x rest hip hfp hne hpt hx hr
  have hmant : ∀ c, (mantText ip point fp ++ (expoText x ++ rest)).head? = some c → isDigit c = true ∨ c = '.' := by
    intro c hc
    unfold mantText at hc
    cases ip with
    | cons d t => simp at hc; subst hc; left; exact hip d (by simp)
    | nil =>
      cases point with
      | true => simp at hc; right; exact hc.symm
      | false => simp [hpt rfl] at hne
  have hlow : ∀ c, (isDigit c = true ∨ c = '.') → toLowerC c = c ∧ c ≠ 'i' ∧ c ≠ 'n' := by
    intro c hc
    rcases hc with hc | hc
    · rw [isDigit_iff] at hc
      simp only [Digit, List.mem_cons, List.not_mem_nil, or_false] at hc
      rcases hc with h|h|h|h|h|h|h|h|h|h <;> subst h <;> decide
    · subst hc; decide
  have hi : ∀ c, (mantText ip point fp ++ (expoText x ++ rest)).head? = some c → toLowerC c ≠ 'i' := by
    intro c hc; have := hlow c (hmant c hc); rw [this.1]; exact this.2.1
  have hn : ∀ c, (mantText ip point fp ++ (expoText x ++ rest)).head? = some c → toLowerC c ≠ 'n' := by
    intro c hc; have := hlow c (hmant c hc); rw [this.1]; exact this.2.2
  have hlx : ∀ c : Char, toLowerC c = 'x' → c = 'x' ∨ c = 'X' := by
    intro c hc
    unfold toLowerC at hc
    split at hc
    · rename_i h
      right
      have h1 : 65 ≤ c.toNat := h.1
      have h2 : c.toNat ≤ 90 := h.2
      rw [← Char.ofNat_toNat c]
      clear h
      generalize c.toNat = n at *
      interval_cases n <;> first | rfl | (exfalso; revert hc; decide)
    · exact Or.inl hc
  have hnx : hasPrefixCI ['0','x'] (mantText ip point fp ++ (expoText x ++ rest)) = false := by
    have htail : ∀ c t, mantText ip point fp ++ (expoText x ++ rest) = c :: t →
        ∀ d, t.head? = some d → d ≠ 'x' ∧ d ≠ 'X' := by
      intro c t he d hd
      have hdig : ∀ d, isDigit d = true → d ≠ 'x' ∧ d ≠ 'X' := by
        intro d h; constructor <;> (rintro rfl; revert h; decide)
      have hh := expoText_head x hx rest hr
      cases ip with
      | cons a u =>
        simp only [mantText, List.cons_append, List.cons.injEq] at he
        obtain ⟨_, rfl⟩ := he
        cases u with
        | cons b v => simp at hd; subst hd; exact hdig b (hip b (by simp))
        | nil =>
          cases point with
          | true => simp at hd; subst hd; decide
          | false => simp only [Bool.false_eq_true, if_false, List.nil_append] at hd; exact (hh d hd).2.2
      | nil =>
        cases point with
        | true =>
          simp only [mantText, List.nil_append, if_true, List.cons_append, List.cons.injEq] at he
          obtain ⟨_, rfl⟩ := he
          cases fp with
          | cons b v => simp at hd; subst hd; exact hdig b (hfp b (by simp))
          | nil => simp at hne
        | false => simp [hpt rfl] at hne
    generalize mantText ip point fp ++ (expoText x ++ rest) = L at htail
    unfold hasPrefixCI
    match L, htail with
    | [], _ => rfl
    | [c], _ => simp
    | c :: d :: t, htail =>
      have := htail c (d :: t) rfl d rfl
      have : toLowerC d ≠ 'x' := fun h => by rcases hlx d h with h | h <;> simp_all
      simp [this]
  unfold strtodBody
  rw [not_prefix_of_head _ _ _ hi, not_prefix_of_head _ _ _ hi, not_prefix_of_head _ _ _ hn, hnx]
  simp only [Bool.false_eq_true, if_false]
  rw [hdec]
  dsimp only
  generalize (((decVal ip : ℚ) + (decVal fp : ℚ) / 10 ^ fp.length) * (10 : ℚ) ^ (expoVal x)) = q at *
  have hlt : ¬ ((2 : ℚ) ^ 1024 - 2 ^ 970 ≤ q) := by
    rcases hrange with h | h
    · subst h; simp only [not_le, sub_pos]; exact pow_lt_pow_right₀ (by norm_num) (by norm_num)
    · exact not_le.2 h.2
  have hund : ¬ (0 < q ∧ q * 2 ^ 1022 < 1) := by
    rintro ⟨h1, h2⟩
    rcases hrange with h | h
    · subst h; exact absurd h1 (lt_irrefl _)
    · exact absurd h.1 (not_le.2 h2)
  have hre : dblRangeError q = false := by
    unfold dblRangeError
    simp only [hlt, decide_false, Bool.false_or]
    by_contra hc
    simp only [Bool.not_eq_false, Bool.and_eq_true, decide_eq_true_eq] at hc
    exact hund hc
  rw [hre]; unfold finOrInf; rw [if_neg hlt]

theorem strtod_text (ws : List Char) (s : Sgn) (ip : List Char) (point : Bool) (fp : List Char) (x : Option (Char × Sgn × List Char))
    (rest : List Char) (hws : ∀ c ∈ ws, isSpace c = true)
    (hip : ∀ c ∈ ip, isDigit c = true) (hfp : ∀ c ∈ fp, isDigit c = true)
    (hne : ip ++ fp ≠ []) (hpt : point = false → fp = []) (hx : ExpoOk x) (hr : Stops rest)
    (hrange : NormalRange (((decVal ip : ℚ) + (decVal fp : ℚ) / 10 ^ fp.length) * (10 : ℚ) ^ (expoVal x))) :
    strtod (ws ++ (s.text ++ (mantText ip point fp ++ (expoText x ++ rest)))) =
      ⟨.fin (decide (s = .minus)) (((decVal ip : ℚ) + (decVal fp : ℚ) / 10 ^ fp.length) * (10 : ℚ) ^ (expoVal x)),
        ws.length + s.text.length + (mantText ip point fp ++ expoText x).length, false⟩ := by
  have hmant : ∀ c, (mantText ip point fp ++ (expoText x ++ rest)).head? = some c → isDigit c = true ∨ c = '.' := by
    intro c hc
    unfold mantText at hc
    cases ip with
    | cons d t => simp at hc; subst hc; left; exact hip d (by simp)
    | nil =>
      cases point with
      | true => simp at hc; right; exact hc.symm
      | false => simp [hpt rfl] at hne
  have hstop : ∀ a, (s.text ++ (mantText ip point fp ++ (expoText x ++ rest))).head? = some a → isSpace a = false := by
    intro a ha
    cases s
    · rcases hmant a (by simpa [Sgn.text] using ha) with h | h
      · exact digit_not_space h
      · subst h; decide
    · simp [Sgn.text] at ha; subst ha; decide
    · simp [Sgn.text] at ha; subst ha; decide
  unfold strtod
  rw [takeWhile_append_stop _ _ _ hws hstop, dropWhile_append_stop _ _ _ hws hstop]
  rw [takeSign_text s _ (by
    intro c hc
    rcases hmant c hc with h | h
    · exact ⟨digit_ne_minus h, digit_ne_plus h⟩
    · subst h; decide)]
  dsimp only
  rw [strtodBody_text _ ip point fp x rest hip hfp hne hpt hx hr hrange]

/-! ### The Fortran exponent conversion -/

theorem dToE_digit {c : Char} (h : isDigit c = true) : dToE c = c := by
  rw [isDigit_iff] at h
  simp only [Digit, List.mem_cons, List.not_mem_nil, or_false] at h
  rcases h with h|h|h|h|h|h|h|h|h|h <;> subst h <;> decide

theorem dToE_space {c : Char} (h : isSpace c = true) : dToE c = c := by
  unfold dToE; rw [if_neg]
  intro hc
  simp only [Bool.or_eq_true, beq_iff_eq] at hc
  rcases hc with hc | hc <;> subst hc <;> revert h <;> decide

theorem map_dToE_id (l : List Char) (h : ∀ c ∈ l, dToE c = c) : l.map dToE = l := by
  induction l with
  | nil => rfl
  | cons c t ih => simp [h c (by simp), ih (fun d hd => h d (by simp [hd]))]

theorem map_dToE_sgn (s : Sgn) : s.text.map dToE = s.text := by cases s <;> decide

/-- exponent letter conversion -/
def convExpo : Option (Char × Sgn × List Char) → Option (Char × Sgn × List Char)
  | none => none
  | some (c, s, ds) => some (dToE c, s, ds)

theorem convExpo_text (x) (hx : ∀ c s ds, x = some (c, s, ds) → ∀ d ∈ ds, isDigit d = true) :
    (expoText x).map dToE = expoText (convExpo x) := by
  match x with
  | none => rfl
  | some (c, s, ds) =>
    simp [expoText, convExpo, map_dToE_sgn, map_dToE_id ds (fun d hd => dToE_digit (hx c s ds rfl d hd))]

theorem convExpo_val (x) : expoVal (convExpo x) = expoVal x := by
  match x with
  | none => rfl
  | some (c, s, ds) => rfl

theorem sepLen_map (r : List Char) : sepLen (r.map dToE) = sepLen r := by
  have hc : ∀ c d : Char, (d = ',' ∨ d = ' ' ∨ d = '\t') → (dToE c = d ↔ c = d) := by
    intro c d hd
    unfold dToE
    split
    · rename_i h
      simp only [Bool.or_eq_true, beq_iff_eq] at h
      rcases h with h | h <;> subst h <;> rcases hd with h | h | h <;> subst h <;> decide
    · rfl
  unfold sepLen
  have h1 : ((r.map dToE).head? = some ',') ↔ (r.head? = some ',') := by
    cases r with
    | nil => simp
    | cons c t => simp [hc c ',' (by simp)]
  have h2 : ((r.map dToE).takeWhile (fun c => c = ' ' || c = '\t')).length = (r.takeWhile (fun c => c = ' ' || c = '\t')).length := by
    induction r with
    | nil => rfl
    | cons c t ih =>
      have ihh := ih (by cases t with
        | nil => simp
        | cons c t => simp [hc c ',' (by simp)])
      simp only [List.map_cons, List.takeWhile_cons, hc c ' ' (by simp), hc c '\t' (by simp)]
      split <;> simp [ihh]
  by_cases h : r.head? = some ','
  · rw [if_pos h, if_pos (h1.2 h)]
  · rw [if_neg h, if_neg (fun hh => h (h1.1 hh)), h2]

theorem sepLen_take (r : List Char) (k : Nat) (h : sepLen r ≤ k) : sepLen (r.take k) = sepLen r := by
  unfold sepLen at *
  cases r with
  | nil => simp
  | cons c t =>
    by_cases hc : c = ','
    · subst hc
      simp at h
      cases k with
      | zero => omega
      | succ k => simp
    · simp only [List.head?_cons, Option.some.injEq, hc, if_false] at h ⊢
      have hh : ¬ ((c :: t).take k).head? = some ',' := by
        cases k with
        | zero => simp
        | succ k => simp [hc]
      rw [if_neg hh]
      generalize c :: t = l at *
      clear hh hc
      induction l generalizing k with
      | nil => simp
      | cons a u ih =>
        cases k with
        | zero =>
          have : (List.takeWhile (fun c => decide (c = ' ') || decide (c = '\t')) ([] : List Char)).length = 0 := rfl
          rw [List.take_zero]
          omega
        | succ k =>
          simp only [List.take_succ_cons, List.takeWhile_cons] at h ⊢
          split
          · rename_i hb
            rw [if_pos hb] at h
            simp only [List.length_cons] at h ⊢
            rw [ih k (by omega)]
          · rfl

/-- What follows a floating field without continuing it. -/
theorem stops_map (rest : List Char) (k : Nat)
    (h : ∀ c, rest.head? = some c → ¬ Digit c ∧ c ∉ ['.', 'e', 'E', 'd', 'D', 'x', 'X']) :
    Stops ((rest.take k).map dToE) := by
  intro c hc
  cases rest with
  | nil => simp at hc
  | cons a t =>
    cases k with
    | zero => simp at hc
    | succ k =>
      simp only [List.take_succ_cons, List.map_cons, List.head?_cons, Option.some.injEq] at hc
      obtain ⟨h1, h2⟩ := h a rfl
      simp only [List.mem_cons, List.not_mem_nil, or_false, not_or] at h2
      have : dToE a = a := by unfold dToE; rw [if_neg]; simp [h2]
      rw [this] at hc; subst hc
      refine ⟨?_, h2.1, h2.2.1, h2.2.2.1, h2.2.2.2.1, h2.2.2.2.2.1, h2.2.2.2.2.2.1, h2.2.2.2.2.2.2⟩
      by_contra hd; exact h1 ((isDigit_iff a).1 (by simpa using hd))

theorem dfltinCore_field (f : FltField) (rest : List Char) (hf : f.Ok)
    (hr : ∀ c, rest.head? = some c → ¬ Digit c ∧ c ∉ ['.', 'e', 'E', 'd', 'D', 'x', 'X'])
    (hrange : NormalRange f.mag) (hfit : f.text.length + sepLen rest ≤ 255) :
    dfltinCore (f.text ++ rest) =
      (signStatus f.sgn, .fin (decide (f.sgn = .minus)) f.mag, f.text.length + sepLen rest) := by
  obtain ⟨hl, hip, hfp, hne, hpt, hx⟩ := hf
  have hl' : ∀ c ∈ f.lead, isSpace c = true := fun c hc => (isSpace_iff c).2 (hl c hc)
  have hip' : ∀ c ∈ f.ip, isDigit c = true := fun c hc => (isDigit_iff c).2 (hip c hc)
  have hfp' : ∀ c ∈ f.fp, isDigit c = true := fun c hc => (isDigit_iff c).2 (hfp c hc)
  have hxd : ∀ c s ds, f.expo = some (c, s, ds) → ∀ d ∈ ds, isDigit d = true :=
    fun c s ds he d hd => (isDigit_iff d).2 ((hx c s ds he).2.2 d hd)
  have hxo : ExpoOk (convExpo f.expo) := by
    match hfe : f.expo with
    | none => trivial
    | some (c, s, ds) =>
      have := hx c s ds hfe
      refine ⟨?_, this.2.1, fun d hd => hxd c s ds hfe d hd⟩
      have hc := this.1
      simp only [List.mem_cons, List.not_mem_nil, or_false] at hc
      rcases hc with h | h | h | h <;> subst h <;> decide
  -- the buffer
  have hbuf : ((f.text ++ rest).take 255).map dToE =
      f.lead ++ (f.sgn.text ++ (mantText f.ip f.point f.fp ++ (expoText (convExpo f.expo) ++ (rest.take (255 - f.text.length)).map dToE))) := by
    rw [List.take_append, List.take_of_length_le (by omega), List.map_append]
    rw [FltField.text, List.map_append, List.map_append, List.map_append, List.map_append, convExpo_text _ hxd,
      map_dToE_sgn, map_dToE_id f.lead (fun c hc => dToE_space (hl' c hc)),
      map_dToE_id f.ip (fun c hc => dToE_digit (hip' c hc))]
    have : (if f.point then '.' :: f.fp else []).map dToE = (if f.point then '.' :: f.fp else []) := by
      split
      · simp only [List.map_cons, map_dToE_id f.fp (fun c hc => dToE_digit (hfp' c hc))]; rfl
      · rfl
    rw [this, mantText]
    simp [List.append_assoc]
  have hst := strtod_text f.lead f.sgn f.ip f.point f.fp (convExpo f.expo) ((rest.take (255 - f.text.length)).map dToE)
    hl' hip' hfp' hne hpt hxo (stops_map rest _ hr) (by rw [convExpo_val]; exact hrange)
  rw [convExpo_val] at hst
  have hlen : f.lead.length + f.sgn.text.length + (mantText f.ip f.point f.fp ++ expoText (convExpo f.expo)).length = f.text.length := by
    have := congrArg List.length (convExpo_text f.expo hxd)
    rw [List.length_map] at this
    simp only [FltField.text, mantText, List.length_append, this]; omega
  have hpos : 0 < f.text.length := by
    rw [FltField.text]
    simp only [List.length_append]
    by_cases h : f.ip = []
    · have hp : f.point = true := by
        by_contra h2
        simp only [Bool.not_eq_true] at h2
        exact hne (by simp [h, hpt h2])
      simp [hp]
    · have := List.length_pos_iff.2 h; omega
  rw [hlen] at hst
  unfold dfltinCore tempbufSize
  rw [show (256 - 1 : Nat) = 255 from rfl, hbuf]
  dsimp only
  rw [hst]
  dsimp only
  rw [if_neg (by rintro ⟨_, h⟩; omega), if_neg (by decide)]
  have hdrop : List.drop f.text.length (f.lead ++ (f.sgn.text ++ (mantText f.ip f.point f.fp ++ (expoText (convExpo f.expo) ++ (rest.take (255 - f.text.length)).map dToE)))) = (rest.take (255 - f.text.length)).map dToE := by
    rw [show f.lead ++ (f.sgn.text ++ (mantText f.ip f.point f.fp ++ (expoText (convExpo f.expo) ++ (rest.take (255 - f.text.length)).map dToE)))
      = (f.lead ++ f.sgn.text ++ (mantText f.ip f.point f.fp ++ expoText (convExpo f.expo))) ++ (rest.take (255 - f.text.length)).map dToE by simp]
    rw [List.drop_left' (by rw [List.length_append, List.length_append]; exact hlen)]
  dsimp only
  rw [hdrop, delimSkip_eq, sepLen_map, sepLen_take _ _ (by omega)]
  have : dfltinSign (.fin (decide (f.sgn = .minus)) (((decVal f.ip : ℚ) + (decVal f.fp : ℚ) / 10 ^ f.fp.length) * (10 : ℚ) ^ (expoVal f.expo))) = signStatus f.sgn := by
    simp only [dfltinSign, signStatus, decide_eq_true_eq]
  rw [this]; rfl

theorem palDfltin_at (pre s : List Char) (old : DVal) :
    palDfltin (pre ++ s) (pre.length + 1) old =
      some { nstrt := pre.length + 1 + (dfltinCore s).2.2,
             dreslt := if (dfltinCore s).1 ≠ 1 then (dfltinCore s).2.1 else old,
             jflag := (dfltinCore s).1 } := by
  unfold palDfltin
  rw [if_neg (by simp)]
  simp

end Pal

namespace Pal
open Spec

theorem takeSign_len (t : List Char) : (takeSign t).2.1 + (takeSign t).2.2.length = t.length := by
  unfold takeSign; split <;> simp <;> omega

theorem takeExp_len (p : Char → Bool) (t : List Char) : (takeExp p t).2 ≤ t.length := by
  unfold takeExp
  split
  · rename_i c t
    split
    · have h1 := takeSign_len t
      generalize takeSign t = q at *
      obtain ⟨n, sl, r⟩ := q
      dsimp only at *
      have := length_takeWhile_le' isDigit r
      split
      · simp
      · simp only [List.length_cons]; omega
    · simp
  · simp

theorem takeFrac_len (p : Char → Bool) (t : List Char) : (takeFrac p t).2 ≤ t.length := by
  unfold takeFrac
  split
  · rename_i t
    have := length_takeWhile_le' p t
    simp only [List.length_cons]; omega
  · simp

theorem decFloat_len (s : List Char) (q : ℚ) (n : Nat) (h : decFloat s = some (q, n)) : n ≤ s.length ∧ 0 < n := by
  unfold decFloat at h
  dsimp only at h
  have h1 := length_takeWhile_le' isDigit s
  have h2 := takeFrac_len isDigit (s.drop (s.takeWhile isDigit).length)
  have h3 : (takeFrac isDigit (s.drop (s.takeWhile isDigit).length)).1 ≠ [] → 0 < (takeFrac isDigit (s.drop (s.takeWhile isDigit).length)).2 := by
    unfold takeFrac; split
    · intro _; simp only; omega
    · intro h; exact absurd rfl h
  generalize takeFrac isDigit (s.drop (s.takeWhile isDigit).length) = fr at *
  obtain ⟨fp, fl⟩ := fr
  dsimp only at *
  rw [List.length_drop] at h2
  split at h
  · exact absurd h (by simp)
  · rename_i hn
    have h4 := takeExp_len (fun c => c == 'e' || c == 'E') (s.drop ((s.takeWhile isDigit).length + fl))
    generalize takeExp (fun c => c == 'e' || c == 'E') (s.drop ((s.takeWhile isDigit).length + fl)) = ex at *
    obtain ⟨e, el⟩ := ex
    dsimp only at *
    rw [List.length_drop] at h4
    simp only [Option.some.injEq, Prod.mk.injEq] at h
    refine ⟨by omega, ?_⟩
    by_cases hi : s.takeWhile isDigit = []
    · have := h3 (fun hf => hn ⟨hi, hf⟩); omega
    · have := List.length_pos_iff.2 hi; omega

theorem hexFloat_len (s : List Char) (q : ℚ) (n : Nat) (h : hexFloat s = some (q, n)) : n ≤ s.length := by
  unfold hexFloat at h
  dsimp only at h
  have h1 := length_takeWhile_le' isXDigit s
  have h2 := takeFrac_len isXDigit (s.drop (s.takeWhile isXDigit).length)
  generalize takeFrac isXDigit (s.drop (s.takeWhile isXDigit).length) = fr at *
  obtain ⟨fp, fl⟩ := fr
  dsimp only at *
  rw [List.length_drop] at h2
  split at h
  · exact absurd h (by simp)
  · have h4 := takeExp_len (fun c => c == 'p' || c == 'P') (s.drop ((s.takeWhile isXDigit).length + fl))
    generalize takeExp (fun c => c == 'p' || c == 'P') (s.drop ((s.takeWhile isXDigit).length + fl)) = ex at *
    obtain ⟨e, el⟩ := ex
    dsimp only at *
    rw [List.length_drop] at h4
    simp only [Option.some.injEq, Prod.mk.injEq] at h
    omega

theorem hasPrefixCI_len (w s : List Char) (h : hasPrefixCI w s = true) : w.length ≤ s.length := by
  unfold hasPrefixCI at h
  have := congrArg List.length (eq_of_beq h)
  rw [List.length_map, List.length_take] at this
  omega

theorem nanTail_len (s : List Char) : nanTail s ≤ s.length := by
  unfold nanTail
  split
  · rename_i t
    dsimp only
    split
    · rename_i h
      have : (t.takeWhile (fun c => isDigit c || isAlpha c || c == '_')).length < t.length := by
        by_contra hc
        rw [List.drop_eq_nil_of_le (by omega)] at h
        exact absurd h (by simp)
      simp only [List.length_cons]; omega
    · simp
  · simp

theorem strtodBody_len (neg : Bool) (s : List Char) (v : DVal) (n : Nat) (e : Bool)
    (h : strtodBody neg s = some (v, n, e)) : n ≤ s.length ∧ 0 < n := by
  unfold strtodBody at h
  split at h
  · rename_i hp; have := hasPrefixCI_len _ _ hp; simp at h this; omega
  split at h
  · rename_i hp; have := hasPrefixCI_len _ _ hp; simp at h this; omega
  split at h
  · rename_i hp
    have h1 := hasPrefixCI_len _ _ hp
    have h2 := nanTail_len (s.drop 3)
    rw [List.length_drop] at h2
    simp at h h1; omega
  dsimp only at h
  split at h
  · rename_i q m hm
    split at hm
    · rename_i hp
      have h1 := hasPrefixCI_len _ _ hp
      have h2 := hexFloat_len _ _ _ hm
      rw [List.length_drop] at h2
      simp at h h1; omega
    · exact absurd hm (by simp)
  · split at h
    · rename_i q m hm
      have := decFloat_len _ _ _ hm
      simp at h; omega
    · exact absurd h (by simp)

theorem strtod_len (s : List Char) : (strtod s).used ≤ s.length := by
  have h1 : (s.takeWhile isSpace).length + (s.dropWhile isSpace).length = s.length := by
    rw [← List.length_append, List.takeWhile_append_dropWhile]
  have h2 := takeSign_len (s.dropWhile isSpace)
  unfold strtod
  generalize takeSign (s.dropWhile isSpace) = q at *
  obtain ⟨neg, sl, r⟩ := q
  dsimp only at *
  split
  · rename_i v n e he
    have := strtodBody_len _ _ _ _ _ he
    dsimp only; omega
  · simp

theorem strtod_zero_of_unused (s : List Char) (h : (strtod s).used = 0) : (strtod s).value = .fin false 0 := by
  unfold strtod at *
  generalize takeSign (s.dropWhile isSpace) = q at *
  obtain ⟨neg, sl, r⟩ := q
  dsimp only at *
  split
  · rename_i v n e he
    rw [he] at h
    have := strtodBody_len _ _ _ _ _ he
    dsimp only at h; omega
  · rfl

theorem dfltinCore_form (s : List Char) : ∃ adv, (dfltinCore s).2.2 = adv + delimSkip (((s.take 255).map dToE).drop adv) ∧
    adv ≤ (s.take 255).length ∧
    (((dfltinCore s).1 = 1 ∧ (strtod ((s.take 255).map dToE)).used = 0) ∨
     ((dfltinCore s).1 ∈ [-1, 0, 2] ∧ 0 < adv)) := by
  have hl := strtod_len ((s.take 255).map dToE)
  have hz := strtod_zero_of_unused ((s.take 255).map dToE)
  unfold dfltinCore tempbufSize
  rw [show (256 - 1 : Nat) = 255 from rfl]
  dsimp only
  rw [List.length_map] at hl
  generalize strtod ((s.take 255).map dToE) = r at *
  split
  · rename_i h
    refine ⟨_, rfl, ?_, Or.inl ⟨rfl, h.2⟩⟩
    have := length_takeWhile_le' (fun c => isBlank c || isAlpha c) ((s.take 255).map dToE)
    rw [List.length_map] at this
    exact this
  · rename_i h
    have hu : r.used ≠ 0 := by
      intro h0
      have := hz h0
      exact h ⟨by rw [this]; decide, h0⟩
    split
    · exact ⟨_, rfl, hl, Or.inr ⟨by simp, Nat.pos_of_ne_zero hu⟩⟩
    · refine ⟨_, rfl, hl, Or.inr ⟨?_, Nat.pos_of_ne_zero hu⟩⟩
      dsimp only
      cases r.value <;> simp only [dfltinSign] <;> first | (split <;> simp) | simp

theorem palDfltin_frame (string : List Char) (nstrt : Nat) (old : DVal)
    (h1 : 1 ≤ nstrt) (h2 : nstrt ≤ string.length + 1) :
    ∃ o, palDfltin string nstrt old = some o ∧ o.jflag ∈ [-1, 0, 1, 2] ∧
      nstrt ≤ o.nstrt ∧ o.nstrt ≤ string.length + 1 ∧
      (o.jflag ≠ 1 → nstrt < o.nstrt) ∧ (o.jflag = 1 → o.dreslt = old) := by
  obtain ⟨pre, s, rfl, hp⟩ : ∃ pre s, string = pre ++ s ∧ pre.length + 1 = nstrt :=
    ⟨string.take (nstrt - 1), string.drop (nstrt - 1), (List.take_append_drop ..).symm, by
      rw [List.length_take]; omega⟩
  subst hp
  refine ⟨_, palDfltin_at pre s old, ?_⟩
  obtain ⟨adv, ha, hle, hcase⟩ := dfltinCore_form s
  have hdl := delimSkip_le (((s.take 255).map dToE).drop adv)
  rw [List.length_drop, List.length_map] at hdl
  rw [List.length_take] at hdl hle
  refine ⟨?_, by simp, ?_, ?_, ?_⟩
  · rcases hcase with ⟨h, _⟩ | ⟨h, _⟩
    · simp [h]
    · simp only [List.mem_cons, List.not_mem_nil, or_false] at h ⊢; omega
  · simp only [ha, List.length_append]; omega
  · intro hj
    rcases hcase with ⟨h, _⟩ | ⟨_, hu⟩
    · exact absurd h hj
    · simp only [ha]; omega
  · intro hj; dsimp only at hj ⊢; rw [if_neg (not_not.2 hj)]

end Pal
