import Verif.Model.Obs

namespace Pal

theorem strellcpy_spec (dest src : List Char) (size : Nat) (h0 : size ≠ 0) (hs : size ≤ dest.length)
    (hsrc : ∀ c ∈ src, c ≠ nul) :
    ∃ r, strellcpy dest src size = some r ∧ r.length = dest.length ∧ r.drop size = dest.drop size ∧
      cText r = src.take (size - 1) := by
  have hl : (strncpy dest src size).length = dest.length := by
    simp [strncpy, hs]
  refine ⟨_, by unfold strellcpy; rw [if_neg (by omega)], by simp [hl], ?_, ?_⟩
  · rw [List.drop_set_of_lt (by omega)]
    unfold strncpy
    rw [List.drop_left' (by simp)]
  · unfold cText
    -- the first size-1 characters, then a NUL
    have e : (strncpy dest src size).set (size - 1) nul =
        ((src ++ List.replicate size nul).take (size - 1)) ++ nul :: dest.drop size := by
      have hsz : size - 1 < (strncpy dest src size).length := by rw [hl]; omega
      rw [List.set_eq_take_append_cons_drop, if_pos hsz]
      have h1 : (strncpy dest src size).take (size - 1) = (src ++ List.replicate size nul).take (size - 1) := by
        unfold strncpy
        rw [List.take_append_of_le_length (by simp), List.take_take]
        congr 1; omega
      have h2 : (strncpy dest src size).drop (size - 1 + 1) = dest.drop size := by
        unfold strncpy
        rw [show size - 1 + 1 = size by omega, List.drop_left' (by simp)]
      rw [h1, h2]
    rw [e]
    by_cases hc : size - 1 ≤ src.length
    · rw [List.take_append_of_le_length hc]
      have : ∀ l : List Char, (∀ c ∈ l, c ≠ nul) → ∀ t, (l ++ nul :: t).takeWhile (fun c => c != nul) = l := by
        intro l hl t
        induction l with
        | nil => simp
        | cons a l ih =>
          have ha := hl a (by simp)
          simp only [List.cons_append, List.takeWhile_cons]
          rw [if_pos (by simpa using ha), ih (fun c hc => hl c (by simp [hc]))]
      exact this _ (fun c hc' => hsrc c (List.mem_of_mem_take hc')) _
    · have hc' : src.length < size - 1 := by omega
      rw [List.take_append, List.take_of_length_le (by omega)]
      have hrep : ∃ k, (List.replicate size nul).take (size - 1 - src.length) = List.replicate (k+1) nul := by
        refine ⟨size - 1 - src.length - 1, ?_⟩
        rw [List.take_replicate]; congr 1; omega
      obtain ⟨k, hk⟩ := hrep
      rw [hk, List.replicate_succ, List.append_assoc, List.cons_append]
      have : ∀ l : List Char, (∀ c ∈ l, c ≠ nul) → ∀ t, (l ++ nul :: t).takeWhile (fun c => c != nul) = l := by
        intro l hl t
        induction l with
        | nil => simp
        | cons a l ih =>
          have ha := hl a (by simp)
          simp only [List.cons_append, List.takeWhile_cons]
          rw [if_pos (by simpa using ha), ih (fun c hc => hl c (by simp [hc]))]
      exact this _ hsrc _

end Pal
