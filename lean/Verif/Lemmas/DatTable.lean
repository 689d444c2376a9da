import Verif.Lemmas.DatSearch
import Verif.Props.Calendar
import Mathlib.Tactic.Linarith
import Mathlib.Tactic.NormNum

/-!
Generated case analysis over the 42 entries of ERFA's table.
-/

namespace Pal.Props
open Pal Spec

set_option maxHeartbeats 4000000

theorem eraDat_taiUtc (t : Date) (hv : t.Valid) (hy : -4799 ≤ t.y) (f : ℚ) (hf : 0 ≤ f ∧ f < 1) :
    eraDat t.y t.m t.d f = taiUtc ((eraMjdOf t.y t.m t.d : ℤ) + f) := by
  obtain ⟨hf0, hf1⟩ := hf
  obtain ⟨j, hj⟩ : ∃ j, eraMjdOf t.y t.m t.d = j := ⟨_, rfl⟩
  have hs := dat_search t hv hy j hj
  have h60 := month_le_iff t hv hy 1960 1 (by decide) (by decide)
  rw [hj, show eraMjdOf 1960 1 1 = 36934 by decide +kernel] at h60
  have hc := cldj_valid t hv hy 0
  unfold palCldj at hc
  unfold eraDat
  rw [if_neg (by rintro (h | h) <;> linarith)]
  dsimp only
  rw [hc, if_neg (lt_irrefl (0 : ℤ)), hs, hj]
  clear hs hc
  have h1 := hv.m1
  have h2 := hv.m12
  clear hv
  have lt : ∀ (c : ℤ) (q : ℚ), (c : ℚ) = q → j < c → (j : ℚ) + f < q := by
    intro c q hq h
    rw [← hq]
    have : (j : ℚ) + 1 ≤ c := by exact_mod_cast h
    linarith
  have ge : ∀ (c : ℤ) (q : ℚ), (c : ℚ) = q → c ≤ j → ¬ ((j : ℚ) + f < q) := by
    intro c q hq h
    rw [← hq]
    have : (c : ℚ) ≤ j := by exact_mod_cast h
    linarith
  rcases lt_or_ge j 36934 with h | h
  · rw [if_pos (by omega)]
    unfold taiUtc
    rw [if_pos (lt 36934 36934 (Int.cast_ofNat _) h)]
  rw [if_neg (by omega)]
  clear h60 h1 h2
  rcases lt_or_ge j 37300 with h' | h'
  · clear hj
    rw [if_neg (show ¬ (57754 ≤ j) by omega)]
    rw [if_neg (show ¬ (57204 ≤ j) by omega)]
    rw [if_neg (show ¬ (56109 ≤ j) by omega)]
    rw [if_neg (show ¬ (54832 ≤ j) by omega)]
    rw [if_neg (show ¬ (53736 ≤ j) by omega)]
    rw [if_neg (show ¬ (51179 ≤ j) by omega)]
    rw [if_neg (show ¬ (50630 ≤ j) by omega)]
    rw [if_neg (show ¬ (50083 ≤ j) by omega)]
    rw [if_neg (show ¬ (49534 ≤ j) by omega)]
    rw [if_neg (show ¬ (49169 ≤ j) by omega)]
    rw [if_neg (show ¬ (48804 ≤ j) by omega)]
    rw [if_neg (show ¬ (48257 ≤ j) by omega)]
    rw [if_neg (show ¬ (47892 ≤ j) by omega)]
    rw [if_neg (show ¬ (47161 ≤ j) by omega)]
    rw [if_neg (show ¬ (46247 ≤ j) by omega)]
    rw [if_neg (show ¬ (45516 ≤ j) by omega)]
    rw [if_neg (show ¬ (45151 ≤ j) by omega)]
    rw [if_neg (show ¬ (44786 ≤ j) by omega)]
    rw [if_neg (show ¬ (44239 ≤ j) by omega)]
    rw [if_neg (show ¬ (43874 ≤ j) by omega)]
    rw [if_neg (show ¬ (43509 ≤ j) by omega)]
    rw [if_neg (show ¬ (43144 ≤ j) by omega)]
    rw [if_neg (show ¬ (42778 ≤ j) by omega)]
    rw [if_neg (show ¬ (42413 ≤ j) by omega)]
    rw [if_neg (show ¬ (42048 ≤ j) by omega)]
    rw [if_neg (show ¬ (41683 ≤ j) by omega)]
    rw [if_neg (show ¬ (41499 ≤ j) by omega)]
    rw [if_neg (show ¬ (41317 ≤ j) by omega)]
    rw [if_neg (show ¬ (39887 ≤ j) by omega)]
    rw [if_neg (show ¬ (39126 ≤ j) by omega)]
    rw [if_neg (show ¬ (39004 ≤ j) by omega)]
    rw [if_neg (show ¬ (38942 ≤ j) by omega)]
    rw [if_neg (show ¬ (38820 ≤ j) by omega)]
    rw [if_neg (show ¬ (38761 ≤ j) by omega)]
    rw [if_neg (show ¬ (38639 ≤ j) by omega)]
    rw [if_neg (show ¬ (38486 ≤ j) by omega)]
    rw [if_neg (show ¬ (38395 ≤ j) by omega)]
    rw [if_neg (show ¬ (38334 ≤ j) by omega)]
    rw [if_neg (show ¬ (37665 ≤ j) by omega)]
    rw [if_neg (show ¬ (37512 ≤ j) by omega)]
    rw [if_neg (show ¬ (37300 ≤ j) by omega)]
    rw [if_pos (show 36934 ≤ j by omega)]
    unfold taiUtc
    rw [if_neg (ge 36934 36934 (Int.cast_ofNat _) (by omega))]
    rw [if_pos (lt 37300 37300 (Int.cast_ofNat _) (by omega))]
    norm_num [eraDatChanges, eraDatDrift]
  replace h := h'
  clear h'
  rcases lt_or_ge j 37512 with h' | h'
  · clear hj
    rw [if_neg (show ¬ (57754 ≤ j) by omega)]
    rw [if_neg (show ¬ (57204 ≤ j) by omega)]
    rw [if_neg (show ¬ (56109 ≤ j) by omega)]
    rw [if_neg (show ¬ (54832 ≤ j) by omega)]
    rw [if_neg (show ¬ (53736 ≤ j) by omega)]
    rw [if_neg (show ¬ (51179 ≤ j) by omega)]
    rw [if_neg (show ¬ (50630 ≤ j) by omega)]
    rw [if_neg (show ¬ (50083 ≤ j) by omega)]
    rw [if_neg (show ¬ (49534 ≤ j) by omega)]
    rw [if_neg (show ¬ (49169 ≤ j) by omega)]
    rw [if_neg (show ¬ (48804 ≤ j) by omega)]
    rw [if_neg (show ¬ (48257 ≤ j) by omega)]
    rw [if_neg (show ¬ (47892 ≤ j) by omega)]
    rw [if_neg (show ¬ (47161 ≤ j) by omega)]
    rw [if_neg (show ¬ (46247 ≤ j) by omega)]
    rw [if_neg (show ¬ (45516 ≤ j) by omega)]
    rw [if_neg (show ¬ (45151 ≤ j) by omega)]
    rw [if_neg (show ¬ (44786 ≤ j) by omega)]
    rw [if_neg (show ¬ (44239 ≤ j) by omega)]
    rw [if_neg (show ¬ (43874 ≤ j) by omega)]
    rw [if_neg (show ¬ (43509 ≤ j) by omega)]
    rw [if_neg (show ¬ (43144 ≤ j) by omega)]
    rw [if_neg (show ¬ (42778 ≤ j) by omega)]
    rw [if_neg (show ¬ (42413 ≤ j) by omega)]
    rw [if_neg (show ¬ (42048 ≤ j) by omega)]
    rw [if_neg (show ¬ (41683 ≤ j) by omega)]
    rw [if_neg (show ¬ (41499 ≤ j) by omega)]
    rw [if_neg (show ¬ (41317 ≤ j) by omega)]
    rw [if_neg (show ¬ (39887 ≤ j) by omega)]
    rw [if_neg (show ¬ (39126 ≤ j) by omega)]
    rw [if_neg (show ¬ (39004 ≤ j) by omega)]
    rw [if_neg (show ¬ (38942 ≤ j) by omega)]
    rw [if_neg (show ¬ (38820 ≤ j) by omega)]
    rw [if_neg (show ¬ (38761 ≤ j) by omega)]
    rw [if_neg (show ¬ (38639 ≤ j) by omega)]
    rw [if_neg (show ¬ (38486 ≤ j) by omega)]
    rw [if_neg (show ¬ (38395 ≤ j) by omega)]
    rw [if_neg (show ¬ (38334 ≤ j) by omega)]
    rw [if_neg (show ¬ (37665 ≤ j) by omega)]
    rw [if_neg (show ¬ (37512 ≤ j) by omega)]
    rw [if_pos (show 37300 ≤ j by omega)]
    unfold taiUtc
    rw [if_neg (ge 36934 36934 (Int.cast_ofNat _) (by omega))]
    rw [if_neg (ge 37300 37300 (Int.cast_ofNat _) (by omega))]
    rw [if_pos (lt 37512 37512 (Int.cast_ofNat _) (by omega))]
    norm_num [eraDatChanges, eraDatDrift]
  replace h := h'
  clear h'
  rcases lt_or_ge j 37665 with h' | h'
  · clear hj
    rw [if_neg (show ¬ (57754 ≤ j) by omega)]
    rw [if_neg (show ¬ (57204 ≤ j) by omega)]
    rw [if_neg (show ¬ (56109 ≤ j) by omega)]
    rw [if_neg (show ¬ (54832 ≤ j) by omega)]
    rw [if_neg (show ¬ (53736 ≤ j) by omega)]
    rw [if_neg (show ¬ (51179 ≤ j) by omega)]
    rw [if_neg (show ¬ (50630 ≤ j) by omega)]
    rw [if_neg (show ¬ (50083 ≤ j) by omega)]
    rw [if_neg (show ¬ (49534 ≤ j) by omega)]
    rw [if_neg (show ¬ (49169 ≤ j) by omega)]
    rw [if_neg (show ¬ (48804 ≤ j) by omega)]
    rw [if_neg (show ¬ (48257 ≤ j) by omega)]
    rw [if_neg (show ¬ (47892 ≤ j) by omega)]
    rw [if_neg (show ¬ (47161 ≤ j) by omega)]
    rw [if_neg (show ¬ (46247 ≤ j) by omega)]
    rw [if_neg (show ¬ (45516 ≤ j) by omega)]
    rw [if_neg (show ¬ (45151 ≤ j) by omega)]
    rw [if_neg (show ¬ (44786 ≤ j) by omega)]
    rw [if_neg (show ¬ (44239 ≤ j) by omega)]
    rw [if_neg (show ¬ (43874 ≤ j) by omega)]
    rw [if_neg (show ¬ (43509 ≤ j) by omega)]
    rw [if_neg (show ¬ (43144 ≤ j) by omega)]
    rw [if_neg (show ¬ (42778 ≤ j) by omega)]
    rw [if_neg (show ¬ (42413 ≤ j) by omega)]
    rw [if_neg (show ¬ (42048 ≤ j) by omega)]
    rw [if_neg (show ¬ (41683 ≤ j) by omega)]
    rw [if_neg (show ¬ (41499 ≤ j) by omega)]
    rw [if_neg (show ¬ (41317 ≤ j) by omega)]
    rw [if_neg (show ¬ (39887 ≤ j) by omega)]
    rw [if_neg (show ¬ (39126 ≤ j) by omega)]
    rw [if_neg (show ¬ (39004 ≤ j) by omega)]
    rw [if_neg (show ¬ (38942 ≤ j) by omega)]
    rw [if_neg (show ¬ (38820 ≤ j) by omega)]
    rw [if_neg (show ¬ (38761 ≤ j) by omega)]
    rw [if_neg (show ¬ (38639 ≤ j) by omega)]
    rw [if_neg (show ¬ (38486 ≤ j) by omega)]
    rw [if_neg (show ¬ (38395 ≤ j) by omega)]
    rw [if_neg (show ¬ (38334 ≤ j) by omega)]
    rw [if_neg (show ¬ (37665 ≤ j) by omega)]
    rw [if_pos (show 37512 ≤ j by omega)]
    unfold taiUtc
    rw [if_neg (ge 36934 36934 (Int.cast_ofNat _) (by omega))]
    rw [if_neg (ge 37300 37300 (Int.cast_ofNat _) (by omega))]
    rw [if_neg (ge 37512 37512 (Int.cast_ofNat _) (by omega))]
    rw [if_pos (lt 37665 37665 (Int.cast_ofNat _) (by omega))]
    norm_num [eraDatChanges, eraDatDrift]
  replace h := h'
  clear h'
  rcases lt_or_ge j 38334 with h' | h'
  · clear hj
    rw [if_neg (show ¬ (57754 ≤ j) by omega)]
    rw [if_neg (show ¬ (57204 ≤ j) by omega)]
    rw [if_neg (show ¬ (56109 ≤ j) by omega)]
    rw [if_neg (show ¬ (54832 ≤ j) by omega)]
    rw [if_neg (show ¬ (53736 ≤ j) by omega)]
    rw [if_neg (show ¬ (51179 ≤ j) by omega)]
    rw [if_neg (show ¬ (50630 ≤ j) by omega)]
    rw [if_neg (show ¬ (50083 ≤ j) by omega)]
    rw [if_neg (show ¬ (49534 ≤ j) by omega)]
    rw [if_neg (show ¬ (49169 ≤ j) by omega)]
    rw [if_neg (show ¬ (48804 ≤ j) by omega)]
    rw [if_neg (show ¬ (48257 ≤ j) by omega)]
    rw [if_neg (show ¬ (47892 ≤ j) by omega)]
    rw [if_neg (show ¬ (47161 ≤ j) by omega)]
    rw [if_neg (show ¬ (46247 ≤ j) by omega)]
    rw [if_neg (show ¬ (45516 ≤ j) by omega)]
    rw [if_neg (show ¬ (45151 ≤ j) by omega)]
    rw [if_neg (show ¬ (44786 ≤ j) by omega)]
    rw [if_neg (show ¬ (44239 ≤ j) by omega)]
    rw [if_neg (show ¬ (43874 ≤ j) by omega)]
    rw [if_neg (show ¬ (43509 ≤ j) by omega)]
    rw [if_neg (show ¬ (43144 ≤ j) by omega)]
    rw [if_neg (show ¬ (42778 ≤ j) by omega)]
    rw [if_neg (show ¬ (42413 ≤ j) by omega)]
    rw [if_neg (show ¬ (42048 ≤ j) by omega)]
    rw [if_neg (show ¬ (41683 ≤ j) by omega)]
    rw [if_neg (show ¬ (41499 ≤ j) by omega)]
    rw [if_neg (show ¬ (41317 ≤ j) by omega)]
    rw [if_neg (show ¬ (39887 ≤ j) by omega)]
    rw [if_neg (show ¬ (39126 ≤ j) by omega)]
    rw [if_neg (show ¬ (39004 ≤ j) by omega)]
    rw [if_neg (show ¬ (38942 ≤ j) by omega)]
    rw [if_neg (show ¬ (38820 ≤ j) by omega)]
    rw [if_neg (show ¬ (38761 ≤ j) by omega)]
    rw [if_neg (show ¬ (38639 ≤ j) by omega)]
    rw [if_neg (show ¬ (38486 ≤ j) by omega)]
    rw [if_neg (show ¬ (38395 ≤ j) by omega)]
    rw [if_neg (show ¬ (38334 ≤ j) by omega)]
    rw [if_pos (show 37665 ≤ j by omega)]
    unfold taiUtc
    rw [if_neg (ge 36934 36934 (Int.cast_ofNat _) (by omega))]
    rw [if_neg (ge 37300 37300 (Int.cast_ofNat _) (by omega))]
    rw [if_neg (ge 37512 37512 (Int.cast_ofNat _) (by omega))]
    rw [if_neg (ge 37665 37665 (Int.cast_ofNat _) (by omega))]
    rw [if_pos (lt 38334 38334 (Int.cast_ofNat _) (by omega))]
    norm_num [eraDatChanges, eraDatDrift]
  replace h := h'
  clear h'
  rcases lt_or_ge j 38395 with h' | h'
  · clear hj
    rw [if_neg (show ¬ (57754 ≤ j) by omega)]
    rw [if_neg (show ¬ (57204 ≤ j) by omega)]
    rw [if_neg (show ¬ (56109 ≤ j) by omega)]
    rw [if_neg (show ¬ (54832 ≤ j) by omega)]
    rw [if_neg (show ¬ (53736 ≤ j) by omega)]
    rw [if_neg (show ¬ (51179 ≤ j) by omega)]
    rw [if_neg (show ¬ (50630 ≤ j) by omega)]
    rw [if_neg (show ¬ (50083 ≤ j) by omega)]
    rw [if_neg (show ¬ (49534 ≤ j) by omega)]
    rw [if_neg (show ¬ (49169 ≤ j) by omega)]
    rw [if_neg (show ¬ (48804 ≤ j) by omega)]
    rw [if_neg (show ¬ (48257 ≤ j) by omega)]
    rw [if_neg (show ¬ (47892 ≤ j) by omega)]
    rw [if_neg (show ¬ (47161 ≤ j) by omega)]
    rw [if_neg (show ¬ (46247 ≤ j) by omega)]
    rw [if_neg (show ¬ (45516 ≤ j) by omega)]
    rw [if_neg (show ¬ (45151 ≤ j) by omega)]
    rw [if_neg (show ¬ (44786 ≤ j) by omega)]
    rw [if_neg (show ¬ (44239 ≤ j) by omega)]
    rw [if_neg (show ¬ (43874 ≤ j) by omega)]
    rw [if_neg (show ¬ (43509 ≤ j) by omega)]
    rw [if_neg (show ¬ (43144 ≤ j) by omega)]
    rw [if_neg (show ¬ (42778 ≤ j) by omega)]
    rw [if_neg (show ¬ (42413 ≤ j) by omega)]
    rw [if_neg (show ¬ (42048 ≤ j) by omega)]
    rw [if_neg (show ¬ (41683 ≤ j) by omega)]
    rw [if_neg (show ¬ (41499 ≤ j) by omega)]
    rw [if_neg (show ¬ (41317 ≤ j) by omega)]
    rw [if_neg (show ¬ (39887 ≤ j) by omega)]
    rw [if_neg (show ¬ (39126 ≤ j) by omega)]
    rw [if_neg (show ¬ (39004 ≤ j) by omega)]
    rw [if_neg (show ¬ (38942 ≤ j) by omega)]
    rw [if_neg (show ¬ (38820 ≤ j) by omega)]
    rw [if_neg (show ¬ (38761 ≤ j) by omega)]
    rw [if_neg (show ¬ (38639 ≤ j) by omega)]
    rw [if_neg (show ¬ (38486 ≤ j) by omega)]
    rw [if_neg (show ¬ (38395 ≤ j) by omega)]
    rw [if_pos (show 38334 ≤ j by omega)]
    unfold taiUtc
    rw [if_neg (ge 36934 36934 (Int.cast_ofNat _) (by omega))]
    rw [if_neg (ge 37300 37300 (Int.cast_ofNat _) (by omega))]
    rw [if_neg (ge 37512 37512 (Int.cast_ofNat _) (by omega))]
    rw [if_neg (ge 37665 37665 (Int.cast_ofNat _) (by omega))]
    rw [if_neg (ge 38334 38334 (Int.cast_ofNat _) (by omega))]
    rw [if_pos (lt 38395 38395 (Int.cast_ofNat _) (by omega))]
    norm_num [eraDatChanges, eraDatDrift]
  replace h := h'
  clear h'
  rcases lt_or_ge j 38486 with h' | h'
  · clear hj
    rw [if_neg (show ¬ (57754 ≤ j) by omega)]
    rw [if_neg (show ¬ (57204 ≤ j) by omega)]
    rw [if_neg (show ¬ (56109 ≤ j) by omega)]
    rw [if_neg (show ¬ (54832 ≤ j) by omega)]
    rw [if_neg (show ¬ (53736 ≤ j) by omega)]
    rw [if_neg (show ¬ (51179 ≤ j) by omega)]
    rw [if_neg (show ¬ (50630 ≤ j) by omega)]
    rw [if_neg (show ¬ (50083 ≤ j) by omega)]
    rw [if_neg (show ¬ (49534 ≤ j) by omega)]
    rw [if_neg (show ¬ (49169 ≤ j) by omega)]
    rw [if_neg (show ¬ (48804 ≤ j) by omega)]
    rw [if_neg (show ¬ (48257 ≤ j) by omega)]
    rw [if_neg (show ¬ (47892 ≤ j) by omega)]
    rw [if_neg (show ¬ (47161 ≤ j) by omega)]
    rw [if_neg (show ¬ (46247 ≤ j) by omega)]
    rw [if_neg (show ¬ (45516 ≤ j) by omega)]
    rw [if_neg (show ¬ (45151 ≤ j) by omega)]
    rw [if_neg (show ¬ (44786 ≤ j) by omega)]
    rw [if_neg (show ¬ (44239 ≤ j) by omega)]
    rw [if_neg (show ¬ (43874 ≤ j) by omega)]
    rw [if_neg (show ¬ (43509 ≤ j) by omega)]
    rw [if_neg (show ¬ (43144 ≤ j) by omega)]
    rw [if_neg (show ¬ (42778 ≤ j) by omega)]
    rw [if_neg (show ¬ (42413 ≤ j) by omega)]
    rw [if_neg (show ¬ (42048 ≤ j) by omega)]
    rw [if_neg (show ¬ (41683 ≤ j) by omega)]
    rw [if_neg (show ¬ (41499 ≤ j) by omega)]
    rw [if_neg (show ¬ (41317 ≤ j) by omega)]
    rw [if_neg (show ¬ (39887 ≤ j) by omega)]
    rw [if_neg (show ¬ (39126 ≤ j) by omega)]
    rw [if_neg (show ¬ (39004 ≤ j) by omega)]
    rw [if_neg (show ¬ (38942 ≤ j) by omega)]
    rw [if_neg (show ¬ (38820 ≤ j) by omega)]
    rw [if_neg (show ¬ (38761 ≤ j) by omega)]
    rw [if_neg (show ¬ (38639 ≤ j) by omega)]
    rw [if_neg (show ¬ (38486 ≤ j) by omega)]
    rw [if_pos (show 38395 ≤ j by omega)]
    unfold taiUtc
    rw [if_neg (ge 36934 36934 (Int.cast_ofNat _) (by omega))]
    rw [if_neg (ge 37300 37300 (Int.cast_ofNat _) (by omega))]
    rw [if_neg (ge 37512 37512 (Int.cast_ofNat _) (by omega))]
    rw [if_neg (ge 37665 37665 (Int.cast_ofNat _) (by omega))]
    rw [if_neg (ge 38334 38334 (Int.cast_ofNat _) (by omega))]
    rw [if_neg (ge 38395 38395 (Int.cast_ofNat _) (by omega))]
    rw [if_pos (lt 38486 38486 (Int.cast_ofNat _) (by omega))]
    norm_num [eraDatChanges, eraDatDrift]
  replace h := h'
  clear h'
  rcases lt_or_ge j 38639 with h' | h'
  · clear hj
    rw [if_neg (show ¬ (57754 ≤ j) by omega)]
    rw [if_neg (show ¬ (57204 ≤ j) by omega)]
    rw [if_neg (show ¬ (56109 ≤ j) by omega)]
    rw [if_neg (show ¬ (54832 ≤ j) by omega)]
    rw [if_neg (show ¬ (53736 ≤ j) by omega)]
    rw [if_neg (show ¬ (51179 ≤ j) by omega)]
    rw [if_neg (show ¬ (50630 ≤ j) by omega)]
    rw [if_neg (show ¬ (50083 ≤ j) by omega)]
    rw [if_neg (show ¬ (49534 ≤ j) by omega)]
    rw [if_neg (show ¬ (49169 ≤ j) by omega)]
    rw [if_neg (show ¬ (48804 ≤ j) by omega)]
    rw [if_neg (show ¬ (48257 ≤ j) by omega)]
    rw [if_neg (show ¬ (47892 ≤ j) by omega)]
    rw [if_neg (show ¬ (47161 ≤ j) by omega)]
    rw [if_neg (show ¬ (46247 ≤ j) by omega)]
    rw [if_neg (show ¬ (45516 ≤ j) by omega)]
    rw [if_neg (show ¬ (45151 ≤ j) by omega)]
    rw [if_neg (show ¬ (44786 ≤ j) by omega)]
    rw [if_neg (show ¬ (44239 ≤ j) by omega)]
    rw [if_neg (show ¬ (43874 ≤ j) by omega)]
    rw [if_neg (show ¬ (43509 ≤ j) by omega)]
    rw [if_neg (show ¬ (43144 ≤ j) by omega)]
    rw [if_neg (show ¬ (42778 ≤ j) by omega)]
    rw [if_neg (show ¬ (42413 ≤ j) by omega)]
    rw [if_neg (show ¬ (42048 ≤ j) by omega)]
    rw [if_neg (show ¬ (41683 ≤ j) by omega)]
    rw [if_neg (show ¬ (41499 ≤ j) by omega)]
    rw [if_neg (show ¬ (41317 ≤ j) by omega)]
    rw [if_neg (show ¬ (39887 ≤ j) by omega)]
    rw [if_neg (show ¬ (39126 ≤ j) by omega)]
    rw [if_neg (show ¬ (39004 ≤ j) by omega)]
    rw [if_neg (show ¬ (38942 ≤ j) by omega)]
    rw [if_neg (show ¬ (38820 ≤ j) by omega)]
    rw [if_neg (show ¬ (38761 ≤ j) by omega)]
    rw [if_neg (show ¬ (38639 ≤ j) by omega)]
    rw [if_pos (show 38486 ≤ j by omega)]
    unfold taiUtc
    rw [if_neg (ge 36934 36934 (Int.cast_ofNat _) (by omega))]
    rw [if_neg (ge 37300 37300 (Int.cast_ofNat _) (by omega))]
    rw [if_neg (ge 37512 37512 (Int.cast_ofNat _) (by omega))]
    rw [if_neg (ge 37665 37665 (Int.cast_ofNat _) (by omega))]
    rw [if_neg (ge 38334 38334 (Int.cast_ofNat _) (by omega))]
    rw [if_neg (ge 38395 38395 (Int.cast_ofNat _) (by omega))]
    rw [if_neg (ge 38486 38486 (Int.cast_ofNat _) (by omega))]
    rw [if_pos (lt 38639 38639 (Int.cast_ofNat _) (by omega))]
    norm_num [eraDatChanges, eraDatDrift]
  replace h := h'
  clear h'
  rcases lt_or_ge j 38761 with h' | h'
  · clear hj
    rw [if_neg (show ¬ (57754 ≤ j) by omega)]
    rw [if_neg (show ¬ (57204 ≤ j) by omega)]
    rw [if_neg (show ¬ (56109 ≤ j) by omega)]
    rw [if_neg (show ¬ (54832 ≤ j) by omega)]
    rw [if_neg (show ¬ (53736 ≤ j) by omega)]
    rw [if_neg (show ¬ (51179 ≤ j) by omega)]
    rw [if_neg (show ¬ (50630 ≤ j) by omega)]
    rw [if_neg (show ¬ (50083 ≤ j) by omega)]
    rw [if_neg (show ¬ (49534 ≤ j) by omega)]
    rw [if_neg (show ¬ (49169 ≤ j) by omega)]
    rw [if_neg (show ¬ (48804 ≤ j) by omega)]
    rw [if_neg (show ¬ (48257 ≤ j) by omega)]
    rw [if_neg (show ¬ (47892 ≤ j) by omega)]
    rw [if_neg (show ¬ (47161 ≤ j) by omega)]
    rw [if_neg (show ¬ (46247 ≤ j) by omega)]
    rw [if_neg (show ¬ (45516 ≤ j) by omega)]
    rw [if_neg (show ¬ (45151 ≤ j) by omega)]
    rw [if_neg (show ¬ (44786 ≤ j) by omega)]
    rw [if_neg (show ¬ (44239 ≤ j) by omega)]
    rw [if_neg (show ¬ (43874 ≤ j) by omega)]
    rw [if_neg (show ¬ (43509 ≤ j) by omega)]
    rw [if_neg (show ¬ (43144 ≤ j) by omega)]
    rw [if_neg (show ¬ (42778 ≤ j) by omega)]
    rw [if_neg (show ¬ (42413 ≤ j) by omega)]
    rw [if_neg (show ¬ (42048 ≤ j) by omega)]
    rw [if_neg (show ¬ (41683 ≤ j) by omega)]
    rw [if_neg (show ¬ (41499 ≤ j) by omega)]
    rw [if_neg (show ¬ (41317 ≤ j) by omega)]
    rw [if_neg (show ¬ (39887 ≤ j) by omega)]
    rw [if_neg (show ¬ (39126 ≤ j) by omega)]
    rw [if_neg (show ¬ (39004 ≤ j) by omega)]
    rw [if_neg (show ¬ (38942 ≤ j) by omega)]
    rw [if_neg (show ¬ (38820 ≤ j) by omega)]
    rw [if_neg (show ¬ (38761 ≤ j) by omega)]
    rw [if_pos (show 38639 ≤ j by omega)]
    unfold taiUtc
    rw [if_neg (ge 36934 36934 (Int.cast_ofNat _) (by omega))]
    rw [if_neg (ge 37300 37300 (Int.cast_ofNat _) (by omega))]
    rw [if_neg (ge 37512 37512 (Int.cast_ofNat _) (by omega))]
    rw [if_neg (ge 37665 37665 (Int.cast_ofNat _) (by omega))]
    rw [if_neg (ge 38334 38334 (Int.cast_ofNat _) (by omega))]
    rw [if_neg (ge 38395 38395 (Int.cast_ofNat _) (by omega))]
    rw [if_neg (ge 38486 38486 (Int.cast_ofNat _) (by omega))]
    rw [if_neg (ge 38639 38639 (Int.cast_ofNat _) (by omega))]
    rw [if_pos (lt 38761 38761 (Int.cast_ofNat _) (by omega))]
    norm_num [eraDatChanges, eraDatDrift]
  replace h := h'
  clear h'
  rcases lt_or_ge j 38820 with h' | h'
  · clear hj
    rw [if_neg (show ¬ (57754 ≤ j) by omega)]
    rw [if_neg (show ¬ (57204 ≤ j) by omega)]
    rw [if_neg (show ¬ (56109 ≤ j) by omega)]
    rw [if_neg (show ¬ (54832 ≤ j) by omega)]
    rw [if_neg (show ¬ (53736 ≤ j) by omega)]
    rw [if_neg (show ¬ (51179 ≤ j) by omega)]
    rw [if_neg (show ¬ (50630 ≤ j) by omega)]
    rw [if_neg (show ¬ (50083 ≤ j) by omega)]
    rw [if_neg (show ¬ (49534 ≤ j) by omega)]
    rw [if_neg (show ¬ (49169 ≤ j) by omega)]
    rw [if_neg (show ¬ (48804 ≤ j) by omega)]
    rw [if_neg (show ¬ (48257 ≤ j) by omega)]
    rw [if_neg (show ¬ (47892 ≤ j) by omega)]
    rw [if_neg (show ¬ (47161 ≤ j) by omega)]
    rw [if_neg (show ¬ (46247 ≤ j) by omega)]
    rw [if_neg (show ¬ (45516 ≤ j) by omega)]
    rw [if_neg (show ¬ (45151 ≤ j) by omega)]
    rw [if_neg (show ¬ (44786 ≤ j) by omega)]
    rw [if_neg (show ¬ (44239 ≤ j) by omega)]
    rw [if_neg (show ¬ (43874 ≤ j) by omega)]
    rw [if_neg (show ¬ (43509 ≤ j) by omega)]
    rw [if_neg (show ¬ (43144 ≤ j) by omega)]
    rw [if_neg (show ¬ (42778 ≤ j) by omega)]
    rw [if_neg (show ¬ (42413 ≤ j) by omega)]
    rw [if_neg (show ¬ (42048 ≤ j) by omega)]
    rw [if_neg (show ¬ (41683 ≤ j) by omega)]
    rw [if_neg (show ¬ (41499 ≤ j) by omega)]
    rw [if_neg (show ¬ (41317 ≤ j) by omega)]
    rw [if_neg (show ¬ (39887 ≤ j) by omega)]
    rw [if_neg (show ¬ (39126 ≤ j) by omega)]
    rw [if_neg (show ¬ (39004 ≤ j) by omega)]
    rw [if_neg (show ¬ (38942 ≤ j) by omega)]
    rw [if_neg (show ¬ (38820 ≤ j) by omega)]
    rw [if_pos (show 38761 ≤ j by omega)]
    unfold taiUtc
    rw [if_neg (ge 36934 36934 (Int.cast_ofNat _) (by omega))]
    rw [if_neg (ge 37300 37300 (Int.cast_ofNat _) (by omega))]
    rw [if_neg (ge 37512 37512 (Int.cast_ofNat _) (by omega))]
    rw [if_neg (ge 37665 37665 (Int.cast_ofNat _) (by omega))]
    rw [if_neg (ge 38334 38334 (Int.cast_ofNat _) (by omega))]
    rw [if_neg (ge 38395 38395 (Int.cast_ofNat _) (by omega))]
    rw [if_neg (ge 38486 38486 (Int.cast_ofNat _) (by omega))]
    rw [if_neg (ge 38639 38639 (Int.cast_ofNat _) (by omega))]
    rw [if_neg (ge 38761 38761 (Int.cast_ofNat _) (by omega))]
    rw [if_pos (lt 38820 38820 (Int.cast_ofNat _) (by omega))]
    norm_num [eraDatChanges, eraDatDrift]
  replace h := h'
  clear h'
  rcases lt_or_ge j 38942 with h' | h'
  · clear hj
    rw [if_neg (show ¬ (57754 ≤ j) by omega)]
    rw [if_neg (show ¬ (57204 ≤ j) by omega)]
    rw [if_neg (show ¬ (56109 ≤ j) by omega)]
    rw [if_neg (show ¬ (54832 ≤ j) by omega)]
    rw [if_neg (show ¬ (53736 ≤ j) by omega)]
    rw [if_neg (show ¬ (51179 ≤ j) by omega)]
    rw [if_neg (show ¬ (50630 ≤ j) by omega)]
    rw [if_neg (show ¬ (50083 ≤ j) by omega)]
    rw [if_neg (show ¬ (49534 ≤ j) by omega)]
    rw [if_neg (show ¬ (49169 ≤ j) by omega)]
    rw [if_neg (show ¬ (48804 ≤ j) by omega)]
    rw [if_neg (show ¬ (48257 ≤ j) by omega)]
    rw [if_neg (show ¬ (47892 ≤ j) by omega)]
    rw [if_neg (show ¬ (47161 ≤ j) by omega)]
    rw [if_neg (show ¬ (46247 ≤ j) by omega)]
    rw [if_neg (show ¬ (45516 ≤ j) by omega)]
    rw [if_neg (show ¬ (45151 ≤ j) by omega)]
    rw [if_neg (show ¬ (44786 ≤ j) by omega)]
    rw [if_neg (show ¬ (44239 ≤ j) by omega)]
    rw [if_neg (show ¬ (43874 ≤ j) by omega)]
    rw [if_neg (show ¬ (43509 ≤ j) by omega)]
    rw [if_neg (show ¬ (43144 ≤ j) by omega)]
    rw [if_neg (show ¬ (42778 ≤ j) by omega)]
    rw [if_neg (show ¬ (42413 ≤ j) by omega)]
    rw [if_neg (show ¬ (42048 ≤ j) by omega)]
    rw [if_neg (show ¬ (41683 ≤ j) by omega)]
    rw [if_neg (show ¬ (41499 ≤ j) by omega)]
    rw [if_neg (show ¬ (41317 ≤ j) by omega)]
    rw [if_neg (show ¬ (39887 ≤ j) by omega)]
    rw [if_neg (show ¬ (39126 ≤ j) by omega)]
    rw [if_neg (show ¬ (39004 ≤ j) by omega)]
    rw [if_neg (show ¬ (38942 ≤ j) by omega)]
    rw [if_pos (show 38820 ≤ j by omega)]
    unfold taiUtc
    rw [if_neg (ge 36934 36934 (Int.cast_ofNat _) (by omega))]
    rw [if_neg (ge 37300 37300 (Int.cast_ofNat _) (by omega))]
    rw [if_neg (ge 37512 37512 (Int.cast_ofNat _) (by omega))]
    rw [if_neg (ge 37665 37665 (Int.cast_ofNat _) (by omega))]
    rw [if_neg (ge 38334 38334 (Int.cast_ofNat _) (by omega))]
    rw [if_neg (ge 38395 38395 (Int.cast_ofNat _) (by omega))]
    rw [if_neg (ge 38486 38486 (Int.cast_ofNat _) (by omega))]
    rw [if_neg (ge 38639 38639 (Int.cast_ofNat _) (by omega))]
    rw [if_neg (ge 38761 38761 (Int.cast_ofNat _) (by omega))]
    rw [if_neg (ge 38820 38820 (Int.cast_ofNat _) (by omega))]
    rw [if_pos (lt 38942 38942 (Int.cast_ofNat _) (by omega))]
    norm_num [eraDatChanges, eraDatDrift]
  replace h := h'
  clear h'
  rcases lt_or_ge j 39004 with h' | h'
  · clear hj
    rw [if_neg (show ¬ (57754 ≤ j) by omega)]
    rw [if_neg (show ¬ (57204 ≤ j) by omega)]
    rw [if_neg (show ¬ (56109 ≤ j) by omega)]
    rw [if_neg (show ¬ (54832 ≤ j) by omega)]
    rw [if_neg (show ¬ (53736 ≤ j) by omega)]
    rw [if_neg (show ¬ (51179 ≤ j) by omega)]
    rw [if_neg (show ¬ (50630 ≤ j) by omega)]
    rw [if_neg (show ¬ (50083 ≤ j) by omega)]
    rw [if_neg (show ¬ (49534 ≤ j) by omega)]
    rw [if_neg (show ¬ (49169 ≤ j) by omega)]
    rw [if_neg (show ¬ (48804 ≤ j) by omega)]
    rw [if_neg (show ¬ (48257 ≤ j) by omega)]
    rw [if_neg (show ¬ (47892 ≤ j) by omega)]
    rw [if_neg (show ¬ (47161 ≤ j) by omega)]
    rw [if_neg (show ¬ (46247 ≤ j) by omega)]
    rw [if_neg (show ¬ (45516 ≤ j) by omega)]
    rw [if_neg (show ¬ (45151 ≤ j) by omega)]
    rw [if_neg (show ¬ (44786 ≤ j) by omega)]
    rw [if_neg (show ¬ (44239 ≤ j) by omega)]
    rw [if_neg (show ¬ (43874 ≤ j) by omega)]
    rw [if_neg (show ¬ (43509 ≤ j) by omega)]
    rw [if_neg (show ¬ (43144 ≤ j) by omega)]
    rw [if_neg (show ¬ (42778 ≤ j) by omega)]
    rw [if_neg (show ¬ (42413 ≤ j) by omega)]
    rw [if_neg (show ¬ (42048 ≤ j) by omega)]
    rw [if_neg (show ¬ (41683 ≤ j) by omega)]
    rw [if_neg (show ¬ (41499 ≤ j) by omega)]
    rw [if_neg (show ¬ (41317 ≤ j) by omega)]
    rw [if_neg (show ¬ (39887 ≤ j) by omega)]
    rw [if_neg (show ¬ (39126 ≤ j) by omega)]
    rw [if_neg (show ¬ (39004 ≤ j) by omega)]
    rw [if_pos (show 38942 ≤ j by omega)]
    unfold taiUtc
    rw [if_neg (ge 36934 36934 (Int.cast_ofNat _) (by omega))]
    rw [if_neg (ge 37300 37300 (Int.cast_ofNat _) (by omega))]
    rw [if_neg (ge 37512 37512 (Int.cast_ofNat _) (by omega))]
    rw [if_neg (ge 37665 37665 (Int.cast_ofNat _) (by omega))]
    rw [if_neg (ge 38334 38334 (Int.cast_ofNat _) (by omega))]
    rw [if_neg (ge 38395 38395 (Int.cast_ofNat _) (by omega))]
    rw [if_neg (ge 38486 38486 (Int.cast_ofNat _) (by omega))]
    rw [if_neg (ge 38639 38639 (Int.cast_ofNat _) (by omega))]
    rw [if_neg (ge 38761 38761 (Int.cast_ofNat _) (by omega))]
    rw [if_neg (ge 38820 38820 (Int.cast_ofNat _) (by omega))]
    rw [if_neg (ge 38942 38942 (Int.cast_ofNat _) (by omega))]
    rw [if_pos (lt 39004 39004 (Int.cast_ofNat _) (by omega))]
    norm_num [eraDatChanges, eraDatDrift]
  replace h := h'
  clear h'
  rcases lt_or_ge j 39126 with h' | h'
  · clear hj
    rw [if_neg (show ¬ (57754 ≤ j) by omega)]
    rw [if_neg (show ¬ (57204 ≤ j) by omega)]
    rw [if_neg (show ¬ (56109 ≤ j) by omega)]
    rw [if_neg (show ¬ (54832 ≤ j) by omega)]
    rw [if_neg (show ¬ (53736 ≤ j) by omega)]
    rw [if_neg (show ¬ (51179 ≤ j) by omega)]
    rw [if_neg (show ¬ (50630 ≤ j) by omega)]
    rw [if_neg (show ¬ (50083 ≤ j) by omega)]
    rw [if_neg (show ¬ (49534 ≤ j) by omega)]
    rw [if_neg (show ¬ (49169 ≤ j) by omega)]
    rw [if_neg (show ¬ (48804 ≤ j) by omega)]
    rw [if_neg (show ¬ (48257 ≤ j) by omega)]
    rw [if_neg (show ¬ (47892 ≤ j) by omega)]
    rw [if_neg (show ¬ (47161 ≤ j) by omega)]
    rw [if_neg (show ¬ (46247 ≤ j) by omega)]
    rw [if_neg (show ¬ (45516 ≤ j) by omega)]
    rw [if_neg (show ¬ (45151 ≤ j) by omega)]
    rw [if_neg (show ¬ (44786 ≤ j) by omega)]
    rw [if_neg (show ¬ (44239 ≤ j) by omega)]
    rw [if_neg (show ¬ (43874 ≤ j) by omega)]
    rw [if_neg (show ¬ (43509 ≤ j) by omega)]
    rw [if_neg (show ¬ (43144 ≤ j) by omega)]
    rw [if_neg (show ¬ (42778 ≤ j) by omega)]
    rw [if_neg (show ¬ (42413 ≤ j) by omega)]
    rw [if_neg (show ¬ (42048 ≤ j) by omega)]
    rw [if_neg (show ¬ (41683 ≤ j) by omega)]
    rw [if_neg (show ¬ (41499 ≤ j) by omega)]
    rw [if_neg (show ¬ (41317 ≤ j) by omega)]
    rw [if_neg (show ¬ (39887 ≤ j) by omega)]
    rw [if_neg (show ¬ (39126 ≤ j) by omega)]
    rw [if_pos (show 39004 ≤ j by omega)]
    unfold taiUtc
    rw [if_neg (ge 36934 36934 (Int.cast_ofNat _) (by omega))]
    rw [if_neg (ge 37300 37300 (Int.cast_ofNat _) (by omega))]
    rw [if_neg (ge 37512 37512 (Int.cast_ofNat _) (by omega))]
    rw [if_neg (ge 37665 37665 (Int.cast_ofNat _) (by omega))]
    rw [if_neg (ge 38334 38334 (Int.cast_ofNat _) (by omega))]
    rw [if_neg (ge 38395 38395 (Int.cast_ofNat _) (by omega))]
    rw [if_neg (ge 38486 38486 (Int.cast_ofNat _) (by omega))]
    rw [if_neg (ge 38639 38639 (Int.cast_ofNat _) (by omega))]
    rw [if_neg (ge 38761 38761 (Int.cast_ofNat _) (by omega))]
    rw [if_neg (ge 38820 38820 (Int.cast_ofNat _) (by omega))]
    rw [if_neg (ge 38942 38942 (Int.cast_ofNat _) (by omega))]
    rw [if_neg (ge 39004 39004 (Int.cast_ofNat _) (by omega))]
    rw [if_pos (lt 39126 39126 (Int.cast_ofNat _) (by omega))]
    norm_num [eraDatChanges, eraDatDrift]
  replace h := h'
  clear h'
  rcases lt_or_ge j 39887 with h' | h'
  · clear hj
    rw [if_neg (show ¬ (57754 ≤ j) by omega)]
    rw [if_neg (show ¬ (57204 ≤ j) by omega)]
    rw [if_neg (show ¬ (56109 ≤ j) by omega)]
    rw [if_neg (show ¬ (54832 ≤ j) by omega)]
    rw [if_neg (show ¬ (53736 ≤ j) by omega)]
    rw [if_neg (show ¬ (51179 ≤ j) by omega)]
    rw [if_neg (show ¬ (50630 ≤ j) by omega)]
    rw [if_neg (show ¬ (50083 ≤ j) by omega)]
    rw [if_neg (show ¬ (49534 ≤ j) by omega)]
    rw [if_neg (show ¬ (49169 ≤ j) by omega)]
    rw [if_neg (show ¬ (48804 ≤ j) by omega)]
    rw [if_neg (show ¬ (48257 ≤ j) by omega)]
    rw [if_neg (show ¬ (47892 ≤ j) by omega)]
    rw [if_neg (show ¬ (47161 ≤ j) by omega)]
    rw [if_neg (show ¬ (46247 ≤ j) by omega)]
    rw [if_neg (show ¬ (45516 ≤ j) by omega)]
    rw [if_neg (show ¬ (45151 ≤ j) by omega)]
    rw [if_neg (show ¬ (44786 ≤ j) by omega)]
    rw [if_neg (show ¬ (44239 ≤ j) by omega)]
    rw [if_neg (show ¬ (43874 ≤ j) by omega)]
    rw [if_neg (show ¬ (43509 ≤ j) by omega)]
    rw [if_neg (show ¬ (43144 ≤ j) by omega)]
    rw [if_neg (show ¬ (42778 ≤ j) by omega)]
    rw [if_neg (show ¬ (42413 ≤ j) by omega)]
    rw [if_neg (show ¬ (42048 ≤ j) by omega)]
    rw [if_neg (show ¬ (41683 ≤ j) by omega)]
    rw [if_neg (show ¬ (41499 ≤ j) by omega)]
    rw [if_neg (show ¬ (41317 ≤ j) by omega)]
    rw [if_neg (show ¬ (39887 ≤ j) by omega)]
    rw [if_pos (show 39126 ≤ j by omega)]
    unfold taiUtc
    rw [if_neg (ge 36934 36934 (Int.cast_ofNat _) (by omega))]
    rw [if_neg (ge 37300 37300 (Int.cast_ofNat _) (by omega))]
    rw [if_neg (ge 37512 37512 (Int.cast_ofNat _) (by omega))]
    rw [if_neg (ge 37665 37665 (Int.cast_ofNat _) (by omega))]
    rw [if_neg (ge 38334 38334 (Int.cast_ofNat _) (by omega))]
    rw [if_neg (ge 38395 38395 (Int.cast_ofNat _) (by omega))]
    rw [if_neg (ge 38486 38486 (Int.cast_ofNat _) (by omega))]
    rw [if_neg (ge 38639 38639 (Int.cast_ofNat _) (by omega))]
    rw [if_neg (ge 38761 38761 (Int.cast_ofNat _) (by omega))]
    rw [if_neg (ge 38820 38820 (Int.cast_ofNat _) (by omega))]
    rw [if_neg (ge 38942 38942 (Int.cast_ofNat _) (by omega))]
    rw [if_neg (ge 39004 39004 (Int.cast_ofNat _) (by omega))]
    rw [if_neg (ge 39126 39126 (Int.cast_ofNat _) (by omega))]
    rw [if_pos (lt 39887 39887 (Int.cast_ofNat _) (by omega))]
    norm_num [eraDatChanges, eraDatDrift]
  replace h := h'
  clear h'
  rcases lt_or_ge j 41317 with h' | h'
  · clear hj
    rw [if_neg (show ¬ (57754 ≤ j) by omega)]
    rw [if_neg (show ¬ (57204 ≤ j) by omega)]
    rw [if_neg (show ¬ (56109 ≤ j) by omega)]
    rw [if_neg (show ¬ (54832 ≤ j) by omega)]
    rw [if_neg (show ¬ (53736 ≤ j) by omega)]
    rw [if_neg (show ¬ (51179 ≤ j) by omega)]
    rw [if_neg (show ¬ (50630 ≤ j) by omega)]
    rw [if_neg (show ¬ (50083 ≤ j) by omega)]
    rw [if_neg (show ¬ (49534 ≤ j) by omega)]
    rw [if_neg (show ¬ (49169 ≤ j) by omega)]
    rw [if_neg (show ¬ (48804 ≤ j) by omega)]
    rw [if_neg (show ¬ (48257 ≤ j) by omega)]
    rw [if_neg (show ¬ (47892 ≤ j) by omega)]
    rw [if_neg (show ¬ (47161 ≤ j) by omega)]
    rw [if_neg (show ¬ (46247 ≤ j) by omega)]
    rw [if_neg (show ¬ (45516 ≤ j) by omega)]
    rw [if_neg (show ¬ (45151 ≤ j) by omega)]
    rw [if_neg (show ¬ (44786 ≤ j) by omega)]
    rw [if_neg (show ¬ (44239 ≤ j) by omega)]
    rw [if_neg (show ¬ (43874 ≤ j) by omega)]
    rw [if_neg (show ¬ (43509 ≤ j) by omega)]
    rw [if_neg (show ¬ (43144 ≤ j) by omega)]
    rw [if_neg (show ¬ (42778 ≤ j) by omega)]
    rw [if_neg (show ¬ (42413 ≤ j) by omega)]
    rw [if_neg (show ¬ (42048 ≤ j) by omega)]
    rw [if_neg (show ¬ (41683 ≤ j) by omega)]
    rw [if_neg (show ¬ (41499 ≤ j) by omega)]
    rw [if_neg (show ¬ (41317 ≤ j) by omega)]
    rw [if_pos (show 39887 ≤ j by omega)]
    unfold taiUtc
    rw [if_neg (ge 36934 36934 (Int.cast_ofNat _) (by omega))]
    rw [if_neg (ge 37300 37300 (Int.cast_ofNat _) (by omega))]
    rw [if_neg (ge 37512 37512 (Int.cast_ofNat _) (by omega))]
    rw [if_neg (ge 37665 37665 (Int.cast_ofNat _) (by omega))]
    rw [if_neg (ge 38334 38334 (Int.cast_ofNat _) (by omega))]
    rw [if_neg (ge 38395 38395 (Int.cast_ofNat _) (by omega))]
    rw [if_neg (ge 38486 38486 (Int.cast_ofNat _) (by omega))]
    rw [if_neg (ge 38639 38639 (Int.cast_ofNat _) (by omega))]
    rw [if_neg (ge 38761 38761 (Int.cast_ofNat _) (by omega))]
    rw [if_neg (ge 38820 38820 (Int.cast_ofNat _) (by omega))]
    rw [if_neg (ge 38942 38942 (Int.cast_ofNat _) (by omega))]
    rw [if_neg (ge 39004 39004 (Int.cast_ofNat _) (by omega))]
    rw [if_neg (ge 39126 39126 (Int.cast_ofNat _) (by omega))]
    rw [if_neg (ge 39887 39887 (Int.cast_ofNat _) (by omega))]
    rw [if_pos (lt 41317 41317 (Int.cast_ofNat _) (by omega))]
    norm_num [eraDatChanges, eraDatDrift]
  replace h := h'
  clear h'
  rcases lt_or_ge j 41499 with h' | h'
  · clear hj
    rw [if_neg (show ¬ (57754 ≤ j) by omega)]
    rw [if_neg (show ¬ (57204 ≤ j) by omega)]
    rw [if_neg (show ¬ (56109 ≤ j) by omega)]
    rw [if_neg (show ¬ (54832 ≤ j) by omega)]
    rw [if_neg (show ¬ (53736 ≤ j) by omega)]
    rw [if_neg (show ¬ (51179 ≤ j) by omega)]
    rw [if_neg (show ¬ (50630 ≤ j) by omega)]
    rw [if_neg (show ¬ (50083 ≤ j) by omega)]
    rw [if_neg (show ¬ (49534 ≤ j) by omega)]
    rw [if_neg (show ¬ (49169 ≤ j) by omega)]
    rw [if_neg (show ¬ (48804 ≤ j) by omega)]
    rw [if_neg (show ¬ (48257 ≤ j) by omega)]
    rw [if_neg (show ¬ (47892 ≤ j) by omega)]
    rw [if_neg (show ¬ (47161 ≤ j) by omega)]
    rw [if_neg (show ¬ (46247 ≤ j) by omega)]
    rw [if_neg (show ¬ (45516 ≤ j) by omega)]
    rw [if_neg (show ¬ (45151 ≤ j) by omega)]
    rw [if_neg (show ¬ (44786 ≤ j) by omega)]
    rw [if_neg (show ¬ (44239 ≤ j) by omega)]
    rw [if_neg (show ¬ (43874 ≤ j) by omega)]
    rw [if_neg (show ¬ (43509 ≤ j) by omega)]
    rw [if_neg (show ¬ (43144 ≤ j) by omega)]
    rw [if_neg (show ¬ (42778 ≤ j) by omega)]
    rw [if_neg (show ¬ (42413 ≤ j) by omega)]
    rw [if_neg (show ¬ (42048 ≤ j) by omega)]
    rw [if_neg (show ¬ (41683 ≤ j) by omega)]
    rw [if_neg (show ¬ (41499 ≤ j) by omega)]
    rw [if_pos (show 41317 ≤ j by omega)]
    unfold taiUtc
    rw [if_neg (ge 36934 36934 (Int.cast_ofNat _) (by omega))]
    rw [if_neg (ge 37300 37300 (Int.cast_ofNat _) (by omega))]
    rw [if_neg (ge 37512 37512 (Int.cast_ofNat _) (by omega))]
    rw [if_neg (ge 37665 37665 (Int.cast_ofNat _) (by omega))]
    rw [if_neg (ge 38334 38334 (Int.cast_ofNat _) (by omega))]
    rw [if_neg (ge 38395 38395 (Int.cast_ofNat _) (by omega))]
    rw [if_neg (ge 38486 38486 (Int.cast_ofNat _) (by omega))]
    rw [if_neg (ge 38639 38639 (Int.cast_ofNat _) (by omega))]
    rw [if_neg (ge 38761 38761 (Int.cast_ofNat _) (by omega))]
    rw [if_neg (ge 38820 38820 (Int.cast_ofNat _) (by omega))]
    rw [if_neg (ge 38942 38942 (Int.cast_ofNat _) (by omega))]
    rw [if_neg (ge 39004 39004 (Int.cast_ofNat _) (by omega))]
    rw [if_neg (ge 39126 39126 (Int.cast_ofNat _) (by omega))]
    rw [if_neg (ge 39887 39887 (Int.cast_ofNat _) (by omega))]
    rw [if_neg (ge 41317 41317 (Int.cast_ofNat _) (by omega))]
    unfold leapSeconds
    rw [List.filter_cons_of_neg (by simpa using lt 41499 41499 (Int.cast_ofNat _) (by omega))]
    rw [List.filter_cons_of_neg (by simpa using lt 41683 41683 (Int.cast_ofNat _) (by omega))]
    rw [List.filter_cons_of_neg (by simpa using lt 42048 42048 (Int.cast_ofNat _) (by omega))]
    rw [List.filter_cons_of_neg (by simpa using lt 42413 42413 (Int.cast_ofNat _) (by omega))]
    rw [List.filter_cons_of_neg (by simpa using lt 42778 42778 (Int.cast_ofNat _) (by omega))]
    rw [List.filter_cons_of_neg (by simpa using lt 43144 43144 (Int.cast_ofNat _) (by omega))]
    rw [List.filter_cons_of_neg (by simpa using lt 43509 43509 (Int.cast_ofNat _) (by omega))]
    rw [List.filter_cons_of_neg (by simpa using lt 43874 43874 (Int.cast_ofNat _) (by omega))]
    rw [List.filter_cons_of_neg (by simpa using lt 44239 44239 (Int.cast_ofNat _) (by omega))]
    rw [List.filter_cons_of_neg (by simpa using lt 44786 44786 (Int.cast_ofNat _) (by omega))]
    rw [List.filter_cons_of_neg (by simpa using lt 45151 45151 (Int.cast_ofNat _) (by omega))]
    rw [List.filter_cons_of_neg (by simpa using lt 45516 45516 (Int.cast_ofNat _) (by omega))]
    rw [List.filter_cons_of_neg (by simpa using lt 46247 46247 (Int.cast_ofNat _) (by omega))]
    rw [List.filter_cons_of_neg (by simpa using lt 47161 47161 (Int.cast_ofNat _) (by omega))]
    rw [List.filter_cons_of_neg (by simpa using lt 47892 47892 (Int.cast_ofNat _) (by omega))]
    rw [List.filter_cons_of_neg (by simpa using lt 48257 48257 (Int.cast_ofNat _) (by omega))]
    rw [List.filter_cons_of_neg (by simpa using lt 48804 48804 (Int.cast_ofNat _) (by omega))]
    rw [List.filter_cons_of_neg (by simpa using lt 49169 49169 (Int.cast_ofNat _) (by omega))]
    rw [List.filter_cons_of_neg (by simpa using lt 49534 49534 (Int.cast_ofNat _) (by omega))]
    rw [List.filter_cons_of_neg (by simpa using lt 50083 50083 (Int.cast_ofNat _) (by omega))]
    rw [List.filter_cons_of_neg (by simpa using lt 50630 50630 (Int.cast_ofNat _) (by omega))]
    rw [List.filter_cons_of_neg (by simpa using lt 51179 51179 (Int.cast_ofNat _) (by omega))]
    rw [List.filter_cons_of_neg (by simpa using lt 53736 53736 (Int.cast_ofNat _) (by omega))]
    rw [List.filter_cons_of_neg (by simpa using lt 54832 54832 (Int.cast_ofNat _) (by omega))]
    rw [List.filter_cons_of_neg (by simpa using lt 56109 56109 (Int.cast_ofNat _) (by omega))]
    rw [List.filter_cons_of_neg (by simpa using lt 57204 57204 (Int.cast_ofNat _) (by omega))]
    rw [List.filter_cons_of_neg (by simpa using lt 57754 57754 (Int.cast_ofNat _) (by omega))]
    norm_num [eraDatChanges, eraDatDrift]
  replace h := h'
  clear h'
  rcases lt_or_ge j 41683 with h' | h'
  · clear hj
    rw [if_neg (show ¬ (57754 ≤ j) by omega)]
    rw [if_neg (show ¬ (57204 ≤ j) by omega)]
    rw [if_neg (show ¬ (56109 ≤ j) by omega)]
    rw [if_neg (show ¬ (54832 ≤ j) by omega)]
    rw [if_neg (show ¬ (53736 ≤ j) by omega)]
    rw [if_neg (show ¬ (51179 ≤ j) by omega)]
    rw [if_neg (show ¬ (50630 ≤ j) by omega)]
    rw [if_neg (show ¬ (50083 ≤ j) by omega)]
    rw [if_neg (show ¬ (49534 ≤ j) by omega)]
    rw [if_neg (show ¬ (49169 ≤ j) by omega)]
    rw [if_neg (show ¬ (48804 ≤ j) by omega)]
    rw [if_neg (show ¬ (48257 ≤ j) by omega)]
    rw [if_neg (show ¬ (47892 ≤ j) by omega)]
    rw [if_neg (show ¬ (47161 ≤ j) by omega)]
    rw [if_neg (show ¬ (46247 ≤ j) by omega)]
    rw [if_neg (show ¬ (45516 ≤ j) by omega)]
    rw [if_neg (show ¬ (45151 ≤ j) by omega)]
    rw [if_neg (show ¬ (44786 ≤ j) by omega)]
    rw [if_neg (show ¬ (44239 ≤ j) by omega)]
    rw [if_neg (show ¬ (43874 ≤ j) by omega)]
    rw [if_neg (show ¬ (43509 ≤ j) by omega)]
    rw [if_neg (show ¬ (43144 ≤ j) by omega)]
    rw [if_neg (show ¬ (42778 ≤ j) by omega)]
    rw [if_neg (show ¬ (42413 ≤ j) by omega)]
    rw [if_neg (show ¬ (42048 ≤ j) by omega)]
    rw [if_neg (show ¬ (41683 ≤ j) by omega)]
    rw [if_pos (show 41499 ≤ j by omega)]
    unfold taiUtc
    rw [if_neg (ge 36934 36934 (Int.cast_ofNat _) (by omega))]
    rw [if_neg (ge 37300 37300 (Int.cast_ofNat _) (by omega))]
    rw [if_neg (ge 37512 37512 (Int.cast_ofNat _) (by omega))]
    rw [if_neg (ge 37665 37665 (Int.cast_ofNat _) (by omega))]
    rw [if_neg (ge 38334 38334 (Int.cast_ofNat _) (by omega))]
    rw [if_neg (ge 38395 38395 (Int.cast_ofNat _) (by omega))]
    rw [if_neg (ge 38486 38486 (Int.cast_ofNat _) (by omega))]
    rw [if_neg (ge 38639 38639 (Int.cast_ofNat _) (by omega))]
    rw [if_neg (ge 38761 38761 (Int.cast_ofNat _) (by omega))]
    rw [if_neg (ge 38820 38820 (Int.cast_ofNat _) (by omega))]
    rw [if_neg (ge 38942 38942 (Int.cast_ofNat _) (by omega))]
    rw [if_neg (ge 39004 39004 (Int.cast_ofNat _) (by omega))]
    rw [if_neg (ge 39126 39126 (Int.cast_ofNat _) (by omega))]
    rw [if_neg (ge 39887 39887 (Int.cast_ofNat _) (by omega))]
    rw [if_neg (ge 41317 41317 (Int.cast_ofNat _) (by omega))]
    unfold leapSeconds
    rw [List.filter_cons_of_pos (by simpa using ge 41499 41499 (Int.cast_ofNat _) (by omega))]
    rw [List.filter_cons_of_neg (by simpa using lt 41683 41683 (Int.cast_ofNat _) (by omega))]
    rw [List.filter_cons_of_neg (by simpa using lt 42048 42048 (Int.cast_ofNat _) (by omega))]
    rw [List.filter_cons_of_neg (by simpa using lt 42413 42413 (Int.cast_ofNat _) (by omega))]
    rw [List.filter_cons_of_neg (by simpa using lt 42778 42778 (Int.cast_ofNat _) (by omega))]
    rw [List.filter_cons_of_neg (by simpa using lt 43144 43144 (Int.cast_ofNat _) (by omega))]
    rw [List.filter_cons_of_neg (by simpa using lt 43509 43509 (Int.cast_ofNat _) (by omega))]
    rw [List.filter_cons_of_neg (by simpa using lt 43874 43874 (Int.cast_ofNat _) (by omega))]
    rw [List.filter_cons_of_neg (by simpa using lt 44239 44239 (Int.cast_ofNat _) (by omega))]
    rw [List.filter_cons_of_neg (by simpa using lt 44786 44786 (Int.cast_ofNat _) (by omega))]
    rw [List.filter_cons_of_neg (by simpa using lt 45151 45151 (Int.cast_ofNat _) (by omega))]
    rw [List.filter_cons_of_neg (by simpa using lt 45516 45516 (Int.cast_ofNat _) (by omega))]
    rw [List.filter_cons_of_neg (by simpa using lt 46247 46247 (Int.cast_ofNat _) (by omega))]
    rw [List.filter_cons_of_neg (by simpa using lt 47161 47161 (Int.cast_ofNat _) (by omega))]
    rw [List.filter_cons_of_neg (by simpa using lt 47892 47892 (Int.cast_ofNat _) (by omega))]
    rw [List.filter_cons_of_neg (by simpa using lt 48257 48257 (Int.cast_ofNat _) (by omega))]
    rw [List.filter_cons_of_neg (by simpa using lt 48804 48804 (Int.cast_ofNat _) (by omega))]
    rw [List.filter_cons_of_neg (by simpa using lt 49169 49169 (Int.cast_ofNat _) (by omega))]
    rw [List.filter_cons_of_neg (by simpa using lt 49534 49534 (Int.cast_ofNat _) (by omega))]
    rw [List.filter_cons_of_neg (by simpa using lt 50083 50083 (Int.cast_ofNat _) (by omega))]
    rw [List.filter_cons_of_neg (by simpa using lt 50630 50630 (Int.cast_ofNat _) (by omega))]
    rw [List.filter_cons_of_neg (by simpa using lt 51179 51179 (Int.cast_ofNat _) (by omega))]
    rw [List.filter_cons_of_neg (by simpa using lt 53736 53736 (Int.cast_ofNat _) (by omega))]
    rw [List.filter_cons_of_neg (by simpa using lt 54832 54832 (Int.cast_ofNat _) (by omega))]
    rw [List.filter_cons_of_neg (by simpa using lt 56109 56109 (Int.cast_ofNat _) (by omega))]
    rw [List.filter_cons_of_neg (by simpa using lt 57204 57204 (Int.cast_ofNat _) (by omega))]
    rw [List.filter_cons_of_neg (by simpa using lt 57754 57754 (Int.cast_ofNat _) (by omega))]
    norm_num [eraDatChanges, eraDatDrift]
  replace h := h'
  clear h'
  rcases lt_or_ge j 42048 with h' | h'
  · clear hj
    rw [if_neg (show ¬ (57754 ≤ j) by omega)]
    rw [if_neg (show ¬ (57204 ≤ j) by omega)]
    rw [if_neg (show ¬ (56109 ≤ j) by omega)]
    rw [if_neg (show ¬ (54832 ≤ j) by omega)]
    rw [if_neg (show ¬ (53736 ≤ j) by omega)]
    rw [if_neg (show ¬ (51179 ≤ j) by omega)]
    rw [if_neg (show ¬ (50630 ≤ j) by omega)]
    rw [if_neg (show ¬ (50083 ≤ j) by omega)]
    rw [if_neg (show ¬ (49534 ≤ j) by omega)]
    rw [if_neg (show ¬ (49169 ≤ j) by omega)]
    rw [if_neg (show ¬ (48804 ≤ j) by omega)]
    rw [if_neg (show ¬ (48257 ≤ j) by omega)]
    rw [if_neg (show ¬ (47892 ≤ j) by omega)]
    rw [if_neg (show ¬ (47161 ≤ j) by omega)]
    rw [if_neg (show ¬ (46247 ≤ j) by omega)]
    rw [if_neg (show ¬ (45516 ≤ j) by omega)]
    rw [if_neg (show ¬ (45151 ≤ j) by omega)]
    rw [if_neg (show ¬ (44786 ≤ j) by omega)]
    rw [if_neg (show ¬ (44239 ≤ j) by omega)]
    rw [if_neg (show ¬ (43874 ≤ j) by omega)]
    rw [if_neg (show ¬ (43509 ≤ j) by omega)]
    rw [if_neg (show ¬ (43144 ≤ j) by omega)]
    rw [if_neg (show ¬ (42778 ≤ j) by omega)]
    rw [if_neg (show ¬ (42413 ≤ j) by omega)]
    rw [if_neg (show ¬ (42048 ≤ j) by omega)]
    rw [if_pos (show 41683 ≤ j by omega)]
    unfold taiUtc
    rw [if_neg (ge 36934 36934 (Int.cast_ofNat _) (by omega))]
    rw [if_neg (ge 37300 37300 (Int.cast_ofNat _) (by omega))]
    rw [if_neg (ge 37512 37512 (Int.cast_ofNat _) (by omega))]
    rw [if_neg (ge 37665 37665 (Int.cast_ofNat _) (by omega))]
    rw [if_neg (ge 38334 38334 (Int.cast_ofNat _) (by omega))]
    rw [if_neg (ge 38395 38395 (Int.cast_ofNat _) (by omega))]
    rw [if_neg (ge 38486 38486 (Int.cast_ofNat _) (by omega))]
    rw [if_neg (ge 38639 38639 (Int.cast_ofNat _) (by omega))]
    rw [if_neg (ge 38761 38761 (Int.cast_ofNat _) (by omega))]
    rw [if_neg (ge 38820 38820 (Int.cast_ofNat _) (by omega))]
    rw [if_neg (ge 38942 38942 (Int.cast_ofNat _) (by omega))]
    rw [if_neg (ge 39004 39004 (Int.cast_ofNat _) (by omega))]
    rw [if_neg (ge 39126 39126 (Int.cast_ofNat _) (by omega))]
    rw [if_neg (ge 39887 39887 (Int.cast_ofNat _) (by omega))]
    rw [if_neg (ge 41317 41317 (Int.cast_ofNat _) (by omega))]
    unfold leapSeconds
    rw [List.filter_cons_of_pos (by simpa using ge 41499 41499 (Int.cast_ofNat _) (by omega))]
    rw [List.filter_cons_of_pos (by simpa using ge 41683 41683 (Int.cast_ofNat _) (by omega))]
    rw [List.filter_cons_of_neg (by simpa using lt 42048 42048 (Int.cast_ofNat _) (by omega))]
    rw [List.filter_cons_of_neg (by simpa using lt 42413 42413 (Int.cast_ofNat _) (by omega))]
    rw [List.filter_cons_of_neg (by simpa using lt 42778 42778 (Int.cast_ofNat _) (by omega))]
    rw [List.filter_cons_of_neg (by simpa using lt 43144 43144 (Int.cast_ofNat _) (by omega))]
    rw [List.filter_cons_of_neg (by simpa using lt 43509 43509 (Int.cast_ofNat _) (by omega))]
    rw [List.filter_cons_of_neg (by simpa using lt 43874 43874 (Int.cast_ofNat _) (by omega))]
    rw [List.filter_cons_of_neg (by simpa using lt 44239 44239 (Int.cast_ofNat _) (by omega))]
    rw [List.filter_cons_of_neg (by simpa using lt 44786 44786 (Int.cast_ofNat _) (by omega))]
    rw [List.filter_cons_of_neg (by simpa using lt 45151 45151 (Int.cast_ofNat _) (by omega))]
    rw [List.filter_cons_of_neg (by simpa using lt 45516 45516 (Int.cast_ofNat _) (by omega))]
    rw [List.filter_cons_of_neg (by simpa using lt 46247 46247 (Int.cast_ofNat _) (by omega))]
    rw [List.filter_cons_of_neg (by simpa using lt 47161 47161 (Int.cast_ofNat _) (by omega))]
    rw [List.filter_cons_of_neg (by simpa using lt 47892 47892 (Int.cast_ofNat _) (by omega))]
    rw [List.filter_cons_of_neg (by simpa using lt 48257 48257 (Int.cast_ofNat _) (by omega))]
    rw [List.filter_cons_of_neg (by simpa using lt 48804 48804 (Int.cast_ofNat _) (by omega))]
    rw [List.filter_cons_of_neg (by simpa using lt 49169 49169 (Int.cast_ofNat _) (by omega))]
    rw [List.filter_cons_of_neg (by simpa using lt 49534 49534 (Int.cast_ofNat _) (by omega))]
    rw [List.filter_cons_of_neg (by simpa using lt 50083 50083 (Int.cast_ofNat _) (by omega))]
    rw [List.filter_cons_of_neg (by simpa using lt 50630 50630 (Int.cast_ofNat _) (by omega))]
    rw [List.filter_cons_of_neg (by simpa using lt 51179 51179 (Int.cast_ofNat _) (by omega))]
    rw [List.filter_cons_of_neg (by simpa using lt 53736 53736 (Int.cast_ofNat _) (by omega))]
    rw [List.filter_cons_of_neg (by simpa using lt 54832 54832 (Int.cast_ofNat _) (by omega))]
    rw [List.filter_cons_of_neg (by simpa using lt 56109 56109 (Int.cast_ofNat _) (by omega))]
    rw [List.filter_cons_of_neg (by simpa using lt 57204 57204 (Int.cast_ofNat _) (by omega))]
    rw [List.filter_cons_of_neg (by simpa using lt 57754 57754 (Int.cast_ofNat _) (by omega))]
    norm_num [eraDatChanges, eraDatDrift]
  replace h := h'
  clear h'
  rcases lt_or_ge j 42413 with h' | h'
  · clear hj
    rw [if_neg (show ¬ (57754 ≤ j) by omega)]
    rw [if_neg (show ¬ (57204 ≤ j) by omega)]
    rw [if_neg (show ¬ (56109 ≤ j) by omega)]
    rw [if_neg (show ¬ (54832 ≤ j) by omega)]
    rw [if_neg (show ¬ (53736 ≤ j) by omega)]
    rw [if_neg (show ¬ (51179 ≤ j) by omega)]
    rw [if_neg (show ¬ (50630 ≤ j) by omega)]
    rw [if_neg (show ¬ (50083 ≤ j) by omega)]
    rw [if_neg (show ¬ (49534 ≤ j) by omega)]
    rw [if_neg (show ¬ (49169 ≤ j) by omega)]
    rw [if_neg (show ¬ (48804 ≤ j) by omega)]
    rw [if_neg (show ¬ (48257 ≤ j) by omega)]
    rw [if_neg (show ¬ (47892 ≤ j) by omega)]
    rw [if_neg (show ¬ (47161 ≤ j) by omega)]
    rw [if_neg (show ¬ (46247 ≤ j) by omega)]
    rw [if_neg (show ¬ (45516 ≤ j) by omega)]
    rw [if_neg (show ¬ (45151 ≤ j) by omega)]
    rw [if_neg (show ¬ (44786 ≤ j) by omega)]
    rw [if_neg (show ¬ (44239 ≤ j) by omega)]
    rw [if_neg (show ¬ (43874 ≤ j) by omega)]
    rw [if_neg (show ¬ (43509 ≤ j) by omega)]
    rw [if_neg (show ¬ (43144 ≤ j) by omega)]
    rw [if_neg (show ¬ (42778 ≤ j) by omega)]
    rw [if_neg (show ¬ (42413 ≤ j) by omega)]
    rw [if_pos (show 42048 ≤ j by omega)]
    unfold taiUtc
    rw [if_neg (ge 36934 36934 (Int.cast_ofNat _) (by omega))]
    rw [if_neg (ge 37300 37300 (Int.cast_ofNat _) (by omega))]
    rw [if_neg (ge 37512 37512 (Int.cast_ofNat _) (by omega))]
    rw [if_neg (ge 37665 37665 (Int.cast_ofNat _) (by omega))]
    rw [if_neg (ge 38334 38334 (Int.cast_ofNat _) (by omega))]
    rw [if_neg (ge 38395 38395 (Int.cast_ofNat _) (by omega))]
    rw [if_neg (ge 38486 38486 (Int.cast_ofNat _) (by omega))]
    rw [if_neg (ge 38639 38639 (Int.cast_ofNat _) (by omega))]
    rw [if_neg (ge 38761 38761 (Int.cast_ofNat _) (by omega))]
    rw [if_neg (ge 38820 38820 (Int.cast_ofNat _) (by omega))]
    rw [if_neg (ge 38942 38942 (Int.cast_ofNat _) (by omega))]
    rw [if_neg (ge 39004 39004 (Int.cast_ofNat _) (by omega))]
    rw [if_neg (ge 39126 39126 (Int.cast_ofNat _) (by omega))]
    rw [if_neg (ge 39887 39887 (Int.cast_ofNat _) (by omega))]
    rw [if_neg (ge 41317 41317 (Int.cast_ofNat _) (by omega))]
    unfold leapSeconds
    rw [List.filter_cons_of_pos (by simpa using ge 41499 41499 (Int.cast_ofNat _) (by omega))]
    rw [List.filter_cons_of_pos (by simpa using ge 41683 41683 (Int.cast_ofNat _) (by omega))]
    rw [List.filter_cons_of_pos (by simpa using ge 42048 42048 (Int.cast_ofNat _) (by omega))]
    rw [List.filter_cons_of_neg (by simpa using lt 42413 42413 (Int.cast_ofNat _) (by omega))]
    rw [List.filter_cons_of_neg (by simpa using lt 42778 42778 (Int.cast_ofNat _) (by omega))]
    rw [List.filter_cons_of_neg (by simpa using lt 43144 43144 (Int.cast_ofNat _) (by omega))]
    rw [List.filter_cons_of_neg (by simpa using lt 43509 43509 (Int.cast_ofNat _) (by omega))]
    rw [List.filter_cons_of_neg (by simpa using lt 43874 43874 (Int.cast_ofNat _) (by omega))]
    rw [List.filter_cons_of_neg (by simpa using lt 44239 44239 (Int.cast_ofNat _) (by omega))]
    rw [List.filter_cons_of_neg (by simpa using lt 44786 44786 (Int.cast_ofNat _) (by omega))]
    rw [List.filter_cons_of_neg (by simpa using lt 45151 45151 (Int.cast_ofNat _) (by omega))]
    rw [List.filter_cons_of_neg (by simpa using lt 45516 45516 (Int.cast_ofNat _) (by omega))]
    rw [List.filter_cons_of_neg (by simpa using lt 46247 46247 (Int.cast_ofNat _) (by omega))]
    rw [List.filter_cons_of_neg (by simpa using lt 47161 47161 (Int.cast_ofNat _) (by omega))]
    rw [List.filter_cons_of_neg (by simpa using lt 47892 47892 (Int.cast_ofNat _) (by omega))]
    rw [List.filter_cons_of_neg (by simpa using lt 48257 48257 (Int.cast_ofNat _) (by omega))]
    rw [List.filter_cons_of_neg (by simpa using lt 48804 48804 (Int.cast_ofNat _) (by omega))]
    rw [List.filter_cons_of_neg (by simpa using lt 49169 49169 (Int.cast_ofNat _) (by omega))]
    rw [List.filter_cons_of_neg (by simpa using lt 49534 49534 (Int.cast_ofNat _) (by omega))]
    rw [List.filter_cons_of_neg (by simpa using lt 50083 50083 (Int.cast_ofNat _) (by omega))]
    rw [List.filter_cons_of_neg (by simpa using lt 50630 50630 (Int.cast_ofNat _) (by omega))]
    rw [List.filter_cons_of_neg (by simpa using lt 51179 51179 (Int.cast_ofNat _) (by omega))]
    rw [List.filter_cons_of_neg (by simpa using lt 53736 53736 (Int.cast_ofNat _) (by omega))]
    rw [List.filter_cons_of_neg (by simpa using lt 54832 54832 (Int.cast_ofNat _) (by omega))]
    rw [List.filter_cons_of_neg (by simpa using lt 56109 56109 (Int.cast_ofNat _) (by omega))]
    rw [List.filter_cons_of_neg (by simpa using lt 57204 57204 (Int.cast_ofNat _) (by omega))]
    rw [List.filter_cons_of_neg (by simpa using lt 57754 57754 (Int.cast_ofNat _) (by omega))]
    norm_num [eraDatChanges, eraDatDrift]
  replace h := h'
  clear h'
  rcases lt_or_ge j 42778 with h' | h'
  · clear hj
    rw [if_neg (show ¬ (57754 ≤ j) by omega)]
    rw [if_neg (show ¬ (57204 ≤ j) by omega)]
    rw [if_neg (show ¬ (56109 ≤ j) by omega)]
    rw [if_neg (show ¬ (54832 ≤ j) by omega)]
    rw [if_neg (show ¬ (53736 ≤ j) by omega)]
    rw [if_neg (show ¬ (51179 ≤ j) by omega)]
    rw [if_neg (show ¬ (50630 ≤ j) by omega)]
    rw [if_neg (show ¬ (50083 ≤ j) by omega)]
    rw [if_neg (show ¬ (49534 ≤ j) by omega)]
    rw [if_neg (show ¬ (49169 ≤ j) by omega)]
    rw [if_neg (show ¬ (48804 ≤ j) by omega)]
    rw [if_neg (show ¬ (48257 ≤ j) by omega)]
    rw [if_neg (show ¬ (47892 ≤ j) by omega)]
    rw [if_neg (show ¬ (47161 ≤ j) by omega)]
    rw [if_neg (show ¬ (46247 ≤ j) by omega)]
    rw [if_neg (show ¬ (45516 ≤ j) by omega)]
    rw [if_neg (show ¬ (45151 ≤ j) by omega)]
    rw [if_neg (show ¬ (44786 ≤ j) by omega)]
    rw [if_neg (show ¬ (44239 ≤ j) by omega)]
    rw [if_neg (show ¬ (43874 ≤ j) by omega)]
    rw [if_neg (show ¬ (43509 ≤ j) by omega)]
    rw [if_neg (show ¬ (43144 ≤ j) by omega)]
    rw [if_neg (show ¬ (42778 ≤ j) by omega)]
    rw [if_pos (show 42413 ≤ j by omega)]
    unfold taiUtc
    rw [if_neg (ge 36934 36934 (Int.cast_ofNat _) (by omega))]
    rw [if_neg (ge 37300 37300 (Int.cast_ofNat _) (by omega))]
    rw [if_neg (ge 37512 37512 (Int.cast_ofNat _) (by omega))]
    rw [if_neg (ge 37665 37665 (Int.cast_ofNat _) (by omega))]
    rw [if_neg (ge 38334 38334 (Int.cast_ofNat _) (by omega))]
    rw [if_neg (ge 38395 38395 (Int.cast_ofNat _) (by omega))]
    rw [if_neg (ge 38486 38486 (Int.cast_ofNat _) (by omega))]
    rw [if_neg (ge 38639 38639 (Int.cast_ofNat _) (by omega))]
    rw [if_neg (ge 38761 38761 (Int.cast_ofNat _) (by omega))]
    rw [if_neg (ge 38820 38820 (Int.cast_ofNat _) (by omega))]
    rw [if_neg (ge 38942 38942 (Int.cast_ofNat _) (by omega))]
    rw [if_neg (ge 39004 39004 (Int.cast_ofNat _) (by omega))]
    rw [if_neg (ge 39126 39126 (Int.cast_ofNat _) (by omega))]
    rw [if_neg (ge 39887 39887 (Int.cast_ofNat _) (by omega))]
    rw [if_neg (ge 41317 41317 (Int.cast_ofNat _) (by omega))]
    unfold leapSeconds
    rw [List.filter_cons_of_pos (by simpa using ge 41499 41499 (Int.cast_ofNat _) (by omega))]
    rw [List.filter_cons_of_pos (by simpa using ge 41683 41683 (Int.cast_ofNat _) (by omega))]
    rw [List.filter_cons_of_pos (by simpa using ge 42048 42048 (Int.cast_ofNat _) (by omega))]
    rw [List.filter_cons_of_pos (by simpa using ge 42413 42413 (Int.cast_ofNat _) (by omega))]
    rw [List.filter_cons_of_neg (by simpa using lt 42778 42778 (Int.cast_ofNat _) (by omega))]
    rw [List.filter_cons_of_neg (by simpa using lt 43144 43144 (Int.cast_ofNat _) (by omega))]
    rw [List.filter_cons_of_neg (by simpa using lt 43509 43509 (Int.cast_ofNat _) (by omega))]
    rw [List.filter_cons_of_neg (by simpa using lt 43874 43874 (Int.cast_ofNat _) (by omega))]
    rw [List.filter_cons_of_neg (by simpa using lt 44239 44239 (Int.cast_ofNat _) (by omega))]
    rw [List.filter_cons_of_neg (by simpa using lt 44786 44786 (Int.cast_ofNat _) (by omega))]
    rw [List.filter_cons_of_neg (by simpa using lt 45151 45151 (Int.cast_ofNat _) (by omega))]
    rw [List.filter_cons_of_neg (by simpa using lt 45516 45516 (Int.cast_ofNat _) (by omega))]
    rw [List.filter_cons_of_neg (by simpa using lt 46247 46247 (Int.cast_ofNat _) (by omega))]
    rw [List.filter_cons_of_neg (by simpa using lt 47161 47161 (Int.cast_ofNat _) (by omega))]
    rw [List.filter_cons_of_neg (by simpa using lt 47892 47892 (Int.cast_ofNat _) (by omega))]
    rw [List.filter_cons_of_neg (by simpa using lt 48257 48257 (Int.cast_ofNat _) (by omega))]
    rw [List.filter_cons_of_neg (by simpa using lt 48804 48804 (Int.cast_ofNat _) (by omega))]
    rw [List.filter_cons_of_neg (by simpa using lt 49169 49169 (Int.cast_ofNat _) (by omega))]
    rw [List.filter_cons_of_neg (by simpa using lt 49534 49534 (Int.cast_ofNat _) (by omega))]
    rw [List.filter_cons_of_neg (by simpa using lt 50083 50083 (Int.cast_ofNat _) (by omega))]
    rw [List.filter_cons_of_neg (by simpa using lt 50630 50630 (Int.cast_ofNat _) (by omega))]
    rw [List.filter_cons_of_neg (by simpa using lt 51179 51179 (Int.cast_ofNat _) (by omega))]
    rw [List.filter_cons_of_neg (by simpa using lt 53736 53736 (Int.cast_ofNat _) (by omega))]
    rw [List.filter_cons_of_neg (by simpa using lt 54832 54832 (Int.cast_ofNat _) (by omega))]
    rw [List.filter_cons_of_neg (by simpa using lt 56109 56109 (Int.cast_ofNat _) (by omega))]
    rw [List.filter_cons_of_neg (by simpa using lt 57204 57204 (Int.cast_ofNat _) (by omega))]
    rw [List.filter_cons_of_neg (by simpa using lt 57754 57754 (Int.cast_ofNat _) (by omega))]
    norm_num [eraDatChanges, eraDatDrift]
  replace h := h'
  clear h'
  rcases lt_or_ge j 43144 with h' | h'
  · clear hj
    rw [if_neg (show ¬ (57754 ≤ j) by omega)]
    rw [if_neg (show ¬ (57204 ≤ j) by omega)]
    rw [if_neg (show ¬ (56109 ≤ j) by omega)]
    rw [if_neg (show ¬ (54832 ≤ j) by omega)]
    rw [if_neg (show ¬ (53736 ≤ j) by omega)]
    rw [if_neg (show ¬ (51179 ≤ j) by omega)]
    rw [if_neg (show ¬ (50630 ≤ j) by omega)]
    rw [if_neg (show ¬ (50083 ≤ j) by omega)]
    rw [if_neg (show ¬ (49534 ≤ j) by omega)]
    rw [if_neg (show ¬ (49169 ≤ j) by omega)]
    rw [if_neg (show ¬ (48804 ≤ j) by omega)]
    rw [if_neg (show ¬ (48257 ≤ j) by omega)]
    rw [if_neg (show ¬ (47892 ≤ j) by omega)]
    rw [if_neg (show ¬ (47161 ≤ j) by omega)]
    rw [if_neg (show ¬ (46247 ≤ j) by omega)]
    rw [if_neg (show ¬ (45516 ≤ j) by omega)]
    rw [if_neg (show ¬ (45151 ≤ j) by omega)]
    rw [if_neg (show ¬ (44786 ≤ j) by omega)]
    rw [if_neg (show ¬ (44239 ≤ j) by omega)]
    rw [if_neg (show ¬ (43874 ≤ j) by omega)]
    rw [if_neg (show ¬ (43509 ≤ j) by omega)]
    rw [if_neg (show ¬ (43144 ≤ j) by omega)]
    rw [if_pos (show 42778 ≤ j by omega)]
    unfold taiUtc
    rw [if_neg (ge 36934 36934 (Int.cast_ofNat _) (by omega))]
    rw [if_neg (ge 37300 37300 (Int.cast_ofNat _) (by omega))]
    rw [if_neg (ge 37512 37512 (Int.cast_ofNat _) (by omega))]
    rw [if_neg (ge 37665 37665 (Int.cast_ofNat _) (by omega))]
    rw [if_neg (ge 38334 38334 (Int.cast_ofNat _) (by omega))]
    rw [if_neg (ge 38395 38395 (Int.cast_ofNat _) (by omega))]
    rw [if_neg (ge 38486 38486 (Int.cast_ofNat _) (by omega))]
    rw [if_neg (ge 38639 38639 (Int.cast_ofNat _) (by omega))]
    rw [if_neg (ge 38761 38761 (Int.cast_ofNat _) (by omega))]
    rw [if_neg (ge 38820 38820 (Int.cast_ofNat _) (by omega))]
    rw [if_neg (ge 38942 38942 (Int.cast_ofNat _) (by omega))]
    rw [if_neg (ge 39004 39004 (Int.cast_ofNat _) (by omega))]
    rw [if_neg (ge 39126 39126 (Int.cast_ofNat _) (by omega))]
    rw [if_neg (ge 39887 39887 (Int.cast_ofNat _) (by omega))]
    rw [if_neg (ge 41317 41317 (Int.cast_ofNat _) (by omega))]
    unfold leapSeconds
    rw [List.filter_cons_of_pos (by simpa using ge 41499 41499 (Int.cast_ofNat _) (by omega))]
    rw [List.filter_cons_of_pos (by simpa using ge 41683 41683 (Int.cast_ofNat _) (by omega))]
    rw [List.filter_cons_of_pos (by simpa using ge 42048 42048 (Int.cast_ofNat _) (by omega))]
    rw [List.filter_cons_of_pos (by simpa using ge 42413 42413 (Int.cast_ofNat _) (by omega))]
    rw [List.filter_cons_of_pos (by simpa using ge 42778 42778 (Int.cast_ofNat _) (by omega))]
    rw [List.filter_cons_of_neg (by simpa using lt 43144 43144 (Int.cast_ofNat _) (by omega))]
    rw [List.filter_cons_of_neg (by simpa using lt 43509 43509 (Int.cast_ofNat _) (by omega))]
    rw [List.filter_cons_of_neg (by simpa using lt 43874 43874 (Int.cast_ofNat _) (by omega))]
    rw [List.filter_cons_of_neg (by simpa using lt 44239 44239 (Int.cast_ofNat _) (by omega))]
    rw [List.filter_cons_of_neg (by simpa using lt 44786 44786 (Int.cast_ofNat _) (by omega))]
    rw [List.filter_cons_of_neg (by simpa using lt 45151 45151 (Int.cast_ofNat _) (by omega))]
    rw [List.filter_cons_of_neg (by simpa using lt 45516 45516 (Int.cast_ofNat _) (by omega))]
    rw [List.filter_cons_of_neg (by simpa using lt 46247 46247 (Int.cast_ofNat _) (by omega))]
    rw [List.filter_cons_of_neg (by simpa using lt 47161 47161 (Int.cast_ofNat _) (by omega))]
    rw [List.filter_cons_of_neg (by simpa using lt 47892 47892 (Int.cast_ofNat _) (by omega))]
    rw [List.filter_cons_of_neg (by simpa using lt 48257 48257 (Int.cast_ofNat _) (by omega))]
    rw [List.filter_cons_of_neg (by simpa using lt 48804 48804 (Int.cast_ofNat _) (by omega))]
    rw [List.filter_cons_of_neg (by simpa using lt 49169 49169 (Int.cast_ofNat _) (by omega))]
    rw [List.filter_cons_of_neg (by simpa using lt 49534 49534 (Int.cast_ofNat _) (by omega))]
    rw [List.filter_cons_of_neg (by simpa using lt 50083 50083 (Int.cast_ofNat _) (by omega))]
    rw [List.filter_cons_of_neg (by simpa using lt 50630 50630 (Int.cast_ofNat _) (by omega))]
    rw [List.filter_cons_of_neg (by simpa using lt 51179 51179 (Int.cast_ofNat _) (by omega))]
    rw [List.filter_cons_of_neg (by simpa using lt 53736 53736 (Int.cast_ofNat _) (by omega))]
    rw [List.filter_cons_of_neg (by simpa using lt 54832 54832 (Int.cast_ofNat _) (by omega))]
    rw [List.filter_cons_of_neg (by simpa using lt 56109 56109 (Int.cast_ofNat _) (by omega))]
    rw [List.filter_cons_of_neg (by simpa using lt 57204 57204 (Int.cast_ofNat _) (by omega))]
    rw [List.filter_cons_of_neg (by simpa using lt 57754 57754 (Int.cast_ofNat _) (by omega))]
    norm_num [eraDatChanges, eraDatDrift]
  replace h := h'
  clear h'
  rcases lt_or_ge j 43509 with h' | h'
  · clear hj
    rw [if_neg (show ¬ (57754 ≤ j) by omega)]
    rw [if_neg (show ¬ (57204 ≤ j) by omega)]
    rw [if_neg (show ¬ (56109 ≤ j) by omega)]
    rw [if_neg (show ¬ (54832 ≤ j) by omega)]
    rw [if_neg (show ¬ (53736 ≤ j) by omega)]
    rw [if_neg (show ¬ (51179 ≤ j) by omega)]
    rw [if_neg (show ¬ (50630 ≤ j) by omega)]
    rw [if_neg (show ¬ (50083 ≤ j) by omega)]
    rw [if_neg (show ¬ (49534 ≤ j) by omega)]
    rw [if_neg (show ¬ (49169 ≤ j) by omega)]
    rw [if_neg (show ¬ (48804 ≤ j) by omega)]
    rw [if_neg (show ¬ (48257 ≤ j) by omega)]
    rw [if_neg (show ¬ (47892 ≤ j) by omega)]
    rw [if_neg (show ¬ (47161 ≤ j) by omega)]
    rw [if_neg (show ¬ (46247 ≤ j) by omega)]
    rw [if_neg (show ¬ (45516 ≤ j) by omega)]
    rw [if_neg (show ¬ (45151 ≤ j) by omega)]
    rw [if_neg (show ¬ (44786 ≤ j) by omega)]
    rw [if_neg (show ¬ (44239 ≤ j) by omega)]
    rw [if_neg (show ¬ (43874 ≤ j) by omega)]
    rw [if_neg (show ¬ (43509 ≤ j) by omega)]
    rw [if_pos (show 43144 ≤ j by omega)]
    unfold taiUtc
    rw [if_neg (ge 36934 36934 (Int.cast_ofNat _) (by omega))]
    rw [if_neg (ge 37300 37300 (Int.cast_ofNat _) (by omega))]
    rw [if_neg (ge 37512 37512 (Int.cast_ofNat _) (by omega))]
    rw [if_neg (ge 37665 37665 (Int.cast_ofNat _) (by omega))]
    rw [if_neg (ge 38334 38334 (Int.cast_ofNat _) (by omega))]
    rw [if_neg (ge 38395 38395 (Int.cast_ofNat _) (by omega))]
    rw [if_neg (ge 38486 38486 (Int.cast_ofNat _) (by omega))]
    rw [if_neg (ge 38639 38639 (Int.cast_ofNat _) (by omega))]
    rw [if_neg (ge 38761 38761 (Int.cast_ofNat _) (by omega))]
    rw [if_neg (ge 38820 38820 (Int.cast_ofNat _) (by omega))]
    rw [if_neg (ge 38942 38942 (Int.cast_ofNat _) (by omega))]
    rw [if_neg (ge 39004 39004 (Int.cast_ofNat _) (by omega))]
    rw [if_neg (ge 39126 39126 (Int.cast_ofNat _) (by omega))]
    rw [if_neg (ge 39887 39887 (Int.cast_ofNat _) (by omega))]
    rw [if_neg (ge 41317 41317 (Int.cast_ofNat _) (by omega))]
    unfold leapSeconds
    rw [List.filter_cons_of_pos (by simpa using ge 41499 41499 (Int.cast_ofNat _) (by omega))]
    rw [List.filter_cons_of_pos (by simpa using ge 41683 41683 (Int.cast_ofNat _) (by omega))]
    rw [List.filter_cons_of_pos (by simpa using ge 42048 42048 (Int.cast_ofNat _) (by omega))]
    rw [List.filter_cons_of_pos (by simpa using ge 42413 42413 (Int.cast_ofNat _) (by omega))]
    rw [List.filter_cons_of_pos (by simpa using ge 42778 42778 (Int.cast_ofNat _) (by omega))]
    rw [List.filter_cons_of_pos (by simpa using ge 43144 43144 (Int.cast_ofNat _) (by omega))]
    rw [List.filter_cons_of_neg (by simpa using lt 43509 43509 (Int.cast_ofNat _) (by omega))]
    rw [List.filter_cons_of_neg (by simpa using lt 43874 43874 (Int.cast_ofNat _) (by omega))]
    rw [List.filter_cons_of_neg (by simpa using lt 44239 44239 (Int.cast_ofNat _) (by omega))]
    rw [List.filter_cons_of_neg (by simpa using lt 44786 44786 (Int.cast_ofNat _) (by omega))]
    rw [List.filter_cons_of_neg (by simpa using lt 45151 45151 (Int.cast_ofNat _) (by omega))]
    rw [List.filter_cons_of_neg (by simpa using lt 45516 45516 (Int.cast_ofNat _) (by omega))]
    rw [List.filter_cons_of_neg (by simpa using lt 46247 46247 (Int.cast_ofNat _) (by omega))]
    rw [List.filter_cons_of_neg (by simpa using lt 47161 47161 (Int.cast_ofNat _) (by omega))]
    rw [List.filter_cons_of_neg (by simpa using lt 47892 47892 (Int.cast_ofNat _) (by omega))]
    rw [List.filter_cons_of_neg (by simpa using lt 48257 48257 (Int.cast_ofNat _) (by omega))]
    rw [List.filter_cons_of_neg (by simpa using lt 48804 48804 (Int.cast_ofNat _) (by omega))]
    rw [List.filter_cons_of_neg (by simpa using lt 49169 49169 (Int.cast_ofNat _) (by omega))]
    rw [List.filter_cons_of_neg (by simpa using lt 49534 49534 (Int.cast_ofNat _) (by omega))]
    rw [List.filter_cons_of_neg (by simpa using lt 50083 50083 (Int.cast_ofNat _) (by omega))]
    rw [List.filter_cons_of_neg (by simpa using lt 50630 50630 (Int.cast_ofNat _) (by omega))]
    rw [List.filter_cons_of_neg (by simpa using lt 51179 51179 (Int.cast_ofNat _) (by omega))]
    rw [List.filter_cons_of_neg (by simpa using lt 53736 53736 (Int.cast_ofNat _) (by omega))]
    rw [List.filter_cons_of_neg (by simpa using lt 54832 54832 (Int.cast_ofNat _) (by omega))]
    rw [List.filter_cons_of_neg (by simpa using lt 56109 56109 (Int.cast_ofNat _) (by omega))]
    rw [List.filter_cons_of_neg (by simpa using lt 57204 57204 (Int.cast_ofNat _) (by omega))]
    rw [List.filter_cons_of_neg (by simpa using lt 57754 57754 (Int.cast_ofNat _) (by omega))]
    norm_num [eraDatChanges, eraDatDrift]
  replace h := h'
  clear h'
  rcases lt_or_ge j 43874 with h' | h'
  · clear hj
    rw [if_neg (show ¬ (57754 ≤ j) by omega)]
    rw [if_neg (show ¬ (57204 ≤ j) by omega)]
    rw [if_neg (show ¬ (56109 ≤ j) by omega)]
    rw [if_neg (show ¬ (54832 ≤ j) by omega)]
    rw [if_neg (show ¬ (53736 ≤ j) by omega)]
    rw [if_neg (show ¬ (51179 ≤ j) by omega)]
    rw [if_neg (show ¬ (50630 ≤ j) by omega)]
    rw [if_neg (show ¬ (50083 ≤ j) by omega)]
    rw [if_neg (show ¬ (49534 ≤ j) by omega)]
    rw [if_neg (show ¬ (49169 ≤ j) by omega)]
    rw [if_neg (show ¬ (48804 ≤ j) by omega)]
    rw [if_neg (show ¬ (48257 ≤ j) by omega)]
    rw [if_neg (show ¬ (47892 ≤ j) by omega)]
    rw [if_neg (show ¬ (47161 ≤ j) by omega)]
    rw [if_neg (show ¬ (46247 ≤ j) by omega)]
    rw [if_neg (show ¬ (45516 ≤ j) by omega)]
    rw [if_neg (show ¬ (45151 ≤ j) by omega)]
    rw [if_neg (show ¬ (44786 ≤ j) by omega)]
    rw [if_neg (show ¬ (44239 ≤ j) by omega)]
    rw [if_neg (show ¬ (43874 ≤ j) by omega)]
    rw [if_pos (show 43509 ≤ j by omega)]
    unfold taiUtc
    rw [if_neg (ge 36934 36934 (Int.cast_ofNat _) (by omega))]
    rw [if_neg (ge 37300 37300 (Int.cast_ofNat _) (by omega))]
    rw [if_neg (ge 37512 37512 (Int.cast_ofNat _) (by omega))]
    rw [if_neg (ge 37665 37665 (Int.cast_ofNat _) (by omega))]
    rw [if_neg (ge 38334 38334 (Int.cast_ofNat _) (by omega))]
    rw [if_neg (ge 38395 38395 (Int.cast_ofNat _) (by omega))]
    rw [if_neg (ge 38486 38486 (Int.cast_ofNat _) (by omega))]
    rw [if_neg (ge 38639 38639 (Int.cast_ofNat _) (by omega))]
    rw [if_neg (ge 38761 38761 (Int.cast_ofNat _) (by omega))]
    rw [if_neg (ge 38820 38820 (Int.cast_ofNat _) (by omega))]
    rw [if_neg (ge 38942 38942 (Int.cast_ofNat _) (by omega))]
    rw [if_neg (ge 39004 39004 (Int.cast_ofNat _) (by omega))]
    rw [if_neg (ge 39126 39126 (Int.cast_ofNat _) (by omega))]
    rw [if_neg (ge 39887 39887 (Int.cast_ofNat _) (by omega))]
    rw [if_neg (ge 41317 41317 (Int.cast_ofNat _) (by omega))]
    unfold leapSeconds
    rw [List.filter_cons_of_pos (by simpa using ge 41499 41499 (Int.cast_ofNat _) (by omega))]
    rw [List.filter_cons_of_pos (by simpa using ge 41683 41683 (Int.cast_ofNat _) (by omega))]
    rw [List.filter_cons_of_pos (by simpa using ge 42048 42048 (Int.cast_ofNat _) (by omega))]
    rw [List.filter_cons_of_pos (by simpa using ge 42413 42413 (Int.cast_ofNat _) (by omega))]
    rw [List.filter_cons_of_pos (by simpa using ge 42778 42778 (Int.cast_ofNat _) (by omega))]
    rw [List.filter_cons_of_pos (by simpa using ge 43144 43144 (Int.cast_ofNat _) (by omega))]
    rw [List.filter_cons_of_pos (by simpa using ge 43509 43509 (Int.cast_ofNat _) (by omega))]
    rw [List.filter_cons_of_neg (by simpa using lt 43874 43874 (Int.cast_ofNat _) (by omega))]
    rw [List.filter_cons_of_neg (by simpa using lt 44239 44239 (Int.cast_ofNat _) (by omega))]
    rw [List.filter_cons_of_neg (by simpa using lt 44786 44786 (Int.cast_ofNat _) (by omega))]
    rw [List.filter_cons_of_neg (by simpa using lt 45151 45151 (Int.cast_ofNat _) (by omega))]
    rw [List.filter_cons_of_neg (by simpa using lt 45516 45516 (Int.cast_ofNat _) (by omega))]
    rw [List.filter_cons_of_neg (by simpa using lt 46247 46247 (Int.cast_ofNat _) (by omega))]
    rw [List.filter_cons_of_neg (by simpa using lt 47161 47161 (Int.cast_ofNat _) (by omega))]
    rw [List.filter_cons_of_neg (by simpa using lt 47892 47892 (Int.cast_ofNat _) (by omega))]
    rw [List.filter_cons_of_neg (by simpa using lt 48257 48257 (Int.cast_ofNat _) (by omega))]
    rw [List.filter_cons_of_neg (by simpa using lt 48804 48804 (Int.cast_ofNat _) (by omega))]
    rw [List.filter_cons_of_neg (by simpa using lt 49169 49169 (Int.cast_ofNat _) (by omega))]
    rw [List.filter_cons_of_neg (by simpa using lt 49534 49534 (Int.cast_ofNat _) (by omega))]
    rw [List.filter_cons_of_neg (by simpa using lt 50083 50083 (Int.cast_ofNat _) (by omega))]
    rw [List.filter_cons_of_neg (by simpa using lt 50630 50630 (Int.cast_ofNat _) (by omega))]
    rw [List.filter_cons_of_neg (by simpa using lt 51179 51179 (Int.cast_ofNat _) (by omega))]
    rw [List.filter_cons_of_neg (by simpa using lt 53736 53736 (Int.cast_ofNat _) (by omega))]
    rw [List.filter_cons_of_neg (by simpa using lt 54832 54832 (Int.cast_ofNat _) (by omega))]
    rw [List.filter_cons_of_neg (by simpa using lt 56109 56109 (Int.cast_ofNat _) (by omega))]
    rw [List.filter_cons_of_neg (by simpa using lt 57204 57204 (Int.cast_ofNat _) (by omega))]
    rw [List.filter_cons_of_neg (by simpa using lt 57754 57754 (Int.cast_ofNat _) (by omega))]
    norm_num [eraDatChanges, eraDatDrift]
  replace h := h'
  clear h'
  rcases lt_or_ge j 44239 with h' | h'
  · clear hj
    rw [if_neg (show ¬ (57754 ≤ j) by omega)]
    rw [if_neg (show ¬ (57204 ≤ j) by omega)]
    rw [if_neg (show ¬ (56109 ≤ j) by omega)]
    rw [if_neg (show ¬ (54832 ≤ j) by omega)]
    rw [if_neg (show ¬ (53736 ≤ j) by omega)]
    rw [if_neg (show ¬ (51179 ≤ j) by omega)]
    rw [if_neg (show ¬ (50630 ≤ j) by omega)]
    rw [if_neg (show ¬ (50083 ≤ j) by omega)]
    rw [if_neg (show ¬ (49534 ≤ j) by omega)]
    rw [if_neg (show ¬ (49169 ≤ j) by omega)]
    rw [if_neg (show ¬ (48804 ≤ j) by omega)]
    rw [if_neg (show ¬ (48257 ≤ j) by omega)]
    rw [if_neg (show ¬ (47892 ≤ j) by omega)]
    rw [if_neg (show ¬ (47161 ≤ j) by omega)]
    rw [if_neg (show ¬ (46247 ≤ j) by omega)]
    rw [if_neg (show ¬ (45516 ≤ j) by omega)]
    rw [if_neg (show ¬ (45151 ≤ j) by omega)]
    rw [if_neg (show ¬ (44786 ≤ j) by omega)]
    rw [if_neg (show ¬ (44239 ≤ j) by omega)]
    rw [if_pos (show 43874 ≤ j by omega)]
    unfold taiUtc
    rw [if_neg (ge 36934 36934 (Int.cast_ofNat _) (by omega))]
    rw [if_neg (ge 37300 37300 (Int.cast_ofNat _) (by omega))]
    rw [if_neg (ge 37512 37512 (Int.cast_ofNat _) (by omega))]
    rw [if_neg (ge 37665 37665 (Int.cast_ofNat _) (by omega))]
    rw [if_neg (ge 38334 38334 (Int.cast_ofNat _) (by omega))]
    rw [if_neg (ge 38395 38395 (Int.cast_ofNat _) (by omega))]
    rw [if_neg (ge 38486 38486 (Int.cast_ofNat _) (by omega))]
    rw [if_neg (ge 38639 38639 (Int.cast_ofNat _) (by omega))]
    rw [if_neg (ge 38761 38761 (Int.cast_ofNat _) (by omega))]
    rw [if_neg (ge 38820 38820 (Int.cast_ofNat _) (by omega))]
    rw [if_neg (ge 38942 38942 (Int.cast_ofNat _) (by omega))]
    rw [if_neg (ge 39004 39004 (Int.cast_ofNat _) (by omega))]
    rw [if_neg (ge 39126 39126 (Int.cast_ofNat _) (by omega))]
    rw [if_neg (ge 39887 39887 (Int.cast_ofNat _) (by omega))]
    rw [if_neg (ge 41317 41317 (Int.cast_ofNat _) (by omega))]
    unfold leapSeconds
    rw [List.filter_cons_of_pos (by simpa using ge 41499 41499 (Int.cast_ofNat _) (by omega))]
    rw [List.filter_cons_of_pos (by simpa using ge 41683 41683 (Int.cast_ofNat _) (by omega))]
    rw [List.filter_cons_of_pos (by simpa using ge 42048 42048 (Int.cast_ofNat _) (by omega))]
    rw [List.filter_cons_of_pos (by simpa using ge 42413 42413 (Int.cast_ofNat _) (by omega))]
    rw [List.filter_cons_of_pos (by simpa using ge 42778 42778 (Int.cast_ofNat _) (by omega))]
    rw [List.filter_cons_of_pos (by simpa using ge 43144 43144 (Int.cast_ofNat _) (by omega))]
    rw [List.filter_cons_of_pos (by simpa using ge 43509 43509 (Int.cast_ofNat _) (by omega))]
    rw [List.filter_cons_of_pos (by simpa using ge 43874 43874 (Int.cast_ofNat _) (by omega))]
    rw [List.filter_cons_of_neg (by simpa using lt 44239 44239 (Int.cast_ofNat _) (by omega))]
    rw [List.filter_cons_of_neg (by simpa using lt 44786 44786 (Int.cast_ofNat _) (by omega))]
    rw [List.filter_cons_of_neg (by simpa using lt 45151 45151 (Int.cast_ofNat _) (by omega))]
    rw [List.filter_cons_of_neg (by simpa using lt 45516 45516 (Int.cast_ofNat _) (by omega))]
    rw [List.filter_cons_of_neg (by simpa using lt 46247 46247 (Int.cast_ofNat _) (by omega))]
    rw [List.filter_cons_of_neg (by simpa using lt 47161 47161 (Int.cast_ofNat _) (by omega))]
    rw [List.filter_cons_of_neg (by simpa using lt 47892 47892 (Int.cast_ofNat _) (by omega))]
    rw [List.filter_cons_of_neg (by simpa using lt 48257 48257 (Int.cast_ofNat _) (by omega))]
    rw [List.filter_cons_of_neg (by simpa using lt 48804 48804 (Int.cast_ofNat _) (by omega))]
    rw [List.filter_cons_of_neg (by simpa using lt 49169 49169 (Int.cast_ofNat _) (by omega))]
    rw [List.filter_cons_of_neg (by simpa using lt 49534 49534 (Int.cast_ofNat _) (by omega))]
    rw [List.filter_cons_of_neg (by simpa using lt 50083 50083 (Int.cast_ofNat _) (by omega))]
    rw [List.filter_cons_of_neg (by simpa using lt 50630 50630 (Int.cast_ofNat _) (by omega))]
    rw [List.filter_cons_of_neg (by simpa using lt 51179 51179 (Int.cast_ofNat _) (by omega))]
    rw [List.filter_cons_of_neg (by simpa using lt 53736 53736 (Int.cast_ofNat _) (by omega))]
    rw [List.filter_cons_of_neg (by simpa using lt 54832 54832 (Int.cast_ofNat _) (by omega))]
    rw [List.filter_cons_of_neg (by simpa using lt 56109 56109 (Int.cast_ofNat _) (by omega))]
    rw [List.filter_cons_of_neg (by simpa using lt 57204 57204 (Int.cast_ofNat _) (by omega))]
    rw [List.filter_cons_of_neg (by simpa using lt 57754 57754 (Int.cast_ofNat _) (by omega))]
    norm_num [eraDatChanges, eraDatDrift]
  replace h := h'
  clear h'
  rcases lt_or_ge j 44786 with h' | h'
  · clear hj
    rw [if_neg (show ¬ (57754 ≤ j) by omega)]
    rw [if_neg (show ¬ (57204 ≤ j) by omega)]
    rw [if_neg (show ¬ (56109 ≤ j) by omega)]
    rw [if_neg (show ¬ (54832 ≤ j) by omega)]
    rw [if_neg (show ¬ (53736 ≤ j) by omega)]
    rw [if_neg (show ¬ (51179 ≤ j) by omega)]
    rw [if_neg (show ¬ (50630 ≤ j) by omega)]
    rw [if_neg (show ¬ (50083 ≤ j) by omega)]
    rw [if_neg (show ¬ (49534 ≤ j) by omega)]
    rw [if_neg (show ¬ (49169 ≤ j) by omega)]
    rw [if_neg (show ¬ (48804 ≤ j) by omega)]
    rw [if_neg (show ¬ (48257 ≤ j) by omega)]
    rw [if_neg (show ¬ (47892 ≤ j) by omega)]
    rw [if_neg (show ¬ (47161 ≤ j) by omega)]
    rw [if_neg (show ¬ (46247 ≤ j) by omega)]
    rw [if_neg (show ¬ (45516 ≤ j) by omega)]
    rw [if_neg (show ¬ (45151 ≤ j) by omega)]
    rw [if_neg (show ¬ (44786 ≤ j) by omega)]
    rw [if_pos (show 44239 ≤ j by omega)]
    unfold taiUtc
    rw [if_neg (ge 36934 36934 (Int.cast_ofNat _) (by omega))]
    rw [if_neg (ge 37300 37300 (Int.cast_ofNat _) (by omega))]
    rw [if_neg (ge 37512 37512 (Int.cast_ofNat _) (by omega))]
    rw [if_neg (ge 37665 37665 (Int.cast_ofNat _) (by omega))]
    rw [if_neg (ge 38334 38334 (Int.cast_ofNat _) (by omega))]
    rw [if_neg (ge 38395 38395 (Int.cast_ofNat _) (by omega))]
    rw [if_neg (ge 38486 38486 (Int.cast_ofNat _) (by omega))]
    rw [if_neg (ge 38639 38639 (Int.cast_ofNat _) (by omega))]
    rw [if_neg (ge 38761 38761 (Int.cast_ofNat _) (by omega))]
    rw [if_neg (ge 38820 38820 (Int.cast_ofNat _) (by omega))]
    rw [if_neg (ge 38942 38942 (Int.cast_ofNat _) (by omega))]
    rw [if_neg (ge 39004 39004 (Int.cast_ofNat _) (by omega))]
    rw [if_neg (ge 39126 39126 (Int.cast_ofNat _) (by omega))]
    rw [if_neg (ge 39887 39887 (Int.cast_ofNat _) (by omega))]
    rw [if_neg (ge 41317 41317 (Int.cast_ofNat _) (by omega))]
    unfold leapSeconds
    rw [List.filter_cons_of_pos (by simpa using ge 41499 41499 (Int.cast_ofNat _) (by omega))]
    rw [List.filter_cons_of_pos (by simpa using ge 41683 41683 (Int.cast_ofNat _) (by omega))]
    rw [List.filter_cons_of_pos (by simpa using ge 42048 42048 (Int.cast_ofNat _) (by omega))]
    rw [List.filter_cons_of_pos (by simpa using ge 42413 42413 (Int.cast_ofNat _) (by omega))]
    rw [List.filter_cons_of_pos (by simpa using ge 42778 42778 (Int.cast_ofNat _) (by omega))]
    rw [List.filter_cons_of_pos (by simpa using ge 43144 43144 (Int.cast_ofNat _) (by omega))]
    rw [List.filter_cons_of_pos (by simpa using ge 43509 43509 (Int.cast_ofNat _) (by omega))]
    rw [List.filter_cons_of_pos (by simpa using ge 43874 43874 (Int.cast_ofNat _) (by omega))]
    rw [List.filter_cons_of_pos (by simpa using ge 44239 44239 (Int.cast_ofNat _) (by omega))]
    rw [List.filter_cons_of_neg (by simpa using lt 44786 44786 (Int.cast_ofNat _) (by omega))]
    rw [List.filter_cons_of_neg (by simpa using lt 45151 45151 (Int.cast_ofNat _) (by omega))]
    rw [List.filter_cons_of_neg (by simpa using lt 45516 45516 (Int.cast_ofNat _) (by omega))]
    rw [List.filter_cons_of_neg (by simpa using lt 46247 46247 (Int.cast_ofNat _) (by omega))]
    rw [List.filter_cons_of_neg (by simpa using lt 47161 47161 (Int.cast_ofNat _) (by omega))]
    rw [List.filter_cons_of_neg (by simpa using lt 47892 47892 (Int.cast_ofNat _) (by omega))]
    rw [List.filter_cons_of_neg (by simpa using lt 48257 48257 (Int.cast_ofNat _) (by omega))]
    rw [List.filter_cons_of_neg (by simpa using lt 48804 48804 (Int.cast_ofNat _) (by omega))]
    rw [List.filter_cons_of_neg (by simpa using lt 49169 49169 (Int.cast_ofNat _) (by omega))]
    rw [List.filter_cons_of_neg (by simpa using lt 49534 49534 (Int.cast_ofNat _) (by omega))]
    rw [List.filter_cons_of_neg (by simpa using lt 50083 50083 (Int.cast_ofNat _) (by omega))]
    rw [List.filter_cons_of_neg (by simpa using lt 50630 50630 (Int.cast_ofNat _) (by omega))]
    rw [List.filter_cons_of_neg (by simpa using lt 51179 51179 (Int.cast_ofNat _) (by omega))]
    rw [List.filter_cons_of_neg (by simpa using lt 53736 53736 (Int.cast_ofNat _) (by omega))]
    rw [List.filter_cons_of_neg (by simpa using lt 54832 54832 (Int.cast_ofNat _) (by omega))]
    rw [List.filter_cons_of_neg (by simpa using lt 56109 56109 (Int.cast_ofNat _) (by omega))]
    rw [List.filter_cons_of_neg (by simpa using lt 57204 57204 (Int.cast_ofNat _) (by omega))]
    rw [List.filter_cons_of_neg (by simpa using lt 57754 57754 (Int.cast_ofNat _) (by omega))]
    norm_num [eraDatChanges, eraDatDrift]
  replace h := h'
  clear h'
  rcases lt_or_ge j 45151 with h' | h'
  · clear hj
    rw [if_neg (show ¬ (57754 ≤ j) by omega)]
    rw [if_neg (show ¬ (57204 ≤ j) by omega)]
    rw [if_neg (show ¬ (56109 ≤ j) by omega)]
    rw [if_neg (show ¬ (54832 ≤ j) by omega)]
    rw [if_neg (show ¬ (53736 ≤ j) by omega)]
    rw [if_neg (show ¬ (51179 ≤ j) by omega)]
    rw [if_neg (show ¬ (50630 ≤ j) by omega)]
    rw [if_neg (show ¬ (50083 ≤ j) by omega)]
    rw [if_neg (show ¬ (49534 ≤ j) by omega)]
    rw [if_neg (show ¬ (49169 ≤ j) by omega)]
    rw [if_neg (show ¬ (48804 ≤ j) by omega)]
    rw [if_neg (show ¬ (48257 ≤ j) by omega)]
    rw [if_neg (show ¬ (47892 ≤ j) by omega)]
    rw [if_neg (show ¬ (47161 ≤ j) by omega)]
    rw [if_neg (show ¬ (46247 ≤ j) by omega)]
    rw [if_neg (show ¬ (45516 ≤ j) by omega)]
    rw [if_neg (show ¬ (45151 ≤ j) by omega)]
    rw [if_pos (show 44786 ≤ j by omega)]
    unfold taiUtc
    rw [if_neg (ge 36934 36934 (Int.cast_ofNat _) (by omega))]
    rw [if_neg (ge 37300 37300 (Int.cast_ofNat _) (by omega))]
    rw [if_neg (ge 37512 37512 (Int.cast_ofNat _) (by omega))]
    rw [if_neg (ge 37665 37665 (Int.cast_ofNat _) (by omega))]
    rw [if_neg (ge 38334 38334 (Int.cast_ofNat _) (by omega))]
    rw [if_neg (ge 38395 38395 (Int.cast_ofNat _) (by omega))]
    rw [if_neg (ge 38486 38486 (Int.cast_ofNat _) (by omega))]
    rw [if_neg (ge 38639 38639 (Int.cast_ofNat _) (by omega))]
    rw [if_neg (ge 38761 38761 (Int.cast_ofNat _) (by omega))]
    rw [if_neg (ge 38820 38820 (Int.cast_ofNat _) (by omega))]
    rw [if_neg (ge 38942 38942 (Int.cast_ofNat _) (by omega))]
    rw [if_neg (ge 39004 39004 (Int.cast_ofNat _) (by omega))]
    rw [if_neg (ge 39126 39126 (Int.cast_ofNat _) (by omega))]
    rw [if_neg (ge 39887 39887 (Int.cast_ofNat _) (by omega))]
    rw [if_neg (ge 41317 41317 (Int.cast_ofNat _) (by omega))]
    unfold leapSeconds
    rw [List.filter_cons_of_pos (by simpa using ge 41499 41499 (Int.cast_ofNat _) (by omega))]
    rw [List.filter_cons_of_pos (by simpa using ge 41683 41683 (Int.cast_ofNat _) (by omega))]
    rw [List.filter_cons_of_pos (by simpa using ge 42048 42048 (Int.cast_ofNat _) (by omega))]
    rw [List.filter_cons_of_pos (by simpa using ge 42413 42413 (Int.cast_ofNat _) (by omega))]
    rw [List.filter_cons_of_pos (by simpa using ge 42778 42778 (Int.cast_ofNat _) (by omega))]
    rw [List.filter_cons_of_pos (by simpa using ge 43144 43144 (Int.cast_ofNat _) (by omega))]
    rw [List.filter_cons_of_pos (by simpa using ge 43509 43509 (Int.cast_ofNat _) (by omega))]
    rw [List.filter_cons_of_pos (by simpa using ge 43874 43874 (Int.cast_ofNat _) (by omega))]
    rw [List.filter_cons_of_pos (by simpa using ge 44239 44239 (Int.cast_ofNat _) (by omega))]
    rw [List.filter_cons_of_pos (by simpa using ge 44786 44786 (Int.cast_ofNat _) (by omega))]
    rw [List.filter_cons_of_neg (by simpa using lt 45151 45151 (Int.cast_ofNat _) (by omega))]
    rw [List.filter_cons_of_neg (by simpa using lt 45516 45516 (Int.cast_ofNat _) (by omega))]
    rw [List.filter_cons_of_neg (by simpa using lt 46247 46247 (Int.cast_ofNat _) (by omega))]
    rw [List.filter_cons_of_neg (by simpa using lt 47161 47161 (Int.cast_ofNat _) (by omega))]
    rw [List.filter_cons_of_neg (by simpa using lt 47892 47892 (Int.cast_ofNat _) (by omega))]
    rw [List.filter_cons_of_neg (by simpa using lt 48257 48257 (Int.cast_ofNat _) (by omega))]
    rw [List.filter_cons_of_neg (by simpa using lt 48804 48804 (Int.cast_ofNat _) (by omega))]
    rw [List.filter_cons_of_neg (by simpa using lt 49169 49169 (Int.cast_ofNat _) (by omega))]
    rw [List.filter_cons_of_neg (by simpa using lt 49534 49534 (Int.cast_ofNat _) (by omega))]
    rw [List.filter_cons_of_neg (by simpa using lt 50083 50083 (Int.cast_ofNat _) (by omega))]
    rw [List.filter_cons_of_neg (by simpa using lt 50630 50630 (Int.cast_ofNat _) (by omega))]
    rw [List.filter_cons_of_neg (by simpa using lt 51179 51179 (Int.cast_ofNat _) (by omega))]
    rw [List.filter_cons_of_neg (by simpa using lt 53736 53736 (Int.cast_ofNat _) (by omega))]
    rw [List.filter_cons_of_neg (by simpa using lt 54832 54832 (Int.cast_ofNat _) (by omega))]
    rw [List.filter_cons_of_neg (by simpa using lt 56109 56109 (Int.cast_ofNat _) (by omega))]
    rw [List.filter_cons_of_neg (by simpa using lt 57204 57204 (Int.cast_ofNat _) (by omega))]
    rw [List.filter_cons_of_neg (by simpa using lt 57754 57754 (Int.cast_ofNat _) (by omega))]
    norm_num [eraDatChanges, eraDatDrift]
  replace h := h'
  clear h'
  rcases lt_or_ge j 45516 with h' | h'
  · clear hj
    rw [if_neg (show ¬ (57754 ≤ j) by omega)]
    rw [if_neg (show ¬ (57204 ≤ j) by omega)]
    rw [if_neg (show ¬ (56109 ≤ j) by omega)]
    rw [if_neg (show ¬ (54832 ≤ j) by omega)]
    rw [if_neg (show ¬ (53736 ≤ j) by omega)]
    rw [if_neg (show ¬ (51179 ≤ j) by omega)]
    rw [if_neg (show ¬ (50630 ≤ j) by omega)]
    rw [if_neg (show ¬ (50083 ≤ j) by omega)]
    rw [if_neg (show ¬ (49534 ≤ j) by omega)]
    rw [if_neg (show ¬ (49169 ≤ j) by omega)]
    rw [if_neg (show ¬ (48804 ≤ j) by omega)]
    rw [if_neg (show ¬ (48257 ≤ j) by omega)]
    rw [if_neg (show ¬ (47892 ≤ j) by omega)]
    rw [if_neg (show ¬ (47161 ≤ j) by omega)]
    rw [if_neg (show ¬ (46247 ≤ j) by omega)]
    rw [if_neg (show ¬ (45516 ≤ j) by omega)]
    rw [if_pos (show 45151 ≤ j by omega)]
    unfold taiUtc
    rw [if_neg (ge 36934 36934 (Int.cast_ofNat _) (by omega))]
    rw [if_neg (ge 37300 37300 (Int.cast_ofNat _) (by omega))]
    rw [if_neg (ge 37512 37512 (Int.cast_ofNat _) (by omega))]
    rw [if_neg (ge 37665 37665 (Int.cast_ofNat _) (by omega))]
    rw [if_neg (ge 38334 38334 (Int.cast_ofNat _) (by omega))]
    rw [if_neg (ge 38395 38395 (Int.cast_ofNat _) (by omega))]
    rw [if_neg (ge 38486 38486 (Int.cast_ofNat _) (by omega))]
    rw [if_neg (ge 38639 38639 (Int.cast_ofNat _) (by omega))]
    rw [if_neg (ge 38761 38761 (Int.cast_ofNat _) (by omega))]
    rw [if_neg (ge 38820 38820 (Int.cast_ofNat _) (by omega))]
    rw [if_neg (ge 38942 38942 (Int.cast_ofNat _) (by omega))]
    rw [if_neg (ge 39004 39004 (Int.cast_ofNat _) (by omega))]
    rw [if_neg (ge 39126 39126 (Int.cast_ofNat _) (by omega))]
    rw [if_neg (ge 39887 39887 (Int.cast_ofNat _) (by omega))]
    rw [if_neg (ge 41317 41317 (Int.cast_ofNat _) (by omega))]
    unfold leapSeconds
    rw [List.filter_cons_of_pos (by simpa using ge 41499 41499 (Int.cast_ofNat _) (by omega))]
    rw [List.filter_cons_of_pos (by simpa using ge 41683 41683 (Int.cast_ofNat _) (by omega))]
    rw [List.filter_cons_of_pos (by simpa using ge 42048 42048 (Int.cast_ofNat _) (by omega))]
    rw [List.filter_cons_of_pos (by simpa using ge 42413 42413 (Int.cast_ofNat _) (by omega))]
    rw [List.filter_cons_of_pos (by simpa using ge 42778 42778 (Int.cast_ofNat _) (by omega))]
    rw [List.filter_cons_of_pos (by simpa using ge 43144 43144 (Int.cast_ofNat _) (by omega))]
    rw [List.filter_cons_of_pos (by simpa using ge 43509 43509 (Int.cast_ofNat _) (by omega))]
    rw [List.filter_cons_of_pos (by simpa using ge 43874 43874 (Int.cast_ofNat _) (by omega))]
    rw [List.filter_cons_of_pos (by simpa using ge 44239 44239 (Int.cast_ofNat _) (by omega))]
    rw [List.filter_cons_of_pos (by simpa using ge 44786 44786 (Int.cast_ofNat _) (by omega))]
    rw [List.filter_cons_of_pos (by simpa using ge 45151 45151 (Int.cast_ofNat _) (by omega))]
    rw [List.filter_cons_of_neg (by simpa using lt 45516 45516 (Int.cast_ofNat _) (by omega))]
    rw [List.filter_cons_of_neg (by simpa using lt 46247 46247 (Int.cast_ofNat _) (by omega))]
    rw [List.filter_cons_of_neg (by simpa using lt 47161 47161 (Int.cast_ofNat _) (by omega))]
    rw [List.filter_cons_of_neg (by simpa using lt 47892 47892 (Int.cast_ofNat _) (by omega))]
    rw [List.filter_cons_of_neg (by simpa using lt 48257 48257 (Int.cast_ofNat _) (by omega))]
    rw [List.filter_cons_of_neg (by simpa using lt 48804 48804 (Int.cast_ofNat _) (by omega))]
    rw [List.filter_cons_of_neg (by simpa using lt 49169 49169 (Int.cast_ofNat _) (by omega))]
    rw [List.filter_cons_of_neg (by simpa using lt 49534 49534 (Int.cast_ofNat _) (by omega))]
    rw [List.filter_cons_of_neg (by simpa using lt 50083 50083 (Int.cast_ofNat _) (by omega))]
    rw [List.filter_cons_of_neg (by simpa using lt 50630 50630 (Int.cast_ofNat _) (by omega))]
    rw [List.filter_cons_of_neg (by simpa using lt 51179 51179 (Int.cast_ofNat _) (by omega))]
    rw [List.filter_cons_of_neg (by simpa using lt 53736 53736 (Int.cast_ofNat _) (by omega))]
    rw [List.filter_cons_of_neg (by simpa using lt 54832 54832 (Int.cast_ofNat _) (by omega))]
    rw [List.filter_cons_of_neg (by simpa using lt 56109 56109 (Int.cast_ofNat _) (by omega))]
    rw [List.filter_cons_of_neg (by simpa using lt 57204 57204 (Int.cast_ofNat _) (by omega))]
    rw [List.filter_cons_of_neg (by simpa using lt 57754 57754 (Int.cast_ofNat _) (by omega))]
    norm_num [eraDatChanges, eraDatDrift]
  replace h := h'
  clear h'
  rcases lt_or_ge j 46247 with h' | h'
  · clear hj
    rw [if_neg (show ¬ (57754 ≤ j) by omega)]
    rw [if_neg (show ¬ (57204 ≤ j) by omega)]
    rw [if_neg (show ¬ (56109 ≤ j) by omega)]
    rw [if_neg (show ¬ (54832 ≤ j) by omega)]
    rw [if_neg (show ¬ (53736 ≤ j) by omega)]
    rw [if_neg (show ¬ (51179 ≤ j) by omega)]
    rw [if_neg (show ¬ (50630 ≤ j) by omega)]
    rw [if_neg (show ¬ (50083 ≤ j) by omega)]
    rw [if_neg (show ¬ (49534 ≤ j) by omega)]
    rw [if_neg (show ¬ (49169 ≤ j) by omega)]
    rw [if_neg (show ¬ (48804 ≤ j) by omega)]
    rw [if_neg (show ¬ (48257 ≤ j) by omega)]
    rw [if_neg (show ¬ (47892 ≤ j) by omega)]
    rw [if_neg (show ¬ (47161 ≤ j) by omega)]
    rw [if_neg (show ¬ (46247 ≤ j) by omega)]
    rw [if_pos (show 45516 ≤ j by omega)]
    unfold taiUtc
    rw [if_neg (ge 36934 36934 (Int.cast_ofNat _) (by omega))]
    rw [if_neg (ge 37300 37300 (Int.cast_ofNat _) (by omega))]
    rw [if_neg (ge 37512 37512 (Int.cast_ofNat _) (by omega))]
    rw [if_neg (ge 37665 37665 (Int.cast_ofNat _) (by omega))]
    rw [if_neg (ge 38334 38334 (Int.cast_ofNat _) (by omega))]
    rw [if_neg (ge 38395 38395 (Int.cast_ofNat _) (by omega))]
    rw [if_neg (ge 38486 38486 (Int.cast_ofNat _) (by omega))]
    rw [if_neg (ge 38639 38639 (Int.cast_ofNat _) (by omega))]
    rw [if_neg (ge 38761 38761 (Int.cast_ofNat _) (by omega))]
    rw [if_neg (ge 38820 38820 (Int.cast_ofNat _) (by omega))]
    rw [if_neg (ge 38942 38942 (Int.cast_ofNat _) (by omega))]
    rw [if_neg (ge 39004 39004 (Int.cast_ofNat _) (by omega))]
    rw [if_neg (ge 39126 39126 (Int.cast_ofNat _) (by omega))]
    rw [if_neg (ge 39887 39887 (Int.cast_ofNat _) (by omega))]
    rw [if_neg (ge 41317 41317 (Int.cast_ofNat _) (by omega))]
    unfold leapSeconds
    rw [List.filter_cons_of_pos (by simpa using ge 41499 41499 (Int.cast_ofNat _) (by omega))]
    rw [List.filter_cons_of_pos (by simpa using ge 41683 41683 (Int.cast_ofNat _) (by omega))]
    rw [List.filter_cons_of_pos (by simpa using ge 42048 42048 (Int.cast_ofNat _) (by omega))]
    rw [List.filter_cons_of_pos (by simpa using ge 42413 42413 (Int.cast_ofNat _) (by omega))]
    rw [List.filter_cons_of_pos (by simpa using ge 42778 42778 (Int.cast_ofNat _) (by omega))]
    rw [List.filter_cons_of_pos (by simpa using ge 43144 43144 (Int.cast_ofNat _) (by omega))]
    rw [List.filter_cons_of_pos (by simpa using ge 43509 43509 (Int.cast_ofNat _) (by omega))]
    rw [List.filter_cons_of_pos (by simpa using ge 43874 43874 (Int.cast_ofNat _) (by omega))]
    rw [List.filter_cons_of_pos (by simpa using ge 44239 44239 (Int.cast_ofNat _) (by omega))]
    rw [List.filter_cons_of_pos (by simpa using ge 44786 44786 (Int.cast_ofNat _) (by omega))]
    rw [List.filter_cons_of_pos (by simpa using ge 45151 45151 (Int.cast_ofNat _) (by omega))]
    rw [List.filter_cons_of_pos (by simpa using ge 45516 45516 (Int.cast_ofNat _) (by omega))]
    rw [List.filter_cons_of_neg (by simpa using lt 46247 46247 (Int.cast_ofNat _) (by omega))]
    rw [List.filter_cons_of_neg (by simpa using lt 47161 47161 (Int.cast_ofNat _) (by omega))]
    rw [List.filter_cons_of_neg (by simpa using lt 47892 47892 (Int.cast_ofNat _) (by omega))]
    rw [List.filter_cons_of_neg (by simpa using lt 48257 48257 (Int.cast_ofNat _) (by omega))]
    rw [List.filter_cons_of_neg (by simpa using lt 48804 48804 (Int.cast_ofNat _) (by omega))]
    rw [List.filter_cons_of_neg (by simpa using lt 49169 49169 (Int.cast_ofNat _) (by omega))]
    rw [List.filter_cons_of_neg (by simpa using lt 49534 49534 (Int.cast_ofNat _) (by omega))]
    rw [List.filter_cons_of_neg (by simpa using lt 50083 50083 (Int.cast_ofNat _) (by omega))]
    rw [List.filter_cons_of_neg (by simpa using lt 50630 50630 (Int.cast_ofNat _) (by omega))]
    rw [List.filter_cons_of_neg (by simpa using lt 51179 51179 (Int.cast_ofNat _) (by omega))]
    rw [List.filter_cons_of_neg (by simpa using lt 53736 53736 (Int.cast_ofNat _) (by omega))]
    rw [List.filter_cons_of_neg (by simpa using lt 54832 54832 (Int.cast_ofNat _) (by omega))]
    rw [List.filter_cons_of_neg (by simpa using lt 56109 56109 (Int.cast_ofNat _) (by omega))]
    rw [List.filter_cons_of_neg (by simpa using lt 57204 57204 (Int.cast_ofNat _) (by omega))]
    rw [List.filter_cons_of_neg (by simpa using lt 57754 57754 (Int.cast_ofNat _) (by omega))]
    norm_num [eraDatChanges, eraDatDrift]
  replace h := h'
  clear h'
  rcases lt_or_ge j 47161 with h' | h'
  · clear hj
    rw [if_neg (show ¬ (57754 ≤ j) by omega)]
    rw [if_neg (show ¬ (57204 ≤ j) by omega)]
    rw [if_neg (show ¬ (56109 ≤ j) by omega)]
    rw [if_neg (show ¬ (54832 ≤ j) by omega)]
    rw [if_neg (show ¬ (53736 ≤ j) by omega)]
    rw [if_neg (show ¬ (51179 ≤ j) by omega)]
    rw [if_neg (show ¬ (50630 ≤ j) by omega)]
    rw [if_neg (show ¬ (50083 ≤ j) by omega)]
    rw [if_neg (show ¬ (49534 ≤ j) by omega)]
    rw [if_neg (show ¬ (49169 ≤ j) by omega)]
    rw [if_neg (show ¬ (48804 ≤ j) by omega)]
    rw [if_neg (show ¬ (48257 ≤ j) by omega)]
    rw [if_neg (show ¬ (47892 ≤ j) by omega)]
    rw [if_neg (show ¬ (47161 ≤ j) by omega)]
    rw [if_pos (show 46247 ≤ j by omega)]
    unfold taiUtc
    rw [if_neg (ge 36934 36934 (Int.cast_ofNat _) (by omega))]
    rw [if_neg (ge 37300 37300 (Int.cast_ofNat _) (by omega))]
    rw [if_neg (ge 37512 37512 (Int.cast_ofNat _) (by omega))]
    rw [if_neg (ge 37665 37665 (Int.cast_ofNat _) (by omega))]
    rw [if_neg (ge 38334 38334 (Int.cast_ofNat _) (by omega))]
    rw [if_neg (ge 38395 38395 (Int.cast_ofNat _) (by omega))]
    rw [if_neg (ge 38486 38486 (Int.cast_ofNat _) (by omega))]
    rw [if_neg (ge 38639 38639 (Int.cast_ofNat _) (by omega))]
    rw [if_neg (ge 38761 38761 (Int.cast_ofNat _) (by omega))]
    rw [if_neg (ge 38820 38820 (Int.cast_ofNat _) (by omega))]
    rw [if_neg (ge 38942 38942 (Int.cast_ofNat _) (by omega))]
    rw [if_neg (ge 39004 39004 (Int.cast_ofNat _) (by omega))]
    rw [if_neg (ge 39126 39126 (Int.cast_ofNat _) (by omega))]
    rw [if_neg (ge 39887 39887 (Int.cast_ofNat _) (by omega))]
    rw [if_neg (ge 41317 41317 (Int.cast_ofNat _) (by omega))]
    unfold leapSeconds
    rw [List.filter_cons_of_pos (by simpa using ge 41499 41499 (Int.cast_ofNat _) (by omega))]
    rw [List.filter_cons_of_pos (by simpa using ge 41683 41683 (Int.cast_ofNat _) (by omega))]
    rw [List.filter_cons_of_pos (by simpa using ge 42048 42048 (Int.cast_ofNat _) (by omega))]
    rw [List.filter_cons_of_pos (by simpa using ge 42413 42413 (Int.cast_ofNat _) (by omega))]
    rw [List.filter_cons_of_pos (by simpa using ge 42778 42778 (Int.cast_ofNat _) (by omega))]
    rw [List.filter_cons_of_pos (by simpa using ge 43144 43144 (Int.cast_ofNat _) (by omega))]
    rw [List.filter_cons_of_pos (by simpa using ge 43509 43509 (Int.cast_ofNat _) (by omega))]
    rw [List.filter_cons_of_pos (by simpa using ge 43874 43874 (Int.cast_ofNat _) (by omega))]
    rw [List.filter_cons_of_pos (by simpa using ge 44239 44239 (Int.cast_ofNat _) (by omega))]
    rw [List.filter_cons_of_pos (by simpa using ge 44786 44786 (Int.cast_ofNat _) (by omega))]
    rw [List.filter_cons_of_pos (by simpa using ge 45151 45151 (Int.cast_ofNat _) (by omega))]
    rw [List.filter_cons_of_pos (by simpa using ge 45516 45516 (Int.cast_ofNat _) (by omega))]
    rw [List.filter_cons_of_pos (by simpa using ge 46247 46247 (Int.cast_ofNat _) (by omega))]
    rw [List.filter_cons_of_neg (by simpa using lt 47161 47161 (Int.cast_ofNat _) (by omega))]
    rw [List.filter_cons_of_neg (by simpa using lt 47892 47892 (Int.cast_ofNat _) (by omega))]
    rw [List.filter_cons_of_neg (by simpa using lt 48257 48257 (Int.cast_ofNat _) (by omega))]
    rw [List.filter_cons_of_neg (by simpa using lt 48804 48804 (Int.cast_ofNat _) (by omega))]
    rw [List.filter_cons_of_neg (by simpa using lt 49169 49169 (Int.cast_ofNat _) (by omega))]
    rw [List.filter_cons_of_neg (by simpa using lt 49534 49534 (Int.cast_ofNat _) (by omega))]
    rw [List.filter_cons_of_neg (by simpa using lt 50083 50083 (Int.cast_ofNat _) (by omega))]
    rw [List.filter_cons_of_neg (by simpa using lt 50630 50630 (Int.cast_ofNat _) (by omega))]
    rw [List.filter_cons_of_neg (by simpa using lt 51179 51179 (Int.cast_ofNat _) (by omega))]
    rw [List.filter_cons_of_neg (by simpa using lt 53736 53736 (Int.cast_ofNat _) (by omega))]
    rw [List.filter_cons_of_neg (by simpa using lt 54832 54832 (Int.cast_ofNat _) (by omega))]
    rw [List.filter_cons_of_neg (by simpa using lt 56109 56109 (Int.cast_ofNat _) (by omega))]
    rw [List.filter_cons_of_neg (by simpa using lt 57204 57204 (Int.cast_ofNat _) (by omega))]
    rw [List.filter_cons_of_neg (by simpa using lt 57754 57754 (Int.cast_ofNat _) (by omega))]
    norm_num [eraDatChanges, eraDatDrift]
  replace h := h'
  clear h'
  rcases lt_or_ge j 47892 with h' | h'
  · clear hj
    rw [if_neg (show ¬ (57754 ≤ j) by omega)]
    rw [if_neg (show ¬ (57204 ≤ j) by omega)]
    rw [if_neg (show ¬ (56109 ≤ j) by omega)]
    rw [if_neg (show ¬ (54832 ≤ j) by omega)]
    rw [if_neg (show ¬ (53736 ≤ j) by omega)]
    rw [if_neg (show ¬ (51179 ≤ j) by omega)]
    rw [if_neg (show ¬ (50630 ≤ j) by omega)]
    rw [if_neg (show ¬ (50083 ≤ j) by omega)]
    rw [if_neg (show ¬ (49534 ≤ j) by omega)]
    rw [if_neg (show ¬ (49169 ≤ j) by omega)]
    rw [if_neg (show ¬ (48804 ≤ j) by omega)]
    rw [if_neg (show ¬ (48257 ≤ j) by omega)]
    rw [if_neg (show ¬ (47892 ≤ j) by omega)]
    rw [if_pos (show 47161 ≤ j by omega)]
    unfold taiUtc
    rw [if_neg (ge 36934 36934 (Int.cast_ofNat _) (by omega))]
    rw [if_neg (ge 37300 37300 (Int.cast_ofNat _) (by omega))]
    rw [if_neg (ge 37512 37512 (Int.cast_ofNat _) (by omega))]
    rw [if_neg (ge 37665 37665 (Int.cast_ofNat _) (by omega))]
    rw [if_neg (ge 38334 38334 (Int.cast_ofNat _) (by omega))]
    rw [if_neg (ge 38395 38395 (Int.cast_ofNat _) (by omega))]
    rw [if_neg (ge 38486 38486 (Int.cast_ofNat _) (by omega))]
    rw [if_neg (ge 38639 38639 (Int.cast_ofNat _) (by omega))]
    rw [if_neg (ge 38761 38761 (Int.cast_ofNat _) (by omega))]
    rw [if_neg (ge 38820 38820 (Int.cast_ofNat _) (by omega))]
    rw [if_neg (ge 38942 38942 (Int.cast_ofNat _) (by omega))]
    rw [if_neg (ge 39004 39004 (Int.cast_ofNat _) (by omega))]
    rw [if_neg (ge 39126 39126 (Int.cast_ofNat _) (by omega))]
    rw [if_neg (ge 39887 39887 (Int.cast_ofNat _) (by omega))]
    rw [if_neg (ge 41317 41317 (Int.cast_ofNat _) (by omega))]
    unfold leapSeconds
    rw [List.filter_cons_of_pos (by simpa using ge 41499 41499 (Int.cast_ofNat _) (by omega))]
    rw [List.filter_cons_of_pos (by simpa using ge 41683 41683 (Int.cast_ofNat _) (by omega))]
    rw [List.filter_cons_of_pos (by simpa using ge 42048 42048 (Int.cast_ofNat _) (by omega))]
    rw [List.filter_cons_of_pos (by simpa using ge 42413 42413 (Int.cast_ofNat _) (by omega))]
    rw [List.filter_cons_of_pos (by simpa using ge 42778 42778 (Int.cast_ofNat _) (by omega))]
    rw [List.filter_cons_of_pos (by simpa using ge 43144 43144 (Int.cast_ofNat _) (by omega))]
    rw [List.filter_cons_of_pos (by simpa using ge 43509 43509 (Int.cast_ofNat _) (by omega))]
    rw [List.filter_cons_of_pos (by simpa using ge 43874 43874 (Int.cast_ofNat _) (by omega))]
    rw [List.filter_cons_of_pos (by simpa using ge 44239 44239 (Int.cast_ofNat _) (by omega))]
    rw [List.filter_cons_of_pos (by simpa using ge 44786 44786 (Int.cast_ofNat _) (by omega))]
    rw [List.filter_cons_of_pos (by simpa using ge 45151 45151 (Int.cast_ofNat _) (by omega))]
    rw [List.filter_cons_of_pos (by simpa using ge 45516 45516 (Int.cast_ofNat _) (by omega))]
    rw [List.filter_cons_of_pos (by simpa using ge 46247 46247 (Int.cast_ofNat _) (by omega))]
    rw [List.filter_cons_of_pos (by simpa using ge 47161 47161 (Int.cast_ofNat _) (by omega))]
    rw [List.filter_cons_of_neg (by simpa using lt 47892 47892 (Int.cast_ofNat _) (by omega))]
    rw [List.filter_cons_of_neg (by simpa using lt 48257 48257 (Int.cast_ofNat _) (by omega))]
    rw [List.filter_cons_of_neg (by simpa using lt 48804 48804 (Int.cast_ofNat _) (by omega))]
    rw [List.filter_cons_of_neg (by simpa using lt 49169 49169 (Int.cast_ofNat _) (by omega))]
    rw [List.filter_cons_of_neg (by simpa using lt 49534 49534 (Int.cast_ofNat _) (by omega))]
    rw [List.filter_cons_of_neg (by simpa using lt 50083 50083 (Int.cast_ofNat _) (by omega))]
    rw [List.filter_cons_of_neg (by simpa using lt 50630 50630 (Int.cast_ofNat _) (by omega))]
    rw [List.filter_cons_of_neg (by simpa using lt 51179 51179 (Int.cast_ofNat _) (by omega))]
    rw [List.filter_cons_of_neg (by simpa using lt 53736 53736 (Int.cast_ofNat _) (by omega))]
    rw [List.filter_cons_of_neg (by simpa using lt 54832 54832 (Int.cast_ofNat _) (by omega))]
    rw [List.filter_cons_of_neg (by simpa using lt 56109 56109 (Int.cast_ofNat _) (by omega))]
    rw [List.filter_cons_of_neg (by simpa using lt 57204 57204 (Int.cast_ofNat _) (by omega))]
    rw [List.filter_cons_of_neg (by simpa using lt 57754 57754 (Int.cast_ofNat _) (by omega))]
    norm_num [eraDatChanges, eraDatDrift]
  replace h := h'
  clear h'
  rcases lt_or_ge j 48257 with h' | h'
  · clear hj
    rw [if_neg (show ¬ (57754 ≤ j) by omega)]
    rw [if_neg (show ¬ (57204 ≤ j) by omega)]
    rw [if_neg (show ¬ (56109 ≤ j) by omega)]
    rw [if_neg (show ¬ (54832 ≤ j) by omega)]
    rw [if_neg (show ¬ (53736 ≤ j) by omega)]
    rw [if_neg (show ¬ (51179 ≤ j) by omega)]
    rw [if_neg (show ¬ (50630 ≤ j) by omega)]
    rw [if_neg (show ¬ (50083 ≤ j) by omega)]
    rw [if_neg (show ¬ (49534 ≤ j) by omega)]
    rw [if_neg (show ¬ (49169 ≤ j) by omega)]
    rw [if_neg (show ¬ (48804 ≤ j) by omega)]
    rw [if_neg (show ¬ (48257 ≤ j) by omega)]
    rw [if_pos (show 47892 ≤ j by omega)]
    unfold taiUtc
    rw [if_neg (ge 36934 36934 (Int.cast_ofNat _) (by omega))]
    rw [if_neg (ge 37300 37300 (Int.cast_ofNat _) (by omega))]
    rw [if_neg (ge 37512 37512 (Int.cast_ofNat _) (by omega))]
    rw [if_neg (ge 37665 37665 (Int.cast_ofNat _) (by omega))]
    rw [if_neg (ge 38334 38334 (Int.cast_ofNat _) (by omega))]
    rw [if_neg (ge 38395 38395 (Int.cast_ofNat _) (by omega))]
    rw [if_neg (ge 38486 38486 (Int.cast_ofNat _) (by omega))]
    rw [if_neg (ge 38639 38639 (Int.cast_ofNat _) (by omega))]
    rw [if_neg (ge 38761 38761 (Int.cast_ofNat _) (by omega))]
    rw [if_neg (ge 38820 38820 (Int.cast_ofNat _) (by omega))]
    rw [if_neg (ge 38942 38942 (Int.cast_ofNat _) (by omega))]
    rw [if_neg (ge 39004 39004 (Int.cast_ofNat _) (by omega))]
    rw [if_neg (ge 39126 39126 (Int.cast_ofNat _) (by omega))]
    rw [if_neg (ge 39887 39887 (Int.cast_ofNat _) (by omega))]
    rw [if_neg (ge 41317 41317 (Int.cast_ofNat _) (by omega))]
    unfold leapSeconds
    rw [List.filter_cons_of_pos (by simpa using ge 41499 41499 (Int.cast_ofNat _) (by omega))]
    rw [List.filter_cons_of_pos (by simpa using ge 41683 41683 (Int.cast_ofNat _) (by omega))]
    rw [List.filter_cons_of_pos (by simpa using ge 42048 42048 (Int.cast_ofNat _) (by omega))]
    rw [List.filter_cons_of_pos (by simpa using ge 42413 42413 (Int.cast_ofNat _) (by omega))]
    rw [List.filter_cons_of_pos (by simpa using ge 42778 42778 (Int.cast_ofNat _) (by omega))]
    rw [List.filter_cons_of_pos (by simpa using ge 43144 43144 (Int.cast_ofNat _) (by omega))]
    rw [List.filter_cons_of_pos (by simpa using ge 43509 43509 (Int.cast_ofNat _) (by omega))]
    rw [List.filter_cons_of_pos (by simpa using ge 43874 43874 (Int.cast_ofNat _) (by omega))]
    rw [List.filter_cons_of_pos (by simpa using ge 44239 44239 (Int.cast_ofNat _) (by omega))]
    rw [List.filter_cons_of_pos (by simpa using ge 44786 44786 (Int.cast_ofNat _) (by omega))]
    rw [List.filter_cons_of_pos (by simpa using ge 45151 45151 (Int.cast_ofNat _) (by omega))]
    rw [List.filter_cons_of_pos (by simpa using ge 45516 45516 (Int.cast_ofNat _) (by omega))]
    rw [List.filter_cons_of_pos (by simpa using ge 46247 46247 (Int.cast_ofNat _) (by omega))]
    rw [List.filter_cons_of_pos (by simpa using ge 47161 47161 (Int.cast_ofNat _) (by omega))]
    rw [List.filter_cons_of_pos (by simpa using ge 47892 47892 (Int.cast_ofNat _) (by omega))]
    rw [List.filter_cons_of_neg (by simpa using lt 48257 48257 (Int.cast_ofNat _) (by omega))]
    rw [List.filter_cons_of_neg (by simpa using lt 48804 48804 (Int.cast_ofNat _) (by omega))]
    rw [List.filter_cons_of_neg (by simpa using lt 49169 49169 (Int.cast_ofNat _) (by omega))]
    rw [List.filter_cons_of_neg (by simpa using lt 49534 49534 (Int.cast_ofNat _) (by omega))]
    rw [List.filter_cons_of_neg (by simpa using lt 50083 50083 (Int.cast_ofNat _) (by omega))]
    rw [List.filter_cons_of_neg (by simpa using lt 50630 50630 (Int.cast_ofNat _) (by omega))]
    rw [List.filter_cons_of_neg (by simpa using lt 51179 51179 (Int.cast_ofNat _) (by omega))]
    rw [List.filter_cons_of_neg (by simpa using lt 53736 53736 (Int.cast_ofNat _) (by omega))]
    rw [List.filter_cons_of_neg (by simpa using lt 54832 54832 (Int.cast_ofNat _) (by omega))]
    rw [List.filter_cons_of_neg (by simpa using lt 56109 56109 (Int.cast_ofNat _) (by omega))]
    rw [List.filter_cons_of_neg (by simpa using lt 57204 57204 (Int.cast_ofNat _) (by omega))]
    rw [List.filter_cons_of_neg (by simpa using lt 57754 57754 (Int.cast_ofNat _) (by omega))]
    norm_num [eraDatChanges, eraDatDrift]
  replace h := h'
  clear h'
  rcases lt_or_ge j 48804 with h' | h'
  · clear hj
    rw [if_neg (show ¬ (57754 ≤ j) by omega)]
    rw [if_neg (show ¬ (57204 ≤ j) by omega)]
    rw [if_neg (show ¬ (56109 ≤ j) by omega)]
    rw [if_neg (show ¬ (54832 ≤ j) by omega)]
    rw [if_neg (show ¬ (53736 ≤ j) by omega)]
    rw [if_neg (show ¬ (51179 ≤ j) by omega)]
    rw [if_neg (show ¬ (50630 ≤ j) by omega)]
    rw [if_neg (show ¬ (50083 ≤ j) by omega)]
    rw [if_neg (show ¬ (49534 ≤ j) by omega)]
    rw [if_neg (show ¬ (49169 ≤ j) by omega)]
    rw [if_neg (show ¬ (48804 ≤ j) by omega)]
    rw [if_pos (show 48257 ≤ j by omega)]
    unfold taiUtc
    rw [if_neg (ge 36934 36934 (Int.cast_ofNat _) (by omega))]
    rw [if_neg (ge 37300 37300 (Int.cast_ofNat _) (by omega))]
    rw [if_neg (ge 37512 37512 (Int.cast_ofNat _) (by omega))]
    rw [if_neg (ge 37665 37665 (Int.cast_ofNat _) (by omega))]
    rw [if_neg (ge 38334 38334 (Int.cast_ofNat _) (by omega))]
    rw [if_neg (ge 38395 38395 (Int.cast_ofNat _) (by omega))]
    rw [if_neg (ge 38486 38486 (Int.cast_ofNat _) (by omega))]
    rw [if_neg (ge 38639 38639 (Int.cast_ofNat _) (by omega))]
    rw [if_neg (ge 38761 38761 (Int.cast_ofNat _) (by omega))]
    rw [if_neg (ge 38820 38820 (Int.cast_ofNat _) (by omega))]
    rw [if_neg (ge 38942 38942 (Int.cast_ofNat _) (by omega))]
    rw [if_neg (ge 39004 39004 (Int.cast_ofNat _) (by omega))]
    rw [if_neg (ge 39126 39126 (Int.cast_ofNat _) (by omega))]
    rw [if_neg (ge 39887 39887 (Int.cast_ofNat _) (by omega))]
    rw [if_neg (ge 41317 41317 (Int.cast_ofNat _) (by omega))]
    unfold leapSeconds
    rw [List.filter_cons_of_pos (by simpa using ge 41499 41499 (Int.cast_ofNat _) (by omega))]
    rw [List.filter_cons_of_pos (by simpa using ge 41683 41683 (Int.cast_ofNat _) (by omega))]
    rw [List.filter_cons_of_pos (by simpa using ge 42048 42048 (Int.cast_ofNat _) (by omega))]
    rw [List.filter_cons_of_pos (by simpa using ge 42413 42413 (Int.cast_ofNat _) (by omega))]
    rw [List.filter_cons_of_pos (by simpa using ge 42778 42778 (Int.cast_ofNat _) (by omega))]
    rw [List.filter_cons_of_pos (by simpa using ge 43144 43144 (Int.cast_ofNat _) (by omega))]
    rw [List.filter_cons_of_pos (by simpa using ge 43509 43509 (Int.cast_ofNat _) (by omega))]
    rw [List.filter_cons_of_pos (by simpa using ge 43874 43874 (Int.cast_ofNat _) (by omega))]
    rw [List.filter_cons_of_pos (by simpa using ge 44239 44239 (Int.cast_ofNat _) (by omega))]
    rw [List.filter_cons_of_pos (by simpa using ge 44786 44786 (Int.cast_ofNat _) (by omega))]
    rw [List.filter_cons_of_pos (by simpa using ge 45151 45151 (Int.cast_ofNat _) (by omega))]
    rw [List.filter_cons_of_pos (by simpa using ge 45516 45516 (Int.cast_ofNat _) (by omega))]
    rw [List.filter_cons_of_pos (by simpa using ge 46247 46247 (Int.cast_ofNat _) (by omega))]
    rw [List.filter_cons_of_pos (by simpa using ge 47161 47161 (Int.cast_ofNat _) (by omega))]
    rw [List.filter_cons_of_pos (by simpa using ge 47892 47892 (Int.cast_ofNat _) (by omega))]
    rw [List.filter_cons_of_pos (by simpa using ge 48257 48257 (Int.cast_ofNat _) (by omega))]
    rw [List.filter_cons_of_neg (by simpa using lt 48804 48804 (Int.cast_ofNat _) (by omega))]
    rw [List.filter_cons_of_neg (by simpa using lt 49169 49169 (Int.cast_ofNat _) (by omega))]
    rw [List.filter_cons_of_neg (by simpa using lt 49534 49534 (Int.cast_ofNat _) (by omega))]
    rw [List.filter_cons_of_neg (by simpa using lt 50083 50083 (Int.cast_ofNat _) (by omega))]
    rw [List.filter_cons_of_neg (by simpa using lt 50630 50630 (Int.cast_ofNat _) (by omega))]
    rw [List.filter_cons_of_neg (by simpa using lt 51179 51179 (Int.cast_ofNat _) (by omega))]
    rw [List.filter_cons_of_neg (by simpa using lt 53736 53736 (Int.cast_ofNat _) (by omega))]
    rw [List.filter_cons_of_neg (by simpa using lt 54832 54832 (Int.cast_ofNat _) (by omega))]
    rw [List.filter_cons_of_neg (by simpa using lt 56109 56109 (Int.cast_ofNat _) (by omega))]
    rw [List.filter_cons_of_neg (by simpa using lt 57204 57204 (Int.cast_ofNat _) (by omega))]
    rw [List.filter_cons_of_neg (by simpa using lt 57754 57754 (Int.cast_ofNat _) (by omega))]
    norm_num [eraDatChanges, eraDatDrift]
  replace h := h'
  clear h'
  rcases lt_or_ge j 49169 with h' | h'
  · clear hj
    rw [if_neg (show ¬ (57754 ≤ j) by omega)]
    rw [if_neg (show ¬ (57204 ≤ j) by omega)]
    rw [if_neg (show ¬ (56109 ≤ j) by omega)]
    rw [if_neg (show ¬ (54832 ≤ j) by omega)]
    rw [if_neg (show ¬ (53736 ≤ j) by omega)]
    rw [if_neg (show ¬ (51179 ≤ j) by omega)]
    rw [if_neg (show ¬ (50630 ≤ j) by omega)]
    rw [if_neg (show ¬ (50083 ≤ j) by omega)]
    rw [if_neg (show ¬ (49534 ≤ j) by omega)]
    rw [if_neg (show ¬ (49169 ≤ j) by omega)]
    rw [if_pos (show 48804 ≤ j by omega)]
    unfold taiUtc
    rw [if_neg (ge 36934 36934 (Int.cast_ofNat _) (by omega))]
    rw [if_neg (ge 37300 37300 (Int.cast_ofNat _) (by omega))]
    rw [if_neg (ge 37512 37512 (Int.cast_ofNat _) (by omega))]
    rw [if_neg (ge 37665 37665 (Int.cast_ofNat _) (by omega))]
    rw [if_neg (ge 38334 38334 (Int.cast_ofNat _) (by omega))]
    rw [if_neg (ge 38395 38395 (Int.cast_ofNat _) (by omega))]
    rw [if_neg (ge 38486 38486 (Int.cast_ofNat _) (by omega))]
    rw [if_neg (ge 38639 38639 (Int.cast_ofNat _) (by omega))]
    rw [if_neg (ge 38761 38761 (Int.cast_ofNat _) (by omega))]
    rw [if_neg (ge 38820 38820 (Int.cast_ofNat _) (by omega))]
    rw [if_neg (ge 38942 38942 (Int.cast_ofNat _) (by omega))]
    rw [if_neg (ge 39004 39004 (Int.cast_ofNat _) (by omega))]
    rw [if_neg (ge 39126 39126 (Int.cast_ofNat _) (by omega))]
    rw [if_neg (ge 39887 39887 (Int.cast_ofNat _) (by omega))]
    rw [if_neg (ge 41317 41317 (Int.cast_ofNat _) (by omega))]
    unfold leapSeconds
    rw [List.filter_cons_of_pos (by simpa using ge 41499 41499 (Int.cast_ofNat _) (by omega))]
    rw [List.filter_cons_of_pos (by simpa using ge 41683 41683 (Int.cast_ofNat _) (by omega))]
    rw [List.filter_cons_of_pos (by simpa using ge 42048 42048 (Int.cast_ofNat _) (by omega))]
    rw [List.filter_cons_of_pos (by simpa using ge 42413 42413 (Int.cast_ofNat _) (by omega))]
    rw [List.filter_cons_of_pos (by simpa using ge 42778 42778 (Int.cast_ofNat _) (by omega))]
    rw [List.filter_cons_of_pos (by simpa using ge 43144 43144 (Int.cast_ofNat _) (by omega))]
    rw [List.filter_cons_of_pos (by simpa using ge 43509 43509 (Int.cast_ofNat _) (by omega))]
    rw [List.filter_cons_of_pos (by simpa using ge 43874 43874 (Int.cast_ofNat _) (by omega))]
    rw [List.filter_cons_of_pos (by simpa using ge 44239 44239 (Int.cast_ofNat _) (by omega))]
    rw [List.filter_cons_of_pos (by simpa using ge 44786 44786 (Int.cast_ofNat _) (by omega))]
    rw [List.filter_cons_of_pos (by simpa using ge 45151 45151 (Int.cast_ofNat _) (by omega))]
    rw [List.filter_cons_of_pos (by simpa using ge 45516 45516 (Int.cast_ofNat _) (by omega))]
    rw [List.filter_cons_of_pos (by simpa using ge 46247 46247 (Int.cast_ofNat _) (by omega))]
    rw [List.filter_cons_of_pos (by simpa using ge 47161 47161 (Int.cast_ofNat _) (by omega))]
    rw [List.filter_cons_of_pos (by simpa using ge 47892 47892 (Int.cast_ofNat _) (by omega))]
    rw [List.filter_cons_of_pos (by simpa using ge 48257 48257 (Int.cast_ofNat _) (by omega))]
    rw [List.filter_cons_of_pos (by simpa using ge 48804 48804 (Int.cast_ofNat _) (by omega))]
    rw [List.filter_cons_of_neg (by simpa using lt 49169 49169 (Int.cast_ofNat _) (by omega))]
    rw [List.filter_cons_of_neg (by simpa using lt 49534 49534 (Int.cast_ofNat _) (by omega))]
    rw [List.filter_cons_of_neg (by simpa using lt 50083 50083 (Int.cast_ofNat _) (by omega))]
    rw [List.filter_cons_of_neg (by simpa using lt 50630 50630 (Int.cast_ofNat _) (by omega))]
    rw [List.filter_cons_of_neg (by simpa using lt 51179 51179 (Int.cast_ofNat _) (by omega))]
    rw [List.filter_cons_of_neg (by simpa using lt 53736 53736 (Int.cast_ofNat _) (by omega))]
    rw [List.filter_cons_of_neg (by simpa using lt 54832 54832 (Int.cast_ofNat _) (by omega))]
    rw [List.filter_cons_of_neg (by simpa using lt 56109 56109 (Int.cast_ofNat _) (by omega))]
    rw [List.filter_cons_of_neg (by simpa using lt 57204 57204 (Int.cast_ofNat _) (by omega))]
    rw [List.filter_cons_of_neg (by simpa using lt 57754 57754 (Int.cast_ofNat _) (by omega))]
    norm_num [eraDatChanges, eraDatDrift]
  replace h := h'
  clear h'
  rcases lt_or_ge j 49534 with h' | h'
  · clear hj
    rw [if_neg (show ¬ (57754 ≤ j) by omega)]
    rw [if_neg (show ¬ (57204 ≤ j) by omega)]
    rw [if_neg (show ¬ (56109 ≤ j) by omega)]
    rw [if_neg (show ¬ (54832 ≤ j) by omega)]
    rw [if_neg (show ¬ (53736 ≤ j) by omega)]
    rw [if_neg (show ¬ (51179 ≤ j) by omega)]
    rw [if_neg (show ¬ (50630 ≤ j) by omega)]
    rw [if_neg (show ¬ (50083 ≤ j) by omega)]
    rw [if_neg (show ¬ (49534 ≤ j) by omega)]
    rw [if_pos (show 49169 ≤ j by omega)]
    unfold taiUtc
    rw [if_neg (ge 36934 36934 (Int.cast_ofNat _) (by omega))]
    rw [if_neg (ge 37300 37300 (Int.cast_ofNat _) (by omega))]
    rw [if_neg (ge 37512 37512 (Int.cast_ofNat _) (by omega))]
    rw [if_neg (ge 37665 37665 (Int.cast_ofNat _) (by omega))]
    rw [if_neg (ge 38334 38334 (Int.cast_ofNat _) (by omega))]
    rw [if_neg (ge 38395 38395 (Int.cast_ofNat _) (by omega))]
    rw [if_neg (ge 38486 38486 (Int.cast_ofNat _) (by omega))]
    rw [if_neg (ge 38639 38639 (Int.cast_ofNat _) (by omega))]
    rw [if_neg (ge 38761 38761 (Int.cast_ofNat _) (by omega))]
    rw [if_neg (ge 38820 38820 (Int.cast_ofNat _) (by omega))]
    rw [if_neg (ge 38942 38942 (Int.cast_ofNat _) (by omega))]
    rw [if_neg (ge 39004 39004 (Int.cast_ofNat _) (by omega))]
    rw [if_neg (ge 39126 39126 (Int.cast_ofNat _) (by omega))]
    rw [if_neg (ge 39887 39887 (Int.cast_ofNat _) (by omega))]
    rw [if_neg (ge 41317 41317 (Int.cast_ofNat _) (by omega))]
    unfold leapSeconds
    rw [List.filter_cons_of_pos (by simpa using ge 41499 41499 (Int.cast_ofNat _) (by omega))]
    rw [List.filter_cons_of_pos (by simpa using ge 41683 41683 (Int.cast_ofNat _) (by omega))]
    rw [List.filter_cons_of_pos (by simpa using ge 42048 42048 (Int.cast_ofNat _) (by omega))]
    rw [List.filter_cons_of_pos (by simpa using ge 42413 42413 (Int.cast_ofNat _) (by omega))]
    rw [List.filter_cons_of_pos (by simpa using ge 42778 42778 (Int.cast_ofNat _) (by omega))]
    rw [List.filter_cons_of_pos (by simpa using ge 43144 43144 (Int.cast_ofNat _) (by omega))]
    rw [List.filter_cons_of_pos (by simpa using ge 43509 43509 (Int.cast_ofNat _) (by omega))]
    rw [List.filter_cons_of_pos (by simpa using ge 43874 43874 (Int.cast_ofNat _) (by omega))]
    rw [List.filter_cons_of_pos (by simpa using ge 44239 44239 (Int.cast_ofNat _) (by omega))]
    rw [List.filter_cons_of_pos (by simpa using ge 44786 44786 (Int.cast_ofNat _) (by omega))]
    rw [List.filter_cons_of_pos (by simpa using ge 45151 45151 (Int.cast_ofNat _) (by omega))]
    rw [List.filter_cons_of_pos (by simpa using ge 45516 45516 (Int.cast_ofNat _) (by omega))]
    rw [List.filter_cons_of_pos (by simpa using ge 46247 46247 (Int.cast_ofNat _) (by omega))]
    rw [List.filter_cons_of_pos (by simpa using ge 47161 47161 (Int.cast_ofNat _) (by omega))]
    rw [List.filter_cons_of_pos (by simpa using ge 47892 47892 (Int.cast_ofNat _) (by omega))]
    rw [List.filter_cons_of_pos (by simpa using ge 48257 48257 (Int.cast_ofNat _) (by omega))]
    rw [List.filter_cons_of_pos (by simpa using ge 48804 48804 (Int.cast_ofNat _) (by omega))]
    rw [List.filter_cons_of_pos (by simpa using ge 49169 49169 (Int.cast_ofNat _) (by omega))]
    rw [List.filter_cons_of_neg (by simpa using lt 49534 49534 (Int.cast_ofNat _) (by omega))]
    rw [List.filter_cons_of_neg (by simpa using lt 50083 50083 (Int.cast_ofNat _) (by omega))]
    rw [List.filter_cons_of_neg (by simpa using lt 50630 50630 (Int.cast_ofNat _) (by omega))]
    rw [List.filter_cons_of_neg (by simpa using lt 51179 51179 (Int.cast_ofNat _) (by omega))]
    rw [List.filter_cons_of_neg (by simpa using lt 53736 53736 (Int.cast_ofNat _) (by omega))]
    rw [List.filter_cons_of_neg (by simpa using lt 54832 54832 (Int.cast_ofNat _) (by omega))]
    rw [List.filter_cons_of_neg (by simpa using lt 56109 56109 (Int.cast_ofNat _) (by omega))]
    rw [List.filter_cons_of_neg (by simpa using lt 57204 57204 (Int.cast_ofNat _) (by omega))]
    rw [List.filter_cons_of_neg (by simpa using lt 57754 57754 (Int.cast_ofNat _) (by omega))]
    norm_num [eraDatChanges, eraDatDrift]
  replace h := h'
  clear h'
  rcases lt_or_ge j 50083 with h' | h'
  · clear hj
    rw [if_neg (show ¬ (57754 ≤ j) by omega)]
    rw [if_neg (show ¬ (57204 ≤ j) by omega)]
    rw [if_neg (show ¬ (56109 ≤ j) by omega)]
    rw [if_neg (show ¬ (54832 ≤ j) by omega)]
    rw [if_neg (show ¬ (53736 ≤ j) by omega)]
    rw [if_neg (show ¬ (51179 ≤ j) by omega)]
    rw [if_neg (show ¬ (50630 ≤ j) by omega)]
    rw [if_neg (show ¬ (50083 ≤ j) by omega)]
    rw [if_pos (show 49534 ≤ j by omega)]
    unfold taiUtc
    rw [if_neg (ge 36934 36934 (Int.cast_ofNat _) (by omega))]
    rw [if_neg (ge 37300 37300 (Int.cast_ofNat _) (by omega))]
    rw [if_neg (ge 37512 37512 (Int.cast_ofNat _) (by omega))]
    rw [if_neg (ge 37665 37665 (Int.cast_ofNat _) (by omega))]
    rw [if_neg (ge 38334 38334 (Int.cast_ofNat _) (by omega))]
    rw [if_neg (ge 38395 38395 (Int.cast_ofNat _) (by omega))]
    rw [if_neg (ge 38486 38486 (Int.cast_ofNat _) (by omega))]
    rw [if_neg (ge 38639 38639 (Int.cast_ofNat _) (by omega))]
    rw [if_neg (ge 38761 38761 (Int.cast_ofNat _) (by omega))]
    rw [if_neg (ge 38820 38820 (Int.cast_ofNat _) (by omega))]
    rw [if_neg (ge 38942 38942 (Int.cast_ofNat _) (by omega))]
    rw [if_neg (ge 39004 39004 (Int.cast_ofNat _) (by omega))]
    rw [if_neg (ge 39126 39126 (Int.cast_ofNat _) (by omega))]
    rw [if_neg (ge 39887 39887 (Int.cast_ofNat _) (by omega))]
    rw [if_neg (ge 41317 41317 (Int.cast_ofNat _) (by omega))]
    unfold leapSeconds
    rw [List.filter_cons_of_pos (by simpa using ge 41499 41499 (Int.cast_ofNat _) (by omega))]
    rw [List.filter_cons_of_pos (by simpa using ge 41683 41683 (Int.cast_ofNat _) (by omega))]
    rw [List.filter_cons_of_pos (by simpa using ge 42048 42048 (Int.cast_ofNat _) (by omega))]
    rw [List.filter_cons_of_pos (by simpa using ge 42413 42413 (Int.cast_ofNat _) (by omega))]
    rw [List.filter_cons_of_pos (by simpa using ge 42778 42778 (Int.cast_ofNat _) (by omega))]
    rw [List.filter_cons_of_pos (by simpa using ge 43144 43144 (Int.cast_ofNat _) (by omega))]
    rw [List.filter_cons_of_pos (by simpa using ge 43509 43509 (Int.cast_ofNat _) (by omega))]
    rw [List.filter_cons_of_pos (by simpa using ge 43874 43874 (Int.cast_ofNat _) (by omega))]
    rw [List.filter_cons_of_pos (by simpa using ge 44239 44239 (Int.cast_ofNat _) (by omega))]
    rw [List.filter_cons_of_pos (by simpa using ge 44786 44786 (Int.cast_ofNat _) (by omega))]
    rw [List.filter_cons_of_pos (by simpa using ge 45151 45151 (Int.cast_ofNat _) (by omega))]
    rw [List.filter_cons_of_pos (by simpa using ge 45516 45516 (Int.cast_ofNat _) (by omega))]
    rw [List.filter_cons_of_pos (by simpa using ge 46247 46247 (Int.cast_ofNat _) (by omega))]
    rw [List.filter_cons_of_pos (by simpa using ge 47161 47161 (Int.cast_ofNat _) (by omega))]
    rw [List.filter_cons_of_pos (by simpa using ge 47892 47892 (Int.cast_ofNat _) (by omega))]
    rw [List.filter_cons_of_pos (by simpa using ge 48257 48257 (Int.cast_ofNat _) (by omega))]
    rw [List.filter_cons_of_pos (by simpa using ge 48804 48804 (Int.cast_ofNat _) (by omega))]
    rw [List.filter_cons_of_pos (by simpa using ge 49169 49169 (Int.cast_ofNat _) (by omega))]
    rw [List.filter_cons_of_pos (by simpa using ge 49534 49534 (Int.cast_ofNat _) (by omega))]
    rw [List.filter_cons_of_neg (by simpa using lt 50083 50083 (Int.cast_ofNat _) (by omega))]
    rw [List.filter_cons_of_neg (by simpa using lt 50630 50630 (Int.cast_ofNat _) (by omega))]
    rw [List.filter_cons_of_neg (by simpa using lt 51179 51179 (Int.cast_ofNat _) (by omega))]
    rw [List.filter_cons_of_neg (by simpa using lt 53736 53736 (Int.cast_ofNat _) (by omega))]
    rw [List.filter_cons_of_neg (by simpa using lt 54832 54832 (Int.cast_ofNat _) (by omega))]
    rw [List.filter_cons_of_neg (by simpa using lt 56109 56109 (Int.cast_ofNat _) (by omega))]
    rw [List.filter_cons_of_neg (by simpa using lt 57204 57204 (Int.cast_ofNat _) (by omega))]
    rw [List.filter_cons_of_neg (by simpa using lt 57754 57754 (Int.cast_ofNat _) (by omega))]
    norm_num [eraDatChanges, eraDatDrift]
  replace h := h'
  clear h'
  rcases lt_or_ge j 50630 with h' | h'
  · clear hj
    rw [if_neg (show ¬ (57754 ≤ j) by omega)]
    rw [if_neg (show ¬ (57204 ≤ j) by omega)]
    rw [if_neg (show ¬ (56109 ≤ j) by omega)]
    rw [if_neg (show ¬ (54832 ≤ j) by omega)]
    rw [if_neg (show ¬ (53736 ≤ j) by omega)]
    rw [if_neg (show ¬ (51179 ≤ j) by omega)]
    rw [if_neg (show ¬ (50630 ≤ j) by omega)]
    rw [if_pos (show 50083 ≤ j by omega)]
    unfold taiUtc
    rw [if_neg (ge 36934 36934 (Int.cast_ofNat _) (by omega))]
    rw [if_neg (ge 37300 37300 (Int.cast_ofNat _) (by omega))]
    rw [if_neg (ge 37512 37512 (Int.cast_ofNat _) (by omega))]
    rw [if_neg (ge 37665 37665 (Int.cast_ofNat _) (by omega))]
    rw [if_neg (ge 38334 38334 (Int.cast_ofNat _) (by omega))]
    rw [if_neg (ge 38395 38395 (Int.cast_ofNat _) (by omega))]
    rw [if_neg (ge 38486 38486 (Int.cast_ofNat _) (by omega))]
    rw [if_neg (ge 38639 38639 (Int.cast_ofNat _) (by omega))]
    rw [if_neg (ge 38761 38761 (Int.cast_ofNat _) (by omega))]
    rw [if_neg (ge 38820 38820 (Int.cast_ofNat _) (by omega))]
    rw [if_neg (ge 38942 38942 (Int.cast_ofNat _) (by omega))]
    rw [if_neg (ge 39004 39004 (Int.cast_ofNat _) (by omega))]
    rw [if_neg (ge 39126 39126 (Int.cast_ofNat _) (by omega))]
    rw [if_neg (ge 39887 39887 (Int.cast_ofNat _) (by omega))]
    rw [if_neg (ge 41317 41317 (Int.cast_ofNat _) (by omega))]
    unfold leapSeconds
    rw [List.filter_cons_of_pos (by simpa using ge 41499 41499 (Int.cast_ofNat _) (by omega))]
    rw [List.filter_cons_of_pos (by simpa using ge 41683 41683 (Int.cast_ofNat _) (by omega))]
    rw [List.filter_cons_of_pos (by simpa using ge 42048 42048 (Int.cast_ofNat _) (by omega))]
    rw [List.filter_cons_of_pos (by simpa using ge 42413 42413 (Int.cast_ofNat _) (by omega))]
    rw [List.filter_cons_of_pos (by simpa using ge 42778 42778 (Int.cast_ofNat _) (by omega))]
    rw [List.filter_cons_of_pos (by simpa using ge 43144 43144 (Int.cast_ofNat _) (by omega))]
    rw [List.filter_cons_of_pos (by simpa using ge 43509 43509 (Int.cast_ofNat _) (by omega))]
    rw [List.filter_cons_of_pos (by simpa using ge 43874 43874 (Int.cast_ofNat _) (by omega))]
    rw [List.filter_cons_of_pos (by simpa using ge 44239 44239 (Int.cast_ofNat _) (by omega))]
    rw [List.filter_cons_of_pos (by simpa using ge 44786 44786 (Int.cast_ofNat _) (by omega))]
    rw [List.filter_cons_of_pos (by simpa using ge 45151 45151 (Int.cast_ofNat _) (by omega))]
    rw [List.filter_cons_of_pos (by simpa using ge 45516 45516 (Int.cast_ofNat _) (by omega))]
    rw [List.filter_cons_of_pos (by simpa using ge 46247 46247 (Int.cast_ofNat _) (by omega))]
    rw [List.filter_cons_of_pos (by simpa using ge 47161 47161 (Int.cast_ofNat _) (by omega))]
    rw [List.filter_cons_of_pos (by simpa using ge 47892 47892 (Int.cast_ofNat _) (by omega))]
    rw [List.filter_cons_of_pos (by simpa using ge 48257 48257 (Int.cast_ofNat _) (by omega))]
    rw [List.filter_cons_of_pos (by simpa using ge 48804 48804 (Int.cast_ofNat _) (by omega))]
    rw [List.filter_cons_of_pos (by simpa using ge 49169 49169 (Int.cast_ofNat _) (by omega))]
    rw [List.filter_cons_of_pos (by simpa using ge 49534 49534 (Int.cast_ofNat _) (by omega))]
    rw [List.filter_cons_of_pos (by simpa using ge 50083 50083 (Int.cast_ofNat _) (by omega))]
    rw [List.filter_cons_of_neg (by simpa using lt 50630 50630 (Int.cast_ofNat _) (by omega))]
    rw [List.filter_cons_of_neg (by simpa using lt 51179 51179 (Int.cast_ofNat _) (by omega))]
    rw [List.filter_cons_of_neg (by simpa using lt 53736 53736 (Int.cast_ofNat _) (by omega))]
    rw [List.filter_cons_of_neg (by simpa using lt 54832 54832 (Int.cast_ofNat _) (by omega))]
    rw [List.filter_cons_of_neg (by simpa using lt 56109 56109 (Int.cast_ofNat _) (by omega))]
    rw [List.filter_cons_of_neg (by simpa using lt 57204 57204 (Int.cast_ofNat _) (by omega))]
    rw [List.filter_cons_of_neg (by simpa using lt 57754 57754 (Int.cast_ofNat _) (by omega))]
    norm_num [eraDatChanges, eraDatDrift]
  replace h := h'
  clear h'
  rcases lt_or_ge j 51179 with h' | h'
  · clear hj
    rw [if_neg (show ¬ (57754 ≤ j) by omega)]
    rw [if_neg (show ¬ (57204 ≤ j) by omega)]
    rw [if_neg (show ¬ (56109 ≤ j) by omega)]
    rw [if_neg (show ¬ (54832 ≤ j) by omega)]
    rw [if_neg (show ¬ (53736 ≤ j) by omega)]
    rw [if_neg (show ¬ (51179 ≤ j) by omega)]
    rw [if_pos (show 50630 ≤ j by omega)]
    unfold taiUtc
    rw [if_neg (ge 36934 36934 (Int.cast_ofNat _) (by omega))]
    rw [if_neg (ge 37300 37300 (Int.cast_ofNat _) (by omega))]
    rw [if_neg (ge 37512 37512 (Int.cast_ofNat _) (by omega))]
    rw [if_neg (ge 37665 37665 (Int.cast_ofNat _) (by omega))]
    rw [if_neg (ge 38334 38334 (Int.cast_ofNat _) (by omega))]
    rw [if_neg (ge 38395 38395 (Int.cast_ofNat _) (by omega))]
    rw [if_neg (ge 38486 38486 (Int.cast_ofNat _) (by omega))]
    rw [if_neg (ge 38639 38639 (Int.cast_ofNat _) (by omega))]
    rw [if_neg (ge 38761 38761 (Int.cast_ofNat _) (by omega))]
    rw [if_neg (ge 38820 38820 (Int.cast_ofNat _) (by omega))]
    rw [if_neg (ge 38942 38942 (Int.cast_ofNat _) (by omega))]
    rw [if_neg (ge 39004 39004 (Int.cast_ofNat _) (by omega))]
    rw [if_neg (ge 39126 39126 (Int.cast_ofNat _) (by omega))]
    rw [if_neg (ge 39887 39887 (Int.cast_ofNat _) (by omega))]
    rw [if_neg (ge 41317 41317 (Int.cast_ofNat _) (by omega))]
    unfold leapSeconds
    rw [List.filter_cons_of_pos (by simpa using ge 41499 41499 (Int.cast_ofNat _) (by omega))]
    rw [List.filter_cons_of_pos (by simpa using ge 41683 41683 (Int.cast_ofNat _) (by omega))]
    rw [List.filter_cons_of_pos (by simpa using ge 42048 42048 (Int.cast_ofNat _) (by omega))]
    rw [List.filter_cons_of_pos (by simpa using ge 42413 42413 (Int.cast_ofNat _) (by omega))]
    rw [List.filter_cons_of_pos (by simpa using ge 42778 42778 (Int.cast_ofNat _) (by omega))]
    rw [List.filter_cons_of_pos (by simpa using ge 43144 43144 (Int.cast_ofNat _) (by omega))]
    rw [List.filter_cons_of_pos (by simpa using ge 43509 43509 (Int.cast_ofNat _) (by omega))]
    rw [List.filter_cons_of_pos (by simpa using ge 43874 43874 (Int.cast_ofNat _) (by omega))]
    rw [List.filter_cons_of_pos (by simpa using ge 44239 44239 (Int.cast_ofNat _) (by omega))]
    rw [List.filter_cons_of_pos (by simpa using ge 44786 44786 (Int.cast_ofNat _) (by omega))]
    rw [List.filter_cons_of_pos (by simpa using ge 45151 45151 (Int.cast_ofNat _) (by omega))]
    rw [List.filter_cons_of_pos (by simpa using ge 45516 45516 (Int.cast_ofNat _) (by omega))]
    rw [List.filter_cons_of_pos (by simpa using ge 46247 46247 (Int.cast_ofNat _) (by omega))]
    rw [List.filter_cons_of_pos (by simpa using ge 47161 47161 (Int.cast_ofNat _) (by omega))]
    rw [List.filter_cons_of_pos (by simpa using ge 47892 47892 (Int.cast_ofNat _) (by omega))]
    rw [List.filter_cons_of_pos (by simpa using ge 48257 48257 (Int.cast_ofNat _) (by omega))]
    rw [List.filter_cons_of_pos (by simpa using ge 48804 48804 (Int.cast_ofNat _) (by omega))]
    rw [List.filter_cons_of_pos (by simpa using ge 49169 49169 (Int.cast_ofNat _) (by omega))]
    rw [List.filter_cons_of_pos (by simpa using ge 49534 49534 (Int.cast_ofNat _) (by omega))]
    rw [List.filter_cons_of_pos (by simpa using ge 50083 50083 (Int.cast_ofNat _) (by omega))]
    rw [List.filter_cons_of_pos (by simpa using ge 50630 50630 (Int.cast_ofNat _) (by omega))]
    rw [List.filter_cons_of_neg (by simpa using lt 51179 51179 (Int.cast_ofNat _) (by omega))]
    rw [List.filter_cons_of_neg (by simpa using lt 53736 53736 (Int.cast_ofNat _) (by omega))]
    rw [List.filter_cons_of_neg (by simpa using lt 54832 54832 (Int.cast_ofNat _) (by omega))]
    rw [List.filter_cons_of_neg (by simpa using lt 56109 56109 (Int.cast_ofNat _) (by omega))]
    rw [List.filter_cons_of_neg (by simpa using lt 57204 57204 (Int.cast_ofNat _) (by omega))]
    rw [List.filter_cons_of_neg (by simpa using lt 57754 57754 (Int.cast_ofNat _) (by omega))]
    norm_num [eraDatChanges, eraDatDrift]
  replace h := h'
  clear h'
  rcases lt_or_ge j 53736 with h' | h'
  · clear hj
    rw [if_neg (show ¬ (57754 ≤ j) by omega)]
    rw [if_neg (show ¬ (57204 ≤ j) by omega)]
    rw [if_neg (show ¬ (56109 ≤ j) by omega)]
    rw [if_neg (show ¬ (54832 ≤ j) by omega)]
    rw [if_neg (show ¬ (53736 ≤ j) by omega)]
    rw [if_pos (show 51179 ≤ j by omega)]
    unfold taiUtc
    rw [if_neg (ge 36934 36934 (Int.cast_ofNat _) (by omega))]
    rw [if_neg (ge 37300 37300 (Int.cast_ofNat _) (by omega))]
    rw [if_neg (ge 37512 37512 (Int.cast_ofNat _) (by omega))]
    rw [if_neg (ge 37665 37665 (Int.cast_ofNat _) (by omega))]
    rw [if_neg (ge 38334 38334 (Int.cast_ofNat _) (by omega))]
    rw [if_neg (ge 38395 38395 (Int.cast_ofNat _) (by omega))]
    rw [if_neg (ge 38486 38486 (Int.cast_ofNat _) (by omega))]
    rw [if_neg (ge 38639 38639 (Int.cast_ofNat _) (by omega))]
    rw [if_neg (ge 38761 38761 (Int.cast_ofNat _) (by omega))]
    rw [if_neg (ge 38820 38820 (Int.cast_ofNat _) (by omega))]
    rw [if_neg (ge 38942 38942 (Int.cast_ofNat _) (by omega))]
    rw [if_neg (ge 39004 39004 (Int.cast_ofNat _) (by omega))]
    rw [if_neg (ge 39126 39126 (Int.cast_ofNat _) (by omega))]
    rw [if_neg (ge 39887 39887 (Int.cast_ofNat _) (by omega))]
    rw [if_neg (ge 41317 41317 (Int.cast_ofNat _) (by omega))]
    unfold leapSeconds
    rw [List.filter_cons_of_pos (by simpa using ge 41499 41499 (Int.cast_ofNat _) (by omega))]
    rw [List.filter_cons_of_pos (by simpa using ge 41683 41683 (Int.cast_ofNat _) (by omega))]
    rw [List.filter_cons_of_pos (by simpa using ge 42048 42048 (Int.cast_ofNat _) (by omega))]
    rw [List.filter_cons_of_pos (by simpa using ge 42413 42413 (Int.cast_ofNat _) (by omega))]
    rw [List.filter_cons_of_pos (by simpa using ge 42778 42778 (Int.cast_ofNat _) (by omega))]
    rw [List.filter_cons_of_pos (by simpa using ge 43144 43144 (Int.cast_ofNat _) (by omega))]
    rw [List.filter_cons_of_pos (by simpa using ge 43509 43509 (Int.cast_ofNat _) (by omega))]
    rw [List.filter_cons_of_pos (by simpa using ge 43874 43874 (Int.cast_ofNat _) (by omega))]
    rw [List.filter_cons_of_pos (by simpa using ge 44239 44239 (Int.cast_ofNat _) (by omega))]
    rw [List.filter_cons_of_pos (by simpa using ge 44786 44786 (Int.cast_ofNat _) (by omega))]
    rw [List.filter_cons_of_pos (by simpa using ge 45151 45151 (Int.cast_ofNat _) (by omega))]
    rw [List.filter_cons_of_pos (by simpa using ge 45516 45516 (Int.cast_ofNat _) (by omega))]
    rw [List.filter_cons_of_pos (by simpa using ge 46247 46247 (Int.cast_ofNat _) (by omega))]
    rw [List.filter_cons_of_pos (by simpa using ge 47161 47161 (Int.cast_ofNat _) (by omega))]
    rw [List.filter_cons_of_pos (by simpa using ge 47892 47892 (Int.cast_ofNat _) (by omega))]
    rw [List.filter_cons_of_pos (by simpa using ge 48257 48257 (Int.cast_ofNat _) (by omega))]
    rw [List.filter_cons_of_pos (by simpa using ge 48804 48804 (Int.cast_ofNat _) (by omega))]
    rw [List.filter_cons_of_pos (by simpa using ge 49169 49169 (Int.cast_ofNat _) (by omega))]
    rw [List.filter_cons_of_pos (by simpa using ge 49534 49534 (Int.cast_ofNat _) (by omega))]
    rw [List.filter_cons_of_pos (by simpa using ge 50083 50083 (Int.cast_ofNat _) (by omega))]
    rw [List.filter_cons_of_pos (by simpa using ge 50630 50630 (Int.cast_ofNat _) (by omega))]
    rw [List.filter_cons_of_pos (by simpa using ge 51179 51179 (Int.cast_ofNat _) (by omega))]
    rw [List.filter_cons_of_neg (by simpa using lt 53736 53736 (Int.cast_ofNat _) (by omega))]
    rw [List.filter_cons_of_neg (by simpa using lt 54832 54832 (Int.cast_ofNat _) (by omega))]
    rw [List.filter_cons_of_neg (by simpa using lt 56109 56109 (Int.cast_ofNat _) (by omega))]
    rw [List.filter_cons_of_neg (by simpa using lt 57204 57204 (Int.cast_ofNat _) (by omega))]
    rw [List.filter_cons_of_neg (by simpa using lt 57754 57754 (Int.cast_ofNat _) (by omega))]
    norm_num [eraDatChanges, eraDatDrift]
  replace h := h'
  clear h'
  rcases lt_or_ge j 54832 with h' | h'
  · clear hj
    rw [if_neg (show ¬ (57754 ≤ j) by omega)]
    rw [if_neg (show ¬ (57204 ≤ j) by omega)]
    rw [if_neg (show ¬ (56109 ≤ j) by omega)]
    rw [if_neg (show ¬ (54832 ≤ j) by omega)]
    rw [if_pos (show 53736 ≤ j by omega)]
    unfold taiUtc
    rw [if_neg (ge 36934 36934 (Int.cast_ofNat _) (by omega))]
    rw [if_neg (ge 37300 37300 (Int.cast_ofNat _) (by omega))]
    rw [if_neg (ge 37512 37512 (Int.cast_ofNat _) (by omega))]
    rw [if_neg (ge 37665 37665 (Int.cast_ofNat _) (by omega))]
    rw [if_neg (ge 38334 38334 (Int.cast_ofNat _) (by omega))]
    rw [if_neg (ge 38395 38395 (Int.cast_ofNat _) (by omega))]
    rw [if_neg (ge 38486 38486 (Int.cast_ofNat _) (by omega))]
    rw [if_neg (ge 38639 38639 (Int.cast_ofNat _) (by omega))]
    rw [if_neg (ge 38761 38761 (Int.cast_ofNat _) (by omega))]
    rw [if_neg (ge 38820 38820 (Int.cast_ofNat _) (by omega))]
    rw [if_neg (ge 38942 38942 (Int.cast_ofNat _) (by omega))]
    rw [if_neg (ge 39004 39004 (Int.cast_ofNat _) (by omega))]
    rw [if_neg (ge 39126 39126 (Int.cast_ofNat _) (by omega))]
    rw [if_neg (ge 39887 39887 (Int.cast_ofNat _) (by omega))]
    rw [if_neg (ge 41317 41317 (Int.cast_ofNat _) (by omega))]
    unfold leapSeconds
    rw [List.filter_cons_of_pos (by simpa using ge 41499 41499 (Int.cast_ofNat _) (by omega))]
    rw [List.filter_cons_of_pos (by simpa using ge 41683 41683 (Int.cast_ofNat _) (by omega))]
    rw [List.filter_cons_of_pos (by simpa using ge 42048 42048 (Int.cast_ofNat _) (by omega))]
    rw [List.filter_cons_of_pos (by simpa using ge 42413 42413 (Int.cast_ofNat _) (by omega))]
    rw [List.filter_cons_of_pos (by simpa using ge 42778 42778 (Int.cast_ofNat _) (by omega))]
    rw [List.filter_cons_of_pos (by simpa using ge 43144 43144 (Int.cast_ofNat _) (by omega))]
    rw [List.filter_cons_of_pos (by simpa using ge 43509 43509 (Int.cast_ofNat _) (by omega))]
    rw [List.filter_cons_of_pos (by simpa using ge 43874 43874 (Int.cast_ofNat _) (by omega))]
    rw [List.filter_cons_of_pos (by simpa using ge 44239 44239 (Int.cast_ofNat _) (by omega))]
    rw [List.filter_cons_of_pos (by simpa using ge 44786 44786 (Int.cast_ofNat _) (by omega))]
    rw [List.filter_cons_of_pos (by simpa using ge 45151 45151 (Int.cast_ofNat _) (by omega))]
    rw [List.filter_cons_of_pos (by simpa using ge 45516 45516 (Int.cast_ofNat _) (by omega))]
    rw [List.filter_cons_of_pos (by simpa using ge 46247 46247 (Int.cast_ofNat _) (by omega))]
    rw [List.filter_cons_of_pos (by simpa using ge 47161 47161 (Int.cast_ofNat _) (by omega))]
    rw [List.filter_cons_of_pos (by simpa using ge 47892 47892 (Int.cast_ofNat _) (by omega))]
    rw [List.filter_cons_of_pos (by simpa using ge 48257 48257 (Int.cast_ofNat _) (by omega))]
    rw [List.filter_cons_of_pos (by simpa using ge 48804 48804 (Int.cast_ofNat _) (by omega))]
    rw [List.filter_cons_of_pos (by simpa using ge 49169 49169 (Int.cast_ofNat _) (by omega))]
    rw [List.filter_cons_of_pos (by simpa using ge 49534 49534 (Int.cast_ofNat _) (by omega))]
    rw [List.filter_cons_of_pos (by simpa using ge 50083 50083 (Int.cast_ofNat _) (by omega))]
    rw [List.filter_cons_of_pos (by simpa using ge 50630 50630 (Int.cast_ofNat _) (by omega))]
    rw [List.filter_cons_of_pos (by simpa using ge 51179 51179 (Int.cast_ofNat _) (by omega))]
    rw [List.filter_cons_of_pos (by simpa using ge 53736 53736 (Int.cast_ofNat _) (by omega))]
    rw [List.filter_cons_of_neg (by simpa using lt 54832 54832 (Int.cast_ofNat _) (by omega))]
    rw [List.filter_cons_of_neg (by simpa using lt 56109 56109 (Int.cast_ofNat _) (by omega))]
    rw [List.filter_cons_of_neg (by simpa using lt 57204 57204 (Int.cast_ofNat _) (by omega))]
    rw [List.filter_cons_of_neg (by simpa using lt 57754 57754 (Int.cast_ofNat _) (by omega))]
    norm_num [eraDatChanges, eraDatDrift]
  replace h := h'
  clear h'
  rcases lt_or_ge j 56109 with h' | h'
  · clear hj
    rw [if_neg (show ¬ (57754 ≤ j) by omega)]
    rw [if_neg (show ¬ (57204 ≤ j) by omega)]
    rw [if_neg (show ¬ (56109 ≤ j) by omega)]
    rw [if_pos (show 54832 ≤ j by omega)]
    unfold taiUtc
    rw [if_neg (ge 36934 36934 (Int.cast_ofNat _) (by omega))]
    rw [if_neg (ge 37300 37300 (Int.cast_ofNat _) (by omega))]
    rw [if_neg (ge 37512 37512 (Int.cast_ofNat _) (by omega))]
    rw [if_neg (ge 37665 37665 (Int.cast_ofNat _) (by omega))]
    rw [if_neg (ge 38334 38334 (Int.cast_ofNat _) (by omega))]
    rw [if_neg (ge 38395 38395 (Int.cast_ofNat _) (by omega))]
    rw [if_neg (ge 38486 38486 (Int.cast_ofNat _) (by omega))]
    rw [if_neg (ge 38639 38639 (Int.cast_ofNat _) (by omega))]
    rw [if_neg (ge 38761 38761 (Int.cast_ofNat _) (by omega))]
    rw [if_neg (ge 38820 38820 (Int.cast_ofNat _) (by omega))]
    rw [if_neg (ge 38942 38942 (Int.cast_ofNat _) (by omega))]
    rw [if_neg (ge 39004 39004 (Int.cast_ofNat _) (by omega))]
    rw [if_neg (ge 39126 39126 (Int.cast_ofNat _) (by omega))]
    rw [if_neg (ge 39887 39887 (Int.cast_ofNat _) (by omega))]
    rw [if_neg (ge 41317 41317 (Int.cast_ofNat _) (by omega))]
    unfold leapSeconds
    rw [List.filter_cons_of_pos (by simpa using ge 41499 41499 (Int.cast_ofNat _) (by omega))]
    rw [List.filter_cons_of_pos (by simpa using ge 41683 41683 (Int.cast_ofNat _) (by omega))]
    rw [List.filter_cons_of_pos (by simpa using ge 42048 42048 (Int.cast_ofNat _) (by omega))]
    rw [List.filter_cons_of_pos (by simpa using ge 42413 42413 (Int.cast_ofNat _) (by omega))]
    rw [List.filter_cons_of_pos (by simpa using ge 42778 42778 (Int.cast_ofNat _) (by omega))]
    rw [List.filter_cons_of_pos (by simpa using ge 43144 43144 (Int.cast_ofNat _) (by omega))]
    rw [List.filter_cons_of_pos (by simpa using ge 43509 43509 (Int.cast_ofNat _) (by omega))]
    rw [List.filter_cons_of_pos (by simpa using ge 43874 43874 (Int.cast_ofNat _) (by omega))]
    rw [List.filter_cons_of_pos (by simpa using ge 44239 44239 (Int.cast_ofNat _) (by omega))]
    rw [List.filter_cons_of_pos (by simpa using ge 44786 44786 (Int.cast_ofNat _) (by omega))]
    rw [List.filter_cons_of_pos (by simpa using ge 45151 45151 (Int.cast_ofNat _) (by omega))]
    rw [List.filter_cons_of_pos (by simpa using ge 45516 45516 (Int.cast_ofNat _) (by omega))]
    rw [List.filter_cons_of_pos (by simpa using ge 46247 46247 (Int.cast_ofNat _) (by omega))]
    rw [List.filter_cons_of_pos (by simpa using ge 47161 47161 (Int.cast_ofNat _) (by omega))]
    rw [List.filter_cons_of_pos (by simpa using ge 47892 47892 (Int.cast_ofNat _) (by omega))]
    rw [List.filter_cons_of_pos (by simpa using ge 48257 48257 (Int.cast_ofNat _) (by omega))]
    rw [List.filter_cons_of_pos (by simpa using ge 48804 48804 (Int.cast_ofNat _) (by omega))]
    rw [List.filter_cons_of_pos (by simpa using ge 49169 49169 (Int.cast_ofNat _) (by omega))]
    rw [List.filter_cons_of_pos (by simpa using ge 49534 49534 (Int.cast_ofNat _) (by omega))]
    rw [List.filter_cons_of_pos (by simpa using ge 50083 50083 (Int.cast_ofNat _) (by omega))]
    rw [List.filter_cons_of_pos (by simpa using ge 50630 50630 (Int.cast_ofNat _) (by omega))]
    rw [List.filter_cons_of_pos (by simpa using ge 51179 51179 (Int.cast_ofNat _) (by omega))]
    rw [List.filter_cons_of_pos (by simpa using ge 53736 53736 (Int.cast_ofNat _) (by omega))]
    rw [List.filter_cons_of_pos (by simpa using ge 54832 54832 (Int.cast_ofNat _) (by omega))]
    rw [List.filter_cons_of_neg (by simpa using lt 56109 56109 (Int.cast_ofNat _) (by omega))]
    rw [List.filter_cons_of_neg (by simpa using lt 57204 57204 (Int.cast_ofNat _) (by omega))]
    rw [List.filter_cons_of_neg (by simpa using lt 57754 57754 (Int.cast_ofNat _) (by omega))]
    norm_num [eraDatChanges, eraDatDrift]
  replace h := h'
  clear h'
  rcases lt_or_ge j 57204 with h' | h'
  · clear hj
    rw [if_neg (show ¬ (57754 ≤ j) by omega)]
    rw [if_neg (show ¬ (57204 ≤ j) by omega)]
    rw [if_pos (show 56109 ≤ j by omega)]
    unfold taiUtc
    rw [if_neg (ge 36934 36934 (Int.cast_ofNat _) (by omega))]
    rw [if_neg (ge 37300 37300 (Int.cast_ofNat _) (by omega))]
    rw [if_neg (ge 37512 37512 (Int.cast_ofNat _) (by omega))]
    rw [if_neg (ge 37665 37665 (Int.cast_ofNat _) (by omega))]
    rw [if_neg (ge 38334 38334 (Int.cast_ofNat _) (by omega))]
    rw [if_neg (ge 38395 38395 (Int.cast_ofNat _) (by omega))]
    rw [if_neg (ge 38486 38486 (Int.cast_ofNat _) (by omega))]
    rw [if_neg (ge 38639 38639 (Int.cast_ofNat _) (by omega))]
    rw [if_neg (ge 38761 38761 (Int.cast_ofNat _) (by omega))]
    rw [if_neg (ge 38820 38820 (Int.cast_ofNat _) (by omega))]
    rw [if_neg (ge 38942 38942 (Int.cast_ofNat _) (by omega))]
    rw [if_neg (ge 39004 39004 (Int.cast_ofNat _) (by omega))]
    rw [if_neg (ge 39126 39126 (Int.cast_ofNat _) (by omega))]
    rw [if_neg (ge 39887 39887 (Int.cast_ofNat _) (by omega))]
    rw [if_neg (ge 41317 41317 (Int.cast_ofNat _) (by omega))]
    unfold leapSeconds
    rw [List.filter_cons_of_pos (by simpa using ge 41499 41499 (Int.cast_ofNat _) (by omega))]
    rw [List.filter_cons_of_pos (by simpa using ge 41683 41683 (Int.cast_ofNat _) (by omega))]
    rw [List.filter_cons_of_pos (by simpa using ge 42048 42048 (Int.cast_ofNat _) (by omega))]
    rw [List.filter_cons_of_pos (by simpa using ge 42413 42413 (Int.cast_ofNat _) (by omega))]
    rw [List.filter_cons_of_pos (by simpa using ge 42778 42778 (Int.cast_ofNat _) (by omega))]
    rw [List.filter_cons_of_pos (by simpa using ge 43144 43144 (Int.cast_ofNat _) (by omega))]
    rw [List.filter_cons_of_pos (by simpa using ge 43509 43509 (Int.cast_ofNat _) (by omega))]
    rw [List.filter_cons_of_pos (by simpa using ge 43874 43874 (Int.cast_ofNat _) (by omega))]
    rw [List.filter_cons_of_pos (by simpa using ge 44239 44239 (Int.cast_ofNat _) (by omega))]
    rw [List.filter_cons_of_pos (by simpa using ge 44786 44786 (Int.cast_ofNat _) (by omega))]
    rw [List.filter_cons_of_pos (by simpa using ge 45151 45151 (Int.cast_ofNat _) (by omega))]
    rw [List.filter_cons_of_pos (by simpa using ge 45516 45516 (Int.cast_ofNat _) (by omega))]
    rw [List.filter_cons_of_pos (by simpa using ge 46247 46247 (Int.cast_ofNat _) (by omega))]
    rw [List.filter_cons_of_pos (by simpa using ge 47161 47161 (Int.cast_ofNat _) (by omega))]
    rw [List.filter_cons_of_pos (by simpa using ge 47892 47892 (Int.cast_ofNat _) (by omega))]
    rw [List.filter_cons_of_pos (by simpa using ge 48257 48257 (Int.cast_ofNat _) (by omega))]
    rw [List.filter_cons_of_pos (by simpa using ge 48804 48804 (Int.cast_ofNat _) (by omega))]
    rw [List.filter_cons_of_pos (by simpa using ge 49169 49169 (Int.cast_ofNat _) (by omega))]
    rw [List.filter_cons_of_pos (by simpa using ge 49534 49534 (Int.cast_ofNat _) (by omega))]
    rw [List.filter_cons_of_pos (by simpa using ge 50083 50083 (Int.cast_ofNat _) (by omega))]
    rw [List.filter_cons_of_pos (by simpa using ge 50630 50630 (Int.cast_ofNat _) (by omega))]
    rw [List.filter_cons_of_pos (by simpa using ge 51179 51179 (Int.cast_ofNat _) (by omega))]
    rw [List.filter_cons_of_pos (by simpa using ge 53736 53736 (Int.cast_ofNat _) (by omega))]
    rw [List.filter_cons_of_pos (by simpa using ge 54832 54832 (Int.cast_ofNat _) (by omega))]
    rw [List.filter_cons_of_pos (by simpa using ge 56109 56109 (Int.cast_ofNat _) (by omega))]
    rw [List.filter_cons_of_neg (by simpa using lt 57204 57204 (Int.cast_ofNat _) (by omega))]
    rw [List.filter_cons_of_neg (by simpa using lt 57754 57754 (Int.cast_ofNat _) (by omega))]
    norm_num [eraDatChanges, eraDatDrift]
  replace h := h'
  clear h'
  rcases lt_or_ge j 57754 with h' | h'
  · clear hj
    rw [if_neg (show ¬ (57754 ≤ j) by omega)]
    rw [if_pos (show 57204 ≤ j by omega)]
    unfold taiUtc
    rw [if_neg (ge 36934 36934 (Int.cast_ofNat _) (by omega))]
    rw [if_neg (ge 37300 37300 (Int.cast_ofNat _) (by omega))]
    rw [if_neg (ge 37512 37512 (Int.cast_ofNat _) (by omega))]
    rw [if_neg (ge 37665 37665 (Int.cast_ofNat _) (by omega))]
    rw [if_neg (ge 38334 38334 (Int.cast_ofNat _) (by omega))]
    rw [if_neg (ge 38395 38395 (Int.cast_ofNat _) (by omega))]
    rw [if_neg (ge 38486 38486 (Int.cast_ofNat _) (by omega))]
    rw [if_neg (ge 38639 38639 (Int.cast_ofNat _) (by omega))]
    rw [if_neg (ge 38761 38761 (Int.cast_ofNat _) (by omega))]
    rw [if_neg (ge 38820 38820 (Int.cast_ofNat _) (by omega))]
    rw [if_neg (ge 38942 38942 (Int.cast_ofNat _) (by omega))]
    rw [if_neg (ge 39004 39004 (Int.cast_ofNat _) (by omega))]
    rw [if_neg (ge 39126 39126 (Int.cast_ofNat _) (by omega))]
    rw [if_neg (ge 39887 39887 (Int.cast_ofNat _) (by omega))]
    rw [if_neg (ge 41317 41317 (Int.cast_ofNat _) (by omega))]
    unfold leapSeconds
    rw [List.filter_cons_of_pos (by simpa using ge 41499 41499 (Int.cast_ofNat _) (by omega))]
    rw [List.filter_cons_of_pos (by simpa using ge 41683 41683 (Int.cast_ofNat _) (by omega))]
    rw [List.filter_cons_of_pos (by simpa using ge 42048 42048 (Int.cast_ofNat _) (by omega))]
    rw [List.filter_cons_of_pos (by simpa using ge 42413 42413 (Int.cast_ofNat _) (by omega))]
    rw [List.filter_cons_of_pos (by simpa using ge 42778 42778 (Int.cast_ofNat _) (by omega))]
    rw [List.filter_cons_of_pos (by simpa using ge 43144 43144 (Int.cast_ofNat _) (by omega))]
    rw [List.filter_cons_of_pos (by simpa using ge 43509 43509 (Int.cast_ofNat _) (by omega))]
    rw [List.filter_cons_of_pos (by simpa using ge 43874 43874 (Int.cast_ofNat _) (by omega))]
    rw [List.filter_cons_of_pos (by simpa using ge 44239 44239 (Int.cast_ofNat _) (by omega))]
    rw [List.filter_cons_of_pos (by simpa using ge 44786 44786 (Int.cast_ofNat _) (by omega))]
    rw [List.filter_cons_of_pos (by simpa using ge 45151 45151 (Int.cast_ofNat _) (by omega))]
    rw [List.filter_cons_of_pos (by simpa using ge 45516 45516 (Int.cast_ofNat _) (by omega))]
    rw [List.filter_cons_of_pos (by simpa using ge 46247 46247 (Int.cast_ofNat _) (by omega))]
    rw [List.filter_cons_of_pos (by simpa using ge 47161 47161 (Int.cast_ofNat _) (by omega))]
    rw [List.filter_cons_of_pos (by simpa using ge 47892 47892 (Int.cast_ofNat _) (by omega))]
    rw [List.filter_cons_of_pos (by simpa using ge 48257 48257 (Int.cast_ofNat _) (by omega))]
    rw [List.filter_cons_of_pos (by simpa using ge 48804 48804 (Int.cast_ofNat _) (by omega))]
    rw [List.filter_cons_of_pos (by simpa using ge 49169 49169 (Int.cast_ofNat _) (by omega))]
    rw [List.filter_cons_of_pos (by simpa using ge 49534 49534 (Int.cast_ofNat _) (by omega))]
    rw [List.filter_cons_of_pos (by simpa using ge 50083 50083 (Int.cast_ofNat _) (by omega))]
    rw [List.filter_cons_of_pos (by simpa using ge 50630 50630 (Int.cast_ofNat _) (by omega))]
    rw [List.filter_cons_of_pos (by simpa using ge 51179 51179 (Int.cast_ofNat _) (by omega))]
    rw [List.filter_cons_of_pos (by simpa using ge 53736 53736 (Int.cast_ofNat _) (by omega))]
    rw [List.filter_cons_of_pos (by simpa using ge 54832 54832 (Int.cast_ofNat _) (by omega))]
    rw [List.filter_cons_of_pos (by simpa using ge 56109 56109 (Int.cast_ofNat _) (by omega))]
    rw [List.filter_cons_of_pos (by simpa using ge 57204 57204 (Int.cast_ofNat _) (by omega))]
    rw [List.filter_cons_of_neg (by simpa using lt 57754 57754 (Int.cast_ofNat _) (by omega))]
    norm_num [eraDatChanges, eraDatDrift]
  replace h := h'
  clear h'
  · clear hj
    rw [if_pos (show 57754 ≤ j by omega)]
    unfold taiUtc
    rw [if_neg (ge 36934 36934 (Int.cast_ofNat _) (by omega))]
    rw [if_neg (ge 37300 37300 (Int.cast_ofNat _) (by omega))]
    rw [if_neg (ge 37512 37512 (Int.cast_ofNat _) (by omega))]
    rw [if_neg (ge 37665 37665 (Int.cast_ofNat _) (by omega))]
    rw [if_neg (ge 38334 38334 (Int.cast_ofNat _) (by omega))]
    rw [if_neg (ge 38395 38395 (Int.cast_ofNat _) (by omega))]
    rw [if_neg (ge 38486 38486 (Int.cast_ofNat _) (by omega))]
    rw [if_neg (ge 38639 38639 (Int.cast_ofNat _) (by omega))]
    rw [if_neg (ge 38761 38761 (Int.cast_ofNat _) (by omega))]
    rw [if_neg (ge 38820 38820 (Int.cast_ofNat _) (by omega))]
    rw [if_neg (ge 38942 38942 (Int.cast_ofNat _) (by omega))]
    rw [if_neg (ge 39004 39004 (Int.cast_ofNat _) (by omega))]
    rw [if_neg (ge 39126 39126 (Int.cast_ofNat _) (by omega))]
    rw [if_neg (ge 39887 39887 (Int.cast_ofNat _) (by omega))]
    rw [if_neg (ge 41317 41317 (Int.cast_ofNat _) (by omega))]
    unfold leapSeconds
    rw [List.filter_cons_of_pos (by simpa using ge 41499 41499 (Int.cast_ofNat _) (by omega))]
    rw [List.filter_cons_of_pos (by simpa using ge 41683 41683 (Int.cast_ofNat _) (by omega))]
    rw [List.filter_cons_of_pos (by simpa using ge 42048 42048 (Int.cast_ofNat _) (by omega))]
    rw [List.filter_cons_of_pos (by simpa using ge 42413 42413 (Int.cast_ofNat _) (by omega))]
    rw [List.filter_cons_of_pos (by simpa using ge 42778 42778 (Int.cast_ofNat _) (by omega))]
    rw [List.filter_cons_of_pos (by simpa using ge 43144 43144 (Int.cast_ofNat _) (by omega))]
    rw [List.filter_cons_of_pos (by simpa using ge 43509 43509 (Int.cast_ofNat _) (by omega))]
    rw [List.filter_cons_of_pos (by simpa using ge 43874 43874 (Int.cast_ofNat _) (by omega))]
    rw [List.filter_cons_of_pos (by simpa using ge 44239 44239 (Int.cast_ofNat _) (by omega))]
    rw [List.filter_cons_of_pos (by simpa using ge 44786 44786 (Int.cast_ofNat _) (by omega))]
    rw [List.filter_cons_of_pos (by simpa using ge 45151 45151 (Int.cast_ofNat _) (by omega))]
    rw [List.filter_cons_of_pos (by simpa using ge 45516 45516 (Int.cast_ofNat _) (by omega))]
    rw [List.filter_cons_of_pos (by simpa using ge 46247 46247 (Int.cast_ofNat _) (by omega))]
    rw [List.filter_cons_of_pos (by simpa using ge 47161 47161 (Int.cast_ofNat _) (by omega))]
    rw [List.filter_cons_of_pos (by simpa using ge 47892 47892 (Int.cast_ofNat _) (by omega))]
    rw [List.filter_cons_of_pos (by simpa using ge 48257 48257 (Int.cast_ofNat _) (by omega))]
    rw [List.filter_cons_of_pos (by simpa using ge 48804 48804 (Int.cast_ofNat _) (by omega))]
    rw [List.filter_cons_of_pos (by simpa using ge 49169 49169 (Int.cast_ofNat _) (by omega))]
    rw [List.filter_cons_of_pos (by simpa using ge 49534 49534 (Int.cast_ofNat _) (by omega))]
    rw [List.filter_cons_of_pos (by simpa using ge 50083 50083 (Int.cast_ofNat _) (by omega))]
    rw [List.filter_cons_of_pos (by simpa using ge 50630 50630 (Int.cast_ofNat _) (by omega))]
    rw [List.filter_cons_of_pos (by simpa using ge 51179 51179 (Int.cast_ofNat _) (by omega))]
    rw [List.filter_cons_of_pos (by simpa using ge 53736 53736 (Int.cast_ofNat _) (by omega))]
    rw [List.filter_cons_of_pos (by simpa using ge 54832 54832 (Int.cast_ofNat _) (by omega))]
    rw [List.filter_cons_of_pos (by simpa using ge 56109 56109 (Int.cast_ofNat _) (by omega))]
    rw [List.filter_cons_of_pos (by simpa using ge 57204 57204 (Int.cast_ofNat _) (by omega))]
    rw [List.filter_cons_of_pos (by simpa using ge 57754 57754 (Int.cast_ofNat _) (by omega))]
    norm_num [eraDatChanges, eraDatDrift]

end Pal.Props
