import Verif.Model.Flt
import Mathlib.Tactic

/-! # IEEE rounding satisfies the assumptions; simple consequences -/

namespace Pal

theorem rne_err (y : ℝ) : |(rne y : ℝ) - y| ≤ 1 / 2 := by
  have h1 := Int.floor_add_fract y
  have h2 := Int.fract_nonneg y
  have h3 := Int.fract_lt_one y
  unfold rne
  rw [abs_le]
  split_ifs <;> push_cast <;> constructor <;> linarith

theorem rne_int (n : ℤ) : rne n = n := by
  unfold rne; simp

theorem rne_bounds (y : ℝ) : ⌊y⌋ ≤ rne y ∧ rne y ≤ ⌊y⌋ + 1 := by
  unfold rne; split_ifs <;> omega

theorem rne_mono {x y : ℝ} (h : x ≤ y) : rne x ≤ rne y := by
  have hf : ⌊x⌋ ≤ ⌊y⌋ := Int.floor_le_floor h
  rcases lt_or_eq_of_le hf with h1 | h1
  · have := (rne_bounds x).2
    have := (rne_bounds y).1
    omega
  · have hx := Int.floor_add_fract x
    have hy := Int.floor_add_fract y
    have hc : ((⌊x⌋ : ℤ) : ℝ) = ⌊y⌋ := by rw [h1]
    have : Int.fract x ≤ Int.fract y := by linarith
    unfold rne
    rw [h1]
    split_ifs <;> first | omega | linarith

theorem rne_odd (y : ℝ) : rne (-y) = -rne y := by
  by_cases hi : Int.fract y = 0
  · have hy := Int.floor_add_fract y
    rw [hi, add_zero] at hy
    have h1 : rne y = ⌊y⌋ := by conv_lhs => rw [← hy]; rw [rne_int]
    have h2 : rne (-y) = -⌊y⌋ := by
      have : -y = ((-⌊y⌋ : ℤ) : ℝ) := by push_cast; rw [hy]
      rw [this, rne_int]
    rw [h1, h2]
  · have h1 : Int.fract (-y) = 1 - Int.fract y := Int.fract_neg hi
    have h2 : ⌊-y⌋ = -⌊y⌋ - 1 := by
      have a := Int.floor_add_fract (-y)
      have b := Int.floor_add_fract y
      have : ((⌊-y⌋ : ℤ) : ℝ) = ((-⌊y⌋ - 1 : ℤ) : ℝ) := by push_cast; linarith
      exact_mod_cast this
    unfold rne
    rw [h1, h2]
    split_ifs <;> first | omega | linarith

theorem ulp_pos (x : ℝ) : (0 : ℝ) < 2 ^ ulpExp x := by positivity

theorem ulp_le (x : ℝ) (h0 : x ≠ 0) : (2 : ℝ) ^ ulpExp x ≤ |x| / 2 ^ 52 + 1 / 2 ^ 1074 := by
  unfold ulpExp
  rw [zpow_sub₀ (by norm_num)]
  have e52 : (2 : ℝ) ^ (52 : ℤ) = 2 ^ 52 := by norm_num
  rw [e52]
  rcases le_total (Int.log 2 |x|) (-1022) with h | h
  · rw [max_eq_right h]
    have : (2 : ℝ) ^ (-1022 : ℤ) / 2 ^ 52 = 1 / 2 ^ 1074 := by
      rw [zpow_neg, show (1074 : ℕ) = 1022 + 52 from rfl, pow_add, show (1022 : ℤ) = ((1022 : ℕ) : ℤ) from rfl, zpow_natCast]
      field_simp
    rw [this]
    exact le_add_of_nonneg_left (by positivity)
  · rw [max_eq_left h]
    have := Int.zpow_log_le_self (b := 2) (r := |x|) (by norm_num) (abs_pos.2 h0)
    push_cast at this
    have h2 : (2 : ℝ) ^ Int.log 2 |x| / 2 ^ 52 ≤ |x| / 2 ^ 52 := div_le_div_of_nonneg_right this (by positivity)
    exact h2.trans (le_add_of_nonneg_right (by positivity))

theorem ulpExp_neg (x : ℝ) : ulpExp (-x) = ulpExp x := by unfold ulpExp; rw [abs_neg]

theorem ieee_zero : ieee 0 = 0 := by
  unfold ieee
  rw [zero_div, show (0 : ℝ) = ((0 : ℤ) : ℝ) by simp, rne_int]; simp

theorem ieee_odd (x : ℝ) : ieee (-x) = -ieee x := by
  unfold ieee
  rw [ulpExp_neg, neg_div, rne_odd]; push_cast; ring

theorem ieee_near (x : ℝ) : |ieee x - x| ≤ |x| / 2 ^ 53 + 1 / 2 ^ 1075 := by
  by_cases h0 : x = 0
  · rw [h0, ieee_zero]; simp
  · have hp := ulp_pos x
    have h := rne_err (x / 2 ^ ulpExp x)
    have hl := ulp_le x h0
    have e : ieee x - x = (rne (x / 2 ^ ulpExp x) - x / 2 ^ ulpExp x) * 2 ^ ulpExp x := by
      unfold ieee; field_simp
    rw [e, abs_mul, abs_of_pos hp]
    have h1 : |(rne (x / 2 ^ ulpExp x) : ℝ) - x / 2 ^ ulpExp x| * 2 ^ ulpExp x ≤ 1 / 2 * (|x| / 2 ^ 52 + 1 / 2 ^ 1074) :=
      mul_le_mul h hl hp.le (by norm_num)
    refine h1.trans (le_of_eq ?_)
    have q1 : (1 : ℝ) / 2 ^ 1075 = 1 / 2 * (1 / 2 ^ 1074) := by rw [show (1075 : ℕ) = 1074 + 1 from rfl, pow_succ]; field_simp
    have q2 : |x| / 2 ^ 53 = 1 / 2 * (|x| / 2 ^ 52) := by rw [show (53 : ℕ) = 52 + 1 from rfl, pow_succ]; field_simp
    rw [q1, q2]; ring

/-- The numbers of a binade do not round past its end. -/
theorem ieee_mono_pos {x y : ℝ} (hx : 0 < x) (h : x ≤ y) : ieee x ≤ ieee y := by
  have hy : 0 < y := hx.trans_le h
  have hl : Int.log 2 |x| ≤ Int.log 2 |y| := by
    rw [abs_of_pos hx, abs_of_pos hy]; exact Int.log_mono_right hx h
  have hu : ulpExp x ≤ ulpExp y := by unfold ulpExp; have := max_le_max hl (le_refl (-1022 : ℤ)); omega
  have px := ulp_pos x
  have py := ulp_pos y
  rcases lt_or_eq_of_le hu with h1 | h1
  · -- x in a lower binade
    have e1 : x < 2 ^ (ulpExp x + 53) := by
      have := Int.lt_zpow_succ_log_self (b := 2) (by norm_num) |x|
      push_cast at this
      rw [abs_of_pos hx] at this
      refine this.trans_le (zpow_le_zpow_right₀ (by norm_num) ?_)
      unfold ulpExp; rw [abs_of_pos hx]
      have := le_max_left (Int.log 2 x) (-1022); omega
    have e2 : (2 : ℝ) ^ (ulpExp y + 52) ≤ y := by
      have h2 : ulpExp y + 52 = Int.log 2 |y| := by
        have hm : -1074 ≤ ulpExp x := by unfold ulpExp; have := le_max_right (Int.log 2 |x|) (-1022); omega
        have h3 : ulpExp y + 52 = max (Int.log 2 |y|) (-1022) := by unfold ulpExp; ring
        rcases le_total (Int.log 2 |y|) (-1022) with h4 | h4
        · rw [max_eq_right h4] at h3; omega
        · rw [max_eq_left h4] at h3; exact h3
      rw [h2, abs_of_pos hy]
      have := Int.zpow_log_le_self (b := 2) (r := y) (by norm_num) hy
      exact_mod_cast this
    have a1 : x / 2 ^ ulpExp x ≤ ((2 ^ 53 : ℤ) : ℝ) := by
      rw [div_le_iff₀ px]
      refine e1.le.trans (le_of_eq ?_)
      rw [zpow_add₀ (by norm_num), mul_comm]; norm_num
    have a2 : ((2 ^ 52 : ℤ) : ℝ) ≤ y / 2 ^ ulpExp y := by
      rw [le_div_iff₀ py]
      refine le_trans (le_of_eq ?_) e2
      rw [zpow_add₀ (by norm_num), mul_comm]; norm_num
    have b1 := rne_mono a1
    have b2 := rne_mono a2
    rw [rne_int] at b1 b2
    have c1 : ieee x ≤ 2 ^ (ulpExp x + 53) := by
      unfold ieee
      rw [zpow_add₀ (by norm_num), mul_comm ((2 : ℝ) ^ ulpExp x)]
      refine mul_le_mul_of_nonneg_right ?_ px.le
      have : (rne (x / 2 ^ ulpExp x) : ℝ) ≤ ((2 ^ 53 : ℤ) : ℝ) := by exact_mod_cast b1
      refine this.trans (by norm_num)
    have c2 : (2 : ℝ) ^ (ulpExp y + 52) ≤ ieee y := by
      unfold ieee
      rw [zpow_add₀ (by norm_num), mul_comm ((2 : ℝ) ^ ulpExp y)]
      refine mul_le_mul_of_nonneg_right ?_ py.le
      have : ((2 ^ 52 : ℤ) : ℝ) ≤ (rne (y / 2 ^ ulpExp y) : ℝ) := by exact_mod_cast b2
      refine le_trans (by norm_num) this
    exact c1.trans ((zpow_le_zpow_right₀ (by norm_num) (by omega)).trans c2)
  · unfold ieee
    rw [h1]
    refine mul_le_mul_of_nonneg_right ?_ py.le
    exact_mod_cast rne_mono (div_le_div_of_nonneg_right h py.le)

theorem ieee_nonneg {x : ℝ} (h : 0 ≤ x) : 0 ≤ ieee x := by
  unfold ieee
  have : (0 : ℤ) ≤ rne (x / 2 ^ ulpExp x) := by
    have := rne_mono (show ((0 : ℤ) : ℝ) ≤ x / 2 ^ ulpExp x by push_cast; exact div_nonneg h (ulp_pos x).le)
    rwa [rne_int] at this
  have h2 : (0 : ℝ) ≤ (rne (x / 2 ^ ulpExp x) : ℝ) := by exact_mod_cast this
  exact mul_nonneg h2 (ulp_pos x).le

theorem ieee_mono {x y : ℝ} (h : x ≤ y) : ieee x ≤ ieee y := by
  rcases lt_trichotomy x 0 with hx | hx | hx
  · rcases lt_or_ge y 0 with hy | hy
    · have := ieee_mono_pos (show 0 < -y by linarith) (show -y ≤ -x by linarith)
      rw [ieee_odd, ieee_odd] at this
      linarith
    · have h1 := ieee_nonneg (show 0 ≤ -x by linarith)
      rw [ieee_odd] at h1
      linarith [ieee_nonneg hy]
  · rw [hx, ieee_zero]; rw [hx] at h; exact ieee_nonneg h
  · exact ieee_mono_pos hx h

theorem ieee_keep (m e : ℤ) (hm : |m| ≤ 2 ^ 53) (he : -1074 ≤ e) : ieee (m * 2 ^ e) = m * 2 ^ e := by
  by_cases h0 : m = 0
  · rw [h0]; simp [ieee_zero]
  have hmr : (0 : ℝ) < |(m : ℝ)| := abs_pos.2 (by exact_mod_cast h0)
  have hp : (0 : ℝ) < 2 ^ e := by positivity
  have hx0 : (m : ℝ) * 2 ^ e ≠ 0 := mul_ne_zero (by exact_mod_cast h0) hp.ne'
  have habs : |(m : ℝ) * 2 ^ e| = |(m : ℝ)| * 2 ^ e := by rw [abs_mul, abs_of_pos hp]
  suffices hk : ∃ k : ℤ, (m : ℝ) * 2 ^ e / 2 ^ ulpExp (m * 2 ^ e) = k by
    obtain ⟨k, hk⟩ := hk
    unfold ieee
    rw [hk, rne_int, ← hk]
    field_simp
  have hlog : Int.log 2 |(m : ℝ) * 2 ^ e| ≤ e + 52 ∨ |m| = 2 ^ 53 := by
    by_cases hm2 : |m| = 2 ^ 53
    · exact Or.inr hm2
    · left
      have : |m| < 2 ^ 53 := lt_of_le_of_ne hm hm2
      have h3 : |(m : ℝ)| < 2 ^ 53 := by exact_mod_cast this
      have h4 : |(m : ℝ) * 2 ^ e| < ((2 : ℕ) : ℝ) ^ (e + 53) := by
        rw [habs]; push_cast
        rw [zpow_add₀ (by norm_num), mul_comm]
        exact mul_lt_mul_of_pos_left (h3.trans_le (by norm_num)) hp
      have := (Int.lt_zpow_iff_log_lt (b := 2) (by norm_num) (abs_pos.2 hx0)).1 h4
      omega
  rcases hlog with hl | hl
  · have hu : ulpExp ((m : ℝ) * 2 ^ e) ≤ e := by
      unfold ulpExp
      have : max (Int.log 2 |(m : ℝ) * 2 ^ e|) (-1022) ≤ e + 52 := max_le hl (by omega)
      omega
    obtain ⟨n, hn⟩ := Int.eq_ofNat_of_zero_le (show 0 ≤ e - ulpExp ((m : ℝ) * 2 ^ e) by omega)
    refine ⟨m * 2 ^ n, ?_⟩
    rw [mul_div_assoc, ← zpow_sub₀ (by norm_num), hn]
    push_cast; simp
  · have hm3 : |(m : ℝ)| = 2 ^ 53 := by exact_mod_cast hl
    have hlg : Int.log 2 |(m : ℝ) * 2 ^ e| = e + 53 := by
      rw [habs, hm3]
      have : (2 : ℝ) ^ 53 * 2 ^ e = ((2 : ℕ) : ℝ) ^ (e + 53) := by push_cast; rw [zpow_add₀ (by norm_num), mul_comm]; norm_num
      rw [this]
      exact Int.log_zpow (by norm_num) _
    have hu : ulpExp ((m : ℝ) * 2 ^ e) = e + 1 := by
      unfold ulpExp; rw [hlg, max_eq_left (by omega)]; ring
    rw [hu]
    rcases abs_eq (show (0 : ℤ) ≤ 2 ^ 53 by norm_num) |>.1 hl with h | h
    · refine ⟨2 ^ 52, ?_⟩
      rw [h, zpow_add₀ (by norm_num)]; push_cast; field_simp; norm_num
    · refine ⟨-2 ^ 52, ?_⟩
      rw [h, zpow_add₀ (by norm_num)]; push_cast; field_simp; norm_num

theorem rne_best (y : ℝ) (k : ℤ) : |(rne y : ℝ) - y| ≤ |k - y| := by
  have h1 := Int.floor_add_fract y
  have h2 := Int.fract_nonneg y
  have h3 := Int.fract_lt_one y
  by_cases hk : k ≤ ⌊y⌋
  · have hk' : (k : ℝ) ≤ ⌊y⌋ := by exact_mod_cast hk
    have e2 : |(k : ℝ) - y| = y - k := by rw [abs_of_nonpos (by linarith)]; ring
    rw [e2]
    unfold rne
    split_ifs <;> push_cast <;> rw [abs_le] <;> constructor <;> linarith
  · have hk' : (⌊y⌋ : ℝ) + 1 ≤ k := by exact_mod_cast (show ⌊y⌋ + 1 ≤ k by omega)
    have e2 : |(k : ℝ) - y| = k - y := abs_of_nonneg (by linarith)
    rw [e2]
    unfold rne
    split_ifs <;> push_cast <;> rw [abs_le] <;> constructor <;> linarith

theorem ulpExp_ge (x : ℝ) : -1074 ≤ ulpExp x := by unfold ulpExp; have := le_max_right (Int.log 2 |x|) (-1022); omega

theorem ulp_up (x : ℝ) : |x| < 2 ^ 53 * 2 ^ ulpExp x := by
  have := Int.lt_zpow_succ_log_self (b := 2) (by norm_num) |x|
  push_cast at this
  refine this.trans_le ?_
  have e : (2 : ℝ) ^ 53 * 2 ^ ulpExp x = 2 ^ (ulpExp x + 53) := by rw [zpow_add₀ (by norm_num), mul_comm]; norm_num
  rw [e]
  refine zpow_le_zpow_right₀ (by norm_num) ?_
  unfold ulpExp
  have := le_max_left (Int.log 2 |x|) (-1022); omega

theorem ulp_dn (x : ℝ) (h0 : x ≠ 0) (h : -1074 < ulpExp x) : 2 ^ 52 * 2 ^ ulpExp x ≤ |x| := by
  have h2 : ulpExp x + 52 = Int.log 2 |x| := by
    have h3 : ulpExp x + 52 = max (Int.log 2 |x|) (-1022) := by unfold ulpExp; ring
    rcases le_total (Int.log 2 |x|) (-1022) with h4 | h4
    · rw [max_eq_right h4] at h3; omega
    · rw [max_eq_left h4] at h3; exact h3
  have e : (2 : ℝ) ^ 52 * 2 ^ ulpExp x = 2 ^ (ulpExp x + 52) := by rw [zpow_add₀ (by norm_num), mul_comm]; norm_num
  rw [e, h2]
  have := Int.zpow_log_le_self (b := 2) (r := |x|) (by norm_num) (abs_pos.2 h0)
  exact_mod_cast this

theorem ieee_rep (x : ℝ) : ∃ m e : ℤ, |m| ≤ 2 ^ 53 ∧ -1074 ≤ e ∧ ieee x = m * 2 ^ e := by
  refine ⟨rne (x / 2 ^ ulpExp x), ulpExp x, ?_, ulpExp_ge x, rfl⟩
  have hp := ulp_pos x
  have h := abs_le.1 (ulp_up x).le
  have h1 : x / 2 ^ ulpExp x ≤ ((2 ^ 53 : ℤ) : ℝ) := by rw [div_le_iff₀ hp]; push_cast; linarith [h.2]
  have h2 : ((-2 ^ 53 : ℤ) : ℝ) ≤ x / 2 ^ ulpExp x := by rw [le_div_iff₀ hp]; push_cast; linarith [h.1]
  have b1 := rne_mono h1
  have b2 := rne_mono h2
  rw [rne_int] at b1 b2
  rw [abs_le]; exact ⟨by simpa using b2, b1⟩

theorem ieee_best (x : ℝ) (m e : ℤ) (hm : |m| ≤ 2 ^ 53) (he : -1074 ≤ e) : |ieee x - x| ≤ |m * 2 ^ e - x| := by
  have hp := ulp_pos x
  have mult : ∀ k : ℤ, |ieee x - x| ≤ |k * 2 ^ ulpExp x - x| := by
    intro k
    have e1 : ieee x - x = (rne (x / 2 ^ ulpExp x) - x / 2 ^ ulpExp x) * 2 ^ ulpExp x := by
      unfold ieee; field_simp
    have e2 : k * 2 ^ ulpExp x - x = (k - x / 2 ^ ulpExp x) * 2 ^ ulpExp x := by field_simp
    rw [e1, e2, abs_mul, abs_mul]
    exact mul_le_mul_of_nonneg_right (rne_best _ k) (abs_nonneg _)
  by_cases h0 : x = 0
  · rw [h0, ieee_zero, sub_zero, abs_zero]; exact abs_nonneg _
  rcases le_or_gt (ulpExp x) e with h | h
  · obtain ⟨n, hn⟩ := Int.eq_ofNat_of_zero_le (show 0 ≤ e - ulpExp x by omega)
    have := mult (m * 2 ^ n)
    have e1 : ((m * 2 ^ n : ℤ) : ℝ) * 2 ^ ulpExp x = m * 2 ^ e := by
      have : e = n + ulpExp x := by omega
      rw [this, zpow_add₀ (by norm_num)]; push_cast; rw [zpow_natCast]; ring
    rwa [e1] at this
  · have hd := ulp_dn x h0 (by omega)
    have hmr : |(m : ℝ)| ≤ 2 ^ 53 := by exact_mod_cast hm
    have hpe : (0 : ℝ) < 2 ^ e := by positivity
    have hy : |(m : ℝ) * 2 ^ e| ≤ 2 ^ 52 * 2 ^ ulpExp x := by
      rw [abs_mul, abs_of_pos hpe]
      have h1 : (2 : ℝ) ^ e ≤ 2 ^ (ulpExp x - 1) := zpow_le_zpow_right₀ (by norm_num) (by omega)
      have h2 : (2 : ℝ) ^ (ulpExp x - 1) = 2 ^ ulpExp x / 2 := by rw [zpow_sub₀ (by norm_num), zpow_one]
      calc |(m : ℝ)| * 2 ^ e ≤ 2 ^ 53 * (2 ^ ulpExp x / 2) := mul_le_mul hmr (h1.trans h2.le) hpe.le (by norm_num)
        _ = _ := by ring
    have hyb := abs_le.1 hy
    rcases lt_or_gt_of_ne h0 with hx | hx
    · have := mult (-2 ^ 52)
      push_cast at this
      rw [abs_of_neg hx] at hd
      rw [abs_of_nonneg (show 0 ≤ -4503599627370496 * 2 ^ ulpExp x - x by linarith)] at this
      have e2 : |(m : ℝ) * 2 ^ e - x| = m * 2 ^ e - x := abs_of_nonneg (by linarith)
      rw [e2]; linarith
    · have := mult (2 ^ 52)
      push_cast at this
      rw [abs_of_pos hx] at hd
      rw [abs_of_nonpos (show 4503599627370496 * 2 ^ ulpExp x - x ≤ 0 by linarith)] at this
      have e2 : |(m : ℝ) * 2 ^ e - x| = x - m * 2 ^ e := by rw [abs_of_nonpos (by linarith)]; ring
      rw [e2]; linarith

/-- IEEE 754 rounding satisfies everything assumed. -/
theorem ieee_rounding : Rounding ieee :=
  ⟨fun x _ => ieee_near x, fun _ _ _ _ h => ieee_mono h, ieee_odd, fun m e hm he _ => ieee_keep m e hm he, fun x _ => ieee_rep x, fun x _ m e hm he => ieee_best x m e hm he⟩

end Pal

namespace Pal

theorem Rounding.err {fl : ℝ → ℝ} (R : Rounding fl) {x : ℝ} (hx : |x| ≤ 10 ^ 30) : |fl x - x| ≤ 1.1103e-16 * |x| + 1 / 10 ^ 200 := by
  have h1 : (10 : ℝ) ^ 30 ≤ 2 ^ 1000 := calc
    (10 : ℝ) ^ 30 ≤ 2 ^ 100 := by norm_num
    _ ≤ 2 ^ 1000 := pow_le_pow_right₀ (by norm_num) (by norm_num)
  have h2 := R.near x (hx.trans h1)
  have h3 : (1 : ℝ) / 2 ^ 1075 ≤ 1 / 10 ^ 200 := by
    apply one_div_le_one_div_of_le (by positivity)
    calc (10 : ℝ) ^ 200 = (10 ^ 3) ^ 66 * 100 := by norm_num
      _ ≤ (2 ^ 10) ^ 66 * 2 ^ 7 := by norm_num
      _ = 2 ^ 667 := by rw [← pow_mul, ← pow_add]
      _ ≤ 2 ^ 1075 := pow_le_pow_right₀ (by norm_num) (by norm_num)
  have h4 : |x| / 2 ^ 53 ≤ 1.1103e-16 * |x| := by
    rw [div_le_iff₀ (by norm_num)]
    nlinarith [abs_nonneg x]
  exact h2.trans (add_le_add h4 h3)

theorem Rounding.int {fl : ℝ → ℝ} (R : Rounding fl) (n : ℤ) (hn : |n| ≤ 2 ^ 53) : fl n = n := by
  have := R.keep n 0 hn (by norm_num) (by
    rw [zpow_zero, mul_one]
    have : |(n : ℝ)| ≤ 2 ^ 53 := by exact_mod_cast hn
    exact this.trans (pow_le_pow_right₀ (by norm_num) (by norm_num)))
  simpa using this

theorem big_le {x : ℝ} (hx : |x| ≤ 10 ^ 30) : |x| ≤ 2 ^ 1000 := by
  have h1 : (10 : ℝ) ^ 30 ≤ 2 ^ 1000 := calc
    (10 : ℝ) ^ 30 ≤ 2 ^ 100 := by norm_num
    _ ≤ 2 ^ 1000 := pow_le_pow_right₀ (by norm_num) (by norm_num)
  exact hx.trans h1

theorem Rounding.le {fl : ℝ → ℝ} (R : Rounding fl) {x y : ℝ} (hx : |x| ≤ 10 ^ 30) (hy : |y| ≤ 10 ^ 30) (h : x ≤ y) : fl x ≤ fl y := R.mono x y (big_le hx) (big_le hy) h

theorem int_big {n : ℤ} (hn : |n| ≤ 2 ^ 53) : |(n : ℝ)| ≤ 10 ^ 30 := by
  have : |(n : ℝ)| ≤ 2 ^ 53 := by exact_mod_cast hn
  exact this.trans (by norm_num)

theorem Rounding.int_le {fl : ℝ → ℝ} (R : Rounding fl) {x : ℝ} {n : ℤ} (hx : |x| ≤ 10 ^ 30) (hn : |n| ≤ 2 ^ 53) (h : (n : ℝ) ≤ x) : (n : ℝ) ≤ fl x := by
  have := R.le (int_big hn) hx h
  rwa [R.int n hn] at this

theorem Rounding.le_int {fl : ℝ → ℝ} (R : Rounding fl) {x : ℝ} {n : ℤ} (hx : |x| ≤ 10 ^ 30) (hn : |n| ≤ 2 ^ 53) (h : x ≤ (n : ℝ)) : fl x ≤ (n : ℝ) := by
  have := R.le hx (int_big hn) h
  rwa [R.int n hn] at this

theorem Rounding.zero {fl : ℝ → ℝ} (R : Rounding fl) : fl 0 = 0 := by
  have := R.int 0 (by norm_num); simpa using this

theorem Rounding.nonneg {fl : ℝ → ℝ} (R : Rounding fl) {x : ℝ} (hx : |x| ≤ 10 ^ 30) (h : 0 ≤ x) : 0 ≤ fl x := by
  have := R.int_le (n := 0) hx (by norm_num) (by simpa using h); simpa using this

/-- The floor of a rounded quotient of integers is the integer quotient. -/
theorem Rounding.div_floor {fl : ℝ → ℝ} (R : Rounding fl) (a r : ℤ) (ha : 0 ≤ a) (hr : 0 < r) (hs : a + r ≤ 2 ^ 52) : ⌊fl ((a : ℝ) / r)⌋ = a / r := by
  have hrr : (0 : ℝ) < r := by exact_mod_cast hr
  have hr1 : (1 : ℝ) ≤ r := by exact_mod_cast hr
  have har : (0 : ℝ) ≤ a := by exact_mod_cast ha
  have hsr : (a : ℝ) + r ≤ 2 ^ 52 := by exact_mod_cast hs
  have hq0 : 0 ≤ a / r := Int.ediv_nonneg ha hr.le
  have hqa : a / r ≤ a := Int.ediv_le_self _ ha
  have hx : |(a : ℝ) / r| ≤ 10 ^ 30 := by
    rw [abs_of_nonneg (by positivity)]
    have : (a : ℝ) / r ≤ a := div_le_self har hr1
    have : (a : ℝ) ≤ 2 ^ 52 := by linarith
    linarith
  have hm := Int.mul_ediv_add_emod a r
  have hm0 := Int.emod_nonneg a hr.ne'
  have hm1 := Int.emod_lt_of_pos a hr
  have hle : (a / r) * r ≤ a := by rw [mul_comm]; omega
  have hlt : a + 1 ≤ (a / r + 1) * r := by rw [add_mul, mul_comm (a / r)]; omega
  generalize a / r = q at *
  rw [Int.floor_eq_iff]
  constructor
  · refine R.int_le hx (by rw [abs_of_nonneg hq0]; omega) ?_
    rw [le_div_iff₀ hrr]; exact_mod_cast hle
  · have he := (abs_le.1 (R.err hx)).2
    have hltr : (a : ℝ) + 1 ≤ (q + 1) * r := by exact_mod_cast hlt
    rw [abs_of_nonneg (by positivity : (0 : ℝ) ≤ (a : ℝ) / r)] at he
    have h1 : (a : ℝ) / r ≤ q + 1 - 1 / r := by
      rw [div_le_iff₀ hrr, sub_mul, div_mul_cancel₀ _ hrr.ne']; linarith
    have h2 : (1.1103e-16 * ((a : ℝ) / r) + 1 / 10 ^ 200) < 1 / r := by
      rw [lt_div_iff₀ hrr, add_mul, mul_assoc, div_mul_cancel₀ _ hrr.ne']
      have : (1 : ℝ) / 10 ^ 200 * r ≤ 1 / 10 ^ 200 * 2 ^ 52 := mul_le_mul_of_nonneg_left (by linarith) (by positivity)
      have e2 : (1 : ℝ) / 10 ^ 200 * 2 ^ 52 ≤ 0.1 := by norm_num
      have : (a : ℝ) ≤ 2 ^ 52 := by linarith
      norm_num at *
      linarith
    linarith

end Pal
