import Verif.Model.FlJd2cal
import Verif.Lemmas.Flt
import Verif.Props.Dat

/-!
# Julian date to calendar date in double precision: property C154
-/

namespace Pal.Props
open Real Pal Spec
variable {fl : ℝ → ℝ}

/-- Multiples of 2⁻ᵏ are kept by rounding. -/
theorem fl_grid (R : Rounding fl) {k : ℕ} (hk : k ≤ 52) (z : ℤ) (hz : |z| ≤ 2 ^ 53) : fl ((z : ℝ) / 2 ^ k) = z / 2 ^ k := by
  have e : (z : ℝ) / 2 ^ k = z * 2 ^ (-(k : ℤ)) := by rw [zpow_neg, zpow_natCast]; rfl
  rw [e]
  refine R.keep z (-k) hz (by omega) ?_
  have h1 : |(z : ℝ)| ≤ 2 ^ 53 := by rw [← Int.cast_abs]; exact_mod_cast hz
  have h2 : (2 : ℝ) ^ (-(k : ℤ)) ≤ 1 := by
    rw [zpow_neg, zpow_natCast]
    exact inv_le_one_of_one_le₀ (one_le_pow₀ (by norm_num))
  calc |(z : ℝ)| * 2 ^ (-(k : ℤ)) ≤ 2 ^ 53 * 1 := mul_le_mul h1 h2 (by positivity) (by positivity)
    _ ≤ 2 ^ 1000 := by rw [mul_one]; exact pow_le_pow_right₀ (by norm_num) (by norm_num)

theorem fl_half (R : Rounding fl) : fl 0.5 = 0.5 := by
  have := fl_grid R (k := 1) (by norm_num) 1 (by norm_num)
  norm_num at this ⊢; exact this

/-- Rounding a non-negative multiple of 2⁻ᵏ to a whole number. -/
theorem dnint_pos (R : Rounding fl) {k : ℕ} (hk1 : 2 ≤ k) (hk : k ≤ 52) (m : ℤ) (m0 : 0 ≤ m) (hm : m ≤ 2 ^ 53) :
    |(m : ℝ) / 2 ^ k - ⌊fl (m / 2 ^ k + 0.5)⌋| ≤ 1 / 2 := by
  have K0 : (0 : ℝ) < 2 ^ k := by positivity
  obtain ⟨h, hh⟩ : ∃ h : ℤ, (2 : ℤ) ^ k = 2 * h := ⟨2 ^ (k - 1), by rw [← pow_succ']; congr 1; omega⟩
  have hh' : (2 : ℝ) ^ k = 2 * h := by exact_mod_cast hh
  have h0 : (0 : ℝ) < h := by linarith
  have h0' : 0 < h := by exact_mod_cast h0
  have half : (0.5 : ℝ) = h / 2 ^ k := by rw [hh']; field_simp; norm_num
  have e : (((m + h : ℤ) : ℝ) / 2 ^ k) = (m : ℝ) / 2 ^ k + 1 / 2 := by push_cast; rw [add_div, ← half]; norm_num
  by_cases c : m + h ≤ 2 ^ 53
  · rw [half, show (m : ℝ) / 2 ^ k + h / 2 ^ k = ((m + h : ℤ) : ℝ) / 2 ^ k by push_cast; ring, fl_grid R hk _ (by rw [abs_le]; omega), e]
    have u1 := Int.floor_le ((m : ℝ) / 2 ^ k + 1 / 2)
    have u2 := Int.lt_floor_add_one ((m : ℝ) / 2 ^ k + 1 / 2)
    rw [abs_le]; constructor <;> linarith
  · obtain ⟨N, hN⟩ : ∃ N : ℤ, N = 2 ^ (53 - k) := ⟨_, rfl⟩
    have NK : (N : ℝ) * 2 ^ k = 2 ^ 53 := by rw [hN]; push_cast; rw [← pow_add]; congr 1; omega
    have N0 : 0 < N := by rw [hN]; positivity
    have N1 : N ≤ 2 ^ 51 := by rw [hN]; exact pow_le_pow_right₀ (by norm_num) (by omega)
    have N1' : (N : ℝ) ≤ 2 ^ 51 := by exact_mod_cast N1
    have N0' : (0 : ℝ) < N := by exact_mod_cast N0
    have a1 : (m : ℝ) / 2 ^ k ≤ N := by rw [div_le_iff₀ K0, NK]; exact_mod_cast hm
    have a2 : (N : ℝ) ≤ m / 2 ^ k + 1 / 2 := by
      rw [← e, le_div_iff₀ K0, NK]; exact_mod_cast (not_le.1 c).le
    have x0 : 0 ≤ (m : ℝ) / 2 ^ k := div_nonneg (by exact_mod_cast m0) K0.le
    have b : |(m : ℝ) / 2 ^ k + 0.5| ≤ 10 ^ 30 := by rw [abs_of_nonneg (by norm_num; linarith)]; norm_num at *; linarith
    have g1 : (N : ℝ) ≤ fl (m / 2 ^ k + 0.5) := R.int_le b (by rw [abs_of_pos N0]; exact N1.trans (by norm_num)) (by norm_num at *; linarith)
    have g2 := R.le (x := (m : ℝ) / 2 ^ k + 0.5) (y := ((2 * N + 1 : ℤ) : ℝ) / 2 ^ 1) b (by push_cast; rw [abs_of_pos (by positivity)]; norm_num at *; linarith) (by push_cast; norm_num at *; linarith)
    rw [fl_grid R (by norm_num) _ (by rw [abs_le]; omega)] at g2
    push_cast at g2
    have g3 : ⌊fl ((m : ℝ) / 2 ^ k + 0.5)⌋ = N := by
      rw [Int.floor_eq_iff]; constructor
      · exact g1
      · norm_num at g2 ⊢; linarith
    rw [g3, abs_le]; constructor <;> linarith

/-- The nearest whole number to a multiple of 2⁻ᵏ. -/
theorem dnint_grid (R : Rounding fl) {k : ℕ} (hk1 : 2 ≤ k) (hk : k ≤ 52) (m : ℤ) (hm : |m| ≤ 2 ^ 53) :
    |(m : ℝ) / 2 ^ k - flDnint fl (m / 2 ^ k)| ≤ 1 / 2 := by
  have K0 : (0 : ℝ) < 2 ^ k := by positivity
  have mm := abs_le.1 hm
  unfold flDnint
  split_ifs with c1 c2
  · norm_num at c1 ⊢; exact c1.le
  · have m0 : m < 0 := by
      by_contra h
      exact absurd c2 (not_lt.2 (div_nonneg (by exact_mod_cast not_lt.1 h) K0.le))
    have := dnint_pos R hk1 hk (-m) (by omega) (by omega)
    have e : (m : ℝ) / 2 ^ k - 0.5 = -(((-m : ℤ) : ℝ) / 2 ^ k + 0.5) := by push_cast; ring
    rw [e, R.odd, Int.ceil_neg, ← abs_neg]
    convert this using 2
    push_cast; ring
  · have m0 : 0 ≤ m := by
      by_contra h
      exact c2 (div_neg_of_neg_of_pos (by exact_mod_cast not_le.1 h) K0)
    exact dnint_pos R hk1 hk m m0 mm.2

theorem fl_intR (R : Rounding fl) (n : ℤ) (h : |n| ≤ 2 ^ 53) : fl n = n := R.int n h

theorem dnint_mjd0 (R : Rounding fl) : flDnint fl 2400000.5 = 2400001 := by
  unfold flDnint
  rw [if_neg (by norm_num), if_neg (by norm_num), show (2400000.5 : ℝ) + 0.5 = ((2400001 : ℤ) : ℝ) by norm_num, fl_intR R _ (by norm_num), Int.floor_intCast]

/-- The day number and the fraction are found without error. -/
theorem jd2day_exact (R : Rounding fl) {k : ℕ} (hk1 : 2 ≤ k) (hk : k ≤ 52) (m : ℤ) (hm : |m| ≤ 2 ^ 53) :
    flJd2day fl 2400000.5 (m / 2 ^ k) = (⌊(m : ℝ) / 2 ^ k⌋ + 2400001, Int.fract ((m : ℝ) / 2 ^ k)) := by
  have K0 : (0 : ℝ) < 2 ^ k := by positivity
  have K1 : (2 : ℤ) ^ k ≤ 2 ^ 52 := pow_le_pow_right₀ (by norm_num) hk
  have K1' : (2 : ℝ) ^ k ≤ 2 ^ 52 := by exact_mod_cast K1
  have K2 : (0 : ℤ) < 2 ^ k := by positivity
  have hd := dnint_grid R hk1 hk m hm
  have f1 : fl (2400000.5 - ((flDnint fl 2400000.5 : ℤ) : ℝ)) = -0.5 := by
    rw [dnint_mjd0 R, show (2400000.5 : ℝ) - ((2400001 : ℤ) : ℝ) = -0.5 by norm_num, R.odd, fl_half R]
  unfold flJd2day
  dsimp only
  rw [f1, dnint_mjd0 R]
  generalize flDnint fl ((m : ℝ) / 2 ^ k) = D at *
  obtain ⟨q, hq⟩ : ∃ q : ℤ, q = m - D * 2 ^ k := ⟨_, rfl⟩
  have eq1 : (m : ℝ) / 2 ^ k - D = q / 2 ^ k := by rw [hq]; push_cast; field_simp
  rw [eq1] at hd
  have q1 : |(q : ℝ)| ≤ 2 ^ k / 2 := by
    rw [abs_div, abs_of_pos K0, div_le_iff₀ K0] at hd; linarith
  have q2 : 2 * |q| ≤ 2 ^ k := by
    have : 2 * |(q : ℝ)| ≤ 2 ^ k := by linarith
    exact_mod_cast this
  have qa := abs_le.1 (le_refl |q|)
  have qq := abs_le.1 (show |q| ≤ 2 ^ 52 by omega)
  have qf : fl ((q : ℝ) / 2 ^ k) = q / 2 ^ k := fl_grid R hk q (by rw [abs_le]; omega)
  rw [eq1, qf]
  have xq : (m : ℝ) / 2 ^ k = D + q / 2 ^ k := by rw [← eq1]; ring
  rw [xq]
  have z0 := R.zero
  have s1 : flJdStep fl ⟨2400001 + D, 0.5, 0⟩ (-0.5) = ⟨2400001 + D, 0, 0⟩ := by
    unfold flJdStep
    dsimp only
    have a : (0.5 : ℝ) + -0.5 = 0 := by norm_num
    rw [a, z0, if_neg (by norm_num), if_pos (by rw [abs_neg]), sub_zero, fl_half R, a, z0, add_zero, z0]
  rw [s1]
  have s2 : flJdStep fl ⟨2400001 + D, 0, 0⟩ ((q : ℝ) / 2 ^ k) = ⟨2400001 + D, q / 2 ^ k, 0⟩ := by
    unfold flJdStep
    dsimp only
    have lt : ¬ ((q : ℝ) / 2 ^ k ≥ 1) := by
      have := (abs_le.1 hd).2
      linarith
    rw [zero_add, qf, if_neg lt]
    congr 1
    split_ifs with c
    · have : (q : ℝ) / 2 ^ k = 0 := by rw [abs_zero] at c; exact abs_eq_zero.1 (le_antisymm c (abs_nonneg _))
      rw [this]; simp [z0]
    · simp [z0]
  rw [s2]
  dsimp only
  rw [add_zero, qf, sub_self, z0]
  have one : ∀ (r J : ℤ) (s c : ℝ), 0 ≤ r → r < 2 ^ k → flJdOne fl ((r : ℝ) / 2 ^ k) ⟨J, s, c⟩ = (J, (r : ℝ) / 2 ^ k) := by
    intro r J s c r0 r1
    unfold flJdOne
    have e : (r : ℝ) / 2 ^ k - 1 = ((r - 2 ^ k : ℤ) : ℝ) / 2 ^ k := by push_cast; field_simp
    have le : ((r - 2 ^ k : ℤ) : ℝ) ≤ -1 := by
      have : r - 2 ^ k ≤ -1 := by omega
      exact_mod_cast this
    have u : ((r - 2 ^ k : ℤ) : ℝ) / 2 ^ k ≤ -1 / 2 ^ 52 := by
      rw [div_le_div_iff₀ K0 (by positivity)]
      calc ((r - 2 ^ k : ℤ) : ℝ) * 2 ^ 52 ≤ -1 * 2 ^ 52 := mul_le_mul_of_nonneg_right le (by positivity)
        _ ≤ -1 * 2 ^ k := by linarith
    rw [e, fl_grid R hk _ (by rw [abs_le]; omega), if_neg]
    intro c
    have : (-1 : ℝ) / 2 ^ 52 < -(1 / 2 ^ 54) := by norm_num
    linarith
  have fin : ∀ (r J : ℤ), 0 ≤ r → r < 2 ^ k → (D : ℝ) + q / 2 ^ k = J + r / 2 ^ k → (J + 2400001, (r : ℝ) / 2 ^ k) = (⌊(D : ℝ) + q / 2 ^ k⌋ + 2400001, Int.fract ((D : ℝ) + q / 2 ^ k)) := by
    intro r J r0 r1 e
    have r0' : (0 : ℝ) ≤ (r : ℝ) / 2 ^ k := div_nonneg (by exact_mod_cast r0) K0.le
    have r1' : (r : ℝ) / 2 ^ k < 1 := by rw [div_lt_one K0]; exact_mod_cast r1
    have fl1 : ⌊(J : ℝ) + r / 2 ^ k⌋ = J := by
      rw [Int.floor_eq_iff]; constructor <;> linarith
    rw [e]
    unfold Int.fract
    rw [fl1]; congr 1; ring
  unfold flJdNeg
  split_ifs with c
  · have q0 : q < 0 := by
      by_contra h
      exact absurd c (not_lt.2 (div_nonneg (by exact_mod_cast not_lt.1 h) K0.le))
    have e1 : (q : ℝ) / 2 ^ k + 1 = ((q + 2 ^ k : ℤ) : ℝ) / 2 ^ k := by push_cast; field_simp
    have k1 := fl_grid R hk (q + 2 ^ k) (by rw [abs_le]; omega)
    have e2 : (1 : ℝ) - ((q + 2 ^ k : ℤ) : ℝ) / 2 ^ k = -(q / 2 ^ k) := by rw [← e1]; ring
    dsimp only
    rw [e1, k1, e2, R.odd, qf, neg_add_cancel, z0, add_zero, z0, add_zero, k1, sub_self, z0, one (q + 2 ^ k) _ _ _ (by omega) (by omega), ← fin (q + 2 ^ k) (D - 1) (by omega) (by omega) (by rw [← e1]; push_cast; ring)]
    congr 1; ring
  · have q0 : 0 ≤ q := by
      by_contra h
      exact c (div_neg_of_neg_of_pos (by exact_mod_cast not_le.1 h) K0)
    dsimp only
    rw [one _ _ _ _ q0 (by omega), ← fin q D q0 (by omega) rfl]
    congr 1; ring

/-- In double precision palDjcl gives what exact arithmetic gives. -/
theorem flDjcl_eq (R : Rounding fl) (k : ℕ) (hk1 : 2 ≤ k) (hk : k ≤ 52) (m : ℤ) (hm : |m| ≤ 2 ^ 53) (x : ℚ) (hx : x = m / 2 ^ k) (x1 : -2468569 ≤ x) (x2 : x ≤ 997599999) :
    ∃ c : CalDate, palDjcl x ⟨0, 0, 0, 0⟩ = (0, c) ∧ flDjcl fl x = some (c.iy, c.im, c.id, (c.fd : ℝ)) ∧ Date.Valid ⟨c.iy, c.im, c.id⟩ ∧ 0 ≤ c.fd ∧ c.fd < 1 ∧
      (-4799 ≤ c.iy → ∀ old, ∃ n, palCldj c.iy c.im c.id old = (0, n) ∧ n + c.fd = x) := by
  have hx' : (x : ℝ) = (m : ℝ) / 2 ^ k := by rw [hx]; push_cast; rfl
  have y1 : (-2468569 : ℝ) ≤ x := by exact_mod_cast x1
  have y2 : (x : ℝ) ≤ 997599999 := by exact_mod_cast x2
  have big : |(2400000.5 : ℝ) + x| ≤ 10 ^ 30 := by rw [abs_le]; constructor <;> norm_num <;> linarith
  have g1 : ((-68569 : ℤ) : ℝ) ≤ fl (2400000.5 + x) := R.int_le big (by norm_num) (by push_cast; norm_num; linarith)
  have g2 : fl (2400000.5 + x) ≤ ((1000000000 : ℤ) : ℝ) := R.le_int big (by norm_num) (by push_cast; norm_num; linarith)
  push_cast at g1 g2
  obtain ⟨j, c, hjc, h⟩ := C13_djcl_valid x ⟨0, 0, 0, 0⟩
  rcases h with ⟨hj, hv, hf0, hf1, hmm⟩ | ⟨_, _, h | h⟩
  · refine ⟨c, by rw [hjc, hj], ?_, hv, hf0, hf1, hmm⟩
    unfold palDjcl eraJd2cal MJD0 at hjc
    dsimp only at hjc
    rw [if_neg (by rintro (h | h) <;> norm_num at h <;> linarith)] at hjc
    have hc := (Prod.mk.inj hjc).2
    have e : (2400000.5 : ℚ) + x + 1 / 2 = x + (2400001 : ℤ) := by norm_num; ring
    have fl0 : ⌊(x : ℝ)⌋ = ⌊x⌋ := Rat.floor_cast x
    rw [e, Int.floor_add_intCast] at hc
    unfold flDjcl flJd2cal
    dsimp only
    rw [if_neg (by rintro (h | h) <;> norm_num at h g1 g2 <;> linarith), hx', jd2day_exact R hk1 hk m hm, ← hx', Int.fract, fl0, ← hc]
    push_cast
    simp
  · linarith
  · norm_num at h; linarith

/-- Doubles of at least one in size are multiples of some 2⁻ᵏ. -/
theorem double_grid (R : Rounding fl) (x : ℚ) (dx : IsDouble fl x) (xd : 1 ≤ |x|) (x1 : -2468569 ≤ x) (x2 : x ≤ 997599999) :
    ∃ k : ℕ, 2 ≤ k ∧ k ≤ 52 ∧ ∃ m : ℤ, |m| ≤ 2 ^ 53 ∧ x = m / 2 ^ k := by
  have xb : |x| ≤ 997599999 := abs_le.2 ⟨by linarith, x2⟩
  have xb' : |(x : ℝ)| ≤ 997599999 := by exact_mod_cast xb
  obtain ⟨m, e, hm, he, h⟩ := R.rep x (big_le (xb'.trans (by norm_num)))
  have hx : (x : ℝ) = m * 2 ^ e := by rw [← h]; exact dx.symm
  have xq : x = m * (2 : ℚ) ^ e := by
    apply Rat.cast_injective (α := ℝ)
    push_cast
    exact hx
  by_cases c1 : -2 ≤ e
  · obtain ⟨n, hn⟩ : ∃ n : ℕ, e + 2 = n := ⟨(e + 2).toNat, by omega⟩
    have xe : x = ((m * 2 ^ n : ℤ) : ℚ) / 2 ^ 2 := by
      rw [xq, show e = (n : ℤ) - 2 by omega, zpow_sub₀ (by norm_num), zpow_natCast]; push_cast; norm_num; ring
    refine ⟨2, by norm_num, by norm_num, m * 2 ^ n, ?_, xe⟩
    have : |((m * 2 ^ n : ℤ) : ℚ)| ≤ 2 ^ 53 := by
      have e4 : ((m * 2 ^ n : ℤ) : ℚ) = 4 * x := by rw [xe]; ring
      rw [e4, abs_mul]; norm_num; linarith
    exact_mod_cast this
  · by_cases c2 : -52 ≤ e
    · obtain ⟨k, hk⟩ : ∃ k : ℕ, -e = k := ⟨(-e).toNat, by omega⟩
      refine ⟨k, by omega, by omega, m, hm, ?_⟩
      rw [xq, show e = -(k : ℤ) by omega, zpow_neg, zpow_natCast]; rfl
    · have mq : |(m : ℚ)| ≤ 2 ^ 53 := by exact_mod_cast hm
      have le : (2 : ℚ) ^ e ≤ 2 ^ (-53 : ℤ) := zpow_le_zpow_right₀ (by norm_num) (by omega)
      have up : |x| ≤ 1 := by
        rw [xq, abs_mul, abs_of_pos (by positivity : (0 : ℚ) < 2 ^ e)]
        refine (mul_le_mul mq le (by positivity) (by positivity)).trans ?_
        norm_num
      have one : |x| = 1 := le_antisymm up xd
      rcases (abs_eq (by norm_num)).1 one with h | h
      · exact ⟨2, by norm_num, by norm_num, 4, by norm_num, by rw [h]; norm_num⟩
      · exact ⟨2, by norm_num, by norm_num, -4, by norm_num, by rw [h]; norm_num⟩

/-- C154 (calendar) For every Modified Julian Date that is a double number of at least one in size and in the accepted range, palDjcl in double precision succeeds and makes no rounding error at all: the calendar date is valid, the fraction lies in [0,1), and palCldj of the date plus the fraction is exactly the given date. -/
theorem C154_djcl (R : Rounding fl) (x : ℚ) (dx : IsDouble fl x) (xd : 1 ≤ |x|) (x1 : -2468569 ≤ x) (x2 : x ≤ 997599999) :
    ∃ (y mo d : ℤ) (f : ℚ), flDjcl fl x = some (y, mo, d, (f : ℝ)) ∧ Date.Valid ⟨y, mo, d⟩ ∧ 0 ≤ f ∧ f < 1 ∧
      (-4799 ≤ y → ∀ old, ∃ n, palCldj y mo d old = (0, n) ∧ n + f = x) := by
  obtain ⟨k, hk1, hk, m, hm, hx⟩ := double_grid R x dx xd x1 x2
  obtain ⟨c, _, h1, h2⟩ := flDjcl_eq R k hk1 hk m hm x hx x1 x2
  exact ⟨_, _, _, _, h1, h2⟩

/-- C154 (round trip) For every calendar date from year -4799 on, palDjcl in double precision gives back, for the MJD that palCldj delivers, exactly that date and a fraction of zero (up to the largest MJD accepted). -/
theorem C154_roundtrip (R : Rounding fl) (t : Date) (hv : t.Valid) (hy : -4799 ≤ t.y) (old : ℚ) :
    ∃ n : ℚ, palCldj t.y t.m t.d old = (0, n) ∧ (n ≤ 997599999 → flDjcl fl n = some (t.y, t.m, t.d, 0)) := by
  obtain ⟨n, h1, h2⟩ := C13_djcl_cldj t hv hy old ⟨0, 0, 0, 0⟩ 0 (by norm_num)
  refine ⟨n, h1, fun hmax => ?_⟩
  have hc := cldj_valid t hv hy old
  rw [hc] at h1
  have he : ((eraMjdOf t.y t.m t.d : ℤ) : ℚ) = n := (Prod.mk.inj h1).2
  have hlow : -2431739 ≤ eraMjdOf t.y t.m t.d := by
    rw [mjdOf_ediv _ _ _ hy hv.m1 hv.m12]
    have := hv.m1; have := hv.m12; have := hv.d1
    split_ifs <;> omega
  generalize eraMjdOf t.y t.m t.d = j at *
  have jmax : j ≤ 997599999 := by rw [← he] at hmax; exact_mod_cast hmax
  have hlow' : (-2431739 : ℚ) ≤ n := by rw [← he]; exact_mod_cast hlow
  obtain ⟨c, g1, g2, _⟩ := flDjcl_eq R 2 le_rfl (by norm_num) (4 * j) (by rw [abs_le]; omega) n (by rw [← he]; push_cast; ring) (by linarith) hmax
  have h3 := h2 (by rw [add_zero]; norm_num at *; linarith)
  rw [add_zero, g1] at h3
  have h4 := (Prod.mk.inj h3).2
  rw [g2, h4]
  simp

/-- With IEEE doubles: 2000 February 29. -/
example : ∃ n : ℚ, palCldj 2000 2 29 0 = (0, n) ∧ (n ≤ 997599999 → flDjcl ieee n = some (2000, 2, 29, 0)) :=
  C154_roundtrip ieee_rounding ⟨2000, 2, 29⟩ ⟨by decide, by decide, by decide, by decide⟩ (by norm_num) 0

/-- C154 (decimal fraction of a day) For the same dates and up to nine decimals, palDjcal in double precision (with any pow right to 2.3e-16) gives a valid date and a whole number of units between 0 and 10^ndp, and together they denote the given date to half a unit in the last place, and a millionth of a unit more. -/
theorem C154_djcal (R : Rounding fl) (pw : ℝ → ℝ → ℝ) (hp : PowOK pw) (ndp : ℕ) (hn : ndp ≤ 9) (x : ℚ) (dx : IsDouble fl x) (xd : 1 ≤ |x|) (x1 : -2468569 ≤ x) (x2 : x ≤ 997599999) :
    ∃ (y mo d n : ℤ), flDjcal fl pw ndp x = some (y, mo, d, n) ∧ Date.Valid ⟨y, mo, d⟩ ∧ 0 ≤ n ∧ n ≤ 10 ^ ndp ∧
      (-4799 ≤ y → ∀ old, ∃ mjd : ℚ, palCldj y mo d old = (0, mjd) ∧ |(mjd : ℝ) + n / 10 ^ ndp - x| ≤ 0.500001 / 10 ^ ndp) := by
  obtain ⟨k, hk1, hk, m, hm, hx⟩ := double_grid R x dx xd x1 x2
  obtain ⟨c, _, h1, hv, hf0, hf1, h2⟩ := flDjcl_eq R k hk1 hk m hm x hx x1 x2
  have f0 : (0 : ℝ) ≤ c.fd := by exact_mod_cast hf0
  have f1 : (c.fd : ℝ) < 1 := by exact_mod_cast hf1
  have T1 : (1 : ℝ) ≤ 10 ^ ndp := one_le_pow₀ (by norm_num)
  have T2 : (10 : ℝ) ^ ndp ≤ 1000000000 := (pow_le_pow_right₀ (by norm_num) hn).trans (by norm_num)
  obtain ⟨T, hT⟩ : ∃ T : ℝ, T = 10 ^ ndp := ⟨_, rfl⟩
  have hpw := hp 10 ((ndp : ℤ) : ℝ) (by norm_num)
  rw [show ((10 : ℝ) ^ (((ndp : ℤ) : ℝ))) = 10 ^ ndp by rw [Int.cast_natCast]; exact Real.rpow_natCast 10 ndp, ← hT] at hpw
  rw [← hT] at T1 T2
  obtain ⟨n, hn'⟩ : ∃ n, n = flPalDnint fl (fl ((c.fd : ℝ) * pw 10 (ndp : ℤ))) := ⟨_, rfl⟩
  have key : 0 ≤ n ∧ (n : ℝ) < T + 1 ∧ |(n : ℝ) - c.fd * T| ≤ 0.500001 := by
    have z : (1 : ℝ) / 10 ^ 200 ≤ 1e-30 := by norm_num
    generalize pw 10 ((ndp : ℤ) : ℝ) = P at *
    generalize ((c.fd : ℚ) : ℝ) = f at *
    have P1 := abs_le.1 hpw
    have P0 : 0 ≤ P := by norm_num at *; linarith
    have a1 : |f * P - f * T| ≤ 2.3e-7 := by
      rw [← mul_sub, abs_mul, abs_of_nonneg f0]
      refine (mul_le_mul f1.le hpw (abs_nonneg _) (by norm_num)).trans ?_
      norm_num at *; linarith
    have fT0 : 0 ≤ f * T := mul_nonneg f0 (by linarith)
    have fT1 : f * T ≤ T := by
      have := mul_le_mul_of_nonneg_right f1.le (show 0 ≤ T by linarith)
      linarith
    have fP0 : 0 ≤ f * P := mul_nonneg f0 P0
    have a1' := abs_le.1 a1
    have b : |f * P| ≤ 1000000001 := by rw [abs_of_nonneg fP0]; norm_num at *; linarith
    have e1 := R.err (x := f * P) (b.trans (by norm_num))
    have g0 := R.nonneg (x := f * P) (b.trans (by norm_num)) fP0
    have e1' : |fl (f * P) - f * P| ≤ 1.2e-7 := by
      refine e1.trans ?_
      generalize (1 : ℝ) / 10 ^ 200 = tt at *
      norm_num at *; linarith
    have e1a := abs_le.1 e1'
    unfold flPalDnint at hn'
    rw [if_neg (not_lt.2 g0)] at hn'
    generalize fl (f * P) = g at *
    have gb : |g + 0.5| ≤ 1000000002 := by rw [abs_of_nonneg (by norm_num; linarith)]; norm_num at *; linarith [le_abs_self (f * P)]
    have e2 := R.err (x := g + 0.5) (gb.trans (by norm_num))
    have h0 := R.nonneg (x := g + 0.5) (gb.trans (by norm_num)) (by norm_num; linarith)
    have e2' : |fl (g + 0.5) - (g + 0.5)| ≤ 1.2e-7 := by
      refine e2.trans ?_
      generalize (1 : ℝ) / 10 ^ 200 = tt at *
      norm_num at *; linarith
    have e2a := abs_le.1 e2'
    have u1 := Int.floor_le (fl (g + 0.5))
    have u2 := Int.lt_floor_add_one (fl (g + 0.5))
    rw [← hn'] at u1 u2
    refine ⟨by rw [hn']; exact Int.floor_nonneg.2 h0, by norm_num at *; linarith, ?_⟩
    rw [abs_le]; constructor <;> norm_num at * <;> linarith
  obtain ⟨k0, k1, k2⟩ := key
  refine ⟨c.iy, c.im, c.id, n, by unfold flDjcl at h1; unfold flDjcal; rw [h1, hn']; rfl, hv, k0, ?_, fun hy old => ?_⟩
  · have : n < 10 ^ ndp + 1 := by rw [hT] at k1; exact_mod_cast k1
    omega
  · obtain ⟨mjd, g1, g2⟩ := h2 hy old
    refine ⟨mjd, g1, ?_⟩
    have e : (mjd : ℝ) + n / 10 ^ ndp - x = (n - c.fd * T) / T := by
      rw [← g2, hT]; push_cast; field_simp; ring
    rw [e, ← hT, abs_div, abs_of_pos (show 0 < T by linarith)]
    exact div_le_div_of_nonneg_right k2 (by linarith)

/-- With IEEE doubles and an exact pow: MJD 51603.25 to four decimals. -/
example : ∃ (y mo d n : ℤ), flDjcal ieee (fun x y => x ^ y) 4 ((51603.25 : ℚ) : ℝ) = some (y, mo, d, n) ∧ 0 ≤ n ∧ n ≤ 10 ^ 4 := by
  obtain ⟨y, mo, d, n, h1, _, h2, h3, _⟩ := C154_djcal ieee_rounding (fun x y => x ^ y) (fun x y h => by rw [sub_self, abs_zero]; positivity) 4 (by norm_num) 51603.25 (by have := ieee_keep 206413 (-2) (by norm_num) (by norm_num); unfold IsDouble; norm_num at this ⊢; exact this) (by rw [abs_of_pos] <;> norm_num) (by norm_num) (by norm_num)
  exact ⟨y, mo, d, n, h1, h2, h3⟩

theorem datSearch_last (M : ℤ) (n i : ℕ) (h : eraDatSearch M n = some i) :
    i < n ∧ ∀ j, i < j → j < n → M < 12 * (eraDatChanges.getD j (0, 0, 0)).1 + (eraDatChanges.getD j (0, 0, 0)).2.1 := by
  induction n with
  | zero => simp [eraDatSearch] at h
  | succ n ih =>
    unfold eraDatSearch at h
    dsimp only at h
    split_ifs at h with c
    · obtain rfl : n = i := Option.some.inj h
      exact ⟨by omega, fun j h1 h2 => by omega⟩
    · obtain ⟨a, b⟩ := ih h
      refine ⟨by omega, fun j h1 h2 => ?_⟩
      rcases Nat.lt_succ_iff_lt_or_eq.1 h2 with h3 | rfl
      · exact b j h1 h3
      · exact not_le.1 c

theorem datDrift_facts : ∀ i < 14, ((eraDatDrift.getD i (0, 0)).1 = 37300 ∨ (eraDatDrift.getD i (0, 0)).1 = 37665 ∨ (eraDatDrift.getD i (0, 0)).1 = 38761 ∨ (eraDatDrift.getD i (0, 0)).1 = 39126) ∧
    0 ≤ (eraDatDrift.getD i (0, 0)).2 ∧ (eraDatDrift.getD i (0, 0)).2 ≤ 0.002592 ∧ 0 ≤ (eraDatChanges.getD i (0, 0, 0)).2.2 ∧ (eraDatChanges.getD i (0, 0, 0)).2.2 ≤ 5 := by decide +kernel

theorem datChanges_facts : ∀ i < 42, 14 ≤ i → (eraDatChanges.getD i (0, 0, 0)).2.2 = (i - 4 : ℤ) := by decide +kernel

/-- The leap-second table in double precision. -/
theorem eraDat_err (R : Rounding fl) (t : Date) (hv : t.Valid) (hy : -4799 ≤ t.y) (f : ℚ) (hf : 0 ≤ f ∧ f < 1) (hd : fl (((eraMjdOf t.y t.m t.d : ℤ) : ℝ) + f) = (eraMjdOf t.y t.m t.d : ℤ) + f)
    (hi : ∀ n : ℤ, 37300 ≤ n → n ≤ 39126 → eraMjdOf t.y t.m t.d < 41317 → 36934 ≤ eraMjdOf t.y t.m t.d → fl (((eraMjdOf t.y t.m t.d : ℤ) : ℝ) + f - n) = (eraMjdOf t.y t.m t.d : ℤ) + f - n) :
    |flEraDat fl t.y t.m t.d f - eraDat t.y t.m t.d f| ≤ 5e-15 ∧ |((eraDat t.y t.m t.d f : ℚ) : ℝ)| ≤ 37 ∧ (41317 ≤ eraMjdOf t.y t.m t.d → flEraDat fl t.y t.m t.d f = eraDat t.y t.m t.d f) := by
  have h60 := month_le_iff t hv hy 1960 1 (by decide) (by decide)
  rw [show eraMjdOf 1960 1 1 = 36934 by decide +kernel] at h60
  have h72 := month_le_iff t hv hy 1972 1 (by decide) (by decide)
  rw [show eraMjdOf 1972 1 1 = 41317 by decide +kernel] at h72
  have hc := cldj_valid t hv hy 0
  unfold palCldj at hc
  have m1 := hv.m1
  have m2 := hv.m12
  have f0 : (0 : ℝ) ≤ f := by exact_mod_cast hf.1
  have f1 : (f : ℝ) < 1 := by exact_mod_cast hf.2
  generalize eraMjdOf t.y t.m t.d = j at *
  unfold flEraDat eraDat
  have g1 : ¬ ((f : ℝ) < 0 ∨ 1 < (f : ℝ)) := by rintro (h | h) <;> linarith
  have g2 : ¬ (f < 0 ∨ 1 < f) := by rintro (h | h) <;> linarith [hf.1, hf.2]
  dsimp only
  rw [hc]
  dsimp only
  simp only [if_neg g1, if_neg g2, if_neg (lt_irrefl (0 : ℤ))]
  by_cases y60 : t.y < 1960
  · simp only [if_pos y60]; norm_num
  simp only [if_neg y60]
  have j60 : 36934 ≤ j := h60.1 (by omega)
  cases hs : eraDatSearch (12 * t.y + t.m) eraDatChanges.length with
  | none => norm_num
  | some i =>
    obtain ⟨i42, last⟩ := datSearch_last _ _ _ hs
    have L : eraDatChanges.length = 42 := rfl
    have L' : eraDatDrift.length = 14 := rfl
    rw [L] at i42 last
    dsimp only
    rw [L']
    by_cases i14 : i < 14
    · simp only [if_pos i14]
      have l14 := last 14 i14 (by norm_num)
      have e14 : (12 : ℤ) * (eraDatChanges.getD 14 (0, 0, 0)).1 + (eraDatChanges.getD 14 (0, 0, 0)).2.1 = 12 * 1972 + 1 := by decide +kernel
      rw [e14] at l14
      have j72 : j < 41317 := by
        by_contra c
        have := h72.2 (not_lt.1 c)
        omega
      obtain ⟨a1, a2, a3, a4, a5⟩ := datDrift_facts i i14
      generalize (eraDatDrift.getD i (0, 0)) = D at *
      generalize (eraDatChanges.getD i (0, 0, 0)).2.2 = da at *
      obtain ⟨n, hn, n1, n2⟩ : ∃ n : ℤ, D.1 = n ∧ 37300 ≤ n ∧ n ≤ 39126 := by
        rcases a1 with h | h | h | h
        · exact ⟨37300, by rw [h]; norm_num, by norm_num, by norm_num⟩
        · exact ⟨37665, by rw [h]; norm_num, by norm_num, by norm_num⟩
        · exact ⟨38761, by rw [h]; norm_num, by norm_num, by norm_num⟩
        · exact ⟨39126, by rw [h]; norm_num, by norm_num, by norm_num⟩
      have hi' := hi n n1 n2 j72 j60
      rw [hn]
      push_cast
      rw [hd, R.int n (by rw [abs_le]; omega), hi']
      obtain ⟨v, ev⟩ : ∃ v : ℝ, v = (j : ℝ) + f - n := ⟨_, rfl⟩
      have vb : |v| ≤ 4017 := by
        have q1 : (j : ℝ) ≤ 41316 := by exact_mod_cast (by omega : j ≤ 41316)
        have q2 : (36934 : ℝ) ≤ j := by exact_mod_cast j60
        have q3 : (37300 : ℝ) ≤ n := by exact_mod_cast n1
        have q4 : (n : ℝ) ≤ 39126 := by exact_mod_cast n2
        rw [ev, abs_le]; constructor <;> linarith
      rw [← ev]
      have b2 : (0 : ℝ) ≤ D.2 := by exact_mod_cast a2
      have b3 : ((D.2 : ℚ) : ℝ) ≤ 0.002592 := by
        have : ((D.2 : ℚ) : ℝ) ≤ ((0.002592 : ℚ) : ℝ) := by exact_mod_cast a3
        norm_num at this ⊢; exact this
      have b4 : (0 : ℝ) ≤ da := by exact_mod_cast a4
      have b5 : (da : ℝ) ≤ 5 := by exact_mod_cast a5
      generalize ((D.2 : ℚ) : ℝ) = r at *
      generalize ((da : ℚ) : ℝ) = a at *
      have z : (1 : ℝ) / 10 ^ 200 ≤ 1e-30 := by norm_num
      have ra : |r| ≤ 0.002592 := by rw [abs_of_nonneg b2]; exact b3
      have aa : |a| ≤ 5 := by rw [abs_of_nonneg b4]; exact b5
      have e1 := R.err (x := r) (by norm_num at *; linarith)
      have e2 := R.err (x := a) (by norm_num at *; linarith)
      have p0 : |v * r| ≤ 10.5 := by
        rw [abs_mul]
        exact (mul_le_mul vb ra (abs_nonneg _) (by norm_num)).trans (by norm_num)
      have d1 : |fl r - r| ≤ 2.9e-19 := by
        refine e1.trans ?_
        generalize (1 : ℝ) / 10 ^ 200 = tt at *
        norm_num at *; linarith
      have p1 : |v * fl r - v * r| ≤ 1.17e-15 := by
        rw [← mul_sub, abs_mul]
        exact (mul_le_mul vb d1 (abs_nonneg _) (by norm_num)).trans (by norm_num)
      have p2 : |v * fl r| ≤ 10.6 := by
        have := abs_sub_abs_le_abs_sub (v * fl r) (v * r)
        norm_num at *; linarith
      have e3 := R.err (x := v * fl r) (by norm_num at *; linarith)
      have p3 : |fl (v * fl r) - v * r| ≤ 2.4e-15 := by
        have := abs_sub_le (fl (v * fl r)) (v * fl r) (v * r)
        generalize (1 : ℝ) / 10 ^ 200 = tt at *
        norm_num at *; linarith
      have p4 : |fl a - a| ≤ 5.6e-16 := by
        refine e2.trans ?_
        generalize (1 : ℝ) / 10 ^ 200 = tt at *
        norm_num at *; linarith
      have p5 : |fl a + fl (v * fl r) - (a + v * r)| ≤ 2.96e-15 := by
        have e : fl a + fl (v * fl r) - (a + v * r) = (fl a - a) + (fl (v * fl r) - v * r) := by ring
        rw [e]
        refine (abs_add_le _ _).trans ?_
        norm_num at *; linarith
      have p6 : |a + v * r| ≤ 15.5 := (abs_add_le _ _).trans (by norm_num at *; linarith)
      have p7 : |fl a + fl (v * fl r)| ≤ 15.6 := by
        have := abs_sub_abs_le_abs_sub (fl a + fl (v * fl r)) (a + v * r)
        norm_num at *; linarith
      have e4 := R.err (x := fl a + fl (v * fl r)) (by norm_num at *; linarith)
      refine ⟨?_, by norm_num at *; linarith, fun h => absurd h (not_le.2 j72)⟩
      have := abs_sub_le (fl (fl a + fl (v * fl r))) (fl a + fl (v * fl r)) (a + v * r)
      generalize (1 : ℝ) / 10 ^ 200 = tt at *
      norm_num at *; linarith
    · simp only [if_neg i14]
      rw [datChanges_facts i i42 (not_lt.1 i14)]
      have e : fl ((((i : ℤ) - 4 : ℤ) : ℚ) : ℝ) = ((((i : ℤ) - 4 : ℤ) : ℚ) : ℝ) := by
        have := R.int ((i : ℤ) - 4) (by rw [abs_le]; omega)
        exact_mod_cast this
      rw [e]
      refine ⟨by norm_num, ?_, fun _ => rfl⟩
      have : |(i : ℤ) - 4| ≤ 37 := by rw [abs_le]; omega
      exact_mod_cast this

/-- C154 (time scales) For the same dates, palDat in double precision is TAI-UTC as published to 5e-15 s, and exactly from 1972 on; palDtt is TT-UTC, 32.184 s more, to 1.8e-14 s. -/
theorem C154_dat (R : Rounding fl) (x : ℚ) (dx : IsDouble fl x) (xd : 1 ≤ |x|) (x1 : -2468569 ≤ x) (x2 : x ≤ 997599999) :
    ∃ v w, flDat fl x = some v ∧ |v - (taiUtc x : ℚ)| ≤ 5e-15 ∧ (41317 ≤ x → v = (taiUtc x : ℚ)) ∧ flDtt fl x = some w ∧ |w - ((taiUtc x : ℚ) + 32.184)| ≤ 1.8e-14 := by
  obtain ⟨k, hk1, hk, m, hm, hx⟩ := double_grid R x dx xd x1 x2
  obtain ⟨c, h0, h1, hv, hf0, hf1, h2⟩ := flDjcl_eq R k hk1 hk m hm x hx x1 x2
  have hT := (C105_dat x (by linarith) (by norm_num at *; linarith)).1
  unfold palDatErfa palDat at hT
  unfold palDjcl at h0
  rw [h0] at hT
  dsimp only at hT
  rw [if_pos rfl] at hT
  have hT' := Option.some.inj hT
  have K0 : (0 : ℝ) < 2 ^ k := by positivity
  have K0' : (0 : ℤ) < 2 ^ k := by positivity
  have hx' : (x : ℝ) = (m : ℝ) / 2 ^ k := by rw [hx]; push_cast; rfl
  have key : |flEraDat fl c.iy c.im c.id c.fd - eraDat c.iy c.im c.id c.fd| ≤ 5e-15 ∧ |((eraDat c.iy c.im c.id c.fd : ℚ) : ℝ)| ≤ 37 ∧ (41317 ≤ x → flEraDat fl c.iy c.im c.id c.fd = eraDat c.iy c.im c.id c.fd) := by
    by_cases hy : -4799 ≤ c.iy
    · obtain ⟨n, hn1, hn2⟩ := h2 hy 0
      have hc := cldj_valid _ hv hy 0
      dsimp only at hc
      rw [hc] at hn1
      have he : ((eraMjdOf c.iy c.im c.id : ℤ) : ℚ) = n := (Prod.mk.inj hn1).2
      rw [← he] at hn2
      have hn3 : ((eraMjdOf c.iy c.im c.id : ℤ) : ℝ) + c.fd = x := by exact_mod_cast hn2
      have := eraDat_err R ⟨c.iy, c.im, c.id⟩ hv hy c.fd ⟨hf0, hf1⟩ (by
        dsimp only
        rw [hn3, hx']
        exact fl_grid R hk m hm) (by
        intro N N1 N2 j1 j2
        dsimp only at *
        rw [hn3, hx']
        have e : (m : ℝ) / 2 ^ k - N = ((m - N * 2 ^ k : ℤ) : ℝ) / 2 ^ k := by push_cast; field_simp
        rw [e]
        refine fl_grid R hk _ ?_
        have mp : (0 : ℝ) < m := by
          have : (36934 : ℝ) ≤ (eraMjdOf c.iy c.im c.id : ℤ) := by exact_mod_cast j2
          have f0 : (0 : ℝ) ≤ c.fd := by exact_mod_cast hf0
          have : (0 : ℝ) < (m : ℝ) / 2 ^ k := by rw [← hx', ← hn3]; linarith
          exact (div_pos_iff_of_pos_right K0).1 this
        have mp' : 0 < m := by exact_mod_cast mp
        have NK : N * 2 ^ k ≤ 2 * m := by
          have : (36934 : ℝ) ≤ (eraMjdOf c.iy c.im c.id : ℤ) := by exact_mod_cast j2
          have f0 : (0 : ℝ) ≤ c.fd := by exact_mod_cast hf0
          have w : (36934 : ℝ) ≤ (m : ℝ) / 2 ^ k := by rw [← hx', ← hn3]; linarith
          rw [le_div_iff₀ K0] at w
          have N2' : (N : ℝ) ≤ 39126 := by exact_mod_cast N2
          have : (N : ℝ) * 2 ^ k ≤ 2 * m := by
            have := mul_le_mul_of_nonneg_right N2' K0.le
            linarith
          exact_mod_cast this
        have NK0 : 0 ≤ N * 2 ^ k := by positivity
        rw [abs_of_pos mp'] at hm
        rw [abs_le]; constructor <;> linarith)
      dsimp only at this
      refine ⟨this.1, this.2.1, fun h => this.2.2 ?_⟩
      have : (41317 : ℚ) < (eraMjdOf c.iy c.im c.id : ℤ) + 1 := by linarith
      have : (41317 : ℤ) < eraMjdOf c.iy c.im c.id + 1 := by exact_mod_cast this
      omega
    · have a : eraDat c.iy c.im c.id c.fd = 0 := eraDat_before _ _ _ _ (by omega)
      have b : flEraDat fl c.iy c.im c.id c.fd = 0 := by
        unfold flEraDat
        dsimp only
        split_ifs <;> first | rfl | omega
      rw [a, b]; norm_num
  rw [hT'] at key
  obtain ⟨k1, k2, k3⟩ := key
  have hD : flDat fl x = some (flEraDat fl c.iy c.im c.id c.fd) := by
    unfold flDjcl at h1
    unfold flDat
    rw [h1]; rfl
  refine ⟨_, _, hD, k1, k3, by unfold flDtt; rw [hD]; rfl, ?_⟩
  generalize flEraDat fl c.iy c.im c.id c.fd = v at *
  generalize ((taiUtc x : ℚ) : ℝ) = T at *
  have e1 := R.err (x := 32.184) (by norm_num)
  rw [abs_of_pos (by norm_num : (0 : ℝ) < 32.184)] at e1
  have z : (1 : ℝ) / 10 ^ 200 ≤ 1e-30 := by norm_num
  have d1 : |fl 32.184 - 32.184| ≤ 3.58e-15 := by
    refine e1.trans ?_
    generalize (1 : ℝ) / 10 ^ 200 = tt at *
    norm_num at *; linarith
  have d2 : |fl 32.184 + v - (T + 32.184)| ≤ 8.58e-15 := by
    have e : fl 32.184 + v - (T + 32.184) = (fl 32.184 - 32.184) + (v - T) := by ring
    rw [e]
    refine (abs_add_le _ _).trans ?_
    norm_num at *; linarith
  have d3 : |T + 32.184| ≤ 69.184 := (abs_add_le _ _).trans (by rw [abs_of_pos (by norm_num : (0 : ℝ) < 32.184)]; norm_num at *; linarith)
  have d4 : |fl 32.184 + v| ≤ 69.2 := by
    have := abs_sub_abs_le_abs_sub (fl 32.184 + v) (T + 32.184)
    norm_num at *; linarith
  have e2 := R.err (x := fl 32.184 + v) (by norm_num at *; linarith)
  have := abs_sub_le (fl (fl 32.184 + v)) (fl 32.184 + v) (T + 32.184)
  generalize (1 : ℝ) / 10 ^ 200 = tt at *
  norm_num at *; linarith

/-- With IEEE doubles: MJD 51603.25 is a quarter of 2000 February 29 (the date read back by palCldj is 51603), and TAI-UTC at MJD 57753.75 is 36 s. -/
example : (∃ (y mo d : ℤ) (f : ℚ), flDjcl ieee ((51603.25 : ℚ) : ℝ) = some (y, mo, d, (f : ℝ)) ∧ 0 ≤ f) ∧ (∃ v, flDat ieee ((57753.75 : ℚ) : ℝ) = some v ∧ v = 36) := by
  constructor
  · obtain ⟨y, mo, d, f, h1, _, h2, _⟩ := C154_djcl ieee_rounding 51603.25 (by have := ieee_keep 206413 (-2) (by norm_num) (by norm_num); unfold IsDouble; norm_num at this ⊢; exact this) (by rw [abs_of_pos] <;> norm_num) (by norm_num) (by norm_num)
    exact ⟨y, mo, d, f, h1, h2⟩
  · obtain ⟨v, _, h1, _, h2, _⟩ := C154_dat ieee_rounding 57753.75 (by have := ieee_keep 231015 (-2) (by norm_num) (by norm_num); unfold IsDouble; norm_num at this ⊢; exact this) (by rw [abs_of_pos] <;> norm_num) (by norm_num) (by norm_num)
    refine ⟨v, h1, ?_⟩
    rw [h2 (by norm_num), show taiUtc 57753.75 = 36 by decide +kernel]
    norm_num

end Pal.Props
