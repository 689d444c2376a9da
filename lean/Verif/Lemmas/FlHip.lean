import Verif.Model.FlHip
import Verif.Lemmas.FlPrec2
import Verif.Lemmas.FlMappa
import Verif.Props.FlRot
import Verif.Props.Hip

/-! # FK5 and Hipparcos in double precision: the rotations -/

namespace Pal
open Real Pal.Spec Pal.Props

variable {fl : ℝ → ℝ} {L : Libm}

/-- Rotation matrix of an axis and an angle. -/
noncomputable def rodr (u : Vec3) (p : ℝ) : Mat3 :=
  !![u 0 * u 0 * (1 - cos p) + cos p, u 0 * u 1 * (1 - cos p) + u 2 * sin p, u 0 * u 2 * (1 - cos p) - u 1 * sin p;
     u 1 * u 0 * (1 - cos p) - u 2 * sin p, u 1 * u 1 * (1 - cos p) + cos p, u 1 * u 2 * (1 - cos p) + u 0 * sin p;
     u 2 * u 0 * (1 - cos p) + u 1 * sin p, u 2 * u 1 * (1 - cos p) - u 0 * sin p, u 2 * u 2 * (1 - cos p) + cos p]

theorem rv2m_rodr {w u : Vec3} (h : w = fun i => len w * u i) : eraRv2m w = rodr u (len w) := by
  have e2 : len w = √(w 0 * w 0 + w 1 * w 1 + w 2 * w 2) := by rw [len_eq, dot_eq]
  unfold eraRv2m rodr
  rw [← e2]
  dsimp only
  by_cases h0 : len w > 0
  · have q : ∀ i, w i / len w = u i := fun i => by rw [div_eq_iff h0.ne', mul_comm]; exact congrFun h i
    simp only [if_pos h0, q]
  · have hz : len w = 0 := le_antisymm (not_lt.1 h0) (len_nonneg w)
    rw [hz]
    simp

/-- Rotation vectors that differ little give matrices that differ little. -/
theorem rv2m_close {w W : Vec3} {e : ℝ} (h : ∀ i, |w i - W i| ≤ e) (h1 : len W ≤ 1) (i j : Fin 3) : |eraRv2m w i j - eraRv2m W i j| ≤ 11 * e := by
  have unit : ∀ v : Vec3, ∃ u, dot u u = 1 ∧ v = fun i => len v * u i := fun v => by
    obtain ⟨u, a, b⟩ := polar_vec v; exact ⟨u, a, b⟩
  obtain ⟨u, u1, hu⟩ := unit w
  obtain ⟨U, U1, hU⟩ := unit W
  rw [rv2m_rodr hu, rv2m_rodr hU]
  have e0 := (abs_nonneg _).trans (h 0)
  have hd := len_le_of_comp h
  have hd' : len (fun i => W i - w i) ≤ 1.7321 * e := by
    have : len (fun i => W i - w i) = len (fun i => w i - W i) := by unfold len; congr 1; refine Finset.sum_congr rfl fun i _ => by ring
    rw [this]; exact hd
  have nc := norm_close (len_nonneg W) (len_nonneg w) (len_one U1) (len_one u1) hU.symm hu.symm
  have hr := (len_rev_tri w W).trans hd
  have cu : ∀ i, len W * |u i - U i| ≤ 3.4642 * e := fun i => by
    have c := comp_le_len (fun i => U i - u i) i
    have : |u i - U i| ≤ len (fun i => U i - u i) := by rw [abs_sub_comm]; exact c
    have := mul_le_mul_of_nonneg_left this (len_nonneg W)
    linarith
  have b : ∀ i, |u i| ≤ 1 := fun i => by have := comp_le_len u i; rwa [len_one u1] at this
  have B : ∀ i, |U i| ≤ 1 := fun i => by have := comp_le_len U i; rwa [len_one U1] at this
  have n0 := len_nonneg W
  clear nc hd hd' hu hU h
  generalize len w = p at *
  generalize len W = P at *
  have sl : |sin p - sin P| ≤ 1.7321 * e := by
    have := Real.lipschitzWith_sin.dist_le_mul p P
    simp [Real.dist_eq] at this; linarith
  have cl : |cos p - cos P| ≤ 1.7321 * e := by
    have := Real.lipschitzWith_cos.dist_le_mul p P
    simp [Real.dist_eq] at this; linarith
  have sP : |sin P| ≤ P := by have := Real.abs_sin_le_abs (x := P); rwa [abs_of_nonneg n0] at this
  have fP : |1 - cos P| ≤ P / 2 := by
    have := Real.one_sub_sq_div_two_le_cos (x := P)
    have := cos_le_one P
    rw [abs_of_nonneg (by linarith)]; nlinarith
  have S : ∀ k, |u k * sin p - U k * sin P| ≤ 5.2 * e := fun k => by
    rw [show u k * sin p - U k * sin P = u k * (sin p - sin P) + (u k - U k) * sin P by ring]
    refine (abs_add_le _ _).trans ?_
    rw [abs_mul, abs_mul]
    have h1 : |u k| * |sin p - sin P| ≤ 1 * (1.7321 * e) := mul_le_mul (b k) sl (abs_nonneg _) (by norm_num)
    have h2 : |u k - U k| * |sin P| ≤ |u k - U k| * P := mul_le_mul_of_nonneg_left sP (abs_nonneg _)
    have := cu k
    norm_num at *; linarith
  have Q : ∀ k l, |u k * u l * (1 - cos p) - U k * U l * (1 - cos P)| ≤ 5.2 * e := fun k l => by
    rw [show u k * u l * (1 - cos p) - U k * U l * (1 - cos P) = u k * u l * -(cos p - cos P) + (u k * (u l - U l) * (1 - cos P) + U l * (u k - U k) * (1 - cos P)) by ring]
    have h1 : |u k * u l * -(cos p - cos P)| ≤ 1.7321 * e := by
      rw [abs_mul, abs_neg, abs_mul]
      have : |u k| * |u l| ≤ 1 := mul_le_one₀ (b k) (abs_nonneg _) (b l)
      calc |u k| * |u l| * |cos p - cos P| ≤ 1 * (1.7321 * e) := mul_le_mul this cl (abs_nonneg _) (by norm_num)
        _ = _ := one_mul _
    have g : ∀ x y Y : ℝ, |x| ≤ 1 → P * |y - Y| ≤ 3.4642 * e → |x * (y - Y) * (1 - cos P)| ≤ 1.7321 * e := fun x y Y hx hy => by
      rw [abs_mul, abs_mul]
      have h2 : |x| * |y - Y| ≤ |y - Y| := mul_le_of_le_one_left (abs_nonneg _) hx
      have h3 : |x| * |y - Y| * |1 - cos P| ≤ |y - Y| * (P / 2) := mul_le_mul h2 fP (abs_nonneg _) (abs_nonneg _)
      norm_num at *; linarith
    have h2 := g (u k) (u l) (U l) (b k) (cu l)
    have h3 := g (U l) (u k) (U k) (B l) (cu k)
    refine (abs_add_le _ _).trans ?_
    have := abs_add_le (u k * (u l - U l) * (1 - cos P)) (U l * (u k - U k) * (1 - cos P))
    norm_num at *; linarith
  have comb : ∀ {x X y Y : ℝ}, |x - X| ≤ 5.2 * e → |y - Y| ≤ 5.2 * e → |(x + y) - (X + Y)| ≤ 11 * e := fun {x X y Y} h1 h2 => by
    rw [show (x + y) - (X + Y) = (x - X) + (y - Y) by ring]
    have := abs_add_le (x - X) (y - Y)
    norm_num at *; linarith
  have combm : ∀ {x X y Y : ℝ}, |x - X| ≤ 5.2 * e → |y - Y| ≤ 5.2 * e → |(x - y) - (X - Y)| ≤ 11 * e := fun {x X y Y} h1 h2 => by
    rw [show (x - y) - (X - Y) = (x - X) + -(y - Y) by ring]
    have := abs_add_le (x - X) (-(y - Y))
    rw [abs_neg] at this
    norm_num at *; linarith
  have cl' : |cos p - cos P| ≤ 5.2 * e := by norm_num at *; linarith
  unfold rodr
  fin_cases i <;> fin_cases j
  · exact comb (Q 0 0) cl'
  · exact comb (Q 0 1) (S 2)
  · exact combm (Q 0 2) (S 1)
  · exact combm (Q 1 0) (S 2)
  · exact comb (Q 1 1) cl'
  · exact comb (Q 1 2) (S 0)
  · exact comb (Q 2 0) (S 1)
  · exact combm (Q 2 1) (S 0)
  · exact comb (Q 2 2) cl'

/-- The computed matrix of a rotation vector that is itself slightly wrong. -/
theorem flRv2m_small (R : Rounding fl) (hL : LibmOK L) {w W : Vec3} (h : ∀ i, |w i - W i| ≤ 1e-20) (hw : len w = 0 ∨ 1 / 10 ^ 29 ≤ len w) (hW : len W ≤ 1e-3) :
    Small (flRv2m fl L w - eraRv2m W) 1.71e-14 := by
  have hr := abs_le.1 ((len_rev_tri w W).trans (len_le_of_comp h))
  have l : len w ≤ 2e-3 := by norm_num at *; linarith
  have a := C107_av2m R hL w (hw.imp id fun h => ⟨h, l.trans (by norm_num)⟩)
  refine (small_of_entries (η := 5.7e-15) fun i j => ?_).mono (by norm_num)
  have c := rv2m_close h (hW.trans (by norm_num)) i j
  have := abs_sub_le (flRv2m fl L w i j) (eraRv2m w i j) (eraRv2m W i j)
  have := a i j
  unfold palDav2m at this
  rw [Matrix.sub_apply]
  norm_num at *; linarith

/-- The constants. -/
theorem flHip_cst (R : Rounding fl) (c M : ℝ) (hc : |c| ≤ M) (h0 : 1e-4 ≤ M) (h1 : M ≤ 0.1) : |fl (fl c * flDAS2R fl) - c * das2r| ≤ 2.1e-21 * M := by
  have d := flDAS2R_err R
  have db := das2r_bd
  have k := R.cst c hc (by norm_num at *; linarith) (by norm_num at *; linarith)
  refine R.mulB _ k d hc db ?_ ?_
  · norm_num at *; nlinarith
  · norm_num at *; nlinarith

theorem flHipEp_err (R : Rounding fl) (i : Fin 3) : |flHipEp fl i - fk5hipEp i| ≤ 1e-22 := by
  have o : ∀ c : ℝ, -fl c = fl (-c) := fun c => (R.odd c).symm
  unfold flHipEp fk5hipEp
  fin_cases i
  · show |fl (-fl 19.9e-3 * flDAS2R fl) - -19.9e-3 * das2r| ≤ _
    rw [o]; exact (flHip_cst R _ 0.02 (by norm_num [abs_le]) (by norm_num) (by norm_num)).trans (by norm_num)
  · show |fl (-fl 9.1e-3 * flDAS2R fl) - -9.1e-3 * das2r| ≤ _
    rw [o]; exact (flHip_cst R _ 0.01 (by norm_num [abs_le]) (by norm_num) (by norm_num)).trans (by norm_num)
  · exact (flHip_cst R _ 0.023 (by norm_num [abs_le]) (by norm_num) (by norm_num)).trans (by norm_num)

theorem flHipOm_err (R : Rounding fl) (i : Fin 3) : |flHipOm fl i - fk5hipOm i| ≤ 1.5e-24 := by
  have o : ∀ c : ℝ, -fl c = fl (-c) := fun c => (R.odd c).symm
  unfold flHipOm fk5hipOm
  fin_cases i
  · show |fl (-fl 0.30e-3 * flDAS2R fl) - -0.30e-3 * das2r| ≤ _
    rw [o]; exact (flHip_cst R _ 7e-4 (by norm_num [abs_le]) (by norm_num) (by norm_num)).trans (by norm_num)
  · exact (flHip_cst R _ 7e-4 (by norm_num [abs_le]) (by norm_num) (by norm_num)).trans (by norm_num)
  · exact (flHip_cst R _ 7e-4 (by norm_num [abs_le]) (by norm_num) (by norm_num)).trans (by norm_num)

theorem hipOm_bd (i : Fin 3) : |fk5hipOm i| ≤ 3.4e-9 := by
  have h := das2r_bounds
  have h0 : 0 < das2r := by have := h.1; linarith
  have h1 := h.2.1
  unfold fk5hipOm
  fin_cases i
  · show |-0.30e-3 * das2r| ≤ _
    rw [abs_mul, abs_of_pos h0]; norm_num at *; linarith
  · show |0.60e-3 * das2r| ≤ _
    rw [abs_mul, abs_of_pos h0]; norm_num at *; linarith
  · show |0.70e-3 * das2r| ≤ _
    rw [abs_mul, abs_of_pos h0]; norm_num at *; linarith

theorem hipOm_len : len fk5hipOm ≤ 4.8e-9 := by
  have h := das2r_bounds
  have h0 : 0 < das2r := by have := h.1; linarith
  have h1 := h.2.1
  refine Real.sqrt_le_iff.2 ⟨by norm_num, ?_⟩
  rw [Fin.sum_univ_three]
  simp only [fk5hipOm, Matrix.cons_val_zero, Matrix.cons_val_one, Matrix.cons_val]
  rw [show (-0.30e-3 * das2r) ^ 2 + (0.60e-3 * das2r) ^ 2 + (0.70e-3 * das2r) ^ 2 = 9.4e-7 * (das2r * das2r) by ring]
  have : das2r * das2r ≤ 4.85e-6 * 4.85e-6 := mul_le_mul h1 h1 h0.le (by norm_num)
  norm_num at *; linarith

/-- Doubles of the size of a date are multiples of 2^-38. -/
theorem days_grid (R : Rounding fl) (y : ℝ) (hy : |y| ≤ 10 ^ 20) (h : |fl y - 51544.5| < 1) : ∃ k : ℤ, fl y - 51544.5 = k * (1 / 2 ^ 38) := by
  obtain ⟨m, e, hm, he, hx⟩ := R.rep y (big_le (hy.trans (by norm_num)))
  have h2 : (2 : ℝ) ^ 15 ≤ fl y := by have := (abs_lt.1 h).1; norm_num at *; linarith
  have hmr : |(m : ℝ)| ≤ 2 ^ 53 := by exact_mod_cast hm
  have he38 : -38 ≤ e := by
    by_contra hc
    push Not at hc
    have h3 : (2 : ℝ) ^ e ≤ 2 ^ (-39 : ℤ) := zpow_le_zpow_right₀ (by norm_num) (by omega)
    have h4 : fl y ≤ 2 ^ 53 * 2 ^ (-39 : ℤ) := by
      rw [hx]
      exact (mul_le_mul_of_nonneg_right (le_abs_self _) (by positivity)).trans (mul_le_mul hmr h3 (by positivity) (by positivity))
    norm_num at *; linarith
  obtain ⟨n, hn⟩ := Int.eq_ofNat_of_zero_le (by omega : 0 ≤ e + 38)
  refine ⟨m * 2 ^ n - 103089 * 2 ^ 37, ?_⟩
  have : (2 : ℝ) ^ e = 2 ^ n * (1 / 2 ^ 38) := by
    rw [show e = (n : ℤ) + (-38) by omega, zpow_add₀ (by norm_num), zpow_natCast]
    norm_num [zpow_neg]
  rw [hx, this]
  push_cast
  norm_num
  ring

/-- The time in years. -/
theorem flHipDays_err (R : Rounding fl) (epoch : ℝ) (h : |epoch - 2000| ≤ 1000) :
    |flHipDays fl epoch - (epoch - 2000) * 365.25| ≤ 1.8e-10 ∧ (flHipDays fl epoch = 0 ∨ 3.6e-12 ≤ |flHipDays fl epoch|) := by
  have a1 : |fl (epoch - 2000) - (epoch - 2000)| ≤ 1.12e-13 := R.add_err2 _ (δ := 0) (by simp) h (by norm_num) (by norm_num)
  have a2 := R.mulB 8.3e-11 a1 (noerr 365.25) h (by norm_num : |(365.25 : ℝ)| ≤ 365.25) (by norm_num) (by norm_num)
  have b2 : |(epoch - 2000) * 365.25| ≤ 365250 := by rw [abs_mul, abs_of_pos (by norm_num : (0 : ℝ) < 365.25)]; norm_num at *; linarith
  have a3 := R.addB 1.31e-10 (noerr 51544.5) a2 (by norm_num : |(51544.5 : ℝ)| ≤ 51544.5) b2 (by norm_num) (by norm_num)
  have k : fl (2400000.5 - 2451545) = -51544.5 := by
    have := R.keep (-103089) (-1) (by norm_num) (by norm_num) (le_trans (by norm_num : _ ≤ (2 : ℝ) ^ 20) (pow_le_pow_right₀ (by norm_num) (by norm_num)))
    norm_num at this ⊢; linarith
  have yb : |51544.5 + fl (fl (epoch - 2000) * 365.25)| ≤ 10 ^ 20 := by
    have t := abs_add_le (51544.5 : ℝ) (fl (fl (epoch - 2000) * 365.25))
    have t2 := abs_add_le (fl (fl (epoch - 2000) * 365.25) - (epoch - 2000) * 365.25) ((epoch - 2000) * 365.25)
    rw [sub_add_cancel] at t2
    norm_num at *; linarith
  have g := days_grid R _ yb
  unfold flHipDays flEpj2d
  rw [k]
  have dd : |-51544.5 + fl (51544.5 + fl (fl (epoch - 2000) * 365.25)) - (epoch - 2000) * 365.25| ≤ 1.31e-10 := by
    have := a3.1
    rwa [show fl (51544.5 + fl (fl (epoch - 2000) * 365.25)) - (51544.5 + (epoch - 2000) * 365.25) = -51544.5 + fl (51544.5 + fl (fl (epoch - 2000) * 365.25)) - (epoch - 2000) * 365.25 by ring] at this
  refine ⟨R.add_err2 _ dd b2 (by norm_num) (by norm_num), ?_⟩
  generalize fl (51544.5 + fl (fl (epoch - 2000) * 365.25)) = D at *
  have big : ∀ x : ℝ, |x| ≤ 10 ^ 6 → 3.63e-12 ≤ |x| → 3.6e-12 ≤ |fl x| := fun x hx h0 => by
    have r := R.err (hx.trans (by norm_num))
    have t := abs_sub_abs_le_abs_sub x (fl x)
    rw [abs_sub_comm] at t
    have : (1 : ℝ) / 10 ^ 200 ≤ 1e-30 := by norm_num
    generalize (1 : ℝ) / 10 ^ 200 = q at *
    norm_num at *; linarith
  have xb : |-51544.5 + D| ≤ 10 ^ 6 := by
    have t := abs_add_le (-51544.5 + D - (epoch - 2000) * 365.25) ((epoch - 2000) * 365.25)
    rw [sub_add_cancel] at t
    norm_num at *; linarith
  by_cases hb : |D - 51544.5| < 1
  · obtain ⟨n, hn⟩ := g hb
    by_cases hz : n = 0
    · left
      rw [show -51544.5 + D = D - 51544.5 by ring, hn, hz]
      simp [R.zero]
    · right
      refine big _ xb ?_
      rw [show -51544.5 + D = D - 51544.5 by ring, hn, abs_mul]
      have : (1 : ℝ) ≤ |(n : ℝ)| := by exact_mod_cast Int.one_le_abs hz
      norm_num at *; linarith
  · right
    refine big _ xb ?_
    rw [show -51544.5 + D = D - 51544.5 by ring]
    push Not at hb
    norm_num at *; linarith

/-- The accumulated spin. -/
theorem flHipSpin (R : Rounding fl) {d t T : ℝ} (hd : |d - T * 365.25| ≤ 1.8e-10) (hz : d = 0 ∨ 3.6e-12 ≤ |d|) (ht : t = fl (d / 365.25)) (hT : |T| ≤ 1000) :
    (∀ i, |fl (t * flHipOm fl i) - T * fk5hipOm i| ≤ 1e-20) ∧ (len (fun i => fl (t * flHipOm fl i)) = 0 ∨ 1 / 10 ^ 29 ≤ len (fun i => fl (t * flHipOm fl i))) ∧ len (fun i => T * fk5hipOm i) ≤ 1e-3 := by
  have e1 : |d / 365.25 - T| ≤ 5e-13 := by
    rw [show d / 365.25 - T = (d - T * 365.25) / 365.25 by ring, abs_div, abs_of_pos (by norm_num : (0 : ℝ) < 365.25), div_le_iff₀ (by norm_num)]
    norm_num at *; linarith
  have e2 : |t - T| ≤ 7e-13 := by rw [ht]; exact R.add_err2 _ e1 hT (by norm_num) (by norm_num)
  refine ⟨fun i => R.mulB _ e2 (flHipOm_err R i) hT (hipOm_bd i) (by norm_num) (by norm_num), ?_, ?_⟩
  · rcases hz with hz | hz
    · left
      rw [ht, hz]
      have : (fun i : Fin 3 => fl (fl (0 / 365.25) * flHipOm fl i)) = fun _ => 0 := by funext i; simp [R.zero]
      rw [this]; unfold len; simp
    · right
      refine le_trans ?_ (comp_le_len (fun i => fl (t * flHipOm fl i)) 2)
      have t0 : 9e-15 ≤ |t| := by
        have q : |d / 365.25| ≤ 10 ^ 30 := by
          have t' := abs_add_le (d / 365.25 - T) T
          rw [sub_add_cancel] at t'
          norm_num at *; linarith
        have r := R.err q
        have s := abs_sub_abs_le_abs_sub (d / 365.25) (fl (d / 365.25))
        rw [abs_sub_comm] at s
        have : 3.6e-12 / 365.25 ≤ |d / 365.25| := by
          rw [abs_div, abs_of_pos (by norm_num : (0 : ℝ) < 365.25)]
          exact div_le_div_of_nonneg_right hz (by norm_num)
        have : (1 : ℝ) / 10 ^ 200 ≤ 1e-30 := by norm_num
        rw [ht]
        generalize (1 : ℝ) / 10 ^ 200 = q at *
        norm_num at *; linarith
      have o0 : 3e-9 ≤ |flHipOm fl 2| := by
        have h1 := flHipOm_err R 2
        have h2 := das2r_bounds.1
        have h3 : 3.3e-9 ≤ fk5hipOm 2 := by
          show (3.3e-9 : ℝ) ≤ 0.70e-3 * das2r
          norm_num at *; linarith
        have := (abs_le.1 h1).1
        refine le_trans ?_ (le_abs_self _)
        norm_num at *; linarith
      have p0 : 2.7e-23 ≤ |t * flHipOm fl 2| := by
        rw [abs_mul]
        calc (2.7e-23 : ℝ) = 9e-15 * 3e-9 := by norm_num
          _ ≤ _ := mul_le_mul t0 o0 (by norm_num) (abs_nonneg _)
      have pb : |t * flHipOm fl 2| ≤ 10 ^ 30 := by
        have t1 := abs_add_le (t - T) T
        rw [sub_add_cancel] at t1
        have t2 := abs_add_le (flHipOm fl 2 - fk5hipOm 2) (fk5hipOm 2)
        rw [sub_add_cancel] at t2
        have := flHipOm_err R 2
        have := hipOm_bd 2
        rw [abs_mul]
        have a1 : |t| ≤ 2000 := by norm_num at *; linarith
        have a2 : |flHipOm fl 2| ≤ 1 := by norm_num at *; linarith
        calc |t| * |flHipOm fl 2| ≤ 2000 * 1 := mul_le_mul a1 a2 (abs_nonneg _) (by norm_num)
          _ ≤ _ := by norm_num
      have r := R.err pb
      have s := abs_sub_abs_le_abs_sub (t * flHipOm fl 2) (fl (t * flHipOm fl 2))
      rw [abs_sub_comm] at s
      have : (1 : ℝ) / 10 ^ 200 ≤ 1e-30 := by norm_num
      have : (1 : ℝ) / 10 ^ 29 ≤ 1e-29 := by norm_num
      refine this.trans ?_
      generalize (1 : ℝ) / 10 ^ 200 = q at *
      generalize |fl (t * flHipOm fl 2)| = z at *
      norm_num at *; linarith
  · rw [len_smul]
    have := hipOm_len
    calc |T| * len fk5hipOm ≤ 1000 * 4.8e-9 := mul_le_mul hT this (len_nonneg _) (by norm_num)
      _ ≤ _ := by norm_num

/-- The two matrices. -/
theorem flHip_r5h (R : Rounding fl) (hL : LibmOK L) : Small (flRv2m fl L (flHipEp fl) - eraRv2m fk5hipEp) 1.71e-14 := by
  have h := das2r_bounds
  have h0 : 0 < das2r := by have := h.1; linarith
  have h1 := h.2.1
  refine flRv2m_small R hL (fun i => (flHipEp_err R i).trans (by norm_num)) (Or.inr ?_) ?_
  · refine le_trans ?_ (comp_le_len _ 2)
    have h3 : 1e-7 ≤ fk5hipEp 2 := by
      show (1e-7 : ℝ) ≤ 22.9e-3 * das2r
      have := h.1
      norm_num at *; linarith
    have := (abs_le.1 (flHipEp_err R 2)).1
    refine le_trans ?_ (le_abs_self _)
    norm_num at *; linarith
  · refine Real.sqrt_le_iff.2 ⟨by norm_num, ?_⟩
    rw [Fin.sum_univ_three]
    simp only [fk5hipEp, Matrix.cons_val_zero, Matrix.cons_val_one, Matrix.cons_val]
    have : das2r * das2r ≤ 4.85e-6 * 4.85e-6 := mul_le_mul h1 h1 h0.le (by norm_num)
    norm_num at *; nlinarith

end Pal
