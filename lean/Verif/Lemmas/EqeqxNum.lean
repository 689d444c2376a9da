import Verif.Lemmas.Eqeqx
import Verif.Lemmas.Prec06Num

/-! Numerical bounds for the equation of the origins. -/

namespace Pal
open Real Spec Matrix Props

theorem mul_abs_le {a b A B : ℝ} (ha : |a| ≤ A) (hb : |b| ≤ B) : |a * b| ≤ A * B := by
  rw [abs_mul]; exact mul_le_mul ha hb (abs_nonneg _) ((abs_nonneg _).trans ha)

theorem one_sub_cos_abs (x : ℝ) {d : ℝ} (h : |x| ≤ d) : |1 - cos x| ≤ d ^ 2 / 2 := by
  have h1 := one_sub_sq_div_two_le_cos (x := x)
  have h2 := cos_le_one x
  have h3 : x ^ 2 ≤ d ^ 2 := sq_le_sq' (by linarith [(abs_le.1 h).1]) (abs_le.1 h).2
  rw [abs_le]; constructor <;> nlinarith [sq_nonneg d]

theorem sin_sub_self_abs (x : ℝ) {d : ℝ} (h : |x| ≤ d) (hd : d ≤ 1) : |sin x - x| ≤ d ^ 3 / 6 + d ^ 5 / 100 := by
  have h1 := sin_bound (h.trans hd)
  have h2 : |x ^ 3| ≤ d ^ 3 := by rw [abs_pow]; exact pow_le_pow_left₀ (abs_nonneg _) h 3
  have h3 : |x| ^ 5 ≤ d ^ 5 := pow_le_pow_left₀ (abs_nonneg _) h 5
  have : sin x - x = (sin x - (x - x ^ 3 / 6)) - x ^ 3 / 6 := by ring
  rw [this]
  refine (abs_sub _ _).trans ?_
  rw [abs_div, abs_of_pos (by norm_num : (0 : ℝ) < 6)]
  linarith

theorem sin_sub_sin_abs (x y : ℝ) : |sin x - sin y| ≤ |x - y| := by
  have := abs_sin_sub_sin_le x y
  exact this

theorem eors_arctan_part {f p e e0 : ℝ} (hp : |p| ≤ 0.02454) (he : |e - e0| ≤ 2.82e-4) (hf : |f - e0| ≤ 2.28e-4) (hef : |e - f| ≤ 5.4e-5)
    (hC : |cos e0 - 0.917482| ≤ 1e-6) (hS : |sin e0 - 0.397777| ≤ 1e-6) :
    0 < fwW p ((e - f) / 2) ∧
    |arctan (fwZ p ((e + f) / 2) / fwW p ((e - f) / 2))| ≤ 0.012 ∧
    |2 * arctan (fwZ p ((e + f) / 2) / fwW p ((e - f) / 2)) -
      (p * (cos e0 + sin e0 * (e0 - (e + f) / 2)) + cos e0 * sin e0 ^ 2 * p ^ 3 / 12)| ≤ 1.2e-9 := by
  have hpi := pi_gt_three
  have hsc := sin_sq_add_cos_sq e0
  obtain ⟨C, hCe⟩ : ∃ C, C = cos e0 := ⟨_, rfl⟩
  obtain ⟨S, hSe⟩ : ∃ S, S = sin e0 := ⟨_, rfl⟩
  obtain ⟨d, hd⟩ : ∃ d, d = e0 - (e + f) / 2 := ⟨_, rfl⟩
  obtain ⟨b, hb⟩ : ∃ b, b = (e - f) / 2 := ⟨_, rfl⟩
  have hdb : |d| ≤ 2.55e-4 := by
    have e1 : d = -((e - e0) + (f - e0)) / 2 := by rw [hd]; ring
    rw [e1]
    rw [abs_le] at he hf ⊢
    constructor <;> norm_num at * <;> linarith
  have hbb : |b| ≤ 2.7e-5 := by
    rw [hb]
    rw [abs_le] at hef ⊢
    constructor <;> norm_num at * <;> linarith
  have hca : cos ((e + f) / 2) = C * cos d + S * sin d := by
    have : (e + f) / 2 = e0 - d := by rw [hd]; ring
    rw [this, cos_sub, hCe, hSe]
  rw [← hCe] at hC hsc ⊢
  rw [← hSe] at hS hsc ⊢
  rw [← hd]
  unfold fwW fwZ
  rw [hca, ← hb]
  have c1 := one_sub_cos_abs d hdb
  have c2 := sin_sub_self_abs d hdb (by norm_num)
  have c3 := one_sub_cos_abs b hbb
  have hch : 0 < cos (p / 2) := by
    refine cos_pos_of_mem_Ioo ⟨?_, ?_⟩ <;> have := abs_le.1 hp <;> norm_num at this ⊢ <;> linarith [this.1, this.2]
  obtain ⟨cb, hcb⟩ : ∃ cb, cb = cos b := ⟨_, rfl⟩
  obtain ⟨ca, hcae⟩ : ∃ ca, ca = C * cos d + S * sin d := ⟨_, rfl⟩
  rw [← hcb] at c3 ⊢
  rw [← hcae]
  have k1 : |ca - (C + S * d)| ≤ 3.0e-8 := by
    have : ca - (C + S * d) = S * (sin d - d) - C * (1 - cos d) := by rw [hcae]; ring
    rw [this]
    refine (abs_sub _ _).trans ?_
    have q1 := mul_abs_le (a := S) (A := 0.4) (by rw [abs_le] at hS ⊢; constructor <;> norm_num at * <;> linarith) c2
    have q2 := mul_abs_le (a := C) (A := 0.9176) (by rw [abs_le] at hC ⊢; constructor <;> norm_num at * <;> linarith) c1
    refine (add_le_add q1 q2).trans ?_
    norm_num
  have k2 : |S * d| ≤ 1.02e-4 := by
    refine (mul_abs_le (a := S) (A := 0.3978) (by rw [abs_le] at hS ⊢; constructor <;> norm_num at * <;> linarith) hdb).trans (by norm_num)
  have hcb1 : 0.99 ≤ cb := by have := (abs_le.1 c3).2; norm_num at *; linarith
  have hcb0 : 0 < cb := by linarith
  have hcab : |ca| ≤ 0.93 := by
    rw [abs_le] at k1 k2 hC ⊢
    constructor <;> norm_num at * <;> linarith
  obtain ⟨k, hk⟩ : ∃ k, k = ca / cb := ⟨_, rfl⟩
  have k3 : |k - ca| ≤ 5e-10 := by
    have : k - ca = ca * (1 - cb) / cb := by rw [hk]; field_simp
    rw [this, abs_div, abs_of_pos hcb0, div_le_iff₀ hcb0]
    refine (mul_abs_le hcab c3).trans ?_
    norm_num at *
    linarith
  have k4 : |k - (C + S * d)| ≤ 3.1e-8 := by
    rw [abs_le] at k1 k3 ⊢
    constructor <;> norm_num at * <;> linarith
  have k5 : |k - C| ≤ 1.0205e-4 := by
    rw [abs_le] at k4 k2 ⊢
    constructor <;> norm_num at * <;> linarith
  have kr : 0.917 ≤ k ∧ k ≤ 0.918 := by
    rw [abs_le] at k5 hC
    constructor <;> norm_num at * <;> linarith
  have hZW : sin (p / 2) * ca / (cos (p / 2) * cb) = k * tan (p / 2) := by
    rw [hk, tan_eq_sin_div_cos]
    field_simp
  rw [hZW]
  have t1 := arctan_tan_third' (k := k) (h := p / 2) (by norm_num at *; linarith [kr.1]) (by norm_num at *; linarith [kr.2])
    (by rw [abs_div, abs_of_pos (by norm_num : (0 : ℝ) < 2)]; norm_num at *; linarith)
  have hp3 : |p ^ 3| ≤ 1.478e-5 := by
    rw [abs_pow]
    refine (pow_le_pow_left₀ (abs_nonneg _) hp 3).trans (by norm_num)
  have u1 : |p * (k - (C + S * d))| ≤ 7.7e-10 := (mul_abs_le hp k4).trans (by norm_num)
  have u2 : |(k * (1 - k ^ 2) - C * S ^ 2) * p ^ 3| ≤ 2.5e-9 := by
    have e1 : k * (1 - k ^ 2) - C * S ^ 2 = (k - C) * (1 - k ^ 2 - k * C - C ^ 2) := by
      have : S ^ 2 = 1 - C ^ 2 := by linarith
      rw [this]; ring
    have e2 : |1 - k ^ 2 - k * C - C ^ 2| ≤ 1.6 := by
      have c0 : 0.917 ≤ C ∧ C ≤ 0.918 := by
        rw [abs_le] at hC
        constructor <;> norm_num at * <;> linarith
      have kr' := kr
      have b1 : k ^ 2 ≤ 0.918 ^ 2 := pow_le_pow_left₀ (le_trans (by norm_num) kr.1) kr.2 2
      have b2 : (0.917 : ℝ) ^ 2 ≤ k ^ 2 := pow_le_pow_left₀ (by norm_num) kr.1 2
      have b3 : C ^ 2 ≤ 0.918 ^ 2 := pow_le_pow_left₀ (le_trans (by norm_num) c0.1) c0.2 2
      have b4 : (0.917 : ℝ) ^ 2 ≤ C ^ 2 := pow_le_pow_left₀ (by norm_num) c0.1 2
      have b5 : k * C ≤ 0.918 * 0.918 := mul_le_mul kr.2 c0.2 (le_trans (by norm_num) c0.1) (by norm_num)
      have b6 : (0.917 : ℝ) * 0.917 ≤ k * C := mul_le_mul kr.1 c0.1 (by norm_num) (le_trans (by norm_num) kr.1)
      rw [abs_le]
      constructor <;> norm_num at b1 b2 b3 b4 b5 b6 ⊢ <;> linarith only [b1, b2, b3, b4, b5, b6]
    rw [e1]
    exact (mul_abs_le (mul_abs_le k5 e2) hp3).trans (by norm_num)
  obtain ⟨th, hth⟩ : ∃ th, th = arctan (k * tan (p / 2)) := ⟨_, rfl⟩
  rw [← hth] at t1 ⊢
  have e3 : k * (p / 2) + k * (1 - k ^ 2) / 3 * (p / 2) ^ 3 = k * p / 2 + k * (1 - k ^ 2) * p ^ 3 / 24 := by ring
  rw [e3] at t1
  refine ⟨by positivity, ?_, ?_⟩
  · have u3 : |k * p| ≤ 0.022528 := (mul_abs_le (A := 0.918) (by rw [abs_of_pos (by norm_num at *; linarith [kr.1])]; exact kr.2) hp).trans (by norm_num)
    have u4 : |k * (1 - k ^ 2) * p ^ 3| ≤ 0.2 * 1.478e-5 := by
      refine mul_abs_le ?_ hp3
      have b1 : k ^ 2 ≤ 0.918 ^ 2 := pow_le_pow_left₀ (le_trans (by norm_num) kr.1) kr.2 2
      have b2 : (0.917 : ℝ) ^ 2 ≤ k ^ 2 := pow_le_pow_left₀ (by norm_num) kr.1 2
      refine (mul_abs_le (A := 0.918) (B := 0.16) ?_ ?_).trans (by norm_num)
      · rw [abs_of_pos (lt_of_lt_of_le (by norm_num) kr.1)]; exact kr.2
      · rw [abs_le]; constructor <;> norm_num at b1 b2 ⊢ <;> linarith only [b1, b2]
    rw [abs_le] at u3 u4 t1 ⊢
    constructor <;> norm_num at * <;> linarith
  · rw [abs_le] at t1 u1 u2 ⊢
    constructor <;> norm_num at * <;> linarith

theorem eors_xy_part {g f p e e0 : ℝ} (hp : |p| ≤ 0.02454) (he : |e - e0| ≤ 2.82e-4) (hf : |f - e0| ≤ 2.28e-4) (hef : |e - f| ≤ 5.4e-5) (hg : |g| ≤ 5.4e-5)
    (hC : |cos e0 - 0.917482| ≤ 1e-6) (hS : |sin e0 - 0.397777| ≤ 1e-6) :
    |eraFw2m g f p e 2 0 * eraFw2m g f p e 2 1 - p * sin e0 * ((e - f) - p ^ 2 * sin e0 * cos e0 / 2)| ≤ 7.8e-9 := by
  obtain ⟨-, -, -, h20, h21⟩ := fw_elements g f p e
  rw [h20, h21]
  have s1 : |sin e - sin e0| ≤ 2.82e-4 := (abs_sin_sub_sin_le e e0).trans he
  have s2 : |cos f - cos e0| ≤ 2.28e-4 := (abs_cos_sub_cos_le f e0).trans hf
  have p2 : |p ^ 2| ≤ 6.0222e-4 := by
    rw [abs_pow]; exact (pow_le_pow_left₀ (abs_nonneg _) hp 2).trans (by norm_num)
  have a1 := sin_sub_self_abs p hp (by norm_num)
  have a2 := sin_sub_self_abs (e - f) hef (by norm_num)
  have a3 := cos_bound (x := p) (hp.trans (by norm_num))
  have a3' : |cos p - (1 - p ^ 2 / 2)| ≤ 1.9e-8 := by
    refine a3.trans ?_
    have := pow_le_pow_left₀ (abs_nonneg _) hp 4
    norm_num at *
    linarith
  have a4 : |sin g| ≤ 5.4e-5 := (abs_sin_le_abs (x := g)).trans hg
  have a5 : |cos g| ≤ 1 := abs_cos_le_one g
  have hsg := sin_sq_add_cos_sq g
  generalize sin g = sg at *
  generalize cos g = cg at *
  obtain ⟨C, hCe⟩ : ∃ C, C = cos e0 := ⟨_, rfl⟩
  obtain ⟨S, hSe⟩ : ∃ S, S = sin e0 := ⟨_, rfl⟩
  rw [← hCe] at hC s2 ⊢
  rw [← hSe] at hS s1 ⊢
  have hS' : |S| ≤ 0.3978 := by rw [abs_le] at hS ⊢; constructor <;> norm_num at * <;> linarith
  have hse : |sin e| ≤ 0.3981 := by rw [abs_le] at hS s1 ⊢; constructor <;> norm_num at * <;> linarith
  have hcf : |cos f| ≤ 0.918 := by rw [abs_le] at hC s2 ⊢; constructor <;> norm_num at * <;> linarith
  obtain ⟨X, hX⟩ : ∃ X, X = sin p * sin e := ⟨_, rfl⟩
  obtain ⟨Y, hY⟩ : ∃ Y, Y = sin (e - f) - (1 - cos p) * sin e * cos f := ⟨_, rfl⟩
  rw [← hX, ← hY]
  have x1 : |X - p * S| ≤ 8e-6 := by
    have : X - p * S = (sin p - p) * sin e + p * (sin e - S) := by rw [hX]; ring
    rw [this]
    refine (abs_add_le _ _).trans ?_
    refine (add_le_add (mul_abs_le a1 hse) (mul_abs_le hp s1)).trans (by norm_num)
  have x2 : |p * S| ≤ 0.009763 := (mul_abs_le hp hS').trans (by norm_num)
  have x3 : |X| ≤ 0.009771 := by rw [abs_le] at x1 x2 ⊢; constructor <;> norm_num at * <;> linarith
  have y1 : |sin e * cos f - S * C| ≤ 3.51e-4 := by
    have : sin e * cos f - S * C = (sin e - S) * cos f + S * (cos f - C) := by ring
    rw [this]
    exact (abs_add_le _ _).trans ((add_le_add (mul_abs_le s1 hcf) (mul_abs_le hS' s2)).trans (by norm_num))
  have y2 : |sin e * cos f| ≤ 0.3981 * 0.918 := mul_abs_le hse hcf
  have y3 : |Y - ((e - f) - p ^ 2 * S * C / 2)| ≤ 1.14e-7 := by
    have : Y - ((e - f) - p ^ 2 * S * C / 2) = (sin (e - f) - (e - f)) + ((cos p - (1 - p ^ 2 / 2)) * (sin e * cos f) - p ^ 2 * (sin e * cos f - S * C) / 2) := by rw [hY]; ring
    rw [this]
    have q1 := mul_abs_le a3' y2
    have q2 := mul_abs_le p2 y1
    rw [abs_le] at q1 q2 a2 ⊢
    constructor <;> norm_num at * <;> linarith
  have y4 : |p ^ 2 * S * C| ≤ 2.2e-4 := (mul_abs_le (mul_abs_le p2 hS') (B := 0.918) (by rw [abs_le] at hC ⊢; constructor <;> norm_num at * <;> linarith)).trans (by norm_num)
  have y5 : |Y| ≤ 1.65e-4 := by
    rw [abs_le] at y3 y4 hef ⊢
    constructor <;> norm_num at * <;> linarith
  have e1 : (X * cg - Y * sg) * (X * sg + Y * cg) - p * S * ((e - f) - p ^ 2 * S * C / 2) =
      (X * X - Y * Y) * (cg * sg) - 2 * (X * Y) * (sg * sg) + ((X - p * S) * Y + p * S * (Y - ((e - f) - p ^ 2 * S * C / 2))) := by
    linear_combination X * Y * hsg
  rw [e1]
  have z1 := mul_abs_le (mul_abs_le x3 x3) (mul_abs_le a5 a4)
  have z2 := mul_abs_le (mul_abs_le y5 y5) (mul_abs_le a5 a4)
  have z3 := mul_abs_le (mul_abs_le x3 y5) (mul_abs_le a4 a4)
  have z4 := mul_abs_le x1 y5
  have z5 := mul_abs_le x2 y3
  have e2 : (X * X - Y * Y) * (cg * sg) = X * X * (cg * sg) - Y * Y * (cg * sg) := by ring
  have e3 : 2 * (X * Y) * (sg * sg) = 2 * (X * Y * (sg * sg)) := by ring
  rw [e2, e3]
  rw [abs_le] at z1 z2 z3 z4 z5 ⊢
  constructor <;> norm_num at z1 z2 z3 z4 z5 ⊢ <;> linarith

theorem eors_third {g f p e e0 s : ℝ} (hp : |p| ≤ 0.02454) (he : |e - e0| ≤ 2.82e-4) (hf : |f - e0| ≤ 2.28e-4) (hef : |e - f| ≤ 5.4e-5) (hg : |g| ≤ 5.4e-5)
    (hC : |cos e0 - 0.917482| ≤ 1e-6) (hS : |sin e0 - 0.397777| ≤ 1e-6) :
    |(s - eraFw2m g f p e 2 0 * eraFw2m g f p e 2 1 / 2 - eraEors (eraFw2m g f p e) (s - eraFw2m g f p e 2 0 * eraFw2m g f p e 2 1 / 2)) +
      eraFw2m g f p e 2 0 * eraFw2m g f p e 2 1 / 2 -
      (p * (cos e0 + sin e0 * (e0 - f)) - cos e0 * sin e0 ^ 2 * p ^ 3 / 6 - g)| ≤ 5.1e-9 := by
  obtain ⟨hW, ha, hb⟩ := eors_arctan_part hp he hf hef hC hS
  have hx := eors_xy_part hp he hf hef hg hC hS
  have hpi := pi_gt_three
  rw [eors_fw g f p e _ hW]
  · generalize eraFw2m g f p e 2 0 * eraFw2m g f p e 2 1 = XY at *
    generalize arctan (fwZ p ((e + f) / 2) / fwW p ((e - f) / 2)) = th at *
    generalize cos e0 = C at *
    generalize sin e0 = S at *
    have e1 : (s - XY / 2 - (s - XY / 2 - (2 * th - g))) + XY / 2 - (p * (C + S * (e0 - f)) - C * S ^ 2 * p ^ 3 / 6 - g) =
      (2 * th - (p * (C + S * (e0 - (e + f) / 2)) + C * S ^ 2 * p ^ 3 / 12)) + (XY - p * S * ((e - f) - p ^ 2 * S * C / 2)) / 2 := by ring
    rw [e1]
    generalize 2 * th - (p * (C + S * (e0 - (e + f) / 2)) + C * S ^ 2 * p ^ 3 / 12) = u at *
    generalize XY - p * S * ((e - f) - p ^ 2 * S * C / 2) = v at *
    rw [abs_le] at hb hx ⊢
    constructor <;> norm_num at hb hx ⊢ <;> linarith [hb.1, hb.2, hx.1, hx.2]
  · rw [abs_le] at ha hg
    constructor <;> norm_num at ha hg ⊢ <;> linarith [ha.1, ha.2, hg.1, hg.2]

theorem poly_abs2 {a b c t : ℝ} (ht : |t| ≤ 1) : |a + (b + c * t) * t| ≤ |a| + |b| + |c| := by
  have := poly_abs (a := a) (b := b) (c := c) (d := 0) (e := 0) (f := 0) ht
  simpa using this

/-- The polynomial parts of the equation of the equinoxes cancel to half a milliarcsecond between 1900 and 2100. -/
theorem ee_poly {C S A t : ℝ} (ht : |t| ≤ 1) (hC : |C - 0.9174821430652| ≤ 1.1e-10) (hS : |S - 0.3977769691126| ≤ 1.1e-10) (hA : |A - 4.8481368110954e-6| ≤ 1e-17) :
    let G := -0.052928 + (10.556378 + (0.4932044 + (-0.00031238 + (-0.000002788 + 0.0000000260 * t) * t) * t) * t) * t
    let F := 84381.412819 + (-46.811016 + (0.0511268 + (0.00053289 + (-0.000000440 + (-0.0000000176) * t) * t) * t) * t) * t
    let Q := -0.041775 + (5038.481484 + (1.5584175 + (-0.00018522 + (-0.000026452 + (-0.0000000148) * t) * t) * t) * t) * t
    let P := 0.014506 + (4612.156534 + (1.3915817 + (-0.00000044 + (-0.000029956 + (-0.0000000368) * t) * t) * t) * t) * t
    let Sp := 94.00e-6 + (3808.65e-6 + (-122.68e-6 + (-72574.11e-6 + (27.98e-6 + 15.62e-6 * t) * t) * t) * t) * t
    |Q * (C + S * ((84381.406 - F) * A)) - C * S ^ 2 * Q ^ 3 * A ^ 2 / 6 - G - P - Sp| ≤ 0.0006 := by
  intro G F Q P Sp
  obtain ⟨K, hK⟩ : ∃ K, K = S * A := ⟨_, rfl⟩
  obtain ⟨M, hM⟩ : ∃ M, M = C * S ^ 2 * A ^ 2 / 6 := ⟨_, rfl⟩
  have c1 := abs_le.1 hC
  have s1 := abs_le.1 hS
  have a1 := abs_le.1 hA
  have cl : 0.9174821429 ≤ C := by norm_num at c1 ⊢; linarith [c1.1]
  have cu : C ≤ 0.9174821432 := by norm_num at c1 ⊢; linarith [c1.2]
  have sl : 0.3977769690 ≤ S := by norm_num at s1 ⊢; linarith [s1.1]
  have su : S ≤ 0.3977769693 := by norm_num at s1 ⊢; linarith [s1.2]
  have al : 4.848136811e-6 ≤ A := by norm_num at a1 ⊢; linarith [a1.1]
  have au : A ≤ 4.848136812e-6 := by norm_num at a1 ⊢; linarith [a1.2]
  have c0 : (0 : ℝ) ≤ C := le_trans (by norm_num) cl
  have s0 : (0 : ℝ) ≤ S := le_trans (by norm_num) sl
  have a0 : (0 : ℝ) ≤ A := le_trans (by norm_num) al
  have kl : 1.92847716e-6 ≤ K := by
    rw [hK]; exact le_trans (by norm_num) (mul_le_mul sl al (by norm_num) s0)
  have ku : K ≤ 1.92847718e-6 := by
    rw [hK]; exact (mul_le_mul su au a0 (by norm_num)).trans (by norm_num)
  have k0 : (0 : ℝ) ≤ K := le_trans (by norm_num) kl
  have hM' : M = C * K ^ 2 / 6 := by rw [hM, hK]; ring
  have k2l := pow_le_pow_left₀ (by norm_num) kl 2
  have k2u := pow_le_pow_left₀ k0 ku 2
  have ml : 5.68687e-13 ≤ M := by
    rw [hM']
    have := mul_le_mul cl k2l (by norm_num) c0
    norm_num at this ⊢; linarith
  have mu : M ≤ 5.6869e-13 := by
    rw [hM']
    have := mul_le_mul cu k2u (by positivity) (by norm_num)
    norm_num at this ⊢; linarith
  have m0 : (0 : ℝ) ≤ M := le_trans (by norm_num) ml
  clear hC hS hA c1 s1 a1
  -- remainders
  obtain ⟨w1, hw1⟩ : ∃ w, w = -0.041775 + (0 + (0 + (-0.00018522 + (-0.000026452 + (-0.0000000148) * t) * t) * t) * t) * t := ⟨_, rfl⟩
  obtain ⟨w, hw⟩ : ∃ w, w = 0 + (0 + (1.5584175 + (0 + (0 + 0 * t) * t) * t) * t) * t + w1 := ⟨_, rfl⟩
  obtain ⟨h3, hh3⟩ : ∃ w, w = 0 + (0 + (0 + (0.00053289 + (-0.000000440 + (-0.0000000176) * t) * t) * t) * t) * t := ⟨_, rfl⟩
  have bw1 : |w1| ≤ 0.042 := by
    rw [hw1]; refine (poly_abs ht).trans ?_; norm_num [abs_of_pos, abs_of_neg]
  have bw : |w| ≤ 1.6005 := by
    rw [hw]
    refine (abs_add_le _ _).trans ?_
    have : |0 + (0 + ((1.5584175 : ℝ) + (0 + (0 + 0 * t) * t) * t) * t) * t| ≤ 1.5584175 := by
      refine (poly_abs ht).trans ?_; norm_num [abs_of_pos]
    refine (add_le_add this bw1).trans ?_
    norm_num
  have bh3 : |h3| ≤ 0.000534 := by
    rw [hh3]; refine (poly_abs ht).trans ?_; norm_num [abs_of_pos, abs_of_neg]
  obtain ⟨H, hH⟩ : ∃ H, H = -0.006819 + 46.811016 * t - 0.0511268 * t ^ 2 - h3 := ⟨_, rfl⟩
  have bt2 : |t ^ 2| ≤ 1 := by rw [abs_pow]; exact pow_le_one₀ (abs_nonneg _) ht
  have bH : |H| ≤ 46.87 := by
    have := abs_le.1 ht; have h' := abs_le.1 bh3; have h'' := abs_le.1 bt2
    rw [hH, abs_le]
    generalize t ^ 2 = x1 at *
    clear * - this h' h''
    constructor <;> norm_num at * <;> linarith [this.1, this.2, h'.1, h'.2, h''.1, h''.2]
  obtain ⟨R, hR⟩ : ∃ R, R = 5038.481484 * (t * -h3) + 1.5584175 * (t ^ 2 * (-0.006819 - 0.0511268 * t ^ 2 - h3)) + w1 * H := ⟨_, rfl⟩
  have bR : |R| ≤ 4.8 := by
    have r1 := mul_abs_le ht ((abs_neg h3).le.trans bh3)
    have r2 : |-0.006819 - 0.0511268 * t ^ 2 - h3| ≤ 0.0586 := by
      have h' := abs_le.1 bh3; have h'' := abs_le.1 bt2
      rw [abs_le]
      generalize t ^ 2 = x1 at *
      clear * - h' h''
      constructor <;> norm_num at * <;> linarith [h'.1, h'.2, h''.1, h''.2]
    have r3 := mul_abs_le bt2 r2
    have r4 := mul_abs_le bw1 bH
    have r1 := abs_le.1 r1
    have r3 := abs_le.1 r3
    have r4 := abs_le.1 r4
    rw [hR, abs_le]
    generalize t * -h3 = x1 at *
    generalize t ^ 2 * (-0.006819 - 0.0511268 * t ^ 2 - h3) = x2 at *
    generalize w1 * H = x3 at *
    clear * - r1 r3 r4
    constructor <;> norm_num at * <;> linarith [r1.1, r1.2, r3.1, r3.2, r4.1, r4.2]
  obtain ⟨R3, hR3⟩ : ∃ R, R = w * (3 * 5038.481484 ^ 2 * t ^ 2 + 3 * 5038.481484 * (t * w) + w * w) := ⟨_, rfl⟩
  have bR3 : |R3| ≤ 1.23e8 := by
    rw [hR3]
    have r1 : |3 * 5038.481484 ^ 2 * t ^ 2 + 3 * 5038.481484 * (t * w) + w * w| ≤ 7.66e7 := by
      have r1 := abs_le.1 (mul_abs_le ht bw)
      have r2 := abs_le.1 (mul_abs_le bw bw)
      have r3 := abs_le.1 bt2
      rw [abs_le]
      generalize t ^ 2 = x1 at *
      generalize t * w = x2 at *
      generalize w * w = x3 at *
      clear * - r1 r2 r3
      constructor <;> norm_num at * <;> linarith [r1.1, r1.2, r3.1, r3.2, r2.1, r2.2]
    exact (mul_abs_le bw r1).trans (by norm_num)
  have KR := abs_le.1 (mul_abs_le ((abs_of_nonneg k0).le.trans ku) bR)
  have MR := abs_le.1 (mul_abs_le ((abs_of_nonneg m0).le.trans mu) bR3)
  have pb := poly_abs (t := t) (a := -0.041775 * C + 0.052928 - 0.014506 - 94e-6)
    (b := 5038.481484 * C - K * 5038.481484 * 0.006819 - 10.556378 - 4612.156534 - 3808.65e-6)
    (c := 1.5584175 * C + K * 5038.481484 * 46.811016 - 0.4932044 - 1.3915817 + 122.68e-6)
    (d := -0.00018522 * C + K * (-5038.481484 * 0.0511268 + 1.5584175 * 46.811016) - M * 5038.481484 ^ 3 + 0.00031238 + 0.00000044 + 72574.11e-6)
    (e := -0.000026452 * C + 2.788e-6 + 2.9956e-5 - 27.98e-6)
    (f := -1.48e-8 * C - 2.6e-8 + 3.68e-8 - 15.62e-6) ht
  have key : Q * (C + S * ((84381.406 - F) * A)) - C * S ^ 2 * Q ^ 3 * A ^ 2 / 6 - G - P - Sp =
     ((-0.041775 * C + 0.052928 - 0.014506 - 94e-6) + ((5038.481484 * C - K * 5038.481484 * 0.006819 - 10.556378 - 4612.156534 - 3808.65e-6) +
      ((1.5584175 * C + K * 5038.481484 * 46.811016 - 0.4932044 - 1.3915817 + 122.68e-6) +
      ((-0.00018522 * C + K * (-5038.481484 * 0.0511268 + 1.5584175 * 46.811016) - M * 5038.481484 ^ 3 + 0.00031238 + 0.00000044 + 72574.11e-6) +
      ((-0.000026452 * C + 2.788e-6 + 2.9956e-5 - 27.98e-6) + (-1.48e-8 * C - 2.6e-8 + 3.68e-8 - 15.62e-6) * t) * t) * t) * t) * t) + K * R - M * R3 := by
    have e1 : Q = 5038.481484 * t + w := by rw [hw, hw1]; ring
    have e2 : 84381.406 - F = H := by rw [hH, hh3]; simp only [F]; ring
    have e3 : S * ((84381.406 - F) * A) = K * H := by rw [e2, hK]; ring
    have e4 : C * S ^ 2 * Q ^ 3 * A ^ 2 / 6 = M * Q ^ 3 := by rw [hM]; ring
    have e5 : Q ^ 3 = 5038.481484 ^ 3 * t ^ 3 + R3 := by rw [e1, hR3]; ring
    have e6 : Q * H = 5038.481484 * t * (-0.006819 + 46.811016 * t - 0.0511268 * t ^ 2) + 1.5584175 * 46.811016 * t ^ 3 + R := by
      rw [e1, hR, hw, hH]; ring
    have e7 : Q * (C + K * H) = Q * C + K * (Q * H) := by ring
    rw [e3, e4, e5, e7, e6, e1, hw, hw1]
    simp only [G, P, Sp]
    ring
  rw [key]
  have b0 : |-0.041775 * C + 0.052928 - 0.014506 - 94e-6| ≤ 1e-6 := by
    rw [abs_le]; constructor <;> norm_num at cl cu ⊢ <;> linarith only [cl, cu]
  have b1 : |5038.481484 * C - K * 5038.481484 * 0.006819 - 10.556378 - 4612.156534 - 3808.65e-6| ≤ 1e-5 := by
    rw [abs_le]; constructor <;> norm_num at cl cu kl ku ⊢ <;> linarith only [cl, cu, kl, ku]
  have b2 : |1.5584175 * C + K * 5038.481484 * 46.811016 - 0.4932044 - 1.3915817 + 122.68e-6| ≤ 1e-5 := by
    rw [abs_le]; constructor <;> norm_num at cl cu kl ku ⊢ <;> linarith only [cl, cu, kl, ku]
  have b3 : |-0.00018522 * C + K * (-5038.481484 * 0.0511268 + 1.5584175 * 46.811016) - M * 5038.481484 ^ 3 + 0.00031238 + 0.00000044 + 72574.11e-6| ≤ 4e-4 := by
    rw [abs_le]; constructor <;> norm_num at cl cu kl ku ml mu ⊢ <;> linarith only [cl, cu, kl, ku, ml, mu]
  have b4 : |-0.000026452 * C + 2.788e-6 + 2.9956e-5 - 27.98e-6| ≤ 3e-5 := by
    rw [abs_le]; constructor <;> norm_num at cl cu ⊢ <;> linarith only [cl, cu]
  have b5 : |-1.48e-8 * C - 2.6e-8 + 3.68e-8 - 15.62e-6| ≤ 1.6e-5 := by
    rw [abs_le]; constructor <;> norm_num at cl cu ⊢ <;> linarith only [cl, cu]
  have pb' := abs_le.1 (pb.trans (add_le_add (add_le_add (add_le_add (add_le_add (add_le_add b0 b1) b2) b3) b4) b5))
  revert pb'
  generalize (-0.041775 * C + 0.052928 - 0.014506 - 94e-6) + _ = Z
  intro pb'
  generalize K * R = x1 at *
  generalize M * R3 = x2 at *
  clear * - pb' KR MR
  rw [abs_le]
  constructor <;> norm_num at * <;> linarith [pb'.1, pb'.2, KR.1, KR.2, MR.1, MR.2]

end Pal
