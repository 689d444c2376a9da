import Verif.Model.Aop
import Verif.Spec.Aop
import Verif.Lemmas.Map
import Verif.Props.Refr
import Verif.Props.Refz

/-! # Helper lemmas for observed places -/

namespace Pal
open Real Spec

/-- Azimuth and zenith distance of a vector. -/
theorem azzd (X Y Z : ℝ) :
    let az := if X = 0 ∧ Y = 0 then (0 : ℝ) else atan2 Y X
    let z := atan2 (√(X * X + Y * Y)) Z
    let R := √(X * X + Y * Y + Z * Z)
    R * (sin z * cos az) = X ∧ R * (sin z * sin az) = Y ∧ R * cos z = Z ∧ 0 ≤ z ∧ z ≤ π ∧ az ∈ Set.Ioc (-π) π := by
  intro az z R
  have h1 := hyp_cos_atan2 (√(X * X + Y * Y)) Z
  have h2 := hyp_sin_atan2 (√(X * X + Y * Y)) Z
  have hr : √(X * X + Y * Y) * √(X * X + Y * Y) = X * X + Y * Y := Real.mul_self_sqrt (add_nonneg (mul_self_nonneg _) (mul_self_nonneg _))
  rw [hr, show Z * Z + (X * X + Y * Y) = X * X + Y * Y + Z * Z by ring] at h1 h2
  have hz0 : 0 ≤ z := atan2_nonneg (Real.sqrt_nonneg _)
  have hz1 : z ≤ π := (atan2_mem _ _).2
  have haz : az ∈ Set.Ioc (-π) π := by
    show (if X = 0 ∧ Y = 0 then (0 : ℝ) else atan2 Y X) ∈ _
    split_ifs
    · exact ⟨by linarith [pi_pos], pi_pos.le⟩
    · exact atan2_mem _ _
  have hxy : √(X * X + Y * Y) * cos az = X ∧ √(X * X + Y * Y) * sin az = Y := by
    by_cases h : X = 0 ∧ Y = 0
    · have : az = 0 := if_pos h
      rw [this, h.1, h.2]; simp
    · have : az = atan2 Y X := if_neg h
      rw [this]
      exact ⟨hyp_cos_atan2 Y X, hyp_sin_atan2 Y X⟩
  refine ⟨?_, ?_, h1, hz0, hz1, haz⟩
  · rw [← mul_assoc, h2, hxy.1]
  · rw [← mul_assoc, h2, hxy.2]

/-- The horizon axes are orthonormal: a vector is recovered from its components. -/
theorem horizon_sq (phi : ℝ) (w : Fin 3 → ℝ) : dot w (northAxis phi) * dot w (northAxis phi) + dot w eastAxis * dot w eastAxis + dot w (zenithAxis phi) * dot w (zenithAxis phi) = dot w w := by
  simp only [dot_eq, northAxis, eastAxis, zenithAxis, Matrix.cons_val_zero, Matrix.cons_val_one, Matrix.cons_val]
  have := sin_sq_add_cos_sq phi
  linear_combination (w 0 ^ 2 + w 2 ^ 2) * this

theorem horizon_ext {phi : ℝ} {u v : Fin 3 → ℝ} (h1 : dot u (northAxis phi) = dot v (northAxis phi)) (h2 : dot u eastAxis = dot v eastAxis)
    (h3 : dot u (zenithAxis phi) = dot v (zenithAxis phi)) : u = v := by
  simp only [dot_eq, northAxis, eastAxis, zenithAxis, Matrix.cons_val_zero, Matrix.cons_val_one, Matrix.cons_val] at h1 h2 h3
  have := sin_sq_add_cos_sq phi
  funext i
  fin_cases i
  · show u 0 = v 0
    linear_combination (-sin phi) * h1 + cos phi * h3 + (-(u 0) + v 0) * this
  · show u 1 = v 1
    linarith
  · show u 2 = v 2
    linear_combination (cos phi) * h1 + sin phi * h3 + (-(u 2) + v 2) * this

theorem dot_unit {w : Fin 3 → ℝ} (hw : 0 < len w) (a : Fin 3 → ℝ) : len w * dot (unit w) a = dot w a := by
  simp only [unit, dot_eq]
  field_simp

theorem len_dir (a b : ℝ) : len (dir a b) = 1 := len_one (by rw [dot_eq]; exact dir_unit a b)

theorem len_east : len eastAxis = 1 := len_one (by simp [dot_eq, eastAxis])

theorem moving_len (d h dec : ℝ) : 1 - |d| ≤ len (moving d h dec) ∧ len (moving d h dec) ≤ 1 + |d| := by
  have h1 := len_add_le (dir h dec) (fun i => d * eastAxis i)
  have h2 := len_sub_le (moving d h dec) (fun i => d * eastAxis i)
  have e : (fun i => moving d h dec i - d * eastAxis i) = dir h dec := by funext i; simp [moving]
  rw [e] at h2
  rw [len_smul, len_east, len_dir] at h1 h2
  unfold moving
  unfold moving at h2
  constructor <;> linarith

theorem moving_pos {d : ℝ} (hd : |d| < 1) (h dec : ℝ) : 0 < len (moving d h dec) := by
  have := (moving_len d h dec).1
  linarith

/-- The topocentric place of palAopqk. -/
theorem topo_spec (rap dap : ℝ) (p : Aoprms) (hs : p.sphi = sin p.phi) (hc : p.cphi = cos p.phi) (hd : |p.diurab| < 1) :
    Horizon p.phi (unit (moving p.diurab (p.st - rap) dap)) (aopTopo rap dap p).1 (aopTopo rap dap p).2 ∧ 0 ≤ (aopTopo rap dap p).2 ∧ (aopTopo rap dap p).2 ≤ π ∧
      (aopTopo rap dap p).1 ∈ Set.Ioc (-π) π := by
  set w := moving p.diurab (p.st - rap) dap with hw
  have hwpos : 0 < len w := moving_pos hd _ _
  set f := 1 - p.diurab * (sin (rap - p.st) * cos dap) with hf
  have hfpos : 0 < f := by
    have h1 : |sin (rap - p.st) * cos dap| ≤ 1 := by
      rw [abs_mul]; exact mul_le_one₀ (abs_sin_le_one _) (abs_nonneg _) (abs_cos_le_one _)
    have h2 : |p.diurab * (sin (rap - p.st) * cos dap)| < 1 := by
      rw [abs_mul]
      calc _ ≤ |p.diurab| * 1 := mul_le_mul_of_nonneg_left h1 (abs_nonneg _)
        _ < 1 := by linarith
    have := (abs_lt.1 h2).2
    rw [hf]; linarith
  have e1 : sin (p.st - rap) = -sin (rap - p.st) := by rw [← sin_neg]; ring_nf
  have e2 : cos (p.st - rap) = cos (rap - p.st) := by rw [← cos_neg]; ring_nf
  have hN : f * dot w (northAxis p.phi) = -(p.sphi * (f * (cos (rap - p.st) * cos dap)) - p.cphi * (f * sin dap)) := by
    rw [hw, hs, hc]
    simp only [moving, dot_eq, dir, northAxis, eastAxis, Matrix.cons_val_zero, Matrix.cons_val_one, Matrix.cons_val, e1, e2]
    ring
  have hE : f * dot w eastAxis = f * (sin (rap - p.st) * cos dap + p.diurab) := by
    rw [hw]
    simp only [moving, dot_eq, dir, eastAxis, Matrix.cons_val_zero, Matrix.cons_val_one, Matrix.cons_val, e1, e2]
    ring
  have hZ : f * dot w (zenithAxis p.phi) = p.cphi * (f * (cos (rap - p.st) * cos dap)) + p.sphi * (f * sin dap) := by
    rw [hw, hs, hc]
    simp only [moving, dot_eq, dir, zenithAxis, eastAxis, Matrix.cons_val_zero, Matrix.cons_val_one, Matrix.cons_val, e1, e2]
    ring
  have key := azzd (f * dot w (northAxis p.phi)) (f * dot w eastAxis) (f * dot w (zenithAxis p.phi))
  dsimp only at key
  have hR : √(f * dot w (northAxis p.phi) * (f * dot w (northAxis p.phi)) + f * dot w eastAxis * (f * dot w eastAxis) + f * dot w (zenithAxis p.phi) * (f * dot w (zenithAxis p.phi)))
      = f * len w := by
    rw [show f * dot w (northAxis p.phi) * (f * dot w (northAxis p.phi)) + f * dot w eastAxis * (f * dot w eastAxis) + f * dot w (zenithAxis p.phi) * (f * dot w (zenithAxis p.phi))
      = (f * len w) * (f * len w) by
        have h1 := horizon_sq p.phi w
        have h2 := len_sq w
        linear_combination f ^ 2 * h1 - f ^ 2 * h2]
    exact Real.sqrt_mul_self (by positivity)
  rw [hR] at key
  have t1 : (aopTopo rap dap p).1 = if f * dot w (northAxis p.phi) = 0 ∧ f * dot w eastAxis = 0 then (0 : ℝ) else atan2 (f * dot w eastAxis) (f * dot w (northAxis p.phi)) := by
    rw [hN, hE]
    unfold aopTopo palDcs2c eraS2c
    simp only [Matrix.cons_val_zero, Matrix.cons_val_one, Matrix.cons_val, ← hf, neg_eq_zero]
  have t2 : (aopTopo rap dap p).2 = atan2 (√(f * dot w (northAxis p.phi) * (f * dot w (northAxis p.phi)) + f * dot w eastAxis * (f * dot w eastAxis))) (f * dot w (zenithAxis p.phi)) := by
    rw [hN, hE, hZ]
    unfold aopTopo palDcs2c eraS2c
    simp only [Matrix.cons_val_zero, Matrix.cons_val_one, Matrix.cons_val, ← hf, neg_mul_neg]
  rw [← t1, ← t2] at key
  obtain ⟨k1, k2, k3, k4, k5, k6⟩ := key
  refine ⟨⟨?_, ?_, ?_⟩, k4, k5, k6⟩
  · have := dot_unit hwpos (northAxis p.phi)
    have h : f * len w * (dot (unit w) (northAxis p.phi) - sin (aopTopo rap dap p).2 * cos (aopTopo rap dap p).1) = 0 := by linear_combination f * this - k1
    rcases mul_eq_zero.1 h with h | h
    · exact absurd h (by positivity)
    · linarith
  · have := dot_unit hwpos eastAxis
    have h : f * len w * (dot (unit w) eastAxis - sin (aopTopo rap dap p).2 * sin (aopTopo rap dap p).1) = 0 := by linear_combination f * this - k2
    rcases mul_eq_zero.1 h with h | h
    · exact absurd h (by positivity)
    · linarith
  · have := dot_unit hwpos (zenithAxis p.phi)
    have h : f * len w * (dot (unit w) (zenithAxis p.phi) - cos (aopTopo rap dap p).2) = 0 := by linear_combination f * this - k3
    rcases mul_eq_zero.1 h with h | h
    · exact absurd h (by positivity)
    · linarith

/-- The vector with given azimuth and zenith distance in the frame of minus the hour angle and declination, as palAopqk and palOapqk form it. -/
theorem azzd_vector (phi az z : ℝ) :
    let V : Vec3 := ![sin phi * (-cos az * sin z) + cos phi * cos z, sin az * sin z, -cos phi * (-cos az * sin z) + sin phi * cos z]
    dot V V = 1 ∧ Horizon phi ![V 0, -V 1, V 2] az z := by
  intro V
  have h1 := sin_sq_add_cos_sq phi
  have h2 := sin_sq_add_cos_sq az
  have h3 := sin_sq_add_cos_sq z
  refine ⟨?_, ?_, ?_, ?_⟩
  · simp only [V, dot_eq, Matrix.cons_val_zero, Matrix.cons_val_one, Matrix.cons_val]
    grind
  · simp only [V, dot_eq, northAxis, Matrix.cons_val_zero, Matrix.cons_val_one, Matrix.cons_val]
    linear_combination (cos az * sin z) * h1
  · simp only [V, dot_eq, eastAxis, Matrix.cons_val_zero, Matrix.cons_val_one, Matrix.cons_val]
    ring
  · simp only [V, dot_eq, zenithAxis, Matrix.cons_val_zero, Matrix.cons_val_one, Matrix.cons_val]
    linear_combination cos z * h1

theorem dir_neg (h d : ℝ) : dir (-h) d = ![dir h d 0, -dir h d 1, dir h d 2] := by
  unfold dir
  simp

theorem dir_same {a b : ℝ} (h : SameAngle a b) (d : ℝ) : dir a d = dir b d := by
  unfold dir; rw [h.cos, h.sin]

theorem horizon_unique {phi az z : ℝ} {u v : Fin 3 → ℝ} (hu : Horizon phi u az z) (hv : Horizon phi v az z) : u = v :=
  horizon_ext (hu.1.trans hv.1.symm) (hu.2.1.trans hv.2.1.symm) (hu.2.2.trans hv.2.2.symm)

/-- The results of palAopqk. -/
theorem aopqk_out {rap dap : ℝ} {p : Aoprms} {o : Observed} (hs : p.sphi = sin p.phi) (hc : p.cphi = cos p.phi) (h : palAopqk rap dap p = some o) :
    o.aob = (aopTopo rap dap p).1 ∧ aopRefract p (aopTopo rap dap p).2 = some o.zob ∧ Horizon p.phi (dir o.hob o.dob) o.aob o.zob ∧
      o.rob ∈ Set.Ico 0 (2 * π) ∧ SameAngle o.rob (p.st - o.hob) ∧ |o.dob| ≤ π / 2 := by
  unfold palAopqk at h
  dsimp only at h
  split at h
  · cases h
  · rename_i z hz
    cases h
    dsimp only
    obtain ⟨hu, hh⟩ := azzd_vector p.phi (aopTopo rap dap p).1 z
    refine ⟨rfl, hz, ?_, (eraAnp_spec _).1, ?_, (eraC2s_range _).2⟩
    · rw [dir_neg, hs, hc]
      unfold palDcc2s
      rw [eraC2s_unit _ (by rw [← dot_eq]; exact hu)]
      exact hh
    · rw [sub_neg_eq_add]
      exact (eraAnp_spec _).2

/-- All ways of giving the observed place lead to the same vector. -/
theorem oap_vector {p : Aoprms} (hs : p.sphi = sin p.phi) (hc : p.cphi = cos p.phi) {h d az z : ℝ} (hh : Horizon p.phi (dir h d) az z) :
    oapVector .h h d p = ![-cos az * sin z, sin az * sin z, cos z] := by
  obtain ⟨h1, h2, h3⟩ := hh
  unfold oapVector palDcs2c eraS2c
  simp only [dot_eq, dir, northAxis, eastAxis, zenithAxis, Matrix.cons_val_zero, Matrix.cons_val_one, Matrix.cons_val] at *
  simp only [reduceCtorEq, if_false, cos_neg, sin_neg, hs, hc]
  funext i
  fin_cases i
  · show sin p.phi * (cos h * cos d) - cos p.phi * sin d = -cos az * sin z
    linarith
  · show -sin h * cos d = sin az * sin z
    linarith
  · show cos p.phi * (cos h * cos d) + sin p.phi * sin d = cos z
    linarith

/-- `atan2` recovers the zenith distance. -/
theorem oap_zd {az z : ℝ} (h0 : 0 ≤ z) (h1 : z ≤ π) :
    √(-cos az * sin z * (-cos az * sin z) + sin az * sin z * (sin az * sin z)) = sin z ∧ atan2 (sin z) (cos z) = z := by
  have hs : 0 ≤ sin z := sin_nonneg_of_nonneg_of_le_pi h0 h1
  constructor
  · rw [show -cos az * sin z * (-cos az * sin z) + sin az * sin z * (sin az * sin z) = sin z * sin z by
      have := sin_sq_add_cos_sq az
      linear_combination sin z ^ 2 * this]
    exact Real.sqrt_mul_self hs
  · have := atan2_polar (r := 1) one_pos (t := z) ⟨by linarith [pi_pos], h1⟩
    simpa using this

/-- palOapqk removes refraction and diurnal aberration: the result is the direction of u - d east, where u is the observed direction with refraction removed. -/
theorem oapqk_core {type : List Char} {ob1 ob2 az z : ℝ} {p : Aoprms} (hs : p.sphi = sin p.phi) (hc : p.cphi = cos p.phi) (hd : |p.diurab| < 1) (h0 : 0 ≤ z) (h1 : z < π)
    (hv : oapVector (obType type.head?) ob1 ob2 p = ![-cos az * sin z, sin az * sin z, cos z]) {D : ℝ} (hD : oapRefr p (sin z) (cos z) z = some D) :
    ∃ ra dec u, palOapqk type ob1 ob2 p = some (ra, dec) ∧ ra ∈ Set.Ico 0 (2 * π) ∧ |dec| ≤ π / 2 ∧ Horizon p.phi u az (z + D) ∧ dot u u = 1 ∧
      (fun i => len (fun i => u i - p.diurab * eastAxis i) * dir (p.st - ra) dec i) = fun i => u i - p.diurab * eastAxis i := by
  obtain ⟨hq1, hq2⟩ := oap_zd (az := az) h0 h1.le
  have hs0 : 0 ≤ sin z := sin_nonneg_of_nonneg_of_le_pi h0 h1.le
  have hD0 : z = 0 → D = 0 := by
    rintro rfl
    unfold oapRefr zbreak at hD
    rw [cos_zero, sin_zero, if_pos (by norm_num)] at hD
    simpa using hD.symm
  obtain ⟨hu, hh⟩ := azzd_vector p.phi az (z + D)
  set V : Vec3 := ![sin p.phi * (-cos az * sin (z + D)) + cos p.phi * cos (z + D), sin az * sin (z + D), -cos p.phi * (-cos az * sin (z + D)) + sin p.phi * cos (z + D)] with hV
  set y := sin az * sin (z + D) with hy
  have hf : 0 < 1 - -p.diurab * y := by
    have h2 : |y| ≤ 1 := by rw [hy, abs_mul]; exact mul_le_one₀ (abs_sin_le_one _) (abs_nonneg _) (abs_sin_le_one _)
    have h3 : |p.diurab * y| < 1 := by
      rw [abs_mul]
      calc _ ≤ |p.diurab| * 1 := mul_le_mul_of_nonneg_left h2 (abs_nonneg _)
        _ < 1 := by linarith
    have := (abs_lt.1 h3).1
    linarith
  set f := 1 - -p.diurab * y with hfdef
  set W : Vec3 := ![f * V 0, f * (V 1 + -p.diurab), f * V 2] with hW
  have hW1 : W 1 = f * (V 1 + -p.diurab) := rfl
  have hout : palOapqk type ob1 ob2 p = some (palDranrm (p.st + (palDcc2s W).1), (palDcc2s W).2) := by
    have o0 : oapVector (obType type.head?) ob1 ob2 p 0 = -cos az * sin z := by rw [hv]; rfl
    have o1 : oapVector (obType type.head?) ob1 ob2 p 1 = sin az * sin z := by rw [hv]; rfl
    have o2 : oapVector (obType type.head?) ob1 ob2 p 2 = cos z := by rw [hv]; rfl
    unfold palOapqk
    dsimp only
    generalize hazd : (if oapVector (obType type.head?) ob1 ob2 p 0 ≠ 0 ∨ oapVector (obType type.head?) ob1 ob2 p 1 ≠ 0 then
      atan2 (oapVector (obType type.head?) ob1 ob2 p 1) (oapVector (obType type.head?) ob1 ob2 p 0) else 0) = azz
    rw [o0, o1, o2, hq1, hq2, hD]
    dsimp only
    have hW' : ∀ cz sz : ℝ, cz * sin (z + D) = -cos az * sin (z + D) → sz * sin (z + D) = y →
        (![(1 - -p.diurab * (sz * sin (z + D))) * (p.sphi * (cz * sin (z + D)) + p.cphi * cos (z + D)), (1 - -p.diurab * (sz * sin (z + D))) * (sz * sin (z + D) + -p.diurab),
          (1 - -p.diurab * (sz * sin (z + D))) * (-p.cphi * (cz * sin (z + D)) + p.sphi * cos (z + D))] : Vec3) = W := by
      intro cz sz e1 e2
      rw [e1, e2, hs, hc]
      rfl
    by_cases hz : sin z = 0
    · have hz0 : z = 0 := by
        rcases h0.lt_or_eq with h | h
        · exact absurd hz (sin_pos_of_pos_of_lt_pi h h1).ne'
        · exact h.symm
      have hs' : sin (z + D) = 0 := by rw [hD0 hz0, hz0]; simp
      rw [hW' _ _ (by rw [hs']; ring) (by rw [hy, hs']; ring)]
    · have hzp : 0 < sin z := lt_of_le_of_ne hs0 (Ne.symm hz)
      have hne : -cos az * sin z ≠ 0 ∨ sin az * sin z ≠ 0 := by
        by_contra hcon
        push Not at hcon
        have h1 : cos az = 0 := by rcases mul_eq_zero.1 hcon.1 with h | h <;> [linarith; exact absurd h hz]
        have h2 : sin az = 0 := by rcases mul_eq_zero.1 hcon.2 with h | h <;> [exact h; exact absurd h hz]
        have := sin_sq_add_cos_sq az
        rw [h1, h2] at this; norm_num at this
      have hat := atan2_trig hzp (π - az)
      rw [cos_pi_sub, sin_pi_sub, mul_comm (sin z) (sin az), mul_comm (sin z) (-cos az)] at hat
      rw [if_pos (by rw [o0, o1]; exact hne), o0, o1] at hazd
      rw [hazd] at hat
      rw [hW' _ _ (by rw [hat.1]) (by rw [hat.2])]
  refine ⟨_, _, ![V 0, -V 1, V 2], hout, (eraAnp_spec _).1, (eraC2s_range _).2, hh, ?_, ?_⟩
  · rw [← hu]; simp only [dot_eq, Matrix.cons_val_zero, Matrix.cons_val_one, Matrix.cons_val]; ring
  · set U : Fin 3 → ℝ := fun i => (![V 0, -V 1, V 2] : Vec3) i - p.diurab * eastAxis i with hU
    have hspec := eraC2s_spec W
    have hpm : eraPm W = f * len U := by
      rw [eraPm_eq, len_eq]
      have : dot W W = (f * f) * dot U U := by
        simp only [hU, hW, dot_eq, eastAxis, Matrix.cons_val_zero, Matrix.cons_val_one, Matrix.cons_val]; ring
      rw [this, Real.sqrt_mul (by positivity), Real.sqrt_mul_self hf.le]
    have hdir : dir (p.st - palDranrm (p.st + (palDcc2s W).1)) (palDcc2s W).2 = dir (-(eraC2s W).1) (eraC2s W).2 := by
      apply dir_same
      obtain ⟨k, hk⟩ := (eraAnp_spec (p.st + (palDcc2s W).1)).2
      refine ⟨-k, ?_⟩
      unfold palDranrm
      rw [hk]
      unfold palDcc2s
      push_cast
      ring
    rw [hdir, dir_neg]
    rw [hpm] at hspec
    have g0 := congrFun hspec 0
    have g1 := congrFun hspec 1
    have g2 := congrFun hspec 2
    have U0 : U 0 = V 0 := by simp [hU, eastAxis]
    have U1 : U 1 = -V 1 + p.diurab := by simp [hU, eastAxis]
    have U2 : U 2 = V 2 := by simp [hU, eastAxis]
    have W0 : W 0 = f * V 0 := rfl
    have W2 : W 2 = f * V 2 := rfl
    rw [W0] at g0
    rw [hW1] at g1
    rw [W2] at g2
    funext i
    fin_cases i
    · show len U * dir (eraC2s W).1 (eraC2s W).2 0 = U 0
      rw [U0]
      apply mul_left_cancel₀ hf.ne'
      linarith
    · show len U * -dir (eraC2s W).1 (eraC2s W).2 1 = U 1
      rw [U1]
      apply mul_left_cancel₀ hf.ne'
      linarith
    · show len U * dir (eraC2s W).1 (eraC2s W).2 2 = U 2
      rw [U2]
      apply mul_left_cancel₀ hf.ne'
      linarith

/-- Directions of nearby vectors. -/
theorem dir_near {a v : Vec3} {s : ℝ} (hs : 0 < s) (ha : 0 < len a) (hv : dot v v = 1) :
    (len a * s) * len (fun i => a i / len a - v i) ^ 2 ≤ len (fun i => a i - s * v i) ^ 2 := by
  rw [sq, len_sq, sq, len_sq]
  have h1 := len_sq a
  have e1 : dot (fun i => a i / len a - v i) (fun i => a i / len a - v i) = dot a a / (len a * len a) - 2 * dot a v / len a + dot v v := by
    simp only [dot_eq]; field_simp; ring
  have e2 : dot (fun i => a i - s * v i) (fun i => a i - s * v i) = dot a a - 2 * s * dot a v + s ^ 2 * dot v v := by
    simp only [dot_eq]; ring
  rw [e1, e2, hv, ← h1, div_self (by positivity)]
  have : len a * s * (1 - 2 * dot a v / len a + 1) = 2 * len a * s - 2 * s * dot a v := by field_simp; ring
  rw [this]
  nlinarith [sq_nonneg (len a - s)]

/-- Distance between two points of the same vertical circle. -/
theorem horizon_dist {phi az z1 z2 : ℝ} {u v : Fin 3 → ℝ} (hu : Horizon phi u az z1) (hv : Horizon phi v az z2) : len (fun i => u i - v i) ≤ |z1 - z2| := by
  apply len_le (abs_nonneg _)
  have h := horizon_sq phi (fun i => u i - v i)
  have d : ∀ a : Fin 3 → ℝ, dot (fun i => u i - v i) a = dot u a - dot v a := by intro a; simp only [dot_eq]; ring
  rw [d, d, d, hu.1, hu.2.1, hu.2.2, hv.1, hv.2.1, hv.2.2] at h
  have e : (u 0 - v 0) ^ 2 + (u 1 - v 1) ^ 2 + (u 2 - v 2) ^ 2 = 2 - 2 * cos (z1 - z2) := by
    have h' : dot (fun i => u i - v i) (fun i => u i - v i) = (u 0 - v 0) ^ 2 + (u 1 - v 1) ^ 2 + (u 2 - v 2) ^ 2 := by simp only [dot_eq]; ring
    rw [← h', ← h, cos_sub]
    have h1 := sin_sq_add_cos_sq z1
    have h2 := sin_sq_add_cos_sq z2
    have h3 := sin_sq_add_cos_sq az
    linear_combination (sin z1 ^ 2 - 2 * sin z1 * sin z2 + sin z2 ^ 2) * h3 + h1 + h2
  rw [e, sq_abs]
  have := one_sub_sq_div_two_le_cos (x := z1 - z2)
  linarith

/-- Rotating both directions about the pole does not change their distance. -/
theorem dir_turn (s a b c d : ℝ) : len (fun i => dir (s - a) b i - dir (s - c) d i) = len (fun i => dir a b i - dir c d i) := by
  rw [len_eq, len_eq]
  congr 1
  simp only [dot_eq, dir, Matrix.cons_val_zero, Matrix.cons_val_one, Matrix.cons_val, cos_sub, sin_sub]
  have h := sin_sq_add_cos_sq s
  grind

/-- The effect of removing the aberration with the same speed: second order. -/
theorem round_trip_core {d h dec h' dec' r : ℝ} {u : Fin 3 → ℝ} (hd : |d| < 1) (hu : dot u u = 1)
    (hr : len (fun i => u i - unit (moving d h dec) i) ≤ r)
    (hout : (fun i => len (fun i => u i - d * eastAxis i) * dir h' dec' i) = fun i => u i - d * eastAxis i) :
    len (fun i => dir h' dec' i - dir h dec i) ≤ (r + d ^ 2 / (1 - |d|)) * ((1 + |d|) / (1 - |d|)) := by
  set w := moving d h dec with hw
  have hwpos : 0 < len w := moving_pos hd _ _
  obtain ⟨hw1, hw2⟩ := moving_len d h dec
  rw [← hw] at hw1 hw2
  set a : Fin 3 → ℝ := fun i => u i - d * eastAxis i with ha
  have hd0 := abs_nonneg d
  have hlu : len u = 1 := len_one hu
  have hla : 1 - |d| ≤ len a := by
    have h1 := len_add_le a (fun i => d * eastAxis i)
    have e : (fun i => a i + d * eastAxis i) = u := by funext i; simp [ha]
    rw [e, len_smul, len_east, hlu] at h1
    linarith
  have hapos : 0 < len a := by linarith
  have hr0 : 0 ≤ r := (len_nonneg _).trans hr
  have hdir : (fun i => a i / len a) = dir h' dec' := by
    funext i
    have := congrFun hout i
    rw [← this]
    field_simp
  have hv : dot (dir h dec) (dir h dec) = 1 := dot_of_len (len_dir _ _)
  have key := dir_near (s := 1 / len w) (by positivity) hapos hv
  have e0 : ∀ i, a i / len a = dir h' dec' i := fun i => congrFun hdir i
  simp only [e0] at key
  have hdiff : len (fun i => a i - 1 / len w * dir h dec i) ≤ r + d ^ 2 / (1 - |d|) := by
    have e : (fun i => a i - 1 / len w * dir h dec i) = fun i => (u i - unit w i) + (d * (1 / len w - 1)) * eastAxis i := by
      funext i
      simp only [ha, unit, hw, moving]
      ring
    rw [e]
    refine (len_add_le _ _).trans ?_
    rw [len_smul, len_east, mul_one]
    have : |d * (1 / len w - 1)| ≤ d ^ 2 / (1 - |d|) := by
      have e3 : 1 / len w - 1 = (1 - len w) / len w := by field_simp
      rw [abs_mul, e3, abs_div, abs_of_pos hwpos, ← sq_abs d, sq, mul_div_assoc]
      apply mul_le_mul_of_nonneg_left _ hd0
      apply div_le_div₀ hd0 _ (by linarith) hw1
      rw [abs_le]; constructor <;> linarith
    linarith
  set X := len (fun i => dir h' dec' i - dir h dec i) with hX
  have hX0 : 0 ≤ X := len_nonneg _
  set E := r + d ^ 2 / (1 - |d|) with hE
  have hE0 : 0 ≤ E := add_nonneg hr0 (div_nonneg (sq_nonneg _) (by linarith))
  have h1 : len a * (1 / len w) * X ^ 2 ≤ E ^ 2 := key.trans (pow_le_pow_left₀ (len_nonneg _) hdiff 2)
  have h2 : (1 - |d|) / (1 + |d|) ≤ len a * (1 / len w) := by
    rw [mul_one_div]
    exact div_le_div₀ hapos.le hla hwpos hw2
  have h3 : (1 - |d|) / (1 + |d|) * X ^ 2 ≤ E ^ 2 := (mul_le_mul_of_nonneg_right h2 (sq_nonneg _)).trans h1
  have h4 : X ^ 2 ≤ E ^ 2 * ((1 + |d|) / (1 - |d|)) := by
    have hp : 0 < 1 - |d| := by linarith
    rw [← mul_div_assoc, le_div_iff₀ hp]
    rw [div_mul_eq_mul_div, div_le_iff₀ (by linarith)] at h3
    linarith
  set q := (1 + |d|) / (1 - |d|) with hq
  have hq1 : 1 ≤ q := by rw [hq, le_div_iff₀ (by linarith)]; linarith
  apply abs_le_of_sq_le_sq' _ (by positivity) |>.2
  calc X ^ 2 ≤ E ^ 2 * q := h4
    _ ≤ (E * q) ^ 2 := by nlinarith [sq_nonneg E]

end Pal
