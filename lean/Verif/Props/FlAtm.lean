import Verif.Lemmas.FlAtm
import Verif.Props.FlSphere
import Verif.Props.FlAoppa

/-!
# The model atmosphere of the refraction integral in double precision: property C151
-/

namespace Pal.Props
open Real Pal
variable {fl : ℝ → ℝ}

/-- C151 (stratosphere) Above the tropopause (up to 80 km above it, at 100 K or more, refractive index at the tropopause at most 1.001), the refractive index of double precision is that of the exponential atmosphere to 1.3e-16, it is never less than 1, and
r dn/dr is right to 2.6e-14. -/
theorem C151_stratosphere (R : Rounding fl) {ex : ℝ → ℝ} (he : ExpOK ex) (rt tt dnt gamal r : ℝ) (h1 : rt ≤ r) (h2 : r ≤ rt + 80000) (h3 : 0 ≤ r) (h3' : r ≤ 6.5e6) (h4 : 100 ≤ tt) (h5 : 0 ≤ gamal) (h6 : gamal ≤ 0.035) (h7 : 1 ≤ dnt) (h8 : dnt ≤ 1.001) :
    let o := fl1Atms fl ex rt tt dnt gamal r
    |o.1 - (1 + (dnt - 1) * exp (-(gamal * (r - rt) / tt)))| ≤ 1.3e-16 ∧ 1 ≤ o.1 ∧ |o.2 - -(r * (gamal / tt) * ((dnt - 1) * exp (-(gamal * (r - rt) / tt))))| ≤ 2.6e-14 := by
  intro o
  have t0 : 0 < tt := by linarith
  have bb : |gamal / tt| ≤ 3.5e-4 := by
    rw [abs_of_nonneg (div_nonneg h5 t0.le), div_le_iff₀ t0]; linarith
  have b0 : 0 ≤ gamal / tt := div_nonneg h5 t0.le
  have b1 := R.add_err2 3.9e-20 (noerr (gamal / tt)) bb (by norm_num) (by norm_num)
  have nb : |-fl (gamal / tt) - -(gamal / tt)| ≤ 3.9e-20 := by rw [neg_sub_neg, abs_sub_comm]; exact b1
  have nbb : |-(gamal / tt)| ≤ 3.5e-4 := by rwa [abs_neg]
  have rb : |r - rt| ≤ 80000 := by rw [abs_le]; constructor <;> linarith
  have r1 := R.add_err2 8.9e-12 (noerr (r - rt)) rb (by norm_num) (by norm_num)
  have x1 := R.mulB 9.4e-15 nb r1 nbb rb (by norm_num) (by norm_num)
  have X0 : -(gamal / tt) * (r - rt) ≤ 0 := by
    have := mul_nonneg b0 (by linarith : 0 ≤ r - rt); linarith
  obtain ⟨e1, e2⟩ := ex_err he x1 X0 (by norm_num)
  have eX : -(gamal / tt) * (r - rt) = -(gamal * (r - rt) / tt) := by ring
  rw [eX] at e1 e2
  have d0 : |dnt - 1| ≤ 1e-3 := by rw [abs_of_nonneg (by linarith)]; norm_num at *; linarith
  have d1 := R.add_err2 1.2e-19 (noerr (dnt - 1)) d0 (by norm_num) (by norm_num)
  have w1 := R.mulB 1e-17 d1 e1 d0 e2 (by norm_num) (by norm_num)
  have wb := mul_bd d0 e2
  have n1 := (R.addB 1.3e-16 (noerr 1) w1 (by norm_num : |(1 : ℝ)| ≤ 1) wb (by norm_num) (by norm_num)).1
  have nr : |-r| ≤ 6.5e6 := by rw [abs_neg, abs_of_nonneg h3]; exact h3'
  have q1 := R.mulB 5.2e-13 (noerr (-r)) b1 nr bb (by norm_num) (by norm_num)
  have q2 := R.mulB 2.6e-14 q1 w1 (mul_bd nr bb) wb (by norm_num) (by norm_num)
  refine ⟨n1, ?_, ?_⟩
  · have xp := he (fl (-fl (gamal / tt) * fl (r - rt)))
    have ep : 0 ≤ ex (fl (-fl (gamal / tt) * fl (r - rt))) := by
      have := exp_pos (fl (-fl (gamal / tt) * fl (r - rt)))
      have := abs_le.1 xp
      linarith
    have dp : 0 ≤ fl (dnt - 1) := R.nonneg (d0.trans (by norm_num)) (by linarith)
    have w0 : 0 ≤ fl (fl (dnt - 1) * ex (fl (-fl (gamal / tt) * fl (r - rt)))) := by
      refine R.nonneg ?_ (mul_nonneg dp ep)
      rw [abs_of_nonneg (mul_nonneg dp ep)]
      have u1 : fl (dnt - 1) ≤ 1 := by have := abs_le.1 d1; have := abs_le.1 d0; linarith
      have u2 : ex (fl (-fl (gamal / tt) * fl (r - rt))) ≤ 2 := by have := abs_le.1 e1; have := abs_le.1 e2; linarith
      have := mul_le_mul u1 u2 ep (by norm_num)
      exact this.trans (by norm_num)
    have := R.int_le (n := 1) (x := 1 + fl (fl (dnt - 1) * ex (fl (-fl (gamal / tt) * fl (r - rt))))) ?_ (by norm_num) (by push_cast; linarith)
    · rw [Int.cast_one] at this; exact this
    · have a := abs_le.1 w1; have b := abs_le.1 wb
      rw [abs_le]; constructor <;> norm_num at * <;> linarith
  · have e : -(r * (gamal / tt) * ((dnt - 1) * exp (-(gamal * (r - rt) / tt)))) = -r * (gamal / tt) * ((dnt - 1) * exp (-(gamal * (r - rt) / tt))) := by ring
    rw [e]; exact q2

set_option maxHeartbeats 1000000 in
/-- C151 (troposphere) At and up to 20 km above the observer (100 to 500 K, lapse rate up to 0.01 K per metre, exponents from 1 to 33 and the constants of the model as large as palRefro makes them), the temperature of double precision is the observer's less the lapse rate times the height, held between 100 and 320 K,
to 1.3e-13 K; the refractive index is right to 1.7e-15 and r dn/dr to 2.7e-13. -/
theorem C151_troposphere (R : Rounding fl) {pw : ℝ → ℝ → ℝ} (hp : PowOK pw) (A : AtmT) (r : ℝ) (h0 : A.r0 ≤ r) (h1 : r ≤ A.r0 + 20000) (h2 : |r| ≤ 6.5e6) (t0 : 100 ≤ A.t0) (t1 : A.t0 ≤ 500) (a0 : 0 ≤ A.alpha) (a1 : A.alpha ≤ 0.01)
    (g0 : 1 ≤ A.gamm2) (g1 : A.gamm2 ≤ 33) (d0 : 1 ≤ A.delm2) (d1 : A.delm2 ≤ 33) (c1 : |A.c1| ≤ 0.01) (c2 : |A.c2| ≤ 0.01) (c3 : |A.c3| ≤ 1e-7) (c4 : |A.c4| ≤ 1e-7) (c5 : |A.c5| ≤ 1) (c6 : |A.c6| ≤ 1e-7) :
    let o := fl1Atmt fl pw A r
    let T := max (min (A.t0 - A.alpha * (r - A.r0)) 320) 100
    let q := T / A.t0
    100 ≤ o.1 ∧ o.1 ≤ 320 ∧ |o.1 - T| ≤ 1.3e-13 ∧ |o.2.1 - (1 + (A.c1 * q ^ A.gamm2 - (A.c2 - A.c5 / T) * q ^ A.delm2) * q)| ≤ 1.7e-15 ∧
    |o.2.2 - r * ((A.c4 - A.c6 / q) * q ^ A.delm2 - A.c3 * q ^ A.gamm2)| ≤ 2.7e-13 := by
  intro o T q
  have rb : |r - A.r0| ≤ 20000 := by rw [abs_le]; constructor <;> linarith
  have ab : |A.alpha| ≤ 0.01 := by rwa [abs_of_nonneg a0]
  have tb : |A.t0| ≤ 500 := by rw [abs_of_pos (by linarith)]; exact t1
  have s1 := R.add_err2 2.3e-12 (noerr (r - A.r0)) rb (by norm_num) (by norm_num)
  have s2 := R.mulB 4.6e-14 (noerr A.alpha) s1 ab rb (by norm_num) (by norm_num)
  have s3 := (R.subB 1.25e-13 (noerr A.t0) s2 tb (mul_bd ab rb) (by norm_num) (by norm_num)).1
  have s4 : |min (fl (A.t0 - fl (A.alpha * fl (r - A.r0)))) 320 - min (A.t0 - A.alpha * (r - A.r0)) 320| ≤ 1.25e-13 :=
    (abs_min_sub_min_le_max _ _ _ _).trans (by rw [sub_self, abs_zero]; exact max_le s3 (by norm_num))
  have s5 : |o.1 - T| ≤ 1.25e-13 := max_err s4 (noerr 100) (by norm_num)
  have o1 : 100 ≤ o.1 := le_max_right _ _
  have o2 : o.1 ≤ 320 := max_le (min_le_right _ _) (by norm_num)
  have T1 : 100 ≤ T := le_max_right _ _
  have T2 : T ≤ A.t0 := by
    refine max_le ((min_le_left _ _).trans ?_) t0
    have := mul_nonneg a0 (by linarith : 0 ≤ r - A.r0)
    linarith
  have q1 : q ≤ 1 := by rw [div_le_one (by linarith)]; exact T2
  have q0 : 0.2 ≤ q := by rw [le_div_iff₀ (by linarith)]; linarith
  have qb : |q| ≤ 1 := by rwa [abs_of_pos (by linarith)]
  have x1 : |fl (o.1 / A.t0) - q| ≤ 1.4e-15 := R.divB (m := 100) (β := 0) 1.4e-15 s5 (noerr A.t0) (by norm_num) (by linarith) qb (by norm_num) (by norm_num)
  obtain ⟨p1, p2⟩ := pw_err hp x1 q0 q1 g0 g1
  obtain ⟨v1, v2⟩ := pw_err hp x1 q0 q1 d0 d1
  have o3 : o.2.1 = fl (1 + fl (fl (fl (A.c1 * pw (fl (o.1 / A.t0)) A.gamm2) - fl (fl (A.c2 - fl (A.c5 / o.1)) * pw (fl (o.1 / A.t0)) A.delm2)) * fl (o.1 / A.t0))) := rfl
  have o4 : o.2.2 = fl (r * fl (fl (-A.c3 * pw (fl (o.1 / A.t0)) A.gamm2) + fl (fl (A.c4 - fl (A.c6 / fl (o.1 / A.t0))) * pw (fl (o.1 / A.t0)) A.delm2))) := rfl
  rw [o3, o4]
  have T0 : 0 < T := by linarith
  have q00 : 0 < q := by linarith
  have e5 : |A.c5 / T| ≤ 0.01 := by
    rw [abs_div, abs_of_pos T0, div_le_iff₀ T0]; linarith
  have e6 : |A.c6 / q| ≤ 5e-7 := by
    rw [abs_div, abs_of_pos q00, div_le_iff₀ q00]; linarith
  have nc3 : |-A.c3| ≤ 1e-7 := by rwa [abs_neg]
  have m5 := R.divB (m := 99) 1.6e-17 (noerr A.c5) s5 (by norm_num) (by linarith) e5 (by norm_num) (by norm_num)
  have m6 := R.divB (m := 0.19) 4e-21 (noerr A.c6) x1 (by norm_num) (by linarith) e6 (by norm_num) (by norm_num)
  generalize fl (o.1 / A.t0) = x at *
  generalize pw x A.gamm2 = y at *
  generalize q ^ A.gamm2 = Y at *
  generalize pw x A.delm2 = z at *
  generalize q ^ A.delm2 = Z at *
  have n1 := R.mulB 4.8e-16 (noerr A.c1) p1 c1 p2 (by norm_num) (by norm_num)
  obtain ⟨n2, n2b⟩ := R.subB 2e-17 (noerr A.c2) m5 c2 e5 (by norm_num) (by norm_num)
  have n3 := R.mulB 9.7e-16 n2 v1 n2b v2 (by norm_num) (by norm_num)
  obtain ⟨n4, n4b⟩ := R.subB 1.46e-15 n1 n3 (mul_bd c1 p2) (mul_bd n2b v2) (by norm_num) (by norm_num)
  have n5 := R.mulB 1.51e-15 n4 x1 n4b qb (by norm_num) (by norm_num)
  have n6 := (R.addB 1.7e-15 (noerr 1) n5 (by norm_num : |(1 : ℝ)| ≤ 1) (mul_bd n4b qb) (by norm_num) (by norm_num)).1
  have k1 := R.mulB 4.8e-21 (noerr (-A.c3)) p1 nc3 p2 (by norm_num) (by norm_num)
  obtain ⟨k2, k2b⟩ := R.subB 4.2e-21 (noerr A.c4) m6 c4 e6 (by norm_num) (by norm_num)
  have k3 := R.mulB 3.4e-20 k2 v1 k2b v2 (by norm_num) (by norm_num)
  obtain ⟨k4, k4b⟩ := R.addB 3.95e-20 k1 k3 (mul_bd nc3 p2) (mul_bd k2b v2) (by norm_num) (by norm_num)
  have k5 := R.mulB 2.7e-13 (noerr r) k4 h2 k4b (by norm_num) (by norm_num)
  refine ⟨o1, o2, s5.trans (by norm_num), n6, ?_⟩
  rw [show r * ((A.c4 - A.c6 / q) * Z - A.c3 * Y) = r * (-A.c3 * Y + (A.c4 - A.c6 / q) * Z) by ring]
  exact k5

/-- With IEEE doubles and exact library functions: 50 km up in the stratosphere, and 5 km above an observer at sea level at 288 K (constants of the optical model of the standard atmosphere). -/
example : 1 ≤ (fl1Atms ieee exp 6389120 216 1.00008 0.0341 6439120).1 ∧ |(fl1Atmt ieee (fun x y => x ^ y) ⟨6378120, 288, 0.0065, 3.25, 16.36, 2.8e-4, 1e-6, 2.7e-8, 4e-10, 0, 0⟩ 6383120).1 - 255.5| ≤ 1.3e-13 := by
  constructor
  · exact (C151_stratosphere ieee_rounding (fun x => by rw [sub_self, abs_zero]; have := exp_pos x; positivity) 6389120 216 1.00008 0.0341 6439120 (by norm_num) (by norm_num) (by norm_num) (by norm_num) (by norm_num) (by norm_num) (by norm_num) (by norm_num) (by norm_num)).2.1
  · have h := (C151_troposphere ieee_rounding powExample_ok ⟨6378120, 288, 0.0065, 3.25, 16.36, 2.8e-4, 1e-6, 2.7e-8, 4e-10, 0, 0⟩ 6383120 (by norm_num) (by norm_num) (by norm_num [abs_le]) (by norm_num) (by norm_num) (by norm_num) (by norm_num) (by norm_num) (by norm_num)
      (by norm_num) (by norm_num) (by norm_num [abs_le]) (by norm_num [abs_le]) (by norm_num [abs_le]) (by norm_num [abs_le]) (by norm_num) (by norm_num)).2.2.1
    have e : max (min ((288 : ℝ) - 0.0065 * (6383120 - 6378120)) 320) 100 = 255.5 := by rw [min_eq_left (by norm_num), max_eq_left (by norm_num)]; norm_num
    dsimp only at h
    rw [e] at h
    exact h

end Pal.Props
