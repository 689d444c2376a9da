import Verif.Lemmas.TrigNum
import Verif.Spec.Frame
import Verif.Props.Fk

/-!
# Properties C36, C76, C40: the published definitions of galactic and supergalactic coordinates and of the solar apex
-/

namespace Pal.Props
open Pal Pal.Spec Real Matrix

theorem poleFrame_rot (a d n : ℝ) : IsRotation (poleFrame a d n) := rot_mul (rot_mul (rot_axisZ _) (rot_axisX _)) (rot_axisZ _)

/-- A frame from approximate sines and cosines of its angles. -/
theorem poleFrame_near {a d n sa ca sd cd sn cn u : ℝ} (ha : |sin a - sa| ≤ u ∧ |cos a - ca| ≤ u) (hd : |sin d - sd| ≤ u ∧ |cos d - cd| ≤ u)
    (hn : |sin n - sn| ≤ u ∧ |cos n - cn| ≤ u) (hu : u ≤ 1e-3) :
    Small (poleFrame a d n - rzq cn (-sn) * rxq sd cd * rzq (-sa) ca) (6.1 * u) := by
  have hu0 : 0 ≤ u := (abs_nonneg _).trans ha.1
  have z1 : Small (axisZ (-n) - rzq cn (-sn)) (2 * u) := small_rzq (by rw [sin_neg, ← neg_add', abs_neg, ← sub_eq_add_neg]; exact hn.1) (by rw [cos_neg]; exact hn.2)
  have z2 : Small (axisX (π / 2 - d) - rxq sd cd) (2 * u) := small_rxq (by rw [sin_pi_div_two_sub]; exact hd.2) (by rw [cos_pi_div_two_sub]; exact hd.1)
  have z3 : Small (axisZ (a + π / 2) - rzq (-sa) ca) (2 * u) := small_rzq (by rw [sin_add_pi_div_two]; exact ha.2)
    (by rw [cos_add_pi_div_two, neg_sub_neg, abs_sub_comm]; exact ha.1)
  have := (z1.prod (rot_axisZ _) (rot_axisX _) z2).prod (rot_mul (rot_axisZ _) (rot_axisX _)) (rot_axisZ _) z3
  have q1 : u * u ≤ 1e-3 * u := mul_le_mul_of_nonneg_right hu hu0
  have q2 : u * (u * u) ≤ 1e-3 * (u * u) := mul_le_mul_of_nonneg_right hu (mul_nonneg hu0 hu0)
  exact this.mono (by linarith only [q1, q2, hu0])

/-- The direction of a vector obtained with a matrix close to a rotation. -/
theorem near_rot_dir {M R : Mat3} {e : ℝ} (hR : IsRotation R) (h : ∀ i j, |M i j - R i j| ≤ e) {g u : Vec3} {k : ℝ} (hk : 0 ≤ k) (hg : dot g g = 1) (hu : dot u u = 1)
    (he : (fun i => k * u i) = M *ᵥ g) : len (fun i => u i - (R *ᵥ g) i) ≤ 6 * e := by
  have he0 : 0 ≤ e := (abs_nonneg _).trans (h 0 0)
  have hl := len_mulVec_le (m := M - R) h g
  rw [len_eq g, hg, Real.sqrt_one, mul_one, Matrix.sub_mulVec, ← he] at hl
  have h2 : (k * u 0 - (R *ᵥ g) 0) ^ 2 + (k * u 1 - (R *ᵥ g) 1) ^ 2 + (k * u 2 - (R *ᵥ g) 2) ^ 2 ≤ (3 * e) ^ 2 := by
    unfold len at hl
    rw [Fin.sum_univ_three] at hl
    exact (Real.sqrt_le_left (by linarith)).1 hl
  have h3 := unit_near hk hu (by rw [rot_dot hR, hg]) h2
  refine (len_le (E := 2 * (3 * e)) (by linarith) h3).trans (by linarith)

theorem ge50_near (i j : Fin 3) : |ge50Mat i j - poleFrame (deg 192.25) (deg 27.4) (deg 33) i j| ≤ 4e-12 := by
  have a1 : |sin (deg 192.25) - -0.2121776721564463| ≤ 5e-13 ∧ |cos (deg 192.25) - -0.9772311064626789| ≤ 5e-13 := by
    have e : deg 192.25 = 12.25 * (π / 180) + π := by unfold deg; ring
    rw [e, sin_add_pi, cos_add_pi]
    constructor
    · rw [neg_sub_neg, abs_sub_comm]; exact deg_12_25.1
    · rw [neg_sub_neg, abs_sub_comm]; exact deg_12_25.2
  have := (poleFrame_near a1 deg_27_4 deg_33 (by norm_num)).entry i j
  have h2 : |ge50Mat i j - (rzq 0.8386705679454240 (-0.5446390350150271) * rxq 0.4601997847838516 0.8878153851364013 * rzq (- -0.2121776721564463) (-0.9772311064626789)) i j| ≤ 9e-13 := by
    fin_cases i <;> fin_cases j <;> simp [ge50Mat, rzq, rxq, Matrix.mul_apply, Fin.sum_univ_three] <;> norm_num [abs_le]
  rw [Matrix.sub_apply] at this
  have e : deg 27.4 = 27.4 * (π / 180) := rfl
  have e' : deg 33 = 33 * (π / 180) := rfl
  rw [e, e']
  rw [abs_le] at *
  constructor <;> linarith [this.1, this.2, h2.1, h2.2]

theorem galsup_near (i j : Fin 3) : |galsupMat i j - poleFrame (deg 47.37) (deg 6.32) 0 i j| ≤ 4e-12 := by
  have a3 : |sin (0 : ℝ) - 0| ≤ 5e-13 ∧ |cos (0 : ℝ) - 1| ≤ 5e-13 := by simp; norm_num
  have := (poleFrame_near deg_47_37 deg_6_32 a3 (by norm_num)).entry i j
  have h2 : |galsupMat i j - (rzq 1 (-0) * rxq 0.1100812622247821 0.9939225903997749 * rzq (-0.7357425748043749) 0.6772612964138943) i j| ≤ 9e-13 := by
    fin_cases i <;> fin_cases j <;> simp [galsupMat, rzq, rxq, Matrix.mul_apply, Fin.sum_univ_three] <;> norm_num [abs_le]
  rw [Matrix.sub_apply] at this
  have e : deg 47.37 = 47.37 * (π / 180) := rfl
  have e' : deg 6.32 = 6.32 * (π / 180) := rfl
  rw [e, e']
  rw [abs_le] at *
  constructor <;> linarith [this.1, this.2, h2.1, h2.2]

/-- **C36** (definition of supergalactic coordinates) palGalsup gives the coordinates, to 3e-11 radian, in the system whose pole is at galactic longitude 47.37 and latitude +6.32 degrees
and whose longitudes start where its equator ascends through the galactic equator; palSupgal turns them back. -/
theorem C36_supergalactic (x y : ℝ) :
    (let s := palGalsup x y; len (fun i => dir s.1 s.2 i - (poleFrame (deg 47.37) (deg 6.32) 0 *ᵥ dir x y) i) ≤ 3e-11) ∧
    (let g := palSupgal x y; len (fun i => dir g.1 g.2 i - ((poleFrame (deg 47.37) (deg 6.32) 0)ᵀ *ᵥ dir x y) i) ≤ 3e-11) := by
  have h3 : ∀ a b, (fun i => √(dot (galsupMat.mulVec (dir a b)) (galsupMat.mulVec (dir a b))) * dir (palGalsup a b).1 (palGalsup a b).2 i) = galsupMat.mulVec (dir a b) := by
    intro a b; unfold palGalsup; dsimp only; rw [anpm_lat, eraRxp_eq, eraS2c_eq]; exact c2s_dir _
  have h4 : ∀ a b, (fun i => √(dot (supgalMat.transpose.mulVec (dir a b)) (supgalMat.transpose.mulVec (dir a b))) * dir (palSupgal a b).1 (palSupgal a b).2 i) =
      supgalMat.transpose.mulVec (dir a b) := by
    intro a b; unfold palSupgal; dsimp only; rw [anpm_lat, eraTrxp_eq, eraS2c_eq]; exact c2s_dir _
  have hs : supgalMat = galsupMat := by unfold supgalMat galsupMat; rfl
  refine ⟨?_, ?_⟩
  · exact (near_rot_dir (poleFrame_rot _ _ _) galsup_near (Real.sqrt_nonneg _) (dot_dir _ _) (dot_dir _ _) (h3 x y)).trans (by norm_num)
  · exact (near_rot_dir (rot_transpose (poleFrame_rot _ _ _)) (fun i j => by rw [hs]; exact galsup_near j i) (Real.sqrt_nonneg _) (dot_dir _ _) (dot_dir _ _) (h4 x y)).trans (by norm_num)

/-- **C76** (definition of galactic coordinates) What palGe50 adds the E-terms to is, to 4e-11 radian, the direction with these galactic coordinates in the system defined by the IAU: pole at B1950 right ascension 192.25
and declination +27.4 degrees, ascending node of the galactic on the B1950 equator at longitude 33 degrees. -/
theorem C76_definition (l b : ℝ) :
    let m := palSubet (palGe50 l b).1 (palGe50 l b).2 1950
    len (fun i => dir m.1 m.2 i - ((poleFrame (deg 192.25) (deg 27.4) (deg 33))ᵀ *ᵥ dir l b) i) ≤ 4e-11 := by
  obtain ⟨_, _, _, u, k, hk, hu, he, h⟩ := C76_ge50 l b
  have h1 := near_rot_dir (R := (poleFrame (deg 192.25) (deg 27.4) (deg 33))ᵀ) (rot_transpose (poleFrame_rot _ _ _)) (fun i j => by exact ge50_near j i) hk (dot_dir l b) hu he
  dsimp only at h ⊢
  refine (len_tri _ u _).trans ?_
  linarith

/-! ## Through B1950 -/

theorem ang_peri50 : |sin (43489.951 * das2r) - 0.20928648865808| ≤ 1e-10 ∧ |cos (43489.951 * das2r) - 0.97785436833159| ≤ 1e-10 :=
  trig_near (a0 := 0.210845232356) (by norm_num) (das2r_near _ _ (by norm_num) (by norm_num) (by norm_num)) (by norm_num) (by norm_num) (by norm_num) (by norm_num)

theorem ang_obl50 : |sin (84404.836 * das2r) - 0.39788118503593| ≤ 1e-10 ∧ |cos (84404.836 * das2r) - 0.91743695292614| ≤ 1e-10 :=
  trig_near (a0 := 0.409206192446) (by norm_num) (das2r_near _ _ (by norm_num) (by norm_num) (by norm_num)) (by norm_num) (by norm_num) (by norm_num) (by norm_num)

/-- The E-terms of 1950 computed by palEtrms are those tabulated in palFk45z. -/
theorem etrms_fkA : len (fun i => palEtrms 1950 i - fkA i) ≤ 1e-11 := by
  have h := C39_etrms_vector 1950
  dsimp only at h
  rw [h]
  have hl : earthPeri ((1950 - 1950) * 0.0100002135903) - π / 2 = 43489.951 * das2r + π := by
    unfold earthPeri das2r; ring
  have ho : earthObl ((1950 - 1950) * 0.0100002135903) = 84404.836 * das2r := by unfold earthObl das2r; ring
  have he : earthEcc ((1950 - 1950) * 0.0100002135903) = 0.01673011 := by unfold earthEcc; ring
  rw [hl, ho, he]
  obtain ⟨s1, c1⟩ := ang_peri50
  obtain ⟨s2, c2⟩ := ang_obl50
  have p1 := Real.pi_gt_d20
  have p2 := Real.pi_lt_d20
  refine len_le (by norm_num) ?_
  simp [axisX, dir, fkA, Matrix.mulVec, dotProduct, Fin.sum_univ_three, sin_add_pi, cos_add_pi]
  generalize sin (43489.951 * das2r) = sl at *
  generalize cos (43489.951 * das2r) = cl at *
  generalize sin (84404.836 * das2r) = so at *
  generalize cos (84404.836 * das2r) = co at *
  have hK : |0.01673011 * (20.49552 * (π / 648000)) - 1.662388801783e-6| ≤ 1e-16 := by
    rw [abs_le]; constructor <;> norm_num <;> linarith
  generalize 0.01673011 * (20.49552 * (π / 648000)) = K at *
  have hx : |-(K * cl) + 1.62557e-6| ≤ 5e-12 := by
    rw [abs_le] at *
    constructor <;> nlinarith
  have hy1 : |co * sl - 0.91743695292614 * 0.20928648865808| ≤ 3e-10 := by
    rw [abs_le] at *
    constructor <;> nlinarith
  have hz1 : |so * sl - 0.39788118503593 * 0.20928648865808| ≤ 3e-10 := by
    rw [abs_le] at *
    constructor <;> nlinarith
  have hy : |-(K * (co * sl)) + 0.31919e-6| ≤ 5e-12 := by
    generalize co * sl = q at *
    rw [abs_le] at *
    constructor <;> nlinarith
  have hz : |-(K * (so * sl)) + 0.13843e-6| ≤ 5e-12 := by
    generalize so * sl = q at *
    rw [abs_le] at *
    constructor <;> nlinarith
  have := sq_le_sq' (abs_le.1 hx).1 (abs_le.1 hx).2
  have := sq_le_sq' (abs_le.1 hy).1 (abs_le.1 hy).2
  have := sq_le_sq' (abs_le.1 hz).1 (abs_le.1 hz).2
  norm_num at *
  linarith

/-- palFk45z at epoch 1950 in matrix form. -/
theorem fk45z_mat (r d : ℝ) (v : Vec3) (hv : v = fun i => dir r d i - fkA i + dot (dir r d) fkA * dir r d i) :
    palFk45z r d 1950 = (eraAnp (eraC2s (fk45mat.mulVec v)).1, (eraC2s (fk45mat.mulVec v)).2) := by
  have h0 : (fun i => fkA i + (1950 - 1950 : ℝ) / palPMF * fkAd i) = fkA := by funext i; simp
  unfold palFk45z
  dsimp only
  rw [eraS2c_eq]
  have h0' := fun i => congrFun h0 i
  simp only [h0']
  rw [← dot_eq, ← hv, eraRxp_eq, eraRxp_eq]
  have : (fun i => emP.mulVec v i + (palEpjR (palEpb2dR 1950) - 2000) / palPMF * emV.mulVec v i) = fk45mat.mulVec v := by
    unfold fk45mat
    rw [add_mulVec, smul_mulVec]; rfl
  rw [this]

theorem gal_fk : ∀ i j, |(fk45mat * ge50Mat.transpose - galeqMat.transpose) i j| ≤ 8e-11 := by
  obtain ⟨h1, h2⟩ : -2.4240787e-6 ≤ (palEpjR (palEpb2dR 1950) - 2000) / palPMF ∧ (palEpjR (palEpb2dR 1950) - 2000) / palPMF ≤ -2.4240785e-6 := by
    have h1 := Real.pi_gt_d20
    have h2 := Real.pi_lt_d20
    unfold palPMF palEpjR palEpb2dR rMJD0
    rw [div_div_eq_mul_div]
    constructor <;> norm_num <;> linarith
  unfold fk45mat
  generalize (palEpjR (palEpb2dR 1950) - 2000) / palPMF = w at *
  intro i j
  rw [abs_le, Matrix.sub_apply, Matrix.mul_apply, Fin.sum_univ_three]
  simp only [Matrix.transpose_apply, Matrix.add_apply, Matrix.smul_apply, smul_eq_mul]
  fin_cases i <;> fin_cases j <;> simp [emP, emV, ge50Mat, galeqMat] <;> constructor <;> linarith

theorem galeq_orth : ∀ i j, |(galeqMat.transpose.transpose * galeqMat.transpose - 1) i j| ≤ 1e-10 := by
  intro i j
  rw [abs_le, Matrix.sub_apply, Matrix.mul_apply, Fin.sum_univ_three]
  simp only [Matrix.transpose_apply]
  fin_cases i <;> fin_cases j <;> simp [galeqMat] <;> constructor <;> norm_num

theorem near_orth_len {M : Mat3} {e : ℝ} (hM : ∀ i j, |(M.transpose * M - 1) i j| ≤ e) (he : e ≤ 1 / 10) {p : Vec3} (hp : len p = 1) : 1 - 3 * e ≤ len (M.mulVec p) := by
  have h := dot_mulVec_le hM hp
  have e' : dot (M.mulVec p) (M.mulVec p) = dot p ((M.transpose * M - 1).mulVec p) + dot p p := by
    rw [sub_mulVec, one_mulVec]
    have : dot p ((M.transpose * M).mulVec p - p) = dot p ((M.transpose * M).mulVec p) - dot p p := dot_sub_right _ _ _
    rw [this, dot_dotProduct (M.mulVec p), dot_dotProduct p ((M.transpose * M).mulVec p), dotProduct_mulVec, vecMul_mulVec, dotProduct_mulVec]
    ring
  rw [dot_of_len hp, ← len_sq] at e'
  obtain ⟨a, b⟩ := abs_le.1 h
  have := len_nonneg (M.mulVec p)
  have : 0 ≤ e := (abs_nonneg _).trans (hM 0 0)
  nlinarith

set_option maxHeartbeats 1000000 in
/-- **C36** (the two ways to the sky of J2000) Converting galactic coordinates to B1950 (palGe50) and from there to J2000 (palFk45z, epoch 1950) gives everywhere the direction that palGaleq
gives, to 2e-9 radian (0.4 milliarcsecond). -/
theorem C36_via_b1950 (l b : ℝ) :
    let m := palGe50 l b
    let e := palFk45z m.1 m.2 1950
    len (fun i => dir e.1 e.2 i - dir (palGaleq l b).1 (palGaleq l b).2 i) ≤ 2e-9 := by
  dsimp only
  have h2 : (fun i => √(dot (galeqMat.transpose.mulVec (dir l b)) (galeqMat.transpose.mulVec (dir l b))) * dir (palGaleq l b).1 (palGaleq l b).2 i) =
      galeqMat.transpose.mulVec (dir l b) := by
    unfold palGaleq; dsimp only; rw [anpm_lat, eraTrxp_eq, eraS2c_eq]; exact c2s_dir _
  have hQ := C76_definition l b
  dsimp only at hQ
  obtain ⟨-, ⟨k, hk, hm⟩, -⟩ := C39_addet_subet (palGe50 l b).1 (palGe50 l b).2 1950
  have hA := etrms_fkA
  have hE := C39_etrms_size 1950 (by norm_num) (by norm_num)
  have hg := len_dir l b
  rw [fk45z_mat (palGe50 l b).1 (palGe50 l b).2 _ rfl]
  have hD1 := len_dir (palGe50 l b).1 (palGe50 l b).2
  generalize dir (palGe50 l b).1 (palGe50 l b).2 = D at *
  have hm1 := len_dir (palSubet (palGe50 l b).1 (palGe50 l b).2 1950).1 (palSubet (palGe50 l b).1 (palGe50 l b).2 1950).2
  generalize dir (palSubet (palGe50 l b).1 (palGe50 l b).2 1950).1 (palSubet (palGe50 l b).1 (palGe50 l b).2 1950).2 = mm at *
  generalize palEtrms 1950 = e at *
  generalize dir l b = g at *
  generalize hv : (fun i => D i - fkA i + dot D fkA * D i) = v at *
  -- the length of the direction freed from the E-terms
  have hk1 : |k - 1| ≤ 1e-11 := by
    have e1 : k ^ 2 = 1 - dot D e ^ 2 + dot e e := by
      have a1 : dot (fun i => k * mm i) (fun i => k * mm i) = k ^ 2 := by
        rw [dot_smul_left, dot_smul_right, dot_of_len hm1]; ring
      have a2 : (fun i => k * mm i) = fun i => (1 + dot D e) * D i - e i := funext hm
      rw [← a1, a2]
      have hD2 := dot_of_len hD1
      have c1 : dot (fun i => (1 + dot D e) * D i - e i) (fun i => (1 + dot D e) * D i - e i) = (1 + dot D e) ^ 2 * dot D D - 2 * (1 + dot D e) * dot D e + dot e e := by
        generalize hq : dot D e = q
        rw [dot_eq] at hq
        simp only [dot_eq]
        rw [← hq]
        ring
      rw [c1, hD2]; ring
    have e2 := abs_le.1 (dot_le_len D e)
    rw [hD1, one_mul] at e2
    have e3 := len_sq e
    have e0 := len_nonneg e
    have b1 : |k ^ 2 - 1| ≤ 6e-12 := by
      rw [e1, ← e3, abs_le]
      constructor <;> nlinarith
    rw [abs_le] at b1 ⊢
    constructor <;> nlinarith
  have hv1 : len (fun i => v i - k * mm i) ≤ 2e-11 := by
    have a1 : (fun i => v i - k * mm i) = fun i => (e i - fkA i) - dot D (fun i => e i - fkA i) * D i := by
      funext i
      rw [← hv, hm, dot_sub_right]; ring
    rw [a1]
    refine (len_sub_le _ _).trans ?_
    rw [len_smul, hD1, mul_one]
    have := dot_le_len D (fun i => e i - fkA i)
    rw [hD1, one_mul] at this
    linarith
  have hv2 : len (fun i => v i - ((poleFrame (deg 192.25) (deg 27.4) (deg 33))ᵀ *ᵥ g) i) ≤ 7.1e-11 := by
    have t1 := len_tri v (fun i => k * mm i) ((poleFrame (deg 192.25) (deg 27.4) (deg 33))ᵀ *ᵥ g)
    have t2 := len_tri (fun i => k * mm i) mm ((poleFrame (deg 192.25) (deg 27.4) (deg 33))ᵀ *ᵥ g)
    have t3 : len (fun i => k * mm i - mm i) = |k - 1| := by
      have : (fun i => k * mm i - mm i) = fun i => (k - 1) * mm i := by funext i; ring
      rw [this, len_smul, hm1, mul_one]
    rw [t3] at t2
    linarith
  have hv3 : len (fun i => v i - (ge50Mat.transpose *ᵥ g) i) ≤ 8.4e-11 := by
    have t1 := len_tri v ((poleFrame (deg 192.25) (deg 27.4) (deg 33))ᵀ *ᵥ g) (ge50Mat.transpose *ᵥ g)
    have t2 := len_mulVec_le (m := (poleFrame (deg 192.25) (deg 27.4) (deg 33))ᵀ - ge50Mat.transpose) (e := 4e-12) (fun i j => by rw [Matrix.sub_apply, abs_sub_comm]; exact ge50_near j i) g
    rw [hg, Matrix.sub_mulVec] at t2
    have t3 : len (fun i => ((poleFrame (deg 192.25) (deg 27.4) (deg 33))ᵀ *ᵥ g) i - (ge50Mat.transpose *ᵥ g) i) ≤ 3 * 4e-12 * 1 := t2
    linarith
  have hdiff : len (fun i => fk45mat.mulVec v i - (galeqMat.transpose *ᵥ g) i) ≤ 5e-10 := by
    have e1 : (fun i => fk45mat.mulVec v i - (galeqMat.transpose *ᵥ g) i) = fun i => fk45mat.mulVec (fun i => v i - (ge50Mat.transpose *ᵥ g) i) i + (fk45mat * ge50Mat.transpose - galeqMat.transpose).mulVec g i := by
      have e1 : fk45mat.mulVec (fun i => v i - (ge50Mat.transpose *ᵥ g) i) = fk45mat.mulVec v - fk45mat.mulVec (ge50Mat.transpose *ᵥ g) := Matrix.mulVec_sub fk45mat v _
      rw [e1, sub_mulVec, ← mulVec_mulVec]
      funext i
      simp only [Pi.sub_apply]; ring
    rw [e1]
    refine (len_add_le _ _).trans ?_
    have k1 := len_mulVec_le fk_big (fun i => v i - (ge50Mat.transpose *ᵥ g) i)
    have k2 := len_mulVec_le gal_fk g
    rw [hg] at k2
    linarith
  have hG := near_orth_len galeq_orth (by norm_num) hg
  have h := dir_close (len_dir _ _) (len_dir _ _) (Real.sqrt_nonneg _) (Real.sqrt_nonneg _) h2 (c2s_dir (fk45mat.mulVec v)) (by norm_num : (0 : ℝ) < 1 / 2) (by linarith) hdiff
  exact h.trans (by norm_num)

/-! ## The standard solar motion -/

theorem deuler_zyz (a b c : ℝ) : palDeuler ['Z', 'Y', 'Z'] a b c = axisZ c * axisY b * axisZ a := by
  rw [(C34_deuler _ _ _ _).1]
  have h0 : eulerFactor ['Z', 'Y', 'Z'] 0 a = axisZ a := by simp [eulerFactor, axisOf]
  have h1 : eulerFactor ['Z', 'Y', 'Z'] 1 b = axisY b := by simp [eulerFactor, axisOf]
  have h2 : eulerFactor ['Z', 'Y', 'Z'] 2 c = axisZ c := by simp [eulerFactor, axisOf]
  rw [h0, h1, h2]

theorem near_mul {a a0 b b0 u v : ℝ} (ha : |a - a0| ≤ u) (hb : |b - b0| ≤ v) (ha0 : |a0| ≤ 1) (hb0 : |b0| ≤ 1) (hv : v ≤ 1) : |a * b - a0 * b0| ≤ 2 * u + v := by
  have e : a * b - a0 * b0 = (a - a0) * (b - b0) + (a - a0) * b0 + a0 * (b - b0) := by ring
  rw [e]
  refine (abs_add_three _ _ _).trans ?_
  rw [abs_mul, abs_mul, abs_mul]
  have h1 : |a - a0| * |b - b0| ≤ u * 1 := mul_le_mul ha (hb.trans hv) (abs_nonneg _) ((abs_nonneg _).trans ha)
  have h2 : |a - a0| * |b0| ≤ u * 1 := mul_le_mul ha hb0 (abs_nonneg _) ((abs_nonneg _).trans ha)
  have h3 : |a0| * |b - b0| ≤ 1 * v := mul_le_mul ha0 hb (abs_nonneg _) zero_le_one
  linarith

theorem ang_zeta : |sin (2304.57369625 * das2r) - 0.01117265611377| ≤ 1e-10 ∧ |cos (2304.57369625 * das2r) - 0.99993758392980| ≤ 1e-10 :=
  trig_near (a0 := 0.011172888571) (by norm_num) (das2r_near _ _ (by norm_num) (by norm_num) (by norm_num)) (by norm_num) (by norm_num) (by norm_num) (by norm_num)
theorem ang_z : |sin (2305.36671225 * das2r) - 0.01117650052378| ≤ 1e-10 ∧ |cos (2305.36671225 * das2r) - 0.99993754096746| ≤ 1e-10 :=
  trig_near (a0 := 0.011176733221) (by norm_num) (das2r_near _ _ (by norm_num) (by norm_num) (by norm_num)) (by norm_num) (by norm_num) (by norm_num) (by norm_num)
theorem ang_theta : |sin (2004.21748425 * das2r) - 0.00971656766341| ≤ 1e-10 ∧ |cos (2004.21748425 * das2r) - 0.99995279304217| ≤ 1e-10 :=
  trig_near (a0 := 0.009716720563) (by norm_num) (das2r_near _ _ (by norm_num) (by norm_num) (by norm_num)) (by norm_num) (by norm_num) (by norm_num) (by norm_num)

/-- **C40** (kinematical standard of rest) palRvlsrk is minus the component of 20 km/s towards right ascension 18 hours and declination +30 degrees of 1900, brought to 2000 with palPrebn, within 0.0001 km/s. -/
theorem C40_lsrk (r d : ℝ) : |palRvlsrk r d + 20 * dot (palPrebn 1900 2000 *ᵥ dir (deg 270) (deg 30)) (dir r d)| ≤ 1e-4 := by
  have hP : palPrebn 1900 2000 = axisZ (-(2305.36671225 * das2r)) * axisY (2004.21748425 * das2r) * axisZ (-(2304.57369625 * das2r)) := by
    unfold palPrebn
    dsimp only
    rw [deuler_zyz]
    congr 3 <;> norm_num
  have hd : dir (deg 270) (deg 30) = ![0, -(√3 / 2), 1 / 2] := by
    have e1 : deg 270 = π + π / 2 := by unfold deg; ring
    have e2 : deg 30 = π / 6 := by unfold deg; ring
    rw [e1, e2]
    simp [dir, cos_add, sin_add]
  unfold palRvlsrk
  rw [eraPdp_eq, eraS2c_eq, hP, hd]
  obtain ⟨s1, c1⟩ := ang_zeta
  obtain ⟨s2, c2⟩ := ang_z
  obtain ⟨s3, c3⟩ := ang_theta
  have q1 : (0.86602540378 : ℝ) ≤ √3 / 2 := by
    rw [le_div_iff₀ (by norm_num)]; exact Real.le_sqrt_of_sq_le (by norm_num)
  have q2 : √3 / 2 ≤ 0.86602540379 := by
    rw [div_le_iff₀ (by norm_num)]; exact Real.sqrt_le_iff.2 ⟨by norm_num, by norm_num⟩
  set a : Vec3 := fun i => (![-0.29000, 17.31726, -10.00141] : Vec3) i + 20 * ((axisZ (-(2305.36671225 * das2r)) * axisY (2004.21748425 * das2r) * axisZ (-(2304.57369625 * das2r))) *ᵥ ![0, -(√3 / 2), 1 / 2]) i with ha
  have hsum : dot (![-0.29000, 17.31726, -10.00141] : Vec3) (dir r d) + 20 * dot ((axisZ (-(2305.36671225 * das2r)) * axisY (2004.21748425 * das2r) * axisZ (-(2304.57369625 * das2r))) *ᵥ ![0, -(√3 / 2), 1 / 2]) (dir r d) = dot a (dir r d) := by
    rw [ha]; simp only [dot_eq]; ring
  rw [hsum]
  refine (dot_le_len _ _).trans ?_
  rw [len_dir, mul_one]
  refine len_le (by norm_num) ?_
  rw [ha]
  simp [axisZ, axisY, Matrix.mulVec, dotProduct, Fin.sum_univ_three, Matrix.mul_apply]
  generalize sin (2304.57369625 * das2r) = sl at *
  generalize cos (2304.57369625 * das2r) = cl at *
  generalize sin (2305.36671225 * das2r) = so at *
  generalize cos (2305.36671225 * das2r) = co at *
  generalize sin (2004.21748425 * das2r) = st at *
  generalize cos (2004.21748425 * das2r) = ct at *
  generalize √3 / 2 = q at *
  have hq : |q - 0.86602540378| ≤ 1e-10 := by rw [abs_le]; constructor <;> linarith
  have n1 : |(0.99993754096746 : ℝ)| ≤ 1 := by norm_num [abs_le]
  have n2 : |(0.99995279304217 : ℝ)| ≤ 1 := by norm_num [abs_le]
  have n3 : |(0.01117265611377 : ℝ)| ≤ 1 := by norm_num [abs_le]
  have n4 : |(0.01117650052378 : ℝ)| ≤ 1 := by norm_num [abs_le]
  have n5 : |(0.99993758392980 : ℝ)| ≤ 1 := by norm_num [abs_le]
  have n6 : |(0.00971656766341 : ℝ)| ≤ 1 := by norm_num [abs_le]
  have n7 : |(0.86602540378 : ℝ)| ≤ 1 := by norm_num [abs_le]
  have p1 := near_mul (near_mul (near_mul c2 c3 n1 n2 (by norm_num)) s1 (by norm_num [abs_le]) n3 (by norm_num)) hq (by norm_num [abs_le]) n7 (by norm_num)
  have p2 := near_mul (near_mul s2 c1 n4 n5 (by norm_num)) hq (by norm_num [abs_le]) n7 (by norm_num)
  have p3 := near_mul c2 s3 n1 n6 (by norm_num)
  have p4 := near_mul (near_mul (near_mul s2 c3 n4 n2 (by norm_num)) s1 (by norm_num [abs_le]) n3 (by norm_num)) hq (by norm_num [abs_le]) n7 (by norm_num)
  have p5 := near_mul (near_mul c2 c1 n1 n5 (by norm_num)) hq (by norm_num [abs_le]) n7 (by norm_num)
  have p6 := near_mul s2 s3 n4 n6 (by norm_num)
  have p7 := near_mul (near_mul s3 s1 n6 n3 (by norm_num)) hq (by norm_num [abs_le]) n7 (by norm_num)
  have hx : |-0.29000 + 20 * (-((-(co * ct * sl) + -(so * cl)) * q) + -(co * st * 2⁻¹))| ≤ 9.5e-5 := by
    rw [show -0.29000 + 20 * (-((-(co * ct * sl) + -(so * cl)) * q) + -(co * st * 2⁻¹)) = -0.29 + 20 * (co * ct * sl * q) + 20 * (so * cl * q) - 10 * (co * st) by ring]
    generalize co * ct * sl * q = t1 at *
    generalize so * cl * q = t2 at *
    generalize co * st = t3 at *
    rw [abs_le] at *
    constructor <;> norm_num at p1 p2 p3 ⊢ <;> linarith [p1.1, p1.2, p2.1, p2.2, p3.1, p3.2]
  have hy : |17.31726 + 20 * (-((-(so * ct * sl) + co * cl) * q) + -(so * st * 2⁻¹))| ≤ 1e-5 := by
    rw [show 17.31726 + 20 * (-((-(so * ct * sl) + co * cl) * q) + -(so * st * 2⁻¹)) = 17.31726 + 20 * (so * ct * sl * q) - 20 * (co * cl * q) - 10 * (so * st) by ring]
    generalize so * ct * sl * q = t1 at *
    generalize co * cl * q = t2 at *
    generalize so * st = t3 at *
    rw [abs_le] at *
    constructor <;> norm_num at p4 p5 p6 ⊢ <;> linarith [p4.1, p4.2, p5.1, p5.2, p6.1, p6.2]
  have hz : |-10.00141 + 20 * (st * sl * q + ct * 2⁻¹)| ≤ 1e-5 := by
    generalize st * sl * q = t1 at *
    rw [abs_le] at *
    constructor <;> norm_num at p7 c3 ⊢ <;> linarith [p7.1, p7.2, c3.1, c3.2]
  have r1 := sq_le_sq' (abs_le.1 hx).1 (abs_le.1 hx).2
  have r2 := sq_le_sq' (abs_le.1 hy).1 (abs_le.1 hy).2
  have r3 := sq_le_sq' (abs_le.1 hz).1 (abs_le.1 hz).2
  refine (add_le_add (add_le_add r1 r2) r3).trans (by norm_num)

/-- The hypotheses-free statements above at work: the supergalactic pole and the solar apex. -/
example : len (fun i => dir (palGalsup (deg 47.37) (deg 6.32)).1 (palGalsup (deg 47.37) (deg 6.32)).2 i - (![0, 0, 1] : Vec3) i) ≤ 3e-11 := by
  have h := (C36_supergalactic (deg 47.37) (deg 6.32)).1
  have e : poleFrame (deg 47.37) (deg 6.32) 0 *ᵥ dir (deg 47.37) (deg 6.32) = ![0, 0, 1] := by
    unfold poleFrame
    rw [← mulVec_mulVec, ← mulVec_mulVec]
    have a := sin_sq_add_cos_sq (deg 47.37)
    have b := sin_sq_add_cos_sq (deg 6.32)
    funext i
    fin_cases i <;> simp [axisZ, axisX, dir, Matrix.mulVec, dotProduct, Fin.sum_univ_three, sin_add, cos_add, sin_sub, cos_sub] <;> grind
  dsimp only at h
  rwa [e] at h

end Pal.Props
