import Verif.Props.Coord

/-!
# Properties C42, C43, C44: precession and nutation matrices
-/

namespace Pal.Props
open Pal Pal.Spec Real Matrix

/-- The matrix that, according to the theory, takes mean places of J2000 to mean places of epoch `e`. -/
noncomputable def fromJ2000 (T : Theory) (e : ℝ) : Mat3 := T.pmat06 2451545 ((e - 2000) * 365.25)

/-- **C42** (rotation, identity, reversal) The palPrec matrix is a rotation; for equal epochs other than 2000 it is the identity (for 2000 twice it is whatever
matrix the theory gives for J2000, i.e. its frame bias); exchanging the epochs transposes it. -/
theorem C42_prec_rotation (T : Theory) (hT : ∀ a b, IsRotation (T.pmat06 a b)) (ep0 ep1 : ℝ) :
    IsRotation (palPrec T ep0 ep1) ∧ (ep0 ≠ 2000 → palPrec T ep0 ep0 = 1) ∧ palPrec T 2000 2000 = fromJ2000 T 2000 ∧
    (ep0 ≠ 2000 ∨ ep1 ≠ 2000 → palPrec T ep1 ep0 = (palPrec T ep0 ep1).transpose) := by
  refine ⟨?_, fun h => ?_, by simp [palPrec, fromJ2000], fun h => ?_⟩
  · unfold palPrec
    dsimp only
    rw [eraRxr_eq, eraTr_eq]
    split_ifs
    · exact hT _ _
    · exact rot_transpose (hT _ _)
    · exact rot_mul (rot_transpose (hT _ _)) (hT _ _)
  · unfold palPrec
    dsimp only
    rw [if_neg h, if_neg h, eraRxr_eq, eraTr_eq]
    exact rot_trans_mul (hT _ _)
  · unfold palPrec
    dsimp only
    rw [eraRxr_eq, eraRxr_eq, eraTr_eq, eraTr_eq]
    by_cases h0 : ep0 = 2000 <;> by_cases h1 : ep1 = 2000
    · exact absurd h (by simp [h0, h1])
    · rw [if_neg h1, if_pos h0, if_pos h0]
    · rw [if_pos h1, if_neg h0, if_pos h1, transpose_transpose]
    · rw [if_neg h1, if_neg h0, if_neg h0, if_neg h1, transpose_mul, transpose_transpose]

/-- **C42** (partial) When one of the epochs is 2000 (and the theory has no frame bias, i.e. its matrix for 2000 is the identity), palPrec takes the mean place of ep0 to that of ep1.
What is missing is the case where neither epoch is 2000, where the code multiplies in the wrong order: see `C42_prec_iff` and `C42_prec_refuted`. -/
theorem C42_prec_maps_partial (T : Theory) (hT : ∀ a b, IsRotation (T.pmat06 a b)) (hB : fromJ2000 T 2000 = 1) (ep0 ep1 : ℝ)
    (h : ep0 = 2000 ∨ ep1 = 2000) : palPrec T ep0 ep1 * fromJ2000 T ep0 = fromJ2000 T ep1 := by
  by_cases h0 : ep0 = 2000
  · rw [h0, hB, mul_one]
    simp [palPrec, fromJ2000]
  · have h1 := h.resolve_left h0
    rw [h1, hB]
    unfold palPrec fromJ2000
    rw [if_neg h0, if_pos rfl, eraTr_eq]
    exact rot_trans_mul (hT _ _)

/-- **C42** (when it is right) For epochs other than 2000, palPrec takes the mean place of ep0 to that of ep1 only if the two precession matrices commute. -/
theorem C42_prec_iff (T : Theory) (hT : ∀ a b, IsRotation (T.pmat06 a b)) (ep0 ep1 : ℝ) (h0 : ep0 ≠ 2000) (h1 : ep1 ≠ 2000) :
    palPrec T ep0 ep1 * fromJ2000 T ep0 = fromJ2000 T ep1 ↔ fromJ2000 T ep0 * fromJ2000 T ep1 = fromJ2000 T ep1 * fromJ2000 T ep0 := by
  have e : palPrec T ep0 ep1 = (fromJ2000 T ep0).transpose * fromJ2000 T ep1 := by
    unfold palPrec fromJ2000
    dsimp only
    rw [if_neg h0, if_neg h1, eraRxr_eq, eraTr_eq]
  have hr : IsRotation (fromJ2000 T ep0) := hT _ _
  rw [e]
  generalize fromJ2000 T ep0 = A at *
  generalize fromJ2000 T ep1 = B at *
  constructor
  · intro h
    calc A * B = A * (A.transpose * B * A) := by rw [h]
      _ = A * A.transpose * (B * A) := by simp only [Matrix.mul_assoc]
      _ = B * A := by rw [hr.1, one_mul]
  · intro h
    calc A.transpose * B * A = A.transpose * (B * A) := by rw [Matrix.mul_assoc]
      _ = A.transpose * (A * B) := by rw [h]
      _ = B := by rw [← Matrix.mul_assoc, rot_trans_mul hr, one_mul]

/-- A theory with matrices that do not commute: a right angle about z for times after 2000, about x before. -/
noncomputable def turnTheory : Theory where
  pmat06 _ b := if b = 0 then 1 else if 0 < b then axisZ (π / 2) else axisX (π / 2)
  obl06 _ _ := 0
  nut06a _ _ := (0, 0)
  p06e _ _ := ⟨0, 0, 0, 0⟩
  pnm06a _ _ := 1

theorem turn_rot : ∀ a b, IsRotation (turnTheory.pmat06 a b) := by
  intro a b
  show IsRotation (if b = 0 then 1 else if 0 < b then axisZ (π / 2) else axisX (π / 2))
  split_ifs
  · exact rot_one
  · exact rot_axisZ _
  · exact rot_axisX _

/-- **C42** (negation) It is not true that palPrec takes mean places of ep0 to mean places of ep1, nor that the matrices chain through J2000. -/
theorem C42_prec_refuted :
    ¬ (∀ T : Theory, (∀ a b, IsRotation (T.pmat06 a b)) → fromJ2000 T 2000 = 1 → ∀ ep0 ep1, palPrec T ep0 ep1 * fromJ2000 T ep0 = fromJ2000 T ep1) ∧
    ¬ (∀ T : Theory, (∀ a b, IsRotation (T.pmat06 a b)) → fromJ2000 T 2000 = 1 → ∀ a b c, palPrec T b c * palPrec T a b = palPrec T a c) := by
  have hB : fromJ2000 turnTheory 2000 = 1 := by simp [fromJ2000, turnTheory]
  have hz : fromJ2000 turnTheory 2050 = axisZ (π / 2) := by
    show (if ((2050 : ℝ) - 2000) * 365.25 = 0 then 1 else if 0 < ((2050 : ℝ) - 2000) * 365.25 then axisZ (π / 2) else axisX (π / 2)) = _
    rw [if_neg (by norm_num), if_pos (by norm_num)]
  have hx : fromJ2000 turnTheory 1950 = axisX (π / 2) := by
    show (if ((1950 : ℝ) - 2000) * 365.25 = 0 then 1 else if 0 < ((1950 : ℝ) - 2000) * 365.25 then axisZ (π / 2) else axisX (π / 2)) = _
    rw [if_neg (by norm_num), if_neg (by norm_num)]
  have hne : axisX (π / 2) * axisZ (π / 2) ≠ axisZ (π / 2) * axisX (π / 2) := by
    intro h
    have := congrFun (congrFun h 0) 1
    simp [axisX, axisZ, Matrix.mul_apply, Fin.sum_univ_three] at this
  have n1 : palPrec turnTheory 1950 2050 * fromJ2000 turnTheory 1950 ≠ fromJ2000 turnTheory 2050 := by
    rw [ne_eq, C42_prec_iff turnTheory turn_rot 1950 2050 (by norm_num) (by norm_num), hz, hx]
    exact hne
  refine ⟨fun h => n1 (h turnTheory turn_rot hB 1950 2050), fun h => n1 ?_⟩
  have h1 := h turnTheory turn_rot hB 1950 2000 2050
  have h2 : palPrec turnTheory 2000 2050 = fromJ2000 turnTheory 2050 := by simp [palPrec, fromJ2000]
  have h3 : palPrec turnTheory 1950 2000 = (fromJ2000 turnTheory 1950).transpose := by
    unfold palPrec fromJ2000
    rw [if_neg (by norm_num), if_pos rfl, eraTr_eq]
  have hr : IsRotation (fromJ2000 turnTheory 1950) := turn_rot _ _
  rw [← h1, h2, h3, Matrix.mul_assoc, rot_trans_mul hr, mul_one]

/-- **C43** (rotations) palPrebn, palNut and palPrenut always give proper rotations (the last if the theory's bias-precession-nutation matrix is one). -/
theorem C43_rotations (T : Theory) (hT : ∀ a b, IsRotation (T.pnm06a a b)) (a b : ℝ) :
    IsRotation (palPrebn a b) ∧ IsRotation (palNut T a) ∧ IsRotation (palPrenut T a b) := by
  refine ⟨deuler_rot _ _ _ _, deuler_rot _ _ _ _, ?_⟩
  unfold palPrenut
  dsimp only
  rw [eraRxr_eq, eraRx_eq, eraRz_eq, eraRx_eq, eraRz_eq, eraIr_eq]
  exact rot_mul (hT _ _) (rot_mul (rot_axisX _) (rot_mul (rot_axisZ _) (rot_mul (rot_axisX _) (rot_mul (rot_axisZ _) rot_one))))

theorem deuler3 (A B C : Char) (RA RB RC : ℝ → Mat3) (hA : axisOf A = some RA) (hB : axisOf B = some RB) (hC : axisOf C = some RC) (x y z : ℝ) :
    palDeuler [A, B, C] x y z = RC z * RB y * RA x := by
  rw [(C34_deuler _ _ _ _).1]
  simp [eulerFactor, hA, hB, hC]

theorem axisZ_zero : axisZ 0 = 1 := by
  ext i j; fin_cases i <;> fin_cases j <;> simp [axisZ]
theorem axisX_zero : axisX 0 = 1 := by
  ext i j; fin_cases i <;> fin_cases j <;> simp [axisX]
theorem axisY_zero : axisY 0 = 1 := by
  ext i j; fin_cases i <;> fin_cases j <;> simp [axisY]
theorem axisX_add (s t : ℝ) : axisX s * axisX t = axisX (s + t) := by
  ext i j; fin_cases i <;> fin_cases j <;> simp [axisX, Matrix.mul_apply, Fin.sum_univ_three, sin_add, cos_add] <;> ring
theorem axisZ_add (s t : ℝ) : axisZ s * axisZ t = axisZ (s + t) := by
  ext i j; fin_cases i <;> fin_cases j <;> simp [axisZ, Matrix.mul_apply, Fin.sum_univ_three, sin_add, cos_add] <;> ring

/-- **C43** (identity) palPrebn for equal epochs is the identity. -/
theorem C43_prebn_same (a : ℝ) : palPrebn a a = 1 := by
  unfold palPrebn
  dsimp only
  rw [deuler3 'Z' 'Y' 'Z' axisZ axisY axisZ (by simp [axisOf]) (by simp [axisOf]) (by simp [axisOf])]
  simp [axisZ_zero, axisY_zero]

/-- The precession angles of the Bessel-Newcomb system (Kinoshita 1975, formulas written out in powers): `T` is the starting epoch in tropical centuries after B1850, `t` the interval in tropical
centuries; the results ζ, z, θ are in seconds of arc. -/
def newcombZeta (T t : ℝ) : ℝ := (2303.5548 + 1.39720 * T + 0.000059 * T ^ 2) * t + (0.30242 - 0.000269 * T) * t ^ 2 + 0.017996 * t ^ 3
@[inherit_doc newcombZeta] def newcombZ (T t : ℝ) : ℝ := (2303.5548 + 1.39720 * T + 0.000059 * T ^ 2) * t + (1.09478 + 0.000387 * T) * t ^ 2 + 0.018324 * t ^ 3
@[inherit_doc newcombZeta] def newcombTheta (T t : ℝ) : ℝ := (2005.1125 - 0.85294 * T - 0.000365 * T ^ 2) * t - (0.42647 + 0.000365 * T) * t ^ 2 - 0.041802 * t ^ 3

/-- **C43** (Bessel-Newcomb precession) palPrebn is the canonical three-rotation precession matrix: first a turn about the pole by -ζ, then by θ about the y axis, then about the pole by -z, with the
angles of the Bessel-Newcomb theory converted from seconds of arc. -/
theorem C43_prebn_angles (bep0 bep1 : ℝ) :
    palPrebn bep0 bep1 =
      axisZ (-(newcombZ ((bep0 - 1850) / 100) ((bep1 - bep0) / 100) * (π / 648000))) *
        axisY (newcombTheta ((bep0 - 1850) / 100) ((bep1 - bep0) / 100) * (π / 648000)) *
        axisZ (-(newcombZeta ((bep0 - 1850) / 100) ((bep1 - bep0) / 100) * (π / 648000))) := by
  unfold palPrebn
  dsimp only
  rw [deuler3 'Z' 'Y' 'Z' axisZ axisY axisZ (by simp [axisOf]) (by simp [axisOf]) (by simp [axisOf])]
  have hd : das2r = π / 648000 := by unfold das2r; rw [div_eq_div_iff] <;> norm_num
  rw [hd]
  generalize π / 648000 = k
  generalize (bep0 - 1850) / 100 = T
  generalize (bep1 - bep0) / 100 = t
  unfold newcombZ newcombTheta newcombZeta
  congr 1
  · congr 1
    · congr 1; ring
    · congr 1; ring
  · congr 1; ring

/-- **C43** (annual precession) Just after the starting epoch, a star on the equator at the equinox moves eastwards in right ascension at the annual general precession m and northwards at n,
with m about 46.07 and n about 20.05 seconds of arc a year at B1850. -/
theorem C43_prebn_rates (bep0 : ℝ) :
    HasDerivAt (fun b => palPrebn bep0 b 1 0) (2 * (2303.5548 + 1.39720 * ((bep0 - 1850) / 100) + 0.000059 * ((bep0 - 1850) / 100) ^ 2) / 100 * (π / 648000)) bep0 ∧
    HasDerivAt (fun b => palPrebn bep0 b 2 0) ((2005.1125 - 0.85294 * ((bep0 - 1850) / 100) - 0.000365 * ((bep0 - 1850) / 100) ^ 2) / 100 * (π / 648000)) bep0 := by
  have e1 : (fun b => palPrebn bep0 b 1 0) = fun b =>
      Real.sin (newcombZ ((bep0 - 1850) / 100) ((b - bep0) / 100) * (π / 648000)) * Real.cos (newcombTheta ((bep0 - 1850) / 100) ((b - bep0) / 100) * (π / 648000)) *
        Real.cos (newcombZeta ((bep0 - 1850) / 100) ((b - bep0) / 100) * (π / 648000)) +
      Real.cos (newcombZ ((bep0 - 1850) / 100) ((b - bep0) / 100) * (π / 648000)) * Real.sin (newcombZeta ((bep0 - 1850) / 100) ((b - bep0) / 100) * (π / 648000)) := by
    funext b
    rw [C43_prebn_angles]
    simp [axisZ, axisY, Matrix.mul_apply, Fin.sum_univ_three]
  have e2 : (fun b => palPrebn bep0 b 2 0) = fun b =>
      Real.sin (newcombTheta ((bep0 - 1850) / 100) ((b - bep0) / 100) * (π / 648000)) * Real.cos (newcombZeta ((bep0 - 1850) / 100) ((b - bep0) / 100) * (π / 648000)) := by
    funext b
    rw [C43_prebn_angles]
    simp [axisZ, axisY, Matrix.mul_apply, Fin.sum_univ_three]
  rw [e1, e2]
  generalize π / 648000 = k
  generalize (bep0 - 1850) / 100 = T
  have ht : HasDerivAt (fun b : ℝ => (b - bep0) / 100) (1 / 100) bep0 := ((hasDerivAt_id bep0).sub_const bep0).div_const 100
  have poly : ∀ A B C : ℝ, HasDerivAt (fun b : ℝ => (A * ((b - bep0) / 100) + B * ((b - bep0) / 100) ^ 2 + C * ((b - bep0) / 100) ^ 3) * k) (A / 100 * k) bep0 := by
    intro A B C
    have := (((ht.const_mul A).add ((ht.pow 2).const_mul B)).add ((ht.pow 3).const_mul C)).mul_const k
    exact this.congr_deriv (by simp only [sub_self, zero_div]; norm_num; try ring_nf; try simp)
  have hz : HasDerivAt (fun b : ℝ => newcombZ T ((b - bep0) / 100) * k) ((2303.5548 + 1.39720 * T + 0.000059 * T ^ 2) / 100 * k) bep0 := poly _ _ _
  have hze : HasDerivAt (fun b : ℝ => newcombZeta T ((b - bep0) / 100) * k) ((2303.5548 + 1.39720 * T + 0.000059 * T ^ 2) / 100 * k) bep0 := poly _ _ _
  have hth : HasDerivAt (fun b : ℝ => newcombTheta T ((b - bep0) / 100) * k) ((2005.1125 - 0.85294 * T - 0.000365 * T ^ 2) / 100 * k) bep0 := by
    have := poly (2005.1125 - 0.85294 * T - 0.000365 * T ^ 2) (-(0.42647 + 0.000365 * T)) (-0.041802)
    convert this using 1
    funext b
    unfold newcombTheta
    ring
  have v1 : newcombZ T ((bep0 - bep0) / 100) = 0 := by simp [newcombZ]
  have v2 : newcombZeta T ((bep0 - bep0) / 100) = 0 := by simp [newcombZeta]
  have v3 : newcombTheta T ((bep0 - bep0) / 100) = 0 := by simp [newcombTheta]
  constructor
  · have := ((hz.sin.mul hth.cos).mul hze.cos).add (hz.cos.mul hze.sin)
    exact this.congr_deriv (by simp only [v1, v2, v3, zero_mul, Real.sin_zero, Real.cos_zero]; ring)
  · have := hth.sin.mul hze.cos
    exact this.congr_deriv (by simp only [v2, v3, zero_mul, Real.sin_zero, Real.cos_zero]; ring)

example : (46.07 : ℝ) < 2 * (2303.5548 + 1.39720 * ((1850 - 1850 : ℝ) / 100) + 0.000059 * ((1850 - 1850 : ℝ) / 100) ^ 2) / 100 := by norm_num

/-- **C43** (nutation geometry) Seen from the ecliptic of date, the nutation matrix just adds the nutation in longitude: turning by the true obliquity after palNut is the same as turning by the
mean obliquity and then by the nutation in longitude about the ecliptic pole.  Without nutation it is the identity. -/
theorem C43_nut (T : Theory) (date : ℝ) :
    (let n := palNutc T date
     axisX (n.2.2 + n.2.1) * palNut T date = axisZ (-n.1) * axisX n.2.2) ∧
    ((palNutc T date).1 = 0 → (palNutc T date).2.1 = 0 → palNut T date = 1) := by
  have e : palNut T date = axisX (-((palNutc T date).2.2 + (palNutc T date).2.1)) * axisZ (-(palNutc T date).1) * axisX (palNutc T date).2.2 := by
    unfold palNut
    dsimp only
    rw [deuler3 'X' 'Z' 'X' axisX axisZ axisX (by simp [axisOf]) (by simp [axisOf]) (by simp [axisOf])]
  constructor
  · dsimp only
    rw [e, ← Matrix.mul_assoc, ← Matrix.mul_assoc, axisX_add]
    simp [axisX_zero]
  · intro h1 h2
    rw [e, h1, h2]
    simp [axisZ_zero, axisX_add, axisX_zero]

/-- **C43** (precession-nutation) palPrenut is the theory's J2000-to-date matrix after the inverse of the precession from J2000 to the epoch, given by the canonical four rotations
(obliquity of J2000, luni-solar precession, inclination of the equator, planetary precession). -/
theorem C43_prenut (T : Theory) (epoch date : ℝ) :
    let p := T.p06e rMJD0 (51544.5 + (epoch - 2000) * 365.25)
    palPrenut T epoch date * (axisZ p.chia * axisX (-p.oma) * axisZ (-p.psia) * axisX p.eps0) = T.pnm06a rMJD0 date := by
  dsimp only
  unfold palPrenut
  dsimp only
  rw [eraRxr_eq, eraRx_eq, eraRz_eq, eraRx_eq, eraRz_eq, eraIr_eq, mul_one]
  generalize T.p06e rMJD0 (51544.5 + (epoch - 2000) * 365.25) = p
  have z1 : axisZ (-p.chia) * axisZ p.chia = 1 := by rw [axisZ_add]; simp [axisZ_zero]
  have x1 : axisX p.oma * axisX (-p.oma) = 1 := by rw [axisX_add]; simp [axisX_zero]
  have z2 : axisZ p.psia * axisZ (-p.psia) = 1 := by rw [axisZ_add]; simp [axisZ_zero]
  have x2 : axisX (-p.eps0) * axisX p.eps0 = 1 := by rw [axisX_add]; simp [axisX_zero]
  calc _ = T.pnm06a rMJD0 date * (axisX (-p.eps0) * (axisZ p.psia * (axisX p.oma * (axisZ (-p.chia) * axisZ p.chia) * axisX (-p.oma)) * axisZ (-p.psia)) * axisX p.eps0) := by
        simp only [Matrix.mul_assoc]
    _ = _ := by rw [z1, mul_one, x1, mul_one, z2, mul_one, x2, mul_one]

example : ∀ a b, IsRotation (demoTheory.pnm06a a b) := fun _ b => rot_axisX (b / 1000)

theorem charNat (n : Nat) (h : n < 300) : (Char.ofNat n).toNat = n := by
  have hv : n.isValidChar := Or.inl (by omega)
  unfold Char.ofNat
  rw [dif_pos hv]
  rfl

/-- The test of the system name, in terms of characters. -/
theorem sysIs_iff (c : Char) (hc : c = '4' ∨ c = '5') (sys : List Char) :
    sysIs ['F', 'K', c] sys = true ↔ ∃ a b rest, sys = a :: b :: c :: rest ∧ (a = 'F' ∨ a = 'f') ∧ (b = 'K' ∨ b = 'k') := by
  have low : ∀ x k : Char, ('a' ≤ k ∧ k ≤ 'z') → (lowerC x = k ↔ (x = k ∨ x = Char.ofNat (k.toNat - 32))) := by
    intro x k hk
    unfold lowerC
    obtain ⟨h1, h2⟩ := hk
    have k1 : 97 ≤ k.toNat := h1
    have k2 : k.toNat ≤ 122 := h2
    split_ifs with h
    · have x1 : 65 ≤ x.toNat := h.1
      have x2 : x.toNat ≤ 90 := h.2
      have hv : (Char.ofNat (x.toNat + 32)).toNat = x.toNat + 32 := charNat _ (by omega)
      have hv2 : (Char.ofNat (k.toNat - 32)).toNat = k.toNat - 32 := charNat _ (by omega)
      constructor
      · intro e
        right
        rw [← e, hv]
        simp [Char.ofNat_toNat]
      · rintro (e | e)
        · rw [e] at x2; omega
        · rw [e, hv2, Nat.sub_add_cancel (by omega)]
          exact Char.ofNat_toNat _
    · constructor
      · intro e; exact Or.inl e
      · rintro (e | e)
        · exact e
        · exfalso
          apply h
          have hv2 : (Char.ofNat (k.toNat - 32)).toNat = k.toNat - 32 := charNat _ (by omega)
          have : x.toNat = k.toNat - 32 := by rw [e, hv2]
          exact ⟨show 65 ≤ x.toNat by omega, show x.toNat ≤ 90 by omega⟩
  have lowd : ∀ x : Char, lowerC x = c ↔ x = c := by
    intro x
    unfold lowerC
    split_ifs with h
    · have x1 : 65 ≤ x.toNat := h.1
      have x2 : x.toNat ≤ 90 := h.2
      have hv : (Char.ofNat (x.toNat + 32)).toNat = x.toNat + 32 := charNat _ (by omega)
      constructor
      · intro e
        have := congrArg Char.toNat e
        rw [hv] at this
        rcases hc with rfl | rfl <;> simp at this <;> omega
      · intro e
        rw [e] at x1
        rcases hc with rfl | rfl <;> simp at x1
    · rfl
  have lc : lowerC c = c := (lowd c).2 rfl
  have lF : lowerC 'F' = 'f' := by decide
  have lK : lowerC 'K' = 'k' := by decide
  unfold sysIs
  rw [beq_iff_eq]
  simp only [List.map_cons, List.map_nil, lF, lK, lc]
  constructor
  · intro h
    match sys, h with
    | [], h => simp at h
    | [_], h => simp at h
    | [_, _], h => simp at h
    | a :: b :: d :: rest, h =>
      simp only [List.take_succ_cons, List.take_zero, List.map_cons, List.map_nil, List.cons.injEq, and_true] at h
      obtain ⟨h1, h2, h3⟩ := h
      rw [lowd] at h3
      refine ⟨a, b, rest, by rw [h3], ?_, ?_⟩
      · rcases (low a 'f' (by decide)).1 h1 with e | e
        · exact Or.inr e
        · exact Or.inl e
      · rcases (low b 'k' (by decide)).1 h2 with e | e
        · exact Or.inr e
        · exact Or.inl e
  · rintro ⟨a, b, rest, rfl, ha, hb⟩
    simp only [List.take_succ_cons, List.take_zero, List.map_cons, List.map_nil, List.cons.injEq, and_true]
    refine ⟨?_, ?_, lc⟩
    · rcases ha with rfl | rfl <;> decide
    · rcases hb with rfl | rfl <;> decide

/-- The system names palPreces takes for FK4 and FK5: the letters in either case and then the digit; what follows is ignored. -/
def Names (digit : Char) (sys : List Char) : Prop := ∃ a b rest, sys = a :: b :: digit :: rest ∧ (a = 'F' ∨ a = 'f') ∧ (b = 'K' ∨ b = 'k')

/-- **C44** palPreces applies the FK4 (palPrebn) or FK5 (palPrec) matrix to the direction, giving a right ascension in [0, 2π) and a declination within ±90°, according to the name of the system, in any
case of letters; any other name gives -99 for both coordinates. -/
theorem C44_preces (T : Theory) (hT : ∀ a b, IsRotation (T.pmat06 a b)) (sys : List Char) (ep0 ep1 ra dc : ℝ) :
    (Names '4' sys → dir (palPreces T sys ep0 ep1 ra dc).1 (palPreces T sys ep0 ep1 ra dc).2 = (palPrebn ep0 ep1).mulVec (dir ra dc)) ∧
    (Names '5' sys → dir (palPreces T sys ep0 ep1 ra dc).1 (palPreces T sys ep0 ep1 ra dc).2 = (palPrec T ep0 ep1).mulVec (dir ra dc)) ∧
    (Names '4' sys ∨ Names '5' sys → (palPreces T sys ep0 ep1 ra dc).1 ∈ Set.Ico 0 (2 * π) ∧ |(palPreces T sys ep0 ep1 ra dc).2| ≤ π / 2) ∧
    (¬ Names '4' sys → ¬ Names '5' sys → palPreces T sys ep0 ep1 ra dc = (-99, -99)) := by
  have h4 := sysIs_iff '4' (Or.inl rfl) sys
  have h5 := sysIs_iff '5' (Or.inr rfl) sys
  have hx : Names '5' sys → ¬ Names '4' sys := by
    rintro ⟨a, b, r, rfl, -, -⟩ ⟨a', b', r', h, -, -⟩
    simp at h
  have go : ∀ m : Mat3, IsRotation m → dir (eraAnp (eraC2s (eraRxp m (eraS2c ra dc))).1) (eraC2s (eraRxp m (eraS2c ra dc))).2 = m.mulVec (dir ra dc) := by
    intro m hm
    rw [eraRxp_eq, eraS2c_eq]
    exact c2s_anp _ (rot_unit hm (dot_dir _ _))
  have hP : IsRotation (palPrebn ep0 ep1) := deuler_rot _ _ _ _
  have hQ := (C42_prec_rotation T hT ep0 ep1).1
  have e4 : Names '4' sys → palPreces T sys ep0 ep1 ra dc = (eraAnp (eraC2s (eraRxp (palPrebn ep0 ep1) (eraS2c ra dc))).1, (eraC2s (eraRxp (palPrebn ep0 ep1) (eraS2c ra dc))).2) := by
    intro h
    unfold palPreces
    dsimp only
    rw [if_pos (h4.2 h)]
  have e5 : Names '5' sys → palPreces T sys ep0 ep1 ra dc = (eraAnp (eraC2s (eraRxp (palPrec T ep0 ep1) (eraS2c ra dc))).1, (eraC2s (eraRxp (palPrec T ep0 ep1) (eraS2c ra dc))).2) := by
    intro h
    unfold palPreces
    dsimp only
    rw [if_neg (fun h' => hx h (h4.1 h')), if_pos (h5.2 h)]
  refine ⟨fun h => ?_, fun h => ?_, ?_, fun n4 n5 => ?_⟩
  · rw [e4 h]; exact go _ hP
  · rw [e5 h]; exact go _ hQ
  · rintro (h | h)
    · rw [e4 h]; exact ⟨(eraAnp_spec _).1, (eraC2s_range _).2⟩
    · rw [e5 h]; exact ⟨(eraAnp_spec _).1, (eraC2s_range _).2⟩
  · unfold palPreces
    dsimp only
    rw [if_neg (fun h' => n4 (h4.1 h')), if_neg (fun h' => n5 (h5.1 h'))]

example : Names '5' ['f', 'K', '5'] ∧ Names '4' ['F', 'K', '4', '\n'] ∧ ¬ Names '4' ['F', 'K', '5'] ∧ ¬ Names '5' ['F', 'K'] := by
  refine ⟨⟨_, _, _, rfl, by decide, by decide⟩, ⟨_, _, _, rfl, by decide, by decide⟩, ?_, ?_⟩
  · rintro ⟨a, b, r, h, -, -⟩; simp at h
  · rintro ⟨a, b, r, h, -, -⟩; simp at h

end Pal.Props
