import Verif.Lemmas.FlAopRef
import Verif.Props.FlAop
import Verif.Props.FlAoppa

/-!
# The round trip palAopqk, palOapqk in double precision

`exactTrig p` is the parameter array with the exact sine and cosine of the latitude in it (Lemmas/FlAopRef.lean), `TrigOk p` says that the array holds them as a good library gives them.
-/

namespace Pal.Props
open Real Pal.Spec

variable {fl : ℝ → ℝ} {L : Libm}

/-- C133: palAopqk in double precision with the sine and cosine of the latitude of the library against exact arithmetic with the exact sine and cosine, up to 75 degrees from the zenith. -/
theorem C133_aopqk (R : Rounding fl) (hL : LibmOK L) (refro : ℝ → ℝ) (nz1 nz2 : Bool) (rap dap : ℝ) (p : Aoprms) (h : TrigOk p) (ha : |p.diurab| ≤ 1e-5)
    (hra : |rap - p.st| ≤ 20) (hst : |p.st| ≤ 20) (hA : |p.refa| ≤ 5e-4) (hB : |p.refb| ≤ 5e-7) (hz : (aopTopo rap dap (exactTrig p)).2 ≤ 75 * (π / 180)) :
    let o := flAopqk fl L refro nz1 nz2 rap dap p
    ∃ O, palAopqk rap dap (exactTrig p) = some O ∧ |o.zob - O.zob| ≤ 2.4e-14 ∧
      len (fun i => dir o.aob (π / 2 - o.zob) i - dir O.aob (π / 2 - O.zob) i) ≤ 1.2e-13 ∧
      len (fun i => dir o.hob o.dob i - dir O.hob O.dob i) ≤ 3.4e-13 ∧
      len (fun i => dir o.rob o.dob i - dir O.rob O.dob i) ≤ 3.4e-13 ∧ 0 ≤ o.rob ∧ o.rob ≤ flD2PI fl ∧ 0.247 ≤ cos O.zob := by
  intro o
  obtain ⟨E1, E2, T, P, t1, t2, t3, t4⟩ := flAopTopo_ref R hL nz1 rap dap h ha hra
  have hz' := hz.trans deg75_num
  have hE0 : |π / 2 - (aopTopo rap dap (exactTrig p)).2| ≤ π / 2 := by rw [abs_le]; constructor <;> linarith
  obtain ⟨s1, s2, s3⟩ := dir_split t3 hE0 t4 (by norm_num)
  have x1 : |(flAopTopo fl L nz1 rap dap p).2 - (aopTopo rap dap (exactTrig p)).2| ≤ 2.1e-14 := by
    rw [show (flAopTopo fl L nz1 rap dap p).2 - (aopTopo rap dap (exactTrig p)).2 = ((flAopTopo fl L nz1 rap dap p).2 - (π / 2 - P)) - (P - (π / 2 - (aopTopo rap dap (exactTrig p)).2)) by ring]
    refine (abs_sub _ _).trans ?_
    norm_num at t2 s1 ⊢; linarith
  obtain ⟨r1, r2⟩ := flRefz_75 R hL x1 (by norm_num) E1 hz' hA hB
  rw [cos_pi_div_two_sub] at s2 s3
  obtain ⟨X, hX⟩ : ∃ X, X = (aopTopo rap dap (exactTrig p)).2 := ⟨_, rfl⟩
  obtain ⟨A, hA'⟩ : ∃ A, A = (aopTopo rap dap (exactTrig p)).1 := ⟨_, rfl⟩
  obtain ⟨az, haz⟩ : ∃ az, az = (flAopTopo fl L nz1 rap dap p).1 := ⟨_, rfl⟩
  obtain ⟨x, hx⟩ : ∃ x, x = (flAopTopo fl L nz1 rap dap p).2 := ⟨_, rfl⟩
  rw [← hX] at E1 E2 hz' r1 r2 s2 s3
  rw [← hA'] at s2 s3
  rw [← hx] at r1
  rw [← haz] at t1
  obtain ⟨Z, hZ⟩ : ∃ Z, Z = palRefz X p.refa p.refb := ⟨_, rfl⟩
  obtain ⟨z, hzz⟩ : ∃ z, z = flRefz fl L x p.refa p.refb := ⟨_, rfl⟩
  rw [← hZ] at r1 r2
  rw [← hzz] at r1
  have r1' : |z - Z| ≤ 2.35e-14 := r1.trans (by norm_num)
  have sx0 : 0 ≤ sin X := sin_nonneg_of_nonneg_of_le_pi E1 E2
  have sx1 := sin_le_one X
  have cX := cos_75 (X := X) (by rw [abs_of_nonneg E1]; norm_num at *; linarith)
  have cZ : 0.247 ≤ cos Z := by
    have := (abs_le.1 ((Real.abs_cos_sub_cos_le Z X).trans r2)).1
    norm_num at *; linarith
  have nb : ¬ cos Z < zbreak := by unfold zbreak; norm_num at *; linarith
  have nf : ¬ L.cos z < fl zbreak := by
    have c := (abs_le.1 (R.cst zbreak (M := 1) (by unfold zbreak; norm_num) (by norm_num) (by norm_num))).2
    have d := (abs_le.1 (hL.cos z)).1
    have d2 := (abs_le.1 ((Real.abs_cos_sub_cos_le z Z).trans r1')).1
    have : zbreak = 0.242535625 := rfl
    norm_num at *; linarith
  have eZ : aopRefract (exactTrig p) X = some Z := by
    unfold aopRefract; dsimp only
    show (if cos (palRefz X p.refa p.refb) < zbreak then _ else some (palRefz X p.refa p.refb)) = some Z
    rw [← hZ, if_neg nb]
  have ez : flAopRefract fl L refro p x = z := by
    unfold flAopRefract; dsimp only; rw [← hzz, if_neg nf]
  have sZ : |sin Z| ≤ 1.007 * sin X := by
    have a := (Real.abs_sin_sub_sin_le Z X).trans r2
    have := abs_sub_abs_le_abs_sub (sin Z) (sin X)
    rw [abs_of_nonneg sx0] at this
    linarith
  have wk : ∀ q, |sin X * q| ≤ 2.001 * 2.04e-14 → |sin Z * q| ≤ 4.12e-14 := fun q hq => by
    rw [abs_mul, abs_of_nonneg sx0] at hq
    rw [abs_mul]
    have := mul_le_mul_of_nonneg_right sZ (abs_nonneg q)
    have e : 1.007 * sin X * |q| = 1.007 * (sin X * |q|) := by ring
    rw [e] at this
    refine this.trans ((mul_le_mul_of_nonneg_left hq (by norm_num)).trans (by norm_num))
  obtain ⟨e1, -, e3, e4⟩ := aeo_err R hL (az := az) (T := T) (A := A) t1 (wk _ s2) (wk _ s3) r1' (by norm_num)
  have comp : ∀ i, |flAopAeo fl L az z i - (![-cos A * sin Z, sin A * sin Z, cos Z] : Vec3) i| ≤ 6.58e-14 := fun i => by
    fin_cases i
    · exact e1.trans (by norm_num)
    · exact e3.trans (by norm_num)
    · exact e4.trans (by norm_num)
  obtain ⟨u1, u2, u3⟩ := flAopTurn_ref R h comp (by norm_num) (aeo_len A Z)
  have u1' := fun i => (u1 i).trans (by norm_num : _ ≤ (9.4e-14 : ℝ))
  obtain ⟨-, -, b3, b4, b5, -, b7⟩ := back_err R hL nz2 u1' (by norm_num) (le_trans (by norm_num) u2) (u3.trans (by norm_num)) hst
  simp only [Matrix.cons_val_zero, Matrix.cons_val_one, Matrix.cons_val] at b3 b7
  have eo : o = { aob := az, zob := z, hob := -(flC2s fl L nz2 (flAopTurn fl p (flAopAeo fl L az z))).1, dob := (flC2s fl L nz2 (flAopTurn fl p (flAopAeo fl L az z))).2, rob := flDranrm fl (fl (p.st + (flC2s fl L nz2 (flAopTurn fl p (flAopAeo fl L az z))).1)) } := by
    rw [haz, ← ez, hx]; rfl
  have eO : palAopqk rap dap (exactTrig p) = some { aob := A, zob := Z, hob := -(palDcc2s ![sin p.phi * (-cos A * sin Z) + cos p.phi * cos Z, sin A * sin Z, -cos p.phi * (-cos A * sin Z) + sin p.phi * cos Z]).1, dob := (palDcc2s ![sin p.phi * (-cos A * sin Z) + cos p.phi * cos Z, sin A * sin Z, -cos p.phi * (-cos A * sin Z) + sin p.phi * cos Z]).2, rob := palDranrm (p.st + (palDcc2s ![sin p.phi * (-cos A * sin Z) + cos p.phi * cos Z, sin A * sin Z, -cos p.phi * (-cos A * sin Z) + sin p.phi * cos Z]).1) } := by
    unfold palAopqk
    dsimp only
    rw [← hX, ← hA', eZ]
    rfl
  rw [eo]
  refine ⟨_, eO, r1'.trans (by norm_num), ?_, ?_, b7.trans (by norm_num), b4, b5, cZ⟩
  · show len (fun i => dir az (π / 2 - z) i - dir A (π / 2 - Z) i) ≤ _
    have c1 := chord az (π / 2 - z) T (π / 2 - Z)
    have g1 : |π / 2 - z - (π / 2 - Z)| ≤ 2.35e-14 := by rw [sub_sub_sub_cancel_left, abs_sub_comm]; exact r1'
    have c2 : len (fun i => dir T (π / 2 - Z) i - dir A (π / 2 - Z) i) ≤ 1.7321 * 4.12e-14 := len_le_of_comp (fun i => by
      fin_cases i
      · show |cos (π / 2 - Z) * cos T - cos (π / 2 - Z) * cos A| ≤ _
        rw [cos_pi_div_two_sub, ← mul_sub]; exact wk _ s2
      · show |cos (π / 2 - Z) * sin T - cos (π / 2 - Z) * sin A| ≤ _
        rw [cos_pi_div_two_sub, ← mul_sub]; exact wk _ s3
      · show |sin (π / 2 - Z) - sin (π / 2 - Z)| ≤ _
        rw [sub_self, abs_zero]; norm_num)
    have := len_tri (dir az (π / 2 - z)) (dir T (π / 2 - Z)) (dir A (π / 2 - Z))
    norm_num at *; linarith
  · refine le_trans (le_of_eq ?_) (b3.trans (by norm_num))
    rw [len_eq, len_eq, dot_eq, dot_eq]
    simp only [dir, Matrix.cons_val_zero, Matrix.cons_val_one, Matrix.cons_val, cos_neg, sin_neg]
    congr 1
    ring

/-- palOapqk in double precision from observed coordinates that are slightly off: the result is near that of exact arithmetic from the unperturbed coordinates (which may be of another kind). -/
theorem oapqk_ref (R : Rounding fl) (hL : LibmOK L) (refro : ℝ → ℝ) (nz1 nz2 : Bool) (type type' : List Char) (ob1 ob2 y1 y2 : ℝ) (p : Aoprms) (h : TrigOk p) (ha : |p.diurab| ≤ 1e-5)
    (hst : |p.st| ≤ 20) (hra : obType type.head? = .r → |p.st - ob1| ≤ 20) (hA : |p.refa| ≤ 5e-4) (hB : |p.refb| ≤ 5e-7)
    (hd : ∀ i, |oapVector (obType type.head?) ob1 ob2 (exactTrig p) i - oapVector (obType type'.head?) y1 y2 (exactTrig p) i| ≤ 3.45e-13)
    (hz : 0.24254 ≤ oapVector (obType type'.head?) y1 y2 (exactTrig p) 2) :
    let o := flOapqk fl L refro nz1 nz2 type ob1 ob2 p
    ∃ O, palOapqk type' y1 y2 (exactTrig p) = some O ∧ len (fun i => dir o.1 o.2 i - dir O.1 O.2 i) ≤ 1.84e-11 := by
  intro o
  have er : ∀ i, |flOapVector fl L (obType type.head?) ob1 ob2 p i - oapVector (obType type'.head?) y1 y2 (exactTrig p) i| ≤ 3.5e-13 := fun i => by
    have e1 := flOapVector_ref R hL (obType type.head?) ob1 ob2 h hra i
    have e2 := hd i
    have e3 := abs_sub_le (flOapVector fl L (obType type.head?) ob1 ob2 p i) (oapVector (obType type.head?) ob1 ob2 (exactTrig p) i) (oapVector (obType type'.head?) y1 y2 (exactTrig p) i)
    norm_num at e1 e2 ⊢; linarith
  obtain ⟨l1, l2⟩ := oapVector_len (obType type'.head?) y1 y2 (exactTrig_sc p)
  clear hd
  have ho : o = flOapqk fl L refro nz1 nz2 type ob1 ob2 p := rfl
  clear_value o
  obtain ⟨O, hO⟩ : ∃ O, O = palOapqk type' y1 y2 (exactTrig p) := ⟨_, rfl⟩
  rw [← hO]
  unfold flOapqk at ho
  unfold palOapqk at hO
  dsimp only at ho hO
  generalize flOapVector fl L (obType type.head?) ob1 ob2 p = v at *
  generalize oapVector (obType type'.head?) y1 y2 (exactTrig p) = V at *
  obtain ⟨A, hA'⟩ : ∃ A, A = if V 0 ≠ 0 ∨ V 1 ≠ 0 then atan2 (V 1) (V 0) else 0 := ⟨_, rfl⟩
  obtain ⟨az, haz⟩ : ∃ az, az = if v 0 ≠ 0 ∨ v 1 ≠ 0 then flAtan2 L nz1 (v 1) (v 0) else 0 := ⟨_, rfl⟩
  obtain ⟨x1, x2, x3⟩ := azzd_exact V A (fun h => by rw [hA', if_pos h])
  obtain ⟨T, P, t1, t2, t3, t4⟩ := azzd_core R hL nz1 er (by norm_num) (le_trans (by norm_num) l1) (l2.trans (by norm_num)) x1 az (by
    rw [haz]
    by_cases h : v 0 ≠ 0 ∨ v 1 ≠ 0
    · rw [if_pos h]; exact Or.inr ⟨h, rfl⟩
    · rw [if_neg h]; push Not at h; exact Or.inl ⟨h.1, h.2, rfl⟩)
  rw [← hA'] at hO
  rw [← haz] at ho
  obtain ⟨D, d1, d2, d3⟩ := flOapRefr_ref R refro hA hB (by norm_num) (by norm_num) er l2 hz (L.atan2 (fl (√(fl (fl (v 0 * v 0) + fl (v 1 * v 1))))) (v 2)) (atan2 (√(V 0 * V 0 + V 1 * V 1)) (V 2))
  have d1' : oapRefr (exactTrig p) (√(V 0 * V 0 + V 1 * V 1)) (V 2) (atan2 (√(V 0 * V 0 + V 1 * V 1)) (V 2)) = some D := d1
  rw [d1'] at hO
  dsimp only at hO
  have hSs : √(V 0 * V 0 + V 1 * V 1) = len V * sin (atan2 (√(V 0 * V 0 + V 1 * V 1)) (V 2)) := by
    have s := hyp_sin_atan2 (√(V 0 * V 0 + V 1 * V 1)) (V 2)
    have l : √(V 2 * V 2 + √(V 0 * V 0 + V 1 * V 1) * √(V 0 * V 0 + V 1 * V 1)) = len V := by
      rw [len_eq, dot_eq, Real.mul_self_sqrt (add_nonneg (mul_self_nonneg _) (mul_self_nonneg _)), add_comm]
    rw [l] at s
    exact s.symm
  generalize flOapRefr fl refro p (fl (√(fl (fl (v 0 * v 0) + fl (v 1 * v 1))))) (v 2) (L.atan2 (fl (√(fl (fl (v 0 * v 0) + fl (v 1 * v 1))))) (v 2)) = dr at *
  generalize L.atan2 (fl (√(fl (fl (v 0 * v 0) + fl (v 1 * v 1))))) (v 2) = zo at *
  obtain ⟨Zo, hZo⟩ : ∃ Zo, Zo = atan2 (√(V 0 * V 0 + V 1 * V 1)) (V 2) := ⟨_, rfl⟩
  rw [← hZo] at x1 x2 x3 t4 hO hSs
  have p1 := pi_lt_d4
  have hE0 : |π / 2 - Zo| ≤ π / 2 := by rw [abs_le]; constructor <;> linarith
  obtain ⟨s1, s2, s3⟩ := dir_split t3 hE0 t4 (by norm_num)
  rw [cos_pi_div_two_sub] at s2 s3
  have sx0 : 0 ≤ sin Zo := sin_nonneg_of_nonneg_of_le_pi x2 x3
  have sx1 := sin_le_one Zo
  have dS : |D| ≤ 2.13e-3 * sin Zo := by
    refine d3.trans ?_
    rw [hSs]
    have := mul_le_mul_of_nonneg_right l2 sx0
    norm_num at *; linarith
  have zz : |zo - Zo| ≤ 1.23e-12 := by
    rw [show zo - Zo = (zo - (π / 2 - P)) - (P - (π / 2 - Zo)) by ring]
    refine (abs_sub _ _).trans ?_
    norm_num at t2 s1 ⊢; linarith
  obtain ⟨zt, -⟩ := R.addB 1.236e-12 zz d2 (by rw [abs_of_nonneg x2]; norm_num at *; linarith : |Zo| ≤ 3.15) (dS.trans (by norm_num at *; linarith) : |D| ≤ 2.13e-3) (by norm_num) (by norm_num)
  obtain ⟨z, hzz⟩ : ∃ z, z = fl (zo + dr) := ⟨_, rfl⟩
  obtain ⟨Z, hZ⟩ : ∃ Z, Z = Zo + D := ⟨_, rfl⟩
  rw [← hzz, ← hZ] at zt
  rw [← hzz] at ho
  rw [← hZ] at hO
  have sZ : |sin Z| ≤ 1.003 * sin Zo := by
    have a := Real.abs_sin_sub_sin_le Z Zo
    rw [hZ, add_sub_cancel_left, ← hZ] at a
    have := abs_sub_abs_le_abs_sub (sin Z) (sin Zo)
    rw [abs_of_nonneg sx0] at this
    linarith
  have wk : ∀ q, |sin Zo * q| ≤ 2.001 * (3.5 * 3.5e-13 + 1.1e-15) → |sin Z * q| ≤ 2.47e-12 := fun q hq => by
    rw [abs_mul, abs_of_nonneg sx0] at hq
    rw [abs_mul]
    have := mul_le_mul_of_nonneg_right sZ (abs_nonneg q)
    have e : 1.003 * sin Zo * |q| = 1.003 * (sin Zo * |q|) := by ring
    rw [e] at this
    refine this.trans ((mul_le_mul_of_nonneg_left hq (by norm_num)).trans (by norm_num))
  obtain ⟨-, e2, e3, e4⟩ := aeo_err R hL (az := az) (T := T) (A := A) t1 (wk _ s2) (wk _ s3) zt (by norm_num)
  have comp : ∀ i, |(![fl (L.cos az * L.sin z), fl (L.sin az * L.sin z), L.cos z] : Vec3) i - (![cos A * sin Z, sin A * sin Z, cos Z] : Vec3) i| ≤ 3.71e-12 := fun i => by
    fin_cases i
    · exact e2.trans (by norm_num)
    · exact e3.trans (by norm_num)
    · exact e4.trans (by norm_num)
  have lu : len (![cos A * sin Z, sin A * sin Z, cos Z] : Vec3) = 1 := by
    refine len_one ?_
    rw [dot_eq]
    simp only [Matrix.cons_val_zero, Matrix.cons_val_one, Matrix.cons_val]
    have := sin_sq_add_cos_sq A; have := sin_sq_add_cos_sq Z
    grind
  obtain ⟨u1, u2, u3⟩ := flAopTurn_ref R h comp (by norm_num) lu
  have u1' := fun i => (u1 i).trans (by norm_num : _ ≤ (5.25e-12 : ℝ))
  have ha' : |-p.diurab| ≤ 1e-5 := by rw [abs_neg]; exact ha
  have g := fun i => (diurnal_err R ha' (by norm_num) u1' (fun i => (comp_le_len _ i).trans (u3.trans (by norm_num))) i).trans (by norm_num : _ ≤ (5.251e-12 : ℝ))
  obtain ⟨w1, w2⟩ := diurnal_len (a := -p.diurab) ha' (by norm_num) u2 u3 (by norm_num)
  obtain ⟨-, b2, -, b4, b5, -, b7⟩ := back_err R hL nz2 g (by norm_num) (le_trans (by norm_num) w1) (w2.trans (by norm_num)) hst
  simp only [Matrix.cons_val_zero, Matrix.cons_val_one, Matrix.cons_val, exactTrig] at b7 hO
  refine ⟨_, hO, ?_⟩
  rw [ho]
  exact b7.trans (by norm_num)

/-- Turning about the pole keeps distances. -/
theorem dir_shift_len (a b c d k : ℝ) : len (fun i => dir (a - k) b i - dir (c - k) d i) = len (fun i => dir a b i - dir c d i) := by
  rw [len_eq, len_eq, dot_eq, dot_eq]
  simp only [dir, Matrix.cons_val_zero, Matrix.cons_val_one, Matrix.cons_val, cos_sub, sin_sub]
  congr 1
  have := sin_sq_add_cos_sq k
  grind

/-- Reflecting in the meridian keeps distances. -/
theorem dir_flip_len (a b c d : ℝ) : len (fun i => dir (-a) b i - dir (-c) d i) = len (fun i => dir a b i - dir c d i) := by
  rw [len_eq, len_eq, dot_eq, dot_eq]
  simp only [dir, Matrix.cons_val_zero, Matrix.cons_val_one, Matrix.cons_val, cos_neg, sin_neg]
  congr 1
  ring

theorem cross_le_len (w : Vec3) (t : ℝ) : |sin t * w 0 - cos t * w 2| ≤ len w ∧ |cos t * w 0 + sin t * w 2| ≤ len w := by
  have q := sin_sq_add_cos_sq t
  have e : len w ^ 2 = w 0 * w 0 + w 1 * w 1 + w 2 * w 2 := by rw [pow_two, len_sq, dot_eq]
  have n := len_nonneg w
  have y := mul_self_nonneg (w 1)
  have i : (sin t * w 0 - cos t * w 2) ^ 2 + (cos t * w 0 + sin t * w 2) ^ 2 = w 0 * w 0 + w 2 * w 2 := by grind
  constructor
  · refine abs_le_of_sq_le_sq ?_ n
    have := sq_nonneg (cos t * w 0 + sin t * w 2); linarith
  · refine abs_le_of_sq_le_sq ?_ n
    have := sq_nonneg (sin t * w 0 - cos t * w 2); linarith

/-- Two pairs of equatorial coordinates (hour angle with the sign that palDcs2c gets) and their vectors in the frame (south, east, up). -/
theorem equ_vector_err {a b c d t e : ℝ} (h : len (fun i => dir a b i - dir c d i) ≤ e) (i : Fin 3) :
    |(![sin t * dir a b 0 - cos t * dir a b 2, dir a b 1, cos t * dir a b 0 + sin t * dir a b 2] : Vec3) i - (![sin t * dir c d 0 - cos t * dir c d 2, dir c d 1, cos t * dir c d 0 + sin t * dir c d 2] : Vec3) i| ≤ e := by
  obtain ⟨h1, h2⟩ := cross_le_len (fun i => dir a b i - dir c d i) t
  fin_cases i
  · refine le_trans (le_of_eq ?_) (h1.trans h)
    simp only [Matrix.cons_val_zero, Fin.zero_eta]
    congr 1; ring
  · exact (comp_le_len (fun i => dir a b i - dir c d i) 1).trans h
  · refine le_trans (le_of_eq ?_) (h2.trans h)
    simp only [Matrix.cons_val, Fin.reduceFinMk]
    congr 1; ring

theorem dcs2c_dir (a b : ℝ) : palDcs2c a b = dir a b := by
  unfold palDcs2c eraS2c dir; funext i; fin_cases i <;> simp [mul_comm]

/-- C133: the round trip in double precision. With the parameters of a terrestrial observatory, realistic refraction constants and a source up to 75 degrees from the zenith (before refraction), feeding what palAopqk delivers into
palOapqk as azimuth and zenith distance, as hour angle and declination or as right ascension and declination returns the apparent place to 5 microarcseconds, all operations rounded. -/
theorem C133_round_trip (R : Rounding fl) (hL : LibmOK L) (refro : ℝ → ℝ) (nz1 nz2 nz3 nz4 : Bool) (rap dap : ℝ) (p : Aoprms) (h : TrigOk p) (hd : |p.diurab| ≤ 1.6e-6)
    (hra : |rap - p.st| ≤ 20) (hst : |p.st| ≤ 13) (hA : RealisticConstants p.refa p.refb) (hB : |p.refb| ≤ 5e-7)
    (hz : cos (75 * (π / 180)) ≤ dot (unit (moving p.diurab (p.st - rap) dap)) (zenithAxis p.phi)) :
    let o := flAopqk fl L refro nz1 nz2 rap dap p
    ∀ s ∈ [flOapqk fl L refro nz3 nz4 ['A'] o.aob o.zob p, flOapqk fl L refro nz3 nz4 ['H'] o.hob o.dob p, flOapqk fl L refro nz3 nz4 ['R'] o.rob o.dob p],
      len (fun i => dir s.1 s.2 i - dir rap dap i) < 5e-6 * arcsec := by
  intro o
  have hp : ParamsOk (exactTrig p) := ⟨rfl, rfl, lt_of_le_of_lt hd (by norm_num)⟩
  have hd5 : |p.diurab| ≤ 1e-5 := hd.trans (by norm_num)
  have hst20 : |p.st| ≤ 20 := hst.trans (by norm_num)
  have hA5 : |p.refa| ≤ 5e-4 := by rw [abs_of_nonneg hA.a_nonneg]; exact hA.a_le.trans (by norm_num)
  obtain ⟨O, ra, dec, k0, k1, k2, k3, k4⟩ := C81_quick_round_trip_partial (p := exactTrig p) hp hA hd hz
  obtain ⟨t1, t2, t3, -⟩ := topo_spec rap dap (exactTrig p) rfl rfl hp.diurab
  have hz75 : (aopTopo rap dap (exactTrig p)).2 ≤ 75 * (π / 180) := by
    by_contra hcon
    push Not at hcon
    have := cos_lt_cos_of_nonneg_of_le_pi (by have := pi_pos; positivity) t3 hcon
    have e := t1.2.2
    change dot (unit (moving p.diurab (p.st - rap) dap)) (zenithAxis p.phi) = _ at e
    rw [e] at hz
    linarith
  obtain ⟨O', q0, -, q2, q3, q4, r1, r2, q5⟩ := C133_aopqk R hL refro nz1 nz2 rap dap p h hd5 hra hst20 hA5 hB hz75
  rw [k0] at q0
  cases q0
  change len (fun i => dir o.aob (π / 2 - o.zob) i - dir O.aob (π / 2 - O.zob) i) ≤ _ at q2
  change len (fun i => dir o.hob o.dob i - dir O.hob O.dob i) ≤ _ at q3
  change len (fun i => dir o.rob o.dob i - dir O.rob O.dob i) ≤ _ at q4
  obtain ⟨-, -, o3, -, o5, -⟩ := aopqk_out (p := exactTrig p) rfl rfl k0
  have hzA : 0.24254 ≤ oapVector (obType ['A'].head?) O.aob O.zob (exactTrig p) 2 := le_trans (by norm_num) q5
  have eH : oapVector (obType ['H'].head?) O.hob O.dob (exactTrig p) = oapVector (obType ['A'].head?) O.aob O.zob (exactTrig p) := oap_vector (p := exactTrig p) rfl rfl o3
  have eR : oapVector (obType ['R'].head?) O.rob O.dob (exactTrig p) = oapVector (obType ['H'].head?) O.hob O.dob (exactTrig p) := by
    have s : SameAngle (-(p.st - O.rob)) (-O.hob) := by
      obtain ⟨k, hk⟩ := o5
      refine ⟨k, ?_⟩
      rw [hk]; show -(p.st - (p.st - O.hob + k * (2 * π))) = _; ring
    show (![sin p.phi * palDcs2c (-(p.st - O.rob)) O.dob 0 - cos p.phi * palDcs2c (-(p.st - O.rob)) O.dob 2, palDcs2c (-(p.st - O.rob)) O.dob 1, cos p.phi * palDcs2c (-(p.st - O.rob)) O.dob 0 + sin p.phi * palDcs2c (-(p.st - O.rob)) O.dob 2] : Vec3) =
      ![sin p.phi * palDcs2c (-O.hob) O.dob 0 - cos p.phi * palDcs2c (-O.hob) O.dob 2, palDcs2c (-O.hob) O.dob 1, cos p.phi * palDcs2c (-O.hob) O.dob 0 + sin p.phi * palDcs2c (-O.hob) O.dob 2]
    rw [dcs2c_dir, dcs2c_dir, dir_same s]
  have close : ∀ s : ℝ × ℝ, (∃ O', palOapqk ['A'] O.aob O.zob (exactTrig p) = some O' ∧ len (fun i => dir s.1 s.2 i - dir O'.1 O'.2 i) ≤ 1.84e-11) → len (fun i => dir s.1 s.2 i - dir rap dap i) < 5e-6 * arcsec := by
    rintro s ⟨O', g1, g2⟩
    rw [k1] at g1
    cases g1
    have t := len_tri (dir s.1 s.2) (dir ra dec) (dir rap dap)
    have a : 4.8e-6 ≤ arcsec := by unfold arcsec; have := pi_gt_d4; norm_num at *; linarith
    dsimp only at g2
    generalize len (fun i => dir s.1 s.2 i - dir ra dec i) = x at *
    generalize len (fun i => dir ra dec i - dir rap dap i) = y at *
    generalize len (fun i => dir s.1 s.2 i - dir rap dap i) = z at *
    norm_num at g2 a k4 ⊢; linarith
  intro s hs
  simp only [List.mem_cons, List.not_mem_nil, or_false] at hs
  rcases hs with rfl | rfl | rfl
  · refine close _ (oapqk_ref R hL refro nz3 nz4 ['A'] ['A'] o.aob o.zob O.aob O.zob p h hd5 hst20 (fun e => by cases e) hA5 hB (fun i => ?_) hzA)
    have c := fun i => (comp_le_len (fun i => dir o.aob (π / 2 - o.zob) i - dir O.aob (π / 2 - O.zob) i) i).trans (q2.trans (by norm_num : (1.2e-13 : ℝ) ≤ 3.45e-13))
    fin_cases i
    · have := c 0
      simp only [dir, Matrix.cons_val_zero, cos_pi_div_two_sub] at this
      show |-cos o.aob * sin o.zob - -cos O.aob * sin O.zob| ≤ _
      rw [abs_sub_comm, show -cos O.aob * sin O.zob - -cos o.aob * sin o.zob = sin o.zob * cos o.aob - sin O.zob * cos O.aob by ring]
      exact this
    · have := c 1
      simp only [dir, Matrix.cons_val_one, Matrix.cons_val_zero, cos_pi_div_two_sub] at this
      show |sin o.aob * sin o.zob - sin O.aob * sin O.zob| ≤ _
      rw [mul_comm (sin o.aob), mul_comm (sin O.aob)]
      exact this
    · have := c 2
      simp only [dir, Matrix.cons_val, sin_pi_div_two_sub] at this
      exact this
  · refine close _ (oapqk_ref R hL refro nz3 nz4 ['H'] ['A'] o.hob o.dob O.aob O.zob p h hd5 hst20 (fun e => by cases e) hA5 hB (fun i => ?_) hzA)
    rw [← eH]
    show |(![sin p.phi * palDcs2c (-o.hob) o.dob 0 - cos p.phi * palDcs2c (-o.hob) o.dob 2, palDcs2c (-o.hob) o.dob 1, cos p.phi * palDcs2c (-o.hob) o.dob 0 + sin p.phi * palDcs2c (-o.hob) o.dob 2] : Vec3) i -
      (![sin p.phi * palDcs2c (-O.hob) O.dob 0 - cos p.phi * palDcs2c (-O.hob) O.dob 2, palDcs2c (-O.hob) O.dob 1, cos p.phi * palDcs2c (-O.hob) O.dob 0 + sin p.phi * palDcs2c (-O.hob) O.dob 2] : Vec3) i| ≤ _
    rw [dcs2c_dir, dcs2c_dir]
    exact equ_vector_err (by rw [dir_flip_len]; exact q3.trans (by norm_num)) i
  · have hrob : |p.st - o.rob| ≤ 20 := by
      change 0 ≤ o.rob at r1
      change o.rob ≤ _ at r2
      rw [flD2PI_eq R] at r2
      have : D2 ≤ 7 := by unfold D2; norm_num
      have := abs_le.1 hst
      rw [abs_le]; constructor <;> linarith
    refine close _ (oapqk_ref R hL refro nz3 nz4 ['R'] ['A'] o.rob o.dob O.aob O.zob p h hd5 hst20 (fun _ => hrob) hA5 hB (fun i => ?_) hzA)
    rw [← eH, ← eR]
    show |(![sin p.phi * palDcs2c (-(p.st - o.rob)) o.dob 0 - cos p.phi * palDcs2c (-(p.st - o.rob)) o.dob 2, palDcs2c (-(p.st - o.rob)) o.dob 1, cos p.phi * palDcs2c (-(p.st - o.rob)) o.dob 0 + sin p.phi * palDcs2c (-(p.st - o.rob)) o.dob 2] : Vec3) i -
      (![sin p.phi * palDcs2c (-(p.st - O.rob)) O.dob 0 - cos p.phi * palDcs2c (-(p.st - O.rob)) O.dob 2, palDcs2c (-(p.st - O.rob)) O.dob 1, cos p.phi * palDcs2c (-(p.st - O.rob)) O.dob 0 + sin p.phi * palDcs2c (-(p.st - O.rob)) O.dob 2] : Vec3) i| ≤ _
    rw [dcs2c_dir, dcs2c_dir, neg_sub, neg_sub]
    exact equ_vector_err (by rw [dir_shift_len]; exact q4.trans (by norm_num)) i

theorem aopEquator_trig : TrigOk aopEquator := ⟨by norm_num [aopEquator], by norm_num [aopEquator]⟩

/-- A star 0.3 radians from the equator seen from an observatory on the equator at its culmination, with IEEE rounding: the three ways back. -/
example : let o := flAopqk ieee roundedLibm (fun _ => 0) false false 1 0.3 aopEquator
    ∀ s ∈ [flOapqk ieee roundedLibm (fun _ => 0) false false ['A'] o.aob o.zob aopEquator, flOapqk ieee roundedLibm (fun _ => 0) false false ['H'] o.hob o.dob aopEquator,
      flOapqk ieee roundedLibm (fun _ => 0) false false ['R'] o.rob o.dob aopEquator], len (fun i => dir s.1 s.2 i - dir 1 0.3 i) < 5e-6 * arcsec :=
  C133_round_trip ieee_rounding roundedLibm_ok (fun _ => 0) false false false false 1 0.3 aopEquator aopEquator_trig (by norm_num [aopEquator, abs_of_nonneg]) (by norm_num [aopEquator]) (by norm_num [aopEquator])
    ⟨by norm_num [aopEquator], by norm_num [aopEquator], by norm_num [aopEquator]⟩ (by norm_num [aopEquator, abs_of_nonneg]) (by
      obtain ⟨t1, t2, t3, -⟩ := topo_spec 1 0.3 aopEquator (by simp [aopEquator]) (by simp [aopEquator]) (by norm_num [aopEquator, abs_of_nonneg])
      rw [t1.2.2]
      exact cos_le_cos_of_nonneg_of_le_pi t2 (by have := pi_pos; linarith) aopEquator_zd)

/-- No terrestrial observer moves eastwards faster than 1.6e-6 of the speed of light by the rotation of the Earth. -/
theorem diurab_bound {φ hm : ℝ} (hh : |hm| ≤ 10000) :
    |1.0027379093 * (2 * π) * ((6378140 / √(cos φ ^ 2 + (1 - 1 / 298.257) ^ 2 * sin φ ^ 2) + hm) * cos φ / 1.49597870e11) / 173.14463331| ≤ 1.59e-6 := by
  have q := sin_sq_add_cos_sq φ
  have pos : 0 < cos φ ^ 2 + (1 - 1 / 298.257) ^ 2 * sin φ ^ 2 := by nlinarith [sq_nonneg (sin φ), sq_nonneg (cos φ)]
  have r0 := Real.sqrt_pos.2 pos
  have c : |cos φ| ≤ √(cos φ ^ 2 + (1 - 1 / 298.257) ^ 2 * sin φ ^ 2) := by
    refine Real.abs_le_sqrt ?_
    have := mul_nonneg (by norm_num : (0 : ℝ) ≤ (1 - 1 / 298.257) ^ 2) (sq_nonneg (sin φ)); linarith
  have e1 : |6378140 / √(cos φ ^ 2 + (1 - 1 / 298.257) ^ 2 * sin φ ^ 2) * cos φ| ≤ 6378140 := by
    rw [div_mul_eq_mul_div, abs_div, abs_of_pos r0, div_le_iff₀ r0, abs_mul]
    norm_num at c ⊢; linarith
  have e2 : |hm * cos φ| ≤ 10000 := by
    rw [abs_mul]; exact (mul_le_mul hh (abs_cos_le_one φ) (abs_nonneg _) (by norm_num)).trans (by norm_num)
  have e3 : |(6378140 / √(cos φ ^ 2 + (1 - 1 / 298.257) ^ 2 * sin φ ^ 2) + hm) * cos φ| ≤ 6388140 := by
    rw [add_mul]; refine (abs_add_le _ _).trans ?_; linarith
  rw [show 1.0027379093 * (2 * π) * ((6378140 / √(cos φ ^ 2 + (1 - 1 / 298.257) ^ 2 * sin φ ^ 2) + hm) * cos φ / 1.49597870e11) / 173.14463331 =
    π * (2 * 1.0027379093 / 1.49597870e11 / 173.14463331) * ((6378140 / √(cos φ ^ 2 + (1 - 1 / 298.257) ^ 2 * sin φ ^ 2) + hm) * cos φ) by ring, abs_mul]
  have p1 : |π * (2 * 1.0027379093 / 1.49597870e11 / 173.14463331)| ≤ 3.15 * (2 * 1.0027379093 / 1.49597870e11 / 173.14463331) := by
    rw [abs_of_nonneg (by have := pi_pos; positivity)]
    exact mul_le_mul_of_nonneg_right (by have := pi_lt_d2; linarith) (by norm_num)
  exact (mul_le_mul p1 e3 (abs_nonneg _) (by norm_num)).trans (by norm_num)

/-- C134: palAop and palOap in double precision undo each other. For a date within 547 years of J2000, a site up to 10 km high, polar motion up to 206 arcsec, UT1-UTC up to a minute and weather whose refraction constants are realistic, and a source that stands up to 75
degrees from the zenith (latitude, speed and sidereal time being those that palAoppa delivers), feeding any of the three pairs of observed coordinates that palAop delivers into palOap returns the apparent place to 5 microarcseconds. -/
theorem C134_aop_oap (R : Rounding fl) (hL : LibmOK L) {pw : ℝ → ℝ → ℝ} (hp : PowOK pw) (refco : ℝ → ℝ → ℝ → ℝ → ℝ → ℝ → ℝ → ℝ × ℝ) (eqeqx : ℝ) (refro : ℝ → ℝ) (nz nz1 nz2 nz3 nz4 : Bool)
    (rap dap date dut elongm phim hm xp yp tdk pmb rh wl tlr : ℝ) (hr : |rap| ≤ 10)
    (h : |date - 51544.5| ≤ 200000) (hd : |dut| ≤ 60) (hx : |xp| ≤ 1e-3) (hy : |yp| ≤ 1e-3) (hh : |hm| ≤ 10000) (he : |eqeqx| ≤ 0.01)
    (hA : ∀ φ, 0 ≤ (refco hm tdk pmb rh wl φ tlr).1 ∧ (refco hm tdk pmb rh wl φ tlr).1 ≤ 4e-4 ∧ |(refco hm tdk pmb rh wl φ tlr).2| ≤ 5e-7)
    (hz : let q := flAoppa fl L pw refco eqeqx nz date dut elongm phim hm xp yp tdk pmb rh wl tlr
      cos (75 * (π / 180)) ≤ dot (unit (moving q.diurab (q.st - rap) dap)) (zenithAxis q.phi)) :
    let o := flAop fl L pw refco eqeqx refro nz nz1 nz2 rap dap date dut elongm phim hm xp yp tdk pmb rh wl tlr
    ∀ c ∈ [('A', o.aob, o.zob), ('H', o.hob, o.dob), ('R', o.rob, o.dob)],
      let s := flOap fl L pw refco eqeqx refro nz nz3 nz4 [c.1] c.2.1 c.2.2 date dut elongm phim hm xp yp tdk pmb rh wl tlr
      len (fun i => dir s.1 s.2 i - dir rap dap i) < 5e-6 * arcsec := by
  intro o c hc
  obtain ⟨elong, -, -, -, a4, a5, a6, -, -, a9, -, -, a12⟩ := C132_aoppa R hL hp refco eqeqx nz date dut elongm phim hm xp yp tdk pmb rh wl tlr h hd hx hy (hh.trans (by norm_num)) he
  obtain ⟨q, hq⟩ : ∃ q, q = flAoppa fl L pw refco eqeqx nz date dut elongm phim hm xp yp tdk pmb rh wl tlr := ⟨_, rfl⟩
  have ho : o = flAopqk fl L refro nz1 nz2 rap dap q := by rw [hq]; rfl
  unfold flOap
  rw [← hq] at a4 a5 a6 a9 a12 hz ⊢
  have b := diurab_bound (φ := q.phi) hh
  have D : |q.diurab| ≤ 1.6e-6 := by
    have := abs_sub_abs_le_abs_sub q.diurab (1.0027379093 * (2 * π) * ((6378140 / √(cos q.phi ^ 2 + (1 - 1 / 298.257) ^ 2 * sin q.phi ^ 2) + hm) * cos q.phi / 1.49597870e11) / 173.14463331)
    generalize 1.0027379093 * (2 * π) * ((6378140 / √(cos q.phi ^ 2 + (1 - 1 / 298.257) ^ 2 * sin q.phi ^ 2) + hm) * cos q.phi / 1.49597870e11) / 173.14463331 = x at *
    norm_num at a6 b ⊢; linarith
  obtain ⟨r1, r2, r3⟩ := hA q.phi
  rw [← a9] at r1 r2 r3
  have key := C133_round_trip R hL refro nz1 nz2 nz3 nz4 rap dap q ⟨a4, a5⟩ D (by
    refine (abs_sub _ _).trans ?_
    norm_num at a12 ⊢; linarith) (a12.trans (by norm_num)) ⟨r1, r2, r3.trans (by norm_num)⟩ r3 hz
  dsimp only at key
  rw [← ho] at key
  simp only [List.mem_cons, List.not_mem_nil, or_false] at hc
  rcases hc with rfl | rfl | rfl
  · exact key _ (by simp)
  · exact key _ (by simp)
  · exact key _ (by simp)

/-- A source in the zenith is seen near the zenith by a moving observer. -/
theorem zenith_seen {d φ : ℝ} (hd : |d| ≤ 1.6e-6) : cos (75 * (π / 180)) ≤ dot (unit (moving d 0 φ)) (zenithAxis φ) := by
  have q := sin_sq_add_cos_sq φ
  have e : dot (moving d 0 φ) (zenithAxis φ) = 1 := by
    simp only [moving, dir, eastAxis, zenithAxis, dot_eq, Matrix.cons_val_zero, Matrix.cons_val_one, Matrix.cons_val, cos_zero, sin_zero]
    grind
  have l2 : len (moving d 0 φ) ^ 2 = 1 + d ^ 2 := by
    rw [pow_two, len_sq, dot_eq]
    simp only [moving, dir, eastAxis, Matrix.cons_val_zero, Matrix.cons_val_one, Matrix.cons_val, cos_zero, sin_zero]
    grind
  have d2 : d ^ 2 ≤ 1 := by rw [← sq_abs]; exact pow_le_one₀ (abs_nonneg _) (hd.trans (by norm_num))
  have n := len_nonneg (moving d 0 φ)
  have l : len (moving d 0 φ) ≤ 1.5 := by nlinarith
  have l0 : 0 < len (moving d 0 φ) := by
    rcases n.lt_or_eq with h | h
    · exact h
    · rw [← h] at l2; nlinarith [sq_nonneg d]
  have u : dot (unit (moving d 0 φ)) (zenithAxis φ) = 1 / len (moving d 0 φ) := by
    rw [← e]; unfold unit; rw [dot_eq, dot_eq]; ring
  rw [u]
  have c : cos (75 * (π / 180)) ≤ 1 / 2 := by
    rw [← cos_pi_div_three]
    have := pi_pos
    exact cos_le_cos_of_nonneg_of_le_pi (by positivity) (by linarith) (by linarith)
  refine c.trans ?_
  rw [div_le_div_iff₀ (by norm_num) l0]; linarith

/-- The site of the C test program and the source in its zenith, with IEEE rounding: the way back from hour angle and declination. -/
example : let q := flAoppa ieee roundedLibm (fun x y => x ^ y) (fun _ _ _ _ _ _ _ => (2.8e-4, -3.1e-7)) 4e-5 false 51000.1 25 2.1 0.5 3000 (-0.5e-6) 1e-6 280 550 0.6 0.45 0.006
    let o := flAop ieee roundedLibm (fun x y => x ^ y) (fun _ _ _ _ _ _ _ => (2.8e-4, -3.1e-7)) 4e-5 (fun _ => 0.005) false false false q.st q.phi 51000.1 25 2.1 0.5 3000 (-0.5e-6) 1e-6 280 550 0.6 0.45 0.006
    let s := flOap ieee roundedLibm (fun x y => x ^ y) (fun _ _ _ _ _ _ _ => (2.8e-4, -3.1e-7)) 4e-5 (fun _ => 0.005) false false false ['H'] o.hob o.dob 51000.1 25 2.1 0.5 3000 (-0.5e-6) 1e-6 280 550 0.6 0.45 0.006
    len (fun i => dir s.1 s.2 i - dir q.st q.phi i) < 5e-6 * arcsec := by
  obtain ⟨-, -, -, -, -, -, a6, -, -, -, -, -, a12⟩ := C132_aoppa ieee_rounding roundedLibm_ok powExample_ok (fun _ _ _ _ _ _ _ => (2.8e-4, -3.1e-7)) 4e-5 false 51000.1 25 2.1 0.5 3000 (-0.5e-6) 1e-6 280 550 0.6 0.45 0.006
    (by norm_num [abs_le]) (by norm_num [abs_le]) (by norm_num [abs_le]) (by norm_num [abs_le]) (by norm_num [abs_le]) (by norm_num [abs_le])
  have b := diurab_bound (φ := (flAoppa ieee roundedLibm (fun x y => x ^ y) (fun _ _ _ _ _ _ _ => (2.8e-4, -3.1e-7)) 4e-5 false 51000.1 25 2.1 0.5 3000 (-0.5e-6) 1e-6 280 550 0.6 0.45 0.006).phi) (hm := 3000) (by norm_num [abs_le])
  have D := abs_sub_abs_le_abs_sub (flAoppa ieee roundedLibm (fun x y => x ^ y) (fun _ _ _ _ _ _ _ => (2.8e-4, -3.1e-7)) 4e-5 false 51000.1 25 2.1 0.5 3000 (-0.5e-6) 1e-6 280 550 0.6 0.45 0.006).diurab
    (1.0027379093 * (2 * π) * ((6378140 / √(cos (flAoppa ieee roundedLibm (fun x y => x ^ y) (fun _ _ _ _ _ _ _ => (2.8e-4, -3.1e-7)) 4e-5 false 51000.1 25 2.1 0.5 3000 (-0.5e-6) 1e-6 280 550 0.6 0.45 0.006).phi ^ 2 +
      (1 - 1 / 298.257) ^ 2 * sin (flAoppa ieee roundedLibm (fun x y => x ^ y) (fun _ _ _ _ _ _ _ => (2.8e-4, -3.1e-7)) 4e-5 false 51000.1 25 2.1 0.5 3000 (-0.5e-6) 1e-6 280 550 0.6 0.45 0.006).phi ^ 2) + 3000) *
      cos (flAoppa ieee roundedLibm (fun x y => x ^ y) (fun _ _ _ _ _ _ _ => (2.8e-4, -3.1e-7)) 4e-5 false 51000.1 25 2.1 0.5 3000 (-0.5e-6) 1e-6 280 550 0.6 0.45 0.006).phi / 1.49597870e11) / 173.14463331)
  refine C134_aop_oap ieee_rounding roundedLibm_ok powExample_ok (fun _ _ _ _ _ _ _ => (2.8e-4, -3.1e-7)) 4e-5 (fun _ => 0.005) false false false false false _ _ 51000.1 25 2.1 0.5 3000 (-0.5e-6) 1e-6 280 550 0.6 0.45 0.006 (a12.trans (by norm_num))
    (by norm_num [abs_le]) (by norm_num [abs_le]) (by norm_num [abs_le]) (by norm_num [abs_le]) (by norm_num [abs_le]) (by norm_num [abs_le]) (fun _ => ⟨by norm_num, by norm_num, by norm_num [abs_le]⟩) ?_ ('H', _, _) (by simp)
  dsimp only
  rw [sub_self]
  refine zenith_seen ?_
  refine le_trans (sub_le_iff_le_add.1 (D.trans a6)) ?_
  norm_num at b ⊢; linarith

end Pal.Props
