import Verif.Lemmas.FlOap
import Verif.Props.Aop

/-!
# Rounding errors of palAopqk and palOapqk against exact arithmetic with the exact sine and cosine of the latitude
-/

namespace Pal
open Real Pal.Spec Pal.Props
variable {fl : ℝ → ℝ} {L : Libm}

/-- The parameters with the exact sine and cosine of the latitude. -/
noncomputable def exactTrig (p : Aoprms) : Aoprms := { p with sphi := sin p.phi, cphi := cos p.phi }

/-- The parameters hold the sine and cosine of the latitude as a good library gives them. -/
structure TrigOk (p : Aoprms) : Prop where
  sphi : |p.sphi - sin p.phi| ≤ 2.3e-16
  cphi : |p.cphi - cos p.phi| ≤ 2.3e-16

theorem TrigOk.sc {p : Aoprms} (h : TrigOk p) : |p.sphi * p.sphi + p.cphi * p.cphi - 1| ≤ 1e-6 := by
  have a := mul_err 5e-16 h.sphi h.sphi (abs_sin_le_one p.phi) (abs_sin_le_one p.phi) (by norm_num)
  have b := mul_err 5e-16 h.cphi h.cphi (abs_cos_le_one p.phi) (abs_cos_le_one p.phi) (by norm_num)
  have q := sin_sq_add_cos_sq p.phi
  rw [show p.sphi * p.sphi + p.cphi * p.cphi - 1 = (p.sphi * p.sphi - sin p.phi * sin p.phi) + (p.cphi * p.cphi - cos p.phi * cos p.phi) by nlinarith]
  refine (abs_add_le _ _).trans ?_
  norm_num at a b ⊢; linarith

theorem exactTrig_sc (p : Aoprms) : |(exactTrig p).sphi * (exactTrig p).sphi + (exactTrig p).cphi * (exactTrig p).cphi - 1| ≤ 1e-6 := by
  have : (exactTrig p).sphi * (exactTrig p).sphi + (exactTrig p).cphi * (exactTrig p).cphi - 1 = 0 := by
    show sin p.phi * sin p.phi + cos p.phi * cos p.phi - 1 = 0
    have := sin_sq_add_cos_sq p.phi; nlinarith
  rw [this, abs_zero]; norm_num

theorem two_small {x y a b : ℝ} (hx : |x| ≤ 2.3e-16) (hy : |y| ≤ 2.3e-16) (ha : |a| ≤ 1.0012) (hb : |b| ≤ 1.0012) : |x * a + y * b| ≤ 4.61e-16 := by
  have q1 := mul_bd hx ha
  have q2 := mul_bd hy hb
  refine (abs_add_le _ _).trans ((add_le_add q1 q2).trans (by norm_num))

/-- A turned vector and the vector turned by the exact angle. -/
theorem turn_ref {p : Aoprms} (h : TrigOk p) {W : Vec3} (hW : ∀ i, |W i| ≤ 1.0012) :
    |(p.sphi * W 0 - p.cphi * W 2) - (sin p.phi * W 0 - cos p.phi * W 2)| ≤ 4.61e-16 ∧ |(p.cphi * W 0 + p.sphi * W 2) - (cos p.phi * W 0 + sin p.phi * W 2)| ≤ 4.61e-16 ∧
    |(p.sphi * W 0 + p.cphi * W 2) - (sin p.phi * W 0 + cos p.phi * W 2)| ≤ 4.61e-16 ∧ |(-p.cphi * W 0 + p.sphi * W 2) - (-cos p.phi * W 0 + sin p.phi * W 2)| ≤ 4.61e-16 := by
  have n : |-(p.cphi - cos p.phi)| ≤ 2.3e-16 := by rw [abs_neg]; exact h.cphi
  refine ⟨?_, ?_, ?_, ?_⟩
  · rw [show (p.sphi * W 0 - p.cphi * W 2) - (sin p.phi * W 0 - cos p.phi * W 2) = (p.sphi - sin p.phi) * W 0 + -(p.cphi - cos p.phi) * W 2 by ring]
    exact two_small h.sphi n (hW 0) (hW 2)
  · rw [show (p.cphi * W 0 + p.sphi * W 2) - (cos p.phi * W 0 + sin p.phi * W 2) = (p.cphi - cos p.phi) * W 0 + (p.sphi - sin p.phi) * W 2 by ring]
    exact two_small h.cphi h.sphi (hW 0) (hW 2)
  · rw [show (p.sphi * W 0 + p.cphi * W 2) - (sin p.phi * W 0 + cos p.phi * W 2) = (p.sphi - sin p.phi) * W 0 + (p.cphi - cos p.phi) * W 2 by ring]
    exact two_small h.sphi h.cphi (hW 0) (hW 2)
  · rw [show (-p.cphi * W 0 + p.sphi * W 2) - (-cos p.phi * W 0 + sin p.phi * W 2) = -(p.cphi - cos p.phi) * W 0 + (p.sphi - sin p.phi) * W 2 by ring]
    exact two_small n h.sphi (hW 0) (hW 2)

theorem flAopAet_ref (R : Rounding fl) (hL : LibmOK L) (rap dap : ℝ) {p : Aoprms} (h : TrigOk p) (ha : |p.diurab| ≤ 1e-5) (hst : |rap - p.st| ≤ 20) (i : Fin 3) :
    |flAopAet fl L rap dap p i - aopAet rap dap (exactTrig p) i| ≤ 5.5e-15 := by
  have e := flAopAet_err R hL rap dap h.sc ha hst
  have l1 : len (dir (rap - p.st) dap) = 1 := len_one (dot_dir _ _)
  have w2 := (diurnal_len (D := dir (rap - p.st) dap) ha (l := 1) (u := 1) zero_le_one l1.ge l1.le (by norm_num)).2
  have wb := fun i => (comp_le_len (![(1 - p.diurab * dir (rap - p.st) dap 1) * dir (rap - p.st) dap 0, (1 - p.diurab * dir (rap - p.st) dap 1) * (dir (rap - p.st) dap 1 + p.diurab), (1 - p.diurab * dir (rap - p.st) dap 1) * dir (rap - p.st) dap 2] : Vec3) i).trans
    (w2.trans (by norm_num : (1 : ℝ) + 3e-5 ≤ 1.0012))
  obtain ⟨t1, t2, -, -⟩ := turn_ref h wb
  have ti := abs_sub_le (flAopAet fl L rap dap p i) (aopAet rap dap p i) (aopAet rap dap (exactTrig p) i)
  have ei := e i
  fin_cases i
  · exact ti.trans ((add_le_add ei t1).trans (by norm_num))
  · exact ei.trans (by norm_num)
  · exact ti.trans ((add_le_add ei t2).trans (by norm_num))

/-- Azimuth and topocentric zenith distance in palAopqk. -/
theorem flAopTopo_ref (R : Rounding fl) (hL : LibmOK L) (nz : Bool) (rap dap : ℝ) {p : Aoprms} (h : TrigOk p) (ha : |p.diurab| ≤ 1e-5) (hst : |rap - p.st| ≤ 20) :
    let o := flAopTopo fl L nz rap dap p
    let E := aopTopo rap dap (exactTrig p)
    0 ≤ E.2 ∧ E.2 ≤ π ∧ ∃ T P, |o.1 - T| ≤ 4.5e-16 ∧ |o.2 - (π / 2 - P)| ≤ 4.5e-16 ∧ |P| ≤ π / 2 ∧ len (fun i => dir T P i - dir E.1 (π / 2 - E.2) i) ≤ 2.04e-14 := by
  intro o E
  have er := flAopAet_ref R hL rap dap h ha hst
  obtain ⟨l1, l2⟩ := aopAet_len rap dap (p := exactTrig p) (exactTrig_sc p) ha
  have hE : E = _ := aopTopo_eq rap dap (exactTrig p)
  have ho : o = (if flAopAet fl L rap dap p 0 = 0 ∧ flAopAet fl L rap dap p 1 = 0 then 0 else flAtan2 L nz (flAopAet fl L rap dap p 1) (-flAopAet fl L rap dap p 0),
    L.atan2 (fl (√(fl (fl (flAopAet fl L rap dap p 0 * flAopAet fl L rap dap p 0) + fl (flAopAet fl L rap dap p 1 * flAopAet fl L rap dap p 1))))) (flAopAet fl L rap dap p 2)) := rfl
  clear_value o E
  generalize flAopAet fl L rap dap p = a at *
  generalize aopAet rap dap (exactTrig p) = A at *
  have lV : len (![-A 0, A 1, A 2] : Vec3) = len A := by
    rw [len_eq, len_eq, dot_eq, dot_eq]; simp
  obtain ⟨x1, x2, x3⟩ := azzd_exact ![-A 0, A 1, A 2] E.1 (by
    intro h
    rw [hE]
    simp only [Matrix.cons_val_zero, Matrix.cons_val_one, ne_eq, neg_eq_zero] at h ⊢
    rw [if_neg (by tauto)])
  have eE : atan2 (√((![-A 0, A 1, A 2] : Vec3) 0 * (![-A 0, A 1, A 2] : Vec3) 0 + (![-A 0, A 1, A 2] : Vec3) 1 * (![-A 0, A 1, A 2] : Vec3) 1)) ((![-A 0, A 1, A 2] : Vec3) 2) = E.2 := by
    rw [hE]; simp
  rw [eE] at x1 x2 x3
  refine ⟨x2, x3, ?_⟩
  obtain ⟨T, P, t1, t2, t3, t4⟩ := azzd_core R hL nz (v := ![-a 0, a 1, a 2]) (V := ![-A 0, A 1, A 2]) (e := 5.5e-15) (by
    intro i
    fin_cases i
    · show |-a 0 - -A 0| ≤ _
      rw [show -a 0 - -A 0 = -(a 0 - A 0) by ring, abs_neg]; exact er 0
    · exact er 1
    · exact er 2) (by norm_num) (by rw [lV]; norm_num at *; linarith) (by rw [lV]; norm_num at *; linarith) x1 o.1 (by
    rw [ho]
    simp only [Matrix.cons_val_zero, Matrix.cons_val_one, ne_eq, neg_eq_zero]
    by_cases h : a 0 = 0 ∧ a 1 = 0
    · rw [if_pos h]; exact Or.inl ⟨h.1, h.2, rfl⟩
    · rw [if_neg h]; exact Or.inr ⟨by tauto, rfl⟩)
  refine ⟨T, P, t1, ?_, t3, t4.trans (by norm_num)⟩
  have : o.2 = L.atan2 (fl (√(fl (fl ((![-a 0, a 1, a 2] : Vec3) 0 * (![-a 0, a 1, a 2] : Vec3) 0) + fl ((![-a 0, a 1, a 2] : Vec3) 1 * (![-a 0, a 1, a 2] : Vec3) 1))))) ((![-a 0, a 1, a 2] : Vec3) 2) := by
    rw [ho]; simp
  rw [this]; exact t2

theorem flAopTurn_ref (R : Rounding fl) {p : Aoprms} (h : TrigOk p) {a A : Vec3} {g : ℝ} (ha : ∀ i, |a i - A i| ≤ g) (hg : g ≤ 1e-11) (hA : len A = 1) :
    (∀ i, |flAopTurn fl p a i - (![sin p.phi * A 0 + cos p.phi * A 2, A 1, -cos p.phi * A 0 + sin p.phi * A 2] : Vec3) i| ≤ 1.41424 * g + 8.61e-16) ∧
    0.9989 ≤ len (![sin p.phi * A 0 + cos p.phi * A 2, A 1, -cos p.phi * A 0 + sin p.phi * A 2] : Vec3) ∧ len (![sin p.phi * A 0 + cos p.phi * A 2, A 1, -cos p.phi * A 0 + sin p.phi * A 2] : Vec3) ≤ 1.0011 := by
  obtain ⟨e, -, -⟩ := flAopTurn_err R h.sc ha hg hA
  have g0 := (abs_nonneg _).trans (ha 0)
  obtain ⟨-, -, t1, t2⟩ := turn_ref h (W := A) (fun i => (comp_le_len A i).trans (by rw [hA]; norm_num))
  refine ⟨fun i => ?_, turn_len (exactTrig_sc p) (W := A) (by simp) (by simp only [Matrix.cons_val_zero, Matrix.cons_val, exactTrig]; ring) (by rw [hA]; norm_num) (by rw [hA]; norm_num)⟩
  have ei := e i
  have ti := abs_sub_le (flAopTurn fl p a i) ((![p.sphi * A 0 + p.cphi * A 2, A 1, -p.cphi * A 0 + p.sphi * A 2] : Vec3) i) ((![sin p.phi * A 0 + cos p.phi * A 2, A 1, -cos p.phi * A 0 + sin p.phi * A 2] : Vec3) i)
  have s : ∀ {x y : ℝ}, x ≤ 1.41424 * g + 4e-16 → y ≤ 4.61e-16 → x + y ≤ 1.41424 * g + 8.61e-16 := fun {x y} hx hy => by norm_num at *; linarith
  fin_cases i
  · exact ti.trans (s ei t1)
  · exact ti.trans (s ei (by simp; norm_num))
  · exact ti.trans (s ei t2)

theorem flOapVector_ref (R : Rounding fl) (hL : LibmOK L) (ty : ObType) (ob1 ob2 : ℝ) {p : Aoprms} (h : TrigOk p) (hst : ty = .r → |p.st - ob1| ≤ 20) (i : Fin 3) :
    |flOapVector fl L ty ob1 ob2 p i - oapVector ty ob1 ob2 (exactTrig p) i| ≤ 4.9e-15 := by
  have ei := flOapVector_err R hL ty ob1 ob2 h.sc hst i
  have ti := abs_sub_le (flOapVector fl L ty ob1 ob2 p i) (oapVector ty ob1 ob2 p i) (oapVector ty ob1 ob2 (exactTrig p) i)
  have wb : ∀ a i, |palDcs2c a ob2 i| ≤ 1.0012 := fun a i => by
    have e : palDcs2c a ob2 = dir a ob2 := by
      unfold palDcs2c eraS2c dir; funext i; fin_cases i <;> simp [mul_comm]
    rw [e]; exact (dir_le _ _ i).trans (by norm_num)
  have s : ∀ {x y : ℝ}, x ≤ 4.4e-15 → y ≤ 4.61e-16 → x + y ≤ 4.9e-15 := fun {x y} hx hy => by norm_num at *; linarith
  cases ty
  · obtain ⟨t1, t2, -, -⟩ := turn_ref h (wb _)
    fin_cases i
    · exact ti.trans (s ei t1)
    · exact ei.trans (by norm_num)
    · exact ti.trans (s ei t2)
  · obtain ⟨t1, t2, -, -⟩ := turn_ref h (wb _)
    fin_cases i
    · exact ti.trans (s ei t1)
    · exact ei.trans (by norm_num)
    · exact ti.trans (s ei t2)
  · exact ei.trans (by norm_num)

/-- The refraction removed by palOapqk away from the horizon, for vectors that differ by e. -/
theorem flOapRefr_ref (R : Rounding fl) (refro : ℝ → ℝ) {p : Aoprms} (hA : |p.refa| ≤ 5e-4) (hB : |p.refb| ≤ 5e-7) {v V : Vec3} {e : ℝ} (e0 : 4.4e-15 ≤ e) (e1 : e ≤ 4e-13) (hv : ∀ i, |v i - V i| ≤ e) (hl : len V ≤ 1.0011)
    (hz : 0.24254 ≤ V 2) (zd ZD : ℝ) :
    ∃ D, oapRefr p (√(V 0 * V 0 + V 1 * V 1)) (V 2) ZD = some D ∧ |flOapRefr fl refro p (fl (√(fl (fl (v 0 * v 0) + fl (v 1 * v 1))))) (v 2) zd - D| ≤ 0.0147 * e ∧ |D| ≤ 2.12e-3 * √(V 0 * V 0 + V 1 * V 1) := by
  have q0 := Real.sqrt_nonneg (V 0 * V 0 + V 1 * V 1)
  have hS : √(V 0 * V 0 + V 1 * V 1) ≤ 1.0011 := by
    refine le_trans ?_ hl
    rw [len_eq, dot_eq]
    exact Real.sqrt_le_sqrt (by have := mul_self_nonneg (V 2); linarith)
  have vb : ∀ i, |v i| ≤ 10 ^ 72 := fun i => by
    have := abs_sub_abs_le_abs_sub (v i) (V i)
    have := (comp_le_len V i).trans hl
    have := hv i
    have : (2 : ℝ) ≤ 10 ^ 72 := by norm_num
    norm_num at *; linarith
  have hh := flHyp_err R (hv 0) (hv 1) (vb 0) (vb 1)
  have hh' : |fl (√(fl (fl (v 0 * v 0) + fl (v 1 * v 1)))) - √(V 0 * V 0 + V 1 * V 1)| ≤ 2.06 * e := by
    refine hh.trans ?_
    have z : (1 : ℝ) / 10 ^ 98 ≤ 1e-30 := by norm_num
    generalize (1 : ℝ) / 10 ^ 98 = t at *
    norm_num at *; linarith
  clear hh
  generalize fl (√(fl (fl (v 0 * v 0) + fl (v 1 * v 1)))) = s at *
  generalize √(V 0 * V 0 + V 1 * V 1) = S at *
  have zf : fl zbreak ≤ 0.2425357 := by
    have c := (abs_le.1 (R.cst zbreak (M := 1) (by unfold zbreak; norm_num) (by norm_num) (by norm_num))).2
    have : zbreak = 0.242535625 := rfl
    norm_num at *; linarith
  have b1 : V 2 ≥ zbreak := by unfold zbreak; norm_num at *; linarith
  have b2 : v 2 ≥ fl zbreak := by have := (abs_le.1 (hv 2)).1; norm_num at *; linarith
  unfold oapRefr flOapRefr
  rw [if_pos b1, if_pos b2]
  dsimp only
  have Z0 : 0 < V 2 := lt_of_lt_of_le (by norm_num) hz
  have n : Near (4.1232 * e) (v 2) (V 2) := ⟨Z0, by norm_num at *; linarith, by norm_num at *; linarith, (hv 2).trans (by
    have := mul_le_mul_of_nonneg_left hz (by norm_num at *; linarith : 0 ≤ 4.1232 * e)
    norm_num at *; linarith)⟩
  have Qs : |S / V 2| ≤ 4.124 * S := by
    rw [abs_of_nonneg (div_nonneg q0 Z0.le), div_le_iff₀ Z0]
    have := mul_le_mul_of_nonneg_left hz q0
    norm_num at *; linarith
  have Q : |S / V 2| ≤ 4.13 := Qs.trans (by norm_num at *; linarith)
  have t := R.divN (26 * e) hh' n (by norm_num : (0 : ℝ) < 0.24254) hz Q (by norm_num at *; linarith) (by norm_num at *; linarith)
  generalize fl (s / v 2) = x at *
  generalize S / V 2 = X at *
  have m1 := R.mulB (1.4e-5 * e) (noerr p.refb) t hB Q (by norm_num at *; linarith) (by norm_num at *; linarith)
  have m1' := mul_bd hB Q
  have m2 := R.mulB (1.2e-4 * e) m1 t m1' Q (by norm_num at *; nlinarith) (by norm_num at *; nlinarith)
  have m2' := mul_bd m1' Q
  obtain ⟨m3, m3'⟩ := R.addB (1.4e-4 * e) (noerr p.refa) m2 hA m2' (by norm_num at *; linarith) (by norm_num at *; linarith)
  have m3'' : |p.refa + p.refb * X * X| ≤ 5.1e-4 := m3'.trans (by norm_num)
  have m4 := R.mulB (0.0147 * e) m3 t m3'' Q (by norm_num at *; nlinarith) (by norm_num at *; nlinarith)
  refine ⟨_, rfl, m4, ?_⟩
  exact (mul_bd m3'' Qs).trans (by norm_num; linarith)

end Pal
