import Verif.Lemmas.FlPrec2
import Verif.Props.FlFk4
import Verif.Props.Prec
import Verif.Props.Prec06
import Verif.Props.Coord

/-!
# Precession and ecliptic coordinates in double precision
-/

namespace Pal.Props
open Real Pal.Spec Matrix

variable {fl : ℝ → ℝ} {L : Libm}

/-- C137: the matrices of palPrec (IAU 2006, epochs within 1000 years of 2000), palPrebn (starting epoch within 1000 years of 1850, spans of up to 1000 years) and palEcmat (dates within 1000 years of 2000) in double precision take every vector to that of exact
arithmetic, to 1.8e-14, 6e-15 and 2.1e-15 of its length. -/
theorem C137_matrices (R : Rounding fl) (hL : LibmOK L) (nut : ℝ → ℝ → ℝ × ℝ) :
    (∀ ep0 ep1, |ep0 - 2000| ≤ 1000 → |ep1 - 2000| ≤ 1000 → ∀ x : Vec3, len (fun i => (flPrec fl L ep0 ep1 *ᵥ x) i - (palPrec (iau2006 nut) ep0 ep1 *ᵥ x) i) ≤ 1.8e-14 * len x) ∧
    (∀ b0 b1, |b0 - 1850| ≤ 1000 → |b1 - b0| ≤ 1000 → ∀ x : Vec3, len (fun i => (flPrebn fl L b0 b1 *ᵥ x) i - (palPrebn b0 b1 *ᵥ x) i) ≤ 6e-15 * len x) ∧
    (∀ date, |date - 51544.5| ≤ 365250 → ∀ x : Vec3, len (fun i => (flEcmat fl L date *ᵥ x) i - (palEcmat (iau2006 nut) date *ᵥ x) i) ≤ 2.1e-15 * len x) := by
  have key : ∀ (M Q : Mat3) (e : ℝ), Small (M - Q) e → ∀ x : Vec3, len (fun i => (M *ᵥ x) i - (Q *ᵥ x) i) ≤ e * len x := fun M Q e h x => by
    have := h x; rw [Matrix.sub_mulVec] at this; exact this
  refine ⟨fun ep0 ep1 h0 h1 => key _ _ _ (flPrec_small R hL nut h0 h1), fun b0 b1 h0 h1 => key _ _ _ (flPrebn_small R hL h0 h1), fun date h => key _ _ _ ?_⟩
  rw [ecmat_eq]
  exact flEcmat_small R hL h

/-- One application of palPreces to a place that is not exactly the one meant. -/
theorem preces_go (R : Rounding fl) (hL : LibmOK L) (nz : Bool) {M Q : Mat3} {e : ℝ} (hQ : IsRotation Q) (h : Small (M - Q) e) (he : e ≤ 1.8e-14) {r d r' d' δ : ℝ}
    (hδ : len (fun i => dir r d i - dir r' d' i) ≤ δ) (hδ1 : δ ≤ 1e-11) :
    let s := flC2s fl L nz (flRxp fl M (flS2c fl L r d))
    0 ≤ flAnp fl s.1 ∧ flAnp fl s.1 ≤ flD2PI fl ∧ |s.2| ≤ π / 2 + 4.5e-16 ∧ len (fun i => dir (flAnp fl s.1) s.2 i - (Q *ᵥ dir r' d') i) ≤ 2 * δ + 2.001 * e + 7.82e-15 := by
  intro s
  have e0 := h.nonneg
  have d0 := (len_nonneg _).trans hδ
  obtain ⟨l, n⟩ := flRxp_near R hQ h (he.trans (by norm_num)) (flS2c_len R hL hδ) (by norm_num at hδ1 ⊢; linarith) (len_one (dot_dir r' d'))
  obtain ⟨a, b, c, k⟩ := flAnpC2s_unit R hL nz n (by norm_num at hδ1 he ⊢; linarith) l
  refine ⟨a, b, c, k.trans ?_⟩
  norm_num at *
  linarith

theorem preces4 {sys : List Char} (h : Names '4' sys) (nz : Bool) (ep0 ep1 r d : ℝ) :
    flPreces fl L nz sys ep0 ep1 r d = (flAnp fl (flC2s fl L nz (flRxp fl (flPrebn fl L ep0 ep1) (flS2c fl L r d))).1, (flC2s fl L nz (flRxp fl (flPrebn fl L ep0 ep1) (flS2c fl L r d))).2) := by
  have h4 := (sysIs_iff '4' (Or.inl rfl) sys).2 h
  unfold flPreces
  rw [if_pos h4]

theorem preces5 {sys : List Char} (h : Names '5' sys) (nz : Bool) (ep0 ep1 r d : ℝ) :
    flPreces fl L nz sys ep0 ep1 r d = (flAnp fl (flC2s fl L nz (flRxp fl (flPrec fl L ep0 ep1) (flS2c fl L r d))).1, (flC2s fl L nz (flRxp fl (flPrec fl L ep0 ep1) (flS2c fl L r d))).2) := by
  have h5 := (sysIs_iff '5' (Or.inr rfl) sys).2 h
  have h4 : ¬ (sysIs ['F', 'K', '4'] sys = true) := by
    intro h'
    obtain ⟨a, b, r, e, -, -⟩ := (sysIs_iff '4' (Or.inl rfl) sys).1 h'
    obtain ⟨a', b', r', e', -, -⟩ := h
    rw [e] at e'
    simp at e'
  unfold flPreces
  rw [if_neg h4, if_pos h5]

/-- C137: palPreces in double precision gives the direction of exact arithmetic to 2.1e-14 radians (FK4) and 4.4e-14 radians (FK5, 9 nanoarcseconds), with a right ascension in [0, 2π], for every position and epochs within 1000 years; any other name of the system
gives -99 for both. -/
theorem C137_preces (R : Rounding fl) (hL : LibmOK L) (nut : ℝ → ℝ → ℝ × ℝ) (nz : Bool) (sys : List Char) (ep0 ep1 r d : ℝ) :
    let o := flPreces fl L nz sys ep0 ep1 r d
    let x := palPreces (iau2006 nut) sys ep0 ep1 r d
    (Names '4' sys → |ep0 - 1850| ≤ 1000 → |ep1 - ep0| ≤ 1000 → 0 ≤ o.1 ∧ o.1 ≤ flD2PI fl ∧ |o.2| ≤ π / 2 + 4.5e-16 ∧ len (fun i => dir o.1 o.2 i - dir x.1 x.2 i) ≤ 2.1e-14) ∧
    (Names '5' sys → |ep0 - 2000| ≤ 1000 → |ep1 - 2000| ≤ 1000 → 0 ≤ o.1 ∧ o.1 ≤ flD2PI fl ∧ |o.2| ≤ π / 2 + 4.5e-16 ∧ len (fun i => dir o.1 o.2 i - dir x.1 x.2 i) ≤ 4.4e-14) ∧
    (¬ Names '4' sys → ¬ Names '5' sys → o = (-99, -99)) := by
  intro o x
  have z : len (fun i => dir r d i - dir r d i) ≤ 0 := le_of_eq (by rw [len_eq, dot_eq]; simp)
  have hx := C44_preces (iau2006 nut) pmat06_rot sys ep0 ep1 r d
  refine ⟨fun h h0 h1 => ?_, fun h h0 h1 => ?_, fun h4 h5 => ?_⟩
  · obtain ⟨a, b, c, k⟩ := preces_go R hL nz (C43_rotations (iau2006 nut) (pnm06a_rot nut) ep0 ep1).1 (flPrebn_small R hL h0 h1) (by norm_num) z (by norm_num)
    rw [← hx.1 h] at k
    show 0 ≤ (flPreces fl L nz sys ep0 ep1 r d).1 ∧ (flPreces fl L nz sys ep0 ep1 r d).1 ≤ _ ∧ |(flPreces fl L nz sys ep0 ep1 r d).2| ≤ _ ∧ len (fun i => dir (flPreces fl L nz sys ep0 ep1 r d).1 (flPreces fl L nz sys ep0 ep1 r d).2 i - _) ≤ _
    rw [preces4 h]
    exact ⟨a, b, c, k.trans (by norm_num)⟩
  · obtain ⟨a, b, c, k⟩ := preces_go R hL nz (C42_prec_rotation (iau2006 nut) pmat06_rot ep0 ep1).1 (flPrec_small R hL nut h0 h1) (by norm_num) z (by norm_num)
    rw [← hx.2.1 h] at k
    show 0 ≤ (flPreces fl L nz sys ep0 ep1 r d).1 ∧ (flPreces fl L nz sys ep0 ep1 r d).1 ≤ _ ∧ |(flPreces fl L nz sys ep0 ep1 r d).2| ≤ _ ∧ len (fun i => dir (flPreces fl L nz sys ep0 ep1 r d).1 (flPreces fl L nz sys ep0 ep1 r d).2 i - _) ≤ _
    rw [preces5 h]
    exact ⟨a, b, c, k.trans (by norm_num)⟩
  · have n4 := mt (sysIs_iff '4' (Or.inl rfl) sys).1 h4
    have n5 := mt (sysIs_iff '5' (Or.inr rfl) sys).1 h5
    show flPreces fl L nz sys ep0 ep1 r d = _
    unfold flPreces
    rw [if_neg n4, if_neg n5]

/-- C137: in double precision, precessing a place from one epoch to another and back gives the place again, to 6.1e-14 radians in FK4 and 1.4e-13 radians in FK5 (where the two epochs must not both be 2000: then the code applies the frame bias twice). -/
theorem C137_preces_round_trip (R : Rounding fl) (hL : LibmOK L) (nz nz' : Bool) (sys : List Char) (ep0 ep1 r d : ℝ) :
    let o := flPreces fl L nz sys ep0 ep1 r d
    let b := flPreces fl L nz' sys ep1 ep0 o.1 o.2
    (Names '4' sys → |ep0 - 1850| ≤ 1000 → |ep1 - 1850| ≤ 1000 → |ep1 - ep0| ≤ 1000 → len (fun i => dir b.1 b.2 i - dir r d i) ≤ 6.1e-14) ∧
    (Names '5' sys → |ep0 - 2000| ≤ 1000 → |ep1 - 2000| ≤ 1000 → ep0 ≠ 2000 ∨ ep1 ≠ 2000 → len (fun i => dir b.1 b.2 i - dir r d i) ≤ 1.4e-13) := by
  intro o b
  have z : len (fun i => dir r d i - dir r d i) ≤ 0 := le_of_eq (by rw [len_eq, dot_eq]; simp)
  have inner : ∀ (Q : Mat3) (P : Mat3) (o : ℝ × ℝ) (E : ℝ), IsRotation Q → P = Q.transpose → len (fun i => dir o.1 o.2 i - (Q *ᵥ dir r d) i) ≤ E →
      ∃ r' d', len (fun i => dir o.1 o.2 i - dir r' d' i) ≤ E ∧ P *ᵥ dir r' d' = dir r d := fun Q P o E hQ hP h => by
    have u := c2s_anp (Q *ᵥ dir r d) (by rw [rot_dot hQ, dot_dir])
    refine ⟨_, _, by rw [u]; exact h, ?_⟩
    rw [u, hP, Matrix.mulVec_mulVec, rot_trans_mul hQ, Matrix.one_mulVec]
  constructor
  · intro h h0 h1 h2
    have rq := (C43_rotations (iau2006 fun _ _ => 0) (pnm06a_rot _) ep0 ep1).1
    obtain ⟨-, -, -, k⟩ := preces_go R hL nz rq (flPrebn_small R hL h0 h2) (by norm_num) z (by norm_num)
    have ho : o = _ := preces4 h nz ep0 ep1 r d
    have k' : len (fun i => dir o.1 o.2 i - (palPrebn ep0 ep1 *ᵥ dir r d) i) ≤ 2 * 0 + 2.001 * 6e-15 + 7.82e-15 := by rw [ho]; exact k
    obtain ⟨r', d', m, p⟩ := inner _ (palPrebn ep1 ep0) o _ rq (C43_prebn_inverse ep0 ep1).1 k'
    obtain ⟨-, -, -, k2⟩ := preces_go R hL nz' (C43_rotations (iau2006 fun _ _ => 0) (pnm06a_rot _) ep1 ep0).1 (flPrebn_small R hL h1 (by rw [abs_sub_comm]; exact h2)) (by norm_num) m (by norm_num)
    rw [p] at k2
    have hb : b = _ := preces4 h nz' ep1 ep0 o.1 o.2
    rw [hb]
    exact k2.trans (by norm_num)
  · intro h h0 h1 h2
    have rq := (C42_prec_rotation (iau2006 fun _ _ => 0) pmat06_rot ep0 ep1)
    obtain ⟨-, -, -, k⟩ := preces_go R hL nz rq.1 (flPrec_small R hL (fun _ _ => 0) h0 h1) (by norm_num) z (by norm_num)
    have ho : o = _ := preces5 h nz ep0 ep1 r d
    have k' : len (fun i => dir o.1 o.2 i - (palPrec (iau2006 fun _ _ => 0) ep0 ep1 *ᵥ dir r d) i) ≤ 2 * 0 + 2.001 * 1.8e-14 + 7.82e-15 := by rw [ho]; exact k
    obtain ⟨r', d', m, p⟩ := inner _ (palPrec (iau2006 fun _ _ => 0) ep1 ep0) o _ rq.1 (rq.2.2.2 h2) k'
    obtain ⟨-, -, -, k2⟩ := preces_go R hL nz' (C42_prec_rotation (iau2006 fun _ _ => 0) pmat06_rot ep1 ep0).1 (flPrec_small R hL (fun _ _ => 0) h1 h0) (by norm_num) m (by norm_num)
    rw [p] at k2
    have hb : b = _ := preces5 h nz' ep1 ep0 o.1 o.2
    rw [hb]
    exact k2.trans (by norm_num)

/-- palEqecl of a place near another. -/
theorem eqecl_ref (R : Rounding fl) (hL : LibmOK L) (nut : ℝ → ℝ → ℝ × ℝ) (nz : Bool) {r d r' d' date δ : ℝ} (h : |date - 51544.5| ≤ 365250) (hδ : len (fun i => dir r d i - dir r' d' i) ≤ δ) (hδ1 : δ ≤ 1e-11) :
    let o := flEqecl fl L nz r d date
    let x := palEqecl (iau2006 nut) r' d' date
    0 ≤ o.1 ∧ o.1 ≤ flD2PI fl ∧ |o.2| ≤ π / 2 + 4.5e-16 ∧ len (fun i => dir o.1 o.2 i - dir x.1 x.2 i) ≤ 2 * δ + 3.2e-14 := by
  intro o x
  have d0 := (len_nonneg _).trans hδ
  obtain ⟨l1, n1⟩ := flRxp_near R (pmat06_rot _ _) (flPrec_date R hL h) (by norm_num) (flS2c_len R hL hδ) (by norm_num at hδ1 ⊢; linarith) (len_one (dot_dir r' d'))
  obtain ⟨l2, n2⟩ := flRxp_near R (rot_axisX _) (flEcmat_small R hL h) (by norm_num) n1 (by norm_num at hδ1 ⊢; linarith) l1
  obtain ⟨a, b, c, k⟩ := flAnpC2s_unit R hL nz n2 (by norm_num at hδ1 ⊢; linarith) l2
  have ex : dir x.1 x.2 = _ := eqecl_dir (iau2006 nut) pmat06_rot r' d' date
  have p1 := pi_lt_d4
  have eo : o = (flAnp fl (flC2s fl L nz (flRxp fl (flEcmat fl L date) (flRxp fl (flPrec fl L 2000 (flEpj fl date)) (flS2c fl L r d)))).1,
      (flC2s fl L nz (flRxp fl (flEcmat fl L date) (flRxp fl (flPrec fl L 2000 (flEpj fl date)) (flS2c fl L r d)))).2) := by
    show flEqecl fl L nz r d date = _
    unfold flEqecl
    dsimp only
    rw [flDrange_lat R _ (c.trans (by norm_num at *; linarith))]
  rw [ex, eo]
  refine ⟨a, b, c, le_trans k ?_⟩
  norm_num at *
  linarith

/-- palEcleq of a place near another. -/
theorem ecleq_ref (R : Rounding fl) (hL : LibmOK L) (nut : ℝ → ℝ → ℝ × ℝ) (nz : Bool) {r d r' d' date δ : ℝ} (h : |date - 51544.5| ≤ 365250) (hδ : len (fun i => dir r d i - dir r' d' i) ≤ δ) (hδ1 : δ ≤ 1e-11) :
    let o := flEcleq fl L nz r d date
    let x := palEcleq (iau2006 nut) r' d' date
    0 ≤ o.1 ∧ o.1 ≤ flD2PI fl ∧ |o.2| ≤ π / 2 + 4.5e-16 ∧ len (fun i => dir o.1 o.2 i - dir x.1 x.2 i) ≤ 2 * δ + 3.2e-14 := by
  intro o x
  have d0 := (len_nonneg _).trans hδ
  obtain ⟨l1, n1⟩ := flTrxp_near R (rot_axisX _) (flEcmat_small R hL h) (by norm_num) (flS2c_len R hL hδ) (by norm_num at hδ1 ⊢; linarith) (len_one (dot_dir r' d'))
  obtain ⟨l2, n2⟩ := flTrxp_near R (pmat06_rot _ _) (flPrec_date R hL h) (by norm_num) n1 (by norm_num at hδ1 ⊢; linarith) l1
  obtain ⟨a, b, c, k⟩ := flAnpC2s_unit R hL nz n2 (by norm_num at hδ1 ⊢; linarith) l2
  have ex : dir x.1 x.2 = _ := ecleq_dir (iau2006 nut) pmat06_rot r' d' date
  have p1 := pi_lt_d4
  have eo : o = (flAnp fl (flC2s fl L nz (flTrxp fl (flPrec fl L 2000 (flEpj fl date)) (flTrxp fl (flEcmat fl L date) (flS2c fl L r d)))).1,
      (flC2s fl L nz (flTrxp fl (flPrec fl L 2000 (flEpj fl date)) (flTrxp fl (flEcmat fl L date) (flS2c fl L r d)))).2) := by
    show flEcleq fl L nz r d date = _
    unfold flEcleq
    dsimp only
    rw [flDrange_lat R _ (c.trans (by norm_num at *; linarith))]
  rw [ex, eo]
  refine ⟨a, b, c, le_trans k ?_⟩
  norm_num at *
  linarith

/-- C137: palEqecl and palEcleq in double precision give the directions of exact arithmetic to 3.2e-14 radians (7 nanoarcseconds), with a longitude or right ascension in [0, 2π], for every position and every date within 1000 years of 2000; one after the other gives the
original place to 9.6e-14 radians, in either order. -/
theorem C137_ecliptic (R : Rounding fl) (hL : LibmOK L) (nut : ℝ → ℝ → ℝ × ℝ) (nz nz' : Bool) (x y date : ℝ) (h : |date - 51544.5| ≤ 365250) :
    (let o := flEqecl fl L nz x y date
     let e := palEqecl (iau2006 nut) x y date
     0 ≤ o.1 ∧ o.1 ≤ flD2PI fl ∧ |o.2| ≤ π / 2 + 4.5e-16 ∧ len (fun i => dir o.1 o.2 i - dir e.1 e.2 i) ≤ 3.2e-14) ∧
    (let o := flEcleq fl L nz x y date
     let e := palEcleq (iau2006 nut) x y date
     0 ≤ o.1 ∧ o.1 ≤ flD2PI fl ∧ |o.2| ≤ π / 2 + 4.5e-16 ∧ len (fun i => dir o.1 o.2 i - dir e.1 e.2 i) ≤ 3.2e-14) ∧
    (let o := flEqecl fl L nz x y date
     let b := flEcleq fl L nz' o.1 o.2 date
     len (fun i => dir b.1 b.2 i - dir x y i) ≤ 9.6e-14) ∧
    (let o := flEcleq fl L nz x y date
     let b := flEqecl fl L nz' o.1 o.2 date
     len (fun i => dir b.1 b.2 i - dir x y i) ≤ 9.6e-14) := by
  have z : len (fun i => dir x y i - dir x y i) ≤ 0 := le_of_eq (by rw [len_eq, dot_eq]; simp)
  obtain ⟨a1, b1, c1, k1⟩ := eqecl_ref R hL nut nz h z (by norm_num)
  obtain ⟨a2, b2, c2, k2⟩ := ecleq_ref R hL nut nz h z (by norm_num)
  have inv := C97_ecliptic_inverse nut x y date
  obtain ⟨-, -, -, k3⟩ := ecleq_ref R hL nut nz' h k1 (by norm_num)
  obtain ⟨-, -, -, k4⟩ := eqecl_ref R hL nut nz' h k2 (by norm_num)
  refine ⟨⟨a1, b1, c1, k1.trans (by norm_num)⟩, ⟨a2, b2, c2, k2.trans (by norm_num)⟩, ?_, ?_⟩
  · have e := inv.2
    dsimp only at e
    rw [e] at k3
    exact k3.trans (by norm_num)
  · have e := inv.1
    dsimp only at e
    rw [e] at k4
    exact k4.trans (by norm_num)

theorem ge50_le (i j : Fin 3) : |ge50Mat.transpose i j| ≤ 1 := by
  fin_cases i <;> fin_cases j <;> norm_num [ge50Mat, abs_le]

/-- A second range reduction of a reduced angle changes the direction by at most 2.5e-16. -/
theorem flAnp_twice (R : Rounding fl) {a : ℝ} (h0 : 0 ≤ a) (h1 : a ≤ flD2PI fl) (d : ℝ) :
    0 ≤ flAnp fl a ∧ flAnp fl a ≤ flD2PI fl ∧ len (fun i => dir (flAnp fl a) d i - dir a d i) ≤ 2.5e-16 := by
  have hD := flD2PI_eq R
  have hp := D2_pos
  rcases h1.lt_or_eq with h | h
  · have e : flAnp fl a = a := by
      unfold flAnp
      dsimp only
      rw [hD] at h ⊢
      rw [fmod_self a (by rw [abs_of_nonneg h0]; exact h), if_neg (not_lt.2 h0)]
    rw [e]
    exact ⟨h0, h1, by rw [len_eq, dot_eq]; simp; norm_num⟩
  · have e : flAnp fl a = 0 := by
      unfold flAnp
      dsimp only
      rw [h, hD]
      have : fmod D2 D2 = 0 := by
        unfold fmod
        rw [div_self hp.ne']
        have : truncR 1 = 1 := by unfold truncR; simp
        rw [this]; simp
      rw [this, if_neg (lt_irrefl _)]
    rw [e, h, hD]
    refine ⟨le_rfl, hp.le, ?_⟩
    have c := chord (2 * π) d D2 d
    have e2 : dir (2 * π) d = dir 0 d := by unfold dir; simp
    rw [e2, sub_self, abs_zero, add_zero] at c
    have := flPal2PI_err R
    rw [flPal2PI_eq R, abs_sub_comm] at this
    exact c.trans this

/-- C137: palGe50 in double precision gives the direction of exact arithmetic to 5.3e-14 radians (11 nanoarcseconds), with a right ascension in [0, 2π], for every position. -/
theorem C137_ge50 (R : Rounding fl) (hL : LibmOK L) (nz nz' : Bool) (l b : ℝ) :
    let o := flGe50 fl L nz nz' l b
    let x := palGe50 l b
    0 ≤ o.1 ∧ o.1 ≤ flD2PI fl ∧ |o.2| ≤ π / 2 + 4.5e-16 ∧ len (fun i => dir o.1 o.2 i - dir x.1 x.2 i) ≤ 5.3e-14 := by
  intro o x
  have p1 := pi_lt_d4
  have et : flTrxp fl (fun i j => fl (ge50Mat i j)) (flS2c fl L l b) = flRxp fl (fun i j => fl (ge50Mat.transpose i j)) (flS2c fl L l b) := by
    show flRxp fl (eraTr (fun i j => fl (ge50Mat i j))) _ = _
    exact congrArg (fun m => flRxp fl m (flS2c fl L l b)) (eraTr_eq (Matrix.of fun i j => fl (ge50Mat i j)))
  have hv := flRxp_err R ge50Mat.transpose ge50_le _ _ (dir_le l b) (flS2c_err R hL l b)
  have ho : ∀ i j, |(ge50Mat.transpose.transpose * ge50Mat.transpose) i j - (1 : Mat3) i j| ≤ 1e-10 := by
    intro i j
    fin_cases i <;> fin_cases j <;> simp [ge50Mat, Matrix.mul_apply, Fin.sum_univ_three] <;> rw [abs_le] <;> constructor <;> norm_num
  obtain ⟨n1, n2⟩ := near_len ho (dot_dir l b)
  obtain ⟨m1, m2⟩ := close_len hv (by norm_num) n1 n2
  obtain ⟨T, P, t1, t2, t3, t4, t5⟩ := flC2s_spec R hL nz _ m1 m2
  have hu : (fun i => len (ge50Mat.transpose *ᵥ dir l b) * dir (eraC2s (ge50Mat.transpose *ᵥ dir l b)).1 (eraC2s (ge50Mat.transpose *ᵥ dir l b)).2 i) = ge50Mat.transpose *ᵥ dir l b := by
    have := eraC2s_spec (ge50Mat.transpose *ᵥ dir l b)
    rw [pm_len] at this
    exact this
  have k := angles_dir (flC2s fl L nz (flRxp fl (fun i j => fl (ge50Mat.transpose i j)) (flS2c fl L l b))).1 (flC2s fl L nz (flRxp fl (fun i j => fl (ge50Mat.transpose i j)) (flS2c fl L l b))).2 (flC2s fl L nz (flRxp fl (fun i j => fl (ge50Mat.transpose i j)) (flS2c fl L l b))).1 T P 0 _ _ _ hv (by norm_num) n1 n2 _ hu t1 t2 t5 0 (by simp)
  obtain ⟨a, b', c, e⟩ := addet_ref R hL nz' (eq := 1950) (by norm_num) k (by norm_num)
  rw [← et] at a b' c e
  obtain ⟨a2, b2, c2⟩ := flAnp_twice R a b' (flAddet fl L nz' (flC2s fl L nz (flTrxp fl (fun i j => fl (ge50Mat i j)) (flS2c fl L l b))).1 (flC2s fl L nz (flTrxp fl (fun i j => fl (ge50Mat i j)) (flS2c fl L l b))).2 1950).2
  have eo : o = (flAnp fl (flAddet fl L nz' (flC2s fl L nz (flTrxp fl (fun i j => fl (ge50Mat i j)) (flS2c fl L l b))).1 (flC2s fl L nz (flTrxp fl (fun i j => fl (ge50Mat i j)) (flS2c fl L l b))).2 1950).1,
      (flAddet fl L nz' (flC2s fl L nz (flTrxp fl (fun i j => fl (ge50Mat i j)) (flS2c fl L l b))).1 (flC2s fl L nz (flTrxp fl (fun i j => fl (ge50Mat i j)) (flS2c fl L l b))).2 1950).2) := by
    show flGe50 fl L nz nz' l b = _
    unfold flGe50
    dsimp only
    rw [flAnpm_small R _ (c.trans (by norm_num at *; linarith))]
  have ex : x = palAddet (eraC2s (ge50Mat.transpose *ᵥ dir l b)).1 (eraC2s (ge50Mat.transpose *ᵥ dir l b)).2 1950 := by
    show palGe50 l b = _
    have hlat : ∀ r d, eraAnpm (palAddet r d 1950).2 = (palAddet r d 1950).2 := fun r d => by unfold palAddet; dsimp only; exact anpm_lat _
    have hlon : ∀ r d, eraAnp (palAddet r d 1950).1 = (palAddet r d 1950).1 := fun r d => eraAnp_eq (eraAnp_spec _).1
    unfold palGe50
    dsimp only
    rw [hlat, hlon, eraS2c_eq, eraTrxp_eq]
  rw [ex, eo]
  refine ⟨a2, b2, c, (len_tri _ _ _).trans ((add_le_add c2 e).trans ?_)⟩
  norm_num

/-- The hypotheses are met by IEEE arithmetic with rounded library functions, precessing from 1984 to 2050 and for a date in 2026. -/
example : len (fun i => dir (flPreces ieee roundedLibm false ['f', 'k', '5'] 1984 2050 1 0.5).1 (flPreces ieee roundedLibm false ['f', 'k', '5'] 1984 2050 1 0.5).2 i -
      dir (palPreces (iau2006 fun _ _ => 0) ['f', 'k', '5'] 1984 2050 1 0.5).1 (palPreces (iau2006 fun _ _ => 0) ['f', 'k', '5'] 1984 2050 1 0.5).2 i) ≤ 4.4e-14 ∧
    len (fun i => dir (flEcleq ieee roundedLibm false (flEqecl ieee roundedLibm false 1 0.5 61362).1 (flEqecl ieee roundedLibm false 1 0.5 61362).2 61362).1
      (flEcleq ieee roundedLibm false (flEqecl ieee roundedLibm false 1 0.5 61362).1 (flEqecl ieee roundedLibm false 1 0.5 61362).2 61362).2 i - dir 1 0.5 i) ≤ 9.6e-14 :=
  ⟨((C137_preces ieee_rounding roundedLibm_ok (fun _ _ => 0) false ['f', 'k', '5'] 1984 2050 1 0.5).2.1 ⟨'f', 'k', [], rfl, Or.inr rfl, Or.inr rfl⟩ (by norm_num) (by norm_num [abs_le])).2.2.2,
    (C137_ecliptic ieee_rounding roundedLibm_ok (fun _ _ => 0) false false 1 0.5 61362 (by norm_num [abs_le])).2.2.1⟩

/-- The same for the round trip of precession in both systems, and for palGe50. -/
example : (len (fun i => dir (flPreces ieee roundedLibm false ['F', 'K', '4'] 1975 1900 (flPreces ieee roundedLibm false ['F', 'K', '4'] 1900 1975 1 0.5).1 (flPreces ieee roundedLibm false ['F', 'K', '4'] 1900 1975 1 0.5).2).1
      (flPreces ieee roundedLibm false ['F', 'K', '4'] 1975 1900 (flPreces ieee roundedLibm false ['F', 'K', '4'] 1900 1975 1 0.5).1 (flPreces ieee roundedLibm false ['F', 'K', '4'] 1900 1975 1 0.5).2).2 i - dir 1 0.5 i) ≤ 6.1e-14) ∧
    len (fun i => dir (flGe50 ieee roundedLibm false true 3 (-0.2)).1 (flGe50 ieee roundedLibm false true 3 (-0.2)).2 i - dir (palGe50 3 (-0.2)).1 (palGe50 3 (-0.2)).2 i) ≤ 5.3e-14 ∧
    len (fun i => (flPrec ieee roundedLibm 1500 2500 *ᵥ ![1, 2, 3]) i - (palPrec (iau2006 fun _ _ => 0) 1500 2500 *ᵥ ![1, 2, 3]) i) ≤ 1.8e-14 * len ![1, 2, 3] :=
  ⟨(C137_preces_round_trip ieee_rounding roundedLibm_ok false false ['F', 'K', '4'] 1900 1975 1 0.5).1 ⟨'F', 'K', [], rfl, Or.inl rfl, Or.inl rfl⟩ (by norm_num) (by norm_num) (by norm_num),
    (C137_ge50 ieee_rounding roundedLibm_ok false true 3 (-0.2)).2.2.2, (C137_matrices ieee_rounding roundedLibm_ok (fun _ _ => 0)).1 1500 2500 (by norm_num [abs_le]) (by norm_num) _⟩

end Pal.Props
