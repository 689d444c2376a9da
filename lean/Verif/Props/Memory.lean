import Verif.Model.Memory

/-!
# C114: arrays that are the same or overlap

`memX` is the statement-by-statement model of palX on a memory, `palX` the function of its arguments that the other claims are about.
-/

namespace Pal.Props
open Pal.Memory

/-- The vector, the matrix (row by row) and the coefficients at an address, and the list of pairs. -/
def vecAt (m : Mem) (p : ℕ) : Fin 3 → ℝ := fun i => m (p + i)
@[inherit_doc vecAt] def matAt (m : Mem) (p : ℕ) : Matrix (Fin 3) (Fin 3) ℝ := fun i j => m (p + (3 * i + j))
@[inherit_doc vecAt] def coeffsAt (m : Mem) (p : ℕ) : Fin 6 → ℝ := fun i => m (p + i)
@[inherit_doc vecAt] def pairsAt (m : Mem) (p np : ℕ) : Fin np → ℝ × ℝ := fun i => (m (p + 2 * i), m (p + (2 * i + 1)))

/-- Nothing but the n doubles from p on has changed. -/
def OnlyWrites (m m' : Mem) (p n : ℕ) : Prop := ∀ q, q < p ∨ p + n ≤ q → m' q = m q

/-- Two blocks of memory have no element in common. -/
def Apart (p n p' n' : ℕ) : Prop := p + n ≤ p' ∨ p' + n' ≤ p

theorem upd_ne {m : Mem} {p q : ℕ} {v : ℝ} (h : q ≠ p) : Function.update m p v q = m q := Function.update_of_ne h _ _

theorem writes3 (m : Mem) (p : ℕ) (a b c : ℝ) : OnlyWrites m (Function.update (Function.update (Function.update m p a) (p + 1) b) (p + 2) c) p 3 := by
  intro q hq
  rw [upd_ne (by omega), upd_ne (by omega), upd_ne (by omega)]

theorem writes6 (m : Mem) (p : ℕ) (a b c d e f : ℝ) :
    OnlyWrites m (Function.update (Function.update (Function.update (Function.update (Function.update (Function.update m p a) (p + 1) b) (p + 2) c) (p + 3) d) (p + 4) e) (p + 5) f) p 6 := by
  intro q hq
  rw [upd_ne (by omega), upd_ne (by omega), upd_ne (by omega), upd_ne (by omega), upd_ne (by omega), upd_ne (by omega)]

theorem writes9 (m : Mem) (p : ℕ) (a b c d e f g h k : ℝ) :
    OnlyWrites m (Function.update (Function.update (Function.update (Function.update (Function.update (Function.update (Function.update (Function.update (Function.update m p a)
      (p + 1) b) (p + 2) c) (p + 3) d) (p + 4) e) (p + 5) f) (p + 6) g) (p + 7) h) (p + 8) k) p 9 := by
  intro q hq
  rw [upd_ne (by omega), upd_ne (by omega), upd_ne (by omega), upd_ne (by omega), upd_ne (by omega), upd_ne (by omega), upd_ne (by omega), upd_ne (by omega), upd_ne (by omega)]

/-- **C114** palRefv, wherever the two vectors are: in particular the refracted vector may replace the unrefracted one. -/
theorem C114_refv (m : Mem) (vu : ℕ) (refa refb : ℝ) (vr : ℕ) :
    ∃ m', memRefv vu refa refb vr m = ((), m') ∧ vecAt m' vr = palRefv (vecAt m vu) refa refb ∧ OnlyWrites m m' vr 3 := by
  refine ⟨_, rfl, ?_, writes3 _ _ _ _ _⟩
  funext i
  simp only [vecAt, palRefv]
  fin_cases i <;> simp [Function.update]

/-- **C114** palInvf, wherever the two sets of coefficients are: the inverse may replace the original. -/
theorem C114_invf (m : Mem) (fwds bkwds : ℕ) :
    ∃ m', memInvf fwds bkwds m = ((palInvf (coeffsAt m fwds) (coeffsAt m bkwds)).1, m') ∧
      coeffsAt m' bkwds = (palInvf (coeffsAt m fwds) (coeffsAt m bkwds)).2 ∧ OnlyWrites m m' bkwds 6 := by
  by_cases h : m (fwds + 1) * m (fwds + 5) - m (fwds + 2) * m (fwds + 4) = 0
  · have e1 : memInvf fwds bkwds m = (-1, m) := by
      simp [memInvf, bind, StateT.bind, load, pure, StateT.pure, h]
    have e2 : palInvf (coeffsAt m fwds) (coeffsAt m bkwds) = (-1, coeffsAt m bkwds) := by simp [palInvf, coeffsAt, h]
    rw [e1, e2]
    exact ⟨m, rfl, rfl, fun _ _ => rfl⟩
  · have e2 : palInvf (coeffsAt m fwds) (coeffsAt m bkwds) = (0, (palInvf (coeffsAt m fwds) (coeffsAt m bkwds)).2) := by
      unfold palInvf; dsimp only; rw [if_pos (by simpa [coeffsAt] using h)]
    have e3 : (palInvf (coeffsAt m fwds) (coeffsAt m bkwds)).2 = coeffsAt (memInvf fwds bkwds m).2 bkwds := by
      unfold palInvf; dsimp only; rw [if_pos (by simpa [coeffsAt] using h)]
      funext i
      simp only [memInvf, bind, StateT.bind, load, store, pure, StateT.pure, h, coeffsAt, ne_eq, not_false_eq_true, if_true]
      fin_cases i <;> simp [Function.update]
    refine ⟨_, ?_, e3.symm, ?_⟩
    · rw [e2]
      simp [memInvf, bind, StateT.bind, load, store, pure, StateT.pure, h]
    · simp only [memInvf, bind, StateT.bind, load, store, pure, StateT.pure, h, ne_eq, not_false_eq_true, if_true]
      exact writes6 _ _ _ _ _ _ _ _

/-- **C114** palDmxv, wherever matrix and vectors are. -/
theorem C114_dmxv (m : Mem) (dm va vb : ℕ) :
    ∃ m', memDmxv dm va vb m = ((), m') ∧ vecAt m' vb = palDmxv (matAt m dm) (vecAt m va) ∧ OnlyWrites m m' vb 3 := by
  refine ⟨_, rfl, ?_, writes3 _ _ _ _ _⟩
  funext i
  simp only [vecAt, matAt, palDmxv, eraRxp]
  fin_cases i <;> simp [Function.update]

/-- **C114** palDimxv, wherever matrix and vectors are. -/
theorem C114_dimxv (m : Mem) (dm va vb : ℕ) :
    ∃ m', memDimxv dm va vb m = ((), m') ∧ vecAt m' vb = palDimxv (matAt m dm) (vecAt m va) ∧ OnlyWrites m m' vb 3 := by
  refine ⟨_, rfl, ?_, writes3 _ _ _ _ _⟩
  funext i
  simp only [vecAt, matAt, palDimxv, eraTrxp, eraRxp, eraTr]
  fin_cases i <;> simp [Function.update]

/-- **C114** palDmxm, wherever the three matrices are: the product may replace either factor. -/
theorem C114_dmxm (m : Mem) (a b c : ℕ) :
    ∃ m', memDmxm a b c m = ((), m') ∧ matAt m' c = palDmxm (matAt m a) (matAt m b) ∧ OnlyWrites m m' c 9 := by
  refine ⟨_, rfl, ?_, writes9 _ _ _ _ _ _ _ _ _ _ _⟩
  funext i j
  simp only [matAt, palDmxm, eraRxr]
  fin_cases i <;> fin_cases j <;> simp [Function.update]

/-- **C114** palDvxv, wherever the three vectors are. -/
theorem C114_dvxv (m : Mem) (va vb vc : ℕ) :
    ∃ m', memDvxv va vb vc m = ((), m') ∧ vecAt m' vc = palDvxv (vecAt m va) (vecAt m vb) ∧ OnlyWrites m m' vc 3 := by
  refine ⟨_, rfl, ?_, writes3 _ _ _ _ _⟩
  funext i
  simp only [vecAt, palDvxv, eraPxp]
  fin_cases i <;> simp [Function.update]

/-- **C114** palDav2m and palDm2av, wherever vector and matrix are. -/
theorem C114_dav2m (m : Mem) (axvec rmat : ℕ) :
    ∃ m', memDav2m axvec rmat m = ((), m') ∧ matAt m' rmat = palDav2m (vecAt m axvec) ∧ OnlyWrites m m' rmat 9 := by
  refine ⟨_, rfl, ?_, writes9 _ _ _ _ _ _ _ _ _ _ _⟩
  funext i j
  simp only [matAt, vecAt, palDav2m, eraRv2m]
  fin_cases i <;> fin_cases j <;> simp [Function.update]

@[inherit_doc C114_dav2m]
theorem C114_dm2av (m : Mem) (rmat axvec : ℕ) :
    ∃ m', memDm2av rmat axvec m = ((), m') ∧ vecAt m' axvec = palDm2av (matAt m rmat) ∧ OnlyWrites m m' axvec 3 := by
  by_cases h : √((m (rmat + 5) - m (rmat + 7)) * (m (rmat + 5) - m (rmat + 7)) + (m (rmat + 6) - m (rmat + 2)) * (m (rmat + 6) - m (rmat + 2)) +
      (m (rmat + 1) - m (rmat + 3)) * (m (rmat + 1) - m (rmat + 3))) > 0
  · refine ⟨(memDm2av rmat axvec m).2, rfl, ?_, ?_⟩
    · simp only [memDm2av, bind, StateT.bind, load, store, if_pos h]
      unfold palDm2av eraRm2v
      dsimp only [matAt, Fin.isValue, Fin.val_zero, Fin.val_one, Fin.val_two, mul_zero, zero_add, mul_one, add_zero]
      rw [if_pos (by simpa using h)]
      funext i
      simp only [vecAt]
      fin_cases i <;> simp [Function.update]
    · simp only [memDm2av, bind, StateT.bind, load, store, if_pos h]
      exact writes3 _ _ _ _ _
  · refine ⟨(memDm2av rmat axvec m).2, rfl, ?_, ?_⟩
    · simp only [memDm2av, bind, StateT.bind, load, store, if_neg h]
      unfold palDm2av eraRm2v
      dsimp only [matAt, Fin.isValue, Fin.val_zero, Fin.val_one, Fin.val_two, mul_zero, zero_add, mul_one, add_zero]
      rw [if_neg (by simpa using h)]
      funext i
      simp only [vecAt]
      fin_cases i <;> simp [Function.update]
    · simp only [memDm2av, bind, StateT.bind, load, store, if_neg h]
      exact writes3 _ _ _ _ _

/-- **C114** palDvn, if the unit vector goes to the place of the vector or to a place without common elements, and the modulus does not go into the unit vector. -/
theorem C114_dvn (m : Mem) (v uv vm : ℕ) (h : uv = v ∨ Apart v 3 uv 3) (hm : vm < uv ∨ uv + 3 ≤ vm) :
    ∃ m', memDvn v uv vm m = ((), m') ∧ vecAt m' uv = (palDvn (vecAt m v)).1 ∧ m' vm = (palDvn (vecAt m v)).2 ∧
      ∀ q, (q < uv ∨ uv + 3 ≤ q) → q ≠ vm → m' q = m q := by
  refine ⟨(memDvn v uv vm m).2, rfl, ?_⟩
  by_cases hw : √(m v * m v + m (v + 1) * m (v + 1) + m (v + 2) * m (v + 2)) = 0
  · have e1 : memDvn v uv vm m = ((), Function.update (Function.update (Function.update (Function.update m uv 0) (uv + 1) 0) (uv + 2) 0) vm 0) := by
      simp only [memDvn, bind, StateT.bind, load, store, if_pos hw]; rw [hw]
    have e2 : palDvn (vecAt m v) = (fun _ => 0, 0) := by
      simp [palDvn, eraPn, eraPm, vecAt, hw]
    rw [e1, e2]
    refine ⟨?_, by simp, fun q hq hv => ?_⟩
    · funext i
      simp only [vecAt]
      rw [upd_ne (by omega)]
      fin_cases i <;> simp [Function.update]
    · dsimp only
      rw [upd_ne hv]; exact writes3 m uv _ _ _ q hq
  · obtain ⟨w, hwd⟩ : ∃ w, w = √(m v * m v + m (v + 1) * m (v + 1) + m (v + 2) * m (v + 2)) := ⟨_, rfl⟩
    have e1 : memDvn v uv vm m =
        ((), Function.update (Function.update (Function.update (Function.update m uv (1 / w * m v)) (uv + 1) (1 / w * m (v + 1))) (uv + 2) (1 / w * m (v + 2))) vm w) := by
      have hw' : ¬ w = 0 := by rw [hwd]; exact hw
      simp only [memDvn, bind, StateT.bind, load, store, ← hwd, if_neg hw']
      have a1 : Function.update m uv (1 / w * m v) (v + 1) = m (v + 1) := upd_ne (by unfold Apart at h; omega)
      have a2 : Function.update (Function.update m uv (1 / w * m v)) (uv + 1) (1 / w * m (v + 1)) (v + 2) = m (v + 2) := by
        rw [upd_ne (by unfold Apart at h; omega), upd_ne (by unfold Apart at h; omega)]
      rw [a1, a2]
    have e2 : palDvn (vecAt m v) = (fun i : Fin 3 => 1 / w * m (v + i), w) := by
      simp only [palDvn, eraPn, eraPm, vecAt]
      have hw' : ¬ w = 0 := by rw [hwd]; exact hw
      simp [← hwd, hw']
    rw [e1, e2]
    refine ⟨?_, by simp, fun q hq hv => ?_⟩
    · funext i
      simp only [vecAt]
      rw [upd_ne (by omega)]
      fin_cases i <;> simp [Function.update]
    · dsimp only
      rw [upd_ne hv]; exact writes3 m uv _ _ _ q hq

/-- **C114** palDvn fails if the two vectors overlap otherwise: with the unit vector one place further on, the vector (3, 4, 0) gives (0.6, 0.12, 0.024). -/
theorem C114_dvn_overlap (m : Mem) (v vm : ℕ) (h0 : m v = 3) (h1 : m (v + 1) = 4) (h2 : m (v + 2) = 0) (hm : vm < v ∨ v + 4 ≤ vm) :
    vecAt (memDvn v (v + 1) vm m).2 (v + 1) = ![0.6, 0.12, 0.024] := by
  have hw : √(m v * m v + m (v + 1) * m (v + 1) + m (v + 2) * m (v + 2)) = 5 := by
    rw [h0, h1, h2, show (3 * 3 + 4 * 4 + 0 * 0 : ℝ) = 5 ^ 2 by norm_num, Real.sqrt_sq (by norm_num)]
  simp only [memDvn, bind, StateT.bind, load, store, hw, if_neg (by norm_num : ¬ (5 : ℝ) = 0)]
  funext i
  simp only [vecAt]
  rw [upd_ne (by omega)]
  fin_cases i <;> simp [Function.update, h0] <;> norm_num

/-- One pass of the loop of palPxy after another. -/
theorem pxyLoop_run {xye xym coeffs xyp N : ℕ} (h1 : xyp = xym ∨ Apart xym (2 * N) xyp (2 * N)) (h2 : Apart xye (2 * N) xyp (2 * N)) (h3 : Apart coeffs 6 xyp (2 * N)) (m0 : Mem) :
    ∀ (k i : ℕ) (sx sy : ℝ) (m : Mem), i + k = N →
      (∀ q, (q < xyp ∨ xyp + 2 * i ≤ q) → m q = m0 q) → 
      ∃ m', pxyLoop xye xym coeffs xyp k i sx sy m =
        ((sx + ∑ j ∈ Finset.range k, (m0 (xye + 2 * (i + j)) - (palXy2xy (m0 (xym + 2 * (i + j))) (m0 (xym + (2 * (i + j) + 1))) (coeffsAt m0 coeffs)).1) ^ 2,
          sy + ∑ j ∈ Finset.range k, (m0 (xye + (2 * (i + j) + 1)) - (palXy2xy (m0 (xym + 2 * (i + j))) (m0 (xym + (2 * (i + j) + 1))) (coeffsAt m0 coeffs)).2) ^ 2), m') ∧
        (∀ q, (q < xyp + 2 * i ∨ xyp + 2 * N ≤ q) → m' q = m q) ∧
        ∀ j, i ≤ j → j < N → (m' (xyp + 2 * j), m' (xyp + (2 * j + 1))) = palXy2xy (m0 (xym + 2 * j)) (m0 (xym + (2 * j + 1))) (coeffsAt m0 coeffs) := by
  intro k
  induction k with
  | zero =>
    intro i sx sy m hi hm
    refine ⟨m, ?_, fun _ _ => rfl, fun j h4 h5 => by omega⟩
    simp [pxyLoop, pure, StateT.pure]
  | succ k ih =>
    intro i sx sy m hi hm
    unfold Apart at h1 h2 h3
    have r1 : m (xym + 2 * i) = m0 (xym + 2 * i) := hm _ (by omega)
    have r2 : m (xym + (2 * i + 1)) = m0 (xym + (2 * i + 1)) := hm _ (by omega)
    have rc : ∀ c < 6, m (coeffs + c) = m0 (coeffs + c) := fun c hc => hm _ (by omega)
    have rc0 : m coeffs = m0 coeffs := rc 0 (by norm_num)
    obtain ⟨xp, hxp⟩ : ∃ xp, xp = (palXy2xy (m0 (xym + 2 * i)) (m0 (xym + (2 * i + 1))) (coeffsAt m0 coeffs)).1 := ⟨_, rfl⟩
    obtain ⟨yp, hyp⟩ : ∃ yp, yp = (palXy2xy (m0 (xym + 2 * i)) (m0 (xym + (2 * i + 1))) (coeffsAt m0 coeffs)).2 := ⟨_, rfl⟩
    have hxp' : m0 coeffs + m0 (coeffs + 1) * m0 (xym + 2 * i) + m0 (coeffs + 2) * m0 (xym + (2 * i + 1)) = xp := by rw [hxp]; simp [palXy2xy, coeffsAt]
    have hyp' : m0 (coeffs + 3) + m0 (coeffs + 4) * m0 (xym + 2 * i) + m0 (coeffs + 5) * m0 (xym + (2 * i + 1)) = yp := by rw [hyp]; simp [palXy2xy, coeffsAt]
    set m1 := Function.update (Function.update m (xyp + 2 * i) xp) (xyp + (2 * i + 1)) yp with hm1
    have e1 : pxyLoop xye xym coeffs xyp (k + 1) i sx sy m =
        pxyLoop xye xym coeffs xyp k (i + 1) (sx + (m0 (xye + 2 * i) - xp) * (m0 (xye + 2 * i) - xp)) (sy + (m0 (xye + (2 * i + 1)) - yp) * (m0 (xye + (2 * i + 1)) - yp)) m1 := by
      have s1 : m1 (xye + 2 * i) = m0 (xye + 2 * i) := by rw [hm1, upd_ne (by omega), upd_ne (by omega)]; exact hm _ (by omega)
      have s2 : m1 (xye + (2 * i + 1)) = m0 (xye + (2 * i + 1)) := by rw [hm1, upd_ne (by omega), upd_ne (by omega)]; exact hm _ (by omega)
      rw [pxyLoop]
      simp only [bind, StateT.bind, load, store]
      rw [rc0, rc 1 (by norm_num), rc 2 (by norm_num), rc 3 (by norm_num), rc 4 (by norm_num), rc 5 (by norm_num), r1, r2, hxp', hyp', ← hm1, s1, s2]
    obtain ⟨m', q1, q2, q3⟩ := ih (i + 1) (sx + (m0 (xye + 2 * i) - xp) * (m0 (xye + 2 * i) - xp)) (sy + (m0 (xye + (2 * i + 1)) - yp) * (m0 (xye + (2 * i + 1)) - yp)) m1 (by omega)
      (fun q hq => by rw [hm1, upd_ne (by omega), upd_ne (by omega)]; exact hm q (by omega))
    refine ⟨m', ?_, fun q hq => ?_, fun j h4 h5 => ?_⟩
    · rw [e1, q1, Finset.sum_range_succ', Finset.sum_range_succ']
      simp only [add_zero, show ∀ j, i + 1 + j = i + (j + 1) by intro j; omega]
      rw [← hxp, ← hyp]
      congr 2 <;> ring
    · rw [q2 q (by omega), hm1, upd_ne (by omega), upd_ne (by omega)]
    · rcases Nat.eq_or_lt_of_le h4 with rfl | h
      · rw [q2 _ (by omega), q2 _ (by omega), hm1, upd_ne (by omega), Function.update_self, Function.update_self, hxp, hyp]
      · exact q3 j h h5

/-- **C114** palPxy, if the predicted positions go to the place of the measured ones or elsewhere, but not over the expected ones or the coefficients. -/
theorem C114_pxy (m : Mem) (np xye xym coeffs xyp : ℕ) (h1 : xyp = xym ∨ Apart xym (2 * np) xyp (2 * np)) (h2 : Apart xye (2 * np) xyp (2 * np)) (h3 : Apart coeffs 6 xyp (2 * np)) :
    ∃ m', memPxy np xye xym coeffs xyp m = ((palPxy (pairsAt m xye np) (pairsAt m xym np) (coeffsAt m coeffs)).2, m') ∧
      pairsAt m' xyp np = (palPxy (pairsAt m xye np) (pairsAt m xym np) (coeffsAt m coeffs)).1 ∧ OnlyWrites m m' xyp (2 * np) := by
  obtain ⟨m', q1, q2, q3⟩ := pxyLoop_run h1 h2 h3 m np 0 0 0 m (by omega) (fun _ _ => rfl)
  refine ⟨m', ?_, ?_, fun q hq => q2 q (by omega)⟩
  · simp only [memPxy, bind, StateT.bind, pure, StateT.pure, q1]
    simp only [zero_add, Finset.sum_range, palPxy, pairsAt, sq]
  · funext i
    exact q3 i (Nat.zero_le _) i.2

/-- **C114** palPxy with the predicted positions put in the place of the expected ones reports perfect agreement, whatever the data. -/
theorem C114_pxy_expected (m : Mem) (np xye xym coeffs : ℕ) : (memPxy np xye xym coeffs xye m).1 = (0, 0, 0) := by
  have key : ∀ (k i : ℕ) (m : Mem), (pxyLoop xye xym coeffs xye k i 0 0 m).1 = (0, 0) := by
    intro k
    induction k with
    | zero => intro i m; rfl
    | succ k ih =>
      intro i m
      rw [pxyLoop]
      simp only [bind, StateT.bind, load, store]
      rw [upd_ne (by omega), Function.update_self, Function.update_self]
      simp only [sub_self, mul_zero, add_zero]
      exact ih _ _
  have := key np 0 m
  simp only [memPxy, bind, StateT.bind, pure, StateT.pure]
  obtain ⟨m', e⟩ : ∃ m', pxyLoop xye xym coeffs xye np 0 0 0 m = ((0, 0), m') := ⟨_, Prod.ext this rfl⟩
  rw [e]; simp

/-- The hypotheses of C114_dvn and C114_pxy are met by arrays in place, and by arrays side by side. -/
example : ((5 : ℕ) = 5 ∨ Apart 5 3 5 3) ∧ ((8 : ℕ) < 5 ∨ 5 + 3 ≤ 8) ∧ Apart 5 3 8 3 ∧ ((20 : ℕ) = 20 ∨ Apart 20 8 20 8) ∧ Apart 0 8 20 8 ∧ Apart 10 6 20 8 := by
  simp [Apart]

end Pal.Props
