import Verif.Lemmas.KeplerLoop
import Verif.Lemmas.KeplerUnique
import Verif.Props.Orbit
import Verif.Lemmas.Map

/-! # C111: palUe2pv follows two-body motion -/

namespace Pal.Props
open Real Pal.Spec Pal.Orbit Pal.Stumpff Pal.Kepler Pal.Ellipse

theorem consistent_ref {u : Univ} (hc : Consistent u) : Ref u.cm u.alpha u.r0 u.sigma u.p0 u.v0 where
  pos := hc.pos
  pp := by rw [dot_self_len, hc.r0]
  pv := hc.sigma.symm
  vv := by rw [hc.alpha, energy, ← hc.r0]; ring

theorem moment_pos {u : Univ} (hc : Consistent u) (hx : cross u.p0 u.v0 ≠ 0) : 0 < u.r0 ^ 2 * (u.alpha + 2 * u.cm / u.r0) - u.sigma ^ 2 := by
  have H := consistent_ref hc
  rw [← H.pp, ← H.vv, ← H.pv, ← cross_sq]
  rcases (by rw [dot_self_len]; exact sq_nonneg _ : 0 ≤ dot (cross u.p0 u.v0) (cross u.p0 u.v0)).lt_or_eq with h | h
  · exact h
  · exfalso
    apply hx
    simp only [dot, Fin.sum_univ_three] at h
    funext i
    have h0 := mul_self_nonneg (cross u.p0 u.v0 0)
    have h1 := mul_self_nonneg (cross u.p0 u.v0 1)
    have h2 := mul_self_nonneg (cross u.p0 u.v0 2)
    fin_cases i
    · show cross u.p0 u.v0 0 = 0
      exact mul_self_eq_zero.1 (by linarith)
    · show cross u.p0 u.v0 1 = 0
      exact mul_self_eq_zero.1 (by linarith)
    · show cross u.p0 u.v0 2 = 0
      exact mul_self_eq_zero.1 (by linarith)

/-- **C111** (the motion an element set stands for) A consistent element set whose velocity does not point along the radius determines one and only one
two-body motion that starts, at time 0, with the reference position and velocity. -/
theorem C111_motion (u : Univ) (hc : Consistent u) (hx : cross u.p0 u.v0 ≠ 0) :
    ∃ m : (ℝ → Fin 3 → ℝ) × (ℝ → Fin 3 → ℝ), (TwoBody u.cm m.1 m.2 ∧ m.1 0 = u.p0 ∧ m.2 0 = u.v0) ∧
      ∀ m' : (ℝ → Fin 3 → ℝ) × (ℝ → Fin 3 → ℝ), TwoBody u.cm m'.1 m'.2 → m'.1 0 = u.p0 → m'.2 0 = u.v0 → m' = m := by
  obtain ⟨x, w, h, h0, h1, -, -⟩ := exists_motion (consistent_ref hc) (moment_pos hc hx)
  refine ⟨(x, w), ⟨h, h0, h1⟩, fun m' h' h0' h1' => ?_⟩
  obtain ⟨e1, e2⟩ := motion_unique h' h (t0 := 0) (h0'.trans h0.symm) (h1'.trans h1.symm)
  exact Prod.ext e1 e2

theorem len_two (c d : ℝ) (p v : Fin 3 → ℝ) : len (fun i => c * p i + d * v i) ≤ |c| * len p + |d| * len v := by
  refine (len_add_le (fun i => c * p i) (fun i => d * v i)).trans ?_
  rw [len_smul, len_smul]

set_option maxHeartbeats 2000000 in
/-- The numbers behind C111 for an ellipse: the functions of the code at the last trial value against the true ones. -/
theorem ellipse_numbers {date : ℝ} {u u' : Univ} {pv pv' : PV} {k : ℝ} (hk : 0 < k) (hk9 : k ≤ 10 ^ 9) (ha : u.alpha = -k ^ 2)
    {P V : Fin 3 → ℝ} (H : Ref u.cm u.alpha u.r0 u.sigma P V) (hh : 0 < u.r0 ^ 2 * (u.alpha + 2 * u.cm / u.r0) - u.sigma ^ 2) (h : palUe2pv date u pv = some (u', pv', 0)) {dt : ℝ} (hdt : dt = (date - u.t0) * gcon) :
    ∃ (ψ : ℝ) (S : UeFun) (R t ε : ℝ), R ≠ 0 ∧ t = tt u.cm u.alpha u.r0 u.sigma ψ ∧ 0 ≤ ε ∧ ε ≤ 8.2e-13 * (1 + k ^ 3 / u.cm * |dt|) ∧
      k ^ 3 / u.cm * |t - dt| ≤ 9.9e-12 * (1 + k) * (1 + k ^ 3 / u.cm * |dt|) ∧
      k * |S.s1 - U1 u.alpha ψ| ≤ ε ∧ k ^ 2 * |S.s2 - U2 u.alpha ψ| ≤ ε ∧ k ^ 3 * |S.s3 - U3 u.alpha ψ| ≤ ε ∧
      k ^ 2 * |R - rr u.cm u.alpha u.r0 u.sigma ψ| ≤ 4 * ε * u.cm ∧
      pv'.p = (fun i => u.p0 i * (1 - u.cm * S.s2 / u.r0) + u.v0 i * (dt - u.cm * S.s3)) ∧
      pv'.v = (fun i => cd2s * (u.p0 i * (-u.cm * S.s1 / (u.r0 * R)) + u.v0 i * (1 - u.cm * S.s2 / R))) := by
  obtain ⟨ψ, w, -, -, hR, hw, hexit, hp, hv⟩ := ue2pv_exit h
  rw [← hdt] at hexit hp
  rw [ha] at H hh hR hw hexit hp hv ⊢
  obtain ⟨hmu, hr, hσ, -⟩ := ref_bounds hk H
  have hk3 : 0 < k ^ 3 := by positivity
  have errs := fun ψ => fun_err hk ψ
  have hT : ∀ ψ, k ^ 3 * |(u.r0 * (ueFun (-k ^ 2) ψ).s1 + u.sigma * (ueFun (-k ^ 2) ψ).s2 + u.cm * (ueFun (-k ^ 2) ψ).s3) - tt u.cm (-k ^ 2) u.r0 u.sigma ψ| ≤
      8e-13 * (k * |ψ|) * u.cm := by
    intro ψ
    obtain ⟨e0, e1, e2, e3, -, -⟩ := errs ψ
    have hab : ∀ y : ℝ, |k * y| = k * |y| := fun y => by rw [abs_mul, abs_of_pos hk]
    have := comb_small (e1 := k * ((ueFun (-k ^ 2) ψ).s1 - U1 (-k ^ 2) ψ)) (e2 := k * ((ueFun (-k ^ 2) ψ).s2 - U2 (-k ^ 2) ψ))
      (e3 := k * ((ueFun (-k ^ 2) ψ).s3 - U3 (-k ^ 2) ψ)) (ε := 2e-13 * (k * |ψ|)) hk H.pos hmu hr hσ
      (by rw [hab]; exact e1) (by rw [hab, ← mul_assoc, ← pow_two]; exact e2)
      (by rw [hab, ← mul_assoc, show k ^ 2 * k = k ^ 3 by ring]; exact e3)
    have e : u.r0 * (k * ((ueFun (-k ^ 2) ψ).s1 - U1 (-k ^ 2) ψ)) + u.sigma * (k * ((ueFun (-k ^ 2) ψ).s2 - U2 (-k ^ 2) ψ)) +
        u.cm * (k * ((ueFun (-k ^ 2) ψ).s3 - U3 (-k ^ 2) ψ)) =
        k * ((u.r0 * (ueFun (-k ^ 2) ψ).s1 + u.sigma * (ueFun (-k ^ 2) ψ).s2 + u.cm * (ueFun (-k ^ 2) ψ).s3) - tt u.cm (-k ^ 2) u.r0 u.sigma ψ) := by
      unfold tt; ring
    rw [e, hab, ← mul_assoc, show k ^ 2 * k = k ^ 3 by ring] at this
    linarith
  obtain ⟨e0, e1, e2, e3, t1, t2⟩ := errs ψ
  obtain ⟨b0, b1, b2⟩ := fun_bdd hk ψ
  have hRb : k ^ 2 * |ueR u (ueFun (-k ^ 2) ψ)| ≤ 5 * u.cm := by
    unfold ueR
    have tri : |u.r0 * (ueFun (-k ^ 2) ψ).s0 + u.sigma * (ueFun (-k ^ 2) ψ).s1 + u.cm * (ueFun (-k ^ 2) ψ).s2| ≤
        u.r0 * |(ueFun (-k ^ 2) ψ).s0| + |u.sigma| * |(ueFun (-k ^ 2) ψ).s1| + u.cm * |(ueFun (-k ^ 2) ψ).s2| := by
      refine (abs_add_le _ _).trans (add_le_add ((abs_add_le _ _).trans (le_of_eq ?_)) (le_of_eq ?_))
      · rw [abs_mul, abs_mul, abs_of_pos H.pos]
      · rw [abs_mul, abs_of_pos hmu]
    have a1 : (k ^ 2 * u.r0) * |(ueFun (-k ^ 2) ψ).s0| ≤ 2 * u.cm * 1 := mul_le_mul hr b0 (abs_nonneg _) (by linarith)
    have a2 : (k * |u.sigma|) * (k * |(ueFun (-k ^ 2) ψ).s1|) ≤ u.cm * 1 := mul_le_mul hσ b1 (by positivity) hmu.le
    have a3 : u.cm * (k ^ 2 * |(ueFun (-k ^ 2) ψ).s2|) ≤ u.cm * 2 := mul_le_mul_of_nonneg_left b2 hmu.le
    have := mul_le_mul_of_nonneg_left tri (sq_nonneg k)
    nlinarith
  have hres : k ^ 3 * |ueFF u dt (ueFun (-k ^ 2) ψ)| ≤ u.cm * (5 * k * (ueFun (-k ^ 2) ψ).tol + 1.6e-12 * (k * |ψ|)) := by
    unfold ueFF at hexit ⊢
    rcases hexit with hN | ⟨ψ₁, hs, hS⟩
    · exact residual_le (ψ₁ := ψ) hk H hh (hT ψ) (hT ψ) hRb hw (fun _ => rfl) (Or.inl hN)
    · exact residual_le (ψ₁ := ψ₁) hk H hh (hT ψ) (hT ψ₁) hRb hw (fun e => by rw [e]) (Or.inr ⟨hs, hS⟩)
  set S := ueFun (-k ^ 2) ψ with hSd
  set t := tt u.cm (-k ^ 2) u.r0 u.sigma ψ with ht
  set x := k * |ψ| with hxd
  have hx0 : 0 ≤ x := by rw [hxd]; positivity
  set n := k ^ 3 / u.cm with hn
  have hn0 : 0 < n := by rw [hn]; positivity
  have hnn : ∀ y B : ℝ, k ^ 3 * |y| ≤ u.cm * B → n * |y| ≤ B := by
    intro y B hy
    rw [hn, div_mul_eq_mul_div, div_le_iff₀ hmu]; linarith
  have hres' := hnn _ _ hres
  have hT' := hnn (u.r0 * S.s1 + u.sigma * S.s2 + u.cm * S.s3 - t) (8e-13 * x) (by have := hT ψ; rw [← hSd, ← ht, ← hxd] at this; linarith)
  have hpsi := psi_le hk H ψ
  rw [← hxd, ← ht] at hpsi
  have hpsi' : x ≤ n * |t| + 3 := by
    have : x - 3 ≤ n * |t| := by rw [hn, div_mul_eq_mul_div, le_div_iff₀ hmu]; linarith
    linarith
  have hdtt : n * |t - dt| ≤ 2.4e-12 * (1 + k) * (1 + x) := by
    have e : t - dt = ueFF u dt S - ((u.r0 * S.s1 + u.sigma * S.s2 + u.cm * S.s3) - t) := by unfold ueFF; ring
    have := mul_le_mul_of_nonneg_left (abs_sub (ueFF u dt S) ((u.r0 * S.s1 + u.sigma * S.s2 + u.cm * S.s3) - t)) hn0.le
    rw [← e] at this
    have q : k * S.tol ≤ k * (1e-13 * (1 + 2.4 * x)) := mul_le_mul_of_nonneg_left t2 hk.le
    have q2 : 0 ≤ k * x := by positivity
    nlinarith
  have htdt : n * |t| ≤ n * |dt| + n * |t - dt| := by
    have := abs_add_le dt (t - dt)
    rw [add_sub_cancel] at this
    nlinarith
  have hx1 : 1 + x ≤ 4.1 * (1 + n * |dt|) := by
    have q : 2.4e-12 * (1 + k) * (1 + x) ≤ 0.00241 * (1 + x) := mul_le_mul_of_nonneg_right (by linarith) (by linarith)
    have hd0 : 0 ≤ n * |dt| := by positivity
    linarith
  refine ⟨ψ, S, ueR u S, t, 2e-13 * x, hR, ht, by positivity, by linarith, ?_, e1, e2, e3, ?_, hp, hv⟩
  · have : 2.4e-12 * (1 + k) * (1 + x) ≤ 2.4e-12 * (1 + k) * (4.1 * (1 + n * |dt|)) := mul_le_mul_of_nonneg_left hx1 (by positivity)
    have q : 0 ≤ (1 + k) * (1 + n * |dt|) := by positivity
    nlinarith
  · have := comb_small (e1 := S.s0 - U0 (-k ^ 2) ψ) (e2 := S.s1 - U1 (-k ^ 2) ψ) (e3 := S.s2 - U2 (-k ^ 2) ψ) hk H.pos hmu hr hσ e0 e1 e2
    have e : u.r0 * (S.s0 - U0 (-k ^ 2) ψ) + u.sigma * (S.s1 - U1 (-k ^ 2) ψ) + u.cm * (S.s2 - U2 (-k ^ 2) ψ) = ueR u S - rr u.cm (-k ^ 2) u.r0 u.sigma ψ := by
      unfold ueR rr; ring
    rwa [e] at this

theorem quot_near {A B r R e δ b : ℝ} (hr : 0 < r) (hR : 2 / 3 * r ≤ R) (h1 : |A - B| ≤ e) (h2 : |R - r| ≤ δ) (hB : |B| ≤ b) :
    |A / R - B / r| ≤ 3 / 2 * (e / r + b * δ / r ^ 2) := by
  have hR0 : 0 < R := by linarith
  have e1 : A / R - B / r = (A - B) / R - B * (R - r) / (R * r) := by field_simp; ring
  rw [e1]
  refine (abs_sub _ _).trans ?_
  have i1 : 1 / R ≤ 3 / 2 * (1 / r) := by rw [mul_one_div, div_le_div_iff₀ hR0 hr]; linarith
  have a1 : |(A - B) / R| ≤ e * (3 / 2 * (1 / r)) := by
    rw [abs_div, abs_of_pos hR0, div_eq_mul_one_div]
    exact mul_le_mul h1 i1 (by positivity) ((abs_nonneg _).trans h1)
  have a2 : |B * (R - r) / (R * r)| ≤ b * δ * (3 / 2 * (1 / r) * (1 / r)) := by
    rw [abs_div, abs_mul, abs_of_pos (mul_pos hR0 hr), div_eq_mul_one_div, ← one_div_mul_one_div]
    refine mul_le_mul (mul_le_mul hB h2 (abs_nonneg _) ((abs_nonneg _).trans hB)) (mul_le_mul_of_nonneg_right i1 (by positivity)) (by positivity)
      (mul_nonneg ((abs_nonneg _).trans hB) ((abs_nonneg _).trans h2))
  refine (add_le_add a1 a2).trans (le_of_eq ?_)
  field_simp

set_option maxHeartbeats 2000000 in
/-- **C111** (elliptic orbits) palUe2pv returns a point of the true two-body motion through the reference state: time is counted in canonical days (58.13 days) from the epoch of
the elements, `k` is the square root of minus the energy, `a` the semi-major axis and `n` the mean motion.  The time `t` at which the motion passes the point is the time
asked for up to 1e-11 (1 + k) (1 + n |dt|) / n, and position and velocity are right up to correspondingly small amounts. -/
theorem C111_ellipse (date : ℝ) (u u' : Univ) (pv pv' : PV) (hc : Consistent u) (ha : u.alpha < 0) (ha' : -u.alpha ≤ 10 ^ 18) (hx : cross u.p0 u.v0 ≠ 0)
    (h : palUe2pv date u pv = some (u', pv', 0)) (x v : ℝ → Fin 3 → ℝ) (hm : TwoBody u.cm x v) (hx0 : x 0 = u.p0) (hv0 : v 0 = u.v0)
    (k a n dt N : ℝ) (hk : k = √(-u.alpha)) (haxis : a = u.cm / k ^ 2) (hn : n = k ^ 3 / u.cm) (hdt : dt = (date - u.t0) * gcon) (hN : N = 1 + n * |dt|) :
    ∃ t, n * |t - dt| ≤ 1e-11 * (1 + k) * N ∧
      len (fun i => pv'.p i - x t i) ≤ 2e-11 * (1 + k) * N * (a + len u.v0 / n) ∧
      (1e-11 * N * a ≤ len (x t) → len (fun i => pv'.v i / cd2s - v t i) ≤ 2e-11 * N * (a / len (x t)) ^ 2 * (k + len u.v0)) := by
  have hk0 : 0 < k := by rw [hk]; exact Real.sqrt_pos.2 (by linarith)
  have hka : u.alpha = -k ^ 2 := by rw [hk, Real.sq_sqrt (by linarith)]; ring
  have hk9 : k ≤ 10 ^ 9 := by rw [hk]; exact Real.sqrt_le_iff.2 ⟨by norm_num, by norm_num; linarith⟩
  have H := consistent_ref hc
  have hh := moment_pos hc hx
  obtain ⟨x', w', hm', hx0', hv0', hxt, hvt⟩ := exists_motion H hh
  obtain ⟨rfl, rfl⟩ := motion_unique hm hm' (t0 := 0) (hx0.trans hx0'.symm) (hv0.trans hv0'.symm)
  obtain ⟨ψ, S, R, t, ε, hR, ht, hε0, hε, htd, e1, e2, e3, eR, hp, hv⟩ := ellipse_numbers hk0 hk9 hka H hh h hdt
  have H' := H
  rw [hka] at H'
  obtain ⟨hmu, -, -, -⟩ := ref_bounds hk0 H'
  rw [← hn, ← hN] at hε htd
  have hn0 : 0 < n := by rw [hn]; positivity
  have ha0 : 0 < a := by rw [haxis]; positivity
  have hnd : 0 ≤ n * |dt| := by positivity
  have hN1 : 1 ≤ N := by linarith
  have hl0 := len_nonneg u.v0
  have hr0 := H.pos
  have hrpos := rr_pos hr0 hh ψ
  have hlen : len (x t) = rr u.cm u.alpha u.r0 u.sigma ψ := by
    have h := xx_sq H ψ
    rw [dot_self_len, ← hxt, ← ht] at h
    exact (pow_left_inj₀ (Real.sqrt_nonneg _) hrpos.le (by norm_num)).1 h
  have hk2 : 0 < k ^ 2 := by positivity
  have hk3 : 0 < k ^ 3 := by positivity
  have E2 : u.cm * |S.s2 - U2 u.alpha ψ| ≤ ε * a := by
    rw [haxis, mul_div_assoc', le_div_iff₀ hk2]
    calc u.cm * |S.s2 - U2 u.alpha ψ| * k ^ 2 = u.cm * (k ^ 2 * |S.s2 - U2 u.alpha ψ|) := by ring
      _ ≤ u.cm * ε := mul_le_mul_of_nonneg_left e2 hmu.le
      _ = ε * u.cm := mul_comm _ _
  have E3 : n * (u.cm * |S.s3 - U3 u.alpha ψ|) ≤ ε := by
    rw [hn]
    calc k ^ 3 / u.cm * (u.cm * |S.s3 - U3 u.alpha ψ|) = k ^ 3 * |S.s3 - U3 u.alpha ψ| := by field_simp
      _ ≤ ε := e3
  refine ⟨t, htd.trans ?_, ?_, ?_⟩
  · have : 0 ≤ (1 + k) * N := by positivity
    nlinarith
  · have hx1 : x t = xx u.cm u.alpha u.r0 u.sigma u.p0 u.v0 ψ := by rw [ht]; exact hxt ψ
    have e : (fun i => pv'.p i - x t i) = fun i => (-u.cm * (S.s2 - U2 u.alpha ψ) / u.r0) * u.p0 i + (-(t - dt) - u.cm * (S.s3 - U3 u.alpha ψ)) * u.v0 i := by
      funext i
      rw [hx1, hp, ht]
      unfold xx tt
      have := hr0.ne'
      field_simp
      ring
    rw [e]
    refine (len_two _ _ _ _).trans ?_
    rw [← hc.r0, abs_div, abs_of_pos hr0, div_mul_cancel₀ _ hr0.ne', abs_mul, abs_neg, abs_of_pos hmu]
    have c2 : |-(t - dt) - u.cm * (S.s3 - U3 u.alpha ψ)| ≤ |t - dt| + u.cm * |S.s3 - U3 u.alpha ψ| := by
      refine (abs_sub _ _).trans (le_of_eq ?_)
      rw [abs_neg, abs_mul, abs_of_pos hmu]
    have c3 : (|t - dt| + u.cm * |S.s3 - U3 u.alpha ψ|) * len u.v0 ≤ (2e-11 * (1 + k) * N) * (len u.v0 / n) := by
      have q : |t - dt| + u.cm * |S.s3 - U3 u.alpha ψ| ≤ 2e-11 * (1 + k) * N / n := by
        rw [le_div_iff₀ hn0]
        have : 0 ≤ k * N := by positivity
        nlinarith
      calc _ ≤ 2e-11 * (1 + k) * N / n * len u.v0 := mul_le_mul_of_nonneg_right q hl0
        _ = _ := by ring
    have hkN : 0 ≤ k * N := by positivity
    have c4 : ε * a ≤ 2e-11 * (1 + k) * N * a := mul_le_mul_of_nonneg_right (by nlinarith) ha0.le
    have c5 := mul_le_mul_of_nonneg_right c2 hl0
    linarith
  · intro hfar
    rw [hlen] at hfar ⊢
    set r := rr u.cm u.alpha u.r0 u.sigma ψ with hr
    have hRr : |R - r| ≤ 4 * ε * a := by
      rw [haxis, mul_div_assoc', le_div_iff₀ hk2]; linarith
    have hRl : 2 / 3 * r ≤ R := by
      have := (abs_le.1 hRr).1
      have q : ε * a ≤ 8.2e-13 * N * a := mul_le_mul_of_nonneg_right hε ha0.le
      linarith
    have hr2 : r ≤ 2 * a := by
      rw [haxis, mul_div_assoc', le_div_iff₀ hk2]
      have := rr_le hk0 H' ψ
      rw [← hka, ← hr] at this; linarith
    have i0 := id0 u.alpha ψ
    have bU1 : |U1 u.alpha ψ| ≤ 1 / k := by
      rw [hka, U1_neg hk0, abs_div, abs_of_pos hk0]
      exact div_le_div_of_nonneg_right (abs_sin_le_one _) hk0.le
    have bU2 : |U2 u.alpha ψ| ≤ 2 / k ^ 2 := by
      have e : k ^ 2 * U2 u.alpha ψ = 1 - cos (k * ψ) := by rw [hka, U0_neg hk0, ← hka] at i0; rw [hka] at i0 ⊢; linarith
      rw [le_div_iff₀ hk2, mul_comm, ← abs_of_pos hk2, ← abs_mul, e, abs_le]
      constructor <;> linarith [cos_le_one (k * ψ), neg_one_le_cos (k * ψ)]
    have q1 := quot_near (A := S.s1) (B := U1 u.alpha ψ) (e := ε / k) hrpos hRl (by rw [le_div_iff₀ hk0]; linarith) hRr bU1
    have q2 := quot_near (A := S.s2) (B := U2 u.alpha ψ) (e := ε / k ^ 2) hrpos hRl (by rw [le_div_iff₀ hk2]; linarith) hRr bU2
    have hvx : v t = vv u.cm u.alpha u.r0 u.sigma u.p0 u.v0 ψ := by rw [ht]; exact hvt ψ
    have e : (fun i => pv'.v i / cd2s - v t i) = fun i => (-(u.cm / u.r0) * (S.s1 / R - U1 u.alpha ψ / r)) * u.p0 i + (-u.cm * (S.s2 / R - U2 u.alpha ψ / r)) * u.v0 i := by
      funext i
      rw [hvx, hv]
      unfold vv
      have := hr0.ne'
      have := cd2s_ne
      have := hrpos.ne'
      rw [← hr]
      field_simp
      ring
    rw [e]
    refine (len_two _ _ _ _).trans ?_
    have hcm : u.cm = a * k ^ 2 := by rw [haxis]; field_simp
    have g1 : |-(u.cm / u.r0) * (S.s1 / R - U1 u.alpha ψ / r)| * len u.p0 = u.cm * |S.s1 / R - U1 u.alpha ψ / r| := by
      rw [← hc.r0, abs_mul, abs_neg, abs_div, abs_of_pos hmu, abs_of_pos hr0]; field_simp
    have g2 : |-u.cm * (S.s2 / R - U2 u.alpha ψ / r)| = u.cm * |S.s2 / R - U2 u.alpha ψ / r| := by rw [abs_mul, abs_neg, abs_of_pos hmu]
    rw [g1, g2]
    have ir : 1 / r ≤ 2 * (a / r ^ 2) := by
      rw [mul_div_assoc', div_le_div_iff₀ hrpos (by positivity)]; nlinarith
    have z1 : u.cm * (3 / 2 * (ε / k / r + 1 / k * (4 * ε * a) / r ^ 2)) ≤ 9 * ε * (a / r) ^ 2 * k := by
      have e : u.cm * (3 / 2 * (ε / k / r + 1 / k * (4 * ε * a) / r ^ 2)) = 3 / 2 * (a * k * ε) * (1 / r + 4 * (a / r ^ 2)) := by
        rw [hcm]; field_simp
      rw [e]
      have : 3 / 2 * (a * k * ε) * (1 / r + 4 * (a / r ^ 2)) ≤ 3 / 2 * (a * k * ε) * (6 * (a / r ^ 2)) := mul_le_mul_of_nonneg_left (by linarith) (by positivity)
      refine this.trans (le_of_eq ?_)
      field_simp; ring
    have z2 : u.cm * (3 / 2 * (ε / k ^ 2 / r + 2 / k ^ 2 * (4 * ε * a) / r ^ 2)) ≤ 15 * ε * (a / r) ^ 2 := by
      have e : u.cm * (3 / 2 * (ε / k ^ 2 / r + 2 / k ^ 2 * (4 * ε * a) / r ^ 2)) = 3 / 2 * (a * ε) * (1 / r + 8 * (a / r ^ 2)) := by
        rw [hcm]; field_simp; ring
      rw [e]
      have : 3 / 2 * (a * ε) * (1 / r + 8 * (a / r ^ 2)) ≤ 3 / 2 * (a * ε) * (10 * (a / r ^ 2)) := mul_le_mul_of_nonneg_left (by linarith) (by positivity)
      refine this.trans (le_of_eq ?_)
      field_simp; ring
    have y1 := (mul_le_mul_of_nonneg_left q1 hmu.le).trans z1
    have y2 := mul_le_mul_of_nonneg_right ((mul_le_mul_of_nonneg_left q2 hmu.le).trans z2) hl0
    have hA : 0 ≤ (a / r) ^ 2 := sq_nonneg _
    have w1 : 15 * ε * (a / r) ^ 2 ≤ 2e-11 * N * (a / r) ^ 2 := mul_le_mul_of_nonneg_right (by linarith) hA
    have w2 : 9 * ε * (a / r) ^ 2 ≤ 2e-11 * N * (a / r) ^ 2 := mul_le_mul_of_nonneg_right (by linarith) hA
    have w3 := mul_le_mul_of_nonneg_right w1 hl0
    have w4 := mul_le_mul_of_nonneg_right w2 hk0.le
    linarith

set_option maxHeartbeats 2000000 in
/-- **C111** (parabolic orbits) For zero energy the universal functions are exact: palUe2pv returns exactly the velocity of the motion at a time `t`, and its position displaced
by the time error times the reference velocity.  With `tp` and `q` the time and distance of perihelion, `X` bounds the anomaly, counted from perihelion, of the first trial
value and of the motion with constant distance `q`; no trial value is beyond it, and the time error is at most 1e-13 times the distance that belongs to it. -/
theorem C111_parabola (date : ℝ) (u u' : Univ) (pv pv' : PV) (hc : Consistent u) (ha : u.alpha = 0) (hx : cross u.p0 u.v0 ≠ 0)
    (h : palUe2pv date u pv = some (u', pv', 0)) (x v : ℝ → Fin 3 → ℝ) (hm : TwoBody u.cm x v) (hx0 : x 0 = u.p0) (hv0 : v 0 = u.v0)
    (dt : ℝ) (hdt : dt = (date - u.t0) * gcon) (tp q X : ℝ) (hq : q = len (x tp)) (hperi : dot (x tp) (v tp) = 0)
    (hX : |u.psi + (date - u.t) * gcon / u.r0 + u.sigma / u.cm| ≤ X) (hX' : |dt - tp| ≤ q * X) :
    ∃ t, |t - dt| ≤ 1e-13 * (q + u.cm * X ^ 2 / 2) ∧ (∀ i, pv'.p i = x t i - (t - dt) * u.v0 i) ∧ ∀ i, pv'.v i / cd2s = v t i := by
  have H := consistent_ref hc
  have hh := moment_pos hc hx
  obtain ⟨x', w', hm', hx0', hv0', hxt, hvt⟩ := exists_motion H hh
  obtain ⟨rfl, rfl⟩ := motion_unique hm hm' (t0 := 0) (hx0.trans hx0'.symm) (hv0.trans hv0'.symm)
  have hlen : ∀ s, len (x (tt u.cm u.alpha u.r0 u.sigma s)) = rr u.cm u.alpha u.r0 u.sigma s := by
    intro s
    have h := xx_sq H s
    rw [dot_self_len, ← hxt] at h
    exact (pow_left_inj₀ (Real.sqrt_nonneg _) (rr_pos H.pos hh s).le (by norm_num)).1 h
  have hr0 := H.pos
  have hmu : 0 < u.cm := by
    have e : u.r0 ^ 2 * (u.alpha + 2 * u.cm / u.r0) = 2 * u.cm * u.r0 := by rw [ha]; field_simp; ring
    rw [e] at hh
    nlinarith [sq_nonneg u.sigma]
  have hrr : ∀ s, rr u.cm u.alpha u.r0 u.sigma s = u.r0 + u.sigma * s + u.cm * s ^ 2 / 2 := by
    intro s
    unfold rr
    rw [ha, U0_zero, U1_zero, U2, if_pos rfl]
    ring
  have htt : ∀ s, tt u.cm u.alpha u.r0 u.sigma s = u.r0 * s + u.sigma * s ^ 2 / 2 + u.cm * s ^ 3 / 6 := by
    intro s
    unfold tt
    rw [ha, U1_zero, U2, if_pos rfl, U3, if_pos rfl]
    ring
  -- perihelion
  obtain ⟨c, hcp⟩ := tt_surj (mu := u.cm) (a := u.alpha) (r0 := u.r0) (σ := u.sigma) H.pos hh tp
  have hrc : rr u.cm u.alpha u.r0 u.sigma c = q := by rw [hq, ← hcp, hlen]
  have hq0 : 0 < q := by rw [← hrc]; exact rr_pos H.pos hh c
  have hcσ : u.cm * c = -u.sigma := by
    have hd : HasDerivAt (fun t => dot (x t) (x t)) (2 * dot (x tp) (v tp)) tp := by
      have h0 := hm.velocity tp 0
      have h1 := hm.velocity tp 1
      have h2 := hm.velocity tp 2
      have := ((h0.mul h0).add (h1.mul h1)).add (h2.mul h2)
      simp only [dot, Fin.sum_univ_three]
      refine HasDerivAt.congr_deriv (f' := _) (by exact this) ?_
      ring
    rw [hperi, mul_zero] at hd
    have hs : HasDerivAt (fun s => dot (x (tt u.cm u.alpha u.r0 u.sigma s)) (x (tt u.cm u.alpha u.r0 u.sigma s))) (0 * rr u.cm u.alpha u.r0 u.sigma c) c := by
      have := HasDerivAt.comp c (h₂ := fun t => dot (x t) (x t)) (h := tt u.cm u.alpha u.r0 u.sigma) (by rw [hcp]; exact hd) (tt_deriv c)
      exact this
    have hs2 : HasDerivAt (fun s => (u.r0 + u.sigma * s + u.cm * s ^ 2 / 2) ^ 2) (2 * (u.r0 + u.sigma * c + u.cm * c ^ 2 / 2) * (u.sigma + u.cm * c)) c := by
      have a1 : HasDerivAt (fun s : ℝ => u.r0 + u.sigma * s + u.cm * s ^ 2 / 2) (u.sigma + u.cm * c) c := by
        have i1 := (hasDerivAt_id c).const_mul u.sigma
        have i2 := ((hasDerivAt_pow 2 c).const_mul u.cm).div_const 2
        have := (i1.const_add u.r0).add i2
        refine HasDerivAt.congr_deriv (f' := _) (by exact this) ?_
        simp; ring
      have := a1.pow 2
      refine HasDerivAt.congr_deriv (f' := _) (by exact this) ?_
      simp
    have hfe : (fun s => dot (x (tt u.cm u.alpha u.r0 u.sigma s)) (x (tt u.cm u.alpha u.r0 u.sigma s))) = fun s => (u.r0 + u.sigma * s + u.cm * s ^ 2 / 2) ^ 2 := by
      funext s
      rw [dot_self_len, hlen, hrr]
    rw [hfe] at hs
    have := hs.unique hs2
    rw [zero_mul, ← hrr, hrc] at this
    have : u.sigma + u.cm * c = 0 := by
      rcases mul_eq_zero.1 this.symm with h | h
      · linarith
      · exact h
    linarith
  have hc' : c = -(u.sigma / u.cm) := by field_simp; linarith
  have hqe : q = u.r0 + u.sigma * c + u.cm * c ^ 2 / 2 := by rw [← hrc, hrr]
  have htpe : tp = u.r0 * c + u.sigma * c ^ 2 / 2 + u.cm * c ^ 3 / 6 := by rw [← hcp, htt]
  have hσ : u.sigma = -(u.cm * c) := by linarith
  have hrr' : ∀ s, rr u.cm u.alpha u.r0 u.sigma s = q + u.cm * (s - c) ^ 2 / 2 := by intro s; rw [hrr, hqe, hσ]; ring
  have htt' : ∀ s, tt u.cm u.alpha u.r0 u.sigma s - dt = q * (s - c) + u.cm * (s - c) ^ 3 / 6 + (tp - dt) := by intro s; rw [htt, htpe, hqe, hσ]; ring
  have hS : ∀ s, ueFun u.alpha s = { s0 := U0 u.alpha s, s1 := U1 u.alpha s, s2 := U2 u.alpha s, s3 := U3 u.alpha s, tol := 1 / 10 ^ 13 } := by
    intro s
    rw [ueFun_small (by rw [ha]; simp; norm_num), ha, U0_zero, U1_zero, U2, if_pos rfl, U3, if_pos rfl]
    simp only [ueSeries, UeFun.mk.injEq]
    refine ⟨by ring, by ring, by ring, by ring, trivial⟩
  have hFF : ∀ s, ueFF u dt { s0 := U0 u.alpha s, s1 := U1 u.alpha s, s2 := U2 u.alpha s, s3 := U3 u.alpha s, tol := 1 / 10 ^ 13 } = tt u.cm u.alpha u.r0 u.sigma s - dt :=
    fun s => rfl
  have hRR : ∀ s, ueR u { s0 := U0 u.alpha s, s1 := U1 u.alpha s, s2 := U2 u.alpha s, s3 := U3 u.alpha s, tol := 1 / 10 ^ 13 } = rr u.cm u.alpha u.r0 u.sigma s := fun s => rfl
  have hX0 : 0 ≤ X := (abs_nonneg _).trans hX
  have hN : ∀ ψ, |ψ - c| ≤ X → ueR u (ueFun u.alpha ψ) ≠ 0 → |ψ - ueFF u dt (ueFun u.alpha ψ) / ueR u (ueFun u.alpha ψ) - c| ≤ X := by
    intro ψ hψ _
    rw [hS, hFF, hRR, htt', hrr']
    generalize hy : ψ - c = y at hψ
    have hd : 0 < q + u.cm * y ^ 2 / 2 := by positivity
    have e : ψ - (q * y + u.cm * y ^ 3 / 6 + (tp - dt)) / (q + u.cm * y ^ 2 / 2) - c = (u.cm * y ^ 3 / 3 + (dt - tp)) / (q + u.cm * y ^ 2 / 2) := by
      have : ψ = y + c := by linarith
      rw [this]
      field_simp
      ring
    rw [e, abs_div, abs_of_pos hd, div_le_iff₀ hd]
    have h1 : |u.cm * y ^ 3 / 3| ≤ X * (u.cm * y ^ 2 / 2) := by
      have e2 : u.cm * y ^ 3 / 3 = (u.cm * y ^ 2 / 3) * y := by ring
      rw [e2, abs_mul, abs_of_nonneg (by positivity)]
      have := mul_le_mul_of_nonneg_left hψ (show 0 ≤ u.cm * y ^ 2 / 3 by positivity)
      have : 0 ≤ u.cm * y ^ 2 * X := by positivity
      nlinarith
    have := abs_add_le (u.cm * y ^ 3 / 3) (dt - tp)
    nlinarith
  obtain ⟨ψ, w, hψ, hR, hw, hexit, hp, hv⟩ := ue2pv_exit_near (c := c) (X := X) h hdt hN (by rw [hc', sub_neg_eq_add]; exact hX)
  have hbd : ∀ s, |s - c| ≤ X → rr u.cm u.alpha u.r0 u.sigma s ≤ q + u.cm * X ^ 2 / 2 := by
    intro s hs
    rw [hrr']
    have : (s - c) ^ 2 ≤ X ^ 2 := sq_le_sq' (by linarith [(abs_le.1 hs).1]) (abs_le.1 hs).2
    nlinarith
  rw [hS] at hR hw hexit hp hv
  rw [hRR] at hexit hR hv
  rw [hFF] at hexit
  dsimp only at hw
  refine ⟨tt u.cm u.alpha u.r0 u.sigma ψ, ?_, ?_, ?_⟩
  · have hB0 : 0 ≤ q + u.cm * X ^ 2 / 2 := by positivity
    rcases hexit with hN | ⟨ψ₁, hψ₁, hs, hwq⟩
    · rw [hN, abs_mul, abs_of_pos (rr_pos H.pos hh ψ)]
      exact mul_le_mul (hw.le.trans (by norm_num)) (hbd ψ hψ) (rr_pos H.pos hh ψ).le (by norm_num)
    · rw [hS, hFF] at hs hwq
      set f := tt u.cm u.alpha u.r0 u.sigma ψ - dt with hf
      set f1 := tt u.cm u.alpha u.r0 u.sigma ψ₁ - dt with hf1
      have hne : f1 - f ≠ 0 := by
        intro e
        have : f1 = f := by linarith
        rw [this] at hs
        nlinarith [mul_self_nonneg f]
      have hψ' : ψ₁ ≠ ψ := by rintro rfl; exact hne (by rw [hf, hf1, sub_self])
      have hwe : w * (f1 - f) = f * (ψ₁ - ψ) := by rw [hwq]; field_simp
      obtain ⟨ξ, hξX, hξ⟩ : ∃ ξ, |ξ - c| ≤ X ∧ f1 - f = rr u.cm u.alpha u.r0 u.sigma ξ * (ψ₁ - ψ) := by
        have hd : ∀ y, HasDerivAt (tt u.cm u.alpha u.r0 u.sigma) (rr u.cm u.alpha u.r0 u.sigma y) y := fun y => tt_deriv y
        rw [abs_le] at hψ hψ₁
        rcases lt_or_gt_of_ne hψ' with hlt | hlt
        · obtain ⟨ξ, hi, he⟩ := exists_hasDerivAt_eq_slope (tt u.cm u.alpha u.r0 u.sigma) (rr u.cm u.alpha u.r0 u.sigma) hlt tt_cont.continuousOn (fun y _ => hd y)
          refine ⟨ξ, abs_le.2 ⟨by linarith [hi.1], by linarith [hi.2]⟩, ?_⟩
          have : ψ - ψ₁ ≠ 0 := (sub_pos.2 hlt).ne'
          rw [he, hf, hf1]
          field_simp
          ring
        · obtain ⟨ξ, hi, he⟩ := exists_hasDerivAt_eq_slope (tt u.cm u.alpha u.r0 u.sigma) (rr u.cm u.alpha u.r0 u.sigma) hlt tt_cont.continuousOn (fun y _ => hd y)
          refine ⟨ξ, abs_le.2 ⟨by linarith [hi.1], by linarith [hi.2]⟩, ?_⟩
          have : ψ₁ - ψ ≠ 0 := (sub_pos.2 hlt).ne'
          rw [he, hf, hf1]
          field_simp
          ring
      have hfe : f = w * rr u.cm u.alpha u.r0 u.sigma ξ := by
        have h0 : ψ₁ - ψ ≠ 0 := sub_ne_zero.2 hψ'
        rw [hξ] at hwe
        exact mul_right_cancel₀ h0 (by linear_combination -hwe)
      rw [hfe, abs_mul, abs_of_pos (rr_pos H.pos hh ξ)]
      exact mul_le_mul (hw.le.trans (by norm_num)) (hbd ξ hξX) (rr_pos H.pos hh ξ).le (by norm_num)
  · intro i
    rw [hp, hxt]
    unfold xx tt
    have := H.pos.ne'
    field_simp
    ring
  · intro i
    rw [hv, hvt]
    unfold vv
    have := cd2s_ne
    field_simp

/-- A parabolic orbit with its perihelion at distance 1, about to be predicted for the time at which the universal anomaly is 1. -/
noncomputable def zeroEnergy : Univ :=
  { cm := 1, alpha := 0, t0 := 0, p0 := ![1, 0, 0], v0 := ![0, √2, 0], r0 := 1, sigma := 0, t := 7 / 6 / gcon, psi := 1 }

theorem zeroEnergy_consistent : Consistent zeroEnergy := by
  refine ⟨?_, ?_, ?_, ?_⟩ <;> simp [zeroEnergy, len, dot, energy, Fin.sum_univ_three]

theorem zeroEnergy_runs (pv : PV) : ∃ u' pv', palUe2pv (7 / 6 / gcon) zeroEnergy pv = some (u', pv', 0) := by
  have hg : gcon ≠ 0 := ne_of_gt gcon_pos
  have e : (zeroEnergy.psi + (7 / 6 / gcon - zeroEnergy.t) * gcon / zeroEnergy.r0) = 1 := by simp [zeroEnergy]
  have e2 : (7 / 6 / gcon - zeroEnergy.t0) * gcon = 7 / 6 := by simp [zeroEnergy]; field_simp
  have hs : ueFun zeroEnergy.alpha 1 = ueSeries 0 1 (1 * 1) (0 * (1 * 1)) := by
    apply ueFun_small
    simp only [zeroEnergy]
    norm_num
  have hff : ueFF zeroEnergy (7 / 6) (ueFun zeroEnergy.alpha 1) = 0 := by
    rw [hs]; simp only [ueFF, ueSeries, zeroEnergy]; norm_num
  have hr : ueR zeroEnergy (ueFun zeroEnergy.alpha 1) = 3 / 2 := by
    rw [hs]; simp only [ueR, ueSeries, zeroEnergy]; norm_num
  have ht : ¬ |(0 : ℝ)| ≥ (ueFun zeroEnergy.alpha 1).tol := by rw [hs]; simp [ueSeries]
  unfold palUe2pv
  rw [if_neg (by simp [zeroEnergy]), e, e2]
  have hl : ueLoop zeroEnergy (7 / 6) 1 1 0 0 = .done 1 (ueFun zeroEnergy.alpha 1) (3 / 2) := by
    rw [ueLoop]
    dsimp only
    rw [hff, hr, if_neg (by norm_num), if_neg (by norm_num), if_neg (by simpa using ht)]
    simp
  dsimp only
  rw [hl]
  simp

/-- Non-vacuity of C111_motion and C111_ellipse: the circular orbit meets the hypotheses (its prediction succeeds by the example in Props/Orbit). -/
example : ∃ x v, TwoBody circle.cm x v ∧ x 0 = circle.p0 ∧ v 0 = circle.v0 ∧ circle.alpha < 0 ∧ -circle.alpha ≤ 10 ^ 18 := by
  have hx : cross circle.p0 circle.v0 ≠ 0 := by
    intro h
    have := congrFun h 2
    simp [circle, cross] at this
  obtain ⟨m, hm, -⟩ := C111_motion circle circle_consistent hx
  exact ⟨m.1, m.2, hm.1, hm.2.1, hm.2.2, by simp [circle], by simp [circle]; norm_num⟩

/-- Non-vacuity of C111_parabola: every hypothesis holds for the orbit above, and the time error is below 2.5e-13 canonical days. -/
example (pv : PV) : ∃ u' pv' x v t, palUe2pv (7 / 6 / gcon) zeroEnergy pv = some (u', pv', 0) ∧ TwoBody zeroEnergy.cm x v ∧
    |t - (7 / 6 / gcon - zeroEnergy.t0) * gcon| ≤ 2.5e-13 ∧ ∀ i, pv'.v i / cd2s = v t i := by
  have hx : cross zeroEnergy.p0 zeroEnergy.v0 ≠ 0 := by
    intro h
    have := congrFun h 2
    simp [zeroEnergy, cross] at this
  obtain ⟨m, hm, -⟩ := C111_motion zeroEnergy zeroEnergy_consistent hx
  obtain ⟨u', pv', h⟩ := zeroEnergy_runs pv
  have hg : gcon ≠ 0 := ne_of_gt gcon_pos
  have e1 : len (m.1 0) = 1 := by rw [hm.2.1]; simp [zeroEnergy, len, Fin.sum_univ_three]
  obtain ⟨t, h1, -, h3⟩ := C111_parabola _ _ _ _ _ zeroEnergy_consistent rfl hx h m.1 m.2 hm.1 hm.2.1 hm.2.2 _ rfl 0 1 (7 / 6) e1.symm
    (by rw [hm.2.1, hm.2.2]; simp [zeroEnergy, dot, Fin.sum_univ_three]) (by simp [zeroEnergy]; norm_num)
    (by simp only [zeroEnergy]; rw [show (7 / 6 / gcon - 0) * gcon - 0 = 7 / 6 by field_simp; ring]; norm_num)
  exact ⟨u', pv', m.1, m.2, t, h, hm.1, h1.trans (by simp only [zeroEnergy]; norm_num), h3⟩

/-- **C111** (a state vector propagated) Elements made from a state vector by palPv2ue and then used by palUe2pv for another date: for a bound orbit of a body at least
0.001 AU from the Sun, the delivered state is, within the tolerances of C111_ellipse, a point of the two-body motion that starts with the given state. -/
theorem C111_propagate (date0 date pmass : ℝ) (u0 u u' : Univ) (pv0 pv pv' : PV) (hu : palPv2ue pv0 date0 pmass u0 = (u, 0)) (hm0 : pmass ≤ 10 ^ 14)
    (hα : energy (1 + pmass) pv0.p (fun i => pv0.v i / cd2s) < 0) (hx : cross pv0.p (fun i => pv0.v i / cd2s) ≠ 0)
    (h : palUe2pv date u pv = some (u', pv', 0)) (x v : ℝ → Fin 3 → ℝ) (hm : TwoBody (1 + pmass) x v) (hx0 : x 0 = pv0.p) (hv0 : v 0 = fun i => pv0.v i / cd2s)
    (k a n dt N : ℝ) (hk : k = √(-energy (1 + pmass) pv0.p (fun i => pv0.v i / cd2s))) (haxis : a = (1 + pmass) / k ^ 2) (hn : n = k ^ 3 / (1 + pmass))
    (hdt : dt = (date - date0) * gcon) (hN : N = 1 + n * |dt|) :
    ∃ t, n * |t - dt| ≤ 1e-11 * (1 + k) * N ∧
      len (fun i => pv'.p i - x t i) ≤ 2e-11 * (1 + k) * N * (a + len (v 0) / n) ∧
      (1e-11 * N * a ≤ len (x t) → len (fun i => pv'.v i / cd2s - v t i) ≤ 2e-11 * N * (a / len (x t)) ^ 2 * (k + len (v 0))) := by
  obtain ⟨hc, ht0, hcm, hp0, hv0'⟩ := C61_elements pv0 date0 pmass u0 u hu
  have hmass : 0 ≤ pmass := by
    by_contra hneg
    rw [(C61_status pv0 date0 pmass u0).1 (not_le.1 hneg)] at hu
    simp at hu
  have hr : 1 / 10 ^ 3 ≤ len pv0.p := by
    by_contra hneg
    rw [(C61_status pv0 date0 pmass u0).2.1 hmass (not_le.1 hneg)] at hu
    simp at hu
  have he : u.alpha = energy (1 + pmass) pv0.p (fun i => pv0.v i / cd2s) := by rw [hc.alpha, hcm, hp0, hv0']
  have hbig : -u.alpha ≤ 10 ^ 18 := by
    rw [he, energy]
    have h1 : 0 ≤ dot (fun i => pv0.v i / cd2s) (fun i => pv0.v i / cd2s) := by
      rw [dot_self_len]; positivity
    have h2 : 2 * (1 + pmass) / len pv0.p ≤ 2 * (1 + 10 ^ 14) * 10 ^ 3 := by
      rw [div_le_iff₀ (by linarith)]
      have : 2 * (1 + pmass) ≤ 2 * (1 + 10 ^ 14) := by linarith
      nlinarith
    linarith
  rw [hv0, ← hv0']
  refine C111_ellipse date u u' pv pv' hc (by rw [he]; exact hα) hbig (by rw [hp0, hv0']; exact hx) h x v (by rw [hcm]; exact hm) (by rw [hp0]; exact hx0)
    (by rw [hv0']; exact hv0) k a n dt N (by rw [he]; exact hk) (by rw [hcm]; exact haxis) (by rw [hcm]; exact hn) (by rw [ht0]; exact hdt) hN

/-- Non-vacuity of C111_propagate: a body at distance 1 with the speed of a circular orbit, predicted for 29 days later. -/
example (u0 : Univ) (pv : PV) : ∃ u u' pv' x v, palPv2ue { p := ![1, 0, 0], v := ![0, cd2s, 0] } 0 0 u0 = (u, 0) ∧ palUe2pv (1 / 2 / gcon) u pv = some (u', pv', 0) ∧
    energy (1 + 0) ![1, 0, 0] (fun i => ![0, cd2s, 0] i / cd2s) < 0 ∧ TwoBody (1 + 0) x v ∧ x 0 = ![1, 0, 0] ∧ v 0 = fun i => ![0, cd2s, 0] i / cd2s := by
  have hv : (fun i => ![0, cd2s, 0] i / cd2s) = ![0, 1, 0] := by
    have := cd2s_ne
    funext i
    fin_cases i <;> simp [this]
  have hu : palPv2ue { p := ![1, 0, 0], v := ![0, cd2s, 0] } 0 0 u0 = (circle, 0) := by
    have := cd2s_ne
    unfold palPv2ue
    rw [if_neg (by norm_num)]
    dsimp only
    simp [this, circle]
    norm_num
  obtain ⟨u', pv', h⟩ := circle_runs pv
  have hx : cross circle.p0 circle.v0 ≠ 0 := by
    intro h
    have := congrFun h 2
    simp [circle, cross] at this
  obtain ⟨m, hm, -⟩ := C111_motion circle circle_consistent hx
  refine ⟨circle, u', pv', m.1, m.2, hu, h, ?_, by simpa [circle] using hm.1, hm.2.1, ?_⟩
  · rw [hv]
    simp [energy, dot, len, Fin.sum_univ_three]
  · rw [hv]
    exact hm.2.2

end Pal.Props
