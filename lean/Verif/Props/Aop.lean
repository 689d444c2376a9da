import Verif.Lemmas.Aop

/-!
# Property C56: observed places (palAopqk, palOapqk)

The parameter array is arbitrary except that its elements [1] and [2] are the sine and cosine of element [0], as palAoppa leaves them (C57).
-/

namespace Pal.Props
open Pal Pal.Spec Real

/-- Elements [1] and [2] of the parameter array belong to element [0], and the diurnal aberration is less than 1. -/
structure ParamsOk (p : Aoprms) : Prop where
  sphi : p.sphi = sin p.phi
  cphi : p.cphi = cos p.phi
  diurab : |p.diurab| < 1

/-- The refraction that palRefro computes for the observer described by the parameters (it always delivers a number, C52). -/
noncomputable def observerRefr (p : Aoprms) (z : ℝ) : ℝ := (C52_refro_terminates z p.hm p.tdk p.pmb p.rh p.wl p.phi p.tlr 1e-8).choose

theorem observerRefr_spec (p : Aoprms) (z : ℝ) : palRefro z p.hm p.tdk p.pmb p.rh p.wl p.phi p.tlr 1e-8 = some (observerRefr p z) :=
  (C52_refro_terminates z p.hm p.tdk p.pmb p.rh p.wl p.phi p.tlr 1e-8).choose_spec

theorem loop_spec (ref : ℝ → Option ℝ) (R : ℝ → ℝ) (hR : ∀ z, ref z = some (R z)) (zdt : ℝ) (n : ℕ) (z : ℝ) :
    ∃ k ≤ n, aopLoop ref zdt n z = some ((fun z => zdt - R z)^[k] z) ∧ (n ≠ 0 → 1 ≤ k) ∧
      (k = n ∨ ∃ y, (fun z => zdt - R z)^[k] z = zdt - R y ∧ |y + R y - zdt| ≤ 1 / 10 ^ 10) ∧
      ∀ j, j + 1 < k → 1 / 10 ^ 10 < |(fun z => zdt - R z)^[j] z + R ((fun z => zdt - R z)^[j] z) - zdt| := by
  induction n generalizing z with
  | zero => exact ⟨0, le_refl _, rfl, fun h => absurd rfl h, Or.inl rfl, fun j hj => absurd hj (by omega)⟩
  | succ n ih =>
    unfold aopLoop
    rw [hR]
    dsimp only
    have e : z - (z + R z - zdt) = zdt - R z := by ring
    rw [e]
    by_cases h : |z + R z - zdt| > 1 / 10 ^ 10
    · rw [if_pos h]
      obtain ⟨k, hk, h1, h2, h3, h4⟩ := ih (zdt - R z)
      refine ⟨k + 1, by omega, ?_, fun _ => by omega, ?_, ?_⟩
      · rw [h1]; rfl
      · rcases h3 with h3 | h3
        · exact Or.inl (by omega)
        · exact Or.inr h3
      · intro j hj
        rcases j with _ | j
        · exact h
        · exact h4 j (by omega)
    · rw [if_neg h]
      refine ⟨1, by omega, rfl, fun _ => le_refl _, Or.inr ⟨z, rfl, not_lt.1 h⟩, fun j hj => absurd hj (by omega)⟩

/-- **C56** (what palAopqk computes) palAopqk always delivers a result.  The azimuth is that of the apparent direction corrected for diurnal aberration, at hour angle
(sidereal time minus right ascension).  From its zenith distance z₀, in [0, π], the observed one follows by palRefz; if that is further from the zenith than
arccos 0.242535625, palRefro takes over: the result is the k-th iterate of z ↦ z₀ - palRefro z, 1 ≤ k ≤ 10, the iteration ending as soon as two successive
iterates agree within 1e-10. -/
theorem C56_aopqk (rap dap : ℝ) (p : Aoprms) (hp : ParamsOk p) :
    ∃ o z₀, palAopqk rap dap p = some o ∧ 0 ≤ z₀ ∧ z₀ ≤ π ∧ o.aob ∈ Set.Ioc (-π) π ∧
      Horizon p.phi (unit (moving p.diurab (p.st - rap) dap)) o.aob z₀ ∧
      (0.242535625 ≤ cos (palRefz z₀ p.refa p.refb) → o.zob = palRefz z₀ p.refa p.refb) ∧
      (cos (palRefz z₀ p.refa p.refb) < 0.242535625 →
        ∃ k, 1 ≤ k ∧ k ≤ 10 ∧ o.zob = (fun z => z₀ - observerRefr p z)^[k] (palRefz z₀ p.refa p.refb) ∧
          (k = 10 ∨ ∃ y, o.zob = z₀ - observerRefr p y ∧ |o.zob - y| ≤ 1 / 10 ^ 10) ∧
          ∀ j, j + 1 < k → 1 / 10 ^ 10 < |(fun z => z₀ - observerRefr p z)^[j + 1] (palRefz z₀ p.refa p.refb) - (fun z => z₀ - observerRefr p z)^[j] (palRefz z₀ p.refa p.refb)|) := by
  obtain ⟨h1, h2, h3, h4⟩ := topo_spec rap dap p hp.sphi hp.cphi hp.diurab
  obtain ⟨k, hk, l1, l2, l3, l4⟩ := loop_spec (aopRefro p) (observerRefr p) (fun z => observerRefr_spec p z) (aopTopo rap dap p).2 10 (palRefz (aopTopo rap dap p).2 p.refa p.refb)
  have hsome : (palAopqk rap dap p).isSome := by
    have : ∃ z, aopRefract p (aopTopo rap dap p).2 = some z := by
      unfold aopRefract
      dsimp only
      split_ifs
      · exact ⟨_, l1⟩
      · exact ⟨_, rfl⟩
    obtain ⟨z, hz⟩ := this
    unfold palAopqk
    dsimp only
    rw [hz]
    rfl
  obtain ⟨o, ho⟩ := Option.isSome_iff_exists.1 hsome
  obtain ⟨o1, o2, -⟩ := aopqk_out hp.sphi hp.cphi ho
  refine ⟨o, (aopTopo rap dap p).2, ho, h2, h3, by rw [o1]; exact h4, by rw [o1]; exact h1, ?_, ?_⟩
  · intro h
    unfold aopRefract at o2
    dsimp only at o2
    rw [if_neg (by unfold zbreak; exact not_lt.2 h)] at o2
    exact (Option.some.inj o2).symm
  · intro h
    unfold aopRefract at o2
    dsimp only at o2
    rw [if_pos (by unfold zbreak; exact h), l1] at o2
    have hz : (fun z => (aopTopo rap dap p).2 - observerRefr p z)^[k] (palRefz (aopTopo rap dap p).2 p.refa p.refb) = o.zob := Option.some.inj o2
    refine ⟨k, l2 (by norm_num), hk, hz.symm, ?_, ?_⟩
    · rcases l3 with l3 | ⟨y, l3, l5⟩
      · exact Or.inl l3
      · refine Or.inr ⟨y, by rw [← hz, l3], ?_⟩
        rw [← hz, l3]
        rw [abs_sub_comm]
        rwa [show y - ((aopTopo rap dap p).2 - observerRefr p y) = y + observerRefr p y - (aopTopo rap dap p).2 by ring]
    · intro j hj
      have := l4 j hj
      rw [Function.iterate_succ_apply']
      set y := (fun z => (aopTopo rap dap p).2 - observerRefr p z)^[j] (palRefz (aopTopo rap dap p).2 p.refa p.refb)
      rw [abs_sub_comm]
      show 1 / 10 ^ 10 < |y - ((aopTopo rap dap p).2 - observerRefr p y)|
      rwa [show y - ((aopTopo rap dap p).2 - observerRefr p y) = y + observerRefr p y - (aopTopo rap dap p).2 by ring]

/-- **C56** (consistent outputs) The hour angle and declination, the azimuth and zenith distance, and the right ascension returned by palAopqk describe one direction, and the
right ascension is in the range 0 to 2π. -/
theorem C56_outputs_agree {rap dap : ℝ} {p : Aoprms} {o : Observed} (hp : ParamsOk p) (h : palAopqk rap dap p = some o) :
    Horizon p.phi (dir o.hob o.dob) o.aob o.zob ∧ SameAngle o.rob (p.st - o.hob) ∧ o.rob ∈ Set.Ico 0 (2 * π) ∧ |o.dob| ≤ π / 2 := by
  obtain ⟨-, -, h1, h2, h3, h4⟩ := aopqk_out hp.sphi hp.cphi h
  exact ⟨h1, h3, h2, h4⟩

/-- **C56** (selection) palOapqk looks only at the first character of the type: r or R means right ascension and is the same as an hour angle (sidereal time minus right ascension);
h or H means hour angle; everything else, including an empty string, means azimuth and zenith distance. -/
theorem C56_types (rest : List Char) (c : Char) (ob1 ob2 : ℝ) (p : Aoprms) :
    (c = 'R' ∨ c = 'r' → palOapqk (c :: rest) ob1 ob2 p = palOapqk ['H'] (p.st - ob1) ob2 p) ∧
    (c = 'H' ∨ c = 'h' → palOapqk (c :: rest) ob1 ob2 p = palOapqk ['H'] ob1 ob2 p) ∧
    (c ∉ ['R', 'r', 'H', 'h'] → palOapqk (c :: rest) ob1 ob2 p = palOapqk ['A'] ob1 ob2 p) ∧
    palOapqk [] ob1 ob2 p = palOapqk ['A'] ob1 ob2 p := by
  have key : ∀ (s t : List Char) (a b a' b' : ℝ), oapVector (obType s.head?) a b p = oapVector (obType t.head?) a' b' p → palOapqk s a b p = palOapqk t a' b' p := by
    intro s t a b a' b' h
    unfold palOapqk
    rw [h]
  refine ⟨?_, ?_, ?_, ?_⟩
  · rintro (rfl | rfl) <;> (apply key; rfl)
  · rintro (rfl | rfl) <;> (apply key; rfl)
  · intro h
    apply key
    simp only [List.mem_cons, List.not_mem_nil, or_false, not_or] at h
    simp [obType, h.1, h.2.1, h.2.2.1, h.2.2.2]
  · apply key
    rfl

/-- **C56** (equivalent inputs) An observed place given as hour angle and declination is treated exactly as the azimuth and zenith distance of the same direction. -/
theorem C56_hour_angle_azimuth {h d az z : ℝ} {p : Aoprms} (hp : ParamsOk p) (hh : Horizon p.phi (dir h d) az z) :
    palOapqk ['H'] h d p = palOapqk ['A'] az z p := by
  unfold palOapqk
  have e1 : oapVector (obType ['H'].head?) h d p = ![-cos az * sin z, sin az * sin z, cos z] := oap_vector hp.sphi hp.cphi hh
  have e2 : oapVector (obType ['A'].head?) az z p = ![-cos az * sin z, sin az * sin z, cos z] := rfl
  rw [e1, e2]

/-- The zenith distance in vacuo that palOapqk assigns to an observed zenith distance z: the two-constant model near the zenith, palRefro beyond. -/
noncomputable def vacuumZd (p : Aoprms) (z : ℝ) : ℝ :=
  if 0.242535625 ≤ cos z then unrefract p.refa p.refb z else z + observerRefr p z

theorem oapRefr_spec (p : Aoprms) (z : ℝ) : oapRefr p (sin z) (cos z) z = some (vacuumZd p z - z) := by
  unfold oapRefr vacuumZd zbreak unrefract
  by_cases h : (0.242535625 : ℝ) ≤ cos z
  · rw [if_pos h, if_pos h, tan_eq_sin_div_cos]
    refine congrArg some ?_
    ring
  · rw [if_neg h, if_neg h]
    unfold aopRefro
    rw [observerRefr_spec]
    refine congrArg some ?_
    ring

/-- **C56** (what palOapqk computes) For an observed place of azimuth az and zenith distance z, 0 ≤ z < π, palOapqk takes the direction u of the same azimuth with the refraction
removed from the zenith distance and returns the right ascension and declination of the direction u minus the diurnal aberration. -/
theorem C56_oapqk {az z : ℝ} {p : Aoprms} (hp : ParamsOk p) (h0 : 0 ≤ z) (h1 : z < π) :
    ∃ ra dec u, palOapqk ['A'] az z p = some (ra, dec) ∧ ra ∈ Set.Ico 0 (2 * π) ∧ |dec| ≤ π / 2 ∧ dot u u = 1 ∧ Horizon p.phi u az (vacuumZd p z) ∧
      dir (p.st - ra) dec = unit (fun i => u i - p.diurab * eastAxis i) := by
  obtain ⟨ra, dec, u, k1, k2, k3, k4, k5, k6⟩ := oapqk_core (type := ['A']) (ob1 := az) (ob2 := z) hp.sphi hp.cphi hp.diurab h0 h1 rfl (oapRefr_spec p z)
  refine ⟨ra, dec, u, k1, k2, k3, k5, by rwa [add_sub_cancel] at k4, ?_⟩
  set a : Fin 3 → ℝ := fun i => u i - p.diurab * eastAxis i with ha
  have hla : 0 < len a := by
    have h1 := len_add_le a (fun i => p.diurab * eastAxis i)
    have e : (fun i => a i + p.diurab * eastAxis i) = u := by funext i; simp [ha]
    rw [e, len_smul, len_east, len_one k5] at h1
    linarith [hp.diurab]
  funext i
  have := congrFun k6 i
  unfold unit
  rw [← this]
  field_simp

/-- **C56** (round trip) Feeding any of the three kinds of results of palAopqk to palOapqk gives the same answer, and this differs from the original apparent direction only by the
mismatch between the two refraction calculations and the second-order diurnal aberration: z₀ is the topocentric zenith distance, d the aberration. -/
theorem C56_round_trip {rap dap : ℝ} {p : Aoprms} {o : Observed} (hp : ParamsOk p) (h : palAopqk rap dap p = some o) (hz0 : 0 ≤ o.zob) (hz1 : o.zob < π) :
    ∃ ra dec z₀, 0 ≤ z₀ ∧ z₀ ≤ π ∧ Horizon p.phi (unit (moving p.diurab (p.st - rap) dap)) o.aob z₀ ∧
      palOapqk ['A'] o.aob o.zob p = some (ra, dec) ∧ palOapqk ['H'] o.hob o.dob p = some (ra, dec) ∧ palOapqk ['R'] o.rob o.dob p = some (ra, dec) ∧
      len (fun i => dir ra dec i - dir rap dap i) ≤ (|vacuumZd p o.zob - z₀| + p.diurab ^ 2 / (1 - |p.diurab|)) * ((1 + |p.diurab|) / (1 - |p.diurab|)) := by
  obtain ⟨t1, t2, t3, t4⟩ := topo_spec rap dap p hp.sphi hp.cphi hp.diurab
  obtain ⟨o1, o2, o3, o4, o5, -⟩ := aopqk_out hp.sphi hp.cphi h
  obtain ⟨ra, dec, u, k1, k2, k3, k4, k5, k6⟩ := oapqk_core (type := ['A']) (ob1 := o.aob) (ob2 := o.zob) (az := o.aob) hp.sphi hp.cphi hp.diurab hz0 hz1 rfl (oapRefr_spec p o.zob)
  rw [add_sub_cancel] at k4
  rw [← o1] at t1
  refine ⟨ra, dec, (aopTopo rap dap p).2, t2, t3, t1, k1, ?_, ?_, ?_⟩
  · rw [C56_hour_angle_azimuth hp o3, k1]
  · rw [(C56_types [] 'R' o.rob o.dob p).1 (Or.inl rfl)]
    rw [C56_hour_angle_azimuth (az := o.aob) (z := o.zob) hp ?_, k1]
    have : SameAngle (p.st - o.rob) o.hob := by
      obtain ⟨k, hk⟩ := o5
      exact ⟨-k, by rw [hk]; push_cast; ring⟩
    rw [dir_same this]
    exact o3
  · have := round_trip_core hp.diurab k5 (horizon_dist k4 t1) k6
    rwa [dir_turn] at this

/-- palRefz keeps directions on their side of the zenith. -/
theorem refz_nonneg {a b zu : ℝ} (h : RealisticConstants a b) (h0 : 0 ≤ zu) (hz : zu ≤ arctan 4) : 0 ≤ palRefz zu a b := by
  have hzabs : |zu| ≤ arctan 4 := by rwa [abs_of_nonneg h0]
  have hn := newton4 h hzabs
  dsimp only at hn
  have h41 : arctan 4 ≤ arctan 4.1 := arctan_strictMono.monotone (by norm_num)
  rw [refz_low (hz.trans arctan_4_83)]
  have hc : ∀ x, |x| ≤ arctan 4.1 → 0 < cos x ∧ |tan x| ≤ 17.81 * |x| ∧ |a * tan x + b * tan x ^ 3| ≤ 4.17e-4 * |tan x| ∧ 0.99 ≤ unrefractD a b x := by
    intro x hx
    have hreg := arctan_region hx
    refine ⟨hreg.2, ?_, ?_, ?_⟩
    · have := tan_lip (T := 4.1) (x := 0) (y := x) (by rw [abs_zero]; exact arctan_nonneg.2 (by norm_num)) hx
      rw [tan_zero, sub_zero, sub_zero] at this
      norm_num at *
      linarith
    · have e : a * tan x + b * tan x ^ 3 = (a + b * tan x ^ 2) * tan x := by ring
      rw [e, abs_mul]
      apply mul_le_mul_of_nonneg_right _ (abs_nonneg _)
      have ht2 : tan x ^ 2 ≤ 16.81 := by
        have := pow_le_pow_left₀ (abs_nonneg _) hreg.1 2
        rw [sq_abs] at this
        norm_num at *; linarith
      have hb := h.b_abs
      calc |a + b * tan x ^ 2| ≤ |a| + |b * tan x ^ 2| := abs_add_le _ _
        _ ≤ 4e-4 + 1e-6 * 16.81 := by
          rw [abs_of_nonneg h.a_nonneg, abs_mul, abs_of_nonneg (sq_nonneg (tan x))]
          exact add_le_add h.a_le (mul_le_mul hb ht2 (sq_nonneg _) (by norm_num))
        _ ≤ 4.17e-4 := by norm_num
    · have := (abs_le.1 (near4 h x hx)).1
      norm_num at *; linarith
  have hzu41 : |zu| ≤ arctan 4.1 := hzabs.trans h41
  obtain ⟨c1, t1, s1, D1⟩ := hc zu hzu41
  have hz1 : |zu - refzStep zu a b zu| ≤ arctan 4.1 := by
    have h1 := abs_add_le zu (zu - refzStep zu a b zu - zu)
    rw [show zu + (zu - refzStep zu a b zu - zu) = zu - refzStep zu a b zu by ring] at h1
    have h2 := hn.1
    have h3 := sep4
    norm_num at *
    linarith
  obtain ⟨c2, t2, s2, D2⟩ := hc _ hz1
  have hstep1 : |refzStep zu a b zu| ≤ 0.0076 * zu := by
    rw [refzStep_eq _ _ _ c1.ne']
    have e : unrefract a b zu - zu = a * tan zu + b * tan zu ^ 3 := by unfold unrefract; ring
    rw [e, abs_div, abs_of_pos (lt_of_lt_of_le (by norm_num) D1), div_le_iff₀ (lt_of_lt_of_le (by norm_num) D1)]
    rw [abs_of_nonneg h0] at t1
    calc _ ≤ 4.17e-4 * (17.81 * zu) := s1.trans (mul_le_mul_of_nonneg_left t1 (by norm_num))
      _ ≤ 0.0076 * zu * 0.99 := by nlinarith
      _ ≤ _ := mul_le_mul_of_nonneg_left D1 (by nlinarith)
  set z1 := zu - refzStep zu a b zu with hz1def
  have hd1 : |z1 - zu| ≤ 0.0076 * zu := by
    rw [hz1def, show zu - refzStep zu a b zu - zu = -refzStep zu a b zu by ring, abs_neg]; exact hstep1
  have hz1le : |z1| ≤ 1.01 * zu := by
    have := abs_add_le zu (z1 - zu)
    rw [show zu + (z1 - zu) = z1 by ring, abs_of_nonneg h0] at this
    nlinarith
  have hstep2 : |refzStep zu a b z1| ≤ 0.02 * zu := by
    rw [refzStep_eq _ _ _ c2.ne']
    have e : unrefract a b z1 - zu = (z1 - zu) + (a * tan z1 + b * tan z1 ^ 3) := by unfold unrefract; ring
    rw [e, abs_div, abs_of_pos (lt_of_lt_of_le (by norm_num) D2), div_le_iff₀ (lt_of_lt_of_le (by norm_num) D2)]
    calc _ ≤ |z1 - zu| + |a * tan z1 + b * tan z1 ^ 3| := abs_add_le _ _
      _ ≤ 0.0076 * zu + 4.17e-4 * (17.81 * (1.01 * zu)) := by
        refine add_le_add hd1 (s2.trans (mul_le_mul_of_nonneg_left (t2.trans (mul_le_mul_of_nonneg_left hz1le (by norm_num))) (by norm_num)))
      _ ≤ 0.02 * zu * 0.99 := by nlinarith
      _ ≤ _ := mul_le_mul_of_nonneg_left D2 (by nlinarith)
  have a1 := abs_le.1 hd1
  have a2 := abs_le.1 hstep2
  nlinarith [a1.1, a2.2]

/-- cos 75° = (√6 - √2)/4 ≥ 0.258. -/
theorem cos75 : 0.258 ≤ cos (75 * (π / 180)) := by
  have e : 75 * (π / 180) = π / 2 - π / 12 := by ring
  rw [e, cos_pi_div_two_sub]
  have hp := pi_gt_d4
  have h1 : (0.2617 : ℝ) ≤ π / 12 := by norm_num at *; linarith
  have h2 : (0 : ℝ) < π / 12 := by positivity
  have h3 : π / 12 ≤ 0.2618 := by have := pi_lt_d4; norm_num at *; linarith
  have := sin_gt_sub_cube h2
  have h4 : (π / 12) ^ 3 ≤ 0.2618 ^ 3 := pow_le_pow_left₀ h2.le h3 3
  norm_num at *
  linarith

theorem deg75 : 75 * (π / 180) ≤ arctan 4 := by
  have h := Real.arctan_inv_of_pos (x := 4) (by norm_num)
  have h2 : arctan (4⁻¹ : ℝ) ≤ 4⁻¹ := by
    have hp : (0 : ℝ) ≤ arctan (4⁻¹) := arctan_nonneg.2 (by norm_num)
    have := Real.le_tan hp (arctan_lt_pi_div_two _)
    rwa [Real.tan_arctan] at this
  have hp := pi_gt_d4
  norm_num at *
  linarith

/-- **C81** (self-consistency to 1 microarcsecond) With realistic refraction constants and the diurnal aberration of a terrestrial observatory, palOapqk undoes palAopqk to better than
a microarcsecond for every source whose topocentric zenith distance is at most 75 degrees, whichever of the three kinds of observed coordinates is used. -/
theorem C81_quick_round_trip_partial {rap dap : ℝ} {p : Aoprms} (hp : ParamsOk p) (hA : RealisticConstants p.refa p.refb) (hd : |p.diurab| ≤ 1.6e-6)
    (hz : cos (75 * (π / 180)) ≤ dot (unit (moving p.diurab (p.st - rap) dap)) (zenithAxis p.phi)) :
    ∃ o ra dec, palAopqk rap dap p = some o ∧ palOapqk ['A'] o.aob o.zob p = some (ra, dec) ∧ palOapqk ['H'] o.hob o.dob p = some (ra, dec) ∧
      palOapqk ['R'] o.rob o.dob p = some (ra, dec) ∧ len (fun i => dir ra dec i - dir rap dap i) < 1e-6 * arcsec := by
  obtain ⟨o, z₀, ho, h0, h1, -, hh, hfast, -⟩ := C56_aopqk rap dap p hp
  have hpi := pi_pos
  have hz75 : z₀ ≤ 75 * (π / 180) := by
    by_contra hcon
    push Not at hcon
    have := cos_lt_cos_of_nonneg_of_le_pi (by positivity) h1 hcon
    rw [hh.2.2] at hz
    linarith
  have hz4 : z₀ ≤ arctan 4 := hz75.trans deg75
  have hn := newton4 (zu := z₀) hA (by rwa [abs_of_nonneg h0])
  dsimp only at hn
  have hzob0 := refz_nonneg hA h0 hz4
  have hrefz := refz_low (a := p.refa) (b := p.refb) (hz4.trans arctan_4_83)
  have hnear : palRefz z₀ p.refa p.refb ≤ z₀ + 0.002 := by
    rw [hrefz]
    have a1 := (abs_le.1 hn.1).2
    have a2 := (abs_le.1 hn.2.1).2
    norm_num at *
    linarith
  have hcosz : 0.242535625 ≤ cos (palRefz z₀ p.refa p.refb) := by
    have hq : palRefz z₀ p.refa p.refb ≤ 75 * (π / 180) + 0.002 := by linarith
    have hp4 := pi_gt_d4
    have hp5 := pi_lt_d4
    have h2 : cos (75 * (π / 180) + 0.002) ≤ cos (palRefz z₀ p.refa p.refb) :=
      cos_le_cos_of_nonneg_of_le_pi hzob0 (by norm_num at *; linarith) hq
    have h3 : cos (75 * (π / 180)) - 0.002 ≤ cos (75 * (π / 180) + 0.002) := by
      have := Convex.norm_image_sub_le_of_norm_hasDerivWithin_le (f := cos) (f' := fun x => -sin x) (C := 1) (s := Set.univ)
        (x := 75 * (π / 180)) (y := 75 * (π / 180) + 0.002) (fun x _ => (hasDerivAt_cos x).hasDerivWithinAt)
        (fun x _ => by rw [norm_neg]; exact abs_sin_le_one x) convex_univ (Set.mem_univ _) (Set.mem_univ _)
      rw [Real.norm_eq_abs, Real.norm_eq_abs, show 75 * (π / 180) + 0.002 - 75 * (π / 180) = (0.002 : ℝ) by ring] at this
      have h5 := (abs_le.1 this).1
      rw [abs_of_pos (by norm_num)] at h5
      linarith
    have h4 := cos75
    norm_num at *
    linarith
  have hzob := hfast hcosz
  have hres : |vacuumZd p o.zob - z₀| ≤ 4e-15 := by
    unfold vacuumZd
    rw [hzob, if_pos hcosz]
    exact (C54_inverts_model hA).2 (by rwa [abs_of_nonneg h0])
  obtain ⟨ra, dec, z', g1, g2, g3, k1, k2, k3, k4⟩ := C56_round_trip hp ho (by rw [hzob]; exact hzob0) (by
    rw [hzob]
    have := pi_gt_three
    norm_num at *
    linarith)
  have hzz : z' = z₀ := by
    have : cos z' = cos z₀ := by rw [← g3.2.2, ← hh.2.2]
    exact injOn_cos ⟨g1, g2⟩ ⟨h0, h1⟩ this
  rw [hzz] at k4
  refine ⟨o, ra, dec, ho, k1, k2, k3, lt_of_le_of_lt k4 ?_⟩
  have hd0 := abs_nonneg p.diurab
  set d := |p.diurab| with hddef
  have hd1 : d ≤ 1e-5 := hd.trans (by norm_num)
  have hq : (1 + d) / (1 - d) ≤ 1.0001 := by
    rw [div_le_iff₀ (by norm_num at *; linarith)]
    norm_num at *; linarith
  have h2 : p.diurab ^ 2 / (1 - d) ≤ 2.57e-12 := by
    rw [← sq_abs, ← hddef, div_le_iff₀ (by norm_num at *; linarith)]
    have : d ^ 2 ≤ 1.6e-6 ^ 2 := pow_le_pow_left₀ hd0 hd 2
    norm_num at *; linarith
  have h3 : |vacuumZd p o.zob - z₀| + p.diurab ^ 2 / (1 - d) ≤ 2.575e-12 := by
    refine (add_le_add hres h2).trans (by norm_num)
  have h4 : 0 ≤ (1 + d) / (1 - d) := div_nonneg (by linarith) (by norm_num at *; linarith)
  calc _ ≤ 2.575e-12 * 1.0001 := mul_le_mul h3 hq h4 (by norm_num)
    _ < _ := by
      unfold arcsec
      have := pi_gt_d4
      norm_num at *
      linarith

/-- A zenith source seen from the equator by an observer at rest meets the hypotheses. -/
example : ∃ p : Aoprms, ParamsOk p ∧ RealisticConstants p.refa p.refb ∧ |p.diurab| ≤ 1.6e-6 ∧
    cos (75 * (π / 180)) ≤ dot (unit (moving p.diurab (p.st - 1) 0)) (zenithAxis p.phi) := by
  refine ⟨⟨0, 0, 1, 0, 0, 280, 1000, 0.5, 0.5, 0.0065, 2.9e-4, -3e-7, 0, 1⟩, ⟨by simp, by simp, by simp⟩, ⟨by norm_num, by norm_num, by norm_num⟩, by norm_num, ?_⟩
  have e : moving 0 (1 - 1) 0 = ![1, 0, 0] := by
    funext i; fin_cases i <;> simp [moving, dir]
  have l : len (![1, 0, 0] : Fin 3 → ℝ) = 1 := len_one (by simp [dot_eq])
  show cos (75 * (π / 180)) ≤ dot (unit (moving 0 (1 - 1) 0)) (zenithAxis 0)
  rw [e]
  simp [unit, l, dot_eq, zenithAxis, cos_le_one]

/-- **C56** (no atmosphere) With zero pressure and zero refraction constants the observed zenith distance is the topocentric one at every zenith distance, and the round trip is exact but
for the second-order diurnal aberration, also below the horizon (except exactly at the nadir). -/
theorem C56_no_atmosphere {rap dap : ℝ} {p : Aoprms} {o : Observed} (hp : ParamsOk p) (hA : p.refa = 0) (hB : p.refb = 0) (hpm : p.pmb ≤ 0)
    (h : palAopqk rap dap p = some o) :
    Horizon p.phi (unit (moving p.diurab (p.st - rap) dap)) o.aob o.zob ∧
    (o.zob ≠ π → ∃ ra dec, palOapqk ['A'] o.aob o.zob p = some (ra, dec) ∧ palOapqk ['H'] o.hob o.dob p = some (ra, dec) ∧ palOapqk ['R'] o.rob o.dob p = some (ra, dec) ∧
      len (fun i => dir ra dec i - dir rap dap i) ≤ p.diurab ^ 2 / (1 - |p.diurab|) * ((1 + |p.diurab|) / (1 - |p.diurab|))) := by
  have hR : ∀ z, observerRefr p z = 0 := by
    intro z
    have h1 := observerRefr_spec p z
    rw [C51_vacuum _ _ _ _ _ _ _ _ _ hpm] at h1
    exact (Option.some.inj h1).symm
  have hV : ∀ z, vacuumZd p z = z := by
    intro z
    unfold vacuumZd unrefract
    rw [hA, hB, hR]
    split_ifs <;> ring
  obtain ⟨o', z₀, ho, h0, h1, -, hh, hfast, hslow⟩ := C56_aopqk rap dap p hp
  rw [h] at ho
  cases ho
  have hzob : o.zob = z₀ := by
    rw [hA, hB, C54_no_atmosphere] at hfast hslow
    by_cases hc : (0.242535625 : ℝ) ≤ cos z₀
    · exact hfast hc
    · obtain ⟨k, k1, k2, k3, -⟩ := hslow (not_le.1 hc)
      rw [k3]
      simp only [hR, sub_zero]
      obtain ⟨m, rfl⟩ : ∃ m, k = m + 1 := ⟨k - 1, by omega⟩
      rw [Function.iterate_succ_apply']
  rw [hzob]
  refine ⟨hh, fun hne => ?_⟩
  obtain ⟨ra, dec, z', g1, g2, g3, k1, k2, k3, k4⟩ := C56_round_trip hp h (by rw [hzob]; exact h0) (by rw [hzob]; exact lt_of_le_of_ne h1 hne)
  have hzz : z' = z₀ := by
    have : cos z' = cos z₀ := by rw [← g3.2.2, ← hh.2.2]
    exact injOn_cos ⟨g1, g2⟩ ⟨h0, h1⟩ this
  rw [hV, hzob, hzz, sub_self, abs_zero, zero_add] at k4
  rw [hzob] at k1
  exact ⟨ra, dec, k1, k2, k3, k4⟩

theorem observerRefr_const (p : Aoprms) {z : ℝ} (h1 : 1.623156204 ≤ z) (h2 : z ≤ π) : observerRefr p z = observerRefr p 1.623156204 := by
  have hp := pi_gt_d4
  have key : ∀ x : ℝ, 1.623156204 ≤ x → x ≤ π → palDrange x = x ∧ min |x| 1.623156204 = 1.623156204 ∧ ¬ x < 0 := by
    intro x a b
    have hx0 : 0 ≤ x := le_trans (by norm_num) a
    have hx : |x| ≤ π := by rw [abs_of_nonneg hx0]; exact b
    exact ⟨palDrange_eq hx, by rw [abs_of_nonneg hx0]; exact min_eq_right a, not_lt.2 hx0⟩
  have e := observerRefr_spec p z
  have e' := observerRefr_spec p 1.623156204
  obtain ⟨k1, k2, k3⟩ := key z h1 h2
  obtain ⟨l1, l2, l3⟩ := key 1.623156204 le_rfl (by norm_num at *; linarith)
  unfold palRefro at e e'
  dsimp only at e e'
  rw [k1, k2] at e
  rw [l1, l2] at e'
  simp only [if_neg k3] at e
  simp only [if_neg l3] at e'
  rw [e] at e'
  exact Option.some.inj e'

/-- **C81** (below the horizon) Where palRefro holds the refraction fixed (observed zenith distance from 1.623156204 rad, 93 degrees, to the nadir), R being that fixed value, the observed
zenith distance is exactly the topocentric one less R and the round trip is again exact but for the second-order diurnal aberration. -/
theorem C81_below_horizon_partial {rap dap z₀ : ℝ} {p : Aoprms} {o : Observed} (hp : ParamsOk p) (h : palAopqk rap dap p = some o) (h0 : 0 ≤ z₀) (h1 : z₀ ≤ π)
    (hz : Horizon p.phi (unit (moving p.diurab (p.st - rap) dap)) o.aob z₀)
    (hs1 : 1.623156204 ≤ palRefz z₀ p.refa p.refb) (hs2 : palRefz z₀ p.refa p.refb ≤ π)
    (hr1 : 1.623156204 ≤ z₀ - observerRefr p 1.623156204) (hr2 : z₀ - observerRefr p 1.623156204 < π) :
    o.zob = z₀ - observerRefr p 1.623156204 ∧
    ∃ ra dec, palOapqk ['A'] o.aob o.zob p = some (ra, dec) ∧ palOapqk ['H'] o.hob o.dob p = some (ra, dec) ∧ palOapqk ['R'] o.rob o.dob p = some (ra, dec) ∧
      len (fun i => dir ra dec i - dir rap dap i) ≤ p.diurab ^ 2 / (1 - |p.diurab|) * ((1 + |p.diurab|) / (1 - |p.diurab|)) := by
  have hpi := pi_lt_d4
  have hcos : ∀ x : ℝ, 1.623156204 ≤ x → x ≤ π → cos x < 0.242535625 := by
    intro x a b
    have : cos x ≤ 0 := cos_nonpos_of_pi_div_two_le_of_le (by norm_num at *; linarith) (by linarith)
    exact lt_of_le_of_lt this (by norm_num)
  obtain ⟨o', z', ho, g0, g1, -, hh, -, hslow⟩ := C56_aopqk rap dap p hp
  rw [h] at ho
  cases ho
  have hzz : z' = z₀ := by
    have : cos z' = cos z₀ := by rw [← hh.2.2, ← hz.2.2]
    exact injOn_cos ⟨g0, g1⟩ ⟨h0, h1⟩ this
  rw [hzz] at hslow
  obtain ⟨k, k1, -, k3, -⟩ := hslow (hcos _ hs1 hs2)
  set R := observerRefr p 1.623156204 with hR
  have hiter : ∀ m, (fun z => z₀ - observerRefr p z)^[m + 1] (palRefz z₀ p.refa p.refb) = z₀ - R := by
    intro m
    induction m with
    | zero => exact congrArg (z₀ - ·) (observerRefr_const p hs1 hs2)
    | succ m ih =>
      rw [Function.iterate_succ_apply', ih]
      exact congrArg (z₀ - ·) (observerRefr_const p hr1 hr2.le)
  obtain ⟨m, rfl⟩ : ∃ m, k = m + 1 := ⟨k - 1, by omega⟩
  rw [hiter] at k3
  refine ⟨k3, ?_⟩
  obtain ⟨ra, dec, z'', a1, a2, a3, b1, b2, b3, b4⟩ := C56_round_trip hp h (by rw [k3]; exact le_trans (by norm_num) hr1) (by rw [k3]; exact hr2)
  have hz2 : z'' = z₀ := by
    have : cos z'' = cos z₀ := by rw [← a3.2.2, ← hz.2.2]
    exact injOn_cos ⟨a1, a2⟩ ⟨h0, h1⟩ this
  have hv : vacuumZd p o.zob = z₀ := by
    unfold vacuumZd
    rw [k3, if_neg (not_le.2 (hcos _ hr1 hr2.le)), observerRefr_const p hr1 hr2.le]
    ring
  rw [hv, hz2, sub_self, abs_zero, zero_add] at b4
  exact ⟨ra, dec, b1, b2, b3, b4⟩

/-- The hypotheses are met, for instance, by a source at topocentric zenith distance 3 (172 degrees) seen through a vacuum. -/
example : ∃ (p : Aoprms) (rap dap z₀ : ℝ), ParamsOk p ∧ 0 ≤ z₀ ∧ z₀ ≤ π ∧ (∃ az, Horizon p.phi (unit (moving p.diurab (p.st - rap) dap)) az z₀) ∧ 1.623156204 ≤ palRefz z₀ p.refa p.refb ∧
    palRefz z₀ p.refa p.refb ≤ π ∧ 1.623156204 ≤ z₀ - observerRefr p 1.623156204 ∧ z₀ - observerRefr p 1.623156204 < π := by
  have hpi := pi_gt_three
  have hR : ∀ z, observerRefr ⟨0, 0, 1, 0, 0, 280, 0, 0.5, 0.5, 0.0065, 0, 0, 0, 3⟩ z = 0 := by
    intro z
    have h1 := observerRefr_spec ⟨0, 0, 1, 0, 0, 280, 0, 0.5, 0.5, 0.0065, 0, 0, 0, 3⟩ z
    rw [C51_vacuum _ _ _ _ _ _ _ _ _ (le_refl (0 : ℝ))] at h1
    exact (Option.some.inj h1).symm
  have e : moving 0 (3 - 0) 0 = ![cos 3, sin 3, 0] := by
    funext i; fin_cases i <;> simp [moving, dir]
  have l : len (![cos 3, sin 3, 0] : Fin 3 → ℝ) = 1 := len_one (by simp only [dot_eq, Matrix.cons_val_zero, Matrix.cons_val_one, Matrix.cons_val]; have := sin_sq_add_cos_sq 3; linarith)
  refine ⟨⟨0, 0, 1, 0, 0, 280, 0, 0.5, 0.5, 0.0065, 0, 0, 0, 3⟩, 0, 0, 3, ⟨by simp, by simp, by simp⟩, by norm_num, hpi.le, ⟨-(π / 2), ?_⟩, ?_, ?_, ?_, ?_⟩
  · show Horizon 0 (unit (moving 0 (3 - 0) 0)) (-(π / 2)) 3
    rw [e]
    refine ⟨?_, ?_, ?_⟩ <;> simp [unit, l, dot_eq, northAxis, eastAxis, zenithAxis]
  · show 1.623156204 ≤ palRefz 3 0 0
    rw [C54_no_atmosphere]; norm_num
  · show palRefz 3 0 0 ≤ π
    rw [C54_no_atmosphere]; linarith
  · rw [hR]; norm_num
  · rw [hR]; linarith

end Pal.Props
