import Verif.Lemmas.Pertue
import Verif.Props.OrbitEl
import Verif.Props.OrbitPv

/-!
# Perturbed motion: palPertue and palPertel (C63, C64, C65)
-/

namespace Pal.Props
open Real Pal.Spec Pal.Pertue

theorem pv2ue_more {pv : PV} {date pmass : ℝ} {u u' : Univ} (h : palPv2ue pv date pmass u = (u', 0)) :
    u'.t = date ∧ u'.psi = 0 ∧ 1 / 10 ^ 3 ≤ len u'.p0 := by
  obtain ⟨-, -, -, hp, -⟩ := C61_elements pv date pmass u u' h
  rw [hp, ← norm3_eq]
  unfold palPv2ue at h
  split at h
  · cases h
  dsimp only at h
  split at h
  · cases h
  rename_i h1
  split at h
  · cases h
  cases h
  exact ⟨rfl, rfl, not_lt.mp h1⟩

private theorem ue2el_epoch {u : Univ} {jform : ℤ} {el el' : Elems} (h : palUe2el u jform el = some (el', 0)) (hj : el'.jform ≠ 3) : el'.epoch = u.t0 := by
  unfold palUe2el palPv2el at h
  split at h
  · cases h
  split at h
  · cases h
  dsimp only at h
  split at h
  · cases h
  generalize orbitQ _ _ _ = q at h
  generalize hjf : (if q.ecc > 1 then 3 else jform) = jf at h
  split at h
  · cases h
  split at h
  · cases h
  cases h
  dsimp only at hj ⊢
  rw [if_pos hj]

/-- `Passes P fwd date n s r`: started in the state s, the loop over time ends with r after n passes. -/
inductive Passes (P : PertTheory) (fwd : Bool) (date : ℝ) : ℕ → Pert → Except PErr Pert → Prop
  | stop (s : Pert) : ¬ fbOf fwd * (date - s.t0 - s.rtn) > 0 → Passes P fwd date 0 s (.ok s)
  | fail (s : Pert) (e : PErr) : fbOf fwd * (date - s.t0 - s.rtn) > 0 → pertStep P fwd date s = .error e → Passes P fwd date 1 s (.error e)
  | next (s s' : Pert) (n : ℕ) (r : Except PErr Pert) : fbOf fwd * (date - s.t0 - s.rtn) > 0 → pertStep P fwd date s = .ok s' → Passes P fwd date n s' r →
      Passes P fwd date (n + 1) s r

private theorem passes_aux (P : PertTheory) (fwd : Bool) (date : ℝ) : ∀ (n : ℕ) (s : Pert), ⌈100 * (fbOf fwd * (date - s.t0 - s.rtn))⌉₊ ≤ n →
    ∃ m ≤ n, Passes P fwd date m s (pertLoop P fwd date s) := by
  intro n
  induction n with
  | zero =>
    intro s hn
    have hc : ¬ fbOf fwd * (date - s.t0 - s.rtn) > 0 := by
      intro hc
      have := Nat.ceil_pos.mpr (show 0 < 100 * (fbOf fwd * (date - s.t0 - s.rtn)) by linarith)
      omega
    exact ⟨0, le_rfl, by rw [loop_done hc]; exact .stop s hc⟩
  | succ n ih =>
    intro s hn
    by_cases hc : fbOf fwd * (date - s.t0 - s.rtn) > 0
    · cases hs : pertStep P fwd date s with
      | error e => exact ⟨1, by omega, by rw [loop_err hc hs]; exact .fail s e hc hs⟩
      | ok s1 =>
        have := pert_decreases hc hs
        obtain ⟨m, hm, hp⟩ := ih s1 (by omega)
        exact ⟨m + 1, by omega, by rw [loop_next hc hs]; exact .next s s1 m _ hc hs hp⟩
    · exact ⟨0, by omega, by rw [loop_done hc]; exact .stop s hc⟩

private theorem fb_abs (x : ℝ) : fbOf (decide (0 ≤ x)) * x = |x| := by
  by_cases h : 0 ≤ x
  · simp [fbOf, h, abs_of_nonneg h]
  · simp [fbOf, h, abs_of_neg (not_le.mp h)]

/-- C63: palPertue terminates, whatever the elements, the date and the planets do: it makes at most one pass for each hundredth of a day, or part of it, between the
epoch of the elements and the date asked for. -/
theorem C63_terminates (P : PertTheory) (date : ℝ) (u : Univ) (up0 : Fin 8 → Univ) (pvin0 : Fin 8 → PV) (fd0 : Vec3) :
    ∃ n ≤ ⌈100 * |date - u.t0|⌉₊, Passes P (decide (0 ≤ date - u.t0)) date n (pertInit date u up0 pvin0 fd0)
      (pertLoop P (decide (0 ≤ date - u.t0)) date (pertInit date u up0 pvin0 fd0)) := by
  refine passes_aux P _ date _ _ ?_
  have : fbOf (decide (0 ≤ date - u.t0)) * (date - (pertInit date u up0 pvin0 fd0).t0 - (pertInit date u up0 pvin0 fd0).rtn) = |date - u.t0| := by
    rw [← fb_abs]
    simp [pertInit]
  rw [this]

/-- C63: the arrays that palPertue does not initialise have no influence on its results. -/
theorem C63_uninitialised (P : PertTheory) (date : ℝ) (u : Univ) (up0 up1 : Fin 8 → Univ) (pvin0 pvin1 : Fin 8 → PV) (fd0 fd1 : Vec3) :
    palPertue P date u up0 pvin0 fd0 = palPertue P date u up1 pvin1 fd1 := by
  unfold palPertue
  set fwd := decide (0 ≤ date - u.t0) with hf
  by_cases hc : fbOf fwd * (date - u.t0 - 0) > 0
  · have hs : pertStep P fwd date (pertInit date u up0 pvin0 fd0) = pertStep P fwd date (pertInit date u up1 pvin1 fd1) := by
      unfold pertStep
      have hts : pertTs fwd date (pertInit date u up0 pvin0 fd0) = pertTs fwd date (pertInit date u up1 pvin1 fd1) := rfl
      dsimp only
      rw [hts]
      have e1 : (pertInit date u up0 pvin0 fd0).t0 = (pertInit date u up1 pvin1 fd1).t0 := rfl
      have e2 : (pertInit date u up0 pvin0 fd0).rtn = (pertInit date u up1 pvin1 fd1).rtn := rfl
      rw [e1, e2]
      generalize (pertInit date u up1 pvin1 fd1).t0 + (pertInit date u up1 pvin1 fd1).rtn + pertTs fwd date (pertInit date u up1 pvin1 fd1) / 2 = t
      generalize pertTs fwd date (pertInit date u up1 pvin1 fd1) = ts
      unfold pertEls
      dsimp only
      rw [if_pos (show (pertInit date u up0 pvin0 fd0).first = true ∨ _ from Or.inl rfl), if_pos (show (pertInit date u up1 pvin1 fd1).first = true ∨ _ from Or.inl rfl)]
      have hg : (fun np : Fin 8 => planetEls P.plan94 (t + fbOf fwd * 50) ((pertInit date u up0 pvin0 fd0).up np) ((np.val : ℤ) + 1)) =
          (fun np => planetEls P.plan94 (t + fbOf fwd * 50) ((pertInit date u up1 pvin1 fd1).up np) ((np.val : ℤ) + 1)) := by
        funext np; exact planetEls_junk _ _ _ _ _
      rw [hg]
      cases gather (fun np : Fin 8 => planetEls P.plan94 (t + fbOf fwd * 50) ((pertInit date u up1 pvin1 fd1).up np) ((np.val : ℤ) + 1)) with
      | error e => rfl
      | ok g =>
        dsimp only
        unfold pertMotions
        dsimp only
        rw [if_pos (show (pertInit date u up0 pvin0 fd0).first = true ∨ _ from Or.inl rfl), if_pos (show (pertInit date u up1 pvin1 fd1).first = true ∨ _ from Or.inl rfl)]
        have hg2 : (fun np : Fin 8 => planetMotion (t + fbOf fwd * 5) (g np).1 ((pertInit date u up0 pvin0 fd0).pvin np)) =
            (fun np => planetMotion (t + fbOf fwd * 5) (g np).1 ((pertInit date u up1 pvin1 fd1).pvin np)) := by
          funext np; exact planetMotion_junk _ _ _ _
        rw [hg2]
        cases gather (fun np : Fin 8 => planetMotion (t + fbOf fwd * 5) (g np).1 ((pertInit date u up1 pvin1 fd1).pvin np)) with
        | error e => rfl
        | ok g2 => rfl
    have hl : pertLoop P fwd date (pertInit date u up0 pvin0 fd0) = pertLoop P fwd date (pertInit date u up1 pvin1 fd1) := by
      cases h0 : pertStep P fwd date (pertInit date u up0 pvin0 fd0) with
      | error e => rw [loop_err hc h0, loop_err hc (hs ▸ h0)]
      | ok s =>
        have h1 : pertStep P fwd date (pertInit date u up1 pvin1 fd1) = .ok s := hs ▸ h0
        rw [loop_next (s := pertInit date u up0 pvin0 fd0) hc h0, loop_next (s := pertInit date u up1 pvin1 fd1) hc h1]
    rw [hl]
  · rw [loop_done hc, loop_done hc]
    rfl

/-- C63: if the date asked for is the epoch of the elements, nothing changes and the status is 0. -/
theorem C63_no_time (P : PertTheory) (u : Univ) (up0 : Fin 8 → Univ) (pvin0 : Fin 8 → PV) (fd0 : Vec3) : palPertue P u.t0 u up0 pvin0 fd0 = some (u, 0) := by
  unfold palPertue
  have hc : ¬ fbOf (decide (0 ≤ u.t0 - u.t0)) * (u.t0 - (pertInit u.t0 u up0 pvin0 fd0).t0 - (pertInit u.t0 u up0 pvin0 fd0).rtn) > 0 := by simp [pertInit]
  rw [loop_done hc]
  simp [pertInit]

private theorem jstat_els {plan94 : ℝ → ℝ → ℤ → PV × ℤ} {fwd : Bool} {t : ℝ} {s s' : Pert} (h : pertEls plan94 fwd t s = .ok s') : s'.jstat = s.jstat ∨ s'.jstat = 102 := by
  unfold pertEls at h
  split at h
  · dsimp only at h
    split at h
    · cases h
    · cases h
      dsimp only
      split
      · right; rfl
      · left; rfl
  · cases h; left; rfl

private theorem jstat_rect {fwd : Bool} {tfinal : ℝ} {s s' : Pert} (h : pertRectify fwd tfinal s = .ok s') : s'.jstat = s.jstat ∧ s'.fd = s.fd := by
  unfold pertRectify at h
  split at h
  · dsimp only at h
    split at h
    · cases h
    · split at h
      · cases h
      · split at h
        · cases h
        · cases h; exact ⟨rfl, rfl⟩
  · cases h; exact ⟨rfl, rfl⟩

theorem move_ok {P : PertTheory} {t ts : ℝ} {s s' : Pert} (h : pertMove P t ts s = .ok s') :
    ∃ ul pv0 d, palUe2pv t s.ul ⟨fun _ => 0, fun _ => 0⟩ = some (ul, pv0, 0) ∧ len (pertPos s pv0.p (ts / 2)) ≠ 0 ∧ len pv0.p ≠ 0 ∧
      pertDirect P t s.tpmo s.pvin s.jstat (pertPos s pv0.p (ts / 2)) = some d ∧ s'.ul = ul ∧ s'.jstat = d.jstat ∧ s'.fd = d.fd ∧
      s'.pera = (fun i => (pertIndirect pv0.p (pertPos s pv0.p (ts / 2)) i + d.fd i) * (gcon * gcon)) ∧
      s'.perp = (fun i => s.perp i + (s.perv i + s'.pera i * ts / 2) * ts) ∧ s'.perv = (fun i => s.perv i + s'.pera i * ts) := by
  unfold pertMove at h
  split at h
  · cases h
  · rename_i ul pv0 j hu
    split at h
    · cases h
    · rename_i hj
      dsimp only at h
      split at h
      · cases h
      · rename_i hn
        split at h
        · cases h
        · rename_i d hd
          cases h
          simp only [norm3_eq, not_or] at hn
          rw [not_not] at hj
          subst hj
          exact ⟨ul, pv0, d, hu, hn.1, hn.2, hd, rfl, rfl, rfl, rfl, rfl, rfl⟩

/-- The positions palPertue uses for the perturbing bodies, by number: 1-8 the planets (3 the Earth-Moon barycentre), 9 the Earth. -/
noncomputable def bodyAt (P : PertTheory) (t tpmo : ℝ) (pvin : Fin 8 → PV) (np : ℕ) : Vec3 :=
  if np ≤ 8 then planetAt (pvin (Fin.ofNat 8 (np - 1))) (t - tpmo) else (palEpv P.epv00 t).ph

theorem direct_spec {P : PertTheory} {t tpmo : ℝ} {pvin : Fin 8 → PV} {jstat : ℤ} {pos : Vec3} {d : Direct} (h : pertDirect P t tpmo pvin jstat pos = some d)
    (near : Prop) [Decidable near] (hn : near ↔ len (fun k => bodyAt P t tpmo pvin 3 k - pos k) < 1) :
    (∀ i, d.fd i = ∑ m ∈ Finset.Icc 1 9, (open Classical in
      if (m ≤ 8 ∨ near) ∧ ¬ (near ∧ m = 3) ∧ 1 / 10 ^ 4 ≤ len (fun k => bodyAt P t tpmo pvin m k - pos k) then tidal (amas m) pos (bodyAt P t tpmo pvin m) i else 0)) ∧
    ((d.jstat = jstat ∧ ∀ m ∈ Finset.Icc 1 9, (m ≤ 8 ∨ near) ∧ ¬ (near ∧ m = 3) → 1 / 10 ^ 4 ≤ len (fun k => bodyAt P t tpmo pvin m k - pos k)) ∨
      ∃ m : ℕ, m ∈ Finset.Icc 1 9 ∧ m ≠ 3 ∧ (m ≤ 8 ∨ near) ∧ len (fun k => bodyAt P t tpmo pvin m k - pos k) < 1 / 10 ^ 4 ∧ d.jstat = m) := by
  unfold pertDirect pertNBodies at h
  have hico : Finset.Ico 1 (1 + 9) = Finset.Icc 1 9 := by decide
  obtain ⟨-, h2, h3⟩ := bodies_spec pos (fun np => planetAt (pvin (Fin.ofNat 8 (np - 1))) (t - tpmo)) _ _ near hn
    (fun m => if m ≤ 8 then planetAt (pvin (Fin.ofNat 8 (m - 1))) (t - tpmo) else if m = 9 then (palEpv P.epv00 t).ph
      else fun i => eraRxp (palPrec P.T (palEpjR t) 2000) (P.dmoon t).p i + (palEpv P.epv00 t).ph i) (fun m => rfl) 9 1 _ d le_rfl (by simp) h
  rw [hico] at h2 h3
  have hb : ∀ m ∈ Finset.Icc 1 9, (if m ≤ 8 then planetAt (pvin (Fin.ofNat 8 (m - 1))) (t - tpmo) else if m = 9 then (palEpv P.epv00 t).ph
      else fun i => eraRxp (palPrec P.T (palEpjR t) 2000) (P.dmoon t).p i + (palEpv P.epv00 t).ph i) = bodyAt P t tpmo pvin m := by
    intro m hm
    have := (Finset.mem_Icc.mp hm).2
    unfold bodyAt
    by_cases h8 : m ≤ 8
    · rw [if_pos h8, if_pos h8]
    · rw [if_neg h8, if_neg h8, if_pos (by omega)]
  refine ⟨?_, ?_⟩
  · intro i
    rw [h2 i, zero_add]
    refine Finset.sum_congr rfl (fun m hm => ?_)
    rw [hb m hm]
    unfold Taken
    simp only [and_assoc]
  · rcases h3 with ⟨a, b⟩ | ⟨m, hm, ⟨a1, a2⟩, b, c, -⟩
    · left
      refine ⟨a, fun m hm ht => ?_⟩
      have := b m hm ht
      rwa [hb m hm] at this
    · right
      rw [hb m hm] at b
      refine ⟨m, hm, ?_, a1, b, c⟩
      intro h3'
      subst h3'
      exact a2 ⟨hn.mpr (lt_trans b (by norm_num)), rfl⟩

/-- The statuses palPertue can return when it does not fail. -/
def GoodStat (j : ℤ) : Prop := j = 0 ∨ j = 101 ∨ j = 102 ∨ (1 ≤ j ∧ j ≤ 9 ∧ j ≠ 3)

private theorem step_stat {P : PertTheory} {fwd : Bool} {tfinal : ℝ} {s s' : Pert} (h : pertStep P fwd tfinal s = .ok s') :
    s'.jstat = s.jstat ∨ s'.jstat = 102 ∨ (1 ≤ s'.jstat ∧ s'.jstat ≤ 9 ∧ s'.jstat ≠ 3) := by
  obtain ⟨s1, s2, s3, h1, h2, h3, h4⟩ := step_ok h
  obtain ⟨ul, pv0, d, -, -, -, hd, -, hj, -⟩ := move_ok h3
  classical
  obtain ⟨-, hs⟩ := direct_spec hd (len (fun k => bodyAt P (s.t0 + s.rtn + pertTs fwd tfinal s / 2) s2.tpmo s2.pvin 3 k - pertPos s2 pv0.p (pertTs fwd tfinal s / 2) k) < 1) Iff.rfl
  have hj4 := (jstat_rect h4).1
  have hj2 := (pertMotions_time h2).2.2.2.2.2.2
  rcases hs with ⟨a, -⟩ | ⟨m, hm, hm3, -, -, a⟩
  · rw [hj4, hj, a, hj2]
    rcases jstat_els h1 with e | e
    · left; exact e
    · right; left; exact e
  · right; right
    rw [hj4, hj, a]
    have := Finset.mem_Icc.mp hm
    refine ⟨by exact_mod_cast this.1, by exact_mod_cast this.2, by exact_mod_cast hm3⟩

/-- C63: whatever the arguments, palPertue returns one of the statuses -1, 0, 1, 2, 4, 5, …, 9, 101, 102; if it is -1, the elements are unchanged.  (Status 3, the
barycentre, and status 10, the Moon, are documented but cannot occur: see C64.) -/
theorem C63_status (P : PertTheory) (date : ℝ) (u u' : Univ) (up0 : Fin 8 → Univ) (pvin0 : Fin 8 → PV) (fd0 : Vec3) (j : ℤ)
    (h : palPertue P date u up0 pvin0 fd0 = some (u', j)) :
    (j = -1 ∧ u' = u) ∨ j = 0 ∨ j = 101 ∨ j = 102 ∨ (1 ≤ j ∧ j ≤ 9 ∧ j ≠ 3) := by
  unfold palPertue at h
  split at h
  · cases h
  · cases h; left; exact ⟨rfl, rfl⟩
  · rename_i s hs
    cases h
    right
    refine (loop_induct (fun s => GoodStat s.jstat) ?_ _ s ?_ hs).1
    · intro s1 s2 hq _ hst
      rcases step_stat hst with e | e | e
      · show GoodStat s2.jstat
        rw [e]; exact hq
      · right; right; left; exact e
      · right; right; right; exact e
    · show GoodStat (if |date - u.t0| > 36525 then 101 else 0)
      split
      · right; left; rfl
      · left; rfl

theorem pert_ok_stat {P : PertTheory} {date : ℝ} {u : Univ} {up0 : Fin 8 → Univ} {pvin0 : Fin 8 → PV} {fd0 : Vec3} {fwd : Bool} {s : Pert}
    (hs : pertLoop P fwd date (pertInit date u up0 pvin0 fd0) = .ok s) : 0 ≤ s.jstat := by
  refine (loop_induct (fun s => 0 ≤ s.jstat) ?_ _ s ?_ hs).1
  · intro s1 s2 hq _ hst
    rcases step_stat hst with e | e | e
    · rw [e]; exact hq
    · rw [e]; norm_num
    · exact le_trans (by norm_num) e.1
  · show 0 ≤ (if |date - u.t0| > 36525 then (101 : ℤ) else 0)
    split <;> norm_num

/-- C63: a timespan of more than 100 years never goes without a warning: status 0 is not returned then.  And status 101 is returned only for such a timespan. -/
theorem C63_long_span (P : PertTheory) (date : ℝ) (u u' : Univ) (up0 : Fin 8 → Univ) (pvin0 : Fin 8 → PV) (fd0 : Vec3) (j : ℤ)
    (h : palPertue P date u up0 pvin0 fd0 = some (u', j)) :
    (36525 < |date - u.t0| → j ≠ 0) ∧ (j = 101 → 36525 < |date - u.t0|) := by
  unfold palPertue at h
  split at h
  · cases h
  · cases h; exact ⟨fun _ => by norm_num, fun hc => absurd hc (by norm_num)⟩
  · rename_i s hs
    cases h
    have h1 := (loop_induct (fun s => (36525 < |date - u.t0| → s.jstat ≠ 0) ∧ (s.jstat = 101 → 36525 < |date - u.t0|)) ?_ _ s ?_ hs).1
    · exact h1
    · intro s1 s2 hq _ hst
      rcases step_stat hst with e | e | ⟨e1, e2, e3⟩
      · rw [e]; exact hq
      · rw [e]; exact ⟨fun _ => by norm_num, fun hc => absurd hc (by norm_num)⟩
      · exact ⟨fun _ => by omega, fun hc => by omega⟩
    · unfold pertInit
      dsimp only
      split
      · rename_i hx
        exact ⟨fun _ => by norm_num, fun _ => hx⟩
      · rename_i hx
        exact ⟨fun hy => absurd hy hx, fun hc => absurd hc (by norm_num)⟩

private theorem rect_ok {fwd : Bool} {tfinal : ℝ} {s s' : Pert} (h : pertRectify fwd tfinal s = .ok s') :
    (s' = s ∧ |s.rtn| < 100 ∧ 0 < fbOf fwd * (tfinal - s.t0 - s.rtn)) ∨
    (s'.rtn = 0 ∧ s'.t0 = s.t0 + s.rtn ∧ s'.perp = (fun _ => 0) ∧ s'.perv = (fun _ => 0) ∧ s'.pera = (fun i => s.fd i * (gcon * gcon)) ∧
      ∃ ul pv0, palUe2pv (s.t0 + s.rtn) s.ul ⟨fun _ => 0, fun _ => 0⟩ = some (ul, pv0, 0) ∧
        palPv2ue { p := fun i => pv0.p i + s.perp i, v := fun i => pv0.v i + s.perv i / spd } (s.t0 + s.rtn) 0 ul = (s'.ul, 0)) := by
  unfold pertRectify at h
  split at h
  · dsimp only at h
    split at h
    · cases h
    · rename_i ul pv0 j hu
      split at h
      · cases h
      · rename_i hj
        split at h
        · cases h
        · rename_i hw
          cases h
          rw [not_not] at hj hw
          subst hj
          right
          exact ⟨rfl, rfl, rfl, rfl, rfl, ul, pv0, hu, Prod.ext rfl hw⟩
  · rename_i hc
    rw [not_or] at hc
    cases h
    left
    exact ⟨rfl, by linarith [hc.1], by linarith [hc.2]⟩

/-- C63: if palPertue succeeds and the date asked for is not the epoch, then the new elements are for the date asked for, the derived quantities among them (alpha,
distance, r.v) are consistent with the position and velocity, the position is at least 0.001 AU from the Sun, and the combined mass is 1 whatever it was before: the
orbit is rectified for a body without mass. -/
theorem C63_epoch (P : PertTheory) (date : ℝ) (u u' : Univ) (up0 : Fin 8 → Univ) (pvin0 : Fin 8 → PV) (fd0 : Vec3) (j : ℤ) (hd : date ≠ u.t0)
    (h : palPertue P date u up0 pvin0 fd0 = some (u', j)) (hj : j ≠ -1) :
    u'.t0 = date ∧ Consistent u' ∧ u'.cm = 1 ∧ u'.t = date ∧ u'.psi = 0 ∧ 1 / 10 ^ 3 ≤ len u'.p0 := by
  unfold palPertue at h
  split at h
  · cases h
  · cases h; exact absurd rfl hj
  · rename_i s hs
    cases h
    set fwd := decide (0 ≤ date - u.t0) with hf
    -- a rectified state, or one with time left
    have key := loop_induct (P := P) (fwd := fwd) (tfinal := date)
      (fun s => (0 < fbOf fwd * (date - s.t0 - s.rtn) ∨ (date - s.t0 - s.rtn = 0 ∧ s.rtn = 0 ∧ s.ul.t0 = s.t0 ∧ s.ul.t = s.t0 ∧ s.ul.psi = 0 ∧ s.ul.cm = 1 ∧ Consistent s.ul ∧
        1 / 10 ^ 3 ≤ len s.ul.p0))) ?_ _ s ?_ hs
    · obtain ⟨h1 | ⟨h1, h2, h3, h4, h5, h6, h7, h8⟩, h9⟩ := key
      · exact absurd h1 h9
      · have e : s.t0 = date := by rw [h2] at h1; linarith
        exact ⟨by rw [h3, e], h7, h6, by rw [h4, e], h5, h8⟩
    · intro s1 s2 _ hc hst
      obtain ⟨a, b, c, ha, hb, hcc, hr⟩ := step_ok hst
      have ht := pertStep_time hst
      rcases rect_ok hr with ⟨e, -, e2⟩ | ⟨e1, e2, -, -, -, ul, pv0, e3, e4⟩
      · left; rw [e]; exact e2
      · rcases pertTs_spec hc with ⟨f1, f2⟩ | f1
        · have hge : 0 ≤ fbOf fwd * (date - s2.t0 - s2.rtn) := by
            have : date - s2.t0 - s2.rtn = (date - s1.t0 - s1.rtn) - pertTs fwd date s1 := by linarith
            rw [this, mul_sub]; linarith
          rcases lt_or_eq_of_le hge with g | g
          · left; exact g
          · right
            have hz : date - s2.t0 - s2.rtn = 0 := by
              have h2 := fbOf_sq fwd
              have : fbOf fwd * (fbOf fwd * (date - s2.t0 - s2.rtn)) = 0 := by rw [← g, mul_zero]
              rw [← mul_assoc, h2, one_mul] at this
              exact this
            obtain ⟨c1, c2, c3, c4, c5⟩ := C61_elements _ _ _ _ _ e4
            obtain ⟨c6, c7, c8⟩ := pv2ue_more e4
            exact ⟨hz, e1, by rw [c2, e2], by rw [c6, e2], c7, by rw [c3, add_zero], c1, c8⟩
        · right
          have hz : date - s2.t0 - s2.rtn = 0 := by
            have : date - s2.t0 - s2.rtn = (date - s1.t0 - s1.rtn) - pertTs fwd date s1 := by linarith
            rw [this, f1, sub_self]
          obtain ⟨c1, c2, c3, c4, c5⟩ := C61_elements _ _ _ _ _ e4
          obtain ⟨c6, c7, c8⟩ := pv2ue_more e4
          exact ⟨hz, e1, by rw [c2, e2], by rw [c6, e2], c7, by rw [c3, add_zero], c1, c8⟩
    · left
      show 0 < fbOf fwd * (date - u.t0 - 0)
      rw [sub_zero, hf, fb_abs]
      exact abs_pos.mpr (sub_ne_zero.mpr hd)


/-- The state of the perturbed body (AU, AU/s) in the middle of an integration: its unperturbed motion from the current elements plus the accumulated perturbations. -/
def StateIs (s : Pert) (pv : PV) : Prop :=
  ∃ ul pv0, palUe2pv (s.t0 + s.rtn) s.ul ⟨fun _ => 0, fun _ => 0⟩ = some (ul, pv0, 0) ∧ pv.p = (fun i => pv0.p i + s.perp i) ∧ pv.v = (fun i => pv0.v i + s.perv i / spd)

/-- C63: rectification of the orbit (palPertue does it every 100 days and at the end) moves the accumulated perturbations into the elements and changes neither the time
nor the position nor the velocity of the body. -/
theorem C63_rectification (fwd : Bool) (date : ℝ) (s s' : Pert) (pv : PV) (hs : StateIs s pv) (h : pertRectify fwd date s = .ok s') :
    StateIs s' pv ∧ s'.t0 + s'.rtn = s.t0 + s.rtn ∧
      (100 ≤ |s.rtn| ∨ fbOf fwd * (date - s.t0 - s.rtn) ≤ 0 → s'.rtn = 0 ∧ s'.perp = (fun _ => 0) ∧ s'.perv = (fun _ => 0) ∧ s'.ul.p0 = pv.p ∧ s'.ul.v0 = (fun i => pv.v i / cd2s)) := by
  have ht := pertRectify_time h
  rcases rect_ok h with ⟨e, e1, e2⟩ | ⟨e1, e2, e3, e4, -, ul, pv0, e5, e6⟩
  · subst e
    refine ⟨hs, rfl, ?_⟩
    rintro (hc | hc)
    · exact absurd hc (not_le.mpr e1)
    · exact absurd hc (not_le.mpr e2)
  · obtain ⟨ul', pv0', q1, q2, q3⟩ := hs
    rw [e5] at q1
    cases q1
    have hpv : pv = { p := fun i => pv0.p i + s.perp i, v := fun i => pv0.v i + s.perv i / spd } := by cases pv; simp only at q2 q3; rw [q2, q3]
    rw [← hpv] at e6
    have hrt := C61_round_trip pv ⟨fun _ => 0, fun _ => 0⟩ _ _ _ _ e6
    obtain ⟨c1, c2, c3, c4, c5⟩ := C61_elements _ _ _ _ _ e6
    refine ⟨⟨s'.ul, pv, by rw [ht]; exact hrt, by rw [e3]; simp, by rw [e4]; simp⟩, ht, fun _ => ⟨e1, e3, e4, c4, c5⟩⟩

/-- Mass of the Sun in units of the perturbing bodies' masses (IAU 1976/ DE200 system): Mercury, Venus, Earth-Moon barycentre, Mars, Jupiter, Saturn, Uranus, Neptune, Earth. -/
noncomputable def inverseMass : ℕ → ℝ
  | 1 => 6023600
  | 2 => 408523.5
  | 3 => 328900.5
  | 4 => 3098710
  | 5 => 1047.355
  | 6 => 3498.5
  | 7 => 22869
  | 8 => 19314
  | 9 => 332946.038
  | _ => 0

theorem amas_spec {m : ℕ} (hm : m ∈ Finset.Icc 1 9) : amas m = inverseMass m := by
  obtain ⟨h1, h2⟩ := Finset.mem_Icc.1 hm
  interval_cases m <;> norm_num [amas, inverseMass]

/-- C63, the planets: the planets' elements cannot be renewed only if palPlanet fails for one of them (other than by the warning of a remote date, status 1) or its state does not make elements; if they are renewed,
status 102 is noted when, and only when, palPlanet warns. -/
theorem C63_planet_failure (plan94 : ℝ → ℝ → ℤ → PV × ℤ) (fwd : Bool) (t : ℝ) (s : Pert) (hf : s.first = true) :
    (∀ e, pertEls plan94 fwd t s = .error e → ∃ (np : Fin 8) (T : ℝ), |T - t| = 50 ∧
      (((palPlanet plan94 T (np.val + 1)).2 ≠ 0 ∧ (palPlanet plan94 T (np.val + 1)).2 ≠ 1) ∨ (palPv2ue (palPlanet plan94 T (np.val + 1)).1 T 0 (s.up np)).2 ≠ 0)) ∧
    (∀ s', pertEls plan94 fwd t s = .ok s' → (∃ np : Fin 8, (palPlanet plan94 s'.tpel (np.val + 1)).2 = 1) → s'.jstat = 102) ∧
    (∀ s', pertEls plan94 fwd t s = .ok s' → (∀ np : Fin 8, (palPlanet plan94 s'.tpel (np.val + 1)).2 ≠ 1) → s'.jstat = s.jstat) := by
  have hflag : ∀ (T : ℝ) (u : Univ) (np : ℤ) (g : Univ × Bool), planetEls plan94 T u np = .ok g → (g.2 = true ↔ (palPlanet plan94 T np).2 = 1) := by
    intro T u np g h
    unfold planetEls at h
    dsimp only at h
    split at h
    · cases h
    · split at h
      · cases h
      · cases h; simp
  refine ⟨fun e h => ?_, fun s' h hw => ?_, fun s' h hw => ?_⟩
  · unfold pertEls at h
    rw [if_pos (Or.inl hf)] at h
    dsimp only at h
    by_contra hn
    have hT : |t + fbOf fwd * 50 - t| = 50 := by cases fwd <;> norm_num [fbOf]
    have hall : ∀ np : Fin 8, ∃ g, planetEls plan94 (t + fbOf fwd * 50) (s.up np) ((np.val : ℤ) + 1) = .ok g := by
      intro np
      have h1 : ¬ ((palPlanet plan94 (t + fbOf fwd * 50) (np.val + 1)).2 ≠ 0 ∧ (palPlanet plan94 (t + fbOf fwd * 50) (np.val + 1)).2 ≠ 1) := fun hc => hn ⟨np, _, hT, Or.inl hc⟩
      have h2 : ¬ (palPv2ue (palPlanet plan94 (t + fbOf fwd * 50) (np.val + 1)).1 (t + fbOf fwd * 50) 0 (s.up np)).2 ≠ 0 := fun hc => hn ⟨np, _, hT, Or.inr hc⟩
      unfold planetEls
      dsimp only
      rw [if_neg (fun hc => h1 ⟨hc.2, hc.1⟩), if_neg h2]
      exact ⟨_, rfl⟩
    choose g hg using hall
    rw [gather_ok.2 hg] at h
    cases h
  · unfold pertEls at h
    rw [if_pos (Or.inl hf)] at h
    dsimp only at h
    split at h
    · cases h
    · rename_i g hg
      cases h
      dsimp only at hw ⊢
      obtain ⟨np, hnp⟩ := hw
      rw [if_pos ⟨np, (hflag _ _ _ _ (gather_ok.1 hg np)).2 hnp⟩]
  · unfold pertEls at h
    rw [if_pos (Or.inl hf)] at h
    dsimp only at h
    split at h
    · cases h
    · rename_i g hg
      cases h
      dsimp only at hw ⊢
      rw [if_neg]
      rintro ⟨np, hnp⟩
      exact hw np ((hflag _ _ _ _ (gather_ok.1 hg np)).1 hnp)

/-- C64, where the planets are taken from: in a timestep with middle `t` the planets' elements are those of palPlanet for 50 days ahead if they are renewed, which happens at the latest when the date they
were made for is 50 days (and 1e-6) away from `t`; the state vectors the planets are extrapolated from are taken from these elements for 5 days ahead, at the latest when the date they were made for is 5 days
(and 1e-6) away. -/
theorem C64_planets (P : PertTheory) (fwd : Bool) (tfinal : ℝ) (s s' : Pert) (h : pertStep P fwd tfinal s = .ok s') :
    ∃ t ts : ℝ, ∃ s1 s2 s3 : Pert, t = s.t0 + s.rtn + ts / 2 ∧ pertMove P t ts s2 = .ok s3 ∧
      |t - s1.tpel| < 50 + 1.1e-6 ∧ |t - s2.tpmo| < 5 + 1.1e-6 ∧
      ((s1.tpel = t + (if fwd then 50 else -50) ∧
          ∀ np : Fin 8, ((palPlanet P.plan94 s1.tpel (np.val + 1)).2 = 0 ∨ (palPlanet P.plan94 s1.tpel (np.val + 1)).2 = 1) ∧
            palPv2ue (palPlanet P.plan94 s1.tpel (np.val + 1)).1 s1.tpel 0 (s.up np) = (s1.up np, 0)) ∨
        (s.first = false ∧ |t - s.tpel| < 50 + 1.1e-6 ∧ s1 = s)) ∧
      ((s2.tpmo = t + (if fwd then 5 else -5) ∧
          ∀ np : Fin 8, ∃ pv : PV, palUe2pv s2.tpmo (s1.up np) (s1.pvin np) = some (s2.up np, pv, 0) ∧ s2.pvin np = ⟨pv.p, fun i => pv.v i * spd⟩) ∨
        (s1.first = false ∧ |t - s1.tpmo| < 5 + 1.1e-6 ∧ s2 = s1)) := by
  obtain ⟨s1, s2, s3, h1, h2, h3, -⟩ := step_ok h
  obtain ⟨ts, hts⟩ : ∃ ts, ts = pertTs fwd tfinal s := ⟨_, rfl⟩
  rw [← hts] at h1 h2 h3
  obtain ⟨t, ht⟩ : ∃ t, t = s.t0 + s.rtn + ts / 2 := ⟨_, rfl⟩
  rw [← ht] at h1 h2 h3
  have fb50 : fbOf fwd * 50 = if fwd then 50 else -50 := by cases fwd <;> norm_num [fbOf]
  have fb5 : fbOf fwd * 5 = if fwd then 5 else -5 := by cases fwd <;> norm_num [fbOf]
  have a1 : |t - s1.tpel| < 50 + 1.1e-6 ∧ ((s1.tpel = t + (if fwd then 50 else -50) ∧
          ∀ np : Fin 8, ((palPlanet P.plan94 s1.tpel (np.val + 1)).2 = 0 ∨ (palPlanet P.plan94 s1.tpel (np.val + 1)).2 = 1) ∧
            palPv2ue (palPlanet P.plan94 s1.tpel (np.val + 1)).1 s1.tpel 0 (s.up np) = (s1.up np, 0)) ∨
        (s.first = false ∧ |t - s.tpel| < 50 + 1.1e-6 ∧ s1 = s)) := by
    unfold pertEls at h1
    split at h1
    · dsimp only at h1
      split at h1
      · cases h1
      · rename_i g hg
        cases h1
        dsimp only
        refine ⟨?_, Or.inl ⟨by rw [fb50], fun np => ?_⟩⟩
        · rw [fb50, sub_add_cancel_left, abs_neg]
          cases fwd <;> simp <;> norm_num
        · have := gather_ok.1 hg np
          unfold planetEls at this
          dsimp only at this
          split at this
          · cases this
          · rename_i hc
            split at this
            · cases this
            · rename_i hw
              have hw := not_not.1 hw
              have := congrArg (fun x => match x with | .ok a => a.1 | .error _ => s.up np) this
              dsimp only at this
              refine ⟨?_, ?_⟩
              · by_contra hn
                exact hc ⟨fun h => hn (Or.inr h), fun h => hn (Or.inl h)⟩
              · exact Prod.ext this hw
    · rename_i hc
      cases h1
      rw [not_or] at hc
      obtain ⟨c1, c2⟩ := hc
      have c2 := not_le.1 c2
      have hh : |t - s.tpel| < 50 + 1.1e-6 := by norm_num at c2 ⊢; linarith
      exact ⟨hh, Or.inr ⟨by simpa using c1, hh, rfl⟩⟩
  have a2 : |t - s2.tpmo| < 5 + 1.1e-6 ∧ ((s2.tpmo = t + (if fwd then 5 else -5) ∧
          ∀ np : Fin 8, ∃ pv : PV, palUe2pv s2.tpmo (s1.up np) (s1.pvin np) = some (s2.up np, pv, 0) ∧ s2.pvin np = ⟨pv.p, fun i => pv.v i * spd⟩) ∨
        (s1.first = false ∧ |t - s1.tpmo| < 5 + 1.1e-6 ∧ s2 = s1)) := by
    unfold pertMotions at h2
    split at h2
    · dsimp only at h2
      split at h2
      · cases h2
      · rename_i g hg
        cases h2
        dsimp only
        refine ⟨?_, Or.inl ⟨by rw [fb5], fun np => ?_⟩⟩
        · rw [fb5, sub_add_cancel_left, abs_neg]
          cases fwd <;> simp <;> norm_num
        · have := gather_ok.1 hg np
          unfold planetMotion at this
          split at this
          · cases this
          · rename_i u pv j hu
            split at this
            · cases this
            · rename_i hj
              have hj := not_not.1 hj
              split at this
              · cases this
              · have this := Except.ok.inj this
                refine ⟨pv, ?_, ?_⟩
                · rw [hu, hj, ← this]
                · rw [← this]
    · rename_i hc
      cases h2
      rw [not_or] at hc
      obtain ⟨c1, c2⟩ := hc
      have c2 := not_le.1 c2
      have hh : |t - s1.tpmo| < 5 + 1.1e-6 := by norm_num at c2 ⊢; linarith
      exact ⟨hh, Or.inr ⟨by simpa using c1, hh, rfl⟩⟩
  exact ⟨t, ts, s1, s2, s3, ht, h3, a1.1, a2.1, a1.2, a2.2⟩

/-- C64, the part that holds: the acceleration applied in a timestep of palPertue is the difference between the heliocentric acceleration of the perturbed body (Sun and
perturbing bodies) and the acceleration in the unperturbed orbit, both at the middle of the timestep; and it is applied as a constant acceleration throughout the
timestep.  Perturbing bodies are the eight planets (number 3 being the Earth-Moon barycentre); if the body is within 1 AU of the barycentre, the Earth is taken instead
of it; anything nearer than 0.0001 AU is left out.  What is missing: the Moon is never among them (C64_moon_refuted). -/
theorem C64_acceleration_partial (P : PertTheory) (t ts : ℝ) (s s' : Pert) (h : pertMove P t ts s = .ok s') :
    ∃ (ul : Univ) (pv0 : PV), palUe2pv t s.ul ⟨fun _ => 0, fun _ => 0⟩ = some (ul, pv0, 0) ∧
      ∀ (pos a : Vec3) (near : Prop), pos = (fun i => pv0.p i + s.perp i + s.perv i * (ts / 2) + s.pera i * (ts / 2) ^ 2 / 2) →
        (near ↔ len (fun k => bodyAt P t s.tpmo s.pvin 3 k - pos k) < 1) →
        a = (fun i => gcon ^ 2 * (-attraction pos i + (open Classical in ∑ m ∈ Finset.Icc 1 9,
          if (m ≤ 8 ∨ near) ∧ ¬ (near ∧ m = 3) ∧ 1 / 10 ^ 4 ≤ len (fun k => bodyAt P t s.tpmo s.pvin m k - pos k) then tidal (inverseMass m) pos (bodyAt P t s.tpmo s.pvin m) i
          else 0) - -attraction pv0.p i)) →
        s'.pera = a ∧ s'.perv = (fun i => s.perv i + a i * ts) ∧ s'.perp = (fun i => s.perp i + s.perv i * ts + a i * ts ^ 2 / 2) ∧ s'.rtn = s.rtn + ts := by
  obtain ⟨ul, pv0, d, h1, -, -, h2, h3, h4, h5, h6, h7, h8⟩ := move_ok h
  refine ⟨ul, pv0, h1, ?_⟩
  intro pos a near hpos hnear ha
  have hp : pertPos s pv0.p (ts / 2) = pos := by
    rw [hpos]; funext i; unfold pertPos; ring
  rw [hp] at h2 h6
  classical
  obtain ⟨hfd, -⟩ := direct_spec h2 near hnear
  have hpa : s'.pera = a := by
    rw [h6, ha]
    funext i
    rw [hfd i]
    rw [Finset.sum_congr rfl (fun m hm => by rw [amas_spec hm])]
    unfold pertIndirect attraction
    rw [sq3_eq, sq3_eq, norm3_eq, norm3_eq, ← pow_succ, ← pow_succ]
    ring
  refine ⟨hpa, ?_, ?_, (pertMove_time h).2⟩
  · rw [h8, hpa]
  · rw [h7, hpa]; funext i; ring

private theorem direct_moon (P : PertTheory) (T' : Theory) (dm' : ℝ → PV) (t tpmo : ℝ) (pvin : Fin 8 → PV) (jstat : ℤ) (pos : Vec3) :
    pertDirect P t tpmo pvin jstat pos = pertDirect { P with T := T', dmoon := dm' } t tpmo pvin jstat pos := by
  unfold pertDirect pertNBodies
  exact bodies_moon _ _ _ _ _ _ _ _ (by norm_num)

/-- C64 is false as documented: where the Moon is makes no difference to palPertue, however near to it the body comes.  (The loop over the perturbing bodies stops one
short, so that the code for the Moon is never reached.)  In particular, near the Earth the Moon's mass is left out altogether, and status 10 cannot occur. -/
theorem C64_moon_refuted (P : PertTheory) (T' : Theory) (dm' : ℝ → PV) (date : ℝ) (u : Univ) (up0 : Fin 8 → Univ) (pvin0 : Fin 8 → PV) (fd0 : Vec3) :
    palPertue P date u up0 pvin0 fd0 = palPertue { P with T := T', dmoon := dm' } date u up0 pvin0 fd0 := by
  have hstep : ∀ fwd s, pertStep P fwd date s = pertStep { P with T := T', dmoon := dm' } fwd date s := by
    intro fwd s
    unfold pertStep pertMove
    dsimp only
    simp only [← direct_moon P T' dm']
  have hloop : ∀ fwd (n : ℕ) s, ⌈100 * (fbOf fwd * (date - s.t0 - s.rtn))⌉₊ ≤ n → pertLoop P fwd date s = pertLoop { P with T := T', dmoon := dm' } fwd date s := by
    intro fwd n
    induction n with
    | zero =>
      intro s hn
      have hc : ¬ fbOf fwd * (date - s.t0 - s.rtn) > 0 := by
        intro hc
        have := Nat.ceil_pos.mpr (show 0 < 100 * (fbOf fwd * (date - s.t0 - s.rtn)) by linarith)
        omega
      rw [loop_done hc, loop_done hc]
    | succ n ih =>
      intro s hn
      by_cases hc : fbOf fwd * (date - s.t0 - s.rtn) > 0
      · cases hs : pertStep P fwd date s with
        | error e => rw [loop_err hc hs, loop_err hc (hstep fwd s ▸ hs)]
        | ok s1 =>
          have h1 : pertStep { P with T := T', dmoon := dm' } fwd date s = .ok s1 := hstep fwd s ▸ hs
          rw [loop_next hc hs, loop_next hc h1]
          have := pert_decreases hc hs
          exact ih s1 (by omega)
      · rw [loop_done hc, loop_done hc]
  unfold palPertue
  rw [hloop _ _ _ le_rfl]

/-- C65: which statuses palPertel returns, and when.  A form other than 2 or 3: -1; elements that palEl2ue rejects: its status, which is -2 (eccentricity), -3
(distance) or -5 (numerical failure); palPertue fails: -5.  In all these cases the arguments for the new elements are left alone. -/
theorem C65_rejections (P : PertTheory) (jform : ℤ) (date0 date1 epoch orbi anode perih aorq e am : ℝ) (el : Elems)
    (u0 : Univ) (up0 : Fin 8 → Univ) (pvin0 : Fin 8 → PV) (fd0 : Vec3) :
    ((jform ≠ 2 ∧ jform ≠ 3) → palPertel P jform date0 date1 epoch orbi anode perih aorq e am el u0 up0 pvin0 fd0 = some (el, -1)) ∧
    ((jform = 2 ∨ jform = 3) → (e < 0 ∨ 10 < e ∨ (1 ≤ e ∧ jform = 2)) → palPertel P jform date0 date1 epoch orbi anode perih aorq e am el u0 up0 pvin0 fd0 = some (el, -2)) ∧
    ((jform = 2 ∨ jform = 3) → (0 ≤ e ∧ e ≤ 10 ∧ (e < 1 ∨ jform = 3)) → aorq ≤ 0 →
      palPertel P jform date0 date1 epoch orbi anode perih aorq e am el u0 up0 pvin0 fd0 = some (el, -3)) ∧
    ((jform = 2 ∨ jform = 3) → (0 ≤ e ∧ e ≤ 10 ∧ (e < 1 ∨ jform = 3)) → 0 < aorq → ∃ u j, palEl2ue date0 jform epoch orbi anode perih aorq e am 0 u0 = some (u, j) ∧
      (j = -5 ∧ palPertel P jform date0 date1 epoch orbi anode perih aorq e am el u0 up0 pvin0 fd0 = some (el, -5) ∨
       j = 0 ∧ ((palPertue P date1 u up0 pvin0 fd0 = some (u, -1) ∧ palPertel P jform date0 date1 epoch orbi anode perih aorq e am el u0 up0 pvin0 fd0 = some (el, -5)) ∨
        (palPertue P date1 u up0 pvin0 fd0 = none ∧ palPertel P jform date0 date1 epoch orbi anode perih aorq e am el u0 up0 pvin0 fd0 = none) ∨
        ∃ u' j', palPertue P date1 u up0 pvin0 fd0 = some (u', j') ∧ 0 ≤ j' ∧
          palPertel P jform date0 date1 epoch orbi anode perih aorq e am el u0 up0 pvin0 fd0 =
            (palUe2el u' jform el).map (fun o => (o.1, if o.1.jform ≠ jform ∨ o.2 ≠ 0 then -5 else j'))))) := by
  obtain ⟨-, v2, v3, -⟩ := C58_validation date0 jform epoch orbi anode perih aorq e am 0 u0
  refine ⟨?_, ?_, ?_, ?_⟩
  · rintro ⟨h1, h2⟩
    unfold palPertel
    rw [if_pos (by omega)]
  · intro hj he
    have hv := v2 (by omega) (by rcases he with h | h | ⟨h, h'⟩; exacts [Or.inl h, Or.inr (Or.inl h), Or.inr (Or.inr ⟨h, by omega⟩)])
    unfold palPertel
    rw [if_neg (by omega), hv]
    rfl
  · intro hj he ha
    have hv := v3 (by omega) he ha
    unfold palPertel
    rw [if_neg (by omega), hv]
    rfl
  · rintro hj ⟨he1, he2, he3⟩ ha
    have hg : GoodElements jform aorq e 0 := by
      exact ⟨by omega, by omega, he1, he2, he3, ha, by omega⟩
    obtain ⟨u, j, hu, hjj, -⟩ := C58_good_elements date0 jform epoch orbi anode perih aorq e am 0 u0 hg
    refine ⟨u, j, hu, ?_⟩
    have hp : palPertel P jform date0 date1 epoch orbi anode perih aorq e am el u0 up0 pvin0 fd0 =
      if j ≠ 0 then some (el, j)
      else
        match palPertue P date1 u up0 pvin0 fd0 with
        | none => none
        | some (u, j) =>
          let jstat := if j > 0 then j else 0
          if ¬ j > 0 ∧ j < 0 then some (el, -5)
          else
            match palUe2el u jform el with
            | none => none
            | some (el1, j) => some (el1, if el1.jform ≠ jform ∨ j ≠ 0 then -5 else jstat) := by
      conv_lhs => unfold palPertel
      rw [if_neg (by omega), hu]
      rfl
    rcases hjj with rfl | rfl
    · right
      refine ⟨rfl, ?_⟩
      rw [if_neg (by norm_num)] at hp
      cases hq : palPertue P date1 u up0 pvin0 fd0 with
      | none => rw [hq] at hp; right; left; exact ⟨rfl, hp⟩
      | some o =>
        obtain ⟨u', j'⟩ := o
        rw [hq] at hp
        dsimp only at hp
        rcases C63_status P date1 u u' up0 pvin0 fd0 j' hq with ⟨h1, h2⟩ | h
        · left
          subst h1 h2
          exact ⟨rfl, by rw [hp, if_pos (by norm_num)]⟩
        · right; right
          have h0 : 0 ≤ j' := by omega
          refine ⟨u', j', rfl, h0, ?_⟩
          rw [hp, if_neg (by omega)]
          have e1 : (if j' > 0 then j' else 0) = j' := by split <;> omega
          rw [e1]
          cases palUe2el u' jform el with
          | none => rfl
          | some o => obtain ⟨a, b⟩ := o; rfl
    · left
      exact ⟨rfl, by rw [hp, if_pos (by norm_num)]⟩

/-- C65: whatever the arguments, palPertel returns one of the statuses -5, -3, -2, -1, 0, 1, 2, 4, …, 9, 101, 102.  (-4 is documented but cannot occur.) -/
theorem C65_statuses (P : PertTheory) (jform : ℤ) (date0 date1 epoch orbi anode perih aorq e am : ℝ) (el el' : Elems)
    (u0 : Univ) (up0 : Fin 8 → Univ) (pvin0 : Fin 8 → PV) (fd0 : Vec3) (j : ℤ)
    (h : palPertel P jform date0 date1 epoch orbi anode perih aorq e am el u0 up0 pvin0 fd0 = some (el', j)) :
    j = -5 ∨ j = -3 ∨ j = -2 ∨ j = -1 ∨ j = 0 ∨ j = 101 ∨ j = 102 ∨ (1 ≤ j ∧ j ≤ 9 ∧ j ≠ 3) := by
  obtain ⟨r1, r2, r3, r4⟩ := C65_rejections P jform date0 date1 epoch orbi anode perih aorq e am el u0 up0 pvin0 fd0
  by_cases hf : jform = 2 ∨ jform = 3
  · by_cases he : e < 0 ∨ 10 < e ∨ (1 ≤ e ∧ jform = 2)
    · rw [r2 hf he] at h; cases h; right; right; left; rfl
    · have he' : 0 ≤ e ∧ e ≤ 10 ∧ (e < 1 ∨ jform = 3) := by
        rw [not_or, not_or, not_and_or] at he
        obtain ⟨a, b, c⟩ := he
        refine ⟨by linarith, by linarith, ?_⟩
        rcases c with c | c
        · left; linarith
        · right; omega
      by_cases ha : aorq ≤ 0
      · rw [r3 hf he' ha] at h; cases h; right; left; rfl
      · obtain ⟨u, j0, -, hc⟩ := r4 hf he' (not_le.mp ha)
        rcases hc with ⟨-, h1⟩ | ⟨-, ⟨-, h1⟩ | ⟨-, h1⟩ | ⟨u', j', hp, h0, h1⟩⟩
        · rw [h1] at h; cases h; left; rfl
        · rw [h1] at h; cases h; left; rfl
        · rw [h1] at h; cases h
        · rw [h1] at h
          rw [Option.map_eq_some_iff] at h
          obtain ⟨o, -, ho⟩ := h
          have hj : j = if o.1.jform ≠ jform ∨ o.2 ≠ 0 then -5 else j' := by cases ho; rfl
          rw [hj]
          split
          · left; rfl
          · rcases C63_status P date1 u u' up0 pvin0 fd0 j' hp with ⟨h2, -⟩ | h2
            · omega
            · right; right; right; right; exact h2
  · rw [r1 (by omega)] at h; cases h; right; right; right; left; rfl

/-- C65: if palPertel succeeds (status 0 or a warning), then the new elements are in the form of the given ones and are those of the osculating orbit at date1: they
come, through palUe2el, from universal elements whose epoch is date1 and which palPertue made from the given orbit.  In the minor-planet form their epoch is date1. -/
theorem C65_success (P : PertTheory) (jform : ℤ) (date0 date1 epoch orbi anode perih aorq e am : ℝ) (el el' : Elems)
    (u0 : Univ) (up0 : Fin 8 → Univ) (pvin0 : Fin 8 → PV) (fd0 : Vec3) (j : ℤ)
    (h : palPertel P jform date0 date1 epoch orbi anode perih aorq e am el u0 up0 pvin0 fd0 = some (el', j)) (hj : 0 ≤ j) :
    el'.jform = jform ∧ (jform = 2 ∨ jform = 3) ∧ (jform = 2 → el'.epoch = date1) ∧
    ∃ u u', palEl2ue date0 jform epoch orbi anode perih aorq e am 0 u0 = some (u, 0) ∧ u.t0 = date0 ∧ palPertue P date1 u up0 pvin0 fd0 = some (u', j) ∧ u'.t0 = date1 ∧
      u'.cm = 1 ∧ palUe2el u' jform el = some (el', 0) := by
  obtain ⟨r1, r2, r3, r4⟩ := C65_rejections P jform date0 date1 epoch orbi anode perih aorq e am el u0 up0 pvin0 fd0
  by_cases hf : jform = 2 ∨ jform = 3
  · by_cases he : e < 0 ∨ 10 < e ∨ (1 ≤ e ∧ jform = 2)
    · rw [r2 hf he] at h; cases h; omega
    · have he' : 0 ≤ e ∧ e ≤ 10 ∧ (e < 1 ∨ jform = 3) := by
        rw [not_or, not_or, not_and_or] at he
        obtain ⟨a, b, c⟩ := he
        refine ⟨by linarith, by linarith, ?_⟩
        rcases c with c | c
        · left; linarith
        · right; omega
      by_cases ha : aorq ≤ 0
      · rw [r3 hf he' ha] at h; cases h; omega
      · obtain ⟨u, j0, hu, hc⟩ := r4 hf he' (not_le.mp ha)
        rcases hc with ⟨-, h1⟩ | ⟨hj0, ⟨-, h1⟩ | ⟨-, h1⟩ | ⟨u', j', hp, h0, h1⟩⟩
        · rw [h1] at h; cases h; omega
        · rw [h1] at h; cases h; omega
        · rw [h1] at h; cases h
        · subst hj0
          rw [h1, Option.map_eq_some_iff] at h
          obtain ⟨⟨el1, j1⟩, ho1, ho⟩ := h
          simp only [Prod.mk.injEq] at ho
          obtain ⟨rfl, ho⟩ := ho
          split at ho
          · omega
          · rename_i hn
            rw [not_or, not_not, not_not] at hn
            subst ho
            obtain ⟨hn1, hn2⟩ := hn
            subst hn2
            have hut : u.t0 = date0 ∧ u.cm = 1 := by
              obtain ⟨m1, m2, -⟩ := C82_orbit_plane date0 jform epoch orbi anode perih aorq e am 0 u0 u hu (standardForm jform epoch anode perih aorq e am 0).1
                (standardForm jform epoch anode perih aorq e am 0).2.1 (standardForm jform epoch anode perih aorq e am 0).2.2.1
                (standardForm jform epoch anode perih aorq e am 0).2.2.2 rfl
              refine ⟨m2, ?_⟩
              rw [m1]
              unfold standardForm
              rw [if_neg (by omega)]
              split <;> rfl
            have hut' : u'.t0 = date1 ∧ u'.cm = 1 := by
              by_cases hd : date1 = u.t0
              · rw [hd, C63_no_time] at hp
                cases hp
                exact ⟨hd.symm, hut.2⟩
              · obtain ⟨m1, -, m2, -⟩ := C63_epoch P date1 u u' up0 pvin0 fd0 j' hd hp (by omega)
                exact ⟨m1, m2⟩
            refine ⟨hn1, hf, ?_, u, u', hu, hut.1, hp, hut'.1, hut'.2, ho1⟩
            intro hj2
            have hep := ue2el_epoch ho1 (by rw [hn1]; omega)
            rw [hep, hut'.1]
  · rw [r1 (by omega)] at h; cases h; omega

/-- C65: with no time to bridge, palPertel only converts the elements to universal ones and back. -/
theorem C65_same_date (P : PertTheory) (jform : ℤ) (date epoch orbi anode perih aorq e am : ℝ) (el : Elems) (u0 u : Univ) (up0 : Fin 8 → Univ) (pvin0 : Fin 8 → PV)
    (fd0 : Vec3) (hf : jform = 2 ∨ jform = 3) (hu : palEl2ue date jform epoch orbi anode perih aorq e am 0 u0 = some (u, 0)) :
    palPertel P jform date date epoch orbi anode perih aorq e am el u0 up0 pvin0 fd0 =
      (palUe2el u jform el).map (fun o => (o.1, if o.1.jform ≠ jform ∨ o.2 ≠ 0 then -5 else 0)) := by
  have hut : u.t0 = date := (C82_orbit_plane date jform epoch orbi anode perih aorq e am 0 u0 u hu _ _ _ _ rfl).2.1
  conv_lhs => unfold palPertel
  rw [if_neg (by omega), hu]
  dsimp only
  rw [if_neg (by norm_num)]
  have := C63_no_time P u up0 pvin0 fd0
  rw [hut] at this
  rw [this]
  dsimp only
  rw [if_neg (by norm_num)]
  cases palUe2el u jform el with
  | none => rfl
  | some o => obtain ⟨a, b⟩ := o; simp

end Pal.Props
