import Verif.Model.Pertue
import Verif.Lemmas.Orbit
import Verif.Lemmas.Vec
import Verif.Spec.Orbit

/-!
# Lemmas about palPertue
-/

namespace Pal.Pertue
open Real Pal.Spec

theorem gather_ok {α : Type} {f : Fin 8 → Except PErr α} {g : Fin 8 → α} : gather f = .ok g ↔ ∀ i, f i = .ok (g i) := by
  unfold gather
  constructor
  · intro h
    split at h
    · rename_i hx
      cases h
      exact hx.choose_spec
    · split at h <;> cases h
  · intro h
    have hx : ∃ g : Fin 8 → α, ∀ i, f i = .ok (g i) := ⟨g, h⟩
    rw [dif_pos hx]
    congr 1
    funext i
    have := hx.choose_spec i
    rw [h i] at this
    exact (Except.ok.inj this).symm

theorem norm3_eq (p : Vec3) : norm3 p = len p := by
  unfold norm3 len
  rw [Fin.sum_univ_three]
  congr 1; ring

theorem sq3_eq (p : Vec3) : p 0 * p 0 + p 1 * p 1 + p 2 * p 2 = len p ^ 2 := by
  unfold len
  rw [Real.sq_sqrt (Finset.sum_nonneg fun i _ => sq_nonneg _), Fin.sum_univ_three]
  ring

theorem pv2ue_junk (pv : PV) (date pmass : ℝ) (u u' : Univ) :
    (palPv2ue pv date pmass u).2 = (palPv2ue pv date pmass u').2 ∧
    ((palPv2ue pv date pmass u).2 = 0 → (palPv2ue pv date pmass u).1 = (palPv2ue pv date pmass u').1) := by
  unfold palPv2ue
  dsimp only
  split
  · exact ⟨rfl, fun h => absurd h (by norm_num)⟩
  · split
    · exact ⟨rfl, fun h => absurd h (by norm_num)⟩
    · split
      · exact ⟨rfl, fun h => absurd h (by norm_num)⟩
      · exact ⟨rfl, fun _ => rfl⟩

theorem planetEls_junk (plan94 : ℝ → ℝ → ℤ → PV × ℤ) (tpel : ℝ) (u u' : Univ) (np : ℤ) : planetEls plan94 tpel u np = planetEls plan94 tpel u' np := by
  unfold planetEls
  dsimp only
  obtain ⟨h1, h2⟩ := pv2ue_junk (palPlanet plan94 tpel np).1 tpel 0 u u'
  split
  · rfl
  · by_cases h : (palPv2ue (palPlanet plan94 tpel np).1 tpel 0 u).2 = 0
    · rw [if_neg (not_not.mpr h), if_neg (not_not.mpr (h1 ▸ h)), h2 h]
    · rw [if_pos h, if_pos (h1 ▸ h)]

theorem planetMotion_junk (tpmo : ℝ) (u : Univ) (pv pv' : PV) : planetMotion tpmo u pv = planetMotion tpmo u pv' := by
  unfold planetMotion palUe2pv
  split_ifs
  · rfl
  · dsimp only
    cases hl : ueLoop u ((tpmo - u.t0) * gcon) 1 (u.psi + (tpmo - u.t) * gcon / u.r0) 0 0 with
    | fail j =>
      rcases Orbit.loop_fail hl with h | h <;> subst h <;> rfl
    | done psi s r =>
      rfl

/-- What one perturbing body contributes. -/
theorem pull_spec {pos rho : Vec3} {np : ℕ} {d d' : Direct} (h : pertPull pos rho np d = some d') :
    d'.ne = (d.ne || decide (np = 3 ∧ len (fun i => rho i - pos i) < 1)) ∧
    (d'.ne = true ∧ np = 3 → d'.fd = d.fd ∧ d'.jstat = d.jstat) ∧
    (¬ (d'.ne = true ∧ np = 3) → len (fun i => rho i - pos i) < 1 / 10 ^ 4 → d'.fd = d.fd ∧ d'.jstat = np) ∧
    (¬ (d'.ne = true ∧ np = 3) → ¬ len (fun i => rho i - pos i) < 1 / 10 ^ 4 → d'.fd = (fun i => d.fd i + tidal (amas np) pos rho i) ∧ d'.jstat = d.jstat ∧ len rho ≠ 0) := by
  unfold pertPull at h
  dsimp only at h
  simp only [norm3_eq] at h
  obtain ⟨ne, hne⟩ : ∃ ne, ne = (d.ne || decide (np = 3 ∧ len (fun i => rho i - pos i) < 1)) := ⟨_, rfl⟩
  rw [← hne] at h ⊢
  split at h
  · rename_i h1
    cases h
    exact ⟨rfl, fun _ => ⟨rfl, rfl⟩, fun hn => absurd h1 hn, fun hn => absurd h1 hn⟩
  · rename_i h1
    split at h
    · rename_i h2
      cases h
      exact ⟨rfl, fun hn => absurd hn h1, fun _ _ => ⟨rfl, rfl⟩, fun _ hn => absurd h2 hn⟩
    · rename_i h2
      split at h
      · cases h
      · rename_i h3
        cases h
        refine ⟨rfl, fun hn => absurd hn h1, fun _ hn => absurd hn h2, fun _ _ => ⟨?_, rfl, h3⟩⟩
        funext i
        unfold tidal attraction
        have e1 := sq3_eq rho
        have e2 := sq3_eq (fun i => rho i - pos i)
        dsimp only at e2 ⊢
        rw [e1, e2, ← pow_succ, ← pow_succ]

/-- A perturbing body is taken into account: not a planet beyond Neptune unless the Earth is near, not the barycentre if it is. -/
def Taken (near : Prop) (m : ℕ) : Prop := (m ≤ 8 ∨ near) ∧ ¬ (near ∧ m = 3)

open Classical in
theorem bodies_spec (pos : Vec3) (planet : ℕ → Vec3) (earth moon : Vec3) (near : Prop) (hnear : near ↔ len (fun i => planet 3 i - pos i) < 1)
    (rho : ℕ → Vec3) (hrho : ∀ m, rho m = if m ≤ 8 then planet m else if m = 9 then earth else fun i => moon i + earth i) :
    ∀ (n np : ℕ) (d d' : Direct), 1 ≤ np → (d.ne = true ↔ (3 < np ∧ near)) → pertBodies pos planet earth moon n np d = some d' →
      (d'.ne = true ↔ (3 < np + n ∧ near)) ∧
      (∀ i, d'.fd i = d.fd i + ∑ m ∈ Finset.Ico np (np + n), if Taken near m ∧ 1 / 10 ^ 4 ≤ len (fun k => rho m k - pos k) then tidal (amas m) pos (rho m) i else 0) ∧
      ((d'.jstat = d.jstat ∧ ∀ m ∈ Finset.Ico np (np + n), Taken near m → 1 / 10 ^ 4 ≤ len (fun k => rho m k - pos k)) ∨
       ∃ m ∈ Finset.Ico np (np + n), Taken near m ∧ len (fun k => rho m k - pos k) < 1 / 10 ^ 4 ∧ d'.jstat = m ∧
         ∀ m' ∈ Finset.Ico np (np + n), m < m' → Taken near m' → 1 / 10 ^ 4 ≤ len (fun k => rho m' k - pos k)) := by
  intro n
  induction n with
  | zero =>
    intro np d d' h1 hne h
    simp only [pertBodies, Option.some.injEq] at h
    subst h
    refine ⟨by simpa using hne, by simp, Or.inl ⟨rfl, by simp⟩⟩
  | succ n ih =>
    intro np d d' h1 hne h
    unfold pertBodies at h
    dsimp only at h
    rw [← hrho np] at h
    have hico : Finset.Ico np (np + (n + 1)) = insert np (Finset.Ico (np + 1) (np + 1 + n)) := by
      ext m; simp only [Finset.mem_Ico, Finset.mem_insert]; omega
    have hnot : np ∉ Finset.Ico (np + 1) (np + 1 + n) := by simp
    have e1 : np + (n + 1) = np + 1 + n := by omega
    rw [hico]
    split at h
    · rename_i hc
      split at h
      · cases h
      · rename_i d1 hd1
        obtain ⟨p1, p2, p3, p4⟩ := pull_spec hd1
        have hne1 : d1.ne = true ↔ (3 < np + 1 ∧ near) := by
          rw [p1, Bool.or_eq_true, hne, decide_eq_true_eq]
          constructor
          · rintro (⟨a, b⟩ | ⟨a, b⟩)
            · exact ⟨by omega, b⟩
            · subst a
              rw [hrho 3, if_pos (by norm_num)] at b
              exact ⟨by norm_num, hnear.mpr b⟩
          · rintro ⟨a, b⟩
            by_cases h3 : np = 3
            · right
              subst h3
              rw [hrho 3, if_pos (by norm_num)]
              exact ⟨rfl, hnear.mp b⟩
            · left; exact ⟨by omega, b⟩
        obtain ⟨q1, q2, q3⟩ := ih (np + 1) d1 d' (by omega) hne1 h
        have htaken : Taken near np ↔ ¬ (d1.ne = true ∧ np = 3) := by
          unfold Taken
          rw [hne1]
          constructor
          · rintro ⟨-, b⟩ ⟨⟨-, c⟩, d⟩; exact b ⟨c, d⟩
          · intro a
            refine ⟨?_, fun ⟨b, c⟩ => a ⟨⟨by omega, b⟩, c⟩⟩
            rcases hc with hc | hc
            · exact Or.inl hc
            · exact Or.inr (hne.mp hc).2
        refine ⟨by rw [e1]; exact q1, ?_, ?_⟩
        · intro i
          rw [q2 i, Finset.sum_insert hnot, ← add_assoc]
          congr 1
          by_cases ht : Taken near np
          · by_cases hd : len (fun k => rho np k - pos k) < 1 / 10 ^ 4
            · rw [if_neg (fun hx => absurd hd (not_lt.mpr hx.2)), (p3 (htaken.mp ht) hd).1, add_zero]
            · rw [if_pos ⟨ht, not_lt.mp hd⟩, (p4 (htaken.mp ht) hd).1]
          · rw [if_neg (fun hx => ht hx.1), add_zero]
            rw [htaken, not_not] at ht
            rw [(p2 ht).1]
        · rcases q3 with ⟨a, b⟩ | ⟨m, hm, a, b, c, e⟩
          · by_cases ht : Taken near np
            · by_cases hd : len (fun k => rho np k - pos k) < 1 / 10 ^ 4
              · right
                refine ⟨np, Finset.mem_insert_self _ _, ht, hd, by rw [a, (p3 (htaken.mp ht) hd).2], ?_⟩
                intro m' hm' hlt
                rcases Finset.mem_insert.mp hm' with h' | h'
                · omega
                · exact b m' h'
              · left
                refine ⟨by rw [a, (p4 (htaken.mp ht) hd).2.1], ?_⟩
                intro m' hm'
                rcases Finset.mem_insert.mp hm' with h' | h'
                · subst h'; intro _; exact not_lt.mp hd
                · exact b m' h'
            · left
              have ht' := ht
              rw [htaken, not_not] at ht'
              refine ⟨by rw [a, (p2 ht').2], ?_⟩
              intro m' hm'
              rcases Finset.mem_insert.mp hm' with h' | h'
              · subst h'; intro hx; exact absurd hx ht
              · exact b m' h'
          · right
            refine ⟨m, Finset.mem_insert_of_mem hm, a, b, c, ?_⟩
            intro m' hm' hlt
            rcases Finset.mem_insert.mp hm' with h' | h'
            · have := (Finset.mem_Ico.mp hm).1
              omega
            · exact e m' h' hlt
    · rename_i hc
      have hne1 : d.ne = true ↔ (3 < np + 1 ∧ near) := by
        rw [hne]
        constructor
        · rintro ⟨a, b⟩; exact ⟨by omega, b⟩
        · rintro ⟨a, b⟩; exact ⟨by omega, b⟩
      obtain ⟨q1, q2, q3⟩ := ih (np + 1) d d' (by omega) hne1 h
      have ht : ¬ Taken near np := by
        rintro ⟨a | a, -⟩
        · exact hc (Or.inl a)
        · exact hc (Or.inr (hne.mpr ⟨by omega, a⟩))
      refine ⟨by rw [e1]; exact q1, ?_, ?_⟩
      · intro i
        rw [q2 i, Finset.sum_insert hnot, if_neg (fun hx => ht hx.1), zero_add]
      · rcases q3 with ⟨a, b⟩ | ⟨m, hm, a, b, c, e⟩
        · left
          refine ⟨a, ?_⟩
          intro m' hm'
          rcases Finset.mem_insert.mp hm' with h' | h'
          · subst h'; intro hx; exact absurd hx ht
          · exact b m' h'
        · right
          refine ⟨m, Finset.mem_insert_of_mem hm, a, b, c, ?_⟩
          intro m' hm' hlt
          rcases Finset.mem_insert.mp hm' with h' | h'
          · have := (Finset.mem_Ico.mp hm).1
            omega
          · exact e m' h' hlt

/-- The Moon's position is not used. -/
theorem bodies_moon (pos : Vec3) (planet : ℕ → Vec3) (earth moon moon' : Vec3) :
    ∀ (n np : ℕ) (d : Direct), np + n ≤ 10 → pertBodies pos planet earth moon n np d = pertBodies pos planet earth moon' n np d := by
  intro n
  induction n with
  | zero => intro _ _ _; rfl
  | succ n ih =>
    intro np d h
    unfold pertBodies
    dsimp only
    have e : (if np ≤ 8 then planet np else if np = 9 then earth else fun i => moon i + earth i) =
        (if np ≤ 8 then planet np else if np = 9 then earth else fun i => moon' i + earth i) := by
      split
      · rfl
      · rw [if_pos (by omega), if_pos (by omega)]
    rw [e]
    split
    · split
      · rfl
      · exact ih _ _ (by omega)
    · exact ih _ _ (by omega)

/-- A pass of the loop, taken apart. -/
theorem step_ok {P : PertTheory} {fwd : Bool} {tfinal : ℝ} {s s' : Pert} (h : pertStep P fwd tfinal s = .ok s') :
    ∃ s1 s2 s3, pertEls P.plan94 fwd (s.t0 + s.rtn + pertTs fwd tfinal s / 2) s = .ok s1 ∧ pertMotions fwd (s.t0 + s.rtn + pertTs fwd tfinal s / 2) s1 = .ok s2 ∧
      pertMove P (s.t0 + s.rtn + pertTs fwd tfinal s / 2) (pertTs fwd tfinal s) s2 = .ok s3 ∧ pertRectify fwd tfinal s3 = .ok s' := by
  unfold pertStep at h
  dsimp only at h
  split at h
  · cases h
  · rename_i s1 h1
    split at h
    · cases h
    · rename_i s2 h2
      split at h
      · cases h
      · rename_i s3 h3
        exact ⟨s1, s2, s3, h1, h2, h3, h⟩

/-- The loop, one pass at a time. -/
theorem loop_done {P : PertTheory} {fwd : Bool} {tfinal : ℝ} {s : Pert} (hc : ¬ fbOf fwd * (tfinal - s.t0 - s.rtn) > 0) : pertLoop P fwd tfinal s = .ok s := by
  rw [pertLoop, dif_neg hc]

theorem loop_err {P : PertTheory} {fwd : Bool} {tfinal : ℝ} {s : Pert} {e : PErr} (hc : fbOf fwd * (tfinal - s.t0 - s.rtn) > 0)
    (h : pertStep P fwd tfinal s = .error e) : pertLoop P fwd tfinal s = .error e := by
  rw [pertLoop, dif_pos hc]
  split
  · rename_i e' h'; rw [h] at h'; cases h'; rfl
  · rename_i s' h'; rw [h] at h'; cases h'

theorem loop_next {P : PertTheory} {fwd : Bool} {tfinal : ℝ} {s s' : Pert} (hc : fbOf fwd * (tfinal - s.t0 - s.rtn) > 0)
    (h : pertStep P fwd tfinal s = .ok s') : pertLoop P fwd tfinal s = pertLoop P fwd tfinal s' := by
  rw [pertLoop, dif_pos hc]
  split
  · rename_i e' h'; rw [h] at h'; cases h'
  · rename_i s'' h'; rw [h] at h'; cases h'; rfl

/-- Induction over the passes of a run that ends normally. -/
theorem loop_induct {P : PertTheory} {fwd : Bool} {tfinal : ℝ} (Q : Pert → Prop)
    (hstep : ∀ s s', Q s → fbOf fwd * (tfinal - s.t0 - s.rtn) > 0 → pertStep P fwd tfinal s = .ok s' → Q s') :
    ∀ s s', Q s → pertLoop P fwd tfinal s = .ok s' → Q s' ∧ ¬ fbOf fwd * (tfinal - s'.t0 - s'.rtn) > 0 := by
  have key : ∀ (n : ℕ) (s s' : Pert), ⌈100 * (fbOf fwd * (tfinal - s.t0 - s.rtn))⌉₊ ≤ n → Q s → pertLoop P fwd tfinal s = .ok s' →
      Q s' ∧ ¬ fbOf fwd * (tfinal - s'.t0 - s'.rtn) > 0 := by
    intro n
    induction n with
    | zero =>
      intro s s' hn hq h
      have hc : ¬ fbOf fwd * (tfinal - s.t0 - s.rtn) > 0 := by
        intro hc
        have := Nat.ceil_pos.mpr (show 0 < 100 * (fbOf fwd * (tfinal - s.t0 - s.rtn)) by linarith)
        omega
      rw [loop_done hc] at h
      cases h
      exact ⟨hq, hc⟩
    | succ n ih =>
      intro s s' hn hq h
      by_cases hc : fbOf fwd * (tfinal - s.t0 - s.rtn) > 0
      · cases hs : pertStep P fwd tfinal s with
        | error e => rw [loop_err hc hs] at h; cases h
        | ok s1 =>
          rw [loop_next hc hs] at h
          have := pert_decreases hc hs
          exact ih s1 s' (by omega) (hstep s s1 hq hc hs) h
      · rw [loop_done hc] at h
        cases h
        exact ⟨hq, hc⟩
  intro s s' hq h
  exact key _ s s' le_rfl hq h

end Pal.Pertue
