import Verif.Model.Orbit

/-!
# Model of palPertue and palPertel

palPertue integrates the perturbations of the major planets by Encke's method.  The model follows the C code stage by stage; the loop over time is defined by
well-founded recursion on the time left, so its termination is checked by Lean.  Simplifications:

* numbers are real, so `T0 + RTN` reaches the final epoch exactly when the last timestep is `TLEFT`;
* TSPAN is always `TFINAL - T0` (lines 361 and 635) and TLEFT always `TSPAN - RTN` where it is tested, so they are computed, not stored; so are R2X3 and GC, which the
  C code tabulates from PVIN (lines 455-462);
* the loops over the eight planets (lines 421-434 and 444-463) treat each planet separately and nothing of what they have done can be seen after an abort, so they are
  expressed as "all planets succeed" (`gather`);
* `.error .undef` stands for a division by zero, after which the C code goes on with infinities and NaNs: nothing is claimed about such calls.
-/

namespace Pal
open Real

/-- How a part of palPertue can end other than normally: a division by zero, or `goto ABORT` (/repo/palPertue.c:212-655). -/
inductive PErr where
  | undef
  | abort

/-- Do something for each of the eight planets; all must succeed (/repo/palPertue.c:415-464). -/
noncomputable def gather {α : Type} (f : Fin 8 → Except PErr α) : Except PErr (Fin 8 → α) :=
  open Classical in
  if h : ∃ g : Fin 8 → α, ∀ i, f i = .ok (g i) then .ok h.choose
  else if ∃ i, f i = .error .undef then .error .undef else .error .abort

/-- The local variables of palPertue that live from one timestep to the next, /repo/palPertue.c:243-326. -/
structure Pert where
  ul : Univ
  t0 : ℝ
  rtn : ℝ
  perp : Vec3
  perv : Vec3
  pera : Vec3
  fd : Vec3
  first : Bool
  tpel : ℝ
  up : Fin 8 → Univ
  tpmo : ℝ
  pvin : Fin 8 → PV
  jstat : ℤ

/-- FB, the time direction, /repo/palPertue.c:368. -/
def fbOf (fwd : Bool) : ℝ := if fwd then 1 else -1

/-- Length of a vector as the C code computes it, /repo/palPertue.c:391-396 and elsewhere. -/
noncomputable def norm3 (p : Vec3) : ℝ := √(p 0 * p 0 + p 1 * p 1 + p 2 * p 2)

/-- TS before its sign is given, /repo/palPertue.c:387-405. -/
noncomputable def pertTs0 (first : Bool) (fd : Vec3) : ℝ :=
  if first then 1 / 100
  else if norm3 fd ≠ 0 then min 10 (max (1 / 100) (1 / 10 ^ 4 / norm3 fd)) else 10

/-- TS, /repo/palPertue.c:387-410. -/
noncomputable def pertTs (fwd : Bool) (tfinal : ℝ) (s : Pert) : ℝ :=
  let ts := pertTs0 s.first s.fd * fbOf fwd
  let tleft := tfinal - s.t0 - s.rtn
  if |ts| > |tleft| then tleft else ts

/-- New universal elements of one planet at TPEL, /repo/palPertue.c:422-433; the flag says that palPlanet warned of a remote epoch. -/
noncomputable def planetEls (plan94 : ℝ → ℝ → ℤ → PV × ℤ) (tpel : ℝ) (u : Univ) (np : ℤ) : Except PErr (Univ × Bool) :=
  let o := palPlanet plan94 tpel np
  if o.2 ≠ 1 ∧ o.2 ≠ 0 then .error .abort
  else
    let w := palPv2ue o.1 tpel 0 u
    if w.2 ≠ 0 then .error .abort else .ok (w.1, decide (o.2 = 1))

/-- The planetary elements are renewed if they are too old, /repo/palPertue.c:415-435. -/
noncomputable def pertEls (plan94 : ℝ → ℝ → ℤ → PV × ℤ) (fwd : Bool) (t : ℝ) (s : Pert) : Except PErr Pert :=
  if s.first = true ∨ |t - s.tpel| - 50 ≥ 1 / 10 ^ 6 then
    let tpel := t + fbOf fwd * 50
    match gather (fun np => planetEls plan94 tpel (s.up np) ((np.val : ℤ) + 1)) with
    | .error e => .error e
    | .ok g => .ok { s with tpel := tpel, up := fun np => (g np).1, jstat := if ∃ np, (g np).2 = true then 102 else s.jstat }
  else .ok s

/-- New elements and state vector (AU, AU/day) of one planet at TPMO, /repo/palPertue.c:446-462. -/
noncomputable def planetMotion (tpmo : ℝ) (u : Univ) (pv : PV) : Except PErr (Univ × PV) :=
  match palUe2pv tpmo u pv with
  | none => .error .undef
  | some (u, pv, j) =>
    if j ≠ 0 then .error .abort
    else if norm3 pv.p = 0 then .error .undef
    else .ok (u, { p := pv.p, v := fun i => pv.v i * spd })

/-- The planetary motions are renewed if they are too old, /repo/palPertue.c:438-464. -/
noncomputable def pertMotions (fwd : Bool) (t : ℝ) (s : Pert) : Except PErr Pert :=
  if s.first = true ∨ |t - s.tpmo| - 5 ≥ 1 / 10 ^ 6 then
    let tpmo := t + fbOf fwd * 5
    match gather (fun np => planetMotion tpmo (s.up np) (s.pvin np)) with
    | .error e => .error e
    | .ok g => .ok { s with tpmo := tpmo, up := fun np => (g np).1, pvin := fun np => (g np).2 }
  else .ok s

/-- A planet's position extrapolated over `dt` days from its state vector, /repo/palPertue.c:510-528 with R2X3 and GC of lines 456-462. -/
noncomputable def planetAt (pv : PV) (dt : ℝ) : Vec3 :=
  let r2 := pv.p 0 * pv.p 0 + pv.p 1 * pv.p 1 + pv.p 2 * pv.p 2
  let w2 := pv.v 0 * dt * (pv.v 0 * dt) + pv.v 1 * dt * (pv.v 1 * dt) + pv.v 2 * dt * (pv.v 2 * dt)
  let fc := 1 + w2 / (r2 * 3)
  let fg := 1 - gcon * gcon / (2 * r2 * √r2) * (dt * dt)
  fun i => fg * (pv.p i + fc * pv.v i * dt)

/-- AMAS, inverse masses of Mercury … Neptune, Earth, Moon, /repo/palPertue.c:338-342. -/
noncomputable def amas (np : ℕ) : ℝ :=
  if np = 1 then 6023600 else if np = 2 then 408523.5 else if np = 3 then 328900.5 else if np = 4 then 3098710 else if np = 5 then 1047.355
  else if np = 6 then 3498.5 else if np = 7 then 22869 else if np = 8 then 19314 else if np = 9 then 332946.038 else 27068709

/-- FD, status and near-Earth flag while the perturbing bodies are gone through (/repo/palPertue.c:490-605). -/
structure Direct where
  fd : Vec3
  jstat : ℤ
  ne : Bool

/-- One pass through the loop over the perturbing bodies, given the position RHO of the body, /repo/palPertue.c:554-595.  `none`: division by zero, the body is at the
Sun. -/
noncomputable def pertPull (pos rho : Vec3) (np : ℕ) (d : Direct) : Option Direct :=
  let delta : Vec3 := fun i => rho i - pos i
  let r := norm3 delta
  let ne := d.ne || decide (np = 3 ∧ r < 1)
  if ne = true ∧ np = 3 then some { d with ne := ne }
  else if r < 1 / 10 ^ 4 then some { d with jstat := np, ne := ne }
  else if norm3 rho = 0 then none
  else
    let rho3 := (rho 0 * rho 0 + rho 1 * rho 1 + rho 2 * rho 2) * norm3 rho
    let delta3 := (delta 0 * delta 0 + delta 1 * delta 1 + delta 2 * delta 2) * r
    some { fd := fun i => d.fd i + (delta i / delta3 - rho i / rho3) / amas np, jstat := d.jstat, ne := ne }

/-- The loop over the perturbing bodies NP = np, np + 1, … while NP < 10, /repo/palPertue.c:505-596: `n` of them are left.  `planet` gives the extrapolated positions of
the planets, `earth` that of the Earth and `moon` that of the Moon. -/
noncomputable def pertBodies (pos : Vec3) (planet : ℕ → Vec3) (earth moon : Vec3) : ℕ → ℕ → Direct → Option Direct
  | 0, _, d => some d
  | n + 1, np, d =>
    let rho := if np ≤ 8 then planet np else if np = 9 then earth else fun i => moon i + earth i
    if np ≤ 8 ∨ d.ne = true then
      match pertPull pos rho np d with
      | none => none
      | some d => pertBodies pos planet earth moon n (np + 1) d
    else pertBodies pos planet earth moon n (np + 1) d

/-- The number of passes through that loop, /repo/palPertue.c:505 (`for (NP=1; NP<10; NP++)`). -/
def pertNBodies : ℕ := 9

/-- What the theories that palPertue calls say about the Earth, the Moon and precession (/repo/palPertue.c:212-655). -/
structure PertTheory where
  plan94 : ℝ → ℝ → ℤ → PV × ℤ
  epv00 : ℝ → ℝ → Epv
  T : Theory
  dmoon : ℝ → PV

/-- The direct accelerations at epoch `t` on a body at `pos`, /repo/palPertue.c:497-596. -/
noncomputable def pertDirect (P : PertTheory) (t tpmo : ℝ) (pvin : Fin 8 → PV) (jstat : ℤ) (pos : Vec3) : Option Direct :=
  pertBodies pos (fun np => planetAt (pvin (Fin.ofNat 8 (np - 1))) (t - tpmo)) (palEpv P.epv00 t).ph
    (eraRxp (palPrec P.T (palEpjR t) 2000) (P.dmoon t).p) pertNBodies 1 { fd := fun _ => 0, jstat := jstat, ne := false }

/-- The indirect acceleration, /repo/palPertue.c:473-492. -/
noncomputable def pertIndirect (pos0 pos : Vec3) : Vec3 := fun i =>
  pos0 i / ((pos0 0 * pos0 0 + pos0 1 * pos0 1 + pos0 2 * pos0 2) * norm3 pos0) - pos i / ((pos 0 * pos 0 + pos 1 * pos 1 + pos 2 * pos 2) * norm3 pos)

/-- The predicted position of the perturbed body at the middle of the timestep, /repo/palPertue.c:476-478. -/
noncomputable def pertPos (s : Pert) (p0 : Vec3) (hts : ℝ) : Vec3 := fun i => p0 i + s.perp i + (s.perv i + s.pera i * hts / 2) * hts

/-- The forces at the middle of a timestep `ts`, and the update of the perturbations to its end, /repo/palPertue.c:466-607. -/
noncomputable def pertMove (P : PertTheory) (t ts : ℝ) (s : Pert) : Except PErr Pert :=
  match palUe2pv t s.ul ⟨fun _ => 0, fun _ => 0⟩ with
  | none => .error .undef
  | some (ul, pv0, j) =>
    if j ≠ 0 then .error .abort
    else
      let pos := pertPos s pv0.p (ts / 2)
      if norm3 pos = 0 ∨ norm3 pv0.p = 0 then .error .undef
      else
        let fi := pertIndirect pv0.p pos
        match pertDirect P t s.tpmo s.pvin s.jstat pos with
        | none => .error .undef
        | some d =>
          let w : Vec3 := fun i => (fi i + d.fd i) * (gcon * gcon)
          .ok { s with
            ul := ul, first := false, rtn := s.rtn + ts, fd := d.fd, jstat := d.jstat
            perp := fun i => s.perp i + (s.perv i + w i * ts / 2) * ts
            perv := fun i => s.perv i + w i * ts
            pera := w }

/-- Rectification of the orbit, after 100 days or at the end, /repo/palPertue.c:609-638. -/
noncomputable def pertRectify (fwd : Bool) (tfinal : ℝ) (s : Pert) : Except PErr Pert :=
  if |s.rtn| ≥ 100 ∨ fbOf fwd * (tfinal - s.t0 - s.rtn) ≤ 0 then
    let t0 := s.t0 + s.rtn
    match palUe2pv t0 s.ul ⟨fun _ => 0, fun _ => 0⟩ with
    | none => .error .undef
    | some (ul, pv0, j) =>
      if j ≠ 0 then .error .abort
      else
        let pv : PV := { p := fun i => pv0.p i + s.perp i, v := fun i => pv0.v i + s.perv i / spd }
        let w := palPv2ue pv t0 0 ul
        if w.2 ≠ 0 then .error .abort
        else .ok { s with ul := w.1, t0 := t0, rtn := 0, perp := fun _ => 0, perv := fun _ => 0, pera := fun i => s.fd i * (gcon * gcon) }
  else .ok s

/-- The body of the loop over time, /repo/palPertue.c:384-640. -/
noncomputable def pertStep (P : PertTheory) (fwd : Bool) (tfinal : ℝ) (s : Pert) : Except PErr Pert :=
  let ts := pertTs fwd tfinal s
  let t := s.t0 + s.rtn + ts / 2
  match pertEls P.plan94 fwd t s with
  | .error e => .error e
  | .ok s =>
    match pertMotions fwd t s with
    | .error e => .error e
    | .ok s =>
      match pertMove P t ts s with
      | .error e => .error e
      | .ok s => pertRectify fwd tfinal s

theorem fbOf_sq (fwd : Bool) : fbOf fwd * fbOf fwd = 1 := by cases fwd <;> norm_num [fbOf]

theorem pertEls_time {plan94 : ℝ → ℝ → ℤ → PV × ℤ} {fwd : Bool} {t : ℝ} {s s' : Pert} (h : pertEls plan94 fwd t s = .ok s') :
    s'.t0 = s.t0 ∧ s'.rtn = s.rtn ∧ s'.ul = s.ul ∧ s'.perp = s.perp ∧ s'.perv = s.perv ∧ s'.pera = s.pera := by
  unfold pertEls at h
  split at h
  · dsimp only at h
    split at h
    · cases h
    · cases h; exact ⟨rfl, rfl, rfl, rfl, rfl, rfl⟩
  · cases h; exact ⟨rfl, rfl, rfl, rfl, rfl, rfl⟩

theorem pertMotions_time {fwd : Bool} {t : ℝ} {s s' : Pert} (h : pertMotions fwd t s = .ok s') :
    s'.t0 = s.t0 ∧ s'.rtn = s.rtn ∧ s'.ul = s.ul ∧ s'.perp = s.perp ∧ s'.perv = s.perv ∧ s'.pera = s.pera ∧ s'.jstat = s.jstat := by
  unfold pertMotions at h
  split at h
  · dsimp only at h
    split at h
    · cases h
    · cases h; exact ⟨rfl, rfl, rfl, rfl, rfl, rfl, rfl⟩
  · cases h; exact ⟨rfl, rfl, rfl, rfl, rfl, rfl, rfl⟩

theorem pertMove_time {P : PertTheory} {t ts : ℝ} {s s' : Pert} (h : pertMove P t ts s = .ok s') : s'.t0 = s.t0 ∧ s'.rtn = s.rtn + ts := by
  unfold pertMove at h
  split at h
  · cases h
  · split at h
    · cases h
    · dsimp only at h
      split at h
      · cases h
      · split at h
        · cases h
        · cases h; exact ⟨rfl, rfl⟩

theorem pertRectify_time {fwd : Bool} {tfinal : ℝ} {s s' : Pert} (h : pertRectify fwd tfinal s = .ok s') : s'.t0 + s'.rtn = s.t0 + s.rtn := by
  unfold pertRectify at h
  split at h
  · dsimp only at h
    split at h
    · cases h
    · split at h
      · cases h
      · split at h
        · cases h
        · cases h; simp
  · cases h; rfl

/-- A pass of the loop advances the time by the timestep. -/
theorem pertStep_time {P : PertTheory} {fwd : Bool} {tfinal : ℝ} {s s' : Pert} (h : pertStep P fwd tfinal s = .ok s') :
    s'.t0 + s'.rtn = s.t0 + s.rtn + pertTs fwd tfinal s := by
  unfold pertStep at h
  dsimp only at h
  split at h
  · cases h
  · rename_i s1 h1
    split at h
    · cases h
    · rename_i s2 h2
      split at h
      · cases h
      · rename_i s3 h3
        obtain ⟨a1, b1, -⟩ := pertEls_time h1
        obtain ⟨a2, b2, -⟩ := pertMotions_time h2
        obtain ⟨a3, b3⟩ := pertMove_time h3
        rw [pertRectify_time h, a3, b3, a2, b2, a1, b1]
        ring

theorem pertTs0_ge (first : Bool) (fd : Vec3) : 1 / 100 ≤ pertTs0 first fd := by
  unfold pertTs0
  split
  · exact le_refl _
  · split
    · exact le_min (by norm_num) (le_max_left _ _)
    · norm_num

/-- The timestep has the right sign, and is at least 0.01 day long unless it is all the time left. -/
theorem pertTs_spec {fwd : Bool} {tfinal : ℝ} {s : Pert} (h : fbOf fwd * (tfinal - s.t0 - s.rtn) > 0) :
    (fbOf fwd * pertTs fwd tfinal s ≥ 1 / 100 ∧ fbOf fwd * pertTs fwd tfinal s ≤ fbOf fwd * (tfinal - s.t0 - s.rtn)) ∨ pertTs fwd tfinal s = tfinal - s.t0 - s.rtn := by
  unfold pertTs
  dsimp only
  have hge := pertTs0_ge s.first s.fd
  generalize pertTs0 s.first s.fd = x at hge
  generalize tfinal - s.t0 - s.rtn = y at h
  split
  · right; rfl
  · rename_i hc
    left
    cases fwd <;> simp only [fbOf] at * <;> norm_num at *
    · rw [abs_of_pos (by linarith), abs_of_neg h] at hc
      exact ⟨hge, by linarith⟩
    · rw [abs_of_pos (by linarith), abs_of_pos h] at hc
      exact ⟨hge, hc⟩

theorem pert_decreases {P : PertTheory} {fwd : Bool} {tfinal : ℝ} {s s' : Pert} (hc : fbOf fwd * (tfinal - s.t0 - s.rtn) > 0)
    (h : pertStep P fwd tfinal s = .ok s') :
    ⌈100 * (fbOf fwd * (tfinal - s'.t0 - s'.rtn))⌉₊ < ⌈100 * (fbOf fwd * (tfinal - s.t0 - s.rtn))⌉₊ := by
  have ht := pertStep_time h
  have e : tfinal - s'.t0 - s'.rtn = (tfinal - s.t0 - s.rtn) - pertTs fwd tfinal s := by linarith
  rw [e]
  rcases pertTs_spec hc with ⟨h1, -⟩ | h1
  · have h2 : 100 * (fbOf fwd * (tfinal - s.t0 - s.rtn - pertTs fwd tfinal s)) ≤ 100 * (fbOf fwd * (tfinal - s.t0 - s.rtn)) - 1 := by
      rw [mul_sub (fbOf fwd)]; linarith
    have h3 : 0 < ⌈100 * (fbOf fwd * (tfinal - s.t0 - s.rtn))⌉₊ := Nat.ceil_pos.mpr (by linarith)
    calc ⌈100 * (fbOf fwd * (tfinal - s.t0 - s.rtn - pertTs fwd tfinal s))⌉₊
        ≤ ⌈100 * (fbOf fwd * (tfinal - s.t0 - s.rtn)) - 1⌉₊ := Nat.ceil_mono h2
      _ = ⌈100 * (fbOf fwd * (tfinal - s.t0 - s.rtn))⌉₊ - 1 := by
          exact_mod_cast Nat.ceil_sub_natCast (100 * (fbOf fwd * (tfinal - s.t0 - s.rtn))) 1
      _ < _ := by omega
  · rw [h1]
    simp only [sub_self, mul_zero, Nat.ceil_zero]
    exact Nat.ceil_pos.mpr (by linarith)

/-- The loop over time, /repo/palPertue.c:383-641. -/
noncomputable def pertLoop (P : PertTheory) (fwd : Bool) (tfinal : ℝ) (s : Pert) : Except PErr Pert :=
  if hc : fbOf fwd * (tfinal - s.t0 - s.rtn) > 0 then
    match h : pertStep P fwd tfinal s with
    | .error e => .error e
    | .ok s' => pertLoop P fwd tfinal s'
  else .ok s
termination_by ⌈100 * (fbOf fwd * (tfinal - s.t0 - s.rtn))⌉₊
decreasing_by exact pert_decreases hc h

/-- What palPertue's variables hold when the loop is entered, /repo/palPertue.c:344-380.  `up0`, `pvin0` and `fd0` stand for the arrays UP, PVIN and FD, which are not
initialised. -/
noncomputable def pertInit (date : ℝ) (u : Univ) (up0 : Fin 8 → Univ) (pvin0 : Fin 8 → PV) (fd0 : Vec3) : Pert :=
  { ul := u, t0 := u.t0, rtn := 0, perp := fun _ => 0, perv := fun _ => 0, pera := fun _ => 0, fd := fd0, first := true, tpel := 0, up := up0, tpmo := 0
    pvin := pvin0, jstat := if |date - u.t0| > 36525 then 101 else 0 }

/-- `palPertue`, /repo/palPertue.c:212-655: new elements and status. -/
noncomputable def palPertue (P : PertTheory) (date : ℝ) (u : Univ) (up0 : Fin 8 → Univ) (pvin0 : Fin 8 → PV) (fd0 : Vec3) : Option (Univ × ℤ) :=
  match pertLoop P (decide (0 ≤ date - u.t0)) date (pertInit date u up0 pvin0 fd0) with
  | .error .undef => none
  | .error .abort => some (u, -1)
  | .ok s => some (s.ul, s.jstat)

/-- `palPertel`, /repo/palPertel.c:171-212: the returned elements (`el` before the call) and status.  `u0` stands for the uninitialised array u.  (The C function returns
all the elements but the form and the daily motion, which go into the local variables jf and dm: here they are fields of the result as well; `el.jform` and `el.dm`
stand for the uninitialised contents of jf and dm.) -/
noncomputable def palPertel (P : PertTheory) (jform : ℤ) (date0 date1 epoch orbi anode perih aorq e am : ℝ) (el : Elems)
    (u0 : Univ) (up0 : Fin 8 → Univ) (pvin0 : Fin 8 → PV) (fd0 : Vec3) : Option (Elems × ℤ) :=
  if jform < 2 ∨ jform > 3 then some (el, -1)
  else
    match palEl2ue date0 jform epoch orbi anode perih aorq e am 0 u0 with
    | none => none
    | some (u, j) =>
      if j ≠ 0 then some (el, j)
      else
        match palPertue P date1 u up0 pvin0 fd0 with
        | none => none
        | some (u, j) =>
          let jstat := if j > 0 then j else 0
          if ¬ j > 0 ∧ j < 0 then some (el, -5)
          else
            match palUe2el u jform el with
            | none => none
            | some (el1, j) => some (el1, if el1.jform ≠ jform ∨ j ≠ 0 then -5 else jstat)

end Pal
