import Verif.Model.Blocks
import Verif.Props.Memory
import Verif.Props.PertueEx
import Verif.Props.Aoppa

/-!
# C117: the layout of the argument blocks

The three layouts below are those of the headers of palMappa, palAopqk and palUe2pv.  `memX` is the model of palX on a memory, `palX` the function of records that the other claims are about.
-/

namespace Pal.Props
open Pal Pal.Memory Real

/-- The contents of amprms[21] at an address, as documented in /repo/palMappa.c:24-33. -/
def amprmsAt (m : Mem) (p : ℕ) : Amprms :=
  { pmt := m p, eb := vecAt m (p + 1), ehn := vecAt m (p + 4), gr2e := m (p + 7), abv := vecAt m (p + 8), ab1 := m (p + 11), mat := matAt m (p + 12) }

/-- The contents of aoprms[14] at an address, as documented in /repo/palAopqk.c:27-40. -/
def aoprmsAt (m : Mem) (p : ℕ) : Aoprms :=
  { phi := m p, sphi := m (p + 1), cphi := m (p + 2), diurab := m (p + 3), hm := m (p + 4), tdk := m (p + 5), pmb := m (p + 6), rh := m (p + 7), wl := m (p + 8), tlr := m (p + 9),
    refa := m (p + 10), refb := m (p + 11), plon := m (p + 12), st := m (p + 13) }

/-- The contents of u[13] at an address, as documented in /repo/palUe2pv.c:33-46. -/
def univAt (m : Mem) (p : ℕ) : Univ :=
  { cm := m p, alpha := m (p + 1), t0 := m (p + 2), p0 := vecAt m (p + 3), v0 := vecAt m (p + 6), r0 := m (p + 9), sigma := m (p + 10), t := m (p + 11), psi := m (p + 12) }

/-- The contents of pv[6] at an address. -/
def pvAt (m : Mem) (p : ℕ) : PV := { p := vecAt m p, v := vecAt m (p + 3) }

theorem ow_refl (m : Mem) (p n : ℕ) : OnlyWrites m m p n := fun _ _ => rfl

theorem ow_store {m m' : Mem} {p n q : ℕ} {v : ℝ} (h : OnlyWrites m m' p n) (h1 : p ≤ q) (h2 : q < p + n) : OnlyWrites m (Function.update m' q v) p n := fun x hx => by
  rw [upd_ne (by omega)]; exact h x hx

theorem ab1_congr {v w : Vec3} (h : v = w) : √(1 - (eraPn v).1 * (eraPn v).1) = √(1 - (eraPn w).1 * (eraPn w).1) := by rw [h]

/-- **C117** palMappa fills the 21 elements in the documented order, and nothing else. -/
theorem C117_mappa (T : Theory) (epv00 : ℝ → ℝ → Epv) (eq date : ℝ) (m : Mem) (p : ℕ) :
    ∃ m', memMappa T epv00 eq date p m = ((), m') ∧ amprmsAt m' p = palMappa T epv00 eq date ∧ OnlyWrites m m' p 21 := by
  refine ⟨_, rfl, ?_, ?_⟩
  · simp only [amprmsAt, palMappa, Amprms.mk.injEq]
    refine ⟨?_, ?_, ?_, ?_, ?_, ?_, ?_⟩
    · simp [Function.update, Nat.add_assoc]
    · funext i; fin_cases i <;> simp [Function.update, vecAt, Nat.add_assoc]
    · funext i; fin_cases i <;> simp [Function.update, vecAt, Nat.add_assoc]
    · simp [Function.update, Nat.add_assoc]
    · funext i; fin_cases i <;> simp [Function.update, vecAt, Nat.add_assoc]
    · simp only [upd_ne (show p + 11 ≠ p + 12 by omega), upd_ne (show p + 11 ≠ p + 12 + 1 by omega), upd_ne (show p + 11 ≠ p + 12 + 2 by omega),
        upd_ne (show p + 11 ≠ p + 12 + 3 by omega), upd_ne (show p + 11 ≠ p + 12 + 3 + 1 by omega), upd_ne (show p + 11 ≠ p + 12 + 3 + 2 by omega),
        upd_ne (show p + 11 ≠ p + 12 + 6 by omega), upd_ne (show p + 11 ≠ p + 12 + 6 + 1 by omega), upd_ne (show p + 11 ≠ p + 12 + 6 + 2 by omega), Function.update_self]
      refine ab1_congr ?_
      funext i; fin_cases i <;> simp [Function.update, Nat.add_assoc]
    · funext i j; fin_cases i <;> fin_cases j <;> simp [Function.update, matAt, Nat.add_assoc]
  · repeat refine ow_store ?_ (by omega) (by omega)
    intro q hq
    dsimp only
    rw [if_neg (by omega)]

/-- **C117** palMapqk, palMapqkz and palAmpqk use the 21 elements in the documented order and store only their two results, wherever those are (even in the block itself). -/
theorem C117_mapqk (rm dm pr pd px rv : ℝ) (m : Mem) (p ra da : ℕ) (h : ra ≠ da) :
    ∃ m', memMapqk rm dm pr pd px rv p ra da m = ((), m') ∧ (m' ra, m' da) = palMapqk rm dm pr pd px rv (amprmsAt m p) ∧ ∀ q, q ≠ ra → q ≠ da → m' q = m q := by
  refine ⟨_, rfl, ?_, fun q h1 h2 => ?_⟩
  · have h' := h.symm
    refine Prod.ext ?_ ?_
    · show Function.update _ ra _ ra = _
      rw [Function.update_self, upd_ne h, Function.update_self]; rfl
    · show Function.update _ ra _ da = _
      rw [upd_ne h', Function.update_self]; rfl
  · show Function.update _ ra _ q = _
    rw [upd_ne h1, upd_ne h2, upd_ne h1]

@[inherit_doc C117_mapqk]
theorem C117_mapqkz (rm dm : ℝ) (m : Mem) (p ra da : ℕ) (h : ra ≠ da) :
    ∃ m', memMapqkz rm dm p ra da m = ((), m') ∧ (m' ra, m' da) = palMapqkz rm dm (amprmsAt m p) ∧ ∀ q, q ≠ ra → q ≠ da → m' q = m q := by
  refine ⟨_, rfl, ?_, fun q h1 h2 => ?_⟩
  · have h' := h.symm
    refine Prod.ext ?_ ?_
    · show Function.update _ ra _ ra = _
      rw [Function.update_self, upd_ne h, Function.update_self]; rfl
    · show Function.update _ ra _ da = _
      rw [upd_ne h', Function.update_self]; rfl
  · show Function.update _ ra _ q = _
    rw [upd_ne h1, upd_ne h2, upd_ne h1]

theorem ampqk_unread (am : Amprms) (ra da x : ℝ) (y : Vec3) : palAmpqk ra da { am with pmt := x, eb := y } = palAmpqk ra da am := by
  have h1 : ampAberr { am with pmt := x, eb := y } = ampAberr am := rfl
  have h2 : ampDefl { am with pmt := x, eb := y } = ampDefl am := rfl
  unfold palAmpqk
  rw [h1, h2]

/-- The direction that palAmpqk forms, for any two functions in the place of the passes of its loops. -/
noncomputable def ampqkDir (f g : Vec3 → Vec3 → Vec3) (mat : Mat3) (ra da : ℝ) : ℝ × ℝ :=
  eraC2s ((g ((f (eraTrxp mat (eraS2c ra da)))^[2] (eraTrxp mat (eraS2c ra da))))^[5] ((f (eraTrxp mat (eraS2c ra da)))^[2] (eraTrxp mat (eraS2c ra da))))

theorem palAmpqk_dir (ra da : ℝ) (am : Amprms) : palAmpqk ra da am = (eraAnp (ampqkDir (ampAberr am) (ampDefl am) am.mat ra da).1, (ampqkDir (ampAberr am) (ampDefl am) am.mat ra da).2) := by
  unfold palAmpqk ampqkDir
  rfl

theorem memAmpqk_eq (ra da : ℝ) (m : Mem) (p rm dm : ℕ) (s : ℝ × ℝ) (am : Amprms) (ham : am = { amprmsAt m p with pmt := 0, eb := fun _ => 0 })
    (hs : s = ampqkDir (ampAberr am) (ampDefl am) am.mat ra da) :
    memAmpqk ra da p rm dm m =
      ((), Function.update (Function.update (Function.update m rm s.1) dm s.2) rm (eraAnp ((Function.update (Function.update m rm s.1) dm s.2) rm))) := by
  unfold memAmpqk
  have e : (am : Amprms) = { pmt := 0, eb := fun _ => 0, ehn := vecAt m (p + 4), gr2e := m (p + 7), abv := vecAt m (p + 8), ab1 := m (p + 11), mat := matAt m (p + 12) } := ham
  have e1 : loadVec (p + 4) m = (vecAt m (p + 4), m) := rfl
  have e2 : loadVec (p + 8) m = (vecAt m (p + 8), m) := rfl
  have e3 : loadMat (p + 12) m = (matAt m (p + 12), m) := rfl
  have e4 : am.mat = matAt m (p + 12) := by rw [e]
  simp only [bind, StateT.bind, load, e1, e2, e3]
  rw [← e, ← e4]
  unfold ampqkDir at hs
  rw [← hs]
  simp only [store]

@[inherit_doc C117_mapqk]
theorem C117_ampqk (ra da : ℝ) (m : Mem) (p rm dm : ℕ) (h : rm ≠ dm) :
    ∃ m', memAmpqk ra da p rm dm m = ((), m') ∧ (m' rm, m' dm) = palAmpqk ra da (amprmsAt m p) ∧ ∀ q, q ≠ rm → q ≠ dm → m' q = m q := by
  refine ⟨_, memAmpqk_eq ra da m p rm dm _ _ rfl rfl, ?_, fun q h1 h2 => ?_⟩
  · rw [← ampqk_unread (amprmsAt m p) ra da 0 (fun _ => 0), palAmpqk_dir]
    generalize ampqkDir _ _ _ _ _ = s
    refine Prod.ext ?_ ?_
    · dsimp only
      rw [Function.update_self, upd_ne h, Function.update_self]
    · dsimp only
      rw [upd_ne h.symm, Function.update_self]
  · rw [upd_ne h1, upd_ne h2, upd_ne h1]

theorem prog_seq {A B : Prog Unit} {m m1 m2 : Mem} (h1 : A m = ((), m1)) (h2 : B m1 = ((), m2)) : (A >>= fun _ => B) m = ((), m2) := by
  show (match A m with | (_, s) => B s) = _
  rw [h1]; exact h2

/-- **C117** (end to end) A block filled by palMappa and passed to palMapqk or palAmpqk gives the results of palMap and palAmp, wherever block and results are. -/
theorem C117_map (T : Theory) (epv00 : ℝ → ℝ → Epv) (rm dm pr pd px rv eq date : ℝ) (m : Mem) (p ra da : ℕ) (h : ra ≠ da) :
    (∃ m', (memMappa T epv00 eq date p >>= fun _ => memMapqk rm dm pr pd px rv p ra da) m = ((), m') ∧ (m' ra, m' da) = palMap T epv00 rm dm pr pd px rv eq date) ∧
    (∃ m', (memMappa T epv00 eq date p >>= fun _ => memAmpqk rm dm p ra da) m = ((), m') ∧ (m' ra, m' da) = palAmp T epv00 rm dm date eq) := by
  obtain ⟨m1, e1, f1, -⟩ := C117_mappa T epv00 eq date m p
  obtain ⟨m2, e2, f2, -⟩ := C117_mapqk rm dm pr pd px rv m1 p ra da h
  obtain ⟨m3, e3, f3, -⟩ := C117_ampqk rm dm m1 p ra da h
  exact ⟨⟨m2, prog_seq e1 e2, by rw [f2, f1, palMap]⟩, ⟨m3, prog_seq e1 e3, by rw [f3, f1, palAmp]⟩⟩

/-- **C117** palAoppat changes element 13 (the sidereal time) of the block and nothing else. -/
theorem C117_aoppat (date : ℝ) (m : Mem) (p : ℕ) :
    ∃ m', memAoppat date p m = ((), m') ∧ aoprmsAt m' p = palAoppat date (aoprmsAt m p) ∧ OnlyWrites m m' (p + 13) 1 := by
  refine ⟨_, rfl, ?_, ow_store (ow_refl _ _ _) le_rfl (by omega)⟩
  simp [aoprmsAt, palAoppat, Function.update]

/-- **C117** palAoppa fills the 14 elements in the documented order, and nothing else. -/
theorem C117_aoppa (eqeqx : ℝ → ℝ) (date dut elongm phim hm xp yp tdk pmb rh wl tlr : ℝ) (m : Mem) (p : ℕ) (a : Aoprms)
    (h : palAoppa eqeqx date dut elongm phim hm xp yp tdk pmb rh wl tlr = some a) :
    ∃ m', memAoppa eqeqx date dut elongm phim hm xp yp tdk pmb rh wl tlr p m = (some (), m') ∧ aoprmsAt m' p = a ∧ OnlyWrites m m' p 14 := by
  unfold palAoppa at h
  dsimp only at h
  unfold memAoppa
  simp only [bind, StateT.bind, pure, store]
  cases hr : palRefco hm tdk pmb rh wl (aopSite elongm phim xp yp).2 tlr 1e-10 with
  | none => rw [hr] at h; simp at h
  | some ab =>
    obtain ⟨x, y⟩ := ab
    rw [hr] at h
    simp only [Option.some.injEq] at h
    refine ⟨_, rfl, ?_, ?_⟩
    · rw [← h]
      simp [aoprmsAt, palAoppat, Function.update]
    · repeat refine ow_store ?_ (by omega) (by omega)
      exact ow_refl _ _ _

/-- **C117** palAopqk uses the 14 elements in the documented order and stores only its five results, wherever those are, as long as they are five different places. -/
theorem C117_aopqk (rap dap : ℝ) (m : Mem) (p aob zob hob dob rob : ℕ) (hd : [aob, zob, hob, dob, rob].Nodup) (o : Observed) (h : palAopqk rap dap (aoprmsAt m p) = some o) :
    ∃ m', memAopqk rap dap p aob zob hob dob rob m = (some (), m') ∧ m' aob = o.aob ∧ m' zob = o.zob ∧ m' hob = o.hob ∧ m' dob = o.dob ∧ m' rob = o.rob ∧
      ∀ q, q ∉ [aob, zob, hob, dob, rob] → m' q = m q := by
  unfold palAopqk at h
  dsimp only at h
  unfold memAopqk
  simp only [bind, StateT.bind, pure, load]
  have t : ∀ x, aopTopo rap dap { aoprmsAt m p with plon := x } = aopTopo rap dap (aoprmsAt m p) := fun _ => rfl
  have r : ∀ x z, aopRefract { aoprmsAt m p with plon := x } z = aopRefract (aoprmsAt m p) z := fun _ _ => rfl
  have t0 := t 0
  have r0 := r 0
  simp only [aoprmsAt] at t0 r0 h
  rw [t0, r0]
  split at h
  · simp at h
  · rename_i zd hz
    rw [hz]
    simp only [Option.some.injEq] at h
    simp only [List.nodup_cons, List.mem_cons, List.not_mem_nil, or_false, not_or, not_false_eq_true, List.nodup_nil, and_true] at hd
    obtain ⟨⟨h1, h2, h3, h4⟩, ⟨h5, h6, h7⟩, ⟨h8, h9⟩, h10⟩ := hd
    refine ⟨_, rfl, ?_, ?_, ?_, ?_, ?_, ?_⟩
    · rw [← h]; simp [Function.update, h1, h2, h3, h4]
    · rw [← h]; simp [Function.update, h5, h6, h7]
    · rw [← h]; simp [Function.update, h8, h9]
    · rw [← h]; simp [Function.update, h10]
    · rw [← h]; simp [Function.update]
    · intro q hq
      simp only [List.mem_cons, List.not_mem_nil, or_false, not_or] at hq
      rw [upd_ne hq.2.2.2.2, upd_ne hq.2.2.2.1, upd_ne hq.2.2.1, upd_ne hq.2.1, upd_ne hq.1]

theorem oapqk_unread (a : Aoprms) (type : List Char) (ob1 ob2 x : ℝ) : palOapqk type ob1 ob2 { a with plon := x } = palOapqk type ob1 ob2 a := by
  have t : oapVector (obType type.head?) ob1 ob2 { a with plon := x } = oapVector (obType type.head?) ob1 ob2 a := rfl
  have r : oapRefr { a with plon := x } = oapRefr a := rfl
  unfold palOapqk
  rw [t, r]

theorem memOapqk_eq (type : List Char) (ob1 ob2 : ℝ) (m : Mem) (p rap dap : ℕ) :
    memOapqk type ob1 ob2 p rap dap m =
      match palOapqk type ob1 ob2 { aoprmsAt m p with plon := 0 } with
      | none => (none, m)
      | some o => (some (), Function.update (Function.update m dap o.2) rap o.1) := by
  unfold memOapqk palOapqk
  simp only [bind, StateT.bind, load]
  simp only [aoprmsAt]
  generalize oapRefr _ _ _ _ = d
  cases d <;> rfl

/-- **C117** palOapqk uses the 14 elements in the documented order and stores only its two results, wherever those are. -/
theorem C117_oapqk (type : List Char) (ob1 ob2 : ℝ) (m : Mem) (p rap dap : ℕ) (hd : rap ≠ dap) (o : ℝ × ℝ) (h : palOapqk type ob1 ob2 (aoprmsAt m p) = some o) :
    ∃ m', memOapqk type ob1 ob2 p rap dap m = (some (), m') ∧ (m' rap, m' dap) = o ∧ ∀ q, q ≠ rap → q ≠ dap → m' q = m q := by
  rw [memOapqk_eq, oapqk_unread, h]
  refine ⟨_, rfl, ?_, fun q h1 h2 => ?_⟩
  · rw [Function.update_self, upd_ne hd.symm, Function.update_self]
  · rw [upd_ne h1, upd_ne h2]

/-- **C117** (end to end) A block filled by palAoppa and passed to palAopqk or palOapqk gives the results of palAop and palOap, wherever block and results are. -/
theorem C117_aop (eqeqx : ℝ → ℝ) (rap dap date dut elongm phim hm xp yp tdk pmb rh wl tlr : ℝ) (type : List Char) (m : Mem) (p aob zob hob dob rob : ℕ)
    (hd : [aob, zob, hob, dob, rob].Nodup) :
    ∃ m1, memAoppa eqeqx date dut elongm phim hm xp yp tdk pmb rh wl tlr p m = (some (), m1) ∧
      (∀ o, palAop eqeqx rap dap date dut elongm phim hm xp yp tdk pmb rh wl tlr = some o → ∃ m2, memAopqk rap dap p aob zob hob dob rob m1 = (some (), m2) ∧
        m2 aob = o.aob ∧ m2 zob = o.zob ∧ m2 hob = o.hob ∧ m2 dob = o.dob ∧ m2 rob = o.rob) ∧
      (∀ o, palOap eqeqx type rap dap date dut elongm phim hm xp yp tdk pmb rh wl tlr = some o → ∃ m2, memOapqk type rap dap p aob zob m1 = (some (), m2) ∧ (m2 aob, m2 zob) = o) := by
  obtain ⟨a, -, ha, -⟩ := C57_aoppa eqeqx date dut elongm phim hm xp yp tdk pmb rh wl tlr
  obtain ⟨m1, e1, f1, -⟩ := C117_aoppa eqeqx date dut elongm phim hm xp yp tdk pmb rh wl tlr m p a ha
  refine ⟨m1, e1, fun o ho => ?_, fun o ho => ?_⟩
  · unfold palAop at ho
    rw [ha] at ho
    dsimp only at ho
    rw [← f1] at ho
    obtain ⟨m2, e2, k1, k2, k3, k4, k5, -⟩ := C117_aopqk rap dap m1 p aob zob hob dob rob hd o ho
    exact ⟨m2, e2, k1, k2, k3, k4, k5⟩
  · unfold palOap at ho
    rw [ha] at ho
    dsimp only at ho
    rw [← f1] at ho
    obtain ⟨m2, e2, k1, -⟩ := C117_oapqk type rap dap m1 p aob zob (by
      simp only [List.nodup_cons, List.mem_cons, not_or] at hd
      exact hd.1.1) o ho
    exact ⟨m2, e2, k1⟩

/-- Five different places; the results of palAop and palOap exist (C56_aopqk, C56_oapqk). -/
example : ∃ (a : Aoprms) (o : Observed) (q : ℝ × ℝ), palAoppa (fun _ => 0) 51544 0 0 (π / 2) 0 0 0 280 0 0.5 0.5 0.0065 = some a ∧ palAopqk 1 2 a = some o ∧ palOapqk ['A'] 1 2 a = some q ∧
    [14, 15, 16, 17, 18].Nodup := by
  obtain ⟨a, elong, ha, -, -, h1, h2, hd, -⟩ := C57_aoppa (fun _ => 0) 51544 0 0 (π / 2) 0 0 0 280 0 0.5 0.5 0.0065
  have hphi := (C57_no_polar_motion (by rw [abs_of_pos (by positivity)]) ha).1
  rw [hphi, cos_pi_div_two, mul_zero, zero_div, mul_zero] at hd
  have hd0 : a.diurab = 0 := by
    rcases mul_eq_zero.1 hd with h | h
    · exact h
    · norm_num at h
  have hp : ParamsOk a := ⟨h1, h2, by rw [hd0]; norm_num⟩
  obtain ⟨o, -, ho, -⟩ := C56_aopqk 1 2 a hp
  obtain ⟨x, y, -, hq, -⟩ := C56_oapqk (az := 1) (z := 2) hp (by norm_num) (by have := pi_gt_three; linarith)
  exact ⟨a, o, (x, y), ha, ho, hq, by decide⟩

/-- **C117** palPv2ue, wherever the two arrays are: u[13] is filled in the documented order if the status is zero; otherwise, and outside u, nothing changes. -/
theorem C117_pv2ue (m : Mem) (pv u : ℕ) (date pmass : ℝ) :
    ∃ m', memPv2ue pv date pmass u m = ((palPv2ue (pvAt m pv) date pmass (univAt m u)).2, m') ∧ univAt m' u = (palPv2ue (pvAt m pv) date pmass (univAt m u)).1 ∧
      OnlyWrites m m' u 13 ∧ ((palPv2ue (pvAt m pv) date pmass (univAt m u)).2 ≠ 0 → m' = m) := by
  by_cases h1 : pmass < 0
  · simp only [memPv2ue, palPv2ue, if_pos h1]
    exact ⟨m, rfl, rfl, ow_refl _ _ _, fun _ => rfl⟩
  simp only [memPv2ue, palPv2ue, if_neg h1, bind, StateT.bind, pure, load, pvAt, vecAt, Fin.val_zero, Fin.val_one, Fin.val_two, Nat.add_assoc, Nat.add_zero, Nat.reduceAdd]
  split_ifs with h2 h3
  · exact ⟨m, rfl, rfl, ow_refl _ _ _, fun _ => rfl⟩
  · exact ⟨m, rfl, rfl, ow_refl _ _ _, fun _ => rfl⟩
  · refine ⟨_, rfl, ?_, ?_, fun h => absurd rfl h⟩
    · simp only [univAt, Univ.mk.injEq]
      refine ⟨?_, ?_, ?_, ?_, ?_, ?_, ?_, ?_, ?_⟩
      · simp [Function.update]
      · simp [Function.update]
      · simp [Function.update]
      · funext i; fin_cases i <;> simp [Function.update, vecAt, Nat.add_assoc]
      · funext i; fin_cases i <;> simp [Function.update, vecAt, Nat.add_assoc]
      · simp [Function.update]
      · simp [Function.update]
      · simp [Function.update]
      · simp [Function.update]
    · repeat refine ow_store ?_ (by omega) (by omega)
      exact ow_refl _ _ _

/-- **C117** palUe2pv, for arrays that do not overlap: the results are those of the function of records; of the elements only u[11] and u[12] change, and nothing at all if the status is
not zero. -/
theorem C117_ue2pv (m : Mem) (u pv : ℕ) (date : ℝ) (hd : Apart u 13 pv 6) (u' : Univ) (pv' : PV) (j : ℤ) (h : palUe2pv date (univAt m u) (pvAt m pv) = some (u', pv', j)) :
    ∃ m', memUe2pv date u pv m = (some j, m') ∧ univAt m' u = u' ∧ pvAt m' pv = pv' ∧
      (∀ q, (q < pv ∨ pv + 6 ≤ q) → q ≠ u + 11 → q ≠ u + 12 → m' q = m q) ∧ (j ≠ 0 → m' = m) := by
  have e : loadUniv u m = (univAt m u, m) := rfl
  unfold palUe2pv at h
  unfold memUe2pv
  simp only [bind, StateT.bind, e]
  split_ifs at h with h1
  rw [if_neg h1]
  dsimp only at h ⊢
  unfold Apart at hd
  split at h
  · rename_i k hk
    rw [hk]
    simp only [Option.some.injEq, Prod.mk.injEq] at h
    obtain ⟨rfl, rfl, rfl⟩ := h
    exact ⟨m, rfl, rfl, rfl, fun _ _ _ _ => rfl, fun _ => rfl⟩
  · rename_i psi s r hk
    rw [hk]
    split_ifs at h with h2
    simp only [Option.some.injEq, Prod.mk.injEq] at h
    obtain ⟨rfl, rfl, rfl⟩ := h
    dsimp only
    rw [if_neg h2]
    refine ⟨_, rfl, ?_, ?_, ?_, fun h => absurd rfl h⟩
    · simp only [univAt, Univ.mk.injEq, vecAt]
      refine ⟨?_, ?_, ?_, ?_, ?_, ?_, ?_, ?_, ?_⟩
      · repeat rw [upd_ne (by omega)]
      · repeat rw [upd_ne (by omega)]
      · repeat rw [upd_ne (by omega)]
      · funext i; have := i.isLt; simp only [vecAt]; repeat rw [upd_ne (by omega)]
      · funext i; have := i.isLt; simp only [vecAt]; repeat rw [upd_ne (by omega)]
      · repeat rw [upd_ne (by omega)]
      · repeat rw [upd_ne (by omega)]
      · rw [upd_ne (by omega), Function.update_self]
      · rw [Function.update_self]
    · simp only [pvAt, PV.mk.injEq]
      constructor
      · funext i
        have := i.isLt
        simp only [vecAt]
        rw [upd_ne (by omega), upd_ne (by omega)]
        fin_cases i <;> simp [Function.update]
      · funext i
        have := i.isLt
        simp only [vecAt]
        rw [upd_ne (by omega), upd_ne (by omega)]
        fin_cases i <;> simp [Function.update, Nat.add_assoc]
    · intro q h1 h2 h3
      rw [upd_ne h3, upd_ne h2]
      repeat rw [upd_ne (by omega)]

/-- **C117** palUe2el uses u[0] to u[8] in the documented order and stores nothing in the array. -/
theorem C117_ue2el (m : Mem) (u : ℕ) (jformr : ℤ) (el : Elems) : memUe2el u jformr el m = (palUe2el (univAt m u) jformr el, m) := rfl

/-- **C117** palPertue updates u[13] in the documented order and nothing else; after an error (status -1) the array is unchanged. -/
theorem C117_pertue (P : PertTheory) (m : Mem) (u : ℕ) (date : ℝ) (up0 : Fin 8 → Univ) (pvin0 : Fin 8 → PV) (fd0 : Vec3) (u' : Univ) (j : ℤ)
    (h : palPertue P date (univAt m u) up0 pvin0 fd0 = some (u', j)) :
    ∃ m', memPertue P date u up0 pvin0 fd0 m = (some j, m') ∧ univAt m' u = u' ∧ OnlyWrites m m' u 13 ∧ (j = -1 → m' = m) := by
  have e : loadUniv u m = (univAt m u, m) := rfl
  unfold palPertue at h
  unfold memPertue
  simp only [bind, StateT.bind, e]
  split at h
  · simp at h
  · rename_i hk
    rw [hk]
    simp only [Option.some.injEq, Prod.mk.injEq] at h
    obtain ⟨rfl, rfl⟩ := h
    exact ⟨m, rfl, rfl, ow_refl _ _ _, fun _ => rfl⟩
  · rename_i s hk
    rw [hk]
    simp only [Option.some.injEq, Prod.mk.injEq] at h
    obtain ⟨rfl, rfl⟩ := h
    refine ⟨_, rfl, ?_, ?_, ?_⟩
    · simp only [univAt]
      cases s.ul
      simp only [Univ.mk.injEq]
      refine ⟨?_, ?_, ?_, ?_, ?_, ?_, ?_, ?_, ?_⟩
      · simp [Function.update, Nat.add_assoc]
      · simp [Function.update, Nat.add_assoc]
      · simp [Function.update, Nat.add_assoc]
      · funext i; fin_cases i <;> simp [Function.update, vecAt, Nat.add_assoc]
      · funext i; fin_cases i <;> simp [Function.update, vecAt, Nat.add_assoc]
      · simp [Function.update]
      · simp [Function.update]
      · simp [Function.update]
      · simp [Function.update]
    · repeat refine ow_store ?_ (by omega) (by omega)
      exact ow_refl _ _ _
    · intro hj
      have := pert_ok_stat hk
      omega

/-- The conditions of C117_ue2pv and C117_pertue are met by a memory that holds the elements from 0 on and the position and velocity from 13 on. -/
example : ∃ m : Mem, Apart 0 13 13 6 ∧ (∃ u' pv', palUe2pv 5 (univAt m 0) (pvAt m 13) = some (u', pv', 0)) ∧
    ∀ up0 pvin0 fd0, ∃ u', palPertue Ex.P (1 / 100) (univAt m 0) up0 pvin0 fd0 = some (u', 0) := by
  refine ⟨fun q => if q = 5 then 2 else if q = 8 then 1 else if q = 9 then 1 else 0, Or.inl le_rfl, ?_, ?_⟩
  all_goals
    have e : univAt (fun q => if q = 5 then 2 else if q = 8 then 1 else if q = 9 then 1 else 0) 0 = Ex.body := by
      simp only [univAt, Ex.body, Univ.mk.injEq]
      refine ⟨?_, ?_, ?_, ?_, ?_, ?_, ?_, ?_, ?_⟩
      all_goals first
        | (funext i; fin_cases i <;> simp [vecAt])
        | simp
    rw [e]
  · have e2 : pvAt (fun q => if q = 5 then 2 else if q = 8 then 1 else if q = 9 then 1 else 0) 13 = ⟨fun _ => 0, fun _ => 0⟩ := by
      simp only [pvAt, PV.mk.injEq]
      constructor <;> funext i <;> fin_cases i <;> simp [vecAt]
    rw [e2]
    exact ⟨_, _, Ex.body_moves 5 Ex.body ⟨0, by simp [Ex.body]⟩⟩
  · exact fun up0 pvin0 fd0 => C63_case up0 pvin0 fd0

end Pal.Props
