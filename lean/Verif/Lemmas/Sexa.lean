import Verif.Spec.Sexa
import Mathlib.Tactic.Linarith
import Mathlib.Tactic.FieldSimp
import Mathlib.Tactic.Ring
import Mathlib.Tactic.IntervalCases
import Mathlib.Algebra.Order.Floor.Ring

/-!
# Lemmas about sexagesimal conversions
-/

namespace Pal
open Real Pal.Spec

theorem floor_div_int (N M : ℤ) (hM : 0 < M) : ⌊(N : ℝ) / (M : ℝ)⌋ = N / M := by
  rw [Int.floor_eq_iff]
  have hM' : (0 : ℝ) < M := by exact_mod_cast hM
  have h1 := Int.emod_add_mul_ediv N M
  have h2 := Int.emod_nonneg N hM.ne'
  have h3 := Int.emod_lt_of_pos N hM
  have h1' : ((N % M : ℤ) : ℝ) + (M : ℝ) * ((N / M : ℤ) : ℝ) = N := by exact_mod_cast h1
  have h2' : (0 : ℝ) ≤ ((N % M : ℤ) : ℝ) := by exact_mod_cast h2
  have h3' : ((N % M : ℤ) : ℝ) < M := by exact_mod_cast h3
  constructor
  · rw [le_div_iff₀ hM']; linarith
  · rw [div_lt_iff₀ hM']; linarith

/-- The four fields of a whole number of last places, `n` to the second. -/
def fieldsOf (sign : Char) (n N : ℤ) : Hmsf :=
  ⟨sign, N / (n * 60 * 60), N % (n * 60 * 60) / (n * 60), N % (n * 60 * 60) % (n * 60) / n, N % (n * 60 * 60) % (n * 60) % n⟩

theorem fieldsOf_sum (sign : Char) (n N : ℤ) :
    n * 60 * 60 * (fieldsOf sign n N).h + n * 60 * (fieldsOf sign n N).m + n * (fieldsOf sign n N).s + (fieldsOf sign n N).f = N := by
  simp only [fieldsOf]
  have h1 := Int.emod_add_mul_ediv N (n * 60 * 60)
  have h2 := Int.emod_add_mul_ediv (N % (n * 60 * 60)) (n * 60)
  have h3 := Int.emod_add_mul_ediv (N % (n * 60 * 60) % (n * 60)) n
  linarith

theorem fieldsOf_wf (sign : Char) (n N : ℤ) (hn : 0 < n) (hN : 0 ≤ N) :
    0 ≤ (fieldsOf sign n N).h ∧ (0 ≤ (fieldsOf sign n N).m ∧ (fieldsOf sign n N).m < 60) ∧
      (0 ≤ (fieldsOf sign n N).s ∧ (fieldsOf sign n N).s < 60) ∧ (0 ≤ (fieldsOf sign n N).f ∧ (fieldsOf sign n N).f < n) := by
  simp only [fieldsOf]
  have e1 : 0 ≤ N % (n * 60 * 60) := Int.emod_nonneg _ (by positivity)
  have e1' : N % (n * 60 * 60) < n * 60 * 60 := Int.emod_lt_of_pos _ (by positivity)
  have e2 : 0 ≤ N % (n * 60 * 60) % (n * 60) := Int.emod_nonneg _ (by positivity)
  have e2' : N % (n * 60 * 60) % (n * 60) < n * 60 := Int.emod_lt_of_pos _ (by positivity)
  refine ⟨Int.ediv_nonneg hN (by positivity), ⟨Int.ediv_nonneg e1 (by positivity), ?_⟩, ⟨Int.ediv_nonneg e2 hn.le, ?_⟩, Int.emod_nonneg _ hn.ne', Int.emod_lt_of_pos _ hn⟩
  · exact Int.ediv_lt_of_lt_mul (by positivity) (by linarith)
  · exact Int.ediv_lt_of_lt_mul hn (by linarith)

theorem fieldsOf_unique (n : ℤ) (hn : 0 < n) {h m s f h' m' s' f' : ℤ} (hm : 0 ≤ m ∧ m < 60) (hs : 0 ≤ s ∧ s < 60) (hf : 0 ≤ f ∧ f < n)
    (hm' : 0 ≤ m' ∧ m' < 60) (hs' : 0 ≤ s' ∧ s' < 60) (hf' : 0 ≤ f' ∧ f' < n)
    (he : n * 60 * 60 * h + n * 60 * m + n * s + f = n * 60 * 60 * h' + n * 60 * m' + n * s' + f') :
    h = h' ∧ m = m' ∧ s = s' ∧ f = f' := by
  have q : ∀ x y a b : ℤ, 0 ≤ a → a < n → 0 ≤ b → b < n → n * x + a = n * y + b → x = y ∧ a = b := by
    intro x y a b ha ha' hb hb' hh
    have hxy : x = y := by
      by_contra hne
      rcases lt_or_gt_of_ne hne with hl | hl
      · nlinarith
      · nlinarith
    subst hxy
    exact ⟨rfl, by linarith⟩
  obtain ⟨h1, h2⟩ := q (3600 * h + 60 * m + s) (3600 * h' + 60 * m' + s') f f' hf.1 hf.2 hf'.1 hf'.2 (by linarith)
  refine ⟨?_, ?_, ?_, h2⟩ <;> omega

/-- `eraD2tf` when nothing overflows: the number of last places is rounded and split up. -/
theorem eraD2tf_eq (ndp : ℤ) (days : ℝ) (h9 : ndp ≤ 9) (h9' : -9 ≤ ndp) (N : ℤ)
    (hN : N = if ndp < 0 then d2tfUnit (-ndp).toNat * erfaNint (86400 * |days| / d2tfUnit (-ndp).toNat)
      else erfaNint ((10 : ℝ) ^ ndp.toNat * (86400 * |days|))) :
    eraD2tf ndp days = if N / ((10 : ℤ) ^ ndp.toNat * 60 * 60) > intMax then none
      else some (fieldsOf (if days ≥ 0 then '+' else '-') (10 ^ ndp.toNat) N) := by
  have hu : ¬ (ndp < 0 ∧ d2tfUnit (-ndp).toNat > intMax) := by
    rintro ⟨h0, h1⟩
    have : (-ndp).toNat ≤ 9 := by omega
    generalize (-ndp).toNat = k at *
    interval_cases k <;> revert h1 <;> decide
  have hp : ¬ ((10 : ℤ) ^ ndp.toNat > intMax) := by
    have : ndp.toNat ≤ 9 := by omega
    generalize ndp.toNat = k at *
    interval_cases k <;> decide
  have hpos : (0 : ℤ) < 10 ^ ndp.toNat := by positivity
  have key : erfaNint ((((10 : ℤ) ^ ndp.toNat : ℤ) : ℝ) *
      (if ndp < 0 then (d2tfUnit (-ndp).toNat : ℝ) * erfaNint (86400 * |days| / d2tfUnit (-ndp).toNat) else 86400 * |days|)) = N := by
    by_cases h0 : ndp < 0
    · rw [if_pos h0] at hN
      rw [if_pos h0]
      have : ndp.toNat = 0 := by omega
      rw [this, hN]
      unfold erfaNint
      generalize d2tfUnit (-ndp).toNat = u
      rw [Int.floor_eq_iff]
      push_cast
      constructor <;> linarith
    · rw [if_neg h0] at hN ⊢
      rw [hN]; push_cast; rfl
  unfold eraD2tf
  dsimp only
  rw [if_neg hu, if_neg hp, key]
  generalize hn : (10 : ℤ) ^ ndp.toNat = n at *
  have e1 : ((n : ℤ) : ℝ) * 60 * 60 = ((n * 60 * 60 : ℤ) : ℝ) := by push_cast; rfl
  have e2 : ((n : ℤ) : ℝ) * 60 = ((n * 60 : ℤ) : ℝ) := by push_cast; rfl
  rw [e1, e2, floor_div_int _ _ (by positivity)]
  have m1 : (N : ℝ) - ((N / (n * 60 * 60) : ℤ) : ℝ) * ((n * 60 * 60 : ℤ) : ℝ) = ((N % (n * 60 * 60) : ℤ) : ℝ) := by
    have := Int.emod_add_mul_ediv N (n * 60 * 60)
    have h : ((N % (n * 60 * 60) : ℤ) : ℝ) + ((n * 60 * 60 : ℤ) : ℝ) * ((N / (n * 60 * 60) : ℤ) : ℝ) = N := by exact_mod_cast this
    linarith
  rw [m1, floor_div_int _ _ (by positivity)]
  unfold fieldsOf
  generalize N % (n * 60 * 60) = r at *
  have m2 : (r : ℝ) - ((r / (n * 60) : ℤ) : ℝ) * ((n * 60 : ℤ) : ℝ) = ((r % (n * 60) : ℤ) : ℝ) := by
    have := Int.emod_add_mul_ediv r (n * 60)
    have h : ((r % (n * 60) : ℤ) : ℝ) + ((n * 60 : ℤ) : ℝ) * ((r / (n * 60) : ℤ) : ℝ) = r := by exact_mod_cast this
    linarith
  rw [m2, floor_div_int _ _ hpos]
  generalize r % (n * 60) = q at *
  have m3 : (q : ℝ) - ((q / n : ℤ) : ℝ) * (n : ℝ) = ((q % n : ℤ) : ℝ) := by
    have := Int.emod_add_mul_ediv q n
    have h : ((q % n : ℤ) : ℝ) + (n : ℝ) * ((q / n : ℤ) : ℝ) = q := by exact_mod_cast this
    linarith
  rw [m3, Int.floor_intCast]

theorem erfaNint_bounds (x : ℝ) : (erfaNint x : ℝ) - x ≤ 1 / 2 ∧ x - erfaNint x < 1 / 2 := by
  unfold erfaNint
  have h1 := Int.floor_le (x + 1 / 2)
  have h2 := Int.lt_floor_add_one (x + 1 / 2)
  constructor <;> linarith

theorem erfaNint_nonneg {x : ℝ} (h : 0 ≤ x) : 0 ≤ erfaNint x := by
  unfold erfaNint
  exact Int.floor_nonneg.2 (by linarith)

theorem d2tfUnit_eq (ndp : ℤ) (h : ndp < 0) (h9 : -9 ≤ ndp) : (d2tfUnit (-ndp).toNat : ℝ) = lastPlace ndp := by
  obtain ⟨n, hn⟩ : ∃ n : ℕ, n = (-ndp).toNat := ⟨_, rfl⟩
  have h1 : 1 ≤ n := by omega
  have h2 : n ≤ 9 := by omega
  have hk : (-4 - ndp).toNat = n - 4 := by omega
  have hp : ndp = -(n : ℤ) := by omega
  unfold lastPlace
  rw [hk, ← hn, hp]
  clear hn hk hp
  interval_cases n <;> norm_num [d2tfUnit]

theorem lastPlace_pos (ndp : ℤ) : 0 < lastPlace ndp := by
  unfold lastPlace
  split_ifs <;> positivity

/-- The whole story when nothing overflows. -/
theorem eraD2tf_shows (ndp : ℤ) (days : ℝ) (h9 : ndp ≤ 9) (h9' : -9 ≤ ndp) (hd : 24 * |days| ≤ 2000000000) :
    ∃ v, eraD2tf ndp days = some v ∧ v.sign = (if days ≥ 0 then '+' else '-') ∧ ShowsRounded ndp v (86400 * |days|) := by
  obtain ⟨N, hN⟩ : ∃ N : ℤ, N = if ndp < 0 then d2tfUnit (-ndp).toNat * erfaNint (86400 * |days| / d2tfUnit (-ndp).toNat)
      else erfaNint ((10 : ℝ) ^ ndp.toNat * (86400 * |days|)) := ⟨_, rfl⟩
  have habs := abs_nonneg days
  have hpos : (0 : ℤ) < 10 ^ ndp.toNat := by positivity
  have hposR : (0 : ℝ) < 10 ^ ndp.toNat := by positivity
  -- what the number of last places is
  have hk : 0 ≤ N ∧ (∃ k : ℤ, (N : ℝ) / 10 ^ ndp.toNat = k * lastPlace ndp) ∧
      (N : ℝ) / 10 ^ ndp.toNat - 86400 * |days| ≤ lastPlace ndp / 2 ∧ 86400 * |days| - (N : ℝ) / 10 ^ ndp.toNat < lastPlace ndp / 2 := by
    by_cases h0 : ndp < 0
    · rw [if_pos h0] at hN
      have ht : ndp.toNat = 0 := by omega
      have hu := d2tfUnit_eq ndp h0 h9'
      have hup := lastPlace_pos ndp
      rw [← hu] at hup
      have hupz : 0 < d2tfUnit (-ndp).toNat := by exact_mod_cast hup
      rw [← hu, ht, hN]
      generalize d2tfUnit (-ndp).toNat = u at *
      have hb := erfaNint_bounds (86400 * |days| / u)
      have hnn : 0 ≤ erfaNint (86400 * |days| / u) := erfaNint_nonneg (by positivity)
      have hx : 86400 * |days| = u * (86400 * |days| / u) := by field_simp
      generalize 86400 * |days| / u = x at *
      rw [hx]
      push_cast
      refine ⟨by positivity, ⟨erfaNint x, by ring⟩, ?_, ?_⟩
      · nlinarith [mul_le_mul_of_nonneg_left hb.1 hup.le]
      · nlinarith [mul_lt_mul_of_pos_left hb.2 hup]
    · rw [if_neg h0] at hN
      have hl : lastPlace ndp = 1 / 10 ^ ndp.toNat := by unfold lastPlace; rw [if_pos (by omega)]
      rw [hl, hN]
      generalize (10 : ℝ) ^ ndp.toNat = n at *
      have hb := erfaNint_bounds (n * (86400 * |days|))
      have hnn : 0 ≤ erfaNint (n * (86400 * |days|)) := erfaNint_nonneg (by positivity)
      refine ⟨hnn, ⟨_, by rw [mul_one_div]⟩, ?_, ?_⟩
      · rw [div_sub' hposR.ne', div_le_div_iff₀ hposR (by norm_num)]
        have : 1 / n * n = 1 := by field_simp
        linarith
      · rw [sub_div' hposR.ne', div_lt_div_iff₀ hposR (by norm_num)]
        have : 1 / n * n = 1 := by field_simp
        linarith
  have hlast : lastPlace ndp ≤ 360000000 := by
    unfold lastPlace
    split_ifs with a b c d
    · have : (1 : ℝ) ≤ 10 ^ ndp.toNat := one_le_pow₀ (by norm_num)
      have : 1 / (10 : ℝ) ^ ndp.toNat ≤ 1 := by rw [div_le_one (by positivity)]; exact this
      linarith
    · norm_num
    · norm_num
    · norm_num
    · have : (-4 - ndp).toNat ≤ 5 := by omega
      have : (10 : ℝ) ^ (-4 - ndp).toNat ≤ 10 ^ 5 := pow_le_pow_right₀ (by norm_num) this
      linarith
  have hno : ¬ (N / ((10 : ℤ) ^ ndp.toNat * 60 * 60) > intMax) := by
    have h1 : (N : ℝ) / 10 ^ ndp.toNat ≤ 3600 * 2147483647 := by linarith
    rw [div_le_iff₀ hposR] at h1
    have h2 : N ≤ 3600 * 2147483647 * 10 ^ ndp.toNat := by exact_mod_cast h1
    have h3 : N / ((10 : ℤ) ^ ndp.toNat * 60 * 60) ≤ 2147483647 := by
      apply Int.ediv_le_of_le_mul (by positivity)
      linarith
    unfold intMax
    omega
  refine ⟨_, (eraD2tf_eq ndp days h9 h9' N hN).trans (if_neg hno), rfl, ?_⟩
  have hsum := fieldsOf_sum (if days ≥ 0 then '+' else '-') (10 ^ ndp.toNat) N
  have hwf := fieldsOf_wf (if days ≥ 0 then '+' else '-') (10 ^ ndp.toNat) N hpos hk.1
  generalize fieldsOf (if days ≥ 0 then '+' else '-') (10 ^ ndp.toNat) N = v at *
  have hs : shownSeconds ndp v = (N : ℝ) / 10 ^ ndp.toNat := by
    unfold shownSeconds
    have : (10 : ℝ) ^ ndp.toNat * 60 * 60 * v.h + 10 ^ ndp.toNat * 60 * v.m + 10 ^ ndp.toNat * v.s + v.f = N := by exact_mod_cast hsum
    rw [← this]
    field_simp
    ring
  unfold ShowsRounded
  rw [hs]
  exact ⟨hwf, hk.2⟩

/-- Rounded fields are determined by what they show. -/
theorem shows_unique (ndp : ℤ) (t : ℝ) (v w : Hmsf) (hsign : v.sign = w.sign) (hv : ShowsRounded ndp v t) (hw : ShowsRounded ndp w t) : v = w := by
  obtain ⟨⟨_, vm, vs, vf⟩, ⟨k, hk⟩, v1, v2⟩ := hv
  obtain ⟨⟨_, wm, ws, wf⟩, ⟨l, hl⟩, w1, w2⟩ := hw
  have hu := lastPlace_pos ndp
  have hkl : k = l := by
    have a : (k : ℝ) < l + 1 := by
      have : (k : ℝ) * lastPlace ndp < (l + 1) * lastPlace ndp := by linarith
      exact lt_of_mul_lt_mul_right this hu.le
    have b : (l : ℝ) < k + 1 := by
      have : (l : ℝ) * lastPlace ndp < (k + 1) * lastPlace ndp := by linarith
      exact lt_of_mul_lt_mul_right this hu.le
    have a' : k < l + 1 := by exact_mod_cast a
    have b' : l < k + 1 := by exact_mod_cast b
    omega
  subst hkl
  have he := hk.trans hl.symm
  unfold shownSeconds at he
  have hpos : (0 : ℤ) < 10 ^ ndp.toNat := by positivity
  have hposR : (0 : ℝ) < 10 ^ ndp.toNat := by positivity
  have he' : (10 : ℝ) ^ ndp.toNat * 60 * 60 * v.h + 10 ^ ndp.toNat * 60 * v.m + 10 ^ ndp.toNat * v.s + v.f
      = 10 ^ ndp.toNat * 60 * 60 * w.h + 10 ^ ndp.toNat * 60 * w.m + 10 ^ ndp.toNat * w.s + w.f := by
    have := congrArg (fun x => (10 : ℝ) ^ ndp.toNat * x) he
    field_simp at this
    linarith
  obtain ⟨a, b, c, d⟩ := fieldsOf_unique _ hpos vm vs vf wm ws wf (by exact_mod_cast he')
  cases v; cases w
  simp_all

end Pal
