import Verif.Model.FlSphere
import Verif.Model.FlAngle
import Verif.Model.Map

/-!
# palMapqk and palMapqkz in double precision

The operations of Model/Map.lean with a rounding after each, in the order of the C code. The parameter block is an array of doubles and is used as it is.
-/

namespace Pal


/-- Light deflection, /repo/palMapqkz.c:129-135 and /repo/palMapqk.c:150-156. -/
noncomputable def flDeflect (fl : ℝ → ℝ) (gr2e : ℝ) (ehn p : Vec3) : Vec3 :=
  let pde := flPdp fl p ehn
  let pdep1 := fl (pde + 1)
  let w := fl (gr2e / (if pdep1 > fl (1 / 10 ^ 5) then pdep1 else fl (1 / 10 ^ 5)))
  fun i => fl (p i + fl (w * fl (ehn i - fl (pde * p i))))

/-- Aberration of p1, with q in the scalar product with the velocity, /repo/palMapqkz.c:137-142 (q is p1) and /repo/palMapqk.c:158-163 (q is the vector before normalisation). -/
noncomputable def flAberr (fl : ℝ → ℝ) (ab1 : ℝ) (abv q p1 : Vec3) : Vec3 :=
  let p1dv := flPdp fl q abv
  let w := fl (1 + fl (p1dv / fl (ab1 + 1)))
  fun i => fl (fl (ab1 * p1 i) + fl (w * abv i))

/-- The end of palMapqk and palMapqkz, /repo/palMapqk.c:165-170 and /repo/palMapqkz.c:144-149. -/
noncomputable def flMapFinish (fl : ℝ → ℝ) (L : Libm) (nz : Bool) (m : Mat3) (p2 : Vec3) : ℝ × ℝ :=
  let s := flC2s fl L nz (flRxp fl m p2)
  (flAnp fl s.1, s.2)

/-- `palMapqkz`, /repo/palMapqkz.c:110-150. -/
noncomputable def flMapqkz (fl : ℝ → ℝ) (L : Libm) (nz : Bool) (rm dm : ℝ) (am : Amprms) : ℝ × ℝ :=
  let p := flS2c fl L rm dm
  let p1 := flDeflect fl am.gr2e am.ehn p
  flMapFinish fl L nz am.mat (flAberr fl am.ab1 am.abv p1 p1)

/-- `PAL__DAS2R` as stored, /repo/palmac.h:78. -/
noncomputable def flDas2r (fl : ℝ → ℝ) : ℝ := fl 4.8481368110953599358991410235794797595635330237270e-6

/-- The vector p of `palMapqk`: space motion and parallax, /repo/palMapqk.c:134-147. -/
noncomputable def flSpace (fl : ℝ → ℝ) (L : Libm) (rm dm pr pd px rv : ℝ) (am : Amprms) : Vec3 :=
  let vf : ℝ := fl 0.210945028
  let q := flS2c fl L rm dm
  let pxr := fl (px * flDas2r fl)
  let w := fl (fl (vf * rv) * pxr)
  let em : Vec3 := ![fl (fl (fl (-pr * q 1) - fl (fl (pd * L.cos rm) * L.sin dm)) + fl (w * q 0)),
    fl (fl (fl (pr * q 0) - fl (fl (pd * L.sin rm) * L.sin dm)) + fl (w * q 1)),
    fl (fl (pd * L.cos dm) + fl (w * q 2))]
  fun i => fl (fl (q i + fl (am.pmt * em i)) - fl (pxr * am.eb i))

/-- `palMapqk`, /repo/palMapqk.c:111-172. -/
noncomputable def flMapqk (fl : ℝ → ℝ) (L : Libm) (nz : Bool) (rm dm pr pd px rv : ℝ) (am : Amprms) : ℝ × ℝ :=
  let p := flSpace fl L rm dm pr pd px rv am
  let pn := (flPn fl p).2
  let p1 := flDeflect fl am.gr2e am.ehn pn
  flMapFinish fl L nz am.mat (flAberr fl am.ab1 am.abv p p1)

/-- One pass of the aberration loop of palAmpqk, /repo/palAmpqk.c:124-135. -/
noncomputable def flAmpAberr (fl : ℝ → ℝ) (am : Amprms) (p2 p1 : Vec3) : Vec3 :=
  let p1dv := flPdp fl p1 am.abv
  let p1dvp1 := fl (1 + p1dv)
  let w := fl (1 + fl (p1dv / fl (am.ab1 + 1)))
  (flPn fl (fun i => fl (fl (fl (p1dvp1 * p2 i) - fl (w * am.abv i)) / am.ab1))).2

/-- One pass of the light deflection loop of palAmpqk, /repo/palAmpqk.c:141-152. -/
noncomputable def flAmpDefl (fl : ℝ → ℝ) (am : Amprms) (p1 p : Vec3) : Vec3 :=
  let pde := flPdp fl p am.ehn
  let pdep1 := fl (1 + pde)
  let w := fl (pdep1 - fl (am.gr2e * pde))
  (flPn fl (fun i => fl (fl (fl (pdep1 * p1 i) - fl (am.gr2e * am.ehn i)) / w))).2

/-- `palAmpqk`, /repo/palAmpqk.c:96-159: two passes for aberration, five for light deflection. -/
noncomputable def flAmpqk (fl : ℝ → ℝ) (L : Libm) (nz : Bool) (ra da : ℝ) (am : Amprms) : ℝ × ℝ :=
  let p3 := flS2c fl L ra da
  let p2 := flTrxp fl am.mat p3
  let p1 := (flAmpAberr fl am p2)^[2] p2
  let p := (flAmpDefl fl am p1)^[5] p1
  let s := flC2s fl L nz p
  (flAnp fl s.1, s.2)

end Pal
