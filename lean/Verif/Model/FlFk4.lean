import Verif.Model.FlSphere
import Verif.Model.FlEpoch
import Verif.Model.FlSexa
import Verif.Model.FlGmst
import Verif.Model.Map

/-!
# E-terms of aberration and the conversion from FK4 to FK5 in double precision

The operations of palEtrms, palAddet, palSubet (Model/Coord.lean) and palFk45z (Model/Map.lean) with a rounding after each, in the order of the C code; constants are rounded when stored.
-/

namespace Pal

/-- `palEtrms`, /repo/palEtrms.c:78-106 (PAL__DAS2R, /repo/palmac.h:78, is the same number as ERFA_DAS2R). -/
noncomputable def flEtrms (fl : ℝ → ℝ) (L : Libm) (ep : ℝ) : Vec3 :=
  let t := fl (fl (ep - 1950) * fl 0.0100002135903)
  let e := fl (fl 0.01673011 - fl (fl (fl (t * fl 1.26e-7) + fl 4.193e-5) * t))
  let e0 := fl (fl (fl 84404.836 - fl (fl (fl (fl (fl (t * fl 0.00181) + fl 0.00319) * t) + fl 46.8495) * t)) * flDAS2R fl)
  let p := fl (fl (fl (fl (fl (fl (fl (t * fl 0.012) + fl 1.65) * t) + fl 6190.67) * t) + fl 1015489.951) * flDAS2R fl)
  let ek := fl (fl (e * fl 20.49552) * flDAS2R fl)
  let cp := L.cos p
  ![fl (ek * L.sin p), fl (fl (-ek * cp) * L.cos e0), fl (fl (-ek * cp) * L.sin e0)]

/-- `palAddet`, /repo/palAddet.c:88-112 (`nz`: see `flC2s`). -/
noncomputable def flAddet (fl : ℝ → ℝ) (L : Libm) (nz : Bool) (rm dm eq : ℝ) : ℝ × ℝ :=
  let a := flEtrms fl L eq
  let v := flS2c fl L rm dm
  let s := flC2s fl L nz (fun i => fl (v i + a i))
  (flAnp fl s.1, s.2)

/-- `palSubet`, /repo/palSubet.c:86-112. -/
noncomputable def flSubet (fl : ℝ → ℝ) (L : Libm) (nz : Bool) (rc dc eq : ℝ) : ℝ × ℝ :=
  let a := flEtrms fl L eq
  let v := flS2c fl L rc dc
  let f := fl (1 + flPdp fl v a)
  let s := flC2s fl L nz (fun i => fl (fl (f * v i) - a i))
  (flAnp fl s.1, s.2)

/-- PAL__PMF, /repo/palmac.h:110 (the product of the whole numbers is exact). -/
noncomputable def flPMF (fl : ℝ → ℝ) : ℝ := fl (129600000 / flPal2PI fl)

/-- `palFk45z`, /repo/palFk45z.c:124-184. -/
noncomputable def flFk45z (fl : ℝ → ℝ) (L : Libm) (nz : Bool) (r1950 d1950 bepoch : ℝ) : ℝ × ℝ :=
  let r0 := flS2c fl L r1950 d1950
  let w := fl (fl (bepoch - 1950) / flPMF fl)
  let a1 : Vec3 := fun i => fl (fl (fkA i) + fl (w * fl (fkAd i)))
  let w := fl (fl (fl (r0 0 * a1 0) + fl (r0 1 * a1 1)) + fl (r0 2 * a1 2))
  let v1 : Vec3 := fun i => fl (fl (r0 i - a1 i) + fl (w * r0 i))
  let pos := flRxp fl (fun i j => fl (emP i j)) v1
  let vel := flRxp fl (fun i j => fl (emV i j)) v1
  let w := fl (fl (flEpj fl (flEpb2d fl bepoch) - 2000) / flPMF fl)
  let s := flC2s fl L nz (fun i => fl (pos i + fl (w * vel i)))
  (flAnp fl s.1, s.2)

end Pal
