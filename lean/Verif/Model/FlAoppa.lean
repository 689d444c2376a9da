import Verif.Model.FlAop
import Verif.Model.FlPcd
import Verif.Model.FlGmst

/-!
# The parameters for observed places (palAoppa, palAoppat) in double precision

The operations of Model/Aop.lean with a rounding after each, in the order of the C code. `pw` is the library's `pow`; the equation of the equinoxes (pal__Eqeqx) and the refraction constants (palRefco) are what the C functions deliver:
a number `eqeqx` and a function `refco` of the arguments of palRefco other than the tolerance.
-/

namespace Pal

/-- `pal__Gmst`, /repo/palAoppat.c:89-103 (C `fmod` is exact; PAL__DS2R, /repo/palmac.h:93, is the same number as ERFA_DS2R). -/
noncomputable def flAopGmst (fl : ℝ → ℝ) (ut1 : ℝ) : ℝ :=
  let tu := fl (fl (ut1 - 51544.5) / 36525)
  flDranrm fl (fl (fl (fmod ut1 1 * flPal2PI fl) +
    fl (fl (fl 24110.54841 + fl (fl (fl 8640184.812866 + fl (fl (fl 0.093104 - fl (fl 6.2e-6 * tu)) * tu)) * tu)) * flDS2R fl)))

/-- `palAoppat`, /repo/palAoppat.c:78-80. -/
noncomputable def flAoppat (fl : ℝ → ℝ) (date : ℝ) (p : Aoprms) : Aoprms := { p with st := fl (flAopGmst fl date + p.plon) }

/-- `pal__Geoc`, /repo/palAoppa.c:228-250: distance from the axis (AU); the distance from the equator is not used. -/
noncomputable def flAopGeoc (fl : ℝ → ℝ) (L : Libm) (pw : ℝ → ℝ → ℝ) (p h : ℝ) : ℝ :=
  let f := fl (1 / fl 298.257)
  let b := pw (fl (1 - f)) 2
  let sp := L.sin p
  let cp := L.cos p
  let c := fl (1 / fl (√(fl (fl (cp * cp) + fl (fl (b * sp) * sp)))))
  fl (fl (fl (fl (6378140 * c) + h) * cp) / 149597870000)

/-- The site vector corrected for polar motion, /repo/palAoppa.c:185-191. -/
noncomputable def flAopSiteVec (fl : ℝ → ℝ) (L : Libm) (elongm phim xp yp : ℝ) : Vec3 :=
  let cphim := L.cos phim
  let xt := fl (L.cos elongm * cphim)
  let yt := fl (L.sin elongm * cphim)
  let zt := L.sin phim
  ![fl (xt - fl (xp * zt)), fl (yt + fl (yp * zt)), fl (fl (fl (xp * xt) - fl (yp * yt)) + zt)]

/-- The longitude and latitude of the site, /repo/palAoppa.c:192-197 (`nz`: the y component is the negative zero if it is zero). -/
noncomputable def flAopSite (fl : ℝ → ℝ) (L : Libm) (nz : Bool) (elongm phim xp yp : ℝ) : ℝ × ℝ :=
  let c := flAopSiteVec fl L elongm phim xp yp
  (if c 0 = 0 ∧ c 1 = 0 then 0 else flAtan2 L nz (c 1) (c 0), L.atan2 (c 2) (fl (√(fl (fl (c 0 * c 0) + fl (c 1 * c 1))))))

/-- `palAoppa`, /repo/palAoppa.c:172-222. -/
noncomputable def flAoppa (fl : ℝ → ℝ) (L : Libm) (pw : ℝ → ℝ → ℝ) (refco : ℝ → ℝ → ℝ → ℝ → ℝ → ℝ → ℝ → ℝ × ℝ) (eqeqx : ℝ) (nz : Bool) (date dut elongm phim hm xp yp tdk pmb rh wl tlr : ℝ) : Aoprms :=
  let solsid := fl 1.0027379093
  let site := flAopSite fl L nz elongm phim xp yp
  let elong := site.1
  let phi := site.2
  let uau := flAopGeoc fl L pw phi hm
  let ab := refco hm tdk pmb rh wl phi tlr
  flAoppat fl date
    { phi := phi, sphi := L.sin phi, cphi := L.cos phi, diurab := fl (fl (fl (flPal2PI fl * uau) * solsid) / fl 173.14463331), hm := hm, tdk := tdk, pmb := pmb, rh := rh, wl := wl, tlr := tlr,
      refa := ab.1, refb := ab.2, plon := fl (fl (elong + eqeqx) + fl (fl (dut * solsid) * flDS2R fl)), st := 0 }

/-- `palAop`, /repo/palAop.c:225-238. -/
noncomputable def flAop (fl : ℝ → ℝ) (L : Libm) (pw : ℝ → ℝ → ℝ) (refco : ℝ → ℝ → ℝ → ℝ → ℝ → ℝ → ℝ → ℝ × ℝ) (eqeqx : ℝ) (refro : ℝ → ℝ) (nz nz1 nz2 : Bool) (rap dap date dut elongm phim hm xp yp tdk pmb rh wl tlr : ℝ) : Observed :=
  flAopqk fl L refro nz1 nz2 rap dap (flAoppa fl L pw refco eqeqx nz date dut elongm phim hm xp yp tdk pmb rh wl tlr)

/-- `palOap`, /repo/palOap.c:222-234. -/
noncomputable def flOap (fl : ℝ → ℝ) (L : Libm) (pw : ℝ → ℝ → ℝ) (refco : ℝ → ℝ → ℝ → ℝ → ℝ → ℝ → ℝ → ℝ × ℝ) (eqeqx : ℝ) (refro : ℝ → ℝ) (nz nz1 nz2 : Bool) (type : List Char) (ob1 ob2 date dut elongm phim hm xp yp tdk pmb rh wl tlr : ℝ) : ℝ × ℝ :=
  flOapqk fl L refro nz1 nz2 type ob1 ob2 (flAoppa fl L pw refco eqeqx nz date dut elongm phim hm xp yp tdk pmb rh wl tlr)

end Pal
