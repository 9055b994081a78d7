import Verif.Model.Whole

/-!
Model of the columns of a completed visit: `ModelObservatory.observe` and `observation_add_data`
(`/repo/rubin_scheduler/scheduler/model_observatory/model_observatory.py` 513-581, 714-795) and the columns filled in at the end of `sim_runner`
(`/repo/rubin_scheduler/scheduler/sim_runner.py` 244-272).

Seeing, sky brightness, depth, the positions of sun and moon and the conversions of coordinates are functions (`Sky`); most of them are modelled elsewhere
(`Weather`, `Skybright`, `Depth`, `Sphere`, `AlmanacSky`).  The sky model is taken to be there.
-/

namespace Verif.Col

open Verif.Kinem

/-- What the columns are computed with. -/
structure Sky where
  /-- `seeing_data` (522) -/
  fwhm500 : ℚ → ℚ
  /-- `seeing_model`, effective and geometric (523-525): FWHM at 500 nm, airmass, band -/
  fwhmEff : ℚ → ℚ → String → ℚ
  fwhmGeom : ℚ → ℚ → String → ℚ
  /-- `1.0 / np.cos(np.pi / 2.0 - alt)` (520) -/
  air : ℚ → ℚ
  /-- The sky model (531-535): time, position, band -/
  sky : ℚ → ℚ → ℚ → String → ℚ
  /-- `m5_flat_sed` (537-544): band, sky, seeing, time of one exposure, airmass, number of exposures -/
  m5 : String → ℚ → ℚ → ℚ → ℚ → ℕ → ℚ
  /-- `cloud_maps.extinction_closest` (546-550) -/
  extinction : Option (ℚ → ℚ → ℚ → ℚ)
  lmst : ℚ → ℚ
  /-- `almanac.get_sun_moon_positions` (555-563): right ascension and declination -/
  sun : ℚ → ℚ × ℚ
  moon : ℚ → ℚ × ℚ
  /-- `_angular_separation` -/
  sep : ℚ → ℚ → ℚ → ℚ → ℚ
  /-- `pseudo_parallactic_angle` at the site "LSST" (sim_runner.py 249-260): angle, altitude, azimuth of a position at a time -/
  accurate : ℚ → ℚ → ℚ → ℚ × ℚ × ℚ
  /-- `_approx_altaz2pa` (sim_runner.py 269) -/
  altaz2pa : ℚ → ℚ → ℚ

/-- The columns of a visit. -/
structure Row where
  target : GoodReq
  mjd : ℚ := 0
  night : ℤ := 0
  ID : ℕ := 0
  slewtime : ℚ := 0
  visittime : ℚ := 0
  slewdist : ℚ := 0
  rotSkyPos : ℚ := 0
  cummTelAz : ℚ := 0
  alt : ℚ := 0
  az : ℚ := 0
  pseudoPa : ℚ := 0
  pa : ℚ := 0
  rotTelPos : ℚ := 0
  clouds : ℚ := 0
  airmass : ℚ := 0
  fwhm500 : ℚ := 0
  fwhmEff : ℚ := 0
  fwhmGeom : ℚ := 0
  skybrightness : ℚ := 0
  depth : ℚ := 0
  cloudExtinction : ℚ := 0
  lmst : ℚ := 0
  sunRA : ℚ := 0
  sunDec : ℚ := 0
  moonRA : ℚ := 0
  moonDec : ℚ := 0
  moonDist : ℚ := 0
  solarElong : ℚ := 0

/-- `observation_add_data` (513-581) at a time; the row has its altitude already (777). -/
def addData (F : Sky) (S : Obs.Site) (mjd : ℚ) (id : ℕ) (r : Row) : Row :=
  let air := F.air r.alt
  let f5 := F.fwhm500 mjd
  let eff := F.fwhmEff f5 air r.target.1.band
  let sky := F.sky mjd r.target.1.ra r.target.1.dec r.target.1.band
  let m5 := F.m5 r.target.1.band sky eff (r.target.1.exptime / r.target.1.nexp) air r.target.1.nexp
  let ext := match F.extinction with | none => 0 | some e => e mjd r.target.1.ra r.target.1.dec
  { r with
    clouds := S.cloud mjd, airmass := air, fwhmEff := eff, fwhmGeom := F.fwhmGeom f5 air r.target.1.band, fwhm500 := f5,
    night := ⌊mjd - S.mjdStart⌋, mjd := mjd, skybrightness := sky, depth := m5 - ext, cloudExtinction := ext, lmst := F.lmst mjd,
    sunRA := (F.sun mjd).1, sunDec := (F.sun mjd).2, moonRA := (F.moon mjd).1, moonDec := (F.moon mjd).2,
    moonDist := F.sep r.target.1.ra r.target.1.dec (F.moon mjd).1 (F.moon mjd).2,
    solarElong := F.sep r.target.1.ra r.target.1.dec (F.sun mjd).1 (F.sun mjd).2, ID := id }

/-- The row of a completed visit (754-782): `k` is the telescope before and `k'` after the slew that begins at `t0`. -/
def rowOf (F : Sky) (C : Cfg ℚ) (S : Obs.Site) (k k' : Tel ℚ) (t0 : ℚ) (v : Obs.Visit GoodReq) : Row :=
  let p := position C k t0
  addData F S v.mjd v.ID
    { target := v.target, slewtime := v.slewtime, visittime := v.visittime,
      slewdist := F.sep p.2.1 p.1 k'.lastAz k'.lastAlt,
      rotSkyPos := match k'.track with | none => 0 | some x => x.2.2,
      cummTelAz := k'.cum, alt := k'.lastAlt }

/-- The columns filled in at the end of a simulation (sim_runner.py 251-270). -/
def finish (F : Sky) (C : Cfg ℚ) (r : Row) : Row :=
  let a := F.accurate r.target.1.ra r.target.1.dec r.mjd
  { r with alt := a.2.1, az := a.2.2, pseudoPa := a.1, rotTelPos := Ang.sky2tel C.T C.cam r.rotSkyPos a.1, pa := F.altaz2pa a.2.1 a.2.2 }

/-- What the scheduler is told of a row. -/
def Row.visit (r : Row) : Obs.Visit GoodReq := ⟨r.target, r.mjd, r.night, r.ID, r.slewtime, r.visittime⟩

variable {U D : Type}

/-- `observe` (714-795) with all columns. -/
def observeRow (F : Sky) (C : Cfg ℚ) (S : Obs.Site) (resolve lax : Bool) (fuel : ℕ) (w : Whole.World U (Tel ℚ)) (r : Row) :
    Whole.World U (Tel ℚ) × Option Row × Bool :=
  let x := Whole.observeOf S (kin C resolve lax) fuel w r.visit
  (x.1, x.2.1.map (rowOf F C S (Obs.idle S (kin C resolve lax) w.obs).kin x.1.obs.kin w.obs.mjd), x.2.2)

/-- A simulation (`Whole.env`) with all columns. -/
def env (F : Sky) (C : Cfg ℚ) (S : Obs.Site) (resolve lax : Bool) (fuel : ℕ) (conds : Obs.St (Tel ℚ) → D) (X : Whole.Sched U GoodReq D (List String)) :
    Sim.Env (Whole.World U (Tel ℚ)) Row D (List String) :=
  let E := Whole.env S (kin C resolve lax) fuel conds Whole.mountTel X
  { clock := E.clock, setClock := E.setClock, conds := E.conds, hasConds := E.hasConds, check := E.check, update := E.update,
    request := fun w x => ((E.request w x).1, (E.request w x).2.map fun v => { target := v.target }),
    observe := observeRow F C S resolve lax fuel,
    overhead := fun w r => E.overhead w r.visit, add := fun w r => E.add w r.visit, bandAdd := fun w r => E.bandAdd w r.visit,
    flush := E.flush, bands := E.bands, mount := E.mount }

/-- The table that `sim_runner` returns (244-272). -/
def table (F : Sky) (C : Cfg ℚ) (s : Sim.St (Whole.World U (Tel ℚ)) Row) : List (Option Row) := s.result.map (Option.map (finish F C))

end Verif.Col
