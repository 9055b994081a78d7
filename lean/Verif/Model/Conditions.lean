import Mathlib.Data.List.Basic

/-!
Model of the cached quantities of `Conditions`
(`/repo/rubin_scheduler/scheduler/features/conditions.py`).

Simplifications.  The astronomy (`_approx_ra_dec2_alt_az`, `calc_lmst`, `_approx_altaz2pa`,
`m5_flat_sed`, `_angular_separation`, ...) is a record of functions on values `V`; only the
caching is modelled.  The position grid, the site, `exptime` and `survey_start_mjd` are fixed at
construction (236-256) and are part of these functions.  `none` stands for Python's `None` in the
fields and for an exception in the result of a read; a read that raises can leave the state
changed.  `_alt` and `_az` are always set together (`calc_alt_az`) and are one field.  The sky
limits and the azimuth limits of the telescope are one field.  `future_alt_az` (458-476), whose
cache is keyed on everything the result depends on, is computed directly.
-/

namespace Verif.Cond

/-- The computations on current values. -/
structure Fns (V : Type) where
  lmst : V → V
  ha : V → V
  alt : V → V
  az : V → V
  pa : V → V → V
  /-- altitudes, telescope altitude limits -/
  air : V → Option V → V
  nan : V
  /-- band, sky brightness, seeing, airmass -/
  m5 : String → V → V → V → V
  /-- wind speed, wind direction, azimuths -/
  wind : V → V → V → V
  /-- right ascension and declination of the sun -/
  elong : V → V → V
  azSun : V → V
  azAnti : V → V
  night : V → V
  /-- the other arguments of the call, time, altitudes, azimuths, altitude limits, other limits -/
  shadow : ℕ → V → V → V → Option V → Option V → V

/-- What can be asked. -/
inductive Q where
  | alt | az | pa | lmst | ha | airmass | m5 | wind | elong | azSun | azAnti | night
  | shadow (args : ℕ)
deriving DecidableEq, Repr

/-- An answer: an array, or one array for each band. -/
inductive Val (V : Type) where
  | map (v : V)
  | table (t : List (String × V))
deriving DecidableEq, Repr

/-- The attributes (`_init_attributes`, 264-350). -/
structure St (V : Type) where
  mjd : Option V := none
  altAz : Option (V × V) := none
  pa : Option V := none
  lmst : Option V := none
  ha : Option V := none
  sky : List (String × V) := []
  fwhm : List (String × V) := []
  m5 : Option (List (String × V)) := none
  airmass : Option V := none
  windSpeed : Option V := none
  windDir : Option V := none
  wind : Option V := none
  sunRa : Option V := none
  sunDec : Option V := none
  elong : Option V := none
  azSun : Option V := none
  azAnti : Option V := none
  telAlt : Option V := none
  lims : Option V := none
  /-- the `lru_cache` of `alt_az_shadow_mask`, most recent first: it is not an attribute and
  `_init_attributes` does not clear it -/
  masks : List ((V × ℕ) × V) := []

/-- The calls of a user. -/
inductive Op (V : Type) where
  | setMjd (m : Option V)
  | setLmst (v : V)
  | setSky (d : List (String × V))
  | setFwhm (d : List (String × V))
  | setWindSpeed (v : Option V)
  | setWindDir (v : Option V)
  | setSunRa (v : Option V)
  | setSunDec (v : Option V)
  | setTelAlt (v : Option V)
  | setLims (v : Option V)
  | read (q : Q)
deriving DecidableEq, Repr

/-- Assignment to a key of a dictionary. -/
def put {V : Type} (k : String) (v : V) : List (String × V) → List (String × V)
  | [] => [(k, v)]
  | (k', v') :: r => if k' = k then (k, v) :: r else (k', v') :: put k v r

/-- The value of a key. -/
def get {V : Type} (k : String) : List (String × V) → Option V
  | [] => none
  | (k', v') :: r => if k' = k then some v' else get k r

/-- Assignment of each key of `new` (496-497, 507-508). -/
def merge {V : Type} (old new : List (String × V)) : List (String × V) := new.foldl (fun d p => put p.1 p.2 d) old

section
variable {V : Type}

/-- `mjd.setter` (482-488): everything is reset, except the cache of shadow masks. -/
def setMjd (s : St V) (m : Option V) : St V := { mjd := m, masks := s.masks }

/-- `lmst.setter` (384-387). -/
def setLmst (s : St V) (v : V) : St V := { s with lmst := some v, ha := none }

/-- `skybrightness.setter` (494-499). -/
def setSky (s : St V) (d : List (String × V)) : St V := { s with sky := merge s.sky d, m5 := none }

/-- `fwhm_eff.setter` (505-509). -/
def setFwhm (s : St V) (d : List (String × V)) : St V := { s with fwhm := merge s.fwhm d, m5 := none }

/-- `alt`, `az`, `calc_alt_az` (437-456). -/
def readAltAz (F : Fns V) (s : St V) : St V × Option (V × V) :=
  match s.altAz with
  | some v => (s, some v)
  | none =>
    match s.mjd with
    | none => (s, none)
    | some m => ({ s with altAz := some (F.alt m, F.az m) }, some (F.alt m, F.az m))

/-- `lmst` (377-382). -/
def readLmst (F : Fns V) (s : St V) : St V × Option V :=
  match s.lmst with
  | some v => (s, some v)
  | none =>
    match s.mjd with
    | none => (s, none)
    | some m => ({ s with lmst := some (F.lmst m) }, some (F.lmst m))

/-- `HA`, `calc_ha` (389-397). -/
def readHa (F : Fns V) (s : St V) : St V × Option V :=
  match s.ha with
  | some v => (s, some v)
  | none =>
    match readLmst F s with
    | (s1, none) => (s1, none)
    | (s1, some l) => ({ s1 with ha := some (F.ha l) }, some (F.ha l))

/-- `pa`, `calc_pa` (428-435). -/
def readPa (F : Fns V) (s : St V) : St V × Option V :=
  match s.pa with
  | some v => (s, some v)
  | none =>
    match readAltAz F s with
    | (s1, none) => (s1, none)
    | (s1, some p) => ({ s1 with pa := some (F.pa p.1 p.2) }, some (F.pa p.1 p.2))

/-- `airmass`, `calc_airmass` (411-426): it uses `_alt`, which is `None` until `alt` or `az` has
been read. -/
def readAirmass (F : Fns V) (s : St V) : St V × Option V :=
  match s.airmass with
  | some v => (s, some v)
  | none =>
    match s.altAz with
    | none => (s, none)
    | some p => ({ s with airmass := some (F.air p.1 s.telAlt) }, some (F.air p.1 s.telAlt))

/-- The seeing in the band and the airmass, as used at 543-545. -/
def m5Args (fwhm : List (String × V)) (air : Option V) (b : String) : Option (V × V) :=
  match get b fwhm with
  | none => none
  | some f => air.map (fun a => (f, a))

/-- The loop of `calc_m5_depth` (537-546) with the table so far: the table and whether the loop
was completed. The table is filled in place, and the map of NaN of the band at which it raises
stays. -/
def m5Loop (F : Fns V) (fwhm : List (String × V)) (air : Option V) :
    List (String × V) → List (String × V) → List (String × V) × Bool
  | [], acc => (acc, true)
  | (b, v) :: r, acc =>
    match m5Args fwhm air b with
    | none => (acc ++ [(b, F.nan)], false)
    | some fa => m5Loop F fwhm air r (acc ++ [(b, F.m5 b v fa.1 fa.2)])

/-- `m5_depth`, `calc_m5_depth` (529-546): `_airmass` is used as it is, and the table is an
attribute before it is filled. -/
def readM5 (F : Fns V) (s : St V) : St V × Option (List (String × V)) :=
  match s.m5 with
  | some t => (s, some t)
  | none =>
    ({ s with m5 := some (m5Loop F s.fwhm s.airmass s.sky []).1 },
      if (m5Loop F s.fwhm s.airmass s.sky []).2 then some (m5Loop F s.fwhm s.airmass s.sky []).1 else none)

/-- `wind_pressure`, `calc_wind_pressure` (551-558). -/
def readWind (F : Fns V) (s : St V) : St V × Option V :=
  match s.wind with
  | some v => (s, some v)
  | none =>
    match readAltAz F s with
    | (s1, none) => (s1, none)
    | (s1, some p) =>
      match s.windSpeed, s.windDir with
      | some v, some d => ({ s1 with wind := some (F.wind v d p.2) }, some (F.wind v d p.2))
      | _, _ => (s1, none)

/-- `solar_elongation` (548-549, 560-564). -/
def readElong (F : Fns V) (s : St V) : St V × Option V :=
  match s.elong with
  | some v => (s, some v)
  | none =>
    match s.sunRa, s.sunDec with
    | some r, some d => ({ s with elong := some (F.elong r d) }, some (F.elong r d))
    | _, _ => (s, none)

/-- `az_to_sun` (566-567, 572-576). -/
def readAzSun (F : Fns V) (s : St V) : St V × Option V :=
  match s.azSun with
  | some v => (s, some v)
  | none =>
    match s.sunRa with
    | some r => ({ s with azSun := some (F.azSun r) }, some (F.azSun r))
    | none => (s, none)

/-- `az_to_antisun` (569-570, 578-582). -/
def readAzAnti (F : Fns V) (s : St V) : St V × Option V :=
  match s.azAnti with
  | some v => (s, some v)
  | none =>
    match s.sunRa with
    | some r => ({ s with azAnti := some (F.azAnti r) }, some (F.azAnti r))
    | none => (s, none)

/-- The entry of the cache. -/
def hit [DecidableEq V] (k : V × ℕ) (l : List ((V × ℕ) × V)) : Option V := (l.find? (fun e => decide (e.1 = k))).map Prod.snd

/-- `alt_az_shadow_mask(conditions.mjd, ...)` with `lru_cache(maxsize=5)` (584-730, called at
mask_basis_funcs.py 468-480): the key is the time and the arguments of the call. -/
def readShadow [DecidableEq V] (F : Fns V) (s : St V) (n : ℕ) : St V × Option V :=
  match s.mjd with
  | none => (s, none)
  | some m =>
    match hit (m, n) s.masks with
    | some v => ({ s with masks := ((m, n), v) :: s.masks.filter (fun e => decide (e.1 ≠ (m, n))) }, some v)
    | none =>
      match readAltAz F s with
      | (s1, none) => (s1, none)
      | (s1, some p) =>
        ({ s1 with masks := (((m, n), F.shadow n m p.1 p.2 s.telAlt s.lims) :: s.masks).take 5 },
          some (F.shadow n m p.1 p.2 s.telAlt s.lims))

/-- A result as an answer. -/
def asMap (r : St V × Option V) : St V × Option (Val V) := (r.1, r.2.map Val.map)

/-- A read. -/
def read [DecidableEq V] (F : Fns V) (s : St V) : Q → St V × Option (Val V)
  | .alt => ((readAltAz F s).1, (readAltAz F s).2.map (fun p => Val.map p.1))
  | .az => ((readAltAz F s).1, (readAltAz F s).2.map (fun p => Val.map p.2))
  | .pa => asMap (readPa F s)
  | .lmst => asMap (readLmst F s)
  | .ha => asMap (readHa F s)
  | .airmass => asMap (readAirmass F s)
  | .m5 => ((readM5 F s).1, (readM5 F s).2.map Val.table)
  | .wind => asMap (readWind F s)
  | .elong => asMap (readElong F s)
  | .azSun => asMap (readAzSun F s)
  | .azAnti => asMap (readAzAnti F s)
  | .night => (s, s.mjd.map (fun m => Val.map (F.night m)))
  | .shadow n => asMap (readShadow F s n)

/-- One call: `none` when it raises. -/
def step [DecidableEq V] (F : Fns V) (s : St V) : Op V → St V × Bool
  | .setMjd m => (setMjd s m, true)
  | .setLmst v => (setLmst s v, true)
  | .setSky d => (setSky s d, true)
  | .setFwhm d => (setFwhm s d, true)
  | .setWindSpeed v => ({ s with windSpeed := v }, true)
  | .setWindDir v => ({ s with windDir := v }, true)
  | .setSunRa v => ({ s with sunRa := v }, true)
  | .setSunDec v => ({ s with sunDec := v }, true)
  | .setTelAlt v => ({ s with telAlt := v }, true)
  | .setLims v => ({ s with lims := v }, true)
  | .read q => ((read F s q).1, (read F s q).2.isSome)

/-- A history in which no call raises, on a new object: the state at the end. -/
def run [DecidableEq V] (F : Fns V) : St V → List (Op V) → Option (St V)
  | s, [] => some s
  | s, op :: ops => if (step F s op).2 then run F (step F s op).1 ops else none

/-- A history in which exceptions are caught by the caller. -/
def runAll [DecidableEq V] (F : Fns V) (s : St V) (ops : List (Op V)) : St V := ops.foldl (fun s op => (step F s op).1) s

/-- What is asked of and set on the object by `ModelObservatory.return_conditions`
(model_observatory.py 370-501), in its order: altitudes and azimuths (391-392), airmass (402),
seeing (406), sky brightness (410), sun (453-454), sidereal time (456), limits (479-482), wind
(495-496). -/
def observatory (m : V) (fwhm sky : List (String × V)) (ra dec lmst telAlt lims speed dir : V) : List (Op V) :=
  [.setMjd (some m), .read .alt, .read .az, .read .airmass, .setFwhm fwhm, .setSky sky, .setSunRa (some ra), .setSunDec (some dec),
   .setLmst lmst, .setLims (some lims), .setTelAlt (some telAlt), .setWindSpeed (some speed), .setWindDir (some dir)]

/-- `set_attrs` (947-954): the keyword arguments in the order they are given. -/
def setAttrs [DecidableEq V] (F : Fns V) (s : St V) (args : List (Op V)) : St V := runAll F s args

/-- A simulator that has returned several `Conditions`, each with a reference to the arrays
`seeing_fwhm_eff` of the simulator (model_observatory.py 397-406: the arrays are refilled in
place, and `match_hp_resolution`, healpy_utils.py 466-470, returns the array itself when the
resolution is the same).  `made` counts the objects. -/
structure Sim (V : Type) where
  seeing : V
  made : ℕ

/-- A call of `return_conditions` when the seeing is `v`. -/
def Sim.call (s : Sim V) (v : V) : Sim V := { seeing := v, made := s.made + 1 }

/-- `fwhm_eff` of the `i`-th object returned. -/
def Sim.fwhmOf (s : Sim V) (i : ℕ) : Option V := if i < s.made then some s.seeing else none

end
end Verif.Cond
