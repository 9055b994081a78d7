import Mathlib.Analysis.SpecialFunctions.Trigonometric.Basic

/-!
Sites (`/repo/rubin_scheduler/utils/site.py`).

Simplifications. Numbers are exact and finite (`nan`, which differs from itself, is left out). A site is modelled by its `__dict__`, the list of its
attributes in the order in which the constructor sets them, because `__eq__` goes over it. The text of the warning is the list of the names in it.
-/

namespace Verif.Ste

/-- The numbers of a known site. -/
structure Params where
  longitude : ℚ
  latitude : ℚ
  height : ℚ
  temperature : ℚ
  pressure : ℚ
  humidity : ℚ
  lapseRate : ℚ

/-- `LsstSiteParameters` (site.py 28-35). -/
def lsst : Params := ⟨-7074941 / 100000, -30244628 / 1000000, 2650, 115 / 10, 750, 4 / 10, 65 / 10000⟩

/-- `AuxTelParameters` (site.py 54-62). -/
def auxTel : Params := ⟨-70747686 / 1000000, -30244789 / 1000000, 2650, 115 / 10, 750, 4 / 10, 65 / 10000⟩

/-- The arguments of the constructor (site.py 96-106). -/
structure Args where
  name : Option String := none
  longitude : Option ℚ := none
  latitude : Option ℚ := none
  height : Option ℚ := none
  temperature : Option ℚ := none
  pressure : Option ℚ := none
  humidity : Option ℚ := none
  lapseRate : Option ℚ := none

/-- The parameters that go with a name (site.py 107-113). -/
def defaults (a : Args) : Option Params :=
  let p := if a.name = some "LSST" then some lsst else none
  if a.name = some "AuxTel" then some auxTel else p

/-- `if x is None: x = default` (site.py 115-135). -/
def orElse (x : Option ℚ) (d : ℚ) : Option ℚ := if x = none then some d else x

/-- Filling in the defaults (site.py 115-135). -/
def fill (a : Args) : Args :=
  match defaults a with
  | none => a
  | some p => { a with
      longitude := orElse a.longitude p.longitude
      latitude := orElse a.latitude p.latitude
      height := orElse a.height p.height
      temperature := orElse a.temperature p.temperature
      pressure := orElse a.pressure p.pressure
      humidity := orElse a.humidity p.humidity
      lapseRate := orElse a.lapseRate p.lapseRate }

/-- A value of an attribute. -/
inductive Val where
  | none
  | num (x : ℝ)
  | str (s : String)

/-- A number or None as a value. -/
noncomputable def ofNum : Option ℚ → Val
  | .none => .none
  | .some x => .num x

def ofStr : Option String → Val
  | .none => .none
  | .some s => .str s

/-- `np.radians`, of what is not None (site.py 137-145). -/
noncomputable def radians : Option ℚ → Val
  | .none => .none
  | .some x => .num (x * Real.pi / 180)

/-- From centigrade to Kelvin (site.py 152-155). -/
noncomputable def kelvin : Option ℚ → Val
  | .none => .none
  | .some x => .num (x + 273.15)

/-- `__dict__` of a site. -/
abbrev Dict := List (String × Val)

/-- The attributes, in the order of the assignments (site.py 108, 137-159). -/
noncomputable def attributes (a : Args) : Dict :=
  [("_name", ofStr a.name), ("_longitude_rad", radians a.longitude), ("_latitude_rad", radians a.latitude), ("_longitude_deg", ofNum a.longitude),
    ("_latitude_deg", ofNum a.latitude), ("_height", ofNum a.height), ("_pressure", ofNum a.pressure), ("_temperature_kelvin", kelvin a.temperature),
    ("_temperature_centigrade", ofNum a.temperature), ("_humidity", ofNum a.humidity), ("_lapse_rate", ofNum a.lapseRate)]

/-- `self.__dict__[k]`, None for what is not there. -/
def Dict.get (d : Dict) (k : String) : Option Val := (d.find? fun p => decide (p.1 = k)).map Prod.snd

/-- The properties (site.py 229-304). -/
def prop (d : Dict) (k : String) : Val := (d.get k).getD .none

open Classical in
/-- One of the three pairs of attributes that must be None together: raises, or adds its name to the list (site.py 166-188). -/
noncomputable def pair (d : Dict) (k k' name : String) (l : List String) : Option (List String) :=
  if prop d k = .none ∨ prop d k' = .none then
    if prop d k ≠ .none then .none
    else if prop d k' ≠ .none then .none
    else some (l ++ [name])
  else some l

open Classical in
/-- One of the other attributes (site.py 190-200). -/
noncomputable def single (d : Dict) (k name : String) (l : List String) : List String := if prop d k = .none then l ++ [name] else l

/-- The names in the warning, none for a RuntimeError (site.py 161-206). There is no warning when the list is empty. -/
noncomputable def nones (d : Dict) : Option (List String) :=
  (pair d "_longitude_rad" "_longitude_deg" "longitude" []).bind fun l =>
  (pair d "_latitude_rad" "_latitude_deg" "latitude" l).bind fun l =>
  (pair d "_temperature_centigrade" "_temperature_kelvin" "temperature" l).map fun l =>
  single d "_lapse_rate" "lapse_rate" (single d "_humidity" "humidity" (single d "_pressure" "pressure" (single d "_height" "height" l)))

/-- The constructor (site.py 96-206): the site and the names in the warning; none when it raises. -/
noncomputable def make (a : Args) : Option (Dict × List String) :=
  (nones (attributes (fill a))).map fun l => (attributes (fill a), l)

open Classical in
/-- `__eq__` (site.py 213-224). -/
noncomputable def eq (s o : Dict) : Bool :=
  if s.any fun p => decide (o.get p.1 = .none) || decide (o.get p.1 ≠ some p.2) then false
  else if o.any fun p => decide (s.get p.1 = .none) then false
  else true

/-- `__ne__` (site.py 226-227). -/
noncomputable def ne (s o : Dict) : Bool := !eq s o

end Verif.Ste
