import Mathlib.Data.List.Basic

/-!
Model of setting all conditions in one call, `set_maintel_info` and `set_auxtel_info`
(`/repo/rubin_scheduler/scheduler/features/conditions.py` 264-375, 482-527, 732-945).

Simplifications.  The object is a map from the names of its attributes to values; the private
fields behind a property go by the name of the property, and cached quantities (modelled in
`Model/Conditions.lean`) are left out.  Maps that come in at another resolution (407, 497, 508)
are taken to have the right one.  Warnings are left out.  `none` as a result stands for a Python
exception.
-/

namespace Verif.Cset

/-- A value of an attribute. `other` stands for numbers and arrays. -/
inductive PV where
  | none
  | text (s : String)
  | texts (l : List String)
  | maps (d : List (String × ℕ))
  | other (n : ℕ)
  | empty
  | dict (keys : List String)
deriving DecidableEq

/-- The attributes: a name that is not there has none. -/
abbrev Attrs := String → Option PV

/-- Assignment to one attribute. -/
def upd (a : Attrs) (k : String) (v : PV) : Attrs := fun x => if x = k then some v else a x

/-- The attributes that `_init_attributes` sets to `None` (conditions.py 268-353). -/
def clearedNames : List String :=
  ["mjd", "clouds", "slewtime", "current_band", "current_filter", "mounted_bands", "mounted_filters", "lmst",
   "wind_speed", "wind_direction", "queue", "moon_alt", "moon_az", "moon_ra", "moon_dec", "moon_phase",
   "sun_alt", "sun_az", "sun_ra", "sun_dec", "sunset", "sun_n12_setting", "sun_n18_setting", "sun_n18_rising",
   "sun_n12_rising", "sunrise", "moonrise", "moonset", "moon_phase_sunset", "planet_positions", "tel_ra", "tel_dec",
   "tel_alt", "tel_az", "cumulative_azimuth_rad", "sky_az_limits", "sky_alt_limits", "tel_alt_limits", "tel_az_limits",
   "cloud_maps", "bulk_cloud", "rot_tel_pos", "targets_of_opportunity"]

/-- The value `_init_attributes` gives to a name, if it resets it (conditions.py 264-353). -/
def cleared (k : String) : Option PV :=
  if k = "skybrightness" ∨ k = "fwhm_eff" then some (.maps [])
  else if k = "scheduled_observations" then some .empty
  else if k ∈ clearedNames then some .none
  else none

/-- `_init_attributes` (conditions.py 264-353): other attributes stay. -/
def init (a : Attrs) : Attrs := fun k => (cleared k).or (a k)

/-- `value.split("_")[0]` (conditions.py 366, 375). -/
def bandOf (s : String) : String := String.ofList (s.toList.takeWhile (fun c => c ≠ '_'))

/-- Assignment to a key of a dictionary of maps. -/
def put (d : List (String × ℕ)) (p : String × ℕ) : List (String × ℕ) :=
  if p.1 ∈ d.map Prod.fst then d.map (fun q => if q.1 = p.1 then p else q) else d ++ [p]

/-- The setters of the two dictionaries of maps (conditions.py 494-499, 505-509), given the old
value. -/
def mergeInto (old new : PV) : Option PV :=
  match old, new with
  | .maps d, .maps e => some (.maps (e.foldl put d))
  | _, _ => none

/-- Properties without a setter (conditions.py 389-582). -/
def readOnly : List String :=
  ["alt", "az", "pa", "HA", "airmass", "m5_depth", "wind_pressure", "solar_elongation", "az_to_sun", "az_to_antisun"]

/-- `current_filter.setter` (conditions.py 363-366): anything but a string raises. -/
def setFilter (a : Attrs) : PV → Option Attrs
  | .text s => some (upd (upd a "current_filter" (.text s)) "current_band" (.text (bandOf s)))
  | _ => none

/-- `mounted_filters.setter` (conditions.py 372-375). -/
def setMounted (a : Attrs) : PV → Option Attrs
  | .texts l => some (upd (upd a "mounted_filters" (.texts l)) "mounted_bands" (.texts (l.map bandOf)))
  | _ => none

/-- `setattr(self, key, value)`: the setters (conditions.py 363-375, 482-509, 520-527) or a plain
attribute. -/
def setOne (a : Attrs) (p : String × PV) : Option Attrs :=
  if p.1 = "night" then some a
  else if p.1 = "mjd" then some (upd (init a) "mjd" p.2)
  else if p.1 = "current_filter" then setFilter a p.2
  else if p.1 = "mounted_filters" then setMounted a p.2
  else if p.1 = "skybrightness" ∨ p.1 = "fwhm_eff" then
    ((a p.1).bind (fun old => mergeInto old p.2)).map (fun v => upd a p.1 v)
  else if p.1 ∈ readOnly then none
  else some (upd a p.1 p.2)

/-- Several assignments. -/
def setAll (a : Attrs) (ps : List (String × PV)) : Option Attrs := ps.foldlM setOne a

/-- `set_auxtel_info` (conditions.py 787-797) and, leaving out `night` as its setter does
nothing, `set_maintel_info` (928-945), with the names of the parameters: the signature also
lists `kwargs`, which becomes an attribute (790-791, 936-938). -/
def setInfo (params : List String) (vals : List PV) (kwargs : List (String × PV)) (a : Attrs) : Option Attrs :=
  if vals.length = params.length then
    (setAll (init a) (params.zip vals)).bind (fun b =>
      setAll (upd b "kwargs" (.dict (kwargs.map Prod.fst))) kwargs)
  else none

/-- The parameters of `set_maintel_info` (conditions.py 799-834). -/
def mainParams : List String :=
  ["mjd", "slewtime", "current_filter", "mounted_filters", "night", "skybrightness", "fwhm_eff", "moon_alt", "moon_az",
   "moon_ra", "moon_dec", "moon_phase", "sun_alt", "sun_az", "sun_ra", "sun_dec", "tel_ra", "tel_dec", "tel_alt",
   "tel_az", "wind_speed", "wind_direction", "sun_n12_setting", "sun_n12_rising", "sun_n18_setting", "sun_n18_rising",
   "moonrise", "moonset", "planet_positions", "tel_alt_limits", "tel_az_limits", "sky_alt_limits", "sky_az_limits"]

/-- The parameters of `set_auxtel_info` (conditions.py 732-747). -/
def auxParams : List String :=
  ["mjd", "slewtime", "sun_n18_setting", "sun_n18_rising", "moon_alt", "moon_az", "tel_alt_limits", "tel_az_limits",
   "sky_alt_limits", "sky_az_limits", "wind_speed", "wind_direction"]

end Verif.Cset
