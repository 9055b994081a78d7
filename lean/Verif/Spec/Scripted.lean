import Verif.Model.Scripted
import Mathlib.Data.List.Sort

/-!
What it means that a scripted visit may be offered.
-/

namespace Verif.Script

/-- Going from `lo` in the direction of increasing azimuth, `az` is met no later than `hi`. -/
def InSector (T lo hi az : ℚ) : Prop :=
  ∃ k j : ℤ, lo ≤ az + k * T ∧ az + k * T ≤ hi + j * T ∧ hi + j * T < lo + T

/-- `h` is the hour angle of right ascension `ra`, from 0 up to 24 hours. -/
def IsHourAngle (c : Cond) (ra h : ℚ) : Prop :=
  0 ≤ h ∧ h < 24 ∧ ∃ k : ℤ, c.lmst = ra * 24 / c.turn + h + 24 * k

/-- `x` is between the two limits, given in any order. -/
def Within (l : ℚ × ℚ) (x : ℚ) : Prop := l.1 ≤ x ∧ x ≤ l.2 ∨ l.2 ≤ x ∧ x ≤ l.1

/-- The azimuth is allowed: the limits cover everything or it is in their sector. -/
def AzAllowed (T : ℚ) (l : ℚ × ℚ) (az : ℚ) : Prop := T ≤ |l.2 - l.1| ∨ InSector T l.1 l.2 az

/-- A visit of the script may be offered now. -/
structure Eligible (cfg : Cfg) (c : Cond) (e : Entry) : Prop where
  outstanding : e.observed = false
  started : e.mjd - e.tol < c.mjd
  notFlushed : c.mjd < e.flush
  moon : e.moonMin < c.moon e.ra e.dec
  low : e.altMin < c.alt e.ra e.dec
  high : c.alt e.ra e.dec < e.altMax
  ha : ∃ h, IsHourAngle c e.ra h ∧ (e.haMax < h ∨ h < e.haMin)
  sun : c.sunAlt < e.sunMax
  skyAlt : ∀ ls, c.skyAlt = some ls → ∃ l ∈ ls, Within l (c.alt e.ra e.dec)
  telAlt : Within c.telAlt (c.alt e.ra e.dec)
  skyAz : ∀ ls, c.skyAz = some ls → ∃ l ∈ ls, AzAllowed c.turn l (c.az e.ra e.dec)
  telAz : AzAllowed c.turn c.telAz (c.az e.ra e.dec)
  mounted : cfg.checkMounted = true → e.band ∈ c.mounted
  active : cfg.checkActive = true → e.band = c.current
  reward : ∀ f, cfg.finite = some f → f e.ra e.dec = true

/-- The sidereal time and the position are in their usual ranges. -/
structure Usual (c : Cond) (e : Entry) : Prop where
  turn : 0 < c.turn
  lmst : 0 ≤ c.lmst ∧ c.lmst < 24
  ra : 0 ≤ e.ra ∧ e.ra < c.turn

/-- Seconds and days needed for a list of visits: exposures, and a band change wherever the band
differs from the one before. -/
def bandChanges : List Entry → ℕ
  | a :: b :: es => (if b.band = a.band then 0 else 1) + bandChanges (b :: es)
  | _ => 0

/-- Days of exposure. -/
def exposureDays (es : List Entry) : ℚ := (es.map Entry.exptime).sum / 86400

/-- The numbers with which a history tags visits. -/
def given (cfg : Cfg) (idOf : String → Option ℕ) : St → List Op → List ℕ
  | _, [] => []
  | s, op :: ops =>
    (match op with | .set new _ true => List.range' s.idStart new.length | _ => []) ++
    (match step cfg idOf s op with | none => [] | some s' => given cfg idOf s' ops)

end Verif.Script
