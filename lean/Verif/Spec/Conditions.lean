import Verif.Model.Conditions

/-! What the conditions should answer: each quantity computed from the inputs given since the
time was last set. -/

namespace Verif.Cond
variable {V : Type}

/-- The inputs in force. -/
structure Inputs (V : Type) where
  mjd : Option V := none
  lmst : Option V := none
  sky : List (String × V) := []
  fwhm : List (String × V) := []
  windSpeed : Option V := none
  windDir : Option V := none
  sunRa : Option V := none
  sunDec : Option V := none
  telAlt : Option V := none
  lims : Option V := none

/-- The effect of a call on the inputs: a read has none, a new time removes them all. -/
def Inputs.next (i : Inputs V) : Op V → Inputs V
  | .setMjd m => { mjd := m }
  | .setLmst v => { i with lmst := some v }
  | .setSky d => { i with sky := merge i.sky d }
  | .setFwhm d => { i with fwhm := merge i.fwhm d }
  | .setWindSpeed v => { i with windSpeed := v }
  | .setWindDir v => { i with windDir := v }
  | .setSunRa v => { i with sunRa := v }
  | .setSunDec v => { i with sunDec := v }
  | .setTelAlt v => { i with telAlt := v }
  | .setLims v => { i with lims := v }
  | .read _ => i

/-- The inputs in force after a history. -/
def inputs (h : List (Op V)) : Inputs V := h.foldl Inputs.next {}

/-- The sidereal time: the one given, or the one of the time. -/
def Inputs.sidereal (F : Fns V) (i : Inputs V) : Option V :=
  match i.lmst with
  | some l => some l
  | none => i.mjd.map F.lmst

/-- The airmass. -/
def Inputs.air (F : Fns V) (i : Inputs V) : Option V := i.mjd.map (fun m => F.air (F.alt m) i.telAlt)

/-- The depth in a band. -/
def Inputs.depth (F : Fns V) (i : Inputs V) (p : String × V) : Option (String × V) :=
  match get p.1 i.fwhm, i.air F with
  | some f, some a => some (p.1, F.m5 p.1 p.2 f a)
  | _, _ => none

/-- The answer for the current inputs. -/
def fresh (F : Fns V) (i : Inputs V) : Q → Option (Val V)
  | .alt => i.mjd.map (fun m => .map (F.alt m))
  | .az => i.mjd.map (fun m => .map (F.az m))
  | .pa => i.mjd.map (fun m => .map (F.pa (F.alt m) (F.az m)))
  | .lmst => (i.sidereal F).map .map
  | .ha => (i.sidereal F).map (fun l => .map (F.ha l))
  | .airmass => (i.air F).map .map
  | .m5 => (i.sky.mapM (i.depth F)).map .table
  | .wind => i.mjd.bind (fun m => i.windSpeed.bind (fun v => i.windDir.map (fun d => .map (F.wind v d (F.az m)))))
  | .elong => i.sunRa.bind (fun r => i.sunDec.map (fun d => .map (F.elong r d)))
  | .azSun => i.sunRa.map (fun r => .map (F.azSun r))
  | .azAnti => i.sunRa.map (fun r => .map (F.azAnti r))
  | .night => i.mjd.map (fun m => .map (F.night m))
  | .shadow n => i.mjd.map (fun m => .map (F.shadow n m (F.alt m) (F.az m) i.telAlt i.lims))

/-- The inputs without a setter that a quantity depends on. -/
def Uses : Q → Op V → Prop
  | .airmass, .setTelAlt _ => True
  | .m5, .setTelAlt _ => True
  | .wind, .setWindSpeed _ => True
  | .wind, .setWindDir _ => True
  | .elong, .setSunRa _ => True
  | .elong, .setSunDec _ => True
  | .azSun, .setSunRa _ => True
  | .azAnti, .setSunRa _ => True
  | .shadow _, .setTelAlt _ => True
  | .shadow _, .setLims _ => True
  | _, _ => False

/-- No such input is changed after a quantity that uses it was read, until a new time is set. -/
def Settled (h : List (Op V)) : Prop :=
  ∀ a q b op c, h = a ++ Op.read q :: b ++ op :: c → Uses q op → ∃ m, Op.setMjd m ∈ b

/-- The times set in a history. -/
def times (h : List (Op V)) : List V := h.filterMap (fun op => match op with | .setMjd m => m | _ => none)

end Verif.Cond
