import Verif.Lemmas.Conditions

/-! # C50: the conditions never serve stale derived values -/

namespace Verif
open Cond
variable {V : Type}

/-- C50 for the values that depend on the time and the sidereal time: after every history, also
one with reads that raise, a read gives exactly the value of the current inputs. -/
theorem C50_time_values [DecidableEq V] (F : Fns V) (h : List (Op V)) (q : Q)
    (hq : q = .alt ∨ q = .az ∨ q = .pa ∨ q = .lmst ∨ q = .ha ∨ q = .night) :
    (Cond.read F (runAll F {} h) q).2 = fresh F (inputs h) q := by
  have ht := runAll_tcoh F h
  rcases hq with rfl | rfl | rfl | rfl | rfl | rfl
  · show (readAltAz F _).2.map _ = _
    rw [(readAltAz_spec ht).2.1, Option.map_map]; rfl
  · show (readAltAz F _).2.map _ = _
    rw [(readAltAz_spec ht).2.1, Option.map_map]; rfl
  · show (readPa F _).2.map _ = _
    rw [(readPa_spec ht).2.1, Option.map_map]; rfl
  · show (readLmst F _).2.map _ = _
    rw [(readLmst_spec ht).2.1]; rfl
  · show (readHa F _).2.map _ = _
    rw [(readHa_spec ht).2.1, Option.map_map]; rfl
  · show (runAll F {} h).mjd.map _ = _
    rw [ht.mjd]; rfl

/-- C50 for every quantity but the shadow masks. Missing from the full statement: inputs without
a setter must not change after a quantity that uses them was read (`Settled`), and no earlier
call may have raised. -/
theorem C50_current_partial [DecidableEq V] (F : Fns V) (h : List (Op V)) (s : St V) (hr : run F {} h = some s) (hs : Settled h)
    (q : Q) (hq : ∀ n, q ≠ .shadow n) (v : Val V) (hv : (Cond.read F s q).2 = some v) : fresh F (inputs h) q = some v :=
  ((run_coh F h s hr hs).read q hv).2 hq

/-- C50 for the shadow masks. Missing in addition: a time must not be set again. -/
theorem C50_shadow_partial [DecidableEq V] (F : Fns V) (h : List (Op V)) (s : St V) (hr : run F {} h = some s) (hs : Settled h)
    (ht : (times h).Nodup) (n : ℕ) (v : Val V) (hv : (Cond.read F s (.shadow n)).2 = some v) : fresh F (inputs h) (.shadow n) = some v := by
  have hv' : (readShadow F s n).2.map Val.map = some v := hv
  obtain ⟨w, hw, rfl⟩ := Option.map_eq_some_iff.1 hv'
  exact (readShadow_spec (run_coh F h s hr hs) (run_mcoh F h s hr hs ht) n).2 w hw

/-- Once the altitudes have been read, the airmass is there. -/
theorem C50_airmass_available_partial [DecidableEq V] (F : Fns V) (h : List (Op V)) (s : St V)
    (hr : run F {} (h ++ [.read .alt]) = some s) (hs : Settled h) : (Cond.read F s .airmass).2 = fresh F (inputs h) .airmass := by
  obtain ⟨s1, e1, hok, rfl⟩ := run_snoc F h _ _ _ hr
  have hc := run_coh F h s1 e1 hs
  obtain ⟨v, hv⟩ := Option.isSome_iff_exists.1 hok
  obtain ⟨c1, -⟩ := hc.read .alt hv
  obtain ⟨a1, a2, -⟩ := readAltAz_spec hc.t
  have hv' : (readAltAz F s1).2.map (fun p => Val.map p.1) = some v := hv
  rw [a2, Option.map_map] at hv'
  obtain ⟨m, hm, -⟩ := Option.map_eq_some_iff.1 hv'
  show (Cond.read F (Cond.read F s1 .alt).1 .airmass).2 = _
  have hsome : ∃ w, (Cond.read F (Cond.read F s1 .alt).1 .airmass).2 = some w := by
    show ∃ w, (readAirmass F (readAltAz F s1).1).2.map Val.map = some w
    rcases Option.eq_none_or_eq_some (readAltAz F s1).1.airmass with hl | ⟨l, hl⟩
    · have hp : ∃ p, (readAltAz F s1).1.altAz = some p := by
        rcases Option.eq_none_or_eq_some s1.altAz with ha | ⟨p, ha⟩
        · have hm1 : s1.mjd = some m := by rw [hc.t.mjd, hm]
          have e : readAltAz F s1 = ({ s1 with altAz := some (F.alt m, F.az m) }, some (F.alt m, F.az m)) := by
            unfold readAltAz; simp only [ha, hm1]
          rw [e]; exact ⟨_, rfl⟩
        · have e : readAltAz F s1 = (s1, some p) := by unfold readAltAz; simp only [ha]
          rw [e]; exact ⟨p, ha⟩
      obtain ⟨p, hp⟩ := hp
      unfold readAirmass
      simp only [hl, hp]
      exact ⟨_, rfl⟩
    · unfold readAirmass
      simp only [hl]
      exact ⟨_, rfl⟩
  obtain ⟨w, hw⟩ := hsome
  rw [hw]
  exact ((c1.read .airmass hw).2 (by intro n; simp)).symm

/-- Once the altitudes and then the airmass have been read, the depth is there whenever the
seeing is known in every band with a sky brightness. -/
theorem C50_depth_available_partial [DecidableEq V] (F : Fns V) (h : List (Op V)) (s : St V)
    (hr : run F {} (h ++ [.read .alt, .read .airmass]) = some s) (hs : Settled h) : (Cond.read F s .m5).2 = fresh F (inputs h) .m5 := by
  have e0 : h ++ [Op.read .alt, Op.read .airmass] = (h ++ [.read .alt]) ++ [.read .airmass] := by simp
  rw [e0] at hr
  obtain ⟨s1, e1, hok, rfl⟩ := run_snoc F _ _ _ _ hr
  have hair := C50_airmass_available_partial F h s1 e1 hs
  obtain ⟨s0, e2, hok0, rfl⟩ := run_snoc F _ _ _ _ e1
  have hc0 := run_coh F h s0 e2 hs
  obtain ⟨v0, hv0⟩ := Option.isSome_iff_exists.1 hok0
  obtain ⟨c1, -⟩ := hc0.read .alt hv0
  obtain ⟨v, hv⟩ := Option.isSome_iff_exists.1 hok
  obtain ⟨c2, hf⟩ := c1.read .airmass hv
  have hfr := hf (by intro n; simp)
  -- the airmass is cached
  have hstored : ∀ a, (inputs h).air F = some a → (Cond.read F (Cond.read F s0 .alt).1 .airmass).1.airmass = some a := by
    intro a ha
    have hv1 : (readAirmass F (readAltAz F s0).1).2.map Val.map = some v := hv
    obtain ⟨w, hw, rfl⟩ := Option.map_eq_some_iff.1 hv1
    have hwa : w = a := by
      have h1 : ((inputs h).air F).map Val.map = some (Val.map w) := hfr
      rw [ha] at h1
      have := Option.some.inj h1
      injection this with this
      exact this.symm
    subst hwa
    show (readAirmass F (readAltAz F s0).1).1.airmass = some w
    rcases Option.eq_none_or_eq_some (readAltAz F s0).1.airmass with hl | ⟨l, hl⟩
    · rcases Option.eq_none_or_eq_some (readAltAz F s0).1.altAz with hp | ⟨p, hp⟩
      · unfold readAirmass at hw; simp only [hl, hp] at hw; cases hw
      · unfold readAirmass at hw ⊢; simp only [hl, hp] at hw ⊢; exact hw
    · unfold readAirmass at hw ⊢; simp only [hl] at hw ⊢; exact hw
  show (readM5 F (Cond.read F (Cond.read F s0 .alt).1 .airmass).1).2.map Val.table = ((inputs h).sky.mapM ((inputs h).depth F)).map Val.table
  rcases Option.eq_none_or_eq_some (Cond.read F (Cond.read F s0 .alt).1 .airmass).1.m5 with hm | ⟨t, hm⟩
  · rcases Option.eq_none_or_eq_some ((inputs h).sky.mapM ((inputs h).depth F)) with hd | ⟨t, hd⟩
    · rw [hd]
      rcases Option.eq_none_or_eq_some (readM5 F (Cond.read F (Cond.read F s0 .alt).1 .airmass).1).2 with hx | ⟨t, hx⟩
      · rw [hx]
      · have := (readM5_spec c2 hx).2
        rw [hd] at this; cases this
    · have hl := m5Loop_complete F (inputs h) _ hstored (inputs h).sky [] t hd
      have e : (readM5 F (Cond.read F (Cond.read F s0 .alt).1 .airmass).1).2 = some t := by
        unfold readM5
        rw [hm]
        dsimp only
        rw [c2.fwhm, c2.sky, hl]
        rfl
      rw [e, hd]
  · have e : (readM5 F (Cond.read F (Cond.read F s0 .alt).1 .airmass).1).2 = some t := by
      unfold readM5
      rw [hm]
    rw [e, (readM5_spec c2 e).2]

/-! ### The simulator -/

/-- The conditions returned by the simulator: every quantity but the airmass and the depth, when
first read, is the one for the inputs. -/
theorem C50_simulator [DecidableEq V] (F : Fns V) (m : V) (fwhm sky : List (String × V)) (ra dec lmst telAlt lims speed dir : V) (q : Q)
    (h1 : q ≠ .airmass) (h2 : q ≠ .m5) :
    ∃ s, run F {} (observatory m fwhm sky ra dec lmst telAlt lims speed dir) = some s ∧
      (Cond.read F s q).2 = fresh F (inputs (observatory m fwhm sky ra dec lmst telAlt lims speed dir)) q ∧ (Cond.read F s q).2.isSome := by
  refine ⟨_, rfl, ?_⟩
  cases q <;> first | exact absurd rfl h1 | exact absurd rfl h2 | exact ⟨rfl, rfl⟩

/-- C50 fails for the airmass in every simulation: the altitude limits of the telescope are set
after the airmass was read, so that the airmass is that without limits. -/
theorem C50_simulator_airmass [DecidableEq V] (F : Fns V) (m : V) (fwhm sky : List (String × V)) (ra dec lmst telAlt lims speed dir : V) :
    ∃ s, run F {} (observatory m fwhm sky ra dec lmst telAlt lims speed dir) = some s ∧
      (Cond.read F s .airmass).2 = some (.map (F.air (F.alt m) none)) ∧
      fresh F (inputs (observatory m fwhm sky ra dec lmst telAlt lims speed dir)) .airmass = some (.map (F.air (F.alt m) (some telAlt))) :=
  ⟨_, rfl, rfl, rfl⟩

/-- Computations for the witnesses. -/
def plainF : Fns Int where
  lmst := id
  ha := fun l => 100 - l
  alt := id
  az := fun m => 2 * m
  pa := fun a b => a + b
  air := fun a l => match l with | none => a | some l => if l < a then a else 0
  nan := 0
  m5 := fun _ s f a => s + f + a
  wind := fun v d a => v * (a - d)
  elong := fun r d => r + d
  azSun := fun r => -r
  azAnti := fun r => r
  night := id
  shadow := fun n m a z t l => n + m + a + z + t.getD 0 + l.getD 0

/-- The witness for the simulator: at altitude 5 the airmass is defined although the telescope
does not go below 20. -/
theorem C50_simulator_airmass_violated :
    (run plainF {} (observatory 5 [("r", 1)] [("r", 2)] 3 4 6 20 0 7 8)).map (fun s => (Cond.read plainF s .airmass).2) =
      some (some (.map 5)) ∧
    fresh plainF (inputs (observatory 5 [("r", 1)] [("r", 2)] 3 4 6 20 0 7 8)) .airmass = some (.map 0) := by decide +kernel

/-- C50 fails for the wind: the pressure is that of the old wind. -/
theorem C50_wind_violated :
    ∃ (h : List (Op Int)) (s : St Int), run plainF {} h = some s ∧ (Cond.read plainF s .wind).2 = some (.map 20) ∧
      fresh plainF (inputs h) .wind = some (.map 50) := by
  refine ⟨[.setMjd (some 5), .setWindSpeed (some 2), .setWindDir (some 0), .read .wind, .setWindSpeed (some 5)], _, rfl, ?_⟩
  decide +kernel

/-- C50 fails for the distance from the sun. -/
theorem C50_sun_violated :
    ∃ (h : List (Op Int)) (s : St Int), run plainF {} h = some s ∧ (Cond.read plainF s .elong).2 = some (.map 3) ∧
      fresh plainF (inputs h) .elong = some (.map 12) ∧ (Cond.read plainF s .azSun).2 = some (.map (-1)) ∧
      fresh plainF (inputs h) .azSun = some (.map (-10)) := by
  refine ⟨[.setMjd (some 5), .setSunRa (some 1), .setSunDec (some 2), .read .elong, .read .azSun, .setSunRa (some 10)], _, rfl, ?_⟩
  decide +kernel

/-- C50 fails for the shadow mask: it is that of the old limits, also when the time has been set
to another one and back, which resets all attributes. -/
theorem C50_shadow_violated :
    ∃ (h : List (Op Int)) (s : St Int), run plainF {} h = some s ∧ Settled h ∧ (Cond.read plainF s (.shadow 1)).2 = some (.map 26) ∧
      fresh plainF (inputs h) (.shadow 1) = some (.map 51) := by
  refine ⟨[.setMjd (some 5), .setTelAlt (some 5), .read (.shadow 1), .setMjd (some 6), .setMjd (some 5), .setTelAlt (some 30)], _, rfl, ?_, ?_⟩
  · exact settled_of_okFrom (by simp [okFrom, nextReads, Uses])
  · decide +kernel

/-- C50 fails for the depth: asked before the airmass has been read it raises, and asked again it
gives a table of NaN. -/
theorem C50_depth_violated :
    let h : List (Op Int) := [.setMjd (some 5), .setSky [("r", 2)], .setFwhm [("r", 1)], .read .alt]
    (Cond.read plainF (runAll plainF {} h) .m5).2 = none ∧
    (Cond.read plainF (runAll plainF {} (h ++ [.read .m5])) .m5).2 = some (.table [("r", plainF.nan)]) ∧
    (Cond.read plainF (runAll plainF {} (h ++ [.read .airmass])) .m5).2 = some (.table [("r", 8)]) ∧
    fresh plainF (inputs h) .m5 = some (.table [("r", 8)]) := by decide +kernel

/-- C50 fails for the airmass when nothing has been read before: it raises. -/
theorem C50_airmass_violated [DecidableEq V] (F : Fns V) (m : V) :
    (Cond.read F (runAll F {} [.setMjd (some m)]) .airmass).2 = none ∧
    fresh F (inputs [.setMjd (some m)]) .airmass = some (.map (F.air (F.alt m) none)) := ⟨rfl, rfl⟩

/-- Setting several attributes at once depends on their order: those given before the time are
lost. -/
theorem C50_set_attrs [DecidableEq V] (F : Fns V) (s : St V) (m v : V) :
    (setAttrs F s [.setMjd (some m), .setWindSpeed (some v)]).windSpeed = some v ∧
    (setAttrs F s [.setWindSpeed (some v), .setMjd (some m)]).windSpeed = none := ⟨rfl, rfl⟩

/-- The seeing of conditions returned earlier by a simulator changes when it returns new ones. -/
theorem C50_seeing_shared (s : Cond.Sim V) (v w : V) :
    (s.call v).fwhmOf s.made = some v ∧ ((s.call v).call w).fwhmOf s.made = some w := by
  unfold Cond.Sim.fwhmOf Cond.Sim.call
  refine ⟨if_pos (by simp), if_pos ?_⟩
  show s.made < s.made + 1 + 1
  omega

/-- Non-vacuity: a settled history in which all is read, with a second time. -/
example : let h : List (Op Int) := [.setMjd (some 5), .setTelAlt (some 1), .setWindSpeed (some 2), .setWindDir (some 0), .read .alt, .read .airmass,
      .read .wind, .read (.shadow 1), .setMjd (some 6), .setTelAlt (some 3), .read (.shadow 1)]
    Settled h ∧ (run plainF {} h).isSome ∧ (times h).Nodup ∧
      (run plainF {} h).map (fun s => (Cond.read plainF s (.shadow 1)).2) = some (fresh plainF (inputs h) (.shadow 1)) := by
  refine ⟨settled_of_okFrom (by simp [okFrom, nextReads, Uses]), ?_⟩
  decide +kernel

/-- Non-vacuity: altitudes, airmass and depth. -/
example : let h : List (Op Int) := [.setMjd (some 5), .setTelAlt (some 1), .setSky [("r", 2), ("g", 4)], .setFwhm [("g", 1), ("r", 3)]]
    Settled h ∧ (run plainF {} (h ++ [.read .alt, .read .airmass])).isSome ∧
      fresh plainF (inputs h) .m5 = some (.table [("r", 10), ("g", 10)]) := by
  refine ⟨settled_of_okFrom (by simp [okFrom, nextReads, Uses]), ?_⟩
  decide +kernel

end Verif
