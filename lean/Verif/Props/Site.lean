import Verif.Model.Site

/-!
Property C226: what a site is made of and when two sites are the same.
-/

namespace Verif

open Ste

/-- The published numbers of the two known sites, by the name of the argument. -/
def siteDefault : Option String → String → Option ℚ
  | some "LSST", "longitude" => some (-70.74941)
  | some "LSST", "latitude" => some (-30.244628)
  | some "AuxTel", "longitude" => some (-70.747686)
  | some "AuxTel", "latitude" => some (-30.244789)
  | some "LSST", "height" | some "AuxTel", "height" => some 2650
  | some "LSST", "temperature" | some "AuxTel", "temperature" => some 11.5
  | some "LSST", "pressure" | some "AuxTel", "pressure" => some 750
  | some "LSST", "humidity" | some "AuxTel", "humidity" => some 0.4
  | some "LSST", "lapse_rate" | some "AuxTel", "lapse_rate" => some 0.0065
  | _, _ => none

/-- The arguments by name. -/
def Ste.Args.arg (a : Args) : String → Option ℚ
  | "longitude" => a.longitude
  | "latitude" => a.latitude
  | "height" => a.height
  | "temperature" => a.temperature
  | "pressure" => a.pressure
  | "humidity" => a.humidity
  | "lapse_rate" => a.lapseRate
  | _ => none

/-- What a site is to have: what was asked for, else what is known of a site of this name. -/
def siteWanted (a : Args) (k : String) : Option ℚ := (a.arg k).orElse fun _ => siteDefault a.name k

def siteNumbers : List String := ["longitude", "latitude", "height", "temperature", "pressure", "humidity", "lapse_rate"]

/-- The attribute behind each property that returns a number as it was given. -/
def siteKey : String → String
  | "longitude" => "_longitude_deg"
  | "latitude" => "_latitude_deg"
  | "temperature" => "_temperature_centigrade"
  | k => "_" ++ k

theorem orElse_eq (x : Option ℚ) (d : ℚ) : orElse x d = x.orElse fun _ => some d := by
  cases x <;> rfl

theorem orElse_as (x : Option ℚ) {d d' : ℚ} (h : d = d') : orElse x d = x.orElse fun _ => some d' := by
  rw [orElse_eq, h]

theorem fill_named (a : Args) (p : Params) (h : defaults a = some p) :
    fill a = { a with
      longitude := orElse a.longitude p.longitude, latitude := orElse a.latitude p.latitude, height := orElse a.height p.height,
      temperature := orElse a.temperature p.temperature, pressure := orElse a.pressure p.pressure, humidity := orElse a.humidity p.humidity,
      lapseRate := orElse a.lapseRate p.lapseRate } := by
  unfold fill
  rw [h]

theorem fill_arg (a : Args) : (fill a).name = a.name ∧ ∀ k ∈ siteNumbers, (fill a).arg k = siteWanted a k := by
  obtain ⟨n, a1, a2, a3, a4, a5, a6, a7⟩ := a
  by_cases h2 : n = some "AuxTel"
  · subst h2
    rw [fill_named _ auxTel (by simp [defaults])]
    refine ⟨rfl, ?_⟩
    unfold siteNumbers
    simp only [List.forall_mem_cons, List.not_mem_nil, false_imp_iff, implies_true, and_true]
    refine ⟨?_, ?_, ?_, ?_, ?_, ?_, ?_⟩ <;> exact orElse_as _ (by norm_num [auxTel])
  · by_cases h1 : n = some "LSST"
    · subst h1
      rw [fill_named _ lsst (by simp [defaults])]
      refine ⟨rfl, ?_⟩
      unfold siteNumbers
      simp only [List.forall_mem_cons, List.not_mem_nil, false_imp_iff, implies_true, and_true]
      refine ⟨?_, ?_, ?_, ?_, ?_, ?_, ?_⟩ <;> exact orElse_as _ (by norm_num [lsst])
    · have hf : fill ⟨n, a1, a2, a3, a4, a5, a6, a7⟩ = ⟨n, a1, a2, a3, a4, a5, a6, a7⟩ := by
        unfold fill defaults
        simp only [h1, h2, if_false]
      have hd : ∀ k, siteDefault n k = none := by
        intro k
        unfold siteDefault
        split <;> simp_all
      rw [hf]
      refine ⟨rfl, fun k _ => ?_⟩
      unfold siteWanted
      simp only [hd]
      cases Args.arg _ k <;> rfl

theorem ofNum_none (x : Option ℚ) : ofNum x = .none ↔ x = none := by
  cases x <;> simp [ofNum]
theorem radians_none (x : Option ℚ) : radians x = .none ↔ x = none := by
  cases x <;> simp [radians]
theorem kelvin_none (x : Option ℚ) : kelvin x = .none ↔ x = none := by
  cases x <;> simp [kelvin]

theorem prop_attributes (a : Args) :
    prop (attributes a) "_name" = ofStr a.name ∧ prop (attributes a) "_longitude_rad" = radians a.longitude ∧ prop (attributes a) "_latitude_rad" = radians a.latitude ∧
    prop (attributes a) "_temperature_kelvin" = kelvin a.temperature ∧ prop (attributes a) "_longitude_deg" = ofNum a.longitude ∧
    prop (attributes a) "_latitude_deg" = ofNum a.latitude ∧ prop (attributes a) "_height" = ofNum a.height ∧
    prop (attributes a) "_temperature_centigrade" = ofNum a.temperature ∧ prop (attributes a) "_pressure" = ofNum a.pressure ∧
    prop (attributes a) "_humidity" = ofNum a.humidity ∧ prop (attributes a) "_lapse_rate" = ofNum a.lapseRate := by
  refine ⟨?_, ?_, ?_, ?_, ?_, ?_, ?_, ?_, ?_, ?_, ?_⟩ <;> simp [prop, Dict.get, attributes]

theorem nones_attributes (a : Args) : ∃ l, nones (attributes a) = some l ∧ ∀ k, k ∈ l ↔ k ∈ siteNumbers ∧ a.arg k = none := by
  obtain ⟨h0, h1, h2, h3, h4, h5, h6, h7, h8, h9, h10⟩ := prop_attributes a
  have hp : ∀ (k k' name : String) (x : Option ℚ) l, (prop (attributes a) k = .none ↔ x = none) → (prop (attributes a) k' = .none ↔ x = none) →
      pair (attributes a) k k' name l = some (l ++ if x = none then [name] else []) := by
    intro k k' name x l h h'
    unfold pair
    by_cases hx : x = none
    · rw [if_pos (.inl (h.2 hx)), if_neg (not_not.2 (h.2 hx)), if_neg (not_not.2 (h'.2 hx)), if_pos hx]
    · rw [if_neg (by rw [h, h']; simpa using hx), if_neg hx, List.append_nil]
  have hs : ∀ (k name : String) (x : Option ℚ) l, (prop (attributes a) k = .none ↔ x = none) →
      single (attributes a) k name l = l ++ if x = none then [name] else [] := by
    intro k name x l h
    unfold single
    by_cases hx : x = none
    · rw [if_pos (h.2 hx), if_pos hx]
    · rw [if_neg (mt h.1 hx), if_neg hx, List.append_nil]
  unfold nones
  rw [hp _ _ _ a.longitude _ (by rw [h1, radians_none]) (by rw [h4, ofNum_none])]
  dsimp only [Option.bind_some]
  rw [hp _ _ _ a.latitude _ (by rw [h2, radians_none]) (by rw [h5, ofNum_none])]
  dsimp only [Option.bind_some]
  rw [hp _ _ _ a.temperature _ (by rw [h7, ofNum_none]) (by rw [h3, kelvin_none])]
  dsimp only [Option.map_some]
  rw [hs "_height" _ a.height _ (by rw [h6, ofNum_none]), hs "_pressure" _ a.pressure _ (by rw [h8, ofNum_none]), hs "_humidity" _ a.humidity _ (by rw [h9, ofNum_none]),
    hs "_lapse_rate" _ a.lapseRate _ (by rw [h10, ofNum_none])]
  rw [List.nil_append]
  obtain ⟨n, a1, a2, a3, a4, a5, a6, a7⟩ := a
  refine ⟨((((((if a1 = none then ["longitude"] else []) ++ (if a2 = none then ["latitude"] else [])) ++ (if a4 = none then ["temperature"] else [])) ++
    (if a3 = none then ["height"] else [])) ++ (if a5 = none then ["pressure"] else [])) ++ (if a6 = none then ["humidity"] else [])) ++
    (if a7 = none then ["lapse_rate"] else []), ?_, ?_⟩
  · rfl
  · intro k
    have hm : ∀ (p : Prop) [Decidable p] (s : String), k ∈ (if p then [s] else []) ↔ k = s ∧ p := by
      intro p _ s
      split_ifs with h <;> simp [h]
    simp only [List.mem_append, hm, siteNumbers, List.mem_cons, List.not_mem_nil, or_false]
    constructor
    · rintro ((((((⟨rfl, h⟩ | ⟨rfl, h⟩) | ⟨rfl, h⟩) | ⟨rfl, h⟩) | ⟨rfl, h⟩) | ⟨rfl, h⟩) | ⟨rfl, h⟩) <;> exact ⟨by simp, h⟩
    · rintro ⟨rfl | rfl | rfl | rfl | rfl | rfl | rfl, h⟩
      · exact .inl (.inl (.inl (.inl (.inl (.inl ⟨rfl, h⟩)))))
      · exact .inl (.inl (.inl (.inl (.inl (.inr ⟨rfl, h⟩)))))
      · exact .inl (.inl (.inl (.inr ⟨rfl, h⟩)))
      · exact .inl (.inl (.inl (.inl (.inr ⟨rfl, h⟩))))
      · exact .inl (.inl (.inr ⟨rfl, h⟩))
      · exact .inl (.inr ⟨rfl, h⟩)
      · exact .inr ⟨rfl, h⟩

theorem prop_number (a : Args) : ∀ k ∈ siteNumbers, prop (attributes a) (siteKey k) = ofNum (a.arg k) := by
  obtain ⟨_, _, _, _, h4, h5, h6, h7, h8, h9, h10⟩ := prop_attributes a
  unfold siteNumbers
  simp only [List.forall_mem_cons, List.not_mem_nil, false_imp_iff, implies_true, and_true]
  exact ⟨h4, h5, h6, h7, h8, h9, h10⟩

/-- The attribute with this number, None without one. -/
noncomputable def siteReal : Option ℝ → Val
  | none => .none
  | some x => .num x

theorem radians_real (x : Option ℚ) : radians x = siteReal (x.map fun y => (y : ℝ) * (Real.pi / 180)) := by
  cases x with
  | none => rfl
  | some x => exact congrArg Val.num (mul_div_assoc _ _ _)

theorem kelvin_real (x : Option ℚ) : kelvin x = siteReal (x.map fun y => (y : ℝ) + 273.15) := by
  cases x <;> rfl

theorem ofNum_real (x : Option ℚ) : ofNum x = siteReal (x.map fun y => (y : ℝ)) := by
  cases x <;> rfl

/-- C226: every site can be made; it has the numbers asked for, and where none were asked for those known for its name; angles in radians and the temperature in
Kelvin go with them; and the warning names exactly the numbers that the site does not have. -/
theorem C226_site (a : Args) : ∃ s l, make a = some (s, l) ∧ prop s "_name" = ofStr a.name ∧
    (∀ k ∈ siteNumbers, prop s (siteKey k) = siteReal ((siteWanted a k).map fun x => (x : ℝ))) ∧
    prop s "_longitude_rad" = siteReal ((siteWanted a "longitude").map fun x => (x : ℝ) * (Real.pi / 180)) ∧
    prop s "_latitude_rad" = siteReal ((siteWanted a "latitude").map fun x => (x : ℝ) * (Real.pi / 180)) ∧
    prop s "_temperature_kelvin" = siteReal ((siteWanted a "temperature").map fun x => (x : ℝ) + 273.15) ∧ (∀ k, k ∈ l ↔ k ∈ siteNumbers ∧ siteWanted a k = none) := by
  obtain ⟨hn, hf⟩ := fill_arg a
  obtain ⟨l, hl, hw⟩ := nones_attributes (fill a)
  obtain ⟨h0, h1, h2, h3, _⟩ := prop_attributes (fill a)
  refine ⟨attributes (fill a), l, ?_, ?_, ?_, ?_, ?_, ?_, ?_⟩
  · unfold make
    rw [hl]
    rfl
  · rw [h0, hn]
  · intro k hk
    rw [prop_number _ k hk, hf k hk, ofNum_real]
  · rw [h1, ← hf "longitude" (by simp [siteNumbers])]
    exact radians_real _
  · rw [h2, ← hf "latitude" (by simp [siteNumbers])]
    exact radians_real _
  · rw [h3, ← hf "temperature" (by simp [siteNumbers])]
    exact kelvin_real _
  · intro k
    rw [hw]
    constructor
    · rintro ⟨hk, h⟩
      exact ⟨hk, hf k hk ▸ h⟩
    · rintro ⟨hk, h⟩
      exact ⟨hk, (hf k hk).trans h⟩

theorem ofNum_inj {x y : Option ℚ} (h : ofNum x = ofNum y) : x = y := by
  cases x <;> cases y <;> simp_all [ofNum]

theorem ofStr_inj {x y : Option String} (h : ofStr x = ofStr y) : x = y := by
  cases x <;> cases y <;> simp_all [ofStr]

/-- The keys of all sites. -/
def siteKeys : List String := ["_name", "_longitude_rad", "_latitude_rad", "_longitude_deg", "_latitude_deg", "_height", "_pressure", "_temperature_kelvin",
  "_temperature_centigrade", "_humidity", "_lapse_rate"]

theorem get_attributes (a : Args) (k : String) (hk : k ∈ siteKeys) : (attributes a).get k = some (prop (attributes a) k) ∧ (k, prop (attributes a) k) ∈ attributes a := by
  have hg : (attributes a).get k = some (prop (attributes a) k) := by
    unfold prop
    simp only [siteKeys, List.mem_cons, List.not_mem_nil, or_false] at hk
    rcases hk with rfl | rfl | rfl | rfl | rfl | rfl | rfl | rfl | rfl | rfl | rfl <;> simp [Dict.get, attributes]
  refine ⟨hg, ?_⟩
  unfold Dict.get at hg
  obtain ⟨p, hp, he⟩ := Option.map_eq_some_iff.1 hg
  have h1 := List.mem_of_find?_eq_some hp
  have h2 := List.find?_some hp
  rw [← he, ← of_decide_eq_true h2]
  exact h1

theorem key_attributes (a : Args) (p : String × Val) (hp : p ∈ attributes a) : p.1 ∈ siteKeys ∧ p.2 = prop (attributes a) p.1 := by
  obtain ⟨h0, h1, h2, h3, h4, h5, h6, h7, h8, h9, h10⟩ := prop_attributes a
  simp only [attributes, List.mem_cons, List.not_mem_nil, or_false] at hp
  rcases hp with rfl | rfl | rfl | rfl | rfl | rfl | rfl | rfl | rfl | rfl | rfl <;> refine ⟨by simp [siteKeys], ?_⟩ <;> simp only [*]

open Classical in
theorem eq_attributes (a b : Args) : eq (attributes a) (attributes b) = true ↔ ∀ k ∈ siteKeys, prop (attributes a) k = prop (attributes b) k := by
  have h2 : ((attributes b).any fun p => decide ((attributes a).get p.1 = .none)) = false := by
    rw [List.any_eq_false]
    intro p hp
    rw [(get_attributes a p.1 (key_attributes b p hp).1).1]
    simp
  unfold eq
  rw [h2]
  constructor
  · intro h k hk
    by_contra hne
    have : ((attributes a).any fun p => decide ((attributes b).get p.1 = .none) || decide ((attributes b).get p.1 ≠ some p.2)) = true := by
      rw [List.any_eq_true]
      refine ⟨_, (get_attributes a k hk).2, ?_⟩
      rw [(get_attributes b k hk).1, Bool.or_eq_true]
      exact .inr (decide_eq_true fun h => hne (Option.some.inj h).symm)
    rw [this] at h
    cases h
  · intro h
    have : ((attributes a).any fun p => decide ((attributes b).get p.1 = .none) || decide ((attributes b).get p.1 ≠ some p.2)) = false := by
      rw [List.any_eq_false]
      intro p hp
      obtain ⟨hk, hv⟩ := key_attributes a p hp
      rw [(get_attributes b p.1 hk).1, ← h p.1 hk, hv]
      simp
    rw [this]
    rfl

/-- C226: two sites compare equal exactly if they have the same name and the same numbers, however they were asked for. -/
theorem C226_equal (a b : Args) (s t : Dict) (l l' : List String) (hs : make a = some (s, l)) (ht : make b = some (t, l')) :
    (eq s t = true ↔ a.name = b.name ∧ ∀ k ∈ siteNumbers, siteWanted a k = siteWanted b k) ∧ ne s t = !eq s t := by
  refine ⟨?_, rfl⟩
  have e1 : s = attributes (fill a) := by
    unfold make at hs
    obtain ⟨x, _, hx⟩ := Option.map_eq_some_iff.1 hs
    exact (congrArg Prod.fst hx).symm
  have e2 : t = attributes (fill b) := by
    unfold make at ht
    obtain ⟨x, _, hx⟩ := Option.map_eq_some_iff.1 ht
    exact (congrArg Prod.fst hx).symm
  obtain ⟨hn, hf⟩ := fill_arg a
  obtain ⟨hn', hf'⟩ := fill_arg b
  rw [e1, e2, eq_attributes]
  constructor
  · intro h
    refine ⟨?_, fun k hk => ?_⟩
    · have := h "_name" (by simp [siteKeys])
      rw [(prop_attributes _).1, (prop_attributes _).1, hn, hn'] at this
      exact ofStr_inj this
    · have := h (siteKey k) (by
        simp only [siteNumbers, List.mem_cons, List.not_mem_nil, or_false] at hk
        rcases hk with rfl | rfl | rfl | rfl | rfl | rfl | rfl <;> simp [siteKeys, siteKey])
      rw [prop_number _ k hk, prop_number _ k hk, hf k hk, hf' k hk] at this
      exact ofNum_inj this
  · rintro ⟨h, hw⟩
    have : fill a = fill b := by
      have hg : ∀ k ∈ siteNumbers, (fill a).arg k = (fill b).arg k := fun k hk => by rw [hf k hk, hf' k hk, hw k hk]
      have g0 : (fill a).name = (fill b).name := by rw [hn, hn', h]
      simp only [siteNumbers, List.forall_mem_cons, List.not_mem_nil, false_imp_iff, implies_true, and_true] at hg
      obtain ⟨g1, g2, g3, g4, g5, g6, g7⟩ := hg
      generalize fill a = x at g0 g1 g2 g3 g4 g5 g6 g7
      generalize fill b = y at g0 g1 g2 g3 g4 g5 g6 g7
      obtain ⟨n, a1, a2, a3, a4, a5, a6, a7⟩ := x
      obtain ⟨n', b1, b2, b3, b4, b5, b6, b7⟩ := y
      simp only [Args.arg] at g0 g1 g2 g3 g4 g5 g6 g7
      subst g0 g1 g2 g3 g4 g5 g6 g7
      rfl
    intro k _
    rw [this]

/-- Non-vacuity: the known site, with its longitude asked for or not, is one site; the other telescope is another; a name that is not known has no numbers. -/
example : siteWanted { name := some "LSST" } "longitude" = siteWanted { name := some "LSST", longitude := some (-70.74941) } "longitude" ∧
    siteWanted { name := some "LSST" } "latitude" ≠ siteWanted { name := some "AuxTel" } "latitude" ∧
    siteWanted { name := some "lsst", height := some 2650 } "height" = some 2650 ∧ siteWanted { name := some "lsst", height := some 2650 } "latitude" = none := by
  decide +kernel

end Verif
