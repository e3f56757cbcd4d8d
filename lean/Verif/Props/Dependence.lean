import Verif.Lemmas.Apart
import Verif.Lemmas.Written
import Verif.Props.Physical

/-!
# What each output depends on

Two runs that agree in the inputs from which a variable is to be computed write the same values of it, however their other inputs
differ.
-/

namespace Verif.Props

open Flt Cell Methods Disaggregate Np
open Solar (DayGeom)

/-- What a sub-daily variable is to be computed from: daily columns, and whether latitude, elevation and the last day of the state
count.  Longitude counts where times are in UTC. -/
structure Needs where
  columns : List String
  lat : Bool
  elev : Bool
  state : Bool

/-- Where the cloud cover comes from. -/
def cloudFrom : Method → List String
  | .mtclim => ["dtr", "smoothed_dtr", "prec"]
  | .passthrough => ["tskc", "tfmax", "dtr", "smoothed_dtr", "prec"]

/-- Where the daily humidity comes from. -/
def vapourFrom : Method → List String
  | .mtclim => ["t_min", "t_max", "prec", "dtr", "smoothed_dtr", "seasonal_prec"]
  | .passthrough => ["vapor_pressure", "tdew", "pet", "shortwave", "t_day", "t_min", "t_max", "seasonal_prec", "dtr"]

/-- Where precipitation comes from: the shape of a storm and the frost that keeps it from being used. -/
def precFrom (precType : String) : List String :=
  if Lw.upperS precType = "TRIANGLE" then ["prec", "t_pk", "dur"]
  else if Lw.upperS precType = "MIX" then ["prec", "t_pk", "dur", "t_min"]
  else ["prec"]

/-- What each variable is to be computed from. -/
def needs (m : Method) (precType : String) : String → Needs
  | "temp" => ⟨["t_min", "t_max"], true, false, true⟩
  | "air_pressure" => ⟨["t_min", "t_max"], true, true, true⟩
  | "prec" => ⟨precFrom precType, false, false, false⟩
  | "wind" => ⟨["wind"], false, false, false⟩
  | "tskc" => ⟨cloudFrom m, false, false, false⟩
  | "shortwave" => match m with
    | .mtclim => ⟨vapourFrom m, true, true, false⟩
    | .passthrough => ⟨["shortwave"], true, false, false⟩
  | "longwave" => ⟨["t_min", "t_max", "longwave"] ++ cloudFrom m ++ vapourFrom m, true, true, true⟩
  | _ => ⟨["t_min", "t_max"] ++ vapourFrom m, true, true, true⟩

/-- What each variable is to be computed from where humidity and cloud cover are given. -/
def needsGiven (precType : String) : String → Needs
  | "tskc" => ⟨["tskc"], false, false, false⟩
  | "vapor_pressure" => ⟨["t_min", "t_max", "vapor_pressure"], true, false, true⟩
  | "rel_humid" => ⟨["t_min", "t_max", "vapor_pressure"], true, false, true⟩
  | "spec_humid" => ⟨["t_min", "t_max", "vapor_pressure"], true, true, true⟩
  | "longwave" => ⟨["t_min", "t_max", "vapor_pressure", "tskc", "longwave"], true, false, true⟩
  | v => needs .passthrough precType v

/-- What each column of daily output is to be computed from. -/
def needsDaily (m : Method) : String → Needs
  | "daylength" => ⟨[], true, false, false⟩
  | "potrad" => ⟨[], true, false, false⟩
  | "tt_max" => ⟨[], true, true, false⟩
  | "tskc" => ⟨cloudFrom m, false, false, false⟩
  | "vapor_pressure" => ⟨vapourFrom m, true, true, false⟩
  | "t_day" => match m with
    | .mtclim => ⟨["t_min", "t_max"], false, false, false⟩
    | .passthrough => ⟨["t_day", "t_min", "t_max"], false, false, false⟩
  | "tfmax" => match m with
    | .mtclim => ⟨cloudFrom m, false, false, false⟩
    | .passthrough => ⟨["tfmax", "dtr", "smoothed_dtr", "prec"], false, false, false⟩
  | "shortwave" => match m with
    | .mtclim => ⟨vapourFrom m, true, true, false⟩
    | .passthrough => ⟨["shortwave"], true, false, false⟩
  | "tdew" => match m with
    | .mtclim => ⟨vapourFrom m, true, true, false⟩
    | .passthrough => ⟨["tdew", "pet", "shortwave", "t_day", "t_min", "t_max", "seasonal_prec", "dtr"], true, true, false⟩
  | "pet" => match m with
    | .mtclim => ⟨vapourFrom m, true, true, false⟩
    | .passthrough => ⟨["pet", "shortwave", "t_day", "t_min", "t_max"], true, true, false⟩
  | "seasonal_prec" => match m with
    | .mtclim => ⟨["seasonal_prec"], false, false, false⟩
    | .passthrough => ⟨["seasonal_prec", "tdew"], false, false, false⟩
  | v => ⟨[v], false, false, false⟩

/-- The inputs of two cells agree in what is needed. -/
structure SameFor (utc : Bool) (need : Needs) (x x' : Run.CellIn Data ℝ) : Prop where
  columns : ∀ k ∈ need.columns, Dict.get? x.data.frame k = Dict.get? x'.data.frame k
  lat : need.lat = true → x.lat = x'.lat
  elev : need.elev = true → x.elev = x'.elev
  state : need.state = true → x.data.stateEnd = x'.data.stateEnd
  lon : utc = true → x.lon = x'.lon

/-! ### Columns -/

theorem column_same {n : Nat} {f f' : Frame} {name : String} {xs xs' : List (Flt ℝ)} (h : Cell.column n f name = .ok xs)
    (h' : Cell.column n f' name = .ok xs') (e : Dict.get? f name = Dict.get? f' name) : xs = xs' := by
  obtain ⟨c, g, rfl⟩ := Cell.column_ok.1 h
  obtain ⟨c', g', rfl⟩ := Cell.column_ok.1 h'
  rw [g, g'] at e
  rw [Option.some.inj e]

theorem times_apart {ts : Nat} {utc : Bool} {lon lon' θ φ : ℝ} {g g' : List (Nat → ℝ)} {yd : List Nat} (hg : g = g')
    (hl : utc = true → lon = lon') :
    Disagg.setMinMaxHour ⟨ts, utc, lon, θ, φ⟩ g yd = Disagg.setMinMaxHour ⟨ts, utc, lon', θ, φ⟩ g' yd := by
  subst hg
  cases utc with
  | true => rw [hl rfl]
  | false => rfl

theorem fract_of_sunny {g g' : List DayGeom} (h : g.map sunny = g'.map sunny) : g.map (·.fract) = g'.map (·.fract) := by
  have := congrArg (List.map Prod.fst) h
  simpa [List.map_map, Function.comp_def, sunny] using this

section daily
variable {fuel fuel' : Nat} {s : Shared} {elev elev' lat lat' lon lon' : ℝ} {d d' : Data}

/-- The columns the methods leave alone. -/
theorem base_same (q : Cell.Common fuel s elev lat lon d) (q' : Cell.Common fuel' s elev' lat' lon' d') {name : String}
    (h1 : name ∉ ["t_day", "tfmax", "tskc", "seasonal_prec", "tdew", "vapor_pressure", "shortwave", "pet"])
    (h2 : name ∉ ["daylength", "potrad", "tt_max"]) (h : Dict.get? d.frame name = Dict.get? d'.frame name) :
    Dict.get? q.base name = Dict.get? q'.base name := by
  rw [base_keeps q h1 h2, base_keeps q' h1 h2, h]

theorem sunny_same (q : Cell.Common fuel s elev lat lon d) (q' : Cell.Common fuel' s elev' lat' lon' d') (hlat : lat = lat') :
    q.geom.map sunny = q'.geom.map sunny := by
  subst hlat
  exact solarGeom_sunny q.h_geom q'.h_geom

theorem daylength_same (q : Cell.Common fuel s elev lat lon d) (q' : Cell.Common fuel' s elev' lat' lon' d') (hlat : lat = lat')
    (hdays : d.days = d'.days) : AgreeIn ["daylength", "potrad"] (withGeom q.rows d.frame) (withGeom q'.rows d'.frame) := by
  have h := q'.h_rows
  rw [← hdays] at h
  have e := geomRows_sunny (sunny_same q q' hlat) q.h_rows h
  have e1 := congrArg (List.map fun x => (fin x.2.1 : Flt ℝ)) e
  have e2 := congrArg (List.map fun x => (fin x.2.2 : Flt ℝ)) e
  simp only [List.map_map, Function.comp_def, sunny] at e1 e2
  intro k hk
  simp only [List.mem_cons, List.not_mem_nil, or_false] at hk
  unfold withGeom
  rcases hk with rfl | rfl <;> simp (decide := true) only [Dict.get?_set, if_true, if_false, e1, e2]

theorem base_daylength_same (q : Cell.Common fuel s elev lat lon d) (q' : Cell.Common fuel' s elev' lat' lon' d') (hlat : lat = lat')
    (hdays : d.days = d'.days) : Dict.get? q.base "daylength" = Dict.get? q'.base "daylength" := by
  rw [runMethod_keeps q.h_base (by decide), runMethod_keeps q'.h_base (by decide)]
  exact daylength_same q q' hlat hdays _ (by decide)

theorem base_potrad_same (q : Cell.Common fuel s elev lat lon d) (q' : Cell.Common fuel' s elev' lat' lon' d') (hlat : lat = lat')
    (hdays : d.days = d'.days) : Dict.get? q.base "potrad" = Dict.get? q'.base "potrad" := by
  rw [runMethod_keeps q.h_base (by decide), runMethod_keeps q'.h_base (by decide)]
  exact daylength_same q q' hlat hdays _ (by decide)

theorem rows_same (q : Cell.Common fuel s elev lat lon d) (q' : Cell.Common fuel' s elev' lat' lon' d') (hlat : lat = lat')
    (helev : elev = elev') (hdays : d.days = d'.days) : q.rows = q'.rows := by
  subst hlat helev
  have hg : q.geom = q'.geom := Except.ok.inj (q.h_geom.symm.trans q'.h_geom)
  have a := q.h_rows
  rw [hg, hdays] at a
  exact Except.ok.inj (a.symm.trans q'.h_rows)

theorem base_ttMax_same (q : Cell.Common fuel s elev lat lon d) (q' : Cell.Common fuel' s elev' lat' lon' d') (hlat : lat = lat')
    (helev : elev = elev') (hdays : d.days = d'.days) : Dict.get? q.base "tt_max" = Dict.get? q'.base "tt_max" := by
  rw [runMethod_keeps q.h_base (by decide), runMethod_keeps q'.h_base (by decide), rows_same q q' hlat helev hdays]
  unfold withGeom
  simp (decide := true) only [Dict.get?_set, if_true, if_false]

/-- Everything `mtclim` finds out from the weather. -/
theorem mtclim_same (q : Cell.Common fuel s elev lat lon d) (q' : Cell.Common fuel' s elev' lat' lon' d') (hm : s.method = .mtclim)
    (hlat : lat = lat') (helev : elev = elev') (hdays : d.days = d'.days) (h : AgreeIn weather d.frame d'.frame) :
    AgreeIn ["vapor_pressure", "shortwave", "tskc", "tdew", "pet", "tfmax", "t_day"] q.base q'.base := by
  subst hlat helev
  have h1 := q.h_base
  have h2 := q'.h_base
  rw [hm] at h1 h2
  have h1 := C41_rounds _ _ fuel' _ _ _ (runMethod_mtclim h1)
  have h2 := C41_rounds _ _ fuel _ _ _ (runMethod_mtclim h2)
  rw [Nat.add_comm fuel' fuel, ← hdays] at h2
  rw [← rows_same q q' rfl rfl hdays] at h2
  have ha : AgreeIn (weather ++ sun) (withGeom q.rows d.frame) (withGeom q.rows d'.frame) :=
    (((h.set _ _).set _ _).set _ _).mono (by decide)
  have := mtclim_apart ha d.days.length (fuel + fuel') (s.daily elev)
  exact this.of_ok h1 h2

/-- The cloud cover `mtclim` estimates, wherever the cell lies. -/
theorem mtclim_cloud_same (q : Cell.Common fuel s elev lat lon d) (q' : Cell.Common fuel' s elev' lat' lon' d') (hm : s.method = .mtclim)
    (h : AgreeIn ["dtr", "smoothed_dtr", "prec"] d.frame d'.frame) : AgreeIn ["tfmax", "tskc"] q.base q'.base := by
  have h1 := q.h_base
  have h2 := q'.h_base
  rw [hm] at h1 h2
  obtain ⟨_, _, dtr, sm, prec, _, _, _, _, _, _, _, _, _, g3, g4, g5, _, _, _, _, _, _, _, e⟩ := mtclimRun_inv (runMethod_mtclim h1)
  obtain ⟨_, _, dtr', sm', prec', _, _, _, _, _, _, _, _, _, g3', g4', g5', _, _, _, _, _, _, _, e'⟩ := mtclimRun_inv (runMethod_mtclim h2)
  rw [withGeom_keeps _ _ (by decide)] at g3 g4 g5 g3' g4' g5'
  rw [h _ (by decide), g3'] at g3
  rw [h _ (by decide), g4'] at g4
  rw [h _ (by decide), g5'] at g5
  intro k hk
  simp only [List.mem_cons, List.not_mem_nil, or_false] at hk
  rw [e, e', ← Option.some.inj g3, ← Option.some.inj g4, ← Option.some.inj g5]
  rcases hk with rfl | rfl <;> simp (decide := true) only [Dict.get?_set, if_true, if_false] <;> rfl

theorem mtclim_day_same (q : Cell.Common fuel s elev lat lon d) (q' : Cell.Common fuel' s elev' lat' lon' d') (hm : s.method = .mtclim)
    (h : AgreeIn ["t_min", "t_max"] d.frame d'.frame) : Dict.get? q.base "t_day" = Dict.get? q'.base "t_day" := by
  have h1 := q.h_base
  have h2 := q'.h_base
  rw [hm] at h1 h2
  obtain ⟨_, _, _, _, _, _, _, _, _, _, _, _, g1, g2, _, _, _, _, _, _, _, _, _, _, e⟩ := mtclimRun_inv (runMethod_mtclim h1)
  obtain ⟨_, _, _, _, _, _, _, _, _, _, _, _, g1', g2', _, _, _, _, _, _, _, _, _, _, e'⟩ := mtclimRun_inv (runMethod_mtclim h2)
  rw [withGeom_keeps _ _ (by decide)] at g1 g2 g1' g2'
  rw [h _ (by decide), g1'] at g1
  rw [h _ (by decide), g2'] at g2
  rw [e, e', ← Option.some.inj g1, ← Option.some.inj g2]
  simp (decide := true) only [Dict.get?_set, if_true, if_false]
  rfl

theorem mtclim_season_same (q : Cell.Common fuel s elev lat lon d) (q' : Cell.Common fuel' s elev' lat' lon' d') (hm : s.method = .mtclim)
    (h : AgreeIn ["seasonal_prec"] d.frame d'.frame) : Dict.get? q.base "seasonal_prec" = Dict.get? q'.base "seasonal_prec" := by
  have h1 := q.h_base
  have h2 := q'.h_base
  rw [hm] at h1 h2
  obtain ⟨_, _, _, _, _, _, _, _, _, _, _, _, _, _, _, _, _, _, _, _, g9, _, _, _, e⟩ := mtclimRun_inv (runMethod_mtclim h1)
  obtain ⟨_, _, _, _, _, _, _, _, _, _, _, _, _, _, _, _, _, _, _, _, g9', _, _, _, e'⟩ := mtclimRun_inv (runMethod_mtclim h2)
  rw [withGeom_keeps _ _ (by decide)] at g9 g9'
  rw [h _ (by decide), g9'] at g9
  rw [e, e', ← Option.some.inj g9]
  simp (decide := true) only [Dict.get?_set, if_true, if_false]

theorem addTdew_aside {l : List String} {f f' a b : Frame} (h : AgreeIn l f f') (h1 : "tdew" ∉ l) (h2 : "seasonal_prec" ∉ l)
    (ha : addTdew f = .ok a) (hb : addTdew f' = .ok b) : AgreeIn l a b := by
  intro k hk
  rw [(addTdew_ok ha).1 k (fun e => h1 (e ▸ hk)) (fun e => h2 (e ▸ hk)), (addTdew_ok hb).1 k (fun e => h1 (e ▸ hk)) (fun e => h2 (e ▸ hk))]
  exact h k hk

theorem addTdew_apart {l : List String} {f f' : Frame} (h : AgreeIn l f f') (h1 : "tdew" ∈ l) (h2 : "pet" ∈ l) (h3 : "t_min" ∈ l)
    (h4 : "seasonal_prec" ∈ l) (h5 : "dtr" ∈ l) : Both (AgreeIn l) (addTdew f) (addTdew f') := by
  unfold addTdew
  rw [h "tdew" h1]
  cases Dict.get? f' "tdew" with
  | some c => exact h
  | none =>
    exact h.bind h2 fun e => h.bind h3 fun a => h.bind h4 fun s => h.bind h5 fun d =>
      ((h.set "seasonal_prec" fun i => clampPrec (s i)).set "tdew" fun i => tdew (e i) (a i) (s i) (d i)).mono
        fun k hk => List.mem_cons_of_mem _ (List.mem_cons_of_mem _ hk)

/-- `passthrough` adds its columns to frames that agree in some: a column counts if it is listed with all it is made from. -/
theorem passthrough_apart {l : List String} {f f' a b : Frame} {p p' : MParams} (h : AgreeIn l f f')
    (ha : passthroughRun f p = .ok a) (hb : passthroughRun f' p' = .ok b)
    (h1 : "t_day" ∉ l ∨ "t_day" ∈ l ∧ "t_min" ∈ l ∧ "t_max" ∈ l ∧ p.tdayCoef = p'.tdayCoef)
    (h2 : "tfmax" ∉ l ∨ "tfmax" ∈ l ∧ "dtr" ∈ l ∧ "smoothed_dtr" ∈ l ∧ "prec" ∈ l ∧ p.swPrecThresh = p'.swPrecThresh ∧ p.rainScalar = p'.rainScalar)
    (h3 : "tskc" ∉ l ∨ "tskc" ∈ l ∧ "tfmax" ∈ l ∧ p.lwCloud = p'.lwCloud)
    (h4 : "pet" ∉ l ∨ "pet" ∈ l ∧ "shortwave" ∈ l ∧ "t_day" ∈ l ∧ "daylength" ∈ l ∧ p.elev = p'.elev ∧ p.lapseRate = p'.lapseRate)
    (h5 : "tdew" ∉ l ∧ "seasonal_prec" ∉ l ∨ "tdew" ∈ l ∧ "pet" ∈ l ∧ "t_min" ∈ l ∧ "seasonal_prec" ∈ l ∧ "dtr" ∈ l)
    (h6 : "vapor_pressure" ∉ l ∨ "vapor_pressure" ∈ l ∧ "tdew" ∈ l) : AgreeIn l a b := by
  simp only [passthroughRun] at ha hb
  split at ha
  · cases ha
  split at hb
  · cases hb
  simp only [bind_ok] at ha hb
  obtain ⟨f1, a1, f2, a2, f3, a3, f4, a4, f5, a5, a6⟩ := ha
  obtain ⟨g1, b1, g2, b2, g3, b3, g4, b4, g5, b5, b6⟩ := hb
  have k1 : AgreeIn l f1 g1 := by
    rcases h1 with n | ⟨m1, m2, m3, e⟩
    · exact addIfMissing_aside h n a1 b1
    · refine (addIfMissing_apart h m1 ?_).of_ok a1 b1
      unfold tDay
      rw [h.get m2, h.get m3, e]
  have k2 : AgreeIn l f2 g2 := by
    rcases h2 with n | ⟨m1, m2, m3, m4, e, e'⟩
    · exact addIfMissing_aside k1 n a2 b2
    · refine (addIfMissing_apart k1 m1 ?_).of_ok a2 b2
      unfold tfmax
      rw [k1.get m2, k1.get m3, k1.get m4, e, e']
  have k3 : AgreeIn l f3 g3 := by
    rcases h3 with n | ⟨m1, m2, e⟩
    · exact addIfMissing_aside k2 n a3 b3
    · refine (addIfMissing_apart k2 m1 ?_).of_ok a3 b3
      unfold tskc
      rw [k2.get m2, e]
  have k4 : AgreeIn l f4 g4 := by
    rcases h4 with n | ⟨m1, m2, m3, m4, e, e'⟩
    · exact addIfMissing_aside k3 n a4 b4
    · refine (addIfMissing_apart k3 m1 ?_).of_ok a4 b4
      unfold pet
      rw [k3.get m2, k3.get m3, k3.get m4, e, e']
  have k5 : AgreeIn l f5 g5 := by
    rcases h5 with ⟨n, n'⟩ | ⟨m1, m2, m3, m4, m5⟩
    · exact addTdew_aside k4 n n' a5 b5
    · exact (addTdew_apart k4 m1 m2 m3 m4 m5).of_ok a5 b5
  rcases h6 with n | ⟨m1, m2⟩
  · exact addIfMissing_aside k5 n a6 b6
  · refine (addIfMissing_apart k5 m1 ?_).of_ok a6 b6
    rw [k5.get m2]

/-- The frames `passthrough` starts from and the ones it leaves. -/
theorem passthrough_same (q : Cell.Common fuel s elev lat lon d) (q' : Cell.Common fuel' s elev' lat' lon' d')
    (hm : s.method = .passthrough) {l : List String} (hl : ∀ k ∈ ["daylength", "potrad", "tt_max"], k ∉ l) (h : AgreeIn l d.frame d'.frame) :
    AgreeIn l (withGeom q.rows d.frame) (withGeom q'.rows d'.frame) ∧
    passthroughRun (withGeom q.rows d.frame) (s.daily elev) = .ok q.base ∧
    passthroughRun (withGeom q'.rows d'.frame) (s.daily elev') = .ok q'.base := by
  have h1 := q.h_base
  have h2 := q'.h_base
  rw [hm] at h1 h2
  refine ⟨fun k hk => ?_, h1, h2⟩
  rw [withGeom_keeps _ _ (fun e => hl k e hk), withGeom_keeps _ _ (fun e => hl k e hk)]
  exact h k hk

/-- The cloud cover `passthrough` is given or estimates. -/
theorem passthrough_cloud_same (q : Cell.Common fuel s elev lat lon d) (q' : Cell.Common fuel' s elev' lat' lon' d')
    (hm : s.method = .passthrough) (h : AgreeIn ["tskc", "tfmax", "dtr", "smoothed_dtr", "prec"] d.frame d'.frame) :
    Dict.get? q.base "tskc" = Dict.get? q'.base "tskc" := by
  obtain ⟨h, a, b⟩ := passthrough_same q q' hm (by decide) h
  exact passthrough_apart h a b (Or.inl (by decide)) (Or.inr ⟨by decide, by decide, by decide, by decide, rfl, rfl⟩)
    (Or.inr ⟨by decide, by decide, rfl⟩) (Or.inl (by decide)) (by decide) (by decide) _ (by decide)

theorem passthrough_tfmax_same (q : Cell.Common fuel s elev lat lon d) (q' : Cell.Common fuel' s elev' lat' lon' d')
    (hm : s.method = .passthrough) (h : AgreeIn ["tfmax", "dtr", "smoothed_dtr", "prec"] d.frame d'.frame) :
    Dict.get? q.base "tfmax" = Dict.get? q'.base "tfmax" := by
  obtain ⟨h, a, b⟩ := passthrough_same q q' hm (by decide) h
  exact passthrough_apart h a b (Or.inl (by decide)) (Or.inr ⟨by decide, by decide, by decide, by decide, rfl, rfl⟩)
    (Or.inl (by decide)) (Or.inl (by decide)) (by decide) (by decide) _ (by decide)

theorem passthrough_day_same (q : Cell.Common fuel s elev lat lon d) (q' : Cell.Common fuel' s elev' lat' lon' d')
    (hm : s.method = .passthrough) (h : AgreeIn ["t_day", "t_min", "t_max"] d.frame d'.frame) :
    Dict.get? q.base "t_day" = Dict.get? q'.base "t_day" := by
  obtain ⟨h, a, b⟩ := passthrough_same q q' hm (by decide) h
  exact passthrough_apart h a b (Or.inr ⟨by decide, by decide, by decide, rfl⟩) (Or.inl (by decide))
    (Or.inl (by decide)) (Or.inl (by decide)) (by decide) (by decide) _ (by decide)

theorem season_apart {f f' a b : Frame} {p p' : MParams} (h : AgreeIn ["seasonal_prec", "tdew"] f f')
    (ha : passthroughRun f p = .ok a) (hb : passthroughRun f' p' = .ok b) : Dict.get? a "seasonal_prec" = Dict.get? b "seasonal_prec" := by
  simp only [passthroughRun] at ha hb
  split at ha
  · cases ha
  split at hb
  · cases hb
  simp only [bind_ok] at ha hb
  obtain ⟨f1, a1, f2, a2, f3, a3, f4, a4, f5, a5, a6⟩ := ha
  obtain ⟨g1, b1, g2, b2, g3, b3, g4, b4, g5, b5, b6⟩ := hb
  have h := addIfMissing_aside (addIfMissing_aside (addIfMissing_aside (addIfMissing_aside h (by decide) a1 b1) (by decide) a2 b2)
    (by decide) a3 b3) (by decide) a4 b4
  have e : AgreeIn ["seasonal_prec"] f5 g5 := by
    intro k hk
    obtain rfl := List.mem_singleton.1 hk
    obtain ⟨-, x2, x3⟩ := addTdew_ok a5
    obtain ⟨-, y2, y3⟩ := addTdew_ok b5
    cases ht : Dict.get? f4 "tdew" with
    | some c =>
      rw [x2 c ht, y2 c (by rw [← h _ (by decide)]; exact ht)]
      exact h _ (by decide)
    | none =>
      obtain ⟨_, _, _, _, _, _, z1, _, _, z2⟩ := x3 ht
      obtain ⟨_, _, _, _, _, _, w1, _, _, w2⟩ := y3 (by rw [← h _ (by decide)]; exact ht)
      rw [h _ (by decide), w1] at z1
      rw [z2, w2, Option.some.inj z1]
  exact addIfMissing_aside e (by decide) a6 b6 _ (by decide)

theorem passthrough_season_same (q : Cell.Common fuel s elev lat lon d) (q' : Cell.Common fuel' s elev' lat' lon' d')
    (hm : s.method = .passthrough) (h : AgreeIn ["seasonal_prec", "tdew"] d.frame d'.frame) :
    Dict.get? q.base "seasonal_prec" = Dict.get? q'.base "seasonal_prec" := by
  obtain ⟨h, ha, hb⟩ := passthrough_same q q' hm (by decide) h
  exact season_apart h ha hb

/-- Frames with the same length of day besides. -/
theorem with_daylength (q : Cell.Common fuel s elev lat lon d) (q' : Cell.Common fuel' s elev' lat' lon' d') (hlat : lat = lat')
    (hdays : d.days = d'.days) {l : List String} (h : AgreeIn l (withGeom q.rows d.frame) (withGeom q'.rows d'.frame)) :
    AgreeIn ("daylength" :: l) (withGeom q.rows d.frame) (withGeom q'.rows d'.frame) := by
  intro k hk
  rcases List.mem_cons.1 hk with rfl | hk
  · exact daylength_same q q' hlat hdays _ (by decide)
  · exact h k hk

theorem passthrough_pet_same (q : Cell.Common fuel s elev lat lon d) (q' : Cell.Common fuel' s elev' lat' lon' d')
    (hm : s.method = .passthrough) (hlat : lat = lat') (helev : elev = elev') (hdays : d.days = d'.days)
    (h : AgreeIn ["pet", "shortwave", "t_day", "t_min", "t_max"] d.frame d'.frame) : Dict.get? q.base "pet" = Dict.get? q'.base "pet" := by
  obtain ⟨h, a, b⟩ := passthrough_same q q' hm (by decide) h
  exact passthrough_apart (with_daylength q q' hlat hdays h) a b (Or.inr ⟨by decide, by decide, by decide, rfl⟩) (Or.inl (by decide))
    (Or.inl (by decide)) (Or.inr ⟨by decide, by decide, by decide, by decide, by rw [helev], rfl⟩) (by decide) (by decide) _ (by decide)

theorem passthrough_dew_same (q : Cell.Common fuel s elev lat lon d) (q' : Cell.Common fuel' s elev' lat' lon' d')
    (hm : s.method = .passthrough) (hlat : lat = lat') (helev : elev = elev') (hdays : d.days = d'.days)
    (h : AgreeIn ["tdew", "pet", "shortwave", "t_day", "t_min", "t_max", "seasonal_prec", "dtr"] d.frame d'.frame) :
    Dict.get? q.base "tdew" = Dict.get? q'.base "tdew" := by
  obtain ⟨h, a, b⟩ := passthrough_same q q' hm (by decide) h
  exact passthrough_apart (with_daylength q q' hlat hdays h) a b (Or.inr ⟨by decide, by decide, by decide, rfl⟩) (Or.inl (by decide))
    (Or.inl (by decide)) (Or.inr ⟨by decide, by decide, by decide, by decide, by rw [helev], rfl⟩) (by decide) (by decide) _ (by decide)

/-- The humidity `passthrough` is given or estimates. -/
theorem passthrough_vapour_same (q : Cell.Common fuel s elev lat lon d) (q' : Cell.Common fuel' s elev' lat' lon' d')
    (hm : s.method = .passthrough) (hlat : lat = lat') (helev : elev = elev') (hdays : d.days = d'.days)
    (h : AgreeIn (vapourFrom .passthrough) d.frame d'.frame) : Dict.get? q.base "vapor_pressure" = Dict.get? q'.base "vapor_pressure" := by
  obtain ⟨h, a, b⟩ := passthrough_same q q' hm (by decide) h
  exact passthrough_apart (with_daylength q q' hlat hdays h) a b (Or.inr ⟨by decide, by decide, by decide, rfl⟩) (Or.inl (by decide))
    (Or.inl (by decide)) (Or.inr ⟨by decide, by decide, by decide, by decide, by rw [helev], rfl⟩) (by decide) (by decide) _ (by decide)

/-- What is given is passed through. -/
theorem passed_same (q : Cell.Common fuel s elev lat lon d) (q' : Cell.Common fuel' s elev' lat' lon' d')
    (hm : s.method = .passthrough) {name : String} {col : Col} (h1 : Dict.get? d.frame name = some col)
    (h2 : name ∉ ["daylength", "potrad", "tt_max"]) (h3 : name ≠ "seasonal_prec")
    (e : Dict.get? d.frame name = Dict.get? d'.frame name) : Dict.get? q.base name = Dict.get? q'.base name := by
  have a := q.h_base
  have b := q'.h_base
  rw [hm] at a b
  rw [((C42_passthrough_partial _ _).2 _ a).1 _ _ (by rw [withGeom_keeps _ _ h2, h1]) (fun h => absurd h h3),
    ((C42_passthrough_partial _ _).2 _ b).1 _ _ (by rw [withGeom_keeps _ _ h2, ← e, h1]) (fun h => absurd h h3)]

theorem given_shortwave (q : Cell.Common fuel s elev lat lon d) (hm : s.method = .passthrough) :
    ∃ col, Dict.get? d.frame "shortwave" = some col := by
  have a := q.h_base
  rw [hm] at a
  simp only [runMethod, passthroughRun] at a
  split at a
  · cases a
  · rename_i h
    rw [withGeom_keeps _ _ (by decide)] at h
    cases hx : Dict.get? d.frame "shortwave" with
    | none => rw [hx] at h; simp at h
    | some c => exact ⟨c, rfl⟩

/-! ### The sub-daily frame -/

/-- What the disaggregation reads, and whether it reads the same. -/
structure Twin (q : Cell.Common fuel s elev lat lon d) (q' : Cell.Common fuel' s elev' lat' lon' d') (daily daily' : Disaggregate.Daily) :
    Prop where
  days : d.days = d'.days
  daily : dailyOf d.days q.base = .ok daily
  daily' : dailyOf d'.days q'.base = .ok daily'
  lon : s.utcOffset = true → lon = lon'

variable {q : Cell.Common fuel s elev lat lon d} {q' : Cell.Common fuel' s elev' lat' lon' d'} {daily daily' : Disaggregate.Daily}
  {tb tb' te : Option (List (Flt ℝ))}

theorem Twin.doy (h : Twin q q' daily daily') : daily.doy = daily'.doy := by
  rw [(dailyOf_ok h.daily).1, (dailyOf_ok h.daily').1, h.days]

theorem Twin.rem (h : Twin q q' daily daily') : s.utcOffset = true → Disagg.remainder360 lon = Disagg.remainder360 lon' :=
  fun hu => by rw [h.lon hu]

theorem Twin.column (h : Twin q q' daily daily') {name : String} {xs xs' : List (Flt ℝ)}
    (a : Cell.column d.days.length q.base name = .ok xs) (b : Cell.column d'.days.length q'.base name = .ok xs')
    (e : Dict.get? q.base name = Dict.get? q'.base name) : xs = xs' := by
  rw [← h.days] at b
  exact column_same a b e

theorem Twin.column? (h : Twin q q' daily daily') {name : String} (e : Dict.get? q.base name = Dict.get? q'.base name) :
    column? d.days.length q.base name = column? d'.days.length q'.base name := by
  unfold Cell.column?
  rw [e, h.days]

theorem Twin.extremes (h : Twin q q' daily daily') (e : AgreeIn ["t_min", "t_max"] d.frame d'.frame) :
    daily.tMin = daily'.tMin ∧ daily.tMax = daily'.tMax := by
  obtain ⟨-, -, -, q4, q5, -⟩ := dailyOf_ok h.daily
  obtain ⟨-, -, -, p4, p5, -⟩ := dailyOf_ok h.daily'
  exact ⟨h.column q4 p4 (base_same q q' (by decide) (by decide) (e _ (by decide))),
    h.column q5 p5 (base_same q q' (by decide) (by decide) (e _ (by decide)))⟩

theorem Twin.times (h : Twin q q' daily daily') (hlat : lat = lat') (t : Trace daily (s.sub elev lon) q.geom tb te)
    (t' : Trace daily' (s.sub elev' lon') q'.geom tb' te) : t.times = t'.times := by
  have a := t.h_times
  have b := t'.h_times
  rw [← h.doy] at b
  have e : Disagg.setMinMaxHour (hours (s.sub elev lon)) (q.geom.map (·.fract)) (daily.doy.map (· - 1)) =
      Disagg.setMinMaxHour (hours (s.sub elev' lon')) (q'.geom.map (·.fract)) (daily.doy.map (· - 1)) :=
    times_apart (fract_of_sunny (sunny_same q q' hlat)) h.rem
  exact Except.ok.inj (a.symm.trans (e.trans b))

theorem Twin.temp (h : Twin q q' daily daily') (hlat : lat = lat') (htb : tb = tb') (e : AgreeIn ["t_min", "t_max"] d.frame d'.frame)
    (t : Trace daily (s.sub elev lon) q.geom tb te) (t' : Trace daily' (s.sub elev' lon') q'.geom tb' te) : t.temp = t'.temp := by
  subst htb
  have a := t.h_temp
  have b := t'.h_temp
  obtain ⟨e1, e2⟩ := h.extremes e
  rw [← h.doy, ← e1, ← e2, ← h.times hlat t t'] at b
  exact Except.ok.inj (a.symm.trans b)

theorem Twin.vapour (h : Twin q q' daily daily') (hlat : lat = lat') (htb : tb = tb') (e : AgreeIn ["t_min", "t_max"] d.frame d'.frame)
    (hv : Dict.get? q.base "vapor_pressure" = Dict.get? q'.base "vapor_pressure")
    (t : Trace daily (s.sub elev lon) q.geom tb te) (t' : Trace daily' (s.sub elev' lon') q'.geom tb' te) : t.vp = t'.vp := by
  have a := t.h_vp
  have b := t'.h_vp
  obtain ⟨-, -, -, -, -, q6, -⟩ := dailyOf_ok h.daily
  obtain ⟨-, -, -, -, -, p6, -⟩ := dailyOf_ok h.daily'
  rw [← h.doy, ← h.column q6 p6 hv, ← h.times hlat t t', ← h.temp hlat htb e t t'] at b
  exact Except.ok.inj (a.symm.trans b)

theorem Twin.cloud (h : Twin q q' daily daily') (hc : Dict.get? q.base "tskc" = Dict.get? q'.base "tskc")
    (t : Trace daily (s.sub elev lon) q.geom tb te) (t' : Trace daily' (s.sub elev' lon') q'.geom tb' te) : t.cloud = t'.cloud := by
  have a := t.h_cloud
  have b := t'.h_cloud
  obtain ⟨-, -, -, -, -, -, q7, -⟩ := dailyOf_ok h.daily
  obtain ⟨-, -, -, -, -, -, p7, -⟩ := dailyOf_ok h.daily'
  rw [← h.column q7 p7 hc] at b
  have e : Disagg.tskc daily.tskc s.ts s.utcOffset (Disagg.remainder360 lon) =
      Disagg.tskc daily.tskc s.ts s.utcOffset (Disagg.remainder360 lon') := by
    have := h.rem
    unfold Disagg.tskc
    cases hu : s.utcOffset with
    | true => rw [this hu]
    | false => rfl
  exact Except.ok.inj (a.symm.trans (e.trans b))

theorem Twin.longwave (h : Twin q q' daily daily') (hlat : lat = lat') (htb : tb = tb') (e : AgreeIn ["t_min", "t_max"] d.frame d'.frame)
    (hv : Dict.get? q.base "vapor_pressure" = Dict.get? q'.base "vapor_pressure")
    (hc : Dict.get? q.base "tskc" = Dict.get? q'.base "tskc") (hl : Dict.get? d.frame "longwave" = Dict.get? d'.frame "longwave")
    (t : Trace daily (s.sub elev lon) q.geom tb te) (t' : Trace daily' (s.sub elev' lon') q'.geom tb' te) : t.lw = t'.lw := by
  have a := t.h_lw
  have b := t'.h_lw
  obtain ⟨-, -, -, -, -, -, -, -, -, q10, -⟩ := dailyOf_ok h.daily
  obtain ⟨-, -, -, -, -, -, -, -, -, p10, -⟩ := dailyOf_ok h.daily'
  rw [h.temp hlat htb e t t', h.vapour hlat htb e hv t t', h.cloud hc t t', q10,
    h.column? (base_same q q' (by decide) (by decide) hl), ← p10] at a
  exact Except.ok.inj (a.symm.trans b)

/-- What shortwave is made of. -/
theorem Twin.light (h : Twin q q' daily daily') (hlat : lat = lat') (xs : List (Flt ℝ)) :
    Disagg.shortwave xs (daylengthOf daily (s.sub elev lon)) daily.doy
      (q.geom.map fun g => (List.range Disagg.slotsPerDay).map g.fract) s.ts s.utcOffset (Disagg.remainder360 lon) =
    Disagg.shortwave xs (daylengthOf daily' (s.sub elev' lon')) daily'.doy
      (q'.geom.map fun g => (List.range Disagg.slotsPerDay).map g.fract) s.ts s.utcOffset (Disagg.remainder360 lon') := by
  obtain ⟨-, -, q3, -⟩ := dailyOf_ok h.daily
  obtain ⟨-, -, p3, -⟩ := dailyOf_ok h.daily'
  have e1 : (q.geom.map fun g => (List.range Disagg.slotsPerDay).map g.fract) =
      q'.geom.map fun g => (List.range Disagg.slotsPerDay).map g.fract := by
    have := congrArg (List.map fun f => (List.range Disagg.slotsPerDay).map f) (fract_of_sunny (sunny_same q q' hlat))
    simpa [List.map_map, Function.comp_def] using this
  have e2 : daylengthOf daily (s.sub elev lon) = daylengthOf daily' (s.sub elev' lon') := by
    unfold daylengthOf
    rw [h.column q3 p3 (base_daylength_same q q' hlat h.days)]
    rfl
  rw [e1, e2, h.doy]
  have := h.rem
  unfold Disagg.shortwave
  cases hu : s.utcOffset with
  | true => rw [this hu]
  | false => rfl

theorem Twin.shortwave (h : Twin q q' daily daily') (hlat : lat = lat')
    (hs : Dict.get? q.base "shortwave" = Dict.get? q'.base "shortwave")
    (t : Trace daily (s.sub elev lon) q.geom tb te) (t' : Trace daily' (s.sub elev' lon') q'.geom tb' te) : t.sw = t'.sw := by
  have a := t.h_sw
  have b := t'.h_sw
  obtain ⟨-, q2, -⟩ := dailyOf_ok h.daily
  obtain ⟨-, p2, -⟩ := dailyOf_ok h.daily'
  rw [h.column q2 p2 hs] at a
  exact Except.ok.inj (a.symm.trans ((h.light hlat _).trans b))

theorem Twin.wind (h : Twin q q' daily daily') (hw : Dict.get? d.frame "wind" = Dict.get? d'.frame "wind")
    (t : Trace daily (s.sub elev lon) q.geom tb te) (t' : Trace daily' (s.sub elev' lon') q'.geom tb' te) : t.wind = t'.wind := by
  have a := t.h_wind
  have b := t'.h_wind
  obtain ⟨-, -, -, -, -, -, -, -, q9, -⟩ := dailyOf_ok h.daily
  obtain ⟨-, -, -, -, -, -, -, -, p9, -⟩ := dailyOf_ok h.daily'
  unfold windOf at a b
  rw [q9, h.column? (base_same q q' (by decide) (by decide) hw), ← p9, h.doy] at a
  have hr := h.rem
  cases hx : daily'.wind with
  | none =>
    rw [hx] at a b
    exact Except.ok.inj (a.symm.trans b)
  | some w =>
    rw [hx] at a b
    have e : Disagg.wind w s.ts s.utcOffset (Disagg.remainder360 lon) = Disagg.wind w s.ts s.utcOffset (Disagg.remainder360 lon') := by
      unfold Disagg.wind
      cases hu : s.utcOffset with
      | true => rw [hr hu]
      | false => rfl
    simp only at a b
    rw [show (s.sub elev lon).ts = s.ts from rfl, show (s.sub elev lon).utcOffset = s.utcOffset from rfl,
      show (s.sub elev lon).lon = lon from rfl, e] at a
    exact Except.ok.inj (a.symm.trans b)

/-- What precipitation is made of. -/
theorem Twin.rain (h : Twin q q' daily daily') (hp : AgreeIn ((precFrom s.precType).filter (· ≠ "prec")) d.frame d'.frame)
    (xs : List (Flt ℝ)) :
    Disagg.prec xs daily.tMin s.ts s.precType s.utcOffset (Disagg.remainder360 lon) daily.tPk daily.dur =
      Disagg.prec xs daily'.tMin s.ts s.precType s.utcOffset (Disagg.remainder360 lon') daily'.tPk daily'.dur := by
  obtain ⟨-, -, -, q4, -, -, -, -, -, -, q11, q12⟩ := dailyOf_ok h.daily
  obtain ⟨-, -, -, p4, -, -, -, -, -, -, p11, p12⟩ := dailyOf_ok h.daily'
  have keep : ∀ k ∈ precFrom s.precType, k ∈ ["t_pk", "dur", "t_min"] → Dict.get? q.base k = Dict.get? q'.base k := fun k h1 h2 =>
    base_same q q' (by clear h1; revert k; decide) (by clear h1; revert k; decide)
      (hp k (List.mem_filter.2 ⟨h1, by clear h1; revert k; decide⟩))
  have hr := h.rem
  have e : Disagg.precMinutes xs daily.tMin s.precType daily.tPk daily.dur =
      Disagg.precMinutes xs daily'.tMin s.precType daily'.tPk daily'.dur := by
    unfold Disagg.precMinutes
    by_cases h1 : Lw.upperS s.precType = "TRIANGLE"
    · have e1 := h.column? (keep "t_pk" (by unfold precFrom; rw [if_pos h1]; decide) (by decide))
      have e2 := h.column? (keep "dur" (by unfold precFrom; rw [if_pos h1]; decide) (by decide))
      rw [← q11, ← p11] at e1
      rw [← q12, ← p12] at e2
      rw [if_pos (Or.inl h1), if_pos (Or.inl h1), e1, e2, h1]
      unfold Disagg.precTriangle Disagg.triangleDay
      rfl
    · by_cases h2 : Lw.upperS s.precType = "MIX"
      · have e1 := h.column? (keep "t_pk" (by unfold precFrom; rw [if_neg h1, if_pos h2]; decide) (by decide))
        have e2 := h.column? (keep "dur" (by unfold precFrom; rw [if_neg h1, if_pos h2]; decide) (by decide))
        rw [← q11, ← p11] at e1
        rw [← q12, ← p12] at e2
        rw [e1, e2, h.column q4 p4 (keep "t_min" (by unfold precFrom; rw [if_neg h1, if_pos h2]; decide) (by decide))]
      · rw [if_neg (by simp [h1, h2]), if_neg (by simp [h1, h2])]
  unfold Disagg.prec
  rw [e]
  cases hu : s.utcOffset with
  | true => rw [hr hu]
  | false => rfl

theorem Twin.prec (h : Twin q q' daily daily') (hp : AgreeIn (precFrom s.precType) d.frame d'.frame)
    (t : Trace daily (s.sub elev lon) q.geom tb te) (t' : Trace daily' (s.sub elev' lon') q'.geom tb' te) : t.prec = t'.prec := by
  have a := t.h_prec
  have b := t'.h_prec
  obtain ⟨-, -, -, -, -, -, -, q8, -⟩ := dailyOf_ok h.daily
  obtain ⟨-, -, -, -, -, -, -, p8, -⟩ := dailyOf_ok h.daily'
  rw [h.column q8 p8 (base_same q q' (by decide) (by decide) (hp _ (by unfold precFrom; split_ifs <;> decide)))] at a
  exact Except.ok.inj (a.symm.trans ((h.rain (fun k hk => hp k (List.mem_filter.1 hk).1) _).trans b))

end daily

/-- From the frames to the files. -/
theorem apart_of (j j' : Job) (hj : j.Sane) (hj' : j'.Sane) (hsh : j.shared = j'.shared) (hd0 : j.d0 = j'.d0) (hn : j.n = j'.n)
    {fuel fuel' : Nat} {order order' : List (Dict String Chunk.Slice)} (ho : j.Schedule order) (ho' : j'.Schedule order')
    {files files' : Run.Files Output} (hrun : j.run fuel order = .ok files) (hrun' : j'.run fuel' order' = .ok files')
    (hsub : j.shared.ts < 1440) {c c' : Run.Cell} (hc : j.Computed c) (hc' : j'.Computed c') {v u : String}
    (hu : j.shared.outVars.get? v = some u) (hlon : j.shared.utcOffset = true → (j.inp c).lon = (j'.inp c').lon)
    (hcore : ∀ (elev elev' lat lat' lon lon' : ℝ) (q : Cell.Common fuel j.shared elev lat lon (j.inp c).data)
      (q' : Cell.Common fuel' j.shared elev' lat' lon' (j'.inp c').data) (daily daily' : Disaggregate.Daily)
      (t : Trace daily (j.shared.sub elev lon) q.geom (some [(j.inp c).data.stateEnd.1, (j.inp c).data.stateEnd.2]) none)
      (t' : Trace daily' (j.shared.sub elev' lon') q'.geom
        (some [(j'.inp c').data.stateEnd.1, (j'.inp c').data.stateEnd.2]) none), Twin q q' daily daily' →
      (j.inp c).elev = fin elev → (j'.inp c').elev = fin elev' → (j.inp c).lat = fin lat → (j'.inp c').lat = fin lat' →
      subColumn t.sub v = subColumn t'.sub v)
    {val val' : ℚ → Flt ℝ} (hval : Recorded j files v c val) (hval' : Recorded j' files' v c' val')
    {k i : Nat} (hk : k < j.n) (hi : i < 1440 / j.shared.ts) : val (j.stamp k i) = val' (j.stamp k i) := by
  obtain ⟨elev, lat, lon, h1, h2, h3, q, daily, sub, hd, hsu, hcol⟩ := written_sub j hj ho hrun hsub hc
  have hst : ∀ k i, j.stamp k i = j'.stamp k i := fun k i => by unfold Job.stamp; rw [hsh, hd0]
  have hw := written_sub j' hj' ho' hrun' (hsh ▸ hsub) hc'
  rw [← hsh] at hw
  obtain ⟨elev', lat', lon', h1', h2', h3', q', daily', sub', hd', hsu', hcol'⟩ := hw
  obtain ⟨col, w, a1, a2, a3⟩ := hcol v u hu
  obtain ⟨col', w', a1', a2', a3'⟩ := hcol' v u hu
  obtain ⟨t, rfl⟩ := disaggregate_ok.1 hsu
  obtain ⟨t', rfl⟩ := disaggregate_ok.1 hsu'
  have e := hcore elev elev' lat lat' lon lon' q q' daily daily' t t' ⟨by rw [hj.data c, hj'.data c', hd0, hn], hd, hd', fun hx => by
    have := hlon hx
    rw [h3, h3'] at this
    exact Flt.fin.inj this⟩ h1 h1' h2 h2'
  rw [a1, a1'] at e
  have e := Except.ok.inj e
  have b := a3 k hk i hi
  have b' := a3' k (hn ▸ hk) i hi
  rw [e, b', ← hst] at b
  rw [recorded_unique j hj hval a2 hk hi, ← Except.ok.inj b, hst, recorded_unique j' hj' hval' a2' (hn ▸ hk) (hsh ▸ hi)]

theorem subColumn_names {sub : Disaggregate.Sub} {v : String} {col : List (Flt ℝ)} (h : subColumn sub v = .ok col) :
    v ∈ ["shortwave", "temp", "vapor_pressure", "rel_humid", "air_pressure", "spec_humid", "tskc", "longwave", "prec", "wind"] := by
  rcases subColumn_iff.1 ⟨col, h⟩ with h' | ⟨rfl, -⟩
  · clear h; revert v; decide
  · decide

/-- Variables there are none of do not matter. -/
theorem apart_names {t t' : Disaggregate.Sub} {v : String} (h : v ∈ ["shortwave", "temp", "vapor_pressure", "rel_humid", "air_pressure",
    "spec_humid", "tskc", "longwave", "prec", "wind"] → subColumn t v = subColumn t' v) : subColumn t v = subColumn t' v := by
  by_cases hv : v ∈ ["shortwave", "temp", "vapor_pressure", "rel_humid", "air_pressure", "spec_humid", "tskc", "longwave", "prec", "wind"]
  · exact h hv
  · simp only [List.mem_cons, List.not_mem_nil, or_false, not_or] at hv
    obtain ⟨h1, h2, h3, h4, h5, h6, h7, h8, h9, h10⟩ := hv
    unfold subColumn
    split <;> first | contradiction | rfl

/-- **C112**: two runs write the same values of a variable wherever their inputs agree in what it is to be computed from. -/
theorem C112_depends (j j' : Job) (hj : j.Sane) (hj' : j'.Sane) (hsh : j.shared = j'.shared) (hd0 : j.d0 = j'.d0) (hn : j.n = j'.n)
    (fuel fuel' : Nat) (order order' : List (Dict String Chunk.Slice)) (ho : j.Schedule order) (ho' : j'.Schedule order')
    (files files' : Run.Files Output) (hrun : j.run fuel order = .ok files) (hrun' : j'.run fuel' order' = .ok files')
    (hsub : j.shared.ts < 1440) (c c' : Run.Cell) (hc : j.Computed c) (hc' : j'.Computed c') (v u : String)
    (hu : j.shared.outVars.get? v = some u)
    (hsame : SameFor j.shared.utcOffset (needs j.shared.method j.shared.precType v) (j.inp c) (j'.inp c'))
    (val val' : ℚ → Flt ℝ) (hval : Recorded j files v c val) (hval' : Recorded j' files' v c' val')
    (k i : Nat) (hk : k < j.n) (hi : i < 1440 / j.shared.ts) : val (j.stamp k i) = val' (j.stamp k i) := by
  refine apart_of j j' hj hj' hsh hd0 hn ho ho' hrun hrun' hsub hc hc' hu hsame.lon ?_ hval hval' hk hi
  intro elev elev' lat lat' lon lon' q q' daily daily' t t' ha e1 e1' e2 e2'
  have ecols : AgreeIn (needs j.shared.method j.shared.precType v).columns (j.inp c).data.frame (j'.inp c').data.frame := hsame.columns
  have elat : (needs j.shared.method j.shared.precType v).lat = true → lat = lat' := fun h => by
    have := hsame.lat h
    rw [e2, e2'] at this
    exact Flt.fin.inj this
  have eelev : (needs j.shared.method j.shared.precType v).elev = true → elev = elev' := fun h => by
    have := hsame.elev h
    rw [e1, e1'] at this
    exact Flt.fin.inj this
  have estate := hsame.state
  have etb : (needs j.shared.method j.shared.precType v).state = true →
      some [(j.inp c).data.stateEnd.1, (j.inp c).data.stateEnd.2] = some [(j'.inp c').data.stateEnd.1, (j'.inp c').data.stateEnd.2] :=
    fun h => by rw [estate h]
  have cloud : AgreeIn (cloudFrom j.shared.method) (j.inp c).data.frame (j'.inp c').data.frame →
      Dict.get? q.base "tskc" = Dict.get? q'.base "tskc" := fun h => by
    cases hm : j.shared.method with
    | mtclim => rw [hm] at h; exact mtclim_cloud_same q q' hm h _ (by decide)
    | passthrough => rw [hm] at h; exact passthrough_cloud_same q q' hm h
  have vapour : lat = lat' → elev = elev' → AgreeIn (vapourFrom j.shared.method) (j.inp c).data.frame (j'.inp c').data.frame →
      Dict.get? q.base "vapor_pressure" = Dict.get? q'.base "vapor_pressure" := fun h1 h2 h => by
    cases hm : j.shared.method with
    | mtclim => rw [hm] at h; exact mtclim_same q q' hm h1 h2 ha.days h _ (by decide)
    | passthrough => rw [hm] at h; exact passthrough_vapour_same q q' hm h1 h2 ha.days h
  refine apart_names fun hv => ?_
  have left : ∀ {a b : List String}, (∀ k ∈ a ++ b, Dict.get? (j.inp c).data.frame k = Dict.get? (j'.inp c').data.frame k) →
      AgreeIn a (j.inp c).data.frame (j'.inp c').data.frame := fun h k hk => h k (List.mem_append_left _ hk)
  have right : ∀ {a b : List String}, (∀ k ∈ a ++ b, Dict.get? (j.inp c).data.frame k = Dict.get? (j'.inp c').data.frame k) →
      AgreeIn b (j.inp c).data.frame (j'.inp c').data.frame := fun h k hk => h k (List.mem_append_right _ hk)
  simp only [List.mem_cons, List.not_mem_nil, or_false] at hv
  rcases hv with rfl | rfl | rfl | rfl | rfl | rfl | rfl | rfl | rfl | rfl
  · -- shortwave
    show Except.ok (fillBoth t.sw) = Except.ok (fillBoth t'.sw)
    cases hm : j.shared.method with
    | mtclim =>
      rw [hm] at ecols elat eelev
      rw [ha.shortwave (elat rfl) (mtclim_same q q' hm (elat rfl) (eelev rfl) ha.days ecols _ (by decide)) t t']
    | passthrough =>
      rw [hm] at ecols elat
      obtain ⟨col, hcol⟩ := given_shortwave q hm
      rw [ha.shortwave (elat rfl) (passed_same q q' hm hcol (by decide) (by decide) (ecols _ (List.mem_singleton.2 rfl))) t t']
  · show Except.ok (fillBoth (t.temp.map fin)) = Except.ok (fillBoth (t'.temp.map fin))
    rw [ha.temp (elat rfl) (etb rfl) ecols t t']
  · show Except.ok (fillBoth (fillBoth t.vp)) = Except.ok (fillBoth (fillBoth t'.vp))
    rw [ha.vapour (elat rfl) (etb rfl) (left ecols) (vapour (elat rfl) (eelev rfl) (right ecols)) t t']
  · show Except.ok (fillBoth t.relHumid) = Except.ok (fillBoth t'.relHumid)
    unfold Trace.relHumid
    rw [ha.vapour (elat rfl) (etb rfl) (left ecols) (vapour (elat rfl) (eelev rfl) (right ecols)) t t',
      ha.temp (elat rfl) (etb rfl) (left ecols) t t']
  · show Except.ok (fillBoth t.airPressure) = Except.ok (fillBoth t'.airPressure)
    unfold Trace.airPressure
    rw [ha.temp (elat rfl) (etb rfl) ecols t t', eelev rfl]
    rfl
  · show Except.ok (fillBoth t.specHumid) = Except.ok (fillBoth t'.specHumid)
    unfold Trace.specHumid Trace.airPressure
    rw [ha.vapour (elat rfl) (etb rfl) (left ecols) (vapour (elat rfl) (eelev rfl) (right ecols)) t t',
      ha.temp (elat rfl) (etb rfl) (left ecols) t t', eelev rfl]
    rfl
  · show Except.ok (fillBoth t.cloud) = Except.ok (fillBoth t'.cloud)
    rw [ha.cloud (cloud ecols) t t']
  · show Except.ok (fillBoth t.lw) = Except.ok (fillBoth t'.lw)
    have e3 : AgreeIn ["t_min", "t_max", "longwave"] (j.inp c).data.frame (j'.inp c').data.frame := left (left ecols)
    rw [ha.longwave (elat rfl) (etb rfl) (e3.mono (by decide)) (vapour (elat rfl) (eelev rfl) (right ecols))
      (cloud (right (left ecols))) (e3 _ (by decide)) t t']
  · show Except.ok (fillBoth t.prec) = Except.ok (fillBoth t'.prec)
    rw [ha.prec ecols t t']
  · have e := ha.wind (ecols _ (List.mem_singleton.2 rfl)) t t'
    simp only [subColumn, Trace.sub, e]

/-- **C112**, passing through humidity and cloud cover that are given: they are computed from nothing else. -/
theorem C112_given (j j' : Job) (hj : j.Sane) (hj' : j'.Sane) (hsh : j.shared = j'.shared) (hd0 : j.d0 = j'.d0) (hn : j.n = j'.n)
    (fuel fuel' : Nat) (order order' : List (Dict String Chunk.Slice)) (ho : j.Schedule order) (ho' : j'.Schedule order')
    (files files' : Run.Files Output) (hrun : j.run fuel order = .ok files) (hrun' : j'.run fuel' order' = .ok files')
    (hsub : j.shared.ts < 1440) (hm : j.shared.method = .passthrough) (c c' : Run.Cell) (hc : j.Computed c) (hc' : j'.Computed c')
    (hgiven : ∀ k ∈ ["vapor_pressure", "tskc"], ∃ col, Dict.get? (j.inp c).data.frame k = some col) (v u : String)
    (hu : j.shared.outVars.get? v = some u)
    (hsame : SameFor j.shared.utcOffset (needsGiven j.shared.precType v) (j.inp c) (j'.inp c'))
    (val val' : ℚ → Flt ℝ) (hval : Recorded j files v c val) (hval' : Recorded j' files' v c' val')
    (k i : Nat) (hk : k < j.n) (hi : i < 1440 / j.shared.ts) : val (j.stamp k i) = val' (j.stamp k i) := by
  by_cases hv : v ∈ ["tskc", "vapor_pressure", "rel_humid", "spec_humid", "longwave"]
  · refine apart_of j j' hj hj' hsh hd0 hn ho ho' hrun hrun' hsub hc hc' hu hsame.lon ?_ hval hval' hk hi
    intro elev elev' lat lat' lon lon' q q' daily daily' t t' ha e1 e1' e2 e2'
    have ecols : AgreeIn (needsGiven j.shared.precType v).columns (j.inp c).data.frame (j'.inp c').data.frame := hsame.columns
    have elat : (needsGiven j.shared.precType v).lat = true → lat = lat' := fun h => by
      have := hsame.lat h
      rw [e2, e2'] at this
      exact Flt.fin.inj this
    have eelev : (needsGiven j.shared.precType v).elev = true → elev = elev' := fun h => by
      have := hsame.elev h
      rw [e1, e1'] at this
      exact Flt.fin.inj this
    have estate := hsame.state
    have etb : (needsGiven j.shared.precType v).state = true →
        some [(j.inp c).data.stateEnd.1, (j.inp c).data.stateEnd.2] = some [(j'.inp c').data.stateEnd.1, (j'.inp c').data.stateEnd.2] :=
      fun h => by rw [estate h]
    obtain ⟨vp, hvp⟩ := hgiven "vapor_pressure" (by decide)
    obtain ⟨cl, hcl⟩ := hgiven "tskc" (by decide)
    have vapour : AgreeIn ["t_min", "t_max", "vapor_pressure"] (j.inp c).data.frame (j'.inp c').data.frame →
        Dict.get? q.base "vapor_pressure" = Dict.get? q'.base "vapor_pressure" := fun h =>
      passed_same q q' hm hvp (by decide) (by decide) (h _ (by decide))
    simp only [List.mem_cons, List.not_mem_nil, or_false] at hv
    rcases hv with rfl | rfl | rfl | rfl | rfl
    · show Except.ok (fillBoth t.cloud) = Except.ok (fillBoth t'.cloud)
      rw [ha.cloud (passed_same q q' hm hcl (by decide) (by decide) (ecols _ (List.mem_singleton.2 rfl))) t t']
    · have e3 : AgreeIn ["t_min", "t_max", "vapor_pressure"] (j.inp c).data.frame (j'.inp c').data.frame := ecols
      show Except.ok (fillBoth (fillBoth t.vp)) = Except.ok (fillBoth (fillBoth t'.vp))
      rw [ha.vapour (elat rfl) (etb rfl) (e3.mono (by decide)) (vapour e3) t t']
    · have e3 : AgreeIn ["t_min", "t_max", "vapor_pressure"] (j.inp c).data.frame (j'.inp c').data.frame := ecols
      show Except.ok (fillBoth t.relHumid) = Except.ok (fillBoth t'.relHumid)
      unfold Trace.relHumid
      rw [ha.vapour (elat rfl) (etb rfl) (e3.mono (by decide)) (vapour e3) t t',
        ha.temp (elat rfl) (etb rfl) (e3.mono (by decide)) t t']
    · have e3 : AgreeIn ["t_min", "t_max", "vapor_pressure"] (j.inp c).data.frame (j'.inp c').data.frame := ecols
      show Except.ok (fillBoth t.specHumid) = Except.ok (fillBoth t'.specHumid)
      unfold Trace.specHumid Trace.airPressure
      rw [ha.vapour (elat rfl) (etb rfl) (e3.mono (by decide)) (vapour e3) t t',
        ha.temp (elat rfl) (etb rfl) (e3.mono (by decide)) t t', eelev rfl]
      rfl
    · have e3 : AgreeIn ["t_min", "t_max", "vapor_pressure", "tskc", "longwave"] (j.inp c).data.frame (j'.inp c').data.frame := ecols
      show Except.ok (fillBoth t.lw) = Except.ok (fillBoth t'.lw)
      rw [ha.longwave (elat rfl) (etb rfl) (e3.mono (by decide)) (vapour (e3.mono (by decide)))
        (passed_same q q' hm hcl (by decide) (by decide) (e3 _ (by decide))) (e3 _ (by decide)) t t']
  · have e : needsGiven j.shared.precType v = needs j.shared.method j.shared.precType v := by
      simp only [List.mem_cons, List.not_mem_nil, or_false, not_or] at hv
      obtain ⟨h1, h2, h3, h4, h5⟩ := hv
      rw [hm]
      unfold needsGiven
      split <;> first | contradiction | rfl
    rw [e] at hsame
    exact C112_depends j j' hj hj' hsh hd0 hn fuel fuel' order order' ho ho' files files' hrun hrun' hsub c c' hc hc' v u hu hsame
      val val' hval hval' k i hk hi

/-- **C112**, daily output: longitude and the state do not count at all. -/
theorem C112_daily (j j' : Job) (hj : j.Sane) (hj' : j'.Sane) (hsh : j.shared = j'.shared) (hd0 : j.d0 = j'.d0) (hn : j.n = j'.n)
    (fuel fuel' : Nat) (order order' : List (Dict String Chunk.Slice)) (ho : j.Schedule order) (ho' : j'.Schedule order')
    (files files' : Run.Files Output) (hrun : j.run fuel order = .ok files) (hrun' : j'.run fuel' order' = .ok files')
    (hday : j.shared.ts = 1440) (c c' : Run.Cell) (hc : j.Computed c) (hc' : j'.Computed c') (v u : String)
    (hu : j.shared.outVars.get? v = some u) (hsame : SameFor false (needsDaily j.shared.method v) (j.inp c) (j'.inp c'))
    (val val' : ℚ → Flt ℝ) (hval : Recorded j files v c val) (hval' : Recorded j' files' v c' val')
    (k : Nat) (hk : k < j.n) : val (j.stamp k 0) = val' (j.stamp k 0) := by
  obtain ⟨elev, lat, lon, h1, h2, h3, q, rep, hrep, hcol⟩ := written_daily j hj ho hrun hday hc
  have hst : ∀ k i, j.stamp k i = j'.stamp k i := fun k i => by unfold Job.stamp; rw [hsh, hd0]
  have hw := written_daily j' hj' ho' hrun' (hsh ▸ hday) hc'
  rw [← hsh] at hw
  obtain ⟨elev', lat', lon', h1', h2', h3', q', rep', hrep', hcol'⟩ := hw
  obtain ⟨col, w, a1, a2, a3⟩ := hcol v u hu
  obtain ⟨col', w', a1', a2', a3'⟩ := hcol' v u hu
  have hdays : (j.inp c).data.days = (j'.inp c').data.days := by rw [hj.data c, hj'.data c', hd0, hn]
  have ecols : AgreeIn (needsDaily j.shared.method v).columns (j.inp c).data.frame (j'.inp c').data.frame := hsame.columns
  have elat : (needsDaily j.shared.method v).lat = true → lat = lat' := fun h => by
    have := hsame.lat h
    rw [h2, h2'] at this
    exact Flt.fin.inj this
  have eelev : (needsDaily j.shared.method v).elev = true → elev = elev' := fun h => by
    have := hsame.elev h
    rw [h1, h1'] at this
    exact Flt.fin.inj this
  have e : Dict.get? rep v = Dict.get? rep' v := by
    unfold dailyShortwave at hrep hrep'
    simp only [bind_ok, pure_ok, Dict.get_ok] at hrep hrep'
    obtain ⟨sw, g1, dl, g2, rfl⟩ := hrep
    obtain ⟨sw', g1', dl', g2', rfl⟩ := hrep'
    rw [Dict.get?_set, Dict.get?_set]
    by_cases hv : "shortwave" = v
    · subst hv
      simp only [if_true, Option.some.injEq]
      have hl : lat = lat' := by cases hm : j.shared.method <;> rw [hm] at elat <;> exact elat rfl
      have e1 : Dict.get? q.base "shortwave" = Dict.get? q'.base "shortwave" := by
        cases hm : j.shared.method with
        | mtclim =>
          rw [hm] at ecols eelev
          exact mtclim_same q q' hm hl (eelev rfl) hdays ecols _ (by decide)
        | passthrough =>
          rw [hm] at ecols
          obtain ⟨x, hx⟩ := given_shortwave q hm
          exact passed_same q q' hm hx (by decide) (by decide) (ecols _ (List.mem_singleton.2 rfl))
      have e2 := base_daylength_same q q' hl hdays
      rw [g1, g1'] at e1
      rw [g2, g2'] at e2
      rw [Option.some.inj e1, Option.some.inj e2]
    · simp only [hv, if_false]
      by_cases hin : v ∈ ["daylength", "potrad", "tt_max", "tskc", "vapor_pressure", "t_day", "tfmax", "tdew", "pet", "seasonal_prec"]
      · simp only [List.mem_cons, List.not_mem_nil, or_false] at hin
        rcases hin with rfl | rfl | rfl | rfl | rfl | rfl | rfl | rfl | rfl | rfl
        · exact base_daylength_same q q' (elat rfl) hdays
        · exact base_potrad_same q q' (elat rfl) hdays
        · exact base_ttMax_same q q' (elat rfl) (eelev rfl) hdays
        all_goals
          cases hm : j.shared.method <;> rw [hm] at ecols elat eelev
        · exact mtclim_cloud_same q q' hm ecols _ (by decide)
        · exact passthrough_cloud_same q q' hm ecols
        · exact mtclim_same q q' hm (elat rfl) (eelev rfl) hdays ecols _ (by decide)
        · exact passthrough_vapour_same q q' hm (elat rfl) (eelev rfl) hdays ecols
        · exact mtclim_day_same q q' hm ecols
        · exact passthrough_day_same q q' hm ecols
        · exact mtclim_cloud_same q q' hm ecols _ (by decide)
        · exact passthrough_tfmax_same q q' hm ecols
        · exact mtclim_same q q' hm (elat rfl) (eelev rfl) hdays ecols _ (by decide)
        · exact passthrough_dew_same q q' hm (elat rfl) (eelev rfl) hdays ecols
        · exact mtclim_same q q' hm (elat rfl) (eelev rfl) hdays ecols _ (by decide)
        · exact passthrough_pet_same q q' hm (elat rfl) (eelev rfl) hdays ecols
        · exact mtclim_season_same q q' hm ecols
        · exact passthrough_season_same q q' hm ecols
      · simp only [List.mem_cons, List.not_mem_nil, or_false, not_or] at hin
        obtain ⟨n1, n2, n3, n4, n5, n6, n7, n8, n9, n10⟩ := hin
        have hv' : ¬ v = "shortwave" := fun e => hv e.symm
        have hcv : (needsDaily j.shared.method v).columns = [v] := by
          unfold needsDaily
          split <;> first | contradiction | rfl
        rw [hcv] at ecols
        exact base_same q q' (by simp [*]) (by simp [*]) (ecols _ (List.mem_singleton.2 rfl))
  rw [a1, a1'] at e
  have e := Option.some.inj e
  have b := a3 k hk
  have b' := a3' k (hn ▸ hk)
  rw [e, b', ← hst] at b
  have h0 : 0 < 1440 / j.shared.ts := by rw [hday]; decide
  rw [recorded_unique j hj hval a2 hk h0, ← Except.ok.inj b, hst, recorded_unique j' hj' hval' a2' (hn ▸ hk) (hsh ▸ h0)]

/-- **C112**: in local time, and with daily output, the longitude of a cell has no effect at all. -/
theorem C112_longitude (j j' : Job) (hj : j.Sane) (hj' : j'.Sane) (hsh : j.shared = j'.shared) (hd0 : j.d0 = j'.d0) (hn : j.n = j'.n)
    (fuel fuel' : Nat) (order order' : List (Dict String Chunk.Slice)) (ho : j.Schedule order) (ho' : j'.Schedule order')
    (files files' : Run.Files Output) (hrun : j.run fuel order = .ok files) (hrun' : j'.run fuel' order' = .ok files')
    (hloc : j.shared.ts = 1440 ∨ j.shared.utcOffset = false) (c c' : Run.Cell) (hc : j.Computed c) (hc' : j'.Computed c') (v u : String)
    (hu : j.shared.outVars.get? v = some u) (hlat : (j.inp c).lat = (j'.inp c').lat) (helev : (j.inp c).elev = (j'.inp c').elev)
    (hdata : (j.inp c).data = (j'.inp c').data)
    (val val' : ℚ → Flt ℝ) (hval : Recorded j files v c val) (hval' : Recorded j' files' v c' val')
    (k i : Nat) (hk : k < j.n) (hi : i < 1440 / j.shared.ts) : val (j.stamp k i) = val' (j.stamp k i) := by
  by_cases hts : j.shared.ts = 1440
  · have hi' : i = 0 := by rw [hts] at hi; omega
    subst hi'
    exact C112_daily j j' hj hj' hsh hd0 hn fuel fuel' order order' ho ho' files files' hrun hrun' hts c c' hc hc' v u hu
      ⟨fun k _ => by rw [hdata], fun _ => hlat, fun _ => helev, fun _ => by rw [hdata], fun h => by cases h⟩ val val' hval hval' k hk
  · have hle : j.shared.ts ≤ 1440 := Nat.le_of_dvd (by decide) hj.step.2
    exact C112_depends j j' hj hj' hsh hd0 hn fuel fuel' order order' ho ho' files files' hrun hrun' (by omega) c c' hc hc' v u hu
      ⟨fun k _ => by rw [hdata], fun _ => hlat, fun _ => helev, fun _ => by rw [hdata], fun h => by
        rcases hloc with e | e
        · exact absurd e hts
        · rw [h] at e; cases e⟩ val val' hval hval' k i hk hi

/-! ### There are such runs -/

/-- Runs over a day that differ in elevation, longitude and precipitation. -/
noncomputable def site (ts : Nat) (z l p : ℝ) : Job :=
  { oneDay with
    shared := { oneDay.shared with ts := ts }
    inp := fun _ => ⟨fin z, fin 45, fin l, ⟨consecutive 0 1,
      [("t_min", fun _ => fin 5), ("t_max", fun _ => fin 15), ("prec", fun _ => fin p), ("dtr", fun _ => fin 10),
       ("smoothed_dtr", fun _ => fin 10), ("seasonal_prec", fun _ => fin 800), ("shortwave", fun _ => fin 200),
       ("vapor_pressure", fun _ => fin 600), ("tskc", fun _ => fin 0.5)], (fin 4, fin 14)⟩⟩ }

theorem site_sane {ts : Nat} (hts : ts = 720 ∨ ts = 1440) (z l p : ℝ) : (site ts z l p).Sane where
  step := by
    rcases hts with rfl | rfl
    · exact ⟨Nat.succ_pos _, (by decide : 720 ∣ 1440)⟩
    · exact ⟨Nat.succ_pos _, (by decide : 1440 ∣ 1440)⟩
  pos := Nat.one_pos
  calendar := regular_standard _ _
  data := fun _ => rfl
  freq := oneDay_sane.freq
  years := by
    intro T h t ht
    have h' : Times.outputTimes ⟨ts, "standard", false⟩ (consecutive 0 1) = .ok T := h
    have e : ∀ t ∈ T, t ∈ ([0, 720] : List ℚ) := by
      rcases hts with rfl | rfl
      · have e : Times.outputTimes ⟨720, "standard", false⟩ (consecutive 0 1) = .ok [0, 720] := by decide +kernel
        rw [e] at h'
        injection h' with h'
        subst h'
        decide +kernel
      · have e : Times.outputTimes ⟨1440, "standard", false⟩ (consecutive 0 1) = .ok [0] := by decide +kernel
        rw [e] at h'
        injection h' with h'
        subst h'
        decide +kernel
    exact (show ∀ t ∈ ([0, 720] : List ℚ), 0 ≤ Cal.yearOf (Times.ordOf t) ∧ Cal.yearOf (Times.ordOf t) < 10000 by decide +kernel)
      t (e t ht)
  vars := oneDay_sane.vars
  names := oneDay_sane.names
  dims := oneDay_sane.dims
  dims_pos := oneDay_sane.dims_pos
  chunks := oneDay_sane.chunks
  chunks_pos := oneDay_sane.chunks_pos
  same := oneDay_sane.same

theorem site_complete {ts : Nat} {z : ℝ} (hz : z ≤ 9000) (l p : ℝ) (c : Run.Cell) :
    CompleteCell (site ts z l p).shared 1 ((site ts z l p).inp c) where
  place := ⟨z, 45, l, rfl, rfl, rfl, by rw [abs_of_pos] <;> norm_num, by
    show (0.0065 : ℝ) * z < 288.15
    nlinarith⟩
  lapse := (oneDay_complete c).lapse
  columns := by
    intro k hk
    simp only [List.mem_cons, List.not_mem_nil, or_false] at hk
    rcases hk with rfl | rfl | rfl | rfl | rfl | rfl <;> simp [site, Dict.get?_cons]
  radiation := fun _ => by simp [site, Dict.get?_cons]
  tMin := fun col h i _ => by
    simp (decide := true) only [site, Dict.get?_cons, if_true, if_false, Option.some.injEq] at h
    subst h; exact ⟨5, rfl⟩
  tMax := fun col h i _ => by
    simp (decide := true) only [site, Dict.get?_cons, if_true, if_false, Option.some.injEq] at h
    subst h; exact ⟨15, rfl⟩
  state := ⟨4, 14, rfl⟩
  fraction := (oneDay_complete c).fraction
  lwType := (oneDay_complete c).lwType
  lwCloud := (oneDay_complete c).lwCloud
  storm := fun h => absurd h (by
    show ¬ (Lw.upperS "uniform" = _ ∨ Lw.upperS "uniform" = _)
    decide)

theorem site_runs {ts : Nat} (hts : ts = 720 ∨ ts = 1440) {z : ℝ} (hz : z ≤ 9000) (l p : ℝ) :
    ∃ order files, (site ts z l p).Schedule order ∧ (site ts z l p).run 0 order = .ok files := by
  obtain ⟨files, h⟩ := (C71_run (site ts z l p) (site_sane hts z l p) 0 [[("lat", none), ("lon", none)]]
    ⟨_, rfl, List.Perm.refl _⟩ (fun c _ => site_complete hz l p c) (fun h => by cases h)).2 (by
      intro c _ q hq
      have hq : q = ("vapor_pressure", "kPa") := by simpa [site, oneDay] using hq
      subst hq
      refine ⟨?_, _, _, rfl, rfl⟩
      unfold Offers
      split
      · exact Or.inl (by decide)
      · exact Or.inl (by decide))
  exact ⟨_, files, ⟨_, rfl, List.Perm.refl _⟩, h⟩

/-- **C112**: there are two such runs; they differ in elevation, longitude and precipitation. -/
example : (site 720 100 10 1).Sane ∧ (site 720 900 80 7).Sane ∧ (site 720 100 10 1).shared = (site 720 900 80 7).shared ∧
    (site 720 100 10 1).shared.ts < 1440 ∧ (site 720 100 10 1).shared.method = .passthrough ∧
    (site 720 100 10 1).Computed [0, 0] ∧ (site 720 900 80 7).Computed [0, 0] ∧
    (site 720 100 10 1).shared.outVars.get? "vapor_pressure" = some "kPa" ∧
    (∀ k ∈ ["vapor_pressure", "tskc"], ∃ col, Dict.get? ((site 720 100 10 1).inp [0, 0]).data.frame k = some col) ∧
    SameFor false (needsGiven "uniform" "vapor_pressure") ((site 720 100 10 1).inp [0, 0]) ((site 720 900 80 7).inp [0, 0]) ∧
    SameFor false (needs .passthrough "uniform" "vapor_pressure") ((site 720 100 10 1).inp [0, 0]) ((site 720 100 80 7).inp [0, 0]) ∧
    (∃ order files, (site 720 100 10 1).Schedule order ∧ (site 720 100 10 1).run 0 order = .ok files) ∧
    (∃ order files, (site 720 900 80 7).Schedule order ∧ (site 720 900 80 7).run 0 order = .ok files) := by
  refine ⟨site_sane (Or.inl rfl) _ _ _, site_sane (Or.inl rfl) _ _ _, rfl, by show (720 : Nat) < 1440; decide, rfl,
    ⟨by show _ ∈ gridCells [("lat", 1), ("lon", 2)]; decide, 1, rfl, one_pos⟩,
    ⟨by show _ ∈ gridCells [("lat", 1), ("lon", 2)]; decide, 1, rfl, one_pos⟩, rfl, ?_,
    ⟨?_, fun _ => rfl, fun h => by (cases h), fun _ => rfl, fun h => by cases h⟩,
    ⟨?_, fun _ => rfl, fun _ => rfl, fun _ => rfl, fun h => by cases h⟩,
    site_runs (Or.inl rfl) (by norm_num) _ _, site_runs (Or.inl rfl) (by norm_num) _ _⟩
  · intro k hk
    simp only [List.mem_cons, List.not_mem_nil, or_false] at hk
    rcases hk with rfl | rfl <;> exact ⟨_, rfl⟩
  · intro k hk
    simp only [needsGiven, List.mem_cons, List.not_mem_nil, or_false] at hk
    rcases hk with rfl | rfl | rfl <;> rfl
  · intro k hk
    have hk : k ∈ ["t_min", "t_max", "vapor_pressure", "tdew", "pet", "shortwave", "t_day", "t_min", "t_max", "seasonal_prec", "dtr"] := hk
    simp only [List.mem_cons, List.not_mem_nil, or_false] at hk
    rcases hk with rfl | rfl | rfl | rfl | rfl | rfl | rfl | rfl | rfl | rfl | rfl <;> rfl

/-- **C112**, daily output. -/
example : (site 1440 100 10 1).Sane ∧ (site 1440 100 80 7).Sane ∧ (site 1440 100 10 1).shared = (site 1440 100 80 7).shared ∧
    (site 1440 100 10 1).shared.ts = 1440 ∧ (site 1440 100 10 1).Computed [0, 0] ∧ (site 1440 100 80 7).Computed [0, 0] ∧
    SameFor false (needsDaily .passthrough "vapor_pressure") ((site 1440 100 10 1).inp [0, 0]) ((site 1440 100 80 7).inp [0, 0]) ∧
    (∃ order files, (site 1440 100 10 1).Schedule order ∧ (site 1440 100 10 1).run 0 order = .ok files) ∧
    (∃ order files, (site 1440 100 80 7).Schedule order ∧ (site 1440 100 80 7).run 0 order = .ok files) := by
  refine ⟨site_sane (Or.inr rfl) _ _ _, site_sane (Or.inr rfl) _ _ _, rfl, rfl,
    ⟨by show _ ∈ gridCells [("lat", 1), ("lon", 2)]; decide, 1, rfl, one_pos⟩,
    ⟨by show _ ∈ gridCells [("lat", 1), ("lon", 2)]; decide, 1, rfl, one_pos⟩,
    ⟨?_, fun _ => rfl, fun _ => rfl, fun _ => rfl, fun h => by cases h⟩,
    site_runs (Or.inr rfl) (by norm_num) _ _, site_runs (Or.inr rfl) (by norm_num) _ _⟩
  intro k hk
  simp only [needsDaily, vapourFrom, List.mem_cons, List.not_mem_nil, or_false] at hk
  rcases hk with rfl | rfl | rfl | rfl | rfl | rfl | rfl | rfl | rfl <;> rfl

end Verif.Props
