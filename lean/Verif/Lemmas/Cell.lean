import Verif.Model.Cell
import Verif.Props.Run
import Verif.Props.Groups
import Verif.Props.Disaggregate
import Verif.Props.Methods

/-!
# Lemmas about one cell and the whole run
-/

namespace Verif.Cell

open Flt Methods Props

theorem finite_ok {v : Flt ℝ} {x : ℝ} : finite v = .ok x ↔ v = fin x := by
  cases v <;> simp [finite]

/-- Everything computed for a cell before the output loop. -/
structure Common (fuel : Nat) (s : Shared) (elev lat lon : ℝ) (d : Data) where
  geom : List Solar.DayGeom
  rows : List Solar.DayGeom
  base : Frame
  axis : List ℚ
  h_geom : Solar.solarGeom elev lat s.lapseRate = .ok geom
  h_rows : geomRows geom d.days = .ok rows
  h_base : runMethod fuel d.days.length s.method (withGeom rows d.frame) (s.daily elev) = .ok base
  h_axis : Times.outputTimes s.cfg d.days = .ok axis

theorem cellBody_sub {fuel : Nat} {p : Run.Params Shared ℝ} {d : Data} {r : Output} {p' : Run.Params Shared ℝ}
    (hts : p.shared.ts < 1440) (h : cellBody fuel p d = .ok (r, p')) :
    ∃ elev lat lon, p.elev = fin elev ∧ p.lat = fin lat ∧ p.lon = fin lon ∧
    ∃ (k : Common fuel p.shared elev lat lon d) (daily : Disaggregate.Daily) (sub : Disaggregate.Sub)
      (frame : List (ℚ × Nat)), dailyOf d.days k.base = .ok daily ∧
      Disaggregate.disaggregate daily (p.shared.sub elev lon) k.geom (some [d.stateEnd.1, d.stateEnd.2]) none = .ok sub ∧
      Times.cellFrame p.shared.cfg d.days (List.range sub.time.length) = .ok frame ∧
      outputs p.shared k.axis.length (frame.map (·.2)) (subColumn sub) = .ok r ∧
      p' = { p with lon := fin (Disagg.remainder360 lon) } := by
  unfold cellBody at h
  simp only [bind_ok, finite_ok, if_pos hts, pure_ok] at h
  obtain ⟨elev, h1, lat, h2, lon, h3, geom, h4, rows, h5, base, h6, axis, h7, daily, h8, sub, h9, frame, h10, out, h11, e⟩ := h
  injection e with e1 e2
  subst e1
  exact ⟨elev, lat, lon, h1, h2, h3, ⟨geom, rows, base, axis, h4, h5, h6, h7⟩, daily, sub, frame, h8, h9, h10, h11, e2.symm⟩

theorem cellBody_daily {fuel : Nat} {p : Run.Params Shared ℝ} {d : Data} {r : Output} {p' : Run.Params Shared ℝ}
    (hts : ¬ p.shared.ts < 1440) (h : cellBody fuel p d = .ok (r, p')) :
    ∃ elev lat lon, p.elev = fin elev ∧ p.lat = fin lat ∧ p.lon = fin lon ∧
    ∃ (k : Common fuel p.shared elev lat lon d) (rep : Frame) (frame : List (ℚ × Nat)), dailyShortwave k.base = .ok rep ∧
      Times.cellFrame p.shared.cfg d.days (List.range d.days.length) = .ok frame ∧
      outputs p.shared k.axis.length (frame.map (·.2)) (column d.days.length rep) = .ok r ∧ p' = p := by
  unfold cellBody at h
  simp only [bind_ok, finite_ok, if_neg hts, pure_ok] at h
  obtain ⟨elev, h1, lat, h2, lon, h3, geom, h4, rows, h5, base, h6, axis, h7, rep, h8, frame, h10, out, h11, e⟩ := h
  injection e with e1 e2
  subst e1
  exact ⟨elev, lat, lon, h1, h2, h3, ⟨geom, rows, base, axis, h4, h5, h6, h7⟩, rep, frame, h8, h10, h11, e2.symm⟩

/-- A cell changes none of the parameters shared by the cells. -/
theorem keepsShared (fuel : Nat) : Run.KeepsShared (cellBody fuel) := by
  intro p d r p' h
  by_cases hts : p.shared.ts < 1440
  · obtain ⟨_, _, _, -, -, -, _, _, _, _, -, -, -, -, rfl⟩ := cellBody_sub hts h
    rfl
  · obtain ⟨_, _, _, -, -, -, _, _, _, -, -, -, rfl⟩ := cellBody_daily hts h
    rfl

theorem own_ok {fuel : Nat} {s : Shared} {c : Run.CellIn Data ℝ} {r : Output} :
    Run.own (cellBody fuel) s c = .ok r ↔ ∃ p', cellBody fuel ⟨s, c.elev, c.lat, c.lon⟩ c.data = .ok (r, p') := by
  unfold Run.own
  cases cellBody fuel ⟨s, c.elev, c.lat, c.lon⟩ c.data with
  | error e => simp [Except.map]
  | ok v => obtain ⟨a, b⟩ := v; simp [Except.map]

theorem outputs_ok {s : Shared} {n : Nat} {rows : List Nat} {col : String → Except PyErr (List (Flt ℝ))} {r : Output}
    (h : outputs s n rows col = .ok r) :
    r.keys = s.outVars.keys ∧ ∀ v u, (v, u) ∈ s.outVars → ∃ c vals vals', col v = .ok c ∧
      (rows.mapM fun i => Units.convert v u (c.getD i nan) s.ts) = .ok vals ∧ assignSeries n vals = .ok vals' ∧
      (v, vals') ∈ r := by
  unfold outputs at h
  generalize s.outVars = ov at h
  revert r
  induction ov with
  | nil => intro r h; rw [List.mapM_nil] at h; injection h with h; subst h; simp [Dict.keys]
  | cons q ov ih =>
    intro r h
    rw [List.mapM_cons] at h
    simp only [bind_ok, pure_ok] at h
    obtain ⟨_, ⟨c, h1, vals, h2, vals', h3, rfl⟩, rest, h4, rfl⟩ := h
    obtain ⟨k1, k2⟩ := ih (by simpa only [bind_ok, pure_ok] using h4)
    refine ⟨by simp only [Dict.keys, List.map_cons] at k1 ⊢; rw [k1], ?_⟩
    intro v u hm
    rcases List.mem_cons.1 hm with rfl | hm
    · exact ⟨c, vals, vals', h1, h2, h3, by simp⟩
    · obtain ⟨c, vals, vals', a1, a2, a3, a4⟩ := k2 v u hm
      exact ⟨c, vals, vals', a1, a2, a3, by simp [a4]⟩

/-- When the cut leaves all rows, each output variable is its column, converted entry by entry. -/
theorem outputs_series {s : Shared} {n : Nat} {col : String → Except PyErr (List (Flt ℝ))} {r : Output}
    (h : outputs s n (List.range n) col = .ok r) (hk : s.outVars.keys.Nodup) {v u : String}
    (hv : s.outVars.get? v = some u) :
    ∃ c vals, col v = .ok c ∧ Dict.get? r v = some vals ∧ vals.length = n ∧
      ∀ i x, vals[i]? = some x → Units.convert v u (c.getD i nan) s.ts = .ok x := by
  obtain ⟨k1, k2⟩ := outputs_ok h
  obtain ⟨c, vals, vals', h1, h2, h3, h4⟩ := k2 v u (Dict.mem_of_get? _ hv)
  obtain ⟨l1, l2⟩ := mapM_range_ok h2
  have e : vals' = vals := by
    unfold assignSeries at h3
    rw [if_pos l1] at h3
    injection h3 with h3
    exact h3.symm
  subst e
  exact ⟨c, vals', h1, Dict.get?_of_mem _ (by rw [k1]; exact hk) h4, l1, l2⟩

theorem outputs_keys {s : Shared} {n : Nat} {rows : List Nat} {col : String → Except PyErr (List (Flt ℝ))} {r : Output}
    (h : outputs s n rows col = .ok r) : r.keys = s.outVars.keys := (outputs_ok h).1

theorem column_ok {n : Nat} {df : Frame} {name : String} {xs : List (Flt ℝ)} :
    column n df name = .ok xs ↔ ∃ c, Dict.get? df name = some c ∧ xs = (List.range n).map c := by
  unfold column
  simp only [bind_ok, Dict.get_ok, pure_ok]
  constructor <;> rintro ⟨c, h1, h2⟩ <;> exact ⟨c, h1, h2.symm⟩

/-- The daily frame handed to `disaggregate`, column by column. -/
theorem dailyOf_ok {days : List Int} {df : Frame} {d : Disaggregate.Daily} (h : dailyOf days df = .ok d) :
    d.doy = days.map doy ∧
    column days.length df "shortwave" = .ok d.shortwave ∧ column days.length df "daylength" = .ok d.daylength ∧
    column days.length df "t_min" = .ok d.tMin ∧ column days.length df "t_max" = .ok d.tMax ∧
    column days.length df "vapor_pressure" = .ok d.vaporPressure ∧ column days.length df "tskc" = .ok d.tskc ∧
    column days.length df "prec" = .ok d.prec ∧ d.wind = column? days.length df "wind" ∧
    d.longwave = column? days.length df "longwave" ∧ d.tPk = column? days.length df "t_pk" ∧
    d.dur = column? days.length df "dur" := by
  unfold dailyOf at h
  simp only [bind_ok, pure_ok] at h
  obtain ⟨_, h1, _, h2, _, h3, _, h4, _, h5, _, h6, _, h7, rfl⟩ := h
  exact ⟨rfl, h1, h2, h3, h4, h5, h6, h7, rfl, rfl, rfl, rfl⟩

/-- Columns the daily methods leave alone. -/
theorem runMethod_keeps {fuel n : Nat} {m : Method} {df out : Frame} {p : MParams} (h : runMethod fuel n m df p = .ok out)
    {name : String} (hn : name ∉ ["t_day", "tfmax", "tskc", "seasonal_prec", "tdew", "vapor_pressure", "shortwave", "pet"]) :
    Dict.get? out name = Dict.get? df name := by
  unfold runMethod at h
  cases m with
  | passthrough =>
    simp only at h
    obtain ⟨h1, h2⟩ := (C42_passthrough_partial df p).2 out h
    simp only [List.mem_cons, List.not_mem_nil, or_false, not_or] at hn
    cases hg : Dict.get? df name with
    | some c => exact h1 name c hg (fun e => absurd e hn.2.2.2.1)
    | none =>
      refine h2 name hg ?_
      simp only [addable, List.mem_cons, List.not_mem_nil, or_false, not_or]
      exact ⟨hn.1, hn.2.1, hn.2.2.1, hn.2.2.2.2.2.2.2, hn.2.2.2.2.1, hn.2.2.2.2.2.1⟩
  | mtclim =>
    simp only [bind_ok] at h
    obtain ⟨r, h1, h2⟩ := h
    cases r with
    | none => cases h2
    | some o =>
      simp only [pure_ok] at h2
      subst h2
      exact (C41_columns n fuel df p o h1).1 name hn

theorem withGeom_keeps (rows : List Solar.DayGeom) (df : Frame) {name : String}
    (hn : name ∉ ["daylength", "potrad", "tt_max"]) : Dict.get? (withGeom rows df) name = Dict.get? df name := by
  simp only [List.mem_cons, List.not_mem_nil, or_false, not_or] at hn
  unfold withGeom
  simp only
  rw [Dict.get?_set_ne _ _ (Ne.symm hn.2.2), Dict.get?_set_ne _ _ (Ne.symm hn.2.1), Dict.get?_set_ne _ _ (Ne.symm hn.1)]

theorem map_snd_frame {s : Shared} {d0 : Int} {n N : Nat} {frame : List (ℚ × Nat)} (hts : StepOk s.ts) (hn : 0 < n)
    (hc : HasDays s.calendar d0 (d0 + n)) (hN : N = n * (1440 / s.ts)) (h : Times.cellFrame s.cfg (consecutive d0 n) (List.range N) = .ok frame) :
    frame.map (·.2) = List.range N := by
  have e := cellFrame_eq s.ts s.calendar s.periodEnding hts d0 n hn hc (List.range N) (by rw [List.length_range, hN])
  rw [show s.cfg = ⟨s.ts, s.calendar, s.periodEnding⟩ from rfl, e] at h
  injection h with h
  subst h
  exact List.map_snd_zip (by simp [hN])

theorem axis_length {s : Shared} {d0 : Int} {n : Nat} {axis : List ℚ} (hts : StepOk s.ts) (hn : 0 < n)
    (hc : HasDays s.calendar d0 (d0 + n)) (h : Times.outputTimes s.cfg (consecutive d0 n) = .ok axis) : axis.length = n * (1440 / s.ts) := by
  rw [show s.cfg = ⟨s.ts, s.calendar, s.periodEnding⟩ from rfl, outputTimes_grid s.ts _ _ hts d0 n hn hc] at h
  injection h with h
  subst h
  simp

@[simp] theorem length_consecutive (d0 : Int) (n : Nat) : (consecutive d0 n).length = n := by simp [consecutive]

/-- A cell's sub-daily output: the frame `disaggregate` gives, each variable converted step by step. -/
theorem own_sub {fuel : Nat} {s : Shared} {c : Run.CellIn Data ℝ} {r : Output} (hsub : s.ts < 1440) (hts : StepOk s.ts)
    {d0 : Int} {n : Nat} (hn : 0 < n) (hc : HasDays s.calendar d0 (d0 + n)) (hd : c.data.days = consecutive d0 n) (hk : s.outVars.keys.Nodup)
    (h : Run.own (cellBody fuel) s c = .ok r) :
    ∃ elev lat lon, c.elev = fin elev ∧ c.lat = fin lat ∧ c.lon = fin lon ∧
    ∃ (k : Common fuel s elev lat lon c.data) (daily : Disaggregate.Daily) (sub : Disaggregate.Sub),
      dailyOf c.data.days k.base = .ok daily ∧
      Disaggregate.disaggregate daily (s.sub elev lon) k.geom (some [c.data.stateEnd.1, c.data.stateEnd.2]) none = .ok sub ∧
      ∀ v u, s.outVars.get? v = some u → ∃ col vals, subColumn sub v = .ok col ∧ Dict.get? r v = some vals ∧
        vals.length = n * (1440 / s.ts) ∧
        ∀ i x, vals[i]? = some x → Units.convert v u (col.getD i nan) s.ts = .ok x := by
  obtain ⟨p', h⟩ := own_ok.1 h
  obtain ⟨elev, lat, lon, h1, h2, h3, k, daily, sub, frame, h4, h5, h6, h7, -⟩ := cellBody_sub hsub h
  refine ⟨elev, lat, lon, h1, h2, h3, k, daily, sub, h4, h5, ?_⟩
  have hl : sub.time.length = n * (1440 / s.ts) := by
    obtain ⟨t, rfl⟩ := disaggregate_ok.1 h5
    obtain ⟨e, -⟩ := dailyOf_ok h4
    show (List.map _ (List.range _)).length = _
    rw [List.length_map, List.length_range, e, List.length_map, hd, length_consecutive]
    show n * 1440 / s.ts = _
    exact Nat.mul_div_assoc n hts.2
  have ha : k.axis.length = n * (1440 / s.ts) := axis_length hts hn hc (d0 := d0) (by rw [← hd]; exact k.h_axis)
  have hf := map_snd_frame hts hn hc hl (d0 := d0) (by rw [← hd]; exact h6)
  rw [hf, ha, ← hl] at h7
  intro v u hv
  obtain ⟨col, vals, a1, a2, a3, a4⟩ := outputs_series h7 hk hv
  exact ⟨col, vals, a1, a2, by rw [a3, hl], a4⟩

/-- A cell's daily output: the frame of the method, shortwave as 24-hour mean, each variable converted day by day. -/
theorem own_daily {fuel : Nat} {s : Shared} {c : Run.CellIn Data ℝ} {r : Output} (hts : s.ts = 1440)
    {d0 : Int} {n : Nat} (hn : 0 < n) (hc : HasDays s.calendar d0 (d0 + n)) (hd : c.data.days = consecutive d0 n) (hk : s.outVars.keys.Nodup)
    (h : Run.own (cellBody fuel) s c = .ok r) :
    ∃ elev lat lon, c.elev = fin elev ∧ c.lat = fin lat ∧ c.lon = fin lon ∧
    ∃ (k : Common fuel s elev lat lon c.data) (rep : Frame), dailyShortwave k.base = .ok rep ∧
      ∀ v u, s.outVars.get? v = some u → ∃ col vals, column n rep v = .ok col ∧ Dict.get? r v = some vals ∧
        vals.length = n ∧ ∀ i x, vals[i]? = some x → Units.convert v u (col.getD i nan) s.ts = .ok x := by
  obtain ⟨p', h⟩ := own_ok.1 h
  obtain ⟨elev, lat, lon, h1, h2, h3, k, rep, frame, h4, h6, h7, -⟩ := cellBody_daily (by show ¬ s.ts < 1440; omega) h
  refine ⟨elev, lat, lon, h1, h2, h3, k, rep, h4, ?_⟩
  have hok : StepOk s.ts := ⟨by omega, by rw [hts]⟩
  have hone : n * (1440 / s.ts) = n := by rw [hts]; simp
  have hl : c.data.days.length = n := by rw [hd, length_consecutive]
  have ha : k.axis.length = n := by
    rw [axis_length hok hn hc (d0 := d0) (by rw [← hd]; exact k.h_axis), hone]
  have hf := map_snd_frame hok hn hc (N := n) hone.symm (d0 := d0) (frame := frame) (by rw [← hl, hd] at *; simpa using h6)
  rw [hf, ha, hl] at h7
  intro v u hv
  exact outputs_series h7 hk hv

/-- Whatever the record, an output has the requested variables, in order. -/
theorem own_keys {fuel : Nat} {s : Shared} {c : Run.CellIn Data ℝ} {r : Output}
    (h : Run.own (cellBody fuel) s c = .ok r) : r.keys = s.outVars.keys := by
  obtain ⟨p', h⟩ := own_ok.1 h
  by_cases hts : s.ts < 1440
  · obtain ⟨_, _, _, -, -, -, _, _, _, _, -, -, -, h, -⟩ := cellBody_sub hts h
    exact outputs_keys h
  · obtain ⟨_, _, _, -, -, -, _, _, _, -, -, h, -⟩ := cellBody_daily hts h
    exact outputs_keys h

end Verif.Cell
