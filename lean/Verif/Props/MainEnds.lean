import Verif.Props.Main
import Verif.Props.FilesPlace
import Verif.Props.Dewpoint
import Verif.Props.Units

/-!
# C96: a run over complete and plausible files comes to its end
-/

namespace Verif.Props

open Dataset ConfigRead Main Flt

/-- The variable is read from the forcing or is a constant. -/
def Provided (i : Worker.Inputs) (v : String) : Prop := v ∈ i.constants.map Prod.fst ∨ ∃ u, i.names.get? u = some v

/-- What files on earth say: the cells that are to be computed lie between 60 S and 60 N at an elevation in the atmosphere, their
temperatures are between -60 and 60 degrees, and there are temperatures for the day before the first. -/
structure Earthly (i : Worker.Inputs) (s : Cell.Shared) (whole : DS ℝ) (mask : Arr ℝ) (n : Nat) : Prop where
  own : ∀ v ∈ ["elev", "lat", "lon"], ¬ Provided i v ∧ ∀ a, whole.vars.get? v = some a → ∀ d ∈ a.dims, d ∈ mask.dims
  elev : ∀ c, Active whole mask c → ∀ x, PlaceAt i whole mask.dims c "elev" x → ∃ r, x = fin r ∧ s.lapseRate * r < 288.15
  lat : ∀ c, Active whole mask c → ∀ x, PlaceAt i whole mask.dims c "lat" x → ∃ r, x = fin r ∧ |r| ≤ 60
  lon : ∀ c, Active whole mask c → ∀ x, PlaceAt i whole mask.dims c "lon" x → ∃ r, x = fin r
  temps : ∀ c, Active whole mask c → ∀ v ∈ ["t_min", "t_max"], ∀ k < n, ∀ x,
    Told i.forcing i.names whole mask.dims c v (i.start + k) x → ∃ r, x = fin r ∧ -60 ≤ r ∧ r ≤ 60
  before : ∀ c, Active whole mask c → ∀ v ∈ ["t_min", "t_max"], ∀ x,
    Told i.stateFile i.stateNames whole mask.dims c v (i.start - 1) x → ∃ r, x = fin r
  radiation : s.method = .passthrough → Provided i "shortwave"

/-- Parameters within their ranges. -/
structure Sensible (s : Cell.Shared) : Prop where
  sane : SaneParams s
  lapse : 0 < s.lapseRate
  fraction : 0 < s.tmaxFraction ∧ s.tmaxFraction ≤ 1
  lwType : ∃ ty, Lw.lwTypeOf s.lwType = .ok ty
  lwCloud : ∃ cl, Lw.cloudOf s.lwCloud = .ok cl

theorem constants_has {met0 met : DS ℝ} {consts : Dict String ℝ} (h : Worker.withConstants met0 consts = .ok met) {v : String}
    (hv : v ∈ consts.map Prod.fst ∨ met0.vars.get? v ≠ none) : met.vars.get? v ≠ none := by
  by_cases hk : v ∈ consts.map Prod.fst
  · unfold Worker.withConstants at h
    cases consts with
    | nil => simp at hk
    | cons p ps =>
      simp only at h
      split at h
      · simp at h
      · rename_i t _ _
        obtain rfl := Except.ok.inj h
        show Dict.get? ((p :: ps).foldl (fun vs p => Dict.set vs p.1 ⟨t.dims, fun _ => .fin p.2⟩) met0.vars) v ≠ none
        generalize met0.vars = d0
        have key : ∀ (l : List (String × ℝ)) (d : Dict String (Arr ℝ)), v ∈ l.map Prod.fst ∨ v ∈ d.keys →
            v ∈ (l.foldl (fun vs p => Dict.set vs p.1 (⟨t.dims, fun _ => .fin p.2⟩ : Arr ℝ)) d).keys := by
          intro l
          induction l with
          | nil => intro d hd; simpa using hd
          | cons a l ih =>
            intro d hd
            apply ih
            rw [Dict.mem_keys_set]
            rcases hd with hd | hd
            · rcases List.mem_cons.1 hd with e | hd
              · exact Or.inr (Or.inl e)
              · exact Or.inl hd
            · exact Or.inr (Or.inr hd)
        intro hn
        exact (Dict.get?_eq_none_iff _ _).1 hn (key _ _ (Or.inl hk))
  · obtain ⟨-, -, h3⟩ := withConstants_ok h
    rw [h3 v hk]
    exact hv.resolve_left hk

section
variable {i : Worker.Inputs} {s : Cell.Shared} {ld : Worker.Loads} {n : Nat}

theorem given_met (hi : Worker.Sound i) (hw : Worker.load i s [] = .ok ld) (hfit : Worker.Fit ld)
    (hc : (force i).Complete ld.dom) {v : String} (hv : v ∉ added) (hg : Provided i v) : ld.met.vars.get? v ≠ none := by
  obtain ⟨met0, -, hl, hcs, -⟩ := load_reads hi hw hfit
  apply constants_has hcs
  rcases hg with h | ⟨u, hu⟩
  · exact Or.inl h
  · right
    obtain ⟨r, m1, m2, hr, -, -, -, -, -, -, -, rv⟩ := hl.parts
    simp only [added, List.mem_cons, List.not_mem_nil, or_false, not_or] at hv
    rw [rv v hv.2.1 hv.2.2.1 hv.2.2.2.1]
    exact Option.isSome_iff_ne_none.1 (readNetcdf_has hi.forcing hi.names hu hv.1 hr (hc.vars u (Dict.mem_keys_of_get? _ hu)))

theorem given_frame (hi : Worker.Sound i) (hw : Worker.load i s [] = .ok ld) (hfit : Worker.Fit ld)
    (hc : (force i).Complete ld.dom) {v : String} (hv : v ∉ added) (hg : Provided i v) {c : Run.Cell} {x : Run.CellIn Cell.Data ℝ}
    (hx : Worker.cellIn ld c = .ok x) : Dict.get? x.data.frame v ≠ none := by
  rw [frame_series hi hw hfit hx hv]
  have := given_met hi hw hfit hc hv hg
  cases h : ld.met.vars.get? v with
  | none => exact absurd h this
  | some a => simp

/-- The cells of files on earth are complete and plausible. -/
theorem earthly_cell (hi : Worker.Sound i) (hw : Worker.load i s [] = .ok ld) (hfit : Worker.Fit ld) (hd : Dated i ld n)
    (hsrc : Sources i s ld.dom ld.mask n) (he : Earthly i s ld.dom ld.mask n) (hp : Sensible s) {c : Run.Cell}
    (hc : Active ld.dom ld.mask c) {x : Run.CellIn Cell.Data ℝ} (hx : Worker.cellIn ld c = .ok x) :
    CompleteCell s n x ∧ Plausible n x.data.frame := by
  obtain ⟨wf, -, -⟩ := whole_ok hi.domFile hi.domNames hsrc.dom
  have hpl : ∀ v ∈ ["elev", "lat", "lon"], Placed ld v := fun v hv =>
    placed_of hi hw hfit hsrc hv (fun h => (he.own v hv).1 (Or.inl h)) (fun u h => (he.own v hv).1 (Or.inr ⟨u, h⟩)) (he.own v hv).2
  obtain ⟨p1, p2, p3⟩ := C90_place hi hw hfit (hsrc.force.countable wf) (fun v hv h => (he.own v hv).1 (Or.inl h)) hpl hc.1 hx
  obtain ⟨elev, e1, e2⟩ := he.elev c hc _ p1
  obtain ⟨lat, l1, l2⟩ := he.lat c hc _ p2
  obtain ⟨lon, o1⟩ := he.lon c hc _ p3
  obtain ⟨prec, tmin, tmax, w1, w2, w3, seasonal, smoothed, range, w4, w5, w6, w7⟩ := C90_windows hi hw hfit hd hc.1 hx
  have hdays := C90_days hi hw hfit hd
  have hday : ∀ k < n, ld.days[k]? = some (i.start + k) := by
    intro k hk
    rw [hdays]; unfold simDays
    rw [List.getElem?_map, List.getElem?_range hk]; rfl
  have hser : ∀ v ∈ ["t_min", "t_max"], ∀ col, Dict.get? x.data.frame v = some col → ∀ k < n, ∃ r, col k = fin r ∧ -60 ≤ r ∧ r ≤ 60 := by
    intro v hv col hcol k hk
    have hv3 : v ∈ ["prec", "t_min", "t_max"] := List.mem_cons_of_mem _ hv
    refine he.temps c hc v hv k hk _ (C89_forcing hi hw hfit (hsrc.force.countable wf) hc.1 hx ?_ (hsrc.free v hv3)
      (hsrc.forceShape v hv3) hcol k _ (hday k hk))
    simp only [List.mem_cons, List.not_mem_nil, or_false] at hv
    rcases hv with rfl | rfl <;> simp [added]
  have hnamed : ∀ v ∈ ["prec", "t_min", "t_max"], Dict.get? x.data.frame v ≠ none := by
    intro v hv
    refine given_frame hi hw hfit hsrc.force ?_ (Or.inr (hsrc.named v hv).1) hx
    simp only [List.mem_cons, List.not_mem_nil, or_false] at hv
    rcases hv with rfl | rfl | rfl <;> simp [added]
  constructor
  · refine ⟨⟨elev, lat, lon, e1, l1, o1, l2, e2⟩, hp.lapse, ?_, ?_, ?_, ?_, ?_, hp.fraction, hp.lwType, hp.lwCloud, ?_⟩
    · intro k hk
      simp only [List.mem_cons, List.not_mem_nil, or_false] at hk
      rcases hk with rfl | rfl | rfl | rfl | rfl | rfl
      · exact hnamed _ (by simp)
      · exact hnamed _ (by simp)
      · rw [w6]; simp
      · rw [w5]; simp
      · exact hnamed _ (by simp)
      · rw [w4]; simp
    · intro hm
      exact given_frame hi hw hfit hsrc.force (by simp [added]) (he.radiation hm) hx
    · intro col hcol k hk
      obtain ⟨r, hr, -⟩ := hser "t_min" (by simp) col hcol k hk
      exact ⟨r, hr⟩
    · intro col hcol k hk
      obtain ⟨r, hr, -⟩ := hser "t_max" (by simp) col hcol k hk
      exact ⟨r, hr⟩
    · obtain ⟨-, a2, a3⟩ := w1 89 (by norm_num)
      have ed : i.start - 90 + ((89 : Nat) : Int) = i.start - 1 := by omega
      rw [ed] at a2 a3
      obtain ⟨a, ha⟩ := he.before c hc "t_min" (by simp) _ a2
      obtain ⟨b, hb⟩ := he.before c hc "t_max" (by simp) _ a3
      exact ⟨a, b, by rw [w3, ha, hb]⟩
    · intro hpt
      obtain ⟨met0, st, -, -, -, -, ⟨new, hnew, hmo, -⟩, -⟩ := load_reads hi hw hfit
      unfold Worker.cellIn at hx
      simp only [bind_ok] at hx
      obtain ⟨lat, q1, lon, q2, elev, q3, more, q4, hx⟩ := hx
      rw [pure_ok] at hx
      subst hx
      unfold Worker.monthlies at hmo
      rw [if_pos hpt] at hmo
      simp only [bind_ok, pure_ok] at hmo
      obtain ⟨f, hf, g, hg, e⟩ := hmo
      rw [← e] at q4
      simp only [bind_ok, pure_ok] at q4
      obtain ⟨r, hr, r', hr', rfl⟩ := q4
      constructor
      · show Dict.get? (Dict.set (Dict.set _ _ _) _ _) _ ≠ _
        rw [Dict.get?_set_self]; simp
      · show Dict.get? (Dict.set (Dict.set _ _ _) _ _) _ ≠ _
        rw [Dict.get?_set_ne _ _ (by simp), Dict.get?_set_self]; simp
  · refine ⟨?_, ?_, ?_⟩
    · intro col hcol k hk r hr
      obtain ⟨r', hr', h⟩ := hser "t_min" (by simp) col hcol k hk
      rw [hr] at hr'; injection hr' with e; subst e; exact h
    · intro col hcol k hk r hr
      obtain ⟨r', hr', h⟩ := hser "t_max" (by simp) col hcol k hk
      rw [hr] at hr'; injection hr' with e; subst e; exact h
    · intro col hcol k hk r hr
      rw [w6] at hcol
      obtain rfl := Option.some.inj hcol
      rw [(w7 k hk).2.2] at hr
      obtain ⟨-, t1, t2⟩ := w2 k hk
      obtain ⟨a, ha, ha1, ha2⟩ := he.temps c hc "t_min" (by simp) k hk _ t1
      obtain ⟨b, hb, hb1, hb2⟩ := he.temps c hc "t_max" (by simp) k hk _ t2
      rw [ha, hb] at hr
      injection hr with e
      linarith

end

/-- Outputs whose units are settled can be converted. -/
theorem update_convertible : ∀ {ov : Units.OutUnits} {attrs t us : Dict String String},
    Units.updateUnitAttrs attrs ov = .ok (t, us) → ∀ q ∈ us, Convertible q.1 q.2
  | [], attrs, t, us, h, q, hq => by
    obtain ⟨-, rfl⟩ := Prod.mk.inj (Except.ok.inj h)
    cases hq
  | (k, v) :: rest, attrs, t, us, h, q, hq => by
    unfold Units.updateUnitAttrs at h
    simp only [bind_ok] at h
    obtain ⟨⟨a, u⟩, h1, ⟨a', us'⟩, h2, e⟩ := h
    obtain ⟨-, rfl⟩ := Prod.mk.inj (Except.ok.inj e)
    rcases List.mem_cons.1 hq with rfl | hq
    · have hsup : Supported k u := by
        have hdef : ∀ {d}, Dict.get Units.availableUnits k = .ok d → Supported k d := by
          intro d hd
          rw [Dict.get_ok] at hd
          obtain ⟨t, d', f, g1, g2, g3⟩ := table_ok' k (Dict.mem_keys_of_get? _ hd)
          rw [show Units.importAttrs.get? k = some d from hd] at g2
          injection g2 with g2
          subst g2
          exact ⟨t, f, g1, g3⟩
        unfold Units.updateOne at h1
        cases v with
        | none =>
          simp only [bind_ok, pure_ok, Prod.mk.injEq] at h1
          obtain ⟨d, hd, -, rfl⟩ := h1
          exact hdef hd
        | some v =>
          simp only [bind_ok] at h1
          obtain ⟨table, ht, h1⟩ := h1
          rw [Dict.get_ok] at ht
          cases hf : table.get? v with
          | some f =>
            rw [hf] at h1
            simp only [bind_ok, pure_ok, Prod.mk.injEq] at h1
            obtain ⟨-, -, -, rfl⟩ := h1
            exact ⟨table, f, ht, hf⟩
          | none =>
            rw [hf] at h1
            simp only [bind_ok, pure_ok, Prod.mk.injEq] at h1
            obtain ⟨d, hd, -, rfl⟩ := h1
            exact hdef hd
      exact convert_iff.1 (C02_supported_converts (K := ℝ) k u hsup nan 0)
    · exact update_convertible h2 q hq

/-- A run over such files ends, whichever way it comes by them. -/
theorem ends_of {w : World} {p : Conf} {su : Setup} {i : Worker.Inputs} {n : Nat} {freq : Option Times.Freq}
    {os : List (String × String)} {order : List (Dict String Chunk.Slice)} {whole : DS ℝ} {mask : Arr ℝ} {sim : Nat → Except PyErr Nc.Dir}
    (hu : use w.cfg Units.importAttrs p = .ok su) (hi : Worker.Sound i) (hsources : Sources i (sharedOf w su) whole mask n)
    (hstep : StepOk (sharedOf w su).ts) (hrun : ∀ fuel, Outcome w p su i whole mask n freq os order fuel (sim fuel))
    (hv : Valid su) (hdir : w.isDir (w.cfg.abspath su.outDir) = true)
    (hcal : CfTime.named (sharedOf w su).calendar ≠ none) (hnames : (os.map Prod.snd ++ "time" :: mask.dims).Nodup) (hk : ∀ t ∈ ["i4", "i8", "f4", "f8"], w.known t = true)
    (hwr : ∀ q ∈ p, Writable w q) (he : Earthly i (sharedOf w su) whole mask n) (hs : SaneParams su.shared)
    (hlapse : 0 < su.shared.lapseRate) (hfrac : 0 < su.shared.tmaxFraction ∧ su.shared.tmaxFraction ≤ 1)
    (hwind : "wind" ∈ su.shared.outVars.keys → Provided i "wind") :
    ∃ fuel, ∀ k, ∃ dir, sim (fuel + k) = .ok dir := by
  have hsens : Sensible (sharedOf w su) := by
    obtain ⟨c1, c2, -⟩ := C23_accepted_implemented_partial
    exact ⟨⟨hs.tol, hs.coef, hs.rain⟩, hlapse, hfrac, c1 _ hv.lwType, c2 _ hv.lwCloud⟩
  obtain ⟨ld, hw, e1, e2, hfit, hd, hcell⟩ := C90_loads hi hsources
  obtain ⟨ld', hw', -, -, hin, hj, hsch, -⟩ := hrun 0
  obtain rfl : ld = ld' := Except.ok.inj (hw.symm.trans hw')
  have hact : ∀ c, (jobOfSetup w su i ld n freq os).Computed c → Active ld.dom ld.mask c := by
    rintro c ⟨hc, hm⟩
    refine ⟨?_, hm⟩
    have hc : c ∈ gridCells (maskDims ld.dom ld.mask.dims) := hc
    unfold gridCells maskDims at hc
    rw [List.map_map] at hc
    exact hc
  have hsrc : Sources i (sharedOf w su) ld.dom ld.mask n := by rw [e1, e2]; exact hsources
  have he' : Earthly i (sharedOf w su) ld.dom ld.mask n := by rw [e1, e2]; exact he
  have hx : ∀ c, (jobOfSetup w su i ld n freq os).Computed c → Worker.cellIn ld c = .ok (inputOf ld c) := by
    intro c hc
    exact hin c (by rw [← e1, ← e2]; exact (hact c hc).1)
  have key := fun c hc => earthly_cell hi hw hfit hd hsrc he' hsens (hact c hc) (hx c hc)
  obtain ⟨fuel, hf⟩ := C72_run (jobOfSetup w su i ld n freq os) hj order hsch ⟨hs.tol, hs.coef, hs.rain⟩ (fun c hc => (key c hc).1)
    (fun c hc => (key c hc).2)
  refine ⟨fuel, fun k => ?_⟩
  obtain ⟨ld'', hw'', -, -, -, -, -, hiff, -⟩ := hrun (fuel + k)
  obtain rfl : ld = ld'' := Except.ok.inj (hw.symm.trans hw'')
  rw [hiff]
  refine ⟨hv, hdir, (creatable_iff hj hv hk hwr).2 ⟨hcal, by rw [e2]; exact hnames⟩, ?_⟩
  rw [hf k]
  intro c hc q hq
  have hq' : q ∈ su.shared.outVars := hq
  obtain ⟨o, -, hu2, hu3⟩ := (use_iff.1 hu).outs
  refine ⟨?_, ?_⟩
  · have hkey : q.1 ∈ su.shared.outVars.keys := List.mem_map.2 ⟨q, hq', rfl⟩
    have hval := hv.outs q.1 (by rw [out_keys hu]; exact hkey)
    have hts : (sharedOf w su).ts = su.timeStep.toNat := (use_iff.1 hu).ts
    have hwf : q.1 = "wind" → Dict.get? (inputOf ld c).data.frame "wind" ≠ none := fun e =>
      given_frame hi hw hfit hsrc.force (by simp [added]) (hwind (e ▸ hkey)) (hx c hc)
    have hnamed : ∀ v ∈ ["prec", "t_min", "t_max"], Dict.get? (inputOf ld c).data.frame v ≠ none := by
      intro v hv
      refine given_frame hi hw hfit hsrc.force ?_ (Or.inr (hsrc.named v hv).1) (hx c hc)
      simp only [List.mem_cons, List.not_mem_nil, or_false] at hv
      rcases hv with rfl | rfl | rfl <;> simp [added]
    show Offers (sharedOf w su) (inputOf ld c).data.frame q.1
    unfold Offers
    rw [hts]
    have hpos := hstep.pos
    rw [hts] at hpos
    split_ifs at hval with h1
    · rw [h1, if_neg (by decide)]
      simp only [Validate.dailyOutVars, List.mem_cons, List.not_mem_nil, or_false] at hval
      rcases hval with e | e | e | e | e | e | e | e | e | e
      · right; rw [e]; exact hnamed _ (by simp)
      · right; rw [e]; exact hnamed _ (by simp)
      · left; simp [e]
      · right; rw [e]; exact hnamed _ (by simp)
      · left; simp [e]
      · left; simp [e]
      · left; simp [e]
      · left; simp [e]
      · right; rw [e]; exact hwf e
      · left; simp [e]
    · have hlt : su.timeStep.toNat < 1440 := by
        rcases hv.step.2 with h2 | h2
        · omega
        · exact absurd h2 h1
      rw [if_pos hlt]
      simp only [Validate.subdailyOutVars, List.mem_cons, List.not_mem_nil, or_false] at hval
      rcases hval with e | e | e | e | e | e | e | e | e | e
      all_goals first
        | (left; simp [e]; done)
        | exact Or.inr ⟨e, hwf e⟩
  · exact update_convertible hu2 q hq'

/-- **C96**: a run over complete files on earth, with parameters in their ranges, a configuration that passes `_validate_setup`, an output
directory, distinct names and parameters that can be recorded comes to its end with its files written: from some number of rounds of the
dewpoint iteration on the limit of the model is never met.  Wind can be written if it is given. -/
theorem C96_ends {w : World} {p : Conf} {su : Setup} {i : Worker.Inputs} {n : Nat} {freq : Option Times.Freq}
    {os : List (String × String)} {order : List (Dict String Chunk.Slice)} {whole : DS ℝ} {mask : Arr ℝ}
    (h : Ready w p su i whole mask n freq os order) (hv : Valid su) (hdir : w.isDir (w.cfg.abspath su.outDir) = true)
    (hcal : CfTime.named (sharedOf w su).calendar ≠ none) (hnames : (os.map Prod.snd ++ "time" :: mask.dims).Nodup) (hk : ∀ t ∈ ["i4", "i8", "f4", "f8"], w.known t = true)
    (hwr : ∀ q ∈ p, Writable w q) (he : Earthly i (sharedOf w su) whole mask n) (hs : SaneParams su.shared)
    (hlapse : 0 < su.shared.lapseRate) (hfrac : 0 < su.shared.tmaxFraction ∧ su.shared.tmaxFraction ≤ 1)
    (hwind : "wind" ∈ su.shared.outVars.keys → Provided i "wind") :
    ∃ fuel, ∀ k, ∃ dir, simulate w (fuel + k) p order = .ok dir :=
  ends_of h.use h.sound h.sources h.plan.step (fun fuel => C95_run h fuel) hv hdir hcal hnames hk hwr he hs hlapse hfrac hwind

/-- **C96**: a run of an INI file that leaves the parameters of the method at their defaults. -/
theorem C96_ini {w : World} {opts : Opts} {f : Ini.File} {d : IniDoc} {su : Setup} {i : Worker.Inputs} {whole : DS ℝ} {mask : Arr ℝ}
    {n : Nat} {freq : Option Times.Freq} {order ss : List (Dict String Chunk.Slice)} (hd : d.Of w.cfg f)
    (hs : fromIni w.cfg opts f = .ok su) (hn : Names w su i) (hi : Worker.Sound i) (hsrc : Sources i (sharedOf w su) whole mask n)
    (hfr : outFreq w su.outFreq = .ok freq)
    (hplan : Plan (sharedOf w su)
      ⟨freq, (w.cfg.abspath su.outDir).toList, su.outPrefix.toList, fun v => ((d.outVars.getD []).get? v).getD v⟩
      su.chunks (maskDims whole mask.dims) (i.start - 730120) n)
    (hsl : Chunk.slices su.chunks (maskDims whole mask.dims) = .ok ss) (ho : order.Perm ss)
    (hk : ∀ t ∈ ["i4", "i8", "f4", "f8"], w.known t = true) (hv : Valid su) (hdir : w.isDir (w.cfg.abspath su.outDir) = true)
    (hcal : CfTime.named (sharedOf w su).calendar ≠ none) (hnames : (su.shared.outVars.keys.map (fun v => ((d.outVars.getD []).get? v).getD v) ++ "time" :: mask.dims).Nodup)
    (he : Earthly i (sharedOf w su) whole mask n)
    (hdef : ∀ k ∈ ["tmax_daylength_fraction", "tday_coef", "rain_scalar", "lapse_rate", "tdew_tol"], d.main.get? k = none)
    (hwind : "wind" ∈ su.shared.outVars.keys → Provided i "wind") :
    ∃ fuel, ∀ k, ∃ dir, runIni w (fuel + k) opts f order = .ok dir := by
  obtain ⟨p, hp, hu, hwr, hrun⟩ := ini_params hd hs
  obtain ⟨os, hos, e, hnm⟩ := ini_outs hd hs
  have hready : Ready w p su i whole mask n freq os order := by
    refine ⟨hp, hu, hn, hi, hsrc, hfr, hos, ?_, ss, hsl, ho⟩
    have : outputOf w su freq os = ⟨freq, (w.cfg.abspath su.outDir).toList, su.outPrefix.toList, fun v => ((d.outVars.getD []).get? v).getD v⟩ := by
      rw [← hnm freq]; rfl
    rw [this]
    exact hplan
  obtain ⟨-, -, -, -, -, -, -, -, g1, g2, -, g4, g5, g6, -⟩ := C92_parameters hd hs
  rw [hdef _ (by simp)] at g1 g2 g4 g5 g6
  have g1 : su.shared.tmaxFraction = 0.67 := g1
  have g2 : su.shared.tdayCoef = 0.45 := g2
  have g4 : su.shared.rainScalar = 0.75 := g4
  have g5 : su.shared.lapseRate = 0.0065 := g5
  have g6 : su.shared.tdewTol = 1e-6 := g6
  have hmap : os.map Prod.snd = su.shared.outVars.keys.map (fun v => ((d.outVars.getD []).get? v).getD v) := by
    rw [e, List.map_map]; rfl
  simp only [hrun]
  exact C96_ends hready hv hdir hcal (by rw [hmap]; exact hnames) hk hwr he
    ⟨by rw [g6]; norm_num, by rw [g2]; norm_num, by rw [g4]; norm_num⟩ (by rw [g5]; norm_num) (by rw [g1]; norm_num) hwind

end Verif.Props
