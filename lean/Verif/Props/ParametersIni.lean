import Verif.Props.ParametersDisk
import Verif.Props.UnknownOptions

/-!
# C139, from INI files
-/

namespace Verif.Props

open Dataset ConfigRead Main Flt Cell

/-- The entry of the section `MetSim` that holds a parameter. -/
def Knob.key : Knob → String
  | .precType => "prec_type"
  | .lwType => "lw_type"
  | .lwCloud => "lw_cloud"
  | .thetaS => "theta_s"
  | .tmaxFraction => "tmax_daylength_fraction"
  | .tdayCoef => "tday_coef"
  | .swPrecThresh => "sw_prec_thresh"
  | .rainScalar => "rain_scalar"
  | .lapseRate => "lapse_rate"
  | .tdewTol => "tdew_tol"
  | .swAveraging => "sw_averaging"

/-- Two INI files that say the same except for these entries. -/
structure SaidBut (free : List Knob) (d d' : IniDoc) : Prop where
  main : ∀ k ∈ iniKeys, k ∉ free.map Knob.key → d.main.get? k = d'.main.get? k
  forcingVars : d.forcingVars = d'.forcingVars
  domainVars : d.domainVars = d'.domainVars
  stateVars : d.stateVars = d'.stateVars
  chunks : d.chunks = d'.chunks
  constants : d.constants = d'.constants
  outVars : d.outVars = d'.outVars

theorem knob_keys {free : List Knob} {k : String} (h : k ∈ free.map Knob.key) : k ∈
    ["sw_averaging", "prec_type", "lw_type", "lw_cloud", "theta_s", "tmax_daylength_fraction", "tday_coef", "sw_prec_thresh", "rain_scalar",
      "lapse_rate", "tdew_tol"] := by
  obtain ⟨q, -, rfl⟩ := List.mem_map.1 h
  cases q <;> decide

theorem readIni_but {free : List Knob} {env : Env} {f f' : Ini.File} {d d' : IniDoc} (hd : d.Of env f) (hd' : d'.Of env f')
    (h : SaidBut free d d') (opts opts' : Opts) {conf conf' : Conf} {avail avail' : Dict String String}
    (hr : readIni env opts Params.importNames f = .ok (conf, avail)) (hr' : readIni env opts' Params.importNames f' = .ok (conf', avail')) :
    avail = avail' ∧
      ∀ k ∈ readKeys, k ∉ free.map Knob.key → ((classParams avail).update conf).get? k = ((classParams avail').update conf').get? k := by
  have hfix : ∀ k ∈ iniKeys, k ∉ ["sw_averaging", "prec_type", "lw_type", "lw_cloud", "theta_s", "tmax_daylength_fraction", "tday_coef",
      "sw_prec_thresh", "rain_scalar", "lapse_rate", "tdew_tol"] → d.main.get? k = d'.main.get? k :=
    fun k hk hn => h.main k hk fun hm => hn (knob_keys hm)
  have hl : listed d'.main = listed d.main := by unfold listed; rw [hfix "out_vars" (by decide) (by decide)]
  unfold readIni at hr hr'
  simp only [bind_ok, pure_ok, hd.main, hd.forcingVars, hd.domainVars, hd.stateVars, hd.chunks, hd.constants, hd.outVars,
    Except.ok.injEq, Dict.get_ok] at hr
  simp only [bind_ok, pure_ok, hd'.main, hd'.forcingVars, hd'.domainVars, hd'.stateVars, hd'.chunks, hd'.constants, hd'.outVars,
    Except.ok.injEq, Dict.get_ok] at hr'
  obtain ⟨_, rfl, _, rfl, fmt, h1, _, rfl, _, rfl, _, rfl, _, rfl, fo, h2, od, h3, list, h4, _, rfl, ⟨av, vars⟩, h5, h6⟩ := hr
  obtain ⟨_, rfl, _, rfl, fmt', g1, _, rfl, _, rfl, _, rfl, _, rfl, fo', g2, od', g3, list', g4, _, rfl, ⟨av', vars'⟩, g5, g6⟩ := hr'
  obtain ⟨rfl, rfl⟩ := Prod.mk.inj h6
  obtain ⟨rfl, rfl⟩ := Prod.mk.inj g6
  rw [← hfix _ (by decide) (by decide)] at g1 g2 g3
  rw [hl, h4] at g4
  obtain rfl := Except.ok.inj g4
  obtain rfl := Option.some.inj (h1.symm.trans g1)
  obtain rfl := Option.some.inj (h2.symm.trans g2)
  obtain rfl := Option.some.inj (h3.symm.trans g3)
  clear h6 g6
  rw [← h.outVars, h5] at g5
  obtain ⟨rfl, rfl⟩ := Prod.mk.inj (Except.ok.inj g5)
  refine ⟨rfl, fun k hk hn => ?_⟩
  rw [Dict.get?_update _ _ (iniConf_nodup hd.mainKeys), Dict.get?_update _ _ (iniConf_nodup hd'.mainKeys),
    iniConf_get hd.mainKeys, iniConf_get hd'.mainKeys]
  have e2 := hfix "calendar" (by decide) (by decide)
  have e3 := hfix "period_ending" (by decide) (by decide)
  have e4 := hfix "utc_offset" (by decide) (by decide)
  have n1 : "verbose" ≠ k := by rintro rfl; revert hk; decide
  have n2 : "num_workers" ≠ k := by rintro rfl; revert hk; decide
  have n3 : "scheduler" ≠ k := by rintro rfl; revert hk; decide
  rw [e2, e3, e4]
  simp only [if_neg n1, if_neg n2, if_neg n3, ← h.forcingVars, ← h.domainVars, ← h.stateVars, ← h.chunks, ← h.constants]
  rcases iniKeys_read hk with hm | hm
  · have e := h.main k hm hn
    by_cases hp : "prec_type" = k
    · subst hp
      rw [e]
    · rw [if_neg hp, if_neg hp, e]
  · have c1 := hd.apart
    have c2 := hd'.apart
    simp only [List.mem_cons, List.not_mem_nil, or_false] at hm
    rcases hm with rfl | rfl | rfl | rfl | rfl
    · simp
    · simp
    · simp
    · simp
    · simp [c1, c2]

/-- **C139**: INI files that differ in some of these parameters only mean runs that differ in no other of them, and in nothing else. -/
theorem C139_ini {free : List Knob} {env : Env} {f f' : Ini.File} {d d' : IniDoc} (hd : d.Of env f) (hd' : d'.Of env f')
    (h : SaidBut free d d') (opts opts' : Opts) {s s' : Setup} (hs : fromIni env opts f = .ok s) (hs' : fromIni env opts' f' = .ok s') :
    SameRun s.shared s'.shared ∧ (∀ k : Knob, k ∉ free → k.Same s.shared s'.shared) ∧ s' = { s with shared := s'.shared } := by
  unfold fromIni at hs hs'
  rw [bind_ok] at hs hs'
  obtain ⟨⟨conf, avail⟩, h1, h2⟩ := hs
  obtain ⟨⟨conf', avail'⟩, h1', h2'⟩ := hs'
  obtain ⟨rfl, hag⟩ := readIni_but hd hd' h opts opts' h1 h1'
  have a := use_iff.1 h2
  have b := use_iff.1 h2'
  generalize (classParams avail).update conf = p at a hag
  generalize (classParams avail).update conf' = q at b hag
  have hget : ∀ k ∈ readKeys, k ∉ ["sw_averaging", "prec_type", "lw_type", "lw_cloud", "theta_s", "tmax_daylength_fraction", "tday_coef",
      "sw_prec_thresh", "rain_scalar", "lapse_rate", "tdew_tol"] → p.get? k = q.get? k :=
    fun k hk hn => hag k hk fun hm => hn (knob_keys hm)
  have one' : ∀ k, p.get? k = q.get? k → one p k = one q k := fun k e => by unfold one; rw [e]
  have text' : ∀ k, p.get? k = q.get? k → text p k = text q k := fun k e => by unfold text; rw [one' k e]
  have opt' : ∀ k, p.get? k = q.get? k → optText p k = optText q k := fun k e => by unfold optText; rw [e]
  have int' : ∀ k, p.get? k = q.get? k → ConfigRead.int p k = ConfigRead.int q k := fun k e => by unfold ConfigRead.int; rw [one' k e]
  have float' : ∀ k, p.get? k = q.get? k → float env p k = float env q k := fun k e => by unfold float; rw [one' k e]
  have switch' : ∀ k, p.get? k = q.get? k → switch p k = switch q k := fun k e => by unfold switch; rw [one' k e]
  have names' : ∀ k, p.get? k = q.get? k → names p k = names q k := fun k e => by unfold names; rw [e]
  have get' : ∀ k, p.get? k = q.get? k → p.get k = q.get k := fun k e => by unfold Dict.get; rw [e]
  have inj : ∀ {α : Type} {x y : Except PyErr α} {u v : α}, x = y → x = .ok u → y = .ok v → u = v :=
    fun e hu hv => Except.ok.inj (hu.symm.trans (e.trans hv))
  have hutc : s.shared.utcOffset = s'.shared.utcOffset := inj (switch' _ (hget _ (by decide) (by decide))) a.utcOffset b.utcOffset
  have hts : s.timeStep = s'.timeStep := inj (int' _ (hget _ (by decide) (by decide))) a.timeStep b.timeStep
  obtain ⟨o, o1, o2, o3⟩ := a.outs
  obtain ⟨o', p1, p2, p3⟩ := b.outs
  obtain rfl : o = o' := inj (by unfold outsOf; rw [hget _ (by decide) (by decide)]) o1 p1
  have hout := Prod.mk.inj (Except.ok.inj (o2.symm.trans p2))
  refine ⟨⟨?_, ?_, ?_, ?_, hutc, hout.2⟩, ?_, ?_⟩
  · obtain ⟨m, m1, m2⟩ := a.method
    obtain ⟨m', l1, l2⟩ := b.method
    obtain rfl : m = m' := inj (text' _ (hget _ (by decide) (by decide))) m1 l1
    exact Except.ok.inj (m2.symm.trans l2)
  · rw [a.ts, b.ts, hts]
  · exact inj (text' _ (hget _ (by decide) (by decide))) a.calendar b.calendar
  · exact inj (switch' _ (hget _ (by decide) (by decide))) a.periodEnding b.periodEnding
  · intro k hk
    have e : p.get? k.key = q.get? k.key := by
      refine hag _ (by cases k <;> decide) fun hm => hk ?_
      obtain ⟨l, hl, he⟩ := List.mem_map.1 hm
      have : l = k := by revert he; cases l <;> cases k <;> decide
      exact this ▸ hl
    cases k
    · exact inj (text' _ e) a.precType b.precType
    · exact inj (text' _ e) a.lwType b.lwType
    · exact inj (text' _ e) a.lwCloud b.lwCloud
    · intro _
      exact inj (by unfold thetaOf; rw [show p.get? "theta_s" = q.get? "theta_s" from e, hutc]) a.thetaS b.thetaS
    · exact inj (float' _ e) a.tmaxFraction b.tmaxFraction
    · exact inj (float' _ e) a.tdayCoef b.tdayCoef
    · exact inj (float' _ e) a.swPrecThresh b.swPrecThresh
    · exact inj (float' _ e) a.rainScalar b.rainScalar
    · exact inj (float' _ e) a.lapseRate b.lapseRate
    · exact inj (float' _ e) a.tdewTol b.tdewTol
    · exact inj (opt' _ e) a.swAveraging b.swAveraging
  · have g1 := inj (get' _ (hget _ (by decide) (by decide))) a.forcing b.forcing
    have g2 := inj (text' _ (hget _ (by decide) (by decide))) a.forcingFmt b.forcingFmt
    have g3 := inj (text' _ (hget _ (by decide) (by decide))) a.domain b.domain
    have g4 := inj (text' _ (hget _ (by decide) (by decide))) a.state b.state
    have g5 := inj (text' _ (hget _ (by decide) (by decide))) a.outDir b.outDir
    have g6 := inj (text' _ (hget _ (by decide) (by decide))) a.outPrefix b.outPrefix
    have g7 := inj (text' _ (hget _ (by decide) (by decide))) a.outPrecision b.outPrecision
    have g8 := inj (one' _ (hget _ (by decide) (by decide))) a.outFreq b.outFreq
    have g9 := inj (one' _ (hget _ (by decide) (by decide))) a.start b.start
    have g10 := inj (one' _ (hget _ (by decide) (by decide))) a.stop b.stop
    have g11 := inj (names' _ (hget _ (by decide) (by decide))) a.forcingVars b.forcingVars
    have g12 := inj (names' _ (hget _ (by decide) (by decide))) a.domainVars b.domainVars
    have g13 := inj (names' _ (hget _ (by decide) (by decide))) a.stateVars b.stateVars
    have g14 : s.chunks = s'.chunks := inj (by unfold chunksOf; rw [hget _ (by decide) (by decide)]) a.chunks b.chunks
    have g15 : s.constants = s'.constants := inj (by unfold constantsOf; rw [hget _ (by decide) (by decide)]) a.constants b.constants
    have g16 := o3.trans p3.symm
    have g17 := hout.1
    cases s
    cases s'
    simp only at hts g1 g2 g3 g4 g5 g6 g7 g8 g9 g10 g11 g12 g13 g14 g15 g16 g17
    subst hts g1 g2 g3 g4 g5 g6 g7 g8 g9 g10 g11 g12 g13 g14 g15 g16 g17
    rfl

/-- **C139**: two INI files that differ in some of these parameters only, over the same inputs: an output into which none of them enters has
the same values in both runs. -/
theorem C139_runs {free : List Knob} {w : World} {f f' : Ini.File} {d d' : IniDoc} (hd : d.Of w.cfg f) (hd' : d'.Of w.cfg f')
    (h : SaidBut free d d') (opts opts' : Opts) {su su' : Setup} (hs : fromIni w.cfg opts f = .ok su)
    (hs' : fromIni w.cfg opts' f' = .ok su') {i : Worker.Inputs} {n : Nat} {freq freq' : Option Times.Freq}
    {os os' : List (String × String)} {whole : DS ℝ} {mask : Arr ℝ} {dir dir' : Nc.Dir}
    (hl : Left w su i whole mask n freq os dir) (hl' : Left w su' i whole mask n freq' os' dir') {c : Run.Cell} (hc : Active whole mask c)
    {v : String} (hv : v ∈ su.shared.outVars.keys)
    (hk : ∀ k ∈ (if su.shared.ts < 1440 then knobs else dailyKnobs) su.shared.method v, k ∉ free) {a : Nat} (ha : a < n) :
    SameOnDisk w w su su' i i n n freq freq' os os' dir dir' c c v a := by
  obtain ⟨e, hsame, -⟩ := C139_ini hd hd' h opts opts' hs hs'
  have e' : SameRun (sharedOf w su) (sharedOf w su') :=
    ⟨e.method, e.ts, by show w.encoding.getD _ = w.encoding.getD _; rw [e.calendar], e.ending, e.utc, e.vars⟩
  refine C139_disk hl hl' e' hc hv (fun k hm => ?_) ha
  have := hsame k (hk k hm)
  cases k <;> exact this

/-! ### An example -/

/-- The file of the example, with another way to read clouds. -/
def recloud : Ini.File := ⟨[("MetSim".toList, (MainExample.main.set "lw_cloud" "default").map fun q => (q.1.toList, q.2.toList)),
  ("chunks".toList, MainExample.doc.chunks.map fun q => (q.1.toList, q.2.toList)),
  ("forcing_vars".toList, MainExample.vars.map fun q => (q.1.toList, q.2.toList)),
  ("domain_vars".toList, MainExample.doc.domainVars.map fun q => (q.1.toList, q.2.toList)),
  ("state_vars".toList, MainExample.vars.map fun q => (q.1.toList, q.2.toList)),
  ("constant_vars".toList, [("wind".toList, "3".toList)])]⟩

noncomputable def cloudSetup : Setup :=
  { MainExample.setup with shared := { MainExample.setup.shared with lwCloud := "default" } }

theorem recloud_used : fromIni MainExample.env MainExample.opts recloud = .ok cloudSetup := by
  unfold fromIni
  rw [bind_ok]
  refine ⟨(iniConf MainExample.env MainExample.opts (MainExample.main.set "lw_cloud" "default") (Config.invertDict MainExample.vars)
    MainExample.doc.domainVars MainExample.vars MainExample.doc.chunks
    MainExample.doc.constants "forcing.nc" "out" (outSpecs Params.importNames ["temp", "prec"]), Params.importNames), by decide +kernel, ?_⟩
  have h := use_iff.1 MainExample.used
  refine use_iff.2 { h with
    lwCloud := by decide +kernel }

/-- Two files that differ in `lw_cloud`, both read. -/
example : SaidBut [.lwCloud] MainExample.doc { MainExample.doc with main := MainExample.doc.main.set "lw_cloud" "default" } ∧
    MainExample.setup.shared.lwCloud ≠ cloudSetup.shared.lwCloud ∧ SameRun MainExample.setup.shared cloudSetup.shared ∧
    ∀ k : Knob, k ≠ .lwCloud → k.Same MainExample.setup.shared cloudSetup.shared := by
  have hd : IniDoc.Of MainExample.env recloud { MainExample.doc with main := MainExample.doc.main.set "lw_cloud" "default" } := by
    constructor <;> first | rfl | decide +kernel
  have hb : SaidBut [.lwCloud] MainExample.doc { MainExample.doc with main := MainExample.doc.main.set "lw_cloud" "default" } :=
    ⟨fun k _ hn => by
      have e : "lw_cloud" ≠ k := by rintro rfl; exact hn (by decide)
      exact (Dict.get?_set_ne _ _ e).symm, rfl, rfl, rfl, rfl, rfl, rfl⟩
  obtain ⟨h1, h2, -⟩ := C139_ini MainExample.doc_of hd hb MainExample.opts MainExample.opts MainExample.from_ini recloud_used
  exact ⟨hb, by decide, h1, fun k hk => h2 k (by simpa using hk)⟩

end Verif.Props
