import Verif.Props.CliRun
import Verif.Props.MainEnds
import Verif.Props.MainDocs

/-!
# C136: options a run does not know

What is not read has no influence on the files, apart from being recorded in their global attributes.
-/

namespace Verif.Props

open Dataset Txt ConfigRead Main Flt

/-- The parameters a run reads. -/
def readKeys : List String :=
  ["method", "time_step", "calendar", "period_ending", "utc_offset", "sw_averaging", "prec_type", "lw_type", "lw_cloud", "theta_s",
   "tmax_daylength_fraction", "tday_coef", "sw_prec_thresh", "rain_scalar", "lapse_rate", "tdew_tol", "out_vars", "forcing", "forcing_fmt",
   "domain", "state", "out_dir", "out_prefix", "out_precision", "out_freq", "start", "stop", "forcing_vars", "domain_vars", "state_vars",
   "chunks", "constant_vars"]

theorem sameUse_of_read {env : Env} {p q : Conf} (h : ∀ k ∈ readKeys, p.get? k = q.get? k) : SameUse env p q := by
  have one' : ∀ k ∈ readKeys, one p k = one q k := fun k hk => by unfold one; rw [h k hk]
  have text' : ∀ k ∈ readKeys, text p k = text q k := fun k hk => by unfold text; rw [one' k hk]
  have opt' : ∀ k ∈ readKeys, optText p k = optText q k := fun k hk => by unfold optText; rw [h k hk]
  have int' : ∀ k ∈ readKeys, ConfigRead.int p k = ConfigRead.int q k := fun k hk => by unfold ConfigRead.int; rw [one' k hk]
  have switch' : ∀ k ∈ readKeys, switch p k = switch q k := fun k hk => by unfold switch; rw [one' k hk]
  have names' : ∀ k ∈ readKeys, names p k = names q k := fun k hk => by unfold names; rw [h k hk]
  refine ⟨text' _ (by decide), int' _ (by decide), text' _ (by decide), switch' _ (by decide), switch' _ (by decide), opt' _ (by decide),
    text' _ (by decide), text' _ (by decide), text' _ (by decide), ?_, ?_, ?_, ?_, text' _ (by decide), text' _ (by decide),
    text' _ (by decide), text' _ (by decide), text' _ (by decide), text' _ (by decide), one' _ (by decide), one' _ (by decide),
    one' _ (by decide), names' _ (by decide), names' _ (by decide), names' _ (by decide), ?_, ?_⟩
  · intro u; unfold thetaOf; rw [h _ (by decide)]
  · intro k hk
    have : k ∈ readKeys := by
      revert hk k
      decide
    unfold float
    rw [one' k this]
  · unfold outsOf; rw [h _ (by decide)]
  · unfold Dict.get; rw [h _ (by decide)]
  · unfold chunksOf; rw [h _ (by decide)]
  · unfold constantsOf; rw [h _ (by decide)]

/-- **C136**: dictionaries that agree on what a run reads mean the same to it, or are refused in the same way. -/
theorem C136_setup (env : Env) (attrs : Dict String String) {p q : Conf} (h : ∀ k ∈ readKeys, p.get? k = q.get? k) :
    use env attrs p = use env attrs q := use_congr (sameUse_of_read h)

/-! ### Files -/

/-- The same but for the global attributes. -/
structure FileLike (f f' : Nc.File) : Prop where
  dims : f.dims = f'.dims
  vars : f.vars = f'.vars

/-- The same files, each the same but for its global attributes. -/
def DirLike (dir dir' : Nc.Dir) : Prop := ∀ n, Option.Rel FileLike (dir n) (dir' n)

theorem foldlM_lift {α β γ : Type} (R : α → β → Prop) {fa : α → γ → Except PyErr α} {fb : β → γ → Except PyErr β} {l : List γ}
    (h : ∀ x ∈ l, ∀ a b a', R a b → fa a x = .ok a' → ∃ b', fb b x = .ok b' ∧ R a' b') {a a' : α} {b : β} (hab : R a b)
    (ha : l.foldlM fa a = .ok a') : ∃ b', l.foldlM fb b = .ok b' ∧ R a' b' := by
  induction l generalizing a b with
  | nil =>
    obtain rfl := pure_ok.1 ha
    exact ⟨b, rfl, hab⟩
  | cons x l ih =>
    rw [List.foldlM_cons, bind_ok] at ha
    obtain ⟨a1, h1, h2⟩ := ha
    obtain ⟨b1, e1, r1⟩ := h x List.mem_cons_self a b a1 hab h1
    obtain ⟨b', e2, r2⟩ := ih (fun y hy => h y (List.mem_cons_of_mem _ hy)) r1 h2
    exact ⟨b', by rw [List.foldlM_cons, e1]; exact e2, r2⟩

theorem modify_like {f f' r : Nc.File} (h : FileLike f f') {n : String} {g : Nc.Var → Nc.Var} (hr : f.modify n g = .ok r) :
    ∃ r', f'.modify n g = .ok r' ∧ FileLike r r' := by
  unfold Nc.File.modify at hr ⊢
  rw [bind_ok] at hr
  obtain ⟨v, h1, h2⟩ := hr
  obtain rfl := pure_ok.1 h2
  rw [h.vars] at h1
  refine ⟨{ f' with vars := f'.vars.set n (g v) }, by rw [h1]; rfl, h.dims, ?_⟩
  show f.vars.set n (g v) = f'.vars.set n (g v)
  rw [h.vars]

/-- The tables of the module, but for the global attributes. -/
structure TableLike (t t' : Nc.Table) : Prop where
  rest : ∀ k, k ≠ "_global" → t.get? k = t'.get? k
  global : ∃ g, t'.get? "_global" = some g

theorem setup_like {known : String → Bool} {c c' : Nc.Cfg} {t t' : Nc.Table} {times : List Int} {f : Nc.File} {tab : Nc.Table}
    (hc : c' = { c with params := c'.params }) (ht : TableLike t t') (ho : ∀ o ∈ c.outs, o.1 ≠ "_global")
    (hg : ∀ g, ∃ g', Nc.globals c'.params g = .ok g') (h : Nc.setup known c t times = .ok (f, tab)) :
    ∃ f' tab', Nc.setup known c' t' times = .ok (f', tab') ∧ FileLike f f' ∧ TableLike tab tab' := by
  generalize c'.params = ps at hc hg
  subst hc
  unfold Nc.setup at h
  simp only [bind_ok, pure_ok] at h
  obtain ⟨f1, h1, f2, h2, f3, h3, ta, h4, nums, h5, f4, h6, f5, h7, g, h8, g1, h9, f6, h10, f7, h11, e⟩ := h
  obtain ⟨rfl, rfl⟩ := Prod.mk.inj e
  obtain ⟨g', hg'⟩ := ht.global
  obtain ⟨g1', hg1'⟩ := hg g'
  have like : FileLike { f5 with attrs := f5.attrs.update g1 } { f5 with attrs := f5.attrs.update g1' } := ⟨rfl, rfl⟩
  obtain ⟨f6', k1, r1⟩ := modify_like like h10
  have hdesc : ∃ f7', Nc.describe { c with params := ps } t' f6' = .ok f7' ∧ FileLike f7 f7' := by
    unfold Nc.describe at h11 ⊢
    refine foldlM_lift FileLike ?_ r1 h11
    intro o hm a b a' hab ha
    rw [ht.rest _ (ho o hm)] at ha
    exact modify_like hab ha
  obtain ⟨f7', k2, r2⟩ := hdesc
  refine ⟨f7', t'.set "_global" g1', ?_, r2, ?_, ?_⟩
  · unfold Nc.setup
    have h4' : t'.get "time" = .ok ta := by
      rw [Dict.get_ok, ← ht.rest _ (by decide), ← Dict.get_ok]; exact h4
    have h8' : t'.get "_global" = .ok g' := Dict.get_ok.2 hg'
    have h2' : Nc.makeOuts known { c with params := ps } times f1 = .ok f2 := h2
    have h7' : Nc.makeLabels known { c with params := ps } f4 = .ok f5 := h7
    simp only [bind_ok, pure_ok]
    exact ⟨f1, h1, f2, h2', f3, h3, ta, h4', nums, h5, f4, h6, f5, h7', g', h8', g1', hg1', f6', k1, f7', k2, rfl⟩
  · intro k hk
    rw [Dict.get?_set_ne _ _ (Ne.symm hk), Dict.get?_set_ne _ _ (Ne.symm hk)]
    exact ht.rest k hk
  · exact ⟨g1', Dict.get?_set_self _ _ _⟩

theorem create_like {known : String → Bool} {c c' : Nc.Cfg} {t t' : Nc.Table} {groups : Nc.Groups} {dir : Nc.Dir} {tab : Nc.Table}
    (hc : c' = { c with params := c'.params }) (ht : TableLike t t') (ho : ∀ o ∈ c.outs, o.1 ≠ "_global")
    (hg : ∀ g, ∃ g', Nc.globals c'.params g = .ok g') (h : Nc.create known c t groups = .ok (dir, tab)) :
    ∃ dir' tab', Nc.create known c' t' groups = .ok (dir', tab') ∧ DirLike dir dir' := by
  unfold Nc.create at h ⊢
  obtain ⟨⟨dir', tab'⟩, h1, h2⟩ := foldlM_lift (fun (a b : Nc.Dir × Nc.Table) => DirLike a.1 b.1 ∧ TableLike a.2 b.2)
    (fb := fun (r : Nc.Dir × Nc.Table) g => do
      let (f, tab) ← Nc.setup known c' r.2 (g.2.map fun t => ⌊t⌋)
      pure (fun n => if n = g.1 then some f else r.1 n, tab)) (b := (fun _ => none, t')) (by
    intro x _ a b a' hab ha
    rw [bind_ok] at ha
    obtain ⟨⟨f, tb⟩, e1, e2⟩ := ha
    obtain rfl := pure_ok.1 e2
    obtain ⟨f', tb', k1, k2, k3⟩ := setup_like hc hab.2 ho hg e1
    refine ⟨(fun n => if n = x.1 then some f' else b.1 n, tb'), by rw [k1]; rfl, fun n => ?_, k3⟩
    show Option.Rel FileLike (if n = x.1 then some f else a.1 n) (if n = x.1 then some f' else b.1 n)
    split_ifs
    · exact Option.Rel.some k2
    · exact hab.1 n) ⟨fun n => Option.Rel.none, ht⟩ h
  exact ⟨dir', tab', h1, h2.1⟩

theorem writeBlocks_like {outs : List (String × String)} {slice : Dict String Chunk.Slice} {n : Nat}
    {block : String → Nat → Run.Cell → Nc.Datum} {f f' r : Nc.File} (h : FileLike f f') (hr : Nc.writeBlocks outs slice n block f = .ok r) :
    ∃ r', Nc.writeBlocks outs slice n block f' = .ok r' ∧ FileLike r r' := by
  unfold Nc.writeBlocks at hr ⊢
  refine foldlM_lift FileLike ?_ h hr
  intro o _ a b a' hab ha
  simp only [hab.dims, hab.vars, bind_ok] at ha
  obtain ⟨v, h1, ax, h2, h3⟩ := ha
  obtain ⟨b', k1, k2⟩ := modify_like hab h3
  exact ⟨b', by simp only [bind_ok]; exact ⟨v, h1, ax, h2, k1⟩, k2⟩

theorem writeChunk_like {outs : List (String × String)} {axis : List ℚ} {groups : Nc.Groups} {slice : Dict String Chunk.Slice}
    {out : Run.Cell → Option Cell.Output} {dir dir' r : Nc.Dir} (h : DirLike dir dir')
    (hr : Nc.writeChunk outs axis groups slice out dir = .ok r) :
    ∃ r', Nc.writeChunk outs axis groups slice out dir' = .ok r' ∧ DirLike r r' := by
  unfold Nc.writeChunk at hr ⊢
  by_cases ho : outs = []
  · rw [if_pos ho] at hr ⊢
    obtain rfl := Except.ok.inj hr
    exact ⟨dir', rfl, h⟩
  · rw [if_neg ho] at hr ⊢
    refine foldlM_lift DirLike ?_ h hr
    intro x _ a b a' hab ha
    have hx := hab x.1
    cases hax : a x.1 with
    | none => rw [hax] at ha; cases ha
    | some f =>
      rw [hax] at ha hx
      cases hbx : b x.1 with
      | none => rw [hbx] at hx; cases hx
      | some f' =>
        rw [hbx] at hx
        have hff : FileLike f f' := by cases hx; assumption
        simp only [bind_ok] at ha
        obtain ⟨r1, e1, e2⟩ := ha
        obtain rfl := pure_ok.1 e2
        obtain ⟨r1', k1, k2⟩ := writeBlocks_like hff e1
        refine ⟨fun n => if n = x.1 then some r1' else b n, by simp only [k1]; rfl, fun n => ?_⟩
        show Option.Rel FileLike (if n = x.1 then some r1 else a n) (if n = x.1 then some r1' else b n)
        split_ifs
        · exact Option.Rel.some k2
        · exact hab n

theorem files_alike {w : World} {p q : Conf} {fuel : Nat} {order : List (Dict String Chunk.Slice)} {dir : Nc.Dir}
    (h : use w.cfg Units.importAttrs p = use w.cfg Units.importAttrs q) (hq : q.keys.Nodup) (hwr : ∀ e ∈ q, Writable w e)
    (hdir : simulate w fuel p order = .ok dir) : ∃ dir', simulate w fuel q order = .ok dir' ∧ DirLike dir dir' := by
  unfold simulate at hdir
  rw [h] at hdir
  simp only [bind_ok] at hdir
  obtain ⟨su, h1, pa, h2, freq, h3, ⟨axis, groups⟩, h4, u, h5, os, h6, mask, h7, hdir⟩ := hdir
  by_cases hd : w.isDir (w.cfg.abspath su.outDir) = false
  · rw [if_pos hd] at hdir
    obtain ⟨-, hx, -⟩ := hdir
  rw [if_neg hd] at hdir
  simp only [bind_ok] at hdir
  obtain ⟨⟨d0, tb⟩, h8, h9⟩ := hdir
  have hout : ∀ o ∈ os, o.1 ≠ "_global" := by
    intro o ho e
    have hk : o.1 ∈ os.map Prod.fst := List.mem_map_of_mem ho
    rw [outs_keys h6, out_keys h1, e] at hk
    obtain ⟨r, hr, er⟩ := List.mem_map.1 hk
    obtain ⟨_, -, hup, -⟩ := (use_iff.1 h1).outs
    obtain ⟨t, f, hc, -⟩ := update_convertible hup r hr
    rw [er] at hc
    cases hc
  have hglob : ∀ g, ∃ g', Nc.globals (fileCfg w q su pa mask os).params g = .ok g' := fun g =>
    (globals_iff _ g (recorded_keys hq pa)).1.2 (recorded_writable hwr)
  have htab : TableLike (table w su) (table w su) := ⟨fun _ _ => rfl, _, rfl⟩
  obtain ⟨d0', tb', k1, k2⟩ := create_like (c' := fileCfg w q su pa mask os) rfl htab hout hglob h8
  have hrun : ∃ dir', order.foldlM (worker w fuel su pa freq os) d0' = .ok dir' ∧ DirLike dir dir' := by
    refine foldlM_lift DirLike ?_ k2 h9
    intro x _ a b a' hab ha
    unfold worker at ha ⊢
    simp only [bind_ok] at ha
    obtain ⟨i, e1, ld, e2, ⟨ax, gr⟩, e3, u', e4, out, e5, e6⟩ := ha
    obtain ⟨b', k3, k4⟩ := writeChunk_like hab e6
    refine ⟨b', ?_, k4⟩
    simp only [bind_ok]
    exact ⟨i, e1, ld, e2, (ax, gr), e3, u', e4, out, e5, k3⟩
  obtain ⟨dir', k3, k4⟩ := hrun
  refine ⟨dir', ?_, k4⟩
  unfold simulate
  simp only [bind_ok]
  refine ⟨su, h1, pa, h2, freq, h3, (axis, groups), h4, u, h5, os, h6, mask, h7, ?_⟩
  rw [if_neg hd]
  simp only [bind_ok]
  exact ⟨(d0', tb'), k1, k3⟩

/-- **C136**: parameters that agree on what a run reads: if a run of the one ends and the values of the other can be recorded, a run of the other
ends as well, with the same files of the same dimensions, variables and values; only the global attributes may differ. -/
theorem C136_files {w : World} {p q : Conf} {fuel : Nat} {order : List (Dict String Chunk.Slice)} {dir : Nc.Dir}
    (h : ∀ k ∈ readKeys, p.get? k = q.get? k) (hq : q.keys.Nodup) (hwr : ∀ e ∈ q, Writable w e)
    (hdir : simulate w fuel p order = .ok dir) : ∃ dir', simulate w fuel q order = .ok dir' ∧ DirLike dir dir' :=
  files_alike (C136_setup w.cfg Units.importAttrs h) hq hwr hdir

/-! ### Configuration files -/

/-- The keys of the section `MetSim` of an INI file that are read (the other sections have their own names). -/
def iniKeys : List String :=
  ["method", "time_step", "calendar", "period_ending", "utc_offset", "sw_averaging", "prec_type", "lw_type", "lw_cloud", "theta_s",
   "tmax_daylength_fraction", "tday_coef", "sw_prec_thresh", "rain_scalar", "lapse_rate", "tdew_tol", "out_vars", "forcing", "forcing_fmt",
   "domain", "state", "out_dir", "out_prefix", "out_precision", "out_freq", "start", "stop"]

/-- Two INI files that say the same where a run reads them. -/
structure SaidAlike (d d' : IniDoc) : Prop where
  main : ∀ k ∈ iniKeys, d.main.get? k = d'.main.get? k
  forcingVars : d.forcingVars = d'.forcingVars
  domainVars : d.domainVars = d'.domainVars
  stateVars : d.stateVars = d'.stateVars
  chunks : d.chunks = d'.chunks
  constants : d.constants = d'.constants
  outVars : d.outVars = d'.outVars

theorem iniKeys_read {k : String} (hk : k ∈ readKeys) : k ∈ iniKeys ∨ k ∈ ["forcing_vars", "domain_vars", "state_vars", "chunks", "constant_vars"] := by
  revert k
  decide

theorem readIni_alike {env : Env} {f f' : Ini.File} {d d' : IniDoc} (hd : d.Of env f) (hd' : d'.Of env f') (h : SaidAlike d d')
    (opts opts' : Opts) {conf : Conf} {avail : Dict String String} (hr : readIni env opts Params.importNames f = .ok (conf, avail)) :
    ∃ conf', readIni env opts' Params.importNames f' = .ok (conf', avail) ∧ conf.keys.Nodup ∧ conf'.keys.Nodup ∧
      (∀ w : World, w.cfg = env → ∀ e ∈ conf', Writable w e) ∧
      ∀ k ∈ readKeys, ((classParams avail).update conf).get? k = ((classParams avail).update conf').get? k := by
  have hl : listed d'.main = listed d.main := by unfold listed; rw [h.main "out_vars" (by decide)]
  unfold readIni at hr ⊢
  simp only [bind_ok, pure_ok, hd.main, hd.forcingVars, hd.domainVars, hd.stateVars, hd.chunks, hd.constants, hd.outVars,
    Except.ok.injEq, Dict.get_ok] at hr
  obtain ⟨_, rfl, _, rfl, fmt, h1, _, rfl, _, rfl, _, rfl, _, rfl, fo, h2, od, h3, list, h4, _, rfl, ⟨av, vars⟩, h5, h6⟩ := hr
  obtain ⟨rfl, rfl⟩ := Prod.mk.inj h6
  refine ⟨iniConf env opts' d'.main (if fmt ≠ "binary" then Config.invertDict d.forcingVars else d.forcingVars) d.domainVars d.stateVars d.chunks
    d.constants fo od (outSpecs av vars), ?_, iniConf_nodup hd.mainKeys, iniConf_nodup hd'.mainKeys, ?_, ?_⟩
  · simp only [bind_ok, pure_ok, hd'.main, hd'.forcingVars, hd'.domainVars, hd'.stateVars, hd'.chunks, hd'.constants, hd'.outVars,
      Except.ok.injEq, Dict.get_ok]
    rw [h.main _ (by decide)] at h1 h2 h3
    clear h6
    rw [h.outVars] at h5
    exact ⟨_, rfl, _, rfl, fmt, h1, _, rfl, _, rfl, _, rfl, _, rfl, fo, h2, od, h3, list, hl.trans h4, _, rfl, (av, vars), h5, by
      rw [h.forcingVars, h.domainVars, h.stateVars, h.chunks, h.constants]⟩
  · rintro w rfl e he
    exact iniConf_writable e he
  · intro k hk
    rw [Dict.get?_update _ _ (iniConf_nodup hd.mainKeys), Dict.get?_update _ _ (iniConf_nodup hd'.mainKeys),
      iniConf_get hd.mainKeys, iniConf_get hd'.mainKeys]
    have e1 := h.main "prec_type" (by decide)
    have e2 := h.main "calendar" (by decide)
    have e3 := h.main "period_ending" (by decide)
    have e4 := h.main "utc_offset" (by decide)
    have n1 : "verbose" ≠ k := by rintro rfl; revert hk; decide
    have n2 : "num_workers" ≠ k := by rintro rfl; revert hk; decide
    have n3 : "scheduler" ≠ k := by rintro rfl; revert hk; decide
    rw [e1, e2, e3, e4]
    simp only [if_neg n1, if_neg n2, if_neg n3]
    rcases iniKeys_read hk with hm | hm
    · rw [h.main k hm]
    · have c1 := hd.apart
      have c2 := hd'.apart
      simp only [List.mem_cons, List.not_mem_nil, or_false] at hm
      rcases hm with rfl | rfl | rfl | rfl | rfl
      · simp
      · simp
      · simp
      · simp
      · rw [c1, c2]

/-- **C136**: an INI file with other entries where nothing is read means the same. -/
theorem C136_ini {env : Env} {f f' : Ini.File} {d d' : IniDoc} (hd : d.Of env f) (hd' : d'.Of env f') (h : SaidAlike d d')
    (opts opts' : Opts) {s : Setup} (hs : fromIni env opts f = .ok s) : fromIni env opts' f' = .ok s := by
  unfold fromIni at hs ⊢
  rw [bind_ok] at hs ⊢
  obtain ⟨⟨conf, avail⟩, h1, h2⟩ := hs
  obtain ⟨conf', k1, -, -, -, k2⟩ := readIni_alike hd hd' h opts opts' h1
  refine ⟨(conf', avail), k1, ?_⟩
  rw [← h2]
  exact (C136_setup _ _ k2).symm

/-- **C136**: a run of an INI file that ends still ends, with the same files, dimensions, variables and values, if entries nothing reads are
added, changed or dropped. -/
theorem C136_run {w : World} {f f' : Ini.File} {d d' : IniDoc} (hd : d.Of w.cfg f) (hd' : d'.Of w.cfg f') (h : SaidAlike d d')
    (opts opts' : Opts) {fuel : Nat} {order : List (Dict String Chunk.Slice)} {dir : Nc.Dir} (hdir : runIni w fuel opts f order = .ok dir) :
    ∃ dir', runIni w fuel opts' f' order = .ok dir' ∧ DirLike dir dir' := by
  unfold runIni at hdir ⊢
  rw [bind_ok] at hdir
  obtain ⟨⟨conf, avail⟩, h1, h2⟩ := hdir
  obtain ⟨conf', k1, -, n', hw, k2⟩ := readIni_alike hd hd' h opts opts' h1
  have hnd : ((classParams avail).update conf').keys.Nodup := Dict.nodup_update _ _ (by
    unfold classParams Dict.keys; simp only [List.map_cons, List.map_nil]; decide)
  have hwr : ∀ e ∈ (classParams avail).update conf', Writable w e := by
    intro e he
    rcases mem_update he with he | he
    · exact hw w rfl e he
    · exact class_writable w avail e he
  obtain ⟨dir', k3, k4⟩ := C136_files k2 hnd hwr h2
  exact ⟨dir', by rw [bind_ok]; exact ⟨(conf', avail), k1, k3⟩, k4⟩

/-- **C136**: the documented `time_grouper`, which is said to split the output, is such an entry: whatever it says, with or without it, the
run makes the same files. -/
theorem C136_time_grouper {w : World} {f f' : Ini.File} {d : IniDoc} {t : String} (hd : d.Of w.cfg f)
    (hd' : IniDoc.Of w.cfg f' { d with main := d.main.set "time_grouper" t }) (opts opts' : Opts) {fuel : Nat}
    {order : List (Dict String Chunk.Slice)} :
    (∀ dir, runIni w fuel opts f order = .ok dir → ∃ dir', runIni w fuel opts' f' order = .ok dir' ∧ DirLike dir dir') ∧
    ∀ dir, runIni w fuel opts' f' order = .ok dir → ∃ dir', runIni w fuel opts f order = .ok dir' ∧ DirLike dir dir' := by
  have key : ∀ k ∈ iniKeys, Dict.get? (d.main.set "time_grouper" t) k = d.main.get? k := by
    intro k hk
    refine Dict.get?_set_ne _ _ ?_
    rintro rfl
    revert hk
    decide
  exact ⟨fun dir h => C136_run hd hd' ⟨fun k hk => (key k hk).symm, rfl, rfl, rfl, rfl, rfl, rfl⟩ opts opts' h,
    fun dir h => C136_run hd' hd ⟨key, rfl, rfl, rfl, rfl, rfl, rfl⟩ opts' opts h⟩

/-! ### YAML files -/

theorem readYaml_alike {env : Env} {y : Yaml} {main main' : Dict String Scalar} (hm : main.keys.Nodup) (hm' : main'.keys.Nodup)
    (h : ∀ k ∈ readKeys, main.get? k = main'.get? k) (opts opts' : Opts) {conf : Conf}
    (hr : readYaml env opts { y with main := .dict main } = .ok conf) :
    ∃ conf', readYaml env opts' { y with main := .dict main' } = .ok conf' ∧
      ∀ k ∈ readKeys, ((classParams Params.importNames).update conf).get? k = ((classParams Params.importNames).update conf').get? k := by
  unfold readYaml at hr ⊢
  simp only [bind_ok, pure_ok, Dict.get_ok] at hr
  obtain ⟨_, e, fv, h2, dv, h3, sv, h4, ov, h5, outs, h6, ch, h7, cv, h8, fo, h9, fo', h10, od, h11, od', h12, rfl⟩ := hr
  obtain rfl := Except.ok.inj e
  rw [h _ (by decide)] at h9 h11
  refine ⟨yamlConf env opts' main' fv dv sv ch cv fo' od' outs, ?_, ?_⟩
  · simp only [bind_ok, pure_ok, Dict.get_ok]
    exact ⟨main', rfl, fv, h2, dv, h3, sv, h4, ov, h5, outs, h6, ch, h7, cv, h8, fo, h9, fo', h10, od, h11, od', h12, rfl⟩
  · intro k hk
    rw [Dict.get?_update _ _ (yamlConf_nodup hm), Dict.get?_update _ _ (yamlConf_nodup hm'), yamlConf_get hm, yamlConf_get hm']
    have n1 : "verbose" ≠ k := by rintro rfl; revert hk; decide
    have n2 : "num_workers" ≠ k := by rintro rfl; revert hk; decide
    have n3 : "scheduler" ≠ k := by rintro rfl; revert hk; decide
    simp only [if_neg n1, if_neg n2, if_neg n3]
    rw [h "calendar" (by decide), h k hk]

/-- **C136**: the same for YAML files, whose other entries may be of any type as far as what is computed goes. -/
theorem C136_yaml {env : Env} {y : Yaml} {main main' : Dict String Scalar} (hm : main.keys.Nodup) (hm' : main'.keys.Nodup)
    (h : ∀ k ∈ readKeys, main.get? k = main'.get? k) (opts opts' : Opts) {s : Setup}
    (hs : fromYaml env opts { y with main := .dict main } = .ok s) : fromYaml env opts' { y with main := .dict main' } = .ok s := by
  unfold fromYaml at hs ⊢
  rw [bind_ok] at hs ⊢
  obtain ⟨conf, h1, h2⟩ := hs
  obtain ⟨conf', k1, k2⟩ := readYaml_alike hm hm' h opts opts' h1
  exact ⟨conf', k1, by rw [← h2]; exact (C136_setup _ _ k2).symm⟩

/-- **C136**: a run of a YAML file, with other entries nothing reads.  Texts and numbers change nothing but the attributes of the files; a
`true`, `false`, `null` or date cannot be recorded (C95). -/
theorem C136_run_yaml {w : World} {y : Yaml} {main main' : Dict String Scalar} (hm : main.keys.Nodup) (hm' : main'.keys.Nodup)
    (h : ∀ k ∈ readKeys, main.get? k = main'.get? k)
    (hv : ∀ q ∈ main', Textual q.1 ∨ (q.2 ≠ .null ∧ (∀ b, q.2 ≠ .bool b) ∧ ∀ d, q.2 ≠ .date d)) (opts opts' : Opts) {fuel : Nat}
    {order : List (Dict String Chunk.Slice)} {dir : Nc.Dir} (hdir : runYaml w fuel opts { y with main := .dict main } order = .ok dir) :
    ∃ dir', runYaml w fuel opts' { y with main := .dict main' } order = .ok dir' ∧ DirLike dir dir' := by
  unfold runYaml at hdir
  rw [bind_ok] at hdir
  obtain ⟨conf, h1, h2⟩ := hdir
  obtain ⟨conf', k1, k2⟩ := readYaml_alike hm hm' h opts opts' h1
  have hs : ∃ su, use w.cfg Units.importAttrs ((classParams Params.importNames).update conf') = .ok su := by
    rw [← C136_setup w.cfg Units.importAttrs k2]
    unfold simulate at h2
    rw [bind_ok] at h2
    obtain ⟨su, e, -⟩ := h2
    exact ⟨su, e⟩
  obtain ⟨su, hs⟩ := hs
  have hfrom : fromYaml w.cfg opts' { y with main := .dict main' } = .ok su := by
    unfold fromYaml
    rw [k1]
    exact hs
  have hwr : ∀ q ∈ (classParams Params.importNames).update conf', Writable w q :=
    yaml_writable k1 (by
      intro m hm2
      have : main' = m := ConfigRead.Part.dict.inj hm2
      subst this
      exact hv)
  have hnd : ((classParams Params.importNames).update conf').keys.Nodup := Dict.nodup_update _ _ (by
    unfold classParams Dict.keys; simp only [List.map_cons, List.map_nil]; decide)
  obtain ⟨dir', k3, k4⟩ := C136_files k2 hnd hwr h2
  refine ⟨dir', ?_, k4⟩
  unfold runYaml
  rw [k1]
  exact k3

/-- The file of the example, asking for pieces of ten years as well. -/
def grouped : Ini.File := ⟨[("MetSim".toList, (MainExample.main.set "time_grouper" "10AS").map fun q => (q.1.toList, q.2.toList)),
  ("chunks".toList, MainExample.doc.chunks.map fun q => (q.1.toList, q.2.toList)),
  ("forcing_vars".toList, MainExample.vars.map fun q => (q.1.toList, q.2.toList)),
  ("domain_vars".toList, MainExample.doc.domainVars.map fun q => (q.1.toList, q.2.toList)),
  ("state_vars".toList, MainExample.vars.map fun q => (q.1.toList, q.2.toList)),
  ("constant_vars".toList, [("wind".toList, "3".toList)])]⟩

/-- The run of the example ends in the same way. -/
example : ∃ fuel dir dir',
    runIni (MainExample.world fun _ => true) fuel MainExample.opts MainExample.ini MainExample.chunks.reverse = .ok dir ∧
      runIni (MainExample.world fun _ => true) fuel MainExample.opts grouped MainExample.chunks.reverse = .ok dir' ∧ DirLike dir dir' := by
  have hd : IniDoc.Of MainExample.env grouped { MainExample.doc with main := MainExample.doc.main.set "time_grouper" "10AS" } := by
    constructor <;> first | rfl | decide +kernel
  obtain ⟨fuel, h⟩ := MainExample.runs_ini (fun _ => true) rfl
  obtain ⟨dir, h⟩ := h 0
  obtain ⟨dir', h1, h2⟩ := (C136_time_grouper MainExample.doc_of hd MainExample.opts MainExample.opts).1 dir h
  exact ⟨_, dir, dir', h, h1, h2⟩

/-- The relation tells files apart: other variables, other file names. -/
example (f : Nc.File) : ¬ DirLike (fun n => if n = "a" then some f else none) fun n => if n = "b" then some f else none := by
  intro h
  have h1 : Option.Rel FileLike (if "a" = "a" then some f else none) (if "a" = "b" then some f else none) := h "a"
  rw [if_pos rfl, if_neg (by decide)] at h1
  cases h1

end Verif.Props
