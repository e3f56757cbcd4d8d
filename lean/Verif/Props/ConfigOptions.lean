import Verif.Props.ConfigYaml

/-!
# C92, C93: options of the command line, numbers of a YAML file
-/

namespace Verif.Props

open ConfigRead

/-- **C92: the options of the command line reach the parameters** whatever the file says about them: DEBUG (10) with `-v`, INFO (20)
without. -/
theorem C92_options {env : Env} {opts : Opts} {f : Ini.File} {d : IniDoc} (hd : d.Of env f) {conf : Conf} {avail : Dict String String}
    (h : readIni env opts Params.importNames f = .ok (conf, avail)) :
    conf.get? "verbose" = some (.one (.int (if opts.verbose = true then 10 else 20))) ∧
      conf.get? "scheduler" = some (.one (.str opts.scheduler)) ∧ conf.get? "num_workers" = some (.one (.int opts.numWorkers)) := by
  unfold readIni at h
  simp only [bind_ok, hd.main] at h
  obtain ⟨a1, e1, a2, -, a3, -, a4, -, a5, -, a6, -, a7, -, a8, -, a9, -, a10, -, a11, -, a12, -, e⟩ := h
  obtain rfl := Except.ok.inj e1
  rw [pure_ok] at e
  obtain ⟨rfl, -⟩ := Prod.mk.inj e
  simp [iniConf_get hd.mainKeys, level]

/-- **C93: the same from a YAML file.** -/
theorem C93_options {env : Env} {opts : Opts} {y : Yaml} {main : Dict String Scalar} (hm : y.main = .dict main) (hk : main.keys.Nodup)
    {conf : Conf} (h : readYaml env opts y = .ok conf) :
    conf.get? "verbose" = some (.one (.int (if opts.verbose = true then 10 else 20))) ∧
      conf.get? "scheduler" = some (.one (.str opts.scheduler)) ∧ conf.get? "num_workers" = some (.one (.int opts.numWorkers)) := by
  unfold readYaml at h
  simp only [bind_ok, hm] at h
  obtain ⟨a1, e1, a2, -, a3, -, a4, -, a5, -, a6, -, a7, -, a8, -, a9, -, a10, -, a11, -, a12, -, e⟩ := h
  obtain rfl := Except.ok.inj e1
  rw [pure_ok] at e
  subst e
  simp [yamlConf_get hk, level]

/-- **C93: numbers.**  A step with decimals is cut to a whole number of minutes, towards zero; `theta_s` is the number written. -/
theorem C93_numbers {env : Env} {opts : Opts} {y : Yaml} {s : Setup} {main : Dict String Scalar}
    (hm : y.main = .dict main) (hk : main.keys.Nodup) (h : fromYaml env opts y = .ok s) :
    (∀ q : ℚ, main.get? "time_step" = some (.num q) → |(s.timeStep : ℚ)| ≤ |q| ∧ |q| < |(s.timeStep : ℚ)| + 1 ∧ 0 ≤ q * s.timeStep) ∧
    (∀ q : ℚ, main.get? "theta_s" = some (.num q) → s.shared.thetaS = q) ∧
    (∀ n : Int, main.get? "theta_s" = some (.int n) → s.shared.thetaS = n) ∧
    (main.get? "theta_s" = none → s.shared.thetaS = 0) := by
  obtain ⟨main', fv', dv, sv, ov, outs, ch, cv, fo, od, h1, -, -, -, -, -, -, -, -, -, u⟩ := fromYaml_ok h
  rw [hm] at h1
  cases h1
  have ht := u.thetaS
  unfold thetaOf at ht
  rw [yaml_plain hk (by decide)] at ht
  refine ⟨fun q hq => ?_, fun q hq => ?_, fun n hq => ?_, fun hq => ?_⟩
  · have := u.timeStep
    unfold ConfigRead.int one at this
    rw [yaml_plain hk (by decide), hq] at this
    have this : (if 0 ≤ q then ⌊q⌋ else ⌈q⌉) = s.timeStep := Except.ok.inj this
    rw [← this]
    split_ifs with h0
    · have h2 : (0 : ℚ) ≤ (⌊q⌋ : ℚ) := by exact_mod_cast Int.floor_nonneg.2 h0
      rw [abs_of_nonneg h0, abs_of_nonneg h2]
      exact ⟨Int.floor_le q, Int.lt_floor_add_one q, mul_nonneg h0 h2⟩
    · have h0 : q ≤ 0 := le_of_not_ge h0
      have h2 : (⌈q⌉ : ℚ) ≤ 0 := by exact_mod_cast Int.ceil_le.2 (by simpa using h0)
      rw [abs_of_nonpos h0, abs_of_nonpos h2]
      have h3 := Int.le_ceil q
      have h4 := Int.ceil_lt_add_one q
      exact ⟨by linarith, by linarith, mul_nonneg_of_nonpos_of_nonpos h0 h2⟩
  · rw [hq] at ht
    exact (Except.ok.inj ht).symm
  · rw [hq] at ht
    exact (Except.ok.inj ht).symm
  · rw [hq] at ht
    exact (Except.ok.inj ht).symm

end Verif.Props
