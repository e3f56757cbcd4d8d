import Verif.Props.Steps
import Verif.Props.DayInStepsDisk

/-!
# Runs in steps of different length, from files to files: C160
-/

namespace Verif.Props

open Flt Physics Np Cell
open Disaggregate (nDisagg)

/-- `j'` is the same run in steps of `ts'` minutes: the same cells and days, parameters that differ at most in the time step, the variables
and the calendar. -/
structure FinerRunOf (j j' : Job) (ts' : ℕ) : Prop where
  shared : ∃ cal ov, j'.shared = { j.shared with ts := ts', calendar := cal, outVars := ov }
  n : j'.n = j.n
  inp : j'.inp = j.inp

section C160

variable (j j' : Job) (hj : j.Sane) (hj' : j'.Sane) (ts' q : ℕ) (hd : FinerRunOf j j' ts') (hq : j.shared.ts = q * ts') (fuel fuel' : Nat)
  (order order' : List (Dict String Chunk.Slice)) (ho : j.Schedule order) (ho' : j'.Schedule order')
  (files files' : Run.Files Output) (hrun : j.run fuel order = .ok files) (hrun' : j'.run fuel' order' = .ok files')
  (hsub : j.shared.ts < 1440) (c : Run.Cell) (hc : j.Computed c) (hc' : j'.Computed c)

include hj hj' hd hq ho ho' hrun hrun' hsub hc hc'

/-- **C160**: the temperature of a step is that of the last of the finer steps it is made of, whatever else the two runs write and in which
units. -/
theorem C160_temp {u u' : String} (hu : j.shared.outVars.get? "temp" = some u) (hu' : j'.shared.outVars.get? "temp" = some u') {k : Nat}
    (hk : k < j.n) {i : Nat} (hi : i < 1440 / j.shared.ts) (s : ℝ) :
    Reads j files c "temp" k i s ↔ Reads j' files' c "temp" k (q * (i + 1) - 1) s := by
  obtain ⟨cal, ov, hsh⟩ := hd.shared
  have hts' : j'.shared.ts = ts' := by rw [hsh]
  have h0 := hj.step.1
  have hq0 : 0 < q := Nat.pos_of_ne_zero (by rintro rfl; simp at hq; omega)
  have ht0 : 0 < ts' := Nat.pos_of_ne_zero (by rintro rfl; simp at hq; omega)
  have hday : 1440 / ts' = q * (1440 / j.shared.ts) := by
    obtain ⟨m, hm⟩ := hj.step.2
    rw [hm, Nat.mul_div_cancel_left m h0, hq, Nat.mul_right_comm, Nat.mul_div_cancel _ ht0]
  have hsub' : j'.shared.ts < 1440 := by rw [hts']; nlinarith
  obtain ⟨elev, lat, lon, h1, h2, h3, K, daily, t, hda, ld, hnd, hread⟩ := readout j hj ho hrun hsub hc
  obtain ⟨elev', lat', lon', h1', h2', h3', K', daily', t', hda', ld', hnd', hread'⟩ := readout j' hj' ho' hrun' hsub' hc'
  obtain ⟨col, a1, a2⟩ := hread "temp" u "C" .temperature hu (by decide) rfl (by simp)
  obtain ⟨col', b1, b2⟩ := hread' "temp" u' "C" .temperature hu' (by decide) rfl (by simp)
  rw [hd.inp] at h1' h2' h3'
  obtain rfl : elev = elev' := by rw [h1] at h1'; exact Flt.fin.inj h1'
  obtain rfl : lat = lat' := by rw [h2] at h2'; exact Flt.fin.inj h2'
  obtain rfl : lon = lon' := by rw [h3] at h3'; exact Flt.fin.inj h3'
  have hI : k * (1440 / j.shared.ts) + i < nDisagg daily.doy.length j.shared.ts := by rw [hnd]; exact (step_lt hj hk hi).1
  have key : t'.temp[q * (k * (1440 / j.shared.ts) + i + 1) - 1]? = t.temp[k * (1440 / j.shared.ts) + i]? := by
    clear b1 b2 hread' hnd' ld' col'
    have main : ∀ (d : Data) (_ : d = (j.inp c).data) (s' : Shared) (_ : s' = { j.shared with ts := ts', calendar := cal, outVars := ov })
        (K' : Common fuel' s' elev lat lon d) (daily' : Disaggregate.Daily)
        (t' : Trace daily' (s'.sub elev lon) K'.geom (some [d.stateEnd.1, d.stateEnd.2]) none)
        (_ : dailyOf d.days K'.base = .ok daily'),
        t'.temp[q * (k * (1440 / j.shared.ts) + i + 1) - 1]? = t.temp[k * (1440 / j.shared.ts) + i]? := by
      rintro d rfl s' rfl K' daily' t' hda'
      obtain ⟨g1, -, g3⟩ := common_unique K K' rfl rfl rfl
      obtain ⟨geom', rows', base', axis', p1, p2, p3, p4⟩ := K'
      simp only at g1 g3 t' hda'
      subst g1 g3
      obtain rfl := Except.ok.inj (hda.symm.trans hda')
      exact temp_last t t' hq hI
    exact main _ (by rw [hd.inp]) _ hsh K' daily' t' hda'
  rw [← Except.ok.inj a1, temp_fill] at a2
  rw [← Except.ok.inj b1, temp_fill] at b2
  have hpos : 0 < q * (i + 1) := by positivity
  have hi' : q * (i + 1) - 1 < 1440 / j'.shared.ts := by
    rw [hts', hday]
    have h1 : q * (i + 1) ≤ q * (1440 / j.shared.ts) := Nat.mul_le_mul_left _ hi
    omega
  have hidx : k * (1440 / j'.shared.ts) + (q * (i + 1) - 1) = q * (k * (1440 / j.shared.ts) + i + 1) - 1 := by
    rw [hts', hday]
    have e : q * (k * (1440 / j.shared.ts) + i + 1) = k * (q * (1440 / j.shared.ts)) + q * (i + 1) := by ring
    omega
  have a := a2 k hk i hi
  have b := b2 k (by rw [hd.n]; exact hk) _ hi'
  rw [hidx, List.getElem?_map] at b
  rw [List.getElem?_map] at a
  rw [key] at b
  constructor
  · intro hr
    obtain ⟨x, x1, x2⟩ := a.2 s hr
    exact b.1 x s x1 x2
  · intro hr
    obtain ⟨x, x1, x2⟩ := b.2 s hr
    exact a.1 x s x1 x2

end C160

section
open Dataset ConfigRead Main
variable {w w' : Main.World} {su su' : Setup} {i : Worker.Inputs} {n : Nat} {freq freq' : Option Times.Freq}
  {os os' : List (String × String)} {whole : DS ℝ} {mask : Arr ℝ} {dir dir' : Nc.Dir}

/-- **C160**: from files to files: what the run in longer steps leaves as the temperature of a step, the one in shorter steps leaves for the last
of the steps it is made of, and the other way round. -/
theorem C160_disk (h : Left w su i whole mask n freq os dir) (h' : Left w' su' i whole mask n freq' os' dir') {ts' q : ℕ}
    (hd : ∃ ov, sharedOf w' su' = { sharedOf w su with ts := ts', outVars := ov }) (hq : (sharedOf w su).ts = q * ts')
    (hsub : (sharedOf w su).ts < 1440) {c : Run.Cell} (hc : Active whole mask c) {u u' : String}
    (hu : (sharedOf w su).outVars.get? "temp" = some u) (hu' : (sharedOf w' su').outVars.get? "temp" = some u') {k : Nat} (hk : k < n)
    {m : Nat} (hm : m < 1440 / (sharedOf w su).ts) (s : ℝ) :
    Stands w su i.start n freq os dir c "temp" k m s ↔ Stands w' su' i.start n freq' os' dir' c "temp" k (q * (m + 1) - 1) s := by
  obtain ⟨order, fuel, ⟨e⟩, hi, hsrc⟩ := h.ended
  obtain ⟨order', fuel', ⟨e'⟩, -, hsrc'⟩ := h'.ended
  have hcomp := ((e.cell hi hsrc).2.2.2 c hc).1
  have hcomp' := ((e'.cell hi hsrc').2.2.2 c hc).1
  obtain ⟨ov, hsh⟩ := hd
  have hl : Worker.load i (sharedOf w' su') [] = Worker.load i (sharedOf w su) [] := by rw [hsh]; rfl
  have hld : e'.ld = e.ld := Except.ok.inj (e'.load.symm.trans (hl.trans e.load))
  have hf : FinerRunOf (jobOfSetup w su i e.ld n freq os) (jobOfSetup w' su' i e'.ld n freq' os') ts' :=
    ⟨⟨(sharedOf w su).calendar, ov, hsh⟩, rfl, by show inputOf e'.ld = inputOf e.ld; rw [hld]⟩
  have h0 : 0 < (sharedOf w su).ts := e.sane.step.1
  have hq0 : 0 < q := Nat.pos_of_ne_zero (by rintro rfl; simp at hq; omega)
  have ht0 : 0 < ts' := Nat.pos_of_ne_zero (by rintro rfl; simp at hq; omega)
  have hm' : q * (m + 1) - 1 < 1440 / (sharedOf w' su').ts := by
    rw [show (sharedOf w' su').ts = ts' by rw [hsh]]
    have hday : 1440 / ts' = q * (1440 / (sharedOf w su).ts) := by
      obtain ⟨r, hr⟩ : (sharedOf w su).ts ∣ 1440 := e.sane.step.2
      rw [hr, Nat.mul_div_cancel_left r h0, hq, Nat.mul_right_comm, Nat.mul_div_cancel _ ht0]
    rw [hday]
    have h1 : q * (m + 1) ≤ q * (1440 / (sharedOf w su).ts) := Nat.mul_le_mul_left _ hm
    have h2 : 0 < q * (m + 1) := by positivity
    omega
  rw [e.stands hcomp hk hm, e'.stands hcomp' hk hm']
  exact C160_temp _ _ e.sane e'.sane ts' q hf hq fuel fuel' order order' e.schedule e'.schedule e.files e'.files e.run e'.run hsub c hcomp
    hcomp' hu hu' hk hm s

end

/-- The run of C109 every four hours, with temperatures in kelvin only. -/
noncomputable def kelvins : Job :=
  { stepper.atStep 240 with shared := { (stepper.atStep 240).shared with outVars := [("temp", "K")] } }

theorem kelvins_sane : kelvins.Sane :=
  { stepper_fine with
    vars := by
      show (Dict.keys [("temp", "K")]).Nodup
      decide
    names := by
      show ((Dict.keys [("temp", "K")]).map id).Nodup
      decide }

/-- **C160**: there are such pairs of runs, that write different variables in different units. -/
example : stepper.Sane ∧ kelvins.Sane ∧ FinerRunOf stepper kelvins 240 ∧ stepper.shared.ts = 3 * 240 ∧ stepper.Computed [0, 0] ∧
    kelvins.Computed [0, 0] ∧ (∃ order files, stepper.Schedule order ∧ stepper.run 0 order = .ok files) ∧
    ∃ order files, kelvins.Schedule order ∧ kelvins.run 0 order = .ok files := by
  obtain ⟨files, hrun⟩ := (C71_run stepper stepper_sane 0 [[("lat", none), ("lon", none)]]
    ⟨_, rfl, List.Perm.refl _⟩ (fun c _ => { windy_complete c with }) (fun h => by cases h)).2
      (fun c _ q hq => ⟨stepper_offers c (by unfold stepper windy humid demo; decide) hq, stepper_vars q hq⟩)
  obtain ⟨files', hrun'⟩ := (C71_run kelvins kelvins_sane 0 [[("lat", none), ("lon", none)]]
    ⟨_, rfl, List.Perm.refl _⟩ (fun c _ => { windy_complete c with }) (fun h => by cases h)).2
      (fun c _ q hq => by
        obtain rfl : q = ("temp", "K") := List.mem_singleton.1 hq
        unfold Offers
        rw [if_pos (show kelvins.shared.ts < 1440 from by show 240 < 1440; norm_num)]
        exact ⟨Or.inl (by decide), _, _, rfl, rfl⟩)
  exact ⟨stepper_sane, kelvins_sane, ⟨⟨_, _, rfl⟩, rfl, rfl⟩, rfl, ⟨by unfold stepper windy humid demo; decide, 1, rfl, one_pos⟩,
    ⟨by unfold kelvins stepper windy humid demo Job.atStep; decide, 1, rfl, one_pos⟩, ⟨_, files, ⟨_, rfl, List.Perm.refl _⟩, hrun⟩,
    _, files', ⟨_, rfl, List.Perm.refl _⟩, hrun'⟩

end Verif.Props
