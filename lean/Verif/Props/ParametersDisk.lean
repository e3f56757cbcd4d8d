import Verif.Props.FilesLocal
import Verif.Props.Parameters

/-!
# C139, from the configuration to the files
-/

namespace Verif.Props

open Dataset ConfigRead Main Flt Cell

theorem foldl_set_keeps {more : List (String × List (Flt ℝ))} {f : Methods.Frame} {k : String} (h : k ∉ more.map Prod.fst) :
    Dict.get? (more.foldl (fun f q => Dict.set f q.1 (Cell.colOf q.2)) f) k = Dict.get? f k := by
  induction more generalizing f with
  | nil => rfl
  | cons q l ih =>
    simp only [List.map_cons, List.mem_cons, not_or] at h
    rw [List.foldl_cons, ih h.2, Dict.get?_set, if_neg (Ne.symm h.1)]

/-- What runs with other parameters load. -/
theorem load_alike {i : Worker.Inputs} {s s' : Shared} {ld ld' : Worker.Loads} (hs : s.calendar = s'.calendar)
    (h : Worker.load i s [] = .ok ld) (h' : Worker.load i s' [] = .ok ld') :
    (s.precType = s'.precType → ld = ld') ∧ ∀ c x x', Worker.cellIn ld c = .ok x → Worker.cellIn ld' c = .ok x' → SameInput x x' := by
  constructor
  · intro e
    unfold Worker.load at h h'
    rw [← hs, ← e] at h'
    exact Except.ok.inj (h.symm.trans h')
  · intro c x x' hx hx'
    unfold Worker.load at h h'
    rw [← hs] at h'
    simp only [bind_ok, pure_ok] at h h'
    obtain ⟨dom, a1, met, a2, met2, a3, u, a4, st, a5, mask, a6, rec, a7, old, a8, new, a9, agg, a10, ex, a11, rfl⟩ := h
    obtain ⟨dom', b1, met', b2, met2', b3, u', b4, st', b5, mask', b6, rec', b7, old', b8, new', b9, agg', b10, ex', b11, rfl⟩ := h'
    obtain rfl := Except.ok.inj (a1.symm.trans b1)
    obtain rfl := Except.ok.inj (a2.symm.trans b2)
    obtain rfl := Except.ok.inj (a3.symm.trans b3)
    obtain rfl := Except.ok.inj (a5.symm.trans b5)
    obtain rfl := Except.ok.inj (a6.symm.trans b6)
    obtain rfl := Except.ok.inj (a7.symm.trans b7)
    obtain rfl := Except.ok.inj (a8.symm.trans b8)
    obtain rfl := Except.ok.inj (a9.symm.trans b9)
    obtain rfl := Except.ok.inj (a10.symm.trans b10)
    unfold Worker.cellIn at hx hx'
    simp only [bind_ok, pure_ok] at hx hx'
    obtain ⟨lat, c1, lon, c2, elev, c3, more, c4, rfl⟩ := hx
    obtain ⟨lat', d1, lon', d2, elev', d3, more', d4, rfl⟩ := hx'
    obtain rfl := Except.ok.inj (c1.symm.trans d1)
    obtain rfl := Except.ok.inj (c2.symm.trans d2)
    obtain rfl := Except.ok.inj (c3.symm.trans d3)
    refine ⟨rfl, rfl, rfl, rfl, rfl, fun k hk => ?_⟩
    show Dict.get? (List.foldl _ _ more) k = Dict.get? (List.foldl _ _ more') k
    rw [foldl_set_keeps fun h => hk (by simpa [or_comm] using monthlies_keys a11 c4 k h), foldl_set_keeps fun h => hk (by simpa [or_comm] using monthlies_keys b11 d4 k h)]

section
variable {w w' : World} {su su' : Setup} {i : Worker.Inputs} {n : Nat} {freq freq' : Option Times.Freq}
  {os os' : List (String × String)} {whole : DS ℝ} {mask : Arr ℝ} {dir dir' : Nc.Dir}

/-- **C139**: two runs over the same inputs, with configurations that agree in what enters `v`, leave the same values of it for every day, cell
and step. -/
theorem C139_disk (h : Left w su i whole mask n freq os dir) (h' : Left w' su' i whole mask n freq' os' dir')
    (hs : SameRun (sharedOf w su) (sharedOf w' su')) {c : Run.Cell} (hc : Active whole mask c) {v : String}
    (hv : v ∈ (sharedOf w su).outVars.keys)
    (hk : ∀ k ∈ (if (sharedOf w su).ts < 1440 then knobs else dailyKnobs) (sharedOf w su).method v, k.Same (sharedOf w su) (sharedOf w' su'))
    {a : Nat} (ha : a < n) : SameOnDisk w w' su su' i i n n freq freq' os os' dir dir' c c v a := by
  obtain ⟨order, fuel, ⟨e⟩, hi, hsrc⟩ := h.ended
  obtain ⟨order', fuel', ⟨e'⟩, hi', hsrc'⟩ := h'.ended
  obtain ⟨-, -, -, hcell⟩ := e.cell hi hsrc
  obtain ⟨-, -, -, hcell'⟩ := e'.cell hi' hsrc'
  obtain ⟨hcomp, -, hx, -⟩ := hcell c hc
  obtain ⟨hcomp', -, hx', -⟩ := hcell' c hc
  obtain ⟨u, hu⟩ := Option.isSome_iff_exists.1 ((Dict.isSome_iff _ _).2 hv)
  obtain ⟨hload, hin⟩ := load_alike hs.calendar e.load e'.load
  have hin := hin c _ _ hx hx'
  have hv' : v ∈ (sharedOf w' su').outVars.keys := by rw [← hs.vars]; exact hv
  have hrec : ∀ {j : Job} (hj : j.Sane) {fuel : Nat} {order : List (Dict String Chunk.Slice)} (ho : j.Schedule order) {files : Run.Files Output}
      (hrun : j.run fuel order = .ok files) (hc : j.Computed c) (hv : v ∈ j.shared.outVars.keys), ∃ val, Recorded j files v c val := by
    intro j hj fuel order ho files hrun hc hv
    obtain ⟨st, h1, h2, -⟩ := (C70_files j hj fuel order ho).2 files hrun
    obtain ⟨r, -, -, h3⟩ := h2 c hc
    obtain ⟨val, -, h4⟩ := h3 v hv
    exact ⟨val, st, h1, h4⟩
  obtain ⟨val, hval⟩ := hrec e.sane e.schedule e.run hcomp hv
  obtain ⟨val', hval'⟩ := hrec e'.sane e'.schedule e'.run hcomp' hv'
  intro m hm
  have key : val ((jobOfSetup w su i e.ld n freq os).stamp a m) = val' ((jobOfSetup w su i e.ld n freq os).stamp a m) := by
    by_cases hts : (sharedOf w su).ts < 1440
    · rw [if_pos hts] at hk
      refine C139_parameters _ _ e.sane e'.sane hs rfl rfl fuel fuel' order order' e.schedule e'.schedule e.files e'.files e.run e'.run hts c c
        hcomp hcomp' v u hin ?_ hu hk val val' hval hval' a m ha hm
      rintro rfl k -
      have := hload (hk .precType (by simp [knobs]))
      show Dict.get? (inputOf e.ld c).data.frame k = Dict.get? (inputOf e'.ld c).data.frame k
      rw [this]
    · rw [if_neg hts] at hk
      have hle : (sharedOf w su).ts ≤ 1440 := Nat.le_of_dvd (by decide) e.sane.step.2
      have hday : (sharedOf w su).ts = 1440 := by omega
      obtain rfl : m = 0 := by rw [hday] at hm; omega
      exact C139_daily _ _ e.sane e'.sane hs rfl rfl fuel fuel' order order' e.schedule e'.schedule e.files e'.files e.run e'.run hday c c
        hcomp hcomp' v u hin hu hk val val' hval hval' a ha
  refine ⟨_, e.disk v hv c val hval a ha m hm, ?_⟩
  have := e'.disk v hv' c val' hval' a ha m (by rw [← hs.ts]; exact hm)
  rw [← stamp_same (j := jobOfSetup w su i e.ld n freq os) (j' := jobOfSetup w' su' i e'.ld n freq' os') hs rfl, ← key] at this
  have em : minute (sharedOf w' su') i.start a m = minute (sharedOf w su) i.start a m := by
    unfold minute
    rw [hs.ts, hs.ending]
  rw [em] at this
  exact this

end

end Verif.Props
