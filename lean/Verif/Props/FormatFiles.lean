import Verif.Props.CellFiles

/-!
# C141: the format of the forcing does not matter
-/

namespace Verif.Props

open Dataset ConfigRead Main Flt

/-- A gridded forcing file and files for single cells hold the same numbers for a cell: the last file that can be read of those named after the
latitude and longitude of the cell has, for every day, what the gridded file tells. -/
def SameNumbers (i : Worker.Inputs) (fs : Vic.Files) (v : Vic.Inputs) (whole : DS ℝ) (mask : Arr ℝ) (n : Nat) (c : Run.Cell) : Prop :=
  ∃ before job after ds, v.jobs = before ++ job :: after ∧
    Forcing.location fs.toFloat job = .ok (cellLabel whole mask.dims c "lat", cellLabel whole mask.dims c "lon") ∧
    Vic.readFile fs v.fmt v.vars n job = .ok ds ∧
    (∀ j ∈ after, Forcing.location fs.toFloat j = .ok (cellLabel whole mask.dims c "lat", cellLabel whole mask.dims c "lon") →
      ∀ ds', Vic.readFile fs v.fmt v.vars n j ≠ .ok ds') ∧
    ∀ k col, ds.get? k = some col → k ∉ v.constants.map Prod.fst → ∀ t < n, ∀ x,
      Told i.forcing i.names whole mask.dims c k (i.start + t) x → x = col.getD t nan

/-- A run over a gridded file and a run over files for single cells that are the same otherwise. -/
structure SameBut (i : Worker.Inputs) (v : Vic.Inputs) : Prop where
  domFile : i.domFile = v.domFile
  domNames : i.domNames = v.domNames
  stateFile : i.stateFile = v.stateFile
  stateNames : i.stateNames = v.stateNames
  constants : i.constants = v.constants
  start : i.start = v.start
  supplied : ∀ k, (∃ u, i.names.get? u = some k) ↔ k ∈ v.vars.keys

section
variable {i : Worker.Inputs} {fs : Vic.Files} {v : Vic.Inputs} {s : Cell.Shared} {whole : DS ℝ} {mask : Arr ℝ} {n : Nat} {G : Forcing.Grid ℚ ℝ}
  {c : Run.Cell}

theorem joined_shaped (h : VicSources fs v s whole mask n G) (k : String) :
    Shaped (joined v whole n G).forcing (joined v whole n G).names mask.dims k := by
  intro u b h1 h2
  have nn : ∀ d, newName (joined v whole n G).names d = d := Vic.newName_id _
  replace h2 : (Vic.gridded whole (simDays v.start n) v.vars.keys G).vars.get? u = some b := h2
  rw [Vic.gridded_cube, Vic.cube_get] at h2
  split_ifs at h2
  obtain rfl := Option.some.inj h2
  refine ⟨⟨"time", by simp, nn _⟩, fun d hd => ?_⟩
  rw [nn]
  simp only [List.mem_cons, List.not_mem_nil, or_false] at hd
  rcases hd with rfl | rfl | rfl
  exacts [.inl rfl, .inr h.plane.lat, .inr h.plane.lon]

/-- What the joined file tells is what the file of the cell has. -/
theorem numbers_told (h : VicSources fs v s whole mask n G) (hb : SameBut i v) (hs : SameNumbers i fs v whole mask n c) (hc : Active whole mask c)
    {k : String} (hk : k ∉ v.constants.map Prod.fst) {t : Nat} (ht : t < n) :
    Agree (Told i.forcing i.names whole mask.dims c k (i.start + t))
      (Told (joined v whole n G).forcing (joined v whole n G).names whole mask.dims c k (i.start + t)) := by
  intro x y hx hy
  rw [hb.start] at hy
  obtain ⟨hin, rfl⟩ := joined_told hy
  obtain ⟨before, job, after, ds, e1, e2, e3, e4, e5⟩ := hs
  obtain ⟨hc1, m, hm, hpos⟩ := hc
  have := (C102_series h hc1).1 before job after ds e1 (by rw [hm]; simp [Flt.lt, hpos]) e2 e3 e4 k hin
  exact e5 k _ this hk t ht x hx

variable (hi : Worker.Sound i) (hsrc : Sources i s whole mask n) (hu : Unequivocal s i) (h : VicSources fs v s whole mask n G) (hb : SameBut i v)
  (hs : SameNumbers i fs v whole mask n c) (hc : Active whole mask c)
include hi hsrc h hb hs hc

theorem day_format {k : String} (hk : k ∈ ["prec", "t_min", "t_max"]) {d : Int} (h1 : i.start - 90 ≤ d) (h2 : d < i.start + n) :
    Agree (DayTold i whole mask.dims c k d) (DayTold (joined v whole n G) whole mask.dims c k d) := by
  unfold DayTold
  rw [show (joined v whole n G).start = i.start from hb.start.symm]
  by_cases hlt : d < i.start
  · simp only [if_pos hlt]
    rw [show (joined v whole n G).stateFile = i.stateFile from hb.stateFile.symm,
      show (joined v whole n G).stateNames = i.stateNames from hb.stateNames.symm]
    have := state_unique hi hsrc hk c (k := (d - (i.start - 90)).toNat) (by omega)
    rwa [show i.start - 90 + ((d - (i.start - 90)).toNat : Int) = d by omega] at this
  · simp only [if_neg hlt]
    have := numbers_told h hb hs hc (h.free k hk) (t := (d - i.start).toNat) (by omega)
    rwa [show i.start + ((d - i.start).toNat : Int) = d by omega] at this

include hu

theorem told_format {names : List String} {t : Nat} (ht : t < n) :
    ToldAlike s names ⟨i, whole, mask.dims, c⟩ ⟨joined v whole n G, whole, mask.dims, c⟩ (i.start + t) := by
  have hp : ∀ k, Provided i k ↔ Provided (joined v whole n G) k := by
    intro k
    rw [joined_provided, ← hb.constants, ← hb.supplied]
    rfl
  intro k _
  refine ⟨fun h1 => day_format hi hsrc h hb hs hc h1 (by show i.start - 90 ≤ i.start + (t : Int); omega)
    (by show i.start + (t : Int) < i.start + n; omega), fun h1 => ⟨fun h2 => ?_, fun h2 => ?_⟩, fun h1 h2 => ⟨hp k, ?_⟩⟩
  · show Agree (MonthValue i whole mask.dims c k (i.start + t)) (MonthValue (joined v whole n G) whole mask.dims c k (i.start + t))
    unfold MonthValue
    by_cases hm : (Cal.monthDay (i.start + t)).1 = 12
    · simp only [if_pos hm]
      exact numbers_told h hb hs hc (h.free "prec" (by simp)) ht
    · simp only [if_neg hm]
      unfold DomTold
      rw [show (joined v whole n G).domFile = i.domFile from hb.domFile.symm, show (joined v whole n G).domNames = i.domNames from hb.domNames.symm]
      exact domTold_unique hi.domFile (hu.names k) hu.labels
  · show ¬ Provided i k ∧ ¬ Provided (joined v whole n G) k
    rw [← hp]
    have := hu.storms h2
    simp only [List.mem_cons, List.not_mem_nil, or_false] at h1
    rcases h1 with rfl | rfl
    exacts [⟨this.1, this.1⟩, ⟨this.2, this.2⟩]
  · show Agree (GivenFor i whole mask.dims c k (i.start + t)) (GivenFor (joined v whole n G) whole mask.dims c k (i.start + t))
    have ec : (joined v whole n G).constants = i.constants := hb.constants.symm
    unfold GivenFor
    rw [ec]
    rintro x y (⟨r, h1, rfl⟩ | ⟨h1, h2⟩) (⟨r', h1', rfl⟩ | ⟨h1', h2'⟩)
    · have e1 := Dict.get?_of_mem _ (by simpa [Dict.keys] using hu.constants) h1
      have e2 := Dict.get?_of_mem _ (by simpa [Dict.keys] using hu.constants) h1'
      rw [Option.some.inj (e1.symm.trans e2)]
    · exact absurd (List.mem_map.2 ⟨_, h1, rfl⟩) h1'
    · exact absurd (List.mem_map.2 ⟨_, h1', rfl⟩) h1
    · exact numbers_told h hb hs hc (hb.constants ▸ h1) ht _ _ h2 h2'

theorem format_told {need : Needs} (utc : Bool) :
    ToldFor s utc need ⟨i, whole, mask.dims, c⟩ ⟨joined v whole n G, whole, mask.dims, c⟩ n := by
  have hpos := hsrc.pos
  have three : ∀ {names : List String} {d : Int}, (∀ v ∈ names, v ∈ ["prec", "t_min", "t_max"] ∧ v ∉ ["dur", "t_pk"]) → i.start - 90 ≤ d →
      d < i.start + n → ToldAlike s names ⟨i, whole, mask.dims, c⟩ ⟨joined v whole n G, whole, mask.dims, c⟩ d := by
    intro names d hn h1 h2 k hk
    exact ⟨fun h3 => day_format hi hsrc h hb hs hc h3 h1 h2, fun h3 => absurd h3 (hn k hk).2, fun _ h3 => absurd (hn k hk).1 h3⟩
  have place : ∀ k, Agree (PlaceAt i whole mask.dims c k) (PlaceAt (joined v whole n G) whole mask.dims c k) := by
    intro k
    have hp : PlaceAt (joined v whole n G) whole mask.dims c k = PlaceAt i whole mask.dims c k := by
      unfold PlaceAt DomTold
      rw [show (joined v whole n G).domFile = i.domFile from hb.domFile.symm, show (joined v whole n G).domNames = i.domNames from hb.domNames.symm]
    rw [hp]
    rintro x y ⟨h1, h2⟩ ⟨h1', h2'⟩
    by_cases hv : whole.vars.get? k = none
    · rw [h2 hv, h2' hv]
    · exact domTold_unique hi.domFile (hu.names k) hu.labels _ _ (h1 hv) (h1' hv)
  refine ⟨hb.start, fun t ht => told_format hi hsrc hu h hb hs hc ht, fun _ d h1 h2 => three (by decide) ?_ h2,
    fun _ d h1 h2 => three (by decide) ?_ h2, fun _ => three (by decide) ?_ ?_, fun _ => place _, fun _ => place _, fun _ => place _⟩
  · have h1 : i.start - 30 < d := h1
    omega
  · have h1 : i.start - 90 < d := h1
    omega
  · show i.start - 90 ≤ i.start - 1
    omega
  · show i.start - 1 < i.start + n
    omega

end

section
variable {w w' : World} {su su' : Setup} {p p' : Conf} {i : Worker.Inputs} {v : Vic.Inputs} {fs : Vic.Files} {n : Nat} {G : Forcing.Grid ℚ ℝ}
  {freq freq' : Option Times.Freq} {os os' : List (String × String)} {whole whole' : DS ℝ} {mask mask' : Arr ℝ} {dir dir' : Nc.Dir}
  {order order' : List (Dict String Chunk.Slice)} {fuel fuel' : Nat}

/-- **C141**: a run over a gridded forcing file and a run over text or binary files for single cells that hold the same numbers for a cell leave
the same values on disk for it. -/
theorem C141_formats (h : Ready w p su i whole mask n freq os order) (hdir : simulate w fuel p order = .ok dir)
    (h' : VicReady w' fs p' su' v whole' mask' n G freq' os' order') (hdir' : Vic.simulate w' fs fuel' p' order' = .ok dir')
    (hs : sharedOf w su = sharedOf w' su') (hu : Unequivocal (sharedOf w su) i) (hb : SameBut i v) {c : Run.Cell} (hc : Active whole mask c)
    (hn : SameNumbers i fs v whole mask n c) {x : String} (hx : x ∈ (sharedOf w su).outVars.keys)
    (hl : Laid (toldOf (sharedOf w su) x) ⟨i, whole, mask.dims, c⟩) {a : Nat} (ha : a < n) :
    SameOnDisk w w' su su' i (joined v whole n G) n n freq freq' os os' dir dir' c c x a := by
  have hv := h'.sources
  obtain ⟨rfl, rfl⟩ : whole' = whole ∧ mask' = mask := by
    have h1 := hv.dom
    rw [← hb.domFile, ← hb.domNames, h.sources.dom] at h1
    obtain rfl := Except.ok.inj h1
    have h2 := hv.hasMask
    rw [h.sources.hasMask] at h2
    exact ⟨rfl, (Option.some.inj h2).symm⟩
  have hsh : su'.shared = sharedOf w su := by rw [hs, h'.names.shared]
  rw [hsh] at hv
  have hl' : Laid (toldOf (sharedOf w su) x) ⟨joined v whole' n G, whole', mask'.dims, c⟩ := by
    refine ⟨fun k hk => ?_, fun k _ _ _ => joined_shaped hv k, hl.regular.2⟩
    obtain ⟨a1, a2, a3⟩ := hl.place k hk
    refine ⟨by rw [show (joined v whole' n G).constants = i.constants from hb.constants.symm]; exact a1, fun u hu => ?_, a3⟩
    rcases (joined_provided (v := v) (whole := whole') (n := n) (G := G) (k := k)).1 (.inr ⟨u, hu⟩) with h3 | h3
    · rw [← hb.constants] at h3
      exact a1 h3
    · obtain ⟨u, hu⟩ := (hb.supplied k).2 h3
      exact a2 u hu
  exact C140_disk (Left.gridded p order fuel h hdir) (Left.cells p' order' fuel' fs v G h' rfl hdir') hs hc hc hx hl hl'
    (format_told h.sound h.sources hu hv hb hn hc _) ha

end

end Verif.Props
