import Verif.Props.FormatFiles
import Verif.Props.VicExample
import Verif.Props.CellFilesExample

/-!
# C141 is not vacuous
-/

namespace Verif.Props.VicExample

open Dataset ConfigRead Main Flt Txt FilesExample Worker

theorem same_but : SameBut FilesExample.inputs inputs where
  domFile := rfl
  domNames := rfl
  stateFile := rfl
  stateNames := rfl
  constants := rfl
  start := rfl
  supplied := fun k => by
    show (∃ u, FilesExample.names.get? u = some k) ↔ k ∈ ["prec", "t_min", "t_max"]
    constructor
    · rintro ⟨u, h⟩
      rcases MainExample.name_of h with ⟨-, rfl⟩ | ⟨-, rfl⟩ | ⟨-, rfl⟩ <;> simp
    · intro h
      simp only [List.mem_cons, List.not_mem_nil, or_false] at h
      rcases h with rfl | rfl | rfl
      exacts [⟨"Prec", rfl⟩, ⟨"Tmin", rfl⟩, ⟨"Tmax", rfl⟩]

/-- The gridded file and the file of the cell hold the same numbers. -/
theorem same_numbers : SameNumbers FilesExample.inputs files inputs domFile MainExample.mask 2 [1, 0] := by
  refine ⟨["data/data_45_-120".toList], "data/data_44_-120".toList, [], _, rfl, by decide +kernel, reads_file _, by simp, ?_⟩
  rintro k col hk - t ht x ⟨u, raw, h1, h2, b, ix, h3, h4, rfl⟩
  have hin : k ∈ vars.keys := by
    rcases MainExample.name_of h1 with ⟨-, rfl⟩ | ⟨-, rfl⟩ | ⟨-, rfl⟩ <;> decide
  rw [column_of hin] at hk
  obtain rfl := Option.some.inj hk
  have hdims : b.dims = ["time", "lat", "lon"] := (file_vars h3).1
  have e0 := h4 "time" (by rw [hdims]; simp)
  have e1 := h4 "lat" (by rw [hdims]; simp)
  have n0 : newName FilesExample.inputs.names "time" = "time" := by decide
  have n1 : newName FilesExample.inputs.names "lat" = "lat" := by decide
  simp only [n0, n1, if_true, show ("lat" = "time") = False by decide, if_false] at e0 e1
  have et : ix "time" = t := by
    replace e0 : ((List.range 2).map fun (k : Nat) => ((epoch + k - epoch : Int) : ℚ))[ix "time"]? = some raw := e0
    rw [List.getElem?_map, Option.map_eq_some_iff] at e0
    obtain ⟨j, hj, hraw⟩ := e0
    obtain ⟨hjn, hj⟩ := List.getElem?_eq_some_iff.1 hj
    rw [List.getElem_range] at hj
    subst hj
    have h2 : fileDay raw = ((epoch + (t : Int) - epoch : Int) : ℚ) := h2
    unfold fileDay at h2
    rw [← hraw, Vic.stamp_whole, Int.cast_inj] at h2
    omega
  have el : ix "lat" = 0 := by
    replace e1 : ([44, 45] : List ℚ)[ix "lat"]? = some 44 := e1
    have hlt : ix "lat" < 2 := (List.getElem?_eq_some_iff.1 e1).1
    interval_cases hx : ix "lat"
    · rfl
    · norm_num at e1
  rcases MainExample.name_of h1 with ⟨rfl, rfl⟩ | ⟨rfl, rfl⟩ | ⟨rfl, rfl⟩
  · obtain rfl := (Option.some.inj h3).symm
    show fin ((ix "time" : ℕ) : ℝ) = _
    rw [et]
    interval_cases t <;> simp [column]
  · obtain rfl := (Option.some.inj h3).symm
    show fin (10 + ((ix "lat" : ℕ) : ℝ)) = _
    rw [el]
    interval_cases t <;> simp [column]
  · obtain rfl := (Option.some.inj h3).symm
    show fin (20 + ((ix "lat" : ℕ) : ℝ)) = _
    rw [el]
    interval_cases t <;> simp [column]

/-- **C141 is not vacuous**: a run over a gridded file and a run over text files, each from its INI file, end and leave the same temperatures for a
cell. -/
example : ∃ fuel dir os fuel' dir' os', runIni (MainExample.world fun _ => true) fuel MainExample.opts MainExample.ini MainExample.chunks.reverse = .ok dir ∧
    Vic.runIni (world fun _ => true) files fuel' MainExample.opts ini MainExample.chunks.reverse = .ok dir' ∧
    ∃ G, ∀ a < 2, SameOnDisk (MainExample.world fun _ => true) (world fun _ => true) MainExample.setup setup FilesExample.inputs
      (joined inputs domFile 2 G) 2 2 none none os os' dir dir' [1, 0] [1, 0] "temp" a := by
  obtain ⟨fuel, h⟩ := MainExample.runs_ini (fun _ => true) rfl
  obtain ⟨dir, hdir⟩ := h 0
  obtain ⟨p, os, ld, hready, hrun, -⟩ := C95_ini (w := MainExample.world fun _ => true) MainExample.doc_of MainExample.from_ini (MainExample.named _) sound
    (MainExample.sourced _) (MainExample.unsplit _) (MainExample.plan _ _ MainExample.renamed) MainExample.sliced (List.reverse_perm _)
    (MainExample.knows _) (fuel + 0)
  rw [hrun] at hdir
  obtain ⟨G, hG⟩ := grid
  obtain ⟨p', os', hready', hrun', fuel', h'⟩ := C102_ini (w := world fun _ => true) (fs := files) (order := MainExample.chunks.reverse) doc_of from_ini
    (named fun _ => true) (sources hG) (freq := none) rfl (MainExample.plan (fun _ => true) _ MainExample.renamed) MainExample.sliced (List.reverse_perm _) (MainExample.knows fun _ => true)
    ⟨by simp [setup, jobs], ⟨_, _, rfl⟩, MainExample.valid.outDir, by simp [setup], MainExample.valid.step, MainExample.valid.some,
      MainExample.valid.outs, MainExample.valid.precision, MainExample.valid.lwCloud, MainExample.valid.lwType⟩ rfl
    (MainExample.known_calendar fun _ => true) MainExample.distinct
    (earthly hG) (by decide +kernel) (fun h => absurd h (by show "wind" ∉ ["temp", "prec"]; decide))
  obtain ⟨dir', hdir'⟩ := h' 0
  refine ⟨_, dir, os, _, dir', os', hrun.trans hdir, hdir', G, fun a ha => ?_⟩
  rw [hrun'] at hdir'
  refine C141_formats hready hdir hready' hdir' rfl (MainExample.unequivocal _) same_but MainExample.active same_numbers (x := "temp") ?_ ?_ ha
  · show "temp" ∈ MainExample.setup.shared.outVars.keys
    decide
  · exact MainExample.laid (fun _ => true) MainExample.active

end Verif.Props.VicExample
