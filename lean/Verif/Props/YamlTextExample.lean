import Verif.Props.YamlRun
import Verif.Props.ProgramExample

/-!
# C144: YAML files
-/

namespace Verif.Props.YamlTextExample

open ConfigRead YamlText YamlLayout
open Txt (Str)

/-! ## A file that leads to a run -/

def lines : List Str :=
  ["# a run", "MetSim:", "    forcing: 'forcing.nc'", "    forcing_fmt: 'netcdf'", "    domain: 'domain.nc'", "    state: 'state.nc'",
   "    out_dir: out", "    start: '1970-01-01'", "    stop: '1970-01-02'", "    time_step: 360", "", "out_vars:", "    temp:",
   "        out_name: 'temp'", "    prec:", "        out_name: 'prec'", "", "chunks:", "    lat: 1", "    lon: 1", "", "forcing_vars:",
   "    prec: Prec", "    t_min: Tmin", "    t_max: Tmax", "", "domain_vars:", "    mask: 'mask'", "    elev: 'elev'", "    lat: 'lat'",
   "    lon: 'lon'", "", "state_vars:", "    prec: 'Prec'", "    t_min: 'Tmin'", "    t_max: 'Tmax'", "", "constant_vars:", "    wind: 3"].map String.toList

def doc : Dict String (Dict String Item) :=
  [
   ("MetSim", [("forcing", .one (.str "forcing.nc")), ("forcing_fmt", .one (.str "netcdf")), ("domain", .one (.str "domain.nc")), ("state", .one (.str "state.nc")), ("out_dir", .one (.str "out")), ("start", .one (.str "1970-01-01")), ("stop", .one (.str "1970-01-02")), ("time_step", .one (.int 360))]),
   ("out_vars", [("temp", .many [("out_name", .str "temp")]), ("prec", .many [("out_name", .str "prec")])]),
   ("chunks", [("lat", .one (.int 1)), ("lon", .one (.int 1))]),
   ("forcing_vars", [("prec", .one (.str "Prec")), ("t_min", .one (.str "Tmin")), ("t_max", .one (.str "Tmax"))]),
   ("domain_vars", [("mask", .one (.str "mask")), ("elev", .one (.str "elev")), ("lat", .one (.str "lat")), ("lon", .one (.str "lon"))]),
   ("state_vars", [("prec", .one (.str "Prec")), ("t_min", .one (.str "Tmin")), ("t_max", .one (.str "Tmax"))]),
   ("constant_vars", [("wind", .one (.int 3))])]

def es : List YamlText.Entry :=
  [⟨0, "MetSim", none⟩, ⟨4, "forcing", some (.str "forcing.nc")⟩, ⟨4, "forcing_fmt", some (.str "netcdf")⟩,
   ⟨4, "domain", some (.str "domain.nc")⟩, ⟨4, "state", some (.str "state.nc")⟩, ⟨4, "out_dir", some (.str "out")⟩,
   ⟨4, "start", some (.str "1970-01-01")⟩, ⟨4, "stop", some (.str "1970-01-02")⟩, ⟨4, "time_step", some (.int 360)⟩, ⟨0, "out_vars", none⟩,
   ⟨4, "temp", none⟩, ⟨8, "out_name", some (.str "temp")⟩, ⟨4, "prec", none⟩, ⟨8, "out_name", some (.str "prec")⟩, ⟨0, "chunks", none⟩,
   ⟨4, "lat", some (.int 1)⟩, ⟨4, "lon", some (.int 1)⟩, ⟨0, "forcing_vars", none⟩, ⟨4, "prec", some (.str "Prec")⟩,
   ⟨4, "t_min", some (.str "Tmin")⟩, ⟨4, "t_max", some (.str "Tmax")⟩, ⟨0, "domain_vars", none⟩, ⟨4, "mask", some (.str "mask")⟩,
   ⟨4, "elev", some (.str "elev")⟩, ⟨4, "lat", some (.str "lat")⟩, ⟨4, "lon", some (.str "lon")⟩, ⟨0, "state_vars", none⟩,
   ⟨4, "prec", some (.str "Prec")⟩, ⟨4, "t_min", some (.str "Tmin")⟩, ⟨4, "t_max", some (.str "Tmax")⟩, ⟨0, "constant_vars", none⟩,
   ⟨4, "wind", some (.int 3)⟩]

theorem key_of {k : String} (h : (k.toList.head?.map isLetter) = some true ∧ k.toList.all isWord = true ∧ k ∉ words.map Prod.fst) : YamlLayout.Key k.toList := by
  obtain ⟨h1, h2, h3⟩ := h
  refine ⟨?_, fun c hc => word_iff.1 (List.all_eq_true.1 h2 c hc), by rwa [String.ofList_toList]⟩
  cases e : k.toList with
  | nil => rw [e] at h1; cases h1
  | cons c s =>
    rw [e] at h1
    exact ⟨c, s, rfl, letter_iff.1 (by simpa using h1)⟩

theorem bare_of (n : Nat) (k : String) {l : Str} (h : (k.toList.head?.map isLetter = some true ∧ k.toList.all isWord = true ∧ k ∉ words.map Prod.fst) ∧
    k.toList.length + 0 ≤ 1024 ∧ l = List.replicate n ' ' ++ (k.toList ++ (List.replicate 0 ' ' ++ ':' :: []))) : YamlLayout.Line l ⟨n, k, none⟩ := by
  obtain ⟨h1, h2, rfl⟩ := h
  have := YamlLayout.Line.bare n 0 k.toList [] (key_of h1) h2 .none
  rwa [String.ofList_toList] at this

theorem valued_of (n : Nat) (k v : String) {l : Str} {s : Scalar} (h : (k.toList.head?.map isLetter = some true ∧ k.toList.all isWord = true ∧
    k ∉ words.map Prod.fst) ∧ k.toList.length + 0 ≤ 1024 ∧
      l = List.replicate n ' ' ++ (k.toList ++ (List.replicate 0 ' ' ++ ':' :: (List.replicate (0 + 1) ' ' ++ (v.toList ++ [])))))
    (hv : Written v.toList s) : YamlLayout.Line l ⟨n, k, some s⟩ := by
  obtain ⟨h1, h2, rfl⟩ := h
  have := YamlLayout.Line.valued n 0 0 k.toList v.toList [] s (key_of h1) h2 hv .none
  rwa [String.ofList_toList] at this

theorem single_of (s : String) {v : String} (h : v.toList = '\'' :: (s.toList ++ ['\'']) ∧ s.toList.all (fun c => isPrintable c && c != '\'') = true) :
    Written v.toList (.str s) := by
  have := Written.single s.toList fun c hc => by
    have := List.all_eq_true.1 h.2 c hc
    simp only [Bool.and_eq_true, bne_iff_ne, ne_eq] at this
    exact ⟨printable_iff.1 this.1, this.2⟩
  rwa [← h.1, String.ofList_toList] at this

theorem int_of (v : String) (h : v.toList.all Char.isDigit = true ∧ v.toList ≠ [] ∧ v.toList.head? ≠ some '0') (n : Int) (hn : number v.toList = n) :
    Written v.toList (.int n) := by
  obtain ⟨h1, h2, h3⟩ := h
  rw [← hn]
  cases e : v.toList with
  | nil => exact absurd e h2
  | cons c s =>
    rw [e] at h1 h3
    rw [number_decimal]
    exact .int c s (by simpa using h3) (all_digits.1 h1)

theorem text_of (v : String) (h : v.toList.head?.map isLetter = some true ∧ v.toList.all isPlain = true ∧ v ∉ words.map Prod.fst) :
    Written v.toList (.str v) := by
  obtain ⟨h1, h2, h3⟩ := h
  cases e : v.toList with
  | nil => rw [e] at h1; cases h1
  | cons c s =>
    have := Written.text c s (.inl (letter_iff.1 (by rw [e] at h1; simpa using h1))) (by
      rw [← e]
      exact fun x hx => plain_iff.1 (List.all_eq_true.1 h2 x hx)) (by rwa [← e, String.ofList_toList])
    rw [← e, String.ofList_toList] at this
    rwa [e] at this

theorem written : Lines lines es :=
  (.comment 0 " a run".toList (by unfold Printable; decide +kernel)
    (.entry (bare_of 0 "MetSim" (by decide +kernel))
    (.entry (valued_of 4 "forcing" "'forcing.nc'" (by decide +kernel) (single_of "forcing.nc" (by decide +kernel)))
    (.entry (valued_of 4 "forcing_fmt" "'netcdf'" (by decide +kernel) (single_of "netcdf" (by decide +kernel)))
    (.entry (valued_of 4 "domain" "'domain.nc'" (by decide +kernel) (single_of "domain.nc" (by decide +kernel)))
    (.entry (valued_of 4 "state" "'state.nc'" (by decide +kernel) (single_of "state.nc" (by decide +kernel)))
    (.entry (valued_of 4 "out_dir" "out" (by decide +kernel) (text_of "out" (by decide +kernel)))
    (.entry (valued_of 4 "start" "'1970-01-01'" (by decide +kernel) (single_of "1970-01-01" (by decide +kernel)))
    (.entry (valued_of 4 "stop" "'1970-01-02'" (by decide +kernel) (single_of "1970-01-02" (by decide +kernel)))
    (.entry (valued_of 4 "time_step" "360" (by decide +kernel) (int_of "360" (by decide +kernel) 360 (by decide +kernel)))
    (.empty 0
    (.entry (bare_of 0 "out_vars" (by decide +kernel))
    (.entry (bare_of 4 "temp" (by decide +kernel))
    (.entry (valued_of 8 "out_name" "'temp'" (by decide +kernel) (single_of "temp" (by decide +kernel)))
    (.entry (bare_of 4 "prec" (by decide +kernel))
    (.entry (valued_of 8 "out_name" "'prec'" (by decide +kernel) (single_of "prec" (by decide +kernel)))
    (.empty 0
    (.entry (bare_of 0 "chunks" (by decide +kernel))
    (.entry (valued_of 4 "lat" "1" (by decide +kernel) (int_of "1" (by decide +kernel) 1 (by decide +kernel)))
    (.entry (valued_of 4 "lon" "1" (by decide +kernel) (int_of "1" (by decide +kernel) 1 (by decide +kernel)))
    (.empty 0
    (.entry (bare_of 0 "forcing_vars" (by decide +kernel))
    (.entry (valued_of 4 "prec" "Prec" (by decide +kernel) (text_of "Prec" (by decide +kernel)))
    (.entry (valued_of 4 "t_min" "Tmin" (by decide +kernel) (text_of "Tmin" (by decide +kernel)))
    (.entry (valued_of 4 "t_max" "Tmax" (by decide +kernel) (text_of "Tmax" (by decide +kernel)))
    (.empty 0
    (.entry (bare_of 0 "domain_vars" (by decide +kernel))
    (.entry (valued_of 4 "mask" "'mask'" (by decide +kernel) (single_of "mask" (by decide +kernel)))
    (.entry (valued_of 4 "elev" "'elev'" (by decide +kernel) (single_of "elev" (by decide +kernel)))
    (.entry (valued_of 4 "lat" "'lat'" (by decide +kernel) (single_of "lat" (by decide +kernel)))
    (.entry (valued_of 4 "lon" "'lon'" (by decide +kernel) (single_of "lon" (by decide +kernel)))
    (.empty 0
    (.entry (bare_of 0 "state_vars" (by decide +kernel))
    (.entry (valued_of 4 "prec" "'Prec'" (by decide +kernel) (single_of "Prec" (by decide +kernel)))
    (.entry (valued_of 4 "t_min" "'Tmin'" (by decide +kernel) (single_of "Tmin" (by decide +kernel)))
    (.entry (valued_of 4 "t_max" "'Tmax'" (by decide +kernel) (single_of "Tmax" (by decide +kernel)))
    (.empty 0
    (.entry (bare_of 0 "constant_vars" (by decide +kernel))
    (.entry (valued_of 4 "wind" "3" (by decide +kernel) (int_of "3" (by decide +kernel) 3 (by decide +kernel)))
    .nil)))))))))))))))))))))))))))))))))))))))

theorem nested : Sections doc es :=
  (.cons "MetSim" 4 (by decide) (.cons (.one ⟨4, "forcing", some (.str "forcing.nc")⟩ rfl) (.cons (.one ⟨4, "forcing_fmt", some (.str "netcdf")⟩ rfl) (.cons (.one ⟨4, "domain", some (.str "domain.nc")⟩ rfl) (.cons (.one ⟨4, "state", some (.str "state.nc")⟩ rfl) (.cons (.one ⟨4, "out_dir", some (.str "out")⟩ rfl) (.cons (.one ⟨4, "start", some (.str "1970-01-01")⟩ rfl) (.cons (.one ⟨4, "stop", some (.str "1970-01-02")⟩ rfl) (.cons (.one ⟨4, "time_step", some (.int 360)⟩ rfl) .nil))))))))
    (.cons "out_vars" 4 (by decide) (.cons (.many "temp" 8 (by decide) [("out_name", .str "temp")] (by simp) [⟨8, "out_name", some (.str "temp")⟩] (.cons ⟨rfl, rfl, rfl⟩ .nil)) (.cons (.many "prec" 8 (by decide) [("out_name", .str "prec")] (by simp) [⟨8, "out_name", some (.str "prec")⟩] (.cons ⟨rfl, rfl, rfl⟩ .nil)) .nil))
    (.cons "chunks" 4 (by decide) (.cons (.one ⟨4, "lat", some (.int 1)⟩ rfl) (.cons (.one ⟨4, "lon", some (.int 1)⟩ rfl) .nil))
    (.cons "forcing_vars" 4 (by decide) (.cons (.one ⟨4, "prec", some (.str "Prec")⟩ rfl) (.cons (.one ⟨4, "t_min", some (.str "Tmin")⟩ rfl) (.cons (.one ⟨4, "t_max", some (.str "Tmax")⟩ rfl) .nil)))
    (.cons "domain_vars" 4 (by decide) (.cons (.one ⟨4, "mask", some (.str "mask")⟩ rfl) (.cons (.one ⟨4, "elev", some (.str "elev")⟩ rfl) (.cons (.one ⟨4, "lat", some (.str "lat")⟩ rfl) (.cons (.one ⟨4, "lon", some (.str "lon")⟩ rfl) .nil))))
    (.cons "state_vars" 4 (by decide) (.cons (.one ⟨4, "prec", some (.str "Prec")⟩ rfl) (.cons (.one ⟨4, "t_min", some (.str "Tmin")⟩ rfl) (.cons (.one ⟨4, "t_max", some (.str "Tmax")⟩ rfl) .nil)))
    (.cons "constant_vars" 4 (by decide) (.cons (.one ⟨4, "wind", some (.int 3)⟩ rfl) .nil)
    .nil)))))))

theorem distinct : Distinct doc := by
  have h : doc.keys.Nodup ∧ ∀ s ∈ doc, s.2.keys.Nodup ∧ ∀ q ∈ s.2, q.2.keys.Nodup := by decide +kernel
  exact ⟨h.1, fun s hs => ⟨(h.2 s hs).1, fun k m hm => (h.2 s hs).2 (k, .many m) hm⟩⟩

theorem file_says : YamlLayout.Says lines doc := ⟨distinct, es, written, nested⟩

theorem tells : Tells doc MainExample.yaml where
  main := .dict _ _ (by simp [MainExample.yamlMain]) (by repeat constructor)
  forcingVars := .dict _ _ (by simp [MainExample.vars]) (by repeat constructor)
  domainVars := .dict _ _ (by simp [MainExample.doc]) (by repeat constructor)
  stateVars := .dict _ _ (by simp [MainExample.vars]) (by repeat constructor)
  outVars := .dict _ _ (by simp) (.cons ⟨rfl, _, rfl, rfl, rfl⟩ (.cons ⟨rfl, _, rfl, rfl, rfl⟩ .nil))
  chunks := .dict _ _ (by simp) (by repeat constructor)
  constantVars := .dict _ _ (by simp) (by repeat constructor)

theorem marked : Marked lines :=
  ⟨["# a run".toList], _, "MetSim:".toList, rfl, by
    simp only [List.mem_singleton, forall_eq]
    exact ⟨[], " a run".toList, rfl, by simp⟩, by
    rw [← isComment_iff]
    decide +kernel, by decide +kernel⟩

/-- A world in which PyYAML reads files as the model does. -/
noncomputable def world : Main.World :=
  { MainExample.world fun _ => true with yaml := fun ls => match YamlText.read ls with
    | some y => .ok y
    | none => .error .valueError }

theorem loads : Loads world := fun ls y h => by
  show (match YamlText.read ls with
    | some y => Except.ok y
    | none => .error PyErr.valueError) = _
  rw [h]

/-- The file leads to a run. -/
example (fs : Vic.Files) : ∃ fuel dir, Program.runText world fs fuel MainExample.opts lines MainExample.chunks.reverse = .ok dir := by
  obtain ⟨fuel, dir, h⟩ := ProgramExample.yaml fs
  refine ⟨fuel, dir, ?_⟩
  rw [(C144_run loads marked file_says tells fs fuel MainExample.opts _).1]
  exact h

/-! ## The same file with a day that is not quoted -/

namespace Dated

def lines : List Str :=
  ["# a run", "MetSim:", "    forcing: 'forcing.nc'", "    forcing_fmt: 'netcdf'", "    domain: 'domain.nc'", "    state: 'state.nc'",
   "    out_dir: out", "    start: 1970-01-01", "    stop: '1970-01-02'", "    time_step: 360", "", "out_vars:", "    temp:",
   "        out_name: 'temp'", "    prec:", "        out_name: 'prec'", "", "chunks:", "    lat: 1", "    lon: 1", "", "forcing_vars:",
   "    prec: Prec", "    t_min: Tmin", "    t_max: Tmax", "", "domain_vars:", "    mask: 'mask'", "    elev: 'elev'", "    lat: 'lat'",
   "    lon: 'lon'", "", "state_vars:", "    prec: 'Prec'", "    t_min: 'Tmin'", "    t_max: 'Tmax'", "", "constant_vars:", "    wind: 3"].map String.toList

def doc : Dict String (Dict String Item) :=
  [
   ("MetSim", [("forcing", .one (.str "forcing.nc")), ("forcing_fmt", .one (.str "netcdf")), ("domain", .one (.str "domain.nc")), ("state", .one (.str "state.nc")), ("out_dir", .one (.str "out")), ("start", .one (.date (Cal.ofCivil 1970 1 1))), ("stop", .one (.str "1970-01-02")), ("time_step", .one (.int 360))]),
   ("out_vars", [("temp", .many [("out_name", .str "temp")]), ("prec", .many [("out_name", .str "prec")])]),
   ("chunks", [("lat", .one (.int 1)), ("lon", .one (.int 1))]),
   ("forcing_vars", [("prec", .one (.str "Prec")), ("t_min", .one (.str "Tmin")), ("t_max", .one (.str "Tmax"))]),
   ("domain_vars", [("mask", .one (.str "mask")), ("elev", .one (.str "elev")), ("lat", .one (.str "lat")), ("lon", .one (.str "lon"))]),
   ("state_vars", [("prec", .one (.str "Prec")), ("t_min", .one (.str "Tmin")), ("t_max", .one (.str "Tmax"))]),
   ("constant_vars", [("wind", .one (.int 3))])]

def es : List YamlText.Entry :=
  [⟨0, "MetSim", none⟩, ⟨4, "forcing", some (.str "forcing.nc")⟩, ⟨4, "forcing_fmt", some (.str "netcdf")⟩,
   ⟨4, "domain", some (.str "domain.nc")⟩, ⟨4, "state", some (.str "state.nc")⟩, ⟨4, "out_dir", some (.str "out")⟩,
   ⟨4, "start", some (.date (Cal.ofCivil 1970 1 1))⟩, ⟨4, "stop", some (.str "1970-01-02")⟩, ⟨4, "time_step", some (.int 360)⟩,
   ⟨0, "out_vars", none⟩, ⟨4, "temp", none⟩, ⟨8, "out_name", some (.str "temp")⟩, ⟨4, "prec", none⟩, ⟨8, "out_name", some (.str "prec")⟩,
   ⟨0, "chunks", none⟩, ⟨4, "lat", some (.int 1)⟩, ⟨4, "lon", some (.int 1)⟩, ⟨0, "forcing_vars", none⟩, ⟨4, "prec", some (.str "Prec")⟩,
   ⟨4, "t_min", some (.str "Tmin")⟩, ⟨4, "t_max", some (.str "Tmax")⟩, ⟨0, "domain_vars", none⟩, ⟨4, "mask", some (.str "mask")⟩,
   ⟨4, "elev", some (.str "elev")⟩, ⟨4, "lat", some (.str "lat")⟩, ⟨4, "lon", some (.str "lon")⟩, ⟨0, "state_vars", none⟩,
   ⟨4, "prec", some (.str "Prec")⟩, ⟨4, "t_min", some (.str "Tmin")⟩, ⟨4, "t_max", some (.str "Tmax")⟩, ⟨0, "constant_vars", none⟩,
   ⟨4, "wind", some (.int 3)⟩]

theorem written : Lines lines es :=
  (.comment 0 " a run".toList (by unfold Printable; decide +kernel)
    (.entry (bare_of 0 "MetSim" (by decide +kernel))
    (.entry (valued_of 4 "forcing" "'forcing.nc'" (by decide +kernel) (single_of "forcing.nc" (by decide +kernel)))
    (.entry (valued_of 4 "forcing_fmt" "'netcdf'" (by decide +kernel) (single_of "netcdf" (by decide +kernel)))
    (.entry (valued_of 4 "domain" "'domain.nc'" (by decide +kernel) (single_of "domain.nc" (by decide +kernel)))
    (.entry (valued_of 4 "state" "'state.nc'" (by decide +kernel) (single_of "state.nc" (by decide +kernel)))
    (.entry (valued_of 4 "out_dir" "out" (by decide +kernel) (text_of "out" (by decide +kernel)))
    (.entry (valued_of 4 "start" "1970-01-01" (by decide +kernel) (.day "1970".toList "01".toList "01".toList (all_digits.1 (by decide +kernel)) (all_digits.1 (by decide +kernel)) (all_digits.1 (by decide +kernel)) (by decide +kernel) (by decide +kernel) (by decide +kernel) (by decide +kernel) (by decide +kernel) (by decide +kernel)))
    (.entry (valued_of 4 "stop" "'1970-01-02'" (by decide +kernel) (single_of "1970-01-02" (by decide +kernel)))
    (.entry (valued_of 4 "time_step" "360" (by decide +kernel) (int_of "360" (by decide +kernel) 360 (by decide +kernel)))
    (.empty 0
    (.entry (bare_of 0 "out_vars" (by decide +kernel))
    (.entry (bare_of 4 "temp" (by decide +kernel))
    (.entry (valued_of 8 "out_name" "'temp'" (by decide +kernel) (single_of "temp" (by decide +kernel)))
    (.entry (bare_of 4 "prec" (by decide +kernel))
    (.entry (valued_of 8 "out_name" "'prec'" (by decide +kernel) (single_of "prec" (by decide +kernel)))
    (.empty 0
    (.entry (bare_of 0 "chunks" (by decide +kernel))
    (.entry (valued_of 4 "lat" "1" (by decide +kernel) (int_of "1" (by decide +kernel) 1 (by decide +kernel)))
    (.entry (valued_of 4 "lon" "1" (by decide +kernel) (int_of "1" (by decide +kernel) 1 (by decide +kernel)))
    (.empty 0
    (.entry (bare_of 0 "forcing_vars" (by decide +kernel))
    (.entry (valued_of 4 "prec" "Prec" (by decide +kernel) (text_of "Prec" (by decide +kernel)))
    (.entry (valued_of 4 "t_min" "Tmin" (by decide +kernel) (text_of "Tmin" (by decide +kernel)))
    (.entry (valued_of 4 "t_max" "Tmax" (by decide +kernel) (text_of "Tmax" (by decide +kernel)))
    (.empty 0
    (.entry (bare_of 0 "domain_vars" (by decide +kernel))
    (.entry (valued_of 4 "mask" "'mask'" (by decide +kernel) (single_of "mask" (by decide +kernel)))
    (.entry (valued_of 4 "elev" "'elev'" (by decide +kernel) (single_of "elev" (by decide +kernel)))
    (.entry (valued_of 4 "lat" "'lat'" (by decide +kernel) (single_of "lat" (by decide +kernel)))
    (.entry (valued_of 4 "lon" "'lon'" (by decide +kernel) (single_of "lon" (by decide +kernel)))
    (.empty 0
    (.entry (bare_of 0 "state_vars" (by decide +kernel))
    (.entry (valued_of 4 "prec" "'Prec'" (by decide +kernel) (single_of "Prec" (by decide +kernel)))
    (.entry (valued_of 4 "t_min" "'Tmin'" (by decide +kernel) (single_of "Tmin" (by decide +kernel)))
    (.entry (valued_of 4 "t_max" "'Tmax'" (by decide +kernel) (single_of "Tmax" (by decide +kernel)))
    (.empty 0
    (.entry (bare_of 0 "constant_vars" (by decide +kernel))
    (.entry (valued_of 4 "wind" "3" (by decide +kernel) (int_of "3" (by decide +kernel) 3 (by decide +kernel)))
    .nil)))))))))))))))))))))))))))))))))))))))

theorem nested : Sections doc es :=
  (.cons "MetSim" 4 (by decide) (.cons (.one ⟨4, "forcing", some (.str "forcing.nc")⟩ rfl) (.cons (.one ⟨4, "forcing_fmt", some (.str "netcdf")⟩ rfl) (.cons (.one ⟨4, "domain", some (.str "domain.nc")⟩ rfl) (.cons (.one ⟨4, "state", some (.str "state.nc")⟩ rfl) (.cons (.one ⟨4, "out_dir", some (.str "out")⟩ rfl) (.cons (.one ⟨4, "start", some (.date (Cal.ofCivil 1970 1 1))⟩ rfl) (.cons (.one ⟨4, "stop", some (.str "1970-01-02")⟩ rfl) (.cons (.one ⟨4, "time_step", some (.int 360)⟩ rfl) .nil))))))))
    (.cons "out_vars" 4 (by decide) (.cons (.many "temp" 8 (by decide) [("out_name", .str "temp")] (by simp) [⟨8, "out_name", some (.str "temp")⟩] (.cons ⟨rfl, rfl, rfl⟩ .nil)) (.cons (.many "prec" 8 (by decide) [("out_name", .str "prec")] (by simp) [⟨8, "out_name", some (.str "prec")⟩] (.cons ⟨rfl, rfl, rfl⟩ .nil)) .nil))
    (.cons "chunks" 4 (by decide) (.cons (.one ⟨4, "lat", some (.int 1)⟩ rfl) (.cons (.one ⟨4, "lon", some (.int 1)⟩ rfl) .nil))
    (.cons "forcing_vars" 4 (by decide) (.cons (.one ⟨4, "prec", some (.str "Prec")⟩ rfl) (.cons (.one ⟨4, "t_min", some (.str "Tmin")⟩ rfl) (.cons (.one ⟨4, "t_max", some (.str "Tmax")⟩ rfl) .nil)))
    (.cons "domain_vars" 4 (by decide) (.cons (.one ⟨4, "mask", some (.str "mask")⟩ rfl) (.cons (.one ⟨4, "elev", some (.str "elev")⟩ rfl) (.cons (.one ⟨4, "lat", some (.str "lat")⟩ rfl) (.cons (.one ⟨4, "lon", some (.str "lon")⟩ rfl) .nil))))
    (.cons "state_vars" 4 (by decide) (.cons (.one ⟨4, "prec", some (.str "Prec")⟩ rfl) (.cons (.one ⟨4, "t_min", some (.str "Tmin")⟩ rfl) (.cons (.one ⟨4, "t_max", some (.str "Tmax")⟩ rfl) .nil)))
    (.cons "constant_vars" 4 (by decide) (.cons (.one ⟨4, "wind", some (.int 3)⟩ rfl) .nil)
    .nil)))))))

theorem distinct : Distinct doc := by
  have h : doc.keys.Nodup ∧ ∀ s ∈ doc, s.2.keys.Nodup ∧ ∀ q ∈ s.2, q.2.keys.Nodup := by decide +kernel
  exact ⟨h.1, fun s hs => ⟨(h.2 s hs).1, fun k m hm => (h.2 s hs).2 (k, .many m) hm⟩⟩

theorem tells : Tells doc { MainExample.yaml with main := .dict (MainExample.yamlMain.set "start" (.date (Cal.ofCivil 1970 1 1))) } where
  main := .dict _ _ (by decide +kernel) (by
    show List.Forall₂ _ [_, _, _, _, _, _, _, _] _
    repeat constructor)
  forcingVars := YamlTextExample.tells.forcingVars
  domainVars := YamlTextExample.tells.domainVars
  stateVars := YamlTextExample.tells.stateVars
  outVars := YamlTextExample.tells.outVars
  chunks := YamlTextExample.tells.chunks
  constantVars := YamlTextExample.tells.constantVars

theorem marked : Marked lines :=
  ⟨["# a run".toList], _, "MetSim:".toList, rfl, by
    simp only [List.mem_singleton, forall_eq]
    exact ⟨[], " a run".toList, rfl, by simp⟩, by
    rw [← isComment_iff]
    decide +kernel, by decide +kernel⟩

example (fs : Vic.Files) (fuel : Nat) (order : List (Dict String Chunk.Slice)) (dir : Nc.Dir) :
    Program.runText world fs fuel MainExample.opts lines order ≠ .ok dir :=
  C144_date loads marked ⟨distinct, es, written, nested⟩ tells rfl (.inl rfl) rfl fs fuel _ order dir

end Dated

/-! ## The file that comes with MetSim -/

/-- examples/example_yaml.yaml -/
def shipped : List Str :=
  ["# This is an example of an input file for MetSim", "# Overall configuration, specification of parameters and input/output",
   "# paths goes in the \"MetSim\" section", "MetSim:", "    # Time step in minutes", "    time_step: 30",
   "    # Forcings begin here (year-month-day)", "    start: 1950-1-1", "    # Forcings end at this date (year-month-day)",
   "    stop: 1950-1-31", "    # Input and output directories", "    forcing: './metsim/data/test.nc'",
   "    domain: './metsim/data/tiny_domain.nc'", "    state: './metsim/data/state_nc.nc'", "    forcing_fmt: 'netcdf'",
   "    in_format: 'netcdf'", "    out_dir: './results'", "    out_prefix: 'yaml_output'", "    prec_type: 'triangle'",
   "    utc_offset: True", "", "out_vars:", "    temp:", "        out_name: 'airtemp'", "        units: 'K'", "    prec:",
   "        out_name: 'pptrate'", "        units: 'mm s-1'", "    shortwave:", "        out_name: 'SWradAtm'", "    spec_humid:",
   "        out_name: 'spechum'", "    air_pressure:", "        out_name: 'airpres'", "        units: 'kPa'", "    wind:",
   "        out_name: 'windspd'", "", "chunks:", "    lat: 3", "    lon: 3", "", "forcing_vars:", "    # Format is metsim_name: input_name",
   "    prec  : 'Prec'", "    t_max : 'Tmax'", "    t_min : 'Tmin'", "", "state_vars:", "    # Format is metsim_name: input_name",
   "    prec  : 'prec'", "    t_max : 't_max'", "    t_min : 't_min'", "", "domain_vars:", "    # Format is metsim_name: input_name",
   "    lat  : 'lat'", "    lon  : 'lon'", "    mask : 'mask'", "    elev : 'elev'", "    t_pk : 't_pk'", "    dur  : 'dur'", "",
   "constant_vars:", "    wind : 2.0"].map String.toList

/-- Its days have no leading zeros, and are text. -/
example : ∃ y m, YamlText.read shipped = some y ∧ y.main = .dict m ∧ m.get? "start" = some (.str "1950-1-1") ∧ m.get? "time_step" = some (.int 30) ∧
    m.get? "utc_offset" = some (.bool true) ∧ Config.checkConfigType shipped = .yaml := by
  have h : ((YamlText.read shipped).bind fun y => match y.main with
    | .dict m => some (m.get? "start", m.get? "time_step", m.get? "utc_offset")
    | _ => none) = some (some (.str "1950-1-1"), some (.int 30), some (.bool true)) := by decide +kernel
  cases e : YamlText.read shipped with
  | none => rw [e] at h; cases h
  | some y =>
    rw [e] at h
    cases e' : y.main with
    | absent => simp only [Option.bind_some, e'] at h; cases h
    | empty => simp only [Option.bind_some, e'] at h; cases h
    | dict m =>
      simp only [Option.bind_some, e', Option.some.injEq, Prod.mk.injEq] at h
      exact ⟨y, m, rfl, e', h.1, h.2.1, h.2.2, by decide +kernel⟩

/-- With leading zeros they are dates, in quotes they are text again. -/
example : value "1950-01-01 # first".toList = some (.date (Cal.ofCivil 1950 1 1)) ∧ value "'1950-01-01'".toList = some (.str "1950-01-01") ∧
    value "1950-1-1".toList = some (.str "1950-1-1") ∧ value "1e-4".toList = some (.str "1e-4") ∧ value "1.5".toList = some (.num (3 / 2)) ∧
    value "off".toList = some (.bool false) ∧ value "~".toList = none := by decide +kernel

end Verif.Props.YamlTextExample
