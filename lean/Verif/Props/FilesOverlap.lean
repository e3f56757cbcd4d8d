import Verif.Props.FilesLocal
import Mathlib.Data.List.NodupEquivFin

/-!
# C108: runs over the same files whose periods overlap
-/

namespace Verif.Props

open Dataset ConfigRead Main Flt

/-- Where an image occurs once, so does what it is the image of. -/
theorem index_of_count {f : ℚ → ℚ} {l : List ℚ} {t : ℚ} (h : (l.map f).count t = 1) {j k : Nat} {x y : ℚ} (hj : l[j]? = some x)
    (hk : l[k]? = some y) (hx : f x = t) (hy : f y = t) : j = k := by
  obtain ⟨lj, ej⟩ := List.getElem?_eq_some_iff.1 hj
  obtain ⟨lk, ek⟩ := List.getElem?_eq_some_iff.1 hk
  have key : ∀ j k : Nat, ∀ (lj : j < l.length) (lk : k < l.length), f l[j] = t → f l[k] = t → j < k → False := by
    intro j k lj lk e1 e2 hlt
    have : List.Duplicate t (l.map f) := by
      rw [List.duplicate_iff_exists_distinct_get]
      refine ⟨⟨j, by simpa using lj⟩, ⟨k, by simpa using lk⟩, by simpa using hlt, ?_, ?_⟩
      · simp [e1]
      · simp [e2]
    rw [List.duplicate_iff_two_le_count] at this
    omega
  rcases Nat.lt_trichotomy j k with hlt | e | hlt
  · exact (key j k lj lk (by rw [ej, hx]) (by rw [ek, hy]) hlt).elim
  · exact e
  · exact (key k j lk lj (by rw [ek, hy]) (by rw [ej, hx]) hlt).elim

/-- A file tells one value for a variable, a cell and a day. -/
theorem told_unique {file : DS ℝ} {names : Dict String String} {dom : DS ℝ} {mdims : List String} {c : Run.Cell} {v : String} {day : Int}
    (hw : file.Wf) (hn : ∀ u u', names.get? u = some v → names.get? u' = some v → u = u') (hs : Shaped file names mdims v)
    (hl : ∀ d, (file.sizes.get? d).isSome → newName names d ∈ mdims → (file.labels d).Nodup)
    (ht : ∀ d, (file.sizes.get? d).isSome → newName names d = "time" → ((file.labels d).map fileDay).count ((day - epoch : Int) : ℚ) = 1) :
    Agree (Told file names dom mdims c v day) (Told file names dom mdims c v day) := by
  rintro x y ⟨u, raw, h1, h2, a, ix, ha, hix, rfl⟩ ⟨u', raw', h1', h2', a', ix', ha', hix', rfl⟩
  obtain rfl := hn u u' h1 h1'
  obtain rfl := Option.some.inj (ha.symm.trans ha')
  refine hw.own u a ha _ _ fun d hd => ?_
  have e := hix d hd
  have e' := hix' d hd
  have hsz := hw.var_dims u a ha d hd
  by_cases htm : newName names d = "time"
  · simp only [if_pos htm] at e e'
    exact index_of_count (ht d hsz htm) e e' h2 h2'
  · simp only [if_neg htm] at e e'
    have hm := ((hs u a h1 ha).2 d hd).resolve_left htm
    exact (List.getElem?_inj (List.getElem?_eq_some_iff.1 e).1 (hl d hsz hm)).1 (e.trans e'.symm)

/-- The domain file tells one value for a variable, a cell and a month. -/
theorem domTold_unique {i : Worker.Inputs} {dom : DS ℝ} {mdims : List String} {c : Run.Cell} {month : ℚ} {v : String} (hw : i.domFile.Wf)
    (hn : ∀ u u', i.domNames.get? u = some v → i.domNames.get? u' = some v → u = u') (hd : i.domFile.Distinct) :
    Agree (DomTold i dom mdims c month v) (DomTold i dom mdims c month v) := by
  rintro x y ⟨u, h1, h2⟩ ⟨u', h1', h2'⟩
  obtain rfl := hn u u' h1 h1'
  exact says_unique hw hd h2 h2' fun _ _ _ _ => rfl

/-- The files of a run are unequivocal: no name of the domain file or constant stands for two things, no label occurs twice on a dimension of the
domain file; the forcing brings storms only if storms are asked for. -/
structure Unequivocal (s : Cell.Shared) (i : Worker.Inputs) : Prop where
  names : ∀ v u u', i.domNames.get? u = some v → i.domNames.get? u' = some v → u = u'
  labels : i.domFile.Distinct
  constants : (i.constants.map Prod.fst).Nodup
  storms : ¬ Storms s → ¬ Provided i "dur" ∧ ¬ Provided i "t_pk"

/-- Two runs read the same domain, the same forcing and the same constants. -/
structure SameFiles (i i' : Worker.Inputs) : Prop where
  domFile : i'.domFile = i.domFile
  domNames : i'.domNames = i.domNames
  forcing : i'.forcing = i.forcing
  names : i'.names = i.names
  constants : i'.constants = i.constants

section
variable {i i' : Worker.Inputs} {s : Cell.Shared} {whole whole' : DS ℝ} {mask mask' : Arr ℝ} {n n' : Nat}

theorem SameFiles.dom (h : SameFiles i i') (hsrc : Sources i s whole mask n) (hsrc' : Sources i' s whole' mask' n') :
    whole' = whole ∧ mask' = mask := by
  have h1 := hsrc'.dom
  rw [h.domFile, h.domNames, hsrc.dom] at h1
  obtain rfl := Except.ok.inj h1
  refine ⟨rfl, ?_⟩
  have h2 := hsrc'.hasMask
  rw [hsrc.hasMask] at h2
  exact (Option.some.inj h2).symm

variable (hi : Worker.Sound i) (hsrc : Sources i s whole mask n)
include hi hsrc

theorem forcing_unique {v : String} (hs : Shaped i.forcing i.names mask.dims v) (c : Run.Cell) {k : Nat} (hk : k < n) :
    Agree (Told i.forcing i.names whole mask.dims c v (i.start + k)) (Told i.forcing i.names whole mask.dims c v (i.start + k)) := by
  obtain ⟨wf, -⟩ := whole_ok hi.domFile hi.domNames hsrc.dom
  refine told_unique hi.forcing ?_ hs ?_ ?_
  · intro u u' h1 h2
    refine hsrc.force.fresh u u' (.inl (Dict.mem_keys_of_get? _ h1)) (.inl (Dict.mem_keys_of_get? _ h2)) ?_
    show newName i.names u = newName i.names u'
    unfold newName
    rw [h1, h2]; rfl
  · intro d hd hm
    obtain ⟨c, h1, h2, -⟩ := hsrc.force.covers d hd (wf.var_dims _ _ hsrc.hasMask _ hm)
    have : i.forcing.labels d = c := by
      unfold DS.labels
      rw [show i.forcing.coords.get? d = some c from h1]
    rw [this]
    exact h2
  · exact fun d hd ht => (hsrc.forceDays d ht hd).2 k hk

theorem state_unique {v : String} (hv : v ∈ ["prec", "t_min", "t_max"]) (c : Run.Cell) {k : Nat} (hk : k < 90) :
    Agree (Told i.stateFile i.stateNames whole mask.dims c v (i.start - 90 + k))
      (Told i.stateFile i.stateNames whole mask.dims c v (i.start - 90 + k)) := by
  obtain ⟨wf, -⟩ := whole_ok hi.domFile hi.domNames hsrc.dom
  refine told_unique hi.stateFile ?_ (hsrc.pastShape v hv) ?_ ?_
  · intro u u' h1 h2
    refine hsrc.past.fresh u u' (.inl (Dict.mem_keys_of_get? _ h1)) (.inl (Dict.mem_keys_of_get? _ h2)) ?_
    show newName i.stateNames u = newName i.stateNames u'
    unfold newName
    rw [h1, h2]; rfl
  · intro d hd hm
    obtain ⟨c, h1, h2, -⟩ := hsrc.past.covers d hd (wf.var_dims _ _ hsrc.hasMask _ hm)
    have : i.stateFile.labels d = c := by
      unfold DS.labels
      rw [show i.stateFile.coords.get? d = some c from h1]
    rw [this]
    exact h2
  · exact fun d hd ht => (hsrc.pastDays d ht hd).2 k hk

theorem dayTold_unique {v : String} (hv : v ∈ ["prec", "t_min", "t_max"]) (c : Run.Cell) {d : Int} (h1 : i.start - 90 ≤ d) (h2 : d < i.start + n) :
    Agree (DayTold i whole mask.dims c v d) (DayTold i whole mask.dims c v d) := by
  unfold DayTold
  by_cases hlt : d < i.start
  · simp only [if_pos hlt]
    have := state_unique hi hsrc hv c (k := (d - (i.start - 90)).toNat) (by omega)
    rwa [show i.start - 90 + ((d - (i.start - 90)).toNat : Int) = d by omega] at this
  · simp only [if_neg hlt]
    have := forcing_unique hi hsrc (hsrc.forceShape v hv) c (k := (d - i.start).toNat) (by omega)
    rwa [show i.start + ((d - i.start).toNat : Int) = d by omega] at this

theorem givenFor_unique {v : String} (hu : Unequivocal s i) (hs : v ∉ i.constants.map Prod.fst → Shaped i.forcing i.names mask.dims v)
    (c : Run.Cell) {k : Nat} (hk : k < n) : Agree (GivenFor i whole mask.dims c v (i.start + k)) (GivenFor i whole mask.dims c v (i.start + k)) := by
  rintro x y (⟨r, h1, rfl⟩ | ⟨h1, h2⟩) (⟨r', h1', rfl⟩ | ⟨h1', h2'⟩)
  · have e1 := Dict.get?_of_mem _ (by simpa [Dict.keys] using hu.constants) h1
    have e2 := Dict.get?_of_mem _ (by simpa [Dict.keys] using hu.constants) h1'
    rw [Option.some.inj (e1.symm.trans e2)]
  · exact absurd (List.mem_map.2 ⟨_, h1, rfl⟩) h1'
  · exact absurd (List.mem_map.2 ⟨_, h1', rfl⟩) h1
  · exact forcing_unique hi hsrc (hs h1) c hk _ _ h2 h2'

theorem monthValue_unique (hu : Unequivocal s i) {v : String} (c : Run.Cell) {k : Nat} (hk : k < n) :
    Agree (MonthValue i whole mask.dims c v (i.start + k)) (MonthValue i whole mask.dims c v (i.start + k)) := by
  unfold MonthValue
  by_cases h : (Cal.monthDay (i.start + k)).1 = 12
  · simp only [if_pos h]
    exact forcing_unique hi hsrc (hsrc.forceShape "prec" (by simp)) c hk
  · simp only [if_neg h]
    exact domTold_unique hi.domFile (hu.names v) hu.labels

/-- Of a day both have in their forcing, two runs over the same files are told the same. -/
theorem overlap_alike (hu : Unequivocal s i) (h : SameFiles i i') {names : List String} {c : Run.Cell} (hr : Regular names ⟨i, whole, mask.dims, c⟩)
    {k : Nat} (hk : k < n) (hk' : i'.start ≤ i.start + k) :
    ToldAlike s names ⟨i, whole, mask.dims, c⟩ ⟨i', whole, mask.dims, c⟩ (i.start + k) := by
  have hg : ∀ v, GivenFor i' whole mask.dims c v (i.start + k) = GivenFor i whole mask.dims c v (i.start + k) := by
    intro v; unfold GivenFor; rw [h.constants, h.forcing, h.names]
  have hm : ∀ v, MonthValue i' whole mask.dims c v (i.start + k) = MonthValue i whole mask.dims c v (i.start + k) := by
    intro v; unfold MonthValue DomTold; rw [h.domFile, h.domNames, h.forcing, h.names]
  have ht : ∀ v, DayTold i' whole mask.dims c v (i.start + k) = DayTold i whole mask.dims c v (i.start + k) := by
    intro v; funext x; unfold DayTold
    rw [if_neg (by omega), if_neg (by omega), h.forcing, h.names]
  have hp : ∀ v, Provided i' v ↔ Provided i v := by
    intro v; unfold Provided; rw [h.constants, h.names]
  intro v hv
  refine ⟨fun h1 => ?_, fun h1 => ⟨fun _ => ?_, fun h2 => ?_⟩, fun h1 h2 => ⟨(hp v).symm, ?_⟩⟩
  · show Agree (DayTold i whole mask.dims c v (i.start + k)) (DayTold i' whole mask.dims c v (i.start + k))
    rw [ht]
    exact dayTold_unique hi hsrc h1 c (by omega) (by omega)
  · show Agree (MonthValue i whole mask.dims c v (i.start + k)) (MonthValue i' whole mask.dims c v (i.start + k))
    rw [hm]
    exact monthValue_unique hi hsrc hu c hk
  · show ¬ Provided i v ∧ ¬ Provided i' v
    rw [hp]
    have := hu.storms h2
    simp only [List.mem_cons, List.not_mem_nil, or_false] at h1
    rcases h1 with rfl | rfl
    exacts [⟨this.1, this.1⟩, ⟨this.2, this.2⟩]
  · show Agree (GivenFor i whole mask.dims c v (i.start + k)) (GivenFor i' whole mask.dims c v (i.start + k))
    rw [hg]
    exact givenFor_unique hi hsrc hu (hr.1 v hv h1) c hk

theorem place_alike (hu : Unequivocal s i) (h : SameFiles i i') (c : Run.Cell) (v : String) :
    Agree (PlaceAt i whole mask.dims c v) (PlaceAt i' whole mask.dims c v) := by
  have hp : PlaceAt i' whole mask.dims c v = PlaceAt i whole mask.dims c v := by
    unfold PlaceAt DomTold; rw [h.domFile, h.domNames]
  rw [hp]
  rintro x y ⟨h1, h2⟩ ⟨h1', h2'⟩
  by_cases hv : whole.vars.get? v = none
  · rw [h2 hv, h2' hv]
  · exact domTold_unique hi.domFile (hu.names v) hu.labels _ _ (h1 hv) (h1' hv)

/-- The days two runs over the same files have in common, except the last: and except the first unless it is the first of both and they start
from the same state. -/
structure Common (i i' : Worker.Inputs) (n n' a b : Nat) : Prop where
  files : SameFiles i i'
  date : i.start + a = i'.start + b
  first : 0 < a ∧ 0 < b ∨ a = 0 ∧ b = 0 ∧ i'.stateFile = i.stateFile ∧ i'.stateNames = i.stateNames
  within : a + 1 < n
  within' : b + 1 < n'

omit hi hsrc in
theorem Common.alike {a b : Nat} (hi : Worker.Sound i) (hsrc : Sources i s whole mask n) (h : Common i i' n n' a b) (hu : Unequivocal s i)
    {near own : List String} {c : Run.Cell} (hr : Regular own ⟨i, whole, mask.dims, c⟩) (hnear : ∀ v ∈ near, v ∈ own) :
    FilesAlike s near own ⟨i, whole, mask.dims, c⟩ ⟨i', whole, mask.dims, c⟩ n n' a b := by
  have w1 := h.within
  have w2 := h.within'
  have hdate := h.date
  have hrn : Regular near ⟨i, whole, mask.dims, c⟩ := ⟨fun v hv => hr.1 v (hnear v hv), hr.2⟩
  refine ⟨fun v _ => place_alike hi hsrc hu h.files c v, hdate, ?_, ?_, overlap_alike hi hsrc hu h.files hr (by omega) (by omega), ?_, w1, w2⟩
  · rcases h.first with h | h <;> omega
  · rcases h.first with ⟨h0, h0'⟩ | ⟨h0, h0', e1, e2⟩
    · rw [if_neg (by omega)]
      have := overlap_alike hi hsrc hu h.files hrn (k := a - 1) (by omega) (by omega)
      rwa [show i.start + ((a - 1 : Nat) : Int) = i.start + a - 1 by omega] at this
    · rw [if_pos h0]
      show ToldAlike s extremes ⟨i, whole, mask.dims, c⟩ ⟨i', whole, mask.dims, c⟩ (i.start + a - 1)
      intro v hv
      have hv3 := (show ∀ v ∈ extremes, v ∈ ["prec", "t_min", "t_max"] by decide) v hv
      have hvs := (show ∀ v ∈ extremes, v ∉ ["dur", "t_pk"] by decide) v hv
      refine ⟨fun _ => ?_, fun h => absurd h hvs, fun _ h => absurd hv3 h⟩
      show Agree (DayTold i whole mask.dims c v (i.start + a - 1)) (DayTold i' whole mask.dims c v (i.start + a - 1))
      have : DayTold i' whole mask.dims c v (i.start + a - 1) = DayTold i whole mask.dims c v (i.start + a - 1) := by
        funext x
        unfold DayTold
        rw [if_pos (by omega), if_pos (by omega), e1, e2]
      rw [this]
      exact dayTold_unique hi hsrc hv3 c (by omega) (by omega)
  · have := overlap_alike hi hsrc hu h.files hrn (k := a + 1) (by omega) (by omega)
    rwa [show i.start + ((a + 1 : Nat) : Int) = i.start + a + 1 by push_cast; ring] at this

end

section
variable {w w' : World} {su su' : Setup} {i i' : Worker.Inputs} {n n' : Nat} {freq freq' : Option Times.Freq}
  {os os' : List (String × String)} {whole whole' : DS ℝ} {mask mask' : Arr ℝ} {dir dir' : Nc.Dir}

/-- **C108**: two runs over the same domain and forcing files, with radiation and humidity passed through, leave the same on disk for every day
they have in common but the first and the last; also for the first if it is the first of both and they start from the same state. -/
theorem C108_overlap (h : Left w su i whole mask n freq os dir) (h' : Left w' su' i' whole' mask' n' freq' os' dir')
    (hs : sharedOf w su = sharedOf w' su') (hsub : (sharedOf w su).ts < 1440) (hloc : (sharedOf w su).utcOffset = false)
    (hm : (sharedOf w su).method = .passthrough) (hun : Unequivocal (sharedOf w su) i) {a b : Nat} (hcom : Common i i' n n' a b)
    {c : Run.Cell} (hc : Active whole mask c)
    (hp : PlausibleFiles i (sharedOf w su) whole mask.dims n c) (hp' : PlausibleFiles i' (sharedOf w' su') whole mask.dims n' c)
    (hr : RadiationGiven i whole mask.dims n c) (hr' : RadiationGiven i' whole mask.dims n' c)
    {v : String} (hv : v ∈ (sharedOf w su).outVars.keys) : SameOnDisk w w' su su' i i' n n' freq freq' os os' dir dir' c c v a := by
  obtain ⟨-, -, -, hi, hsrc⟩ := h.ended
  obtain ⟨-, -, -, hi', hsrc'⟩ := h'.ended
  obtain ⟨rfl, rfl⟩ := hcom.files.dom hsrc (hs ▸ hsrc')
  have shapes : ∀ v ∈ passed, v ∉ added → v ∈ ["prec", "t_min", "t_max", "wind"] ∨ v ∈ ["shortwave", "vapor_pressure", "tskc"] := by decide
  exact C108_passthrough h h' hs hsub hloc hm hc hc hp hp' hr hr'
    (hcom.alike hi hsrc hun (regular_of hp (fun v hv ha => (shapes v hv ha).imp id fun h => (hr v h).2.1) hsrc) (by decide)) hv

/-- **C108**: with everything estimated, so it is for temperature, pressure, rain and wind. -/
theorem C108_overlap_estimated (h : Left w su i whole mask n freq os dir) (h' : Left w' su' i' whole' mask' n' freq' os' dir')
    (hs : sharedOf w su = sharedOf w' su') (hsub : (sharedOf w su).ts < 1440) (hloc : (sharedOf w su).utcOffset = false)
    (hm : (sharedOf w su).method = .mtclim) (hsp : SaneParams (sharedOf w su)) (hcl : Lw.upperS (sharedOf w su).lwCloud = "CLOUD_DEARDORFF")
    (hun : Unequivocal (sharedOf w su) i) {a b : Nat} (hcom : Common i i' n n' a b) {c : Run.Cell} (hc : Active whole mask c)
    (hp : PlausibleFiles i (sharedOf w su) whole mask.dims n c) (hp' : PlausibleFiles i' (sharedOf w' su') whole mask.dims n' c)
    {v : String} (hv : v ∈ (sharedOf w su).outVars.keys) (hkind : v ∈ ["temp", "air_pressure", "prec", "wind"]) :
    SameOnDisk w w' su su' i i' n n' freq freq' os os' dir dir' c c v a := by
  obtain ⟨-, -, -, hi, hsrc⟩ := h.ended
  obtain ⟨-, -, -, hi', hsrc'⟩ := h'.ended
  obtain ⟨rfl, rfl⟩ := hcom.files.dom hsrc (hs ▸ hsrc')
  have shapes : ∀ v ∈ given, v ∉ added → v ∈ ["prec", "t_min", "t_max", "wind"] := by decide
  exact C108_mtclim h h' hs hsub hloc hm hsp hcl hc hc hp hp'
    (hcom.alike hi hsrc hun (regular_of hp (fun v hv ha => .inl (shapes v hv ha)) hsrc) (by decide)) hv
    ((show ∀ v ∈ ["temp", "air_pressure", "prec", "wind"], v ∈ ["temp", "air_pressure", "prec", "wind", "tskc"] by decide) v hkind)
    (fun e => absurd hkind (by subst e; decide))

end

end Verif.Props
