import Verif.Props.DailyLocal
import Verif.Props.FilesLocal

/-!
# C146: a daily record on disk is made from what the files tell about that day
-/

namespace Verif.Props

open Dataset ConfigRead Main Flt

/-- What counts of a day for a variable, the diurnal range and its mean aside. -/
def dailyTold (m : Cell.Method) (v : String) : List String :=
  (needsDaily m v).columns.filter fun k => decide (k ≠ "dtr" ∧ k ≠ "smoothed_dtr")

theorem needs_known (m : Cell.Method) (v k : String) (h : k ∈ (needsDaily m v).columns) :
    k = v ∨ k ∉ ["day_of_year", "elev", "lat", "lon"] := by
  have : (needsDaily m v).columns = [v] ∨ ∀ k ∈ (needsDaily m v).columns, k ∉ ["day_of_year", "elev", "lat", "lon"] := by
    unfold needsDaily
    cases m <;> split <;> first | exact Or.inl rfl | exact Or.inr (by decide)
  rcases this with e | e
  · rw [e] at h
    exact Or.inl (List.mem_singleton.1 h)
  · exact Or.inr (e k h)

/-- Where a cell lies is told by the domain. -/
def PlaceTold (p : Site) : Prop :=
  ∀ v ∈ ["elev", "lat", "lon"], v ∉ p.i.constants.map Prod.fst ∧ (∀ u, p.i.names.get? u ≠ some v) ∧
    ∀ a, p.dom.vars.get? v = some a → ∀ d ∈ a.dims, d ∈ p.mdims

/-- The files of two runs tell the same of a day for a variable: what counts of that day, the extremes of the thirty days up to it if the range
counts, and where the cells lie if that counts. -/
structure DayAlike (s : Cell.Shared) (v : String) (p p' : Site) (a b : Nat) : Prop where
  date : p.i.start + a = p'.i.start + b
  lat : (needsDaily s.method v).lat = true → Agree (PlaceAt p.i p.dom p.mdims p.cell "lat") (PlaceAt p'.i p'.dom p'.mdims p'.cell "lat")
  elev : (needsDaily s.method v).elev = true → Agree (PlaceAt p.i p.dom p.mdims p.cell "elev") (PlaceAt p'.i p'.dom p'.mdims p'.cell "elev")
  day : ToldAlike s (dailyTold s.method v) p p' (p.i.start + a)
  range : "dtr" ∈ (needsDaily s.method v).columns ∨ "smoothed_dtr" ∈ (needsDaily s.method v).columns →
    ∀ d, p.i.start + a - 30 < d → d ≤ p.i.start + a → ToldAlike s extremes p p' d

section
variable {w w' : World} {su su' : Setup} {i i' : Worker.Inputs} {n n' : Nat} {freq freq' : Option Times.Freq}
  {os os' : List (String × String)} {whole whole' : DS ℝ} {mask mask' : Arr ℝ} {dir dir' : Nc.Dir}

/-- **C146**: what two runs in daily steps leave on disk for a day is the same if their files tell the same about that day. -/
theorem C146_files (h : Left w su i whole mask n freq os dir) (h' : Left w' su' i' whole' mask' n' freq' os' dir')
    (hs : sharedOf w su = sharedOf w' su') (hday : (sharedOf w su).ts = 1440) {c c' : Run.Cell} (hc : Active whole mask c)
    (hc' : Active whole' mask' c') (hpl : PlaceTold ⟨i, whole, mask.dims, c⟩) (hpl' : PlaceTold ⟨i', whole', mask'.dims, c'⟩)
    {v : String} (hv : v ∈ (sharedOf w su).outVars.keys)
    (hest : (sharedOf w su).method = .mtclim → v ∉ ["vapor_pressure", "shortwave", "tdew", "pet"])
    (hseason : "seasonal_prec" ∉ (needsDaily (sharedOf w su).method v).columns) (hown : v ∉ ["day_of_year", "elev", "lat", "lon"])
    (hr : Regular (dailyTold (sharedOf w su).method v) ⟨i, whole, mask.dims, c⟩)
    (hr' : Regular (dailyTold (sharedOf w su).method v) ⟨i', whole', mask'.dims, c'⟩) {a b : Nat} (ha : a < n) (hb : b < n')
    (hf : DayAlike (sharedOf w su) v ⟨i, whole, mask.dims, c⟩ ⟨i', whole', mask'.dims, c'⟩ a b) :
    SameOnDisk w w' su su' i i' n n' freq freq' os os' dir dir' c c' v a := by
  obtain ⟨order, fuel, ⟨e⟩, hi, hsrc⟩ := h.ended
  obtain ⟨order', fuel', ⟨e'⟩, hi', hsrc'⟩ := h'.ended
  obtain ⟨-, -, -, hcell⟩ := e.cell hi hsrc
  obtain ⟨-, -, -, hcell'⟩ := e'.cell hi' hsrc'
  obtain ⟨hcomp, -, -, -⟩ := hcell c hc
  obtain ⟨hcomp', -, -, -⟩ := hcell' c' hc'
  obtain ⟨u, hu⟩ := Option.isSome_iff_exists.1 ((Dict.isSome_iff _ _).2 hv)
  have fd := e.filed hi hsrc hc
  have fd' : Filed ⟨i', whole', mask'.dims, c'⟩ (sharedOf w su) n' (inputOf e'.ld c') := hs ▸ e'.filed hi' hsrc' hc'
  obtain ⟨l1, l2, -⟩ := fd.place hpl
  obtain ⟨l1', l2', -⟩ := fd'.place hpl'
  have known : ∀ k ∈ dailyTold (sharedOf w su).method v, k ∈ added → k ∈ ["dur", "t_pk"] := by
    intro k hk hadd
    unfold dailyTold at hk
    rw [List.mem_filter] at hk
    obtain ⟨k1, k2⟩ := hk
    have k2 := of_decide_eq_true k2
    have hk4 : k ∉ ["day_of_year", "elev", "lat", "lon"] := by
      intro hk
      have := needs_known (sharedOf w su).method v k k1
      rcases this with rfl | this
      · exact hown hk
      · exact this hk
    have hk5 : k ≠ "seasonal_prec" := fun e => hseason (e ▸ k1)
    simp only [added, List.mem_cons, List.not_mem_nil, or_false, not_or] at hadd hk4 ⊢
    tauto
  have hcols : AlikeAt (needsDaily (sharedOf w su).method v).columns (inputOf e.ld c).data.frame (inputOf e'.ld c').data.frame a b := by
    have h1 := told_alike fd fd' ha hb hr hr' hf.date hf.day known
    intro k hk
    by_cases hkr : k ∈ ["dtr", "smoothed_dtr"]
    · refine range_alike fd fd' ha hb hf.date (hf.range ?_) k hkr
      simp only [List.mem_cons, List.not_mem_nil, or_false] at hkr
      rcases hkr with rfl | rfl
      exacts [Or.inl hk, Or.inr hk]
    · refine h1 k ?_
      unfold dailyTold
      rw [List.mem_filter]
      simp only [List.mem_cons, List.not_mem_nil, or_false, not_or] at hkr
      exact ⟨hk, decide_eq_true hkr⟩
  have hdate : (jobOfSetup w su i e.ld n freq os).d0 + a = (jobOfSetup w' su' i' e'.ld n' freq' os').d0 + b := by
    show i.start - 730120 + (a : Int) = i'.start - 730120 + (b : Int)
    have : i.start + (a : Int) = i'.start + (b : Int) := hf.date
    omega
  obtain ⟨_, _, _, -, -, -, _, _, -, hcol⟩ := written_daily _ e.sane e.schedule e.run hday hcomp
  obtain ⟨_, val, -, r1, -⟩ := hcol v u hu
  obtain ⟨_, _, _, -, -, -, _, _, -, hcol'⟩ := written_daily _ e'.sane e'.schedule e'.run (show (sharedOf w' su').ts = 1440 from hs ▸ hday) hcomp'
  obtain ⟨_, val', -, r2, -⟩ := hcol' v u (by have := hu; rw [hs] at this; exact this)
  obtain ⟨-, r3⟩ := C146_day _ _ e.sane e'.sane hs fuel fuel' order order' e.schedule e'.schedule e.files e'.files e.run e'.run hday c c' hcomp hcomp'
    v u hu hest a b ha hb hdate ⟨hcols, fun h => hf.lat h _ _ l2 l2', fun h => hf.elev h _ _ l1 l1'⟩ val val' r1 r2
  intro m hm
  have hm0 : m = 0 := by
    rw [hday] at hm
    omega
  subst hm0
  refine ⟨_, e.disk v hv c val r1 a ha 0 hm, ?_⟩
  have := e'.disk v (by have := hv; rw [hs] at this; exact this) c' val' r2 b hb 0 (by rw [← hs]; exact hm)
  rw [← r3, ← hs, ← minute_date hf.date] at this
  exact this

end

end Verif.Props
