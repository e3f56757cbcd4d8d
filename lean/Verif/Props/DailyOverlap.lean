import Verif.Props.DailyLocalFiles
import Verif.Props.FilesOverlap

/-!
# C146: daily runs over the same files whose periods overlap
-/

namespace Verif.Props

open Dataset ConfigRead Main Flt

section
variable {w w' : World} {su su' : Setup} {i i' : Worker.Inputs} {n n' : Nat} {freq freq' : Option Times.Freq}
  {os os' : List (String × String)} {whole whole' : DS ℝ} {mask mask' : Arr ℝ} {dir dir' : Nc.Dir}

/-- **C146**: two runs in daily steps over the same domain and forcing files leave the same on disk for every day they have in common, the first
and the last included; for what comes from the range of temperature, from the thirtieth day of both on. -/
theorem C146_overlap (h : Left w su i whole mask n freq os dir) (h' : Left w' su' i' whole' mask' n' freq' os' dir')
    (hs : sharedOf w su = sharedOf w' su') (hday : (sharedOf w su).ts = 1440) (hf : SameFiles i i') (hun : Unequivocal (sharedOf w su) i)
    {c : Run.Cell} (hc : Active whole mask c) (hpl : PlaceTold ⟨i, whole, mask.dims, c⟩)
    {v : String} (hv : v ∈ (sharedOf w su).outVars.keys)
    (hest : (sharedOf w su).method = .mtclim → v ∉ ["vapor_pressure", "shortwave", "tdew", "pet"])
    (hseason : "seasonal_prec" ∉ (needsDaily (sharedOf w su).method v).columns) (hown : v ∉ ["day_of_year", "elev", "lat", "lon"])
    (hr : Regular (dailyTold (sharedOf w su).method v) ⟨i, whole, mask.dims, c⟩) {a b : Nat} (ha : a < n) (hb : b < n')
    (hdate : i.start + a = i'.start + b)
    (hrange : "dtr" ∈ (needsDaily (sharedOf w su).method v).columns ∨ "smoothed_dtr" ∈ (needsDaily (sharedOf w su).method v).columns →
      29 ≤ a ∧ 29 ≤ b ∧ Regular extremes ⟨i, whole, mask.dims, c⟩) :
    SameOnDisk w w' su su' i i' n n' freq freq' os os' dir dir' c c v a := by
  obtain ⟨-, -, -, hi, hsrc⟩ := h.ended
  obtain ⟨-, -, -, hi', hsrc'⟩ := h'.ended
  obtain ⟨rfl, rfl⟩ := hf.dom hsrc (hs ▸ hsrc')
  have hpl' : PlaceTold ⟨i', whole', mask'.dims, c⟩ := by
    unfold PlaceTold at hpl ⊢
    simp only [hf.constants, hf.names]
    exact hpl
  have hr' : Regular (dailyTold (sharedOf w su).method v) ⟨i', whole', mask'.dims, c⟩ := by
    unfold Regular at hr ⊢
    simp only [hf.constants, hf.names, hf.forcing] at hr ⊢
    exact hr
  refine C146_files h h' hs hday hc hc hpl hpl' hv hest hseason hown hr hr' ha hb
    ⟨hdate, fun _ => place_alike hi hsrc hun hf c "lat", fun _ => place_alike hi hsrc hun hf c "elev",
      overlap_alike hi hsrc hun hf hr ha (by omega), fun hk d h1 h2 => ?_⟩
  obtain ⟨e1, e2, hre⟩ := hrange hk
  have h1 : i.start + (a : Int) - 30 < d := h1
  have h2 : d ≤ i.start + (a : Int) := h2
  have := overlap_alike hi hsrc hun hf hre (k := (d - i.start).toNat) (by omega) (by omega)
  rwa [show i.start + ((d - i.start).toNat : Int) = d by omega] at this

end

end Verif.Props
