import Verif.Props.DayInStepsDisk

/-!
# What the files of a run say about each other: C161
-/

namespace Verif.Props

open Flt Physics Np Dataset ConfigRead Main

section C161
variable {w : Main.World} {su : Setup} {i : Worker.Inputs} {n : Nat} {freq : Option Times.Freq} {os : List (String × String)}
  {whole : DS ℝ} {mask : Arr ℝ} {dir : Nc.Dir} (h : Left w su i whole mask n freq os dir) (hsub : (sharedOf w su).ts < 1440)
  {c : Run.Cell} (hc : Active whole mask c)

include h hsub hc

/-- **C161**: the air pressure on disk is that of the temperature on disk, at the elevation the domain file has for the cell. -/
theorem C161_pressure (hplace : PlaceTold ⟨i, whole, mask.dims, c⟩) {u : String}
    (hu : (sharedOf w su).outVars.get? "air_pressure" = some u) (hbug : u ≠ "hPa") :
    ∃ elev, PlaceAt i whole mask.dims c "elev" (fin elev) ∧ ∀ k < n, ∀ m < 1440 / (sharedOf w su).ts, ∀ T,
      Stands w su i.start n freq os dir c "temp" k m T → 0 < T - (sharedOf w su).lapseRate * elev / 2 →
      Stands w su i.start n freq os dir c "air_pressure" k m (Spec.hypsometric elev (sharedOf w su).lapseRate T) := by
  obtain ⟨order, fuel, ⟨e⟩, hi, hsrc⟩ := h.ended
  have hcomp := ((e.cell hi hsrc).2.2.2 c hc).1
  obtain ⟨elev, -, -, he, -⟩ := readout _ e.sane e.schedule e.run hsub hcomp
  have hpl := ((e.filed hi hsrc hc).place hplace).1
  rw [show (inputOf e.ld c).elev = fin elev from he] at hpl
  refine ⟨elev, hpl, fun k hk m hm T hT hT0 => ?_⟩
  exact (e.stands hcomp hk hm).2 (C79_pressure _ e.sane fuel order e.schedule e.files e.run hsub c hcomp elev he u hu hbug k hk m hm T
    ((e.stands hcomp hk hm).1 hT) hT0)

/-- **C161**: the relative humidity on disk is the vapour pressure on disk, taken a thousand times, over saturation at the temperature on disk,
and at most one. -/
theorem C161_relative {u : String} (hu : (sharedOf w su).outVars.get? "rel_humid" = some u) {k : Nat} (hk : k < n) {m : Nat}
    (hm : m < 1440 / (sharedOf w su).ts) {T p : ℝ} (hT : Stands w su i.start n freq os dir c "temp" k m T) (hT0 : 35.85 < T)
    (hp : Stands w su i.start n freq os dir c "vapor_pressure" k m p) :
    Stands w su i.start n freq os dir c "rel_humid" k m (min 1 (1000 * p / Spec.saturation (T - 273.15))) := by
  obtain ⟨order, fuel, ⟨e⟩, hi, hsrc⟩ := h.ended
  have hcomp := ((e.cell hi hsrc).2.2.2 c hc).1
  exact (e.stands hcomp hk hm).2 (C79_relative_partial _ e.sane fuel order e.schedule e.files e.run hsub c hcomp u hu k hk m hm T p
    ((e.stands hcomp hk hm).1 hT) hT0 ((e.stands hcomp hk hm).1 hp))

/-- **C161**: the specific humidity on disk follows from the vapour pressure, taken a thousand times, and the air pressure on disk. -/
theorem C161_specific (hplace : PlaceTold ⟨i, whole, mask.dims, c⟩) {u uP : String}
    (hu : (sharedOf w su).outVars.get? "spec_humid" = some u) (huP : (sharedOf w su).outVars.get? "air_pressure" = some uP) (hbug : uP ≠ "hPa") :
    ∃ elev, PlaceAt i whole mask.dims c "elev" (fin elev) ∧ ∀ k < n, ∀ m < 1440 / (sharedOf w su).ts, ∀ T e p,
      Stands w su i.start n freq os dir c "temp" k m T → 0 < T - (sharedOf w su).lapseRate * elev / 2 →
      Stands w su i.start n freq os dir c "vapor_pressure" k m e → 0 ≤ e →
      Stands w su i.start n freq os dir c "air_pressure" k m p → 1000 * e < p →
      Stands w su i.start n freq os dir c "spec_humid" k m (Spec.moisture (1000 * e) p) := by
  obtain ⟨order, fuel, ⟨e⟩, hi, hsrc⟩ := h.ended
  have hcomp := ((e.cell hi hsrc).2.2.2 c hc).1
  obtain ⟨elev, -, -, he, -⟩ := readout _ e.sane e.schedule e.run hsub hcomp
  have hpl := ((e.filed hi hsrc hc).place hplace).1
  rw [show (inputOf e.ld c).elev = fin elev from he] at hpl
  refine ⟨elev, hpl, fun k hk m hm T v p hT hT0 hv hv0 hp hp0 => ?_⟩
  exact (e.stands hcomp hk hm).2 (C79_specific_partial _ e.sane fuel order e.schedule e.files e.run hsub c hcomp elev he u hu uP huP hbug
    k hk m hm T v p ((e.stands hcomp hk hm).1 hT) hT0 ((e.stands hcomp hk hm).1 hv) hv0 ((e.stands hcomp hk hm).1 hp) hp0)

omit hsub in
/-- **C161**: and what is on disk for a step is one thing. -/
theorem C161_one {v : String} {k : Nat} (hk : k < n) {m : Nat} (hm : m < 1440 / (sharedOf w su).ts) {a b : ℝ}
    (ha : Stands w su i.start n freq os dir c v k m a) (hb : Stands w su i.start n freq os dir c v k m b) : a = b := by
  obtain ⟨order, fuel, ⟨e⟩, hi, hsrc⟩ := h.ended
  have hcomp := ((e.cell hi hsrc).2.2.2 c hc).1
  exact reads_unique e.sane hk hm ((e.stands hcomp hk hm).1 ha) ((e.stands hcomp hk hm).1 hb)

end C161

end Verif.Props
