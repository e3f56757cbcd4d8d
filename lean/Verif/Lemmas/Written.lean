import Verif.Props.Cell

/-!
# Reading the output files of a run

What the files of a run hold, by day and step, in terms of the columns computed for the cell.
-/

namespace Verif.Props

open Flt Cell Methods

/-- The files hold, for cell `c` and variable `v`, the values `val` at the stamps of the output. -/
def Recorded (j : Job) (files : Run.Files Output) (v : String) (c : Run.Cell) (val : ℚ → Flt ℝ) : Prop :=
  ∃ st : Stamps j, st.files.flatten = st.axis ∧ Holds j files st.files (j.names v) c val

/-- The stamp of step `i` of day `k`, in minutes: its beginning, or its end if so wanted. -/
def Job.stamp (j : Job) (k i : Nat) : ℚ :=
  1440 * (j.d0 + k) + j.shared.ts * i + if j.shared.periodEnding then (j.shared.ts : ℚ) else 0

theorem stamp_getElem (j : Job) (hj : j.Sane) (st : Stamps j) {k i : Nat} (hk : k < j.n) (hi : i < 1440 / j.shared.ts) :
    st.axis[k * (1440 / j.shared.ts) + i]? = some (j.stamp k i) := by
  have h := st.h_axis
  rw [show j.shared.cfg = ⟨j.shared.ts, j.shared.calendar, j.shared.periodEnding⟩ from rfl,
    outputTimes_grid _ _ _ hj.step j.d0 j.n hj.pos hj.calendar] at h
  injection h with h
  rw [← h, Times.getElem?_grid]
  · congr 1
    unfold Job.stamp
    have h1 := hj.step.mulZ
    have h2 : ((1440 / j.shared.ts : Nat) : ℚ) * j.shared.ts = 1440 := by exact_mod_cast h1
    clear h1
    generalize 1440 / j.shared.ts = m at h2
    push_cast [apply_ite (Int.cast : Int → ℚ)]
    rw [add_mul, mul_assoc, h2]
    ring
  · calc k * (1440 / j.shared.ts) + i < k * (1440 / j.shared.ts) + 1440 / j.shared.ts := by omega
      _ = (k + 1) * (1440 / j.shared.ts) := by ring
      _ ≤ j.n * (1440 / j.shared.ts) := Nat.mul_le_mul_right _ hk

theorem stamp_mem (j : Job) (hj : j.Sane) (st : Stamps j) {k i : Nat} (hk : k < j.n) (hi : i < 1440 / j.shared.ts) :
    j.stamp k i ∈ st.axis := List.mem_of_getElem? (stamp_getElem j hj st hk hi)

/-- Sub-daily output: the values written are those of the frame `disaggregate` gives, converted. -/
theorem written_sub (j : Job) (hj : j.Sane) {fuel : Nat} {order : List (Dict String Chunk.Slice)} (ho : j.Schedule order)
    {files : Run.Files Output} (hrun : j.run fuel order = .ok files) (hsub : j.shared.ts < 1440) {c : Run.Cell}
    (hc : j.Computed c) :
    ∃ elev lat lon, (j.inp c).elev = fin elev ∧ (j.inp c).lat = fin lat ∧ (j.inp c).lon = fin lon ∧
    ∃ (k : Common fuel j.shared elev lat lon (j.inp c).data) (daily : Disaggregate.Daily) (sub : Disaggregate.Sub),
      dailyOf (j.inp c).data.days k.base = .ok daily ∧
      Disaggregate.disaggregate daily (j.shared.sub elev lon) k.geom
        (some [(j.inp c).data.stateEnd.1, (j.inp c).data.stateEnd.2]) none = .ok sub ∧
      ∀ v u, j.shared.outVars.get? v = some u → ∃ col val, subColumn sub v = .ok col ∧ Recorded j files v c val ∧
        ∀ k < j.n, ∀ i < 1440 / j.shared.ts,
          Units.convert v u (col.getD (k * (1440 / j.shared.ts) + i) nan) j.shared.ts = .ok (val (j.stamp k i)) := by
  obtain ⟨st, hst, hcells, -⟩ := (C70_files j hj fuel order ho).2 files hrun
  obtain ⟨r, hr, -, hvals⟩ := hcells c hc
  obtain ⟨elev, lat, lon, h1, h2, h3, k, daily, sub, h4, h5, h6⟩ := own_sub hsub hj.step hj.pos hj.calendar (hj.data c) hj.vars hr
  refine ⟨elev, lat, lon, h1, h2, h3, k, daily, sub, h4, h5, ?_⟩
  intro v u hv
  have hmem : v ∈ j.shared.outVars.keys := by
    by_contra hn
    rw [(Dict.get?_eq_none_iff _ _).2 hn] at hv
    cases hv
  obtain ⟨val, g1, g2⟩ := hvals v hmem
  obtain ⟨col, vals, a1, a2, a3, a4⟩ := h6 v u hv
  refine ⟨col, val, a1, ⟨st, hst, g2⟩, ?_⟩
  intro d hd i hi
  rw [g1] at a2
  injection a2 with a2
  apply a4
  rw [← a2, List.getElem?_map, stamp_getElem j hj st hd hi]
  rfl

/-- Daily output: the values written are those of the frame of the method, converted. -/
theorem written_daily (j : Job) (hj : j.Sane) {fuel : Nat} {order : List (Dict String Chunk.Slice)} (ho : j.Schedule order)
    {files : Run.Files Output} (hrun : j.run fuel order = .ok files) (hday : j.shared.ts = 1440) {c : Run.Cell}
    (hc : j.Computed c) :
    ∃ elev lat lon, (j.inp c).elev = fin elev ∧ (j.inp c).lat = fin lat ∧ (j.inp c).lon = fin lon ∧
    ∃ (k : Common fuel j.shared elev lat lon (j.inp c).data) (rep : Frame), dailyShortwave k.base = .ok rep ∧
      ∀ v u, j.shared.outVars.get? v = some u → ∃ col val, Dict.get? rep v = some col ∧ Recorded j files v c val ∧
        ∀ k < j.n, Units.convert v u (col k) j.shared.ts = .ok (val (j.stamp k 0)) := by
  obtain ⟨st, hst, hcells, -⟩ := (C70_files j hj fuel order ho).2 files hrun
  obtain ⟨r, hr, -, hvals⟩ := hcells c hc
  obtain ⟨elev, lat, lon, h1, h2, h3, k, rep, h4, h6⟩ := own_daily hday hj.pos hj.calendar (hj.data c) hj.vars hr
  refine ⟨elev, lat, lon, h1, h2, h3, k, rep, h4, ?_⟩
  intro v u hv
  have hmem : v ∈ j.shared.outVars.keys := by
    by_contra hn
    rw [(Dict.get?_eq_none_iff _ _).2 hn] at hv
    cases hv
  obtain ⟨val, g1, g2⟩ := hvals v hmem
  obtain ⟨col, vals, a1, a2, a3, a4⟩ := h6 v u hv
  obtain ⟨f, b1, rfl⟩ := Cell.column_ok.1 a1
  refine ⟨f, val, b1, ⟨st, hst, g2⟩, ?_⟩
  intro d hd
  rw [g1] at a2
  injection a2 with a2
  have hone : 1440 / j.shared.ts = 1 := by rw [hday]
  have := a4 d (val (j.stamp d 0)) (by
    have h := stamp_getElem j hj st hd (i := 0) (by rw [hone]; exact Nat.one_pos)
    rw [hone, Nat.mul_one, Nat.add_zero] at h
    rw [← a2, List.getElem?_map, h]
    rfl)
  rwa [List.getD_eq_getElem?_getD, List.getElem?_map, List.getElem?_range hd] at this

/-- The same files hold only one series. -/
theorem recorded_unique (j : Job) (hj : j.Sane) {files : Run.Files Output} {v : String} {c : Run.Cell} {a b : ℚ → Flt ℝ}
    (ha : Recorded j files v c a) (hb : Recorded j files v c b) {k i : Nat} (hk : k < j.n) (hi : i < 1440 / j.shared.ts) :
    a (j.stamp k i) = b (j.stamp k i) := by
  obtain ⟨st, h1, h2⟩ := ha
  obtain ⟨st', h1', h2'⟩ := hb
  have hf : st.files = st'.files := by
    have := st.h_files.symm.trans st'.h_files
    injection this
  have hm := stamp_mem j hj st hk hi
  rw [← h1] at hm
  obtain ⟨g, hg, hm⟩ := List.mem_flatten.1 hm
  obtain ⟨f, o, q1, q2, q3⟩ := h2 g hg
  obtain ⟨f', o', q1', q2', q3'⟩ := h2' g (hf ▸ hg)
  rw [q1] at q1'
  injection q1' with e
  subst e
  rw [q2] at q2'
  injection q2' with e
  subst e
  rw [q3] at q3'
  injection q3' with e
  exact List.map_inj_left.1 e _ hm

/-- The conversion of a defined value, as a statement about quantities. -/
theorem convert_si {v u dflt : String} (hbug : ¬ (v = "air_pressure" ∧ u = "hPa"))
    (hd : Units.importAttrs.get? v = some dflt) {ts : Nat} (hts : 0 < ts) {x : ℝ} {r : Flt ℝ}
    (h : Units.convert v u (fin x) (ts : Int) = .ok r) :
    ∃ y s k, r = fin y ∧ Spec.kindOf v = some k ∧ Spec.si u (ts : ℝ) y = some (k, s) ∧
      Spec.si dflt (ts : ℝ) x = some (k, s) := by
  have := C01_units_partial (K := ℝ) v u hbug dflt hd (ts : Int) (by exact_mod_cast hts) x r h
  simpa using this

end Verif.Props
