import Verif.Props.DailyFiles
import Verif.Props.Balance
import Verif.Props.FilesLocal
import Verif.Props.DailyLocal

/-!
# Days without data at daily steps: C156
-/

namespace Verif.Props

open Flt Physics Np Dataset ConfigRead Main

/-- The outputs a method takes over from the forcing. -/
def TakenOver (m : Cell.Method) (v : String) : Prop :=
  v ∈ ["prec", "t_min", "t_max", "wind", "longwave"] ∨ m = .passthrough ∧ v ∈ ["shortwave", "tskc", "vapor_pressure", "pet"]

section C156

variable (j : Job) (hj : j.Sane) (fuel : Nat) (order : List (Dict String Chunk.Slice)) (ho : j.Schedule order)
  (files : Run.Files Cell.Output) (hrun : j.run fuel order = .ok files) (hday : j.shared.ts = 1440) (c : Run.Cell) (hc : j.Computed c)

include hj ho hrun hday hc

theorem taken_column {v u : String} (hv : TakenOver j.shared.method v) (hu : j.shared.outVars.get? v = some u) {col : Methods.Col}
    (hcol : Dict.get? (j.inp c).data.frame v = some col) :
    ∃ val, Recorded j files v c val ∧ ∃ rep : Methods.Col, (∀ k < j.n, Units.convert v u (rep k) j.shared.ts = .ok (val (j.stamp k 0))) ∧
      (∀ k, col k = nan → rep k = nan) ∧ (v ≠ "shortwave" → rep = col) := by
  obtain ⟨elev, lat, lon, h1, h2, h3, q, rep, hr, hread⟩ := written_daily j hj ho hrun hday hc
  obtain ⟨cw, val, a1, a2, a3⟩ := hread v u hu
  have hbase : Dict.get? q.base v = some col := by
    rcases hv with hv | ⟨hm, hv⟩
    · rw [base_keeps q, hcol]
      · intro hmem
        simp only [List.mem_cons, List.not_mem_nil, or_false] at hv hmem
        rcases hv with rfl | rfl | rfl | rfl | rfl <;> simp at hmem
      · intro hmem
        simp only [List.mem_cons, List.not_mem_nil, or_false] at hv hmem
        rcases hv with rfl | rfl | rfl | rfl | rfl <;> simp at hmem
    · have hb := q.h_base
      unfold Cell.runMethod at hb
      rw [hm] at hb
      simp only at hb
      refine ((C42_passthrough_partial _ _).2 _ hb).1 v col ?_ ?_
      · rw [Cell.withGeom_keeps _ _ ?_, hcol]
        intro hmem
        simp only [List.mem_cons, List.not_mem_nil, or_false] at hv hmem
        rcases hv with rfl | rfl | rfl | rfl <;> simp at hmem
      · rintro rfl
        simp at hv
  unfold Methods.dailyShortwave at hr
  simp only [bind_ok, pure_ok] at hr
  obtain ⟨sw, g1, dl, g2, rfl⟩ := hr
  refine ⟨val, a2, cw, a3, ?_⟩
  by_cases hs : v = "shortwave"
  · subst hs
    rw [Dict.get?_set_self] at a1
    obtain rfl := Option.some.inj a1
    have : sw = col := by
      unfold Dict.get at g1
      rw [hbase] at g1
      exact (Except.ok.inj g1).symm
    subst this
    exact ⟨fun k hk => by simp only [hk]; simp, fun h => absurd rfl h⟩
  · rw [Dict.get?_set_ne _ _ (Ne.symm hs), hbase] at a1
    obtain rfl := Option.some.inj a1
    exact ⟨fun k hk => hk, fun _ => rfl⟩

/-- **C156**: a day without data has none in daily output. -/
theorem C156_blank {v u : String} (hv : TakenOver j.shared.method v) (hu : j.shared.outVars.get? v = some u) {col : Methods.Col}
    (hcol : Dict.get? (j.inp c).data.frame v = some col) :
    ∃ val, Recorded j files v c val ∧ ∀ k < j.n, col k = nan → val (j.stamp k 0) = nan := by
  obtain ⟨val, h1, rep, h2, h3, -⟩ := taken_column j hj fuel order ho files hrun hday c hc hv hu hcol
  refine ⟨val, h1, fun k hk hn => ?_⟩
  have := h2 k hk
  rw [h3 k hn] at this
  exact C01_missing _ _ _ _ this

/-- **C156**: and a day with data has its own, whatever is missing on others. -/
theorem C156_own {v u : String} (hv : TakenOver j.shared.method v) (hs : v ≠ "shortwave") (hu : j.shared.outVars.get? v = some u)
    {col : Methods.Col} (hcol : Dict.get? (j.inp c).data.frame v = some col) {k : Nat} (hk : k < j.n) {x : ℝ} (hx : col k = fin x)
    {dflt : String} (hdf : Units.importAttrs.get? v = some dflt) :
    ∃ s kd, Spec.kindOf v = some kd ∧ Spec.si dflt (j.shared.ts : ℝ) x = some (kd, s) ∧ Reads j files c v k 0 s := by
  obtain ⟨val, h1, rep, h2, -, h3⟩ := taken_column j hj fuel order ho files hrun hday c hc hv hu hcol
  obtain rfl := h3 hs
  have := h2 k hk
  rw [hx] at this
  have hbug : ¬ (v = "air_pressure" ∧ u = "hPa") := by
    rintro ⟨rfl, -⟩
    rcases hv with hv | ⟨-, hv⟩ <;> simp at hv
  obtain ⟨y, s, kd, b1, b2, b3, b4⟩ := convert_si hbug hdf hj.step.1 this
  exact ⟨s, kd, b2, b4, u, val, y, kd, hu, h1, b1, b2, b3⟩

end C156

section
variable {w : Main.World} {su : Setup} {i : Worker.Inputs} {n : Nat} {freq : Option Times.Freq} {os : List (String × String)}
  {whole : DS ℝ} {mask : Arr ℝ} {dir : Nc.Dir}

/-- **C156**: from files to files. -/
theorem C156_disk (h : Left w su i whole mask n freq os dir) (hday : (sharedOf w su).ts = 1440) {c : Run.Cell} (hc : Active whole mask c)
    {v u : String} (hv : TakenOver (sharedOf w su).method v) (hn : v ∉ ["prec", "t_min", "t_max"]) (hgiven : Provided i v)
    (hshape : v ∉ i.constants.map Prod.fst → Shaped i.forcing i.names mask.dims v) (hu : (sharedOf w su).outVars.get? v = some u) :
    ∃ col : ℕ → Flt ℝ, (∀ k < n, GivenFor i whole mask.dims c v (i.start + k) (col k)) ∧
      ∀ k < n, col k = nan →
        OnDisk w su i.start n freq dir ((outputOf w su freq os).names v) c (minute (sharedOf w su) i.start k 0) nan := by
  obtain ⟨order, fuel, ⟨e⟩, hi, hsrc⟩ := h.ended
  obtain ⟨-, -, -, hcell⟩ := e.cell hi hsrc
  obtain ⟨hcomp, -, -, -⟩ := hcell c hc
  have hadd : v ∉ added := by
    intro hmem
    rcases hv with hv | ⟨-, hv⟩ <;>
      simp only [added, List.mem_cons, List.not_mem_nil, or_false] at hv hmem <;> aesop
  obtain ⟨f1, f2⟩ := (e.filed hi hsrc hc).plain v hadd hshape
  obtain ⟨col, hcol⟩ := Option.ne_none_iff_exists'.1 (f1.2 hgiven)
  have hkey : v ∈ (sharedOf w su).outVars.keys := by
    by_contra hn
    rw [(Dict.get?_eq_none_iff _ _).2 hn] at hu
    cases hu
  obtain ⟨val, h1, h2⟩ := C156_blank _ e.sane fuel order e.schedule e.files e.run hday c hcomp hv hu hcol
  refine ⟨col, f2 col hcol, fun k hk hx => ?_⟩
  rw [← h2 k hk hx]
  exact e.disk v hkey c val h1 k hk 0 (by rw [hday]; norm_num)

/-- **C156**: from files to files, what is given is written. -/
theorem C156_given (h : Left w su i whole mask n freq os dir) (hday : (sharedOf w su).ts = 1440) {c : Run.Cell} (hc : Active whole mask c)
    {v u dflt : String} (hv : TakenOver (sharedOf w su).method v) (hn : v ∉ ["prec", "t_min", "t_max", "shortwave"]) (hgiven : Provided i v)
    (hshape : v ∉ i.constants.map Prod.fst → Shaped i.forcing i.names mask.dims v) (hu : (sharedOf w su).outVars.get? v = some u)
    (hdf : Units.importAttrs.get? v = some dflt) :
    ∃ col : ℕ → Flt ℝ, (∀ k < n, GivenFor i whole mask.dims c v (i.start + k) (col k)) ∧
      ∀ k < n, ∀ x, col k = fin x → ∃ y kd s, Spec.si dflt 1440 x = some (kd, s) ∧ Spec.si u 1440 y = some (kd, s) ∧
        OnDisk w su i.start n freq dir ((outputOf w su freq os).names v) c (minute (sharedOf w su) i.start k 0) (fin y) := by
  obtain ⟨order, fuel, ⟨e⟩, hi, hsrc⟩ := h.ended
  obtain ⟨-, -, -, hcell⟩ := e.cell hi hsrc
  obtain ⟨hcomp, -, -, -⟩ := hcell c hc
  have hadd : v ∉ added := by
    intro hmem
    rcases hv with hv | ⟨-, hv⟩ <;>
      simp only [added, List.mem_cons, List.not_mem_nil, or_false] at hv hmem <;> aesop
  obtain ⟨f1, f2⟩ := (e.filed hi hsrc hc).plain v hadd hshape
  obtain ⟨col, hcol⟩ := Option.ne_none_iff_exists'.1 (f1.2 hgiven)
  have hkey : v ∈ (sharedOf w su).outVars.keys := by
    by_contra hn
    rw [(Dict.get?_eq_none_iff _ _).2 hn] at hu
    cases hu
  refine ⟨col, f2 col hcol, fun k hk x hx => ?_⟩
  obtain ⟨s, kd, b0, b1, u', val, y, kd', r1, r2, r3, r4, r5⟩ := C156_own _ e.sane fuel order e.schedule e.files e.run hday c hcomp hv
    (by rintro rfl; simp at hn) hu hcol hk hx hdf
  obtain rfl := Option.some.inj (hu.symm.trans r1)
  have hts : (((jobOfSetup w su i e.ld n freq os).shared.ts : ℕ) : ℝ) = 1440 := by
    rw [show (jobOfSetup w su i e.ld n freq os).shared.ts = 1440 from hday]; norm_num
  rw [hts] at b1 r5
  obtain rfl := Option.some.inj (b0.symm.trans r4)
  exact ⟨y, kd, s, b1, r5, r3 ▸ e.disk v hkey c val r2 k hk 0 (by rw [hday]; norm_num)⟩

/-- **C156**: the same of rain and temperatures, which the state file tells of too. -/
theorem C156_told (h : Left w su i whole mask n freq os dir) (hday : (sharedOf w su).ts = 1440) {c : Run.Cell} (hc : Active whole mask c)
    {v u : String} (hv : v ∈ ["prec", "t_min", "t_max"]) (hu : (sharedOf w su).outVars.get? v = some u) :
    ∃ col : ℕ → Flt ℝ, (∀ k < n, DayTold i whole mask.dims c v (i.start + k) (col k)) ∧
      ∀ k < n, col k = nan →
        OnDisk w su i.start n freq dir ((outputOf w su freq os).names v) c (minute (sharedOf w su) i.start k 0) nan := by
  obtain ⟨order, fuel, ⟨e⟩, hi, hsrc⟩ := h.ended
  obtain ⟨-, -, -, hcell⟩ := e.cell hi hsrc
  obtain ⟨hcomp, -, -, -⟩ := hcell c hc
  obtain ⟨col, hcol, f2⟩ := (e.filed hi hsrc hc).told v hv
  have hkey : v ∈ (sharedOf w su).outVars.keys := by
    by_contra hn
    rw [(Dict.get?_eq_none_iff _ _).2 hn] at hu
    cases hu
  have ht : TakenOver (sharedOf w su).method v := .inl (by
    simp only [List.mem_cons, List.not_mem_nil, or_false] at hv ⊢
    tauto)
  obtain ⟨val, h1, h2⟩ := C156_blank _ e.sane fuel order e.schedule e.files e.run hday c hcomp ht hu hcol
  refine ⟨col, f2, fun k hk hx => ?_⟩
  rw [← h2 k hk hx]
  exact e.disk v hkey c val h1 k hk 0 (by rw [hday]; norm_num)

end

/-- A run in daily steps over two days, the second without vapour pressure. -/
noncomputable def blanked : Job :=
  { dailySpan 2 5 with
    inp := fun c => ⟨fin 100, fin 45, fin (-120), ⟨consecutive 0 2,
      ("vapor_pressure", fun i => if i = 1 then nan else fin 600) :: ((dailySpan 2 5).inp c).data.frame, (fin 4, fin 14)⟩⟩ }

theorem blanked_sane : blanked.Sane := { dailySpan_sane (Or.inl rfl) 5 with data := fun _ => rfl }

theorem blanked_complete (c : Run.Cell) : CompleteCell blanked.shared 2 (blanked.inp c) :=
  have h := span_complete (n := 2) (x := 5) (by norm_num) (by norm_num) c
  { place := h.place
    lapse := h.lapse
    columns := by
      intro k hk
      simp only [List.mem_cons, List.not_mem_nil, or_false] at hk
      rcases hk with rfl | rfl | rfl | rfl | rfl | rfl <;> simp [blanked, dailySpan, span, Dict.get?_cons]
    radiation := fun _ => by simp [blanked, dailySpan, span, Dict.get?_cons]
    tMin := h.tMin
    tMax := h.tMax
    state := h.state
    fraction := h.fraction
    lwType := h.lwType
    lwCloud := h.lwCloud
    storm := h.storm }

theorem blanked_runs : ∃ order files, blanked.Schedule order ∧ blanked.run 0 order = .ok files := by
  obtain ⟨files, h⟩ := (C71_run blanked blanked_sane 0 [[("lat", none), ("lon", none)]]
    ⟨_, rfl, List.Perm.refl _⟩ (fun c _ => blanked_complete c) (fun h => by cases h)).2 (by
      intro c _ q hq
      have hq : q ∈ [("t_min", "C"), ("vapor_pressure", "kPa"), ("shortwave", "W m-2")] := hq
      unfold Offers
      rw [if_neg (show ¬ (blanked.shared.ts < 1440) from lt_irrefl 1440)]
      simp only [List.mem_cons, List.not_mem_nil, or_false] at hq
      rcases hq with rfl | rfl | rfl
      · exact ⟨Or.inr (by simp [blanked, dailySpan, span, Dict.get?_cons]), _, _, rfl, rfl⟩
      · exact ⟨Or.inl (by decide), _, _, rfl, rfl⟩
      · exact ⟨Or.inl (by decide), _, _, rfl, rfl⟩)
  exact ⟨_, files, ⟨_, rfl, List.Perm.refl _⟩, h⟩

/-- **C156**: there are such runs, and the second day has no vapour pressure while the first has its own. -/
example : ∃ order files, blanked.Schedule order ∧ blanked.run 0 order = .ok files ∧
    (∃ val, Recorded blanked files "vapor_pressure" [0, 0] val ∧ val (blanked.stamp 1 0) = nan) ∧
    Reads blanked files [0, 0] "vapor_pressure" 0 0 600 := by
  obtain ⟨order, files, ho, hrun⟩ := blanked_runs
  have hc : blanked.Computed [0, 0] := ⟨by show _ ∈ gridCells [("lat", 1), ("lon", 2)]; decide, 1, rfl, one_pos⟩
  have hv : TakenOver blanked.shared.method "vapor_pressure" := .inr ⟨rfl, by simp⟩
  refine ⟨order, files, ho, hrun, ?_, ?_⟩
  · obtain ⟨val, h1, h2⟩ := C156_blank blanked blanked_sane 0 order ho files hrun rfl [0, 0] hc hv (u := "kPa") rfl rfl
    exact ⟨val, h1, h2 1 (show 1 < 2 by norm_num) rfl⟩
  · obtain ⟨s, kd, -, h1, h2⟩ := C156_own blanked blanked_sane 0 order ho files hrun rfl [0, 0] hc hv (by decide) (u := "kPa") rfl rfl
      (k := 0) (show 0 < 2 by norm_num) (x := 600) rfl (dflt := "Pa") rfl
    obtain ⟨-, rfl⟩ := Prod.mk.inj (Option.some.inj h1)
    exact h2

end Verif.Props
