import Verif.Props.Shifted

/-!
# Longitudes of either convention: C138
-/

namespace Verif.Run

variable {S D R K W : Type} [Zero K] [LT K] [DecidableLT K]

/-- The loop over the cells sees of a cell only what it gives when computed alone. -/
theorem runCells_congr (body : Body S D R K) (hk : KeepsShared body) (mask : Cell → Flt K) (inp inp' : Cell → CellIn D K) (s : S)
    (h : ∀ c, active mask c → own body s (inp c) = own body s (inp' c)) (ax : List (List Nat)) (ls : List Cell) (p p' : Params S K)
    (hp : p.shared = s) (hp' : p'.shared = s) (out : Cell → Option R) :
    (runCells body mask inp ax ls p out).map Prod.snd = (runCells body mask inp' ax ls p' out).map Prod.snd := by
  induction ls generalizing p p' out with
  | nil => rfl
  | cons l ls ih =>
    unfold runCells
    by_cases ha : active mask (globalOf ax l) = true
    · have ha' : Flt.lt (.fin 0) (mask (globalOf ax l)) = true := ha
      rw [if_pos ha', if_pos ha']
      have hown := h _ ha
      unfold own at hown
      unfold wrapRunCell
      rw [hp, hp']
      generalize hb : body ⟨s, (inp (globalOf ax l)).elev, (inp (globalOf ax l)).lat, (inp (globalOf ax l)).lon⟩
        (inp (globalOf ax l)).data = v at hown ⊢
      generalize hb' : body ⟨s, (inp' (globalOf ax l)).elev, (inp' (globalOf ax l)).lat, (inp' (globalOf ax l)).lon⟩
        (inp' (globalOf ax l)).data = v' at hown ⊢
      match v, v', hown with
      | .error e, .error e', hown => rw [Except.error.inj hown]; rfl
      | .ok (r, q), .ok (r', q'), hown =>
        obtain rfl : r = r' := Except.ok.inj hown
        exact ih q q' (hk _ _ _ _ hb) (hk _ _ _ _ hb') _
    · have ha' : ¬ Flt.lt (.fin 0) (mask (globalOf ax l)) = true := ha
      rw [if_neg ha', if_neg ha']
      exact ih p p' hp hp' out

/-- So does the whole run. -/
theorem run_congr (body : Body S D R K) (hk : KeepsShared body) (mask : Cell → Flt K) (inp inp' : Cell → CellIn D K)
    (p : Params S K) (h : ∀ c, active mask c → own body p.shared (inp c) = own body p.shared (inp' c)) (dims : Dict String Nat)
    (groups : List (Group R W)) (order : List (Dict String Chunk.Slice)) :
    run body mask inp p dims groups order = run body mask inp' p dims groups order := by
  have hc : runChunk body mask inp p dims groups = runChunk body mask inp' p dims groups := by
    funext files s
    unfold runChunk
    have : runSlice body mask inp p (axes dims s) = runSlice body mask inp' p (axes dims s) := by
      have e := runCells_congr body hk mask inp inp' p.shared h (axes dims s) (localCells (axes dims s)) p p rfl rfl fun _ => none
      unfold runSlice
      generalize runCells body mask inp (axes dims s) (localCells (axes dims s)) p (fun _ => none) = v at e ⊢
      generalize runCells body mask inp' (axes dims s) (localCells (axes dims s)) p (fun _ => none) = v' at e ⊢
      match v, v', e with
      | .error e, .error e', h => rw [Except.error.inj h]
      | .ok (q, o), .ok (q', o'), h =>
        obtain rfl : o = o' := Except.ok.inj h
        rfl
    rw [this]
  unfold run
  rw [hc]

end Verif.Run

namespace Verif.Props

open Flt Cell

section C138

/-- Away from the date line whole turns do not change the longitude in use. -/
theorem remainder_turn {lon : ℝ} (m : ℤ) (h : ∀ n : ℤ, lon ≠ 180 * (2 * n + 1)) :
    Disagg.remainder360 (lon + 360 * m) = Disagg.remainder360 lon := by
  obtain ⟨⟨n, hn⟩, a1, a2, -⟩ := C53_remainder lon
  obtain ⟨⟨n', hn'⟩, b1, b2, -⟩ := C53_remainder (lon + 360 * m)
  have c1 : -180 < Disagg.remainder360 lon := lt_of_le_of_ne a1 fun e => h (n - 1) (by push_cast; linarith)
  have c2 : Disagg.remainder360 lon < 180 := lt_of_le_of_ne a2 fun e => h n (by linarith)
  have d : Disagg.remainder360 (lon + 360 * m) - Disagg.remainder360 lon = 360 * ((m - n' + n : ℤ) : ℝ) := by
    rw [hn, hn']; push_cast; ring
  have k1 : (-1 : ℝ) < ((m - n' + n : ℤ) : ℝ) := by linarith
  have k2 : ((m - n' + n : ℤ) : ℝ) < 1 := by linarith
  have k : m - n' + n = 0 := by
    have k1' : (-1 : ℤ) < m - n' + n := by exact_mod_cast k1
    have k2' : m - n' + n < 1 := by exact_mod_cast k2
    omega
  rw [k] at d
  push_cast at d
  linarith

theorem first_bind {α β γ : Type} (x : Except PyErr α) {f g : α → Except PyErr (β × γ)}
    (h : ∀ a, (f a).map Prod.fst = (g a).map Prod.fst) : (x >>= f).map Prod.fst = (x >>= g).map Prod.fst := by
  cases x with
  | error e => rfl
  | ok a => exact h a

theorem first_ok {α β γ : Type} {x y : Except PyErr α} {a b : α} (hx : x = .ok a) (hy : y = .ok b)
    {f g : α → Except PyErr (β × γ)} (h : (f a).map Prod.fst = (g b).map Prod.fst) :
    (x >>= f).map Prod.fst = (y >>= g).map Prod.fst := by
  rw [hx, hy]
  exact h

/-- What a cell gives depends on its longitude through the sub-daily frame only. -/
theorem own_lon (fuel : Nat) (s : Shared) (elev lat : Flt ℝ) (d : Data) {lon lon' : ℝ}
    (hd : ∀ (daily : Disaggregate.Daily) (e : ℝ) (geom : List Solar.DayGeom) (tb te : Option (List (Flt ℝ))),
      Disaggregate.disaggregate daily (s.sub e lon) geom tb te = Disaggregate.disaggregate daily (s.sub e lon') geom tb te) :
    Run.own (cellBody fuel) s ⟨elev, lat, fin lon, d⟩ = Run.own (cellBody fuel) s ⟨elev, lat, fin lon', d⟩ := by
  unfold Run.own cellBody
  refine first_bind _ fun e => first_bind _ fun l => first_ok (a := lon) (b := lon') rfl rfl ?_
  refine first_bind _ fun geom => first_bind _ fun rows => first_bind _ fun base => first_bind _ fun axis => ?_
  by_cases hts : s.ts < 1440
  · simp only [if_pos hts]
    refine first_bind _ fun daily => ?_
    rw [hd]
    exact first_bind _ fun sub => first_bind _ fun frame => first_bind _ fun out => rfl
  · simp only [if_neg hts]
    exact first_bind _ fun rep => first_bind _ fun frame => first_bind _ fun out => rfl

theorem disaggregate_remainder (s : Shared) {lon lon' : ℝ} (h : Disagg.remainder360 lon = Disagg.remainder360 lon')
    (daily : Disaggregate.Daily) (e : ℝ) (geom : List Solar.DayGeom) (tb te : Option (List (Flt ℝ))) :
    Disaggregate.disaggregate daily (s.sub e lon) geom tb te = Disaggregate.disaggregate daily (s.sub e lon') geom tb te := by
  unfold Disaggregate.disaggregate
  simp only [show (s.sub e lon).lon = lon from rfl, show (s.sub e lon').lon = lon' from rfl, h]
  rfl

theorem disaggregate_local (s : Shared) (hloc : s.utcOffset = false) (lon lon' : ℝ)
    (daily : Disaggregate.Daily) (e : ℝ) (geom : List Solar.DayGeom) (tb te : Option (List (Flt ℝ))) :
    Disaggregate.disaggregate daily (s.sub e lon) geom tb te = Disaggregate.disaggregate daily (s.sub e lon') geom tb te := by
  have h0 : ∀ x, (s.sub e x).utcOffset = false := fun _ => hloc
  have h1 : ∀ x, Disagg.setMinMaxHour (K := ℝ) ⟨s.ts, false, x, s.thetaS, s.tmaxFraction⟩ =
      Disagg.setMinMaxHour ⟨s.ts, false, 0, s.thetaS, s.tmaxFraction⟩ := fun _ => rfl
  have h2 : ∀ n x (d : Disaggregate.Daily) y, Disaggregate.windOf n x d (s.sub e y) = Disaggregate.windOf n 0 d (s.sub e 0) := by
    intro n x d y
    unfold Disaggregate.windOf
    simp only [h0]
    rfl
  unfold Disaggregate.disaggregate
  simp only [h0, h2]
  rfl

/-- Another place, whole turns away. -/
def Job.turned (j : Job) (m : Run.Cell → ℤ) : Job :=
  { j with inp := fun c => { j.inp c with lon := (j.inp c).lon + fin (360 * (m c : ℝ)) } }

/-- **C138**: it does not matter which longitude a meridian is given, 0 to 360 degrees east or 180 degrees west to 180 degrees
east: the run does the same, to the last value of its files or the error it ends with, if no cell lies on the date line. -/
theorem C138_turn (j : Job) (m : Run.Cell → ℤ)
    (h : ∀ c lon, Run.active j.mask c → (j.inp c).lon = fin lon → ∀ n : ℤ, lon ≠ 180 * (2 * n + 1)) (fuel : Nat)
    (order : List (Dict String Chunk.Slice)) : (j.turned m).run fuel order = j.run fuel order := by
  unfold Job.run runAll
  refine congrArg (Bind.bind _) (funext fun groups => (Run.run_congr _ (keepsShared fuel) _ _ _ _ (fun c hc => ?_) _ _ _).symm)
  show Run.own (cellBody fuel) j.shared (j.inp c) = Run.own (cellBody fuel) j.shared ((j.turned m).inp c)
  cases hl : (j.inp c).lon with
  | nan =>
    have e1 : j.inp c = ⟨(j.inp c).elev, (j.inp c).lat, nan, (j.inp c).data⟩ := by rw [← hl]
    have e2 : (j.turned m).inp c = ⟨(j.inp c).elev, (j.inp c).lat, nan, (j.inp c).data⟩ := by
      unfold Job.turned
      simp only [hl]
      rfl
    rw [e1, e2]
  | fin lon =>
    have e1 : j.inp c = ⟨(j.inp c).elev, (j.inp c).lat, fin lon, (j.inp c).data⟩ := by rw [← hl]
    have e2 : (j.turned m).inp c = ⟨(j.inp c).elev, (j.inp c).lat, fin (lon + 360 * (m c : ℝ)), (j.inp c).data⟩ := by
      unfold Job.turned
      simp only [hl]
      rfl
    rw [e1, e2]
    exact own_lon _ _ _ _ _ (disaggregate_remainder _ (remainder_turn _ (h c lon hc hl)).symm)

/-- Other longitudes altogether. -/
def Job.moved (j : Job) (lon : Run.Cell → ℝ) : Job := { j with inp := fun c => { j.inp c with lon := fin (lon c) } }

/-- **C138**: in local time the longitudes do not matter at all. -/
theorem C138_local (j : Job) (hloc : j.shared.utcOffset = false) (lon : Run.Cell → ℝ)
    (hlon : ∀ c, Run.active j.mask c → ∃ x, (j.inp c).lon = fin x) (fuel : Nat) (order : List (Dict String Chunk.Slice)) :
    (j.moved lon).run fuel order = j.run fuel order := by
  unfold Job.run runAll
  refine congrArg (Bind.bind _) (funext fun groups => (Run.run_congr _ (keepsShared fuel) _ _ _ _ (fun c hc => ?_) _ _ _).symm)
  show Run.own (cellBody fuel) j.shared (j.inp c) = Run.own (cellBody fuel) j.shared ((j.moved lon).inp c)
  obtain ⟨x, hx⟩ := hlon c hc
  have e1 : j.inp c = ⟨(j.inp c).elev, (j.inp c).lat, fin x, (j.inp c).data⟩ := by rw [← hx]
  rw [e1]
  exact own_lon _ _ _ _ _ (disaggregate_local _ hloc _ _)

/-- **C138**: on the date line the sign of the longitude, and with it the direction of the shift, depends on the number of turns. -/
theorem C138_dateline : Disagg.remainder360 (180 : ℝ) = 180 ∧ Disagg.remainder360 (-180 : ℝ) = -180 ∧
    Disagg.remainder360 (540 : ℝ) = -180 := by
  refine ⟨(C53_remainder (180 : ℝ)).2.2.2 (by norm_num) le_rfl, (C53_remainder (-180 : ℝ)).2.2.2 le_rfl (by norm_num), ?_⟩
  have hf : ⌊(540 / 360 : ℝ)⌋ = 1 := by
    rw [Int.floor_eq_iff]
    norm_num
  unfold Disagg.remainder360
  simp only [hf]
  norm_num

end C138

/-- **C138**: there are such runs in universal time that come to their end: 120 degrees west is 240 degrees east. -/
example : shifter.shared.utcOffset = true ∧ (∀ c lon, Run.active shifter.mask c → (shifter.inp c).lon = fin lon →
      ∀ n : ℤ, lon ≠ 180 * (2 * n + 1)) ∧ (∀ c, ((shifter.turned fun _ => 1).inp c).lon = fin 240) ∧
    ∃ order files, shifter.Schedule order ∧ shifter.run 0 order = .ok files := by
  obtain ⟨files, hrun⟩ := (C71_run shifter shifter_sane 0 [[("lat", none), ("lon", none)]]
    ⟨_, rfl, List.Perm.refl _⟩ (fun c _ => { windy_complete c with }) (fun h => by cases h)).2
      (fun c _ q hq => ⟨stepper_offers c (by show 240 < 1440; decide) hq, stepper_vars q hq⟩)
  refine ⟨rfl, fun c lon _ h n e => ?_, fun c => ?_, _, files, ⟨_, rfl, List.Perm.refl _⟩, hrun⟩
  · have h' : (-120 : ℝ) = lon := Flt.fin.inj h
    have : (180 * (2 * n + 1) : ℤ) = -120 := by
      have : ((180 * (2 * n + 1) : ℤ) : ℝ) = -120 := by rw [h', e]; push_cast; ring
      exact_mod_cast this
    omega
  · show (fin (-120) + fin (360 * ((1 : ℤ) : ℝ)) : Flt ℝ) = fin 240
    rw [add_fin]
    norm_num

end Verif.Props
