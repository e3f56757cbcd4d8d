import Verif.Lemmas.Positive

/-!
# Superposition

Precipitation and wind, and radiation and cloud cover that are given, enter linearly: a run over a combination of two records writes the
combination of what the runs over the two write.
-/

namespace Verif.Props

open Flt Cell Methods Disaggregate Np Linear

/-- What the values of a variable within a day depend on besides its daily values. -/
def shapeOf (precType : String) : String → Needs
  | "prec" => ⟨(precFrom precType).filter (· ≠ "prec"), false, false, false⟩
  | "shortwave" => ⟨[], true, false, false⟩
  | _ => ⟨[], false, false, false⟩

/-- The first of two series, the second, and the combination of both. -/
def parts (a b : ℝ) : Fin 3 → (ℝ × ℝ →ₗ[ℝ] ℝ) :=
  ![LinearMap.fst ℝ ℝ ℝ, LinearMap.snd ℝ ℝ ℝ, a • LinearMap.fst ℝ ℝ ℝ + b • LinearMap.snd ℝ ℝ ℝ]

theorem parts_combine (a b : ℝ) (z : Flt (ℝ × ℝ)) :
    see (parts a b 2) z = fin a * see (parts a b 0) z + fin b * see (parts a b 1) z := by
  cases z <;> simp [parts]

/-- Three records of a variable, the third combined of the first two. -/
structure Combines (a b : ℝ) (n : Nat) (cols : Fin 3 → Option Col) : Prop where
  known : ∀ r, ∃ col, cols r = some col ∧ ∀ i < n, ∃ x, col i = fin x
  third : ∀ x y z, cols 0 = some x → cols 1 = some y → cols 2 = some z → ∀ i < n, z i = fin a * x i + fin b * y i

theorem Combines.series {a b : ℝ} {n : Nat} {cols : Fin 3 → Option Col} (h : Combines a b n cols) :
    ∃ ps : List (Flt (ℝ × ℝ)), ps.length = n ∧ ∀ r col, cols r = some col → (List.range n).map col = ps.map (see (parts a b r)) := by
  obtain ⟨x, hx, gx⟩ := h.known 0
  obtain ⟨y, hy, gy⟩ := h.known 1
  obtain ⟨z, hz, gz⟩ := h.known 2
  refine ⟨(List.range n).map fun i => match x i, y i with
    | fin p, fin q => fin (p, q)
    | _, _ => nan, by simp, ?_⟩
  intro r col hcol
  rw [List.map_map]
  refine List.map_congr_left fun i hi => ?_
  have hi := List.mem_range.1 hi
  obtain ⟨p, hp⟩ := gx i hi
  obtain ⟨q, hq⟩ := gy i hi
  have e3 := h.third x y z hx hy hz i hi
  simp only [Function.comp_apply, hp, hq]
  have hr : r = 0 ∨ r = 1 ∨ r = 2 := by omega
  rcases hr with rfl | rfl | rfl
  · rw [hx] at hcol; cases hcol; simp [hp, parts]
  · rw [hy] at hcol; cases hcol; simp [hq, parts]
  · rw [hz] at hcol; cases hcol; rw [e3, hp, hq]; simp [parts]

/-- Units of these variables differ by factors. -/
theorem linear_unit {v u : String} (hv : v ∈ ["prec", "wind", "shortwave", "tskc"]) {table : Dict String (Units.Conv ℝ)} {g : Units.Conv ℝ}
    (h1 : (Units.converters (K := ℝ)).get? v = some table) (h2 : table.get? u = some g) (ts : Int) (x : Flt (ℝ × ℝ)) :
    ∃ y, (∀ f : ℝ × ℝ →ₗ[ℝ] ℝ, g (see f x) ts = see f y) ∧ (0 ≤ ts → ∀ f : ℝ × ℝ →ₗ[ℝ] ℝ, Pos (see f x) → Pos (see f y)) := by
  have hg : g = Units.ident ∨ g = Units.perHour ∨ g = Units.perSecond ∨ g = Units.mulBy 100 := by
    simp only [List.mem_cons, List.not_mem_nil, or_false] at hv
    rcases hv with rfl | rfl | rfl | rfl <;>
      (simp (decide := true) only [Units.converters, Dict.get?_cons, if_true, if_false, Option.some.injEq] at h1
       subst h1
       simp only [Dict.get?_cons] at h2
       split_ifs at h2 <;> first | (cases h2; simp; done) | (cases h2; done))
  rcases hg with rfl | rfl | rfl | rfl
  · exact ⟨x, fun f => rfl, fun _ f h => h⟩
  · exact ⟨over (fin (ts : ℝ) / fin (Cnst.MIN_PER_HOUR : ℝ)) x, fun f => by rw [see_over]; rfl, fun h f hx => by
      rw [see_over]; exact hx.div ((Pos.fin (by exact_mod_cast h)).div (Pos.fin (by positivity)))⟩
  · exact ⟨over (fin (ts : ℝ) * fin (Cnst.SEC_PER_MIN : ℝ)) x, fun f => by rw [see_over]; rfl, fun h f hx => by
      rw [see_over]; exact hx.div ((Pos.fin (by exact_mod_cast h)).mul (Pos.fin (by positivity)))⟩
  · exact ⟨times (fin 100) x, fun f => by rw [see_times]; rfl, fun h f hx => by
      rw [see_times]; exact hx.mul (Pos.fin (by norm_num))⟩

theorem converted_pair {a b : ℝ} {v u : String} (hv : v ∈ ["prec", "wind", "shortwave", "tskc"]) {ts : Int} {x : Flt (ℝ × ℝ)}
    {w : Fin 3 → Flt ℝ} (h : ∀ r, Units.convert v u (see (parts a b r) x) ts = .ok (w r)) :
    ∃ y, (∀ r, w r = see (parts a b r) y) ∧ (0 ≤ ts → ∀ f : ℝ × ℝ →ₗ[ℝ] ℝ, Pos (see f x) → Pos (see f y)) := by
  obtain ⟨table, g, g1, g2, -⟩ := convert_ok (h 0)
  obtain ⟨y, hy, hp⟩ := linear_unit hv g1 g2 ts x
  refine ⟨y, fun r => ?_, hp⟩
  obtain ⟨table', g', g1', g2', g3'⟩ := convert_ok (h r)
  rw [g1] at g1'
  cases g1'
  rw [g2] at g2'
  cases g2'
  rw [← hy, g3']

theorem converted {a b : ℝ} {v u : String} (hv : v ∈ ["prec", "wind", "shortwave", "tskc"]) {ts : Int} {x : Flt (ℝ × ℝ)} {w : Fin 3 → Flt ℝ}
    (h : ∀ r, Units.convert v u (see (parts a b r) x) ts = .ok (w r)) : w 2 = fin a * w 0 + fin b * w 1 := by
  obtain ⟨y, e, -⟩ := converted_pair hv h
  rw [e, e, e, parts_combine]

/-- Given columns are passed on. -/
theorem passed_on {fuel : Nat} {s : Shared} {elev lat lon : ℝ} {d : Data} (q : Cell.Common fuel s elev lat lon d)
    (hm : s.method = .passthrough) {name : String} {col : Col} (h1 : Dict.get? d.frame name = some col)
    (h2 : name ∉ ["daylength", "potrad", "tt_max"]) (h3 : name ≠ "seasonal_prec") : Dict.get? q.base name = some col := by
  have a := q.h_base
  rw [hm] at a
  exact ((C42_passthrough_partial _ _).2 _ a).1 _ _ (by rw [withGeom_keeps _ _ h2, h1]) (fun h => absurd h h3)

/-- A variable that enters linearly. -/
def Linearly (m : Method) (v : String) : Prop := v = "prec" ∨ v = "wind" ∨ (m = .passthrough ∧ (v = "shortwave" ∨ v = "tskc"))

theorem Linearly.mem {m : Method} {v : String} (h : Linearly m v) : v ∈ ["prec", "wind", "shortwave", "tskc"] := by
  rcases h with rfl | rfl | ⟨-, rfl | rfl⟩ <;> decide

theorem base_linear {fuel : Nat} {s : Shared} {elev lat lon : ℝ} {d : Data} (q : Cell.Common fuel s elev lat lon d) {v : String}
    (hv : Linearly s.method v) {col : Col} (h : Dict.get? d.frame v = some col) : Dict.get? q.base v = some col := by
  rcases hv with rfl | rfl | ⟨hm, rfl | rfl⟩
  · rw [base_keeps q (by decide) (by decide), h]
  · rw [base_keeps q (by decide) (by decide), h]
  · exact passed_on q hm h (by decide) (by decide)
  · exact passed_on q hm h (by decide) (by decide)

theorem written_of (j : Job) (hj : j.Sane) {s : Shared} (hs : j.shared = s) {fuel : Nat} {order : List (Dict String Chunk.Slice)}
    (ho : j.Schedule order) {files : Run.Files Output} (hrun : j.run fuel order = .ok files) (hsub : s.ts < 1440) {c : Run.Cell}
    (hc : j.Computed c) :
    ∃ elev lat lon, (j.inp c).elev = fin elev ∧ (j.inp c).lat = fin lat ∧ (j.inp c).lon = fin lon ∧
    ∃ (k : Cell.Common fuel s elev lat lon (j.inp c).data) (daily : Disaggregate.Daily) (sub : Disaggregate.Sub),
      dailyOf (j.inp c).data.days k.base = .ok daily ∧
      Disaggregate.disaggregate daily (s.sub elev lon) k.geom
        (some [(j.inp c).data.stateEnd.1, (j.inp c).data.stateEnd.2]) none = .ok sub ∧
      ∀ v u, s.outVars.get? v = some u → ∃ col val, subColumn sub v = .ok col ∧ Recorded j files v c val ∧
        ∀ k < j.n, ∀ i < 1440 / s.ts, Units.convert v u (col.getD (k * (1440 / s.ts) + i) nan) s.ts = .ok (val (j.stamp k i)) := by
  subst hs
  exact written_sub j hj ho hrun hsub hc

theorem row_daylength {g : Solar.DayGeom} (h : Solar.Row g) : 0 ≤ g.daylength := by
  by_cases h0 : g.daylength = 0
  · exact h0.ge
  · rcases h.shape h0 with ⟨u, -, h1, -, h2, -⟩ | ⟨h1, -⟩
    · rw [h2]; linarith
    · rw [h1]; norm_num

/-- The written values of the three runs are one pair of numbers, seen in three ways; seen in a way in which the daily values are not
negative, it is not negative. -/
theorem superposed (s : Shared) (d0 : Int) (n : Nat) (j : Fin 3 → Job) (hj : ∀ r, (j r).Sane) (hsh : ∀ r, (j r).shared = s)
    (hd0 : ∀ r, (j r).d0 = d0) (hn : ∀ r, (j r).n = n) (fuel : Fin 3 → Nat) (order : Fin 3 → List (Dict String Chunk.Slice))
    (ho : ∀ r, (j r).Schedule (order r)) (files : Fin 3 → Run.Files Output) (hrun : ∀ r, (j r).run (fuel r) (order r) = .ok (files r))
    (hsub : s.ts < 1440) (c : Fin 3 → Run.Cell) (hc : ∀ r, (j r).Computed (c r)) (v u : String) (hv : Linearly s.method v)
    (hu : s.outVars.get? v = some u)
    (hsame : ∀ r, SameFor s.utcOffset (shapeOf s.precType v) ((j 0).inp (c 0)) ((j r).inp (c r)))
    (a b : ℝ) (hcols : Combines a b n fun r => Dict.get? ((j r).inp (c r)).data.frame v)
    (val : Fin 3 → ℚ → Flt ℝ) (hval : ∀ r, Recorded (j r) (files r) v (c r) (val r)) (k i : Nat) (hk : k < n) (hi : i < 1440 / s.ts) :
    ∃ (ps : List (Flt (ℝ × ℝ))) (o : Flt (ℝ × ℝ)),
      (∀ r col, Dict.get? ((j r).inp (c r)).data.frame v = some col → (List.range n).map col = ps.map (see (parts a b r))) ∧
      (∀ r, Units.convert v u (see (parts a b r) o) s.ts = .ok (val r ((j 0).stamp k i))) ∧
      ((v = "shortwave" → ∀ lat, ((j 0).inp (c 0)).lat = fin lat → |lat| ≤ 90) →
        ∀ f : ℝ × ℝ →ₗ[ℝ] ℝ, (∀ x ∈ ps, Pos (see f x)) → Pos (see f o)) := by
  have hst : ∀ r, (j r).stamp k i = (j 0).stamp k i := fun r => by unfold Job.stamp; rw [hsh, hd0, hsh, hd0]
  have hw := fun r => written_of (j r) (hj r) (hsh r) (ho r) (hrun r) hsub (hc r)
  choose elev lat lon h1 h2 h3 q daily sub hd hsu hcol using hw
  choose col w a1 a2 a3 using fun r => hcol r v u hu
  choose t ht using fun r => disaggregate_ok.1 (hsu r)
  have twin : ∀ r, Twin (q 0) (q r) (daily 0) (daily r) := fun r => by
    refine ⟨by rw [(hj 0).data (c 0), (hj r).data (c r), hd0, hn, hd0, hn], hd 0, hd r, fun hx => ?_⟩
    have := (hsame r).lon hx
    rw [h3, h3] at this
    exact Flt.fin.inj this
  obtain ⟨ps, hpl, hps⟩ := hcols.series
  choose given hgiven hfin using hcols.known
  have hlen : ∀ r, ((j r).inp (c r)).data.days.length = n := fun r => by rw [(hj r).data, hn]; simp [consecutive]
  have hbase := fun r => base_linear (q r) hv (hgiven r)
  have hser := fun r => hps r _ (hgiven r)
  obtain ⟨o, ho', hpos⟩ : ∃ o : List (Flt (ℝ × ℝ)), (∀ r, subColumn (sub r) v = .ok (o.map (see (parts a b r)))) ∧
      ((v = "shortwave" → |lat 0| ≤ 90) → ∀ f : ℝ × ℝ →ₗ[ℝ] ℝ, (∀ x ∈ ps, Pos (see f x)) → ∀ x ∈ o, Pos (see f x)) := by
    have pack : ∀ (F : (ℝ × ℝ →ₗ[ℝ] ℝ) → Except PyErr (List (Flt ℝ))) (xs : Fin 3 → List (Flt ℝ)), Uniform F →
        (∀ r, F (parts a b r) = .ok (xs r)) → (H : Prop) →
        (H → ∀ f, (∀ x ∈ ps.map (see f), Pos x) → ∀ out, F f = .ok out → ∀ x ∈ out, Pos x) →
        ∃ o : List (Flt (ℝ × ℝ)), (∀ r, fillBoth (xs r) = o.map (see (parts a b r))) ∧
          (H → ∀ f : ℝ × ℝ →ₗ[ℝ] ℝ, (∀ x ∈ ps, Pos (see f x)) → ∀ x ∈ o, Pos (see f x)) := by
      rintro F xs ⟨o, hF⟩ hx H hP
      cases o with
      | error e =>
        have := (hF (parts a b 0)).symm.trans (hx 0)
        cases this
      | ok o =>
        refine ⟨fillBoth o, fun r => ?_, fun h f hf x hxo => ?_⟩
        · have := Except.ok.inj ((hF (parts a b r)).symm.trans (hx r))
          rw [← this, fillBoth_see]
        · refine pos_fillBoth (hP h f (by simpa using hf) _ (hF f)) _ ?_
          rw [fillBoth_see]
          exact List.mem_map_of_mem hxo
    rcases hv with rfl | rfl | ⟨hm, rfl | rfl⟩
    · obtain ⟨o, ho, hp⟩ := pack _ (fun r => (t r).prec)
        (uniform_prec ps (daily 0).tMin s.ts s.precType s.utcOffset (Disagg.remainder360 (lon 0)) (daily 0).tPk (daily 0).dur) (fun r => by
          obtain ⟨-, -, -, -, -, -, -, q8, -⟩ := dailyOf_ok (hd r)
          obtain ⟨x, g1, g2⟩ := Cell.column_ok.1 q8
          rw [hbase r] at g1
          cases g1
          have := (t r).h_prec
          rw [hlen, hser] at g2
          beta_reduce
          rw [← g2]
          exact ((twin r).rain (hsame r).columns _).trans this) _ fun _ f hf out h => pos_prec h hf
      exact ⟨o, fun r => by rw [ht r]; exact congrArg Except.ok (ho r), hp⟩
    · have hw : ∀ r, ∃ w, (t r).wind = some w ∧
          Disagg.wind (ps.map (see (parts a b r))) s.ts s.utcOffset (Disagg.remainder360 (lon 0)) = .ok w := by
        intro r
        obtain ⟨-, -, -, -, -, -, -, -, q9, -⟩ := dailyOf_ok (hd r)
        have hw := (t r).h_wind
        unfold Cell.column? at q9
        rw [hbase r, hlen] at q9
        simp only [Option.map_some, hser] at q9
        unfold windOf at hw
        rw [q9] at hw
        simp only [bind_ok, pure_ok] at hw
        obtain ⟨w, g1, w0, g2, g3⟩ := hw
        obtain ⟨-, rfl⟩ := Props.column_ok.1 g2
        refine ⟨_, g3.symm, ?_⟩
        rw [← g1]
        have hr := (twin r).rem
        unfold Disagg.wind
        cases hx : s.utcOffset with
        | true => rw [hr hx]; simp only [Shared.sub, hx]
        | false => simp only [Shared.sub, hx]; rfl
      choose w g1 g2 using hw
      obtain ⟨o, ho, hp⟩ := pack _ w (uniform_wind ps s.ts s.utcOffset (Disagg.remainder360 (lon 0))) g2 _
        fun _ f hf out h => pos_wind h hf
      refine ⟨o, fun r => ?_, hp⟩
      rw [ht r]
      simp only [subColumn, Trace.sub, g1 r, Option.map_some, ho]
    · obtain ⟨o, ho, hp⟩ := pack _ (fun r => (t r).sw)
        (uniform_shortwave ps (daylengthOf (daily 0) (s.sub (elev 0) (lon 0))) (daily 0).doy
          ((q 0).geom.map fun g => (List.range Disagg.slotsPerDay).map g.fract) s.ts s.utcOffset (Disagg.remainder360 (lon 0))) (fun r => by
          obtain ⟨-, q2, -⟩ := dailyOf_ok (hd r)
          obtain ⟨x, g1, g2⟩ := Cell.column_ok.1 q2
          rw [hbase r] at g1
          cases g1
          have := (t r).h_sw
          rw [hlen, hser] at g2
          beta_reduce
          rw [← g2]
          have hl := (hsame r).lat rfl
          rw [h2, h2] at hl
          exact ((twin r).light (Flt.fin.inj hl) _).trans this) ("shortwave" = "shortwave" → |lat 0| ≤ 90) fun hl f hf out h => by
          obtain ⟨-, -, q3, -⟩ := dailyOf_ok (hd 0)
          obtain ⟨x, g1, g2⟩ := Cell.column_ok.1 q3
          refine pos_shortwave ?_ h hf ?_ ?_
          · rw [daylengthOf_length, g2, List.length_map, List.length_map, List.length_range, hlen, hpl]
          · unfold daylengthOf
            split
            · intro x hx
              obtain ⟨-, -, rfl⟩ := List.mem_map.1 hx
              exact Pos.fin (by norm_num)
            · rw [g2]
              intro y hy
              obtain ⟨m, hm, rfl⟩ := List.mem_map.1 hy
              obtain ⟨g, dl, e1, e2, e3⟩ := base_daylength (q 0) (k := m) (List.getElem?_eq_getElem (List.mem_range.1 hm))
              rw [e2] at g1
              cases g1
              rw [e3]
              exact Pos.fin (row_daylength (geom_rows (hl rfl) (q 0).h_geom g (List.mem_of_getElem? e1)))
          · intro r hr y hy
            obtain ⟨g, hgm, rfl⟩ := List.mem_map.1 hr
            obtain ⟨m, -, rfl⟩ := List.mem_map.1 hy
            exact (geom_rows (hl rfl) (q 0).h_geom g hgm).nonneg m
      exact ⟨o, fun r => by rw [ht r]; exact congrArg Except.ok (ho r), hp⟩
    · obtain ⟨o, ho, hp⟩ := pack _ (fun r => (t r).cloud) (uniform_wind ps s.ts s.utcOffset (Disagg.remainder360 (lon 0))) (fun r => by
          obtain ⟨-, -, -, -, -, -, q7, -⟩ := dailyOf_ok (hd r)
          obtain ⟨x, g1, g2⟩ := Cell.column_ok.1 q7
          rw [hbase r] at g1
          cases g1
          have := (t r).h_cloud
          rw [hlen, hser] at g2
          beta_reduce
          rw [← g2, ← this]
          have hr := (twin r).rem
          unfold Disagg.wind Disagg.tskc
          cases hx : s.utcOffset with
          | true => rw [hr hx]; simp only [Shared.sub, hx]
          | false => simp only [Shared.sub, hx]; rfl) _ fun _ f hf out h => pos_wind h hf
      exact ⟨o, fun r => by rw [ht r]; exact congrArg Except.ok (ho r), hp⟩
  have e : ∀ r, col r = o.map (see (parts a b r)) := fun r => Except.ok.inj ((a1 r).symm.trans (ho' r))
  have hcv : ∀ r, Units.convert v u (see (parts a b r) (o.getD (k * (1440 / s.ts) + i) nan)) s.ts = .ok (val r ((j 0).stamp k i)) := by
    intro r
    have := a3 r k (by rw [hn]; exact hk) i hi
    rw [e, getD_see] at this
    rw [this, ← recorded_unique (j r) (hj r) (hval r) (a2 r) (by rw [hn]; exact hk) (by rw [hsh]; exact hi), hst]
  refine ⟨ps, _, fun r col h => hps r col h, hcv, fun h f hf => ?_⟩
  rw [← getD_see]
  refine Pos.getD (fun x hx => ?_) _
  obtain ⟨y, hy, rfl⟩ := List.mem_map.1 hx
  exact hpos (fun e => h e _ (h2 0)) f hf y hy

/-- **C113**: a run over a combination of two records writes the combination of what the runs over the two write. -/
theorem C113_superposition (s : Shared) (d0 : Int) (n : Nat) (j : Fin 3 → Job) (hj : ∀ r, (j r).Sane) (hsh : ∀ r, (j r).shared = s)
    (hd0 : ∀ r, (j r).d0 = d0) (hn : ∀ r, (j r).n = n) (fuel : Fin 3 → Nat) (order : Fin 3 → List (Dict String Chunk.Slice))
    (ho : ∀ r, (j r).Schedule (order r)) (files : Fin 3 → Run.Files Output) (hrun : ∀ r, (j r).run (fuel r) (order r) = .ok (files r))
    (hsub : s.ts < 1440) (c : Fin 3 → Run.Cell) (hc : ∀ r, (j r).Computed (c r)) (v u : String) (hv : Linearly s.method v)
    (hu : s.outVars.get? v = some u)
    (hsame : ∀ r, SameFor s.utcOffset (shapeOf s.precType v) ((j 0).inp (c 0)) ((j r).inp (c r)))
    (a b : ℝ) (hcols : Combines a b n fun r => Dict.get? ((j r).inp (c r)).data.frame v)
    (val : Fin 3 → ℚ → Flt ℝ) (hval : ∀ r, Recorded (j r) (files r) v (c r) (val r)) (k i : Nat) (hk : k < n) (hi : i < 1440 / s.ts) :
    val 2 ((j 0).stamp k i) = fin a * val 0 ((j 0).stamp k i) + fin b * val 1 ((j 0).stamp k i) := by
  obtain ⟨-, o, -, hcv, -⟩ := superposed s d0 n j hj hsh hd0 hn fuel order ho files hrun hsub c hc v u hv hu hsame a b hcols val hval k i hk hi
  exact converted (w := fun r => val r ((j 0).stamp k i)) hv.mem hcv

theorem written_daily_of (j : Job) (hj : j.Sane) {s : Shared} (hs : j.shared = s) {fuel : Nat} {order : List (Dict String Chunk.Slice)}
    (ho : j.Schedule order) {files : Run.Files Output} (hrun : j.run fuel order = .ok files) (hday : s.ts = 1440) {c : Run.Cell}
    (hc : j.Computed c) :
    ∃ elev lat lon, (j.inp c).elev = fin elev ∧ (j.inp c).lat = fin lat ∧ (j.inp c).lon = fin lon ∧
    ∃ (k : Cell.Common fuel s elev lat lon (j.inp c).data) (rep : Frame), dailyShortwave k.base = .ok rep ∧
      ∀ v u, s.outVars.get? v = some u → ∃ col val, Dict.get? rep v = some col ∧ Recorded j files v c val ∧
        ∀ k < j.n, Units.convert v u (col k) s.ts = .ok (val (j.stamp k 0)) := by
  subst hs
  exact written_daily j hj ho hrun hday hc

/-- The same for daily output. -/
theorem superposed_daily (s : Shared) (d0 : Int) (n : Nat) (j : Fin 3 → Job) (hj : ∀ r, (j r).Sane) (hsh : ∀ r, (j r).shared = s)
    (hd0 : ∀ r, (j r).d0 = d0) (hn : ∀ r, (j r).n = n) (fuel : Fin 3 → Nat) (order : Fin 3 → List (Dict String Chunk.Slice))
    (ho : ∀ r, (j r).Schedule (order r)) (files : Fin 3 → Run.Files Output) (hrun : ∀ r, (j r).run (fuel r) (order r) = .ok (files r))
    (hday : s.ts = 1440) (c : Fin 3 → Run.Cell) (hc : ∀ r, (j r).Computed (c r)) (v u : String) (hv : Linearly s.method v)
    (hu : s.outVars.get? v = some u) (hlat : v = "shortwave" → ∀ r, ((j r).inp (c r)).lat = ((j 0).inp (c 0)).lat)
    (a b : ℝ) (hcols : Combines a b n fun r => Dict.get? ((j r).inp (c r)).data.frame v)
    (val : Fin 3 → ℚ → Flt ℝ) (hval : ∀ r, Recorded (j r) (files r) v (c r) (val r)) (k : Nat) (hk : k < n) :
    ∃ (ps : List (Flt (ℝ × ℝ))) (o : Flt (ℝ × ℝ)),
      (∀ r col, Dict.get? ((j r).inp (c r)).data.frame v = some col → (List.range n).map col = ps.map (see (parts a b r))) ∧
      (∀ r, Units.convert v u (see (parts a b r) o) s.ts = .ok (val r ((j 0).stamp k 0))) ∧
      ((v = "shortwave" → ∀ lat, ((j 0).inp (c 0)).lat = fin lat → |lat| ≤ 90) →
        ∀ f : ℝ × ℝ →ₗ[ℝ] ℝ, (∀ x ∈ ps, Pos (see f x)) → Pos (see f o)) := by
  have hst : ∀ r, (j r).stamp k 0 = (j 0).stamp k 0 := fun r => by unfold Job.stamp; rw [hsh, hd0, hsh, hd0]
  have hw := fun r => written_daily_of (j r) (hj r) (hsh r) (ho r) (hrun r) hday (hc r)
  choose elev lat lon h1 h2 h3 q rep hrep hcol using hw
  choose col w a1 a2 a3 using fun r => hcol r v u hu
  have hdays : ∀ r, ((j r).inp (c r)).data.days = ((j 0).inp (c 0)).data.days := fun r => by
    rw [(hj 0).data (c 0), (hj r).data (c r), hd0, hn, hd0, hn]
  obtain ⟨ps, hlen, hps⟩ := hcols.series
  choose given hgiven hfin using hcols.known
  have hbase := fun r => base_linear (q r) hv (hgiven r)
  have hser : ∀ r, given r k = see (parts a b r) (ps.getD k nan) := fun r => by
    have := congrArg (fun l : List (Flt ℝ) => l.getD k nan) (hps r _ (hgiven r))
    beta_reduce at this
    rw [getD_see] at this
    rw [← this]
    simp [List.getD, hk]
  have hget : ∀ f : ℝ × ℝ →ₗ[ℝ] ℝ, (∀ x ∈ ps, Pos (see f x)) → Pos (see f (ps.getD k nan)) := fun f hf => by
    rw [← getD_see]
    refine Pos.getD (fun x hx => ?_) _
    obtain ⟨y, hy, rfl⟩ := List.mem_map.1 hx
    exact hf y hy
  obtain ⟨o, ho', hpos⟩ : ∃ o : Flt (ℝ × ℝ), (∀ r, col r k = see (parts a b r) o) ∧
      ((v = "shortwave" → |lat 0| ≤ 90) → ∀ f : ℝ × ℝ →ₗ[ℝ] ℝ, (∀ x ∈ ps, Pos (see f x)) → Pos (see f o)) := by
    by_cases hsw : v = "shortwave"
    · subst hsw
      have hb : ∀ r, Dict.get? (q r).base "daylength" = Dict.get? (q 0).base "daylength" := fun r => by
        have := hlat rfl r
        rw [h2, h2] at this
        exact base_daylength_same (q r) (q 0) (Flt.fin.inj this) (hdays r)
      have hd : ∀ r, ∃ dl, Dict.get? (q 0).base "daylength" = some dl ∧
          col r k = given r k * (dl k / fin (Cnst.SEC_PER_DAY : ℝ)) := fun r => by
        have hr := hrep r
        unfold dailyShortwave at hr
        simp only [bind_ok, pure_ok, Dict.get_ok] at hr
        obtain ⟨sw, g1, dl, g2, g3⟩ := hr
        rw [hbase r] at g1
        cases g1
        refine ⟨dl, by rw [← hb r, g2], ?_⟩
        have := a1 r
        rw [← g3, Dict.get?_set] at this
        simp only [if_true, Option.some.injEq] at this
        rw [← this]
      obtain ⟨dl, g1, -⟩ := hd 0
      refine ⟨times (dl k / fin (Cnst.SEC_PER_DAY : ℝ)) (ps.getD k nan), fun r => ?_, fun hl f hf => ?_⟩
      swap
      · obtain ⟨g, dl', e1, e2, e3⟩ := base_daylength (q 0) (k := k) (List.getElem?_eq_getElem (by
          rw [(hj 0).data (c 0), hn]; simpa [consecutive] using hk))
        rw [e2] at g1
        cases g1
        rw [see_times, e3]
        exact (hget f hf).mul ((Pos.fin (row_daylength (geom_rows (hl rfl) (q 0).h_geom g (List.mem_of_getElem? e1)))).div
          (Pos.fin (by positivity)))
      obtain ⟨dl', g1', g2⟩ := hd r
      rw [g1] at g1'
      cases g1'
      rw [g2, hser, see_times]
    · refine ⟨ps.getD k nan, fun r => ?_, fun _ => hget⟩
      have hr := hrep r
      unfold dailyShortwave at hr
      simp only [bind_ok, pure_ok, Dict.get_ok] at hr
      obtain ⟨sw, g1, dl, g2, g3⟩ := hr
      have := a1 r
      rw [← g3, Dict.get?_set, if_neg (fun e => hsw e.symm), hbase r] at this
      rw [← Option.some.inj this]
      exact hser r
  have hcv : ∀ r, Units.convert v u (see (parts a b r) o) s.ts = .ok (val r ((j 0).stamp k 0)) := by
    intro r
    have := a3 r k (by rw [hn]; exact hk)
    rw [ho'] at this
    rw [this, ← recorded_unique (j r) (hj r) (hval r) (a2 r) (by rw [hn]; exact hk) (by rw [hsh, hday]; decide), hst]
  exact ⟨ps, o, hps, hcv, fun h => hpos fun e => h e _ (h2 0)⟩

/-- **C113**, daily output. -/
theorem C113_daily (s : Shared) (d0 : Int) (n : Nat) (j : Fin 3 → Job) (hj : ∀ r, (j r).Sane) (hsh : ∀ r, (j r).shared = s)
    (hd0 : ∀ r, (j r).d0 = d0) (hn : ∀ r, (j r).n = n) (fuel : Fin 3 → Nat) (order : Fin 3 → List (Dict String Chunk.Slice))
    (ho : ∀ r, (j r).Schedule (order r)) (files : Fin 3 → Run.Files Output) (hrun : ∀ r, (j r).run (fuel r) (order r) = .ok (files r))
    (hday : s.ts = 1440) (c : Fin 3 → Run.Cell) (hc : ∀ r, (j r).Computed (c r)) (v u : String) (hv : Linearly s.method v)
    (hu : s.outVars.get? v = some u) (hlat : v = "shortwave" → ∀ r, ((j r).inp (c r)).lat = ((j 0).inp (c 0)).lat)
    (a b : ℝ) (hcols : Combines a b n fun r => Dict.get? ((j r).inp (c r)).data.frame v)
    (val : Fin 3 → ℚ → Flt ℝ) (hval : ∀ r, Recorded (j r) (files r) v (c r) (val r)) (k : Nat) (hk : k < n) :
    val 2 ((j 0).stamp k 0) = fin a * val 0 ((j 0).stamp k 0) + fin b * val 1 ((j 0).stamp k 0) := by
  obtain ⟨-, o, -, hcv, -⟩ := superposed_daily s d0 n j hj hsh hd0 hn fuel order ho files hrun hday c hc v u hv hu hlat a b hcols val hval k hk
  exact converted (w := fun r => val r ((j 0).stamp k 0)) hv.mem hcv

/-- **C113**: a record `a` times another gives `a` times the output. -/
theorem C113_scaling (j j' : Job) (hj : j.Sane) (hj' : j'.Sane) (hsh : j'.shared = j.shared) (hd0 : j'.d0 = j.d0) (hn : j'.n = j.n)
    (fuel fuel' : Nat) (order order' : List (Dict String Chunk.Slice)) (ho : j.Schedule order) (ho' : j'.Schedule order')
    (files files' : Run.Files Output) (hrun : j.run fuel order = .ok files) (hrun' : j'.run fuel' order' = .ok files')
    (hsub : j.shared.ts < 1440) (c c' : Run.Cell) (hc : j.Computed c) (hc' : j'.Computed c') (v u : String)
    (hv : Linearly j.shared.method v) (hu : j.shared.outVars.get? v = some u)
    (hsame : SameFor j.shared.utcOffset (shapeOf j.shared.precType v) (j.inp c) (j'.inp c'))
    (a : ℝ) (x x' : Col) (hx : Dict.get? (j.inp c).data.frame v = some x) (hx' : Dict.get? (j'.inp c').data.frame v = some x')
    (hfin : ∀ i < j.n, ∃ y, x i = fin y ∧ x' i = fin (a * y))
    (val val' : ℚ → Flt ℝ) (hval : Recorded j files v c val) (hval' : Recorded j' files' v c' val')
    (k i : Nat) (hk : k < j.n) (hi : i < 1440 / j.shared.ts) : val' (j.stamp k i) = fin a * val (j.stamp k i) := by
  have three : ∀ {P : Fin 3 → Prop}, P 0 → P 1 → P 2 → ∀ r, P r := fun p0 p1 p2 r => by
    have hr : r = 0 ∨ r = 1 ∨ r = 2 := by omega
    rcases hr with rfl | rfl | rfl <;> assumption
  have h := C113_superposition j.shared j.d0 j.n ![j, j, j'] (three hj hj hj') (three rfl rfl hsh) (three rfl rfl hd0)
    (three rfl rfl hn) ![fuel, fuel, fuel'] ![order, order, order'] (three ho ho ho') ![files, files, files'] (three hrun hrun hrun')
    hsub ![c, c, c'] (three hc hc hc') v u hv hu
    (three ⟨fun _ _ => rfl, fun _ => rfl, fun _ => rfl, fun _ => rfl, fun _ => rfl⟩
      ⟨fun _ _ => rfl, fun _ => rfl, fun _ => rfl, fun _ => rfl, fun _ => rfl⟩ hsame) a 0
    ⟨three ⟨x, hx, fun i hi => by obtain ⟨y, h1, -⟩ := hfin i hi; exact ⟨y, h1⟩⟩
      ⟨x, hx, fun i hi => by obtain ⟨y, h1, -⟩ := hfin i hi; exact ⟨y, h1⟩⟩
      ⟨x', hx', fun i hi => by obtain ⟨y, -, h1⟩ := hfin i hi; exact ⟨_, h1⟩⟩, by
      intro p q r e1 e2 e3 i hi
      cases (hx.symm.trans e1)
      cases (hx.symm.trans e2)
      cases (hx'.symm.trans e3)
      obtain ⟨y, h1, h2⟩ := hfin i hi
      rw [h1, h2]
      simp⟩ ![val, val, val'] (three hval hval hval') k i hk hi
  have h : val' (j.stamp k i) = fin a * val (j.stamp k i) + fin 0 * val (j.stamp k i) := h
  rw [h]
  cases val (j.stamp k i) <;> simp

/-! ### There are such runs -/

/-- Runs that differ in precipitation and radiation. -/
noncomputable def rainy (x w : ℝ) : Job :=
  { demo .passthrough with
    inp := fun _ => ⟨fin 100, fin 45, fin (-120), ⟨consecutive 0 2,
      [("t_min", fun _ => fin 5), ("t_max", fun _ => fin 15), ("prec", fun i => fin (x * i)), ("dtr", fun _ => fin 10),
       ("smoothed_dtr", fun _ => fin 10), ("seasonal_prec", fun _ => fin 800), ("shortwave", fun _ => fin w)], (fin 4, fin 14)⟩⟩ }

theorem rainy_sane (x w : ℝ) : (rainy x w).Sane where
  step := (demo_sane .passthrough).step
  pos := (demo_sane .passthrough).pos
  calendar := regular_standard _ _
  data := fun _ => rfl
  freq := (demo_sane .passthrough).freq
  years := (demo_sane .passthrough).years
  vars := (demo_sane .passthrough).vars
  names := (demo_sane .passthrough).names
  dims := (demo_sane .passthrough).dims
  dims_pos := (demo_sane .passthrough).dims_pos
  chunks := (demo_sane .passthrough).chunks
  chunks_pos := (demo_sane .passthrough).chunks_pos
  same := (demo_sane .passthrough).same

theorem rainy_complete (x w : ℝ) (c : Run.Cell) : CompleteCell (rainy x w).shared 2 ((rainy x w).inp c) where
  place := (demo_complete .passthrough c).place
  lapse := (demo_complete .passthrough c).lapse
  columns := by
    intro k hk
    simp only [List.mem_cons, List.not_mem_nil, or_false] at hk
    rcases hk with rfl | rfl | rfl | rfl | rfl | rfl <;> simp [rainy, Dict.get?_cons]
  radiation := fun _ => by simp [rainy, Dict.get?_cons]
  tMin := fun col h i _ => by
    simp (decide := true) only [rainy, Dict.get?_cons, if_true, if_false, Option.some.injEq] at h
    subst h; exact ⟨5, rfl⟩
  tMax := fun col h i _ => by
    simp (decide := true) only [rainy, Dict.get?_cons, if_true, if_false, Option.some.injEq] at h
    subst h; exact ⟨15, rfl⟩
  state := ⟨4, 14, rfl⟩
  fraction := (demo_complete .passthrough c).fraction
  lwType := (demo_complete .passthrough c).lwType
  lwCloud := (demo_complete .passthrough c).lwCloud
  storm := (demo_complete .passthrough c).storm

theorem rainy_runs (x w : ℝ) : ∃ order files, (rainy x w).Schedule order ∧ (rainy x w).run 0 order = .ok files := by
  obtain ⟨files, h⟩ := (C71_run (rainy x w) (rainy_sane x w) 0 [[("lat", none), ("lon", none)]]
    ⟨_, rfl, List.Perm.refl _⟩ (fun c _ => rainy_complete x w c) (fun h => by cases h)).2
    (fun c _ => demo_offers (by show (720 : Nat) < 1440; decide) _)
  exact ⟨_, files, ⟨_, rfl, List.Perm.refl _⟩, h⟩

/-- **C113**: there are three such runs. -/
example (a b : ℝ) : ∃ j : Fin 3 → Job, (∀ r, (j r).Sane) ∧ (∀ r, (j r).shared = (demo .passthrough).shared) ∧ (∀ r, (j r).d0 = 0) ∧
    (∀ r, (j r).n = 2) ∧ (demo .passthrough).shared.ts < 1440 ∧ (∀ r, (j r).Computed [0, 0]) ∧
    (demo .passthrough).shared.outVars.get? "prec" = some "mm h-1" ∧
    (∀ r, SameFor false (shapeOf "uniform" "prec") ((j 0).inp [0, 0]) ((j r).inp [0, 0])) ∧
    (Combines a b 2 fun r => Dict.get? ((j r).inp [0, 0]).data.frame "prec") ∧
    (Combines a b 2 fun r => Dict.get? ((j r).inp [0, 0]).data.frame "shortwave") ∧
    ∀ r, ∃ order files, (j r).Schedule order ∧ (j r).run 0 order = .ok files := by
  have three : ∀ {P : Fin 3 → Prop}, P 0 → P 1 → P 2 → ∀ r, P r := fun p0 p1 p2 r => by
    have hr : r = 0 ∨ r = 1 ∨ r = 2 := by omega
    rcases hr with rfl | rfl | rfl <;> assumption
  have hc : ∀ x w, (rainy x w).Computed [0, 0] := fun x w =>
    ⟨by show _ ∈ gridCells [("lat", 1), ("lon", 2)]; decide, 1, rfl, one_pos⟩
  refine ⟨![rainy 3 100, rainy 5 200, rainy (a * 3 + b * 5) (a * 100 + b * 200)], three (rainy_sane _ _) (rainy_sane _ _) (rainy_sane _ _),
    three rfl rfl rfl, three rfl rfl rfl, three rfl rfl rfl, by show (720 : Nat) < 1440; decide, three (hc _ _) (hc _ _) (hc _ _), rfl,
    ?_, ?_, ?_, three (rainy_runs _ _) (rainy_runs _ _) (rainy_runs _ _)⟩
  · have h : ∀ x y : Run.CellIn Data ℝ, SameFor false (shapeOf "uniform" "prec") x y := fun x y =>
      ⟨fun k hk => absurd hk (by
        have : (shapeOf "uniform" "prec").columns = [] := by decide
        rw [this]
        exact List.not_mem_nil), fun h => (by cases h), fun h => (by cases h), fun h => (by cases h), fun h => (by cases h)⟩
    exact fun r => h _ _
  · refine ⟨three ⟨_, rfl, fun i _ => ⟨_, rfl⟩⟩ ⟨_, rfl, fun i _ => ⟨_, rfl⟩⟩ ⟨_, rfl, fun i _ => ⟨_, rfl⟩⟩, ?_⟩
    rintro x y z h1 h2 h3 i -
    cases h1; cases h2; cases h3
    simp only [mul_fin, add_fin, Flt.fin.injEq]
    ring
  · refine ⟨three ⟨_, rfl, fun i _ => ⟨_, rfl⟩⟩ ⟨_, rfl, fun i _ => ⟨_, rfl⟩⟩ ⟨_, rfl, fun i _ => ⟨_, rfl⟩⟩, ?_⟩
    rintro x y z h1 h2 h3 i -
    cases h1; cases h2; cases h3
    simp only [mul_fin, add_fin]

end Verif.Props
