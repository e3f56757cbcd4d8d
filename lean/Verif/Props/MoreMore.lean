import Verif.Props.Superposition

/-!
# More gives more

A record of precipitation, wind, radiation or cloud cover that is nowhere below another gives values that are nowhere below those of the
other.
-/

namespace Verif.Props

open Flt Cell Methods Disaggregate Np Linear

/-- Both missing, or the first at most the second. -/
def NotLess (x y : Flt ℝ) : Prop := (x = nan ∧ y = nan) ∨ ∃ p q, x = fin p ∧ y = fin q ∧ p ≤ q

/-- What comes second less what comes first. -/
def gain : ℝ × ℝ →ₗ[ℝ] ℝ := LinearMap.snd ℝ ℝ ℝ - LinearMap.fst ℝ ℝ ℝ

theorem three_runs {P : Fin 3 → Prop} (p0 : P 0) (p1 : P 1) (p2 : P 2) (r : Fin 3) : P r := by
  have hr : r = 0 ∨ r = 1 ∨ r = 2 := by omega
  rcases hr with rfl | rfl | rfl <;> assumption

theorem notLess_of_gain {y : Flt (ℝ × ℝ)} (h : Pos (see gain y)) : NotLess (see (parts 0 1 0) y) (see (parts 0 1 1) y) := by
  cases y with
  | nan => exact Or.inl ⟨rfl, rfl⟩
  | fin y =>
    refine Or.inr ⟨y.1, y.2, rfl, rfl, ?_⟩
    have := h _ rfl
    simp only [gain, LinearMap.sub_apply, LinearMap.snd_apply, LinearMap.fst_apply] at this
    linarith

theorem gain_series {n : Nat} {x x' : Col} (hle : ∀ i < n, ∃ p q, x i = fin p ∧ x' i = fin q ∧ p ≤ q) {ps : List (Flt (ℝ × ℝ))}
    (h0 : (List.range n).map x = ps.map (see (parts 0 1 0))) (h1 : (List.range n).map x' = ps.map (see (parts 0 1 1))) :
    ∀ y ∈ ps, Pos (see gain y) := by
  intro y hy
  obtain ⟨i, hi⟩ := List.mem_iff_getElem?.1 hy
  have e0 := congrArg (fun l => l[i]?) h0
  have e1 := congrArg (fun l => l[i]?) h1
  simp only [List.getElem?_map, hi, Option.map_some] at e0 e1
  cases y with
  | nan => exact Pos.nan
  | fin y =>
    cases hr : (List.range n)[i]? with
    | none => rw [hr] at e0; cases e0
    | some m =>
      rw [hr] at e0 e1
      obtain ⟨p, q, g1, g2, g3⟩ := hle m (List.mem_range.1 (List.mem_of_getElem? hr))
      simp only [Option.map_some, Option.some.injEq, g1, g2] at e0 e1
      have k0 : p = y.1 := Flt.fin.inj e0
      have k1 : q = y.2 := Flt.fin.inj e1
      refine Pos.fin ?_
      simp only [gain, LinearMap.sub_apply, LinearMap.snd_apply, LinearMap.fst_apply]
      rw [← k0, ← k1]
      linarith

theorem combines_of_le {n : Nat} {cols : Fin 3 → Option Col} {x x' : Col} (h0 : cols 0 = some x) (h1 : cols 1 = some x')
    (h2 : cols 2 = some x') (hle : ∀ i < n, ∃ p q, x i = fin p ∧ x' i = fin q ∧ p ≤ q) : Combines 0 1 n cols :=
  ⟨three_runs ⟨x, h0, fun i hi => by obtain ⟨p, -, h, -⟩ := hle i hi; exact ⟨p, h⟩⟩
    ⟨x', h1, fun i hi => by obtain ⟨-, q, -, h, -⟩ := hle i hi; exact ⟨q, h⟩⟩
    ⟨x', h2, fun i hi => by obtain ⟨-, q, -, h, -⟩ := hle i hi; exact ⟨q, h⟩⟩, by
    intro p q r e0 e1 e2 i hi
    cases h0.symm.trans e0
    cases h1.symm.trans e1
    cases h2.symm.trans e2
    obtain ⟨p, q, g1, g2, -⟩ := hle i hi
    rw [g1, g2]
    simp⟩

/-- **C116**: a daily record that is nowhere below another gives values that are nowhere below those of the other. -/
theorem C116_more (j j' : Job) (hj : j.Sane) (hj' : j'.Sane) (hsh : j'.shared = j.shared) (hd0 : j'.d0 = j.d0) (hn : j'.n = j.n)
    (fuel fuel' : Nat) (order order' : List (Dict String Chunk.Slice)) (ho : j.Schedule order) (ho' : j'.Schedule order')
    (files files' : Run.Files Output) (hrun : j.run fuel order = .ok files) (hrun' : j'.run fuel' order' = .ok files')
    (hsub : j.shared.ts < 1440) (c c' : Run.Cell) (hc : j.Computed c) (hc' : j'.Computed c') (v u : String)
    (hv : Linearly j.shared.method v) (hu : j.shared.outVars.get? v = some u)
    (hsame : SameFor j.shared.utcOffset (shapeOf j.shared.precType v) (j.inp c) (j'.inp c'))
    (hlat : v = "shortwave" → ∀ lat, (j.inp c).lat = fin lat → |lat| ≤ 90)
    (x x' : Col) (hx : Dict.get? (j.inp c).data.frame v = some x) (hx' : Dict.get? (j'.inp c').data.frame v = some x')
    (hle : ∀ i < j.n, ∃ p q, x i = fin p ∧ x' i = fin q ∧ p ≤ q)
    (val val' : ℚ → Flt ℝ) (hval : Recorded j files v c val) (hval' : Recorded j' files' v c' val')
    (k i : Nat) (hk : k < j.n) (hi : i < 1440 / j.shared.ts) : NotLess (val (j.stamp k i)) (val' (j.stamp k i)) := by
  obtain ⟨ps, o, h1, h2, h3⟩ := superposed j.shared j.d0 j.n ![j, j', j'] (three_runs hj hj' hj') (three_runs rfl hsh hsh)
    (three_runs rfl hd0 hd0) (three_runs rfl hn hn) ![fuel, fuel', fuel'] ![order, order', order'] (three_runs ho ho' ho')
    ![files, files', files'] (three_runs hrun hrun' hrun') hsub ![c, c', c'] (three_runs hc hc' hc') v u hv hu
    (three_runs ⟨fun _ _ => rfl, fun _ => rfl, fun _ => rfl, fun _ => rfl, fun _ => rfl⟩ hsame hsame) 0 1
    (combines_of_le hx hx' hx' hle) ![val, val', val'] (three_runs hval hval' hval') k i hk hi
  obtain ⟨y, e, hp⟩ := converted_pair hv.mem h2
  have := notLess_of_gain (hp (Int.natCast_nonneg _) gain (h3 hlat gain (gain_series hle (h1 0 x hx) (h1 1 x' hx'))))
  rw [← e 0, ← e 1] at this
  exact this

/-- **C116**, daily output. -/
theorem C116_daily (j j' : Job) (hj : j.Sane) (hj' : j'.Sane) (hsh : j'.shared = j.shared) (hd0 : j'.d0 = j.d0) (hn : j'.n = j.n)
    (fuel fuel' : Nat) (order order' : List (Dict String Chunk.Slice)) (ho : j.Schedule order) (ho' : j'.Schedule order')
    (files files' : Run.Files Output) (hrun : j.run fuel order = .ok files) (hrun' : j'.run fuel' order' = .ok files')
    (hday : j.shared.ts = 1440) (c c' : Run.Cell) (hc : j.Computed c) (hc' : j'.Computed c') (v u : String)
    (hv : Linearly j.shared.method v) (hu : j.shared.outVars.get? v = some u)
    (hsame : v = "shortwave" → (j'.inp c').lat = (j.inp c).lat)
    (hlat : v = "shortwave" → ∀ lat, (j.inp c).lat = fin lat → |lat| ≤ 90)
    (x x' : Col) (hx : Dict.get? (j.inp c).data.frame v = some x) (hx' : Dict.get? (j'.inp c').data.frame v = some x')
    (hle : ∀ i < j.n, ∃ p q, x i = fin p ∧ x' i = fin q ∧ p ≤ q)
    (val val' : ℚ → Flt ℝ) (hval : Recorded j files v c val) (hval' : Recorded j' files' v c' val')
    (k : Nat) (hk : k < j.n) : NotLess (val (j.stamp k 0)) (val' (j.stamp k 0)) := by
  obtain ⟨ps, o, h1, h2, h3⟩ := superposed_daily j.shared j.d0 j.n ![j, j', j'] (three_runs hj hj' hj') (three_runs rfl hsh hsh)
    (three_runs rfl hd0 hd0) (three_runs rfl hn hn) ![fuel, fuel', fuel'] ![order, order', order'] (three_runs ho ho' ho')
    ![files, files', files'] (three_runs hrun hrun' hrun') hday ![c, c', c'] (three_runs hc hc' hc') v u hv hu
    (fun e => three_runs rfl (hsame e) (hsame e)) 0 1
    (combines_of_le hx hx' hx' hle) ![val, val', val'] (three_runs hval hval' hval') k hk
  obtain ⟨y, e, hp⟩ := converted_pair hv.mem h2
  have := notLess_of_gain (hp (Int.natCast_nonneg _) gain (h3 hlat gain (gain_series hle (h1 0 x hx) (h1 1 x' hx'))))
  rw [← e 0, ← e 1] at this
  exact this

/-- **C116**: there are such runs, one with more rain and more light than the other. -/
example : ∃ j j' : Job, j.Sane ∧ j'.Sane ∧ j'.shared = j.shared ∧ j'.d0 = j.d0 ∧ j'.n = j.n ∧ j.shared.ts < 1440 ∧
    j.Computed [0, 0] ∧ j'.Computed [0, 0] ∧ Linearly j.shared.method "prec" ∧ Linearly j.shared.method "shortwave" ∧
    j.shared.outVars.get? "prec" = some "mm h-1" ∧ (∃ u, j.shared.outVars.get? "shortwave" = some u) ∧
    SameFor j.shared.utcOffset (shapeOf j.shared.precType "prec") (j.inp [0, 0]) (j'.inp [0, 0]) ∧
    SameFor j.shared.utcOffset (shapeOf j.shared.precType "shortwave") (j.inp [0, 0]) (j'.inp [0, 0]) ∧
    (∃ x x', Dict.get? (j.inp [0, 0]).data.frame "prec" = some x ∧ Dict.get? (j'.inp [0, 0]).data.frame "prec" = some x' ∧
      ∀ i < j.n, ∃ p q, x i = fin p ∧ x' i = fin q ∧ p ≤ q) ∧
    (∃ x x', Dict.get? (j.inp [0, 0]).data.frame "shortwave" = some x ∧ Dict.get? (j'.inp [0, 0]).data.frame "shortwave" = some x' ∧
      ∀ i < j.n, ∃ p q, x i = fin p ∧ x' i = fin q ∧ p < q) ∧
    (∃ order files, j.Schedule order ∧ j.run 0 order = .ok files) ∧ ∃ order files, j'.Schedule order ∧ j'.run 0 order = .ok files := by
  have hc : ∀ x w, (rainy x w).Computed [0, 0] := fun x w =>
    ⟨by show _ ∈ gridCells [("lat", 1), ("lon", 2)]; decide, 1, rfl, one_pos⟩
  have hsame : ∀ v x w x' w', (shapeOf "uniform" v).columns = [] →
      SameFor false (shapeOf "uniform" v) ((rainy x w).inp [0, 0]) ((rainy x' w').inp [0, 0]) := fun v x w x' w' h =>
    ⟨fun k hk => absurd hk (by rw [h]; exact List.not_mem_nil), fun _ => rfl, fun _ => rfl, fun _ => rfl, fun _ => rfl⟩
  refine ⟨rainy 3 100, rainy 5 200, rainy_sane _ _, rainy_sane _ _, rfl, rfl, rfl, by show (720 : Nat) < 1440; decide, hc _ _, hc _ _,
    Or.inl rfl, Or.inr (Or.inr ⟨rfl, Or.inl rfl⟩), rfl, ⟨_, rfl⟩, hsame _ _ _ _ _ (by decide), hsame _ _ _ _ _ (by decide),
    ⟨_, _, rfl, rfl, fun i _ => ⟨_, _, rfl, rfl, ?_⟩⟩, ⟨_, _, rfl, rfl, fun i _ => ⟨_, _, rfl, rfl, by norm_num⟩⟩, rainy_runs _ _, rainy_runs _ _⟩
  have : (0 : ℝ) ≤ i := Nat.cast_nonneg i
  linarith

end Verif.Props
