import Mathlib.Topology.Order.IntermediateValue
import Mathlib.Topology.Algebra.Order.LiminfLimsup
import Mathlib.Topology.Instances.Real.Lemmas
import Mathlib.Topology.Order.LiminfLimsup
import Mathlib.Dynamics.FixedPoints.Basic
import Mathlib.Tactic.Linarith

/-!
# Iterating a map that never falls faster than the identity rises

If `g x - g y < y - x` whenever `x < y` there is no cycle of two points, and every bounded orbit converges (a case of
Coppel's theorem).
-/

namespace Verif.Coppel

open Filter Topology

variable {g : ℝ → ℝ}

/-- Once an orbit rises it never comes back to where it was. -/
theorem stays_above (hc : Continuous g) (h1 : ∀ x y, x < y → g x - g y < y - x) :
    ∀ (n : Nat), 1 ≤ n → ∀ c, c < g c → c < g^[n] c := by
  intro n
  induction n using Nat.strong_induction_on with
  | _ n ih =>
    intro hn c hgc
    by_cases hS : ∃ x, c ≤ x ∧ g x ≤ x
    · -- the first fixed point above `c`
      let S : Set ℝ := {x | c ≤ x ∧ g x ≤ x}
      have hSne : S.Nonempty := hS
      have hSb : BddBelow S := ⟨c, fun x hx => hx.1⟩
      have hScl : IsClosed S := (isClosed_le continuous_const continuous_id).inter (isClosed_le hc continuous_id)
      have hpS : sInf S ∈ S := hScl.csInf_mem hSne hSb
      set p := sInf S with hp
      have hcp : c < p := by
        rcases lt_or_eq_of_le hpS.1 with h | h
        · exact h
        · exact absurd hpS.2 (by rw [← h]; exact not_le.2 hgc)
      have hgp : g p = p := by
        by_contra hne
        have hlt : g p < p := lt_of_le_of_ne hpS.2 hne
        have hcont : ContinuousOn (fun x => x - g x) (Set.Icc c p) := (continuous_id.sub hc).continuousOn
        have hmem : (0 : ℝ) ∈ Set.Ioo (c - g c) (p - g p) := ⟨by linarith, by linarith⟩
        obtain ⟨q, hq, hq0⟩ := intermediate_value_Ioo hcp.le hcont hmem
        have hqS : q ∈ S := ⟨hq.1.le, by simp only at hq0; linarith⟩
        have := csInf_le hSb hqS
        exact absurd hq.2 (not_lt.2 this)
      have hlow : ∀ x, c ≤ x → x < p → g x < 2 * p - c := by
        intro x hx hxp
        have := h1 x p hxp
        rw [hgp] at this
        linarith
      have hhigh : ∀ x, c < x → x ≤ 2 * p - c → c < g x := by
        intro x hx hx2
        rcases lt_trichotomy x p with h | h | h
        · have : x ∉ S := fun hxS => absurd (csInf_le hSb hxS) (not_le.2 h)
          have : ¬ g x ≤ x := fun h => this ⟨hx.le, h⟩
          linarith [not_le.1 this]
        · rw [h, hgp]; exact hcp
        · have := h1 p x h
          rw [hgp] at this
          linarith
      by_cases hall : ∀ j < n, g^[j] c ≤ 2 * p - c
      · obtain ⟨m, rfl⟩ : ∃ m, n = m + 1 := ⟨n - 1, by omega⟩
        rw [Function.iterate_succ_apply']
        rcases Nat.eq_zero_or_pos m with rfl | hm
        · exact hgc
        · exact hhigh _ (ih m (by omega) hm c hgc) (hall m (by omega))
      · -- the orbit has climbed further: it has risen at a point above `c`
        push Not at hall
        obtain ⟨j, hj, hjp⟩ := hall
        classical
        have hex : ∃ j, 2 * p - c < g^[j] c := ⟨j, hjp⟩
        have hf1 := Nat.find_spec hex
        have hf2 : ∀ i < Nat.find hex, g^[i] c ≤ 2 * p - c := fun i hi => not_lt.1 (Nat.find_min hex hi)
        have hfn : Nat.find hex < n := lt_of_le_of_lt (Nat.find_min' hex hjp) hj
        generalize Nat.find hex = f at hf1 hf2 hfn
        have hf0 : f ≠ 0 := by
          rintro rfl
          rw [Function.iterate_zero_apply] at hf1
          linarith
        obtain ⟨i, rfl⟩ : ∃ i, f = i + 1 := ⟨f - 1, by omega⟩
        rw [Function.iterate_succ_apply'] at hf1
        have hi0 : i ≠ 0 := by
          rintro rfl
          rw [Function.iterate_zero_apply] at hf1
          have := hlow c le_rfl hcp
          linarith
        have hci : c < g^[i] c := ih i (by omega) (by omega) c hgc
        have hup : g^[i] c < g (g^[i] c) := lt_of_le_of_lt (hf2 i (by omega)) hf1
        have := ih (n - i) (by omega) (by omega) (g^[i] c) hup
        rw [← Function.iterate_add_apply, Nat.sub_add_cancel (by omega)] at this
        linarith
    · -- everything above `c` rises
      push Not at hS
      have : ∀ m, c < g^[m + 1] c := by
        intro m
        induction m with
        | zero => exact hgc
        | succ m ihm =>
          rw [Function.iterate_succ_apply']
          exact lt_trans ihm (hS _ ihm.le)
      obtain ⟨m, rfl⟩ : ∃ m, n = m + 1 := ⟨n - 1, by omega⟩
      exact this m

/-- Once an orbit falls it never comes back to where it was. -/
theorem stays_below (hc : Continuous g) (h1 : ∀ x y, x < y → g x - g y < y - x) (n : Nat) (hn : 1 ≤ n) (c : ℝ)
    (h : g c < c) : g^[n] c < c := by
  have hc' : Continuous (fun x => -g (-x)) := (hc.comp continuous_neg).neg
  have h1' : ∀ x y, x < y → -g (-x) - -g (-y) < y - x := by
    intro x y hxy
    have := h1 (-y) (-x) (by linarith)
    linarith
  have hit : ∀ (m : Nat) (x : ℝ), (fun x => -g (-x))^[m] (-x) = -(g^[m] x) := by
    intro m
    induction m with
    | zero => intro x; rfl
    | succ m ih =>
      intro x
      rw [Function.iterate_succ_apply, Function.iterate_succ_apply]
      simp only [neg_neg]
      exact ih (g x)
  have := stays_above hc' h1' n hn (-c) (by simpa using h)
  rw [hit] at this
  linarith

/-- Something that happens again and again, and fails again and again, passes again and again from one to the other. -/
theorem frequently_switch {P : Nat → Prop} (h1 : ∃ᶠ k in atTop, P k) (h2 : ∃ᶠ k in atTop, ¬ P k) :
    ∃ᶠ k in atTop, P k ∧ ¬ P (k + 1) := by
  intro hcon
  have hcon' : ∀ᶠ k in atTop, P k → P (k + 1) := by
    filter_upwards [hcon] with k hk hP
    by_contra hn
    exact hk ⟨hP, hn⟩
  obtain ⟨N, hN⟩ := eventually_atTop.1 hcon'
  obtain ⟨k, hk, hPk⟩ := (frequently_atTop.1 h1) N
  have hall : ∀ m, P (k + m) := by
    intro m
    induction m with
    | zero => exact hPk
    | succ m ih => exact hN (k + m) (by omega) ih
  obtain ⟨m, hm, hPm⟩ := (frequently_atTop.1 h2) k
  obtain ⟨i, rfl⟩ := Nat.exists_eq_add_of_le hm
  exact hPm (hall i)

/-- Bounded orbits converge. -/
theorem converges (hc : Continuous g) (h1 : ∀ x y, x < y → g x - g y < y - x) (x₀ m M : ℝ)
    (hb : ∀ k, m ≤ g^[k] x₀ ∧ g^[k] x₀ ≤ M) : ∃ l, Tendsto (fun k => g^[k] x₀) atTop (𝓝 l) := by
  set x : Nat → ℝ := fun k => g^[k] x₀ with hx
  have hsucc : ∀ k, x (k + 1) = g (x k) := fun k => Function.iterate_succ_apply' g k x₀
  have hadd : ∀ k i, x (k + i) = g^[i] (x k) := fun k i => by
    show g^[k + i] x₀ = g^[i] (g^[k] x₀)
    rw [Nat.add_comm, Function.iterate_add_apply]
  have hbb : IsBoundedUnder (· ≤ ·) atTop x := isBoundedUnder_of ⟨M, fun k => (hb k).2⟩
  have hbb' : IsBoundedUnder (· ≥ ·) atTop x := isBoundedUnder_of ⟨m, fun k => (hb k).1⟩
  by_cases heq : ∃ k, x (k + 1) = x k
  · obtain ⟨k, hk⟩ := heq
    have hconst : ∀ i, x (k + i) = x k := by
      intro i
      induction i with
      | zero => rfl
      | succ i ih => rw [← Nat.add_assoc, hsucc, ih, ← hsucc, hk]
    refine ⟨x k, tendsto_const_nhds.congr' ?_⟩
    filter_upwards [eventually_ge_atTop k] with j hj
    obtain ⟨i, rfl⟩ := Nat.exists_eq_add_of_le hj
    exact (hconst i).symm
  · push Not at heq
    set a := liminf x atTop with ha
    set b := limsup x atTop with hb'
    have hab : a ≤ b := liminf_le_limsup hbb hbb'
    rcases lt_or_eq_of_le hab with hlt | he
    · exfalso
      -- rising points lie below, falling points above
      have hrise : ∀ k, x k < x (k + 1) → x k ≤ a := by
        intro k hk
        refine le_liminf_of_le hbb.isCoboundedUnder_ge ?_
        filter_upwards [eventually_gt_atTop k] with j hj
        obtain ⟨i, rfl⟩ := Nat.exists_eq_add_of_le hj.le
        rw [hadd]
        rw [hsucc] at hk
        exact (stays_above hc h1 i (by omega) _ hk).le
      have hfall : ∀ k, x (k + 1) < x k → b ≤ x k := by
        intro k hk
        refine limsup_le_of_le hbb'.isCoboundedUnder_le ?_
        filter_upwards [eventually_gt_atTop k] with j hj
        obtain ⟨i, rfl⟩ := Nat.exists_eq_add_of_le hj.le
        rw [hadd]
        rw [hsucc] at hk
        exact (stays_below hc h1 i (by omega) _ hk).le
      have hsplit : ∀ k, x k ≤ a ∨ b ≤ x k := by
        intro k
        rcases lt_or_gt_of_ne (heq k) with h | h
        · exact Or.inr (hfall k h)
        · exact Or.inl (hrise k h)
      have hf1 : ∃ᶠ k in atTop, x k < b := frequently_lt_of_liminf_lt hbb.isCoboundedUnder_ge hlt
      have hf2 : ∃ᶠ k in atTop, a < x k := frequently_lt_of_lt_limsup hbb'.isCoboundedUnder_le hlt
      have hP : ∃ᶠ k in atTop, x k ≤ a := hf1.mono fun k hk => (hsplit k).resolve_right (not_le.2 hk)
      have hQ : ∃ᶠ k in atTop, ¬ x k ≤ a := hf2.mono fun k hk => not_le.2 hk
      have hlow : ∀ ε > 0, ∀ᶠ k in atTop, a - ε < x k := fun ε he =>
        eventually_lt_of_lt_liminf (by linarith) hbb'
      have hupp : ∀ ε > 0, ∀ᶠ k in atTop, x k < b + ε := fun ε he =>
        eventually_lt_of_limsup_lt (by linarith) hbb
      have hlowS : ∀ ε > 0, ∀ᶠ k in atTop, a - ε < x (k + 1) := fun ε he =>
        (tendsto_add_atTop_nat 1).eventually (hlow ε he)
      have huppS : ∀ ε > 0, ∀ᶠ k in atTop, x (k + 1) < b + ε := fun ε he =>
        (tendsto_add_atTop_nat 1).eventually (hupp ε he)
      have key : ∀ u v : ℝ, (∀ ε > 0, ∃ y, |y - u| < ε ∧ |g y - v| < ε) → g u = v := by
        intro u v h
        by_contra hne
        have hpos : 0 < |g u - v| / 2 := by
          have := abs_pos.2 (sub_ne_zero.2 hne)
          linarith
        obtain ⟨δ, hδ, hδ2⟩ := Metric.continuousAt_iff.1 (hc.continuousAt (x := u)) (|g u - v| / 2) hpos
        obtain ⟨y, hy1, hy2⟩ := h (min δ (|g u - v| / 2)) (lt_min hδ hpos)
        have h3 := hδ2 (show dist y u < δ from lt_of_lt_of_le hy1 (min_le_left _ _))
        rw [Real.dist_eq] at h3
        have h4 := lt_of_lt_of_le hy2 (min_le_right _ _)
        have : |g u - v| ≤ |g y - g u| + |g y - v| := by
          rw [← abs_neg (g y - g u)]
          have := abs_add_le (-(g y - g u)) (g y - v)
          rwa [show -(g y - g u) + (g y - v) = g u - v by ring] at this
        linarith
      have hga : g a = b := by
        apply key
        intro ε he
        obtain ⟨k, ⟨⟨⟨hk1, hk2⟩, hk3⟩, hk4⟩⟩ := (((frequently_switch hP hQ).and_eventually (hlow ε he)).and_eventually
          (huppS ε he)).exists
        refine ⟨x k, ?_, ?_⟩
        · rw [abs_lt]; constructor <;> linarith
        · have := (hsplit (k + 1)).resolve_left hk2
          rw [← hsucc, abs_lt]; constructor <;> linarith
      have hgb : g b = a := by
        apply key
        intro ε he
        have hP' : ∃ᶠ k in atTop, ¬ ¬ x k ≤ a := hP.mono fun k hk => not_not.2 hk
        obtain ⟨k, ⟨⟨⟨hk1, hk2⟩, hk3⟩, hk4⟩⟩ := (((frequently_switch hQ hP').and_eventually (hupp ε he)).and_eventually
          (hlowS ε he)).exists
        refine ⟨x k, ?_, ?_⟩
        · have := (hsplit k).resolve_left hk1
          rw [abs_lt]; constructor <;> linarith
        · have := not_not.1 hk2
          rw [← hsucc, abs_lt]; constructor <;> linarith
      have := h1 a b hlt
      rw [hga, hgb] at this
      linarith
    · exact ⟨a, tendsto_of_liminf_eq_limsup rfl he.symm hbb hbb'⟩

/-- Successive differences become small. -/
theorem differences (hc : Continuous g) (h1 : ∀ x y, x < y → g x - g y < y - x) (x₀ m M : ℝ)
    (hb : ∀ k, m ≤ g^[k] x₀ ∧ g^[k] x₀ ≤ M) {ε : ℝ} (he : 0 < ε) :
    ∀ᶠ k in atTop, |g^[k + 1] x₀ - g^[k] x₀| ≤ ε := by
  obtain ⟨l, hl⟩ := converges hc h1 x₀ m M hb
  have h2 : Tendsto (fun k => g^[k + 1] x₀) atTop (𝓝 l) := hl.comp (tendsto_add_atTop_nat 1)
  have h3 : Tendsto (fun k => |g^[k + 1] x₀ - g^[k] x₀|) atTop (𝓝 0) := by
    have := (h2.sub hl).abs
    simpa using this
  exact (h3.eventually (gt_mem_nhds he)).mono fun k hk => hk.le

end Verif.Coppel
