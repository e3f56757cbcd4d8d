import Verif.Lemmas.FpSum
import Verif.Model.Rounded
import Verif.Model.Units
import Verif.Lemmas.Except
import Mathlib.Data.List.Forall2

/-!
# C121: humidity and units in floating point
-/

namespace Verif.Props

open Flt Np Fp Rounded

namespace Rel

variable {K : Type} [Field K] [LinearOrder K] [IsStrictOrderedRing K] [FloorRing K]

/-- One rounding changes a number by at most this factor. -/
def fac (p : Nat) : K := 1 + 2 * 2 ^ (-p : Int)

theorem fac_pos (p : Nat) : (0 : K) < fac p := by have := unit_pos (K := K) p; unfold fac; linarith

theorem one_le_fac (p : Nat) : (1 : K) ≤ fac p := by have := unit_pos (K := K) p; unfold fac; linarith

/-- Two numbers are the same up to `k` roundings. -/
def Close (p k : Nat) (x e : K) : Prop := 0 ≤ x ∧ 0 ≤ e ∧ x ≤ e * fac p ^ k ∧ e ≤ x * fac p ^ k

theorem Close.refl (p : Nat) {x : K} (h : 0 ≤ x) : Close p 0 x x := ⟨h, h, by simp, by simp⟩

theorem Close.rnd {p k : Nat} (hp : 0 < p) {x e : K} (h : Close p k x e) : Close p (k + 1) (rnd p x) e := by
  obtain ⟨h1, h2, h3, h4⟩ := h
  have hu := unit_pos (K := K) p
  have hu1 : (2 : K) ^ (-p : Int) ≤ 1 / 2 := by
    rw [show (1 / 2 : K) = 2 ^ (-1 : Int) by norm_num]
    exact zpow_le_zpow_right₀ (by norm_num) (by omega)
  have hr := rnd_rel p x
  rw [abs_of_nonneg h1] at hr
  obtain ⟨r1, r2⟩ := abs_le.1 hr
  have hf : (0 : K) < fac p ^ k := pow_pos (fac_pos p) k
  refine ⟨rnd_nonneg p h1, h2, ?_, ?_⟩
  · rw [pow_succ, ← mul_assoc]
    have : Fp.rnd p x ≤ x * fac p := by unfold fac; nlinarith [mul_nonneg h1 hu.le]
    exact this.trans (mul_le_mul_of_nonneg_right h3 (fac_pos p).le)
  · rw [pow_succ']
    have : x ≤ Fp.rnd p x * fac p := by
      have h5 : x * (1 - 2 ^ (-p : Int)) ≤ Fp.rnd p x := by linarith
      refine le_trans ?_ (mul_le_mul_of_nonneg_right h5 (fac_pos p).le)
      unfold fac
      have : 0 ≤ x * (2 ^ (-p : Int) * (1 - 2 * 2 ^ (-p : Int))) := mul_nonneg h1 (mul_nonneg hu.le (by linarith))
      linarith
    rw [← mul_assoc]
    exact h4.trans (mul_le_mul_of_nonneg_right this hf.le)

theorem Close.mul {p k l : Nat} {x e y f : K} (h : Close p k x e) (g : Close p l y f) : Close p (k + l) (x * y) (e * f) := by
  obtain ⟨h1, h2, h3, h4⟩ := h
  obtain ⟨g1, g2, g3, g4⟩ := g
  have hf := fac_pos (K := K) p
  refine ⟨mul_nonneg h1 g1, mul_nonneg h2 g2, ?_, ?_⟩
  · rw [pow_add, mul_mul_mul_comm]
    exact mul_le_mul h3 g3 g1 (mul_nonneg h2 (pow_pos hf k).le)
  · rw [pow_add, mul_mul_mul_comm]
    exact mul_le_mul h4 g4 g2 (mul_nonneg h1 (pow_pos hf k).le)

theorem Close.inv {p k : Nat} {x e : K} (h : Close p k x e) (he : 0 < e) : Close p k x⁻¹ e⁻¹ := by
  obtain ⟨h1, h2, h3, h4⟩ := h
  have hf : (0 : K) < fac p ^ k := pow_pos (fac_pos p) k
  have hx : 0 < x := by
    rcases h1.lt_or_eq with h | h
    · exact h
    · rw [← h, zero_mul] at h4; linarith
  refine ⟨(inv_pos.2 hx).le, (inv_pos.2 he).le, ?_, ?_⟩
  · rw [inv_mul_eq_div, inv_eq_one_div, div_le_div_iff₀ hx he]; linarith
  · rw [inv_mul_eq_div, inv_eq_one_div, div_le_div_iff₀ he hx]; linarith

theorem Close.div {p k l : Nat} {x e y f : K} (h : Close p k x e) (g : Close p l y f) (hf : 0 < f) : Close p (k + l) (x / y) (e / f) := by
  rw [div_eq_mul_inv, div_eq_mul_inv]
  exact h.mul (g.inv hf)

theorem Close.mono {p k l : Nat} (hkl : k ≤ l) {x e : K} (h : Close p k x e) : Close p l x e := by
  obtain ⟨h1, h2, h3, h4⟩ := h
  have : (fac p : K) ^ k ≤ fac p ^ l := pow_le_pow_right₀ (one_le_fac p) hkl
  exact ⟨h1, h2, h3.trans (mul_le_mul_of_nonneg_left this h2), h4.trans (mul_le_mul_of_nonneg_left this h1)⟩

theorem Close.add {p k : Nat} {x e y f : K} (h : Close p k x e) (g : Close p k y f) : Close p k (x + y) (e + f) := by
  obtain ⟨h1, h2, h3, h4⟩ := h
  obtain ⟨g1, g2, g3, g4⟩ := g
  exact ⟨add_nonneg h1 g1, add_nonneg h2 g2, by rw [add_mul]; exact add_le_add h3 g3, by rw [add_mul]; exact add_le_add h4 g4⟩

theorem Close.min {p k : Nat} {x e c : K} (hc : 0 ≤ c) (h : Close p k x e) : Close p k (min c x) (min c e) := by
  obtain ⟨h1, h2, h3, h4⟩ := h
  have hf : (1 : K) ≤ fac p ^ k := one_le_pow₀ (one_le_fac p)
  have hc' : c ≤ c * fac p ^ k := le_mul_of_one_le_right hc hf
  refine ⟨le_min hc h1, le_min hc h2, ?_, ?_⟩
  · rw [min_mul_of_nonneg _ _ (by linarith)]
    exact min_le_min hc' h3
  · rw [min_mul_of_nonneg _ _ (by linarith)]
    exact min_le_min hc' h4

end Rel

open Rel

section
variable {K : Type} [Field K] [LinearOrder K] [IsStrictOrderedRing K] [FloorRing K]

theorem rep_thousand {p : Nat} (hp : 20 ≤ p) {n : Nat} (hn : n ≤ 100000) : IsRep p (n : K) :=
  rep_nat (hn.trans ((by norm_num : 100000 ≤ 2 ^ 20).trans (Nat.pow_le_pow_right (by norm_num) hp)))

/-- **C121**: relative humidity in floating point is a percentage, and differs from the exact one by at most two roundings. -/
theorem C121_rel (p : Nat) (hp : 20 ≤ p) {vp svp : K} (hv : 0 ≤ vp) (hs : 0 < svp) :
    0 ≤ Rounded.relHumid p vp svp ∧ Rounded.relHumid p vp svp ≤ 100 ∧ Close p 2 (Rounded.relHumid p vp svp) (min 100 (100000 * (vp / svp))) := by
  have e : Rounded.relHumid p vp svp = min 100 (rnd p (100000 * rnd p (vp / svp))) := by
    unfold Rounded.relHumid Cnst.MAX_PERCENT Cnst.MBAR_PER_BAR
    have : rnd p ((100.0 : K) * 1000.0) = 100000 := by
      rw [show (100.0 : K) * 1000.0 = ((100000 : Nat) : K) by norm_num]
      exact rnd_rep (by omega) (rep_thousand hp (le_refl _))
    simp only [this]
    rw [show (100.0 : K) = 100 by norm_num]
    split_ifs with h
    · exact (min_eq_left h.le).symm
    · exact (min_eq_right (not_lt.1 h)).symm
  have h1 : Close p 1 (rnd p (vp / svp)) (vp / svp) := (Close.refl p (div_nonneg hv hs.le)).rnd (by omega)
  have h2 : Close p 2 (rnd p (100000 * rnd p (vp / svp))) (100000 * (vp / svp)) :=
    (((Close.refl p (by norm_num : (0 : K) ≤ 100000)).mul h1).rnd (by omega)).mono (by norm_num)
  rw [e]
  exact ⟨le_min (by norm_num) h2.1, min_le_left _ _, h2.min (by norm_num)⟩

/-- **C121**: specific humidity in floating point lies between zero and one, and differs from the exact one by at most ten roundings. -/
theorem C121_spec (p : Nat) (hp : 0 < p) {vp air : K} (hv : 0 ≤ vp) (ha : vp < air) :
    0 ≤ Rounded.specHumid p vp air ∧ Rounded.specHumid p vp air ≤ 1 ∧
    Close p 10 (Rounded.specHumid p vp air) (0.62196351 * vp / (air - vp) / (1 + 0.62196351 * vp / (air - vp))) := by
  have hd : 0 < air - vp := by linarith
  have h1 : Close p 1 (rnd p Cnst.EPS) (0.62196351 : K) := (Close.refl p (by unfold Cnst.EPS; norm_num)).rnd hp
  have h2 : Close p 2 (rnd p (rnd p Cnst.EPS * vp)) (0.62196351 * vp) := (h1.mul (Close.refl p hv)).rnd hp
  have h3 : Close p 1 (rnd p (air - vp)) (air - vp) := (Close.refl p hd.le).rnd hp
  have h4 : Close p 4 (rnd p (rnd p (rnd p Cnst.EPS * vp) / rnd p (air - vp))) (0.62196351 * vp / (air - vp)) := (h2.div h3 hd).rnd hp
  unfold Rounded.specHumid
  simp only
  have hrep : IsRep p (rnd p (rnd p (rnd p Cnst.EPS * vp) / rnd p (air - vp))) := isRep_rnd p _
  generalize rnd p (rnd p (rnd p Cnst.EPS * vp) / rnd p (air - vp)) = mix at *
  generalize 0.62196351 * vp / (air - vp) = m at *
  have h5 : Close p 5 (rnd p (1 + mix)) (1 + m) := (((Close.refl p zero_le_one).mono (by norm_num)).add h4).rnd hp
  have h6 : Close p 10 (rnd p (mix / rnd p (1 + mix))) (m / (1 + m)) := (h4.div h5 (by have := h4.2.1; linarith)).rnd hp
  refine ⟨h6.1, ?_, h6⟩
  have h7 : mix ≤ rnd p (1 + mix) := le_rnd hp hrep (by linarith)
  refine rnd_le hp ⟨1, 0, by exact_mod_cast Nat.one_le_two_pow, by norm_num⟩ ?_
  exact div_le_one_of_le₀ h7 (h5.1)

/-- The converters of the program in floating point. -/
theorem rounded_cases {p : Nat} {var unit : String} {f : K → Int → K} {t : Dict String (K → Int → K)}
    (h1 : (Rounded.converters (K := K) p).get? var = some t) (h2 : t.get? unit = some f) :
    (f = fun x _ => x) ∨ f = Rounded.perHour p ∨ f = Rounded.perSecond p ∨ f = Rounded.toKelvin p ∨
      (∃ d : Nat, 0 < d ∧ f = Rounded.divBy p (d : K)) ∨ ∃ d : Nat, 0 < d ∧ f = Rounded.mulBy p (d : K) := by
  have key := Dict.mem_of_get? _ h1
  have key2 := Dict.mem_of_get? _ h2
  clear h1 h2
  have c1 : (100 : K) = ((100 : Nat) : K) := by norm_num
  have c2 : (1000 : K) = ((1000 : Nat) : K) := by norm_num
  simp only [Rounded.converters, List.mem_cons, List.not_mem_nil, or_false, Prod.mk.injEq] at key
  rw [c1, c2] at key
  rcases key with ⟨-, rfl⟩ | ⟨-, rfl⟩ | ⟨-, rfl⟩ | ⟨-, rfl⟩ | ⟨-, rfl⟩ | ⟨-, rfl⟩ | ⟨-, rfl⟩ | ⟨-, rfl⟩ | ⟨-, rfl⟩ | ⟨-, rfl⟩ | ⟨-, rfl⟩ | ⟨-, rfl⟩ | ⟨-, rfl⟩ | ⟨-, rfl⟩ <;>
    simp only [List.mem_cons, List.not_mem_nil, or_false, Prod.mk.injEq] at key2
  all_goals first | (refine Or.elim key2 (fun k => ?_) (fun k => ?_) <;> clear key2 <;> rename _ => key2) | skip
  all_goals first | (refine Or.elim key2 (fun k => ?_) (fun k => ?_) <;> clear key2 <;> rename _ => key2) | skip
  all_goals obtain ⟨-, rfl⟩ := key2
  all_goals first
    | exact .inl rfl
    | exact .inr (.inl rfl)
    | exact .inr (.inr (.inl rfl))
    | exact .inr (.inr (.inr (.inl rfl)))
    | exact .inr (.inr (.inr (.inr (.inl ⟨_, by norm_num, rfl⟩))))
    | exact .inr (.inr (.inr (.inr (.inr ⟨_, by norm_num, rfl⟩))))

theorem rounded_convert {p : Nat} {var unit : String} {x r : K} {ts : Int} (h : Rounded.convert p var unit x ts = .ok r) :
    ∃ t f, (Rounded.converters (K := K) p).get? var = some t ∧ t.get? unit = some f ∧ r = f x ts := by
  unfold Rounded.convert at h
  simp only [bind_ok, Dict.get_ok, pure_ok] at h
  obtain ⟨t, h1, f, h2, rfl⟩ := h
  exact ⟨t, f, h1, h2, rfl⟩

/-- **C121**: conversion to another unit never changes the order of two values. -/
theorem C121_order {p : Nat} (hp : 0 < p) {var unit : String} {x y r s : K} {ts : Int} (hts : 0 < ts) (hxy : x ≤ y)
    (hx : Rounded.convert p var unit x ts = .ok r) (hy : Rounded.convert p var unit y ts = .ok s) : r ≤ s := by
  obtain ⟨t, f, h1, h2, rfl⟩ := rounded_convert hx
  obtain ⟨t', f', h1', h2', rfl⟩ := rounded_convert hy
  rw [h1] at h1'
  cases h1'
  rw [h2] at h2'
  cases h2'
  have hts' : (0 : K) < ts := by exact_mod_cast hts
  rcases rounded_cases h1 h2 with rfl | rfl | rfl | rfl | ⟨d, hd, rfl⟩ | ⟨d, hd, rfl⟩
  · exact hxy
  · exact rnd_mono p hp (div_le_div_of_nonneg_right hxy (rnd_nonneg p (div_nonneg hts'.le (Nat.cast_nonneg _))))
  · refine rnd_mono p hp (div_le_div_of_nonneg_right hxy ?_)
    push_cast
    positivity
  · exact rnd_mono p hp (by linarith)
  · exact rnd_mono p hp (div_le_div_of_nonneg_right hxy (Nat.cast_nonneg _))
  · exact rnd_mono p hp (mul_le_mul_of_nonneg_right hxy (Nat.cast_nonneg _))

/-- **C121**: nor does it make a value negative. -/
theorem C121_sign {p : Nat} {var unit : String} {x r : K} {ts : Int} (hts : 0 < ts) (h0 : 0 ≤ x)
    (hx : Rounded.convert p var unit x ts = .ok r) : 0 ≤ r := by
  obtain ⟨t, f, h1, h2, rfl⟩ := rounded_convert hx
  have hts' : (0 : K) < ts := by exact_mod_cast hts
  rcases rounded_cases h1 h2 with rfl | rfl | rfl | rfl | ⟨d, hd, rfl⟩ | ⟨d, hd, rfl⟩
  · exact h0
  · exact rnd_nonneg p (div_nonneg h0 (rnd_nonneg p (div_nonneg hts'.le (Nat.cast_nonneg _))))
  · refine rnd_nonneg p (div_nonneg h0 ?_)
    push_cast
    positivity
  · exact rnd_nonneg p (add_nonneg h0 (rnd_nonneg p (by norm_num)))
  · exact rnd_nonneg p (div_nonneg h0 (Nat.cast_nonneg _))
  · exact rnd_nonneg p (mul_nonneg h0 (Nat.cast_nonneg _))

theorem Rel.get?_rel {α β : Type} {R : α → β → Prop} : ∀ {d : Dict String α} {e : Dict String β},
    List.Forall₂ (fun a b => a.1 = b.1 ∧ R a.2 b.2) d e → ∀ k, Option.Rel R (d.get? k) (e.get? k)
  | [], [], .nil, k => .none
  | (a, x) :: d, (b, y) :: e, .cons h1 h2, k => by
    obtain ⟨h3, h4⟩ := h1
    simp only at h3 h4
    subst h3
    rw [Dict.get?_cons, Dict.get?_cons]
    simp only
    split_ifs
    · exact .some h4
    · exact get?_rel h2 k

/-- A converter in floating point and its exact counterpart, on values that are not negative. -/
def Rel.Conv (p : Nat) (f : K → Int → K) (g : Units.Conv K) : Prop :=
  ∀ (x : K) (ts : Int), 0 ≤ x → 0 < ts → ∃ e, g (fin x) ts = fin e ∧ Close p 2 (f x ts) e

theorem Rel.converters (p : Nat) (hp : 0 < p) :
    List.Forall₂ (fun (a : String × Dict String (K → Int → K)) (b : String × Dict String (Units.Conv K)) =>
      a.1 = b.1 ∧ List.Forall₂ (fun a b => a.1 = b.1 ∧ Rel.Conv p a.2 b.2) a.2 b.2) (Rounded.converters p) (Units.converters (K := K)) := by
  have c0 : Rel.Conv p (fun (x : K) _ => x) Units.ident := fun x ts h0 _ => ⟨x, rfl, (Close.refl p h0).mono (by norm_num)⟩
  have c1 : Rel.Conv p (Rounded.perHour (K := K) p) Units.perHour := by
    intro x ts h0 hts
    have hts' : (0 : K) < ts := by exact_mod_cast hts
    have h60 : (0 : K) < (Cnst.MIN_PER_HOUR : K) := by unfold Cnst.MIN_PER_HOUR; norm_num
    refine ⟨x / ((ts : K) / (Cnst.MIN_PER_HOUR : K)), ?_, ?_⟩
    · unfold Units.perHour
      rw [div_fin_ne h60.ne', div_fin_ne (div_pos hts' h60).ne']
    · exact ((Close.refl p h0).div ((Close.refl p (div_pos hts' h60).le).rnd hp) (div_pos hts' h60)).rnd hp
  have c2 : Rel.Conv p (Rounded.perSecond (K := K) p) Units.perSecond := by
    intro x ts h0 hts
    have hts' : (0 : K) < ts := by exact_mod_cast hts
    have h60 : (0 : K) < (Cnst.SEC_PER_MIN : K) := by unfold Cnst.SEC_PER_MIN; norm_num
    refine ⟨x / ((ts : K) * (Cnst.SEC_PER_MIN : K)), ?_, ?_⟩
    · unfold Units.perSecond
      rw [mul_fin, div_fin_ne (mul_pos hts' h60).ne']
    · unfold Rounded.perSecond
      push_cast
      exact (((Close.refl p h0).div (Close.refl p (mul_pos hts' h60).le) (mul_pos hts' h60)).rnd hp).mono (by norm_num)
  have c3 : Rel.Conv p (Rounded.toKelvin (K := K) p) Units.toKelvin := by
    intro x ts h0 hts
    refine ⟨x + 273.15, rfl, ?_⟩
    exact (((Close.refl p h0).mono (by norm_num)).add ((Close.refl p (by norm_num : (0 : K) ≤ 273.15)).rnd hp)).rnd hp
  have c4 : ∀ d : K, 0 < d → Rel.Conv p (Rounded.divBy p d) (Units.divBy d) := by
    intro d hd x ts h0 hts
    refine ⟨x / d, by unfold Units.divBy; rw [div_fin_ne hd.ne'], ?_⟩
    exact (((Close.refl p h0).div (Close.refl p hd.le) hd).rnd hp).mono (by norm_num)
  have c5 : ∀ d : K, 0 < d → Rel.Conv p (Rounded.mulBy p d) (Units.mulBy d) := by
    intro d hd x ts h0 hts
    refine ⟨x * d, rfl, ?_⟩
    exact (((Close.refl p h0).mul (Close.refl p hd.le)).rnd hp).mono (by norm_num)
  have h100 : (0 : K) < 100 := by norm_num
  have h1000 : (0 : K) < 1000 := by norm_num
  unfold Rounded.converters Units.converters
  simp only [List.forall₂_cons, List.Forall₂.nil, true_and, and_true, c0, c1, c2, c3, c4 _ h100, c4 _ h1000, c5 _ h100, c5 _ h1000]

/-- **C121**: a value that is not negative is converted as in exact arithmetic, up to two roundings, and the program knows the same units. -/
theorem C121_units (p : Nat) (hp : 0 < p) (var unit : String) {x : K} {ts : Int} (hts : 0 < ts) (h0 : 0 ≤ x) :
    (∃ r e, Rounded.convert p var unit x ts = .ok r ∧ Units.convert var unit (fin x) ts = .ok (fin e) ∧ Close p 2 r e) ∨
      (Rounded.convert p var unit x ts = .error .keyError ∧ Units.convert var unit (fin x) ts = .error .keyError) := by
  have h1 := Rel.get?_rel (Rel.converters (K := K) p hp) var
  unfold Rounded.convert Units.convert Dict.get
  cases ha : (Rounded.converters (K := K) p).get? var with
  | none =>
    cases hb : (Units.converters (K := K)).get? var with
    | none => exact .inr ⟨rfl, rfl⟩
    | some t => rw [ha, hb] at h1; cases h1
  | some t =>
    cases hb : (Units.converters (K := K)).get? var with
    | none => rw [ha, hb] at h1; cases h1
    | some t' =>
      rw [ha, hb] at h1
      cases h1 with
      | some h1 =>
        have h2 := Rel.get?_rel h1 unit
        simp only [bind, Except.bind]
        cases hc : t.get? unit with
        | none =>
          cases hd : t'.get? unit with
          | none => exact .inr ⟨rfl, rfl⟩
          | some f => rw [hc, hd] at h2; cases h2
        | some f =>
          cases hd : t'.get? unit with
          | none => rw [hc, hd] at h2; cases h2
          | some g =>
            rw [hc, hd] at h2
            cases h2 with
            | some h2 =>
              obtain ⟨e, he, hcl⟩ := h2 x ts h0 hts
              refine .inl ⟨f x ts, e, rfl, ?_, hcl⟩
              simp only [pure, Except.pure, he]

/-- **C121**: percentages and fractions stay such. -/
theorem C121_percent (p : Nat) (hp : 7 ≤ p) {x r : K} {ts : Int} :
    (0 ≤ x → x ≤ 100 → Rounded.convert p "rel_humid" "fraction" x ts = .ok r → 0 ≤ r ∧ r ≤ 1) ∧
    (0 ≤ x → x ≤ 1 → Rounded.convert p "tskc" "%" x ts = .ok r → 0 ≤ r ∧ r ≤ 100) := by
  have hr : IsRep p ((100 : Nat) : K) := rep_nat ((by norm_num : 100 ≤ 2 ^ 7).trans (Nat.pow_le_pow_right (by norm_num) hp))
  have h1 : IsRep p ((1 : Nat) : K) := rep_nat (Nat.one_le_two_pow)
  push_cast at hr h1
  constructor
  · intro a b h
    have h : rnd p (x / 100) = r := Except.ok.inj h
    subst h
    exact ⟨rnd_nonneg p (by positivity), rnd_le (by omega) h1 (by linarith)⟩
  · intro a b h
    have h : rnd p (x * 100) = r := Except.ok.inj h
    subst h
    exact ⟨rnd_nonneg p (by positivity), rnd_le (by omega) hr (by linarith)⟩

/-- What `k` roundings of a `float64` come to. -/
theorem C121_error {k : Nat} (hk : k ≤ 10) {x e : ℚ} (h : Close 53 k x e) : |x - e| ≤ 2 ^ (-48 : Int) * e := by
  obtain ⟨h1, h2, h3, h4⟩ := h.mono hk
  have hf : (fac 53 : ℚ) ^ 10 ≤ 1 + 2 ^ (-48 : Int) := by unfold fac; norm_num
  have hx : x ≤ e * (1 + 2 ^ (-48 : Int)) := h3.trans (mul_le_mul_of_nonneg_left hf h2)
  have he : e ≤ x * (1 + 2 ^ (-48 : Int)) := h4.trans (mul_le_mul_of_nonneg_left hf h1)
  rw [abs_le]
  constructor
  · norm_num at hx he ⊢
    linarith
  · linarith

end

/-- 1.2 kPa of vapour where 2.3 kPa saturate; and more vapour than saturates. -/
example : 52 < Rounded.relHumid 53 (12 / 10 : ℚ) 2300 ∧ Rounded.relHumid 53 (12 / 10 : ℚ) 2300 < 53 ∧ Rounded.relHumid 53 (25 / 10 : ℚ) 2300 = 100 := by
  decide +kernel

example : 0 < Rounded.specHumid 53 (12 / 10 : ℚ) 100 ∧ Rounded.specHumid 53 (12 / 10 : ℚ) 100 < 1 / 100 := by decide +kernel

/-- 0.1 °C are 273.25 K, but 0.2 °C do not become the number nearest 273.35. -/
example : Rounded.convert 53 "temp" "K" (rnd 53 (1 / 10) : ℚ) 60 = .ok (273.25) ∧ Rounded.convert 53 "temp" "K" (rnd 53 (2 / 10) : ℚ) 60 ≠ .ok (rnd 53 273.35) := by
  decide +kernel

end Verif.Props
