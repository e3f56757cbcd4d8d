import Verif.Model.RoundedStorm
import Verif.Props.RoundedHumid
import Verif.Props.RoundedShort
import Verif.Lemmas.Disagg

/-!
# C133: storms and given longwave radiation in floating point
-/

namespace Verif.Props

open Flt Np Fp Rounded Rel Short

section
variable {K : Type} [Field K] [LinearOrder K] [IsStrictOrderedRing K] [FloorRing K]

/-! ## Sums of close numbers -/

theorem forall₂_replicate {α β : Type} {R : α → β → Prop} {a : α} {b : β} (n : Nat) (h : R a b) :
    List.Forall₂ R (List.replicate n a) (List.replicate n b) := by
  induction n with
  | zero => exact .nil
  | succ n ih => exact .cons h ih

theorem forall₂_rows {α β : Type} {R : α → β → Prop} {xs : List α} {ys : List β} (h : List.Forall₂ R xs ys) (w : Nat) :
    List.Forall₂ (List.Forall₂ R) (rows xs w) (rows ys w) := by
  unfold rows
  rw [h.length_eq]
  exact forall₂_map_same _ fun i _ => List.forall₂_take w (List.forall₂_drop _ h)

theorem forall₂_append {α β : Type} {R : α → β → Prop} {xs xs' : List α} {ys ys' : List β} (h : List.Forall₂ R xs ys)
    (h' : List.Forall₂ R xs' ys') : List.Forall₂ R (xs ++ xs') (ys ++ ys') := by
  induction h with
  | nil => exact h'
  | cons a _ ih => exact .cons a ih

theorem forall₂_roll {α β : Type} {R : α → β → Prop} {xs : List α} {ys : List β} (h : List.Forall₂ R xs ys) (s : Int) :
    List.Forall₂ R (roll xs s) (roll ys s) := by
  unfold roll
  rw [h.length_eq, List.rotate_eq_drop_append_take_mod, List.rotate_eq_drop_append_take_mod, h.length_eq]
  exact forall₂_append (List.forall₂_drop _ h) (List.forall₂_take _ h)

theorem forall₂_flatMap {α β γ : Type} {R : β → γ → Prop} {f : α → List β} {g : α → List γ} (l : List α)
    (h : ∀ a ∈ l, List.Forall₂ R (f a) (g a)) : List.Forall₂ R (l.flatMap f) (l.flatMap g) := by
  induction l with
  | nil => exact .nil
  | cons a l ih =>
    rw [List.flatMap_cons, List.flatMap_cons]
    exact forall₂_append (h a List.mem_cons_self) (ih fun b hb => h b (List.mem_cons_of_mem _ hb))

theorem close_sum {p k : Nat} {xs es : List K} (h : List.Forall₂ (Close p k) xs es) : Close p k xs.sum es.sum := by
  induction h with
  | nil => exact (Close.refl p (le_refl 0)).mono (Nat.zero_le k)
  | cons h _ ih => rw [List.sum_cons, List.sum_cons]; exact h.add ih

theorem order_close {p : Nat} (hp : 0 < p) (o : Order) : ∀ {k : Nat} {xs es : List K}, xs.length = o.size →
    List.Forall₂ (Close p k) xs es → Close p (k + o.depth) (o.sum p xs) es.sum := by
  induction o with
  | leaf =>
    intro k xs es hl h
    match xs, es, hl, h with
    | [x], [e], _, .cons h .nil => simpa [Order.sum, Order.depth] using h
  | node l r ihl ihr =>
    intro k xs es hl h
    have hl1 : (xs.take l.size).length = l.size := by rw [List.length_take, hl]; simp [Order.size]
    have hl2 : (xs.drop l.size).length = r.size := by rw [List.length_drop, hl]; simp [Order.size]
    have a := (ihl hl1 (List.forall₂_take l.size h)).mono (Nat.add_le_add_left (le_max_left l.depth r.depth) k)
    have b := (ihr hl2 (List.forall₂_drop l.size h)).mono (Nat.add_le_add_left (le_max_right l.depth r.depth) k)
    have := (a.add b).rnd hp
    rw [← List.sum_append, List.take_append_drop] at this
    exact this

theorem adding_close {p : Nat} (hp : 0 < p) {n : Nat} (o : Adding n) {k : Nat} {xs es : List K} (hl : xs.length = n)
    (h : List.Forall₂ (Close p k) xs es) : Close p (k + o.tree.depth) (o.sum p xs) es.sum := by
  have hle : es.length = n := by rw [← h.length_eq, hl]
  rw [← (arrange_perm o es hle).sum_eq]
  refine order_close hp o.tree (by rw [(arrange_perm o xs hl).length_eq, hl, o.size_eq]) ?_
  unfold Adding.arrange
  refine forall₂_map_same _ fun i hi => ?_
  have hi' : i < n := List.mem_range.1 (o.perm.subset hi)
  rw [List.getD_eq_getElem?_getD, List.getD_eq_getElem?_getD, List.getElem?_eq_getElem (show i < xs.length by omega),
    List.getElem?_eq_getElem (show i < es.length by omega), Option.getD_some, Option.getD_some]
  exact h.get (by omega) (by omega)

theorem sums_close {p : Nat} (hp : 0 < p) {n : Nat} (o : Adding n) {k : Nat} {xss yss : List (List K)}
    (h : List.Forall₂ (List.Forall₂ (Close p k)) xss yss) (hl : ∀ r ∈ xss, r.length = n) :
    List.Forall₂ (Close p (k + o.tree.depth)) (xss.map fun s => o.sum p s) (yss.map List.sum) := by
  induction h with
  | nil => exact .nil
  | cons h _ ih => exact .cons (adding_close hp o (hl _ List.mem_cons_self) h) (ih fun r hr => hl r (List.mem_cons_of_mem _ hr))

/-- The growth of `n` factors `1 + u`. -/
theorem growth (n : Nat) {u : K} (u0 : 0 ≤ u) (u1 : u ≤ 1) : (1 + u) ^ n * (1 - n * u) ≤ 1 := by
  have hb : 1 - n * u ≤ (1 - u) ^ n := by
    have := one_add_mul_le_pow (a := -u) (by linarith) n
    rw [← sub_eq_add_neg] at this
    linarith
  have hprod : (1 + u) ^ n * (1 - u) ^ n ≤ 1 := by
    rw [← mul_pow]
    exact pow_le_one₀ (by nlinarith) (by nlinarith)
  exact (mul_le_mul_of_nonneg_left hb (by positivity)).trans hprod

/-- What some thousand roundings come to. -/
theorem close_error {k : Nat} (hk : k ≤ 4000) {x e : K} (h : Close 53 k x e) : |x - e| ≤ 2 ^ (-39 : Int) * e := by
  obtain ⟨h1, h2, h3, h4⟩ := h
  obtain ⟨u, hu⟩ : ∃ u : K, u = 2 ^ (-52 : Int) := ⟨_, rfl⟩
  have u0 : 0 < u := by rw [hu]; positivity
  have hfac : (fac 53 : K) = 1 + u := by
    unfold fac
    rw [hu]; norm_num
  have hk' : (k : K) ≤ 4000 := by exact_mod_cast hk
  have hF := growth k u0.le (by rw [hu]; norm_num)
  have hku : (k : K) * u ≤ 4000 * u := mul_le_mul_of_nonneg_right hk' u0.le
  have hc4 : (4000 : K) * u ≤ 2 ^ (-40 : Int) := by rw [hu]; norm_num
  have hc : (0 : K) < 1 - k * u := by
    have : (2 : K) ^ (-40 : Int) < 1 := by norm_num
    linarith
  have hf : ((1 : K) + u) ^ k ≤ 1 + 2 ^ (-39 : Int) := by
    have : (1 : K) ≤ (1 + 2 ^ (-39 : Int)) * (1 - k * u) :=
      le_trans (show (1 : K) ≤ (1 + 2 ^ (-39 : Int)) * (1 - 2 ^ (-40 : Int)) by norm_num)
        (mul_le_mul_of_nonneg_left (by linarith) (by positivity))
    exact le_of_mul_le_mul_right (hF.trans this) hc
  rw [hfac] at h3 h4
  rw [abs_le]
  have a := mul_le_mul_of_nonneg_left hf h2
  constructor
  · have b : e * (1 - k * u) ≤ x := by
      have h5 := mul_le_mul_of_nonneg_right h4 hc.le
      have h6 := mul_le_mul_of_nonneg_left hF h1
      linarith
    have : e * (k * u) ≤ e * 2 ^ (-39 : Int) :=
      mul_le_mul_of_nonneg_left (by linarith [show (2 : K) ^ (-40 : Int) ≤ 2 ^ (-39 : Int) by norm_num]) h2
    linarith
  · linarith

/-! ## The shape of a storm -/

/-- The minutes up to the peak, and those from it on. -/
def upTo (pt : Nat) (tPk dur : K) : List Nat :=
  (List.range 1440).filter fun (m : Nat) => decide ((m : K) ≤ tPk) && decide (rnd pt (tPk - rnd pt (0.5 * dur)) ≤ (m : K))
def onFrom (pt : Nat) (tPk dur : K) : List Nat :=
  (List.range 1440).filter fun (m : Nat) => decide (tPk ≤ (m : K)) && decide ((m : K) ≤ rnd pt (tPk + rnd pt (0.5 * dur)))

theorem fp_shape_eq (pt p : Nat) (tPk dur : K) : Rounded.triangleShape pt p tPk dur =
    assign (assign (List.replicate 1440 0) (upTo pt tPk dur) (Rounded.linspace p 0 1 (upTo pt tPk dur).length))
      (onFrom pt tPk dur) (Rounded.linspace p 1 0 (onFrom pt tPk dur).length) := rfl

theorem fp_shape_length (pt p : Nat) (tPk dur : K) : (Rounded.triangleShape pt p tPk dur).length = 1440 := by
  rw [fp_shape_eq, length_assign, length_assign, List.length_replicate]

theorem rep_one {p : Nat} : IsRep p (1 : K) := by
  have := rep_nat (K := K) (p := p) (n := 1) Nat.one_le_two_pow
  rwa [Nat.cast_one] at this

theorem rnd_one {p : Nat} (hp : 0 < p) : rnd p (1 : K) = 1 := rnd_rep hp rep_one

theorem fp_linspace_up {p n : Nat} {x : K} (h : x ∈ Rounded.linspace p 0 1 n) : 0 ≤ x := by
  obtain ⟨i, -, rfl⟩ := List.mem_map.1 h
  split
  · exact le_refl _
  · split
    · exact zero_le_one
    · rw [add_zero, sub_zero]
      refine rnd_nonneg p (rnd_nonneg p (mul_nonneg (Nat.cast_nonneg _) (rnd_nonneg p (div_nonneg (rnd_nonneg p zero_le_one) (Nat.cast_nonneg _)))))

theorem unit_le {p : Nat} (hp : 11 ≤ p) : (2 : K) ^ (-p : Int) ≤ 1 / 2048 := by
  rw [show (1 / 2048 : K) = 2 ^ (-11 : Int) by norm_num]
  exact zpow_le_zpow_right₀ (by norm_num) (by omega)

/-- The products of `linspace`, for a step of one part in `n`. -/
theorem part_le {p n i : Nat} (hp : 11 ≤ p) (hn : n ≤ 1440) (hi : i < n) : rnd p ((i : K) * rnd p (1 / (n : K))) ≤ 1 := by
  refine rnd_le (by omega) rep_one ?_
  have hn0 : (0 : K) < n := by exact_mod_cast (by omega : 0 < n)
  have hr := (abs_le.1 (rnd_rel p (1 / (n : K)))).2
  have hu := unit_le (K := K) hp
  rw [abs_of_pos (by positivity)] at hr
  have h1 : rnd p (1 / (n : K)) ≤ 1 / n * (1 + 1 / 2048) := by
    have : (1 : K) / n * 2 ^ (-p : Int) ≤ 1 / n * (1 / 2048) := mul_le_mul_of_nonneg_left hu (by positivity)
    linarith
  have hi' : (i : K) ≤ n - 1 := by
    have : (i : K) + 1 ≤ n := by exact_mod_cast hi
    linarith
  have hn' : (n : K) ≤ 1440 := by exact_mod_cast hn
  calc (i : K) * rnd p (1 / (n : K)) ≤ (n - 1) * (1 / n * (1 + 1 / 2048)) :=
        mul_le_mul hi' h1 (rnd_nonneg p (by positivity)) (le_trans (Nat.cast_nonneg i) hi')
    _ ≤ 1 := by
      rw [show ((n : K) - 1) * (1 / n * (1 + 1 / 2048)) = ((n - 1) * (1 + 1 / 2048)) / n by ring, div_le_one hn0]
      linarith

theorem fp_linspace_down {p n : Nat} (hp : 11 ≤ p) (hn : n ≤ 1440) {x : K} (h : x ∈ Rounded.linspace p 1 0 n) : 0 ≤ x := by
  obtain ⟨i, hi, rfl⟩ := List.mem_map.1 h
  rw [List.mem_range] at hi
  split
  · exact zero_le_one
  · split
    · exact le_refl _
    · rename_i h1 h2
      apply rnd_nonneg
      rw [zero_sub, rnd_neg, rnd_one (by omega), neg_div, rnd_neg, mul_neg, rnd_neg]
      have := part_le (K := K) (n := n - 1) (i := i) hp (by omega) (by omega)
      linarith

theorem fp_shape_nonneg {pt p : Nat} (hp : 11 ≤ p) (tPk dur : K) {x : K} (h : x ∈ Rounded.triangleShape pt p tPk dur) : 0 ≤ x := by
  rw [fp_shape_eq] at h
  rcases mem_assign _ _ _ h with h | h
  · rcases mem_assign _ _ _ h with h | h
    · rw [List.eq_of_mem_replicate h]
    · exact fp_linspace_up h
  · refine fp_linspace_down hp ?_ h
    refine (List.length_filter_le _ _).trans ?_
    rw [List.length_range]

/-- The minute that follows the peak has the full weight. -/
theorem fp_shape_peak {pt p : Nat} (hpt : 11 ≤ pt) (hp : 11 ≤ p) {tPk dur : K} (h0 : 0 ≤ tPk) (h1 : tPk ≤ 1439) (h2 : 2 ≤ dur) :
    (1 : K) ∈ Rounded.triangleShape pt p tPk dur := by
  have hceil : ⌈tPk⌉₊ ≤ 1439 := Nat.ceil_le.2 (by exact_mod_cast h1)
  have hlt := Nat.ceil_lt_add_one h0
  have hhalf : (1 : K) ≤ rnd pt (0.5 * dur) := le_rnd (by omega) rep_one (by linarith)
  have hmem : ⌈tPk⌉₊ ∈ onFrom pt tPk dur := by
    unfold onFrom
    simp only [List.mem_filter, List.mem_range, Bool.and_eq_true, decide_eq_true_eq]
    refine ⟨by omega, Nat.le_ceil _, le_rnd (by omega) (rep_nat ?_) (by linarith)⟩
    exact hceil.trans ((by norm_num : 1439 ≤ 2 ^ 11).trans (Nat.pow_le_pow_right (by norm_num) hpt))
  have hpw : (onFrom pt tPk dur).Pairwise (· < ·) := List.Pairwise.filter _ List.pairwise_lt_range
  have hpos : 0 < (onFrom pt tPk dur).length := List.length_pos_of_mem hmem
  have hfirst : (Rounded.linspace p (1 : K) 0 (onFrom pt tPk dur).length)[0]? = some 1 := by
    unfold Rounded.linspace
    rw [List.getElem?_map, List.getElem?_range hpos, Option.map_some]
    refine congrArg some ?_
    split
    · rfl
    · rw [if_neg (by omega), Nat.cast_zero, zero_mul, rnd_zero, zero_add, rnd_one (by omega)]
  have h3 := List.getElem?_eq_getElem hpos
  have h4 : (onFrom pt tPk dur)[0] < 1440 := by
    have := List.getElem_mem hpos
    unfold onFrom at this
    simp only [List.mem_filter, List.mem_range] at this
    exact this.1
  rw [fp_shape_eq]
  refine List.mem_of_getElem? (assign_at _ _ _ (Disagg.nodup_of_pairwise_lt hpw) ?_ h3 hfirst)
  rw [length_assign, List.length_replicate]
  exact h4

/-- Rounding moves an entry of `linspace` by four units in the last place at most. -/
theorem linspace_near {p : Nat} (hp : 11 ≤ p) (n : Nat) {a b : K} (h : a = 0 ∧ b = 1 ∨ a = 1 ∧ b = 0) :
    List.Forall₂ (fun x y => |x - y| ≤ 4 * 2 ^ (-p : Int)) (Rounded.linspace p a b n) (Np.linspace a b n) := by
  unfold Rounded.linspace Np.linspace
  refine forall₂_map_same _ fun i hi => ?_
  rw [List.mem_range] at hi
  have u0 := unit_pos (K := K) p
  have u1 := unit_le (K := K) hp
  obtain ⟨u, hu⟩ : ∃ u : K, u = 2 ^ (-p : Int) := ⟨_, rfl⟩
  rw [← hu] at u0 u1 ⊢
  by_cases h1 : n = 1
  · rw [if_pos h1, if_pos h1, sub_self, abs_zero]; linarith
  rw [if_neg h1, if_neg h1]
  have hN : ((n - 1 : Nat) : K) = (n : K) - 1 := by rw [Nat.cast_sub (by omega), Nat.cast_one]
  have hN0 : (0 : K) < (n : K) - 1 := by rw [← hN]; exact_mod_cast (by omega : 0 < n - 1)
  by_cases h2 : i = n - 1
  · rw [if_pos h2]
    have : (i : K) = (n : K) - 1 := by rw [h2, hN]
    rw [this, mul_div_cancel₀ _ hN0.ne']
    rw [show b - (a + (b - a)) = 0 by ring, abs_zero]; linarith
  rw [if_neg h2, hN]
  have hi' : (i : K) ≤ (n : K) - 1 := by rw [← hN]; exact_mod_cast (by omega : i ≤ n - 1)
  have hi0 : (0 : K) ≤ i := Nat.cast_nonneg i
  have hba : rnd p (b - a) = b - a := by
    rcases h with ⟨rfl, rfl⟩ | ⟨rfl, rfl⟩
    · rw [sub_zero, rnd_one (by omega)]
    · rw [zero_sub, rnd_neg, rnd_one (by omega)]
  have hab : |b - a| = 1 := by rcases h with ⟨rfl, rfl⟩ | ⟨rfl, rfl⟩ <;> norm_num
  have ha : |a| ≤ 1 := by rcases h with ⟨rfl, rfl⟩ | ⟨rfl, rfl⟩ <;> norm_num
  have hsum : |(i : K) * ((b - a) / ((n : K) - 1)) + a| ≤ 1 := by
    have hq0 : 0 ≤ (i : K) / ((n : K) - 1) := div_nonneg hi0 hN0.le
    have hq1 : (i : K) / ((n : K) - 1) ≤ 1 := (div_le_one hN0).2 hi'
    rw [show (i : K) * ((b - a) / ((n : K) - 1)) + a = (i : K) / ((n : K) - 1) * (b - a) + a by ring, abs_le]
    rcases h with ⟨rfl, rfl⟩ | ⟨rfl, rfl⟩ <;> constructor <;> linarith
  rw [hba]
  obtain ⟨s, hs⟩ : ∃ s, s = (b - a) / ((n : K) - 1) := ⟨_, rfl⟩
  have e1 := rnd_rel p s
  rw [← hs] at hsum ⊢
  have hsabs : (i : K) * |s| ≤ 1 := by
    rw [hs, abs_div, hab, abs_of_pos hN0, mul_one_div]
    exact (div_le_one hN0).2 hi'
  rw [← hu] at e1
  have e2 : |(i : K) * rnd p s - i * s| ≤ u := by
    rw [← mul_sub, abs_mul, abs_of_nonneg hi0]
    have := mul_le_mul_of_nonneg_left e1 hi0
    nlinarith
  have hz : |(i : K) * rnd p s| ≤ 1 + u := by
    have := abs_sub_abs_le_abs_sub ((i : K) * rnd p s) (i * s)
    rw [abs_mul (i : K) s, abs_of_nonneg hi0] at this
    linarith
  have e3 := rnd_rel p ((i : K) * rnd p s)
  rw [← hu] at e3
  have e4 : |rnd p ((i : K) * rnd p s) - i * s| ≤ 2 * u + u * u := by
    have := abs_sub_le (rnd p ((i : K) * rnd p s)) ((i : K) * rnd p s) (i * s)
    have : |(i : K) * rnd p s| * u ≤ (1 + u) * u := mul_le_mul_of_nonneg_right hz u0.le
    nlinarith
  obtain ⟨t, ht⟩ : ∃ t, t = rnd p ((i : K) * rnd p s) + a := ⟨_, rfl⟩
  have e5 : |t - (i * s + a)| ≤ 2 * u + u * u := by
    rw [ht, add_sub_add_right_eq_sub]; exact e4
  have e6 := rnd_rel p t
  rw [← hu] at e6
  have htb : |t| ≤ 1 + (2 * u + u * u) := by
    have := abs_sub_abs_le_abs_sub t (i * s + a)
    linarith
  rw [← ht, add_comm a]
  have := abs_sub_le (rnd p t) t (i * s + a)
  have : |t| * u ≤ (1 + (2 * u + u * u)) * u := mul_le_mul_of_nonneg_right htb u0.le
  nlinarith

theorem forall₂_set {α β : Type} {R : α → β → Prop} {xs : List α} {ys : List β} (h : List.Forall₂ R xs ys) {a : α} {b : β} (hab : R a b)
    (i : Nat) : List.Forall₂ R (xs.set i a) (ys.set i b) := by
  induction h generalizing i with
  | nil => exact .nil
  | cons h t ih =>
    cases i with
    | zero => exact .cons hab t
    | succ i => exact .cons h (ih i)

theorem forall₂_assign {α β : Type} {R : α → β → Prop} (is : List Nat) {xs vs : List α} {ys ws : List β} (h : List.Forall₂ R xs ys)
    (hv : List.Forall₂ R vs ws) : List.Forall₂ R (assign xs is vs) (assign ys is ws) := by
  unfold assign
  induction hv generalizing is xs ys with
  | nil => cases is <;> exact h
  | cons hvw _ ih =>
    cases is with
    | nil => exact h
    | cons i is => exact ih is (forall₂_set h hvw i)

/-- The shape is the triangle of the exact computation, when the limits of the storm are numbers of the precision of the parameters. -/
theorem C133_shape {pt p : Nat} (hpt : 0 < pt) (hp : 11 ≤ p) {tPk dur : K} (h1 : IsRep pt (0.5 * dur)) (h2 : IsRep pt (tPk - 0.5 * dur))
    (h3 : IsRep pt (tPk + 0.5 * dur)) :
    List.Forall₂ (fun x y => |x - y| ≤ 4 * 2 ^ (-p : Int)) (Rounded.triangleShape pt p tPk dur) (Disagg.triangleShape (fin tPk) (fin dur)) := by
  rw [fp_shape_eq, Disagg.triangleShape_eq]
  have eu : upTo pt tPk dur = Disagg.tPlus tPk dur := by
    unfold upTo Disagg.tPlus
    rw [rnd_rep hpt h1, rnd_rep hpt h2]
  have eo : onFrom pt tPk dur = Disagg.tMinus tPk dur := by
    unfold onFrom Disagg.tMinus
    rw [rnd_rep hpt h1, rnd_rep hpt h3]
  rw [eu, eo]
  have u0 := unit_pos (K := K) p
  refine forall₂_assign _ (forall₂_assign _ (forall₂_replicate 1440 ?_) (linspace_near hp _ (Or.inl ⟨rfl, rfl⟩))) (linspace_near hp _ (Or.inr ⟨rfl, rfl⟩))
  rw [sub_self, abs_zero]; linarith

/-! ## The amounts -/

/-- A day of rain, with a storm of some length within the day. -/
structure Reasonable (s : Storm K) : Prop where
  amount : 0 ≤ s.amount
  peak : 0 ≤ s.tPk ∧ s.tPk ≤ 1439
  dur : 2 ≤ s.dur

/-- What the minutes would have without rounding of the amounts. -/
def shares (pt p : Nat) (doMix : Bool) (s : Storm K) : List K :=
  if doMix && decide (s.tMin < 0) then List.replicate 1440 (s.amount / 1440)
  else (Rounded.triangleShape pt p s.tPk s.dur).map fun x => s.amount / (Rounded.triangleShape pt p s.tPk s.dur).sum * x

variable {pt p : Nat} (hpt : 11 ≤ pt) (hp : 11 ≤ p)

include hpt hp

theorem weight_pos {s : Storm K} (h : Reasonable s) : 1 ≤ (Rounded.triangleShape pt p s.tPk s.dur).sum :=
  List.single_le_sum (fun _ hx => fp_shape_nonneg hp _ _ hx) _ (fp_shape_peak hpt hp h.peak.1 h.peak.2 h.dur)

theorem shares_sum {doMix : Bool} {s : Storm K} (h : Reasonable s) : (shares pt p doMix s).sum = s.amount := by
  unfold shares
  split
  · rw [List.sum_replicate, nsmul_eq_mul]; push_cast; ring
  · rw [List.sum_map_mul_left, List.map_id', div_mul_cancel₀]
    have := weight_pos hpt hp h
    exact (by linarith : (0 : K) < _).ne'

omit hpt hp in
theorem shares_length (doMix : Bool) (s : Storm K) : (shares pt p doMix s).length = 1440 := by
  unfold shares
  split
  · rw [List.length_replicate]
  · rw [List.length_map, fp_shape_length]

theorem storm_close (day : Adding 1440) {doMix : Bool} {s : Storm K} (h : Reasonable s) :
    List.Forall₂ (Close p (day.tree.depth + 2)) (Rounded.triangleDay pt p day doMix s) (shares pt p doMix s) := by
  have hp0 : 0 < p := by omega
  unfold Rounded.triangleDay shares
  have e1440 : ((Cnst.MIN_PER_DAY : Nat) : K) = 1440 := by unfold Cnst.MIN_PER_DAY; norm_num
  split
  · rw [e1440]
    have hc : Close p (day.tree.depth + 2) (rnd p (s.amount / 1440)) (s.amount / 1440) :=
      ((Close.refl p (div_nonneg h.amount (by norm_num))).rnd hp0).mono (by omega)
    exact forall₂_replicate 1440 hc
  · have hW := weight_pos hpt hp h
    have hsum := adding_close hp0 day (fp_shape_length pt p s.tPk s.dur)
      (List.forall₂_same.2 fun x hx => Close.refl p (fp_shape_nonneg hp _ _ hx))
    rw [Nat.zero_add] at hsum
    have hs := ((Close.refl p h.amount).div hsum (by linarith)).rnd hp0
    refine forall₂_map_same _ fun x hx => ?_
    have := (hs.mul (Close.refl p (fp_shape_nonneg hp _ _ hx))).rnd hp0
    exact this.mono (by omega)

/-- The minutes of the record, shifted. -/
def stormMinutes (pt p : Nat) (doMix : Bool) (storms : List (Storm K)) (utc : Bool) (lon : K) : List K :=
  if utc then roll (storms.flatMap (shares pt p doMix)) (-Rounded.offset 53 1440 lon) else storms.flatMap (shares pt p doMix)

omit hpt hp in
theorem length_shared (doMix : Bool) (storms : List (Storm K)) : (storms.flatMap (shares pt p doMix)).length = storms.length * 1440 := by
  rw [List.flatMap_def, length_flatten_const 1440, List.length_map]
  intro xs hxs
  obtain ⟨s, -, rfl⟩ := List.mem_map.1 hxs
  exact shares_length doMix s

omit hpt hp in
theorem length_stormMinutes (doMix : Bool) (storms : List (Storm K)) (utc : Bool) (lon : K) :
    (stormMinutes pt p doMix storms utc lon).length = storms.length * 1440 := by
  unfold stormMinutes
  split
  · rw [length_roll, length_shared]
  · rw [length_shared]

theorem sum_stormMinutes {doMix : Bool} {storms : List (Storm K)} (h : ∀ s ∈ storms, Reasonable s) (utc : Bool) (lon : K) :
    (stormMinutes pt p doMix storms utc lon).sum = (storms.map Storm.amount).sum := by
  have e : (storms.flatMap (shares pt p doMix)).sum = (storms.map Storm.amount).sum := by
    induction storms with
    | nil => rfl
    | cons s l ih =>
      rw [List.flatMap_cons, List.sum_append, shares_sum hpt hp (h s List.mem_cons_self), ih fun b hb => h b (List.mem_cons_of_mem _ hb),
        List.map_cons, List.sum_cons]
  unfold stormMinutes
  split
  · rw [(roll_perm _ _).sum_eq, e]
  · exact e

/-- Each step has, but for the roundings, the rain of its minutes. -/
theorem C133_steps {day : Adding 1440} {ts : Nat} {order : Adding ts} {doMix : Bool} {storms : List (Storm K)} {utc : Bool} {lon : K}
    {out : List K} (h : Rounded.precTriangle pt p day order doMix storms utc lon = .ok out) (hs : ∀ s ∈ storms, Reasonable s) :
    0 < ts ∧ ts ∣ storms.length * 1440
    ∧ List.Forall₂ (Close p (day.tree.depth + 2 + order.tree.depth)) out ((rows (stormMinutes pt p doMix storms utc lon) ts).map List.sum) := by
  unfold Rounded.precTriangle at h
  rw [bind_ok] at h
  obtain ⟨steps, h1, h2⟩ := h
  rw [pure_ok] at h2
  rw [reshape_ok] at h1
  obtain ⟨ts0, hd, rfl⟩ := h1
  subst h2
  have hF : List.Forall₂ (Close p (day.tree.depth + 2)) (storms.flatMap (Rounded.triangleDay pt p day doMix)) (storms.flatMap (shares pt p doMix)) :=
    forall₂_flatMap _ fun s hm => storm_close hpt hp day (hs s hm)
  have hM : List.Forall₂ (Close p (day.tree.depth + 2))
      (if utc = true then roll (storms.flatMap (Rounded.triangleDay pt p day doMix)) (-Rounded.offset 53 Cnst.MIN_PER_DAY lon)
        else storms.flatMap (Rounded.triangleDay pt p day doMix)) (stormMinutes pt p doMix storms utc lon) := by
    unfold stormMinutes
    split
    · exact forall₂_roll hF _
    · exact hF
  refine ⟨ts0, ?_, ?_⟩
  · rw [hM.length_eq, length_stormMinutes] at hd
    exact hd
  · exact sums_close (by omega) order (forall₂_rows hM ts) fun r hr => length_of_mem_rows hr

/-- The record has the rain of the days. -/
theorem C133_record {day : Adding 1440} {ts : Nat} {order : Adding ts} {doMix : Bool} {storms : List (Storm K)} {utc : Bool} {lon : K}
    {out : List K} (h : Rounded.precTriangle pt p day order doMix storms utc lon = .ok out) (hs : ∀ s ∈ storms, Reasonable s) :
    Close p (day.tree.depth + 2 + order.tree.depth) out.sum (storms.map Storm.amount).sum := by
  obtain ⟨ts0, hd, hF⟩ := C133_steps hpt hp h hs
  have := close_sum hF
  rwa [← List.sum_flatten, rows_flatten ts0 (by rw [length_stormMinutes]; exact hd), sum_stormMinutes hpt hp hs] at this

/-- Without the shift, so does each day. -/
theorem C133_day {day : Adding 1440} {ts : Nat} {order : Adding ts} {doMix : Bool} {storms : List (Storm K)} {lon : K}
    {out : List K} (h : Rounded.precTriangle pt p day order doMix storms false lon = .ok out) (hs : ∀ s ∈ storms, Reasonable s)
    (hts : ts ∣ 1440) {d : Nat} {s : Storm K} (hd : storms[d]? = some s) :
    Close p (day.tree.depth + 2 + order.tree.depth) ((out.drop (d * (1440 / ts))).take (1440 / ts)).sum s.amount := by
  obtain ⟨ts0, hdv, hF⟩ := C133_steps hpt hp h hs
  have := close_sum (List.forall₂_take (1440 / ts) (List.forall₂_drop (d * (1440 / ts)) hF))
  have e : 1440 / ts * ts = 1440 := Nat.div_mul_cancel hts
  rw [← List.map_drop, ← List.map_take, ← List.sum_flatten, rows_drop, rows_take_flatten ts ts0, Nat.mul_assoc, e] at this
  · have hb : ((stormMinutes pt p doMix storms false lon).drop (d * 1440)).take 1440 = shares pt p doMix s := by
      unfold stormMinutes
      rw [if_neg (by simp), List.flatMap_def]
      apply flatten_block 1440
      · intro xs hxs
        obtain ⟨s, -, rfl⟩ := List.mem_map.1 hxs
        exact shares_length doMix s
      · rw [List.getElem?_map, hd, Option.map_some]
    rw [hb, shares_sum hpt hp (hs s (List.mem_of_getElem? hd))] at this
    exact this
  · rw [List.length_drop, length_stormMinutes, Nat.mul_assoc, e]
    exact Nat.dvd_sub hdv (Dvd.dvd.mul_left hts d)

omit hpt in
/-- Each day of the radiation has the mean given, and its steps their share of it. -/
theorem C133_longwave {n : Nat} {order : Adding n} {lw daily out : List K} (h : Rounded.scaleDaily p order lw daily = .ok out)
    (hlw : ∀ y ∈ lw, 0 < y) (hdaily : ∀ x ∈ daily, 0 ≤ x) {d : Nat} {x : K} (hd : daily[d]? = some x) :
    Close p (order.tree.depth + 3) (((out.drop (d * n)).take n).sum / n) x
    ∧ List.Forall₂ (Close p (order.tree.depth + 3)) ((out.drop (d * n)).take n)
        (((lw.drop (d * n)).take n).map fun y => y * (x / (((lw.drop (d * n)).take n).sum / n))) := by
  have hp0 : 0 < p := by omega
  unfold Rounded.scaleDaily at h
  rw [bind_ok] at h
  obtain ⟨days, h1, h2⟩ := h
  rw [reshape_ok] at h1
  obtain ⟨n0, hdv, rfl⟩ := h1
  by_cases hlen : (rows lw n).length ≠ daily.length
  · rw [if_pos hlen] at h2; cases h2
  rw [if_neg hlen] at h2
  simp only [pure_bind] at h2
  split at h2
  · cases h2
  rw [pure_ok] at h2
  subst h2
  push Not at hlen
  have hn : (0 : K) < n := by exact_mod_cast n0
  have hdl : d < (rows lw n).length := by rw [hlen]; exact (List.getElem?_eq_some_iff.1 hd).1
  have hrow := getElem?_rows (xs := lw) (w := n) (i := d) (by rwa [length_rows] at hdl)
  obtain ⟨r, hr⟩ : ∃ r, r = (lw.drop (d * n)).take n := ⟨_, rfl⟩
  rw [← hr] at hrow ⊢
  have hrl : r.length = n := length_of_mem_rows (List.mem_of_getElem? hrow)
  have hr0 : ∀ y ∈ r, 0 < y := fun y hy => hlw y (mem_of_mem_rows (List.mem_of_getElem? hrow) hy)
  have hS : 0 < r.sum := List.sum_pos r hr0 (by rintro rfl; simp at hrl; omega)
  have hx := hdaily x (List.mem_of_getElem? hd)
  have hsum := adding_close hp0 order hrl (List.forall₂_same.2 fun y hy => Close.refl p (hr0 y hy).le)
  rw [Nat.zero_add] at hsum
  have hmean := ((hsum.div (Close.refl p hn.le) hn)).rnd hp0
  have hfac := ((Close.refl p hx).div hmean (div_pos hS hn)).rnd hp0
  obtain ⟨f, hf⟩ : ∃ f, f = rnd p (x / rnd p (order.sum p r / (n : K))) := ⟨_, rfl⟩
  rw [← hf] at hfac
  have hblock : ((List.zipWith (fun x f => rnd p (x * f)) lw (repeatEach (List.zipWith (fun d s => rnd p (d / rnd p (order.sum p s / (n : K)))) daily (rows lw n)) n)).drop (d * n)).take n
      = r.map fun y => rnd p (y * f) := by
    rw [List.drop_zipWith, List.take_zipWith, ← hr, repeatEach_block _ n (x := f)]
    · rw [← hrl]
      clear hrow hrl hr0 hS hsum hmean hfac hf hr
      induction r with
      | nil => rfl
      | cons y r ih => rw [List.length_cons, List.replicate_succ, List.zipWith_cons_cons, ih, List.map_cons]
    · rw [List.getElem?_zipWith, hd, hrow, hf]
  rw [hblock]
  have hF : List.Forall₂ (Close p (order.tree.depth + 3)) (r.map fun y => rnd p (y * f)) (r.map fun y => y * (x / (r.sum / n))) :=
    forall₂_map_same _ fun y hy => (((Close.refl p (hr0 y hy).le).mul hfac).rnd hp0).mono (by omega)
  refine ⟨?_, hF⟩
  have := (close_sum hF).div (Close.refl p hn.le) hn
  rw [List.sum_map_mul_right, List.map_id'] at this
  convert this using 1
  field_simp

end

/-! ## The files -/

section
variable {K : Type} [Field K] [LinearOrder K] [IsStrictOrderedRing K] [FloorRing K]

theorem written_error {k : Nat} (hk : k ≤ 4000) {xs : List K} {e : K} (h0 : ∀ x ∈ xs, 0 ≤ x) (h : Close 53 k xs.sum e) :
    |(written 24 xs).sum - e| ≤ 2 ^ (-23 : Int) * e := by
  have he := h.2.1
  have h1 : |(written 24 xs).sum - xs.sum| ≤ 2 ^ (-24 : Int) * xs.sum := by
    clear h
    unfold written
    induction xs with
    | nil => simp
    | cons x l ih =>
      rw [List.map_cons, List.sum_cons, List.sum_cons]
      have a := ih fun y hy => h0 y (List.mem_cons_of_mem _ hy)
      have b := rnd_rel 24 x
      rw [abs_of_nonneg (h0 x List.mem_cons_self)] at b
      push_cast at b
      rw [show rnd 24 x + (l.map (rnd 24)).sum - (x + l.sum) = (rnd 24 x - x) + ((l.map (rnd 24)).sum - l.sum) by ring]
      refine (abs_add_le _ _).trans ?_
      linarith
  have h2 := close_error hk h
  rw [abs_le] at h1 h2 ⊢
  norm_num at h1 h2 ⊢
  constructor <;> linarith [h1.1, h1.2, h2.1, h2.2]

variable {pt : Nat} (hpt : 11 ≤ pt) {day : Adding 1440} {ts : Nat} {order : Adding ts} {doMix : Bool} {storms : List (Storm K)} {lon : K} {out : List K}
  (hs : ∀ s ∈ storms, Reasonable s)

theorem out_nonneg {p k : Nat} {xs ys : List K} (h : List.Forall₂ (Close p k) xs ys) : ∀ x ∈ xs, 0 ≤ x := by
  induction h with
  | nil => intro x hx; cases hx
  | cons h _ ih =>
    intro x hx
    rcases List.mem_cons.1 hx with rfl | hx
    · exact h.1
    · exact ih x hx

omit [IsStrictOrderedRing K] in
theorem depths (hts : ts ≤ 1440) (h0 : 0 < ts) : day.tree.depth + 2 + order.tree.depth ≤ 4000 := by
  have := depth_lt_size day.tree; have := day.size_eq
  have := depth_lt_size order.tree; have := order.size_eq
  omega

include hpt hs

/-- In double precision, and written in single precision. -/
theorem C133_written {utc : Bool} (h : Rounded.precTriangle pt 53 day order doMix storms utc lon = .ok out) (hts : ts ≤ 1440) :
    |(written 24 out).sum - (storms.map Storm.amount).sum| ≤ 2 ^ (-23 : Int) * (storms.map Storm.amount).sum := by
  obtain ⟨ts0, -, hF⟩ := C133_steps hpt (by norm_num) h hs
  exact written_error (depths hts ts0) (out_nonneg hF) (C133_record hpt (by norm_num) h hs)

theorem C133_day_written (h : Rounded.precTriangle pt 53 day order doMix storms false lon = .ok out) (hts : ts ∣ 1440)
    {d : Nat} {s : Storm K} (hd : storms[d]? = some s) :
    |(((written 24 out).drop (d * (1440 / ts))).take (1440 / ts)).sum - s.amount| ≤ 2 ^ (-23 : Int) * s.amount := by
  obtain ⟨ts0, -, hF⟩ := C133_steps hpt (by norm_num) h hs
  have := written_error (depths (Nat.le_of_dvd (by norm_num) hts) ts0) (fun x hx => out_nonneg hF x (List.mem_of_mem_drop (List.mem_of_mem_take hx)))
    (C133_day hpt (by norm_num) h hs hts hd)
  unfold written at this ⊢
  rwa [List.map_take, List.map_drop] at this

omit hpt hs in
theorem C133_longwave_written {n : Nat} {order : Adding n} {lw daily : List K} (h : Rounded.scaleDaily 53 order lw daily = .ok out)
    (hn0 : 0 < n) (hn : n ≤ 1440) (hlw : ∀ y ∈ lw, 0 < y) (hdaily : ∀ x ∈ daily, 0 ≤ x) {d : Nat} {x : K} (hd : daily[d]? = some x) :
    |(((written 24 out).drop (d * n)).take n).sum / n - x| ≤ 2 ^ (-23 : Int) * x := by
  obtain ⟨hC, hF⟩ := C133_longwave (by norm_num) h hlw hdaily hd
  have hn' : (0 : K) < n := by exact_mod_cast hn0
  have hC' := hC.mul (Close.refl 53 hn'.le)
  rw [div_mul_cancel₀ _ hn'.ne', Nat.add_zero] at hC'
  have hdep : order.tree.depth + 3 ≤ 4000 := by
    have := depth_lt_size order.tree; have := order.size_eq; omega
  have := written_error hdep (out_nonneg hF) hC'
  unfold written at this ⊢
  rw [List.map_take, List.map_drop] at this
  rw [show ((((out.map (rnd 24)).drop (d * n)).take n).sum / n - x) = ((((out.map (rnd 24)).drop (d * n)).take n).sum - x * n) / n by
    rw [sub_div, mul_div_cancel_right₀ _ hn'.ne'], abs_div, abs_of_pos hn', div_le_iff₀ hn']
  linarith

end

/-! Examples: two days of rain, one of them cold, and the radiation of two days. -/

def coldAndWarm : List (Storm ℚ) := [⟨10, 3, 700, 240⟩, ⟨5, -2, 900, 61⟩]

example : ∀ s ∈ coldAndWarm, Reasonable s := by
  intro s hs
  simp only [coldAndWarm, List.mem_cons, List.not_mem_nil, or_false] at hs
  rcases hs with rfl | rfl <;> exact ⟨by norm_num, ⟨by norm_num, by norm_num⟩, by norm_num⟩

example (utc doMix : Bool) : ∃ out, Rounded.precTriangle 53 53 (oneByOne 1440 (by norm_num)) (oneByOne 60 (by norm_num)) doMix coldAndWarm utc (-100)
    = .ok out := by
  unfold Rounded.precTriangle
  refine ⟨_, bind_ok.2 ⟨_, reshape_ok.2 ⟨by norm_num, ?_, rfl⟩, pure_ok.2 rfl⟩⟩
  have e : (coldAndWarm.flatMap (Rounded.triangleDay 53 53 (oneByOne 1440 (by norm_num)) doMix)).length = 2880 := by
    rw [(forall₂_flatMap coldAndWarm fun s hm => storm_close (by norm_num) (by norm_num) _ (?_ : Reasonable s)).length_eq, length_shared]
    · rfl
    · simp only [coldAndWarm, List.mem_cons, List.not_mem_nil, or_false] at hm
      rcases hm with rfl | rfl <;> exact ⟨by norm_num, ⟨by norm_num, by norm_num⟩, by norm_num⟩
  split
  · rw [length_roll, e]; decide
  · rw [e]; decide

example : (Rounded.scaleDaily 53 (oneByOne 4 (by norm_num)) [(310 : ℚ), 300, 320, 330, 280, 290, 285, 281] [300, 301]).isOk = true := by
  decide +kernel

end Verif.Props
