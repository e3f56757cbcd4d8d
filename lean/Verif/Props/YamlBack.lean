import Verif.Props.YamlText

/-!
# What is read from a YAML file is what it says: C144, the other way round
-/

namespace Verif.Props

open YamlText ConfigRead YamlLayout

theorem groups_back {k : Nat} {es deep : List Entry} {gs : List (Entry × List Entry)} (h : groups k es = some (deep, gs)) :
    es = deep ++ gs.flatMap (fun g => g.1 :: g.2) ∧ (∀ e ∈ deep, k < e.indent) ∧ ∀ g ∈ gs, g.1.indent = k ∧ ∀ e ∈ g.2, k < e.indent := by
  induction es generalizing deep gs with
  | nil =>
    unfold groups at h
    injection h with h
    injection h with h1 h2
    subst h1 h2
    simp
  | cons e es ih =>
    unfold groups at h
    obtain ⟨⟨deep', gs'⟩, h1, h⟩ := Option.bind_eq_some_iff.1 h
    obtain ⟨i1, i2, i3⟩ := ih h1
    simp only at h
    split at h
    · rename_i he
      injection h with h
      injection h with h2 h3
      subst h2 h3
      refine ⟨by rw [i1]; simp, by simp, fun g hg => ?_⟩
      rcases List.mem_cons.1 hg with rfl | hg
      · exact ⟨he, i2⟩
      · exact i3 g hg
    · split at h
      · rename_i he
        injection h with h
        injection h with h2 h3
        subst h2 h3
        refine ⟨by rw [i1]; simp, fun x hx => ?_, i3⟩
        rcases List.mem_cons.1 hx with rfl | hx
        · exact he
        · exact i2 x hx
      · exact absurd h (by simp)

theorem flat_back {k : Nat} {es : List Entry} {d : Dict String Scalar} (h : flat k es = some d) : Fields k d es := by
  unfold Fields
  induction es generalizing d with
  | nil =>
    unfold flat at h
    injection h with h
    subst h
    exact .nil
  | cons e es ih =>
    unfold flat at h
    obtain ⟨d', h1, h⟩ := Option.bind_eq_some_iff.1 h
    split at h
    · rename_i he
      injection h with h
      subst h
      exact .cons ⟨he, rfl, rfl⟩ (ih h1)
    · exact absurd h (by simp)

theorem items_back {k : Nat} {gs : List (Entry × List Entry)} {d : Dict String Item} (hg : ∀ g ∈ gs, g.1.indent = k ∧ ∀ e ∈ g.2, k < e.indent)
    (h : items gs = some d) : UnderSection k d (gs.flatMap (fun g => g.1 :: g.2)) := by
  induction gs generalizing d with
  | nil =>
    unfold items at h
    injection h with h
    subst h
    exact .nil
  | cons g gs ih =>
    unfold items at h
    obtain ⟨i, h1, h⟩ := Option.bind_eq_some_iff.1 h
    obtain ⟨is, h2, h⟩ := Option.bind_eq_some_iff.1 h
    injection h with h
    subst h
    rw [List.flatMap_cons]
    refine .cons ?_ (ih (fun g hg' => hg g (by simp [hg'])) h2)
    obtain ⟨⟨n, key, val⟩, es⟩ := g
    obtain ⟨e1, e2⟩ := hg (⟨n, key, val⟩, es) (by simp)
    simp only at e1 e2 h1 ⊢
    subst e1
    cases es with
    | nil =>
      unfold item at h1
      injection h1 with h1
      subst h1
      exact .one ⟨n, key, val⟩ rfl
    | cons b bs =>
      unfold item at h1
      simp only at h1
      split at h1
      · rename_i hv
        subst hv
        obtain ⟨m, h3, rfl⟩ := Option.map_eq_some_iff.1 h1
        have hf := flat_back h3
        refine .many key b.indent (e2 b (by simp)) m ?_ _ hf
        rintro rfl
        cases hf
      · exact absurd h1 (by simp)

theorem section_back {es : List Entry} {d : Dict String Item} (he : ∀ e ∈ es, 0 < e.indent) (h : section_ es = some d) :
    ∃ k, 0 < k ∧ UnderSection k d es := by
  cases es with
  | nil =>
    unfold section_ at h
    injection h with h
    subst h
    exact ⟨1, one_pos, .nil⟩
  | cons b bs =>
    unfold section_ at h
    obtain ⟨⟨deep, gs⟩, h1, h⟩ := Option.bind_eq_some_iff.1 h
    simp only at h
    split at h
    · rename_i hd
      subst hd
      obtain ⟨i1, -, i3⟩ := groups_back h1
      refine ⟨b.indent, he b (by simp), ?_⟩
      rw [i1, List.nil_append]
      exact items_back i3 h
    · exact absurd h (by simp)

theorem sections_back {gs : List (Entry × List Entry)} {d : Dict String (Dict String Item)}
    (hg : ∀ g ∈ gs, g.1.indent = 0 ∧ ∀ e ∈ g.2, 0 < e.indent) (h : sections gs = some d) :
    Sections d (gs.flatMap (fun g => g.1 :: g.2)) := by
  induction gs generalizing d with
  | nil =>
    unfold sections at h
    injection h with h
    subst h
    exact .nil
  | cons g gs ih =>
    unfold sections at h
    split at h
    · rename_i hv
      obtain ⟨i, h1, h⟩ := Option.bind_eq_some_iff.1 h
      obtain ⟨is, h2, h⟩ := Option.bind_eq_some_iff.1 h
      injection h with h
      subst h
      obtain ⟨⟨n, key, val⟩, es⟩ := g
      obtain ⟨e1, e2⟩ := hg (⟨n, key, val⟩, es) (by simp)
      simp only at e1 e2 h1 hv
      subst e1 hv
      obtain ⟨k, hk, hs⟩ := section_back e2 h1
      exact .cons key k hk hs (ih (fun g hg' => hg g (by simp [hg'])) h2)
    · exact absurd h (by simp)

/-- **C144**: and nothing else is read from it: among files made of such lines, those and only those that say `d` are read as `d`. -/
theorem C144_only {lines : List Txt.Str} {es : List Entry} (hl : Lines lines es) {d : Dict String (Dict String Item)} :
    doc lines = some d ↔ Distinct d ∧ Sections d es := by
  constructor
  · intro h
    unfold doc at h
    rw [entries_ok hl] at h
    obtain ⟨⟨deep, gs⟩, h1, h⟩ := Option.bind_eq_some_iff.1 (show (groups 0 es).bind _ = some d from h)
    simp only at h
    split at h
    · rename_i hd
      subst hd
      obtain ⟨d', h2, h⟩ := Option.bind_eq_some_iff.1 h
      split at h
      · rename_i hn
        injection h with h
        subst h
        obtain ⟨i1, -, i3⟩ := groups_back h1
        refine ⟨⟨hn.1, fun s hs => ⟨(hn.2 s hs).1, fun k m hm => (hn.2 s hs).2 _ hm⟩⟩, ?_⟩
        rw [i1, List.nil_append]
        exact sections_back i3 h2
      · exact absurd h (by simp)
    · exact absurd h (by simp)
  · rintro ⟨h1, h2⟩
    exact C144_text ⟨h1, es, hl, h2⟩

/-- Only blanks, and a comment after a blank, may follow. -/
theorem tail_back {t : Txt.Str} (hp : ∀ c ∈ t, Printable c) (h : isTail t = true) : Tail t := by
  have hb : ∃ n, t = List.replicate n ' ' ++ YamlText.blanks t := by
    refine ⟨(t.takeWhile (· == ' ')).length, ?_⟩
    have e : t.takeWhile (· == ' ') = List.replicate (t.takeWhile (· == ' ')).length ' ' :=
      List.eq_replicate_iff.2 ⟨rfl, fun c hc => by simpa using List.mem_takeWhile_imp hc⟩
    unfold YamlText.blanks
    rw [← e, List.takeWhile_append_dropWhile]
  obtain ⟨n, hb⟩ := hb
  unfold isTail at h
  simp only [Bool.or_eq_true, Bool.and_eq_true, beq_iff_eq] at h
  rcases h with rfl | ⟨h1, h2⟩
  · exact .none
  · cases n with
    | zero =>
      rcases h2 with h2 | h2
      · rw [h2] at hb
        rw [hb] at h1
        exact absurd h1 (by simp)
      · have e : t = YamlText.blanks t := hb
        rw [← e, h1] at h2
        exact absurd h2 (by decide)
    | succ n =>
      rcases h2 with h2 | h2
      · rw [hb, h2, List.append_nil]
        exact .blanks n
      · obtain ⟨c, hc⟩ : ∃ c, YamlText.blanks t = '#' :: c := by
          cases e : YamlText.blanks t with
          | nil => rw [e] at h2; exact absurd h2 (by simp)
          | cons a c =>
            rw [e] at h2
            obtain rfl : a = '#' := by simpa using h2
            exact ⟨c, rfl⟩
        rw [hc] at hb
        rw [hb]
        exact .comment n c fun x hx => hp x (by rw [hb]; simp [hx])

/-- **C144**: a value ends with its quote, or where a blank or the line's end follows; so that `#` without a blank before it begins no comment. -/
theorem C144_end {s : Txt.Str} (hp : ∀ c ∈ s, Printable c) {x : Scalar} (h : value s = some x) :
    ∃ v t, s = v ++ t ∧ Tail t ∧ ((∀ c ∈ v, Plain c) ∨
      ∃ q r, (q = '\'' ∨ q = '"') ∧ v = q :: (r ++ [q]) ∧ q ∉ r ∧ x = .str (String.ofList r)) := by
  have quoted : ∀ (q : Char) (r : Txt.Str), (q = '\'' ∨ q = '"') → (∀ c ∈ r, Printable c) → (r.dropWhile (· != q)).head? = some q →
      isTail (r.dropWhile (· != q)).tail = true → x = .str (String.ofList (r.takeWhile (· != q))) →
      ∃ v t, q :: r = v ++ t ∧ Tail t ∧ ((∀ c ∈ v, Plain c) ∨
        ∃ q r, (q = '\'' ∨ q = '"') ∧ v = q :: (r ++ [q]) ∧ q ∉ r ∧ x = .str (String.ofList r)) := by
    intro q r hq hr h1 h2 h3
    refine ⟨q :: (r.takeWhile (· != q) ++ [q]), (r.dropWhile (· != q)).tail, ?_, tail_back (fun c hc => ?_) h2, .inr ⟨q, _, hq, rfl, ?_, h3⟩⟩
    · have e : q :: (r.dropWhile (· != q)).tail = r.dropWhile (· != q) := by
        cases e : r.dropWhile (· != q) with
        | nil => rw [e] at h1; exact absurd h1 (by simp)
        | cons a c =>
          rw [e] at h1
          obtain rfl : a = q := by simpa using h1
          rfl
      rw [List.cons_append, List.append_assoc, List.singleton_append, e, List.takeWhile_append_dropWhile]
    · exact hr c ((List.dropWhile_sublist _).subset (List.mem_of_mem_tail hc))
    · intro hm
      have := List.mem_takeWhile_imp hm
      simp at this
  unfold value at h
  split at h
  · dsimp only at h
    split at h
    · rename_i r hc
      exact quoted '\'' r (.inl rfl) (fun c hc => hp c (by simp [hc])) hc.1 hc.2 (Option.some.inj h).symm
    · exact absurd h (by simp)
  · dsimp only at h
    split at h
    · rename_i r hc
      exact quoted '"' r (.inr rfl) (fun c hc => hp c (by simp [hc])) hc.1 hc.2.1 (Option.some.inj h).symm
    · exact absurd h (by simp)
  · split at h
    · rename_i ht
      exact ⟨s.takeWhile isPlain, s.dropWhile isPlain, (List.takeWhile_append_dropWhile).symm,
        tail_back (fun c hc => hp c ((List.dropWhile_sublist _).subset hc)) ht, .inl fun c hc => plain_iff.1 (List.mem_takeWhile_imp hc)⟩
    · exact absurd h (by simp)

example : value "a#b".toList = none ∧ value "a #b".toList = some (.str "a") := by
  decide +kernel

/-- A section's name with a value of its own, and a line further in than the one above it that has a value, are not read. -/
example : doc ["MetSim: 5".toList] = none ∧ doc ["MetSim:".toList, "  a: 5".toList, "    b: 6".toList] = none := by
  decide +kernel

end Verif.Props
