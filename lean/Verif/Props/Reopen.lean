import Verif.Model.Reopen
import Verif.Props.Main
import Verif.Props.VicExample

/-!
# C105: what is read back from the files of a run
-/

namespace Verif.Props

open Dataset ConfigRead Main Flt Reopen

theorem place_last (x : Int × List Int × Nc.File) : ∀ (l : List (Int × List Int × Nc.File)), (∀ y ∈ l, y.1 < x.1) → place x l = l ++ [x]
  | [], _ => rfl
  | y :: l, h => by
    have hy := h y (by simp)
    unfold place
    rw [if_neg (by omega), if_neg (by omega), place_last x l fun z hz => h z (List.mem_cons_of_mem _ hz)]
    rfl

theorem place_all : ∀ (l acc : List (Int × List Int × Nc.File)), (acc ++ l).Pairwise (fun a b => a.1 < b.1) →
    l.foldl (fun l x => place x l) acc = acc ++ l
  | [], acc, _ => by simp
  | x :: l, acc, h => by
    rw [List.foldl_cons, place_last x acc]
    · rw [place_all l (acc ++ [x]) (by simpa using h)]
      simp
    · intro y hy
      exact (List.pairwise_append.1 h).2.2 y hy x (by simp)

/-- Files whose stamps go on from one to the next are put together in their order. -/
theorem combine_ok {fs : List (List Int × Nc.File)} (h0 : fs ≠ []) (hne : ∀ x ∈ fs, x.1 ≠ [])
    (hs : (fs.flatMap Prod.fst).Pairwise (· < ·)) : combine fs = .ok ⟨fs.flatMap Prod.fst, chained fs⟩ := by
  match fs, h0, hne, hs with
  | [(ts, f)], _, _, _ => simp [combine]
  | (ts, f) :: x :: l, _, hne, hs =>
    have hsub : ∀ y ∈ (ts, f) :: x :: l, ascending y.1 = true := by
      intro y hy
      unfold ascending
      rw [decide_eq_true_eq]
      have : y.1.Sublist (((ts, f) :: x :: l).flatMap Prod.fst) := by
        rw [List.flatMap_def]
        exact List.sublist_flatten_of_mem (List.mem_map.2 ⟨y, hy, rfl⟩)
      exact (hs.sublist this).imp le_of_lt
    have hhead : ∀ y ∈ (ts, f) :: x :: l, ∃ t, y.1.head? = some t := fun y hy => ⟨_, List.head?_eq_some_head (hne y hy)⟩
    have hmap : ((ts, f) :: x :: l).mapM (fun x => match x.1.head? with
        | some t => Except.ok (t, x.1, x.2)
        | none => .error PyErr.indexError) = .ok (((ts, f) :: x :: l).map fun y => (y.1.head?.getD 0, y.1, y.2)) := by
      generalize ((ts, f) :: x :: l) = L at hhead
      induction L with
      | nil => rfl
      | cons y L ih =>
        obtain ⟨t, ht⟩ := hhead y (by simp)
        rw [List.mapM_cons, ht, ih fun z hz => hhead z (List.mem_cons_of_mem _ hz)]
        simp [ht, bind, Except.bind, pure, Except.pure]
    have hfirst : (((ts, f) :: x :: l).map fun y => ((y.1.head?.getD 0, y.1, y.2) : Int × List Int × Nc.File)).Pairwise
        (fun a b => a.1 < b.1) := by
      rw [List.pairwise_map]
      rw [List.flatMap_def, List.pairwise_flatten, List.pairwise_map] at hs
      refine hs.2.imp_of_mem ?_
      intro a b ha hb hab
      obtain ⟨s, hs⟩ := hhead a ha
      obtain ⟨t, ht⟩ := hhead b hb
      rw [hs, ht]
      exact hab s (List.mem_of_mem_head? hs) t (List.mem_of_mem_head? ht)
    have hdiff : ¬ (x :: l).all (fun y => decide (y.1 = ts)) = true := by
      intro hall
      have e : x.1 = ts := by
        have := List.all_eq_true.1 hall x (by simp)
        simpa using this
      have h := (List.pairwise_cons.1 hfirst).1 (x.1.head?.getD 0, x.1, x.2) (by simp)
      simp only [e] at h
      omega
    have hback : (((ts, f) :: x :: l).map fun y => ((y.1.head?.getD 0, y.1, y.2) : Int × List Int × Nc.File)).map Prod.snd =
        (ts, f) :: x :: l := by
      rw [List.map_map]; simp [Function.comp_def]
    unfold combine
    simp only
    rw [if_neg hdiff, if_pos (List.all_eq_true.2 hsub)]
    refine (congrArg (fun e => e >>= _) hmap).trans ?_
    simp only [bind, Except.bind]
    rw [place_all _ [] (by simpa using hfirst), List.nil_append, hback, if_pos]
    unfold ascending
    rw [decide_eq_true_eq]
    exact hs.imp le_of_lt

/-- The values of files put together are those of the files, one after the other. -/
theorem chained_values {name : String} {c : List Nat} : ∀ {fs : List (List Int × Nc.File)} {W : List (List (Flt ℝ))},
    List.Forall₂ (fun x w => w.length = x.1.length ∧ ∀ (j : Nat) (h : j < w.length),
      stored ((Dict.get? x.2.vars name).bind fun v => v.data (j :: c)) = w[j]) fs W →
    ∀ (k : Nat) (h : k < W.flatten.length), stored (chained fs name k c) = W.flatten[k]
  | [], _, .nil, k, h => by simp at h
  | (ts, f) :: fs, w :: W, .cons ⟨hl, hv⟩ ht, k, h => by
    unfold chained
    by_cases hk : k < ts.length
    · rw [if_pos hk]
      have hk' : k < w.length := by rw [hl]; exact hk
      simp only [List.flatten_cons]
      rw [List.getElem_append_left hk']
      exact hv k hk'
    · rw [if_neg hk]
      simp only [List.flatten_cons, List.length_append] at h
      simp only [List.flatten_cons]
      have hl' : w.length = ts.length := hl
      rw [List.getElem_append_right (by omega)]
      simp only [hl']
      exact chained_values ht (k - ts.length) (by omega)

theorem length_stamps {v : Nc.Var} {times : List Int} (h : ∀ k : Nat, v.data [k] = times[k]?.map fun t => .stamp (BitVec.ofInt 32 t)) :
    Reopen.length v = times.length := by
  unfold Reopen.length
  have hex : ∃ k, v.data [k] = none := ⟨times.length, by rw [h]; simp⟩
  rw [dif_pos hex]
  classical
  rw [Nat.find_eq_iff]
  refine ⟨by rw [h]; simp, fun k hk => ?_⟩
  rw [h, List.getElem?_eq_getElem hk]
  simp

theorem mapM_range_stamps {v : Nc.Var} {times : List Int} (h : ∀ k : Nat, v.data [k] = times[k]?.map fun t => .stamp (BitVec.ofInt 32 t)) :
    ((List.range times.length).mapM fun k => stampOf (v.data [k])) = .ok (times.map fun t => (BitVec.ofInt 32 t).toInt) := by
  have key : ∀ l : List Nat, (∀ k ∈ l, k < times.length) →
      (l.mapM fun k => stampOf (v.data [k])) = .ok (l.map fun k => (BitVec.ofInt 32 (times[k]?.getD 0)).toInt) := by
    intro l hl
    induction l with
    | nil => rfl
    | cons k l ih =>
      rw [List.mapM_cons, ih fun j hj => hl j (List.mem_cons_of_mem _ hj), h, List.getElem?_eq_getElem (hl k (by simp))]
      simp [stampOf, bind, Except.bind, pure, Except.pure, List.getElem?_eq_getElem (hl k (by simp))]
  rw [key _ (by simp)]
  congr 1
  refine List.ext_getElem (by simp) fun k h1 h2 => ?_
  simp only [List.getElem_map, List.getElem_range]
  rw [List.getElem?_eq_getElem (by simpa using h2)]
  rfl

/-- Whole minutes of days within 3 800 years of 2000. -/
def Held (t : ℚ) : Prop := ∃ m : Int, t = m ∧ -1400000 ≤ m / 1440 ∧ m / 1440 ≤ 1400000

/-- The stamps of a run within 3 800 years of 2000. -/
theorem axis_held {j : Job} (hj : j.Sane) (st : Stamps j) (h1 : -1400000 ≤ j.d0) (h2 : j.d0 + j.n ≤ 1400000) :
    (∀ t ∈ st.axis, Held t) ∧ st.axis.Pairwise (· < ·) := by
  refine ⟨fun t ht => ?_, ?_⟩
  · obtain ⟨m, rfl, m1, m2⟩ := axis_days hj st t ht
    exact ⟨m, rfl, by omega, by omega⟩
  · have h := st.h_axis
    rw [show j.shared.cfg = ⟨j.shared.ts, j.shared.calendar, j.shared.periodEnding⟩ from rfl,
      outputTimes_grid _ _ _ hj.step j.d0 j.n hj.pos hj.calendar] at h
    injection h with h
    rw [← h]
    exact Times.pairwise_grid _ _ _ hj.step.1

theorem decode_all {calendar : String} : ∀ {ts nums : List Int}, ts.mapM (CfTime.encode calendar) = .ok nums →
    (∀ t ∈ ts, -1400000 ≤ t / 1440 ∧ t / 1440 ≤ 1400000) →
    (nums.map fun t => (BitVec.ofInt 32 t).toInt).mapM (CfTime.decode calendar) = .ok ts
  | [], nums, h, _ => by
    obtain rfl : [] = nums := by simpa [pure, Except.pure] using h
    rfl
  | t :: ts, nums, h, hb => by
    rw [List.mapM_cons] at h
    simp only [bind_ok, pure_ok] at h
    obtain ⟨m, hm, ms, hms, rfl⟩ := h
    obtain ⟨b1, b2⟩ := hb t (by simp)
    obtain ⟨c1, c2⟩ := CfTime.encode_bound hm b1 b2
    rw [List.map_cons, List.mapM_cons, BitVec.toInt_ofInt, Int.bmod_eq_of_le (by norm_num; omega) (by norm_num; omega),
      CfTime.decode_encode hm, decode_all hms fun x hx => hb x (List.mem_cons_of_mem _ hx)]
    rfl

/-- `time` of a file as it is created. -/
theorem times_described {c : Nc.Cfg} {tab : Nc.Table} {ts : List Int} {os : List (String × String)} {f0 f : Nc.File}
    (h : Described c tab ts f0) (hf : Frame os f0 f) (ht : "time" ∉ os.map Prod.snd) {utc : Bool}
    (htab : tab.get? "time" = some (Nc.timeAttrs utc)) (hb : ∀ t ∈ ts, -1400000 ≤ t / 1440 ∧ t / 1440 ≤ 1400000) :
    Reopen.times f = .ok ts := by
  obtain ⟨v, h1, -, -, ⟨nums, h3, h4⟩, h5⟩ := h.time
  unfold Reopen.times
  have hg : Dict.get f.vars "time" = .ok v := Dict.get_ok.2 (by rw [hf.others _ ht]; exact h1)
  rw [hg]
  simp only [bind, Except.bind]
  have hu : v.attrs.get? "units" = some (.text "minutes since 2000-01-01 00:00:00.0") :=
    (h5 _ htab).1 _ _ (by unfold Nc.timeAttrs; simp [Dict.get?_cons])
  have hc : v.attrs.get? "calendar" = some (.text c.calendar) :=
    (h5 _ htab).2 (by unfold Nc.timeAttrs; simp [Dict.get?_cons])
  rw [if_neg (by simp [hu]), length_stamps h4, mapM_range_stamps h4, hc]
  exact decode_all h3 hb

theorem mapM_eq {α β : Type} {f : α → Except PyErr β} {g : α → β} : ∀ {l : List α}, (∀ x ∈ l, f x = .ok (g x)) → l.mapM f = .ok (l.map g)
  | [], _ => rfl
  | x :: l, h => by
    rw [List.mapM_cons, h x (by simp), mapM_eq fun y hy => h y (List.mem_cons_of_mem _ hy)]
    rfl

/-- **C105**: the stamps of a file without a calendar are those of the standard calendar. -/
theorem C105_calendar (f g : Nc.File) (v : Nc.Var) (hf : f.vars.get? "time" = some v) (hv : v.attrs.get? "calendar" = none)
    (hg : g.vars.get? "time" = some { v with attrs := v.attrs.set "calendar" (.text "standard") }) :
    Reopen.times f = Reopen.times g := by
  unfold Reopen.times
  rw [Dict.get_ok.2 hf, Dict.get_ok.2 hg]
  have e : Dict.get? (v.attrs.set "calendar" (Nc.Attr.text "standard")) "units" = v.attrs.get? "units" :=
    Dict.get?_set_ne _ _ (by decide)
  simp only [bind, Except.bind, hv, Dict.get?_set_self, e]
  rfl

/-- What is read back from the output of a run: the whole axis, and for each computed cell and output the series computed for the cell
alone; missing values elsewhere. -/
def ReadsBack (w : World) (su : Setup) (i : Worker.Inputs) (n : Nat) (freq : Option Times.Freq) (os : List (String × String)) (fuel : Nat)
    (dir : Nc.Dir) : Prop :=
  ∃ ld, Worker.load i (sharedOf w su) [] = .ok ld ∧ ∃ st : Stamps (jobOfSetup w su i ld n freq os), ∃ o : Opened,
    openOutput dir (w.cfg.abspath su.outDir).toList su.outPrefix.toList st.files = .ok o ∧ o.times.map (fun m : Int => (m : ℚ)) = st.axis ∧
    (∀ c, (jobOfSetup w su i ld n freq os).Computed c → ∃ r, (jobOfSetup w su i ld n freq os).alone fuel c = .ok r ∧
      ∀ v ∈ su.shared.outVars.keys, ∃ vals, Dict.get? r v = some vals ∧ vals.length = o.times.length ∧
        ∀ (k : Nat) (h : k < vals.length), stored (o.value ((outputOf w su freq os).names v) k c) = vals[k]) ∧
    ∀ c, ¬ (jobOfSetup w su i ld n freq os).Computed c → ∀ v ∈ su.shared.outVars.keys, ∀ k < o.times.length,
      stored (o.value ((outputOf w su freq os).names v) k c) = nan

theorem reads_of {w : World} {p : Conf} {su : Setup} {i : Worker.Inputs} {n : Nat} {freq : Option Times.Freq}
    {os : List (String × String)} {order : List (Dict String Chunk.Slice)} {whole : DS ℝ} {mask : Arr ℝ}
    (hu : use w.cfg Units.importAttrs p = .ok su) (hos : outs su = .ok os) (hvars : su.shared.outVars.keys.Nodup) {fuel : Nat}
    {sim : Except PyErr Nc.Dir} (h : Outcome w p su i whole mask n freq os order fuel sim) {dir : Nc.Dir} (hdir : sim = .ok dir)
    (h1 : -1400000 ≤ i.start - 730120) (h2 : i.start - 730120 + n ≤ 1400000) : ReadsBack w su i n freq os fuel dir := by
  obtain ⟨ld, hl, -, -, -, st, hflat, hcomp, hnot⟩ := values_of hu hos hvars h hdir
  obtain ⟨ld', hl', -, -, -, hj, -, hiff, hval⟩ := h
  rw [hl] at hl'
  obtain rfl := Except.ok.inj hl'
  obtain ⟨-, -, hcr, files, hfl⟩ := hiff.1 ⟨dir, hdir⟩
  obtain ⟨hheld, hasc⟩ := axis_held hj st h1 h2
  obtain ⟨st', ⟨hne', -, -⟩, -⟩ := stamps_exist _ hj
  have hne : ∀ g ∈ st.files, g ≠ [] := by
    obtain ⟨ax, fs, ha, hf⟩ := st
    obtain ⟨ax', fs', ha', hf'⟩ := st'
    obtain rfl := Except.ok.inj (hf.symm.trans hf')
    exact hne'
  -- the files and their stamps
  have hfile : ∀ g ∈ st.files, ∃ name f, Times.filename (w.cfg.abspath su.outDir).toList su.outPrefix.toList g = .ok name ∧
      dir (String.ofList name) = some f ∧ ∃ ts : List Int, Reopen.times f = .ok ts ∧ ts.map (fun m : Int => (m : ℚ)) = g := by
    intro g hg
    obtain ⟨name, f0, f, a1, a2, a3, a4, -⟩ := hval dir files hdir hfl st g hg
    have htime : "time" ∉ os.map Prod.snd := by
      have hcr := (hcr st g hg).names
      intro hm
      exact (List.nodup_append.1 hcr).2.2 _ hm "time" (by simp) rfl
    refine ⟨name, f, a1, a2, _, times_described a3 a4 htime (utc := su.shared.utcOffset)
      (by unfold table Nc.moduleTable Nc.names; simp [Dict.get?_cons]) ?_, ?_⟩
    · intro t ht
      obtain ⟨q, hq, rfl⟩ := List.mem_map.1 ht
      obtain ⟨m, rfl, m1, m2⟩ := hheld q (by rw [← hflat]; exact List.mem_flatten.2 ⟨g, hg, hq⟩)
      beta_reduce
      rw [Int.floor_intCast]
      exact ⟨m1, m2⟩
    · rw [List.map_map]
      conv_rhs => rw [← List.map_id g]
      apply List.map_congr_left
      intro t ht
      obtain ⟨m, rfl, -, -⟩ := hheld t (by rw [← hflat]; exact List.mem_flatten.2 ⟨g, hg, ht⟩)
      simp
  haveI : Nonempty Nc.File := ⟨⟨[], [], []⟩⟩
  choose! name file hname hdirf ts hts hback using hfile
  have e1 : st.files.mapM (Times.filename (w.cfg.abspath su.outDir).toList su.outPrefix.toList) = .ok (st.files.map name) := mapM_eq hname
  have e2 : ((st.files.map name).mapM fun n => match dir (String.ofList n) with
      | some f => do
        let ts ← Reopen.times f
        pure (ts, f)
      | none => .error (.exception ["no such file"])) = .ok (st.files.map fun g => (ts g, file g)) := by
    have key : ∀ G : List (List ℚ), (∀ g ∈ G, g ∈ st.files) → ((G.map name).mapM fun n => match dir (String.ofList n) with
      | some f => do
        let ts ← Reopen.times f
        pure (ts, f)
      | none => .error (.exception ["no such file"])) = .ok (G.map fun g => (ts g, file g)) := by
      intro G hG
      induction G with
      | nil => rfl
      | cons g G ih =>
        rw [List.map_cons, List.mapM_cons, ih fun x hx => hG x (List.mem_cons_of_mem _ hx), hdirf g (hG g (by simp))]
        simp only [hts g (hG g (by simp)), bind, Except.bind, pure, Except.pure, List.map_cons]
    exact key _ fun g hg => hg
  have hall : ((st.files.map fun g => (ts g, file g)).flatMap Prod.fst).map (fun m : Int => (m : ℚ)) = st.axis := by
    rw [← hflat, List.flatMap_map, List.map_flatMap, List.flatMap_def]
    congr 1
    conv_rhs => rw [← List.map_id st.files]
    exact List.map_congr_left fun g hg => hback g hg
  have hsorted : ((st.files.map fun g => (ts g, file g)).flatMap Prod.fst).Pairwise (· < ·) := by
    rw [← hall, List.pairwise_map] at hasc
    exact hasc.imp fun h => by exact_mod_cast h
  have h0 : st.files ≠ [] := by
    intro e
    rw [e] at hflat
    have hlen := Cell.axis_length hj.step hj.pos hj.calendar st.h_axis
    rw [← hflat] at hlen
    have := Nat.mul_pos hj.pos (Nat.div_pos hj.step.le hj.step.1)
    simp only [List.flatten_nil, List.length_nil] at hlen
    omega
  have hcomb := combine_ok (fs := st.files.map fun g => (ts g, file g)) (by simpa using h0) (by
    intro x hx
    obtain ⟨g, hg, rfl⟩ := List.mem_map.1 hx
    intro e
    have hb := hback g hg
    simp only at e
    rw [e] at hb
    exact hne g hg hb.symm) hsorted
  have hlen : ∀ g ∈ st.files, (ts g).length = g.length := fun g hg => by rw [← congrArg List.length (hback g hg)]; simp
  have hcat : ∀ (c : List Nat) (v : String) (val : ℚ → Flt ℝ), (∀ g ∈ st.files, ∃ ov, (file g).vars.get? v = some ov ∧
      ∀ (k : Nat) (hk : k < g.length), stored (ov.data (k :: c)) = val g[k]) →
      ∀ (k : Nat) (hk : k < st.axis.length), stored (chained (st.files.map fun g => (ts g, file g)) v k c) = val st.axis[k] := by
    intro c v val hv
    have hf2 : List.Forall₂ (fun x w => w.length = x.1.length ∧ ∀ (j : Nat) (h : j < w.length),
        stored ((Dict.get? x.2.vars v).bind fun v => v.data (j :: c)) = w[j]) (st.files.map fun g => (ts g, file g))
        (st.files.map fun g => g.map val) := by
      rw [List.forall₂_map_left_iff, List.forall₂_map_right_iff, List.forall₂_same]
      intro g hg
      refine ⟨by rw [List.length_map, hlen g hg], fun j hj => ?_⟩
      obtain ⟨ov, o1, o2⟩ := hv g hg
      rw [o1, List.getElem_map]
      exact o2 j (by simpa using hj)
    have hW : (st.files.map fun g => g.map val).flatten = st.axis.map val := by
      rw [← hflat, List.map_flatten]
    intro k hk
    have := chained_values hf2 k (by rw [hW]; simpa using hk)
    rw [this]
    simp only [hW, List.getElem_map]
  refine ⟨ld, hl, st, ⟨_, chained (st.files.map fun g => (ts g, file g))⟩, ?_, hall, ?_, ?_⟩
  · unfold openOutput
    refine (congrArg (fun e => e >>= _) e1).trans ?_
    refine (congrArg (fun e => e >>= _) e2).trans ?_
    exact hcomb
  · intro c hc
    obtain ⟨r, hr, h⟩ := hcomp c hc
    refine ⟨r, hr, fun v hv => ?_⟩
    obtain ⟨val, hv1, hv2⟩ := h v hv
    refine ⟨_, hv1, ?_, fun k hk => ?_⟩
    · rw [List.length_map, ← congrArg List.length hall, List.length_map]
      rfl
    · rw [List.getElem_map]
      refine hcat c _ val (fun g hg => ?_) k (by simpa using hk)
      obtain ⟨name', f', tv, ov, n1, n2, -, n4, -, n6⟩ := hv2 g hg
      obtain rfl := Except.ok.inj (n1.symm.trans (hname g hg))
      obtain rfl := Option.some.inj (n2.symm.trans (hdirf g hg))
      exact ⟨ov, n4, fun k hk => (n6 k hk).2⟩
  · intro c hc v hv k hk
    refine hcat c _ (fun _ => nan) (fun g hg => ?_) k (by rw [← congrArg List.length hall, List.length_map]; exact hk)
    obtain ⟨name', f', ov, n1, n2, n4, n6⟩ := hnot c hc v hv g hg
    obtain rfl := Except.ok.inj (n1.symm.trans (hname g hg))
    obtain rfl := Option.some.inj (n2.symm.trans (hdirf g hg))
    exact ⟨ov, n4, fun k hk => n6 k hk⟩

/-- **C105**: what `open_output` gives after a run within 3 800 years of 2000, whatever its calendar. -/
theorem C105_reads {w : World} {p : Conf} {su : Setup} {i : Worker.Inputs} {n : Nat} {freq : Option Times.Freq}
    {os : List (String × String)} {order : List (Dict String Chunk.Slice)} {whole : DS ℝ} {mask : Arr ℝ}
    (h : Ready w p su i whole mask n freq os order) (fuel : Nat) {dir : Nc.Dir} (hdir : simulate w fuel p order = .ok dir)
    (h1 : -1400000 ≤ i.start - 730120) (h2 : i.start - 730120 + n ≤ 1400000) : ReadsBack w su i n freq os fuel dir :=
  reads_of h.use h.named h.plan.vars (C95_run h fuel) hdir h1 h2

/-- **C105**: and after a run over files for single cells. -/
theorem C105_vic {w : World} {fs : Vic.Files} {p : Conf} {su : Setup} {v : Vic.Inputs} {whole : DS ℝ} {mask : Arr ℝ} {n : Nat}
    {G : Forcing.Grid ℚ ℝ} {freq : Option Times.Freq} {os : List (String × String)} {order : List (Dict String Chunk.Slice)}
    (h : VicReady w fs p su v whole mask n G freq os order) (fuel : Nat) {dir : Nc.Dir} (hdir : Vic.simulate w fs fuel p order = .ok dir)
    (h1 : -1400000 ≤ v.start - 730120) (h2 : v.start - 730120 + n ≤ 1400000) : ReadsBack w su (joined v whole n G) n freq os fuel dir :=
  reads_of h.use h.named h.plan.vars (C102_run h fuel) hdir h1 h2

/-- **C105 is not vacuous**: the files of such a run are read back. -/
example : ∃ (w : World) (su : Setup) (i : Worker.Inputs) (n : Nat) (os : List (String × String)) (fuel : Nat) (dir : Nc.Dir), 0 < n ∧
    ReadsBack w su i n none os fuel dir := by
  obtain ⟨G, hG⟩ := VicExample.grid
  obtain ⟨p, os, hr, e, fuel, h⟩ := C102_ini (w := VicExample.world fun _ => true) (fs := VicExample.files)
    (order := MainExample.chunks.reverse) VicExample.doc_of VicExample.from_ini (VicExample.named _)
    (VicExample.sources hG) (freq := none) rfl (MainExample.plan (fun _ => true) _ MainExample.renamed) MainExample.sliced (List.reverse_perm _)
    (MainExample.knows fun _ => true)
    ⟨by simp [VicExample.setup, VicExample.jobs], ⟨_, _, rfl⟩, MainExample.valid.outDir, by simp [VicExample.setup], MainExample.valid.step,
      MainExample.valid.some, MainExample.valid.outs, MainExample.valid.precision, MainExample.valid.lwCloud, MainExample.valid.lwType⟩ rfl
    (MainExample.known_calendar fun _ => true) MainExample.distinct (VicExample.earthly hG) (by decide +kernel)
    (fun h => absurd h (by show "wind" ∉ ["temp", "prec"]; decide))
  obtain ⟨dir, hdir⟩ := h 0
  exact ⟨_, _, _, 2, os, _, dir, by norm_num, C105_vic hr _ ((e _).symm.trans hdir) (by decide) (by decide)⟩

end Verif.Props
