import Verif.Props.FindAll
import Verif.Props.AdaptorOrder

/-!
# C123: everything between two dates
-/

namespace Props
open Kairos Spec

/-- Lists in order of time with the same members are the same. -/
theorem same_list : ∀ {l l' : List Moment}, l.Pairwise (fun r r' => r.instant < r'.instant) → l'.Pairwise (fun r r' => r.instant < r'.instant) →
    (∀ r, r ∈ l ↔ r ∈ l') → l = l'
  | [], [], _, _, _ => rfl
  | [], a :: l', _, _, h => by have := (h a).2 (by simp); cases this
  | a :: l, [], _, _, h => by have := (h a).1 (by simp); cases this
  | a :: l, b :: l', h1, h2, h => by
    rw [List.pairwise_cons] at h1 h2
    have hab : a = b := by
      have ha := (h a).1 (by simp)
      have hb := (h b).2 (by simp)
      rw [List.mem_cons] at ha hb
      rcases ha with ha | ha
      · exact ha
      · rcases hb with hb | hb
        · exact hb.symm
        · have := h2.1 _ ha
          have := h1.1 _ hb
          omega
    subst hab
    have : l = l' := same_list h1.2 h2.2 (fun r => by
      constructor
      · intro hr
        have := (h r).1 (by simp [hr])
        rw [List.mem_cons] at this
        rcases this with rfl | this
        · have := h1.1 _ hr; omega
        · exact this
      · intro hr
        have := (h r).2 (by simp [hr])
        rw [List.mem_cons] at this
        rcases this with rfl | this
        · have := h2.1 _ hr; omega
        · exact this)
    rw [this]

/-- The list, for one number of rounds. -/
private theorem found_list {c : Cfg} {nx : Iter → Iter × Item} {m ending : Moment} (he : ending.Valid c) {it : Iter}
    {p : Moment → Bool} {V : Nat → Moment → Prop} (hV : ∀ k r, V k r → r.Valid c ∧ m.instant + k ≤ r.instant)
    (ha : ∀ q : Nat, (∃ (r : Moment) (k : Nat), nth nx q it = some (.ok (.moment r)) ∧ r.Valid c ∧ V k r ∧ p r = true) ∨
      ∃ Y M D H MI S, ∀ q', q ≤ q' → nth nx q' it = some (.err (.outOfBounds Y M D H MI S)))
    (hb : ∀ (q q' : Nat) (r r' : Moment), q < q' → nth nx q it = some (.ok (.moment r)) → nth nx q' it = some (.ok (.moment r')) →
      r.instant < r'.instant)
    (hcm : ∀ (k : Nat) (r : Moment), V k r → p r = true → ∃ q, q ≤ k ∧ nth nx q it = some (.ok (.moment r))) :
    ∃ found : List Moment,
      (∀ r, r ∈ found ↔ (∃ k, V k r) ∧ p r = true ∧ Before r ending) ∧
      found.Pairwise (fun r r' => r.instant < r'.instant) ∧
      items (untilNext c nx ending) found.length it = found.map (fun r => some (.ok (.moment r))) ∧
      (∀ q t, found.length ≤ q → nth (untilNext c nx ending) q it ≠ some (.ok t)) ∧
      (nth (untilNext c nx ending) found.length it = none ∨
        ∃ Y M D H MI S, nth (untilNext c nx ending) found.length it = some (.err (.outOfBounds Y M D H MI S))) := by
  -- what `until` makes of each item
  have hun : ∀ q r, nth nx q it = some (.ok (.moment r)) → r.Valid c →
      nth (untilNext c nx ending) q it = if Before r ending then some (.ok (.moment r)) else none :=
    fun q r h v => (C41_until c nx ending it q).1 r h v he
  obtain ⟨P, hP⟩ : ∃ P : Nat → Bool, P = fun q => match nth (untilNext c nx ending) q it with
    | some (.ok _) => false
    | _ => true := ⟨_, rfl⟩
  -- the number of dates skipped or yielded before an item
  have far : ∀ q r, nth nx q it = some (.ok (.moment r)) → m.instant + q ≤ r.instant := by
    intro q r h
    rcases ha q with ⟨r', k, h', v, ht, pr⟩ | ⟨_, _, _, _, _, _, h'⟩
    · rw [h] at h'; cases h'
      obtain ⟨q2, hq2, h2⟩ := hcm k r ht pr
      have : q = q2 := by
        rcases Nat.lt_trichotomy q q2 with hlt | heq | hlt
        · have := hb _ _ _ _ hlt h h2; omega
        · exact heq
        · have := hb _ _ _ _ hlt h2 h; omega
      have := (hV k r ht).2
      omega
    · rw [h' q (Nat.le_refl _)] at h; cases h
  have stop : P ((ending.instant - m.instant + 1).toNat) = true := by
    rw [hP]
    simp only
    generalize hq : (ending.instant - m.instant + 1).toNat = q
    rcases ha q with ⟨r, k, h, v, ht, pr⟩ | ⟨_, _, _, _, _, _, h⟩
    · rw [hun q r h v, if_neg]
      have := far q r h
      unfold Before
      omega
    · rw [(C41_until c nx ending it q).2.1 _ (h q (Nat.le_refl _))]
  obtain ⟨N, hN1, hN2⟩ : ∃ N, P N = true ∧ ∀ i, i < N → P i = false := by
    have := firstFrom_spec (P := P) (f := (ending.instant - m.instant + 1).toNat) (a := 0) (by rw [Nat.zero_add]; exact stop)
    exact ⟨_, this.2.2.1, fun i hi => this.2.2.2 i (by omega) hi⟩
  -- the items before that
  have good : ∀ q, q < N → ∃ r k, nth nx q it = some (.ok (.moment r)) ∧ nth (untilNext c nx ending) q it = some (.ok (.moment r)) ∧ r.Valid c ∧
      V k r ∧ p r = true ∧ Before r ending := by
    intro q hq
    have hPq := hN2 q hq
    rw [hP] at hPq
    simp only at hPq
    rcases ha q with ⟨r, k, h, v, ht, pr⟩ | ⟨_, _, _, _, _, _, h⟩
    · rw [hun q r h v] at hPq
      by_cases hbe : Before r ending
      · exact ⟨r, k, h, by rw [hun q r h v, if_pos hbe], v, ht, pr, hbe⟩
      · rw [if_neg hbe] at hPq; cases hPq
    · rw [(C41_until c nx ending it q).2.1 _ (h q (Nat.le_refl _))] at hPq; cases hPq
  obtain ⟨f, hf⟩ : ∃ f : Nat → Moment, f = fun q => match nth nx q it with
    | some (.ok (.moment r)) => r
    | _ => m := ⟨_, rfl⟩
  have hfr : ∀ q r, nth nx q it = some (.ok (.moment r)) → f q = r := by
    intro q r h; rw [hf]; simp only [h]
  have mem : ∀ q r, nth nx q it = some (.ok (.moment r)) → r.Valid c → Before r ending → q < N := by
    intro q r h v hbe
    by_cases hlt : q < N
    · exact hlt
    · exfalso
      rw [hP] at hN1
      simp only at hN1
      rcases ha N with ⟨r', k', h', v', ht', pr'⟩ | ⟨_, _, _, _, _, _, h'⟩
      · have hbe' : Before r' ending := by
          by_cases hqN : q = N
          · subst hqN; rw [h] at h'; cases h'; exact hbe
          · have := hb N q r' r (by omega) h' h
            unfold Before at hbe ⊢
            omega
        rw [hun N r' h' v', if_pos hbe'] at hN1
        cases hN1
      · rw [h' q (by omega)] at h; cases h
  refine ⟨(List.range N).map f, fun r => ?_, ?_, ?_, ?_, ?_⟩
  · rw [List.mem_map]
    constructor
    · rintro ⟨q, hq, rfl⟩
      obtain ⟨r, k, h1, h2, h3, h4, h5, h6⟩ := good q (List.mem_range.1 hq)
      rw [hfr q r h1]
      exact ⟨⟨k, h4⟩, h5, h6⟩
    · rintro ⟨⟨k, ht⟩, pr, hbe⟩
      have v := (hV k r ht).1
      obtain ⟨q, hq, h⟩ := hcm k r ht pr
      exact ⟨q, List.mem_range.2 (mem q r h v hbe), hfr q r h⟩
  · rw [List.pairwise_map]
    refine List.Pairwise.imp_of_mem ?_ List.pairwise_lt_range
    intro a b ha' hb' hab
    obtain ⟨r, k, h1, -⟩ := good a (List.mem_range.1 ha')
    obtain ⟨r', k', h1', -⟩ := good b (List.mem_range.1 hb')
    rw [hfr a r h1, hfr b r' h1']
    exact hb a b r r' hab h1 h1'
  · simp only [List.length_map, List.length_range, List.map_map]
    unfold items
    refine List.map_congr_left (fun q hq => ?_)
    obtain ⟨r, k, h1, h2, -⟩ := good q (List.mem_range.1 hq)
    rw [h2]
    simp only [Function.comp, hfr q r h1]
  · simp only [List.length_map, List.length_range]
    intro q t hq h
    rcases ha q with ⟨r, k, h', v, ht, pr⟩ | ⟨Y, M, D, H, MI, S, h'⟩
    · rw [hun q r h' v] at h
      by_cases hbe : Before r ending
      · have := mem q r h' v hbe; omega
      · rw [if_neg hbe] at h; cases h
    · rw [(C41_until c nx ending it q).2.1 _ (h' q (Nat.le_refl _))] at h; cases h
  · simp only [List.length_map, List.length_range]
    rw [hP] at hN1
    simp only at hN1
    rcases ha N with ⟨r, k, h, v, ht, pr⟩ | ⟨Y, M, D, H, MI, S, h⟩
    · left
      rw [hun N r h v] at hN1 ⊢
      by_cases hbe : Before r ending
      · rw [if_pos hbe] at hN1; cases hN1
      · rw [if_neg hbe]
    · right
      exact ⟨Y, M, D, H, MI, S, (C41_until c nx ending it N).2.1 _ (h N (Nat.le_refl _))⟩

/-- **C123 (every).** What `every(test).until(ending)` yields on any iterator with a positive step (up to 4.29 billion years): the list, in order of time, of
exactly those items of the iterator before `ending` that pass the test; then nothing more (or, if the next one would be past chrono's last year, the error
saying so). (For steps of fixed length these are the date-times at a whole number of steps, `C122_visited`.) `until(ending).every(test)` yields the same list. -/
theorem C123_every_between (c : Cfg) (hc : Sane c) (m ending : Moment) (hm : m.Valid c) (he : ending.Valid c) (u : TUnit)
    (n : Int) (hn : 0 < n) (hmax : n * u.secs ≤ 133500000000000000) (it : Iter) (hit : Iter.build m (amt u n) = .ok it) (test : TT → Out Bool) (p : Moment → Bool) (hp : ∀ r : Moment, test (.moment r) = .ok (p r)) :
    ∃ (found : List Moment) (B : Nat),
      (∀ r, r ∈ found ↔ (∃ k, nth (Iter.next c) k it = some (.ok (.moment r))) ∧ p r = true ∧ Before r ending) ∧
      found.Pairwise (fun r r' => r.instant < r'.instant) ∧
      ∀ fuel, B ≤ fuel →
        items (untilNext c (filterNext (Iter.next c) test fuel) ending) found.length it = found.map (fun r => some (.ok (.moment r))) ∧
        (∀ q t, found.length ≤ q → nth (untilNext c (filterNext (Iter.next c) test fuel) ending) q it ≠ some (.ok t)) ∧
        (nth (untilNext c (filterNext (Iter.next c) test fuel) ending) found.length it = none ∨
          ∃ Y M D H MI S, nth (untilNext c (filterNext (Iter.next c) test fuel) ending) found.length it =
            some (.err (.outOfBounds Y M D H MI S))) ∧
        items (filterNext (untilNext c (Iter.next c) ending) test fuel) found.length it = found.map (fun r => some (.ok (.moment r))) ∧
        (∀ q t, found.length ≤ q → nth (filterNext (untilNext c (Iter.next c) ending) test fuel) q it ≠ some (.ok t)) := by
  obtain ⟨B, h⟩ := C122_every c hc m hm u n hn hmax it hit test p hp
  have hV : ∀ k r, nth (Iter.next c) k it = some (.ok (.moment r)) → r.Valid c ∧ m.instant + k ≤ r.instant := by
    intro k r h
    have hit' : it = ⟨.moment m, amt u n, false⟩ := by
      rw [(C33_build m (amt u n)).1 ⟨_, _, rfl⟩] at hit; cases hit; rfl
    rw [hit'] at h
    rcases forward_run c hc m hm u n hn hmax k with ⟨r', v, hi, -, h'⟩ | ⟨_, _, _, _, _, _, -, h'⟩
    · rw [h'] at h; cases h; exact ⟨v, hi⟩
    · rw [h'] at h; cases h
  obtain ⟨a, b, d⟩ := h B (Nat.le_refl _)
  obtain ⟨found, h1, h2, -, -⟩ := found_list he hV a b d
  refine ⟨found, B, h1, h2, fun fuel hf => ?_⟩
  obtain ⟨a, b, d⟩ := h fuel hf
  obtain ⟨found', h1', h2', h3, h4, h5⟩ := found_list he hV a b d
  have : found' = found := same_list h2' h2 (fun r => by rw [h1, h1'])
  subst this
  have sw := fun q t => (C101_forward c hc m hm u n hn hmax it hit ending he test fuel q t).1
  refine ⟨h3, h4, h5, ?_, fun q t hq h => h4 q t hq ((sw q t).1 h)⟩
  rw [← h3]
  unfold items at h3 ⊢
  refine List.map_congr_left (fun q hq => ?_)
  have hget : ∃ t, nth (untilNext c (filterNext (Iter.next c) test fuel) ending) q it = some (.ok t) := by
    have hq' := List.mem_range.1 hq
    have h6 := congrArg (fun l => l[q]?) h3
    simp [hq'] at h6
    exact ⟨_, h6⟩
  obtain ⟨t, ht⟩ := hget
  rw [ht, (sw q t).2 ht]

example := C123_every_between (std .debug) (sane_std _) (at_ 2017 1 1 10 30 0) (at_ 2018 1 1 0 0 0) (by decide) (by decide) .day 1 (by decide) (by decide)
  ⟨.moment (at_ 2017 1 1 10 30 0), .days 1, false⟩ rfl Day.monday.matches (fun r => Day.monday.into == r.weekday) (fun _ => rfl)

/-- **C123 (without).** The same with a filter that leaves out the dates that pass the test. -/
theorem C123_without_between (c : Cfg) (hc : Sane c) (m ending : Moment) (hm : m.Valid c) (he : ending.Valid c) (u : TUnit)
    (n : Int) (hn : 0 < n) (hmax : n * u.secs ≤ 133500000000000000) (it : Iter) (hit : Iter.build m (amt u n) = .ok it) (test : TT → Out Bool) (p : Moment → Bool) (hp : ∀ r : Moment, test (.moment r) = .ok (p r)) :
    ∃ (found : List Moment) (B : Nat),
      (∀ r, r ∈ found ↔ (∃ k, nth (Iter.next c) k it = some (.ok (.moment r))) ∧ p r = false ∧ Before r ending) ∧
      found.Pairwise (fun r r' => r.instant < r'.instant) ∧
      ∀ fuel, B ≤ fuel →
        items (untilNext c (withoutNext (Iter.next c) test fuel) ending) found.length it = found.map (fun r => some (.ok (.moment r))) ∧
        (∀ q t, found.length ≤ q → nth (untilNext c (withoutNext (Iter.next c) test fuel) ending) q it ≠ some (.ok t)) ∧
        (nth (untilNext c (withoutNext (Iter.next c) test fuel) ending) found.length it = none ∨
          ∃ Y M D H MI S, nth (untilNext c (withoutNext (Iter.next c) test fuel) ending) found.length it =
            some (.err (.outOfBounds Y M D H MI S))) ∧
        items (withoutNext (untilNext c (Iter.next c) ending) test fuel) found.length it = found.map (fun r => some (.ok (.moment r))) ∧
        (∀ q t, found.length ≤ q → nth (withoutNext (untilNext c (Iter.next c) ending) test fuel) q it ≠ some (.ok t)) := by
  obtain ⟨found, B, h1, h2, h⟩ := C123_every_between c hc m ending hm he u n hn hmax it hit (negated test) (fun r => !p r)
    (fun r => by simp only [negated, hp])
  refine ⟨found, B, fun r => by rw [h1]; simp, h2, fun fuel hf => ?_⟩
  have e1 : withoutNext (Iter.next c) test fuel = filterNext (Iter.next c) (negated test) fuel :=
    funext fun s => without_eq_filter _ _ _ s
  have e2 : withoutNext (untilNext c (Iter.next c) ending) test fuel = filterNext (untilNext c (Iter.next c) ending) (negated test) fuel :=
    funext fun s => without_eq_filter _ _ _ s
  rw [e1, e2]
  exact h fuel hf

/-- The Fridays of June 2017, in steps of 24 hours from noon of the 1st: five, the last on the 30th. -/
example : (at_ 2017 6 1 12 0 0).Valid (std .debug) ∧ (at_ 2017 7 1 0 0 0).Valid (std .debug) ∧ 24 * TUnit.secs .hour ≤ 30 * 86400 ∧
    Iter.build (at_ 2017 6 1 12 0 0) (amt .hour 24) = .ok ⟨.moment (at_ 2017 6 1 12 0 0), .hours 24, false⟩ ∧
    (∀ r : Moment, Day.matches .friday (.moment r) = .ok (Day.into .friday == r.weekday)) ∧
    items (untilNext (std .debug) (filterNext (Iter.next (std .debug)) (Day.matches .friday) 30) (at_ 2017 7 1 0 0 0)) 6
        ⟨.moment (at_ 2017 6 1 12 0 0), .hours 24, false⟩ =
      [some (.ok (.moment (at_ 2017 6 2 12 0 0))), some (.ok (.moment (at_ 2017 6 9 12 0 0))), some (.ok (.moment (at_ 2017 6 16 12 0 0))),
        some (.ok (.moment (at_ 2017 6 23 12 0 0))), some (.ok (.moment (at_ 2017 6 30 12 0 0))), none] := by
  refine ⟨by decide +kernel, by decide +kernel, by decide, rfl, fun r => rfl, by decide +kernel⟩

/-- Month by month, the 15ths of 2017 that are Fridays: in September and December. -/
example : (at_ 2017 1 15 0 0 0).Valid (std .debug) ∧ (at_ 2018 1 1 0 0 0).Valid (std .debug) ∧ 1 * TUnit.secs .month ≤ 133500000000000000 ∧
    Iter.build (at_ 2017 1 15 0 0 0) (amt .month 1) = .ok ⟨.moment (at_ 2017 1 15 0 0 0), .months 1, false⟩ ∧
    items (untilNext (std .debug) (filterNext (Iter.next (std .debug)) (Day.matches .friday) 30) (at_ 2018 1 1 0 0 0)) 3
        ⟨.moment (at_ 2017 1 15 0 0 0), .months 1, false⟩ =
      [some (.ok (.moment (at_ 2017 9 15 0 0 0))), some (.ok (.moment (at_ 2017 12 15 0 0 0))), none] := by
  refine ⟨by decide +kernel, by decide +kernel, by decide, rfl, by decide +kernel⟩

end Props
