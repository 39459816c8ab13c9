import Verif.Props.IterOps
import Verif.Props.Iterators
import Verif.Lemmas.NegativeIff

/-!
# C60, C85: negative amounts, and iterators that go backwards
-/

namespace Props
open Kairos Spec

private theorem carry60 {b q r Q x : Int} (h : Carry b 60 q r) (e : b = Q * 60 + x) (h1 : 0 ≤ x) (h2 : x < 60)
    (h3 : 0 ≤ b ∨ x = 0) : q = Q ∧ r = x := by
  unfold Carry at h; omega

private theorem carry24 {b q r Q x : Int} (h : Carry b 24 q r) (e : b = Q * 24 + x) (h1 : 0 ≤ x) (h2 : x < 24)
    (h3 : 0 ≤ b ∨ x = 0) : q = Q ∧ r = x := by
  unfold Carry at h; omega

/-- **C60, exactly when it succeeds (partial).** `m'` is the date-time `n` seconds, minutes, hours or days from `m`,
`n` negative (down to about -2^32 days). `m + n` is `m'` if and only if `NegRight` (`Spec/NegRight.lean`); by
`C60_adding_negative_partial` it is an error otherwise. -/
theorem C60_adding_negative_iff_partial (c : Cfg) (hc : Sane c) (m m' : Moment) (hm : m.Valid c) (hm' : m'.Valid c)
    (hz : m'.nano = 0) (u : TUnit) (hu : u = .second ∨ u = .minute ∨ u = .hour ∨ u = .day)
    (n : Int) (hn : n ≤ 0) (hb : -371085171523200 ≤ n * u.secs) (hi : m'.instant = m.instant + n * u.secs) :
    calculate c (.moment m + amt u n) = .ok (.moment m') ↔ NegRight m m' u := by
  obtain ⟨q1, q2, q3, h', mi', s', e, k1, k2, k3⟩ :=
    add_carries c hc hm u (by rcases hu with rfl | rfl | rfl | rfl <;> decide) n hn hb _ rfl
  rw [e]
  obtain ⟨a1, a2, ⟨a3, a4, a5, a6⟩, ⟨t1, t2, t3, t4, t5, t6⟩, -⟩ := hm
  obtain ⟨b1, b2, ⟨b3, b4, b5, b6⟩, ⟨s1, s2, s3, s4, s5, s6⟩, -⟩ := hm'
  obtain ⟨y, mo, d, h, mi, s, nn⟩ := m'
  simp only at hz
  subst hz
  simp only at b1 b2 b3 b4 b5 b6 s1 s2 s3 s4 s5 s6
  have lin : y = m.year → mo = m.month → d * 86400 + h * 3600 + mi * 60 + s =
      m.day * 86400 + m.hour * 3600 + m.minute * 60 + m.second + n * u.secs := by
    rintro rfl rfl
    unfold Moment.instant Cal.instant Cal.dayNumber at hi
    simp only at hi
    omega
  constructor
  · intro h
    split at h
    · have := ok_moment_inj h
      rename_i hv
      obtain ⟨-, w1, w2, w3, w4, w5, w6⟩ := hv
      injection this with f1 f2 f3 f4 f5 f6 f7
      subst f1 f2 f4 f5 f6
      have lin := lin rfl rfl
      refine ⟨⟨rfl, rfl⟩, ?_⟩
      unfold Carry at k1 k2 k3
      rcases hu with rfl | rfl | rfl | rfl <;> simp only [addComp, TUnit.secs] at * <;> omega
    · cases h
  · rintro ⟨⟨rfl, rfl⟩, hr⟩
    have lin := lin rfl rfl
    have key : (addComp m u n).d + q3 = d ∧ h' = h ∧ mi' = mi ∧ s' = s := by
      clear e hi
      have hv : 0 ≤ (addComp m u n).s ∨ s = 0 := by
        rcases hu with rfl | rfl | rfl | rfl <;> simp only [addComp, TUnit.secs] at * <;> omega
      obtain ⟨Q1, hQ1⟩ : ∃ Q1, (addComp m u n).s = Q1 * 60 + s := by
        rcases hu with rfl | rfl | rfl | rfl <;> simp only [addComp, TUnit.secs] at *
        · exact ⟨d * 1440 + h * 60 + mi - (m.day * 1440 + m.hour * 60 + m.minute), by omega⟩
        all_goals exact ⟨0, by omega⟩
      obtain ⟨f1, f2⟩ := carry60 k1 hQ1 s5 s6 hv
      subst f1 f2
      obtain ⟨Q2, hQ2⟩ : ∃ Q2, (addComp m u n).mi + q1 = Q2 * 60 + mi := by
        rcases hu with rfl | rfl | rfl | rfl <;> simp only [addComp, TUnit.secs] at *
        · exact ⟨d * 24 + h - (m.day * 24 + m.hour), by omega⟩
        · exact ⟨d * 24 + h - (m.day * 24 + m.hour), by omega⟩
        all_goals exact ⟨0, by omega⟩
      have hv2 : 0 ≤ (addComp m u n).mi + q1 ∨ mi = 0 := by
        rcases hu with rfl | rfl | rfl | rfl <;> simp only [addComp, TUnit.secs] at * <;> omega
      obtain ⟨f1, f2⟩ := carry60 k2 hQ2 s3 s4 hv2
      subst f1 f2
      obtain ⟨Q3, hQ3⟩ : ∃ Q3, (addComp m u n).h + q2 = Q3 * 24 + h := by
        rcases hu with rfl | rfl | rfl | rfl <;> simp only [addComp, TUnit.secs] at *
        · exact ⟨d - m.day, by omega⟩
        · exact ⟨d - m.day, by omega⟩
        · exact ⟨d - m.day, by omega⟩
        · exact ⟨0, by omega⟩
      have hv3 : 0 ≤ (addComp m u n).h + q2 ∨ h = 0 := by
        rcases hu with rfl | rfl | rfl | rfl <;> simp only [addComp, TUnit.secs] at * <;> omega
      obtain ⟨f1, f2⟩ := carry24 k3 hQ3 s1 s2 hv3
      subst f1 f2
      refine ⟨?_, rfl, rfl, rfl⟩
      rcases hu with rfl | rfl | rfl | rfl <;> simp only [addComp, TUnit.secs] at * <;> omega
    obtain ⟨r1, rfl, rfl, rfl⟩ := key
    rw [r1, if_pos ⟨⟨b3, b4, b5, b6⟩, s1, s2, s3, s4, s5, s6⟩]

/-- 13:20:30 less 630 seconds is 13:10:00: right. Less 631 seconds: an error. Less 13 hours: hour 0, right. -/
example : NegRight (at_ 2017 6 15 13 20 30) (at_ 2017 6 15 13 10 0) .second ∧
    calculate (std .debug) (.moment (at_ 2017 6 15 13 20 30) + .seconds (-630)) = .ok (.moment (at_ 2017 6 15 13 10 0)) ∧
    calculate (std .debug) (.moment (at_ 2017 6 15 13 20 30) + .seconds (-631)) ≠ .ok (.moment (at_ 2017 6 15 13 9 59)) ∧
    (at_ 2017 6 15 13 9 59).instant = (at_ 2017 6 15 13 20 30).instant + (-631) * TUnit.secs .second := by
  refine ⟨⟨by decide, .inr (.inl ⟨by decide, by decide, by decide⟩)⟩, ?_⟩; decide +kernel

/-! ## C85 -/

/-- **C85 (partial).** Increment of a negative number of seconds, minutes, hours or days: the item at position `k` is exactly
`k` increments from the base, or it is an OutOfBounds error and so are all later ones. -/
theorem C85_exact_or_over_partial (c : Cfg) (hc : Sane c) (m : Moment) (hm : m.Valid c) (u : TUnit)
    (hu : u = .second ∨ u = .minute ∨ u = .hour ∨ u = .day) (n : Int) (hn : n < 0)
    (hb : -371085171523200 ≤ n * u.secs) (it : Iter) (hit : Iter.build m (amt u n) = .ok it) (k : Nat) :
    (∃ r : Moment, nth (Iter.next c) k it = some (.ok (.moment r)) ∧ r.Valid c ∧
      r.instant = m.instant + k * (n * u.secs) ∧ r.nano = if k = 0 then m.nano else 0) ∨
    (∃ Y M D H MI S, ∀ j : Nat, k ≤ j → nth (Iter.next c) j it = some (.err (.outOfBounds Y M D H MI S))) := by
  rw [(C33_build m (amt u n)).1 ⟨u, n, rfl⟩] at hit
  cases hit
  have hstep : ∀ k : Nat, ((k + 1 : Nat) : Int) * (n * u.secs) = k * (n * u.secs) + n * u.secs := by
    intro k; rw [Int.natCast_add, Int.add_mul]; simp
  refine (run_shape (c := c) (amt_isAAmount u n)
    (fun k r => r.Valid c ∧ r.instant = m.instant + k * (n * u.secs) ∧ r.nano = if k = 0 then m.nano else 0)
    (fun k e => ∃ Y M D H MI S, e = .outOfBounds Y M D H MI S)
    ?_ ?_ m ⟨hm, by simp, by simp⟩ k).elim ?_ ?_
  case refine_3 => rintro ⟨r, ⟨g1, g2, g3⟩, -, h⟩; exact .inl ⟨r, h, g1, g2, g3⟩
  case refine_4 =>
    rintro ⟨e, ⟨Y, M, D, H, MI, S, rfl⟩, hl, h⟩
    refine .inr ⟨Y, M, D, H, MI, S, fun j hj => ?_⟩
    by_cases hjk : j = k
    · rw [hjk]; exact h
    · obtain ⟨i, rfl⟩ : ∃ i, j = k + 1 + i := ⟨j - (k + 1), by omega⟩
      rw [nth_add]
      exact hl.nth i
  · rintro k r ⟨g1, g2, -⟩
    have hs := hstep k
    rcases C60_adding_negative_partial c hc r g1 u hu n hn hb with ⟨r', e, v, z, i⟩ | ⟨Y, M, D, H, MI, S, e⟩
    · exact .inl ⟨r', e, v, by omega, by rw [z, if_neg (by omega)]⟩
    · exact .inr ⟨_, e, Y, M, D, H, MI, S, rfl⟩
  · rintro k e b; exact b

/-- Ten days back from 15 June, five days at a time. -/
example : (Iter.build (at_ 2017 6 15 13 20 30) (.days (-5))).bind (fun it => match nth (Iter.next (std .debug)) 2 it with
    | some r => r | none => .panic) = .ok (.moment (at_ 2017 6 5 13 20 30)) := by decide +kernel

/-- **C85 refuted**, for every base. Going backwards in steps of `n` seconds, minutes (`n` up to 59), hours (up to 23) or
days, the iterator works until the next step would lead out of the minute, the hour, the day or the month (`a` is how
much of that has passed), and from then on there are only errors. -/
theorem C85_refuted (c : Cfg) (hc : Sane c) (m : Moment) (hm : m.Valid c) (u : TUnit) (n a : Int) (hn : 1 ≤ n)
    (hu : (u = .second ∧ n < 60 ∧ a = m.second) ∨ (u = .minute ∧ n < 60 ∧ a = m.minute) ∨
      (u = .hour ∧ n < 24 ∧ a = m.hour) ∨ (u = .day ∧ n ≤ 4000000000 ∧ a = m.day - 1))
    (it : Iter) (hit : Iter.build m (amt u (-n)) = .ok it) (k : Nat) :
    (k * n ≤ a → ∃ r : Moment, nth (Iter.next c) k it = some (.ok (.moment r)) ∧ r.instant = m.instant - k * (n * u.secs)) ∧
    (a < k * n → ∃ Y M D H MI S, nth (Iter.next c) k it = some (.err (.outOfBounds Y M D H MI S))) := by
  rw [(C33_build m (amt u (-n))).1 ⟨u, -n, rfl⟩] at hit
  cases hit
  have hu4 : u = .second ∨ u = .minute ∨ u = .hour ∨ u = .day := by
    rcases hu with h | h | h | h
    · exact .inl h.1
    · exact .inr (.inl h.1)
    · exact .inr (.inr (.inl h.1))
    · exact .inr (.inr (.inr h.1))
  have hstep : ∀ k : Nat, ((k + 1 : Nat) : Int) * n = k * n + n := by
    intro k; rw [Int.natCast_add, Int.add_mul]; simp
  have hkn : ∀ k : Nat, 0 ≤ (k : Int) * n := fun k => Int.mul_nonneg (by omega) (by omega)
  have hbound : -371085171523200 ≤ -n * u.secs := by
    rcases hu with ⟨rfl, h, -⟩ | ⟨rfl, h, -⟩ | ⟨rfl, h, -⟩ | ⟨rfl, h, -⟩ <;> simp only [TUnit.secs] <;> omega
  obtain ⟨m1, m2, ⟨m3, m4, m5, m6⟩, ⟨t1, t2, t3, t4, t5, t6⟩, m7⟩ := id hm
  -- the components of the item
  let at' (k : Nat) : Moment := match u with
    | .second => { m with second := m.second - k * n, nano := if k = 0 then m.nano else 0 }
    | .minute => { m with minute := m.minute - k * n, nano := if k = 0 then m.nano else 0 }
    | .hour => { m with hour := m.hour - k * n, nano := if k = 0 then m.nano else 0 }
    | _ => { m with day := m.day - k * n, nano := if k = 0 then m.nano else 0 }
  have hval : ∀ k : Nat, k * n ≤ a → (at' k).Valid c ∧ (at' k).instant = m.instant - k * (n * u.secs) ∧
      ((k = 0) ∨ (at' k).nano = 0) := by
    intro k hk
    have := hkn k
    have hnano : 0 ≤ (if k = 0 then m.nano else 0) ∧ (if k = 0 then m.nano else 0) < 2000000000 := by
      split <;> omega
    rcases hu with ⟨rfl, h, rfl⟩ | ⟨rfl, h, rfl⟩ | ⟨rfl, h, rfl⟩ | ⟨rfl, h, rfl⟩ <;>
      (refine ⟨⟨m1, m2, ⟨m3, m4, ?_, ?_⟩, ⟨?_, ?_, ?_, ?_, ?_, ?_⟩, hnano⟩, ?_, ?_⟩ <;>
        simp only [at'] <;> first
        | omega
        | (simp only [Moment.instant, Cal.instant, Cal.dayNumber, TUnit.secs]; rw [← Int.mul_assoc]; omega)
        | (by_cases h0 : k = 0
           · exact .inl h0
           · exact .inr (if_neg h0)))
  have hok : ∀ k : Nat, (k + 1 : Nat) * n ≤ a →
      calculate c (.moment (at' k) + amt u (-n)) = .ok (.moment (at' (k + 1))) := by
    intro k hk
    have hs := hstep k
    obtain ⟨v, i, -⟩ := hval k (by omega)
    obtain ⟨v', i', z⟩ := hval (k + 1) hk
    have hmul : ((k + 1 : Nat) : Int) * (n * u.secs) = k * (n * u.secs) + n * u.secs := by
      rw [Int.natCast_add, Int.add_mul]; simp
    have hneg : -n * u.secs = -(n * u.secs) := Int.neg_mul _ _
    refine (C60_adding_negative_iff_partial c hc _ _ v v' (z.resolve_left (by omega)) u hu4 (-n) (by omega) hbound
      (by omega)).2 ?_
    rcases hu with ⟨rfl, h, rfl⟩ | ⟨rfl, h, rfl⟩ | ⟨rfl, h, rfl⟩ | ⟨rfl, h, rfl⟩
    · exact ⟨⟨rfl, rfl⟩, .inl ⟨rfl, rfl, rfl⟩⟩
    · exact ⟨⟨rfl, rfl⟩, .inl ⟨rfl, rfl⟩⟩
    · exact ⟨⟨rfl, rfl⟩, .inl rfl⟩
    · exact ⟨⟨rfl, rfl⟩, trivial⟩
  have herr : ∀ k : Nat, k * n ≤ a → a < (k + 1 : Nat) * n →
      ∃ Y M D H MI S, calculate c (.moment (at' k) + amt u (-n)) = .err (.outOfBounds Y M D H MI S) := by
    intro k hk hk'
    have hs := hstep k
    have := hkn k
    obtain ⟨v, -, -⟩ := hval k hk
    refine (C60_adding_negative_partial c hc _ v u hu4 (-n) (by omega) hbound).elim ?_ id
    rintro ⟨r, e, hv, hz, hi⟩
    exfalso
    have hr := (C60_adding_negative_iff_partial c hc _ _ v hv hz u hu4 (-n) (by omega) hbound hi).1 e
    obtain ⟨⟨e1, e2⟩, hr⟩ := hr
    obtain ⟨-, -, ⟨-, -, b5, b6⟩, ⟨s1, s2, s3, s4, s5, s6⟩, -⟩ := hv
    simp only [Moment.instant, Cal.instant, Cal.dayNumber, e1, e2] at hi
    rcases hu with ⟨rfl, h, rfl⟩ | ⟨rfl, h, rfl⟩ | ⟨rfl, h, rfl⟩ | ⟨rfl, h, rfl⟩ <;>
      simp only [at', TUnit.secs] at hr hi e1 e2 <;> omega
  have hmono : ∀ k : Nat, a < k * n → a < (k + 1 : Nat) * n := by
    intro k hk; have := hstep k; omega
  refine (run_shape (c := c) (amt_isAAmount u (-n)) (fun k r => k * n ≤ a ∧ r = at' k)
    (fun k e => a < k * n ∧ ∃ Y M D H MI S, e = .outOfBounds Y M D H MI S)
    ?_ ?_ m ⟨?_, ?_⟩ k).elim ?_ ?_
  · rintro k r ⟨h, rfl⟩
    by_cases hk : ((k + 1 : Nat) : Int) * n ≤ a
    · exact .inl ⟨_, hok k hk, hk, rfl⟩
    · obtain ⟨Y, M, D, H, MI, S, e⟩ := herr k h (by omega)
      exact .inr ⟨_, e, by omega, Y, M, D, H, MI, S, rfl⟩
  · rintro k e ⟨h, h'⟩; exact ⟨hmono k h, h'⟩
  · rcases hu with ⟨rfl, h, rfl⟩ | ⟨rfl, h, rfl⟩ | ⟨rfl, h, rfl⟩ | ⟨rfl, h, rfl⟩ <;> simp <;> omega
  · rcases hu with ⟨rfl, h, rfl⟩ | ⟨rfl, h, rfl⟩ | ⟨rfl, h, rfl⟩ | ⟨rfl, h, rfl⟩ <;> simp [at']
  · rintro ⟨r, ⟨h, rfl⟩, -, e⟩
    exact ⟨fun _ => ⟨_, e, (hval k h).2.1⟩, fun h' => by omega⟩
  · rintro ⟨e, ⟨h, Y, M, D, H, MI, S, rfl⟩, -, e⟩
    exact ⟨fun h' => by omega, fun _ => ⟨Y, M, D, H, MI, S, e⟩⟩

/-- From 13:20:30 in steps of -7 seconds: 30, 23, 16, 9, 2, and then errors. -/
example (it : Iter) (hit : Iter.build (at_ 2017 6 15 13 20 30) (.seconds (-7)) = .ok it) :
    (∃ r : Moment, nth (Iter.next (std .debug)) 4 it = some (.ok (.moment r)) ∧
      r.instant = (at_ 2017 6 15 13 20 30).instant - 28) ∧
    ∃ Y M D H MI S, nth (Iter.next (std .debug)) 5 it = some (.err (.outOfBounds Y M D H MI S)) :=
  have h := C85_refuted (std .debug) (sane_std _) (at_ 2017 6 15 13 20 30) (by decide +kernel) .second 7 30 (by decide)
    (.inl ⟨rfl, by decide, rfl⟩) it hit
  ⟨(h 4).1 (by decide), (h 5).2 (by decide)⟩

end Props
