import Verif.Lemmas.Valid
import Verif.Lemmas.MomentAdd
import Verif.Lemmas.Iter
import Verif.Props.Iterators
import Verif.Props.Values
import Verif.Props.Kinds

/-!
# C111: units smaller than the one added or subtracted are left alone
-/

namespace Props
open Kairos Spec

variable {c : Cfg}

private theorem chk_id {x y : Int} (h : (c.chk x : Out Int) = .ok y) (hx : -1000 ≤ x) (hx' : x ≤ 1000) : y = x := by
  unfold Cfg.chk at h
  rw [if_pos (by unfold InI64; omega)] at h
  cases h; rfl

private theorem fix_ok {base border next : Int} {q : Int × Int} (h : (fix c base border next : Out (Int × Int)) = .ok q) :
    q.2 = base.tmod border ∧
    (0 ≤ base ∧ base < border ∧ border ≤ 60 ∧ 0 ≤ next ∧ next ≤ 1000 → q.1 = next) := by
  unfold fix at h
  cases h1 : (c.sub base (base.tmod border) : Out Int) <;> rw [h1] at h <;> simp only [OutE.ok_bind, OutE.err_bind, OutE.panic_bind, OutE.oof_bind] at h <;> try cases h
  rename_i diff
  cases h2 : (c.add next (diff.tdiv border) : Out Int) <;> rw [h2] at h <;> simp only [OutE.ok_bind, OutE.err_bind, OutE.panic_bind, OutE.oof_bind] at h <;> try cases h
  rename_i nx
  refine ⟨rfl, fun ⟨b1, b2, b3, b4, b5⟩ => ?_⟩
  rw [Int.tmod_eq_of_lt b1 b2] at h1
  have hd := chk_id h1 (by omega) (by omega)
  rw [show base - base = 0 by omega] at hd
  subst hd
  have := chk_id h2 (by simp; omega) (by simp; omega)
  simpa using this

private theorem borrow_ok {base low div top next : Int} {q : Int × Int}
    (h : (borrow c base low div top next : Out (Int × Int)) = .ok q) (hb : low ≤ base) : q = (next, base) := by
  unfold borrow at h
  rw [if_neg (by omega)] at h
  cases h; rfl

/-- What the adjustments leave alone. -/
private def Kept (p q : Parts) : Prop :=
  (0 ≤ p.s ∧ p.s ≤ 59 → q.s = p.s ∧ (0 ≤ p.mi ∧ p.mi ≤ 59 → q.mi = p.mi ∧ (0 ≤ p.h ∧ p.h ≤ 23 → q.h = p.h)))

private theorem add_kept {p q : Parts} (h : (adjustTimesAdd c p : Out Parts) = .ok q) : Kept p q := by
  unfold adjustTimesAdd at h
  obtain ⟨⟨mi, s⟩, h1, h⟩ := OutE.bind_eq_ok.1 h
  obtain ⟨⟨hh, mi'⟩, h2, h⟩ := OutE.bind_eq_ok.1 h
  obtain ⟨⟨d, hh'⟩, h3, h⟩ := OutE.bind_eq_ok.1 h
  obtain ⟨⟨mo, d'⟩, h4, h⟩ := OutE.bind_eq_ok.1 h
  obtain ⟨⟨y, mo'⟩, h5, h⟩ := OutE.bind_eq_ok.1 h
  cases h
  have a1 := fix_ok h1
  have a2 := fix_ok h2
  have a3 := fix_ok h3
  simp only at a1 a2 a3
  intro hs
  refine ⟨by rw [a1.1]; exact Int.tmod_eq_of_lt hs.1 (by omega), fun hm => ?_⟩
  have e1 := a1.2 ⟨hs.1, by omega, by omega, by omega, by omega⟩
  subst e1
  refine ⟨by rw [a2.1]; exact Int.tmod_eq_of_lt hm.1 (by omega), fun hr => ?_⟩
  have e2 := a2.2 ⟨hm.1, by omega, by omega, by omega, by omega⟩
  subst e2
  rw [a3.1]; exact Int.tmod_eq_of_lt hr.1 (by omega)

private theorem sub_kept {p q : Parts} (h : (adjustTimesSub c p : Out Parts) = .ok q) : Kept p q := by
  unfold adjustTimesSub at h
  obtain ⟨⟨mi, s⟩, h1, h⟩ := OutE.bind_eq_ok.1 h
  obtain ⟨⟨hh, mi'⟩, h2, h⟩ := OutE.bind_eq_ok.1 h
  obtain ⟨⟨d, hh'⟩, h3, h⟩ := OutE.bind_eq_ok.1 h
  obtain ⟨⟨mo, d'⟩, h4, h⟩ := OutE.bind_eq_ok.1 h
  obtain ⟨⟨y, mo'⟩, h5, h⟩ := OutE.bind_eq_ok.1 h
  cases h
  intro hs
  have e1 := borrow_ok h1 (by omega)
  cases e1
  refine ⟨rfl, fun hm => ?_⟩
  have e2 := borrow_ok h2 (by omega)
  cases e2
  refine ⟨rfl, fun hr => ?_⟩
  have e3 := borrow_ok h3 (by omega)
  cases e3
  rfl

private theorem built_kept {p q : Parts} {r : Moment} (hk : Kept p q) (h : Eval.buildMoment c q = .ok (.moment r)) :
    0 ≤ p.s ∧ p.s ≤ 59 → r.second = p.s ∧ (0 ≤ p.mi ∧ p.mi ≤ 59 → r.minute = p.mi ∧ (0 ≤ p.h ∧ p.h ≤ 23 → r.hour = p.h)) := by
  obtain ⟨m, e, e', -⟩ := buildMoment_ok h
  cases e
  subst e'
  intro hs
  obtain ⟨k1, k2⟩ := hk hs
  refine ⟨by simp only [asU32]; omega, fun hm => ?_⟩
  obtain ⟨k3, k4⟩ := k2 hm
  refine ⟨by simp only [asU32]; omega, fun hr => ?_⟩
  have k5 := k4 hr
  simp only [asU32]; omega

/-- **C111.** Adding or subtracting minutes leaves the seconds alone, hours the minutes and seconds, days, months and
years the time of day, for every number of them, of either sign and any size, in both build profiles, whenever it
succeeds. -/
theorem C111_smaller_units (c : Cfg) (m r : Moment) (hm : m.Valid c) (u : TUnit) (n : Int)
    (h : calculate c (.moment m + amt u n) = .ok (.moment r) ∨ calculate c (.moment m - amt u n) = .ok (.moment r)) :
    (u ≠ .second → r.second = m.second) ∧
    (u ≠ .second → u ≠ .minute → r.minute = m.minute) ∧
    (u = .day ∨ u = .month ∨ u = .year → r.hour = m.hour) := by
  obtain ⟨-, -, -, ⟨t1, t2, t3, t4, t5, t6⟩, -⟩ := hm
  rw [calc_add_moment, exec_addToMoment, calc_sub_moment, exec_subFromMoment] at h
  rcases h with h | h <;> cases u <;> simp only [amt, Eval.addToMoment, Eval.subFromMoment] at h <;>
    obtain ⟨x, hx, h⟩ := OutE.bind_eq_ok.1 h <;> obtain ⟨q, hq, h⟩ := OutE.bind_eq_ok.1 h <;>
    first
    | have k := built_kept (add_kept hq) h
    | have k := built_kept (sub_kept hq) h
  all_goals
    simp only at k
    refine ⟨fun g1 => ?_, fun g1 g2 => ?_, fun g => ?_⟩
    · first
      | exact absurd rfl g1
      | exact (k ⟨by omega, by omega⟩).1
    · first
      | exact absurd rfl g1
      | exact absurd rfl g2
      | exact ((k ⟨by omega, by omega⟩).2 ⟨by omega, by omega⟩).1
    · first
      | exact ((k ⟨by omega, by omega⟩).2 ⟨by omega, by omega⟩).2 ⟨by omega, by omega⟩
      | simp at g

example := C111_smaller_units (std .debug) (at_ 2017 1 31 7 8 9) (at_ 2017 3 3 7 8 9) (by decide) .month 1 (.inl (by decide +kernel))

/-- An expression whose left operand has no value has none. -/
private theorem add_dead {x y inc : TT} (hi : inc.isAAmount = true) (h : ∀ v, calculate c (.addition x y) ≠ .ok v) (v : TT) :
    calculate c (.addition x y + inc) ≠ .ok v := by
  have h' : ∀ v, exec c (.add x y) ≠ .ok v := fun v => by rw [← calculate_add]; exact h v
  rw [calculate_add, exec_add]
  intro e
  cases inc <;> simp [TT.isAAmount] at hi <;> simp only [Eval.add] at e <;> obtain ⟨b, hb, -⟩ := OutE.bind_eq_ok.1 e <;> exact h' b hb

/-- An item comes from the item before. -/
theorem previous_item {m r : Moment} {inc : TT} (hi : inc.isAAmount = true) {k : Nat}
    (h : nth (Iter.next c) (k + 1) ⟨.moment m, inc, false⟩ = some (.ok (.moment r))) :
    ∃ r', nth (Iter.next c) k ⟨.moment m, inc, false⟩ = some (.ok (.moment r')) ∧ calculate c (.moment r' + inc) = .ok (.moment r) := by
  have inv : ∀ k, (∃ r', nth (Iter.next c) k ⟨.moment m, inc, false⟩ = some (.ok (.moment r')) ∧
        after (Iter.next c) (k + 1) ⟨.moment m, inc, false⟩ = live r' inc) ∨
      ∃ x y, after (Iter.next c) (k + 1) ⟨.moment m, inc, false⟩ = ⟨.addition x y, inc, true⟩ ∧
        ∀ v, calculate c (.addition x y) ≠ .ok v := by
    intro k
    induction k with
    | zero => exact .inl ⟨m, rfl, rfl⟩
    | succ k ih =>
      rw [nth_eq, after_succ' _ (k + 1)]
      rcases ih with ⟨r', -, ha⟩ | ⟨x, y, ha, hd⟩
      · rw [ha]
        cases hcalc : calculate c (.moment r' + inc) with
        | ok v =>
          have hv : ∃ q, v = .moment q := by
            rcases C02_result_evaluated c _ v hcalc with ⟨u', n', rfl⟩ | hq
            · have := (C76_values c _ _ hcalc).1
              obtain ⟨u, n, rfl⟩ := amount_cases hi
              cases u <;> cases u' <;> cases this
            · exact hq
          obtain ⟨q, rfl⟩ := hv
          exact .inl ⟨q, by rw [next_live_ok hcalc], by rw [next_live_ok hcalc]⟩
        | err e => right; rw [next_live_err hcalc]; exact ⟨_, _, rfl, fun v hv => by rw [TT.hadd_def] at hcalc; rw [hcalc] at hv; cases hv⟩
        | panic =>
          right
          refine ⟨.moment r', inc, ?_, fun v hv => by rw [TT.hadd_def] at hcalc; rw [hcalc] at hv; cases hv⟩
          simp only [Iter.next, live, Iter.skip, Iter.recalculate, hcalc]; rfl
        | oof => exact absurd hcalc (C01_calculate_returns c _).1
      · right
        rw [ha]
        have hd' := add_dead hi hd
        refine ⟨.addition x y, inc, ?_, hd'⟩
        simp only [Iter.next, Iter.skip, Iter.recalculate, Bool.not_true, Bool.false_eq_true, if_false]
        cases hcalc : calculate c (.addition x y + inc) with
        | ok v => exact absurd hcalc (hd' v)
        | err e => rfl
        | panic => rfl
        | oof => rfl
  rcases inv k with ⟨r', h1, ha⟩ | ⟨x, y, ha, hd⟩
  · refine ⟨r', h1, ?_⟩
    rw [nth_eq, ha] at h
    simp only [Iter.next, live, Iter.skip, Iter.recalculate, Bool.not_true, Bool.false_eq_true, if_false] at h
    cases hcalc : calculate c (.moment r' + inc) <;> rw [hcalc] at h <;> cases h
    rfl
  · rw [nth_eq, ha] at h
    simp only [Iter.next, Iter.skip, Iter.recalculate, Bool.not_true, Bool.false_eq_true, if_false] at h
    cases hcalc : calculate c (.addition x y + inc) with
    | ok v => exact absurd hcalc (add_dead hi hd v)
    | err e => rw [hcalc] at h; cases h
    | panic => rw [hcalc] at h; cases h
    | oof => rw [hcalc] at h; cases h

/-- **C111, iterators.** So all dates of `daily`, `weekly`, `monthly` and `yearly` iterators have the time of day of the
base, those of `hourly` ones its minutes and seconds, and those of `minutely` ones its seconds, for every step of either
sign and any size. -/
theorem C111_iterators (c : Cfg) (m r : Moment) (hm : m.Valid c) (u : TUnit) (n : Int) (it : Iter)
    (hit : Iter.build m (amt u n) = .ok it) (k : Nat) (h : nth (Iter.next c) k it = some (.ok (.moment r))) :
    (u ≠ .second → r.second = m.second) ∧
    (u ≠ .second → u ≠ .minute → r.minute = m.minute) ∧
    (u = .day ∨ u = .month ∨ u = .year → r.hour = m.hour) := by
  rw [(C33_build m (amt u n)).1 ⟨u, n, rfl⟩] at hit
  cases hit
  have key : ∀ (k : Nat) (r : Moment), nth (Iter.next c) k ⟨.moment m, amt u n, false⟩ = some (.ok (.moment r)) →
      r.Valid c ∧ (u ≠ .second → r.second = m.second) ∧
      (u ≠ .second → u ≠ .minute → r.minute = m.minute) ∧
      (u = .day ∨ u = .month ∨ u = .year → r.hour = m.hour) := by
    intro k
    induction k with
    | zero => intro r h; cases h; exact ⟨hm, fun _ => rfl, fun _ _ => rfl, fun _ => rfl⟩
    | succ k ih =>
      intro r h
      obtain ⟨r', h1, h2⟩ := previous_item (amt_isAAmount u n) h
      obtain ⟨v, i1, i2, i3⟩ := ih r' h1
      obtain ⟨j1, j2, j3⟩ := C111_smaller_units c r' r v u n (.inl h2)
      exact ⟨(C15_computed c _ r (fun p hp => by cases hp) h2).1, fun g => (j1 g).trans (i1 g), fun g g' => (j2 g g').trans (i2 g g'),
        fun g => (j3 g).trans (i3 g)⟩
  exact (key k r h).2

/-- Across a year that the code gets wrong, and back into a month that it gets wrong: the time of day stays. -/
example : calculate (std .debug) (.moment (at_ 2017 6 15 23 59 58) + .days 400) = .ok (.moment (at_ 2018 7 21 23 59 58)) ∧
    calculate (std .debug) (.moment (at_ 2017 5 1 23 59 58) - .days 5) = .ok (.moment (at_ 2017 4 27 23 59 58)) := by
  decide +kernel

end Props
