import Verif.Lemmas.AmountIff
import Verif.Props.Wrapping
import Verif.Props.Edge

/-!
# C93: exactly when the checked build panics on amounts, alone and together with a moment
-/

namespace Props
open Kairos Spec

theorem inUnit_finest (t : AmtTree) : t.inUnit t.finest = cnt t := by
  unfold AmtTree.inUnit
  rw [← cnt_secs t, Int.mul_ediv_cancel _ (by have := secs_pos t.finest; omega)]

theorem inUnit_left (a b : AmtTree) : a.inUnit (finer a.finest b.finest) = cnt a * fac a.finest (finer a.finest b.finest) := by
  unfold AmtTree.inUnit
  rw [← cnt_secs a, ← fac_finer_left a.finest b.finest, ← Int.mul_assoc, Int.mul_ediv_cancel _ (by have := secs_pos (finer a.finest b.finest); omega)]

theorem inUnit_right (a b : AmtTree) : b.inUnit (finer a.finest b.finest) = cnt b * fac b.finest (finer a.finest b.finest) := by
  unfold AmtTree.inUnit
  rw [← cnt_secs b, ← fac_finer_right a.finest b.finest, ← Int.mul_assoc, Int.mul_ediv_cancel _ (by have := secs_pos (finer a.finest b.finest); omega)]

theorem fits_cnt {t : AmtTree} (h : t.Fits) : InI64 (cnt t) := by
  rw [← inUnit_finest]
  cases t with
  | amt u n => rw [inUnit_finest]; exact h
  | plus a b => exact h.2.2.2.2
  | minus a b => exact h.2.2.2.2

theorem tree_panics {c : Cfg} {t : AmtTree} (h : ∀ v, calculate c t.toTT ≠ .ok v) : calculate c t.toTT = .panic := by
  rcases C76_amounts c t.toTT (amtTree_kind t) with ⟨u, n, e⟩ | ⟨e, -⟩
  · exact absurd e (h _)
  · exact e

theorem tree_debug {c : Cfg} (hc : c.profile = .debug) (t : AmtTree) (ht : t.InRange) :
    (t.Fits → calculate c t.toTT = .ok (amt t.finest (cnt t))) ∧ (¬ t.Fits → calculate c t.toTT = .panic) := by
  induction t with
  | amt u n => exact ⟨fun _ => calculate_leaf c (by cases u <;> rfl), fun h => absurd ht h⟩
  | plus a b iha ihb =>
    have iha := iha ht.1
    have ihb := ihb ht.2
    by_cases ha : a.Fits
    · by_cases hb : b.Fits
      · have e : calculate c (AmtTree.plus a b).toTT = _ :=
          (C77_values_combine c a.toTT b.toTT _ _ (iha.1 ha) (ihb.1 hb)).1 (by
            have := amtTree_kind (.plus a b); rw [show a.toTT + b.toTT = (AmtTree.plus a b).toTT from rfl, this]; simp)
        rw [calculate_add, exec_add_amt_debug hc _ _ (fits_cnt ha) (fits_cnt hb)] at e
        have hf : (AmtTree.plus a b).Fits ↔ InI64 (cnt a * fac a.finest (finer a.finest b.finest)) ∧
            InI64 (cnt b * fac b.finest (finer a.finest b.finest)) ∧ InI64 (cnt a * fac a.finest (finer a.finest b.finest) +
              cnt b * fac b.finest (finer a.finest b.finest)) := by
          simp only [AmtTree.Fits, ha, hb, true_and, inUnit_finest]
          rw [finest_plus, inUnit_left, inUnit_right]
          rfl
        rw [e, hf]
        exact ⟨fun h => if_pos h, fun h => if_neg h⟩
      · have hp : calculate c (AmtTree.plus a b).toTT = .panic := tree_panics fun v =>
          (C77_failing_operand c a.toTT b.toTT v (.inr fun w hw => by rw [ihb.2 hb] at hw; cases hw)).1
        exact ⟨fun h => absurd h.2.1 hb, fun _ => hp⟩
    · have hp : calculate c (AmtTree.plus a b).toTT = .panic := tree_panics fun v =>
        (C77_failing_operand c a.toTT b.toTT v (.inl fun w hw => by rw [iha.2 ha] at hw; cases hw)).1
      exact ⟨fun h => absurd h.1 ha, fun _ => hp⟩
  | minus a b iha ihb =>
    have iha := iha ht.1
    have ihb := ihb ht.2
    by_cases ha : a.Fits
    · by_cases hb : b.Fits
      · have e : calculate c (AmtTree.minus a b).toTT = _ :=
          (C77_values_combine c a.toTT b.toTT _ _ (iha.1 ha) (ihb.1 hb)).2 (by
            have := amtTree_kind (.minus a b); rw [show a.toTT - b.toTT = (AmtTree.minus a b).toTT from rfl, this]; simp)
        rw [calculate_sub, exec_sub_amt_debug hc _ _ (fits_cnt ha) (fits_cnt hb)] at e
        have hf : (AmtTree.minus a b).Fits ↔ InI64 (cnt a * fac a.finest (finer a.finest b.finest)) ∧
            InI64 (cnt b * fac b.finest (finer a.finest b.finest)) ∧ InI64 (cnt a * fac a.finest (finer a.finest b.finest) -
              cnt b * fac b.finest (finer a.finest b.finest)) := by
          simp only [AmtTree.Fits, ha, hb, true_and, inUnit_finest]
          rw [finest_minus, inUnit_left, inUnit_right]
          rfl
        rw [e, hf]
        exact ⟨fun h => if_pos h, fun h => if_neg h⟩
      · have hp : calculate c (AmtTree.minus a b).toTT = .panic := tree_panics fun v =>
          (C77_failing_operand c a.toTT b.toTT v (.inr fun w hw => by rw [ihb.2 hb] at hw; cases hw)).2
        exact ⟨fun h => absurd h.2.1 hb, fun _ => hp⟩
    · have hp : calculate c (AmtTree.minus a b).toTT = .panic := tree_panics fun v =>
        (C77_failing_operand c a.toTT b.toTT v (.inl fun w hw => by rw [iha.2 ha] at hw; cases hw)).2
      exact ⟨fun h => absurd h.1 ha, fun _ => hp⟩

/-- **C93.** On an expression of `i64` amounts the checked build returns the exact value, in the finest unit, if at every `+`
and `-` of the expression both operands and the result fit into 64 bits when counted in the finest unit occurring there. -/
theorem C93_fits (c : Cfg) (hc : c.profile = .debug) (t : AmtTree) (ht : t.InRange) (h : t.Fits) :
    calculate c t.toTT = .ok (amt t.finest (t.inUnit t.finest)) ∧ t.inUnit t.finest * t.finest.secs = t.secs := by
  rw [inUnit_finest]
  exact ⟨(tree_debug hc t ht).1 h, cnt_secs t⟩

example := C93_fits (std .debug) rfl (.minus (.plus (.amt .day 106751991167300) (.amt .second 55807)) (.amt .month 3))
  ⟨⟨(by decide : InI64 106751991167300), (by decide : InI64 55807)⟩, (by decide : InI64 3)⟩ (by decide +kernel)

/-- **C93.** And otherwise it panics. -/
theorem C93_panics_iff (c : Cfg) (hc : c.profile = .debug) (t : AmtTree) (ht : t.InRange) :
    calculate c t.toTT = .panic ↔ ¬ t.Fits := by
  constructor
  · intro h hf
    rw [(C93_fits c hc t ht hf).1] at h
    cases h
  · exact (tree_debug hc t ht).2

/-- The value fits, but not on the way: the largest number of days, plus a day, minus two days. And a number of days that does
not fit when counted in seconds, although one is only added to take it away again. -/
example : (AmtTree.minus (.plus (.amt .day 9223372036854775807) (.amt .day 1)) (.amt .day 2)).InRange ∧
    ¬ (AmtTree.minus (.plus (.amt .day 9223372036854775807) (.amt .day 1)) (.amt .day 2)).Fits ∧
    ¬ (AmtTree.minus (.plus (.amt .day 106751991167301) (.amt .second 1)) (.amt .second 1)).Fits ∧
    (AmtTree.minus (.plus (.amt .day 106751991167300) (.amt .second 55807)) (.amt .month 3)).Fits ∧
    ¬ (AmtTree.plus (.amt .day 106751991167300) (.amt .second 55808)).Fits := by
  refine ⟨⟨⟨(by decide : InI64 9223372036854775807), (by decide : InI64 1)⟩, (by decide : InI64 2)⟩, ?_⟩
  decide +kernel

/-- **C93.** If the size of its amounts is at most 2^63 - 1 seconds in total, it fits. -/
theorem C93_small_fits (t : AmtTree) (h : t.mag ≤ 9223372036854775807) (ht : t.InRange) : t.Fits := by
  by_cases hf : t.Fits
  · exact hf
  · have h1 := (tree_debug (c := std .debug) rfl t ht).2 hf
    obtain ⟨k, h2, -⟩ := C05_amounts_succeed (std .debug) t h
    rw [h1] at h2; cases h2

example := C93_small_fits (.minus (.amt .day 30) (.amt .second 55807)) (by decide) ⟨(by decide : InI64 30), (by decide : InI64 55807)⟩

/-! ## Together with a moment -/

theorem moment_tree_panic {c : Cfg} (m : Moment) {t : AmtTree} (h : calculate c t.toTT = .panic) :
    calculate c (.moment m + t.toTT) = .panic ∧ calculate c (.moment m - t.toTT) = .panic := by
  rw [calc_add_moment, calc_sub_moment, exec_addToMoment, exec_subFromMoment]
  cases t with
  | amt u n => rw [calculate_leaf c (by cases u <;> rfl)] at h; cases h
  | plus a b =>
    have e : (AmtTree.plus a b).toTT = .addition a.toTT b.toTT := rfl
    have h' : exec c (.add a.toTT b.toTT) = .panic := by rw [← calculate_add]; exact h
    rw [e]
    simp only [Eval.addToMoment, Eval.subFromMoment, h']
    exact ⟨rfl, rfl⟩
  | minus a b =>
    have e : (AmtTree.minus a b).toTT = .subtraction a.toTT b.toTT := rfl
    have h' : exec c (.sub a.toTT b.toTT) = .panic := by rw [← calculate_sub]; exact h
    rw [e]
    simp only [Eval.addToMoment, Eval.subFromMoment, h']
    exact ⟨rfl, rfl⟩

/-- **C93, adding to a moment.** The checked build panics exactly if the amounts do not fit, or their number, counted in their
finest unit, does not fit after it is added to the component of the moment that belongs to this unit; or if months are
added on a 31st and the sum is 2^63 - 1. -/
theorem C93_adding (c : Cfg) (hc : Sane c) (hp : c.profile = .debug) (m : Moment) (hm : m.Valid c) (t : AmtTree) (ht : t.InRange) :
    calculate c (.moment m + t.toTT) = .panic ↔ AddOverflows m t := by
  unfold AddOverflows
  have hk : kind (.moment m + t.toTT) ≠ none := by
    simp [TT.hadd_def, kind, amtTree_kind t, TT.isSubtraction, endMarked]
  by_cases hf : t.Fits
  · obtain ⟨e, -⟩ := C93_fits c hp t ht hf
    rw [(C92_expressions c hc (.moment m) t.toTT m hm t.finest (t.inUnit t.finest)
      (by rw [inUnit_finest]; exact fits_cnt hf) (calculate_leaf c rfl) e).1 hk]
    simp [hp, hf]
  · simp only [hf, not_false_eq_true, true_or, iff_true]
    exact (moment_tree_panic m ((tree_debug hp t ht).2 hf)).1

example : calculate (std .debug) (.moment (at_ 2017 1 31 23 59 59) +
    (AmtTree.minus (.amt .month 9223372036854775807) (.amt .month 1)).toTT) = .panic :=
  (C93_adding (std .debug) (sane_std _) rfl _ (by decide) (.minus (.amt .month 9223372036854775807) (.amt .month 1))
    ⟨(by decide : InI64 9223372036854775807), (by decide : InI64 1)⟩).2 (by decide +kernel)

/-- **C93, subtracting from a moment.** -/
theorem C93_subtracting (c : Cfg) (hc : Sane c) (hp : c.profile = .debug) (m : Moment) (hm : m.Valid c) (t : AmtTree)
    (ht : t.InRange) :
    calculate c (.moment m - t.toTT) = .panic ↔ SubOverflows m t := by
  unfold SubOverflows
  have hk : kind (.moment m - t.toTT) ≠ none := by
    simp [TT.hsub_def, kind, amtTree_kind t, endMarked]
  by_cases hf : t.Fits
  · obtain ⟨e, -⟩ := C93_fits c hp t ht hf
    rw [(C92_expressions c hc (.moment m) t.toTT m hm t.finest (t.inUnit t.finest)
      (by rw [inUnit_finest]; exact fits_cnt hf) (calculate_leaf c rfl) e).2 hk]
    simp [hp, hf]
  · simp only [hf, not_false_eq_true, true_or, iff_true]
    exact (moment_tree_panic m ((tree_debug hp t ht).2 hf)).2

/-- Up to the last second that fits. -/
example : (at_ 2017 1 31 23 59 59).Valid (std .debug) ∧ (AmtTree.plus (.amt .minute 153722867280912930) (.amt .second 0)).Fits ∧
    AddOverflows (at_ 2017 1 31 23 59 59) (.plus (.amt .minute 153722867280912930) (.amt .second 0)) ∧
    ¬ SubOverflows (at_ 2017 1 31 23 59 59) (.plus (.amt .minute 153722867280912930) (.amt .second 0)) ∧
    AddOverflows (at_ 2017 1 31 23 59 59) (.minus (.amt .month 9223372036854775807) (.amt .month 1)) ∧
    ¬ AddOverflows (at_ 2017 1 30 23 59 59) (.minus (.amt .month 9223372036854775807) (.amt .month 1)) := by
  decide +kernel

end Props
