import Verif.Spec.Ending
import Verif.Props.Order

/-!
# C141: how every expression ends
-/

namespace Props
open Kairos Spec

private theorem add_moment {c : Cfg} (a b : TT) (h : b.isMoment = true) : exec c (.add a b) = .err (.cannotAdd a b) := by
  cases b <;> first | exact add_moment_right c a _ | (cases h; done)

private theorem add_leaf_end {c : Cfg} {a b : TT} (ha : a.isLeaf) (hb : b.isEnd = true) :
    exec c (.add a b) = .err (.cannotAdd a b) := by
  rcases value_cases ha with ⟨u, n, rfl⟩ | ⟨m, rfl⟩ <;> cases b <;> first | (cases hb; done) | skip
  all_goals first | (cases u <;> rfl) | rfl

private theorem sub_leaf_end {c : Cfg} {a b : TT} (ha : a.isLeaf) (hb : b.isEnd = true) :
    exec c (.sub a b) = .err (.cannotSub a b) := by
  rcases value_cases ha with ⟨u, n, rfl⟩ | ⟨m, rfl⟩ <;> cases b <;> first | (cases hb; done) | skip
  all_goals first | (cases u <;> rfl) | rfl

private theorem add_end_leaf {c : Cfg} {a w : TT} (ha : a.isEnd = true) (hw : w.isLeaf) :
    exec c (.add a w) = .err (if w.isMoment then .cannotAdd a w else .cannotAdd w a) := by
  rcases value_cases hw with ⟨u, n, rfl⟩ | ⟨m, rfl⟩ <;> cases a <;> first | (cases ha; done) | skip
  all_goals first | (cases u <;> rfl) | rfl

private theorem sub_end_leaf {c : Cfg} {a w : TT} (ha : a.isEnd = true) (hw : w.isLeaf) :
    exec c (.sub a w) = .err (.cannotSub w a) := by
  rcases value_cases hw with ⟨u, n, rfl⟩ | ⟨m, rfl⟩ <;> cases a <;> first | (cases ha; done) | skip
  all_goals first | (cases u <;> rfl) | rfl

private theorem add_end_end {c : Cfg} {a b : TT} (ha : a.isEnd = true) (hb : b.isEnd = true) :
    exec c (.add a b) = .err (if markerRank b ≤ markerRank a then .cannotAdd b a else .cannotAdd a b) := by
  cases a <;> first | (cases ha; done) | skip
  all_goals cases b <;> first | (cases hb; done) | rfl

private theorem sub_end_end {c : Cfg} {a b : TT} (ha : a.isEnd = true) (hb : b.isEnd = true) :
    exec c (.sub a b) = .err (if markerRank b ≤ markerRank a then .cannotSub b a else .cannotSub a b) := by
  cases a <;> first | (cases ha; done) | skip
  all_goals cases b <;> first | (cases hb; done) | rfl

private theorem add_end_sum {c : Cfg} {a : TT} (ha : a.isEnd = true) (p q : TT) :
    exec c (.add a (.addition p q)) = (do let w ← calculate c (.addition p q); exec c (.add a w)) := by
  rw [exec_add, calc_addition]
  cases a <;> first | (cases ha; done) | rfl

private theorem add_end_difference {c : Cfg} {a : TT} (ha : a.isEnd = true) (p q : TT) :
    exec c (.add a (.subtraction p q)) = (do let w ← calculate c p; let r ← exec c (.add a w); exec c (.sub r q)) := by
  rw [exec_add]
  cases a <;> first | (cases ha; done) | rfl

private theorem sub_end_difference {c : Cfg} {a : TT} (ha : a.isEnd = true) (p q : TT) :
    exec c (.sub a (.subtraction p q)) = (do let w ← calculate c (.subtraction p q); exec c (.sub a w)) := by
  rw [exec_sub, calc_subtraction]
  cases a <;> first | (cases ha; done) | rfl

private theorem sub_end_sum {c : Cfg} {a : TT} (ha : a.isEnd = true) (p q : TT) :
    exec c (.sub a (.addition p q)) = (do let w ← calculate c p; let r ← exec c (.sub a w); exec c (.add r q)) := by
  rw [exec_sub]
  cases a <;> first | (cases ha; done) | rfl

private theorem ending_fit {c : Cfg} {t v : TT} (hn : AmountsFit t) (h : ending c t = .value v) : AmountsFit v := by
  unfold ending at h
  split at h
  case h_1 | h_2 =>
    first | unfold sumEnds at h | unfold differenceEnds at h
    repeat' split at h
    all_goals first
      | (cases h; done)
      | (refine then_fit (fun x v h => ?_) h
         repeat' split at h
         all_goals first
           | (cases h; done)
           | exact step_fit h rfl
           | exact then_fit (fun y v h => step_fit h rfl) h)
  case h_8 => cases h; exact hn
  all_goals exact then_fit (fun x v h => step_fit h rfl) h

/-- Ends as specified, and what it finishes with is a value the library can hold. -/
private def Good (c : Cfg) (t : TT) : Prop :=
  Says (ending c t) (calculate c t) ∧ AllMoments (Moment.Valid c) t ∧ AmountsFit t

private theorem good_leaf {c : Cfg} {t v : TT} (g : Good c t) (e : ending c t = .value v) (h : calculate c t = .ok v) :
    v.isLeaf ∧ AllMoments (Moment.Valid c) v ∧ AmountsFit v :=
  ⟨calculate_isLeaf h, values_valid g.2.1 h, ending_fit g.2.2 e⟩

private theorem step_add {c : Cfg} (hc : Sane c) {v w : TT} (hv : v.isLeaf ∧ AllMoments (Moment.Valid c) v ∧ AmountsFit v)
    (hw : w.isLeaf ∧ AllMoments (Moment.Valid c) w ∧ AmountsFit w) : Says (oneStep c (v + w)) (exec c (.add v w)) := by
  rw [← calculate_add]
  exact (C135_sum_and_difference c hc v w hv.1 hw.1 ⟨hv.2.1, hw.2.1⟩ ⟨hv.2.2, hw.2.2⟩).1

private theorem step_sub {c : Cfg} (hc : Sane c) {v w : TT} (hv : v.isLeaf ∧ AllMoments (Moment.Valid c) v ∧ AmountsFit v)
    (hw : w.isLeaf ∧ AllMoments (Moment.Valid c) w ∧ AmountsFit w) : Says (oneStep c (v - w)) (exec c (.sub v w)) := by
  rw [← calculate_sub]
  exact (C135_sum_and_difference c hc v w hv.1 hw.1 ⟨hv.2.1, hw.2.1⟩ ⟨hv.2.2, hw.2.2⟩).2

/-- A value plus what is right of it. -/
private theorem right_add {c : Cfg} (hc : Sane c) {v b : TT} (hv : v.isLeaf ∧ AllMoments (Moment.Valid c) v ∧ AmountsFit v)
    (gb : Good c b) :
    Says (if endMarked b then .refused (.cannotAdd v b) else (ending c b).andThen fun w => oneStep c (v + w)) (exec c (.add v b)) := by
  rw [endMarked_eq]
  by_cases he : b.isEnd = true
  · rw [if_pos he]
    exact add_leaf_end hv.1 he
  · have he' : b.isEnd = false := by simpa using he
    rw [if_neg he, exec_add_leaf c hv.1 b he']
    exact says_bind gb.1 fun w ew hw => step_add hc hv (good_leaf gb ew hw)

private theorem right_sub {c : Cfg} (hc : Sane c) {v b : TT} (hv : v.isLeaf ∧ AllMoments (Moment.Valid c) v ∧ AmountsFit v)
    (gb : Good c b) :
    Says (if endMarked b then .refused (.cannotSub v b) else (ending c b).andThen fun w => oneStep c (v - w)) (exec c (.sub v b)) := by
  rw [endMarked_eq]
  by_cases he : b.isEnd = true
  · rw [if_pos he]
    exact sub_leaf_end hv.1 he
  · have he' : b.isEnd = false := by simpa using he
    rw [if_neg he, exec_sub_leaf c hv.1 b he']
    exact says_bind gb.1 fun w ew hw => step_sub hc hv (good_leaf gb ew hw)

private theorem sum_ends {c : Cfg} (hc : Sane c) {a b : TT} (ga : Good c a) (gb : Good c b)
    (gp : ∀ p q, b = .subtraction p q → Good c p) : Says (ending c (.addition a b)) (exec c (.add a b)) := by
  unfold ending sumEnds
  by_cases hbm : b.isMoment = true
  · rw [if_pos hbm]
    exact add_moment a b hbm
  have hbm' : b.isMoment = false := by simpa using hbm
  rw [if_neg hbm]
  simp only [endMarked_eq]
  rcases shape a with hl | he | ⟨x, y, rfl⟩ | ⟨x, y, rfl⟩
  · obtain ⟨h1, -, h3⟩ := leaf_not hl
    simp only [h1, h3]
    have ea : ending c a = .value a := by
      cases a <;> first | rfl | (cases hl; done)
    rw [ea]
    have := right_add hc (v := a) ⟨hl, ga.2.1, ga.2.2⟩ gb
    rw [endMarked_eq] at this
    exact this
  · simp only [he, if_true]
    rcases shape b with hl | hbe | ⟨p, q, rfl⟩ | ⟨p, q, rfl⟩
    · obtain ⟨h1, -, h3⟩ := leaf_not hl
      have eb : ending c b = .value b := by
        cases b <;> first | rfl | (cases hl; done)
      simp only [h1, h3, eb]
      exact add_end_leaf he hl
    · simp only [hbe, if_true]
      exact add_end_end he hbe
    · rw [add_end_sum he]
      refine says_bind gb.1 fun w ew hw => ?_
      exact add_end_leaf he (calculate_isLeaf hw)
    · rw [add_end_difference he]
      refine says_bind (gp p q rfl).1 fun w ew hw => ?_
      rw [add_end_leaf he (calculate_isLeaf hw)]
      rfl
  · rw [exec_add_addition c x y b hbm']
    refine says_bind ga.1 fun v ev hv => ?_
    have := right_add hc (good_leaf ga ev hv) gb
    rw [endMarked_eq] at this
    exact this
  · rcases shape b with hl | hbe | ⟨p, q, rfl⟩ | ⟨p, q, rfl⟩
    · obtain ⟨h1, h2, h3⟩ := leaf_not hl
      rw [exec_add_sub_other c x y b hbm' h2]
      simp only [h1, h2, h3]
      refine says_bind ga.1 fun v ev hv => ?_
      exact step_add hc ⟨hl, gb.2.1, gb.2.2⟩ (good_leaf ga ev hv)
    · have h2 : b.isAddition = false := by
        cases b <;> first | rfl | (cases hbe; done)
      rw [exec_add_sub_other c x y b hbm' h2]
      simp only [hbe, h2]
      refine says_bind ga.1 fun v ev hv => ?_
      exact add_end_leaf hbe (calculate_isLeaf hv)
    · rw [exec_add_sub_add]
      refine says_bind gb.1 fun w ew hw => ?_
      obtain ⟨wl, -⟩ := good_leaf gb ew hw
      by_cases hwm : w.isMoment = true
      · rw [if_pos hwm]
        exact add_moment _ w hwm
      · rw [if_neg hwm, exec_add_sub_other c x y w (by simpa using hwm) (leaf_not wl).2.1]
        exact says_bind ga.1 fun v ev hv => step_add hc (good_leaf gb ew hw) (good_leaf ga ev hv)
    · rw [exec_add_sub_other c x y _ rfl rfl]
      refine says_bind ga.1 fun v ev hv => ?_
      obtain ⟨vl, -⟩ := good_leaf ga ev hv
      show Says (if v.isMoment = true then _ else _) _
      by_cases hvm : v.isMoment = true
      · rw [if_pos hvm]
        exact add_moment _ v hvm
      · rw [if_neg hvm, exec_add_sub_other c p q v (by simpa using hvm) (leaf_not vl).2.1]
        exact says_bind gb.1 fun w ew hw => step_add hc (good_leaf ga ev hv) (good_leaf gb ew hw)

private theorem difference_ends {c : Cfg} (hc : Sane c) {a b : TT} (ga : Good c a) (gb : Good c b)
    (gp : ∀ p q, b = .addition p q → Good c p) : Says (ending c (.subtraction a b)) (exec c (.sub a b)) := by
  unfold ending differenceEnds
  simp only [endMarked_eq]
  rcases shape a with hl | he | ⟨x, y, rfl⟩ | ⟨x, y, rfl⟩
  · obtain ⟨h1, h2, -⟩ := leaf_not hl
    have ea : ending c a = .value a := by
      cases a <;> first | rfl | (cases hl; done)
    simp only [h1, h2, ea]
    have := right_sub hc (v := a) ⟨hl, ga.2.1, ga.2.2⟩ gb
    rw [endMarked_eq] at this
    rw [if_neg (by simp), if_neg (by simp)]
    exact this
  · simp only [he, if_true]
    rcases shape b with hl | hbe | ⟨p, q, rfl⟩ | ⟨p, q, rfl⟩
    · obtain ⟨h1, h2, h3⟩ := leaf_not hl
      have eb : ending c b = .value b := by
        cases b <;> first | rfl | (cases hl; done)
      simp only [h1, h2, eb]
      exact sub_end_leaf he hl
    · simp only [hbe, if_true]
      exact sub_end_end he hbe
    · rw [sub_end_sum he]
      refine says_bind (gp p q rfl).1 fun w ew hw => ?_
      rw [sub_end_leaf he (calculate_isLeaf hw)]
      rfl
    · rw [sub_end_difference he]
      refine says_bind gb.1 fun w ew hw => ?_
      exact sub_end_leaf he (calculate_isLeaf hw)
  · by_cases hbs : b.isSubtraction = true
    · obtain ⟨p, q, rfl⟩ : ∃ p q, b = .subtraction p q := by
        cases b <;> first | exact ⟨_, _, rfl⟩ | (cases hbs; done)
      rw [exec_sub_add_sub]
      refine says_bind gb.1 fun w ew hw => ?_
      rw [exec_sub_add_other c x y w (leaf_not (calculate_isLeaf hw)).2.2]
      exact says_bind ga.1 fun v ev hv => step_sub hc (good_leaf ga ev hv) (good_leaf gb ew hw)
    · rw [exec_sub_add_other c x y b (by simpa using hbs), if_neg (by intro h; cases h),
        if_neg (fun h => hbs h.2)]
      refine says_bind ga.1 fun v ev hv => ?_
      have := right_sub hc (good_leaf ga ev hv) gb
      rw [endMarked_eq] at this
      exact this
  · rw [exec_sub_subtraction, if_neg (by intro h; cases h), if_neg (fun h => by cases h.1)]
    refine says_bind ga.1 fun v ev hv => ?_
    have := right_sub hc (good_leaf ga ev hv) gb
    rw [endMarked_eq] at this
    exact this

/-- **C141.** Every expression ends exactly as the specification says, also one without a value: with that value, with that error naming
these operands, or, with overflow checks, with an overflow. -/
theorem C141_every_expression (c : Cfg) (hc : Sane c) (t : TT) (hm : AllMoments (Moment.Valid c) t) (hn : AmountsFit t) :
    Says (ending c t) (calculate c t) := by
  have hend : ∀ (k : EndKind) (x : TT), AllMoments (Moment.Valid c) x → Says (ending c x) (calculate c x) →
      Says ((ending c x).andThen fun v => oneStep c (k.app v)) (calculate c (k.app x)) := by
    intro k x hx h
    rw [C136_end_of]
    exact says_bind h fun v _ hv => C135_end_of c hc v (calculate_isLeaf hv) (values_valid hx hv) k
  suffices h : Says (ending c t) (calculate c t) ∧
      ∀ p q, t = .addition p q ∨ t = .subtraction p q → Good c p from h.1
  induction t with
  | addition a b iha ihb =>
    have ga : Good c a := ⟨(iha hm.1 hn.1).1, hm.1, hn.1⟩
    have gb : Good c b := ⟨(ihb hm.2 hn.2).1, hm.2, hn.2⟩
    refine ⟨?_, fun p q h => ?_⟩
    · rw [calc_addition]
      exact sum_ends hc ga gb fun p q h => (ihb hm.2 hn.2).2 p q (.inr h)
    · rcases h with h | h <;> cases h
      exact ga
  | subtraction a b iha ihb =>
    have ga : Good c a := ⟨(iha hm.1 hn.1).1, hm.1, hn.1⟩
    have gb : Good c b := ⟨(ihb hm.2 hn.2).1, hm.2, hn.2⟩
    refine ⟨?_, fun p q h => ?_⟩
    · rw [calc_subtraction]
      exact difference_ends hc ga gb fun p q h => (ihb hm.2 hn.2).2 p q (.inl h)
    · rcases h with h | h <;> cases h
      exact ga
  | endOfYear x ih => exact ⟨hend .year x hm (ih hm hn).1, fun p q h => by rcases h with h | h <;> cases h⟩
  | endOfMonth x ih => exact ⟨hend .month x hm (ih hm hn).1, fun p q h => by rcases h with h | h <;> cases h⟩
  | endOfDay x ih => exact ⟨hend .day x hm (ih hm hn).1, fun p q h => by rcases h with h | h <;> cases h⟩
  | endOfHour x ih => exact ⟨hend .hour x hm (ih hm hn).1, fun p q h => by rcases h with h | h <;> cases h⟩
  | endOfMinute x ih => exact ⟨hend .minute x hm (ih hm hn).1, fun p q h => by rcases h with h | h <;> cases h⟩
  | _ => exact ⟨calculate_leaf c rfl, fun p q h => by rcases h with h | h <;> cases h⟩

/-- A difference on the left changes places with the amount on the right; the sum right of an end-of marker is calculated, the one below
it is not; and of two differences the right one is not calculated when the left one is a moment. -/
example : calculate (std .debug) (.moment (at_ 2017 6 15 0 0 0) - .days 1 + .days 2) =
      .err (.cannotAdd (.days 2) (.moment (at_ 2017 6 14 0 0 0))) ∧
    calculate (std .debug) (.endOfYear (.days 1 + .days 1) + (.days 1 + .days 2)) =
      .err (.cannotAdd (.days 3) (.endOfYear (.days 1 + .days 1))) ∧
    calculate (std .debug) (.moment (at_ 2017 6 15 0 0 0) - .days 1 + (.days 3 - .hours 1)) =
      .err (.cannotAdd (.days 3 - .hours 1) (.moment (at_ 2017 6 14 0 0 0))) := by
  have h1 := C141_every_expression (std .debug) (by decide) (.moment (at_ 2017 6 15 0 0 0) - .days 1 + .days 2)
    (by simp [AllMoments, TT.hadd_def, TT.hsub_def]; decide) (by simp [AmountsFit, TT.hadd_def, TT.hsub_def]; decide)
  have h2 := C141_every_expression (std .debug) (by decide) (.endOfYear (.days 1 + .days 1) + (.days 1 + .days 2))
    (by simp [AllMoments, TT.hadd_def]) (by simp [AmountsFit, TT.hadd_def]; decide)
  have h3 := C141_every_expression (std .debug) (by decide) (.moment (at_ 2017 6 15 0 0 0) - .days 1 + (.days 3 - .hours 1))
    (by simp [AllMoments, TT.hadd_def, TT.hsub_def]; decide) (by simp [AmountsFit, TT.hadd_def, TT.hsub_def]; decide)
  have e1 : ending (std .debug) (.moment (at_ 2017 6 15 0 0 0) - .days 1 + .days 2) =
      .refused (.cannotAdd (.days 2) (.moment (at_ 2017 6 14 0 0 0))) := by decide +kernel
  have e2 : ending (std .debug) (.endOfYear (.days 1 + .days 1) + (.days 1 + .days 2)) =
      .refused (.cannotAdd (.days 3) (.endOfYear (.days 1 + .days 1))) := by decide +kernel
  have e3 : ending (std .debug) (.moment (at_ 2017 6 15 0 0 0) - .days 1 + (.days 3 - .hours 1)) =
      .refused (.cannotAdd (.days 3 - .hours 1) (.moment (at_ 2017 6 14 0 0 0))) := by decide +kernel
  rw [e1] at h1
  rw [e2] at h2
  rw [e3] at h3
  exact ⟨h1, h2, h3⟩

private theorem says_unique {a b : Answer} {o : Out TT} (ha : Says a o) (hb : Says b o) : a = b := by
  cases a <;> cases b <;> cases o <;> simp_all [Says]

/-- **C141.** Where the expression is of a kind that can be calculated, this is the left-to-right reading of C136. -/
theorem C141_kinds (c : Cfg) (hc : Sane c) (t : TT) (hk : kind t ≠ none) (hm : AllMoments (Moment.Valid c) t) (hn : AmountsFit t) :
    ending c t = outcome c t :=
  says_unique (C141_every_expression c hc t hm hn) (C136_whole c hc t hk hm hn)

example : ending (std .debug) (.moment (at_ 2017 6 15 0 0 0) + .years 300000 - (.days 9223372036854775807 + .days 2)) =
    outcome (std .debug) (.moment (at_ 2017 6 15 0 0 0) + .years 300000 - (.days 9223372036854775807 + .days 2)) :=
  C141_kinds (std .debug) (by decide) _ (by decide)
    (by simp [AllMoments, TT.hadd_def, TT.hsub_def]; decide) (by simp [AmountsFit, TT.hadd_def, TT.hsub_def]; decide)

/-- **C141.** An expression without a kind never ends with a value by this specification either: it ends with an error or an overflow. -/
theorem C141_no_kind (c : Cfg) (hc : Sane c) (t : TT) (hk : kind t = none) (hm : AllMoments (Moment.Valid c) t) (hn : AmountsFit t) :
    (∃ e, ending c t = .refused e) ∨ ending c t = .overflow := by
  have h := C141_every_expression c hc t hm hn
  have f := fits_all c t
  rw [hk] at f
  cases e : ending c t with
  | value v => rw [e] at h; exact absurd h (f v)
  | refused k => exact .inl ⟨k, rfl⟩
  | overflow => exact .inr rfl

example : (∃ e, ending (std .debug) (.days 2 + .endOfYear (.moment (at_ 2017 6 15 0 0 0))) = .refused e) ∨
    ending (std .debug) (.days 2 + .endOfYear (.moment (at_ 2017 6 15 0 0 0))) = .overflow :=
  C141_no_kind (std .debug) (by decide) _ (by decide)
    (by simp [AllMoments, TT.hadd_def]; decide) (by simp [AmountsFit, TT.hadd_def]; decide)

end Props
