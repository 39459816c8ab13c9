import Verif.Props.AmountEdge
import Verif.Props.Overflow
import Verif.Props.EndToEnd

/-!
# C52: exactly which iterator texts make the overflow-checked build panic
-/

namespace Props
open Kairos Kairos.Parser Spec

/-- How a text starts that stands for a date: a moment, a sum or a difference. -/
inductive Start : TT → Prop
  | moment (m : Moment) : Start (.moment m)
  | sum (x y : TT) : Start (.addition x y)

theorem start_add {c : Cfg} {b : TT} {m : Moment} (hb : Start b) (h : calculate c b = .ok (.moment m)) (t : AmtTree) :
    calculate c (b + t.toTT) = calculate c (.moment m + t.toTT) := by
  cases hb with
  | moment m' => rw [calculate_leaf c rfl] at h; cases h; rfl
  | sum x y =>
    have h' : exec c (.add x y) = .ok (.moment m) := by rw [← calculate_add]; exact h
    rw [calculate_add, calculate_add, exec_add]
    cases t with
    | amt u n => cases u <;> simp only [AmtTree.toTT, amt, Eval.add, h', OutE.ok_bind]
    | plus a b => simp only [AmtTree.toTT, TT.hadd_def, Eval.add, h', OutE.ok_bind]
    | minus a b => simp only [AmtTree.toTT, TT.hsub_def, Eval.add, h', OutE.ok_bind]

theorem sub_amt_start {c : Cfg} {x y : TT} {m : Moment} (h : exec c (.add x y) = .ok (.moment m)) (u : TUnit) (n : Int) :
    exec c (.sub (.addition x y) (amt u n)) = exec c (.subFromMoment m (amt u n)) := by
  rw [exec_sub]
  cases u <;> simp only [amt, Eval.sub, h, OutE.ok_bind, exec_sub_moment]

theorem start_sub {c : Cfg} {b : TT} {m : Moment} (hb : Start b ∨ ∃ x y, b = .subtraction x y)
    (h : calculate c b = .ok (.moment m)) (t : AmtTree) :
    calculate c (b - t.toTT) = calculate c (.moment m - t.toTT) := by
  rcases hb with hb | ⟨x, y, rfl⟩
  · cases hb with
    | moment m' => rw [calculate_leaf c rfl] at h; cases h; rfl
    | sum x y =>
      have h' : exec c (.add x y) = .ok (.moment m) := by rw [← calculate_add]; exact h
      rw [calculate_sub, calc_sub_moment]
      cases t with
      | amt u n => exact sub_amt_start h' u n
      | plus a b => rw [exec_sub]; simp only [AmtTree.toTT, TT.hadd_def, Eval.sub, h', OutE.ok_bind, exec_sub_moment]
      | minus a b =>
        rw [exec_sub, exec_subFromMoment]
        simp only [AmtTree.toTT, TT.hsub_def, Eval.sub, Eval.subFromMoment]
        rcases C76_amounts c (AmtTree.minus a b).toTT (amtTree_kind _) with ⟨u, n, e⟩ | ⟨e, -⟩
        · have e' : exec c (.sub a.toTT b.toTT) = .ok (amt u n) := by rw [← calculate_sub]; exact e
          rw [e', OutE.ok_bind, OutE.ok_bind]
          exact sub_amt_start h' u n
        · have e' : exec c (.sub a.toTT b.toTT) = .panic := by rw [← calculate_sub]; exact e
          rw [e']; rfl
  · have h' : exec c (.sub x y) = .ok (.moment m) := by rw [← calculate_sub]; exact h
    rw [calculate_sub, calculate_sub, exec_sub]
    cases t with
    | amt u n => cases u <;> simp only [AmtTree.toTT, amt, Eval.sub, h', OutE.ok_bind]
    | plus a b => simp only [AmtTree.toTT, TT.hadd_def, Eval.sub, h', OutE.ok_bind]
    | minus a b => simp only [AmtTree.toTT, TT.hsub_def, Eval.sub, h', OutE.ok_bind]

theorem exact_start {c : Cfg} {now : Moment} {e : ExactDate} {b : TT} (h : e.intoTimetype c now = .ok b) :
    (e ≠ .yesterday ∧ Start b) ∨ (e = .yesterday ∧ b = .subtraction (.moment now) (.days 1)) := by
  cases e with
  | today => cases h; exact .inl ⟨by simp, .moment _⟩
  | yesterday => cases h; exact .inr ⟨rfl, rfl⟩
  | tomorrow => cases h; exact .inl ⟨by simp, .sum _ _⟩
  | iso8601Date d =>
    refine .inl ⟨by simp, ?_⟩
    cases d with
    | ymd y m d =>
      obtain ⟨nd, -, h⟩ := OutE.bind_eq_ok.1 h
      obtain ⟨mm, -, h⟩ := OutE.bind_eq_ok.1 h
      cases h; exact .moment _
    | week y w d =>
      obtain ⟨m, -, h⟩ := OutE.bind_eq_ok.1 h
      obtain ⟨mm, -, h⟩ := OutE.bind_eq_ok.1 h
      cases h; exact .sum _ _
    | ordinal y d =>
      obtain ⟨m, -, h⟩ := OutE.bind_eq_ok.1 h
      cases h; exact .sum _ _
  | iso8601DateTime d =>
    refine .inl ⟨by simp, ?_⟩
    obtain ⟨d, hh, mi, s, ms, t1, t2⟩ := d
    cases d with
    | ymd y m d =>
      obtain ⟨nd, -, h⟩ := OutE.bind_eq_ok.1 h
      cases h; exact .moment _
    | week y w d =>
      obtain ⟨m, -, h⟩ := OutE.bind_eq_ok.1 h
      obtain ⟨mm, -, h⟩ := OutE.bind_eq_ok.1 h
      cases h; exact .sum _ _
    | ordinal y d =>
      obtain ⟨m, -, h⟩ := OutE.bind_eq_ok.1 h
      cases h; exact .sum _ _

theorem amountText_max {a : Amount} {t : List Char} (h : AmountText a t) : InI64 a.number := by
  cases h with
  | number _ _ _ _ hmax => unfold InI64; simp only; omega
  | alias => exact (by decide : InI64 1)

theorem amount_range {a : Amount} (h : InI64 a.number) (hw : a.unit = .week → InI64 (7 * a.number)) : a.tree.InRange := by
  obtain ⟨n, u⟩ := a
  cases u <;> first | exact h | exact hw rfl

theorem amount_fits {a : Amount} (h : InI64 a.number) : a.tree.Fits ↔ (a.unit = .week → InI64 (7 * a.number)) := by
  obtain ⟨n, u⟩ := a
  cases u <;> simp only [Amount.tree, AmtTree.Fits] at * <;> simp [h]

/-- Conversion of the amounts in the checked build: panics only if they do not fit, and gives the tree otherwise. -/
theorem expr_tree (c : Cfg) (hp : c.profile = .debug) {e : AmountExpr} {t : List Char} (h : ExprText e t) :
    (e.intoTimetype c = .panic ∧ ¬ e.tree.Fits) ∨ (e.intoTimetype c = .ok e.tree.toTT ∧ e.tree.InRange) := by
  induction h with
  | @single a _ _ ha _ =>
    have hm := amountText_max ha
    rcases amount_checked c hp a (amountText_pos ha) with ⟨h1, h2, h3⟩ | ⟨h1, v, h3⟩
    · refine .inl ⟨h3, fun hf => ?_⟩
      have := (amount_fits hm).1 hf h1
      unfold InI64 at this; omega
    · have hw : a.unit = .week → InI64 (7 * a.number) := fun hu => by
        have := amountText_pos ha
        unfold InI64
        by_cases h7 : 2 ^ 63 ≤ 7 * a.number
        · exact absurd ⟨hu, h7⟩ h1
        · omega
      exact .inr ⟨a.into_tree hw, amount_range hm hw⟩
  | @cons a op e _ _ _ _ ha _ _ _ ih =>
    have hm := amountText_max ha
    rcases amount_checked c hp a (amountText_pos ha) with ⟨h1, h2, h3⟩ | ⟨h1, v, h3⟩
    · refine .inl ⟨?_, fun hf => ?_⟩
      · cases op <;> simp only [AmountExpr.intoTimetype, h3] <;> rfl
      · have hf' : a.tree.Fits := by cases op <;> exact hf.1
        have := (amount_fits hm).1 hf' h1
        unfold InI64 at this; omega
    · have hw : a.unit = .week → InI64 (7 * a.number) := fun hu => by
        have := amountText_pos ha
        unfold InI64
        by_cases h7 : 2 ^ 63 ≤ 7 * a.number
        · exact absurd ⟨hu, h7⟩ h1
        · omega
      have h3 := a.into_tree (c := c) hw
      rcases ih with ⟨h4, h5⟩ | ⟨h4, h5⟩
      · refine .inl ⟨?_, fun hf => ?_⟩
        · cases op <;> simp only [AmountExpr.intoTimetype, h3, h4] <;> rfl
        · cases op <;> exact h5 hf.2.1
      · refine .inr ⟨?_, ?_⟩
        · cases op <;> simp only [AmountExpr.intoTimetype, h3, h4, OutE.ok_bind, AmountExpr.tree, AmtTree.toTT]
        · cases op <;> exact ⟨amount_range hm hw, h5⟩

theorem exactText_typed {iso : Iso} (hi : IsoSane iso) {e : ExactDate} {t r : List Char} (h : ExactText iso e t r) :
    ExactTyped e := by
  cases h with
  | datetime _ _ h => exact hi.datetimeTyped _ _ _ h
  | date _ _ _ h => exact hi.dateTyped _ _ _ h
  | _ => trivial

theorem wrap_panic {x : Out UserIterator} : wrapIterator x = .panic ↔ x = .panic := by cases x <;> simp [wrapIterator]

theorem ndt_panic {c : Cfg} {x : Out TT} : (x >>= intoNdt c) = .panic ↔ (x >>= calculate c) = .panic := by
  cases x with
  | ok t =>
    rw [OutE.ok_bind, OutE.ok_bind]
    unfold intoNdt
    cases calculate c t with
    | ok v => cases v <;> simp [OutE.ofOption, TT.getMoment]
    | err e => simp
    | panic => simp
    | oof => simp
  | err e => simp
  | panic => simp
  | oof => simp

theorem step_panics (c : Cfg) (hp : c.profile = .debug) {n : Int} {u : TimeUnit} (h0 : 0 ≤ n) :
    (unitToAmount c n u = .panic ∧ u = .week ∧ 2 ^ 63 ≤ 7 * n) ∨
    ((∃ v, unitToAmount c n u = .ok v) ∧ ¬ (u = .week ∧ 2 ^ 63 ≤ 7 * n)) := by
  rcases amount_checked c hp ⟨n, u⟩ h0 with ⟨h1, h2, h3⟩ | ⟨h1, v, h3⟩
  · simp only at h1 h2
    subst h1
    exact .inl ⟨h3, rfl, h2⟩
  · refine .inr ⟨⟨unitAmount u n, unitToAmount_eq c n u fun hu => ?_⟩, h1⟩
    unfold InI64
    by_cases h7 : 2 ^ 63 ≤ 7 * n
    · exact absurd ⟨hu, h7⟩ h1
    · omega

/-- The parts of an iterator text that can panic: the step and the start date. -/
theorem iter_panic {c : Cfg} (hc : Sane c) (hp : c.profile = .debug) {iso : Iso} (hi : IsoSane iso) {now now' : Moment}
    (hn' : now'.Valid c) {d : PDate} {unit : TimeUnit} {n : Int} {u : Option UntilSpec} {t : List Char}
    (h : IterText iso d unit n u t) :
    parse c iso now now' t = .panic ↔
      (unit = .week ∧ 2 ^ 63 ≤ 7 * n) ∨ (d.intoTimetype c now >>= calculate c) = .panic := by
  obtain ⟨step, hs, e⟩ := parse_iterText (c := c) (now := now) (now' := now') h
  rw [e, wrap_panic, ← ndt_panic]
  rcases step_panics c hp (n := n) (u := unit) (iterText_nonneg h).1 with ⟨h1, h2⟩ | ⟨⟨v, h1⟩, h2⟩
  · simp only [PIterator.intoUserIterator, hs, h1, OutE.panic_bind, true_iff]
    exact .inl h2
  · simp only [h2, false_or]
    cases hd : d.intoTimetype c now >>= intoNdt c with
    | panic =>
      simp only [iff_true]
      have hd' : ∀ {β : Type} (f : Moment → Out β), ((d.intoTimetype c now) >>= fun x => intoNdt c x >>= f) = .panic := by
        intro β f
        cases hx : d.intoTimetype c now with
        | ok x => rw [hx, OutE.ok_bind] at hd; rw [OutE.ok_bind, hd]; rfl
        | panic => rfl
        | err e => rw [hx] at hd; cases hd
        | oof => rw [hx] at hd; cases hd
      cases u with
      | none => simp only [PIterator.intoUserIterator, hs, h1, OutE.ok_bind, hd']
      | some u => cases u <;> simp only [PIterator.intoUserIterator, hs, h1, OutE.ok_bind, hd']
    | _ =>
      all_goals
      simp only [reduceCtorEq, iff_false]
      refine np_iterator c now now' ⟨d, step, u⟩ ?_ ?_ ?_ ?_
      · rw [show (PIterator.spec ⟨d, step, u⟩) = step from rfl, hs, h1]; exact NP.ok _
      · intro hx
        rw [show (PIterator.date ⟨d, step, u⟩) = d from rfl] at hx
        rw [hx] at hd; cases hd
      · intro x hx hy
        rw [show (PIterator.date ⟨d, step, u⟩) = d from rfl] at hx
        rw [hx, OutE.ok_bind, hy] at hd; cases hd
      · intro e he
        simp only at he
        subst he
        cases h with
        | mk _ _ _ _ _ _ _ hu _ =>
          cases hu with
          | untilDate hb hex =>
            have hE := safe_exact c now' hn' (exactText_typed hi hex)
            exact ⟨hE.1, fun t ht => safe_ndt c hc ⟨by have := (hE.2 t ht).1; omega, (hE.2 t ht).2⟩⟩

theorem offset_expr {iso : Iso} {d : PDate} {unit : TimeUnit} {n : Int} {u : Option UntilSpec} {t : List Char}
    (h : IterText iso d unit n u t) : (∀ op e, d.offset = some (op, e) → ∃ x, ExprText e x) ∧ (IsoSane iso → ExactTyped d.exact) := by
  cases h with
  | mk _ he ho _ _ _ _ _ _ =>
    refine ⟨?_, fun hi => exactText_typed hi he⟩
    intro op e hh
    cases ho with
    | none => cases hh
    | some _ _ hx => cases hh; exact ⟨_, hx⟩

/-- **C52 (partial).** Exactly which iterator texts make the checked build panic, if the date they start with has a value (and is not
`yesterday` with something added): those with a step of too many weeks, and those where adding (or subtracting) the written
amounts needs numbers beyond 64 bits. Missing: this is about the checked build only, which does panic (`C52_refuted`). -/
theorem C52_iterators_panic_iff_partial (c : Cfg) (hc : Sane c) (hp : c.profile = .debug) (iso : Iso) (hi : IsoSane iso)
    (now now' : Moment) (hn : now.Valid c) (hn' : now'.Valid c) (d : PDate) (unit : TimeUnit) (n : Int) (u : Option UntilSpec)
    (t : List Char) (h : IterText iso d unit n u t) (b : TT) (m : Moment) (hb : exactMeans c now d.exact = .value b)
    (hm : calculate c b = .ok (.moment m)) (hy : d.exact = .yesterday → ∀ e, d.offset ≠ some (.plus, e)) :
    parse c iso now now' t = .panic ↔
      (unit = .week ∧ 2 ^ 63 ≤ 7 * n) ∨
      (∃ e, d.offset = some (.plus, e) ∧ AddOverflows m e.tree) ∨ (∃ e, d.offset = some (.minus, e) ∧ SubOverflows m e.tree) := by
  unmean
  rw [iter_panic hc hp hi hn' h]
  obtain ⟨hx, hty⟩ := offset_expr h
  have hf := (safe_exact c now hn (hty hi)).2 b hb
  have hmv : m.Valid c := ((calculate_safe c hc b (by have := hf.1; omega) hf.2).2 _ hm).2
  refine or_congr Iff.rfl ?_
  obtain ⟨x, o⟩ := d
  simp only at hb hy hx
  simp only [PDate.intoTimetype, hb, OutE.ok_bind]
  cases o with
  | none => simp [hm]
  | some oe =>
    obtain ⟨op, e⟩ := oe
    obtain ⟨tx, ht⟩ := hx op e rfl
    rcases expr_tree c hp ht with ⟨e1, e2⟩ | ⟨e1, e2⟩
    · cases op <;> simp [e1, e2, AddOverflows, SubOverflows]
    · cases op with
      | plus =>
        simp only [e1, OutE.ok_bind, Option.some.injEq, Prod.mk.injEq, true_and, reduceCtorEq, false_and, exists_false, or_false,
          exists_eq_left']
        rcases exact_start hb with ⟨-, hs⟩ | ⟨hs, -⟩
        · rw [start_add hs hm, C93_adding c hc hp m hmv _ e2]
        · exact absurd rfl (hy hs e)
      | minus =>
        simp only [e1, OutE.ok_bind, Option.some.injEq, Prod.mk.injEq, true_and, reduceCtorEq, false_and, exists_false, false_or,
          exists_eq_left']
        rw [start_sub ?_ hm, C93_subtracting c hc hp m hmv _ e2]
        rcases exact_start hb with ⟨-, hs⟩ | ⟨-, hs⟩
        · exact .inl hs
        · exact .inr ⟨_, _, hs⟩

example (iso : Iso) : IterText iso ⟨.tomorrow, some (.plus, .cons ⟨2, .hour⟩ .minus (.single ⟨30, .minute⟩))⟩ .week 2 (some (.times 3))
      "tomorrow + 2 hours - 30 min every 2 weeks 3 times".toList ∧
    calculate (std .debug) (.moment (at_ 2017 6 15 0 0 0) + .days 1) = .ok (.moment (at_ 2017 6 16 0 0 0)) ∧
    ¬ AddOverflows (at_ 2017 6 16 0 0 0) (AmountExpr.cons ⟨2, .hour⟩ .minus (.single ⟨30, .minute⟩)).tree := by
  refine ⟨?_, by decide +kernel, by decide +kernel⟩
  exact .mk (b0 := []) (dt := "tomorrow".toList) (ot := " + 2 hours - 30 min".toList) (b1 := [' ']) (st := "every 2 weeks".toList)
    (b2 := [' ']) (ut := "3 times".toList) (by decide) (.tomorrow _)
    (.some (b := [' ']) (b' := [' ']) (t := "2 hours - 30 min".toList) (by decide) (by decide)
      (.cons (t := "2 hours".toList) (b := [' ']) (b' := [' ']) (t' := "30 min".toList)
        (.number (b := []) (ds := ['2']) (b' := [' ']) (name := "hours") (by decide) (by decide) (by decide) (by decide) (by decide))
        (by decide) (by decide)
        (.single (b := []) (.number (b := []) (ds := ['3', '0']) (b' := [' ']) (name := "min") (by decide) (by decide) (by decide)
          (by decide) (by decide)) (by decide))))
    (by decide) (by decide)
    (.every (b := [' ']) (ds := ['2']) (b' := [' ']) (name := "weeks") (by decide) (by decide) (by decide) (by decide) (by decide))
    (by decide) (.times (ds := ['3']) (b := [' ']) (by decide) (by decide) (by decide)) (by decide)

theorem sub_plus_tree {c : Cfg} {x y : TT} (hb : (∃ m, calculate c (.subtraction x y) = .ok (.moment m)) ∨
    ∃ e, calculate c (.subtraction x y) = .err e) (t : AmtTree) :
    calculate c (.subtraction x y + t.toTT) = .panic ↔ (∃ p q, t = .plus p q) ∧ calculate c t.toTT = .panic := by
  have hb : (∃ m, exec c (.sub x y) = .ok (.moment m)) ∨ ∃ e, exec c (.sub x y) = .err e := by
    simpa only [← TT.hsub_def, calculate_sub] using hb
  have amt_case : ∀ u n, exec c (.add (.subtraction x y) (amt u n)) ≠ .panic := by
    intro u n
    rw [exec_add]
    rcases hb with ⟨m, h⟩ | ⟨e, h⟩ <;> cases u <;> simp only [amt, Eval.add, h, OutE.ok_bind, OutE.err_bind] <;>
      first | exact (nomatch ·) | (rw [exec_add]; simp only [Eval.add]; exact (nomatch ·))
  rw [calculate_add]
  cases t with
  | amt u n =>
    refine ⟨fun h => absurd h (amt_case u n), ?_⟩
    rintro ⟨⟨p, q, h⟩, -⟩
    cases h
  | plus p q =>
    have e1 : calculate c (AmtTree.plus p q).toTT = exec c (.add p.toTT q.toTT) := calculate_add c _ _
    rw [exec_add]
    simp only [AmtTree.toTT, TT.hadd_def, Eval.add]
    rcases C76_amounts c (AmtTree.plus p q).toTT (amtTree_kind _) with ⟨u, n, h⟩ | ⟨h, -⟩
    · have h' := h
      rw [e1] at h'
      rw [h', OutE.ok_bind]
      refine ⟨fun h => absurd h (amt_case u n), fun h2 => ?_⟩
      have := h2.2
      rw [← TT.hadd_def, calculate_add, h'] at this
      cases this
    · have h' := h
      rw [e1] at h'
      rw [h', OutE.panic_bind]
      exact ⟨fun _ => ⟨⟨p, q, rfl⟩, h⟩, fun _ => rfl⟩
  | minus p q =>
    refine ⟨fun h => ?_, fun h => ?_⟩
    · exfalso
      revert h
      rw [exec_add]
      simp only [AmtTree.toTT, TT.hsub_def, Eval.add]
      rcases hb with ⟨m, h⟩ | ⟨e, h⟩
      · rw [h, OutE.ok_bind, exec_add]
        simp only [Eval.add]
        exact (nomatch ·)
      · rw [h]; exact (nomatch ·)
    · obtain ⟨⟨_, _, h⟩, -⟩ := h
      cases h

/-- **C52 (partial).** "yesterday + …" is always an error, but the checked build panics before that if the step has too many weeks, if one
of the amounts has too many weeks, or if a sum of amounts needs numbers beyond 64 bits. Missing: as above. -/
theorem C52_yesterday_panic_iff_partial (c : Cfg) (hc : Sane c) (hp : c.profile = .debug) (iso : Iso) (hi : IsoSane iso)
    (now now' : Moment) (hn : now.Valid c) (hn' : now'.Valid c) (e : AmountExpr) (unit : TimeUnit) (n : Int) (u : Option UntilSpec)
    (t : List Char) (h : IterText iso ⟨.yesterday, some (.plus, e)⟩ unit n u t) :
    parse c iso now now' t = .panic ↔
      (unit = .week ∧ 2 ^ 63 ≤ 7 * n) ∨ (∃ a ∈ exprAmounts e, a.unit = .week ∧ 2 ^ 63 ≤ 7 * a.number) ∨
      (∃ a e', e = .cons a .plus e') ∧ ¬ e.tree.Fits := by
  rw [iter_panic hc hp hi hn' h]
  obtain ⟨hx, -⟩ := offset_expr h
  refine or_congr Iff.rfl ?_
  obtain ⟨tx, ht⟩ := hx .plus e rfl
  have hb : (∃ m, calculate c (.subtraction (.moment now) (.days 1)) = .ok (.moment m)) ∨
      ∃ e, calculate c (.subtraction (.moment now) (.days 1)) = .err e := by
    have hs := calculate_safe c hc (.subtraction (.moment now) (.days 1)) (by simp [total]) ⟨hn, trivial⟩
    rcases C76_moments c (.subtraction (.moment now) (.days 1)) rfl with h | ⟨_, _, _, _, _, _, h⟩ | ⟨h, -⟩
    · exact .inl h
    · exact .inr ⟨_, h⟩
    · exact absurd h hs.1
  rcases expr_checked c hp e (exprText_pos ht) with ⟨h1, h2⟩ | ⟨h1, v, h2⟩
  · simp only [PDate.intoTimetype, ExactDate.intoTimetype, OutE.ok_bind, h2, OutE.panic_bind, true_iff]
    exact .inl h1
  · rcases expr_tree c hp ht with ⟨e1, e2⟩ | ⟨e1, e2⟩
    · rw [e1] at h2; cases h2
    · simp only [h1, false_or]
      simp only [PDate.intoTimetype, ExactDate.intoTimetype, OutE.ok_bind, e1]
      rw [show (TT.moment now - TT.days 1 + e.tree.toTT) = (.subtraction (.moment now) (.days 1) + e.tree.toTT) from rfl,
        sub_plus_tree hb, C93_panics_iff c hp _ e2]
      refine and_congr ?_ Iff.rfl
      cases e with
      | single a => obtain ⟨k, un⟩ := a; cases un <;> simp [AmountExpr.tree, Amount.tree]
      | cons a op e' => cases op <;> simp [AmountExpr.tree]

example := C52_yesterday_panic_iff_partial (std .debug) (sane_std _) rfl noIso isoSane_noIso (at_ 2017 2 28 8 30 0) (at_ 2017 2 28 8 30 0) (by decide) (by decide)
  _ _ _ _ _ sample_offset

/-- **C52 (partial).** If the text of the start date itself names no date, only the step can make the checked build panic. -/
theorem C52_no_date_panic_iff_partial (c : Cfg) (hc : Sane c) (hp : c.profile = .debug) (iso : Iso) (hi : IsoSane iso)
    (now now' : Moment) (hn' : now'.Valid c) (d : PDate) (unit : TimeUnit) (n : Int) (u : Option UntilSpec)
    (t : List Char) (h : IterText iso d unit n u t) (er : ErrorKind) (hb : exactMeans c now d.exact = .refused er) :
    parse c iso now now' t = .panic ↔ unit = .week ∧ 2 ^ 63 ≤ 7 * n := by
  unmean
  rw [iter_panic hc hp hi hn' h]
  simp only [PDate.intoTimetype, hb, OutE.err_bind, reduceCtorEq, or_false]

/-- A date that is none: 30 February. -/
example (iso : Iso) (hi : IsoSane iso) (t : List Char) (h : IterText iso ⟨.iso8601Date (.ymd 2017 2 30), none⟩ .day 1 none t) :=
  C52_no_date_panic_iff_partial (std .debug) (sane_std _) rfl iso hi (at_ 2017 2 28 8 30 0) (at_ 2017 2 28 8 30 0) (by decide) _ _ _ _ t h
    (.outOfBounds 2017 2 30 0 0 0) rfl

theorem fail_minus {c : Cfg} {b : TT} {er : ErrorKind} (hb : Start b) (h : calculate c b = .err er) (t : AmtTree) :
    calculate c (b - t.toTT) = .panic ↔ (∃ p q, t = .minus p q) ∧ calculate c t.toTT = .panic := by
  cases hb with
  | moment m => rw [calculate_leaf c rfl] at h; cases h
  | sum x y =>
    have h' : exec c (.add x y) = .err er := by rw [← calculate_add]; exact h
    have amt_case : ∀ u n, exec c (.sub (.addition x y) (amt u n)) ≠ .panic := by
      intro u n
      rw [exec_sub]
      cases u <;> simp only [amt, Eval.sub, h', OutE.err_bind] <;> exact (nomatch ·)
    rw [calculate_sub]
    cases t with
    | amt u n =>
      refine ⟨fun h => absurd h (amt_case u n), ?_⟩
      rintro ⟨⟨p, q, h⟩, -⟩
      cases h
    | plus p q =>
      refine ⟨fun h => ?_, fun h => ?_⟩
      · rw [exec_sub] at h
        simp only [AmtTree.toTT, TT.hadd_def, Eval.sub, h', OutE.err_bind] at h
        cases h
      · obtain ⟨⟨_, _, h⟩, -⟩ := h
        cases h
    | minus p q =>
      have e1 : calculate c (AmtTree.minus p q).toTT = exec c (.sub p.toTT q.toTT) := calculate_sub c _ _
      rw [exec_sub]
      simp only [AmtTree.toTT, TT.hsub_def, Eval.sub]
      rcases C76_amounts c (AmtTree.minus p q).toTT (amtTree_kind _) with ⟨u, n, h⟩ | ⟨h, -⟩
      · have h2 := h
        rw [e1] at h2
        rw [h2, OutE.ok_bind]
        refine ⟨fun h => absurd h (amt_case u n), fun h3 => ?_⟩
        have := h3.2
        rw [← TT.hsub_def, calculate_sub, h2] at this
        cases this
      · have h2 := h
        rw [e1] at h2
        rw [h2, OutE.panic_bind]
        exact ⟨fun _ => ⟨⟨p, q, rfl⟩, h⟩, fun _ => rfl⟩

theorem fail_plus {c : Cfg} {b : TT} {er : ErrorKind} (hb : Start b) (h : calculate c b = .err er) (t : AmtTree) :
    calculate c (b + t.toTT) = .err er := by
  cases hb with
  | moment m => rw [calculate_leaf c rfl] at h; cases h
  | sum x y =>
    have h' : exec c (.add x y) = .err er := by rw [← calculate_add]; exact h
    rw [calculate_add, exec_add]
    cases t with
    | amt u n => cases u <;> simp only [AmtTree.toTT, amt, Eval.add, h', OutE.err_bind]
    | plus a b => simp only [AmtTree.toTT, TT.hadd_def, Eval.add, h', OutE.err_bind]
    | minus a b => simp only [AmtTree.toTT, TT.hsub_def, Eval.add, h', OutE.err_bind]

theorem fail_sub_minus {c : Cfg} {x y : TT} {er : ErrorKind} (h : calculate c (.subtraction x y) = .err er) (t : AmtTree) :
    calculate c (.subtraction x y - t.toTT) = .err er := by
  have h' : exec c (.sub x y) = .err er := by rw [← calculate_sub]; exact h
  rw [calculate_sub, exec_sub]
  cases t with
  | amt u n => cases u <;> simp only [AmtTree.toTT, amt, Eval.sub, h', OutE.err_bind]
  | plus a b => simp only [AmtTree.toTT, TT.hadd_def, Eval.sub, h', OutE.err_bind]
  | minus a b => simp only [AmtTree.toTT, TT.hsub_def, Eval.sub, h', OutE.err_bind]

/-- **C52 (partial).** If the start date lies outside the calendar (as `tomorrow` does on its last day), the checked build panics if the
step or an amount has too many weeks, or if a difference of amounts that is subtracted needs numbers beyond 64 bits: that
one is evaluated first. (For "yesterday + …" see `C52_yesterday_panic_iff_partial`.) -/
theorem C52_outside_panic_iff_partial (c : Cfg) (hc : Sane c) (hp : c.profile = .debug) (iso : Iso) (hi : IsoSane iso)
    (now now' : Moment) (hn' : now'.Valid c) (d : PDate) (unit : TimeUnit) (n : Int) (u : Option UntilSpec)
    (t : List Char) (h : IterText iso d unit n u t) (b : TT) (er : ErrorKind) (hb : exactMeans c now d.exact = .value b)
    (hm : calculate c b = .err er) (hy : d.exact = .yesterday → ∀ e, d.offset ≠ some (.plus, e)) :
    parse c iso now now' t = .panic ↔
      (unit = .week ∧ 2 ^ 63 ≤ 7 * n) ∨
      (∃ op e, d.offset = some (op, e) ∧ ∃ a ∈ exprAmounts e, a.unit = .week ∧ 2 ^ 63 ≤ 7 * a.number) ∨
      (d.exact ≠ .yesterday ∧ ∃ a e', d.offset = some (.minus, .cons a .minus e') ∧ ¬ (AmountExpr.cons a .minus e').tree.Fits) := by
  unmean
  rw [iter_panic hc hp hi hn' h]
  obtain ⟨hx, -⟩ := offset_expr h
  refine or_congr Iff.rfl ?_
  obtain ⟨x, o⟩ := d
  simp only at hb hy hx
  simp only [PDate.intoTimetype, hb, OutE.ok_bind]
  cases o with
  | none => simp [hm]
  | some oe =>
    obtain ⟨op, e⟩ := oe
    obtain ⟨tx, ht⟩ := hx op e rfl
    rcases expr_checked c hp e (exprText_pos ht) with ⟨h1, h2⟩ | ⟨h1, v, h2⟩
    · refine ⟨fun _ => .inl ⟨op, e, rfl, h1⟩, fun _ => ?_⟩
      cases op <;> simp only [h2, OutE.panic_bind]
    · rcases expr_tree c hp ht with ⟨e1, e2⟩ | ⟨e1, e2⟩
      · rw [e1] at h2; cases h2
      have hw : ¬ ∃ op' e', some (op, e) = some (op', e') ∧ ∃ a ∈ exprAmounts e', a.unit = .week ∧ 2 ^ 63 ≤ 7 * a.number := by
        rintro ⟨op', e', h3, h4⟩
        cases h3
        exact h1 h4
      simp only [hw, false_or]
      cases op with
      | plus =>
        simp only [e1, OutE.ok_bind]
        rcases exact_start hb with ⟨-, hs⟩ | ⟨hs, -⟩
        · rw [fail_plus hs hm]; simp
        · exact absurd rfl (hy hs e)
      | minus =>
        simp only [e1, OutE.ok_bind]
        rcases exact_start hb with ⟨hz, hs⟩ | ⟨hz, rfl⟩
        · rw [fail_minus hs hm, C93_panics_iff c hp _ e2]
          constructor
          · rintro ⟨⟨p, q, h3⟩, h4⟩
            refine ⟨hz, ?_⟩
            cases e with
            | single a => obtain ⟨k, un⟩ := a; cases un <;> simp [AmountExpr.tree, Amount.tree] at h3
            | cons a op e' =>
              cases op with
              | plus => simp [AmountExpr.tree] at h3
              | minus => exact ⟨a, e', rfl, h4⟩
          · rintro ⟨-, a, e', h3, h4⟩
            cases h3
            exact ⟨⟨_, _, rfl⟩, h4⟩
        · rw [fail_sub_minus hm]; simp [hz]

example : (at_ 262143 12 31 23 59 59).Valid (std .debug) ∧
    exactMeans (std .debug) (at_ 262143 12 31 23 59 59) .tomorrow =
      .value (.moment (at_ 262143 12 31 23 59 59) + .days 1) ∧
    calculate (std .debug) (.moment (at_ 262143 12 31 23 59 59) + .days 1) = .err (.outOfBounds 262144 1 23 23 59 59) := by
  decide +kernel

/-- "yesterday + 1 day + 1 day weekly". -/
example (iso : Iso) : IterText iso ⟨.yesterday, some (.plus, .cons ⟨1, .day⟩ .plus (.single ⟨1, .day⟩))⟩ .week 1 none
      "yesterday + 1 day + 1 day weekly".toList := by
  exact .mk (b0 := []) (dt := "yesterday".toList) (ot := " + 1 day + 1 day".toList) (b1 := [' ']) (st := "weekly".toList)
    (b2 := []) (ut := []) (by decide) (.yesterday _)
    (.some (b := [' ']) (b' := [' ']) (t := "1 day + 1 day".toList) (by decide) (by decide)
      (.cons (t := "1 day".toList) (b := [' ']) (b' := [' ']) (t' := "1 day".toList)
        (.number (b := []) (ds := ['1']) (b' := [' ']) (name := "day") (by decide) (by decide) (by decide) (by decide) (by decide))
        (by decide) (by decide)
        (.single (b := []) (.number (b := []) (ds := ['1']) (b' := [' ']) (name := "day") (by decide) (by decide) (by decide)
          (by decide) (by decide)) (by decide))))
    (by decide) (by decide) (.alias .week) (by decide) .none (by decide)

/-- A calendar date that does not exist names no date. -/
example : exactMeans (std .debug) (at_ 2017 6 15 0 0 0) (.iso8601Date (.ymd 2017 2 30)) =
    .refused (.outOfBounds 2017 2 30 0 0 0) := by decide +kernel

end Props
