import Verif.Source.AgreeIterBuild
import Verif.Source.Iter

/-! The hand-written model of the iterators of src/iter.rs agrees with the mechanical translation of
their text. -/

namespace Kairos.Source

variable {σ : Type}

/-- What the model says a call of `next` did (src/iter.rs:80, 111, 159, 204, 262), in the form the translation has it. -/
def ofItem : σ × Item → OutE Empty (Option (Except ErrorKind TT) × σ)
  | (s, none) => .ok (none, s)
  | (s, some (.ok t)) => .ok (some (.ok t), s)
  | (s, some (.err e)) => .ok (some (.error e), s)
  | (_, some .panic) => .panic
  | (_, some .oof) => .oof

/-- What the model says a call of `skip` or `rollback` did (src/iter.rs:45-63), in the form the translation has it. -/
def ofUnit : σ × Out Unit → OutE Empty (Except ErrorKind Unit × σ)
  | (s, .ok ()) => .ok (.ok (), s)
  | (s, .err e) => .ok (.error e, s)
  | (_, .panic) => .panic
  | (_, .oof) => .oof

/-- `next` is the translated counterpart of the model's `nx` (for the inner iterator of src/iter.rs:92, 140, 188, 236). -/
def Same (next : Rs.M σ (Option (Except ErrorKind TT))) (nx : σ → σ × Item) : Prop :=
  ∀ s, next s = ofItem (nx s)

theorem TimeType.add_assign_eq (c : Cfg) (a b : TT) : TimeType.add_assign c a b = .ok (a + b) := rfl
theorem TimeType.sub_assign_eq (c : Cfg) (a b : TT) : TimeType.sub_assign c a b = .ok (a - b) := rfl

theorem Iter.recalculate_eq (c : Cfg) (it : Iter) :
    Iter.recalculate c it = ofUnit (it.recalculate c) := by
  unfold Kairos.Iter.recalculate
  show (Rs.result (TimeType.calculate c it.base) it >>= _) = _
  rw [TimeType.calculate_eq]
  cases Kairos.calculate c it.base <;> rfl

theorem Iter.skip_eq (c : Cfg) (it : Iter) : Iter.skip c it = ofUnit (it.skip c) := by
  unfold Kairos.Iter.skip
  rw [← Iter.recalculate_eq]
  rfl

theorem Iter.rollback_eq (c : Cfg) (it : Iter) : Iter.rollback c it = ofUnit (it.rollback c) := by
  unfold Kairos.Iter.rollback
  rw [← Iter.recalculate_eq]
  rfl

theorem Iter.next_eq (c : Cfg) : Same (Iter.next c) (Kairos.Iter.next c) := by
  intro it
  obtain ⟨b, i, f⟩ := it
  cases f with
  | false => rfl
  | true =>
    unfold Kairos.Iter.next
    have h := Iter.skip_eq c ⟨b, i, true⟩
    show (Iter.skip c ⟨b, i, true⟩ >>= _) = _
    rw [h]
    simp only [Bool.not_true, Bool.false_eq_true, if_false]
    rcases Kairos.Iter.skip c ⟨b, i, true⟩ with ⟨s, r⟩
    cases r <;> rfl

theorem TimesIter.next_eq (c : Cfg) {next : Rs.M σ (Option (Except ErrorKind TT))}
    {nx : σ → σ × Item} (h : Same next nx) : Same (TimesIter.next c next) (timesNext c nx) := by
  intro s
  obtain ⟨inner, times, count⟩ := s
  unfold timesNext
  by_cases hc : times = count
  · subst hc
    simp only [if_true]
    show (if times == times then _ else _ : Rs.M _ _) _ = _
    simp only [beq_self_eq_true, if_true]
    rfl
  · simp only [if_neg hc]
    show (if times == count then _ else _ : Rs.M _ _) _ = _
    simp only [beq_eq_false_iff_ne.mpr hc, Bool.false_eq_true, if_false]
    show (Rs.value (c.add count 1 : Out Int) _ >>= _) = _
    cases ha : (c.add count 1 : Out Int) with
    | ok n =>
      show Rs.zoom (fun s => s.inner) (fun s i => { s with inner := i }) next
        (⟨inner, times, n⟩ : TimesState σ) = _
      simp only [Rs.zoom, h inner]
      rcases nx inner with ⟨s', r⟩
      rcases r with _ | r
      · rfl
      · cases r <;> rfl
    | err e => exact absurd ha (chk_ne_err _ _ _)
    | panic => rfl
    | oof => rfl

theorem UntilIter.next_eq (c : Cfg) {next : Rs.M σ (Option (Except ErrorKind TT))}
    {nx : σ → σ × Item} (h : Same next nx) (ending : Moment) (s : σ) :
    UntilIter.next c next (s, ending) =
      ofItem (((untilNext c nx ending s).1, ending), (untilNext c nx ending s).2) := by
  unfold untilNext
  show (Rs.zoom _ _ next (s, ending) >>= _) = _
  simp only [Rs.zoom, h s]
  rcases nx s with ⟨s', r⟩
  rcases r with _ | r
  · rfl
  · cases r with
    | ok tt =>
      simp only [ofItem, OutE.ok_bind, TimeType.calculate_eq]
      rcases hc : Kairos.calculate c tt with v | e | _ | _
      · cases v
        case moment m =>
          show (if m.lt ending then _ else _ : Rs.M (σ × Moment) _) (s', ending) = _
          simp only [TT.getMoment]
          cases m.lt ending <;> rfl
        all_goals rfl
      · rfl
      · rfl
      · rfl
    | err e => rfl
    | panic => rfl
    | oof => rfl

/-- One round of the `loop` of `FilterIter::next` — src/iter.rs:112-122. -/
def filterStep (next : Rs.M σ (Option (Except ErrorKind TT))) :
    Rs.M (σ × (TT → Out Bool)) (Option (Option (Except ErrorKind TT))) := do
  let t1 ← Rs.zoom (fun s => s.1) (fun s i => (i, s.2)) next
  (match t1 with
    | .none => pure (some none)
    | (.some (.error e)) => pure (some (some (Except.error e)))
    | (.some (.ok tt)) => do
        let t2 ← Rs.result (((← get).2) tt)
        (match t2 with
          | (.ok false) => pure none
          | (.ok true) => pure (some (some (Except.ok tt)))
          | (.error e) => pure (some (some (Except.error e)))))

theorem FilterIter.next_loop (c : Cfg) (next : Rs.M σ (Option (Except ErrorKind TT)))
    (s : σ × (TT → Out Bool)) : FilterIter.next c next s = Rs.loop (filterStep next) s := rfl

theorem filterStep_eq {next : Rs.M σ (Option (Except ErrorKind TT))} {nx : σ → σ × Item}
    (h : Same next nx) (m : TT → Out Bool) (s : σ) :
    filterStep next (s, m) =
      match nx s with
      | (s', none) => .ok (some none, (s', m))
      | (s', some (.ok tt)) =>
        (match m tt with
        | .ok false => .ok (none, (s', m))
        | .ok true => .ok (some (some (.ok tt)), (s', m))
        | .err e => .ok (some (some (.error e)), (s', m))
        | .panic => .panic
        | .oof => .oof)
      | (s', some (.err e)) => .ok (some (some (.error e)), (s', m))
      | (_, some .panic) => .panic
      | (_, some .oof) => .oof := by
  unfold filterStep
  show (Rs.zoom _ _ next (s, m) >>= _) = _
  simp only [Rs.zoom, h s]
  rcases nx s with ⟨s', r⟩
  rcases r with _ | r
  · rfl
  · cases r with
    | ok tt =>
      simp only [ofItem, OutE.ok_bind]
      show (Rs.result (m tt) _ >>= _) = _
      rcases m tt with v | _ | _ | _
      · cases v <;> rfl
      all_goals rfl
    | err e => rfl
    | panic => rfl
    | oof => rfl

/-- If the model finds an answer within `n` rounds, the source returns it. -/
theorem FilterIter.next_eq (c : Cfg) {next : Rs.M σ (Option (Except ErrorKind TT))}
    {nx : σ → σ × Item} (h : Same next nx) (m : TT → Out Bool) (n : Nat) (s : σ)
    (hn : (filterNext nx m n s).2 ≠ some .oof) :
    FilterIter.next c next (s, m) =
      ofItem (((filterNext nx m n s).1, m), (filterNext nx m n s).2) := by
  rw [FilterIter.next_loop]
  induction n generalizing s with
  | zero => exact absurd rfl hn
  | succ n ih =>
    rw [Rs.loop.eq_def, filterStep_eq h]
    unfold filterNext at hn ⊢
    rcases hs : nx s with ⟨s', r⟩
    simp only [hs] at hn ⊢
    rcases r with _ | r
    · rfl
    · cases r with
      | ok tt =>
        simp only at hn ⊢
        rcases hm : m tt with v | _ | _ | _ <;> simp only [hm] at hn ⊢
        · cases v with
          | false => exact ih s' hn
          | true => rfl
        all_goals rfl
      | err e => rfl
      | panic => rfl
      | oof => rfl

/-- If the model finds no answer in any number of rounds, the source does not return. -/
theorem FilterIter.next_diverges (c : Cfg) {next : Rs.M σ (Option (Except ErrorKind TT))}
    {nx : σ → σ × Item} (h : Same next nx) (m : TT → Out Bool) (s : σ)
    (hs : ∀ n, (filterNext nx m n s).2 = some .oof) :
    FilterIter.next c next (s, m) = .oof := by
  rw [FilterIter.next_loop]
  revert hs
  suffices H : ∀ s : σ × (TT → Out Bool), s.2 = m →
      (∀ n, (filterNext nx m n s.1).2 = some .oof) → Rs.loop (filterStep next) s = .oof by
    exact H (s, m) rfl
  refine Rs.loop.fixpoint_induct (filterStep next)
    (fun f => ∀ s : σ × (TT → Out Bool), s.2 = m →
      (∀ n, (filterNext nx m n s.1).2 = some .oof) → f s = .oof) ?_ ?_
  · apply Lean.Order.admissible_pi_apply
      (P := fun (s : σ × (TT → Out Bool)) (x : OutE Empty (Option (Except ErrorKind TT) × (σ × (TT → Out Bool)))) =>
        s.2 = m → (∀ n, (filterNext nx m n s.1).2 = some .oof) → x = .oof)
    intro s
    exact Lean.Order.admissible_flatOrder (b := OutE.oof) _ (fun _ _ => rfl)
  · rintro f hf ⟨s, m'⟩ rfl hs
    simp only at hs hf ⊢
    rw [filterStep_eq h]
    have h1 := hs 1
    have hn := fun n => hs (n + 1)
    simp only [filterNext] at h1 hn
    rcases hx : nx s with ⟨s', r⟩
    simp only [hx] at h1 hn
    rcases r with _ | r
    · simp at h1
    · cases r with
      | ok tt =>
        simp only at h1 hn ⊢
        rcases hm : m' tt with v | _ | _ | _ <;> simp only [hm] at h1 hn ⊢
        · cases v with
          | false => exact hf (s', m') rfl hn
          | true => simp at h1
        · simp at h1
        · simp at h1
        · rfl
      | err e => simp at h1
      | panic => simp at h1
      | oof => rfl

/-- One round of the `loop` of `WithoutIter::next` — src/iter.rs:160-170. -/
def withoutStep (next : Rs.M σ (Option (Except ErrorKind TT))) :
    Rs.M (σ × (TT → Out Bool)) (Option (Option (Except ErrorKind TT))) := do
  let t1 ← Rs.zoom (fun s => s.1) (fun s i => (i, s.2)) next
  (match t1 with
    | .none => pure (some none)
    | (.some (.error e)) => pure (some (some (Except.error e)))
    | (.some (.ok tt)) => do
        let t2 ← Rs.result (((← get).2) tt)
        (match t2 with
          | (.ok false) => pure (some (some (Except.ok tt)))
          | (.ok true) => pure none
          | (.error e) => pure (some (some (Except.error e)))))

theorem WithoutIter.next_loop (c : Cfg) (next : Rs.M σ (Option (Except ErrorKind TT)))
    (s : σ × (TT → Out Bool)) : WithoutIter.next c next s = Rs.loop (withoutStep next) s := rfl

theorem withoutStep_eq {next : Rs.M σ (Option (Except ErrorKind TT))} {nx : σ → σ × Item}
    (h : Same next nx) (m : TT → Out Bool) (s : σ) :
    withoutStep next (s, m) =
      match nx s with
      | (s', none) => .ok (some none, (s', m))
      | (s', some (.ok tt)) =>
        (match m tt with
        | .ok false => .ok (some (some (.ok tt)), (s', m))
        | .ok true => .ok (none, (s', m))
        | .err e => .ok (some (some (.error e)), (s', m))
        | .panic => .panic
        | .oof => .oof)
      | (s', some (.err e)) => .ok (some (some (.error e)), (s', m))
      | (_, some .panic) => .panic
      | (_, some .oof) => .oof := by
  unfold withoutStep
  show (Rs.zoom _ _ next (s, m) >>= _) = _
  simp only [Rs.zoom, h s]
  rcases nx s with ⟨s', r⟩
  rcases r with _ | r
  · rfl
  · cases r with
    | ok tt =>
      simp only [ofItem, OutE.ok_bind]
      show (Rs.result (m tt) _ >>= _) = _
      rcases m tt with v | _ | _ | _
      · cases v <;> rfl
      all_goals rfl
    | err e => rfl
    | panic => rfl
    | oof => rfl

/-- If the model finds an answer within `n` rounds, the source returns it. -/
theorem WithoutIter.next_eq (c : Cfg) {next : Rs.M σ (Option (Except ErrorKind TT))}
    {nx : σ → σ × Item} (h : Same next nx) (m : TT → Out Bool) (n : Nat) (s : σ)
    (hn : (withoutNext nx m n s).2 ≠ some .oof) :
    WithoutIter.next c next (s, m) =
      ofItem (((withoutNext nx m n s).1, m), (withoutNext nx m n s).2) := by
  rw [WithoutIter.next_loop]
  induction n generalizing s with
  | zero => exact absurd rfl hn
  | succ n ih =>
    rw [Rs.loop.eq_def, withoutStep_eq h]
    unfold withoutNext at hn ⊢
    rcases hs : nx s with ⟨s', r⟩
    simp only [hs] at hn ⊢
    rcases r with _ | r
    · rfl
    · cases r with
      | ok tt =>
        simp only at hn ⊢
        rcases hm : m tt with v | _ | _ | _ <;> simp only [hm] at hn ⊢
        · cases v with
          | true => exact ih s' hn
          | false => rfl
        all_goals rfl
      | err e => rfl
      | panic => rfl
      | oof => rfl

/-- If the model finds no answer in any number of rounds, the source does not return. -/
theorem WithoutIter.next_diverges (c : Cfg) {next : Rs.M σ (Option (Except ErrorKind TT))}
    {nx : σ → σ × Item} (h : Same next nx) (m : TT → Out Bool) (s : σ)
    (hs : ∀ n, (withoutNext nx m n s).2 = some .oof) :
    WithoutIter.next c next (s, m) = .oof := by
  rw [WithoutIter.next_loop]
  revert hs
  suffices H : ∀ s : σ × (TT → Out Bool), s.2 = m →
      (∀ n, (withoutNext nx m n s.1).2 = some .oof) → Rs.loop (withoutStep next) s = .oof by
    exact H (s, m) rfl
  refine Rs.loop.fixpoint_induct (withoutStep next)
    (fun f => ∀ s : σ × (TT → Out Bool), s.2 = m →
      (∀ n, (withoutNext nx m n s.1).2 = some .oof) → f s = .oof) ?_ ?_
  · apply Lean.Order.admissible_pi_apply
      (P := fun (s : σ × (TT → Out Bool)) (x : OutE Empty (Option (Except ErrorKind TT) × (σ × (TT → Out Bool)))) =>
        s.2 = m → (∀ n, (withoutNext nx m n s.1).2 = some .oof) → x = .oof)
    intro s
    exact Lean.Order.admissible_flatOrder (b := OutE.oof) _ (fun _ _ => rfl)
  · rintro f hf ⟨s, m'⟩ rfl hs
    simp only at hs hf ⊢
    rw [withoutStep_eq h]
    have h1 := hs 1
    have hn := fun n => hs (n + 1)
    simp only [withoutNext] at h1 hn
    rcases hx : nx s with ⟨s', r⟩
    simp only [hx] at h1 hn
    rcases r with _ | r
    · simp at h1
    · cases r with
      | ok tt =>
        simp only at h1 hn ⊢
        rcases hm : m' tt with v | _ | _ | _ <;> simp only [hm] at h1 hn ⊢
        · cases v with
          | true => exact hf (s', m') rfl hn
          | false => simp at h1
        · simp at h1
        · simp at h1
        · rfl
      | err e => simp at h1
      | panic => simp at h1
      | oof => rfl

end Kairos.Source
