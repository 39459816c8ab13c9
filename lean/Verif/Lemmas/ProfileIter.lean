import Verif.Lemmas.Profile
import Verif.Model.Main
import Verif.Spec.Sequence

/-! The two build profiles on iterators, texts and the program. -/

namespace Kairos
open Spec Parser

variable (c : Cfg) {σ : Type}

theorem agree_weeks (n : Int) : Agree (TT.weeks c.debug n) (TT.weeks c.release n) :=
  (agree_chk c _).bind fun _ => .refl _

/-- A call of `next` panics with overflow checks, or both builds do the same. -/
def StepAgree (nx nx' : σ → σ × Item) : Prop := ∀ s, (nx s).2 = some .panic ∨ nx s = nx' s

theorem StepAgree.nth {nx nx' : σ → σ × Item} (h : StepAgree nx nx') (n : Nat) :
    ∀ s, (∀ k, k < n → Spec.nth nx k s ≠ some .panic) → ∀ k, k < n → Spec.nth nx' k s = Spec.nth nx k s := by
  induction n with
  | zero => intro s _ k hk; omega
  | succ n ih =>
    intro s hp k hk
    have h0 := h s
    have hne := hp 0 (by omega)
    have heq : nx s = nx' s := h0.resolve_left hne
    cases k with
    | zero => show (nx' s).2 = (nx s).2; rw [heq]
    | succ k =>
      show Spec.nth nx' k (nx' s).1 = Spec.nth nx k (nx s).1
      rw [← heq]
      exact ih _ (fun j hj => hp (j + 1) (by omega)) k (by omega)

theorem recalculate_agree (it : Iter) :
    (it.recalculate c.debug).2 = .panic ∨ it.recalculate c.debug = it.recalculate c.release := by
  unfold Iter.recalculate
  rcases calculate_agree c it.base with h | h
  · rw [h]; exact .inl rfl
  · rw [h]; exact .inr rfl

theorem iter_agree : StepAgree (Iter.next c.debug) (Iter.next c.release) := by
  intro it
  unfold Iter.next
  by_cases hf : it.hadFirst = true
  · simp only [hf, Bool.not_true, Bool.false_eq_true, if_false]
    rcases recalculate_agree c { it with base := it.base + it.increment } with h | h
    · left
      show some ((Iter.recalculate _ _).2 >>= _) = _
      rw [h]; rfl
    · right
      unfold Iter.skip
      rw [h]
  · right
    simp only [hf, Bool.not_false, if_true]

theorem until_agree {nx nx' : σ → σ × Item} (h : StepAgree nx nx') (e : Moment) :
    StepAgree (untilNext c.debug nx e) (untilNext c.release nx' e) := by
  intro s
  unfold untilNext
  rcases h s with h' | h'
  · left
    rcases hn : nx s with ⟨s', r⟩
    rw [hn] at h'
    simp only at h'
    subst h'
    rfl
  · rw [← h']
    rcases hn : nx s with ⟨s', r⟩
    cases r with
    | none => exact .inr rfl
    | some r =>
      cases r with
      | ok t =>
        simp only
        rcases calculate_agree c t with ht | ht
        · rw [ht]; exact .inl rfl
        · rw [ht]; exact .inr rfl
      | err e => exact .inr rfl
      | panic => exact .inr rfl
      | oof => exact .inr rfl

theorem times_agree {nx nx' : σ → σ × Item} (h : StepAgree nx nx') :
    StepAgree (timesNext c.debug nx) (timesNext c.release nx') := by
  intro s
  unfold timesNext
  by_cases ht : s.times = s.count
  · rw [if_pos ht, if_pos ht]; exact .inr rfl
  · rw [if_neg ht, if_neg ht]
    rcases (agree_chk c (s.count + 1) : Agree (ε := ErrorKind) _ _) with hk | hk
    · left
      unfold Cfg.add
      rw [hk]
    · unfold Cfg.add
      rw [hk]
      cases c.release.chk (ε := ErrorKind) (s.count + 1) with
      | ok n =>
        simp only
        rcases h s.inner with h' | h'
        · exact .inl h'
        · rw [h']; exact .inr rfl
      | err e => exact .inr rfl
      | panic => exact .inr rfl
      | oof => exact .inr rfl

theorem filter_agree {nx nx' : σ → σ × Item} (h : StepAgree nx nx') (p : TT → Out Bool) (fuel : Nat) :
    StepAgree (filterNext nx p fuel) (filterNext nx' p fuel) := by
  induction fuel with
  | zero => exact fun s => .inr rfl
  | succ n ih =>
    intro s
    unfold filterNext
    rcases h s with h' | h'
    · left
      rcases hn : nx s with ⟨s', r⟩
      rw [hn] at h'
      simp only at h'
      subst h'
      rfl
    · rw [← h']
      rcases hn : nx s with ⟨s', r⟩
      cases r with
      | none => exact .inr rfl
      | some r =>
        cases r with
        | ok t =>
          simp only
          cases hp : p t with
          | ok b =>
            cases b with
            | true => exact .inr rfl
            | false => exact ih s'
          | err e => exact .inr rfl
          | panic => exact .inr rfl
          | oof => exact .inr rfl
        | err e => exact .inr rfl
        | panic => exact .inr rfl
        | oof => exact .inr rfl

theorem without_agree {nx nx' : σ → σ × Item} (h : StepAgree nx nx') (p : TT → Out Bool) (fuel : Nat) :
    StepAgree (withoutNext nx p fuel) (withoutNext nx' p fuel) := by
  induction fuel with
  | zero => exact fun s => .inr rfl
  | succ n ih =>
    intro s
    unfold withoutNext
    rcases h s with h' | h'
    · left
      rcases hn : nx s with ⟨s', r⟩
      rw [hn] at h'
      simp only at h'
      subst h'
      rfl
    · rw [← h']
      rcases hn : nx s with ⟨s', r⟩
      cases r with
      | none => exact .inr rfl
      | some r =>
        cases r with
        | ok t =>
          simp only
          cases hp : p t with
          | ok b =>
            cases b with
            | true => exact ih s'
            | false => exact .inr rfl
          | err e => exact .inr rfl
          | panic => exact .inr rfl
          | oof => exact .inr rfl
        | err e => exact .inr rfl
        | panic => exact .inr rfl
        | oof => exact .inr rfl

theorem user_agree : StepAgree (UserIterator.next c.debug) (UserIterator.next c.release) := by
  intro u
  cases u with
  | iterator it =>
    rcases iter_agree c it with h | h
    · exact .inl h
    · right; unfold UserIterator.next; simp only; rw [h]
  | timesIter s =>
    rcases times_agree c (iter_agree c) s with h | h
    · exact .inl h
    · right; unfold UserIterator.next; simp only; rw [h]
  | untilIterator it e =>
    rcases until_agree c (iter_agree c) e it with h | h
    · exact .inl h
    · right; unfold UserIterator.next; simp only; rw [h]

/-! ## Texts -/

theorem amount_agree (a : Amount) : Agree (a.intoTimetype c.debug) (a.intoTimetype c.release) := by
  unfold Amount.intoTimetype
  split <;> first | exact .refl _ | exact agree_weeks c _

theorem amountExpr_agree (a : AmountExpr) : Agree (a.intoTimetype c.debug) (a.intoTimetype c.release) := by
  induction a with
  | single a => exact amount_agree c a
  | cons a op next ih =>
    cases op <;> exact (amount_agree c a).bind fun _ => ih.bind fun _ => .refl _

theorem exact_agree (now : Moment) (d : ExactDate) : Agree (d.intoTimetype c.debug now) (d.intoTimetype c.release now) := by
  unfold ExactDate.intoTimetype
  split <;> first
    | exact .refl _
    | exact Agree.bind (.refl _) fun _ => (agree_weeks c _).bind fun _ => .refl _

theorem pdate_agree (now : Moment) (d : PDate) : Agree (d.intoTimetype c.debug now) (d.intoTimetype c.release now) := by
  unfold PDate.intoTimetype
  refine (exact_agree c now _).bind fun b => ?_
  split <;> first | exact .refl _ | exact (amountExpr_agree c _).bind fun _ => .refl _

theorem timetype_agree (now : Moment) (d : PTimeType) :
    Agree (d.intoTimetype c.debug now) (d.intoTimetype c.release now) := by
  cases d with
  | date d => exact pdate_agree c now d
  | amountExpr a => exact amountExpr_agree c a

theorem recur_agree (s : Iterspec) : Agree (s.recur c.debug) (s.recur c.release) := by
  have hu : ∀ i u, Agree (unitToAmount c.debug i u) (unitToAmount c.release i u) := by
    intro i u
    cases u <;> first | exact .refl _ | exact agree_weeks c _
  cases s <;> simp only [Iterspec.recur] <;> exact hu _ _

theorem ndt_agree (t : TT) : Agree (intoNdt c.debug t) (intoNdt c.release t) :=
  (calculate_agree c t).bind fun _ => .refl _

theorem piterator_agree (now now' : Moment) (p : PIterator) :
    Agree (p.intoUserIterator c.debug now now') (p.intoUserIterator c.release now now') := by
  unfold PIterator.intoUserIterator
  refine (recur_agree c _).bind fun r => ?_
  split
  · exact (pdate_agree c now _).bind fun _ => (ndt_agree c _).bind fun _ => (exact_agree c now' _).bind fun _ =>
      (ndt_agree c _).bind fun _ => .refl _
  · exact (pdate_agree c now _).bind fun _ => (ndt_agree c _).bind fun _ => .refl _
  · exact (pdate_agree c now _).bind fun _ => (ndt_agree c _).bind fun _ => .refl _

theorem parse_agree (iso : Iso) (now now' : Moment) (s : List Char) :
    Agree (parse c.debug iso now now' s) (parse c.release iso now now' s) := by
  unfold parse doParse Nom.altComplete
  simp only [List.map, Nom.alt, Nom.complete, Nom.bind]
  cases hi : iterator iso s with
  | done r p =>
    simp only [Nom.IRes.andThen]
    rcases piterator_agree c now now' p with h | h
    · rw [h]; exact .inl rfl
    · rw [h]; exact .refl _
  | error =>
    simp only [Nom.IRes.andThen]
    cases ht : timetype iso s with
    | done r p =>
      exact (timetype_agree c now p).bind fun _ => .refl _
    | error => exact .refl _
    | incomplete => exact .refl _
  | incomplete =>
    simp only [Nom.IRes.andThen]
    cases ht : timetype iso s with
    | done r p =>
      exact (timetype_agree c now p).bind fun _ => .refl _
    | error => exact .refl _
    | incomplete => exact .refl _

/-! ## The program -/

open Main in
theorem printItems_agree (n : Nat) (u : UserIterator) :
    (printItems c.debug n u).ending = .panicked ∨ printItems c.debug n u = printItems c.release n u := by
  induction n generalizing u with
  | zero => exact .inr rfl
  | succ n ih =>
    unfold printItems
    rcases user_agree c u with h | h
    · left
      rcases hn : UserIterator.next c.debug u with ⟨s', r⟩
      rw [hn] at h
      simp only at h
      subst h
      rfl
    · rw [← h]
      rcases hn : UserIterator.next c.debug u with ⟨s', r⟩
      cases r with
      | none => exact .inr rfl
      | some r =>
        cases r with
        | ok t =>
          simp only
          rcases ih s' with h' | h'
          · exact .inl h'
          · rw [h']; exact .inr rfl
        | err e => exact .inr rfl
        | panic => exact .inr rfl
        | oof => exact .inr rfl

open Main in
theorem main_agree (iso : Iso) (now now' : Moment) (n : Nat) (args : List (List Char)) :
    (main c.debug iso now now' n args).ending = .panicked ∨
      main c.debug iso now now' n args = main c.release iso now now' n args := by
  unfold main
  rcases parse_agree c iso now now' (commandLine args) with h | h
  · rw [h]; exact .inl rfl
  · rw [h]
    cases parse c.release iso now now' (commandLine args) with
    | ok p =>
      cases p with
      | timeType t =>
        simp only
        rcases calculate_agree c t with ht | ht
        · rw [ht]; exact .inl rfl
        · rw [ht]; exact .inr rfl
      | iterator r =>
        cases r with
        | ok u => exact printItems_agree c n u
        | error e => exact .inr rfl
    | err e => exact .inr rfl
    | panic => exact .inr rfl
    | oof => exact .inr rfl

end Kairos
