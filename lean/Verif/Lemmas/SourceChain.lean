import Verif.Spec.FromSource
import Verif.Source.AgreeIter
import Verif.Source.AgreeText
import Verif.Source.AgreeParser

/-!
# The translated adaptors follow the model's, without a bound on loops
-/

namespace Kairos.SourceChain
open Spec

variable {σ τ : Type}

/-- What a translated call did is what the model says, if the model says anything. -/
def Tracks (Rel : σ → τ → Prop) (x : OutE Empty (Option (Except ErrorKind TT) × σ)) : τ × Item → Prop
  | (t, none) => ∃ s, x = .ok (none, s) ∧ Rel s t
  | (t, some (.ok v)) => ∃ s, x = .ok (some (.ok v), s) ∧ Rel s t
  | (t, some (.err e)) => ∃ s, x = .ok (some (.error e), s) ∧ Rel s t
  | (_, some .panic) => x = .panic
  | (_, some .oof) => True

/-- More rounds do not change an answer. -/
def Mono (nx : Nat → τ → τ × Item) : Prop :=
  ∀ ⦃r r'⦄, r ≤ r' → ∀ t, (nx r t).2 ≠ some .oof → nx r' t = nx r t

/-- The translated `next` follows the model's `nx`. -/
structure Sim (next : Rs.M σ (Option (Except ErrorKind TT))) (nx : Nat → τ → τ × Item) (Rel : σ → τ → Prop) : Prop where
  tracks : ∀ s t, Rel s t → ∀ r, Tracks Rel (next s) (nx r t)
  diverges : ∀ s t, Rel s t → (∀ r, (nx r t).2 = some .oof) → next s = .oof
  mono : Mono nx

theorem sim_same {next : Rs.M σ (Option (Except ErrorKind TT))} {nx : σ → σ × Item} (h : Source.Same next nx) :
    Sim next (fun _ => nx) (· = ·) := by
  refine ⟨?_, ?_, fun _ _ _ _ _ => rfl⟩
  · rintro s _ rfl _
    rw [h s]
    rcases nx s with ⟨t, r⟩
    rcases r with _ | r
    · exact ⟨t, rfl, rfl⟩
    · cases r with
      | ok v => exact ⟨t, rfl, rfl⟩
      | err v => exact ⟨t, rfl, rfl⟩
      | panic => rfl
      | oof => trivial
  · rintro s _ rfl ho
    have := ho 0
    rw [h s]
    rcases hx : nx s with ⟨t, r⟩
    rw [hx] at this
    cases this
    rfl

theorem timesNext_run (c : Cfg) (next : Rs.M σ (Option (Except ErrorKind TT))) (s : TimesState σ) :
    Source.TimesIter.next c next s =
      if s.times = s.count then .ok (none, s) else
        match (c.add s.count 1 : Out Int) with
        | .ok count =>
          match next s.inner with
          | .ok (a, i) => .ok (a, { s with inner := i, count := count })
          | .panic => .panic
          | .oof => .oof
        | .err _ => .panic
        | .panic => .panic
        | .oof => .oof := by
  obtain ⟨inner, times, count⟩ := s
  by_cases hc : times = count
  · subst hc
    simp only [if_true]
    show (if times == times then _ else _ : Rs.M _ _) _ = _
    simp only [beq_self_eq_true, if_true]
    rfl
  · simp only [if_neg hc]
    show (if times == count then _ else _ : Rs.M _ _) _ = _
    simp only [beq_eq_false_iff_ne.mpr hc, Bool.false_eq_true, if_false]
    show (Rs.value (c.add count 1 : Out Int) _ >>= _) = _
    cases ha : (c.add count 1 : Out Int) with
    | ok n =>
      show Rs.zoom (fun s => s.inner) (fun s i => { s with inner := i }) next
        (⟨inner, times, n⟩ : TimesState σ) = _
      simp only [Rs.zoom]
      rcases next inner with ⟨a, s'⟩ | e | _ | _
      · rfl
      · exact e.elim
      · rfl
      · rfl
    | err e => rfl
    | panic => rfl
    | oof => rfl

theorem sim_times (c : Cfg) {next : Rs.M σ (Option (Except ErrorKind TT))} {nx : Nat → τ → τ × Item} {Rel : σ → τ → Prop}
    (h : Sim next nx Rel) :
    Sim (Source.TimesIter.next c next) (fun r => timesNext c (nx r))
      (fun s t => s.times = t.times ∧ s.count = t.count ∧ Rel s.inner t.inner) := by
  refine ⟨?_, ?_, ?_⟩
  · rintro ⟨s, k, n⟩ ⟨t, _, _⟩ ⟨rfl, rfl, hs⟩ r
    simp only at hs ⊢
    rw [timesNext_run]
    unfold timesNext
    simp only
    split
    · exact ⟨_, rfl, rfl, rfl, hs⟩
    · cases ha : (c.add n 1 : Out Int) with
      | ok m =>
        have ht := h.tracks s t hs r
        simp only
        rcases hx : nx r t with ⟨t', x⟩
        rw [hx] at ht
        rcases x with _ | x
        · obtain ⟨s', e, hs'⟩ := ht
          rw [e]; exact ⟨_, rfl, rfl, rfl, hs'⟩
        · cases x with
          | ok v =>
            obtain ⟨s', e, hs'⟩ := ht
            rw [e]; exact ⟨_, rfl, rfl, rfl, hs'⟩
          | err v =>
            obtain ⟨s', e, hs'⟩ := ht
            rw [e]; exact ⟨_, rfl, rfl, rfl, hs'⟩
          | panic =>
            have e : next s = .panic := ht
            rw [e]; rfl
          | oof => trivial
      | err e => exact absurd ha (chk_ne_err _ _ _)
      | panic => rfl
      | oof => trivial
  · rintro ⟨s, k, n⟩ ⟨t, _, _⟩ ⟨rfl, rfl, hs⟩ ho
    simp only at hs ho ⊢
    rw [timesNext_run]
    unfold timesNext at ho
    simp only at ho ⊢
    split
    · rename_i e; subst e
      exact absurd (ho 0) (by simp)
    · rename_i hne
      simp only [if_neg hne] at ho
      cases ha : (c.add n 1 : Out Int) with
      | ok m =>
        simp only [ha] at ho
        simp only [h.diverges s t hs ho]
      | err e => exact absurd ha (chk_ne_err _ _ _)
      | panic => simp only [ha] at ho; exact absurd (ho 0) (by simp)
      | oof => rfl
  · rintro r r' hr ⟨t, k, n⟩ ho
    unfold timesNext at ho ⊢
    simp only at ho ⊢
    split at ho
    · rename_i e; subst e; simp only [if_true]
    · rename_i hne
      simp only [if_neg hne]
      cases ha : (c.add n 1 : Out Int) with
      | ok m =>
        simp only [ha] at ho ⊢
        rw [h.mono hr t ho]
      | err e => rfl
      | panic => rfl
      | oof => rfl

theorem untilNext_run (c : Cfg) (next : Rs.M σ (Option (Except ErrorKind TT))) (e : Moment) (s : σ) :
    Source.UntilIter.next c next (s, e) =
      match next s with
      | .ok (none, s') => .ok (none, (s', e))
      | .ok (some (.ok tt), s') =>
        (match calculate c tt with
        | .ok v =>
          (match v.getMoment with
          | some m => if m.lt e then .ok (some (.ok v), (s', e)) else .ok (none, (s', e))
          | none => .ok (some (.error (.argumentErrorNotAMoment v.name)), (s', e)))
        | .err x => .ok (some (.error x), (s', e))
        | .panic => .panic
        | .oof => .oof)
      | .ok (some (.error x), s') => .ok (some (.error x), (s', e))
      | .panic => .panic
      | .oof => .oof := by
  show (Rs.zoom _ _ next (s, e) >>= _) = _
  simp only [Rs.zoom]
  rcases next s with ⟨r, s'⟩ | x | _ | _
  · rcases r with _ | x | tt
    · rfl
    · rfl
    · simp only [OutE.ok_bind, Source.TimeType.calculate_eq]
      rcases hc : Kairos.calculate c tt with v | x | _ | _
      · cases v
        case moment m =>
          show (if m.lt e then _ else _ : Rs.M (σ × Moment) _) (s', e) = _
          simp only [TT.getMoment]
          cases m.lt e <;> rfl
        all_goals rfl
      · rfl
      · rfl
      · rfl
  · exact x.elim
  · rfl
  · rfl

theorem sim_until (c : Cfg) {next : Rs.M σ (Option (Except ErrorKind TT))} {nx : Nat → τ → τ × Item} {Rel : σ → τ → Prop}
    (h : Sim next nx Rel) (e : Moment) :
    Sim (Source.UntilIter.next c next) (fun r => untilNext c (nx r) e) (fun s t => s.2 = e ∧ Rel s.1 t) := by
  refine ⟨?_, ?_, ?_⟩
  · rintro ⟨s, _⟩ t ⟨rfl, hs⟩ r
    rename_i e
    simp only at hs ⊢
    have ht := h.tracks s t hs r
    rw [untilNext_run]
    unfold untilNext
    rcases hx : nx r t with ⟨t', x⟩
    rw [hx] at ht
    rcases x with _ | x
    · obtain ⟨s', he, hs'⟩ := ht
      rw [he]; exact ⟨_, rfl, rfl, hs'⟩
    · cases x with
      | ok v =>
        obtain ⟨s', he, hs'⟩ := ht
        rw [he]
        simp only
        rcases calculate c v with v | x | _ | _
        · simp only
          cases v.getMoment with
          | none => exact ⟨_, rfl, rfl, hs'⟩
          | some m =>
            simp only
            split
            · exact ⟨_, rfl, rfl, hs'⟩
            · exact ⟨_, rfl, rfl, hs'⟩
        · exact ⟨_, rfl, rfl, hs'⟩
        · rfl
        · trivial
      | err v =>
        obtain ⟨s', he, hs'⟩ := ht
        rw [he]; exact ⟨_, rfl, rfl, hs'⟩
      | panic =>
        have he : next s = .panic := ht
        rw [he]; rfl
      | oof => trivial
  · rintro ⟨s, _⟩ t ⟨rfl, hs⟩ ho
    rename_i e
    simp only at hs ho ⊢
    rw [untilNext_run]
    by_cases hd : ∀ r, (nx r t).2 = some .oof
    · rw [h.diverges s t hs hd]
    · obtain ⟨r, hr⟩ : ∃ r, (nx r t).2 ≠ some .oof := Classical.byContradiction fun hn =>
        hd fun r => Classical.byContradiction fun hr => hn ⟨r, hr⟩
      have ht := h.tracks s t hs r
      have h1 := ho r
      unfold untilNext at h1
      rcases hx : nx r t with ⟨t', x⟩
      rw [hx] at ht hr h1
      rcases x with _ | x
      · exact absurd h1 (by simp)
      · cases x with
        | ok v =>
          obtain ⟨s', he, hs'⟩ := ht
          rw [he]
          simp only at h1 ⊢
          rcases hcv : calculate c v with v | x | _ | _ <;> simp only [hcv] at h1 ⊢
          · cases hg : v.getMoment with
            | none => simp only [hg] at h1; exact absurd h1 (by simp)
            | some m =>
              simp only [hg] at h1
              split at h1 <;> exact absurd h1 (by simp)
          · exact absurd h1 (by simp)
          · exact absurd h1 (by simp)
        | err e => exact absurd h1 (by simp)
        | panic => exact absurd h1 (by simp)
        | oof => exact absurd rfl hr
  · intro r r' hr t ho
    show untilNext c (nx r') e t = untilNext c (nx r) e t
    have ho : (untilNext c (nx r) e t).2 ≠ some .oof := ho
    unfold untilNext at ho ⊢
    have hi : (nx r t).2 ≠ some .oof := by
      intro hi
      rcases hx : nx r t with ⟨t', x⟩
      rw [hx] at hi; subst hi
      rw [hx] at ho
      exact ho rfl
    rw [h.mono hr t hi]

theorem filterStep_next (next : Rs.M σ (Option (Except ErrorKind TT))) (m : TT → Out Bool) (s : σ) :
    Source.filterStep next (s, m) =
      match next s with
      | .ok (none, s') => .ok (some none, (s', m))
      | .ok (some (.ok tt), s') =>
        (match m tt with
        | .ok false => .ok (none, (s', m))
        | .ok true => .ok (some (some (.ok tt)), (s', m))
        | .err e => .ok (some (some (.error e)), (s', m))
        | .panic => .panic
        | .oof => .oof)
      | .ok (some (.error e), s') => .ok (some (some (.error e)), (s', m))
      | .panic => .panic
      | .oof => .oof := by
  unfold Source.filterStep
  show (Rs.zoom _ _ next (s, m) >>= _) = _
  simp only [Rs.zoom]
  rcases next s with ⟨r, s'⟩ | e | _ | _
  · rcases r with _ | e | tt
    · rfl
    · rfl
    · simp only [OutE.ok_bind]
      show (Rs.result (m tt) _ >>= _) = _
      rcases m tt with v | _ | _ | _
      · cases v <;> rfl
      all_goals rfl
  · exact e.elim
  · rfl
  · rfl

theorem filterNext_mono {nx : Nat → τ → τ × Item} (h : Mono nx) (m : TT → Out Bool) {r r' n n' : Nat} (hr : r ≤ r')
    (hn : n ≤ n') (t : τ) (ho : (filterNext (nx r) m n t).2 ≠ some .oof) :
    filterNext (nx r') m n' t = filterNext (nx r) m n t := by
  induction n generalizing t n' with
  | zero => exact absurd rfl ho
  | succ n ih =>
    obtain ⟨n', rfl⟩ : ∃ j, n' = j + 1 := ⟨n' - 1, by omega⟩
    unfold filterNext at ho ⊢
    have hi : (nx r t).2 ≠ some .oof := by
      intro hi
      rcases hx : nx r t with ⟨t', x⟩
      rw [hx] at hi; subst hi
      rw [hx] at ho
      exact ho rfl
    rw [h hr t hi]
    rcases hx : nx r t with ⟨t', x⟩
    rw [hx] at ho
    rcases x with _ | x
    · rfl
    · cases x with
      | ok tt =>
        simp only at ho ⊢
        rcases hm : m tt with v | _ | _ | _ <;> simp only [hm] at ho ⊢
        cases v with
        | false => exact ih (by omega) t' ho
        | true => rfl
      | err e => rfl
      | panic => rfl
      | oof => rfl

theorem sim_filter (c : Cfg) {next : Rs.M σ (Option (Except ErrorKind TT))} {nx : Nat → τ → τ × Item} {Rel : σ → τ → Prop}
    (h : Sim next nx Rel) (m : TT → Out Bool) :
    Sim (Source.FilterIter.next c next) (fun r => filterNext (nx r) m r) (fun s t => s.2 = m ∧ Rel s.1 t) := by
  refine ⟨?_, ?_, fun _ _ hr t ho => filterNext_mono h.mono m hr hr t ho⟩
  · suffices H : ∀ (r n : Nat) (s : σ) (t : τ), Rel s t →
        Tracks (fun (s : σ × (TT → Out Bool)) t => s.2 = m ∧ Rel s.1 t) (Source.FilterIter.next c next (s, m)) (filterNext (nx r) m n t) by
      rintro ⟨s, m'⟩ t ⟨rfl, hs⟩ r
      exact H r r s t hs
    intro r n
    induction n with
    | zero => intro s t _; trivial
    | succ n ih =>
      intro s t hs
      have ht := h.tracks s t hs r
      rw [Source.FilterIter.next_loop, Rs.loop.eq_def, filterStep_next]
      unfold filterNext
      rcases hx : nx r t with ⟨t', x⟩
      rw [hx] at ht
      rcases x with _ | x
      · obtain ⟨s', e, hs'⟩ := ht
        rw [e]; exact ⟨(s', m), rfl, rfl, hs'⟩
      · cases x with
        | ok tt =>
          obtain ⟨s', e, hs'⟩ := ht
          rw [e]
          simp only
          rcases hm : m tt with v | _ | _ | _
          · cases v with
            | false =>
              have := ih s' t' hs'
              rw [Source.FilterIter.next_loop] at this
              exact this
            | true => exact ⟨(s', m), rfl, rfl, hs'⟩
          · exact ⟨(s', m), rfl, rfl, hs'⟩
          · rfl
          · trivial
        | err e =>
          obtain ⟨s', e, hs'⟩ := ht
          rw [e]; exact ⟨(s', m), rfl, rfl, hs'⟩
        | panic =>
          have e : next s = .panic := ht
          rw [e]; rfl
        | oof => trivial
  · rintro ⟨s, m'⟩ t ⟨rfl, hs⟩ ho
    suffices H : ∀ p : σ × (TT → Out Bool), ∀ t, p.2 = m' ∧ Rel p.1 t →
        (∀ n, (filterNext (nx n) m' n t).2 = some .oof) → Rs.loop (Source.filterStep next) p = .oof by
      rw [Source.FilterIter.next_loop]; exact H (s, m') t ⟨rfl, hs⟩ ho
    refine Rs.loop.fixpoint_induct (Source.filterStep next)
      (fun f => ∀ p : σ × (TT → Out Bool), ∀ t, p.2 = m' ∧ Rel p.1 t →
        (∀ n, (filterNext (nx n) m' n t).2 = some .oof) → f p = .oof) ?_ ?_
    · apply Lean.Order.admissible_pi_apply
        (P := fun (p : σ × (TT → Out Bool)) (x : OutE Empty (Option (Except ErrorKind TT) × (σ × (TT → Out Bool)))) =>
          ∀ t, p.2 = m' ∧ Rel p.1 t → (∀ n, (filterNext (nx n) m' n t).2 = some .oof) → x = .oof)
      intro s
      exact Lean.Order.admissible_flatOrder (b := OutE.oof) _ (fun _ _ _ => rfl)
    · clear hs ho
      rintro f hf ⟨s, m⟩ t ⟨rfl, hs⟩ ho
      simp only at hs hf ho ⊢
      rw [filterStep_next]
      by_cases hd : ∀ r, (nx r t).2 = some .oof
      · rw [h.diverges s t hs hd]; rfl
      · obtain ⟨r, hr⟩ : ∃ r, (nx r t).2 ≠ some .oof := Classical.byContradiction fun hn =>
          hd fun r => Classical.byContradiction fun hr => hn ⟨r, hr⟩
        have ht := h.tracks s t hs r
        have hmo := fun n (hn : r ≤ n) => h.mono hn t hr
        have h1 : ∀ n, r ≤ n → (filterNext (nx (n + 1)) m (n + 1) t).2 = some .oof := fun n _ => ho (n + 1)
        unfold filterNext at h1
        rcases hx : nx r t with ⟨t', x⟩
        have h1 := fun n (hn : r ≤ n) => by have := h1 n hn; rwa [hmo (n + 1) (by omega), hx] at this
        rw [hx] at ht hr
        rcases x with _ | x
        · exact absurd (h1 r (Nat.le_refl _)) (by simp)
        · cases x with
          | ok tt =>
            obtain ⟨s', e, hs'⟩ := ht
            rw [e]
            simp only at h1 ⊢
            rcases hm : m tt with v | _ | _ | _ <;> simp only [hm] at h1 ⊢
            · cases v with
              | false =>
                refine hf (s', m) t' ⟨rfl, hs'⟩ fun n => Classical.byContradiction fun hne => ?_
                have e := filterNext_mono h.mono m (r' := max n r + 1) (n' := max n r) (by omega) (by omega) t' hne
                have := h1 (max n r) (by omega)
                simp only at this
                rw [e] at this
                exact hne this
              | true => exact absurd (h1 r (Nat.le_refl _)) (by simp)
            · exact absurd (h1 r (Nat.le_refl _)) (by simp)
            · exact absurd (h1 r (Nat.le_refl _)) (by simp)
            · rfl
          | err e => exact absurd (h1 r (Nat.le_refl _)) (by simp)
          | panic => exact absurd (h1 r (Nat.le_refl _)) (by simp)
          | oof => exact absurd rfl hr

theorem withoutStep_next (next : Rs.M σ (Option (Except ErrorKind TT))) (m : TT → Out Bool) (s : σ) :
    Source.withoutStep next (s, m) =
      match next s with
      | .ok (none, s') => .ok (some none, (s', m))
      | .ok (some (.ok tt), s') =>
        (match m tt with
        | .ok false => .ok (some (some (.ok tt)), (s', m))
        | .ok true => .ok (none, (s', m))
        | .err e => .ok (some (some (.error e)), (s', m))
        | .panic => .panic
        | .oof => .oof)
      | .ok (some (.error e), s') => .ok (some (some (.error e)), (s', m))
      | .panic => .panic
      | .oof => .oof := by
  unfold Source.withoutStep
  show (Rs.zoom _ _ next (s, m) >>= _) = _
  simp only [Rs.zoom]
  rcases next s with ⟨r, s'⟩ | e | _ | _
  · rcases r with _ | e | tt
    · rfl
    · rfl
    · simp only [OutE.ok_bind]
      show (Rs.result (m tt) _ >>= _) = _
      rcases m tt with v | _ | _ | _
      · cases v <;> rfl
      all_goals rfl
  · exact e.elim
  · rfl
  · rfl

theorem withoutNext_mono {nx : Nat → τ → τ × Item} (h : Mono nx) (m : TT → Out Bool) {r r' n n' : Nat} (hr : r ≤ r')
    (hn : n ≤ n') (t : τ) (ho : (withoutNext (nx r) m n t).2 ≠ some .oof) :
    withoutNext (nx r') m n' t = withoutNext (nx r) m n t := by
  induction n generalizing t n' with
  | zero => exact absurd rfl ho
  | succ n ih =>
    obtain ⟨n', rfl⟩ : ∃ j, n' = j + 1 := ⟨n' - 1, by omega⟩
    unfold withoutNext at ho ⊢
    have hi : (nx r t).2 ≠ some .oof := by
      intro hi
      rcases hx : nx r t with ⟨t', x⟩
      rw [hx] at hi; subst hi
      rw [hx] at ho
      exact ho rfl
    rw [h hr t hi]
    rcases hx : nx r t with ⟨t', x⟩
    rw [hx] at ho
    rcases x with _ | x
    · rfl
    · cases x with
      | ok tt =>
        simp only at ho ⊢
        rcases hm : m tt with v | _ | _ | _ <;> simp only [hm] at ho ⊢
        cases v with
        | true => exact ih (by omega) t' ho
        | false => rfl
      | err e => rfl
      | panic => rfl
      | oof => rfl

theorem sim_without (c : Cfg) {next : Rs.M σ (Option (Except ErrorKind TT))} {nx : Nat → τ → τ × Item} {Rel : σ → τ → Prop}
    (h : Sim next nx Rel) (m : TT → Out Bool) :
    Sim (Source.WithoutIter.next c next) (fun r => withoutNext (nx r) m r) (fun s t => s.2 = m ∧ Rel s.1 t) := by
  refine ⟨?_, ?_, fun _ _ hr t ho => withoutNext_mono h.mono m hr hr t ho⟩
  · suffices H : ∀ (r n : Nat) (s : σ) (t : τ), Rel s t →
        Tracks (fun (s : σ × (TT → Out Bool)) t => s.2 = m ∧ Rel s.1 t) (Source.WithoutIter.next c next (s, m)) (withoutNext (nx r) m n t) by
      rintro ⟨s, m'⟩ t ⟨rfl, hs⟩ r
      exact H r r s t hs
    intro r n
    induction n with
    | zero => intro s t _; trivial
    | succ n ih =>
      intro s t hs
      have ht := h.tracks s t hs r
      rw [Source.WithoutIter.next_loop, Rs.loop.eq_def, withoutStep_next]
      unfold withoutNext
      rcases hx : nx r t with ⟨t', x⟩
      rw [hx] at ht
      rcases x with _ | x
      · obtain ⟨s', e, hs'⟩ := ht
        rw [e]; exact ⟨(s', m), rfl, rfl, hs'⟩
      · cases x with
        | ok tt =>
          obtain ⟨s', e, hs'⟩ := ht
          rw [e]
          simp only
          rcases hm : m tt with v | _ | _ | _
          · cases v with
            | true =>
              have := ih s' t' hs'
              rw [Source.WithoutIter.next_loop] at this
              exact this
            | false => exact ⟨(s', m), rfl, rfl, hs'⟩
          · exact ⟨(s', m), rfl, rfl, hs'⟩
          · rfl
          · trivial
        | err e =>
          obtain ⟨s', e, hs'⟩ := ht
          rw [e]; exact ⟨(s', m), rfl, rfl, hs'⟩
        | panic =>
          have e : next s = .panic := ht
          rw [e]; rfl
        | oof => trivial
  · rintro ⟨s, m'⟩ t ⟨rfl, hs⟩ ho
    suffices H : ∀ p : σ × (TT → Out Bool), ∀ t, p.2 = m' ∧ Rel p.1 t →
        (∀ n, (withoutNext (nx n) m' n t).2 = some .oof) → Rs.loop (Source.withoutStep next) p = .oof by
      rw [Source.WithoutIter.next_loop]; exact H (s, m') t ⟨rfl, hs⟩ ho
    refine Rs.loop.fixpoint_induct (Source.withoutStep next)
      (fun f => ∀ p : σ × (TT → Out Bool), ∀ t, p.2 = m' ∧ Rel p.1 t →
        (∀ n, (withoutNext (nx n) m' n t).2 = some .oof) → f p = .oof) ?_ ?_
    · apply Lean.Order.admissible_pi_apply
        (P := fun (p : σ × (TT → Out Bool)) (x : OutE Empty (Option (Except ErrorKind TT) × (σ × (TT → Out Bool)))) =>
          ∀ t, p.2 = m' ∧ Rel p.1 t → (∀ n, (withoutNext (nx n) m' n t).2 = some .oof) → x = .oof)
      intro s
      exact Lean.Order.admissible_flatOrder (b := OutE.oof) _ (fun _ _ _ => rfl)
    · clear hs ho
      rintro f hf ⟨s, m⟩ t ⟨rfl, hs⟩ ho
      simp only at hs hf ho ⊢
      rw [withoutStep_next]
      by_cases hd : ∀ r, (nx r t).2 = some .oof
      · rw [h.diverges s t hs hd]; rfl
      · obtain ⟨r, hr⟩ : ∃ r, (nx r t).2 ≠ some .oof := Classical.byContradiction fun hn =>
          hd fun r => Classical.byContradiction fun hr => hn ⟨r, hr⟩
        have ht := h.tracks s t hs r
        have hmo := fun n (hn : r ≤ n) => h.mono hn t hr
        have h1 : ∀ n, r ≤ n → (withoutNext (nx (n + 1)) m (n + 1) t).2 = some .oof := fun n _ => ho (n + 1)
        unfold withoutNext at h1
        rcases hx : nx r t with ⟨t', x⟩
        have h1 := fun n (hn : r ≤ n) => by have := h1 n hn; rwa [hmo (n + 1) (by omega), hx] at this
        rw [hx] at ht hr
        rcases x with _ | x
        · exact absurd (h1 r (Nat.le_refl _)) (by simp)
        · cases x with
          | ok tt =>
            obtain ⟨s', e, hs'⟩ := ht
            rw [e]
            simp only at h1 ⊢
            rcases hm : m tt with v | _ | _ | _ <;> simp only [hm] at h1 ⊢
            · cases v with
              | true =>
                refine hf (s', m) t' ⟨rfl, hs'⟩ fun n => Classical.byContradiction fun hne => ?_
                have e := withoutNext_mono h.mono m (r' := max n r + 1) (n' := max n r) (by omega) (by omega) t' hne
                have := h1 (max n r) (by omega)
                simp only at this
                rw [e] at this
                exact hne this
              | false => exact absurd (h1 r (Nat.le_refl _)) (by simp)
            · exact absurd (h1 r (Nat.le_refl _)) (by simp)
            · exact absurd (h1 r (Nat.le_refl _)) (by simp)
            · rfl
          | err e => exact absurd (h1 r (Nat.le_refl _)) (by simp)
          | panic => exact absurd (h1 r (Nat.le_refl _)) (by simp)
          | oof => exact absurd rfl hr

/-! ### chains -/

/-- The translated iterator follows the model's. -/
def Follows (x : SourceChained) (y : Chained) : Prop :=
  ∃ Rel : x.σ → y.σ → Prop, Sim x.next y.next Rel ∧ Rel x.state y.state

theorem sourceMatcher_eq (c : Cfg) (t : Test) : t.sourceMatcher c = t.matcher := by
  cases t with
  | day d => exact funext fun t => Source.Day.matches_eq c d t
  | month m => exact funext fun t => Source.Month.matches_eq c m t
  | own f => rfl

theorem follows_adapt (c : Cfg) {x : SourceChained} {y : Chained} (h : Follows x y) (a : Adaptor) :
    Follows (x.adapt c a) (y.adapt c a) := by
  obtain ⟨Rel, hs, hr⟩ := h
  cases a with
  | times n => exact ⟨_, sim_times c hs, rfl, rfl, hr⟩
  | «until» e => exact ⟨_, sim_until c hs e, rfl, hr⟩
  | every t => exact ⟨_, sim_filter c hs t.matcher, sourceMatcher_eq c t, hr⟩
  | without t => exact ⟨_, sim_without c hs t.matcher, sourceMatcher_eq c t, hr⟩

theorem follows_foldl (c : Cfg) {x : SourceChained} {y : Chained} (h : Follows x y) (as : List Adaptor) :
    Follows (as.foldl (SourceChained.adapt c) x) (as.foldl (Chained.adapt c) y) := by
  induction as generalizing x y with
  | nil => exact h
  | cons a as ih => exact ih (follows_adapt c h a)

theorem follows_chained (c : Cfg) (it : Iter) (as : List Adaptor) : Follows (sourceChained c it as) (chained c it as) :=
  follows_foldl c ⟨_, sim_same (Source.Iter.next_eq c), rfl⟩ as

theorem follows_chainedRead (c : Cfg) (ui : Parser.UserIterator) (as : List Adaptor) :
    Follows (sourceChainedRead c ui as) (chainedRead c ui as) :=
  follows_foldl c ⟨_, sim_same (Source.Parser.UserIterator.next_eq c), rfl⟩ as

/-- After `k` calls that returned, the two are in corresponding states, and more rounds would not have mattered. -/
theorem sim_after {next : Rs.M σ (Option (Except ErrorKind TT))} {nx : Nat → τ → τ × Item} {Rel : σ → τ → Prop}
    (h : Sim next nx Rel) (R k : Nat) (s : σ) (t : τ) (hs : Rel s t)
    (hk : ∀ j, j < k → nth (nx R) j t ≠ some .oof ∧ nth (nx R) j t ≠ some .panic) :
    ∃ s', Rel s' (after (nx R) k t) ∧ sourceNth next k s = sourceNth next 0 s' ∧
      ∀ r, R ≤ r → nth (nx r) k t = (nx r (after (nx R) k t)).2 := by
  induction k generalizing s t with
  | zero => exact ⟨s, hs, rfl, fun _ _ => rfl⟩
  | succ k ih =>
    obtain ⟨h1, h2⟩ := hk 0 (by omega)
    have ht := h.tracks s t hs R
    have hm := fun r (hr : R ≤ r) => h.mono hr t h1
    have hk' := fun j (hj : j < k) => hk (j + 1) (by omega)
    simp only [nth, after] at h1 h2 hk' ⊢
    rcases hx : nx R t with ⟨t', x⟩
    rw [hx] at ht h1 h2 hk' hm
    have key : ∀ s' a, Rel s' t' → next s = .ok (a, s') → ∃ s'', Rel s'' (after (nx R) k t') ∧
        sourceNth next (k + 1) s = sourceNth next 0 s'' ∧
        ∀ r, R ≤ r → nth (nx r) k (nx r t).1 = (nx r (after (nx R) k t')).2 := by
      intro s' a hs' e
      obtain ⟨s'', g1, g2, g3⟩ := ih s' t' hs' hk'
      refine ⟨s'', g1, ?_, fun r hr => ?_⟩
      · rw [← g2]
        show (next s >>= _) = _
        rw [e]; rfl
      · rw [hm r hr]; exact g3 r hr
    rcases x with _ | x
    · obtain ⟨s', e, hs'⟩ := ht; exact key s' _ hs' e
    · cases x with
      | ok v => obtain ⟨s', e, hs'⟩ := ht; exact key s' _ hs' e
      | err v => obtain ⟨s', e, hs'⟩ := ht; exact key s' _ hs' e
      | panic => exact absurd rfl h2
      | oof => exact absurd rfl h1

theorem sourceNth_zero (next : Rs.M σ (Option (Except ErrorKind TT))) (s : σ) :
    sourceNth next 0 s = match next s with
      | .ok (r, _) => .ok r
      | .panic => .panic
      | .oof => .oof := by
  show (next s >>= _) = _
  rcases next s with ⟨r, s'⟩ | x | _ | _
  · rfl
  · exact x.elim
  · rfl
  · rfl

/-- Call `k`, if the model's calls before it return and do not panic. -/
theorem follows_call {x : SourceChained} {y : Chained} (h : Follows x y) (R k : Nat)
    (hk : ∀ j, j < k → y.call R j ≠ some .oof ∧ y.call R j ≠ some .panic) :
    (∀ r : Response, r.Was (y.call R k) → x.call k = r.inSource) ∧
    ((∀ r, R ≤ r → y.call r k = some .oof) → x.call k = .oof) := by
  obtain ⟨Rel, hs, hr⟩ := h
  obtain ⟨s', g1, g2, g3⟩ := sim_after hs R k x.state y.state hr hk
  unfold SourceChained.call Chained.call
  rw [g2, sourceNth_zero]
  refine ⟨fun r hw => ?_, fun ho => ?_⟩
  · rw [g3 R (Nat.le_refl _)] at hw
    have ht := hs.tracks _ _ g1 R
    rcases hz : y.next R (after (y.next R) k y.state) with ⟨t', z⟩
    rw [hz] at ht hw
    rcases z with _ | z
    · obtain ⟨s'', e, -⟩ := ht
      rw [e]
      cases r with
      | ended => rfl
      | _ => exact hw.elim
    · cases r with
      | item a =>
        have hw : Says a z := hw
        cases a with
        | value v =>
          obtain rfl : z = .ok v := hw
          obtain ⟨s'', e, -⟩ := ht
          rw [e]; rfl
        | refused v =>
          obtain rfl : z = .err v := hw
          obtain ⟨s'', e, -⟩ := ht
          rw [e]; rfl
        | overflow =>
          obtain rfl : z = .panic := hw
          have e : x.next s' = .panic := ht
          rw [e]; rfl
      | _ => exact hw.elim
  · rw [hs.diverges _ _ g1 fun r => ?_]
    by_cases hR : R ≤ r
    · rw [← g3 r hR]; exact ho r hR
    · refine Classical.byContradiction fun hne => hne ?_
      rw [← hs.mono (by omega : r ≤ R) _ hne, ← g3 R (Nat.le_refl _)]
      exact ho R (Nat.le_refl _)

/-- If the model's calls, with enough rounds, are as described, then the translated calls are. -/
theorem follows_described {x : SourceChained} {y : Chained} (h : Follows x y) (calls : Nat → Response)
    (hcalls : ∀ i, (∀ j, j ≤ i → calls j ≠ .never) → ∃ B, ∀ r, B ≤ r → (calls i).Was (y.call r i))
    (hnever : ∀ i, (∀ j, j < i → calls j ≠ .never) → calls i = .never →
      ∃ B, ∀ r, B ≤ r → (∀ j, j < i → (calls j).Was (y.call r j)) ∧ y.call r i = some .oof)
    (k : Nat) (hk : ∀ j, j < k → calls j ≠ .never ∧ calls j ≠ .item .overflow) :
    x.call k = (calls k).inSource := by
  have hw : ∀ j r, calls j ≠ .never → calls j ≠ .item .overflow → (calls j).Was (y.call r j) →
      y.call r j ≠ some .oof ∧ y.call r j ≠ some .panic := by
    intro j r h1 h2 h3
    cases hj : calls j with
    | never => exact absurd hj h1
    | ended =>
      rw [hj] at h3
      cases hr : y.call r j with
      | none => exact ⟨by simp, by simp⟩
      | some o => rw [hr] at h3; exact h3.elim
    | item a =>
      rw [hj] at h3
      cases hr : y.call r j with
      | none => rw [hr] at h3; exact h3.elim
      | some o =>
        rw [hr] at h3
        have h3 : Says a o := h3
        cases a with
        | value v => obtain rfl : o = .ok v := h3; exact ⟨by simp, by simp⟩
        | refused e => obtain rfl : o = .err e := h3; exact ⟨by simp, by simp⟩
        | overflow => exact absurd hj h2
  by_cases hnv : calls k = .never
  · obtain ⟨B, hB⟩ := hnever k (fun j hj => (hk j hj).1) hnv
    have := follows_call h B k (fun j hj => hw j B (hk j hj).1 (hk j hj).2 ((hB B (Nat.le_refl _)).1 j hj))
    rw [hnv]
    exact this.2 fun r hr => (hB r hr).2
  · have hne : ∀ j, j ≤ k → calls j ≠ .never := fun j hj => by
      rcases Nat.lt_or_eq_of_le hj with h | rfl
      · exact (hk j h).1
      · exact hnv
    have hB : ∃ B, ∀ r, B ≤ r → ∀ j, j ≤ k → (calls j).Was (y.call r j) := by
      suffices H : ∀ i, i ≤ k → ∃ B, ∀ r, B ≤ r → ∀ j, j ≤ i → (calls j).Was (y.call r j) from H k (Nat.le_refl _)
      intro i
      induction i with
      | zero =>
        intro _
        obtain ⟨B, hB⟩ := hcalls 0 (fun j hj => hne j (by omega))
        refine ⟨B, fun r hr j hj => ?_⟩
        obtain rfl : j = 0 := by omega
        exact hB r hr
      | succ i ih =>
        intro hi
        obtain ⟨A, hA⟩ := ih (by omega)
        obtain ⟨B, hB⟩ := hcalls (i + 1) (fun j hj => hne j (by omega))
        refine ⟨max A B, fun r hr j hj => ?_⟩
        rcases Nat.lt_or_eq_of_le hj with h | rfl
        · exact hA r (by omega) j (by omega)
        · exact hB r (by omega)
    obtain ⟨B, hB⟩ := hB
    exact (follows_call h B k
      (fun j hj => hw j B (hk j hj).1 (hk j hj).2 (hB B (Nat.le_refl _) j (by omega)))).1 _ (hB B (Nat.le_refl _) k (Nat.le_refl _))

end Kairos.SourceChain
