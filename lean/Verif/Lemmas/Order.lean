import Verif.Model.Indicator
import Verif.Lemmas.Calendar

/-! The derived order on values. -/

namespace Kairos

theorem Moment.cmp_eq {a b : Moment} : a.cmp b = .eq ↔ a = b := by
  cases a; cases b
  simp only [Moment.cmp, Ordering.then_eq_eq, Int.compare_eq_eq, Moment.mk.injEq]

theorem Moment.cmp_swap (a b : Moment) : b.cmp a = (a.cmp b).swap := by
  simp only [Moment.cmp, Ordering.swap_then]
  congr 1; · exact Std.OrientedOrd.eq_swap
  congr 1; · exact Std.OrientedOrd.eq_swap
  congr 1; · exact Std.OrientedOrd.eq_swap
  congr 1; · exact Std.OrientedOrd.eq_swap
  congr 1; · exact Std.OrientedOrd.eq_swap
  congr 1
  · exact Std.OrientedOrd.eq_swap
  · exact Std.OrientedOrd.eq_swap

theorem Moment.cmp_lt {a b : Moment} : a.cmp b = .lt ↔
    a.year < b.year ∨ (a.year = b.year ∧ (a.month < b.month ∨ (a.month = b.month ∧
    (a.day < b.day ∨ (a.day = b.day ∧ (a.hour < b.hour ∨ (a.hour = b.hour ∧
    (a.minute < b.minute ∨ (a.minute = b.minute ∧ (a.second < b.second ∨ (a.second = b.second ∧
    a.nano < b.nano))))))))))) := by
  simp only [Moment.cmp, Ordering.then_eq_lt, Int.compare_eq_eq, Int.compare_eq_lt]

theorem Moment.cmp_trans {a b c : Moment} (h1 : a.cmp b = .lt) (h2 : b.cmp c = .lt) : a.cmp c = .lt := by
  rw [Moment.cmp_lt] at *; omega

/-- The order of existing moments is the order on the timeline. -/
theorem Moment.cmp_lt_instant {c : Cfg} {a b : Moment} (ha : a.Valid c) (hb : b.Valid c) :
    a.cmp b = .lt ↔ a.instant < b.instant ∨ (a.instant = b.instant ∧ a.nano < b.nano) := by
  rw [Moment.cmp_lt]
  obtain ⟨-, -, da, ta, -⟩ := ha
  obtain ⟨-, -, db, tb, -⟩ := hb
  have h1 := Cal.dayNumber_lt_iff da db
  have h2 := Cal.dayNumber_lt_iff db da
  unfold Moment.instant Cal.instant
  unfold Cal.ValidTime at ta tb
  generalize hA : Cal.dayNumber a.year a.month a.day = A at *
  generalize hB : Cal.dayNumber b.year b.month b.day = B at *
  have h3 : A = B ↔ (a.year = b.year ∧ a.month = b.month ∧ a.day = b.day) := by
    constructor
    · intro h; exact Cal.dayNumber_inj da db (by rw [hA, hB, h])
    · rintro ⟨e1, e2, e3⟩; rw [← hA, ← hB, e1, e2, e3]
  by_cases c1 : A < B
  · have := h1.1 c1
    constructor
    · intro _; left; omega
    · intro _; omega
  · by_cases c2 : A = B
    · have := h3.1 c2
      omega
    · have := h2.1 (by omega)
      omega

theorem TT.cmp_rank_ne {a b : TT} (h : a.rank ≠ b.rank) : a.cmp b = compare a.rank b.rank := by
  cases a <;> cases b <;> first | rfl | (exact absurd rfl h)

theorem TT.cmp_eq {a b : TT} : a.cmp b = .eq ↔ a = b := by
  induction a generalizing b with
  | moment m => cases b <;> simp [TT.cmp, TT.rank, Moment.cmp_eq]; all_goals decide
  | addition x y ihx ihy => cases b <;> simp [TT.cmp, TT.rank, ihx, ihy]; all_goals decide
  | subtraction x y ihx ihy => cases b <;> simp [TT.cmp, TT.rank, ihx, ihy]; all_goals decide
  | endOfYear x ih => cases b <;> simp [TT.cmp, TT.rank, ih]; all_goals decide
  | endOfMonth x ih => cases b <;> simp [TT.cmp, TT.rank, ih]; all_goals decide
  | endOfDay x ih => cases b <;> simp [TT.cmp, TT.rank, ih]; all_goals decide
  | endOfHour x ih => cases b <;> simp [TT.cmp, TT.rank, ih]; all_goals decide
  | endOfMinute x ih => cases b <;> simp [TT.cmp, TT.rank, ih]; all_goals decide
  | _ => cases b <;> simp [TT.cmp, TT.rank]; all_goals decide

theorem TT.cmp_swap (a b : TT) : b.cmp a = (a.cmp b).swap := by
  have ne : ∀ a b : TT, a.rank ≠ b.rank → b.cmp a = (a.cmp b).swap := by
    intro a b hr
    rw [cmp_rank_ne hr, cmp_rank_ne (Ne.symm hr)]; exact Std.OrientedOrd.eq_swap
  induction a generalizing b with
  | addition x y ihx ihy =>
    by_cases hr : (TT.addition x y).rank = b.rank
    · cases b <;> first | (simp [TT.rank] at hr; done) | skip
      simp only [TT.cmp, Ordering.swap_then, ihx, ihy]
    · exact ne _ _ hr
  | subtraction x y ihx ihy =>
    by_cases hr : (TT.subtraction x y).rank = b.rank
    · cases b <;> first | (simp [TT.rank] at hr; done) | skip
      simp only [TT.cmp, Ordering.swap_then, ihx, ihy]
    · exact ne _ _ hr
  | endOfYear x ih =>
    by_cases hr : (TT.endOfYear x).rank = b.rank
    · cases b <;> first | (simp [TT.rank] at hr; done) | skip
      simp only [TT.cmp]; exact ih _
    · exact ne _ _ hr
  | endOfMonth x ih =>
    by_cases hr : (TT.endOfMonth x).rank = b.rank
    · cases b <;> first | (simp [TT.rank] at hr; done) | skip
      simp only [TT.cmp]; exact ih _
    · exact ne _ _ hr
  | endOfDay x ih =>
    by_cases hr : (TT.endOfDay x).rank = b.rank
    · cases b <;> first | (simp [TT.rank] at hr; done) | skip
      simp only [TT.cmp]; exact ih _
    · exact ne _ _ hr
  | endOfHour x ih =>
    by_cases hr : (TT.endOfHour x).rank = b.rank
    · cases b <;> first | (simp [TT.rank] at hr; done) | skip
      simp only [TT.cmp]; exact ih _
    · exact ne _ _ hr
  | endOfMinute x ih =>
    by_cases hr : (TT.endOfMinute x).rank = b.rank
    · cases b <;> first | (simp [TT.rank] at hr; done) | skip
      simp only [TT.cmp]; exact ih _
    · exact ne _ _ hr
  | _ =>
    cases b <;> first
      | (apply ne; simp [TT.rank]; done)
      | (exact Std.OrientedOrd.eq_swap (α := Int))
      | (exact Moment.cmp_swap _ _)

theorem TT.cmp_lt_rank {a b : TT} (h : a.cmp b = .lt) : a.rank ≤ b.rank := by
  by_cases hr : a.rank = b.rank
  · omega
  · rw [cmp_rank_ne hr, Nat.compare_eq_lt] at h; omega

theorem lex_trans {α β : Type} {f : α → α → Ordering} {g : β → β → Ordering}
    (hf : ∀ a b, f a b = .eq ↔ a = b) {a b c : α} {x y z : β}
    (tf : f a b = .lt → f b c = .lt → f a c = .lt) (tg : g x y = .lt → g y z = .lt → g x z = .lt)
    (h1 : (f a b).then (g x y) = .lt) (h2 : (f b c).then (g y z) = .lt) :
    (f a c).then (g x z) = .lt := by
  rw [Ordering.then_eq_lt] at *
  rcases h1 with h1 | ⟨h1, h1'⟩ <;> rcases h2 with h2 | ⟨h2, h2'⟩
  · exact .inl (tf h1 h2)
  · rw [hf] at h2; subst h2; exact .inl h1
  · rw [hf] at h1; subst h1; exact .inl h2
  · rw [hf] at h1 h2; subst h1 h2; exact .inr ⟨(hf _ _).2 rfl, tg h1' h2'⟩

theorem TT.cmp_trans {a b c : TT} (h1 : a.cmp b = .lt) (h2 : b.cmp c = .lt) : a.cmp c = .lt := by
  have r1 := cmp_lt_rank h1
  have r2 := cmp_lt_rank h2
  by_cases hr : a.rank = c.rank
  · have hab : a.rank = b.rank := by omega
    have hbc : b.rank = c.rank := by omega
    clear r1 r2 hr
    have lt_of : ∀ {a b c : TT}, (a.rank = b.rank → b.rank = c.rank → a.cmp b = .lt → b.cmp c = .lt → a.cmp c = .lt) →
        a.cmp b = .lt → b.cmp c = .lt → a.cmp c = .lt := by
      intro a b c h g1 g2
      have r1 := cmp_lt_rank g1
      have r2 := cmp_lt_rank g2
      by_cases hr : a.rank = c.rank
      · exact h (by omega) (by omega) g1 g2
      · rw [cmp_rank_ne hr, Nat.compare_eq_lt]; omega
    induction a generalizing b c with
    | moment m =>
      cases b <;> (try (simp [TT.rank] at hab; done)); cases c <;> (try (simp [TT.rank] at hbc; done))
      exact Moment.cmp_trans h1 h2
    | addition x y ihx ihy =>
      cases b <;> (try (simp [TT.rank] at hab; done)); cases c <;> (try (simp [TT.rank] at hbc; done))
      exact lex_trans (fun _ _ => TT.cmp_eq) (lt_of fun r1 r2 g1 g2 => ihx g1 g2 r1 r2) (lt_of fun r1 r2 g1 g2 => ihy g1 g2 r1 r2) h1 h2
    | subtraction x y ihx ihy =>
      cases b <;> (try (simp [TT.rank] at hab; done)); cases c <;> (try (simp [TT.rank] at hbc; done))
      exact lex_trans (fun _ _ => TT.cmp_eq) (lt_of fun r1 r2 g1 g2 => ihx g1 g2 r1 r2) (lt_of fun r1 r2 g1 g2 => ihy g1 g2 r1 r2) h1 h2
    | endOfYear x ih =>
      cases b <;> (try (simp [TT.rank] at hab; done)); cases c <;> (try (simp [TT.rank] at hbc; done))
      simp only [TT.cmp] at *
      exact lt_of (fun r1 r2 g1 g2 => ih g1 g2 r1 r2) h1 h2
    | endOfMonth x ih =>
      cases b <;> (try (simp [TT.rank] at hab; done)); cases c <;> (try (simp [TT.rank] at hbc; done))
      simp only [TT.cmp] at *
      exact lt_of (fun r1 r2 g1 g2 => ih g1 g2 r1 r2) h1 h2
    | endOfDay x ih =>
      cases b <;> (try (simp [TT.rank] at hab; done)); cases c <;> (try (simp [TT.rank] at hbc; done))
      simp only [TT.cmp] at *
      exact lt_of (fun r1 r2 g1 g2 => ih g1 g2 r1 r2) h1 h2
    | endOfHour x ih =>
      cases b <;> (try (simp [TT.rank] at hab; done)); cases c <;> (try (simp [TT.rank] at hbc; done))
      simp only [TT.cmp] at *
      exact lt_of (fun r1 r2 g1 g2 => ih g1 g2 r1 r2) h1 h2
    | endOfMinute x ih =>
      cases b <;> (try (simp [TT.rank] at hab; done)); cases c <;> (try (simp [TT.rank] at hbc; done))
      simp only [TT.cmp] at *
      exact lt_of (fun r1 r2 g1 g2 => ih g1 g2 r1 r2) h1 h2
    | _ =>
      cases b <;> (try (simp [TT.rank] at hab; done)); cases c <;> (try (simp [TT.rank] at hbc; done))
      simp only [TT.cmp, Int.compare_eq_lt] at *; omega
  · rw [cmp_rank_ne hr, Nat.compare_eq_lt]; omega

end Kairos
