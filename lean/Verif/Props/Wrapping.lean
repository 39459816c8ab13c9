import Verif.Props.Kinds

/-!
# C04, C77: the exact value of expressions of amounts in the wrapping build
-/

namespace Props
open Kairos Spec

theorem chk_in {c : Cfg} {x v : Int} (h : (c.chk x : Out Int) = .ok v) : InI64 v := by
  rcases chk_eqv (ε := ErrorKind) c x with ⟨h1, -, -⟩ | ⟨w, h1, h2, -⟩
  · rw [h1] at h; cases h
  · rw [h1] at h; cases h; exact h2

theorem add_amt_in {c : Cfg} {u u' w : TUnit} {n n' r : Int} (h : exec c (.add (amt u n) (amt u' n')) = .ok (amt w r)) :
    InI64 r := by
  rw [exec_add] at h
  cases u <;> cases u' <;>
    simp only [amt, Eval.add, exec_addTo_seconds, exec_addTo_minutes, exec_addTo_hours, exec_addTo_days, exec_addTo_months,
      exec_addTo_years, Eval.addToSeconds, Eval.addToMinutes, Eval.addToHours, Eval.addToDays, Eval.addToMonths,
      Eval.addToYears, Cfg.add, OutE.bind_eq_ok] at h <;>
    first
    | (obtain ⟨q, hq, h⟩ := h
       cases w <;> cases h <;> exact chk_in hq)
    | (obtain ⟨p, -, q, hq, h⟩ := h
       cases w <;> cases h <;> exact chk_in hq)

theorem sub_amt_in {c : Cfg} {u u' w : TUnit} {n n' r : Int} (h : exec c (.sub (amt u n) (amt u' n')) = .ok (amt w r)) :
    InI64 r := by
  rw [exec_sub] at h
  cases u <;> cases u' <;>
    simp only [amt, Eval.sub, exec_subFrom_seconds, exec_subFrom_minutes, exec_subFrom_hours, exec_subFrom_days, exec_subFrom_months,
      exec_subFrom_years, Eval.subFromSeconds, Eval.subFromMinutes, Eval.subFromHours, Eval.subFromDays, Eval.subFromMonths,
      Eval.subFromYears, Cfg.sub, OutE.bind_eq_ok] at h <;>
    first
    | (obtain ⟨q, hq, h⟩ := h
       cases w <;> cases h <;> exact chk_in hq)
    | (obtain ⟨p, -, q, hq, h⟩ := h
       cases w <;> cases h <;> exact chk_in hq)

theorem amtTree_kind (t : AmtTree) : kind t.toTT = some .amount := by
  induction t with
  | amt u n => cases u <;> rfl
  | plus a b iha ihb => simp [AmtTree.toTT, TT.hadd_def, kind, iha, ihb]
  | minus a b iha ihb =>
    have : endMarked a.toTT = false := by cases a <;> first | rfl | (rename_i u n; cases u <;> rfl)
    simp [AmtTree.toTT, TT.hsub_def, kind, iha, ihb, this]

/-- A value of an expression of `i64` amounts is an `i64` amount. -/
theorem amtTree_in {c : Cfg} {t : AmtTree} (ht : t.InRange) {u : TUnit} {k : Int} (h : calculate c t.toTT = .ok (amt u k)) :
    InI64 k := by
  have val (a : AmtTree) {r : Out TT} (hr : r = calculate c a.toTT) (hv : (∃ v, r = .ok v)) : ∃ u n, r = .ok (amt u n) := by
    obtain ⟨v, hv⟩ := hv
    rcases C76_amounts c a.toTT (amtTree_kind a) with ⟨u, n, h⟩ | ⟨h, -⟩
    · exact ⟨u, n, hr ▸ h⟩
    · rw [← hr, hv] at h; cases h
  cases t with
  | amt u' n =>
    have h' : calculate c (amt u' n) = .ok (amt u k) := h
    rw [calculate_leaf c (by cases u' <;> rfl)] at h'
    have : amt u' n = amt u k := by injection h'
    have : n = k := by cases u' <;> cases u <;> cases this <;> rfl
    subst this; exact ht
  | plus a b =>
    have h' : calculate c (a.toTT + b.toTT) = .ok (amt u k) := h
    by_cases hva : ∃ v, calculate c a.toTT = .ok v
    · by_cases hvb : ∃ v, calculate c b.toTT = .ok v
      · obtain ⟨u1, n1, e1⟩ := val a rfl hva
        obtain ⟨u2, n2, e2⟩ := val b rfl hvb
        rw [(C77_values_combine c _ _ _ _ e1 e2).1 (by
          have := amtTree_kind (.plus a b); rw [show a.toTT + b.toTT = (AmtTree.plus a b).toTT from rfl, this]; simp),
          calculate_add] at h'
        exact add_amt_in h'
      · exact absurd h' (C77_failing_operand c _ _ _ (.inr fun w hw => hvb ⟨w, hw⟩)).1
    · exact absurd h' (C77_failing_operand c _ _ _ (.inl fun w hw => hva ⟨w, hw⟩)).1
  | minus a b =>
    have h' : calculate c (a.toTT - b.toTT) = .ok (amt u k) := h
    by_cases hva : ∃ v, calculate c a.toTT = .ok v
    · by_cases hvb : ∃ v, calculate c b.toTT = .ok v
      · obtain ⟨u1, n1, e1⟩ := val a rfl hva
        obtain ⟨u2, n2, e2⟩ := val b rfl hvb
        rw [(C77_values_combine c _ _ _ _ e1 e2).2 (by
          have := amtTree_kind (.minus a b); rw [show a.toTT - b.toTT = (AmtTree.minus a b).toTT from rfl, this]; simp),
          calculate_sub] at h'
        exact sub_amt_in h'
      · exact absurd h' (C77_failing_operand c _ _ _ (.inr fun w hw => hvb ⟨w, hw⟩)).2
    · exact absurd h' (C77_failing_operand c _ _ _ (.inl fun w hw => hva ⟨w, hw⟩)).2

/-- **C04, wrapping build, exactly.** If every amount is an `i64`, the value is the amount in the finest unit that is an
`i64` and equals the mathematical value up to a multiple of 2^64; there is exactly one such. -/
theorem C04_wrapped_value (c : Cfg) (hc : c.profile = .release) (t : AmtTree) (ht : t.InRange) (x : Int)
    (hx : x * t.finest.secs = t.secs) (k : Int) :
    calculate c t.toTT = .ok (amt t.finest k) ↔ InI64 k ∧ (18446744073709551616 : Int) ∣ k - x := by
  have hxc : x = cnt t := by
    have := cnt_secs t
    rw [← hx] at this
    exact (Int.eq_of_mul_eq_mul_right (by cases t.finest <;> decide) this).symm
  subst hxc
  rcases calculate_amt_rep c t with ⟨-, hp⟩ | ⟨k', hk, he⟩
  · rw [hc] at hp; cases hp
  · simp only [Cfg.eqv, hc] at he
    have hin := amtTree_in ht hk
    rw [hk]
    constructor
    · intro h
      have : k' = k := by
        have e : amt t.finest k' = amt t.finest k := by injection h
        revert e; cases t.finest <;> intro e <;> cases e <;> rfl
      subst this; exact ⟨hin, he⟩
    · rintro ⟨h1, h2⟩
      have : k = k' := by
        unfold InI64 at h1 hin
        omega
      rw [this]

example (k : Int) := C04_wrapped_value (std .release) rfl (.plus (.amt .day 9223372036854775807) (.amt .day 1))
  ⟨(by decide : InI64 9223372036854775807), (by decide : InI64 1)⟩ 9223372036854775808 (by decide) k

/-- The count in the finest unit always exists. -/
theorem C04_finest_divides (t : AmtTree) : ∃ x, x * t.finest.secs = t.secs := ⟨_, cnt_secs t⟩

/-- **C77, wrapping build.** Two expressions of `i64` amounts of the same size in seconds, with the same finest unit, have
the same value, and always have one. -/
theorem C77_rearranged_release (c : Cfg) (hc : c.profile = .release) (s t : AmtTree) (hs : s.InRange) (ht : t.InRange)
    (h : s.secs = t.secs) (hu : s.finest = t.finest) :
    calculate c s.toTT = calculate c t.toTT ∧ ∃ k, calculate c s.toTT = .ok (amt s.finest k) := by
  obtain ⟨k, hk, -⟩ := C04_amount_arithmetic_release c hc s
  have h1 := (C04_wrapped_value c hc s hs _ (cnt_secs s) k).1 hk
  have h2 := (C04_wrapped_value c hc t ht (cnt s) (by rw [← hu, cnt_secs, h]) k).2 h1
  exact ⟨by rw [hk, h2, hu], k, hk⟩

/-- The largest number of days plus one day, in both orders, and with an hour added and taken away. -/
example : calculate (std .release) (.days 9223372036854775807 + .days 1) = .ok (.days (-9223372036854775808)) ∧
    (AmtTree.plus (.amt .day 9223372036854775807) (.amt .day 1)).InRange ∧
    calculate (std .release) (.days 9223372036854775807 + (.hours 3 - .hours 3)) =
      calculate (std .release) ((.hours 3 + .days 9223372036854775807) - .hours 3) := by
  refine ⟨by decide +kernel, ?_, by decide +kernel⟩
  simp [AmtTree.InRange, InI64]

end Props
