import Verif.Spec.Part
import Verif.Lemmas.MonthAdd

/-! Closed forms of `moment - amount`. -/

namespace Kairos
open Spec
variable (c : Cfg)

/-- `borrow` without machine integers. -/
def bP (base low div top next : Int) : Int × Int :=
  if base < low then (next - ((-base) / div + 1), top + base) else (next, base)

theorem borrow_eq {ε : Type} {base low div top next : Int} (hl : low = 0 ∨ low = 1) (hdiv : 1 ≤ div)
    (ht : 0 ≤ top ∧ top ≤ 60) (hb1 : -4000000000000000000 ≤ base)
    (hn1 : -4000000000000000000 ≤ next) (hn2 : next ≤ 4000000000000000000) :
    (borrow c base low div top next : OutE ε (Int × Int)) = .ok (bP base low div top next) := by
  unfold borrow bP
  by_cases h : base < low
  · have hb0 : base ≤ 0 := by omega
    rw [if_pos h, if_pos h]
    have habs : (if base < 0 then -base else base) = -base := by split <;> omega
    have hq0 : 0 ≤ (-base) / div := Int.ediv_nonneg (by omega) (by omega)
    have hq1 : (-base) / div ≤ -base := Int.ediv_le_self _ (by omega)
    have habs' : (if 0 - base < 0 then -(0 - base) else 0 - base) = -base := by
      split <;> omega
    simp only [Cfg.abs, Cfg.add, Cfg.sub]
    rw [habs, chk_in c (by omega) (by omega), OutE.ok_bind, tdiv_nonneg (by omega),
      chk_in c (by omega) (by omega), OutE.ok_bind, chk_in c (by omega) (by omega), OutE.ok_bind,
      chk_in c (by omega) (by omega), OutE.ok_bind, habs', chk_in c (by omega) (by omega), OutE.ok_bind,
      chk_in c (by omega) (by omega), OutE.ok_bind]
    congr 2; omega
  · rw [if_neg h, if_neg h]

/-- `adjust_times_sub` without machine integers. -/
def subP (p : Parts) : Parts :=
  let b1 := bP p.s 0 60 60 p.mi
  let b2 := bP b1.1 0 60 60 p.h
  let b3 := bP b2.1 0 24 24 p.d
  let b4 := bP b3.1 1 32 31 p.mo
  let b5 := bP b4.1 1 13 12 p.y
  ⟨b5.1, b5.2, b4.2, b3.2, b2.2, b1.2⟩

/-- Bounds under which nothing overflows. -/
def Small (x : Int) : Prop := -100000000000000000 ≤ x ∧ x ≤ 100000000000000000

theorem bP_next {base low div top next : Int} (hl : low = 0 ∨ low = 1) (hdiv : 2 ≤ div) :
    (bP base low div top next).1 ≤ next ∧ next - ((if base < 0 then -base else 0) / 2 + 1) ≤ (bP base low div top next).1 := by
  unfold bP
  by_cases h : base < low
  · rw [if_pos h]
    have : (-base) / div ≤ (-base) / 2 := by
      have h0 : 0 ≤ -base := by omega
      have q0 := Int.ediv_nonneg (a := -base) (b := div) h0 (by omega)
      have q1 := Int.ediv_mul_le (-base) (b := div) (by omega)
      have q2 := Int.mul_le_mul_of_nonneg_left hdiv q0
      omega
    have := Int.ediv_nonneg (a := -base) (b := div) (by omega) (by omega)
    split <;> simp only <;> omega
  · rw [if_neg h]; split <;> simp only <;> omega

theorem adjustSub_eq {ε : Type} {p : Parts} (hs : Small p.s) (hmi : Small p.mi) (hh : Small p.h) (hd : Small p.d)
    (hmo : Small p.mo) (hy : Small p.y) :
    (adjustTimesSub c p : OutE ε Parts) = .ok (subP p) := by
  unfold Small at *
  unfold adjustTimesSub subP
  simp only
  have e1 := bP_next (base := p.s) (low := 0) (div := 60) (top := 60) (next := p.mi) (.inl rfl) (by decide)
  rw [borrow_eq c (.inl rfl) (by decide) (by decide) (by omega) (by omega) (by omega)]
  simp only [OutE.ok_bind]
  generalize bP p.s 0 60 60 p.mi = b1 at *
  have e2 := bP_next (base := b1.1) (low := 0) (div := 60) (top := 60) (next := p.h) (.inl rfl) (by decide)
  rw [borrow_eq c (.inl rfl) (by decide) (by decide) (by split at e1 <;> omega) (by omega) (by omega)]
  simp only [OutE.ok_bind]
  generalize bP b1.1 0 60 60 p.h = b2 at *
  have e3 := bP_next (base := b2.1) (low := 0) (div := 24) (top := 24) (next := p.d) (.inl rfl) (by decide)
  have h1 : -400000000000000000 ≤ b1.1 ∧ b1.1 ≤ 400000000000000000 := by split at e1 <;> omega
  have h2 : -800000000000000000 ≤ b2.1 ∧ b2.1 ≤ 400000000000000000 := by split at e2 <;> omega
  rw [borrow_eq c (.inl rfl) (by decide) (by decide) (by omega) (by omega) (by omega)]
  simp only [OutE.ok_bind]
  generalize bP b2.1 0 24 24 p.d = b3 at *
  have h3 : -1600000000000000000 ≤ b3.1 ∧ b3.1 ≤ 400000000000000000 := by split at e3 <;> omega
  have e4 := bP_next (base := b3.1) (low := 1) (div := 32) (top := 31) (next := p.mo) (.inr rfl) (by decide)
  rw [borrow_eq c (.inr rfl) (by decide) (by decide) (by omega) (by omega) (by omega)]
  simp only [OutE.ok_bind]
  generalize bP b3.1 1 32 31 p.mo = b4 at *
  have h4 : -3200000000000000000 ≤ b4.1 ∧ b4.1 ≤ 400000000000000000 := by split at e4 <;> omega
  rw [borrow_eq c (.inr rfl) (by decide) (by decide) (by omega) (by omega) (by omega)]
  rfl

/-- The parts `m` with `n` units subtracted from one component. -/
def subComp (m : Moment) : TUnit → Int → Parts
  | .second, n => ⟨m.year, m.month, m.day, m.hour, m.minute, m.second - n⟩
  | .minute, n => ⟨m.year, m.month, m.day, m.hour, m.minute - n, m.second⟩
  | .hour, n => ⟨m.year, m.month, m.day, m.hour - n, m.minute, m.second⟩
  | .day, n => ⟨m.year, m.month, m.day - n, m.hour, m.minute, m.second⟩
  | .month, n => ⟨m.year, m.month - n, m.day, m.hour, m.minute, m.second⟩
  | .year, n => ⟨m.year - n, m.month, m.day, m.hour, m.minute, m.second⟩

theorem sub_closed {m : Moment} (hc : Sane c) (hm : m.Valid c) (u : TUnit) (n : Int)
    (hn1 : -50000000000000000 ≤ n) (hn2 : n ≤ 50000000000000000) :
    calculate c (.moment m - amt u n) = Eval.buildMoment c (subP (subComp m u n)) := by
  obtain ⟨a1, a2, ⟨a3, a4, a5, a6⟩, ⟨t1, t2, t3, t4, t5, t6⟩, a7⟩ := hm
  have ml := Cal.monthLen_bounds (y := m.year) a3 a4
  unfold Sane at hc
  rw [calc_sub_moment, exec_subFromMoment]
  cases u <;> simp only [amt, Eval.subFromMoment, Cfg.sub, subComp] <;>
    rw [chk_in c (by omega) (by omega), OutE.ok_bind,
      adjustSub_eq c (by unfold Small; simp only; omega) (by unfold Small; simp only; omega)
        (by unfold Small; simp only; omega) (by unfold Small; simp only; omega)
        (by unfold Small; simp only; omega) (by unfold Small; simp only; omega), OutE.ok_bind]

/-! ### without bounds -/

theorem borrow_full {ε : Type} {base low div top next : Int} (hl : low = 0 ∨ low = 1) (hdiv : 13 ≤ div)
    (ht : 0 ≤ top ∧ top ≤ 60) (hb : -9223372036854775807 ≤ base)
    (hn : base < low → -4000000000000000000 ≤ next ∧ next ≤ 4000000000000000000) :
    (borrow c base low div top next : OutE ε (Int × Int)) = .ok (bP base low div top next) := by
  unfold borrow bP
  by_cases h : base < low
  · have hb0 : base ≤ 0 := by omega
    have hn := hn h
    rw [if_pos h, if_pos h]
    have habs : (if base < 0 then -base else base) = -base := by split <;> omega
    have hq0 : 0 ≤ (-base) / div := Int.ediv_nonneg (by omega) (by omega)
    have hq1 : (-base) / div ≤ (-base) / 13 := by
      have q1 := Int.ediv_mul_le (-base) (b := div) (by omega)
      have q2 := Int.mul_le_mul_of_nonneg_left hdiv hq0
      omega
    have habs' : (if 0 - base < 0 then -(0 - base) else 0 - base) = -base := by
      split <;> omega
    simp only [Cfg.abs, Cfg.add, Cfg.sub]
    rw [habs, chk_in c (by omega) (by omega), OutE.ok_bind, tdiv_nonneg (by omega),
      chk_in c (by omega) (by omega), OutE.ok_bind, chk_in c (by omega) (by omega), OutE.ok_bind,
      chk_in c (by omega) (by omega), OutE.ok_bind, habs', chk_in c (by omega) (by omega), OutE.ok_bind,
      chk_in c (by omega) (by omega), OutE.ok_bind]
    congr 2; omega
  · rw [if_neg h, if_neg h]

theorem adjustSub_full {ε : Type} {p : Parts} (hs : -9223372036854775807 ≤ p.s)
    (hmi : -9223372036854775807 ≤ p.mi ∧ (p.s < 0 → Small p.mi))
    (hh : -9223372036854775807 ≤ p.h ∧ (p.s < 0 ∨ p.mi < 0 → Small p.h))
    (hd : -9223372036854775807 ≤ p.d ∧ (p.s < 0 ∨ p.mi < 0 ∨ p.h < 0 → Small p.d))
    (hmo : -9223372036854775807 ≤ p.mo ∧ (p.s < 0 ∨ p.mi < 0 ∨ p.h < 0 ∨ p.d < 1 → Small p.mo))
    (hy : p.s < 0 ∨ p.mi < 0 ∨ p.h < 0 ∨ p.d < 1 ∨ p.mo < 1 → Small p.y) :
    (adjustTimesSub c p : OutE ε Parts) = .ok (subP p) := by
  unfold Small at *
  unfold adjustTimesSub subP
  simp only
  rw [borrow_full c (.inl rfl) (by decide) (by decide) hs (by omega)]
  simp only [OutE.ok_bind]
  have e1 : -9223372036854775807 ≤ (bP p.s 0 60 60 p.mi).1 ∧ ((bP p.s 0 60 60 p.mi).1 < 0 → p.s < 0 ∨ p.mi < 0) := by
    unfold bP; split <;> simp only <;> omega
  generalize bP p.s 0 60 60 p.mi = b1 at *
  rw [borrow_full c (.inl rfl) (by decide) (by decide) e1.1 (by omega)]
  simp only [OutE.ok_bind]
  have e2 : -9223372036854775807 ≤ (bP b1.1 0 60 60 p.h).1 ∧ ((bP b1.1 0 60 60 p.h).1 < 0 → p.s < 0 ∨ p.mi < 0 ∨ p.h < 0) := by
    unfold bP; split <;> simp only <;> omega
  generalize bP b1.1 0 60 60 p.h = b2 at *
  rw [borrow_full c (.inl rfl) (by decide) (by decide) e2.1 (by omega)]
  simp only [OutE.ok_bind]
  have e3 : -9223372036854775807 ≤ (bP b2.1 0 24 24 p.d).1 ∧
      ((bP b2.1 0 24 24 p.d).1 < 1 → p.s < 0 ∨ p.mi < 0 ∨ p.h < 0 ∨ p.d < 1) := by
    unfold bP; split <;> simp only <;> omega
  generalize bP b2.1 0 24 24 p.d = b3 at *
  rw [borrow_full c (.inr rfl) (by decide) (by decide) e3.1 (by omega)]
  simp only [OutE.ok_bind]
  have e4 : -9223372036854775807 ≤ (bP b3.1 1 32 31 p.mo).1 ∧
      ((bP b3.1 1 32 31 p.mo).1 < 1 → p.s < 0 ∨ p.mi < 0 ∨ p.h < 0 ∨ p.d < 1 ∨ p.mo < 1) := by
    unfold bP; split <;> simp only <;> omega
  generalize bP b3.1 1 32 31 p.mo = b4 at *
  rw [borrow_full c (.inr rfl) (by decide) (by decide) e4.1 (by omega)]
  rfl

/-- Subtracting, for every number that does not overflow. -/
theorem sub_closed_full {m : Moment} (hc : Sane c) (hm : m.Valid c) (u : TUnit) (n : Int) (hn : InI64 n) (h : InI64 (part m u - n)) :
    calculate c (.moment m - amt u n) = Eval.buildMoment c (subP (subComp m u n)) := by
  obtain ⟨a1, a2, ⟨a3, a4, a5, a6⟩, ⟨t1, t2, t3, t4, t5, t6⟩, a7⟩ := hm
  have ml := Cal.monthLen_bounds (y := m.year) a3 a4
  unfold Sane at hc
  unfold InI64 at hn
  rw [calc_sub_moment, exec_subFromMoment]
  cases u <;> simp only [amt, Eval.subFromMoment, Cfg.sub, subComp] <;> simp only [part] at h <;>
    rw [chk_ok_of_in c h, OutE.ok_bind,
      adjustSub_full c (by simp only; omega) (by unfold Small; simp only; omega)
        (by unfold Small; simp only; omega) (by unfold Small; simp only; omega)
        (by unfold Small; simp only; omega) (by unfold Small; simp only; omega), OutE.ok_bind]

end Kairos
