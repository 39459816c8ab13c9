import Verif.Lemmas.AmountExact
import Verif.Spec.Fits

/-! Exactly when the checked build can combine two amounts. -/

namespace Kairos
open Spec

theorem inI64_of_mul {x p : Int} (hp : 1 ≤ p) (h : InI64 (x * p)) : InI64 x := by
  unfold InI64 at *
  have hx : 0 ≤ x → x ≤ x * p := fun h0 => by
    have := Int.mul_le_mul_of_nonneg_left hp h0; omega
  have hy : x ≤ 0 → x * p ≤ x := fun h0 => by
    have := Int.mul_le_mul_of_nonpos_left h0 hp; omega
  omega

def prod : List Int → Int
  | [] => 1
  | k :: ks => k * prod ks

theorem prod_pos {ks : List Int} (h : ∀ k ∈ ks, 1 ≤ k) : 1 ≤ prod ks := by
  induction ks with
  | nil => simp [prod]
  | cons k ks ih =>
    have h1 := h k (by simp)
    have h2 := ih fun x hx => h x (by simp [hx])
    have := Int.mul_le_mul h1 h2 (by omega) (by omega)
    simp only [prod]; omega

theorem chk_debug {ε : Type} {c : Cfg} (hc : c.profile = .debug) (x : Int) :
    (c.chk x : OutE ε Int) = if InI64 x then .ok x else .panic := by
  simp [Cfg.chk, hc]

theorem mulL_debug {ε : Type} {c : Cfg} (hc : c.profile = .debug) {a : Int} (ha : InI64 a) {ks : List Int} (h : ∀ k ∈ ks, 1 ≤ k) :
    (c.mulL a ks : OutE ε Int) = if InI64 (a * prod ks) then .ok (a * prod ks) else .panic := by
  induction ks generalizing a with
  | nil => simp [Cfg.mulL, prod, ha]
  | cons k ks ih =>
    have h2 : ∀ x ∈ ks, 1 ≤ x := fun x hx => h x (by simp [hx])
    have hp := prod_pos h2
    simp only [Cfg.mulL, Cfg.mul, prod, chk_debug hc, ← Int.mul_assoc]
    by_cases hk : InI64 (a * k)
    · rw [if_pos hk]
      exact ih hk h2
    · rw [if_neg hk, if_neg fun h => hk (inI64_of_mul hp h)]
      rfl

/-- What the checked build does with the two operands counted in a common unit. -/
def both (w : TUnit) (x y z : Int) : Out TT :=
  if InI64 x ∧ InI64 y ∧ InI64 z then .ok (amt w z) else .panic

theorem ite_bind {ε α β : Type} (p : Prop) [Decidable p] (x : α) (f : α → OutE ε β) :
    ((if p then .ok x else .panic : OutE ε α) >>= f) = if p then f x else .panic := by
  by_cases h : p <;> simp [h]

macro "cell_arm" : tactic => `(tactic| (
  repeat' split
  all_goals try simp only [OutE.ok_bind, OutE.panic_bind]
  all_goals repeat' split
  all_goals try simp only [OutE.ok_bind, OutE.panic_bind]
  all_goals first | rfl | (exfalso; unfold InI64 at *; omega) | (congr 2; omega)))

theorem exec_add_amt_debug {c : Cfg} (hc : c.profile = .debug) (u v : TUnit) {n k : Int} (hn : InI64 n) (hk : InI64 k) :
    exec c (.add (amt u n) (amt v k)) = both (finer u v) (n * fac u (finer u v)) (k * fac v (finer u v))
      (n * fac u (finer u v) + k * fac v (finer u v)) := by
  have e : exec c (.add (amt u n) (amt v k)) = exec c (.addTo u.idx n (amt v k)) := exec_add_amt c u n (.amt v k)
  rw [e]
  have m := @mulL_debug ErrorKind c hc
  cases u <;> cases v <;>
    simp only [Spec.TUnit.idx, amt, exec_addTo_seconds, exec_addTo_minutes, exec_addTo_hours,
      exec_addTo_days, exec_addTo_months, exec_addTo_years, Eval.addToSeconds, Eval.addToMinutes,
      Eval.addToHours, Eval.addToDays, Eval.addToMonths, Eval.addToYears, Cfg.add] <;>
    (try first | rw [m hn (by decide)] | rw [m hk (by decide)]) <;>
    clear m <;>
    simp only [prod, fac, finer, TUnit.secs, both, chk_debug hc] <;>
    simp (config := { decide := true, ground := true }) only [amt, Int.mul_one, if_true, if_false] <;>
    cell_arm

theorem exec_sub_amt_debug {c : Cfg} (hc : c.profile = .debug) (u v : TUnit) {n k : Int} (hn : InI64 n) (hk : InI64 k) :
    exec c (.sub (amt u n) (amt v k)) = both (finer u v) (n * fac u (finer u v)) (k * fac v (finer u v))
      (n * fac u (finer u v) - k * fac v (finer u v)) := by
  rw [exec_sub_amt]
  have m := @mulL_debug ErrorKind c hc
  cases u <;> cases v <;>
    simp only [Spec.TUnit.idx, amt, exec_subFrom_seconds, exec_subFrom_minutes, exec_subFrom_hours,
      exec_subFrom_days, exec_subFrom_months, exec_subFrom_years, Eval.subFromSeconds,
      Eval.subFromMinutes, Eval.subFromHours, Eval.subFromDays, Eval.subFromMonths,
      Eval.subFromYears, Cfg.sub] <;>
    (try first | rw [m hn (by decide)] | rw [m hk (by decide)]) <;>
    clear m <;>
    simp only [prod, fac, finer, TUnit.secs, both, chk_debug hc] <;>
    simp (config := { decide := true, ground := true }) only [amt, Int.mul_one, if_true, if_false] <;>
    cell_arm

end Kairos
