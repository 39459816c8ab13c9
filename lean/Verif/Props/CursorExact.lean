import Verif.Props.Cursor
import Verif.Props.Subtracting
import Verif.Spec.AddRight
import Verif.Spec.SubRight

/-!
# C116: exactly when an iterator moved forth and back stays right, for any number of seconds, minutes, hours or days
-/

namespace Props
open Kairos Spec

/-- The moves lead to one position at most. -/
private theorem follows_unique {c : Cfg} {inc : TT} {mvs : List Move} : ∀ {a r r' : Moment}, Follows c inc a mvs r → Follows c inc a mvs r' → r = r' := by
  induction mvs with
  | nil => intro a r r' h h'; cases h; cases h'; rfl
  | cons mv mvs ih =>
    intro a r r' h h'
    cases h with
    | step _ b _ _ _ hb hf =>
      cases h' with
      | step _ b' _ _ _ hb' hf' =>
        rw [hb] at hb'
        cases hb'
        exact ih hf hf'

private theorem follows_snoc {c : Cfg} {inc : TT} {mvs : List Move} {mv : Move} : ∀ {a r : Moment}, Follows c inc a (mvs ++ [mv]) r ↔
    ∃ b, Follows c inc a mvs b ∧ calculate c (mv.expr inc b) = .ok (.moment r) := by
  induction mvs with
  | nil =>
    intro a r
    constructor
    · intro h
      cases h with
      | step _ b _ _ _ hb hf => cases hf; exact ⟨a, .here a, hb⟩
    · rintro ⟨b, h, e⟩
      cases h
      exact .step _ r _ _ _ e (.here r)
  | cons m' mvs ih =>
    intro a r
    constructor
    · intro h
      cases h with
      | step _ b _ _ _ hb hf =>
        obtain ⟨q, h1, h2⟩ := ih.1 hf
        exact ⟨q, .step _ _ _ _ _ hb h1, h2⟩
    · rintro ⟨q, h1, h2⟩
      cases h1 with
      | step _ b _ _ _ hb hf => exact .step _ _ _ _ _ hb (ih.2 ⟨q, hf, h2⟩)

private theorem net_snoc (mvs : List Move) (mv : Move) : net (mvs ++ [mv]) = net mvs + (match mv with | .forth => 1 | .back => -1) := by
  induction mvs with
  | nil => cases mv <;> rfl
  | cons m' mvs ih => cases m' <;> simp only [List.cons_append, net, ih] <;> cases mv <;> simp only <;> omega

private theorem take_snoc {l : List Move} {j : Nat} (h : j < l.length) : l.take (j + 1) = l.take j ++ [l[j]] := by
  simp

/-- **C116, exactly when it holds (partial)**, for any number of seconds, minutes, hours or days. `d k` is the date-time exactly `k` increments from the base. A position
moved forth and back any number of times is at `d k` at every point of the way, `k` being the moves forth minus those back until then, if and only if
every single move forth is an addition that goes right (`AddRight`, always so for up to 30 days) and every move back a subtraction that goes right (`SubRight`).
By C115 the calls of next, skip and rollback are such moves. -/
theorem C116_every_position_iff_partial (c : Cfg) (hc : Sane c) (m : Moment) (u : TUnit) (hu : u = .second ∨ u = .minute ∨ u = .hour ∨ u = .day)
    (n : Int) (hn : 0 ≤ n) (mvs : List Move) (d : Int → Moment) (h0 : d 0 = m)
    (hd : ∀ j, j ≤ mvs.length → (d (net (mvs.take j))).Valid c ∧ (d (net (mvs.take j))).nano = 0 ∧
      (d (net (mvs.take j))).instant = m.instant + net (mvs.take j) * (n * u.secs)) :
    (∀ j, j ≤ mvs.length → Follows c (amt u n) m (mvs.take j) (d (net (mvs.take j)))) ↔
      ∀ j, j < mvs.length →
        (mvs[j]? = some .forth → AddRight (d (net (mvs.take j))) (d (net (mvs.take j) + 1))) ∧
        (mvs[j]? = some .back → SubRight (d (net (mvs.take j))) (d (net (mvs.take j) - 1)) n u) := by
  -- one move
  have one : ∀ j, (hj : j < mvs.length) →
      (calculate c ((mvs[j]).expr (amt u n) (d (net (mvs.take j)))) = .ok (.moment (d (net (mvs.take (j + 1))))) ↔
        (mvs[j]? = some .forth → AddRight (d (net (mvs.take j))) (d (net (mvs.take j) + 1))) ∧
        (mvs[j]? = some .back → SubRight (d (net (mvs.take j))) (d (net (mvs.take j) - 1)) n u)) := by
    intro j hj
    obtain ⟨v0, z0, i0⟩ := hd j (by omega)
    obtain ⟨v1, z1, i1⟩ := hd (j + 1) (by omega)
    rw [List.getElem?_eq_getElem hj]
    rw [take_snoc hj, net_snoc] at v1 z1 i1 ⊢
    cases hmv : mvs[j] with
    | forth =>
      rw [hmv] at v1 z1 i1
      simp only [Int.add_mul] at v1 z1 i1 ⊢
      simp only [Move.expr, true_implies, reduceCtorEq, Option.some.injEq, false_implies, and_true]
      exact C16_exact_iff_partial c hc _ _ v0 v1 z1 u hu n hn (by omega)
    | back =>
      rw [hmv] at v1 z1 i1
      simp only [Int.add_mul] at v1 z1 i1 ⊢
      simp only [Move.expr, true_implies, reduceCtorEq, Option.some.injEq, false_implies, true_and]
      exact C21_exact_iff_partial c hc _ _ v0 v1 z1 u hu n hn (by omega)
  constructor
  · intro h j hj
    rw [← one j hj]
    have h1 := h (j + 1) (by omega)
    rw [take_snoc hj] at h1
    obtain ⟨b, hb, e⟩ := follows_snoc.1 h1
    rw [follows_unique hb (h j (by omega))] at e
    rwa [take_snoc hj]
  · intro h j
    induction j with
    | zero => intro _; simp only [List.take_zero, net, h0]; exact .here m
    | succ j ih =>
      intro hj
      have e := (one j (by omega)).2 (h j (by omega))
      have hf := ih (by omega)
      generalize hq : d (net (mvs.take (j + 1))) = q at e
      rw [take_snoc (by omega)]
      exact follows_snoc.2 ⟨_, hf, e⟩

/-- 15 days from 20 January to 4 February, back and forth again: January has 31 days, so all is right. Back from March it is not. -/
example (j : Nat) (hj : j ≤ 3) := (C116_every_position_iff_partial (std .debug) (sane_std _) (at_ 2017 1 20 0 0 0) .day (by decide) 15 (by decide)
  [.forth, .back, .forth] (fun k => if k = 1 then at_ 2017 2 4 0 0 0 else at_ 2017 1 20 0 0 0) rfl (by decide +kernel)).2
    (by unfold SubRight; decide +kernel) j hj

example : ¬ SubRight (at_ 2017 3 4 0 0 0) (at_ 2017 2 17 0 0 0) 15 .day := by unfold SubRight; decide +kernel

/-- **C116, the calls (partial).** With any number of seconds, minutes, hours or days as increment: if every move a history of calls of next, skip and rollback
stands for is an addition or a subtraction that goes right, all the calls succeed and next returns the date-time exactly as many increments from the base
as there were moves forth minus moves back. Missing: the other histories, see `C116_every_position_iff_partial` and `C116_refuted`. -/
theorem C116_calls_partial (c : Cfg) (hc : Sane c) (m : Moment) (u : TUnit) (hu : u = .second ∨ u = .minute ∨ u = .hour ∨ u = .day)
    (n : Int) (hn : 0 ≤ n) (it : Iter) (hit : Iter.build m (amt u n) = .ok it) (ops : List IterOp)
    (mvs : List Move) (hmvs : mvs = moves false (ops ++ [.next])) (d : Int → Moment) (h0 : d 0 = m)
    (hd : ∀ j, j ≤ mvs.length → (d (net (mvs.take j))).Valid c ∧ (d (net (mvs.take j))).nano = 0 ∧
      (d (net (mvs.take j))).instant = m.instant + net (mvs.take j) * (n * u.secs))
    (hright : ∀ j, j < mvs.length →
        (mvs[j]? = some .forth → AddRight (d (net (mvs.take j))) (d (net (mvs.take j) + 1))) ∧
        (mvs[j]? = some .back → SubRight (d (net (mvs.take j))) (d (net (mvs.take j) - 1)) n u)) :
    AllOk c it ops ∧ ((runOps c it ops).next c).2 = some (.ok (.moment (d (net mvs)))) := by
  have h := (C116_every_position_iff_partial c hc m u hu n hn mvs d h0 hd).2 hright mvs.length (Nat.le_refl _)
  rw [List.take_length] at h
  subst hmvs
  exact (C115_position c m _ _ it hit ops).2 h

example := C116_calls_partial (std .debug) (sane_std _) (at_ 2017 1 20 0 0 0) .day (by decide) 15 (by decide) _ rfl [.skip, .rollback, .skip]
  [.forth, .back, .forth] rfl (fun k => if k = 1 then at_ 2017 2 4 0 0 0 else at_ 2017 1 20 0 0 0) rfl (by decide +kernel)
    (by unfold SubRight; decide +kernel)

end Props
