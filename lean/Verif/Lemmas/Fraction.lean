import Verif.Spec.Fraction
import Verif.Lemmas.EvalEqs

/-! Cutting fractions of seconds before a calculation or after it is the same. -/

namespace Kairos
open Spec

variable {α : Type}

/-- A call likewise. -/
def wholeCall : Call → Call
  | .calculate t => .calculate (whole t)
  | .endOf k t => .endOf k (whole t)
  | .add a b => .add (whole a) (whole b)
  | .sub a b => .sub (whole a) (whole b)
  | .addTo u n t => .addTo u n (whole t)
  | .subFrom u n t => .subFrom u n (whole t)
  | .addToMoment m t => .addToMoment (wholeSecond m) (whole t)
  | .subFromMoment m t => .subFromMoment (wholeSecond m) (whole t)

theorem whole_bind {x' x : Out TT} {f' f : TT → Out TT} (h : wholeOut x = x') (hf : ∀ v, wholeOut (f v) = f' (whole v)) :
    wholeOut (x >>= f) = (x' >>= f') := by
  subst h
  cases x <;> first | exact hf _ | rfl

theorem whole_bind' {x : Out α} {f' f : α → Out TT} (hx : ∀ e, x ≠ .err e) (hf : ∀ v, wholeOut (f v) = f' v) :
    wholeOut (x >>= f) = (x >>= f') := by
  cases x with
  | ok a => exact hf a
  | err e => exact absurd rfl (hx e)
  | panic => rfl
  | oof => rfl

theorem whole_build (c : Cfg) (p : Parts) : wholeOut (Eval.buildMoment c p) = Eval.buildMoment c p := by
  unfold Eval.buildMoment
  cases fromYmdOpt c (asI32 p.y) (asU32 p.mo) (asU32 p.d) with
  | none => rfl
  | some nd =>
    simp only [Option.bind, Date.andHmsOpt]
    split <;> rename_i h
    · split at h
      · cases h; rfl
      · cases h
    · rfl

theorem whole_made (c : Cfg) (y m d h mi s y' m' d' h' mi' s' : Int) :
    wholeOut (match fromYmdOpt c y m d with | some nd => (do .ok (.moment (← nd.andHms h mi s))) | none => .err (.outOfBounds y' m' d' h' mi' s')) =
      (match fromYmdOpt c y m d with | some nd => (do .ok (.moment (← nd.andHms h mi s))) | none => .err (.outOfBounds y' m' d' h' mi' s') : Out TT) := by
  cases fromYmdOpt c y m d with
  | none => rfl
  | some nd =>
    simp only [Date.andHms, Date.andHmsOpt]
    by_cases hv : Cal.ValidTime h mi s
    · simp only [if_pos hv]; rfl
    · simp only [if_neg hv]; rfl

theorem whole_built (c : Cfg) (y m d h mi s y' m' d' h' mi' s' : Int) :
    wholeOut (match (fromYmdOpt c y m d).bind (fun nd => nd.andHmsOpt h mi s) with
        | some r => .ok (.moment r) | none => .err (.outOfBounds y' m' d' h' mi' s')) =
      (match (fromYmdOpt c y m d).bind (fun nd => nd.andHmsOpt h mi s) with
        | some r => .ok (.moment r) | none => .err (.outOfBounds y' m' d' h' mi' s') : Out TT) := by
  cases fromYmdOpt c y m d with
  | none => rfl
  | some nd =>
    simp only [Option.bind, Date.andHmsOpt]
    by_cases hv : Cal.ValidTime h mi s
    · simp only [if_pos hv]; rfl
    · simp only [if_neg hv]; rfl

macro "whole_arm" h:ident : tactic => `(tactic| (
  repeat' first
    | rfl
    | exact $h _
    | exact whole_build _ _
    | refine whole_bind ($h _) (fun _ => ?_)
    | refine whole_bind' (chk_ne_err _ _) (fun _ => ?_)
    | refine whole_bind' (mulL_ne_err _ _ _) (fun _ => ?_)
    | refine whole_bind' (adjustTimesAdd_ne_err _ _) (fun _ => ?_)
    | refine whole_bind' (adjustTimesSub_ne_err _ _) (fun _ => ?_)))

theorem body_whole (c : Cfg) (R R' : Call → Out TT) (hR : ∀ k, wholeOut (R k) = R' (wholeCall k)) (k : Call) :
    wholeOut (Eval.body c R k) = Eval.body c R' (wholeCall k) := by
  cases k with
  | calculate t =>
    simp only [wholeCall, Eval.body, Eval.doCalculate]
    cases t <;> simp only [whole] <;> first | rfl | exact hR _
  | endOf kind t =>
    cases kind <;>
      simp only [wholeCall, Eval.body, Eval.endOfYear, Eval.endOfMonth, Eval.endOfDay, Eval.endOfHour, Eval.endOfMinute] <;>
      (refine whole_bind (hR (.calculate t)) ?_; intro v
       cases v <;> simp only [whole] <;> first
        | rfl | exact hR _ | exact whole_made c _ _ _ _ _ _ _ _ _ _ _ _ | exact whole_built c _ _ _ _ _ _ _ _ _ _ _ _)
  | add a b =>
    simp only [wholeCall, Eval.body]
    cases a <;> cases b <;> simp only [whole, Eval.add] <;> whole_arm hR
  | sub a b =>
    simp only [wholeCall, Eval.body]
    cases a <;> cases b <;> simp only [whole, Eval.sub] <;> whole_arm hR
  | addTo u n t =>
    cases u <;>
      simp only [wholeCall, Eval.body, Eval.addToSeconds, Eval.addToMinutes, Eval.addToHours, Eval.addToDays,
        Eval.addToMonths, Eval.addToYears] <;>
      cases t <;> simp only [whole] <;> whole_arm hR
  | subFrom u n t =>
    cases u <;>
      simp only [wholeCall, Eval.body, Eval.subFromSeconds, Eval.subFromMinutes, Eval.subFromHours,
        Eval.subFromDays, Eval.subFromMonths, Eval.subFromYears] <;>
      cases t <;> simp only [whole] <;> whole_arm hR
  | addToMoment m t =>
    simp only [wholeCall, Eval.body, Eval.addToMoment]
    cases t <;> simp only [whole] <;> whole_arm hR
  | subFromMoment m t =>
    simp only [wholeCall, Eval.body, Eval.subFromMoment]
    cases t <;> simp only [whole] <;> whole_arm hR

theorem run_whole (c : Cfg) (n : Nat) (k : Call) : wholeOut (Eval.run c n k) = Eval.run c n (wholeCall k) := by
  induction n generalizing k with
  | zero => rfl
  | succ n ih => exact body_whole c _ _ ih k

theorem size_whole (t : TT) : (whole t).size = t.size := by
  induction t <;> simp only [whole, TT.size, *]

theorem calculate_whole (c : Cfg) (t : TT) : calculate c (whole t) = wholeOut (calculate c t) := by
  unfold calculate exec
  rw [show (Call.calculate (whole t)).depth = (Call.calculate t).depth by simp only [Call.depth, size_whole]]
  exact (run_whole c _ (.calculate t)).symm

end Kairos
