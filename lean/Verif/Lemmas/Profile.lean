import Verif.Lemmas.EvalEqs

/-! The overflow-checked build either panics or agrees with the wrapping build. -/

namespace Kairos

/-- The same range of years, with overflow checks and without. -/
def Cfg.debug (c : Cfg) : Cfg := { c with profile := .debug }
def Cfg.release (c : Cfg) : Cfg := { c with profile := .release }

variable {ε α β : Type}

/-- `x` panics, or `x` and `y` are the same. -/
def Agree (x y : OutE ε α) : Prop := x = .panic ∨ x = y

theorem Agree.refl (x : OutE ε α) : Agree x x := .inr rfl
theorem Agree.bind {x y : OutE ε α} {f g : α → OutE ε β} (h : Agree x y) (hf : ∀ a, Agree (f a) (g a)) :
    Agree (x >>= f) (y >>= g) := by
  rcases h with rfl | rfl
  · exact .inl rfl
  · cases x with
    | ok a => exact hf a
    | err e => exact .inr rfl
    | panic => exact .inr rfl
    | oof => exact .inr rfl

variable (c : Cfg)

theorem agree_chk (x : Int) : Agree (c.debug.chk x : OutE ε Int) (c.release.chk x) := by
  unfold Cfg.chk Cfg.debug Cfg.release
  split
  · exact .refl _
  · exact .inl rfl

theorem agree_mulL (a : Int) (l : List Int) : Agree (c.debug.mulL a l : OutE ε Int) (c.release.mulL a l) := by
  induction l generalizing a with
  | nil => exact .refl _
  | cons k ks ih => unfold Cfg.mulL; exact (agree_chk c _).bind (fun p => ih p)

theorem agree_fix (b o n : Int) : Agree (fix c.debug b o n : OutE ε (Int × Int)) (fix c.release b o n) := by
  unfold fix
  exact (agree_chk c _).bind fun _ => (agree_chk c _).bind fun _ => .refl _

theorem agree_dayLoop (y : Int) (n : Nat) (mo d : Int) :
    Agree (dayLoop c.debug y n mo d : OutE ε (Int × Int)) (dayLoop c.release y n mo d) := by
  induction n generalizing mo d with
  | zero => exact .refl _
  | succ n ih =>
    unfold dayLoop
    split
    · exact (agree_chk c _).bind fun _ => (agree_chk c _).bind fun _ => ih _ _
    · exact .refl _

theorem agree_monthLoop (n : Nat) (y mo : Int) :
    Agree (monthLoop c.debug n y mo : OutE ε (Int × Int)) (monthLoop c.release n y mo) := by
  induction n generalizing y mo with
  | zero => exact .refl _
  | succ n ih =>
    unfold monthLoop
    split
    · exact (agree_chk c _).bind fun _ => (agree_chk c _).bind fun _ => ih _ _
    · exact .refl _

theorem agree_adjustAdd (p : Parts) : Agree (adjustTimesAdd c.debug p : OutE ε Parts) (adjustTimesAdd c.release p) := by
  unfold adjustTimesAdd
  exact (agree_fix c _ _ _).bind fun _ => (agree_fix c _ _ _).bind fun _ => (agree_fix c _ _ _).bind fun _ =>
    (agree_dayLoop c _ _ _ _).bind fun _ => (agree_monthLoop c _ _ _).bind fun _ => .refl _

theorem agree_borrow (a b d e f : Int) : Agree (borrow c.debug a b d e f : OutE ε (Int × Int)) (borrow c.release a b d e f) := by
  unfold borrow
  split
  · exact (agree_chk c _).bind fun _ => (agree_chk c _).bind fun _ => (agree_chk c _).bind fun _ =>
      (agree_chk c _).bind fun _ => (agree_chk c _).bind fun _ => (agree_chk c _).bind fun _ => .refl _
  · exact .refl _

theorem agree_adjustSub (p : Parts) : Agree (adjustTimesSub c.debug p : OutE ε Parts) (adjustTimesSub c.release p) := by
  unfold adjustTimesSub
  exact (agree_borrow c _ _ _ _ _).bind fun _ => (agree_borrow c _ _ _ _ _).bind fun _ =>
    (agree_borrow c _ _ _ _ _).bind fun _ => (agree_borrow c _ _ _ _ _).bind fun _ =>
    (agree_borrow c _ _ _ _ _).bind fun _ => .refl _

theorem agree_build (p : Parts) : Agree (Eval.buildMoment c.debug p) (Eval.buildMoment c.release p) := .refl _

macro "agree_arm" : tactic => `(tactic| (
  repeat' first
    | exact Agree.refl _
    | exact agree_build _ _
    | (refine Agree.bind (by first | exact agree_mulL _ _ _ | exact agree_chk _ _ | exact agree_adjustAdd _ _ | exact agree_adjustSub _ _) ?_; intro _)))

theorem body_agree (R R' : Call → Out TT) (hR : ∀ k, Agree (R k) (R' k)) (k : Call) :
    Agree (Eval.body c.debug R k) (Eval.body c.release R' k) := by
  cases k with
  | calculate t =>
    simp only [Eval.body, Eval.doCalculate]
    cases t <;> simp only <;> first | exact Agree.refl _ | exact hR _
  | endOf kind t =>
    cases kind <;>
      simp only [Eval.body, Eval.endOfYear, Eval.endOfMonth, Eval.endOfDay, Eval.endOfHour, Eval.endOfMinute] <;>
      (refine (hR _).bind ?_; intro v
       cases v <;> first | exact Agree.refl _ | exact hR _)
  | add a b =>
    simp only [Eval.body]
    unfold Eval.add
    split <;> first
      | exact Agree.refl _
      | exact hR _
      | exact (hR _).bind fun _ => hR _
      | exact (hR _).bind fun _ => (hR _).bind fun _ => hR _
  | sub a b =>
    simp only [Eval.body]
    unfold Eval.sub
    split <;> first
      | exact Agree.refl _
      | exact hR _
      | exact (hR _).bind fun _ => hR _
      | exact (hR _).bind fun _ => (hR _).bind fun _ => hR _
  | addTo u n t =>
    cases u <;>
      simp only [Eval.body, Eval.addToSeconds, Eval.addToMinutes, Eval.addToHours, Eval.addToDays,
        Eval.addToMonths, Eval.addToYears] <;>
      cases t <;> simp only <;> first
        | (agree_arm; done)
        | exact (hR _).bind fun _ => hR _
  | subFrom u n t =>
    cases u <;>
      simp only [Eval.body, Eval.subFromSeconds, Eval.subFromMinutes, Eval.subFromHours,
        Eval.subFromDays, Eval.subFromMonths, Eval.subFromYears] <;>
      cases t <;> simp only <;> first
        | (agree_arm; done)
        | exact (hR _).bind fun _ => hR _
  | addToMoment m t =>
    simp only [Eval.body, Eval.addToMoment]
    cases t <;> simp only <;> first
      | (agree_arm; done)
      | exact (hR _).bind fun _ => hR _
  | subFromMoment m t =>
    simp only [Eval.body, Eval.subFromMoment]
    cases t <;> simp only <;> first
      | (agree_arm; done)
      | exact (hR _).bind fun _ => hR _

theorem run_agree (n : Nat) (k : Call) : Agree (Eval.run c.debug n k) (Eval.run c.release n k) := by
  induction n generalizing k with
  | zero => exact .refl _
  | succ n ih => exact body_agree c _ _ ih k

theorem calculate_agree (t : TT) : Agree (calculate c.debug t) (calculate c.release t) := run_agree c _ _

end Kairos
