import Verif.Lemmas.Profile

/-! The wrapping build never panics in `calculate`. -/

namespace Kairos

variable {ε α β : Type}

def NP (x : OutE ε α) : Prop := x ≠ .panic

theorem NP.ok (a : α) : NP (.ok a : OutE ε α) := by simp [NP]
theorem NP.err (e : ε) : NP (.err e : OutE ε α) := by simp [NP]
theorem NP.oof : NP (.oof : OutE ε α) := by simp [NP]
theorem NP.bind {x : OutE ε α} {f : α → OutE ε β} (h : NP x) (hf : ∀ a, NP (f a)) : NP (x >>= f) := by
  cases x with
  | ok a => exact hf a
  | err e => exact NP.err e
  | panic => exact absurd rfl h
  | oof => exact NP.oof

variable (c : Cfg)

theorem np_chk (x : Int) : NP (c.release.chk x : OutE ε Int) := by
  unfold Cfg.chk Cfg.release
  split <;> exact NP.ok _

theorem np_mulL (a : Int) (l : List Int) : NP (c.release.mulL a l : OutE ε Int) := by
  induction l generalizing a with
  | nil => exact NP.ok _
  | cons k ks ih => unfold Cfg.mulL; exact (np_chk c _).bind (fun p => ih p)

theorem np_fix (b o n : Int) : NP (fix c.release b o n : OutE ε (Int × Int)) := by
  unfold fix
  exact (np_chk c _).bind fun _ => (np_chk c _).bind fun _ => NP.ok _

theorem np_dayLoop (y : Int) (n : Nat) (mo d : Int) :
    NP (dayLoop c.release y n mo d : OutE ε (Int × Int)) := by
  induction n generalizing mo d with
  | zero => unfold dayLoop; split <;> simp [NP]
  | succ n ih =>
    unfold dayLoop
    split
    · exact (np_chk c _).bind fun _ => (np_chk c _).bind fun _ => ih _ _
    · exact NP.ok _

theorem np_monthLoop (n : Nat) (y mo : Int) :
    NP (monthLoop c.release n y mo : OutE ε (Int × Int)) := by
  induction n generalizing y mo with
  | zero => unfold monthLoop; split <;> simp [NP]
  | succ n ih =>
    unfold monthLoop
    split
    · exact (np_chk c _).bind fun _ => (np_chk c _).bind fun _ => ih _ _
    · exact NP.ok _

theorem np_adjustAdd (p : Parts) : NP (adjustTimesAdd c.release p : OutE ε Parts) := by
  unfold adjustTimesAdd
  exact (np_fix c _ _ _).bind fun _ => (np_fix c _ _ _).bind fun _ => (np_fix c _ _ _).bind fun _ =>
    (np_dayLoop c _ _ _ _).bind fun _ => (np_monthLoop c _ _ _).bind fun _ => NP.ok _

theorem np_borrow (a b d e f : Int) : NP (borrow c.release a b d e f : OutE ε (Int × Int)) := by
  unfold borrow
  split
  · exact (np_chk c _).bind fun _ => (np_chk c _).bind fun _ => (np_chk c _).bind fun _ =>
      (np_chk c _).bind fun _ => (np_chk c _).bind fun _ => (np_chk c _).bind fun _ => NP.ok _
  · exact NP.ok _

theorem np_adjustSub (p : Parts) : NP (adjustTimesSub c.release p : OutE ε Parts) := by
  unfold adjustTimesSub
  exact (np_borrow c _ _ _ _ _).bind fun _ => (np_borrow c _ _ _ _ _).bind fun _ =>
    (np_borrow c _ _ _ _ _).bind fun _ => (np_borrow c _ _ _ _ _).bind fun _ =>
    (np_borrow c _ _ _ _ _).bind fun _ => NP.ok _

theorem np_build (c : Cfg) (p : Parts) : NP (Eval.buildMoment c p) := by
  unfold Eval.buildMoment; split <;> simp [NP]

theorem np_midnight (nd : Date) : NP (nd.andHms 0 0 0 : OutE ε Moment) := by
  unfold Date.andHms Date.andHmsOpt; rw [if_pos (by decide)]; simp [NP]
theorem np_lastSecond (nd : Date) : NP (nd.andHms 23 59 59 : OutE ε Moment) := by
  unfold Date.andHms Date.andHmsOpt; rw [if_pos (by decide)]; simp [NP]

macro "np_arm" : tactic => `(tactic| (
  repeat' first
    | exact NP.ok _
    | exact NP.err _
    | exact np_build _ _
    | (refine NP.bind (by first | exact np_mulL _ _ _ | exact np_chk _ _ | exact np_adjustAdd _ _ | exact np_adjustSub _ _ | exact np_midnight _ | exact np_lastSecond _) ?_; intro _)))

theorem body_np (R : Call → Out TT) (hR : ∀ k, NP (R k)) (k : Call) :
    NP (Eval.body c.release R k) := by
  cases k with
  | calculate t =>
    simp only [Eval.body, Eval.doCalculate]
    cases t <;> simp only <;> first | exact NP.ok _ | exact hR _
  | endOf kind t =>
    cases kind <;>
      simp only [Eval.body, Eval.endOfYear, Eval.endOfMonth, Eval.endOfDay, Eval.endOfHour, Eval.endOfMinute] <;>
      (refine (hR _).bind ?_; intro v
       cases v <;> first | exact NP.err _ | exact hR _ | (simp only; split <;> np_arm))
  | add a b =>
    simp only [Eval.body]
    unfold Eval.add
    split <;> first
      | exact NP.err _
      | exact hR _
      | exact (hR _).bind fun _ => hR _
      | exact (hR _).bind fun _ => (hR _).bind fun _ => hR _
  | sub a b =>
    simp only [Eval.body]
    unfold Eval.sub
    split <;> first
      | exact NP.err _
      | exact hR _
      | exact (hR _).bind fun _ => hR _
      | exact (hR _).bind fun _ => (hR _).bind fun _ => hR _
  | addTo u n t =>
    cases u <;>
      simp only [Eval.body, Eval.addToSeconds, Eval.addToMinutes, Eval.addToHours, Eval.addToDays,
        Eval.addToMonths, Eval.addToYears] <;>
      cases t <;> simp only <;> first
        | (np_arm; done)
        | exact (hR _).bind fun _ => hR _
  | subFrom u n t =>
    cases u <;>
      simp only [Eval.body, Eval.subFromSeconds, Eval.subFromMinutes, Eval.subFromHours,
        Eval.subFromDays, Eval.subFromMonths, Eval.subFromYears] <;>
      cases t <;> simp only <;> first
        | (np_arm; done)
        | exact (hR _).bind fun _ => hR _
  | addToMoment m t =>
    simp only [Eval.body, Eval.addToMoment]
    cases t <;> simp only <;> first
      | (np_arm; done)
      | exact (hR _).bind fun _ => hR _
  | subFromMoment m t =>
    simp only [Eval.body, Eval.subFromMoment]
    cases t <;> simp only <;> first
      | (np_arm; done)
      | exact (hR _).bind fun _ => hR _

theorem calculate_np (t : TT) : NP (calculate c.release t) := by
  have : ∀ n k, NP (Eval.run c.release n k) := by
    intro n
    induction n with
    | zero => intro k; exact NP.oof
    | succ n ih => intro k; exact body_np c _ ih k
  exact this _ _

end Kairos
