import Verif.Lemmas.EndOf
import Verif.Spec.Valid

/-! Invariant: moments built by the evaluator are valid. -/

namespace Kairos
open Spec
variable (c : Cfg)

/-- Moments built by the evaluator itself: valid, whole seconds. -/
def Built (m : Moment) : Prop := m.Valid c ∧ m.nano = 0

theorem buildMoment_ok {c : Cfg} {p : Parts} {v : TT} (h : Eval.buildMoment c p = .ok v) :
    ∃ m, v = .moment m ∧ m = ⟨asI32 p.y, asU32 p.mo, asU32 p.d, asU32 p.h, asU32 p.mi, asU32 p.s, 0⟩ ∧
      Built c m := by
  unfold Eval.buildMoment at h
  split at h
  · rename_i m hm
    cases h
    rw [Option.bind_eq_some_iff] at hm
    obtain ⟨nd, hnd, hm⟩ := hm
    obtain ⟨rfl, h1, h2, h3⟩ := fromYmdOpt_some c hnd
    obtain ⟨rfl, h4⟩ := andHmsOpt_some hm
    exact ⟨_, rfl, rfl, ⟨h1, h2, h3, h4, by simp, by simp⟩, rfl⟩
  · cases h

/-- If successful, all moments in the value satisfy `P`. -/
def Res (P : Moment → Prop) (r : Out TT) : Prop := ∀ v, r = .ok v → AllMoments P v

variable {c} {P : Moment → Prop}

theorem Res.err (e : ErrorKind) : Res P (.err e) := by intro v h; cases h
theorem Res.amt {v : TT} (h : v.isAAmount) : Res P (.ok v) := by
  intro w hw; cases hw; cases v <;> first | trivial | (simp [TT.isAAmount] at h)
theorem Res.bind {α : Type} {x : Out α} {f : α → Out TT} (hf : ∀ v, x = .ok v → Res P (f v)) : Res P (x >>= f) := by
  intro w hw
  rw [OutE.bind_eq_ok] at hw
  obtain ⟨v, hv, hw⟩ := hw
  exact hf v hv w hw
theorem Res.build (hP : ∀ m, Built c m → P m) (p : Parts) : Res P (Eval.buildMoment c p) := by
  intro v hv
  obtain ⟨m, rfl, -, hb⟩ := buildMoment_ok hv
  exact hP m hb

/-- All moments of a call satisfy `P`. -/
def CallM (P : Moment → Prop) : Call → Prop
  | .calculate t => AllMoments P t
  | .endOf _ t => AllMoments P t
  | .add a b => AllMoments P a ∧ AllMoments P b
  | .sub a b => AllMoments P a ∧ AllMoments P b
  | .addTo _ _ t => AllMoments P t
  | .subFrom _ _ t => AllMoments P t
  | .addToMoment m t => P m ∧ AllMoments P t
  | .subFromMoment m t => P m ∧ AllMoments P t

set_option linter.unusedSimpArgs false

theorem body_inv (hP : ∀ m, Built c m → P m) (R : Call → Out TT) (k : Call)
    (hR : ∀ k', CallM P k' → Res P (R k')) (hk : CallM P k) : Res P (Eval.body c R k) := by
  have bind2 : ∀ (k' : Call) (f : TT → Out TT), CallM P k' → (∀ v, AllMoments P v → Res P (f v)) →
      Res P (R k' >>= f) := fun k' f h1 h2 => Res.bind fun v hv => h2 v (hR k' h1 v hv)
  cases k with
  | calculate t =>
    simp only [Eval.body, Eval.doCalculate]
    cases t <;> simp only <;> first
      | exact Res.amt rfl
      | (apply hR; exact hk)
      | (intro v hv; cases hv; exact hk)
  | endOf kind t =>
    have hc := hR (.calculate t) hk
    have t0 : Cal.ValidTime 0 0 0 := by decide
    have t1 : Cal.ValidTime 23 59 59 := by decide
    cases kind <;>
      simp only [Eval.body, Eval.endOfYear, Eval.endOfMonth, Eval.endOfDay, Eval.endOfHour,
        Eval.endOfMinute] <;>
      (refine Res.bind ?_; intro v hv
       have hv := hc v hv
       cases v <;> first
         | exact Res.err _
         | exact hR _ hv
         | (simp only; split
            · first
              | (rename_i nd hnd
                 obtain ⟨rfl, h1, h2, h3⟩ := fromYmdOpt_some c hnd
                 first
                 | rw [andHms_ok t0]
                 | rw [andHms_ok t1]
                 intro w hw
                 cases hw
                 refine hP _ ⟨⟨h1, h2, h3, ?_, ?_, ?_⟩, rfl⟩ <;> first | exact t0 | exact t1 | simp)
              | (rename_i nd hnd
                 rw [Option.bind_eq_some_iff] at hnd
                 obtain ⟨nd, hnd, hm⟩ := hnd
                 obtain ⟨rfl, h1, h2, h3⟩ := fromYmdOpt_some c hnd
                 obtain ⟨rfl, h4⟩ := andHmsOpt_some hm
                 intro w hw
                 cases hw
                 refine hP _ ⟨⟨h1, h2, h3, h4, ?_, ?_⟩, rfl⟩ <;> simp)
            · exact Res.err _))
  | add a b =>
    simp only [Eval.body]
    simp only [CallM] at hk
    unfold Eval.add
    split <;> simp only [AllMoments] at hk <;>
    first
    | exact Res.err _
    | (apply hR; simp_all only [CallM, AllMoments, and_self]; done)
    | (refine bind2 _ _ (by simp_all only [CallM, AllMoments, and_self]) ?_
       intro v hv
       first
       | (apply hR; simp_all only [CallM, AllMoments, and_self]; done)
       | (refine bind2 _ _ (by simp_all only [CallM, AllMoments, and_self]) ?_
          intro w hw
          apply hR; simp_all only [CallM, AllMoments, and_self]; done))
  | sub a b =>
    simp only [Eval.body]
    simp only [CallM] at hk
    unfold Eval.sub
    split <;> simp only [AllMoments] at hk <;>
    first
    | exact Res.err _
    | (apply hR; simp_all only [CallM, AllMoments, and_self]; done)
    | (refine bind2 _ _ (by simp_all only [CallM, AllMoments, and_self]) ?_
       intro v hv
       first
       | (apply hR; simp_all only [CallM, AllMoments, and_self]; done)
       | (refine bind2 _ _ (by simp_all only [CallM, AllMoments, and_self]) ?_
          intro w hw
          apply hR; simp_all only [CallM, AllMoments, and_self]; done))
  | addTo u n t =>
    cases u <;>
      simp only [Eval.body, Eval.addToSeconds, Eval.addToMinutes, Eval.addToHours, Eval.addToDays,
        Eval.addToMonths, Eval.addToYears] <;>
      cases t <;> simp only <;>
      first
      | exact Res.err _
      | (refine bind2 _ _ hk ?_; intro v hv; exact hR _ hv)
      | (refine Res.bind ?_; intro _ _; first
         | exact Res.amt rfl
         | (refine Res.bind ?_; intro _ _; exact Res.amt rfl))
  | subFrom u n t =>
    cases u <;>
      simp only [Eval.body, Eval.subFromSeconds, Eval.subFromMinutes, Eval.subFromHours,
        Eval.subFromDays, Eval.subFromMonths, Eval.subFromYears] <;>
      cases t <;> simp only <;>
      first
      | exact Res.err _
      | (refine bind2 _ _ hk ?_; intro v hv; exact hR _ hv)
      | (refine Res.bind ?_; intro _ _; first
         | exact Res.amt rfl
         | (refine Res.bind ?_; intro _ _; exact Res.amt rfl))
  | addToMoment m t =>
    simp only [Eval.body, Eval.addToMoment]
    cases t <;> simp only <;>
      first
      | exact Res.err _
      | (refine bind2 _ _ hk.2 ?_; intro v hv; exact hR _ ⟨hk.1, hv⟩)
      | (refine Res.bind ?_; intro _ _; refine Res.bind ?_; intro _ _; exact Res.build hP _)
  | subFromMoment m t =>
    simp only [Eval.body, Eval.subFromMoment]
    cases t <;> simp only <;>
      first
      | exact Res.err _
      | (refine bind2 _ _ hk.2 ?_; intro v hv; exact hR _ ⟨hk.1, hv⟩)
      | (refine Res.bind ?_; intro _ _; refine Res.bind ?_; intro _ _; exact Res.build hP _)

theorem run_inv (hP : ∀ m, Built c m → P m) (n : Nat) (k : Call) (hk : CallM P k) :
    Res P (Eval.run c n k) := by
  induction n generalizing k with
  | zero => intro v hv; cases hv
  | succ n ih => unfold Eval.run; exact body_inv hP _ k (fun k' h => ih k' h) hk

theorem calculate_inv (hP : ∀ m, Built c m → P m) {t v : TT} (ht : AllMoments P t)
    (h : calculate c t = .ok v) : AllMoments P v :=
  run_inv hP _ (.calculate t) ht v h

/-- Every call but `calculate` of a plain moment. -/
def Computes : Call → Prop
  | .calculate t => t.isMoment = false
  | _ => True

/-- An amount, or a moment built by the evaluator. -/
def Made (c : Cfg) : TT → Prop
  | .moment m => Built c m
  | v => v.isAAmount = true

/-- If successful, the value is `Made`. -/
def MRes (c : Cfg) (r : Out TT) : Prop := ∀ v, r = .ok v → Made c v

theorem MRes.err (e : ErrorKind) : MRes c (.err e) := by intro v h; cases h
theorem MRes.amt {v : TT} (h : v.isAAmount) : MRes c (.ok v) := by
  intro w hw; cases hw; cases v <;> first | rfl | (simp [TT.isAAmount] at h)
theorem MRes.bind {α : Type} {x : Out α} {f : α → Out TT} (hf : ∀ v, x = .ok v → MRes c (f v)) : MRes c (x >>= f) := by
  intro w hw
  rw [OutE.bind_eq_ok] at hw
  obtain ⟨v, hv, hw⟩ := hw
  exact hf v hv w hw
theorem MRes.build (p : Parts) : MRes c (Eval.buildMoment c p) := by
  intro v hv
  obtain ⟨m, rfl, -, hb⟩ := buildMoment_ok hv
  exact hb

/-- Whatever the moments in the call, a moment computed by it is built by the evaluator. -/
theorem body_built (R : Call → Out TT) (k : Call)
    (hR : ∀ k', Computes k' → MRes c (R k')) (hM : ∀ m v, R (.calculate (.moment m)) = .ok v → v = .moment m)
    (hk : Computes k) : MRes c (Eval.body c R k) := by
  cases k with
  | calculate t =>
    simp only [Eval.body, Eval.doCalculate]
    cases t <;> simp only <;> first
      | exact MRes.amt rfl
      | exact hR _ trivial
      | (simp [Computes, TT.isMoment] at hk)
  | endOf kind t =>
    have t0 : Cal.ValidTime 0 0 0 := by decide
    have t1 : Cal.ValidTime 23 59 59 := by decide
    cases kind <;>
      simp only [Eval.body, Eval.endOfYear, Eval.endOfMonth, Eval.endOfDay, Eval.endOfHour,
        Eval.endOfMinute] <;>
      (refine MRes.bind ?_; intro v hv
       have hl : v.isLeaf := by
         cases t <;> first
           | (rw [hM _ _ hv]; rfl)
           | (have := hR (.calculate _) (by rfl) v hv; cases v <;> first | rfl | (simp [Made, TT.isAAmount] at this))
       cases v <;> first
         | exact MRes.err _
         | (simp [TT.isLeaf, TT.isAAmount, TT.isMoment] at hl; done)
         | (simp only; split
            · first
              | (rename_i nd hnd
                 obtain ⟨rfl, h1, h2, h3⟩ := fromYmdOpt_some c hnd
                 first
                 | rw [andHms_ok t0]
                 | rw [andHms_ok t1]
                 intro w hw
                 cases hw
                 refine ⟨⟨h1, h2, h3, ?_, ?_, ?_⟩, rfl⟩ <;> first | exact t0 | exact t1 | simp)
              | (rename_i nd hnd
                 rw [Option.bind_eq_some_iff] at hnd
                 obtain ⟨nd, hnd, hm⟩ := hnd
                 obtain ⟨rfl, h1, h2, h3⟩ := fromYmdOpt_some c hnd
                 obtain ⟨rfl, h4⟩ := andHmsOpt_some hm
                 intro w hw
                 cases hw
                 refine ⟨⟨h1, h2, h3, h4, ?_, ?_⟩, rfl⟩ <;> simp)
            · exact MRes.err _))
  | add a b =>
    simp only [Eval.body]
    unfold Eval.add
    split <;>
    first
    | exact MRes.err _
    | exact hR _ trivial
    | (refine MRes.bind fun v _ => ?_
       first
       | exact hR _ trivial
       | (refine MRes.bind fun w _ => ?_; exact hR _ trivial))
  | sub a b =>
    simp only [Eval.body]
    unfold Eval.sub
    split <;>
    first
    | exact MRes.err _
    | exact hR _ trivial
    | (refine MRes.bind fun v _ => ?_
       first
       | exact hR _ trivial
       | (refine MRes.bind fun w _ => ?_; exact hR _ trivial))
  | addTo u n t =>
    cases u <;>
      simp only [Eval.body, Eval.addToSeconds, Eval.addToMinutes, Eval.addToHours, Eval.addToDays,
        Eval.addToMonths, Eval.addToYears] <;>
      cases t <;> simp only <;>
      first
      | exact MRes.err _
      | (refine MRes.bind fun v _ => ?_; first
         | exact hR _ trivial
         | exact MRes.amt rfl
         | (refine MRes.bind ?_; intro _ _; exact MRes.amt rfl))
  | subFrom u n t =>
    cases u <;>
      simp only [Eval.body, Eval.subFromSeconds, Eval.subFromMinutes, Eval.subFromHours,
        Eval.subFromDays, Eval.subFromMonths, Eval.subFromYears] <;>
      cases t <;> simp only <;>
      first
      | exact MRes.err _
      | (refine MRes.bind fun v _ => ?_; first
         | exact hR _ trivial
         | exact MRes.amt rfl
         | (refine MRes.bind ?_; intro _ _; exact MRes.amt rfl))
  | addToMoment m t =>
    simp only [Eval.body, Eval.addToMoment]
    cases t <;> simp only <;>
      first
      | exact MRes.err _
      | (refine MRes.bind ?_; intro _ _; first
         | exact hR _ trivial
         | (refine MRes.bind ?_; intro _ _; exact MRes.build _))
  | subFromMoment m t =>
    simp only [Eval.body, Eval.subFromMoment]
    cases t <;> simp only <;>
      first
      | exact MRes.err _
      | (refine MRes.bind ?_; intro _ _; first
         | exact hR _ trivial
         | (refine MRes.bind ?_; intro _ _; exact MRes.build _))

theorem calculate_built {t v : TT} (ht : t.isMoment = false) (h : calculate c t = .ok v) :
    Made c v := by
  have key : ∀ (n : Nat) (k : Call), Computes k → MRes c (Eval.run c n k) := by
    intro n
    induction n with
    | zero => intro k _ v hv; cases hv
    | succ n ih =>
      intro k hk
      unfold Eval.run
      refine body_built _ k (fun k' h => ih k' h) (fun m v hv => ?_) hk
      cases n with
      | zero => cases hv
      | succ n => cases hv; rfl
  exact key _ (.calculate t) ht v h

end Kairos
