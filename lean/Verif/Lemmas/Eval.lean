import Verif.Lemmas.Arith
import Verif.Spec.Shape

/-! The fuelled evaluator: fuel is sufficient, results are leaves, `exec` satisfies the Rust
recursion equations. -/

namespace Kairos

theorem TT.size_pos (t : TT) : 1 ≤ t.size := by cases t <;> simp [TT.size]

theorem TT.size_leaf {t : TT} (h : t.isLeaf) : t.size = 1 := by
  cases t <;> simp_all [TT.size, TT.isLeaf, TT.isAAmount, TT.isMoment]

/-- Two equal outcomes that are not "out of fuel" and, if `ok`, fully evaluated. -/
structure Good (x y : Out TT) : Prop where
  eq : x = y
  noOof : x ≠ .oof
  leaf : ∀ v, x = .ok v → v.isLeaf

theorem Good.err (e : ErrorKind) : Good (.err e) (.err e) := ⟨rfl, by simp, by simp⟩
theorem Good.ok {v : TT} (h : v.isLeaf) : Good (.ok v) (.ok v) :=
  ⟨rfl, by simp, by intro w hw; cases hw; exact h⟩

theorem Good.bind {x y : Out TT} {f g : TT → Out TT} (h : Good x y)
    (hf : ∀ v, v.isLeaf → Good (f v) (g v)) : Good (x >>= f) (y >>= g) := by
  obtain ⟨rfl, h2, h3⟩ := h
  cases x with
  | ok v => simpa using hf v (h3 v rfl)
  | err e => exact Good.err e
  | panic => exact ⟨rfl, by simp, by simp⟩
  | oof => exact absurd rfl h2

theorem Good.bindI {α : Type} {x : Out α} {f g : α → Out TT} (hx : x ≠ .oof)
    (hf : ∀ v, Good (f v) (g v)) : Good (x >>= f) (x >>= g) := by
  cases x with
  | ok v => simpa using hf v
  | err e => exact Good.err e
  | panic => exact ⟨rfl, by simp, by simp⟩
  | oof => exact absurd rfl hx

theorem andHms_ne_oof (nd : Date) (h m s : Int) : (nd.andHms h m s : Out Moment) ≠ .oof := by
  unfold Date.andHms; split <;> simp

theorem Good.build (c : Cfg) (p : Parts) : Good (Eval.buildMoment c p) (Eval.buildMoment c p) := by
  unfold Eval.buildMoment
  split
  · exact Good.ok rfl
  · exact Good.err _

/-- Discharges goals of the amount arms. -/
macro "good_arm" : tactic => `(tactic| (
  repeat' first
    | exact Good.err _
    | exact Good.ok rfl
    | exact Good.build _ _
    | (refine Good.bindI (by first | apply mulL_ne_oof | apply chk_ne_oof | apply adjustTimesAdd_ne_oof | apply adjustTimesSub_ne_oof | apply andHms_ne_oof) ?_; intro _)))

/-- Discharges "the recursive call is on something smaller". -/
macro "depth_arm" : tactic => `(tactic| (
  simp only [Call.depth, TT.size] at *
  grind [TT.size_pos]))

theorem body_good (c : Cfg) (R R' : Call → Out TT) (k : Call)
    (hR : ∀ k', k'.depth < k.depth → Good (R k') (R' k')) :
    Good (Eval.body c R k) (Eval.body c R' k) := by
  cases k with
  | calculate t =>
    simp only [Eval.body, Eval.doCalculate]
    cases t <;> simp only <;>
      first
      | exact Good.ok rfl
      | (apply hR; simp [Call.depth, TT.size]; try omega)
  | endOf kind t =>
    have hc := hR (.calculate t) (by simp [Call.depth])
    cases kind <;>
      simp only [Eval.body, Eval.endOfYear, Eval.endOfMonth, Eval.endOfDay, Eval.endOfHour,
        Eval.endOfMinute] <;>
      (refine Good.bind hc ?_; intro v hv
       cases v <;> simp [TT.isLeaf, TT.isAAmount, TT.isMoment] at hv <;>
         first
         | exact Good.err _
         | (simp only; split <;> good_arm))
  | add a b =>
    have ha := a.size_pos
    have hb := b.size_pos
    simp only [Eval.body]
    unfold Eval.add
    split <;>
    first
    | exact Good.err _
    | (apply hR; simp [Call.depth, TT.size]; done)
    | (apply hR; simp [Call.depth, TT.size]; omega)
    | (refine Good.bind (hR _ ?_) ?_
       · depth_arm
       intro v hv
       have hv := TT.size_leaf hv
       first
       | (apply hR; depth_arm)
       | (refine Good.bind (hR _ ?_) ?_
          · depth_arm
          intro w hw
          have hw := TT.size_leaf hw
          apply hR; depth_arm))
  | sub a b =>
    have ha := a.size_pos
    have hb := b.size_pos
    simp only [Eval.body]
    unfold Eval.sub
    split <;>
    first
    | exact Good.err _
    | (apply hR; simp [Call.depth, TT.size]; done)
    | (apply hR; simp [Call.depth, TT.size]; omega)
    | (refine Good.bind (hR _ ?_) ?_
       · depth_arm
       intro v hv
       have hv := TT.size_leaf hv
       first
       | (apply hR; depth_arm)
       | (refine Good.bind (hR _ ?_) ?_
          · depth_arm
          intro w hw
          have hw := TT.size_leaf hw
          apply hR; depth_arm))
  | addTo u n t =>
    cases u <;>
      simp only [Eval.body, Eval.addToSeconds, Eval.addToMinutes, Eval.addToHours, Eval.addToDays,
        Eval.addToMonths, Eval.addToYears] <;>
      cases t <;> simp only <;>
      first
      | (good_arm; done)
      | (refine Good.bind (hR _ (by simp [Call.depth, TT.size])) ?_
         intro v hv
         have hv := TT.size_leaf hv
         apply hR; simp [Call.depth, TT.size]
         rename_i x y _
         have := x.size_pos
         omega)
  | subFrom u n t =>
    cases u <;>
      simp only [Eval.body, Eval.subFromSeconds, Eval.subFromMinutes, Eval.subFromHours,
        Eval.subFromDays, Eval.subFromMonths, Eval.subFromYears] <;>
      cases t <;> simp only <;>
      first
      | (good_arm; done)
      | (refine Good.bind (hR _ (by simp [Call.depth, TT.size])) ?_
         intro v hv
         have hv := TT.size_leaf hv
         apply hR; simp [Call.depth, TT.size]
         rename_i x y _
         have := x.size_pos
         omega)
  | addToMoment m t =>
    simp only [Eval.body, Eval.addToMoment]
    cases t <;> simp only <;>
      first
      | (good_arm; done)
      | (refine Good.bind (hR _ (by simp [Call.depth, TT.size])) ?_
         intro v hv
         have hv := TT.size_leaf hv
         apply hR; simp [Call.depth, TT.size]
         rename_i x y _
         have := x.size_pos
         omega)
  | subFromMoment m t =>
    simp only [Eval.body, Eval.subFromMoment]
    cases t <;> simp only <;>
      first
      | (good_arm; done)
      | (refine Good.bind (hR _ (by simp [Call.depth, TT.size])) ?_
         intro v hv
         have hv := TT.size_leaf hv
         apply hR; simp [Call.depth, TT.size]
         rename_i x y _
         have := x.size_pos
         omega)

theorem run_good (c : Cfg) (n m : Nat) (k : Call) (hn : k.depth < n) (hm : k.depth < m) :
    Good (Eval.run c n k) (Eval.run c m k) := by
  induction n generalizing m k with
  | zero => omega
  | succ n ih =>
    cases m with
    | zero => omega
    | succ m =>
      unfold Eval.run
      exact body_good c _ _ k (fun k' hk' => ih m k' (by omega) (by omega))

theorem exec_good (c : Cfg) (k : Call) : Good (exec c k) (exec c k) :=
  run_good c _ _ k (by omega) (by omega)

/-- `exec` satisfies the recursion equations of the Rust functions. -/
theorem exec_unfold (c : Cfg) (k : Call) : exec c k = Eval.body c (exec c) k := by
  conv => lhs; unfold exec Eval.run
  exact (body_good c _ _ k (fun k' hk' => run_good c _ _ k' hk' (by omega))).eq

theorem run_eq_exec (c : Cfg) (n : Nat) (k : Call) (h : k.depth < n) :
    Eval.run c n k = exec c k :=
  (run_good c _ _ k h (by omega)).eq

theorem exec_ne_oof (c : Cfg) (k : Call) : exec c k ≠ .oof := (exec_good c k).noOof
theorem exec_leaf {c : Cfg} {k : Call} {v : TT} (h : exec c k = .ok v) : v.isLeaf :=
  (exec_good c k).leaf v h

end Kairos
