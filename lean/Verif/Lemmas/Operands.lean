import Verif.Lemmas.EvalEqs

/-! How `+` and `-` treat their operands. -/

namespace Kairos
variable (c : Cfg)

theorem addTo_node (u : AmtUnit) (n : Int) (e : TT) (he : e.isEnd = false) :
    exec c (.addTo u n e) = (do let r ← calculate c e; exec c (.addTo u n r)) := by
  cases e with
  | addition a b => rw [show calculate c (a.addition b) = exec c (.add a b) from calculate_eq ..]; cases u <;> exact exec_unfold ..
  | subtraction a b => rw [show calculate c (a.subtraction b) = exec c (.sub a b) from calculate_eq ..]; cases u <;> exact exec_unfold ..
  | _ => first | (simp [TT.isEnd] at he; done) | (rw [calculate_leaf _ (by rfl)]; rfl)

theorem subFrom_node (u : AmtUnit) (n : Int) (e : TT) (he : e.isEnd = false) :
    exec c (.subFrom u n e) = (do let r ← calculate c e; exec c (.subFrom u n r)) := by
  cases e with
  | addition a b => rw [show calculate c (a.addition b) = exec c (.add a b) from calculate_eq ..]; cases u <;> exact exec_unfold ..
  | subtraction a b => rw [show calculate c (a.subtraction b) = exec c (.sub a b) from calculate_eq ..]; cases u <;> exact exec_unfold ..
  | _ => first | (simp [TT.isEnd] at he; done) | (rw [calculate_leaf _ (by rfl)]; rfl)

theorem addToMoment_node (m : Moment) (e : TT) (he : e.isEnd = false) :
    exec c (.addToMoment m e) = (do let r ← calculate c e; exec c (.addToMoment m r)) := by
  cases e with
  | addition a b => rw [show calculate c (a.addition b) = exec c (.add a b) from calculate_eq ..]; exact exec_unfold ..
  | subtraction a b => rw [show calculate c (a.subtraction b) = exec c (.sub a b) from calculate_eq ..]; exact exec_unfold ..
  | _ => first | (simp [TT.isEnd] at he; done) | (rw [calculate_leaf _ (by rfl)]; rfl)

theorem subFromMoment_node (m : Moment) (e : TT) (he : e.isEnd = false) :
    exec c (.subFromMoment m e) = (do let r ← calculate c e; exec c (.subFromMoment m r)) := by
  cases e with
  | addition a b => rw [show calculate c (a.addition b) = exec c (.add a b) from calculate_eq ..]; exact exec_unfold ..
  | subtraction a b => rw [show calculate c (a.subtraction b) = exec c (.sub a b) from calculate_eq ..]; exact exec_unfold ..
  | _ => first | (simp [TT.isEnd] at he; done) | (rw [calculate_leaf _ (by rfl)]; rfl)

theorem exec_add_moment (m : Moment) (e : TT) : exec c (.add (.moment m) e) = exec c (.addToMoment m e) := by
  rw [exec_add]; cases e <;> rfl

theorem exec_sub_moment (m : Moment) (e : TT) : exec c (.sub (.moment m) e) = exec c (.subFromMoment m e) := by
  rw [exec_sub]; cases e <;> rfl

/-- With an evaluated left operand, the right operand is evaluated first. -/
theorem exec_add_leaf {r : TT} (hr : r.isLeaf) (e : TT) (he : e.isEnd = false) :
    exec c (.add r e) = (do let v ← calculate c e; exec c (.add r v)) := by
  by_cases hm : ∃ m, r = .moment m
  · obtain ⟨m, rfl⟩ := hm
    simp only [exec_add_moment]; exact addToMoment_node c m e he
  · by_cases hl : e.isLeaf
    · rw [calculate_leaf _ hl]; rfl
    · -- amounts: `add r v` is `addTo` for every `v`
      have key : ∀ v : TT, ∀ u n, (exec c (.addTo u n v)) = exec c (.add (match u with
          | .seconds => .seconds n | .minutes => .minutes n | .hours => .hours n
          | .days => .days n | .months => .months n | .years => .years n) v) := by
        intro v u n
        cases u <;> simp only [exec_add] <;> cases v <;> first | rfl | exact exec_unfold ..
      cases r with
      | seconds n => have := addTo_node c .seconds n e he; simpa only [key] using this
      | minutes n => have := addTo_node c .minutes n e he; simpa only [key] using this
      | hours n => have := addTo_node c .hours n e he; simpa only [key] using this
      | days n => have := addTo_node c .days n e he; simpa only [key] using this
      | months n => have := addTo_node c .months n e he; simpa only [key] using this
      | years n => have := addTo_node c .years n e he; simpa only [key] using this
      | moment m => exact absurd ⟨m, rfl⟩ hm
      | _ => simp [TT.isLeaf, TT.isAAmount, TT.isMoment] at hr

theorem exec_sub_leaf {r : TT} (hr : r.isLeaf) (e : TT) (he : e.isEnd = false) :
    exec c (.sub r e) = (do let v ← calculate c e; exec c (.sub r v)) := by
  by_cases hm : ∃ m, r = .moment m
  · obtain ⟨m, rfl⟩ := hm
    simp only [exec_sub_moment]; exact subFromMoment_node c m e he
  · have key : ∀ v : TT, ∀ u n, (exec c (.subFrom u n v)) = exec c (.sub (match u with
          | .seconds => .seconds n | .minutes => .minutes n | .hours => .hours n
          | .days => .days n | .months => .months n | .years => .years n) v) := by
        intro v u n
        cases u <;> simp only [exec_sub] <;> cases v <;> first | rfl | exact exec_unfold ..
    cases r with
      | seconds n => have := subFrom_node c .seconds n e he; simpa only [key] using this
      | minutes n => have := subFrom_node c .minutes n e he; simpa only [key] using this
      | hours n => have := subFrom_node c .hours n e he; simpa only [key] using this
      | days n => have := subFrom_node c .days n e he; simpa only [key] using this
      | months n => have := subFrom_node c .months n e he; simpa only [key] using this
      | years n => have := subFrom_node c .years n e he; simpa only [key] using this
      | moment m => exact absurd ⟨m, rfl⟩ hm
      | _ => simp [TT.isLeaf, TT.isAAmount, TT.isMoment] at hr

/-- Not a success. -/
def Fails (r : Out TT) : Prop := ∀ v, r ≠ .ok v

theorem Fails.err (e : ErrorKind) : Fails (.err e) := by intro v; simp

theorem Fails.bind {r : Out TT} {f : TT → Out TT} (h : ∀ v, v.isLeaf → r = .ok v → Fails (f v))
    (hl : ∀ v, r = .ok v → v.isLeaf) : Fails (r >>= f) := by
  intro v hv
  rw [OutE.bind_eq_ok] at hv
  obtain ⟨a, ha, hf⟩ := hv
  exact h a (hl a ha) ha v hf

theorem Fails.bindE {c : Cfg} {k : Call} {f : TT → Out TT}
    (h : ∀ v, v.isLeaf → exec c k = .ok v → Fails (f v)) : Fails (exec c k >>= f) :=
  Fails.bind h (fun _ => exec_leaf)

/-- Discharges failing leaf cases. -/
macro "fails_leaf" : tactic => `(tactic| (
  rename_i v hv _
  cases v <;> first
    | exact Fails.err _
    | (simp [TT.isLeaf, TT.isAAmount, TT.isMoment] at hv; done)))

theorem add_end_leaf {e v : TT} (he : e.isEnd) (hv : v.isLeaf) : Fails (exec c (.add e v)) := by
  rw [exec_add]
  cases e <;> simp [TT.isEnd] at he <;> cases v <;>
    first | exact Fails.err _ | (simp [TT.isLeaf, TT.isAAmount, TT.isMoment] at hv; done)

theorem add_leaf_end {e v : TT} (he : e.isEnd) (hv : v.isLeaf) : Fails (exec c (.add v e)) := by
  rw [exec_add]
  cases v with
  | moment m =>
    cases e <;> simp [TT.isEnd] at he <;> simp only [Eval.add, exec_addToMoment, Eval.addToMoment] <;>
      exact Fails.err _
  | seconds n | minutes n | hours n | days n | months n | years n =>
    cases e <;> simp [TT.isEnd] at he <;>
      simp only [Eval.add, exec_addTo_seconds, exec_addTo_minutes, exec_addTo_hours, exec_addTo_days,
        exec_addTo_months, exec_addTo_years, Eval.addToSeconds, Eval.addToMinutes, Eval.addToHours,
        Eval.addToDays, Eval.addToMonths, Eval.addToYears] <;>
      exact Fails.err _
  | _ => simp [TT.isLeaf, TT.isAAmount, TT.isMoment] at hv

theorem sub_end_leaf {e v : TT} (he : e.isEnd) (hv : v.isLeaf) : Fails (exec c (.sub e v)) := by
  rw [exec_sub]
  cases e <;> simp [TT.isEnd] at he <;> cases v <;>
    first | exact Fails.err _ | (simp [TT.isLeaf, TT.isAAmount, TT.isMoment] at hv; done)

theorem sub_leaf_end {e v : TT} (he : e.isEnd) (hv : v.isLeaf) : Fails (exec c (.sub v e)) := by
  rw [exec_sub]
  cases v with
  | moment m =>
    cases e <;> simp [TT.isEnd] at he <;> simp only [Eval.sub, exec_subFromMoment, Eval.subFromMoment] <;>
      exact Fails.err _
  | seconds n | minutes n | hours n | days n | months n | years n =>
    cases e <;> simp [TT.isEnd] at he <;>
      simp only [Eval.sub, exec_subFrom_seconds, exec_subFrom_minutes, exec_subFrom_hours,
        exec_subFrom_days, exec_subFrom_months, exec_subFrom_years, Eval.subFromSeconds,
        Eval.subFromMinutes, Eval.subFromHours, Eval.subFromDays, Eval.subFromMonths,
        Eval.subFromYears] <;>
      exact Fails.err _
  | _ => simp [TT.isLeaf, TT.isAAmount, TT.isMoment] at hv

theorem add_end_left {e : TT} (he : e.isEnd) (x : TT) : Fails (exec c (.add e x)) := by
  by_cases hx : x.isLeaf
  · exact add_end_leaf c he hx
  · rw [exec_add]
    cases e <;> simp [TT.isEnd] at he <;> cases x <;>
      first
      | exact Fails.err _
      | (exfalso; exact hx rfl)
      | (refine Fails.bindE fun v hv _ => ?_; exact add_end_leaf c rfl hv)
      | (refine Fails.bindE fun v hv _ => ?_
         refine Fails.bindE fun w _ hw => ?_
         exact absurd hw (add_end_leaf c rfl hv w))

theorem add_end_right {e : TT} (he : e.isEnd) (x : TT) : Fails (exec c (.add x e)) := by
  by_cases hx : x.isLeaf
  · exact add_leaf_end c he hx
  · rw [exec_add]
    cases e <;> simp [TT.isEnd] at he <;> cases x <;>
      first
      | exact Fails.err _
      | (exfalso; exact hx rfl)
      | (refine Fails.bindE fun v hv _ => ?_; exact add_end_leaf c rfl hv)
      | (refine Fails.bindE fun v hv _ => ?_; exact add_leaf_end c rfl hv)

theorem sub_end_left {e : TT} (he : e.isEnd) (x : TT) : Fails (exec c (.sub e x)) := by
  by_cases hx : x.isLeaf
  · exact sub_end_leaf c he hx
  · rw [exec_sub]
    cases e <;> simp [TT.isEnd] at he <;> cases x <;>
      first
      | exact Fails.err _
      | (exfalso; exact hx rfl)
      | (refine Fails.bindE fun v hv _ => ?_; exact sub_end_leaf c rfl hv)
      | (refine Fails.bindE fun v hv _ => ?_
         refine Fails.bindE fun w _ hw => ?_
         exact absurd hw (sub_end_leaf c rfl hv w))

theorem sub_end_right {e : TT} (he : e.isEnd) (x : TT) : Fails (exec c (.sub x e)) := by
  by_cases hx : x.isLeaf
  · exact sub_leaf_end c he hx
  · rw [exec_sub]
    cases e <;> simp [TT.isEnd] at he <;> cases x <;>
      first
      | exact Fails.err _
      | (exfalso; exact hx rfl)
      | (refine Fails.bindE fun v hv _ => ?_; exact sub_leaf_end c rfl hv)

theorem add_moment_right (x : TT) (m : Moment) :
    exec c (.add x (.moment m)) = .err (.cannotAdd x (.moment m)) := by
  rw [exec_add]
  cases x <;> first | rfl | exact exec_unfold ..

theorem sub_leaf_moment {v : TT} (hv : v.isLeaf) (m : Moment) :
    exec c (.sub v (.moment m)) = .err (.cannotSub v (.moment m)) := by
  rw [exec_sub]
  cases v <;> first | exact exec_unfold .. | (simp [TT.isLeaf, TT.isAAmount, TT.isMoment] at hv; done)

theorem sub_moment_right (x : TT) (m : Moment) : Fails (exec c (.sub x (.moment m))) := by
  by_cases hx : x.isLeaf
  · rw [sub_leaf_moment c hx]; exact Fails.err _
  · rw [exec_sub]
    cases x <;>
      first
      | exact Fails.err _
      | (exfalso; exact hx rfl)
      | (refine Fails.bindE fun v hv _ => ?_; simp only [sub_leaf_moment c hv]; exact Fails.err _)

/-- A right operand that evaluates to a moment is rejected by `+`. -/
theorem add_to_moment_value {e : TT} {m : Moment} (he : calculate c e = .ok (.moment m)) (x : TT) :
    Fails (exec c (.add x e)) := by
  have leaf : ∀ {r : TT}, r.isLeaf → Fails (exec c (.add r e)) := by
    intro r hr
    by_cases hend : e.isEnd
    · exact add_leaf_end c hend hr
    · rw [exec_add_leaf c hr e (by simpa using hend), he]
      simp only [OutE.ok_bind, add_moment_right]; exact Fails.err _
  by_cases hend : e.isEnd
  · exact add_end_right c hend x
  by_cases hx : x.isLeaf
  · exact leaf hx
  by_cases hxe : x.isEnd
  · exact add_end_left c hxe e
  cases e with
  | moment m' => rw [add_moment_right]; exact Fails.err _
  | addition a b =>
    have hab : exec c (.add a b) = .ok (.moment m) := by rw [← he, calculate_eq]; rfl
    cases x with
    | addition p q =>
      rw [exec_add]
      exact Fails.bindE fun v hv _ => leaf hv
    | subtraction p q =>
      rw [exec_add]
      simp only [Eval.add, hab, OutE.ok_bind, add_moment_right]; exact Fails.err _
    | _ => first | (exfalso; exact hx rfl) | (exfalso; exact hxe rfl)
  | subtraction a b =>
    have hab : exec c (.sub a b) = .ok (.moment m) := by rw [← he, calculate_eq]; rfl
    cases x with
    | addition p q =>
      rw [exec_add]
      exact Fails.bindE fun v hv _ => leaf hv
    | subtraction p q =>
      rw [exec_add]
      refine Fails.bindE fun v hv _ => ?_
      by_cases hvm : ∃ m', v = .moment m'
      · obtain ⟨m', rfl⟩ := hvm
        rw [add_moment_right]; exact Fails.err _
      · have : exec c (.add (.subtraction a b) v) = (do let r ← exec c (.sub a b); exec c (.add v r)) := by
          rw [exec_add]
          cases v <;> first | rfl | (simp [TT.isLeaf, TT.isAAmount, TT.isMoment] at hv; done) | (exact absurd ⟨_, rfl⟩ hvm)
        rw [this, hab]
        simp only [OutE.ok_bind, add_moment_right]; exact Fails.err _
    | _ => first | (exfalso; exact hx rfl) | (exfalso; exact hxe rfl)
  | endOfYear _ | endOfMonth _ | endOfDay _ | endOfHour _ | endOfMinute _ => exact absurd rfl hend
  | _ => rw [calculate_leaf _ (by rfl)] at he; cases he

/-- A right operand that evaluates to a moment is rejected by `-`. -/
theorem sub_from_moment_value {e : TT} {m : Moment} (he : calculate c e = .ok (.moment m)) (x : TT) :
    Fails (exec c (.sub x e)) := by
  have leaf : ∀ {r : TT}, r.isLeaf → Fails (exec c (.sub r e)) := by
    intro r hr
    by_cases hend : e.isEnd
    · exact sub_leaf_end c hend hr
    · rw [exec_sub_leaf c hr e (by simpa using hend), he]
      simp only [OutE.ok_bind, sub_leaf_moment c hr]; exact Fails.err _
  by_cases hend : e.isEnd
  · exact sub_end_right c hend x
  by_cases hx : x.isLeaf
  · exact leaf hx
  by_cases hxe : x.isEnd
  · exact sub_end_left c hxe e
  cases e with
  | moment m' => exact sub_moment_right c x m'
  | addition a b =>
    cases x with
    | addition p q =>
      rw [exec_sub]
      exact Fails.bindE fun v hv _ => leaf hv
    | subtraction p q =>
      rw [exec_sub]
      exact Fails.bindE fun v hv _ => leaf hv
    | _ => first | (exfalso; exact hx rfl) | (exfalso; exact hxe rfl)
  | subtraction a b =>
    have hab : exec c (.sub a b) = .ok (.moment m) := by rw [← he, calculate_eq]; rfl
    cases x with
    | addition p q =>
      rw [exec_sub]
      simp only [Eval.sub, hab, OutE.ok_bind]; exact sub_moment_right c _ m
    | subtraction p q =>
      rw [exec_sub]
      exact Fails.bindE fun v hv _ => leaf hv
    | _ => first | (exfalso; exact hx rfl) | (exfalso; exact hxe rfl)
  | endOfYear _ | endOfMonth _ | endOfDay _ | endOfHour _ | endOfMinute _ => exact absurd rfl hend
  | _ => rw [calculate_leaf _ (by rfl)] at he; cases he

end Kairos
