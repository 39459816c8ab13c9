import Verif.Spec.Kind
import Verif.Lemmas.Operands
import Verif.Lemmas.Amount
import Verif.Lemmas.EndOf
import Verif.Lemmas.Conv

/-! Evaluation of expressions by kind. -/

namespace Kairos
open Spec
variable (c : Cfg)

theorem endMarked_eq (t : TT) : endMarked t = t.isEnd := by cases t <;> rfl

theorem amt_cases {v : TT} (h : v.isAAmount) : ∃ u n, v = amt u n := by
  cases v <;> first
    | (simp [TT.isAAmount] at h; done)
    | exact ⟨.second, _, rfl⟩ | exact ⟨.minute, _, rfl⟩ | exact ⟨.hour, _, rfl⟩
    | exact ⟨.day, _, rfl⟩ | exact ⟨.month, _, rfl⟩ | exact ⟨.year, _, rfl⟩

/-- Outcome of an expression of a kind. -/
def Fits : Option Kind → Out TT → Prop
  | some .amount, r => r = .panic ∨ ∃ u n, r = .ok (amt u n)
  | some .moment, r => r = .panic ∨ (∃ m, r = .ok (.moment m)) ∨ ∃ y mo d h mi s, r = .err (.outOfBounds y mo d h mi s)
  | none, r => ∀ v, r ≠ .ok v

theorem fits_amt_add (u u' : TUnit) (n n' : Int) : Fits (some .amount) (exec c (.add (amt u n) (amt u' n'))) := by
  have := calculate_amt_rep c (.plus (.amt u n) (.amt u' n'))
  rw [show (AmtTree.plus (.amt u n) (.amt u' n')).toTT = amt u n + amt u' n' from rfl, calculate_add] at this
  rcases this with ⟨h, -⟩ | ⟨k, h, -⟩
  · exact .inl h
  · exact .inr ⟨_, _, h⟩

theorem fits_amt_sub (u u' : TUnit) (n n' : Int) : Fits (some .amount) (exec c (.sub (amt u n) (amt u' n'))) := by
  have := calculate_amt_rep c (.minus (.amt u n) (.amt u' n'))
  rw [show (AmtTree.minus (.amt u n) (.amt u' n')).toTT = amt u n - amt u' n' from rfl, calculate_sub] at this
  rcases this with ⟨h, -⟩ | ⟨k, h, -⟩
  · exact .inl h
  · exact .inr ⟨_, _, h⟩

theorem fits_build (p : Parts) : Fits (some .moment) (Eval.buildMoment c p) := by
  unfold Eval.buildMoment
  split
  · exact .inr (.inl ⟨_, rfl⟩)
  · exact .inr (.inr ⟨_, _, _, _, _, _, rfl⟩)

theorem Fits.bind_moment {α : Type} {x : Out α} {f : α → Out TT} (h1 : ∀ e, x ≠ .err e) (h2 : x ≠ .oof)
    (hf : ∀ a, Fits (some .moment) (f a)) : Fits (some .moment) (x >>= f) := by
  cases x with
  | ok a => exact hf a
  | err e => exact absurd rfl (h1 e)
  | panic => exact .inl rfl
  | oof => exact absurd rfl h2

theorem fits_moment_add (m : Moment) (u : TUnit) (n : Int) :
    Fits (some .moment) (exec c (.add (.moment m) (amt u n))) := by
  rw [exec_add_moment, exec_addToMoment]
  cases u <;> simp only [amt, Eval.addToMoment] <;>
    (refine Fits.bind_moment (fun e => chk_ne_err c _ e) (chk_ne_oof c _) fun a => ?_
     refine Fits.bind_moment (fun e => adjustTimesAdd_ne_err c _ e) (adjustTimesAdd_ne_oof c _) fun p => ?_
     exact fits_build c p)

theorem fits_moment_sub (m : Moment) (u : TUnit) (n : Int) :
    Fits (some .moment) (exec c (.sub (.moment m) (amt u n))) := by
  rw [exec_sub_moment, exec_subFromMoment]
  cases u <;> simp only [amt, Eval.subFromMoment] <;>
    (refine Fits.bind_moment (fun e => chk_ne_err c _ e) (chk_ne_oof c _) fun a => ?_
     refine Fits.bind_moment (fun e => adjustTimesSub_ne_err c _ e) (adjustTimesSub_ne_oof c _) fun p => ?_
     exact fits_build c p)

theorem mulL_cons (a k : Int) (ks : List Int) (hk : 0 < k) (hl : ∀ x ∈ ks, 0 < x) :
    (c.mulL a (k :: ks) : Out Int) = c.chk (a * (k :: ks).foldr (· * ·) 1) :=
  mulL_eq_chk' c a _ (fun h => by cases h) (by simpa using ⟨hk, hl⟩)

/-- Amounts can be added in either order. -/
theorem add_amt_comm (u u' : TUnit) (n n' : Int) :
    exec c (.add (amt u n) (amt u' n')) = exec c (.add (amt u' n') (amt u n)) := by
  rw [exec_add, exec_add]
  cases u <;> cases u' <;>
    simp only [amt, Eval.add, exec_addTo_seconds, exec_addTo_minutes, exec_addTo_hours, exec_addTo_days, exec_addTo_months,
      exec_addTo_years, Eval.addToSeconds, Eval.addToMinutes, Eval.addToHours, Eval.addToDays, Eval.addToMonths,
      Eval.addToYears, Cfg.add, Int.add_comm]
  all_goals
    rw [mulL_cons _ _ _ _ (by decide) (by decide), mulL_cons _ _ _ _ (by decide) (by decide)]
    rfl

theorem calc_addition (x y : TT) : calculate c (.addition x y) = exec c (.add x y) := calculate_eq ..
theorem calc_subtraction (x y : TT) : calculate c (.subtraction x y) = exec c (.sub x y) := calculate_eq ..

theorem exec_add_addition (x y b : TT) (hb : b.isMoment = false) :
    exec c (.add (.addition x y) b) = (do let v ← calculate c (.addition x y); exec c (.add v b)) := by
  rw [exec_add, calc_addition]
  cases b <;> first | rfl | (simp [TT.isMoment] at hb; done)

theorem exec_add_sub_add (x y p q : TT) :
    exec c (.add (.subtraction x y) (.addition p q)) =
      (do let w ← calculate c (.addition p q); exec c (.add (.subtraction x y) w)) := by
  rw [exec_add, calc_addition]; rfl

theorem exec_add_sub_other (x y b : TT) (hb : b.isMoment = false) (hb' : b.isAddition = false) :
    exec c (.add (.subtraction x y) b) = (do let v ← calculate c (.subtraction x y); exec c (.add b v)) := by
  rw [exec_add, calc_subtraction]
  cases b <;> first | rfl | (simp [TT.isMoment] at hb; done) | (simp [TT.isAddition] at hb'; done)

theorem exec_sub_subtraction (x y b : TT) :
    exec c (.sub (.subtraction x y) b) = (do let v ← calculate c (.subtraction x y); exec c (.sub v b)) := by
  rw [exec_sub, calc_subtraction]
  cases b <;> rfl

theorem exec_sub_add_sub (x y p q : TT) :
    exec c (.sub (.addition x y) (.subtraction p q)) =
      (do let w ← calculate c (.subtraction p q); exec c (.sub (.addition x y) w)) := by
  rw [exec_sub, calc_subtraction]; rfl

theorem exec_sub_add_other (x y b : TT) (hb : b.isSubtraction = false) :
    exec c (.sub (.addition x y) b) = (do let v ← calculate c (.addition x y); exec c (.sub v b)) := by
  rw [exec_sub, calc_addition]
  cases b <;> first | rfl | (simp [TT.isSubtraction] at hb; done)

theorem leaf_not {v : TT} (h : v.isLeaf) : v.isEnd = false ∧ v.isAddition = false ∧ v.isSubtraction = false := by
  cases v <;> first | exact ⟨rfl, rfl, rfl⟩ | (simp [TT.isLeaf, TT.isAAmount, TT.isMoment] at h; done)

theorem shape (t : TT) : t.isLeaf ∨ t.isEnd = true ∨ (∃ x y, t = .addition x y) ∨ ∃ x y, t = .subtraction x y := by
  cases t <;> first | exact .inl rfl | exact .inr (.inl rfl) | exact .inr (.inr (.inl ⟨_, _, rfl⟩)) | exact .inr (.inr (.inr ⟨_, _, rfl⟩))

theorem bind_congr_ok {α β : Type} {x : Out α} {f g : α → Out β} (h : ∀ a, x = .ok a → f a = g a) : (x >>= f) = (x >>= g) := by
  cases x with
  | ok a => exact h a rfl
  | _ => rfl

/-- The value of a sum is the sum of the values, whichever operand is evaluated first. -/
theorem add_sem {a b : TT} (hae : a.isEnd = false) (hbe : b.isEnd = false)
    (hb : ∀ w, calculate c b = .ok w → w.isAAmount = true)
    (ha : a.isSubtraction = true → ∀ v, calculate c a = .ok v → v.isAAmount = true) :
    exec c (.add a b) = (do let v ← calculate c a; let w ← calculate c b; exec c (.add v w)) ∨
    exec c (.add a b) = (do let w ← calculate c b; let v ← calculate c a; exec c (.add v w)) := by
  have hbm : b.isMoment = false := by
    cases b <;> first | rfl | (have := hb _ (calculate_leaf c rfl); simp [TT.isAAmount] at this)
  have comm : ∀ {v w : TT}, v.isAAmount = true → w.isAAmount = true → exec c (.add v w) = exec c (.add w v) := by
    intro v w h1 h2
    obtain ⟨u, n, rfl⟩ := amt_cases h1
    obtain ⟨u', n', rfl⟩ := amt_cases h2
    exact add_amt_comm c u u' n n'
  rcases shape a with hl | he | ⟨x, y, rfl⟩ | ⟨x, y, rfl⟩
  · left
    rw [calculate_leaf c hl, OutE.ok_bind]
    exact exec_add_leaf c hl b hbe
  · rw [hae] at he; cases he
  · left
    rw [exec_add_addition c x y b hbm]
    exact bind_congr_ok fun v hv => exec_add_leaf c (calculate_isLeaf hv) b hbe
  · rcases shape b with hl | he | ⟨p, q, rfl⟩ | ⟨p, q, rfl⟩
    · left
      rw [exec_add_sub_other c x y b hbm (leaf_not hl).2.1]
      refine bind_congr_ok fun v hv => ?_
      rw [calculate_leaf c hl, OutE.ok_bind]
      exact comm (hb _ (calculate_leaf c hl)) (ha rfl v hv)
    · rw [hbe] at he; cases he
    · right
      rw [exec_add_sub_add]
      refine bind_congr_ok fun w hw => ?_
      have hwl := calculate_isLeaf hw
      have hwm : w.isMoment = false := by
        have := hb w hw
        cases w <;> first | rfl | (simp [TT.isAAmount] at this; done)
      rw [exec_add_sub_other c x y w hwm (leaf_not hwl).2.1]
      exact bind_congr_ok fun v hv => comm (hb w hw) (ha rfl v hv)
    · left
      rw [exec_add_sub_other c x y _ rfl rfl]
      refine bind_congr_ok fun v hv => ?_
      have hva := ha rfl v hv
      have hvm : v.isMoment = false := by
        cases v <;> first | rfl | (simp [TT.isAAmount] at hva; done)
      rw [exec_add_sub_other c p q v hvm (leaf_not (calculate_isLeaf hv)).2.1]

/-- The value of a difference is the difference of the values. -/
theorem sub_sem {a b : TT} (hae : a.isEnd = false) (hbe : b.isEnd = false) :
    exec c (.sub a b) = (do let v ← calculate c a; let w ← calculate c b; exec c (.sub v w)) ∨
    exec c (.sub a b) = (do let w ← calculate c b; let v ← calculate c a; exec c (.sub v w)) := by
  rcases shape a with hl | he | ⟨x, y, rfl⟩ | ⟨x, y, rfl⟩
  · left
    rw [calculate_leaf c hl, OutE.ok_bind]
    exact exec_sub_leaf c hl b hbe
  · rw [hae] at he; cases he
  · by_cases hbs : b.isSubtraction = true
    · right
      obtain ⟨p, q, rfl⟩ : ∃ p q, b = .subtraction p q := by
        cases b <;> first | exact ⟨_, _, rfl⟩ | (simp [TT.isSubtraction] at hbs; done)
      rw [exec_sub_add_sub]
      refine bind_congr_ok fun w hw => ?_
      exact exec_sub_add_other c x y w (leaf_not (calculate_isLeaf hw)).2.2
    · left
      rw [exec_sub_add_other c x y b (by simpa using hbs)]
      exact bind_congr_ok fun v hv => exec_sub_leaf c (calculate_isLeaf hv) b hbe
  · left
    rw [exec_sub_subtraction]
    exact bind_congr_ok fun v hv => exec_sub_leaf c (calculate_isLeaf hv) b hbe

theorem Fails.bind_left {α : Type} {x : Out α} {f : α → Out TT} (h : ∀ v, x ≠ .ok v) : Fails (x >>= f) := by
  intro v hv
  rw [OutE.bind_eq_ok] at hv
  obtain ⟨a, ha, -⟩ := hv
  exact h a ha

theorem Fails.bind_right {α : Type} {x : Out α} {f : α → Out TT} (h : ∀ v, x = .ok v → Fails (f v)) : Fails (x >>= f) := by
  intro v hv
  rw [OutE.bind_eq_ok] at hv
  obtain ⟨a, ha, hf⟩ := hv
  exact h a ha v hf

/-- A sum with an operand that has no value has none. -/
theorem add_fails {a b : TT} (h : Fails (calculate c a) ∨ Fails (calculate c b)) : Fails (exec c (.add a b)) := by
  have leaf : ∀ {t : TT}, t.isLeaf → ¬ Fails (calculate c t) := fun hl hf => hf _ (calculate_leaf c hl)
  by_cases hae : a.isEnd = true
  · exact add_end_left c hae b
  by_cases hbe : b.isEnd = true
  · exact add_end_right c hbe a
  have hae : a.isEnd = false := by simpa using hae
  have hbe : b.isEnd = false := by simpa using hbe
  by_cases hbm : b.isMoment = true
  · obtain ⟨m, rfl⟩ : ∃ m, b = .moment m := by
      cases b <;> first | exact ⟨_, rfl⟩ | (simp [TT.isMoment] at hbm; done)
    rw [add_moment_right]; exact Fails.err _
  have hbm : b.isMoment = false := by simpa using hbm
  rcases shape a with hl | he | ⟨x, y, rfl⟩ | ⟨x, y, rfl⟩
  · rw [exec_add_leaf c hl b hbe]
    exact Fails.bind_left (h.resolve_left (leaf hl))
  · rw [hae] at he; cases he
  · rw [exec_add_addition c x y b hbm]
    rcases h with h | h
    · exact Fails.bind_left h
    · refine Fails.bind_right fun v hv => ?_
      rw [exec_add_leaf c (calculate_isLeaf hv) b hbe]
      exact Fails.bind_left h
  · have inner : ∀ {w : TT}, w.isLeaf → Fails (calculate c (.subtraction x y)) → Fails (exec c (.add (.subtraction x y) w)) := by
      intro w hw hf
      by_cases hwm : w.isMoment = true
      · obtain ⟨m, rfl⟩ : ∃ m, w = .moment m := by
          cases w <;> first | exact ⟨_, rfl⟩ | (simp [TT.isMoment] at hwm; done)
        rw [add_moment_right]; exact Fails.err _
      · rw [exec_add_sub_other c x y w (by simpa using hwm) (leaf_not hw).2.1]
        exact Fails.bind_left hf
    rcases shape b with hl | he | ⟨p, q, rfl⟩ | ⟨p, q, rfl⟩
    · exact inner hl (h.resolve_right (leaf hl))
    · rw [hbe] at he; cases he
    · rw [exec_add_sub_add]
      rcases h with h | h
      · exact Fails.bind_right fun w hw => inner (calculate_isLeaf hw) h
      · exact Fails.bind_left h
    · rw [exec_add_sub_other c x y _ rfl rfl]
      rcases h with h | h
      · exact Fails.bind_left h
      · refine Fails.bind_right fun v hv => ?_
        by_cases hvm : v.isMoment = true
        · obtain ⟨m, rfl⟩ : ∃ m, v = .moment m := by
            cases v <;> first | exact ⟨_, rfl⟩ | (simp [TT.isMoment] at hvm; done)
          rw [add_moment_right]; exact Fails.err _
        · rw [exec_add_sub_other c p q v (by simpa using hvm) (leaf_not (calculate_isLeaf hv)).2.1]
          exact Fails.bind_left h

/-- A difference with an operand that has no value has none. -/
theorem sub_fails {a b : TT} (h : Fails (calculate c a) ∨ Fails (calculate c b)) : Fails (exec c (.sub a b)) := by
  by_cases hae : a.isEnd = true
  · exact sub_end_left c hae b
  by_cases hbe : b.isEnd = true
  · exact sub_end_right c hbe a
  rcases sub_sem c (by simpa using hae) (by simpa using hbe) with e | e <;> rw [e]
  · rcases h with h | h
    · exact Fails.bind_left h
    · exact Fails.bind_right fun v _ => Fails.bind_left h
  · rcases h with h | h
    · exact Fails.bind_right fun v _ => Fails.bind_left h
    · exact Fails.bind_left h

/-- `+` after a difference that is a moment never succeeds. -/
theorem add_difference_fails {x y b : TT} (h : ∀ v, calculate c (.subtraction x y) = .ok v → v.isMoment = true) :
    Fails (exec c (.add (.subtraction x y) b)) := by
  have mr : ∀ {v w : TT}, v.isMoment = true → Fails (exec c (.add w v)) := by
    intro v w hv
    obtain ⟨m, rfl⟩ : ∃ m, v = .moment m := by
      cases v <;> first | exact ⟨_, rfl⟩ | (simp [TT.isMoment] at hv; done)
    rw [add_moment_right]; exact Fails.err _
  by_cases hbm : b.isMoment = true
  · exact mr hbm
  by_cases hba : b.isAddition = true
  · obtain ⟨p, q, rfl⟩ : ∃ p q, b = .addition p q := by
      cases b <;> first | exact ⟨_, _, rfl⟩ | (simp [TT.isAddition] at hba; done)
    rw [exec_add_sub_add]
    refine Fails.bind_right fun w hw => ?_
    by_cases hwm : w.isMoment = true
    · exact mr hwm
    · rw [exec_add_sub_other c x y w (by simpa using hwm) (leaf_not (calculate_isLeaf hw)).2.1]
      exact Fails.bind_right fun v hv => mr (h v hv)
  · rw [exec_add_sub_other c x y b (by simpa using hbm) (by simpa using hba)]
    exact Fails.bind_right fun v hv => mr (h v hv)

/-- The outcome of an operation on two evaluated operands. -/
theorem Fits.both {k : Kind} {ra rb : Out TT} {f : TT → TT → Out TT} (ha : Fits (some k) ra) (hb : Fits (some .amount) rb)
    (hf : ∀ v u n, ra = .ok v → Fits (some k) (f v (amt u n))) :
    Fits (some k) (do let v ← ra; let w ← rb; f v w) ∧ Fits (some k) (do let w ← rb; let v ← ra; f v w) := by
  have pan : Fits (some k) .panic := by cases k <;> exact .inl rfl
  rcases hb with rfl | ⟨u, n, rfl⟩
  · constructor
    · cases k with
      | amount => rcases ha with rfl | ⟨u, n, rfl⟩ <;> exact pan
      | moment => rcases ha with rfl | ⟨m, rfl⟩ | ⟨y, mo, d, h, mi, s, rfl⟩
                  · exact pan
                  · exact pan
                  · exact .inr (.inr ⟨_, _, _, _, _, _, rfl⟩)
    · exact pan
  · have main : Fits (some k) (do let v ← ra; f v (amt u n)) := by
      cases k with
      | amount => rcases ha with rfl | ⟨u', n', rfl⟩
                  · exact pan
                  · exact hf _ u n rfl
      | moment => rcases ha with rfl | ⟨m, rfl⟩ | ⟨y, mo, d, h, mi, s, rfl⟩
                  · exact pan
                  · exact hf _ u n rfl
                  · exact .inr (.inr ⟨_, _, _, _, _, _, rfl⟩)
    exact ⟨main, main⟩

theorem Fits.amount_value {r : Out TT} (h : Fits (some .amount) r) : ∀ v, r = .ok v → v.isAAmount = true := by
  intro v hv
  rcases h with h | ⟨u, n, h⟩
  · rw [h] at hv; cases hv
  · rw [h] at hv; cases hv; cases u <;> rfl

theorem Fits.moment_value {r : Out TT} (h : Fits (some .moment) r) : ∀ v, r = .ok v → v.isMoment = true := by
  intro v hv
  rcases h with h | ⟨m, h⟩ | ⟨y, mo, d, hh, mi, s, h⟩
  · rw [h] at hv; cases hv
  · rw [h] at hv; cases hv; rfl
  · rw [h] at hv; cases hv

theorem fits_leaf_add {k : Kind} {r : Out TT} (h : Fits (some k) r) (v : TT) (u : TUnit) (n : Int) (hv : r = .ok v) :
    Fits (some k) (exec c (.add v (amt u n))) := by
  cases k with
  | amount =>
    obtain ⟨u', n', rfl⟩ := amt_cases (h.amount_value v hv)
    exact fits_amt_add c u' u n' n
  | moment =>
    have := h.moment_value v hv
    obtain ⟨m, rfl⟩ : ∃ m, v = .moment m := by
      cases v <;> first | exact ⟨_, rfl⟩ | (simp [TT.isMoment] at this; done)
    exact fits_moment_add c m u n

theorem fits_leaf_sub {k : Kind} {r : Out TT} (h : Fits (some k) r) (v : TT) (u : TUnit) (n : Int) (hv : r = .ok v) :
    Fits (some k) (exec c (.sub v (amt u n))) := by
  cases k with
  | amount =>
    obtain ⟨u', n', rfl⟩ := amt_cases (h.amount_value v hv)
    exact fits_amt_sub c u' u n' n
  | moment =>
    have := h.moment_value v hv
    obtain ⟨m, rfl⟩ : ∃ m, v = .moment m := by
      cases v <;> first | exact ⟨_, rfl⟩ | (simp [TT.isMoment] at this; done)
    exact fits_moment_sub c m u n

theorem fits_endVal (k : EndKind) (m : Moment) : Fits (some .moment) (endVal c k (.moment m)) := by
  have hms : ∀ (nd : Date) (h mi s : Int), Cal.ValidTime h mi s →
      Fits (some .moment) (do .ok (.moment (← nd.andHms h mi s))) := by
    intro nd h mi s ht
    unfold Date.andHms Date.andHmsOpt
    rw [if_pos ht]; exact .inr (.inl ⟨_, rfl⟩)
  rw [endVal_moment]
  cases k <;> simp only <;> split <;> first
    | exact hms _ _ _ _ (by decide)
    | exact .inr (.inl ⟨_, rfl⟩)
    | exact .inr (.inr ⟨_, _, _, _, _, _, rfl⟩)

theorem fits_endOf (k : EndKind) {e : TT} (h : Fits (kind e) (calculate c e)) :
    Fits (if kind e = some .moment then some .moment else none) (do let v ← calculate c e; endVal c k v) := by
  split
  · rename_i hk
    rw [hk] at h
    rcases h with h | ⟨m, h⟩ | ⟨y, mo, d, hh, mi, s, h⟩ <;> rw [h]
    · exact .inl rfl
    · exact fits_endVal c k m
    · exact .inr (.inr ⟨_, _, _, _, _, _, rfl⟩)
  · rename_i hk
    rcases hke : kind e with _ | (_ | _)
    · rw [hke] at h; exact Fails.bind_left h
    · rw [hke] at h
      refine Fails.bind_right fun v hv => ?_
      obtain ⟨u, n, rfl⟩ := amt_cases (h.amount_value v hv)
      cases k <;> cases u <;> exact Fails.err _
    · exact absurd hke hk

theorem fits_all (t : TT) : Fits (kind t) (calculate c t) := by
  induction t with
  | addition a b iha ihb =>
    rw [calc_addition]
    simp only [kind, endMarked_eq]
    split
    · rename_i hk
      rcases hkb : kind b with _ | (_ | _)
      · rw [hkb] at ihb; exact add_fails c (.inr ihb)
      · exact absurd hkb hk
      · rw [hkb] at ihb
        rcases ihb with h | ⟨m, h⟩ | ⟨y, mo, d, hh, mi, s, h⟩
        · exact add_fails c (.inr (by rw [h]; intro v hv; cases hv))
        · exact add_to_moment_value c h a
        · exact add_fails c (.inr (by rw [h]; intro v hv; cases hv))
    · rename_i hk
      have hkb : kind b = some .amount := by simpa using hk
      have hbe : b.isEnd = false := by
        cases b <;> first | rfl | (simp only [kind] at hkb; split at hkb <;> cases hkb)
      rw [hkb] at ihb
      split
      · rename_i hka
        rw [hka] at iha
        have hae : a.isEnd = false := by
          cases a <;> first | rfl | (simp only [kind] at hka; split at hka <;> cases hka)
        rcases add_sem c hae hbe ihb.amount_value (fun _ => iha.amount_value) with e | e <;> rw [e]
        · exact (Fits.both iha ihb (fits_leaf_add c iha)).1
        · exact (Fits.both iha ihb (fits_leaf_add c iha)).2
      · rename_i hka
        split
        · rename_i hm
          obtain ⟨hm, has, hae⟩ := hm
          rw [hm] at iha
          rcases add_sem c hae hbe ihb.amount_value (by rw [has]; intro h; cases h) with e | e <;> rw [e]
          · exact (Fits.both iha ihb (fits_leaf_add c iha)).1
          · exact (Fits.both iha ihb (fits_leaf_add c iha)).2
        · rename_i hm
          rcases hk2 : kind a with _ | (_ | _)
          · rw [hk2] at iha; exact add_fails c (.inl iha)
          · exact absurd hk2 hka
          · rw [hk2] at iha
            by_cases hae : a.isEnd = true
            · exact add_end_left c hae b
            · by_cases has : a.isSubtraction = true
              · obtain ⟨x, y, rfl⟩ : ∃ x y, a = .subtraction x y := by
                  cases a <;> first | exact ⟨_, _, rfl⟩ | (simp [TT.isSubtraction] at has; done)
                exact add_difference_fails c iha.moment_value
              · exact absurd ⟨hk2, by simpa using has, by simpa using hae⟩ hm
  | subtraction a b iha ihb =>
    rw [calc_subtraction]
    simp only [kind, endMarked_eq]
    split
    · rename_i hk
      rcases hkb : kind b with _ | (_ | _)
      · rw [hkb] at ihb; exact sub_fails c (.inr ihb)
      · exact absurd hkb hk
      · rw [hkb] at ihb
        rcases ihb with h | ⟨m, h⟩ | ⟨y, mo, d, hh, mi, s, h⟩
        · exact sub_fails c (.inr (by rw [h]; intro v hv; cases hv))
        · exact sub_from_moment_value c h a
        · exact sub_fails c (.inr (by rw [h]; intro v hv; cases hv))
    · rename_i hk
      have hkb : kind b = some .amount := by simpa using hk
      have hbe : b.isEnd = false := by
        cases b <;> first | rfl | (simp only [kind] at hkb; split at hkb <;> cases hkb)
      rw [hkb] at ihb
      split
      · rename_i hae; exact sub_end_left c hae b
      · rename_i hae
        rcases hka : kind a with _ | k
        · rw [hka] at iha; exact sub_fails c (.inl iha)
        · rw [hka] at iha
          rcases sub_sem c (a := a) (b := b) (by simpa using hae) hbe with e | e <;> rw [e]
          · exact (Fits.both iha ihb (fits_leaf_sub c iha)).1
          · exact (Fits.both iha ihb (fits_leaf_sub c iha)).2
  | endOfYear e ih => rw [show calculate c (.endOfYear e) = _ from calculate_endOf c .year e]; exact fits_endOf c .year ih
  | endOfMonth e ih => rw [show calculate c (.endOfMonth e) = _ from calculate_endOf c .month e]; exact fits_endOf c .month ih
  | endOfDay e ih => rw [show calculate c (.endOfDay e) = _ from calculate_endOf c .day e]; exact fits_endOf c .day ih
  | endOfHour e ih => rw [show calculate c (.endOfHour e) = _ from calculate_endOf c .hour e]; exact fits_endOf c .hour ih
  | endOfMinute e ih => rw [show calculate c (.endOfMinute e) = _ from calculate_endOf c .minute e]; exact fits_endOf c .minute ih
  | moment m => rw [calculate_leaf c rfl]; exact .inr (.inl ⟨m, rfl⟩)
  | seconds n => rw [calculate_leaf c rfl]; exact .inr ⟨.second, n, rfl⟩
  | minutes n => rw [calculate_leaf c rfl]; exact .inr ⟨.minute, n, rfl⟩
  | hours n => rw [calculate_leaf c rfl]; exact .inr ⟨.hour, n, rfl⟩
  | days n => rw [calculate_leaf c rfl]; exact .inr ⟨.day, n, rfl⟩
  | months n => rw [calculate_leaf c rfl]; exact .inr ⟨.month, n, rfl⟩
  | years n => rw [calculate_leaf c rfl]; exact .inr ⟨.year, n, rfl⟩

/-- The errors of `calculate`. -/
def CalcError : ErrorKind → Prop
  | .cannotAdd _ _ | .cannotSub _ _ | .cannotCalculateEndOfYearOn _ | .cannotCalculateEndOfMonthOn _
  | .outOfBounds _ _ _ _ _ _ => True
  | _ => False

def ErrIn (r : Out TT) : Prop := ∀ e, r = .err e → CalcError e

theorem ErrIn.ok (v : TT) : ErrIn (.ok v) := by intro e h; cases h
theorem ErrIn.err {e : ErrorKind} (h : CalcError e) : ErrIn (.err e) := by intro e' h'; cases h'; exact h
theorem ErrIn.bind {α : Type} {x : Out α} {f : α → Out TT} (hx : ∀ e, x = .err e → CalcError e) (hf : ∀ a, ErrIn (f a)) :
    ErrIn (x >>= f) := by
  cases x with
  | ok a => exact hf a
  | err e => exact ErrIn.err (hx e rfl)
  | panic => intro e h; cases h
  | oof => intro e h; cases h
theorem ErrIn.bindI {α : Type} {x : Out α} {f : α → Out TT} (hx : ∀ e, x ≠ .err e) (hf : ∀ a, ErrIn (f a)) :
    ErrIn (x >>= f) := ErrIn.bind (fun e h => absurd h (hx e)) hf

theorem Fits.errIn {r : Out TT} (h : Fits (some .moment) r) : ErrIn r := by
  intro e he
  rcases h with h | ⟨m, h⟩ | ⟨y, mo, d, hh, mi, s, h⟩ <;> rw [h] at he <;> cases he
  trivial

macro "err_arm" : tactic => `(tactic| (
  repeat' first
    | exact ErrIn.ok _
    | exact ErrIn.err trivial
    | exact (fits_build _ _).errIn
    | (refine ErrIn.bindI (fun e => by first | exact mulL_ne_err _ _ _ e | exact chk_ne_err _ _ e | exact adjustTimesAdd_ne_err _ _ e | exact adjustTimesSub_ne_err _ _ e) ?_; intro _)))

theorem body_err (R : Call → Out TT) (hR : ∀ k, ErrIn (R k)) (k : Call) : ErrIn (Eval.body c R k) := by
  cases k with
  | calculate t =>
    simp only [Eval.body, Eval.doCalculate]
    cases t <;> simp only <;> first | exact ErrIn.ok _ | exact hR _
  | endOf kind t =>
    have hms : ∀ (nd : Date) (h mi s : Int), Cal.ValidTime h mi s →
        ErrIn (do .ok (.moment (← nd.andHms h mi s))) := by
      intro nd h mi s ht
      unfold Date.andHms Date.andHmsOpt
      rw [if_pos ht]; exact ErrIn.ok _
    cases kind <;>
      simp only [Eval.body, Eval.endOfYear, Eval.endOfMonth, Eval.endOfDay, Eval.endOfHour, Eval.endOfMinute] <;>
      (refine ErrIn.bind (hR _) ?_; intro v
       cases v <;> first
         | exact ErrIn.err trivial
         | exact hR _
         | (simp only; split <;> first | exact hms _ _ _ _ (by decide) | exact ErrIn.ok _ | exact ErrIn.err trivial))
  | add a b =>
    simp only [Eval.body]
    unfold Eval.add
    split <;> first
      | exact ErrIn.err trivial
      | exact hR _
      | exact ErrIn.bind (hR _) fun _ => hR _
      | exact ErrIn.bind (hR _) fun _ => ErrIn.bind (hR _) fun _ => hR _
  | sub a b =>
    simp only [Eval.body]
    unfold Eval.sub
    split <;> first
      | exact ErrIn.err trivial
      | exact hR _
      | exact ErrIn.bind (hR _) fun _ => hR _
      | exact ErrIn.bind (hR _) fun _ => ErrIn.bind (hR _) fun _ => hR _
  | addTo u n t =>
    cases u <;>
      simp only [Eval.body, Eval.addToSeconds, Eval.addToMinutes, Eval.addToHours, Eval.addToDays,
        Eval.addToMonths, Eval.addToYears] <;>
      cases t <;> simp only <;> first
        | (err_arm; done)
        | exact ErrIn.bind (hR _) fun _ => hR _
  | subFrom u n t =>
    cases u <;>
      simp only [Eval.body, Eval.subFromSeconds, Eval.subFromMinutes, Eval.subFromHours,
        Eval.subFromDays, Eval.subFromMonths, Eval.subFromYears] <;>
      cases t <;> simp only <;> first
        | (err_arm; done)
        | exact ErrIn.bind (hR _) fun _ => hR _
  | addToMoment m t =>
    simp only [Eval.body, Eval.addToMoment]
    cases t <;> simp only <;> first
      | (err_arm; done)
      | exact ErrIn.bind (hR _) fun _ => hR _
  | subFromMoment m t =>
    simp only [Eval.body, Eval.subFromMoment]
    cases t <;> simp only <;> first
      | (err_arm; done)
      | exact ErrIn.bind (hR _) fun _ => hR _

theorem calculate_err (t : TT) : ErrIn (calculate c t) := by
  have : ∀ n k, ErrIn (Eval.run c n k) := by
    intro n
    induction n with
    | zero => intro k e h; cases h
    | succ n ih => intro k; exact body_err c _ ih k
  exact this _ _

end Kairos
