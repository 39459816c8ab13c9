import Verif.Model.Rounds
import Verif.Lemmas.AdjustAdd

/-! How often the loops of `adjust_times_add` turn. -/

namespace Kairos
variable {ε : Type} (c : Cfg)

/-- The length of a month other than February does not depend on the year. -/
theorem numDays_not2 {y m : Int} (y' : Int) (hm1 : 1 ≤ m) (hm2 : m ≤ 12) (h : m ≠ 2) :
    getNumOfDaysInMonth y' m = Cal.monthLen y m := by
  have : m = 1 ∨ m = 3 ∨ m = 4 ∨ m = 5 ∨ m = 6 ∨ m = 7 ∨ m = 8 ∨ m = 9 ∨ m = 10 ∨ m = 11 ∨ m = 12 := by omega
  unfold getNumOfDaysInMonth Cal.monthLen
  rcases this with h | h | h | h | h | h | h | h | h | h | h <;> subst h <;> simp

/-- Cut off, a loop either has not finished or returns what it returns. -/
theorem dayLoop_cut (y : Int) (k n : Nat) (mo d : Int) (hn : (dayLoop c y n mo d : OutE ε (Int × Int)) ≠ .oof) :
    (dayLoop c y k mo d : OutE ε (Int × Int)) = .oof ∨
      (dayLoop c y k mo d : OutE ε (Int × Int)) = dayLoop c y n mo d := by
  induction k generalizing n mo d with
  | zero =>
    by_cases h : d > getNumOfDaysInMonth y mo
    · left; rw [dayLoop, if_pos h]
    · right; rw [dayLoop_stop c y mo d _ (by omega), dayLoop_stop c y mo d _ (by omega)]
  | succ k ih =>
    by_cases h : d > getNumOfDaysInMonth y mo
    · cases n with
      | zero => rw [dayLoop, if_pos h] at hn; exact absurd rfl hn
      | succ n =>
        rw [dayLoop, if_pos h] at hn ⊢
        rw [dayLoop, if_pos h]
        cases h1 : (c.sub d (getNumOfDaysInMonth y mo) : OutE ε Int) with
        | ok d' =>
          cases h2 : (c.add mo 1 : OutE ε Int) with
          | ok mo' =>
            rw [h1, OutE.ok_bind, h2, OutE.ok_bind] at hn
            exact ih n mo' d' hn
          | _ => right; rfl
        | _ => right; rfl
    · right; rw [dayLoop_stop c y mo d _ (by omega), dayLoop_stop c y mo d _ (by omega)]

theorem monthLoop_cut (k n : Nat) (y mo : Int) (hn : (monthLoop c n y mo : OutE ε (Int × Int)) ≠ .oof) :
    (monthLoop c k y mo : OutE ε (Int × Int)) = .oof ∨
      (monthLoop c k y mo : OutE ε (Int × Int)) = monthLoop c n y mo := by
  induction k generalizing n y mo with
  | zero =>
    by_cases h : mo > 12
    · left; rw [monthLoop, if_pos h]
    · right; rw [monthLoop_stop c _ y mo (by omega), monthLoop_stop c _ y mo (by omega)]
  | succ k ih =>
    by_cases h : mo > 12
    · cases n with
      | zero => rw [monthLoop, if_pos h] at hn; exact absurd rfl hn
      | succ n =>
        rw [monthLoop, if_pos h] at hn ⊢
        rw [monthLoop, if_pos h]
        cases h1 : (c.add y 1 : OutE ε Int) with
        | ok y' =>
          cases h2 : (c.sub mo 12 : OutE ε Int) with
          | ok mo' =>
            rw [h1, OutE.ok_bind, h2, OutE.ok_bind] at hn
            exact ih n y' mo' hn
          | _ => right; rfl
        | _ => right; rfl
    · right; rw [monthLoop_stop c _ y mo (by omega), monthLoop_stop c _ y mo (by omega)]

/-- The loop over months turns as often as there are months between what goes in and what comes out. -/
theorem dayLoop_rounds (y : Int) (n : Nat) (mo d mo' d' : Int) (hd : d ≤ 9223372036854775807) (h0 : 0 ≤ mo)
    (hb : 28 * mo + d ≤ 200000000000000000000) (h : (dayLoop c y n mo d : OutE ε (Int × Int)) = .ok (mo', d')) :
    mo ≤ mo' ∧ 28 * mo' + d' ≤ 28 * mo + d ∧ (mo' = mo ∧ d' = d ∨ 1 ≤ d') ∧
    ∀ k : Nat, (dayLoop c y k mo d : OutE ε (Int × Int)) = .oof ↔ (k : Int) < mo' - mo := by
  induction n generalizing mo d with
  | zero =>
    by_cases h1 : d > getNumOfDaysInMonth y mo
    · rw [dayLoop, if_pos h1] at h; cases h
    · rw [dayLoop_stop c y mo d _ (by omega)] at h
      obtain ⟨rfl, rfl⟩ : mo = mo' ∧ d = d' := by simpa using h
      refine ⟨Int.le_refl _, Int.le_refl _, .inl ⟨rfl, rfl⟩, fun k => ?_⟩
      rw [dayLoop_stop c y mo d _ (by omega)]
      simp
  | succ n ih =>
    by_cases h1 : d > getNumOfDaysInMonth y mo
    · have hr := numDays_range y mo
      rw [dayLoop_step c y mo d n (by omega) hd h0 (by omega)] at h
      obtain ⟨g1, g2, g4, g3⟩ := ih (mo + 1) (d - getNumOfDaysInMonth y mo) (by omega) (by omega) (by omega) h
      refine ⟨by omega, by omega, ?_, fun k => ?_⟩
      · right
        rcases g4 with g4 | g4
        · omega
        · exact g4
      cases k with
      | zero => rw [dayLoop, if_pos h1]; simp; omega
      | succ k =>
        rw [dayLoop_step c y mo d k (by omega) hd h0 (by omega), g3 k]
        omega
    · rw [dayLoop_stop c y mo d _ (by omega)] at h
      obtain ⟨rfl, rfl⟩ : mo = mo' ∧ d = d' := by simpa using h
      refine ⟨Int.le_refl _, Int.le_refl _, .inl ⟨rfl, rfl⟩, fun k => ?_⟩
      rw [dayLoop_stop c y mo d _ (by omega)]
      simp

/-- The loop over years turns once for every year. -/
theorem monthLoop_rounds (n : Nat) (y mo y' mo' : Int) (hm : mo ≤ 9223372036854775807)
    (hy1 : -1000000000000000000 ≤ y) (hy2 : 12 * y + mo ≤ 100000000000000000000)
    (h : (monthLoop c n y mo : OutE ε (Int × Int)) = .ok (y', mo')) :
    y ≤ y' ∧ 12 * y' + mo' = 12 * y + mo ∧ mo' ≤ 12 ∧ (1 ≤ mo → 1 ≤ mo') ∧
    ∀ k : Nat, (monthLoop c k y mo : OutE ε (Int × Int)) = .oof ↔ (k : Int) < y' - y := by
  induction n generalizing y mo with
  | zero =>
    by_cases h1 : mo > 12
    · rw [monthLoop, if_pos h1] at h; cases h
    · rw [monthLoop_stop c _ y mo (by omega)] at h
      obtain ⟨rfl, rfl⟩ : y = y' ∧ mo = mo' := by simpa using h
      refine ⟨Int.le_refl _, rfl, by omega, id, fun k => ?_⟩
      rw [monthLoop_stop c _ y mo (by omega)]
      simp
  | succ n ih =>
    have step : mo > 12 → ∀ k, (monthLoop c (k + 1) y mo : OutE ε (Int × Int)) = monthLoop c k (y + 1) (mo - 12) := by
      intro h1 k
      rw [monthLoop, if_pos h1, Cfg.add, chk_in c (by omega) (by omega), OutE.ok_bind, Cfg.sub,
        chk_in c (by omega) (by omega), OutE.ok_bind]
    by_cases h1 : mo > 12
    · rw [step h1] at h
      obtain ⟨g1, g2, g4, g5, g3⟩ := ih (y + 1) (mo - 12) (by omega) (by omega) (by omega) h
      refine ⟨by omega, by omega, g4, fun _ => g5 (by omega), fun k => ?_⟩
      cases k with
      | zero => rw [monthLoop, if_pos h1]; simp; omega
      | succ k => rw [step h1, g3 k]; omega
    · rw [monthLoop_stop c _ y mo (by omega)] at h
      obtain ⟨rfl, rfl⟩ : y = y' ∧ mo = mo' := by simpa using h
      refine ⟨Int.le_refl _, rfl, by omega, id, fun k => ?_⟩
      rw [monthLoop_stop c _ y mo (by omega)]
      simp

/-- Cut off, `adjust_times_add` has not finished or returns what it returns; and enough rounds are enough. -/
theorem adjustN_cut (n₁ n₂ : Nat) (p : Parts) :
    (adjustTimesAddN c n₁ n₂ p : OutE ε Parts) = .oof ∨ (adjustTimesAddN c n₁ n₂ p : OutE ε Parts) = adjustTimesAdd c p := by
  unfold adjustTimesAddN adjustTimesAdd
  cases (fix c p.s 60 p.mi : OutE ε (Int × Int)) with
  | ok x =>
    obtain ⟨mi, s⟩ := x
    simp only [OutE.ok_bind]
    cases (fix c mi 60 p.h : OutE ε (Int × Int)) with
    | ok x =>
      obtain ⟨h, mi⟩ := x
      simp only [OutE.ok_bind]
      cases (fix c h 24 p.d : OutE ε (Int × Int)) with
      | ok x =>
        obtain ⟨d, h⟩ := x
        simp only [OutE.ok_bind]
        rcases dayLoop_cut (ε := ε) c p.y n₁ d.toNat p.mo d (dayLoop_ne_oof c _ _ _ _ (Nat.le_refl _)) with e | e
        · left; rw [e]; rfl
        · rw [e]
          cases (dayLoop c p.y d.toNat p.mo d : OutE ε (Int × Int)) with
          | ok x =>
            obtain ⟨mo, d⟩ := x
            simp only [OutE.ok_bind]
            rcases monthLoop_cut (ε := ε) c n₂ mo.toNat p.y mo (monthLoop_ne_oof c _ _ _ (Nat.le_refl _)) with e | e
            · left; rw [e]; rfl
            · right; rw [e]
          | _ => right; rfl
      | _ => right; rfl
    | _ => right; rfl
  | _ => right; rfl

theorem chk_le_max {x v : Int} (h : (c.chk x : OutE ε Int) = .ok v) : v ≤ 9223372036854775807 := by
  rcases chk_cases (ε := ε) c x with h' | ⟨w, h', hw, -⟩
  · rw [h'] at h; cases h
  · rw [h'] at h; cases h; exact hw.2

theorem fix_fst_le {b k n x z : Int} (h : (fix c b k n : OutE ε (Int × Int)) = .ok (x, z)) : x ≤ 9223372036854775807 := by
  unfold fix at h
  obtain ⟨_, -, h⟩ := (OutE.bind_eq_ok ..).mp h
  obtain ⟨w, hw, h⟩ := (OutE.bind_eq_ok ..).mp h
  cases h
  exact chk_le_max c hw

/-- The rounds taken, from what goes in and what comes out. -/
theorem adjustN_rounds (p q : Parts) (h0 : 0 ≤ p.mo) (h1 : p.mo ≤ 1000000000000000000)
    (hy : -1000000000000000000 ≤ p.y) (hy2 : p.y ≤ 1000000000000000000)
    (h : (adjustTimesAdd c p : OutE ε Parts) = .ok q) (n₁ n₂ : Nat) :
    (adjustTimesAddN c n₁ n₂ p : OutE ε Parts) = .oof ↔
      (n₁ : Int) < 12 * (q.y - p.y) + (q.mo - p.mo) ∨ (n₂ : Int) < q.y - p.y := by
  unfold adjustTimesAdd at h
  obtain ⟨⟨mi, s⟩, e1, h⟩ := (OutE.bind_eq_ok ..).mp h
  obtain ⟨⟨hh, mi'⟩, e2, h⟩ := (OutE.bind_eq_ok ..).mp h
  obtain ⟨⟨d, hh'⟩, e3, h⟩ := (OutE.bind_eq_ok ..).mp h
  obtain ⟨⟨mo, d'⟩, e4, h⟩ := (OutE.bind_eq_ok ..).mp h
  obtain ⟨⟨y, mo'⟩, e5, h⟩ := (OutE.bind_eq_ok ..).mp h
  simp only at e1 e2 e3 e4 e5 h
  cases h
  have hd := fix_fst_le c e3
  obtain ⟨a1, a2, a4, a3⟩ := dayLoop_rounds c p.y _ p.mo d mo d' hd h0 (by omega) e4
  obtain ⟨b1, b2, -, -, b3⟩ := monthLoop_rounds c _ p.y mo y mo' (by omega) hy (by omega) e5
  unfold adjustTimesAddN
  rw [e1]; simp only [OutE.ok_bind]
  rw [e2]; simp only [OutE.ok_bind]
  rw [e3]; simp only [OutE.ok_bind]
  rcases dayLoop_cut (ε := ε) c p.y n₁ d.toNat p.mo d (dayLoop_ne_oof c _ _ _ _ (Nat.le_refl _)) with e | e
  · rw [e]
    have := (a3 n₁).mp e
    constructor
    · intro _; left; omega
    · intro _; rfl
  · rw [e, e4]
    simp only [OutE.ok_bind]
    have : ¬ (n₁ : Int) < mo - p.mo := by
      intro hlt
      have := (a3 n₁).mpr hlt
      rw [e, e4] at this; cases this
    rcases monthLoop_cut (ε := ε) c n₂ mo.toNat p.y mo (monthLoop_ne_oof c _ _ _ (Nat.le_refl _)) with e' | e'
    · rw [e']
      have := (b3 n₂).mp e'
      exact ⟨fun _ => .inr this, fun _ => rfl⟩
    · rw [e', e5]
      have : ¬ (n₂ : Int) < y - p.y := by
        intro hlt
        have := (b3 n₂).mpr hlt
        rw [e', e5] at this; cases this
      constructor
      · intro h; cases h
      · intro h; omega

/-- How far the result of `adjust_times_add` can be from the start. -/
theorem adjustAdd_reach (p q : Parts) (h0 : 1 ≤ p.mo) (h1 : p.mo ≤ 1000000000000000000)
    (hy : -1000000000000000000 ≤ p.y) (hy2 : p.y ≤ 1000000000000000000)
    (gs : 0 ≤ p.s) (gm : 0 ≤ p.mi) (gh : 0 ≤ p.h) (gd : 1 ≤ p.d)
    (hs : p.s ≤ 1000000000000000000) (hm : p.mi ≤ 1000000000000000000) (hh : p.h ≤ 1000000000000000000)
    (hd : p.d ≤ 1000000000000000000)
    (h : (adjustTimesAdd c p : OutE ε Parts) = .ok q) :
    1 ≤ q.mo ∧ q.mo ≤ 12 ∧ p.y ≤ q.y ∧ 12 * p.y + p.mo ≤ 12 * q.y + q.mo ∧
      28 * (12 * (q.y - p.y) + (q.mo - p.mo)) ≤ p.d + (p.h + (p.mi + p.s / 60) / 60) / 24 := by
  unfold adjustTimesAdd at h
  rw [fix_nonneg c (by decide) gs (by omega) (by omega) (by omega)] at h
  simp only [OutE.ok_bind] at h
  rw [fix_nonneg c (by decide) (by omega) (by omega) (by omega) (by omega)] at h
  simp only [OutE.ok_bind] at h
  rw [fix_nonneg c (by decide) (by omega) (by omega) (by omega) (by omega)] at h
  simp only [OutE.ok_bind] at h
  obtain ⟨⟨mo, d'⟩, e4, h⟩ := (OutE.bind_eq_ok ..).mp h
  obtain ⟨⟨y, mo'⟩, e5, h⟩ := (OutE.bind_eq_ok ..).mp h
  simp only at e4 e5 h
  cases h
  obtain ⟨a1, a2, a4, -⟩ := dayLoop_rounds c p.y _ p.mo _ mo d' (by omega) (by omega) (by omega) e4
  obtain ⟨b1, b2, b4, b5, -⟩ := monthLoop_rounds c _ p.y mo y mo' (by omega) hy (by omega) e5
  have := b5 (by omega)
  exact ⟨this, b4, b1, by simp only; omega, by simp only; omega⟩

end Kairos
