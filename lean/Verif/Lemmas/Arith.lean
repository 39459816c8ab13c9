import Verif.Model.TimeType

/-! Helper lemmas: machine integer operations and the two loops of `adjust_times_add`. -/

namespace Kairos
variable {ε : Type}

theorem wrap64_in (x : Int) : InI64 (wrap64 x) := by
  unfold InI64 wrap64
  have h1 := Int.le_bmod (x := x) (m := 18446744073709551616) (by decide)
  have h2 := Int.bmod_lt (x := x) (m := 18446744073709551616) (by decide)
  constructor <;> omega

theorem chk_cases (c : Cfg) (x : Int) :
    (c.chk x : OutE ε Int) = .panic ∨ ∃ v, (c.chk x : OutE ε Int) = .ok v ∧ InI64 v ∧ (InI64 x → v = x) := by
  unfold Cfg.chk
  by_cases h : InI64 x
  · simp [h]
  · cases hp : c.profile
    · simp [h]
    · simp [h, wrap64_in]

theorem chk_ok_of_in (c : Cfg) {x : Int} (h : InI64 x) : (c.chk x : OutE ε Int) = .ok x := by
  simp [Cfg.chk, h]

theorem chk_ne_oof (c : Cfg) (x : Int) : (c.chk x : OutE ε Int) ≠ .oof := by
  rcases chk_cases (ε := ε) c x with h | ⟨v, h, _⟩ <;> simp [h]

theorem chk_ne_err (c : Cfg) (x : Int) (e : ε) : (c.chk x : OutE ε Int) ≠ .err e := by
  rcases chk_cases (ε := ε) c x with h | ⟨v, h, _⟩ <;> simp [h]

/-- Machine arithmetic on a value above the lower bound never delivers something larger. -/
theorem chk_le (c : Cfg) {x v : Int} (hx : -9223372036854775808 ≤ x)
    (h : (c.chk x : OutE ε Int) = .ok v) : v ≤ x := by
  rcases chk_cases (ε := ε) c x with h' | ⟨w, h', hw, hwx⟩
  · simp [h'] at h
  · rw [h'] at h; cases h
    by_cases hi : InI64 x
    · rw [hwx hi]; exact Int.le_refl _
    · unfold InI64 at hi hw; omega

theorem mulL_ne_oof (c : Cfg) (a : Int) (l : List Int) : (c.mulL a l : OutE ε Int) ≠ .oof := by
  induction l generalizing a with
  | nil => simp [Cfg.mulL]
  | cons k ks ih =>
    unfold Cfg.mulL Cfg.mul
    rcases chk_cases (ε := ε) c (a * k) with h | ⟨v, h, _⟩ <;> simp [h, ih]

theorem mulL_ne_err (c : Cfg) (a : Int) (l : List Int) (e : ε) :
    (c.mulL a l : OutE ε Int) ≠ .err e := by
  induction l generalizing a with
  | nil => simp [Cfg.mulL]
  | cons k ks ih =>
    unfold Cfg.mulL Cfg.mul
    rcases chk_cases (ε := ε) c (a * k) with h | ⟨v, h, _⟩ <;> simp [h, ih]

theorem numDays_range (y m : Int) : 28 ≤ getNumOfDaysInMonth y m ∧ getNumOfDaysInMonth y m ≤ 31 := by
  unfold getNumOfDaysInMonth
  split <;> (try split) <;> (try split) <;> omega

theorem fix_ne_oof (c : Cfg) (b k n : Int) : (fix c b k n : OutE ε (Int × Int)) ≠ .oof := by
  unfold fix Cfg.sub Cfg.add
  rcases chk_cases (ε := ε) c (b - b.tmod k) with h | ⟨v, h, _⟩
  · simp [h]
  · rcases chk_cases (ε := ε) c (n + v.tdiv k) with h' | ⟨w, h', _⟩ <;> simp [h, h']

theorem fix_ne_err (c : Cfg) (b k n : Int) (e : ε) : (fix c b k n : OutE ε (Int × Int)) ≠ .err e := by
  unfold fix Cfg.sub Cfg.add
  rcases chk_cases (ε := ε) c (b - b.tmod k) with h | ⟨v, h, _⟩
  · simp [h]
  · rcases chk_cases (ε := ε) c (n + v.tdiv k) with h' | ⟨w, h', _⟩ <;> simp [h, h']

theorem dayLoop_ne_oof (c : Cfg) (y : Int) (n : Nat) (mo d : Int) (hn : d.toNat ≤ n) :
    (dayLoop c y n mo d : OutE ε (Int × Int)) ≠ .oof := by
  induction n generalizing mo d with
  | zero =>
    have := (numDays_range y mo).1
    unfold dayLoop
    rw [if_neg (by omega)]; simp
  | succ n ih =>
    unfold dayLoop
    have hr := (numDays_range y mo).1
    split
    · unfold Cfg.sub Cfg.add
      rcases chk_cases (ε := ε) c (d - getNumOfDaysInMonth y mo) with h | ⟨v, h, _⟩
      · simp [h]
      · have hv := chk_le c (by omega) h
        rcases chk_cases (ε := ε) c (mo + 1) with h' | ⟨w, h', _⟩
        · simp [h, h']
        · simp only [h, h', OutE.ok_bind]
          exact ih w v (by omega)
    · simp

theorem dayLoop_ne_err (c : Cfg) (y : Int) (n : Nat) (mo d : Int) (e : ε) :
    (dayLoop c y n mo d : OutE ε (Int × Int)) ≠ .err e := by
  induction n generalizing mo d with
  | zero => unfold dayLoop; split <;> simp
  | succ n ih =>
    unfold dayLoop
    split
    · unfold Cfg.sub Cfg.add
      rcases chk_cases (ε := ε) c (d - getNumOfDaysInMonth y mo) with h | ⟨v, h, _⟩
      · simp [h]
      · rcases chk_cases (ε := ε) c (mo + 1) with h' | ⟨w, h', _⟩
        · simp [h, h']
        · simp only [h, h', OutE.ok_bind]; exact ih w v
    · simp

theorem monthLoop_ne_oof (c : Cfg) (n : Nat) (y mo : Int) (hn : mo.toNat ≤ n) :
    (monthLoop c n y mo : OutE ε (Int × Int)) ≠ .oof := by
  induction n generalizing y mo with
  | zero => unfold monthLoop; rw [if_neg (by omega)]; simp
  | succ n ih =>
    unfold monthLoop
    split
    · unfold Cfg.sub Cfg.add
      rcases chk_cases (ε := ε) c (y + 1) with h' | ⟨w, h', _⟩
      · simp [h']
      · rcases chk_cases (ε := ε) c (mo - 12) with h | ⟨v, h, _⟩
        · simp [h, h']
        · have hv := chk_le c (by omega) h
          simp only [h, h', OutE.ok_bind]
          exact ih w v (by omega)
    · simp

theorem monthLoop_ne_err (c : Cfg) (n : Nat) (y mo : Int) (e : ε) :
    (monthLoop c n y mo : OutE ε (Int × Int)) ≠ .err e := by
  induction n generalizing y mo with
  | zero => unfold monthLoop; split <;> simp
  | succ n ih =>
    unfold monthLoop
    split
    · unfold Cfg.sub Cfg.add
      rcases chk_cases (ε := ε) c (y + 1) with h' | ⟨w, h', _⟩
      · simp [h']
      · rcases chk_cases (ε := ε) c (mo - 12) with h | ⟨v, h, _⟩
        · simp [h, h']
        · simp only [h, h', OutE.ok_bind]; exact ih w v
    · simp

theorem bind_ne_oof {α β : Type} {x : OutE ε α} {f : α → OutE ε β} (hx : x ≠ .oof)
    (hf : ∀ a, x = .ok a → f a ≠ .oof) : (x >>= f) ≠ .oof := by
  cases x <;> simp_all

theorem bind_ne_err {α β : Type} {e : ε} {x : OutE ε α} {f : α → OutE ε β} (hx : x ≠ .err e)
    (hf : ∀ a, x = .ok a → f a ≠ .err e) : (x >>= f) ≠ .err e := by
  cases x <;> simp_all

theorem adjustTimesAdd_ne_oof (c : Cfg) (p : Parts) : (adjustTimesAdd c p : OutE ε Parts) ≠ .oof := by
  unfold adjustTimesAdd
  refine bind_ne_oof (by apply fix_ne_oof) ?_; rintro ⟨mi, s⟩ -
  refine bind_ne_oof (by apply fix_ne_oof) ?_; rintro ⟨h, mi⟩ -
  refine bind_ne_oof (by apply fix_ne_oof) ?_; rintro ⟨d, h⟩ -
  refine bind_ne_oof (dayLoop_ne_oof _ _ _ _ _ (Nat.le_refl _)) ?_; rintro ⟨mo, d⟩ -
  refine bind_ne_oof (monthLoop_ne_oof _ _ _ _ (Nat.le_refl _)) ?_; rintro ⟨y, mo⟩ -
  simp

theorem adjustTimesAdd_ne_err (c : Cfg) (p : Parts) (e : ε) :
    (adjustTimesAdd c p : OutE ε Parts) ≠ .err e := by
  unfold adjustTimesAdd
  refine bind_ne_err (by apply fix_ne_err) ?_; rintro ⟨mi, s⟩ -
  refine bind_ne_err (by apply fix_ne_err) ?_; rintro ⟨h, mi⟩ -
  refine bind_ne_err (by apply fix_ne_err) ?_; rintro ⟨d, h⟩ -
  refine bind_ne_err (by apply dayLoop_ne_err) ?_; rintro ⟨mo, d⟩ -
  refine bind_ne_err (by apply monthLoop_ne_err) ?_; rintro ⟨y, mo⟩ -
  simp

theorem borrow_ne_oof (c : Cfg) (b l k t n : Int) : (borrow c b l k t n : OutE ε (Int × Int)) ≠ .oof := by
  unfold borrow
  split
  · refine bind_ne_oof (by apply chk_ne_oof) ?_; intro _ _
    refine bind_ne_oof (by apply chk_ne_oof) ?_; intro _ _
    refine bind_ne_oof (by apply chk_ne_oof) ?_; intro _ _
    refine bind_ne_oof (by apply chk_ne_oof) ?_; intro _ _
    refine bind_ne_oof (by apply chk_ne_oof) ?_; intro _ _
    refine bind_ne_oof (by apply chk_ne_oof) ?_; intro _ _
    simp
  · simp

theorem borrow_ne_err (c : Cfg) (b l k t n : Int) (e : ε) :
    (borrow c b l k t n : OutE ε (Int × Int)) ≠ .err e := by
  unfold borrow
  split
  · refine bind_ne_err (by apply chk_ne_err) ?_; intro _ _
    refine bind_ne_err (by apply chk_ne_err) ?_; intro _ _
    refine bind_ne_err (by apply chk_ne_err) ?_; intro _ _
    refine bind_ne_err (by apply chk_ne_err) ?_; intro _ _
    refine bind_ne_err (by apply chk_ne_err) ?_; intro _ _
    refine bind_ne_err (by apply chk_ne_err) ?_; intro _ _
    simp
  · simp

theorem adjustTimesSub_ne_oof (c : Cfg) (p : Parts) : (adjustTimesSub c p : OutE ε Parts) ≠ .oof := by
  unfold adjustTimesSub
  refine bind_ne_oof (by apply borrow_ne_oof) ?_; rintro ⟨_, _⟩ -
  refine bind_ne_oof (by apply borrow_ne_oof) ?_; rintro ⟨_, _⟩ -
  refine bind_ne_oof (by apply borrow_ne_oof) ?_; rintro ⟨_, _⟩ -
  refine bind_ne_oof (by apply borrow_ne_oof) ?_; rintro ⟨_, _⟩ -
  refine bind_ne_oof (by apply borrow_ne_oof) ?_; rintro ⟨_, _⟩ -
  simp

theorem adjustTimesSub_ne_err (c : Cfg) (p : Parts) (e : ε) :
    (adjustTimesSub c p : OutE ε Parts) ≠ .err e := by
  unfold adjustTimesSub
  refine bind_ne_err (by apply borrow_ne_err) ?_; rintro ⟨_, _⟩ -
  refine bind_ne_err (by apply borrow_ne_err) ?_; rintro ⟨_, _⟩ -
  refine bind_ne_err (by apply borrow_ne_err) ?_; rintro ⟨_, _⟩ -
  refine bind_ne_err (by apply borrow_ne_err) ?_; rintro ⟨_, _⟩ -
  refine bind_ne_err (by apply borrow_ne_err) ?_; rintro ⟨_, _⟩ -
  simp

end Kairos
