import Verif.Lemmas.Safe
import Verif.Spec.Part

/-!
# Lemmas: exactly when arithmetic on one moment and one amount panics
-/

namespace Kairos
open Spec

variable {ε : Type}

theorem fix_within (c : Cfg) {b k n : Int} (hb : 0 ≤ b) (hk : b < k) (hn : InI64 n) :
    (fix c b k n : OutE ε (Int × Int)) = .ok (n, b) := by
  have h1 : b.tmod k = b := by rw [Int.tmod_eq_emod_of_nonneg hb]; exact Int.emod_eq_of_lt hb hk
  have h3 : InI64 0 := by decide
  unfold fix
  simp only [Cfg.sub, Cfg.add, h1, Int.sub_self, chk_ok_of_in c h3, OutE.ok_bind, Int.zero_tdiv, Int.add_zero, chk_ok_of_in c hn]

theorem safe_fix_full (c : Cfg) (b k n N : Int) (hk : 24 ≤ k) (hk2 : k ≤ 60) (hb : InI64 b) (hn : -N ≤ n ∧ n ≤ N)
    (hN : N ≤ 3000000000000000000) :
    Safe (fun r : Int × Int => (-(N + 400000000000000000) ≤ r.1 ∧ r.1 ≤ N + 400000000000000000)) (fix c b k n : OutE ε (Int × Int)) := by
  obtain ⟨h1, h2, h3⟩ := tdiv_bound b k (by omega)
  unfold InI64 at hb
  have hi : InI64 (b.tdiv k * k) := by
    unfold InI64
    rcases Int.le_total 0 b with h | h
    · have := Int.tmod_nonneg k h; omega
    · have := Int.tmod_eq_emod_of_nonneg (a := -b) (b := k) (by omega)
      have h4 := Int.emod_nonneg (-b) (show k ≠ 0 by omega)
      have h6 := Int.emod_lt_of_pos (-b) (show 0 < k by omega)
      have h5 : (-b).tmod k = -(b.tmod k) := Int.neg_tmod ..
      omega
  unfold fix
  simp only [Cfg.sub, Cfg.add]
  rw [← h3, chk_ok_of_in c hi, OutE.ok_bind, tdiv_mul_cancel' (by omega)]
  have hq : -400000000000000000 ≤ b.tdiv k ∧ b.tdiv k ≤ 400000000000000000 := by
    generalize b.tdiv k = q at *
    constructor
    · rcases Int.le_total 0 q with h | h
      · omega
      · have : q * k ≤ q * 24 := Int.mul_le_mul_of_nonpos_left h hk
        omega
    · rcases Int.le_total 0 q with h | h
      · have : q * 24 ≤ q * k := Int.mul_le_mul_of_nonneg_left hk h
        omega
      · omega
  refine (safe_chk c (by omega) (by omega)).bind ?_
  intro r hr
  exact Safe.ok (by simp only; omega)

theorem safe_dayLoop_full (c : Cfg) (y : Int) (n : Nat) (mo d : Int) (M : Int) (hM : M ≤ 9223372036854775807)
    (h1 : -9223372036854775808 ≤ mo) (h2 : mo ≤ M) (h : 28 * mo + d ≤ 28 * M) (hd : d ≤ 9223372036854775807) :
    Safe (fun r : Int × Int => mo ≤ r.1 ∧ r.1 ≤ M) (dayLoop c y n mo d : OutE ε (Int × Int)) := by
  induction n generalizing mo d with
  | zero =>
    unfold dayLoop; split
    · exact Safe.oof
    · exact Safe.ok ⟨Int.le_refl _, h2⟩
  | succ n ih =>
    have hb := numDays_bounds y mo
    unfold dayLoop
    split
    · refine (safe_chk c (by omega) (by omega)).bind ?_
      intro d' hd'
      refine (safe_chk c (by omega) (by omega)).bind ?_
      intro mo' hmo'
      refine (ih mo' d' (by omega) (by omega) (by omega) (by omega)).mono ?_
      intro r hr; omega
    · exact Safe.ok ⟨Int.le_refl _, h2⟩

theorem safe_monthLoop_full (c : Cfg) (n : Nat) (y mo : Int) (Y : Int) (hY : Y ≤ 9000000000000000000)
    (h1 : -9000000000000000000 ≤ y) (h2 : y ≤ Y) (h : 12 * y + mo ≤ 12 * Y) (hm : mo ≤ 9223372036854775807) :
    Safe (fun _ => True) (monthLoop c n y mo : OutE ε (Int × Int)) := by
  induction n generalizing y mo with
  | zero =>
    unfold monthLoop; split
    · exact Safe.oof
    · exact Safe.ok trivial
  | succ n ih =>
    unfold monthLoop
    split
    · refine (safe_chk c (by omega) (by omega)).bind ?_
      intro d' hd'
      refine (safe_chk c (by omega) (by omega)).bind ?_
      intro mo' hmo'
      exact ih _ _ (by omega) (by omega) (by omega) (by omega)
    · exact Safe.ok trivial

theorem monthLoop_within (c : Cfg) (n : Nat) {y mo : Int} (h : mo ≤ 12) :
    (monthLoop c n y mo : OutE ε (Int × Int)) = .ok (y, mo) := by
  cases n <;> (unfold monthLoop; rw [if_neg (by omega)])

/-- The loops after the day number has been fixed. -/
theorem safe_loops (c : Cfg) {y mo d h mi s : Int} (hy : -1000000 ≤ y ∧ y ≤ 1000000) (hmo : 1 ≤ mo ∧ mo ≤ 12) (hd : InI64 d) :
    Safe (fun _ => True) ((do
      let (mo, d) ← dayLoop c y d.toNat mo d
      let (y, mo) ← monthLoop c mo.toNat y mo
      .ok ⟨y, mo, d, h, mi, s⟩ : OutE ε Parts)) := by
  unfold InI64 at hd
  refine (safe_dayLoop_full c _ _ _ _ 400000000000000000 (by omega) (by omega) (by omega) (by omega) (by omega)).bind ?_
  rintro ⟨mo', d'⟩ h4
  simp only at h4 ⊢
  refine (safe_monthLoop_full c _ _ _ 100000000000000000 (by omega) (by omega) (by omega) (by omega) (by omega)).bind ?_
  rintro ⟨y', mo''⟩ -
  exact Safe.ok trivial

theorem safe_add_second (c : Cfg) {y mo d h mi s : Int} (hy : -1000000 ≤ y ∧ y ≤ 1000000) (hmo : 1 ≤ mo ∧ mo ≤ 12)
    (hd : 1 ≤ d ∧ d ≤ 31) (hh : 0 ≤ h ∧ h < 24) (hmi : 0 ≤ mi ∧ mi < 60) (hs : InI64 s) :
    Safe (fun _ => True) (adjustTimesAdd c ⟨y, mo, d, h, mi, s⟩ : OutE ε Parts) := by
  unfold adjustTimesAdd
  simp only
  refine (safe_fix_full c _ _ _ 60 (by decide) (by decide) hs (by omega) (by omega)).bind ?_
  rintro ⟨mi, s⟩ h1
  simp only at h1 ⊢
  refine (safe_fix_full c _ _ _ 60 (by decide) (by decide) (by unfold InI64; omega) (by omega) (by omega)).bind ?_
  rintro ⟨h, mi'⟩ h2
  simp only at h2 ⊢
  refine (safe_fix_full c _ _ _ 60 (by decide) (by decide) (by unfold InI64; omega) (by omega) (by omega)).bind ?_
  rintro ⟨d, h'⟩ h3
  simp only at h3 ⊢
  exact safe_loops c hy hmo (by unfold InI64; omega)

theorem safe_add_minute (c : Cfg) {y mo d h mi s : Int} (hy : -1000000 ≤ y ∧ y ≤ 1000000) (hmo : 1 ≤ mo ∧ mo ≤ 12)
    (hd : 1 ≤ d ∧ d ≤ 31) (hh : 0 ≤ h ∧ h < 24) (hmi : InI64 mi) (hs : 0 ≤ s ∧ s < 60) :
    Safe (fun _ => True) (adjustTimesAdd c ⟨y, mo, d, h, mi, s⟩ : OutE ε Parts) := by
  unfold adjustTimesAdd
  simp only
  rw [fix_within c hs.1 hs.2 hmi, OutE.ok_bind]
  refine (safe_fix_full c _ _ _ 60 (by decide) (by decide) hmi (by omega) (by omega)).bind ?_
  rintro ⟨h, mi'⟩ h2
  simp only at h2 ⊢
  refine (safe_fix_full c _ _ _ 60 (by decide) (by decide) (by unfold InI64; omega) (by omega) (by omega)).bind ?_
  rintro ⟨d, h'⟩ h3
  simp only at h3 ⊢
  exact safe_loops c hy hmo (by unfold InI64; omega)

theorem safe_add_hour (c : Cfg) {y mo d h mi s : Int} (hy : -1000000 ≤ y ∧ y ≤ 1000000) (hmo : 1 ≤ mo ∧ mo ≤ 12)
    (hd : 1 ≤ d ∧ d ≤ 31) (hh : InI64 h) (hmi : 0 ≤ mi ∧ mi < 60) (hs : 0 ≤ s ∧ s < 60) :
    Safe (fun _ => True) (adjustTimesAdd c ⟨y, mo, d, h, mi, s⟩ : OutE ε Parts) := by
  unfold adjustTimesAdd
  simp only
  rw [fix_within c hs.1 hs.2 (by unfold InI64; omega), OutE.ok_bind]
  simp only
  rw [fix_within c hmi.1 hmi.2 hh, OutE.ok_bind]
  refine (safe_fix_full c _ _ _ 60 (by decide) (by decide) hh (by omega) (by omega)).bind ?_
  rintro ⟨d, h'⟩ h3
  simp only at h3 ⊢
  exact safe_loops c hy hmo (by unfold InI64; omega)

/-- With a valid time of day only the loops are left. -/
theorem adjustAdd_time' (c : Cfg) {y mo d h mi s : Int} (hd : InI64 d) (hh : 0 ≤ h ∧ h < 24) (hmi : 0 ≤ mi ∧ mi < 60)
    (hs : 0 ≤ s ∧ s < 60) : (adjustTimesAdd c ⟨y, mo, d, h, mi, s⟩ : OutE ε Parts) = (do
      let (mo, d) ← dayLoop c y d.toNat mo d
      let (y, mo) ← monthLoop c mo.toNat y mo
      .ok ⟨y, mo, d, h, mi, s⟩) := by
  unfold adjustTimesAdd
  simp only
  rw [fix_within c hs.1 hs.2 (by unfold InI64; omega), OutE.ok_bind]
  simp only
  rw [fix_within c hmi.1 hmi.2 (by unfold InI64; omega), OutE.ok_bind]
  simp only
  rw [fix_within c hh.1 hh.2 hd, OutE.ok_bind]

theorem safe_add_year (c : Cfg) {y mo d h mi s : Int} (hmo : 1 ≤ mo ∧ mo ≤ 12)
    (hd : 1 ≤ d ∧ d ≤ 31) (hh : 0 ≤ h ∧ h < 24) (hmi : 0 ≤ mi ∧ mi < 60) (hs : 0 ≤ s ∧ s < 60) :
    Safe (fun _ => True) (adjustTimesAdd c ⟨y, mo, d, h, mi, s⟩ : OutE ε Parts) := by
  rw [adjustAdd_time' c (by unfold InI64; omega) hh hmi hs]
  have hx : mo = 12 → getNumOfDaysInMonth y mo = 31 := by intro h; subst h; rfl
  by_cases h12 : mo = 12
  · have : ∀ n, (dayLoop c y n mo d : OutE ε (Int × Int)) = .ok (mo, d) := by
      intro n
      cases n <;> (unfold dayLoop; rw [if_neg (by have := hx h12; omega)])
    rw [this, OutE.ok_bind]
    simp only
    rw [monthLoop_within c _ hmo.2]
    exact Safe.ok trivial
  · -- one month on at most, because a month has at least 28 days
    have hb := numDays_bounds y mo
    have hb' := numDays_bounds y (mo + 1)
    have : ∃ mo' d', mo' ≤ 12 ∧ (dayLoop c y d.toNat mo d : OutE ε (Int × Int)) = .ok (mo', d') := by
      obtain ⟨k, hk⟩ : ∃ k, d.toNat = k + 1 := ⟨d.toNat - 1, by omega⟩
      rw [hk]
      unfold dayLoop
      by_cases hp : d > getNumOfDaysInMonth y mo
      · rw [if_pos hp]
        simp only [Cfg.sub, Cfg.add]
        rw [chk_ok_of_in c (by unfold InI64; omega), OutE.ok_bind, chk_ok_of_in c (by unfold InI64; omega), OutE.ok_bind]
        refine ⟨mo + 1, d - getNumOfDaysInMonth y mo, by omega, ?_⟩
        cases k <;> (unfold dayLoop; rw [if_neg (by omega)])
      · rw [if_neg hp]; exact ⟨mo, d, by omega, rfl⟩
    obtain ⟨mo', d', h1, h2⟩ := this
    rw [h2, OutE.ok_bind]
    simp only
    rw [monthLoop_within c _ h1]
    exact Safe.ok trivial

/-- The month number: a day 31 needs one month more. -/
theorem panic_add_month (c : Cfg) {y mo d h mi s : Int} (hy : -1000000 ≤ y ∧ y ≤ 1000000) (hmo : InI64 mo)
    (hd : 1 ≤ d ∧ d ≤ 31) (hh : 0 ≤ h ∧ h < 24) (hmi : 0 ≤ mi ∧ mi < 60) (hs : 0 ≤ s ∧ s < 60) :
    (adjustTimesAdd c ⟨y, mo, d, h, mi, s⟩ : OutE ε Parts) = .panic ↔
      c.profile = .debug ∧ mo = 9223372036854775807 ∧ d = 31 := by
  rw [adjustAdd_time' c (by unfold InI64; omega) hh hmi hs]
  have hmo' := hmo
  unfold InI64 at hmo'
  by_cases hbig : mo ≤ 9223372036854775000
  · have : Safe (fun _ => True) ((do
      let (mo, d) ← dayLoop c y d.toNat mo d
      let (y, mo) ← monthLoop c mo.toNat y mo
      .ok ⟨y, mo, d, h, mi, s⟩ : OutE ε Parts)) := by
      refine (safe_dayLoop_full c _ _ _ _ (mo + 2) (by omega) (by omega) (by omega) (by omega) (by omega)).bind ?_
      rintro ⟨mo', d'⟩ h4
      simp only at h4 ⊢
      by_cases hneg : mo' ≤ 12
      · rw [monthLoop_within c _ hneg]; exact Safe.ok trivial
      · refine (safe_monthLoop_full c _ _ _ 800000000000000000 (by omega) (by omega) (by omega) (by omega) (by omega)).bind ?_
        rintro ⟨y', mo''⟩ -
        exact Safe.ok trivial
    exact ⟨fun h => absurd h this.1, fun h => by omega⟩
  · have h30 : ∀ z, 12 < z → getNumOfDaysInMonth y z = 30 := by
      intro z hz
      unfold getNumOfDaysInMonth
      rw [if_neg (by omega), if_neg (by omega)]
    have fin : ∀ mo' d', mo' ≤ 9223372036854775807 → (do
        let (y, mo) ← monthLoop c mo'.toNat y mo'
        .ok ⟨y, mo, d', h, mi, s⟩ : OutE ε Parts) ≠ .panic := by
      intro mo' d' hle
      suffices h : Safe (fun _ => True) (do
          let (y, mo) ← monthLoop c mo'.toNat y mo'
          .ok ⟨y, mo, d', h, mi, s⟩ : OutE ε Parts) from h.1
      by_cases hneg : mo' ≤ 12
      · rw [monthLoop_within c _ hneg]; exact Safe.ok trivial
      · refine (safe_monthLoop_full c _ _ _ 800000000000000000 (by omega) (by omega) (by omega) (by omega) (by omega)).bind ?_
        rintro ⟨y', mo''⟩ -
        exact Safe.ok trivial
    obtain ⟨k, hk⟩ : ∃ k, d.toNat = k + 1 := ⟨d.toNat - 1, by omega⟩
    rw [hk]
    unfold dayLoop
    rw [h30 mo (by omega)]
    by_cases h31 : d = 31
    · subst h31
      obtain ⟨k, rfl⟩ : ∃ j, k = j + 1 := ⟨k - 1, by omega⟩
      rw [if_pos (by omega)]
      simp only [Cfg.sub, Cfg.add]
      rw [chk_ok_of_in c (by unfold InI64; omega), OutE.ok_bind]
      by_cases hmax : mo = 9223372036854775807
      · subst hmax
        cases hp : c.profile with
        | debug => simp [Cfg.chk, InI64, hp]
        | release =>
          have : (c.chk (9223372036854775807 + 1) : OutE ε Int) = .ok (-9223372036854775808) := by
            simp [Cfg.chk, InI64, hp, wrap64]
          rw [this, OutE.ok_bind]
          unfold dayLoop
          rw [if_neg (by have := numDays_bounds y (-9223372036854775808); omega), OutE.ok_bind]
          simp only
          exact ⟨fun h => absurd h (fin _ _ (by omega)), fun h => by simp at h⟩
      · rw [chk_ok_of_in c (by unfold InI64; omega), OutE.ok_bind]
        unfold dayLoop
        rw [if_neg (by have := numDays_bounds y (mo + 1); omega), OutE.ok_bind]
        simp only
        exact ⟨fun h => absurd h (fin _ _ (by omega)), fun h => by omega⟩
    · rw [if_neg (by omega), OutE.ok_bind]
      simp only
      exact ⟨fun h => absurd h (fin _ _ (by omega)), fun h => by omega⟩

/-! ## Subtracting -/

theorem borrow_within (c : Cfg) {base low div top next : Int} (h : low ≤ base) :
    (borrow c base low div top next : OutE ε (Int × Int)) = .ok (next, base) := by
  unfold borrow; rw [if_neg (by omega)]

theorem safe_borrow_full (c : Cfg) {base low div top next : Int} (N : Int) (hdiv : 13 ≤ div)
    (hb : -9223372036854775807 ≤ base ∧ base ≤ 9223372036854775807) (hl : low ≤ 1) (ht : 0 ≤ top ∧ top ≤ 100)
    (hn : -N ≤ next ∧ next ≤ N) (hN : N ≤ 4400000000000000000) :
    Safe (fun r : Int × Int => -(N + 720000000000000000) ≤ r.1 ∧ r.1 ≤ N + 720000000000000000)
      (borrow c base low div top next : OutE ε (Int × Int)) := by
  unfold borrow
  split
  · rename_i hlt
    simp only [Cfg.abs, Cfg.add, Cfg.sub]
    refine (safe_chk c (by split <;> omega) (by split <;> omega)).bind ?_
    intro a ha
    have ha0 : 0 ≤ a ∧ a ≤ 9223372036854775807 := by rw [ha]; split <;> omega
    rw [Int.tdiv_eq_ediv_of_nonneg ha0.1]
    have hq : 0 ≤ a / div ∧ a / div ≤ 710000000000000000 := by
      refine ⟨Int.ediv_nonneg ha0.1 (by omega), ?_⟩
      have h1 := Int.mul_ediv_self_le (x := a) (k := div) (by omega)
      have h0 : 0 ≤ a / div := Int.ediv_nonneg ha0.1 (by omega)
      have : 13 * (a / div) ≤ div * (a / div) := Int.mul_le_mul_of_nonneg_right hdiv h0
      omega
    refine (safe_chk c (by omega) (by omega)).bind ?_
    intro q hq'
    refine (safe_chk c (by omega) (by omega)).bind ?_
    intro n' hn'
    refine (safe_chk c (by omega) (by omega)).bind ?_
    intro z hz
    refine (safe_chk c (by split <;> omega) (by split <;> omega)).bind ?_
    intro za hza
    have hza' : 0 ≤ za ∧ za ≤ 9223372036854775807 := by rw [hza]; split <;> omega
    refine (safe_chk c (by omega) (by omega)).bind ?_
    intro b' hb'
    exact Safe.ok (by simp only; omega)
  · exact Safe.ok (by simp only; omega)

/-- Whatever the component an amount was subtracted from, the others being small. -/
theorem safe_sub_one (c : Cfg) {y mo d h mi s : Int} (u : TUnit)
    (hy : if u = .year then InI64 y else -1000000 ≤ y ∧ y ≤ 1000000)
    (hmo : if u = .month then -9223372036854775807 ≤ mo ∧ mo ≤ 9223372036854775807 else 1 ≤ mo ∧ mo ≤ 12)
    (hd : if u = .day then -9223372036854775807 ≤ d ∧ d ≤ 9223372036854775807 else 1 ≤ d ∧ d ≤ 31)
    (hh : if u = .hour then -9223372036854775807 ≤ h ∧ h ≤ 9223372036854775807 else 0 ≤ h ∧ h < 24)
    (hmi : if u = .minute then -9223372036854775807 ≤ mi ∧ mi ≤ 9223372036854775807 else 0 ≤ mi ∧ mi < 60)
    (hs : if u = .second then -9223372036854775807 ≤ s ∧ s ≤ 9223372036854775807 else 0 ≤ s ∧ s < 60) :
    Safe (fun _ => True) (adjustTimesSub c ⟨y, mo, d, h, mi, s⟩ : OutE ε Parts) := by
  unfold adjustTimesSub
  cases u <;> simp at hy hmo hd hh hmi hs <;> simp only
  · refine (safe_borrow_full c 100 (by decide) (by omega) (by decide) (by decide) (by omega) (by decide)).bind ?_
    rintro ⟨mi, s⟩ h1
    simp only at h1 ⊢
    refine (safe_borrow_full c 100 (by decide) (by omega) (by decide) (by decide) (by omega) (by decide)).bind ?_
    rintro ⟨h, mi'⟩ h2
    simp only at h2 ⊢
    refine (safe_borrow_full c 100 (by decide) (by omega) (by decide) (by decide) (by omega) (by decide)).bind ?_
    rintro ⟨d, h'⟩ h3
    simp only at h3 ⊢
    refine (safe_borrow_full c 100 (by decide) (by omega) (by decide) (by decide) (by omega) (by decide)).bind ?_
    rintro ⟨mo, d'⟩ h4
    simp only at h4 ⊢
    refine (safe_borrow_full c 1000000 (by decide) (by omega) (by decide) (by decide) (by omega) (by decide)).bind ?_
    rintro ⟨y, mo'⟩ h5
    exact Safe.ok trivial
  · rw [borrow_within c hs.1, OutE.ok_bind]
    refine (safe_borrow_full c 100 (by decide) (by omega) (by decide) (by decide) (by omega) (by decide)).bind ?_
    rintro ⟨h, mi'⟩ h2
    simp only at h2 ⊢
    refine (safe_borrow_full c 100 (by decide) (by omega) (by decide) (by decide) (by omega) (by decide)).bind ?_
    rintro ⟨d, h'⟩ h3
    simp only at h3 ⊢
    refine (safe_borrow_full c 100 (by decide) (by omega) (by decide) (by decide) (by omega) (by decide)).bind ?_
    rintro ⟨mo, d'⟩ h4
    simp only at h4 ⊢
    refine (safe_borrow_full c 1000000 (by decide) (by omega) (by decide) (by decide) (by omega) (by decide)).bind ?_
    rintro ⟨y, mo'⟩ h5
    exact Safe.ok trivial
  · rw [borrow_within c hs.1, OutE.ok_bind]
    simp only
    rw [borrow_within c hmi.1, OutE.ok_bind]
    refine (safe_borrow_full c 100 (by decide) (by omega) (by decide) (by decide) (by omega) (by decide)).bind ?_
    rintro ⟨d, h'⟩ h3
    simp only at h3 ⊢
    refine (safe_borrow_full c 100 (by decide) (by omega) (by decide) (by decide) (by omega) (by decide)).bind ?_
    rintro ⟨mo, d'⟩ h4
    simp only at h4 ⊢
    refine (safe_borrow_full c 1000000 (by decide) (by omega) (by decide) (by decide) (by omega) (by decide)).bind ?_
    rintro ⟨y, mo'⟩ h5
    exact Safe.ok trivial
  · rw [borrow_within c hs.1, OutE.ok_bind]
    simp only
    rw [borrow_within c hmi.1, OutE.ok_bind]
    simp only
    rw [borrow_within c hh.1, OutE.ok_bind]
    refine (safe_borrow_full c 100 (by decide) (by omega) (by decide) (by decide) (by omega) (by decide)).bind ?_
    rintro ⟨mo, d'⟩ h4
    simp only at h4 ⊢
    refine (safe_borrow_full c 1000000 (by decide) (by omega) (by decide) (by decide) (by omega) (by decide)).bind ?_
    rintro ⟨y, mo'⟩ h5
    exact Safe.ok trivial
  · rw [borrow_within c hs.1, OutE.ok_bind]
    simp only
    rw [borrow_within c hmi.1, OutE.ok_bind]
    simp only
    rw [borrow_within c hh.1, OutE.ok_bind]
    simp only
    rw [borrow_within c hd.1, OutE.ok_bind]
    refine (safe_borrow_full c 1000000 (by decide) (by omega) (by decide) (by decide) (by omega) (by decide)).bind ?_
    rintro ⟨y, mo'⟩ h5
    exact Safe.ok trivial
  · rw [borrow_within c hs.1, OutE.ok_bind]
    simp only
    rw [borrow_within c hmi.1, OutE.ok_bind]
    simp only
    rw [borrow_within c hh.1, OutE.ok_bind]
    simp only
    rw [borrow_within c hd.1, OutE.ok_bind]
    simp only
    rw [borrow_within c hmo.1, OutE.ok_bind]
    exact Safe.ok trivial

end Kairos
