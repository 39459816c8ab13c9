import Verif.Spec.Cycle
import Verif.Props.AllYears
import Verif.Lemmas.Valid

/-! The evaluator on expressions whose moments are `400 · k` years later. -/

namespace Kairos
open Spec

theorem isLeap_cycle (y k : Int) : Cal.isLeap (y + 400 * k) = Cal.isLeap y := by
  unfold Cal.isLeap
  rw [show (y + 400 * k) % 4 = y % 4 by omega, show (y + 400 * k) % 100 = y % 100 by omega,
    show (y + 400 * k) % 400 = y % 400 by omega]

theorem monthLen_cycle (y k m : Int) : Cal.monthLen (y + 400 * k) m = Cal.monthLen y m := by
  unfold Cal.monthLen; rw [isLeap_cycle]

theorem validDate_cycle (y k m d : Int) : Cal.ValidDate (y + 400 * k) m d ↔ Cal.ValidDate y m d := by
  unfold Cal.ValidDate; rw [monthLen_cycle]

/-- The outcome `y` corresponds to the outcome `x`: if `x` is a success, `y` is the same value with moments `400 · k` years later,
or the year is out of bounds, or (debug) an overflow. -/
def Corr (c : Cfg) (k : Int) (x y : Out TT) : Prop :=
  ∀ v, x = .ok v → y = .ok (mapMoments (cyclesLater k) v) ∨ (c.profile = .debug ∧ y = .panic) ∨
    ∃ Y M D H MI S, y = .err (.outOfBounds Y M D H MI S) ∧ (Y < c.minYear ∨ c.maxYear < Y)

variable {c : Cfg} {k : Int}

/-- The number theory: what is left of a 64-bit year after truncation. -/
theorem asI32_form (y : Int) : ∃ q, y = asI32 y + q * 4294967296 ∧ -2147483648 ≤ asI32 y ∧ asI32 y ≤ 2147483647 := by
  unfold asI32
  rw [Int.bmod_def]
  refine ⟨if y % 4294967296 < 2147483648 then y / 4294967296 else y / 4294967296 + 1, ?_⟩
  split <;> split <;> omega

theorem chk_mod {ε : Type} {x a : Int} (h : (c.chk x : OutE ε Int) = .ok a) : ∃ q, a = x + q * 4294967296 := by
  unfold Cfg.chk at h
  split at h
  · cases h; exact ⟨0, by omega⟩
  · split at h
    · cases h
    · cases h
      refine ⟨if x % 18446744073709551616 < 9223372036854775808 then -(x / 18446744073709551616) * 4294967296
        else -(x / 18446744073709551616 + 1) * 4294967296, ?_⟩
      unfold wrap64
      rw [Int.bmod_def]
      split <;> split <;> omega

theorem chk_total {ε : Type} (c : Cfg) (x : Int) : (∃ a, (c.chk x : OutE ε Int) = .ok a) ∨
    (c.profile = .debug ∧ (c.chk x : OutE ε Int) = .panic) := by
  unfold Cfg.chk
  split
  · exact .inl ⟨_, rfl⟩
  · cases h : c.profile
    · exact .inr ⟨rfl, rfl⟩
    · exact .inl ⟨_, rfl⟩

theorem monthLoop_cycle {ε : Type} {δ : Int} (n : Nat) {y y' mo z mo2 q : Int} (hy : y' = y + δ + q * 4294967296)
    (h : (monthLoop c n y mo : OutE ε (Int × Int)) = .ok (z, mo2)) :
    (∃ q', (monthLoop c n y' mo : OutE ε (Int × Int)) = .ok (z + δ + q' * 4294967296, mo2)) ∨
      (c.profile = .debug ∧ (monthLoop c n y' mo : OutE ε (Int × Int)) = .panic) := by
  induction n generalizing y y' mo q with
  | zero =>
    unfold monthLoop at h ⊢
    split at h
    · cases h
    · rename_i hm
      cases h
      rw [if_neg hm]
      exact .inl ⟨q, by rw [hy]⟩
  | succ n ih =>
    unfold monthLoop at h ⊢
    by_cases hm : mo > 12
    · rw [if_pos hm] at h ⊢
      rw [OutE.bind_eq_ok] at h
      obtain ⟨y1, e1, h⟩ := h
      rw [OutE.bind_eq_ok] at h
      obtain ⟨m1, e2, h⟩ := h
      obtain ⟨q1, hq1⟩ := chk_mod e1
      rcases chk_total (ε := ε) c (y' + 1) with ⟨y2, e3⟩ | ⟨hp, e3⟩
      · obtain ⟨q2, hq2⟩ := chk_mod e3
        rw [show (c.add y' 1 : OutE ε Int) = _ from e3, OutE.ok_bind, e2, OutE.ok_bind]
        exact ih (q := q + q2 - q1) (by omega) h
      · rw [show (c.add y' 1 : OutE ε Int) = _ from e3]
        exact .inr ⟨hp, rfl⟩
    · rw [if_neg hm] at h ⊢
      cases h
      exact .inl ⟨q, by rw [hy]⟩

/-- Two years of chrono's range that differ as they should up to truncation differ as they should. -/
theorem years_cycle (hc : Sane c) {m : Moment} (hm : m.Valid c) (hm' : (cyclesLater k m).Valid c) {Y Y' q : Int}
    (h1 : c.minYear ≤ Y ∧ Y ≤ c.maxYear) (h2 : c.minYear ≤ Y' ∧ Y' ≤ c.maxYear) (h : Y' = Y + 400 * k + q * 4294967296) :
    Y' = Y + 400 * k := by
  unfold Sane at hc
  have a1 := hm.1; have a2 := hm.2.1
  have b1 := hm'.1; have b2 := hm'.2.1
  unfold cyclesLater at b1 b2
  simp only at b1 b2
  omega

theorem Corr.built (hc : Sane c) {m : Moment} (hm : m.Valid c) (hm' : (cyclesLater k m).Valid c) {y y' mo d h mi s q : Int}
    (hy : y' = y + 400 * k + q * 4294967296) :
    Corr c k (Eval.buildMoment c ⟨y, mo, d, h, mi, s⟩) (Eval.buildMoment c ⟨y', mo, d, h, mi, s⟩) := by
  intro v hv
  obtain ⟨r, rfl, hr, hb⟩ := buildMoment_ok hv
  rcases hw : Eval.buildMoment c ⟨y', mo, d, h, mi, s⟩ with w | e | _ | _
  · obtain ⟨r', rfl, hr', hb'⟩ := buildMoment_ok hw
    refine .inl ?_
    obtain ⟨q1, g1, -⟩ := asI32_form y
    obtain ⟨q2, g2, -⟩ := asI32_form y'
    simp only at hr hr'
    have e1 : r.year = asI32 y := by rw [hr]
    have e2 : r'.year = asI32 y' := by rw [hr']
    have := years_cycle hc hm hm' (q := q + q1 - q2) ⟨hb.1.1, hb.1.2.1⟩ ⟨hb'.1.1, hb'.1.2.1⟩ (by omega)
    have er : r' = cyclesLater k r := by
      rw [hr', hr]
      unfold cyclesLater
      simp only [Moment.mk.injEq, and_true]
      omega
    subst er
    rfl
  · refine .inr (.inr ?_)
    unfold Eval.buildMoment at hw
    split at hw
    · cases hw
    · rename_i hn
      cases hw
      refine ⟨_, _, _, _, _, _, rfl, ?_⟩
      obtain ⟨q1, g1, -⟩ := asI32_form y
      obtain ⟨q2, g2, -⟩ := asI32_form y'
      apply Classical.byContradiction
      intro hY
      simp only at hr hY hn
      have e1 : r.year = asI32 y := by rw [hr]
      have hyy : asI32 y' = asI32 y + 400 * k :=
        years_cycle hc hm hm' (q := q + q1 - q2) (e1 ▸ ⟨hb.1.1, hb.1.2.1⟩) (by omega) (by omega)
      unfold Eval.buildMoment at hv
      split at hv
      · rename_i r1 hr1
        rw [Option.bind_eq_some_iff] at hr1
        obtain ⟨nd, hnd, hr1⟩ := hr1
        obtain ⟨-, a1, a2, a3⟩ := fromYmdOpt_some c hnd
        simp only at hnd hr1 a3
        rw [hyy] at hn hY
        unfold fromYmdOpt at hn
        rw [if_pos ⟨by omega, by omega, (validDate_cycle _ k _ _).2 a3⟩] at hn
        simp only [Option.bind_some, Date.andHmsOpt] at hn hr1
        split at hr1
        · rename_i ht
          rw [if_pos ht] at hn
          cases hn
        · cases hr1
      · cases hv
  · unfold Eval.buildMoment at hw; split at hw <;> cases hw
  · unfold Eval.buildMoment at hw; split at hw <;> cases hw

theorem numDays_cycle (hc : Sane c) {m : Moment} (hm : m.Valid c) (hm' : (cyclesLater k m).Valid c) (mo : Int) :
    getNumOfDaysInMonth (m.year + 400 * k) mo = getNumOfDaysInMonth m.year mo := by
  unfold Sane at hc
  have a1 := hm.1; have a2 := hm.2.1
  have b1 := hm'.1; have b2 := hm'.2.1
  unfold cyclesLater at b1 b2
  simp only at b1 b2
  unfold getNumOfDaysInMonth
  rw [asI32_id (by omega) (by omega), asI32_id (by omega) (by omega), isLeapYear_eq, isLeapYear_eq, isLeap_cycle]

theorem dayLoop_cycle {ε : Type} (hc : Sane c) {m : Moment} (hm : m.Valid c) (hm' : (cyclesLater k m).Valid c) (n : Nat) (mo d : Int) :
    (dayLoop c (m.year + 400 * k) n mo d : OutE ε (Int × Int)) = dayLoop c m.year n mo d := by
  induction n generalizing mo d with
  | zero => unfold dayLoop; rw [numDays_cycle hc hm hm']
  | succ n ih =>
    unfold dayLoop
    rw [numDays_cycle hc hm hm']
    simp only [ih]

/-- Adding to anything but the year. -/
theorem Corr.added (hc : Sane c) {m : Moment} (hm : m.Valid c) (hm' : (cyclesLater k m).Valid c) {mo d h mi s : Int} :
    Corr c k (do let p ← adjustTimesAdd c ⟨m.year, mo, d, h, mi, s⟩; Eval.buildMoment c p)
      (do let p ← adjustTimesAdd c ⟨m.year + 400 * k, mo, d, h, mi, s⟩; Eval.buildMoment c p) := by
  intro v hv
  rw [OutE.bind_eq_ok] at hv
  obtain ⟨p, hp, hv⟩ := hv
  unfold adjustTimesAdd at hp
  simp only [OutE.bind_eq_ok] at hp
  obtain ⟨⟨a1, a2⟩, e1, ⟨a3, a4⟩, e2, ⟨a5, a6⟩, e3, ⟨a7, a8⟩, e4, ⟨a9, a10⟩, e5, e6⟩ := hp
  cases e6
  unfold adjustTimesAdd
  simp only [e1, e2, e3, OutE.ok_bind, dayLoop_cycle hc hm hm', e4]
  rcases monthLoop_cycle (y' := m.year + 400 * k) (δ := 400 * k) (q := 0) a7.toNat (by omega) e5 with ⟨q', e⟩ | ⟨hp, e⟩
  · rw [e, OutE.ok_bind, OutE.ok_bind]
    exact Corr.built hc hm hm' rfl v hv
  · rw [e]
    obtain ⟨r, rfl, -, hb⟩ := buildMoment_ok hv
    exact .inr (.inl ⟨hp, rfl⟩)

/-- Subtracting from anything but the year. -/
theorem Corr.subtracted (hc : Sane c) {m : Moment} (hm : m.Valid c) (hm' : (cyclesLater k m).Valid c) {mo d h mi s : Int} :
    Corr c k (do let p ← adjustTimesSub c ⟨m.year, mo, d, h, mi, s⟩; Eval.buildMoment c p)
      (do let p ← adjustTimesSub c ⟨m.year + 400 * k, mo, d, h, mi, s⟩; Eval.buildMoment c p) := by
  intro v hv
  rw [OutE.bind_eq_ok] at hv
  obtain ⟨p, hp, hv⟩ := hv
  unfold adjustTimesSub at hp
  simp only [OutE.bind_eq_ok] at hp
  obtain ⟨⟨a1, a2⟩, e1, ⟨a3, a4⟩, e2, ⟨a5, a6⟩, e3, ⟨a7, a8⟩, e4, ⟨a9, a10⟩, e5, e6⟩ := hp
  cases e6
  unfold adjustTimesSub
  simp only [e1, e2, e3, OutE.ok_bind, e4]
  unfold borrow at e5 ⊢
  by_cases h1 : a7 < 1
  · rw [if_pos h1] at e5 ⊢
    simp only [OutE.bind_eq_ok] at e5
    obtain ⟨b1, f1, b2, f2, b3, f3, b4, f4, b5, f5, b6, f6, f7⟩ := e5
    cases f7
    obtain ⟨q1, hq1⟩ := chk_mod f3
    simp only [f1, f2, OutE.ok_bind]
    rcases chk_total (ε := ErrorKind) c (m.year + 400 * k - b2) with ⟨y2, e⟩ | ⟨hp, e⟩
    · obtain ⟨q2, hq2⟩ := chk_mod e
      rw [show (c.sub (m.year + 400 * k) b2 : Out Int) = _ from e]
      simp only [OutE.ok_bind, f4, f5, f6]
      exact Corr.built hc hm hm' (q := q2 - q1) (by omega) v hv
    · rw [show (c.sub (m.year + 400 * k) b2 : Out Int) = _ from e]
      obtain ⟨r, rfl, -, hb⟩ := buildMoment_ok hv
      exact .inr (.inl ⟨hp, rfl⟩)
  · rw [if_neg h1] at e5 ⊢
    cases e5
    simp only [OutE.ok_bind]
    exact Corr.built hc hm hm' (q := 0) (by omega) v hv

/-- Adding years. -/
theorem Corr.addedYears (hc : Sane c) {m : Moment} (hm : m.Valid c) (hm' : (cyclesLater k m).Valid c) (n : Int) :
    Corr c k (calculate c (.moment m + .years n)) (calculate c (.moment (cyclesLater k m) + .years n)) := by
  obtain ⟨q1, g1, g2, g3⟩ := asI32_form (m.year + n)
  obtain ⟨q2, f1, f2, f3⟩ := asI32_form (m.year + 400 * k + n)
  rw [Props.C18_every_amount_partial c m hm n _ q1 g2 g3 g1, Props.C18_every_amount_partial c _ hm' n _ q2 f2 f3 f1]
  generalize asI32 (m.year + n) = Y at *
  generalize asI32 (m.year + 400 * k + n) = Y' at *
  intro v hv
  split at hv
  · cases hv
  split at hv
  · cases hv
  rename_i hr
  split
  · rename_i hp; exact .inr (.inl ⟨hp.1, rfl⟩)
  · split
    · rename_i hr'; exact .inr (.inr ⟨_, _, _, _, _, _, rfl, hr'⟩)
    · rename_i hr'
      have := years_cycle hc hm hm' (Y := Y) (Y' := Y') (q := q1 - q2) (by omega) (by omega) (by omega)
      subst this
      refine .inl ?_
      rw [isLeap_cycle]
      show (if m.month = 2 ∧ m.day = 29 ∧ Cal.isLeap Y = false then _ else _) = _
      by_cases h : m.month = 2 ∧ m.day = 29 ∧ Cal.isLeap Y = false
      · rw [if_pos h] at hv ⊢; cases hv; rfl
      · rw [if_neg h] at hv ⊢; cases hv; rfl

/-- Subtracting years. -/
theorem Corr.subtractedYears (hc : Sane c) {m : Moment} (hm : m.Valid c) (hm' : (cyclesLater k m).Valid c) (n : Int) :
    Corr c k (calculate c (.moment m - .years n)) (calculate c (.moment (cyclesLater k m) - .years n)) := by
  obtain ⟨q1, g1, g2, g3⟩ := asI32_form (m.year - n)
  obtain ⟨q2, f1, f2, f3⟩ := asI32_form (m.year + 400 * k - n)
  rw [Props.C23_every_amount_partial c m hm n _ q1 g2 g3 g1, Props.C23_every_amount_partial c _ hm' n _ q2 f2 f3 f1]
  generalize asI32 (m.year - n) = Y at *
  generalize asI32 (m.year + 400 * k - n) = Y' at *
  intro v hv
  split at hv
  · cases hv
  split at hv
  · rename_i hr
    cases hv
    split
    · rename_i hp; exact .inr (.inl ⟨hp.1, rfl⟩)
    · split
      · rename_i hr'
        have := years_cycle hc hm hm' (Y := Y) (Y' := Y') (q := q1 - q2) (by omega) (by omega) (by omega)
        subst this
        exact .inl rfl
      · rename_i hr'
        refine .inr (.inr ⟨_, _, _, _, _, _, rfl, Classical.byContradiction fun hY => hr' ?_⟩)
        have := years_cycle hc hm hm' (Y := Y) (Y' := Y') (q := q1 - q2) (by omega) (by omega) (by omega)
        subst this
        exact ⟨by omega, by omega, (validDate_cycle _ k _ _).2 hr.2.2⟩
  · cases hv

/-- A call with all moments `400 · k` years later. -/
def shiftCall (k : Int) : Call → Call
  | .calculate t => .calculate (mapMoments (cyclesLater k) t)
  | .endOf e t => .endOf e (mapMoments (cyclesLater k) t)
  | .add a b => .add (mapMoments (cyclesLater k) a) (mapMoments (cyclesLater k) b)
  | .sub a b => .sub (mapMoments (cyclesLater k) a) (mapMoments (cyclesLater k) b)
  | .addTo u n t => .addTo u n (mapMoments (cyclesLater k) t)
  | .subFrom u n t => .subFrom u n (mapMoments (cyclesLater k) t)
  | .addToMoment m t => .addToMoment (cyclesLater k m) (mapMoments (cyclesLater k) t)
  | .subFromMoment m t => .subFromMoment (cyclesLater k m) (mapMoments (cyclesLater k) t)

theorem Corr.err (e : ErrorKind) (y : Out TT) : Corr c k (.err e) y := fun _ h => (nomatch h)

theorem Corr.same {x : Out TT} (h : ∀ v, x = .ok v → v.isAAmount = true) : Corr c k x x := by
  intro v hv
  refine .inl ?_
  rw [hv]
  have := h v hv
  cases v <;> first | rfl | (simp [TT.isAAmount] at this)

theorem Corr.bind {x y : Out TT} {f g : TT → Out TT} (hxy : Corr c k x y) (hx : Res (Moment.Valid c) x) (hy : Res (Moment.Valid c) y)
    (h : ∀ v, AllMoments (Moment.Valid c) v → AllMoments (Moment.Valid c) (mapMoments (cyclesLater k) v) →
      Corr c k (f v) (g (mapMoments (cyclesLater k) v))) : Corr c k (x >>= f) (y >>= g) := by
  intro w hw
  rw [OutE.bind_eq_ok] at hw
  obtain ⟨v, h1, h2⟩ := hw
  rcases hxy v h1 with b | ⟨b1, b2⟩ | ⟨Y, M, D, H, MI, S, b, b'⟩
  · rw [b, OutE.ok_bind]; exact h v (hx v h1) (hy _ b) w h2
  · rw [b2]; exact .inr (.inl ⟨b1, rfl⟩)
  · rw [b]; exact .inr (.inr ⟨Y, M, D, H, MI, S, rfl, b'⟩)

/-- The same first step. -/
theorem Corr.first {x : Out Int} {f g : Int → Out TT} (h : ∀ a, Corr c k (f a) (g a)) : Corr c k (x >>= f) (x >>= g) := by
  cases x with
  | ok a => exact h a
  | err e => exact Corr.err _ _
  | panic => exact fun _ h => (nomatch h)
  | oof => exact fun _ h => (nomatch h)

/-- The end of a period of a moment: the date is the same, `400 · k` years later, or both are out of bounds. -/
theorem fromYmd_cycle {y mo d : Int} {nd : Date} (h : fromYmdOpt c y mo d = some nd) :
    fromYmdOpt c (y + 400 * k) mo d = some ⟨y + 400 * k, mo, d⟩ ∨
    fromYmdOpt c (y + 400 * k) mo d = none ∧ (y + 400 * k < c.minYear ∨ c.maxYear < y + 400 * k) := by
  obtain ⟨-, h1, h2, h3⟩ := fromYmdOpt_some c h
  unfold fromYmdOpt
  split
  · exact .inl rfl
  · rename_i hn
    rw [validDate_cycle] at hn
    exact .inr ⟨rfl, Classical.byContradiction fun g => hn ⟨by omega, by omega, h3⟩⟩

theorem Corr.ended {y mo d h mi s : Int} (ht : Cal.ValidTime h mi s) :
    Corr c k (match fromYmdOpt c y mo d with
        | some nd => do .ok (.moment (← nd.andHms h mi s))
        | none => .err (.outOfBounds y mo d h mi s))
      (match fromYmdOpt c (y + 400 * k) mo d with
        | some nd => do .ok (.moment (← nd.andHms h mi s))
        | none => .err (.outOfBounds (y + 400 * k) mo d h mi s)) := by
  intro v hv
  rcases hx : fromYmdOpt c y mo d with _ | nd <;> rw [hx] at hv
  · cases hv
  · obtain ⟨rfl, -⟩ := fromYmdOpt_some c hx
    simp only [andHms_ok ht] at hv
    cases hv
    rcases fromYmd_cycle (k := k) hx with e | ⟨e, e'⟩
    · rw [e]
      simp only [andHms_ok ht]
      exact .inl rfl
    · rw [e]; exact .inr (.inr ⟨_, _, _, _, _, _, rfl, e'⟩)

theorem Corr.ended' {y mo d h mi s : Int} :
    Corr c k (match (fromYmdOpt c y mo d).bind (fun nd => nd.andHmsOpt h mi s) with
        | some r => .ok (.moment r)
        | none => .err (.outOfBounds y mo d h mi s))
      (match (fromYmdOpt c (y + 400 * k) mo d).bind (fun nd => nd.andHmsOpt h mi s) with
        | some r => .ok (.moment r)
        | none => .err (.outOfBounds (y + 400 * k) mo d h mi s)) := by
  intro v hv
  rcases hx : fromYmdOpt c y mo d with _ | nd <;> rw [hx] at hv
  · cases hv
  · obtain ⟨rfl, -⟩ := fromYmdOpt_some c hx
    rcases fromYmd_cycle (k := k) hx with e | ⟨e, e'⟩
    · rw [e]
      simp only [Option.bind_some, Date.andHmsOpt] at hv ⊢
      split at hv
      · rename_i hr
        split at hr
        · rename_i ht
          cases hr; cases hv
          rw [if_pos ht]
          exact .inl rfl
        · cases hr
      · cases hv
    · rw [e]; exact .inr (.inr ⟨_, _, _, _, _, _, rfl, e'⟩)

theorem body_cycle (hc : Sane c) {n : Nat} (K : Call) (hK : CallM (Moment.Valid c) K) (hK' : CallM (Moment.Valid c) (shiftCall k K))
    (ih : ∀ K', CallM (Moment.Valid c) K' → CallM (Moment.Valid c) (shiftCall k K') →
      Corr c k (Eval.run c n K') (Eval.run c n (shiftCall k K'))) :
    Corr c k (Eval.body c (Eval.run c n) K) (Eval.body c (Eval.run c n) (shiftCall k K)) := by
  have inv : ∀ K, CallM (Moment.Valid c) K → Res (Moment.Valid c) (Eval.run c n K) := run_inv (fun _ hb => hb.1) n
  have bind2 : ∀ (K' : Call) (f g : TT → Out TT), CallM (Moment.Valid c) K' → CallM (Moment.Valid c) (shiftCall k K') →
      (∀ v, AllMoments (Moment.Valid c) v → AllMoments (Moment.Valid c) (mapMoments (cyclesLater k) v) →
        Corr c k (f v) (g (mapMoments (cyclesLater k) v))) →
      Corr c k (Eval.run c n K' >>= f) (Eval.run c n (shiftCall k K') >>= g) :=
    fun K' f g h1 h2 h => (ih K' h1 h2).bind (inv _ h1) (inv _ h2) h
  cases K with
  | calculate t =>
    cases t <;> first
      | exact ih _ hK hK'
      | exact Corr.same (fun v hv => by cases hv; rfl)
      | (intro v hv; cases hv; exact .inl rfl)
  | endOf kind t =>
    have t0 : Cal.ValidTime 0 0 0 := by decide
    have t1 : Cal.ValidTime 23 59 59 := by decide
    cases kind <;> (refine bind2 (.calculate t) _ _ hK hK' ?_; intro v h1 h2; cases v <;> first
      | exact Corr.err _ _
      | exact ih (.calculate _) h1 h2
      | exact Corr.ended t0
      | exact Corr.ended t1
      | exact Corr.ended'
      | (rename_i m
         have hd : getNumOfDaysInMonth (cyclesLater k m).year (cyclesLater k m).month = getNumOfDaysInMonth m.year m.month :=
           numDays_cycle hc h1 h2 m.month
         simp only [mapMoments, hd]
         exact Corr.ended t0))
  | add a b =>
    cases a <;> cases b <;> first
      | exact Corr.err _ _
      | exact ih (.addToMoment _ _) hK hK'
      | exact ih (.addTo _ _ _) hK.2 hK'.2
      | exact bind2 (.add _ _) _ _ hK.1 hK'.1 (fun v h1 h2 => ih (.add v _) ⟨h1, hK.2⟩ ⟨h2, hK'.2⟩)
      | exact bind2 (.sub _ _) _ _ hK.1 hK'.1 (fun v h1 h2 => ih (.add _ v) ⟨hK.2, h1⟩ ⟨hK'.2, h2⟩)
      | exact bind2 (.add _ _) _ _ hK.2 hK'.2 (fun v h1 h2 => ih (.add _ v) ⟨hK.1, h1⟩ ⟨hK'.1, h2⟩)
      | exact bind2 (.calculate _) _ _ hK.2.1 hK'.2.1 (fun v h1 h2 => bind2 (.add _ v) _ _ ⟨hK.1, h1⟩ ⟨hK'.1, h2⟩
          (fun w h3 h4 => ih (.sub w _) ⟨h3, hK.2.2⟩ ⟨h4, hK'.2.2⟩))
  | sub a b =>
    cases a <;> cases b <;> first
      | exact Corr.err _ _
      | exact ih (.subFromMoment _ _) hK hK'
      | exact ih (.subFrom _ _ _) hK.2 hK'.2
      | exact bind2 (.add _ _) _ _ hK.1 hK'.1 (fun v h1 h2 => ih (.sub v _) ⟨h1, hK.2⟩ ⟨h2, hK'.2⟩)
      | exact bind2 (.sub _ _) _ _ hK.1 hK'.1 (fun v h1 h2 => ih (.sub v _) ⟨h1, hK.2⟩ ⟨h2, hK'.2⟩)
      | exact bind2 (.sub _ _) _ _ hK.2 hK'.2 (fun v h1 h2 => ih (.sub _ v) ⟨hK.1, h1⟩ ⟨hK'.1, h2⟩)
      | exact bind2 (.calculate _) _ _ hK.2.1 hK'.2.1 (fun v h1 h2 => bind2 (.sub _ v) _ _ ⟨hK.1, h1⟩ ⟨hK'.1, h2⟩
          (fun w h3 h4 => ih (.add w _) ⟨h3, hK.2.2⟩ ⟨h4, hK'.2.2⟩))
  | addTo u a t =>
    cases u <;> cases t <;> first
      | exact Corr.err _ _
      | exact bind2 _ _ _ hK hK' (fun v h1 h2 => ih (.addTo _ a v) h1 h2)
      | (refine Corr.same fun v hv => ?_
         simp only [Eval.body, Eval.addToSeconds, Eval.addToMinutes, Eval.addToHours, Eval.addToDays, Eval.addToMonths, Eval.addToYears,
           OutE.bind_eq_ok] at hv
         obtain ⟨_, _, hv⟩ := hv
         first
         | (cases hv; rfl)
         | (obtain ⟨_, _, hv⟩ := hv; cases hv; rfl))
  | subFrom u a t =>
    cases u <;> cases t <;> first
      | exact Corr.err _ _
      | exact bind2 _ _ _ hK hK' (fun v h1 h2 => ih (.subFrom _ a v) h1 h2)
      | (refine Corr.same fun v hv => ?_
         simp only [Eval.body, Eval.subFromSeconds, Eval.subFromMinutes, Eval.subFromHours, Eval.subFromDays, Eval.subFromMonths,
           Eval.subFromYears, OutE.bind_eq_ok] at hv
         obtain ⟨_, _, hv⟩ := hv
         first
         | (cases hv; rfl)
         | (obtain ⟨_, _, hv⟩ := hv; cases hv; rfl))
  | addToMoment m t =>
    have years : ∀ a, Corr c k (Eval.addToMoment c (Eval.run c n) m (.years a)) (Eval.addToMoment c (Eval.run c n) (cyclesLater k m) (.years a)) := by
      intro a
      have := Corr.addedYears hc hK.1 hK'.1 a
      rw [calc_add_moment, calc_add_moment, exec_addToMoment, exec_addToMoment] at this
      exact this
    cases t <;> first
      | exact Corr.err _ _
      | exact years _
      | exact bind2 (.add _ _) _ _ hK.2 hK'.2 (fun v h1 h2 => ih (.addToMoment m v) ⟨hK.1, h1⟩ ⟨hK'.1, h2⟩)
      | exact bind2 (.sub _ _) _ _ hK.2 hK'.2 (fun v h1 h2 => ih (.addToMoment m v) ⟨hK.1, h1⟩ ⟨hK'.1, h2⟩)
      | (refine Corr.first ?_; intro a; exact Corr.added hc hK.1 hK'.1)
  | subFromMoment m t =>
    have years : ∀ a, Corr c k (Eval.subFromMoment c (Eval.run c n) m (.years a)) (Eval.subFromMoment c (Eval.run c n) (cyclesLater k m) (.years a)) := by
      intro a
      have := Corr.subtractedYears hc hK.1 hK'.1 a
      rw [calc_sub_moment, calc_sub_moment, exec_subFromMoment, exec_subFromMoment] at this
      exact this
    cases t <;> first
      | exact Corr.err _ _
      | exact years _
      | exact bind2 (.add _ _) _ _ hK.2 hK'.2 (fun v h1 h2 => ih (.subFromMoment m v) ⟨hK.1, h1⟩ ⟨hK'.1, h2⟩)
      | exact bind2 (.sub _ _) _ _ hK.2 hK'.2 (fun v h1 h2 => ih (.subFromMoment m v) ⟨hK.1, h1⟩ ⟨hK'.1, h2⟩)
      | (refine Corr.first ?_; intro a; exact Corr.subtracted hc hK.1 hK'.1)

theorem run_cycle (hc : Sane c) (n : Nat) (K : Call) (hK : CallM (Moment.Valid c) K) (hK' : CallM (Moment.Valid c) (shiftCall k K)) :
    Corr c k (Eval.run c n K) (Eval.run c n (shiftCall k K)) := by
  induction n generalizing K with
  | zero => intro v hv; cases hv
  | succ n ih => exact body_cycle hc K hK hK' ih

theorem size_mapMoments (f : Moment → Moment) (t : TT) : (mapMoments f t).size = t.size := by
  induction t <;> simp_all [mapMoments, TT.size]

theorem calculate_cycle (hc : Sane c) (t : TT) (ht : AllMoments (Moment.Valid c) t)
    (ht' : AllMoments (Moment.Valid c) (mapMoments (cyclesLater k) t)) :
    Corr c k (calculate c t) (calculate c (mapMoments (cyclesLater k) t)) := by
  have := run_cycle hc (2 * t.size + 1) (.calculate t) ht ht'
  unfold calculate exec Call.depth
  simp only [size_mapMoments]
  exact this

end Kairos
