import Verif.Lemmas.NoPanic
import Verif.Lemmas.AmountExact
import Verif.Lemmas.Valid
import Verif.Spec.Total
import Verif.Spec.Chain

/-! Expressions of bounded total size never overflow. -/

set_option linter.unusedSimpArgs false

namespace Kairos
open Spec

variable {ε α β : Type}

/-- Does not panic, and a successful result satisfies `Q`. -/
def Safe (Q : α → Prop) (x : OutE ε α) : Prop := x ≠ .panic ∧ ∀ a, x = .ok a → Q a

theorem Safe.ok {Q : α → Prop} {a : α} (h : Q a) : Safe Q (.ok a : OutE ε α) :=
  ⟨by simp, fun b hb => by cases hb; exact h⟩
theorem Safe.err {Q : α → Prop} (e : ε) : Safe Q (.err e : OutE ε α) := ⟨by simp, fun b hb => by cases hb⟩
theorem Safe.oof {Q : α → Prop} : Safe Q (.oof : OutE ε α) := ⟨by simp, fun b hb => by cases hb⟩
theorem Safe.bind {Q : α → Prop} {P : β → Prop} {x : OutE ε α} {f : α → OutE ε β} (h : Safe Q x)
    (hf : ∀ a, Q a → Safe P (f a)) : Safe P (x >>= f) := by
  cases x with
  | ok a => exact hf a (h.2 a rfl)
  | err e => exact Safe.err e
  | panic => exact absurd rfl h.1
  | oof => exact Safe.oof
theorem Safe.mono {Q P : α → Prop} {x : OutE ε α} (h : Safe Q x) (hq : ∀ a, Q a → P a) : Safe P x :=
  ⟨h.1, fun a ha => hq a (h.2 a ha)⟩

theorem safe_chk (c : Cfg) {x : Int} (h1 : -9223372036854775807 ≤ x) (h2 : x ≤ 9223372036854775807) :
    Safe (fun r => r = x) (c.chk x : OutE ε Int) := by
  rw [chk_ok_of_in c ⟨by omega, h2⟩]; exact Safe.ok rfl

theorem tdiv_bound (a k : Int) (hk : 0 < k) :
    -(a.natAbs : Int) ≤ a.tdiv k * k ∧ a.tdiv k * k ≤ a.natAbs ∧ a.tdiv k * k = a - a.tmod k := by
  have e : a.tdiv k * k = a - a.tmod k := by have := Int.mul_tdiv_add_tmod a k; rw [Int.mul_comm] at this; omega
  have hb : -(a.natAbs : Int) ≤ a - a.tmod k ∧ a - a.tmod k ≤ a.natAbs := by
    rcases Int.le_total 0 a with h | h
    · have h1 := Int.tmod_nonneg k h
      have h2 := Int.tmod_eq_emod_of_nonneg (b := k) h
      have h3 : a % k ≤ a := by
        have := Int.mul_ediv_add_emod a k
        have := Int.mul_nonneg (Int.le_of_lt hk) (Int.ediv_nonneg h (Int.le_of_lt hk))
        omega
      omega
    · have h1 := Int.tmod_nonneg k (show 0 ≤ -a by omega)
      have h2 := Int.tmod_eq_emod_of_nonneg (b := k) (show 0 ≤ -a by omega)
      have h3 : (-a) % k ≤ -a := by
        have := Int.mul_ediv_add_emod (-a) k
        have := Int.mul_nonneg (Int.le_of_lt hk) (Int.ediv_nonneg (show 0 ≤ -a by omega) (Int.le_of_lt hk))
        omega
      rw [Int.neg_tmod] at h1 h2
      omega
  omega

theorem tdiv_mul_cancel' {q k : Int} (hk : 0 < k) : (q * k).tdiv k = q := Int.mul_tdiv_cancel q (by omega)

theorem safe_fix (c : Cfg) (b k n B N : Int) (hk : 24 ≤ k) (hk2 : k ≤ 60) (hb : -B ≤ b ∧ b ≤ B) (hn : -N ≤ n ∧ n ≤ N)
    (hB : B ≤ 5000000000000000000) (hN : N ≤ 5000000000000000000) :
    Safe (fun r : Int × Int => (-(N + B / 24) ≤ r.1 ∧ r.1 ≤ N + B / 24)) (fix c b k n : OutE ε (Int × Int)) := by
  obtain ⟨h1, h2, h3⟩ := tdiv_bound b k (by omega)
  unfold fix
  simp only [Cfg.sub, Cfg.add]
  rw [← h3]
  refine (safe_chk c (by omega) (by omega)).bind ?_
  intro r hr
  rw [hr, tdiv_mul_cancel' (by omega)]
  have hq : -(B / 24) ≤ b.tdiv k ∧ b.tdiv k ≤ B / 24 := by
    generalize b.tdiv k = q at *
    constructor
    · rcases Int.le_total 0 q with h | h
      · omega
      · have : q * k ≤ q * 24 := Int.mul_le_mul_of_nonpos_left h hk
        omega
    · rcases Int.le_total 0 q with h | h
      · have : q * 24 ≤ q * k := Int.mul_le_mul_of_nonneg_left hk h
        omega
      · omega
  refine (safe_chk c (by omega) (by omega)).bind ?_
  intro r hr
  exact Safe.ok (by simp only; omega)

theorem numDays_bounds (y mo : Int) : 28 ≤ getNumOfDaysInMonth y mo ∧ getNumOfDaysInMonth y mo ≤ 31 := by
  unfold getNumOfDaysInMonth; repeat' split
  all_goals omega

theorem safe_dayLoop (c : Cfg) (y : Int) (n : Nat) (mo d : Int) (M : Int) (hM : M ≤ 9000000000000000000)
    (h1 : -9000000000000000000 ≤ mo) (h2 : mo ≤ M) (h : 28 * mo + d ≤ 28 * M) (hd : d ≤ 9000000000000000000) :
    Safe (fun r : Int × Int => mo ≤ r.1 ∧ r.1 ≤ M) (dayLoop c y n mo d : OutE ε (Int × Int)) := by
  induction n generalizing mo d with
  | zero =>
    unfold dayLoop; split
    · exact Safe.oof
    · exact Safe.ok ⟨Int.le_refl _, h2⟩
  | succ n ih =>
    have hb := numDays_bounds y mo
    unfold dayLoop
    split
    · refine (safe_chk c (by omega) (by omega)).bind ?_
      intro d' hd'
      refine (safe_chk c (by omega) (by omega)).bind ?_
      intro mo' hmo'
      refine (ih mo' d' (by omega) (by omega) (by omega) (by omega)).mono ?_
      intro r hr; omega
    · exact Safe.ok ⟨Int.le_refl _, h2⟩

theorem safe_monthLoop (c : Cfg) (n : Nat) (y mo : Int) (Y : Int) (hY : Y ≤ 9000000000000000000)
    (h1 : -9000000000000000000 ≤ y) (h2 : y ≤ Y) (h : 12 * y + mo ≤ 12 * Y) (hm : mo ≤ 9000000000000000000) :
    Safe (fun _ => True) (monthLoop c n y mo : OutE ε (Int × Int)) := by
  induction n generalizing y mo with
  | zero =>
    unfold monthLoop; split
    · exact Safe.oof
    · exact Safe.ok trivial
  | succ n ih =>
    unfold monthLoop
    split
    · refine (safe_chk c (by omega) (by omega)).bind ?_
      intro d' hd'
      refine (safe_chk c (by omega) (by omega)).bind ?_
      intro mo' hmo'
      exact ih _ _ (by omega) (by omega) (by omega) (by omega)
    · exact Safe.ok trivial

/-- Component sizes that cannot overflow. -/
def Mid (x : Int) : Prop := -4000000001000000000 ≤ x ∧ x ≤ 4000000001000000000

theorem safe_adjustAdd (c : Cfg) {p : Parts} (hs : Mid p.s) (hmi : Mid p.mi) (hh : Mid p.h) (hd : Mid p.d)
    (hmo : Mid p.mo) (hy : Mid p.y) : Safe (fun _ => True) (adjustTimesAdd c p : OutE ε Parts) := by
  unfold Mid at *
  unfold adjustTimesAdd
  refine (safe_fix c _ _ _ 4000000001000000000 4000000001000000000 (by decide) (by decide) hs hmi (by decide) (by decide)).bind ?_
  rintro ⟨mi, s⟩ h1
  simp only at h1 ⊢
  refine (safe_fix c _ _ _ 4200000000000000000 4000000001000000000 (by decide) (by decide) (by omega) hh (by decide) (by decide)).bind ?_
  rintro ⟨h, mi'⟩ h2
  simp only at h2 ⊢
  refine (safe_fix c _ _ _ 4200000000000000000 4000000001000000000 (by decide) (by decide) (by omega) hd (by decide) (by decide)).bind ?_
  rintro ⟨d, h'⟩ h3
  simp only at h3 ⊢
  refine (safe_dayLoop c _ _ _ _ 4200000000000000000 (by decide) (by omega) (by omega) (by omega) (by omega)).bind ?_
  rintro ⟨mo, d'⟩ h4
  simp only at h4 ⊢
  refine (safe_monthLoop c _ _ _ 4400000000000000000 (by decide) (by omega) (by omega) (by omega) (by omega)).bind ?_
  rintro ⟨y, mo'⟩ h5
  exact Safe.ok trivial

theorem safe_borrow (c : Cfg) {base low div top next : Int} (N : Int) (hdiv : 13 ≤ div)
    (hb : -5000000000000000000 ≤ base ∧ base ≤ 5000000000000000000) (ht : 0 ≤ top ∧ top ≤ 100)
    (hn : -N ≤ next ∧ next ≤ N) (hN : N ≤ 4400000000000000000) :
    Safe (fun r : Int × Int => -(N + 385000000000000000) ≤ r.1 ∧ r.1 ≤ N + 385000000000000000)
      (borrow c base low div top next : OutE ε (Int × Int)) := by
  unfold borrow
  split
  · rename_i hlt
    simp only [Cfg.abs, Cfg.add, Cfg.sub]
    refine (safe_chk c (by split <;> omega) (by split <;> omega)).bind ?_
    intro a ha
    have ha0 : 0 ≤ a ∧ a ≤ 5000000000000000000 := by rw [ha]; split <;> omega
    rw [Int.tdiv_eq_ediv_of_nonneg ha0.1]
    have hq : 0 ≤ a / div ∧ a / div ≤ 384700000000000000 := by
      refine ⟨Int.ediv_nonneg ha0.1 (by omega), ?_⟩
      have h1 := Int.mul_ediv_self_le (x := a) (k := div) (by omega)
      have h0 : 0 ≤ a / div := Int.ediv_nonneg ha0.1 (by omega)
      have : 13 * (a / div) ≤ div * (a / div) := Int.mul_le_mul_of_nonneg_right hdiv h0
      omega
    refine (safe_chk c (by omega) (by omega)).bind ?_
    intro q hq'
    refine (safe_chk c (by omega) (by omega)).bind ?_
    intro n' hn'
    refine (safe_chk c (by omega) (by omega)).bind ?_
    intro z hz
    refine (safe_chk c (by split <;> omega) (by split <;> omega)).bind ?_
    intro za hza
    have hza' : 0 ≤ za ∧ za ≤ 5000000000000000000 := by rw [hza]; split <;> omega
    refine (safe_chk c (by omega) (by omega)).bind ?_
    intro b' hb'
    exact Safe.ok (by simp only; omega)
  · exact Safe.ok (by simp only; omega)

theorem safe_adjustSub (c : Cfg) {p : Parts} (hs : Mid p.s) (hmi : Mid p.mi) (hh : Mid p.h) (hd : Mid p.d)
    (hmo : Mid p.mo) (hy : Mid p.y) : Safe (fun _ => True) (adjustTimesSub c p : OutE ε Parts) := by
  unfold Mid at *
  unfold adjustTimesSub
  refine (safe_borrow c 4000000001000000000 (by decide) (by omega) (by decide) hmi (by decide)).bind ?_
  rintro ⟨mi, s⟩ h1
  simp only at h1 ⊢
  refine (safe_borrow c 4000000001000000000 (by decide) (by omega) (by decide) hh (by decide)).bind ?_
  rintro ⟨h, mi'⟩ h2
  simp only at h2 ⊢
  refine (safe_borrow c 4000000001000000000 (by decide) (by omega) (by decide) hd (by decide)).bind ?_
  rintro ⟨d, h'⟩ h3
  simp only at h3 ⊢
  refine (safe_borrow c 4000000001000000000 (by decide) (by omega) (by decide) hmo (by decide)).bind ?_
  rintro ⟨mo, d'⟩ h4
  simp only at h4 ⊢
  refine (safe_borrow c 4000000001000000000 (by decide) (by omega) (by decide) hy (by decide)).bind ?_
  rintro ⟨y, mo'⟩ h5
  exact Safe.ok trivial

def uAmt : AmtUnit → Int → TT
  | .seconds, n => .seconds n
  | .minutes, n => .minutes n
  | .hours, n => .hours n
  | .days, n => .days n
  | .months, n => .months n
  | .years, n => .years n

/-- Total size of a call. -/
def Call.total : Call → Nat
  | .calculate t => Spec.total t
  | .endOf _ t => Spec.total t
  | .add a b => Spec.total a + Spec.total b
  | .sub a b => Spec.total a + Spec.total b
  | .addTo u n t => Spec.total (uAmt u n) + Spec.total t
  | .subFrom u n t => Spec.total (uAmt u n) + Spec.total t
  | .addToMoment _ t => Spec.total t
  | .subFromMoment _ t => Spec.total t

/-- A good result: no larger than the bound, with valid moments. -/
def Fine (c : Cfg) (W : Nat) (v : TT) : Prop := total v ≤ W ∧ AllMoments (·.Valid c) v

theorem safe_build (c : Cfg) (p : Parts) {W : Nat} : Safe (Fine c W) (Eval.buildMoment c p) := by
  refine ⟨np_build c p, ?_⟩
  intro v hv
  obtain ⟨m, rfl, -, hb⟩ := buildMoment_ok hv
  exact ⟨Nat.zero_le _, hb.1⟩

macro "safe_arm" : tactic => `(tactic| (
  simp only [Cfg.mulL, Cfg.mul, Cfg.add, Cfg.sub, Call.total, total, uAmt, OutE.bind_assoc', OutE.ok_bind] at *
  repeat (rw [chk_exact _ (by omega) (by omega)]; simp only [OutE.ok_bind])
  refine Safe.ok ?_
  refine ⟨Int.ofNat_le.1 ?_, trivial⟩
  simp only [total, Int.natCast_add, Int.natCast_mul]
  omega))

/-- One, two or three nested calls; the sizes add up. -/
macro "safe_calls" : tactic => `(tactic| (
  simp only [Call.total, total, uAmt, CallM, AllMoments] at *
  first
  | (refine $(Lean.mkIdent `hR') _ _ ?_ $(Lean.mkIdent `hB) ?_
     · simp only [Call.total, total, uAmt]; omega
     · simp only [CallM, AllMoments] at *; simp_all)
  | (refine ($(Lean.mkIdent `hR) _ ?_ ?_).bind ?_
     · simp only [Call.total, total, uAmt]; omega
     · simp only [CallM, AllMoments] at *; simp_all
     · intro v hv
       obtain ⟨hv1, hv2⟩ := hv
       simp only [Call.total, total, uAmt] at hv1
       first
       | (refine $(Lean.mkIdent `hR') _ _ ?_ $(Lean.mkIdent `hB) ?_
          · simp only [Call.total, total, uAmt]; omega
          · simp only [CallM, AllMoments] at *; simp_all)
       | (refine ($(Lean.mkIdent `hR) _ ?_ ?_).bind ?_
          · simp only [Call.total, total, uAmt]; omega
          · simp only [CallM, AllMoments] at *; simp_all
          · intro w hw
            obtain ⟨hw1, hw2⟩ := hw
            simp only [Call.total, total, uAmt] at hw1
            refine $(Lean.mkIdent `hR') _ _ ?_ $(Lean.mkIdent `hB) ?_
            · simp only [Call.total, total, uAmt]; omega
            · simp only [CallM, AllMoments] at *; simp_all))))

set_option maxHeartbeats 1000000 in
theorem body_safe (c : Cfg) (hc : Sane c) (R : Call → Out TT) (k : Call)
    (hR : ∀ k', k'.total ≤ 4000000000000000000 → CallM (·.Valid c) k' → Safe (Fine c k'.total) (R k'))
    (hB : k.total ≤ 4000000000000000000) (hk : CallM (·.Valid c) k) :
    Safe (Fine c k.total) (Eval.body c R k) := by
  have hR' : ∀ W k', k'.total ≤ W → W ≤ 4000000000000000000 → CallM (·.Valid c) k' → Safe (Fine c W) (R k') :=
    fun W k' h1 h2 h3 => (hR k' (by omega) h3).mono fun v hv => ⟨by have := hv.1; omega, hv.2⟩
  cases k with
  | calculate t =>
    simp only [Eval.body, Eval.doCalculate]
    cases t <;> simp only <;> first
      | (refine hR' _ _ ?_ hB ?_
         · simp only [Call.total, total, uAmt]; omega
         · exact hk)
      | exact Safe.ok ⟨Nat.le_refl _, hk⟩
  | endOf kind t =>
    have hc' := hR (.calculate t) hB hk
    have hv0 : Call.total (.calculate t) = Call.total (.endOf kind t) := rfl
    rw [hv0] at hc'
    generalize Call.total (.endOf kind t) = W at *
    have t0 : Cal.ValidTime 0 0 0 := by decide
    have t1 : Cal.ValidTime 23 59 59 := by decide
    cases kind <;>
      simp only [Eval.body, Eval.endOfYear, Eval.endOfMonth, Eval.endOfDay, Eval.endOfHour,
        Eval.endOfMinute] <;>
      (refine hc'.bind ?_; intro v hv
       cases v <;> first
         | exact Safe.err _
         | exact hR' _ _ hv.1 hB hv.2
         | (simp only; split
            · first
              | (rename_i nd hnd
                 obtain ⟨rfl, h1, h2, h3⟩ := fromYmdOpt_some c hnd
                 first
                 | rw [andHms_ok t0]
                 | rw [andHms_ok t1]
                 refine Safe.ok ⟨Nat.zero_le _, ⟨h1, h2, h3, ?_, ?_, ?_⟩⟩ <;> first | exact t0 | exact t1 | simp)
              | (rename_i nd hnd
                 rw [Option.bind_eq_some_iff] at hnd
                 obtain ⟨nd, hnd, hm⟩ := hnd
                 obtain ⟨rfl, h1, h2, h3⟩ := fromYmdOpt_some c hnd
                 obtain ⟨rfl, h4⟩ := andHmsOpt_some hm
                 refine Safe.ok ⟨Nat.zero_le _, ⟨h1, h2, h3, h4, ?_, ?_⟩⟩ <;> simp)
            · exact Safe.err _))
  | add a b =>
    simp only [Eval.body]
    simp only [CallM] at hk
    unfold Eval.add
    split <;> simp only [AllMoments] at hk <;>
    first
    | exact Safe.err _
    | safe_calls
  | sub a b =>
    simp only [Eval.body]
    simp only [CallM] at hk
    unfold Eval.sub
    split <;> simp only [AllMoments] at hk <;>
    first
    | exact Safe.err _
    | safe_calls
  | addTo u n t =>
    cases u <;>
      simp only [Eval.body, Eval.addToSeconds, Eval.addToMinutes, Eval.addToHours, Eval.addToDays,
        Eval.addToMonths, Eval.addToYears] <;>
      cases t <;> simp only <;>
      first
      | exact Safe.err _
      | (safe_calls; done)
      | safe_arm
  | subFrom u n t =>
    cases u <;>
      simp only [Eval.body, Eval.subFromSeconds, Eval.subFromMinutes, Eval.subFromHours,
        Eval.subFromDays, Eval.subFromMonths, Eval.subFromYears] <;>
      cases t <;> simp only <;>
      first
      | exact Safe.err _
      | (safe_calls; done)
      | safe_arm
  | addToMoment m t =>
    obtain ⟨hm, hk'⟩ := id hk
    obtain ⟨a1, a2, ⟨v1, v2, v3, v4⟩, ⟨g1, g2, g3, g4, g5, g6⟩, -⟩ := id hm
    have v5 := (Cal.monthLen_bounds (y := m.year) v1 v2).2
    obtain ⟨c1, c2⟩ := id hc
    simp only [Eval.body, Eval.addToMoment]
    cases t <;> simp only <;>
      first
      | exact Safe.err _
      | (simp only [Call.total, total, uAmt] at hB
         refine (safe_chk _ (by omega) (by omega)).bind ?_
         intro _ _
         refine (safe_adjustAdd c ?_ ?_ ?_ ?_ ?_ ?_).bind ?_
         · simp only [Mid]; omega
         · simp only [Mid]; omega
         · simp only [Mid]; omega
         · simp only [Mid]; omega
         · simp only [Mid]; omega
         · simp only [Mid]; omega
         · intro p _; exact safe_build c p)
      | safe_calls
  | subFromMoment m t =>
    obtain ⟨hm, hk'⟩ := id hk
    obtain ⟨a1, a2, ⟨v1, v2, v3, v4⟩, ⟨g1, g2, g3, g4, g5, g6⟩, -⟩ := id hm
    have v5 := (Cal.monthLen_bounds (y := m.year) v1 v2).2
    obtain ⟨c1, c2⟩ := id hc
    simp only [Eval.body, Eval.subFromMoment]
    cases t <;> simp only <;>
      first
      | exact Safe.err _
      | (simp only [Call.total, total, uAmt] at hB
         refine (safe_chk _ (by omega) (by omega)).bind ?_
         intro _ _
         refine (safe_adjustSub c ?_ ?_ ?_ ?_ ?_ ?_).bind ?_
         · simp only [Mid]; omega
         · simp only [Mid]; omega
         · simp only [Mid]; omega
         · simp only [Mid]; omega
         · simp only [Mid]; omega
         · simp only [Mid]; omega
         · intro p _; exact safe_build c p)
      | safe_calls

theorem run_safe (c : Cfg) (hc : Sane c) (n : Nat) (k : Call) (hB : k.total ≤ 4000000000000000000)
    (hk : CallM (·.Valid c) k) : Safe (Fine c k.total) (Eval.run c n k) := by
  induction n generalizing k with
  | zero => exact Safe.oof
  | succ n ih => unfold Eval.run; exact body_safe c hc _ k (fun k' h h' => ih k' h h') hB hk

theorem calculate_safe (c : Cfg) (hc : Sane c) (t : TT) (hB : total t ≤ 4000000000000000000)
    (hk : AllMoments (·.Valid c) t) : Safe (Fine c (total t)) (calculate c t) :=
  run_safe c hc _ (.calculate t) hB hk

end Kairos
