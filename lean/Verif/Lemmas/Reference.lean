import Verif.Lemmas.MomentSub
import Verif.Props.AllAmounts
import Verif.Props.AllYears
import Verif.Props.AmountEdge
import Verif.Props.Edge
import Verif.Props.EdgeBack
import Verif.Props.Values
import Verif.Props.Wrapping
import Verif.Props.EndOf
import Verif.Props.NegEvery
import Verif.Props.Parts
import Verif.Props.Profiles
import Verif.Spec.Reference

/-!
# One operation on values ends as the reference says
-/

namespace Props
open Kairos Spec

theorem signed32_eq (x : Int) : -2147483648 ≤ signed32 x ∧ signed32 x ≤ 2147483647 ∧
    x = signed32 x + (x + 2147483648) / 4294967296 * 4294967296 := by
  unfold signed32; omega

theorem build_says (c : Cfg) (p : Parts) :
    Says (momentAt c (signed32 p.y) (low32 p.mo) (low32 p.d) (low32 p.h) (low32 p.mi) (low32 p.s)) (Eval.buildMoment c p) := by
  have e1 : asI32 p.y = signed32 p.y := by
    unfold asI32 signed32 Int.bmod
    simp only
    split <;> omega
  unfold momentAt Eval.buildMoment
  simp only [e1]
  show Says (if c.minYear ≤ signed32 p.y ∧ signed32 p.y ≤ c.maxYear ∧ Cal.ValidDate (signed32 p.y) (asU32 p.mo) (asU32 p.d) ∧
    Cal.ValidTime (asU32 p.h) (asU32 p.mi) (asU32 p.s) then _ else _) _
  unfold fromYmdOpt Date.andHmsOpt
  by_cases h1 : c.minYear ≤ signed32 p.y ∧ signed32 p.y ≤ c.maxYear ∧ Cal.ValidDate (signed32 p.y) (asU32 p.mo) (asU32 p.d)
  · rw [if_pos h1, Option.bind_some]
    by_cases h2 : Cal.ValidTime (asU32 p.h) (asU32 p.mi) (asU32 p.s)
    · rw [if_pos ⟨h1.1, h1.2.1, h1.2.2, h2⟩, if_pos h2]; rfl
    · rw [if_neg (fun h => h2 h.2.2.2), if_neg h2]; rfl
  · rw [if_neg h1, if_neg (fun h => h1 ⟨h.1, h.2.1, h.2.2.1⟩)]; rfl

theorem build_says' (c : Cfg) (y mo d h mi s : Int) :
    Says (momentAt c (signed32 y) (low32 mo) (low32 d) (low32 h) (low32 mi) (low32 s)) (Eval.buildMoment c ⟨y, mo, d, h, mi, s⟩) :=
  build_says c ⟨y, mo, d, h, mi, s⟩

theorem says_ite {c : Cfg} {y mo d h mi s : Int} {P : Prop} [Decidable P] (ht : Cal.ValidTime h mi s)
    (hP : P ↔ c.minYear ≤ y ∧ y ≤ c.maxYear ∧ Cal.ValidDate y mo d) :
    Says (momentAt c y mo d h mi s) (if P then .ok (.moment ⟨y, mo, d, h, mi, s, 0⟩)
      else .err (.outOfBounds y mo h h mi s)) := by
  unfold momentAt
  by_cases hv : P
  · rw [if_pos hv, if_pos ⟨(hP.1 hv).1, (hP.1 hv).2.1, (hP.1 hv).2.2, ht⟩]; rfl
  · rw [if_neg hv, if_neg (fun h => hv (hP.2 ⟨h.1, h.2.1, h.2.2.1⟩))]; rfl

theorem says_ok {c : Cfg} {y mo d h mi s : Int} {o : Out TT} (ht : Cal.ValidTime h mi s)
    (hv : c.minYear ≤ y ∧ y ≤ c.maxYear ∧ Cal.ValidDate y mo d) (ho : o = .ok (.moment ⟨y, mo, d, h, mi, s, 0⟩)) :
    Says (momentAt c y mo d h mi s) o := by
  unfold momentAt
  rw [if_pos ⟨hv.1, hv.2.1, hv.2.2, ht⟩]; exact ho

theorem says_err {c : Cfg} {y mo d h mi s : Int} {o : Out TT} (hv : ¬ Cal.ValidDate y mo d)
    (ho : o = .err (.outOfBounds y mo h h mi s)) :
    Says (momentAt c y mo d h mi s) o := by
  unfold momentAt
  rw [if_neg (fun h => hv h.2.2.1)]; exact ho

theorem not_debug {c : Cfg} (h : c.profile ≠ .debug) : c.profile = .release := by
  cases hc : c.profile <;> simp_all

/-- A checked number that does not overflow, or wraps. -/
theorem chk_signed {ε : Type} (c : Cfg) {x : Int} (h : ¬ (c.profile = .debug ∧ ¬ InI64 x)) : (c.chk x : OutE ε Int) = .ok (signed64 x) := by
  by_cases hi : InI64 x
  · rw [chk_ok_of_in c hi]
    unfold InI64 at hi
    congr 1; unfold signed64; omega
  · have hp := not_debug (fun hp => h ⟨hp, hi⟩)
    simp only [Cfg.chk, if_neg hi, hp]
    congr 1
    unfold wrap64 signed64
    rw [Int.bmod_def]
    split <;> omega

theorem signed_id {x : Int} (h : InI64 x) : signed64 x = x := by
  unfold InI64 at h; unfold signed64; omega

/-- One borrow step, for every number there is. -/
theorem borrow_any {ε : Type} {c : Cfg} {base low div top next : Int} (hl : low = 0 ∨ low = 1)
    (hdiv : div = 60 ∨ div = 24 ∨ div = 32 ∨ div = 13) (ht : 0 ≤ top ∧ top ≤ 60) (hb : -9223372036854775808 ≤ base)
    (hp : base = -9223372036854775808 → c.profile = .release)
    (hn : base < low → -4000000000000000000 ≤ next ∧ next ≤ 4000000000000000000) :
    (borrow c base low div top next : OutE ε (Int × Int)) = .ok (next - borrowed base low div, topped base low top) := by
  by_cases h : base = -9223372036854775808
  · have hn := hn (by omega)
    have hr := hp h
    subst h
    unfold borrowed topped
    rw [if_pos rfl, if_pos (by omega)]
    have key : ∀ q : Int, (-9223372036854775808 : Int).tdiv div = -q → 9223372036854775808 / div = q → 0 ≤ q ∧ q ≤ 709490156681136600 →
        (borrow c (-9223372036854775808) low div top next : OutE ε (Int × Int)) =
          .ok (next - (1 - 9223372036854775808 / div), top + -9223372036854775808) := by
      intro q e1 e2 hq
      rw [borrow_min hr (by omega) ht (by rw [e1]; unfold InI64; omega) (by rw [e1]; unfold InI64; omega), e1, e2]
      congr 2 <;> omega
    rcases hdiv with rfl | rfl | rfl | rfl
    · exact key 153722867280912930 (by decide) (by decide) (by decide)
    · exact key 384307168202282325 (by decide) (by decide) (by decide)
    · exact key 288230376151711744 (by decide) (by decide) (by decide)
    · exact key 709490156681136600 (by decide) (by decide) (by decide)
  · rw [borrow_full c hl (by omega) ht (by omega) hn]
    unfold bP borrowed topped
    rw [if_neg h]
    split <;> simp

/-- How much a borrow step can change the next component. -/
theorem borrowed_bounds {base low div : Int} (hl : low = 0 ∨ low = 1) (hdiv : div = 60 ∨ div = 24 ∨ div = 32 ∨ div = 13)
    (hb : -9223372036854775808 ≤ base) :
    -709490156681136600 ≤ borrowed base low div ∧ borrowed base low div ≤ 709490156681136601 ∧ (low ≤ base → borrowed base low div = 0) := by
  unfold borrowed
  split
  · rcases hdiv with rfl | rfl | rfl | rfl <;> omega
  · split <;> rcases hdiv with rfl | rfl | rfl | rfl <;> omega

theorem adjustSub_any {ε : Type} {c : Cfg} {y mo d h mi s : Int} (hs : -9223372036854775808 ≤ s)
    (hmi : -9223372036854775808 ≤ mi ∧ (s < 0 → Small mi))
    (hh : -9223372036854775808 ≤ h ∧ (s < 0 ∨ mi < 0 → Small h))
    (hd : -9223372036854775808 ≤ d ∧ (s < 0 ∨ mi < 0 ∨ h < 0 → Small d))
    (hmo : -9223372036854775808 ≤ mo ∧ (s < 0 ∨ mi < 0 ∨ h < 0 ∨ d < 1 → Small mo))
    (hy : s < 0 ∨ mi < 0 ∨ h < 0 ∨ d < 1 ∨ mo < 1 → Small y)
    (hp : s = -9223372036854775808 ∨ mi = -9223372036854775808 ∨ h = -9223372036854775808 ∨ d = -9223372036854775808 ∨
      mo = -9223372036854775808 → c.profile = .release) :
    (adjustTimesSub c ⟨y, mo, d, h, mi, s⟩ : OutE ε Parts) =
      (let mi' := mi - borrowed s 0 60
       let h' := h - borrowed mi' 0 60
       let d' := d - borrowed h' 0 24
       let mo' := mo - borrowed d' 1 32
       let y' := y - borrowed mo' 1 13
       .ok ⟨y', topped mo' 1 12, topped d' 1 31, topped h' 0 24, topped mi' 0 60, topped s 0 60⟩) := by
  unfold Small at *
  unfold adjustTimesSub
  simp only
  rw [borrow_any (.inl rfl) (by decide) (by decide) hs (fun e => hp (.inl e)) (by omega)]
  simp only [OutE.ok_bind]
  have b1 := borrowed_bounds (base := s) (low := 0) (div := 60) (.inl rfl) (by decide) hs
  generalize borrowed s 0 60 = B1 at *
  rw [borrow_any (base := mi - B1) (.inl rfl) (by decide) (by decide) (by omega) (fun e => hp (by omega)) (by omega)]
  simp only [OutE.ok_bind]
  have b2 := borrowed_bounds (base := mi - B1) (low := 0) (div := 60) (.inl rfl) (by decide) (by omega)
  generalize borrowed (mi - B1) 0 60 = B2 at *
  rw [borrow_any (base := h - B2) (.inl rfl) (by decide) (by decide) (by omega) (fun e => hp (by omega)) (by omega)]
  simp only [OutE.ok_bind]
  have b3 := borrowed_bounds (base := h - B2) (low := 0) (div := 24) (.inl rfl) (by decide) (by omega)
  generalize borrowed (h - B2) 0 24 = B3 at *
  rw [borrow_any (base := d - B3) (.inr rfl) (by decide) (by decide) (by omega) (fun e => hp (by omega)) (by omega)]
  simp only [OutE.ok_bind]
  have b4 := borrowed_bounds (base := d - B3) (low := 1) (div := 32) (.inr rfl) (by decide) (by omega)
  generalize borrowed (d - B3) 1 32 = B4 at *
  rw [borrow_any (base := mo - B4) (.inr rfl) (by decide) (by decide) (by omega) (fun e => hp (by omega)) (by omega)]
  rfl

/-- Subtracting an amount from a moment. -/
theorem minus_says (c : Cfg) (hc : Sane c) (m : Moment) (hm : m.Valid c) (u : TUnit) (n : Int)
    (hn : InI64 n) : Says (minusAmount c m u n) (calculate c (.moment m - amt u n)) := by
  unfold minusAmount
  by_cases h : c.profile = .debug ∧ ¬ InI64 (part m u - n)
  · rw [if_pos h]; exact (C92_subtracting c hc m hm u n hn).2 h
  · rw [if_neg h]
    obtain ⟨a1, a2, ⟨a3, a4, a5, a6⟩, ⟨t1, t2, t3, t4, t5, t6⟩, a7⟩ := hm
    have ml := Cal.monthLen_bounds (y := m.year) a3 a4
    unfold Sane at hc
    have hs : -9223372036854775808 ≤ signed64 (part m u - n) := by unfold signed64; omega
    have hr : u ≠ .year → signed64 (part m u - n) = -9223372036854775808 → c.profile = .release := by
      intro hu e
      refine not_debug fun hd => ?_
      have hi : InI64 (part m u - n) := Decidable.not_not.1 fun h' => h ⟨hd, h'⟩
      rw [signed_id hi] at e
      unfold InI64 at hn
      cases u <;> simp only [part] at e hu <;> first | omega | exact hu rfl
    rw [calc_sub_moment, exec_subFromMoment]
    cases u <;> simp only [amt, Eval.subFromMoment, Cfg.sub] <;> simp only [part] at h hs hr ⊢ <;>
      rw [chk_signed c h, OutE.ok_bind,
        adjustSub_any (by omega) (by unfold Small; omega) (by unfold Small; omega) (by unfold Small; omega)
          (by unfold Small; omega) (by unfold Small; omega) (by intro e; first | (exfalso; omega) | exact hr (by simp) (by omega))] <;>
      simp only [OutE.ok_bind, reduceCtorEq, if_true, if_false] <;> exact build_says' c _ _ _ _ _ _

theorem valid_mom {c : Cfg} {m : Moment} (hm : m.Valid c) :
    momentAt c m.year m.month m.day m.hour m.minute m.second = .value (.moment { m with nano := 0 }) := by
  obtain ⟨h1, h2, h3, h4, -⟩ := hm
  unfold momentAt; rw [if_pos ⟨h1, h2, h3, h4⟩]

theorem time_of_day (t : Int) : Cal.ValidTime (t % 86400 / 3600) (t % 86400 / 60 % 60) (t % 86400 % 60) ∧
    t / 86400 * 86400 + t % 86400 / 3600 * 3600 + t % 86400 / 60 % 60 * 60 + t % 86400 % 60 = t := by
  unfold Cal.ValidTime; omega

/-- Adding years. -/
theorem years_core (c : Cfg) (m : Moment) (hm : m.Valid c) (n : Int) :
    Says (plusYears c m n)
      (if signed32 (m.year + n) < c.minYear ∨ c.maxYear < signed32 (m.year + n) then
        .err (.outOfBounds (signed32 (m.year + n))
          (if m.month = 2 ∧ m.day = 29 ∧ Cal.isLeap (signed32 (m.year + n)) = false then 3 else m.month)
          m.hour m.hour m.minute m.second)
      else if m.month = 2 ∧ m.day = 29 ∧ Cal.isLeap (signed32 (m.year + n)) = false then
        .ok (.moment { m with year := signed32 (m.year + n), month := 3, day := 1, nano := 0 })
      else .ok (.moment { m with year := signed32 (m.year + n), nano := 0 })) := by
  have hm' := hm
  obtain ⟨a1, a2, ⟨a3, a4, a5, a6⟩, ht, -⟩ := hm'
  unfold plusYears
  by_cases hy : signed32 (m.year + n) < c.minYear ∨ c.maxYear < signed32 (m.year + n)
  · rw [if_pos hy]
    simp only
    by_cases hl : m.month = 2 ∧ m.day = 29 ∧ Cal.isLeap (signed32 (m.year + n)) = false
    · rw [if_pos hl, if_pos hl]; unfold momentAt; rw [if_neg (fun h' => by omega)]; rfl
    · rw [if_neg hl, if_neg hl]; unfold momentAt; rw [if_neg (fun h' => by omega)]; rfl
  · rw [if_neg hy]
    simp only
    by_cases hl : m.month = 2 ∧ m.day = 29 ∧ Cal.isLeap (signed32 (m.year + n)) = false
    · rw [if_pos hl, if_pos hl]
      unfold momentAt
      rw [if_pos ⟨by omega, by omega, ⟨by decide, by decide, by decide, by simp [Cal.monthLen]⟩, ht⟩]
      rfl
    · rw [if_neg hl, if_neg hl]
      unfold momentAt
      have hd : m.day ≤ Cal.monthLen (signed32 (m.year + n)) m.month := by
        revert a6
        unfold Cal.monthLen
        by_cases h2 : m.month = 2
        · simp only [h2, true_and, Bool.not_eq_false, not_and] at hl ⊢
          intro a6
          simp at a6 ⊢
          by_cases h29 : m.day = 29
          · simp [hl h29, h29]
          · split at a6 <;> split <;> omega
        · simp only [h2, if_false]; exact id
      rw [if_pos ⟨by omega, by omega, ⟨a3, a4, a5, hd⟩, ht⟩]
      rfl

theorem years_says (c : Cfg) (m : Moment) (hm : m.Valid c) (n : Int) :
    Says (plusAmount c m .year n) (calculate c (.moment m + .years n)) := by
  obtain ⟨z1, z2, z3⟩ := signed32_eq (m.year + n)
  rw [C18_every_amount_partial c m hm n _ _ z1 z2 z3]
  unfold plusAmount
  by_cases h : c.profile = .debug ∧ ¬ InI64 (m.year + n)
  · rw [if_pos ⟨h.1, .inl h.2⟩, if_pos (c := c.profile = .debug ∧ ¬ (_ ∧ _)) h]; rfl
  · rw [if_neg (fun h' => h'.2.elim (fun g => h ⟨h'.1, g⟩) (fun g => nomatch g.1)), if_neg (c := c.profile = .debug ∧ ¬ (_ ∧ _)) h]
    exact years_core c m hm n

/-- Adding months. -/
theorem months_says (c : Cfg) (hc : Sane c) (m : Moment) (hm : m.Valid c) (n : Int) (hn : InI64 n) :
    Says (plusAmount c m .month n) (calculate c (.moment m + .months n)) := by
  have hm' := hm
  obtain ⟨a1, a2, ⟨a3, a4, a5, a6⟩, ht, -⟩ := hm'
  have ml := Cal.monthLen_bounds (y := m.year) a3 a4
  by_cases ho : ¬ InI64 (m.month + n) ∨ m.month + n = 9223372036854775807 ∧ m.day = 31
  · unfold plusAmount
    by_cases hp : c.profile = .debug
    · rw [if_pos ⟨hp, (by
        rcases ho with ho | ⟨h1, h2⟩
        · exact .inl ho
        · exact .inr ⟨rfl, h2, by unfold InI64; omega⟩)⟩, (C92_adding_months c hc m hm n).2 ⟨hp, ho⟩]
      rfl
    · rw [if_neg (fun h => hp h.1)]
      have hp := not_debug hp
      unfold plusMonths
      simp only
      by_cases hi : InI64 (m.month + n)
      · rcases ho with ho | ⟨h1, h2⟩
        · exact absurd hi ho
        · rw [signed_id hi, h1, if_neg (by omega), if_neg (by omega), if_neg (by omega), if_pos (by decide),
            C92_wrapped_months_31 c hc hp m hm h2 n h1]
          exact says_err (fun h => absurd h.1 (by decide)) rfl
      · have key := C92_wrapped_months c hc hp m hm n (m.month + n - 9223372036854775808) hn
          (by unfold InI64 at hi hn; omega) (by omega)
        rw [key]
        unfold InI64 at hi hn
        rw [if_pos (by unfold signed64; omega)]
        have el : low32 (signed64 (m.month + n)) = m.month + n - 9223372036854775808 := by unfold low32 signed64; omega
        have el' : low32 (signed64 (m.month + n) + 1) = m.month + n - 9223372036854775808 + 1 := by unfold low32 signed64; omega
        rw [el, el']
        by_cases hd : m.day = 31
        · rw [if_neg (by omega), if_pos hd]
          have ml' := Cal.monthLen_bounds (y := m.year) (m := m.month + n - 9223372036854775808 + 1) (by omega) (by omega)
          exact says_ok ht ⟨a1, a2, by omega, by omega, by omega, by omega⟩ rfl
        · rw [if_pos (by omega), if_neg hd]
          exact says_ite ht ⟨fun h => ⟨a1, a2, h.1, by omega, a5, h.2⟩, fun h => ⟨h.2.2.1, h.2.2.2.2.2⟩⟩
  · have h1 : InI64 (m.month + n) := Decidable.not_not.1 fun h => ho (.inl h)
    have h2 : m.day = 31 → m.month + n < 9223372036854775807 := by
      intro hd
      unfold InI64 at h1
      have : ¬ (m.month + n = 9223372036854775807) := fun h => ho (.inr ⟨h, hd⟩)
      omega
    have hmi : Cal.monthIndex m.year m.month = 12 * m.year + (m.month - 1) := rfl
    unfold plusAmount
    rw [if_neg (by
      rintro ⟨-, h⟩
      rcases h with h | ⟨-, hd, h⟩
      · exact h h1
      · have := h2 hd; unfold InI64 at h h1; omega)]
    unfold plusMonths
    simp only
    rw [signed_id h1]
    unfold InI64 at h1 hn
    by_cases k0 : m.month + n ≤ 0
    · obtain ⟨-, g2, g3⟩ := C95_negative_months_partial c hc m hm n _ (by omega) (by omega) rfl
      rw [if_pos k0]
      by_cases hd : m.day ≤ 30
      · rw [if_pos hd, g2 k0 hd]
        exact says_ite ht ⟨fun h => ⟨a1, a2, h⟩, fun h => h.2.2⟩
      · rw [if_neg hd, g3 k0 (by omega)]
        exact says_ite ht ⟨fun h => ⟨a1, a2, h⟩, fun h => h.2.2⟩
    · rw [if_neg k0]
      by_cases k1 : m.month + n ≤ 12
      · rw [if_pos k1]
        have key : calculate c (.moment m + .months n) =
            if m.day ≤ Cal.monthLen m.year (m.month + n) then .ok (.moment { m with month := m.month + n, nano := 0 })
            else .ok (.moment { m with month := m.month + n + 1, day := m.day - Cal.monthLen m.year (m.month + n), nano := 0 }) := by
          by_cases n0 : 0 ≤ n
          · exact C17_within_the_year_partial c hc m hm n _ n0 rfl k1
          · exact (C95_negative_months_partial c hc m hm n _ (by omega) (by omega) rfl).1 (by omega)
        rw [key]
        by_cases hd : m.day ≤ Cal.monthLen m.year (m.month + n)
        · rw [if_pos hd, if_pos hd]
          exact says_ok ht ⟨a1, a2, by omega, k1, a5, hd⟩ rfl
        · rw [if_neg hd, if_neg hd]
          have ml' := Cal.monthLen_bounds (y := m.year) (m := m.month + n) (by omega) k1
          have h12 : m.month + n ≠ 12 := by
            intro h
            rw [h] at hd
            simp [Cal.monthLen] at hd
            omega
          have ml2 := Cal.monthLen_bounds (y := m.year) (m := m.month + n + 1) (by omega) (by omega)
          exact says_ok ht ⟨a1, a2, by omega, by omega, by omega, by omega⟩ rfl
      · rw [if_neg k1]
        by_cases hd : m.day ≤ 30
        · rw [if_pos hd]
          obtain ⟨z1, z2, z3⟩ := signed32_eq ((Cal.monthIndex m.year m.month + n) / 12)
          rw [C17_beyond_the_year_partial c hc m hm hd n _ ((Cal.monthIndex m.year m.month + n) % 12 + 1) _ _ (by omega) (by omega)
            (by unfold Cal.monthIndex; omega) (by omega) ⟨z1, z2⟩ z3]
          exact says_ite ht Iff.rfl
        · rw [if_neg hd]
          have hd : m.day = 31 := by omega
          have h2' := h2 hd
          rw [if_neg (by rw [signed_id (by unfold InI64; omega)]; omega)]
          obtain ⟨z1, z2, z3⟩ := signed32_eq ((Cal.monthIndex m.year m.month + n + 1) / 12)
          rw [C17_from_the_31st_partial c hc m hm hd n _ ((Cal.monthIndex m.year m.month + n + 1) % 12 + 1) _ _ (h2 hd) (by omega)
            (by unfold Cal.monthIndex; omega) (by omega) ⟨z1, z2⟩ z3]
          have hM : 1 ≤ (Cal.monthIndex m.year m.month + n + 1) % 12 + 1 ∧ (Cal.monthIndex m.year m.month + n + 1) % 12 + 1 ≤ 12 := by
            omega
          have ml2 := Cal.monthLen_bounds (y := signed32 ((Cal.monthIndex m.year m.month + n + 1) / 12)) hM.1 hM.2
          exact says_ite ht ⟨fun h => ⟨h.1, h.2, hM.1, hM.2, by omega, by omega⟩, fun h => ⟨h.1, h.2.1⟩⟩

theorem months_at (y : Int) : ∃ l, (l = 0 ∨ l = 1) ∧ Cal.yearLen y = 365 + l ∧
    (Cal.daysBeforeMonth y 1 = 0 ∧ Cal.monthLen y 1 = 31) ∧
    (Cal.daysBeforeMonth y 2 = 31 ∧ Cal.monthLen y 2 = 28 + l) ∧
    (Cal.daysBeforeMonth y 3 = 59 + l ∧ Cal.monthLen y 3 = 31) ∧
    (Cal.daysBeforeMonth y 4 = 90 + l ∧ Cal.monthLen y 4 = 30) ∧
    (Cal.daysBeforeMonth y 5 = 120 + l ∧ Cal.monthLen y 5 = 31) ∧
    (Cal.daysBeforeMonth y 6 = 151 + l ∧ Cal.monthLen y 6 = 30) ∧
    (Cal.daysBeforeMonth y 7 = 181 + l ∧ Cal.monthLen y 7 = 31) ∧
    (Cal.daysBeforeMonth y 8 = 212 + l ∧ Cal.monthLen y 8 = 31) ∧
    (Cal.daysBeforeMonth y 9 = 243 + l ∧ Cal.monthLen y 9 = 30) ∧
    (Cal.daysBeforeMonth y 10 = 273 + l ∧ Cal.monthLen y 10 = 31) ∧
    (Cal.daysBeforeMonth y 11 = 304 + l ∧ Cal.monthLen y 11 = 30) ∧
    (Cal.daysBeforeMonth y 12 = 334 + l ∧ Cal.monthLen y 12 = 31) := by
  by_cases hl : Cal.isLeap y = true
  · exact ⟨1, .inr rfl, by simp [Cal.yearLen, hl], by simp [Cal.daysBeforeMonth, Cal.monthLen, hl]⟩
  · exact ⟨0, .inl rfl, by simp [Cal.yearLen, hl], by simp [Cal.daysBeforeMonth, Cal.monthLen, hl]⟩

theorem fits_month {y k i B L C : Int} (hk : 1 ≤ k ∧ k ≤ 12) (hb : Cal.daysBeforeMonth y k = B) (hl : Cal.monthLen y k = L)
    (h1 : ¬ i ≤ B) (h2 : i ≤ C) (h : C = B + L) : Cal.ValidDate y k (i - Cal.daysBeforeMonth y k) := by
  rw [hb]
  exact ⟨hk.1, hk.2, by omega, by omega⟩

theorem shift {a b d : Int} (l : Int) (h : a + b = d) : d + l = a + l + b := by omega

/-- The `i`-th day of the year `y`. -/
theorem day_of_year (y i : Int) (h1 : 1 ≤ i) (h2 : i ≤ Cal.yearLen y) :
    Cal.ValidDate y (monthOfDay y i) (i - Cal.daysBeforeMonth y (monthOfDay y i)) := by
  obtain ⟨l, -, hy, ⟨b1, l1⟩, ⟨b2, l2⟩, ⟨b3, l3⟩, ⟨b4, l4⟩, ⟨b5, l5⟩, ⟨b6, l6⟩, ⟨b7, l7⟩, ⟨b8, l8⟩, ⟨b9, l9⟩, ⟨b10, l10⟩,
    ⟨b11, l11⟩, ⟨b12, l12⟩⟩ := months_at y
  rw [hy] at h2
  have e : monthOfDay y i = if i ≤ 31 then 1 else if i ≤ 59 + l then 2 else if i ≤ 90 + l then 3 else if i ≤ 120 + l then 4
      else if i ≤ 151 + l then 5 else if i ≤ 181 + l then 6 else if i ≤ 212 + l then 7 else if i ≤ 243 + l then 8
      else if i ≤ 273 + l then 9 else if i ≤ 304 + l then 10 else if i ≤ 334 + l then 11 else 12 := by
    unfold monthOfDay
    rw [b2, b3, b4, b5, b6, b7, b8, b9, b10, b11, b12]
  rw [e]
  clear e hy
  by_cases c1 : i ≤ 31
  · rw [if_pos c1]; exact fits_month (by decide) b1 l1 (Int.not_le.2 h1) c1 (by decide)
  rw [if_neg c1]
  by_cases c2 : i ≤ 59 + l
  · rw [if_pos c2]; exact fits_month (by decide) b2 l2 c1 c2 (Int.add_assoc 31 28 l)
  rw [if_neg c2]
  by_cases c3 : i ≤ 90 + l
  · rw [if_pos c3]; exact fits_month (by decide) b3 l3 c2 c3 (shift l (by decide))
  rw [if_neg c3]
  by_cases c4 : i ≤ 120 + l
  · rw [if_pos c4]; exact fits_month (by decide) b4 l4 c3 c4 (shift l (by decide))
  rw [if_neg c4]
  by_cases c5 : i ≤ 151 + l
  · rw [if_pos c5]; exact fits_month (by decide) b5 l5 c4 c5 (shift l (by decide))
  rw [if_neg c5]
  by_cases c6 : i ≤ 181 + l
  · rw [if_pos c6]; exact fits_month (by decide) b6 l6 c5 c6 (shift l (by decide))
  rw [if_neg c6]
  by_cases c7 : i ≤ 212 + l
  · rw [if_pos c7]; exact fits_month (by decide) b7 l7 c6 c7 (shift l (by decide))
  rw [if_neg c7]
  by_cases c8 : i ≤ 243 + l
  · rw [if_pos c8]; exact fits_month (by decide) b8 l8 c7 c8 (shift l (by decide))
  rw [if_neg c8]
  by_cases c9 : i ≤ 273 + l
  · rw [if_pos c9]; exact fits_month (by decide) b9 l9 c8 c9 (shift l (by decide))
  rw [if_neg c9]
  by_cases c10 : i ≤ 304 + l
  · rw [if_pos c10]; exact fits_month (by decide) b10 l10 c9 c10 (shift l (by decide))
  rw [if_neg c10]
  by_cases c11 : i ≤ 334 + l
  · rw [if_pos c11]; exact fits_month (by decide) b11 l11 c10 c11 (shift l (by decide))
  rw [if_neg c11]
  exact fits_month (by decide) b12 l12 c11 h2 (shift l (by decide))

theorem before_nonneg (y k : Int) : 0 ≤ Cal.daysBeforeMonth y k := by
  unfold Cal.daysBeforeMonth
  by_cases h1 : k ≤ 1
  · rw [if_pos h1]; decide
  rw [if_neg h1]
  by_cases h2 : k = 2
  · rw [if_pos h2]; decide
  rw [if_neg h2]
  have a : (0 : Int) ≤ if Cal.isLeap y = true then 1 else 0 := by split <;> decide
  have b : (0 : Int) ≤ if k = 3 then 59 else if k = 4 then 90 else if k = 5 then 120 else if k = 6 then 151 else if k = 7 then 181
      else if k = 8 then 212 else if k = 9 then 243 else if k = 10 then 273 else if k = 11 then 304 else 334 := by
    repeat' split
    all_goals decide
  exact Int.add_nonneg a b

theorem jan_first (y : Int) : Cal.dayNumber (y + 1) 1 1 = Cal.daysBeforeYear y + Cal.yearLen y + 1 := by
  unfold Cal.dayNumber
  have : Cal.daysBeforeYear (y + 1) = Cal.daysBeforeYear y + Cal.yearLen y := by
    exact Cal.daysBeforeYear_succ y
  simp [Cal.daysBeforeMonth]
  omega

theorem instant_of (y mo x h mi s : Int) :
    Cal.instant y mo (x - Cal.daysBeforeYear y - Cal.daysBeforeMonth y mo) h mi s = x * 86400 + h * 3600 + mi * 60 + s := by
  unfold Cal.instant Cal.dayNumber
  omega

/-- Carrying what is negative, with the carries written out. -/
theorem adjustAdd_exact {ε : Type} (c : Cfg) {y mo d h mi s : Int} (hmo : 1 ≤ mo) (hmo2 : mo ≤ 12)
    (hy1 : -2147483648 ≤ y) (hy2 : y ≤ 2147483647) (hs : s < 60) (hmi : mi < 60) (hh : h < 24)
    (hd : d ≤ Cal.monthLen y mo)
    (bs : -9223372036854775808 ≤ s) (bmi : -9223372036854775808 ≤ mi + s.tdiv 60)
    (bh : -9223372036854775808 ≤ h + (mi + s.tdiv 60).tdiv 60)
    (bd : -9223372036854775808 ≤ d + (h + (mi + s.tdiv 60).tdiv 60).tdiv 24) :
    (adjustTimesAdd c ⟨y, mo, d, h, mi, s⟩ : OutE ε Parts) = .ok ⟨y, mo, d + (h + (mi + s.tdiv 60).tdiv 60).tdiv 24,
      (h + (mi + s.tdiv 60).tdiv 60).tmod 24, (mi + s.tdiv 60).tmod 60, s.tmod 60⟩ := by
  have ml := Cal.monthLen_bounds (y := y) hmo hmo2
  obtain ⟨e1, l1, u1, q1, r1, r1', -⟩ := tdiv_tmod_char s (k := 60) (by decide)
  have q1 := q1 hs
  obtain ⟨e2, l2, u2, q2, r2, r2', -⟩ := tdiv_tmod_char (mi + s.tdiv 60) (k := 60) (by decide)
  have q2 := q2 (by omega)
  obtain ⟨e3, l3, u3, q3, r3, r3', -⟩ := tdiv_tmod_char (h + (mi + s.tdiv 60).tdiv 60) (k := 24) (by decide)
  have q3 := q3 (by omega)
  unfold adjustTimesAdd
  simp only
  rw [fix_exact c (by decide) (by decide) ⟨by omega, by omega⟩ ⟨by omega, by omega⟩]; simp only [OutE.ok_bind]
  rw [fix_exact c (by decide) (by decide) ⟨by omega, by omega⟩ ⟨by omega, by omega⟩]; simp only [OutE.ok_bind]
  rw [fix_exact c (by decide) (by decide) ⟨by omega, by omega⟩ ⟨by omega, by omega⟩]; simp only [OutE.ok_bind]
  rw [dayLoop_stop c y mo _ _ (by rw [numDays_eq hy1 hy2 hmo hmo2]; omega)]
  simp only [OutE.ok_bind]
  rw [monthLoop_stop c _ _ _ hmo2]; rfl

/-- Adding a number of units after which the component is less than it was. -/
theorem negative_says (c : Cfg) (hc : Sane c) (m : Moment) (hm : m.Valid c) (u : TUnit)
    (hu : u = .second ∨ u = .minute ∨ u = .hour ∨ u = .day) (n : Int) (ho : ¬ (c.profile = .debug ∧ ¬ InI64 (part m u + n)))
    (hl : signed64 (part m u + n) ≤ part m u) :
    Says (plusNegative c m u (signed64 (part m u + n))) (calculate c (.moment m + amt u n)) := by
  obtain ⟨a1, a2, ⟨a3, a4, a5, a6⟩, ⟨t1, t2, t3, t4, t5, t6⟩, -⟩ := hm
  have ml := Cal.monthLen_bounds (y := m.year) a3 a4
  unfold Sane at hc
  have hs : -9223372036854775808 ≤ signed64 (part m u + n) := by unfold signed64; omega
  have z1 := tdiv_low (k := 60) (by decide) t5 t6
  have z2 := tdiv_low (k := 60) (by decide) t3 t4
  have z3 := tdiv_low (k := 24) (by decide) t1 t2
  have ey : m.year = signed32 m.year := by unfold signed32; omega
  have em : m.month = low32 m.month := by unfold low32; omega
  rw [calc_add_moment, exec_addToMoment]
  have fin : ∀ d h mi s : Int, Says (momentAt c m.year m.month (low32 d) (low32 h) (low32 mi) (low32 s))
      (Eval.buildMoment c ⟨m.year, m.month, d, h, mi, s⟩) := by
    intro d h mi s
    have := build_says' c m.year m.month d h mi s
    rw [← ey, ← em] at this
    exact this
  unfold plusNegative
  rcases hu with rfl | rfl | rfl | rfl <;> simp only [amt, Eval.addToMoment, Cfg.add] <;> simp only [part] at ho hl hs ⊢ <;>
    rw [chk_signed c ho, OutE.ok_bind] <;> simp only [reduceCtorEq, if_true, if_false]
  · have k1 := tdiv_tmod_char (signed64 (m.second + n)) (k := 60) (by omega)
    have k2 := tdiv_tmod_char (m.minute + (signed64 (m.second + n)).tdiv 60) (k := 60) (by omega)
    have k3 := tdiv_tmod_char (m.hour + (m.minute + (signed64 (m.second + n)).tdiv 60).tdiv 60) (k := 24) (by omega)
    rw [adjustAdd_exact c a3 a4 (by omega) (by omega) (by omega) (by omega) (by omega) (by omega) (by omega) (by omega) (by omega)
      (by omega), OutE.ok_bind]
    exact fin _ _ _ _
  · have k2 := tdiv_tmod_char (signed64 (m.minute + n)) (k := 60) (by omega)
    have k3 := tdiv_tmod_char (m.hour + (signed64 (m.minute + n)).tdiv 60) (k := 24) (by omega)
    rw [adjustAdd_exact c a3 a4 (by omega) (by omega) (by omega) (by omega) (by omega) (by omega) (by omega) (by rw [z1]; omega)
      (by rw [z1, Int.add_zero]; omega) (by rw [z1, Int.add_zero]; omega), OutE.ok_bind]
    exact fin _ _ _ _
  · have k3 := tdiv_tmod_char (signed64 (m.hour + n)) (k := 24) (by omega)
    rw [adjustAdd_exact c a3 a4 (by omega) (by omega) (by omega) (by omega) (by omega) (by omega) (by omega) (by rw [z1]; omega)
      (by rw [z1, Int.add_zero, z2]; omega) (by rw [z1, Int.add_zero, z2, Int.add_zero]; omega), OutE.ok_bind]
    exact fin _ _ _ _
  · rw [adjustAdd_exact c a3 a4 (by omega) (by omega) (by omega) (by omega) (by omega) (by omega) (by omega) (by rw [z1]; omega)
      (by rw [z1, Int.add_zero, z2]; omega) (by rw [z1, Int.add_zero, z2, Int.add_zero, z3]; omega), OutE.ok_bind]
    exact fin _ _ _ _

/-- Adding seconds, minutes, hours or days. -/
theorem small_says (c : Cfg) (hc : Sane c) (m : Moment) (hm : m.Valid c) (u : TUnit)
    (hu : u = .second ∨ u = .minute ∨ u = .hour ∨ u = .day) (n : Int) (hn : InI64 n) :
    Says (plusAmount c m u n) (calculate c (.moment m + amt u n)) := by
  have hm' := hm
  obtain ⟨a1, a2, ⟨a3, a4, a5, a6⟩, ht, -⟩ := hm'
  have hum : u ≠ .month := by rcases hu with rfl | rfl | rfl | rfl <;> simp
  by_cases hp : c.profile = .debug ∧ ¬ InI64 (part m u + n)
  · unfold plusAmount
    rw [if_pos ⟨hp.1, .inl hp.2⟩, (C92_adding c hc m hm u hum n).2 hp]; rfl
  have hpl : plusAmount c m u n = if 0 ≤ n ∧ InI64 (part m u + n) then plusSeconds c m (n * u.secs)
      else plusNegative c m u (signed64 (part m u + n)) := by
    unfold plusAmount
    rw [if_neg (fun h => h.2.elim (fun g => hp ⟨h.1, g⟩) (fun g => hum g.1))]
    rcases hu with rfl | rfl | rfl | rfl <;> rfl
  rw [hpl]
  by_cases h0 : 0 ≤ n ∧ InI64 (part m u + n)
  · rw [if_pos h0]
    obtain ⟨n0, ho⟩ := h0
    obtain ⟨vt, et⟩ := time_of_day (m.instant + n * u.secs)
    unfold plusSeconds
    simp only
    have hj := jan_first m.year
    have hx : 0 ≤ n * u.secs := Int.mul_nonneg n0 (by cases u <;> simp [TUnit.secs])
    by_cases hJ : (m.instant + n * u.secs) / 86400 - Cal.dayNumber (m.year + 1) 1 1 < 0
    · rw [if_pos hJ]
      have hdm : Cal.daysBeforeYear m.year + 1 ≤ m.instant / 86400 := by
        have h0 : 0 ≤ Cal.daysBeforeMonth m.year m.month := before_nonneg _ _
        unfold Cal.ValidTime at ht
        unfold Moment.instant Cal.instant Cal.dayNumber
        omega
      have hv := day_of_year m.year ((m.instant + n * u.secs) / 86400 - Cal.daysBeforeYear m.year) (by omega) (by omega)
      refine says_ok vt ⟨a1, a2, hv⟩ ?_
      refine C16_within_the_year_partial c hc m ⟨_, _, _, _, _, _, 0⟩ hm ⟨a1, a2, hv, vt, by simp⟩ rfl u hu n n0 ?_ rfl
      exact (instant_of _ _ _ _ _ _).trans et
    · rw [if_neg hJ]
      obtain ⟨z1, z2, z3⟩ := signed32_eq (m.year + 1 + ((m.instant + n * u.secs) / 86400 - Cal.dayNumber (m.year + 1) 1 1) / 360)
      rw [C16_beyond_the_year_partial c hc m hm u hu n n0 ho.2 ((m.instant + n * u.secs) / 86400 - Cal.dayNumber (m.year + 1) 1 1)
        _ _ _ _ _ (by omega) vt (by unfold Cal.instant; omega) ⟨z1, z2⟩ z3]
      exact says_ite vt Iff.rfl
  · rw [if_neg h0]
    refine negative_says c hc m hm u hu n hp ?_
    have ml := Cal.monthLen_bounds (y := m.year) a3 a4
    have hb : 0 ≤ part m u ∧ part m u ≤ 60 := by
      unfold Cal.ValidTime at ht
      rcases hu with rfl | rfl | rfl | rfl <;> simp only [part] <;> omega
    unfold InI64 at h0 hn
    unfold signed64
    omega

/-- Adding an amount to a moment. -/
theorem plus_says (c : Cfg) (hc : Sane c) (m : Moment) (hm : m.Valid c) (u : TUnit) (n : Int)
    (hn : InI64 n) : Says (plusAmount c m u n) (calculate c (.moment m + amt u n)) := by
  cases u with
  | month => exact months_says c hc m hm n hn
  | year => exact years_says c m hm n
  | second => exact small_says c hc m hm _ (.inl rfl) n hn
  | minute => exact small_says c hc m hm _ (.inr (.inl rfl)) n hn
  | hour => exact small_says c hc m hm _ (.inr (.inr (.inl rfl))) n hn
  | day => exact small_says c hc m hm _ (.inr (.inr (.inr rfl))) n hn

theorem asAmount_amt (u : TUnit) (n : Int) : asAmount (amt u n) = some (u, n) := by cases u <;> rfl

/-- Two amounts. -/
theorem combine_says (c : Cfg) (u v : TUnit) (n k : Int) (hn : InI64 n) (hk : InI64 k) :
    Says (combine c 1 u n v k) (calculate c (amt u n + amt v k)) ∧
    Says (combine c (-1) u n v k) (calculate c (amt u n - amt v k)) := by
  obtain ⟨w, hw⟩ : ∃ w, w = if u.secs ≤ v.secs then u else v := ⟨_, rfl⟩
  have hdiv : ∀ a b : TUnit, b.secs ≤ a.secs → ∃ q, a.secs = q * b.secs := by
    intro a b h
    refine ⟨a.secs / b.secs, ?_⟩
    cases a <;> cases b <;> simp [TUnit.secs] at h ⊢
  have w0 : w.secs ≠ 0 := by cases w <;> simp [TUnit.secs]
  obtain ⟨a, ha⟩ := hdiv u w (by rw [hw]; split <;> omega)
  obtain ⟨b, hb⟩ := hdiv v w (by rw [hw]; split <;> omega)
  have e1 : u.secs / w.secs = a := by rw [ha]; exact Int.mul_ediv_cancel _ w0
  have e2 : v.secs / w.secs = b := by rw [hb]; exact Int.mul_ediv_cancel _ w0
  have q : ∀ x y : Int, x * (y * w.secs) / w.secs = x * y := by
    intro x y
    rw [← Int.mul_assoc]; exact Int.mul_ediv_cancel _ w0
  have q1 : (n * u.secs + k * v.secs) / w.secs = n * a + k * b := by
    rw [ha, hb, ← Int.mul_assoc, ← Int.mul_assoc, ← Int.add_mul]; exact Int.mul_ediv_cancel _ w0
  have q2 : (n * u.secs - k * v.secs) / w.secs = n * a - k * b := by
    rw [ha, hb, ← Int.mul_assoc, ← Int.mul_assoc, ← Int.sub_mul]; exact Int.mul_ediv_cancel _ w0
  have fp : (AmtTree.plus (.amt u n) (.amt v k)).finest = w := by rw [hw]; rfl
  have fm : (AmtTree.minus (.amt u n) (.amt v k)).finest = w := by rw [hw]; rfl
  have ip : (AmtTree.plus (.amt u n) (.amt v k)).Fits ↔ InI64 (n * a) ∧ InI64 (k * b) ∧ InI64 (n * a + 1 * (k * b)) := by
    unfold AmtTree.Fits
    rw [fp]
    simp only [AmtTree.inUnit, AmtTree.secs, AmtTree.Fits, q1, Int.one_mul]
    rw [ha, hb, q, q]
    exact ⟨fun h => h.2.2, fun h => ⟨hn, hk, h⟩⟩
  have im : (AmtTree.minus (.amt u n) (.amt v k)).Fits ↔ InI64 (n * a) ∧ InI64 (k * b) ∧ InI64 (n * a + -1 * (k * b)) := by
    unfold AmtTree.Fits
    rw [fm]
    simp only [AmtTree.inUnit, AmtTree.secs, AmtTree.Fits, q2]
    rw [ha, hb, q, q, Int.sub_eq_add_neg, Int.neg_one_mul]
    exact ⟨fun h => h.2.2, fun h => ⟨hn, hk, h⟩⟩
  have s64 : ∀ x : Int, InI64 (signed64 x) ∧ (18446744073709551616 : Int) ∣ signed64 x - x := by
    intro x; unfold signed64 InI64; omega
  unfold combine
  simp only [← hw, e1, e2]
  by_cases hp : c.profile = .debug
  · rw [if_pos hp, if_pos hp]
    constructor
    · by_cases h : (AmtTree.plus (.amt u n) (.amt v k)).Fits
      · rw [if_pos (ip.1 h)]
        have := (C93_fits c hp (.plus (.amt u n) (.amt v k)) ⟨hn, hk⟩ h).1
        rw [fp] at this
        simp only [AmtTree.inUnit, AmtTree.secs, q1] at this
        rw [Int.one_mul]
        exact this
      · rw [if_neg (fun h' => h (ip.2 h'))]
        exact (C93_panics_iff c hp (.plus (.amt u n) (.amt v k)) ⟨hn, hk⟩).2 h
    · by_cases h : (AmtTree.minus (.amt u n) (.amt v k)).Fits
      · rw [if_pos (im.1 h)]
        have := (C93_fits c hp (.minus (.amt u n) (.amt v k)) ⟨hn, hk⟩ h).1
        rw [fm] at this
        simp only [AmtTree.inUnit, AmtTree.secs, q2] at this
        rw [Int.neg_one_mul, ← Int.sub_eq_add_neg]
        exact this
      · rw [if_neg (fun h' => h (im.2 h'))]
        exact (C93_panics_iff c hp (.minus (.amt u n) (.amt v k)) ⟨hn, hk⟩).2 h
  · rw [if_neg hp, if_neg hp]
    have hp := not_debug hp
    have key : ∀ (P : Prop) [Decidable P] (x : Int) (o : Out TT), (P → InI64 x) →
        (∀ y, InI64 y ∧ (18446744073709551616 : Int) ∣ y - x → o = .ok (amt w y)) →
        Says (if P then .value (amt w x) else .value (amt w (signed64 x))) o := by
      intro P _ x o h1 h2
      split
      · rename_i h; exact h2 x ⟨h1 h, by rw [Int.sub_self]; exact Int.dvd_zero _⟩
      · exact h2 _ (s64 x)
    have r1 := C04_wrapped_value c hp (.plus (.amt u n) (.amt v k)) ⟨hn, hk⟩ (n * a + k * b) (by
      rw [fp]
      simp only [AmtTree.secs]
      rw [ha, hb, ← Int.mul_assoc, ← Int.mul_assoc, ← Int.add_mul])
    have r2 := C04_wrapped_value c hp (.minus (.amt u n) (.amt v k)) ⟨hn, hk⟩ (n * a - k * b) (by
      rw [fm]
      simp only [AmtTree.secs]
      rw [ha, hb, ← Int.mul_assoc, ← Int.mul_assoc, ← Int.sub_mul])
    rw [fp] at r1
    rw [fm] at r2
    constructor
    · refine key _ _ _ (fun h => h.2.2) fun y hy => (r1 y).2 ?_
      rw [Int.one_mul] at hy
      exact hy
    · refine key _ _ _ (fun h => h.2.2) fun y hy => (r2 y).2 ?_
      rw [Int.neg_one_mul, ← Int.sub_eq_add_neg] at hy
      exact hy

theorem value_cases {x : TT} (h : x.isLeaf) : (∃ u n, x = amt u n) ∨ ∃ m, x = .moment m := by
  cases x <;> simp [TT.isLeaf, TT.isAAmount, TT.isMoment] at h
  · exact .inl ⟨.second, _, rfl⟩
  · exact .inl ⟨.minute, _, rfl⟩
  · exact .inl ⟨.hour, _, rfl⟩
  · exact .inl ⟨.day, _, rfl⟩
  · exact .inl ⟨.month, _, rfl⟩
  · exact .inl ⟨.year, _, rfl⟩
  · exact .inr ⟨_, rfl⟩

theorem fit_amt {u : TUnit} {n : Int} (h : AmountsFit (amt u n)) : InI64 n := by cases u <;> exact h

end Props
