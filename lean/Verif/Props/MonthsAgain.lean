import Verif.Props.BackAgain
import Verif.Props.Rollback
import Verif.Props.RoundTrip
import Verif.Props.AllAmounts
import Verif.Spec.Reference

/-!
# C24, C112, C39: there and back in months, for every number of months
-/

namespace Props
open Kairos Spec

private theorem s32 (x : Int) : (-2147483648 ≤ signed32 x ∧ signed32 x ≤ 2147483647) ∧ ∃ k, x = signed32 x + k * 4294967296 := by
  refine ⟨⟨by unfold signed32; omega, by unfold signed32; omega⟩, (x + 2147483648) / 4294967296, ?_⟩
  unfold signed32; omega

private theorem s32_of {x y k : Int} (h : -2147483648 ≤ y ∧ y ≤ 2147483647) (e : x = y + k * 4294967296) : signed32 x = y := by
  unfold signed32; omega

private theorem between {A K s v w : Int} (h1 : A = 12 * w) (h2 : 13 * v ≤ 12 * w + s ∧ 12 * w + s < 13 * v + 13) (h : w = v + K) :
    A - 156 * K ≤ 12 * s ∧ 12 * s - 156 < A - 156 * K := by omega

private theorem only_zero {d s : Int} (hs : 0 ≤ s ∧ s ≤ 11) (h : d * 4294967296 ≤ 12 * s ∧ 12 * s - 156 < d * 4294967296) : d = 0 := by omega

/-- `a * 2^32` months, in years of twelve months and in the thirteens of months the code counts backwards. -/
private theorem twelve_thirteen {a s k v w : Int} (hs : 0 ≤ s ∧ s ≤ 11) (h1 : a * 4294967296 = 12 * w)
    (h2 : 13 * v ≤ 12 * w + s ∧ 12 * w + s < 13 * v + 13) (h : w = v + k * 4294967296) : a = 156 * k := by
  have h3 := between h1 h2 h
  rw [← Int.mul_assoc, ← Int.sub_mul] at h3
  exact Int.eq_of_sub_eq_zero (only_zero hs h3)

private theorem div13 (x : Int) : ∃ v, x / 13 = v ∧ 13 * v ≤ x ∧ x < 13 * v + 13 := ⟨_, rfl, by omega, by omega⟩

private theorem mod32 {x s : Int} (h : x % 4294967296 = s) : ∃ a, x = a * 4294967296 + s := ⟨x / 4294967296, by omega⟩

private theorem to12 {x : Int} (h : 1 ≤ x ∧ x ≤ 12) : 0 ≤ 12 - x ∧ 12 - x ≤ 11 := by omega

private theorem from12 {x y : Int} (h : 12 - x = y) : x = 12 - y := by omega

private theorem forth_lin {y mo n Y M Z K K' A v : Int} (hi : 12 * Y + (M - 1) = 12 * y + (mo - 1) + n)
    (hk : Y = Z + K) (hk' : Z - 1 - v = y + K') (ha : n - M = A + (12 - mo)) (hv : 13 * v ≤ n - M ∧ n - M < 13 * v + 13) :
    A = 12 * (Y - y - 1) ∧ (13 * v ≤ 12 * (Y - y - 1) + (12 - mo) ∧ 12 * (Y - y - 1) + (12 - mo) < 13 * v + 13) ∧ Y - y - 1 = v + (K' + K) := by
  omega

private theorem forth {y mo n Y M Z k k' : Int} (hmo : 1 ≤ mo ∧ mo ≤ 12) (hi : 12 * Y + (M - 1) = 12 * y + (mo - 1) + n)
    (hk : Y = Z + k * 4294967296) (hk' : Z - 1 - (n - M) / 13 = y + k' * 4294967296) (hr : (n - M) % 4294967296 = 12 - mo) :
    n = 12 - mo + M + (k' + k) * (156 * 4294967296) := by
  obtain ⟨a, ha⟩ := mod32 hr
  obtain ⟨v, hv, v1, v2⟩ := div13 (n - M)
  rw [hv] at hk'
  obtain ⟨h1, h2, h3⟩ := forth_lin hi hk hk' ha ⟨v1, v2⟩
  rw [← Int.add_mul] at h3
  rw [twelve_thirteen (to12 hmo) h1 h2 h3] at ha
  rw [Int.mul_comm 156 (k' + k), Int.mul_assoc] at ha
  generalize (k' + k) * (156 * 4294967296) = B at *
  clear hk hk' hr h1 h2 h3 hv v1 v2 hi
  omega

private theorem forth' {y mo n Y M Z k b : Int} (hmo : 1 ≤ mo ∧ mo ≤ 12) (hi : 12 * Y + (M - 1) = 12 * y + (mo - 1) + n)
    (hk : Y = Z + k * 4294967296) (hb : n = 12 - mo + M + b * (156 * 4294967296)) :
    (n - M) % 4294967296 = 12 - mo ∧ Z - 1 - (n - M) / 13 = y + (b - k) * 4294967296 := by
  subst hb
  have e : 12 - mo + M + b * (156 * 4294967296) - M = 12 - mo + b * 670014898176 := by omega
  rw [e]
  have h13 : (12 - mo + b * 670014898176) / 13 = b * 51539607552 := by omega
  rw [h13]
  refine ⟨by omega, by omega⟩

private theorem back_lin {y mo n Y' Z K K' A v r : Int} (hi : 12 * Y' + (mo - 1) = 12 * Z + (12 - r - 1) + n)
    (hk : y - 1 - v = Z + K) (hk' : Y' = y + K') (ha : n - mo = A + r) (hv : 13 * v ≤ n - mo ∧ n - mo < 13 * v + 13) :
    A = 12 * (Y' - Z - 1) ∧ (13 * v ≤ 12 * (Y' - Z - 1) + r ∧ 12 * (Y' - Z - 1) + r < 13 * v + 13) ∧ Y' - Z - 1 = v + (K' + K) := by
  omega

private theorem same_year {x : Int} {z y : Int} (hz : -2147483648 ≤ z ∧ z ≤ 2147483647) (hy : -2147483648 ≤ y ∧ y ≤ 2147483647)
    (h : z = y + x * 4294967296) : z = y := by omega

private theorem thirteens {w B : Int} (h : 12 * B * 13 = 12 * w) : w = 13 * B := by omega

private theorem back {y mo n Y' Z k k' M : Int} (hM : 1 ≤ M ∧ M ≤ 12) (hMr : 12 - (n - mo) % 4294967296 = M)
    (hi : 12 * Y' + (mo - 1) = 12 * Z + (M - 1) + n) (hk : y - 1 - (n - mo) / 13 = Z + k * 4294967296) (hk' : Y' = y + k' * 4294967296)
    (hZ : -2147483648 ≤ Z ∧ Z ≤ 2147483647) (hy : -2147483648 ≤ y - 1 ∧ y - 1 ≤ 2147483647) :
    n = mo + 12 - M + (k' + k) * (156 * 4294967296) ∧ Z = y - 1 := by
  have hr := to12 hM
  have hrr := from12 hMr
  rw [show M = 12 - (12 - M) by clear hMr hi hk hk' hZ hy hrr; omega] at hi
  obtain ⟨a, ha⟩ := mod32 hrr
  obtain ⟨v, hv, v1, v2⟩ := div13 (n - mo)
  rw [hv] at hk
  obtain ⟨h1, h2, h3⟩ := back_lin hi hk hk' ha ⟨v1, v2⟩
  rw [← Int.add_mul] at h3
  have e := twelve_thirteen hr h1 h2 h3
  rw [e] at ha h1
  have h4 : Y' - Z - 1 = 13 * ((k' + k) * 4294967296) := thirteens (by rw [← h1]; simp only [Int.mul_assoc, Int.mul_comm, Int.mul_left_comm]; rfl)
  constructor
  · rw [Int.mul_comm 156 (k' + k), Int.mul_assoc] at ha
    generalize (k' + k) * (156 * 4294967296) = B at *
    clear hk hk' hrr h1 h2 h3 hv v1 v2 hi h4 hMr
    omega
  · refine same_year (x := k' - 13 * (k' + k)) hZ hy ?_
    rw [Int.sub_mul, Int.mul_assoc]
    generalize (k' + k) * 4294967296 = B at *
    generalize k' * 4294967296 = C at *
    clear hk hrr h1 h2 h3 hv v1 v2 hi ha e hMr
    omega

private theorem back' {y mo n M b : Int} (hM : 1 ≤ M ∧ M ≤ 12) (hb : n = mo + 12 - M + b * (156 * 4294967296)) :
    (n - mo) % 4294967296 = 12 - M ∧ y - 1 - (n - mo) / 13 = y - 1 + (-12 * b) * 4294967296 := by
  subst hb
  have e : mo + 12 - M + b * (156 * 4294967296) - mo = 12 - M + b * 670014898176 := by omega
  rw [e]
  have h13 : (12 - M + b * 670014898176) / 13 = b * 51539607552 := by omega
  rw [h13]
  refine ⟨by omega, by omega⟩

/-- **C24, months, exactly when it holds (partial)**, for every number of months (up to the last that do not overflow). `(Y, M)` is the month `n` months after
that of `m`, the code takes it in the year `signed32 Y`. `(m + n) - n` is `m` again if and only if that year is in chrono's range, the month has the day
of `m` in it, and: fewer than `M + 12` months are added, and `m` is not on a 31st or `Y` is its year; or as many as lead from `m` into month `M` of the
next year, and a multiple of 156 · 2^32 more, and `m` is not on a 31st. -/
theorem C24_every_month_iff_partial (c : Cfg) (hc : Sane c) (m : Moment) (hm : m.Valid c) (hz : m.nano = 0) (n : Int)
    (hn : 0 ≤ n) (hmax : n ≤ 9223372036854775794) (Y M : Int) (hM : 1 ≤ M ∧ M ≤ 12)
    (hi : Cal.monthIndex Y M = Cal.monthIndex m.year m.month + n) :
    calculate c (.moment m + .months n - .months n) = .ok (.moment m) ↔
      c.minYear ≤ signed32 Y ∧ signed32 Y ≤ c.maxYear ∧ m.day ≤ Cal.monthLen (signed32 Y) M ∧
        ((n < M + 12 ∧ (m.day ≤ 30 ∨ Y = m.year)) ∨
          (m.day ≤ 30 ∧ ∃ b, n = 12 - m.month + M + b * (156 * 4294967296))) := by
  have hc' := hc
  unfold Sane at hc'
  have hm' := hm
  obtain ⟨a1, a2, ⟨a3, a4, a5, a6⟩, t, a7⟩ := hm'
  have hi' := hi
  unfold Cal.monthIndex at hi'
  by_cases hsmall : n < M + 12
  · have hY : signed32 Y = Y := s32_of (k := 0) (by omega) (by omega)
    rw [C24_months_iff_partial c hc m hm hz n hn (by omega) Y M hM hi, hY]
    constructor
    · exact fun ⟨h1, h2, h3, h4⟩ => ⟨by omega, h1, h2, .inl ⟨h4, h3⟩⟩
    · rintro ⟨-, h1, h2, h | ⟨h3, -⟩⟩
      · exact ⟨h1, h2, h.2, h.1⟩
      · exact ⟨h1, h2, .inl h3, hsmall⟩
  have ch := (C07_chain_partial c (.moment m) (.months n) .month n).2.1
  simp only [amt] at ch
  rw [ch]
  obtain ⟨hZ, k, hk⟩ := s32 Y
  by_cases hd : m.day ≤ 30
  · rw [C17_beyond_the_year_partial c hc m hm hd n Y M (signed32 Y) k (by omega) hM hi (by omega) hZ hk]
    by_cases hv : c.minYear ≤ signed32 Y ∧ signed32 Y ≤ c.maxYear ∧ Cal.ValidDate (signed32 Y) M m.day
    · rw [if_pos hv, OutE.ok_bind]
      obtain ⟨v1, v2, hv3⟩ := hv
      have hq : ({ m with year := signed32 Y, month := M, nano := 0 } : Moment).Valid c := ⟨v1, v2, hv3, t, by simp, by simp⟩
      obtain ⟨hZ', k', hk'⟩ := s32 (signed32 Y - 1 - (n - M) / 13)
      rw [C22_every_amount_partial c hc _ hq n (n - M) (signed32 (signed32 Y - 1 - (n - M) / 13)) k' rfl hn (by omega) hZ' hk', if_neg (by omega)]
      simp only
      constructor
      · intro h
        refine ⟨v1, v2, hv3.2.2.2, .inr ⟨hd, ?_⟩⟩
        split at h
        · next hr =>
          split at h
          · have e := ok_moment_inj h
            have e1 : signed32 (signed32 Y - 1 - (n - M) / 13) = m.year := by rw [← e]
            have e2 : 12 - (n - M) % 4294967296 = m.month := by rw [← e]
            rw [e1] at hk'
            exact ⟨k' + k, forth ⟨a3, a4⟩ hi' hk hk' (from12 e2)⟩
          · cases h
        · cases h
      · rintro ⟨-, -, -, h | ⟨-, b, hb⟩⟩
        · exact absurd h.1 hsmall
        · obtain ⟨hr, hy⟩ := forth' ⟨a3, a4⟩ hi' hk hb
          have hy := s32_of (by omega) hy
          rw [if_pos (by omega), hy, hr, show 12 - (12 - m.month) = m.month by omega, if_pos ⟨a1, a2, a6⟩]
          congr 2; cases m; simp only at hz; subst hz; rfl
    · rw [if_neg hv]
      constructor
      · intro h; cases h
      · rintro ⟨h1, h2, h3, -⟩
        exact absurd ⟨h1, h2, hM.1, hM.2, a5, h3⟩ hv
  · have ml := Cal.monthLen_bounds (y := m.year) a3 a4
    have hd31 : m.day = 31 := by omega
    constructor
    · intro h
      exfalso
      obtain ⟨Y', M', hM', hi2⟩ : ∃ Y' M', (1 ≤ M' ∧ M' ≤ 12) ∧ Cal.monthIndex Y' M' = Cal.monthIndex m.year m.month + n + 1 :=
        ⟨(Cal.monthIndex m.year m.month + n + 1) / 12, (Cal.monthIndex m.year m.month + n + 1) % 12 + 1, by omega,
          by unfold Cal.monthIndex; omega⟩
      obtain ⟨hZ', k', hk'⟩ := s32 Y'
      rw [C17_from_the_31st_partial c hc m hm hd31 n Y' M' (signed32 Y') k' (by omega) hM' hi2 (by omega) hZ' hk'] at h
      split at h
      · next hr =>
        rw [OutE.ok_bind] at h
        have hq : ({ m with year := signed32 Y', month := M', day := 1, nano := 0 } : Moment).Valid c :=
          ⟨hr.1, hr.2, ⟨hM'.1, hM'.2, by simp, by have := Cal.monthLen_bounds (y := signed32 Y') hM'.1 hM'.2; simp only; omega⟩, t, by simp, by simp⟩
        obtain ⟨hZ2, k2, hk2⟩ := s32 (signed32 Y' - 1 - (n - M') / 13)
        rw [C22_every_amount_partial c hc _ hq n (n - M') _ k2 rfl hn (by omega) hZ2 hk2] at h
        have no : ∀ q : Moment, q.day = 1 → (.ok (.moment q) : Out TT) ≠ .ok (.moment m) := by
          intro q hq1 e
          have := ok_moment_inj e
          rw [this] at hq1
          omega
        split at h
        · split at h
          · exact no _ rfl h
          · cases h
        · split at h
          · split at h
            · exact no _ rfl h
            · cases h
          · cases h
      · cases h
    · rintro ⟨-, -, -, h | h⟩
      · exact absurd h.1 hsmall
      · exact absurd h.1 hd

/-- **C112, months, exactly when it holds (partial)**, for every number of months (up to the last that do not overflow). `(m - n) + n` is `m` again if and only if
`n` leads back to a month of the same year that has the day of `m`; or to one of the year before, up to a multiple of 156 · 2^32 months, that has the day
of `m`, and `m` is not on a 31st. -/
theorem C112_every_month_iff_partial (c : Cfg) (hc : Sane c) (m : Moment) (hm : m.Valid c) (hz : m.nano = 0) (n : Int)
    (hn : 0 ≤ n) (hmax : n ≤ 9223372036854775794) :
    stepwise c (.moment m) [(.minus, .months n), (.plus, .months n)] = .ok (.moment m) ↔
      (n < m.month ∧ m.day ≤ Cal.monthLen m.year (m.month - n)) ∨
      (m.day ≤ 30 ∧ c.minYear < m.year ∧
        ∃ M b, (1 ≤ M ∧ M ≤ 12) ∧ n = m.month + 12 - M + b * (156 * 4294967296) ∧ m.day ≤ Cal.monthLen (m.year - 1) M) := by
  have hc' := hc
  unfold Sane at hc'
  have two := minus_plus (c := c) (m := m) (u := .month) (n := n)
  simp only [amt] at two
  rw [two]
  have hm' := hm
  obtain ⟨a1, a2, ⟨a3, a4, a5, a6⟩, t, a7⟩ := hm'
  have hme : ∀ (q : Moment), q = { m with nano := 0 } → q = m := by
    rintro q rfl; cases m; simp only at hz; subst hz; rfl
  obtain ⟨hZ, k, hk⟩ := s32 (m.year - 1 - (n - m.month) / 13)
  have sub := C22_every_amount_partial c hc m hm n (n - m.month) _ k rfl hn (by omega) hZ hk
  by_cases hlt : n < m.month
  · rw [if_pos (by omega)] at sub
    rw [sub]
    by_cases hd : m.day ≤ Cal.monthLen m.year (m.month - n)
    · rw [if_pos hd]
      refine ⟨fun _ => .inl ⟨hlt, hd⟩, fun _ => ⟨_, rfl, ?_⟩⟩
      have hq : ({ m with month := m.month - n, nano := 0 } : Moment).Valid c :=
        ⟨a1, a2, ⟨by simp only; omega, by simp only; omega, a5, hd⟩, t, by simp, by simp⟩
      rw [C17_within_the_year_partial c hc _ hq n m.month hn (by simp only; omega) a4, if_pos a6]
      congr 2
      exact hme _ rfl
    · rw [if_neg hd]
      constructor
      · rintro ⟨q, h, -⟩; cases h
      · rintro (h | ⟨-, -, M, b, h1, h2, -⟩)
        · exact absurd h.2 hd
        · omega
  · rw [if_neg (by omega)] at sub
    rw [sub]
    by_cases hr : (n - m.month) % 4294967296 ≤ 11
    · rw [if_pos hr]
      by_cases hv : c.minYear ≤ signed32 (m.year - 1 - (n - m.month) / 13) ∧ signed32 (m.year - 1 - (n - m.month) / 13) ≤ c.maxYear ∧
          m.day ≤ Cal.monthLen (signed32 (m.year - 1 - (n - m.month) / 13)) (12 - (n - m.month) % 4294967296)
      · rw [if_pos hv]
        obtain ⟨v1, v2, v3⟩ := hv
        generalize hZe : signed32 (m.year - 1 - (n - m.month) / 13) = Z at *
        generalize hMe : 12 - (n - m.month) % 4294967296 = M at *
        have hMr : 1 ≤ M ∧ M ≤ 12 := by omega
        have hyr : -2147483648 ≤ m.year - 1 ∧ m.year - 1 ≤ 2147483647 := by omega
        have hq : ({ m with year := Z, month := M, nano := 0 } : Moment).Valid c :=
          ⟨v1, v2, ⟨by simp only; omega, by simp only; omega, a5, v3⟩, t, by simp, by simp⟩
        by_cases hd : m.day ≤ 30
        · obtain ⟨Y', M', hM', hi2⟩ : ∃ Y' M', (1 ≤ M' ∧ M' ≤ 12) ∧ Cal.monthIndex Y' M' = Cal.monthIndex Z M + n :=
            ⟨(Cal.monthIndex Z M + n) / 12, (Cal.monthIndex Z M + n) % 12 + 1, by omega, by unfold Cal.monthIndex; omega⟩
          obtain ⟨hZ', k', hk'⟩ := s32 Y'
          have hi3 := hi2
          unfold Cal.monthIndex at hi3
          have add := C17_beyond_the_year_partial c hc _ hq hd n Y' M' (signed32 Y') k' (by simp only; omega) hM' hi2 (by simp only; omega) hZ' hk'
          constructor
          · rintro ⟨q, h1, h2⟩
            rw [← ok_moment_inj h1, add] at h2
            split at h2
            · have e := ok_moment_inj h2
              have e1 : signed32 Y' = m.year := by rw [← e]
              have e2 : M' = m.month := by rw [← e]
              rw [e1] at hk'
              rw [e2] at hi3
              obtain ⟨f1, hZy⟩ := back hMr hMe hi3 hk hk' hZ hyr
              rw [hZy] at v3 v1
              exact .inr ⟨hd, Int.lt_of_le_of_lt v1 (Int.sub_one_lt_of_le (Int.le_refl _)), M, k' + k, hMr, f1, v3⟩
            · cases h2
          · rintro (h | ⟨-, -, M₀, b, hM₀, hb, -⟩)
            · exact absurd h.1 hlt
            · refine ⟨_, rfl, ?_⟩
              obtain ⟨f1, f2⟩ := back' (y := m.year) hM₀ hb
              rw [f1] at hMe
              have hMM : M = M₀ := by clear hk hi3 hk' hb f2; omega
              have hZy : Z = m.year - 1 := by
                rw [← hZe]
                exact s32_of hyr f2
              rw [hMM, hZy, hb] at hi3
              clear hk f1 f2 hb hr hMe hZe hk' v3
              have hm2 : M' = m.month := by omega
              have hY2 : signed32 Y' = m.year := s32_of (k := 13 * b) ⟨by clear hi3; omega, by clear hi3; omega⟩ (by omega)
              rw [add, hY2, hm2, if_pos ⟨a1, a2, a3, a4, a5, a6⟩]
              congr 2
              exact hme _ rfl
        · have ml := Cal.monthLen_bounds (y := m.year) a3 a4
          have hd31 : m.day = 31 := by omega
          constructor
          · rintro ⟨q, h1, h2⟩
            exfalso
            rw [← ok_moment_inj h1] at h2
            obtain ⟨Y', M', hM', hi2⟩ : ∃ Y' M', (1 ≤ M' ∧ M' ≤ 12) ∧ Cal.monthIndex Y' M' = Cal.monthIndex Z M + n + 1 :=
              ⟨(Cal.monthIndex Z M + n + 1) / 12, (Cal.monthIndex Z M + n + 1) % 12 + 1, by omega, by unfold Cal.monthIndex; omega⟩
            obtain ⟨hZ', k', hk'⟩ := s32 Y'
            rw [C17_from_the_31st_partial c hc _ hq hd31 n Y' M' (signed32 Y') k' (by simp only; omega) hM' hi2 (by simp only; omega) hZ' hk'] at h2
            split at h2
            · have e := ok_moment_inj h2
              have : (1 : Int) = m.day := by rw [← e]
              omega
            · cases h2
          · rintro (h | h)
            · exact absurd h.1 hlt
            · exact absurd h.1 hd
      · rw [if_neg hv]
        constructor
        · rintro ⟨q, h, -⟩; cases h
        · rintro (h | ⟨hd, hy, M, b, hM, hb, hl⟩)
          · exact absurd h.1 hlt
          · refine absurd ?_ hv
            obtain ⟨f1, f2⟩ := back' (y := m.year) hM hb
            have hZy := s32_of ⟨by omega, by omega⟩ f2
            have hMM : 12 - (n - m.month) % 4294967296 = M := by omega
            rw [hZy, hMM]
            exact ⟨by omega, by omega, hl⟩
    · rw [if_neg hr]
      constructor
      · rintro ⟨q, h, -⟩; cases h
      · rintro (h | ⟨hd, hy, M, b, hM, hb, hl⟩)
        · exact absurd h.1 hlt
        · exact absurd (by rw [(back' (y := m.year) hM hb).1]; omega) hr

/-- **C39, months, exactly when it holds (partial)**, for every number of months (up to the last that do not overflow): as in C112. -/
theorem C39_every_month_iff_partial (c : Cfg) (hc : Sane c) (it it' : Iter) (r : Moment) (hr : r.Valid c) (hz : r.nano = 0)
    (n : Int) (hn : 0 ≤ n) (hmax : n ≤ 9223372036854775794) (hinc : it.increment = .months n) (h : it.next c = (it', some (.ok (.moment r)))) :
    ((it'.rollback c).2 = .ok () ∧ ((it'.rollback c).1.next c).2 = some (.ok (.moment r))) ↔
      (n < r.month ∧ r.day ≤ Cal.monthLen r.year (r.month - n)) ∨
      (r.day ≤ 30 ∧ c.minYear < r.year ∧
        ∃ M b, (1 ≤ M ∧ M ≤ 12) ∧ n = r.month + 12 - M + b * (156 * 4294967296) ∧ r.day ≤ Cal.monthLen (r.year - 1) M) := by
  have hs := state_after_item h
  rw [hinc] at hs
  subst hs
  rw [show TT.months n = amt .month n from rfl, rollback_iff, ← minus_plus]
  exact C112_every_month_iff_partial c hc r hr hz n hn hmax

example := (C39_every_month_iff_partial (std .debug) (by decide) ⟨.moment (at_ 2017 6 15 0 0 0), .months 8, false⟩ _ _ (by decide) rfl
  8 (by decide) (by decide) rfl rfl).2 (.inr ⟨by decide, by decide, 10, 0, by decide, by decide, by decide⟩)

/-- 156 · 2^32 and 7 months from 15 June 2017 - it is read as 15 January 2018 - and back: they come back, in the code; 2^32 months and 7 do not. -/
example : calculate (std .debug) (.moment (at_ 2017 6 15 0 0 0) + .months (7 + 156 * 4294967296) - .months (7 + 156 * 4294967296)) =
      .ok (.moment (at_ 2017 6 15 0 0 0)) ∧
    calculate (std .debug) (.moment (at_ 2017 6 15 0 0 0) + .months (7 + 4294967296) - .months (7 + 4294967296)) ≠
      .ok (.moment (at_ 2017 6 15 0 0 0)) := by
  constructor
  · exact (C24_every_month_iff_partial (std .debug) (sane_std _) _ (by decide) rfl _ (by decide) (by decide) (2018 + 13 * 4294967296) 1 (by decide)
      (by decide)).2 ⟨by decide, by decide, by decide, .inr ⟨by decide, 1, by decide⟩⟩
  · refine mt (C24_every_month_iff_partial (std .debug) (sane_std _) _ (by decide) rfl _ (by decide) (by decide) 357915959 5 (by decide)
      (by decide)).1 fun h => ?_
    exact absurd h.2.1 (by decide)

/-- The same back and forth: 8 months from 15 June 2017 lead to October 2016. -/
example : stepwise (std .debug) (.moment (at_ 2017 6 15 0 0 0)) [(.minus, .months (8 + 156 * 4294967296)), (.plus, .months (8 + 156 * 4294967296))] =
    .ok (.moment (at_ 2017 6 15 0 0 0)) :=
  (C112_every_month_iff_partial (std .debug) (sane_std _) _ (by decide) rfl _ (by decide) (by decide)).2
    (.inr ⟨by decide, by decide, 10, 1, by decide, by decide, by decide⟩)

end Props
