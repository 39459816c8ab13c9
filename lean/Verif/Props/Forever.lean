import Verif.Props.Loops

/-!
# C162: when the command line program does not end
-/

namespace Props
open Kairos Kairos.Parser Spec

/-- The loop goes on for ever exactly if all items are values. -/
private theorem items_running (item : Nat → Option Answer) (k : Nat) :
    (∀ rounds, (printsItems item rounds k).ending = .running) ↔ ∀ j, ∃ v, item (k + j) = some (.value v) := by
  constructor
  · intro h j
    induction j generalizing k with
    | zero =>
      have := h 1
      unfold printsItems at this
      revert this
      show _ → ∃ v, item k = _
      cases item k with
      | none => intro e; cases e
      | some a => cases a <;> intro e <;> first | exact ⟨_, rfl⟩ | cases e
    | succ j ih =>
      rw [show k + (j + 1) = (k + 1) + j by omega]
      refine ih (k + 1) fun rounds => ?_
      have := h (rounds + 1)
      unfold printsItems at this
      revert this
      cases item k with
      | none => intro e; cases e
      | some a => cases a <;> intro e <;> first | exact e | cases e
  · intro h rounds
    induction rounds generalizing k with
    | zero => rfl
    | succ rounds ih =>
      obtain ⟨v, hv⟩ := h 0
      unfold printsItems
      rw [show item k = some (.value v) from hv]
      exact ih (k + 1) fun j => by rw [show k + 1 + j = k + (j + 1) by omega]; exact h (j + 1)

private theorem value_running (c : Cfg) (a : Answer) : (printsValue c a).ending ≠ .running := by
  unfold printsValue
  cases a with
  | refused e => intro h; cases h
  | overflow => intro h; cases h
  | value v =>
    simp only
    cases ending c v <;> intro h <;> cases h

/-- **C162.** The program goes on for ever exactly if its arguments are an iterator without a count that can be built, and every item is a date
(never an error), before the end date if one was written. Everything else it is called with makes it end. -/
theorem C162_forever_iff (c : Cfg) (hc : Sane c) (iso : Iso) (hi : IsoSane iso) (now now' : Moment) (hn : now.Valid c)
    (hn' : now'.Valid c) (args : List (List Char)) (amount_expr : Nom.P AmountExpr)
    (hf : amount_expr = Source.Parser.amount_expr_body amount_expr) :
    (∀ rounds, (Source.main c iso amount_expr now now' rounds args).ending = .running) ↔
      ∃ r start step bound, read iso (Main.commandLine args) = .iterator r ∧
        calculated c (dateMeans c now r.start) = .value (.moment start) ∧ amountMeans c r.step = .value step ∧
        Written c now' r.bound bound ∧ (∀ n, .times n ∉ bound) ∧
        ∀ k, ∃ d, itemEnds c start step k = .value (.moment d) ∧ ∀ e, .until e ∈ bound → Earlier d e := by
  have hp : ∀ rounds, (Source.main c iso amount_expr now now' rounds args).ending =
      (prints c iso now now' rounds (Main.commandLine args)).ending :=
    fun rounds => (C153_program c hc iso hi now now' hn hn' rounds args amount_expr hf).2
  simp only [hp]
  cases hr : read iso (Main.commandLine args) with
  | nothing =>
    simp only [prints, hr]
    exact ⟨fun h => (by cases h 0), fun ⟨r, _, _, _, h, _⟩ => (by cases h)⟩
  | amounts e =>
    simp only [prints, hr]
    exact ⟨fun h => absurd (h 0) (value_running c _), fun ⟨r, _, _, _, h, _⟩ => (by cases h)⟩
  | date d =>
    simp only [prints, hr]
    exact ⟨fun h => absurd (h 0) (value_running c _), fun ⟨r, _, _, _, h, _⟩ => (by cases h)⟩
  | iterator r =>
    simp only [prints, hr, printsIterator]
    have ht := read_typed hi hr
    cases hs : amountMeans c r.step with
    | refused e => exact ⟨fun h => (by cases h 0), fun ⟨_, _, _, _, h, _, h', _⟩ => (by cases h; rw [hs] at h'; cases h')⟩
    | overflow => exact ⟨fun h => (by cases h 0), fun ⟨_, _, _, _, h, _, h', _⟩ => (by cases h; rw [hs] at h'; cases h')⟩
    | value step =>
      obtain ⟨-, u, n, rfl, -⟩ := amount_fit ht.2.1 hs
      have other : ∀ a, calculated c (dateMeans c now r.start) = a → (∀ m, a ≠ .value (.moment m)) →
          ¬ ∃ r' start step bound, Reading.iterator r = .iterator r' ∧
          calculated c (dateMeans c now r'.start) = .value (.moment start) ∧ amountMeans c r'.step = .value step ∧
          Written c now' r'.bound bound ∧ (∀ n, .times n ∉ bound) ∧
          ∀ k, ∃ d, itemEnds c start step k = .value (.moment d) ∧ ∀ e, .until e ∈ bound → Earlier d e := by
        rintro a ha hm ⟨_, m, _, _, h, h', -⟩
        cases h
        exact hm m (ha.symm.trans h')
      cases hcal : calculated c (dateMeans c now r.start) with
      | refused e => exact ⟨fun h => (by cases h 0), fun h => absurd h (other _ hcal nofun)⟩
      | overflow => exact ⟨fun h => (by cases h 0), fun h => absurd h (other _ hcal nofun)⟩
      | value w =>
        cases w
        case moment m =>
          simp only
          have key : ∀ (limit : Limit) (bound : List Adaptor), Written c now' r.bound bound →
              ((∀ j, ∃ v, limit.item (itemEnds c m (amt u n)) j = some (.value v)) ↔ (∀ n, .times n ∉ bound) ∧
                ∀ k, ∃ d, itemEnds c m (amt u n) k = .value (.moment d) ∧ ∀ e, .until e ∈ bound → Earlier d e) →
              ((∀ rounds, (printsItems (limit.item (itemEnds c m (amt u n))) rounds 0).ending = .running) ↔
                ∃ r' start step bound, Reading.iterator r = .iterator r' ∧
                calculated c (dateMeans c now r'.start) = .value (.moment start) ∧ amountMeans c r'.step = .value step ∧
                Written c now' r'.bound bound ∧ (∀ n, .times n ∉ bound) ∧
                ∀ k, ∃ d, itemEnds c start step k = .value (.moment d) ∧ ∀ e, .until e ∈ bound → Earlier d e) := by
            intro limit bound hw h
            rw [items_running]
            simp only [Nat.zero_add]
            rw [h]
            constructor
            · exact fun ⟨h1, h2⟩ => ⟨r, m, _, bound, rfl, hcal, hs, hw, h1, h2⟩
            · rintro ⟨_, m', step', bound', e, h1, h2, h3, h4, h5⟩
              cases e
              rw [hcal] at h1
              rw [hs] at h2
              cases h1
              cases h2
              rw [written_unique h3 hw] at h4 h5
              exact ⟨h4, h5⟩
          cases hb : r.bound with
          | none =>
            refine key .never [] (by unfold Written; rw [hb]) ?_
            constructor
            · refine fun h => ⟨fun n hm => (by cases hm), fun k => ?_⟩
              obtain ⟨v, hv⟩ := h k
              injection hv with hv
              obtain ⟨d, rfl⟩ := item_moment hv
              exact ⟨d, hv, fun e he => (by cases he)⟩
            · intro h j
              obtain ⟨d, hd, -⟩ := h.2 j
              exact ⟨_, congrArg some hd⟩
          | some b =>
            cases b with
            | times N =>
              refine key (.times N) [.times N] (by unfold Written; rw [hb]) ?_
              constructor
              · intro h
                obtain ⟨v, hv⟩ := h N.toNat
                simp only [Limit.item] at hv
                rw [if_neg (by omega)] at hv
                cases hv
              · exact fun h => absurd (List.mem_cons_self ..) (h.1 N)
            | exact e =>
              simp only [withLimit]
              have hm' := momentOf_calculated hc (fun v hv => exact_fit hn' (by have := ht.2.2; rw [hb] at this; exact this) hv)
                (a := exactMeans c now' e)
              have none : ∀ a, calculated c (exactMeans c now' e) = a → (∀ m, a ≠ .value (.moment m)) →
                  ¬ ∃ r' start step bound, Reading.iterator r = .iterator r' ∧
                  calculated c (dateMeans c now r'.start) = .value (.moment start) ∧ amountMeans c r'.step = .value step ∧
                  Written c now' r'.bound bound ∧ (∀ n, .times n ∉ bound) ∧
                  ∀ k, ∃ d, itemEnds c start step k = .value (.moment d) ∧ ∀ e, .until e ∈ bound → Earlier d e := by
                rintro a ha hm ⟨_, _, _, _, h, -, -, h', -⟩
                cases h
                rw [hb] at h'
                obtain ⟨x, hx, -⟩ := h'
                exact hm x (ha.symm.trans hx)
              cases hcal' : calculated c (exactMeans c now' e) with
              | refused e' => exact ⟨fun h => (by cases h 0), fun h => absurd h (none _ hcal' nofun)⟩
              | overflow => exact ⟨fun h => (by cases h 0), fun h => absurd h (none _ hcal' nofun)⟩
              | value w' =>
                rw [hcal'] at hm'
                cases w'
                case moment limit =>
                  refine key (.before limit) [.until limit] (by unfold Written; rw [hb]; exact ⟨limit, hcal', rfl⟩) ?_
                  constructor
                  · refine fun h => ⟨fun n hm => (by simp only [List.mem_cons, List.not_mem_nil, or_false] at hm; cases hm), fun k => ?_⟩
                    obtain ⟨v, hv⟩ := h k
                    simp only [Limit.item] at hv
                    split at hv
                    · next d hd =>
                      split at hv
                      · next hlt =>
                        refine ⟨d, hd, fun e he => ?_⟩
                        simp only [List.mem_cons, List.not_mem_nil, or_false] at he
                        cases he
                        exact hlt
                      · cases hv
                    · next hne =>
                      injection hv with hv
                      obtain ⟨d, rfl⟩ := item_moment hv
                      exact absurd hv (hne d)
                  · intro h j
                    obtain ⟨d, hd, hlt⟩ := h.2 j
                    refine ⟨.moment d, ?_⟩
                    simp only [Limit.item, hd]
                    exact if_pos (hlt limit (List.mem_cons_self ..))
                all_goals exact hm'.elim
        all_goals exact ⟨fun h => (by cases h 0), fun h => absurd h (other _ hcal nofun)⟩

private theorem zero_item (c : Cfg) (hc : Sane c) (m : Moment) (hm : m.Valid c) (u : TUnit) (k : Nat) :
    itemEnds c m (amt u 0) k = .value (.moment (if k = 0 then m else { m with nano := 0 })) := by
  have one : ∀ m : Moment, m.Valid c → oneStep c (.moment m + amt u 0) = .value (.moment { m with nano := 0 }) := by
    intro m hm
    have h := C141_every_expression c hc (.moment m + amt u 0) (by cases u <;> exact ⟨hm, trivial⟩) (by cases u <;> exact ⟨trivial, (by decide : InI64 0)⟩)
    rw [(C19_zero c hc m hm u).1] at h
    have e : ending c (.moment m + amt u 0) = oneStep c (.moment m + amt u 0) := by cases u <;> rfl
    rw [e] at h
    cases ho : oneStep c (.moment m + amt u 0) <;> rw [ho] at h <;> cases h
    rfl
  induction k with
  | zero => rfl
  | succ k ih =>
    show (itemEnds c m (amt u 0) k).andThen _ = _
    rw [ih]
    simp only [Answer.andThen]
    rw [if_neg (Nat.succ_ne_zero k)]
    by_cases hk : k = 0
    · rw [if_pos hk]; exact one m hm
    · rw [if_neg hk]; exact one { m with nano := 0 } ⟨hm.1, hm.2.1, hm.2.2.1, hm.2.2.2.1, by simp, by simp⟩

/-- **C162.** With a step of up to 4.29 billion years, it goes on for ever exactly if the step is zero, there is no count, and the start is before
the end date if one was written. -/
theorem C162_zero_step (c : Cfg) (hc : Sane c) (iso : Iso) (hi : IsoSane iso) (now now' : Moment) (hn : now.Valid c)
    (hn' : now'.Valid c) (args : List (List Char)) (amount_expr : Nom.P AmountExpr)
    (hf : amount_expr = Source.Parser.amount_expr_body amount_expr) (r : Repeated) (hr : read iso (Main.commandLine args) = .iterator r)
    (u : TUnit) (n : Int) (hstep : amountMeans c r.step = .value (amt u n)) (h0 : 0 ≤ n) (hmax : n * u.secs ≤ 133500000000000000)
    (start : Moment) (hstart : calculated c (dateMeans c now r.start) = .value (.moment start)) :
    (∀ rounds, (Source.main c iso amount_expr now now' rounds args).ending = .running) ↔
      n = 0 ∧ ∃ bound, Written c now' r.bound bound ∧ (∀ n, .times n ∉ bound) ∧ ∀ e, .until e ∈ bound → Earlier start e := by
  have hv : start.Valid c := by
    have := momentOf_calculated hc (fun v hv => date_fit hn (read_typed hi hr).1.1 (read_typed hi hr).1.2 hv)
    rw [hstart] at this
    exact this.2
  rw [C162_forever_iff c hc iso hi now now' hn hn' args amount_expr hf]
  constructor
  · rintro ⟨r', start', step, bound, h1, h2, h3, h4, h5, h6⟩
    rw [hr] at h1
    cases h1
    rw [hstart] at h2
    cases h2
    rw [hstep] at h3
    cases h3
    obtain ⟨d, hd, he⟩ := h6 0
    cases hd
    refine ⟨Classical.byContradiction fun hne => ?_, bound, h4, h5, he⟩
    obtain ⟨-, ⟨-, K, hK⟩, -⟩ := forward_items c hc start hv u n (by omega) hmax
    obtain ⟨d, hd, -⟩ := h6 K
    exact hK K (Nat.le_refl _) _ (congrArg Response.item hd)
  · rintro ⟨rfl, bound, h4, h5, h6⟩
    refine ⟨r, start, _, bound, hr, hstart, hstep, h4, h5, fun k => ⟨_, zero_item c hc start hv u k, fun e he => ?_⟩⟩
    have := h6 e he
    by_cases hk : k = 0
    · rw [if_pos hk]; exact this
    · rw [if_neg hk]
      rcases this with h | ⟨h, g⟩
      · exact .inl h
      · refine .inr ⟨h, ?_⟩
        have : 0 ≤ start.nano := hv.2.2.2.2.1
        show (0 : Int) < e.nano
        omega

/-! ### cases -/

/-- `2017-06-01 every 0 days` prints that date for ever. -/
example (rounds : Nat) : (Source.main (std .debug) Tests.Parser.extIso amountExpr (at_ 2017 6 15 0 0 0) (at_ 2017 6 15 0 0 0) rounds
    ["2017-06-01 every 0 days".toList]).ending = .running :=
  (C162_zero_step (std .debug) (by decide) _ Tests.Parser.isoSane_extIso _ _ (by decide) (by decide) _ _
    ((Source.Parser.amount_expr_unique _).2 rfl) _
    (by decide +kernel : read Tests.Parser.extIso (Main.commandLine ["2017-06-01 every 0 days".toList]) =
      .iterator ⟨⟨.iso8601Date (.ymd 2017 6 1), none⟩, ⟨0, .day⟩, none⟩)
    .day 0 (by decide +kernel) (by decide) (by decide) (at_ 2017 6 1 0 0 0) (by decide +kernel)).2
    ⟨rfl, [], rfl, fun n h => (by cases h), fun e h => (by cases h)⟩ rounds

/-- With a step of a day it ends. -/
example : ¬ ∀ rounds, (Source.main (std .debug) Tests.Parser.extIso amountExpr (at_ 2017 6 15 0 0 0) (at_ 2017 6 15 0 0 0) rounds
    ["2017-06-01 every 1 days".toList]).ending = .running := fun h =>
  absurd ((C162_zero_step (std .debug) (by decide) _ Tests.Parser.isoSane_extIso _ _ (by decide) (by decide) _ _
    ((Source.Parser.amount_expr_unique _).2 rfl) _
    (by decide +kernel : read Tests.Parser.extIso (Main.commandLine ["2017-06-01 every 1 days".toList]) =
      .iterator ⟨⟨.iso8601Date (.ymd 2017 6 1), none⟩, ⟨1, .day⟩, none⟩)
    .day 1 (by decide +kernel) (by decide) (by decide) (at_ 2017 6 1 0 0 0) (by decide +kernel)).1 h).1 (by decide)

/-- And so it does with no steps, but an end date before the start. -/
example : ¬ ∀ rounds, (Source.main (std .debug) Tests.Parser.extIso amountExpr (at_ 2017 6 15 0 0 0) (at_ 2017 6 15 0 0 0) rounds
    ["2017-06-01 every 0 days until 2017-05-01T00:00:00".toList]).ending = .running := fun h => by
  obtain ⟨-, bound, hw, -, hb⟩ := (C162_zero_step (std .debug) (by decide) _ Tests.Parser.isoSane_extIso _ _ (by decide) (by decide) _ _
    ((Source.Parser.amount_expr_unique _).2 rfl) _
    (by decide +kernel : read Tests.Parser.extIso (Main.commandLine ["2017-06-01 every 0 days until 2017-05-01T00:00:00".toList]) =
      .iterator ⟨⟨.iso8601Date (.ymd 2017 6 1), none⟩, ⟨0, .day⟩, some (.exact (.iso8601DateTime ⟨.ymd 2017 5 1, 0, 0, 0, 0, 0, 0⟩))⟩)
    .day 0 (by decide +kernel) (by decide) (by decide) (at_ 2017 6 1 0 0 0) (by decide +kernel)).1 h
  obtain ⟨e, he, rfl⟩ := hw
  have hm := he.symm.trans (by decide +kernel : _ = Answer.value (TT.moment (at_ 2017 5 1 0 0 0)))
  cases hm
  exact absurd (hb _ (List.mem_cons_self ..)) (by decide)

end Props
