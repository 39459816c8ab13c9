import Verif.Lemmas.ParserSafe
import Verif.Props.ParserAmounts

/-!
# C72: when the result of `parse` depends on the clock
-/

namespace Props
open Kairos Kairos.Parser Spec

/-- The text contains none of the words that name the current time. -/
def NoClockWord (s : List Char) : Prop :=
  ¬ "today".toList <:+: s ∧ ¬ "yesterday".toList <:+: s ∧ ¬ "tomorrow".toList <:+: s

theorem exact_clock {iso : Iso} {e : ExactDate} {t rest s : List Char} (h : ExactAt iso e t rest) (hi : t <:+: s)
    (hs : NoClockWord s) (c : Cfg) (now now' : Moment) : e.intoTimetype c now = e.intoTimetype c now' := by
  cases h with
  | today => exact absurd hi hs.1
  | yesterday => exact absurd hi hs.2.1
  | tomorrow => exact absurd hi hs.2.2
  | datetime => rename_i d _; obtain ⟨d, _, _, _, _, _, _⟩ := d; cases d <;> rfl
  | date => rename_i d _; cases d <;> rfl

theorem date_clock {iso : Iso} {d : PDate} {t rest s : List Char} (h : DateAt iso d t rest) (hi : t <:+: s)
    (hs : NoClockWord s) (c : Cfg) (now now' : Moment) : d.intoTimetype c now = d.intoTimetype c now' := by
  cases h with
  | mk he ho =>
    unfold PDate.intoTimetype
    rw [exact_clock he ((List.prefix_append _ _).isInfix.trans hi) hs c now now']

theorem iterator_clock {iso : Iso} {it : PIterator} {u : TimeUnit} {n : Int} {t rest s : List Char}
    (h : IterAt iso it.date u n it.until_ t rest) (hi : t <:+: s) (hs : NoClockWord s) (c : Cfg)
    (now now' m m' : Moment) : it.intoUserIterator c now now' = it.intoUserIterator c m m' := by
  obtain ⟨date, spec, un⟩ := it
  simp only at h
  cases h with
  | @mk b0 dt b1 st b2 ut _ _ _ _ _ hb0 hd hb1 hst hb2 hu =>
    have hdt : dt <:+: b0 ++ (dt ++ (b1 ++ (st ++ (b2 ++ ut)))) := ⟨b0, b1 ++ (st ++ (b2 ++ ut)), by simp⟩
    have hut : ut <:+: b0 ++ (dt ++ (b1 ++ (st ++ (b2 ++ ut)))) := ⟨b0 ++ dt ++ b1 ++ st ++ b2, [], by simp⟩
    have e1 := date_clock hd (hdt.trans hi) hs c now m
    cases hu with
    | none => simp only [PIterator.intoUserIterator, e1]
    | times => simp only [PIterator.intoUserIterator, e1]
    | @untilDate b t _ e _ he =>
      have ht : t <:+: "until".toList ++ (b ++ t) := ⟨"until".toList ++ b, [], by simp⟩
      have e2 := exact_clock he (ht.trans (hut.trans hi)) hs c now' m'
      simp only [PIterator.intoUserIterator, e1, e2]

/-- **C72.** A text without the words `today`, `yesterday` and `tomorrow` means the same at any time. -/
theorem C72_no_clock_word (c : Cfg) (iso : Iso) (hi : IsoSane iso) (s : List Char) (hs : NoClockWord s)
    (now now' m m' : Moment) : parse c iso now now' s = parse c iso m m' s := by
  rcases parse_cases c iso now now' s with ⟨r, it, h, e⟩ | ⟨h0, r, t, h, e⟩ | ⟨h0, h1, e⟩ <;>
  rcases parse_cases c iso m m' s with ⟨r', it', h', e'⟩ | ⟨h0', r', t', h', e'⟩ | ⟨h0', h1', e'⟩
  · rw [h] at h'; cases h'
    obtain ⟨u, n, t, hI, rfl, -, -⟩ := iterator_done c hi h
    rw [e, e', iterator_clock hI (List.prefix_append _ _).isInfix hs c now now' m m']
  · exact absurd h (h0' _ _)
  · exact absurd h (h0' _ _)
  · exact absurd h' (h0 _ _)
  · rw [h] at h'; cases h'
    rw [e, e']
    rcases timetype_done hi h with ⟨d, tx, rfl, hd, rfl⟩ | ⟨a, tx, rfl, ha, rfl⟩
    · simp only [PTimeType.intoTimetype, date_clock hd (List.prefix_append _ _).isInfix hs c now m]
    · rfl
  · exact absurd h (h1' _ _)
  · exact absurd h' (h0 _ _)
  · exact absurd h' (h1 _ _)
  · rw [e, e']

example (now now' m m' : Moment) := C72_no_clock_word (std .debug) noIso isoSane_noIso "5 days - 3 hours to go".toList
  (by unfold NoClockWord; decide +kernel) now now' m m'

/-- **C72.** The second reading of the clock matters only for a text with the word `until`. -/
theorem C72_no_until (c : Cfg) (iso : Iso) (hi : IsoSane iso) (s : List Char) (hs : ¬ "until".toList <:+: s)
    (now now' m' : Moment) : parse c iso now now' s = parse c iso now m' s := by
  rcases parse_cases c iso now now' s with ⟨r, it, h, e⟩ | ⟨h0, r, t, h, e⟩ | ⟨h0, h1, e⟩ <;>
  rcases parse_cases c iso now m' s with ⟨r', it', h', e'⟩ | ⟨h0', r', t', h', e'⟩ | ⟨h0', h1', e'⟩
  · rw [h] at h'; cases h'
    obtain ⟨u, n, t, hI, rfl, -, -⟩ := iterator_done c hi h
    have : it.intoUserIterator c now now' = it.intoUserIterator c now m' := by
      obtain ⟨date, spec, un⟩ := it
      simp only at hI
      cases hI with
      | @mk b0 dt b1 st b2 ut _ _ _ _ _ hb0 hd hb1 hst hb2 hu =>
        cases hu with
        | none => rfl
        | times => rfl
        | @untilDate b t _ e _ he =>
          exact absurd ⟨b0 ++ dt ++ b1 ++ st ++ b2, b ++ t ++ r, by simp⟩ hs
    rw [e, e', this]
  · exact absurd h (h0' _ _)
  · exact absurd h (h0' _ _)
  · exact absurd h' (h0 _ _)
  · rw [h] at h'; cases h'
    rw [e, e']
  · exact absurd h (h1' _ _)
  · exact absurd h' (h0 _ _)
  · exact absurd h' (h1 _ _)
  · rw [e, e']

example (now now' m' : Moment) := C72_no_until (std .debug) noIso isoSane_noIso "tomorrow + 2 days daily 5 times".toList
  (by decide +kernel) now now' m'

/-- **C72.** Whether a text is rejected by the parser does not depend on the clock. -/
theorem C72_rejection (c : Cfg) (iso : Iso) (s : List Char) (now now' m m' : Moment) :
    parse c iso now now' s = .err .nomError ↔ parse c iso m m' s = .err .nomError := by
  have key : ∀ now now' : Moment, parse c iso now now' s = .err .nomError ↔
      (∀ r it, iterator iso s ≠ .done r it) ∧ (∀ r t, timetype iso s ≠ .done r t) := by
    intro now now'
    rcases parse_cases c iso now now' s with ⟨r, it, h, e⟩ | ⟨h0, r, t, h, e⟩ | ⟨h0, h1, e⟩
    · constructor
      · intro hp
        rw [e] at hp
        cases hx : it.intoUserIterator c now now' <;> rw [hx] at hp <;> cases hp
      · intro hp; exact absurd h (hp.1 _ _)
    · constructor
      · intro hp
        rw [e] at hp
        have hb := (bnd_timetype c now t).bind (f := fun v => (.ok (.timeType v) : Out Parsed)) fun _ => Bnd.ok _
        obtain ⟨_, _, _, _, _, _, hx⟩ := hb.2 _ hp
        cases hx
      · intro hp; exact absurd h (hp.2 _ _)
    · exact ⟨fun _ => ⟨h0, h1⟩, fun _ => e⟩
  rw [key now now', key m m']

example : NoClockWord "5 days - 3 hours to go".toList ∧
    ¬ NoClockWord "today daily until tomorrow".toList ∧
    ¬ "until".toList <:+: "tomorrow + 2 days daily 5 times".toList := by
  unfold NoClockWord; decide +kernel

/-- With the words, both readings of the clock matter: here midnight passes between them. -/
example : parse (std .debug) noIso (at_ 2017 1 1 23 59 59) (at_ 2017 1 2 0 0 0) "today daily until tomorrow".toList =
      .ok (.iterator (.ok (.untilIterator ⟨.moment (at_ 2017 1 1 23 59 59), .days 1, false⟩ (at_ 2017 1 3 0 0 0)))) ∧
    parse (std .debug) noIso (at_ 2017 1 1 23 59 59) (at_ 2017 1 1 23 59 59) "today daily until tomorrow".toList =
      .ok (.iterator (.ok (.untilIterator ⟨.moment (at_ 2017 1 1 23 59 59), .days 1, false⟩ (at_ 2017 1 2 23 59 59)))) := by
  decide +kernel

end Props
