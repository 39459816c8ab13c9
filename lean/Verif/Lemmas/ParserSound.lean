import Verif.Lemmas.ParserParse
import Verif.Spec.Accepted

/-! `parse` accepts only texts of the grammar. -/

namespace Kairos.Parser
open Nom Spec

theorem exactDate_done {iso : Iso} (hi : IsoSane iso) {i r : List Char} {e : ExactDate}
    (h : exactDateParser iso i = .done r e) : ∃ t, ExactAt iso e t r ∧ i = t ++ r := by
  obtain ⟨p, hp, h⟩ := altComplete_done h
  simp only [List.mem_cons, List.not_mem_nil, or_false] at hp
  rcases hp with rfl | rfl | rfl | rfl | rfl
  · obtain ⟨h1, rfl⟩ := mapTok_done h
    exact ⟨_, .today r, h1⟩
  · obtain ⟨h1, rfl⟩ := mapTok_done h
    exact ⟨_, .yesterday r, h1⟩
  · obtain ⟨h1, rfl⟩ := mapTok_done h
    exact ⟨_, .tomorrow r, h1⟩
  · rw [bind_done_iff] at h
    obtain ⟨r', d, h1, h2⟩ := h
    rw [ret_done_iff] at h2
    obtain ⟨rfl, rfl⟩ := h2
    obtain ⟨t, rfl⟩ := hi.datetimeRest _ _ _ h1
    exact ⟨t, .datetime h1, rfl⟩
  · rw [bind_done_iff] at h
    obtain ⟨r', d, h1, h2⟩ := h
    rw [ret_done_iff] at h2
    obtain ⟨rfl, rfl⟩ := h2
    obtain ⟨t, rfl⟩ := hi.dateRest _ _ _ h1
    exact ⟨t, .date h1, rfl⟩

theorem date_done {iso : Iso} (hi : IsoSane iso) {i r : List Char} {d : PDate} (h : date iso i = .done r d) :
    ∃ t, DateAt iso d t r ∧ i = t ++ r := by
  unfold date at h
  rw [bind_done_iff] at h
  obtain ⟨r1, e, h1, h⟩ := h
  rw [bind_done_iff] at h
  obtain ⟨r2, o, h2, h⟩ := h
  rw [ret_done_iff] at h
  obtain ⟨rfl, rfl⟩ := h
  obtain ⟨t, ht, rfl⟩ := exactDate_done hi h1
  rw [opt_done_iff] at h2
  rcases h2 with ⟨⟨op, a⟩, rfl, h2⟩ | ⟨rfl, rfl, -⟩
  · rw [complete_done_iff, bind_sp, bind_done_iff] at h2
    obtain ⟨r3, op', h3, h2⟩ := h2
    rw [bind_sp, bind_done_iff] at h2
    obtain ⟨r4, a', h4, h2⟩ := h2
    rw [ret_done_iff] at h2
    obtain ⟨rfl, h2⟩ := h2
    cases h2
    obtain ⟨b, hb, eb⟩ := split_blanks r1
    obtain ⟨b', hb', eb'⟩ := split_blanks r3
    obtain ⟨t', ht', e2⟩ := amountExpr_done h4
    have e1 := operator_done h3
    have e3 : r1 = (b ++ opChar op :: (b' ++ t')) ++ r4 := by
      rw [eb, e1, eb', e2]; simp
    rw [e3] at ht ⊢
    exact ⟨_, .mk ht (.some hb hb' ht'), by simp⟩
  · exact ⟨_, .mk (ot := []) (o := none) ht .none, by simp⟩

theorem iterSpec_done (c : Cfg) {i r : List Char} {s : Iterspec} (h : iterSpec i = .done r s) :
    ∃ u n st, StepText u n st ∧ i = st ++ r ∧ s.recur c = unitToAmount c n u ∧ s.number = n := by
  obtain ⟨p, hp, h⟩ := altComplete_done h
  simp only [List.mem_cons, List.not_mem_nil, or_false] at hp
  rcases hp with rfl | rfl | rfl | rfl | rfl | rfl | rfl | rfl
  · obtain ⟨h1, rfl⟩ := mapTok_done h; exact ⟨_, _, _, .alias .second, h1, rfl, rfl⟩
  · obtain ⟨h1, rfl⟩ := mapTok_done h; exact ⟨_, _, _, .alias .minute, h1, rfl, rfl⟩
  · obtain ⟨h1, rfl⟩ := mapTok_done h; exact ⟨_, _, _, .alias .hour, h1, rfl, rfl⟩
  · obtain ⟨h1, rfl⟩ := mapTok_done h; exact ⟨_, _, _, .alias .day, h1, rfl, rfl⟩
  · obtain ⟨h1, rfl⟩ := mapTok_done h; exact ⟨_, _, _, .alias .week, h1, rfl, rfl⟩
  · obtain ⟨h1, rfl⟩ := mapTok_done h; exact ⟨_, _, _, .alias .month, h1, rfl, rfl⟩
  · obtain ⟨h1, rfl⟩ := mapTok_done h; exact ⟨_, _, _, .alias .year, h1, rfl, rfl⟩
  · rw [bind_done_iff] at h
    obtain ⟨r1, x, h1, h⟩ := h
    rw [bind_done_iff] at h
    obtain ⟨r2, n, h2, h⟩ := h
    rw [bind_done_iff] at h
    obtain ⟨r3, u, h3, h⟩ := h
    rw [ret_done_iff] at h
    obtain ⟨rfl, rfl⟩ := h
    obtain ⟨b, ds, b', hb, hd, hb', hmax, rfl, rfl⟩ := integer_done h2
    obtain ⟨name, hn, rfl⟩ := unitParser_done h3
    have := tag_done h1
    subst this
    exact ⟨_, _, _, .every hb hd hb' hn hmax, by simp, rfl, rfl⟩

theorem untilSpec_done {iso : Iso} (hi : IsoSane iso) {i r : List Char} {u : UntilSpec} (h : untilSpec iso i = .done r u) :
    ∃ t, BoundAt iso (some u) t r ∧ i = t ++ r := by
  obtain ⟨p, hp, h⟩ := altComplete_done h
  simp only [List.mem_cons, List.not_mem_nil, or_false] at hp
  rcases hp with rfl | rfl
  · rw [bind_done_iff] at h
    obtain ⟨r1, x, h1, h⟩ := h
    rw [bind_sp, bind_done_iff] at h
    obtain ⟨r2, e, h2, h⟩ := h
    rw [ret_done_iff] at h
    obtain ⟨rfl, rfl⟩ := h
    obtain ⟨t, ht, e2⟩ := exactDate_done hi h2
    obtain ⟨b, hb, eb⟩ := split_blanks r1
    have := tag_done h1
    subst this
    exact ⟨_, .untilDate hb ht, by rw [eb, e2]; simp⟩
  · rw [bind_done_iff] at h
    obtain ⟨r1, n, h1, h⟩ := h
    rw [bind_sp, bind_done_iff] at h
    obtain ⟨r2, x, h2, h⟩ := h
    rw [ret_done_iff] at h
    obtain ⟨rfl, rfl⟩ := h
    obtain ⟨b, ds, b', hb, hd, hb', hmax, rfl, rfl⟩ := integer_done h1
    obtain ⟨b2, hb2, eb⟩ := split_blanks r1
    have e2 := tag_done h2
    rw [e2] at eb
    subst eb
    refine ⟨_, .times hb hd (b := b' ++ b2) ?_ hmax, by simp⟩
    intro ch hc
    rw [List.mem_append] at hc
    rcases hc with hc | hc
    · exact hb' _ hc
    · exact hb2 _ hc

theorem iterator_done (c : Cfg) {iso : Iso} (hi : IsoSane iso) {i r : List Char} {it : PIterator}
    (h : iterator iso i = .done r it) :
    ∃ u n t, IterAt iso it.date u n it.until_ t r ∧ i = t ++ r ∧ it.spec.recur c = unitToAmount c n u ∧
      it.spec.number = n := by
  unfold iterator at h
  rw [bind_opt_sp, bind_done_iff] at h
  obtain ⟨r1, d, h1, h⟩ := h
  rw [bind_opt_sp, bind_done_iff] at h
  obtain ⟨r2, s, h2, h⟩ := h
  rw [bind_opt_sp, bind_done_iff] at h
  obtain ⟨r3, u, h3, h⟩ := h
  rw [ret_done_iff] at h
  obtain ⟨rfl, rfl⟩ := h
  obtain ⟨b0, hb0, e0⟩ := split_blanks i
  obtain ⟨b1, hb1, e1⟩ := split_blanks r1
  obtain ⟨b2, hb2, e2⟩ := split_blanks r2
  obtain ⟨dt, hd, ed⟩ := date_done hi h1
  obtain ⟨unit, n, st, hs, es, hr, hn⟩ := iterSpec_done c h2
  have hu : ∃ ut, BoundAt iso u ut r3 ∧ r2.dropWhile isSp = ut ++ r3 := by
    rw [opt_done_iff] at h3
    rcases h3 with ⟨a, rfl, h3⟩ | ⟨rfl, rfl, -⟩
    · rw [complete_done_iff] at h3
      exact untilSpec_done hi h3
    · exact ⟨[], .none _, rfl⟩
  obtain ⟨ut, hu, eu⟩ := hu
  rw [eu] at e2
  rw [es, e2] at e1
  rw [ed, e1] at e0
  rw [e1] at hd
  exact ⟨unit, n, _, .mk hb0 hd hb1 hs hb2 hu, by rw [e0]; simp, hr, hn⟩

theorem timetype_done {iso : Iso} (hi : IsoSane iso) {i r : List Char} {t : PTimeType} (h : timetype iso i = .done r t) :
    (∃ d tx, t = .date d ∧ DateAt iso d tx r ∧ i = tx ++ r) ∨ (∃ e tx, t = .amountExpr e ∧ ExprText e tx ∧ i = tx ++ r) := by
  unfold timetype Nom.alt at h
  split at h
  · unfold Nom.alt at h
    split at h
    · cases h
    · rw [bind_done_iff] at h
      obtain ⟨r', a, h1, h2⟩ := h
      rw [ret_done_iff] at h2
      obtain ⟨rfl, rfl⟩ := h2
      obtain ⟨tx, h3, h4⟩ := amountExpr_done h1
      exact .inr ⟨a, tx, rfl, h3, h4⟩
  · rw [bind_done_iff] at h
    obtain ⟨r', d, h1, h2⟩ := h
    rw [ret_done_iff] at h2
    obtain ⟨rfl, rfl⟩ := h2
    obtain ⟨tx, h3, h4⟩ := date_done hi h1
    exact .inl ⟨d, tx, rfl, h3, h4⟩

end Kairos.Parser
