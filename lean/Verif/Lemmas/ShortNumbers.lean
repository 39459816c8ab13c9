import Verif.Lemmas.ParserSafe

/-! A way to check `ShortNumbers` by computation. -/

namespace Kairos.Parser
open Spec

/-- The longest run of digits is at most `k`: a way to check `ShortNumbers`. -/
def maxRun : Nat → List Char → Nat
  | n, [] => n
  | n, ch :: cs => if ch ∈ "0123456789".toList then maxRun (n + 1) cs else max n (maxRun 0 cs)

theorem maxRun_ge (s : List Char) : ∀ n, n ≤ maxRun n s := by
  induction s with
  | nil => intro n; simp [maxRun]
  | cons ch cs ih =>
    intro n
    simp only [maxRun]
    split
    · have := ih (n + 1); omega
    · omega

theorem maxRun_run (ds q : List Char) (h : ∀ ch ∈ ds, ch ∈ "0123456789".toList) : ∀ n, n + ds.length ≤ maxRun n (ds ++ q) := by
  induction ds with
  | nil => intro n; simpa using maxRun_ge q n
  | cons d ds ih =>
    intro n
    have := ih (fun ch hc => h ch (by simp [hc])) (n + 1)
    simp only [List.cons_append, maxRun, if_pos (h d (by simp)), List.length_cons]
    omega

theorem maxRun_mono (s : List Char) : ∀ n, maxRun 0 s ≤ maxRun n s := by
  suffices ∀ n m, n ≤ m → maxRun n s ≤ maxRun m s from fun n => this 0 n (by omega)
  induction s with
  | nil => intro n m h; simpa [maxRun] using h
  | cons ch cs ih =>
    intro n m h
    simp only [maxRun]
    split
    · exact ih _ _ (by omega)
    · omega

theorem maxRun_suffix (p s : List Char) : ∀ n, maxRun 0 s ≤ maxRun n (p ++ s) := by
  induction p with
  | nil => intro n; exact maxRun_mono s n
  | cons ch p ih =>
    intro n
    simp only [List.cons_append, maxRun]
    split
    · exact ih _
    · have := ih 0; omega

theorem shortNumbers_of_maxRun {k : Nat} {s : List Char} (h : maxRun 0 s ≤ k) : ShortNumbers k s := by
  rintro p ds q rfl hd
  have h1 := maxRun_run ds q hd.2 0
  have h2 := maxRun_suffix p (ds ++ q) 0
  rw [List.append_assoc] at h
  omega

theorem bind_ok_inv {ε α β : Type} {x : OutE ε α} {f : α → OutE ε β} {b : β} (h : (x >>= f) = .ok b) :
    ∃ a, x = .ok a ∧ f a = .ok b := by
  cases x with
  | ok a => exact ⟨a, rfl, h⟩
  | err e => cases h
  | panic => cases h
  | oof => cases h

end Kairos.Parser
