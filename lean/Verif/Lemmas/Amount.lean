import Verif.Lemmas.EvalEqs
import Verif.Spec.Amount

/-! Evaluation of expressions made only of amounts. -/

set_option linter.unusedSimpArgs false

namespace Kairos
open Spec

/-- What machine arithmetic preserves: equality in `debug`, congruence mod 2^64 in `release`. -/
def Cfg.eqv (c : Cfg) (x y : Int) : Prop :=
  match c.profile with
  | .debug => x = y
  | .release => (18446744073709551616 : Int) ∣ x - y

theorem eqv_refl (c : Cfg) (x : Int) : c.eqv x x := by
  unfold Cfg.eqv; split <;> simp

theorem eqv_trans {c : Cfg} {x y z : Int} (h : c.eqv x y) (h' : c.eqv y z) : c.eqv x z := by
  unfold Cfg.eqv at *
  split at h <;> simp_all <;> omega

theorem eqv_add {c : Cfg} {x y x' y' : Int} (h : c.eqv x x') (h' : c.eqv y y') :
    c.eqv (x + y) (x' + y') := by
  unfold Cfg.eqv at *
  split at h <;> simp_all; omega

theorem eqv_sub {c : Cfg} {x y x' y' : Int} (h : c.eqv x x') (h' : c.eqv y y') :
    c.eqv (x - y) (x' - y') := by
  unfold Cfg.eqv at *
  split at h <;> simp_all; omega

theorem eqv_mul {c : Cfg} {x x' : Int} (k : Int) (h : c.eqv x x') :
    c.eqv (x * k) (x' * k) := by
  unfold Cfg.eqv at *
  split at h
  · rw [h]
  · rw [← Int.sub_mul]; exact Int.dvd_trans h (Int.dvd_mul_right _ _)

theorem wrap64_dvd (x : Int) : (18446744073709551616 : Int) ∣ wrap64 x - x := by
  unfold wrap64
  have h := Int.dvd_bmod_sub_self (x := x) (m := 18446744073709551616)
  simpa using h

theorem chk_eqv {ε : Type} (c : Cfg) (x : Int) :
    ((c.chk x : OutE ε Int) = .panic ∧ c.profile = .debug ∧ ¬ InI64 x) ∨
    ∃ v, (c.chk x : OutE ε Int) = .ok v ∧ InI64 v ∧ c.eqv v x := by
  unfold Cfg.chk
  by_cases h : InI64 x
  · simp [h, eqv_refl]
  · cases hp : c.profile
    · simp [h]
    · simp only [h, if_false]
      exact .inr ⟨_, rfl, wrap64_in x, by simp [Cfg.eqv, hp, wrap64_dvd]⟩

theorem mulL_eqv {ε : Type} (c : Cfg) (a : Int) (l : List Int) :
    ((c.mulL a l : OutE ε Int) = .panic ∧ c.profile = .debug) ∨
    ∃ v, (c.mulL a l : OutE ε Int) = .ok v ∧ c.eqv v (l.foldl (· * ·) a) := by
  induction l generalizing a with
  | nil => exact .inr ⟨a, rfl, eqv_refl ..⟩
  | cons k ks ih =>
    unfold Cfg.mulL Cfg.mul
    rcases chk_eqv (ε := ε) c (a * k) with ⟨h, hp, -⟩ | ⟨v, h, -, he⟩
    · simp [h, hp]
    · rcases ih v with ⟨h', hp⟩ | ⟨w, h', he'⟩
      · simp [h, h', hp]
      · refine .inr ⟨w, by simp [h, h'], eqv_trans he' ?_⟩
        clear h' he' ih h
        simp only [List.foldl_cons]
        generalize a * k = b at he
        induction ks generalizing v b with
        | nil => exact he
        | cons k' ks ih => exact ih _ _ (eqv_mul k' he)

/-- The finer of two units. -/
def finer (u v : TUnit) : TUnit := if u.secs ≤ v.secs then u else v

/-- How many of the unit `v` make up one `u` (used only when `v` is finer). -/
def fac (u v : TUnit) : Int := u.secs / v.secs

/-- The count of an amount tree in its finest unit. -/
def cnt : AmtTree → Int
  | .amt _ n => n
  | .plus a b => cnt a * fac a.finest (finer a.finest b.finest) + cnt b * fac b.finest (finer a.finest b.finest)
  | .minus a b => cnt a * fac a.finest (finer a.finest b.finest) - cnt b * fac b.finest (finer a.finest b.finest)

theorem fac_finer_left (u v : TUnit) : fac u (finer u v) * (finer u v).secs = u.secs := by
  cases u <;> cases v <;> decide
theorem fac_finer_right (u v : TUnit) : fac v (finer u v) * (finer u v).secs = v.secs := by
  cases u <;> cases v <;> decide

theorem finest_plus (a b : AmtTree) : (AmtTree.plus a b).finest = finer a.finest b.finest := rfl
theorem finest_minus (a b : AmtTree) : (AmtTree.minus a b).finest = finer a.finest b.finest := rfl

theorem cnt_secs (t : AmtTree) : cnt t * t.finest.secs = t.secs := by
  induction t with
  | amt u n => rfl
  | plus a b iha ihb =>
    simp only [cnt, finest_plus, AmtTree.secs, Int.add_mul, Int.mul_assoc, fac_finer_left,
      fac_finer_right, iha, ihb]
  | minus a b iha ihb =>
    simp only [cnt, finest_minus, AmtTree.secs, Int.sub_mul, Int.mul_assoc, fac_finer_left,
      fac_finer_right, iha, ihb]

/-- The outcome represents `x` units of `u`, up to what machine arithmetic preserves. -/
def Rep (c : Cfg) (r : Out TT) (u : TUnit) (x : Int) : Prop :=
  (r = .panic ∧ c.profile = .debug) ∨ ∃ k, r = .ok (amt u k) ∧ c.eqv k x

theorem Rep.of_eqv {c : Cfg} {r : Out TT} {u : TUnit} {x y : Int} (h : Rep c r u x) (hxy : c.eqv x y) :
    Rep c r u y := by
  rcases h with h | ⟨k, h, hk⟩
  · exact .inl h
  · exact .inr ⟨k, h, eqv_trans hk hxy⟩

/-- One arm of an `add_to_*`/`sub_from_*` table. -/
theorem Rep.arm {c : Cfg} (u : TUnit) (f : Out Int) {x : Int}
    (h : (f = .panic ∧ c.profile = .debug) ∨ ∃ v, f = .ok v ∧ c.eqv v x) :
    Rep c (f >>= fun r => .ok (amt u r)) u x := by
  rcases h with ⟨h, hp⟩ | ⟨v, h, hv⟩
  · exact .inl ⟨by simp [h], hp⟩
  · exact .inr ⟨v, by simp [h], hv⟩

theorem arm_bind {c : Cfg} {f : Out Int} {g : Int → Out Int} {x y : Int}
    (h : (f = .panic ∧ c.profile = .debug) ∨ ∃ v, f = .ok v ∧ c.eqv v x)
    (hg : ∀ v, c.eqv v x → (g v = .panic ∧ c.profile = .debug) ∨ ∃ w, g v = .ok w ∧ c.eqv w y) :
    (((f >>= g) = .panic) ∧ c.profile = .debug) ∨ ∃ w, (f >>= g) = .ok w ∧ c.eqv w y := by
  rcases h with ⟨h, hp⟩ | ⟨v, h, hv⟩
  · exact .inl ⟨by simp [h], hp⟩
  · simpa [h] using hg v hv

theorem chk_arm (c : Cfg) {x y : Int} (h : c.eqv x y) :
    ((c.chk x : Out Int) = .panic ∧ c.profile = .debug) ∨ ∃ v, (c.chk x : Out Int) = .ok v ∧ c.eqv v y := by
  rcases chk_eqv (ε := ErrorKind) c x with ⟨h1, h2, -⟩ | ⟨v, h1, -, h2⟩
  · exact .inl ⟨h1, h2⟩
  · exact .inr ⟨v, h1, eqv_trans h2 h⟩

/-- The evaluator's unit index of a unit. -/
def _root_.Spec.TUnit.idx : TUnit → AmtUnit
  | .second => .seconds
  | .minute => .minutes
  | .hour => .hours
  | .day => .days
  | .month => .months
  | .year => .years

theorem rep_arm0 {c : Cfg} {u : TUnit} {z x : Int} (K : Int → TT) (hK : ∀ r, K r = amt u r) (h : z = x) :
    Rep c (do let r ← c.chk z; .ok (K r)) u x := by
  simp only [hK]
  exact Rep.arm u _ (chk_arm c (h ▸ eqv_refl c z))

theorem rep_arm_add_l {c : Cfg} {u : TUnit} {a b x : Int} {l : List Int} (K : Int → TT)
    (hK : ∀ r, K r = amt u r) (h : l.foldl (· * ·) a + b = x) :
    Rep c (do let p ← c.mulL a l; let r ← c.chk (p + b); .ok (K r)) u x := by
  simp only [hK]
  rw [← OutE.bind_assoc']
  refine Rep.arm u _ (arm_bind (mulL_eqv c a l) fun v hv => chk_arm c ?_)
  rw [← h]; exact eqv_add hv (eqv_refl ..)

theorem rep_arm_add_r {c : Cfg} {u : TUnit} {a b x : Int} {l : List Int} (K : Int → TT)
    (hK : ∀ r, K r = amt u r) (h : b + l.foldl (· * ·) a = x) :
    Rep c (do let p ← c.mulL a l; let r ← c.chk (b + p); .ok (K r)) u x := by
  simp only [hK]
  rw [← OutE.bind_assoc']
  refine Rep.arm u _ (arm_bind (mulL_eqv c a l) fun v hv => chk_arm c ?_)
  rw [← h]; exact eqv_add (eqv_refl ..) hv

theorem rep_arm_sub_l {c : Cfg} {u : TUnit} {a b x : Int} {l : List Int} (K : Int → TT)
    (hK : ∀ r, K r = amt u r) (h : l.foldl (· * ·) a - b = x) :
    Rep c (do let p ← c.mulL a l; let r ← c.chk (p - b); .ok (K r)) u x := by
  simp only [hK]
  rw [← OutE.bind_assoc']
  refine Rep.arm u _ (arm_bind (mulL_eqv c a l) fun v hv => chk_arm c ?_)
  rw [← h]; exact eqv_sub hv (eqv_refl ..)

theorem rep_arm_sub_r {c : Cfg} {u : TUnit} {a b x : Int} {l : List Int} (K : Int → TT)
    (hK : ∀ r, K r = amt u r) (h : b - l.foldl (· * ·) a = x) :
    Rep c (do let p ← c.mulL a l; let r ← c.chk (b - p); .ok (K r)) u x := by
  simp only [hK]
  rw [← OutE.bind_assoc']
  refine Rep.arm u _ (arm_bind (mulL_eqv c a l) fun v hv => chk_arm c ?_)
  rw [← h]; exact eqv_sub (eqv_refl ..) hv

/-- Closes one arm of the addition tables. -/
macro "rep_arm_add" : tactic => `(tactic| (
  first
  | with_reducible refine rep_arm0 _ (fun _ => ?_) ?_
  | with_reducible refine rep_arm_add_l _ (fun _ => ?_) ?_
  | with_reducible refine rep_arm_add_r _ (fun _ => ?_) ?_
  · rfl
  · simp [List.foldl, finer, fac, TUnit.secs]; try omega))

/-- Closes one arm of the subtraction tables. -/
macro "rep_arm_sub" : tactic => `(tactic| (
  first
  | with_reducible refine rep_arm0 _ (fun _ => ?_) ?_
  | with_reducible refine rep_arm_sub_l _ (fun _ => ?_) ?_
  | with_reducible refine rep_arm_sub_r _ (fun _ => ?_) ?_
  · rfl
  · simp [List.foldl, finer, fac, TUnit.secs]; try omega))

theorem exec_addTo_amt_rep (c : Cfg) (u v : TUnit) (n k : Int) :
    Rep c (exec c (.addTo u.idx n (amt v k))) (finer u v)
      (n * fac u (finer u v) + k * fac v (finer u v)) := by
  cases u <;> cases v <;>
    simp only [Spec.TUnit.idx, amt, exec_addTo_seconds, exec_addTo_minutes, exec_addTo_hours,
      exec_addTo_days, exec_addTo_months, exec_addTo_years, Eval.addToSeconds, Eval.addToMinutes,
      Eval.addToHours, Eval.addToDays, Eval.addToMonths, Eval.addToYears, Cfg.add] <;>
    rep_arm_add

theorem exec_subFrom_amt_rep (c : Cfg) (u v : TUnit) (n k : Int) :
    Rep c (exec c (.subFrom u.idx n (amt v k))) (finer u v)
      (n * fac u (finer u v) - k * fac v (finer u v)) := by
  cases u <;> cases v <;>
    simp only [Spec.TUnit.idx, amt, exec_subFrom_seconds, exec_subFrom_minutes, exec_subFrom_hours,
      exec_subFrom_days, exec_subFrom_months, exec_subFrom_years, Eval.subFromSeconds,
      Eval.subFromMinutes, Eval.subFromHours, Eval.subFromDays, Eval.subFromMonths,
      Eval.subFromYears, Cfg.sub] <;>
    rep_arm_sub

/-- `t` is an amount or a sum/difference (not a moment, not an end-of marker). -/
theorem toTT_cases (t : AmtTree) :
    (∃ u n, t = .amt u n) ∨ (∃ a b, t = .plus a b) ∨ (∃ a b, t = .minus a b) := by
  cases t <;> simp

theorem exec_add_amt (c : Cfg) (u : TUnit) (n : Int) (t : AmtTree) :
    exec c (.add (amt u n) t.toTT) = exec c (.addTo u.idx n t.toTT) := by
  rw [exec_add]
  rcases t with ⟨v, k⟩ | ⟨a, b⟩ | ⟨a, b⟩
  · cases u <;> cases v <;> rfl
  · cases u <;> rfl
  · cases u <;> rfl

theorem exec_sub_amt (c : Cfg) (u : TUnit) (n : Int) (t : TT) :
    exec c (.sub (amt u n) t) = exec c (.subFrom u.idx n t) := by
  rw [exec_sub]
  cases u <;> cases t <;> rfl

theorem exec_addTo_plus (c : Cfg) (u : TUnit) (n : Int) (a b : TT) :
    exec c (.addTo u.idx n (.addition a b)) =
      (do let r ← exec c (.add a b); exec c (.addTo u.idx n r)) := by
  cases u <;> exact exec_unfold ..

theorem exec_addTo_minus (c : Cfg) (u : TUnit) (n : Int) (a b : TT) :
    exec c (.addTo u.idx n (.subtraction a b)) =
      (do let r ← exec c (.sub a b); exec c (.addTo u.idx n r)) := by
  cases u <;> exact exec_unfold ..

theorem exec_subFrom_plus (c : Cfg) (u : TUnit) (n : Int) (a b : TT) :
    exec c (.subFrom u.idx n (.addition a b)) =
      (do let r ← exec c (.add a b); exec c (.subFrom u.idx n r)) := by
  cases u <;> exact exec_unfold ..

theorem exec_subFrom_minus (c : Cfg) (u : TUnit) (n : Int) (a b : TT) :
    exec c (.subFrom u.idx n (.subtraction a b)) =
      (do let r ← exec c (.sub a b); exec c (.subFrom u.idx n r)) := by
  cases u <;> exact exec_unfold ..

theorem exec_add_plus (c : Cfg) (a b : TT) (t : AmtTree) :
    exec c (.add (.addition a b) t.toTT) =
      (do let r ← exec c (.add a b); exec c (.add r t.toTT)) := by
  rw [exec_add]
  rcases t with ⟨v, k⟩ | ⟨a, b⟩ | ⟨a, b⟩
  · cases v <;> rfl
  · rfl
  · rfl

theorem exec_add_minus (c : Cfg) (a b : TT) (t : AmtTree) (h : ∀ x y, t ≠ .plus x y) :
    exec c (.add (.subtraction a b) t.toTT) =
      (do let r ← exec c (.sub a b); exec c (.add t.toTT r)) := by
  rw [exec_add]
  rcases t with ⟨v, k⟩ | ⟨a, b⟩ | ⟨a, b⟩
  · cases v <;> rfl
  · exact absurd rfl (h a b)
  · rfl

theorem exec_add_minus_plus (c : Cfg) (a b x y : TT) :
    exec c (.add (.subtraction a b) (.addition x y)) =
      (do let r ← exec c (.add x y); exec c (.add (.subtraction a b) r)) := by
  rw [exec_add]; rfl

theorem exec_sub_plus (c : Cfg) (a b : TT) (t : AmtTree) (h : ∀ x y, t ≠ .minus x y) :
    exec c (.sub (.addition a b) t.toTT) =
      (do let r ← exec c (.add a b); exec c (.sub r t.toTT)) := by
  rw [exec_sub]
  rcases t with ⟨v, k⟩ | ⟨a, b⟩ | ⟨a, b⟩
  · cases v <;> rfl
  · rfl
  · exact absurd rfl (h a b)

theorem exec_sub_plus_minus (c : Cfg) (a b x y : TT) :
    exec c (.sub (.addition a b) (.subtraction x y)) =
      (do let r ← exec c (.sub x y); exec c (.sub (.addition a b) r)) := by
  rw [exec_sub]; rfl

theorem exec_sub_minus (c : Cfg) (a b t : TT) :
    exec c (.sub (.subtraction a b) t) =
      (do let r ← exec c (.sub a b); exec c (.sub r t)) := by
  rw [exec_sub]
  cases t <;> rfl

/-- Number of nodes. -/
def nodes : AmtTree → Nat
  | .amt _ _ => 1
  | .plus a b => nodes a + nodes b + 1
  | .minus a b => nodes a + nodes b + 1

theorem nodes_pos (t : AmtTree) : 1 ≤ nodes t := by cases t <;> simp [nodes]

theorem finer_comm (u v : TUnit) : finer u v = finer v u := by cases u <;> cases v <;> decide

theorem Rep.bind {c : Cfg} {r : Out TT} {u u' : TUnit} {x y : Int} {f : TT → Out TT}
    (h : Rep c r u x) (hf : ∀ k, c.eqv k x → Rep c (f (amt u k)) u' y) : Rep c (r >>= f) u' y := by
  rcases h with ⟨h, hp⟩ | ⟨k, h, hk⟩
  · exact .inl ⟨by simp [h], hp⟩
  · simpa [h] using hf k hk

theorem exec_amt_rep (c : Cfg) (N : Nat) : ∀ a b : AmtTree, nodes a + nodes b ≤ N →
    Rep c (exec c (.add a.toTT b.toTT)) (AmtTree.plus a b).finest (cnt (.plus a b)) ∧
    Rep c (exec c (.sub a.toTT b.toTT)) (AmtTree.minus a b).finest (cnt (.minus a b)) := by
  induction N with
  | zero => intro a b h; have := nodes_pos a; omega
  | succ N ih =>
    intro a b h
    have pa := nodes_pos a
    have pb := nodes_pos b
    constructor
    · -- add
      rcases toTT_cases a with ⟨u, n, rfl⟩ | ⟨a1, a2, rfl⟩ | ⟨a1, a2, rfl⟩
      · -- amount on the left
        show Rep c (exec c (.add (amt u n) b.toTT)) _ _
        rw [exec_add_amt]
        rcases toTT_cases b with ⟨v, k, rfl⟩ | ⟨b1, b2, rfl⟩ | ⟨b1, b2, rfl⟩
        · exact exec_addTo_amt_rep c u v n k
        · show Rep c (exec c (.addTo _ _ (.addition _ _))) _ _
          rw [exec_addTo_plus]
          refine Rep.bind (ih b1 b2 (by simp [nodes] at *; omega)).1 fun k hk => ?_
          exact (exec_addTo_amt_rep c u _ n k).of_eqv (eqv_add (eqv_refl ..) (eqv_mul _ hk))
        · show Rep c (exec c (.addTo _ _ (.subtraction _ _))) _ _
          rw [exec_addTo_minus]
          refine Rep.bind (ih b1 b2 (by simp [nodes] at *; omega)).2 fun k hk => ?_
          exact (exec_addTo_amt_rep c u _ n k).of_eqv (eqv_add (eqv_refl ..) (eqv_mul _ hk))
      · show Rep c (exec c (.add (.addition _ _) b.toTT)) _ _
        rw [exec_add_plus]
        have p1 := nodes_pos a1
        refine Rep.bind (ih a1 a2 (by simp [nodes] at *; omega)).1 fun k hk => ?_
        exact (ih (.amt _ k) b (by simp [nodes] at *; omega)).1.of_eqv
          (eqv_add (eqv_mul _ hk) (eqv_refl ..))
      · have p1 := nodes_pos a1
        by_cases hb : ∃ x y, b = .plus x y
        · obtain ⟨x, y, rfl⟩ := hb
          have px := nodes_pos x
          show Rep c (exec c (.add (.subtraction _ _) (.addition _ _))) _ _
          rw [exec_add_minus_plus]
          refine Rep.bind (ih x y (by simp [nodes] at *; omega)).1 fun k hk => ?_
          exact (ih (.minus a1 a2) (.amt _ k) (by simp [nodes] at *; omega)).1.of_eqv
            (eqv_add (eqv_refl ..) (eqv_mul _ hk))
        · show Rep c (exec c (.add (.subtraction _ _) b.toTT)) _ _
          rw [exec_add_minus c _ _ _ (fun x y e => hb ⟨x, y, e⟩)]
          refine Rep.bind (ih a1 a2 (by simp [nodes] at *; omega)).2 fun k hk => ?_
          have := (ih b (.amt (AmtTree.minus a1 a2).finest k) (by simp [nodes] at *; omega)).1
          rw [finest_plus, finer_comm] at this
          refine Rep.of_eqv this ?_
          simp only [cnt]
          rw [finer_comm, Int.add_comm]
          exact eqv_add (eqv_mul _ hk) (eqv_refl ..)
    · rcases toTT_cases a with ⟨u, n, rfl⟩ | ⟨a1, a2, rfl⟩ | ⟨a1, a2, rfl⟩
      · show Rep c (exec c (.sub (amt u n) b.toTT)) _ _
        rw [exec_sub_amt]
        rcases toTT_cases b with ⟨v, k, rfl⟩ | ⟨b1, b2, rfl⟩ | ⟨b1, b2, rfl⟩
        · exact exec_subFrom_amt_rep c u v n k
        · show Rep c (exec c (.subFrom _ _ (.addition _ _))) _ _
          rw [exec_subFrom_plus]
          refine Rep.bind (ih b1 b2 (by simp [nodes] at *; omega)).1 fun k hk => ?_
          exact (exec_subFrom_amt_rep c u _ n k).of_eqv (eqv_sub (eqv_refl ..) (eqv_mul _ hk))
        · show Rep c (exec c (.subFrom _ _ (.subtraction _ _))) _ _
          rw [exec_subFrom_minus]
          refine Rep.bind (ih b1 b2 (by simp [nodes] at *; omega)).2 fun k hk => ?_
          exact (exec_subFrom_amt_rep c u _ n k).of_eqv (eqv_sub (eqv_refl ..) (eqv_mul _ hk))
      · have p1 := nodes_pos a1
        by_cases hb : ∃ x y, b = .minus x y
        · obtain ⟨x, y, rfl⟩ := hb
          have px := nodes_pos x
          show Rep c (exec c (.sub (.addition _ _) (.subtraction _ _))) _ _
          rw [exec_sub_plus_minus]
          refine Rep.bind (ih x y (by simp [nodes] at *; omega)).2 fun k hk => ?_
          exact (ih (.plus a1 a2) (.amt _ k) (by simp [nodes] at *; omega)).2.of_eqv
            (eqv_sub (eqv_refl ..) (eqv_mul _ hk))
        · show Rep c (exec c (.sub (.addition _ _) b.toTT)) _ _
          rw [exec_sub_plus c _ _ _ (fun x y e => hb ⟨x, y, e⟩)]
          refine Rep.bind (ih a1 a2 (by simp [nodes] at *; omega)).1 fun k hk => ?_
          exact (ih (.amt _ k) b (by simp [nodes] at *; omega)).2.of_eqv
            (eqv_sub (eqv_mul _ hk) (eqv_refl ..))
      · show Rep c (exec c (.sub (.subtraction _ _) b.toTT)) _ _
        rw [exec_sub_minus]
        have p1 := nodes_pos a1
        refine Rep.bind (ih a1 a2 (by simp [nodes] at *; omega)).2 fun k hk => ?_
        exact (ih (.amt _ k) b (by simp [nodes] at *; omega)).2.of_eqv
          (eqv_sub (eqv_mul _ hk) (eqv_refl ..))

/-- Every amount expression evaluates to its count in its finest unit, or panics (debug). -/
theorem calculate_amt_rep (c : Cfg) (t : AmtTree) :
    Rep c (calculate c t.toTT) t.finest (cnt t) := by
  rcases toTT_cases t with ⟨u, n, rfl⟩ | ⟨a, b, rfl⟩ | ⟨a, b, rfl⟩
  · exact .inr ⟨n, by rw [calculate_leaf]; rfl; cases u <;> rfl, eqv_refl ..⟩
  · show Rep c (calculate c (a.toTT + b.toTT)) _ _
    rw [calculate_add]; exact (exec_amt_rep c _ a b (Nat.le_refl _)).1
  · show Rep c (calculate c (a.toTT - b.toTT)) _ _
    rw [calculate_sub]; exact (exec_amt_rep c _ a b (Nat.le_refl _)).2

end Kairos
