import Verif.Spec.Amount

/-!
# Specification: chains `m ± a₁ ± a₂ ± …` and doing them step by step
-/

namespace Spec
open Kairos

/-- The range of years of current chrono releases, for concrete examples. -/
def std (p : Profile) : Cfg := ⟨p, -262144, 262143⟩

/-- What is assumed of chrono's range of years in theorems that need it: it is not wider than a
million years each way (chrono's is about ±262 000), so every year in it is an `i32`. -/
def Sane (c : Cfg) : Prop :=
  -1000000 ≤ c.minYear ∧ c.minYear ≤ c.maxYear ∧ c.maxYear ≤ 1000000

instance (c : Cfg) : Decidable (Sane c) := by unfold Sane; infer_instance

theorem sane_std (p : Profile) : Sane (std p) := by cases p <;> decide

/-- `+` or `-`. -/
inductive Op where
  | plus | minus
deriving DecidableEq, Repr

/-- The library expression `x op y`. -/
def Op.app : Op → TT → TT → TT
  | .plus, x, y => x + y
  | .minus, x, y => x - y

/-- The expression `(((x op₁ a₁) op₂ a₂) …)`. -/
def chain (x : TT) (steps : List (Op × TT)) : TT :=
  steps.foldl (fun e s => s.1.app e s.2) x

/-- Evaluating after every step: start with the value `x`, and each time calculate
"value so far `op` next operand". -/
def stepwise (c : Cfg) (x : TT) (steps : List (Op × TT)) : Out TT :=
  steps.foldl (fun r s => do let v ← r; calculate c (s.1.app v s.2)) (.ok x)

/-- A moment with whole seconds. -/
def at_ (y mo d h mi s : Int) : Moment := ⟨y, mo, d, h, mi, s, 0⟩

end Spec
