import Verif.Model.Traced
import Verif.Model.Iter

/-!
# `Iter::next` once more, with the calls made in it

`Props/Effort.lean` proves that it returns what `Iter.next` of `Model/Iter.lean` returns.
-/

namespace Kairos.Traced

/-- `Iter::next` — src/iter.rs:80-87, with `skip` and `recalculate` (src/iter.rs:45-48, 56-63): the state and the item, and the calls of the
functions of src/timetype.rs:454-1180 made for it, nested at most `depth` deep (the code has no bound). -/
def next (c : Cfg) (depth : Nat) (it : Iter) : (Iter × Item) × List Call :=
  if !it.hadFirst then (({ it with hadFirst := true }, some (.ok it.base)), [])
  else
    let base := it.base + it.increment
    let r := call (run c depth) (.calculate base)
    match r.out with
    | .ok v => (({ it with base := v }, some (.ok v)), r.made)
    | .err e => (({ it with base := base }, some (.err e)), r.made)
    | .panic => (({ it with base := base }, some .panic), r.made)
    | .oof => (({ it with base := base }, some .oof), r.made)

end Kairos.Traced
