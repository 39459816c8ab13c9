import Verif.Source.RustMain
import Verif.Source.Parser

/-! Generated from examples/main.rs by tools/txt2lean.py; do not edit. -/

set_option linter.all false
set_option autoImplicit false

namespace Kairos.Source


/-- `main` — examples/main.rs:18-42. -/
def main (cfg : Cfg) (iso : Kairos.Parser.Iso) (amount_expr : Nom.P Kairos.Parser.AmountExpr) (now now' : Moment) (rounds : Nat)
    (args : List (List Char)) : Rs.Prog :=
  let s := Rs.fold args [] (fun acc obj => acc ++ text! " " ++ obj)
  let s := Main.trim s
  Rs.onResult (Source.Parser.parse cfg iso amount_expr now now' s) (fun r => match r with
  | .error e => Rs.println ((Rs.errorDebug ErrorKind.debug e).map (text! "Error -> " ++ ·))
  | .ok (.timeType tt) => Rs.onResult (TimeType.calculate cfg tt) (fun r => match r with
    | .ok r => Rs.println (some (pretty_print r))
    | .error e => Rs.println ((Rs.errorDebug ErrorKind.debug e).map (text! "Error calculating: " ++ ·)))
  | .ok (.iterator (.ok ui)) => Rs.forIn (Source.Parser.UserIterator.next cfg) (fun elem =>
    match elem with
      | .ok r => Rs.println (some (pretty_print r))
      | .error e => Rs.andThen (Rs.println ((Rs.errorDebug ErrorKind.debug e).map (text! "Error calculating: " ++ ·))) (Rs.exit1)) rounds ui
  | .ok (.iterator (.error e)) => Rs.println ((Rs.errorDebug ErrorKind.debug e).map (text! "Failed building iterator: " ++ ·)))

end Kairos.Source
