import Verif.Source.IterBuild
import Verif.Source.RustIter

/-! Generated from src/iter.rs by tools/rs2lean.py; do not edit. The translation of each construct is
described in `Verif/Source/Rust.lean`. -/

set_option linter.all false
set_option autoImplicit false

namespace Kairos.Source

/-- `fn recalculate` of `Iter` — src/iter.rs:56-63. -/
def Iter.recalculate (cfg : Cfg) : Rs.M Iter (Except ErrorKind Unit) := do
  let t1 := (← get).base
  let t2 ← Rs.result (TimeType.calculate cfg t1)
  let t3 ← Rs.exMap t2 (fun res => do
      modify fun s => { s with base := res }
      pure ()
    )
  pure t3

/-- `fn skip` of `Iter` — src/iter.rs:45-48. -/
def Iter.skip (cfg : Cfg) : Rs.M Iter (Except ErrorKind Unit) := do
  let t1 := (← get).increment
  let t2 := (← get).base
  let t3 ← Rs.value (TimeType.add_assign cfg t2 t1)
  modify fun s => { s with base := t3 }
  let t4 ← Iter.recalculate cfg
  pure t4

/-- `fn rollback` of `Iter` — src/iter.rs:51-54. -/
def Iter.rollback (cfg : Cfg) : Rs.M Iter (Except ErrorKind Unit) := do
  let t1 := (← get).increment
  let t2 := (← get).base
  let t3 ← Rs.value (TimeType.sub_assign cfg t2 t1)
  modify fun s => { s with base := t3 }
  let t4 ← Iter.recalculate cfg
  pure t4

/-- `fn next` of `Iter` — src/iter.rs:80-87. -/
def Iter.next (cfg : Cfg) : Rs.M Iter (Option (Except ErrorKind TT)) := do
  let t1 := (← get).hadFirst
  let t6 ← (if (!t1) then do
      modify fun s => { s with hadFirst := true }
      let t2 := (← get).base
      pure (some (Except.ok t2))
    else do
      let t3 ← Iter.skip cfg
      let t5 ← Rs.exMap t3 (fun _ => do
          let t4 := (← get).base
          pure t4
        )
      pure (some t5)
    )
  pure t6

/-- `fn next` of `TimesIter` — src/iter.rs:262-269. -/
def TimesIter.next {I : Type} (cfg : Cfg) (next : Rs.M I (Option (Except ErrorKind TT))) : Rs.M (TimesState I) (Option (Except ErrorKind TT)) := do
  let t1 := (← get).times
  let t2 := (← get).count
  let t6 ← (if (t1 == t2) then do
      pure none
    else do
      let t3 := (← get).count
      let t4 ← Rs.value (cfg.add t3 1 : Out Int)
      modify fun s => { s with count := t4 }
      let t5 ← Rs.zoom (fun s => s.inner) (fun s i => { s with inner := i }) next
      pure t5
    )
  pure t6

/-- `fn next` of `UntilIter` — src/iter.rs:204-221. -/
def UntilIter.next {I : Type} (cfg : Cfg) (next : Rs.M I (Option (Except ErrorKind TT))) : Rs.M (I × Moment) (Option (Except ErrorKind TT)) := do
  let t1 ← Rs.zoom (fun s => s.1) (fun s i => (i, s.2)) next
  let t11 ← (match t1 with
    | .none => do
        pure none
    | (.some (.error e)) => do
        pure (some (Except.error e))
    | (.some (.ok tt)) => do
        let t2 ← Rs.result (TimeType.calculate cfg tt)
        let t10 ← (match t2 with
          | (.error e) => do
              pure (some (Except.error e))
          | (.ok tt) => do
              let t3 ← Rs.value (TimeType.is_moment cfg tt)
              let t9 ← (if t3 then do
                  let t4 ← Rs.value (TimeType.get_moment cfg tt)
                  let t5 ← Rs.unwrap t4
                  let t6 := (← get).2
                  let t7 ← (if (Moment.lt t5 t6) then do
                      pure (some (Except.ok tt))
                    else do
                      pure none
                    )
                  pure t7
                else do
                  let t8 ← Rs.value (TimeType.name cfg tt)
                  pure (some (Except.error (.argumentErrorNotAMoment t8)))
                )
              pure t9
          )
        pure t10
    )
  pure t11

/-- `fn next` of `WithoutIter` — src/iter.rs:159-171. -/
def WithoutIter.next {I : Type} (cfg : Cfg) (next : Rs.M I (Option (Except ErrorKind TT))) : Rs.M (I × (TT → Out Bool)) (Option (Except ErrorKind TT)) := do
  let t5 ← Rs.loop (do
      let t1 ← Rs.zoom (fun s => s.1) (fun s i => (i, s.2)) next
      (match t1 with
        | .none => do
            pure (some none)
        | (.some (.error e)) => do
            pure (some (some (Except.error e)))
        | (.some (.ok tt)) => do
            let t2 ← Rs.result (((← get).2) tt)
            (match t2 with
              | (.ok false) => do
                  pure (some (some (Except.ok tt)))
              | (.ok true) => do
                  pure none
              | (.error e) => do
                  pure (some (some (Except.error e)))
              )
        )
    )
  pure t5

/-- `fn next` of `FilterIter` — src/iter.rs:111-123. -/
def FilterIter.next {I : Type} (cfg : Cfg) (next : Rs.M I (Option (Except ErrorKind TT))) : Rs.M (I × (TT → Out Bool)) (Option (Except ErrorKind TT)) := do
  let t5 ← Rs.loop (do
      let t1 ← Rs.zoom (fun s => s.1) (fun s i => (i, s.2)) next
      (match t1 with
        | .none => do
            pure (some none)
        | (.some (.error e)) => do
            pure (some (some (Except.error e)))
        | (.some (.ok tt)) => do
            let t2 ← Rs.result (((← get).2) tt)
            (match t2 with
              | (.ok false) => do
                  pure none
              | (.ok true) => do
                  pure (some (some (Except.ok tt)))
              | (.error e) => do
                  pure (some (some (Except.error e)))
              )
        )
    )
  pure t5

end Kairos.Source
