import Verif.Source.RustParser
import Verif.Source.Adaptors

/-! Generated from src/parser by tools/nom2lean.py; do not edit. The translation of each construct is
described in `Verif/Source/RustParser.lean`. -/

set_option linter.all false
set_option autoImplicit false

namespace Kairos.Source.Parser

open Kairos.Parser

/-- `fn into` of `UnitAlias` — src/parser/timetype.rs:74-84. -/
def UnitAlias.into (self : UnitAlias) : TimeUnit :=
  match self with
  | (.secondly) => (TimeUnit.second)
  | (.minutely) => (TimeUnit.minute)
  | (.hourly) => (TimeUnit.hour)
  | (.daily) => (TimeUnit.day)
  | (.weekly) => (TimeUnit.week)
  | (.monthly) => (TimeUnit.month)
  | (.yearly) => (TimeUnit.year)

/-- `fn into_timetype` of `Amount` — src/parser/timetype.rs:117-127. -/
def Amount.into_timetype (cfg : Cfg) (self : Amount) : Out TT := do
  let t8 ← (match self.unit with
    | (.second) => do
        let t1 ← TimeType.seconds cfg self.number
        .ok t1
    | (.minute) => do
        let t2 ← TimeType.minutes cfg self.number
        .ok t2
    | (.hour) => do
        let t3 ← TimeType.hours cfg self.number
        .ok t3
    | (.day) => do
        let t4 ← TimeType.days cfg self.number
        .ok t4
    | (.week) => do
        let t5 ← TimeType.weeks cfg self.number
        .ok t5
    | (.month) => do
        let t6 ← TimeType.months cfg self.number
        .ok t6
    | (.year) => do
        let t7 ← TimeType.years cfg self.number
        .ok t7
    )
  (.ok t8)

/-- `fn into_timetype` of `AmountExpr` — src/parser/timetype.rs:151-162. -/
def AmountExpr.into_timetype (cfg : Cfg) (self : AmountExpr) : Out TT := do
  let t1 ← (Amount.into_timetype cfg self.amount)
  let amount := t1
  let (amount) ← (match self.next with
    | (.some (op, other_amonut_expr)) => do
        let (amount) ← (match op with
          | (.plus) => do
              let t2 ← (AmountExpr.into_timetype cfg other_amonut_expr)
              let t3 ← TimeType.add cfg amount t2
              let amount := t3
              .ok (amount)
          | (.minus) => do
              let t4 ← (AmountExpr.into_timetype cfg other_amonut_expr)
              let t5 ← TimeType.sub cfg amount t4
              let amount := t5
              .ok (amount)
          )
        .ok (amount)
    | _ => .ok (amount)
    )
  (.ok amount)
partial_fixpoint

/-- `fn into_timetype` of `ExactDate` — src/parser/timetype.rs:187-252. -/
def ExactDate.into_timetype (cfg : Cfg) (now : Moment) (self : ExactDate) : Out TT := do
  (match self with
    | (.today) => do
        (.ok (TT.moment now))
    | (.yesterday) => do
        let t1 ← TimeType.days cfg 1
        let t2 ← TimeType.sub cfg (TT.moment now) t1
        (.ok t2)
    | (.tomorrow) => do
        let t3 ← TimeType.days cfg 1
        let t4 ← TimeType.add cfg (TT.moment now) t3
        (.ok t4)
    | (.iso8601Date date) => do
        (match date with
          | (.ymd year month day) => do
              (((OutE.ofOption (fromYmdOpt cfg year month day) (.outOfBounds year month day 0 0 0)) >>= (fun ndt => do
                  let t5 ← ndt.andHms 0 0 0
                  .ok t5
                )) >>= (TimeType.moment cfg))
          | (.week year ww d) => do
              ((((OutE.ofOption (fromYmdOpt cfg year 1 1) (.outOfBounds year 1 1 0 0 0)) >>= (fun ndt => do
                  let t6 ← ndt.andHms 0 0 0
                  .ok t6
                )) >>= (TimeType.moment cfg)) >>= (fun m => do
                  let t7 ← TimeType.weeks cfg ww
                  let t8 ← TimeType.add cfg m t7
                  let t9 ← TimeType.days cfg d
                  let t10 ← TimeType.add cfg t8 t9
                  .ok t10
                ))
          | (.ordinal year ddd) => do
              ((((OutE.ofOption (fromYmdOpt cfg year 1 1) (.outOfBounds year 1 1 0 0 0)) >>= (fun ndt => do
                  let t11 ← ndt.andHms 0 0 0
                  .ok t11
                )) >>= (TimeType.moment cfg)) >>= (fun m => do
                  let t12 ← TimeType.days cfg ddd
                  let t13 ← TimeType.add cfg m t12
                  .ok t13
                ))
          )
    | (.iso8601DateTime t14) => do
        let (hour, minute, second) := (t14.hour, t14.minute, t14.second)
        (match t14.date with
          | (.ymd year month day) => do
              let t15 ← Rs.optAndThen (fromYmdOpt cfg year month day) (fun ndt => .ok (ndt.andHmsOpt hour minute second))
              ((OutE.ofOption t15 (.outOfBounds year month day hour minute second)) >>= (TimeType.moment cfg))
          | (.week year ww d) => do
              ((((OutE.ofOption (fromYmdOpt cfg year 1 1) (.outOfBounds year 1 1 0 0 0)) >>= (fun ndt => do
                  let t16 ← ndt.andHms 0 0 0
                  .ok t16
                )) >>= (TimeType.moment cfg)) >>= (fun m => do
                  let t17 ← TimeType.weeks cfg ww
                  let t18 ← TimeType.add cfg m t17
                  let t19 ← TimeType.days cfg d
                  let t20 ← TimeType.add cfg t18 t19
                  let t21 ← TimeType.hours cfg hour
                  let t22 ← TimeType.add cfg t20 t21
                  let t23 ← TimeType.minutes cfg minute
                  let t24 ← TimeType.add cfg t22 t23
                  let t25 ← TimeType.seconds cfg second
                  let t26 ← TimeType.add cfg t24 t25
                  .ok t26
                ))
          | (.ordinal year ddd) => do
              ((((OutE.ofOption (fromYmdOpt cfg year 1 1) (.outOfBounds year 1 1 0 0 0)) >>= (fun ndt => do
                  let t27 ← ndt.andHms 0 0 0
                  .ok t27
                )) >>= (TimeType.moment cfg)) >>= (fun m => do
                  let t28 ← TimeType.days cfg ddd
                  let t29 ← TimeType.add cfg m t28
                  let t30 ← TimeType.hours cfg hour
                  let t31 ← TimeType.add cfg t29 t30
                  let t32 ← TimeType.minutes cfg minute
                  let t33 ← TimeType.add cfg t31 t32
                  let t34 ← TimeType.seconds cfg second
                  let t35 ← TimeType.add cfg t33 t34
                  .ok t35
                ))
          )
    )

/-- `fn into_timetype` of `Date` — src/parser/timetype.rs:267-274. -/
def PDate.into_timetype (cfg : Cfg) (now : Moment) (self : PDate) : Out TT := do
  let t1 ← (ExactDate.into_timetype cfg now self.exact)
  let base := t1
  (match self.offset with
    | (.some ((.plus), amount)) => do
        let t2 ← (AmountExpr.into_timetype cfg amount)
        let t3 ← TimeType.add cfg base t2
        (.ok t3)
    | (.some ((.minus), amount)) => do
        let t4 ← (AmountExpr.into_timetype cfg amount)
        let t5 ← TimeType.sub cfg base t4
        (.ok t5)
    | .none => do
        (.ok base)
    )

/-- `fn into_timetype` of `TimeType` — src/parser/timetype.rs:284-289. -/
def PTimeType.into_timetype (cfg : Cfg) (now : Moment) (self : PTimeType) : Out TT := do
  (match self with
    | (.date d) => do
        (PDate.into_timetype cfg now d)
    | (.amountExpr a) => do
        (AmountExpr.into_timetype cfg a)
    )

/-- `integer` — src/parser/timetype.rs:13-21. -/
def integer : Nom.P Int :=
  (Nom.alt [
    (Nom.mapRes (Nom.mapRes (Nom.ws Nom.digit) Rs.fromUtf8) i64FromStr)])

/-- `unit_parser` — src/parser/timetype.rs:24-49. -/
def unit_parser : Nom.P TimeUnit :=
  (Nom.altComplete [
    (Nom.map (Nom.tag "seconds".toList) (fun _ => (TimeUnit.second))),
    (Nom.map (Nom.tag "second".toList) (fun _ => (TimeUnit.second))),
    (Nom.map (Nom.tag "secs".toList) (fun _ => (TimeUnit.second))),
    (Nom.map (Nom.tag "sec".toList) (fun _ => (TimeUnit.second))),
    (Nom.map (Nom.tag "s".toList) (fun _ => (TimeUnit.second))),
    (Nom.map (Nom.tag "minutes".toList) (fun _ => (TimeUnit.minute))),
    (Nom.map (Nom.tag "minute".toList) (fun _ => (TimeUnit.minute))),
    (Nom.map (Nom.tag "mins".toList) (fun _ => (TimeUnit.minute))),
    (Nom.map (Nom.tag "min".toList) (fun _ => (TimeUnit.minute))),
    (Nom.map (Nom.tag "hours".toList) (fun _ => (TimeUnit.hour))),
    (Nom.map (Nom.tag "hour".toList) (fun _ => (TimeUnit.hour))),
    (Nom.map (Nom.tag "hrs".toList) (fun _ => (TimeUnit.hour))),
    (Nom.map (Nom.tag "hr".toList) (fun _ => (TimeUnit.hour))),
    (Nom.map (Nom.tag "days".toList) (fun _ => (TimeUnit.day))),
    (Nom.map (Nom.tag "day".toList) (fun _ => (TimeUnit.day))),
    (Nom.map (Nom.tag "d".toList) (fun _ => (TimeUnit.day))),
    (Nom.map (Nom.tag "weeks".toList) (fun _ => (TimeUnit.week))),
    (Nom.map (Nom.tag "week".toList) (fun _ => (TimeUnit.week))),
    (Nom.map (Nom.tag "w".toList) (fun _ => (TimeUnit.week))),
    (Nom.map (Nom.tag "months".toList) (fun _ => (TimeUnit.month))),
    (Nom.map (Nom.tag "month".toList) (fun _ => (TimeUnit.month))),
    (Nom.map (Nom.tag "years".toList) (fun _ => (TimeUnit.year))),
    (Nom.map (Nom.tag "year".toList) (fun _ => (TimeUnit.year))),
    (Nom.map (Nom.tag "yrs".toList) (fun _ => (TimeUnit.year)))])

/-- `operator_parser` — src/parser/timetype.rs:87-90. -/
def operator_parser : Nom.P Operator :=
  (Nom.alt [
    (Nom.map (Nom.tag "+".toList) (fun _ => (Operator.plus))),
    (Nom.map (Nom.tag "-".toList) (fun _ => (Operator.minus)))])

/-- `unit_alias` — src/parser/timetype.rs:98-106. -/
def unit_alias : Nom.P UnitAlias :=
  (Nom.altComplete [
    (Nom.map (Nom.tag "secondly".toList) (fun _ => (UnitAlias.secondly))),
    (Nom.map (Nom.tag "minutely".toList) (fun _ => (UnitAlias.minutely))),
    (Nom.map (Nom.tag "hourly".toList) (fun _ => (UnitAlias.hourly))),
    (Nom.map (Nom.tag "daily".toList) (fun _ => (UnitAlias.daily))),
    (Nom.map (Nom.tag "weekly".toList) (fun _ => (UnitAlias.weekly))),
    (Nom.map (Nom.tag "monthly".toList) (fun _ => (UnitAlias.monthly))),
    (Nom.map (Nom.tag "yearly".toList) (fun _ => (UnitAlias.yearly)))])

/-- `amount_parser` — src/parser/timetype.rs:108-111. -/
def amount_parser : Nom.P Amount :=
  (Nom.alt [
    (Nom.bind integer fun number =>
    Nom.bind unit_parser fun unit =>
    Nom.ret (Amount.mk number unit)),
    (Nom.bind unit_alias fun unitalias =>
    Nom.ret (Amount.mk 1 (UnitAlias.into unitalias)))])

/-- `amount_expr_next` — src/parser/timetype.rs:130-135. -/
def amount_expr_next (amount_expr : Nom.P AmountExpr) : Nom.P (Operator × AmountExpr) :=
  (Nom.bind operator_parser fun op =>
  Nom.bind (Nom.opt Nom.sp) fun _ =>
  Nom.bind amount_expr fun amexp =>
  Nom.ret (op, amexp))

/-- `amount_expr` — src/parser/timetype.rs:137-142. It refers to itself, which is the parameter. -/
def amount_expr_body (amount_expr : Nom.P AmountExpr) : Nom.P AmountExpr :=
  (Nom.bind amount_parser fun amount =>
  Nom.bind (Nom.opt Nom.sp) fun _ =>
  Nom.bind (Nom.opt (Nom.complete (amount_expr_next amount_expr))) fun o =>
  Nom.ret (AmountExpr.mk amount o))

/-- `exact_date_parser` — src/parser/timetype.rs:169-175. -/
def exact_date_parser (iso : Iso) : Nom.P ExactDate :=
  (Nom.altComplete [
    (Nom.map (Nom.tag "today".toList) (fun _ => (ExactDate.today))),
    (Nom.map (Nom.tag "yesterday".toList) (fun _ => (ExactDate.yesterday))),
    (Nom.map (Nom.tag "tomorrow".toList) (fun _ => (ExactDate.tomorrow))),
    (Nom.bind iso.parseDatetime fun d =>
    Nom.ret (ExactDate.iso8601DateTime d)),
    (Nom.bind iso.parseDate fun d =>
    Nom.ret (ExactDate.iso8601Date d))])

/-- `date` — src/parser/timetype.rs:255-261. -/
def date (iso : Iso) (amount_expr : Nom.P AmountExpr) : Nom.P PDate :=
  (Nom.bind (exact_date_parser iso) fun exact =>
  Nom.bind (Nom.opt (Nom.complete (Nom.bind Nom.sp fun _ =>
  Nom.bind operator_parser fun op =>
  Nom.bind Nom.sp fun _ =>
  Nom.bind amount_expr fun a =>
  Nom.ret (op, a)))) fun o =>
  Nom.ret (PDate.mk exact o))

/-- `timetype` — src/parser/timetype.rs:300-303. -/
def timetype (iso : Iso) (amount_expr : Nom.P AmountExpr) : Nom.P PTimeType :=
  (Nom.alt [
    (Nom.bind (date iso amount_expr) fun d =>
    Nom.ret (PTimeType.date d)),
    (Nom.bind amount_expr fun a =>
    Nom.ret (PTimeType.amountExpr a))])

/-- `fn into_user_iterator` of `Iterator` — src/parser/iterator.rs:69-122. -/
def PIterator.into_user_iterator (cfg : Cfg) (now now' : Moment) (self : PIterator) : Out UserIterator := do
  let t73 ← (match self.spec with
    | (.every i unit) => do
        let t9 ← (do
            let i : Int := i
            let unit : TimeUnit := unit
            let t8 ← (match unit with
              | (.second) => do
                  let t1 ← TimeType.seconds cfg i
                  .ok t1
              | (.minute) => do
                  let t2 ← TimeType.minutes cfg i
                  .ok t2
              | (.hour) => do
                  let t3 ← TimeType.hours cfg i
                  .ok t3
              | (.day) => do
                  let t4 ← TimeType.days cfg i
                  .ok t4
              | (.week) => do
                  let t5 ← TimeType.weeks cfg i
                  .ok t5
              | (.month) => do
                  let t6 ← TimeType.months cfg i
                  .ok t6
              | (.year) => do
                  let t7 ← TimeType.years cfg i
                  .ok t7
              )
            .ok t8
          )
        .ok t9
    | (.secondly) => do
        let t18 ← (do
            let i : Int := 1
            let unit : TimeUnit := (TimeUnit.second)
            let t17 ← (match unit with
              | (.second) => do
                  let t10 ← TimeType.seconds cfg i
                  .ok t10
              | (.minute) => do
                  let t11 ← TimeType.minutes cfg i
                  .ok t11
              | (.hour) => do
                  let t12 ← TimeType.hours cfg i
                  .ok t12
              | (.day) => do
                  let t13 ← TimeType.days cfg i
                  .ok t13
              | (.week) => do
                  let t14 ← TimeType.weeks cfg i
                  .ok t14
              | (.month) => do
                  let t15 ← TimeType.months cfg i
                  .ok t15
              | (.year) => do
                  let t16 ← TimeType.years cfg i
                  .ok t16
              )
            .ok t17
          )
        .ok t18
    | (.minutely) => do
        let t27 ← (do
            let i : Int := 1
            let unit : TimeUnit := (TimeUnit.minute)
            let t26 ← (match unit with
              | (.second) => do
                  let t19 ← TimeType.seconds cfg i
                  .ok t19
              | (.minute) => do
                  let t20 ← TimeType.minutes cfg i
                  .ok t20
              | (.hour) => do
                  let t21 ← TimeType.hours cfg i
                  .ok t21
              | (.day) => do
                  let t22 ← TimeType.days cfg i
                  .ok t22
              | (.week) => do
                  let t23 ← TimeType.weeks cfg i
                  .ok t23
              | (.month) => do
                  let t24 ← TimeType.months cfg i
                  .ok t24
              | (.year) => do
                  let t25 ← TimeType.years cfg i
                  .ok t25
              )
            .ok t26
          )
        .ok t27
    | (.hourly) => do
        let t36 ← (do
            let i : Int := 1
            let unit : TimeUnit := (TimeUnit.hour)
            let t35 ← (match unit with
              | (.second) => do
                  let t28 ← TimeType.seconds cfg i
                  .ok t28
              | (.minute) => do
                  let t29 ← TimeType.minutes cfg i
                  .ok t29
              | (.hour) => do
                  let t30 ← TimeType.hours cfg i
                  .ok t30
              | (.day) => do
                  let t31 ← TimeType.days cfg i
                  .ok t31
              | (.week) => do
                  let t32 ← TimeType.weeks cfg i
                  .ok t32
              | (.month) => do
                  let t33 ← TimeType.months cfg i
                  .ok t33
              | (.year) => do
                  let t34 ← TimeType.years cfg i
                  .ok t34
              )
            .ok t35
          )
        .ok t36
    | (.daily) => do
        let t45 ← (do
            let i : Int := 1
            let unit : TimeUnit := (TimeUnit.day)
            let t44 ← (match unit with
              | (.second) => do
                  let t37 ← TimeType.seconds cfg i
                  .ok t37
              | (.minute) => do
                  let t38 ← TimeType.minutes cfg i
                  .ok t38
              | (.hour) => do
                  let t39 ← TimeType.hours cfg i
                  .ok t39
              | (.day) => do
                  let t40 ← TimeType.days cfg i
                  .ok t40
              | (.week) => do
                  let t41 ← TimeType.weeks cfg i
                  .ok t41
              | (.month) => do
                  let t42 ← TimeType.months cfg i
                  .ok t42
              | (.year) => do
                  let t43 ← TimeType.years cfg i
                  .ok t43
              )
            .ok t44
          )
        .ok t45
    | (.weekly) => do
        let t54 ← (do
            let i : Int := 1
            let unit : TimeUnit := (TimeUnit.week)
            let t53 ← (match unit with
              | (.second) => do
                  let t46 ← TimeType.seconds cfg i
                  .ok t46
              | (.minute) => do
                  let t47 ← TimeType.minutes cfg i
                  .ok t47
              | (.hour) => do
                  let t48 ← TimeType.hours cfg i
                  .ok t48
              | (.day) => do
                  let t49 ← TimeType.days cfg i
                  .ok t49
              | (.week) => do
                  let t50 ← TimeType.weeks cfg i
                  .ok t50
              | (.month) => do
                  let t51 ← TimeType.months cfg i
                  .ok t51
              | (.year) => do
                  let t52 ← TimeType.years cfg i
                  .ok t52
              )
            .ok t53
          )
        .ok t54
    | (.monthly) => do
        let t63 ← (do
            let i : Int := 1
            let unit : TimeUnit := (TimeUnit.month)
            let t62 ← (match unit with
              | (.second) => do
                  let t55 ← TimeType.seconds cfg i
                  .ok t55
              | (.minute) => do
                  let t56 ← TimeType.minutes cfg i
                  .ok t56
              | (.hour) => do
                  let t57 ← TimeType.hours cfg i
                  .ok t57
              | (.day) => do
                  let t58 ← TimeType.days cfg i
                  .ok t58
              | (.week) => do
                  let t59 ← TimeType.weeks cfg i
                  .ok t59
              | (.month) => do
                  let t60 ← TimeType.months cfg i
                  .ok t60
              | (.year) => do
                  let t61 ← TimeType.years cfg i
                  .ok t61
              )
            .ok t62
          )
        .ok t63
    | (.yearly) => do
        let t72 ← (do
            let i : Int := 1
            let unit : TimeUnit := (TimeUnit.year)
            let t71 ← (match unit with
              | (.second) => do
                  let t64 ← TimeType.seconds cfg i
                  .ok t64
              | (.minute) => do
                  let t65 ← TimeType.minutes cfg i
                  .ok t65
              | (.hour) => do
                  let t66 ← TimeType.hours cfg i
                  .ok t66
              | (.day) => do
                  let t67 ← TimeType.days cfg i
                  .ok t67
              | (.week) => do
                  let t68 ← TimeType.weeks cfg i
                  .ok t68
              | (.month) => do
                  let t69 ← TimeType.months cfg i
                  .ok t69
              | (.year) => do
                  let t70 ← TimeType.years cfg i
                  .ok t70
              )
            .ok t71
          )
        .ok t72
    )
  let recur := t73
  (match self.until_ with
    | (.some (.exact e)) => do
        let t74 ← (PDate.into_timetype cfg now self.date)
        let t78 ← (do
            let e : TT := t74
            let t76 ← (TimeType.calculate cfg e)
            let t77 ← TimeType.get_moment cfg t76
            (OutE.ofOption t77 (.notADateInsideIterator))
          )
        let base := t78
        let t79 ← (ExactDate.into_timetype cfg now' e)
        let t83 ← (do
            let e : TT := t79
            let t81 ← (TimeType.calculate cfg e)
            let t82 ← TimeType.get_moment cfg t81
            (OutE.ofOption t82 (.notADateInsideIterator))
          )
        let e := t83
        ((Iter.build cfg base recur) >>= (fun it => .ok (Rs.untilIterator (Until.until it e))))
    | (.some (.times i)) => do
        let t84 ← (PDate.into_timetype cfg now self.date)
        let t88 ← (do
            let e : TT := t84
            let t86 ← (TimeType.calculate cfg e)
            let t87 ← TimeType.get_moment cfg t86
            (OutE.ofOption t87 (.notADateInsideIterator))
          )
        let base := t88
        (((Iter.build cfg base recur) >>= (fun it => .ok (Times.times it i))) >>= (fun x => .ok (UserIterator.timesIter x)))
    | .none => do
        let t89 ← (PDate.into_timetype cfg now self.date)
        let t93 ← (do
            let e : TT := t89
            let t91 ← (TimeType.calculate cfg e)
            let t92 ← TimeType.get_moment cfg t91
            (OutE.ofOption t92 (.notADateInsideIterator))
          )
        let base := t93
        ((Iter.build cfg base recur) >>= (fun x => .ok (UserIterator.iterator x)))
    )

/-- `fn next` of `UserIterator` — src/parser/iterator.rs:140-146. -/
def UserIterator.next (cfg : Cfg) : Rs.M UserIterator (Option (Except ErrorKind TT)) := fun self =>
  match self with
  | .iterator i => do
    let (r, i) ← (Iter.next cfg : Rs.M _ _) i
    .ok (r, .iterator i)
  | .timesIter i => do
    let (r, i) ← (TimesIter.next cfg (Iter.next cfg) : Rs.M _ _) i
    .ok (r, .timesIter i)
  | .untilIterator i e => do
    let (r, i) ← (UntilIter.next cfg (Iter.next cfg) : Rs.M _ _) (i, e)
    .ok (r, Rs.untilIterator i)

/-- `iter_spec` — src/parser/iterator.rs:11-25. -/
def iter_spec : Nom.P Iterspec :=
  (Nom.altComplete [
    (Nom.map (Nom.tag "secondly".toList) (fun _ => (Iterspec.secondly))),
    (Nom.map (Nom.tag "minutely".toList) (fun _ => (Iterspec.minutely))),
    (Nom.map (Nom.tag "hourly".toList) (fun _ => (Iterspec.hourly))),
    (Nom.map (Nom.tag "daily".toList) (fun _ => (Iterspec.daily))),
    (Nom.map (Nom.tag "weekly".toList) (fun _ => (Iterspec.weekly))),
    (Nom.map (Nom.tag "monthly".toList) (fun _ => (Iterspec.monthly))),
    (Nom.map (Nom.tag "yearly".toList) (fun _ => (Iterspec.yearly))),
    (Nom.bind (Nom.tag "every".toList) fun _ =>
    Nom.bind integer fun number =>
    Nom.bind unit_parser fun unit =>
    Nom.ret (Iterspec.every number unit))])

/-- `until_spec` — src/parser/iterator.rs:39-50. -/
def until_spec (iso : Iso) : Nom.P UntilSpec :=
  (Nom.altComplete [
    (Nom.bind (Nom.tag "until".toList) fun _ =>
    Nom.bind Nom.sp fun _ =>
    Nom.bind (exact_date_parser iso) fun exact =>
    Nom.ret (UntilSpec.exact exact)),
    (Nom.bind integer fun num =>
    Nom.bind Nom.sp fun _ =>
    Nom.bind (Nom.tag "times".toList) fun _ =>
    Nom.ret (UntilSpec.times num))])

/-- `iterator` — src/parser/iterator.rs:58-63. -/
def iterator (iso : Iso) (amount_expr : Nom.P AmountExpr) : Nom.P PIterator :=
  (Nom.bind (Nom.opt Nom.sp) fun _ =>
  Nom.bind (date iso amount_expr) fun d =>
  Nom.bind (Nom.opt Nom.sp) fun _ =>
  Nom.bind iter_spec fun spec =>
  Nom.bind (Nom.opt Nom.sp) fun _ =>
  Nom.bind (Nom.opt (Nom.complete (until_spec iso))) fun «until» =>
  Nom.ret (PIterator.mk d spec «until»))

/-- `do_parse` — src/parser/mod.rs:64-67. -/
def do_parse (cfg : Cfg) (iso : Iso) (amount_expr : Nom.P AmountExpr) (now now' : Moment) : Nom.P (Out Parsed) :=
  (Nom.altComplete [
    (Nom.bind (iterator iso amount_expr) fun it =>
    Nom.ret (show Out _ from (do
        let t1 ← Rs.reify (PIterator.into_user_iterator cfg now now' it)
        (.ok (Parsed.iterator t1))
      ))),
    (Nom.bind (timetype iso amount_expr) fun tt =>
    Nom.ret (show Out _ from (do
        ((PTimeType.into_timetype cfg now tt) >>= (fun x => .ok (Parsed.timeType x)))
      )))])

/-- `fn parse` — src/parser/mod.rs:69-78. -/
def parse (cfg : Cfg) (iso : Iso) (amount_expr : Nom.P AmountExpr) (now now' : Moment) (s : List Char) : Out Parsed := do
  let t1 ← Rs.runParser ((do_parse cfg iso amount_expr now now') s)
  match t1 with
  | .done _ (.ok o) => .ok o
  | .done _ (.error e) => .err e
  | .error => .err .nomError
  | .incomplete => .err .unknownParserError

end Kairos.Source.Parser
