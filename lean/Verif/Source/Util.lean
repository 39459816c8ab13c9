import Verif.Source.Rust

/-! Generated from src/util.rs by tools/rs2lean.py; do not edit. The translation of each construct is
described in `Verif/Source/Rust.lean`. -/

set_option linter.all false
set_option autoImplicit false

namespace Kairos.Source

/-- `fn is_leap_year` — src/util.rs:83-85. -/
def is_leap_year (cfg : Cfg) (y : Int) : Out Bool := do
  .ok (((y.tmod 4) == 0) && (((y.tmod 100) != 0) || ((y.tmod 400) == 0)))

/-- `fn get_num_of_days_in_month` — src/util.rs:68-80. -/
def get_num_of_days_in_month (cfg : Cfg) (y : Int) (m : Int) : Out Int := do
  let t4 ← (if (((((((m == 1) || (m == 3)) || (m == 5)) || (m == 7)) || (m == 8)) || (m == 10)) || (m == 12)) then do
      .ok 31
    else do
      let t3 ← (if (m == 2) then do
          let t1 ← is_leap_year cfg (asI32 y)
          let t2 ← (if t1 then do
              .ok 29
            else do
              .ok 28
            )
          .ok t2
        else do
          .ok 30
        )
      .ok t3
    )
  .ok t4

/-- `fn adjust_times_add` — src/util.rs:2-33. -/
def adjust_times_add (cfg : Cfg) (y : Int) (mo : Int) (d : Int) (h : Int) (mi : Int) (s : Int) : Out (Int × Int × Int × Int × Int × Int) := do
  let t1 ← cfg.sub s (s.tmod 60)
  let t2 ← cfg.add mi (t1.tdiv 60)
  let mi := t2
  let s := (s.tmod 60)
  let t3 ← cfg.sub mi (mi.tmod 60)
  let t4 ← cfg.add h (t3.tdiv 60)
  let h := t4
  let mi := (mi.tmod 60)
  let t5 ← cfg.sub h (h.tmod 24)
  let t6 ← cfg.add d (t5.tdiv 24)
  let d := t6
  let h := (h.tmod 24)
  let (d, mo) ← Rs.while (fun (d, mo) => do
      let t7 ← get_num_of_days_in_month cfg y mo
      .ok (decide (d > t7))
    ) (fun (d, mo) => do
      let t8 ← get_num_of_days_in_month cfg y mo
      let t9 ← cfg.sub d t8
      let d := t9
      let t10 ← cfg.add mo 1
      let mo := t10
      .ok (d, mo)
    ) (d, mo)
  let (y, mo) ← Rs.while (fun (y, mo) => do
      .ok (decide (mo > 12))
    ) (fun (y, mo) => do
      let t11 ← cfg.add y 1
      let y := t11
      let t12 ← cfg.sub mo 12
      let mo := t12
      .ok (y, mo)
    ) (y, mo)
  .ok (y, mo, d, h, mi, s)

/-- `fn adjust_times_sub` — src/util.rs:36-65. -/
def adjust_times_sub (cfg : Cfg) (y : Int) (mo : Int) (d : Int) (h : Int) (mi : Int) (s : Int) : Out (Int × Int × Int × Int × Int × Int) := do
  let (mi, s) ← (if (decide (s < 0)) then do
      let t1 ← cfg.abs s
      let t2 ← cfg.add (t1.tdiv 60) 1
      let t3 ← cfg.sub mi t2
      let mi := t3
      let t4 ← cfg.sub 0 s
      let t5 ← cfg.abs t4
      let t6 ← cfg.sub 60 t5
      let s := t6
      .ok (mi, s)
    else .ok (mi, s))
  let (h, mi) ← (if (decide (mi < 0)) then do
      let t7 ← cfg.abs mi
      let t8 ← cfg.add (t7.tdiv 60) 1
      let t9 ← cfg.sub h t8
      let h := t9
      let t10 ← cfg.sub 0 mi
      let t11 ← cfg.abs t10
      let t12 ← cfg.sub 60 t11
      let mi := t12
      .ok (h, mi)
    else .ok (h, mi))
  let (d, h) ← (if (decide (h < 0)) then do
      let t13 ← cfg.abs h
      let t14 ← cfg.add (t13.tdiv 24) 1
      let t15 ← cfg.sub d t14
      let d := t15
      let t16 ← cfg.sub 0 h
      let t17 ← cfg.abs t16
      let t18 ← cfg.sub 24 t17
      let h := t18
      .ok (d, h)
    else .ok (d, h))
  let (mo, d) ← (if (decide (d < 1)) then do
      let t19 ← cfg.abs d
      let t20 ← cfg.add (t19.tdiv 32) 1
      let t21 ← cfg.sub mo t20
      let mo := t21
      let t22 ← cfg.sub 0 d
      let t23 ← cfg.abs t22
      let t24 ← cfg.sub 31 t23
      let d := t24
      .ok (mo, d)
    else .ok (mo, d))
  let (y, mo) ← (if (decide (mo < 1)) then do
      let t25 ← cfg.abs mo
      let t26 ← cfg.add (t25.tdiv 13) 1
      let t27 ← cfg.sub y t26
      let y := t27
      let t28 ← cfg.sub 0 mo
      let t29 ← cfg.abs t28
      let t30 ← cfg.sub 12 t29
      let mo := t30
      .ok (y, mo)
    else .ok (y, mo))
  .ok (y, mo, d, h, mi, s)

end Kairos.Source
