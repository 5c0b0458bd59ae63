import Verif.Enums

/-!
# fastkml/times.py — dates

`datetime.date`, `datetime.datetime` and `KmlDateTime` (fastkml/times.py:53-218).
-/

namespace Verif

/-- A `datetime.date`. -/
structure Date where
  y : Nat
  m : Nat
  d : Nat
deriving DecidableEq, Repr

/-- The time part of a `datetime.datetime`.  `off` is the UTC offset in minutes,
`none` for a naive datetime.  Simplification: offsets are whole minutes
(see `Offsets.lean` for others). -/
structure Time where
  h : Nat
  mi : Nat
  s : Nat
  us : Nat
  off : Option Int
deriving DecidableEq, Repr

/-- A `date` or a `datetime`. -/
inductive Moment where
  | date (d : Date)
  | dt (d : Date) (t : Time)
deriving DecidableEq, Repr

/-- The calendar date of a moment (`dt.year`, `dt.month`, `dt.date()`). -/
def Moment.day : Moment → Date
  | .date d => d
  | .dt d _ => d

/-- Gregorian leap years. -/
def isLeap (y : Nat) : Bool := (y % 4 == 0 && y % 100 != 0) || y % 400 == 0

/-- Days in a month. -/
def daysInMonth (y m : Nat) : Nat :=
  if m = 2 then (if isLeap y then 29 else 28)
  else if m = 4 ∨ m = 6 ∨ m = 9 ∨ m = 11 then 30 else 31

/-- The dates `datetime.date(y, m, d)` accepts (`date.min` .. `date.max`). -/
def Date.Valid (d : Date) : Prop :=
  1 ≤ d.y ∧ d.y ≤ 9999 ∧ 1 ≤ d.m ∧ d.m ≤ 12 ∧ 1 ≤ d.d ∧ d.d ≤ daysInMonth d.y d.m

instance (d : Date) : Decidable d.Valid := by unfold Date.Valid; infer_instance

/-- The times `datetime` accepts. -/
def Time.Valid (t : Time) : Prop :=
  t.h < 24 ∧ t.mi < 60 ∧ t.s < 60 ∧ t.us < 1000000 ∧
  ∀ o, t.off = some o → -1440 < o ∧ o < 1440

/-- Valid moments. -/
def Moment.Valid : Moment → Prop
  | .date d => d.Valid
  | .dt d t => d.Valid ∧ t.Valid

/-- `datetime.date(y, m, d)`; `none` is `ValueError` (fastkml/times.py:206). -/
def mkDate (y m d : Nat) : Option Date :=
  if (⟨y, m, d⟩ : Date).Valid then some ⟨y, m, d⟩ else none

/-- `KmlDateTime`: the two attributes `dt` and `resolution`
(fastkml/times.py:154-160). -/
structure KmlDateTime where
  dt : Moment
  res : Resolution
deriving DecidableEq, Repr

/-- `adjust_date_to_resolution(dt, resolution)` (fastkml/times.py:58-94), for a
resolution that is not `None` (the only call, times.py:154, passes one). -/
def adjustDate (m : Moment) (r : Resolution) : Moment :=
  if r = .year then .date ⟨m.day.y, 1, 1⟩
  else if r = .yearMonth then .date ⟨m.day.y, m.day.m, 1⟩
  else match m with
    | .dt d t => if r ≠ .datetime then .date d else .dt d t
    | .date d => .date d

/-- `KmlDateTime.__init__` (fastkml/times.py:131-160). -/
def KmlDateTime.mk' (m : Moment) (resolution : Option Resolution) : KmlDateTime :=
  let r := match resolution with
    | none => match m with | .date _ => Resolution.date | .dt _ _ => Resolution.datetime
    | some r => r
  let dt := adjustDate m r
  { dt := dt
    res := match dt with
      | .date _ => if r = .datetime then .date else r
      | .dt _ _ => r }

/-- Days before January 1st of year `y` (`datetime._days_before_year`). -/
def daysBeforeYear (y : Nat) : Nat := (y - 1) * 365 + (y - 1) / 4 - (y - 1) / 100 + (y - 1) / 400

/-- Days before the first of month `m` (`datetime._days_before_month`). -/
def daysBeforeMonth (y : Nat) : Nat → Nat
  | 0 => 0
  | m + 1 => daysBeforeMonth y m + (if m = 0 then 0 else daysInMonth y m)

/-- `date.toordinal()`. -/
def Date.ordinal (d : Date) : Nat := daysBeforeYear d.y + daysBeforeMonth d.y d.m + d.d

/-- Microseconds since the epoch of `toordinal`, in UTC, for offset `o` minutes. -/
def utcInstant (d : Date) (t : Time) (o : Int) : Int :=
  (((d.ordinal * 86400 + t.h * 3600 + t.mi * 60 + t.s) * 1000000 + t.us : Nat) : Int) -
    o * 60000000

/-- `==` of `date` and `datetime` objects: a date never equals a datetime, a
naive datetime never equals an aware one, aware datetimes compare by instant. -/
def Moment.eq : Moment → Moment → Bool
  | .date a, .date b => decide (a = b)
  | .dt a s, .dt b t => match s.off, t.off with
    | none, none => decide (a = b) && decide (s = t)
    | some o, some q => decide (utcInstant a s o = utcInstant b t q)
    | _, _ => false
  | _, _ => false

/-- `KmlDateTime.__eq__` on two `KmlDateTime` (fastkml/times.py:175-181). -/
def KmlDateTime.eq (a b : KmlDateTime) : Bool := a.dt.eq b.dt && decide (a.res = b.res)

/-- `n` with at least `w` digits, zero padded (`isoformat`). -/
def pad (w n : Nat) : Str :=
  let r := natRepr n
  List.replicate (w - r.length) '0' ++ r

/-- `date.isoformat()`. -/
def isoDate (d : Date) : Str := pad 4 d.y ++ '-' :: pad 2 d.m ++ '-' :: pad 2 d.d

/-- The offset part of `datetime.isoformat()`. -/
def isoOff : Option Int → Str
  | none => []
  | some o =>
    (if o < 0 then '-' else '+') :: pad 2 (o.natAbs / 60) ++ ':' :: pad 2 (o.natAbs % 60)

/-- `datetime.isoformat()`. -/
def isoDateTime (d : Date) (t : Time) : Str :=
  isoDate d ++ 'T' :: pad 2 t.h ++ ':' :: pad 2 t.mi ++ ':' :: pad 2 t.s ++
    (if t.us = 0 then [] else '.' :: pad 6 t.us) ++ isoOff t.off

/-- `dt.isoformat()`. -/
def Moment.iso : Moment → Str
  | .date d => isoDate d
  | .dt d t => isoDateTime d t

/-- `KmlDateTime.__str__` (fastkml/times.py:183-195).  `strftime("%Y")` does not
pad the year on Linux. -/
def KmlDateTime.toStr (k : KmlDateTime) : Str :=
  match k.res with
  | .year => natRepr k.dt.day.y
  | .yearMonth => natRepr k.dt.day.y ++ '-' :: pad 2 k.dt.day.m
  | .date => isoDate k.dt.day
  | .datetime => k.dt.iso

/-- Two decimal digits at the front (`\d{2}`). -/
def take2 : Str → Option (Nat × Str)
  | a :: b :: r => match decimalVal a, decimalVal b with
    | some x, some y => some (x * 10 + y, r)
    | _, _ => none
  | _ => none

/-- Four decimal digits at the front (`\d{4}`). -/
def take4 (s : Str) : Option (Nat × Str) :=
  match take2 s with
  | none => none
  | some (a, r) => match take2 r with
    | none => none
    | some (b, r') => some (a * 100 + b, r')

/-- `(?:-)?`. -/
def dropDash : Str → Str
  | '-' :: r => r
  | r => r

/-- `(\d{2})?`, greedy. -/
def opt2 (s : Str) : Option Nat × Str :=
  match take2 s with
  | some (n, r) => (some n, r)
  | none => (none, s)

/-- `year_month_day.match(s)` (fastkml/times.py:53-55): the groups year, month,
day.  `$` also matches before a final newline.  (Greedy matching never needs to
backtrack here: if the greedy choice fails, so do the others.) -/
def ymdMatch (s : Str) : Option (Nat × Option Nat × Option Nat) :=
  match take4 s with
  | none => none
  | some (y, r) =>
    let (m, r) := opt2 (dropDash r)
    let (d, r) := opt2 (dropDash r)
    if r = [] ∨ r = ['\n'] then some (y, m, d) else none

/-- `KmlDateTime.parse(datestr)` (fastkml/times.py:197-213); `arrowGet` is
`arrow.get(datestr).datetime`; `none` is `ValueError`. -/
def KmlDateTime.parse (arrowGet : Str → Option (Date × Time)) (s : Str) : Option KmlDateTime :=
  match ymdMatch s with
  | some (y, m, d) =>
    match mkDate y (m.getD 1) (d.getD 1) with
    | none => none
    | some dt =>
      let r := Resolution.date
      let r := if d = none then Resolution.yearMonth else r
      let r := if m = none then Resolution.year else r
      some (KmlDateTime.mk' (.date dt) (some r))
  | none =>
    match arrowGet s with
    | none => none
    | some (d, t) => some (KmlDateTime.mk' (.dt d t) (some .datetime))

end Verif
