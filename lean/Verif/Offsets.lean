import Verif.Times

/-!
# Times whose UTC offset has seconds

`Times.lean` has offsets of whole minutes.  Python allows offsets in microseconds, less than
a day; the time zone database has such offsets for local mean times (`Africa/Monrovia` until
1972).
-/

namespace Verif

/-- The offset part of `datetime.isoformat()` for an offset of `o` microseconds
(`_format_offset` in CPython's `datetime`, which is not in `/repo`; `KmlDateTime.__str__`,
fastkml/times.py:183-195, prints it). -/
def isoOffset (o : Int) : Str :=
  let a := o.natAbs
  let r := a % 60000000
  (if o < 0 then '-' else '+') :: pad 2 (a / 3600000000) ++ ':' :: pad 2 (a / 60000000 % 60) ++
    if r = 0 then [] else
      ':' :: pad 2 (r / 1000000) ++ if r % 1000000 = 0 then [] else '.' :: pad 6 (r % 1000000)

/-- `str(KmlDateTime(dt))` (fastkml/times.py:183-195) of an aware `datetime` with the offset
`o`, in microseconds; the offset of `t` is not used. -/
def awareStr (d : Date) (t : Time) (o : Int) : Str := isoDateTime d { t with off := none } ++ isoOffset o

end Verif
