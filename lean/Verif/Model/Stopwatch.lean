import Verif.Model.Duration

/-!
# Code that measures time with `clock_wrapper`

What a program does with `ieme::chrono::clock_wrapper` (`/repo/include/ieme/chrono.hpp:67-86`): it
reads the clock (line 85), subtracts time points, adds durations to them, compares them and sums up
durations.  The operators of time points are those of `std::chrono` on the time since the epoch
([time.point.nonmember], [time.point.comparisons]) over durations that count in fractions
(lines 30-31 and 49-53).

The wrapped clock has period `p` and representation `T`, the wrapper period `q` and policy `o`; the
readings of the wrapped clock are given.
-/

namespace Ieme.Chrono

/-- `auto a = clock::now(); ...; auto b = clock::now(); b - a`, where the wrapped clock reads `m`
and then `n` (lines 76-79 and 85). -/
def elapsed (T : IntTy) (o : Ops) (p q : Period) (m n : Int) : Res Raw := do
  let a ← now T o p q m
  let b ← now T o p q n
  arith T o .minus q q (.frac b) (.frac a)

/-- `clock::now() op clock::now()` with the two readings taken before. -/
def compareReadings (T : IntTy) (o : Ops) (op : CmpOp) (p q : Period) (m n : Int) : Res Bool := do
  let a ← now T o p q m
  let b ← now T o p q n
  cmp T o op q q (.frac a) (.frac b)

/-- The loop of a stopwatch that sums up laps: `auto t = clock::now(); total += t - last; last = t;`
for each reading. -/
def laps (T : IntTy) (o : Ops) (p q : Period) (last total : Raw) : List Int → Res Raw
  | [] => pure total
  | n :: ns => do
    let t ← now T o p q n
    let d ← arith T o .minus q q (.frac t) (.frac last)
    let total' ← assign T o .plus q q total (.frac d)
    laps T o p q t total' ns

/-- The stopwatch started at the first reading, with `duration::zero()` as the total. -/
def stopwatch (T : IntTy) (o : Ops) (p q : Period) (start : Int) (ns : List Int) : Res Raw := do
  let a ← now T o p q start
  laps T o p q a (Fraction.mk 0) ns

/-- `while (clock::now() < deadline) {}`: how many readings are before the deadline; `none` when
all that are given are. -/
def poll (T : IntTy) (o : Ops) (p q : Period) (deadline : Raw) : List Int → Res (Option Nat)
  | [] => pure none
  | n :: ns => do
    let t ← now T o p q n
    let b ← cmp T o .less q q (.frac t) (.frac deadline)
    if b then do
      let i ← poll T o p q deadline ns
      return i.map (· + 1)
    else return some 0

/-- `auto deadline = clock::now() + timeout;` and that loop. -/
def waitFor (T : IntTy) (o : Ops) (p q : Period) (timeout : Raw) (start : Int) (ns : List Int) :
    Res (Option Nat) := do
  let a ← now T o p q start
  let deadline ← arith T o .plus q q (.frac a) (.frac timeout)
  poll T o p q deadline ns

/-- `next += interval`, done `k` times. -/
def advance (T : IntTy) (o : Ops) (q : Period) (interval : Raw) : Nat → Raw → Res Raw
  | 0, next => pure next
  | k + 1, next => do
    let next' ← assign T o .plus q q next (.frac interval)
    advance T o q interval k next'

/-- `auto next = clock::now();` and that loop. -/
def schedule (T : IntTy) (o : Ops) (p q : Period) (interval : Raw) (start : Int) (k : Nat) :
    Res Raw := do
  let a ← now T o p q start
  advance T o q interval k a

end Ieme.Chrono
