import Verif.Lemmas.StreamExcept
import Verif.Model.Fraction

/-!
# Programs that read a text of fractions to its end

Three small programs around the stream operators of `/repo/include/ieme/raw_fraction.hpp:57-71`, to
which those of `/repo/include/ieme/fraction.hpp:499-511` forward: one collects what it reads, one adds
it up, one writes it again.  All of them are the loop `while (stream >> value)`; an extraction that
succeeds takes characters, so that the loop is finite (the lemma `readF_length` is imported for that).
Input streams have any formatting flags, output streams the default ones.
-/

namespace Ieme.Stream

variable (fl : Flags) (T : IntTy)

/-- `while (stream >> value) values.push_back(value);`: what was collected, and value and stream
afterwards. -/
def readLoop (s : IStream) (value : Raw) : List Raw × Raw × IStream :=
  if _h : (readF fl T s value).2.fail = false then
    let q := readLoop (readF fl T s value).2 (readF fl T s value).1
    ((readF fl T s value).1 :: q.1, q.2)
  else ([], readF fl T s value)
termination_by s.rest.length
decreasing_by exact readF_length _h

/-- `while (stream >> value) sum += value;`: sum, value and stream afterwards.  For `+=` of two
fractions of the same type see `/repo/include/ieme/fraction.hpp:663-672`. -/
def sumLoop (o : Ops) (s : IStream) (value sum : Raw) : Res (Raw × Raw × IStream) :=
  if _h : (readF fl T s value).2.fail = false then do
    let sum' ← Fraction.assignF T T o .plus sum (readF fl T s value).1
    sumLoop o (readF fl T s value).2 (readF fl T s value).1 sum'
  else pure (sum, readF fl T s value)
termination_by s.rest.length
decreasing_by exact readF_length _h

/-- `while (in >> value) out << value << sep;`: the characters written. -/
def copyLoop (sep : List Char) (s : IStream) (value : Raw) : List Char :=
  if _h : (readF fl T s value).2.fail = false then
    write (readF fl T s value).1 ++
      (sep ++ copyLoop sep (readF fl T s value).2 (readF fl T s value).1)
  else []
termination_by s.rest.length
decreasing_by exact readF_length _h

/-- `while (in >> value) out << reduce(value, mode) << sep;`: the characters written.  For `reduce` of
a fraction see `/repo/include/ieme/raw_fraction_math.hpp:53-66`. -/
def reduceLoop (mode : ReduceMode) (sep : List Char) (s : IStream) (value : Raw) :
    Res (List Char) :=
  if _h : (readF fl T s value).2.fail = false then do
    let g ← (readF fl T s value).1.reduce T mode
    let t ← reduceLoop mode sep (readF fl T s value).2 (readF fl T s value).1
    return write g ++ (sep ++ t)
  else pure []
termination_by s.rest.length
decreasing_by exact readF_length _h

end Ieme.Stream
