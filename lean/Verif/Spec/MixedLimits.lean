import Verif.Spec.LeafText

/-!
# Spec: the limits of mixed numbers, and the header with one name corrected
-/

namespace Ieme.Leaf

/-- The two lines (39 and 101) of `/repo/include/ieme/limits.hpp` that name `fraction_type`, with the
name that `mixed_number` has, `fractional_type`. -/
def correctedLine (l : String) : String :=
  if l = "  using fraction_type = typename mixed_number_type::fraction_type;" then
    "  using fraction_type = typename mixed_number_type::fractional_type;"
  else l

/-- What `limits.hpp` parses to when those two lines are corrected. -/
def correctedLimits : Program :=
  (parse (Text.limits.map correctedLine)).getD ⟨[], []⟩

/-- The names of the functions of `ieme::limits`. -/
def limitNames : List Nat :=
  [Header.N.«max», Header.N.«min», Header.N.«smallest», Header.N.«undefined»]

/-- The constants that tell whether there is anything to be learnt from the others. -/
def primaryNames : List Nat :=
  [Header.N.«is_specialized», Header.N.«is_signed», Header.N.«is_exact», Header.N.«is_bounded»,
    Header.N.«is_integer», Header.N.«is_modulo», Header.N.«has_infinity», Header.N.«has_quiet_NaN»]

end Ieme.Leaf
