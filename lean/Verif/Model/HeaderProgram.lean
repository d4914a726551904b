import Verif.Model.HeaderSyntax
import Verif.Model.HeaderText

/-!
# What the text of the headers parses to

One definition per function definition in the headers of `/repo/include/ieme`, in the order of the
text, after macro expansion.  `Verif/Props/HeaderText.lean` proves that parsing the text gives exactly
this, so nothing here has to be believed.  `F.safe_plus_2` is the second overload of `safe::plus`.
-/

namespace Ieme.Header

/-! ## `/repo/include/ieme/numbers.hpp` -/

def F.number_1 : Func :=
  ⟨0, N.«number», [N.«V», N.«T»], [], true, (.name N.«auto»), (some (.ret (.cast (.name N.«T»)
    (.var 0 N.«V»)) .nil))⟩

def F.num0_1 : Func :=
  ⟨0, N.«_0», [N.«T»], [], true, (.name N.«auto»), (some (.ret (.call 0 N.«number» [(.lit 0),
    (.name N.«T»)] .nil) .nil))⟩

def F.num1_1 : Func :=
  ⟨0, N.«_1», [N.«T»], [], true, (.name N.«auto»), (some (.ret (.call 0 N.«number» [(.lit 1),
    (.name N.«T»)] .nil) .nil))⟩

def F.num2_1 : Func :=
  ⟨0, N.«_2», [N.«T»], [], true, (.name N.«auto»), (some (.ret (.call 0 N.«number» [(.lit 2),
    (.name N.«T»)] .nil) .nil))⟩

def F.num10_1 : Func :=
  ⟨0, N.«_10», [N.«T»], [], true, (.name N.«auto»), (some (.ret (.call 0 N.«number» [(.lit 10),
    (.name N.«T»)] .nil) .nil))⟩

/-! ## `/repo/include/ieme/reduce_mode.hpp` -/

/-! ## `/repo/include/ieme/math_utilities.hpp` -/

def F.math_utilities_abs_1 : Func :=
  ⟨N.«math_utilities», N.«abs», [N.«Int»], [⟨(.name N.«Int»), N.«value», none⟩], false, (.name
    N.«Int»), (some (.ret (.cond (.bin .ge (.var 0 N.«value») (.call 0 N.«_0» [(.name N.«Int»)]
    .nil)) (.var 0 N.«value») (.un .neg (.var 0 N.«value»))) .nil))⟩

def F.math_utilities_pow2_1 : Func :=
  ⟨N.«math_utilities», N.«pow2», [N.«Int»], [⟨(.name N.«Int»), N.«exponent», none⟩], false, (.name
    N.«Int»), (some (.using N.«unsigned_type» (.app1 N.«std::make_unsigned_t» (.name N.«Int»))
    (.ret (.cast (.name N.«Int») (.bin .shl (.call 0 N.«_1» [(.name N.«unsigned_type»)] .nil)
    (.call 0 N.«unsigned_type» [] (.cons (.var 0 N.«exponent») .nil)))) .nil)))⟩

def F.math_utilities_pow_1 : Func :=
  ⟨N.«math_utilities», N.«pow», [N.«Int»], [⟨(.name N.«Int»), N.«base», none⟩, ⟨(.name N.«Int»),
    N.«exponent», none⟩], false, (.name N.«Int»), (some (.ite (.bin .eq (.var 0 N.«exponent»)
    (.call 0 N.«_0» [(.name N.«Int»)] .nil)) (.ret (.call 0 N.«_1» [(.name N.«Int»)] .nil) .nil)
    .nil (.ite (.bin .eq (.bin .mod (.var 0 N.«exponent») (.call 0 N.«_2» [(.name N.«Int»)] .nil))
    (.call 0 N.«_1» [(.name N.«Int»)] .nil)) (.ret (.bin .mul (.var 0 N.«base») (.call 0 N.«pow» []
    (.cons (.var 0 N.«base») (.cons (.bin .sub (.var 0 N.«exponent») (.call 0 N.«_1» [(.name
    N.«Int»)] .nil)) .nil)))) .nil) .nil (.decl N.«squareRoot» (.call 0 N.«pow» [] (.cons (.var 0
    N.«base») (.cons (.bin .div (.var 0 N.«exponent») (.call 0 N.«_2» [(.name N.«Int»)] .nil))
    .nil))) (.ret (.bin .mul (.var 0 N.«squareRoot») (.var 0 N.«squareRoot»)) .nil)))))⟩

/-! ## `/repo/include/ieme/raw_fraction.hpp` -/

def Cls.raw_fraction : Cls :=
  ⟨N.«raw_fraction», [N.«Rep»], [(N.«rep_type», (.name N.«Rep»))], [], [⟨(.name N.«Rep»),
    N.«numerator», .nil⟩, ⟨(.name N.«Rep»), N.«denominator», .nil⟩]⟩

def F.raw_fraction_raw_fraction_1 : Func :=
  ⟨N.«raw_fraction», N.«raw_fraction», [N.«Rep»], [⟨(.name N.«Rep»), N.«init_numerator», none⟩,
    ⟨(.name N.«Rep»), N.«init_denominator», none⟩], false, (.name N.«void»), (some (.init
    N.«numerator» (.cons (.var 0 N.«init_numerator») .nil) (.init N.«denominator» (.cons (.var 0
    N.«init_denominator») .nil) .nil)))⟩

def F.raw_fraction_raw_fraction_2 : Func :=
  ⟨N.«raw_fraction», N.«raw_fraction», [N.«Rep», N.«OtherRep»], [⟨(.app1 N.«raw_fraction» (.name
    N.«OtherRep»)), N.«other», none⟩], false, (.name N.«void»), (some (.init N.«raw_fraction»
    (.cons (.cast (.name N.«Rep») (.mem (.var 0 N.«other») N.«numerator»)) (.cons (.cast (.name
    N.«Rep») (.mem (.var 0 N.«other») N.«denominator»)) .nil)) .nil))⟩

/-! ## `/repo/include/ieme/raw_fraction_queries.hpp` -/

def F.is_defined_1 : Func :=
  ⟨0, N.«is_defined», [N.«Rep»], [⟨(.app1 N.«raw_fraction» (.name N.«Rep»)), N.«value», none⟩],
    false, (.name N.«bool»), (some (.ret (.bin .ne (.mem (.var 0 N.«value») N.«denominator») (.call
    0 N.«_0» [(.name N.«Rep»)] .nil)) .nil))⟩

def F.is_undefined_1 : Func :=
  ⟨0, N.«is_undefined», [N.«Rep»], [⟨(.app1 N.«raw_fraction» (.name N.«Rep»)), N.«value», none⟩],
    false, (.name N.«bool»), (some (.ret (.un .not (.call 0 N.«is_defined» [] (.cons (.var 0
    N.«value») .nil))) .nil))⟩

def F.is_positive_1 : Func :=
  ⟨0, N.«is_positive», [N.«Rep»], [⟨(.app1 N.«raw_fraction» (.name N.«Rep»)), N.«value», none⟩],
    false, (.name N.«bool»), (some (.ret (.bin .or (.bin .and (.bin .gt (.mem (.var 0 N.«value»)
    N.«numerator») (.call 0 N.«_0» [(.name N.«Rep»)] .nil)) (.bin .gt (.mem (.var 0 N.«value»)
    N.«denominator») (.call 0 N.«_0» [(.name N.«Rep»)] .nil))) (.bin .and (.bin .lt (.mem (.var 0
    N.«value») N.«numerator») (.call 0 N.«_0» [(.name N.«Rep»)] .nil)) (.bin .lt (.mem (.var 0
    N.«value») N.«denominator») (.call 0 N.«_0» [(.name N.«Rep»)] .nil)))) .nil))⟩

def F.is_non_negative_1 : Func :=
  ⟨0, N.«is_non_negative», [N.«Rep»], [⟨(.app1 N.«raw_fraction» (.name N.«Rep»)), N.«value»,
    none⟩], false, (.name N.«bool»), (some (.ret (.bin .or (.bin .and (.bin .ge (.mem (.var 0
    N.«value») N.«numerator») (.call 0 N.«_0» [(.name N.«Rep»)] .nil)) (.bin .gt (.mem (.var 0
    N.«value») N.«denominator») (.call 0 N.«_0» [(.name N.«Rep»)] .nil))) (.bin .and (.bin .le
    (.mem (.var 0 N.«value») N.«numerator») (.call 0 N.«_0» [(.name N.«Rep»)] .nil)) (.bin .lt
    (.mem (.var 0 N.«value») N.«denominator») (.call 0 N.«_0» [(.name N.«Rep»)] .nil)))) .nil))⟩

def F.is_zero_1 : Func :=
  ⟨0, N.«is_zero», [N.«Rep»], [⟨(.app1 N.«raw_fraction» (.name N.«Rep»)), N.«value», none⟩], false,
    (.name N.«bool»), (some (.ret (.bin .and (.call 0 N.«is_defined» [] (.cons (.var 0 N.«value»)
    .nil)) (.bin .eq (.mem (.var 0 N.«value») N.«numerator») (.call 0 N.«_0» [(.name N.«Rep»)]
    .nil))) .nil))⟩

def F.is_non_positive_1 : Func :=
  ⟨0, N.«is_non_positive», [N.«Rep»], [⟨(.app1 N.«raw_fraction» (.name N.«Rep»)), N.«value»,
    none⟩], false, (.name N.«bool»), (some (.ret (.bin .or (.bin .and (.bin .ge (.mem (.var 0
    N.«value») N.«numerator») (.call 0 N.«_0» [(.name N.«Rep»)] .nil)) (.bin .lt (.mem (.var 0
    N.«value») N.«denominator») (.call 0 N.«_0» [(.name N.«Rep»)] .nil))) (.bin .and (.bin .le
    (.mem (.var 0 N.«value») N.«numerator») (.call 0 N.«_0» [(.name N.«Rep»)] .nil)) (.bin .gt
    (.mem (.var 0 N.«value») N.«denominator») (.call 0 N.«_0» [(.name N.«Rep»)] .nil)))) .nil))⟩

def F.is_negative_1 : Func :=
  ⟨0, N.«is_negative», [N.«Rep»], [⟨(.app1 N.«raw_fraction» (.name N.«Rep»)), N.«value», none⟩],
    false, (.name N.«bool»), (some (.ret (.bin .or (.bin .and (.bin .gt (.mem (.var 0 N.«value»)
    N.«numerator») (.call 0 N.«_0» [(.name N.«Rep»)] .nil)) (.bin .lt (.mem (.var 0 N.«value»)
    N.«denominator») (.call 0 N.«_0» [(.name N.«Rep»)] .nil))) (.bin .and (.bin .lt (.mem (.var 0
    N.«value») N.«numerator») (.call 0 N.«_0» [(.name N.«Rep»)] .nil)) (.bin .gt (.mem (.var 0
    N.«value») N.«denominator») (.call 0 N.«_0» [(.name N.«Rep»)] .nil)))) .nil))⟩

def F.is_integer_1 : Func :=
  ⟨0, N.«is_integer», [N.«Rep»], [⟨(.app1 N.«raw_fraction» (.name N.«Rep»)), N.«value», none⟩],
    false, (.name N.«bool»), (some (.ret (.bin .and (.call 0 N.«is_defined» [] (.cons (.var 0
    N.«value») .nil)) (.bin .eq (.bin .mod (.mem (.var 0 N.«value») N.«numerator») (.mem (.var 0
    N.«value») N.«denominator»)) (.call 0 N.«_0» [(.name N.«Rep»)] .nil))) .nil))⟩

def F.is_unit_fraction_1 : Func :=
  ⟨0, N.«is_unit_fraction», [N.«Rep»], [⟨(.app1 N.«raw_fraction» (.name N.«Rep»)), N.«value»,
    none⟩], false, (.name N.«bool»), (some (.ret (.bin .and (.bin .and (.call 0 N.«is_defined» []
    (.cons (.var 0 N.«value») .nil)) (.bin .ne (.mem (.var 0 N.«value») N.«numerator») (.call 0
    N.«_0» [(.name N.«Rep»)] .nil))) (.bin .eq (.bin .mod (.mem (.var 0 N.«value») N.«denominator»)
    (.mem (.var 0 N.«value») N.«numerator»)) (.call 0 N.«_0» [(.name N.«Rep»)] .nil))) .nil))⟩

def F.is_reduced_ignore_signs_1 : Func :=
  ⟨0, N.«is_reduced_ignore_signs», [N.«Rep»], [⟨(.app1 N.«raw_fraction» (.name N.«Rep»)),
    N.«value», none⟩], false, (.name N.«bool»), (some (.ret (.bin .and (.call 0 N.«is_defined» []
    (.cons (.var 0 N.«value») .nil)) (.bin .eq (.call N.«std» N.«gcd» [] (.cons (.mem (.var 0
    N.«value») N.«numerator») (.cons (.mem (.var 0 N.«value») N.«denominator») .nil))) (.call 0
    N.«_1» [(.name N.«Rep»)] .nil))) .nil))⟩

def F.is_reduced_1 : Func :=
  ⟨0, N.«is_reduced», [N.«Rep»], [⟨(.app1 N.«raw_fraction» (.name N.«Rep»)), N.«value», none⟩],
    false, (.name N.«bool»), (some (.decl N.«signs_are_normalized» (.bin .or (.bin .gt (.mem (.var
    0 N.«value») N.«numerator») (.call 0 N.«_0» [(.name N.«Rep»)] .nil)) (.bin .gt (.mem (.var 0
    N.«value») N.«denominator») (.call 0 N.«_0» [(.name N.«Rep»)] .nil))) (.ret (.bin .and (.var 0
    N.«signs_are_normalized») (.call 0 N.«is_reduced_ignore_signs» [] (.cons (.var 0 N.«value»)
    .nil))) .nil)))⟩

def F.is_proper_1 : Func :=
  ⟨0, N.«is_proper», [N.«Rep»], [⟨(.app1 N.«raw_fraction» (.name N.«Rep»)), N.«value», none⟩],
    false, (.name N.«bool»), (some (.ret (.bin .lt (.call N.«math_utilities» N.«abs» [] (.cons
    (.mem (.var 0 N.«value») N.«numerator») .nil)) (.call N.«math_utilities» N.«abs» [] (.cons
    (.mem (.var 0 N.«value») N.«denominator») .nil))) .nil))⟩

def F.is_improper_1 : Func :=
  ⟨0, N.«is_improper», [N.«Rep»], [⟨(.app1 N.«raw_fraction» (.name N.«Rep»)), N.«value», none⟩],
    false, (.name N.«bool»), (some (.ret (.un .not (.call 0 N.«is_proper» [] (.cons (.var 0
    N.«value») .nil))) .nil))⟩

def F.are_identical_1 : Func :=
  ⟨0, N.«are_identical», [N.«Rep»], [⟨(.app1 N.«raw_fraction» (.name N.«Rep»)), N.«left», none⟩,
    ⟨(.app1 N.«raw_fraction» (.name N.«Rep»)), N.«right», none⟩], false, (.name N.«bool»), (some
    (.ret (.bin .and (.bin .eq (.mem (.var 0 N.«left») N.«numerator») (.mem (.var 0 N.«right»)
    N.«numerator»)) (.bin .eq (.mem (.var 0 N.«left») N.«denominator») (.mem (.var 0 N.«right»)
    N.«denominator»))) .nil))⟩

def F.are_different_1 : Func :=
  ⟨0, N.«are_different», [N.«Rep»], [⟨(.app1 N.«raw_fraction» (.name N.«Rep»)), N.«left», none⟩,
    ⟨(.app1 N.«raw_fraction» (.name N.«Rep»)), N.«right», none⟩], false, (.name N.«bool»), (some
    (.ret (.un .not (.call 0 N.«are_identical» [] (.cons (.var 0 N.«left») (.cons (.var 0
    N.«right») .nil)))) .nil))⟩

/-! ## `/repo/include/ieme/raw_fraction_math.hpp` -/

def F.reciprocal_1 : Func :=
  ⟨0, N.«reciprocal», [N.«Rep»], [⟨(.app1 N.«raw_fraction» (.name N.«Rep»)), N.«value», none⟩],
    false, (.app1 N.«raw_fraction» (.name N.«Rep»)), (some (.retBrace (.cons (.mem (.var 0
    N.«value») N.«denominator») (.cons (.mem (.var 0 N.«value») N.«numerator») .nil)) .nil))⟩

def F.normalize_signs_1 : Func :=
  ⟨0, N.«normalize_signs», [N.«Rep»], [⟨(.app1 N.«raw_fraction» (.name N.«Rep»)), N.«value»,
    none⟩], false, (.app1 N.«raw_fraction» (.name N.«Rep»)), (some (.ret (.cond (.bin .gt (.mem
    (.var 0 N.«value») N.«denominator») (.call 0 N.«_0» [(.name N.«Rep»)] .nil)) (.var 0 N.«value»)
    (.call 0 N.«raw_fraction» [(.name N.«Rep»)] (.cons (.un .neg (.mem (.var 0 N.«value»)
    N.«numerator»)) (.cons (.un .neg (.mem (.var 0 N.«value») N.«denominator»)) .nil)))) .nil))⟩

def F.reduce_1 : Func :=
  ⟨0, N.«reduce», [N.«Rep»], [⟨(.app1 N.«raw_fraction» (.name N.«Rep»)), N.«value», none⟩, ⟨(.name
    N.«reduce_mode»), N.«mode», (some (.var N.«reduce_mode» N.«normalize_signs»))⟩], false, (.app1
    N.«raw_fraction» (.name N.«Rep»)), (some (.switch (.var 0 N.«mode») (.case (.var
    N.«reduce_mode» N.«normalize_signs») (.ret (.call 0 N.«reduce_normalize_signs» [] (.cons (.var
    0 N.«value») .nil)) (.case (.var N.«reduce_mode» N.«ignore_signs») (.ret (.call 0
    N.«reduce_ignore_signs» [] (.cons (.var 0 N.«value») .nil)) .nil)))) (.retBrace (.cons (.call 0
    N.«_0» [(.name N.«Rep»)] .nil) (.cons (.call 0 N.«_0» [(.name N.«Rep»)] .nil) .nil)) .nil)))⟩

def F.reduce_normalize_signs_1 : Func :=
  ⟨0, N.«reduce_normalize_signs», [N.«Rep»], [⟨(.app1 N.«raw_fraction» (.name N.«Rep»)), N.«value»,
    none⟩], false, (.app1 N.«raw_fraction» (.name N.«Rep»)), (some (.ret (.call 0
    N.«normalize_signs» [] (.cons (.call 0 N.«reduce_ignore_signs» [] (.cons (.var 0 N.«value»)
    .nil)) .nil)) .nil))⟩

def F.reduce_ignore_signs_1 : Func :=
  ⟨0, N.«reduce_ignore_signs», [N.«Rep»], [⟨(.app1 N.«raw_fraction» (.name N.«Rep»)), N.«value»,
    none⟩], false, (.app1 N.«raw_fraction» (.name N.«Rep»)), (some (.ite (.call 0 N.«is_undefined»
    [] (.cons (.var 0 N.«value») .nil)) (.retBrace (.cons (.call 0 N.«_0» [(.name N.«Rep»)] .nil)
    (.cons (.call 0 N.«_0» [(.name N.«Rep»)] .nil) .nil)) .nil) .nil (.decl N.«gcd» (.call N.«std»
    N.«gcd» [] (.cons (.mem (.var 0 N.«value») N.«numerator») (.cons (.mem (.var 0 N.«value»)
    N.«denominator») .nil))) (.retBrace (.cons (.bin .div (.mem (.var 0 N.«value») N.«numerator»)
    (.var 0 N.«gcd»)) (.cons (.bin .div (.mem (.var 0 N.«value») N.«denominator») (.var 0 N.«gcd»))
    .nil)) .nil))))⟩

/-! ## `/repo/include/ieme/ops.hpp` -/

def Cls.safe : Cls :=
  ⟨N.«safe», [], [], [], []⟩

def Cls.fast : Cls :=
  ⟨N.«fast», [], [], [], []⟩

def Cls.reduced_input : Cls :=
  ⟨N.«reduced_input», [N.«Ops», N.«Mode»], [(N.«ops_type», (.name N.«Ops»))], [(N.«mode»,
    N.«Mode»)], []⟩

def Cls.reduced_output : Cls :=
  ⟨N.«reduced_output», [N.«Ops», N.«Mode»], [(N.«ops_type», (.name N.«Ops»))], [(N.«mode»,
    N.«Mode»)], []⟩

def F.safe_negate_1 : Func :=
  ⟨N.«safe», N.«negate», [N.«Rep»], [⟨(.app1 N.«raw_fraction» (.name N.«Rep»)), N.«value», none⟩],
    false, (.app1 N.«raw_fraction» (.name N.«Rep»)), (some (.retBrace (.cons (.un .neg (.mem (.var
    0 N.«value») N.«numerator»)) (.cons (.mem (.var 0 N.«value») N.«denominator») .nil)) .nil))⟩

def F.safe_plus_1 : Func :=
  ⟨N.«safe», N.«plus», [N.«Rep»], [⟨(.app1 N.«raw_fraction» (.name N.«Rep»)), N.«left», none⟩,
    ⟨(.app1 N.«raw_fraction» (.name N.«Rep»)), N.«right», none⟩], false, (.app1 N.«raw_fraction»
    (.name N.«Rep»)), (some (.decl N.«lcm» (.call N.«std» N.«lcm» [] (.cons (.mem (.var 0 N.«left»)
    N.«denominator») (.cons (.mem (.var 0 N.«right») N.«denominator») .nil))) (.retBrace (.cons
    (.bin .add (.bin .mul (.bin .div (.var 0 N.«lcm») (.mem (.var 0 N.«left») N.«denominator»))
    (.mem (.var 0 N.«left») N.«numerator»)) (.bin .mul (.bin .div (.var 0 N.«lcm») (.mem (.var 0
    N.«right») N.«denominator»)) (.mem (.var 0 N.«right») N.«numerator»))) (.cons (.var 0 N.«lcm»)
    .nil)) .nil)))⟩

def F.safe_plus_2 : Func :=
  ⟨N.«safe», N.«plus», [N.«Rep»], [⟨(.app1 N.«raw_fraction» (.name N.«Rep»)), N.«left», none⟩,
    ⟨(.name N.«Rep»), N.«right», none⟩], false, (.app1 N.«raw_fraction» (.name N.«Rep»)), (some
    (.retBrace (.cons (.bin .add (.mem (.var 0 N.«left») N.«numerator») (.bin .mul (.var 0
    N.«right») (.mem (.var 0 N.«left») N.«denominator»))) (.cons (.mem (.var 0 N.«left»)
    N.«denominator») .nil)) .nil))⟩

def F.safe_plus_3 : Func :=
  ⟨N.«safe», N.«plus», [N.«Rep»], [⟨(.name N.«Rep»), N.«left», none⟩, ⟨(.app1 N.«raw_fraction»
    (.name N.«Rep»)), N.«right», none⟩], false, (.app1 N.«raw_fraction» (.name N.«Rep»)), (some
    (.ret (.call 0 N.«plus» [] (.cons (.var 0 N.«right») (.cons (.var 0 N.«left») .nil))) .nil))⟩

def F.safe_minus_1 : Func :=
  ⟨N.«safe», N.«minus», [N.«Rep»], [⟨(.app1 N.«raw_fraction» (.name N.«Rep»)), N.«left», none⟩,
    ⟨(.app1 N.«raw_fraction» (.name N.«Rep»)), N.«right», none⟩], false, (.app1 N.«raw_fraction»
    (.name N.«Rep»)), (some (.decl N.«lcm» (.call N.«std» N.«lcm» [] (.cons (.mem (.var 0 N.«left»)
    N.«denominator») (.cons (.mem (.var 0 N.«right») N.«denominator») .nil))) (.retBrace (.cons
    (.bin .sub (.bin .mul (.bin .div (.var 0 N.«lcm») (.mem (.var 0 N.«left») N.«denominator»))
    (.mem (.var 0 N.«left») N.«numerator»)) (.bin .mul (.bin .div (.var 0 N.«lcm») (.mem (.var 0
    N.«right») N.«denominator»)) (.mem (.var 0 N.«right») N.«numerator»))) (.cons (.var 0 N.«lcm»)
    .nil)) .nil)))⟩

def F.safe_minus_2 : Func :=
  ⟨N.«safe», N.«minus», [N.«Rep»], [⟨(.app1 N.«raw_fraction» (.name N.«Rep»)), N.«left», none⟩,
    ⟨(.name N.«Rep»), N.«right», none⟩], false, (.app1 N.«raw_fraction» (.name N.«Rep»)), (some
    (.retBrace (.cons (.bin .sub (.mem (.var 0 N.«left») N.«numerator») (.bin .mul (.var 0
    N.«right») (.mem (.var 0 N.«left») N.«denominator»))) (.cons (.mem (.var 0 N.«left»)
    N.«denominator») .nil)) .nil))⟩

def F.safe_minus_3 : Func :=
  ⟨N.«safe», N.«minus», [N.«Rep»], [⟨(.name N.«Rep»), N.«left», none⟩, ⟨(.app1 N.«raw_fraction»
    (.name N.«Rep»)), N.«right», none⟩], false, (.app1 N.«raw_fraction» (.name N.«Rep»)), (some
    (.retBrace (.cons (.bin .sub (.bin .mul (.var 0 N.«left») (.mem (.var 0 N.«right»)
    N.«denominator»)) (.mem (.var 0 N.«right») N.«numerator»)) (.cons (.mem (.var 0 N.«right»)
    N.«denominator») .nil)) .nil))⟩

def F.safe_multiplies_1 : Func :=
  ⟨N.«safe», N.«multiplies», [N.«Rep»], [⟨(.app1 N.«raw_fraction» (.name N.«Rep»)), N.«left»,
    none⟩, ⟨(.app1 N.«raw_fraction» (.name N.«Rep»)), N.«right», none⟩], false, (.app1
    N.«raw_fraction» (.name N.«Rep»)), (some (.retBrace (.cons (.bin .mul (.mem (.var 0 N.«left»)
    N.«numerator») (.mem (.var 0 N.«right») N.«numerator»)) (.cons (.bin .mul (.mem (.var 0
    N.«left») N.«denominator») (.mem (.var 0 N.«right») N.«denominator»)) .nil)) .nil))⟩

def F.safe_multiplies_2 : Func :=
  ⟨N.«safe», N.«multiplies», [N.«Rep»], [⟨(.app1 N.«raw_fraction» (.name N.«Rep»)), N.«left»,
    none⟩, ⟨(.name N.«Rep»), N.«right», none⟩], false, (.app1 N.«raw_fraction» (.name N.«Rep»)),
    (some (.retBrace (.cons (.bin .mul (.mem (.var 0 N.«left») N.«numerator») (.var 0 N.«right»))
    (.cons (.mem (.var 0 N.«left») N.«denominator») .nil)) .nil))⟩

def F.safe_multiplies_3 : Func :=
  ⟨N.«safe», N.«multiplies», [N.«Rep»], [⟨(.name N.«Rep»), N.«left», none⟩, ⟨(.app1
    N.«raw_fraction» (.name N.«Rep»)), N.«right», none⟩], false, (.app1 N.«raw_fraction» (.name
    N.«Rep»)), (some (.ret (.call 0 N.«multiplies» [] (.cons (.var 0 N.«right») (.cons (.var 0
    N.«left») .nil))) .nil))⟩

def F.safe_divides_1 : Func :=
  ⟨N.«safe», N.«divides», [N.«Rep»], [⟨(.app1 N.«raw_fraction» (.name N.«Rep»)), N.«left», none⟩,
    ⟨(.app1 N.«raw_fraction» (.name N.«Rep»)), N.«right», none⟩], false, (.app1 N.«raw_fraction»
    (.name N.«Rep»)), (some (.retBrace (.cons (.bin .mul (.mem (.var 0 N.«left») N.«numerator»)
    (.mem (.var 0 N.«right») N.«denominator»)) (.cons (.bin .mul (.mem (.var 0 N.«left»)
    N.«denominator») (.mem (.var 0 N.«right») N.«numerator»)) .nil)) .nil))⟩

def F.safe_divides_2 : Func :=
  ⟨N.«safe», N.«divides», [N.«Rep»], [⟨(.app1 N.«raw_fraction» (.name N.«Rep»)), N.«left», none⟩,
    ⟨(.name N.«Rep»), N.«right», none⟩], false, (.app1 N.«raw_fraction» (.name N.«Rep»)), (some
    (.retBrace (.cons (.mem (.var 0 N.«left») N.«numerator») (.cons (.bin .mul (.mem (.var 0
    N.«left») N.«denominator») (.var 0 N.«right»)) .nil)) .nil))⟩

def F.safe_divides_3 : Func :=
  ⟨N.«safe», N.«divides», [N.«Rep»], [⟨(.name N.«Rep»), N.«left», none⟩, ⟨(.app1 N.«raw_fraction»
    (.name N.«Rep»)), N.«right», none⟩], false, (.app1 N.«raw_fraction» (.name N.«Rep»)), (some
    (.retBrace (.cons (.bin .mul (.var 0 N.«left») (.mem (.var 0 N.«right») N.«denominator»))
    (.cons (.mem (.var 0 N.«right») N.«numerator») .nil)) .nil))⟩

def F.safe_modulus_1 : Func :=
  ⟨N.«safe», N.«modulus», [N.«Rep»], [⟨(.app1 N.«raw_fraction» (.name N.«Rep»)), N.«left», none⟩,
    ⟨(.app1 N.«raw_fraction» (.name N.«Rep»)), N.«right», none⟩], false, (.app1 N.«raw_fraction»
    (.name N.«Rep»)), (some (.decl N.«lcm» (.call N.«std» N.«lcm» [] (.cons (.mem (.var 0 N.«left»)
    N.«denominator») (.cons (.mem (.var 0 N.«right») N.«denominator») .nil))) (.retBrace (.cons
    (.bin .mod (.bin .mul (.bin .div (.var 0 N.«lcm») (.mem (.var 0 N.«left») N.«denominator»))
    (.mem (.var 0 N.«left») N.«numerator»)) (.bin .mul (.bin .div (.var 0 N.«lcm») (.mem (.var 0
    N.«right») N.«denominator»)) (.mem (.var 0 N.«right») N.«numerator»))) (.cons (.var 0 N.«lcm»)
    .nil)) .nil)))⟩

def F.safe_modulus_2 : Func :=
  ⟨N.«safe», N.«modulus», [N.«Rep»], [⟨(.app1 N.«raw_fraction» (.name N.«Rep»)), N.«left», none⟩,
    ⟨(.name N.«Rep»), N.«right», none⟩], false, (.app1 N.«raw_fraction» (.name N.«Rep»)), (some
    (.retBrace (.cons (.bin .mod (.mem (.var 0 N.«left») N.«numerator») (.bin .mul (.mem (.var 0
    N.«left») N.«denominator») (.var 0 N.«right»))) (.cons (.mem (.var 0 N.«left») N.«denominator»)
    .nil)) .nil))⟩

def F.safe_modulus_3 : Func :=
  ⟨N.«safe», N.«modulus», [N.«Rep»], [⟨(.name N.«Rep»), N.«left», none⟩, ⟨(.app1 N.«raw_fraction»
    (.name N.«Rep»)), N.«right», none⟩], false, (.app1 N.«raw_fraction» (.name N.«Rep»)), (some
    (.retBrace (.cons (.bin .mod (.bin .mul (.mem (.var 0 N.«right») N.«denominator») (.var 0
    N.«left»)) (.mem (.var 0 N.«right») N.«numerator»)) (.cons (.mem (.var 0 N.«right»)
    N.«denominator») .nil)) .nil))⟩

def F.safe_equal_to_1 : Func :=
  ⟨N.«safe», N.«equal_to», [N.«Rep»], [⟨(.app1 N.«raw_fraction» (.name N.«Rep»)), N.«left», none⟩,
    ⟨(.app1 N.«raw_fraction» (.name N.«Rep»)), N.«right», none⟩], false, (.name N.«bool»), (some
    (.ite (.bin .or (.call 0 N.«is_undefined» [] (.cons (.var 0 N.«left») .nil)) (.call 0
    N.«is_undefined» [] (.cons (.var 0 N.«right») .nil))) (.ret (.var 0 N.«false») .nil) .nil
    (.decl N.«lcm» (.call N.«std» N.«lcm» [] (.cons (.mem (.var 0 N.«left») N.«denominator») (.cons
    (.mem (.var 0 N.«right») N.«denominator») .nil))) (.ret (.bin .eq (.bin .mul (.bin .div (.var 0
    N.«lcm») (.mem (.var 0 N.«left») N.«denominator»)) (.mem (.var 0 N.«left») N.«numerator»))
    (.bin .mul (.bin .div (.var 0 N.«lcm») (.mem (.var 0 N.«right») N.«denominator»)) (.mem (.var 0
    N.«right») N.«numerator»))) .nil))))⟩

def F.safe_equal_to_2 : Func :=
  ⟨N.«safe», N.«equal_to», [N.«Rep»], [⟨(.app1 N.«raw_fraction» (.name N.«Rep»)), N.«left», none⟩,
    ⟨(.name N.«Rep»), N.«right», none⟩], false, (.name N.«bool»), (some (.ret (.bin .and (.bin .eq
    (.mem (.var 0 N.«left») N.«numerator») (.bin .mul (.var 0 N.«right») (.mem (.var 0 N.«left»)
    N.«denominator»))) (.call 0 N.«is_defined» [] (.cons (.var 0 N.«left») .nil))) .nil))⟩

def F.safe_equal_to_3 : Func :=
  ⟨N.«safe», N.«equal_to», [N.«Rep»], [⟨(.name N.«Rep»), N.«left», none⟩, ⟨(.app1 N.«raw_fraction»
    (.name N.«Rep»)), N.«right», none⟩], false, (.name N.«bool»), (some (.ret (.call 0 N.«equal_to»
    [] (.cons (.var 0 N.«right») (.cons (.var 0 N.«left») .nil))) .nil))⟩

def F.safe_not_equal_to_1 : Func :=
  ⟨N.«safe», N.«not_equal_to», [N.«Rep»], [⟨(.app1 N.«raw_fraction» (.name N.«Rep»)), N.«left»,
    none⟩, ⟨(.app1 N.«raw_fraction» (.name N.«Rep»)), N.«right», none⟩], false, (.name N.«bool»),
    (some (.ret (.un .not (.call 0 N.«equal_to» [] (.cons (.var 0 N.«left») (.cons (.var 0
    N.«right») .nil)))) .nil))⟩

def F.safe_not_equal_to_2 : Func :=
  ⟨N.«safe», N.«not_equal_to», [N.«Rep»], [⟨(.app1 N.«raw_fraction» (.name N.«Rep»)), N.«left»,
    none⟩, ⟨(.name N.«Rep»), N.«right», none⟩], false, (.name N.«bool»), (some (.ret (.un .not
    (.call 0 N.«equal_to» [] (.cons (.var 0 N.«left») (.cons (.var 0 N.«right») .nil)))) .nil))⟩

def F.safe_not_equal_to_3 : Func :=
  ⟨N.«safe», N.«not_equal_to», [N.«Rep»], [⟨(.name N.«Rep»), N.«left», none⟩, ⟨(.app1
    N.«raw_fraction» (.name N.«Rep»)), N.«right», none⟩], false, (.name N.«bool»), (some (.ret
    (.call 0 N.«not_equal_to» [] (.cons (.var 0 N.«right») (.cons (.var 0 N.«left») .nil))) .nil))⟩

def F.safe_less_1 : Func :=
  ⟨N.«safe», N.«less», [N.«Rep»], [⟨(.app1 N.«raw_fraction» (.name N.«Rep»)), N.«left», none⟩,
    ⟨(.app1 N.«raw_fraction» (.name N.«Rep»)), N.«right», none⟩], false, (.name N.«bool»), (some
    (.ite (.bin .or (.call 0 N.«is_undefined» [] (.cons (.var 0 N.«left») .nil)) (.call 0
    N.«is_undefined» [] (.cons (.var 0 N.«right») .nil))) (.ret (.var 0 N.«false») .nil) .nil
    (.decl N.«lcm» (.call N.«std» N.«lcm» [] (.cons (.mem (.var 0 N.«left») N.«denominator») (.cons
    (.mem (.var 0 N.«right») N.«denominator») .nil))) (.ret (.bin .lt (.bin .mul (.bin .div (.var 0
    N.«lcm») (.mem (.var 0 N.«left») N.«denominator»)) (.mem (.var 0 N.«left») N.«numerator»))
    (.bin .mul (.bin .div (.var 0 N.«lcm») (.mem (.var 0 N.«right») N.«denominator»)) (.mem (.var 0
    N.«right») N.«numerator»))) .nil))))⟩

def F.safe_less_2 : Func :=
  ⟨N.«safe», N.«less», [N.«Rep»], [⟨(.app1 N.«raw_fraction» (.name N.«Rep»)), N.«left», none⟩,
    ⟨(.name N.«Rep»), N.«right», none⟩], false, (.name N.«bool»), (some (.ret (.bin .and (.bin .lt
    (.mem (.var 0 N.«left») N.«numerator») (.bin .mul (.var 0 N.«right») (.mem (.var 0 N.«left»)
    N.«denominator»))) (.call 0 N.«is_defined» [] (.cons (.var 0 N.«left») .nil))) .nil))⟩

def F.safe_less_3 : Func :=
  ⟨N.«safe», N.«less», [N.«Rep»], [⟨(.name N.«Rep»), N.«left», none⟩, ⟨(.app1 N.«raw_fraction»
    (.name N.«Rep»)), N.«right», none⟩], false, (.name N.«bool»), (some (.ret (.bin .and (.bin .lt
    (.bin .mul (.var 0 N.«left») (.mem (.var 0 N.«right») N.«denominator»)) (.mem (.var 0
    N.«right») N.«numerator»)) (.call 0 N.«is_defined» [] (.cons (.var 0 N.«right») .nil))) .nil))⟩

def F.safe_less_equal_1 : Func :=
  ⟨N.«safe», N.«less_equal», [N.«Rep»], [⟨(.app1 N.«raw_fraction» (.name N.«Rep»)), N.«left»,
    none⟩, ⟨(.app1 N.«raw_fraction» (.name N.«Rep»)), N.«right», none⟩], false, (.name N.«bool»),
    (some (.ite (.bin .or (.call 0 N.«is_undefined» [] (.cons (.var 0 N.«left») .nil)) (.call 0
    N.«is_undefined» [] (.cons (.var 0 N.«right») .nil))) (.ret (.var 0 N.«false») .nil) .nil
    (.decl N.«lcm» (.call N.«std» N.«lcm» [] (.cons (.mem (.var 0 N.«left») N.«denominator») (.cons
    (.mem (.var 0 N.«right») N.«denominator») .nil))) (.ret (.bin .le (.bin .mul (.bin .div (.var 0
    N.«lcm») (.mem (.var 0 N.«left») N.«denominator»)) (.mem (.var 0 N.«left») N.«numerator»))
    (.bin .mul (.bin .div (.var 0 N.«lcm») (.mem (.var 0 N.«right») N.«denominator»)) (.mem (.var 0
    N.«right») N.«numerator»))) .nil))))⟩

def F.safe_less_equal_2 : Func :=
  ⟨N.«safe», N.«less_equal», [N.«Rep»], [⟨(.app1 N.«raw_fraction» (.name N.«Rep»)), N.«left»,
    none⟩, ⟨(.name N.«Rep»), N.«right», none⟩], false, (.name N.«bool»), (some (.ret (.bin .and
    (.bin .le (.mem (.var 0 N.«left») N.«numerator») (.bin .mul (.var 0 N.«right») (.mem (.var 0
    N.«left») N.«denominator»))) (.call 0 N.«is_defined» [] (.cons (.var 0 N.«left») .nil)))
    .nil))⟩

def F.safe_less_equal_3 : Func :=
  ⟨N.«safe», N.«less_equal», [N.«Rep»], [⟨(.name N.«Rep»), N.«left», none⟩, ⟨(.app1
    N.«raw_fraction» (.name N.«Rep»)), N.«right», none⟩], false, (.name N.«bool»), (some (.ret
    (.bin .and (.bin .le (.bin .mul (.var 0 N.«left») (.mem (.var 0 N.«right») N.«denominator»))
    (.mem (.var 0 N.«right») N.«numerator»)) (.call 0 N.«is_defined» [] (.cons (.var 0 N.«right»)
    .nil))) .nil))⟩

def F.safe_greater_1 : Func :=
  ⟨N.«safe», N.«greater», [N.«Rep»], [⟨(.app1 N.«raw_fraction» (.name N.«Rep»)), N.«left», none⟩,
    ⟨(.app1 N.«raw_fraction» (.name N.«Rep»)), N.«right», none⟩], false, (.name N.«bool»), (some
    (.ret (.call 0 N.«less» [] (.cons (.var 0 N.«right») (.cons (.var 0 N.«left») .nil))) .nil))⟩

def F.safe_greater_2 : Func :=
  ⟨N.«safe», N.«greater», [N.«Rep»], [⟨(.app1 N.«raw_fraction» (.name N.«Rep»)), N.«left», none⟩,
    ⟨(.name N.«Rep»), N.«right», none⟩], false, (.name N.«bool»), (some (.ret (.call 0 N.«less» []
    (.cons (.var 0 N.«right») (.cons (.var 0 N.«left») .nil))) .nil))⟩

def F.safe_greater_3 : Func :=
  ⟨N.«safe», N.«greater», [N.«Rep»], [⟨(.name N.«Rep»), N.«left», none⟩, ⟨(.app1 N.«raw_fraction»
    (.name N.«Rep»)), N.«right», none⟩], false, (.name N.«bool»), (some (.ret (.call 0 N.«less» []
    (.cons (.var 0 N.«right») (.cons (.var 0 N.«left») .nil))) .nil))⟩

def F.safe_greater_equal_1 : Func :=
  ⟨N.«safe», N.«greater_equal», [N.«Rep»], [⟨(.app1 N.«raw_fraction» (.name N.«Rep»)), N.«left»,
    none⟩, ⟨(.app1 N.«raw_fraction» (.name N.«Rep»)), N.«right», none⟩], false, (.name N.«bool»),
    (some (.ret (.call 0 N.«less_equal» [] (.cons (.var 0 N.«right») (.cons (.var 0 N.«left»)
    .nil))) .nil))⟩

def F.safe_greater_equal_2 : Func :=
  ⟨N.«safe», N.«greater_equal», [N.«Rep»], [⟨(.app1 N.«raw_fraction» (.name N.«Rep»)), N.«left»,
    none⟩, ⟨(.name N.«Rep»), N.«right», none⟩], false, (.name N.«bool»), (some (.ret (.call 0
    N.«less_equal» [] (.cons (.var 0 N.«right») (.cons (.var 0 N.«left») .nil))) .nil))⟩

def F.safe_greater_equal_3 : Func :=
  ⟨N.«safe», N.«greater_equal», [N.«Rep»], [⟨(.name N.«Rep»), N.«left», none⟩, ⟨(.app1
    N.«raw_fraction» (.name N.«Rep»)), N.«right», none⟩], false, (.name N.«bool»), (some (.ret
    (.call 0 N.«less_equal» [] (.cons (.var 0 N.«right») (.cons (.var 0 N.«left») .nil))) .nil))⟩

def F.fast_negate_1 : Func :=
  ⟨N.«fast», N.«negate», [N.«Rep»], [⟨(.app1 N.«raw_fraction» (.name N.«Rep»)), N.«value», none⟩],
    false, (.app1 N.«raw_fraction» (.name N.«Rep»)), (some (.retBrace (.cons (.un .neg (.mem (.var
    0 N.«value») N.«numerator»)) (.cons (.mem (.var 0 N.«value») N.«denominator») .nil)) .nil))⟩

def F.fast_plus_1 : Func :=
  ⟨N.«fast», N.«plus», [N.«Rep»], [⟨(.app1 N.«raw_fraction» (.name N.«Rep»)), N.«left», none⟩,
    ⟨(.app1 N.«raw_fraction» (.name N.«Rep»)), N.«right», none⟩], false, (.app1 N.«raw_fraction»
    (.name N.«Rep»)), (some (.retBrace (.cons (.bin .add (.bin .mul (.mem (.var 0 N.«left»)
    N.«numerator») (.mem (.var 0 N.«right») N.«denominator»)) (.bin .mul (.mem (.var 0 N.«right»)
    N.«numerator») (.mem (.var 0 N.«left») N.«denominator»))) (.cons (.bin .mul (.mem (.var 0
    N.«left») N.«denominator») (.mem (.var 0 N.«right») N.«denominator»)) .nil)) .nil))⟩

def F.fast_plus_2 : Func :=
  ⟨N.«fast», N.«plus», [N.«Rep»], [⟨(.app1 N.«raw_fraction» (.name N.«Rep»)), N.«left», none⟩,
    ⟨(.name N.«Rep»), N.«right», none⟩], false, (.app1 N.«raw_fraction» (.name N.«Rep»)), (some
    (.retBrace (.cons (.bin .add (.mem (.var 0 N.«left») N.«numerator») (.bin .mul (.var 0
    N.«right») (.mem (.var 0 N.«left») N.«denominator»))) (.cons (.mem (.var 0 N.«left»)
    N.«denominator») .nil)) .nil))⟩

def F.fast_plus_3 : Func :=
  ⟨N.«fast», N.«plus», [N.«Rep»], [⟨(.name N.«Rep»), N.«left», none⟩, ⟨(.app1 N.«raw_fraction»
    (.name N.«Rep»)), N.«right», none⟩], false, (.app1 N.«raw_fraction» (.name N.«Rep»)), (some
    (.ret (.call 0 N.«plus» [] (.cons (.var 0 N.«right») (.cons (.var 0 N.«left») .nil))) .nil))⟩

def F.fast_minus_1 : Func :=
  ⟨N.«fast», N.«minus», [N.«Rep»], [⟨(.app1 N.«raw_fraction» (.name N.«Rep»)), N.«left», none⟩,
    ⟨(.app1 N.«raw_fraction» (.name N.«Rep»)), N.«right», none⟩], false, (.app1 N.«raw_fraction»
    (.name N.«Rep»)), (some (.retBrace (.cons (.bin .sub (.bin .mul (.mem (.var 0 N.«left»)
    N.«numerator») (.mem (.var 0 N.«right») N.«denominator»)) (.bin .mul (.mem (.var 0 N.«right»)
    N.«numerator») (.mem (.var 0 N.«left») N.«denominator»))) (.cons (.bin .mul (.mem (.var 0
    N.«left») N.«denominator») (.mem (.var 0 N.«right») N.«denominator»)) .nil)) .nil))⟩

def F.fast_minus_2 : Func :=
  ⟨N.«fast», N.«minus», [N.«Rep»], [⟨(.app1 N.«raw_fraction» (.name N.«Rep»)), N.«left», none⟩,
    ⟨(.name N.«Rep»), N.«right», none⟩], false, (.app1 N.«raw_fraction» (.name N.«Rep»)), (some
    (.retBrace (.cons (.bin .sub (.mem (.var 0 N.«left») N.«numerator») (.bin .mul (.var 0
    N.«right») (.mem (.var 0 N.«left») N.«denominator»))) (.cons (.mem (.var 0 N.«left»)
    N.«denominator») .nil)) .nil))⟩

def F.fast_minus_3 : Func :=
  ⟨N.«fast», N.«minus», [N.«Rep»], [⟨(.name N.«Rep»), N.«left», none⟩, ⟨(.app1 N.«raw_fraction»
    (.name N.«Rep»)), N.«right», none⟩], false, (.app1 N.«raw_fraction» (.name N.«Rep»)), (some
    (.retBrace (.cons (.bin .sub (.bin .mul (.var 0 N.«left») (.mem (.var 0 N.«right»)
    N.«denominator»)) (.mem (.var 0 N.«right») N.«numerator»)) (.cons (.mem (.var 0 N.«right»)
    N.«denominator») .nil)) .nil))⟩

def F.fast_multiplies_1 : Func :=
  ⟨N.«fast», N.«multiplies», [N.«Rep»], [⟨(.app1 N.«raw_fraction» (.name N.«Rep»)), N.«left»,
    none⟩, ⟨(.app1 N.«raw_fraction» (.name N.«Rep»)), N.«right», none⟩], false, (.app1
    N.«raw_fraction» (.name N.«Rep»)), (some (.retBrace (.cons (.bin .mul (.mem (.var 0 N.«left»)
    N.«numerator») (.mem (.var 0 N.«right») N.«numerator»)) (.cons (.bin .mul (.mem (.var 0
    N.«left») N.«denominator») (.mem (.var 0 N.«right») N.«denominator»)) .nil)) .nil))⟩

def F.fast_multiplies_2 : Func :=
  ⟨N.«fast», N.«multiplies», [N.«Rep»], [⟨(.app1 N.«raw_fraction» (.name N.«Rep»)), N.«left»,
    none⟩, ⟨(.name N.«Rep»), N.«right», none⟩], false, (.app1 N.«raw_fraction» (.name N.«Rep»)),
    (some (.retBrace (.cons (.bin .mul (.mem (.var 0 N.«left») N.«numerator») (.var 0 N.«right»))
    (.cons (.mem (.var 0 N.«left») N.«denominator») .nil)) .nil))⟩

def F.fast_multiplies_3 : Func :=
  ⟨N.«fast», N.«multiplies», [N.«Rep»], [⟨(.name N.«Rep»), N.«left», none⟩, ⟨(.app1
    N.«raw_fraction» (.name N.«Rep»)), N.«right», none⟩], false, (.app1 N.«raw_fraction» (.name
    N.«Rep»)), (some (.ret (.call 0 N.«multiplies» [] (.cons (.var 0 N.«right») (.cons (.var 0
    N.«left») .nil))) .nil))⟩

def F.fast_divides_1 : Func :=
  ⟨N.«fast», N.«divides», [N.«Rep»], [⟨(.app1 N.«raw_fraction» (.name N.«Rep»)), N.«left», none⟩,
    ⟨(.app1 N.«raw_fraction» (.name N.«Rep»)), N.«right», none⟩], false, (.app1 N.«raw_fraction»
    (.name N.«Rep»)), (some (.retBrace (.cons (.bin .mul (.mem (.var 0 N.«left») N.«numerator»)
    (.mem (.var 0 N.«right») N.«denominator»)) (.cons (.bin .mul (.mem (.var 0 N.«left»)
    N.«denominator») (.mem (.var 0 N.«right») N.«numerator»)) .nil)) .nil))⟩

def F.fast_divides_2 : Func :=
  ⟨N.«fast», N.«divides», [N.«Rep»], [⟨(.app1 N.«raw_fraction» (.name N.«Rep»)), N.«left», none⟩,
    ⟨(.name N.«Rep»), N.«right», none⟩], false, (.app1 N.«raw_fraction» (.name N.«Rep»)), (some
    (.retBrace (.cons (.mem (.var 0 N.«left») N.«numerator») (.cons (.bin .mul (.mem (.var 0
    N.«left») N.«denominator») (.var 0 N.«right»)) .nil)) .nil))⟩

def F.fast_divides_3 : Func :=
  ⟨N.«fast», N.«divides», [N.«Rep»], [⟨(.name N.«Rep»), N.«left», none⟩, ⟨(.app1 N.«raw_fraction»
    (.name N.«Rep»)), N.«right», none⟩], false, (.app1 N.«raw_fraction» (.name N.«Rep»)), (some
    (.retBrace (.cons (.bin .mul (.var 0 N.«left») (.mem (.var 0 N.«right») N.«denominator»))
    (.cons (.mem (.var 0 N.«right») N.«numerator») .nil)) .nil))⟩

def F.fast_modulus_1 : Func :=
  ⟨N.«fast», N.«modulus», [N.«Rep»], [⟨(.app1 N.«raw_fraction» (.name N.«Rep»)), N.«left», none⟩,
    ⟨(.app1 N.«raw_fraction» (.name N.«Rep»)), N.«right», none⟩], false, (.app1 N.«raw_fraction»
    (.name N.«Rep»)), (some (.retBrace (.cons (.bin .mod (.bin .mul (.mem (.var 0 N.«left»)
    N.«numerator») (.mem (.var 0 N.«right») N.«denominator»)) (.bin .mul (.mem (.var 0 N.«right»)
    N.«numerator») (.mem (.var 0 N.«left») N.«denominator»))) (.cons (.bin .mul (.mem (.var 0
    N.«left») N.«denominator») (.mem (.var 0 N.«right») N.«denominator»)) .nil)) .nil))⟩

def F.fast_modulus_2 : Func :=
  ⟨N.«fast», N.«modulus», [N.«Rep»], [⟨(.app1 N.«raw_fraction» (.name N.«Rep»)), N.«left», none⟩,
    ⟨(.name N.«Rep»), N.«right», none⟩], false, (.app1 N.«raw_fraction» (.name N.«Rep»)), (some
    (.retBrace (.cons (.bin .mod (.mem (.var 0 N.«left») N.«numerator») (.bin .mul (.var 0
    N.«right») (.mem (.var 0 N.«left») N.«denominator»))) (.cons (.mem (.var 0 N.«left»)
    N.«denominator») .nil)) .nil))⟩

def F.fast_modulus_3 : Func :=
  ⟨N.«fast», N.«modulus», [N.«Rep»], [⟨(.name N.«Rep»), N.«left», none⟩, ⟨(.app1 N.«raw_fraction»
    (.name N.«Rep»)), N.«right», none⟩], false, (.app1 N.«raw_fraction» (.name N.«Rep»)), (some
    (.retBrace (.cons (.bin .mod (.bin .mul (.var 0 N.«left») (.mem (.var 0 N.«right»)
    N.«denominator»)) (.mem (.var 0 N.«right») N.«numerator»)) (.cons (.mem (.var 0 N.«right»)
    N.«denominator») .nil)) .nil))⟩

def F.fast_equal_to_1 : Func :=
  ⟨N.«fast», N.«equal_to», [N.«Rep»], [⟨(.app1 N.«raw_fraction» (.name N.«Rep»)), N.«left», none⟩,
    ⟨(.app1 N.«raw_fraction» (.name N.«Rep»)), N.«right», none⟩], false, (.name N.«bool»), (some
    (.ret (.bin .and (.bin .and (.bin .eq (.bin .mul (.mem (.var 0 N.«left») N.«numerator») (.mem
    (.var 0 N.«right») N.«denominator»)) (.bin .mul (.mem (.var 0 N.«right») N.«numerator») (.mem
    (.var 0 N.«left») N.«denominator»))) (.call 0 N.«is_defined» [] (.cons (.var 0 N.«left»)
    .nil))) (.call 0 N.«is_defined» [] (.cons (.var 0 N.«right») .nil))) .nil))⟩

def F.fast_equal_to_2 : Func :=
  ⟨N.«fast», N.«equal_to», [N.«Rep»], [⟨(.app1 N.«raw_fraction» (.name N.«Rep»)), N.«left», none⟩,
    ⟨(.name N.«Rep»), N.«right», none⟩], false, (.name N.«bool»), (some (.ret (.bin .and (.bin .eq
    (.mem (.var 0 N.«left») N.«numerator») (.bin .mul (.var 0 N.«right») (.mem (.var 0 N.«left»)
    N.«denominator»))) (.call 0 N.«is_defined» [] (.cons (.var 0 N.«left») .nil))) .nil))⟩

def F.fast_equal_to_3 : Func :=
  ⟨N.«fast», N.«equal_to», [N.«Rep»], [⟨(.name N.«Rep»), N.«left», none⟩, ⟨(.app1 N.«raw_fraction»
    (.name N.«Rep»)), N.«right», none⟩], false, (.name N.«bool»), (some (.ret (.call 0 N.«equal_to»
    [] (.cons (.var 0 N.«right») (.cons (.var 0 N.«left») .nil))) .nil))⟩

def F.fast_not_equal_to_1 : Func :=
  ⟨N.«fast», N.«not_equal_to», [N.«Rep»], [⟨(.app1 N.«raw_fraction» (.name N.«Rep»)), N.«left»,
    none⟩, ⟨(.app1 N.«raw_fraction» (.name N.«Rep»)), N.«right», none⟩], false, (.name N.«bool»),
    (some (.ret (.un .not (.call 0 N.«equal_to» [] (.cons (.var 0 N.«left») (.cons (.var 0
    N.«right») .nil)))) .nil))⟩

def F.fast_not_equal_to_2 : Func :=
  ⟨N.«fast», N.«not_equal_to», [N.«Rep»], [⟨(.app1 N.«raw_fraction» (.name N.«Rep»)), N.«left»,
    none⟩, ⟨(.name N.«Rep»), N.«right», none⟩], false, (.name N.«bool»), (some (.ret (.un .not
    (.call 0 N.«equal_to» [] (.cons (.var 0 N.«left») (.cons (.var 0 N.«right») .nil)))) .nil))⟩

def F.fast_not_equal_to_3 : Func :=
  ⟨N.«fast», N.«not_equal_to», [N.«Rep»], [⟨(.name N.«Rep»), N.«left», none⟩, ⟨(.app1
    N.«raw_fraction» (.name N.«Rep»)), N.«right», none⟩], false, (.name N.«bool»), (some (.ret (.un
    .not (.call 0 N.«equal_to» [] (.cons (.var 0 N.«left») (.cons (.var 0 N.«right») .nil))))
    .nil))⟩

def F.fast_less_1 : Func :=
  ⟨N.«fast», N.«less», [N.«Rep»], [⟨(.app1 N.«raw_fraction» (.name N.«Rep»)), N.«left», none⟩,
    ⟨(.app1 N.«raw_fraction» (.name N.«Rep»)), N.«right», none⟩], false, (.name N.«bool»), (some
    (.ret (.bin .and (.bin .and (.bin .lt (.bin .mul (.mem (.var 0 N.«left») N.«numerator») (.mem
    (.var 0 N.«right») N.«denominator»)) (.bin .mul (.mem (.var 0 N.«right») N.«numerator») (.mem
    (.var 0 N.«left») N.«denominator»))) (.call 0 N.«is_defined» [] (.cons (.var 0 N.«left»)
    .nil))) (.call 0 N.«is_defined» [] (.cons (.var 0 N.«right») .nil))) .nil))⟩

def F.fast_less_2 : Func :=
  ⟨N.«fast», N.«less», [N.«Rep»], [⟨(.app1 N.«raw_fraction» (.name N.«Rep»)), N.«left», none⟩,
    ⟨(.name N.«Rep»), N.«right», none⟩], false, (.name N.«bool»), (some (.ret (.bin .and (.bin .lt
    (.mem (.var 0 N.«left») N.«numerator») (.bin .mul (.var 0 N.«right») (.mem (.var 0 N.«left»)
    N.«denominator»))) (.call 0 N.«is_defined» [] (.cons (.var 0 N.«left») .nil))) .nil))⟩

def F.fast_less_3 : Func :=
  ⟨N.«fast», N.«less», [N.«Rep»], [⟨(.name N.«Rep»), N.«left», none⟩, ⟨(.app1 N.«raw_fraction»
    (.name N.«Rep»)), N.«right», none⟩], false, (.name N.«bool»), (some (.ret (.bin .and (.bin .lt
    (.bin .mul (.var 0 N.«left») (.mem (.var 0 N.«right») N.«denominator»)) (.mem (.var 0
    N.«right») N.«numerator»)) (.call 0 N.«is_defined» [] (.cons (.var 0 N.«right») .nil))) .nil))⟩

def F.fast_less_equal_1 : Func :=
  ⟨N.«fast», N.«less_equal», [N.«Rep»], [⟨(.app1 N.«raw_fraction» (.name N.«Rep»)), N.«left»,
    none⟩, ⟨(.app1 N.«raw_fraction» (.name N.«Rep»)), N.«right», none⟩], false, (.name N.«bool»),
    (some (.ret (.bin .and (.bin .and (.bin .le (.bin .mul (.mem (.var 0 N.«left») N.«numerator»)
    (.mem (.var 0 N.«right») N.«denominator»)) (.bin .mul (.mem (.var 0 N.«right») N.«numerator»)
    (.mem (.var 0 N.«left») N.«denominator»))) (.call 0 N.«is_defined» [] (.cons (.var 0 N.«left»)
    .nil))) (.call 0 N.«is_defined» [] (.cons (.var 0 N.«right») .nil))) .nil))⟩

def F.fast_less_equal_2 : Func :=
  ⟨N.«fast», N.«less_equal», [N.«Rep»], [⟨(.app1 N.«raw_fraction» (.name N.«Rep»)), N.«left»,
    none⟩, ⟨(.name N.«Rep»), N.«right», none⟩], false, (.name N.«bool»), (some (.ret (.bin .and
    (.bin .le (.mem (.var 0 N.«left») N.«numerator») (.bin .mul (.var 0 N.«right») (.mem (.var 0
    N.«left») N.«denominator»))) (.call 0 N.«is_defined» [] (.cons (.var 0 N.«left») .nil)))
    .nil))⟩

def F.fast_less_equal_3 : Func :=
  ⟨N.«fast», N.«less_equal», [N.«Rep»], [⟨(.name N.«Rep»), N.«left», none⟩, ⟨(.app1
    N.«raw_fraction» (.name N.«Rep»)), N.«right», none⟩], false, (.name N.«bool»), (some (.ret
    (.bin .and (.bin .le (.bin .mul (.var 0 N.«left») (.mem (.var 0 N.«right») N.«denominator»))
    (.mem (.var 0 N.«right») N.«numerator»)) (.call 0 N.«is_defined» [] (.cons (.var 0 N.«right»)
    .nil))) .nil))⟩

def F.fast_greater_1 : Func :=
  ⟨N.«fast», N.«greater», [N.«Rep»], [⟨(.app1 N.«raw_fraction» (.name N.«Rep»)), N.«left», none⟩,
    ⟨(.app1 N.«raw_fraction» (.name N.«Rep»)), N.«right», none⟩], false, (.name N.«bool»), (some
    (.ret (.call 0 N.«less» [] (.cons (.var 0 N.«right») (.cons (.var 0 N.«left») .nil))) .nil))⟩

def F.fast_greater_2 : Func :=
  ⟨N.«fast», N.«greater», [N.«Rep»], [⟨(.app1 N.«raw_fraction» (.name N.«Rep»)), N.«left», none⟩,
    ⟨(.name N.«Rep»), N.«right», none⟩], false, (.name N.«bool»), (some (.ret (.call 0 N.«less» []
    (.cons (.var 0 N.«right») (.cons (.var 0 N.«left») .nil))) .nil))⟩

def F.fast_greater_3 : Func :=
  ⟨N.«fast», N.«greater», [N.«Rep»], [⟨(.name N.«Rep»), N.«left», none⟩, ⟨(.app1 N.«raw_fraction»
    (.name N.«Rep»)), N.«right», none⟩], false, (.name N.«bool»), (some (.ret (.call 0 N.«less» []
    (.cons (.var 0 N.«right») (.cons (.var 0 N.«left») .nil))) .nil))⟩

def F.fast_greater_equal_1 : Func :=
  ⟨N.«fast», N.«greater_equal», [N.«Rep»], [⟨(.app1 N.«raw_fraction» (.name N.«Rep»)), N.«left»,
    none⟩, ⟨(.app1 N.«raw_fraction» (.name N.«Rep»)), N.«right», none⟩], false, (.name N.«bool»),
    (some (.ret (.call 0 N.«less_equal» [] (.cons (.var 0 N.«right») (.cons (.var 0 N.«left»)
    .nil))) .nil))⟩

def F.fast_greater_equal_2 : Func :=
  ⟨N.«fast», N.«greater_equal», [N.«Rep»], [⟨(.app1 N.«raw_fraction» (.name N.«Rep»)), N.«left»,
    none⟩, ⟨(.name N.«Rep»), N.«right», none⟩], false, (.name N.«bool»), (some (.ret (.call 0
    N.«less_equal» [] (.cons (.var 0 N.«right») (.cons (.var 0 N.«left») .nil))) .nil))⟩

def F.fast_greater_equal_3 : Func :=
  ⟨N.«fast», N.«greater_equal», [N.«Rep»], [⟨(.name N.«Rep»), N.«left», none⟩, ⟨(.app1
    N.«raw_fraction» (.name N.«Rep»)), N.«right», none⟩], false, (.name N.«bool»), (some (.ret
    (.call 0 N.«less_equal» [] (.cons (.var 0 N.«right») (.cons (.var 0 N.«left») .nil))) .nil))⟩

def F.reduced_input_negate_1 : Func :=
  ⟨N.«reduced_input», N.«negate», [N.«Ops», N.«Mode», N.«Rep»], [⟨(.app1 N.«raw_fraction» (.name
    N.«Rep»)), N.«value», none⟩], false, (.app1 N.«raw_fraction» (.name N.«Rep»)), (some (.ret
    (.call N.«ops_type» N.«negate» [] (.cons (.call 0 N.«reduce» [] (.cons (.var 0 N.«value»)
    .nil)) .nil)) .nil))⟩

def F.reduced_input_plus_1 : Func :=
  ⟨N.«reduced_input», N.«plus», [N.«Ops», N.«Mode», N.«Rep»], [⟨(.app1 N.«raw_fraction» (.name
    N.«Rep»)), N.«left», none⟩, ⟨(.app1 N.«raw_fraction» (.name N.«Rep»)), N.«right», none⟩],
    false, (.app1 N.«raw_fraction» (.name N.«Rep»)), (some (.ret (.call N.«ops_type» N.«plus» []
    (.cons (.call 0 N.«reduce» [] (.cons (.var 0 N.«left») (.cons (.var 0 N.«mode») .nil))) (.cons
    (.call 0 N.«reduce» [] (.cons (.var 0 N.«right») (.cons (.var 0 N.«mode») .nil))) .nil)))
    .nil))⟩

def F.reduced_input_plus_2 : Func :=
  ⟨N.«reduced_input», N.«plus», [N.«Ops», N.«Mode», N.«Rep»], [⟨(.app1 N.«raw_fraction» (.name
    N.«Rep»)), N.«left», none⟩, ⟨(.name N.«Rep»), N.«right», none⟩], false, (.app1 N.«raw_fraction»
    (.name N.«Rep»)), (some (.ret (.call N.«ops_type» N.«plus» [] (.cons (.call 0 N.«reduce» []
    (.cons (.var 0 N.«left») (.cons (.var 0 N.«mode») .nil))) (.cons (.var 0 N.«right») .nil)))
    .nil))⟩

def F.reduced_input_plus_3 : Func :=
  ⟨N.«reduced_input», N.«plus», [N.«Ops», N.«Mode», N.«Rep»], [⟨(.name N.«Rep»), N.«left», none⟩,
    ⟨(.app1 N.«raw_fraction» (.name N.«Rep»)), N.«right», none⟩], false, (.app1 N.«raw_fraction»
    (.name N.«Rep»)), (some (.ret (.call N.«ops_type» N.«plus» [] (.cons (.var 0 N.«left») (.cons
    (.call 0 N.«reduce» [] (.cons (.var 0 N.«right») (.cons (.var 0 N.«mode») .nil))) .nil)))
    .nil))⟩

def F.reduced_input_minus_1 : Func :=
  ⟨N.«reduced_input», N.«minus», [N.«Ops», N.«Mode», N.«Rep»], [⟨(.app1 N.«raw_fraction» (.name
    N.«Rep»)), N.«left», none⟩, ⟨(.app1 N.«raw_fraction» (.name N.«Rep»)), N.«right», none⟩],
    false, (.app1 N.«raw_fraction» (.name N.«Rep»)), (some (.ret (.call N.«ops_type» N.«minus» []
    (.cons (.call 0 N.«reduce» [] (.cons (.var 0 N.«left») (.cons (.var 0 N.«mode») .nil))) (.cons
    (.call 0 N.«reduce» [] (.cons (.var 0 N.«right») (.cons (.var 0 N.«mode») .nil))) .nil)))
    .nil))⟩

def F.reduced_input_minus_2 : Func :=
  ⟨N.«reduced_input», N.«minus», [N.«Ops», N.«Mode», N.«Rep»], [⟨(.app1 N.«raw_fraction» (.name
    N.«Rep»)), N.«left», none⟩, ⟨(.name N.«Rep»), N.«right», none⟩], false, (.app1 N.«raw_fraction»
    (.name N.«Rep»)), (some (.ret (.call N.«ops_type» N.«minus» [] (.cons (.call 0 N.«reduce» []
    (.cons (.var 0 N.«left») (.cons (.var 0 N.«mode») .nil))) (.cons (.var 0 N.«right») .nil)))
    .nil))⟩

def F.reduced_input_minus_3 : Func :=
  ⟨N.«reduced_input», N.«minus», [N.«Ops», N.«Mode», N.«Rep»], [⟨(.name N.«Rep»), N.«left», none⟩,
    ⟨(.app1 N.«raw_fraction» (.name N.«Rep»)), N.«right», none⟩], false, (.app1 N.«raw_fraction»
    (.name N.«Rep»)), (some (.ret (.call N.«ops_type» N.«minus» [] (.cons (.var 0 N.«left») (.cons
    (.call 0 N.«reduce» [] (.cons (.var 0 N.«right») (.cons (.var 0 N.«mode») .nil))) .nil)))
    .nil))⟩

def F.reduced_input_multiplies_1 : Func :=
  ⟨N.«reduced_input», N.«multiplies», [N.«Ops», N.«Mode», N.«Rep»], [⟨(.app1 N.«raw_fraction»
    (.name N.«Rep»)), N.«left», none⟩, ⟨(.app1 N.«raw_fraction» (.name N.«Rep»)), N.«right»,
    none⟩], false, (.app1 N.«raw_fraction» (.name N.«Rep»)), (some (.ret (.call N.«ops_type»
    N.«multiplies» [] (.cons (.call 0 N.«reduce» [] (.cons (.var 0 N.«left») (.cons (.var 0
    N.«mode») .nil))) (.cons (.call 0 N.«reduce» [] (.cons (.var 0 N.«right») (.cons (.var 0
    N.«mode») .nil))) .nil))) .nil))⟩

def F.reduced_input_multiplies_2 : Func :=
  ⟨N.«reduced_input», N.«multiplies», [N.«Ops», N.«Mode», N.«Rep»], [⟨(.app1 N.«raw_fraction»
    (.name N.«Rep»)), N.«left», none⟩, ⟨(.name N.«Rep»), N.«right», none⟩], false, (.app1
    N.«raw_fraction» (.name N.«Rep»)), (some (.ret (.call N.«ops_type» N.«multiplies» [] (.cons
    (.call 0 N.«reduce» [] (.cons (.var 0 N.«left») (.cons (.var 0 N.«mode») .nil))) (.cons (.var 0
    N.«right») .nil))) .nil))⟩

def F.reduced_input_multiplies_3 : Func :=
  ⟨N.«reduced_input», N.«multiplies», [N.«Ops», N.«Mode», N.«Rep»], [⟨(.name N.«Rep»), N.«left»,
    none⟩, ⟨(.app1 N.«raw_fraction» (.name N.«Rep»)), N.«right», none⟩], false, (.app1
    N.«raw_fraction» (.name N.«Rep»)), (some (.ret (.call N.«ops_type» N.«multiplies» [] (.cons
    (.var 0 N.«left») (.cons (.call 0 N.«reduce» [] (.cons (.var 0 N.«right») (.cons (.var 0
    N.«mode») .nil))) .nil))) .nil))⟩

def F.reduced_input_divides_1 : Func :=
  ⟨N.«reduced_input», N.«divides», [N.«Ops», N.«Mode», N.«Rep»], [⟨(.app1 N.«raw_fraction» (.name
    N.«Rep»)), N.«left», none⟩, ⟨(.app1 N.«raw_fraction» (.name N.«Rep»)), N.«right», none⟩],
    false, (.app1 N.«raw_fraction» (.name N.«Rep»)), (some (.ret (.call N.«ops_type» N.«divides» []
    (.cons (.call 0 N.«reduce» [] (.cons (.var 0 N.«left») (.cons (.var 0 N.«mode») .nil))) (.cons
    (.call 0 N.«reduce» [] (.cons (.var 0 N.«right») (.cons (.var 0 N.«mode») .nil))) .nil)))
    .nil))⟩

def F.reduced_input_divides_2 : Func :=
  ⟨N.«reduced_input», N.«divides», [N.«Ops», N.«Mode», N.«Rep»], [⟨(.app1 N.«raw_fraction» (.name
    N.«Rep»)), N.«left», none⟩, ⟨(.name N.«Rep»), N.«right», none⟩], false, (.app1 N.«raw_fraction»
    (.name N.«Rep»)), (some (.ret (.call N.«ops_type» N.«divides» [] (.cons (.call 0 N.«reduce» []
    (.cons (.var 0 N.«left») (.cons (.var 0 N.«mode») .nil))) (.cons (.var 0 N.«right») .nil)))
    .nil))⟩

def F.reduced_input_divides_3 : Func :=
  ⟨N.«reduced_input», N.«divides», [N.«Ops», N.«Mode», N.«Rep»], [⟨(.name N.«Rep»), N.«left»,
    none⟩, ⟨(.app1 N.«raw_fraction» (.name N.«Rep»)), N.«right», none⟩], false, (.app1
    N.«raw_fraction» (.name N.«Rep»)), (some (.ret (.call N.«ops_type» N.«divides» [] (.cons (.var
    0 N.«left») (.cons (.call 0 N.«reduce» [] (.cons (.var 0 N.«right») (.cons (.var 0 N.«mode»)
    .nil))) .nil))) .nil))⟩

def F.reduced_input_modulus_1 : Func :=
  ⟨N.«reduced_input», N.«modulus», [N.«Ops», N.«Mode», N.«Rep»], [⟨(.app1 N.«raw_fraction» (.name
    N.«Rep»)), N.«left», none⟩, ⟨(.app1 N.«raw_fraction» (.name N.«Rep»)), N.«right», none⟩],
    false, (.app1 N.«raw_fraction» (.name N.«Rep»)), (some (.ret (.call N.«ops_type» N.«modulus» []
    (.cons (.call 0 N.«reduce» [] (.cons (.var 0 N.«left») (.cons (.var 0 N.«mode») .nil))) (.cons
    (.call 0 N.«reduce» [] (.cons (.var 0 N.«right») (.cons (.var 0 N.«mode») .nil))) .nil)))
    .nil))⟩

def F.reduced_input_modulus_2 : Func :=
  ⟨N.«reduced_input», N.«modulus», [N.«Ops», N.«Mode», N.«Rep»], [⟨(.app1 N.«raw_fraction» (.name
    N.«Rep»)), N.«left», none⟩, ⟨(.name N.«Rep»), N.«right», none⟩], false, (.app1 N.«raw_fraction»
    (.name N.«Rep»)), (some (.ret (.call N.«ops_type» N.«modulus» [] (.cons (.call 0 N.«reduce» []
    (.cons (.var 0 N.«left») (.cons (.var 0 N.«mode») .nil))) (.cons (.var 0 N.«right») .nil)))
    .nil))⟩

def F.reduced_input_modulus_3 : Func :=
  ⟨N.«reduced_input», N.«modulus», [N.«Ops», N.«Mode», N.«Rep»], [⟨(.name N.«Rep»), N.«left»,
    none⟩, ⟨(.app1 N.«raw_fraction» (.name N.«Rep»)), N.«right», none⟩], false, (.app1
    N.«raw_fraction» (.name N.«Rep»)), (some (.ret (.call N.«ops_type» N.«modulus» [] (.cons (.var
    0 N.«left») (.cons (.call 0 N.«reduce» [] (.cons (.var 0 N.«right») (.cons (.var 0 N.«mode»)
    .nil))) .nil))) .nil))⟩

def F.reduced_input_equal_to_1 : Func :=
  ⟨N.«reduced_input», N.«equal_to», [N.«Ops», N.«Mode», N.«Rep»], [⟨(.app1 N.«raw_fraction» (.name
    N.«Rep»)), N.«left», none⟩, ⟨(.app1 N.«raw_fraction» (.name N.«Rep»)), N.«right», none⟩],
    false, (.name N.«bool»), (some (.ret (.call N.«ops_type» N.«equal_to» [] (.cons (.call 0
    N.«reduce» [] (.cons (.var 0 N.«left») (.cons (.var 0 N.«mode») .nil))) (.cons (.call 0
    N.«reduce» [] (.cons (.var 0 N.«right») (.cons (.var 0 N.«mode») .nil))) .nil))) .nil))⟩

def F.reduced_input_equal_to_2 : Func :=
  ⟨N.«reduced_input», N.«equal_to», [N.«Ops», N.«Mode», N.«Rep»], [⟨(.app1 N.«raw_fraction» (.name
    N.«Rep»)), N.«left», none⟩, ⟨(.name N.«Rep»), N.«right», none⟩], false, (.name N.«bool»), (some
    (.ret (.call N.«ops_type» N.«equal_to» [] (.cons (.call 0 N.«reduce» [] (.cons (.var 0
    N.«left») (.cons (.var 0 N.«mode») .nil))) (.cons (.var 0 N.«right») .nil))) .nil))⟩

def F.reduced_input_equal_to_3 : Func :=
  ⟨N.«reduced_input», N.«equal_to», [N.«Ops», N.«Mode», N.«Rep»], [⟨(.name N.«Rep»), N.«left»,
    none⟩, ⟨(.app1 N.«raw_fraction» (.name N.«Rep»)), N.«right», none⟩], false, (.name N.«bool»),
    (some (.ret (.call N.«ops_type» N.«equal_to» [] (.cons (.var 0 N.«left») (.cons (.call 0
    N.«reduce» [] (.cons (.var 0 N.«right») (.cons (.var 0 N.«mode») .nil))) .nil))) .nil))⟩

def F.reduced_input_not_equal_to_1 : Func :=
  ⟨N.«reduced_input», N.«not_equal_to», [N.«Ops», N.«Mode», N.«Rep»], [⟨(.app1 N.«raw_fraction»
    (.name N.«Rep»)), N.«left», none⟩, ⟨(.app1 N.«raw_fraction» (.name N.«Rep»)), N.«right»,
    none⟩], false, (.name N.«bool»), (some (.ret (.call N.«ops_type» N.«not_equal_to» [] (.cons
    (.call 0 N.«reduce» [] (.cons (.var 0 N.«left») (.cons (.var 0 N.«mode») .nil))) (.cons (.call
    0 N.«reduce» [] (.cons (.var 0 N.«right») (.cons (.var 0 N.«mode») .nil))) .nil))) .nil))⟩

def F.reduced_input_not_equal_to_2 : Func :=
  ⟨N.«reduced_input», N.«not_equal_to», [N.«Ops», N.«Mode», N.«Rep»], [⟨(.app1 N.«raw_fraction»
    (.name N.«Rep»)), N.«left», none⟩, ⟨(.name N.«Rep»), N.«right», none⟩], false, (.name
    N.«bool»), (some (.ret (.call N.«ops_type» N.«not_equal_to» [] (.cons (.call 0 N.«reduce» []
    (.cons (.var 0 N.«left») (.cons (.var 0 N.«mode») .nil))) (.cons (.var 0 N.«right») .nil)))
    .nil))⟩

def F.reduced_input_not_equal_to_3 : Func :=
  ⟨N.«reduced_input», N.«not_equal_to», [N.«Ops», N.«Mode», N.«Rep»], [⟨(.name N.«Rep»), N.«left»,
    none⟩, ⟨(.app1 N.«raw_fraction» (.name N.«Rep»)), N.«right», none⟩], false, (.name N.«bool»),
    (some (.ret (.call N.«ops_type» N.«not_equal_to» [] (.cons (.var 0 N.«left») (.cons (.call 0
    N.«reduce» [] (.cons (.var 0 N.«right») (.cons (.var 0 N.«mode») .nil))) .nil))) .nil))⟩

def F.reduced_input_less_1 : Func :=
  ⟨N.«reduced_input», N.«less», [N.«Ops», N.«Mode», N.«Rep»], [⟨(.app1 N.«raw_fraction» (.name
    N.«Rep»)), N.«left», none⟩, ⟨(.app1 N.«raw_fraction» (.name N.«Rep»)), N.«right», none⟩],
    false, (.name N.«bool»), (some (.ret (.call N.«ops_type» N.«less» [] (.cons (.call 0 N.«reduce»
    [] (.cons (.var 0 N.«left») (.cons (.var 0 N.«mode») .nil))) (.cons (.call 0 N.«reduce» []
    (.cons (.var 0 N.«right») (.cons (.var 0 N.«mode») .nil))) .nil))) .nil))⟩

def F.reduced_input_less_2 : Func :=
  ⟨N.«reduced_input», N.«less», [N.«Ops», N.«Mode», N.«Rep»], [⟨(.app1 N.«raw_fraction» (.name
    N.«Rep»)), N.«left», none⟩, ⟨(.name N.«Rep»), N.«right», none⟩], false, (.name N.«bool»), (some
    (.ret (.call N.«ops_type» N.«less» [] (.cons (.call 0 N.«reduce» [] (.cons (.var 0 N.«left»)
    (.cons (.var 0 N.«mode») .nil))) (.cons (.var 0 N.«right») .nil))) .nil))⟩

def F.reduced_input_less_3 : Func :=
  ⟨N.«reduced_input», N.«less», [N.«Ops», N.«Mode», N.«Rep»], [⟨(.name N.«Rep»), N.«left», none⟩,
    ⟨(.app1 N.«raw_fraction» (.name N.«Rep»)), N.«right», none⟩], false, (.name N.«bool»), (some
    (.ret (.call N.«ops_type» N.«less» [] (.cons (.var 0 N.«left») (.cons (.call 0 N.«reduce» []
    (.cons (.var 0 N.«right») (.cons (.var 0 N.«mode») .nil))) .nil))) .nil))⟩

def F.reduced_input_less_equal_1 : Func :=
  ⟨N.«reduced_input», N.«less_equal», [N.«Ops», N.«Mode», N.«Rep»], [⟨(.app1 N.«raw_fraction»
    (.name N.«Rep»)), N.«left», none⟩, ⟨(.app1 N.«raw_fraction» (.name N.«Rep»)), N.«right»,
    none⟩], false, (.name N.«bool»), (some (.ret (.call N.«ops_type» N.«less_equal» [] (.cons
    (.call 0 N.«reduce» [] (.cons (.var 0 N.«left») (.cons (.var 0 N.«mode») .nil))) (.cons (.call
    0 N.«reduce» [] (.cons (.var 0 N.«right») (.cons (.var 0 N.«mode») .nil))) .nil))) .nil))⟩

def F.reduced_input_less_equal_2 : Func :=
  ⟨N.«reduced_input», N.«less_equal», [N.«Ops», N.«Mode», N.«Rep»], [⟨(.app1 N.«raw_fraction»
    (.name N.«Rep»)), N.«left», none⟩, ⟨(.name N.«Rep»), N.«right», none⟩], false, (.name
    N.«bool»), (some (.ret (.call N.«ops_type» N.«less_equal» [] (.cons (.call 0 N.«reduce» []
    (.cons (.var 0 N.«left») (.cons (.var 0 N.«mode») .nil))) (.cons (.var 0 N.«right») .nil)))
    .nil))⟩

def F.reduced_input_less_equal_3 : Func :=
  ⟨N.«reduced_input», N.«less_equal», [N.«Ops», N.«Mode», N.«Rep»], [⟨(.name N.«Rep»), N.«left»,
    none⟩, ⟨(.app1 N.«raw_fraction» (.name N.«Rep»)), N.«right», none⟩], false, (.name N.«bool»),
    (some (.ret (.call N.«ops_type» N.«less_equal» [] (.cons (.var 0 N.«left») (.cons (.call 0
    N.«reduce» [] (.cons (.var 0 N.«right») (.cons (.var 0 N.«mode») .nil))) .nil))) .nil))⟩

def F.reduced_input_greater_1 : Func :=
  ⟨N.«reduced_input», N.«greater», [N.«Ops», N.«Mode», N.«Rep»], [⟨(.app1 N.«raw_fraction» (.name
    N.«Rep»)), N.«left», none⟩, ⟨(.app1 N.«raw_fraction» (.name N.«Rep»)), N.«right», none⟩],
    false, (.name N.«bool»), (some (.ret (.call N.«ops_type» N.«greater» [] (.cons (.call 0
    N.«reduce» [] (.cons (.var 0 N.«left») (.cons (.var 0 N.«mode») .nil))) (.cons (.call 0
    N.«reduce» [] (.cons (.var 0 N.«right») (.cons (.var 0 N.«mode») .nil))) .nil))) .nil))⟩

def F.reduced_input_greater_2 : Func :=
  ⟨N.«reduced_input», N.«greater», [N.«Ops», N.«Mode», N.«Rep»], [⟨(.app1 N.«raw_fraction» (.name
    N.«Rep»)), N.«left», none⟩, ⟨(.name N.«Rep»), N.«right», none⟩], false, (.name N.«bool»), (some
    (.ret (.call N.«ops_type» N.«greater» [] (.cons (.call 0 N.«reduce» [] (.cons (.var 0 N.«left»)
    (.cons (.var 0 N.«mode») .nil))) (.cons (.var 0 N.«right») .nil))) .nil))⟩

def F.reduced_input_greater_3 : Func :=
  ⟨N.«reduced_input», N.«greater», [N.«Ops», N.«Mode», N.«Rep»], [⟨(.name N.«Rep»), N.«left»,
    none⟩, ⟨(.app1 N.«raw_fraction» (.name N.«Rep»)), N.«right», none⟩], false, (.name N.«bool»),
    (some (.ret (.call N.«ops_type» N.«greater» [] (.cons (.var 0 N.«left») (.cons (.call 0
    N.«reduce» [] (.cons (.var 0 N.«right») (.cons (.var 0 N.«mode») .nil))) .nil))) .nil))⟩

def F.reduced_input_greater_equal_1 : Func :=
  ⟨N.«reduced_input», N.«greater_equal», [N.«Ops», N.«Mode», N.«Rep»], [⟨(.app1 N.«raw_fraction»
    (.name N.«Rep»)), N.«left», none⟩, ⟨(.app1 N.«raw_fraction» (.name N.«Rep»)), N.«right»,
    none⟩], false, (.name N.«bool»), (some (.ret (.call N.«ops_type» N.«greater_equal» [] (.cons
    (.call 0 N.«reduce» [] (.cons (.var 0 N.«left») (.cons (.var 0 N.«mode») .nil))) (.cons (.call
    0 N.«reduce» [] (.cons (.var 0 N.«right») (.cons (.var 0 N.«mode») .nil))) .nil))) .nil))⟩

def F.reduced_input_greater_equal_2 : Func :=
  ⟨N.«reduced_input», N.«greater_equal», [N.«Ops», N.«Mode», N.«Rep»], [⟨(.app1 N.«raw_fraction»
    (.name N.«Rep»)), N.«left», none⟩, ⟨(.name N.«Rep»), N.«right», none⟩], false, (.name
    N.«bool»), (some (.ret (.call N.«ops_type» N.«greater_equal» [] (.cons (.call 0 N.«reduce» []
    (.cons (.var 0 N.«left») (.cons (.var 0 N.«mode») .nil))) (.cons (.var 0 N.«right») .nil)))
    .nil))⟩

def F.reduced_input_greater_equal_3 : Func :=
  ⟨N.«reduced_input», N.«greater_equal», [N.«Ops», N.«Mode», N.«Rep»], [⟨(.name N.«Rep»), N.«left»,
    none⟩, ⟨(.app1 N.«raw_fraction» (.name N.«Rep»)), N.«right», none⟩], false, (.name N.«bool»),
    (some (.ret (.call N.«ops_type» N.«greater_equal» [] (.cons (.var 0 N.«left») (.cons (.call 0
    N.«reduce» [] (.cons (.var 0 N.«right») (.cons (.var 0 N.«mode») .nil))) .nil))) .nil))⟩

def F.reduced_output_negate_1 : Func :=
  ⟨N.«reduced_output», N.«negate», [N.«Ops», N.«Mode», N.«Rep»], [⟨(.app1 N.«raw_fraction» (.name
    N.«Rep»)), N.«value», none⟩], false, (.app1 N.«raw_fraction» (.name N.«Rep»)), (some (.ret
    (.call 0 N.«reduce» [] (.cons (.call N.«ops_type» N.«negate» [] (.cons (.var 0 N.«value»)
    .nil)) (.cons (.var 0 N.«mode») .nil))) .nil))⟩

def F.reduced_output_plus_1 : Func :=
  ⟨N.«reduced_output», N.«plus», [N.«Ops», N.«Mode», N.«Left», N.«Right»], [⟨(.name N.«Left»),
    N.«left», none⟩, ⟨(.name N.«Right»), N.«right», none⟩], false, (.name N.«auto»), (some (.ret
    (.call 0 N.«reduce» [] (.cons (.call N.«ops_type» N.«plus» [] (.cons (.var 0 N.«left») (.cons
    (.var 0 N.«right») .nil))) (.cons (.var 0 N.«mode») .nil))) .nil))⟩

def F.reduced_output_minus_1 : Func :=
  ⟨N.«reduced_output», N.«minus», [N.«Ops», N.«Mode», N.«Left», N.«Right»], [⟨(.name N.«Left»),
    N.«left», none⟩, ⟨(.name N.«Right»), N.«right», none⟩], false, (.name N.«auto»), (some (.ret
    (.call 0 N.«reduce» [] (.cons (.call N.«ops_type» N.«minus» [] (.cons (.var 0 N.«left») (.cons
    (.var 0 N.«right») .nil))) (.cons (.var 0 N.«mode») .nil))) .nil))⟩

def F.reduced_output_multiplies_1 : Func :=
  ⟨N.«reduced_output», N.«multiplies», [N.«Ops», N.«Mode», N.«Left», N.«Right»], [⟨(.name
    N.«Left»), N.«left», none⟩, ⟨(.name N.«Right»), N.«right», none⟩], false, (.name N.«auto»),
    (some (.ret (.call 0 N.«reduce» [] (.cons (.call N.«ops_type» N.«multiplies» [] (.cons (.var 0
    N.«left») (.cons (.var 0 N.«right») .nil))) (.cons (.var 0 N.«mode») .nil))) .nil))⟩

def F.reduced_output_divides_1 : Func :=
  ⟨N.«reduced_output», N.«divides», [N.«Ops», N.«Mode», N.«Left», N.«Right»], [⟨(.name N.«Left»),
    N.«left», none⟩, ⟨(.name N.«Right»), N.«right», none⟩], false, (.name N.«auto»), (some (.ret
    (.call 0 N.«reduce» [] (.cons (.call N.«ops_type» N.«divides» [] (.cons (.var 0 N.«left»)
    (.cons (.var 0 N.«right») .nil))) (.cons (.var 0 N.«mode») .nil))) .nil))⟩

def F.reduced_output_modulus_1 : Func :=
  ⟨N.«reduced_output», N.«modulus», [N.«Ops», N.«Mode», N.«Left», N.«Right»], [⟨(.name N.«Left»),
    N.«left», none⟩, ⟨(.name N.«Right»), N.«right», none⟩], false, (.name N.«auto»), (some (.ret
    (.call 0 N.«reduce» [] (.cons (.call N.«ops_type» N.«modulus» [] (.cons (.var 0 N.«left»)
    (.cons (.var 0 N.«right») .nil))) (.cons (.var 0 N.«mode») .nil))) .nil))⟩

def F.reduced_output_equal_to_1 : Func :=
  ⟨N.«reduced_output», N.«equal_to», [N.«Ops», N.«Mode», N.«Left», N.«Right»], [⟨(.name N.«Left»),
    N.«left», none⟩, ⟨(.name N.«Right»), N.«right», none⟩], false, (.name N.«bool»), (some (.ret
    (.call N.«ops_type» N.«equal_to» [] (.cons (.var 0 N.«left») (.cons (.var 0 N.«right») .nil)))
    .nil))⟩

def F.reduced_output_not_equal_to_1 : Func :=
  ⟨N.«reduced_output», N.«not_equal_to», [N.«Ops», N.«Mode», N.«Left», N.«Right»], [⟨(.name
    N.«Left»), N.«left», none⟩, ⟨(.name N.«Right»), N.«right», none⟩], false, (.name N.«bool»),
    (some (.ret (.call N.«ops_type» N.«not_equal_to» [] (.cons (.var 0 N.«left») (.cons (.var 0
    N.«right») .nil))) .nil))⟩

def F.reduced_output_less_1 : Func :=
  ⟨N.«reduced_output», N.«less», [N.«Ops», N.«Mode», N.«Left», N.«Right»], [⟨(.name N.«Left»),
    N.«left», none⟩, ⟨(.name N.«Right»), N.«right», none⟩], false, (.name N.«bool»), (some (.ret
    (.call N.«ops_type» N.«less» [] (.cons (.var 0 N.«left») (.cons (.var 0 N.«right») .nil)))
    .nil))⟩

def F.reduced_output_less_equal_1 : Func :=
  ⟨N.«reduced_output», N.«less_equal», [N.«Ops», N.«Mode», N.«Left», N.«Right»], [⟨(.name
    N.«Left»), N.«left», none⟩, ⟨(.name N.«Right»), N.«right», none⟩], false, (.name N.«bool»),
    (some (.ret (.call N.«ops_type» N.«less_equal» [] (.cons (.var 0 N.«left») (.cons (.var 0
    N.«right») .nil))) .nil))⟩

def F.reduced_output_greater_1 : Func :=
  ⟨N.«reduced_output», N.«greater», [N.«Ops», N.«Mode», N.«Left», N.«Right»], [⟨(.name N.«Left»),
    N.«left», none⟩, ⟨(.name N.«Right»), N.«right», none⟩], false, (.name N.«bool»), (some (.ret
    (.call N.«ops_type» N.«greater» [] (.cons (.var 0 N.«left») (.cons (.var 0 N.«right») .nil)))
    .nil))⟩

def F.reduced_output_greater_equal_1 : Func :=
  ⟨N.«reduced_output», N.«greater_equal», [N.«Ops», N.«Mode», N.«Left», N.«Right»], [⟨(.name
    N.«Left»), N.«left», none⟩, ⟨(.name N.«Right»), N.«right», none⟩], false, (.name N.«bool»),
    (some (.ret (.call N.«ops_type» N.«greater_equal» [] (.cons (.var 0 N.«left») (.cons (.var 0
    N.«right») .nil))) .nil))⟩

/-! ## `/repo/include/ieme/fraction.hpp` -/

def Cls.fraction : Cls :=
  ⟨N.«fraction», [N.«Rep», N.«Ops»], [(N.«raw_fraction_type», (.app1 N.«raw_fraction» (.name
    N.«Rep»))), (N.«rep_type», (.member N.«raw_fraction_type» N.«rep_type»)), (N.«ops_type», (.name
    N.«Ops»))], [], [⟨(.name N.«raw_fraction_type»), N.«raw_», (.cons (.call 0 N.«_0» [(.name
    N.«rep_type»)] .nil) (.cons (.call 0 N.«_1» [(.name N.«rep_type»)] .nil) .nil))⟩]⟩

def F.fraction_num_1 : Func :=
  ⟨N.«fraction», N.«num», [N.«Rep», N.«Ops»], [], true, (.name N.«Rep»), (some (.ret (.call 0
    N.«numerator» [] .nil) .nil))⟩

def F.fraction_num_2 : Func :=
  ⟨N.«fraction», N.«num», [N.«Rep», N.«Ops»], [], false, (.name N.«Rep»), (some (.ret (.call 0
    N.«numerator» [] .nil) .nil))⟩

def F.fraction_den_1 : Func :=
  ⟨N.«fraction», N.«den», [N.«Rep», N.«Ops»], [], true, (.name N.«Rep»), (some (.ret (.call 0
    N.«denominator» [] .nil) .nil))⟩

def F.fraction_den_2 : Func :=
  ⟨N.«fraction», N.«den», [N.«Rep», N.«Ops»], [], false, (.name N.«Rep»), (some (.ret (.call 0
    N.«denominator» [] .nil) .nil))⟩

def F.fraction_raw_1 : Func :=
  ⟨N.«fraction», N.«raw», [N.«Rep», N.«Ops»], [], true, (.name N.«raw_fraction_type»), (some (.ret
    (.var 0 N.«raw_») .nil))⟩

def F.fraction_raw_2 : Func :=
  ⟨N.«fraction», N.«raw», [N.«Rep», N.«Ops»], [], false, (.name N.«raw_fraction_type»), (some (.ret
    (.var 0 N.«raw_») .nil))⟩

def F.op_shl_1 : Func :=
  ⟨0, N.«operator<<», [N.«Rep», N.«Ops»], [⟨(.name N.«std::ostream»), N.«stream», none⟩, ⟨(.app2
    N.«fraction» (.name N.«Rep») (.name N.«Ops»)), N.«value», none⟩], false, (.name
    N.«std::ostream»), (some (.ret (.bin .shl (.var 0 N.«stream») (.mem (.var 0 N.«value»)
    N.«raw_»)) .nil))⟩

def F.fraction_fraction_1 : Func :=
  ⟨N.«fraction», N.«fraction», [N.«Rep», N.«Ops»], [⟨(.name N.«raw_fraction_type»), N.«raw»,
    none⟩], false, (.name N.«void»), (some (.init N.«raw_» (.cons (.var 0 N.«raw») .nil) .nil))⟩

def F.fraction_fraction_2 : Func :=
  ⟨N.«fraction», N.«fraction», [N.«Rep», N.«Ops»], [⟨(.name N.«Rep»), N.«numerator», none⟩, ⟨(.name
    N.«Rep»), N.«denominator», (some (.num 1))⟩], false, (.name N.«void»), (some (.init N.«raw_»
    (.cons (.var 0 N.«numerator») (.cons (.var 0 N.«denominator») .nil)) .nil))⟩

def F.fraction_fraction_3 : Func :=
  ⟨N.«fraction», N.«fraction», [N.«Rep», N.«Ops», N.«OtherRep»], [⟨(.app2 N.«fraction» (.name
    N.«OtherRep») (.name N.«Ops»)), N.«other», none⟩], false, (.name N.«void»), (some (.init
    N.«raw_» (.cons (.method (.var 0 N.«other») N.«raw») .nil) .nil))⟩

def F.fraction_fraction_4 : Func :=
  ⟨N.«fraction», N.«fraction», [N.«Rep», N.«Ops», N.«OtherRep», N.«OtherOps»], [⟨(.app2
    N.«fraction» (.name N.«OtherRep») (.name N.«OtherOps»)), N.«other», none⟩], false, (.name
    N.«void»), (some (.init N.«raw_» (.cons (.method (.var 0 N.«other») N.«raw») .nil) .nil))⟩

def F.fraction_numerator_1 : Func :=
  ⟨N.«fraction», N.«numerator», [N.«Rep», N.«Ops»], [], true, (.name N.«Rep»), (some (.ret (.mem
    (.var 0 N.«raw_») N.«numerator») .nil))⟩

def F.fraction_numerator_2 : Func :=
  ⟨N.«fraction», N.«numerator», [N.«Rep», N.«Ops»], [], false, (.name N.«Rep»), (some (.ret (.mem
    (.var 0 N.«raw_») N.«numerator») .nil))⟩

def F.fraction_denominator_1 : Func :=
  ⟨N.«fraction», N.«denominator», [N.«Rep», N.«Ops»], [], true, (.name N.«Rep»), (some (.ret (.mem
    (.var 0 N.«raw_») N.«denominator») .nil))⟩

def F.fraction_denominator_2 : Func :=
  ⟨N.«fraction», N.«denominator», [N.«Rep», N.«Ops»], [], false, (.name N.«Rep»), (some (.ret (.mem
    (.var 0 N.«raw_») N.«denominator») .nil))⟩

def F.op_add_1 : Func :=
  ⟨0, N.«operator+», [N.«Rep», N.«Ops»], [⟨(.app2 N.«fraction» (.name N.«Rep») (.name N.«Ops»)),
    N.«value», none⟩], false, (.app2 N.«fraction» (.name N.«Rep») (.name N.«Ops»)), (some (.ret
    (.var 0 N.«value») .nil))⟩

def F.op_sub_1 : Func :=
  ⟨0, N.«operator-», [N.«Rep», N.«Ops»], [⟨(.app2 N.«fraction» (.name N.«Rep») (.name N.«Ops»)),
    N.«value», none⟩], false, (.app2 N.«fraction» (.name N.«Rep») (.name N.«Ops»)), (some (.ret
    (.call N.«Ops» N.«negate» [] (.cons (.method (.var 0 N.«value») N.«raw») .nil)) .nil))⟩

def F.op_add_2 : Func :=
  ⟨0, N.«operator+», [N.«LeftRep», N.«RightRep», N.«Ops»], [⟨(.app2 N.«fraction» (.name
    N.«LeftRep») (.name N.«Ops»)), N.«left», none⟩, ⟨(.app2 N.«fraction» (.name N.«RightRep»)
    (.name N.«Ops»)), N.«right», none⟩], false, (.app2 N.«fraction» (.app2 N.«std::common_type_t»
    (.name N.«LeftRep») (.name N.«RightRep»)) (.name N.«Ops»)), (some (.using N.«common_rep_type»
    (.app2 N.«std::common_type_t» (.name N.«LeftRep») (.name N.«RightRep»)) (.using
    N.«common_raw_type» (.app1 N.«raw_fraction» (.name N.«common_rep_type»)) (.ite (.call N.«std»
    N.«is_same_v» [(.name N.«LeftRep»), (.name N.«RightRep»)] .nil) (.ret (.call N.«Ops» N.«plus»
    [] (.cons (.method (.var 0 N.«left») N.«raw») (.cons (.method (.var 0 N.«right») N.«raw»)
    .nil))) .nil) (.ite (.call N.«std» N.«is_same_v» [(.name N.«LeftRep»), (.name
    N.«common_rep_type»)] .nil) (.ret (.call N.«Ops» N.«plus» [] (.cons (.method (.var 0 N.«left»)
    N.«raw») (.cons (.cast (.name N.«common_raw_type») (.method (.var 0 N.«right») N.«raw»))
    .nil))) .nil) (.ite (.call N.«std» N.«is_same_v» [(.name N.«RightRep»), (.name
    N.«common_rep_type»)] .nil) (.ret (.call N.«Ops» N.«plus» [] (.cons (.cast (.name
    N.«common_raw_type») (.method (.var 0 N.«left») N.«raw»)) (.cons (.method (.var 0 N.«right»)
    N.«raw») .nil))) .nil) (.ret (.call N.«Ops» N.«plus» [] (.cons (.cast (.name
    N.«common_raw_type») (.method (.var 0 N.«left») N.«raw»)) (.cons (.cast (.name
    N.«common_raw_type») (.method (.var 0 N.«right») N.«raw»)) .nil))) .nil) .nil) .nil) .nil))))⟩

def F.op_add_3 : Func :=
  ⟨0, N.«operator+», [N.«LeftRep», N.«RightRep», N.«Ops»], [⟨(.app2 N.«fraction» (.name
    N.«LeftRep») (.name N.«Ops»)), N.«left», none⟩, ⟨(.name N.«RightRep»), N.«right», none⟩],
    false, (.app2 N.«fraction» (.app2 N.«std::common_type_t» (.name N.«LeftRep») (.name
    N.«RightRep»)) (.name N.«Ops»)), (some (.using N.«common_rep_type» (.app2
    N.«std::common_type_t» (.name N.«LeftRep») (.name N.«RightRep»)) (.using N.«common_raw_type»
    (.app1 N.«raw_fraction» (.name N.«common_rep_type»)) (.ite (.call N.«std» N.«is_same_v» [(.name
    N.«LeftRep»), (.name N.«RightRep»)] .nil) (.ret (.call N.«Ops» N.«plus» [] (.cons (.method
    (.var 0 N.«left») N.«raw») (.cons (.var 0 N.«right») .nil))) .nil) (.ite (.call N.«std»
    N.«is_same_v» [(.name N.«LeftRep»), (.name N.«common_rep_type»)] .nil) (.ret (.call N.«Ops»
    N.«plus» [] (.cons (.method (.var 0 N.«left») N.«raw») (.cons (.cast (.name
    N.«common_rep_type») (.var 0 N.«right»)) .nil))) .nil) (.ite (.call N.«std» N.«is_same_v»
    [(.name N.«RightRep»), (.name N.«common_rep_type»)] .nil) (.ret (.call N.«Ops» N.«plus» []
    (.cons (.cast (.name N.«common_raw_type») (.method (.var 0 N.«left») N.«raw»)) (.cons (.var 0
    N.«right») .nil))) .nil) (.ret (.call N.«Ops» N.«plus» [] (.cons (.cast (.name
    N.«common_raw_type») (.method (.var 0 N.«left») N.«raw»)) (.cons (.cast (.name
    N.«common_rep_type») (.var 0 N.«right»)) .nil))) .nil) .nil) .nil) .nil))))⟩

def F.op_add_4 : Func :=
  ⟨0, N.«operator+», [N.«LeftRep», N.«RightRep», N.«Ops»], [⟨(.name N.«LeftRep»), N.«left», none⟩,
    ⟨(.app2 N.«fraction» (.name N.«RightRep») (.name N.«Ops»)), N.«right», none⟩], false, (.app2
    N.«fraction» (.app2 N.«std::common_type_t» (.name N.«LeftRep») (.name N.«RightRep»)) (.name
    N.«Ops»)), (some (.using N.«common_rep_type» (.app2 N.«std::common_type_t» (.name N.«LeftRep»)
    (.name N.«RightRep»)) (.using N.«common_raw_type» (.app1 N.«raw_fraction» (.name
    N.«common_rep_type»)) (.ite (.call N.«std» N.«is_same_v» [(.name N.«LeftRep»), (.name
    N.«RightRep»)] .nil) (.ret (.call N.«Ops» N.«plus» [] (.cons (.var 0 N.«left») (.cons (.method
    (.var 0 N.«right») N.«raw») .nil))) .nil) (.ite (.call N.«std» N.«is_same_v» [(.name
    N.«LeftRep»), (.name N.«common_rep_type»)] .nil) (.ret (.call N.«Ops» N.«plus» [] (.cons (.var
    0 N.«left») (.cons (.cast (.name N.«common_raw_type») (.method (.var 0 N.«right») N.«raw»))
    .nil))) .nil) (.ite (.call N.«std» N.«is_same_v» [(.name N.«RightRep»), (.name
    N.«common_rep_type»)] .nil) (.ret (.call N.«Ops» N.«plus» [] (.cons (.cast (.name
    N.«common_rep_type») (.var 0 N.«left»)) (.cons (.method (.var 0 N.«right») N.«raw») .nil)))
    .nil) (.ret (.call N.«Ops» N.«plus» [] (.cons (.cast (.name N.«common_rep_type») (.var 0
    N.«left»)) (.cons (.cast (.name N.«common_raw_type») (.method (.var 0 N.«right») N.«raw»))
    .nil))) .nil) .nil) .nil) .nil))))⟩

def F.op_sub_2 : Func :=
  ⟨0, N.«operator-», [N.«LeftRep», N.«RightRep», N.«Ops»], [⟨(.app2 N.«fraction» (.name
    N.«LeftRep») (.name N.«Ops»)), N.«left», none⟩, ⟨(.app2 N.«fraction» (.name N.«RightRep»)
    (.name N.«Ops»)), N.«right», none⟩], false, (.app2 N.«fraction» (.app2 N.«std::common_type_t»
    (.name N.«LeftRep») (.name N.«RightRep»)) (.name N.«Ops»)), (some (.using N.«common_rep_type»
    (.app2 N.«std::common_type_t» (.name N.«LeftRep») (.name N.«RightRep»)) (.using
    N.«common_raw_type» (.app1 N.«raw_fraction» (.name N.«common_rep_type»)) (.ite (.call N.«std»
    N.«is_same_v» [(.name N.«LeftRep»), (.name N.«RightRep»)] .nil) (.ret (.call N.«Ops» N.«minus»
    [] (.cons (.method (.var 0 N.«left») N.«raw») (.cons (.method (.var 0 N.«right») N.«raw»)
    .nil))) .nil) (.ite (.call N.«std» N.«is_same_v» [(.name N.«LeftRep»), (.name
    N.«common_rep_type»)] .nil) (.ret (.call N.«Ops» N.«minus» [] (.cons (.method (.var 0 N.«left»)
    N.«raw») (.cons (.cast (.name N.«common_raw_type») (.method (.var 0 N.«right») N.«raw»))
    .nil))) .nil) (.ite (.call N.«std» N.«is_same_v» [(.name N.«RightRep»), (.name
    N.«common_rep_type»)] .nil) (.ret (.call N.«Ops» N.«minus» [] (.cons (.cast (.name
    N.«common_raw_type») (.method (.var 0 N.«left») N.«raw»)) (.cons (.method (.var 0 N.«right»)
    N.«raw») .nil))) .nil) (.ret (.call N.«Ops» N.«minus» [] (.cons (.cast (.name
    N.«common_raw_type») (.method (.var 0 N.«left») N.«raw»)) (.cons (.cast (.name
    N.«common_raw_type») (.method (.var 0 N.«right») N.«raw»)) .nil))) .nil) .nil) .nil) .nil))))⟩

def F.op_sub_3 : Func :=
  ⟨0, N.«operator-», [N.«LeftRep», N.«RightRep», N.«Ops»], [⟨(.app2 N.«fraction» (.name
    N.«LeftRep») (.name N.«Ops»)), N.«left», none⟩, ⟨(.name N.«RightRep»), N.«right», none⟩],
    false, (.app2 N.«fraction» (.app2 N.«std::common_type_t» (.name N.«LeftRep») (.name
    N.«RightRep»)) (.name N.«Ops»)), (some (.using N.«common_rep_type» (.app2
    N.«std::common_type_t» (.name N.«LeftRep») (.name N.«RightRep»)) (.using N.«common_raw_type»
    (.app1 N.«raw_fraction» (.name N.«common_rep_type»)) (.ite (.call N.«std» N.«is_same_v» [(.name
    N.«LeftRep»), (.name N.«RightRep»)] .nil) (.ret (.call N.«Ops» N.«minus» [] (.cons (.method
    (.var 0 N.«left») N.«raw») (.cons (.var 0 N.«right») .nil))) .nil) (.ite (.call N.«std»
    N.«is_same_v» [(.name N.«LeftRep»), (.name N.«common_rep_type»)] .nil) (.ret (.call N.«Ops»
    N.«minus» [] (.cons (.method (.var 0 N.«left») N.«raw») (.cons (.cast (.name
    N.«common_rep_type») (.var 0 N.«right»)) .nil))) .nil) (.ite (.call N.«std» N.«is_same_v»
    [(.name N.«RightRep»), (.name N.«common_rep_type»)] .nil) (.ret (.call N.«Ops» N.«minus» []
    (.cons (.cast (.name N.«common_raw_type») (.method (.var 0 N.«left») N.«raw»)) (.cons (.var 0
    N.«right») .nil))) .nil) (.ret (.call N.«Ops» N.«minus» [] (.cons (.cast (.name
    N.«common_raw_type») (.method (.var 0 N.«left») N.«raw»)) (.cons (.cast (.name
    N.«common_rep_type») (.var 0 N.«right»)) .nil))) .nil) .nil) .nil) .nil))))⟩

def F.op_sub_4 : Func :=
  ⟨0, N.«operator-», [N.«LeftRep», N.«RightRep», N.«Ops»], [⟨(.name N.«LeftRep»), N.«left», none⟩,
    ⟨(.app2 N.«fraction» (.name N.«RightRep») (.name N.«Ops»)), N.«right», none⟩], false, (.app2
    N.«fraction» (.app2 N.«std::common_type_t» (.name N.«LeftRep») (.name N.«RightRep»)) (.name
    N.«Ops»)), (some (.using N.«common_rep_type» (.app2 N.«std::common_type_t» (.name N.«LeftRep»)
    (.name N.«RightRep»)) (.using N.«common_raw_type» (.app1 N.«raw_fraction» (.name
    N.«common_rep_type»)) (.ite (.call N.«std» N.«is_same_v» [(.name N.«LeftRep»), (.name
    N.«RightRep»)] .nil) (.ret (.call N.«Ops» N.«minus» [] (.cons (.var 0 N.«left») (.cons (.method
    (.var 0 N.«right») N.«raw») .nil))) .nil) (.ite (.call N.«std» N.«is_same_v» [(.name
    N.«LeftRep»), (.name N.«common_rep_type»)] .nil) (.ret (.call N.«Ops» N.«minus» [] (.cons (.var
    0 N.«left») (.cons (.cast (.name N.«common_raw_type») (.method (.var 0 N.«right») N.«raw»))
    .nil))) .nil) (.ite (.call N.«std» N.«is_same_v» [(.name N.«RightRep»), (.name
    N.«common_rep_type»)] .nil) (.ret (.call N.«Ops» N.«minus» [] (.cons (.cast (.name
    N.«common_rep_type») (.var 0 N.«left»)) (.cons (.method (.var 0 N.«right») N.«raw») .nil)))
    .nil) (.ret (.call N.«Ops» N.«minus» [] (.cons (.cast (.name N.«common_rep_type») (.var 0
    N.«left»)) (.cons (.cast (.name N.«common_raw_type») (.method (.var 0 N.«right») N.«raw»))
    .nil))) .nil) .nil) .nil) .nil))))⟩

def F.op_mul_1 : Func :=
  ⟨0, N.«operator*», [N.«LeftRep», N.«RightRep», N.«Ops»], [⟨(.app2 N.«fraction» (.name
    N.«LeftRep») (.name N.«Ops»)), N.«left», none⟩, ⟨(.app2 N.«fraction» (.name N.«RightRep»)
    (.name N.«Ops»)), N.«right», none⟩], false, (.app2 N.«fraction» (.app2 N.«std::common_type_t»
    (.name N.«LeftRep») (.name N.«RightRep»)) (.name N.«Ops»)), (some (.using N.«common_rep_type»
    (.app2 N.«std::common_type_t» (.name N.«LeftRep») (.name N.«RightRep»)) (.using
    N.«common_raw_type» (.app1 N.«raw_fraction» (.name N.«common_rep_type»)) (.ite (.call N.«std»
    N.«is_same_v» [(.name N.«LeftRep»), (.name N.«RightRep»)] .nil) (.ret (.call N.«Ops»
    N.«multiplies» [] (.cons (.method (.var 0 N.«left») N.«raw») (.cons (.method (.var 0 N.«right»)
    N.«raw») .nil))) .nil) (.ite (.call N.«std» N.«is_same_v» [(.name N.«LeftRep»), (.name
    N.«common_rep_type»)] .nil) (.ret (.call N.«Ops» N.«multiplies» [] (.cons (.method (.var 0
    N.«left») N.«raw») (.cons (.cast (.name N.«common_raw_type») (.method (.var 0 N.«right»)
    N.«raw»)) .nil))) .nil) (.ite (.call N.«std» N.«is_same_v» [(.name N.«RightRep»), (.name
    N.«common_rep_type»)] .nil) (.ret (.call N.«Ops» N.«multiplies» [] (.cons (.cast (.name
    N.«common_raw_type») (.method (.var 0 N.«left») N.«raw»)) (.cons (.method (.var 0 N.«right»)
    N.«raw») .nil))) .nil) (.ret (.call N.«Ops» N.«multiplies» [] (.cons (.cast (.name
    N.«common_raw_type») (.method (.var 0 N.«left») N.«raw»)) (.cons (.cast (.name
    N.«common_raw_type») (.method (.var 0 N.«right») N.«raw»)) .nil))) .nil) .nil) .nil) .nil))))⟩

def F.op_mul_2 : Func :=
  ⟨0, N.«operator*», [N.«LeftRep», N.«RightRep», N.«Ops»], [⟨(.app2 N.«fraction» (.name
    N.«LeftRep») (.name N.«Ops»)), N.«left», none⟩, ⟨(.name N.«RightRep»), N.«right», none⟩],
    false, (.app2 N.«fraction» (.app2 N.«std::common_type_t» (.name N.«LeftRep») (.name
    N.«RightRep»)) (.name N.«Ops»)), (some (.using N.«common_rep_type» (.app2
    N.«std::common_type_t» (.name N.«LeftRep») (.name N.«RightRep»)) (.using N.«common_raw_type»
    (.app1 N.«raw_fraction» (.name N.«common_rep_type»)) (.ite (.call N.«std» N.«is_same_v» [(.name
    N.«LeftRep»), (.name N.«RightRep»)] .nil) (.ret (.call N.«Ops» N.«multiplies» [] (.cons
    (.method (.var 0 N.«left») N.«raw») (.cons (.var 0 N.«right») .nil))) .nil) (.ite (.call
    N.«std» N.«is_same_v» [(.name N.«LeftRep»), (.name N.«common_rep_type»)] .nil) (.ret (.call
    N.«Ops» N.«multiplies» [] (.cons (.method (.var 0 N.«left») N.«raw») (.cons (.cast (.name
    N.«common_rep_type») (.var 0 N.«right»)) .nil))) .nil) (.ite (.call N.«std» N.«is_same_v»
    [(.name N.«RightRep»), (.name N.«common_rep_type»)] .nil) (.ret (.call N.«Ops» N.«multiplies»
    [] (.cons (.cast (.name N.«common_raw_type») (.method (.var 0 N.«left») N.«raw»)) (.cons (.var
    0 N.«right») .nil))) .nil) (.ret (.call N.«Ops» N.«multiplies» [] (.cons (.cast (.name
    N.«common_raw_type») (.method (.var 0 N.«left») N.«raw»)) (.cons (.cast (.name
    N.«common_rep_type») (.var 0 N.«right»)) .nil))) .nil) .nil) .nil) .nil))))⟩

def F.op_mul_3 : Func :=
  ⟨0, N.«operator*», [N.«LeftRep», N.«RightRep», N.«Ops»], [⟨(.name N.«LeftRep»), N.«left», none⟩,
    ⟨(.app2 N.«fraction» (.name N.«RightRep») (.name N.«Ops»)), N.«right», none⟩], false, (.app2
    N.«fraction» (.app2 N.«std::common_type_t» (.name N.«LeftRep») (.name N.«RightRep»)) (.name
    N.«Ops»)), (some (.using N.«common_rep_type» (.app2 N.«std::common_type_t» (.name N.«LeftRep»)
    (.name N.«RightRep»)) (.using N.«common_raw_type» (.app1 N.«raw_fraction» (.name
    N.«common_rep_type»)) (.ite (.call N.«std» N.«is_same_v» [(.name N.«LeftRep»), (.name
    N.«RightRep»)] .nil) (.ret (.call N.«Ops» N.«multiplies» [] (.cons (.var 0 N.«left») (.cons
    (.method (.var 0 N.«right») N.«raw») .nil))) .nil) (.ite (.call N.«std» N.«is_same_v» [(.name
    N.«LeftRep»), (.name N.«common_rep_type»)] .nil) (.ret (.call N.«Ops» N.«multiplies» [] (.cons
    (.var 0 N.«left») (.cons (.cast (.name N.«common_raw_type») (.method (.var 0 N.«right»)
    N.«raw»)) .nil))) .nil) (.ite (.call N.«std» N.«is_same_v» [(.name N.«RightRep»), (.name
    N.«common_rep_type»)] .nil) (.ret (.call N.«Ops» N.«multiplies» [] (.cons (.cast (.name
    N.«common_rep_type») (.var 0 N.«left»)) (.cons (.method (.var 0 N.«right») N.«raw») .nil)))
    .nil) (.ret (.call N.«Ops» N.«multiplies» [] (.cons (.cast (.name N.«common_rep_type») (.var 0
    N.«left»)) (.cons (.cast (.name N.«common_raw_type») (.method (.var 0 N.«right») N.«raw»))
    .nil))) .nil) .nil) .nil) .nil))))⟩

def F.op_div_1 : Func :=
  ⟨0, N.«operator/», [N.«LeftRep», N.«RightRep», N.«Ops»], [⟨(.app2 N.«fraction» (.name
    N.«LeftRep») (.name N.«Ops»)), N.«left», none⟩, ⟨(.app2 N.«fraction» (.name N.«RightRep»)
    (.name N.«Ops»)), N.«right», none⟩], false, (.app2 N.«fraction» (.app2 N.«std::common_type_t»
    (.name N.«LeftRep») (.name N.«RightRep»)) (.name N.«Ops»)), (some (.using N.«common_rep_type»
    (.app2 N.«std::common_type_t» (.name N.«LeftRep») (.name N.«RightRep»)) (.using
    N.«common_raw_type» (.app1 N.«raw_fraction» (.name N.«common_rep_type»)) (.ite (.call N.«std»
    N.«is_same_v» [(.name N.«LeftRep»), (.name N.«RightRep»)] .nil) (.ret (.call N.«Ops»
    N.«divides» [] (.cons (.method (.var 0 N.«left») N.«raw») (.cons (.method (.var 0 N.«right»)
    N.«raw») .nil))) .nil) (.ite (.call N.«std» N.«is_same_v» [(.name N.«LeftRep»), (.name
    N.«common_rep_type»)] .nil) (.ret (.call N.«Ops» N.«divides» [] (.cons (.method (.var 0
    N.«left») N.«raw») (.cons (.cast (.name N.«common_raw_type») (.method (.var 0 N.«right»)
    N.«raw»)) .nil))) .nil) (.ite (.call N.«std» N.«is_same_v» [(.name N.«RightRep»), (.name
    N.«common_rep_type»)] .nil) (.ret (.call N.«Ops» N.«divides» [] (.cons (.cast (.name
    N.«common_raw_type») (.method (.var 0 N.«left») N.«raw»)) (.cons (.method (.var 0 N.«right»)
    N.«raw») .nil))) .nil) (.ret (.call N.«Ops» N.«divides» [] (.cons (.cast (.name
    N.«common_raw_type») (.method (.var 0 N.«left») N.«raw»)) (.cons (.cast (.name
    N.«common_raw_type») (.method (.var 0 N.«right») N.«raw»)) .nil))) .nil) .nil) .nil) .nil))))⟩

def F.op_div_2 : Func :=
  ⟨0, N.«operator/», [N.«LeftRep», N.«RightRep», N.«Ops»], [⟨(.app2 N.«fraction» (.name
    N.«LeftRep») (.name N.«Ops»)), N.«left», none⟩, ⟨(.name N.«RightRep»), N.«right», none⟩],
    false, (.app2 N.«fraction» (.app2 N.«std::common_type_t» (.name N.«LeftRep») (.name
    N.«RightRep»)) (.name N.«Ops»)), (some (.using N.«common_rep_type» (.app2
    N.«std::common_type_t» (.name N.«LeftRep») (.name N.«RightRep»)) (.using N.«common_raw_type»
    (.app1 N.«raw_fraction» (.name N.«common_rep_type»)) (.ite (.call N.«std» N.«is_same_v» [(.name
    N.«LeftRep»), (.name N.«RightRep»)] .nil) (.ret (.call N.«Ops» N.«divides» [] (.cons (.method
    (.var 0 N.«left») N.«raw») (.cons (.var 0 N.«right») .nil))) .nil) (.ite (.call N.«std»
    N.«is_same_v» [(.name N.«LeftRep»), (.name N.«common_rep_type»)] .nil) (.ret (.call N.«Ops»
    N.«divides» [] (.cons (.method (.var 0 N.«left») N.«raw») (.cons (.cast (.name
    N.«common_rep_type») (.var 0 N.«right»)) .nil))) .nil) (.ite (.call N.«std» N.«is_same_v»
    [(.name N.«RightRep»), (.name N.«common_rep_type»)] .nil) (.ret (.call N.«Ops» N.«divides» []
    (.cons (.cast (.name N.«common_raw_type») (.method (.var 0 N.«left») N.«raw»)) (.cons (.var 0
    N.«right») .nil))) .nil) (.ret (.call N.«Ops» N.«divides» [] (.cons (.cast (.name
    N.«common_raw_type») (.method (.var 0 N.«left») N.«raw»)) (.cons (.cast (.name
    N.«common_rep_type») (.var 0 N.«right»)) .nil))) .nil) .nil) .nil) .nil))))⟩

def F.op_div_3 : Func :=
  ⟨0, N.«operator/», [N.«LeftRep», N.«RightRep», N.«Ops»], [⟨(.name N.«LeftRep»), N.«left», none⟩,
    ⟨(.app2 N.«fraction» (.name N.«RightRep») (.name N.«Ops»)), N.«right», none⟩], false, (.app2
    N.«fraction» (.app2 N.«std::common_type_t» (.name N.«LeftRep») (.name N.«RightRep»)) (.name
    N.«Ops»)), (some (.using N.«common_rep_type» (.app2 N.«std::common_type_t» (.name N.«LeftRep»)
    (.name N.«RightRep»)) (.using N.«common_raw_type» (.app1 N.«raw_fraction» (.name
    N.«common_rep_type»)) (.ite (.call N.«std» N.«is_same_v» [(.name N.«LeftRep»), (.name
    N.«RightRep»)] .nil) (.ret (.call N.«Ops» N.«divides» [] (.cons (.var 0 N.«left») (.cons
    (.method (.var 0 N.«right») N.«raw») .nil))) .nil) (.ite (.call N.«std» N.«is_same_v» [(.name
    N.«LeftRep»), (.name N.«common_rep_type»)] .nil) (.ret (.call N.«Ops» N.«divides» [] (.cons
    (.var 0 N.«left») (.cons (.cast (.name N.«common_raw_type») (.method (.var 0 N.«right»)
    N.«raw»)) .nil))) .nil) (.ite (.call N.«std» N.«is_same_v» [(.name N.«RightRep»), (.name
    N.«common_rep_type»)] .nil) (.ret (.call N.«Ops» N.«divides» [] (.cons (.cast (.name
    N.«common_rep_type») (.var 0 N.«left»)) (.cons (.method (.var 0 N.«right») N.«raw») .nil)))
    .nil) (.ret (.call N.«Ops» N.«divides» [] (.cons (.cast (.name N.«common_rep_type») (.var 0
    N.«left»)) (.cons (.cast (.name N.«common_raw_type») (.method (.var 0 N.«right») N.«raw»))
    .nil))) .nil) .nil) .nil) .nil))))⟩

def F.op_mod_1 : Func :=
  ⟨0, N.«operator%», [N.«LeftRep», N.«RightRep», N.«Ops»], [⟨(.app2 N.«fraction» (.name
    N.«LeftRep») (.name N.«Ops»)), N.«left», none⟩, ⟨(.app2 N.«fraction» (.name N.«RightRep»)
    (.name N.«Ops»)), N.«right», none⟩], false, (.app2 N.«fraction» (.app2 N.«std::common_type_t»
    (.name N.«LeftRep») (.name N.«RightRep»)) (.name N.«Ops»)), (some (.using N.«common_rep_type»
    (.app2 N.«std::common_type_t» (.name N.«LeftRep») (.name N.«RightRep»)) (.using
    N.«common_raw_type» (.app1 N.«raw_fraction» (.name N.«common_rep_type»)) (.ite (.call N.«std»
    N.«is_same_v» [(.name N.«LeftRep»), (.name N.«RightRep»)] .nil) (.ret (.call N.«Ops»
    N.«modulus» [] (.cons (.method (.var 0 N.«left») N.«raw») (.cons (.method (.var 0 N.«right»)
    N.«raw») .nil))) .nil) (.ite (.call N.«std» N.«is_same_v» [(.name N.«LeftRep»), (.name
    N.«common_rep_type»)] .nil) (.ret (.call N.«Ops» N.«modulus» [] (.cons (.method (.var 0
    N.«left») N.«raw») (.cons (.cast (.name N.«common_raw_type») (.method (.var 0 N.«right»)
    N.«raw»)) .nil))) .nil) (.ite (.call N.«std» N.«is_same_v» [(.name N.«RightRep»), (.name
    N.«common_rep_type»)] .nil) (.ret (.call N.«Ops» N.«modulus» [] (.cons (.cast (.name
    N.«common_raw_type») (.method (.var 0 N.«left») N.«raw»)) (.cons (.method (.var 0 N.«right»)
    N.«raw») .nil))) .nil) (.ret (.call N.«Ops» N.«modulus» [] (.cons (.cast (.name
    N.«common_raw_type») (.method (.var 0 N.«left») N.«raw»)) (.cons (.cast (.name
    N.«common_raw_type») (.method (.var 0 N.«right») N.«raw»)) .nil))) .nil) .nil) .nil) .nil))))⟩

def F.op_mod_2 : Func :=
  ⟨0, N.«operator%», [N.«LeftRep», N.«RightRep», N.«Ops»], [⟨(.app2 N.«fraction» (.name
    N.«LeftRep») (.name N.«Ops»)), N.«left», none⟩, ⟨(.name N.«RightRep»), N.«right», none⟩],
    false, (.app2 N.«fraction» (.app2 N.«std::common_type_t» (.name N.«LeftRep») (.name
    N.«RightRep»)) (.name N.«Ops»)), (some (.using N.«common_rep_type» (.app2
    N.«std::common_type_t» (.name N.«LeftRep») (.name N.«RightRep»)) (.using N.«common_raw_type»
    (.app1 N.«raw_fraction» (.name N.«common_rep_type»)) (.ite (.call N.«std» N.«is_same_v» [(.name
    N.«LeftRep»), (.name N.«RightRep»)] .nil) (.ret (.call N.«Ops» N.«modulus» [] (.cons (.method
    (.var 0 N.«left») N.«raw») (.cons (.var 0 N.«right») .nil))) .nil) (.ite (.call N.«std»
    N.«is_same_v» [(.name N.«LeftRep»), (.name N.«common_rep_type»)] .nil) (.ret (.call N.«Ops»
    N.«modulus» [] (.cons (.method (.var 0 N.«left») N.«raw») (.cons (.cast (.name
    N.«common_rep_type») (.var 0 N.«right»)) .nil))) .nil) (.ite (.call N.«std» N.«is_same_v»
    [(.name N.«RightRep»), (.name N.«common_rep_type»)] .nil) (.ret (.call N.«Ops» N.«modulus» []
    (.cons (.cast (.name N.«common_raw_type») (.method (.var 0 N.«left») N.«raw»)) (.cons (.var 0
    N.«right») .nil))) .nil) (.ret (.call N.«Ops» N.«modulus» [] (.cons (.cast (.name
    N.«common_raw_type») (.method (.var 0 N.«left») N.«raw»)) (.cons (.cast (.name
    N.«common_rep_type») (.var 0 N.«right»)) .nil))) .nil) .nil) .nil) .nil))))⟩

def F.op_mod_3 : Func :=
  ⟨0, N.«operator%», [N.«LeftRep», N.«RightRep», N.«Ops»], [⟨(.name N.«LeftRep»), N.«left», none⟩,
    ⟨(.app2 N.«fraction» (.name N.«RightRep») (.name N.«Ops»)), N.«right», none⟩], false, (.app2
    N.«fraction» (.app2 N.«std::common_type_t» (.name N.«LeftRep») (.name N.«RightRep»)) (.name
    N.«Ops»)), (some (.using N.«common_rep_type» (.app2 N.«std::common_type_t» (.name N.«LeftRep»)
    (.name N.«RightRep»)) (.using N.«common_raw_type» (.app1 N.«raw_fraction» (.name
    N.«common_rep_type»)) (.ite (.call N.«std» N.«is_same_v» [(.name N.«LeftRep»), (.name
    N.«RightRep»)] .nil) (.ret (.call N.«Ops» N.«modulus» [] (.cons (.var 0 N.«left») (.cons
    (.method (.var 0 N.«right») N.«raw») .nil))) .nil) (.ite (.call N.«std» N.«is_same_v» [(.name
    N.«LeftRep»), (.name N.«common_rep_type»)] .nil) (.ret (.call N.«Ops» N.«modulus» [] (.cons
    (.var 0 N.«left») (.cons (.cast (.name N.«common_raw_type») (.method (.var 0 N.«right»)
    N.«raw»)) .nil))) .nil) (.ite (.call N.«std» N.«is_same_v» [(.name N.«RightRep»), (.name
    N.«common_rep_type»)] .nil) (.ret (.call N.«Ops» N.«modulus» [] (.cons (.cast (.name
    N.«common_rep_type») (.var 0 N.«left»)) (.cons (.method (.var 0 N.«right») N.«raw») .nil)))
    .nil) (.ret (.call N.«Ops» N.«modulus» [] (.cons (.cast (.name N.«common_rep_type») (.var 0
    N.«left»)) (.cons (.cast (.name N.«common_raw_type») (.method (.var 0 N.«right») N.«raw»))
    .nil))) .nil) .nil) .nil) .nil))))⟩

def F.op_addEq_1 : Func :=
  ⟨0, N.«operator+=», [N.«LeftRep», N.«RightRep», N.«Ops»], [⟨(.app2 N.«fraction» (.name
    N.«LeftRep») (.name N.«Ops»)), N.«left», none⟩, ⟨(.app2 N.«fraction» (.name N.«RightRep»)
    (.name N.«Ops»)), N.«right», none⟩], false, (.app2 N.«fraction» (.name N.«LeftRep») (.name
    N.«Ops»)), (some (.ite (.call N.«std» N.«is_same_v» [(.name N.«LeftRep»), (.name N.«RightRep»)]
    .nil) (.retAssign N.«left» (.bin .add (.var 0 N.«left») (.var 0 N.«right»)) .nil) (.retAssign
    N.«left» (.bin .add (.var 0 N.«left») (.call 0 N.«fraction» [(.name N.«LeftRep»), (.name
    N.«Ops»)] (.cons (.var 0 N.«right») .nil))) .nil) .nil))⟩

def F.op_addEq_2 : Func :=
  ⟨0, N.«operator+=», [N.«LeftRep», N.«RightRep», N.«Ops»], [⟨(.app2 N.«fraction» (.name
    N.«LeftRep») (.name N.«Ops»)), N.«left», none⟩, ⟨(.name N.«RightRep»), N.«right», none⟩],
    false, (.app2 N.«fraction» (.name N.«LeftRep») (.name N.«Ops»)), (some (.ite (.call N.«std»
    N.«is_same_v» [(.name N.«LeftRep»), (.name N.«RightRep»)] .nil) (.retAssign N.«left» (.bin .add
    (.var 0 N.«left») (.var 0 N.«right»)) .nil) (.retAssign N.«left» (.bin .add (.var 0 N.«left»)
    (.cast (.name N.«LeftRep») (.var 0 N.«right»))) .nil) .nil))⟩

def F.op_subEq_1 : Func :=
  ⟨0, N.«operator-=», [N.«LeftRep», N.«RightRep», N.«Ops»], [⟨(.app2 N.«fraction» (.name
    N.«LeftRep») (.name N.«Ops»)), N.«left», none⟩, ⟨(.app2 N.«fraction» (.name N.«RightRep»)
    (.name N.«Ops»)), N.«right», none⟩], false, (.app2 N.«fraction» (.name N.«LeftRep») (.name
    N.«Ops»)), (some (.ite (.call N.«std» N.«is_same_v» [(.name N.«LeftRep»), (.name N.«RightRep»)]
    .nil) (.retAssign N.«left» (.bin .sub (.var 0 N.«left») (.var 0 N.«right»)) .nil) (.retAssign
    N.«left» (.bin .sub (.var 0 N.«left») (.call 0 N.«fraction» [(.name N.«LeftRep»), (.name
    N.«Ops»)] (.cons (.var 0 N.«right») .nil))) .nil) .nil))⟩

def F.op_subEq_2 : Func :=
  ⟨0, N.«operator-=», [N.«LeftRep», N.«RightRep», N.«Ops»], [⟨(.app2 N.«fraction» (.name
    N.«LeftRep») (.name N.«Ops»)), N.«left», none⟩, ⟨(.name N.«RightRep»), N.«right», none⟩],
    false, (.app2 N.«fraction» (.name N.«LeftRep») (.name N.«Ops»)), (some (.ite (.call N.«std»
    N.«is_same_v» [(.name N.«LeftRep»), (.name N.«RightRep»)] .nil) (.retAssign N.«left» (.bin .sub
    (.var 0 N.«left») (.var 0 N.«right»)) .nil) (.retAssign N.«left» (.bin .sub (.var 0 N.«left»)
    (.cast (.name N.«LeftRep») (.var 0 N.«right»))) .nil) .nil))⟩

def F.op_mulEq_1 : Func :=
  ⟨0, N.«operator*=», [N.«LeftRep», N.«RightRep», N.«Ops»], [⟨(.app2 N.«fraction» (.name
    N.«LeftRep») (.name N.«Ops»)), N.«left», none⟩, ⟨(.app2 N.«fraction» (.name N.«RightRep»)
    (.name N.«Ops»)), N.«right», none⟩], false, (.app2 N.«fraction» (.name N.«LeftRep») (.name
    N.«Ops»)), (some (.ite (.call N.«std» N.«is_same_v» [(.name N.«LeftRep»), (.name N.«RightRep»)]
    .nil) (.retAssign N.«left» (.bin .mul (.var 0 N.«left») (.var 0 N.«right»)) .nil) (.retAssign
    N.«left» (.bin .mul (.var 0 N.«left») (.call 0 N.«fraction» [(.name N.«LeftRep»), (.name
    N.«Ops»)] (.cons (.var 0 N.«right») .nil))) .nil) .nil))⟩

def F.op_mulEq_2 : Func :=
  ⟨0, N.«operator*=», [N.«LeftRep», N.«RightRep», N.«Ops»], [⟨(.app2 N.«fraction» (.name
    N.«LeftRep») (.name N.«Ops»)), N.«left», none⟩, ⟨(.name N.«RightRep»), N.«right», none⟩],
    false, (.app2 N.«fraction» (.name N.«LeftRep») (.name N.«Ops»)), (some (.ite (.call N.«std»
    N.«is_same_v» [(.name N.«LeftRep»), (.name N.«RightRep»)] .nil) (.retAssign N.«left» (.bin .mul
    (.var 0 N.«left») (.var 0 N.«right»)) .nil) (.retAssign N.«left» (.bin .mul (.var 0 N.«left»)
    (.cast (.name N.«LeftRep») (.var 0 N.«right»))) .nil) .nil))⟩

def F.op_divEq_1 : Func :=
  ⟨0, N.«operator/=», [N.«LeftRep», N.«RightRep», N.«Ops»], [⟨(.app2 N.«fraction» (.name
    N.«LeftRep») (.name N.«Ops»)), N.«left», none⟩, ⟨(.app2 N.«fraction» (.name N.«RightRep»)
    (.name N.«Ops»)), N.«right», none⟩], false, (.app2 N.«fraction» (.name N.«LeftRep») (.name
    N.«Ops»)), (some (.ite (.call N.«std» N.«is_same_v» [(.name N.«LeftRep»), (.name N.«RightRep»)]
    .nil) (.retAssign N.«left» (.bin .div (.var 0 N.«left») (.var 0 N.«right»)) .nil) (.retAssign
    N.«left» (.bin .div (.var 0 N.«left») (.call 0 N.«fraction» [(.name N.«LeftRep»), (.name
    N.«Ops»)] (.cons (.var 0 N.«right») .nil))) .nil) .nil))⟩

def F.op_divEq_2 : Func :=
  ⟨0, N.«operator/=», [N.«LeftRep», N.«RightRep», N.«Ops»], [⟨(.app2 N.«fraction» (.name
    N.«LeftRep») (.name N.«Ops»)), N.«left», none⟩, ⟨(.name N.«RightRep»), N.«right», none⟩],
    false, (.app2 N.«fraction» (.name N.«LeftRep») (.name N.«Ops»)), (some (.ite (.call N.«std»
    N.«is_same_v» [(.name N.«LeftRep»), (.name N.«RightRep»)] .nil) (.retAssign N.«left» (.bin .div
    (.var 0 N.«left») (.var 0 N.«right»)) .nil) (.retAssign N.«left» (.bin .div (.var 0 N.«left»)
    (.cast (.name N.«LeftRep») (.var 0 N.«right»))) .nil) .nil))⟩

def F.op_modEq_1 : Func :=
  ⟨0, N.«operator%=», [N.«LeftRep», N.«RightRep», N.«Ops»], [⟨(.app2 N.«fraction» (.name
    N.«LeftRep») (.name N.«Ops»)), N.«left», none⟩, ⟨(.app2 N.«fraction» (.name N.«RightRep»)
    (.name N.«Ops»)), N.«right», none⟩], false, (.app2 N.«fraction» (.name N.«LeftRep») (.name
    N.«Ops»)), (some (.ite (.call N.«std» N.«is_same_v» [(.name N.«LeftRep»), (.name N.«RightRep»)]
    .nil) (.retAssign N.«left» (.bin .mod (.var 0 N.«left») (.var 0 N.«right»)) .nil) (.retAssign
    N.«left» (.bin .mod (.var 0 N.«left») (.call 0 N.«fraction» [(.name N.«LeftRep»), (.name
    N.«Ops»)] (.cons (.var 0 N.«right») .nil))) .nil) .nil))⟩

def F.op_modEq_2 : Func :=
  ⟨0, N.«operator%=», [N.«LeftRep», N.«RightRep», N.«Ops»], [⟨(.app2 N.«fraction» (.name
    N.«LeftRep») (.name N.«Ops»)), N.«left», none⟩, ⟨(.name N.«RightRep»), N.«right», none⟩],
    false, (.app2 N.«fraction» (.name N.«LeftRep») (.name N.«Ops»)), (some (.ite (.call N.«std»
    N.«is_same_v» [(.name N.«LeftRep»), (.name N.«RightRep»)] .nil) (.retAssign N.«left» (.bin .mod
    (.var 0 N.«left») (.var 0 N.«right»)) .nil) (.retAssign N.«left» (.bin .mod (.var 0 N.«left»)
    (.cast (.name N.«LeftRep») (.var 0 N.«right»))) .nil) .nil))⟩

def F.op_eq_1 : Func :=
  ⟨0, N.«operator==», [N.«LeftRep», N.«RightRep», N.«Ops»], [⟨(.app2 N.«fraction» (.name
    N.«LeftRep») (.name N.«Ops»)), N.«left», none⟩, ⟨(.app2 N.«fraction» (.name N.«RightRep»)
    (.name N.«Ops»)), N.«right», none⟩], false, (.name N.«bool»), (some (.using N.«common_rep_type»
    (.app2 N.«std::common_type_t» (.name N.«LeftRep») (.name N.«RightRep»)) (.using
    N.«common_raw_type» (.app1 N.«raw_fraction» (.name N.«common_rep_type»)) (.ite (.call N.«std»
    N.«is_same_v» [(.name N.«LeftRep»), (.name N.«RightRep»)] .nil) (.ret (.call N.«Ops»
    N.«equal_to» [] (.cons (.method (.var 0 N.«left») N.«raw») (.cons (.method (.var 0 N.«right»)
    N.«raw») .nil))) .nil) (.ite (.call N.«std» N.«is_same_v» [(.name N.«LeftRep»), (.name
    N.«common_rep_type»)] .nil) (.ret (.call N.«Ops» N.«equal_to» [] (.cons (.method (.var 0
    N.«left») N.«raw») (.cons (.cast (.name N.«common_raw_type») (.method (.var 0 N.«right»)
    N.«raw»)) .nil))) .nil) (.ite (.call N.«std» N.«is_same_v» [(.name N.«RightRep»), (.name
    N.«common_rep_type»)] .nil) (.ret (.call N.«Ops» N.«equal_to» [] (.cons (.cast (.name
    N.«common_raw_type») (.method (.var 0 N.«left») N.«raw»)) (.cons (.method (.var 0 N.«right»)
    N.«raw») .nil))) .nil) (.ret (.call N.«Ops» N.«equal_to» [] (.cons (.cast (.name
    N.«common_raw_type») (.method (.var 0 N.«left») N.«raw»)) (.cons (.cast (.name
    N.«common_raw_type») (.method (.var 0 N.«right») N.«raw»)) .nil))) .nil) .nil) .nil) .nil))))⟩

def F.op_eq_2 : Func :=
  ⟨0, N.«operator==», [N.«LeftRep», N.«RightRep», N.«Ops»], [⟨(.app2 N.«fraction» (.name
    N.«LeftRep») (.name N.«Ops»)), N.«left», none⟩, ⟨(.name N.«RightRep»), N.«right», none⟩],
    false, (.name N.«bool»), (some (.using N.«common_rep_type» (.app2 N.«std::common_type_t» (.name
    N.«LeftRep») (.name N.«RightRep»)) (.using N.«common_raw_type» (.app1 N.«raw_fraction» (.name
    N.«common_rep_type»)) (.ite (.call N.«std» N.«is_same_v» [(.name N.«LeftRep»), (.name
    N.«RightRep»)] .nil) (.ret (.call N.«Ops» N.«equal_to» [] (.cons (.method (.var 0 N.«left»)
    N.«raw») (.cons (.var 0 N.«right») .nil))) .nil) (.ite (.call N.«std» N.«is_same_v» [(.name
    N.«LeftRep»), (.name N.«common_rep_type»)] .nil) (.ret (.call N.«Ops» N.«equal_to» [] (.cons
    (.method (.var 0 N.«left») N.«raw») (.cons (.cast (.name N.«common_rep_type») (.var 0
    N.«right»)) .nil))) .nil) (.ite (.call N.«std» N.«is_same_v» [(.name N.«RightRep»), (.name
    N.«common_rep_type»)] .nil) (.ret (.call N.«Ops» N.«equal_to» [] (.cons (.cast (.name
    N.«common_raw_type») (.method (.var 0 N.«left») N.«raw»)) (.cons (.var 0 N.«right») .nil)))
    .nil) (.ret (.call N.«Ops» N.«equal_to» [] (.cons (.cast (.name N.«common_raw_type») (.method
    (.var 0 N.«left») N.«raw»)) (.cons (.cast (.name N.«common_rep_type») (.var 0 N.«right»))
    .nil))) .nil) .nil) .nil) .nil))))⟩

def F.op_eq_3 : Func :=
  ⟨0, N.«operator==», [N.«LeftRep», N.«RightRep», N.«Ops»], [⟨(.name N.«LeftRep»), N.«left», none⟩,
    ⟨(.app2 N.«fraction» (.name N.«RightRep») (.name N.«Ops»)), N.«right», none⟩], false, (.name
    N.«bool»), (some (.using N.«common_rep_type» (.app2 N.«std::common_type_t» (.name N.«LeftRep»)
    (.name N.«RightRep»)) (.using N.«common_raw_type» (.app1 N.«raw_fraction» (.name
    N.«common_rep_type»)) (.ite (.call N.«std» N.«is_same_v» [(.name N.«LeftRep»), (.name
    N.«RightRep»)] .nil) (.ret (.call N.«Ops» N.«equal_to» [] (.cons (.var 0 N.«left») (.cons
    (.method (.var 0 N.«right») N.«raw») .nil))) .nil) (.ite (.call N.«std» N.«is_same_v» [(.name
    N.«LeftRep»), (.name N.«common_rep_type»)] .nil) (.ret (.call N.«Ops» N.«equal_to» [] (.cons
    (.var 0 N.«left») (.cons (.cast (.name N.«common_raw_type») (.method (.var 0 N.«right»)
    N.«raw»)) .nil))) .nil) (.ite (.call N.«std» N.«is_same_v» [(.name N.«RightRep»), (.name
    N.«common_rep_type»)] .nil) (.ret (.call N.«Ops» N.«equal_to» [] (.cons (.cast (.name
    N.«common_rep_type») (.var 0 N.«left»)) (.cons (.method (.var 0 N.«right») N.«raw») .nil)))
    .nil) (.ret (.call N.«Ops» N.«equal_to» [] (.cons (.cast (.name N.«common_rep_type») (.var 0
    N.«left»)) (.cons (.cast (.name N.«common_raw_type») (.method (.var 0 N.«right») N.«raw»))
    .nil))) .nil) .nil) .nil) .nil))))⟩

def F.op_ne_1 : Func :=
  ⟨0, N.«operator!=», [N.«LeftRep», N.«RightRep», N.«Ops»], [⟨(.app2 N.«fraction» (.name
    N.«LeftRep») (.name N.«Ops»)), N.«left», none⟩, ⟨(.app2 N.«fraction» (.name N.«RightRep»)
    (.name N.«Ops»)), N.«right», none⟩], false, (.name N.«bool»), (some (.using N.«common_rep_type»
    (.app2 N.«std::common_type_t» (.name N.«LeftRep») (.name N.«RightRep»)) (.using
    N.«common_raw_type» (.app1 N.«raw_fraction» (.name N.«common_rep_type»)) (.ite (.call N.«std»
    N.«is_same_v» [(.name N.«LeftRep»), (.name N.«RightRep»)] .nil) (.ret (.call N.«Ops»
    N.«not_equal_to» [] (.cons (.method (.var 0 N.«left») N.«raw») (.cons (.method (.var 0
    N.«right») N.«raw») .nil))) .nil) (.ite (.call N.«std» N.«is_same_v» [(.name N.«LeftRep»),
    (.name N.«common_rep_type»)] .nil) (.ret (.call N.«Ops» N.«not_equal_to» [] (.cons (.method
    (.var 0 N.«left») N.«raw») (.cons (.cast (.name N.«common_raw_type») (.method (.var 0
    N.«right») N.«raw»)) .nil))) .nil) (.ite (.call N.«std» N.«is_same_v» [(.name N.«RightRep»),
    (.name N.«common_rep_type»)] .nil) (.ret (.call N.«Ops» N.«not_equal_to» [] (.cons (.cast
    (.name N.«common_raw_type») (.method (.var 0 N.«left») N.«raw»)) (.cons (.method (.var 0
    N.«right») N.«raw») .nil))) .nil) (.ret (.call N.«Ops» N.«not_equal_to» [] (.cons (.cast (.name
    N.«common_raw_type») (.method (.var 0 N.«left») N.«raw»)) (.cons (.cast (.name
    N.«common_raw_type») (.method (.var 0 N.«right») N.«raw»)) .nil))) .nil) .nil) .nil) .nil))))⟩

def F.op_ne_2 : Func :=
  ⟨0, N.«operator!=», [N.«LeftRep», N.«RightRep», N.«Ops»], [⟨(.app2 N.«fraction» (.name
    N.«LeftRep») (.name N.«Ops»)), N.«left», none⟩, ⟨(.name N.«RightRep»), N.«right», none⟩],
    false, (.name N.«bool»), (some (.using N.«common_rep_type» (.app2 N.«std::common_type_t» (.name
    N.«LeftRep») (.name N.«RightRep»)) (.using N.«common_raw_type» (.app1 N.«raw_fraction» (.name
    N.«common_rep_type»)) (.ite (.call N.«std» N.«is_same_v» [(.name N.«LeftRep»), (.name
    N.«RightRep»)] .nil) (.ret (.call N.«Ops» N.«not_equal_to» [] (.cons (.method (.var 0 N.«left»)
    N.«raw») (.cons (.var 0 N.«right») .nil))) .nil) (.ite (.call N.«std» N.«is_same_v» [(.name
    N.«LeftRep»), (.name N.«common_rep_type»)] .nil) (.ret (.call N.«Ops» N.«not_equal_to» []
    (.cons (.method (.var 0 N.«left») N.«raw») (.cons (.cast (.name N.«common_rep_type») (.var 0
    N.«right»)) .nil))) .nil) (.ite (.call N.«std» N.«is_same_v» [(.name N.«RightRep»), (.name
    N.«common_rep_type»)] .nil) (.ret (.call N.«Ops» N.«not_equal_to» [] (.cons (.cast (.name
    N.«common_raw_type») (.method (.var 0 N.«left») N.«raw»)) (.cons (.var 0 N.«right») .nil)))
    .nil) (.ret (.call N.«Ops» N.«not_equal_to» [] (.cons (.cast (.name N.«common_raw_type»)
    (.method (.var 0 N.«left») N.«raw»)) (.cons (.cast (.name N.«common_rep_type») (.var 0
    N.«right»)) .nil))) .nil) .nil) .nil) .nil))))⟩

def F.op_ne_3 : Func :=
  ⟨0, N.«operator!=», [N.«LeftRep», N.«RightRep», N.«Ops»], [⟨(.name N.«LeftRep»), N.«left», none⟩,
    ⟨(.app2 N.«fraction» (.name N.«RightRep») (.name N.«Ops»)), N.«right», none⟩], false, (.name
    N.«bool»), (some (.using N.«common_rep_type» (.app2 N.«std::common_type_t» (.name N.«LeftRep»)
    (.name N.«RightRep»)) (.using N.«common_raw_type» (.app1 N.«raw_fraction» (.name
    N.«common_rep_type»)) (.ite (.call N.«std» N.«is_same_v» [(.name N.«LeftRep»), (.name
    N.«RightRep»)] .nil) (.ret (.call N.«Ops» N.«not_equal_to» [] (.cons (.var 0 N.«left») (.cons
    (.method (.var 0 N.«right») N.«raw») .nil))) .nil) (.ite (.call N.«std» N.«is_same_v» [(.name
    N.«LeftRep»), (.name N.«common_rep_type»)] .nil) (.ret (.call N.«Ops» N.«not_equal_to» []
    (.cons (.var 0 N.«left») (.cons (.cast (.name N.«common_raw_type») (.method (.var 0 N.«right»)
    N.«raw»)) .nil))) .nil) (.ite (.call N.«std» N.«is_same_v» [(.name N.«RightRep»), (.name
    N.«common_rep_type»)] .nil) (.ret (.call N.«Ops» N.«not_equal_to» [] (.cons (.cast (.name
    N.«common_rep_type») (.var 0 N.«left»)) (.cons (.method (.var 0 N.«right») N.«raw») .nil)))
    .nil) (.ret (.call N.«Ops» N.«not_equal_to» [] (.cons (.cast (.name N.«common_rep_type») (.var
    0 N.«left»)) (.cons (.cast (.name N.«common_raw_type») (.method (.var 0 N.«right») N.«raw»))
    .nil))) .nil) .nil) .nil) .nil))))⟩

def F.op_lt_1 : Func :=
  ⟨0, N.«operator<», [N.«LeftRep», N.«RightRep», N.«Ops»], [⟨(.app2 N.«fraction» (.name
    N.«LeftRep») (.name N.«Ops»)), N.«left», none⟩, ⟨(.app2 N.«fraction» (.name N.«RightRep»)
    (.name N.«Ops»)), N.«right», none⟩], false, (.name N.«bool»), (some (.using N.«common_rep_type»
    (.app2 N.«std::common_type_t» (.name N.«LeftRep») (.name N.«RightRep»)) (.using
    N.«common_raw_type» (.app1 N.«raw_fraction» (.name N.«common_rep_type»)) (.ite (.call N.«std»
    N.«is_same_v» [(.name N.«LeftRep»), (.name N.«RightRep»)] .nil) (.ret (.call N.«Ops» N.«less»
    [] (.cons (.method (.var 0 N.«left») N.«raw») (.cons (.method (.var 0 N.«right») N.«raw»)
    .nil))) .nil) (.ite (.call N.«std» N.«is_same_v» [(.name N.«LeftRep»), (.name
    N.«common_rep_type»)] .nil) (.ret (.call N.«Ops» N.«less» [] (.cons (.method (.var 0 N.«left»)
    N.«raw») (.cons (.cast (.name N.«common_raw_type») (.method (.var 0 N.«right») N.«raw»))
    .nil))) .nil) (.ite (.call N.«std» N.«is_same_v» [(.name N.«RightRep»), (.name
    N.«common_rep_type»)] .nil) (.ret (.call N.«Ops» N.«less» [] (.cons (.cast (.name
    N.«common_raw_type») (.method (.var 0 N.«left») N.«raw»)) (.cons (.method (.var 0 N.«right»)
    N.«raw») .nil))) .nil) (.ret (.call N.«Ops» N.«less» [] (.cons (.cast (.name
    N.«common_raw_type») (.method (.var 0 N.«left») N.«raw»)) (.cons (.cast (.name
    N.«common_raw_type») (.method (.var 0 N.«right») N.«raw»)) .nil))) .nil) .nil) .nil) .nil))))⟩

def F.op_lt_2 : Func :=
  ⟨0, N.«operator<», [N.«LeftRep», N.«RightRep», N.«Ops»], [⟨(.app2 N.«fraction» (.name
    N.«LeftRep») (.name N.«Ops»)), N.«left», none⟩, ⟨(.name N.«RightRep»), N.«right», none⟩],
    false, (.name N.«bool»), (some (.using N.«common_rep_type» (.app2 N.«std::common_type_t» (.name
    N.«LeftRep») (.name N.«RightRep»)) (.using N.«common_raw_type» (.app1 N.«raw_fraction» (.name
    N.«common_rep_type»)) (.ite (.call N.«std» N.«is_same_v» [(.name N.«LeftRep»), (.name
    N.«RightRep»)] .nil) (.ret (.call N.«Ops» N.«less» [] (.cons (.method (.var 0 N.«left»)
    N.«raw») (.cons (.var 0 N.«right») .nil))) .nil) (.ite (.call N.«std» N.«is_same_v» [(.name
    N.«LeftRep»), (.name N.«common_rep_type»)] .nil) (.ret (.call N.«Ops» N.«less» [] (.cons
    (.method (.var 0 N.«left») N.«raw») (.cons (.cast (.name N.«common_rep_type») (.var 0
    N.«right»)) .nil))) .nil) (.ite (.call N.«std» N.«is_same_v» [(.name N.«RightRep»), (.name
    N.«common_rep_type»)] .nil) (.ret (.call N.«Ops» N.«less» [] (.cons (.cast (.name
    N.«common_raw_type») (.method (.var 0 N.«left») N.«raw»)) (.cons (.var 0 N.«right») .nil)))
    .nil) (.ret (.call N.«Ops» N.«less» [] (.cons (.cast (.name N.«common_raw_type») (.method (.var
    0 N.«left») N.«raw»)) (.cons (.cast (.name N.«common_rep_type») (.var 0 N.«right»)) .nil)))
    .nil) .nil) .nil) .nil))))⟩

def F.op_lt_3 : Func :=
  ⟨0, N.«operator<», [N.«LeftRep», N.«RightRep», N.«Ops»], [⟨(.name N.«LeftRep»), N.«left», none⟩,
    ⟨(.app2 N.«fraction» (.name N.«RightRep») (.name N.«Ops»)), N.«right», none⟩], false, (.name
    N.«bool»), (some (.using N.«common_rep_type» (.app2 N.«std::common_type_t» (.name N.«LeftRep»)
    (.name N.«RightRep»)) (.using N.«common_raw_type» (.app1 N.«raw_fraction» (.name
    N.«common_rep_type»)) (.ite (.call N.«std» N.«is_same_v» [(.name N.«LeftRep»), (.name
    N.«RightRep»)] .nil) (.ret (.call N.«Ops» N.«less» [] (.cons (.var 0 N.«left») (.cons (.method
    (.var 0 N.«right») N.«raw») .nil))) .nil) (.ite (.call N.«std» N.«is_same_v» [(.name
    N.«LeftRep»), (.name N.«common_rep_type»)] .nil) (.ret (.call N.«Ops» N.«less» [] (.cons (.var
    0 N.«left») (.cons (.cast (.name N.«common_raw_type») (.method (.var 0 N.«right») N.«raw»))
    .nil))) .nil) (.ite (.call N.«std» N.«is_same_v» [(.name N.«RightRep»), (.name
    N.«common_rep_type»)] .nil) (.ret (.call N.«Ops» N.«less» [] (.cons (.cast (.name
    N.«common_rep_type») (.var 0 N.«left»)) (.cons (.method (.var 0 N.«right») N.«raw») .nil)))
    .nil) (.ret (.call N.«Ops» N.«less» [] (.cons (.cast (.name N.«common_rep_type») (.var 0
    N.«left»)) (.cons (.cast (.name N.«common_raw_type») (.method (.var 0 N.«right») N.«raw»))
    .nil))) .nil) .nil) .nil) .nil))))⟩

def F.op_le_1 : Func :=
  ⟨0, N.«operator<=», [N.«LeftRep», N.«RightRep», N.«Ops»], [⟨(.app2 N.«fraction» (.name
    N.«LeftRep») (.name N.«Ops»)), N.«left», none⟩, ⟨(.app2 N.«fraction» (.name N.«RightRep»)
    (.name N.«Ops»)), N.«right», none⟩], false, (.name N.«bool»), (some (.using N.«common_rep_type»
    (.app2 N.«std::common_type_t» (.name N.«LeftRep») (.name N.«RightRep»)) (.using
    N.«common_raw_type» (.app1 N.«raw_fraction» (.name N.«common_rep_type»)) (.ite (.call N.«std»
    N.«is_same_v» [(.name N.«LeftRep»), (.name N.«RightRep»)] .nil) (.ret (.call N.«Ops»
    N.«less_equal» [] (.cons (.method (.var 0 N.«left») N.«raw») (.cons (.method (.var 0 N.«right»)
    N.«raw») .nil))) .nil) (.ite (.call N.«std» N.«is_same_v» [(.name N.«LeftRep»), (.name
    N.«common_rep_type»)] .nil) (.ret (.call N.«Ops» N.«less_equal» [] (.cons (.method (.var 0
    N.«left») N.«raw») (.cons (.cast (.name N.«common_raw_type») (.method (.var 0 N.«right»)
    N.«raw»)) .nil))) .nil) (.ite (.call N.«std» N.«is_same_v» [(.name N.«RightRep»), (.name
    N.«common_rep_type»)] .nil) (.ret (.call N.«Ops» N.«less_equal» [] (.cons (.cast (.name
    N.«common_raw_type») (.method (.var 0 N.«left») N.«raw»)) (.cons (.method (.var 0 N.«right»)
    N.«raw») .nil))) .nil) (.ret (.call N.«Ops» N.«less_equal» [] (.cons (.cast (.name
    N.«common_raw_type») (.method (.var 0 N.«left») N.«raw»)) (.cons (.cast (.name
    N.«common_raw_type») (.method (.var 0 N.«right») N.«raw»)) .nil))) .nil) .nil) .nil) .nil))))⟩

def F.op_le_2 : Func :=
  ⟨0, N.«operator<=», [N.«LeftRep», N.«RightRep», N.«Ops»], [⟨(.app2 N.«fraction» (.name
    N.«LeftRep») (.name N.«Ops»)), N.«left», none⟩, ⟨(.name N.«RightRep»), N.«right», none⟩],
    false, (.name N.«bool»), (some (.using N.«common_rep_type» (.app2 N.«std::common_type_t» (.name
    N.«LeftRep») (.name N.«RightRep»)) (.using N.«common_raw_type» (.app1 N.«raw_fraction» (.name
    N.«common_rep_type»)) (.ite (.call N.«std» N.«is_same_v» [(.name N.«LeftRep»), (.name
    N.«RightRep»)] .nil) (.ret (.call N.«Ops» N.«less_equal» [] (.cons (.method (.var 0 N.«left»)
    N.«raw») (.cons (.var 0 N.«right») .nil))) .nil) (.ite (.call N.«std» N.«is_same_v» [(.name
    N.«LeftRep»), (.name N.«common_rep_type»)] .nil) (.ret (.call N.«Ops» N.«less_equal» [] (.cons
    (.method (.var 0 N.«left») N.«raw») (.cons (.cast (.name N.«common_rep_type») (.var 0
    N.«right»)) .nil))) .nil) (.ite (.call N.«std» N.«is_same_v» [(.name N.«RightRep»), (.name
    N.«common_rep_type»)] .nil) (.ret (.call N.«Ops» N.«less_equal» [] (.cons (.cast (.name
    N.«common_raw_type») (.method (.var 0 N.«left») N.«raw»)) (.cons (.var 0 N.«right») .nil)))
    .nil) (.ret (.call N.«Ops» N.«less_equal» [] (.cons (.cast (.name N.«common_raw_type») (.method
    (.var 0 N.«left») N.«raw»)) (.cons (.cast (.name N.«common_rep_type») (.var 0 N.«right»))
    .nil))) .nil) .nil) .nil) .nil))))⟩

def F.op_le_3 : Func :=
  ⟨0, N.«operator<=», [N.«LeftRep», N.«RightRep», N.«Ops»], [⟨(.name N.«LeftRep»), N.«left», none⟩,
    ⟨(.app2 N.«fraction» (.name N.«RightRep») (.name N.«Ops»)), N.«right», none⟩], false, (.name
    N.«bool»), (some (.using N.«common_rep_type» (.app2 N.«std::common_type_t» (.name N.«LeftRep»)
    (.name N.«RightRep»)) (.using N.«common_raw_type» (.app1 N.«raw_fraction» (.name
    N.«common_rep_type»)) (.ite (.call N.«std» N.«is_same_v» [(.name N.«LeftRep»), (.name
    N.«RightRep»)] .nil) (.ret (.call N.«Ops» N.«less_equal» [] (.cons (.var 0 N.«left») (.cons
    (.method (.var 0 N.«right») N.«raw») .nil))) .nil) (.ite (.call N.«std» N.«is_same_v» [(.name
    N.«LeftRep»), (.name N.«common_rep_type»)] .nil) (.ret (.call N.«Ops» N.«less_equal» [] (.cons
    (.var 0 N.«left») (.cons (.cast (.name N.«common_raw_type») (.method (.var 0 N.«right»)
    N.«raw»)) .nil))) .nil) (.ite (.call N.«std» N.«is_same_v» [(.name N.«RightRep»), (.name
    N.«common_rep_type»)] .nil) (.ret (.call N.«Ops» N.«less_equal» [] (.cons (.cast (.name
    N.«common_rep_type») (.var 0 N.«left»)) (.cons (.method (.var 0 N.«right») N.«raw») .nil)))
    .nil) (.ret (.call N.«Ops» N.«less_equal» [] (.cons (.cast (.name N.«common_rep_type») (.var 0
    N.«left»)) (.cons (.cast (.name N.«common_raw_type») (.method (.var 0 N.«right») N.«raw»))
    .nil))) .nil) .nil) .nil) .nil))))⟩

def F.op_gt_1 : Func :=
  ⟨0, N.«operator>», [N.«LeftRep», N.«RightRep», N.«Ops»], [⟨(.app2 N.«fraction» (.name
    N.«LeftRep») (.name N.«Ops»)), N.«left», none⟩, ⟨(.app2 N.«fraction» (.name N.«RightRep»)
    (.name N.«Ops»)), N.«right», none⟩], false, (.name N.«bool»), (some (.using N.«common_rep_type»
    (.app2 N.«std::common_type_t» (.name N.«LeftRep») (.name N.«RightRep»)) (.using
    N.«common_raw_type» (.app1 N.«raw_fraction» (.name N.«common_rep_type»)) (.ite (.call N.«std»
    N.«is_same_v» [(.name N.«LeftRep»), (.name N.«RightRep»)] .nil) (.ret (.call N.«Ops»
    N.«greater» [] (.cons (.method (.var 0 N.«left») N.«raw») (.cons (.method (.var 0 N.«right»)
    N.«raw») .nil))) .nil) (.ite (.call N.«std» N.«is_same_v» [(.name N.«LeftRep»), (.name
    N.«common_rep_type»)] .nil) (.ret (.call N.«Ops» N.«greater» [] (.cons (.method (.var 0
    N.«left») N.«raw») (.cons (.cast (.name N.«common_raw_type») (.method (.var 0 N.«right»)
    N.«raw»)) .nil))) .nil) (.ite (.call N.«std» N.«is_same_v» [(.name N.«RightRep»), (.name
    N.«common_rep_type»)] .nil) (.ret (.call N.«Ops» N.«greater» [] (.cons (.cast (.name
    N.«common_raw_type») (.method (.var 0 N.«left») N.«raw»)) (.cons (.method (.var 0 N.«right»)
    N.«raw») .nil))) .nil) (.ret (.call N.«Ops» N.«greater» [] (.cons (.cast (.name
    N.«common_raw_type») (.method (.var 0 N.«left») N.«raw»)) (.cons (.cast (.name
    N.«common_raw_type») (.method (.var 0 N.«right») N.«raw»)) .nil))) .nil) .nil) .nil) .nil))))⟩

def F.op_gt_2 : Func :=
  ⟨0, N.«operator>», [N.«LeftRep», N.«RightRep», N.«Ops»], [⟨(.app2 N.«fraction» (.name
    N.«LeftRep») (.name N.«Ops»)), N.«left», none⟩, ⟨(.name N.«RightRep»), N.«right», none⟩],
    false, (.name N.«bool»), (some (.using N.«common_rep_type» (.app2 N.«std::common_type_t» (.name
    N.«LeftRep») (.name N.«RightRep»)) (.using N.«common_raw_type» (.app1 N.«raw_fraction» (.name
    N.«common_rep_type»)) (.ite (.call N.«std» N.«is_same_v» [(.name N.«LeftRep»), (.name
    N.«RightRep»)] .nil) (.ret (.call N.«Ops» N.«greater» [] (.cons (.method (.var 0 N.«left»)
    N.«raw») (.cons (.var 0 N.«right») .nil))) .nil) (.ite (.call N.«std» N.«is_same_v» [(.name
    N.«LeftRep»), (.name N.«common_rep_type»)] .nil) (.ret (.call N.«Ops» N.«greater» [] (.cons
    (.method (.var 0 N.«left») N.«raw») (.cons (.cast (.name N.«common_rep_type») (.var 0
    N.«right»)) .nil))) .nil) (.ite (.call N.«std» N.«is_same_v» [(.name N.«RightRep»), (.name
    N.«common_rep_type»)] .nil) (.ret (.call N.«Ops» N.«greater» [] (.cons (.cast (.name
    N.«common_raw_type») (.method (.var 0 N.«left») N.«raw»)) (.cons (.var 0 N.«right») .nil)))
    .nil) (.ret (.call N.«Ops» N.«greater» [] (.cons (.cast (.name N.«common_raw_type») (.method
    (.var 0 N.«left») N.«raw»)) (.cons (.cast (.name N.«common_rep_type») (.var 0 N.«right»))
    .nil))) .nil) .nil) .nil) .nil))))⟩

def F.op_gt_3 : Func :=
  ⟨0, N.«operator>», [N.«LeftRep», N.«RightRep», N.«Ops»], [⟨(.name N.«LeftRep»), N.«left», none⟩,
    ⟨(.app2 N.«fraction» (.name N.«RightRep») (.name N.«Ops»)), N.«right», none⟩], false, (.name
    N.«bool»), (some (.using N.«common_rep_type» (.app2 N.«std::common_type_t» (.name N.«LeftRep»)
    (.name N.«RightRep»)) (.using N.«common_raw_type» (.app1 N.«raw_fraction» (.name
    N.«common_rep_type»)) (.ite (.call N.«std» N.«is_same_v» [(.name N.«LeftRep»), (.name
    N.«RightRep»)] .nil) (.ret (.call N.«Ops» N.«greater» [] (.cons (.var 0 N.«left») (.cons
    (.method (.var 0 N.«right») N.«raw») .nil))) .nil) (.ite (.call N.«std» N.«is_same_v» [(.name
    N.«LeftRep»), (.name N.«common_rep_type»)] .nil) (.ret (.call N.«Ops» N.«greater» [] (.cons
    (.var 0 N.«left») (.cons (.cast (.name N.«common_raw_type») (.method (.var 0 N.«right»)
    N.«raw»)) .nil))) .nil) (.ite (.call N.«std» N.«is_same_v» [(.name N.«RightRep»), (.name
    N.«common_rep_type»)] .nil) (.ret (.call N.«Ops» N.«greater» [] (.cons (.cast (.name
    N.«common_rep_type») (.var 0 N.«left»)) (.cons (.method (.var 0 N.«right») N.«raw») .nil)))
    .nil) (.ret (.call N.«Ops» N.«greater» [] (.cons (.cast (.name N.«common_rep_type») (.var 0
    N.«left»)) (.cons (.cast (.name N.«common_raw_type») (.method (.var 0 N.«right») N.«raw»))
    .nil))) .nil) .nil) .nil) .nil))))⟩

def F.op_ge_1 : Func :=
  ⟨0, N.«operator>=», [N.«LeftRep», N.«RightRep», N.«Ops»], [⟨(.app2 N.«fraction» (.name
    N.«LeftRep») (.name N.«Ops»)), N.«left», none⟩, ⟨(.app2 N.«fraction» (.name N.«RightRep»)
    (.name N.«Ops»)), N.«right», none⟩], false, (.name N.«bool»), (some (.using N.«common_rep_type»
    (.app2 N.«std::common_type_t» (.name N.«LeftRep») (.name N.«RightRep»)) (.using
    N.«common_raw_type» (.app1 N.«raw_fraction» (.name N.«common_rep_type»)) (.ite (.call N.«std»
    N.«is_same_v» [(.name N.«LeftRep»), (.name N.«RightRep»)] .nil) (.ret (.call N.«Ops»
    N.«greater_equal» [] (.cons (.method (.var 0 N.«left») N.«raw») (.cons (.method (.var 0
    N.«right») N.«raw») .nil))) .nil) (.ite (.call N.«std» N.«is_same_v» [(.name N.«LeftRep»),
    (.name N.«common_rep_type»)] .nil) (.ret (.call N.«Ops» N.«greater_equal» [] (.cons (.method
    (.var 0 N.«left») N.«raw») (.cons (.cast (.name N.«common_raw_type») (.method (.var 0
    N.«right») N.«raw»)) .nil))) .nil) (.ite (.call N.«std» N.«is_same_v» [(.name N.«RightRep»),
    (.name N.«common_rep_type»)] .nil) (.ret (.call N.«Ops» N.«greater_equal» [] (.cons (.cast
    (.name N.«common_raw_type») (.method (.var 0 N.«left») N.«raw»)) (.cons (.method (.var 0
    N.«right») N.«raw») .nil))) .nil) (.ret (.call N.«Ops» N.«greater_equal» [] (.cons (.cast
    (.name N.«common_raw_type») (.method (.var 0 N.«left») N.«raw»)) (.cons (.cast (.name
    N.«common_raw_type») (.method (.var 0 N.«right») N.«raw»)) .nil))) .nil) .nil) .nil) .nil))))⟩

def F.op_ge_2 : Func :=
  ⟨0, N.«operator>=», [N.«LeftRep», N.«RightRep», N.«Ops»], [⟨(.app2 N.«fraction» (.name
    N.«LeftRep») (.name N.«Ops»)), N.«left», none⟩, ⟨(.name N.«RightRep»), N.«right», none⟩],
    false, (.name N.«bool»), (some (.using N.«common_rep_type» (.app2 N.«std::common_type_t» (.name
    N.«LeftRep») (.name N.«RightRep»)) (.using N.«common_raw_type» (.app1 N.«raw_fraction» (.name
    N.«common_rep_type»)) (.ite (.call N.«std» N.«is_same_v» [(.name N.«LeftRep»), (.name
    N.«RightRep»)] .nil) (.ret (.call N.«Ops» N.«greater_equal» [] (.cons (.method (.var 0
    N.«left») N.«raw») (.cons (.var 0 N.«right») .nil))) .nil) (.ite (.call N.«std» N.«is_same_v»
    [(.name N.«LeftRep»), (.name N.«common_rep_type»)] .nil) (.ret (.call N.«Ops» N.«greater_equal»
    [] (.cons (.method (.var 0 N.«left») N.«raw») (.cons (.cast (.name N.«common_rep_type») (.var 0
    N.«right»)) .nil))) .nil) (.ite (.call N.«std» N.«is_same_v» [(.name N.«RightRep»), (.name
    N.«common_rep_type»)] .nil) (.ret (.call N.«Ops» N.«greater_equal» [] (.cons (.cast (.name
    N.«common_raw_type») (.method (.var 0 N.«left») N.«raw»)) (.cons (.var 0 N.«right») .nil)))
    .nil) (.ret (.call N.«Ops» N.«greater_equal» [] (.cons (.cast (.name N.«common_raw_type»)
    (.method (.var 0 N.«left») N.«raw»)) (.cons (.cast (.name N.«common_rep_type») (.var 0
    N.«right»)) .nil))) .nil) .nil) .nil) .nil))))⟩

def F.op_ge_3 : Func :=
  ⟨0, N.«operator>=», [N.«LeftRep», N.«RightRep», N.«Ops»], [⟨(.name N.«LeftRep»), N.«left», none⟩,
    ⟨(.app2 N.«fraction» (.name N.«RightRep») (.name N.«Ops»)), N.«right», none⟩], false, (.name
    N.«bool»), (some (.using N.«common_rep_type» (.app2 N.«std::common_type_t» (.name N.«LeftRep»)
    (.name N.«RightRep»)) (.using N.«common_raw_type» (.app1 N.«raw_fraction» (.name
    N.«common_rep_type»)) (.ite (.call N.«std» N.«is_same_v» [(.name N.«LeftRep»), (.name
    N.«RightRep»)] .nil) (.ret (.call N.«Ops» N.«greater_equal» [] (.cons (.var 0 N.«left») (.cons
    (.method (.var 0 N.«right») N.«raw») .nil))) .nil) (.ite (.call N.«std» N.«is_same_v» [(.name
    N.«LeftRep»), (.name N.«common_rep_type»)] .nil) (.ret (.call N.«Ops» N.«greater_equal» []
    (.cons (.var 0 N.«left») (.cons (.cast (.name N.«common_raw_type») (.method (.var 0 N.«right»)
    N.«raw»)) .nil))) .nil) (.ite (.call N.«std» N.«is_same_v» [(.name N.«RightRep»), (.name
    N.«common_rep_type»)] .nil) (.ret (.call N.«Ops» N.«greater_equal» [] (.cons (.cast (.name
    N.«common_rep_type») (.var 0 N.«left»)) (.cons (.method (.var 0 N.«right») N.«raw») .nil)))
    .nil) (.ret (.call N.«Ops» N.«greater_equal» [] (.cons (.cast (.name N.«common_rep_type») (.var
    0 N.«left»)) (.cons (.cast (.name N.«common_raw_type») (.method (.var 0 N.«right») N.«raw»))
    .nil))) .nil) .nil) .nil) .nil))))⟩

/-! ## `/repo/include/ieme/fraction_queries.hpp` -/

def F.is_defined_2 : Func :=
  ⟨0, N.«is_defined», [N.«Rep», N.«Ops»], [⟨(.app2 N.«fraction» (.name N.«Rep») (.name N.«Ops»)),
    N.«value», none⟩], false, (.name N.«bool»), (some (.ret (.call 0 N.«is_defined» [] (.cons
    (.method (.var 0 N.«value») N.«raw») .nil)) .nil))⟩

def F.is_undefined_2 : Func :=
  ⟨0, N.«is_undefined», [N.«Rep», N.«Ops»], [⟨(.app2 N.«fraction» (.name N.«Rep») (.name N.«Ops»)),
    N.«value», none⟩], false, (.name N.«bool»), (some (.ret (.call 0 N.«is_undefined» [] (.cons
    (.method (.var 0 N.«value») N.«raw») .nil)) .nil))⟩

def F.is_positive_2 : Func :=
  ⟨0, N.«is_positive», [N.«Rep», N.«Ops»], [⟨(.app2 N.«fraction» (.name N.«Rep») (.name N.«Ops»)),
    N.«value», none⟩], false, (.name N.«bool»), (some (.ret (.call 0 N.«is_positive» [] (.cons
    (.method (.var 0 N.«value») N.«raw») .nil)) .nil))⟩

def F.is_non_negative_2 : Func :=
  ⟨0, N.«is_non_negative», [N.«Rep», N.«Ops»], [⟨(.app2 N.«fraction» (.name N.«Rep») (.name
    N.«Ops»)), N.«value», none⟩], false, (.name N.«bool»), (some (.ret (.call 0 N.«is_non_negative»
    [] (.cons (.method (.var 0 N.«value») N.«raw») .nil)) .nil))⟩

def F.is_zero_2 : Func :=
  ⟨0, N.«is_zero», [N.«Rep», N.«Ops»], [⟨(.app2 N.«fraction» (.name N.«Rep») (.name N.«Ops»)),
    N.«value», none⟩], false, (.name N.«bool»), (some (.ret (.call 0 N.«is_zero» [] (.cons (.method
    (.var 0 N.«value») N.«raw») .nil)) .nil))⟩

def F.is_non_positive_2 : Func :=
  ⟨0, N.«is_non_positive», [N.«Rep», N.«Ops»], [⟨(.app2 N.«fraction» (.name N.«Rep») (.name
    N.«Ops»)), N.«value», none⟩], false, (.name N.«bool»), (some (.ret (.call 0 N.«is_non_positive»
    [] (.cons (.method (.var 0 N.«value») N.«raw») .nil)) .nil))⟩

def F.is_negative_2 : Func :=
  ⟨0, N.«is_negative», [N.«Rep», N.«Ops»], [⟨(.app2 N.«fraction» (.name N.«Rep») (.name N.«Ops»)),
    N.«value», none⟩], false, (.name N.«bool»), (some (.ret (.call 0 N.«is_negative» [] (.cons
    (.method (.var 0 N.«value») N.«raw») .nil)) .nil))⟩

def F.is_integer_2 : Func :=
  ⟨0, N.«is_integer», [N.«Rep», N.«Ops»], [⟨(.app2 N.«fraction» (.name N.«Rep») (.name N.«Ops»)),
    N.«value», none⟩], false, (.name N.«bool»), (some (.ret (.call 0 N.«is_integer» [] (.cons
    (.method (.var 0 N.«value») N.«raw») .nil)) .nil))⟩

def F.is_unit_fraction_2 : Func :=
  ⟨0, N.«is_unit_fraction», [N.«Rep», N.«Ops»], [⟨(.app2 N.«fraction» (.name N.«Rep») (.name
    N.«Ops»)), N.«value», none⟩], false, (.name N.«bool»), (some (.ret (.call 0
    N.«is_unit_fraction» [] (.cons (.method (.var 0 N.«value») N.«raw») .nil)) .nil))⟩

def F.is_reduced_ignore_signs_2 : Func :=
  ⟨0, N.«is_reduced_ignore_signs», [N.«Rep», N.«Ops»], [⟨(.app2 N.«fraction» (.name N.«Rep») (.name
    N.«Ops»)), N.«value», none⟩], false, (.name N.«bool»), (some (.ret (.call 0
    N.«is_reduced_ignore_signs» [] (.cons (.method (.var 0 N.«value») N.«raw») .nil)) .nil))⟩

def F.is_reduced_2 : Func :=
  ⟨0, N.«is_reduced», [N.«Rep», N.«Ops»], [⟨(.app2 N.«fraction» (.name N.«Rep») (.name N.«Ops»)),
    N.«value», none⟩], false, (.name N.«bool»), (some (.ret (.call 0 N.«is_reduced» [] (.cons
    (.method (.var 0 N.«value») N.«raw») .nil)) .nil))⟩

def F.is_proper_2 : Func :=
  ⟨0, N.«is_proper», [N.«Rep», N.«Ops»], [⟨(.app2 N.«fraction» (.name N.«Rep») (.name N.«Ops»)),
    N.«value», none⟩], false, (.name N.«bool»), (some (.ret (.call 0 N.«is_proper» [] (.cons
    (.method (.var 0 N.«value») N.«raw») .nil)) .nil))⟩

def F.is_improper_2 : Func :=
  ⟨0, N.«is_improper», [N.«Rep», N.«Ops»], [⟨(.app2 N.«fraction» (.name N.«Rep») (.name N.«Ops»)),
    N.«value», none⟩], false, (.name N.«bool»), (some (.ret (.call 0 N.«is_improper» [] (.cons
    (.method (.var 0 N.«value») N.«raw») .nil)) .nil))⟩

def F.are_identical_2 : Func :=
  ⟨0, N.«are_identical», [N.«Rep», N.«LeftOps», N.«RightOps»], [⟨(.app2 N.«fraction» (.name
    N.«Rep») (.name N.«LeftOps»)), N.«left», none⟩, ⟨(.app2 N.«fraction» (.name N.«Rep») (.name
    N.«RightOps»)), N.«right», none⟩], false, (.name N.«bool»), (some (.ret (.call 0
    N.«are_identical» [] (.cons (.method (.var 0 N.«left») N.«raw») (.cons (.method (.var 0
    N.«right») N.«raw») .nil))) .nil))⟩

def F.are_different_2 : Func :=
  ⟨0, N.«are_different», [N.«Rep», N.«LeftOps», N.«RightOps»], [⟨(.app2 N.«fraction» (.name
    N.«Rep») (.name N.«LeftOps»)), N.«left», none⟩, ⟨(.app2 N.«fraction» (.name N.«Rep») (.name
    N.«RightOps»)), N.«right», none⟩], false, (.name N.«bool»), (some (.ret (.call 0
    N.«are_different» [] (.cons (.method (.var 0 N.«left») N.«raw») (.cons (.method (.var 0
    N.«right») N.«raw») .nil))) .nil))⟩

/-! ## `/repo/include/ieme/fraction_math.hpp` -/

def F.reciprocal_2 : Func :=
  ⟨0, N.«reciprocal», [N.«Rep», N.«Ops»], [⟨(.app2 N.«fraction» (.name N.«Rep») (.name N.«Ops»)),
    N.«value», none⟩], false, (.app2 N.«fraction» (.name N.«Rep») (.name N.«Ops»)), (some (.ret
    (.call 0 N.«reciprocal» [] (.cons (.method (.var 0 N.«value») N.«raw») .nil)) .nil))⟩

def F.normalize_signs_2 : Func :=
  ⟨0, N.«normalize_signs», [N.«Rep», N.«Ops»], [⟨(.app2 N.«fraction» (.name N.«Rep») (.name
    N.«Ops»)), N.«value», none⟩], false, (.app2 N.«fraction» (.name N.«Rep») (.name N.«Ops»)),
    (some (.ret (.call 0 N.«normalize_signs» [] (.cons (.method (.var 0 N.«value») N.«raw») .nil))
    .nil))⟩

def F.reduce_2 : Func :=
  ⟨0, N.«reduce», [N.«Rep», N.«Ops»], [⟨(.app2 N.«fraction» (.name N.«Rep») (.name N.«Ops»)),
    N.«value», none⟩, ⟨(.name N.«reduce_mode»), N.«mode», (some (.var N.«reduce_mode»
    N.«normalize_signs»))⟩], false, (.app2 N.«fraction» (.name N.«Rep») (.name N.«Ops»)), (some
    (.ret (.call 0 N.«reduce» [] (.cons (.method (.var 0 N.«value») N.«raw») (.cons (.var 0
    N.«mode») .nil))) .nil))⟩

def F.reduce_normalize_signs_2 : Func :=
  ⟨0, N.«reduce_normalize_signs», [N.«Rep», N.«Ops»], [⟨(.app2 N.«fraction» (.name N.«Rep») (.name
    N.«Ops»)), N.«value», none⟩], false, (.app2 N.«fraction» (.name N.«Rep») (.name N.«Ops»)),
    (some (.ret (.call 0 N.«reduce_normalize_signs» [] (.cons (.method (.var 0 N.«value») N.«raw»)
    .nil)) .nil))⟩

def F.reduce_ignore_signs_2 : Func :=
  ⟨0, N.«reduce_ignore_signs», [N.«Rep», N.«Ops»], [⟨(.app2 N.«fraction» (.name N.«Rep») (.name
    N.«Ops»)), N.«value», none⟩], false, (.app2 N.«fraction» (.name N.«Rep») (.name N.«Ops»)),
    (some (.ret (.call 0 N.«reduce_ignore_signs» [] (.cons (.method (.var 0 N.«value») N.«raw»)
    .nil)) .nil))⟩

def F.abs_1 : Func :=
  ⟨0, N.«abs», [N.«Rep», N.«Ops»], [⟨(.app2 N.«fraction» (.name N.«Rep») (.name N.«Ops»)),
    N.«value», none⟩], false, (.app2 N.«fraction» (.name N.«Rep») (.name N.«Ops»)), (some (.ret
    (.cond (.call 0 N.«is_non_negative» [] (.cons (.var 0 N.«value») .nil)) (.var 0 N.«value») (.un
    .neg (.var 0 N.«value»))) .nil))⟩

def F.to_whole_1 : Func :=
  ⟨0, N.«to_whole», [N.«Rep», N.«Ops»], [⟨(.app2 N.«fraction» (.name N.«Rep») (.name N.«Ops»)),
    N.«value», none⟩, ⟨(.name N.«round_mode»), N.«mode», (some (.var N.«round_mode» N.«round»))⟩],
    false, (.name N.«Rep»), (some (.switch (.var 0 N.«mode») (.case (.var N.«round_mode» N.«trunc»)
    (.ret (.call 0 N.«trunc» [] (.cons (.var 0 N.«value») .nil)) (.case (.var N.«round_mode»
    N.«ceil») (.ret (.call 0 N.«ceil» [] (.cons (.var 0 N.«value») .nil)) (.case (.var
    N.«round_mode» N.«floor») (.ret (.call 0 N.«floor» [] (.cons (.var 0 N.«value») .nil)) (.case
    (.var N.«round_mode» N.«round») (.ret (.call 0 N.«round» [] (.cons (.var 0 N.«value») .nil))
    .nil)))))))) (.ret (.call 0 N.«to_whole» [] (.cons (.var 0 N.«value») .nil)) .nil)))⟩

def F.trunc_1 : Func :=
  ⟨0, N.«trunc», [N.«Rep», N.«Ops»], [⟨(.app2 N.«fraction» (.name N.«Rep») (.name N.«Ops»)),
    N.«value», none⟩], false, (.name N.«Rep»), (some (.ret (.bin .div (.method (.var 0 N.«value»)
    N.«numerator») (.method (.var 0 N.«value») N.«denominator»)) .nil))⟩

def F.ceil_1 : Func :=
  ⟨0, N.«ceil», [N.«Rep», N.«Ops»], [⟨(.app2 N.«fraction» (.name N.«Rep») (.name N.«Ops»)),
    N.«value», none⟩], false, (.name N.«Rep»), (some (.decl N.«truncated» (.call 0 N.«trunc» []
    (.cons (.var 0 N.«value») .nil)) (.ret (.cond (.bin .or (.call 0 N.«is_integer» [] (.cons (.var
    0 N.«value») .nil)) (.bin .lt (.var 0 N.«truncated») (.call 0 N.«_0» [(.name N.«Rep»)] .nil)))
    (.var 0 N.«truncated») (.bin .add (.var 0 N.«truncated») (.call 0 N.«_1» [(.name N.«Rep»)]
    .nil))) .nil)))⟩

def F.floor_1 : Func :=
  ⟨0, N.«floor», [N.«Rep», N.«Ops»], [⟨(.app2 N.«fraction» (.name N.«Rep») (.name N.«Ops»)),
    N.«value», none⟩], false, (.name N.«Rep»), (some (.decl N.«truncated» (.call 0 N.«trunc» []
    (.cons (.var 0 N.«value») .nil)) (.ret (.cond (.bin .or (.call 0 N.«is_integer» [] (.cons (.var
    0 N.«value») .nil)) (.bin .ge (.var 0 N.«truncated») (.call 0 N.«_0» [(.name N.«Rep»)] .nil)))
    (.var 0 N.«truncated») (.bin .sub (.var 0 N.«truncated») (.call 0 N.«_1» [(.name N.«Rep»)]
    .nil))) .nil)))⟩

def F.round_1 : Func :=
  ⟨0, N.«round», [N.«Rep», N.«Ops»], [⟨(.app2 N.«fraction» (.name N.«Rep») (.name N.«Ops»)),
    N.«value», none⟩], false, (.name N.«Rep»), (some (.decl N.«floored» (.call 0 N.«floor» []
    (.cons (.var 0 N.«value») .nil)) (.ret (.cond (.bin .lt (.bin .sub (.var 0 N.«value») (.var 0
    N.«floored»)) (.call 0 N.«fraction» [(.name N.«Rep»), (.name N.«Ops»)] (.cons (.call 0 N.«_1»
    [(.name N.«Rep»)] .nil) (.cons (.call 0 N.«_2» [(.name N.«Rep»)] .nil) .nil)))) (.var 0
    N.«floored») (.bin .add (.var 0 N.«floored») (.call 0 N.«_1» [(.name N.«Rep»)] .nil))) .nil)))⟩

def F.redenominate_1 : Func :=
  ⟨0, N.«redenominate», [N.«Rep», N.«Ops»], [⟨(.app2 N.«fraction» (.name N.«Rep») (.name N.«Ops»)),
    N.«value», none⟩, ⟨(.name N.«Rep»), N.«new_denominator», none⟩, ⟨(.name N.«round_mode»),
    N.«mode», (some (.var N.«round_mode» N.«round»))⟩], false, (.app2 N.«fraction» (.name N.«Rep»)
    (.name N.«Ops»)), (some (.switch (.var 0 N.«mode») (.case (.var N.«round_mode» N.«trunc») (.ret
    (.call 0 N.«trunc_redenominate» [] (.cons (.var 0 N.«value») (.cons (.var 0
    N.«new_denominator») .nil))) (.case (.var N.«round_mode» N.«ceil») (.ret (.call 0
    N.«ceil_redenominate» [] (.cons (.var 0 N.«value») (.cons (.var 0 N.«new_denominator») .nil)))
    (.case (.var N.«round_mode» N.«floor») (.ret (.call 0 N.«floor_redenominate» [] (.cons (.var 0
    N.«value») (.cons (.var 0 N.«new_denominator») .nil))) (.case (.var N.«round_mode» N.«round»)
    (.ret (.call 0 N.«round_redenominate» [] (.cons (.var 0 N.«value») (.cons (.var 0
    N.«new_denominator») .nil))) .nil)))))))) (.ret (.call 0 N.«redenominate» [] (.cons (.var 0
    N.«value») (.cons (.var 0 N.«new_denominator») .nil))) .nil)))⟩

def F.trunc_redenominate_1 : Func :=
  ⟨0, N.«trunc_redenominate», [N.«Rep», N.«Ops»], [⟨(.app2 N.«fraction» (.name N.«Rep») (.name
    N.«Ops»)), N.«value», none⟩, ⟨(.name N.«Rep»), N.«denominator», none⟩], false, (.app2
    N.«fraction» (.name N.«Rep») (.name N.«Ops»)), (some (.retBrace (.cons (.call 0 N.«trunc» []
    (.cons (.bin .mul (.var 0 N.«value») (.var 0 N.«denominator»)) .nil)) (.cons (.var 0
    N.«denominator») .nil)) .nil))⟩

def F.ceil_redenominate_1 : Func :=
  ⟨0, N.«ceil_redenominate», [N.«Rep», N.«Ops»], [⟨(.app2 N.«fraction» (.name N.«Rep») (.name
    N.«Ops»)), N.«value», none⟩, ⟨(.name N.«Rep»), N.«denominator», none⟩], false, (.app2
    N.«fraction» (.name N.«Rep») (.name N.«Ops»)), (some (.retBrace (.cons (.cond (.bin .ge (.var 0
    N.«denominator») (.call 0 N.«_0» [(.name N.«Rep»)] .nil)) (.call 0 N.«ceil» [] (.cons (.bin
    .mul (.var 0 N.«value») (.var 0 N.«denominator»)) .nil)) (.un .neg (.call 0 N.«ceil» [] (.cons
    (.bin .mul (.var 0 N.«value») (.un .neg (.var 0 N.«denominator»))) .nil)))) (.cons (.var 0
    N.«denominator») .nil)) .nil))⟩

def F.floor_redenominate_1 : Func :=
  ⟨0, N.«floor_redenominate», [N.«Rep», N.«Ops»], [⟨(.app2 N.«fraction» (.name N.«Rep») (.name
    N.«Ops»)), N.«value», none⟩, ⟨(.name N.«Rep»), N.«denominator», none⟩], false, (.app2
    N.«fraction» (.name N.«Rep») (.name N.«Ops»)), (some (.retBrace (.cons (.cond (.bin .ge (.var 0
    N.«denominator») (.call 0 N.«_0» [(.name N.«Rep»)] .nil)) (.call 0 N.«floor» [] (.cons (.bin
    .mul (.var 0 N.«value») (.var 0 N.«denominator»)) .nil)) (.un .neg (.call 0 N.«floor» [] (.cons
    (.bin .mul (.var 0 N.«value») (.un .neg (.var 0 N.«denominator»))) .nil)))) (.cons (.var 0
    N.«denominator») .nil)) .nil))⟩

def F.round_redenominate_1 : Func :=
  ⟨0, N.«round_redenominate», [N.«Rep», N.«Ops»], [⟨(.app2 N.«fraction» (.name N.«Rep») (.name
    N.«Ops»)), N.«value», none⟩, ⟨(.name N.«Rep»), N.«denominator», none⟩], false, (.app2
    N.«fraction» (.name N.«Rep») (.name N.«Ops»)), (some (.retBrace (.cons (.call 0 N.«round» []
    (.cons (.bin .mul (.var 0 N.«value») (.var 0 N.«denominator»)) .nil)) (.cons (.var 0
    N.«denominator») .nil)) .nil))⟩

def F.pow2_1 : Func :=
  ⟨0, N.«pow2», [N.«Rep», N.«Ops»], [⟨(.name N.«int»), N.«exponent», none⟩], false, (.app2
    N.«fraction» (.name N.«Rep») (.name N.«Ops»)), (some (.ret (.cond (.bin .ge (.var 0
    N.«exponent») (.num 0)) (.call 0 N.«fraction» [(.name N.«Rep»), (.name N.«Ops»)] (.cons (.call
    N.«math_utilities» N.«pow2» [] (.cons (.cast (.name N.«Rep») (.var 0 N.«exponent»)) .nil))
    .nil)) (.call 0 N.«fraction» [(.name N.«Rep»), (.name N.«Ops»)] (.cons (.call 0 N.«_1» [(.name
    N.«Rep»)] .nil) (.cons (.call N.«math_utilities» N.«pow2» [] (.cons (.cast (.name N.«Rep») (.un
    .neg (.var 0 N.«exponent»))) .nil)) .nil)))) .nil))⟩

def F.pow_1 : Func :=
  ⟨0, N.«pow», [N.«Rep», N.«Ops»], [⟨(.name N.«Rep»), N.«base», none⟩, ⟨(.name N.«int»),
    N.«exponent», none⟩], false, (.app2 N.«fraction» (.name N.«Rep») (.name N.«Ops»)), (some (.ret
    (.cond (.bin .ge (.var 0 N.«exponent») (.num 0)) (.call 0 N.«fraction» [(.name N.«Rep»), (.name
    N.«Ops»)] (.cons (.call N.«math_utilities» N.«pow» [] (.cons (.var 0 N.«base») (.cons (.cast
    (.name N.«Rep») (.var 0 N.«exponent»)) .nil))) .nil)) (.call 0 N.«fraction» [(.name N.«Rep»),
    (.name N.«Ops»)] (.cons (.call 0 N.«_1» [(.name N.«Rep»)] .nil) (.cons (.call
    N.«math_utilities» N.«pow» [] (.cons (.var 0 N.«base») (.cons (.cast (.name N.«Rep») (.un .neg
    (.var 0 N.«exponent»))) .nil))) .nil)))) .nil))⟩

/-! ## `/repo/include/ieme/mixed_number.hpp` -/

def Cls.mixed_number : Cls :=
  ⟨N.«mixed_number», [N.«WRep», N.«FRep», N.«Ops»], [(N.«whole_type», (.name N.«WRep»)),
    (N.«fractional_rep_type», (.name N.«FRep»)), (N.«ops_type», (.name N.«Ops»)),
    (N.«fractional_type», (.app2 N.«fraction» (.name N.«fractional_rep_type») (.name
    N.«ops_type»))), (N.«common_rep_type», (.app2 N.«std::common_type_t» (.name N.«whole_type»)
    (.name N.«fractional_rep_type»)))], [], [⟨(.name N.«whole_type»), N.«whole_», .nil⟩, ⟨(.name
    N.«fractional_type»), N.«fractional_», .nil⟩]⟩

def F.mixed_number_mixed_number_1 : Func :=
  ⟨N.«mixed_number», N.«mixed_number», [N.«WRep», N.«FRep», N.«Ops»], [⟨(.name N.«whole_type»),
    N.«whole», none⟩, ⟨(.name N.«fractional_type»), N.«fractional», (some .braces)⟩], false, (.name
    N.«void»), (some (.init N.«whole_» (.cons (.var 0 N.«whole») .nil) (.init N.«fractional_»
    (.cons (.var 0 N.«fractional») .nil) (.callSelf N.«fix» .nil))))⟩

def F.mixed_number_mixed_number_2 : Func :=
  ⟨N.«mixed_number», N.«mixed_number», [N.«WRep», N.«FRep», N.«Ops», N.«OtherFRep»], [⟨(.app2
    N.«fraction» (.name N.«OtherFRep») (.name N.«ops_type»)), N.«value», none⟩], false, (.name
    N.«void»), (some (.init N.«whole_» (.cons (.call 0 N.«whole_type» [] (.cons (.call 0 N.«trunc»
    [] (.cons (.var 0 N.«value») .nil)) .nil)) .nil) (.init N.«fractional_» (.cons (.call 0
    N.«fractional_type» [] (.cons (.bin .sub (.var 0 N.«value») (.cast (.name N.«OtherFRep») (.var
    0 N.«whole_»))) .nil)) .nil) .nil)))⟩

def F.mixed_number_mixed_number_3 : Func :=
  ⟨N.«mixed_number», N.«mixed_number», [N.«WRep», N.«FRep», N.«Ops», N.«OtherFRep», N.«OtherOps»],
    [⟨(.app2 N.«fraction» (.name N.«OtherFRep») (.name N.«OtherOps»)), N.«value», none⟩], false,
    (.name N.«void»), (some (.init N.«mixed_number» (.cons (.call 0 N.«fraction» [(.name
    N.«OtherFRep»), (.name N.«Ops»)] (.cons (.var 0 N.«value») .nil)) .nil) .nil))⟩

def F.mixed_number_as_fraction_1 : Func :=
  ⟨N.«mixed_number», N.«as_fraction», [N.«WRep», N.«FRep», N.«Ops»], [], true, (.app2 N.«fraction»
    (.name N.«common_rep_type») (.name N.«ops_type»)), (some (.ret (.bin .add (.call 0
    N.«common_rep_type» [] (.cons (.var 0 N.«whole_») .nil)) (.call 0 N.«fraction» [(.name
    N.«common_rep_type»), (.name N.«ops_type»)] (.cons (.var 0 N.«fractional_») .nil))) .nil))⟩

def F.mixed_number_conversion_1 : Func :=
  ⟨N.«mixed_number», N.«operator», [N.«WRep», N.«FRep», N.«Ops»], [], true, (.app2 N.«fraction»
    (.name N.«common_rep_type») (.name N.«ops_type»)), (some (.ret (.call 0 N.«as_fraction» []
    .nil) .nil))⟩

def F.mixed_number_whole_1 : Func :=
  ⟨N.«mixed_number», N.«whole», [N.«WRep», N.«FRep», N.«Ops»], [], true, (.name N.«whole_type»),
    (some (.ret (.var 0 N.«whole_») .nil))⟩

def F.mixed_number_fractional_1 : Func :=
  ⟨N.«mixed_number», N.«fractional», [N.«WRep», N.«FRep», N.«Ops»], [], true, (.name
    N.«fractional_type»), (some (.ret (.var 0 N.«fractional_») .nil))⟩

def F.mixed_number_fix_1 : Func :=
  ⟨N.«mixed_number», N.«fix», [N.«WRep», N.«FRep», N.«Ops»], [], false, (.name N.«void»), (some
    (.ite (.call 0 N.«is_improper» [] (.cons (.var 0 N.«fractional_») .nil)) (.decl
    N.«truncated_fractional» (.call 0 N.«trunc» [] (.cons (.var 0 N.«fractional_») .nil)) (.update
    N.«whole_» .add (.cast (.name N.«whole_type») (.var 0 N.«truncated_fractional»)) (.update
    N.«fractional_» .sub (.var 0 N.«truncated_fractional») .nil))) .nil (.ite (.bin .and (.bin .gt
    (.var 0 N.«whole_») (.call 0 N.«_0» [(.name N.«whole_type»)] .nil)) (.call 0 N.«is_negative» []
    (.cons (.var 0 N.«fractional_») .nil))) (.update N.«whole_» .sub (.call 0 N.«_1» [(.name
    N.«whole_type»)] .nil) (.assign N.«fractional_» (.bin .add (.call 0 N.«_1» [(.name
    N.«fractional_rep_type»)] .nil) (.var 0 N.«fractional_»)) .nil)) (.ite (.bin .and (.bin .lt
    (.var 0 N.«whole_») (.call 0 N.«_0» [(.name N.«whole_type»)] .nil)) (.call 0 N.«is_positive» []
    (.cons (.var 0 N.«fractional_») .nil))) (.update N.«whole_» .add (.call 0 N.«_1» [(.name
    N.«whole_type»)] .nil) (.assign N.«fractional_» (.bin .add (.un .neg (.call 0 N.«_1» [(.name
    N.«fractional_rep_type»)] .nil)) (.var 0 N.«fractional_»)) .nil)) .nil .nil) .nil)))⟩

def F.op_add_5 : Func :=
  ⟨0, N.«operator+», [N.«WRep», N.«FRep», N.«Ops»], [⟨(.app3 N.«mixed_number» (.name N.«WRep»)
    (.name N.«FRep») (.name N.«Ops»)), N.«value», none⟩], false, (.app3 N.«mixed_number» (.name
    N.«WRep») (.name N.«FRep») (.name N.«Ops»)), (some (.ret (.var 0 N.«value») .nil))⟩

def F.op_sub_5 : Func :=
  ⟨0, N.«operator-», [N.«WRep», N.«FRep», N.«Ops»], [⟨(.app3 N.«mixed_number» (.name N.«WRep»)
    (.name N.«FRep») (.name N.«Ops»)), N.«value», none⟩], false, (.app3 N.«mixed_number» (.name
    N.«WRep») (.name N.«FRep») (.name N.«Ops»)), (some (.retBrace (.cons (.un .neg (.method (.var 0
    N.«value») N.«whole»)) (.cons (.un .neg (.method (.var 0 N.«value») N.«fractional»)) .nil))
    .nil))⟩

def F.op_add_6 : Func :=
  ⟨0, N.«operator+», [N.«WRep1», N.«FRep1», N.«WRep2», N.«FRep2», N.«Ops»], [⟨(.app3
    N.«mixed_number» (.name N.«WRep1») (.name N.«FRep1») (.name N.«Ops»)), N.«left», none⟩, ⟨(.app3
    N.«mixed_number» (.name N.«WRep2») (.name N.«FRep2») (.name N.«Ops»)), N.«right», none⟩],
    false, (.app3 N.«mixed_number» (.app2 N.«std::common_type_t» (.name N.«WRep1») (.name
    N.«WRep2»)) (.app2 N.«std::common_type_t» (.name N.«FRep1») (.name N.«FRep2»)) (.name
    N.«Ops»)), (some (.using N.«whole_type» (.app2 N.«std::common_type_t» (.name N.«WRep1») (.name
    N.«WRep2»)) (.using N.«fractional_type» (.app2 N.«fraction» (.app2 N.«std::common_type_t»
    (.name N.«FRep1») (.name N.«FRep2»)) (.name N.«Ops»)) (.decl N.«whole» (.bin .add (.cast (.name
    N.«whole_type») (.method (.var 0 N.«left») N.«whole»)) (.cast (.name N.«whole_type») (.method
    (.var 0 N.«right») N.«whole»))) (.decl N.«fractional» (.bin .add (.cast (.name
    N.«fractional_type») (.method (.var 0 N.«left») N.«fractional»)) (.cast (.name
    N.«fractional_type») (.method (.var 0 N.«right») N.«fractional»))) (.retBrace (.cons (.var 0
    N.«whole») (.cons (.var 0 N.«fractional») .nil)) .nil))))))⟩

def F.op_add_7 : Func :=
  ⟨0, N.«operator+», [N.«WRep», N.«FRep1», N.«FRep2», N.«Ops»], [⟨(.app3 N.«mixed_number» (.name
    N.«WRep») (.name N.«FRep1») (.name N.«Ops»)), N.«left», none⟩, ⟨(.app2 N.«fraction» (.name
    N.«FRep2») (.name N.«Ops»)), N.«right», none⟩], false, (.app3 N.«mixed_number» (.app2
    N.«std::common_type_t» (.name N.«WRep») (.name N.«FRep2»)) (.app2 N.«std::common_type_t» (.name
    N.«FRep1») (.name N.«FRep2»)) (.name N.«Ops»)), (some (.ret (.bin .add (.var 0 N.«left») (.call
    0 N.«mixed_number» [(.name N.«FRep2»), (.name N.«FRep2»), (.name N.«Ops»)] (.cons (.var 0
    N.«right») .nil))) .nil))⟩

def F.op_add_8 : Func :=
  ⟨0, N.«operator+», [N.«WRep1», N.«FRep1», N.«FRep2», N.«Ops»], [⟨(.app2 N.«fraction» (.name
    N.«FRep2») (.name N.«Ops»)), N.«left», none⟩, ⟨(.app3 N.«mixed_number» (.name N.«WRep1») (.name
    N.«FRep1») (.name N.«Ops»)), N.«right», none⟩], false, (.app3 N.«mixed_number» (.app2
    N.«std::common_type_t» (.name N.«WRep1») (.name N.«FRep2»)) (.app2 N.«std::common_type_t»
    (.name N.«FRep1») (.name N.«FRep2»)) (.name N.«Ops»)), (some (.ret (.bin .add (.var 0
    N.«right») (.var 0 N.«left»)) .nil))⟩

def F.op_add_9 : Func :=
  ⟨0, N.«operator+», [N.«WRep1», N.«FRep», N.«WRep2», N.«Ops»], [⟨(.app3 N.«mixed_number» (.name
    N.«WRep1») (.name N.«FRep») (.name N.«Ops»)), N.«left», none⟩, ⟨(.name N.«WRep2»), N.«right»,
    none⟩], false, (.app3 N.«mixed_number» (.app2 N.«std::common_type_t» (.name N.«WRep1») (.name
    N.«WRep2»)) (.name N.«FRep») (.name N.«Ops»)), (some (.using N.«whole_type» (.app2
    N.«std::common_type_t» (.name N.«WRep1») (.name N.«WRep2»)) (.retBrace (.cons (.bin .add (.cast
    (.name N.«whole_type») (.method (.var 0 N.«left») N.«whole»)) (.cast (.name N.«whole_type»)
    (.var 0 N.«right»))) (.cons (.method (.var 0 N.«left») N.«fractional») .nil)) .nil)))⟩

def F.op_add_10 : Func :=
  ⟨0, N.«operator+», [N.«WRep1», N.«WRep2», N.«FRep», N.«Ops»], [⟨(.name N.«WRep1»), N.«left»,
    none⟩, ⟨(.app3 N.«mixed_number» (.name N.«WRep2») (.name N.«FRep») (.name N.«Ops»)), N.«right»,
    none⟩], false, (.app3 N.«mixed_number» (.app2 N.«std::common_type_t» (.name N.«WRep1») (.name
    N.«WRep2»)) (.name N.«FRep») (.name N.«Ops»)), (some (.ret (.bin .add (.var 0 N.«right») (.var
    0 N.«left»)) .nil))⟩

/-! ## The headers -/

/-- What `/repo/include/ieme/numbers.hpp` parses to. -/
def Prog.numbers : Program :=
  ⟨[F.number_1, F.num0_1, F.num1_1, F.num2_1, F.num10_1], [], [], 0⟩

/-- What `/repo/include/ieme/reduce_mode.hpp` parses to. -/
def Prog.reduceMode : Program :=
  ⟨[], [], [(N.«reduce_mode», [N.«normalize_signs», N.«ignore_signs»])], 0⟩

/-- What `/repo/include/ieme/math_utilities.hpp` parses to. -/
def Prog.mathUtilities : Program :=
  ⟨[F.math_utilities_abs_1, F.math_utilities_pow2_1, F.math_utilities_pow_1], [], [], 0⟩

/-- What `/repo/include/ieme/raw_fraction.hpp` parses to. -/
def Prog.rawFraction : Program :=
  ⟨[F.raw_fraction_raw_fraction_1, F.raw_fraction_raw_fraction_2], [Cls.raw_fraction], [], 2⟩

/-- What `/repo/include/ieme/raw_fraction_queries.hpp` parses to. -/
def Prog.rawFractionQueries : Program :=
  ⟨[F.is_defined_1, F.is_undefined_1, F.is_positive_1, F.is_non_negative_1, F.is_zero_1,
    F.is_non_positive_1, F.is_negative_1, F.is_integer_1, F.is_unit_fraction_1,
    F.is_reduced_ignore_signs_1, F.is_reduced_1, F.is_proper_1, F.is_improper_1, F.are_identical_1,
    F.are_different_1], [], [], 0⟩

/-- What `/repo/include/ieme/raw_fraction_math.hpp` parses to. -/
def Prog.rawFractionMath : Program :=
  ⟨[F.reciprocal_1, F.normalize_signs_1, F.reduce_1, F.reduce_normalize_signs_1,
    F.reduce_ignore_signs_1], [], [], 0⟩

/-- What `/repo/include/ieme/ops.hpp` parses to. -/
def Prog.ops : Program :=
  ⟨[F.safe_negate_1, F.safe_plus_1, F.safe_plus_2, F.safe_plus_3, F.safe_minus_1, F.safe_minus_2,
    F.safe_minus_3, F.safe_multiplies_1, F.safe_multiplies_2, F.safe_multiplies_3,
    F.safe_divides_1, F.safe_divides_2, F.safe_divides_3, F.safe_modulus_1, F.safe_modulus_2,
    F.safe_modulus_3, F.safe_equal_to_1, F.safe_equal_to_2, F.safe_equal_to_3,
    F.safe_not_equal_to_1, F.safe_not_equal_to_2, F.safe_not_equal_to_3, F.safe_less_1,
    F.safe_less_2, F.safe_less_3, F.safe_less_equal_1, F.safe_less_equal_2, F.safe_less_equal_3,
    F.safe_greater_1, F.safe_greater_2, F.safe_greater_3, F.safe_greater_equal_1,
    F.safe_greater_equal_2, F.safe_greater_equal_3, F.fast_negate_1, F.fast_plus_1, F.fast_plus_2,
    F.fast_plus_3, F.fast_minus_1, F.fast_minus_2, F.fast_minus_3, F.fast_multiplies_1,
    F.fast_multiplies_2, F.fast_multiplies_3, F.fast_divides_1, F.fast_divides_2, F.fast_divides_3,
    F.fast_modulus_1, F.fast_modulus_2, F.fast_modulus_3, F.fast_equal_to_1, F.fast_equal_to_2,
    F.fast_equal_to_3, F.fast_not_equal_to_1, F.fast_not_equal_to_2, F.fast_not_equal_to_3,
    F.fast_less_1, F.fast_less_2, F.fast_less_3, F.fast_less_equal_1, F.fast_less_equal_2,
    F.fast_less_equal_3, F.fast_greater_1, F.fast_greater_2, F.fast_greater_3,
    F.fast_greater_equal_1, F.fast_greater_equal_2, F.fast_greater_equal_3,
    F.reduced_input_negate_1, F.reduced_input_plus_1, F.reduced_input_plus_2,
    F.reduced_input_plus_3, F.reduced_input_minus_1, F.reduced_input_minus_2,
    F.reduced_input_minus_3, F.reduced_input_multiplies_1, F.reduced_input_multiplies_2,
    F.reduced_input_multiplies_3, F.reduced_input_divides_1, F.reduced_input_divides_2,
    F.reduced_input_divides_3, F.reduced_input_modulus_1, F.reduced_input_modulus_2,
    F.reduced_input_modulus_3, F.reduced_input_equal_to_1, F.reduced_input_equal_to_2,
    F.reduced_input_equal_to_3, F.reduced_input_not_equal_to_1, F.reduced_input_not_equal_to_2,
    F.reduced_input_not_equal_to_3, F.reduced_input_less_1, F.reduced_input_less_2,
    F.reduced_input_less_3, F.reduced_input_less_equal_1, F.reduced_input_less_equal_2,
    F.reduced_input_less_equal_3, F.reduced_input_greater_1, F.reduced_input_greater_2,
    F.reduced_input_greater_3, F.reduced_input_greater_equal_1, F.reduced_input_greater_equal_2,
    F.reduced_input_greater_equal_3, F.reduced_output_negate_1, F.reduced_output_plus_1,
    F.reduced_output_minus_1, F.reduced_output_multiplies_1, F.reduced_output_divides_1,
    F.reduced_output_modulus_1, F.reduced_output_equal_to_1, F.reduced_output_not_equal_to_1,
    F.reduced_output_less_1, F.reduced_output_less_equal_1, F.reduced_output_greater_1,
    F.reduced_output_greater_equal_1], [Cls.safe, Cls.fast, Cls.reduced_input, Cls.reduced_output],
    [], 0⟩

/-- What `/repo/include/ieme/fraction.hpp` parses to. -/
def Prog.fraction : Program :=
  ⟨[F.fraction_num_1, F.fraction_num_2, F.fraction_den_1, F.fraction_den_2, F.fraction_raw_1,
    F.fraction_raw_2, F.op_shl_1, F.fraction_fraction_1, F.fraction_fraction_2,
    F.fraction_fraction_3, F.fraction_fraction_4, F.fraction_numerator_1, F.fraction_numerator_2,
    F.fraction_denominator_1, F.fraction_denominator_2, F.op_add_1, F.op_sub_1, F.op_add_2,
    F.op_add_3, F.op_add_4, F.op_sub_2, F.op_sub_3, F.op_sub_4, F.op_mul_1, F.op_mul_2, F.op_mul_3,
    F.op_div_1, F.op_div_2, F.op_div_3, F.op_mod_1, F.op_mod_2, F.op_mod_3, F.op_addEq_1,
    F.op_addEq_2, F.op_subEq_1, F.op_subEq_2, F.op_mulEq_1, F.op_mulEq_2, F.op_divEq_1,
    F.op_divEq_2, F.op_modEq_1, F.op_modEq_2, F.op_eq_1, F.op_eq_2, F.op_eq_3, F.op_ne_1,
    F.op_ne_2, F.op_ne_3, F.op_lt_1, F.op_lt_2, F.op_lt_3, F.op_le_1, F.op_le_2, F.op_le_3,
    F.op_gt_1, F.op_gt_2, F.op_gt_3, F.op_ge_1, F.op_ge_2, F.op_ge_3], [Cls.fraction], [], 2⟩

/-- What `/repo/include/ieme/fraction_queries.hpp` parses to. -/
def Prog.fractionQueries : Program :=
  ⟨[F.is_defined_2, F.is_undefined_2, F.is_positive_2, F.is_non_negative_2, F.is_zero_2,
    F.is_non_positive_2, F.is_negative_2, F.is_integer_2, F.is_unit_fraction_2,
    F.is_reduced_ignore_signs_2, F.is_reduced_2, F.is_proper_2, F.is_improper_2, F.are_identical_2,
    F.are_different_2], [], [], 0⟩

/-- What `/repo/include/ieme/fraction_math.hpp` parses to. -/
def Prog.fractionMath : Program :=
  ⟨[F.reciprocal_2, F.normalize_signs_2, F.reduce_2, F.reduce_normalize_signs_2,
    F.reduce_ignore_signs_2, F.abs_1, F.to_whole_1, F.trunc_1, F.ceil_1, F.floor_1, F.round_1,
    F.redenominate_1, F.trunc_redenominate_1, F.ceil_redenominate_1, F.floor_redenominate_1,
    F.round_redenominate_1, F.pow2_1, F.pow_1], [], [(N.«round_mode», [N.«trunc», N.«ceil»,
    N.«floor», N.«round»])], 0⟩

/-- What `/repo/include/ieme/mixed_number.hpp` parses to. -/
def Prog.mixedNumber : Program :=
  ⟨[F.mixed_number_mixed_number_1, F.mixed_number_mixed_number_2, F.mixed_number_mixed_number_3,
    F.mixed_number_as_fraction_1, F.mixed_number_conversion_1, F.mixed_number_whole_1,
    F.mixed_number_fractional_1, F.mixed_number_fix_1, F.op_add_5, F.op_sub_5, F.op_add_6,
    F.op_add_7, F.op_add_8, F.op_add_9, F.op_add_10], [Cls.mixed_number], [], 0⟩

/-- The library: the headers in the order in which they include each other. -/
def library : Program :=
  [Prog.numbers, Prog.reduceMode, Prog.mathUtilities, Prog.rawFraction, Prog.rawFractionQueries,
    Prog.rawFractionMath, Prog.ops, Prog.fraction, Prog.fractionQueries, Prog.fractionMath,
    Prog.mixedNumber].foldr Program.append ⟨[], [], [], 0⟩

end Ieme.Header
