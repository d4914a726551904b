import Verif.Model.ScanSyntax
import Verif.Model.ScanText

/-!
# What the text of the parser parses to

`B.scan_8` are the statements of `scan_floating_point_string` from the ninth on, and so on.
`Verif/Props/ScanText.lean` proves that parsing the text gives exactly this, so nothing here has to
be believed.
-/

namespace Ieme.Script

open Header

/-! ## `/repo/include/ieme/parse_utilities.hpp` -/

def B.scan_27 : Stm :=
  .ret (.var N.«results») .nil

def B.scan_26 : Stm :=
  .ite (.un .not (.call N.«is_valid_digit_sequence» [] (.cons (.fld (.var N.«results»)
    N.«exponent») (.cons (.num 10) .nil)))) (.ret (.var N.«std::nullopt») .nil) .nil B.scan_27

def B.scan_25 : Stm :=
  .set N.«results» N.«exponent» (.var N.«remaining_string») B.scan_26

def B.scan_24 : Stm :=
  .switch (.meth (.var N.«remaining_string») N.«front» .nil) (.case (.chr 45) (.set N.«results»
    N.«exponent_sign» (.var N.«sign::negative») (.case (.chr 43) (.act N.«remaining_string»
    N.«remove_prefix» (.cons (.num 1) .nil) (.brk (.dflt (.brk .nil))))))) B.scan_25

def B.scan_23 : Stm :=
  .act N.«remaining_string» N.«remove_prefix» (.cons (.bin .add (.var N.«exponent_separator_pos»)
    (.num 1)) .nil) B.scan_24

def B.scan_22 : Stm :=
  .ite (.var N.«no_exponent_separator») (.ret (.var N.«results») .nil) .nil B.scan_23

def B.scan_21 : Stm :=
  .set N.«results» N.«fractional_precision» (.now (.decl N.«result» (.unum 0) (.each N.«digit»
    (.fld (.var N.«results») N.«fractional») (.ite (.bin .ne (.var N.«digit») (.chr 39)) (.incr
    N.«result» .nil) .nil .nil) (.ret (.var N.«result») .nil)))) B.scan_22

def B.scan_20 : Stm :=
  .ite (.un .not (.bin .or (.var N.«no_fractional») (.call N.«is_valid_digit_sequence» [] (.cons
    (.fld (.var N.«results») N.«fractional») (.cons (.fld (.var N.«results») N.«base») .nil)))))
    (.ret (.var N.«std::nullopt») .nil) .nil B.scan_21

def B.scan_19 : Stm :=
  .ite (.bin .and (.var N.«no_whole») (.var N.«no_fractional»)) (.ret (.var N.«std::nullopt») .nil)
    .nil B.scan_20

def B.scan_18 : Stm :=
  .decl N.«no_fractional» (.meth (.fld (.var N.«results») N.«fractional») N.«empty» .nil) B.scan_19

def B.scan_17 : Stm :=
  .set N.«results» N.«fractional» (.meth (.var N.«remaining_string») N.«substr» (.cons (.num 0)
    (.cons (.var N.«exponent_separator_pos») .nil))) B.scan_18

def B.scan_16 : Stm :=
  .ite (.bin .and (.bin .eq (.fld (.var N.«results») N.«base») (.num 16)) (.var
    N.«no_exponent_separator»)) (.ret (.var N.«std::nullopt») .nil) .nil B.scan_17

def B.scan_15 : Stm :=
  .ite (.bin .and (.var N.«no_radix_separator») (.var N.«no_exponent_separator»)) (.ret (.var
    N.«std::nullopt») .nil) .nil B.scan_16

def B.scan_14 : Stm :=
  .decl N.«no_exponent_separator» (.bin .eq (.var N.«exponent_separator_pos») (.var
    N.«std::string_view::npos»)) B.scan_15

def B.scan_13 : Stm :=
  .ite (.bin .eq (.var N.«exponent_separator_pos») (.call N.«last_pos» [] .nil)) (.ret (.var
    N.«std::nullopt») .nil) .nil B.scan_14

def B.scan_12 : Stm :=
  .decl N.«exponent_separator_pos» (.now (.decl2 N.«lower» N.«upper» (.cond (.bin .eq (.fld (.var
    N.«results») N.«base») (.num 10)) (.call N.«std::make_pair» [] (.cons (.chr 101) (.cons (.chr
    69) .nil))) (.call N.«std::make_pair» [] (.cons (.chr 112) (.cons (.chr 80) .nil)))) (.iteInit
    N.«lower_pos» (.meth (.var N.«remaining_string») N.«find» (.cons (.var N.«lower») .nil)) (.bin
    .ne (.var N.«lower_pos») (.var N.«std::string_view::npos»)) (.ret (.var N.«lower_pos») .nil)
    (.ret (.meth (.var N.«remaining_string») N.«find» (.cons (.var N.«upper») .nil)) .nil))))
    B.scan_13

def B.scan_11 : Stm :=
  .ite (.un .not (.var N.«no_radix_separator»)) (.act N.«remaining_string» N.«remove_prefix» (.cons
    (.bin .add (.var N.«radix_separator_pos») (.num 1)) .nil) .nil) .nil B.scan_12

def B.scan_10 : Stm :=
  .decl N.«no_radix_separator» (.bin .eq (.var N.«radix_separator_pos») (.var
    N.«std::string_view::npos»)) B.scan_11

def B.scan_9 : Stm :=
  .ite (.bin .eq (.var N.«radix_separator_pos») (.call N.«last_pos» [] .nil)) (.ite (.bin .eq (.fld
    (.var N.«results») N.«base») (.num 10)) (.ret (.var N.«results») .nil) .nil (.ret (.var
    N.«std::nullopt») .nil)) .nil B.scan_10

def B.scan_8 : Stm :=
  .ite (.un .not (.bin .or (.var N.«no_whole») (.call N.«is_valid_digit_sequence» [] (.cons (.fld
    (.var N.«results») N.«whole») (.cons (.fld (.var N.«results») N.«base») .nil))))) (.ret (.var
    N.«std::nullopt») .nil) .nil B.scan_9

def B.scan_7 : Stm :=
  .decl N.«no_whole» (.meth (.fld (.var N.«results») N.«whole») N.«empty» .nil) B.scan_8

def B.scan_6 : Stm :=
  .set N.«results» N.«whole» (.meth (.var N.«remaining_string») N.«substr» (.cons (.num 0) (.cons
    (.var N.«radix_separator_pos») .nil))) B.scan_7

def B.scan_5 : Stm :=
  .decl N.«radix_separator_pos» (.meth (.var N.«remaining_string») N.«find» (.cons (.chr 46) .nil))
    B.scan_6

def B.scan_4 : Stm :=
  .ite (.bin .gt (.meth (.var N.«remaining_string») N.«size» .nil) (.num 2)) (.decl N.«first_two»
    (.meth (.var N.«remaining_string») N.«substr» (.cons (.num 0) (.cons (.num 2) .nil))) (.ite
    (.bin .or (.bin .eq (.var N.«first_two») (.str [48, 120])) (.bin .eq (.var N.«first_two») (.str
    [48, 88]))) (.act N.«remaining_string» N.«remove_prefix» (.cons (.num 2) .nil) (.set
    N.«results» N.«base» (.num 16) .nil)) .nil .nil)) .nil B.scan_5

def B.scan_3 : Stm :=
  .obj N.«floating_point_string_scan_results» N.«results» B.scan_4

def B.scan_2 : Stm :=
  .decl N.«last_pos» (.lam (.ret (.bin .sub (.meth (.var N.«remaining_string») N.«size» .nil) (.num
    1)) .nil)) B.scan_3

def B.scan_1 : Stm :=
  .decl N.«remaining_string» (.var N.«string») B.scan_2

def B.scan_0 : Stm :=
  .ite (.bin .lt (.meth (.var N.«string») N.«size» .nil) (.num 2)) (.ret (.var N.«std::nullopt»)
    .nil) .nil B.scan_1

def F.scan : Func :=
  ⟨N.«scan_floating_point_string», [], [⟨(.name N.«std::string_view»), N.«string»⟩], (.app1
    N.«std::optional» (.name N.«floating_point_string_scan_results»)), B.scan_0⟩

def B.valid_2 : Stm :=
  .ret (.var N.«digit_preceeded») .nil

def B.valid_1 : Stm :=
  .each N.«c» (.var N.«sequence») (.ite (.bin .eq (.var N.«c») (.chr 39)) (.ite (.un .not (.var
    N.«digit_preceeded»)) (.ret (.var N.«false») .nil) .nil (.assign N.«digit_preceeded» (.var
    N.«false») .nil)) (.ite (.bin .and (.bin .or (.bin .lt (.var N.«c») (.chr 48)) (.bin .gt (.var
    N.«c») (.chr 57))) (.bin .or (.bin .and (.bin .or (.bin .lt (.var N.«c») (.chr 97)) (.bin .gt
    (.var N.«c») (.chr 102))) (.bin .or (.bin .lt (.var N.«c») (.chr 65)) (.bin .gt (.var N.«c»)
    (.chr 70)))) (.bin .ne (.var N.«base») (.num 16)))) (.ret (.var N.«false») .nil) .nil (.assign
    N.«digit_preceeded» (.var N.«true») .nil)) .nil) B.valid_2

def B.valid_0 : Stm :=
  .decl N.«digit_preceeded» (.var N.«false») B.valid_1

def F.valid : Func :=
  ⟨N.«is_valid_digit_sequence», [], [⟨(.name N.«std::string_view»), N.«sequence»⟩, ⟨(.name
    N.«int»), N.«base»⟩], (.name N.«bool»), B.valid_0⟩

def B.digits_3 : Stm :=
  .ret (.var N.«result») .nil

def B.digits_2 : Stm :=
  .loop N.«it» (.meth (.var N.«sequence») N.«rbegin» .nil) (.bin .ne (.var N.«it») (.meth (.var
    N.«sequence») N.«rend» .nil)) (.ite (.bin .eq (.deref (.var N.«it»)) (.chr 39)) (.cont .nil)
    .nil (.decl N.«digit_as_int» (.now (.ite (.bin .and (.bin .ge (.deref (.var N.«it»)) (.chr 65))
    (.bin .le (.deref (.var N.«it»)) (.chr 70))) (.ret (.cast (.name N.«Int») (.bin .add (.bin .sub
    (.deref (.var N.«it»)) (.chr 65)) (.num 10))) .nil) .nil (.ite (.bin .and (.bin .ge (.deref
    (.var N.«it»)) (.chr 97)) (.bin .le (.deref (.var N.«it»)) (.chr 102))) (.ret (.cast (.name
    N.«Int») (.bin .add (.bin .sub (.deref (.var N.«it»)) (.chr 97)) (.num 10))) .nil) .nil (.ret
    (.cast (.name N.«Int») (.bin .sub (.deref (.var N.«it»)) (.chr 48))) .nil)))) (.update
    N.«result» .add (.bin .mul (.var N.«digit_as_int») (.var N.«base_power»)) (.update
    N.«base_power» .mul (.var N.«base») .nil)))) B.digits_3

def B.digits_1 : Stm :=
  .decl N.«base_power» (.call N.«_1» [(.name N.«Int»)] .nil) B.digits_2

def B.digits_0 : Stm :=
  .decl N.«result» (.call N.«_0» [(.name N.«Int»)] .nil) B.digits_1

def F.digits : Func :=
  ⟨N.«digit_sequence_to_int», [N.«Int»], [⟨(.name N.«std::string_view»), N.«sequence»⟩, ⟨(.name
    N.«Int»), N.«base»⟩], (.name N.«Int»), B.digits_0⟩

/-! ## `/repo/include/ieme/floating_point.hpp:91-129` -/

def B.convert_10 : Stm :=
  .ret (.bin .mul (.bin .add (.var N.«whole») (.call N.«fraction» [(.name N.«Rep»), (.name
    N.«Ops»)] (.cons (.var N.«fractional_num») (.cons (.var N.«fractional_den») .nil)))) (.call
    N.«pow» [(.name N.«Rep»), (.name N.«Ops»)] (.cons (.var N.«exponent_base») (.cons (.var
    N.«exponent») .nil)))) .nil

def B.convert_9 : Stm :=
  .decl N.«exponent» (.bin .mul (.var N.«exponent_sign_multiplier») (.call
    N.«digit_sequence_to_int» [] (.cons (.fld (.var N.«scan_results») N.«exponent») (.cons (.num
    10) .nil)))) B.convert_10

def B.convert_8 : Stm :=
  .decl N.«exponent_sign_multiplier» (.now (.switch (.fld (.var N.«scan_results»)
    N.«exponent_sign») (.case (.var N.«sign::negative») (.ret (.un .neg (.num 1)) (.case (.var
    N.«sign::positive») (.ret (.un .pos (.num 1)) .nil)))) .nil)) B.convert_9

def B.convert_7 : Stm :=
  .decl N.«exponent_base» (.cond (.bin .eq (.fld (.var N.«scan_results») N.«base») (.num 10))
    (.call N.«_10» [(.name N.«Rep»)] .nil) (.call N.«_2» [(.name N.«Rep»)] .nil)) B.convert_8

def B.convert_6 : Stm :=
  .decl N.«fractional_den» (.call N.«math_utilities::pow» [] (.cons (.var N.«base_as_rep») (.cons
    (.cast (.name N.«Rep») (.fld (.var N.«scan_results») N.«fractional_precision»)) .nil)))
    B.convert_7

def B.convert_5 : Stm :=
  .decl N.«fractional_num» (.call N.«digit_sequence_to_int» [] (.cons (.fld (.var N.«scan_results»)
    N.«fractional») (.cons (.var N.«base_as_rep») .nil))) B.convert_6

def B.convert_4 : Stm :=
  .decl N.«whole» (.call N.«digit_sequence_to_int» [] (.cons (.fld (.var N.«scan_results»)
    N.«whole») (.cons (.var N.«base_as_rep») .nil))) B.convert_5

def B.convert_3 : Stm :=
  .decl N.«base_as_rep» (.cast (.name N.«Rep») (.fld (.var N.«scan_results») N.«base»)) B.convert_4

def B.convert_2 : Stm :=
  .decl N.«scan_results» (.meth (.var N.«maybe_scan_results») N.«value» .nil) B.convert_3

def B.convert_1 : Stm :=
  .ite (.un .not (.meth (.var N.«maybe_scan_results») N.«has_value» .nil)) (.ret (.call
    N.«limits::undefined» [(.app2 N.«fraction» (.name N.«Rep») (.name N.«Ops»))] .nil) .nil) .nil
    B.convert_2

def B.convert_0 : Stm :=
  .decl N.«maybe_scan_results» (.call N.«scan_floating_point_string» [] (.cons (.var N.«string»)
    .nil)) B.convert_1

def F.convert : Func :=
  ⟨N.«floating_point_string_to_fraction», [N.«Rep», N.«Ops»], [⟨(.name N.«std::string_view»),
    N.«string»⟩], (.app2 N.«fraction» (.name N.«Rep») (.name N.«Ops»)), B.convert_0⟩

/-! ## `/repo/include/ieme/fraction_literals.hpp:106-113` -/

def B.dec_1 : Stm :=
  .ret (.cond (.call N.«is_defined» [] (.cons (.var N.«result») .nil)) (.var N.«result») .throw)
    .nil

def B.dec_0 : Stm :=
  .decl N.«result» (.call N.«floating_point_string_to_fraction» [(.name N.«std::intmax_t»), (.name
    N.«ops::defaults»)] (.cons (.var N.«string») .nil)) B.dec_1

def F.dec : Func :=
  ⟨N.«_dec», [], [⟨(.name N.«char»), N.«string»⟩], (.app2 N.«fraction» (.name N.«std::intmax_t»)
    (.name N.«ops::defaults»)), B.dec_0⟩

/-! ## The programs -/

/-- What `/repo/include/ieme/parse_utilities.hpp` parses to. -/
def Prog.parseUtilities : Program :=
  ⟨[F.scan, F.valid, F.digits], [(N.«floating_point_string_scan_results», [⟨(.name N.«int»),
    N.«base», (.cons (.num 10) .nil)⟩, ⟨(.name N.«std::string_view»), N.«whole», .nil⟩, ⟨(.name
    N.«std::string_view»), N.«fractional», .nil⟩, ⟨(.name N.«int»), N.«fractional_precision»,
    (.cons (.num 0) .nil)⟩, ⟨(.name N.«sign»), N.«exponent_sign», (.cons (.var N.«sign::positive»)
    .nil)⟩, ⟨(.name N.«std::string_view»), N.«exponent», .nil⟩])], [(N.«sign», [N.«negative»,
    N.«positive»])], [], []⟩

/-- What `/repo/include/ieme/floating_point.hpp:91-129` parses to. -/
def Prog.stringToFraction : Program :=
  ⟨[F.convert], [], [], [], []⟩

/-- What `/repo/include/ieme/fraction_literals.hpp:106-113` parses to. -/
def Prog.decLiteral : Program :=
  ⟨[F.dec], [], [], [], []⟩

/-- The parser and the functions that use it. -/
def parser : Program :=
  (Prog.parseUtilities.append Prog.stringToFraction).append Prog.decLiteral

end Ieme.Script
