import Verif.Model.ScanNames

/-!
# Further names in the text of the headers

As `Verif/Model/HeaderNames.lean`, for the names that only occur in `/repo/include/ieme/hash.hpp`,
`/repo/include/ieme/limits.hpp` and `/repo/include/ieme/fraction_literals.hpp`.
-/

namespace Ieme.Header

@[simp] abbrev N.«IsSigned» : Nat := 5292665699262424420
@[simp] abbrev N.«_fr» : Nat := 6252146
@[simp] abbrev N.«conditional_t» : Nat := 7878074381024441106603369586548
@[simp] abbrev N.«denominator_literal» : Nat := 2238910439904937690268887550855645250003820908
@[simp] abbrev N.«denorm_indeterminate» : Nat := 573161072622330654271004907786308322173577688165
@[simp] abbrev N.«denorm_min» : Nat := 474107727143289851046254
@[simp] abbrev N.«digits» : Nat := 110403869308019
@[simp] abbrev N.«digits10» : Nat := 7235427978970345776
@[simp] abbrev N.«epsilon» : Nat := 28552613640040302
@[simp] abbrev N.«float_denorm_style» : Nat := 8922351710987651176136309440795769503837285
@[simp] abbrev N.«float_round_style» : Nat := 34852936371045529379096649381578381290597
@[simp] abbrev N.«fraction_limits_type» : Nat := 584867827311091727200040770661466116962842669157
@[simp] abbrev N.«fraction_type» : Nat := 8116671603040799920503890997349
@[simp] abbrev N.«has_denorm» : Nat := 492923761867416885228141
@[simp] abbrev N.«has_denorm_loss» : Nat := 541975407780312936973581489873580915
@[simp] abbrev N.«has_infinity» : Nat := 32304251658105845413361316985
@[simp] abbrev N.«has_quiet_» : Nat := 492923761881779171325023
@[simp] abbrev N.«has_quiet_NaN» : Nat := 8269888424623175621620922212686
@[simp] abbrev N.«has_signaling_» : Nat := 2117091436712756189569063144286047
@[simp] abbrev N.«has_signaling_NaN» : Nat := 35518900325480240547737119289326181441870
@[simp] abbrev N.«hash» : Nat := 1751217000
@[simp] abbrev N.«hash_combine» : Nat := 32304251823402879824207375973
@[simp] abbrev N.«infinity» : Nat := 7597122224430609529
@[simp] abbrev N.«is_bounded» : Nat := 497976729448320820602212
@[simp] abbrev N.«is_exact» : Nat := 7598521885720142708
@[simp] abbrev N.«is_modulo» : Nat := 1945221611501846359151
@[simp] abbrev N.«is_signed» : Nat := 1945221618073196193124
@[simp] abbrev N.«is_specialized» : Nat := 2138793787705743407398248376853860
@[simp] abbrev N.«long::long::int» : Nat := 563028155232992895045512694556356212
@[simp] abbrev N.«lowest» : Nat := 119226000307060
@[simp] abbrev N.«max_digits10» : Nat := 33851700318683290859751026992
@[simp] abbrev N.«max_exponent» : Nat := 33851700318759580499712503412
@[simp] abbrev N.«max_exponent10» : Nat := 2218505032090227867629158623621424
@[simp] abbrev N.«min» : Nat := 7170414
@[simp] abbrev N.«min_exponent» : Nat := 33861324501651668836658015860
@[simp] abbrev N.«min_exponent10» : Nat := 2219135762540243768879219727413552
@[simp] abbrev N.«mixed_number_type» : Nat := 37230972066038453696031151378442021859429
@[simp] abbrev N.«operator()» : Nat := 526256024947083978090537
@[simp] abbrev N.«quiet_NaN» : Nat := 2092942485254661103950
@[simp] abbrev N.«radix» : Nat := 491260242296
@[simp] abbrev N.«rep_limits_type» : Nat := 593979268329278554291897882738520165
@[simp] abbrev N.«round_error» : Nat := 138343892339310611712339826
@[simp] abbrev N.«round_indeterminate» : Nat := 2551994376144090579541434807929840735243826277
@[simp] abbrev N.«round_style» : Nat := 138343892339310671875894373
@[simp] abbrev N.«signaling_NaN» : Nat := 9143859655788519549508361544014
@[simp] abbrev N.«size_t» : Nat := 126896862224244
@[simp] abbrev N.«smallest» : Nat := 8317411205126124404
@[simp] abbrev N.«std::conditional_t» : Nat := 10057518861852311344123614058423700331192180
@[simp] abbrev N.«std::hash» : Nat := 2129762460905202873192
@[simp] abbrev N.«std::numeric_limits» : Nat := 2574724828634415285662026666862735513763804275
@[simp] abbrev N.«std::size_t» : Nat := 139576112637895504602423156
@[simp] abbrev N.«tinyness_before» : Nat := 604444841277447116625359785889329765
@[simp] abbrev N.«traps» : Nat := 500135194739
@[simp] abbrev N.«unsigned::long::long::int» : Nat := 737129149440194517526519248442319793468759006071823778016884
@[simp] abbrev N.«value_» : Nat := 130160803538271
@[simp] abbrev N.«value_type» : Nat := 559036394417956983500901

end Ieme.Header
