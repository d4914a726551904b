/-!
# Names in the text of the headers

An identifier of the text of `/repo/include/ieme` is represented by the number whose digits to base
256 are its bytes, a symbol likewise.  This file names the numbers that occur: `N.«plus»` is the
number of `plus`.  `nameCode` computes the number of a string; the examples at the end of
`Verif/Props/HeaderText.lean` compare.
-/

namespace Ieme.Header

/-- The number of an identifier: its bytes as digits to base 256. -/
def nameCode (s : String) : Nat :=
  s.toByteArray.data.toList.foldl (fun n b => n * 256 + b.toNat) 0

/-! ## Identifiers of `/repo/include/ieme` -/

@[simp] abbrev N.«Denominator» : Nat := 82685951919602359571083122
@[simp] abbrev N.«FRep» : Nat := 1179805040
@[simp] abbrev N.«FRep1» : Nat := 302030090289
@[simp] abbrev N.«FRep2» : Nat := 302030090290
@[simp] abbrev N.«Int» : Nat := 4812404
@[simp] abbrev N.«Left» : Nat := 1281713780
@[simp] abbrev N.«LeftOps» : Nat := 21503588942442611
@[simp] abbrev N.«LeftRep» : Nat := 21503588942636400
@[simp] abbrev N.«Mode» : Nat := 1299145829
@[simp] abbrev N.«Numerator» : Nat := 1447307568566179753842
@[simp] abbrev N.«Ops» : Nat := 5206131
@[simp] abbrev N.«OtherFRep» : Nat := 1465680847670512608624
@[simp] abbrev N.«OtherOps» : Nat := 5725315811213537395
@[simp] abbrev N.«OtherRep» : Nat := 5725315811213731184
@[simp] abbrev N.«Rep» : Nat := 5399920
@[simp] abbrev N.«Right» : Nat := 353955702900
@[simp] abbrev N.«RightOps» : Nat := 5938391281990332531
@[simp] abbrev N.«RightRep» : Nat := 5938391281990526320
@[simp] abbrev N.«T» : Nat := 84
@[simp] abbrev N.«V» : Nat := 86
@[simp] abbrev N.«WRep» : Nat := 1465017712
@[simp] abbrev N.«WRep1» : Nat := 375044534321
@[simp] abbrev N.«WRep2» : Nat := 375044534322
@[simp] abbrev N.«_0» : Nat := 24368
@[simp] abbrev N.«_1» : Nat := 24369
@[simp] abbrev N.«_10» : Nat := 6238512
@[simp] abbrev N.«_2» : Nat := 24370
@[simp] abbrev N.«abs» : Nat := 6382195
@[simp] abbrev N.«are_different» : Nat := 7720535606988140312349787909748
@[simp] abbrev N.«are_identical» : Nat := 7720535607080013472133535719788
@[simp] abbrev N.«as_fraction» : Nat := 117810636470905860549865326
@[simp] abbrev N.«auto» : Nat := 1635087471
@[simp] abbrev N.«base» : Nat := 1650553701
@[simp] abbrev N.«bool» : Nat := 1651470188
@[simp] abbrev N.«case» : Nat := 1667330917
@[simp] abbrev N.«ceil» : Nat := 1667590508
@[simp] abbrev N.«ceil_redenominate» : Nat := 33822753741979647042909025761794384295013
@[simp] abbrev N.«class» : Nat := 427020088179
@[simp] abbrev N.«common_raw_type» : Nat := 516297406199245382954014015474987109
@[simp] abbrev N.«common_rep_type» : Nat := 516297406199245382955132218800435301
@[simp] abbrev N.«common_type_t» : Nat := 7878073214710165147474318417780
@[simp] abbrev N.«const» : Nat := 427071271796
@[simp] abbrev N.«constexpr» : Nat := 1834257145426649575538
@[simp] abbrev N.«default» : Nat := 28258988067220596
@[simp] abbrev N.«defaults» : Nat := 7234300945208472691
@[simp] abbrev N.«define» : Nat := 110386672660069
@[simp] abbrev N.«delete» : Nat := 110386773062757
@[simp] abbrev N.«den» : Nat := 6579566
@[simp] abbrev N.«denominator» : Nat := 121371578147270493161680754
@[simp] abbrev N.«divides» : Nat := 28263454966310259
@[simp] abbrev N.«else» : Nat := 1701606245
@[simp] abbrev N.«enable_if_t» : Nat := 122622764520523331111640948
@[simp] abbrev N.«enum» : Nat := 1701737837
@[simp] abbrev N.«equal_to» : Nat := 7309752731489498223
@[simp] abbrev N.«explicit» : Nat := 7311717605962901876
@[simp] abbrev N.«exponent» : Nat := 7311717618931822196
@[simp] abbrev N.«false» : Nat := 439721161573
@[simp] abbrev N.«fast» : Nat := 1717662580
@[simp] abbrev N.«fast_reduced_i» : Nat := 2076526642798613604759665459355497
@[simp] abbrev N.«fast_reduced_io» : Nat := 531590820556445082818474357595007343
@[simp] abbrev N.«fast_reduced_o» : Nat := 2076526642798613604759665459355503
@[simp] abbrev N.«final» : Nat := 439855505772
@[simp] abbrev N.«fix» : Nat := 6711672
@[simp] abbrev N.«floor» : Nat := 439905906546
@[simp] abbrev N.«floor_redenominate» : Nat := 8922351783639246709159321978284276122219621
@[simp] abbrev N.«floored» : Nat := 28829673491424612
@[simp] abbrev N.«fraction» : Nat := 7382069818996387694
@[simp] abbrev N.«fractional» : Nat := 483791327657747263938924
@[simp] abbrev N.«fractional_» : Nat := 123850579880383299568364639
@[simp] abbrev N.«fractional_rep_type» : Nat := 2284639950433952059377576927927298127329587301
@[simp] abbrev N.«fractional_type» : Nat := 531934190176881863590697042661961829
@[simp] abbrev N.«friend» : Nat := 112641580559972
@[simp] abbrev N.«function» : Nat := 7382928537577680750
@[simp] abbrev N.«gcd» : Nat := 6775652
@[simp] abbrev N.«greater» : Nat := 29117702353479026
@[simp] abbrev N.«greater_equal» : Nat := 8195904591813322348456666554732
@[simp] abbrev N.«ieme» : Nat := 1768254821
@[simp] abbrev N.«if» : Nat := 26982
@[simp] abbrev N.«ignore» : Nat := 115892955345509
@[simp] abbrev N.«ignore_signs» : Nat := 32620966906806346506096307827
@[simp] abbrev N.«init_denominator» : Nat := 140142231084852680285270823260149542770
@[simp] abbrev N.«init_numerator» : Nat := 2138400742872083207430492768202610
@[simp] abbrev N.«int» : Nat := 6909556
@[simp] abbrev N.«intmax_t» : Nat := 7597137634556141428
@[simp] abbrev N.«is_convertible_v» : Nat := 140167988403134484693980819746556567414
@[simp] abbrev N.«is_defined» : Nat := 497976730000211150005604
@[simp] abbrev N.«is_improper» : Nat := 127482043242604858193241458
@[simp] abbrev N.«is_integer» : Nat := 497976731417541700183410
@[simp] abbrev N.«is_negative» : Nat := 127482043600631060033533541
@[simp] abbrev N.«is_non_negative» : Nat := 547531208104078765240389481722902117
@[simp] abbrev N.«is_non_positive» : Nat := 547531208104078765387332648065136229
@[simp] abbrev N.«is_positive» : Nat := 127482043747574226375767653
@[simp] abbrev N.«is_proper» : Nat := 1945221614813450364274
@[simp] abbrev N.«is_reduced» : Nat := 497976733940852434625892
@[simp] abbrev N.«is_reduced_ignore_signs» : Nat := 10100168090877038163385232037222036592689394657622716019
@[simp] abbrev N.«is_same_v» : Nat := 1945221618038936526710
@[simp] abbrev N.«is_undefined» : Nat := 32635403291536438143879112036
@[simp] abbrev N.«is_unit_fraction» : Nat := 140167989828925870755540785164129496942
@[simp] abbrev N.«is_zero» : Nat := 29681726467175023
@[simp] abbrev N.«istream» : Nat := 29681816527266157
@[simp] abbrev N.«lcm» : Nat := 7103341
@[simp] abbrev N.«left» : Nat := 1818584692
@[simp] abbrev N.«less» : Nat := 1818588019
@[simp] abbrev N.«less_equal» : Nat := 511887020399192331084140
@[simp] abbrev N.«long» : Nat := 1819242087
@[simp] abbrev N.«make_unsigned_t» : Nat := 567936260098627948980946972564545396
@[simp] abbrev N.«math_utilities» : Nat := 2218503805002131706190451844932979
@[simp] abbrev N.«max» : Nat := 7168376
@[simp] abbrev N.«minus» : Nat := 469920281971
@[simp] abbrev N.«mixed_number» : Nat := 33861371835917865333641340274
@[simp] abbrev N.«mode» : Nat := 1836016741
@[simp] abbrev N.«modulus» : Nat := 30803249718916467
@[simp] abbrev N.«multiplies» : Nat := 516904030676600316585331
@[simp] abbrev N.«namespace» : Nat := 2036162227048672224101
@[simp] abbrev N.«negate» : Nat := 121381805192293
@[simp] abbrev N.«new_denominator» : Nat := 573210635482586566482398922340069234
@[simp] abbrev N.«noexcept» : Nat := 7957690634325028980
@[simp] abbrev N.«normalize_signs» : Nat := 573413067767006837026967981820178035
@[simp] abbrev N.«not_equal_to» : Nat := 34178091400587634010859992175
@[simp] abbrev N.«num» : Nat := 7239021
@[simp] abbrev N.«number» : Nat := 121450625394034
@[simp] abbrev N.«numerator» : Nat := 2037603378924885405554
@[simp] abbrev N.«numeric_limits» : Nat := 2240368607923724829558691592762483
@[simp] abbrev N.«operator» : Nat := 8030029677537292146
@[simp] abbrev N.«operator!=» : Nat := 526256024947083978088765
@[simp] abbrev N.«operator%» : Nat := 2055687597449546789413
@[simp] abbrev N.«operator%=» : Nat := 526256024947083978089789
@[simp] abbrev N.«operator*» : Nat := 2055687597449546789418
@[simp] abbrev N.«operator*=» : Nat := 526256024947083978091069
@[simp] abbrev N.«operator+» : Nat := 2055687597449546789419
@[simp] abbrev N.«operator+=» : Nat := 526256024947083978091325
@[simp] abbrev N.«operator-» : Nat := 2055687597449546789421
@[simp] abbrev N.«operator-=» : Nat := 526256024947083978091837
@[simp] abbrev N.«operator/» : Nat := 2055687597449546789423
@[simp] abbrev N.«operator/=» : Nat := 526256024947083978092349
@[simp] abbrev N.«operator<» : Nat := 2055687597449546789436
@[simp] abbrev N.«operator<<» : Nat := 526256024947083978095676
@[simp] abbrev N.«operator<=» : Nat := 526256024947083978095677
@[simp] abbrev N.«operator==» : Nat := 526256024947083978095933
@[simp] abbrev N.«operator>» : Nat := 2055687597449546789438
@[simp] abbrev N.«operator>=» : Nat := 526256024947083978096189
@[simp] abbrev N.«ops» : Nat := 7303283
@[simp] abbrev N.«ops_type» : Nat := 8030044989414797413
@[simp] abbrev N.«ostream» : Nat := 31370666387530093
@[simp] abbrev N.«other» : Nat := 478694368626
@[simp] abbrev N.«plus» : Nat := 1886156147
@[simp] abbrev N.«pow» : Nat := 7368567
@[simp] abbrev N.«pow2» : Nat := 1886353202
@[simp] abbrev N.«private» : Nat := 31650994674824293
@[simp] abbrev N.«public» : Nat := 123649464756579
@[simp] abbrev N.«ratio» : Nat := 491261290863
@[simp] abbrev N.«raw» : Nat := 7496055
@[simp] abbrev N.«raw_» : Nat := 1918990175
@[simp] abbrev N.«raw_fraction» : Nat := 35399120645570175173755760494
@[simp] abbrev N.«raw_fraction_type» : Nat := 38921744762849871268933659856624709890149
@[simp] abbrev N.«reciprocal» : Nat := 540220063578903325925740
@[simp] abbrev N.«redenominate» : Nat := 35403866735141553156634276965
@[simp] abbrev N.«reduce» : Nat := 125779802678117
@[simp] abbrev N.«reduce_ignore_signs» : Nat := 2551117477784059895389206879993593941922901619
@[simp] abbrev N.«reduce_mode» : Nat := 138296355583960916702487653
@[simp] abbrev N.«reduce_normalize_signs» : Nat := 42800648966158374248006187737003495703276884412821107
@[simp] abbrev N.«reduced_input» : Nat := 9063389959550464028970350310772
@[simp] abbrev N.«reduced_output» : Nat := 2320227829644918791423036880876916
@[simp] abbrev N.«rep_type» : Nat := 8243118248249880677
@[simp] abbrev N.«return» : Nat := 125780071117422
@[simp] abbrev N.«right» : Nat := 491394656372
@[simp] abbrev N.«round» : Nat := 491496238692
@[simp] abbrev N.«round_mode» : Nat := 540405829450432211018853
@[simp] abbrev N.«round_redenominate» : Nat := 9968728031812856600818485304513567207289957
@[simp] abbrev N.«safe» : Nat := 1935763045
@[simp] abbrev N.«safe_reduced_i» : Nat := 2340193926207070348565648683327337
@[simp] abbrev N.«safe_reduced_io» : Nat := 599089645109010009232806062931798383
@[simp] abbrev N.«safe_reduced_o» : Nat := 2340193926207070348565648683327343
@[simp] abbrev N.«signs_are_normalized» : Nat := 658884527040455057499249949906031539850367886692
@[simp] abbrev N.«squareRoot» : Nat := 545165085777693057707892
@[simp] abbrev N.«static» : Nat := 126943688419683
@[simp] abbrev N.«static_cast» : Nat := 139576061490215426057139060
@[simp] abbrev N.«std» : Nat := 7566436
@[simp] abbrev N.«std::common_type_t» : Nat := 10057518861852311342957299782464571280023412
@[simp] abbrev N.«std::intmax_t» : Nat := 9147260117836400614496232038260
@[simp] abbrev N.«std::istream» : Nat := 35731484835298445398018187629
@[simp] abbrev N.«std::make_unsigned_t» : Nat := 659129556130404715025948981109474213448351244148
@[simp] abbrev N.«std::ostream» : Nat := 35731484835300134247878451565
@[simp] abbrev N.«stream» : Nat := 126943972647277
@[simp] abbrev N.«streamsize» : Nat := 545220210944375194745445
@[simp] abbrev N.«struct» : Nat := 126943973696372
@[simp] abbrev N.«switch» : Nat := 126956707537768
@[simp] abbrev N.«symbol» : Nat := 126965363404652
@[simp] abbrev N.«template» : Nat := 8387230210669507685
@[simp] abbrev N.«to_whole» : Nat := 8390029597272403045
@[simp] abbrev N.«true» : Nat := 1953658213
@[simp] abbrev N.«trunc» : Nat := 500136504931
@[simp] abbrev N.«trunc_redenominate» : Nat := 10143973450756857499898471556916980584903781
@[simp] abbrev N.«truncated» : Nat := 2148069932216022754660
@[simp] abbrev N.«truncated_fractional» : Nat := 664795444068811838271875217633333456641364746604
@[simp] abbrev N.«typename» : Nat := 8392862961527516517
@[simp] abbrev N.«unsigned» : Nat := 8461827646419789156
@[simp] abbrev N.«unsigned_type» : Nat := 9303877889474981353942249205861
@[simp] abbrev N.«using» : Nat := 504447463015
@[simp] abbrev N.«value» : Nat := 508440638821
@[simp] abbrev N.«void» : Nat := 1987012964
@[simp] abbrev N.«whole» : Nat := 512853240933
@[simp] abbrev N.«whole_» : Nat := 131290429678943
@[simp] abbrev N.«whole_type» : Nat := 563888101748849918963813

/-! ## Symbols -/

/-- `(` -/
abbrev S.«lpar» : Nat := 40
/-- `)` -/
abbrev S.«rpar» : Nat := 41
/-- `{` -/
abbrev S.«lbr» : Nat := 123
/-- `}` -/
abbrev S.«rbr» : Nat := 125
/-- `[` -/
abbrev S.«lsq» : Nat := 91
/-- `]` -/
abbrev S.«rsq» : Nat := 93
/-- `;` -/
abbrev S.«semi» : Nat := 59
/-- `,` -/
abbrev S.«comma» : Nat := 44
/-- `:` -/
abbrev S.«colon» : Nat := 58
/-- `::` -/
abbrev S.«scope» : Nat := 14906
/-- `.` -/
abbrev S.«dot» : Nat := 46
/-- `<` -/
abbrev S.«lt» : Nat := 60
/-- `>` -/
abbrev S.«gt» : Nat := 62
/-- `<=` -/
abbrev S.«le» : Nat := 15421
/-- `>=` -/
abbrev S.«ge» : Nat := 15933
/-- `==` -/
abbrev S.«eqeq» : Nat := 15677
/-- `!=` -/
abbrev S.«ne» : Nat := 8509
/-- `&&` -/
abbrev S.«and» : Nat := 9766
/-- `||` -/
abbrev S.«or» : Nat := 31868
/-- `!` -/
abbrev S.«not» : Nat := 33
/-- `+` -/
abbrev S.«plus» : Nat := 43
/-- `-` -/
abbrev S.«minus» : Nat := 45
/-- `*` -/
abbrev S.«star» : Nat := 42
/-- `/` -/
abbrev S.«slash» : Nat := 47
/-- `%` -/
abbrev S.«percent» : Nat := 37
/-- `=` -/
abbrev S.«assign» : Nat := 61
/-- `+=` -/
abbrev S.«plusEq» : Nat := 11069
/-- `-=` -/
abbrev S.«minusEq» : Nat := 11581
/-- `*=` -/
abbrev S.«starEq» : Nat := 10813
/-- `/=` -/
abbrev S.«slashEq» : Nat := 12093
/-- `%=` -/
abbrev S.«percentEq» : Nat := 9533
/-- `?` -/
abbrev S.«quest» : Nat := 63
/-- `&` -/
abbrev S.«amp» : Nat := 38
/-- `#` -/
abbrev S.«hash» : Nat := 35
/-- `##` -/
abbrev S.«paste» : Nat := 8995
/-- `\` -/
abbrev S.«backslash» : Nat := 92
/-- `<<` -/
abbrev S.«shl» : Nat := 15420
/-- `->` -/
abbrev S.«arrow» : Nat := 11582
/-- `~` -/
abbrev S.«tilde» : Nat := 126
/-- `++` -/
abbrev S.«incr» : Nat := 11051

end Ieme.Header
