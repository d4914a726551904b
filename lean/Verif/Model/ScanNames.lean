import Verif.Model.HeaderNames

/-!
# Further names in the text of the headers

As `Verif/Model/HeaderNames.lean`, for the names that only occur in
`/repo/include/ieme/parse_utilities.hpp` and `/repo/include/ieme/floating_point.hpp`.
-/

namespace Ieme.Header

@[simp] abbrev N.«Float» : Nat := 302466949492
@[simp] abbrev N.«NumExponentBits» : Nat := 407380854259125591893902825798333555
@[simp] abbrev N.«NumMantissaBits» : Nat := 407380856707191023757939629273740403
@[simp] abbrev N.«U» : Nat := 85
@[simp] abbrev N.«UintRep» : Nat := 24041296139281776
@[simp] abbrev N.«_dec» : Nat := 1600415075
@[simp] abbrev N.«as_uint_rep» : Nat := 117810637549250862642259312
@[simp] abbrev N.«base_as_rep» : Nat := 118934928551304760074069360
@[simp] abbrev N.«base_power» : Nat := 464589564653598578009458
@[simp] abbrev N.«big» : Nat := 6449511
@[simp] abbrev N.«bitfield_offsets» : Nat := 130811895630473051900454101246286328947
@[simp] abbrev N.«break» : Nat := 422826041707
@[simp] abbrev N.«c» : Nat := 99
@[simp] abbrev N.«char» : Nat := 1667785074
@[simp] abbrev N.«continue» : Nat := 7165066978433856869
@[simp] abbrev N.«count» : Nat := 427071729268
@[simp] abbrev N.«digit» : Nat := 431265114484
@[simp] abbrev N.«digit_as_int» : Nat := 31075926542235434428119215732
@[simp] abbrev N.«digit_preceeded» : Nat := 521367531999217282885178281582421348
@[simp] abbrev N.«digit_sequence_to_int» : Nat := 146751913927171896853502084430024524491359072644724
@[simp] abbrev N.«double» : Nat := 110429873532005
@[simp] abbrev N.«empty» : Nat := 435627783289
@[simp] abbrev N.«endian» : Nat := 111524805435758
@[simp] abbrev N.«exponent_base» : Nat := 8039318541030186697499439362917
@[simp] abbrev N.«exponent_bias» : Nat := 8039318541030186697499439882611
@[simp] abbrev N.«exponent_bits» : Nat := 8039318541030186697499439887475
@[simp] abbrev N.«exponent_part» : Nat := 8039318541030186697499674243700
@[simp] abbrev N.«exponent_separator_pos» : Nat := 37964608423273450301059385428823575807126806488706931
@[simp] abbrev N.«exponent_sign» : Nat := 8039318541030186697499725096814
@[simp] abbrev N.«exponent_sign_multiplier» : Nat := 2488048577627648838930227963883967208297898795102466827634
@[simp] abbrev N.«extract_bit_field» : Nat := 34528631044855171036535854865969421053028
@[simp] abbrev N.«fallthrough» : Nat := 123770503212876586137511784
@[simp] abbrev N.«find» : Nat := 1718185572
@[simp] abbrev N.«first_two» : Nat := 1889166157983356581743
@[simp] abbrev N.«float» : Nat := 439905902964
@[simp] abbrev N.«floating_point_string_scan_results» : Nat := 3036118958716233667583367625731275614229220034385626510622769217861957858328605811
@[simp] abbrev N.«floating_point_string_to_fraction» : Nat := 11859839682485287763997529788012795368082890759318853558385749010062762364727150
@[simp] abbrev N.«floating_point_to_fraction» : Nat := 164588338548228404534211757715045301278093353194829280992391022
@[simp] abbrev N.«for» : Nat := 6713202
@[simp] abbrev N.«fraction_to_floating_point» : Nat := 164625658071201519133023955767579557220206003565887214722838132
@[simp] abbrev N.«fractional_den» : Nat := 2077867930378444779651160321844590
@[simp] abbrev N.«fractional_num» : Nat := 2077867930378444779651160322504045
@[simp] abbrev N.«fractional_precision» : Nat := 584867827311091727200659693513428489297405243246
@[simp] abbrev N.«front» : Nat := 440006569588
@[simp] abbrev N.«has_value» : Nat := 1925483444871839380837
@[simp] abbrev N.«is_NaN» : Nat := 115944241127758
@[simp] abbrev N.«is_iec559» : Nat := 1945221607060829189433
@[simp] abbrev N.«is_valid_digit_sequence» : Nat := 10100168113624491082083593678598888582387063044734608229
@[simp] abbrev N.«it» : Nat := 26996
@[simp] abbrev N.«last_pos» : Nat := 7809650172491755379
@[simp] abbrev N.«limits» : Nat := 119200062993523
@[simp] abbrev N.«limits::undefined» : Nat := 36890632666255486921881396832164067042660
@[simp] abbrev N.«little» : Nat := 119200181152869
@[simp] abbrev N.«long::double» : Nat := 33559093191206022946448632933
@[simp] abbrev N.«lower» : Nat := 465726563698
@[simp] abbrev N.«lower_pos» : Nat := 2000280359962972024691
@[simp] abbrev N.«make_pair» : Nat := 2017714919939109906802
@[simp] abbrev N.«make_repeating_1s» : Nat := 37220270741822741914812183149944288260467
@[simp] abbrev N.«make_tuple» : Nat := 516535019504429652012133
@[simp] abbrev N.«mantissa» : Nat := 7881702269139514209
@[simp] abbrev N.«mantissa_bits» : Nat := 8666023291587380119189144040563
@[simp] abbrev N.«mantissa_fraction» : Nat := 37220286623742069538238246435144837197678
@[simp] abbrev N.«mantissa_fraction_denominator» : Nat := 2948894917453335777191364788543613646451601525757662079163418262400882
@[simp] abbrev N.«mantissa_fraction_numerator» : Nat := 44996565512898800311147534004876917212701439482459395952060166002
@[simp] abbrev N.«mantissa_part» : Nat := 8666023291587380119189378396788
@[simp] abbrev N.«math_utilities::pow» : Nat := 2439270729865143523423403883891202328003374967
@[simp] abbrev N.«math_utilities::pow2» : Nat := 624453306845476741996391394276147795968863991602
@[simp] abbrev N.«maybe_scan_results» : Nat := 9528407903641865782999246329118717725406323
@[simp] abbrev N.«memcpy» : Nat := 120282394357881
@[simp] abbrev N.«native» : Nat := 121364843951717
@[simp] abbrev N.«negative» : Nat := 7954877985082406501
@[simp] abbrev N.«no_exponent_separator» : Nat := 161401005492078842856671676183566774396626167689074
@[simp] abbrev N.«no_fractional» : Nat := 8749566044403437485437146259820
@[simp] abbrev N.«no_radix_separator» : Nat := 9620249665778641929804860601611214111666034
@[simp] abbrev N.«no_whole» : Nat := 7957684033044835429
@[simp] abbrev N.«npos» : Nat := 1852862323
@[simp] abbrev N.«nullopt» : Nat := 31091355974332532
@[simp] abbrev N.«num_exponent_bits» : Nat := 37587147932035877322251339040135500625011
@[simp] abbrev N.«num_mantissa_bits» : Nat := 37587147932662582072808532461825204778099
@[simp] abbrev N.«num_sign_bits» : Nat := 8751439846386299104656106288243
@[simp] abbrev N.«offset» : Nat := 122485596185972
@[simp] abbrev N.«offsets» : Nat := 31356312623608947
@[simp] abbrev N.«ops::defaults» : Nat := 8829127661626989266595430036595
@[simp] abbrev N.«optional» : Nat := 8030046131791487340
@[simp] abbrev N.«parse_utilities» : Nat := 583513709611309961270068807700407667
@[simp] abbrev N.«positive» : Nat := 8101821151424640613
@[simp] abbrev N.«radix_separator_pos» : Nat := 2550769012798515027891368621459614615339036531
@[simp] abbrev N.«rbegin» : Nat := 125766933637486
@[simp] abbrev N.«reduced» : Nat := 32199629485598052
@[simp] abbrev N.«remaining_string» : Nat := 152058632002600394773702731924148678247
@[simp] abbrev N.«remove_prefix» : Nat := 9063400811899128412170850036088
@[simp] abbrev N.«rend» : Nat := 1919250020
@[simp] abbrev N.«result» : Nat := 125780054338676
@[simp] abbrev N.«results» : Nat := 32199693910701171
@[simp] abbrev N.«scan_floating_point_string» : Nat := 185421697166266842437210238852423818381183378373887002587786855
@[simp] abbrev N.«scan_results» : Nat := 35710919891164888782795994227
@[simp] abbrev N.«sequence» : Nat := 8315177036036334437
@[simp] abbrev N.«sign» : Nat := 1936287598
@[simp] abbrev N.«sign::negative» : Nat := 2340828071696766732393243541599845
@[simp] abbrev N.«sign::positive» : Nat := 2340828071696766879336409883833957
@[simp] abbrev N.«sign_bit» : Nat := 8316291910660680052
@[simp] abbrev N.«sign_part» : Nat := 2128970729129368449652
@[simp] abbrev N.«size» : Nat := 1936292453
@[simp] abbrev N.«sizeof» : Nat := 126896862228326
@[simp] abbrev N.«static_assert» : Nat := 9147256765822758159958950638196
@[simp] abbrev N.«std::endian» : Nat := 139576112637880132545634670
@[simp] abbrev N.«std::endian::big» : Nat := 153465558805121909773221410864808225127
@[simp] abbrev N.«std::endian::little» : Nat := 2574724828634232186597846625903645386874317925
@[simp] abbrev N.«std::endian::native» : Nat := 2574724828634232186597846625903647551537116773
@[simp] abbrev N.«std::make_pair» : Nat := 2341698590166191404996528139495794
@[simp] abbrev N.«std::make_tuple» : Nat := 599474839082544999679111221226794085
@[simp] abbrev N.«std::nullopt» : Nat := 35731484835299854937465254004
@[simp] abbrev N.«std::optional» : Nat := 9147260117836833522993467384172
@[simp] abbrev N.«std::string_view» : Nat := 153465558805138863327152981561095841143
@[simp] abbrev N.«std::string_view::npos» : Nat := 43196714590564270389902429689859123683771886286696307
@[simp] abbrev N.«string» : Nat := 126943972912743
@[simp] abbrev N.«string_view» : Nat := 139576374293642917951661431
@[simp] abbrev N.«substr» : Nat := 126948000101490
@[simp] abbrev N.«throw» : Nat := 499968536439
@[simp] abbrev N.«to_double» : Nat := 2147847556041179032677
@[simp] abbrev N.«to_float» : Nat := 8390029524325065076
@[simp] abbrev N.«to_fraction» : Nat := 140761337577652336288427886
@[simp] abbrev N.«to_long_double» : Nat := 2361583372228817927041621487152229
@[simp] abbrev N.«uint32_t» : Nat := 8460414820346388340
@[simp] abbrev N.«uint64_t» : Nat := 8460414820396851060
@[simp] abbrev N.«undefined» : Nat := 2166223650956390589796
@[simp] abbrev N.«upper» : Nat := 504397587826

end Ieme.Header
