import Verif.Model.LeafNames

/-!
# Further names in the text of the headers

As `Verif/Model/HeaderNames.lean`, for the names that only occur in `/repo/include/ieme/chrono.hpp`.
-/

namespace Ieme.Header

@[simp] abbrev N.«Clock» : Nat := 289582048107
@[simp] abbrev N.«Duration» : Nat := 4932974729744707438
@[simp] abbrev N.«Period» : Nat := 88396641431396
@[simp] abbrev N.«TimePoint» : Nat := 1557123341734187200116
@[simp] abbrev N.«chrono» : Nat := 109300247653999
@[simp] abbrev N.«clock» : Nat := 427021001579
@[simp] abbrev N.«clock_type» : Nat := 469514556541074132267109
@[simp] abbrev N.«clock_wrapper» : Nat := 7877147130233814425721973532018
@[simp] abbrev N.«duration» : Nat := 7238817738958401390
@[simp] abbrev N.«duration_like» : Nat := 7959164275335935763479521749861
@[simp] abbrev N.«hours» : Nat := 448546566771
@[simp] abbrev N.«is_steady» : Nat := 1945221618120406426745
@[simp] abbrev N.«microseconds» : Nat := 33861272906827651090387723379
@[simp] abbrev N.«milliseconds» : Nat := 33861315297013186910709769331
@[simp] abbrev N.«minutes» : Nat := 30796695599342963
@[simp] abbrev N.«nanoseconds» : Nat := 133441946879169711131485299
@[simp] abbrev N.«now» : Nat := 7237495
@[simp] abbrev N.«period» : Nat := 123581013520228
@[simp] abbrev N.«rep» : Nat := 7497072
@[simp] abbrev N.«seconds» : Nat := 32481100067398771
@[simp] abbrev N.«std::chrono::duration» : Nat := 168737166369370351255536883374771621253109066067822
@[simp] abbrev N.«std::chrono::hours» : Nat := 10057518861852309182616286478923076856017523
@[simp] abbrev N.«std::chrono::microseconds» : Nat := 724720611176156714754563453016412995538458273734414704731251
@[simp] abbrev N.«std::chrono::milliseconds» : Nat := 724720611176156714754563453016412995580848459270235026777203
@[simp] abbrev N.«std::chrono::minutes» : Nat := 659129556130352934591940950682704165583763826035
@[simp] abbrev N.«std::chrono::nanoseconds» : Nat := 2830939887406862167010013488345364435171689505974117098611
@[simp] abbrev N.«std::chrono::seconds» : Nat := 659129556130352934591940950682705849988231881843
@[simp] abbrev N.«std::chrono::time_point» : Nat := 11058358935183055339882865188849108306587367653667073652
@[simp] abbrev N.«std::true_type» : Nat := 2341698590166321759998892586922085
@[simp] abbrev N.«time_point» : Nat := 549739302952277639786100
@[simp] abbrev N.«time_point_like» : Nat := 604444755841502390167902601299454821
@[simp] abbrev N.«to_fractional» : Nat := 9224935019489023510998409961836
@[simp] abbrev N.«treat_as_floating_point» : Nat := 11153393303094229755909270660379232266914873241892384372
@[simp] abbrev N.«true_type» : Nat := 2148069922303557333093
@[simp] abbrev N.«type» : Nat := 1954115685

end Ieme.Header
