import Verif.Model.ChronoSyntax

/-!
# What the text of `/repo/include/ieme/chrono.hpp` parses to

C151 proves that it does.
-/

namespace Ieme.ChronoText

open Header hiding Ty Func Cls Program Item

def program : Program :=
  ⟨[⟨[⟨N.«Rep», none⟩, ⟨N.«Ops», none⟩], N.«treat_as_floating_point», .app2 true N.«fraction»
  (.name false N.«Rep») (.name false N.«Ops»), .name true N.«std::true_type»⟩], [⟨[⟨N.«Rep»,
  none⟩, ⟨N.«Period», none⟩, ⟨N.«Ops», some (.name true N.«ops::defaults»)⟩], N.«duration», .app2
  true N.«std::chrono::duration» (.app2 false N.«fraction» (.name false N.«Rep») (.name false
  N.«Ops»)) (.name false N.«Period»)⟩, ⟨[⟨N.«Duration», none⟩, ⟨N.«Ops», some (.name true
  N.«ops::defaults»)⟩], N.«duration_like», .app3 false N.«duration» (.mem (.name false
  N.«Duration») N.«rep») (.mem (.name false N.«Duration») N.«period») (.name false N.«Ops»)⟩,
  ⟨[], N.«nanoseconds», .app1 false N.«duration_like» (.name true N.«std::chrono::nanoseconds»)⟩,
  ⟨[], N.«microseconds», .app1 false N.«duration_like» (.name true
  N.«std::chrono::microseconds»)⟩, ⟨[], N.«milliseconds», .app1 false N.«duration_like» (.name
  true N.«std::chrono::milliseconds»)⟩, ⟨[], N.«seconds», .app1 false N.«duration_like» (.name
  true N.«std::chrono::seconds»)⟩, ⟨[], N.«minutes», .app1 false N.«duration_like» (.name true
  N.«std::chrono::minutes»)⟩, ⟨[], N.«hours», .app1 false N.«duration_like» (.name true
  N.«std::chrono::hours»)⟩, ⟨[⟨N.«Clock», none⟩, ⟨N.«Rep», none⟩, ⟨N.«Period», none⟩, ⟨N.«Ops»,
  some (.name true N.«ops::defaults»)⟩], N.«time_point», .app2 true N.«std::chrono::time_point»
  (.name false N.«Clock») (.app3 false N.«duration» (.name false N.«Rep») (.name false
  N.«Period») (.name false N.«Ops»))⟩, ⟨[⟨N.«TimePoint», none⟩, ⟨N.«Ops», some (.name true
  N.«ops::defaults»)⟩], N.«time_point_like», .app4 false N.«time_point» (.mem (.name false
  N.«TimePoint») N.«clock») (.mem (.name false N.«TimePoint») N.«rep») (.mem (.name false
  N.«TimePoint») N.«period») (.name false N.«Ops»)⟩], [⟨[⟨N.«Clock», none⟩, ⟨N.«Period», some
  (.mem (.name false N.«Clock») N.«period»)⟩, ⟨N.«Ops», some (.name true N.«ops::defaults»)⟩],
  N.«clock_wrapper», [(N.«clock_type», .name false N.«Clock»), (N.«ops_type», .name false
  N.«Ops»), (N.«rep», .app2 false N.«fraction» (.mem (.name false N.«clock_type») N.«rep») (.name
  false N.«ops_type»)), (N.«period», .mem (.name false N.«Period») N.«type»), (N.«duration»,
  .app3 true N.«duration» (.mem (.name false N.«clock_type») N.«rep») (.name false N.«period»)
  (.name false N.«ops_type»)), (N.«time_point», .app4 true N.«time_point» (.name false
  N.«clock_type») (.mem (.name false N.«clock_type») N.«rep») (.name false N.«period») (.name
  false N.«ops_type»))], [(N.«is_steady», .const (.name false N.«clock_type») N.«is_steady»)],
  [⟨[], .name false N.«time_point», N.«now», [], some (.stat (.name false N.«clock_type»)
  N.«now»)⟩]⟩], [⟨[⟨N.«Rep», none⟩, ⟨N.«Period», none⟩, ⟨N.«Ops», some (.name true
  N.«ops::defaults»)⟩], .app2 false N.«duration_like» (.app2 true N.«std::chrono::duration»
  (.name false N.«Rep») (.name false N.«Period»)) (.name false N.«Ops»), N.«to_fractional»,
  [(.app2 true N.«std::chrono::duration» (.name false N.«Rep») (.name false N.«Period»),
  N.«duration»)], none⟩, ⟨[⟨N.«Clock», none⟩, ⟨N.«Duration», none⟩, ⟨N.«Ops», some (.name true
  N.«ops::defaults»)⟩], .app2 false N.«time_point_like» (.app2 true N.«std::chrono::time_point»
  (.name false N.«Clock») (.name false N.«Duration»)) (.name false N.«Ops»), N.«to_fractional»,
  [(.app2 true N.«std::chrono::time_point» (.name false N.«Clock») (.name false N.«Duration»),
  N.«time_point»)], none⟩, ⟨[⟨N.«Rep», none⟩, ⟨N.«Period», none⟩, ⟨N.«Ops», none⟩], .app2 false
  N.«duration_like» (.app2 true N.«std::chrono::duration» (.name false N.«Rep») (.name false
  N.«Period»)) (.name false N.«Ops»), N.«to_fractional», [(.app2 true N.«std::chrono::duration»
  (.name false N.«Rep») (.name false N.«Period»), N.«duration»)], some (.cast (.app2 false
  N.«duration_like» (.app2 true N.«std::chrono::duration» (.name false N.«Rep») (.name false
  N.«Period»)) (.name false N.«Ops»)) (.var N.«duration»))⟩, ⟨[⟨N.«Clock», none⟩, ⟨N.«Duration»,
  none⟩, ⟨N.«Ops», none⟩], .app2 false N.«time_point_like» (.app2 true
  N.«std::chrono::time_point» (.name false N.«Clock») (.name false N.«Duration»)) (.name false
  N.«Ops»), N.«to_fractional», [(.app2 true N.«std::chrono::time_point» (.name false N.«Clock»)
  (.name false N.«Duration»), N.«time_point»)], some (.cast (.app2 false N.«time_point_like»
  (.app2 true N.«std::chrono::time_point» (.name false N.«Clock») (.name false N.«Duration»))
  (.name false N.«Ops»)) (.var N.«time_point»))⟩]⟩

end Ieme.ChronoText
