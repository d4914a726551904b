import Verif.Lemmas.ChronoText
import Verif.Model.ChronoText
import Verif.Props.Chrono

/-!
# C151: the models of durations and clocks compute what the text of `chrono.hpp` says

`ChronoText.Text.chrono` is the text of `/repo/include/ieme/chrono.hpp`.
-/

namespace Ieme

open Chrono ChronoText
open Header (Val TVal library opsDepth N.«duration» N.«duration_like» N.«time_point»
  N.«time_point_like» N.«to_fractional» N.«clock_wrapper» N.«now» N.«is_steady» N.«nanoseconds»
  N.«microseconds» N.«milliseconds» N.«seconds» N.«minutes» N.«hours»)

variable {T : IntTy} {o : Ops} {p q : Period} {c c' : Clock} {n : ℤ} {v : Val} {k : Count}

/-- **C151** Parsing the text of the header gives the program that the other theorems are about. -/
theorem C151_text : ChronoText.parse Text.chrono = some program := by decide +kernel

/-- **C151** What the names of types mean: fractional durations and time points of a period, and
the ones like an integer duration or time point; the policy may be left out. -/
theorem C151_types :
    Means N.«duration» [.ty (.int T), .period q, .ty (.ops o)] (.dur (.frac T o) q) ∧
    Means N.«duration» [.ty (.int T), .period q] (.dur (.frac T .defaults) q) ∧
    Means N.«duration_like» [.dur (.int T) q, .ty (.ops o)] (.dur (.frac T o) q) ∧
    Means N.«duration_like» [.dur (.int T) q] (.dur (.frac T .defaults) q) ∧
    Means N.«time_point» [.clock c, .ty (.int T), .period q, .ty (.ops o)] (.tp c (.frac T o) q) ∧
    Means N.«time_point» [.clock c, .ty (.int T), .period q] (.tp c (.frac T .defaults) q) ∧
    Means N.«time_point_like» [.tp c (.int T) q, .ty (.ops o)] (.tp c (.frac T o) q) ∧
    Means N.«time_point_like» [.tp c (.int T) q] (.tp c (.frac T .defaults) q) :=
  ⟨rfl, rfl, rfl, rfl, rfl, rfl, rfl, rfl⟩

/-- **C151** The predefined durations have 64-bit parts, the default policy and the periods that
their names say. -/
theorem C151_predefined : ∀ d ∈ [(N.«nanoseconds», (1 / 1000000000 : ℚ)),
      (N.«microseconds», 1 / 1000000), (N.«milliseconds», 1 / 1000), (N.«seconds», 1), (N.«minutes», 60), (N.«hours», 3600)],
    ∃ q : Period, q.seconds = d.2 ∧ Means d.1 [] (.dur (.frac i64 .defaults) q) := by
  simp only [List.forall_mem_cons]
  refine ⟨⟨second 1 1000000000, ?_, rfl⟩, ⟨second 1 1000000, ?_, rfl⟩, ⟨second 1 1000, ?_, rfl⟩,
    ⟨second 1 1, ?_, rfl⟩, ⟨second 60 1, ?_, rfl⟩, ⟨second 3600 1, ?_, rfl⟩, by simp⟩ <;>
  norm_num [Period.seconds, second]

/-- **C151** Lines 17-19: durations that count in fractions convert like those that count in
floating-point numbers; integers do not. -/
theorem C151_floating : program.floating (.frac T o) = true ∧ program.floating (.int T) = false :=
  ⟨rfl, rfl⟩

/-- **C151** The model of the conversion of durations and time points. -/
theorem C151_convert (hv : Shows T o v k) :
    Gives (.cast N.«duration» [.ty (.int T), .period q, .ty (.ops o)] (.dur p v))
      (fractional T o q <$> Chrono.convert T o p q k) ∧
    Gives (.cast N.«time_point» [.clock c, .ty (.int T), .period q, .ty (.ops o)] (.tp c p v))
      (fractionalAt c T o q <$> Chrono.convert T o p q k) :=
  ⟨⟨opsDepth o + 1, fun _ hn => (enter_duration _ _).trans (convert_dur hv hn)⟩,
    ⟨opsDepth o + 1, fun _ hn => (enter_time_point _ _).trans (convert_tp hv hn)⟩⟩

/-- **C151** Time points of another clock are rejected. -/
theorem C151_other_clock (hc : c' ≠ c) :
    Gives (.cast N.«time_point» [.clock c, .ty (.int T), .period q, .ty (.ops o)] (.tp c' p v))
      (.fault .illFormed) :=
  ⟨0, fun n _ => (enter_time_point _ _).trans (by
    rw [ChronoText.convert, if_neg (by simp [CV.type, hc])]
    simp only [if_neg hc]
    rfl)⟩

/-- **C151** The model of `to_fractional`, with the default policy and with a policy that is given. -/
theorem C151_to_fractional (hn : T.InRange n) :
    Gives (.call N.«to_fractional» [] [.dur p (.int T n)])
      (fractional T .defaults p <$> toFractional T .defaults p n) ∧
    Gives (.call N.«to_fractional» [] [.tp c p (.int T n)])
      (fractionalAt c T .defaults p <$> toFractional T .defaults p n) ∧
    Gives (.call N.«to_fractional» [.ty (.int T), .period p, .ty (.ops o)] [.dur p (.int T n)])
      (fractional T o p <$> toFractional T o p n) ∧
    Gives (.call N.«to_fractional» [.clock c, .dur (.int T) p, .ty (.ops o)] [.tp c p (.int T n)])
      (fractionalAt c T o p <$> toFractional T o p n) := by
  have hd (o : Ops) (lib : Header.Invoke) (r : Raw) :
      ChronoText.convert program lib (.dur (.frac T o) p) (fractional T o p r) =
        pure (fractional T o p r) := convert_done lib (fractional T o p r)
  have ht (o : Ops) (lib : Header.Invoke) (r : Raw) :
      ChronoText.convert program lib (.tp c (.frac T o) p) (fractionalAt c T o p r) =
        pure (fractionalAt c T o p r) := convert_done lib (fractionalAt c T o p r)
  refine ⟨⟨opsDepth .defaults + 1, fun m hm => (enter_dur _ _).trans ?_⟩,
    ⟨opsDepth .defaults + 1, fun m hm => (enter_tp _ _).trans ?_⟩,
    ⟨opsDepth o + 1, fun m hm => (enter_dur_given _ _).trans ?_⟩,
    ⟨opsDepth o + 1, fun m hm => (enter_tp_given _ _).trans ?_⟩⟩
  all_goals
    first
    | rw [convert_dur (.int hn) hm]
    | rw [convert_tp (.int hn) hm]
    simp only [map_eq_pure_bind, bind_assoc, pure_bind, hd, ht]
    rfl

/-- **C151** So `to_fractional` gives the count over one, whatever the policy, and never fails. -/
theorem C151_to_fractional_exact (hn : T.InRange n) :
    Gives (.call N.«to_fractional» [] [.dur p (.int T n)])
      (.ok (.dur p (.frac T .defaults ⟨n, 1⟩)) false) ∧
    Gives (.call N.«to_fractional» [] [.tp c p (.int T n)])
      (.ok (.tp c p (.frac T .defaults ⟨n, 1⟩)) false) ∧
    Gives (.call N.«to_fractional» [.ty (.int T), .period p, .ty (.ops o)] [.dur p (.int T n)])
      (.ok (.dur p (.frac T o ⟨n, 1⟩)) false) ∧
    Gives (.call N.«to_fractional» [.clock c, .dur (.int T) p, .ty (.ops o)] [.tp c p (.int T n)])
      (.ok (.tp c p (.frac T o ⟨n, 1⟩)) false) := by
  have h := C151_to_fractional (c := c) (o := o) (p := p) hn
  simp only [C67_to_fractional hn] at h
  exact h

/-- **C151** The model of `clock_wrapper::now`; the period is the clock's and the policy the default
one unless they are given. -/
theorem C151_now (hc : c.rep.InRange c.reading) :
    Gives (.stat N.«clock_wrapper» [.clock c, .period q, .ty (.ops o)] N.«now»)
      (fractionalAt c c.rep o q <$> Chrono.now c.rep o c.period q c.reading) ∧
    Gives (.stat N.«clock_wrapper» [.clock c, .period q] N.«now»)
      (fractionalAt c c.rep .defaults q <$> Chrono.now c.rep .defaults c.period q c.reading) ∧
    Gives (.stat N.«clock_wrapper» [.clock c] N.«now»)
      (fractionalAt c c.rep .defaults c.period <$>
        Chrono.now c.rep .defaults c.period c.period c.reading) := by
  have h (q : Period) (o : Ops) (m : ℕ) (hm : opsDepth o + 1 ≤ m) :
      ChronoText.invoke m (.stat N.«clock_wrapper» [.clock c, .period q, .ty (.ops o)] N.«now») =
        fractionalAt c c.rep o q <$> Chrono.now c.rep o c.period q c.reading :=
    (enter_now _).trans (convert_tp (.int hc) hm)
  refine ⟨⟨_, h q o⟩, ⟨_, fun m hm => Eq.trans ?_ (h q .defaults m hm)⟩,
    ⟨_, fun m hm => Eq.trans ?_ (h c.period .defaults m hm)⟩⟩
  · simp only [ChronoText.invoke, enter, instance_default_policy]
  · simp only [ChronoText.invoke, enter, instance_default]

/-- **C151** A time that `now` gives is the reading of the clock, exactly. -/
theorem C151_now_exact (hc : c.rep.InRange c.reading) {t : CV}
    (h : Gives (.stat N.«clock_wrapper» [.clock c, .period q, .ty (.ops o)] N.«now»)
      (.ok t false)) :
    ∃ r, t = .tp c q (.frac c.rep o r) ∧
      Denotes r (c.reading * c.period.seconds / q.seconds) := by
  obtain ⟨k₁, h₁⟩ := (C151_now (q := q) (o := o) hc).1
  obtain ⟨k₂, h₂⟩ := h
  have he := (h₁ (max k₁ k₂) (le_max_left _ _)).symm.trans (h₂ _ (le_max_right _ _))
  rw [map_eq_pure_bind] at he
  obtain ⟨r, hr, ht⟩ := Res.bind_eq_clean.1 he
  exact ⟨r, ((Res.pure_eq_ok.1 ht).1).symm, C67_now_exact hr⟩

/-- **C151** A wrapper of a clock is steady if the clock is. -/
theorem C151_steady :
    Gives (.const N.«clock_wrapper» [.clock c, .period q, .ty (.ops o)] N.«is_steady»)
      (.ok (.bool c.steady) false) :=
  ⟨0, fun _ _ => enter_steady _⟩

/-- Frames of 1001/30000 s. -/
private def frame : Period := second 1001 30000

private def clock : Clock := ⟨i64, second 1 1000000000, true, 1500000000⟩

example : Shows i32 .safe (.int i64 90) (.int 90) ∧
    Shows i32 .safe (.frac i32 .safe ⟨1, 7⟩) (.frac ⟨1, 7⟩) ∧
    clock.rep.InRange clock.reading ∧ i32.InRange (-7) ∧ { clock with steady := false } ≠ clock :=
  ⟨.int (by decide), .frac _, by decide, by decide, by decide⟩

/-- A clock of nanoseconds that is read in seconds, 1/7 of a frame in milliseconds and -7 minutes
in `int`. -/
example : Gives (.stat N.«clock_wrapper» [.clock clock, .period (second 1 1)] N.«now»)
      (.ok (.tp clock (second 1 1) (.frac i64 .defaults ⟨3, 2⟩)) false) ∧
    Gives (.cast N.«duration» [.ty (.int i64), .period (second 1 1000), .ty (.ops .fast)]
      (.dur frame (.frac i64 .fast ⟨1, 7⟩)))
      (.ok (.dur (second 1 1000) (.frac i64 .fast ⟨1001, 210⟩)) false) ∧
    Gives (.call N.«to_fractional» [] [.dur (second 60 1) (.int i32 (-7))])
      (.ok (.dur (second 60 1) (.frac i32 .defaults ⟨-7, 1⟩)) false) := by
  refine ⟨?_, ?_, (C151_to_fractional_exact (c := clock) (o := .safe) (by decide)).1⟩
  · have h := (C151_now (c := clock) (q := second 1 1) (o := .safe) (by decide)).2.1
    rwa [show Chrono.now clock.rep .defaults clock.period (second 1 1) clock.reading =
      .ok ⟨3, 2⟩ false from by decide +kernel] at h
  · have h := (C151_convert (p := frame) (q := second 1 1000) (c := clock)
      (Shows.frac (T := i64) (o := .fast) ⟨1, 7⟩)).1
    rwa [show Chrono.convert i64 .fast frame (second 1 1000) (.frac ⟨1, 7⟩) =
      .ok ⟨1001, 210⟩ false from by decide +kernel] at h

/-- The numbers of the names. -/
example : ∀ p ∈ [
    ("Clock", Header.N.«Clock»), ("Duration", Header.N.«Duration»), ("Period",
    Header.N.«Period»), ("TimePoint", Header.N.«TimePoint»), ("chrono", Header.N.«chrono»),
    ("clock", Header.N.«clock»), ("clock_type", Header.N.«clock_type»), ("clock_wrapper",
    Header.N.«clock_wrapper»), ("duration", Header.N.«duration»), ("duration_like",
    Header.N.«duration_like»), ("hours", Header.N.«hours»), ("is_steady", Header.N.«is_steady»),
    ("microseconds", Header.N.«microseconds»), ("milliseconds", Header.N.«milliseconds»),
    ("minutes", Header.N.«minutes»), ("nanoseconds", Header.N.«nanoseconds»), ("now",
    Header.N.«now»), ("period", Header.N.«period»), ("rep", Header.N.«rep»), ("seconds",
    Header.N.«seconds»), ("std::chrono::duration", Header.N.«std::chrono::duration»),
    ("std::chrono::hours", Header.N.«std::chrono::hours»), ("std::chrono::microseconds",
    Header.N.«std::chrono::microseconds»), ("std::chrono::milliseconds",
    Header.N.«std::chrono::milliseconds»), ("std::chrono::minutes",
    Header.N.«std::chrono::minutes»), ("std::chrono::nanoseconds",
    Header.N.«std::chrono::nanoseconds»), ("std::chrono::seconds",
    Header.N.«std::chrono::seconds»), ("std::chrono::time_point",
    Header.N.«std::chrono::time_point»), ("std::true_type", Header.N.«std::true_type»),
    ("time_point", Header.N.«time_point»), ("time_point_like", Header.N.«time_point_like»),
    ("to_fractional", Header.N.«to_fractional»), ("treat_as_floating_point",
    Header.N.«treat_as_floating_point»), ("true_type", Header.N.«true_type»), ("type",
    Header.N.«type»)],
    Header.nameCode p.1 = p.2 := by decide +kernel

end Ieme
