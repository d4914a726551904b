import Verif.Lemmas.Stopwatch

/-!
# C137: Measuring time with a wrapped clock

A clock of period `p` wrapped with period `q`.  Everything a program does with its readings happens
over one denominator `E`, a multiple of that of `p/q` and of the denominators of the durations of the
program itself; what has to fit is only the numerators over it.
-/

namespace Ieme

open Res IntTy Chrono

variable {T : IntTy} {o : Ops} {p q : Period} {E m n : ℤ} {t : ℚ}

/-- **C137** Under every policy a reading finishes when its numerator over the denominator fits, and
it is exactly the time the wrapped clock shows. -/
theorem C137_reading (hs : T.signed = true) (g : Grid T p q E) (hn : |reading p q E n| ≤ T.max) :
    ∃ r, now T o p q n ⇓ r ∧ r.den ∣ E ∧ Lasts q (.frac r) (n * p.seconds) := by
  obtain ⟨r, h, on, -⟩ := now_on (o := o) hs g hn
  exact ⟨r, h, on.dvd, C67_now_exact h⟩

/-- **C137** The difference of two readings is exactly the time between them, without overflow, in
every policy built on `safe`. -/
theorem C137_elapsed (ho : o.BasedOnSafe) (hs : T.signed = true) (g : Grid T p q E)
    (hm : |reading p q E m| ≤ T.max) (hn : |reading p q E n| ≤ T.max)
    (hd : |reading p q E (n - m)| ≤ T.max) :
    ∃ r, elapsed T o p q m n ⇓ r ∧ r.den ∣ E ∧ Lasts q (.frac r) ((n - m) * p.seconds) := by
  obtain ⟨a, h1, oa, ea⟩ := now_on (o := o) hs g hm
  obtain ⟨b, h2, ob, eb⟩ := now_on (o := o) hs g hn
  obtain ⟨r, h3, or', er⟩ := Ops.arith_on (op := .minus) (a := .ff b a) ho hs (Or.inr rfl) g.pos g.fits
    ⟨ob, oa⟩ (by
      simpa only [Args.left, Args.right, ArithOp.overCommon, ea, eb, ← reading_sub] using hd)
  refine ⟨r, by simp only [elapsed, h1, h2, ok_bind_false, arith_same g.period, h3], or'.dvd,
    lasts_of_over g.pos or' ?_⟩
  simp only [Args.left, Args.right, ArithOp.overCommon, ea, eb, ← reading_sub] at er
  rw [er, reading_eq g]
  push_cast
  ring

/-- **C137** Two readings compare as the readings of the wrapped clock do, so a steady clock stays
steady. -/
theorem C137_compare {op : CmpOp} (ho : o.BasedOnSafe) (hs : T.signed = true) (g : Grid T p q E)
    (hm : |reading p q E m| ≤ T.max) (hn : |reading p q E n| ≤ T.max) :
    ∃ v, compareReadings T o op p q m n ⇓ v ∧ (v = true ↔ op.HoldsInt m n) := by
  obtain ⟨a, h1, oa, ea⟩ := now_on (o := o) hs g hm
  obtain ⟨b, h2, ob, eb⟩ := now_on (o := o) hs g hn
  obtain ⟨v, h3, hv⟩ := cmp_same_on (op := op) g.period ho hs g.pos g.fits oa ob
  obtain ⟨c, c0, hc⟩ := reading_lt g
  exact ⟨v, by simp only [compareReadings, h1, h2, ok_bind_false, h3],
    by rw [hv, ea, eb, hc, hc, holdsInt_mul c0]⟩

/-- **C137** However many laps a stopwatch sums up, the total is exactly the time from the first
reading to the last, and nothing overflows. -/
theorem C137_stopwatch (ho : o.BasedOnSafe) (hs : T.signed = true) (g : Grid T p q E)
    {start : ℤ} {ns : List ℤ}
    (hns : ∀ n ∈ start :: ns, 0 ≤ n ∧ reading p q E n ≤ T.max) :
    ∃ r, stopwatch T o p q start ns ⇓ r ∧ r.den ∣ E ∧
      Lasts q (.frac r) (((start :: ns).getLast (List.cons_ne_nil _ _) - start : ℤ) * p.seconds) := by
  have h0 := hns start (by simp)
  obtain ⟨c, c0, hc⟩ := reading_lt g
  have habs : |reading p q E start| ≤ T.max := by
    rw [abs_of_nonneg (by rw [hc]; exact mul_nonneg h0.1 c0.le)]; exact h0.2
  obtain ⟨a, h1, oa, ea⟩ := now_on (o := o) hs g habs
  have zero : (⟨0, 1⟩ : Raw).On T E :=
    ⟨one_ne_zero, one_dvd _, by simpa [Raw.over] using g.pos.le.trans g.fits⟩
  obtain ⟨r, h2, or', er⟩ := laps_on (m := start) (s := start) (total := ⟨0, 1⟩) (ns := ns) ho hs g
    (fun n hn => hns n (by simp [hn])) h0 h0 oa ea zero (by simp [Raw.over, reading])
  refine ⟨r, by simp only [stopwatch, h1, ok_bind_false, Fraction.mk, h2], or'.dvd,
    lasts_of_over g.pos or' ?_⟩
  rw [er, reading_eq g]

/-- **C137** Waiting with a timeout of `t` seconds ends at the first reading at or after the start
plus `t`, exactly, and nothing overflows. -/
theorem C137_wait {timeout : Raw} {start : ℤ} {ns : List ℤ} (ho : o.BasedOnSafe)
    (hs : T.signed = true) (g : Grid T p q E) (hns : ∀ n ∈ start :: ns, |reading p q E n| ≤ T.max)
    (ht : Lasts q (.frac timeout) t) (hd : timeout.den ∣ E) (hf : |timeout.over E| ≤ T.max)
    (hsum : |reading p q E start + timeout.over E| ≤ T.max) :
    waitFor T o p q timeout start ns ⇓
      ns.findIdx? fun n : ℤ => decide (start * p.seconds + t ≤ n * p.seconds) := by
  obtain ⟨a, h1, oa, ea⟩ := now_on (o := o) hs g (hns start (by simp))
  have ot : timeout.On T E := ⟨ht.1, hd, hf⟩
  obtain ⟨b, h2, ob, eb⟩ := Ops.arith_on (op := .plus) (a := .ff a timeout) ho hs (Or.inl rfl) g.pos
    g.fits ⟨oa, ot⟩ (by simpa only [Args.left, Args.right, ArithOp.overCommon, ea] using hsum)
  simp only [Args.left, Args.right, ArithOp.overCommon, ea] at eb
  have hb : Lasts q (.frac b) (start * p.seconds + t) := by
    refine lasts_of_over g.pos ob ?_
    rw [eb]
    push_cast
    rw [reading_eq g, over_lasts hd ht]
    ring
  simp only [waitFor, h1, ok_bind_false, arith_same g.period, h2]
  exact poll_on ho hs g (fun n hn => hns n (by simp [hn])) ob hb

/-- **C137** A schedule does not drift: after `k` intervals of `t` seconds the next time is exactly
`k · t` after the start. -/
theorem C137_schedule {interval : Raw} {start : ℤ} {k : ℕ} (ho : o.BasedOnSafe)
    (hs : T.signed = true) (g : Grid T p q E) (ht : Lasts q (.frac interval) t)
    (hd : interval.den ∣ E) (hi : |interval.over E| ≤ T.max)
    (hf : |reading p q E start| + k * |interval.over E| ≤ T.max) :
    ∃ r, schedule T o p q interval start k ⇓ r ∧ r.den ∣ E ∧
      Lasts q (.frac r) (start * p.seconds + k * t) := by
  have h0 : (0 : ℤ) ≤ k * |interval.over E| := by positivity
  obtain ⟨a, h1, oa, ea⟩ := now_on (o := o) hs g (n := start) (by linarith)
  obtain ⟨r, h2, or', er⟩ := advance_on (q := q) (k := k) ho hs g.pos g.fits ⟨ht.1, hd, hi⟩ oa
    (by rw [ea]; exact hf)
  refine ⟨r, by simp only [schedule, h1, ok_bind_false, h2], or'.dvd, lasts_of_over g.pos or' ?_⟩
  rw [er, ea]
  push_cast
  rw [reading_eq g, over_lasts hd ht]
  ring

/-- **C137** A 64-bit clock that counts nanoseconds, wrapped to seconds: nothing a stopwatch does with
readings that are not negative overflows, in any policy built on `safe`, the default included. -/
theorem C137_nanoseconds (ho : o.BasedOnSafe) :
    (∀ m n : ℤ, 0 ≤ m → m ≤ i64.max → 0 ≤ n → n ≤ i64.max →
      (∃ r, elapsed i64 o nano second m n ⇓ r ∧ Lasts second (.frac r) ((n - m) / 1000000000)) ∧
      ∀ op, ∃ v, compareReadings i64 o op nano second m n ⇓ v ∧ (v = true ↔ op.HoldsInt m n)) ∧
    ∀ (start : ℤ) (ns : List ℤ), (∀ n ∈ start :: ns, 0 ≤ n ∧ n ≤ i64.max) →
      ∃ r, stopwatch i64 o nano second start ns ⇓ r ∧ Lasts second (.frac r)
        (((start :: ns).getLast (List.cons_ne_nil _ _) - start : ℤ) / 1000000000) := by
  have g := nano_grid 1 one_pos (by decide)
  have sec : nano.seconds = 1 / 1000000000 := by simp [Period.seconds, nano]
  rw [Nat.cast_one, one_mul] at g
  refine ⟨fun m n m0 m1 n0 n1 => ⟨?_, fun op => ?_⟩, fun start ns h => ?_⟩
  · obtain ⟨r, h, -, hr⟩ := C137_elapsed (m := m) (n := n) ho rfl g
      (by rw [nano_reading, abs_of_nonneg m0]; exact m1)
      (by rw [nano_reading, abs_of_nonneg n0]; exact n1)
      (by rw [nano_reading, abs_le]; constructor <;> omega)
    rw [sec, mul_one_div] at hr
    exact ⟨r, h, hr⟩
  · exact C137_compare ho rfl g (by rw [nano_reading, abs_of_nonneg m0]; exact m1)
      (by rw [nano_reading, abs_of_nonneg n0]; exact n1)
  · obtain ⟨r, h, -, hr⟩ := C137_stopwatch (start := start) (ns := ns) ho rfl g
      (fun n hn => by rw [nano_reading]; exact h n hn)
    rw [sec, mul_one_div] at hr
    exact ⟨r, h, hr⟩

example : Ops.defaults.BasedOnSafe ∧ Ops.safe.BasedOnSafe := ⟨trivial, trivial⟩

/-- A clock that has run for 292 years, and one that ticks in frames of 1001/30000 s, in
milliseconds. -/
example : elapsed i64 .defaults nano second 1 9223372036854775807 ⇓ ⟨4611686018427387903, 500000000⟩ ∧
    compareReadings i64 .safe .less nano second 9223372036854775806 9223372036854775807 ⇓ true ∧
    stopwatch i64 .defaults nano second 5000000000 [5500000001, 5500000001, 7000000000] ⇓ ⟨2, 1⟩ ∧
    elapsed i32 .safe ⟨1001, 30000, by decide, by decide, by decide⟩
      ⟨1, 1000, by decide, by decide, by decide⟩ 100 200 ⇓ ⟨100100, 30⟩ := by decide +kernel

example : Grid i64 nano second 60000000000 ∧ Lasts second (.frac ⟨1, 60⟩) (1 / 60) ∧
    (60 : ℤ) ∣ 60000000000 ∧ (⟨1, 60⟩ : Raw).over 60000000000 = 1000000000 :=
  ⟨nano_grid 60 (by decide) (by decide), ⟨by decide, by norm_num [second, Period.seconds]⟩,
    by decide, by decide⟩

/-- A sixtieth of a second as a timeout and as an interval. -/
example : waitFor i64 .defaults nano second ⟨1, 60⟩ 7
      [10, 16666673, 16666674, 16666675] ⇓ some 2 ∧
    schedule i64 .defaults nano second ⟨1, 60⟩ 0 60 ⇓ ⟨1, 1⟩ := by decide +kernel

/-- **C137** Under `fast` the same clock can be read, but two readings can be subtracted only while
each and their difference, times a thousand million, are 64-bit numbers: for nine seconds. -/
theorem C137_fast_iff {r : Raw} (hm : i64.InRange m) (hn : i64.InRange n) :
    elapsed i64 .fast nano second m n ⇓ r ↔
      i64.InRange (m * 1000000000) ∧ i64.InRange (n * 1000000000) ∧
        i64.InRange ((n - m) * 1000000000) ∧ r = ⟨(n - m) * 1000000000, 1000000000000000000⟩ := by
  have rd : ∀ {n : ℤ}, i64.InRange n → now i64 .fast nano second n ⇓ ⟨n, 1000000000⟩ :=
    fun hn => nano_fast hn
  have hden : i64.InRange 1000000000 := by decide
  have hden2 : i64.InRange 1000000000000000000 := by decide
  simp only [elapsed, rd hm, rd hn, ok_bind_false, arith_same (q := second) (by decide)]
  rw [C85_fast_iff (a := .ff ⟨n, 1000000000⟩ ⟨m, 1000000000⟩) ⟨⟨hn, hden⟩, ⟨hm, hden⟩⟩]
  simp only [Args.left, Args.right, ArithOp.crossParts, ArithOp.overCommon, ArithOp.UsesCommon,
    reduceCtorEq, false_implies, and_true, true_implies, ← sub_mul, Raw.InRange]
  constructor
  · rintro ⟨rfl, ⟨h1, -⟩, h2, h3⟩
    exact ⟨h3, h2, h1, rfl⟩
  · rintro ⟨h1, h2, h3, rfl⟩
    exact ⟨rfl, ⟨h3, hden2⟩, h2, h1⟩

/-- **C137** Two readings a nanosecond apart, ten seconds after the clock started: under `fast`
their difference overflows, by default it is one nanosecond. -/
theorem C137_fast_overflows :
    elapsed i64 .fast nano second 10000000000 10000000001 = .fault .overflow ∧
    elapsed i64 .defaults nano second 10000000000 10000000001 ⇓ ⟨1, 1000000000⟩ := by
  decide +kernel

example : i64.InRange 9000000000 ∧ elapsed i64 .fast nano second 9000000000 9000000001 ⇓
    ⟨1000000000, 1000000000000000000⟩ := by decide +kernel

end Ieme
