import Verif.Lemmas.Duration

/-!
# Arithmetic of durations: properties C87 and C88
-/

namespace Ieme

open Res IntTy Chrono

variable {T : IntTy} {o : Ops} {p q c : Period} {l r : Count} {f g : Raw} {t u x : ℚ}

/-! ## C87 -/

/-- **C87** The result of an operation on two durations is expressed in the longest period of
which both periods are whole multiples. -/
theorem C87_common_period (h : commonPeriod p q = some c) :
    IsGreatest {s | CommonMeasure p q s} c.seconds := by
  refine ⟨commonPeriod_measure h, fun s hs => ?_⟩
  obtain ⟨e1, e2⟩ := commonPeriod_parts h
  have := measure_le hs
  rwa [Period.seconds, e1, e2]

/-- **C87** Two durations have a common type exactly when the denominator of that period fits
`std::intmax_t`. -/
theorem C87_common_period_exists {s : ℚ} (hs : IsGreatest {s | CommonMeasure p q s} s) :
    (∃ c, commonPeriod p q = some c) ↔ i64.InRange s.den := by
  have hg : 0 < (Int.gcd p.num q.num : ℤ) := by
    exact_mod_cast Int.gcd_pos_of_ne_zero_left _ p.num_pos.ne'
  have hL : 0 < (Int.lcm p.den q.den : ℤ) := by
    exact_mod_cast Int.lcm_pos p.den_pos.ne' q.den_pos.ne'
  have e : s = ((Int.gcd p.num q.num : ℤ) : ℚ) / ((Int.lcm p.den q.den : ℤ) : ℚ) := by
    refine le_antisymm (by simpa using measure_le hs.1) (hs.2 ?_)
    obtain ⟨k, hk⟩ := whole_factor (p := p) hg hL (Int.gcd_dvd_left ..) (Int.dvd_lcm_left ..)
    obtain ⟨m, hm⟩ := whole_factor (p := q) hg hL (Int.gcd_dvd_right ..) (Int.dvd_lcm_right ..)
    exact ⟨div_pos (by exact_mod_cast hg) (by exact_mod_cast hL), k, m, hk, hm⟩
  have d : (s.den : ℤ) = (Int.lcm p.den q.den : ℤ) := by
    rw [e]
    exact Rat.den_div_eq_of_coprime hL (commonPeriod_coprime p q)
  rw [d]
  unfold commonPeriod
  split
  · rename_i h; exact ⟨fun _ => h, fun _ => ⟨_, rfl⟩⟩
  · rename_i h; exact ⟨fun h' => (by obtain ⟨_, h'⟩ := h'; cases h'), fun h' => absurd h' h⟩

/-- **C87** Adding, subtracting, dividing and taking the remainder of two durations with any
periods is exact: the result lasts the exact time, a quotient is the exact ratio of the two
times, undefined for a divisor of zero length. -/
theorem C87_arith_exact (hc : commonPeriod p q = some c) (hl : Lasts p l t) (hr : Lasts q r u) :
    (arith T o .plus p q l r ⇓ f → Lasts c (.frac f) (t + u)) ∧
    (arith T o .minus p q l r ⇓ f → Lasts c (.frac f) (t - u)) ∧
    (arith T o .modulus p q l r ⇓ f → u ≠ 0 ∧ Lasts c (.frac f) (t - u * ratTrunc (t / u))) ∧
    (arith T o .divides p q l r ⇓ f → (u ≠ 0 → Denotes f (t / u)) ∧ (u = 0 → f.den = 0)) := by
  have c0 := c.seconds_pos.ne'
  have key : ∀ {op : ArithOp}, arith T o op p q l r ⇓ f →
      op.Exact (t / c.seconds) (u / c.seconds) f := fun {op} h => by
    obtain ⟨⟨x, y⟩, h1, h2⟩ := bind_eq_clean.1 h
    obtain ⟨dx, dy⟩ := common_denotes hc hl hr h1
    simp only [Fraction.arith_self] at h2
    exact Ops.arith_exact (a := .ff x y) ⟨dx, dy⟩ h2
  have e1 : t / c.seconds / (u / c.seconds) = t / u := by
    rw [div_div_div_cancel_right₀ c0]
  refine ⟨fun h => ?_, fun h => ?_, fun h => ?_, fun h => ?_⟩
  · show Denotes f ((t + u) / c.seconds)
    rw [add_div]; exact key h
  · show Denotes f ((t - u) / c.seconds)
    rw [sub_div]; exact key h
  · obtain ⟨h1, h2⟩ := key h
    have u0 : u ≠ 0 := fun hu => h1 (by rw [hu, zero_div])
    refine ⟨u0, ?_⟩
    show Denotes f ((t - u * ratTrunc (t / u)) / c.seconds)
    rw [e1] at h2
    have : (t - u * ratTrunc (t / u)) / c.seconds =
        t / c.seconds - u / c.seconds * ratTrunc (t / u) := by ring
    rwa [this]
  · obtain ⟨h1, h2⟩ := key h
    rw [e1] at h1
    exact ⟨fun hu => h1 (div_ne_zero hu c0), fun hu => h2 (by rw [hu, zero_div])⟩

/-- **C87** `+=` and `-=` with a duration of any period keep the period of the left one and
are exact. -/
theorem C87_assign_exact (hf : Lasts p (.frac f) t) (hr : Lasts q r u) :
    (assign T o .plus p q f r ⇓ g → Lasts p (.frac g) (t + u)) ∧
    (assign T o .minus p q f r ⇓ g → Lasts p (.frac g) (t - u)) := by
  have key : ∀ {op : ArithOp}, assign T o op p q f r ⇓ g →
      op.Exact (t / p.seconds) (u / p.seconds) g := fun {op} h => by
    obtain ⟨y, h1, h2⟩ := bind_eq_clean.1 h
    have dy := C67_duration_cast_exact hr h1
    rw [div_mul_cancel₀ _ q.seconds_pos.ne'] at dy
    rw [Fraction.assignF, if_pos rfl, Fraction.arith_self] at h2
    exact Ops.arith_exact (a := .ff f y) ⟨hf, dy⟩ h2
  constructor <;> intro h
  · show Denotes g ((t + u) / p.seconds)
    rw [add_div]; exact key h
  · show Denotes g ((t - u) / p.seconds)
    rw [sub_div]; exact key h

/-- **C87** Negating a duration, multiplying or dividing it by an integer or a fraction, and
taking the remainder of its count, is exact. -/
theorem C87_scale_exact {n : ℤ} {k : Raw} (hf : Lasts p (.frac f) t) (hk : Denotes k x) :
    (Chrono.neg T o f ⇓ g → Lasts p (.frac g) (-t)) ∧
    (scaleInt T o .multiplies f n ⇓ g → Lasts p (.frac g) (t * n)) ∧
    (scaleInt T o .divides f n ⇓ g → n ≠ 0 → Lasts p (.frac g) (t / n)) ∧
    (scaleFrac T o .multiplies f k ⇓ g → Lasts p (.frac g) (t * x)) ∧
    (scaleFrac T o .divides f k ⇓ g → x ≠ 0 → Lasts p (.frac g) (t / x)) ∧
    (scaleInt T o .modulus f n ⇓ g → n ≠ 0 ∧
      Lasts p (.frac g) (t - n * ratTrunc (t / p.seconds / n) * p.seconds)) ∧
    (scaleFrac T o .modulus f k ⇓ g → x ≠ 0 ∧
      Lasts p (.frac g) (t - x * ratTrunc (t / p.seconds / x) * p.seconds)) := by
  have p0 := p.seconds_pos.ne'
  have kf : ∀ {op : ArithOp}, scaleFrac T o op f k ⇓ g → op.Exact (t / p.seconds) x g :=
    fun {op} h => by
      rw [scaleFrac, Fraction.arith_self] at h
      exact Ops.arith_exact (a := .ff f k) ⟨hf, hk⟩ h
  have ki : ∀ {op : ArithOp}, scaleInt T o op f n ⇓ g → op.Exact (t / p.seconds) n g :=
    fun {op} h => by
      rw [scaleInt, Fraction.arith_self] at h
      exact Ops.arith_exact (a := .fr f n) ⟨hf, rfl⟩ h
  refine ⟨fun h => ?_, fun h => ?_, fun h hn => ?_, fun h => ?_, fun h hn => ?_, fun h => ?_,
    fun h => ?_⟩
  · show Denotes g (-t / p.seconds)
    rw [neg_div]; exact C06_neg_exact hf h
  · show Denotes g (t * n / p.seconds)
    rw [mul_div_right_comm]; exact ki h
  · show Denotes g (t / n / p.seconds)
    rw [div_right_comm]; exact (ki h).1 (by exact_mod_cast hn)
  · show Denotes g (t * x / p.seconds)
    rw [mul_div_right_comm]; exact kf h
  · show Denotes g (t / x / p.seconds)
    rw [div_right_comm]; exact (kf h).1 hn
  · obtain ⟨h1, h2⟩ := ki h
    refine ⟨by exact_mod_cast h1, ?_⟩
    show Denotes g (_ / p.seconds)
    rwa [sub_div, mul_div_cancel_right₀ _ p0]
  · obtain ⟨h1, h2⟩ := kf h
    refine ⟨h1, ?_⟩
    show Denotes g (_ / p.seconds)
    rwa [sub_div, mul_div_cancel_right₀ _ p0]

/-- **C87** An operation on two durations is rejected by the compiler exactly when they have no
common type or a count cannot be converted to it. -/
theorem C87_accepted_iff {op : ArithOp} : arith T o op p q l r ≠ .fault .illFormed ↔
    ∃ c, commonPeriod p q = some c ∧ FitsParts i64 (conversionFactor p c) ∧
      FitsParts i64 (conversionFactor q c) := by
  unfold Chrono.arith
  cases hc : commonPeriod p q with
  | none =>
    simp only [Chrono.common, hc, fault_bind, ne_eq, not_true_eq_false, reduceCtorEq, false_and,
      exists_false]
  | some c =>
    simp only [Option.some.injEq, exists_eq_left']
    by_cases hf : FitsParts i64 (conversionFactor p c) ∧ FitsParts i64 (conversionFactor q c)
    · refine ⟨fun _ => hf, fun _ => ?_⟩
      rw [common_eq_of_fits hc hf.1 hf.2]
      suffices hs : Res.NoThrow ((convert T o p c l >>= fun x => convert T o q c r >>= fun y =>
          pure (x, y)) >>= fun z => match z with
            | (x, y) => Fraction.arith T T o op (.ff x y)) from fun e => (hs _ e).2 rfl
      refine NoThrow.bind ?_ fun _ => Fraction.arith_noThrow _ _ _ _ _
      exact NoThrow.bind (convert_noThrow hf.1) fun _ =>
        NoThrow.bind (convert_noThrow hf.2) fun _ => NoThrow.pure _
    · refine ⟨fun h => absurd ?_ h, fun h => absurd h hf⟩
      rw [common_illFormed hc hf, fault_bind]

/-- **C87** On a signed representation the operations finish when the counts, expressed in the
common period, are small. -/
theorem C87_finishes {K L k m B : ℕ} {op : ArithOp} (hs : T.signed = true)
    (hc : commonPeriod p q = some c) (hk : p.seconds = k * c.seconds)
    (hm : q.seconds = m * c.seconds) (hkr : i64.InRange k) (hmr : i64.InRange m)
    (hl : l.AbsLe K) (hr : r.AbsLe L) (hK : 1 ≤ K) (hL : 1 ≤ L) (hKB : K * k ≤ B)
    (hLB : L * m ≤ B) (hB : (2 * (B * B) : ℤ) ≤ T.max) (hu : Lasts q r u)
    (h0 : op = .modulus → u ≠ 0) : ∃ f, arith T o op p q l r ⇓ f := by
  have hB1 : (B : ℤ) ≤ T.max := by nlinarith
  obtain ⟨x, y, h, ⟨ax, ix, x0⟩, ay, iy, y0⟩ :=
    common_progress (o := o) hs hc hk hm hkr hmr hl hr hK hL hKB hLB hB1
  have dy := C67_duration_cast_exact hu (common_clean hc h).2
  rw [div_mul_cancel₀ _ q.seconds_pos.ne'] at dy
  obtain ⟨f, hf⟩ := C07_small_arith_finishes (T := T) (o := o) (a := .ff x y) (B := B) op
    ⟨denotes_self x0, dy⟩ ⟨ix, iy⟩ ⟨ax, ay⟩ hB (fun _ => hs)
    (fun h => div_ne_zero (h0 h) c.seconds_pos.ne')
  refine ⟨f, ?_⟩
  rw [Chrono.arith, h]
  simp only [ok_bind_false, Fraction.arith_self, hf]

/-! ## C88 -/

private theorem core {op : CmpOp} {b : Bool} (hop : op = .equalTo ∨ op = .less)
    (hl : Lasts p l t) (hr : Lasts q r u)
    (hs : op = .equalTo ∨ o.SafeBased ∨ l.PosDen ∧ r.PosDen)
    (h : (common T o p q l r >>= fun z => match z with
      | (x, y) => Fraction.cmp T T o op (.ff x y)) ⇓ b) : b = true ↔ op.Holds t u := by
  obtain ⟨⟨x, y⟩, h1, h2⟩ := bind_eq_clean.1 h
  simp only [Fraction.cmp_self] at h2
  cases hc : commonPeriod p q with
  | none => simp only [Chrono.common, hc, reduceCtorEq] at h1
  | some c =>
    obtain ⟨dx, dy⟩ := common_denotes hc hl hr h1
    have c0 := c.seconds_pos
    have e : op.Holds (t / c.seconds) (u / c.seconds) ↔ op.Holds t u := by
      rcases hop with rfl | rfl
      · exact div_left_inj' c0.ne'
      · exact div_lt_div_iff_of_pos_right c0
    rw [← e]
    rcases hs with rfl | hs | hs
    · exact C13_eq_exact (a := .ff x y) ⟨dx, dy⟩ h2
    · exact C15_safe_ff_exact hs dx dy h2
    · obtain ⟨h3, h4⟩ := common_clean hc h1
      exact C15_order_exact_partial (a := .ff x y) ⟨dx, dy⟩
        ⟨convert_posDen hs.1 hl h3, convert_posDen hs.2 hr h4⟩ h2

private theorem core_not {op : CmpOp} {b : Bool} (hop : op = .equalTo ∨ op = .less)
    (hl : Lasts p l t) (hr : Lasts q r u)
    (hs : op = .equalTo ∨ o.SafeBased ∨ l.PosDen ∧ r.PosDen)
    (h : ((common T o p q l r >>= fun z => match z with
      | (x, y) => Fraction.cmp T T o op (.ff x y)) >>= fun v => pure (!v)) ⇓ b) :
    b = true ↔ ¬ op.Holds t u := by
  obtain ⟨v, h1, h2⟩ := bind_eq_clean.1 h
  obtain rfl := (pure_eq_ok.1 h2).1
  rw [← core hop hl hr hs h1]
  cases v <;> simp

/-- **C88** `==` and `!=` compare the lengths, for every policy. -/
theorem C88_eq_exact {b : Bool} (hl : Lasts p l t) (hr : Lasts q r u) :
    (Chrono.cmp T o .equalTo p q l r ⇓ b → (b = true ↔ t = u)) ∧
    (Chrono.cmp T o .notEqualTo p q l r ⇓ b → (b = true ↔ t ≠ u)) :=
  ⟨core (Or.inl rfl) hl hr (Or.inl rfl), core_not (Or.inl rfl) hl hr (Or.inl rfl)⟩

/-- **C88, partial.**  Full claim: every comparison of two durations compares their lengths.
Proved for policies built on `safe`, the default among them, and for counts with positive
denominators; false otherwise, see `C88_wrong_for_negative_denominator`. -/
theorem C88_compare_exact_partial {op : CmpOp} {b : Bool} (hl : Lasts p l t) (hr : Lasts q r u)
    (hs : o.SafeBased ∨ l.PosDen ∧ r.PosDen) (h : Chrono.cmp T o op p q l r ⇓ b) :
    b = true ↔ op.Holds t u := by
  have hs' : o.SafeBased ∨ r.PosDen ∧ l.PosDen := hs.imp_right And.symm
  cases op with
  | equalTo => exact core (Or.inl rfl) hl hr (Or.inl rfl) h
  | notEqualTo => exact core_not (Or.inl rfl) hl hr (Or.inl rfl) h
  | less => exact core (op := .less) (Or.inr rfl) hl hr (Or.inr hs) h
  | greater => exact core (op := .less) (Or.inr rfl) hr hl (Or.inr hs') h
  | lessEqual => exact (core_not (op := .less) (Or.inr rfl) hr hl (Or.inr hs') h).trans not_lt
  | greaterEqual => exact (core_not (op := .less) (Or.inr rfl) hl hr (Or.inr hs) h).trans not_lt

/-- **C88** On a signed representation comparisons finish when the counts, expressed in the
common period, are small. -/
theorem C88_finishes {K L k m B : ℕ} {op : CmpOp} (hs : T.signed = true)
    (hc : commonPeriod p q = some c) (hk : p.seconds = k * c.seconds)
    (hm : q.seconds = m * c.seconds) (hkr : i64.InRange k) (hmr : i64.InRange m)
    (hl : l.AbsLe K) (hr : r.AbsLe L) (hK : 1 ≤ K) (hL : 1 ≤ L) (hKB : K * k ≤ B)
    (hLB : L * m ≤ B) (hB : (B * B : ℤ) ≤ T.max) : ∃ b, Chrono.cmp T o op p q l r ⇓ b := by
  have hB1 : (B : ℤ) ≤ T.max := by nlinarith
  have key : ∀ (op : CmpOp) {p q : Period} {l r : Count} {K L k m : ℕ},
      commonPeriod p q = some c → p.seconds = k * c.seconds → q.seconds = m * c.seconds →
      i64.InRange k → i64.InRange m → l.AbsLe K → r.AbsLe L → 1 ≤ K → 1 ≤ L → K * k ≤ B →
      L * m ≤ B → ∃ b, (common T o p q l r >>= fun z => match z with
        | (x, y) => Fraction.cmp T T o op (.ff x y)) ⇓ b := by
    intro op p q l r K L k m hc hk hm hkr hmr hl hr hK hL hKB hLB
    obtain ⟨x, y, h, ⟨ax, ix, -⟩, ay, iy, -⟩ :=
      common_progress (o := o) hs hc hk hm hkr hmr hl hr hK hL hKB hLB hB1
    obtain ⟨b, hb⟩ := C07_small_cmp_finishes (T := T) (o := o) (a := .ff x y) (B := B) op
      ⟨ix, iy⟩ ⟨ax, ay⟩ hB
    refine ⟨b, ?_⟩
    rw [h]
    simp only [ok_bind_false, Fraction.cmp_self, hb]
  have k1 := fun op => key op hc hk hm hkr hmr hl hr hK hL hKB hLB
  have k2 := fun op => key op ((commonPeriod_comm q p).trans hc) hm hk hmr hkr hr hl hL hK hLB hKB
  have neg : ∀ {e : Res Bool}, (∃ b, e ⇓ b) → ∃ b, (e >>= fun v => pure (!v)) ⇓ b :=
    fun ⟨b, hb⟩ => ⟨!b, by rw [hb, ok_bind_false]; rfl⟩
  cases op with
  | equalTo => exact k1 .equalTo
  | notEqualTo => exact neg (k1 .equalTo)
  | less => exact k1 .less
  | greater => exact k2 .less
  | lessEqual => exact neg (k2 .less)
  | greaterEqual => exact neg (k1 .less)

/-- Periods for the examples: milliseconds, seconds, and frames of 1001/30000 s. -/
private def ms : Period := ⟨1, 1000, by decide, by decide, by decide⟩
private def sec : Period := ⟨1, 1, by decide, by decide, by decide⟩
private def frame : Period := ⟨1001, 30000, by decide, by decide, by decide⟩

/-- **C88** (negation) Under `fast` a comparison answers the reverse when one denominator is
negative: a duration of `1/(-2)` seconds does not compare less than one of 250 milliseconds. -/
theorem C88_wrong_for_negative_denominator :
    ¬ ∀ (T : IntTy) (o : Ops) (op : CmpOp) (p q : Period) (l r : Count) (t u : ℚ) (b : Bool),
      Lasts p l t → Lasts q r u → Chrono.cmp T o op p q l r ⇓ b → (b = true ↔ op.Holds t u) := by
  intro h
  have := h i64 .fast .less sec ms (.frac ⟨1, -2⟩) (.int 250) (-1/2) (1/4) false
    (by norm_num [Lasts, Count.Is, Denotes, Period.seconds, sec])
    (by norm_num [Lasts, Count.Is, Denotes, Period.seconds, ms]) (by decide +kernel)
  norm_num [CmpOp.Holds] at this

/-- A sum, a difference, a quotient and a remainder of durations with different periods. -/
example : commonPeriod frame ms = some ⟨1, 30000, by decide, by decide, by decide⟩ ∧
    Lasts frame (.frac ⟨5, 2⟩) (1001 / 12000) ∧ Lasts ms (.int 40) (1 / 25) ∧
    Chrono.arith i64 .defaults .plus frame ms (.frac ⟨5, 2⟩) (.int 40) ⇓ ⟨7405, 2⟩ ∧
    Chrono.arith i64 .safe .minus frame ms (.frac ⟨5, 2⟩) (.int 40) ⇓ ⟨2605, 2⟩ ∧
    Chrono.arith i64 .defaults .divides frame ms (.frac ⟨5, 2⟩) (.int 40) ⇓ ⟨1001, 480⟩ ∧
    Chrono.arith i64 .defaults .modulus frame ms (.frac ⟨5, 2⟩) (.int 40) ⇓ ⟨205, 2⟩ ∧
    Chrono.arith i64 .fast .divides sec ms (.frac ⟨5, 2⟩) (.int 0) ⇓ ⟨5000, 0⟩ ∧
    Chrono.assign i64 .defaults .plus ms frame ⟨1, 3⟩ (.frac ⟨5, 2⟩) ⇓ ⟨335, 4⟩ ∧
    Chrono.cmp i64 .defaults .less ms frame (.int 33) (.frac ⟨1, 1⟩) ⇓ true ∧
    Chrono.cmp i64 .defaults .lessEqual sec ms (.frac ⟨-1, 2⟩) (.int (-500)) ⇓ true := by
  refine ⟨rfl, ?_, ?_, by decide +kernel, by decide +kernel, by decide +kernel,
    by decide +kernel, by decide +kernel, by decide +kernel, by decide +kernel, by decide +kernel⟩
  · norm_num [Lasts, Count.Is, Denotes, Period.seconds, frame]
  · norm_num [Lasts, Count.Is, Denotes, Period.seconds, ms]

/-- Counts that meet the conditions of `C87_finishes` and `C88_finishes`. -/
example : frame.seconds = (1001 : ℕ) * (1 / 30000) ∧ ms.seconds = (30 : ℕ) * (1 / 30000) ∧
    (Count.frac ⟨5, 2⟩).AbsLe 5 ∧ (Count.int 40).AbsLe 40 ∧ 5 * 1001 ≤ 5005 ∧ 40 * 30 ≤ 5005 ∧
    (2 * (5005 * 5005) : ℤ) ≤ i64.max ∧ i64.InRange (1001 : ℕ) :=
  ⟨by norm_num [Period.seconds, frame], by norm_num [Period.seconds, ms],
    ⟨⟨by decide, by decide⟩, by decide⟩, show (40 : ℤ).natAbs ≤ 40 by decide, by decide, by decide,
    by decide, by decide⟩

/-- Periods without a common type: the least common denominator is too large. -/
example : commonPeriod ⟨1, 9223372036854775807, by decide, by decide, by decide⟩
    ⟨1, 2, by decide, by decide, by decide⟩ = none := rfl

/-- The other operations. -/
example : Chrono.neg i64 .defaults ⟨5, 2⟩ ⇓ ⟨-5, 2⟩ ∧
    scaleInt i64 .defaults .multiplies ⟨5, 2⟩ 4 ⇓ ⟨10, 1⟩ ∧
    scaleInt i64 .defaults .divides ⟨5, 2⟩ (-3) ⇓ ⟨-5, 6⟩ ∧
    scaleFrac i64 .defaults .multiplies ⟨5, 2⟩ ⟨2, 3⟩ ⇓ ⟨5, 3⟩ ∧
    scaleFrac i64 .defaults .divides ⟨5, 2⟩ ⟨2, 3⟩ ⇓ ⟨15, 4⟩ := by decide

end Ieme
