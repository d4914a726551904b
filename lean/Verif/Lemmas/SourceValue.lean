import Verif.Lemmas.Source
import Verif.Lemmas.TypedExpr
import Verif.Lemmas.Silent
import Verif.Props.LiteralExact

/-!
# Lemmas about the values of program text
-/

namespace Ieme.Source

open Overload Lit Res IntTy Parse

variable {e : Src} {a : TExpr} {t : Ty} {q : ℚ} {l : FloatLit}

theorem litValue_of_denotes {f : Raw} (h : Ieme.Denotes f q) : litValue f = some q := by
  simp [litValue, h.1, h.2]

/-! ### Literals are numbers -/

theorem PPNumber.word {p w : List Char} (h : PPNumber p) (hw : ∀ c ∈ w, c ∈ decDigits ++ nondigits) :
    PPNumber (p ++ w) := by
  induction w using List.reverseRecOn with
  | nil => simpa using h
  | append_singleton w c ih =>
    rw [← List.append_assoc]
    exact .ident (ih fun d hd => hw d (by simp [hd])) (hw c (by simp))

theorem PPNumber.digits {D p s : List Char} (h : PPNumber p) (hs : DigitSeq D s)
    (hD : ∀ c ∈ D, c ∈ decDigits ++ nondigits) : PPNumber (p ++ s) := by
  induction hs with
  | digit hd => exact .ident h (hD _ hd)
  | snoc _ hd ih => rw [← List.append_assoc]; exact .ident ih (hD _ hd)
  | sep _ hd ih => rw [← List.append_assoc]; exact .sep ih (hD _ hd)

theorem ppNumber_of_digits {s : List Char} (hs : DigitSeq decDigits s) : PPNumber s := by
  induction hs with
  | digit hd => exact .digit hd
  | snoc _ hd ih => exact .ident ih (by simp [hd])
  | sep _ hd ih => exact .sep ih (by simp [hd])

theorem ppNumber_of_point {s : List Char} (hs : DigitSeq decDigits s) : PPNumber ('.' :: s) := by
  induction hs with
  | digit hd => exact .point hd
  | snoc _ hd ih => exact .ident ih (by simp [hd])
  | sep _ hd ih => exact .sep ih (by simp [hd])

theorem DigitSeq.mono {D E s : List Char} (h : DigitSeq D s) (hD : ∀ c ∈ D, c ∈ E) : DigitSeq E s := by
  induction h with
  | digit hd => exact .digit (hD _ hd)
  | snoc _ hd ih => exact .snoc ih (hD _ hd)
  | sep _ hd ih => exact .sep ih (hD _ hd)

theorem hex_ident : ∀ c ∈ hexDigits, c ∈ decDigits ++ nondigits := by decide +kernel
theorem dec_ident : ∀ c ∈ decDigits, c ∈ decDigits ++ nondigits := by decide +kernel

theorem ppNumber_of_intLit {s : List Char} {n : ℕ} {d : Bool} (h : IntLit s n d) : PPNumber s := by
  cases h with
  | dec h _ => exact ppNumber_of_digits h
  | oct h _ => exact ppNumber_of_digits (DigitSeq.mono h (by decide +kernel))
  | @hex c s hc h =>
    exact PPNumber.digits (p := ['0', c]) (PPNumber.word (p := ['0']) (w := [c]) (.digit (by decide))
      (by simp only [List.mem_cons, List.not_mem_nil, or_false] at hc ⊢
          rintro _ rfl; rcases hc with rfl | rfl <;> decide +kernel)) h hex_ident
  | @bin c s hc h =>
    exact PPNumber.digits (p := ['0', c]) (PPNumber.word (p := ['0']) (w := [c]) (.digit (by decide))
      (by simp only [List.mem_cons, List.not_mem_nil, or_false] at hc ⊢
          rintro _ rfl; rcases hc with rfl | rfl <;> decide +kernel)) h (by decide +kernel)

theorem ppNumber_of_int {s : List Char} {n : ℕ} {T : IntTy} (h : IsLiteral s (.int T n)) :
    PPNumber s := by
  cases h with
  | int h _ => exact ppNumber_of_intLit h
  | suffixed h h' _ =>
    have hu : ∀ a ∈ unsignedSuffixes, ∀ c ∈ a, c ∈ decDigits ++ nondigits := by decide +kernel
    have hl : ∀ a ∈ longSuffixes, ∀ c ∈ a, c ∈ decDigits ++ nondigits := by decide +kernel
    refine (ppNumber_of_intLit h).word fun c hc => ?_
    cases h' with
    | u h => exact hu _ h c hc
    | l h => exact hl _ h c hc
    | ul h h' => exact (List.mem_append.1 hc).elim (hu _ h c) (hl _ h' c)
    | lu h h' => exact (List.mem_append.1 hc).elim (hl _ h' c) (hu _ h c)

theorem digitSet_ident (l : FloatLit) : ∀ c ∈ l.digitSet, c ∈ decDigits ++ nondigits := by
  unfold FloatLit.digitSet
  split
  · exact hex_ident
  · exact dec_ident

theorem ppNumber_of_floatLit (hv : l.Valid) (hp : l.point = true) : PPNumber l.render := by
  have hpre : ∀ c ∈ l.hexPrefix, PPNumber ['0', c] := by
    intro c hc
    refine PPNumber.word (p := ['0']) (w := [c]) (.digit (by decide)) ?_
    simp only [List.mem_cons, List.not_mem_nil, or_false]
    rintro _ rfl
    rcases hv.hexPrefix _ hc with rfl | rfl <;> decide +kernel
  -- up to the digits behind the point
  obtain ⟨p, hr, h1⟩ : ∃ p, l.render = p ++ (match l.exp with | none => [] | some e => e.render) ∧
      PPNumber p := by
    refine ⟨_, rfl, ?_⟩
    rw [if_pos hp]
    rcases hx : l.hexPrefix with _ | c
    · have hset : l.digitSet = decDigits := by simp [FloatLit.digitSet, hx]
      rcases hv.whole with hw | hw
      · rcases hv.frac with hf | hf
        · exact absurd hv.some_digit (by simp [hw, hf])
        · rw [hset] at hf
          simpa [hw] using ppNumber_of_point hf
      · rw [hset] at hw
        have := PPNumber.dot (ppNumber_of_digits hw)
        rcases hv.frac with hf | hf
        · simpa [hf] using this
        · simpa using this.digits hf (digitSet_ident l)
    · have h0 : PPNumber (['0', c] ++ l.whole) := by
        rcases hv.whole with hw | hw
        · simpa [hw] using hpre c hx
        · exact (hpre c hx).digits hw (digitSet_ident l)
      have := PPNumber.dot h0
      rcases hv.frac with hf | hf
      · simpa [hf] using this
      · simpa using this.digits hf (digitSet_ident l)
  rw [hr]
  rcases he : l.exp with _ | x
  · simpa using h1
  · have hm := hv.marker x he
    have hm' : x.marker ∈ ['e', 'E', 'p', 'P'] := by split at hm <;> simp_all <;> tauto
    have hs := hv.sign x he
    have hd := hv.exp_digits x he
    simp only [Lit.Exponent.render]
    rcases hs' : x.sign with _ | c
    · have : PPNumber (p ++ [x.marker]) := .ident h1 (by
        simp only [List.mem_cons, List.not_mem_nil, or_false] at hm'
        rcases hm' with h | h | h | h <;> rw [h] <;> decide +kernel)
      simpa using this.digits hd dec_ident
    · have : PPNumber (p ++ [x.marker, c]) := .sign h1 hm' (by
        rcases hs c hs' with rfl | rfl <;> simp)
      simpa using this.digits hd dec_ident

/-! ### Values -/

theorem dec_inRange {s : List Char} {r : Raw} {w : Bool} (h : dec s = .ok r w) :
    w = false ∧ r.InRange i64 := by
  by_cases hs : IsPointedFloatLit s
  · obtain ⟨l, hv, hp, rfl⟩ := hs
    obtain ⟨a, w1, w2, h1, h2, hw⟩ := bind_eq_ok.1 h
    have hw1 := (toFraction_noWrap (by rfl) (by decide) hv hp).flag h1
    subst hw1
    have hx := toFraction_exact hv hp h1
    rw [if_pos (by simp [Raw.isDefined, hx.1]), pure_eq_ok] at h2
    obtain ⟨rfl, rfl⟩ := h2
    refine ⟨hw, ?_⟩
    obtain ⟨a1, a2, a3, a4, sum, h8, g9⟩ := (C94_literal_iff (by decide) hv hp).1 h1
    have one : i64.InRange 1 := by decide
    refine Ops.arith_inRange (a := .ff _ _) ⟨?_, by split; exacts [⟨a4, one⟩, ⟨one, a4⟩]⟩ g9
    refine Ops.arith_inRange (a := .rf _ _) ⟨?_, ?_, a2⟩ h8
    · have h1 : ((seqValue l.base l.whole : ℕ) : ℤ) < (l.base : ℤ) ^ (Lit.digits l.whole).length := by
        exact_mod_cast seqValue_lt (base_nat l) (whole_seq hv)
      exact ⟨i64.min_le_zero.trans (Int.natCast_nonneg _), h1.le.trans a1.2⟩
    · have h1 : ((seqValue l.base l.frac : ℕ) : ℤ) < (l.base : ℤ) ^ (Lit.digits l.frac).length := by
        exact_mod_cast seqValue_lt (base_nat l) (frac_seq hv)
      exact ⟨i64.min_le_zero.trans (Int.natCast_nonneg _), h1.le.trans a2.2⟩
  · rw [C56_throws hs] at h
    cases h

theorem typed_flag : ∀ {e : Src} {a : TExpr} {w : Bool}, e.typed = .ok a w → w = false := by
  intro e
  induction e with
  | int => intro a w h; simp only [Src.typed, pure_eq_ok] at h; exact h.2
  | fr => intro a w h; simp only [Src.typed, pure_eq_ok] at h; exact h.2
  | dec s =>
    intro a w h
    simp only [Src.typed, bind_eq_ok, pure_eq_ok] at h
    obtain ⟨r, w1, w2, h1, ⟨-, rfl⟩, rfl⟩ := h
    simp [(dec_inRange h1).1]
  | pos e ih =>
    intro a w h
    simp only [Src.typed, bind_eq_ok, pure_eq_ok] at h
    obtain ⟨r, w1, w2, h1, ⟨-, rfl⟩, rfl⟩ := h
    simp [ih h1]
  | neg e ih =>
    intro a w h
    simp only [Src.typed, bind_eq_ok, pure_eq_ok] at h
    obtain ⟨r, w1, w2, h1, ⟨-, rfl⟩, rfl⟩ := h
    simp [ih h1]
  | bin op l r ih1 ih2 =>
    intro a w h
    simp only [Src.typed, bind_eq_ok, pure_eq_ok] at h
    obtain ⟨r, w1, w2, h1, ⟨r', w3, w4, h2, ⟨-, rfl⟩, rfl⟩, rfl⟩ := h
    simp [ih1 h1, ih2 h2]

theorem means_typed (h : Means e t q) : ∀ {a : TExpr} {w : Bool}, e.typed = .ok a w →
    a.ty = some t ∧ a.value = some q := by
  induction h with
  | int =>
    intro a w h; simp only [Src.typed, pure_eq_ok] at h; obtain ⟨rfl, -⟩ := h
    exact ⟨rfl, by simp [TExpr.value, Val.value]⟩
  | fr =>
    intro a w h; simp only [Src.typed, pure_eq_ok] at h; obtain ⟨rfl, -⟩ := h
    exact ⟨rfl, by simp [TExpr.value, Val.value]⟩
  | dec hv hp =>
    intro a w h
    simp only [Src.typed, bind_eq_ok, pure_eq_ok] at h
    obtain ⟨r, w1, w2, h1, ⟨rfl, rfl⟩, rfl⟩ := h
    refine ⟨rfl, ?_⟩
    obtain ⟨-, rfl⟩ := C94_dec_lowest_terms hv hp h1
    refine litValue_of_denotes ⟨?_, ?_⟩
    · simp
    · simp [Rat.num_div_den]
  | pos _ ih =>
    intro a w h
    simp only [Src.typed, bind_eq_ok, pure_eq_ok] at h
    obtain ⟨r, w1, w2, h1, ⟨rfl, rfl⟩, rfl⟩ := h
    exact ih (a := r) h1
  | neg _ ih =>
    intro a w h
    simp only [Src.typed, bind_eq_ok, pure_eq_ok] at h
    obtain ⟨r, w1, w2, h1, ⟨rfl, rfl⟩, rfl⟩ := h
    obtain ⟨h2, h3⟩ := ih h1
    exact ⟨by simp [TExpr.ty, h2], by simp [TExpr.value, h3]⟩
  | bin _ _ ht hz ih1 ih2 =>
    intro a w h
    simp only [Src.typed, bind_eq_ok, pure_eq_ok] at h
    obtain ⟨r, w1, w2, h1, ⟨r', w3, w4, h2, ⟨rfl, rfl⟩, rfl⟩, rfl⟩ := h
    obtain ⟨h3, h4⟩ := ih1 h1
    obtain ⟨h5, h6⟩ := ih2 h2
    exact ⟨by simp [TExpr.ty, h3, h5, ht], by simp [TExpr.value, h3, h4, h5, h6, hz]⟩

theorem apply_lit (T : IntTy) (m n : Int) :
    apply .divides (.int T) (.lit false .defaults) (.int m) (.lit n) =
      (do return .frac (← DenLit.divRep T m ⟨false, n⟩)) := by
  have : resolve .divides (.int T) (.lit false .defaults) =
      .calls .repLit (.ty (.frac T .defaults)) := by rw [resolve_eq]
  simp only [apply, this, call]

theorem eval_quotient {T : IntTy} {x : Src} {a : TExpr} (m : Int) (n : Nat)
    (h1 : x.typed ⇓ a) (h2 : a.ty = some (.int T)) (h3 : a.eval ⇓ .int m) :
    (Src.bin .divides x (.fr n)).eval = (do return .frac (← DenLit.divRep T m ⟨false, n⟩)) := by
  simp only [Src.eval, Src.typed, h1, ok_bind_false, pure_def, TExpr.eval, h2, h3, TExpr.ty]
  exact apply_lit T m n

theorem divRep_clean {T : IntTy} {m n : Int} (h : T.InRange n) :
    DenLit.divRep T m ⟨false, n⟩ ⇓ ⟨m, n⟩ := by
  simp [DenLit.divRep, conv_clean.2 ⟨h, rfl⟩, pure_def, Fraction.mk]

/-! ### Signed types -/

/-- The types of small expressions. -/
def smallTypes : List Ty := [.int i32, .int i64, .frac i32 .defaults, .frac i64 .defaults,
  .lit false .defaults, .lit true .defaults]

theorem smallTypes_bin (op : ArithOp) : ∀ a ∈ smallTypes, ∀ b ∈ smallTypes, ∀ t,
    Ty.bin op a b = some t → t ∈ smallTypes := by
  have : ∀ a ∈ smallTypes, ∀ b ∈ smallTypes, (Ty.bin op a b).all (fun t => decide (t ∈ smallTypes)) := by
    cases op <;> decide +kernel
  intro a ha b hb t ht
  have := this a ha b hb
  simpa [ht] using this

theorem smallTypes_calm : ∀ t ∈ smallTypes, t.calm = true := by decide
theorem smallTypes_neg : ∀ t ∈ smallTypes, t.neg ∈ smallTypes := by decide
theorem smallTypes_addend : ∀ t ∈ smallTypes, ∀ a, Ty.calmAddend t a = true := by
  intro t ht a
  simp only [smallTypes, List.mem_cons, List.not_mem_nil, or_false] at ht
  rcases ht with rfl | rfl | rfl | rfl | rfl | rfl <;> rfl

/-- The expression is one that a literal can stand in: integer literals have one of the types and
fit them. -/
def Src.Fits : Src → Prop
  | .int T n => T ∈ [i32, u32, i64, u64] ∧ T.InRange n
  | .fr n => u64.InRange n
  | .dec _ => True
  | .pos e => e.Fits
  | .neg e => e.Fits
  | .bin _ l r => l.Fits ∧ r.Fits

theorem fits_of_literal {x : List Char} (h : IsLiteral x e) : e.Fits := by
  cases h with
  | @int _ n d T _ hf =>
    refine ⟨?_, by simpa using List.find?_some hf⟩
    have := List.mem_of_find?_eq_some hf
    unfold literalTypes at this
    split at this <;> revert this <;> simp <;> tauto
  | @suffixed _ _ n d u l T _ _ hf =>
    refine ⟨?_, by simpa using List.find?_some hf⟩
    have := List.mem_of_find?_eq_some hf
    revert this
    cases d <;> cases u <;> cases l <;> simp [suffixTypes, literalTypes] <;> tauto
  | fr _ h => exact h
  | dec => trivial

theorem fits_of_additive {ts : List Tok} (h : Additive e ts) : e.Fits :=
  Additive.rec (motive_1 := fun e _ _ => e.Fits) (motive_2 := fun e _ _ => e.Fits)
    (motive_3 := fun e _ _ => e.Fits) (fun _ h => h) (fun _ _ _ h1 h2 => ⟨h1, h2⟩) (fun _ h => h)
    (fun _ _ _ h1 h2 => ⟨h1, h2⟩) fits_of_literal (fun _ h => h) (fun _ h => h) (fun _ h => h) h

theorem typed_wellTyped : ∀ {e : Src} {a : TExpr} {w : Bool}, e.Fits → e.typed = .ok a w →
    a.WellTyped := by
  intro e
  induction e with
  | int =>
    intro a w hf h; simp only [Src.typed, pure_eq_ok] at h; obtain ⟨rfl, -⟩ := h
    exact hf.2
  | fr =>
    intro a w hf h; simp only [Src.typed, pure_eq_ok] at h; obtain ⟨rfl, -⟩ := h
    exact hf
  | dec s =>
    intro a w hf h
    simp only [Src.typed, bind_eq_ok, pure_eq_ok] at h
    obtain ⟨r, w1, w2, h1, ⟨rfl, rfl⟩, rfl⟩ := h
    exact (dec_inRange h1).2
  | pos e ih =>
    intro a w hf h
    simp only [Src.typed, bind_eq_ok, pure_eq_ok] at h
    obtain ⟨r, w1, w2, h1, ⟨rfl, rfl⟩, rfl⟩ := h
    exact ih (a := r) hf h1
  | neg e ih =>
    intro a w hf h
    simp only [Src.typed, bind_eq_ok, pure_eq_ok] at h
    obtain ⟨r, w1, w2, h1, ⟨rfl, rfl⟩, rfl⟩ := h
    exact ih (a := r) hf h1
  | bin op l r ih1 ih2 =>
    intro a w hf h
    simp only [Src.typed, bind_eq_ok, pure_eq_ok] at h
    obtain ⟨r, w1, w2, h1, ⟨r', w3, w4, h2, ⟨rfl, rfl⟩, rfl⟩, rfl⟩ := h
    exact ⟨ih1 hf.1 h1, ih2 hf.2 h2⟩

theorem typed_calm : ∀ {e : Src} {a : TExpr} {w : Bool}, e.Fits → e.Small → e.typed = .ok a w →
    a.calm = true ∧ ∀ t, a.ty = some t → t ∈ smallTypes := by
  intro e
  induction e with
  | int T n =>
    intro a w hf hs h; simp only [Src.typed, pure_eq_ok] at h; obtain ⟨rfl, -⟩ := h
    refine ⟨rfl, ?_⟩
    rintro t ⟨⟩
    have := hf.1
    simp only [List.mem_cons, List.not_mem_nil, or_false] at this
    simp only [Src.Small] at hs
    rcases this with rfl | rfl | rfl | rfl <;> revert hs <;> decide
  | fr n =>
    intro a w hf hs h; simp only [Src.typed, pure_eq_ok] at h; obtain ⟨rfl, -⟩ := h
    simp only [Src.Small] at hs
    refine ⟨by simp [TExpr.calm]; omega, ?_⟩
    rintro t ⟨⟩
    decide
  | dec s =>
    intro a w hf hs h
    simp only [Src.typed, bind_eq_ok, pure_eq_ok] at h
    obtain ⟨r, w1, w2, h1, ⟨rfl, rfl⟩, rfl⟩ := h
    refine ⟨rfl, ?_⟩
    rintro t ⟨⟩
    decide
  | pos e ih =>
    intro a w hf hs h
    simp only [Src.typed, bind_eq_ok, pure_eq_ok] at h
    obtain ⟨r, w1, w2, h1, ⟨rfl, rfl⟩, rfl⟩ := h
    exact ih (a := r) hf hs h1
  | neg e ih =>
    intro a w hf hs h
    simp only [Src.typed, bind_eq_ok, pure_eq_ok] at h
    obtain ⟨r, w1, w2, h1, ⟨rfl, rfl⟩, rfl⟩ := h
    obtain ⟨h2, h3⟩ := ih (a := r) hf hs h1
    simp only [TExpr.calm, TExpr.ty, h2, Bool.true_and]
    cases ht : r.ty with
    | none => simp
    | some t =>
      simp only [Option.all_some, Option.map_some, Option.some.injEq, forall_eq']
      exact ⟨smallTypes_calm t (h3 t ht), smallTypes_neg t (h3 t ht)⟩
  | bin op l r ih1 ih2 =>
    intro a w hf hs h
    simp only [Src.typed, bind_eq_ok, pure_eq_ok] at h
    obtain ⟨r, w1, w2, h1, ⟨r', w3, w4, h2, ⟨rfl, rfl⟩, rfl⟩, rfl⟩ := h
    obtain ⟨h3, h4⟩ := ih1 hf.1 hs.1 h1
    obtain ⟨h5, h6⟩ := ih2 hf.2 hs.2 h2
    have hty : ∀ t, (TExpr.bin op r r').ty = some t → t ∈ smallTypes := by
      intro t ht
      simp only [TExpr.ty, Option.bind_eq_some_iff] at ht
      obtain ⟨a, ha, b, hb, ht⟩ := ht
      exact smallTypes_bin op a (h4 a ha) b (h6 b hb) t ht
    refine ⟨?_, hty⟩
    simp only [TExpr.calm, h3, h5, Bool.true_and]
    cases ht : (TExpr.bin op r r').ty with
    | none => rfl
    | some t =>
      simp only [Option.all_some, smallTypes_calm t (hty t ht), Bool.true_and, Bool.and_eq_true]
      exact ⟨by cases r.ty <;> simp [smallTypes_addend t (hty t ht)],
        by cases r'.ty <;> simp [smallTypes_addend t (hty t ht)]⟩

end Ieme.Source
