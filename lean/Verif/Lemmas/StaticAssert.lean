import Verif.Lemmas.TypedSign
import Verif.Spec.StaticAssert
import Verif.Props.Source
import Verif.Props.Arith

/-!
# Lemmas about `static_assert`
-/

namespace Ieme.Source

open Overload Lit Res IntTy

variable {text a b : List Char} {ts : List Tok} {op : CmpOp} {e l r : Src} {t s : Ty} {q x y : ℚ}
  {v u : Val}

/-! ### Reading -/

theorem ppNumber_noCmp (h : PPNumber a) : ∀ c ∈ a, isCmpChar c = false := by
  have hd : ∀ c ∈ decDigits, isCmpChar c = false := by decide +kernel
  have hi : ∀ c ∈ decDigits ++ nondigits, isCmpChar c = false := by decide +kernel
  have he : ∀ c ∈ ['e', 'E', 'p', 'P'], isCmpChar c = false := by decide +kernel
  have hs : ∀ c ∈ ['+', '-'], isCmpChar c = false := by decide +kernel
  induction h with
  | digit h => simpa using hd _ h
  | point h =>
    intro c hc
    simp only [List.mem_cons, List.not_mem_nil, or_false] at hc
    rcases hc with rfl | rfl
    · decide
    · exact hd _ h
  | ident _ h ih =>
    intro c hc
    simp only [List.mem_append, List.mem_cons, List.not_mem_nil, or_false] at hc
    rcases hc with hc | rfl
    · exact ih c hc
    · exact hi _ h
  | sep _ h ih =>
    intro c hc
    simp only [List.mem_append, List.mem_cons, List.not_mem_nil, or_false] at hc
    rcases hc with hc | rfl | rfl
    · exact ih c hc
    · decide
    · exact hi _ h
  | sign _ h1 h2 ih =>
    intro c hc
    simp only [List.mem_append, List.mem_cons, List.not_mem_nil, or_false] at hc
    rcases hc with hc | rfl | rfl
    · exact ih c hc
    · exact he _ h1
    · exact hs _ h2
  | dot _ ih =>
    intro c hc
    simp only [List.mem_append, List.mem_cons, List.not_mem_nil, or_false] at hc
    rcases hc with hc | rfl
    · exact ih c hc
    · decide

theorem lexes_noCmp (h : Lexes text ts) : ∀ c ∈ text, isCmpChar c = false := by
  have hb : ∀ c ∈ blanks, isCmpChar c = false := by decide +kernel
  have hs : ∀ p ∈ symbols, isCmpChar p.1 = false := by decide +kernel
  induction h with
  | nil => simp
  | blank h _ ih =>
    intro c hc
    rcases List.mem_cons.1 hc with rfl | hc
    · exact hb _ h
    · exact ih c hc
  | num h _ _ ih =>
    intro c hc
    rcases List.mem_append.1 hc with hc | hc
    · exact ppNumber_noCmp h c hc
    · exact ih c hc
  | symbol h _ _ ih =>
    intro c hc
    rcases List.mem_cons.1 hc with rfl | hc
    · exact hs _ h
    · exact ih c hc

theorem spells_iff : Spells text e ↔ compile text = some e := C140_compile_iff.symm

theorem readCmp_eq (h : readCmp text = some (op, b)) : text = cmpText op ++ b := by
  unfold readCmp at h
  split at h <;> cases h <;> rfl

theorem readCmp_text (h : ∀ c ∈ b, isCmpChar c = false) : readCmp (cmpText op ++ b) = some (op, b) := by
  have : ∀ {c t}, b = c :: t → c ≠ '=' := by
    rintro c t rfl rfl
    have := h '=' (by simp)
    revert this
    decide
  cases op <;> try rfl
  all_goals
    simp only [cmpText, List.cons_append, List.nil_append]
    unfold readCmp
    split <;> simp_all

theorem cmpText_head (op : CmpOp) : ∃ c w, cmpText op = c :: w ∧ isCmpChar c = true := by
  cases op <;> exact ⟨_, _, rfl, by decide⟩

theorem compileCmp_iff : compileCmp text = some (op, l, r) ↔ SpellsCmp text op l r := by
  constructor
  · intro h
    simp only [compileCmp, Option.bind_eq_some_iff, Option.map_eq_some_iff] at h
    obtain ⟨⟨op', b⟩, h1, l', h2, r', h3, h4⟩ := h
    cases h4
    refine ⟨_, b, ?_, spells_iff.2 h2, spells_iff.2 h3⟩
    rw [List.append_assoc, ← readCmp_eq h1, List.takeWhile_append_dropWhile]
  · rintro ⟨a, b, rfl, ha, hb⟩
    obtain ⟨c, w, hc, hcc⟩ := cmpText_head op
    have na : ∀ c ∈ a, isCmpChar c = false := by
      obtain ⟨ts, h, -⟩ := ha
      exact lexes_noCmp h
    have nb : ∀ c ∈ b, isCmpChar c = false := by
      obtain ⟨ts, h, -⟩ := hb
      exact lexes_noCmp h
    have e1 : (a ++ cmpText op ++ b).takeWhile (fun c => !isCmpChar c) = a := by
      rw [List.append_assoc, List.takeWhile_append_of_pos (by simpa using na), hc]
      simp [hcc]
    have e2 : (a ++ cmpText op ++ b).dropWhile (fun c => !isCmpChar c) = cmpText op ++ b := by
      rw [List.append_assoc, List.dropWhile_append_of_pos (by simpa using na), hc]
      simp [hcc]
    simp only [compileCmp, e1, e2, readCmp_text nb, spells_iff.1 ha, spells_iff.1 hb,
      Option.bind_some, Option.map_some]

/-! ### Values -/

theorem staticAssert_holds : staticAssert text = .holds ↔ ∃ w, runTest text = .ok true w := by
  unfold staticAssert
  split <;> simp_all

theorem staticAssert_fails : staticAssert text = .fails ↔ ∃ w, runTest text = .ok false w := by
  unfold staticAssert
  split <;> simp_all

theorem staticAssert_rejected : staticAssert text = .rejected ↔ ∃ k, runTest text = .fault k := by
  unfold staticAssert
  split <;> simp_all

theorem runTest_eq (h : SpellsCmp text op l r) : runTest text = test op l r := by
  rw [runTest, compileCmp_iff.2 h]

theorem test_ok {d w : Bool} (h : test op l r = .ok d w) :
    ∃ a b s t u v w1 w2 w3, l.typed = .ok a false ∧ r.typed = .ok b false ∧ a.ty = some s ∧
      b.ty = some t ∧ a.eval = .ok u w1 ∧ b.eval = .ok v w2 ∧ compare op s t u v = .ok d w3 ∧
      w = (w1 || (w2 || w3)) := by
  simp only [test, bind_eq_ok] at h
  obtain ⟨a, w1, w2, h1, ⟨b, w3, w4, h2, h3, rfl⟩, rfl⟩ := h
  cases typed_flag h1
  cases typed_flag h2
  unfold compareTyped at h3
  split at h3
  · rename_i s t hs ht
    simp only [bind_eq_ok] at h3
    obtain ⟨u, w5, w6, h4, ⟨v, w7, w8, h5, h6, rfl⟩, rfl⟩ := h3
    exact ⟨a, b, s, t, u, v, w5, w7, w8, h1, h2, hs, ht, h4, h5, h6, by simp⟩
  · cases h3

theorem compare_noWrap (hs : s ∈ smallTypes) (ht : t ∈ smallTypes) (hu : u.HasTy s) (hv : v.HasTy t) :
    (compare op s t u v).NoWrap := by
  have i3 : IntTy.common i32 i64 = i64 := by decide
  have i4 : IntTy.common i64 i32 = i64 := by decide
  have wide : ∀ {n : ℤ}, i32.InRange n → i64.InRange n := fun h =>
    ⟨(by decide : i64.min ≤ i32.min).trans h.1, h.2.trans (by decide)⟩
  unfold Overload.compare
  split
  · rename_i A B m n
    have : (IntTy.common A B).InRange m ∧ (IntTy.common A B).InRange n := by
      simp only [smallTypes, List.mem_cons, List.not_mem_nil, or_false, Ty.int.injEq, reduceCtorEq]
        at hs ht
      rcases hs with rfl | rfl <;> rcases ht with rfl | rfl
      · exact ⟨hu, hv⟩
      · rw [i3]; exact ⟨wide hu, hv⟩
      · rw [i4]; exact ⟨hu, wide hv⟩
      · exact ⟨hu, hv⟩
    exact .bind (conv_noWrap this.1) fun _ => .bind (conv_noWrap this.2) fun _ => .pure _
  all_goals try exact .fault _
  all_goals
    split <;> first | exact .fault _ | skip
    refine cmp_common_noWrap ?_ ?_ _
    · simp only [smallTypes, List.mem_cons, List.not_mem_nil, or_false, Ty.int.injEq,
        Ty.frac.injEq, reduceCtorEq, false_or] at hs ht
      obtain h1 | h1 := hs <;> obtain h2 | h2 := ht <;> simp only [h1, h2] <;> decide
    · exact ⟨hu, hv⟩

theorem fits_of_spells (h : Spells text e) : e.Fits := by
  obtain ⟨ts, -, h⟩ := h
  exact fits_of_additive h

/-- Nothing is converted silently. -/
theorem test_flag {d w : Bool} (hl : l.Fits) (hr : r.Fits) (sl : l.Small) (sr : r.Small)
    (h : test op l r = .ok d w) : w = false := by
  obtain ⟨a, b, s, t, u, v, w1, w2, w3, h1, h2, h3, h4, h5, h6, h7, rfl⟩ := test_ok h
  have ta := typed_wellTyped hl h1
  have tb := typed_wellTyped hr h2
  obtain ⟨ca, sa⟩ := typed_calm hl sl h1
  obtain ⟨cb, sb⟩ := typed_calm hr sr h2
  have e1 := (C123_typed_expressions ta ca h5).1
  have e2 := (C123_typed_expressions tb cb h6).1
  obtain ⟨s', g1, g2⟩ := C121_type_sound ta h5
  obtain ⟨t', g3, g4⟩ := C121_type_sound tb h6
  rw [h3] at g1
  rw [h4] at g3
  cases g1
  cases g3
  have e3 := (compare_noWrap (op := op) (sa _ h3) (sb _ h4) g2 g4).flag h7
  simp [e1, e2, e3]

/-! ### Signs -/

/-- The types that occur in program text. -/
def IsTextTy : Ty → Prop
  | .int _ => True
  | .frac _ o => o = .defaults
  | .lit _ o => o = .defaults
  | .mixed _ _ _ => False

theorem bin_textTy {o : ArithOp} {s t t' : Ty} (hs : IsTextTy s) (ht : IsTextTy t)
    (h : Ty.bin o s t = some t') : (∃ T, t' = .int T) ∨ ∃ T, t' = .frac T .defaults := by
  cases s <;> cases t <;> cases o <;> simp only [IsTextTy] at hs ht <;> subst_vars <;>
    simp [Ty.bin, resolve_eq] at h <;> subst_vars <;> simp

theorem means_textTy (h : Means e t q) : IsTextTy t := by
  induction h with
  | int => trivial
  | fr => rfl
  | dec => rfl
  | pos _ ih => exact ih
  | @neg _ t _ _ ih => cases t <;> exact ih
  | bin _ _ ht _ ih1 ih2 =>
    rcases bin_textTy ih1 ih2 ht with ⟨T, rfl⟩ | ⟨T, rfl⟩
    · trivial
    · rfl

theorem isFr_of_means (h : Means e t q) : (∃ z o, t = .lit z o) → e.IsFr := by
  induction h with
  | int => rintro ⟨_, _, ⟨⟩⟩
  | fr => exact fun _ => trivial
  | dec => rintro ⟨_, _, ⟨⟩⟩
  | pos _ ih => exact ih
  | @neg _ t _ _ ih =>
    rintro ⟨z, o, h⟩
    cases t <;> cases h
    exact ih ⟨_, _, rfl⟩
  | bin h1 h2 ht _ _ _ =>
    rintro ⟨z, o, rfl⟩
    rcases bin_textTy (means_textTy h1) (means_textTy h2) ht with ⟨T, h⟩ | ⟨T, h⟩ <;> cases h

theorem isFr_nonneg (h : Means e t q) (hp : e.Plain) (hf : e.IsFr) : 0 ≤ q := by
  induction h with
  | int => exact hf.elim
  | fr => exact Nat.cast_nonneg _
  | dec => exact hf.elim
  | pos _ ih => exact ih hp hf
  | neg _ ih => exact absurd hf hp.2
  | bin => exact hf.elim

theorem defaults_normalizes : Ops.defaults.NormalizesOutput := trivial

theorem divisorOk_of_plain (h1 : Means l s x) (h2 : Means r t y) (hp : r.Plain) (hy : y ≠ 0)
    (ht : ∃ t', Ty.bin .divides s t = some t') : DivisorOk s t y := by
  have k1 := means_textTy h1
  have k2 := means_textTy h2
  obtain ⟨t', ht⟩ := ht
  cases s with
  | int =>
    cases t with
    | int => trivial
    | frac => cases k2; exact .inr defaults_normalizes
    | lit => exact lt_of_le_of_ne (isFr_nonneg h2 hp (isFr_of_means h2 ⟨_, _, rfl⟩)) hy.symm
    | mixed => exact k2.elim
  | frac => cases k1; cases t <;> exact .inr defaults_normalizes
  | lit =>
    cases t
    · simp [Ty.bin, resolve_eq] at ht
    · simp [Ty.bin, resolve_eq] at ht
    · exact k2.elim
    · simp [Ty.bin, resolve_eq] at ht
  | mixed => exact k1.elim

theorem dec_upright {w : List Char} {f : Raw} {z : Bool} (h : Parse.dec w = .ok f z) {l : FloatLit}
    (hw : w = l.render) (hv : l.Valid) (hp : l.point = true) : 0 < f.den := by
  subst hw
  obtain ⟨-, rfl⟩ := C94_dec_lowest_terms hv hp h
  simp [Rat.den_pos]

/-- Without signs at `_fr` literals, denominators are positive. -/
theorem means_upright (h : Means e t q) (hp : e.Plain) : ∀ {a : TExpr} {v : Val}, e.typed ⇓ a →
    a.eval ⇓ v → v.Upright := by
  induction h with
  | int =>
    intro a v h1 h2
    simp only [Src.typed, pure_eq_ok] at h1
    obtain ⟨rfl, -⟩ := h1
    obtain ⟨rfl, -⟩ := pure_eq_ok.1 h2
    trivial
  | fr =>
    intro a v h1 h2
    simp only [Src.typed, pure_eq_ok] at h1
    obtain ⟨rfl, -⟩ := h1
    obtain ⟨rfl, -⟩ := pure_eq_ok.1 h2
    trivial
  | dec hv hd =>
    intro a v h1 h2
    simp only [Src.typed, bind_eq_clean, pure_eq_ok, and_true] at h1
    obtain ⟨f, h1, rfl⟩ := h1
    obtain ⟨rfl, -⟩ := pure_eq_ok.1 h2
    exact dec_upright h1 rfl hv hd
  | pos _ ih =>
    intro a v h1 h2
    simp only [Src.typed, bind_eq_clean, pure_eq_ok, and_true] at h1
    obtain ⟨b, h1, rfl⟩ := h1
    exact ih hp h1 h2
  | neg _ ih =>
    intro a v h1 h2
    simp only [Src.typed, bind_eq_clean, pure_eq_ok, and_true] at h1
    obtain ⟨b, h1, rfl⟩ := h1
    rw [TExpr.eval] at h2
    split at h2
    · obtain ⟨u, h3, h4⟩ := bind_eq_clean.1 h2
      exact negate_upright h4 (ih hp.1 h1 h3)
    · cases h2
  | @bin o l r s t t' x y z m1 m2 ht hz ih1 ih2 =>
    intro a v h1 h2
    simp only [Src.typed, bind_eq_clean, pure_eq_ok, and_true] at h1
    obtain ⟨b, h1, c, h3, rfl⟩ := h1
    obtain ⟨tb, vb⟩ := means_typed m1 h1
    obtain ⟨tc, vc⟩ := means_typed m2 h3
    simp only [TExpr.eval, tb, tc, bind_eq_clean] at h2
    obtain ⟨u, hu, u', hu', h2⟩ := h2
    refine apply_upright h2 (C121_exact hu vb) (C121_exact hu' vc) hz (ih1 hp.1 h1 hu)
      (ih2 hp.2 h3 hu') ?_
    rintro rfl
    refine divisorOk_of_plain m1 m2 hp.2 ?_ ⟨_, ht⟩
    rintro rfl
    unfold binValue at hz
    split at hz <;> simp [ArithOp.value] at hz

/-- A comparison that is evaluated cleanly is exact. -/
theorem test_exact {d : Bool} (ml : Means l s x) (mr : Means r t y)
    (hs : Reliable op (some s) (some t) ∨ l.Plain ∧ r.Plain) (h : test op l r ⇓ d) :
    d = true ↔ op.Holds x y := by
  obtain ⟨a, b, s', t', u, v, w1, w2, w3, h1, h2, h3, h4, h5, h6, h7, h8⟩ := test_ok h
  have hw : w1 = false ∧ w2 = false ∧ w3 = false := by
    revert h8
    cases w1 <;> cases w2 <;> cases w3 <;> decide
  obtain ⟨rfl, rfl, rfl⟩ := hw
  obtain ⟨ta, va⟩ := means_typed ml h1
  obtain ⟨tb, vb⟩ := means_typed mr h2
  rw [h3] at ta
  rw [h4] at tb
  cases ta
  cases tb
  rcases hs with hs | ⟨p1, p2⟩
  · exact compare_exact h7 hs (C121_exact h5 va) (C121_exact h6 vb)
  · exact compare_upright h7 (C121_exact h5 va) (C121_exact h6 vb) (means_upright ml p1 h1 h5)
      (means_upright mr p2 h2 h6)

/-! ### Two fractions -/

/-- `n/d_fr` -/
abbrev quotient (n d : ℕ) : Src := .bin .divides (.int i32 n) (.fr d)

theorem quotient_eval {n d : ℕ} (hd : i32.InRange d) : ∃ c, (quotient n d).typed ⇓ c ∧
    c.ty = some (.frac i32 .defaults) ∧ c.eval ⇓ .frac ⟨n, d⟩ := by
  refine ⟨_, rfl, (by decide : Ty.bin .divides (.int i32) (.lit false .defaults) = _), ?_⟩
  have := eval_quotient (T := i32) n d (x := .int i32 n) (a := .leaf (.int i32) (.int n)) rfl rfl rfl
  rw [divRep_clean hd, ok_bind_false] at this
  simpa only [Src.eval, Src.typed, pure_def, ok_bind_false] using this

theorem quotient_means {n d : ℕ} (hd : d ≠ 0) :
    Means (quotient n d) (.frac i32 .defaults) ((n : ℚ) / d) := by
  refine .bin .int .fr (by decide) ?_
  have : (d : ℚ) ≠ 0 := by exact_mod_cast hd
  simp [binValue, ArithOp.value, this]

theorem quotient_spells {b w₁ w₂ : List Char} {n d : ℕ} {da db : Bool} (ha : IntLit a n da)
    (hb : IntLit b d db) (hn : i32.InRange n) (hd : i32.InRange d) (h1 : ∀ c ∈ w₁, c ∈ blanks)
    (h2 : ∀ c ∈ w₂, c ∈ blanks) :
    Spells (w₁ ++ a ++ '/' :: (b ++ "_fr".toList) ++ w₂) (quotient n d) := by
  have hu : u64.InRange d :=
    ⟨(by decide : u64.min ≤ 0).trans (Int.natCast_nonneg d), hd.2.trans (by decide)⟩
  have hl : Laid [.num a, .slash, .num (b ++ "_fr".toList)]
      (a ++ '/' :: (b ++ "_fr".toList) ++ w₂) := by
    have := Laid.cons (k := .num a) (w := []) (by simp) (by simp [Apart])
      (by rintro x ⟨⟩; exact ppNumber_of_intLit ha)
      (Laid.cons (k := .slash) (w := []) (by simp) (by simp [Apart]) (by rintro x ⟨⟩)
      (Laid.cons (k := .num (b ++ "_fr".toList)) (w := w₂) h2 (by simp)
        (by rintro x ⟨⟩; exact (ppNumber_of_intLit hb).word (by decide +kernel)) .nil))
    simpa [Tok.text] using this
  have hT : (literalTypes da).find? (fun T => decide (T.InRange n)) = some i32 := by
    cases da <;> simp [literalTypes, hn]
  rw [spells_iff, List.append_assoc w₁, List.append_assoc w₁]
  refine C140_layout h1 (by simpa using hl) ?_
  exact .up (.bin (a := [.num a]) (b := [.num (b ++ "_fr".toList)]) (by simp [multiplicative])
    (.up (.literal (.int ha hT))) (.literal (.fr hb hu)))

theorem test_quotients {n d m k : ℕ} (hn : n ≤ 46340) (hd : d ≤ 46340) (hm : m ≤ 46340)
    (hk : k ≤ 46340) : ∃ z, test op (quotient n d) (quotient m k) ⇓ z := by
  have hi : ∀ {j : ℕ}, j ≤ 46340 → i32.InRange j := by
    intro j hj
    exact i32_inRange.2 ⟨by omega, by omega⟩
  obtain ⟨c, c1, c2, c3⟩ := quotient_eval (n := n) (hi hd)
  obtain ⟨e, e1, e2, e3⟩ := quotient_eval (n := m) (hi hk)
  have hr : (Args.ff ⟨n, d⟩ ⟨m, k⟩).InRange i32 := ⟨⟨hi hn, hi hd⟩, hi hm, hi hk⟩
  obtain ⟨z, hz⟩ := C07_small_cmp_finishes (o := .defaults) (B := 46340) op hr
    ⟨⟨by simpa using hn, by simpa using hd⟩, by simpa using hm, by simpa using hk⟩ (by decide)
  refine ⟨z, ?_⟩
  have hc : IntTy.common i32 i32 = i32 := by decide
  simp only [test, compareTyped, c1, c2, c3, e1, e2, e3, ok_bind_false, Overload.compare,
    resolveCmp_eq, if_true, Fraction.cmp]
  rw [hc, Fraction.toCommon_of_inRange (by rw [hc]; exact hr), ok_bind_false, hz]

end Ieme.Source
