import Verif.Spec.StreamOut
import Verif.Props.StreamFmt

namespace Ieme.Stream

variable {s : OStream} {cs ds : List Char} {fl : Flags} {T : IntTy} {m : OMask}

theorem OStream.insert_bad (h : s.good = false) : s.insert cs = { s with fail := true } := by
  simp [OStream.insert, h]

theorem OStream.insert_good (h : s.good = true) :
    s.insert cs = ⟨s.text ++ s.cut cs, s.room.map (· - cs.length), 0,
      !decide (s.Takes cs.length), false⟩ := by
  have hb : s.bad = false ∧ s.fail = false := by simpa [OStream.good] using h
  obtain ⟨text, room, width, bad, fail⟩ := s
  obtain ⟨rfl, rfl⟩ := hb
  cases room with
  | none =>
    have : OStream.Takes ⟨text, none, width, false, false⟩ cs.length := fun k e => by cases e
    simp [OStream.insert, OStream.good, OStream.send, OStream.cut, this]
  | some k =>
    have : OStream.Takes ⟨text, some k, width, false, false⟩ cs.length ↔ cs.length ≤ k :=
      ⟨fun e => e k rfl, fun e k' h => by cases h; exact e⟩
    by_cases hk : cs.length ≤ k
    · simp [OStream.insert, OStream.good, OStream.send, OStream.cut, this, hk,
        List.take_of_length_le hk]
    · simp [OStream.insert, OStream.good, OStream.send, OStream.cut, this, hk]
      omega

/-- Two texts one after the other. -/
theorem OStream.insert_insert (h : s.good = true) :
    (s.insert cs).insert ds = ⟨s.text ++ s.cut (cs ++ ds), s.room.map (· - (cs ++ ds).length), 0,
      !decide (s.Takes (cs ++ ds).length), !decide (s.Takes cs.length)⟩ := by
  have e := insert_good (cs := cs) h
  by_cases ht : s.Takes cs.length
  · have hg : (s.insert cs).good = true := by rw [e]; simp [OStream.good, ht]
    rw [insert_good hg, e]
    obtain ⟨text, room, width, bad, fail⟩ := s
    cases room with
    | none => 
      have : ∀ {t w b f n}, OStream.Takes ⟨t, none, w, b, f⟩ n := fun k e => by cases e
      simp [OStream.cut, this]
    | some k =>
      have hh : ∀ {t w b f k n}, OStream.Takes ⟨t, some k, w, b, f⟩ n ↔ n ≤ k :=
        ⟨fun e => e _ rfl, fun e k' h => by cases h; exact e⟩
      simp only [hh] at ht ⊢
      simp only [OStream.cut, hh, Option.map_some, List.length_append, List.take_append,
        List.append_assoc, ht, decide_true, Bool.not_true, OStream.mk.injEq, true_and,
        Bool.not_inj_iff, decide_eq_decide, and_true]
      simp only [Option.some.injEq]
      omega
  · have hg : (s.insert cs).good = false := by rw [e]; simp [OStream.good, ht]
    rw [insert_bad hg, e]
    obtain ⟨text, room, width, bad, fail⟩ := s
    cases room with
    | none => exact (ht fun k e => by cases e).elim
    | some k =>
      have hh : ∀ {t w b f k n}, OStream.Takes ⟨t, some k, w, b, f⟩ n ↔ n ≤ k :=
        ⟨fun e => e _ rfl, fun e k' h => by cases h; exact e⟩
      simp only [hh] at ht ⊢
      have h1 : ds.take (k - cs.length) = [] := by
        rw [show k - cs.length = 0 by omega]; rfl
      have h2 : ¬ cs.length + ds.length ≤ k := by omega
      simp only [OStream.cut, Option.map_some, List.length_append, List.take_append, h1,
        List.append_nil, ht, h2, decide_false, Bool.not_false, OStream.mk.injEq, true_and,
        and_true, Option.some.injEq]
      omega

theorem OStream.Takes.mono {n k : ℕ} (h : s.Takes k) (hn : n ≤ k) : s.Takes n :=
  fun _ e => hn.trans (h _ e)

theorem OStream.insert_three {es : List Char} (h : s.good = true) :
    ((s.insert cs).insert ds).insert es = (s.insert (cs ++ ds)).insert es := by
  have e1 := insert_insert (cs := cs) (ds := ds) h
  have e2 := insert_good (cs := cs ++ ds) h
  by_cases ht : s.Takes (cs ++ ds).length
  · have : s.Takes cs.length := ht.mono (by simp)
    rw [e1, e2]
    simp [this]
  · have h1 : ((s.insert cs).insert ds).good = false := by
      rw [e1]; simp only [OStream.good, ht, decide_false, Bool.not_false, Bool.not_true, Bool.false_and]
    have h2 : (s.insert (cs ++ ds)).good = false := by
      rw [e2]; simp only [OStream.good, ht, decide_false, Bool.not_false, Bool.not_true, Bool.false_and]
    rw [insert_bad h1, insert_bad h2, e1, e2]

theorem OStream.write_eq {f : Raw} (h : s.good = true) : s.write fl T f =
    (s.insert (put fl s.width T f.num ++ ['/'])).insert (put fl 0 T f.den) := by
  have w1 : (s.insert (put fl s.width T f.num)).width = 0 := by rw [insert_good h]
  have e1 : (s.putInt fl T f.num).putChar fl '/' =
      (s.insert (put fl s.width T f.num)).insert ['/'] := by
    simp only [OStream.putChar, OStream.putInt, w1]
    congr 1
    simp
  have w2 : ((s.insert (put fl s.width T f.num)).insert ['/']).width = 0 := by
    rw [insert_insert h]
  rw [OStream.write, e1, OStream.putInt, w2, insert_three h]

theorem OStream.insert_good_iff (h : s.good = true) :
    (s.insert cs).good = true ↔ s.Takes cs.length := by
  rw [insert_good h]; simp [OStream.good]

theorem OStream.cut_append (h : s.good = true) (hc : s.Takes cs.length) :
    s.cut (cs ++ ds) = s.cut cs ++ (s.insert cs).cut ds ∧
    (s.Takes (cs ++ ds).length ↔ (s.insert cs).Takes ds.length) := by
  have e := insert_insert (cs := cs) (ds := ds) h
  rw [insert_good ((insert_good_iff h).2 hc), OStream.mk.injEq] at e
  obtain ⟨e1, -, -, e2, -⟩ := e
  constructor
  · rw [insert_good h] at e1 ⊢
    simpa using e1.symm
  · simpa using e2.symm

theorem OStream.cut_of_not_takes (hc : ¬ s.Takes cs.length) : s.cut (cs ++ ds) = s.cut cs := by
  unfold OStream.cut
  unfold OStream.Takes at hc
  cases hr : s.room with
  | none => exact (hc fun k e => by rw [hr] at e; cases e).elim
  | some k =>
    have hk : k ≤ cs.length := by
      by_contra h
      exact hc fun k' e => by rw [hr] at e; cases e; omega
    simp only [List.take_append_of_le_length hk]

/-- A fraction and a separator. -/
theorem OStream.write_sep {f : Raw} {sep : Char} (hw : s.width = 0) (h : s.good = true) :
    (s.write fl T f).putChar fl sep =
      ((s.insert (put fl 0 T f.num ++ ['/'])).insert (put fl 0 T f.den)).insert [sep] := by
  rw [write_eq h, hw]
  have : ((s.insert (put fl 0 T f.num ++ ['/'])).insert (put fl 0 T f.den)).width = 0 := by
    rw [insert_insert h]
  rw [OStream.putChar, this]
  congr 1
  simp

theorem OStream.write_sep_good {f : Raw} {sep : Char} (hw : s.width = 0) (h : s.good = true)
    (ht : s.Takes (writeF fl 0 T f ++ [sep]).length) :
    (s.write fl T f).putChar fl sep = s.insert (writeF fl 0 T f ++ [sep]) := by
  have e : put fl 0 T f.num ++ ['/'] ++ put fl 0 T f.den = writeF fl 0 T f := by
    simp [writeF]
  rw [write_sep hw h, insert_three h, e, insert_insert h, insert_good h]
  simp only [ht.mono (by simp : (writeF fl 0 T f).length ≤ _), decide_true, Bool.not_true]

theorem OStream.write_sep_bad {f : Raw} {sep : Char} (hw : s.width = 0) (h : s.good = true)
    (ht : ¬ s.Takes (writeF fl 0 T f ++ [sep]).length) :
    ((s.write fl T f).putChar fl sep).good = false ∧
    ((s.write fl T f).putChar fl sep).text = s.text ++ s.cut (writeF fl 0 T f ++ [sep]) := by
  have e : put fl 0 T f.num ++ ['/'] ++ put fl 0 T f.den = writeF fl 0 T f := by
    simp [writeF]
  rw [write_sep hw h, insert_three h, e, insert_insert h]
  refine ⟨?_, rfl⟩
  simp only [OStream.good, ht, decide_false, Bool.not_false, Bool.not_true, Bool.false_and]

/-- Digits are written. -/
theorem digitsIn_ne_nil (b : Base) (u : Bool) (n : ℕ) : digitsIn b u n ≠ [] := by
  unfold digitsIn
  split <;> simp

theorem put_ne_nil (w : ℕ) (v : ℤ) : put fl w T v ≠ [] := by
  have h : (parts fl T v).2.2 ≠ [] := by
    unfold parts
    split <;> exact digitsIn_ne_nil _ _ _
  unfold put
  split
  rename_i e
  rw [e] at h
  split <;> (try split) <;> simp_all

theorem OMask.hits_insert (hm : m.hits (s.insert cs) = false) : m.hits s = false := by
  unfold OStream.insert OStream.send at hm
  revert hm
  cases hb : s.bad <;> cases hf : s.fail <;> simp [OMask.hits, OStream.good, hb, hf] <;>
    (try (split <;> simp_all)) <;> simp_all

/-- The digits of a number without its last `j` digits. -/
theorem digits_drop (j : ℕ) : ∀ n : ℕ, 10 ^ j ≤ n →
    ∃ t, t.length = j ∧ digits n = digits (n / 10 ^ j) ++ t := by
  induction j with
  | zero => exact fun n _ => ⟨[], rfl, by simp⟩
  | succ j ih =>
    intro n hn
    have h10 : ¬ n < 10 := by
      have : 10 ^ 1 ≤ 10 ^ (j + 1) := Nat.pow_le_pow_right (by norm_num) (by omega)
      omega
    obtain ⟨t, ht, e⟩ := ih (n / 10) (by rw [Nat.le_div_iff_mul_le (by norm_num)]; rwa [pow_succ] at hn)
    refine ⟨t ++ [Char.ofNat (48 + n % 10)], by simp [ht], ?_⟩
    rw [digits, if_neg h10, e, Nat.div_div_eq_div_mul, pow_succ, mul_comm 10, List.append_assoc]

theorem showInt_drop {j : ℕ} {v : ℤ} (h : 10 ^ j ≤ v.natAbs) :
    ∃ t, t.length = j ∧ showInt v = showInt (v.tdiv (10 ^ j)) ++ t := by
  obtain ⟨t, ht, e⟩ := digits_drop j _ h
  refine ⟨t, ht, ?_⟩
  have h1 : (v.tdiv (10 ^ j)).natAbs = v.natAbs / 10 ^ j := by
    rw [Int.natAbs_tdiv, Int.natAbs_pow]; rfl
  have h2 : 0 < v.natAbs / 10 ^ j := Nat.div_pos h (by positivity)
  have h3 : v.tdiv (10 ^ j) < 0 ↔ v < 0 := by
    constructor
    · intro h
      by_contra h0
      have := Int.tdiv_nonneg (a := v) (b := 10 ^ j) (by omega) (by positivity)
      omega
    · intro h
      have := Int.tdiv_nonneg (a := -v) (b := 10 ^ j) (by omega) (by positivity)
      rw [Int.neg_tdiv] at this
      omega
  simp only [showInt, h3, h1, e]
  split <;> rfl

end Ieme.Stream
