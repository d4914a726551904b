import Verif.Lemmas.StreamLocale

/-!
# Streams in a locale that groups digits: property C134
-/

namespace Ieme

open Stream IntTy

variable {T : IntTy} {L : Punct} {f g : Raw} {w rest : List Char}

/-- **C134** In a locale that does not group digits nothing changes. -/
theorem C134_plain (h : L.groups = false) (s : IStream) (g : Raw) :
    L.read T s g = Stream.read T s g ∧ L.write g = Stream.write g := by
  constructor
  · simp only [Punct.read, Stream.read, getInt_plain_eq h]
  · simp only [Punct.write, Stream.write, showInt_plain h]

example : (⟨[], ','⟩ : Punct).groups = false ∧ (⟨[127, 3], ','⟩ : Punct).groups = false := by decide

/-- **C134** A fraction written in a locale with any grouping, whose separator is not a digit, a sign
or a slash, is read back in this locale: same numerator and denominator, no failure, and nothing of
what follows is consumed. -/
theorem C134_round_trip (hs : L.Sane) (hf : f.InRange T) (hw : Spaces w) (hr : L.Stops rest) :
    L.read T ⟨w ++ (L.write f ++ rest), false, false⟩ g =
      (f, ⟨rest, rest.isEmpty, false⟩) := by
  have hslash : L.Stops ('/' :: (L.showInt f.den ++ rest)) := fun c t e => by
    obtain ⟨rfl, -⟩ := List.cons.inj e
    exact ⟨by decide, fun _ => hs.sep.2.2.2.symm⟩
  have h1 := getInt_showInt (T := T) (old := g.num) hs hw hslash hf.1
  have h2 := getInt_showInt (T := T) (L := L) (w := []) (old := g.den) hs
    (by simp [Spaces]) hr hf.2
  have e : w ++ (L.write f ++ rest) = w ++ (L.showInt f.num ++ '/' :: (L.showInt f.den ++ rest)) := by
    simp [Punct.write]
  rw [Punct.read, e, h1]
  have h3 := ignore_slash (junk := []) (rest := L.showInt f.den ++ rest) (by simp)
    (b := false) rfl
  simp only [List.nil_append, List.isEmpty_cons] at h3 h2 ⊢
  rw [h3, h2]

/-- German, Indian and Swiss punctuation. -/
example : (⟨[3], '.'⟩ : Punct).write ⟨-1234567, 1000⟩ = "-1.234.567/1.000".toList ∧
    (⟨[3, 2], ','⟩ : Punct).write ⟨123456789, 12⟩ = "12,34,56,789/12".toList ∧
    (⟨[3], '\''⟩ : Punct).read i32 ⟨"1'234/5'678 x".toList, false, false⟩ ⟨0, 0⟩ =
      (⟨1234, 5678⟩, ⟨" x".toList, false, false⟩) ∧
    (⟨[3], '\''⟩ : Punct).Sane := by
  refine ⟨by decide +kernel, by decide +kernel, by decide +kernel, ?_⟩
  unfold Punct.Sane; decide

/-- **C134** The text is that of the classic locale with separators put in. -/
theorem C134_text (hs : L.Sane) (f : Raw) :
    (L.write f).filter (· ≠ L.sep) = Stream.write f := by
  obtain ⟨s1, s2, s3, s4⟩ := hs.sep
  have key : ∀ n : ℕ, (L.group (digits n)).filter (· ≠ L.sep) = digits n := by
    intro n
    obtain ⟨h0, hd, -⟩ := digits_spec n
    rw [group_eq, joinSep_filter, parts_flatten]
    intro p hp hc
    have := (parts_mem h0 hd hp).2 _ hc
    rw [s1] at this; cases this
  have ki : ∀ v : ℤ, (L.showInt v).filter (· ≠ L.sep) = showInt v := by
    intro v
    unfold Punct.showInt showInt
    split
    · rw [List.filter_cons_of_pos (by simpa using s3.symm), key]
    · exact key _
  rw [Punct.write, Stream.write, List.filter_append, List.filter_cons_of_pos (by simpa using s4.symm),
    ki, ki]

example : ((⟨[3], '.'⟩ : Punct).write ⟨-1234567, 1000⟩).filter (· ≠ '.') =
    Stream.write ⟨-1234567, 1000⟩ := by decide +kernel

/-- **C134** What the classic locale has written is read in every locale: separators are optional. -/
theorem C134_from_classic (hs : L.Sane) (hf : f.InRange T) (hw : Spaces w) (hr : L.Stops rest) :
    L.read T ⟨w ++ (Stream.write f ++ rest), false, false⟩ g =
      (f, ⟨rest, rest.isEmpty, false⟩) := by
  have hslash : L.Stops ('/' :: (showInt f.den ++ rest)) := fun c t e => by
    obtain ⟨rfl, -⟩ := List.cons.inj e
    exact ⟨by decide, fun _ => hs.sep.2.2.2.symm⟩
  have h1 := getInt_plain (T := T) (old := g.num) hs hw (showInt_numeral f.num) hslash hf.1
  have h2 := getInt_plain (T := T) (L := L) (w := []) (old := g.den) hs
    (by simp [Spaces]) (showInt_numeral f.den) hr hf.2
  have e : w ++ (Stream.write f ++ rest) =
      w ++ (showInt f.num ++ '/' :: (showInt f.den ++ rest)) := by
    simp [Stream.write]
  rw [Punct.read, e, h1]
  have h3 := ignore_slash (junk := []) (rest := showInt f.den ++ rest) (by simp)
    (b := false) rfl
  simp only [List.nil_append, List.isEmpty_cons] at h3 h2 ⊢
  rw [h3, h2]

example : (⟨[3], '.'⟩ : Punct).read i32 ⟨"1234567/1000".toList, false, false⟩ ⟨0, 0⟩ =
    (⟨1234567, 1000⟩, ⟨[], true, false⟩) := by decide +kernel

/-- **C134** Numerals with separators where the locale wants them are read, with blanks before each
and anything but a slash before the slash. -/
theorem C134_read {a junk w' b : List Char} (hs : L.Sane) (hf : f.InRange T) (hw : Spaces w)
    (ha : L.Grouped a f.num) (hj : '/' ∉ junk) (hst : L.Stops (junk ++ ['/'])) (hw' : Spaces w')
    (hb : L.Grouped b f.den) (hr : L.Stops rest) :
    L.read T ⟨w ++ (a ++ (junk ++ '/' :: (w' ++ (b ++ rest)))), false, false⟩ g =
      (f, ⟨rest, rest.isEmpty, false⟩) := by
  have hst' : L.Stops (junk ++ '/' :: (w' ++ (b ++ rest))) := by
    intro c t e
    cases junk with
    | nil =>
      obtain ⟨rfl, -⟩ := List.cons.inj e
      exact hst '/' [] rfl
    | cons d junk =>
      obtain ⟨rfl, -⟩ := List.cons.inj e
      exact hst d (junk ++ ['/']) rfl
  have h1 := Punct.getInt_grouped (T := T) (old := g.num) hs hw ha hst' hf.1
  have h2 := Punct.getInt_grouped (T := T) (old := g.den) hs hw' hb hr hf.2
  have h3 := ignore_slash (junk := junk) (rest := w' ++ (b ++ rest)) hj (b := false) rfl
  have hne : (junk ++ '/' :: (w' ++ (b ++ rest))).isEmpty = false := by simp
  rw [Punct.read, h1]
  simp only [hne]
  rw [h3, h2]

example : (⟨[3, 2], ','⟩ : Punct).Grouped "-1,23,456".toList (-123456) := by
  refine ⟨['-'], ["1".toList, "23".toList, "456".toList], rfl, by simp, ?_, .inr ⟨⟨3, [2], rfl,
    by decide, by decide⟩, ?_⟩, ?_⟩
  · decide
  · intro i p c hp hc
    match i, hp, hc with
    | 0, hp, hc => cases hp; cases hc; decide
    | 1, hp, hc => cases hp; cases hc; decide
    | 2, hp, hc => cases hp; cases hc; decide
    | i + 3, hp, _ => simp at hp
  · exact .minus (by decide) (by decide)

/-- **C134** Whatever is read without failure consists of numerals that make exactly this fraction
and have separators at most where the locale wants them. -/
theorem C134_accepted {s s' : IStream} (hs : L.Sane) (h : L.read T s g = (f, s'))
    (hf : s'.fail = false) (hu : T.signed = true ∨ '-' ∉ s.rest) :
    f.InRange T ∧ ∃ w a junk w' b, s.rest = w ++ (a ++ (junk ++ '/' :: (w' ++ (b ++ s'.rest)))) ∧
      Spaces w ∧ L.Grouped a f.num ∧ '/' ∉ junk ∧ L.Stops (junk ++ ['/']) ∧
      Spaces w' ∧ L.Grouped b f.den ∧ L.Stops s'.rest := by
  unfold Punct.read at h
  simp only [Prod.mk.injEq] at h
  obtain ⟨hv, hs'⟩ := h
  have hden : f.den = (L.getInt T (ignore (L.getInt T s g.num).2 '/') g.den).1 := by rw [← hv]
  have hnum : f.num = (L.getInt T s g.num).1 := by rw [← hv]
  -- the slash was found, so the numerator was read
  have key : (ignore (L.getInt T s g.num).2 '/').eof = false ∧
      (ignore (L.getInt T s g.num).2 '/').fail = false := by
    by_contra hc
    have : ((ignore (L.getInt T s g.num).2 '/').eof || (ignore (L.getInt T s g.num).2 '/').fail) =
        true := by
      cases h1 : (ignore (L.getInt T s g.num).2 '/').eof <;>
        cases h2 : (ignore (L.getInt T s g.num).2 '/').fail <;> simp_all
    rw [Punct.getInt, if_pos this] at hs'
    rw [← hs'] at hf
    cases hf
  obtain ⟨i1, i2, junk, e2, hj⟩ := ignore_good key.1 key.2
  obtain ⟨-, -, w, a, e1, hw, hn, hst, hr1, -⟩ := Punct.getInt_ok (T := T) hs
    (s' := (L.getInt T s g.num).2) (v := f.num) (by rw [hnum]) i2 hu
  have hu' : T.signed = true ∨ '-' ∉ (ignore (L.getInt T s g.num).2 '/').rest := by
    rcases hu with h | h
    · exact .inl h
    · right
      intro hc
      apply h
      rw [e1, e2]
      simp [hc]
  obtain ⟨-, -, w', b, e3, hw', hd, hnd, hr2, -⟩ := Punct.getInt_ok (T := T) hs
    (s' := s') (v := f.den) (by rw [hden, ← hs']) hf hu'
  refine ⟨⟨hr1, hr2⟩, w, a, junk, w', b, by rw [e1, e2, e3], hw, hn, hj, ?_, hw', hd, hnd⟩
  rw [e2] at hst
  intro c t e
  cases junk with
  | nil =>
    obtain ⟨rfl, -⟩ := List.cons.inj e
    exact hst '/' _ rfl
  | cons d junk =>
    obtain ⟨rfl, -⟩ := List.cons.inj e
    exact hst d _ rfl

example : (⟨[3], ','⟩ : Punct).read i32 ⟨" 1,234/ -5,678;".toList, false, false⟩ ⟨0, 0⟩ =
    (⟨1234, -5678⟩, ⟨";".toList, false, false⟩) := by decide +kernel

/-- **C134** A program that reads in the classic locale what another wrote in a grouping one does not
notice: it gets the leftmost group of the numerator and the leftmost group of the denominator,
without failure. -/
theorem C134_read_by_classic (hs : L.Sane) (hf : f.InRange T) (hw : Spaces w) (hr : NoDigitFirst rest) :
    (Stream.read T ⟨w ++ (L.write f ++ rest), false, false⟩ g).1 = ⟨L.lead f.num, L.lead f.den⟩ ∧
    (Stream.read T ⟨w ++ (L.write f ++ rest), false, false⟩ g).2.fail = false := by
  obtain ⟨a, t, ea, na, ta, ra⟩ := showInt_split hs f.num
  obtain ⟨b, u, eb, nb, -, rb⟩ := showInt_split hs f.den
  have e : w ++ (L.write f ++ rest) = w ++ (a ++ (t ++ '/' :: ([] ++ (b ++ (u ++ rest))))) := by
    simp [Punct.write, ea, eb]
  have h1 := getInt_numeral (T := T) (rest := t ++ '/' :: ([] ++ (b ++ (u ++ rest))))
    (old := g.num) hw na
    (ra _ fun c l e => by obtain ⟨rfl, -⟩ := List.cons.inj e; decide) (lead_inRange hf.1)
  have h2 := getInt_numeral (T := T) (w := []) (rest := u ++ rest) (old := g.den)
    (by simp [Spaces]) nb (rb _ hr) (lead_inRange hf.2)
  have hne : (t ++ '/' :: ([] ++ (b ++ (u ++ rest)))).isEmpty = false := by simp
  rw [Stream.read, e, h1]
  have h3 := ignore_slash (junk := t) (rest := [] ++ (b ++ (u ++ rest))) ta (b := false) rfl
  simp only [hne]
  rw [h3, h2]
  exact ⟨rfl, rfl⟩

/-- `1234567/1000` arrives as `1/1`. -/
example : Stream.read i32 ⟨(⟨[3], ','⟩ : Punct).write ⟨1234567, 1000⟩, false, false⟩ ⟨0, 0⟩ =
      (⟨1, 1⟩, ⟨",000".toList, false, false⟩) ∧
    (⟨[3], ','⟩ : Punct).lead 1234567 = 1 ∧ (⟨[3, 2], ','⟩ : Punct).lead (-123456789) = -12 := by
  decide +kernel

/-- **C134** So the value survives exactly when neither part was long enough to be broken into
groups. -/
theorem C134_read_by_classic_iff (hs : L.Sane) (hf : f.InRange T) (hw : Spaces w)
    (hr : NoDigitFirst rest) :
    (Stream.read T ⟨w ++ (L.write f ++ rest), false, false⟩ g).1 = f ↔
      L.Unbroken f.num.natAbs ∧ L.Unbroken f.den.natAbs := by
  rw [(C134_read_by_classic hs hf hw hr).1, ← lead_eq_iff, ← lead_eq_iff]
  constructor
  · intro e
    exact ⟨by conv_rhs => rw [← e], by conv_rhs => rw [← e]⟩
  · rintro ⟨h1, h2⟩
    rw [h1, h2]

example : (⟨[3], ','⟩ : Punct).Unbroken 999 ∧ ¬ (⟨[3], ','⟩ : Punct).Unbroken 1000 := by
  constructor
  · intro c cs e _ _
    obtain ⟨rfl, -⟩ := List.cons.inj e
    decide
  · intro h
    exact absurd (h 3 [] rfl (by decide) (by decide)) (by decide)

/-- **C134** What is lost beyond that.  A separator that is a slash or a digit breaks the round trip;
wrongly grouped input sets `failbit` but has changed the target; and text after a fraction that
starts with the separator is taken for a part of it. -/
theorem C134_wrong :
    (⟨[3], '/'⟩ : Punct).read i32 ⟨(⟨[3], '/'⟩ : Punct).write ⟨1234, 5⟩, false, false⟩ ⟨0, 0⟩ ≠
      (⟨1234, 5⟩, ⟨[], true, false⟩) ∧
    ((⟨[3], '0'⟩ : Punct).read i32 ⟨(⟨[3], '0'⟩ : Punct).write ⟨1, 20⟩, false, false⟩ ⟨0, 0⟩).1 ≠
      ⟨1, 20⟩ ∧
    (⟨[3], ','⟩ : Punct).read i32 ⟨"12,34/5".toList, false, false⟩ ⟨7, 8⟩ =
      (⟨1234, 8⟩, ⟨"/5".toList, false, true⟩) ∧
    (⟨[3], ','⟩ : Punct).read i32 ⟨"1/2, 3/4".toList, false, false⟩ ⟨0, 0⟩ =
      (⟨1, 2⟩, ⟨" 3/4".toList, false, true⟩) := by
  decide +kernel

end Ieme
