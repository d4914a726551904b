import Verif.Spec.StreamLocale
import Verif.Lemmas.Stream
import Mathlib.Tactic.Linarith
import Mathlib.Tactic.Ring

/-!
# Lemmas about streams in a locale that groups digits
-/

namespace Ieme.Stream

variable {T : IntTy} {L : Punct}

theorem limited_iff {c : ℤ} : limited c = true ↔ 0 < c ∧ c ≠ 127 := by simp [limited]

/-! ## Cutting into groups -/

theorem breaks_iff : L.Breaks ↔ L.groups = true := by
  unfold Punct.Breaks Punct.groups
  cases L.grouping with
  | nil => simp
  | cons c cs => simp [limited]

theorem cut_of_not {g : List ℤ} {ds : List Char} (h : ∀ c cs, g = c :: cs → limited c = true →
    ds.length ≤ c.toNat) : cut g ds = [ds] := by
  cases g with
  | nil => rw [cut]
  | cons c cs =>
    rw [cut, dif_neg]
    rintro ⟨h1, h2⟩
    have := h c cs rfl h1
    omega

theorem cut_of {c : ℤ} {cs : List ℤ} {ds : List Char} (h1 : limited c = true)
    (h2 : c.toNat < ds.length) :
    cut (c :: cs) ds = ds.take c.toNat :: cut (next (c :: cs)) (ds.drop c.toNat) := by
  rw [cut, dif_pos ⟨h1, h2⟩]

theorem cut_induction {P : List ℤ → List Char → Prop}
    (one : ∀ g ds, (∀ c cs, g = c :: cs → limited c = true → ds.length ≤ c.toNat) → P g ds)
    (more : ∀ c cs ds, limited c = true → c.toNat < ds.length →
      P (next (c :: cs)) (ds.drop c.toNat) → P (c :: cs) ds) (g : List ℤ) (ds : List Char) :
    P g ds := by
  induction hn : ds.length using Nat.strong_induction_on generalizing g ds with
  | _ n ih =>
    by_cases h : ∀ c cs, g = c :: cs → limited c = true → ds.length ≤ c.toNat
    · exact one g ds h
    · push Not at h
      obtain ⟨c, cs, rfl, h1, h2⟩ := h
      refine more c cs ds h1 h2 (ih _ ?_ _ _ rfl)
      have := (limited_iff.1 h1).1
      rw [List.length_drop]
      omega

theorem cut_ne_nil (g : List ℤ) (ds : List Char) : cut g ds ≠ [] := by
  induction g, ds using cut_induction with
  | one g ds h => simp [cut_of_not h]
  | more c cs ds h1 h2 ih => simp [cut_of h1 h2]

theorem cut_flatten (g : List ℤ) (ds : List Char) : (cut g ds).flatten = ds := by
  induction g, ds using cut_induction with
  | one g ds h => simp [cut_of_not h]
  | more c cs ds h1 h2 ih => simp [cut_of h1 h2, ih]

theorem cut_parts (g : List ℤ) (ds : List Char) : ds ≠ [] → ∀ p ∈ cut g ds, p ≠ [] := by
  induction g, ds using cut_induction with
  | one g ds h => intro h0 p hp; simp [cut_of_not h] at hp; rwa [hp]
  | more c cs ds h1 h2 ih =>
    intro h0 p hp
    rw [cut_of h1 h2, List.mem_cons] at hp
    have hc := (limited_iff.1 h1).1
    rcases hp with rfl | hp
    · intro e
      have := congrArg List.length e
      simp only [List.length_take, List.length_nil] at this
      omega
    · exact ih (by intro e; have := congrArg List.length e; simp at this; omega) p hp

theorem cut_verify (g : List ℤ) (ds : List Char) :
    verify g ((cut g ds).map List.length) = true := by
  induction g, ds using cut_induction with
  | one g ds h =>
    rw [cut_of_not h]
    cases g with
    | nil => simp [verify]
    | cons c cs =>
      simp only [List.map_cons, List.map_nil, verify, Bool.or_eq_true, Bool.not_eq_true',
        decide_eq_true_eq]
      by_cases hc : limited c = true
      · have := h c cs rfl hc
        have := (limited_iff.1 hc).1
        right; omega
      · left; simpa using hc
  | more c cs ds h1 h2 ih =>
    rw [cut_of h1 h2]
    have hc := (limited_iff.1 h1).1
    cases hk : cut (next (c :: cs)) (ds.drop c.toNat) with
    | nil => exact absurd hk (cut_ne_nil _ _)
    | cons p ps =>
      rw [hk] at ih
      simp only [List.map_cons, verify, Bool.and_eq_true, decide_eq_true_eq] at ih ⊢
      refine ⟨?_, ih⟩
      rw [List.length_take]
      omega

theorem cut_plain (h : L.groups = false) (ds : List Char) : cut L.grouping ds = [ds] := by
  refine cut_of_not fun c cs e hc => ?_
  rw [Punct.groups, e] at h
  simp only at h
  rw [h] at hc
  exact absurd hc (by decide)

/-- The groups from the left. -/
def Punct.parts (L : Punct) (ds : List Char) : List (List Char) :=
  ((cut L.grouping ds.reverse).map List.reverse).reverse

theorem parts_ne_nil (ds : List Char) : L.parts ds ≠ [] := by
  simp [Punct.parts, cut_ne_nil]

theorem parts_flatten (ds : List Char) : (L.parts ds).flatten = ds := by
  rw [Punct.parts, ← List.reverse_flatten, cut_flatten, List.reverse_reverse]

theorem parts_mem {ds p : List Char} (h0 : ds ≠ []) (hd : ∀ c ∈ ds, isDigit c = true)
    (hp : p ∈ L.parts ds) : p ≠ [] ∧ ∀ c ∈ p, isDigit c = true := by
  refine ⟨?_, fun c hc => hd c ?_⟩
  · simp only [Punct.parts, List.mem_reverse, List.mem_map] at hp
    obtain ⟨q, hq, rfl⟩ := hp
    simpa using cut_parts _ _ (by simpa using h0) q hq
  · rw [← parts_flatten (L := L) ds]
    exact List.mem_flatten.2 ⟨p, hp, hc⟩

theorem parts_sizes (ds : List Char) :
    verify L.grouping ((L.parts ds).map List.length).reverse = true := by
  have : ((L.parts ds).map List.length).reverse = (cut L.grouping ds.reverse).map List.length := by
    simp [Punct.parts, ← List.map_reverse, Function.comp_def]
  rw [this]
  exact cut_verify ..

theorem parts_plain (h : L.groups = false) (ds : List Char) : L.parts ds = [ds] := by
  simp [Punct.parts, cut_plain h]

theorem group_eq (ds : List Char) : L.group ds = joinSep L.sep (L.parts ds) := rfl

theorem joinSep_cons (s : Char) (p : List Char) (ps : List (List Char)) :
    ∃ tail, joinSep s (p :: ps) = p ++ tail ∧ (ps = [] → tail = []) ∧
      (ps ≠ [] → ∃ t, tail = s :: t) ∧ ∀ c ∈ tail, c = s ∨ ∃ q ∈ ps, c ∈ q := by
  induction ps generalizing p with
  | nil => exact ⟨[], by simp [joinSep], by simp, by simp, by simp⟩
  | cons q ps ih =>
    obtain ⟨tail, e, -, -, hm⟩ := ih q
    refine ⟨s :: joinSep s (q :: ps), rfl, by simp, fun _ => ⟨_, rfl⟩, ?_⟩
    intro c hc
    rcases List.mem_cons.1 hc with h | h
    · exact .inl h
    · rw [e] at h
      rcases List.mem_append.1 h with h | h
      · exact .inr ⟨q, by simp, h⟩
      · rcases hm c h with h | ⟨q', h1, h2⟩
        · exact .inl h
        · exact .inr ⟨q', by simp [h1], h2⟩

theorem joinSep_filter (s : Char) (ps : List (List Char)) (h : ∀ p ∈ ps, s ∉ p) :
    (joinSep s ps).filter (· ≠ s) = ps.flatten := by
  have key : ∀ p : List Char, s ∉ p → p.filter (· ≠ s) = p := fun p hp =>
    List.filter_eq_self.2 fun c hc => by
      have : c ≠ s := fun e => hp (e ▸ hc)
      simpa using this
  induction ps with
  | nil => rfl
  | cons p ps ih =>
    cases ps with
    | nil => simp only [joinSep, List.flatten_cons, List.flatten_nil, List.append_nil]; exact key p (h p (by simp))
    | cons q ps =>
      have := ih fun p hp => h p (by simp [hp])
      simp only [joinSep, List.filter_append, key p (h p (by simp)), List.flatten_cons] at this ⊢
      rw [List.filter_cons_of_neg (by simp), this]

/-! ## Scanning -/

theorem Punct.Sane.sep (h : L.Sane) : isDigit L.sep = false ∧ L.sep ≠ '+' ∧ L.sep ≠ '-' ∧
    L.sep ≠ '/' := by
  have h2 := h.2
  simp only [List.mem_cons, List.not_mem_nil, or_false, not_or] at h2
  exact ⟨not_mem_decDigits.1 h.1, h2⟩

theorem scan_end {rest : List Char} (h : L.Stops rest) (k : ℕ) :
    L.scan k rest = ⟨[], [k], false, rest⟩ := by
  cases rest with
  | nil => rfl
  | cons c t =>
    obtain ⟨h1, h2⟩ := h c t rfl
    have h1 := not_mem_decDigits.1 h1
    have h2 : (L.groups && decide (c = L.sep)) = false := by
      cases hg : L.groups with
      | false => rfl
      | true => simpa using h2 (breaks_iff.2 hg)
    simp only [Punct.scan, h1, h2, Bool.false_eq_true, if_false]

theorem scan_digits (hs : isDigit L.sep = false) {p : List Char} (hp : ∀ c ∈ p, isDigit c = true)
    (k : ℕ) (t : List Char) : L.scan k (p ++ t) =
      ⟨p ++ (L.scan (k + p.length) t).digits, (L.scan (k + p.length) t).sizes,
        (L.scan (k + p.length) t).bad, (L.scan (k + p.length) t).rest⟩ := by
  induction p generalizing k with
  | nil => rfl
  | cons c p ih =>
    have hc := hp c (by simp)
    have hne : c ≠ L.sep := by rintro rfl; rw [hs] at hc; cases hc
    rw [List.cons_append, Punct.scan]
    simp only [hne, decide_false, Bool.and_false, hc, if_true, List.length_cons,
      Bool.false_eq_true, if_false]
    rw [ih (fun c h => hp c (by simp [h])),
      show k + 1 + p.length = k + (p.length + 1) by omega]
    rfl

theorem scan_join (hs : isDigit L.sep = false) {ps : List (List Char)} (h0 : ps ≠ [])
    (hp : ∀ p ∈ ps, p ≠ [] ∧ ∀ c ∈ p, isDigit c = true)
    (hg : ps.length ≤ 1 ∨ L.groups = true) {rest : List Char} (hr : L.Stops rest) :
    L.scan 0 (joinSep L.sep ps ++ rest) = ⟨ps.flatten, ps.map List.length, false, rest⟩ := by
  induction ps with
  | nil => exact absurd rfl h0
  | cons p ps ih =>
    obtain ⟨p0, pd⟩ := hp p (by simp)
    cases ps with
    | nil =>
      rw [joinSep, scan_digits hs pd, scan_end hr]
      simp
    | cons q ps =>
      have hg' : L.groups = true := by
        rcases hg with h | h
        · simp at h
        · exact h
      have hl : p.length ≠ 0 := by simpa using p0
      rw [joinSep, List.append_assoc, scan_digits hs pd, List.cons_append, Punct.scan]
      simp only [hg', decide_true, Bool.and_self, if_true, Nat.zero_add, hl, if_false]
      rw [ih (by simp) (fun p h => hp p (by simp [h])) (.inr hg')]
      simp

theorem getInt_scan {w sg body : List Char} {neg : Bool} {old : ℤ} (hw : Spaces w)
    (hsg : (sg = [] ∧ neg = false) ∨ (sg = ['+'] ∧ neg = false) ∨ (sg = ['-'] ∧ neg = true))
    (hb : ∃ c t, body = c :: t ∧ isDigit c = true) :
    L.getInt T ⟨w ++ (sg ++ body), false, false⟩ old =
      (if (L.scan 0 body).digits.isEmpty || (L.scan 0 body).bad then
        (0, ⟨(L.scan 0 body).rest, (L.scan 0 body).rest.isEmpty, true⟩)
      else
        ((store T neg (decimal (L.scan 0 body).digits)).1, ⟨(L.scan 0 body).rest,
          (L.scan 0 body).rest.isEmpty, (store T neg (decimal (L.scan 0 body).digits)).2 ||
            !((L.scan 0 body).sizes.length ≤ 1 ||
              verify L.grouping (L.scan 0 body).sizes.reverse)⟩)) := by
  obtain ⟨c, t, rfl, hc⟩ := hb
  have hd : (w ++ (sg ++ c :: t)).dropWhile isSpace = sg ++ c :: t := by
    refine dropWhile_append_of hw.isSpace fun x l e => ?_
    rcases hsg with ⟨rfl, -⟩ | ⟨rfl, -⟩ | ⟨rfl, -⟩
    · obtain ⟨rfl, -⟩ := List.cons.inj e; exact space_not_digit hc
    · obtain ⟨rfl, -⟩ := List.cons.inj e; decide
    · obtain ⟨rfl, -⟩ := List.cons.inj e; decide
  have he : (sg ++ c :: t).isEmpty = false := by simp
  have hsp : splitSign (sg ++ c :: t) = (neg, c :: t) := by
    rcases hsg with ⟨rfl, rfl⟩ | ⟨rfl, rfl⟩ | ⟨rfl, rfl⟩
    · rw [List.nil_append, splitSign.eq_def]
      split
      · rename_i e; obtain ⟨rfl, -⟩ := List.cons.inj e; exact absurd hc (by decide)
      · rename_i e; obtain ⟨rfl, -⟩ := List.cons.inj e; exact absurd hc (by decide)
      · rfl
    · rfl
    · rfl
  simp only [Punct.getInt, Bool.or_self, hd, he, hsp, Bool.false_eq_true, if_false]

/-- The groups begin with a digit. -/
theorem group_head {ds : List Char} (h0 : ds ≠ []) (hd : ∀ c ∈ ds, isDigit c = true)
    (rest : List Char) : ∃ c t, L.group ds ++ rest = c :: t ∧ isDigit c = true := by
  rw [group_eq]
  cases hp : L.parts ds with
  | nil => exact absurd hp (parts_ne_nil ds)
  | cons p ps =>
    obtain ⟨p0, pd⟩ := parts_mem (L := L) h0 hd (p := p) (by simp [hp])
    obtain ⟨tail, e, -⟩ := joinSep_cons L.sep p ps
    cases p with
    | nil => exact absurd rfl p0
    | cons c p => exact ⟨c, _, by rw [e]; rfl, pd c (by simp)⟩

theorem scan_group (hs : isDigit L.sep = false) {ds rest : List Char} (h0 : ds ≠ [])
    (hd : ∀ c ∈ ds, isDigit c = true) (hr : L.Stops rest) :
    L.scan 0 (L.group ds ++ rest) = ⟨ds, (L.parts ds).map List.length, false, rest⟩ := by
  rw [group_eq, scan_join hs (parts_ne_nil ds) (fun p hp => parts_mem h0 hd hp) _ hr,
    parts_flatten]
  cases h : L.groups with
  | true => exact .inr rfl
  | false => left; rw [parts_plain h]; rfl

theorem getInt_showInt (hs : L.Sane) {w rest : List Char} {old v : ℤ} (hw : Spaces w)
    (hr : L.Stops rest) (hv : T.InRange v) :
    L.getInt T ⟨w ++ (L.showInt v ++ rest), false, false⟩ old =
      (v, ⟨rest, rest.isEmpty, false⟩) := by
  obtain ⟨h0, hd, he⟩ := digits_spec v.natAbs
  have key : ∀ sg neg, ((sg = [] ∧ neg = false) ∨ (sg = ['+'] ∧ neg = false) ∨
      (sg = ['-'] ∧ neg = true)) → v = (if neg then -(v.natAbs : ℤ) else v.natAbs) →
      L.getInt T ⟨w ++ (sg ++ (L.group (digits v.natAbs) ++ rest)), false, false⟩ old =
        (v, ⟨rest, rest.isEmpty, false⟩) := by
    intro sg neg hsg e
    rw [getInt_scan hw hsg (group_head h0 hd rest), scan_group hs.sep.1 h0 hd hr]
    simp only [he, parts_sizes, Bool.or_true, Bool.not_true, Bool.or_false, List.isEmpty_iff, h0,
      decide_false, Bool.false_eq_true, if_false]
    rw [store_inRange neg _ (by rwa [← e]), ← e]
  unfold Punct.showInt
  split
  · have := key ['-'] true (by simp) (by simp only [if_true]; omega)
    simpa using this
  · have := key [] false (by simp) (by simp only [Bool.false_eq_true, if_false]; omega)
    simpa using this

/-- A numeral without separators is read in every locale. -/
theorem getInt_plain (hs : L.Sane) {w a rest : List Char} {old n : ℤ} (hw : Spaces w)
    (ha : Numeral a n) (hr : L.Stops rest) (hn : T.InRange n) :
    L.getInt T ⟨w ++ (a ++ rest), false, false⟩ old = (n, ⟨rest, rest.isEmpty, false⟩) := by
  have key : ∀ sg neg (ds : List Char), ds ≠ [] → (∀ c ∈ ds, c ∈ Lit.decDigits) →
      ((sg = [] ∧ neg = false) ∨ (sg = ['+'] ∧ neg = false) ∨ (sg = ['-'] ∧ neg = true)) →
      n = (if neg then -(Lit.seqValue 10 ds : ℤ) else Lit.seqValue 10 ds) →
      L.getInt T ⟨w ++ (sg ++ (ds ++ rest)), false, false⟩ old =
        (n, ⟨rest, rest.isEmpty, false⟩) := by
    intro sg neg ds h0 hd hsg e
    have hd' : ∀ c ∈ ds, isDigit c = true := fun c hc => mem_decDigits.1 (hd c hc)
    have hb : ∃ c t, ds ++ rest = c :: t ∧ isDigit c = true := by
      cases ds with
      | nil => exact absurd rfl h0
      | cons c t => exact ⟨c, t ++ rest, rfl, hd' c (by simp)⟩
    rw [getInt_scan hw hsg hb, scan_digits hs.sep.1 hd', scan_end hr]
    simp only [List.append_nil, List.length_singleton, le_refl, decide_true, Bool.true_or,
      Bool.not_true, Bool.or_false, List.isEmpty_iff, h0, decide_false, Bool.false_eq_true, if_false]
    rw [decimal_eq hd', store_inRange neg _ (by rwa [← e]), ← e]
  cases ha with
  | bare h0 h1 => simpa using key [] false a h0 h1 (by simp) (by simp)
  | plus h0 h1 => simpa using key ['+'] false _ h0 h1 (by simp) (by simp)
  | minus h0 h1 => simpa using key ['-'] true _ h0 h1 (by simp) (by simp)

/-! ## The leftmost group -/

theorem digits_rev {n : ℕ} (h : 10 ≤ n) : ∃ c, (digits n).reverse = c :: (digits (n / 10)).reverse := by
  rw [digits, if_neg (by omega)]
  simp

theorem digits_drop_group (c n : ℕ) (h : 10 ^ c ≤ n) :
    (digits n).reverse.drop c = (digits (n / 10 ^ c)).reverse := by
  induction c generalizing n with
  | zero => simp
  | succ c ih =>
    have h10 : 10 ≤ n := by
      have : 0 < 10 ^ c := by positivity
      rw [pow_succ] at h; omega
    obtain ⟨x, e⟩ := digits_rev h10
    rw [e, List.drop_succ_cons, ih (n / 10) (by
      rw [Nat.le_div_iff_mul_le (by norm_num), ← pow_succ]; exact h), Nat.div_div_eq_div_mul,
      pow_succ, mul_comm]

theorem digits_length {c : ℕ} (hc : 0 < c) (n : ℕ) : c < (digits n).length ↔ 10 ^ c ≤ n := by
  obtain ⟨c, rfl⟩ : ∃ b, c = b + 1 := ⟨c - 1, by omega⟩
  clear hc
  induction c generalizing n with
  | zero =>
    rw [digits]
    split
    · simp; omega
    · have := (digits_spec (n / 10)).1
      have : 0 < (digits (n / 10)).length := List.length_pos_iff.2 this
      simp only [List.length_append, List.length_singleton]
      omega
  | succ c ih =>
    by_cases h : n < 10
    · rw [digits, if_pos h]
      have : 10 ≤ 10 ^ (c + 1 + 1) := by
        rw [pow_succ]; have : 0 < 10 ^ (c + 1) := by positivity
        omega
      simp only [List.length_singleton]
      omega
    · rw [digits, if_neg h, List.length_append, List.length_singleton, pow_succ,
        ← Nat.le_div_iff_mul_le (by norm_num), ← ih]
      omega

theorem next_eq (c : ℤ) (cs : List ℤ) : next (c :: cs) = if cs = [] then [c] else cs := by
  cases cs <;> simp [next]

theorem cut_last (k : ℕ) (g : List ℤ) (n : ℕ) (hk : n ≤ k) :
    decimal (((cut g (digits n).reverse).getLast (cut_ne_nil _ _)).reverse) = leading k g n := by
  induction k generalizing g n with
  | zero =>
    obtain rfl : n = 0 := by omega
    have : cut g (digits 0).reverse = [(digits 0).reverse] := by
      refine cut_of_not fun c cs _ hc => ?_
      have := (limited_iff.1 hc).1
      have : (digits 0).length = 1 := by decide +kernel
      simp only [List.length_reverse]
      omega
    simp only [this, List.getLast_singleton, List.reverse_reverse, leading, (digits_spec 0).2.2]
  | succ k ih =>
    cases g with
    | nil =>
      have : cut [] (digits n).reverse = [(digits n).reverse] := by rw [cut]
      simp only [this, List.getLast_singleton, List.reverse_reverse, leading, (digits_spec n).2.2]
    | cons c cs =>
      rw [leading]
      by_cases h : c ≤ 0 ∨ c = 127 ∨ n < 10 ^ c.toNat
      · rw [if_pos h]
        have : cut (c :: cs) (digits n).reverse = [(digits n).reverse] := by
          refine cut_of_not fun c' cs' e hc => ?_
          obtain ⟨rfl, rfl⟩ := List.cons.inj e
          obtain ⟨h1, h2⟩ := limited_iff.1 hc
          have h3 : n < 10 ^ c.toNat := by
            rcases h with h | h | h
            · omega
            · exact absurd h h2
            · exact h
          have := (digits_length (c := c.toNat) (by omega) n).not.2 (by omega)
          simp only [List.length_reverse]
          omega
        simp only [this, List.getLast_singleton, List.reverse_reverse, (digits_spec n).2.2]
      · rw [if_neg h]
        push Not at h
        obtain ⟨h1, h2, h3⟩ := h
        have hl : limited c = true := limited_iff.2 ⟨h1, h2⟩
        have hlen : c.toNat < (digits n).reverse.length := by
          rw [List.length_reverse]; exact (digits_length (by omega) n).2 h3
        have hlt : n / 10 ^ c.toNat ≤ k := by
          have h10 : 10 ≤ 10 ^ c.toNat := by
            calc 10 = 10 ^ 1 := by norm_num
              _ ≤ 10 ^ c.toNat := Nat.pow_le_pow_right (by norm_num) (by omega)
          have : n / 10 ^ c.toNat < n := Nat.div_lt_self (by omega) (by omega)
          omega
        rw [← next_eq, ← ih _ _ hlt]
        have e := cut_of (cs := cs) hl hlen
        rw [digits_drop_group _ _ h3] at e
        simp only [e]
        rw [List.getLast_cons (cut_ne_nil _ _)]

theorem parts_head (n : ℕ) : ∃ p ps, L.parts (digits n) = p :: ps ∧
    decimal p = leading n L.grouping n := by
  have e := cut_last n L.grouping n le_rfl
  obtain ⟨init, hi⟩ : ∃ init, cut L.grouping (digits n).reverse = init ++
      [(cut L.grouping (digits n).reverse).getLast (cut_ne_nil _ _)] :=
    ⟨_, (List.dropLast_concat_getLast _).symm⟩
  refine ⟨_, (init.map List.reverse).reverse, ?_, e⟩
  rw [Punct.parts]
  conv_lhs => rw [hi]
  simp

theorem leading_le (k : ℕ) (g : List ℤ) (n : ℕ) : leading k g n ≤ n := by
  induction k generalizing g n with
  | zero => simp [leading]
  | succ k ih =>
    cases g with
    | nil => simp [leading]
    | cons c cs =>
      rw [leading]
      split
      · exact le_rfl
      · exact (ih _ _).trans (Nat.div_le_self _ _)

theorem leading_eq_iff (n : ℕ) : leading n L.grouping n = n ↔ L.Unbroken n := by
  unfold Punct.Unbroken
  cases n with
  | zero =>
    simp only [leading, true_iff]
    intro c cs _ h _
    positivity
  | succ n =>
    cases hg : L.grouping with
    | nil => simp [leading]
    | cons c cs =>
      rw [leading]
      split
      · rename_i h
        simp only [true_iff]
        intro c' cs' e h1 h2
        obtain ⟨rfl, rfl⟩ := List.cons.inj e
        rcases h with h | h | h
        · omega
        · exact absurd h h2
        · exact h
      · rename_i h
        push Not at h
        obtain ⟨h1, h2, h3⟩ := h
        have h10 : 10 ≤ 10 ^ c.toNat := by
          calc 10 = 10 ^ 1 := by norm_num
            _ ≤ 10 ^ c.toNat := Nat.pow_le_pow_right (by norm_num) (by omega)
        have hlt : (n + 1) / 10 ^ c.toNat < n + 1 := Nat.div_lt_self (by omega) (by omega)
        have := leading_le n (if cs = [] then [c] else cs) ((n + 1) / 10 ^ c.toNat)
        refine ⟨fun e => by omega, fun H => ?_⟩
        have := H c cs rfl h1 h2
        omega

theorem lead_bounds (v : ℤ) : (0 ≤ v → 0 ≤ L.lead v ∧ L.lead v ≤ v) ∧
    (v ≤ 0 → v ≤ L.lead v ∧ L.lead v ≤ 0) := by
  have h := leading_le v.natAbs L.grouping v.natAbs
  unfold Punct.lead
  generalize leading v.natAbs L.grouping v.natAbs = m at h
  rcases lt_trichotomy v 0 with hv | rfl | hv
  · rw [Int.sign_eq_neg_one_of_neg hv]; constructor <;> intro <;> omega
  · simp
  · rw [Int.sign_eq_one_of_pos hv]; constructor <;> intro <;> omega

theorem lead_inRange {v : ℤ} (h : T.InRange v) : T.InRange (L.lead v) := by
  have h0 := T.min_le_zero
  have h1 := T.max_ge
  obtain ⟨a, b⟩ := lead_bounds (L := L) v
  obtain ⟨h2, h3⟩ := h
  rcases le_total 0 v with hv | hv
  · have := a hv; constructor <;> omega
  · have := b hv; constructor <;> omega

theorem lead_eq_iff (v : ℤ) : L.lead v = v ↔ L.Unbroken v.natAbs := by
  rw [← leading_eq_iff]
  unfold Punct.lead
  rcases lt_trichotomy v 0 with hv | rfl | hv
  · rw [Int.sign_eq_neg_one_of_neg hv]; omega
  · simp [leading]
  · rw [Int.sign_eq_one_of_pos hv]; omega

/-- Written in the locale: sign and leftmost group, then nothing or a separator and more. -/
theorem showInt_split (hs : L.Sane) (v : ℤ) : ∃ a tail, L.showInt v = a ++ tail ∧
    Numeral a (L.lead v) ∧ '/' ∉ tail ∧ ∀ rest, NoDigitFirst rest → NoDigitFirst (tail ++ rest) := by
  obtain ⟨h0, hd, -⟩ := digits_spec v.natAbs
  obtain ⟨p, ps, hp, hv⟩ := parts_head (L := L) v.natAbs
  obtain ⟨p0, pd⟩ := parts_mem (L := L) h0 hd (p := p) (by simp [hp])
  obtain ⟨tail, et, t1, t2, t3⟩ := joinSep_cons L.sep p ps
  have pd' : ∀ c ∈ p, c ∈ Lit.decDigits := fun c hc => mem_decDigits.2 (pd c hc)
  have eg : L.group (digits v.natAbs) = p ++ tail := by rw [group_eq, hp, et]
  have hslash : '/' ∉ tail := by
    intro h
    rcases t3 _ h with h | ⟨q, hq, h⟩
    · exact hs.sep.2.2.2 h.symm
    · have := (parts_mem (L := L) h0 hd (p := q) (by simp [hp, hq])).2 _ h
      exact absurd this (by decide)
  have htail : ∀ rest, NoDigitFirst rest → NoDigitFirst (tail ++ rest) := by
    intro rest hr
    by_cases hps : ps = []
    · rw [t1 hps]; exact hr
    · obtain ⟨t, rfl⟩ := t2 hps
      intro c l e
      obtain ⟨rfl, -⟩ := List.cons.inj e
      exact hs.1
  rw [decimal_eq pd] at hv
  unfold Punct.showInt
  split
  · rename_i hneg
    refine ⟨'-' :: p, tail, by rw [eg]; rfl, ?_, hslash, htail⟩
    have := Numeral.minus p0 pd'
    rw [hv] at this
    have e : L.lead v = -(leading v.natAbs L.grouping v.natAbs : ℤ) := by
      rw [Punct.lead, Int.sign_eq_neg_one_of_neg hneg]; omega
    rwa [e]
  · rename_i hneg
    refine ⟨p, tail, eg, ?_, hslash, htail⟩
    have := Numeral.bare p0 pd'
    rw [hv] at this
    have e : L.lead v = (leading v.natAbs L.grouping v.natAbs : ℤ) := by
      rw [Punct.lead]
      rcases eq_or_ne v 0 with rfl | h
      · simp [leading]
      · rw [Int.sign_eq_one_of_pos (by omega)]; omega
    rwa [e]

/-! ## Locales that do not group -/

theorem scan_plain (h : L.groups = false) (k : ℕ) (t : List Char) :
    L.scan k t = ⟨t.takeWhile isDigit, [k + (t.takeWhile isDigit).length], false,
      t.dropWhile isDigit⟩ := by
  induction t generalizing k with
  | nil => rfl
  | cons c t ih =>
    rw [Punct.scan]
    simp only [h, Bool.false_and, Bool.false_eq_true, if_false]
    by_cases hc : isDigit c = true
    · simp only [hc, if_true, ih, List.takeWhile_cons_of_pos, List.dropWhile_cons_of_pos,
        List.length_cons]
      simp only [Scan.mk.injEq, true_and, and_true, List.cons.injEq]
      omega
    · simp [hc]

theorem getInt_plain_eq (h : L.groups = false) (s : IStream) (old : ℤ) :
    L.getInt T s old = getInt T s old := by
  simp only [Punct.getInt, getInt, scan_plain h, List.length_singleton, le_refl, decide_true,
    Bool.true_or, Bool.not_true, Bool.or_false]

theorem showInt_plain (h : L.groups = false) (v : ℤ) : L.showInt v = showInt v := by
  simp only [Punct.showInt, showInt, group_eq, parts_plain h, joinSep]

/-! ## Exactly the grouped numerals -/

theorem joinSep_eq (s : Char) (ps : List (List Char)) : joinSep s ps = [s].intercalate ps := by
  induction ps with
  | nil => rfl
  | cons p ps ih =>
    cases ps with
    | nil => simp [joinSep, List.intercalate]
    | cons q ps =>
      rw [joinSep, ih]
      simp [List.intercalate]

theorem next_get (c : ℤ) (cs : List ℤ) (i : ℕ) :
    (next (c :: cs))[min i ((next (c :: cs)).length - 1)]? =
      (c :: cs)[min (i + 1) ((c :: cs).length - 1)]? := by
  cases cs with
  | nil => simp [next]
  | cons d ds =>
    simp only [next, List.length_cons, Nat.add_sub_cancel]
    rw [show min (i + 1) (ds.length + 1) = min i ds.length + 1 by omega]
    simp

theorem verify_iff (g : List ℤ) (ks : List ℕ) : verify g ks = true ↔
    ∀ (i k : ℕ) (c : ℤ), ks[i]? = some k → g[min i (g.length - 1)]? = some c →
      (i + 1 < ks.length → (k : ℤ) = c) ∧
      (i + 1 = ks.length → 0 < c → c ≠ 127 → (k : ℤ) ≤ c) := by
  induction ks generalizing g with
  | nil => cases g <;> simp [verify]
  | cons k ks ih =>
    cases g with
    | nil => simp [verify]
    | cons c cs =>
      cases ks with
      | nil =>
        simp only [verify, Bool.or_eq_true, Bool.not_eq_true', decide_eq_true_eq]
        constructor
        · rintro h i k' c' h1 h2
          obtain rfl : i = 0 := by
            by_contra hi
            obtain ⟨j, rfl⟩ : ∃ j, i = j + 1 := ⟨i - 1, by omega⟩
            simp at h1
          simp only [List.getElem?_cons_zero, Option.some.injEq, Nat.zero_min] at h1 h2
          subst h1 h2
          refine ⟨by simp, fun _ h3 h4 => ?_⟩
          rcases h with h | h
          · rw [limited_iff.2 ⟨h3, h4⟩] at h; cases h
          · exact h
        · intro h
          by_cases hl : limited c = true
          · right
            obtain ⟨h3, h4⟩ := limited_iff.1 hl
            exact (h 0 k c rfl (by simp)).2 rfl h3 h4
          · left; simpa using hl
      | cons k' ks =>
        simp only [verify, Bool.and_eq_true, decide_eq_true_eq, ih]
        constructor
        · rintro ⟨h1, h2⟩ i m d hm hd
          cases i with
          | zero =>
            simp only [List.getElem?_cons_zero, Option.some.injEq, Nat.zero_min] at hm hd
            subst hm hd
            exact ⟨fun _ => h1, fun h => by simp at h⟩
          | succ i =>
            rw [← next_get] at hd
            obtain ⟨a, b⟩ := h2 i m d (by simpa using hm) hd
            simp only [List.length_cons] at a b ⊢
            exact ⟨fun h => a (by omega), fun h => b (by omega)⟩
        · intro h
          refine ⟨(h 0 k c rfl (by simp)).1 (by simp), fun i m d hm hd => ?_⟩
          rw [next_get] at hd
          obtain ⟨a, b⟩ := h (i + 1) m d (by simpa using hm) hd
          simp only [List.length_cons] at a b ⊢
          exact ⟨fun h => a (by omega), fun h => b (by omega)⟩

theorem verify_parts_iff (ps : List (List Char)) (h : L.groups = true) (h0 : ps ≠ []) :
    (ps.length ≤ 1 ∨ verify L.grouping (ps.map List.length).reverse = true) ↔ L.Conforms ps := by
  have hl : 0 < ps.length := List.length_pos_iff.2 h0
  unfold Punct.Conforms
  refine or_congr (by omega) ?_
  rw [verify_iff]
  have e : (ps.map List.length).reverse = ps.reverse.map List.length := by rw [List.map_reverse]
  constructor
  · intro H
    refine ⟨breaks_iff.2 h, fun i p c hp hc => ?_⟩
    have := H i p.length c (by rw [e, List.getElem?_map, hp]; rfl) hc
    simpa using this
  · rintro ⟨-, H⟩ i k c hk hc
    rw [e, List.getElem?_map, Option.map_eq_some_iff] at hk
    obtain ⟨p, hp, rfl⟩ := hk
    have := H i p c hp hc
    simpa using this

theorem conforms_single (p : List Char) : L.Conforms [p] := .inl rfl

theorem scan_parts (hs : isDigit L.sep = false) (k : ℕ) (t : List Char)
    (hb : (L.scan k t).bad = false) : ∃ p ps, t = joinSep L.sep (p :: ps) ++ (L.scan k t).rest ∧
      (L.scan k t).digits = (p :: ps).flatten ∧
      (L.scan k t).sizes = (k + p.length) :: ps.map List.length ∧
      (∀ q ∈ p :: ps, ∀ c ∈ q, isDigit c = true) ∧ (ps ≠ [] → L.groups = true ∧ 0 < k + p.length) ∧
      (∀ q ∈ ps.dropLast, q ≠ []) ∧ L.Stops (L.scan k t).rest := by
  induction t generalizing k with
  | nil => exact ⟨[], [], rfl, rfl, by simp [Punct.scan], by simp, by simp, by simp,
      by simp [Punct.scan, Punct.Stops]⟩
  | cons c t ih =>
    rw [Punct.scan] at hb ⊢
    by_cases h1 : (L.groups && decide (c = L.sep)) = true
    · rw [if_pos h1] at hb ⊢
      by_cases hk : k = 0
      · rw [if_pos hk] at hb; cases hb
      rw [if_neg hk] at hb ⊢
      obtain ⟨hg, rfl⟩ : L.groups = true ∧ c = L.sep := by simpa using h1
      obtain ⟨p, ps, e1, e2, e3, e4, e5, e6, e7⟩ := ih 0 hb
      refine ⟨[], p :: ps, ?_, ?_, ?_, ?_, ?_, ?_, e7⟩
      · simp only [joinSep, List.nil_append, List.cons_append]
        rw [← e1]
      · simpa using e2
      · simp [e3]
      · intro q hq
        rcases List.mem_cons.1 hq with rfl | hq
        · simp
        · exact e4 q hq
      · intro _; exact ⟨hg, by simp; omega⟩
      · intro q hq
        cases ps with
        | nil => simp at hq
        | cons r rs =>
          rw [List.dropLast_cons_cons, List.mem_cons] at hq
          rcases hq with rfl | hq
          · have := (e5 (by simp)).2
            intro e; rw [e] at this; simp at this
          · exact e6 q hq
    · rw [if_neg h1] at hb ⊢
      by_cases hc : isDigit c = true
      · rw [if_pos hc] at hb ⊢
        obtain ⟨p, ps, e1, e2, e3, e4, e5, e6, e7⟩ := ih (k + 1) hb
        refine ⟨c :: p, ps, ?_, ?_, ?_, ?_, ?_, e6, e7⟩
        · conv_lhs => rw [e1]
          cases ps <;> simp [joinSep]
        · simp only [e2]; simp
        · simp only [e3, List.length_cons]
          rw [show k + 1 + p.length = k + (p.length + 1) by omega]
        · intro q hq x hx
          rcases List.mem_cons.1 hq with rfl | hq
          · rcases List.mem_cons.1 hx with rfl | hx
            · exact hc
            · exact e4 p (by simp) x hx
          · exact e4 q (by simp [hq]) x hx
        · intro h; exact ⟨(e5 h).1, by simp⟩
      · rw [if_neg hc]
        refine ⟨[], [], rfl, rfl, by simp, by simp, by simp, by simp, ?_⟩
        intro x l e
        obtain ⟨rfl, -⟩ := List.cons.inj e
        refine ⟨not_mem_decDigits.2 (by simpa using hc), fun hbr hx => h1 ?_⟩
        rw [breaks_iff.1 hbr, hx]; simp

/-- A successful reading has read a grouped numeral that fits. -/
theorem Punct.getInt_ok (hsane : L.Sane) {s s' : IStream} {old v : ℤ}
    (h : L.getInt T s old = (v, s'))
    (hf : s'.fail = false) (hu : T.signed = true ∨ '-' ∉ s.rest) :
    s.eof = false ∧ s.fail = false ∧ ∃ w a, s.rest = w ++ (a ++ s'.rest) ∧ Spaces w ∧
      L.Grouped a v ∧ L.Stops s'.rest ∧ T.InRange v ∧
      s'.eof = s'.rest.isEmpty := by
  unfold Punct.getInt at h
  split at h
  · obtain ⟨-, rfl⟩ := Prod.mk.inj h
    cases hf
  rename_i hs
  have hs' : s.eof = false ∧ s.fail = false := by
    cases h1 : s.eof <;> cases h2 : s.fail <;> simp_all
  refine ⟨hs'.1, hs'.2, ?_⟩
  simp only at h
  split at h
  · obtain ⟨-, rfl⟩ := Prod.mk.inj h
    cases hf
  split at h
  · obtain ⟨-, rfl⟩ := Prod.mk.inj h
    cases hf
  rename_i h1 h2
  obtain ⟨hv, rfl⟩ := Prod.mk.inj h
  simp only at hf ⊢
  generalize hr : s.rest.dropWhile isSpace = r at *
  have e1 : s.rest = s.rest.takeWhile isSpace ++ r := by
    rw [← hr, List.takeWhile_append_dropWhile]
  simp only [Bool.or_eq_true, not_or, Bool.not_eq_true] at h2
  obtain ⟨p, ps, b1, b2, bs, b3, bg, bn, b5⟩ := scan_parts hsane.sep.1 0 (splitSign r).2 h2.2
  have h2' : (p :: ps).flatten ≠ [] := by
    intro e; rw [← b2] at e; rw [e] at h2; simp at h2
  have b3' : ∀ c ∈ (L.scan 0 (splitSign r).2).digits, isDigit c = true := by
    rw [b2]; intro c hc
    obtain ⟨q, hq, hc⟩ := List.mem_flatten.1 hc
    exact b3 q hq c hc
  have hcons := (Bool.or_eq_false_iff.1 hf).2
  have hconf : L.Conforms (p :: ps) ∧ ∀ q ∈ p :: ps, q ≠ [] := by
    by_cases hps : ps = []
    · subst hps
      exact ⟨conforms_single p, by simpa using h2'⟩
    · obtain ⟨hg, hp⟩ := bg hps
      have hc : L.Conforms (p :: ps) := by
        rw [← verify_parts_iff _ hg (by simp)]
        rw [bs] at hcons
        simpa [or_iff_not_imp_left] using hcons
      refine ⟨hc, ?_⟩
      rcases hc with hc | ⟨⟨c, cs, e, hc0, -⟩, hc⟩
      · simp [hps] at hc
      intro q hq
      rcases List.mem_cons.1 hq with rfl | hq
      · intro e; rw [e] at hp; simp at hp
      · rw [← List.dropLast_concat_getLast hps, List.mem_append] at hq
        rcases hq with hq | hq
        · exact bn q hq
        · rw [List.mem_singleton] at hq
          have hl : 0 < ps.length := List.length_pos_iff.2 hps
          have := (hc 0 q c (by
            rw [hq, List.getElem?_reverse (by simp)]
            simp only [List.length_cons, Nat.sub_zero, Nat.add_sub_cancel]
            rw [List.getLast_eq_getElem, List.getElem?_cons, if_neg (by omega),
              List.getElem?_eq_getElem (by omega)]) (by simp [e])).1 (by simp; omega)
          rintro rfl
          simp at this
          omega
  have hall : ∀ q ∈ p :: ps, q ≠ [] ∧ ∀ c ∈ q, c ∈ Lit.decDigits :=
    fun q hq => ⟨hconf.2 q hq, fun c hc => mem_decDigits.2 (b3 q hq c hc)⟩
  have hneg : (splitSign r).1 = true → '-' ∈ s.rest := by
    intro hn
    rcases splitSign_spec r with ⟨t, e, e'⟩ | ⟨t, e, e'⟩ | e'
    · rw [e1, e]; simp
    · rw [e'] at hn; cases hn
    · rw [e'] at hn; cases hn
  have hu' : T.signed = true ∨ (splitSign r).1 = false := by
    rcases hu with h | h
    · exact .inl h
    · right
      by_contra hc
      exact h (hneg (by simpa using hc))
  have hf' := (Bool.or_eq_false_iff.1 hf).1
  obtain ⟨k1, k2⟩ := store_ok _ _ hu' hf'
  rw [k1] at hv
  rw [hv] at k2
  have hsp : Spaces (s.rest.takeWhile isSpace) := fun c hc => mem_whitespace.2 (takeWhile_all c hc)
  have hdg : ∀ c ∈ (p :: ps).flatten, c ∈ Lit.decDigits := by
    intro c hc
    rw [← b2] at hc
    exact mem_decDigits.2 (b3' c hc)
  rw [decimal_eq b3', b2] at hv
  rw [joinSep_eq] at b1
  refine ⟨s.rest.takeWhile isSpace, ?_⟩
  rcases splitSign_spec r with ⟨t, e, e'⟩ | ⟨t, e, e'⟩ | e'
  · refine ⟨'-' :: [L.sep].intercalate (p :: ps), ?_, hsp,
      ⟨['-'], p :: ps, rfl, by simp, hall, hconf.1, ?_⟩, b5, k2, trivial⟩
    · rw [List.cons_append, ← b1]
      conv_lhs => rw [e1, e]
      rw [e']
    · rw [← hv, show (splitSign r).1 = true by rw [e']]
      exact .minus h2' hdg
  · refine ⟨'+' :: [L.sep].intercalate (p :: ps), ?_, hsp,
      ⟨['+'], p :: ps, rfl, by simp, hall, hconf.1, ?_⟩, b5, k2, trivial⟩
    · rw [List.cons_append, ← b1]
      conv_lhs => rw [e1, e]
      rw [e']
    · rw [← hv, show (splitSign r).1 = false by rw [e']]
      exact .plus h2' hdg
  · refine ⟨[L.sep].intercalate (p :: ps), ?_, hsp,
      ⟨[], p :: ps, rfl, by simp, hall, hconf.1, ?_⟩, b5, k2, trivial⟩
    · rw [← b1]
      conv_lhs => rw [e1]
      rw [e']
    · rw [← hv, show (splitSign r).1 = false by rw [e']]
      exact .bare h2' hdg

/-- A grouped numeral that fits is read. -/
theorem Punct.getInt_grouped (hs : L.Sane) {w a rest : List Char} {old n : ℤ} (hw : Spaces w)
    (ha : L.Grouped a n) (hr : L.Stops rest) (hn : T.InRange n) :
    L.getInt T ⟨w ++ (a ++ rest), false, false⟩ old = (n, ⟨rest, rest.isEmpty, false⟩) := by
  obtain ⟨sign, ps, rfl, hsign, hp, hc, hnum⟩ := ha
  have hp' : ∀ p ∈ ps, p ≠ [] ∧ ∀ c ∈ p, isDigit c = true :=
    fun p h => ⟨(hp p h).1, fun c hc => mem_decDigits.1 ((hp p h).2 c hc)⟩
  have h0 : ps ≠ [] := by
    rintro rfl
    rcases hc with hc | ⟨⟨c, cs, e, h0, h1⟩, -⟩
    · simp at hc
    · simp only [List.flatten_nil, List.append_nil] at hnum
      simp only [List.mem_cons, List.not_mem_nil, or_false] at hsign
      rcases hsign with rfl | rfl | rfl
      · cases hnum with
        | bare h0 h1 => exact h0 rfl
      · cases hnum with
        | bare h0 h1 => exact absurd (h1 '+' (by simp)) (by decide)
        | plus h0 h1 => exact h0 rfl
      · cases hnum with
        | bare h0 h1 => exact absurd (h1 '-' (by simp)) (by decide)
        | minus h0 h1 => exact h0 rfl
  have hg : ps.length ≤ 1 ∨ L.groups = true := by
    rcases hc with h | ⟨h, -⟩
    · left; omega
    · exact .inr (breaks_iff.1 h)
  have hcons : (ps.length ≤ 1 ∨ verify L.grouping (ps.map List.length).reverse = true) := by
    rcases hg with h | h
    · exact .inl h
    · exact (verify_parts_iff ps h h0).2 hc
  have hdig : ∀ c ∈ ps.flatten, isDigit c = true := by
    intro c hc
    obtain ⟨q, hq, hc⟩ := List.mem_flatten.1 hc
    exact (hp' q hq).2 c hc
  have hf0 : ps.flatten ≠ [] := by
    cases ps with
    | nil => exact absurd rfl h0
    | cons p ps => simp [(hp' p (by simp)).1]
  have hhead : ∃ c t, [L.sep].intercalate ps ++ rest = c :: t ∧ isDigit c = true := by
    rw [← joinSep_eq]
    cases ps with
    | nil => exact absurd rfl h0
    | cons p ps =>
      obtain ⟨p0, pd⟩ := hp' p (by simp)
      obtain ⟨tail, e, -⟩ := joinSep_cons L.sep p ps
      cases p with
      | nil => exact absurd rfl p0
      | cons c p => exact ⟨c, _, by rw [e]; rfl, pd c (by simp)⟩
  have key : ∀ neg, ((sign = [] ∧ neg = false) ∨ (sign = ['+'] ∧ neg = false) ∨
      (sign = ['-'] ∧ neg = true)) →
      n = (if neg then -(Lit.seqValue 10 ps.flatten : ℤ) else Lit.seqValue 10 ps.flatten) →
      L.getInt T ⟨w ++ (sign ++ [L.sep].intercalate ps ++ rest), false, false⟩ old =
        (n, ⟨rest, rest.isEmpty, false⟩) := by
    intro neg hsg e
    rw [List.append_assoc, getInt_scan hw hsg hhead, ← joinSep_eq,
      scan_join hs.sep.1 h0 hp' hg hr]
    have hcons' : (decide ((ps.map List.length).length ≤ 1) ||
        verify L.grouping (ps.map List.length).reverse) = true := by
      simpa using hcons
    simp only [hcons', Bool.not_true, Bool.or_false, List.isEmpty_iff, hf0,
      decide_false, Bool.false_eq_true, if_false]
    rw [decimal_eq hdig, store_inRange neg _ (by rwa [← e]), ← e]
  obtain ⟨c0, t0, e0, hc0⟩ : ∃ c t, ps.flatten = c :: t ∧ isDigit c = true := by
    cases h : ps.flatten with
    | nil => exact absurd h hf0
    | cons c t => exact ⟨c, t, rfl, hdig c (by simp [h])⟩
  simp only [List.mem_cons, List.not_mem_nil, or_false] at hsign
  rcases hsign with rfl | rfl | rfl
  · refine key false (by simp) ?_
    rw [List.nil_append, e0] at hnum
    rw [e0]
    cases hnum with
    | bare h0 h1 => rfl
    | plus h0 h1 => exact absurd hc0 (by decide)
    | minus h0 h1 => exact absurd hc0 (by decide)
  · refine key false (by simp) ?_
    rw [List.singleton_append] at hnum
    cases hnum with
    | bare h0 h1 => exact absurd (h1 '+' (by simp)) (by decide)
    | plus h0 h1 => rfl
  · refine key true (by simp) ?_
    rw [List.singleton_append] at hnum
    cases hnum with
    | bare h0 h1 => exact absurd (h1 '-' (by simp)) (by decide)
    | minus h0 h1 => rfl

end Ieme.Stream
