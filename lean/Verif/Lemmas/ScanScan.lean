import Verif.Lemmas.ScanDigits
import Verif.Spec.ScanText

/-!
# `scan_floating_point_string`, from the text
-/

namespace Ieme.Script

open Header

section

variable {tys tys' : List (Nat × TVal)} {lib lib' : Invoke}
  {cl cl' : Nat → List TVal → List V → Res V} {rn : Stm → Env → Res V} {fu fu' : Nat}
  {k : Env → Res V} {x : Exits}

/-- A context in which lambda expressions are run by the interpreter. -/
local notation "ctx" => Ctx.mk parser tys lib cl
  (fun body env => exec (Ctx.mk parser tys' lib' cl' rn fu')
    (Exits.mk pure (fun _ => illFormed) (fun _ => illFormed)) body none env (fun _ => illFormed)) fu

theorem exponent_ok
    (hx : x.ret .none = pure .none)
    (hy : ∀ r, x.ret (scanned r) = pure (.some (scanned r)))
    (hv : ∀ s b, cl N.«is_valid_digit_sequence» [] [.str s, integer i32 b] =
      pure (truth (Parse.isValidDigitSequence s b)))
    (string rem : List Char) (r : Parse.Scan) (v₁ v₂ v₃ v₄ v₅ v₆ v₇ : V) :
    exec ctx x B.scan_24 none
      [(N.«no_fractional», v₁), (N.«no_exponent_separator», v₂), (N.«exponent_separator_pos», v₃),
        (N.«no_radix_separator», v₄), (N.«no_whole», v₅), (N.«radix_separator_pos», v₆),
        (N.«results», scanned r), (N.«last_pos», v₇), (N.«remaining_string», .str rem),
        (N.«string», .str string)] k = maybeScanned <$> Parse.scanExponent r rem := by
  simp only [exec_scan] at hx hy hv
  cases rem with
  | nil =>
    run [B.scan_24, scanned, Parse.scanExponent, View.front]
    rfl
  | cons a s =>
    have h1 : View.removePrefix (a :: s) 1 = pure s := by simp [View.removePrefix]
    have h1' : View.removePrefix (a :: s) (Int.toNat 1) = pure s := h1
    have e45 : Char.ofNat 45 = '-' := rfl
    have e43 : Char.ofNat 43 = '+' := rfl
    by_cases h : a = '-'
    · subst h
      run [B.scan_24, B.scan_25, B.scan_26, B.scan_27, scanned, Parse.scanExponent, signOf, hv, hx,
        View.front, h1, h1', e45]
      cases Parse.isValidDigitSequence s 10
      · rfl
      · exact hy { r with negative := true, exponent := s }
    · by_cases h' : a = '+'
      · subst h'
        have h43 : ('+' = '-') = False := by decide
        have h45 : ('-' = '+') = False := by decide
        run [B.scan_24, B.scan_25, B.scan_26, B.scan_27, scanned, Parse.scanExponent, signOf, hv, hx,
          View.front, h1, h1', e45, e43, h43, h45]
        cases Parse.isValidDigitSequence s 10
        · rfl
        · exact hy { r with exponent := s }
      · have g : ('-' = a) = False := eq_false (Ne.symm h)
        have g' : ('+' = a) = False := eq_false (Ne.symm h')
        run [B.scan_24, B.scan_25, B.scan_26, B.scan_27, scanned, Parse.scanExponent, signOf, hv, hx,
          View.front, e45, e43, g, g', h, h']
        cases Parse.isValidDigitSequence (a :: s) 10
        · rfl
        · exact hy { r with exponent := a :: s }

/-- The loop that counts digits. -/
theorem precision_loop (body next : Stm)
    (hb : ∃ n, B.scan_21 = .set N.«results» N.«fractional_precision» (.now (.decl N.«result»
      (.unum 0) (.each N.«digit» (.fld (.var N.«results») N.«fractional») body next))) n)
    (p₁ p₂ p₃ p₄ p₅ p₆ p₇ p₈ p₉ p₀ : Nat × V) (v : V) :
    ∀ (s : List Char) (n : Int),
    each ctx ⟨pure, fun _ => illFormed, fun _ => illFormed⟩ N.«digit» body next
      [(N.«result», v), p₁, p₂, p₃, p₄, p₅, p₆, p₇, p₈, p₉, p₀] k
      [(N.«result», integer u32 n), p₁, p₂, p₃, p₄, p₅, p₆, p₇, p₈, p₉, p₀] (.str s) =
      integer u32 <$> s.foldlM (fun n c => if c ≠ '\'' then u32.add n 1 else pure n) n := by
  obtain ⟨m, hb⟩ := hb
  unfold B.scan_21 at hb
  injection hb with _ _ hb _
  injection hb with hb
  injection hb with _ _ hb
  injection hb with _ _ hb hn
  subst hb hn
  have hc : IntTy.common u32 i32 = u32 := by decide
  have ht : toTy u32 i32 1 = pure 1 := rfl
  have e39 : Char.ofNat 39 = '\'' := rfl
  intro s
  induction s with
  | nil =>
    intro n
    rw [each_nil]
    run [List.foldlM_nil]
  | cons a s ih =>
    intro n
    rw [each_cons]
    run [List.foldlM_cons, ih, hc, ht, e39]
    by_cases h : a = '\''
    · subst h
      simp only [ne_eq, not_true_eq_false, reduceIte, pure_bind]
    · have h' : ¬ (a.toNat : Int) = '\''.toNat := fun g => h ((char_eq _ _).mpr g)
      simp only [ne_eq, h, h', not_false_eq_true, reduceIte]

/-- A position as a number. -/
def posInt : Option Nat → Int
  | Option.none => npos
  | Option.some n => n

theorem position_eq (o : Option Nat) : position o = integer u64 (posInt o) := by cases o <;> rfl

theorem find_lt (c : Char) : ∀ (s : List Char) (n : Nat), View.find c s = some n → n < s.length
  | [], n, h => by simp [View.find] at h
  | a :: s, n, h => by
    unfold View.find at h
    split at h
    · cases h; simp
    · cases g : View.find c s with
      | none => simp [g] at h
      | some m =>
        have := find_lt c s m g
        simp [g] at h
        simp; omega

theorem u64_sub_one (n : Nat) (h : 0 < n) (h' : n < 2 ^ 64) :
    u64.sub (n : Int) 1 = pure ((n : Int) - 1) := by
  exact IntTy.sub_clean.mpr ⟨by
    rw [IntTy.InRange]; constructor <;> simp [IntTy.min, IntTy.max, u64] <;> omega, rfl⟩

theorem u64_add_one (n : Nat) (h' : n + 1 < 2 ^ 64) :
    u64.add (n : Int) 1 = pure ((n : Int) + 1) := by
  exact IntTy.add_clean.mpr ⟨by
    rw [IntTy.InRange]; constructor <;> simp [IntTy.min, IntTy.max, u64] <;> omega, rfl⟩

section Positions

variable {o : Option Nat} {rem : List Char} (ho : ∀ n, o = some n → n < rem.length)
  (hl : rem.length < 2 ^ 64)
include ho hl

theorem pos_last (hne : rem ≠ []) :
    (posInt o = (rem.length : Int) - 1) = (o = View.lastPos rem) := by
  have : 0 < rem.length := List.length_pos_iff.mpr hne
  cases o with
  | none =>
    simp [posInt, View.lastPos, npos, hne]
    omega
  | some n =>
    simp [posInt, View.lastPos, hne]
    omega

theorem pos_npos : (posInt o = npos) = (o = none) := by
  cases o with
  | none => simp [posInt]
  | some n =>
    have := ho n rfl
    simp [posInt, npos]
    omega

theorem pos_take : rem.take (posInt o).toNat = View.prefix' rem o := by
  cases o with
  | none =>
    simp [posInt, View.prefix', npos]
    omega
  | some n => simp [posInt, View.prefix']

end Positions

theorem exponentPos_lt (b : Int) (s : List Char) (n : Nat) (h : Parse.exponentPos b s = some n) :
    n < s.length := by
  unfold Parse.exponentPos at h
  split at h
  split at h
  · next h' => cases h; exact find_lt _ _ _ h'
  · exact find_lt _ _ _ h

theorem exponentPos_ok (string rem : List Char) (r : Parse.Scan) (hb : r.base = 10 ∨ r.base = 16)
    (hl : rem.length < 2 ^ 64) (v₄ v₅ v₆ v₇ : V) (e : Exp)
    (he : B.scan_12 = .decl N.«exponent_separator_pos» e B.scan_13) :
    eval ctx
      [(N.«no_radix_separator», v₄), (N.«no_whole», v₅), (N.«radix_separator_pos», v₆),
        (N.«results», scanned r), (N.«last_pos», v₇), (N.«remaining_string», .str rem),
        (N.«string», .str string)] e =
      pure (position (Parse.exponentPos r.base rem)) := by
  unfold B.scan_12 at he
  injection he with _ he _
  subst he
  rcases hb with hb | hb
  · run [scanned, hb, position_eq]
    simp only [ne_eq, pos_npos (find_lt (Char.ofNat 101) rem) hl]
    have e101 : Char.ofNat 101 = 'e' := rfl
    have e69 : Char.ofNat 69 = 'E' := rfl
    simp only [e101, e69, Parse.exponentPos, reduceIte]
    cases View.find 'e' rem <;> rfl
  · run [scanned, hb, position_eq]
    simp only [ne_eq, pos_npos (find_lt (Char.ofNat 112) rem) hl]
    have e112 : Char.ofNat 112 = 'p' := rfl
    have e80 : Char.ofNat 80 = 'P' := rfl
    simp only [e112, e80, Parse.exponentPos, Int.reduceEq, reduceIte]
    cases View.find 'p' rem <;> rfl

theorem precision_eval (string rem : List Char) (r : Parse.Scan) (v₁ v₂ v₃ v₄ v₅ v₆ v₇ : V) (e : Exp)
    (he : B.scan_21 = .set N.«results» N.«fractional_precision» e B.scan_22) :
    eval ctx
      [(N.«no_fractional», v₁), (N.«no_exponent_separator», v₂), (N.«exponent_separator_pos», v₃),
        (N.«no_radix_separator», v₄), (N.«no_whole», v₅), (N.«radix_separator_pos», v₆),
        (N.«results», scanned r), (N.«last_pos», v₇), (N.«remaining_string», .str rem),
        (N.«string», .str string)] e =
      integer u32 <$>
        r.fractional.foldlM (fun n c => if c ≠ '\'' then u32.add n 1 else pure n) 0 := by
  have hl := fun k v => precision_loop (tys := tys) (tys' := tys') (lib := lib) (lib' := lib')
    (cl := cl) (cl' := cl') (rn := rn) (fu := fu) (fu' := fu') (k := k) _ _ ⟨_, rfl⟩
    (N.«no_fractional», v₁) (N.«no_exponent_separator», v₂) (N.«exponent_separator_pos», v₃)
    (N.«no_radix_separator», v₄) (N.«no_whole», v₅) (N.«radix_separator_pos», v₆)
    (N.«results», scanned r) (N.«last_pos», v₇) (N.«remaining_string», .str rem)
    (N.«string», .str string) v r.fractional 0
  unfold B.scan_21 at he
  injection he with _ _ he _
  subst he
  rw [← hl]
  run [scanned]
  rfl

theorem tail_ok
    (hx : x.ret .none = pure .none)
    (hy : ∀ r, x.ret (scanned r) = pure (.some (scanned r)))
    (hv : ∀ s b, cl N.«is_valid_digit_sequence» [] [.str s, integer i32 b] =
      pure (truth (Parse.isValidDigitSequence s b)))
    (string rem : List Char) (r : Parse.Scan) (o : Option Nat)
    (ho : ∀ n, o = some n → n < rem.length) (hl : rem.length < 2 ^ 64) (v₁ v₄ v₅ v₆ v₇ : V) :
    exec ctx x B.scan_21 none
      [(N.«no_fractional», v₁), (N.«no_exponent_separator», truth o.isNone),
        (N.«exponent_separator_pos», integer u64 (posInt o)), (N.«no_radix_separator», v₄),
        (N.«no_whole», v₅), (N.«radix_separator_pos», v₆),
        (N.«results», scanned r), (N.«last_pos», v₇), (N.«remaining_string», .str rem),
        (N.«string», .str string)] k =
      maybeScanned <$> (Parse.precision r.fractional >>= fun p =>
        match o with
        | none => pure (some { r with precision := p })
        | some n => do
          let rest ← View.removePrefix rem (n + 1)
          Parse.scanExponent { r with precision := p } rest) := by
  have hc : IntTy.common u64 i32 = u64 := by decide
  have ht : toTy u64 i32 1 = pure 1 := rfl
  have hq : (toTy i32 u32 : Int → Res Int) = i32.conv := rfl
  rw [show B.scan_21 = .set N.«results» N.«fractional_precision» _ B.scan_22 from rfl, exec_set,
    precision_eval string rem r _ _ _ _ _ _ _ _ rfl, Parse.precision]
  simp only [seq, map_eq_pure_bind, bind_assoc, pure_bind]
  congr 1
  funext n
  cases o with
  | none =>
    run [scanned, hq, B.scan_22, Option.isNone]
    refine bind_congr fun p => ?_
    exact hy { r with precision := p }
  | some m =>
    have hm := ho m rfl
    obtain ⟨q, hq'⟩ : ∃ q, q = posInt (some m) := ⟨_, rfl⟩
    have ha : u64.add q 1 = pure (q + 1) := by subst hq'; exact u64_add_one m (by omega)
    have e : (q + 1).toNat = m + 1 := by subst hq'; rfl
    rw [← hq']
    have hr : View.removePrefix rem (m + 1) = pure (rem.drop (m + 1)) := if_pos (by omega)
    run [scanned, hq, B.scan_22, B.scan_23, Option.isNone, hc, ht, ha,
      e, hr]
    refine bind_congr fun p => ?_
    have := exponent_ok (tys := tys) (tys' := tys') (lib := lib) (lib' := lib')
      (cl := cl) (cl' := cl') (rn := rn) (fu := fu) (fu' := fu') (k := k) hx hy hv string
      (rem.drop (m + 1)) { r with precision := p } v₁ (truth false) (integer u64 q) v₄ v₅ v₆ v₇
    rw [← map_eq_pure_bind]
    exact this

/-- The lambda expression `last_pos`. -/
def lastPos : Stm :=
  .ret (.bin .sub (.meth (.var N.«remaining_string») N.«size» .nil) (.num 1)) .nil

theorem fractional_ok
    (hx : x.ret .none = pure .none)
    (hy : ∀ r, x.ret (scanned r) = pure (.some (scanned r)))
    (hv : ∀ s b, cl N.«is_valid_digit_sequence» [] [.str s, integer i32 b] =
      pure (truth (Parse.isValidDigitSequence s b)))
    (string rem : List Char) (r : Parse.Scan) (hb : r.base = 10 ∨ r.base = 16)
    (hne : rem ≠ []) (hl : rem.length < 2 ^ 64) (noWhole noRadix : Bool) (v₆ : V) :
    exec ctx x B.scan_12 none
      [(N.«no_radix_separator», truth noRadix), (N.«no_whole», truth noWhole),
        (N.«radix_separator_pos», v₆), (N.«results», scanned r), (N.«last_pos», .lam lastPos),
        (N.«remaining_string», .str rem), (N.«string», .str string)] k =
      maybeScanned <$> Parse.scanFractional r noWhole noRadix rem := by
  have hrun := hv
  simp only [exec_scan] at hrun
  have hlen : 0 < rem.length := List.length_pos_iff.mpr hne
  have hp := exponentPos_lt r.base rem
  rw [show B.scan_12 = .decl N.«exponent_separator_pos» _ B.scan_13 from rfl, exec_decl,
    exponentPos_ok string rem r hb hl _ _ _ _ _ rfl, Parse.scanFractional]
  generalize Parse.exponentPos r.base rem = o at hp
  have hc : IntTy.common u64 i32 = u64 := by decide
  have ht : toTy u64 i32 1 = pure 1 := rfl
  have hq : (toTy i32 u32 : Int → Res Int) = i32.conv := rfl
  simp only [seq, pure_bind]
  run [B.scan_13, position_eq, lastPos, hc, ht, u64_sub_one _ hlen hl, pos_last hp hl hne, hx]
  split
  · rfl
  · run [B.scan_14, B.scan_15, B.scan_16, pos_npos hp hl, hx, scanned]
    have hn : decide (o = none) = o.isNone := by cases o <;> rfl
    simp only [hn]
    split
    · rfl
    · split
      · rfl
      · run [B.scan_17, B.scan_18, B.scan_19, B.scan_20, pos_take hp hl, hrun, hx]
        split
        · rfl
        · split
          · rfl
          · have := tail_ok (tys := tys) (tys' := tys') (lib := lib) (lib' := lib')
              (cl := cl) (cl' := cl') (rn := rn) (fu := fu) (fu' := fu') (k := k) hx hy hv string
              rem { r with fractional := View.prefix' rem o } o hp hl
              (truth (View.prefix' rem o).isEmpty) (truth noRadix) (truth noWhole) v₆ (.lam lastPos)
            rw [← map_eq_pure_bind]
            exact this

theorem whole_ok
    (hx : x.ret .none = pure .none)
    (hy : ∀ r, x.ret (scanned r) = pure (.some (scanned r)))
    (hv : ∀ s b, cl N.«is_valid_digit_sequence» [] [.str s, integer i32 b] =
      pure (truth (Parse.isValidDigitSequence s b)))
    (string rem : List Char) (base : Int) (hb : base = 10 ∨ base = 16)
    (hne : rem ≠ []) (hl : rem.length < 2 ^ 64) :
    exec ctx x B.scan_5 none
      [(N.«results», scanned { base := base }), (N.«last_pos», .lam lastPos),
        (N.«remaining_string», .str rem), (N.«string», .str string)] k =
      maybeScanned <$> Parse.scanWhole base rem := by
  have hrun := hv
  simp only [exec_scan] at hrun
  have hlen : 0 < rem.length := List.length_pos_iff.mpr hne
  have hp := find_lt '.' rem
  have e46 : Char.ofNat 46 = '.' := rfl
  have hc : IntTy.common u64 i32 = u64 := by decide
  have ht : toTy u64 i32 1 = pure 1 := rfl
  rw [Parse.scanWhole]
  run [B.scan_5, scanned, e46]
  generalize View.find '.' rem = o at hp
  run [B.scan_6, B.scan_7, B.scan_8, position_eq, pos_take hp hl, hrun, hx]
  split
  · rfl
  · run [B.scan_9, position_eq, lastPos, hc, ht, u64_sub_one _ hlen hl, pos_last hp hl hne, hx]
    split
    · split
      · exact hy { base := base, whole := View.prefix' rem o }
      · rfl
    · next hlast =>
      have hn : decide (o = none) = o.isNone := by cases o <;> rfl
      run [B.scan_10, B.scan_11, pos_npos hp hl, hn]
      cases o with
      | none =>
        have := fractional_ok (tys := tys) (tys' := tys') (lib := lib) (lib' := lib')
          (cl := cl) (cl' := cl') (rn := rn) (fu := fu) (fu' := fu') (k := k) hx hy hv string
          rem { base := base, whole := View.prefix' rem none } hb hne hl
          (View.prefix' rem none).isEmpty true (integer u64 (posInt none))
        rw [← map_eq_pure_bind]
        exact this
      | some m =>
        have hm := hp m rfl
        have hlast' : m ≠ rem.length - 1 := fun h => hlast (by simp [View.lastPos, hne, h])
        obtain ⟨q, hq'⟩ : ∃ q, q = posInt (some m) := ⟨_, rfl⟩
        have ha : u64.add q 1 = pure (q + 1) := by subst hq'; exact u64_add_one m (by omega)
        have e : (q + 1).toNat = m + 1 := by subst hq'; rfl
        have hr : View.removePrefix rem (m + 1) = pure (rem.drop (m + 1)) := if_pos (by omega)
        rw [← hq']
        run [Option.isNone, hc, ht, ha, e, hr]
        have := fractional_ok (tys := tys) (tys' := tys') (lib := lib) (lib' := lib')
          (cl := cl) (cl' := cl') (rn := rn) (fu := fu) (fu' := fu') (k := k) hx hy hv string
          (rem.drop (m + 1)) { base := base, whole := View.prefix' rem (some m) } hb
          (by simp; omega) (by simp; omega)
          (View.prefix' rem (some m)).isEmpty false (integer u64 q)
        rw [← map_eq_pure_bind]
        exact this

end

/-- `floating_point_string_scan_results` without initialisers. -/
theorem results_ok (n : Nat) :
    callFunc parser (mkCtx parser n) N.«floating_point_string_scan_results» [] [] =
      pure (scanned {}) := by
  obtain ⟨lib, cl, rn, fu, h⟩ := mkCtx_eq n []
  simp only [callFunc, func_results, struct_results, h]
  run [initFields, defaultOf, scanned, signOf]
  rfl

theorem scan_ok (n : Nat) (s : List Char) (hl : s.length < 2 ^ 64) :
    callFunc parser (mkCtx parser (n + 2)) N.«scan_floating_point_string» [] [.str s] =
      maybeScanned <$> Parse.scan s := by
  rw [callFunc_eq (g := F.scan) rfl rfl (tys' := knownTypes) rfl rfl]
  have h1 : mkCtx parser (n + 2) knownTypes = ⟨parser, knownTypes, Header.invoke library (n + 1),
      callFunc parser (mkCtx parser (n + 1)), fun body env => exec (mkCtx parser (n + 1) knownTypes)
        ⟨pure, fun _ => illFormed, fun _ => illFormed⟩ body none env (fun _ => illFormed),
      n + 1⟩ := rfl
  obtain ⟨lib, cl, rn, fu, h⟩ := mkCtx_eq (n + 1) knownTypes
  rw [h1, h]
  clear h1 h
  have hr := results_ok (n + 1)
  have hv := valid_ok (n + 1)
  generalize callFunc parser (mkCtx parser (n + 1)) = cl' at hr hv
  have hr' := hr
  simp only [exec_scan] at hr'
  have hc : IntTy.common u64 i32 = u64 := by decide
  have ht : toTy u64 i32 2 = pure 2 := rfl
  run [F.scan, B.scan_0, B.scan_1, hc, ht]
  have hlt : ((s.length : Int) < 2) = (s.length < 2) := by simp
  have hgt : ((s.length : Int) > 2) = (s.length > 2) := by simp
  simp only [hlt, Parse.scan]
  split
  · rfl
  · run [B.scan_2, B.scan_3, hr', scanned, signOf, B.scan_4, hc, ht]
    have w := fun (x : Exits) hx hy (rem : List Char) base hb hne hl =>
      whole_ok (x := x) (tys := knownTypes) (tys' := knownTypes) (lib := Header.invoke library (n + 1))
        (lib' := lib) (cl := cl') (cl' := cl) (rn := rn) (fu := n + 1) (fu' := fu)
        (k := fun _ => illFormed) hx hy hv s rem base hb hne hl
    have e2 : (2 : Int).toNat = 2 := rfl
    have ex : List.map Char.ofNat [48, 120] = ['0', 'x'] := rfl
    have eX : List.map Char.ofNat [48, 88] = ['0', 'X'] := rfl
    have hs : s ≠ [] := by rintro rfl; simp_all
    have hp : View.prefix' s (some 2) = s.take 2 := rfl
    simp only [hgt, e2, ex, eX, Parse.scanPrefix, hp, Bool.or_eq_true, decide_eq_true_eq]
    by_cases h2 : s.length > 2
    · have hrm : View.removePrefix s 2 = pure (s.drop 2) := if_pos (by omega)
      by_cases h3 : s.take 2 = ['0', 'x'] ∨ s.take 2 = ['0', 'X']
      · simp only [h2, h3, reduceIte, hrm, pure_bind]
        rw [← map_eq_pure_bind]
        refine w ⟨_, _, _⟩ ?_ ?_ (s.drop 2) 16 (.inr rfl) (by simp; omega) (by simp; omega) <;>
          simp [returned, scanned]
      · simp only [h2, h3, reduceIte, pure_bind]
        rw [← map_eq_pure_bind]
        refine w ⟨_, _, _⟩ ?_ ?_ s 10 (.inl rfl) hs hl <;> simp [returned, scanned]
    · simp only [h2, reduceIte, pure_bind]
      rw [← map_eq_pure_bind]
      refine w ⟨_, _, _⟩ ?_ ?_ s 10 (.inl rfl) hs hl <;> simp [returned, scanned]

end Ieme.Script
