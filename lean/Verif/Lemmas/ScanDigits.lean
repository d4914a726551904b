import Verif.Lemmas.ScanEval
import Verif.Lemmas.HeaderRaw

/-!
# Digit sequences, from the text

Lemmas about `is_valid_digit_sequence` and `digit_sequence_to_int`.
-/

namespace Ieme.Script

open Header

section

variable {tys : List (Nat × TVal)} {lib : Invoke} {cl : Nat → List TVal → List V → Res V}
  {rn : Stm → Env → Res V} {fu : Nat} {k : Env → Res V}

local notation "ctx" => Ctx.mk parser tys lib cl rn fu

theorem valid_loop (x : Exits) (hx : ∀ b, x.ret (truth b) = pure (truth b)) (base : Int)
    (all : List Char) (body : Stm) (hb : B.valid_1 = .each N.«c» (.var N.«sequence») body B.valid_2) :
    ∀ (s : List Char) (p p' : Bool),
    each ctx x N.«c» body B.valid_2
      [(N.«digit_preceeded», truth p'), (N.«sequence», .str all), (N.«base», integer i32 base)] k
      [(N.«digit_preceeded», truth p), (N.«sequence», .str all), (N.«base», integer i32 base)]
      (.str s) = pure (truth (Parse.validLoop base p s)) := by
  unfold B.valid_1 at hb
  injection hb with _ _ hb _
  subst hb
  intro s
  induction s with
  | nil =>
    intro p p'
    rw [each_nil]
    run [B.valid_2, hx, Parse.validLoop]
  | cons a s ih =>
    intro p p'
    rw [each_cons]
    run [hx, Parse.validLoop, ih]
    simp only [char_eq a, char_lt, gt_iff_lt, bne, beq_eq_decide, ne_eq, decide_not]
    split
    · split <;> rfl
    · split <;> rfl

theorem mkCtx_eq (n : Nat) (tys : List (Nat × TVal)) :
    ∃ lib cl rn fu, mkCtx parser n tys = ⟨parser, tys, lib, cl, rn, fu⟩ := by
  cases n <;> exact ⟨_, _, _, _, rfl⟩

theorem valid_ok (n : Nat) (s : List Char) (base : Int) :
    callFunc parser (mkCtx parser n) N.«is_valid_digit_sequence» [] [.str s, integer i32 base] =
      pure (truth (Parse.isValidDigitSequence s base)) := by
  obtain ⟨lib, cl, rn, fu, h⟩ := mkCtx_eq n knownTypes
  rw [callFunc_eq (g := F.valid) rfl rfl rfl h]
  run [F.valid, B.valid_0, B.valid_1, knownTypes]
  exact valid_loop _ (fun b => by run []) _ _ _ rfl _ _ _

theorem char_small (a : Char) : a.toNat < 1114112 := by
  rcases a.valid with h | ⟨_, h⟩
  · exact Nat.lt_trans h (by decide)
  · exact h

theorem char_sub (a : Char) (k : Int) (h : 0 ≤ k ∧ k ≤ 1000) :
    i32.sub a.toNat k = pure (a.toNat - k) := by
  have := char_small a
  exact IntTy.sub_clean.mpr ⟨by rw [IntTy.InRange]; constructor <;> simp [IntTy.min, IntTy.max, i32] <;> omega, rfl⟩

theorem char_add (a : Char) (k : Int) (h : 0 ≤ k ∧ k ≤ 1000) :
    i32.add (a.toNat - k) 10 = pure (a.toNat - k + 10) := by
  have := char_small a
  exact IntTy.add_clean.mpr ⟨by rw [IntTy.InRange]; constructor <;> simp [IntTy.min, IntTy.max, i32] <;> omega, rfl⟩

theorem digits_loop (x : Exits) (T : IntTy) (base : Int) (all : List Char) (outer : Env)
    (ho : outer.length = 4) (hT : tys.lookup N.«Int» = some (.int T))
    (t : Exp) (body : Stm)
    (hb : B.digits_2 = .loop N.«it» (.meth (.var N.«sequence») N.«rbegin» .nil) t body B.digits_3) :
    ∀ (s : List Char) (n : Nat) (result power : Int), s.length < n →
    loopFrom ctx x N.«it» t body B.digits_3 outer k n
      [(N.«it», .iter s), (N.«base_power», integer T power), (N.«result», integer T result),
        (N.«sequence», .str all), (N.«base», integer T base)] =
      Parse.digitLoop T base s result power >>= fun r => x.ret (integer T r) := by
  unfold B.digits_2 at hb
  injection hb with _ _ ht hb _
  subst ht hb
  intro s
  induction s with
  | nil =>
    intro n result power hn
    obtain ⟨m, rfl⟩ : ∃ m, n = m + 1 := ⟨n - 1, by simp at hn; omega⟩
    rw [loopFrom_succ]
    run [B.digits_3, Parse.digitLoop, ho]
  | cons a s ih =>
    intro n result power hn
    obtain ⟨m, rfl⟩ : ∃ m, n = m + 1 := ⟨n - 1, by simp at hn; omega⟩
    have hm : s.length < m := by simpa using hn
    rw [loopFrom_succ]
    run [hT, ih _ _ _ hm]
    have h65 : (Char.ofNat 65).toNat = 65 := rfl
    have h70 : (Char.ofNat 70).toNat = 70 := rfl
    have h97 : (Char.ofNat 97).toNat = 97 := rfl
    have h102 : (Char.ofNat 102).toNat = 102 := rfl
    have h48 : (Char.ofNat 48).toNat = 48 := rfl
    have hs := fun k hk => char_sub a k hk
    have ha := fun k hk => char_add a k hk
    simp only [Parse.digitLoop, Parse.digitAsInt, char_eq a, ge_iff_le, char_le, Bool.and_eq_true,
      decide_eq_true_eq, h65, h70, h97, h102, h48, Nat.cast_ofNat]
    rw [hs 65 (by decide), hs 97 (by decide), hs 48 (by decide)]
    simp only [pure_bind, ha 65 (by decide), ha 97 (by decide)]
    split
    · rfl
    · split
      · simp only [bind_assoc]
      · split <;> simp only [bind_assoc]

theorem digits_ok (n : Nat) (s : List Char) (T : IntTy) (base : Int) (h : s.length + 4 ≤ n) :
    callFunc parser (mkCtx parser n) N.«digit_sequence_to_int» [] [.str s, integer T base] =
      integer T <$> Parse.digitSequenceToInt T s base := by
  obtain ⟨m, rfl⟩ : ∃ m, n = m + 1 := ⟨n - 1, by omega⟩
  rw [callFunc_eq (g := F.digits) rfl rfl (tys' := (N.«Int», .int T) :: knownTypes) rfl rfl]
  simp only [mkCtx]
  run [F.digits, B.digits_0, B.digits_1, B.digits_2, knownTypes, zero_ok, one_ok]
  rw [digits_loop _ T base s _ rfl rfl _ _ rfl s.reverse m 0 1 (by simp; omega)]
  rw [Parse.digitSequenceToInt]
  congr 1
  funext a
  run []

end

end Ieme.Script
