import Verif.Lemmas.ScanScan
import Verif.Lemmas.HeaderMath
import Verif.Lemmas.FaultsApps

/-!
# `floating_point_string_to_fraction` and `_dec`, from the text
-/

namespace Ieme.Header

@[exec_header] theorem ten_ok {n : Nat} (h : 2 ≤ n) (T : IntTy) :
    value (invoke library n .global none N.«_10» [.int T] []) =
      pure (Val.int T 10) := by
  have h' : T.conv 10 = pure 10 := by
    exact IntTy.conv_clean.mpr ⟨IntTy.inRange_of_nonneg_le (by decide) (by decide), rfl⟩
  step n
  go [h']

end Ieme.Header

namespace Ieme.Script

open Header

attribute [exec_scan] Header.binary_frac Header.binary_int_frac Header.opName Header.construct_frac

section

variable {cl : Nat → List TVal → List V → Res V}
  {rn : Stm → Env → Res V} {fu n : Nat} {k : Env → Res V} {x : Exits} {T : IntTy} {o : Ops}

local notation "ctx" => Ctx.mk parser [(N.«Rep», TVal.int T), (N.«Ops», TVal.ops o),
  (N.«std::intmax_t», TVal.int i64), (N.«ops::defaults», TVal.ops Ops.defaults)] (Header.invoke library n) cl rn fu

theorem convert_10_ok (hx : ∀ f, x.ret (.val (.frac T o f)) = pure (.val (.frac T o f)))
    (hn : opsDepth o + 1 ≤ n) (whole num den b e : Int) (v₁ v₂ v₃ v₄ v₅ : V)
    (hp : value (Header.invoke library n .global none N.«pow» [.int T, .ops o] [.int T b, .int i32 e]) =
      Val.frac T o <$> Fraction.pow T b e) :
    exec ctx x B.convert_10 none
      [(N.«exponent», integer i32 e), (N.«exponent_sign_multiplier», v₁),
        (N.«exponent_base», integer T b), (N.«fractional_den», integer T den),
        (N.«fractional_num», integer T num), (N.«whole», integer T whole), (N.«base_as_rep», v₂),
        (N.«scan_results», v₃), (N.«maybe_scan_results», v₄), (N.«string», v₅)] k =
      (fun f => V.val (.frac T o f)) <$> (do
        let sum ← Fraction.arith T T o .plus (.rf whole (Fraction.mk num den))
        let power ← Fraction.pow T b e
        Fraction.arith T T o .multiplies (.ff sum power)) := by
  have := opsDepth_ge o
  have hp' := hp
  simp only [exec_scan] at hp'
  run [B.convert_10, hp', hx, fraction_mk_ok, fraction_plusRF_ok, fraction_multipliesFF_ok]


theorem bind_congr_ok {α β : Type} {m : Res α} {f g : α → Res β}
    (h : ∀ v w, m = .ok v w → f v = g v) : (m >>= f) = m >>= g := by
  cases m with
  | fault => rfl
  | ok v w =>
    simp only [Res.bind_def, Res.bind, h v w rfl]

theorem convert_7_ok (hx : ∀ f, x.ret (.val (.frac T o f)) = pure (.val (.frac T o f)))
    (hn : opsDepth o + 1 ≤ n) (r : Parse.Scan) (hb : r.base = 10 ∨ r.base = 16)
    (hd : cl N.«digit_sequence_to_int» [] [.str r.exponent, integer i32 10] =
      integer i32 <$> Parse.digitSequenceToInt i32 r.exponent 10)
    (whole num den : Int) (v₂ v₄ v₅ : V)
    (hp : ∀ e w, (Parse.digitSequenceToInt i32 r.exponent 10 >>=
        i32.mul (if r.negative then -1 else 1)) = .ok e w →
      value (Header.invoke library n .global none N.«pow» [.int T, .ops o]
        [.int T (if r.base = 10 then 10 else 2), .int i32 e]) =
      Val.frac T o <$> Fraction.pow T (if r.base = 10 then 10 else 2) e) :
    exec ctx x B.convert_7 none
      [(N.«fractional_den», integer T den),
        (N.«fractional_num», integer T num), (N.«whole», integer T whole), (N.«base_as_rep», v₂),
        (N.«scan_results», scanned r), (N.«maybe_scan_results», v₄), (N.«string», v₅)] k =
      (fun f => V.val (.frac T o f)) <$> (do
        let e ← Parse.digitSequenceToInt i32 r.exponent 10
        let exponent ← i32.mul (if r.negative then -1 else 1) e
        let sum ← Fraction.arith T T o .plus (.rf whole (Fraction.mk num den))
        let power ← Fraction.pow T (if r.base = 10 then 10 else 2) exponent
        Fraction.arith T T o .multiplies (.ff sum power)) := by
  have := opsDepth_ge o
  have hd' := hd
  simp only [exec_scan] at hd'
  have hneg : i32.neg 1 = pure (-1) := rfl
  have key : ∀ (b m : Int), (if r.base = 10 then 10 else 2) = b →
      (if r.negative then -1 else 1) = m → ∀ v₁ v₃ : V,
      (Parse.digitSequenceToInt i32 r.exponent 10 >>= fun e => i32.mul m e >>= fun e =>
        exec ctx x B.convert_10 none
          [(N.«exponent», integer i32 e), (N.«exponent_sign_multiplier», v₁),
            (N.«exponent_base», integer T b), (N.«fractional_den», integer T den),
            (N.«fractional_num», integer T num), (N.«whole», integer T whole),
            (N.«base_as_rep», v₂), (N.«scan_results», v₃), (N.«maybe_scan_results», v₄),
            (N.«string», v₅)] k) =
      (fun f => V.val (.frac T o f)) <$> (do
        let e ← Parse.digitSequenceToInt i32 r.exponent 10
        let exponent ← i32.mul m e
        let sum ← Fraction.arith T T o .plus (.rf whole (Fraction.mk num den))
        let power ← Fraction.pow T b exponent
        Fraction.arith T T o .multiplies (.ff sum power)) := by
    rintro b m rfl rfl v₁ v₃
    simp only [map_eq_pure_bind, bind_assoc]
    refine bind_congr_ok fun e' w' h' => bind_congr_ok fun e w h => ?_
    have hpe : ∃ w, (Parse.digitSequenceToInt i32 r.exponent 10 >>=
        i32.mul (if r.negative then -1 else 1)) = .ok e w := by
      simp only [h', Res.bind_def, Res.bind, h]
      exact ⟨_, rfl⟩
    obtain ⟨w, hpe⟩ := hpe
    rw [convert_10_ok hx hn _ _ _ _ _ _ _ _ _ _ (hp e w hpe)]
    simp only [map_eq_pure_bind, bind_assoc]
  rcases hb with hb | hb <;> cases hs : r.negative
  · run [B.convert_7, B.convert_8, B.convert_9, scanned, signOf, hb, hs, hd', ten_ok, two_ok, hneg]
    refine (key 10 1 (by simp [hb]) (by simp [hs]) _ _).trans ?_
    simp only [map_eq_pure_bind, bind_assoc]
  · run [B.convert_7, B.convert_8, B.convert_9, scanned, signOf, hb, hs, hd', ten_ok, two_ok, hneg]
    refine (key 10 (-1) (by simp [hb]) (by simp [hs]) _ _).trans ?_
    simp only [map_eq_pure_bind, bind_assoc]
  · run [B.convert_7, B.convert_8, B.convert_9, scanned, signOf, hb, hs, hd', ten_ok, two_ok, hneg]
    refine (key 2 1 (by simp [hb]) (by simp [hs]) _ _).trans ?_
    simp only [map_eq_pure_bind, bind_assoc]
  · run [B.convert_7, B.convert_8, B.convert_9, scanned, signOf, hb, hs, hd', ten_ok, two_ok, hneg]
    refine (key 2 (-1) (by simp [hb]) (by simp [hs]) _ _).trans ?_
    simp only [map_eq_pure_bind, bind_assoc]

/-- After a successful scan. -/
theorem convert_2_ok (hx : ∀ f, x.ret (.val (.frac T o f)) = pure (.val (.frac T o f)))
    (hn : opsDepth o + 1 ≤ n) (r : Parse.Scan) (hb : r.base = 10 ∨ r.base = 16)
    (hd : ∀ S s b, (s = r.whole ∨ s = r.fractional ∨ s = r.exponent) →
      cl N.«digit_sequence_to_int» [] [.str s, integer S b] =
      integer S <$> Parse.digitSequenceToInt S s b)
    (v₅ : V)
    (hq : ∀ b p w, T.conv r.precision = .ok p w →
      value (Header.invoke library n ⟨N.«math_utilities», []⟩ none N.«pow» [] [.int T b, .int T p]) =
        Val.int T <$> mathPow T b p)
    (hp : ∀ e w, (Parse.digitSequenceToInt i32 r.exponent 10 >>=
        i32.mul (if r.negative then -1 else 1)) = .ok e w →
      value (Header.invoke library n .global none N.«pow» [.int T, .ops o]
        [.int T (if r.base = 10 then 10 else 2), .int i32 e]) =
      Val.frac T o <$> Fraction.pow T (if r.base = 10 then 10 else 2) e) :
    exec ctx x B.convert_2 none
      [(N.«maybe_scan_results», .some (scanned r)), (N.«string», v₅)] k =
      (fun f => V.val (.frac T o f)) <$> Parse.scanValue T o r := by
  have := opsDepth_ge o
  have hw := fun S b => hd S r.whole b (.inl rfl)
  have hf := fun S b => hd S r.fractional b (.inr (.inl rfl))
  simp only [exec_scan] at hw hf
  run [B.convert_2, B.convert_3, B.convert_4, B.convert_5, scanned, hw, hf, Parse.scanValue]
  refine bind_congr fun b => bind_congr fun whole => bind_congr fun num => ?_
  run [B.convert_6]
  refine bind_congr_ok fun p w h => ?_
  have hq' := hq b p w h
  simp only [exec_scan] at hq'
  rw [hq']
  simp only [bind_assoc, pure_bind]
  refine bind_congr fun den => ?_
  refine (convert_7_ok hx hn r hb (hd _ _ _ (.inr (.inr rfl))) whole num den _ _ _ hp).trans ?_
  simp only [map_eq_pure_bind, bind_assoc]

end

/-- A bound that works for the result of a computation, if there is one. -/
theorem bounded {α : Type} (m : Res α) {P : α → Nat → Prop}
    (h : ∀ v w, m = .ok v w → ∃ k, ∀ n, k ≤ n → P v n) :
    ∃ k, ∀ n, k ≤ n → ∀ v w, m = .ok v w → P v n := by
  cases m with
  | fault => exact ⟨0, fun _ _ _ _ h => by cases h⟩
  | ok v w =>
    obtain ⟨k, hk⟩ := h v w rfl
    exact ⟨k, fun n hn v' w' h => by cases h; exact hk n hn⟩

theorem convert_ok (s : List Char) (hl : s.length < 2 ^ 64) (T : IntTy) (o : Ops) :
    ∃ k, ∀ n, k ≤ n →
    callFunc parser (mkCtx parser n) N.«floating_point_string_to_fraction» [.int T, .ops o]
      [.str s] = (fun f => V.val (.frac T o f)) <$> Parse.toFraction T o s := by
  obtain ⟨k, hk⟩ := bounded (Parse.scan s) (P := fun v n => ∀ r, v = some r →
      r.whole.length + 4 ≤ n ∧ r.fractional.length + 4 ≤ n ∧ r.exponent.length + 4 ≤ n ∧
      (∀ b p w, T.conv r.precision = .ok p w →
        value (Header.invoke library n ⟨N.«math_utilities», []⟩ none N.«pow» []
          [.int T b, .int T p]) = Val.int T <$> mathPow T b p) ∧
      (∀ e w, (Parse.digitSequenceToInt i32 r.exponent 10 >>=
          i32.mul (if r.negative then -1 else 1)) = .ok e w →
        value (Header.invoke library n .global none N.«pow» [.int T, .ops o]
          [.int T (if r.base = 10 then 10 else 2), .int i32 e]) =
        Val.frac T o <$> Fraction.pow T (if r.base = 10 then 10 else 2) e)) (by
    intro v w _
    cases v with
    | none => exact ⟨0, fun _ _ _ h => by cases h⟩
    | some r =>
      obtain ⟨k₁, h₁⟩ := bounded (T.conv r.precision) (P := fun p n => ∀ b,
        value (Header.invoke library n ⟨N.«math_utilities», []⟩ none N.«pow» []
          [.int T b, .int T p]) = Val.int T <$> mathPow T b p) (by
        intro p w h
        obtain ⟨w', p', hr, hc⟩ := conv_split T r.precision
        have : p = p' := by
          rw [h, Res.bind_def] at hc
          cases hc; rfl
        subst this
        exact ⟨p.natAbs + 3, fun n hn b => pow_ok T b p.natAbs p (Nat.le_refl _) hr n hn⟩)
      obtain ⟨k₂, h₂⟩ := bounded (Parse.digitSequenceToInt i32 r.exponent 10 >>=
          i32.mul (if r.negative then -1 else 1))
        (fun e _ _ => fraction_pow_ok T o (if r.base = 10 then 10 else 2) e)
      refine ⟨k₁ + k₂ + r.whole.length + r.fractional.length + r.exponent.length + 4,
        fun n hn r' h => ?_⟩
      cases h
      exact ⟨by omega, by omega, by omega, fun b p w h => h₁ n (by omega) p w h b,
        fun e w h => h₂ n (by omega) e w h⟩)
  refine ⟨k + opsDepth o + 4, fun n hn => ?_⟩
  obtain ⟨m, rfl⟩ : ∃ m, n = m + 1 + 2 := ⟨n - 3, by omega⟩
  have hd := opsDepth_ge o
  rw [callFunc_eq (g := F.convert) rfl rfl (tys' := (N.«Rep», .int T) :: (N.«Ops», .ops o) :: knownTypes) rfl rfl]
  have h1 : mkCtx parser (m + 1 + 2) ((N.«Rep», .int T) :: (N.«Ops», .ops o) :: knownTypes) =
      ⟨parser, (N.«Rep», .int T) :: (N.«Ops», .ops o) :: knownTypes,
        Header.invoke library (m + 2), callFunc parser (mkCtx parser (m + 2)),
        fun body env => exec (mkCtx parser (m + 2)
            ((N.«Rep», .int T) :: (N.«Ops», .ops o) :: knownTypes))
          ⟨pure, fun _ => illFormed, fun _ => illFormed⟩ body none env (fun _ => illFormed),
      m + 2⟩ := rfl
  rw [h1]
  have hs := scan_ok m s hl
  have hdig := digits_ok (m + 2)
  generalize callFunc parser (mkCtx parser (m + 2)) = cl at hs hdig ⊢
  generalize (fun body env => exec (mkCtx parser (m + 2)
            ((N.«Rep», .int T) :: (N.«Ops», .ops o) :: knownTypes))
          ⟨pure, fun _ => illFormed, fun _ => illFormed⟩ body none env (fun _ => illFormed)) = rn
  have hs' := hs
  simp only [exec_scan] at hs'
  run [F.convert, B.convert_0, hs', Parse.toFraction, knownTypes]
  refine bind_congr_ok fun v w h => ?_
  cases v with
  | none =>
    run [maybeScanned, B.convert_1]
  | some r =>
    obtain ⟨g1, g2, g3, g4, g5⟩ := hk (m + 2) (by omega) _ _ h r rfl
    run [maybeScanned, B.convert_1]
    refine (convert_2_ok ?_ (by omega) r (Parse.scan_base h) ?_ _ g4 g5).trans ?_
    · intro f
      run []
    · rintro S t b (rfl | rfl | rfl) <;> exact hdig _ _ _ (by omega)
    · simp only [map_eq_pure_bind]

theorem dec_ok (s : List Char) (hl : s.length < 2 ^ 64) :
    ∃ k, ∀ n, k ≤ n →
    callFunc parser (mkCtx parser n) N.«_dec» [] [.str s] =
      (fun f => V.val (.frac i64 .defaults f)) <$> Parse.dec s := by
  obtain ⟨k, hk⟩ := convert_ok s hl i64 .defaults
  refine ⟨k + 8, fun n hn => ?_⟩
  obtain ⟨m, rfl⟩ : ∃ m, n = m + 1 := ⟨n - 1, by omega⟩
  rw [callFunc_eq (g := F.dec) rfl rfl (tys' := knownTypes) rfl rfl]
  simp only [mkCtx]
  have hs := hk m (by omega)
  generalize callFunc parser (mkCtx parser m) = cl at hs ⊢
  have hs' := hs
  simp only [exec_scan] at hs'
  have hi := fun lib rn fu r => library_isDefined (prog := parser) (tys := knownTypes) (lib := lib) (cl := cl)
    (rn := rn) (fu := fu) i64 .defaults r rfl
  simp only [exec_scan, knownTypes] at hi
  run [F.dec, B.dec_0, B.dec_1, hs', Parse.dec, knownTypes, fraction_isDefined_ok, hi]
  refine bind_congr fun a => ?_
  split <;> rfl

end Ieme.Script
