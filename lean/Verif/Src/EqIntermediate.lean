import Verif.Src.EqBase
/-!
# The text of `BIP38.intermediate_code` computes what the model says
-/
namespace Bip38.Src

open Run

variable (H : Host)

/-- `get_bytes(x) if x else os.urandom(k)` -/
theorem bytes_or_random (d : Data) (u : Bytes) (r : Run Val) (hr : r = pure (.bytes u)) :
    (if truthy (ofData d) = true then utils_get_bytes H [ofData d] [] else r) = rBytes (bytesOrRandom d u) := by
  have e : truthy (ofData d) = d.truthy := by rcases d with _ | _ | _ | _ <;> rfl
  unfold bytesOrRandom
  rw [e, hr, get_bytes_r]
  by_cases h : d.truthy = true
  · simp only [if_pos h]
  · simp only [if_neg h]
    rfl

theorem truthy_int (n : Option Int) : truthy (ofOptInt n) = truthyInt n := by cases n <;> rfl
theorem isNone_opt (n : Option Int) : CmpOp.isNone.apply (ofOptInt n) .none = pure (decide (n = none)) := by cases n <;> rfl
theorem format_opt (n : Option Int) : format (ofOptInt n) = pure (Bip38.pyInt n).toList := by cases n <;> rfl

/-- A condition that is evaluated to some value. -/
theorem cond_eq {β : Type} {x : Run Val} {p : Prop} [Decidable p] (hx : ∃ v, x = pure v ∧ truthy v = decide p) (a b : Run Outcome)
    (f : Outcome → Run β) :
    (x >>= fun v => (if truthy v = true then a else b) >>= f) = if p then a >>= f else b >>= f := by
  obtain ⟨v, rfl, hv⟩ := hx
  rw [run_pure_bind, hv]
  by_cases h : p
  · simp only [h, decide_true, if_true]
  · simp only [h, decide_false, Bool.false_eq_true, if_false]

theorem length_text (n : Nat) : format (.int (n : Int)) = pure (toString n).toList := rfl

theorem intermediate_tail (env : Env) (f m o : Bytes) (h1 : env v!"pass_factor" = some (.bytes f)) (h2 : env v!"magic" = some (.bytes m))
    (h3 : env v!"owner_entropy" = some (.bytes o)) :
    (block [BIP38_intermediate_code_L146 H, BIP38_intermediate_code_L149 H] env >>= finish)
      = ofPy (PrivateKey.fromBytes f) >>= fun k =>
        pure (.str (ensureString (checkEncode H.P.sha256 (m ++ o ++ k.publicKey.rawCompressed)))) := by
  rw [block_cons]
  ev [h1, from_bytes_kw, PrivateKey_from_bytes_eq]
  refine step fun k hk => ?_
  ev [private_public]
  rw [block_cons]
  ev [h2, h3, method_raw_compressed, check_encode_default, ensure_string_str]

theorem both_required (lot sequence : Option Int) :
    ∃ v, ((if truthyInt lot = true then pure (Val.bool (decide (sequence = none))) else pure (ofOptInt lot)) >>= fun a =>
      (if truthy a = true then pure a
        else if lot = none then pure (ofOptInt sequence) else pure (Val.bool (decide (lot = none)))) : Run Val) = pure v ∧
      truthy v = decide (truthyInt lot = true ∧ sequence = none ∨ lot = none ∧ truthyInt sequence = true) := by
  cases lot with
  | none =>
    cases sequence with
    | none => exact ⟨_, rfl, rfl⟩
    | some q =>
      refine ⟨.int q, rfl, ?_⟩
      simp [truthyInt, t_int]
  | some l =>
    by_cases hl : l = 0
    · subst hl
      exact ⟨.bool false, rfl, by simp [truthyInt, t_bool]⟩
    · have : truthyInt (some l) = true := by simp [truthyInt, hl]
      simp only [this, if_true, run_pure_bind]
      cases sequence with
      | none => exact ⟨_, rfl, by simp [t_bool]⟩
      | some q => exact ⟨_, rfl, by simp [t_bool]⟩

theorem int_range (v : Int) (a b : Int) :
    ((if a ≤ v then pure (decide (v ≤ b)) else pure false) : Run Bool) = pure (decide (a ≤ v ∧ v ≤ b)) := by
  by_cases h : a ≤ v <;> simp [h]

theorem i2b_4 (n : Int) : utils_integer_to_bytes H [.int n, .int 4] [] = ofPy (integerToBytes n (some 4)) >>= fun b => pure (.bytes b) :=
  integer_to_bytes_eq H n (some 4) .big false

theorem expected_lot : ExpectedVal (.str "100000 <= lot <= 999999".toList) (.one true "100000 <= lot <= 999999".toList) :=
  .one (v := .str "100000 <= lot <= 999999".toList) (by decide) rfl (by decide)
theorem expected_sequence : ExpectedVal (.str "0 <= sequence <= 4095".toList) (.one true "0 <= sequence <= 4095".toList) :=
  .one (v := .str "0 <= sequence <= 4095".toList) (by decide) rfl (by decide)

theorem intermediate_src (passphrase : Str) (lot sequence : Option Int) (salt : Data) :
    BIP38_intermediate_code H [.str passphrase, ofOptInt lot, ofOptInt sequence, ofData salt] []
      = rStr (intermediateCode H.P passphrase lot sequence salt (H.urandom 8)) := by
  unfold BIP38_intermediate_code intermediateCode
  rw [defun_eq]
  ev []
  rw [block_cons]
  ev [bytes_or_random H salt (H.urandom 8) (xUrandom H [.int 8] []) rfl, rBytes, rStr, ofPy_bind]
  refine step fun s hs => ?_
  rw [block_cons]
  ev [mem_int_two, ofPy_raiseIf]
  by_cases hl : s.length = 4 ∨ s.length = 8
  · have n1 : ¬ s.length ∉ [4, 8] := by
      intro h
      simp at h
      omega
    have e1 : (decide ((s.length : Int) = 4) || decide ((s.length : Int) = 8)) = true := by
      simp only [Bool.or_eq_true, decide_eq_true_eq]
      omega
    simp only [if_neg n1]
    ev [e1]
    rw [block_cons]
    ev [isNone_opt]
    refine (cond_eq (p := s.length = 4 ∧ (lot = none ∨ sequence = none)) ?_ _ _ _).trans ?_
    · by_cases h4 : s.length = 4
      · have e4 : ((s.length : Int) = 4) = True := eq_true (by omega)
        cases lot with
        | none => exact ⟨_, by simp only [e4, if_true]; rfl, by simp [h4]; rfl⟩
        | some l => exact ⟨_, by simp only [e4, if_true, reduceCtorEq, if_false]; rfl, by simp [h4]; rfl⟩
      · have e4 : ((s.length : Int) = 4) = False := eq_false (by omega)
        exact ⟨_, by simp only [e4, if_false]; rfl, by simp [h4]; rfl⟩
    by_cases hc : s.length = 4 ∧ (lot = none ∨ sequence = none)
    · simp only [if_pos hc]
      ev [block_cons, hexText_src, raise_expected H .error rfl "Invalid owner salt length for non lot/sequence" (expected_int 16 (by decide)) (length_text _)]
      rw [String.ofList_toList]
      rfl
    · simp only [if_neg hc]
      ev []
      rw [block_cons]
      ev [isNone_opt, truthy_int]
      rw [← run_assoc]
      refine (cond_eq (both_required lot sequence) _ _ _).trans ?_
      by_cases hb : truthyInt lot = true ∧ sequence = none ∨ lot = none ∧ truthyInt sequence = true
      · simp only [if_pos hb]
        ev [block_cons, format_opt, raise_detail H .error rfl]
        congr 2
        simp [String.ext_iff]
      · simp only [if_neg hb]
        ev []
        rw [block_cons]
        ev [truthy_int]
        by_cases ht : truthyInt lot = true ∧ truthyInt sequence = true
        · obtain ⟨ht1, ht2⟩ := ht
          obtain ⟨l, rfl⟩ : ∃ l, lot = some l := by cases lot; cases ht1; exact ⟨_, rfl⟩
          obtain ⟨q, rfl⟩ : ∃ q, sequence = some q := by cases sequence; cases ht2; exact ⟨_, rfl⟩
          have hi : ∀ n : Int, pyInt H [.int n] [] = pure (.int n) := fun _ => rfl
          simp only [ht1, ht2, and_self, if_true]
          ev [ht2, truthy_int]
          rw [block_cons]
          ev [ofOptInt, hi]
          unfold lotFactor
          simp only [ofPy_bind, run_assoc, ofPy_raiseIf]
          rw [block_cons]
          ev [int_range]
          by_cases hlot : 100000 ≤ l ∧ l ≤ 999999
          · have m1 : ¬ ¬ (100000 ≤ l ∧ l ≤ 999999) := fun h => h hlot
            simp only [if_neg m1]
            ev [decide_eq_true hlot]
            rw [block_cons]
            ev [int_range]
            by_cases hseq : 0 ≤ q ∧ q ≤ 4095
            · have m2 : ¬ ¬ (0 ≤ q ∧ q ≤ 4095) := fun h => h hseq
              simp only [if_neg m2]
              ev [decide_eq_true hseq]
              rw [block_cons]
              ev [normalize_eq, take_lit, scrypt_32]
              rw [block_cons]
              ev [i2b_4, take_lit]
              refine step fun ls hls => ?_
              rw [block_cons]
              ev [double_sha256_bytes, rBytes]
              refine step fun pf hpf => ?_
              rw [block_cons]
              ev [s_magicLot, integer_to_bytes_default]
              refine step fun m hm => ?_
              refine intermediate_tail H _ pf m _ ?_ ?_ ?_
              all_goals ev []
            · simp only [if_pos hseq]
              ev [decide_eq_false hseq]
              ev [block_cons, raise_expected H .error rfl "Invalid sequence" expected_sequence (f_int q), String.ofList_toList]
          · simp only [if_pos hlot]
            ev [decide_eq_false hlot]
            ev [block_cons, raise_expected H .error rfl "Invalid lot" expected_lot (f_int l), String.ofList_toList]
        · have hv : truthy (if truthyInt lot = true then ofOptInt sequence else ofOptInt lot) = false := by
            by_cases h1 : truthyInt lot = true
            · have h2 : ¬ truthyInt sequence = true := fun h => ht ⟨h1, h⟩
              simp only [if_pos h1, truthy_int]
              simpa using h2
            · simp only [if_neg h1, truthy_int]
              simpa using h1
          have hp : ((if truthyInt lot = true then pure (ofOptInt sequence) else pure (ofOptInt lot)) : Run Val)
              = pure (if truthyInt lot = true then ofOptInt sequence else ofOptInt lot) := by split <;> rfl
          simp only [if_neg ht]
          ev [hp, hv]
          unfold noLotFactor
          simp only [ofPy_bind, run_assoc]
          rw [block_cons]
          ev [normalize_eq, scrypt_32]
          rw [block_cons]
          ev [s_magicNo, integer_to_bytes_default]
          refine step fun m hm => ?_
          rw [block_cons]
          ev []
          refine intermediate_tail H _ _ m _ ?_ ?_ ?_
          all_goals ev []
  · have n1 : s.length ∉ [4, 8] := by simpa using hl
    have e1 : (decide ((s.length : Int) = 4) || decide ((s.length : Int) = 8)) = false := by
      simp only [Bool.or_eq_false_iff, decide_eq_false_iff_not]
      omega
    have hx : ExpectedVal (.list [.int 8, .int 16]) (.list ["8".toList, "16".toList]) := .list (.cons rfl (.cons rfl .nil))
    simp only [if_pos n1]
    ev [e1]
    ev [block_cons, hexText_src, raise_expected H .error rfl "Invalid owner salt length" hx (length_text _)]
    rw [String.ofList_toList]

end Bip38.Src
