import Verif.Src.Utils
import Verif.Src.Const
import Verif.Src.Lemmas
import Verif.Src.Values
/-!
# The text of `bip38/exceptions.py`, `bip38/const.py` and `bip38/utils.py` computes what the model says
-/
namespace Bip38.Src

open Run

variable (H : Host)

theorem get_bytes_eq (d : Data) (u : Bool) :
    utils_get_bytes H [ofData d] [(v!"unhexlify", .bool u)] = ofPy (getBytes d u) >>= fun b => pure (.bytes b) := by
  rcases d with _ | s | b | _
  · rfl
  · rcases s with _ | ⟨a, s⟩
    · rfl
    · cases u with
      | false => rfl
      | true =>
        unfold utils_get_bytes getBytes
        rw [defun_eq]
        ev [block_cons, ofData, Data.truthy, List.isEmpty_cons]
        cases fromHex (a :: s) <;> rfl
  · rcases b with _ | ⟨a, s⟩ <;> rfl
  · rfl

theorem get_bytes_default (d : Data) : utils_get_bytes H [ofData d] [] = utils_get_bytes H [ofData d] [(v!"unhexlify", .bool true)] := by
  rcases d with _ | s | b | _ <;> rfl

theorem bytes_reverse_eq (b : Bytes) : utils_bytes_reverse H [.bytes b] [] = pure (.bytes (bytesReverse b)) := rfl

theorem bytes_to_string_eq (d : Data) :
    utils_bytes_to_string H [ofData d] [] = ofPy (bytesToString d) >>= fun s => pure (.str s) := by
  rcases d with _ | s | b | _
  · rfl
  · rcases s with _ | ⟨a, s⟩
    · rfl
    · unfold utils_bytes_to_string bytesToString
      rw [defun_eq]
      ev [block_cons, ofData, Data.truthy, List.isEmpty_cons]
      cases fromHex (a :: s) <;> rfl
  · rcases b with _ | ⟨a, s⟩ <;> rfl
  · rfl

theorem bytes_to_integer_eq (b : Bytes) (e : Endian) (s : Bool) :
    utils_bytes_to_integer H [.bytes b, ofEndian e, .bool s] [] = pure (.int (bytesToInteger b e s)) := by
  cases e <;> rfl

theorem bytes_to_integer_default (b : Bytes) : utils_bytes_to_integer H [.bytes b] [] = pure (.int (bytesToInteger b)) := rfl

theorem to_bytes_eq (n k : Int) (e : Endian) (s : Bool) :
    mToBytes H (.int n) [.int k] [(v!"byteorder", ofEndian e), (v!"signed", .bool s)]
      = if k < 0 then Run.raise .valueError "length argument must be non-negative"
        else ofPy (intToBytes n k.toNat e s) >>= fun b => pure (.bytes b) := by
  cases e <;> rfl

theorem auto_length (n : Int) :
    ((if 0 < n then mBitLength (Val.int n) [] [] else pure (Val.int 1)) >>= fun a => callBin [] [] BinOp.add a (Val.int 7) >>= fun a =>
      callBin [] [] BinOp.floordiv a (Val.int 8))
      = pure (.int (((if 0 < n then bitLength n.toNat else 1) + 7) / 8 : Nat)) := by
  have h8 : ∀ m : Nat, ((m : Int) + 7).fdiv 8 = ((m + 7) / 8 : Nat) := by
    intro m
    rw [Int.fdiv_eq_ediv_of_nonneg _ (by decide)]
    omega
  by_cases h : 0 < n
  · have : n.natAbs = n.toNat := by omega
    simp only [if_pos h, mBitLength, src, this]
    rw [h8]
  · simp only [if_neg h, src]
    rfl

theorem integer_to_bytes_eq (n : Int) (k : Option Int) (e : Endian) (s : Bool) :
    utils_integer_to_bytes H [.int n, ofOptInt k, ofEndian e, .bool s] []
      = ofPy (integerToBytes n k e s) >>= fun b => pure (.bytes b) := by
  have auto := auto_length n
  unfold utils_integer_to_bytes integerToBytes
  rw [defun_eq]
  cases k with
  | none =>
    ev [block_cons, ofOptInt]
    simp only [← run_assoc] at auto ⊢
    rw [auto]
    ev [to_bytes_eq, run_bind_pure]
    rw [if_neg (by omega)]
    rfl
  | some k =>
    ev [block_cons, ofOptInt]
    by_cases hk : k = 0
    · subst hk
      simp only [ne_eq, not_true_eq_false, if_false, Int.reduceLT]
      simp only [← run_assoc] at auto ⊢
      rw [auto]
      ev [to_bytes_eq, run_bind_pure]
      rw [if_neg (by omega)]
      rfl
    · simp only [ne_eq, hk, not_false_eq_true, if_true, src, to_bytes_eq, run_bind_pure, if_false]
      split <;> rfl

theorem integer_to_bytes_default (n : Int) :
    utils_integer_to_bytes H [.int n] [] = ofPy (integerToBytes n) >>= fun b => pure (.bytes b) :=
  integer_to_bytes_eq H n none .big false

theorem integer_to_bytes_length (n k : Int) :
    utils_integer_to_bytes H [.int n] [(v!"bytes_num", .int k)] = ofPy (integerToBytes n (some k)) >>= fun b => pure (.bytes b) :=
  integer_to_bytes_eq H n (some k) .big false

/-! ### Exceptions -/

theorem Error_str_eq (c : ExcClass) (e : ErrorObj) (v : Val) (h : ExpectedField v e.expected) :
    Error_str H [.obj (.exc c) [(v!"_message", .str e.message), (v!"_detail", ofOptStr e.detail), (v!"_expected", v), (v!"_got", .str e.got)]] []
      = pure (.str e.str) := by
  rcases e with ⟨m, d, x, g⟩
  simp only at h ⊢
  unfold Error_str ErrorObj.str
  rw [defun_eq]
  ev [block_cons]
  have hd : truthy (ofOptStr d) = optTruthy d := by cases d <;> rfl
  have hf : optTruthy d = true → format (ofOptStr d) = pure (d.getD []) := by
    cases d
    · intro h; cases h
    · intro _; rfl
  cases h with
  | none =>
    ev [hd, expectedTruthy, Bool.false_and]
    cases h : optTruthy d
    · rfl
    · ev [hf h]; simp only [List.append_assoc]
  | @some _ t h =>
    rcases Bool.eq_false_or_eq_true (truthy v) with h1 | h1 <;> rcases Bool.eq_false_or_eq_true (optTruthy d) with h3 | h3 <;>
      rcases g with _ | ⟨y, g⟩ <;> ev [hd, h, h1, h3, hf, expectedTruthy, Bool.and_true, Bool.and_false, Option.map_some, List.append_assoc, List.isEmpty_nil, List.isEmpty_cons]

theorem error_loop (c : ExcClass) (m d g : Val) {vs : List Val} {ts : List Str} (h : List.Forall₂ (fun v t => format v = pure t) vs ts)
    (acc : Option Str) (env : Env) (he : env v!"self" = some (errorVal c m d (ofOptStr acc) g)) :
    ∃ env', forLoop [.name v!"expect"] false [Error_init_L23 H] vs env = pure (.next env') ∧
      env' v!"self" = some (errorVal c m d (ofOptStr (joinExpected ts acc)) g) := by
  induction h generalizing acc env with
  | nil => exact ⟨env, rfl, he⟩
  | @cons v t vs ts hv _ ih =>
    rw [for_cons]
    cases acc with
    | none =>
      ev [block_cons, he, errorVal, ofOptStr, hv]
      exact ih (some (quoted t)) _ rfl
    | some a =>
      have e : a ++ ", ".toList ++ quoted t = a ++ (", '".toList ++ (t ++ "'".toList)) := by
        simp [quoted]
      ev [block_cons, he, errorVal, ofOptStr, hv, joinExpected, e]
      exact ih (some (a ++ (", '".toList ++ (t ++ "'".toList)))) _ rfl

theorem error_loop_bind {β : Type} (c : ExcClass) (m d g : Val) {vs : List Val} {ts : List Str}
    (h : List.Forall₂ (fun v t => format v = pure t) vs ts) (env : Env) (he : env v!"self" = some (errorVal c m d .none g))
    {k : Outcome → Run β} {r : Run β}
    (hk : ∀ env' : Env, env' v!"self" = some (errorVal c m d (ofOptStr (joinExpected ts none)) g) → k (.next env') = r) :
    forLoop [.name v!"expect"] false [Error_init_L23 H] vs env >>= k = r := by
  obtain ⟨env', h1, h2⟩ := error_loop H c m d g h none env he
  rw [h1, run_pure_bind]
  exact hk env' h2

/-- The object made by `Error(message, detail, expected, got)`. -/
theorem Error_init_eq (c : ExcClass) (m : Str) (d : Option Str) {x : Val} {ex : Expected} (hx : ExpectedVal x ex) {g : Val} {gt : Str}
    (hg : format g = pure gt) :
    ∃ v, ExpectedField v (ErrorObj.init m d ex gt).expected ∧
      Error_init H c [.str m, ofOptStr d, x, g] [] = pure (errorVal c (.str m) (ofOptStr d) v (.str (quoted gt))) := by
  unfold Error_init
  rw [defclass_eq]
  ev [block_cons, hg]
  cases hx with
  | none =>
    refine ⟨.none, .none, ?_⟩
    ev []
    rfl
  | one hl h hn =>
    refine ⟨x, .some h, ?_⟩
    simp only [hl, if_false, src]
    rfl
  | @list vs ts h =>
    refine ⟨ofOptStr (joinExpected ts none), ?_, ?_⟩
    · show ExpectedField _ ((joinExpected ts none).map fun t => (!t.isEmpty, t))
      cases joinExpected ts none with
      | none => exact .none
      | some s => exact .some (v := .str s) rfl
    · ev []
      refine error_loop_bind H c (.str m) (ofOptStr d) (.str (quoted gt)) h _ rfl fun env' h' => ?_
      ev [h']

/-- `raise Error(message, detail=.., expected=.., got=..)` raises an exception with the text of the model. -/
theorem raise_error (c : ExcClass) (hc : c.isBip38Error = true) (m : Str) (d : Option Str) {x : Val} {ex : Expected} (hx : ExpectedVal x ex)
    {g : Val} {gt : Str} (hg : format g = pure gt) :
    (Error_init H c [.str m, ofOptStr d, x, g] [] >>= raiseVal (Error_str H))
      = Run.raise c (String.ofList (ErrorObj.init m d ex gt).str) := by
  obtain ⟨v, h1, h2⟩ := Error_init_eq H c m d hx hg
  rw [h2, run_pure_bind]
  unfold raiseVal errorVal
  simp only [hc, if_true]
  have h3 := Error_str_eq H c (ErrorObj.init m d ex gt) v h1
  simp only [ErrorObj.init] at h3 ⊢
  rw [h3]
  rfl

/-- `raise Error(message)` -/
theorem raise_msg {β : Type} (c : ExcClass) (hc : c.isBip38Error = true) (m : Str) (f : Outcome → Run β) :
    (Error_init H c [.str m] [] >>= fun a => raiseVal (Error_str H) a >>= f) = Run.raise c (String.ofList m) := by
  have h := raise_error H c hc m none .none (g := .none) rfl
  rw [show Error_init H c [.str m] [] = Error_init H c [.str m, ofOptStr none, .none, .none] [] from rfl, ← run_assoc, h]
  rfl

/-- `raise Error(message, expected=.., got=..)` -/
theorem raise_expected {β : Type} (c : ExcClass) (hc : c.isBip38Error = true) (m : String) {x : Val} {ex : Expected} (hx : ExpectedVal x ex)
    {g : Val} {gt : Str} (hg : format g = pure gt) (f : Outcome → Run β) :
    (Error_init H c [.str m.toList] [(v!"expected", x), (v!"got", g)] >>= fun a => raiseVal (Error_str H) a >>= f)
      = Run.raise c (errText m ex (String.ofList gt)) := by
  have h := raise_error H c hc m.toList none hx hg
  rw [show Error_init H c [.str m.toList] [(v!"expected", x), (v!"got", g)] = Error_init H c [.str m.toList, ofOptStr none, x, g] [] from rfl,
    ← run_assoc, h]
  unfold errText
  rw [String.toList_ofList]
  rfl

end Bip38.Src
