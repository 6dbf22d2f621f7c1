import Verif.Model.Exceptions
/-!
# Property C39: the text of the library's exceptions
-/
namespace Bip38.Props
open Bip38

/-- `'a', 'b', 'c'`. -/
def quotedList (ts : List Str) : Str := List.intercalate ", ".toList (ts.map fun t => "'".toList ++ t ++ "'".toList)

/-- Something is expected: the list is not empty, or the other object counts as true. -/
def givesExpected : Expected → Prop
  | .none => False
  | .list ts => ts ≠ []
  | .one b _ => b = true

instance : (x : Expected) → Decidable (givesExpected x)
  | .none => isFalse id
  | .list ts => inferInstanceAs (Decidable (ts ≠ []))
  | .one b _ => inferInstanceAs (Decidable (b = true))

/-- Text that stands for the expected values. -/
def expectedText : Expected → Str
  | .none => []
  | .list ts => quotedList ts
  | .one _ t => t

theorem quoted_ne (t : Str) : quoted t ≠ [] := by simp [quoted]

theorem joinExpected_some (l : List Str) (acc : Str) :
    joinExpected l (some acc) = some (acc ++ (l.flatMap fun t => ", ".toList ++ quoted t)) := by
  induction l generalizing acc with
  | nil => simp [joinExpected]
  | cons a l ih => rw [joinExpected, ih]; simp

theorem quotedList_cons (a : Str) (l : List Str) : quotedList (a :: l) = quoted a ++ (l.flatMap fun t => ", ".toList ++ quoted t) := by
  induction l generalizing a with
  | nil => simp [quotedList, quoted]
  | cons b l ih =>
    have : quotedList (a :: b :: l) = quoted a ++ ", ".toList ++ quotedList (b :: l) := by
      simp [quotedList, quoted, List.intercalate]
    rw [this, ih]
    simp

theorem init_expected (m g : Str) (d : Option Str) (x : Expected) :
    expectedTruthy (ErrorObj.init m d x g).expected = decide (givesExpected x) ∧
    (givesExpected x → ((ErrorObj.init m d x g).expected.map (·.2)).getD [] = expectedText x) := by
  cases x with
  | none => exact ⟨rfl, fun h => h.elim⟩
  | one b t => cases b <;> simp [ErrorObj.init, expectedTruthy, givesExpected, expectedText]
  | list ts =>
    cases ts with
    | nil => simp [ErrorObj.init, expectedTruthy, givesExpected, joinExpected]
    | cons a l =>
      have h : joinExpected (a :: l) none = some (quotedList (a :: l)) := by
        rw [joinExpected, joinExpected_some, quotedList_cons]
      have hne : quotedList (a :: l) ≠ [] := by rw [quotedList_cons]; simp [quoted]
      have he : (quotedList (a :: l)).isEmpty = false := by simpa using hne
      simp [ErrorObj.init, expectedTruthy, givesExpected, expectedText, h, he]

/-- C39: the complete text of an exception: the message; then, if something is expected, the expected and the actual values; then, if
there is one, the detail. -/
theorem C39_text (message got : Str) (detail : Option Str) (expected : Expected) :
    (ErrorObj.init message detail expected got).str =
      message
      ++ (if givesExpected expected then ", (expected: ".toList ++ expectedText expected ++ " | got: '".toList ++ got ++ "')".toList else [])
      ++ (if detail.getD [] = [] then [] else " ".toList ++ detail.getD []) := by
  obtain ⟨h1, h2⟩ := init_expected message got detail expected
  have hg : (ErrorObj.init message detail expected got).got = quoted got := rfl
  have hge : (quoted got).isEmpty = false := by simp [quoted]
  have hm : (ErrorObj.init message detail expected got).message = message := rfl
  have hd : (ErrorObj.init message detail expected got).detail = detail := rfl
  have ht : optTruthy detail = decide (detail.getD [] ≠ []) := by
    cases detail with
    | none => rfl
    | some t => cases t <;> simp [optTruthy]
  unfold ErrorObj.str
  simp only [h1, hg, hge, hm, hd, ht]
  by_cases hx : givesExpected expected
  · by_cases hdet : detail.getD [] = []
    · simp [hx, h2 hx, hdet, quoted]
    · simp [hx, h2 hx, hdet, quoted]
  · by_cases hdet : detail.getD [] = []
    · simp [hx, hdet]
    · simp [hx, hdet]

/-- C39: the text starts with the message. -/
theorem C39_message (message got : Str) (detail : Option Str) (expected : Expected) :
    message <+: (ErrorObj.init message detail expected got).str := by
  rw [C39_text, List.append_assoc]
  exact List.prefix_append _ _

/-- C39: the text ends with the detail, if one was given. -/
theorem C39_detail (message got t : Str) (expected : Expected) :
    t <:+ (ErrorObj.init message (some t) expected got).str := by
  rw [C39_text]
  by_cases h : t = []
  · simp [h]
  · simp only [Option.getD_some, h, if_false]
    rw [← List.append_assoc]
    exact List.suffix_append _ _

/-- C39: every element of the list of expected values is shown between quotes, and so is the actual value. -/
theorem C39_expected (message got : Str) (detail : Option Str) (ts : List Str) (t : Str) (h : t ∈ ts) :
    "'".toList ++ t ++ "'".toList <:+: (ErrorObj.init message detail (.list ts) got).str ∧
    " | got: '".toList ++ got ++ "')".toList <:+: (ErrorObj.init message detail (.list ts) got).str := by
  have hne : ts ≠ [] := by rintro rfl; simp at h
  have hq : "'".toList ++ t ++ "'".toList <:+: quotedList ts := by
    clear hne
    induction ts with
    | nil => simp at h
    | cons a l ih =>
      rw [quotedList_cons]
      rcases List.mem_cons.mp h with rfl | h
      · exact (List.prefix_append _ _).isInfix
      · obtain ⟨l1, l2, rfl⟩ := List.append_of_mem h
        refine ⟨quoted a ++ l1.flatMap (fun t => ", ".toList ++ quoted t) ++ ", ".toList, l2.flatMap (fun t => ", ".toList ++ quoted t), ?_⟩
        simp [quoted]
  rw [C39_text, if_pos (show givesExpected (.list ts) from hne)]
  constructor
  · refine hq.trans ?_
    refine ⟨message ++ ", (expected: ".toList, " | got: '".toList ++ got ++ "')".toList ++ (if detail.getD [] = [] then [] else " ".toList ++ detail.getD []), ?_⟩
    simp [expectedText]
  · refine ⟨message ++ ", (expected: ".toList ++ quotedList ts, (if detail.getD [] = [] then [] else " ".toList ++ detail.getD []), ?_⟩
    simp [expectedText]

/-- C39: without expected value and detail the text is the message alone, whatever the actual value. -/
theorem C39_plain (message got : Str) : (ErrorObj.init message none .none got).str = message := by
  rw [C39_text]; simp [givesExpected]

/-- C39: exactly the seven exception classes of the library are caught by `except Error`. -/
theorem C39_hierarchy (x : ExcClass) : x.isBip38Error = true ↔
    x ∈ [.error, .cryptocurrencyError, .networkError, .secp256k1Error, .addressError, .wifError, .passphraseError] := by
  cases x <;> simp [ExcClass.isBip38Error]

/-- A case: the text of the error for an unknown network. -/
example : (ErrorObj.init "Wrong network type".toList none (.list ["mainnet".toList, "testnet".toList]) "x".toList).str
    = "Wrong network type, (expected: 'mainnet', 'testnet' | got: 'x')".toList
  ∧ (ErrorObj.init "Bad".toList (some "because".toList) (.one true "4".toList) "5".toList).str
    = "Bad, (expected: 4 | got: '5') because".toList := by decide

end Bip38.Props
