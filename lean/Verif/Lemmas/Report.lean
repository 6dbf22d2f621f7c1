import Verif.Props.Exceptions
import Verif.Spec.Report
/-! The texts of errors in the model are those of `Spec/Report`. -/
namespace Bip38
open Spec Props

theorem errText_one (m t g : String) : errText m (.one true t.toList) g = report m t g := by
  apply String.toList_inj.mp
  unfold errText report
  rw [String.toList_ofList, C39_text]
  simp [givesExpected, expectedText]

theorem quotes_toList (ts : List String) : (quotes ts).toList = quotedList (ts.map String.toList) := by
  unfold quotes quotedList
  rw [String.toList_intercalate]
  simp [List.map_map, Function.comp_def]

theorem errText_list (m g : String) (ts : List String) (h : ts ≠ []) : errText m (.list (ts.map String.toList)) g = report m (quotes ts) g := by
  apply String.toList_inj.mp
  unfold errText report
  rw [String.toList_ofList, C39_text]
  simp [givesExpected, expectedText, quotes_toList, h]

theorem errText_two (m g : String) (a b : Str) : errText m (.list [a, b]) g = report m ("'" ++ String.ofList a ++ "', '" ++ String.ofList b ++ "'") g := by
  have := errText_list m g [String.ofList a, String.ofList b] (by simp)
  simp only [List.map_cons, List.map_nil, String.toList_ofList] at this
  rw [this]
  congr 1
  apply String.toList_inj.mp
  rw [quotes_toList]
  simp [quotedList, List.intercalate]

theorem errText_detail (m d g : String) (h : d ≠ "") : errText m .none g (some d) = m ++ " " ++ d := by
  apply String.toList_inj.mp
  unfold errText
  rw [String.toList_ofList, C39_text]
  have : d.toList ≠ [] := fun h' => h (String.toList_inj.mp (by simpa using h'))
  simp [givesExpected, this]

end Bip38
