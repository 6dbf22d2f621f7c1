/-!
# Texts of errors

The texts a caller sees from `str(exception)`.
-/
namespace Bip38.Spec

/-- `message, (expected: expected | got: 'got')`. -/
def report (message expected got : String) : String := message ++ ", (expected: " ++ expected ++ " | got: '" ++ got ++ "')"

/-- `'a', 'b', 'c'`. -/
def quotes (ts : List String) : String := ", ".intercalate (ts.map fun t => "'" ++ t ++ "'")

/-- The text for an unknown network name. -/
def unknownNetwork (networks : List String) : String := report "Wrong network type" (quotes networks) "<class 'str'>"

end Bip38.Spec
