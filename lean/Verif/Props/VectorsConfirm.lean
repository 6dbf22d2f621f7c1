import Verif.Props.VectorsNoEc
/-!
# Published vectors, reading EC-multiplied keys

`tests/data/values.json:20,35`: the confirmation code and the encrypted key of `VectorsEc`, read with their passphrase.
One vector per module, each importing the one before, so that they are checked one after the other (the kernel needs some GB for each).
-/
namespace Bip38.Std
open Bip38 Spec

/-- `confirm_code`, with details. -/
theorem vector_confirm : bitcoinObject.confirmCode vectorPrims "MOLON LABE".toList
      "cfrm38V8kEzECGczWJmEoGuYfkoamcmVij3tHUhD6DEEquSRXp61HzhnT8jwQwBBZiKs9Jg4LXZ".toList none true =
    .ok (.detail {
      publicKey := "04597967956e7f4c0e13ed7cd98baa9d7697a7f685d4347168e4a011c5fe6ba628e06ef89587c17afb55044336e44648dfa944ca85a4af0a7b28c29d4eefd0da92".toList
      publicKeyType := "uncompressed"
      address := "1KRg2YJxuHiNcqfp9gVpkgRFhcvALy1zgk".toList
      lot := some 100000
      sequence := some 1 }) := by decide +kernel

end Bip38.Std
