import Verif.Props.VectorsConfirm
/-!
# Published vectors, reading EC-multiplied keys

`tests/data/values.json:20,35`: the confirmation code and the encrypted key of `VectorsEc`, read with their passphrase.
One vector per module, each importing the one before, so that they are checked one after the other (the kernel needs some GB for each).
-/
namespace Bip38.Std
open Bip38 Spec

/-- `decrypt`, with details. -/
theorem vector_decrypt : bitcoinObject.decrypt vectorPrims "6PgRAPfrPWjPXfC6x9XB139RHzUP8GFcVen5Ju3qJDhRP69Q4Vd8Wbct6B".toList
      "MOLON LABE".toList none true =
    .ok (.detail {
      wif := "5KPBrbGWGAmbRgS5qAKCHb1Hot6DoFsctGuBcXvjzsMZCqg4R1H".toList
      privateKey := "ce6708e8336b4051eeb2d4e3aa4cef2e73677d43f5a4ff75e91bcfbc5fd30bd7".toList
      wifType := "wif"
      publicKey := "04597967956e7f4c0e13ed7cd98baa9d7697a7f685d4347168e4a011c5fe6ba628e06ef89587c17afb55044336e44648dfa944ca85a4af0a7b28c29d4eefd0da92".toList
      publicKeyType := "uncompressed"
      seed := some "9b6cad86daddae99ac3b76c1e47e61bc7f4665d02e10c290".toList
      address := "1KRg2YJxuHiNcqfp9gVpkgRFhcvALy1zgk".toList
      lot := some 100000
      sequence := some 1 }) := by decide +kernel

end Bip38.Std
