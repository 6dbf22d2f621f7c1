import Verif.Props.VectorsCreate
/-!
# Published vectors: EC-multiplied keys made, a key decrypted

`MOLON LABE` with lot 100000, sequence 1 (`tests/data/values.json:5-6,16,20,35`): the intermediate code, the created key, its
confirmation and its decryption.
One vector per module, each importing the one before, so that they are checked one after the other (the kernel needs some GB for each).
-/
namespace Bip38.Std
open Bip38 Spec

/-- `decrypt` of a key which is not EC-multiplied (`tests/data/values.json:23`), with details. -/
theorem vector_decrypt_noEc : bitcoinObject.decrypt vectorPrims "6PRVWUbkzzsbcVac2qwfssoUJAN1Xhrg6bNk8J7Nzm5H7kxEbn2Nh2ZoGg".toList
      "TestingOneTwoThree".toList none true =
    .ok (.detail {
      wif := "5KN7MzqK5wt2TP1fQCYyHBtDrXdJuXbUzm4A9rKAteGu3Qi5CVR".toList
      privateKey := "cbf4b9f70470856bb4f40f80b87edb90865997ffee6df315ab166d713af433a5".toList
      wifType := "wif"
      publicKey := "04d2ce831dd06e5c1f5b1121ef34c2af4bcb01b126e309234adbc3561b60c9360ea7f23327b49ba7f10d17fad15f068b8807dbbc9e4ace5d4a0b40264eefaf31a4".toList
      publicKeyType := "uncompressed"
      seed := none
      address := "1Jq6MksXQVWzrznvZzxkV6oY57oWXD9TXB".toList
      lot := none
      sequence := none }) := by decide +kernel

end Bip38.Std
