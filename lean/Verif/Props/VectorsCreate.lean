import Verif.Props.VectorsEc
/-!
# Published vectors: EC-multiplied keys made, a key decrypted

`MOLON LABE` with lot 100000, sequence 1 (`tests/data/values.json:5-6,16,20,35`): the intermediate code, the created key, its
confirmation and its decryption.
One vector per module, each importing the one before, so that they are checked one after the other (the kernel needs some GB for each).
-/
namespace Bip38.Std
open Bip38 Spec

/-- `create_new_encrypted_wif`. -/
theorem vector_create : bitcoinObject.createNewEncryptedWif vectorPrims
      "passphrasedYVZ6EdRqSmcHHsYWmJ7wzWcWYuDQmf9EGH9Pnrv67eHy4qswaAGGc8Et3eeGp".toList "wif"
      (.str "9b6cad86daddae99ac3b76c1e47e61bc7f4665d02e10c290".toList) none [] =
    .ok { encryptedWif := "6PgRAPfrPWjPXfC6x9XB139RHzUP8GFcVen5Ju3qJDhRP69Q4Vd8Wbct6B".toList
          confirmationCode := "cfrm38V8kEzECGczWJmEoGuYfkoamcmVij3tHUhD6DEEquSRXp61HzhnT8jwQwBBZiKs9Jg4LXZ".toList
          publicKey := "04597967956e7f4c0e13ed7cd98baa9d7697a7f685d4347168e4a011c5fe6ba628e06ef89587c17afb55044336e44648dfa944ca85a4af0a7b28c29d4eefd0da92".toList
          seed := "9b6cad86daddae99ac3b76c1e47e61bc7f4665d02e10c290".toList
          publicKeyType := "uncompressed"
          address := "1KRg2YJxuHiNcqfp9gVpkgRFhcvALy1zgk".toList } := by decide +kernel

end Bip38.Std
