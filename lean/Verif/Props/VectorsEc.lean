import Verif.Props.Vectors
/-!
# Published vectors: EC-multiplied keys made, a key decrypted

`MOLON LABE` with lot 100000, sequence 1 (`tests/data/values.json:5-6,16,20,35`): the intermediate code, the created key, its
confirmation and its decryption.
One vector per module, each importing the one before, so that they are checked one after the other (the kernel needs some GB for each).
-/
namespace Bip38.Std
open Bip38 Spec

/-- `intermediate_code`, with 4 bytes of salt. -/
theorem vector_intermediate : intermediateCode vectorPrims "MOLON LABE".toList (some 100000) (some 1) (.str "d7ebe42c".toList) [] =
    .ok "passphrasedYVZ6EdRqSmcHHsYWmJ7wzWcWYuDQmf9EGH9Pnrv67eHy4qswaAGGc8Et3eeGp".toList := by decide +kernel

end Bip38.Std
