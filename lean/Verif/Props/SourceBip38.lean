import Verif.Props.SourceWif
import Verif.Src.EqInit
import Verif.Src.EqIntermediate
import Verif.Src.EqEncrypt
import Verif.Src.EqDecrypt
import Verif.Props.NoEc
import Verif.Props.Confirm
import Verif.Props.Decrypt
import Verif.Props.Create
import Verif.Props.Ec
import Verif.Props.EcExamples
import Verif.Props.Select
/-!
# Properties C86, C88 and C89: the text of `bip38/bip38.py`
-/
namespace Bip38.Props
open Bip38 Spec Src

variable (H : Host)

/-- C86: the constructor: for every object given as the cryptocurrency and every text given as the network. -/
theorem C86_constructor (c : CoinArg) (n : String) : EndsAs (BIP38_init H [.coin c, .str n.toList] []) (BIP38.new c n) bipVal :=
  endsAs (init_src H c n)

/-- C86: `intermediate_code`, for every passphrase, every lot and sequence (or none) and every owner salt (or none, and then eight bytes of
`os.urandom`). -/
theorem C86_intermediate_code (passphrase : Str) (lot sequence : Option Int) (salt : Data) :
    EndsAs (BIP38_intermediate_code H [.str passphrase, ofOptInt lot, ofOptInt sequence, ofData salt] [])
      (intermediateCode H.P passphrase lot sequence salt (H.urandom 8)) .str :=
  endsAs (intermediate_src H passphrase lot sequence salt)

/-- C86: `encrypt`, on every object of the class, every WIF, passphrase and network (or none). -/
theorem C86_encrypt (hP : H.P.Lawful) (b : BIP38) (wif passphrase : Str) (net : Option String) :
    EndsAs (BIP38_encrypt H [bipVal b, .str wif, .str passphrase, optNet net] []) (b.encrypt H.P wif passphrase net) .str :=
  endsAs (encrypt_src H hP b wif passphrase net)

/-- C86: `create_new_encrypted_wif`, on every object of the class, every text, WIF type, seed (or none, and then twenty-four bytes of
`os.urandom`) and network. -/
theorem C86_create_new_encrypted_wif (hP : H.P.Lawful) (b : BIP38) (code : Str) (wifType : String) (seed : Data) (net : Option String) :
    EndsAs (BIP38_create_new_encrypted_wif H [bipVal b, .str code, .str wifType.toList, ofData seed, optNet net] [])
      (b.createNewEncryptedWif H.P code wifType seed net (H.urandom 24)) createdVal :=
  endsAs (create_src H hP b code wifType seed net)

/-- C86: `confirm_code`, on every object of the class, every passphrase, text and network, with and without `detail`. -/
theorem C86_confirm_code (hP : H.P.Lawful) (b : BIP38) (passphrase code : Str) (net : Option String) (detail : Bool) :
    EndsAs (BIP38_confirm_code H [bipVal b, .str passphrase, .str code, optNet net, .bool detail] [])
      (b.confirmCode H.P passphrase code net detail) confirmVal :=
  endsAs (confirm_src H hP b passphrase code net detail)

/-- C86: `decrypt`, on every object of the class, every text, passphrase and network, with and without `detail`. -/
theorem C86_decrypt (hP : H.P.Lawful) (b : BIP38) (encrypted passphrase : Str) (net : Option String) (detail : Bool) :
    EndsAs (BIP38_decrypt H [bipVal b, .str encrypted, .str passphrase, optNet net, .bool detail] [])
      (b.decrypt H.P encrypted passphrase net detail) decryptVal :=
  endsAs (decrypt_src H hP b encrypted passphrase net detail)

example : toyHost.P.Lawful := toy_lawful 7 9

end Bip38.Props
