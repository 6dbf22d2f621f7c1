import Verif.Props.SourceBip38
import Verif.Py.Text
import Verif.Py.OfExceptions
import Verif.Py.OfConst
import Verif.Py.OfUtils
import Verif.Py.OfCrypto
import Verif.Py.OfBase58
import Verif.Py.OfRipemd160
import Verif.Py.OfPoint
import Verif.Py.OfPublicKey
import Verif.Py.OfPrivateKey
import Verif.Py.OfWif
import Verif.Py.OfP2pkhAddress
import Verif.Py.OfBip38
import Verif.Py.OfCryptocurrencies
import Verif.Py.OfFiles
import Verif.Py.OnlyOf
import Verif.Py.OnlyProgram
/-!
# Properties C81 to C86, C96, C97: from the characters of the files

`XText` is the text of a file of the repository, word for word.  `Defines .. XText XDefs` says: the text, read by the lexer and the parser of
`Verif/Py/Syntax.lean` and given its meaning by `Verif/Py/Meaning.lean`, under the names that it imports and that it defines itself, defines
`XDefs`; the theorems say that it defines this and nothing else.  `XDefs` is a list of the functions, constants, classes and members of `Verif/Src`, which the other theorems of C81..C86 are about.
`XWorld` are the modules that the file imports from, and what they define; `C86_characters_program` puts the files together (`Verif/Py/Program.lean`).  So the translation `tools/gen_src.py` is not trusted, nor are `tools/gen_classes.py` and
what `tools/gen_import.py` reads from the files.
-/
namespace Bip38.Props
open Bip38 Spec Src Py

variable (H : Host)

/-- C81: the text of `bip38/exceptions.py`. -/
theorem C81_characters_exceptions (defs : Scope) :
    Defines H (Error_str H) [v!"bip38"] (ExceptionsWorld H) (fun _ => []) ExceptionsText defs ↔ defs = ExceptionsDefs H :=
  ⟨exceptions_only H, fun h => h ▸ exceptions_defines H⟩

/-- C81: the text of `bip38/const.py`. -/
theorem C81_characters_const (defs : Scope) :
    Defines H (Error_str H) [v!"bip38"] (ConstWorld H) (fun _ => []) ConstText defs ↔ defs = ConstDefs H :=
  ⟨const_only H, fun h => h ▸ const_defines H⟩

/-- C81: the text of `bip38/utils.py`. -/
theorem C81_characters_utils (defs : Scope) :
    Defines H (Error_str H) [v!"bip38"] (UtilsWorld H) (fun _ => []) UtilsText defs ↔ defs = UtilsDefs H :=
  ⟨utils_only H, fun h => h ▸ utils_defines H⟩

/-- C81: the text of `bip38/crypto.py`. -/
theorem C81_characters_crypto (defs : Scope) :
    Defines H (Error_str H) [v!"bip38"] (CryptoWorld H) (fun _ => []) CryptoText defs ↔ defs = CryptoDefs H :=
  ⟨crypto_only H, fun h => h ▸ crypto_defines H⟩

/-- C82: the text of `bip38/libs/base58.py`. -/
theorem C82_characters_base58 (defs : Scope) :
    Defines H (Error_str H) [v!"bip38.libs", v!"bip38"] (Base58World H) (fun _ => []) Base58Text defs ↔ defs = Base58Defs H :=
  ⟨base58_only H, fun h => h ▸ base58_defines H⟩

/-- C83: the text of `bip38/libs/ripemd160.py`. -/
theorem C83_characters_ripemd160 (defs : Scope) :
    Defines H (Error_str H) [v!"bip38.libs", v!"bip38"] (Ripemd160World H) (fun _ => []) Ripemd160Text defs ↔ defs = Ripemd160Defs H :=
  ⟨ripemd160_only H, fun h => h ▸ ripemd160_defines H⟩

/-- C84: the text of `bip38/secp256k1/point.py`. -/
theorem C84_characters_point (defs : Scope) :
    Defines H (Error_str H) [v!"bip38.secp256k1", v!"bip38"] (PointWorld H) (fun n => methodsBefore n (PointOrder H)) PointText defs ↔ defs = PointDefs H :=
  ⟨point_only H, fun h => h ▸ point_defines H⟩

/-- C84: the text of `bip38/secp256k1/public_key.py`. -/
theorem C84_characters_public_key (defs : Scope) :
    Defines H (Error_str H) [v!"bip38.secp256k1", v!"bip38"] (PublicKeyWorld H) (fun n => allMethods (PointOrder H) ++ methodsBefore n (PublicKeyOrder H)) PublicKeyText defs ↔ defs = PublicKeyDefs H :=
  ⟨publicKey_only H, fun h => h ▸ publicKey_defines H⟩

/-- C84: the text of `bip38/secp256k1/private_key.py`. -/
theorem C84_characters_private_key (defs : Scope) :
    Defines H (Error_str H) [v!"bip38.secp256k1", v!"bip38"] (PrivateKeyWorld H) (fun n => allMethods (PointOrder H) ++ allMethods (PublicKeyOrder H) ++ methodsBefore n (PrivateKeyOrder H)) PrivateKeyText defs ↔ defs = PrivateKeyDefs H :=
  ⟨privateKey_only H, fun h => h ▸ privateKey_defines H⟩

/-- C85: the text of `bip38/wif.py`. -/
theorem C85_characters_wif (defs : Scope) :
    Defines H (Error_str H) [v!"bip38"] (WifWorld H) (fun _ => allMethods (PointOrder H) ++ allMethods (PublicKeyOrder H) ++ allMethods (PrivateKeyOrder H)) WifText defs ↔ defs = WifDefs H :=
  ⟨wif_only H, fun h => h ▸ wif_defines H⟩

/-- C85: the text of `bip38/p2pkh_address.py`. -/
theorem C85_characters_p2pkh_address (defs : Scope) :
    Defines H (Error_str H) [v!"bip38"] (P2pkhAddressWorld H) (fun n => allMethods (PointOrder H) ++ allMethods (PublicKeyOrder H) ++ allMethods (PrivateKeyOrder H) ++ methodsBefore n (P2pkhAddressOrder H)) P2pkhAddressText defs ↔ defs = P2pkhAddressDefs H :=
  ⟨p2pkhAddress_only H, fun h => h ▸ p2pkhAddress_defines H⟩

/-- C86: the text of `bip38/bip38.py`. -/
theorem C86_characters_bip38 (defs : Scope) :
    Defines H (Error_str H) [v!"bip38"] (Bip38World H) (fun n => allMethods (PointOrder H) ++ allMethods (PublicKeyOrder H) ++ allMethods (PrivateKeyOrder H) ++ allMethods (P2pkhAddressOrder H) ++ methodsBefore n (Bip38Order H)) Bip38Text defs ↔ defs = Bip38Defs H :=
  ⟨bip38_only H, fun h => h ▸ bip38_defines H⟩

/-- C86: the texts of all files together mean this and nothing else: definitions of all files, such that every text means its own under what the
others define, are `program H`. -/
theorem C86_characters_program (m : Modules) : Program H m ↔ m = program H :=
  ⟨program_only H, fun h => h ▸ program_means H⟩

/-- C86: from the characters of the files to the results: the texts have one meaning, in which `bip38/bip38.py` defines a class `BIP38` and nothing
else, whose constructor and methods end, for all arguments, with the value or the exception of the model. -/
theorem C86_characters (hP : H.P.Lawful) : ∃ m members new intermediate encrypt create confirm decrypt,
    (∀ m', Program H m' ↔ m' = m) ∧ m.bip38 = [(v!"BIP38", .cls (some .BIP38) members)] ∧
    members = [(v!"__init__", .ctor new), (v!"intermediate_code", .fn intermediate), (v!"encrypt", .method encrypt),
      (v!"create_new_encrypted_wif", .method create), (v!"confirm_code", .method confirm), (v!"decrypt", .method decrypt)] ∧
    (∀ c n, EndsAs (new [.coin c, .str n.toList] []) (BIP38.new c n) bipVal) ∧
    (∀ (passphrase : Str) (lot sequence : Option Int) (salt : Data),
      EndsAs (intermediate [.str passphrase, ofOptInt lot, ofOptInt sequence, ofData salt] [])
      (intermediateCode H.P passphrase lot sequence salt (H.urandom 8)) .str) ∧
    (∀ (b : BIP38) (wif passphrase : Str) (net : Option String),
      EndsAs (encrypt [bipVal b, .str wif, .str passphrase, optNet net] []) (b.encrypt H.P wif passphrase net) .str) ∧
    (∀ (b : BIP38) (code : Str) (wifType : String) (seed : Data) (net : Option String),
      EndsAs (create [bipVal b, .str code, .str wifType.toList, ofData seed, optNet net] [])
      (b.createNewEncryptedWif H.P code wifType seed net (H.urandom 24)) createdVal) ∧
    (∀ (b : BIP38) (passphrase code : Str) (net : Option String) (detail : Bool),
      EndsAs (confirm [bipVal b, .str passphrase, .str code, optNet net, .bool detail] [])
      (b.confirmCode H.P passphrase code net detail) confirmVal) ∧
    (∀ (b : BIP38) (encrypted passphrase : Str) (net : Option String) (detail : Bool),
      EndsAs (decrypt [bipVal b, .str encrypted, .str passphrase, optNet net, .bool detail] [])
      (b.decrypt H.P encrypted passphrase net detail) decryptVal) :=
  ⟨program H, _, _, _, _, _, _, _, C86_characters_program H, rfl, rfl, C86_constructor H, C86_intermediate_code H, C86_encrypt H hP, C86_create_new_encrypted_wif H hP,
    C86_confirm_code H hP, C86_decrypt H hP⟩

/-- C97: the text of `bip38/cryptocurrencies.py` consists of the class statements that C97 is about. -/
theorem C97_characters : DefinesClasses CryptocurrenciesText cryptocurrencies := cryptocurrencies_defines

/-- C96: the files, with their paths, are the modules of the program that C96 is about. -/
theorem C96_characters : Files packageFiles Import.package := package_files

/-- C96: the names that the bodies of the functions take from outside. -/
theorem C96_characters_names : Frees packageFiles Import.reads := files_frees

/-! ### `Defines` pins down what a text means, on a small text -/

def exampleText : String := "def f(x, y=3):\n    # a comment\n    return x - y * 2\n"
def exampleChars : List Char := chars% exampleText
theorem example_chars : exampleText = String.ofList exampleChars := by by_kernel
theorem example_lex : lex (exampleChars.map Char.toNat) = some ((lex (exampleChars.map Char.toNat)).getD []) := by by_kernel
theorem example_parse : parseModule (exampleText.toList.map Char.toNat) =
    some (((ps depth (.stmts []) ((lex (exampleChars.map Char.toNat)).getD [])).map (·.1)).getD []) :=
  parseModule_eq example_chars example_lex (by by_kernel)
/-- What a text defines is determined: whatever the text of this example defines is one function, and this is what it returns. -/
theorem example_defines (H : Host) (str : Fn) (defs : Scope) (h : Defines H str [] [] (fun _ => []) exampleText defs) :
    ∃ f, defs = [(v!"f", .fn f)] ∧ (∀ m n : Int, f [.int m, .int n] [] = pure (.int (m - n * 2))) ∧ ∀ m : Int, f [.int m] [] = pure (.int (m - 3 * 2)) := by
  obtain ⟨tree, ins, ht, hi, hd⟩ := h
  rw [example_parse] at ht
  cases ht
  have hi' : imports [] [] (((ps depth (.stmts []) ((lex (exampleChars.map Char.toNat)).getD [])).map (·.1)).getD []) = some [] := by by_kernel
  rw [hi'] at hi
  cases hi
  have hd' : definitions { lib := library H, scope := defs ++ [], methods := [], str } (fun _ => [])
      (((ps depth (.stmts []) ((lex (exampleChars.map Char.toNat)).getD [])).map (·.1)).getD []) =
    some [(v!"f", .fn (defun [⟨v!"x", none⟩, ⟨v!"y", some (eConst (.int 3) Env.empty)⟩] none
      [sReturn (eBin [] [] .sub (eName v!"x") (eBin [] [] .mul (eName v!"y") (eConst (.int 2))))]))] := by by_kernel
  rw [hd'] at hd
  cases hd
  exact ⟨_, rfl, fun m n => rfl, fun m => rfl⟩
end Bip38.Props
