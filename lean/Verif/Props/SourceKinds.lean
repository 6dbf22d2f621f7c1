import Verif.Props.SourceBip38
import Verif.Props.AnyArgs
import Verif.Props.Numbers
import Verif.Props.Kinds
import Verif.Src.EqAny
/-!
# Property C91: the text of the repository on arguments of any kind
-/
namespace Bip38.Props
open Bip38 Spec Src

variable (H : Host)

/-- C91: the methods with texts, passphrases and `detail` of any kind end as the model says: only a text is decoded or normalised, anything else
raises `TypeError` where it is used. -/
theorem C91_methods (hP : H.P.Lawful) (b : BIP38) (text passphrase detail : Val) (net : Option String) (wifType : String) (seed : Data) :
    EndsAs (BIP38_encrypt H [bipVal b, text, passphrase, optNet net] []) (b.encryptAny H.P (dataOf text) (dataOf passphrase) net) .str ∧
    EndsAs (BIP38_decrypt H [bipVal b, text, passphrase, optNet net, detail] [])
      (b.decryptAny H.P (dataOf text) (dataOf passphrase) net (truthy detail)) decryptVal ∧
    EndsAs (BIP38_confirm_code H [bipVal b, passphrase, text, optNet net, detail] [])
      (b.confirmAny H.P (dataOf passphrase) (dataOf text) net (truthy detail)) confirmVal ∧
    EndsAs (BIP38_create_new_encrypted_wif H [bipVal b, text, .str wifType.toList, ofData seed, optNet net] [])
      (b.createAny H.P (dataOf text) wifType seed net (H.urandom 24)) createdVal :=
  ⟨endsAs (encrypt_any H hP b text passphrase net), endsAs (decrypt_any H hP b text passphrase net detail),
    endsAs (confirm_any H hP b passphrase text net detail), endsAs (create_any H hP b text wifType seed net)⟩

/-- C91: `intermediate_code` with a passphrase of any kind … -/
theorem C91_intermediate_code (passphrase : Val) (lot sequence : Option Int) (salt : Data) :
    EndsAs (BIP38_intermediate_code H [passphrase, ofOptInt lot, ofOptInt sequence, ofData salt] [])
      (intermediateCodeAny H.P (dataOf passphrase) lot sequence salt (H.urandom 8)) .str :=
  endsAs (intermediate_any H passphrase lot sequence salt)

/-- … and with numbers that are texts, truth values, integers or absent, each in its own way. -/
theorem C91_numbers (passphrase : Str) {lot sequence : Val} {lotN seqN : NumArg} (hl : NumVal H lot lotN) (hq : NumVal H sequence seqN) (salt : Data) :
    EndsAs (BIP38_intermediate_code H [.str passphrase, lot, sequence, ofData salt] [])
      (intermediateCodeNum H.P passphrase lotN seqN salt (H.urandom 8)) .str :=
  endsAs (intermediate_num H passphrase hl hq salt)

/-- C91: `decode_wif` and `P2PKHAddress.decode` on any object. -/
theorem C91_decode (v : Val) (wifPrefix : Int) (kw : List (Name × Val)) {w : Int} {t : String} {a : Str} (hk : AddressKw kw w t a)
    (hn : getField kw v!"address" = none) :
    EndsAs (wif_decode_wif H [v, .int wifPrefix] []) (decodeWifAny (dataOf v) wifPrefix) wifParts ∧
    EndsAs (P2PKHAddress_decode H [v] kw) (p2pkhDecodeAny H.P (dataOf v) w a) .str :=
  ⟨endsAs (decode_wif_any H v wifPrefix), endsAs (p2pkh_decode_any H v kw hk hn)⟩

/-- C91: no method returns anything for a passphrase that is no text, whatever the other arguments are. -/
theorem C91_passphrase (hP : H.P.Lawful) {b : BIP38} {net : Option String} {c : Coin} {n : String} {x : Net} (hs : Selects b net c n x)
    (passphrase : Val) (hp : NonText passphrase) (text detail : Val) (lot sequence : Option Int) (salt : Data) :
    (∃ e m, Raises (BIP38_encrypt H [bipVal b, text, passphrase, optNet net] []) e m) ∧
    (∃ e m, Raises (BIP38_decrypt H [bipVal b, text, passphrase, optNet net, detail] []) e m) ∧
    (∃ e m, Raises (BIP38_confirm_code H [bipVal b, passphrase, text, optNet net, detail] []) e m) ∧
    (∃ e m, Raises (BIP38_intermediate_code H [passphrase, ofOptInt lot, ofOptInt sequence, ofData salt] []) e m) := by
  have hd : NotText (dataOf passphrase) := by
    rcases text_or_not passphrase with ⟨s, rfl⟩ | ⟨_, hd⟩
    · exact absurd rfl (hp s)
    · exact hd
  obtain ⟨⟨x1, h1⟩, ⟨x2, h2⟩, ⟨x3, h3⟩, ⟨x4, h4⟩⟩ :=
    C73_never hP hs (dataOf passphrase) hd (dataOf text) (truthy detail) lot sequence salt (H.urandom 8)
  obtain ⟨g1, g2, g3, _⟩ := C91_methods H hP b text passphrase detail net "wif" .none
  exact ⟨⟨_, _, g1.2 _ h1⟩, ⟨_, _, g2.2 _ h2⟩, ⟨_, _, g3.2 _ h3⟩, ⟨_, _, (C91_intermediate_code H passphrase lot sequence salt).2 _ h4⟩⟩

/-- C91: a WIF, an encrypted WIF, a confirmation code that is no text raises `TypeError` in every method. -/
theorem C91_texts (hP : H.P.Lawful) {b : BIP38} {net : Option String} {c : Coin} {n : String} {x : Net} (hs : Selects b net c n x)
    (text : Val) (ht : NonText text) (passphrase detail : Val) :
    (∃ m, Raises (BIP38_encrypt H [bipVal b, text, passphrase, optNet net] []) .typeError m) ∧
    (∃ m, Raises (BIP38_decrypt H [bipVal b, text, passphrase, optNet net, detail] []) .typeError m) ∧
    (∃ m, Raises (BIP38_confirm_code H [bipVal b, passphrase, text, optNet net, detail] []) .typeError m) := by
  have hd : NotText (dataOf text) := by
    rcases text_or_not text with ⟨s, rfl⟩ | ⟨_, hd⟩
    · exact absurd rfl (ht s)
    · exact hd
  obtain ⟨⟨x1, h1, c1⟩, ⟨x2, h2, c2⟩, ⟨x3, h3, c3⟩⟩ :=
    C73_no_text (P := H.P) hs (dataOf text) (dataOf passphrase) hd (truthy detail)
  obtain ⟨g1, g2, g3, _⟩ := C91_methods H hP b text passphrase detail net "wif" .none
  exact ⟨⟨_, c1 ▸ g1.2 _ h1⟩, ⟨_, c2 ▸ g2.2 _ h2⟩, ⟨_, c3 ▸ g3.2 _ h3⟩⟩

/-- C91: a network that is neither a text nor true counts as absent, whatever the other arguments are … -/
theorem C91_no_network (b : BIP38) (network : Val) (hf : truthy network = false) (text passphrase third : Val) :
    BIP38_encrypt H [bipVal b, text, passphrase, network] [] = BIP38_encrypt H [bipVal b, text, passphrase, .none] [] ∧
    BIP38_decrypt H [bipVal b, text, passphrase, network, third] [] = BIP38_decrypt H [bipVal b, text, passphrase, .none, third] [] ∧
    BIP38_confirm_code H [bipVal b, passphrase, text, network, third] []
      = BIP38_confirm_code H [bipVal b, passphrase, text, .none, third] [] ∧
    BIP38_create_new_encrypted_wif H [bipVal b, text, passphrase, third, network] []
      = BIP38_create_new_encrypted_wif H [bipVal b, text, passphrase, third, .none] [] :=
  ⟨encrypt_false H b text passphrase network hf, decrypt_false H b text passphrase network third hf,
    confirm_false H b text passphrase network third hf, create_false H b text passphrase network third hf⟩

/-- … one that is true raises `NetworkError`, which shows its type (`shown`), before anything else is looked at … -/
theorem C91_network (c : Coin) (n0 : String) (b : BIP38) (hb : BIP38.new (.coin c) n0 = .ok b) (network : Val) (hv : PlainNonText network)
    (ht : truthy network = true) (shown : String) (hs : Src.format (.type (typeOf network)) = pure shown.toList) (text passphrase third : Val) :
    Raises (BIP38_encrypt H [bipVal b, text, passphrase, network] []) .networkError
      (report "Wrong network type" (quotes (c.networks.map Prod.fst)) shown) ∧
    Raises (BIP38_decrypt H [bipVal b, text, passphrase, network, third] []) .networkError
      (report "Wrong network type" (quotes (c.networks.map Prod.fst)) shown) ∧
    Raises (BIP38_confirm_code H [bipVal b, passphrase, text, network, third] []) .networkError
      (report "Wrong network type" (quotes (c.networks.map Prod.fst)) shown) ∧
    Raises (BIP38_create_new_encrypted_wif H [bipVal b, text, passphrase, third, network] []) .networkError
      (report "Wrong network type" (quotes (c.networks.map Prod.fst)) shown) := by
  obtain ⟨hmem, _, hnets, _⟩ := new_ok_iff hb
  have hne : c.networks.map Prod.fst ≠ [] := List.ne_nil_of_mem hmem
  rw [← errText_list _ _ _ hne, show c.networks.map Prod.fst = b.networks from hnets.symm]
  exact ⟨encrypt_kind H b text passphrase network hv ht shown hs, decrypt_kind H b text passphrase network third hv ht shown hs,
    confirm_kind H b text passphrase network third hv ht shown hs, create_kind H b text passphrase network third hv ht shown hs⟩

/-- … and the constructor refuses both. -/
theorem C91_constructor (c : Coin) (hc : c.networks ≠ []) (network : Val) (hv : PlainNonText network) (shown : String)
    (hs : Src.format (.type (typeOf network)) = pure shown.toList) :
    Raises (BIP38_init H [.coin (.coin c), network] []) .networkError
      (report "Wrong network type" (quotes (c.networks.map Prod.fst)) shown) := by
  have hne : c.networks.map Prod.fst ≠ [] := by simpa using hc
  rw [← errText_list _ _ _ hne]
  exact init_kind H c network hv shown hs

/-- C91: a WIF type that is no text never makes a WIF: `private_key_to_wif` refuses it at once … -/
theorem C91_wif_type (wifType : Val) (hv : PlainNonText wifType) (shown : Str) (hs : Src.format wifType = pure shown) (key coin network : Val) :
    Raises (wif_private_key_to_wif H [key, wifType, coin, network] []) .wifError
      (report "Wrong WIF type" "'wif', 'wif-compressed'" (String.ofList shown)) := by
  have hrep : ∀ t, errText "Wrong WIF type" (.list (WIF_TYPES.map String.toList)) t = report "Wrong WIF type" "'wif', 'wif-compressed'" t := by
    intro t
    rw [show (WIF_TYPES.map String.toList) = ["wif".toList, "wif-compressed".toList] from rfl, errText_two]
    simp
  rw [← hrep]
  exact wif_type_kind H key coin network wifType hv shown hs

/-- … and `create_new_encrypted_wif` after it has read the seed and the code. -/
theorem C91_create_type (hP : H.P.Lawful) {b : BIP38} {net : Option String} {c : Coin} {n : String} {x : Net} (hb : Selects b net c n x)
    (wifType : Val) (hv : PlainNonText wifType) (shown : Str) (hs : Src.format wifType = pure shown) (code : Str) (seed : Data) (seedB raw : Bytes)
    (h1 : Supplies seed (H.urandom 24) seedB) (h2 : b58decode code = .ok (raw ++ checksum H.P raw)) (h3 : raw.length = 49) :
    Raises (BIP38_create_new_encrypted_wif H [bipVal b, .str code, wifType, ofData seed, optNet net] []) .wifError
      (report "Invalid wif type" "'wif', 'wif-compressed'" (String.ofList shown)) := by
  have hrep : ∀ t, errText "Invalid wif type" (.list (WIF_TYPES.map String.toList)) t = report "Invalid wif type" "'wif', 'wif-compressed'" t := by
    intro t
    rw [show (WIF_TYPES.map String.toList) = ["wif".toList, "wif-compressed".toList] from rfl, errText_two]
    simp
  have hd := (checkDecode_iff hP _ _ _).mpr h2
  have hm : b.selectNetwork net ∈ b.networks := by
    rw [hb.select]
    exact hb.mem
  unfold Raises
  rw [create_type H b code wifType hv shown hs seed net, ← hrep]
  have e1 : checkDecodeOr H.P code .passphraseError "Invalid intermediate passphrase" = .ok raw := by
    unfold checkDecodeOr
    rw [hd]
  rw [raiseIf, if_neg (not_not_intro hm), h1.ok, e1]
  show Run.ofPy (raiseIf (raw.length ≠ 49) _ _ >>= _) = _
  rw [raiseIf, if_neg (not_not_intro h3)]
  rfl

/-- C91: the functions on WIFs raise `KeyError` for networks that are no text, and `TypeError` for those that cannot be keys. -/
theorem C91_wif_network (network : Val) (e : ExcClass) (hn : NoKey network e) (c : Coin) (wif key : Val) (wifType : String) (ht : IsWifType wifType) :
    ∃ m, Raises (wif_wif_to_private_key H [wif, .coin (.coin c), network] []) e m ∧
      Raises (wif_get_wif_type H [wif, .coin (.coin c), network] []) e m ∧
      Raises (wif_get_wif_checksum H [wif, .coin (.coin c), network] []) e m ∧
      Raises (wif_private_key_to_wif H [key, .str wifType.toList, .coin (.coin c), network] []) e m := by
  have h : ∃ m, pySubscript (networksVal c) network = Run.raise e m := by
    cases hn <;> exact ⟨_, rfl⟩
  obtain ⟨m, hm⟩ := h
  refine ⟨m, wif_network H c wif network key _ e m hm ?_⟩
  rcases ht with rfl | rfl
  · exact Or.inl rfl
  · exact Or.inr rfl

/-- C91: a `public_key_type` that is no text makes an address of the uncompressed key, without complaint. -/
theorem C91_public_key_type (hP : H.P.Lawful) (pk : PkArg) (addressPrefix : Int) (type : Val) (hv : PlainNonText type) :
    EndsAs (P2PKHAddress_encode H [ofPk pk] [(v!"address_prefix", .int addressPrefix), (v!"public_key_type", type)])
      (p2pkhEncode H.P pk addressPrefix "uncompressed") .str :=
  endsAs (p2pkh_type H hP pk addressPrefix type hv)

/-- The cases: `passphrase=b"..."`, `network=b"mainnet"`, `network=0`, `wif_type=None`, `lot="100000"`, `lot=True`. -/
example : NonText (.bytes [1]) ∧ PlainNonText (.bytes [1]) ∧ truthy (.bytes [1]) = true ∧ truthy (.int 0) = false ∧
    Src.format (.type (typeOf (.bytes [1]))) = pure "<class 'bytes'>".toList ∧ PlainNonText .none ∧ Src.format .none = pure "None".toList ∧
    NumVal toyHost (.str "100000".toList) (.text (fun t => toyHost.parseInt t.toList) "100000") ∧
    NumVal toyHost (.bool true) (.value true (.ok 1) "True") ∧
    (∃ c n x, Selects bitcoinObject none c n x) ∧ BIP38.new (.coin Coins.Bitcoin) "mainnet" = .ok bitcoinObject := by
  refine ⟨fun s h => (nomatch h), ⟨by decide, fun l h => (nomatch h)⟩, rfl, rfl, rfl, ⟨by decide, fun l h => (nomatch h)⟩, rfl, .text _, .bool true,
    ⟨_, _, _, bitcoin_selects⟩, rfl⟩

end Bip38.Props
