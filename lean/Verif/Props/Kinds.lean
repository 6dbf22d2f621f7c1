import Verif.Model.Bip38Kind
import Verif.Props.Create
import Verif.Props.Network
import Verif.Props.Messages
/-!
# Property C76: network names, WIF types and public key types of any kind
-/
namespace Bip38.Props
open Bip38 Spec

variable {P : Prims} {obj : BIP38} {network : Option String} {c : Coin} {n : String} {v : Net}

/-- The argument is no text. -/
def NoText (x : ObjArg) : Prop := ∀ s, x ≠ .str s

/-- How an object is written in a text: `None`, a text as itself, any other object by its `str`. -/
inductive Shown : ObjArg → String → Prop
  | none : Shown .none "None"
  | str (s : String) : Shown (.str s) s
  | other (truthy hashable : Bool) (type text : String) : Shown (.other truthy hashable type text) text

/-- How the type of an object that is no text is written. -/
inductive TypeShown : ObjArg → String → Prop
  | none : TypeShown .none "<class 'NoneType'>"
  | other (truthy hashable : Bool) (type text : String) : TypeShown (.other truthy hashable type text) type

theorem Shown.eq {x : ObjArg} {s : String} (h : Shown x s) : x.text = s := by cases h <;> rfl
theorem TypeShown.eq {x : ObjArg} {s : String} (h : TypeShown x s) : x.typeText = s := by cases h <;> rfl
theorem TypeShown.noText {x : ObjArg} {s : String} (h : TypeShown x s) : NoText x := by cases h <;> simp [NoText]

/-- An optional text as an argument. -/
def argOf : Option String → ObjArg
  | none => .none
  | some s => .str s

theorem isIn_iff (x : ObjArg) (l : List String) : x.isIn l = true ↔ ∃ s ∈ l, x = .str s := by
  simp [ObjArg.isIn]

theorem noText_isIn {x : ObjArg} (h : NoText x) (l : List String) : ¬ x.isIn l = true := by
  rw [isIn_iff]
  rintro ⟨s, _, rfl⟩
  exact h s rfl

/-- What the test of the network does with a false argument or a text. -/
theorem networkKind_select (obj : BIP38) (network : Option String) (x : ObjArg) (hx : x = argOf network ∨ (x.truthy = false ∧ network = none)) :
    obj.networkKind x = if obj.selectNetwork network ∈ obj.networks then .ok (obj.selectNetwork network)
      else .error ⟨.networkError, wrongNetwork obj.networks⟩ := by
  have hsel : (if x.truthy then x else ObjArg.str obj.network) = .str (obj.selectNetwork network) := by
    rcases hx with rfl | ⟨hf, rfl⟩
    · cases network with
      | none => rfl
      | some s =>
        by_cases hs : s = "" <;> simp [argOf, ObjArg.truthy, BIP38.selectNetwork, hs]
    · simp [hf, BIP38.selectNetwork]
  unfold BIP38.networkKind
  simp only [hsel]
  by_cases h : obj.selectNetwork network ∈ obj.networks
  · have h1 : (ObjArg.str (obj.selectNetwork network)).isIn obj.networks = true := (isIn_iff _ _).mpr ⟨_, h, rfl⟩
    rw [py_bind (not_raise (not_not.mpr h1))]
    simp [h]
  · have h1 : ¬ (ObjArg.str (obj.selectNetwork network)).isIn obj.networks = true := by
      rw [isIn_iff]
      rintro ⟨s, hs, he⟩
      simp only [ObjArg.str.injEq] at he
      exact h (he ▸ hs)
    rw [py_bind_err (do_raise h1)]
    simp [h]
    rfl

theorem select_some (obj : BIP38) (network : Option String) : obj.selectNetwork (some (obj.selectNetwork network)) = obj.selectNetwork network := by
  cases network with
  | none => by_cases h : obj.network = "" <;> simp [BIP38.selectNetwork, h]
  | some s =>
    by_cases hs : s = ""
    · by_cases h : obj.network = "" <;> simp [BIP38.selectNetwork, h, hs]
    · simp [BIP38.selectNetwork, hs]

/-- C76: with a text or `None` for the network the methods are the ones described by the other properties; every other false object (`0`, `False`, `b""`,
`[]`, …) counts as an absent network. -/
theorem C76_text_or_false (obj : BIP38) (network : Option String) (x : ObjArg)
    (hx : x = argOf network ∨ (network = none ∧ ∃ hashable type text, x = .other false hashable type text)) (w e code it pass : Str) (type : String) (seed : Data) (u : Bytes) (detail : Bool) :
    obj.encryptKind P w pass x = obj.encrypt P w pass network ∧
    obj.decryptKind P e pass x detail = obj.decrypt P e pass network detail ∧
    obj.confirmKind P pass code x detail = obj.confirmCode P pass code network detail ∧
    obj.createKind P it (.str type) seed x u = obj.createNewEncryptedWif P it type seed network u := by
  have hk := networkKind_select obj network x (hx.imp_right fun ⟨h1, _, _, _, h2⟩ => ⟨h2 ▸ rfl, h1⟩)
  by_cases h : obj.selectNetwork network ∈ obj.networks
  · rw [if_pos h] at hk
    refine ⟨?_, ?_, ?_, ?_⟩
    · unfold BIP38.encryptKind
      rw [py_bind hk]
      unfold BIP38.encrypt
      rw [select_some]
    · unfold BIP38.decryptKind
      rw [py_bind hk]
      unfold BIP38.decrypt
      rw [select_some]
    · unfold BIP38.confirmKind
      rw [py_bind hk]
      unfold BIP38.confirmCode
      rw [select_some]
    · unfold BIP38.createKind
      rw [py_bind hk]
      unfold BIP38.createNewEncryptedWif
      rw [select_some]
  · rw [if_neg h] at hk
    refine ⟨?_, ?_, ?_, ?_⟩
    · unfold BIP38.encryptKind BIP38.encrypt
      rw [py_bind_err hk, py_bind_err (do_raise h)]
    · unfold BIP38.decryptKind BIP38.decrypt
      rw [py_bind_err hk, py_bind_err (do_raise h)]
    · unfold BIP38.confirmKind BIP38.confirmCode
      rw [py_bind_err hk, py_bind_err (do_raise h)]
    · unfold BIP38.createKind BIP38.createNewEncryptedWif
      rw [py_bind_err hk, py_bind_err (do_raise h)]

/-- C76: every other object is refused by all four methods, whatever the other arguments are; the text shows the networks of the coin and the type
of the object. -/
theorem C76_refused (c : Coin) (n0 : String) (obj : BIP38) (hb : BIP38.new (.coin c) n0 = .ok obj) (hashable : Bool) (typeText text : String)
    (w e code it pass : Str) (type : ObjArg) (seed : Data) (u : Bytes) (detail : Bool) :
    obj.encryptKind P w pass (.other true hashable typeText text) = .error ⟨.networkError, report "Wrong network type" (quotes (c.networks.map Prod.fst)) typeText⟩ ∧
    obj.decryptKind P e pass (.other true hashable typeText text) detail = .error ⟨.networkError, report "Wrong network type" (quotes (c.networks.map Prod.fst)) typeText⟩ ∧
    obj.confirmKind P pass code (.other true hashable typeText text) detail = .error ⟨.networkError, report "Wrong network type" (quotes (c.networks.map Prod.fst)) typeText⟩ ∧
    obj.createKind P it type seed (.other true hashable typeText text) u = .error ⟨.networkError, report "Wrong network type" (quotes (c.networks.map Prod.fst)) typeText⟩ := by
  obtain ⟨hmem, _, hnets, _⟩ := new_ok_iff hb
  have hne : c.networks.map Prod.fst ≠ [] := List.ne_nil_of_mem hmem
  have hk : obj.networkKind (.other true hashable typeText text) = .error ⟨.networkError, report "Wrong network type" (quotes (c.networks.map Prod.fst)) typeText⟩ := by
    unfold BIP38.networkKind
    simp only [ObjArg.truthy, if_true]
    rw [py_bind_err (do_raise (noText_isIn (by simp [NoText]) _)), hnets]
    rw [← errText_list _ _ _ hne]
    rfl
  refine ⟨?_, ?_, ?_, ?_⟩
  · unfold BIP38.encryptKind; rw [py_bind_err hk]
  · unfold BIP38.decryptKind; rw [py_bind_err hk]
  · unfold BIP38.confirmKind; rw [py_bind_err hk]
  · unfold BIP38.createKind; rw [py_bind_err hk]

/-- C76: the constructor refuses all objects that are no texts, false ones too: `None` is no default there. -/
theorem C76_constructor (c : Coin) (hc : c.networks ≠ []) (x : ObjArg) (type : String) (ht : TypeShown x type) :
    BIP38.newKind c x = .error ⟨.networkError, report "Wrong network type" (quotes (c.networks.map Prod.fst)) type⟩ := by
  have hx := ht.noText
  rw [← ht.eq]
  have hne : c.networks.map Prod.fst ≠ [] := by simpa using hc
  rw [← errText_list _ _ _ hne]
  unfold BIP38.newKind
  cases x with
  | str s => exact absurd rfl (hx s)
  | none => exact py_bind_err (do_raise (noText_isIn hx _)) _
  | other a b d e => exact py_bind_err (do_raise (noText_isIn hx _)) _

/-- C76: on texts the constructor is the one described by C24. -/
theorem C76_constructor_text (c : Coin) (s : String) : BIP38.newKind c (.str s) = BIP38.new (.coin c) s := rfl

/-- C76: `create_new_encrypted_wif` with a WIF type that is no text never returns; on a good seed and code it raises `WIFError`, which shows the object. -/
theorem C76_create_type (x type : ObjArg) (ht : NoText type) (text : String) (hs : Shown type text) (it : Str) (seed : Data) (u : Bytes) :
    (∀ r, obj.createKind P it type seed x u ≠ .ok r) ∧
    (∀ name seedB b, obj.networkKind x = .ok name → bytesOrRandom seed u = .ok seedB → checkDecode P.sha256 it = .ok b → b.length = 49 →
      obj.createKind P it type seed x u = .error ⟨.wifError, report "Invalid wif type" "'wif', 'wif-compressed'" text⟩) := by
  rw [← hs.eq]
  have hkey : ∀ name seedB b, obj.networkKind x = .ok name → bytesOrRandom seed u = .ok seedB → checkDecode P.sha256 it = .ok b → b.length = 49 →
      obj.createKind P it type seed x u = .error ⟨.wifError, errText "Invalid wif type" (.list (WIF_TYPES.map String.toList)) type.text⟩ := by
    intro name seedB b h1 h2 h3 h4
    unfold BIP38.createKind
    rw [py_bind h1]
    cases type with
    | str s => exact absurd rfl (ht s)
    | _ =>
      simp only
      rw [py_bind h2, py_bind (checkDecodeOr_ok it b _ _ h3), py_bind (not_raise (not_not.mpr h4))]
      rfl
  have hrep : errText "Invalid wif type" (.list (WIF_TYPES.map String.toList)) type.text = report "Invalid wif type" "'wif', 'wif-compressed'" type.text := by
    rw [show (WIF_TYPES.map String.toList) = ["wif".toList, "wif-compressed".toList] from rfl, errText_two]
    simp
  refine ⟨fun r hr => ?_, fun name seedB b h1 h2 h3 h4 => by rw [hkey name seedB b h1 h2 h3 h4, hrep]⟩
  have hr0 := hr
  unfold BIP38.createKind at hr
  cases h1 : obj.networkKind x with
  | error y => rw [py_bind_err h1] at hr; simp at hr
  | ok name =>
    rw [py_bind h1] at hr
    cases type with
    | str s => exact absurd rfl (ht s)
    | _ =>
      simp only at hr
      cases h2 : bytesOrRandom seed u with
      | error y => rw [py_bind_err h2] at hr; simp at hr
      | ok seedB =>
        rw [py_bind h2] at hr
        cases h3 : checkDecodeOr P it .passphraseError "Invalid intermediate passphrase" with
        | error y => rw [py_bind_err h3] at hr; simp at hr
        | ok b =>
          rw [py_bind h3] at hr
          by_cases h4 : b.length = 49
          · rw [py_bind (not_raise (not_not.mpr h4))] at hr
            simp [raise] at hr
          · rw [py_bind_err (do_raise h4)] at hr
            simp at hr

/-- C76: on texts the functions for WIFs are the ones described by the other properties. -/
theorem C76_wif_text (w : Str) (key : Data) (type network : String) (c : Coin) :
    privateKeyToWifKind P key (.str type) c (.str network) = privateKeyToWif P key type c network ∧
    wifToPrivateKeyKind w c (.str network) = wifToPrivateKey w c network ∧
    getWifTypeKind w c (.str network) = getWifType w c network ∧
    getWifChecksumKind w c (.str network) = getWifChecksum w c network := by
  refine ⟨?_, rfl, rfl, rfl⟩
  unfold privateKeyToWifKind privateKeyToWif
  have h1 : (¬ (ObjArg.str type).isIn WIF_TYPES = true) = (type ∉ WIF_TYPES) := by
    rw [isIn_iff]
    simp
  have h2 : (ObjArg.str type = ObjArg.str "wif") = (type = "wif") := by simp
  simp only [ObjArg.text, lookupKind]
  congr 1
  · simp only [raiseIf, h1]
  · funext _
    congr 1
    funext net
    congr 1
    funext ⟨a, b⟩
    simp only [h2]

/-- C76: `private_key_to_wif` accepts no WIF type but the two texts; it looks at the type before everything else. -/
theorem C76_wif_type (key : Data) (type : ObjArg) (ht : type ≠ .str "wif" ∧ type ≠ .str "wif-compressed") (text : String) (hs : Shown type text) (c : Coin)
    (x : ObjArg) : privateKeyToWifKind P key type c x = .error ⟨.wifError, report "Wrong WIF type" "'wif', 'wif-compressed'" text⟩ := by
  rw [← hs.eq]
  have hrep : errText "Wrong WIF type" (.list (WIF_TYPES.map String.toList)) type.text = report "Wrong WIF type" "'wif', 'wif-compressed'" type.text := by
    rw [show (WIF_TYPES.map String.toList) = ["wif".toList, "wif-compressed".toList] from rfl, errText_two]
    simp
  have h : ¬ type.isIn WIF_TYPES = true := by
    rw [isIn_iff]
    rintro ⟨s, hs2, rfl⟩
    simp only [WIF_TYPES, List.mem_cons, List.not_mem_nil, or_false] at hs2
    rcases hs2 with rfl | rfl
    · exact ht.1 rfl
    · exact ht.2 rfl
  unfold privateKeyToWifKind
  rw [py_bind_err (do_raise h), hrep]

/-- C76: a network that is no text makes the functions for WIFs raise `KeyError`, or `TypeError` if the object cannot be a key of a dictionary. -/
theorem C76_lookup (x : ObjArg) (hx : NoText x) (c : Coin) (w : Str) (key : Data) (type : String) (ht : IsWifType type) :
    ∃ y, (y.cls = .keyError ∨ y.cls = .typeError) ∧
      ((∀ truthy type text, x ≠ .other truthy false type text) → y.cls = .keyError) ∧
      privateKeyToWifKind P key (.str type) c x = .error y ∧ wifToPrivateKeyKind w c x = .error y ∧
      getWifTypeKind w c x = .error y ∧ getWifChecksumKind w c x = .error y := by
  have h : ∃ y, lookupKind c x = .error y ∧ (y.cls = .keyError ∨ y.cls = .typeError) ∧
      ((∀ truthy type text, x ≠ .other truthy false type text) → y.cls = .keyError) := by
    cases x with
    | str s => exact absurd rfl (hx s)
    | none => exact ⟨_, rfl, Or.inl rfl, fun _ => rfl⟩
    | other a b d e =>
      cases b with
      | true => exact ⟨_, rfl, Or.inl rfl, fun _ => rfl⟩
      | false => exact ⟨_, rfl, Or.inr rfl, fun h => absurd rfl (h a d e)⟩
  obtain ⟨y, hy, h1, h2⟩ := h
  refine ⟨y, h1, h2, ?_, ?_, ?_, ?_⟩
  · have hin : (ObjArg.str type).isIn WIF_TYPES = true := by
      rw [isIn_iff]
      refine ⟨type, ?_, rfl⟩
      rcases ht with rfl | rfl <;> simp [WIF_TYPES]
    unfold privateKeyToWifKind
    rw [py_bind (not_raise (not_not.mpr hin)), py_bind_err hy]
  · unfold wifToPrivateKeyKind; rw [py_bind_err hy]
  · unfold getWifTypeKind; rw [py_bind_err hy]
  · unfold getWifChecksumKind; rw [py_bind_err hy]

/-- C76: `P2PKHAddress.encode` writes the address of the compressed key for the text `compressed` and for an absent argument, and the one of the
uncompressed key for every other object — also for `None`, `"Compressed"` or a WIF type; it never refuses. -/
theorem C76_public_key_type (pk : PkArg) (pre : Int) (alphabet : Str) :
    p2pkhEncodeKind P pk pre none alphabet = p2pkhEncode P pk pre "compressed" alphabet ∧
    p2pkhEncodeKind P pk pre (some (.str "compressed")) alphabet = p2pkhEncode P pk pre "compressed" alphabet ∧
    ∀ x, x ≠ .str "compressed" → p2pkhEncodeKind P pk pre (some x) alphabet = p2pkhEncode P pk pre "uncompressed" alphabet := by
  refine ⟨rfl, rfl, fun x hx => ?_⟩
  unfold p2pkhEncodeKind p2pkhEncode
  simp only [Option.getD_some, hx, if_false, String.reduceEq]
  cases pk <;> rfl

/-- The cases: `network=b"mainnet"`, `network=0`, `network=[]`, `wif_type=None`, `public_key_type=None`. -/
example : TypeShown (.other true true "<class 'bytes'>" "b'mainnet'") "<class 'bytes'>" ∧ Shown .none "None" ∧
    TypeShown .none "<class 'NoneType'>" ∧ NoText (.other false false "<class 'list'>" "[]") ∧ NoText .none ∧
    ObjArg.none ≠ .str "compressed" ∧ (∃ o, BIP38.new (.coin Coins.Bitcoin) "mainnet" = .ok o) ∧ Coins.Bitcoin.networks ≠ [] := by
  refine ⟨.other .., .none, .none, ?_, ?_, by decide, ⟨_, rfl⟩, by decide⟩ <;> intro s <;> simp

end Bip38.Props
