import Verif.Src.EqBase
/-!
# The text of `BIP38.encrypt` computes what the model says
-/
namespace Bip38.Src

open Run

variable (H : Host)

theorem encrypt_src (hP : H.P.Lawful) (b : BIP38) (wif passphrase : Str) (net : Option String) :
    BIP38_encrypt H [bipVal b, .str wif, .str passphrase, optNet net] [] = rStr (b.encrypt H.P wif passphrase net) := by
  unfold BIP38_encrypt BIP38.encrypt
  rw [defun_eq]
  ev []
  rw [block_cons]
  ev [select_net]
  generalize b.selectNetwork net = n
  rw [block_cons]
  ev [mem_strs, rStr, ofPy_raiseIf_bind]
  by_cases hn : n ∈ b.networks
  · have n1 : ¬ n ∉ b.networks := fun h => h hn
    simp only [if_neg n1]
    ev [hn]
    rw [block_cons]
    ev [wif_type_kw, ofPy_bind]
    refine step fun t ht => ?_
    rw [block_cons]
    ev []
    have e : t.toList = "wif".toList ↔ t = "wif" := String.toList_inj
    have tail : ∀ (env : Env) (flag : Bytes) (k : PrivateKey) (ty : String), env v!"self" = some (bipVal b) →
        env v!"passphrase" = some (.str passphrase) → env v!"network" = some (.str n.toList) →
        env v!"flag" = some (.bytes flag) → env v!"private_key" = some (privateVal k) → env v!"public_key_type" = some (.str ty.toList) →
        (block [BIP38_encrypt_L201 H, BIP38_encrypt_L206 H, BIP38_encrypt_L207 H, BIP38_encrypt_L208 H, BIP38_encrypt_L210 H,
          BIP38_encrypt_L211 H, BIP38_encrypt_L214 H, BIP38_encrypt_L218 H, BIP38_encrypt_L223 H] env >>= finish)
          = rStr (do
              let net ← lookupNet b.cryptocurrency n
              let address ← p2pkhEncode H.P (.key k.publicKey) net.addressPrefix ty
              let addressHash ← getChecksum H.P (.bytes (← getBytes (.str address) (unhexlify := false)))
              let key := scryptPassphrase H.P passphrase addressHash
              let derivedHalf1 := slice 0 32 key
              let derivedHalf2 := slice 32 64 key
              let aes ← AES.new derivedHalf2
              let encryptedHalf1 ← aes.encrypt H.P (← xorBytes (slice 0 16 k.raw) (slice 0 16 derivedHalf1))
              let encryptedHalf2 ← aes.encrypt H.P (← xorBytes (slice 16 32 k.raw) (slice 16 32 derivedHalf1))
              let pre ← integerToBytes NO_EC_MULTIPLIED_PRIVATE_KEY_PREFIX
              let encryptedPrivateKey := pre ++ flag ++ addressHash ++ encryptedHalf1 ++ encryptedHalf2
              let checksum ← getChecksum H.P (.bytes encryptedPrivateKey)
              .ok (ensureString (b58encode (encryptedPrivateKey ++ checksum)))) := by
      intro env flag k ty h1 h2 h3 h4 h5 h6
      simp only [rStr, ofPy_bind]
      rw [block_cons]
      ev [h1, h3, h5, h6, private_public]
      refine step fun net hnet => ?_
      ev [h6, p2pkh_key H hP, rStr]
      refine step fun address ha => ?_
      rw [block_cons]
      ev [get_bytes_text, rBytes]
      refine step fun ab hab => ?_
      ev [get_checksum_bytes, rBytes]
      refine step fun ah hah => ?_
      rw [block_cons]
      ev [h2, normalize_eq, scrypt_64]
      rw [block_cons]
      ev [slice_lit]
      rw [block_cons]
      ev [aes_eq]
      refine step fun aes haes => ?_
      rw [block_cons]
      ev [h5, method_private_raw, slice_lit, b2i_eq, xor_nat, integer_to_bytes_default, xorBytes_fold]
      refine step fun x hx => ?_
      ev [encrypt_block]
      refine step fun e1 he1 => ?_
      rw [block_cons]
      ev [h5, method_private_raw, slice_lit, b2i_eq, xor_nat, integer_to_bytes_default, xorBytes_fold]
      refine step fun x hx => ?_
      ev [encrypt_block]
      refine step fun e2 he2 => ?_
      rw [block_cons]
      ev [s_noEc, integer_to_bytes_default]
      refine step fun pre hpre => ?_
      ev [h4]
      rw [block_cons]
      ev [get_checksum_bytes, rBytes]
      refine step fun c hc => ?_
      ev [encode_default, ensure_string_str]
    by_cases ht : t = "wif"
    · simp only [if_pos ht, ofPy_bind]
      ev [e, ht]
      rw [block_cons]
      ev [s_flagU, integer_to_bytes_default]
      refine step fun flag hf => ?_
      rw [block_cons]
      ev [wif_to_private_key_kw, rStr]
      refine step fun s hs => ?_
      ev [get_bytes_str, rBytes]
      refine step fun kb hkb => ?_
      ev [PrivateKey_from_bytes_eq]
      refine step fun k hk => ?_
      rw [block_cons]
      ev []
      refine (tail _ flag k "uncompressed" ?_ ?_ ?_ ?_ ?_ ?_).trans ?_
      iterate 6 ev []
      ev [rStr, ofPy_bind]
    · simp only [if_neg ht, ofPy_bind]
      ev [e, ht]
      rw [block_cons]
      ev [s_flagC, integer_to_bytes_default]
      refine step fun flag hf => ?_
      rw [block_cons]
      ev [wif_to_private_key_kw, rStr]
      refine step fun s hs => ?_
      ev [get_bytes_str, rBytes]
      refine step fun kb hkb => ?_
      ev [PrivateKey_from_bytes_eq]
      refine step fun k hk => ?_
      rw [block_cons]
      ev []
      refine (tail _ flag k "compressed" ?_ ?_ ?_ ?_ ?_ ?_).trans ?_
      iterate 6 ev []
      ev [rStr, ofPy_bind]
  · simp only [if_pos hn]
    ev [hn]
    ev [block_cons, raise_network]

end Bip38.Src
