import Verif.SrcX.SimText
/-!
# The methods of `BIP38`, with faults, against the same function without (generated by `tools/gen_sim.py`, do not edit)

The bounds (`calls`) are upper bounds for the external calls of one call of the function, for arguments of any kind.
-/
set_option linter.unusedVariables false
set_option linter.style.longLine false
namespace Bip38.SrcX

open Bip38.Src

variable {K : Ctx}

variable (H : Host)

theorem sim_BIP38_init : SimF (calls []) K (BIP38_init H) (Src.BIP38_init H) := by
  delta SrcX.BIP38_init  Src.BIP38_init  SrcX.BIP38_init_L76  Src.BIP38_init_L76  SrcX.BIP38_init_L75  Src.BIP38_init_L75  SrcX.BIP38_init_L79  Src.BIP38_init_L79  SrcX.BIP38_init_L83  Src.BIP38_init_L83  SrcX.BIP38_init_L82  Src.BIP38_init_L82  SrcX.BIP38_init_L84  Src.BIP38_init_L84
  sim_function
macro_rules | `(tactic| sim_known) => `(tactic| exact sim_BIP38_init _)

theorem sim_BIP38_intermediate_code (hK : Fine K) (hU : Allows K [.nfc, .scryptOf 16384 8 8 32, .urandom 8]) : SimF (calls [(.urandom, 1), (.sha256, 4), (.digest, 4), (.normalize, 1), (.scrypt, 1), (.ecdsa, 5)]) K (BIP38_intermediate_code H) (Src.BIP38_intermediate_code H) := by
  delta SrcX.BIP38_intermediate_code  Src.BIP38_intermediate_code  SrcX.BIP38_intermediate_code_L122  Src.BIP38_intermediate_code_L122  SrcX.BIP38_intermediate_code_L124  Src.BIP38_intermediate_code_L124  SrcX.BIP38_intermediate_code_L123  Src.BIP38_intermediate_code_L123  SrcX.BIP38_intermediate_code_L126  Src.BIP38_intermediate_code_L126  SrcX.BIP38_intermediate_code_L125  Src.BIP38_intermediate_code_L125  SrcX.BIP38_intermediate_code_L128  Src.BIP38_intermediate_code_L128  SrcX.BIP38_intermediate_code_L127  Src.BIP38_intermediate_code_L127  SrcX.BIP38_intermediate_code_L131  Src.BIP38_intermediate_code_L131  SrcX.BIP38_intermediate_code_L133  Src.BIP38_intermediate_code_L133  SrcX.BIP38_intermediate_code_L132  Src.BIP38_intermediate_code_L132  SrcX.BIP38_intermediate_code_L135  Src.BIP38_intermediate_code_L135  SrcX.BIP38_intermediate_code_L134  Src.BIP38_intermediate_code_L134  SrcX.BIP38_intermediate_code_L137  Src.BIP38_intermediate_code_L137  SrcX.BIP38_intermediate_code_L138  Src.BIP38_intermediate_code_L138  SrcX.BIP38_intermediate_code_L139  Src.BIP38_intermediate_code_L139  SrcX.BIP38_intermediate_code_L140  Src.BIP38_intermediate_code_L140  SrcX.BIP38_intermediate_code_L142  Src.BIP38_intermediate_code_L142  SrcX.BIP38_intermediate_code_L143  Src.BIP38_intermediate_code_L143  SrcX.BIP38_intermediate_code_L144  Src.BIP38_intermediate_code_L144  SrcX.BIP38_intermediate_code_L130  Src.BIP38_intermediate_code_L130  SrcX.BIP38_intermediate_code_L146  Src.BIP38_intermediate_code_L146  SrcX.BIP38_intermediate_code_L149  Src.BIP38_intermediate_code_L149
  sim_function
macro_rules | `(tactic| sim_known) => `(tactic| exact sim_BIP38_intermediate_code _ (by assumption) (allows_sub (by assumption) (by decide)))

theorem sim_BIP38_encrypt (hK : Fine K) (hU : Allows K [.nfc, .ripemd160, .scrypt 16384 8 8]) : SimF (calls [(.sha256, 7), (.hashNew, 1), (.digest, 8), (.normalize, 1), (.scrypt, 1), (.aes, 1), (.aesEncrypt, 2), (.ecdsa, 27)]) K (BIP38_encrypt H) (Src.BIP38_encrypt H) := by
  delta SrcX.BIP38_encrypt  Src.BIP38_encrypt  SrcX.BIP38_encrypt_L180  Src.BIP38_encrypt_L180  SrcX.BIP38_encrypt_L184  Src.BIP38_encrypt_L184  SrcX.BIP38_encrypt_L183  Src.BIP38_encrypt_L183  SrcX.BIP38_encrypt_L185  Src.BIP38_encrypt_L185  SrcX.BIP38_encrypt_L189  Src.BIP38_encrypt_L189  SrcX.BIP38_encrypt_L190  Src.BIP38_encrypt_L190  SrcX.BIP38_encrypt_L193  Src.BIP38_encrypt_L193  SrcX.BIP38_encrypt_L195  Src.BIP38_encrypt_L195  SrcX.BIP38_encrypt_L196  Src.BIP38_encrypt_L196  SrcX.BIP38_encrypt_L199  Src.BIP38_encrypt_L199  SrcX.BIP38_encrypt_L188  Src.BIP38_encrypt_L188  SrcX.BIP38_encrypt_L201  Src.BIP38_encrypt_L201  SrcX.BIP38_encrypt_L206  Src.BIP38_encrypt_L206  SrcX.BIP38_encrypt_L207  Src.BIP38_encrypt_L207  SrcX.BIP38_encrypt_L208  Src.BIP38_encrypt_L208  SrcX.BIP38_encrypt_L210  Src.BIP38_encrypt_L210  SrcX.BIP38_encrypt_L211  Src.BIP38_encrypt_L211  SrcX.BIP38_encrypt_L214  Src.BIP38_encrypt_L214  SrcX.BIP38_encrypt_L218  Src.BIP38_encrypt_L218  SrcX.BIP38_encrypt_L223  Src.BIP38_encrypt_L223
  sim_function
macro_rules | `(tactic| sim_known) => `(tactic| exact sim_BIP38_encrypt _ (by assumption) (allows_sub (by assumption) (by decide)))

theorem sim_BIP38_create_new_encrypted_wif (hK : Fine K) (hU : Allows K [.ripemd160, .scryptOf 1024 1 1 64, .urandom 24]) (hH : FineHash K) : SimF (calls [(.urandom, 1), (.sha256, 13), (.hashNew, 1), (.digest, 14), (.scrypt, 1), (.aes, 1), (.aesEncrypt, 4), (.ecdsa, 27)]) K (BIP38_create_new_encrypted_wif H) (Src.BIP38_create_new_encrypted_wif H) := by
  delta SrcX.BIP38_create_new_encrypted_wif  Src.BIP38_create_new_encrypted_wif  SrcX.BIP38_create_new_encrypted_wif_L258  Src.BIP38_create_new_encrypted_wif_L258  SrcX.BIP38_create_new_encrypted_wif_L262  Src.BIP38_create_new_encrypted_wif_L262  SrcX.BIP38_create_new_encrypted_wif_L261  Src.BIP38_create_new_encrypted_wif_L261  SrcX.BIP38_create_new_encrypted_wif_L263  Src.BIP38_create_new_encrypted_wif_L263  SrcX.BIP38_create_new_encrypted_wif_L265  Src.BIP38_create_new_encrypted_wif_L265  SrcX.BIP38_create_new_encrypted_wif_L267  Src.BIP38_create_new_encrypted_wif_L267  SrcX.BIP38_create_new_encrypted_wif_L264  Src.BIP38_create_new_encrypted_wif_L264  SrcX.BIP38_create_new_encrypted_wif_L269  Src.BIP38_create_new_encrypted_wif_L269  SrcX.BIP38_create_new_encrypted_wif_L268  Src.BIP38_create_new_encrypted_wif_L268  SrcX.BIP38_create_new_encrypted_wif_L271  Src.BIP38_create_new_encrypted_wif_L271  SrcX.BIP38_create_new_encrypted_wif_L272  Src.BIP38_create_new_encrypted_wif_L272  SrcX.BIP38_create_new_encrypted_wif_L273  Src.BIP38_create_new_encrypted_wif_L273  SrcX.BIP38_create_new_encrypted_wif_L276  Src.BIP38_create_new_encrypted_wif_L276  SrcX.BIP38_create_new_encrypted_wif_L278  Src.BIP38_create_new_encrypted_wif_L278  SrcX.BIP38_create_new_encrypted_wif_L280  Src.BIP38_create_new_encrypted_wif_L280  SrcX.BIP38_create_new_encrypted_wif_L277  Src.BIP38_create_new_encrypted_wif_L277  SrcX.BIP38_create_new_encrypted_wif_L275  Src.BIP38_create_new_encrypted_wif_L275  SrcX.BIP38_create_new_encrypted_wif_L284  Src.BIP38_create_new_encrypted_wif_L284  SrcX.BIP38_create_new_encrypted_wif_L286  Src.BIP38_create_new_encrypted_wif_L286  SrcX.BIP38_create_new_encrypted_wif_L283  Src.BIP38_create_new_encrypted_wif_L283  SrcX.BIP38_create_new_encrypted_wif_L289  Src.BIP38_create_new_encrypted_wif_L289  SrcX.BIP38_create_new_encrypted_wif_L291  Src.BIP38_create_new_encrypted_wif_L291  SrcX.BIP38_create_new_encrypted_wif_L288  Src.BIP38_create_new_encrypted_wif_L288  SrcX.BIP38_create_new_encrypted_wif_L293  Src.BIP38_create_new_encrypted_wif_L293  SrcX.BIP38_create_new_encrypted_wif_L287  Src.BIP38_create_new_encrypted_wif_L287  SrcX.BIP38_create_new_encrypted_wif_L282  Src.BIP38_create_new_encrypted_wif_L282  SrcX.BIP38_create_new_encrypted_wif_L300  Src.BIP38_create_new_encrypted_wif_L300  SrcX.BIP38_create_new_encrypted_wif_L302  Src.BIP38_create_new_encrypted_wif_L302  SrcX.BIP38_create_new_encrypted_wif_L301  Src.BIP38_create_new_encrypted_wif_L301  SrcX.BIP38_create_new_encrypted_wif_L304  Src.BIP38_create_new_encrypted_wif_L304  SrcX.BIP38_create_new_encrypted_wif_L307  Src.BIP38_create_new_encrypted_wif_L307  SrcX.BIP38_create_new_encrypted_wif_L312  Src.BIP38_create_new_encrypted_wif_L312  SrcX.BIP38_create_new_encrypted_wif_L313  Src.BIP38_create_new_encrypted_wif_L313  SrcX.BIP38_create_new_encrypted_wif_L314  Src.BIP38_create_new_encrypted_wif_L314  SrcX.BIP38_create_new_encrypted_wif_L315  Src.BIP38_create_new_encrypted_wif_L315  SrcX.BIP38_create_new_encrypted_wif_L317  Src.BIP38_create_new_encrypted_wif_L317  SrcX.BIP38_create_new_encrypted_wif_L318  Src.BIP38_create_new_encrypted_wif_L318  SrcX.BIP38_create_new_encrypted_wif_L321  Src.BIP38_create_new_encrypted_wif_L321  SrcX.BIP38_create_new_encrypted_wif_L324  Src.BIP38_create_new_encrypted_wif_L324  SrcX.BIP38_create_new_encrypted_wif_L329  Src.BIP38_create_new_encrypted_wif_L329  SrcX.BIP38_create_new_encrypted_wif_L330  Src.BIP38_create_new_encrypted_wif_L330  SrcX.BIP38_create_new_encrypted_wif_L333  Src.BIP38_create_new_encrypted_wif_L333  SrcX.BIP38_create_new_encrypted_wif_L336  Src.BIP38_create_new_encrypted_wif_L336  SrcX.BIP38_create_new_encrypted_wif_L339  Src.BIP38_create_new_encrypted_wif_L339  SrcX.BIP38_create_new_encrypted_wif_L342  Src.BIP38_create_new_encrypted_wif_L342  SrcX.BIP38_create_new_encrypted_wif_L346  Src.BIP38_create_new_encrypted_wif_L346
  sim_function_aes
macro_rules | `(tactic| sim_known) => `(tactic| exact sim_BIP38_create_new_encrypted_wif _ (by assumption) (allows_sub (by assumption) (by decide)))

theorem sim_BIP38_confirm_code (hK : Fine K) (hU : Allows K [.nfc, .ripemd160, .scryptOf 1024 1 1 64, .scryptOf 16384 8 8 32]) (hH : FineHash K) (hS : FineKey K) : SimF (calls [(.sha256, 9), (.hashNew, 1), (.digest, 10), (.normalize, 1), (.scrypt, 2), (.aes, 1), (.aesDecrypt, 2), (.ecdsa, 21)]) K (BIP38_confirm_code H) (Src.BIP38_confirm_code H) := by
  delta SrcX.BIP38_confirm_code  Src.BIP38_confirm_code  SrcX.BIP38_confirm_code_L386  Src.BIP38_confirm_code_L386  SrcX.BIP38_confirm_code_L390  Src.BIP38_confirm_code_L390  SrcX.BIP38_confirm_code_L389  Src.BIP38_confirm_code_L389  SrcX.BIP38_confirm_code_L392  Src.BIP38_confirm_code_L392  SrcX.BIP38_confirm_code_L394  Src.BIP38_confirm_code_L394  SrcX.BIP38_confirm_code_L391  Src.BIP38_confirm_code_L391  SrcX.BIP38_confirm_code_L396  Src.BIP38_confirm_code_L396  SrcX.BIP38_confirm_code_L395  Src.BIP38_confirm_code_L395  SrcX.BIP38_confirm_code_L398  Src.BIP38_confirm_code_L398  SrcX.BIP38_confirm_code_L399  Src.BIP38_confirm_code_L399  SrcX.BIP38_confirm_code_L401  Src.BIP38_confirm_code_L401  SrcX.BIP38_confirm_code_L400  Src.BIP38_confirm_code_L400  SrcX.BIP38_confirm_code_L403  Src.BIP38_confirm_code_L403  SrcX.BIP38_confirm_code_L404  Src.BIP38_confirm_code_L404  SrcX.BIP38_confirm_code_L405  Src.BIP38_confirm_code_L405  SrcX.BIP38_confirm_code_L406  Src.BIP38_confirm_code_L406  SrcX.BIP38_confirm_code_L408  Src.BIP38_confirm_code_L408  SrcX.BIP38_confirm_code_L410  Src.BIP38_confirm_code_L410  SrcX.BIP38_confirm_code_L411  Src.BIP38_confirm_code_L411  SrcX.BIP38_confirm_code_L413  Src.BIP38_confirm_code_L413  SrcX.BIP38_confirm_code_L409  Src.BIP38_confirm_code_L409  SrcX.BIP38_confirm_code_L415  Src.BIP38_confirm_code_L415  SrcX.BIP38_confirm_code_L417  Src.BIP38_confirm_code_L417  SrcX.BIP38_confirm_code_L416  Src.BIP38_confirm_code_L416  SrcX.BIP38_confirm_code_L419  Src.BIP38_confirm_code_L419  SrcX.BIP38_confirm_code_L418  Src.BIP38_confirm_code_L418  SrcX.BIP38_confirm_code_L421  Src.BIP38_confirm_code_L421  SrcX.BIP38_confirm_code_L422  Src.BIP38_confirm_code_L422  SrcX.BIP38_confirm_code_L423  Src.BIP38_confirm_code_L423  SrcX.BIP38_confirm_code_L424  Src.BIP38_confirm_code_L424  SrcX.BIP38_confirm_code_L426  Src.BIP38_confirm_code_L426  SrcX.BIP38_confirm_code_L427  Src.BIP38_confirm_code_L427  SrcX.BIP38_confirm_code_L430  Src.BIP38_confirm_code_L430  SrcX.BIP38_confirm_code_L433  Src.BIP38_confirm_code_L433  SrcX.BIP38_confirm_code_L436  Src.BIP38_confirm_code_L436  SrcX.BIP38_confirm_code_L441  Src.BIP38_confirm_code_L441  SrcX.BIP38_confirm_code_L444  Src.BIP38_confirm_code_L444  SrcX.BIP38_confirm_code_L446  Src.BIP38_confirm_code_L446  SrcX.BIP38_confirm_code_L445  Src.BIP38_confirm_code_L445  SrcX.BIP38_confirm_code_L448  Src.BIP38_confirm_code_L448  SrcX.BIP38_confirm_code_L440  Src.BIP38_confirm_code_L440  SrcX.BIP38_confirm_code_L450  Src.BIP38_confirm_code_L450  SrcX.BIP38_confirm_code_L456  Src.BIP38_confirm_code_L456  SrcX.BIP38_confirm_code_L457  Src.BIP38_confirm_code_L457  SrcX.BIP38_confirm_code_L460  Src.BIP38_confirm_code_L460  SrcX.BIP38_confirm_code_L461  Src.BIP38_confirm_code_L461  SrcX.BIP38_confirm_code_L459  Src.BIP38_confirm_code_L459  SrcX.BIP38_confirm_code_L462  Src.BIP38_confirm_code_L462  SrcX.BIP38_confirm_code_L458  Src.BIP38_confirm_code_L458  SrcX.BIP38_confirm_code_L469  Src.BIP38_confirm_code_L469  SrcX.BIP38_confirm_code_L455  Src.BIP38_confirm_code_L455  SrcX.BIP38_confirm_code_L470  Src.BIP38_confirm_code_L470
  sim_function
macro_rules | `(tactic| sim_known) => `(tactic| exact sim_BIP38_confirm_code _ (by assumption) (allows_sub (by assumption) (by decide)))

theorem sim_BIP38_decrypt (hK : Fine K) (hU : Allows K [.nfc, .ripemd160, .scrypt 16384 8 8, .scryptOf 1024 1 1 64, .scryptOf 16384 8 8 32]) : SimF (calls [(.sha256, 13), (.hashNew, 1), (.digest, 14), (.normalize, 1), (.scrypt, 2), (.aes, 1), (.aesDecrypt, 2), (.ecdsa, 21)]) K (BIP38_decrypt H) (Src.BIP38_decrypt H) := by
  delta SrcX.BIP38_decrypt  Src.BIP38_decrypt  SrcX.BIP38_decrypt_L503  Src.BIP38_decrypt_L503  SrcX.BIP38_decrypt_L507  Src.BIP38_decrypt_L507  SrcX.BIP38_decrypt_L506  Src.BIP38_decrypt_L506  SrcX.BIP38_decrypt_L508  Src.BIP38_decrypt_L508  SrcX.BIP38_decrypt_L510  Src.BIP38_decrypt_L510  SrcX.BIP38_decrypt_L509  Src.BIP38_decrypt_L509  SrcX.BIP38_decrypt_L512  Src.BIP38_decrypt_L512  SrcX.BIP38_decrypt_L513  Src.BIP38_decrypt_L513  SrcX.BIP38_decrypt_L514  Src.BIP38_decrypt_L514  SrcX.BIP38_decrypt_L519  Src.BIP38_decrypt_L519  SrcX.BIP38_decrypt_L520  Src.BIP38_decrypt_L520  SrcX.BIP38_decrypt_L522  Src.BIP38_decrypt_L522  SrcX.BIP38_decrypt_L523  Src.BIP38_decrypt_L523  SrcX.BIP38_decrypt_L525  Src.BIP38_decrypt_L525  SrcX.BIP38_decrypt_L521  Src.BIP38_decrypt_L521  SrcX.BIP38_decrypt_L518  Src.BIP38_decrypt_L518  SrcX.BIP38_decrypt_L532  Src.BIP38_decrypt_L532  SrcX.BIP38_decrypt_L535  Src.BIP38_decrypt_L535  SrcX.BIP38_decrypt_L536  Src.BIP38_decrypt_L536  SrcX.BIP38_decrypt_L537  Src.BIP38_decrypt_L537  SrcX.BIP38_decrypt_L539  Src.BIP38_decrypt_L539  SrcX.BIP38_decrypt_L540  Src.BIP38_decrypt_L540  SrcX.BIP38_decrypt_L541  Src.BIP38_decrypt_L541  SrcX.BIP38_decrypt_L543  Src.BIP38_decrypt_L543  SrcX.BIP38_decrypt_L547  Src.BIP38_decrypt_L547  SrcX.BIP38_decrypt_L546  Src.BIP38_decrypt_L546  SrcX.BIP38_decrypt_L549  Src.BIP38_decrypt_L549  SrcX.BIP38_decrypt_L550  Src.BIP38_decrypt_L550  SrcX.BIP38_decrypt_L556  Src.BIP38_decrypt_L556  SrcX.BIP38_decrypt_L555  Src.BIP38_decrypt_L555  SrcX.BIP38_decrypt_L558  Src.BIP38_decrypt_L558  SrcX.BIP38_decrypt_L562  Src.BIP38_decrypt_L562  SrcX.BIP38_decrypt_L561  Src.BIP38_decrypt_L561  SrcX.BIP38_decrypt_L573  Src.BIP38_decrypt_L573  SrcX.BIP38_decrypt_L576  Src.BIP38_decrypt_L576  SrcX.BIP38_decrypt_L577  Src.BIP38_decrypt_L577  SrcX.BIP38_decrypt_L578  Src.BIP38_decrypt_L578  SrcX.BIP38_decrypt_L580  Src.BIP38_decrypt_L580  SrcX.BIP38_decrypt_L582  Src.BIP38_decrypt_L582  SrcX.BIP38_decrypt_L583  Src.BIP38_decrypt_L583  SrcX.BIP38_decrypt_L585  Src.BIP38_decrypt_L585  SrcX.BIP38_decrypt_L581  Src.BIP38_decrypt_L581  SrcX.BIP38_decrypt_L587  Src.BIP38_decrypt_L587  SrcX.BIP38_decrypt_L589  Src.BIP38_decrypt_L589  SrcX.BIP38_decrypt_L588  Src.BIP38_decrypt_L588  SrcX.BIP38_decrypt_L591  Src.BIP38_decrypt_L591  SrcX.BIP38_decrypt_L590  Src.BIP38_decrypt_L590  SrcX.BIP38_decrypt_L593  Src.BIP38_decrypt_L593  SrcX.BIP38_decrypt_L594  Src.BIP38_decrypt_L594  SrcX.BIP38_decrypt_L595  Src.BIP38_decrypt_L595  SrcX.BIP38_decrypt_L596  Src.BIP38_decrypt_L596  SrcX.BIP38_decrypt_L598  Src.BIP38_decrypt_L598  SrcX.BIP38_decrypt_L599  Src.BIP38_decrypt_L599  SrcX.BIP38_decrypt_L602  Src.BIP38_decrypt_L602  SrcX.BIP38_decrypt_L603  Src.BIP38_decrypt_L603  SrcX.BIP38_decrypt_L607  Src.BIP38_decrypt_L607  SrcX.BIP38_decrypt_L611  Src.BIP38_decrypt_L611  SrcX.BIP38_decrypt_L613  Src.BIP38_decrypt_L613  SrcX.BIP38_decrypt_L612  Src.BIP38_decrypt_L612  SrcX.BIP38_decrypt_L616  Src.BIP38_decrypt_L616  SrcX.BIP38_decrypt_L619  Src.BIP38_decrypt_L619  SrcX.BIP38_decrypt_L620  Src.BIP38_decrypt_L620  SrcX.BIP38_decrypt_L621  Src.BIP38_decrypt_L621  SrcX.BIP38_decrypt_L623  Src.BIP38_decrypt_L623  SrcX.BIP38_decrypt_L624  Src.BIP38_decrypt_L624  SrcX.BIP38_decrypt_L622  Src.BIP38_decrypt_L622  SrcX.BIP38_decrypt_L625  Src.BIP38_decrypt_L625  SrcX.BIP38_decrypt_L631  Src.BIP38_decrypt_L631  SrcX.BIP38_decrypt_L634  Src.BIP38_decrypt_L634  SrcX.BIP38_decrypt_L635  Src.BIP38_decrypt_L635  SrcX.BIP38_decrypt_L638  Src.BIP38_decrypt_L638  SrcX.BIP38_decrypt_L639  Src.BIP38_decrypt_L639  SrcX.BIP38_decrypt_L637  Src.BIP38_decrypt_L637  SrcX.BIP38_decrypt_L640  Src.BIP38_decrypt_L640  SrcX.BIP38_decrypt_L636  Src.BIP38_decrypt_L636  SrcX.BIP38_decrypt_L651  Src.BIP38_decrypt_L651  SrcX.BIP38_decrypt_L630  Src.BIP38_decrypt_L630  SrcX.BIP38_decrypt_L652  Src.BIP38_decrypt_L652  SrcX.BIP38_decrypt_L654  Src.BIP38_decrypt_L654  SrcX.BIP38_decrypt_L575  Src.BIP38_decrypt_L575  SrcX.BIP38_decrypt_L516  Src.BIP38_decrypt_L516
  sim_function
macro_rules | `(tactic| sim_known) => `(tactic| exact sim_BIP38_decrypt _ (by assumption) (allows_sub (by assumption) (by decide)))

end Bip38.SrcX
