import Verif.Lemmas.Steps
import Verif.Props.External
/-!
# Property C99: which external functions are called, in which order, does not depend on secrets

`m F []` is a run of a method: its outcome and the requests it made, with the faults `F`.
-/
namespace Bip38.Props
open Bip38 Spec

variable {P : Prims}

/-- C99: `encrypt` always goes through the same steps, whatever the WIF, the passphrase and the network. -/
theorem C99_encrypt (o : BIP38) (w pass : Str) (net : Option String) (F : Faults) (r : Py Str) (log : List Request)
    (h : o.encryptX P w pass net F [] = (r, log)) : Keeps (encryptSteps P) r log := by
  have := (plan_encrypt (P := P) o w pass net).whole F
  rwa [h] at this

/-- C99: `decrypt` goes through steps that the encrypted key alone determines (by its prefix and, with EC multiplication, its flag byte). -/
theorem C99_decrypt (o : BIP38) (e pass : Str) (net : Option String) (detail : Bool) (F : Faults) (r : Py DecryptOut) (log : List Request)
    (h : o.decryptX P e pass net detail F [] = (r, log)) (rec : Bytes) (hd : b58decode e = .ok rec) :
    (rec.take 2 = [0x01, 0x42] → Keeps (decryptSteps P) r log) ∧
    (∀ flag, rec.take 2 = [0x01, 0x43] → rec[2]? = some flag → Keeps (decryptEcSteps P flag) r log) := by
  constructor
  · intro hp
    have := (plan_decrypt (P := P) o e pass net detail (decryptSteps P) (fun _ _ _ => rfl)
      (fun rec' flag hd' hp' => by rw [hd] at hd'; cases hd'; rw [hp] at hp'; exact absurd hp' (by decide))).whole F
    rwa [h] at this
  · intro flag hp hf
    have := (plan_decrypt (P := P) o e pass net detail (decryptEcSteps P flag)
      (fun rec' hd' hp' => by rw [hd] at hd'; cases hd'; rw [hp] at hp'; exact absurd hp' (by decide))
      (fun rec' flag' hd' _ hf' => by rw [hd] at hd'; cases hd'; rw [hf] at hf'; cases hf'; rfl)).whole F
    rwa [h] at this

/-- C99: `confirm_code` goes through steps that the confirmation code alone determines (by its flag byte). -/
theorem C99_confirm (o : BIP38) (pass code : Str) (net : Option String) (detail : Bool) (F : Faults) (r : Py ConfirmOut) (log : List Request)
    (h : o.confirmX P pass code net detail F [] = (r, log)) (dec : Bytes) (hd : b58decode code = .ok dec) (flag : UInt8) (hf : dec[5]? = some flag) :
    Keeps (confirmSteps P flag) r log := by
  have he : twice ++ (confirmSteps P flag).drop 2 = confirmSteps P flag := rfl
  have := (plan_confirm (P := P) o pass code net detail ((confirmSteps P flag).drop 2)
    (fun dec' flag' hd' hf' => by rw [hd] at hd'; cases hd'; rw [hf] at hf'; cases hf'; exact he)).whole F
  rwa [h, he] at this

/-- C99: `create_new_encrypted_wif`: the steps depend only on whether a seed is given. -/
theorem C99_create (o : BIP38) (code : Str) (wifType : String) (seed : Data) (net : Option String) (u : Bytes) (F : Faults)
    (r : Py Created) (log : List Request) (h : o.createX P code wifType seed net u F [] = (r, log)) :
    Keeps (createSteps P seed.truthy) r log := by
  have := (plan_create (P := P) o code wifType seed net u).whole F
  rwa [h] at this

/-- C99: `intermediate_code`: the steps depend only on whether a salt, and lot and sequence, are given. -/
theorem C99_intermediate (pass : Str) (lot sequence : Option Int) (salt : Data) (u : Bytes) (F : Faults) (r : Py Str) (log : List Request)
    (h : intermediateCodeX P pass lot sequence salt u F [] = (r, log)) :
    Keeps (intermediateSteps salt.truthy (usesLot lot sequence)) r log := by
  have := (plan_intermediate (P := P) pass lot sequence salt u).whole F
  rwa [h] at this

/-- Two runs with one plan. -/
theorem same_plan {α β : Type} {l : List ExtStep} {r : Py α} {r' : Py β} {log log' : List Request} (h : Keeps l r log) (h' : Keeps l r' log') :
    (steps log <+: steps log' ∨ steps log' <+: steps log) ∧ (∀ a b, r = .ok a → r' = .ok b → steps log = steps log') :=
  ⟨List.prefix_or_prefix_of_prefix h.1 h'.1, fun a b ha hb => (h.2 a ha).trans (h'.2 b hb).symm⟩

/-- C99: what an observer of the calls learns from `encrypt`: for two calls with any two private keys and passphrases (and networks and objects) one
sequence of calls is an initial part of the other, and if both return they are the same. -/
theorem C99_encrypt_secret (o o' : BIP38) (w w' pass pass' : Str) (net net' : Option String) (F F' : Faults) (r r' : Py Str) (log log' : List Request)
    (h : o.encryptX P w pass net F [] = (r, log)) (h' : o'.encryptX P w' pass' net' F' [] = (r', log')) :
    (steps log <+: steps log' ∨ steps log' <+: steps log) ∧ (∀ a b, r = .ok a → r' = .ok b → steps log = steps log') :=
  same_plan (C99_encrypt o w pass net F r log h) (C99_encrypt o' w' pass' net' F' r' log' h')

/-- C99: the same for `decrypt` of one encrypted key with any two passphrases. -/
theorem C99_decrypt_secret (o : BIP38) (e pass pass' : Str) (net : Option String) (detail detail' : Bool) (F F' : Faults) (r r' : Py DecryptOut)
    (log log' : List Request) (h : o.decryptX P e pass net detail F [] = (r, log)) (h' : o.decryptX P e pass' net detail' F' [] = (r', log')) :
    (steps log <+: steps log' ∨ steps log' <+: steps log) ∧ (∀ a b, r = .ok a → r' = .ok b → steps log = steps log') := by
  obtain ⟨l, hl⟩ : ∃ l, (∀ rec, b58decode e = .ok rec → rec.take 2 = [0x01, 0x42] → l = decryptSteps P) ∧
      (∀ rec flag, b58decode e = .ok rec → rec.take 2 = [0x01, 0x43] → rec[2]? = some flag → l = decryptEcSteps P flag) := by
    cases hd : b58decode e with
    | error x => exact ⟨[], by rintro _ ⟨⟩, by rintro _ _ ⟨⟩⟩
    | ok rec =>
      by_cases hp : rec.take 2 = [0x01, 0x42]
      · exact ⟨decryptSteps P, by rintro _ ⟨⟩ _; rfl, by rintro _ _ ⟨⟩ h; rw [hp] at h; exact absurd h (by decide)⟩
      · refine ⟨decryptEcSteps P (rec[2]?.getD 0), by rintro _ ⟨⟩ h; exact absurd h hp, ?_⟩
        rintro _ flag ⟨⟩ _ hf
        rw [hf]
        rfl
  have k := (plan_decrypt (P := P) o e pass net detail l hl.1 hl.2).whole F
  have k' := (plan_decrypt (P := P) o e pass' net detail' l hl.1 hl.2).whole F'
  rw [h] at k
  rw [h'] at k'
  exact same_plan k k'

/-- C99: the same for `confirm_code` of one confirmation code with any two passphrases. -/
theorem C99_confirm_secret (o : BIP38) (code pass pass' : Str) (net : Option String) (detail detail' : Bool) (F F' : Faults) (r r' : Py ConfirmOut)
    (log log' : List Request) (h : o.confirmX P pass code net detail F [] = (r, log)) (h' : o.confirmX P pass' code net detail' F' [] = (r', log')) :
    (steps log <+: steps log' ∨ steps log' <+: steps log) ∧ (∀ a b, r = .ok a → r' = .ok b → steps log = steps log') := by
  obtain ⟨l, hl⟩ : ∃ l, (∀ dec flag, b58decode code = .ok dec → dec[5]? = some flag → twice ++ l = confirmSteps P flag) := by
    cases hd : b58decode code with
    | error x => exact ⟨[], by rintro _ _ ⟨⟩⟩
    | ok dec =>
      refine ⟨(confirmSteps P (dec[5]?.getD 0)).drop 2, ?_⟩
      rintro _ flag ⟨⟩ hf
      rw [hf]
      rfl
  have k := (plan_confirm (P := P) o pass code net detail l hl).whole F
  have k' := (plan_confirm (P := P) o pass' code net detail' l hl).whole F'
  rw [h] at k
  rw [h'] at k'
  exact same_plan k k'

/-- C99: the same for `create_new_encrypted_wif` with any two intermediate codes, types and seeds, both given or both not given. -/
theorem C99_create_secret (o : BIP38) (code code' : Str) (type type' : String) (seed seed' : Data) (net : Option String) (u u' : Bytes) (F F' : Faults)
    (r r' : Py Created) (log log' : List Request) (hs : seed.truthy = seed'.truthy)
    (h : o.createX P code type seed net u F [] = (r, log)) (h' : o.createX P code' type' seed' net u' F' [] = (r', log')) :
    (steps log <+: steps log' ∨ steps log' <+: steps log) ∧ (∀ a b, r = .ok a → r' = .ok b → steps log = steps log') := by
  have k := C99_create o code type seed net u F r log h
  rw [hs] at k
  exact same_plan k (C99_create o code' type' seed' net u' F' r' log' h')

/-- C99: the same for `intermediate_code` with any two passphrases and salts, both given or both not given, and with or without lot and sequence. -/
theorem C99_intermediate_secret (pass pass' : Str) (lot lot' sequence sequence' : Option Int) (salt salt' : Data) (u u' : Bytes) (F F' : Faults)
    (r r' : Py Str) (log log' : List Request) (hs : salt.truthy = salt'.truthy) (hl : usesLot lot sequence = usesLot lot' sequence')
    (h : intermediateCodeX P pass lot sequence salt u F [] = (r, log)) (h' : intermediateCodeX P pass' lot' sequence' salt' u' F' [] = (r', log')) :
    (steps log <+: steps log' ∨ steps log' <+: steps log) ∧ (∀ a b, r = .ok a → r' = .ok b → steps log = steps log') := by
  have k := C99_intermediate (P := P) pass lot sequence salt u F r log h
  rw [hs, hl] at k
  exact same_plan k (C99_intermediate pass' lot' sequence' salt' u' F' r' log' h')

/-- Two encryptions of different keys with different passphrases that return, and a decryption with a wrong passphrase that stops early. -/
example :
    let wif := fun k : UInt8 => b58encode ([0x80] ++ List.replicate 32 k ++ [0, 0, 0, 0])
    let run := fun k (s : String) => bitcoinObject.encryptX (toy 1 0xff) (wif k) s.toList none (fun _ _ => none) []
    (run 1 "x").1.isOk ∧ (run 2 "other").1.isOk ∧ (run 1 "x").2 ≠ (run 2 "other").2 ∧ steps (run 1 "x").2 = steps (run 2 "other").2 ∧
    steps (run 1 "x").2 = [.sha256, .ripemd160, .sha256, .sha256, .sha256, .sha256, .normalize, .scrypt 16384 8 8 64, .aesEncrypt, .aesEncrypt,
      .sha256, .sha256] := by
  decide +kernel

/-- A decryption that returns, and the steps of one that ends at a fault. -/
example :
    let text := (bitcoinObject.encrypt (toy 1 0xff) (b58encode ([0x80] ++ List.replicate 32 1 ++ [0, 0, 0, 0])) "x".toList none).toOption.getD []
    let run := fun F => bitcoinObject.decryptX (toy 1 0xff) text "x".toList none false F []
    (run fun _ _ => none).1.isOk ∧ steps (run fun _ _ => none).2 = decryptSteps (toy 1 0xff) ∧
    (run outOfMemory).1.isOk = false ∧ steps (run outOfMemory).2 = [.normalize, .scrypt 16384 8 8 64] := by
  decide +kernel

end Bip38.Props
