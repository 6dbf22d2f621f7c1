import Verif.Lemmas.PowMod
/-! # Primality of the field prime and of the group order of secp256k1 (Lucas certificates) -/
namespace Bip38

set_option maxRecDepth 4000

theorem prime_1206781 : Nat.Prime 1206781 := by
  apply prime_of_cert 1206781 10 [2, 2, 3, 5, 20113] (by norm_num)
  · simp only [List.forall_mem_cons, List.not_mem_nil, false_imp_iff, implies_true, and_true]
    exact ⟨by norm_num, by norm_num, by norm_num, by norm_num, by norm_num⟩
  · rfl
  · decide +kernel
  · decide +kernel

theorem prime_1627771 : Nat.Prime 1627771 := by
  apply prime_of_cert 1627771 3 [2, 3, 5, 29, 1871] (by norm_num)
  · simp only [List.forall_mem_cons, List.not_mem_nil, false_imp_iff, implies_true, and_true]
    exact ⟨by norm_num, by norm_num, by norm_num, by norm_num, by norm_num⟩
  · rfl
  · decide +kernel
  · decide +kernel

theorem prime_4681609 : Nat.Prime 4681609 := by
  apply prime_of_cert 4681609 23 [2, 2, 2, 3, 97, 2011] (by norm_num)
  · simp only [List.forall_mem_cons, List.not_mem_nil, false_imp_iff, implies_true, and_true]
    exact ⟨by norm_num, by norm_num, by norm_num, by norm_num, by norm_num, by norm_num⟩
  · rfl
  · decide +kernel
  · decide +kernel

theorem prime_7240687 : Nat.Prime 7240687 := by
  apply prime_of_cert 7240687 3 [2, 3, 1206781] (by norm_num)
  · simp only [List.forall_mem_cons, List.not_mem_nil, false_imp_iff, implies_true, and_true]
    exact ⟨by norm_num, by norm_num, prime_1206781⟩
  · rfl
  · decide +kernel
  · decide +kernel

theorem prime_13331831 : Nat.Prime 13331831 := by
  apply prime_of_cert 13331831 13 [2, 5, 971, 1373] (by norm_num)
  · simp only [List.forall_mem_cons, List.not_mem_nil, false_imp_iff, implies_true, and_true]
    exact ⟨by norm_num, by norm_num, by norm_num, by norm_num⟩
  · rfl
  · decide +kernel
  · decide +kernel

theorem prime_44706919 : Nat.Prime 44706919 := by
  apply prime_of_cert 44706919 6 [2, 3, 797, 9349] (by norm_num)
  · simp only [List.forall_mem_cons, List.not_mem_nil, false_imp_iff, implies_true, and_true]
    exact ⟨by norm_num, by norm_num, by norm_num, by norm_num⟩
  · rfl
  · decide +kernel
  · decide +kernel

theorem prime_107590001 : Nat.Prime 107590001 := by
  apply prime_of_cert 107590001 3 [2, 2, 2, 2, 5, 5, 5, 5, 7, 29, 53] (by norm_num)
  · simp only [List.forall_mem_cons, List.not_mem_nil, false_imp_iff, implies_true, and_true]
    exact ⟨by norm_num, by norm_num, by norm_num, by norm_num, by norm_num, by norm_num, by norm_num, by norm_num, by norm_num, by norm_num, by norm_num⟩
  · rfl
  · decide +kernel
  · decide +kernel

theorem prime_545358713 : Nat.Prime 545358713 := by
  apply prime_of_cert 545358713 5 [2, 2, 2, 41, 59, 28181] (by norm_num)
  · simp only [List.forall_mem_cons, List.not_mem_nil, false_imp_iff, implies_true, and_true]
    exact ⟨by norm_num, by norm_num, by norm_num, by norm_num, by norm_num, by norm_num⟩
  · rfl
  · decide +kernel
  · decide +kernel

theorem prime_297159362677 : Nat.Prime 297159362677 := by
  apply prime_of_cert 297159362677 2 [2, 2, 3, 3, 11, 461, 1627771] (by norm_num)
  · simp only [List.forall_mem_cons, List.not_mem_nil, false_imp_iff, implies_true, and_true]
    exact ⟨by norm_num, by norm_num, by norm_num, by norm_num, by norm_num, by norm_num, prime_1627771⟩
  · rfl
  · decide +kernel
  · decide +kernel

theorem prime_107361793816595537 : Nat.Prime 107361793816595537 := by
  apply prime_of_cert 107361793816595537 3 [2, 2, 2, 2, 16699, 85831, 4681609] (by norm_num)
  · simp only [List.forall_mem_cons, List.not_mem_nil, false_imp_iff, implies_true, and_true]
    exact ⟨by norm_num, by norm_num, by norm_num, by norm_num, by norm_num, by norm_num, prime_4681609⟩
  · rfl
  · decide +kernel
  · decide +kernel

theorem prime_173378833005251801 : Nat.Prime 173378833005251801 := by
  apply prime_of_cert 173378833005251801 6 [2, 2, 2, 5, 5, 2621, 24809, 13331831] (by norm_num)
  · simp only [List.forall_mem_cons, List.not_mem_nil, false_imp_iff, implies_true, and_true]
    exact ⟨by norm_num, by norm_num, by norm_num, by norm_num, by norm_num, by norm_num, by norm_num, prime_13331831⟩
  · rfl
  · decide +kernel
  · decide +kernel

theorem prime_174723607534414371449 : Nat.Prime 174723607534414371449 := by
  apply prime_of_cert 174723607534414371449 3 [2, 2, 2, 17, 59, 4051, 120233, 44706919] (by norm_num)
  · simp only [List.forall_mem_cons, List.not_mem_nil, false_imp_iff, implies_true, and_true]
    exact ⟨by norm_num, by norm_num, by norm_num, by norm_num, by norm_num, by norm_num, by norm_num, prime_44706919⟩
  · rfl
  · decide +kernel
  · decide +kernel

theorem prime_22149492674086928081353 : Nat.Prime 22149492674086928081353 := by
  apply prime_of_cert 22149492674086928081353 5 [2, 2, 2, 3, 5323, 173378833005251801] (by norm_num)
  · simp only [List.forall_mem_cons, List.not_mem_nil, false_imp_iff, implies_true, and_true]
    exact ⟨by norm_num, by norm_num, by norm_num, by norm_num, by norm_num, prime_173378833005251801⟩
  · rfl
  · decide +kernel
  · decide +kernel

theorem prime_132896956044521568488119 : Nat.Prime 132896956044521568488119 := by
  apply prime_of_cert 132896956044521568488119 6 [2, 3, 22149492674086928081353] (by norm_num)
  · simp only [List.forall_mem_cons, List.not_mem_nil, false_imp_iff, implies_true, and_true]
    exact ⟨by norm_num, by norm_num, prime_22149492674086928081353⟩
  · rfl
  · decide +kernel
  · decide +kernel

theorem prime_29047611873442575647497758179 : Nat.Prime 29047611873442575647497758179 := by
  apply prime_of_cert 29047611873442575647497758179 2 [2, 293, 305873, 545358713, 297159362677] (by norm_num)
  · simp only [List.forall_mem_cons, List.not_mem_nil, false_imp_iff, implies_true, and_true]
    exact ⟨by norm_num, by norm_num, by norm_num, prime_545358713, prime_297159362677⟩
  · rfl
  · decide +kernel
  · decide +kernel

theorem prime_341948486974166000522343609283189 : Nat.Prime 341948486974166000522343609283189 := by
  apply prime_of_cert 341948486974166000522343609283189 2 [2, 2, 3, 3, 3, 109, 29047611873442575647497758179] (by norm_num)
  · simp only [List.forall_mem_cons, List.not_mem_nil, false_imp_iff, implies_true, and_true]
    exact ⟨by norm_num, by norm_num, by norm_num, by norm_num, by norm_num, by norm_num, prime_29047611873442575647497758179⟩
  · rfl
  · decide +kernel
  · decide +kernel

theorem prime_255515944373312847190720520512484175977 : Nat.Prime 255515944373312847190720520512484175977 := by
  apply prime_of_cert 255515944373312847190720520512484175977 3 [2, 2, 2, 7, 7, 11, 1627, 2657, 4423, 41201, 96557, 7240687, 107590001] (by norm_num)
  · simp only [List.forall_mem_cons, List.not_mem_nil, false_imp_iff, implies_true, and_true]
    exact ⟨by norm_num, by norm_num, by norm_num, by norm_num, by norm_num, by norm_num, by norm_num, by norm_num, by norm_num, by norm_num, by norm_num, prime_7240687, prime_107590001⟩
  · rfl
  · decide +kernel
  · decide +kernel

theorem prime_205115282021455665897114700593932402728804164701536103180137503955397371 : Nat.Prime 205115282021455665897114700593932402728804164701536103180137503955397371 := by
  apply prime_of_cert 205115282021455665897114700593932402728804164701536103180137503955397371 10 [2, 3, 5, 29, 29, 31, 7723, 132896956044521568488119, 255515944373312847190720520512484175977] (by norm_num)
  · simp only [List.forall_mem_cons, List.not_mem_nil, false_imp_iff, implies_true, and_true]
    exact ⟨by norm_num, by norm_num, by norm_num, by norm_num, by norm_num, by norm_num, by norm_num, prime_132896956044521568488119, prime_255515944373312847190720520512484175977⟩
  · rfl
  · decide +kernel
  · decide +kernel

theorem prime_115792089237316195423570985008687907852837564279074904382605163141518161494337 : Nat.Prime 115792089237316195423570985008687907852837564279074904382605163141518161494337 := by
  apply prime_of_cert 115792089237316195423570985008687907852837564279074904382605163141518161494337 7 [2, 2, 2, 2, 2, 2, 3, 149, 631, 107361793816595537, 174723607534414371449, 341948486974166000522343609283189] (by norm_num)
  · simp only [List.forall_mem_cons, List.not_mem_nil, false_imp_iff, implies_true, and_true]
    exact ⟨by norm_num, by norm_num, by norm_num, by norm_num, by norm_num, by norm_num, by norm_num, by norm_num, by norm_num, prime_107361793816595537, prime_174723607534414371449, prime_341948486974166000522343609283189⟩
  · rfl
  · decide +kernel
  · decide +kernel

theorem prime_115792089237316195423570985008687907853269984665640564039457584007908834671663 : Nat.Prime 115792089237316195423570985008687907853269984665640564039457584007908834671663 := by
  apply prime_of_cert 115792089237316195423570985008687907853269984665640564039457584007908834671663 3 [2, 3, 7, 13441, 205115282021455665897114700593932402728804164701536103180137503955397371] (by norm_num)
  · simp only [List.forall_mem_cons, List.not_mem_nil, false_imp_iff, implies_true, and_true]
    exact ⟨by norm_num, by norm_num, by norm_num, by norm_num, prime_205115282021455665897114700593932402728804164701536103180137503955397371⟩
  · rfl
  · decide +kernel
  · decide +kernel

theorem fieldP_prime : Nat.Prime fieldP := prime_115792089237316195423570985008687907853269984665640564039457584007908834671663

theorem N_prime : Nat.Prime N := prime_115792089237316195423570985008687907852837564279074904382605163141518161494337

end Bip38
