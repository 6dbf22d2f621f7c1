import Verif.SrcX.Same
/-!
# Two runs of `decrypt`, `confirm_code`, `intermediate_code` and `create_new_encrypted_wif`

Which variables of the text are public at each statement; the secret ones only reach statements that make the same external calls for any value.
-/
set_option linter.style.longLine false
namespace Bip38.SrcX

open Bip38.Src Bip38.Spec

/-- Functions without external calls. -/
theorem pubF_idle {x x' : Fn} {y y' : Src.Fn} (h : SqF Seqs.idle x) (h' : SqF Seqs.idle x') (hy : StF ending x y) (hy' : StF ending x' y') (e : y' = y) :
    PubF x x' := pubF h h' rfl hy (e ▸ hy')

theorem pub_globalIdle {L : Pub} {x x' : Run Val} {y y' : Src.Run Val} (h : Sq Seqs.idle x) (h' : Sq Seqs.idle x') (hy : St ending x y) (hy' : St ending x' y')
    (e : y' = y) : PubE Eq L (eGlobal x) (eGlobal x') := pub_global h h' rfl hy (e ▸ hy')

section
variable {L : Pub} {ss ss' : List Stmt}

theorem Pub.le_self : L.le L = true :=
  Bool.and_eq_true_iff.mpr ⟨List.all_eq_true.mpr fun _ h => List.elem_iff.mpr h, List.all_eq_true.mpr fun _ h => List.elem_iff.mpr h⟩

theorem pubS_keeping {a a' : SeqsS} {s s' : Stmt} (h : SqS a s) (h' : SqS a' s') (e : a' = a) (ha : (a.both.one && a.ret.isEmpty) = true) (hk : Frames (L.vals ++ L.truth) s)
    (hk' : Frames (L.vals ++ L.truth) s') : PubS L L s s' :=
  pubS_keep h (e ▸ h') (Bool.and_eq_true_iff.mp ha).1 (List.isEmpty_iff.mp (Bool.and_eq_true_iff.mp ha).2) hk hk' Pub.le_self

/-- A statement with one sequence that keeps the public variables. -/
theorem pubT_keep {a a' : SeqsS} {s s' : Stmt} (h : SqS a s) (h' : SqS a' s') (e : a' = a) (ha : (a.both.one && a.ret.isEmpty) = true) (hk : Frames (L.vals ++ L.truth) s)
    (hk' : Frames (L.vals ++ L.truth) s') (hs : PubT L (block ss) (block ss')) : PubT L (block (s :: ss)) (block (s' :: ss')) :=
  pubT_cons (pubS_keeping h h' e ha hk hk') hs

theorem pubT_public {n : Name} {x x' : Expr} (h : PubE Eq L x x') (hs : PubT ⟨n :: L.vals, L.truth.filter (· != n)⟩ (block ss) (block ss')) :
    PubT L (block (sAssign (.name n) x :: ss)) (block (sAssign (.name n) x' :: ss')) :=
  pubT_cons (pubS_assign h) hs

theorem pubT_secret {n : Name} {x x' : Expr} (h : PubE Any L x x')
    (hs : PubT ⟨L.vals.filter (· != n), L.truth.filter (· != n)⟩ (block ss) (block ss')) :
    PubT L (block (sAssign (.name n) x :: ss)) (block (sAssign (.name n) x' :: ss')) :=
  pubT_cons (pubS_other h) hs

theorem pubS_next {M : Pub} {a a' : SeqsS} {s s' : Stmt} (h : SqS a s) (h' : SqS a' s') (e : a' = a) (ha : (a.both.one && a.ret.isEmpty) = true) (hk : Frames (L.vals ++ L.truth) s)
    (hk' : Frames (L.vals ++ L.truth) s') (hs : PubS L M (block ss) (block ss')) : PubS L M (block (s :: ss)) (block (s' :: ss')) :=
  pubS_cons (pubS_keeping h h' e ha hk hk') hs

theorem pubS_public {M : Pub} {n : Name} {x x' : Expr} (h : PubE Eq L x x') (hs : PubS ⟨n :: L.vals, L.truth.filter (· != n)⟩ M (block ss) (block ss')) :
    PubS L M (block (sAssign (.name n) x :: ss)) (block (sAssign (.name n) x' :: ss')) :=
  pubS_cons (pubS_assign h) hs

/-- Nothing is public afterwards. -/
theorem pubS_whole {a a' : SeqsS} {s s' : Stmt} (h : SqS a s) (h' : SqS a' s') (e : a' = a) (ha : (a.both.one && a.ret.isEmpty) = true) : PubS L ⟨[], []⟩ s s' :=
  pubS_keep h (e ▸ h') (Bool.and_eq_true_iff.mp ha).1 (List.isEmpty_iff.mp (Bool.and_eq_true_iff.mp ha).2) (fun _ _ _ _ _ _ _ h => (nomatch h))
    (fun _ _ _ _ _ _ _ h => (nomatch h)) rfl

theorem pubS_end {M : Pub} (h : M.le L = true) : PubS L M (block []) (block []) := PubS.le pubS_nil h

end

/-- A rest with one sequence. -/
theorem pubT_rest {L : Pub} {a a' : SeqsS} {s s' : Stmt} (h : SqS a s) (h' : SqS a' s') (e : a' = a) (ha : a.both.one = true) : PubT L s s' :=
  pubT_one h (e ▸ h') ha

/-- An expression with public value. -/
macro "pub_rule" : tactic => `(tactic| first
  | (with_reducible apply pub_name; decide +kernel)
  | (with_reducible first
  | exact pub_const _ | exact pubL_nil | exact pubO_none
  | apply PubE.truth | apply pub_slice | apply pub_index | apply pub_compare | apply pub_call | apply pubL_cons | apply pubO_some)
  | ((with_reducible (apply pub_globalIdle; sq_known; sq_known; st_known; st_known)); rfl)
  | ((with_reducible (apply pubF_idle; sq_known; sq_known; st_known; st_known)); rfl))

/-- The public variables keep their values. -/
macro "frame_rule" : tactic => `(tactic| with_reducible first
  | exact frames_nil | apply frames_cons | apply frames_if | (apply frames_assign; decide +kernel) | (apply frames_raise <;> repeat' sq_rule))

/-- The next statement has one sequence and keeps the public variables. -/
macro "pub_keep" r:ident : tactic => `(tactic| (
  apply pubT_keep
  · repeat' sq_rule
  · repeat' sq_rule
  · with_reducible rfl
  · cases $r:ident <;> decide +kernel
  · repeat' frame_rule
  · repeat' frame_rule))

/-- The next statement assigns a public value. -/
macro "pub_public" : tactic => `(tactic| (
  apply pubT_public
  · repeat' pub_rule))

/-- The same in a branch. -/
macro "pub_keepS" r:ident : tactic => `(tactic| (
  apply pubS_next
  · repeat' sq_rule
  · repeat' sq_rule
  · with_reducible rfl
  · cases $r:ident <;> decide +kernel
  · repeat' frame_rule
  · repeat' frame_rule))

/-- The same in a branch. -/
macro "pub_publicS" : tactic => `(tactic| (
  apply pubS_public
  · repeat' pub_rule))

/-- A branch after which nothing is public. -/
macro "pub_whole" r:ident : tactic => `(tactic| (
  apply pubS_whole
  · repeat' sq_rule
  · repeat' sq_rule
  · with_reducible rfl
  · cases $r:ident <;> decide +kernel))

/-- The end of a branch. -/
macro "pub_endS" : tactic => `(tactic| (apply pubS_end; decide +kernel))

/-- The rest has one sequence. -/
macro "pub_rest" r:ident : tactic => `(tactic| (
  apply pubT_rest
  · repeat' sq_rule
  · repeat' sq_rule
  · with_reducible rfl
  · cases $r:ident <;> decide +kernel))

variable (H : Host) (u : Nat → Bytes) {r : Bool} (hr : H.P.hashlibRipemd160.isSome = r) (hr' : (redraw H u).P.hashlibRipemd160.isSome = r)
include hr hr'

/-- `decrypt` with EC multiplication. -/
theorem pub_decrypt_L575 : PubT ⟨[v!"flag", v!"prefix", v!"encrypted_wif_decode", v!"encrypted_wif"], []⟩ (BIP38_decrypt_L575 H) (BIP38_decrypt_L575 (redraw H u)) := by
  delta SrcX.BIP38_decrypt_L576 SrcX.BIP38_decrypt_L577 SrcX.BIP38_decrypt_L578 SrcX.BIP38_decrypt_L580 SrcX.BIP38_decrypt_L582 SrcX.BIP38_decrypt_L583 SrcX.BIP38_decrypt_L585 SrcX.BIP38_decrypt_L581 SrcX.BIP38_decrypt_L587 SrcX.BIP38_decrypt_L589 SrcX.BIP38_decrypt_L588 SrcX.BIP38_decrypt_L591 SrcX.BIP38_decrypt_L590 SrcX.BIP38_decrypt_L593 SrcX.BIP38_decrypt_L594 SrcX.BIP38_decrypt_L595 SrcX.BIP38_decrypt_L596 SrcX.BIP38_decrypt_L598 SrcX.BIP38_decrypt_L599 SrcX.BIP38_decrypt_L602 SrcX.BIP38_decrypt_L603 SrcX.BIP38_decrypt_L607 SrcX.BIP38_decrypt_L611 SrcX.BIP38_decrypt_L613 SrcX.BIP38_decrypt_L612 SrcX.BIP38_decrypt_L616 SrcX.BIP38_decrypt_L619 SrcX.BIP38_decrypt_L620 SrcX.BIP38_decrypt_L621 SrcX.BIP38_decrypt_L623 SrcX.BIP38_decrypt_L624 SrcX.BIP38_decrypt_L622 SrcX.BIP38_decrypt_L625 SrcX.BIP38_decrypt_L631 SrcX.BIP38_decrypt_L634 SrcX.BIP38_decrypt_L635 SrcX.BIP38_decrypt_L638 SrcX.BIP38_decrypt_L639 SrcX.BIP38_decrypt_L637 SrcX.BIP38_decrypt_L640 SrcX.BIP38_decrypt_L636 SrcX.BIP38_decrypt_L651 SrcX.BIP38_decrypt_L630 SrcX.BIP38_decrypt_L652 SrcX.BIP38_decrypt_L654 SrcX.BIP38_decrypt_L575
  refine pubT_if ?_ ?_ ?_
  · repeat' pub_rule
  · pub_public
    pub_keep r
    pub_keep r
    pub_public
    refine pubT_cons (M := ⟨[v!"lot_and_sequence"], []⟩) (pubS_if ?_ ?_ ?_) ?_
    · repeat' pub_rule
    · pub_keepS r
      pub_publicS
      pub_endS
    · pub_keepS r
      pub_endS
    pub_keep r
    refine pubT_cons (M := ⟨[], []⟩) (pubS_if ?_ ?_ ?_) ?_
    · repeat' pub_rule
    · pub_whole r
    · pub_whole r
    pub_rest r
  · pub_rest r

/-- `decrypt`, from `if prefix == …` on. -/
theorem pub_decrypt_L516 : PubT ⟨[v!"flag", v!"prefix", v!"encrypted_wif_decode", v!"encrypted_wif"], []⟩ (BIP38_decrypt_L516 H) (BIP38_decrypt_L516 (redraw H u)) := by
  delta SrcX.BIP38_decrypt_L519 SrcX.BIP38_decrypt_L520 SrcX.BIP38_decrypt_L522 SrcX.BIP38_decrypt_L523 SrcX.BIP38_decrypt_L525 SrcX.BIP38_decrypt_L521 SrcX.BIP38_decrypt_L518 SrcX.BIP38_decrypt_L532 SrcX.BIP38_decrypt_L535 SrcX.BIP38_decrypt_L536 SrcX.BIP38_decrypt_L537 SrcX.BIP38_decrypt_L539 SrcX.BIP38_decrypt_L540 SrcX.BIP38_decrypt_L541 SrcX.BIP38_decrypt_L543 SrcX.BIP38_decrypt_L547 SrcX.BIP38_decrypt_L546 SrcX.BIP38_decrypt_L549 SrcX.BIP38_decrypt_L550 SrcX.BIP38_decrypt_L556 SrcX.BIP38_decrypt_L555 SrcX.BIP38_decrypt_L558 SrcX.BIP38_decrypt_L562 SrcX.BIP38_decrypt_L561 SrcX.BIP38_decrypt_L573 SrcX.BIP38_decrypt_L654 SrcX.BIP38_decrypt_L516
  refine pubT_if ?_ ?_ ?_
  · repeat' pub_rule
  · pub_rest r
  · exact pubT_last (pub_decrypt_L575 H u hr hr')

/-- Two calls of `decrypt` with the same encrypted WIF. -/
theorem seen_decrypt : SeenAlike (fun args kw args' kw' => given 1 v!"encrypted_wif" args kw = given 1 v!"encrypted_wif" args' kw') (BIP38_decrypt H) (BIP38_decrypt (redraw H u)) := by
  delta SrcX.BIP38_decrypt SrcX.BIP38_decrypt_L503 SrcX.BIP38_decrypt_L507 SrcX.BIP38_decrypt_L506 SrcX.BIP38_decrypt_L508 SrcX.BIP38_decrypt_L510 SrcX.BIP38_decrypt_L509 SrcX.BIP38_decrypt_L512 SrcX.BIP38_decrypt_L513 SrcX.BIP38_decrypt_L514
  refine seen_defun (L := ⟨[v!"encrypted_wif"], []⟩) ?p ?b ?a
  case p => (repeat' sq_rule) <;> rfl
  case a =>
    intro args kw args' kw' h F log env l F' log' env' l' hb hb'
    refine ⟨fun n hn => ?_, fun n hn => (nomatch hn)⟩
    obtain rfl := List.mem_singleton.mp hn
    rw [param_value (by decide) hb (i := 1) rfl, param_value (by decide) hb' (i := 1) rfl]
    exact h
  case b =>
    pub_keep r
    pub_keep r
    pub_public
    pub_keep r
    pub_public
    pub_public
    pub_keep r
    exact pubT_last (pub_decrypt_L516 H u hr hr')

set_option maxHeartbeats 2000000 in
/-- Two calls of `confirm_code` with the same confirmation code. -/
theorem seen_confirm : SeenAlike (fun args kw args' kw' => given 2 v!"confirmation_code" args kw = given 2 v!"confirmation_code" args' kw') (BIP38_confirm_code H) (BIP38_confirm_code (redraw H u)) := by
  delta SrcX.BIP38_confirm_code SrcX.BIP38_confirm_code_L386 SrcX.BIP38_confirm_code_L390 SrcX.BIP38_confirm_code_L389 SrcX.BIP38_confirm_code_L392 SrcX.BIP38_confirm_code_L394 SrcX.BIP38_confirm_code_L391 SrcX.BIP38_confirm_code_L396 SrcX.BIP38_confirm_code_L395 SrcX.BIP38_confirm_code_L398 SrcX.BIP38_confirm_code_L399 SrcX.BIP38_confirm_code_L401 SrcX.BIP38_confirm_code_L400 SrcX.BIP38_confirm_code_L403 SrcX.BIP38_confirm_code_L404 SrcX.BIP38_confirm_code_L405 SrcX.BIP38_confirm_code_L406 SrcX.BIP38_confirm_code_L408 SrcX.BIP38_confirm_code_L410 SrcX.BIP38_confirm_code_L411 SrcX.BIP38_confirm_code_L413 SrcX.BIP38_confirm_code_L409 SrcX.BIP38_confirm_code_L415 SrcX.BIP38_confirm_code_L417 SrcX.BIP38_confirm_code_L416 SrcX.BIP38_confirm_code_L419 SrcX.BIP38_confirm_code_L418 SrcX.BIP38_confirm_code_L421 SrcX.BIP38_confirm_code_L422 SrcX.BIP38_confirm_code_L423 SrcX.BIP38_confirm_code_L424 SrcX.BIP38_confirm_code_L426 SrcX.BIP38_confirm_code_L427 SrcX.BIP38_confirm_code_L430 SrcX.BIP38_confirm_code_L433 SrcX.BIP38_confirm_code_L436 SrcX.BIP38_confirm_code_L441 SrcX.BIP38_confirm_code_L444 SrcX.BIP38_confirm_code_L446 SrcX.BIP38_confirm_code_L445 SrcX.BIP38_confirm_code_L448 SrcX.BIP38_confirm_code_L440 SrcX.BIP38_confirm_code_L450 SrcX.BIP38_confirm_code_L456 SrcX.BIP38_confirm_code_L457 SrcX.BIP38_confirm_code_L460 SrcX.BIP38_confirm_code_L461 SrcX.BIP38_confirm_code_L459 SrcX.BIP38_confirm_code_L462 SrcX.BIP38_confirm_code_L458 SrcX.BIP38_confirm_code_L469 SrcX.BIP38_confirm_code_L455 SrcX.BIP38_confirm_code_L470
  refine seen_defun (L := ⟨[v!"confirmation_code"], []⟩) ?p ?b ?a
  case p => (repeat' sq_rule) <;> rfl
  case a =>
    intro args kw args' kw' h F log env l F' log' env' l' hb hb'
    refine ⟨fun n hn => ?_, fun n hn => (nomatch hn)⟩
    obtain rfl := List.mem_singleton.mp hn
    rw [param_value (by decide) hb (i := 2) rfl, param_value (by decide) hb' (i := 2) rfl]
    exact h
  case b =>
    pub_keep r
    pub_keep r
    refine pubT_cons (M := ⟨[v!"confirmation_code_decode"], []⟩) ?_ ?_
    · apply pubS_try
      · apply pubS_public
        · exact pub_call (pubF (sq_base58_check_decode H hr) (sq_base58_check_decode _ hr') rfl (st_base58_check_decode H) (st_base58_check_decode (redraw H u))) (pubL_cons (pub_name rfl) pubL_nil)
        · pub_endS
      · repeat' sq_rule
      · repeat' sq_rule
      · decide +kernel
    pub_keep r
    pub_keep r
    pub_keep r
    pub_keep r
    pub_public
    pub_keep r
    pub_public
    pub_keep r
    pub_public
    refine pubT_cons (M := ⟨[v!"lot_and_sequence"], []⟩) (pubS_if ?_ ?_ ?_) ?_
    · repeat' pub_rule
    · pub_keepS r
      pub_publicS
      pub_endS
    · pub_keepS r
      pub_endS
    pub_keep r
    refine pubT_cons (M := ⟨[], []⟩) (pubS_if ?_ ?_ ?_) ?_
    · repeat' pub_rule
    · pub_whole r
    · pub_whole r
    pub_rest r

/-- Two calls of `intermediate_code` that agree in whether lot, sequence and salt are given. -/
theorem seen_intermediate : SeenAlike (fun args kw args' kw' => told 1 v!"lot" args kw = told 1 v!"lot" args' kw' ∧
    told 2 v!"sequence" args kw = told 2 v!"sequence" args' kw' ∧ told 3 v!"owner_salt" args kw = told 3 v!"owner_salt" args' kw') (BIP38_intermediate_code H) (BIP38_intermediate_code (redraw H u)) := by
  delta SrcX.BIP38_intermediate_code SrcX.BIP38_intermediate_code_L122 SrcX.BIP38_intermediate_code_L124 SrcX.BIP38_intermediate_code_L123 SrcX.BIP38_intermediate_code_L126 SrcX.BIP38_intermediate_code_L125 SrcX.BIP38_intermediate_code_L128 SrcX.BIP38_intermediate_code_L127 SrcX.BIP38_intermediate_code_L131 SrcX.BIP38_intermediate_code_L133 SrcX.BIP38_intermediate_code_L132 SrcX.BIP38_intermediate_code_L135 SrcX.BIP38_intermediate_code_L134 SrcX.BIP38_intermediate_code_L137 SrcX.BIP38_intermediate_code_L138 SrcX.BIP38_intermediate_code_L139 SrcX.BIP38_intermediate_code_L140 SrcX.BIP38_intermediate_code_L142 SrcX.BIP38_intermediate_code_L143 SrcX.BIP38_intermediate_code_L144 SrcX.BIP38_intermediate_code_L130 SrcX.BIP38_intermediate_code_L146 SrcX.BIP38_intermediate_code_L149
  refine seen_defun (L := ⟨[], [v!"lot", v!"sequence", v!"owner_salt"]⟩) ?p ?b ?a
  case p => (repeat' sq_rule) <;> rfl
  case a =>
    rintro args kw args' kw' ⟨h1, h2, h3⟩ F log env l F' log' env' l' hb hb'
    refine ⟨fun n hn => (nomatch hn), fun n hn => ?_⟩
    simp only [List.mem_cons, List.not_mem_nil, or_false] at hn
    rcases hn with rfl | rfl | rfl
    · rw [param_truth (by decide) hb (i := 1) rfl, param_truth (by decide) hb' (i := 1) rfl, h1]
    · rw [param_truth (by decide) hb (i := 2) rfl, param_truth (by decide) hb' (i := 2) rfl, h2]
    · rw [param_truth (by decide) hb (i := 3) rfl, param_truth (by decide) hb' (i := 3) rfl, h3]
  case b =>
    apply pubT_secret
    · apply pub_if
      · exact pub_nameTruth rfl
      · repeat' sq_rule
      · repeat' sq_rule
      · decide +kernel
      · repeat' sq_rule
      · repeat' sq_rule
      · decide +kernel
    pub_keep r
    pub_keep r
    pub_keep r
    refine pubT_cons (M := ⟨[], []⟩) (pubS_if ?_ ?_ ?_) ?_
    · exact pub_and (pub_nameTruth (by decide +kernel)) (pub_nameTruth (by decide +kernel))
    · pub_whole r
    · pub_whole r
    pub_rest r

set_option maxHeartbeats 2000000 in
/-- Two calls of `create_new_encrypted_wif` that agree in whether a seed is given. -/
theorem seen_create : SeenAlike (fun args kw args' kw' => told 3 v!"seed" args kw = told 3 v!"seed" args' kw') (BIP38_create_new_encrypted_wif H) (BIP38_create_new_encrypted_wif (redraw H u)) := by
  delta SrcX.BIP38_create_new_encrypted_wif SrcX.BIP38_create_new_encrypted_wif_L258 SrcX.BIP38_create_new_encrypted_wif_L262 SrcX.BIP38_create_new_encrypted_wif_L261 SrcX.BIP38_create_new_encrypted_wif_L263 SrcX.BIP38_create_new_encrypted_wif_L265 SrcX.BIP38_create_new_encrypted_wif_L267 SrcX.BIP38_create_new_encrypted_wif_L264 SrcX.BIP38_create_new_encrypted_wif_L269 SrcX.BIP38_create_new_encrypted_wif_L268 SrcX.BIP38_create_new_encrypted_wif_L271 SrcX.BIP38_create_new_encrypted_wif_L272 SrcX.BIP38_create_new_encrypted_wif_L273 SrcX.BIP38_create_new_encrypted_wif_L276 SrcX.BIP38_create_new_encrypted_wif_L278 SrcX.BIP38_create_new_encrypted_wif_L280 SrcX.BIP38_create_new_encrypted_wif_L277 SrcX.BIP38_create_new_encrypted_wif_L275 SrcX.BIP38_create_new_encrypted_wif_L284 SrcX.BIP38_create_new_encrypted_wif_L286 SrcX.BIP38_create_new_encrypted_wif_L283 SrcX.BIP38_create_new_encrypted_wif_L289 SrcX.BIP38_create_new_encrypted_wif_L291 SrcX.BIP38_create_new_encrypted_wif_L288 SrcX.BIP38_create_new_encrypted_wif_L293 SrcX.BIP38_create_new_encrypted_wif_L287 SrcX.BIP38_create_new_encrypted_wif_L282 SrcX.BIP38_create_new_encrypted_wif_L300 SrcX.BIP38_create_new_encrypted_wif_L302 SrcX.BIP38_create_new_encrypted_wif_L301 SrcX.BIP38_create_new_encrypted_wif_L304 SrcX.BIP38_create_new_encrypted_wif_L307 SrcX.BIP38_create_new_encrypted_wif_L312 SrcX.BIP38_create_new_encrypted_wif_L313 SrcX.BIP38_create_new_encrypted_wif_L314 SrcX.BIP38_create_new_encrypted_wif_L315 SrcX.BIP38_create_new_encrypted_wif_L317 SrcX.BIP38_create_new_encrypted_wif_L318 SrcX.BIP38_create_new_encrypted_wif_L321 SrcX.BIP38_create_new_encrypted_wif_L324 SrcX.BIP38_create_new_encrypted_wif_L329 SrcX.BIP38_create_new_encrypted_wif_L330 SrcX.BIP38_create_new_encrypted_wif_L333 SrcX.BIP38_create_new_encrypted_wif_L336 SrcX.BIP38_create_new_encrypted_wif_L339 SrcX.BIP38_create_new_encrypted_wif_L342 SrcX.BIP38_create_new_encrypted_wif_L346
  refine seen_defun (L := ⟨[], [v!"seed"]⟩) ?p ?b ?a
  case p => (repeat' sq_rule) <;> rfl
  case a =>
    intro args kw args' kw' h F log env l F' log' env' l' hb hb'
    refine ⟨fun n hn => (nomatch hn), fun n hn => ?_⟩
    obtain rfl := List.mem_singleton.mp hn
    rw [param_truth (by decide) hb (i := 3) rfl, param_truth (by decide) hb' (i := 3) rfl, h]
  case b =>
    pub_keep r
    pub_keep r
    apply pubT_secret
    · apply pub_if
      · exact pub_nameTruth rfl
      · repeat' sq_rule
      · repeat' sq_rule
      · decide +kernel
      · repeat' sq_rule
      · repeat' sq_rule
      · decide +kernel
    apply pubT_rest
    · repeat' sq_rule_aes
    · repeat' sq_rule_aes
    · with_reducible rfl
    · cases r <;> decide +kernel

end Bip38.SrcX
