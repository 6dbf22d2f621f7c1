import Verif.Src.Ripemd160
import Verif.Src.EqUtils
import Verif.Lemmas.Ripemd160
import Mathlib.Tactic.IntervalCases
/-!
# The text of `bip38/libs/ripemd160.py` computes what the model says
-/
namespace Bip38.Src

open Run Ripemd

variable (H : Host)

set_option maxRecDepth 20000

/-- A list of numbers as a Python value. -/
def natList (l : List Nat) : Val := .list (l.map fun n : Nat => Val.int n)

theorem ML_eq : ripemd160_ML H = pure (natList ML) := rfl
theorem MR_eq : ripemd160_MR H = pure (natList MR) := rfl
theorem RL_eq : ripemd160_RL H = pure (natList RL) := rfl
theorem RR_eq : ripemd160_RR H = pure (natList RR) := rfl
theorem KL_eq : ripemd160_KL H = pure (natList KL) := rfl
theorem KR_eq : ripemd160_KR H = pure (natList KR) := rfl

theorem index_nats (l : List Nat) {j : Nat} (h : j < l.length) : pySubscript (natList l) (.int j) = pure (.int (l.getD j 0)) := by
  have h2 : (j : Int) < l.length := by omega
  simp only [pySubscript, natList, pyIndex, Int.natCast_nonneg, h2, if_true, Int.toNat_natCast, Option.bind_some, List.length_map,
    List.getElem?_map, List.getElem?_eq_getElem h, Option.map_some, List.getD_eq_getElem?_getD, Option.getD_some]

theorem fi_eq (x y z : Int) {i : Nat} (h : i < 5) : ripemd160_fi H [.int x, .int y, .int z, .int i] [] = pure (.int (fi x y z i)) := by
  interval_cases i <;> rfl

theorem rol_eq (x : Int) {i : Nat} (h : i ≤ 32) : ripemd160_rol H [.int x, .int i] [] = pure (.int (rol x i)) := by
  have e : (32 : Int) - i = ((32 - i : Nat) : Int) := by omega
  unfold ripemd160_rol
  rw [defun_eq]
  ev [block_cons, e, Int.natCast_nonneg, if_true]
  rfl

/-- The variables of one path. -/
def path (a b c d e : Name) (s : St) (env : Env) : Prop :=
  env a = some (.int s.a) ∧ env b = some (.int s.b) ∧ env c = some (.int s.c) ∧ env d = some (.int s.d) ∧ env e = some (.int s.e)

/-- The variables in the loop of `compress`. -/
structure Inv (h l r : St) (x : List Nat) (env : Env) : Prop where
  h : path v!"h0" v!"h1" v!"h2" v!"h3" v!"h4" h env
  l : path v!"al" v!"bl" v!"cl" v!"dl" v!"el" l env
  r : path v!"ar" v!"br" v!"cr" v!"dr" v!"er" r env
  x : env v!"x" = some (natList x)

/-- The body of the loop of `compress`. -/
def compressBody : List Stmt :=
  [ripemd160_compress_L92 H, ripemd160_compress_L94 H, ripemd160_compress_L95 H, ripemd160_compress_L97 H, ripemd160_compress_L98 H]

theorem tables (j : Nat) (h : j < 80) : ML.getD j 0 < 16 ∧ MR.getD j 0 < 16 ∧ RL.getD j 0 ≤ 32 ∧ RR.getD j 0 ≤ 32 := by
  revert j
  decide

theorem compress_round (h l r : St) (x : List Nat) (hx : x.length = 16) (j : Nat) (hj : j < 80) (env : Env) (hi : Inv h l r x env)
    {β : Type} {f : Outcome → Run β} {q : Run β}
    (hf : ∀ env', Inv h (pathStep x ML RL KL (j >>> 4) (j >>> 4) j l) (pathStep x MR RR KR (4 - (j >>> 4)) (j >>> 4) j r) x env' →
      f (.next env') = q) :
    (assignAll [.name v!"j"] [.int j] env >>= fun env => block (compressBody H) env >>= f) = q := by
  obtain ⟨⟨a1, a2, a3, a4, a5⟩, ⟨b1, b2, b3, b4, b5⟩, ⟨c1, c2, c3, c4, c5⟩, d⟩ := hi
  obtain ⟨t1, t2, t3, t4⟩ := tables j hj
  have hr : j >>> 4 < 5 := by
    rw [Nat.shiftRight_eq_div_pow]
    omega
  have e1 : ((j : Int) >>> (4 : Int)) = ((j >>> 4 : Nat) : Int) := rfl
  have e2 : (4 : Int) - ((j >>> 4 : Nat) : Int) = ((4 - j >>> 4 : Nat) : Int) := by omega
  have i1 := index_nats ML (j := j) hj
  have i2 := index_nats MR (j := j) hj
  have i3 := index_nats RL (j := j) hj
  have i4 := index_nats RR (j := j) hj
  have i5 := index_nats KL (j := j >>> 4) hr
  have i6 := index_nats KR (j := j >>> 4) hr
  have i7 := index_nats x (j := ML.getD j 0) (by omega)
  have i8 := index_nats x (j := MR.getD j 0) (by omega)
  have f1 := fi_eq H l.b l.c l.d hr
  have f2 := fi_eq H r.b r.c r.d (i := 4 - j >>> 4) (by omega)
  have g1 := fun z => rol_eq H z t3
  have g2 := fun z => rol_eq H z t4
  have g3 := fun z => rol_eq H z (i := 10) (by omega)
  simp only [Nat.cast_ofNat] at g3
  unfold compressBody
  ev [block_cons, b1, b2, b3, b4, b5, c1, c2, c3, c4, c5, d, e1, e2, i1, i2, i3, i4, i5, i6, i7, i8, f1, f2, g1, g2, g3,
      ML_eq, MR_eq, RL_eq, RR_eq, KL_eq, KR_eq]
  refine hf _ ⟨⟨?_, ?_, ?_, ?_, ?_⟩, ⟨?_, ?_, ?_, ?_, ?_⟩, ⟨?_, ?_, ?_, ?_, ?_⟩, ?_⟩ <;> ev [a1, a2, a3, a4, a5, d, pathStep]

theorem compress_loop (h : St) (x : List Nat) (hx : x.length = 16) (js : List Nat) (hj : ∀ j ∈ js, j < 80) (st : St × St) (env : Env)
    (hi : Inv h st.1 st.2 x env) {β : Type} {f : Outcome → Run β} {q : Run β}
    (hf : ∀ env', Inv h (js.foldl (fun (st : St × St) j => (pathStep x ML RL KL (j >>> 4) (j >>> 4) j st.1,
        pathStep x MR RR KR (4 - (j >>> 4)) (j >>> 4) j st.2)) st).1
      (js.foldl (fun (st : St × St) j => (pathStep x ML RL KL (j >>> 4) (j >>> 4) j st.1,
        pathStep x MR RR KR (4 - (j >>> 4)) (j >>> 4) j st.2)) st).2 x env' → f (.next env') = q) :
    forLoop [.name v!"j"] false (compressBody H) (js.map fun j : Nat => Val.int j) env >>= f = q := by
  induction js generalizing st env with
  | nil => exact hf env hi
  | cons j js ih =>
    rw [List.map_cons, for_cons]
    simp only [run_assoc]
    refine compress_round H h st.1 st.2 x hx j (hj j (by simp)) env hi fun env' hi' => ?_
    exact ih (fun k hk => hj k (by simp [hk])) (_, _) env' hi' hf

theorem word_eq (b : Bytes) (hb : b.length = 64) {i : Nat} (hi : i < 16) :
    xUnpack [.str "<L".toList, .bytes (pySlice b (some ((4 : Int) * i)) (some ((4 : Int) * (i + 1))))] []
      = pure (.tuple [.int (word b i)]) := by
  have e1 : (4 : Int) * i = ((4 * i : Nat) : Int) := by omega
  have e2 : (4 : Int) * (i + 1) = ((4 * (i + 1) : Nat) : Int) := by omega
  have hl : (slice (4 * i) (4 * (i + 1)) b).length = 4 := by
    simp only [slice, List.length_drop, List.length_take]
    omega
  rw [e1, e2, slice_nat]
  simp only [xUnpack, hl, and_self, if_true]
  rfl

theorem words_loop (b : Bytes) (env : Env) (he : env v!"block" = some (.bytes b)) (e : Expr)
    (hE : ∀ (i : Nat) (env : Env), i < 16 → env v!"block" = some (.bytes b) → e (env.set v!"i" (.int i)) = pure (.int (word b i)))
    (is : List Nat) (hi : ∀ i ∈ is, i < 16) :
    forEach v!"i" e env (is.map fun i : Nat => Val.int i) = pure ((is.map (word b)).map fun n : Nat => Val.int n) := by
  induction is with
  | nil => rfl
  | cons i is ih =>
    simp only [List.map_cons, forEach]
    rw [hE i env (hi i (by simp)) he, run_pure_bind, ih (fun k hk => hi k (by simp [hk])), run_pure_bind]

/-- A chaining value as a Python tuple. -/
def stVal (s : St) : List Val := [.int s.a, .int s.b, .int s.c, .int s.d, .int s.e]

theorem range_eq (n : Nat) : pyRange [.int n] [] = pure (.list ((List.range n).map fun i : Nat => Val.int i)) := rfl

theorem compress_eq (h : St) (b : Bytes) (hb : b.length = 64) :
    ripemd160_compress H (stVal h ++ [.bytes b]) [] = pure (.tuple (stVal (compress h b))) := by
  unfold ripemd160_compress stVal
  rw [defun_eq]
  simp only [List.cons_append, List.nil_append]
  ev []
  rw [block_cons]
  ev []
  rw [block_cons]
  ev []
  rw [block_cons]
  have r16 := range_eq 16
  have r80 := range_eq 80
  simp only [Nat.cast_ofNat] at r16 r80
  ev [r16]
  rw [words_loop b _ (by ev []) _ ?_ (List.range 16) (by simp)]
  rotate_left
  · intro i env hi he
    have := word_eq b hb hi
    ev [he, this]
    rfl
  ev []
  rw [block_cons]
  ev [r80]
  refine compress_loop H h ((List.range 16).map (word b)) (by simp) (List.range 80) (by simp) (h, h) _ ?_ fun env' hi => ?_
  · refine ⟨⟨?_, ?_, ?_, ?_, ?_⟩, ⟨?_, ?_, ?_, ?_, ?_⟩, ⟨?_, ?_, ?_, ?_, ?_⟩, ?_⟩ <;> ev [natList]
  · obtain ⟨⟨a1, a2, a3, a4, a5⟩, ⟨b1, b2, b3, b4, b5⟩, ⟨c1, c2, c3, c4, c5⟩, d⟩ := hi
    ev [block_cons, a1, a2, a3, a4, a5, b1, b2, b3, b4, b5, c1, c2, c3, c4, c5]
    unfold compress
    simp only

theorem compress_star (h : St) (b : Bytes) (hb : b.length = 64) (env : Env)
    (he : env v!"args" = some (.list (stVal h ++ [.bytes b]))) :
    eCallStar (ripemd160_compress H) (eName v!"args") env = pure (.tuple (stVal (compress h b))) := by
  ev [he, compress_eq H h b hb]

theorem slice64 (b : Bytes) (k : Nat) :
    pySlice b (some ((64 : Int) * k)) (some ((64 : Int) * (k + 1))) = slice (64 * k) (64 * (k + 1)) b := by
  have e1 : (64 : Int) * k = ((64 * k : Nat) : Int) := by omega
  have e2 : (64 : Int) * (k + 1) = ((64 * (k + 1) : Nat) : Int) := by omega
  rw [e1, e2, slice_nat]

theorem slice64_length (b : Bytes) {k : Nat} (h : k < b.length >>> 6) : (slice (64 * k) (64 * (k + 1)) b).length = 64 := by
  rw [Nat.shiftRight_eq_div_pow] at h
  simp only [slice, List.length_drop, List.length_take]
  omega

theorem blocks_loop1 (b : Bytes) (ks : List Nat) (hk : ∀ k ∈ ks, k < b.length >>> 6) (s : St) (env : Env)
    (h1 : env v!"data" = some (.bytes b)) (h2 : env v!"state" = some (.tuple (stVal s))) {β : Type} {f : Outcome → Run β} {q : Run β}
    (hf : ∀ env' : Env, env' v!"data" = some (.bytes b) →
      env' v!"state" = some (.tuple (stVal (ks.foldl (fun s k => compress s (slice (64 * k) (64 * (k + 1)) b)) s))) → f (.next env') = q) :
    forLoop [.name v!"b"] false [ripemd160_ripemd160_L110 H, ripemd160_ripemd160_L111 H] (ks.map fun k : Nat => Val.int k) env >>= f = q := by
  induction ks generalizing s env with
  | nil => exact hf env h1 h2
  | cons k ks ih =>
    have hc := compress_eq H s _ (slice64_length b (hk k (by simp)))
    rw [List.map_cons, for_cons]
    ev [block_cons, h1, h2, slice64, pyList, hc]
    refine ih (fun k hk' => hk k (by simp [hk'])) (compress s (slice (64 * k) (64 * (k + 1)) b)) _ ?_ ?_ hf
    · ev [h1]
    · ev []

theorem blocks_loop2 (b : Bytes) (ks : List Nat) (hk : ∀ k ∈ ks, k < b.length >>> 6) (s : St) (env : Env)
    (h1 : env v!"fin" = some (.bytes b)) (h2 : env v!"state" = some (.tuple (stVal s))) {β : Type} {f : Outcome → Run β} {q : Run β}
    (hf : ∀ env' : Env,
      env' v!"state" = some (.tuple (stVal (ks.foldl (fun s k => compress s (slice (64 * k) (64 * (k + 1)) b)) s))) → f (.next env') = q) :
    forLoop [.name v!"b"] false [ripemd160_ripemd160_L117 H, ripemd160_ripemd160_L118 H] (ks.map fun k : Nat => Val.int k) env >>= f = q := by
  induction ks generalizing s env with
  | nil => exact hf env h2
  | cons k ks ih =>
    have hc := compress_eq H s _ (slice64_length b (hk k (by simp)))
    rw [List.map_cons, for_cons]
    ev [block_cons, h1, h2, slice64, pyList, hc]
    refine ih (fun k hk' => hk k (by simp [hk'])) (compress s (slice (64 * k) (64 * (k + 1)) b)) _ ?_ ?_ hf
    · ev [h1]
    · ev []

theorem pack_word (h : Int) : xPack [.str "<L".toList, .int (h.land 0xffffffff)] [] = pure (.bytes (packWord h)) := by
  have h1 : 0 ≤ h.land 0xffffffff ∧ h.land 0xffffffff < 2 ^ 32 := by
    have := (w32 h).isLt
    rw [land_mask]
    omega
  simp only [xPack, h1, and_self, if_true]
  rfl

theorem pack_length {n : Nat} (h : n < 2 ^ 61) : xPack [.str "<Q".toList, .int (8 * (n : Int))] [] = pure (.bytes (toLE 8 (8 * n))) := by
  have h1 : (0 : Int) ≤ 8 * (n : Int) ∧ (8 : Int) * n < 2 ^ 64 := by omega
  have h2 : ((8 : Int) * n).toNat = 8 * n := by omega
  simp only [xPack, h1, and_self, if_true, h2]
  rfl

theorem tail_nonneg (n : Nat) : ∃ k : Nat, (n : Int).land (Int.lnot 63) = k := ⟨Nat.ldiff n 63, rfl⟩

theorem zeros (n : Nat) : (List.replicate n ([0] : Bytes)).flatten = List.replicate n 0 := by
  induction n with
  | zero => rfl
  | succ n ih => rw [List.replicate_succ, List.flatten_cons, ih]; rfl

theorem ripemd160_eq (b : Bytes) (hb : b.length < 2 ^ 61) : ripemd160_ripemd160 H [.bytes b] [] = pure (.bytes (Ripemd.ripemd160 b)) := by
  have sh : ∀ n : Nat, (n : Int) >>> (6 : Int) = ((n >>> 6 : Nat) : Int) := fun n => rfl
  obtain ⟨t, ht⟩ := tail_nonneg b.length
  unfold ripemd160_ripemd160
  rw [defun_eq]
  ev []
  rw [block_cons]
  ev []
  rw [block_cons]
  ev [sh, range_eq]
  refine blocks_loop1 H b (List.range (b.length >>> 6)) (by simp) Ripemd.init _ ?_ ?_ fun env' h1 h2 => ?_
  · ev []
  · ev []
    rfl
  ev []
  rw [block_cons]
  ev [h1]
  rw [block_cons]
  ev [h1, pack_length hb, ht, slice_from, zeros]
  rw [block_cons]
  ev [sh, range_eq]
  refine blocks_loop2 H (b.drop t ++ ([128] ++ List.replicate (((119 : Int) - b.length).land 63).toNat 0) ++ toLE 8 (8 * b.length))
    (List.range _) (fun k hk => List.mem_range.1 hk) (blocks b Ripemd.init) _ ?_ ?_ fun env'' h3 => ?_
  · ev []
  · ev [h2]
    rfl
  ev []
  rw [block_cons]
  ev [h3]
  simp only [stVal, forEach]
  ev [pack_word]
  simp only [mJoin, mJoin.go]
  ev []
  unfold Ripemd.ripemd160
  simp only [ht]
  rfl

end Bip38.Src
