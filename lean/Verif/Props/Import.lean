import Verif.Lemmas.Import
/-!
# C96: importing the package, in every history of imports

`package` is the module level of all files of `/repo/bip38` (generated), `after package h` the interpreter after a program tried the
imports of the history `h` (latest first), each with its own `Faults`: statements at which something outside raised (an external module
that is not installed, an interrupt, ..).  Failed imports leave modules behind that later imports use again.
-/
namespace Bip38.Import

/-- The modules of the package. -/
def modules : List Mod := package.map (·.1)

/-- If nothing raises from outside, importing any module of the package succeeds, whatever was imported or failed before, and afterwards
every module of the package is loaded. -/
theorem C96_import (h : List (Mod × Faults)) (m : Mod) (hm : m ∈ modules) :
    Imported package Faults.none m (after package h) := by
  obtain ⟨-, -, -, h4⟩ := attempt_spec package_sound Faults.none m (after_inv package_sound h)
  unfold Imported
  cases e : (attempt package Faults.none m (after package h)).2 with
  | none => rfl
  | some x =>
    exfalso
    rcases h4 x e with ⟨p, i, -, h⟩ | ⟨a, h1, h2, -, h3⟩
    · simp [Faults.none] at h
    · have hp : (package.lookup m).isSome := by
        obtain ⟨q, hq, rfl⟩ := List.mem_map.mp hm
        have : ∀ q ∈ package.map (·.1), (package.lookup q).isSome := by decide +kernel
        exact this _ (List.mem_map_of_mem hq)
      have := package_sound.parents m hp a h1 h2
      simp [h3] at this

/-- An import of a module of the package fails only with what was raised from outside: never because a name is missing or because modules
import each other. -/
theorem C96_only_faults (h : List (Mod × Faults)) (F : Faults) (m : Mod) (hm : m ∈ modules) (e : Exc)
    (he : (attempt package F m (after package h)).2 = some e) :
    ∃ p i, e = .fault p i ∧ (F.before p i = true ∨ F.after p i = true) := by
  obtain ⟨-, -, -, h4⟩ := attempt_spec package_sound F m (after_inv package_sound h)
  rcases h4 e he with h | ⟨a, h1, h2, -, h3⟩
  · exact h
  · exfalso
    have hp : (package.lookup m).isSome := by
      have : ∀ q ∈ package.map (·.1), (package.lookup q).isSome := by decide +kernel
      exact this _ hm
    have := package_sound.parents m hp a h1 h2
    simp [h3] at this

/-- `x`, or a package that contains it, is named in a `from` statement of `m`. -/
private def edge (m x : Mod) : Bool :=
  match package.lookup m with
  | some t => (t.binds m).any fun b => match b.2 with
    | .taken z _ => isInternal z && x.isPrefixOf z && !x.isEmpty && !x.isPrefixOf m
    | _ => false
  | none => false

private theorem edge_loaded {s : State} (hI : Inv package [] s) {m x : Mod} (hm : s.mods m ≠ none) (h : edge m x = true) :
    s.mods x ≠ none := by
  obtain ⟨ns, hns⟩ := Option.ne_none_iff_exists'.mp hm
  obtain ⟨t, ht, hR⟩ := hI m ns hns (by simp)
  simp only [edge, ht, List.any_eq_true] at h
  obtain ⟨⟨n, b⟩, hb, h⟩ := h
  cases b with
  | here => cases h
  | module => cases h
  | taken z y =>
    simp only [Bool.and_eq_true, Bool.not_eq_true', List.isPrefixOf_iff_prefix] at h
    obtain ⟨⟨⟨h1, h2⟩, h3⟩, h4⟩ := h
    have := hR _ hb
    simp only [Right, if_pos h1] at this
    rcases this.2.2.2 x (fun e => by simp [e] at h3) h2 with h | h
    · have := List.isPrefixOf_iff_prefix.mpr h; simp [this] at h4
    · exact h.2

/-- After a successful import of any module of the package, all its modules are loaded. -/
theorem C96_all_loaded (h : List (Mod × Faults)) (F : Faults) (m : Mod) (hm : m ∈ modules)
    (hi : Imported package F m (after package h)) (x : Mod) (hx : x ∈ modules) :
    ∃ ns, (attempt package F m (after package h)).1.has x ns := by
  obtain ⟨hI, -, h3, -⟩ := attempt_spec package_sound F m (after_inv package_sound h)
  have root : (attempt package F m (after package h)).1.mods ["bip38"] ≠ none := by
    refine h3 hi _ (by simp) ?_
    have : ∀ q ∈ package.map (·.1), (["bip38"] : Mod).isPrefixOf q = true := by decide +kernel
    exact List.isPrefixOf_iff_prefix.mp (this _ hm)
  have main := edge_loaded hI root (x := ["bip38", "bip38"]) (by decide +kernel)
  have curve := edge_loaded hI main (x := ["bip38", "secp256k1"]) (by decide +kernel)
  have hash := edge_loaded hI main (x := ["bip38", "crypto"]) (by decide +kernel)
  have all : ∀ q ∈ package.map (·.1), q = ["bip38"] ∨ edge ["bip38"] q = true ∨ edge ["bip38", "bip38"] q = true ∨
      edge ["bip38", "secp256k1"] q = true ∨ edge ["bip38", "crypto"] q = true := by decide +kernel
  refine Option.ne_none_iff_exists'.mp ?_
  rcases all x hx with rfl | h | h | h | h
  · exact root
  · exact edge_loaded hI root h
  · exact edge_loaded hI main h
  · exact edge_loaded hI curve h
  · exact edge_loaded hI hash h

/-- In every history: names of loaded modules that stand for the same thing are one object, the one the text says. -/
theorem C96_one_object (h : List (Mod × Faults)) {m m' : Mod} {ns ns' : Ns} {n n' : String} {site : Site}
    (hm : (after package h).has m ns) (hm' : (after package h).has m' ns') (hn : Denotes package m n site)
    (hn' : Denotes package m' n' site) : ∃ o, o.site = site ∧ ns n = some o ∧ ns' n' = some o := by
  obtain ⟨⟨o, h1, h2⟩, h3⟩ := (after_inv package_sound h).denotes hn ns hm
  obtain ⟨-, h3'⟩ := (after_inv package_sound h).denotes hn' ns' hm'
  refine ⟨o, h2, h1, ?_⟩
  cases site with
  | own x y =>
    obtain ⟨a, a1, a2⟩ := h3
    obtain ⟨b, b1, b2⟩ := h3'
    rw [a1] at b1; cases b1
    rw [b2, ← a2, h1]
  | module x => rw [h3', ← h3, h1]
  | external x y => rw [h3', ← h3, h1]
  | submodule x => rw [h3', ← h3, h1]

/-- The names the `except` clauses of the package name, and the classes raised in the modules below them, are the same objects. -/
theorem C96_except (h : List (Mod × Faults)) {ns ns' : Ns} (hm : (after package h).has ["bip38", "bip38"] ns) (m : Mod)
    (hmem : m ∈ ([["bip38", "secp256k1", "point"], ["bip38", "secp256k1", "public_key"], ["bip38", "secp256k1", "private_key"],
      ["bip38", "wif"], ["bip38", "exceptions"]] : List Mod))
    (hm' : (after package h).has m ns') : ∃ o, ns "Secp256k1Error" = some o ∧ ns' "Secp256k1Error" = some o := by
  have all : ∀ q ∈ ([["bip38", "bip38"], ["bip38", "secp256k1", "point"], ["bip38", "secp256k1", "public_key"],
      ["bip38", "secp256k1", "private_key"], ["bip38", "wif"], ["bip38", "exceptions"]] : List Mod),
      denote package 9 q "Secp256k1Error" = some (.own ["bip38", "exceptions"] "Secp256k1Error") := by decide +kernel
  obtain ⟨o, -, h1, h2⟩ := C96_one_object h hm hm' (denotes_of (all _ List.mem_cons_self))
    (denotes_of (all m (List.mem_cons_of_mem _ hmem)))
  exact ⟨o, h1, h2⟩

/-- What a program has from an import stays what every later import gives. -/
theorem C96_kept (h later : List (Mod × Faults)) {m : Mod} {ns : Ns} {n : String} {site : Site} (hm : (after package h).has m ns)
    (hn : Denotes package m n site) : ∃ ns', (after package (later ++ h)).has m ns' ∧ ns' n = ns n := by
  have hext : Ext package (after package h) (after package (later ++ h)) := by
    induction later with
    | nil => exact Ext.refl _
    | cons a l ih => exact ih.trans (attempt_spec package_sound a.2 a.1 (after_inv package_sound (l ++ h))).2.1
  obtain ⟨ns', h1, h2⟩ := hext m ns hm
  refine ⟨ns', h1, h2 n ?_⟩
  have hb : ∃ t, package.lookup m = some t ∧ n ∈ (t.binds m).map (·.1) := by
    cases hn with
    | here ht hb => exact ⟨_, ht, List.mem_map_of_mem hb⟩
    | module ht hb => exact ⟨_, ht, List.mem_map_of_mem hb⟩
    | external ht hb _ => exact ⟨_, ht, List.mem_map_of_mem hb⟩
    | taken ht hb _ _ => exact ⟨_, ht, List.mem_map_of_mem hb⟩
  obtain ⟨t, ht, hb⟩ := hb
  exact package_sound.child m t ht n hb

/-- No function of the package can raise `NameError` for a global name: in a loaded module, each name a function takes from outside is
bound or built in. -/
theorem C96_reads (h : List (Mod × Faults)) {m : Mod} {ns : Ns} (hm : (after package h).has m ns) {f : String} {names : List String}
    (hf : (m, f, names) ∈ reads) {n : String} (hn : n ∈ names) : n ∈ builtins ∨ ∃ o, ns n = some o := by
  have all : ∀ r ∈ reads, ∀ n ∈ r.2.2, builtins.contains n = true ∨ (denote package 9 r.1 n).isSome = true := by decide +kernel
  rcases all _ hf n hn with h' | h'
  · exact .inl (List.contains_iff_mem.mp h')
  · obtain ⟨site, hs⟩ := Option.isSome_iff_exists.mp h'
    obtain ⟨⟨o, ho, -⟩, -⟩ := (after_inv package_sound h).denotes (denotes_of hs) ns hm
    exact .inr ⟨o, ho⟩

/-- The translation of the function bodies (C81–C95) took each name for what it is at run time. -/
theorem C96_links (h : List (Mod × Faults)) {m : Mod} {ns : Ns} (hm : (after package h).has m ns) {n : String} {site : Site}
    (hl : (m, n, site) ∈ links) : ∃ o, ns n = some o ∧ o.site = site := by
  have all : ∀ r ∈ links, denote package 9 r.1 r.2.1 = some r.2.2 := by decide +kernel
  exact ((after_inv package_sound h).denotes (denotes_of (all _ hl)) ns hm).1

/-- The public names of the package stand for the class and the texts they are documented to stand for. -/
theorem C96_public (h : List (Mod × Faults)) {ns : Ns} (hm : (after package h).has ["bip38"] ns) {n : String} {x : Mod}
    (hn : (n, x) ∈ ([("BIP38", ["bip38", "bip38"]), ("__version__", ["bip38", "info"]), ("__name__", ["bip38", "info"]),
      ("__license__", ["bip38", "info"]), ("__author__", ["bip38", "info"]), ("__email__", ["bip38", "info"]),
      ("__documentation__", ["bip38", "info"]), ("__description__", ["bip38", "info"]), ("__url__", ["bip38", "info"]),
      ("__tracker__", ["bip38", "info"]), ("__keywords__", ["bip38", "info"])] : List (String × Mod))) :
    ∃ o nsx, (after package h).has x nsx ∧ ns n = some o ∧ nsx n = some o ∧ o.site = .own x n := by
  have all : ∀ r ∈ ([("BIP38", ["bip38", "bip38"]), ("__version__", ["bip38", "info"]), ("__name__", ["bip38", "info"]),
      ("__license__", ["bip38", "info"]), ("__author__", ["bip38", "info"]), ("__email__", ["bip38", "info"]),
      ("__documentation__", ["bip38", "info"]), ("__description__", ["bip38", "info"]), ("__url__", ["bip38", "info"]),
      ("__tracker__", ["bip38", "info"]), ("__keywords__", ["bip38", "info"])] : List (String × Mod)),
      denote package 9 ["bip38"] r.1 = some (.own r.2 r.1) := by decide +kernel
  obtain ⟨⟨o, h1, h2⟩, nsx, h3, h4⟩ := (after_inv package_sound h).denotes (denotes_of (all _ hn)) ns hm
  exact ⟨o, nsx, h3, h1, h4 ▸ h1, h2⟩

/-! ## A history with failures -/

/-- `scrypt` is not installed: the third statement of `bip38/bip38.py` (line 12) raises. -/
def noScrypt : Faults := ⟨fun m i => m == ["bip38", "bip38"] && i == 2, fun _ _ => false⟩

/-- Ctrl-C while `bip38/secp256k1/public_key.py` runs its fifth statement. -/
def interrupted : Faults := ⟨fun m i => m == ["bip38", "secp256k1", "public_key"] && i == 4, fun _ _ => false⟩

/-- The first import fails for want of `scrypt` and the second is interrupted; `bip38.secp256k1.point` stays loaded although its packages
do not; the third import succeeds, and takes `Point` from the module the second attempt left, while `bip38.info`, whose names the first
attempt left, is not executed again. -/
example :
    (attempt package noScrypt ["bip38"] .empty).2 = some (.fault ["bip38", "bip38"] 2) ∧
    (attempt package interrupted ["bip38", "wif"] (after package [(["bip38"], noScrypt)])).2 =
      some (.fault ["bip38", "secp256k1", "public_key"] 4) ∧
    ((after package [(["bip38", "wif"], interrupted), (["bip38"], noScrypt)]).mods ["bip38", "secp256k1", "point"]).isSome = true ∧
    ((after package [(["bip38", "wif"], interrupted), (["bip38"], noScrypt)]).mods ["bip38"]).isNone = true ∧
    (attempt package .none ["bip38", "wif"] (after package [(["bip38", "wif"], interrupted), (["bip38"], noScrypt)])).2 = none ∧
    (((after package [(["bip38", "wif"], .none), (["bip38", "wif"], interrupted), (["bip38"], noScrypt)]).mods
        ["bip38", "secp256k1"]).bind (· "Point")) =
      (((after package [(["bip38", "wif"], interrupted), (["bip38"], noScrypt)]).mods ["bip38", "secp256k1", "point"]).bind (· "Point")) := by
  decide +kernel

/-- A package in which two modules take names from each other does not have these properties: there the outcome depends on what is
imported first. -/
example :
    let cyclic : Program := [(["bip38"], ⟨true, []⟩), (["bip38", "a"], ⟨false, [.from 1 ["b"] [("f", "f")], .bind "g" []]⟩),
      (["bip38", "b"], ⟨false, [.bind "f" [], .from 1 ["a"] [("g", "g")]]⟩)]
    (attempt cyclic .none ["bip38", "a"] .empty).2 = some (.cannotImport ["bip38", "a"] "g") ∧
    (attempt cyclic .none ["bip38", "b"] .empty).2 = none := by
  decide +kernel

end Bip38.Import
