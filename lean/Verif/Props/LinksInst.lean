import Verif.Props.Links
/-!
# C125: samples and what is false
-/

namespace Bob.LinksDemo

deriving instance DecidableEq for Except

def lib1 : Bytes := b!"code"

/-- A project `/w` with a library `l.so.1`, links to it, a file `a`, and a directory `d` with a link in it; in `/p/bin`, `a` is a link to `/etc/a`;
`/p/sbin` is a link to `/etc`, and `/p/gone` leads nowhere. -/
def nodes : List (Path × LNode) :=
  [([], .dir 1),
    ([b!"w"], .dir 1),
    ([b!"w", b!"d"], .dir 1),
    ([b!"w", b!".bob"], .dir 1),
    ([b!"p"], .dir 1),
    ([b!"p", b!"bin"], .dir 1),
    ([b!"etc"], .dir 1),
    ([b!"w", b!"l.so.1"], .file lib1 5),
    ([b!"w", b!"l.so"], .link b!"l.so.1" 5),
    ([b!"w", b!"abs.so"], .link b!"/w/l.so.1" 5),
    ([b!"w", b!"a"], .file b!"mine" 5),
    ([b!"w", b!"d", b!"x"], .link b!"../a" 5),
    ([b!"w", b!"e"], .link b!"d" 5),
    ([b!"w", b!".bob", b!"o"], .file b!"out" 5),
    ([b!"w", b!"o"], .link b!".bob/o" 5),
    ([b!"etc", b!"a"], .file b!"yours" 2),
    ([b!"p", b!"bin", b!"a"], .link b!"/etc/a" 2),
    ([b!"p", b!"bin", b!"abs.so"], .link b!"/w/l.so.1" 5),
    ([b!"p", b!"sbin"], .link b!"/etc" 5),
    ([b!"p", b!"gone"], .link b!"/nowhere" 5)]

def tree : LTree := fun p => (nodes.find? (·.1 = p)).map (·.2)

def env : LInstEnv where
  deny := ⟨fun _ => false, fun _ _ => none⟩
  cwd := [b!"w"]
  absOut := b!"/w/.bob"
  pre := b!"/p"

/-- The tree, if it was copied. -/
def after (key val : Bytes) : Option LTree := match linstallSingle env key val false 9 tree with | .copied t => some t | _ => none

theorem after_some {key val : Bytes} {t' : LTree} (h : after key val = some t') : linstallSingle env key val false 9 tree = .copied t' := by
  unfold after at h
  split at h
  · rename_i ht
    cases h
    exact ht
  · cases h

/-- `C125_file_partial`: the directory is made, and the file is there. -/
example : ∃ t', after b!"a" b!"share/a" = some t' ∧ t'.Reads env.cwd b!"/p/share/a" b!"mine" := by
  have h : (after b!"a" b!"share/a").isSome := by decide +kernel
  obtain ⟨t', ht'⟩ := Option.isSome_iff_exists.1 h
  have hs : ((after b!"a" b!"share/a").map fun t => t.stat true env.cwd b!"/p/share/a") = some (.ok ([b!"p", b!"share", b!"a"], .file b!"mine" 9)) := by decide +kernel
  rw [ht'] at hs
  refine ⟨t', ht', (C125_file_partial (after_some ht') ⟨[b!"w", b!"a"], 5, by decide +kernel⟩ ?_).1⟩
  rintro ⟨p, m, hp⟩
  have hs : t'.stat true env.cwd (env.pre ++ b!"/" ++ cstr b!"share/a") = .ok ([b!"p", b!"share", b!"a"], .file b!"mine" 9) := Option.some.inj hs
  rw [hs] at hp
  cases hp

/-- A relative link that is installed leads nowhere, though the key can be read and installing has succeeded: what `C125_file_partial` says is not so for links. -/
theorem C125_link_false : ¬ ∀ (e : LInstEnv) (key val c : Bytes) (now : Nat) (t t' : LTree), linstallSingle e key val false now t = .copied t' → t.Reads e.cwd (cstr key) c →
    ¬ t'.LeadsToDir e.cwd (e.pre ++ b!"/" ++ cstr val) → t'.Reads e.cwd (e.pre ++ b!"/" ++ cstr val) c := by
  intro hall
  have h : (after b!"l.so" b!"lib/l.so").isSome := by decide +kernel
  obtain ⟨t', ht'⟩ := Option.isSome_iff_exists.1 h
  have hs : ((after b!"l.so" b!"lib/l.so").map fun t => t.stat true env.cwd b!"/p/lib/l.so") = some (.error .noent) := by decide +kernel
  rw [ht'] at hs
  have hs : t'.stat true env.cwd (env.pre ++ b!"/" ++ cstr b!"lib/l.so") = .error .noent := Option.some.inj hs
  obtain ⟨p, m, hp⟩ := hall env b!"l.so" b!"lib/l.so" lib1 9 tree t' (after_some ht') ⟨[b!"w", b!"l.so.1"], 5, by decide +kernel⟩ (by
    rintro ⟨p, m, hp⟩
    rw [hs] at hp
    cases hp)
  rw [hs] at hp
  cases hp

/-- Installing does not keep to what is below the prefix: a link there is written through. -/
theorem C125_outside_false : ¬ ∀ (e : LInstEnv) (key val : Bytes) (now : Nat) (t t' : LTree), linstallSingle e key val false now t = .copied t' →
    ∀ p, ¬ e.pre <+: pathStr p → ∀ c m, t p = some (.file c m) → t' p = some (.file c m) := by
  intro hall
  have h : (after b!"a" b!"bin/a").isSome := by decide +kernel
  obtain ⟨t', ht'⟩ := Option.isSome_iff_exists.1 h
  have hs : ((after b!"a" b!"bin/a").map fun t => t [b!"etc", b!"a"]) = some (some (.file b!"mine" 9)) := by decide +kernel
  rw [ht'] at hs
  have h' := hall env b!"a" b!"bin/a" 9 tree t' (after_some ht') [b!"etc", b!"a"] (by decide +kernel) b!"yours" 2 (by decide +kernel)
  have hs : t' [b!"etc", b!"a"] = some (.file b!"mine" 9) := Option.some.inj hs
  rw [hs] at h'
  revert h'
  decide

/-- `C125_link`: nothing was there, and now there is a link with the same target. -/
example : ∃ t', after b!"l.so" b!"lib/l.so" = some t' ∧ ∃ d, t'.IsLink env.cwd b!"/p/lib/l.so" b!"l.so.1" d := by
  have h : (after b!"l.so" b!"lib/l.so").isSome := by decide +kernel
  obtain ⟨t', ht'⟩ := Option.isSome_iff_exists.1 h
  have h1 : ∀ f, (lmkdirs env.deny env.cwd 9 (destBits (cstr b!"lib/l.so")) env.pre tree).1.stat f env.cwd (env.pre ++ b!"/" ++ cstr b!"lib/l.so") = .error .noent := by decide +kernel
  refine ⟨t', ht', C125_link (after_some ht') (c := lib1) ⟨[b!"w", b!"l.so.1"], 5, by decide +kernel⟩ ⟨[b!"w"], [b!"w", b!"l.so"], 5, by decide +kernel, rfl⟩ rfl ?_ ?_⟩
  · rintro ⟨p, m, hp⟩
    rw [h1] at hp
    cases hp
  · rintro l d ⟨p, m, hp, -⟩
    rw [h1] at hp
    cases hp

theorem sound : LTree.Sound tree := by
  refine ⟨⟨1, by decide +kernel⟩, fun p n h => ⟨1, ?_⟩⟩
  have hall : ∀ x ∈ nodes, tree x.1.dropLast = some (.dir 1) := by decide +kernel
  obtain ⟨x, hx, -⟩ := Option.map_eq_some_iff.1 h
  have hp : x.1 = p := by simpa using List.find?_some hx
  exact hp ▸ hall x (List.mem_of_find?_eq_some hx)

/-- `C125_same_target`: two links to `/w/l.so.1` in different directories. -/
example {c : Bytes} (h : tree.Reads env.cwd b!"/p/bin/abs.so" c) : c = lib1 := by
  exact C125_same_target sound ⟨1, by decide +kernel⟩ (target := b!"/w/l.so.1") ⟨[b!"p", b!"bin", b!"abs.so"], 5, by decide +kernel, rfl⟩
    (s' := b!"abs.so") ⟨[b!"w", b!"abs.so"], 5, by decide +kernel, rfl⟩ (.inl rfl) h ⟨[b!"w", b!"l.so.1"], 5, by decide +kernel⟩

/-- `C125_absolute_partial`: a link with an absolute target is the same link there, and reads the same. -/
example : (after b!"abs.so" b!"lib/abs.so").map (·.stat false env.cwd b!"/p/lib/abs.so") = some (.ok ([b!"p", b!"lib", b!"abs.so"], .link b!"/w/l.so.1" 9)) ∧
    (after b!"abs.so" b!"lib/abs.so").map (·.stat true env.cwd b!"/p/lib/abs.so") = some (.ok ([b!"w", b!"l.so.1"], .file lib1 5)) ∧
    (after b!"abs.so" b!"lib/abs.so").map (·.stat true env.cwd b!"abs.so") = some (.ok ([b!"w", b!"l.so.1"], .file lib1 5)) := by decide +kernel

/-- `C125_directory`, with a link to a directory: it becomes a directory, and the link in it, which led to `/w/a`, now leads to `/p/a`, where there is nothing. -/
example : (after b!"e" b!"d").map (· [b!"p", b!"d"]) = some (some (.dir 9)) ∧ (after b!"e" b!"d").map (· [b!"p", b!"d", b!"x"]) = some (some (.link b!"../a" 9)) ∧
    (after b!"e" b!"d").map (·.stat true env.cwd b!"e/x") = some (.ok ([b!"w", b!"a"], .file b!"mine" 5)) ∧
    (after b!"e" b!"d").map (·.stat true env.cwd b!"/p/d/x") = some (.error .noent) := by decide +kernel

/-- `C125_already`: the second time, nothing is done for a file. -/
example : ∃ t1, after b!"a" b!"share/a" = some t1 ∧ ∃ t2, linstallSingle env b!"a" b!"share/a" false 11 t1 = .already t2 := by
  have h : ((after b!"a" b!"share/a").map fun t => match linstallSingle env b!"a" b!"share/a" false 11 t with | .already _ => true | _ => false) = some true := by decide +kernel
  cases h1 : after b!"a" b!"share/a" with
  | none => rw [h1] at h; cases h
  | some t1 =>
    rw [h1] at h
    refine ⟨t1, rfl, ?_⟩
    have h := Option.some.inj h
    dsimp only at h
    split at h
    · rename_i t2 h2
      exact ⟨t2, h2⟩
    · cases h

/-- `C125_into_directory`: `/p/sbin` is a link to `/etc`, and `l.so.1` is there then. -/
example : ∃ t', after b!"l.so.1" b!"sbin" = some t' ∧ ∃ w m', t'.walk true 40 [b!"etc"] [b!"l.so.1"] = .ok w ∧ t' w = some (.file lib1 m') := by
  have hs : (after b!"l.so.1" b!"sbin").map (·.stat true env.cwd b!"/p/sbin") = some (.ok ([b!"etc"], .dir 9)) := by decide +kernel
  cases h : after b!"l.so.1" b!"sbin" with
  | none => rw [h] at hs; cases hs
  | some t' =>
    rw [h] at hs
    exact ⟨t', rfl, C125_into_directory (after_some h) (own := [b!"w", b!"l.so.1"]) (m0 := 5) (m := 9) (by decide +kernel) (Option.some.inj hs) (by decide)⟩

/-- `C125_mkdir`: `/p/gone` is left, so that installing in it fails, and `/nowhere` is not made. -/
example : tree.mkdir env.deny env.cwd 9 b!"/p/gone" = some tree ∧
    (match linstallSingle env b!"a" b!"gone/a" false 9 tree with | .failed t => some (t [b!"nowhere"], t [b!"p", b!"gone"]) | _ => none) = some (none, some (.link b!"/nowhere" 5)) :=
  ⟨C125_mkdir (p := [b!"p", b!"gone"]) (n := .link b!"/nowhere" 5) (by decide +kernel), by decide +kernel⟩

/-- `C125_product`: a link to a product is passed over. -/
example : linstallSingle env b!"o" b!"o" false 9 tree = .product :=
  C125_product (p := [b!"w", b!".bob", b!"o"]) (n := .file b!"out" 5) (by decide +kernel) (by decide +kernel)

end Bob.LinksDemo
