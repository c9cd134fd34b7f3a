import Verif.Lemmas.Cookie
/-!
# Properties C10 – C13: where intermediate files are put

`genCookie` models `gen_cookie` (object paths, extension `o`), `linkCookie` the product path computed by
`prep_link`.  `sg` says whether `char` is signed on the platform; all theorems hold for both.
-/

namespace Bob

/-! ## Specification vocabulary -/

/-- `p` is a direct child of directory `dir`: `dir`, a slash, and one proper file-name component. -/
def ChildOf (dir p : Bytes) : Prop :=
  ∃ name, p = dir ++ SLASH :: name ∧ name ≠ [] ∧ SLASH ∉ name ∧ name ≠ b!"." ∧ name ≠ b!".."

/-- Two paths of equal length which agree everywhere except that one may have `/` where the other has `_`. -/
def SameUpToSlash (p q : Bytes) : Prop :=
  p.length = q.length ∧ ∀ i (h : i < p.length) (h' : i < q.length),
    p[i] = q[i] ∨ (p[i] = SLASH ∧ q[i] = UNDERSCORE) ∨ (p[i] = UNDERSCORE ∧ q[i] = SLASH)

theorem map_foldSlash_eq_iff (p q : Bytes) : p.map foldSlash = q.map foldSlash ↔ SameUpToSlash p q := by
  constructor
  · intro h
    have hl : p.length = q.length := by simpa using congrArg List.length h
    refine ⟨hl, fun i h1 h2 => (foldSlash_eq_iff _ _).mp ?_⟩
    have := List.getElem_of_eq h (i := i) (by simpa using h1)
    simpa using this
  · rintro ⟨hl, h⟩
    apply List.ext_getElem (by simpa using hl)
    intro i h1 h2
    simp only [List.getElem_map]
    exact (foldSlash_eq_iff _ _).mpr (h i (by simpa using h1) (by simpa using h2))

/-! ## C10 -/

/-- **C10.** The object path of any source path is a direct child of `<out>/bob`: whatever slashes or
`..` components the source path has, nothing is ever placed elsewhere. -/
theorem C10_object_inside_output (sg : Bool) (out path ext : Bytes) (hext : SLASH ∉ ext) :
    ChildOf (out ++ b!"/bob") (genCookie sg out path ext) := by
  refine ⟨path.map foldSlash ++ b!".cookie." ++ hex (strHash sg path) ++ b!"." ++ ext, ?_, ?_, ?_, ?_, ?_⟩
  · simp [genCookie]
  · simp
  · simp only [List.mem_append, not_or]
    refine ⟨⟨⟨⟨?_, by decide⟩, ?_⟩, by decide⟩, hext⟩
    · intro h
      obtain ⟨c, _, hc⟩ := List.mem_map.mp h
      unfold foldSlash at hc
      split at hc
      · exact absurd hc (by decide)
      · contradiction
    · exact fun h => (hex_mem h).2.1 rfl
  · intro h
    have := congrArg List.length h
    simp at this; omega
  · intro h
    have := congrArg List.length h
    simp at this; omega

/-- Non-trivial instance: a source outside the project. -/
example : genCookie true b!".bob" b!"../../etc/x.c" b!"o" = b!".bob/bob/.._.._etc_x.c.cookie.d038343f749335af.o" := by
  decide +kernel

/-- **C10** for link products. -/
theorem C10_link_inside_output (sg : Bool) (out : Bytes) (ar : Bool) (srcs : List Bytes) :
    ChildOf (out ++ b!"/bob") (linkCookie sg out ar srcs) := by
  refine ⟨b!"linker." ++ (if ar then b!"archive" else b!"link") ++ b!".cookie." ++
    hex (linkHash sg srcs) ++ b!"." ++ (if ar then b!"a" else b!"l"), ?_, ?_, ?_, ?_, ?_⟩
  · simp [linkCookie]
  · simp
  · simp only [List.mem_append, not_or]
    refine ⟨⟨⟨⟨⟨by decide, ?_⟩, by decide⟩, ?_⟩, by decide⟩, ?_⟩
    · cases ar <;> decide
    · exact fun h => (hex_mem h).2.1 rfl
    · cases ar <;> decide
  · intro h
    have := congrArg List.length h
    simp at this
  · intro h
    have := congrArg List.length h
    simp at this

example : linkCookie true b!".bob" false [b!"a.o", b!"b.o"] = b!".bob/bob/linker.link.cookie.fc7.l" := by
  decide +kernel

/-! ## C11 -/

/-- **C11 (exact form).** Two sources share an object path precisely when the paths differ at most in `/`
versus `_` and have the same 64-bit hash. -/
theorem C11_object_shared_iff (sg : Bool) (out p q ext : Bytes) :
    genCookie sg out p ext = genCookie sg out q ext ↔ SameUpToSlash p q ∧ strHash sg p = strHash sg q := by
  rw [genCookie_eq_iff, map_foldSlash_eq_iff]

/-- **C11 (partial).** Different sources get different objects if the part in which their paths differ is
at most 12 bytes long.  (Missing from the full claim: paths differing in `/` versus `_` at positions further
apart, see `C11_distinct_sources_false`.) -/
theorem C11_distinct_sources_partial (sg : Bool) (out ext pre x y suf : Bytes)
    (hlen : x.length ≤ 12) (hne : x ≠ y) :
    genCookie sg out (pre ++ x ++ suf) ext ≠ genCookie sg out (pre ++ y ++ suf) ext := by
  intro h
  obtain ⟨hf, hh⟩ := (genCookie_eq_iff ..).mp h
  simp only [List.map_append, List.append_assoc] at hf
  have hf2 := List.append_cancel_left hf
  have hl : x.length = y.length := by simpa using congrArg List.length hf2
  have hf3 : x.map foldSlash = y.map foldSlash := (List.append_inj hf2 (by simpa using hl)).1
  unfold strHash at hh
  rw [strHashFrom_append, strHashFrom_append, strHashFrom_append, strHashFrom_append] at hh
  have hpre : strHashFrom sg 5381 pre < M64 := strHashFrom_lt sg pre _ (by decide)
  have hmid := strHashFrom_inj sg suf _ _ (strHashFrom_lt sg x _ hpre) (strHashFrom_lt sg y _ hpre) hh
  generalize strHashFrom sg 5381 pre = h0 at hmid
  have e1 := strHashFrom_reverse sg h0 x.reverse
  have e2 := strHashFrom_reverse sg h0 y.reverse
  simp only [List.reverse_reverse, List.length_reverse] at e1 e2
  rw [hmid, e2, hl] at e1
  obtain ⟨b1, b2, b3⟩ := hnr_window sg x.reverse y.reverse (by simpa using congrArg List.reverse hf3)
  simp only [List.length_reverse] at b1 b2
  have hp : 33 ^ x.length ≤ 33 ^ 12 := Nat.pow_le_pow_right (by decide) hlen
  generalize hP : 33 ^ x.length = P at *
  have hM : M64 = 18446744073709551616 := by decide
  rw [hM] at e1
  have hp' : P ≤ 1667889514952984961 := hp
  apply hne
  have : x.reverse = y.reverse := b3 (by omega)
  exact List.reverse_inj.mp this

/-- Instance: `a/b.c` and `a_b.c` differ in one byte only. -/
example : genCookie true b!".bob" b!"src/a/b.c" b!"o" ≠ genCookie true b!".bob" b!"src/a_b.c" b!"o" :=
  C11_distinct_sources_partial true _ _ b!"src/a" b!"/" b!"_" b!"b.c" (by decide) (by decide)

/-- **C11 (partial).** Different sources whose paths contain no underscore always get different objects. -/
theorem C11_distinct_sources_no_underscore_partial (sg : Bool) (out ext p q : Bytes)
    (hp : UNDERSCORE ∉ p) (hq : UNDERSCORE ∉ q) (hne : p ≠ q) :
    genCookie sg out p ext ≠ genCookie sg out q ext := by
  intro h
  obtain ⟨⟨hl, hs⟩, _⟩ := (C11_object_shared_iff ..).mp h
  apply hne
  apply List.ext_getElem hl
  intro i h1 h2
  rcases hs i h1 h2 with e | ⟨_, e⟩ | ⟨e, _⟩
  · exact e
  · exact absurd (e ▸ List.getElem_mem h2) hq
  · exact absurd (e ▸ List.getElem_mem h1) hp

example : UNDERSCORE ∉ b!"src/a/b.c" ∧ UNDERSCORE ∉ b!"src/a.b.c" ∧ b!"src/a/b.c" ≠ b!"src/a.b.c" := by decide

/-- The two paths of a collision (found by a four-list birthday search). -/
def collisionA : Bytes := b!"a/a/a_a_a/a_a/a/a_a/a/a_a/a/a_a/a/a/a/a/a/a/a_a_a/a/a/a/a/a/a_a/a/a/a/a/a/a/a/a_a/a/a/a_a/a/a_a/a/a_a/a/a.c"
def collisionB : Bytes := b!"a_a/a/a/a_a/a_a/a/a_a/a/a_a_a/a/a/a/a/a_a/a/a/a/a/a_a/a/a/a/a/a/a/a_a/a_a/a/a/a/a/a/a_a/a/a/a/a_a/a/a_a/a.c"

/-- **C11 is false in general**: two different source paths with the same object path, on every platform and
for every output directory. -/
theorem C11_distinct_sources_false :
    ∃ p q : Bytes, p ≠ q ∧ ∀ sg out ext, genCookie sg out p ext = genCookie sg out q ext := by
  refine ⟨collisionA, collisionB, by decide, ?_⟩
  intro sg out ext
  rw [genCookie_eq_iff]
  refine ⟨by decide, ?_⟩
  cases sg <;> decide +kernel

/-! ## C12 -/

/-- **C12.** The product path does not depend on the order of the inputs. -/
theorem C12_link_order_irrelevant (sg : Bool) (out : Bytes) (ar : Bool) {l l' : List Bytes} (h : l.Perm l') :
    linkCookie sg out ar l = linkCookie sg out ar l' :=
  (linkCookie_eq_iff ..).mpr (linkHash_perm sg h)

example : [b!"a.o", b!"b.o", b!"c.o"].Perm [b!"c.o", b!"a.o", b!"b.o"] := by decide

/-! ## C13 -/

/-- **C13 is false**: an input given twice cancels out, whatever the other inputs are. -/
theorem C13_duplicate_inputs_cancel (sg : Bool) (out : Bytes) (ar : Bool) (a : Bytes) (l : List Bytes) :
    linkCookie sg out ar (a :: a :: l) = linkCookie sg out ar l := by
  rw [linkCookie_eq_iff, linkHash_cons, linkHash_cons, ← Nat.xor_assoc, Nat.xor_self, Nat.zero_xor]

/-- **C13 is false** as stated. -/
theorem C13_distinct_inputs_false :
    ∃ l l' : List Bytes, ¬ l.Perm l' ∧ ∀ sg out ar, linkCookie sg out ar l = linkCookie sg out ar l' :=
  ⟨[b!"a.o", b!"a.o", b!"b.o"], [b!"b.o"], by decide, fun _ _ _ => C13_duplicate_inputs_cancel ..⟩

/-- **C13 (partial).** Exchanging one input for another one (the other inputs being the same in any order)
changes the product path, exactly if the two inputs have different hashes.  (Missing: inputs with equal
hashes, and calls differing in more than one input.) -/
theorem C13_replace_one_input_partial (sg : Bool) (out : Bytes) (ar : Bool) (a b : Bytes) (l l' : List Bytes)
    (h : l.Perm l') :
    linkCookie sg out ar (a :: l) ≠ linkCookie sg out ar (b :: l') ↔ strHash sg a ≠ strHash sg b := by
  rw [Ne, linkCookie_eq_iff, linkHash_cons, linkHash_cons, linkHash_perm sg h]
  constructor
  · intro h1 h2; exact h1 (by rw [h2])
  · intro h1 h2
    have h3 : (strHash sg a ^^^ linkHash sg l') ^^^ linkHash sg l' =
        (strHash sg b ^^^ linkHash sg l') ^^^ linkHash sg l' := by rw [h2]
    exact h1 (by simpa [Nat.xor_assoc] using h3)

example : strHash true b!"a.o" ≠ strHash true b!"b.o" := by decide +kernel

/-- **C13 (partial).** Leaving one input out changes the product path unless that input's hash is zero. -/
theorem C13_drop_one_input_partial (sg : Bool) (out : Bytes) (ar : Bool) (a : Bytes) (l : List Bytes) :
    linkCookie sg out ar (a :: l) ≠ linkCookie sg out ar l ↔ strHash sg a ≠ 0 := by
  rw [Ne, linkCookie_eq_iff, linkHash_cons]
  constructor
  · intro h1 h2; exact h1 (by simp [h2])
  · intro h1 h2
    apply h1
    have h3 : (strHash sg a ^^^ linkHash sg l) ^^^ linkHash sg l = linkHash sg l ^^^ linkHash sg l := by rw [h2]
    simpa [Nat.xor_assoc] using h3

/-- Objects, archives and linked products never share a path (extension `o`, `a`, `l`). -/
theorem C14_kinds_never_clash (sg : Bool) (out p : Bytes) (l l' : List Bytes) :
    genCookie sg out p b!"o" ≠ linkCookie sg out false l ∧
    genCookie sg out p b!"o" ≠ linkCookie sg out true l ∧
    linkCookie sg out false l ≠ linkCookie sg out true l' := by
  have key : ∀ (x y : Bytes) (c d : UInt8), x ++ [c] = y ++ [d] → c = d := by
    intro x y c d h
    have := congrArg List.getLast? h
    simpa using this
  refine ⟨?_, ?_, ?_⟩
  · intro h; exact absurd (key _ _ _ _ h) (by decide)
  · intro h; exact absurd (key _ _ _ _ h) (by decide)
  · intro h; exact absurd (key _ _ _ _ h) (by decide)

end Bob
