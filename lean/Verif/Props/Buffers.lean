import Verif.Lemmas.Buffers
import Verif.Lemmas.Cookie
/-!
# C89: buffers are read and written inside their bounds

The functions of `Verif.Model.Buffers` follow bob's code byte by byte; here they are shown to have no undefined behaviour, and to end with exactly
the strings that the rest of the model takes for granted.  Where they do not, the witness is a theorem ending in `_false`.
-/

namespace Bob.Mem

/-! ## Paths -/

/-- The arrays for the paths of `<out>.flags` and `<out>.deps` have room for the whole path. -/
theorem C89_paths {out : Bytes} (h : NUL ∉ out) : flagsPathBuf out = some (flagsPath out) ∧ depsPathBuf out = some (depsPath out) := by
  have h1 : NUL ∉ out ++ b!".flags" := by
    simp only [List.mem_append, not_or]; exact ⟨h, by decide⟩
  have h2 : NUL ∉ out ++ b!".deps" := by
    simp only [List.mem_append, not_or]; exact ⟨h, by decide⟩
  constructor
  · rw [flagsPathBuf, snprintf_eq (by simp) (by simp [length_fresh])]
    simp only [bind, Option.bind, List.take_zero, List.nil_append]
    rw [strAt_str h1]; rfl
  · rw [depsPathBuf, snprintf_eq (by simp) (by simp [length_fresh])]
    simp only [bind, Option.bind, List.take_zero, List.nil_append]
    rw [strAt_str h2]; rfl

example : flagsPathBuf b!".bob/bob/main.c.o" = some b!".bob/bob/main.c.o.flags" := by decide +kernel

/-- `gen_cookie` stays inside of the string it has made, and the string is the one of the model, if the path has no zero byte and less than two gigabytes. -/
theorem C89_cookie_partial (signed : Bool) {outPath path ext : Bytes} (ho : NUL ∉ outPath) (hp : NUL ∉ path) (he : NUL ∉ ext)
    (hl : path.length < 2147483648) : genCookieBuf signed outPath path ext = some (genCookie signed outPath path ext) := by
  have hload : loadN path.length (ofVal path) = some path := by simpa [ofVal] using loadN_val path []
  simp only [genCookieBuf, starAt_val hl, hload, cstr_eq_self hp, bind, Option.bind]
  have hloop := foldLoop_eq path ((outPath ++ b!"/bob/").map some)
    ((b!".cookie." ++ hex (strHash signed path) ++ b!"." ++ ext).map some ++ [some NUL])
  have e1 : ((outPath ++ b!"/bob/").map (some : UInt8 → Option UInt8)).length = outPath.length + 5 := by simp
  rw [e1] at hloop
  have e2 : ofStr (outPath ++ b!"/bob/" ++ path ++ b!".cookie." ++ hex (strHash signed path) ++ b!"." ++ ext) =
      (outPath ++ b!"/bob/").map some ++ (path.map some ++ ((b!".cookie." ++ hex (strHash signed path) ++ b!"." ++ ext).map some ++ [some NUL])) := by
    simp [ofStr]
  rw [e2, hloop]
  simp only []
  have hx : NUL ∉ genCookie signed outPath path ext := by
    simp only [genCookie, List.mem_append, not_or]
    refine ⟨⟨⟨⟨⟨⟨ho, by decide⟩, ?_⟩, by decide⟩, ?_⟩, by decide⟩, he⟩
    · intro h
      obtain ⟨c, hc, e⟩ := List.mem_map.1 h
      simp only [foldSlash] at e
      split at e
      · exact absurd e (by decide)
      · subst e; exact hp hc
    · intro h
      exact (hex_mem h).2.2 rfl
  have := strAt_str hx []
  rw [← this]
  congr 1
  simp [genCookie]

example : genCookieBuf true b!".bob" b!"src/a.c" b!"o" = some (genCookie true b!".bob" b!"src/a.c" b!"o") :=
  C89_cookie_partial true (by decide) (by decide) (by decide) (by decide)

/-- A path with a zero byte makes the string shorter than the loop believes, and the loop runs past its end. -/
theorem C89_cookie_nul_false (signed : Bool) (outPath p q ext : Bytes) (hp : NUL ∉ p) (hl : (p ++ NUL :: q).length < 2147483648)
    (hq : 9 + (hex (strHash signed (p ++ NUL :: q))).length + ext.length < q.length) :
    genCookieBuf signed outPath (p ++ NUL :: q) ext = none := by
  have hload : loadN (p ++ NUL :: q).length (ofVal (p ++ NUL :: q)) = some (p ++ NUL :: q) := by
    simpa [ofVal] using loadN_val (p ++ NUL :: q) []
  have hc : ∀ {a : Bytes}, NUL ∉ a → cstr (a ++ NUL :: q) = a := by
    intro a
    induction a with
    | nil => simp [cstr]
    | cons c a ih =>
      intro ha
      simp only [List.mem_cons, not_or] at ha
      have hcn : ¬ c = NUL := fun e => ha.1 e.symm
      simp [cstr, hcn, ih ha.2]
  simp only [genCookieBuf, starAt_val hl, hload, hc hp, bind, Option.bind]
  rw [foldLoop_none]
  · simp [ofStr]; omega
  · simp; omega

example : genCookieBuf true b!".bob" (b!"a" ++ NUL :: List.replicate 40 97) b!"o" = none := by decide +kernel

/-! ## Flags -/

/-- The buffer of `frugal_flags` has room for all flags, and what is read of it is the text of the model, for flags of less than two gigabytes. -/
theorem C89_flags_partial {flags : List Bytes} (h : ∀ f ∈ flags, f.length < 2147483648) : flagBuf flags = some (flagText flags) := by
  obtain ⟨b, e, hs⟩ := flagLoop_eq flags [] h (by simp)
  simp only [List.map_nil, List.nil_append, List.length_nil] at e hs
  simp [flagBuf, e, hs]

example : flagBuf [b!"-O2", b!"-g"] = some b!"-O2\n-g\n" := C89_flags_partial (by decide)

/-- The size of a flag is converted to `int`: with two gigabytes or more it is negative, and the flag is read past its end. -/
theorem C89_flags_long_false {f : Bytes} (fs : List Bytes) (hn : NUL ∉ f) (h1 : 2147483648 ≤ f.length) (h2 : f.length < 4294967296) :
    flagBuf (f :: fs) = none := by
  have : f.length % 4294967296 = f.length := Nat.mod_eq_of_lt h2
  have hs : starAt f.length (ofVal f) = none := by
    rw [starAt, this, if_neg (by omega), strAt_none hn]
  simp [flagBuf, flagLoop, hs]

example : ∃ f : Bytes, NUL ∉ f ∧ 2147483648 ≤ f.length ∧ f.length < 4294967296 := by
  have : ∀ n : Nat, ∃ f : Bytes, NUL ∉ f ∧ f.length = n := fun n =>
    ⟨List.replicate n 97, fun h => absurd (List.eq_of_mem_replicate h) (by decide), List.length_replicate⟩
  obtain ⟨f, hn, hl⟩ := this 2147483648
  exact ⟨f, hn, by rw [hl]; decide, by rw [hl]; decide⟩

/-! ## Files -/

/-- A file that has the size that `ftell` says is read whole, with a zero byte behind it. -/
theorem C89_file_partial {content : Bytes} (h : content.length + 1 < 18446744073709551616) : slurp content.length content = some (ofStr content) := by
  have e1 : ((content.length : Int) % 18446744073709551616).toNat = content.length := by
    rw [Int.emod_eq_of_lt (by omega) (by omega)]; simp
  have e2 : (content.length + 1) % 18446744073709551616 = content.length + 1 := Nat.mod_eq_of_lt h
  simp only [slurp, e1, e2, bind, Option.bind, List.take_length]
  rw [copyTo_eq _ _ _ (by rw [length_fresh]; omega), drop_fresh]
  have e3 : content.length + 1 - (0 + content.length) = 1 := by omega
  rw [e3]
  simp only [List.take_zero, List.nil_append]
  have := store_at (content.map some) none NUL []
  simp only [List.length_map] at this
  simpa [fresh, ofStr] using this

/-- … and `strcmp`, `strsep` and `printf` see what the model says. -/
theorem C89_file_read_partial {content : Bytes} (h : content.length + 1 < 18446744073709551616) :
    (slurp content.length content).bind strAt = some (cstr content) := by
  rw [C89_file_partial h]
  exact strAt_cut content []

example : slurp 3 b!"a\nb" = some (ofStr b!"a\nb") := C89_file_partial (content := b!"a\nb") (by decide)

/-- If `ftell` fails (the file is a pipe, say), bytes are written to a block of size 0. -/
theorem C89_unsized_false (content : Bytes) : slurp (-1) content = none := by
  have e1 : ((-1 : Int) % 18446744073709551616).toNat = 18446744073709551615 := by decide
  simp only [slurp, e1, bind, Option.bind]
  have e2 : fresh ((18446744073709551615 + 1) % 18446744073709551616) = [] := by
    have : (18446744073709551615 + 1) % 18446744073709551616 = 0 := by decide
    rw [this]; rfl
  rw [e2]
  cases hc : content.take 18446744073709551615 with
  | nil => simp [copyTo, store]
  | cons c cs => rw [copyTo_none _ _ _ (by simp) (by simp)]

/-- If the file gets shorter between `ftell` and `fread`, bytes that were never written are read. -/
theorem C89_shrunk_false {content : Bytes} {told : Nat} (hn : NUL ∉ content) (h : content.length < told) (ht : told + 1 < 18446744073709551616) :
    (slurp told content).bind strAt = none := by
  have e1 : ((told : Int) % 18446744073709551616).toNat = told := by
    rw [Int.emod_eq_of_lt (by omega) (by omega)]; simp
  have e2 : (told + 1) % 18446744073709551616 = told + 1 := Nat.mod_eq_of_lt ht
  have e3 : content.take told = content := List.take_of_length_le (by omega)
  simp only [slurp, e1, e2, e3, bind, Option.bind]
  rw [copyTo_eq _ _ _ (by rw [length_fresh]; omega), drop_fresh]
  simp only [List.take_zero, List.nil_append]
  rw [store_eq _ (by simp [length_fresh]; omega)]
  simp only []
  obtain ⟨k, hk⟩ : ∃ k, told = content.length + (k + 1) := ⟨told - content.length - 1, by omega⟩
  have e4 : (content.map some ++ fresh (told + 1 - (0 + content.length))).take told = content.map some ++ none :: fresh k := by
    have : told + 1 - (0 + content.length) = (k + 1) + 1 := by omega
    rw [this, List.take_append, List.take_of_length_le (by simp; omega)]
    have : told - (content.map (some : UInt8 → Option UInt8)).length = k + 1 := by simp; omega
    rw [this]
    simp only [fresh, List.take_replicate]
    have : min (k + 1) (k + 1 + 1) = k + 1 := by omega
    rw [this, List.replicate_succ]
  rw [e4]
  have hz : ∀ {s : Bytes} (r : Block), NUL ∉ s → strAt (s.map some ++ none :: r) = none := by
    intro s r
    induction s with
    | nil => simp [strAt]
    | cons c s ih =>
      intro hs
      simp only [List.mem_cons, not_or] at hs
      have hc : ¬ c = NUL := fun e => hs.1 e.symm
      simp [strAt, hc, ih hs.2]
  simpa using hz _ hn

/-! ## Output of commands -/

theorem readLoop_flatten : ∀ (cs : List Bytes) (s : Bytes), readLoop cs (s, s.length) = (s ++ cs.flatten, (s ++ cs.flatten).length)
  | [], s => by simp [readLoop]
  | c :: cs, s => by
    have ih := readLoop_flatten cs (s ++ c)
    have e : s.length + c.length - c.length = s.length := by omega
    simp only [readLoop, e, List.take_length]
    simp only [List.length_append] at ih
    rw [ih]
    simp [List.append_assoc, Nat.add_assoc]

/-- `cmd_read_out` stays inside of its buffers, whatever sizes the pieces read from the pipe have; the block it returns has the output and a zero byte. -/
theorem C89_output (debugging : Bool) {chunks : List Bytes} (sig : Nat) (strsignal : Nat → Bytes) (h : ∀ c ∈ chunks, c.length ≤ 4096) :
    readOutBuf debugging chunks sig strsignal = some (ofStr (cmdReadOut debugging chunks sig strsignal)) := by
  cases debugging with
  | true => simp [readOutBuf, cmdReadOut]
  | false =>
    obtain ⟨y, e⟩ := outLoop_eq chunks [] (some NUL) h
    have e0 : outLoop chunks (ofStr []) 0 = some (chunks.flatten.map some ++ [y], chunks.flatten.length) := by
      simpa [ofStr] using e
    have er : readLoop chunks ([], 0) = (chunks.flatten, chunks.flatten.length) := by simpa using readLoop_flatten chunks []
    have ht : chunks.flatten.take chunks.flatten.length = chunks.flatten := List.take_length
    simp only [readOutBuf, cmdReadOut, Bool.false_eq_true, if_false, e0, er, ht, bind, Option.bind]
    generalize chunks.flatten = s
    by_cases hs : sig ≠ 0
    · rw [if_pos hs, if_pos hs]
      generalize hline : sigLine (strsignal sig) = line
      have hl : loadN line.length (ofStr line) = some line := loadN_val line [some NUL]
      simp only [hl]
      have hg : grow (s.map some ++ [y]) (s.length + line.length + 1) = s.map some ++ y :: fresh line.length := by
        rw [grow_eq (by simp)]; simp
      rw [hg, copyTo_eq _ _ _ (by simp [length_fresh])]
      have e1 : (s.map some ++ y :: fresh line.length).take s.length = s.map some := by
        rw [List.take_append_of_le_length (by simp), List.take_of_length_le (by simp)]
      obtain ⟨z, e2⟩ : ∃ z, (s.map some ++ y :: fresh line.length).drop (s.length + line.length) = [z] := by
        apply List.length_eq_one_iff.1
        simp [length_fresh]; omega
      rw [e1, e2]
      simp only []
      have := store_at ((s ++ line).map some) z NUL []
      simp only [List.length_map, List.length_append] at this
      simpa [ofStr] using this
    · rw [if_neg hs, if_neg hs]
      have := store_at (s.map some) y NUL []
      simp only [List.length_map] at this
      simpa [ofStr] using this

example : readOutBuf false [b!"ab", b!"c"] 11 (fun _ => b!"Segmentation fault") =
    some (ofStr (b!"abc" ++ sigLine b!"Segmentation fault")) := by decide +kernel

/-- Shortening the message of a failed copy by its last byte never writes before the beginning of the string. -/
theorem C89_shorten (out : Bytes) : dropNewlineBuf (ofStr out) = some (dropNewline out) := by
  have hs : strAt (ofStr out) = some (cstr out) := strAt_cut out []
  simp only [dropNewlineBuf, hs, bind, Option.bind, dropNewline]
  rcases List.eq_nil_or_concat (cstr out) with h | ⟨g, l, h⟩
  · simp [h, hs]
  · obtain ⟨r, hr⟩ : ∃ r, ofStr out = g.map some ++ some l :: r := by
      have hpre : ∀ s : Bytes, ∃ r, s.map some ++ [some NUL] = (cstr s).map some ++ r := by
        intro s
        induction s with
        | nil => exact ⟨_, rfl⟩
        | cons c s ih =>
          rw [cstr]
          split
          · exact ⟨_, rfl⟩
          · obtain ⟨r, hr⟩ := ih
            exact ⟨r, by simp [hr]⟩
      obtain ⟨r, hr⟩ := hpre out
      exact ⟨r, by rw [ofStr, hr, h]; simp⟩
    have hgn : NUL ∉ g := fun hm => nul_not_mem_cstr out (by rw [h]; simp [hm])
    have hst := store_at (g.map some) (some l) NUL r
    simp only [List.length_map] at hst
    rw [h, hr]
    have e : (g.concat l).length - 1 = g.length := by simp
    rw [if_pos (by simp), e, hst]
    simp [strAt_str hgn]

example : dropNewlineBuf (ofStr b!"cp: no such file\n") = some b!"cp: no such file" := by decide +kernel

/-! ## Dependencies -/

/-- `get_include_deps` cuts up the output of the compiler in place; it stays inside of the block, ends, and writes the text of the model, whatever the
compiler printed. -/
theorem C89_deps (raw : Bytes) : depsBuf (ofStr raw) = some (depsText raw) := by
  have hpre : ∀ s : Bytes, ∃ r, s.map some ++ [some NUL] = (cstr s).map some ++ some NUL :: r := by
    intro s
    induction s with
    | nil => exact ⟨[], rfl⟩
    | cons c s ih =>
      rw [cstr]
      split
      · rename_i h; exact ⟨s.map some ++ [some NUL], by simp [h]⟩
      · obtain ⟨r, hr⟩ := ih
        exact ⟨r, by simp [hr]⟩
  obtain ⟨r, hr⟩ := hpre raw
  have hl := length_cstr raw
  have hlen : (ofStr raw).length = raw.length + 1 := by simp [ofStr]
  have := depsLoop_eq _ (cstr raw) [] r [] (raw.length + 1 + 1) (Nat.le_refl _) (nul_not_mem_cstr raw) (by omega)
  rw [depsBuf, hlen, ofStr, hr]
  simp only [List.nil_append, List.length_nil] at this
  rw [this, depsText]
  congr 1
  generalize strsepAll SP (cstr raw) = fs
  induction fs with
  | nil => rfl
  | cons f fs ih =>
    cases hk : skipToken f <;> simp [tokenText, hk, ih]

example : depsBuf (ofStr b!": a.c \\\n b.h\n") = some b!"a.c\nb.h\n" := by decide +kernel

/-- `validate_requirements` cuts up the file of dependencies in place; when `frugal_mtime` reads the names they are those of the model. -/
theorem C89_headers (text : Bytes) : headersBuf (ofStr text) = some (readDeps text) := by
  have hpre : ∀ s : Bytes, ∃ r, s.map some ++ [some NUL] = (cstr s).map some ++ some NUL :: r := by
    intro s
    induction s with
    | nil => exact ⟨[], rfl⟩
    | cons c s ih =>
      rw [cstr]
      split
      · rename_i h; exact ⟨s.map some ++ [some NUL], by simp [h]⟩
      · obtain ⟨r, hr⟩ := ih
        exact ⟨r, by simp [hr]⟩
  obtain ⟨r, hr⟩ := hpre text
  have hl := length_cstr text
  have hlen : (ofStr text).length = text.length + 1 := by simp [ofStr]
  obtain ⟨bf, ds, e, _, hm⟩ := headersLoop_eq _ (cstr text) [] r [] (text.length + 1 + 1) (Nat.le_refl _) (nul_not_mem_cstr text) (by omega)
  rw [headersBuf, hlen, ofStr, hr]
  simp only [List.nil_append, List.length_nil] at e
  simp only [e, bind, Option.bind]
  exact hm

example : headersBuf (ofStr b!"a.c\n\nb.h\n") = some [b!"a.c", b!"b.h"] := by decide +kernel

/-- Writing down the dependencies and reading them back, both byte by byte. -/
theorem C89_deps_roundtrip_partial (raw : Bytes) (h : (depsText raw).length + 1 < 18446744073709551616) :
    (do let text ← depsBuf (ofStr raw)
        let b ← slurp text.length text
        headersBuf b) = some (recordedDeps raw) := by
  simp only [C89_deps, bind, Option.bind, C89_file_partial h, C89_headers, recordedDeps]

/-! ## Others -/

/-- Linking at least one file: the array of names has its size, and its elements are the names. -/
theorem C89_link_partial {srcs : List Bytes} (h : srcs ≠ []) : linkSrcs srcs = some (srcs.map cstr) := by
  rw [linkSrcs, if_neg (by simpa using h)]
  clear h
  induction srcs with
  | nil => rfl
  | cons s srcs ih =>
    have : strnAt s.length (ofVal s) = some (cstr s) := by simpa [ofVal] using strnAt_val s []
    simp [this, ih]

example : linkSrcs [b!"a.o", b!"b.o"] = some [b!"a.o", b!"b.o"] := C89_link_partial (by decide)

/-- Linking no file at all makes an array of size 0. -/
theorem C89_empty_link_false : linkSrcs [] = none := rfl

theorem pad_eq {t : Bytes} (h : t.length < 16) : ∃ r : Bytes, (t ++ List.replicate 16 NUL).take 16 = t ++ NUL :: r ∧ t.length + (r.length + 1) = 16 := by
  refine ⟨List.replicate (15 - t.length) NUL, ?_, by simp; omega⟩
  rw [List.take_append, List.take_of_length_le (by omega)]
  have : 16 - t.length = (15 - t.length) + 1 := by omega
  simp only [List.take_replicate]
  have e : min (16 - t.length) 16 = (15 - t.length) + 1 := by omega
  rw [e, List.replicate_succ]

/-- The name in the usage message is complete if bob was started under a name of less than 16 bytes, or if the system tells its name. -/
theorem C89_progname_partial {initName : Bytes} {comm : Option Bytes} (hn : NUL ∉ initName) (hc : ∀ c ∈ comm, NUL ∉ c)
    (h : initName.length < 16 ∨ comm.isSome) :
    progNameBuf initName comm = some (match comm with | some c => c.take 15 | none => initName) := by
  have hlen : ((initName ++ List.replicate 16 NUL).take 16).length = 16 := by simp
  have h0 : copyTo (fresh 16) 0 ((initName ++ List.replicate 16 NUL).take 16) = some (((initName ++ List.replicate 16 NUL).take 16).map some) := by
    rw [copyTo_eq _ _ _ (by rw [hlen, length_fresh]; omega), drop_fresh, hlen]
    simp [fresh]
  simp only [progNameBuf, h0, bind, Option.bind]
  cases comm with
  | none =>
    have hi : initName.length < 16 := by simpa using h
    obtain ⟨r, hr, _⟩ := pad_eq hi
    simp only [pure]
    rw [hr, List.map_append, List.map_cons, strAt_str hn]
  | some c =>
    have hc' : NUL ∉ c.take 15 := fun hm => hc c rfl (List.mem_of_mem_take hm)
    obtain ⟨r, hr, hrl⟩ := pad_eq (t := c.take 15) (by simp; omega)
    have h1 : copyTo (((initName ++ List.replicate 16 NUL).take 16).map some) 0 (c.take 15 ++ NUL :: r) =
        some ((c.take 15 ++ NUL :: r).map some) := by
      have hl2 : (c.take 15 ++ NUL :: r).length = 16 := by simp only [List.length_append, List.length_cons]; omega
      rw [copyTo_eq _ _ _ (by rw [hl2, List.length_map, hlen]; omega), hl2, List.drop_eq_nil_of_le (by rw [List.length_map, hlen]; omega)]
      simp
    simp only [hr, h1]
    rw [List.map_append, List.map_cons, strAt_str hc']

example : progNameBuf b!"/usr/local/bin/bob-the-builder" (some b!"bob-the-builder") = some b!"bob-the-builder" := by decide +kernel

/-- Otherwise `strncpy` leaves no room for the zero byte, and the array is read past its end. -/
theorem C89_progname_false {initName : Bytes} (hn : NUL ∉ initName) (h : 16 ≤ initName.length) : progNameBuf initName none = none := by
  have hlen : ((initName ++ List.replicate 16 NUL).take 16).length = 16 := by simp
  have h0 : copyTo (fresh 16) 0 ((initName ++ List.replicate 16 NUL).take 16) = some (((initName ++ List.replicate 16 NUL).take 16).map some) := by
    rw [copyTo_eq _ _ _ (by rw [hlen, length_fresh]; omega), drop_fresh, hlen]
    simp [fresh]
  simp only [progNameBuf, h0, bind, Option.bind, pure]
  rw [List.take_append_of_le_length h]
  exact strAt_none (fun hm => hn (List.mem_of_mem_take hm))

/-- The message about a file of the install map that does not exist reads past the end of its name, for every name without a zero byte. -/
theorem C89_missing_source_false {key : Bytes} (hn : NUL ∉ key) : missingSourceBuf key = none := by
  simp [missingSourceBuf, strAt_none hn]

end Bob.Mem
