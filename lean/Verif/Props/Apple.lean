import Verif.Spec.Apple
import Verif.Props.CopyErr
/-!
# C120: install ids on macOS
-/

namespace Bob

/-- A file is written where there is one. -/
theorem wf_setFile {t : Tree} (hw : t.Wf) {p : Path} {c c' : Bytes} {m m' : Nat} (h : t p = some (.file c m)) : (t.set p (.file c' m')).Wf := by
  have hd : ∀ q, t.IsDir q → (t.set p (.file c' m')).IsDir q := by
    rintro q ⟨k, hk⟩
    refine ⟨k, ?_⟩
    unfold Tree.set
    rw [if_neg]
    · exact hk
    · rintro rfl
      rw [h] at hk
      cases hk
  refine ⟨hd _ hw.root, fun q n hn => hd _ (hw.parent q n ?_)⟩
  unfold Tree.set at hn
  split at hn
  · rename_i e; rw [e, h]; simp
  · exact hn

theorem entOk_val {e : InstEnv} {pre : Path} {x : Ent} (hx : EntOk e pre x) (hpre : Denotes e.cwd e.pre pre) : cstr x.val = x.val ∧ Denotes e.cwd (e.pre ++ b!"/" ++ x.val) x.dst := by
  obtain ⟨vs, last, hv, hl, e1, e2⟩ := hx.dst
  have hvl : ∀ c ∈ vs ++ [last], Plain c := by
    intro c hc
    rcases List.mem_append.mp hc with hc | hc
    · exact hv c hc
    · simp only [List.mem_singleton] at hc; subst hc; exact hl
  exact ⟨by rw [e1]; exact cstr_eq_self (nul_joinP hvl), by rw [e1, e2]; exact denotes_append hpre (by simp) hvl⟩

section
variable {e : InstEnv} {pre : Path} {x : Ent} {t : Tree} {now later m : Nat} {c : Bytes} {b : Bool} {tool : IdTool}

theorem apple_same (h : ∀ t1, installSingle e x.key x.val b now t ≠ .copied t1) : installApple tool e x.key x.val b now later t = (installSingle e x.key x.val b now t, false) := by
  unfold installApple
  cases hi : installSingle e x.key x.val b now t with
  | copied t1 => exact (h t1 hi).elim
  | _ => rfl

/-- Everything but copying is as elsewhere. -/
theorem apple_result {r : SingleRes} {warned : Bool} (h : installApple tool e x.key x.val b now later t = (r, warned)) (hr : ∀ t1, r ≠ .copied t1) :
    installSingle e x.key x.val b now t = r ∧ warned = false := by
  by_cases hc : ∃ t1, installSingle e x.key x.val b now t = .copied t1
  · obtain ⟨t1, hc⟩ := hc
    unfold installApple at h
    rw [hc] at h
    simp only at h
    split at h <;> exact (hr _ (congrArg Prod.fst h).symm).elim
  · rw [apple_same fun t1 h1 => hc ⟨t1, h1⟩] at h
    exact ⟨congrArg Prod.fst h, (congrArg Prod.snd h).symm⟩

/-- What is copied and then given to the tool. -/
theorem apple_copied (hx : EntOk e pre x) (hpre : Denotes e.cwd e.pre pre) (hw : t.Wf) (hap : Apart x.src x.dst) (hl : isDylib x.key = true) (hs : t x.src = some (.file c m))
    (hd : ¬ t.IsDir x.dst) {t2 : Tree} {warned : Bool} (h : installApple tool e x.key x.val b now later t = (.copied t2, warned)) :
    t2.Wf ∧ (∀ q, Apart q x.dst → t2 q = t q) ∧
      (tool c (rpathId x.val) = none ∧ warned = true ∧ t2 x.dst = some (.file c now) ∨
      ∃ c', tool c (rpathId x.val) = some c' ∧ warned = false ∧ t2 x.dst = some (.file c' later)) := by
  obtain ⟨hv, hden⟩ := entOk_val hx hpre
  cases h1 : installSingle e x.key x.val b now t with
  | copied t1 =>
    unfold installApple at h
    rw [denotes_cstr hx.src, hv, h1] at h
    simp only at h
    rw [if_pos hl] at h
    obtain ⟨-, -, hin, hout, hw1, -⟩ := single_copied hx hpre hw hap (fun _ _ _ => hd) h1
    have hdst : t1 x.dst = some (.file c now) := by
      have := hin []
      rw [List.append_nil, List.append_nil, hs] at this
      exact this
    have hst := (stat_denotes hw1 hden).2 _ hdst
    unfold setInstallId at h
    rw [hst] at h
    simp only at h
    cases ht : tool c (rpathId x.val) with
    | none =>
      rw [ht] at h
      cases h
      exact ⟨hw1, hout, .inl ⟨rfl, rfl, hdst⟩⟩
    | some c' =>
      rw [ht] at h
      cases h
      refine ⟨wf_setFile hw1 hdst, fun q hq => ?_, .inr ⟨c', rfl, rfl, if_pos rfl⟩⟩
      refine (if_neg ?_).trans (hout q hq)
      rintro rfl
      exact hq.1 (List.prefix_refl _)
  | _ =>
    rw [apple_same (fun t1 hc => by rw [h1] at hc; cases hc), h1] at h
    cases h

theorem apple_already (hx : EntOk e pre x) (hpre : Denotes e.cwd e.pre pre) (hw : t.Wf) (hap : Apart x.src x.dst) {t2 : Tree} {warned : Bool}
    (h : installApple tool e x.key x.val b now later t = (.already t2, warned)) :
    t2 = t ∧ warned = false ∧ ∃ n m, t x.src = some n ∧ t x.dst = some m ∧ n.mtime ≤ m.mtime := by
  obtain ⟨h1, h0⟩ := apple_result h (by simp)
  obtain ⟨h2, -, h3⟩ := single_already hx hpre hw hap h1
  exact ⟨h2, h0, h3⟩

/-- **C120 (part).** A library that is new gets its id: unless installing fails, the copy is what the tool makes of the library with `@rpath/` and the place below the prefix, nothing else is
touched and nothing is complained about. -/
theorem C120_new_library_identified_partial (hx : EntOk e pre x) (hpre : Denotes e.cwd e.pre pre) (hw : t.Wf) (hap : Apart x.src x.dst) (hl : b!".l" <:+ x.key)
    (hb : x.product e ↔ b = true) (hs : t x.src = some (.file c m)) (hd : ∀ n, t x.dst = some n → ∃ c' m', n = .file c' m' ∧ m' < m) {c' : Bytes}
    (ht : tool c (b!"@rpath/" ++ x.val) = some c') :
    (∃ t2, installApple tool e x.key x.val b now later t = (.failed t2, false)) ∨
    ∃ t2, installApple tool e x.key x.val b now later t = (.copied t2, false) ∧ t2 x.dst = some (.file c' later) ∧ ∀ q, Apart q x.dst → t2 q = t q := by
  have hnd : ¬ t.IsDir x.dst := by
    rintro ⟨k, hk⟩
    obtain ⟨_, _, h, -⟩ := hd _ hk
    cases h
  have hl' : isDylib x.key = true := List.isSuffixOf_iff_suffix.2 hl
  generalize h : installApple tool e x.key x.val b now later t = r
  obtain ⟨r, warned⟩ := r
  cases r with
  | copied t2 =>
    obtain ⟨-, h2, ⟨h3, -⟩ | ⟨c1, h3, h4, h5⟩⟩ := apple_copied hx hpre hw hap hl' hs hnd h
    · rw [show rpathId x.val = b!"@rpath/" ++ x.val from rfl, ht] at h3; cases h3
    · rw [show rpathId x.val = b!"@rpath/" ++ x.val from rfl, ht] at h3
      cases h3
      subst h4
      exact .inr ⟨t2, rfl, h5, h2⟩
  | already t2 =>
    obtain ⟨-, -, n, n', h1, h2, h3⟩ := apple_already hx hpre hw hap h
    rw [hs] at h1
    cases h1
    obtain ⟨_, _, rfl, h4⟩ := hd _ h2
    simp only [Node.mtime] at h3
    omega
  | failed t2 =>
    obtain ⟨-, rfl⟩ := apple_result h (by simp)
    exact .inl ⟨t2, rfl⟩
  | product =>
    exfalso
    obtain ⟨h1, -⟩ := apple_result h (by simp)
    have hc : isCookie e.absOut (pathStr x.src) = b := by
      unfold Ent.product at hb
      cases b <;> simpa using hb
    simp only [installSingle, denotes_cstr hx.src, (stat_denotes hw hx.src).2 _ hs, hc] at h1
    rw [if_neg (by cases b <;> simp), if_neg (by cases b <;> simp)] at h1
    split at h1
    · cases h1
    · split at h1
      · cases h1
      · cases h1
      · split at h1 <;> cases h1
  | abort =>
    exfalso
    obtain ⟨h1, -⟩ := apple_result h (by simp)
    have hc : isCookie e.absOut (pathStr x.src) = b := by
      unfold Ent.product at hb
      cases b <;> simpa using hb
    simp only [installSingle, denotes_cstr hx.src, (stat_denotes hw hx.src).2 _ hs, hc] at h1
    rw [if_neg (by cases b <;> simp), if_neg (by cases b <;> simp)] at h1
    split at h1
    · cases h1
    · split at h1
      · cases h1
      · cases h1
      · split at h1 <;> cases h1

/-- **C120 (part).** What is installed and not older than the library is left alone, whatever it is. -/
theorem C120_left_alone (hx : EntOk e pre x) (hpre : Denotes e.cwd e.pre pre) (hw : t.Wf) (hb : x.product e ↔ b = true) {n n' : Node}
    (hs : t x.src = some n) (hd : t x.dst = some n') (hle : n.mtime ≤ n'.mtime) : installApple tool e x.key x.val b now later t = (.already t, false) := by
  have hb' : isCookie e.absOut (pathStr x.src) = b := by
    unfold Ent.product at hb
    cases b <;> simpa using hb
  unfold installApple
  rw [single_skips_any hx hpre hw now b hb' hs hd hle]

/-- **C120 (part).** So if the tool fails once, bob warns and succeeds, and the library is without its id for good: no later run of bob, in which the tool may work, tries again or says anything. -/
theorem C120_lost_for_good (hx : EntOk e pre x) (hpre : Denotes e.cwd e.pre pre) (hw : t.Wf) (hap : Apart x.src x.dst) (hl : b!".l" <:+ x.key) (hb : x.product e ↔ b = true)
    (hs : t x.src = some (.file c m)) (hm : m ≤ now) (hnd : ¬ t.IsDir x.dst) (ht : tool c (b!"@rpath/" ++ x.val) = none) {t2 : Tree} {warned : Bool}
    (h : installApple tool e x.key x.val b now later t = (.copied t2, warned)) :
    warned = true ∧ t2 x.dst = some (.file c now) ∧ ∀ tool' now' later', installApple tool' e x.key x.val b now' later' t2 = (.already t2, false) := by
  obtain ⟨hw2, h2, ⟨-, h3, h4⟩ | ⟨c1, h3, -⟩⟩ := apple_copied hx hpre hw hap (List.isSuffixOf_iff_suffix.2 hl) hs hnd h
  · exact ⟨h3, h4, fun tool' now' later' => C120_left_alone hx hpre hw2 hb ((h2 _ hap).trans hs) h4 hm⟩
  · rw [show rpathId x.val = b!"@rpath/" ++ x.val from rfl, ht] at h3; cases h3

/-- **C120 (part).** Whatever does not end in `.l` is installed as everywhere else. -/
theorem C120_others (hx : EntOk e pre x) (hl : ¬ b!".l" <:+ x.key) : installApple tool e x.key x.val b now later t = (installSingle e x.key x.val b now t, false) := by
  have : isDylib x.key = false := by
    rw [← Bool.not_eq_true]
    exact fun h => hl (List.isSuffixOf_iff_suffix.1 h)
  cases h : installSingle e x.key x.val b now t with
  | copied t1 =>
    unfold installApple
    rw [denotes_cstr hx.src, this, h]
    rfl
  | _ => rw [apple_same (fun t1 hc => by rw [h] at hc; cases hc), h]

/-! ## Histories -/

/-- What holds all the time. -/
def LibInv (make : Bytes → Bytes → Bytes) (x : Ent) (t : Tree) (now : Nat) : Prop :=
  t.Wf ∧ ∃ c m, t x.src = some (.file c m) ∧ m ≤ now ∧
    (t x.dst = none ∨ ∃ c' m', t x.dst = some (.file c' m') ∧ m' ≤ now ∧ (m ≤ m' → c' = make c (b!"@rpath/" ++ x.val)))

theorem LibInv.copied {make : Bytes → Bytes → Bytes} (hx : EntOk e pre x) (hpre : Denotes e.cwd e.pre pre) (hap : Apart x.src x.dst) (hl : b!".l" <:+ x.key) {n1 n2 : Nat}
    (h : LibInv make x t now) (h1 : now ≤ n1) (h2 : n1 ≤ n2) {t2 : Tree} {warned : Bool}
    (hr : installApple (fun c i => some (make c i)) e x.key x.val b n1 n2 t = (.copied t2, warned)) : LibInv make x t2 n2 ∧ Identified make t2 x := by
  obtain ⟨hw, c, m, hs, hm, hd⟩ := h
  have hnd : ¬ t.IsDir x.dst := by
    rintro ⟨k, hk⟩
    rcases hd with hd | ⟨_, _, hd, -⟩ <;> rw [hk] at hd <;> cases hd
  obtain ⟨hw2, h3, ⟨h4, -⟩ | ⟨c1, h4, -, h5⟩⟩ := apple_copied hx hpre hw hap (List.isSuffixOf_iff_suffix.2 hl) hs hnd hr
  · cases h4
  · cases h4
    have hs2 := (h3 _ hap).trans hs
    exact ⟨⟨hw2, c, m, hs2, by omega, .inr ⟨_, _, h5, Nat.le_refl _, fun _ => rfl⟩⟩, c, m, n2, hs2, h5⟩

theorem LibInv.already {make : Bytes → Bytes → Bytes} (hx : EntOk e pre x) (hpre : Denotes e.cwd e.pre pre) (hap : Apart x.src x.dst) {n1 n2 : Nat}
    (h : LibInv make x t now) (h1 : now ≤ n1) (h2 : n1 ≤ n2) {t2 : Tree} {warned : Bool}
    (hr : installApple tool e x.key x.val b n1 n2 t = (.already t2, warned)) : LibInv make x t2 n2 ∧ Identified make t2 x := by
  obtain ⟨hw, c, m, hs, hm, hd⟩ := h
  obtain ⟨rfl, -, n, n', h3, h4, h5⟩ := apple_already hx hpre hw hap hr
  rw [hs] at h3
  cases h3
  rcases hd with hd | ⟨c', m', hd, h6, h7⟩
  · rw [hd] at h4; cases h4
  · rw [hd] at h4
    cases h4
    have := h7 h5
    subst this
    exact ⟨⟨hw, c, m, hs, by omega, .inr ⟨_, _, hd, by omega, h7⟩⟩, c, m, m', hs, hd⟩

theorem libHist_inv {make : Bytes → Bytes → Bytes} (hx : EntOk e pre x) (hpre : Denotes e.cwd e.pre pre) (hap : Apart x.src x.dst) (hl : b!".l" <:+ x.key)
    (h : LibHist make e x b t now) : LibInv make x t now := by
  induction h with
  | first hw hs hd => exact ⟨hw, _, _, hs, Nat.le_refl _, .inl hd⟩
  | link _ hlt ih =>
    rename_i t0 now0 later0 c0 _
    obtain ⟨hw, c, m, hs, hm, hd⟩ := ih
    have hne : x.dst ≠ x.src := fun he => hap.1 (he ▸ List.prefix_refl _)
    have hk : (t0.set x.src (.file c0 later0)) x.dst = t0 x.dst := if_neg hne
    refine ⟨wf_setFile hw hs, c0, later0, if_pos rfl, Nat.le_refl _, ?_⟩
    rw [hk]
    rcases hd with hd | ⟨c', m', hd, h6, -⟩
    · exact .inl hd
    · exact .inr ⟨c', m', hd, by omega, fun h => by omega⟩
  | already _ h1 h2 hr ih => exact (ih.already hx hpre hap h1 h2 hr).1
  | copied _ h1 h2 hr ih => exact (ih.copied hx hpre hap hl h1 h2 hr).1

/-- **C120 (part).** If the tool works every time it is used, then after every installation that succeeds the installed library has its id and is made from the library as it is now, however
often it was linked and installed before. -/
theorem C120_identified_partial {make : Bytes → Bytes → Bytes} (hx : EntOk e pre x) (hpre : Denotes e.cwd e.pre pre) (hap : Apart x.src x.dst) (hl : b!".l" <:+ x.key)
    (h : LibHist make e x b t now) {n1 n2 : Nat} (h1 : now ≤ n1) (h2 : n1 ≤ n2) {t2 : Tree} {warned : Bool}
    (hr : installApple (fun c i => some (make c i)) e x.key x.val b n1 n2 t = (.copied t2, warned) ∨
      installApple (fun c i => some (make c i)) e x.key x.val b n1 n2 t = (.already t2, warned)) : Identified make t2 x := by
  have hi := libHist_inv hx hpre hap hl h
  rcases hr with hr | hr
  · exact (hi.copied hx hpre hap hl h1 h2 hr).2
  · exact (hi.already hx hpre hap h1 h2 hr).2

end

/-! ## What is printed -/

/-- The warning with a reason. -/
def idFailed (colour : Bool) (path reason : Bytes) : Bytes :=
  (if colour then b!"🚸 \x1b[0;33m" else []) ++ (b!"Failed to set Apple install ID for dylib '" ++ path ++ b!"': " ++ reason) ++ (if colour then b!"\x1b[0m\n" else b!"\n")

/-- **C120 (part).** The warning ends with what the tool printed. -/
theorem C120_reason_given {w : SpawnWorld} {out : List Bytes} {o path : Bytes} (h : FailsSaying w b!"install_name_tool" out (o ++ b!"\n")) (h1 : NUL ∉ path) (h2 : NUL ∉ o)
    (colour : Bool) (m : CmdRes) (ss : Nat → Bytes) : appleWarning colour false w m out ss path = some (idFailed colour path o) := by
  have hn : NUL ∉ b!"Failed to set Apple install ID for dylib '" ++ path ++ b!"': " ++ o := by
    simp only [List.mem_append, not_or]
    exact ⟨⟨⟨by decide, h1⟩, by decide⟩, h2⟩
  have ec : Level.colour .warn = b!"🚸 \x1b[0;33m" := by decide
  have en : CLEAR ++ b!"\n" = b!"\x1b[0m\n" := by decide
  unfold appleWarning
  rw [h.res m]
  simp only [show (-1 : Int) < 0 by decide, if_true]
  rw [cmdReadOut_calm, h.says, dropNewline_line h2]
  unfold vlog idFailed
  rw [cstr_self hn, ec]
  cases colour
  · simp
  · simp only [if_true]; rw [List.append_assoc _ CLEAR, en]

/-! ## Cases -/

/-- A library, and a scanner for `lex`. -/
def libTree : Tree := treeOf [([], .dir 1), ([b!"p"], .dir 5), ([b!"p", b!"scan.l"], .file b!"%%" 4), ([b!"p", b!".bob"], .dir 5), ([b!"p", b!".bob", b!"x.l"], .file b!"LIB" 5), ([b!"usr"], .dir 1)]

def libEnt : Ent := { key := b!".bob/x.l", val := b!"lib/libx.dylib", src := [b!"p", b!".bob", b!"x.l"], dst := [b!"usr", b!"lib", b!"libx.dylib"] }
def scanEnt : Ent := { key := b!"scan.l", val := b!"share/scan.l", src := [b!"p", b!"scan.l"], dst := [b!"usr", b!"share", b!"scan.l"] }

theorem libTree_wf : libTree.Wf := treeOf_wf ⟨1, by decide⟩ (by decide)

theorem libEnt_ok : EntOk projEnv [b!"usr"] libEnt :=
  ⟨⟨[b!".bob", b!"x.l"], by simp, by unfold Plain; decide, Or.inl ⟨by decide, rfl⟩⟩, [b!"lib"], b!"libx.dylib", by unfold Plain; decide, by unfold Plain; decide, by decide, rfl⟩

theorem libEnt_apart : Apart libEnt.src libEnt.dst := by unfold Apart; decide

/-- The tool that works: it puts the id behind the library. -/
def markId (c id : Bytes) : Bytes := c ++ id

/-- What is there after a run. -/
def afterRun (r : SingleRes × Bool) : Tree :=
  match r.1 with
  | .copied t => t
  | .already t => t
  | .failed t => t
  | _ => fun _ => none

def Copies : SingleRes × Bool → Bool → Prop
  | (.copied _, w), w' => w = w'
  | _, _ => False

theorem Copies.eq {r : SingleRes × Bool} {w : Bool} (h : Copies r w) : r = (.copied (afterRun r), w) := by
  obtain ⟨r, w'⟩ := r
  cases r with
  | copied t => cases h; rfl
  | _ => exact h.elim

/-- The library is installed with its id; linked again, it is installed again; and the hypotheses of `C120_identified_partial` are met. -/
example : ∃ t1 t2, installApple (fun c i => some (markId c i)) projEnv libEnt.key libEnt.val true 10 11 libTree = (.copied t1, false) ∧
    t1 [b!"usr", b!"lib", b!"libx.dylib"] = some (.file b!"LIB@rpath/lib/libx.dylib" 11) ∧
    LibHist markId projEnv libEnt true (t1.set libEnt.src (.file b!"NEW" 20)) 20 ∧
    installApple (fun c i => some (markId c i)) projEnv libEnt.key libEnt.val true 21 21 (t1.set libEnt.src (.file b!"NEW" 20)) = (.copied t2, false) ∧
    t2 [b!"usr", b!"lib", b!"libx.dylib"] = some (.file b!"NEW@rpath/lib/libx.dylib" 21) ∧ Identified markId t2 libEnt := by
  have h1 : Copies (installApple (fun c i => some (markId c i)) projEnv libEnt.key libEnt.val true 10 11 libTree) false := by rfl
  have h2 := LibHist.first (make := markId) (e := projEnv) (b := true) libTree_wf (show libTree libEnt.src = some (.file b!"LIB" 5) by decide) (by decide)
  have h3 := LibHist.copied (n1 := 10) (n2 := 11) h2 (by decide) (by decide) h1.eq
  have h4 := LibHist.link (later := 20) (c := b!"NEW") h3 (by decide)
  exact ⟨_, _, rfl, by decide, h4, rfl, by decide,
    C120_identified_partial (now := 20) (n1 := 21) (n2 := 21) (warned := false) libEnt_ok projPre libEnt_apart (by decide) h4 (by decide) (by decide) (.inl rfl)⟩

/-- **C120 fails.** The tool fails (say, because it was not installed yet); bob succeeds.  Installing again when the tool works succeeds too, and the library has no id. -/
theorem C120_retried_false : ∃ t1, installApple (fun _ _ => none) projEnv libEnt.key libEnt.val true 10 11 libTree = (.copied t1, true) ∧
    installApple (fun c i => some (markId c i)) projEnv libEnt.key libEnt.val true 20 21 t1 = (.already t1, false) ∧ ¬ Identified markId t1 libEnt := by
  have h1 : Copies (installApple (fun _ _ => none) projEnv libEnt.key libEnt.val true 10 11 libTree) true := by rfl
  have hd : ¬ libTree.IsDir libEnt.dst := fun ⟨m, hm⟩ => by rw [show libTree libEnt.dst = none by decide] at hm; cases hm
  obtain ⟨-, h2, h3⟩ := C120_lost_for_good libEnt_ok projPre libTree_wf libEnt_apart (by decide) (by unfold Ent.product; decide) (show libTree libEnt.src = some (.file b!"LIB" 5) by decide)
    (by decide) hd rfl h1.eq
  refine ⟨_, h1.eq, h3 _ _ _, ?_⟩
  rintro ⟨c, m, m', h4, h5⟩
  rw [h2] at h5
  rw [show afterRun (installApple (fun _ _ => none) projEnv libEnt.key libEnt.val true 10 11 libTree) libEnt.src = some (.file b!"LIB" 5) by decide] at h4
  cases h4
  simp only [markId, Option.some.injEq, Node.file.injEq] at h5
  exact absurd h5.1 (by decide)

/-- **C120 fails.** A file that is no library at all is given to the tool if its name ends in `.l`, as the names of scanners for `lex` do. -/
theorem C120_only_libraries_false : ∃ t1 t2, ¬ scanEnt.product projEnv ∧
    installApple (fun c _ => if b!"LIB" <+: c then some c else none) projEnv scanEnt.key scanEnt.val false 10 11 libTree = (.copied t1, true) ∧
    installApple (fun c i => some (markId c i)) projEnv scanEnt.key scanEnt.val false 10 11 libTree = (.copied t2, false) ∧
    t2 scanEnt.dst = some (.file b!"%%@rpath/share/scan.l" 11) ∧ libTree scanEnt.src = some (.file b!"%%" 4) :=
  ⟨_, _, by unfold Ent.product; decide, rfl, rfl, by decide, by decide⟩

example : appleWarning false false exitsOne { rv := 0, sig := 0 } [b!"error: not a Mach-O file\n"] (fun _ => []) b!"/usr/share/scan.l" =
    some b!"Failed to set Apple install ID for dylib '/usr/share/scan.l': error: not a Mach-O file\n" := by decide

end Bob
