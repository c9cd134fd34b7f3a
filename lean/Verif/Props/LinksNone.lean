import Verif.Props.Links
/-!
# C125: without links, installing is what `Verif.Model.Install` says
-/

namespace Bob

def Node.toL : Node → LNode
  | .dir m => .dir m
  | .file c m => .file c m

/-- The same tree, where there might be links. -/
def Tree.toL (t : Tree) : LTree := fun p => (t p).map Node.toL

def Errno.toL : Errno → LErr
  | .noent => .noent
  | .notdir => .notdir

def Deny.toL (d : Deny) : LDeny := ⟨d.mkdir, fun a b => (d.copy a b).map Tree.toL⟩

def InstEnv.toL (e : InstEnv) : LInstEnv := ⟨e.deny.toL, e.cwd, e.absOut, e.pre⟩

def SingleRes.toL : SingleRes → LSingleRes
  | .failed t => .failed t.toL
  | .abort => .abort
  | .product => .product
  | .already t => .already t.toL
  | .copied t => .copied t.toL

theorem Tree.toL_not_link (t : Tree) (p : Path) (l : Bytes) (m : Nat) : t.toL p ≠ some (.link l m) := by
  unfold Tree.toL
  cases t p with
  | none => simp
  | some n => cases n <;> simp [Node.toL]

theorem Tree.toL_walkTo (t : Tree) (f : Bool) (k : Path → List Bytes → Except LErr Path) : ∀ (cs : List Bytes) (cur : Path), t.toL.walkTo f k cur cs = (t.walk cur cs).mapError Errno.toL
  | [], cur => rfl
  | c :: cs, cur => by
    rw [LTree.walkTo, Tree.walk]
    have hcur : t.toL cur = (t cur).map Node.toL := rfl
    cases ht : t cur with
    | none => rw [hcur, ht]; rfl
    | some n =>
      cases n with
      | file _ _ => rw [hcur, ht]; rfl
      | dir m =>
        rw [hcur, ht]
        simp only [Option.map_some, Node.toL]
        by_cases h1 : c = [] ∨ c = b!"."
        · rw [if_pos h1, if_pos h1]; exact toL_walkTo t f k cs cur
        rw [if_neg h1, if_neg h1]
        by_cases h2 : c = b!".."
        · rw [if_pos h2, if_pos h2]; exact toL_walkTo t f k cs _
        rw [if_neg h2, if_neg h2]
        split
        · rename_i hl
          exact (t.toL_not_link _ _ _ hl).elim
        · exact toL_walkTo t f k cs _

theorem Tree.toL_walk (t : Tree) (f : Bool) : ∀ (n : Nat) (cur : Path) (cs : List Bytes), t.toL.walk f n cur cs = (t.walk cur cs).mapError Errno.toL
  | 0, cur, cs => toL_walkTo t f _ cs cur
  | _ + 1, cur, cs => toL_walkTo t f _ cs cur

theorem Tree.toL_resolve (t : Tree) (f : Bool) (cwd : Path) (s : Bytes) : t.toL.resolve f cwd s = (t.resolve cwd s).mapError Errno.toL := by
  cases s with
  | nil => rfl
  | cons c s => exact t.toL_walk f 40 _ _

theorem Tree.toL_stat (t : Tree) (f : Bool) (cwd : Path) (s : Bytes) :
    t.toL.stat f cwd s = match t.stat cwd s with | .ok (p, n) => .ok (p, n.toL) | .error e => .error e.toL := by
  unfold LTree.stat Tree.stat
  rw [t.toL_resolve]
  cases t.resolve cwd s with
  | error e => rfl
  | ok p =>
    simp only [Except.mapError, Tree.toL]
    cases t p <;> rfl

theorem Node.toL_mtime (n : Node) : n.toL.mtime = n.mtime := by cases n <;> rfl

theorem Tree.toL_statRes (t : Tree) (cwd : Path) (s : Bytes) : t.toL.statRes cwd s = t.statRes cwd s := by
  unfold LTree.statRes Tree.statRes
  rw [t.toL_stat]
  cases t.stat cwd s with
  | error e => cases e <;> rfl
  | ok x => simp only [Node.toL_mtime]

theorem Tree.toL_set (t : Tree) (p : Path) (n : Node) : (t.set p n).toL = t.toL.set p n.toL := by
  funext q
  unfold Tree.toL Tree.set LTree.set
  split <;> rfl

theorem Tree.toL_touch (t : Tree) (p : Path) (now : Nat) : (t.touch p now).toL = t.toL.touch p now := by
  funext q
  unfold Tree.toL Tree.touch LTree.touch
  dsimp only
  split
  · cases t q with
    | none => rfl
    | some n => cases n <;> rfl
  · rfl

theorem Tree.toL_mkdir (t : Tree) (d : Deny) (cwd : Path) (now : Nat) (s : Bytes) : t.toL.mkdir d.toL cwd now s = (t.mkdir d cwd now s).map Tree.toL := by
  unfold LTree.mkdir Tree.mkdir
  rw [t.toL_resolve]
  cases t.resolve cwd s with
  | error e => rfl
  | ok p =>
    simp only [Except.mapError]
    have hp : t.toL p = (t p).map Node.toL := rfl
    rw [hp]
    cases t p with
    | some n => rfl
    | none =>
      simp only [Option.map_none]
      by_cases hd : d.mkdir p = true
      · rw [if_pos (show d.toL.mkdir p = true from hd), if_pos hd]; rfl
      · rw [if_neg (show ¬ d.toL.mkdir p = true from hd), if_neg hd]
        simp only [Option.map_some, Tree.toL_touch, Tree.toL_set]
        rfl

theorem toL_mkdirs (d : Deny) (cwd : Path) (now : Nat) : ∀ (bits : List Bytes) (accum : Bytes) (t : Tree),
    lmkdirs d.toL cwd now bits accum t.toL = ((mkdirs d cwd now bits accum t).1.toL, (mkdirs d cwd now bits accum t).2)
  | [], _, _ => rfl
  | bit :: bits, accum, t => by
    rw [lmkdirs, mkdirs, t.toL_mkdir]
    cases t.mkdir d cwd now (accum ++ b!"/" ++ bit) with
    | none => rfl
    | some t' => exact toL_mkdirs d cwd now bits _ t'

theorem toL_cpDir (t : Tree) (src dst : Path) (now : Nat) : lcpDir t.toL src dst now = (cpDir t src dst now).map Tree.toL := by
  unfold lcpDir cpDir
  split
  · rfl
  · simp only [Option.map_some, Tree.toL_touch]
    congr 2
    funext q
    unfold Tree.toL
    dsimp only
    split
    · cases t (src ++ q.drop dst.length) with
      | none => rfl
      | some n => cases n <;> rfl
    · rfl

theorem toL_cpFile_at (t : Tree) (c : Bytes) (src p : Path) (th : Except LErr Path) (now : Nat) :
    lcpFile t.toL c src p th now = (match t p with
      | some (.dir _) => none
      | some (.file _ _) => if p = src then none else some (t.set p (.file c now))
      | none => some ((t.set p (.file c now)).touch p.dropLast now) : Option Tree).map Tree.toL := by
  unfold lcpFile
  have hp : t.toL p = (t p).map Node.toL := rfl
  rw [hp]
  cases t p with
  | none => simp only [Option.map_none, Option.map_some, Tree.toL_touch, Tree.toL_set]; rfl
  | some n =>
    cases n with
    | dir _ => rfl
    | file _ _ =>
      simp only [Option.map_some, Node.toL]
      split
      · rfl
      · simp only [Option.map_some, Tree.toL_set]; rfl

/-- `copy` does the same; the source was found before directories were made, and is found again. -/
theorem toL_copy (d : Deny) (t : Tree) (cwd : Path) (key : Bytes) (src : Path) (n n' : Node) (dst : Bytes) (now : Nat) (h : t.stat cwd key = .ok (src, n'))
    (hn : (∃ m m', n = .dir m ∧ n' = .dir m') ∨ ∃ c m, n = .file c m ∧ n' = .file c m) :
    lcopy d.toL t.toL cwd key dst now = ((copyNode d t cwd src n dst now).1.toL, (copyNode d t cwd src n dst now).2) := by
  unfold lcopy copyNode
  rw [t.toL_stat, t.toL_stat, t.toL_resolve, h]
  cases hr : t.resolve cwd dst with
  | error e => rfl
  | ok p =>
    simp only [Except.mapError, Deny.toL]
    cases d.copy src p with
    | some junk => rfl
    | none =>
      simp only [Option.map_none]
      rcases hn with ⟨m, m', rfl, rfl⟩ | ⟨c, m, rfl, rfl⟩
      · simp only [Node.toL, lcp, toL_cpDir]
        cases cpDir t src p now <;> rfl
      · simp only [Node.toL, lcp]
        have hst : t.toL.stat true cwd dst = match t p with | none => .error .noent | some n => .ok (p, n.toL) := by
          unfold LTree.stat
          rw [t.toL_resolve, hr]
          simp only [Except.mapError, Tree.toL]
          cases t p <;> rfl
        have hfin : ∀ q th, cpPlace t.toL cwd src dst p = (q, th) →
            lcpFile t.toL c src (cpPlace t.toL cwd src dst p).1 (cpPlace t.toL cwd src dst p).2 now = (match t q with
              | some (.dir _) => none
              | some (.file _ _) => if q = src then none else some (t.set q (.file c now))
              | none => some ((t.set q (.file c now)).touch q.dropLast now) : Option Tree).map Tree.toL := by
          intro q th h
          rw [h]
          exact toL_cpFile_at t c src q th now
        have hcp : lcpFile t.toL c src (cpPlace t.toL cwd src dst p).1 (cpPlace t.toL cwd src dst p).2 now = (cpFile t c src p now).map Tree.toL := by
          unfold cpFile
          cases hp : t p with
          | none =>
            rw [hfin p _ (by unfold cpPlace; rw [hst, hp]), hp]
          | some x =>
            cases x with
            | file c' m' => rw [hfin p _ (by unfold cpPlace; rw [hst, hp]; rfl), hp]
            | dir m' =>
              rw [hfin (p ++ [src.getLastD []]) _ (by unfold cpPlace; rw [hst, hp]; rfl)]
              cases hq : t (p ++ [src.getLastD []]) with
              | none => simp only [hq]
              | some y => cases y <;> simp only [hq]
        rw [hcp]
        cases cpFile t c src p now <;> rfl

/-- Without links, nothing is different. -/
theorem C125_no_links (e : InstEnv) (key val : Bytes) (b : Bool) (now : Nat) (t : Tree) : linstallSingle e.toL key val b now t.toL = (installSingle e key val b now t).toL := by
  obtain ⟨d, cwd, absOut, pre⟩ := e
  change linstallSingle ⟨d.toL, cwd, absOut, pre⟩ key val b now t.toL = _
  unfold linstallSingle installSingle
  dsimp only
  have hs := t.toL_stat true cwd (cstr key)
  cases h : t.stat cwd (cstr key) with
  | error er =>
    rw [h] at hs
    simp only at hs
    rw [hs]
    rfl
  | ok x =>
    obtain ⟨src, n⟩ := x
    rw [h] at hs
    simp only at hs
    rw [hs]
    simp only
    by_cases hc1 : (isCookie absOut (pathStr src) && !b) = true
    · rw [if_pos hc1, if_pos hc1]; rfl
    rw [if_neg hc1, if_neg hc1]
    by_cases hc2 : (isCookie absOut (pathStr src) != b) = true
    · rw [if_pos hc2, if_pos hc2]; rfl
    rw [if_neg hc2, if_neg hc2]
    have hg := LTree.lmkdirs_grown (d := d.toL) (cwd := cwd) (now := now) (destBits (cstr val)) pre t.toL
    rw [toL_mkdirs] at hg ⊢
    cases hm : mkdirs d cwd now (destBits (cstr val)) pre t with
    | mk t1 ok =>
      rw [hm] at hg
      cases ok with
      | false => rfl
      | true =>
        simp only
        rw [show t1.toL.statRes cwd = t1.statRes cwd from funext fun s => t1.toL_statRes _ _]
        cases frugalMtime (t1.statRes cwd) [cstr key] (pre ++ b!"/" ++ cstr val) with
        | none => rfl
        | some v =>
          cases v with
          | false => rfl
          | true =>
            simp only
            have hfound : ∃ n', t1.stat cwd (cstr key) = .ok (src, n') ∧ ((∃ m m', n = .dir m ∧ n' = .dir m') ∨ ∃ c m, n = .file c m ∧ n' = .file c m) := by
              have h1 := t1.toL_stat true cwd (cstr key)
              obtain ⟨ha, hb⟩ := LTree.stat_ok.1 hs
              have ha' := LTree.resolve_alike hg.toAlike ha
              have key_of : ∀ y, t1.toL src = some y → t1.toL.stat true cwd (cstr key) = .ok (src, y) := fun y hy => LTree.stat_ok.2 ⟨ha', hy⟩
              cases n with
              | dir m =>
                obtain ⟨m', hm'⟩ := hg.dirs _ _ hb
                rw [key_of _ hm'] at h1
                cases h2 : t1.stat cwd (cstr key) with
                | error _ => rw [h2] at h1; cases h1
                | ok z =>
                  obtain ⟨zp, zn⟩ := z
                  rw [h2] at h1
                  cases zn with
                  | dir mz => cases h1; exact ⟨_, rfl, .inl ⟨_, _, rfl, rfl⟩⟩
                  | file _ _ => cases h1
              | file c m =>
                rw [key_of _ (hg.files _ _ _ hb)] at h1
                cases h2 : t1.stat cwd (cstr key) with
                | error _ => rw [h2] at h1; cases h1
                | ok z =>
                  obtain ⟨zp, zn⟩ := z
                  rw [h2] at h1
                  cases zn with
                  | dir mz => cases h1
                  | file _ _ => cases h1; exact ⟨_, rfl, .inr ⟨_, _, rfl, rfl⟩⟩
            obtain ⟨n', hf, hn⟩ := hfound
            rw [toL_copy d t1 cwd (cstr key) src n n' _ now hf hn]
            cases copyNode d t1 cwd src n (pre ++ b!"/" ++ cstr val) now with
            | mk t2 ok => cases ok <;> rfl

/-- A tree with a file that is copied, in both. -/
example : ∃ t', linstallSingle (InstEnv.toL ⟨⟨fun _ => false, fun _ _ => none⟩, [], b!"/.bob", b!"/p"⟩) b!"a" b!"b/c" false 9
    (Tree.toL fun q => if q = [] ∨ q = [b!"p"] then some (.dir 1) else if q = [b!"a"] then some (.file b!"x" 5) else none) = .copied t' ∧
      t' [b!"p", b!"b", b!"c"] = some (.file b!"x" 9) := by
  rw [C125_no_links]
  have h : (match installSingle ⟨⟨fun _ => false, fun _ _ => none⟩, [], b!"/.bob", b!"/p"⟩ b!"a" b!"b/c" false 9
      (fun q => if q = [] ∨ q = [b!"p"] then some (.dir 1) else if q = [b!"a"] then some (.file b!"x" 5) else none) with
    | .copied t => t [b!"p", b!"b", b!"c"] | _ => none) = some (.file b!"x" 9) := by decide +kernel
  split at h
  · rename_i t ht
    rw [ht]
    exact ⟨t.toL, rfl, by rw [Tree.toL, h]; rfl⟩
  · cases h

end Bob
