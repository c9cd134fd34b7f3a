import Verif.Props.FlEq
import Verif.Lemmas.FlPtm
/-!
# Methods of strings (C54)
-/

namespace Bob.Fl

theorem startsWith_iff {b t : Bytes} (h : t.length ≤ b.length) : startsWith b t = true ↔ t <+: b := by
  unfold startsWith
  rw [beq_iff_eq]
  constructor
  · intro he
    rw [← he]
    exact List.take_prefix _ _
  · rintro ⟨r, rfl⟩
    simp

theorem endsWith_iff {b t : Bytes} (h : t.length ≤ b.length) : endsWith b t = true ↔ t <:+ b := by
  unfold endsWith
  rw [beq_iff_eq]
  constructor
  · intro he
    have hl : (b.drop (b.length - t.length)).length = t.length := by
      rw [List.length_drop]
      omega
    rw [List.take_of_length_le (by omega)] at he
    rw [← he]
    exact List.drop_suffix _ _
  · rintro ⟨r, rfl⟩
    simp

/-- A place where methods can be called: there is a scope, and no value is being returned. -/
structure St.Ready (s : St) (st : List Nat) : Prop where
  stack : s.Stack st
  alive : ∀ i rest, st = i :: rest → ∃ x, s.Alive i x
  rv : s.eng.rv = .none
  builtins : s.Builtins

theorem St.Ready.top {s : St} {st : List Nat} (h : s.Ready st) : TopAlive s st := by
  cases st with
  | nil => trivial
  | cons i rest => exact h.alive i rest rfl

theorem ready_init (paths : List Bytes) : (St.init paths).Ready [0] :=
  ⟨rfl, fun i rest h => by cases h; exact ⟨{}, rfl, rfl⟩, rfl, builtins_init paths⟩

theorem bump_ready {s : St} {c : Nat} {st : List Nat} (h : s.Ready st) : (s.bump c).Ready st :=
  ⟨h.stack, h.alive, h.rv, bump_builtins h.builtins⟩

theorem shows_lt {s : St} {v : Val} {c : Nat} (h : s.Shows v c) : c < s.cells.length := by
  obtain ⟨d, ⟨x, hx, _⟩, _⟩ := shows_kind h
  exact (List.getElem?_eq_some_iff.1 hx).1

theorem Entered.str {f : FnData} {inst : Option Nat} {st : List Nat} {ps : List Bytes} {args : List Nat} {s s0 : St} (h : Entered f inst st ps args s s0) {b : Bytes} {c : Nat}
    (hc : s.Shows (.str b) c) : s0.Shows (.str b) c := by
  simp only [St.Shows] at hc ⊢
  obtain ⟨buf, full, h1, h2, h3⟩ := hc
  exact ⟨buf, full, h.holds h1, by rw [h.bufs]; exact h2, h3⟩

theorem bump_str {s : St} {b : Bytes} {c k : Nat} (hc : s.Shows (.str b) c) : (s.bump k).Shows (.str b) c := by
  simp only [St.Shows] at hc ⊢
  obtain ⟨buf, full, h1, h2, h3⟩ := hc
  exact ⟨buf, full, bump_holds h1, h2, h3⟩

/-- **C54.** `e.len()` is the number of bytes of the string. -/
theorem C54_len {w : World} {n : Nat} {e : Expr} {s s1 : St} {c : Nat} {b : Bytes} {st : List Nat} (he : (interp w n).value e s = .ok c s1)
    (hc : s1.Shows (.str b) c) (hr : s1.Ready st) :
    ∃ c' s', (interp w (n + 2)).eval .keep (.call (.access e b!"len") []) s = .ok { val := some c' } s' ∧ s'.Holds c' (.int b.length) := by
  obtain ⟨buf, full, h1, h2, h3⟩ := (show ∃ buf full, s1.Holds c (.str buf b.length) ∧ s1.bufs[buf]? = some (some full) ∧ b <+: full by
    simpa only [St.Shows] using hc)
  have hacc := access_ptm w n (name := b!"len") (k := 0) he h1 rfl hr.builtins
  have hr' := bump_ready (c := s1.eng.ptm + 0) hr
  obtain ⟨x, hx, hxd, -⟩ := hr'.builtins 0 .strLen rfl
  rw [C60_left_to_right w (n + 1) hacc rfl (show (s1.bump (s1.eng.ptm + 0)).Holds (s1.eng.ptm + 0) (.fn { kind := .ptm .strLen }) from ⟨x, hx, hxd⟩) .nil .keep]
  obtain ⟨s0, h0, hall⟩ := ptm_call w (c := s1.eng.ptm + 0) (s := s1.bump (s1.eng.ptm + 0)) (p := .strLen) ⟨x, hx, hxd⟩ (bump_holds h1) (by simp [Data.kind]) hr'.stack hr'.top (args := []) (by simp) hr'.rv
  have hok := (hall n).1
  obtain ⟨y, hy, hyd⟩ := getCell_holds (h0.holds (bump_holds h1))
  have hrun : runPtm (interp w n) .strLen (some c) [] s0 = .ok s0.cells.length { s0 with cells := s0.cells ++ [{ data := .int b.length }] } := by
    unfold runPtm
    rw [bind_of_ok ((deref_ok_iff ..).2 ⟨rfl, rfl⟩), bind_of_ok hy, hyd]
    rfl
  rw [hok _ _ { kind := .ptm .strLen } hrun (holds_append (h0.holds ⟨x, hx, hxd⟩)) (by simp)]
  exact ⟨_, _, rfl, holds_alloc ..⟩

/-- **C54.** `e.len()` is the number of elements of a vector. -/
theorem C54_vec_len {w : World} {n : Nat} {e : Expr} {s s1 : St} {c : Nat} {es : List Nat} {st : List Nat} (he : (interp w n).value e s = .ok c s1)
    (hc : s1.Holds c (.vec es)) (hr : s1.Ready st) :
    ∃ c' s', (interp w (n + 2)).eval .keep (.call (.access e b!"len") []) s = .ok { val := some c' } s' ∧ s'.Holds c' (.int es.length) := by
  have hacc := access_ptm w n (name := b!"len") (k := 3) he hc rfl hr.builtins
  have hr' := bump_ready (c := s1.eng.ptm + 3) hr
  obtain ⟨x, hx, hxd, -⟩ := hr'.builtins 3 .vecLen rfl
  rw [C60_left_to_right w (n + 1) hacc rfl (show (s1.bump (s1.eng.ptm + 3)).Holds (s1.eng.ptm + 3) (.fn { kind := .ptm .vecLen }) from ⟨x, hx, hxd⟩) .nil .keep]
  obtain ⟨s0, h0, hall⟩ := ptm_call w (c := s1.eng.ptm + 3) (s := s1.bump (s1.eng.ptm + 3)) (p := .vecLen) ⟨x, hx, hxd⟩ (bump_holds hc) (by simp [Data.kind]) hr'.stack hr'.top (args := []) (by simp) hr'.rv
  have hok := (hall n).1
  obtain ⟨y, hy, hyd⟩ := getCell_holds (h0.holds (bump_holds hc))
  have hrun : runPtm (interp w n) .vecLen (some c) [] s0 = .ok s0.cells.length { s0 with cells := s0.cells ++ [{ data := .int es.length }] } := by
    unfold runPtm
    rw [bind_of_ok ((deref_ok_iff ..).2 ⟨rfl, rfl⟩), bind_of_ok hy, hyd]
    rfl
  rw [hok _ _ { kind := .ptm .vecLen } hrun (holds_append (h0.holds ⟨x, hx, hxd⟩)) (by simp)]
  exact ⟨_, _, rfl, holds_alloc ..⟩

example : (runScript emptyWorld 20 [] [sPrint (eCall (.access (.vec [eNum b!"4", eNum b!"5"]) b!"len") [])]).printed = some [b!"2"] := by decide +kernel

/-- What is common to both tests. -/
theorem str_test {w : World} {n : Nat} {e te : Expr} {s s1 s2 : St} {c t k : Nat} {p : Ptm} {name what arg b b' : Bytes} {test : Bytes → Bytes → Bool} {st : List Nat} {r : Res}
    (hname : ptmIdx .str name = some k) (hp : members[k]? = some p)
    (hptm : ∀ (R : Rec) (a buf size u : Nat) (z : Cell) (s : St), s.cells[a]? = some z → z.data = .str buf size →
      runPtm R p (some a) [u] s = strTest what arg test buf size u s)
    (he : (interp w n).value e s = .ok c s1) (hc1 : s1.Shows (.str b) c) (hr : s1.Builtins) (ht : (interp w (n + 1)).eval .keep te (s1.bump (s1.eng.ptm + k)) = .ok r s2)
    (hrt : r.val = some t) (hc2 : s2.Shows (.str b) c) (ht2 : s2.Shows (.str b') t) (hr2 : s2.Ready st) (htest : b'.length ≤ b.length → (test b b' = true ↔ P)) (hlong : b.length < b'.length → ¬ P) :
    ∃ c' s' q, (interp w (n + 2)).eval .keep (.call (.access e name) [te]) s = .ok { val := some c' } s' ∧ s'.Holds c' (.bool q) ∧ (q = true ↔ P) := by
  obtain ⟨d, hd, hk⟩ := shows_kind hc1
  have hacc := access_ptm w n (name := name) (k := k) he hd (by rw [hk]; exact hname) hr
  have hg : (s1.bump (s1.eng.ptm + k)).Holds (s1.eng.ptm + k) (.fn { kind := .ptm p }) := by
    obtain ⟨x, hx, hxd, -⟩ := bump_builtins (c := s1.eng.ptm + k) hr k p hp
    exact ⟨x, hx, hxd⟩
  rw [C60_left_to_right w (n + 1) hacc rfl hg (.cons ht hrt .nil) .keep]
  have heng : s2.eng.ptm = s1.eng.ptm := (((recFr w (n + 1)).eval .keep te).out ht).ptm
  obtain ⟨x, hx, hxd, -⟩ := hr2.builtins k p hp
  rw [heng] at hx
  obtain ⟨buf, full, h1, h2, h3⟩ := (show ∃ buf full, s2.Holds c (.str buf b.length) ∧ s2.bufs[buf]? = some (some full) ∧ b <+: full by
    simpa only [St.Shows] using hc2)
  obtain ⟨buf', full', h1', h2', h3'⟩ := (show ∃ buf full, s2.Holds t (.str buf b'.length) ∧ s2.bufs[buf]? = some (some full) ∧ b' <+: full by
    simpa only [St.Shows] using ht2)
  obtain ⟨s0, h0, hall⟩ := ptm_call w ⟨x, hx, hxd⟩ h1 (by simp [Data.kind]) hr2.stack hr2.top (args := [t]) (by simpa using shows_lt ht2) hr2.rv
  have hok := (hall n).1
  obtain ⟨y, hy, hyd⟩ := h0.holds h1
  obtain ⟨z, hz, hzd⟩ := getCell_holds (h0.holds h1')
  obtain ⟨q, hq1, hq2⟩ : ∃ q, strCompare test buf b.length buf' b'.length s0 = .ok q s0 ∧ (q = true ↔ P) := by
    unfold strCompare
    split
    · rename_i hle
      rw [bind_of_ok (readBuf_some (by rw [h0.bufs]; exact h2) h3), bind_of_ok (readBuf_some (by rw [h0.bufs]; exact h2') h3')]
      exact ⟨_, rfl, htest hle⟩
    · rename_i hle
      exact ⟨false, rfl, ⟨fun h => (nomatch h), fun h => absurd h (hlong (by omega))⟩⟩
  have hrun : runPtm (interp w n) p (some c) [t] s0 = .ok s0.cells.length { s0 with cells := s0.cells ++ [{ data := .bool q }] } := by
    rw [hptm _ _ _ _ _ y s0 hy hyd]
    unfold strTest
    rw [bind_of_ok hz, hzd]
    simp only
    rw [bind_of_ok hq1]
    rfl
  rw [hok _ _ { kind := .ptm p } hrun (holds_append (h0.holds ⟨x, hx, hxd⟩)) (by simp)]
  exact ⟨_, _, q, rfl, holds_alloc .., hq2⟩

/-- **C54.** `e.startswith(te)` says whether the second string is a prefix of the first. -/
theorem C54_startswith {w : World} {n : Nat} {e te : Expr} {s s1 s2 : St} {c t : Nat} {b b' : Bytes} {st : List Nat} {r : Res}
    (he : (interp w n).value e s = .ok c s1) (hc1 : s1.Shows (.str b) c) (hr : s1.Builtins) (ht : (interp w (n + 1)).eval .keep te (s1.bump (s1.eng.ptm + 2)) = .ok r s2)
    (hrt : r.val = some t) (hc2 : s2.Shows (.str b) c) (ht2 : s2.Shows (.str b') t) (hr2 : s2.Ready st) :
    ∃ c' s' q, (interp w (n + 2)).eval .keep (.call (.access e b!"startswith") [te]) s = .ok { val := some c' } s' ∧ s'.Holds c' (.bool q) ∧ (q = true ↔ b' <+: b) :=
  str_test (what := b!"startswith") (arg := b!"start") (test := startsWith) (p := .strStartswith) rfl rfl
    (fun R a buf size u z s hz hzd => by
      unfold runPtm
      rw [bind_of_ok ((deref_ok_iff ..).2 ⟨rfl, rfl⟩), bind_of_ok ((getCell_ok_iff ..).2 ⟨hz, rfl⟩), hzd]) he hc1 hr ht hrt hc2 ht2 hr2 startsWith_iff
    fun hl h => by have := h.length_le; omega

/-- **C54.** `e.endswith(te)` says whether the second string is a suffix of the first. -/
theorem C54_endswith {w : World} {n : Nat} {e te : Expr} {s s1 s2 : St} {c t : Nat} {b b' : Bytes} {st : List Nat} {r : Res}
    (he : (interp w n).value e s = .ok c s1) (hc1 : s1.Shows (.str b) c) (hr : s1.Builtins) (ht : (interp w (n + 1)).eval .keep te (s1.bump (s1.eng.ptm + 1)) = .ok r s2)
    (hrt : r.val = some t) (hc2 : s2.Shows (.str b) c) (ht2 : s2.Shows (.str b') t) (hr2 : s2.Ready st) :
    ∃ c' s' q, (interp w (n + 2)).eval .keep (.call (.access e b!"endswith") [te]) s = .ok { val := some c' } s' ∧ s'.Holds c' (.bool q) ∧ (q = true ↔ b' <:+ b) :=
  str_test (what := b!"endswith") (arg := b!"end") (test := endsWith) (p := .strEndswith) rfl rfl
    (fun R a buf size u z s hz hzd => by
      unfold runPtm
      rw [bind_of_ok ((deref_ok_iff ..).2 ⟨rfl, rfl⟩), bind_of_ok ((getCell_ok_iff ..).2 ⟨hz, rfl⟩), hzd]) he hc1 hr ht hrt hc2 ht2 hr2 endsWith_iff
    fun hl h => by have := h.length_le; omega

example : (runScript emptyWorld 20 [] [
    sPrint (eCall (.access (eStr b!"hello") b!"len") []),
    sPrint (eCall (.access (eStr b!"main.c") b!"endswith") [eStr b!".c"]),
    sPrint (eCall (.access (eStr b!"main.c") b!"startswith") [eStr b!"main.cc"])]).printed = some [b!"5", b!"true", b!"false"] := by decide +kernel

/-- `let v = ["".len]; v[0] = [].len; print "abc".len()` -/
def swapsMember : List Stmt := [
  sLet b!"v" (.vec [.access (eStr b!"") b!"len"]),
  .line (.assign (.index (eVar b!"v") (eNum b!"0") b!"v[0]") (.access (.vec []) b!"len")),
  sPrint (eCall (.access (eStr b!"abc") b!"len") [])]

/-- **C54 fails** once a script has overwritten the member, which it can through a vector: `"abc".len()` then aborts. -/
theorem C54_overwritten_false : (runScript emptyWorld 20 [] swapsMember).isAbort = true := by decide +kernel

end Bob.Fl
