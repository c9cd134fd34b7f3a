import Verif.Lemmas.ParRun
/-!
# Trees that fit are found

The converse of what is shown in `Verif.Lemmas.ParRun`: if a tree fits the tables and its tokens are told apart, the parser builds it.
-/

namespace Bob.Parse

/-- The parser gets from one configuration to the other. -/
def Leads (c c' : Config) : Prop := ∃ k, ∀ n, run (n + 1 + k) c = run (n + 1) c'

theorem Leads.refl (c : Config) : Leads c c := ⟨0, fun _ => rfl⟩

theorem Leads.trans {a b c : Config} (h1 : Leads a b) (h2 : Leads b c) : Leads a c := by
  obtain ⟨k1, h1⟩ := h1
  obtain ⟨k2, h2⟩ := h2
  refine ⟨k2 + k1, fun n => ?_⟩
  have : n + 1 + (k2 + k1) = n + k2 + 1 + k1 := by omega
  rw [this, h1, show n + k2 + 1 = n + 1 + k2 by omega, h2]

theorem Leads.step {c c' : Config} (h : step c = .next c') : Leads c c' := ⟨1, fun n => by rw [run, h]⟩

/-- States outside of `##` comments. -/
structure Usual (e : Nat) : Prop where
  live : Live e
  hashes : e ≠ 331
  doc : e ≠ 335

theorem usual_one : Usual 1 := ⟨live_one, by decide, by decide⟩

theorem Usual.edge {q X : Nat} (h : Usual q) (hX : X < 110) (h62 : X ≠ 62) (h4 : X ≠ 4) (h5 : X ≠ 5) (he : edge q X ≠ 0) : Usual (edge q X) :=
  have := edge_ok h.live hX h62 he
  ⟨this.live, fun h => h4 (this.hashes h), fun h => h5 (this.doc h)⟩

/-- Whatever state knows token `s`, it finds `tk` at the beginning of the text. -/
structure Starts (s : Nat) (text : Bytes) (tk : Tok) : Prop where
  sym : tk.sym = s
  lex : ∀ e, Usual e → actions e s ≠ [] → ∃ m, lexMode e = some m ∧ lexTok m text = some tk

theorem Starts.look {s : Nat} {text : Bytes} {tk : Tok} (h : Starts s text tk) {st : Stack} (hl : Usual st.top) (ha : actions st.top s ≠ []) :
    Leads ⟨st, none, text⟩ ⟨st, some tk, tk.rest⟩ := by
  obtain ⟨m, h1, h2⟩ := h.lex _ hl ha
  exact ⟨0, fun n => by simp only [run, Bob.Parse.step, h1, h2]⟩

mutual
/-- Each token of the tree is found where it begins, and nothing in it is a comment. -/
def LexAll : Tree → Bytes → Prop
  | .leaf s pad text _, rest => s ≠ 4 ∧ s ≠ 5 ∧ Starts s (pad ++ (text ++ rest)) ⟨s, pad, text, rest⟩
  | .node _ _ cs _, rest => LexAlls cs rest
def LexAlls : List Tree → Bytes → Prop
  | [], _ => True
  | c :: cs, rest => c.extra = false ∧ LexAll c (yields cs ++ rest) ∧ LexAlls cs rest
end

/-- What is in a tree that fits can be read next. -/
theorem fits_act_aux : ∀ (k : Nat), (∀ {q t f : Nat} {c : Tree}, sizeOf c ≤ k → Fits q t c f → edge q c.sym ≠ 0 → (∃ r, LexAll c r) → actions q f ≠ []) ∧
    (∀ {q t f q' : Nat} {cs : List Tree}, sizeOf cs ≤ k → Chain q cs t f q' → actions q' t ≠ [] → (∃ r, LexAlls cs r) → actions q f ≠ []) := by
  intro k
  induction k with
  | zero =>
    refine ⟨fun {q t f c} hs => ?_, fun {q t f q' cs} hs => ?_⟩
    · cases c <;> simp at hs
    · cases cs <;> simp at hs
  | succ k ih =>
    refine ⟨fun {q t f c} hs h he hr => ?_, fun {q t f q' cs} hs h ha hr => ?_⟩
    · cases h with
      | leaf h60 =>
        intro h
        apply he
        simp only [Tree.sym, edge, Nat.blt_eq.mpr h60, cond_true, h, shiftTo]
      | node hc ha hl hE h60 h110 hd =>
        refine ih.2 (by simp at hs; omega) hc (by rw [ha]; simp) ?_
        obtain ⟨r, hr⟩ := hr
        exact ⟨r, by rwa [LexAll] at hr⟩
    · cases h with
      | nil => exact ha
      | extra he hc =>
        obtain ⟨r, hr⟩ := hr
        rw [LexAlls] at hr
        rw [he.extra] at hr
        cases hr.1
      | cons hx he hf hc =>
        obtain ⟨r, hr⟩ := hr
        rw [LexAlls] at hr
        exact ih.1 (by simp at hs; omega) hf he ⟨_, hr.2.1⟩

theorem fits_act {q t f : Nat} {c : Tree} {r : Bytes} (h : Fits q t c f) (he : edge q c.sym ≠ 0) (hr : LexAll c r) : actions q f ≠ [] :=
  (fits_act_aux (sizeOf c)).1 (Nat.le_refl _) h he ⟨r, hr⟩

theorem chain_act {q t f q' : Nat} {cs : List Tree} {r : Bytes} (h : Chain q cs t f q') (ha : actions q' t ≠ []) (hr : LexAlls cs r) : actions q f ≠ [] :=
  (fits_act_aux (sizeOf cs)).2 (Nat.le_refl _) h ha ⟨r, hr⟩

theorem splitExtras_none {cs : List Tree} (h : ∀ c ∈ cs, c.extra = false) : splitExtras cs = (cs, []) := by
  have h1 : cs.reverse.dropWhile Tree.extra = cs.reverse := by
    cases hr : cs.reverse with
    | nil => rfl
    | cons a l =>
      have : a ∈ cs := by rw [← List.mem_reverse, hr]; exact List.mem_cons_self ..
      rw [List.dropWhile_cons, h a this]; rfl
  have h2 : cs.reverse.takeWhile Tree.extra = [] := by
    cases hr : cs.reverse with
    | nil => rfl
    | cons a l =>
      have : a ∈ cs := by rw [← List.mem_reverse, hr]; exact List.mem_cons_self ..
      rw [List.takeWhile_cons, h a this]; rfl
  simp [splitExtras, h1, h2]

theorem LexAlls.extra : ∀ {cs : List Tree} {r : Bytes}, LexAlls cs r → ∀ c ∈ cs, c.extra = false
  | [], _, _, _, h => by cases h
  | c :: cs, r, h, d, hd => by
    rw [LexAlls] at h
    rcases List.mem_cons.1 hd with rfl | hd
    · exact h.1
    · exact LexAlls.extra h.2.2 d hd

theorem solid_length {cs : List Tree} (h : ∀ c ∈ cs, c.extra = false) : (solid cs).length = cs.length := by
  rw [solid, List.length_map, List.filter_eq_self.2]
  intro a ha
  rw [h a ha]; rfl

theorem leads_aux : ∀ (k : Nat),
    (∀ {q t f : Nat} {c : Tree}, sizeOf c ≤ k → Fits q t c f → Usual q → edge q c.sym ≠ 0 → actions (edge q c.sym) t ≠ [] →
      ∀ {st : Stack} {rest : Bytes} {tk : Tok}, st.top = q → Starts t rest tk → LexAll c rest →
      ∃ tk0, Starts f (c.yield ++ rest) tk0 ∧ Leads ⟨st, some tk0, tk0.rest⟩ ⟨(edge q c.sym, c) :: st, some tk, tk.rest⟩) ∧
    (∀ {q t f q' : Nat} {cs : List Tree}, sizeOf cs ≤ k → Chain q cs t f q' → Usual q → actions q' t ≠ [] →
      ∀ {st : Stack} {rest : Bytes} {tk : Tok}, st.top = q → Starts t rest tk → LexAlls cs rest →
      ∃ tk0 st', Starts f (yields cs ++ rest) tk0 ∧ st'.top = q' ∧ (∀ acc n, popCount (n + cs.length) st' acc = popCount n st (cs ++ acc)) ∧
        Leads ⟨st, some tk0, tk0.rest⟩ ⟨st', some tk, tk.rest⟩) := by
  intro k
  induction k with
  | zero =>
    refine ⟨fun {q t f c} hs => ?_, fun {q t f q' cs} hs => ?_⟩
    · cases c <;> simp at hs
    · cases cs <;> simp at hs
  | succ k ih =>
    refine ⟨fun {q t f c} hs h hq he ha {st rest tk} ht hn hl => ?_, fun {q t f q' cs} hs h hq ha {st rest tk} ht hn hl => ?_⟩
    · have hsym := h.sym
      cases h with
      | @leaf _ _ s pad text h60 =>
        rw [LexAll] at hl
        refine ⟨⟨f, pad, text, rest⟩, by simpa [Tree.yield] using hl.2.2, ?_⟩
        have hq' := hq.edge hsym.1 hsym.2 hl.1 hl.2.1 he
        simp only [Tree.sym] at he ha hq' ⊢
        have hs : actions q f = [.shift (edge q f)] := by
          have := he
          simp only [edge, Nat.blt_eq.mpr h60, cond_true] at this ⊢
          generalize actions q f = as at *
          match as, this with
          | [.shift x], _ => rfl
        have h1 : Leads ⟨st, some ⟨f, pad, text, rest⟩, rest⟩ ⟨(edge q f, .leaf f pad text false) :: st, none, rest⟩ :=
          Leads.step (by simp only [step, stepTok, ht, hs])
        exact h1.trans (hn.look hq' ha)
      | @node _ _ _ q' A n pid cs hc hr hlen hE h60 h110 hd =>
        rw [LexAll] at hl
        obtain ⟨tk0, st', h1, h2, h3, h4⟩ := ih.2 (by simp at hs; omega) hc hq (by rw [hr]; simp) ht hn hl
        refine ⟨tk0, by simpa [Tree.yield] using h1, h4.trans (Leads.step ?_)⟩
        have hx := LexAlls.extra hl
        rw [solid_length hx] at hlen
        have h5 := h3 [] 0
        rw [Nat.zero_add, popCount, List.append_nil] at h5
        have hg : goto q A = edge q A := by simp [edge, show Nat.blt A 60 = false from by rw [← Bool.not_eq_true, Nat.blt_eq]; omega]
        simp only [step, stepTok, h2, hn.sym, hr, reduce, ← hlen, h5, splitExtras_none hx, pushAll, Tree.sym, ht, hg, Bool.false_and]
    · cases h with
      | nil => exact ⟨tk, st, by simpa [yields] using hn, ht, fun acc n => rfl, Leads.refl _⟩
      | extra he hc =>
        rw [LexAlls, he.extra] at hl
        cases hl.1
      | @cons _ _ f1 _ _ c cs hx he hf hc =>
        rw [LexAlls] at hl
        have h45 : c.sym ≠ 4 ∧ c.sym ≠ 5 := by
          cases c with
          | leaf s pad text x => have := hl.2.1; rw [LexAll] at this; exact ⟨this.1, this.2.1⟩
          | node A pid cs x =>
            cases hf with
            | node _ _ _ _ h60 => constructor <;> simp only [Tree.sym] <;> omega
        have hq' := hq.edge hf.sym.1 hf.sym.2 h45.1 h45.2 he
        obtain ⟨tk1, st', h1, h2, h3, h4⟩ := ih.2 (st := (edge q c.sym, c) :: st) (by simp at hs; omega) hc hq' ha rfl hn hl.2.2
        obtain ⟨tk0, h5, h6⟩ := ih.1 (st := st) (by simp at hs; omega) hf hq he (chain_act hc ha hl.2.2) ht h1 hl.2.1
        refine ⟨tk0, st', by simpa [yields] using h5, h2, fun acc n => ?_, h6.trans h4⟩
        rw [List.length_cons, show n + (cs.length + 1) = n + 1 + cs.length by omega, h3, popCount, if_neg (by rw [hx]; simp)]
        rfl

theorem chk_eof : ((List.range 336).all fun q => Nat.beq q 0 || Nat.beq q 331 || Nat.beq q 335 || match lexMode q with
    | none => false
    | some m => lexTok m [] == some ⟨0, [], [], []⟩) = true := by decide +kernel

theorem starts_eof : Starts 0 [] ⟨0, [], [], []⟩ where
  sym := rfl
  lex e he _ := by
    have := List.all_eq_true.1 chk_eof e (List.mem_range.2 he.live.2)
    simp only [Bool.or_eq_true, Nat.beq_eq, he.live.1, he.hashes, he.doc, false_or] at this
    cases hm : lexMode e with
    | none => simp [hm] at this
    | some m =>
      simp only [hm, beq_iff_eq] at this
      exact ⟨m, rfl, this⟩

/-- A script whose tree fits, and whose tokens are told apart, is parsed to that tree. -/
theorem parses_of_fits {pid f : Nat} {cs : List Tree} (h : Fits 1 0 (.node 60 pid cs false) f) (hl : LexAlls cs [])
    (hm : dropMark (yields cs) = yields cs) :
    Parses (yields cs) (.tree (.node 60 pid (cs ++ [.leaf 0 [] [] true]) false)) := by
  have heof : Starts 0 [] ⟨0, [], [], []⟩ := starts_eof
  have he : edge 1 60 = 327 := by decide +kernel
  have ha : actions 327 0 = [.accept] := by decide +kernel
  obtain ⟨tk0, h1, h2⟩ := (leads_aux (sizeOf (Tree.node 60 pid cs false))).1 (Nat.le_refl _) h usual_one (by simp only [Tree.sym, he]; decide)
    (by simp only [Tree.sym, he, ha]; simp) (st := []) rfl heof (by rwa [LexAll])
  simp only [Tree.yield, List.append_nil, Tree.sym, he] at h1 h2
  have h3 := (h1.look (st := []) usual_one (fits_act h (by simp only [Tree.sym]; decide) (r := []) (by rwa [LexAll]))).trans h2
  obtain ⟨k, h3⟩ := h3
  refine ⟨0 + 1 + k, ?_⟩
  rw [start, hm, h3]
  simp only [run, step, stepTok, Stack.top, ha, List.map, acceptFrom, Tree.extra, if_true, Bool.false_eq_true, if_false, List.reverse_nil, List.nil_append]

end Bob.Parse
