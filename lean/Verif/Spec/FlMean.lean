import Verif.Spec.FlVal
import Verif.Model.Flamingo.Setup
/-!
# What build scripts mean

A description of build scripts without memory: names stand for values (trees), expressions have values and ask for things to be
built, one after the other.  It covers scripts that import `bob` and otherwise consist of declarations, assignments, `print` and
`assert`, with literals, operators, members of strings and vectors, functions `|x| expression` given to `map` and `where`,
`Fs.list(…)`, `Cc(…).compile(…)` and `Linker(…).link(…)`.
-/

namespace Bob.Fl

/-- What names stand for; the first entry counts. -/
abbrev Names := List (Bytes × Val)

/-- What a script asks for. -/
inductive Ask where
  | compile (flags srcs : List Bytes)
  | link (archive : Bool) (flags objs : List Bytes)

/-- A vector of strings. -/
def Val.strs (bs : List Bytes) : Val := .vec (bs.map .str)

/-- The file an object is put in. -/
def World.object (w : World) (src : Bytes) : Bytes := genCookie w.signed w.outPath src b!"o"

/-- The request bob gets. -/
def Ask.req (w : World) : Ask → Req
  | .compile flags srcs => .compile (srcs.map fun p => { src := p, out := w.object p, flags := flags })
  | .link archive flags objs => .link { archive := archive, srcs := objs, out := linkCookie w.signed w.outPath archive objs, flags := flags }

/-- A 64-bit integer. -/
def Word (i : Int) : Prop := -9223372036854775808 ≤ i ∧ i ≤ 9223372036854775807

/-- What a number literal says: digits, and underscores that do not matter. -/
def numeralVal (t : Bytes) : Nat := (t.filter fun c => c ≠ 95).foldl (fun n c => n * 10 + (c.toNat - 48)) 0

/-- Unary operators. -/
inductive UnVal : UnOp → Val → Val → Prop
  | neg {i : Int} : Word (-i) → UnVal .neg (.int i) (.int (-i))
  | not {b : Bool} : UnVal .not (.bool b) (.bool !b)

/-- Binary operators (not all of them). -/
inductive BinVal : BinOp → Val → Val → Val → Prop
  | add {a b : Int} : Word (a + b) → BinVal .add (.int a) (.int b) (.int (a + b))
  | sub {a b : Int} : Word (a - b) → BinVal .sub (.int a) (.int b) (.int (a - b))
  | mul {a b : Int} : Word (a * b) → BinVal .mul (.int a) (.int b) (.int (a * b))
  | lt {a b : Int} : BinVal .lt (.int a) (.int b) (.bool (decide (a < b)))
  | le {a b : Int} : BinVal .le (.int a) (.int b) (.bool (decide (a ≤ b)))
  | gt {a b : Int} : BinVal .gt (.int a) (.int b) (.bool (decide (b < a)))
  | ge {a b : Int} : BinVal .ge (.int a) (.int b) (.bool (decide (b ≤ a)))
  /-- Rounded towards zero. -/
  | div {a b : Int} : b ≠ 0 → Word (a.tdiv b) → BinVal .div (.int a) (.int b) (.int (a.tdiv b))
  | mod {a b : Int} : b ≠ 0 → Word (a.tdiv b) → BinVal .mod (.int a) (.int b) (.int (a.tmod b))
  | and {a b : Bool} : BinVal .and (.bool a) (.bool b) (.bool (a && b))
  | or {a b : Bool} : BinVal .or (.bool a) (.bool b) (.bool (a || b))
  | xor {a b : Bool} : BinVal .xor (.bool a) (.bool b) (.bool (a ^^ b))
  /-- Equality is that of trees, up to the order of the entries of maps. -/
  | eq {u v : Val} {b : Bool} : u.kind = v.kind → u.Proper → v.Proper → (b = true ↔ u.Same v) → BinVal .eq u v (.bool b)
  | ne {u v : Val} {b : Bool} : u.kind = v.kind → u.Proper → v.Proper → (b = true ↔ ¬ u.Same v) → BinVal .ne u v (.bool b)
  | eqNone {u v : Val} : u.kind = .none ∨ v.kind = .none → BinVal .eq u v (.bool (decide (u.kind = v.kind)))
  | neNone {u v : Val} : u.kind = .none ∨ v.kind = .none → BinVal .ne u v (.bool (decide (u.kind ≠ v.kind)))
  | cat {a b : Bytes} : BinVal .add (.str a) (.str b) (.str (a ++ b))
  | vecs {a b : List Val} : BinVal .add (.vec a) (.vec b) (.vec (a ++ b))
  | maps {a b : List (Val × Val)} : BinVal .add (.map a) (.map b) (.map (a ++ b))

/-- The element at a position, where negative ones count from the end. -/
def pick (vs : List Val) (i : Int) : Option Val := if 0 ≤ i then vs[i.toNat]? else if (-i).toNat ≤ vs.length then vs[vs.length - (-i).toNat]? else none

/-- The value at a key: of the first entry with that key, and `none` if there is no such entry. -/
inductive Entry : List (Val × Val) → Val → Val → Prop
  | nothing {k : Val} : Entry [] k .none
  | here {a v k : Val} {items : List (Val × Val)} : a.Same k → Entry ((a, v) :: items) k v
  | later {a u k v : Val} {items : List (Val × Val)} : ¬ a.Same k → Entry items k v → Entry ((a, u) :: items) k v

/-- The names of bob's classes. -/
def bobClasses : List Bytes := [b!"Fs", b!"Cc", b!"Linker"]

mutual

/-- The expression has the value and asks for these things, in this order. -/
inductive Means (w : World) : Names → Expr → Val → List Ask → Prop
  | none {ρ} : Means w ρ (.lit .none) .none []
  | bool {ρ} (b : Bool) : Means w ρ (.lit (.bool b)) (.bool b) []
  | num {ρ} {t : Bytes} : (∀ c ∈ t, c = 95 ∨ 48 ≤ c ∧ c ≤ 57) → Word (numeralVal t) → Means w ρ (.lit (.num t)) (.int (numeralVal t)) []
  | str {ρ} (b : Bytes) : Means w ρ (.lit (.str b)) (.str b) []
  | ident {ρ} {x : Bytes} {v : Val} : ρ.lookup x = some v → Means w ρ (.ident x) v []
  | paren {ρ e v r} : Means w ρ e v r → Means w ρ (.paren e) v r
  | un {ρ op e v u r} : Means w ρ e v r → UnVal op v u → Means w ρ (.un op e) u r
  | bin {ρ op e₁ e₂ v₁ v₂ v r₁ r₂} : Means w ρ e₁ v₁ r₁ → Means w ρ e₂ v₂ r₂ → BinVal op v₁ v₂ v → Means w ρ (.bin op e₁ e₂) v (r₁ ++ r₂)
  | vec {ρ es vs r} : Helds w ρ es vs r → Means w ρ (.vec es) (.vec vs) r
  | map {ρ es} {items : List (Val × Val)} {r} : HeldItems w ρ es items r → (∀ a ∈ items, a.1.Proper) → (items.Pairwise fun a b => ¬ a.1.Same b.1) →
      Means w ρ (.map es) (.map items) r
  | index {ρ e i v} {vs : List Val} {k : Int} {r r'} : Means w ρ e (.vec vs) r → Means w ρ i (.int k) r' → Word (-k) → pick vs k = some v →
      Means w ρ (.index e i) v (r ++ r')
  | entry {ρ e i k v} {items : List (Val × Val)} {r r'} : Means w ρ e (.map items) r → Means w ρ i k r' → (∀ a ∈ items, a.1.Proper) → k.Proper → Entry items k v →
      Means w ρ (.index e i) v (r ++ r')
  | len {ρ e} {b : Bytes} {r} : Means w ρ e (.str b) r → Means w ρ (.call (.access e b!"len") []) (.int b.length) r
  | lenVec {ρ e} {vs : List Val} {r} : Means w ρ e (.vec vs) r → Means w ρ (.call (.access e b!"len") []) (.int vs.length) r
  | startswith {ρ e a} {b p : Bytes} {r r'} : Means w ρ e (.str b) r → Means w ρ a (.str p) r' →
      Means w ρ (.call (.access e b!"startswith") [a]) (.bool (p.isPrefixOf b)) (r ++ r')
  | endswith {ρ e a} {b p : Bytes} {r r'} : Means w ρ e (.str b) r → Means w ρ a (.str p) r' →
      Means w ρ (.call (.access e b!"endswith") [a]) (.bool (p.isSuffixOf b)) (r ++ r')
  /-- `e.map(|x| b)` -/
  | each {ρ e x b} {vs us : List Val} {r r'} : Means w ρ e (.vec vs) r → x ∉ bobClasses → Maps w ρ x b vs us r' →
      Means w ρ (.call (.access e b!"map") [.lambda [x] (.expr b)]) (.vec us) (r ++ r')
  /-- `e.where(|x| b)` -/
  | where {ρ e x b} {vs us : List Val} {r r'} : Means w ρ e (.vec vs) r → x ∉ bobClasses → Wheres w ρ x b vs us r' →
      Means w ρ (.call (.access e b!"where") [.lambda [x] (.expr b)]) (.vec us) (r ++ r')
  /-- `Fs.list(e)` -/
  | list {ρ e} {d : Bytes} {ps : List Bytes} {r} : Means w ρ e (.str d) r → w.list d = some ps →
      Means w ρ (.call (.access (.ident b!"Fs") b!"list") [e]) (.strs ps) r
  /-- `Cc(fl).compile(e)` -/
  | compile {ρ fl e} {fs ps : List Bytes} {r r'} : Means w ρ fl (.strs fs) r → Means w ρ e (.strs ps) r' →
      Means w ρ (.call (.access (.call (.ident b!"Cc") [fl]) b!"compile") [e]) (.strs (ps.map w.object)) (r ++ r' ++ [.compile fs ps])

/-- The same where the value is kept for good: as an element, or by a variable that is not assigned to.  Only there, the result of
linking may be used. -/
inductive Held (w : World) : Names → Expr → Val → List Ask → Prop
  | value {ρ e v r} : Means w ρ e v r → Held w ρ e v r
  /-- `Linker(fl).link(e)` -/
  | link {ρ fl e} {fs ps : List Bytes} {r r'} : Means w ρ fl (.strs fs) r → Means w ρ e (.strs ps) r' →
      Held w ρ (.call (.access (.call (.ident b!"Linker") [fl]) b!"link") [e]) (.str (linkCookie w.signed w.outPath false ps)) (r ++ r' ++ [.link false fs ps])
  /-- `Linker(fl).archive(e)` -/
  | archive {ρ fl e} {fs ps : List Bytes} {r r'} : Means w ρ fl (.strs fs) r → Means w ρ e (.strs ps) r' →
      Held w ρ (.call (.access (.call (.ident b!"Linker") [fl]) b!"archive") [e]) (.str (linkCookie w.signed w.outPath true ps)) (r ++ r' ++ [.link true fs ps])

inductive Helds (w : World) : Names → List Expr → List Val → List Ask → Prop
  | nil {ρ} : Helds w ρ [] [] []
  | cons {ρ e es v vs r r'} : Held w ρ e v r → Helds w ρ es vs r' → Helds w ρ (e :: es) (v :: vs) (r ++ r')

inductive HeldItems (w : World) : Names → List (Expr × Expr) → List (Val × Val) → List Ask → Prop
  | nil {ρ} : HeldItems w ρ [] [] []
  | cons {ρ k e es a v items r r' r''} : Held w ρ k a r → Held w ρ e v r' → HeldItems w ρ es items r'' → HeldItems w ρ ((k, e) :: es) ((a, v) :: items) (r ++ r' ++ r'')

/-- `b` for each of the values as `x`. -/
inductive Maps (w : World) : Names → Bytes → Expr → List Val → List Val → List Ask → Prop
  | nil {ρ x b} : Maps w ρ x b [] [] []
  | cons {ρ x b v u vs us r r'} : Means w ((x, v) :: ρ) b u r → Maps w ρ x b vs us r' → Maps w ρ x b (v :: vs) (u :: us) (r ++ r')

/-- Those of the values for which `b`, with the value as `x`, is true. -/
inductive Wheres (w : World) : Names → Bytes → Expr → List Val → List Val → List Ask → Prop
  | nil {ρ x b} : Wheres w ρ x b [] [] []
  | yes {ρ x b v vs us r r'} : Means w ((x, v) :: ρ) b (.bool true) r → Wheres w ρ x b vs us r' → Wheres w ρ x b (v :: vs) (v :: us) (r ++ r')
  | no {ρ x b v vs us r r'} : Means w ((x, v) :: ρ) b (.bool false) r → Wheres w ρ x b vs us r' → Wheres w ρ x b (v :: vs) us (r ++ r')

end

/-- The value of a name is replaced. -/
def Names.set (ρ : Names) (x : Bytes) (v : Val) : Names := ρ.map fun b => if b.1 = x then (x, v) else b

/-- The rest of a script: from the names known before to those known in the end, with what is asked for and printed.  `A` are the names
that are assigned to somewhere. -/
inductive Runs (w : World) (A : List Bytes) : Names → List Stmt → Names → List Ask → List Bytes → Prop
  | nil {ρ} : Runs w A ρ [] ρ [] []
  | skip {ρ ρ' ss r o} : Runs w A ρ ss ρ' r o → Runs w A ρ (.skip :: ss) ρ' r o
  | empty {ρ ρ' st x ss r o} : ρ.lookup x = none → x ∉ bobClasses → Runs w A ((x, .none) :: ρ) ss ρ' r o → Runs w A ρ (.line (.decl st x none) :: ss) ρ' r o
  | decl {ρ ρ' st x e v ss r r' o} : ρ.lookup x = none → x ∉ bobClasses → Means w ρ e v r → Runs w A ((x, v) :: ρ) ss ρ' r' o →
      Runs w A ρ (.line (.decl st x (some e)) :: ss) ρ' (r ++ r') o
  | fixed {ρ ρ' st x e v ss r r' o} : ρ.lookup x = none → x ∉ bobClasses → x ∉ A → Held w ρ e v r → Runs w A ((x, v) :: ρ) ss ρ' r' o →
      Runs w A ρ (.line (.decl st x (some e)) :: ss) ρ' (r ++ r') o
  | assign {ρ ρ' x u e v ss r r' o} : ρ.lookup x = some u → Means w ρ e v r → Runs w A (ρ.set x v) ss ρ' r' o →
      Runs w A ρ (.line (.assign (.ident x) e) :: ss) ρ' (r ++ r') o
  | print {ρ ρ' e v ss r r' o} : Means w ρ e v r → Runs w A ρ ss ρ' r' o → Runs w A ρ (.line (.print e) :: ss) ρ' (r ++ r') (v.line :: o)
  | assert {ρ ρ' e t ss r r' o} : Means w ρ e (.bool true) r → Runs w A ρ ss ρ' r' o → Runs w A ρ (.line (.assert e t) :: ss) ρ' (r ++ r') o

/-- The bytes of a string. -/
def Val.bytes? : Val → Option Bytes
  | .str b => some b
  | _ => Option.none

/-- What `bob install` and `bob run` see of a value. -/
def Val.script : Val → ScriptVal
  | .none => .none
  | .vec vs => .vec (vs.map Val.bytes?)
  | .map items => .map (items.map fun e => (e.1.bytes?, e.2.bytes?))
  | _ => .other

/-- What `import bob` makes known, apart from the classes. -/
def bobNames : Names := [(b!"run", .vec []), (b!"install", .none), (b!"__bob_has_been_imported__", .none)]

end Bob.Fl
