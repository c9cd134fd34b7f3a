import Verif.Model.Base
/-!
# Tables of the generated parser

Written by `tools/gen_tables.py` from `/repo/src/flamingo/parser.c`; nothing here is written by hand.  Symbols and states are the
numbers of the C code, see `enum ts_symbol_identifiers` (`parser.c:17-127`).
-/

namespace Bob.Parse

/-- `TSParseAction`, `src/flamingo/tree_sitter/parser.h:59-75`.  No action of this parser has a dynamic precedence. -/
inductive Act where
  | shift (state : Nat)
  /-- `SHIFT_REPEAT`: a shift with `repetition` set -/
  | shiftRepeat (state : Nat)
  | shiftExtra
  | reduce (sym count pid : Nat)
  | recover
  | accept
deriving DecidableEq, Repr

/-- One row of `ts_parse_table` or `ts_small_parse_table` (`parser.c:3131-3990`, `parser.c:3992-14561`), with
the actions of `ts_parse_actions` in place of their indices: tokens that have the same actions, then the next states for nonterminals.  The set of tokens with some actions is the
number in which their bits are set. -/
structure Row where
  acts : List (List Act × Nat)
  gotos : List (Nat × Nat)

/-- One state of `ts_lex`: the token of `ACCEPT_TOKEN`, where `if (eof) ADVANCE` leads, and the other jumps in order: ranges of characters,
the next state, and whether it is `SKIP`.  The conditions treat all characters from 128 on (and undecodable bytes) alike, so
they are conditions on bytes, in which such characters are bytes from 128 on. -/
structure LexState where
  accept : Option Nat
  eof : Option Nat
  edges : List (List (Nat × Nat) × Nat × Bool)

/-- Arrays, as decision trees on the index. -/
inductive Arr (α : Type) where
  | leaf (a : α)
  | node (mid : Nat) (l r : Arr α)

def Arr.get {α : Type} : Arr α → Nat → α
  | .leaf a, _ => a
  | .node m l r, i => bif Nat.blt i m then l.get i else r.get i

/-- `STATE_COUNT`, `SYMBOL_COUNT`, `TOKEN_COUNT`, `parser.c:7-15`. -/
def stateCount : Nat := 336
def symbolCount : Nat := 110
def tokenCount : Nat := 60

/-- `ts_symbol_names` (`parser.c:131-242`). -/
def symbolNames : List Bytes := [
  b!"end",
  b!";",
  b!"\n",
  b!"comment",
  b!"##",
  b!"doc_comment_content",
  b!"{",
  b!"}",
  b!"import",
  b!".",
  b!"static",
  b!"pure",
  b!"proto",
  b!"(",
  b!")",
  b!"->",
  b!"fn",
  b!"|",
  b!"class",
  b!"print",
  b!"assert",
  b!"return",
  b!"vec",
  b!"map",
  b!"<",
  b!">",
  b!",",
  b!":",
  b!"let",
  b!"=",
  b!"-",
  b!"!",
  b!"power_operator",
  b!"*",
  b!"/",
  b!"%",
  b!"+",
  b!"==",
  b!"!=",
  b!"<=",
  b!">=",
  b!"and_operator",
  b!"||",
  b!"^^",
  b!"[",
  b!"]",
  b!"++",
  b!"===",
  b!"any",
  b!"int",
  b!"str",
  b!"bool",
  b!"void",
  b!"identifier_token1",
  b!"number",
  b!"string",
  b!"true",
  b!"false",
  b!"error",
  b!"none",
  b!"source_file",
  b!"_statement_list",
  b!"doc_comment",
  b!"_line_insensitive_statement",
  b!"statement",
  b!"block",
  b!"import",
  b!"import_path",
  b!"import_relative_dot",
  b!"qualifier",
  b!"qualifier_list",
  b!"proto",
  b!"function_declaration",
  b!"lambda",
  b!"class_declaration",
  b!"print",
  b!"assert",
  b!"return",
  b!"expression",
  b!"parenthesized_expression",
  b!"access",
  b!"call",
  b!"type_name",
  b!"type",
  b!"param",
  b!"param_list",
  b!"arg_list",
  b!"literal",
  b!"var_decl",
  b!"assignment",
  b!"unary_operator",
  b!"unary_expression",
  b!"multiplicative_operator",
  b!"additive_operator",
  b!"comparative_operator",
  b!"or_operator",
  b!"binary_expression",
  b!"vec",
  b!"index",
  b!"slice",
  b!"map_item",
  b!"map",
  b!"overloadable_operator",
  b!"primitive_type",
  b!"identifier",
  b!"bool",
  b!"qualifier_list_repeat1",
  b!"param_list_repeat1",
  b!"arg_list_repeat1",
  b!"map_repeat1"]

/-- `.visible` and `.named` of `ts_symbol_metadata` (`parser.c:357-798`). -/
def symbolMeta : List (Bool × Bool) := [
  (false, true), (true, false), (true, false), (true, true), (true, false), (true, true), (true, false), (true, false),
  (true, false), (true, false), (true, false), (true, false), (true, false), (true, false), (true, false), (true, false),
  (true, false), (true, false), (true, false), (true, false), (true, false), (true, false), (true, false), (true, false),
  (true, false), (true, false), (true, false), (true, false), (true, false), (true, false), (true, false), (true, false),
  (true, true), (true, false), (true, false), (true, false), (true, false), (true, false), (true, false), (true, false),
  (true, false), (true, true), (true, false), (true, false), (true, false), (true, false), (true, false), (true, false),
  (true, false), (true, false), (true, false), (true, false), (true, false), (false, false), (true, true), (true, true),
  (true, false), (true, false), (true, false), (true, true), (true, true), (false, false), (true, true), (false, true),
  (true, true), (true, true), (true, true), (true, true), (true, true), (true, true), (true, true), (true, true),
  (true, true), (true, true), (true, true), (true, true), (true, true), (true, true), (true, true), (true, true),
  (true, true), (true, true), (true, true), (true, true), (true, true), (true, true), (true, true), (true, true),
  (true, true), (true, true), (true, true), (true, true), (true, true), (true, true), (true, true), (true, true),
  (true, true), (true, true), (true, true), (true, true), (true, true), (true, true), (true, true), (true, true),
  (true, true), (true, true), (false, false), (false, false), (false, false), (false, false)]

/-- `ts_field_map_slices` and `ts_field_map_entries` (`parser.c:867-921`, `parser.c:923-1100`): for each production id
the fields of its children, by number of the child.  No field of this parser is inherited from a hidden child, except as marked. -/
def fieldMap : List (Nat × List (Bytes × Nat × Bool)) := [
  (1, [(b!"path", 1, false)]),
  (2, [(b!"bit", 0, false)]),
  (3, [(b!"name", 1, false)]),
  (4, [(b!"ident", 0, false)]),
  (5, [(b!"msg", 1, false)]),
  (6, [(b!"test", 1, false)]),
  (7, [(b!"rv", 1, false)]),
  (8, [(b!"operand", 1, false), (b!"operator", 0, false)]),
  (9, [(b!"body", 1, false)]),
  (10, [(b!"path", 2, false), (b!"relative", 1, false)]),
  (11, [(b!"expression", 1, false)]),
  (12, [(b!"body", 2, false), (b!"name", 1, false)]),
  (13, [(b!"body", 2, false)]),
  (14, [(b!"name", 2, false), (b!"qualifiers", 0, false)]),
  (15, [(b!"accessed", 0, false), (b!"accessor", 2, false)]),
  (16, [(b!"callable", 0, false)]),
  (17, [(b!"left", 0, false), (b!"operator", 1, false), (b!"right", 2, false)]),
  (18, [(b!"left", 0, false), (b!"right", 2, false)]),
  (19, [(b!"key", 0, false), (b!"value", 2, false)]),
  (20, [(b!"bit", 0, false), (b!"rest", 2, false)]),
  (21, [(b!"name", 1, false), (b!"ret_type", 3, false)]),
  (22, [(b!"body", 3, false), (b!"params", 1, false)]),
  (23, [(b!"ident", 0, false), (b!"type", 2, false)]),
  (24, [(b!"name", 1, false), (b!"type", 3, false)]),
  (25, [(b!"initial", 3, false), (b!"name", 1, false)]),
  (26, [(b!"body", 3, false), (b!"name", 2, false), (b!"qualifiers", 0, false)]),
  (27, [(b!"args", 2, false), (b!"callable", 0, false)]),
  (28, [(b!"indexed", 0, false)]),
  (29, [(b!"index", 2, false), (b!"indexed", 0, false)]),
  (30, [(b!"name", 1, false), (b!"params", 3, false)]),
  (31, [(b!"body", 4, false), (b!"name", 1, false)]),
  (32, [(b!"body", 4, false), (b!"name", 1, false), (b!"ret_type", 3, false)]),
  (33, [(b!"name", 2, false), (b!"qualifiers", 0, false), (b!"ret_type", 4, false)]),
  (34, [(b!"name", 2, false), (b!"qualifiers", 0, false), (b!"type", 4, false)]),
  (35, [(b!"initial", 4, false), (b!"name", 2, false), (b!"qualifiers", 0, false)]),
  (36, [(b!"indexed", 0, false), (b!"slice_end", 3, false)]),
  (37, [(b!"indexed", 0, false), (b!"slice_begin", 2, false)]),
  (38, [(b!"name", 1, false), (b!"ret_type", 5, false)]),
  (39, [(b!"body", 5, false), (b!"name", 1, false), (b!"params", 3, false)]),
  (40, [(b!"initial", 5, false), (b!"name", 1, false), (b!"type", 3, false)]),
  (41, [(b!"name", 2, false), (b!"params", 4, false), (b!"qualifiers", 0, false)]),
  (42, [(b!"body", 5, false), (b!"name", 2, false), (b!"qualifiers", 0, false)]),
  (43, [(b!"body", 5, false), (b!"name", 2, false), (b!"qualifiers", 0, false), (b!"ret_type", 4, false)]),
  (44, [(b!"indexed", 0, false), (b!"slice_begin", 2, false), (b!"slice_end", 4, false)]),
  (45, [(b!"name", 1, false), (b!"params", 3, false), (b!"ret_type", 6, false)]),
  (46, [(b!"body", 6, false), (b!"name", 1, false), (b!"ret_type", 5, false)]),
  (47, [(b!"name", 2, false), (b!"qualifiers", 0, false), (b!"ret_type", 6, false)]),
  (48, [(b!"body", 6, false), (b!"name", 2, false), (b!"params", 4, false), (b!"qualifiers", 0, false)]),
  (49, [(b!"initial", 6, false), (b!"name", 2, false), (b!"qualifiers", 0, false), (b!"type", 4, false)]),
  (50, [(b!"body", 7, false), (b!"name", 1, false), (b!"params", 3, false), (b!"ret_type", 6, false)]),
  (51, [(b!"name", 2, false), (b!"params", 4, false), (b!"qualifiers", 0, false), (b!"ret_type", 7, false)]),
  (52, [(b!"body", 7, false), (b!"name", 2, false), (b!"qualifiers", 0, false), (b!"ret_type", 6, false)]),
  (53, [(b!"body", 8, false), (b!"name", 2, false), (b!"params", 4, false), (b!"qualifiers", 0, false), (b!"ret_type", 7, false)])]

/-- `ts_lex_modes` (`parser.c:2792-3129`); `none` is `(TSStateId)(-1)`. -/
def lexModes : Arr (Option Nat) :=
  .node 168 (.node 84 (.node 42 (.node 21 (.node 10 (.node 5 (.node 2 (.node 1 (.leaf (some 0)) (.leaf (some 42)))
  (.node 3 (.leaf (some 42)) (.node 4 (.leaf (some 42)) (.leaf (some 42)))))
  (.node 7 (.node 6 (.leaf (some 42)) (.leaf (some 42)))
  (.node 8 (.leaf (some 42)) (.node 9 (.leaf (some 42)) (.leaf (some 42))))))
  (.node 15 (.node 12 (.node 11 (.leaf (some 42)) (.leaf (some 42)))
  (.node 13 (.leaf (some 42)) (.node 14 (.leaf (some 41)) (.leaf (some 41)))))
  (.node 18 (.node 16 (.leaf (some 1)) (.node 17 (.leaf (some 5)) (.leaf (some 5))))
  (.node 19 (.leaf (some 5)) (.node 20 (.leaf (some 5)) (.leaf (some 5)))))))
  (.node 31 (.node 26 (.node 23 (.node 22 (.leaf (some 5)) (.leaf (some 5)))
  (.node 24 (.leaf (some 5)) (.node 25 (.leaf (some 5)) (.leaf (some 5)))))
  (.node 28 (.node 27 (.leaf (some 5)) (.leaf (some 5)))
  (.node 29 (.leaf (some 5)) (.node 30 (.leaf (some 5)) (.leaf (some 5))))))
  (.node 36 (.node 33 (.node 32 (.leaf (some 5)) (.leaf (some 5)))
  (.node 34 (.leaf (some 5)) (.node 35 (.leaf (some 5)) (.leaf (some 5)))))
  (.node 39 (.node 37 (.leaf (some 5)) (.node 38 (.leaf (some 5)) (.leaf (some 5))))
  (.node 40 (.leaf (some 5)) (.node 41 (.leaf (some 5)) (.leaf (some 5))))))))
  (.node 63 (.node 52 (.node 47 (.node 44 (.node 43 (.leaf (some 5)) (.leaf (some 5)))
  (.node 45 (.leaf (some 5)) (.node 46 (.leaf (some 5)) (.leaf (some 5)))))
  (.node 49 (.node 48 (.leaf (some 5)) (.leaf (some 5)))
  (.node 50 (.leaf (some 5)) (.node 51 (.leaf (some 5)) (.leaf (some 5))))))
  (.node 57 (.node 54 (.node 53 (.leaf (some 5)) (.leaf (some 5)))
  (.node 55 (.leaf (some 5)) (.node 56 (.leaf (some 5)) (.leaf (some 5)))))
  (.node 60 (.node 58 (.leaf (some 5)) (.node 59 (.leaf (some 5)) (.leaf (some 5))))
  (.node 61 (.leaf (some 5)) (.node 62 (.leaf (some 5)) (.leaf (some 5)))))))
  (.node 73 (.node 68 (.node 65 (.node 64 (.leaf (some 5)) (.leaf (some 5)))
  (.node 66 (.leaf (some 5)) (.node 67 (.leaf (some 5)) (.leaf (some 5)))))
  (.node 70 (.node 69 (.leaf (some 3)) (.leaf (some 3)))
  (.node 71 (.leaf (some 3)) (.node 72 (.leaf (some 3)) (.leaf (some 3))))))
  (.node 78 (.node 75 (.node 74 (.leaf (some 3)) (.leaf (some 3)))
  (.node 76 (.leaf (some 3)) (.node 77 (.leaf (some 3)) (.leaf (some 3)))))
  (.node 81 (.node 79 (.leaf (some 42)) (.node 80 (.leaf (some 42)) (.leaf (some 3))))
  (.node 82 (.leaf (some 3)) (.node 83 (.leaf (some 42)) (.leaf (some 42)))))))))
  (.node 126 (.node 105 (.node 94 (.node 89 (.node 86 (.node 85 (.leaf (some 42)) (.leaf (some 42)))
  (.node 87 (.leaf (some 3)) (.node 88 (.leaf (some 3)) (.leaf (some 42)))))
  (.node 91 (.node 90 (.leaf (some 42)) (.leaf (some 42)))
  (.node 92 (.leaf (some 42)) (.node 93 (.leaf (some 42)) (.leaf (some 3))))))
  (.node 99 (.node 96 (.node 95 (.leaf (some 3)) (.leaf (some 42)))
  (.node 97 (.leaf (some 3)) (.node 98 (.leaf (some 42)) (.leaf (some 3)))))
  (.node 102 (.node 100 (.leaf (some 42)) (.node 101 (.leaf (some 3)) (.leaf (some 42))))
  (.node 103 (.leaf (some 42)) (.node 104 (.leaf (some 42)) (.leaf (some 42)))))))
  (.node 115 (.node 110 (.node 107 (.node 106 (.leaf (some 42)) (.leaf (some 42)))
  (.node 108 (.leaf (some 2)) (.node 109 (.leaf (some 2)) (.leaf (some 3)))))
  (.node 112 (.node 111 (.leaf (some 3)) (.leaf (some 3)))
  (.node 113 (.leaf (some 3)) (.node 114 (.leaf (some 7)) (.leaf (some 3))))))
  (.node 120 (.node 117 (.node 116 (.leaf (some 3)) (.leaf (some 3)))
  (.node 118 (.leaf (some 3)) (.node 119 (.leaf (some 3)) (.leaf (some 3)))))
  (.node 123 (.node 121 (.leaf (some 3)) (.node 122 (.leaf (some 7)) (.leaf (some 7))))
  (.node 124 (.leaf (some 7)) (.node 125 (.leaf (some 3)) (.leaf (some 3))))))))
  (.node 147 (.node 136 (.node 131 (.node 128 (.node 127 (.leaf (some 7)) (.leaf (some 3)))
  (.node 129 (.leaf (some 3)) (.node 130 (.leaf (some 3)) (.leaf (some 7)))))
  (.node 133 (.node 132 (.leaf (some 3)) (.leaf (some 7)))
  (.node 134 (.leaf (some 7)) (.node 135 (.leaf (some 3)) (.leaf (some 3))))))
  (.node 141 (.node 138 (.node 137 (.leaf (some 7)) (.leaf (some 3)))
  (.node 139 (.leaf (some 3)) (.node 140 (.leaf (some 3)) (.leaf (some 3)))))
  (.node 144 (.node 142 (.leaf (some 3)) (.node 143 (.leaf (some 3)) (.leaf (some 7))))
  (.node 145 (.leaf (some 6)) (.node 146 (.leaf (some 7)) (.leaf (some 6)))))))
  (.node 157 (.node 152 (.node 149 (.node 148 (.leaf (some 7)) (.leaf (some 7)))
  (.node 150 (.leaf (some 7)) (.node 151 (.leaf (some 7)) (.leaf (some 7)))))
  (.node 154 (.node 153 (.leaf (some 7)) (.leaf (some 7)))
  (.node 155 (.leaf (some 7)) (.node 156 (.leaf (some 7)) (.leaf (some 7))))))
  (.node 162 (.node 159 (.node 158 (.leaf (some 7)) (.leaf (some 7)))
  (.node 160 (.leaf (some 7)) (.node 161 (.leaf (some 7)) (.leaf (some 7)))))
  (.node 165 (.node 163 (.leaf (some 7)) (.node 164 (.leaf (some 7)) (.leaf (some 7))))
  (.node 166 (.leaf (some 7)) (.node 167 (.leaf (some 7)) (.leaf (some 7))))))))))
  (.node 252 (.node 210 (.node 189 (.node 178 (.node 173 (.node 170 (.node 169 (.leaf (some 7)) (.leaf (some 7)))
  (.node 171 (.leaf (some 7)) (.node 172 (.leaf (some 7)) (.leaf (some 7)))))
  (.node 175 (.node 174 (.leaf (some 7)) (.leaf (some 7)))
  (.node 176 (.leaf (some 7)) (.node 177 (.leaf (some 7)) (.leaf (some 7))))))
  (.node 183 (.node 180 (.node 179 (.leaf (some 7)) (.leaf (some 7)))
  (.node 181 (.leaf (some 7)) (.node 182 (.leaf (some 7)) (.leaf (some 7)))))
  (.node 186 (.node 184 (.leaf (some 5)) (.node 185 (.leaf (some 5)) (.leaf (some 5))))
  (.node 187 (.leaf (some 5)) (.node 188 (.leaf (some 5)) (.leaf (some 3)))))))
  (.node 199 (.node 194 (.node 191 (.node 190 (.leaf (some 3)) (.leaf (some 3)))
  (.node 192 (.leaf (some 3)) (.node 193 (.leaf (some 7)) (.leaf (some 7)))))
  (.node 196 (.node 195 (.leaf (some 7)) (.leaf (some 7)))
  (.node 197 (.leaf (some 7)) (.node 198 (.leaf (some 7)) (.leaf (some 7))))))
  (.node 204 (.node 201 (.node 200 (.leaf (some 7)) (.leaf (some 7)))
  (.node 202 (.leaf (some 7)) (.node 203 (.leaf (some 7)) (.leaf (some 7)))))
  (.node 207 (.node 205 (.leaf (some 7)) (.node 206 (.leaf (some 7)) (.leaf (some 7))))
  (.node 208 (.leaf (some 7)) (.node 209 (.leaf (some 7)) (.leaf (some 7))))))))
  (.node 231 (.node 220 (.node 215 (.node 212 (.node 211 (.leaf (some 7)) (.leaf (some 7)))
  (.node 213 (.leaf (some 7)) (.node 214 (.leaf (some 7)) (.leaf (some 6)))))
  (.node 217 (.node 216 (.leaf (some 9)) (.leaf (some 9)))
  (.node 218 (.leaf (some 6)) (.node 219 (.leaf (some 9)) (.leaf (some 9))))))
  (.node 225 (.node 222 (.node 221 (.leaf (some 6)) (.leaf (some 9)))
  (.node 223 (.leaf (some 9)) (.node 224 (.leaf (some 6)) (.leaf (some 6)))))
  (.node 228 (.node 226 (.leaf (some 6)) (.node 227 (.leaf (some 4)) (.leaf (some 3))))
  (.node 229 (.leaf (some 9)) (.node 230 (.leaf (some 4)) (.leaf (some 3)))))))
  (.node 241 (.node 236 (.node 233 (.node 232 (.leaf (some 9)) (.leaf (some 6)))
  (.node 234 (.leaf (some 3)) (.node 235 (.leaf (some 4)) (.leaf (some 3)))))
  (.node 238 (.node 237 (.leaf (some 6)) (.leaf (some 3)))
  (.node 239 (.leaf (some 6)) (.node 240 (.leaf (some 4)) (.leaf (some 3))))))
  (.node 246 (.node 243 (.node 242 (.leaf (some 4)) (.leaf (some 3)))
  (.node 244 (.leaf (some 6)) (.node 245 (.leaf (some 3)) (.leaf (some 6)))))
  (.node 249 (.node 247 (.leaf (some 3)) (.node 248 (.leaf (some 4)) (.leaf (some 3))))
  (.node 250 (.leaf (some 3)) (.node 251 (.leaf (some 6)) (.leaf (some 4)))))))))
  (.node 294 (.node 273 (.node 262 (.node 257 (.node 254 (.node 253 (.leaf (some 3)) (.leaf (some 3)))
  (.node 255 (.leaf (some 3)) (.node 256 (.leaf (some 6)) (.leaf (some 3)))))
  (.node 259 (.node 258 (.leaf (some 6)) (.leaf (some 3)))
  (.node 260 (.leaf (some 6)) (.node 261 (.leaf (some 3)) (.leaf (some 3))))))
  (.node 267 (.node 264 (.node 263 (.leaf (some 3)) (.leaf (some 3)))
  (.node 265 (.leaf (some 6)) (.node 266 (.leaf (some 3)) (.leaf (some 6)))))
  (.node 270 (.node 268 (.leaf (some 10)) (.node 269 (.leaf (some 10)) (.leaf (some 6))))
  (.node 271 (.leaf (some 42)) (.node 272 (.leaf (some 42)) (.leaf (some 10)))))))
  (.node 283 (.node 278 (.node 275 (.node 274 (.leaf (some 42)) (.leaf (some 42)))
  (.node 276 (.leaf (some 10)) (.node 277 (.leaf (some 42)) (.leaf (some 42)))))
  (.node 280 (.node 279 (.leaf (some 9)) (.leaf (some 42)))
  (.node 281 (.leaf (some 42)) (.node 282 (.leaf (some 9)) (.leaf (some 0))))))
  (.node 288 (.node 285 (.node 284 (.leaf (some 42)) (.leaf (some 0)))
  (.node 286 (.leaf (some 9)) (.node 287 (.leaf (some 0)) (.leaf (some 42)))))
  (.node 291 (.node 289 (.leaf (some 0)) (.node 290 (.leaf (some 42)) (.leaf (some 9))))
  (.node 292 (.leaf (some 0)) (.node 293 (.leaf (some 0)) (.leaf (some 42))))))))
  (.node 315 (.node 304 (.node 299 (.node 296 (.node 295 (.leaf (some 0)) (.leaf (some 10)))
  (.node 297 (.leaf (some 0)) (.node 298 (.leaf (some 0)) (.leaf (some 0)))))
  (.node 301 (.node 300 (.leaf (some 0)) (.leaf (some 42)))
  (.node 302 (.leaf (some 9)) (.node 303 (.leaf (some 0)) (.leaf (some 9))))))
  (.node 309 (.node 306 (.node 305 (.leaf (some 0)) (.leaf (some 0)))
  (.node 307 (.leaf (some 42)) (.node 308 (.leaf (some 9)) (.leaf (some 0)))))
  (.node 312 (.node 310 (.leaf (some 0)) (.node 311 (.leaf (some 0)) (.leaf (some 0))))
  (.node 313 (.leaf (some 0)) (.node 314 (.leaf (some 0)) (.leaf (some 0)))))))
  (.node 325 (.node 320 (.node 317 (.node 316 (.leaf (some 0)) (.leaf (some 0)))
  (.node 318 (.leaf (some 0)) (.node 319 (.leaf (some 0)) (.leaf (some 42)))))
  (.node 322 (.node 321 (.leaf (some 42)) (.leaf (some 42)))
  (.node 323 (.leaf (some 42)) (.node 324 (.leaf (some 42)) (.leaf (some 0))))))
  (.node 330 (.node 327 (.node 326 (.leaf (some 0)) (.leaf (some 0)))
  (.node 328 (.leaf (some 0)) (.node 329 (.leaf (some 42)) (.leaf (some 0)))))
  (.node 333 (.node 331 (.leaf (some 10)) (.node 332 (.leaf (some 50)) (.leaf (some 0))))
  (.node 334 (.leaf (some 0)) (.node 335 (.leaf (some 0)) (.leaf none)))))))))

def lex0 : LexState := ⟨none, (some 43), [([(33, 33)], 89, false), ([(34, 34)], 8, false), ([(35, 35)], 11, false), ([(37, 37)], 93, false), ([(38, 38)], 12, false), ([(40, 40)], 62, false), ([(41, 41)], 63, false), ([(42, 42)], 91, false), ([(43, 43)], 95, false), ([(44, 44)], 80, false), ([(45, 45)], 87, false), ([(46, 46)], 55, false), ([(47, 47)], 92, false), ([(58, 58)], 81, false), ([(59, 59)], 44, false), ([(60, 60)], 77, false), ([(61, 61)], 84, false), ([(62, 62)], 79, false), ([(91, 91)], 104, false), ([(93, 93)], 105, false), ([(94, 94)], 19, false), ([(97, 97)], 136, false), ([(98, 98)], 145, false), ([(99, 99)], 133, false), ([(101, 101)], 155, false), ([(102, 102)], 113, false), ([(105, 105)], 135, false), ([(108, 108)], 126, false), ([(109, 109)], 116, false), ([(110, 110)], 142, false), ([(112, 112)], 151, false), ([(114, 114)], 127, false), ([(115, 115)], 165, false), ([(116, 116)], 152, false), ([(118, 118)], 121, false), ([(123, 123)], 52, false), ([(124, 124)], 68, false), ([(125, 125)], 53, false), ([(9, 13), (32, 32)], 0, true), ([(48, 57)], 180, false), ([(65, 90), (95, 95), (100, 122)], 179, false)]⟩
def lex1 : LexState := ⟨none, none, [([(10, 10)], 45, false), ([(33, 33)], 88, false), ([(34, 34)], 8, false), ([(35, 35)], 11, false), ([(40, 40)], 62, false), ([(45, 45)], 86, false), ([(59, 59)], 44, false), ([(91, 91)], 104, false), ([(97, 97)], 137, false), ([(98, 98)], 145, false), ([(99, 99)], 133, false), ([(101, 101)], 155, false), ([(102, 102)], 113, false), ([(105, 105)], 139, false), ([(110, 110)], 142, false), ([(112, 112)], 175, false), ([(115, 115)], 165, false), ([(116, 116)], 152, false), ([(118, 118)], 143, false), ([(123, 123)], 52, false), ([(124, 124)], 67, false), ([(125, 125)], 53, false), ([(9, 13), (32, 32)], 1, true), ([(48, 57)], 180, false), ([(65, 90), (95, 95), (100, 122)], 179, false)]⟩
def lex2 : LexState := ⟨none, none, [([(10, 10)], 45, false), ([(33, 33)], 14, false), ([(35, 35)], 11, false), ([(37, 37)], 93, false), ([(38, 38)], 12, false), ([(40, 40)], 62, false), ([(42, 42)], 91, false), ([(43, 43)], 94, false), ([(45, 45)], 87, false), ([(46, 46)], 55, false), ([(47, 47)], 92, false), ([(58, 58)], 81, false), ([(59, 59)], 44, false), ([(60, 60)], 77, false), ([(61, 61)], 85, false), ([(62, 62)], 79, false), ([(91, 91)], 104, false), ([(94, 94)], 19, false), ([(99, 99)], 26, false), ([(102, 102)], 27, false), ([(112, 112)], 38, false), ([(115, 115)], 36, false), ([(123, 123)], 52, false), ([(124, 124)], 39, false), ([(125, 125)], 53, false), ([(9, 13), (32, 32)], 2, true)]⟩
def lex3 : LexState := ⟨none, none, [([(10, 10)], 45, false), ([(33, 33)], 14, false), ([(35, 35)], 11, false), ([(37, 37)], 93, false), ([(38, 38)], 12, false), ([(40, 40)], 62, false), ([(42, 42)], 91, false), ([(43, 43)], 94, false), ([(45, 45)], 86, false), ([(46, 46)], 55, false), ([(47, 47)], 92, false), ([(58, 58)], 81, false), ([(59, 59)], 44, false), ([(60, 60)], 77, false), ([(61, 61)], 85, false), ([(62, 62)], 79, false), ([(91, 91)], 104, false), ([(94, 94)], 19, false), ([(99, 99)], 26, false), ([(102, 102)], 27, false), ([(112, 112)], 38, false), ([(115, 115)], 36, false), ([(123, 123)], 52, false), ([(124, 124)], 39, false), ([(125, 125)], 53, false), ([(9, 13), (32, 32)], 3, true)]⟩
def lex4 : LexState := ⟨none, none, [([(10, 10)], 45, false), ([(35, 35)], 11, false), ([(40, 40)], 62, false), ([(45, 45)], 18, false), ([(59, 59)], 44, false), ([(99, 99)], 26, false), ([(102, 102)], 27, false), ([(112, 112)], 38, false), ([(115, 115)], 36, false), ([(123, 123)], 52, false), ([(125, 125)], 53, false), ([(9, 13), (32, 32)], 4, true)]⟩
def lex5 : LexState := ⟨none, none, [([(33, 33)], 88, false), ([(34, 34)], 8, false), ([(35, 35)], 11, false), ([(40, 40)], 62, false), ([(41, 41)], 63, false), ([(45, 45)], 86, false), ([(58, 58)], 81, false), ([(91, 91)], 104, false), ([(93, 93)], 105, false), ([(97, 97)], 137, false), ([(98, 98)], 145, false), ([(101, 101)], 155, false), ([(102, 102)], 114, false), ([(105, 105)], 139, false), ([(110, 110)], 142, false), ([(115, 115)], 174, false), ([(116, 116)], 152, false), ([(118, 118)], 143, false), ([(123, 123)], 52, false), ([(124, 124)], 67, false), ([(125, 125)], 53, false), ([(9, 13), (32, 32)], 5, true), ([(48, 57)], 180, false), ([(65, 90), (95, 95), (99, 122)], 179, false)]⟩
def lex6 : LexState := ⟨none, none, [([(33, 33)], 14, false), ([(35, 35)], 11, false), ([(37, 37)], 93, false), ([(38, 38)], 12, false), ([(40, 40)], 62, false), ([(41, 41)], 63, false), ([(42, 42)], 91, false), ([(43, 43)], 94, false), ([(44, 44)], 80, false), ([(45, 45)], 87, false), ([(46, 46)], 55, false), ([(47, 47)], 92, false), ([(58, 58)], 81, false), ([(60, 60)], 77, false), ([(61, 61)], 16, false), ([(62, 62)], 79, false), ([(91, 91)], 104, false), ([(93, 93)], 105, false), ([(94, 94)], 19, false), ([(97, 97)], 137, false), ([(98, 98)], 145, false), ([(105, 105)], 139, false), ([(115, 115)], 174, false), ([(118, 118)], 143, false), ([(123, 123)], 52, false), ([(124, 124)], 39, false), ([(125, 125)], 53, false), ([(9, 13), (32, 32)], 6, true), ([(65, 90), (95, 95), (99, 122)], 179, false)]⟩
def lex7 : LexState := ⟨none, none, [([(33, 33)], 14, false), ([(35, 35)], 11, false), ([(37, 37)], 93, false), ([(38, 38)], 12, false), ([(40, 40)], 62, false), ([(41, 41)], 63, false), ([(42, 42)], 91, false), ([(43, 43)], 94, false), ([(44, 44)], 80, false), ([(45, 45)], 86, false), ([(46, 46)], 55, false), ([(47, 47)], 92, false), ([(58, 58)], 81, false), ([(60, 60)], 77, false), ([(61, 61)], 16, false), ([(62, 62)], 79, false), ([(91, 91)], 104, false), ([(93, 93)], 105, false), ([(94, 94)], 19, false), ([(97, 97)], 137, false), ([(98, 98)], 145, false), ([(105, 105)], 139, false), ([(109, 109)], 116, false), ([(115, 115)], 174, false), ([(118, 118)], 121, false), ([(124, 124)], 39, false), ([(125, 125)], 53, false), ([(9, 13), (32, 32)], 7, true), ([(65, 90), (95, 95), (99, 122)], 179, false)]⟩
def lex8 : LexState := ⟨none, none, [([(34, 34)], 181, false), ([(92, 92)], 40, false), ([(1, 255)], 8, false)]⟩
def lex9 : LexState := ⟨none, none, [([(35, 35)], 11, false), ([(40, 40)], 62, false), ([(43, 43)], 13, false), ([(45, 45)], 18, false), ([(61, 61)], 17, false), ([(97, 97)], 137, false), ([(98, 98)], 145, false), ([(105, 105)], 139, false), ([(115, 115)], 174, false), ([(118, 118)], 143, false), ([(123, 123)], 52, false), ([(124, 124)], 67, false), ([(9, 13), (32, 32)], 9, true), ([(65, 90), (95, 95), (99, 122)], 179, false)]⟩
def lex10 : LexState := ⟨none, none, [([(35, 35)], 11, false), ([(102, 102)], 27, false), ([(108, 108)], 24, false), ([(112, 112)], 31, false), ([(115, 115)], 36, false), ([(9, 13), (32, 32)], 10, true)]⟩
def lex11 : LexState := ⟨none, none, [([(35, 35)], 47, false), ([(1, 255)], 46, false)]⟩
def lex12 : LexState := ⟨none, none, [([(38, 38)], 101, false)]⟩
def lex13 : LexState := ⟨none, none, [([(43, 43)], 106, false)]⟩
def lex14 : LexState := ⟨none, none, [([(61, 61)], 98, false)]⟩
def lex15 : LexState := ⟨none, none, [([(61, 61)], 107, false)]⟩
def lex16 : LexState := ⟨none, none, [([(61, 61)], 96, false)]⟩
def lex17 : LexState := ⟨none, none, [([(61, 61)], 15, false)]⟩
def lex18 : LexState := ⟨none, none, [([(62, 62)], 64, false)]⟩
def lex19 : LexState := ⟨none, none, [([(94, 94)], 103, false)]⟩
def lex20 : LexState := ⟨none, none, [([(97, 97)], 33, false)]⟩
def lex21 : LexState := ⟨none, none, [([(97, 97)], 34, false)]⟩
def lex22 : LexState := ⟨none, none, [([(99, 99)], 56, false)]⟩
def lex23 : LexState := ⟨none, none, [([(101, 101)], 58, false)]⟩
def lex24 : LexState := ⟨none, none, [([(101, 101)], 35, false)]⟩
def lex25 : LexState := ⟨none, none, [([(105, 105)], 22, false)]⟩
def lex26 : LexState := ⟨none, none, [([(108, 108)], 20, false)]⟩
def lex27 : LexState := ⟨none, none, [([(110, 110)], 65, false)]⟩
def lex28 : LexState := ⟨none, none, [([(111, 111)], 60, false)]⟩
def lex29 : LexState := ⟨none, none, [([(111, 111)], 37, false)]⟩
def lex30 : LexState := ⟨none, none, [([(114, 114)], 23, false)]⟩
def lex31 : LexState := ⟨none, none, [([(114, 114)], 29, false), ([(117, 117)], 30, false)]⟩
def lex32 : LexState := ⟨none, none, [([(115, 115)], 69, false)]⟩
def lex33 : LexState := ⟨none, none, [([(115, 115)], 32, false)]⟩
def lex34 : LexState := ⟨none, none, [([(116, 116)], 25, false)]⟩
def lex35 : LexState := ⟨none, none, [([(116, 116)], 82, false)]⟩
def lex36 : LexState := ⟨none, none, [([(116, 116)], 21, false)]⟩
def lex37 : LexState := ⟨none, none, [([(116, 116)], 28, false)]⟩
def lex38 : LexState := ⟨none, none, [([(117, 117)], 30, false)]⟩
def lex39 : LexState := ⟨none, none, [([(124, 124)], 102, false)]⟩
def lex40 : LexState := ⟨none, none, [([(1, 9), (11, 255)], 8, false)]⟩
def lex41 : LexState := ⟨none, (some 43), [([(10, 10)], 45, false), ([(33, 33)], 89, false), ([(34, 34)], 8, false), ([(35, 35)], 11, false), ([(37, 37)], 93, false), ([(38, 38)], 12, false), ([(40, 40)], 62, false), ([(42, 42)], 91, false), ([(43, 43)], 94, false), ([(45, 45)], 86, false), ([(46, 46)], 55, false), ([(47, 47)], 92, false), ([(58, 58)], 81, false), ([(59, 59)], 44, false), ([(60, 60)], 77, false), ([(61, 61)], 16, false), ([(62, 62)], 79, false), ([(91, 91)], 104, false), ([(94, 94)], 19, false), ([(97, 97)], 136, false), ([(98, 98)], 145, false), ([(99, 99)], 133, false), ([(101, 101)], 155, false), ([(102, 102)], 113, false), ([(105, 105)], 135, false), ([(108, 108)], 126, false), ([(110, 110)], 142, false), ([(112, 112)], 151, false), ([(114, 114)], 127, false), ([(115, 115)], 165, false), ([(116, 116)], 152, false), ([(118, 118)], 143, false), ([(123, 123)], 52, false), ([(124, 124)], 68, false), ([(125, 125)], 53, false), ([(9, 13), (32, 32)], 41, true), ([(48, 57)], 180, false), ([(65, 90), (95, 95), (100, 122)], 179, false)]⟩
def lex42 : LexState := ⟨none, (some 43), [([(33, 33)], 88, false), ([(34, 34)], 8, false), ([(35, 35)], 11, false), ([(40, 40)], 62, false), ([(41, 41)], 63, false), ([(44, 44)], 80, false), ([(45, 45)], 86, false), ([(58, 58)], 81, false), ([(60, 60)], 76, false), ([(62, 62)], 78, false), ([(91, 91)], 104, false), ([(97, 97)], 136, false), ([(98, 98)], 145, false), ([(99, 99)], 133, false), ([(101, 101)], 155, false), ([(102, 102)], 113, false), ([(105, 105)], 135, false), ([(108, 108)], 126, false), ([(110, 110)], 142, false), ([(112, 112)], 151, false), ([(114, 114)], 127, false), ([(115, 115)], 165, false), ([(116, 116)], 152, false), ([(118, 118)], 143, false), ([(123, 123)], 52, false), ([(124, 124)], 67, false), ([(125, 125)], 53, false), ([(9, 13), (32, 32)], 42, true), ([(48, 57)], 180, false), ([(65, 90), (95, 95), (100, 122)], 179, false)]⟩
def lex43 : LexState := ⟨(some 0), none, []⟩
def lex44 : LexState := ⟨(some 1), none, []⟩
def lex45 : LexState := ⟨(some 2), none, [([(10, 10)], 45, false)]⟩
def lex46 : LexState := ⟨(some 3), none, [([(1, 9), (11, 255)], 46, false)]⟩
def lex47 : LexState := ⟨(some 4), none, []⟩
def lex48 : LexState := ⟨(some 4), none, [([(1, 9), (11, 255)], 51, false)]⟩
def lex49 : LexState := ⟨(some 5), none, [([(10, 10)], 46, false), ([(35, 35)], 48, false), ([(1, 255)], 46, false)]⟩
def lex50 : LexState := ⟨(some 5), none, [([(35, 35)], 49, false), ([(9, 9), (11, 13), (32, 32)], 50, false), ([(1, 9), (11, 255)], 51, false)]⟩
def lex51 : LexState := ⟨(some 5), none, [([(1, 9), (11, 255)], 51, false)]⟩
def lex52 : LexState := ⟨(some 6), none, []⟩
def lex53 : LexState := ⟨(some 7), none, []⟩
def lex54 : LexState := ⟨(some 8), none, [([(48, 57), (65, 90), (95, 95), (97, 122)], 179, false)]⟩
def lex55 : LexState := ⟨(some 9), none, []⟩
def lex56 : LexState := ⟨(some 10), none, []⟩
def lex57 : LexState := ⟨(some 10), none, [([(48, 57), (65, 90), (95, 95), (97, 122)], 179, false)]⟩
def lex58 : LexState := ⟨(some 11), none, []⟩
def lex59 : LexState := ⟨(some 11), none, [([(48, 57), (65, 90), (95, 95), (97, 122)], 179, false)]⟩
def lex60 : LexState := ⟨(some 12), none, []⟩
def lex61 : LexState := ⟨(some 12), none, [([(48, 57), (65, 90), (95, 95), (97, 122)], 179, false)]⟩
def lex62 : LexState := ⟨(some 13), none, []⟩
def lex63 : LexState := ⟨(some 14), none, []⟩
def lex64 : LexState := ⟨(some 15), none, []⟩
def lex65 : LexState := ⟨(some 16), none, []⟩
def lex66 : LexState := ⟨(some 16), none, [([(48, 57), (65, 90), (95, 95), (97, 122)], 179, false)]⟩
def lex67 : LexState := ⟨(some 17), none, []⟩
def lex68 : LexState := ⟨(some 17), none, [([(124, 124)], 102, false)]⟩
def lex69 : LexState := ⟨(some 18), none, []⟩
def lex70 : LexState := ⟨(some 18), none, [([(48, 57), (65, 90), (95, 95), (97, 122)], 179, false)]⟩
def lex71 : LexState := ⟨(some 19), none, [([(48, 57), (65, 90), (95, 95), (97, 122)], 179, false)]⟩
def lex72 : LexState := ⟨(some 20), none, [([(48, 57), (65, 90), (95, 95), (97, 122)], 179, false)]⟩
def lex73 : LexState := ⟨(some 21), none, [([(48, 57), (65, 90), (95, 95), (97, 122)], 179, false)]⟩
def lex74 : LexState := ⟨(some 22), none, [([(48, 57), (65, 90), (95, 95), (97, 122)], 179, false)]⟩
def lex75 : LexState := ⟨(some 23), none, [([(48, 57), (65, 90), (95, 95), (97, 122)], 179, false)]⟩
def lex76 : LexState := ⟨(some 24), none, []⟩
def lex77 : LexState := ⟨(some 24), none, [([(61, 61)], 99, false)]⟩
def lex78 : LexState := ⟨(some 25), none, []⟩
def lex79 : LexState := ⟨(some 25), none, [([(61, 61)], 100, false)]⟩
def lex80 : LexState := ⟨(some 26), none, []⟩
def lex81 : LexState := ⟨(some 27), none, []⟩
def lex82 : LexState := ⟨(some 28), none, []⟩
def lex83 : LexState := ⟨(some 28), none, [([(48, 57), (65, 90), (95, 95), (97, 122)], 179, false)]⟩
def lex84 : LexState := ⟨(some 29), none, [([(61, 61)], 97, false)]⟩
def lex85 : LexState := ⟨(some 29), none, [([(61, 61)], 96, false)]⟩
def lex86 : LexState := ⟨(some 30), none, []⟩
def lex87 : LexState := ⟨(some 30), none, [([(62, 62)], 64, false)]⟩
def lex88 : LexState := ⟨(some 31), none, []⟩
def lex89 : LexState := ⟨(some 31), none, [([(61, 61)], 98, false)]⟩
def lex90 : LexState := ⟨(some 32), none, []⟩
def lex91 : LexState := ⟨(some 33), none, [([(42, 42)], 90, false)]⟩
def lex92 : LexState := ⟨(some 34), none, []⟩
def lex93 : LexState := ⟨(some 35), none, []⟩
def lex94 : LexState := ⟨(some 36), none, []⟩
def lex95 : LexState := ⟨(some 36), none, [([(43, 43)], 106, false)]⟩
def lex96 : LexState := ⟨(some 37), none, []⟩
def lex97 : LexState := ⟨(some 37), none, [([(61, 61)], 107, false)]⟩
def lex98 : LexState := ⟨(some 38), none, []⟩
def lex99 : LexState := ⟨(some 39), none, []⟩
def lex100 : LexState := ⟨(some 40), none, []⟩
def lex101 : LexState := ⟨(some 41), none, []⟩
def lex102 : LexState := ⟨(some 42), none, []⟩
def lex103 : LexState := ⟨(some 43), none, []⟩
def lex104 : LexState := ⟨(some 44), none, []⟩
def lex105 : LexState := ⟨(some 45), none, []⟩
def lex106 : LexState := ⟨(some 46), none, []⟩
def lex107 : LexState := ⟨(some 47), none, []⟩
def lex108 : LexState := ⟨(some 48), none, [([(48, 57), (65, 90), (95, 95), (97, 122)], 179, false)]⟩
def lex109 : LexState := ⟨(some 49), none, [([(48, 57), (65, 90), (95, 95), (97, 122)], 179, false)]⟩
def lex110 : LexState := ⟨(some 50), none, [([(48, 57), (65, 90), (95, 95), (97, 122)], 179, false)]⟩
def lex111 : LexState := ⟨(some 51), none, [([(48, 57), (65, 90), (95, 95), (97, 122)], 179, false)]⟩
def lex112 : LexState := ⟨(some 52), none, [([(48, 57), (65, 90), (95, 95), (97, 122)], 179, false)]⟩
def lex113 : LexState := ⟨(some 53), none, [([(97, 97)], 134, false), ([(110, 110)], 66, false), ([(48, 57), (65, 90), (95, 95), (98, 122)], 179, false)]⟩
def lex114 : LexState := ⟨(some 53), none, [([(97, 97)], 134, false), ([(48, 57), (65, 90), (95, 95), (98, 122)], 179, false)]⟩
def lex115 : LexState := ⟨(some 53), none, [([(97, 97)], 163, false), ([(48, 57), (65, 90), (95, 95), (98, 122)], 179, false)]⟩
def lex116 : LexState := ⟨(some 53), none, [([(97, 97)], 149, false), ([(48, 57), (65, 90), (95, 95), (98, 122)], 179, false)]⟩
def lex117 : LexState := ⟨(some 53), none, [([(97, 97)], 172, false), ([(114, 114)], 110, false), ([(48, 57), (65, 90), (95, 95), (98, 122)], 179, false)]⟩
def lex118 : LexState := ⟨(some 53), none, [([(99, 99)], 74, false), ([(48, 57), (65, 90), (95, 95), (97, 122)], 179, false)]⟩
def lex119 : LexState := ⟨(some 53), none, [([(99, 99)], 57, false), ([(48, 57), (65, 90), (95, 95), (97, 122)], 179, false)]⟩
def lex120 : LexState := ⟨(some 53), none, [([(100, 100)], 112, false), ([(48, 57), (65, 90), (95, 95), (97, 122)], 179, false)]⟩
def lex121 : LexState := ⟨(some 53), none, [([(101, 101)], 118, false), ([(111, 111)], 129, false), ([(48, 57), (65, 90), (95, 95), (97, 122)], 179, false)]⟩
def lex122 : LexState := ⟨(some 53), none, [([(101, 101)], 185, false), ([(48, 57), (65, 90), (95, 95), (97, 122)], 179, false)]⟩
def lex123 : LexState := ⟨(some 53), none, [([(101, 101)], 59, false), ([(48, 57), (65, 90), (95, 95), (97, 122)], 179, false)]⟩
def lex124 : LexState := ⟨(some 53), none, [([(101, 101)], 182, false), ([(48, 57), (65, 90), (95, 95), (97, 122)], 179, false)]⟩
def lex125 : LexState := ⟨(some 53), none, [([(101, 101)], 183, false), ([(48, 57), (65, 90), (95, 95), (97, 122)], 179, false)]⟩
def lex126 : LexState := ⟨(some 53), none, [([(101, 101)], 167, false), ([(48, 57), (65, 90), (95, 95), (97, 122)], 179, false)]⟩
def lex127 : LexState := ⟨(some 53), none, [([(101, 101)], 171, false), ([(48, 57), (65, 90), (95, 95), (97, 122)], 179, false)]⟩
def lex128 : LexState := ⟨(some 53), none, [([(101, 101)], 159, false), ([(48, 57), (65, 90), (95, 95), (97, 122)], 179, false)]⟩
def lex129 : LexState := ⟨(some 53), none, [([(105, 105)], 120, false), ([(48, 57), (65, 90), (95, 95), (97, 122)], 179, false)]⟩
def lex130 : LexState := ⟨(some 53), none, [([(105, 105)], 141, false), ([(111, 111)], 173, false), ([(48, 57), (65, 90), (95, 95), (97, 122)], 179, false)]⟩
def lex131 : LexState := ⟨(some 53), none, [([(105, 105)], 119, false), ([(48, 57), (65, 90), (95, 95), (97, 122)], 179, false)]⟩
def lex132 : LexState := ⟨(some 53), none, [([(108, 108)], 111, false), ([(48, 57), (65, 90), (95, 95), (97, 122)], 179, false)]⟩
def lex133 : LexState := ⟨(some 53), none, [([(108, 108)], 115, false), ([(48, 57), (65, 90), (95, 95), (97, 122)], 179, false)]⟩
def lex134 : LexState := ⟨(some 53), none, [([(108, 108)], 164, false), ([(48, 57), (65, 90), (95, 95), (97, 122)], 179, false)]⟩
def lex135 : LexState := ⟨(some 53), none, [([(109, 109)], 150, false), ([(110, 110)], 166, false), ([(48, 57), (65, 90), (95, 95), (97, 122)], 179, false)]⟩
def lex136 : LexState := ⟨(some 53), none, [([(110, 110)], 178, false), ([(115, 115)], 162, false), ([(48, 57), (65, 90), (95, 95), (97, 122)], 179, false)]⟩
def lex137 : LexState := ⟨(some 53), none, [([(110, 110)], 178, false), ([(48, 57), (65, 90), (95, 95), (97, 122)], 179, false)]⟩
def lex138 : LexState := ⟨(some 53), none, [([(110, 110)], 73, false), ([(48, 57), (65, 90), (95, 95), (97, 122)], 179, false)]⟩
def lex139 : LexState := ⟨(some 53), none, [([(110, 110)], 166, false), ([(48, 57), (65, 90), (95, 95), (97, 122)], 179, false)]⟩
def lex140 : LexState := ⟨(some 53), none, [([(110, 110)], 122, false), ([(48, 57), (65, 90), (95, 95), (97, 122)], 179, false)]⟩
def lex141 : LexState := ⟨(some 53), none, [([(110, 110)], 168, false), ([(48, 57), (65, 90), (95, 95), (97, 122)], 179, false)]⟩
def lex142 : LexState := ⟨(some 53), none, [([(111, 111)], 140, false), ([(48, 57), (65, 90), (95, 95), (97, 122)], 179, false)]⟩
def lex143 : LexState := ⟨(some 53), none, [([(111, 111)], 129, false), ([(48, 57), (65, 90), (95, 95), (97, 122)], 179, false)]⟩
def lex144 : LexState := ⟨(some 53), none, [([(111, 111)], 61, false), ([(48, 57), (65, 90), (95, 95), (97, 122)], 179, false)]⟩
def lex145 : LexState := ⟨(some 53), none, [([(111, 111)], 146, false), ([(48, 57), (65, 90), (95, 95), (97, 122)], 179, false)]⟩
def lex146 : LexState := ⟨(some 53), none, [([(111, 111)], 132, false), ([(48, 57), (65, 90), (95, 95), (97, 122)], 179, false)]⟩
def lex147 : LexState := ⟨(some 53), none, [([(111, 111)], 154, false), ([(48, 57), (65, 90), (95, 95), (97, 122)], 179, false)]⟩
def lex148 : LexState := ⟨(some 53), none, [([(111, 111)], 160, false), ([(48, 57), (65, 90), (95, 95), (97, 122)], 179, false)]⟩
def lex149 : LexState := ⟨(some 53), none, [([(112, 112)], 75, false), ([(48, 57), (65, 90), (95, 95), (97, 122)], 179, false)]⟩
def lex150 : LexState := ⟨(some 53), none, [([(112, 112)], 148, false), ([(48, 57), (65, 90), (95, 95), (97, 122)], 179, false)]⟩
def lex151 : LexState := ⟨(some 53), none, [([(114, 114)], 130, false), ([(117, 117)], 158, false), ([(48, 57), (65, 90), (95, 95), (97, 122)], 179, false)]⟩
def lex152 : LexState := ⟨(some 53), none, [([(114, 114)], 176, false), ([(48, 57), (65, 90), (95, 95), (97, 122)], 179, false)]⟩
def lex153 : LexState := ⟨(some 53), none, [([(114, 114)], 110, false), ([(48, 57), (65, 90), (95, 95), (97, 122)], 179, false)]⟩
def lex154 : LexState := ⟨(some 53), none, [([(114, 114)], 184, false), ([(48, 57), (65, 90), (95, 95), (97, 122)], 179, false)]⟩
def lex155 : LexState := ⟨(some 53), none, [([(114, 114)], 157, false), ([(48, 57), (65, 90), (95, 95), (97, 122)], 179, false)]⟩
def lex156 : LexState := ⟨(some 53), none, [([(114, 114)], 138, false), ([(48, 57), (65, 90), (95, 95), (97, 122)], 179, false)]⟩
def lex157 : LexState := ⟨(some 53), none, [([(114, 114)], 147, false), ([(48, 57), (65, 90), (95, 95), (97, 122)], 179, false)]⟩
def lex158 : LexState := ⟨(some 53), none, [([(114, 114)], 123, false), ([(48, 57), (65, 90), (95, 95), (97, 122)], 179, false)]⟩
def lex159 : LexState := ⟨(some 53), none, [([(114, 114)], 169, false), ([(48, 57), (65, 90), (95, 95), (97, 122)], 179, false)]⟩
def lex160 : LexState := ⟨(some 53), none, [([(114, 114)], 170, false), ([(48, 57), (65, 90), (95, 95), (97, 122)], 179, false)]⟩
def lex161 : LexState := ⟨(some 53), none, [([(115, 115)], 70, false), ([(48, 57), (65, 90), (95, 95), (97, 122)], 179, false)]⟩
def lex162 : LexState := ⟨(some 53), none, [([(115, 115)], 128, false), ([(48, 57), (65, 90), (95, 95), (97, 122)], 179, false)]⟩
def lex163 : LexState := ⟨(some 53), none, [([(115, 115)], 161, false), ([(48, 57), (65, 90), (95, 95), (97, 122)], 179, false)]⟩
def lex164 : LexState := ⟨(some 53), none, [([(115, 115)], 125, false), ([(48, 57), (65, 90), (95, 95), (97, 122)], 179, false)]⟩
def lex165 : LexState := ⟨(some 53), none, [([(116, 116)], 117, false), ([(48, 57), (65, 90), (95, 95), (97, 122)], 179, false)]⟩
def lex166 : LexState := ⟨(some 53), none, [([(116, 116)], 109, false), ([(48, 57), (65, 90), (95, 95), (97, 122)], 179, false)]⟩
def lex167 : LexState := ⟨(some 53), none, [([(116, 116)], 83, false), ([(48, 57), (65, 90), (95, 95), (97, 122)], 179, false)]⟩
def lex168 : LexState := ⟨(some 53), none, [([(116, 116)], 71, false), ([(48, 57), (65, 90), (95, 95), (97, 122)], 179, false)]⟩
def lex169 : LexState := ⟨(some 53), none, [([(116, 116)], 72, false), ([(48, 57), (65, 90), (95, 95), (97, 122)], 179, false)]⟩
def lex170 : LexState := ⟨(some 53), none, [([(116, 116)], 54, false), ([(48, 57), (65, 90), (95, 95), (97, 122)], 179, false)]⟩
def lex171 : LexState := ⟨(some 53), none, [([(116, 116)], 177, false), ([(48, 57), (65, 90), (95, 95), (97, 122)], 179, false)]⟩
def lex172 : LexState := ⟨(some 53), none, [([(116, 116)], 131, false), ([(48, 57), (65, 90), (95, 95), (97, 122)], 179, false)]⟩
def lex173 : LexState := ⟨(some 53), none, [([(116, 116)], 144, false), ([(48, 57), (65, 90), (95, 95), (97, 122)], 179, false)]⟩
def lex174 : LexState := ⟨(some 53), none, [([(116, 116)], 153, false), ([(48, 57), (65, 90), (95, 95), (97, 122)], 179, false)]⟩
def lex175 : LexState := ⟨(some 53), none, [([(117, 117)], 158, false), ([(48, 57), (65, 90), (95, 95), (97, 122)], 179, false)]⟩
def lex176 : LexState := ⟨(some 53), none, [([(117, 117)], 124, false), ([(48, 57), (65, 90), (95, 95), (97, 122)], 179, false)]⟩
def lex177 : LexState := ⟨(some 53), none, [([(117, 117)], 156, false), ([(48, 57), (65, 90), (95, 95), (97, 122)], 179, false)]⟩
def lex178 : LexState := ⟨(some 53), none, [([(121, 121)], 108, false), ([(48, 57), (65, 90), (95, 95), (97, 122)], 179, false)]⟩
def lex179 : LexState := ⟨(some 53), none, [([(48, 57), (65, 90), (95, 95), (97, 122)], 179, false)]⟩
def lex180 : LexState := ⟨(some 54), none, [([(48, 57)], 180, false)]⟩
def lex181 : LexState := ⟨(some 55), none, []⟩
def lex182 : LexState := ⟨(some 56), none, [([(48, 57), (65, 90), (95, 95), (97, 122)], 179, false)]⟩
def lex183 : LexState := ⟨(some 57), none, [([(48, 57), (65, 90), (95, 95), (97, 122)], 179, false)]⟩
def lex184 : LexState := ⟨(some 58), none, [([(48, 57), (65, 90), (95, 95), (97, 122)], 179, false)]⟩
def lex185 : LexState := ⟨(some 59), none, [([(48, 57), (65, 90), (95, 95), (97, 122)], 179, false)]⟩

/-- The states of `ts_lex` (`parser.c:1449-2790`). -/
def lexStates : Arr LexState :=
  .node 93 (.node 46 (.node 23 (.node 11 (.node 5 (.node 2 (.node 1 (.leaf lex0) (.leaf lex1))
  (.node 3 (.leaf lex2) (.node 4 (.leaf lex3) (.leaf lex4))))
  (.node 8 (.node 6 (.leaf lex5) (.node 7 (.leaf lex6) (.leaf lex7)))
  (.node 9 (.leaf lex8) (.node 10 (.leaf lex9) (.leaf lex10)))))
  (.node 17 (.node 14 (.node 12 (.leaf lex11) (.node 13 (.leaf lex12) (.leaf lex13)))
  (.node 15 (.leaf lex14) (.node 16 (.leaf lex15) (.leaf lex16))))
  (.node 20 (.node 18 (.leaf lex17) (.node 19 (.leaf lex18) (.leaf lex19)))
  (.node 21 (.leaf lex20) (.node 22 (.leaf lex21) (.leaf lex22))))))
  (.node 34 (.node 28 (.node 25 (.node 24 (.leaf lex23) (.leaf lex24))
  (.node 26 (.leaf lex25) (.node 27 (.leaf lex26) (.leaf lex27))))
  (.node 31 (.node 29 (.leaf lex28) (.node 30 (.leaf lex29) (.leaf lex30)))
  (.node 32 (.leaf lex31) (.node 33 (.leaf lex32) (.leaf lex33)))))
  (.node 40 (.node 37 (.node 35 (.leaf lex34) (.node 36 (.leaf lex35) (.leaf lex36)))
  (.node 38 (.leaf lex37) (.node 39 (.leaf lex38) (.leaf lex39))))
  (.node 43 (.node 41 (.leaf lex40) (.node 42 (.leaf lex41) (.leaf lex42)))
  (.node 44 (.leaf lex43) (.node 45 (.leaf lex44) (.leaf lex45)))))))
  (.node 69 (.node 57 (.node 51 (.node 48 (.node 47 (.leaf lex46) (.leaf lex47))
  (.node 49 (.leaf lex48) (.node 50 (.leaf lex49) (.leaf lex50))))
  (.node 54 (.node 52 (.leaf lex51) (.node 53 (.leaf lex52) (.leaf lex53)))
  (.node 55 (.leaf lex54) (.node 56 (.leaf lex55) (.leaf lex56)))))
  (.node 63 (.node 60 (.node 58 (.leaf lex57) (.node 59 (.leaf lex58) (.leaf lex59)))
  (.node 61 (.leaf lex60) (.node 62 (.leaf lex61) (.leaf lex62))))
  (.node 66 (.node 64 (.leaf lex63) (.node 65 (.leaf lex64) (.leaf lex65)))
  (.node 67 (.leaf lex66) (.node 68 (.leaf lex67) (.leaf lex68))))))
  (.node 81 (.node 75 (.node 72 (.node 70 (.leaf lex69) (.node 71 (.leaf lex70) (.leaf lex71)))
  (.node 73 (.leaf lex72) (.node 74 (.leaf lex73) (.leaf lex74))))
  (.node 78 (.node 76 (.leaf lex75) (.node 77 (.leaf lex76) (.leaf lex77)))
  (.node 79 (.leaf lex78) (.node 80 (.leaf lex79) (.leaf lex80)))))
  (.node 87 (.node 84 (.node 82 (.leaf lex81) (.node 83 (.leaf lex82) (.leaf lex83)))
  (.node 85 (.leaf lex84) (.node 86 (.leaf lex85) (.leaf lex86))))
  (.node 90 (.node 88 (.leaf lex87) (.node 89 (.leaf lex88) (.leaf lex89)))
  (.node 91 (.leaf lex90) (.node 92 (.leaf lex91) (.leaf lex92))))))))
  (.node 139 (.node 116 (.node 104 (.node 98 (.node 95 (.node 94 (.leaf lex93) (.leaf lex94))
  (.node 96 (.leaf lex95) (.node 97 (.leaf lex96) (.leaf lex97))))
  (.node 101 (.node 99 (.leaf lex98) (.node 100 (.leaf lex99) (.leaf lex100)))
  (.node 102 (.leaf lex101) (.node 103 (.leaf lex102) (.leaf lex103)))))
  (.node 110 (.node 107 (.node 105 (.leaf lex104) (.node 106 (.leaf lex105) (.leaf lex106)))
  (.node 108 (.leaf lex107) (.node 109 (.leaf lex108) (.leaf lex109))))
  (.node 113 (.node 111 (.leaf lex110) (.node 112 (.leaf lex111) (.leaf lex112)))
  (.node 114 (.leaf lex113) (.node 115 (.leaf lex114) (.leaf lex115))))))
  (.node 127 (.node 121 (.node 118 (.node 117 (.leaf lex116) (.leaf lex117))
  (.node 119 (.leaf lex118) (.node 120 (.leaf lex119) (.leaf lex120))))
  (.node 124 (.node 122 (.leaf lex121) (.node 123 (.leaf lex122) (.leaf lex123)))
  (.node 125 (.leaf lex124) (.node 126 (.leaf lex125) (.leaf lex126)))))
  (.node 133 (.node 130 (.node 128 (.leaf lex127) (.node 129 (.leaf lex128) (.leaf lex129)))
  (.node 131 (.leaf lex130) (.node 132 (.leaf lex131) (.leaf lex132))))
  (.node 136 (.node 134 (.leaf lex133) (.node 135 (.leaf lex134) (.leaf lex135)))
  (.node 137 (.leaf lex136) (.node 138 (.leaf lex137) (.leaf lex138)))))))
  (.node 162 (.node 150 (.node 144 (.node 141 (.node 140 (.leaf lex139) (.leaf lex140))
  (.node 142 (.leaf lex141) (.node 143 (.leaf lex142) (.leaf lex143))))
  (.node 147 (.node 145 (.leaf lex144) (.node 146 (.leaf lex145) (.leaf lex146)))
  (.node 148 (.leaf lex147) (.node 149 (.leaf lex148) (.leaf lex149)))))
  (.node 156 (.node 153 (.node 151 (.leaf lex150) (.node 152 (.leaf lex151) (.leaf lex152)))
  (.node 154 (.leaf lex153) (.node 155 (.leaf lex154) (.leaf lex155))))
  (.node 159 (.node 157 (.leaf lex156) (.node 158 (.leaf lex157) (.leaf lex158)))
  (.node 160 (.leaf lex159) (.node 161 (.leaf lex160) (.leaf lex161))))))
  (.node 174 (.node 168 (.node 165 (.node 163 (.leaf lex162) (.node 164 (.leaf lex163) (.leaf lex164)))
  (.node 166 (.leaf lex165) (.node 167 (.leaf lex166) (.leaf lex167))))
  (.node 171 (.node 169 (.leaf lex168) (.node 170 (.leaf lex169) (.leaf lex170)))
  (.node 172 (.leaf lex171) (.node 173 (.leaf lex172) (.leaf lex173)))))
  (.node 180 (.node 177 (.node 175 (.leaf lex174) (.node 176 (.leaf lex175) (.leaf lex176)))
  (.node 178 (.leaf lex177) (.node 179 (.leaf lex178) (.leaf lex179))))
  (.node 183 (.node 181 (.leaf lex180) (.node 182 (.leaf lex181) (.leaf lex182)))
  (.node 184 (.leaf lex183) (.node 185 (.leaf lex184) (.leaf lex185))))))))

def row0 : Row := ⟨[([.recover], 0xfffffffffffffc3), ([.shiftExtra], 0x8), ([.shift 331], 0x10)],
  []⟩
def row1 : Row := ⟨[([.reduce 60 0 0], 0x1), ([.shiftExtra], 0x8), ([.shift 331], 0x10), ([.shift 3], 0x40), ([.shift 220], 0x100), ([.shift 275], 0xc00), ([.shift 218], 0x1000), ([.shift 48], 0x2000), ([.shift 216], 0x10000), ([.shift 215], 0x20000), ([.shift 266], 0x40000), ([.shift 50], 0x80000), ([.shift 51], 0x100000), ([.shift 15], 0x200000), ([.shift 257], 0x10000000), ([.shift 184], 0xc0000000), ([.shift 33], 0x100000000000), ([.shift 108], 0x1f000000000000), ([.shift 107], 0x20000000000000), ([.shift 115], 0x8c0000000000000), ([.shift 116], 0x700000000000000)],
  [(60, 327), (61, 11), (62, 1), (63, 89), (64, 191), (65, 88), (66, 261), (69, 272), (70, 295), (71, 261), (72, 88), (73, 118), (74, 88), (75, 261), (76, 261), (77, 261), (78, 86), (79, 118), (80, 110), (81, 118), (87, 118), (88, 261), (89, 261), (90, 53), (91, 118), (96, 118), (97, 118), (98, 110), (99, 118), (101, 118), (103, 107), (104, 110), (105, 115), (106, 268)]⟩
def row2 : Row := ⟨[([.shiftExtra], 0x8), ([.shift 331], 0x10), ([.shift 3], 0x40), ([.shift 137], 0x80), ([.shift 220], 0x100), ([.shift 275], 0xc00), ([.shift 218], 0x1000), ([.shift 48], 0x2000), ([.shift 216], 0x10000), ([.shift 215], 0x20000), ([.shift 266], 0x40000), ([.shift 50], 0x80000), ([.shift 51], 0x100000), ([.shift 15], 0x200000), ([.shift 257], 0x10000000), ([.shift 184], 0xc0000000), ([.shift 33], 0x100000000000), ([.shift 108], 0x1f000000000000), ([.shift 107], 0x20000000000000), ([.shift 115], 0x8c0000000000000), ([.shift 116], 0x700000000000000)],
  [(61, 9), (62, 2), (63, 89), (64, 190), (65, 88), (66, 261), (69, 272), (70, 295), (71, 261), (72, 88), (73, 118), (74, 88), (75, 261), (76, 261), (77, 261), (78, 76), (79, 118), (80, 110), (81, 118), (87, 118), (88, 261), (89, 261), (90, 53), (91, 118), (96, 118), (97, 118), (98, 110), (99, 118), (100, 286), (101, 118), (103, 107), (104, 110), (105, 115), (106, 268)]⟩
def row3 : Row := ⟨[([.shiftExtra], 0x8), ([.shift 331], 0x10), ([.shift 3], 0x40), ([.shift 13], 0x80), ([.shift 220], 0x100), ([.shift 275], 0xc00), ([.shift 218], 0x1000), ([.shift 48], 0x2000), ([.shift 216], 0x10000), ([.shift 215], 0x20000), ([.shift 266], 0x40000), ([.shift 50], 0x80000), ([.shift 51], 0x100000), ([.shift 15], 0x200000), ([.shift 257], 0x10000000), ([.shift 184], 0xc0000000), ([.shift 33], 0x100000000000), ([.shift 108], 0x1f000000000000), ([.shift 107], 0x20000000000000), ([.shift 115], 0x8c0000000000000), ([.shift 116], 0x700000000000000)],
  [(61, 7), (62, 3), (63, 89), (64, 189), (65, 88), (66, 261), (69, 272), (70, 295), (71, 261), (72, 88), (73, 118), (74, 88), (75, 261), (76, 261), (77, 261), (78, 76), (79, 118), (80, 110), (81, 118), (87, 118), (88, 261), (89, 261), (90, 53), (91, 118), (96, 118), (97, 118), (98, 110), (99, 118), (100, 286), (101, 118), (103, 107), (104, 110), (105, 115), (106, 268)]⟩
def row4 : Row := ⟨[([.shiftExtra], 0x8), ([.shift 331], 0x10), ([.shift 3], 0x40), ([.shift 14], 0x80), ([.shift 220], 0x100), ([.shift 275], 0xc00), ([.shift 218], 0x1000), ([.shift 48], 0x2000), ([.shift 216], 0x10000), ([.shift 215], 0x20000), ([.shift 266], 0x40000), ([.shift 50], 0x80000), ([.shift 51], 0x100000), ([.shift 15], 0x200000), ([.shift 257], 0x10000000), ([.shift 184], 0xc0000000), ([.shift 33], 0x100000000000), ([.shift 108], 0x1f000000000000), ([.shift 107], 0x20000000000000), ([.shift 115], 0x8c0000000000000), ([.shift 116], 0x700000000000000)],
  [(61, 7), (62, 4), (63, 89), (64, 189), (65, 88), (66, 261), (69, 272), (70, 295), (71, 261), (72, 88), (73, 118), (74, 88), (75, 261), (76, 261), (77, 261), (78, 76), (79, 118), (80, 110), (81, 118), (87, 118), (88, 261), (89, 261), (90, 53), (91, 118), (96, 118), (97, 118), (98, 110), (99, 118), (100, 286), (101, 118), (103, 107), (104, 110), (105, 115), (106, 268)]⟩
def row5 : Row := ⟨[([.shiftExtra], 0x8), ([.shift 331], 0x10), ([.shift 3], 0x40), ([.shift 180], 0x80), ([.shift 220], 0x100), ([.shift 275], 0xc00), ([.shift 218], 0x1000), ([.shift 48], 0x2000), ([.shift 216], 0x10000), ([.shift 215], 0x20000), ([.shift 266], 0x40000), ([.shift 50], 0x80000), ([.shift 51], 0x100000), ([.shift 15], 0x200000), ([.shift 257], 0x10000000), ([.shift 184], 0xc0000000), ([.shift 33], 0x100000000000), ([.shift 108], 0x1f000000000000), ([.shift 107], 0x20000000000000), ([.shift 115], 0x8c0000000000000), ([.shift 116], 0x700000000000000)],
  [(61, 6), (62, 5), (63, 89), (64, 188), (65, 88), (66, 261), (69, 272), (70, 295), (71, 261), (72, 88), (73, 118), (74, 88), (75, 261), (76, 261), (77, 261), (78, 76), (79, 118), (80, 110), (81, 118), (87, 118), (88, 261), (89, 261), (90, 53), (91, 118), (96, 118), (97, 118), (98, 110), (99, 118), (100, 297), (101, 118), (103, 107), (104, 110), (105, 115), (106, 268)]⟩
def row6 : Row := ⟨[([.shiftExtra], 0x8), ([.shift 331], 0x10), ([.shift 4], 0x40), ([.shift 181], 0x80), ([.shift 220], 0x100), ([.shift 275], 0xc00), ([.shift 218], 0x1000), ([.shift 48], 0x2000), ([.shift 216], 0x10000), ([.shift 215], 0x20000), ([.shift 266], 0x40000), ([.shift 50], 0x80000), ([.shift 51], 0x100000), ([.shift 15], 0x200000), ([.shift 257], 0x10000000), ([.shift 184], 0xc0000000), ([.shift 33], 0x100000000000), ([.shift 108], 0x1f000000000000), ([.shift 107], 0x20000000000000), ([.shift 115], 0x8c0000000000000), ([.shift 116], 0x700000000000000)],
  [(61, 12), (62, 6), (63, 89), (64, 191), (65, 88), (66, 261), (69, 272), (70, 295), (71, 261), (72, 88), (73, 118), (74, 88), (75, 261), (76, 261), (77, 261), (78, 86), (79, 118), (80, 110), (81, 118), (87, 118), (88, 261), (89, 261), (90, 53), (91, 118), (96, 118), (97, 118), (98, 110), (99, 118), (101, 118), (103, 107), (104, 110), (105, 115), (106, 268)]⟩
def row7 : Row := ⟨[([.shiftExtra], 0x8), ([.shift 331], 0x10), ([.shift 4], 0x40), ([.shift 83], 0x80), ([.shift 220], 0x100), ([.shift 275], 0xc00), ([.shift 218], 0x1000), ([.shift 48], 0x2000), ([.shift 216], 0x10000), ([.shift 215], 0x20000), ([.shift 266], 0x40000), ([.shift 50], 0x80000), ([.shift 51], 0x100000), ([.shift 15], 0x200000), ([.shift 257], 0x10000000), ([.shift 184], 0xc0000000), ([.shift 33], 0x100000000000), ([.shift 108], 0x1f000000000000), ([.shift 107], 0x20000000000000), ([.shift 115], 0x8c0000000000000), ([.shift 116], 0x700000000000000)],
  [(61, 12), (62, 7), (63, 89), (64, 191), (65, 88), (66, 261), (69, 272), (70, 295), (71, 261), (72, 88), (73, 118), (74, 88), (75, 261), (76, 261), (77, 261), (78, 86), (79, 118), (80, 110), (81, 118), (87, 118), (88, 261), (89, 261), (90, 53), (91, 118), (96, 118), (97, 118), (98, 110), (99, 118), (101, 118), (103, 107), (104, 110), (105, 115), (106, 268)]⟩
def row8 : Row := ⟨[([.reduce 61 2 0], 0x1), ([.shiftExtra], 0x8), ([.shift 331], 0x10), ([.reduce 61 2 0, .shiftRepeat 3], 0x40), ([.reduce 61 2 0, .shiftRepeat 220], 0x100), ([.reduce 61 2 0, .shiftRepeat 275], 0xc00), ([.reduce 61 2 0, .shiftRepeat 218], 0x1000), ([.reduce 61 2 0, .shiftRepeat 48], 0x2000), ([.reduce 61 2 0, .shiftRepeat 216], 0x10000), ([.reduce 61 2 0, .shiftRepeat 215], 0x20000), ([.reduce 61 2 0, .shiftRepeat 266], 0x40000), ([.reduce 61 2 0, .shiftRepeat 50], 0x80000), ([.reduce 61 2 0, .shiftRepeat 51], 0x100000), ([.reduce 61 2 0, .shiftRepeat 15], 0x200000), ([.reduce 61 2 0, .shiftRepeat 257], 0x10000000), ([.reduce 61 2 0, .shiftRepeat 184], 0xc0000000), ([.reduce 61 2 0, .shiftRepeat 33], 0x100000000000), ([.reduce 61 2 0, .shiftRepeat 108], 0x1f000000000000), ([.reduce 61 2 0, .shiftRepeat 107], 0x20000000000000), ([.reduce 61 2 0, .shiftRepeat 115], 0x8c0000000000000), ([.reduce 61 2 0, .shiftRepeat 116], 0x700000000000000)],
  [(61, 8), (62, 8), (63, 89), (64, 191), (65, 88), (66, 261), (69, 272), (70, 295), (71, 261), (72, 88), (73, 118), (74, 88), (75, 261), (76, 261), (77, 261), (78, 86), (79, 118), (80, 110), (81, 118), (87, 118), (88, 261), (89, 261), (90, 53), (91, 118), (96, 118), (97, 118), (98, 110), (99, 118), (101, 118), (103, 107), (104, 110), (105, 115), (106, 268)]⟩
def row9 : Row := ⟨[([.shiftExtra], 0x8), ([.shift 331], 0x10), ([.shift 4], 0x40), ([.shift 135], 0x80), ([.shift 220], 0x100), ([.shift 275], 0xc00), ([.shift 218], 0x1000), ([.shift 48], 0x2000), ([.shift 216], 0x10000), ([.shift 215], 0x20000), ([.shift 266], 0x40000), ([.shift 50], 0x80000), ([.shift 51], 0x100000), ([.shift 15], 0x200000), ([.shift 257], 0x10000000), ([.shift 184], 0xc0000000), ([.shift 33], 0x100000000000), ([.shift 108], 0x1f000000000000), ([.shift 107], 0x20000000000000), ([.shift 115], 0x8c0000000000000), ([.shift 116], 0x700000000000000)],
  [(61, 12), (62, 9), (63, 89), (64, 191), (65, 88), (66, 261), (69, 272), (70, 295), (71, 261), (72, 88), (73, 118), (74, 88), (75, 261), (76, 261), (77, 261), (78, 86), (79, 118), (80, 110), (81, 118), (87, 118), (88, 261), (89, 261), (90, 53), (91, 118), (96, 118), (97, 118), (98, 110), (99, 118), (101, 118), (103, 107), (104, 110), (105, 115), (106, 268)]⟩
def row10 : Row := ⟨[([.shiftExtra], 0x8), ([.shift 331], 0x10), ([.shift 3], 0x40), ([.shift 85], 0x80), ([.shift 220], 0x100), ([.shift 275], 0xc00), ([.shift 218], 0x1000), ([.shift 48], 0x2000), ([.shift 216], 0x10000), ([.shift 215], 0x20000), ([.shift 266], 0x40000), ([.shift 50], 0x80000), ([.shift 51], 0x100000), ([.shift 15], 0x200000), ([.shift 257], 0x10000000), ([.shift 184], 0xc0000000), ([.shift 33], 0x100000000000), ([.shift 108], 0x1f000000000000), ([.shift 107], 0x20000000000000), ([.shift 115], 0x8c0000000000000), ([.shift 116], 0x700000000000000)],
  [(61, 7), (62, 10), (63, 89), (64, 189), (65, 88), (66, 261), (69, 272), (70, 295), (71, 261), (72, 88), (73, 118), (74, 88), (75, 261), (76, 261), (77, 261), (78, 86), (79, 118), (80, 110), (81, 118), (87, 118), (88, 261), (89, 261), (90, 53), (91, 118), (96, 118), (97, 118), (98, 110), (99, 118), (101, 118), (103, 107), (104, 110), (105, 115), (106, 268)]⟩
def row11 : Row := ⟨[([.reduce 60 1 0], 0x1), ([.shiftExtra], 0x8), ([.shift 331], 0x10), ([.shift 3], 0x40), ([.shift 220], 0x100), ([.shift 275], 0xc00), ([.shift 218], 0x1000), ([.shift 48], 0x2000), ([.shift 216], 0x10000), ([.shift 215], 0x20000), ([.shift 266], 0x40000), ([.shift 50], 0x80000), ([.shift 51], 0x100000), ([.shift 15], 0x200000), ([.shift 257], 0x10000000), ([.shift 184], 0xc0000000), ([.shift 33], 0x100000000000), ([.shift 108], 0x1f000000000000), ([.shift 107], 0x20000000000000), ([.shift 115], 0x8c0000000000000), ([.shift 116], 0x700000000000000)],
  [(61, 8), (62, 11), (63, 89), (64, 191), (65, 88), (66, 261), (69, 272), (70, 295), (71, 261), (72, 88), (73, 118), (74, 88), (75, 261), (76, 261), (77, 261), (78, 86), (79, 118), (80, 110), (81, 118), (87, 118), (88, 261), (89, 261), (90, 53), (91, 118), (96, 118), (97, 118), (98, 110), (99, 118), (101, 118), (103, 107), (104, 110), (105, 115), (106, 268)]⟩
def row12 : Row := ⟨[([.shiftExtra], 0x8), ([.shift 331], 0x10), ([.reduce 61 2 0, .shiftRepeat 4], 0x40), ([.reduce 61 2 0], 0x80), ([.reduce 61 2 0, .shiftRepeat 220], 0x100), ([.reduce 61 2 0, .shiftRepeat 275], 0xc00), ([.reduce 61 2 0, .shiftRepeat 218], 0x1000), ([.reduce 61 2 0, .shiftRepeat 48], 0x2000), ([.reduce 61 2 0, .shiftRepeat 216], 0x10000), ([.reduce 61 2 0, .shiftRepeat 215], 0x20000), ([.reduce 61 2 0, .shiftRepeat 266], 0x40000), ([.reduce 61 2 0, .shiftRepeat 50], 0x80000), ([.reduce 61 2 0, .shiftRepeat 51], 0x100000), ([.reduce 61 2 0, .shiftRepeat 15], 0x200000), ([.reduce 61 2 0, .shiftRepeat 257], 0x10000000), ([.reduce 61 2 0, .shiftRepeat 184], 0xc0000000), ([.reduce 61 2 0, .shiftRepeat 33], 0x100000000000), ([.reduce 61 2 0, .shiftRepeat 108], 0x1f000000000000), ([.reduce 61 2 0, .shiftRepeat 107], 0x20000000000000), ([.reduce 61 2 0, .shiftRepeat 115], 0x8c0000000000000), ([.reduce 61 2 0, .shiftRepeat 116], 0x700000000000000)],
  [(61, 12), (62, 12), (63, 89), (64, 191), (65, 88), (66, 261), (69, 272), (70, 295), (71, 261), (72, 88), (73, 118), (74, 88), (75, 261), (76, 261), (77, 261), (78, 86), (79, 118), (80, 110), (81, 118), (87, 118), (88, 261), (89, 261), (90, 53), (91, 118), (96, 118), (97, 118), (98, 110), (99, 118), (101, 118), (103, 107), (104, 110), (105, 115), (106, 268)]⟩
def row13 : Row := ⟨[([.reduce 65 2 0], 0xfff0000903a1101), ([.reduce 101 2 0], 0x1fff4b052ec6), ([.shiftExtra], 0x8), ([.shift 331], 0x10)],
  [(62, 13)]⟩
def row14 : Row := ⟨[([.reduce 101 2 0], 0x1fff43052e46), ([.shiftExtra], 0x8), ([.shift 331], 0x10), ([.reduce 65 2 0], 0xfff0000903a1180)],
  [(62, 14)]⟩
def row15 : Row := ⟨[([.reduce 77 1 0], 0x50c86), ([.shiftExtra], 0x8), ([.shift 331], 0x10), ([.shift 21], 0x40), ([.shift 48], 0x2000), ([.shift 215], 0x20000), ([.shift 184], 0xc0000000), ([.shift 33], 0x100000000000), ([.shift 108], 0x1f000000000000), ([.shift 107], 0x20000000000000), ([.shift 115], 0x8c0000000000000), ([.shift 116], 0x700000000000000)],
  [(62, 15), (73, 118), (78, 93), (79, 118), (80, 118), (81, 118), (87, 118), (90, 53), (91, 118), (96, 118), (97, 118), (98, 118), (99, 118), (101, 118), (103, 107), (104, 118), (105, 115)]⟩
def row16 : Row := ⟨[([.shiftExtra], 0x8), ([.shift 331], 0x10), ([.shift 18], 0x40), ([.shift 129], 0x80), ([.shift 60], 0x2000), ([.shift 219], 0x20000), ([.shift 184], 0xc0000000), ([.shift 28], 0x100000000000), ([.shift 144], 0x1f000000000000), ([.shift 146], 0x20000000000000), ([.shift 157], 0x8c0000000000000), ([.shift 156], 0x700000000000000)],
  [(62, 16), (73, 155), (78, 168), (79, 155), (80, 155), (81, 155), (87, 155), (90, 47), (91, 155), (96, 155), (97, 155), (98, 155), (99, 155), (100, 309), (101, 155), (103, 146), (104, 155), (105, 157)]⟩
def row17 : Row := ⟨[([.shiftExtra], 0x8), ([.shift 331], 0x10), ([.shift 18], 0x40), ([.shift 60], 0x2000), ([.shift 124], 0x4000), ([.shift 219], 0x20000), ([.shift 184], 0xc0000000), ([.shift 28], 0x100000000000), ([.shift 144], 0x1f000000000000), ([.shift 146], 0x20000000000000), ([.shift 157], 0x8c0000000000000), ([.shift 156], 0x700000000000000)],
  [(62, 17), (73, 155), (78, 147), (79, 155), (80, 155), (81, 155), (86, 329), (87, 155), (90, 47), (91, 155), (96, 155), (97, 155), (98, 155), (99, 155), (101, 155), (103, 146), (104, 155), (105, 157)]⟩
def row18 : Row := ⟨[([.shiftExtra], 0x8), ([.shift 331], 0x10), ([.shift 18], 0x40), ([.shift 170], 0x80), ([.shift 60], 0x2000), ([.shift 219], 0x20000), ([.shift 184], 0xc0000000), ([.shift 28], 0x100000000000), ([.shift 144], 0x1f000000000000), ([.shift 146], 0x20000000000000), ([.shift 157], 0x8c0000000000000), ([.shift 156], 0x700000000000000)],
  [(62, 18), (73, 155), (78, 168), (79, 155), (80, 155), (81, 155), (87, 155), (90, 47), (91, 155), (96, 155), (97, 155), (98, 155), (99, 155), (100, 297), (101, 155), (103, 146), (104, 155), (105, 157)]⟩
def row19 : Row := ⟨[([.shiftExtra], 0x8), ([.shift 331], 0x10), ([.shift 18], 0x40), ([.shift 114], 0x80), ([.shift 60], 0x2000), ([.shift 219], 0x20000), ([.shift 184], 0xc0000000), ([.shift 28], 0x100000000000), ([.shift 144], 0x1f000000000000), ([.shift 146], 0x20000000000000), ([.shift 157], 0x8c0000000000000), ([.shift 156], 0x700000000000000)],
  [(62, 19), (73, 155), (78, 168), (79, 155), (80, 155), (81, 155), (87, 155), (90, 47), (91, 155), (96, 155), (97, 155), (98, 155), (99, 155), (100, 309), (101, 155), (103, 146), (104, 155), (105, 157)]⟩
def row20 : Row := ⟨[([.shiftExtra], 0x8), ([.shift 331], 0x10), ([.shift 18], 0x40), ([.shift 171], 0x80), ([.shift 60], 0x2000), ([.shift 219], 0x20000), ([.shift 184], 0xc0000000), ([.shift 28], 0x100000000000), ([.shift 144], 0x1f000000000000), ([.shift 146], 0x20000000000000), ([.shift 157], 0x8c0000000000000), ([.shift 156], 0x700000000000000)],
  [(62, 20), (73, 155), (78, 168), (79, 155), (80, 155), (81, 155), (87, 155), (90, 47), (91, 155), (96, 155), (97, 155), (98, 155), (99, 155), (100, 309), (101, 155), (103, 146), (104, 155), (105, 157)]⟩
def row21 : Row := ⟨[([.shiftExtra], 0x8), ([.shift 331], 0x10), ([.shift 18], 0x40), ([.shift 134], 0x80), ([.shift 60], 0x2000), ([.shift 219], 0x20000), ([.shift 184], 0xc0000000), ([.shift 28], 0x100000000000), ([.shift 144], 0x1f000000000000), ([.shift 146], 0x20000000000000), ([.shift 157], 0x8c0000000000000), ([.shift 156], 0x700000000000000)],
  [(62, 21), (73, 155), (78, 168), (79, 155), (80, 155), (81, 155), (87, 155), (90, 47), (91, 155), (96, 155), (97, 155), (98, 155), (99, 155), (100, 286), (101, 155), (103, 146), (104, 155), (105, 157)]⟩
def row22 : Row := ⟨[([.shiftExtra], 0x8), ([.shift 331], 0x10), ([.shift 18], 0x40), ([.shift 164], 0x80), ([.shift 60], 0x2000), ([.shift 219], 0x20000), ([.shift 184], 0xc0000000), ([.shift 28], 0x100000000000), ([.shift 144], 0x1f000000000000), ([.shift 146], 0x20000000000000), ([.shift 157], 0x8c0000000000000), ([.shift 156], 0x700000000000000)],
  [(62, 22), (73, 155), (78, 168), (79, 155), (80, 155), (81, 155), (87, 155), (90, 47), (91, 155), (96, 155), (97, 155), (98, 155), (99, 155), (100, 309), (101, 155), (103, 146), (104, 155), (105, 157)]⟩
def row23 : Row := ⟨[([.shiftExtra], 0x8), ([.shift 331], 0x10), ([.shift 18], 0x40), ([.shift 60], 0x2000), ([.shift 163], 0x4000), ([.shift 219], 0x20000), ([.shift 184], 0xc0000000), ([.shift 28], 0x100000000000), ([.shift 144], 0x1f000000000000), ([.shift 146], 0x20000000000000), ([.shift 157], 0x8c0000000000000), ([.shift 156], 0x700000000000000)],
  [(62, 23), (73, 155), (78, 147), (79, 155), (80, 155), (81, 155), (86, 324), (87, 155), (90, 47), (91, 155), (96, 155), (97, 155), (98, 155), (99, 155), (101, 155), (103, 146), (104, 155), (105, 157)]⟩
def row24 : Row := ⟨[([.shiftExtra], 0x8), ([.shift 331], 0x10), ([.shift 18], 0x40), ([.shift 60], 0x2000), ([.shift 219], 0x20000), ([.shift 184], 0xc0000000), ([.shift 28], 0x100000000000), ([.shift 176], 0x200000000000), ([.shift 144], 0x1f000000000000), ([.shift 146], 0x20000000000000), ([.shift 157], 0x8c0000000000000), ([.shift 156], 0x700000000000000)],
  [(62, 24), (73, 155), (78, 145), (79, 155), (80, 155), (81, 155), (87, 155), (90, 47), (91, 155), (96, 155), (97, 155), (98, 155), (99, 155), (101, 155), (103, 146), (104, 155), (105, 157)]⟩
def row25 : Row := ⟨[([.shiftExtra], 0x8), ([.shift 331], 0x10), ([.shift 18], 0x40), ([.shift 60], 0x2000), ([.shift 219], 0x20000), ([.shift 184], 0xc0000000), ([.shift 28], 0x100000000000), ([.shift 127], 0x200000000000), ([.shift 144], 0x1f000000000000), ([.shift 146], 0x20000000000000), ([.shift 157], 0x8c0000000000000), ([.shift 156], 0x700000000000000)],
  [(62, 25), (73, 155), (78, 173), (79, 155), (80, 155), (81, 155), (87, 155), (90, 47), (91, 155), (96, 155), (97, 155), (98, 155), (99, 155), (101, 155), (103, 146), (104, 155), (105, 157)]⟩
def row26 : Row := ⟨[([.shiftExtra], 0x8), ([.shift 331], 0x10), ([.shift 18], 0x40), ([.shift 60], 0x2000), ([.shift 219], 0x20000), ([.shift 35], 0x8000000), ([.shift 184], 0xc0000000), ([.shift 28], 0x100000000000), ([.shift 144], 0x1f000000000000), ([.shift 146], 0x20000000000000), ([.shift 157], 0x8c0000000000000), ([.shift 156], 0x700000000000000)],
  [(62, 26), (73, 155), (78, 151), (79, 155), (80, 155), (81, 155), (87, 155), (90, 47), (91, 155), (96, 155), (97, 155), (98, 155), (99, 155), (101, 155), (103, 146), (104, 155), (105, 157)]⟩
def row27 : Row := ⟨[([.shiftExtra], 0x8), ([.shift 331], 0x10), ([.shift 18], 0x40), ([.shift 60], 0x2000), ([.shift 219], 0x20000), ([.shift 184], 0xc0000000), ([.shift 28], 0x100000000000), ([.shift 166], 0x200000000000), ([.shift 144], 0x1f000000000000), ([.shift 146], 0x20000000000000), ([.shift 157], 0x8c0000000000000), ([.shift 156], 0x700000000000000)],
  [(62, 27), (73, 155), (78, 145), (79, 155), (80, 155), (81, 155), (87, 155), (90, 47), (91, 155), (96, 155), (97, 155), (98, 155), (99, 155), (101, 155), (103, 146), (104, 155), (105, 157)]⟩
def row28 : Row := ⟨[([.shiftExtra], 0x8), ([.shift 331], 0x10), ([.shift 18], 0x40), ([.shift 60], 0x2000), ([.shift 219], 0x20000), ([.shift 184], 0xc0000000), ([.shift 28], 0x100000000000), ([.shift 182], 0x200000000000), ([.shift 144], 0x1f000000000000), ([.shift 146], 0x20000000000000), ([.shift 157], 0x8c0000000000000), ([.shift 156], 0x700000000000000)],
  [(62, 28), (73, 155), (78, 148), (79, 155), (80, 155), (81, 155), (87, 155), (90, 47), (91, 155), (96, 155), (97, 155), (98, 155), (99, 155), (101, 155), (103, 146), (104, 155), (105, 157)]⟩
def row29 : Row := ⟨[([.shiftExtra], 0x8), ([.shift 331], 0x10), ([.shift 18], 0x40), ([.shift 60], 0x2000), ([.reduce 86 2 0], 0x4000), ([.shift 219], 0x20000), ([.shift 184], 0xc0000000), ([.shift 28], 0x100000000000), ([.shift 144], 0x1f000000000000), ([.shift 146], 0x20000000000000), ([.shift 157], 0x8c0000000000000), ([.shift 156], 0x700000000000000)],
  [(62, 29), (73, 155), (78, 145), (79, 155), (80, 155), (81, 155), (87, 155), (90, 47), (91, 155), (96, 155), (97, 155), (98, 155), (99, 155), (101, 155), (103, 146), (104, 155), (105, 157)]⟩
def row30 : Row := ⟨[([.shiftExtra], 0x8), ([.shift 331], 0x10), ([.shift 18], 0x40), ([.shift 60], 0x2000), ([.shift 219], 0x20000), ([.shift 184], 0xc0000000), ([.shift 28], 0x100000000000), ([.shift 144], 0x1f000000000000), ([.shift 146], 0x20000000000000), ([.shift 157], 0x8c0000000000000), ([.shift 156], 0x700000000000000)],
  [(62, 30), (73, 155), (78, 168), (79, 155), (80, 155), (81, 155), (87, 155), (90, 47), (91, 155), (96, 155), (97, 155), (98, 155), (99, 155), (100, 309), (101, 155), (103, 146), (104, 155), (105, 157)]⟩
def row31 : Row := ⟨[([.shiftExtra], 0x8), ([.shift 331], 0x10), ([.shift 18], 0x40), ([.shift 60], 0x2000), ([.shift 219], 0x20000), ([.shift 184], 0xc0000000), ([.shift 28], 0x100000000000), ([.shift 112], 0x200000000000), ([.shift 144], 0x1f000000000000), ([.shift 146], 0x20000000000000), ([.shift 157], 0x8c0000000000000), ([.shift 156], 0x700000000000000)],
  [(62, 31), (73, 155), (78, 174), (79, 155), (80, 155), (81, 155), (87, 155), (90, 47), (91, 155), (96, 155), (97, 155), (98, 155), (99, 155), (101, 155), (103, 146), (104, 155), (105, 157)]⟩
def row32 : Row := ⟨[([.shiftExtra], 0x8), ([.shift 331], 0x10), ([.shift 18], 0x40), ([.shift 60], 0x2000), ([.shift 219], 0x20000), ([.shift 31], 0x8000000), ([.shift 184], 0xc0000000), ([.shift 28], 0x100000000000), ([.shift 144], 0x1f000000000000), ([.shift 146], 0x20000000000000), ([.shift 157], 0x8c0000000000000), ([.shift 156], 0x700000000000000)],
  [(62, 32), (73, 155), (78, 150), (79, 155), (80, 155), (81, 155), (87, 155), (90, 47), (91, 155), (96, 155), (97, 155), (98, 155), (99, 155), (101, 155), (103, 146), (104, 155), (105, 157)]⟩
def row33 : Row := ⟨[([.shiftExtra], 0x8), ([.shift 331], 0x10), ([.shift 18], 0x40), ([.shift 60], 0x2000), ([.shift 219], 0x20000), ([.shift 184], 0xc0000000), ([.shift 28], 0x100000000000), ([.shift 141], 0x200000000000), ([.shift 144], 0x1f000000000000), ([.shift 146], 0x20000000000000), ([.shift 157], 0x8c0000000000000), ([.shift 156], 0x700000000000000)],
  [(62, 33), (73, 155), (78, 143), (79, 155), (80, 155), (81, 155), (87, 155), (90, 47), (91, 155), (96, 155), (97, 155), (98, 155), (99, 155), (101, 155), (103, 146), (104, 155), (105, 157)]⟩
def row34 : Row := ⟨[([.shiftExtra], 0x8), ([.shift 331], 0x10), ([.shift 5], 0x40), ([.shift 60], 0x2000), ([.shift 219], 0x20000), ([.shift 184], 0xc0000000), ([.shift 28], 0x100000000000), ([.shift 144], 0x1f000000000000), ([.shift 146], 0x20000000000000), ([.shift 157], 0x8c0000000000000), ([.shift 156], 0x700000000000000)],
  [(62, 34), (65, 165), (73, 155), (78, 121), (79, 155), (80, 155), (81, 155), (87, 155), (90, 47), (91, 155), (96, 155), (97, 155), (98, 155), (99, 155), (101, 155), (103, 146), (104, 155), (105, 157)]⟩
def row35 : Row := ⟨[([.shiftExtra], 0x8), ([.shift 331], 0x10), ([.shift 18], 0x40), ([.shift 60], 0x2000), ([.shift 219], 0x20000), ([.shift 184], 0xc0000000), ([.shift 28], 0x100000000000), ([.shift 152], 0x200000000000), ([.shift 144], 0x1f000000000000), ([.shift 146], 0x20000000000000), ([.shift 157], 0x8c0000000000000), ([.shift 156], 0x700000000000000)],
  [(62, 35), (73, 155), (78, 175), (79, 155), (80, 155), (81, 155), (87, 155), (90, 47), (91, 155), (96, 155), (97, 155), (98, 155), (99, 155), (101, 155), (103, 146), (104, 155), (105, 157)]⟩
def row36 : Row := ⟨[([.shiftExtra], 0x8), ([.shift 331], 0x10), ([.shift 18], 0x40), ([.shift 60], 0x2000), ([.shift 219], 0x20000), ([.shift 184], 0xc0000000), ([.shift 28], 0x100000000000), ([.shift 117], 0x200000000000), ([.shift 144], 0x1f000000000000), ([.shift 146], 0x20000000000000), ([.shift 157], 0x8c0000000000000), ([.shift 156], 0x700000000000000)],
  [(62, 36), (73, 155), (78, 145), (79, 155), (80, 155), (81, 155), (87, 155), (90, 47), (91, 155), (96, 155), (97, 155), (98, 155), (99, 155), (101, 155), (103, 146), (104, 155), (105, 157)]⟩
def row37 : Row := ⟨[([.shiftExtra], 0x8), ([.shift 331], 0x10), ([.shift 18], 0x40), ([.shift 60], 0x2000), ([.shift 219], 0x20000), ([.shift 184], 0xc0000000), ([.shift 28], 0x100000000000), ([.shift 178], 0x200000000000), ([.shift 144], 0x1f000000000000), ([.shift 146], 0x20000000000000), ([.shift 157], 0x8c0000000000000), ([.shift 156], 0x700000000000000)],
  [(62, 37), (73, 155), (78, 172), (79, 155), (80, 155), (81, 155), (87, 155), (90, 47), (91, 155), (96, 155), (97, 155), (98, 155), (99, 155), (101, 155), (103, 146), (104, 155), (105, 157)]⟩
def row38 : Row := ⟨[([.shiftExtra], 0x8), ([.shift 331], 0x10), ([.shift 18], 0x40), ([.shift 60], 0x2000), ([.reduce 86 3 0], 0x4000), ([.shift 219], 0x20000), ([.shift 184], 0xc0000000), ([.shift 28], 0x100000000000), ([.shift 144], 0x1f000000000000), ([.shift 146], 0x20000000000000), ([.shift 157], 0x8c0000000000000), ([.shift 156], 0x700000000000000)],
  [(62, 38), (73, 155), (78, 145), (79, 155), (80, 155), (81, 155), (87, 155), (90, 47), (91, 155), (96, 155), (97, 155), (98, 155), (99, 155), (101, 155), (103, 146), (104, 155), (105, 157)]⟩
def row39 : Row := ⟨[([.shiftExtra], 0x8), ([.shift 331], 0x10), ([.shift 2], 0x40), ([.shift 48], 0x2000), ([.shift 215], 0x20000), ([.shift 184], 0xc0000000), ([.shift 33], 0x100000000000), ([.shift 108], 0x1f000000000000), ([.shift 107], 0x20000000000000), ([.shift 115], 0x8c0000000000000), ([.shift 116], 0x700000000000000)],
  [(62, 39), (65, 128), (73, 118), (78, 74), (79, 118), (80, 118), (81, 118), (87, 118), (90, 53), (91, 118), (96, 118), (97, 118), (98, 118), (99, 118), (101, 118), (103, 107), (104, 118), (105, 115)]⟩
def row40 : Row := ⟨[([.shiftExtra], 0x8), ([.shift 331], 0x10), ([.shift 18], 0x40), ([.shift 60], 0x2000), ([.shift 219], 0x20000), ([.shift 184], 0xc0000000), ([.shift 28], 0x100000000000), ([.shift 139], 0x200000000000), ([.shift 144], 0x1f000000000000), ([.shift 146], 0x20000000000000), ([.shift 157], 0x8c0000000000000), ([.shift 156], 0x700000000000000)],
  [(62, 40), (73, 155), (78, 145), (79, 155), (80, 155), (81, 155), (87, 155), (90, 47), (91, 155), (96, 155), (97, 155), (98, 155), (99, 155), (101, 155), (103, 146), (104, 155), (105, 157)]⟩
def row41 : Row := ⟨[([.shiftExtra], 0x8), ([.shift 331], 0x10), ([.shift 5], 0x40), ([.shift 60], 0x2000), ([.shift 219], 0x20000), ([.shift 184], 0xc0000000), ([.shift 28], 0x100000000000), ([.shift 144], 0x1f000000000000), ([.shift 146], 0x20000000000000), ([.shift 157], 0x8c0000000000000), ([.shift 156], 0x700000000000000)],
  [(62, 41), (65, 160), (73, 155), (78, 133), (79, 155), (80, 155), (81, 155), (87, 155), (90, 47), (91, 155), (96, 155), (97, 155), (98, 155), (99, 155), (101, 155), (103, 146), (104, 155), (105, 157)]⟩
def row42 : Row := ⟨[([.shiftExtra], 0x8), ([.shift 331], 0x10), ([.shift 2], 0x40), ([.shift 48], 0x2000), ([.shift 215], 0x20000), ([.shift 184], 0xc0000000), ([.shift 33], 0x100000000000), ([.shift 108], 0x1f000000000000), ([.shift 107], 0x20000000000000), ([.shift 115], 0x8c0000000000000), ([.shift 116], 0x700000000000000)],
  [(62, 42), (65, 120), (73, 118), (78, 73), (79, 118), (80, 118), (81, 118), (87, 118), (90, 53), (91, 118), (96, 118), (97, 118), (98, 118), (99, 118), (101, 118), (103, 107), (104, 118), (105, 115)]⟩
def row43 : Row := ⟨[([.shiftExtra], 0x8), ([.shift 331], 0x10), ([.shift 18], 0x40), ([.shift 60], 0x2000), ([.shift 219], 0x20000), ([.shift 184], 0xc0000000), ([.shift 28], 0x100000000000), ([.shift 144], 0x1f000000000000), ([.shift 146], 0x20000000000000), ([.shift 157], 0x8c0000000000000), ([.shift 156], 0x700000000000000)],
  [(62, 43), (73, 155), (78, 149), (79, 155), (80, 155), (81, 155), (87, 155), (90, 47), (91, 155), (96, 155), (97, 155), (98, 155), (99, 155), (101, 155), (103, 146), (104, 155), (105, 157)]⟩
def row44 : Row := ⟨[([.shiftExtra], 0x8), ([.shift 331], 0x10), ([.shift 21], 0x40), ([.shift 48], 0x2000), ([.shift 215], 0x20000), ([.shift 184], 0xc0000000), ([.shift 33], 0x100000000000), ([.shift 108], 0x1f000000000000), ([.shift 107], 0x20000000000000), ([.shift 115], 0x8c0000000000000), ([.shift 116], 0x700000000000000)],
  [(62, 44), (73, 118), (78, 70), (79, 118), (80, 118), (81, 118), (87, 118), (90, 53), (91, 118), (96, 118), (97, 118), (98, 118), (99, 118), (101, 118), (103, 107), (104, 118), (105, 115)]⟩
def row45 : Row := ⟨[([.shiftExtra], 0x8), ([.shift 331], 0x10), ([.shift 18], 0x40), ([.shift 60], 0x2000), ([.shift 219], 0x20000), ([.shift 184], 0xc0000000), ([.shift 28], 0x100000000000), ([.shift 144], 0x1f000000000000), ([.shift 146], 0x20000000000000), ([.shift 157], 0x8c0000000000000), ([.shift 156], 0x700000000000000)],
  [(62, 45), (73, 155), (78, 113), (79, 155), (80, 155), (81, 155), (87, 155), (90, 47), (91, 155), (96, 155), (97, 155), (98, 155), (99, 155), (101, 155), (103, 146), (104, 155), (105, 157)]⟩
def row46 : Row := ⟨[([.shiftExtra], 0x8), ([.shift 331], 0x10), ([.shift 18], 0x40), ([.shift 60], 0x2000), ([.shift 219], 0x20000), ([.shift 184], 0xc0000000), ([.shift 28], 0x100000000000), ([.shift 144], 0x1f000000000000), ([.shift 146], 0x20000000000000), ([.shift 157], 0x8c0000000000000), ([.shift 156], 0x700000000000000)],
  [(62, 46), (73, 155), (78, 132), (79, 155), (80, 155), (81, 155), (87, 155), (90, 47), (91, 155), (96, 155), (97, 155), (98, 155), (99, 155), (101, 155), (103, 146), (104, 155), (105, 157)]⟩
def row47 : Row := ⟨[([.shiftExtra], 0x8), ([.shift 331], 0x10), ([.shift 18], 0x40), ([.shift 60], 0x2000), ([.shift 219], 0x20000), ([.shift 184], 0xc0000000), ([.shift 28], 0x100000000000), ([.shift 144], 0x1f000000000000), ([.shift 146], 0x20000000000000), ([.shift 157], 0x8c0000000000000), ([.shift 156], 0x700000000000000)],
  [(62, 47), (73, 155), (78, 136), (79, 155), (80, 155), (81, 155), (87, 155), (90, 47), (91, 155), (96, 155), (97, 155), (98, 155), (99, 155), (101, 155), (103, 146), (104, 155), (105, 157)]⟩
def row48 : Row := ⟨[([.shiftExtra], 0x8), ([.shift 331], 0x10), ([.shift 18], 0x40), ([.shift 60], 0x2000), ([.shift 219], 0x20000), ([.shift 184], 0xc0000000), ([.shift 28], 0x100000000000), ([.shift 144], 0x1f000000000000), ([.shift 146], 0x20000000000000), ([.shift 157], 0x8c0000000000000), ([.shift 156], 0x700000000000000)],
  [(62, 48), (73, 155), (78, 154), (79, 155), (80, 155), (81, 155), (87, 155), (90, 47), (91, 155), (96, 155), (97, 155), (98, 155), (99, 155), (101, 155), (103, 146), (104, 155), (105, 157)]⟩
def row49 : Row := ⟨[([.shiftExtra], 0x8), ([.shift 331], 0x10), ([.shift 21], 0x40), ([.shift 48], 0x2000), ([.shift 215], 0x20000), ([.shift 184], 0xc0000000), ([.shift 33], 0x100000000000), ([.shift 108], 0x1f000000000000), ([.shift 107], 0x20000000000000), ([.shift 115], 0x8c0000000000000), ([.shift 116], 0x700000000000000)],
  [(62, 49), (73, 118), (78, 94), (79, 118), (80, 118), (81, 118), (87, 118), (90, 53), (91, 118), (96, 118), (97, 118), (98, 118), (99, 118), (101, 118), (103, 107), (104, 118), (105, 115)]⟩
def row50 : Row := ⟨[([.shiftExtra], 0x8), ([.shift 331], 0x10), ([.shift 21], 0x40), ([.shift 48], 0x2000), ([.shift 215], 0x20000), ([.shift 184], 0xc0000000), ([.shift 33], 0x100000000000), ([.shift 108], 0x1f000000000000), ([.shift 107], 0x20000000000000), ([.shift 115], 0x8c0000000000000), ([.shift 116], 0x700000000000000)],
  [(62, 50), (73, 118), (78, 81), (79, 118), (80, 118), (81, 118), (87, 118), (90, 53), (91, 118), (96, 118), (97, 118), (98, 118), (99, 118), (101, 118), (103, 107), (104, 118), (105, 115)]⟩
def row51 : Row := ⟨[([.shiftExtra], 0x8), ([.shift 331], 0x10), ([.shift 21], 0x40), ([.shift 48], 0x2000), ([.shift 215], 0x20000), ([.shift 184], 0xc0000000), ([.shift 33], 0x100000000000), ([.shift 108], 0x1f000000000000), ([.shift 107], 0x20000000000000), ([.shift 115], 0x8c0000000000000), ([.shift 116], 0x700000000000000)],
  [(62, 51), (73, 118), (78, 80), (79, 118), (80, 118), (81, 118), (87, 118), (90, 53), (91, 118), (96, 118), (97, 118), (98, 118), (99, 118), (101, 118), (103, 107), (104, 118), (105, 115)]⟩
def row52 : Row := ⟨[([.shiftExtra], 0x8), ([.shift 331], 0x10), ([.shift 21], 0x40), ([.shift 48], 0x2000), ([.shift 215], 0x20000), ([.shift 184], 0xc0000000), ([.shift 33], 0x100000000000), ([.shift 108], 0x1f000000000000), ([.shift 107], 0x20000000000000), ([.shift 115], 0x8c0000000000000), ([.shift 116], 0x700000000000000)],
  [(62, 52), (73, 118), (78, 87), (79, 118), (80, 118), (81, 118), (87, 118), (90, 53), (91, 118), (96, 118), (97, 118), (98, 118), (99, 118), (101, 118), (103, 107), (104, 118), (105, 115)]⟩
def row53 : Row := ⟨[([.shiftExtra], 0x8), ([.shift 331], 0x10), ([.shift 21], 0x40), ([.shift 48], 0x2000), ([.shift 215], 0x20000), ([.shift 184], 0xc0000000), ([.shift 33], 0x100000000000), ([.shift 108], 0x1f000000000000), ([.shift 107], 0x20000000000000), ([.shift 115], 0x8c0000000000000), ([.shift 116], 0x700000000000000)],
  [(62, 53), (73, 118), (78, 68), (79, 118), (80, 118), (81, 118), (87, 118), (90, 53), (91, 118), (96, 118), (97, 118), (98, 118), (99, 118), (101, 118), (103, 107), (104, 118), (105, 115)]⟩
def row54 : Row := ⟨[([.shiftExtra], 0x8), ([.shift 331], 0x10), ([.shift 21], 0x40), ([.shift 48], 0x2000), ([.shift 215], 0x20000), ([.shift 184], 0xc0000000), ([.shift 33], 0x100000000000), ([.shift 108], 0x1f000000000000), ([.shift 107], 0x20000000000000), ([.shift 115], 0x8c0000000000000), ([.shift 116], 0x700000000000000)],
  [(62, 54), (73, 118), (78, 98), (79, 118), (80, 118), (81, 118), (87, 118), (90, 53), (91, 118), (96, 118), (97, 118), (98, 118), (99, 118), (101, 118), (103, 107), (104, 118), (105, 115)]⟩
def row55 : Row := ⟨[([.shiftExtra], 0x8), ([.shift 331], 0x10), ([.shift 21], 0x40), ([.shift 48], 0x2000), ([.shift 215], 0x20000), ([.shift 184], 0xc0000000), ([.shift 33], 0x100000000000), ([.shift 108], 0x1f000000000000), ([.shift 107], 0x20000000000000), ([.shift 115], 0x8c0000000000000), ([.shift 116], 0x700000000000000)],
  [(62, 55), (73, 118), (78, 69), (79, 118), (80, 118), (81, 118), (87, 118), (90, 53), (91, 118), (96, 118), (97, 118), (98, 118), (99, 118), (101, 118), (103, 107), (104, 118), (105, 115)]⟩
def row56 : Row := ⟨[([.shiftExtra], 0x8), ([.shift 331], 0x10), ([.shift 18], 0x40), ([.shift 60], 0x2000), ([.shift 219], 0x20000), ([.shift 184], 0xc0000000), ([.shift 28], 0x100000000000), ([.shift 144], 0x1f000000000000), ([.shift 146], 0x20000000000000), ([.shift 157], 0x8c0000000000000), ([.shift 156], 0x700000000000000)],
  [(62, 56), (73, 155), (78, 130), (79, 155), (80, 155), (81, 155), (87, 155), (90, 47), (91, 155), (96, 155), (97, 155), (98, 155), (99, 155), (101, 155), (103, 146), (104, 155), (105, 157)]⟩
def row57 : Row := ⟨[([.shiftExtra], 0x8), ([.shift 331], 0x10), ([.shift 21], 0x40), ([.shift 48], 0x2000), ([.shift 215], 0x20000), ([.shift 184], 0xc0000000), ([.shift 33], 0x100000000000), ([.shift 108], 0x1f000000000000), ([.shift 107], 0x20000000000000), ([.shift 115], 0x8c0000000000000), ([.shift 116], 0x700000000000000)],
  [(62, 57), (73, 118), (78, 96), (79, 118), (80, 118), (81, 118), (87, 118), (90, 53), (91, 118), (96, 118), (97, 118), (98, 118), (99, 118), (101, 118), (103, 107), (104, 118), (105, 115)]⟩
def row58 : Row := ⟨[([.shiftExtra], 0x8), ([.shift 331], 0x10), ([.shift 21], 0x40), ([.shift 48], 0x2000), ([.shift 215], 0x20000), ([.shift 184], 0xc0000000), ([.shift 33], 0x100000000000), ([.shift 108], 0x1f000000000000), ([.shift 107], 0x20000000000000), ([.shift 115], 0x8c0000000000000), ([.shift 116], 0x700000000000000)],
  [(62, 58), (73, 118), (78, 71), (79, 118), (80, 118), (81, 118), (87, 118), (90, 53), (91, 118), (96, 118), (97, 118), (98, 118), (99, 118), (101, 118), (103, 107), (104, 118), (105, 115)]⟩
def row59 : Row := ⟨[([.shiftExtra], 0x8), ([.shift 331], 0x10), ([.shift 21], 0x40), ([.shift 48], 0x2000), ([.shift 215], 0x20000), ([.shift 184], 0xc0000000), ([.shift 33], 0x100000000000), ([.shift 108], 0x1f000000000000), ([.shift 107], 0x20000000000000), ([.shift 115], 0x8c0000000000000), ([.shift 116], 0x700000000000000)],
  [(62, 59), (73, 118), (78, 72), (79, 118), (80, 118), (81, 118), (87, 118), (90, 53), (91, 118), (96, 118), (97, 118), (98, 118), (99, 118), (101, 118), (103, 107), (104, 118), (105, 115)]⟩
def row60 : Row := ⟨[([.shiftExtra], 0x8), ([.shift 331], 0x10), ([.shift 18], 0x40), ([.shift 60], 0x2000), ([.shift 219], 0x20000), ([.shift 184], 0xc0000000), ([.shift 28], 0x100000000000), ([.shift 144], 0x1f000000000000), ([.shift 146], 0x20000000000000), ([.shift 157], 0x8c0000000000000), ([.shift 156], 0x700000000000000)],
  [(62, 60), (73, 155), (78, 153), (79, 155), (80, 155), (81, 155), (87, 155), (90, 47), (91, 155), (96, 155), (97, 155), (98, 155), (99, 155), (101, 155), (103, 146), (104, 155), (105, 157)]⟩
def row61 : Row := ⟨[([.shiftExtra], 0x8), ([.shift 331], 0x10), ([.shift 18], 0x40), ([.shift 60], 0x2000), ([.shift 219], 0x20000), ([.shift 184], 0xc0000000), ([.shift 28], 0x100000000000), ([.shift 144], 0x1f000000000000), ([.shift 146], 0x20000000000000), ([.shift 157], 0x8c0000000000000), ([.shift 156], 0x700000000000000)],
  [(62, 61), (73, 155), (78, 122), (79, 155), (80, 155), (81, 155), (87, 155), (90, 47), (91, 155), (96, 155), (97, 155), (98, 155), (99, 155), (101, 155), (103, 146), (104, 155), (105, 157)]⟩
def row62 : Row := ⟨[([.shiftExtra], 0x8), ([.shift 331], 0x10), ([.shift 18], 0x40), ([.shift 60], 0x2000), ([.shift 219], 0x20000), ([.shift 184], 0xc0000000), ([.shift 28], 0x100000000000), ([.shift 144], 0x1f000000000000), ([.shift 146], 0x20000000000000), ([.shift 157], 0x8c0000000000000), ([.shift 156], 0x700000000000000)],
  [(62, 62), (73, 155), (78, 126), (79, 155), (80, 155), (81, 155), (87, 155), (90, 47), (91, 155), (96, 155), (97, 155), (98, 155), (99, 155), (101, 155), (103, 146), (104, 155), (105, 157)]⟩
def row63 : Row := ⟨[([.shiftExtra], 0x8), ([.shift 331], 0x10), ([.shift 21], 0x40), ([.shift 48], 0x2000), ([.shift 215], 0x20000), ([.shift 184], 0xc0000000), ([.shift 33], 0x100000000000), ([.shift 108], 0x1f000000000000), ([.shift 107], 0x20000000000000), ([.shift 115], 0x8c0000000000000), ([.shift 116], 0x700000000000000)],
  [(62, 63), (73, 118), (78, 77), (79, 118), (80, 118), (81, 118), (87, 118), (90, 53), (91, 118), (96, 118), (97, 118), (98, 118), (99, 118), (101, 118), (103, 107), (104, 118), (105, 115)]⟩
def row64 : Row := ⟨[([.shiftExtra], 0x8), ([.shift 331], 0x10), ([.shift 21], 0x40), ([.shift 48], 0x2000), ([.shift 215], 0x20000), ([.shift 184], 0xc0000000), ([.shift 33], 0x100000000000), ([.shift 108], 0x1f000000000000), ([.shift 107], 0x20000000000000), ([.shift 115], 0x8c0000000000000), ([.shift 116], 0x700000000000000)],
  [(62, 64), (73, 118), (78, 75), (79, 118), (80, 118), (81, 118), (87, 118), (90, 53), (91, 118), (96, 118), (97, 118), (98, 118), (99, 118), (101, 118), (103, 107), (104, 118), (105, 115)]⟩
def row65 : Row := ⟨[([.shiftExtra], 0x8), ([.shift 331], 0x10), ([.shift 21], 0x40), ([.shift 48], 0x2000), ([.shift 215], 0x20000), ([.shift 184], 0xc0000000), ([.shift 33], 0x100000000000), ([.shift 108], 0x1f000000000000), ([.shift 107], 0x20000000000000), ([.shift 115], 0x8c0000000000000), ([.shift 116], 0x700000000000000)],
  [(62, 65), (73, 118), (78, 100), (79, 118), (80, 118), (81, 118), (87, 118), (90, 53), (91, 118), (96, 118), (97, 118), (98, 118), (99, 118), (101, 118), (103, 107), (104, 118), (105, 115)]⟩
def row66 : Row := ⟨[([.shiftExtra], 0x8), ([.shift 331], 0x10), ([.shift 18], 0x40), ([.shift 60], 0x2000), ([.shift 219], 0x20000), ([.shift 184], 0xc0000000), ([.shift 28], 0x100000000000), ([.shift 144], 0x1f000000000000), ([.shift 146], 0x20000000000000), ([.shift 157], 0x8c0000000000000), ([.shift 156], 0x700000000000000)],
  [(62, 66), (73, 155), (78, 123), (79, 155), (80, 155), (81, 155), (87, 155), (90, 47), (91, 155), (96, 155), (97, 155), (98, 155), (99, 155), (101, 155), (103, 146), (104, 155), (105, 157)]⟩
def row67 : Row := ⟨[([.shiftExtra], 0x8), ([.shift 331], 0x10), ([.shift 18], 0x40), ([.shift 60], 0x2000), ([.shift 219], 0x20000), ([.shift 184], 0xc0000000), ([.shift 28], 0x100000000000), ([.shift 144], 0x1f000000000000), ([.shift 146], 0x20000000000000), ([.shift 157], 0x8c0000000000000), ([.shift 156], 0x700000000000000)],
  [(62, 67), (73, 155), (78, 145), (79, 155), (80, 155), (81, 155), (87, 155), (90, 47), (91, 155), (96, 155), (97, 155), (98, 155), (99, 155), (101, 155), (103, 146), (104, 155), (105, 157)]⟩
def row68 : Row := ⟨[([.reduce 91 2 8], 0x8050cc6), ([.shiftExtra], 0x8), ([.shift 331], 0x10), ([.shift 259], 0x200), ([.shift 17], 0x2000), ([.shift 187], 0x1e003000000), ([.shift 183], 0x1040000000), ([.shift 64], 0x100000000), ([.shift 186], 0xe00000000), ([.shift 63], 0x20000000000), ([.shift 185], 0xc0000000000), ([.shift 32], 0x100000000000)],
  [(62, 68), (92, 59), (93, 58), (94, 44), (95, 55)]⟩
def row69 : Row := ⟨[([.reduce 96 3 17], 0xc0008050cc6), ([.shiftExtra], 0x8), ([.shift 331], 0x10), ([.shift 259], 0x200), ([.shift 17], 0x2000), ([.shift 187], 0x1e003000000), ([.shift 183], 0x1040000000), ([.shift 64], 0x100000000), ([.shift 186], 0xe00000000), ([.shift 63], 0x20000000000), ([.shift 32], 0x100000000000)],
  [(62, 69), (92, 59), (93, 58), (94, 44), (95, 55)]⟩
def row70 : Row := ⟨[([.reduce 96 3 17], 0xfe00b050cc6), ([.shiftExtra], 0x8), ([.shift 331], 0x10), ([.shift 259], 0x200), ([.shift 17], 0x2000), ([.shift 183], 0x1040000000), ([.shift 64], 0x100000000), ([.shift 186], 0xe00000000), ([.shift 32], 0x100000000000)],
  [(62, 70), (92, 59), (93, 58), (94, 44), (95, 55)]⟩
def row71 : Row := ⟨[([.reduce 96 3 17], 0xff04b050cc6), ([.shiftExtra], 0x8), ([.shift 331], 0x10), ([.shift 259], 0x200), ([.shift 17], 0x2000), ([.shift 64], 0x100000000), ([.shift 186], 0xe00000000), ([.shift 32], 0x100000000000)],
  [(62, 71), (92, 59), (93, 58), (94, 44), (95, 55)]⟩
def row72 : Row := ⟨[([.reduce 96 3 17], 0xffe4b050cc6), ([.shiftExtra], 0x8), ([.shift 331], 0x10), ([.shift 259], 0x200), ([.shift 17], 0x2000), ([.shift 64], 0x100000000), ([.shift 32], 0x100000000000)],
  [(62, 72), (92, 59), (93, 58), (94, 44), (95, 55)]⟩
def row73 : Row := ⟨[([.reduce 73 3 13], 0x8050cc6), ([.shiftExtra], 0x8), ([.shift 331], 0x10), ([.shift 259], 0x200), ([.shift 17], 0x2000), ([.shift 187], 0x1e003000000), ([.shift 183], 0x1040000000), ([.shift 64], 0x100000000), ([.shift 186], 0xe00000000), ([.shift 63], 0x20000000000), ([.shift 185], 0xc0000000000), ([.shift 32], 0x100000000000)],
  [(62, 73), (92, 59), (93, 58), (94, 44), (95, 55)]⟩
def row74 : Row := ⟨[([.reduce 73 4 22], 0x8050cc6), ([.shiftExtra], 0x8), ([.shift 331], 0x10), ([.shift 259], 0x200), ([.shift 17], 0x2000), ([.shift 187], 0x1e003000000), ([.shift 183], 0x1040000000), ([.shift 64], 0x100000000), ([.shift 186], 0xe00000000), ([.shift 63], 0x20000000000), ([.shift 185], 0xc0000000000), ([.shift 32], 0x100000000000)],
  [(62, 74), (92, 59), (93, 58), (94, 44), (95, 55)]⟩
def row75 : Row := ⟨[([.reduce 96 3 17], 0xfff4b050cc6), ([.shiftExtra], 0x8), ([.shift 331], 0x10), ([.shift 259], 0x200), ([.shift 17], 0x2000), ([.shift 32], 0x100000000000)],
  [(62, 75), (92, 59), (93, 58), (94, 44), (95, 55)]⟩
def row76 : Row := ⟨[([.reduce 64 1 0], 0x50cc6), ([.shiftExtra], 0x8), ([.shift 331], 0x10), ([.shift 259], 0x200), ([.shift 17], 0x2000), ([.shift 187], 0x1e003000000), ([.shift 43], 0x8000000), ([.shift 183], 0x1040000000), ([.shift 64], 0x100000000), ([.shift 186], 0xe00000000), ([.shift 63], 0x20000000000), ([.shift 185], 0xc0000000000), ([.shift 32], 0x100000000000)],
  [(62, 76), (92, 59), (93, 58), (94, 44), (95, 55)]⟩
def row77 : Row := ⟨[([.reduce 96 3 17], 0xe0008050cc6), ([.shiftExtra], 0x8), ([.shift 331], 0x10), ([.shift 259], 0x200), ([.shift 17], 0x2000), ([.shift 187], 0x1e003000000), ([.shift 183], 0x1040000000), ([.shift 64], 0x100000000), ([.shift 186], 0xe00000000), ([.shift 32], 0x100000000000)],
  [(62, 77), (92, 59), (93, 58), (94, 44), (95, 55)]⟩
def row78 : Row := ⟨[([.reduce 72 6 43], 0xfff1000d03f3dc1), ([.shiftExtra], 0x8), ([.shift 331], 0x10)],
  [(62, 78)]⟩
def row79 : Row := ⟨[([.reduce 72 6 42], 0xfff1000d03f3dc1), ([.shiftExtra], 0x8), ([.shift 331], 0x10)],
  [(62, 79)]⟩
def row80 : Row := ⟨[([.reduce 76 2 6], 0x50cc6), ([.shiftExtra], 0x8), ([.shift 331], 0x10), ([.shift 259], 0x200), ([.shift 17], 0x2000), ([.shift 187], 0x1e003000000), ([.shift 183], 0x1040000000), ([.shift 64], 0x100000000), ([.shift 186], 0xe00000000), ([.shift 63], 0x20000000000), ([.shift 185], 0xc0000000000), ([.shift 32], 0x100000000000)],
  [(62, 80), (92, 59), (93, 58), (94, 44), (95, 55)]⟩
def row81 : Row := ⟨[([.reduce 75 2 5], 0x50cc6), ([.shiftExtra], 0x8), ([.shift 331], 0x10), ([.shift 259], 0x200), ([.shift 17], 0x2000), ([.shift 187], 0x1e003000000), ([.shift 183], 0x1040000000), ([.shift 64], 0x100000000), ([.shift 186], 0xe00000000), ([.shift 63], 0x20000000000), ([.shift 185], 0xc0000000000), ([.shift 32], 0x100000000000)],
  [(62, 81), (92, 59), (93, 58), (94, 44), (95, 55)]⟩
def row82 : Row := ⟨[([.reduce 72 5 31], 0xfff1000d03f3dc1), ([.shiftExtra], 0x8), ([.shift 331], 0x10)],
  [(62, 82)]⟩
def row83 : Row := ⟨[([.reduce 65 3 9], 0xfff1000d03f3dc1), ([.shiftExtra], 0x8), ([.shift 331], 0x10)],
  [(62, 83)]⟩
def row84 : Row := ⟨[([.reduce 72 7 46], 0xfff1000d03f3dc1), ([.shiftExtra], 0x8), ([.shift 331], 0x10)],
  [(62, 84)]⟩
def row85 : Row := ⟨[([.reduce 65 2 0], 0xfff1000d03f3dc1), ([.shiftExtra], 0x8), ([.shift 331], 0x10)],
  [(62, 85)]⟩
def row86 : Row := ⟨[([.reduce 64 1 0], 0x50cc6), ([.shiftExtra], 0x8), ([.shift 331], 0x10), ([.shift 259], 0x200), ([.shift 17], 0x2000), ([.shift 187], 0x1e003000000), ([.shift 183], 0x1040000000), ([.shift 64], 0x100000000), ([.shift 186], 0xe00000000), ([.shift 63], 0x20000000000), ([.shift 185], 0xc0000000000), ([.shift 32], 0x100000000000)],
  [(62, 86), (92, 59), (93, 58), (94, 44), (95, 55)]⟩
def row87 : Row := ⟨[([.reduce 88 5 35], 0x50cc6), ([.shiftExtra], 0x8), ([.shift 331], 0x10), ([.shift 259], 0x200), ([.shift 17], 0x2000), ([.shift 187], 0x1e003000000), ([.shift 183], 0x1040000000), ([.shift 64], 0x100000000), ([.shift 186], 0xe00000000), ([.shift 63], 0x20000000000), ([.shift 185], 0xc0000000000), ([.shift 32], 0x100000000000)],
  [(62, 87), (92, 59), (93, 58), (94, 44), (95, 55)]⟩
def row88 : Row := ⟨[([.reduce 63 1 0], 0xfff1000d03f3dc1), ([.shiftExtra], 0x8), ([.shift 331], 0x10)],
  [(62, 88)]⟩
def row89 : Row := ⟨[([.reduce 61 1 0], 0xfff1000d03f3dc1), ([.shiftExtra], 0x8), ([.shift 331], 0x10)],
  [(62, 89)]⟩
def row90 : Row := ⟨[([.reduce 72 9 53], 0xfff1000d03f3dc1), ([.shiftExtra], 0x8), ([.shift 331], 0x10)],
  [(62, 90)]⟩
def row91 : Row := ⟨[([.reduce 72 7 48], 0xfff1000d03f3dc1), ([.shiftExtra], 0x8), ([.shift 331], 0x10)],
  [(62, 91)]⟩
def row92 : Row := ⟨[([.reduce 72 4 26], 0xfff1000d03f3dc1), ([.shiftExtra], 0x8), ([.shift 331], 0x10)],
  [(62, 92)]⟩
def row93 : Row := ⟨[([.reduce 77 2 7], 0x50cc6), ([.shiftExtra], 0x8), ([.shift 331], 0x10), ([.shift 259], 0x200), ([.shift 17], 0x2000), ([.shift 187], 0x1e003000000), ([.shift 183], 0x1040000000), ([.shift 64], 0x100000000), ([.shift 186], 0xe00000000), ([.shift 63], 0x20000000000), ([.shift 185], 0xc0000000000), ([.shift 32], 0x100000000000)],
  [(62, 93), (92, 59), (93, 58), (94, 44), (95, 55)]⟩
def row94 : Row := ⟨[([.reduce 88 4 25], 0x50cc6), ([.shiftExtra], 0x8), ([.shift 331], 0x10), ([.shift 259], 0x200), ([.shift 17], 0x2000), ([.shift 187], 0x1e003000000), ([.shift 183], 0x1040000000), ([.shift 64], 0x100000000), ([.shift 186], 0xe00000000), ([.shift 63], 0x20000000000), ([.shift 185], 0xc0000000000), ([.shift 32], 0x100000000000)],
  [(62, 94), (92, 59), (93, 58), (94, 44), (95, 55)]⟩
def row95 : Row := ⟨[([.reduce 61 2 0], 0xfff1000d03f3dc1), ([.shiftExtra], 0x8), ([.shift 331], 0x10)],
  [(62, 95)]⟩
def row96 : Row := ⟨[([.reduce 88 7 49], 0x50cc6), ([.shiftExtra], 0x8), ([.shift 331], 0x10), ([.shift 259], 0x200), ([.shift 17], 0x2000), ([.shift 187], 0x1e003000000), ([.shift 183], 0x1040000000), ([.shift 64], 0x100000000), ([.shift 186], 0xe00000000), ([.shift 63], 0x20000000000), ([.shift 185], 0xc0000000000), ([.shift 32], 0x100000000000)],
  [(62, 96), (92, 59), (93, 58), (94, 44), (95, 55)]⟩
def row97 : Row := ⟨[([.reduce 72 3 12], 0xfff1000d03f3dc1), ([.shiftExtra], 0x8), ([.shift 331], 0x10)],
  [(62, 97)]⟩
def row98 : Row := ⟨[([.reduce 89 3 18], 0x50cc6), ([.shiftExtra], 0x8), ([.shift 331], 0x10), ([.shift 259], 0x200), ([.shift 17], 0x2000), ([.shift 187], 0x1e003000000), ([.shift 183], 0x1040000000), ([.shift 64], 0x100000000), ([.shift 186], 0xe00000000), ([.shift 63], 0x20000000000), ([.shift 185], 0xc0000000000), ([.shift 32], 0x100000000000)],
  [(62, 98), (92, 59), (93, 58), (94, 44), (95, 55)]⟩
def row99 : Row := ⟨[([.reduce 72 5 32], 0xfff1000d03f3dc1), ([.shiftExtra], 0x8), ([.shift 331], 0x10)],
  [(62, 99)]⟩
def row100 : Row := ⟨[([.reduce 88 6 40], 0x50cc6), ([.shiftExtra], 0x8), ([.shift 331], 0x10), ([.shift 259], 0x200), ([.shift 17], 0x2000), ([.shift 187], 0x1e003000000), ([.shift 183], 0x1040000000), ([.shift 64], 0x100000000), ([.shift 186], 0xe00000000), ([.shift 63], 0x20000000000), ([.shift 185], 0xc0000000000), ([.shift 32], 0x100000000000)],
  [(62, 100), (92, 59), (93, 58), (94, 44), (95, 55)]⟩
def row101 : Row := ⟨[([.reduce 72 8 50], 0xfff1000d03f3dc1), ([.shiftExtra], 0x8), ([.shift 331], 0x10)],
  [(62, 101)]⟩
def row102 : Row := ⟨[([.reduce 74 5 31], 0xfff1000d03f3dc1), ([.shiftExtra], 0x8), ([.shift 331], 0x10)],
  [(62, 102)]⟩
def row103 : Row := ⟨[([.reduce 74 6 39], 0xfff1000d03f3dc1), ([.shiftExtra], 0x8), ([.shift 331], 0x10)],
  [(62, 103)]⟩
def row104 : Row := ⟨[([.reduce 74 3 12], 0xfff1000d03f3dc1), ([.shiftExtra], 0x8), ([.shift 331], 0x10)],
  [(62, 104)]⟩
def row105 : Row := ⟨[([.reduce 72 6 39], 0xfff1000d03f3dc1), ([.shiftExtra], 0x8), ([.shift 331], 0x10)],
  [(62, 105)]⟩
def row106 : Row := ⟨[([.reduce 72 8 52], 0xfff1000d03f3dc1), ([.shiftExtra], 0x8), ([.shift 331], 0x10)],
  [(62, 106)]⟩
def row107 : Row := ⟨[([.reduce 104 1 0], 0x1fff6b05aec6), ([.shiftExtra], 0x8), ([.shift 331], 0x10)],
  [(62, 107)]⟩
def row108 : Row := ⟨[([.reduce 103 1 0], 0x1fff6b05aec6), ([.shiftExtra], 0x8), ([.shift 331], 0x10)],
  [(62, 108)]⟩
def row109 : Row := ⟨[([.reduce 80 3 15], 0x1fff6b052ec6), ([.shiftExtra], 0x8), ([.shift 331], 0x10)],
  [(62, 109)]⟩
def row110 : Row := ⟨[([.reduce 78 1 0], 0x1fff4b052ec6), ([.shiftExtra], 0x8), ([.shift 331], 0x10), ([.shift 54], 0x20000000)],
  [(62, 110)]⟩
def row111 : Row := ⟨[([.reduce 98 4 29], 0x1fff6b052ec6), ([.shiftExtra], 0x8), ([.shift 331], 0x10)],
  [(62, 111)]⟩
def row112 : Row := ⟨[([.reduce 99 4 28], 0x1fff4b052ec6), ([.shiftExtra], 0x8), ([.shift 331], 0x10)],
  [(62, 112)]⟩
def row113 : Row := ⟨[([.shiftExtra], 0x8), ([.shift 331], 0x10), ([.reduce 96 3 17], 0x2e000c004080), ([.shift 255], 0x200), ([.shift 23], 0x2000), ([.shift 187], 0x1e003000000), ([.shift 183], 0x1040000000), ([.shift 46], 0x100000000), ([.shift 186], 0xe00000000), ([.shift 26], 0x100000000000)],
  [(62, 113), (92, 56), (93, 62), (94, 66), (95, 61)]⟩
def row114 : Row := ⟨[([.reduce 101 5 0], 0x1fff4b052ec6), ([.shiftExtra], 0x8), ([.shift 331], 0x10)],
  [(62, 114)]⟩
def row115 : Row := ⟨[([.reduce 87 1 0], 0x1fff4b052ec6), ([.shiftExtra], 0x8), ([.shift 331], 0x10)],
  [(62, 115)]⟩
def row116 : Row := ⟨[([.reduce 105 1 0], 0x1fff4b052ec6), ([.shiftExtra], 0x8), ([.shift 331], 0x10)],
  [(62, 116)]⟩
def row117 : Row := ⟨[([.reduce 97 5 0], 0x1fff4b052ec6), ([.shiftExtra], 0x8), ([.shift 331], 0x10)],
  [(62, 117)]⟩
def row118 : Row := ⟨[([.reduce 78 1 0], 0x1fff4b052ec6), ([.shiftExtra], 0x8), ([.shift 331], 0x10)],
  [(62, 118)]⟩
def row119 : Row := ⟨[([.reduce 97 3 0], 0x1fff4b052ec6), ([.shiftExtra], 0x8), ([.shift 331], 0x10)],
  [(62, 119)]⟩
def row120 : Row := ⟨[([.reduce 73 3 13], 0x1fff4b052ec6), ([.shiftExtra], 0x8), ([.shift 331], 0x10)],
  [(62, 120)]⟩
def row121 : Row := ⟨[([.shiftExtra], 0x8), ([.shift 331], 0x10), ([.reduce 73 4 22], 0x20000c004080), ([.shift 255], 0x200), ([.shift 23], 0x2000), ([.shift 187], 0x1e003000000), ([.shift 183], 0x1040000000), ([.shift 46], 0x100000000), ([.shift 186], 0xe00000000), ([.shift 45], 0x20000000000), ([.shift 185], 0xc0000000000), ([.shift 26], 0x100000000000)],
  [(62, 121), (92, 56), (93, 62), (94, 66), (95, 61)]⟩
def row122 : Row := ⟨[([.shiftExtra], 0x8), ([.shift 331], 0x10), ([.reduce 96 3 17], 0x2c000c004080), ([.shift 255], 0x200), ([.shift 23], 0x2000), ([.shift 187], 0x1e003000000), ([.shift 183], 0x1040000000), ([.shift 46], 0x100000000), ([.shift 186], 0xe00000000), ([.shift 45], 0x20000000000), ([.shift 26], 0x100000000000)],
  [(62, 122), (92, 56), (93, 62), (94, 66), (95, 61)]⟩
def row123 : Row := ⟨[([.shiftExtra], 0x8), ([.shift 331], 0x10), ([.reduce 96 3 17], 0x2fe00f004080), ([.shift 255], 0x200), ([.shift 23], 0x2000), ([.shift 183], 0x1040000000), ([.shift 46], 0x100000000), ([.shift 186], 0xe00000000), ([.shift 26], 0x100000000000)],
  [(62, 123), (92, 56), (93, 62), (94, 66), (95, 61)]⟩
def row124 : Row := ⟨[([.reduce 81 3 16], 0x1fff4b052ec6), ([.shiftExtra], 0x8), ([.shift 331], 0x10)],
  [(62, 124)]⟩
def row125 : Row := ⟨[([.reduce 101 3 0], 0x1fff4b052ec6), ([.shiftExtra], 0x8), ([.shift 331], 0x10)],
  [(62, 125)]⟩
def row126 : Row := ⟨[([.shiftExtra], 0x8), ([.shift 331], 0x10), ([.reduce 96 3 17], 0x2ff04f004080), ([.shift 255], 0x200), ([.shift 23], 0x2000), ([.shift 46], 0x100000000), ([.shift 186], 0xe00000000), ([.shift 26], 0x100000000000)],
  [(62, 126), (92, 56), (93, 62), (94, 66), (95, 61)]⟩
def row127 : Row := ⟨[([.reduce 99 5 37], 0x1fff4b052ec6), ([.shiftExtra], 0x8), ([.shift 331], 0x10)],
  [(62, 127)]⟩
def row128 : Row := ⟨[([.reduce 73 4 22], 0x1fff4b052ec6), ([.shiftExtra], 0x8), ([.shift 331], 0x10)],
  [(62, 128)]⟩
def row129 : Row := ⟨[([.reduce 101 4 0], 0x1fff4b052ec6), ([.shiftExtra], 0x8), ([.shift 331], 0x10)],
  [(62, 129)]⟩
def row130 : Row := ⟨[([.shiftExtra], 0x8), ([.shift 331], 0x10), ([.reduce 96 3 17], 0x2ffe4f004080), ([.shift 255], 0x200), ([.shift 23], 0x2000), ([.shift 46], 0x100000000), ([.shift 26], 0x100000000000)],
  [(62, 130), (92, 56), (93, 62), (94, 66), (95, 61)]⟩
def row131 : Row := ⟨[([.reduce 81 4 27], 0x1fff4b052ec6), ([.shiftExtra], 0x8), ([.shift 331], 0x10)],
  [(62, 131)]⟩
def row132 : Row := ⟨[([.shiftExtra], 0x8), ([.shift 331], 0x10), ([.reduce 96 3 17], 0x2fff4f004080), ([.shift 255], 0x200), ([.shift 23], 0x2000), ([.shift 26], 0x100000000000)],
  [(62, 132), (92, 56), (93, 62), (94, 66), (95, 61)]⟩
def row133 : Row := ⟨[([.shiftExtra], 0x8), ([.shift 331], 0x10), ([.reduce 73 3 13], 0x20000c004080), ([.shift 255], 0x200), ([.shift 23], 0x2000), ([.shift 187], 0x1e003000000), ([.shift 183], 0x1040000000), ([.shift 46], 0x100000000), ([.shift 186], 0xe00000000), ([.shift 45], 0x20000000000), ([.shift 185], 0xc0000000000), ([.shift 26], 0x100000000000)],
  [(62, 133), (92, 56), (93, 62), (94, 66), (95, 61)]⟩
def row134 : Row := ⟨[([.reduce 101 2 0], 0x1fff4b052ec6), ([.shiftExtra], 0x8), ([.shift 331], 0x10)],
  [(62, 134)]⟩
def row135 : Row := ⟨[([.reduce 65 3 9], 0x1fff4b052ec6), ([.shiftExtra], 0x8), ([.shift 331], 0x10)],
  [(62, 135)]⟩
def row136 : Row := ⟨[([.shiftExtra], 0x8), ([.shift 331], 0x10), ([.reduce 91 2 8], 0x20000c004080), ([.shift 255], 0x200), ([.shift 23], 0x2000), ([.shift 187], 0x1e003000000), ([.shift 183], 0x1040000000), ([.shift 46], 0x100000000), ([.shift 186], 0xe00000000), ([.shift 45], 0x20000000000), ([.shift 185], 0xc0000000000), ([.shift 26], 0x100000000000)],
  [(62, 136), (92, 56), (93, 62), (94, 66), (95, 61)]⟩
def row137 : Row := ⟨[([.reduce 101 2 0], 0x1fff4b052ec6), ([.shiftExtra], 0x8), ([.shift 331], 0x10)],
  [(62, 137)]⟩
def row138 : Row := ⟨[([.reduce 79 3 11], 0x1fff4b052ec6), ([.shiftExtra], 0x8), ([.shift 331], 0x10)],
  [(62, 138)]⟩
def row139 : Row := ⟨[([.reduce 97 4 0], 0x1fff4b052ec6), ([.shiftExtra], 0x8), ([.shift 331], 0x10)],
  [(62, 139)]⟩
def row140 : Row := ⟨[([.reduce 99 6 44], 0x1fff4b052ec6), ([.shiftExtra], 0x8), ([.shift 331], 0x10)],
  [(62, 140)]⟩
def row141 : Row := ⟨[([.reduce 97 2 0], 0x1fff4b052ec6), ([.shiftExtra], 0x8), ([.shift 331], 0x10)],
  [(62, 141)]⟩
def row142 : Row := ⟨[([.reduce 99 5 36], 0x1fff4b052ec6), ([.shiftExtra], 0x8), ([.shift 331], 0x10)],
  [(62, 142)]⟩
def row143 : Row := ⟨[([.shiftExtra], 0x8), ([.shift 331], 0x10), ([.shift 255], 0x200), ([.shift 23], 0x2000), ([.shift 187], 0x1e003000000), ([.shift 40], 0x4000000), ([.shift 183], 0x1040000000), ([.shift 46], 0x100000000), ([.shift 186], 0xe00000000), ([.shift 45], 0x20000000000), ([.shift 185], 0xc0000000000), ([.shift 26], 0x100000000000), ([.shift 119], 0x200000000000)],
  [(62, 143), (92, 56), (93, 62), (94, 66), (95, 61), (108, 294)]⟩
def row144 : Row := ⟨[([.shiftExtra], 0x8), ([.shift 331], 0x10), ([.reduce 103 1 0], 0x3fff4f00e2c0)],
  [(62, 144)]⟩
def row145 : Row := ⟨[([.shiftExtra], 0x8), ([.shift 331], 0x10), ([.shift 255], 0x200), ([.shift 23], 0x2000), ([.reduce 108 2 0], 0x200004004000), ([.shift 187], 0x1e003000000), ([.shift 183], 0x1040000000), ([.shift 46], 0x100000000), ([.shift 186], 0xe00000000), ([.shift 45], 0x20000000000), ([.shift 185], 0xc0000000000), ([.shift 26], 0x100000000000)],
  [(62, 145), (92, 56), (93, 62), (94, 66), (95, 61)]⟩
def row146 : Row := ⟨[([.shiftExtra], 0x8), ([.shift 331], 0x10), ([.reduce 104 1 0], 0x3fff4f00e2c0)],
  [(62, 146)]⟩
def row147 : Row := ⟨[([.shiftExtra], 0x8), ([.shift 331], 0x10), ([.shift 255], 0x200), ([.shift 23], 0x2000), ([.reduce 86 1 0], 0x4000), ([.shift 187], 0x1e003000000), ([.shift 29], 0x4000000), ([.shift 183], 0x1040000000), ([.shift 46], 0x100000000), ([.shift 186], 0xe00000000), ([.shift 45], 0x20000000000), ([.shift 185], 0xc0000000000), ([.shift 26], 0x100000000000)],
  [(62, 147), (92, 56), (93, 62), (94, 66), (95, 61), (108, 296)]⟩
def row148 : Row := ⟨[([.shiftExtra], 0x8), ([.shift 331], 0x10), ([.shift 255], 0x200), ([.shift 23], 0x2000), ([.shift 187], 0x1e003000000), ([.shift 27], 0x4000000), ([.shift 183], 0x1040000000), ([.shift 46], 0x100000000), ([.shift 186], 0xe00000000), ([.shift 45], 0x20000000000), ([.shift 185], 0xc0000000000), ([.shift 26], 0x100000000000), ([.shift 161], 0x200000000000)],
  [(62, 148), (92, 56), (93, 62), (94, 66), (95, 61), (108, 299)]⟩
def row149 : Row := ⟨[([.shiftExtra], 0x8), ([.shift 331], 0x10), ([.reduce 100 3 19], 0x4000080), ([.shift 255], 0x200), ([.shift 23], 0x2000), ([.shift 187], 0x1e003000000), ([.shift 183], 0x1040000000), ([.shift 46], 0x100000000), ([.shift 186], 0xe00000000), ([.shift 45], 0x20000000000), ([.shift 185], 0xc0000000000), ([.shift 26], 0x100000000000)],
  [(62, 149), (92, 56), (93, 62), (94, 66), (95, 61)]⟩
def row150 : Row := ⟨[([.shiftExtra], 0x8), ([.shift 331], 0x10), ([.shift 255], 0x200), ([.shift 23], 0x2000), ([.shift 187], 0x1e003000000), ([.shift 25], 0x8000000), ([.shift 183], 0x1040000000), ([.shift 46], 0x100000000), ([.shift 186], 0xe00000000), ([.shift 45], 0x20000000000), ([.shift 185], 0xc0000000000), ([.shift 26], 0x100000000000), ([.shift 111], 0x200000000000)],
  [(62, 150), (92, 56), (93, 62), (94, 66), (95, 61)]⟩
def row151 : Row := ⟨[([.shiftExtra], 0x8), ([.shift 331], 0x10), ([.shift 255], 0x200), ([.shift 23], 0x2000), ([.shift 187], 0x1e003000000), ([.shift 37], 0x8000000), ([.shift 183], 0x1040000000), ([.shift 46], 0x100000000), ([.shift 186], 0xe00000000), ([.shift 45], 0x20000000000), ([.shift 185], 0xc0000000000), ([.shift 26], 0x100000000000), ([.shift 169], 0x200000000000)],
  [(62, 151), (92, 56), (93, 62), (94, 66), (95, 61)]⟩
def row152 : Row := ⟨[([.shiftExtra], 0x8), ([.shift 331], 0x10), ([.reduce 99 4 28], 0x3fff4f006280)],
  [(62, 152)]⟩
def row153 : Row := ⟨[([.shiftExtra], 0x8), ([.shift 331], 0x10), ([.shift 255], 0x200), ([.shift 23], 0x2000), ([.shift 159], 0x4000), ([.shift 187], 0x1e003000000), ([.shift 183], 0x1040000000), ([.shift 46], 0x100000000), ([.shift 186], 0xe00000000), ([.shift 45], 0x20000000000), ([.shift 185], 0xc0000000000), ([.shift 26], 0x100000000000)],
  [(62, 153), (92, 56), (93, 62), (94, 66), (95, 61)]⟩
def row154 : Row := ⟨[([.shiftExtra], 0x8), ([.shift 331], 0x10), ([.shift 255], 0x200), ([.shift 23], 0x2000), ([.shift 138], 0x4000), ([.shift 187], 0x1e003000000), ([.shift 183], 0x1040000000), ([.shift 46], 0x100000000), ([.shift 186], 0xe00000000), ([.shift 45], 0x20000000000), ([.shift 185], 0xc0000000000), ([.shift 26], 0x100000000000)],
  [(62, 154), (92, 56), (93, 62), (94, 66), (95, 61)]⟩
def row155 : Row := ⟨[([.shiftExtra], 0x8), ([.shift 331], 0x10), ([.reduce 78 1 0], 0x3fff4f006280)],
  [(62, 155)]⟩
def row156 : Row := ⟨[([.shiftExtra], 0x8), ([.shift 331], 0x10), ([.reduce 105 1 0], 0x3fff4f006280)],
  [(62, 156)]⟩
def row157 : Row := ⟨[([.shiftExtra], 0x8), ([.shift 331], 0x10), ([.reduce 87 1 0], 0x3fff4f006280)],
  [(62, 157)]⟩
def row158 : Row := ⟨[([.shiftExtra], 0x8), ([.shift 331], 0x10), ([.reduce 101 3 0], 0x3fff4f006280)],
  [(62, 158)]⟩
def row159 : Row := ⟨[([.shiftExtra], 0x8), ([.shift 331], 0x10), ([.reduce 79 3 11], 0x3fff4f006280)],
  [(62, 159)]⟩
def row160 : Row := ⟨[([.shiftExtra], 0x8), ([.shift 331], 0x10), ([.reduce 73 3 13], 0x3fff4f006280)],
  [(62, 160)]⟩
def row161 : Row := ⟨[([.shiftExtra], 0x8), ([.shift 331], 0x10), ([.reduce 97 3 0], 0x3fff4f006280)],
  [(62, 161)]⟩
def row162 : Row := ⟨[([.shiftExtra], 0x8), ([.shift 331], 0x10), ([.reduce 80 3 15], 0x3fff4f006280)],
  [(62, 162)]⟩
def row163 : Row := ⟨[([.shiftExtra], 0x8), ([.shift 331], 0x10), ([.reduce 81 3 16], 0x3fff4f006280)],
  [(62, 163)]⟩
def row164 : Row := ⟨[([.shiftExtra], 0x8), ([.shift 331], 0x10), ([.reduce 101 4 0], 0x3fff4f006280)],
  [(62, 164)]⟩
def row165 : Row := ⟨[([.shiftExtra], 0x8), ([.shift 331], 0x10), ([.reduce 73 4 22], 0x3fff4f006280)],
  [(62, 165)]⟩
def row166 : Row := ⟨[([.shiftExtra], 0x8), ([.shift 331], 0x10), ([.reduce 97 4 0], 0x3fff4f006280)],
  [(62, 166)]⟩
def row167 : Row := ⟨[([.shiftExtra], 0x8), ([.shift 331], 0x10), ([.reduce 81 4 27], 0x3fff4f006280)],
  [(62, 167)]⟩
def row168 : Row := ⟨[([.shiftExtra], 0x8), ([.shift 331], 0x10), ([.shift 255], 0x200), ([.shift 23], 0x2000), ([.shift 187], 0x1e003000000), ([.shift 43], 0x8000000), ([.shift 183], 0x1040000000), ([.shift 46], 0x100000000), ([.shift 186], 0xe00000000), ([.shift 45], 0x20000000000), ([.shift 185], 0xc0000000000), ([.shift 26], 0x100000000000)],
  [(62, 168), (92, 56), (93, 62), (94, 66), (95, 61)]⟩
def row169 : Row := ⟨[([.shiftExtra], 0x8), ([.shift 331], 0x10), ([.reduce 98 4 29], 0x3fff4f006280)],
  [(62, 169)]⟩
def row170 : Row := ⟨[([.shiftExtra], 0x8), ([.shift 331], 0x10), ([.reduce 101 2 0], 0x3fff4f006280)],
  [(62, 170)]⟩
def row171 : Row := ⟨[([.shiftExtra], 0x8), ([.shift 331], 0x10), ([.reduce 101 5 0], 0x3fff4f006280)],
  [(62, 171)]⟩
def row172 : Row := ⟨[([.shiftExtra], 0x8), ([.shift 331], 0x10), ([.shift 255], 0x200), ([.shift 23], 0x2000), ([.shift 187], 0x1e003000000), ([.shift 183], 0x1040000000), ([.shift 46], 0x100000000), ([.shift 186], 0xe00000000), ([.shift 45], 0x20000000000), ([.shift 185], 0xc0000000000), ([.shift 26], 0x100000000000), ([.shift 179], 0x200000000000)],
  [(62, 172), (92, 56), (93, 62), (94, 66), (95, 61)]⟩
def row173 : Row := ⟨[([.shiftExtra], 0x8), ([.shift 331], 0x10), ([.shift 255], 0x200), ([.shift 23], 0x2000), ([.shift 187], 0x1e003000000), ([.shift 183], 0x1040000000), ([.shift 46], 0x100000000), ([.shift 186], 0xe00000000), ([.shift 45], 0x20000000000), ([.shift 185], 0xc0000000000), ([.shift 26], 0x100000000000), ([.shift 140], 0x200000000000)],
  [(62, 173), (92, 56), (93, 62), (94, 66), (95, 61)]⟩
def row174 : Row := ⟨[([.shiftExtra], 0x8), ([.shift 331], 0x10), ([.shift 255], 0x200), ([.shift 23], 0x2000), ([.shift 187], 0x1e003000000), ([.shift 183], 0x1040000000), ([.shift 46], 0x100000000), ([.shift 186], 0xe00000000), ([.shift 45], 0x20000000000), ([.shift 185], 0xc0000000000), ([.shift 26], 0x100000000000), ([.shift 142], 0x200000000000)],
  [(62, 174), (92, 56), (93, 62), (94, 66), (95, 61)]⟩
def row175 : Row := ⟨[([.shiftExtra], 0x8), ([.shift 331], 0x10), ([.shift 255], 0x200), ([.shift 23], 0x2000), ([.shift 187], 0x1e003000000), ([.shift 183], 0x1040000000), ([.shift 46], 0x100000000), ([.shift 186], 0xe00000000), ([.shift 45], 0x20000000000), ([.shift 185], 0xc0000000000), ([.shift 26], 0x100000000000), ([.shift 177], 0x200000000000)],
  [(62, 175), (92, 56), (93, 62), (94, 66), (95, 61)]⟩
def row176 : Row := ⟨[([.shiftExtra], 0x8), ([.shift 331], 0x10), ([.reduce 97 5 0], 0x3fff4f006280)],
  [(62, 176)]⟩
def row177 : Row := ⟨[([.shiftExtra], 0x8), ([.shift 331], 0x10), ([.reduce 99 5 36], 0x3fff4f006280)],
  [(62, 177)]⟩
def row178 : Row := ⟨[([.shiftExtra], 0x8), ([.shift 331], 0x10), ([.reduce 99 5 37], 0x3fff4f006280)],
  [(62, 178)]⟩
def row179 : Row := ⟨[([.shiftExtra], 0x8), ([.shift 331], 0x10), ([.reduce 99 6 44], 0x3fff4f006280)],
  [(62, 179)]⟩
def row180 : Row := ⟨[([.shiftExtra], 0x8), ([.shift 331], 0x10), ([.reduce 101 2 0], 0x3fff4f006280)],
  [(62, 180)]⟩
def row181 : Row := ⟨[([.shiftExtra], 0x8), ([.shift 331], 0x10), ([.reduce 65 3 9], 0x3fff4f006280)],
  [(62, 181)]⟩
def row182 : Row := ⟨[([.shiftExtra], 0x8), ([.shift 331], 0x10), ([.reduce 97 2 0], 0x3fff4f006280)],
  [(62, 182)]⟩
def row183 : Row := ⟨[([.shiftExtra], 0x8), ([.shift 331], 0x10), ([.reduce 93 1 0], 0xfff1000c0022040)],
  [(62, 183)]⟩
def row184 : Row := ⟨[([.shiftExtra], 0x8), ([.shift 331], 0x10), ([.reduce 90 1 0], 0xfff1000c0022040)],
  [(62, 184)]⟩
def row185 : Row := ⟨[([.shiftExtra], 0x8), ([.shift 331], 0x10), ([.reduce 95 1 0], 0xfff1000c0022040)],
  [(62, 185)]⟩
def row186 : Row := ⟨[([.shiftExtra], 0x8), ([.shift 331], 0x10), ([.reduce 92 1 0], 0xfff1000c0022040)],
  [(62, 186)]⟩
def row187 : Row := ⟨[([.shiftExtra], 0x8), ([.shift 331], 0x10), ([.reduce 94 1 0], 0xfff1000c0022040)],
  [(62, 187)]⟩
def row188 : Row := ⟨[([.shift 95], 0x6), ([.shiftExtra], 0x8), ([.shift 331], 0x10), ([.shift 10], 0x40), ([.shift 181], 0x80), ([.shift 275], 0xc00), ([.shift 216], 0x10000), ([.shift 266], 0x40000)],
  [(62, 188), (63, 95), (65, 88), (69, 272), (70, 330), (72, 88), (74, 88), (106, 268)]⟩
def row189 : Row := ⟨[([.shift 95], 0x6), ([.shiftExtra], 0x8), ([.shift 331], 0x10), ([.shift 10], 0x40), ([.shift 83], 0x80), ([.shift 275], 0xc00), ([.shift 216], 0x10000), ([.shift 266], 0x40000)],
  [(62, 189), (63, 95), (65, 88), (69, 272), (70, 330), (72, 88), (74, 88), (106, 268)]⟩
def row190 : Row := ⟨[([.shift 95], 0x6), ([.shiftExtra], 0x8), ([.shift 331], 0x10), ([.shift 10], 0x40), ([.shift 135], 0x80), ([.shift 275], 0xc00), ([.shift 216], 0x10000), ([.shift 266], 0x40000)],
  [(62, 190), (63, 95), (65, 88), (69, 272), (70, 330), (72, 88), (74, 88), (106, 268)]⟩
def row191 : Row := ⟨[([.shift 95], 0x6), ([.shiftExtra], 0x8), ([.shift 331], 0x10), ([.shift 10], 0x40), ([.shift 275], 0xc00), ([.shift 216], 0x10000), ([.shift 266], 0x40000)],
  [(62, 191), (63, 95), (65, 88), (69, 272), (70, 330), (72, 88), (74, 88), (106, 268)]⟩
def row192 : Row := ⟨[([.shiftExtra], 0x8), ([.shift 331], 0x10), ([.shift 270], 0x400000), ([.shift 271], 0x800000), ([.shift 144], 0x1f000000000000), ([.shift 146], 0x20000000000000)],
  [(62, 192), (82, 274), (83, 310), (103, 146), (104, 273)]⟩
def row193 : Row := ⟨[([.shiftExtra], 0x8), ([.shift 331], 0x10), ([.shift 235], 0x400000), ([.shift 227], 0x800000), ([.shift 108], 0x1f000000000000), ([.shift 107], 0x20000000000000)],
  [(62, 193), (82, 246), (83, 254), (103, 107), (104, 244)]⟩
def row194 : Row := ⟨[([.shiftExtra], 0x8), ([.shift 331], 0x10), ([.shift 270], 0x400000), ([.shift 271], 0x800000), ([.shift 144], 0x1f000000000000), ([.shift 146], 0x20000000000000)],
  [(62, 194), (82, 274), (83, 312), (103, 146), (104, 273)]⟩
def row195 : Row := ⟨[([.shiftExtra], 0x8), ([.shift 331], 0x10), ([.shift 270], 0x400000), ([.shift 271], 0x800000), ([.shift 144], 0x1f000000000000), ([.shift 146], 0x20000000000000)],
  [(62, 195), (82, 274), (83, 334), (103, 146), (104, 273)]⟩
def row196 : Row := ⟨[([.shiftExtra], 0x8), ([.shift 331], 0x10), ([.shift 270], 0x400000), ([.shift 271], 0x800000), ([.shift 280], 0x1f000000000000), ([.shift 279], 0x20000000000000)],
  [(62, 196), (82, 274), (83, 322), (103, 279), (104, 273)]⟩
def row197 : Row := ⟨[([.shiftExtra], 0x8), ([.shift 331], 0x10), ([.shift 270], 0x400000), ([.shift 271], 0x800000), ([.shift 144], 0x1f000000000000), ([.shift 146], 0x20000000000000)],
  [(62, 197), (82, 274), (83, 316), (103, 146), (104, 273)]⟩
def row198 : Row := ⟨[([.shiftExtra], 0x8), ([.shift 331], 0x10), ([.shift 235], 0x400000), ([.shift 227], 0x800000), ([.shift 108], 0x1f000000000000), ([.shift 107], 0x20000000000000)],
  [(62, 198), (82, 246), (83, 260), (103, 107), (104, 244)]⟩
def row199 : Row := ⟨[([.shiftExtra], 0x8), ([.shift 331], 0x10), ([.shift 270], 0x400000), ([.shift 271], 0x800000), ([.shift 280], 0x1f000000000000), ([.shift 279], 0x20000000000000)],
  [(62, 199), (82, 274), (83, 289), (103, 279), (104, 273)]⟩
def row200 : Row := ⟨[([.shiftExtra], 0x8), ([.shift 331], 0x10), ([.shift 270], 0x400000), ([.shift 271], 0x800000), ([.shift 280], 0x1f000000000000), ([.shift 279], 0x20000000000000)],
  [(62, 200), (82, 274), (83, 321), (103, 279), (104, 273)]⟩
def row201 : Row := ⟨[([.shiftExtra], 0x8), ([.shift 331], 0x10), ([.shift 235], 0x400000), ([.shift 227], 0x800000), ([.shift 108], 0x1f000000000000), ([.shift 107], 0x20000000000000)],
  [(62, 201), (82, 246), (83, 256), (103, 107), (104, 244)]⟩
def row202 : Row := ⟨[([.shiftExtra], 0x8), ([.shift 331], 0x10), ([.shift 235], 0x400000), ([.shift 227], 0x800000), ([.shift 108], 0x1f000000000000), ([.shift 107], 0x20000000000000)],
  [(62, 202), (82, 246), (83, 258), (103, 107), (104, 244)]⟩
def row203 : Row := ⟨[([.shiftExtra], 0x8), ([.shift 331], 0x10), ([.shift 235], 0x400000), ([.shift 227], 0x800000), ([.shift 108], 0x1f000000000000), ([.shift 107], 0x20000000000000)],
  [(62, 203), (82, 246), (83, 248), (103, 107), (104, 244)]⟩
def row204 : Row := ⟨[([.shiftExtra], 0x8), ([.shift 331], 0x10), ([.shift 270], 0x400000), ([.shift 271], 0x800000), ([.shift 144], 0x1f000000000000), ([.shift 146], 0x20000000000000)],
  [(62, 204), (82, 274), (83, 289), (103, 146), (104, 273)]⟩
def row205 : Row := ⟨[([.shiftExtra], 0x8), ([.shift 331], 0x10), ([.shift 270], 0x400000), ([.shift 271], 0x800000), ([.shift 144], 0x1f000000000000), ([.shift 146], 0x20000000000000)],
  [(62, 205), (82, 274), (83, 315), (103, 146), (104, 273)]⟩
def row206 : Row := ⟨[([.shiftExtra], 0x8), ([.shift 331], 0x10), ([.shift 235], 0x400000), ([.shift 227], 0x800000), ([.shift 108], 0x1f000000000000), ([.shift 107], 0x20000000000000)],
  [(62, 206), (82, 246), (83, 252), (103, 107), (104, 244)]⟩
def row207 : Row := ⟨[([.shiftExtra], 0x8), ([.shift 331], 0x10), ([.shift 270], 0x400000), ([.shift 271], 0x800000), ([.shift 280], 0x1f000000000000), ([.shift 279], 0x20000000000000)],
  [(62, 207), (82, 274), (83, 320), (103, 279), (104, 273)]⟩
def row208 : Row := ⟨[([.shiftExtra], 0x8), ([.shift 331], 0x10), ([.shift 270], 0x400000), ([.shift 271], 0x800000), ([.shift 144], 0x1f000000000000), ([.shift 146], 0x20000000000000)],
  [(62, 208), (82, 274), (83, 314), (103, 146), (104, 273)]⟩
def row209 : Row := ⟨[([.shiftExtra], 0x8), ([.shift 331], 0x10), ([.shift 270], 0x400000), ([.shift 271], 0x800000), ([.shift 280], 0x1f000000000000), ([.shift 279], 0x20000000000000)],
  [(62, 209), (82, 274), (83, 323), (103, 279), (104, 273)]⟩
def row210 : Row := ⟨[([.shiftExtra], 0x8), ([.shift 331], 0x10), ([.shift 235], 0x400000), ([.shift 227], 0x800000), ([.shift 108], 0x1f000000000000), ([.shift 107], 0x20000000000000)],
  [(62, 210), (82, 246), (83, 265), (103, 107), (104, 244)]⟩
def row211 : Row := ⟨[([.shiftExtra], 0x8), ([.shift 331], 0x10), ([.shift 270], 0x400000), ([.shift 271], 0x800000), ([.shift 144], 0x1f000000000000), ([.shift 146], 0x20000000000000)],
  [(62, 211), (82, 274), (83, 313), (103, 146), (104, 273)]⟩
def row212 : Row := ⟨[([.shiftExtra], 0x8), ([.shift 331], 0x10), ([.shift 270], 0x400000), ([.shift 271], 0x800000), ([.shift 144], 0x1f000000000000), ([.shift 146], 0x20000000000000)],
  [(62, 212), (82, 274), (83, 333), (103, 146), (104, 273)]⟩
def row213 : Row := ⟨[([.shiftExtra], 0x8), ([.shift 331], 0x10), ([.shift 235], 0x400000), ([.shift 227], 0x800000), ([.shift 108], 0x1f000000000000), ([.shift 107], 0x20000000000000)],
  [(62, 213), (82, 246), (83, 240), (103, 107), (104, 244)]⟩
def row214 : Row := ⟨[([.shiftExtra], 0x8), ([.shift 331], 0x10), ([.shift 307], 0x4000), ([.shift 144], 0x1f000000000000), ([.shift 146], 0x20000000000000)],
  [(62, 214), (84, 284), (85, 326), (103, 146), (104, 298)]⟩
def row215 : Row := ⟨[([.shiftExtra], 0x8), ([.shift 331], 0x10), ([.shift 42], 0x20000), ([.shift 280], 0x1f000000000000), ([.shift 279], 0x20000000000000)],
  [(62, 215), (84, 300), (85, 319), (103, 279), (104, 306)]⟩
def row216 : Row := ⟨[([.shiftExtra], 0x8), ([.shift 331], 0x10), ([.shift 285], 0xc00000000000), ([.shift 144], 0x1f000000000000), ([.shift 146], 0x20000000000000)],
  [(62, 216), (102, 281), (103, 146), (104, 281)]⟩
def row217 : Row := ⟨[([.shiftExtra], 0x8), ([.shift 331], 0x10), ([.shift 241], 0x4000), ([.shift 144], 0x1f000000000000), ([.shift 146], 0x20000000000000)],
  [(62, 217), (84, 284), (85, 317), (103, 146), (104, 298)]⟩
def row218 : Row := ⟨[([.shiftExtra], 0x8), ([.shift 331], 0x10), ([.shift 234], 0xc00000000000), ([.shift 108], 0x1f000000000000), ([.shift 107], 0x20000000000000)],
  [(62, 218), (102, 226), (103, 107), (104, 226)]⟩
def row219 : Row := ⟨[([.shiftExtra], 0x8), ([.shift 331], 0x10), ([.shift 41], 0x20000), ([.shift 280], 0x1f000000000000), ([.shift 279], 0x20000000000000)],
  [(62, 219), (84, 300), (85, 328), (103, 279), (104, 306)]⟩
def row220 : Row := ⟨[([.shiftExtra], 0x8), ([.shift 331], 0x10), ([.shift 269], 0x200), ([.shift 108], 0x1f000000000000), ([.shift 107], 0x20000000000000)],
  [(62, 220), (67, 253), (68, 250), (103, 107), (104, 249)]⟩
def row221 : Row := ⟨[([.shiftExtra], 0x8), ([.shift 331], 0x10), ([.shift 234], 0xc00000000000), ([.shift 108], 0x1f000000000000), ([.shift 107], 0x20000000000000)],
  [(62, 221), (102, 229), (103, 107), (104, 229)]⟩
def row222 : Row := ⟨[([.shiftExtra], 0x8), ([.shift 331], 0x10), ([.shift 285], 0xc00000000000), ([.shift 144], 0x1f000000000000), ([.shift 146], 0x20000000000000)],
  [(62, 222), (102, 278), (103, 146), (104, 278)]⟩
def row223 : Row := ⟨[([.shiftExtra], 0x8), ([.shift 331], 0x10), ([.shift 290], 0x4000), ([.shift 144], 0x1f000000000000), ([.shift 146], 0x20000000000000)],
  [(62, 223), (84, 284), (85, 332), (103, 146), (104, 298)]⟩
def row224 : Row := ⟨[([.shiftExtra], 0x8), ([.shift 331], 0x10), ([.shift 247], 0x4000), ([.shift 144], 0x1f000000000000), ([.shift 146], 0x20000000000000)],
  [(62, 224), (84, 284), (85, 318), (103, 146), (104, 298)]⟩
def row225 : Row := ⟨[([.shiftExtra], 0x8), ([.shift 331], 0x10), ([.shift 311], 0x4000), ([.shift 144], 0x1f000000000000), ([.shift 146], 0x20000000000000)],
  [(62, 225), (84, 284), (85, 325), (103, 146), (104, 298)]⟩
def row226 : Row := ⟨[([.reduce 71 2 3], 0x50cc6), ([.shiftExtra], 0x8), ([.shift 331], 0x10), ([.shift 224], 0x2000), ([.shift 202], 0x8000)],
  [(62, 226)]⟩
def row227 : Row := ⟨[([.reduce 82 1 0], 0x20050cc6), ([.shiftExtra], 0x8), ([.shift 331], 0x10), ([.shift 195], 0x1000000)],
  [(62, 227)]⟩
def row228 : Row := ⟨[([.shiftExtra], 0x8), ([.shift 331], 0x10), ([.reduce 85 3 0], 0x20000), ([.shift 280], 0x1f000000000000), ([.shift 279], 0x20000000000000)],
  [(62, 228), (84, 283), (103, 279), (104, 306)]⟩
def row229 : Row := ⟨[([.reduce 71 3 14], 0x50cc6), ([.shiftExtra], 0x8), ([.shift 331], 0x10), ([.shift 217], 0x2000), ([.shift 210], 0x8000)],
  [(62, 229)]⟩
def row230 : Row := ⟨[([.reduce 88 3 14], 0x50cc6), ([.shiftExtra], 0x8), ([.shift 331], 0x10), ([.shift 203], 0x8000000), ([.shift 52], 0x20000000)],
  [(62, 230)]⟩
def row231 : Row := ⟨[([.shiftExtra], 0x8), ([.shift 331], 0x10), ([.reduce 85 2 0], 0x20000), ([.shift 280], 0x1f000000000000), ([.shift 279], 0x20000000000000)],
  [(62, 231), (84, 283), (103, 279), (104, 306)]⟩
def row232 : Row := ⟨[([.shiftExtra], 0x8), ([.shift 331], 0x10), ([.reduce 85 2 0], 0x4000), ([.shift 144], 0x1f000000000000), ([.shift 146], 0x20000000000000)],
  [(62, 232), (84, 283), (103, 146), (104, 298)]⟩
def row233 : Row := ⟨[([.reduce 88 2 3], 0x50cc6), ([.shiftExtra], 0x8), ([.shift 331], 0x10), ([.shift 213], 0x8000000), ([.shift 49], 0x20000000)],
  [(62, 233)]⟩
def row234 : Row := ⟨[([.reduce 102 1 0], 0x5acc6), ([.shiftExtra], 0x8), ([.shift 331], 0x10)],
  [(62, 234)]⟩
def row235 : Row := ⟨[([.reduce 82 1 0], 0x20050cc6), ([.shiftExtra], 0x8), ([.shift 331], 0x10), ([.shift 196], 0x1000000)],
  [(62, 235)]⟩
def row236 : Row := ⟨[([.shiftExtra], 0x8), ([.shift 331], 0x10), ([.reduce 85 3 0], 0x4000), ([.shift 144], 0x1f000000000000), ([.shift 146], 0x20000000000000)],
  [(62, 236), (84, 283), (103, 146), (104, 298)]⟩
def row237 : Row := ⟨[([.reduce 83 4 0], 0x20050cc6), ([.shiftExtra], 0x8), ([.shift 331], 0x10)],
  [(62, 237)]⟩
def row238 : Row := ⟨[([.shiftExtra], 0x8), ([.shift 331], 0x10), ([.shift 280], 0x1f000000000000), ([.shift 279], 0x20000000000000)],
  [(62, 238), (84, 283), (103, 279), (104, 306)]⟩
def row239 : Row := ⟨[([.reduce 71 6 41], 0x50cc6), ([.shiftExtra], 0x8), ([.shift 331], 0x10), ([.shift 206], 0x8000)],
  [(62, 239)]⟩
def row240 : Row := ⟨[([.reduce 88 4 24], 0x50cc6), ([.shiftExtra], 0x8), ([.shift 331], 0x10), ([.shift 65], 0x20000000)],
  [(62, 240)]⟩
def row241 : Row := ⟨[([.reduce 71 5 14], 0x50cc6), ([.shiftExtra], 0x8), ([.shift 331], 0x10), ([.shift 193], 0x8000)],
  [(62, 241)]⟩
def row242 : Row := ⟨[([.reduce 83 6 0], 0x20050cc6), ([.shiftExtra], 0x8), ([.shift 331], 0x10)],
  [(62, 242)]⟩
def row243 : Row := ⟨[([.shiftExtra], 0x8), ([.shift 331], 0x10), ([.shift 144], 0x1f000000000000), ([.shift 146], 0x20000000000000)],
  [(62, 243), (84, 283), (103, 146), (104, 298)]⟩
def row244 : Row := ⟨[([.reduce 82 1 0], 0x20050cc6), ([.shiftExtra], 0x8), ([.shift 331], 0x10)],
  [(62, 244)]⟩
def row245 : Row := ⟨[([.shiftExtra], 0x8), ([.shift 331], 0x10), ([.shift 108], 0x1f000000000000), ([.shift 107], 0x20000000000000)],
  [(62, 245), (67, 262), (103, 107), (104, 249)]⟩
def row246 : Row := ⟨[([.reduce 83 1 0], 0x20050cc6), ([.shiftExtra], 0x8), ([.shift 331], 0x10)],
  [(62, 246)]⟩
def row247 : Row := ⟨[([.reduce 71 4 3], 0x50cc6), ([.shiftExtra], 0x8), ([.shift 331], 0x10), ([.shift 198], 0x8000)],
  [(62, 247)]⟩
def row248 : Row := ⟨[([.reduce 88 5 34], 0x50cc6), ([.shiftExtra], 0x8), ([.shift 331], 0x10), ([.shift 57], 0x20000000)],
  [(62, 248)]⟩
def row249 : Row := ⟨[([.reduce 67 1 2], 0x50cc6), ([.shiftExtra], 0x8), ([.shift 331], 0x10), ([.shift 245], 0x200)],
  [(62, 249)]⟩
def row250 : Row := ⟨[([.shiftExtra], 0x8), ([.shift 331], 0x10), ([.shift 108], 0x1f000000000000), ([.shift 107], 0x20000000000000)],
  [(62, 250), (67, 263), (103, 107), (104, 249)]⟩
def row251 : Row := ⟨[([.reduce 71 5 30], 0x50cc6), ([.shiftExtra], 0x8), ([.shift 331], 0x10), ([.shift 201], 0x8000)],
  [(62, 251)]⟩
def row252 : Row := ⟨[([.reduce 71 8 51], 0x50cc6), ([.shiftExtra], 0x8), ([.shift 331], 0x10)],
  [(62, 252)]⟩
def row253 : Row := ⟨[([.reduce 66 2 1], 0x50cc6), ([.shiftExtra], 0x8), ([.shift 331], 0x10)],
  [(62, 253)]⟩
def row254 : Row := ⟨[([.reduce 71 7 47], 0x50cc6), ([.shiftExtra], 0x8), ([.shift 331], 0x10)],
  [(62, 254)]⟩
def row255 : Row := ⟨[([.shiftExtra], 0x8), ([.shift 331], 0x10), ([.shift 144], 0x1f000000000000), ([.shift 146], 0x20000000000000)],
  [(62, 255), (103, 146), (104, 162)]⟩
def row256 : Row := ⟨[([.reduce 71 7 45], 0x50cc6), ([.shiftExtra], 0x8), ([.shift 331], 0x10)],
  [(62, 256)]⟩
def row257 : Row := ⟨[([.shiftExtra], 0x8), ([.shift 331], 0x10), ([.shift 108], 0x1f000000000000), ([.shift 107], 0x20000000000000)],
  [(62, 257), (103, 107), (104, 233)]⟩
def row258 : Row := ⟨[([.reduce 71 4 21], 0x50cc6), ([.shiftExtra], 0x8), ([.shift 331], 0x10)],
  [(62, 258)]⟩
def row259 : Row := ⟨[([.shiftExtra], 0x8), ([.shift 331], 0x10), ([.shift 108], 0x1f000000000000), ([.shift 107], 0x20000000000000)],
  [(62, 259), (103, 107), (104, 109)]⟩
def row260 : Row := ⟨[([.reduce 71 6 38], 0x50cc6), ([.shiftExtra], 0x8), ([.shift 331], 0x10)],
  [(62, 260)]⟩
def row261 : Row := ⟨[([.reduce 64 1 0], 0x50cc6), ([.shiftExtra], 0x8), ([.shift 331], 0x10)],
  [(62, 261)]⟩
def row262 : Row := ⟨[([.reduce 67 3 20], 0x50cc6), ([.shiftExtra], 0x8), ([.shift 331], 0x10)],
  [(62, 262)]⟩
def row263 : Row := ⟨[([.reduce 66 3 10], 0x50cc6), ([.shiftExtra], 0x8), ([.shift 331], 0x10)],
  [(62, 263)]⟩
def row264 : Row := ⟨[([.shiftExtra], 0x8), ([.shift 331], 0x10), ([.shift 108], 0x1f000000000000), ([.shift 107], 0x20000000000000)],
  [(62, 264), (103, 107), (104, 230)]⟩
def row265 : Row := ⟨[([.reduce 71 5 33], 0x50cc6), ([.shiftExtra], 0x8), ([.shift 331], 0x10)],
  [(62, 265)]⟩
def row266 : Row := ⟨[([.shiftExtra], 0x8), ([.shift 331], 0x10), ([.shift 144], 0x1f000000000000), ([.shift 146], 0x20000000000000)],
  [(62, 266), (103, 146), (104, 304)]⟩
def row267 : Row := ⟨[([.shiftExtra], 0x8), ([.shift 331], 0x10), ([.reduce 106 2 0, .shiftRepeat 275], 0xc00), ([.reduce 106 2 0], 0x10011000)],
  [(62, 267), (69, 272), (106, 267)]⟩
def row268 : Row := ⟨[([.shiftExtra], 0x8), ([.shift 331], 0x10), ([.shift 275], 0xc00), ([.reduce 70 1 0], 0x10011000)],
  [(62, 268), (69, 272), (106, 267)]⟩
def row269 : Row := ⟨[([.shiftExtra], 0x8), ([.shift 331], 0x10), ([.reduce 68 1 0], 0x3f000000000000)],
  [(62, 269)]⟩
def row270 : Row := ⟨[([.shiftExtra], 0x8), ([.shift 331], 0x10), ([.reduce 82 1 0], 0x6024040), ([.shift 207], 0x1000000)],
  [(62, 270)]⟩
def row271 : Row := ⟨[([.shiftExtra], 0x8), ([.shift 331], 0x10), ([.reduce 82 1 0], 0x6024040), ([.shift 212], 0x1000000)],
  [(62, 271)]⟩
def row272 : Row := ⟨[([.shiftExtra], 0x8), ([.shift 331], 0x10), ([.reduce 106 1 0], 0x10011c00)],
  [(62, 272)]⟩
def row273 : Row := ⟨[([.shiftExtra], 0x8), ([.shift 331], 0x10), ([.reduce 82 1 0], 0x6024040)],
  [(62, 273)]⟩
def row274 : Row := ⟨[([.shiftExtra], 0x8), ([.shift 331], 0x10), ([.reduce 83 1 0], 0x6024040)],
  [(62, 274)]⟩
def row275 : Row := ⟨[([.shiftExtra], 0x8), ([.shift 331], 0x10), ([.reduce 69 1 0], 0x10011c00)],
  [(62, 275)]⟩
def row276 : Row := ⟨[([.shiftExtra], 0x8), ([.shift 331], 0x10), ([.reduce 83 6 0], 0x6024040)],
  [(62, 276)]⟩
def row277 : Row := ⟨[([.shiftExtra], 0x8), ([.shift 331], 0x10), ([.reduce 83 4 0], 0x6024040)],
  [(62, 277)]⟩
def row278 : Row := ⟨[([.shiftExtra], 0x8), ([.shift 331], 0x10), ([.shift 10], 0x40), ([.shift 223], 0x2000), ([.shift 192], 0x8000)],
  [(62, 278), (65, 92)]⟩
def row279 : Row := ⟨[([.shiftExtra], 0x8), ([.shift 331], 0x10), ([.reduce 104 1 0], 0xe020000)],
  [(62, 279)]⟩
def row280 : Row := ⟨[([.shiftExtra], 0x8), ([.shift 331], 0x10), ([.reduce 103 1 0], 0xe020000)],
  [(62, 280)]⟩
def row281 : Row := ⟨[([.shiftExtra], 0x8), ([.shift 331], 0x10), ([.shift 10], 0x40), ([.shift 214], 0x2000), ([.shift 208], 0x8000)],
  [(62, 281), (65, 97)]⟩
def row282 : Row := ⟨[([.shiftExtra], 0x8), ([.shift 331], 0x10), ([.reduce 108 2 0], 0x200000004000), ([.reduce 108 2 0, .shiftRepeat 67], 0x4000000)],
  [(62, 282), (108, 282)]⟩
def row283 : Row := ⟨[([.shiftExtra], 0x8), ([.shift 331], 0x10), ([.reduce 107 2 0], 0x4024000)],
  [(62, 283)]⟩
def row284 : Row := ⟨[([.shiftExtra], 0x8), ([.shift 331], 0x10), ([.reduce 85 1 0], 0x4000), ([.shift 232], 0x4000000)],
  [(62, 284), (107, 292)]⟩
def row285 : Row := ⟨[([.shiftExtra], 0x8), ([.shift 331], 0x10), ([.reduce 102 1 0], 0xa040)],
  [(62, 285)]⟩
def row286 : Row := ⟨[([.shiftExtra], 0x8), ([.shift 331], 0x10), ([.shift 125], 0x80), ([.shift 16], 0x4000000)],
  [(62, 286), (109, 288)]⟩
def row287 : Row := ⟨[([.shiftExtra], 0x8), ([.shift 331], 0x10), ([.reduce 107 2 0], 0x20000), ([.reduce 107 2 0, .shiftRepeat 238], 0x4000000)],
  [(62, 287), (107, 287)]⟩
def row288 : Row := ⟨[([.shiftExtra], 0x8), ([.shift 331], 0x10), ([.shift 129], 0x80), ([.shift 19], 0x4000000)],
  [(62, 288), (109, 302)]⟩
def row289 : Row := ⟨[([.shiftExtra], 0x8), ([.shift 331], 0x10), ([.reduce 84 3 23], 0x4024000)],
  [(62, 289)]⟩
def row290 : Row := ⟨[([.shiftExtra], 0x8), ([.shift 331], 0x10), ([.shift 10], 0x40), ([.shift 211], 0x8000)],
  [(62, 290), (65, 79)]⟩
def row291 : Row := ⟨[([.shiftExtra], 0x8), ([.shift 331], 0x10), ([.reduce 107 2 0], 0x4000), ([.reduce 107 2 0, .shiftRepeat 243], 0x4000000)],
  [(62, 291), (107, 291)]⟩
def row292 : Row := ⟨[([.shiftExtra], 0x8), ([.shift 331], 0x10), ([.reduce 85 2 0], 0x4000), ([.shift 236], 0x4000000)],
  [(62, 292), (107, 291)]⟩
def row293 : Row := ⟨[([.shiftExtra], 0x8), ([.shift 331], 0x10), ([.reduce 85 2 0], 0x20000), ([.shift 228], 0x4000000)],
  [(62, 293), (107, 287)]⟩
def row294 : Row := ⟨[([.shiftExtra], 0x8), ([.shift 331], 0x10), ([.shift 36], 0x4000000), ([.shift 139], 0x200000000000)],
  [(62, 294), (108, 282)]⟩
def row295 : Row := ⟨[([.shiftExtra], 0x8), ([.shift 331], 0x10), ([.shift 221], 0x1000), ([.shift 222], 0x10000), ([.shift 264], 0x10000000)],
  [(62, 295)]⟩
def row296 : Row := ⟨[([.shiftExtra], 0x8), ([.shift 331], 0x10), ([.reduce 86 2 0], 0x4000), ([.shift 38], 0x4000000)],
  [(62, 296), (108, 282)]⟩
def row297 : Row := ⟨[([.shiftExtra], 0x8), ([.shift 331], 0x10), ([.shift 158], 0x80), ([.shift 22], 0x4000000)],
  [(62, 297), (109, 305)]⟩
def row298 : Row := ⟨[([.shiftExtra], 0x8), ([.shift 331], 0x10), ([.reduce 84 1 4], 0x4004000), ([.shift 204], 0x8000000)],
  [(62, 298)]⟩
def row299 : Row := ⟨[([.shiftExtra], 0x8), ([.shift 331], 0x10), ([.shift 24], 0x4000000), ([.shift 166], 0x200000000000)],
  [(62, 299), (108, 282)]⟩
def row300 : Row := ⟨[([.shiftExtra], 0x8), ([.shift 331], 0x10), ([.reduce 85 1 0], 0x20000), ([.shift 231], 0x4000000)],
  [(62, 300), (107, 293)]⟩
def row301 : Row := ⟨[([.shiftExtra], 0x8), ([.shift 331], 0x10), ([.shift 10], 0x40), ([.shift 205], 0x8000)],
  [(62, 301), (65, 105)]⟩
def row302 : Row := ⟨[([.shiftExtra], 0x8), ([.shift 331], 0x10), ([.reduce 109 2 0], 0x80), ([.reduce 109 2 0, .shiftRepeat 30], 0x4000000)],
  [(62, 302), (109, 302)]⟩
def row303 : Row := ⟨[([.shiftExtra], 0x8), ([.shift 331], 0x10), ([.shift 10], 0x40), ([.shift 197], 0x8000)],
  [(62, 303), (65, 91)]⟩
def row304 : Row := ⟨[([.shiftExtra], 0x8), ([.shift 331], 0x10), ([.shift 10], 0x40), ([.shift 225], 0x2000)],
  [(62, 304), (65, 104)]⟩
def row305 : Row := ⟨[([.shiftExtra], 0x8), ([.shift 331], 0x10), ([.shift 164], 0x80), ([.shift 20], 0x4000000)],
  [(62, 305), (109, 302)]⟩
def row306 : Row := ⟨[([.shiftExtra], 0x8), ([.shift 331], 0x10), ([.reduce 84 1 4], 0x4020000), ([.shift 199], 0x8000000)],
  [(62, 306)]⟩
def row307 : Row := ⟨[([.shiftExtra], 0x8), ([.shift 331], 0x10), ([.shift 10], 0x40), ([.shift 194], 0x8000)],
  [(62, 307), (65, 82)]⟩
def row308 : Row := ⟨[([.shiftExtra], 0x8), ([.shift 331], 0x10), ([.shift 10], 0x40)],
  [(62, 308), (65, 103)]⟩
def row309 : Row := ⟨[([.shiftExtra], 0x8), ([.shift 331], 0x10), ([.reduce 109 2 0], 0x4000080)],
  [(62, 309)]⟩
def row310 : Row := ⟨[([.shiftExtra], 0x8), ([.shift 331], 0x10), ([.shift 10], 0x40)],
  [(62, 310), (65, 78)]⟩
def row311 : Row := ⟨[([.shiftExtra], 0x8), ([.shift 331], 0x10), ([.shift 10], 0x40)],
  [(62, 311), (65, 102)]⟩
def row312 : Row := ⟨[([.shiftExtra], 0x8), ([.shift 331], 0x10), ([.shift 10], 0x40)],
  [(62, 312), (65, 84)]⟩
def row313 : Row := ⟨[([.shiftExtra], 0x8), ([.shift 331], 0x10), ([.shift 10], 0x40)],
  [(62, 313), (65, 106)]⟩
def row314 : Row := ⟨[([.shiftExtra], 0x8), ([.shift 331], 0x10), ([.shift 10], 0x40)],
  [(62, 314), (65, 99)]⟩
def row315 : Row := ⟨[([.shiftExtra], 0x8), ([.shift 331], 0x10), ([.shift 10], 0x40)],
  [(62, 315), (65, 101)]⟩
def row316 : Row := ⟨[([.shiftExtra], 0x8), ([.shift 331], 0x10), ([.shift 10], 0x40)],
  [(62, 316), (65, 90)]⟩
def row317 : Row := ⟨[([.shiftExtra], 0x8), ([.shift 331], 0x10), ([.shift 239], 0x4000)],
  [(62, 317)]⟩
def row318 : Row := ⟨[([.shiftExtra], 0x8), ([.shift 331], 0x10), ([.shift 251], 0x4000)],
  [(62, 318)]⟩
def row319 : Row := ⟨[([.shiftExtra], 0x8), ([.shift 331], 0x10), ([.shift 39], 0x20000)],
  [(62, 319)]⟩
def row320 : Row := ⟨[([.shiftExtra], 0x8), ([.shift 331], 0x10), ([.shift 277], 0x2000000)],
  [(62, 320)]⟩
def row321 : Row := ⟨[([.shiftExtra], 0x8), ([.shift 331], 0x10), ([.shift 276], 0x2000000)],
  [(62, 321)]⟩
def row322 : Row := ⟨[([.shiftExtra], 0x8), ([.shift 331], 0x10), ([.shift 237], 0x2000000)],
  [(62, 322)]⟩
def row323 : Row := ⟨[([.shiftExtra], 0x8), ([.shift 331], 0x10), ([.shift 242], 0x2000000)],
  [(62, 323)]⟩
def row324 : Row := ⟨[([.shiftExtra], 0x8), ([.shift 331], 0x10), ([.shift 167], 0x4000)],
  [(62, 324)]⟩
def row325 : Row := ⟨[([.shiftExtra], 0x8), ([.shift 331], 0x10), ([.shift 308], 0x4000)],
  [(62, 325)]⟩
def row326 : Row := ⟨[([.shiftExtra], 0x8), ([.shift 331], 0x10), ([.shift 301], 0x4000)],
  [(62, 326)]⟩
def row327 : Row := ⟨[([.accept], 0x1), ([.shiftExtra], 0x8), ([.shift 331], 0x10)],
  [(62, 327)]⟩
def row328 : Row := ⟨[([.shiftExtra], 0x8), ([.shift 331], 0x10), ([.shift 34], 0x20000)],
  [(62, 328)]⟩
def row329 : Row := ⟨[([.shiftExtra], 0x8), ([.shift 331], 0x10), ([.shift 131], 0x4000)],
  [(62, 329)]⟩
def row330 : Row := ⟨[([.shiftExtra], 0x8), ([.shift 331], 0x10), ([.shift 222], 0x10000)],
  [(62, 330)]⟩
def row331 : Row := ⟨[([.shiftExtra], 0x8), ([.shift 331], 0x10), ([.shift 335], 0x20)],
  [(62, 331)]⟩
def row332 : Row := ⟨[([.shiftExtra], 0x8), ([.shift 331], 0x10), ([.shift 303], 0x4000)],
  [(62, 332)]⟩
def row333 : Row := ⟨[([.shiftExtra], 0x8), ([.shift 331], 0x10), ([.shift 200], 0x4000000)],
  [(62, 333)]⟩
def row334 : Row := ⟨[([.shiftExtra], 0x8), ([.shift 331], 0x10), ([.shift 209], 0x4000000)],
  [(62, 334)]⟩
def row335 : Row := ⟨[([.reduce 62 2 0], 0x1)],
  []⟩

/-- All rows. -/
def rows : Arr Row :=
  .node 168 (.node 84 (.node 42 (.node 21 (.node 10 (.node 5 (.node 2 (.node 1 (.leaf row0) (.leaf row1))
  (.node 3 (.leaf row2) (.node 4 (.leaf row3) (.leaf row4))))
  (.node 7 (.node 6 (.leaf row5) (.leaf row6))
  (.node 8 (.leaf row7) (.node 9 (.leaf row8) (.leaf row9)))))
  (.node 15 (.node 12 (.node 11 (.leaf row10) (.leaf row11))
  (.node 13 (.leaf row12) (.node 14 (.leaf row13) (.leaf row14))))
  (.node 18 (.node 16 (.leaf row15) (.node 17 (.leaf row16) (.leaf row17)))
  (.node 19 (.leaf row18) (.node 20 (.leaf row19) (.leaf row20))))))
  (.node 31 (.node 26 (.node 23 (.node 22 (.leaf row21) (.leaf row22))
  (.node 24 (.leaf row23) (.node 25 (.leaf row24) (.leaf row25))))
  (.node 28 (.node 27 (.leaf row26) (.leaf row27))
  (.node 29 (.leaf row28) (.node 30 (.leaf row29) (.leaf row30)))))
  (.node 36 (.node 33 (.node 32 (.leaf row31) (.leaf row32))
  (.node 34 (.leaf row33) (.node 35 (.leaf row34) (.leaf row35))))
  (.node 39 (.node 37 (.leaf row36) (.node 38 (.leaf row37) (.leaf row38)))
  (.node 40 (.leaf row39) (.node 41 (.leaf row40) (.leaf row41)))))))
  (.node 63 (.node 52 (.node 47 (.node 44 (.node 43 (.leaf row42) (.leaf row43))
  (.node 45 (.leaf row44) (.node 46 (.leaf row45) (.leaf row46))))
  (.node 49 (.node 48 (.leaf row47) (.leaf row48))
  (.node 50 (.leaf row49) (.node 51 (.leaf row50) (.leaf row51)))))
  (.node 57 (.node 54 (.node 53 (.leaf row52) (.leaf row53))
  (.node 55 (.leaf row54) (.node 56 (.leaf row55) (.leaf row56))))
  (.node 60 (.node 58 (.leaf row57) (.node 59 (.leaf row58) (.leaf row59)))
  (.node 61 (.leaf row60) (.node 62 (.leaf row61) (.leaf row62))))))
  (.node 73 (.node 68 (.node 65 (.node 64 (.leaf row63) (.leaf row64))
  (.node 66 (.leaf row65) (.node 67 (.leaf row66) (.leaf row67))))
  (.node 70 (.node 69 (.leaf row68) (.leaf row69))
  (.node 71 (.leaf row70) (.node 72 (.leaf row71) (.leaf row72)))))
  (.node 78 (.node 75 (.node 74 (.leaf row73) (.leaf row74))
  (.node 76 (.leaf row75) (.node 77 (.leaf row76) (.leaf row77))))
  (.node 81 (.node 79 (.leaf row78) (.node 80 (.leaf row79) (.leaf row80)))
  (.node 82 (.leaf row81) (.node 83 (.leaf row82) (.leaf row83))))))))
  (.node 126 (.node 105 (.node 94 (.node 89 (.node 86 (.node 85 (.leaf row84) (.leaf row85))
  (.node 87 (.leaf row86) (.node 88 (.leaf row87) (.leaf row88))))
  (.node 91 (.node 90 (.leaf row89) (.leaf row90))
  (.node 92 (.leaf row91) (.node 93 (.leaf row92) (.leaf row93)))))
  (.node 99 (.node 96 (.node 95 (.leaf row94) (.leaf row95))
  (.node 97 (.leaf row96) (.node 98 (.leaf row97) (.leaf row98))))
  (.node 102 (.node 100 (.leaf row99) (.node 101 (.leaf row100) (.leaf row101)))
  (.node 103 (.leaf row102) (.node 104 (.leaf row103) (.leaf row104))))))
  (.node 115 (.node 110 (.node 107 (.node 106 (.leaf row105) (.leaf row106))
  (.node 108 (.leaf row107) (.node 109 (.leaf row108) (.leaf row109))))
  (.node 112 (.node 111 (.leaf row110) (.leaf row111))
  (.node 113 (.leaf row112) (.node 114 (.leaf row113) (.leaf row114)))))
  (.node 120 (.node 117 (.node 116 (.leaf row115) (.leaf row116))
  (.node 118 (.leaf row117) (.node 119 (.leaf row118) (.leaf row119))))
  (.node 123 (.node 121 (.leaf row120) (.node 122 (.leaf row121) (.leaf row122)))
  (.node 124 (.leaf row123) (.node 125 (.leaf row124) (.leaf row125)))))))
  (.node 147 (.node 136 (.node 131 (.node 128 (.node 127 (.leaf row126) (.leaf row127))
  (.node 129 (.leaf row128) (.node 130 (.leaf row129) (.leaf row130))))
  (.node 133 (.node 132 (.leaf row131) (.leaf row132))
  (.node 134 (.leaf row133) (.node 135 (.leaf row134) (.leaf row135)))))
  (.node 141 (.node 138 (.node 137 (.leaf row136) (.leaf row137))
  (.node 139 (.leaf row138) (.node 140 (.leaf row139) (.leaf row140))))
  (.node 144 (.node 142 (.leaf row141) (.node 143 (.leaf row142) (.leaf row143)))
  (.node 145 (.leaf row144) (.node 146 (.leaf row145) (.leaf row146))))))
  (.node 157 (.node 152 (.node 149 (.node 148 (.leaf row147) (.leaf row148))
  (.node 150 (.leaf row149) (.node 151 (.leaf row150) (.leaf row151))))
  (.node 154 (.node 153 (.leaf row152) (.leaf row153))
  (.node 155 (.leaf row154) (.node 156 (.leaf row155) (.leaf row156)))))
  (.node 162 (.node 159 (.node 158 (.leaf row157) (.leaf row158))
  (.node 160 (.leaf row159) (.node 161 (.leaf row160) (.leaf row161))))
  (.node 165 (.node 163 (.leaf row162) (.node 164 (.leaf row163) (.leaf row164)))
  (.node 166 (.leaf row165) (.node 167 (.leaf row166) (.leaf row167)))))))))
  (.node 252 (.node 210 (.node 189 (.node 178 (.node 173 (.node 170 (.node 169 (.leaf row168) (.leaf row169))
  (.node 171 (.leaf row170) (.node 172 (.leaf row171) (.leaf row172))))
  (.node 175 (.node 174 (.leaf row173) (.leaf row174))
  (.node 176 (.leaf row175) (.node 177 (.leaf row176) (.leaf row177)))))
  (.node 183 (.node 180 (.node 179 (.leaf row178) (.leaf row179))
  (.node 181 (.leaf row180) (.node 182 (.leaf row181) (.leaf row182))))
  (.node 186 (.node 184 (.leaf row183) (.node 185 (.leaf row184) (.leaf row185)))
  (.node 187 (.leaf row186) (.node 188 (.leaf row187) (.leaf row188))))))
  (.node 199 (.node 194 (.node 191 (.node 190 (.leaf row189) (.leaf row190))
  (.node 192 (.leaf row191) (.node 193 (.leaf row192) (.leaf row193))))
  (.node 196 (.node 195 (.leaf row194) (.leaf row195))
  (.node 197 (.leaf row196) (.node 198 (.leaf row197) (.leaf row198)))))
  (.node 204 (.node 201 (.node 200 (.leaf row199) (.leaf row200))
  (.node 202 (.leaf row201) (.node 203 (.leaf row202) (.leaf row203))))
  (.node 207 (.node 205 (.leaf row204) (.node 206 (.leaf row205) (.leaf row206)))
  (.node 208 (.leaf row207) (.node 209 (.leaf row208) (.leaf row209)))))))
  (.node 231 (.node 220 (.node 215 (.node 212 (.node 211 (.leaf row210) (.leaf row211))
  (.node 213 (.leaf row212) (.node 214 (.leaf row213) (.leaf row214))))
  (.node 217 (.node 216 (.leaf row215) (.leaf row216))
  (.node 218 (.leaf row217) (.node 219 (.leaf row218) (.leaf row219)))))
  (.node 225 (.node 222 (.node 221 (.leaf row220) (.leaf row221))
  (.node 223 (.leaf row222) (.node 224 (.leaf row223) (.leaf row224))))
  (.node 228 (.node 226 (.leaf row225) (.node 227 (.leaf row226) (.leaf row227)))
  (.node 229 (.leaf row228) (.node 230 (.leaf row229) (.leaf row230))))))
  (.node 241 (.node 236 (.node 233 (.node 232 (.leaf row231) (.leaf row232))
  (.node 234 (.leaf row233) (.node 235 (.leaf row234) (.leaf row235))))
  (.node 238 (.node 237 (.leaf row236) (.leaf row237))
  (.node 239 (.leaf row238) (.node 240 (.leaf row239) (.leaf row240)))))
  (.node 246 (.node 243 (.node 242 (.leaf row241) (.leaf row242))
  (.node 244 (.leaf row243) (.node 245 (.leaf row244) (.leaf row245))))
  (.node 249 (.node 247 (.leaf row246) (.node 248 (.leaf row247) (.leaf row248)))
  (.node 250 (.leaf row249) (.node 251 (.leaf row250) (.leaf row251))))))))
  (.node 294 (.node 273 (.node 262 (.node 257 (.node 254 (.node 253 (.leaf row252) (.leaf row253))
  (.node 255 (.leaf row254) (.node 256 (.leaf row255) (.leaf row256))))
  (.node 259 (.node 258 (.leaf row257) (.leaf row258))
  (.node 260 (.leaf row259) (.node 261 (.leaf row260) (.leaf row261)))))
  (.node 267 (.node 264 (.node 263 (.leaf row262) (.leaf row263))
  (.node 265 (.leaf row264) (.node 266 (.leaf row265) (.leaf row266))))
  (.node 270 (.node 268 (.leaf row267) (.node 269 (.leaf row268) (.leaf row269)))
  (.node 271 (.leaf row270) (.node 272 (.leaf row271) (.leaf row272))))))
  (.node 283 (.node 278 (.node 275 (.node 274 (.leaf row273) (.leaf row274))
  (.node 276 (.leaf row275) (.node 277 (.leaf row276) (.leaf row277))))
  (.node 280 (.node 279 (.leaf row278) (.leaf row279))
  (.node 281 (.leaf row280) (.node 282 (.leaf row281) (.leaf row282)))))
  (.node 288 (.node 285 (.node 284 (.leaf row283) (.leaf row284))
  (.node 286 (.leaf row285) (.node 287 (.leaf row286) (.leaf row287))))
  (.node 291 (.node 289 (.leaf row288) (.node 290 (.leaf row289) (.leaf row290)))
  (.node 292 (.leaf row291) (.node 293 (.leaf row292) (.leaf row293)))))))
  (.node 315 (.node 304 (.node 299 (.node 296 (.node 295 (.leaf row294) (.leaf row295))
  (.node 297 (.leaf row296) (.node 298 (.leaf row297) (.leaf row298))))
  (.node 301 (.node 300 (.leaf row299) (.leaf row300))
  (.node 302 (.leaf row301) (.node 303 (.leaf row302) (.leaf row303)))))
  (.node 309 (.node 306 (.node 305 (.leaf row304) (.leaf row305))
  (.node 307 (.leaf row306) (.node 308 (.leaf row307) (.leaf row308))))
  (.node 312 (.node 310 (.leaf row309) (.node 311 (.leaf row310) (.leaf row311)))
  (.node 313 (.leaf row312) (.node 314 (.leaf row313) (.leaf row314))))))
  (.node 325 (.node 320 (.node 317 (.node 316 (.leaf row315) (.leaf row316))
  (.node 318 (.leaf row317) (.node 319 (.leaf row318) (.leaf row319))))
  (.node 322 (.node 321 (.leaf row320) (.leaf row321))
  (.node 323 (.leaf row322) (.node 324 (.leaf row323) (.leaf row324)))))
  (.node 330 (.node 327 (.node 326 (.leaf row325) (.leaf row326))
  (.node 328 (.leaf row327) (.node 329 (.leaf row328) (.leaf row329))))
  (.node 333 (.node 331 (.leaf row330) (.node 332 (.leaf row331) (.leaf row332)))
  (.node 334 (.leaf row333) (.node 335 (.leaf row334) (.leaf row335)))))))))

end Bob.Parse
