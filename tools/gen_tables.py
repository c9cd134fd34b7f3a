#!/usr/bin/env python3
"""Write lean/Verif/Model/Parser/Tables.lean from /repo/src/flamingo/parser.c.

The tables of the generated parser are data; this script only changes their notation.  Usage: gen_tables.py [parser.c [out]]
"""
import re, sys

path = sys.argv[1] if len(sys.argv) > 1 else '/repo/src/flamingo/parser.c'
out = sys.argv[2] if len(sys.argv) > 2 else '/verif/lean/Verif/Model/Parser/Tables.lean'
src = open(path).read()

def section(start):
    i = src.index(start)
    j = src.index('\n};', i)
    return src[src.index('{', src.index('=', i)) + 1:j]

def lines_of(start):
    i = src.index(start)
    j = src.index('\n};', i)
    return f'{src.count(chr(10), 0, i) + 1}-{src.count(chr(10), 0, j) + 2}'

enum = {}
for blk in re.findall(r'enum ts_\w+ \{(.*?)\};', src, re.S):
    for n, v in re.findall(r'(\w+) = (\d+)', blk):
        enum[n] = int(v)
enum['ts_builtin_sym_end'] = 0
fields = {n: v for n, v in enum.items() if n.startswith('field_')}

def const(n):
    return int(re.search(rf'#define {n} (\d+)', src).group(1))

STATES, SYMBOLS, TOKENS, LARGE = const('STATE_COUNT'), const('SYMBOL_COUNT'), const('TOKEN_COUNT'), const('LARGE_STATE_COUNT')
assert const('ALIAS_COUNT') == 0 and const('EXTERNAL_TOKEN_COUNT') == 0

# symbols
symname = {}
for n, v in re.findall(r'\[(\w+)\] = "((?:[^"\\]|\\.)*)"', section('ts_symbol_names[] =')):
    symname[enum[n]] = v
meta = {}
for n, b in re.findall(r'\[(\w+)\] = \{(.*?)\}', section('ts_symbol_metadata[] ='), re.S):
    meta[enum[n]] = ('.visible = true' in b, '.named = true' in b)
for n, v in re.findall(r'\[(\w+)\] = (\w+)', section('ts_symbol_map[] =')):
    assert n == v

# lex modes
mode = {}
for s, b in re.findall(r'\[(\d+)\] = \{(.*?)\}', section('ts_lex_modes[STATE_COUNT] =')):
    mode[int(s)] = None if '-1' in b else int(re.search(r'\d+', b).group(0))
assert len(mode) == STATES

# actions
acts = {}
for m in re.finditer(r'\[(\d+)\] = \{\.entry = \{\.count = (\d+), \.reusable = (\w+)\}\}(.*)', section('ts_parse_actions[] =')):
    L = []
    for a in re.finditer(r'(SHIFT_REPEAT|SHIFT_EXTRA|SHIFT|REDUCE|RECOVER|ACCEPT_INPUT)\(([^)]*)\)', m.group(4)):
        k, x = a.groups()
        if k == 'SHIFT': L.append(f'.shift {int(x)}')
        elif k == 'SHIFT_REPEAT': L.append(f'.shiftRepeat {int(x)}')
        elif k == 'SHIFT_EXTRA': L.append('.shiftExtra')
        elif k == 'RECOVER': L.append('.recover')
        elif k == 'ACCEPT_INPUT': L.append('.accept')
        else:
            p = [y.strip() for y in x.split(',')]
            pid = 0
            for y in p[2:]:
                mm = re.match(r'\.(\w+) = (-?\d+)$', y)
                assert mm.group(1) == 'production_id', y
                pid = int(mm.group(2))
            L.append(f'.reduce {enum[p[0]]} {int(p[1])} {pid}')
    assert len(L) == int(m.group(2))
    acts[int(m.group(1))] = L

# parse tables
table = [dict() for _ in range(STATES)]
for m in re.finditer(r'\[(\d+)\] = \{(.*?)\n  \}', section('ts_parse_table[LARGE_STATE_COUNT][SYMBOL_COUNT] ='), re.S):
    for n, k, v in re.findall(r'\[(\w+)\] = (STATE|ACTIONS)\((\d+)\)', m.group(2)):
        assert (k == 'ACTIONS') == (enum[n] < TOKENS)
        table[int(m.group(1))][enum[n]] = int(v)
flat = []
for a, b, c, d, e, f in re.findall(r'\[(\d+)\] = (\d+)|(STATE|ACTIONS)\((\d+)\), (\d+)|(\w+)', section('ts_small_parse_table[] =')):
    if a:
        assert len(flat) == int(a)
        flat.append(int(b))
    elif c:
        flat += [int(d), int(e)]
    else:
        flat.append(enum[f])
for s, v in re.findall(r'\[SMALL_STATE\((\d+)\)\] = (\d+)', section('ts_small_parse_table_map[] =')):
    p = int(v)
    groups = flat[p]; p += 1
    for _ in range(groups):
        val, cnt = flat[p], flat[p + 1]; p += 2
        for _ in range(cnt):
            table[int(s)].setdefault(flat[p], val); p += 1

# fields
slices = {int(p): (int(i), int(n)) for p, i, n in re.findall(r'\[(\d+)\] = \{\.index = (\d+), \.length = (\d+)\}', section('ts_field_map_slices[PRODUCTION_ID_COUNT] ='))}
entries = re.findall(r'\{(field_\w+), (\d+)(, \.inherited = true)?\}', section('ts_field_map_entries[] ='))

# lexer
i = src.index('static bool ts_lex(')
j = src.index('\n}\n', i)
lexlines = f'{src.count(chr(10), 0, i) + 1}-{src.count(chr(10), 0, j) + 2}'
CH = {"\\n": 10, "\\t": 9, "\\r": 13, "\\\\": 92, "\\'": 39}
def ch(t):
    t = t.strip()
    if t[0] == "'":
        t = t[1:-1]
        return CH[t] if t in CH else ord(t)
    return int(t)
def ranges(cond):
    cond = ' '.join(cond.split())
    if '!=' in cond:
        holes = sorted(ch(x) for x in re.findall(r"lookahead != ('(?:\\.|[^'])'|\d+)", cond))
        assert ' && '.join(f'lookahead != {x}' for x in re.findall(r"lookahead != ('(?:\\.|[^'])'|\d+)", cond)) == cond
        r, lo = [], 0
        for h in holes:
            if h > lo: r.append((lo, h - 1))
            lo = h + 1
        return r + [(lo, 255)]
    r = []
    C = r"('(?:\\.|[^'])'|\d+)"
    for t in cond.split(' || '):
        t = t.strip()
        while t[0] == '(' and t[-1] == ')': t = t[1:-1]
        m = re.fullmatch(rf'lookahead == {C}', t)
        if m: r.append((ch(m.group(1)),) * 2); continue
        m = re.fullmatch(rf'{C} <= lookahead && lookahead <= {C}', t)
        r.append((ch(m.group(1)), ch(m.group(2))))
    assert all(h < 128 for _, h in r)
    return r
lex = {}
for m in re.finditer(r'    case (\d+):\n(.*?)      END_STATE\(\);', src[i:j], re.S):
    body = m.group(2)
    st = {'accept': None, 'eof': None, 'edges': []}
    mm = re.match(r'      ACCEPT_TOKEN\((\w+)\);\n', body)
    if mm:
        st['accept'] = enum[mm.group(1)]
        body = body[mm.end():]
    mm = re.match(r'      if \(eof\) ADVANCE\((\d+)\);\n', body)
    if mm:
        st['eof'] = int(mm.group(1))
        body = body[mm.end():]
    pos = 0
    for mm in re.finditer(r'      if \((.*?)\) (ADVANCE|SKIP)\((\d+)\);?\n', body, re.S):
        assert mm.start() == pos, body
        pos = mm.end()
        st['edges'].append((ranges(mm.group(1)), int(mm.group(3)), mm.group(2) == 'SKIP'))
    assert pos == len(body), body
    lex[int(m.group(1))] = st
assert sorted(lex) == list(range(len(lex)))

def tree(items, lo, hi, ind):
    """balanced decision tree over items[lo..hi)"""
    if hi - lo == 1: return f'.leaf {items[lo]}'
    mid = (lo + hi) // 2
    return f'.node {mid} ({tree(items, lo, mid, ind)})\n{" " * ind}({tree(items, mid, hi, ind)})' if hi - lo > 4 else \
        f'.node {mid} ({tree(items, lo, mid, ind)}) ({tree(items, mid, hi, ind)})'

o = []
w = o.append
w(f'''import Verif.Model.Base
/-!
# Tables of the generated parser

Written by `tools/gen_tables.py` from `/repo/src/flamingo/parser.c`; nothing here is written by hand.  Symbols and states are the
numbers of the C code, see `enum ts_symbol_identifiers` (`parser.c:17-127`).
-/

namespace Bob.Parse

/-- `TSParseAction`, `src/flamingo/tree_sitter/parser.h:59-75`.  No action of this parser has a dynamic precedence. -/
inductive Act where
  | shift (state : Nat)
  /-- `SHIFT_REPEAT`: a shift with `repetition` set -/
  | shiftRepeat (state : Nat)
  | shiftExtra
  | reduce (sym count pid : Nat)
  | recover
  | accept
deriving DecidableEq, Repr

/-- One row of `ts_parse_table` or `ts_small_parse_table` (`parser.c:{lines_of('static const uint16_t ts_parse_table[')}`, `parser.c:{lines_of('static const uint16_t ts_small_parse_table[')}`), with
the actions of `ts_parse_actions` in place of their indices: tokens that have the same actions, then the next states for nonterminals.  The set of tokens with some actions is the
number in which their bits are set. -/
structure Row where
  acts : List (List Act × Nat)
  gotos : List (Nat × Nat)

/-- One state of `ts_lex`: the token of `ACCEPT_TOKEN`, where `if (eof) ADVANCE` leads, and the other jumps in order: ranges of characters,
the next state, and whether it is `SKIP`.  The conditions treat all characters from 128 on (and undecodable bytes) alike, so
they are conditions on bytes, in which such characters are bytes from 128 on. -/
structure LexState where
  accept : Option Nat
  eof : Option Nat
  edges : List (List (Nat × Nat) × Nat × Bool)

/-- Arrays, as decision trees on the index. -/
inductive Arr (α : Type) where
  | leaf (a : α)
  | node (mid : Nat) (l r : Arr α)

def Arr.get {{α : Type}} : Arr α → Nat → α
  | .leaf a, _ => a
  | .node m l r, i => bif Nat.blt i m then l.get i else r.get i

/-- `STATE_COUNT`, `SYMBOL_COUNT`, `TOKEN_COUNT`, `parser.c:7-15`. -/
def stateCount : Nat := {STATES}
def symbolCount : Nat := {SYMBOLS}
def tokenCount : Nat := {TOKENS}
''')
w(f'/-- `ts_symbol_names` (`parser.c:{lines_of("static const char * const ts_symbol_names[]")}`). -/')
w('def symbolNames : List Bytes := [')
w(',\n'.join(f'  b!"{symname[s]}"' for s in range(SYMBOLS)) + ']\n')
w(f'/-- `.visible` and `.named` of `ts_symbol_metadata` (`parser.c:{lines_of("static const TSSymbolMetadata ts_symbol_metadata[]")}`). -/')
w('def symbolMeta : List (Bool × Bool) := [')
w(',\n'.join('  ' + ', '.join('(' + ', '.join('true' if x else 'false' for x in meta[s]) + ')' for s in range(k, min(k + 8, SYMBOLS))) for k in range(0, SYMBOLS, 8)) + ']\n')
w(f'/-- `ts_field_map_slices` and `ts_field_map_entries` (`parser.c:{lines_of("static const TSFieldMapSlice")}`, `parser.c:{lines_of("static const TSFieldMapEntry")}`): for each production id')
w('the fields of its children, by number of the child.  No field of this parser is inherited from a hidden child, except as marked. -/')
w('def fieldMap : List (Nat × List (Bytes × Nat × Bool)) := [')
fm = []
for p in sorted(slices):
    a, n = slices[p]
    fm.append(f'  ({p}, [' + ', '.join(f'(b!"{e[0][6:]}", {e[1]}, {"true" if e[2] else "false"})' for e in entries[a:a + n]) + '])')
w(',\n'.join(fm) + ']\n')
w(f'/-- `ts_lex_modes` (`parser.c:{lines_of("static const TSLexMode ts_lex_modes")}`); `none` is `(TSStateId)(-1)`. -/')
w('def lexModes : Arr (Option Nat) :=\n  ' + tree([('none' if mode[s] is None else f'(some {mode[s]})') for s in range(STATES)], 0, STATES, 2) + '\n')
for s in sorted(lex):
    st = lex[s]
    opt = lambda x: 'none' if x is None else f'(some {x})'
    ed = ', '.join('([' + ', '.join(f'({a}, {b})' for a, b in r) + f'], {t}, {"true" if k else "false"})' for r, t, k in st['edges'])
    w(f'def lex{s} : LexState := ⟨{opt(st["accept"])}, {opt(st["eof"])}, [{ed}]⟩')
w(f'\n/-- The states of `ts_lex` (`parser.c:{lexlines}`). -/')
w('def lexStates : Arr LexState :=\n  ' + tree([f'lex{s}' for s in range(len(lex))], 0, len(lex), 2) + '\n')
for s in range(STATES):
    groups = {}
    for t in range(TOKENS):
        v = table[s].get(t, 0)
        if v: groups.setdefault(tuple(acts[v]), []).append(t)
    g = ', '.join('([' + ', '.join(a) + f'], 0x{sum(1 << t for t in ts):x})' for a, ts in groups.items())
    go = ', '.join(f'({A}, {table[s][A]})' for A in range(TOKENS, SYMBOLS) if table[s].get(A, 0))
    w(f'def row{s} : Row := ⟨[{g}],\n  [{go}]⟩')
w('\n/-- All rows. -/')
w('def rows : Arr Row :=\n  ' + tree([f'row{s}' for s in range(STATES)], 0, STATES, 2) + '\n')
w('end Bob.Parse')
open(out, 'w').write('\n'.join(o) + '\n')
print(len(lex), 'lexer states,', STATES, 'parser states')
