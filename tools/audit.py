#!/usr/bin/env python3
"""Compare the tables of the Lean model with the Rust source.

This reads both texts afresh and shares nothing with `gen.py`, which wrote those tables: a slip of
`gen.py` would show here. It compares the enumerants and the operands they carry, the opcodes, the
fields of the instruction structs, the order operands are read in, the order they are printed in, and
the printed names of enumerants. Exit status 1 and one line per difference if there is any.
"""
import os
import re
import sys

HERE = os.path.dirname(os.path.abspath(__file__))
RUST = '/repo/src/spv/'
LEAN = os.path.join(HERE, '../lean/Verif/Model/')
text = lambda p: open(p).read()
raw, reader = text(RUST + 'raw/mod.rs'), text(RUST + 'raw/reader.rs')
op, types = text(RUST + 'op.rs'), text(RUST + 'types.rs')
bad = 0


def compare(what, rust, lean):
    """Report the keys at which two dictionaries differ."""
    global bad
    diff = [k for k in sorted(set(rust) | set(lean), key=str) if rust.get(k) != lean.get(k)]
    for k in diff:
        print('DIFFERENT', what, k, rust.get(k), lean.get(k))
    bad += len(diff)
    print(f'{what}: {len(rust)} compared')
    if not rust:
        print('NOTHING FOUND for', what)
        bad += 1


words = lambda s: re.findall(r'\w+', s)

# Enumerants: value -> (name, number of operands read)
rust = {}
for m in re.finditer(r'impl MemoryBlockRead for (\w+) \{(.*?)\n\}', raw, re.S):
    arms = re.findall(r'^\s+(\d+) => (?:\w+::(\w+),|\{(.*?)\n            \})', m[2], re.S | re.M)
    for v, name, blk in arms:
        if name:
            rust[m[1], int(v)] = (name, 0)
        else:
            rust[m[1], int(v)] = (re.search(m[1] + r'::(\w+)', blk)[1],
                                  len(re.findall(r'\bread\(|read_word|read_op_id', blk)))
lean = {}
t = text(LEAN + 'ReadTypes.lean') + text(LEAN + 'ReadFlags.lean') + text(LEAN + 'ReadCore.lean')
for m in re.finditer(r'def (\w+)\.table\b.*?:=\n?\s*\[(.*?)\]\n', t, re.S):
    for v, name in re.findall(r'\((\d+), \.(\w+)\)', m[2]):
        lean[m[1], int(v)] = (name, 0)
for m in re.finditer(r'def (\w+)Handlers\b.*?:=\n\s*\[(.*?)\]\n', t, re.S):
    ty = m[1][0].upper() + m[1][1:]
    for v, r, name in re.findall(r'\((\d+), read(\w+) \w+\.(\w+)\)', m[2]):
        lean[ty, int(v)] = (name, 0 if r == 'Unit' else int(r))
compare('enumerants', rust, lean)

# Opcodes: value -> (instruction, implemented)
rust = {}
for v, e in re.findall(r'^        (\d+) => (.*?),\n', reader, re.M):
    w = [x for x in words(e) if x.startswith('Op')]
    if w:
        rust[int(v)] = (w[0], 'Unimplemented' not in e)
lean = {}
for v, e in re.findall(r'\((\d+), (.*?)\)(?:,\n|\])', text(LEAN + 'OpTable.lean'), re.S):
    w = [x for x in words(e) if x.startswith('Op')]
    if w:
        lean[int(v)] = (w[0], '.unimplemented' not in e)
opcodes = rust
compare('opcodes', rust, lean)

# Fields of the instruction structs that the model has
def norm(t):
    t = t.replace('Vec<', 'List<').replace('LitString', 'String').replace('LitBytes', 'List<u32>')
    t = t.replace('ExtInstBox', 'X').replace('u32', 'UInt32')
    return re.sub(r'[<>() ]+', ' ', t).strip()

fields = lambda pat, s: tuple((n, norm(t)) for n, t in re.findall(pat, s, re.M))
unread = text(LEAN + 'OpUnread.lean').replace('«', '').replace('»', '')
lt = text(LEAN + 'Op.lean') + '\n\n' + unread.replace('\n  deriving', '\n\n') + '\n\n'
lean = {m[1]: fields(r'^  (\w+) : (.*)$', m[2])
        for m in re.finditer(r'structure (Op\w+)[^\n]* where\n(.*?)\n\n', lt, re.S)}
rust = {m[1]: fields(r'^    pub (\w+): (.*),$', m[2])
        for m in re.finditer(r'pub struct (Op\w+) \{(.*?)\n\}', op, re.S)}
lean = {k: v for k, v in lean.items() if v}
compare('structs', {k: v for k, v in rust.items() if k in lean}, lean)

# The order operands are read in
rust = {m[1]: words(m[2]) for m in re.finditer(r'^def_op_read!\((\w+);\s*(.*?)\);', reader, re.S | re.M)}
for m in re.finditer(r'^def_op_read_s([12])!\((\w+)\)', reader, re.M):
    rust[m[2]] = ['result_type', 'result_id'] + (['operand'] if m[1] == '1' else ['operand1', 'operand2'])
lean = {}
for m in re.finditer(r'def (\w+)\.read .*?:= do\n(.*?)\n\n', text(LEAN + 'ReadOps.lean') + '\n\n', re.S):
    lean[m[1]] = re.findall(r'let \(block, (\w+)\)', m[2])
    stored = re.findall(r'(\w+) := (\w+)', m[2])
    if any(a != b for a, b in stored):
        print('DIFFERENT field', m[1], stored)
        bad += 1
compare('read orders', rust, lean)
missing = [n for n, ok in opcodes.values() if ok and n not in rust]
print('read by hand-written code:', ', '.join(missing))

# The order operands are printed in
disp = text(LEAN + 'Display.lean') + '\n\n' + unread
lean = {}
for m in re.finditer(r'instance[^\n]*: Display \(?(Op\w+)[^\n]*where\n  fmt (?:op|_) := (.*?)\n\n', disp, re.S):
    name = re.search(r'"(\w+)"', m[2])
    lean[m[1]] = (name and name[1], 'fmtResult op.result_id' in m[2],
                  re.findall(r'formatArg op\.(\w+)', m[2]))
rust = {}
for m in re.finditer(r'^def_op_display!\((\w+);\s*(.*?)\);', op, re.S | re.M):
    w = words(m[2])
    res = re.match(r'result_id\s*=', m[2]) is not None
    rust[m[1]] = (m[1], res, w[1:] if res else w)
for m in re.finditer(r'^def_op_display_s([12])!\((\w+)\)', op, re.M):
    rust[m[2]] = (m[2], True, ['result_type'] + (['operand'] if m[1] == '1' else ['operand1', 'operand2']))
print('printed by hand-written code:', ', '.join(k for k in lean if k not in rust))
compare('print orders', {k: v for k, v in rust.items() if k in lean},
        {k: v for k, v in lean.items() if k in rust})

# The printed names of enumerants without operands
rust = {}
for m in re.finditer(r'^impl Display for (\w+) \{(.*?)\n\}', types, re.S | re.M):
    for name, s in re.findall(m[1] + r'::(\w+) => "?([^",(]*)"?,\n', m[2]):
        rust[m[1], name] = s
lean = {}
for m in re.finditer(r'instance : Display (\w+) where\n  fmt x := match x with\n(.*?)\n\n', disp + '\n\n', re.S):
    for name, s in re.findall(r'\| \.(\w+) => "([^"]*)"\.toList$', m[2], re.M):
        lean[m[1], name] = s
have = {k[0] for k in lean}
print('not printed by any instruction of the model:', ', '.join(sorted({k[0] for k in rust} - have)))
compare('printed names', {k: v for k, v in rust.items() if k[0] in have}, lean)

sys.exit(1 if bad else 0)
