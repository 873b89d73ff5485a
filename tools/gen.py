#!/usr/bin/env python3
"""Extract the mechanical parts of the Rust source into Lean text.

Usage: python3 tools/gen.py [repo] [out]     (defaults /repo, /verif/lean/Verif/Model)

Generates Types.lean, Op.lean, ReadTypes.lean, ReadOps.lean, OpTable.lean, Display.lean and
Group.lean.  The output is committed; this script is only a transcription aid.
"""
import re, sys, os
REPO = sys.argv[1] if len(sys.argv) > 1 else "/repo"
OUT = sys.argv[2] if len(sys.argv) > 2 else "/verif/lean/Verif/Model"

def load(p):
    s = open(os.path.join(REPO, p)).read()
    return s
def line(s, pos): return s.count("\n", 0, pos) + 1
def span(s, a, b):
    la, lb = line(s, a), line(s, b)
    return f"{la}" if la == lb else f"{la}-{lb}"

TYPES, OPS, RAW, READER = "src/spv/types.rs", "src/spv/op.rs", "src/spv/raw/mod.rs", "src/spv/raw/reader.rs"
LOG, GRP = "src/spv/logical/mod.rs", "src/spv/logical/parser/mod.rs"
types, ops, raw, reader, logm, grp = map(load, (TYPES, OPS, RAW, READER, LOG, GRP))
HDR = "/-! Generated by `tools/gen.py` from the Rust source; citations are to `/repo`. -/\n"

def brace(s, i):
    """index just after the brace group opening at or after i"""
    i = s.index("{", i); d = 0
    for j in range(i, len(s)):
        if s[j] == "{": d += 1
        elif s[j] == "}":
            d -= 1
            if d == 0: return j + 1
    raise ValueError

KW = {"variable"}
def nm(x): return f"«{x}»" if x in KW else x
def ty(t):
    t = t.strip()
    m = re.match(r"(Vec|Option)<(.*)>$", t)
    if m: return {"Vec": "List", "Option": "Option"}[m[1]] + " " + (lambda u: f"({u})" if " " in u else u)(ty(m[2]))
    return {"LitString": "String", "LitBytes": "List UInt32", "u32": "UInt32", "u16": "UInt16", "u8": "UInt8",
            "bool": "Bool", "ExtInstBox": "X", "usize": "Nat"}.get(t, t)

def strip_comments(b): return re.sub(r"//[^\n]*", "", b)

structs, enums = {}, {}
def scan(src, path):
    for m in re.finditer(r"pub struct (\w+) \{", src):
        e = brace(src, m.start())
        body = strip_comments(src[src.index("{", m.start())+1:e-1])
        fs = [(a, b) for a, b in re.findall(r"(?:pub )?(\w+): ([^,\n]+),?", body)]
        structs[m[1]] = dict(kind="rec", fields=fs, cite=f"{path}:{span(src, m.start(), e)}")
    for m in re.finditer(r"pub struct (\w+);", src):
        structs[m[1]] = dict(kind="unit", fields=[], cite=f"{path}:{line(src, m.start())}")
    for m in re.finditer(r"pub struct (\w+)\(([^)]*)\);", src):
        structs[m[1]] = dict(kind="tuple", fields=[re.sub(r"\s*pub ", "", x).strip() for x in m[2].split(",")],
                             cite=f"{path}:{span(src, m.start(), m.end())}")
    for m in re.finditer(r"pub enum (\w+) \{", src):
        e = brace(src, m.start())
        body = strip_comments(src[src.index("{", m.start())+1:e-1])
        vs = [(a, [x.strip() for x in b.split(",")] if b else []) for a, b in re.findall(r"(\w+)(?:\(([^)]*)\))?,", body)]
        enums[m[1]] = dict(vars=vs, cite=f"{path}:{span(src, m.start(), e)}")
scan(types, TYPES); scan(ops, OPS)
# Core
m = re.search(r"pub enum Core \{", raw); e = brace(raw, m.start())
core = re.findall(r"(\w+)\((\w+)\),", raw[m.start():e]); core_cite = f"{RAW}:{span(raw, m.start(), e)}"
assert all(a == b for a, b in core); core = [a for a, _ in core]

NEED = ["OpId", "ResultId", "Version", "Tool", "Generator", "SourceLanguage", "SourceVersion", "BuiltIn", "FunctionParameterAttribute",
        "FpRoundingMode", "FpFastMathMode", "LinkageType", "Decoration", "MemberIndex", "AddressingModel", "MemoryModel",
        "ExecutionModel", "ExecutionMode", "Capability", "Signedness", "StorageClass", "Dim", "DepthStatus", "Arrayed", "MS",
        "SampledStatus", "ImageFormat", "AccessQualifier", "MemoryAccess", "FunctionControl", "LoopControl", "SelectionControl",
        "PhiArg", "BranchWeights"]

def emit_struct(n, d):
    o = [f"/-- {d['cite']} -/"]
    p = " (X : Type)" if any(t == "ExtInstBox" for _, t in (d["fields"] if d["kind"] == "rec" else [])) else ""
    o.append(f"structure {n}{p} where")
    if d["kind"] == "rec":
        for f, t in d["fields"]: o.append(f"  {nm(f)} : {ty(t)}")
    elif d["kind"] == "tuple":
        names = ["val"] if len(d["fields"]) == 1 else [f"f{i}" for i in range(len(d["fields"]))]
        for f, t in zip(names, d["fields"]): o.append(f"  {f} : {ty(t)}")
    o.append("  deriving DecidableEq, Repr\n")
    return "\n".join(o)
def emit_enum(n, d):
    o = [f"/-- {d['cite']} -/", f"inductive {n} where"]
    for v, a in d["vars"]:
        o.append(f"  | {v}" + "".join(f" (a{i} : {ty(t)})" for i, t in enumerate(a)))
    o.append("  deriving DecidableEq, Repr\n")
    return "\n".join(o)

out = [HDR, "namespace Magma\n"]
for n in NEED:
    out.append(emit_struct(n, structs[n]) if n in structs else emit_enum(n, enums[n]))
out.append("end Magma\n")
open(f"{OUT}/Types.lean", "w").write("\n".join(out))

# ---- ops
out = ["import Verif.Model.Types", HDR, "namespace Magma\n"]
for n in core: out.append(emit_struct(n, structs[n]))
out.append(f"/-- {core_cite}; `X` is the type of boxed extended instructions (`ExtInstBox`) -/")
out.append("inductive Core (X : Type) where")
for n in core: out.append(f"  | {n} (op : {n}{' X' if n == 'OpExtInst' else ''})")
out.append("  deriving DecidableEq\n")
m = re.search(r"pub struct RawModule \{", raw); e = brace(raw, m.start())
out.append(f"/-- {RAW}:{span(raw, m.start(), e)} -/\nstructure RawModule (X : Type) where\n  version : Version\n  generator : Generator\n  bound : UInt32\n  instructions : List (Core X)\n  deriving DecidableEq\n")
out.append("end Magma\n")
open(f"{OUT}/Op.lean", "w").write("\n".join(out))

# ---- simple enum readers
out = ["import Verif.Model.ReadFlags", HDR, "namespace Magma\n"]
impls = {}
for m in re.finditer(r"impl MemoryBlockRead for (\w+) \{", raw):
    e = brace(raw, m.start()); impls[m[1]] = (raw[m.start():e], f"{RAW}:{span(raw, m.start(), e)}", line(raw, m.start()), m.start())
simple = ["AddressingModel", "MemoryModel", "ExecutionModel", "Capability", "Signedness", "Dim", "DepthStatus", "Arrayed", "MS",
          "SampledStatus", "ImageFormat", "AccessQualifier", "StorageClass", "BuiltIn", "FunctionParameterAttribute",
          "FpRoundingMode", "LinkageType"]
for n in simple:
    body, cite, _, _ = impls[n]
    arms = re.findall(rf"(\d+) => {n}::(\w+),", body)
    err = re.search(r"(\w+) => return Err\(ReadError::(\w+)\((\w+)\)\)", body); assert err[1] == err[3]
    assert len(re.findall("=>", body)) == len(arms) + 1, n
    out.append(f"/-- {cite}: the literal arms of the `match`, in order -/")
    out.append(f"def {n}.table : List (UInt32 × {n}) :=\n  [" + ",\n   ".join(f"({a}, .{v})" for a, v in arms) + "]\n")
    out.append(f"/-- {cite} -/\ninstance : MemoryBlockRead {n} where\n  read block := readEnum {n}.table ReadError.{err[2]} block\n")
# handler tables
for n in ["ExecutionMode", "Decoration"]:
    body, cite, _, st = impls[n]
    err = re.search(r"(\w+) => return Err\(ReadError::(\w+)\((\w+)\)\)", body); assert err[1] == err[3]
    arms = []
    inner = body[body.index("match word {"):]
    cnt = 0
    for m in re.finditer(r"(\d+) => (?:" + n + r"::(\w+),|\{(.*?)\n            \})", inner, re.S):
        cnt += 1
        ln = line(raw, st) + body[:body.index("match word {")].count("\n") + inner[:m.start()].count("\n")
        if m[2]:
            arms.append((m[1], f"readUnit {n}.{m[2]}", ln))
        else:
            reads = re.findall(r"let \(block, (\w+)\) = try!\(", m[3])
            ret = re.search(n + r"::(\w+)\(([^)]*)\)", m[3])
            assert [x.strip() for x in ret[2].split(",")] == reads, (n, m[1])
            arms.append((m[1], f"read{len(reads)} {n}.{ret[1]}", ln))
    assert len(arms) == len(enums[n]["vars"]), n
    out.append(f"/-- {cite}: the literal arms of the `match`, in order -/")
    out.append(f"def {n[0].lower() + n[1:]}Handlers : List (UInt32 × (Block → R (Block × {n}))) :=\n  [" + ",\n   ".join(f"({a}, {v})" for a, v, _ in arms) + "]\n")
    out.append(f"/-- {cite} -/\ninstance : MemoryBlockRead {n} where\n  read block := readHandler {n[0].lower() + n[1:]}Handlers ReadError.{err[2]} block\n")
n = "SourceLanguage"; body, cite, _, _ = impls[n]
arms = re.findall(rf"(\d+) => {n}::(\w+),", body)
out.append(f"/-- {cite}: the literal arms of the `match`, in order -/")
out.append(f"def {n}.table : List (UInt32 × {n}) :=\n  [" + ",\n   ".join(f"({a}, .{v})" for a, v in arms) + "]\n")
assert "id => SourceLanguage::Other(id)," in body and len(re.findall("=>", body)) == len(arms) + 1
out.append(f"/-- {cite} -/\ninstance : MemoryBlockRead {n} where\n  read block := do\n    let (block, word) ← block.readWord\n    match {n}.table.lookup word with\n    | some lang => return (block, lang)\n    | none => return (block, .Other word)\n")
out.append("end Magma\n")
open(f"{OUT}/ReadTypes.lean", "w").write("\n".join(out))

# ---- op readers
out = ["import Verif.Model.ReadTypes", "import Verif.Model.Op", HDR, "namespace Magma\n"]
reads = {}
for m in re.finditer(r"^def_op_read!\((\w+);(.*?)\);", reader, re.S | re.M):
    reads[m[1]] = ([x.strip() for x in m[2].split("|") if x.strip()], f"{READER}:{span(reader, m.start(), m.end())} (macro 440-467)")
for m in re.finditer(r"^def_op_read_s1!\((\w+)\);", reader, re.M):
    reads[m[1]] = (["result_type", "result_id", "operand"], f"{READER}:{line(reader, m.start())} (macros 440-473)")
for m in re.finditer(r"^def_op_read_s2!\((\w+)\);", reader, re.M):
    reads[m[1]] = (["result_type", "result_id", "operand1", "operand2"], f"{READER}:{line(reader, m.start())} (macros 440-479)")
for n, (fs, cite) in reads.items():
    assert sorted(fs) == sorted(f for f, _ in structs[n]["fields"]), n
    out.append(f"/-- {cite} -/\ndef {n}.read (block : Block) : R (Block × {n}) := do")
    for f in fs: out.append(f"  let (block, {nm(f)}) ← MemoryBlockRead.read block")
    if fs: out.append("  return (block, { " + ", ".join(f"{nm(f)} := {nm(f)}" for f in fs) + " })\n")
    else: out.append("  return (block, {})\n")
out.append("end Magma\n")
open(f"{OUT}/ReadOps.lean", "w").write("\n".join(out))

# ---- opcode table
m = re.search(r"let read_fn = match id \{", reader); e = brace(reader, m.start())
seg = reader[m.start():e]
arms = []
for a in re.finditer(r"^\s*(\d+) => (?:(\w+)::read_core|return Err\(ReadError::UnimplementedOp\(\"(\w+)\"\)\)),", seg, re.M):
    arms.append((a[1], a[2], a[3]))
assert len(arms) + 1 == len(re.findall("=>", seg))
out = ["import Verif.Model.ReadCore", HDR, "namespace Magma\n"]
out.append(f"/-- {READER}:{span(reader, m.start(), e)}: the literal arms of the `match` on the opcode, in order -/")
out.append("def opTable (X : Type) : List (Nat × OpEntry X) :=\n  [" + ",\n   ".join(
    f"({a}, .read {b}.readCore)" if b in ("OpExtInstImport", "OpExtInst") else
    f"({a}, .read (liftOp {b}.read .{b}))" if b else f"({a}, .unimplemented \"{c}\")" for a, b, c in arms) + "]\n")
out.append("end Magma\n")
open(f"{OUT}/OpTable.lean", "w").write("\n".join(out))

# ---- display
out = ["import Verif.Model.Fmt", HDR, "namespace Magma\n"]
disp = {}
for m in re.finditer(r"impl Display for (\w+) \{", types):
    e = brace(types, m.start()); disp[m[1]] = (types[m.start():e], f"{TYPES}:{span(types, m.start(), e)}")
for n in NEED:
    if n not in disp or n in ("OpId",): continue
    body, cite = disp[n]
    if n in enums:
        lines = []
        for v, args in enums[n]["vars"]:
            a = re.search(rf"{n}::{v}(?:\((.*?)\))? => (?:\{{\s*)?(?:return write!\(f, \"([^\"]*)\", ([^)]*)\)|\"([^\"]*)\"|(\d+))", body)
            if a[4] is not None or a[5] is not None:
                assert not args
                lit = a[4] if a[4] is not None else a[5]
                lines.append(f"    | .{v} => \"{lit}\".toList")
            else:
                names = [x.replace("ref", "").strip() for x in a[1].split(",")]
                assert [x.strip() for x in a[3].split(",")] == names and len(names) == len(args)
                parts = a[2].split("{}")
                t = []
                for i, p_ in enumerate(parts):
                    if p_: t.append(f"\"{p_}\".toList")
                    if i < len(names): t.append(f"Display.fmt {names[i]}")
                lines.append(f"    | .{v} {' '.join(names)} => " + " ++ ".join(t))
        out.append(f"/-- {cite} -/\ninstance : Display {n} where\n  fmt x := match x with\n" + "\n".join(lines) + "\n")
    elif "parts" in body:
        ps = []
        for a in re.finditer(r"if (?:let Some\((\w+)\) = )?self\.(\w+) \{\s*parts\.push\((.*?)\);\s*\}", body, re.S):
            if a[1]:
                fm = re.match(r"format!\(\"(.*)\{\}(.*)\", (\w+)\)", a[3]); assert fm[3] == a[1]
                ps.append(f"(match x.{a[2]} with | some {a[1]} => [\"{fm[1]}\".toList ++ Display.fmt {a[1]} ++ \"{fm[2]}\".toList] | none => [])")
            else:
                lit = re.match(r"\"(\w+)\"", a[3])[1]
                ps.append(f"(if x.{a[2]} then [\"{lit}\".toList] else [])")
        assert len(ps) == len(structs[n]["fields"])
        out.append(f"/-- {cite} -/\ninstance : Display {n} where\n  fmt x := joinParts (" + " ++\n    ".join(ps) + ")\n")
    else:
        w = re.search(r"write!\(f, \"([^\"]*)\", ([^)]*)\)", body)
        fs = [x.strip() for x in w[2].split(",")]
        t = []
        for i, p_ in enumerate(w[1].split("{}")):
            if p_: t.append(f"\"{p_}\".toList")
            if i < len(fs): t.append("Display.fmt " + fs[i].replace("self.0", "x.val").replace("self.variable", "x.«variable»").replace("self.", "x."))
        out.append(f"/-- {cite} -/\ninstance : Display {n} where\n  fmt x := " + " ++ ".join(t) + "\n")
dops = {}
for m in re.finditer(r"^def_op_display!\((\w+);(.*?)\);", ops, re.S | re.M):
    b = m[2].strip(); res = False
    if b.startswith("result_id ="): res = True; b = b[len("result_id ="):]
    dops[m[1]] = (res, [x.strip() for x in b.split("|") if x.strip()], f"{OPS}:{span(ops, m.start(), m.end())} (macro src/spv/dis.rs:92-119)")
for m in re.finditer(r"^def_op_display_s1!\((\w+)\);", ops, re.M):
    dops[m[1]] = (True, ["result_type", "operand"], f"{OPS}:{line(ops, m.start())} (macros src/spv/dis.rs:92-126)")
for m in re.finditer(r"^def_op_display_s2!\((\w+)\);", ops, re.M):
    dops[m[1]] = (True, ["result_type", "operand1", "operand2"], f"{OPS}:{line(ops, m.start())} (macros src/spv/dis.rs:92-133)")
for n in core:
    res, fs, cite = dops[n]
    X = " [Display X]" if n == "OpExtInst" else ""
    bind = "{X : Type}" + X + " " if X else ""
    tyn = f"({n} X)" if X else n
    if X: out.append(f"/-- {cite} -/\ninstance {bind}: Display {tyn} where")
    else: out.append(f"/-- {cite} -/\ninstance : Display {tyn} where")
    a = "fmtResult op.result_id" if res else "fmtNoResult"
    arg = "op" if (res or fs) else "_"
    s = f"  fmt {arg} := {a} ++ \"{n}\".toList"
    for f in fs: s += f" ++ FormatArg.formatArg op.{nm(f)}"
    out.append(s + "\n")
m = re.search(r"impl Display for Core \{", raw); e = brace(raw, m.start())
seg = raw[m.start():e]; darms = re.findall(r"Core::(\w+)\(ref op\) => Display::fmt\(op, f\)", seg)
if not darms: darms = re.findall(r"(\w+)\(ref op\) => ", seg)
assert sorted(darms) == sorted(core), (len(darms), seg[:300])
out.append(f"/-- {RAW}:{span(raw, m.start(), e)} -/\ndef Core.fmt {{X : Type}} [Display X] (c : Core X) : Text :=\n  match c with")
for n in core: out.append(f"  | .{n} op => Display.fmt op")
out.append("\ninstance {X : Type} [Display X] : Display (Core X) where\n  fmt := Core.fmt\n")
out.append("end Magma\n")
open(f"{OUT}/Display.lean", "w").write("\n".join(out))

# ---- groups
out = ["import Verif.Model.Op", HDR, "namespace Magma\n"]
for n in ["GroupDebug", "GroupAnnotation", "GroupType", "GroupConstant", "GroupGlobal", "GroupCode", "GroupMerge", "GroupBranch"]:
    m = re.search(rf"pub enum {n} \{{", logm); e = brace(logm, m.start())
    vs = re.findall(r"(\w+)\((\w+)\),", strip_comments(logm[m.start():e]))
    X = n == "GroupCode"
    out.append(f"/-- {LOG}:{span(logm, m.start(), e)} -/\ninductive {n}{' (X : Type)' if X else ''} where")
    for v, t in vs: out.append(f"  | {v} (op : {t}{' X' if t == 'OpExtInst' else ''})")
    out.append("  deriving DecidableEq\n")
m = re.search(r"enum OpByBlock \{", grp); e = brace(grp, m.start())
vs = re.findall(r"(\w+)\((\w+)\),", grp[m.start():e])
out.append(f"/-- {GRP}:{span(grp, m.start(), e)} -/\ninductive OpByBlock (X : Type) where")
for v, t in vs: out.append(f"  | {v} (op : {t}{' X' if t in ('OpExtInst', 'GroupCode') else ''})")
out.append("  deriving DecidableEq\n")
m = re.search(r"impl From<OpVariable> for OpByBlock \{", grp); e = brace(grp, m.start())
out.append(f"/-- {GRP}:{span(grp, m.start(), e)} -/\ndef OpByBlock.ofVariable {{X : Type}} (op : OpVariable) : OpByBlock X :=\n  match op.storage_class with\n  | .Function => .GroupCode (.OpVariable op)\n  | _ => .GroupGlobal (.OpVariable op)\n")
m = re.search(r"impl From<Core> for OpByBlock \{", grp); e = brace(grp, m.start())
seg = grp[m.start():e]
out.append(f"/-- {GRP}:{span(grp, m.start(), e)} (the group conversions at 38-84 inlined) -/\ndef OpByBlock.ofCore {{X : Type}} (inst : Core X) : OpByBlock X :=\n  match inst with")
cnt = 0
for a in re.finditer(r"(\w+)\(op\) => (?:(\w+)::(\w+)\(op\)(\.into\(\))?|op\.into\(\)),", seg):
    cnt += 1
    v, g, w = a[1], a[2], a[3]
    if g is None: r = ".ofVariable op"
    elif g == "OpByBlock": r = f".{w} op"
    elif g in ("GroupType", "GroupConstant"): r = f".GroupGlobal (.{g} (.{w} op))"
    else: r = f".{g} (.{w} op)"
    out.append(f"  | .{v} op => {r}")
assert cnt == len(core), cnt
out.append("\nend Magma\n")
open(f"{OUT}/Group.lean", "w").write("\n".join(out))
