#!/usr/bin/env python3
"""Debug output (`{:?}`) as derived for the types of the Rust source, and that it can be read back.

Writes lean/Verif/Model/Debug{Types,Ops,Modules}.lean and lean/Verif/Proofs/Debug{Types,Ops,Modules}.lean.
The names of structs, fields and variants are taken from the Rust source, the fields of the model from the Lean source.
"""
import re, os, glob
REPO, V = "/repo", "/verif/lean/Verif"
FILES = ["src/spv/types.rs", "src/spv/op.rs", "src/spv/raw/mod.rs", "src/spv/logical/mod.rs", "src/spv/logical/parser/mod.rs",
         "src/spv/logical/parser/parser.rs", "src/spv/logical/control_flow.rs", "src/glsl450/mod.rs", "src/glsl450/op.rs"]

def brace(s, i, a="{", b="}"):
    i = s.index(a, i); d = 0
    for j in range(i, len(s)):
        if s[j] == a: d += 1
        elif s[j] == b:
            d -= 1
            if d == 0: return i, j
    raise ValueError

def split(b):
    """the parts between the commas that are not inside of brackets"""
    out, d, cur = [], 0, ""
    for c in b:
        if c in "(<": d += 1
        if c in ")>": d -= 1
        if c == "," and d == 0: out.append(cur.strip()); cur = ""
        else: cur += c
    if cur.strip(): out.append(cur.strip())
    return out

items = {}
for f in FILES:
    src = open(f"{REPO}/{f}").read()
    ln = lambda p: src.count("\n", 0, p) + 1
    for m in re.finditer(r"#\[derive\(([^)]*)\)\]\n(?:#\[[^\n]*\n)*(?:pub )?(struct|enum) (\w+)(.)", re.sub(r" \{", "{", src)):
        if "Debug" not in m[1]: continue
        kind, name = m[2], m[3]
        p = re.search(rf"(?:pub )?{kind} {name}\b", src).start()
        d = src.rindex("#[derive", 0, p)
        rest = re.sub(r"//[^\n]*", lambda q: " " * len(q[0]), src[p:])
        head = re.match(rf"(?:pub )?{kind} {name}\s*(.)", rest)[1]
        if head == ";":
            it, e = ("tuple", []), rest.index(";")
        elif head == "(":
            a, e = brace(rest, 0, "(", ")"); it = ("tuple", [re.sub(r"^pub ", "", x) for x in split(rest[a+1:e])])
        else:
            a, e = brace(rest, 0)
            parts = split(rest[a+1:e])
            if kind == "struct":
                it = ("struct", [tuple(re.match(r"(?:pub )?(\w+): (.*)$", x, re.S).groups()) for x in parts])
            else:
                vs = []
                for x in parts:
                    q = re.match(r"(\w+)\s*(?:\((.*)\))?$", x, re.S)
                    assert q, (f, name, x)
                    vs.append((q[1], split(q[2]) if q[2] else []))
                it = ("enum", vs)
        assert name not in items, name
        items[name] = (it, f"{f}:{ln(d)}-{ln(p + e)}")

# the fields in the model
lean = {}
for p in glob.glob(f"{V}/Model/*.lean"):
    s = open(p).read()
    ns = "Glsl." if p.endswith("/Glsl.lean") else ""
    for n, x, body in re.findall(r"^structure (\w+)( \(X : Type\))? where\n((?:  [\w«»]+ : .*\n)*)", s, re.M):
        lean.setdefault(ns + n, ("structure", bool(x), re.findall(r"^  ([\w«»]+) :", body, re.M)))
    for n, x, body in re.findall(r"^inductive (\w+)( \(X : Type\))? where\n((?:  \|.*\n)*)", s, re.M):
        vs = []
        for v, a in re.findall(r"^  \| (\w+)(.*)$", body, re.M):
            args = [y for g in re.findall(r"\(([^:()]*) :", a) for y in g.split()]
            vs.append((v, args))
        lean.setdefault(ns + n, ("inductive", bool(x), vs))

def names(k): return [f"a{i}" for i in range(k)], [f"b{i}" for i in range(k)]
model, proof = {}, {}
def gen(name, ns=""):
    (kind, parts), cite = items[name]
    full = ns + name
    lk, X, lparts = lean[full]
    T = f"({full} X)" if X else full
    bind = "{X : Type} [Debug X] " if X else ""
    pbind = "{X : Type} [Debug X] [Law X] " if X else ""
    o, q = [], []
    if kind in ("struct", "tuple"):
        assert lk == "structure" and len(lparts) == len(parts), (full, lparts, parts)
        xs, ys = names(len(parts))
        boxed = [(t if kind == "tuple" else t[1]) == "ExtInstBox" for t in parts]
        vals = [f"Debug.debug shown (ExtInstBox.mk {x})" if bx else f"Debug.debug shown {x}" for x, bx in zip(xs, boxed)]
        if kind == "struct":
            body = f"debugStruct \"{name}\" [" + ", ".join(f"(\"{f}\", {v})" for (f, _), v in zip(parts, vals)) + "]"
        else:
            body = f"debugTuple \"{name}\" [" + ", ".join(vals) + "]"
        pat = "⟨" + ", ".join(xs) + "⟩" if xs else "_"
        sh = "shown" if xs else "_"
        o.append(f"/-- {cite} -/\ninstance {bind}: Debug {T} :=\n  ⟨fun {sh} {pat} =>\n    {body}⟩\n")
        q.append(f"instance {pbind}: Law {T} where")
        if not parts:
            q.append(f"  law _ _ _ _ _ _ _ h := ⟨rfl, List.append_cancel_left h⟩")
            q.append(f"  start _ _ := {'struct' if kind == 'struct' else 'tuple'}_start (n := \"{name}\") (by decide) _")
            q.append(f"  line _ _ := tuple_line (n := \"{name}\") (by decide) none_line\n")
        else:
            q.append("  law _ x y _ _ _ _ h := by")
            q.append(f"    obtain ⟨{', '.join(xs)}⟩ := x")
            q.append(f"    obtain ⟨{', '.join(ys)}⟩ := y")
            for i in range(len(parts)):
                r = "⟨⟩" if boxed[i] else "rfl"
                if kind == "struct": st = "struct_first h" if i == 0 else f"struct_next h{i}"
                else: st = "tuple_first (tuple_same h)" if i == 0 else f"tuple_next (by decide) h{i}"
                q.append(f"    obtain ⟨{r}, h{i+1}⟩ := {st}")
            q.append(f"    exact ⟨rfl, {kind}_last h{len(parts)}⟩")
            q.append(f"  start _ _ := {kind}_start (n := \"{name}\") (by decide) _")
            t = "none_named" if kind == "struct" else "none_line"
            for p_ in reversed(parts): t = f"(cons_named (by decide) {t})" if kind == "struct" else f"(cons_line {t})"
            q.append(f"  line _ _ := {kind}_line (n := \"{name}\") (by decide) {t}\n")
    else:
        assert lk == "inductive" and [v for v, _ in parts] == [v for v, _ in lparts], full
        assert [len(a) for _, a in parts] == [len(a) for _, a in lparts], (full, parts, lparts)
        nb = "{X : Type} " if X else ""
        o.append(f"/-- {cite}: the names of the variants -/\ndef {full}.debugName {nb}: {T.strip('()')} → String")
        for v, a in parts: o.append(f"  | .{v}{' _' * len(a)} => \"{v}\"")
        if all(not a for _, a in parts):
            o.append(f"\n/-- {cite} -/\ninstance : Debug {T} := ⟨fun _ x => debugTuple x.debugName []⟩\n")
        else:
          o.append(f"\n/-- {cite}: the fields of the variants -/\ndef {full}.debugFields {bind}(shown : Char → Bool) : {T.strip('()')} → List Text")
          for v, a in parts:
            xs, _ = names(len(a))
            o.append(f"  | .{v}{''.join(' ' + x for x in xs)} => [" + ", ".join(f"Debug.debug shown {x}" for x in xs) + "]")
          o.append(f"\n/-- {cite} -/\ninstance {bind}: Debug {T} := ⟨fun shown x => debugTuple x.debugName (x.debugFields shown)⟩\n")
        q.append(f"/-- The names of the variants of `{full}` -/\ndef {full}.debugNames : List String :=\n  [" + ",\n    ".join(f"\"{v}\"" for v, _ in parts) + "]\n")
        q.append(f"theorem {full}.debugNames_get {nb}(x : {T.strip('()')}) : {full}.debugNames[x.ctorIdx]? = some x.debugName := by\n  cases x <;> rfl\n")
        q.append(f"theorem {full}.debugNames_nodup : {full}.debugNames.Nodup := by decide +kernel\n")
        q.append(f"theorem {full}.debugNames_ident : ∀ n ∈ {full}.debugNames, ident n = true := by decide +kernel\n")
        q.append(f"theorem {full}.debugName_ident {nb}(x : {T.strip('()')}) : ident x.debugName = true :=\n  {full}.debugNames_ident _ (List.mem_of_getElem? (debugNames_get x))\n")
        q.append(f"instance {pbind}: Law {T} where")
        q.append("  law _ x y _ _ hs ht h := by")
        q.append("    obtain ⟨hn, hf⟩ := tuple_name x.debugName_ident y.debugName_ident hs ht h")
        q.append(f"    have hi : y.ctorIdx = x.ctorIdx :=\n      same_variant {full}.debugNames_nodup ({full}.debugNames_get y) (hn ▸ {full}.debugNames_get x)")
        if all(not a for _, a in parts):
            q.append(f"    exact ⟨({full}.ofNat_ctorIdx x).symm.trans ((congrArg {full}.ofNat hi.symm).trans ({full}.ofNat_ctorIdx y)), hf⟩")
            q.append("  start _ x := tuple_start x.debugName_ident _")
            q.append("  line _ x := tuple_line x.debugName_ident none_line\n")
            return "\n".join(o), "\n".join(q)
        q.append("    clear h hn\n    revert hf")
        q.append("    cases x with")
        for v, a in parts:
            xs, ys = names(len(a))
            q.append(f"    | {v}{''.join(' ' + x for x in xs)} =>")
            if not a:
                q.append(f"      exact {full}.{v}.elim y hi fun hf => ⟨rfl, hf⟩")
            else:
                q.append(f"      refine {full}.{v}.elim y hi fun {' '.join(ys)} hf => ?_")
                q.append("      obtain ⟨rfl, h1⟩ := tuple_first hf")
                for i in range(1, len(a)): q.append(f"      obtain ⟨rfl, h{i+1}⟩ := tuple_next (by decide) h{i}")
                q.append(f"      exact ⟨rfl, tuple_last h{len(a)}⟩")
        q.append("  start _ x := tuple_start x.debugName_ident _")
        q.append("  line _ x := by\n    refine tuple_line x.debugName_ident ?_\n    cases x with")
        for v, a in parts:
            t = "none_line"
            for _ in a: t = f"(cons_line {t})"
            q.append(f"    | {v}{' _' * len(a)} => exact {t}")
        q.append("")
    return "\n".join(o), "\n".join(q)

done = set()
def emit(fname, mimports, pimports, ns_names, pre_m="", pre_p=""):
    hm = "".join(f"import {i}\n" for i in mimports) + "/-! Generated by `tools/gen_debug.py`: derived debug output; citations are to `/repo`. -/\n\nnamespace Magma\n\n" + pre_m
    hp = "".join(f"import {i}\n" for i in pimports) + "/-! Generated by `tools/gen_debug.py`: derived debug output can be read back. -/\n\nnamespace Magma\nopen Dbg\n\n" + pre_p
    for ns, n in ns_names:
        a, b = gen(n, ns); hm += a + "\n"; hp += b + "\n"; done.add(n)
    open(f"{V}/Model/{fname}.lean", "w").write(hm.rstrip() + "\n\nend Magma\n")
    open(f"{V}/Proofs/{fname}.lean", "w").write(hp.rstrip() + "\n\nend Magma\n")

T = re.findall(r"^(?:structure|inductive) (\w+)", open(f"{V}/Model/Types.lean").read(), re.M)
O = re.findall(r"^structure (\w+)", open(f"{V}/Model/Op.lean").read(), re.M)
G = re.findall(r"^inductive (\w+)", open(f"{V}/Model/Group.lean").read(), re.M)
emit("DebugTypes", ["Verif.Model.Debug"], ["Verif.Model.DebugTypes", "Verif.Proofs.Debug"],
     [("", t) for t in T] + [("", "ReadError")])
emit("DebugOps", ["Verif.Model.DebugTypes"], ["Verif.Model.DebugOps", "Verif.Proofs.DebugTypes"],
     [("", n) for n in O if n != "RawModule"] + [("", "Core"), ("", "RawModule")],
     "/-- src/spv/mod.rs:54-55. In the rest of the model the box is left out. -/\nstructure ExtInstBox (X : Type) where\n  inst : X\n\n"
     "/-- src/spv/mod.rs:54-55 -/\ninstance {X : Type} [Debug X] : Debug (ExtInstBox X) :=\n  ⟨fun shown ⟨x⟩ => debugTuple \"ExtInstBox\" [Debug.debug shown x]⟩\n\n",
     "instance {X : Type} [Debug X] [Law X] : Law (ExtInstBox X) where\n  law _ x y _ _ _ _ h := by\n    obtain ⟨a⟩ := x\n    obtain ⟨b⟩ := y\n"
     "    obtain ⟨rfl, h1⟩ := tuple_first (tuple_same h)\n    exact ⟨rfl, tuple_last h1⟩\n  start _ _ := tuple_start (n := \"ExtInstBox\") (by decide) _\n"
     "  line _ _ := tuple_line (n := \"ExtInstBox\") (by decide) (cons_line none_line)\n\n")
emit("DebugModules", ["Verif.Model.DebugOps", "Verif.Model.Parser", "Verif.Model.ControlFlow"], ["Verif.Model.DebugModules", "Verif.Proofs.DebugOps"],
     [("Glsl.", "Sin"), ("Glsl.", "Cos"), ("Glsl.", "Inst")] + [("", n) for n in G] +
     [("", n) for n in ["FunctionDeclaration", "BasicBlock", "FunctionDefinition", "LogicalModule", "ValidationError", "BlockId",
                        "ControlType", "ControlFlowError", "Continue", "Converge"]])
print("not generated:", sorted(set(items) - done))
