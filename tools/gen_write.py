"""Writes lean/Verif/Model/Write.lean and lean/Verif/Proofs/WritingOps.lean from lean/Verif/Model/Display.lean (itself made by gen.py from the Rust text):
the same `Display` implementations, as calls of a writer. Run in /verif."""
import re
src = open("lean/Verif/Model/Display.lean").read()
out = ["import Verif.Model.Formatter", "import Verif.Model.Module",
       "/-! Generated by `tools/gen_write.py`: the printers of `Display`, as calls of a writer; citations are to `/repo`. -/",
       "", "namespace Magma", "variable {σ : Type}", ""]

prf = ["import Verif.Proofs.Writing",
       "/-! Generated by `tools/gen_write.py`: each printer that writes piece by piece makes the text of `Display`. -/",
       "", "namespace Magma", "open Spec", "variable {σ : Type}", ""]

def chain(ps):
    """The proof for a `write!` with these parts"""
    qs = [".lit _ _" if p.startswith("lit") else ".shown _ _" for p in ps]
    r = f"({qs[-1]})"
    for q in reversed(qs[:-1]): r = f"(.bind ({q}) {r})"
    return r

def terms(e):
    """The arguments of one `write!`, from the text that it makes"""
    r = []
    for t in [x.strip() for x in e.split(" ++ ")]:
        m = re.fullmatch(r'"(.*)"\.toList', t)
        if m: r.append(f'lit "{m[1]}"')
        else:
            m = re.fullmatch(r"Display\.fmt (\S+)", t)
            r.append(f"arg (fmtTo {m[1]})")
    return r

for m in re.finditer(r"(/-- [^\n]* -/)\ninstance (\{X : Type\} \[Display X\] )?: Display (\(OpExtInst X\)|\w+) where\n  fmt (\w+) := (.*?)\n\n", src, re.S):
    cite, x, n, v, body = m.groups()
    if n.startswith("Core") : continue
    bind = "{X : Type} [DisplayTo σ X] " if x else ""
    head = f"{cite}\ninstance {bind}: DisplayTo σ {n} where\n  fmtTo {v} :="
    if n.startswith("Op") or n.startswith("(Op"):
        ts = [t.strip() for t in body.split(" ++ ")]
        first = "arg putNoResult" if ts[0] == "fmtNoResult" else "arg (putResult op.result_id)"
        name = re.fullmatch(r'"(\w+)"\.toList', ts[1])[1]
        ps = [first, f'arg (pad "{name}".toList)'] + [re.fullmatch(r"FormatArg\.formatArg (\S+)", t) [1] for t in ts[2:]]
        ps = ps[:2] + ["formatArgTo " + p for p in ps[2:]] + ["pure ()"]
        out.append(head + " do\n" + "\n".join("    " + p for p in ps) + "\n")
        qs = ["(.noResult _)" if ts[0] == "fmtNoResult" else "(.result _ _)", "(.padded _ _)"] + ["(LawfulArgs.writes _)"] * (len(ts) - 2)
        r = "(.done _)"
        for q in reversed(qs): r = f"(.bind {q} {r})"
        bind = "{X : Type} [Display X] [DisplayTo σ X] [LawfulTo σ X] " if x else ""
        prf.append(f"instance {bind}: LawfulTo σ {n} := ⟨fun op => Writes.congr\n  {r}\n  (by simp only [Display.fmt, List.append_assoc, List.append_nil])⟩\n")
    elif body.startswith("match"):
        arms = re.findall(r"\| (\.[^=]*?) => (.*)", body)
        if all(re.fullmatch(r'"[^"]*"\.toList', e) for _, e in arms):
            out.append(f"{cite}: the name -/".replace(" -/:", ":") + f"\ninstance : DisplayTo σ {n} where\n  fmtTo {v} := arg (pad (Display.fmt {v}))\n")
            prf.append(f"instance : StubbornTo σ {n} := ⟨fun o _ => .padded o _⟩\n")
        else:
            lines = []
            for p, e in arms:
                if re.fullmatch(r'"[^"]*"\.toList', e): lines.append(f"    | {p} => arg (pad {e})")
                else: lines.append(f"    | {p} => do " + "; ".join(terms(e)))
            out.append(head + f" match {v} with\n" + "\n".join(lines) + "\n")
            lines = []
            for p, e in arms:
                p = p.split()[0] + " _" * (len(p.split()) - 1)
                if re.fullmatch(r'"[^"]*"\.toList', e): lines.append(f"  | {p} => .padded o _")
                else:
                    q = chain(terms(e))
                    if len(terms(e)) > 2: lines.append(f"  | {p} => Writes.congr {q} (by simp only [Display.fmt, List.append_assoc])")
                    else: lines.append(f"  | {p} => {q}")
            prf.append(f"instance : StubbornTo σ {n} := ⟨fun o x => match x with\n" + "\n".join(lines) + "⟩\n")
    elif body.startswith("joinParts"):
        out.append(cite.replace(" -/", ": the parts, joined; `None` is a literal, which makes the same call -/") +
                   f"\ninstance : DisplayTo σ {n} where\n  fmtTo {v} := arg (pad (Display.fmt {v}))\n")
        prf.append(f"instance : StubbornTo σ {n} := ⟨fun o _ => .padded o _⟩\n")
    else:
        out.append(head + " do\n" + "\n".join("    " + t for t in terms(body)) + "\n")
        prf.append(f"instance : StubbornTo σ {n} := ⟨fun _ x => Writes.congr {chain(terms(body))}\n  (by simp only [Display.fmt, List.append_assoc])⟩\n")

core = src[src.index("def Core.fmt"):]
cite = re.search(r"(/-- [^\n]* -/)\ndef Core\.fmt", src)[1]
names = re.findall(r"\| \.(\w+) op =>", core)
out.append(f"{cite}\ninstance {{X : Type}} [DisplayTo σ X] : DisplayTo σ (Core X) where\n  fmtTo c := match c with")
out += [f"    | .{n} op => fmtTo op" for n in names]
prf.append("instance {X : Type} [Display X] [DisplayTo σ X] [LawfulTo σ X] : LawfulTo σ (Core X) := ⟨fun c => match c with\n" +
           "\n".join(f"  | .{n} op => LawfulTo.writes op" for n in names) + "⟩\n")
pr = open("lean/Verif/Model/Printer.lean").read()
for ty, par, bind in (("GroupCode", "(GroupCode X)", "{X : Type} [DisplayTo σ X] "), ("GroupBranch", "GroupBranch", "")):
    i = pr.index(f"def {ty}.fmt"); seg = pr[i:pr.index("\n\n", i)]
    cite = re.search(r"(/-- [^\n]* -/)\ndef " + ty, pr)[1]
    out.append(f"\n{cite}\ninstance {bind}: DisplayTo σ {par} where\n  fmtTo c := match c with")
    names = re.findall(r"\| \.(\w+) op =>", seg)
    out += [f"    | .{n} op => fmtTo op" for n in names]
    if bind: bind = "{X : Type} [Display X] [DisplayTo σ X] [LawfulTo σ X] "
    prf.append(f"theorem {ty}.writes {bind}(c : {par}) : Writes {{}} (fmtTo c : PutM σ Unit) c.fmt :=\n  match c with\n" +
               "\n".join(f"  | .{n} op => LawfulTo.writes op" for n in names) + "\n")
out += ["", "end Magma", ""]
s = "\n".join(out).replace("import Verif.Model.Module\n", "import Verif.Model.Printer\n")
open("lean/Verif/Model/Write.lean", "w").write(s)
open("lean/Verif/Proofs/WritingOps.lean", "w").write("\n".join(prf + ["end Magma", ""]))
