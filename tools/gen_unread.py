#!/usr/bin/env python3
"""Write lean/Verif/Model/OpUnread.lean and lean/Verif/Proofs/Unread.lean: the instructions of
/repo/src/spv/op.rs that are printed but are not in `Core`, from the Rust text."""
import pathlib
import re

root = pathlib.Path(__file__).resolve().parent.parent / "lean/Verif"
op = open("/repo/src/spv/op.rs").read()
known = set(re.findall(r"structure (Op\w+)", (root / "Model/Op.lean").read_text()))
line = lambda pos: op.count("\n", 0, pos) + 1
esc = lambda f: "«structure»" if f == "structure" else f


def ty(t):
    t = t.replace("LitBytes", "Vec<u32>").replace("u32", "UInt32")
    return re.sub(r"(\w+)<(.*)>", r"\1 \2", t).replace("Vec ", "List ")


shows = {}
for m in re.finditer(r"^def_op_display!\((\w+);\s*(.*?)\);", op, re.S | re.M):
    w = re.findall(r"\w+", m[2])
    res = re.match(r"result_id\s*=", m[2]) is not None
    shows[m[1]] = (res, w[1:] if res else w, line(m.start()), "macro src/spv/dis.rs:92-119")
for m in re.finditer(r"^def_op_display_s([12])!\((\w+)\)", op, re.M):
    args = ["result_type"] + (["operand"] if m[1] == "1" else ["operand1", "operand2"])
    shows[m[2]] = (True, args, line(m.start()), "macros src/spv/dis.rs:92-133")
ops = []
for m in re.finditer(r"pub struct (Op\w+)(?: \{(.*?)\n\}|;)", op, re.S):
    if m[1] in shows and m[1] not in known:
        fs = re.findall(r"pub (\w+): (.*),", m[2] or "")
        ops.append((m[1], [(f, ty(t)) for f, t in fs], line(m.start()), line(m.end())))

out = ["""import Verif.Model.Display
/-! Generated by `tools/gen_unread.py` from the Rust source; citations are to `/repo`. The instructions that have a
printer but are not in `Core`: `read_module` never returns them, a client of the crate can build and print them. -/

namespace Magma

/-- src/spv/types.rs:126-128 -/
structure Line where
  val : UInt32
  deriving DecidableEq, Repr

/-- src/spv/types.rs:130-134 -/
instance : Display Line := ⟨fun x => Display.fmt x.val⟩

/-- src/spv/types.rs:138-140 -/
structure Column where
  val : UInt32
  deriving DecidableEq, Repr

/-- src/spv/types.rs:142-146 -/
instance : Display Column := ⟨fun x => Display.fmt x.val⟩

/-- src/spv/types.rs:1035-1042 -/
inductive SamplerAddressingMode where
  | None
  | ClampToEdge
  | Clamp
  | Repeat
  | RepeatMirrored
  deriving DecidableEq, Repr

/-- src/spv/types.rs:1044-1055 -/
instance : Display SamplerAddressingMode where
  fmt x := match x with
    | .None => "None".toList
    | .ClampToEdge => "ClampToEdge".toList
    | .Clamp => "Clamp".toList
    | .Repeat => "Repeat".toList
    | .RepeatMirrored => "RepeatMirrored".toList

/-- src/spv/types.rs:1059-1063 -/
inductive SamplerParam where
  | NonNormalized
  | Normalized
  deriving DecidableEq, Repr

/-- src/spv/types.rs:1065-1073 -/
instance : Display SamplerParam where
  fmt x := match x with
    | .NonNormalized => "0".toList
    | .Normalized => "1".toList

/-- src/spv/types.rs:1077-1081 -/
inductive SamplerFilterMode where
  | Nearest
  | Linear
  deriving DecidableEq, Repr

/-- src/spv/types.rs:1083-1091 -/
instance : Display SamplerFilterMode where
  fmt x := match x with
    | .Nearest => "Nearest".toList
    | .Linear => "Linear".toList
"""]
for n, fs, l0, l1 in ops:
    out.append(f"/-- src/spv/op.rs:{l0}-{l1} -/\nstructure {n} where\n" +
               "".join(f"  {esc(f)} : {t}\n" for f, t in fs) + "  deriving DecidableEq, Repr\n")
    res, args, l, mac = shows[n]
    pre = "fmtResult op.result_id" if res else "fmtNoResult"
    var = "op" if res or args else "_"
    out.append(f"/-- src/spv/op.rs:{l} ({mac}) -/\ninstance : Display {n} where\n  fmt {var} := {pre} ++ \"{n}\".toList" +
               "".join(f" ++ FormatArg.formatArg op.{esc(a)}" for a in args) + "\n")
out.append("/-- The instructions of src/spv/op.rs that are printed but not read. The Rust code has no enum of them; each has\n"
           "its own `impl Display`. -/\ninductive Unread where\n" +
           "".join(f"  | {n} (op : {n})\n" for n, *_ in ops) + "  deriving DecidableEq\n")
out.append("/-- Calls the `impl Display` of each -/\ninstance : Display Unread where\n  fmt u := match u with\n" +
           "".join(f"    | .{n} op => Display.fmt op\n" for n, *_ in ops))
out.append("end Magma\n")
(root / "Model/OpUnread.lean").write_text("\n".join(out))

# The cases of the lemmas
out = ["""import Verif.Proofs.UnreadShown
/-! Generated by `tools/gen_unread.py`: the cases of the lemmas about instructions that are printed but not read. -/

namespace Magma
"""]
MID = {"OpId", "UInt32", "MemberIndex", "Line", "Column", "SamplerAddressingMode", "SamplerParam",
       "SamplerFilterMode", "StorageClass"}
for n, fs, *_ in ops:
    res, args, *_ = shows[n]
    t = dict(fs)
    k = len(args)
    pre = "fmtResult op.result_id" if res else "fmtNoResult"
    sp = "spaced_nil" if k == 0 else f"(spaced op.{esc(args[-1])})"
    for a in reversed(args[:-1]):
        sp = f"(Spaced.append (spaced op.{esc(a)}) {sp})"
    out.append(f"""theorem {n}.layout (op : {n}) :
    ∃ s, Spaced s ∧ Display.fmt op = {pre} ++ ("{n}".toList ++ s) :=
  ⟨_, {sp}, assoc{k}⟩
""")
    pf = [f"  have h := assoc{k}.symm.trans (h.trans assoc{k})"]
    pf.append("  obtain ⟨hr, h⟩ := fmtResult_inj h" if res else "  have h := List.append_cancel_left h")
    pf.append("  have h := List.append_cancel_left h")
    for i, a in enumerate(args):
        if i == k - 1:
            pf.append(f"  have h{i} := Arg.inj h")
        else:
            assert t[a] in MID, (n, a)
            f = "(Arg.follows _) (Arg.follows _)" if i == k - 2 else "(arg_follows _ _) (arg_follows _ _)"
            pf.append(f"  obtain ⟨h{i}, h⟩ := arg_inj {f} h")
    eqs = [("hr" if f == "result_id" else f"h{args.index(f)}") for f, _ in fs]
    if eqs:
        pf += ["  cases a", "  cases b", f"  rw [{n}.mk.injEq]",
               "  exact " + (eqs[0] if len(eqs) == 1 else "⟨" + ", ".join(eqs) + "⟩")]
    else:
        pf = []
    out.append(f"theorem {n}.fmt_inj {{a b : {n}}} (h : Display.fmt a = Display.fmt b) : a = b := by\n" +
               "\n".join(pf if pf else ["  cases a", "  cases b", "  rfl"]) + "\n")
    if n != "OpCompositeConstruct":
        typed = "result_type" in t
        operands = [f for f, _ in fs if f not in ("result_id", "result_type")]
        lem = "line_" + ("typed" if typed else "result" if res else "plain") + ("" if operands else "0")
        pf = ""
        for i, f in enumerate(reversed(operands)):
            if i == 0:
                how = "all" if t[f].startswith("List") else "any" if t[f].startswith("Option") else "end"
                pf = f"(shown_{how} op.{esc(f)})"
            else:
                pf = f"((shown_mid op.{esc(f)} _ _).trans (congrArg (_ ++ ·) {pf}))"
        front = (" op.result_type" if typed else "") + (" op.result_id" if res else "")
        proof = f'({lem} _ "{n}"{front} rfl rfl{" " if pf else ""}{pf})'
        if len(fs) > 2:
            proof = f"({proof}.trans\n    (congrArg (Spec.unreadLine _) append{len(fs)}.symm))"
        out.append(f"""theorem {n}.shown (op : {n}) :
    Display.fmt op = Spec.unreadLine (Spec.unreadCode (.{n} op)) (Spec.unreadWords (.{n} op)) :=
  assoc{k}.trans {proof}
""")
out.append("theorem Unread.layout (u : Unread) :\n"
           "    ∃ name s, (Spec.unreadCode u, name) ∈ Spec.unreadNames ∧ Spaced s ∧ ∃ r,\n"
           "      Display.fmt u = Spec.leftColumn r ++ (name.toList ++ s) := by\n  cases u with\n" +
           "".join(f"""  | {n} op =>
    obtain ⟨s, hs, h⟩ := {n}.layout op
    exact ⟨"{n}", s, unread_mem rfl, hs, {'some op.result_id.val' if shows[n][0] else 'none'},
      h.trans (congrArg (· ++ _) {'(leftColumn_some op.result_id)' if shows[n][0] else 'leftColumn_none'})⟩
""" for n, *_ in ops))
out.append("theorem Unread.shown (u : Unread) (h : ∀ op, u = .OpCompositeConstruct op → op.constituents = []) :\n"
           "    Display.fmt u = Spec.unreadLine (Spec.unreadCode u) (Spec.unreadWords u) := by\n  cases u with\n" +
           "".join(f"  | {n} op => exact {n}.shown op\n" if n != "OpCompositeConstruct" else
                   f"  | {n} op =>\n    obtain ⟨t, r, cs⟩ := op\n    cases h _ rfl\n    exact composite_shown t r\n" for n, *_ in ops))
for i, (n, *_) in enumerate(ops):
    out.append(f"""theorem unread_inj_{n} (op : {n}) (b : Unread) (hi : b.ctorIdx = {i}) :
    Display.fmt (Unread.{n} op) = Display.fmt b → Unread.{n} op = b :=
  Unread.{n}.elim (motive := fun b => Display.fmt (Unread.{n} op) = Display.fmt b → Unread.{n} op = b) b hi
    (fun op' h => congrArg Unread.{n} ({n}.fmt_inj (h : Display.fmt op = Display.fmt op')))
""")
out.append("theorem Unread.fmt_inj' {a b : Unread} (hi : a.ctorIdx = b.ctorIdx) (h : Display.fmt a = Display.fmt b) :\n"
           "    a = b := by\n  cases a with\n" +
           "".join(f"  | {n} op => exact unread_inj_{n} op b hi.symm h\n" for n, *_ in ops))
out.append("end Magma\n")
(root / "Proofs/Unread.lean").write_text("\n".join(out))
print(len(ops))
