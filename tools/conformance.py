#!/usr/bin/env python3
"""Write lean/Verif/Conformance.lean: the binaries of the project's own tests and the disassembly
recorded for them."""
import json, pathlib

root = pathlib.Path(__file__).resolve().parent.parent
tests = pathlib.Path("/repo/src/tests")
out = ["""import Verif.Model.Printer
import Verif.Model.Parser
/-! Generated by `tools/conformance.py` from the binaries and disassemblies in `/repo/src/tests`. The
kernel evaluates the model on the input of each test of the project and compares the outcome with the
one its tests expect (src/tests/mod.rs:110-158): the disassembly is the recorded one, the module is
accepted by `validate`, and control flow is recovered for every function. These are tests of the model,
not properties. -/

namespace Magma.Conformance

/-- The instruction sets passed by the tests (src/tests/mod.rs:7-10) -/
def sets : List (ExtInstSet Glsl.Inst) := [Glsl.instSet]

/-- Does reading the bytes and printing the module give the text? -/
def disassembles (bytes : List UInt8) (text : Text) : Bool :=
  match readModule bytes sets with
  | .ok m => m.fmt == text
  | .error _ => false

/-- Does `validate` accept the module, and is control flow recovered for every function? -/
def recovers (bytes : List UInt8) : Bool :=
  match readModule bytes sets with
  | .error _ => false
  | .ok m =>
    match validate m with
    | .error _ => false
    | .ok m => m.function_definitions.all fun f =>
      match findControlFlow 100 f with
      | .ok _ => true
      | .error _ => false
"""]
for name in ["noop", "write_multiply", "cond_trig", "nest_if", "loop_simple"]:
    data = (tests / f"{name}.spv").read_bytes()
    dis = (tests / f"{name}.dis").read_text()
    out.append(f"/-- src/tests/{name}.spv -/\ndef {name} : List UInt8 := [")
    for i in range(0, len(data), 24):
        out.append("  " + ", ".join(str(b) for b in data[i:i+24]) + ("," if i + 24 < len(data) else "]"))
    lines = dis.split("\n")
    assert lines[-1] == ""
    out.append(f"\n/-- The lines of src/tests/{name}.dis -/\ndef {name}Dis : List String := [")
    for i, l in enumerate(lines[:-1]):
        out.append("  " + json.dumps(l) + ("," if i + 2 < len(lines) else "]"))
    out.append(f"""
example : disassembles {name} ({name}Dis.flatMap fun l => l.toList ++ ['\\n']) = true := by decide +kernel
example : recovers {name} = true := by decide +kernel
""")
out.append("end Magma.Conformance\n")
(root / "lean/Verif/Conformance.lean").write_text("\n".join(out))
