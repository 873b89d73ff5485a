#!/usr/bin/env python3
"""Writes lean/Verif/Spec/RenameOps.lean: replacing the ids of every instruction, field by field."""
import re
src = open('/verif/lean/Verif/Model/Op.lean').read()
structs = re.findall(r'^structure (Op\w+)(?: \(X : Type\))? where\n((?:  \w+ : .*\n)*)', src, re.M)
core = re.search(r'^inductive Core .*?(?=^\S|\Z)', src, re.M | re.S).group(0)
ctors = re.findall(r'\| (Op\w+) \(op : (Op\w+(?: X)?)\)', core)
out = ['''import Verif.Spec.Ids
import Verif.Model.Logical
/-! Generated by `tools/gen_ids.py`: replacing the ids of instructions, field by field. -/

namespace Magma.Spec
''']
for n, body in structs:
    fs = re.findall(r'^  (\w+) : (.*)$', body, re.M)
    if n == 'OpExtInst':
        out.append('/-- The ids of `OpExtInst` -/\ninstance {X : Type} [Renames X] : Renames (OpExtInst X) :=')
    else:
        out.append(f'/-- The ids of `{n}` -/\ninstance : Renames {n} :=')
    if not fs:
        out.append('  ⟨fun _ a => a⟩\n'); continue
    out.append('  ⟨fun σ a =>\n    { ' + ',\n      '.join(f'{f} := ren σ a.{f}' for f, t in fs) + ' }⟩\n')
out.append('''/-- The ids of an instruction -/
def renameInst {X : Type} [Renames X] (σ : UInt32 → UInt32) : Core X → Core X''')
for c, t in ctors:
    out.append(f'  | .{c} op => .{c} (ren σ op)')
out.append('''
/-- The ids of a module. The bound is not an id of the module. -/
def renameModule {X : Type} [Renames X] (σ : UInt32 → UInt32) (m : RawModule X) : RawModule X :=
  { m with instructions := m.instructions.map (renameInst σ) }
''')
group = open('/verif/lean/Verif/Model/Group.lean').read()
for n, x, body in re.findall(r'^inductive (Group\w+)( \(X : Type\))? where\n((?:  \|.*\n)*)', group, re.M):
    t = f'({n} X)' if x else n
    out.append(f'/-- The ids of `{n}` -/\ninstance {"{X : Type} [Renames X] " if x else ""}: Renames {t} :=\n  ⟨fun σ a => match a with')
    out.append('\n'.join(f'    | .{c} op => .{c} (ren σ op)' for c in re.findall(r'\| (\w+) \(op', body)) + '⟩\n')
out.append('''/-- The ids of a function declaration -/
instance : Renames FunctionDeclaration :=
  ⟨fun σ d => { function := ren σ d.function, parameters := ren σ d.parameters }⟩

/-- The ids of a block -/
instance {X : Type} [Renames X] : Renames (BasicBlock X) :=
  ⟨fun σ b => { label := ren σ b.label, code := ren σ b.code, merge := ren σ b.merge, branch := ren σ b.branch }⟩

/-- The ids of a function definition -/
instance {X : Type} [Renames X] : Renames (FunctionDefinition X) :=
  ⟨fun σ d => { function := ren σ d.function, parameters := ren σ d.parameters, blocks := ren σ d.blocks }⟩

/-- The ids of a logical module -/
instance {X : Type} [Renames X] : Renames (LogicalModule X) :=
  ⟨fun σ m =>
    { capabilities := m.capabilities,
      extensions := m.extensions,
      ext_inst_imports := ren σ m.ext_inst_imports,
      memory_model := m.memory_model,
      entry_points := ren σ m.entry_points,
      execution_modes := ren σ m.execution_modes,
      debug := ren σ m.debug,
      annotations := ren σ m.annotations,
      globals := ren σ m.globals,
      function_declarations := ren σ m.function_declarations,
      function_definitions := ren σ m.function_definitions }⟩

end Magma.Spec''')
open('/verif/lean/Verif/Spec/RenameOps.lean', 'w').write('\n'.join(out) + '\n')
