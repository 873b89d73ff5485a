import Verif.Model.Display
/-! Disassembly of a whole module (`src/spv/raw/mod.rs`, `src/spv/types.rs`). -/

namespace Magma

/-- src/spv/types.rs:59-75 -/
def Tool.getVendor (t : Tool) : Option Text :=
  match t with
  | .KhronosReserved => some "Khronos".toList
  | .LunarG => some "LunarG".toList
  | .Valve => some "Valve".toList
  | .Codeplay => some "Codeplay".toList
  | .Nvidia => some "NVIDIA".toList
  | .Arm => some "ARM".toList
  | .KhronosLLvmTranslator => some "Khronos".toList
  | .KhronosAssembler => some "Khronos".toList
  | .KhronosGlslang => some "Khronos".toList
  | .Qualcomm => some "Qualcomm".toList
  | .Amd => some "AMD".toList
  | .Intel => some "Intel".toList
  | .Other _ => none

/-- src/spv/types.rs:76-83 -/
def Tool.getTool (t : Tool) : Option Text :=
  match t with
  | .KhronosLLvmTranslator => some "LLVM/SPIR-V Translator".toList
  | .KhronosAssembler => some "SPIR-V Tools Assembler".toList
  | .KhronosGlslang => some "Glslang Reference Front End".toList
  | _ => none

/-- src/spv/raw/mod.rs:31-38 -/
def Tool.genName (t : Tool) : Text :=
  match t.getVendor, t.getTool with
  | some vendor, some tool => vendor ++ " ".toList ++ tool
  | some vendor, none => vendor
  | none, some tool => tool
  | none, none => "Unknown".toList

/-- src/spv/raw/mod.rs:29-43: the header lines -/
def RawModule.fmtHeader {X : Type} (m : RawModule X) : Text :=
  "; SPIR-V\n".toList ++
  ("; Version: ".toList ++ Display.fmt m.version.f0 ++ ".".toList ++ Display.fmt m.version.f1 ++
    "\n".toList) ++
  ("; Generator: ".toList ++ m.generator.tool.genName ++ "; ".toList ++
    Display.fmt m.generator.version ++ "\n".toList) ++
  ("; Bound: ".toList ++ Display.fmt m.bound ++ "\n".toList) ++
  "; Schema: 0\n".toList

/-- src/spv/raw/mod.rs:27-49 -/
def RawModule.fmt {X : Type} [Display X] (m : RawModule X) : Text :=
  m.fmtHeader ++ m.instructions.flatMap (fun inst => Display.fmt inst ++ "\n".toList)

end Magma
