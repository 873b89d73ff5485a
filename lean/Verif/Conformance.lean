import Verif.Model.Printer
import Verif.Model.Parser
/-! Generated by `tools/conformance.py` from the binaries and disassemblies in `/repo/src/tests`. The
kernel evaluates the model on the input of each test of the project and compares the outcome with the
one its tests expect (src/tests/mod.rs:110-158): the disassembly is the recorded one, the module is
accepted by `validate`, and control flow is recovered for every function. These are tests of the model,
not properties. -/

namespace Magma.Conformance

/-- The instruction sets passed by the tests (src/tests/mod.rs:7-10) -/
def sets : List (ExtInstSet Glsl.Inst) := [Glsl.instSet]

/-- Does reading the bytes and printing the module give the text? -/
def disassembles (bytes : List UInt8) (text : Text) : Bool :=
  match readModule bytes sets with
  | .ok m => m.fmt == text
  | .error _ => false

/-- Does `validate` accept the module, and is control flow recovered for every function? -/
def recovers (bytes : List UInt8) : Bool :=
  match readModule bytes sets with
  | .error _ => false
  | .ok m =>
    match validate m with
    | .error _ => false
    | .ok m => m.function_definitions.all fun f =>
      match findControlFlow 100 f with
      | .ok _ => true
      | .error _ => false

/-- src/tests/noop.spv -/
def noop : List UInt8 := [
  3, 2, 35, 7, 0, 0, 1, 0, 1, 0, 8, 0, 10, 0, 0, 0, 0, 0, 0, 0, 17, 0, 2, 0,
  1, 0, 0, 0, 11, 0, 6, 0, 1, 0, 0, 0, 71, 76, 83, 76, 46, 115, 116, 100, 46, 52, 53, 48,
  0, 0, 0, 0, 14, 0, 3, 0, 0, 0, 0, 0, 1, 0, 0, 0, 15, 0, 5, 0, 5, 0, 0, 0,
  4, 0, 0, 0, 109, 97, 105, 110, 0, 0, 0, 0, 16, 0, 6, 0, 4, 0, 0, 0, 17, 0, 0, 0,
  32, 0, 0, 0, 32, 0, 0, 0, 32, 0, 0, 0, 3, 0, 3, 0, 2, 0, 0, 0, 174, 1, 0, 0,
  5, 0, 4, 0, 4, 0, 0, 0, 109, 97, 105, 110, 0, 0, 0, 0, 71, 0, 4, 0, 9, 0, 0, 0,
  11, 0, 0, 0, 25, 0, 0, 0, 19, 0, 2, 0, 2, 0, 0, 0, 33, 0, 3, 0, 3, 0, 0, 0,
  2, 0, 0, 0, 21, 0, 4, 0, 6, 0, 0, 0, 32, 0, 0, 0, 0, 0, 0, 0, 23, 0, 4, 0,
  7, 0, 0, 0, 6, 0, 0, 0, 3, 0, 0, 0, 43, 0, 4, 0, 6, 0, 0, 0, 8, 0, 0, 0,
  32, 0, 0, 0, 44, 0, 6, 0, 7, 0, 0, 0, 9, 0, 0, 0, 8, 0, 0, 0, 8, 0, 0, 0,
  8, 0, 0, 0, 54, 0, 5, 0, 2, 0, 0, 0, 4, 0, 0, 0, 0, 0, 0, 0, 3, 0, 0, 0,
  248, 0, 2, 0, 5, 0, 0, 0, 253, 0, 1, 0, 56, 0, 1, 0]

/-- The lines of src/tests/noop.dis -/
def noopDis : List String := [
  "; SPIR-V",
  "; Version: 1.0",
  "; Generator: Khronos Glslang Reference Front End; 1",
  "; Bound: 10",
  "; Schema: 0",
  "               OpCapability Shader",
  "          %1 = OpExtInstImport \"GLSL.std.450\"",
  "               OpMemoryModel Logical GLSL450",
  "               OpEntryPoint GLCompute %4 \"main\"",
  "               OpExecutionMode %4 LocalSize 32 32 32",
  "               OpSource GLSL 430",
  "               OpName %4 \"main\"",
  "               OpDecorate %9 BuiltIn WorkgroupSize",
  "          %2 = OpTypeVoid",
  "          %3 = OpTypeFunction %2",
  "          %6 = OpTypeInt 32 0",
  "          %7 = OpTypeVector %6 3",
  "          %8 = OpConstant %6 32",
  "          %9 = OpConstantComposite %7 %8 %8 %8",
  "          %4 = OpFunction %2 None %3",
  "          %5 = OpLabel",
  "               OpReturn",
  "               OpFunctionEnd"]

example : disassembles noop (noopDis.flatMap fun l => l.toList ++ ['\n']) = true := by decide +kernel
example : recovers noop = true := by decide +kernel

/-- src/tests/write_multiply.spv -/
def write_multiply : List UInt8 := [
  3, 2, 35, 7, 0, 0, 1, 0, 1, 0, 8, 0, 40, 0, 0, 0, 0, 0, 0, 0, 17, 0, 2, 0,
  1, 0, 0, 0, 11, 0, 6, 0, 1, 0, 0, 0, 71, 76, 83, 76, 46, 115, 116, 100, 46, 52, 53, 48,
  0, 0, 0, 0, 14, 0, 3, 0, 0, 0, 0, 0, 1, 0, 0, 0, 15, 0, 6, 0, 5, 0, 0, 0,
  4, 0, 0, 0, 109, 97, 105, 110, 0, 0, 0, 0, 12, 0, 0, 0, 16, 0, 6, 0, 4, 0, 0, 0,
  17, 0, 0, 0, 32, 0, 0, 0, 32, 0, 0, 0, 32, 0, 0, 0, 3, 0, 3, 0, 2, 0, 0, 0,
  174, 1, 0, 0, 5, 0, 4, 0, 4, 0, 0, 0, 109, 97, 105, 110, 0, 0, 0, 0, 5, 0, 5, 0,
  8, 0, 0, 0, 119, 114, 105, 116, 101, 95, 118, 97, 108, 117, 101, 0, 5, 0, 8, 0, 12, 0, 0, 0,
  103, 108, 95, 71, 108, 111, 98, 97, 108, 73, 110, 118, 111, 99, 97, 116, 105, 111, 110, 73, 68, 0, 0, 0,
  5, 0, 5, 0, 23, 0, 0, 0, 77, 121, 66, 117, 102, 102, 101, 114, 0, 0, 0, 0, 6, 0, 5, 0,
  23, 0, 0, 0, 0, 0, 0, 0, 118, 97, 108, 117, 101, 0, 0, 0, 5, 0, 3, 0, 25, 0, 0, 0,
  0, 0, 0, 0, 5, 0, 4, 0, 37, 0, 0, 0, 66, 108, 111, 99, 107, 0, 0, 0, 6, 0, 5, 0,
  37, 0, 0, 0, 0, 0, 0, 0, 118, 97, 108, 117, 101, 0, 0, 0, 5, 0, 4, 0, 39, 0, 0, 0,
  116, 101, 115, 116, 0, 0, 0, 0, 71, 0, 4, 0, 12, 0, 0, 0, 11, 0, 0, 0, 28, 0, 0, 0,
  71, 0, 4, 0, 22, 0, 0, 0, 6, 0, 0, 0, 4, 0, 0, 0, 72, 0, 5, 0, 23, 0, 0, 0,
  0, 0, 0, 0, 35, 0, 0, 0, 0, 0, 0, 0, 71, 0, 3, 0, 23, 0, 0, 0, 3, 0, 0, 0,
  71, 0, 4, 0, 25, 0, 0, 0, 34, 0, 0, 0, 0, 0, 0, 0, 71, 0, 4, 0, 25, 0, 0, 0,
  33, 0, 0, 0, 2, 0, 0, 0, 71, 0, 4, 0, 35, 0, 0, 0, 11, 0, 0, 0, 25, 0, 0, 0,
  72, 0, 5, 0, 37, 0, 0, 0, 0, 0, 0, 0, 35, 0, 0, 0, 0, 0, 0, 0, 71, 0, 3, 0,
  37, 0, 0, 0, 3, 0, 0, 0, 71, 0, 4, 0, 39, 0, 0, 0, 34, 0, 0, 0, 0, 0, 0, 0,
  19, 0, 2, 0, 2, 0, 0, 0, 33, 0, 3, 0, 3, 0, 0, 0, 2, 0, 0, 0, 22, 0, 3, 0,
  6, 0, 0, 0, 32, 0, 0, 0, 32, 0, 4, 0, 7, 0, 0, 0, 7, 0, 0, 0, 6, 0, 0, 0,
  21, 0, 4, 0, 9, 0, 0, 0, 32, 0, 0, 0, 0, 0, 0, 0, 23, 0, 4, 0, 10, 0, 0, 0,
  9, 0, 0, 0, 3, 0, 0, 0, 32, 0, 4, 0, 11, 0, 0, 0, 1, 0, 0, 0, 10, 0, 0, 0,
  59, 0, 4, 0, 11, 0, 0, 0, 12, 0, 0, 0, 1, 0, 0, 0, 43, 0, 4, 0, 9, 0, 0, 0,
  13, 0, 0, 0, 1, 0, 0, 0, 32, 0, 4, 0, 14, 0, 0, 0, 1, 0, 0, 0, 9, 0, 0, 0,
  43, 0, 4, 0, 9, 0, 0, 0, 17, 0, 0, 0, 2, 0, 0, 0, 29, 0, 3, 0, 22, 0, 0, 0,
  6, 0, 0, 0, 30, 0, 3, 0, 23, 0, 0, 0, 22, 0, 0, 0, 32, 0, 4, 0, 24, 0, 0, 0,
  2, 0, 0, 0, 23, 0, 0, 0, 59, 0, 4, 0, 24, 0, 0, 0, 25, 0, 0, 0, 2, 0, 0, 0,
  21, 0, 4, 0, 26, 0, 0, 0, 32, 0, 0, 0, 1, 0, 0, 0, 43, 0, 4, 0, 26, 0, 0, 0,
  27, 0, 0, 0, 0, 0, 0, 0, 43, 0, 4, 0, 9, 0, 0, 0, 28, 0, 0, 0, 0, 0, 0, 0,
  32, 0, 4, 0, 32, 0, 0, 0, 2, 0, 0, 0, 6, 0, 0, 0, 43, 0, 4, 0, 9, 0, 0, 0,
  34, 0, 0, 0, 32, 0, 0, 0, 44, 0, 6, 0, 10, 0, 0, 0, 35, 0, 0, 0, 34, 0, 0, 0,
  34, 0, 0, 0, 34, 0, 0, 0, 23, 0, 4, 0, 36, 0, 0, 0, 6, 0, 0, 0, 3, 0, 0, 0,
  30, 0, 3, 0, 37, 0, 0, 0, 36, 0, 0, 0, 32, 0, 4, 0, 38, 0, 0, 0, 2, 0, 0, 0,
  37, 0, 0, 0, 59, 0, 4, 0, 38, 0, 0, 0, 39, 0, 0, 0, 2, 0, 0, 0, 54, 0, 5, 0,
  2, 0, 0, 0, 4, 0, 0, 0, 0, 0, 0, 0, 3, 0, 0, 0, 248, 0, 2, 0, 5, 0, 0, 0,
  59, 0, 4, 0, 7, 0, 0, 0, 8, 0, 0, 0, 7, 0, 0, 0, 65, 0, 5, 0, 14, 0, 0, 0,
  15, 0, 0, 0, 12, 0, 0, 0, 13, 0, 0, 0, 61, 0, 4, 0, 9, 0, 0, 0, 16, 0, 0, 0,
  15, 0, 0, 0, 65, 0, 5, 0, 14, 0, 0, 0, 18, 0, 0, 0, 12, 0, 0, 0, 17, 0, 0, 0,
  61, 0, 4, 0, 9, 0, 0, 0, 19, 0, 0, 0, 18, 0, 0, 0, 132, 0, 5, 0, 9, 0, 0, 0,
  20, 0, 0, 0, 16, 0, 0, 0, 19, 0, 0, 0, 112, 0, 4, 0, 6, 0, 0, 0, 21, 0, 0, 0,
  20, 0, 0, 0, 62, 0, 3, 0, 8, 0, 0, 0, 21, 0, 0, 0, 65, 0, 5, 0, 14, 0, 0, 0,
  29, 0, 0, 0, 12, 0, 0, 0, 28, 0, 0, 0, 61, 0, 4, 0, 9, 0, 0, 0, 30, 0, 0, 0,
  29, 0, 0, 0, 61, 0, 4, 0, 6, 0, 0, 0, 31, 0, 0, 0, 8, 0, 0, 0, 65, 0, 6, 0,
  32, 0, 0, 0, 33, 0, 0, 0, 25, 0, 0, 0, 27, 0, 0, 0, 30, 0, 0, 0, 62, 0, 3, 0,
  33, 0, 0, 0, 31, 0, 0, 0, 253, 0, 1, 0, 56, 0, 1, 0]

/-- The lines of src/tests/write_multiply.dis -/
def write_multiplyDis : List String := [
  "; SPIR-V",
  "; Version: 1.0",
  "; Generator: Khronos Glslang Reference Front End; 1",
  "; Bound: 40",
  "; Schema: 0",
  "               OpCapability Shader",
  "          %1 = OpExtInstImport \"GLSL.std.450\"",
  "               OpMemoryModel Logical GLSL450",
  "               OpEntryPoint GLCompute %4 \"main\" %12",
  "               OpExecutionMode %4 LocalSize 32 32 32",
  "               OpSource GLSL 430",
  "               OpName %4 \"main\"",
  "               OpName %8 \"write_value\"",
  "               OpName %12 \"gl_GlobalInvocationID\"",
  "               OpName %23 \"MyBuffer\"",
  "               OpMemberName %23 0 \"value\"",
  "               OpName %25 \"\"",
  "               OpName %37 \"Block\"",
  "               OpMemberName %37 0 \"value\"",
  "               OpName %39 \"test\"",
  "               OpDecorate %12 BuiltIn GlobalInvocationId",
  "               OpDecorate %22 ArrayStride 4",
  "               OpMemberDecorate %23 0 Offset 0",
  "               OpDecorate %23 BufferBlock",
  "               OpDecorate %25 DescriptorSet 0",
  "               OpDecorate %25 Binding 2",
  "               OpDecorate %35 BuiltIn WorkgroupSize",
  "               OpMemberDecorate %37 0 Offset 0",
  "               OpDecorate %37 BufferBlock",
  "               OpDecorate %39 DescriptorSet 0",
  "          %2 = OpTypeVoid",
  "          %3 = OpTypeFunction %2",
  "          %6 = OpTypeFloat 32",
  "          %7 = OpTypePointer Function %6",
  "          %9 = OpTypeInt 32 0",
  "         %10 = OpTypeVector %9 3",
  "         %11 = OpTypePointer Input %10",
  "         %12 = OpVariable %11 Input",
  "         %13 = OpConstant %9 1",
  "         %14 = OpTypePointer Input %9",
  "         %17 = OpConstant %9 2",
  "         %22 = OpTypeRuntimeArray %6",
  "         %23 = OpTypeStruct %22",
  "         %24 = OpTypePointer Uniform %23",
  "         %25 = OpVariable %24 Uniform",
  "         %26 = OpTypeInt 32 1",
  "         %27 = OpConstant %26 0",
  "         %28 = OpConstant %9 0",
  "         %32 = OpTypePointer Uniform %6",
  "         %34 = OpConstant %9 32",
  "         %35 = OpConstantComposite %10 %34 %34 %34",
  "         %36 = OpTypeVector %6 3",
  "         %37 = OpTypeStruct %36",
  "         %38 = OpTypePointer Uniform %37",
  "         %39 = OpVariable %38 Uniform",
  "          %4 = OpFunction %2 None %3",
  "          %5 = OpLabel",
  "          %8 = OpVariable %7 Function",
  "         %15 = OpAccessChain %14 %12 %13",
  "         %16 = OpLoad %9 %15",
  "         %18 = OpAccessChain %14 %12 %17",
  "         %19 = OpLoad %9 %18",
  "         %20 = OpIMul %9 %16 %19",
  "         %21 = OpConvertUToF %6 %20",
  "               OpStore %8 %21",
  "         %29 = OpAccessChain %14 %12 %28",
  "         %30 = OpLoad %9 %29",
  "         %31 = OpLoad %6 %8",
  "         %33 = OpAccessChain %32 %25 %27 %30",
  "               OpStore %33 %31",
  "               OpReturn",
  "               OpFunctionEnd"]

example : disassembles write_multiply (write_multiplyDis.flatMap fun l => l.toList ++ ['\n']) = true := by decide +kernel
example : recovers write_multiply = true := by decide +kernel

/-- src/tests/cond_trig.spv -/
def cond_trig : List UInt8 := [
  3, 2, 35, 7, 0, 0, 1, 0, 1, 0, 8, 0, 50, 0, 0, 0, 0, 0, 0, 0, 17, 0, 2, 0,
  1, 0, 0, 0, 11, 0, 6, 0, 1, 0, 0, 0, 71, 76, 83, 76, 46, 115, 116, 100, 46, 52, 53, 48,
  0, 0, 0, 0, 14, 0, 3, 0, 0, 0, 0, 0, 1, 0, 0, 0, 15, 0, 6, 0, 5, 0, 0, 0,
  4, 0, 0, 0, 109, 97, 105, 110, 0, 0, 0, 0, 9, 0, 0, 0, 16, 0, 6, 0, 4, 0, 0, 0,
  17, 0, 0, 0, 32, 0, 0, 0, 32, 0, 0, 0, 32, 0, 0, 0, 3, 0, 3, 0, 2, 0, 0, 0,
  174, 1, 0, 0, 5, 0, 4, 0, 4, 0, 0, 0, 109, 97, 105, 110, 0, 0, 0, 0, 5, 0, 8, 0,
  9, 0, 0, 0, 103, 108, 95, 71, 108, 111, 98, 97, 108, 73, 110, 118, 111, 99, 97, 116, 105, 111, 110, 73,
  68, 0, 0, 0, 5, 0, 5, 0, 23, 0, 0, 0, 119, 114, 105, 116, 101, 95, 118, 97, 108, 117, 101, 0,
  5, 0, 5, 0, 34, 0, 0, 0, 77, 121, 66, 117, 102, 102, 101, 114, 0, 0, 0, 0, 6, 0, 5, 0,
  34, 0, 0, 0, 0, 0, 0, 0, 118, 97, 108, 117, 101, 0, 0, 0, 5, 0, 3, 0, 36, 0, 0, 0,
  0, 0, 0, 0, 5, 0, 4, 0, 47, 0, 0, 0, 66, 108, 111, 99, 107, 0, 0, 0, 6, 0, 5, 0,
  47, 0, 0, 0, 0, 0, 0, 0, 118, 97, 108, 117, 101, 0, 0, 0, 5, 0, 4, 0, 49, 0, 0, 0,
  116, 101, 115, 116, 0, 0, 0, 0, 71, 0, 4, 0, 9, 0, 0, 0, 11, 0, 0, 0, 28, 0, 0, 0,
  71, 0, 4, 0, 33, 0, 0, 0, 6, 0, 0, 0, 4, 0, 0, 0, 72, 0, 5, 0, 34, 0, 0, 0,
  0, 0, 0, 0, 35, 0, 0, 0, 0, 0, 0, 0, 71, 0, 3, 0, 34, 0, 0, 0, 3, 0, 0, 0,
  71, 0, 4, 0, 36, 0, 0, 0, 34, 0, 0, 0, 0, 0, 0, 0, 71, 0, 4, 0, 36, 0, 0, 0,
  33, 0, 0, 0, 2, 0, 0, 0, 71, 0, 4, 0, 45, 0, 0, 0, 11, 0, 0, 0, 25, 0, 0, 0,
  72, 0, 5, 0, 47, 0, 0, 0, 0, 0, 0, 0, 35, 0, 0, 0, 0, 0, 0, 0, 71, 0, 3, 0,
  47, 0, 0, 0, 3, 0, 0, 0, 71, 0, 4, 0, 49, 0, 0, 0, 34, 0, 0, 0, 0, 0, 0, 0,
  19, 0, 2, 0, 2, 0, 0, 0, 33, 0, 3, 0, 3, 0, 0, 0, 2, 0, 0, 0, 21, 0, 4, 0,
  6, 0, 0, 0, 32, 0, 0, 0, 0, 0, 0, 0, 23, 0, 4, 0, 7, 0, 0, 0, 6, 0, 0, 0,
  3, 0, 0, 0, 32, 0, 4, 0, 8, 0, 0, 0, 1, 0, 0, 0, 7, 0, 0, 0, 59, 0, 4, 0,
  8, 0, 0, 0, 9, 0, 0, 0, 1, 0, 0, 0, 43, 0, 4, 0, 6, 0, 0, 0, 10, 0, 0, 0,
  1, 0, 0, 0, 32, 0, 4, 0, 11, 0, 0, 0, 1, 0, 0, 0, 6, 0, 0, 0, 43, 0, 4, 0,
  6, 0, 0, 0, 14, 0, 0, 0, 2, 0, 0, 0, 43, 0, 4, 0, 6, 0, 0, 0, 16, 0, 0, 0,
  0, 0, 0, 0, 20, 0, 2, 0, 17, 0, 0, 0, 22, 0, 3, 0, 21, 0, 0, 0, 32, 0, 0, 0,
  32, 0, 4, 0, 22, 0, 0, 0, 7, 0, 0, 0, 21, 0, 0, 0, 29, 0, 3, 0, 33, 0, 0, 0,
  21, 0, 0, 0, 30, 0, 3, 0, 34, 0, 0, 0, 33, 0, 0, 0, 32, 0, 4, 0, 35, 0, 0, 0,
  2, 0, 0, 0, 34, 0, 0, 0, 59, 0, 4, 0, 35, 0, 0, 0, 36, 0, 0, 0, 2, 0, 0, 0,
  21, 0, 4, 0, 37, 0, 0, 0, 32, 0, 0, 0, 1, 0, 0, 0, 43, 0, 4, 0, 37, 0, 0, 0,
  38, 0, 0, 0, 0, 0, 0, 0, 32, 0, 4, 0, 42, 0, 0, 0, 2, 0, 0, 0, 21, 0, 0, 0,
  43, 0, 4, 0, 6, 0, 0, 0, 44, 0, 0, 0, 32, 0, 0, 0, 44, 0, 6, 0, 7, 0, 0, 0,
  45, 0, 0, 0, 44, 0, 0, 0, 44, 0, 0, 0, 44, 0, 0, 0, 23, 0, 4, 0, 46, 0, 0, 0,
  21, 0, 0, 0, 3, 0, 0, 0, 30, 0, 3, 0, 47, 0, 0, 0, 46, 0, 0, 0, 32, 0, 4, 0,
  48, 0, 0, 0, 2, 0, 0, 0, 47, 0, 0, 0, 59, 0, 4, 0, 48, 0, 0, 0, 49, 0, 0, 0,
  2, 0, 0, 0, 54, 0, 5, 0, 2, 0, 0, 0, 4, 0, 0, 0, 0, 0, 0, 0, 3, 0, 0, 0,
  248, 0, 2, 0, 5, 0, 0, 0, 59, 0, 4, 0, 22, 0, 0, 0, 23, 0, 0, 0, 7, 0, 0, 0,
  65, 0, 5, 0, 11, 0, 0, 0, 12, 0, 0, 0, 9, 0, 0, 0, 10, 0, 0, 0, 61, 0, 4, 0,
  6, 0, 0, 0, 13, 0, 0, 0, 12, 0, 0, 0, 137, 0, 5, 0, 6, 0, 0, 0, 15, 0, 0, 0,
  13, 0, 0, 0, 14, 0, 0, 0, 170, 0, 5, 0, 17, 0, 0, 0, 18, 0, 0, 0, 15, 0, 0, 0,
  16, 0, 0, 0, 247, 0, 3, 0, 20, 0, 0, 0, 0, 0, 0, 0, 250, 0, 4, 0, 18, 0, 0, 0,
  19, 0, 0, 0, 28, 0, 0, 0, 248, 0, 2, 0, 19, 0, 0, 0, 65, 0, 5, 0, 11, 0, 0, 0,
  24, 0, 0, 0, 9, 0, 0, 0, 14, 0, 0, 0, 61, 0, 4, 0, 6, 0, 0, 0, 25, 0, 0, 0,
  24, 0, 0, 0, 112, 0, 4, 0, 21, 0, 0, 0, 26, 0, 0, 0, 25, 0, 0, 0, 12, 0, 6, 0,
  21, 0, 0, 0, 27, 0, 0, 0, 1, 0, 0, 0, 13, 0, 0, 0, 26, 0, 0, 0, 62, 0, 3, 0,
  23, 0, 0, 0, 27, 0, 0, 0, 249, 0, 2, 0, 20, 0, 0, 0, 248, 0, 2, 0, 28, 0, 0, 0,
  65, 0, 5, 0, 11, 0, 0, 0, 29, 0, 0, 0, 9, 0, 0, 0, 14, 0, 0, 0, 61, 0, 4, 0,
  6, 0, 0, 0, 30, 0, 0, 0, 29, 0, 0, 0, 112, 0, 4, 0, 21, 0, 0, 0, 31, 0, 0, 0,
  30, 0, 0, 0, 12, 0, 6, 0, 21, 0, 0, 0, 32, 0, 0, 0, 1, 0, 0, 0, 14, 0, 0, 0,
  31, 0, 0, 0, 62, 0, 3, 0, 23, 0, 0, 0, 32, 0, 0, 0, 249, 0, 2, 0, 20, 0, 0, 0,
  248, 0, 2, 0, 20, 0, 0, 0, 65, 0, 5, 0, 11, 0, 0, 0, 39, 0, 0, 0, 9, 0, 0, 0,
  16, 0, 0, 0, 61, 0, 4, 0, 6, 0, 0, 0, 40, 0, 0, 0, 39, 0, 0, 0, 61, 0, 4, 0,
  21, 0, 0, 0, 41, 0, 0, 0, 23, 0, 0, 0, 65, 0, 6, 0, 42, 0, 0, 0, 43, 0, 0, 0,
  36, 0, 0, 0, 38, 0, 0, 0, 40, 0, 0, 0, 62, 0, 3, 0, 43, 0, 0, 0, 41, 0, 0, 0,
  253, 0, 1, 0, 56, 0, 1, 0]

/-- The lines of src/tests/cond_trig.dis -/
def cond_trigDis : List String := [
  "; SPIR-V",
  "; Version: 1.0",
  "; Generator: Khronos Glslang Reference Front End; 1",
  "; Bound: 50",
  "; Schema: 0",
  "               OpCapability Shader",
  "          %1 = OpExtInstImport \"GLSL.std.450\"",
  "               OpMemoryModel Logical GLSL450",
  "               OpEntryPoint GLCompute %4 \"main\" %9",
  "               OpExecutionMode %4 LocalSize 32 32 32",
  "               OpSource GLSL 430",
  "               OpName %4 \"main\"",
  "               OpName %9 \"gl_GlobalInvocationID\"",
  "               OpName %23 \"write_value\"",
  "               OpName %34 \"MyBuffer\"",
  "               OpMemberName %34 0 \"value\"",
  "               OpName %36 \"\"",
  "               OpName %47 \"Block\"",
  "               OpMemberName %47 0 \"value\"",
  "               OpName %49 \"test\"",
  "               OpDecorate %9 BuiltIn GlobalInvocationId",
  "               OpDecorate %33 ArrayStride 4",
  "               OpMemberDecorate %34 0 Offset 0",
  "               OpDecorate %34 BufferBlock",
  "               OpDecorate %36 DescriptorSet 0",
  "               OpDecorate %36 Binding 2",
  "               OpDecorate %45 BuiltIn WorkgroupSize",
  "               OpMemberDecorate %47 0 Offset 0",
  "               OpDecorate %47 BufferBlock",
  "               OpDecorate %49 DescriptorSet 0",
  "          %2 = OpTypeVoid",
  "          %3 = OpTypeFunction %2",
  "          %6 = OpTypeInt 32 0",
  "          %7 = OpTypeVector %6 3",
  "          %8 = OpTypePointer Input %7",
  "          %9 = OpVariable %8 Input",
  "         %10 = OpConstant %6 1",
  "         %11 = OpTypePointer Input %6",
  "         %14 = OpConstant %6 2",
  "         %16 = OpConstant %6 0",
  "         %17 = OpTypeBool",
  "         %21 = OpTypeFloat 32",
  "         %22 = OpTypePointer Function %21",
  "         %33 = OpTypeRuntimeArray %21",
  "         %34 = OpTypeStruct %33",
  "         %35 = OpTypePointer Uniform %34",
  "         %36 = OpVariable %35 Uniform",
  "         %37 = OpTypeInt 32 1",
  "         %38 = OpConstant %37 0",
  "         %42 = OpTypePointer Uniform %21",
  "         %44 = OpConstant %6 32",
  "         %45 = OpConstantComposite %7 %44 %44 %44",
  "         %46 = OpTypeVector %21 3",
  "         %47 = OpTypeStruct %46",
  "         %48 = OpTypePointer Uniform %47",
  "         %49 = OpVariable %48 Uniform",
  "          %4 = OpFunction %2 None %3",
  "          %5 = OpLabel",
  "         %23 = OpVariable %22 Function",
  "         %12 = OpAccessChain %11 %9 %10",
  "         %13 = OpLoad %6 %12",
  "         %15 = OpUMod %6 %13 %14",
  "         %18 = OpIEqual %17 %15 %16",
  "               OpSelectionMerge %20 None",
  "               OpBranchConditional %18 %19 %28",
  "         %19 = OpLabel",
  "         %24 = OpAccessChain %11 %9 %14",
  "         %25 = OpLoad %6 %24",
  "         %26 = OpConvertUToF %21 %25",
  "         %27 = OpExtInst %21 %1 Sin %26",
  "               OpStore %23 %27",
  "               OpBranch %20",
  "         %28 = OpLabel",
  "         %29 = OpAccessChain %11 %9 %14",
  "         %30 = OpLoad %6 %29",
  "         %31 = OpConvertUToF %21 %30",
  "         %32 = OpExtInst %21 %1 Cos %31",
  "               OpStore %23 %32",
  "               OpBranch %20",
  "         %20 = OpLabel",
  "         %39 = OpAccessChain %11 %9 %16",
  "         %40 = OpLoad %6 %39",
  "         %41 = OpLoad %21 %23",
  "         %43 = OpAccessChain %42 %36 %38 %40",
  "               OpStore %43 %41",
  "               OpReturn",
  "               OpFunctionEnd"]

example : disassembles cond_trig (cond_trigDis.flatMap fun l => l.toList ++ ['\n']) = true := by decide +kernel
example : recovers cond_trig = true := by decide +kernel

/-- src/tests/nest_if.spv -/
def nest_if : List UInt8 := [
  3, 2, 35, 7, 0, 0, 1, 0, 1, 0, 8, 0, 76, 0, 0, 0, 0, 0, 0, 0, 17, 0, 2, 0,
  1, 0, 0, 0, 11, 0, 6, 0, 1, 0, 0, 0, 71, 76, 83, 76, 46, 115, 116, 100, 46, 52, 53, 48,
  0, 0, 0, 0, 14, 0, 3, 0, 0, 0, 0, 0, 1, 0, 0, 0, 15, 0, 6, 0, 5, 0, 0, 0,
  4, 0, 0, 0, 109, 97, 105, 110, 0, 0, 0, 0, 9, 0, 0, 0, 16, 0, 6, 0, 4, 0, 0, 0,
  17, 0, 0, 0, 32, 0, 0, 0, 32, 0, 0, 0, 32, 0, 0, 0, 3, 0, 3, 0, 2, 0, 0, 0,
  174, 1, 0, 0, 5, 0, 4, 0, 4, 0, 0, 0, 109, 97, 105, 110, 0, 0, 0, 0, 5, 0, 8, 0,
  9, 0, 0, 0, 103, 108, 95, 71, 108, 111, 98, 97, 108, 73, 110, 118, 111, 99, 97, 116, 105, 111, 110, 73,
  68, 0, 0, 0, 5, 0, 5, 0, 23, 0, 0, 0, 119, 114, 105, 116, 101, 95, 118, 97, 108, 117, 101, 0,
  5, 0, 5, 0, 61, 0, 0, 0, 77, 121, 66, 117, 102, 102, 101, 114, 0, 0, 0, 0, 6, 0, 5, 0,
  61, 0, 0, 0, 0, 0, 0, 0, 118, 97, 108, 117, 101, 0, 0, 0, 5, 0, 3, 0, 63, 0, 0, 0,
  0, 0, 0, 0, 5, 0, 4, 0, 73, 0, 0, 0, 66, 108, 111, 99, 107, 0, 0, 0, 6, 0, 5, 0,
  73, 0, 0, 0, 0, 0, 0, 0, 118, 97, 108, 117, 101, 0, 0, 0, 5, 0, 4, 0, 75, 0, 0, 0,
  116, 101, 115, 116, 0, 0, 0, 0, 71, 0, 4, 0, 9, 0, 0, 0, 11, 0, 0, 0, 28, 0, 0, 0,
  71, 0, 4, 0, 60, 0, 0, 0, 6, 0, 0, 0, 4, 0, 0, 0, 72, 0, 5, 0, 61, 0, 0, 0,
  0, 0, 0, 0, 35, 0, 0, 0, 0, 0, 0, 0, 71, 0, 3, 0, 61, 0, 0, 0, 3, 0, 0, 0,
  71, 0, 4, 0, 63, 0, 0, 0, 34, 0, 0, 0, 0, 0, 0, 0, 71, 0, 4, 0, 63, 0, 0, 0,
  33, 0, 0, 0, 2, 0, 0, 0, 71, 0, 4, 0, 70, 0, 0, 0, 11, 0, 0, 0, 25, 0, 0, 0,
  72, 0, 5, 0, 73, 0, 0, 0, 0, 0, 0, 0, 35, 0, 0, 0, 0, 0, 0, 0, 71, 0, 3, 0,
  73, 0, 0, 0, 3, 0, 0, 0, 71, 0, 4, 0, 75, 0, 0, 0, 34, 0, 0, 0, 0, 0, 0, 0,
  19, 0, 2, 0, 2, 0, 0, 0, 33, 0, 3, 0, 3, 0, 0, 0, 2, 0, 0, 0, 21, 0, 4, 0,
  6, 0, 0, 0, 32, 0, 0, 0, 0, 0, 0, 0, 23, 0, 4, 0, 7, 0, 0, 0, 6, 0, 0, 0,
  3, 0, 0, 0, 32, 0, 4, 0, 8, 0, 0, 0, 1, 0, 0, 0, 7, 0, 0, 0, 59, 0, 4, 0,
  8, 0, 0, 0, 9, 0, 0, 0, 1, 0, 0, 0, 43, 0, 4, 0, 6, 0, 0, 0, 10, 0, 0, 0,
  1, 0, 0, 0, 32, 0, 4, 0, 11, 0, 0, 0, 1, 0, 0, 0, 6, 0, 0, 0, 43, 0, 4, 0,
  6, 0, 0, 0, 14, 0, 0, 0, 2, 0, 0, 0, 43, 0, 4, 0, 6, 0, 0, 0, 16, 0, 0, 0,
  0, 0, 0, 0, 20, 0, 2, 0, 17, 0, 0, 0, 21, 0, 4, 0, 21, 0, 0, 0, 32, 0, 0, 0,
  1, 0, 0, 0, 32, 0, 4, 0, 22, 0, 0, 0, 7, 0, 0, 0, 21, 0, 0, 0, 43, 0, 4, 0,
  21, 0, 0, 0, 27, 0, 0, 0, 128, 0, 0, 0, 43, 0, 4, 0, 21, 0, 0, 0, 30, 0, 0, 0,
  0, 0, 0, 0, 43, 0, 4, 0, 21, 0, 0, 0, 34, 0, 0, 0, 1, 0, 0, 0, 43, 0, 4, 0,
  21, 0, 0, 0, 37, 0, 0, 0, 2, 0, 0, 0, 29, 0, 3, 0, 60, 0, 0, 0, 21, 0, 0, 0,
  30, 0, 3, 0, 61, 0, 0, 0, 60, 0, 0, 0, 32, 0, 4, 0, 62, 0, 0, 0, 2, 0, 0, 0,
  61, 0, 0, 0, 59, 0, 4, 0, 62, 0, 0, 0, 63, 0, 0, 0, 2, 0, 0, 0, 32, 0, 4, 0,
  67, 0, 0, 0, 2, 0, 0, 0, 21, 0, 0, 0, 43, 0, 4, 0, 6, 0, 0, 0, 69, 0, 0, 0,
  32, 0, 0, 0, 44, 0, 6, 0, 7, 0, 0, 0, 70, 0, 0, 0, 69, 0, 0, 0, 69, 0, 0, 0,
  69, 0, 0, 0, 22, 0, 3, 0, 71, 0, 0, 0, 32, 0, 0, 0, 23, 0, 4, 0, 72, 0, 0, 0,
  71, 0, 0, 0, 3, 0, 0, 0, 30, 0, 3, 0, 73, 0, 0, 0, 72, 0, 0, 0, 32, 0, 4, 0,
  74, 0, 0, 0, 2, 0, 0, 0, 73, 0, 0, 0, 59, 0, 4, 0, 74, 0, 0, 0, 75, 0, 0, 0,
  2, 0, 0, 0, 54, 0, 5, 0, 2, 0, 0, 0, 4, 0, 0, 0, 0, 0, 0, 0, 3, 0, 0, 0,
  248, 0, 2, 0, 5, 0, 0, 0, 59, 0, 4, 0, 22, 0, 0, 0, 23, 0, 0, 0, 7, 0, 0, 0,
  65, 0, 5, 0, 11, 0, 0, 0, 12, 0, 0, 0, 9, 0, 0, 0, 10, 0, 0, 0, 61, 0, 4, 0,
  6, 0, 0, 0, 13, 0, 0, 0, 12, 0, 0, 0, 137, 0, 5, 0, 6, 0, 0, 0, 15, 0, 0, 0,
  13, 0, 0, 0, 14, 0, 0, 0, 170, 0, 5, 0, 17, 0, 0, 0, 18, 0, 0, 0, 15, 0, 0, 0,
  16, 0, 0, 0, 247, 0, 3, 0, 20, 0, 0, 0, 0, 0, 0, 0, 250, 0, 4, 0, 18, 0, 0, 0,
  19, 0, 0, 0, 40, 0, 0, 0, 248, 0, 2, 0, 19, 0, 0, 0, 65, 0, 5, 0, 11, 0, 0, 0,
  24, 0, 0, 0, 9, 0, 0, 0, 10, 0, 0, 0, 61, 0, 4, 0, 6, 0, 0, 0, 25, 0, 0, 0,
  24, 0, 0, 0, 124, 0, 4, 0, 21, 0, 0, 0, 26, 0, 0, 0, 25, 0, 0, 0, 130, 0, 5, 0,
  21, 0, 0, 0, 28, 0, 0, 0, 26, 0, 0, 0, 27, 0, 0, 0, 62, 0, 3, 0, 23, 0, 0, 0,
  28, 0, 0, 0, 61, 0, 4, 0, 21, 0, 0, 0, 29, 0, 0, 0, 23, 0, 0, 0, 173, 0, 5, 0,
  17, 0, 0, 0, 31, 0, 0, 0, 29, 0, 0, 0, 30, 0, 0, 0, 247, 0, 3, 0, 33, 0, 0, 0,
  0, 0, 0, 0, 250, 0, 4, 0, 31, 0, 0, 0, 32, 0, 0, 0, 33, 0, 0, 0, 248, 0, 2, 0,
  32, 0, 0, 0, 61, 0, 4, 0, 21, 0, 0, 0, 35, 0, 0, 0, 23, 0, 0, 0, 128, 0, 5, 0,
  21, 0, 0, 0, 36, 0, 0, 0, 35, 0, 0, 0, 34, 0, 0, 0, 62, 0, 3, 0, 23, 0, 0, 0,
  36, 0, 0, 0, 249, 0, 2, 0, 33, 0, 0, 0, 248, 0, 2, 0, 33, 0, 0, 0, 61, 0, 4, 0,
  21, 0, 0, 0, 38, 0, 0, 0, 23, 0, 0, 0, 135, 0, 5, 0, 21, 0, 0, 0, 39, 0, 0, 0,
  38, 0, 0, 0, 37, 0, 0, 0, 62, 0, 3, 0, 23, 0, 0, 0, 39, 0, 0, 0, 249, 0, 2, 0,
  20, 0, 0, 0, 248, 0, 2, 0, 40, 0, 0, 0, 65, 0, 5, 0, 11, 0, 0, 0, 41, 0, 0, 0,
  9, 0, 0, 0, 14, 0, 0, 0, 61, 0, 4, 0, 6, 0, 0, 0, 42, 0, 0, 0, 41, 0, 0, 0,
  124, 0, 4, 0, 21, 0, 0, 0, 43, 0, 0, 0, 42, 0, 0, 0, 130, 0, 5, 0, 21, 0, 0, 0,
  44, 0, 0, 0, 43, 0, 0, 0, 27, 0, 0, 0, 62, 0, 3, 0, 23, 0, 0, 0, 44, 0, 0, 0,
  61, 0, 4, 0, 21, 0, 0, 0, 45, 0, 0, 0, 23, 0, 0, 0, 173, 0, 5, 0, 17, 0, 0, 0,
  46, 0, 0, 0, 45, 0, 0, 0, 30, 0, 0, 0, 247, 0, 3, 0, 48, 0, 0, 0, 0, 0, 0, 0,
  250, 0, 4, 0, 46, 0, 0, 0, 47, 0, 0, 0, 51, 0, 0, 0, 248, 0, 2, 0, 47, 0, 0, 0,
  61, 0, 4, 0, 21, 0, 0, 0, 49, 0, 0, 0, 23, 0, 0, 0, 128, 0, 5, 0, 21, 0, 0, 0,
  50, 0, 0, 0, 49, 0, 0, 0, 34, 0, 0, 0, 62, 0, 3, 0, 23, 0, 0, 0, 50, 0, 0, 0,
  249, 0, 2, 0, 48, 0, 0, 0, 248, 0, 2, 0, 51, 0, 0, 0, 61, 0, 4, 0, 21, 0, 0, 0,
  52, 0, 0, 0, 23, 0, 0, 0, 130, 0, 5, 0, 21, 0, 0, 0, 53, 0, 0, 0, 52, 0, 0, 0,
  34, 0, 0, 0, 62, 0, 3, 0, 23, 0, 0, 0, 53, 0, 0, 0, 249, 0, 2, 0, 48, 0, 0, 0,
  248, 0, 2, 0, 48, 0, 0, 0, 249, 0, 2, 0, 20, 0, 0, 0, 248, 0, 2, 0, 20, 0, 0, 0,
  61, 0, 4, 0, 21, 0, 0, 0, 54, 0, 0, 0, 23, 0, 0, 0, 173, 0, 5, 0, 17, 0, 0, 0,
  55, 0, 0, 0, 54, 0, 0, 0, 30, 0, 0, 0, 247, 0, 3, 0, 57, 0, 0, 0, 0, 0, 0, 0,
  250, 0, 4, 0, 55, 0, 0, 0, 56, 0, 0, 0, 57, 0, 0, 0, 248, 0, 2, 0, 56, 0, 0, 0,
  61, 0, 4, 0, 21, 0, 0, 0, 58, 0, 0, 0, 23, 0, 0, 0, 132, 0, 5, 0, 21, 0, 0, 0,
  59, 0, 0, 0, 58, 0, 0, 0, 37, 0, 0, 0, 62, 0, 3, 0, 23, 0, 0, 0, 59, 0, 0, 0,
  249, 0, 2, 0, 57, 0, 0, 0, 248, 0, 2, 0, 57, 0, 0, 0, 65, 0, 5, 0, 11, 0, 0, 0,
  64, 0, 0, 0, 9, 0, 0, 0, 16, 0, 0, 0, 61, 0, 4, 0, 6, 0, 0, 0, 65, 0, 0, 0,
  64, 0, 0, 0, 61, 0, 4, 0, 21, 0, 0, 0, 66, 0, 0, 0, 23, 0, 0, 0, 65, 0, 6, 0,
  67, 0, 0, 0, 68, 0, 0, 0, 63, 0, 0, 0, 30, 0, 0, 0, 65, 0, 0, 0, 62, 0, 3, 0,
  68, 0, 0, 0, 66, 0, 0, 0, 253, 0, 1, 0, 56, 0, 1, 0]

/-- The lines of src/tests/nest_if.dis -/
def nest_ifDis : List String := [
  "; SPIR-V",
  "; Version: 1.0",
  "; Generator: Khronos Glslang Reference Front End; 1",
  "; Bound: 76",
  "; Schema: 0",
  "               OpCapability Shader",
  "          %1 = OpExtInstImport \"GLSL.std.450\"",
  "               OpMemoryModel Logical GLSL450",
  "               OpEntryPoint GLCompute %4 \"main\" %9",
  "               OpExecutionMode %4 LocalSize 32 32 32",
  "               OpSource GLSL 430",
  "               OpName %4 \"main\"",
  "               OpName %9 \"gl_GlobalInvocationID\"",
  "               OpName %23 \"write_value\"",
  "               OpName %61 \"MyBuffer\"",
  "               OpMemberName %61 0 \"value\"",
  "               OpName %63 \"\"",
  "               OpName %73 \"Block\"",
  "               OpMemberName %73 0 \"value\"",
  "               OpName %75 \"test\"",
  "               OpDecorate %9 BuiltIn GlobalInvocationId",
  "               OpDecorate %60 ArrayStride 4",
  "               OpMemberDecorate %61 0 Offset 0",
  "               OpDecorate %61 BufferBlock",
  "               OpDecorate %63 DescriptorSet 0",
  "               OpDecorate %63 Binding 2",
  "               OpDecorate %70 BuiltIn WorkgroupSize",
  "               OpMemberDecorate %73 0 Offset 0",
  "               OpDecorate %73 BufferBlock",
  "               OpDecorate %75 DescriptorSet 0",
  "          %2 = OpTypeVoid",
  "          %3 = OpTypeFunction %2",
  "          %6 = OpTypeInt 32 0",
  "          %7 = OpTypeVector %6 3",
  "          %8 = OpTypePointer Input %7",
  "          %9 = OpVariable %8 Input",
  "         %10 = OpConstant %6 1",
  "         %11 = OpTypePointer Input %6",
  "         %14 = OpConstant %6 2",
  "         %16 = OpConstant %6 0",
  "         %17 = OpTypeBool",
  "         %21 = OpTypeInt 32 1",
  "         %22 = OpTypePointer Function %21",
  "         %27 = OpConstant %21 128",
  "         %30 = OpConstant %21 0",
  "         %34 = OpConstant %21 1",
  "         %37 = OpConstant %21 2",
  "         %60 = OpTypeRuntimeArray %21",
  "         %61 = OpTypeStruct %60",
  "         %62 = OpTypePointer Uniform %61",
  "         %63 = OpVariable %62 Uniform",
  "         %67 = OpTypePointer Uniform %21",
  "         %69 = OpConstant %6 32",
  "         %70 = OpConstantComposite %7 %69 %69 %69",
  "         %71 = OpTypeFloat 32",
  "         %72 = OpTypeVector %71 3",
  "         %73 = OpTypeStruct %72",
  "         %74 = OpTypePointer Uniform %73",
  "         %75 = OpVariable %74 Uniform",
  "          %4 = OpFunction %2 None %3",
  "          %5 = OpLabel",
  "         %23 = OpVariable %22 Function",
  "         %12 = OpAccessChain %11 %9 %10",
  "         %13 = OpLoad %6 %12",
  "         %15 = OpUMod %6 %13 %14",
  "         %18 = OpIEqual %17 %15 %16",
  "               OpSelectionMerge %20 None",
  "               OpBranchConditional %18 %19 %40",
  "         %19 = OpLabel",
  "         %24 = OpAccessChain %11 %9 %10",
  "         %25 = OpLoad %6 %24",
  "         %26 = OpBitcast %21 %25",
  "         %28 = OpISub %21 %26 %27",
  "               OpStore %23 %28",
  "         %29 = OpLoad %21 %23",
  "         %31 = OpSGreaterThan %17 %29 %30",
  "               OpSelectionMerge %33 None",
  "               OpBranchConditional %31 %32 %33",
  "         %32 = OpLabel",
  "         %35 = OpLoad %21 %23",
  "         %36 = OpIAdd %21 %35 %34",
  "               OpStore %23 %36",
  "               OpBranch %33",
  "         %33 = OpLabel",
  "         %38 = OpLoad %21 %23",
  "         %39 = OpSDiv %21 %38 %37",
  "               OpStore %23 %39",
  "               OpBranch %20",
  "         %40 = OpLabel",
  "         %41 = OpAccessChain %11 %9 %14",
  "         %42 = OpLoad %6 %41",
  "         %43 = OpBitcast %21 %42",
  "         %44 = OpISub %21 %43 %27",
  "               OpStore %23 %44",
  "         %45 = OpLoad %21 %23",
  "         %46 = OpSGreaterThan %17 %45 %30",
  "               OpSelectionMerge %48 None",
  "               OpBranchConditional %46 %47 %51",
  "         %47 = OpLabel",
  "         %49 = OpLoad %21 %23",
  "         %50 = OpIAdd %21 %49 %34",
  "               OpStore %23 %50",
  "               OpBranch %48",
  "         %51 = OpLabel",
  "         %52 = OpLoad %21 %23",
  "         %53 = OpISub %21 %52 %34",
  "               OpStore %23 %53",
  "               OpBranch %48",
  "         %48 = OpLabel",
  "               OpBranch %20",
  "         %20 = OpLabel",
  "         %54 = OpLoad %21 %23",
  "         %55 = OpSGreaterThan %17 %54 %30",
  "               OpSelectionMerge %57 None",
  "               OpBranchConditional %55 %56 %57",
  "         %56 = OpLabel",
  "         %58 = OpLoad %21 %23",
  "         %59 = OpIMul %21 %58 %37",
  "               OpStore %23 %59",
  "               OpBranch %57",
  "         %57 = OpLabel",
  "         %64 = OpAccessChain %11 %9 %16",
  "         %65 = OpLoad %6 %64",
  "         %66 = OpLoad %21 %23",
  "         %68 = OpAccessChain %67 %63 %30 %65",
  "               OpStore %68 %66",
  "               OpReturn",
  "               OpFunctionEnd"]

example : disassembles nest_if (nest_ifDis.flatMap fun l => l.toList ++ ['\n']) = true := by decide +kernel
example : recovers nest_if = true := by decide +kernel

/-- src/tests/loop_simple.spv -/
def loop_simple : List UInt8 := [
  3, 2, 35, 7, 0, 0, 1, 0, 1, 0, 8, 0, 52, 0, 0, 0, 0, 0, 0, 0, 17, 0, 2, 0,
  1, 0, 0, 0, 11, 0, 6, 0, 1, 0, 0, 0, 71, 76, 83, 76, 46, 115, 116, 100, 46, 52, 53, 48,
  0, 0, 0, 0, 14, 0, 3, 0, 0, 0, 0, 0, 1, 0, 0, 0, 15, 0, 6, 0, 5, 0, 0, 0,
  4, 0, 0, 0, 109, 97, 105, 110, 0, 0, 0, 0, 20, 0, 0, 0, 16, 0, 6, 0, 4, 0, 0, 0,
  17, 0, 0, 0, 32, 0, 0, 0, 32, 0, 0, 0, 32, 0, 0, 0, 3, 0, 3, 0, 2, 0, 0, 0,
  174, 1, 0, 0, 5, 0, 4, 0, 4, 0, 0, 0, 109, 97, 105, 110, 0, 0, 0, 0, 5, 0, 5, 0,
  8, 0, 0, 0, 119, 114, 105, 116, 101, 95, 118, 97, 108, 117, 101, 0, 5, 0, 3, 0, 10, 0, 0, 0,
  105, 0, 0, 0, 5, 0, 8, 0, 20, 0, 0, 0, 103, 108, 95, 71, 108, 111, 98, 97, 108, 73, 110, 118,
  111, 99, 97, 116, 105, 111, 110, 73, 68, 0, 0, 0, 5, 0, 5, 0, 36, 0, 0, 0, 77, 121, 66, 117,
  102, 102, 101, 114, 0, 0, 0, 0, 6, 0, 5, 0, 36, 0, 0, 0, 0, 0, 0, 0, 118, 97, 108, 117,
  101, 0, 0, 0, 5, 0, 3, 0, 38, 0, 0, 0, 0, 0, 0, 0, 5, 0, 4, 0, 49, 0, 0, 0,
  66, 108, 111, 99, 107, 0, 0, 0, 6, 0, 5, 0, 49, 0, 0, 0, 0, 0, 0, 0, 118, 97, 108, 117,
  101, 0, 0, 0, 5, 0, 4, 0, 51, 0, 0, 0, 116, 101, 115, 116, 0, 0, 0, 0, 71, 0, 4, 0,
  20, 0, 0, 0, 11, 0, 0, 0, 28, 0, 0, 0, 71, 0, 4, 0, 35, 0, 0, 0, 6, 0, 0, 0,
  4, 0, 0, 0, 72, 0, 5, 0, 36, 0, 0, 0, 0, 0, 0, 0, 35, 0, 0, 0, 0, 0, 0, 0,
  71, 0, 3, 0, 36, 0, 0, 0, 3, 0, 0, 0, 71, 0, 4, 0, 38, 0, 0, 0, 34, 0, 0, 0,
  0, 0, 0, 0, 71, 0, 4, 0, 38, 0, 0, 0, 33, 0, 0, 0, 2, 0, 0, 0, 71, 0, 4, 0,
  46, 0, 0, 0, 11, 0, 0, 0, 25, 0, 0, 0, 72, 0, 5, 0, 49, 0, 0, 0, 0, 0, 0, 0,
  35, 0, 0, 0, 0, 0, 0, 0, 71, 0, 3, 0, 49, 0, 0, 0, 3, 0, 0, 0, 71, 0, 4, 0,
  51, 0, 0, 0, 34, 0, 0, 0, 0, 0, 0, 0, 19, 0, 2, 0, 2, 0, 0, 0, 33, 0, 3, 0,
  3, 0, 0, 0, 2, 0, 0, 0, 21, 0, 4, 0, 6, 0, 0, 0, 32, 0, 0, 0, 0, 0, 0, 0,
  32, 0, 4, 0, 7, 0, 0, 0, 7, 0, 0, 0, 6, 0, 0, 0, 43, 0, 4, 0, 6, 0, 0, 0,
  9, 0, 0, 0, 1, 0, 0, 0, 43, 0, 4, 0, 6, 0, 0, 0, 11, 0, 0, 0, 0, 0, 0, 0,
  23, 0, 4, 0, 18, 0, 0, 0, 6, 0, 0, 0, 3, 0, 0, 0, 32, 0, 4, 0, 19, 0, 0, 0,
  1, 0, 0, 0, 18, 0, 0, 0, 59, 0, 4, 0, 19, 0, 0, 0, 20, 0, 0, 0, 1, 0, 0, 0,
  32, 0, 4, 0, 21, 0, 0, 0, 1, 0, 0, 0, 6, 0, 0, 0, 20, 0, 2, 0, 24, 0, 0, 0,
  43, 0, 4, 0, 6, 0, 0, 0, 26, 0, 0, 0, 2, 0, 0, 0, 21, 0, 4, 0, 32, 0, 0, 0,
  32, 0, 0, 0, 1, 0, 0, 0, 43, 0, 4, 0, 32, 0, 0, 0, 33, 0, 0, 0, 1, 0, 0, 0,
  29, 0, 3, 0, 35, 0, 0, 0, 6, 0, 0, 0, 30, 0, 3, 0, 36, 0, 0, 0, 35, 0, 0, 0,
  32, 0, 4, 0, 37, 0, 0, 0, 2, 0, 0, 0, 36, 0, 0, 0, 59, 0, 4, 0, 37, 0, 0, 0,
  38, 0, 0, 0, 2, 0, 0, 0, 43, 0, 4, 0, 32, 0, 0, 0, 39, 0, 0, 0, 0, 0, 0, 0,
  32, 0, 4, 0, 43, 0, 0, 0, 2, 0, 0, 0, 6, 0, 0, 0, 43, 0, 4, 0, 6, 0, 0, 0,
  45, 0, 0, 0, 32, 0, 0, 0, 44, 0, 6, 0, 18, 0, 0, 0, 46, 0, 0, 0, 45, 0, 0, 0,
  45, 0, 0, 0, 45, 0, 0, 0, 22, 0, 3, 0, 47, 0, 0, 0, 32, 0, 0, 0, 23, 0, 4, 0,
  48, 0, 0, 0, 47, 0, 0, 0, 3, 0, 0, 0, 30, 0, 3, 0, 49, 0, 0, 0, 48, 0, 0, 0,
  32, 0, 4, 0, 50, 0, 0, 0, 2, 0, 0, 0, 49, 0, 0, 0, 59, 0, 4, 0, 50, 0, 0, 0,
  51, 0, 0, 0, 2, 0, 0, 0, 54, 0, 5, 0, 2, 0, 0, 0, 4, 0, 0, 0, 0, 0, 0, 0,
  3, 0, 0, 0, 248, 0, 2, 0, 5, 0, 0, 0, 59, 0, 4, 0, 7, 0, 0, 0, 8, 0, 0, 0,
  7, 0, 0, 0, 59, 0, 4, 0, 7, 0, 0, 0, 10, 0, 0, 0, 7, 0, 0, 0, 62, 0, 3, 0,
  8, 0, 0, 0, 9, 0, 0, 0, 62, 0, 3, 0, 10, 0, 0, 0, 11, 0, 0, 0, 249, 0, 2, 0,
  12, 0, 0, 0, 248, 0, 2, 0, 12, 0, 0, 0, 246, 0, 4, 0, 14, 0, 0, 0, 15, 0, 0, 0,
  0, 0, 0, 0, 249, 0, 2, 0, 16, 0, 0, 0, 248, 0, 2, 0, 16, 0, 0, 0, 61, 0, 4, 0,
  6, 0, 0, 0, 17, 0, 0, 0, 10, 0, 0, 0, 65, 0, 5, 0, 21, 0, 0, 0, 22, 0, 0, 0,
  20, 0, 0, 0, 9, 0, 0, 0, 61, 0, 4, 0, 6, 0, 0, 0, 23, 0, 0, 0, 22, 0, 0, 0,
  176, 0, 5, 0, 24, 0, 0, 0, 25, 0, 0, 0, 17, 0, 0, 0, 23, 0, 0, 0, 250, 0, 4, 0,
  25, 0, 0, 0, 13, 0, 0, 0, 14, 0, 0, 0, 248, 0, 2, 0, 13, 0, 0, 0, 65, 0, 5, 0,
  21, 0, 0, 0, 27, 0, 0, 0, 20, 0, 0, 0, 26, 0, 0, 0, 61, 0, 4, 0, 6, 0, 0, 0,
  28, 0, 0, 0, 27, 0, 0, 0, 61, 0, 4, 0, 6, 0, 0, 0, 29, 0, 0, 0, 8, 0, 0, 0,
  132, 0, 5, 0, 6, 0, 0, 0, 30, 0, 0, 0, 29, 0, 0, 0, 28, 0, 0, 0, 62, 0, 3, 0,
  8, 0, 0, 0, 30, 0, 0, 0, 249, 0, 2, 0, 15, 0, 0, 0, 248, 0, 2, 0, 15, 0, 0, 0,
  61, 0, 4, 0, 6, 0, 0, 0, 31, 0, 0, 0, 10, 0, 0, 0, 128, 0, 5, 0, 6, 0, 0, 0,
  34, 0, 0, 0, 31, 0, 0, 0, 33, 0, 0, 0, 62, 0, 3, 0, 10, 0, 0, 0, 34, 0, 0, 0,
  249, 0, 2, 0, 12, 0, 0, 0, 248, 0, 2, 0, 14, 0, 0, 0, 65, 0, 5, 0, 21, 0, 0, 0,
  40, 0, 0, 0, 20, 0, 0, 0, 11, 0, 0, 0, 61, 0, 4, 0, 6, 0, 0, 0, 41, 0, 0, 0,
  40, 0, 0, 0, 61, 0, 4, 0, 6, 0, 0, 0, 42, 0, 0, 0, 8, 0, 0, 0, 65, 0, 6, 0,
  43, 0, 0, 0, 44, 0, 0, 0, 38, 0, 0, 0, 39, 0, 0, 0, 41, 0, 0, 0, 62, 0, 3, 0,
  44, 0, 0, 0, 42, 0, 0, 0, 253, 0, 1, 0, 56, 0, 1, 0]

/-- The lines of src/tests/loop_simple.dis -/
def loop_simpleDis : List String := [
  "; SPIR-V",
  "; Version: 1.0",
  "; Generator: Khronos Glslang Reference Front End; 1",
  "; Bound: 52",
  "; Schema: 0",
  "               OpCapability Shader",
  "          %1 = OpExtInstImport \"GLSL.std.450\"",
  "               OpMemoryModel Logical GLSL450",
  "               OpEntryPoint GLCompute %4 \"main\" %20",
  "               OpExecutionMode %4 LocalSize 32 32 32",
  "               OpSource GLSL 430",
  "               OpName %4 \"main\"",
  "               OpName %8 \"write_value\"",
  "               OpName %10 \"i\"",
  "               OpName %20 \"gl_GlobalInvocationID\"",
  "               OpName %36 \"MyBuffer\"",
  "               OpMemberName %36 0 \"value\"",
  "               OpName %38 \"\"",
  "               OpName %49 \"Block\"",
  "               OpMemberName %49 0 \"value\"",
  "               OpName %51 \"test\"",
  "               OpDecorate %20 BuiltIn GlobalInvocationId",
  "               OpDecorate %35 ArrayStride 4",
  "               OpMemberDecorate %36 0 Offset 0",
  "               OpDecorate %36 BufferBlock",
  "               OpDecorate %38 DescriptorSet 0",
  "               OpDecorate %38 Binding 2",
  "               OpDecorate %46 BuiltIn WorkgroupSize",
  "               OpMemberDecorate %49 0 Offset 0",
  "               OpDecorate %49 BufferBlock",
  "               OpDecorate %51 DescriptorSet 0",
  "          %2 = OpTypeVoid",
  "          %3 = OpTypeFunction %2",
  "          %6 = OpTypeInt 32 0",
  "          %7 = OpTypePointer Function %6",
  "          %9 = OpConstant %6 1",
  "         %11 = OpConstant %6 0",
  "         %18 = OpTypeVector %6 3",
  "         %19 = OpTypePointer Input %18",
  "         %20 = OpVariable %19 Input",
  "         %21 = OpTypePointer Input %6",
  "         %24 = OpTypeBool",
  "         %26 = OpConstant %6 2",
  "         %32 = OpTypeInt 32 1",
  "         %33 = OpConstant %32 1",
  "         %35 = OpTypeRuntimeArray %6",
  "         %36 = OpTypeStruct %35",
  "         %37 = OpTypePointer Uniform %36",
  "         %38 = OpVariable %37 Uniform",
  "         %39 = OpConstant %32 0",
  "         %43 = OpTypePointer Uniform %6",
  "         %45 = OpConstant %6 32",
  "         %46 = OpConstantComposite %18 %45 %45 %45",
  "         %47 = OpTypeFloat 32",
  "         %48 = OpTypeVector %47 3",
  "         %49 = OpTypeStruct %48",
  "         %50 = OpTypePointer Uniform %49",
  "         %51 = OpVariable %50 Uniform",
  "          %4 = OpFunction %2 None %3",
  "          %5 = OpLabel",
  "          %8 = OpVariable %7 Function",
  "         %10 = OpVariable %7 Function",
  "               OpStore %8 %9",
  "               OpStore %10 %11",
  "               OpBranch %12",
  "         %12 = OpLabel",
  "               OpLoopMerge %14 %15 None",
  "               OpBranch %16",
  "         %16 = OpLabel",
  "         %17 = OpLoad %6 %10",
  "         %22 = OpAccessChain %21 %20 %9",
  "         %23 = OpLoad %6 %22",
  "         %25 = OpULessThan %24 %17 %23",
  "               OpBranchConditional %25 %13 %14",
  "         %13 = OpLabel",
  "         %27 = OpAccessChain %21 %20 %26",
  "         %28 = OpLoad %6 %27",
  "         %29 = OpLoad %6 %8",
  "         %30 = OpIMul %6 %29 %28",
  "               OpStore %8 %30",
  "               OpBranch %15",
  "         %15 = OpLabel",
  "         %31 = OpLoad %6 %10",
  "         %34 = OpIAdd %6 %31 %33",
  "               OpStore %10 %34",
  "               OpBranch %12",
  "         %14 = OpLabel",
  "         %40 = OpAccessChain %21 %20 %11",
  "         %41 = OpLoad %6 %40",
  "         %42 = OpLoad %6 %8",
  "         %44 = OpAccessChain %43 %38 %39 %41",
  "               OpStore %44 %42",
  "               OpReturn",
  "               OpFunctionEnd"]

example : disassembles loop_simple (loop_simpleDis.flatMap fun l => l.toList ++ ['\n']) = true := by decide +kernel
example : recovers loop_simple = true := by decide +kernel

end Magma.Conformance
