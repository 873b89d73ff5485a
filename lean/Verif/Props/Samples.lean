import Verif.Model.Glsl
import Verif.Model.Display
import Verif.Spec.Serialise
import Verif.Spec.Layout
/-! Concrete modules for the examples beside the theorems. -/

/-- No extended instructions -/
instance : Magma.Display Empty := ⟨fun e => nomatch e⟩

namespace Magma.Samples

/-- Header: version 1.0, generator 8 version 1, bound 20 -/
def header : List UInt8 := [3, 2, 0x23, 7, 0, 0, 1, 0, 1, 0, 8, 0, 20, 0, 0, 0, 0, 0, 0, 0]

/-- OpExtInstImport %1 "GLSL.std.450" -/
def importWords : List UInt8 :=
  [11, 0, 6, 0, 1, 0, 0, 0, 71, 76, 83, 76, 46, 115, 116, 100, 46, 52, 53, 48, 0, 0, 0, 0]

/-- OpMemoryModel Logical GLSL450 -/
def modelWords : List UInt8 := [14, 0, 3, 0, 0, 0, 0, 0, 1, 0, 0, 0]

/-- OpTypeVoid %2 -/
def voidWords : List UInt8 := [19, 0, 2, 0, 2, 0, 0, 0]

/-- %9 = OpExtInst %2 %1 Sin %7 -/
def sinWords : List UInt8 :=
  [12, 0, 6, 0, 2, 0, 0, 0, 9, 0, 0, 0, 1, 0, 0, 0, 13, 0, 0, 0, 7, 0, 0, 0]

/-- A small module -/
def bytes : List UInt8 := header ++ importWords ++ modelWords ++ voidWords ++ sinWords

/-- What it means -/
def raw : RawModule Glsl.Inst :=
  { version := ⟨1, 0⟩, generator := ⟨.KhronosGlslang, 1⟩, bound := 20,
    instructions :=
      [.OpExtInstImport ⟨⟨1⟩, "GLSL.std.450"⟩, .OpMemoryModel ⟨.Logical, .Glsl450⟩,
       .OpTypeVoid ⟨⟨2⟩⟩, .OpExtInst ⟨⟨2⟩, ⟨9⟩, ⟨1⟩, .Sin ⟨⟨7⟩⟩⟩] }

/-- The known instruction sets -/
def sets : List (ExtInstSet Glsl.Inst) := [Glsl.instSet]

theorem read_bytes : readModule bytes sets = .ok raw := by rfl

/-- A function with a loop: block 20 is the loop header, 21 tests, 22 is the body, 23 follows. -/
def loopFn : FunctionDefinition Empty :=
  { function := ⟨⟨2⟩, ⟨12⟩, ⟨false, false, false, false⟩, ⟨3⟩⟩, parameters := [⟨⟨4⟩, ⟨13⟩⟩]
    blocks :=
      [ { label := ⟨⟨20⟩⟩, code := [.OpVariable ⟨⟨5⟩, ⟨14⟩, .Function, none⟩]
          merge := some (.OpLoopMerge ⟨⟨23⟩, ⟨22⟩, ⟨true, false, false, none⟩⟩), branch := .OpBranch ⟨⟨21⟩⟩ },
        { label := ⟨⟨21⟩⟩, code := [.OpLoad ⟨⟨4⟩, ⟨15⟩, ⟨14⟩, none⟩], merge := none
          branch := .OpBranchConditional ⟨⟨15⟩, ⟨22⟩, ⟨23⟩, none⟩ },
        { label := ⟨⟨22⟩⟩, code := [], merge := none, branch := .OpBranch ⟨⟨20⟩⟩ },
        { label := ⟨⟨23⟩⟩, code := [.OpNop {}], merge := none, branch := .OpReturn {} } ] }

/-- A module with something in every section -/
def logical : LogicalModule Empty :=
  { capabilities := [.Shader, .Linkage], extensions := ["SPV_KHR_x"]
    ext_inst_imports := [⟨⟨1⟩, "GLSL.std.450"⟩], memory_model := ⟨.Logical, .Glsl450⟩
    entry_points := [⟨.Fragment, ⟨12⟩, "main", []⟩], execution_modes := [⟨⟨12⟩, .OriginUpperLeft⟩]
    debug := [.OpName ⟨⟨12⟩, "main"⟩], annotations := [.OpDecorate ⟨⟨6⟩, .Flat⟩]
    globals := [.GroupType (.OpTypeVoid ⟨⟨2⟩⟩), .OpVariable ⟨⟨5⟩, ⟨6⟩, .Output, none⟩]
    function_declarations := [⟨⟨⟨2⟩, ⟨7⟩, ⟨false, false, false, false⟩, ⟨3⟩⟩, [⟨⟨4⟩, ⟨8⟩⟩]⟩]
    function_definitions := [loopFn] }

/-- Its instructions -/
def logicalRaw : RawModule Empty :=
  { version := ⟨1, 0⟩, generator := ⟨.KhronosGlslang, 1⟩, bound := 30
    instructions := Spec.layout logical }

end Magma.Samples
