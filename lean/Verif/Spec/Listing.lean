import Verif.Spec.Reference
import Verif.Spec.Disassembly
import Verif.Spec.Names
/-! A reference for the disassembly. It goes from the words to the text by a table of the operands of each opcode,
in the order of the standard, and builds no module. Nothing here calls the printers of the model. Where the words
are not those of a module, the text means nothing. -/

namespace Magma.Spec

/-- Prints operands from the front of the words: what is printed, and the words that are left -/
abbrev Shown := List UInt32 → List Text × List UInt32

/-- One word -/
def shownWord (f : UInt32 → Text) : Shown
  | [] => ([], [])
  | w :: ws => ([f w], ws)

/-- An id has a percent sign. -/
def idText (w : UInt32) : Text := '%' :: decimal w.toNat

/-- A number is decimal and without sign. -/
def numberText (w : UInt32) : Text := decimal w.toNat

/-- An enumerant has its name. The only operand that may be a number without a name is the source language. -/
def nameText (names : Table) (w : UInt32) : Text :=
  match names.lookup w with
  | some name => name.toList
  | none => "Unknown(".toList ++ decimal w.toNat ++ ")".toList

/-- A mask has the names of its bits. -/
def maskText (bits : List String) (w : UInt32) : Text := (flagText (namesOf bits 0 w.toNat.testBit)).toList

def anId : Shown := shownWord idText
def aNumber : Shown := shownWord numberText
def aName (names : Table) : Shown := shownWord (nameText names)
def aMask (bits : List String) : Shown := shownWord (maskText bits)

/-- Ids up to the end -/
def theIds : Shown := fun ws => (ws.map idText, [])

/-- Numbers up to the end -/
def theNumbers : Shown := fun ws => (ws.map numberText, [])

/-- A string, as it is -/
def bareString : Shown := fun ws => ([((textOf ws).getD "").toList], (afterText ws).getD [])

/-- A string, in quotation marks. Nothing is escaped. -/
def aString : Shown := fun ws => (['"' :: (((textOf ws).getD "").toList ++ ['"'])], (afterText ws).getD [])

/-- One after the other -/
def eachOf : List Shown → Shown
  | [], ws => ([], ws)
  | s :: ss, ws => ((s ws).1 ++ (eachOf ss (s ws).2).1, (eachOf ss (s ws).2).2)

/-- Nothing is printed for an operand that is not there. -/
def ifAny (s : Shown) : Shown
  | [] => ([], [])
  | w :: ws => s (w :: ws)

/-- The name of a number, and the operands that belong to it -/
def withOperands (names : Table) (operands : Nat → List Shown) : Shown
  | [] => ([], [])
  | w :: ws => (nameText names w :: (eachOf (operands w.toNat) ws).1, (eachOf (operands w.toNat) ws).2)

/-- The names of the bits of a loop control; the dependency length is the word that follows. -/
def aLoopControl : Shown
  | [] => ([], [])
  | w :: ws =>
    let bits := namesOf loopControlBits 0 w.toNat.testBit
    if w.toNat.testBit 3 then
      ([(flagText (bits ++ ["DependencyLength(" ++ toString (ws.headD 0).toNat ++ ")"])).toList], ws.drop 1)
    else ([(flagText bits).toList], ws)

/-- How the crate spells names otherwise than the standard (see C46) -/
def instead (names others : Table) : Table := others ++ names

def printedBuiltIns : Table := instead builtInNames [(14, "PatchVerticies")]
def printedExecutionModels : Table :=
  instead executionModelNames [(1, "TesselationControl"), (2, "TesselationEvaluation")]
def printedExecutionModes : Table := instead executionModeNames [(26, "OutputVerticies")]
def printedDecorations : Table := instead decorationNames [(39, "FpRoundingMode"), (40, "FpFastMathMode")]

/-- What is printed after the name of an execution mode -/
def shownModeOperands : Nat → List Shown
  | 0 | 26 => [aNumber]
  | 17 | 18 => [aNumber, aNumber, aNumber]
  | 30 => [anId]
  | _ => []

/-- What is printed after the name of a decoration. The string has no quotation marks. -/
def shownDecorationOperands : Nat → List Shown
  | 1 | 6 | 7 | 29 | 30 | 31 | 32 | 33 | 34 | 35 | 36 | 37 | 43 | 44 => [aNumber]
  | 11 => [aName printedBuiltIns]
  | 38 => [aName functionParameterAttributeNames]
  | 39 => [aName fpRoundingModeNames]
  | 40 => [aMask fastMathBits]
  | 41 => [bareString, aName linkageTypeNames]
  | _ => []

/-- Where the result is: nowhere; in the first word; in the second word, after the type -/
inductive Form where
  | plain
  | result
  | typed

/-- The form of each instruction, and its operands apart from result and type -/
def shownOperands : Nat → Form × List Shown
  | 0 => (.plain, [])  -- OpNop
  | 1 => (.typed, [])  -- OpUndef
  | 2 => (.plain, [aString])  -- OpSourceContinued
  | 3 => (.plain, [aName sourceLanguageNames, aNumber, ifAny anId, ifAny aString])  -- OpSource
  | 4 => (.plain, [aString])  -- OpSourceExtension
  | 5 => (.plain, [anId, aString])  -- OpName
  | 6 => (.plain, [anId, aNumber, aString])  -- OpMemberName
  | 7 => (.result, [aString])  -- OpString
  | 10 => (.plain, [aString])  -- OpExtension
  | 11 => (.result, [aString])  -- OpExtInstImport
  | 14 => (.plain, [aName addressingModelNames, aName memoryModelNames])  -- OpMemoryModel
  | 15 => (.plain, [aName printedExecutionModels, anId, aString, theIds])  -- OpEntryPoint
  | 16 => (.plain, [anId, withOperands printedExecutionModes shownModeOperands])  -- OpExecutionMode
  | 17 => (.plain, [aName capabilityNames])  -- OpCapability
  | 19 => (.result, [])  -- OpTypeVoid
  | 20 => (.result, [])  -- OpTypeBool
  | 21 => (.result, [aNumber, aName signednessNames])  -- OpTypeInt
  | 22 => (.result, [aNumber])  -- OpTypeFloat
  | 23 => (.result, [anId, aNumber])  -- OpTypeVector
  | 24 => (.result, [anId, aNumber])  -- OpTypeMatrix
  | 25 => (.result, [anId, aName dimNames, aName depthStatusNames, aName arrayedNames, aName mSNames,
      aName sampledStatusNames, aName imageFormatNames, ifAny (aName accessQualifierNames)])  -- OpTypeImage
  | 26 => (.result, [])  -- OpTypeSampler
  | 27 => (.result, [anId])  -- OpTypeSampledImage
  | 28 => (.result, [anId, anId])  -- OpTypeArray
  | 29 => (.result, [anId])  -- OpTypeRuntimeArray
  | 30 => (.result, [theIds])  -- OpTypeStruct
  | 31 => (.result, [aString])  -- OpTypeOpaque
  | 32 => (.result, [aName storageClassNames, anId])  -- OpTypePointer
  | 33 => (.result, [anId, theIds])  -- OpTypeFunction
  | 43 => (.typed, [theNumbers])  -- OpConstant
  | 44 => (.typed, [theIds])  -- OpConstantComposite
  | 54 => (.typed, [aMask functionControlBits, anId])  -- OpFunction
  | 55 => (.typed, [])  -- OpFunctionParameter
  | 56 => (.plain, [])  -- OpFunctionEnd
  | 59 => (.typed, [aName storageClassNames, ifAny anId])  -- OpVariable
  | 61 => (.typed, [anId, ifAny (aMask memoryAccessBits)])  -- OpLoad
  | 62 => (.plain, [anId, anId, ifAny (aMask memoryAccessBits)])  -- OpStore
  | 65 => (.typed, [anId, theIds])  -- OpAccessChain
  | 71 => (.plain, [anId, withOperands printedDecorations shownDecorationOperands])  -- OpDecorate
  | 72 => (.plain, [anId, aNumber, withOperands printedDecorations shownDecorationOperands])  -- OpMemberDecorate
  | 112 => (.typed, [anId])  -- OpConvertUToF
  | 124 => (.typed, [anId])  -- OpBitcast
  | 245 => (.typed, [theIds])  -- OpPhi: a value and a block, and so on
  | 246 => (.plain, [anId, anId, aLoopControl])  -- OpLoopMerge
  | 247 => (.plain, [anId, aMask selectionControlBits])  -- OpSelectionMerge
  | 248 => (.result, [])  -- OpLabel
  | 249 => (.plain, [anId])  -- OpBranch
  | 250 => (.plain, [anId, anId, anId, ifAny (eachOf [aNumber, aNumber])])  -- OpBranchConditional
  | 253 => (.plain, [])  -- OpReturn
  | _ => (.typed, [anId, anId])  -- two operands: arithmetic, with carry, comparison, bitwise

/-- A space before each -/
def inLine (parts : List Text) : Text := parts.flatMap (' ' :: ·)

/-- The name of the instruction -/
def mnemonic (code : Nat) : Text := ((mnemonics.lookup code).getD "").toList

/-- The line of an instruction -/
def lineOf (code : Nat) (ops : List UInt32) : Text :=
  let (form, ss) := shownOperands code
  match form, ops with
  | .plain, ws => leftColumn none ++ mnemonic code ++ inLine (eachOf ss ws).1
  | .result, r :: ws => leftColumn (some r) ++ mnemonic code ++ inLine (eachOf ss ws).1
  | .typed, t :: r :: ws => leftColumn (some r) ++ mnemonic code ++ inLine (idText t :: (eachOf ss ws).1)
  | _, _ => []

/-- The text of an instruction of an extended set, from the name of the set, the number and the operands -/
abbrev ExtText := String → UInt32 → List UInt32 → Text

/-- The instructions of the known sets are printed with this text. -/
def ShowsSets {X : Type} [Display X] (ext : ExtText) (known : List (ExtInstSet X)) : Prop :=
  ∀ s ∈ known, ∀ number args x, s.readInstruction number args = .ok ([], x) → Display.fmt x = ext s.name number args

/-- The line of an `OpExtInst`. `imports` are the names of the sets, by the ids of their imports. -/
def extLine (ext : ExtText) (imports : List (UInt32 × String)) : List UInt32 → Text
  | t :: r :: set :: number :: args =>
    leftColumn (some r) ++ mnemonic 12 ++
      inLine [idText t, idText set, ext ((imports.lookup set).getD "") number args]
  | _ => []

/-- The line of any instruction -/
def instLine (ext : ExtText) (imports : List (UInt32 × String)) (code : Nat) (ops : List UInt32) : Text :=
  if code = 12 then extLine ext imports ops else lineOf code ops

/-- The imports after an instruction -/
def importsAfter (imports : List (UInt32 × String)) (code : Nat) (ops : List UInt32) : List (UInt32 × String) :=
  if code = 11 then (ops.headD 0, (textOf (ops.drop 1)).getD "") :: imports else imports

/-- The lines of the instructions -/
def bodyLines (ext : ExtText) (imports : List (UInt32 × String)) : List UInt32 → List Text
  | [] => []
  | head :: ws =>
    let code := head.toNat % 65536
    let ops := ws.take (head.toNat / 65536 - 1)
    instLine ext imports code ops :: bodyLines ext (importsAfter imports code ops) (ws.drop (head.toNat / 65536 - 1))
  termination_by ws => ws.length
  decreasing_by simp; omega

/-- The registered generators, by number -/
def generatorNames : List (Nat × String) :=
  [(0, "Khronos"), (1, "LunarG"), (2, "Valve"), (3, "Codeplay"), (4, "NVIDIA"), (5, "ARM"),
   (6, "Khronos LLVM/SPIR-V Translator"), (7, "Khronos SPIR-V Tools Assembler"),
   (8, "Khronos Glslang Reference Front End"), (9, "Qualcomm"), (10, "AMD"), (11, "Intel")]

/-- The lines of a module, from the words after the magic number -/
def moduleLines (ext : ExtText) : List UInt32 → List Text
  | _ :: gen :: bound :: _ :: ws =>
    ["; SPIR-V".toList,
     "; Version: 1.0".toList,
     "; Generator: ".toList ++ ((generatorNames.lookup (gen.toNat / 65536)).getD "Unknown").toList ++ "; ".toList ++
       decimal (gen.toNat % 65536),
     "; Bound: ".toList ++ decimal bound.toNat,
     "; Schema: 0".toList] ++ bodyLines ext [] ws
  | _ => []

/-- The disassembly of a module, from its bytes -/
def disassembly (ext : ExtText) (bytes : List UInt8) : Text :=
  (moduleLines ext (wordsOf (bytes.head? = some 0x03) (bytes.drop 4)).1).flatMap (· ++ ['\n'])

/-- The instructions of `GLSL.std.450` that the crate knows -/
def glslText : ExtText := fun _ number args =>
  (if number = 13 then "Sin".toList else "Cos".toList) ++ inLine (args.map idText)

end Magma.Spec
