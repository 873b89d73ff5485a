import Verif.Spec.Encoding
/-! Opcodes of the SPIR-V 1.0 standard, by what the reader is documented to do with them. -/

namespace Magma.Spec

/-- Opcodes of the standard that are reported as not implemented, with the name of the standard -/
def unimplementedOpcodes : List (Nat × String) :=
  [(8, "OpLine"),
   (41, "OpConstantTrue"),
   (42, "OpConstantFalse"),
   (45, "OpConstantSampler"),
   (46, "OpConstantNull"),
   (48, "OpSpecConstantTrue"),
   (49, "OpSpecConstantFalse"),
   (50, "OpSpecConstant"),
   (51, "OpSpecConstantComposite"),
   (52, "OpSpecConstantOp"),
   (57, "OpFunctionCall"),
   (60, "OpImageTexelPointer"),
   (63, "OpCopyMemory"),
   (64, "OpCopyMemorySized"),
   (66, "OpInBoundsAccessChain"),
   (67, "OpPtrAccessChain"),
   (68, "OpArrayLength"),
   (69, "OpGenericPtrMemSemantics"),
   (70, "OpInBoundsPtrAccessChain"),
   (77, "OpVectorExtractDynamic"),
   (78, "OpVectorInsertDynamic"),
   (79, "OpVectorShuffle"),
   (80, "OpCompositeConstruct"),
   (81, "OpCompositeExtract"),
   (82, "OpCompositeInsert"),
   (83, "OpCopyObject"),
   (84, "OpTranspose"),
   (86, "OpSampledImage"),
   (87, "OpImageSampleImplicitLod"),
   (88, "OpImageSampleExplicitLod"),
   (89, "OpImageSampleDrefImplicitLod"),
   (90, "OpImageSampleDrefExplicitLod"),
   (91, "OpImageSampleProjImplicitLod"),
   (92, "OpImageSampleProjExplicitLod"),
   (93, "OpImageSampleProjDrefImplicitLod"),
   (94, "OpImageSampleProjDrefExplicitLod"),
   (95, "OpImageFetch"),
   (96, "OpImageGather"),
   (97, "OpImageDrefGather"),
   (98, "OpImageRead"),
   (99, "OpImageWrite"),
   (100, "OpImage"),
   (101, "OpImageQueryFormat"),
   (102, "OpImageQueryOrder"),
   (103, "OpImageQuerySizeLod"),
   (104, "OpImageQuerySize"),
   (105, "OpImageQueryLod"),
   (106, "OpImageQueryLevels"),
   (107, "OpImageQuerySamples"),
   (109, "OpConvertFToU"),
   (110, "OpConvertFToS"),
   (111, "OpConvertSToF"),
   (113, "OpUConvert"),
   (114, "OpSConvert"),
   (115, "OpFConvert"),
   (116, "OpQuantizeToF16"),
   (117, "OpConvertPtrToU"),
   (118, "OpSatConvertSToU"),
   (119, "OpSatConvertUToS"),
   (120, "OpConvertUToPtr"),
   (121, "OpPtrCastToGeneric"),
   (122, "OpGenericCastToPtr"),
   (123, "OpGenericCastToPtrExplicit"),
   (126, "OpSNegate"),
   (127, "OpFNegate"),
   (142, "OpVectorTimesScalar"),
   (143, "OpMatrixTimesScalar"),
   (144, "OpVectorTimesMatrix"),
   (145, "OpMatrixTimesVector"),
   (146, "OpMatrixTimesMatrix"),
   (147, "OpOuterProduct"),
   (148, "OpDot"),
   (154, "OpAny"),
   (155, "OpAll"),
   (156, "OpIsNan"),
   (157, "OpIsInf"),
   (158, "OpIsFinite"),
   (159, "OpIsNormal"),
   (160, "OpSignBitSet"),
   (161, "OpLessOrGreater"),
   (162, "OpOrdered"),
   (163, "OpUnordered"),
   (164, "OpLogicalEqual"),
   (165, "OpLogicalNotEqual"),
   (166, "OpLogicalOr"),
   (167, "OpLogicalAnd"),
   (168, "OpLogicalNot"),
   (169, "OpSelect"),
   (194, "OpShiftRightLogical"),
   (195, "OpShiftRightArithmetic"),
   (196, "OpShiftLeftLogical"),
   (200, "OpNot"),
   (201, "OpBitFieldInsert"),
   (202, "OpBitFieldSExtract"),
   (203, "OpBitFieldUExtract"),
   (204, "OpBitReverse"),
   (205, "OpBitCount"),
   (207, "OpDPdx"),
   (208, "OpDPdy"),
   (209, "OpFwidth"),
   (210, "OpDPdxFine"),
   (211, "OpDPdyFine"),
   (212, "OpFwidthFine"),
   (213, "OpDPdxCoarse"),
   (214, "OpDPdyCoarse"),
   (215, "OpFwidthCoarse"),
   (218, "OpEmitVertex"),
   (219, "OpEndPrimitive"),
   (220, "OpEmitStreamVertex"),
   (221, "OpEndStreamPrimitive"),
   (224, "OpControlBarrier"),
   (225, "OpMemoryBarrier"),
   (227, "OpAtomicLoad"),
   (228, "OpAtomicStore"),
   (229, "OpAtomicExchange"),
   (230, "OpAtomicCompareExchange"),
   (231, "OpAtomicCompareExchangeWeak"),
   (232, "OpAtomicIIncrement"),
   (233, "OpAtomicIDecrement"),
   (234, "OpAtomicIAdd"),
   (235, "OpAtomicISub"),
   (236, "OpAtomicSMin"),
   (237, "OpAtomicUMin"),
   (238, "OpAtomicSMax"),
   (239, "OpAtomicUMax"),
   (240, "OpAtomicAnd"),
   (241, "OpAtomicOr"),
   (242, "OpAtomicXor"),
   (251, "OpSwitch"),
   (252, "OpKill"),
   (254, "OpReturnValue"),
   (255, "OpUnreachable"),
   (256, "OpLifetimeStart"),
   (257, "OpLifetimeStop"),
   (259, "OpGroupAsyncCopy"),
   (260, "OpGroupWaitEvents"),
   (261, "OpGroupAll"),
   (262, "OpGroupAny"),
   (263, "OpGroupBroadcast"),
   (264, "OpGroupIAdd"),
   (265, "OpGroupFAdd"),
   (266, "OpGroupFMin"),
   (267, "OpGroupUMin"),
   (268, "OpGroupSMin"),
   (269, "OpGroupFMax"),
   (270, "OpGroupUMax"),
   (271, "OpGroupSMax"),
   (274, "OpReadPipe"),
   (275, "OpWritePipe"),
   (276, "OpReservedReadPipe"),
   (277, "OpReservedWritePipe"),
   (278, "OpReserveReadPipePackets"),
   (279, "OpReserveWritePipePackets"),
   (280, "OpCommitReadPipe"),
   (281, "OpCommitWritePipe"),
   (282, "OpIsValidReserveId"),
   (283, "OpGetNumPipePackets"),
   (284, "OpGetMaxPipePackets"),
   (285, "OpGroupReserveReadPipePackets"),
   (286, "OpGroupReserveWritePipePackets"),
   (287, "OpGroupCommitReadPipe"),
   (288, "OpGroupCommitWritePipe"),
   (291, "OpEnqueueMarker"),
   (292, "OpEnqueueKernel"),
   (293, "OpGetKernelNDrangeSubGroupCount"),
   (294, "OpGetKernelNDrangeMaxSubGroupSize"),
   (295, "OpGetKernelWorkGroupSize"),
   (296, "OpGetKernelPreferredWorkGroupSizeMultiple"),
   (297, "OpRetainEvent"),
   (298, "OpReleaseEvent"),
   (299, "OpCreateUserEvent"),
   (300, "OpIsValidEvent"),
   (301, "OpSetUserEventStatus"),
   (302, "OpCaptureEventProfilingInfo"),
   (303, "OpGetDefaultQueue"),
   (304, "OpBuildNDRange"),
   (305, "OpImageSparseSampleImplicitLod"),
   (306, "OpImageSparseSampleExplicitLod"),
   (307, "OpImageSparseSampleDrefImplicitLod"),
   (308, "OpImageSparseSampleDrefExplicitLod"),
   (309, "OpImageSparseSampleProjImplicitLod"),
   (310, "OpImageSparseSampleProjExplicitLod"),
   (311, "OpImageSparseSampleProjDrefImplicitLod"),
   (312, "OpImageSparseSampleProjDrefExplicitLod"),
   (313, "OpImageSparseFetch"),
   (314, "OpImageSparseGather"),
   (315, "OpImageSparseDrefGather"),
   (316, "OpImageSparseTexelsResident"),
   (317, "OpNoLine"),
   (318, "OpAtomicFlagTestAndSet"),
   (319, "OpAtomicFlagClear"),
   (320, "OpImageSparseRead")]

/-- Opcodes that can be read -/
def supportedOpcodes : List Nat :=
  [0, 1, 2, 3, 4, 5, 6, 7, 10, 11, 12, 14, 15, 16, 17, 19, 20, 21, 22, 23, 24, 25, 26, 
   27, 28, 29, 30, 31, 32, 33, 43, 44, 54, 55, 56, 59, 61, 62, 65, 71, 72, 112, 124, 128, 
   129, 130, 131, 132, 133, 134, 135, 136, 137, 138, 139, 140, 141, 149, 150, 151, 152, 
   170, 171, 172, 173, 174, 175, 176, 177, 178, 179, 180, 181, 182, 183, 184, 185, 186, 
   187, 188, 189, 190, 191, 197, 198, 199, 245, 246, 247, 248, 249, 250, 253]

end Magma.Spec
