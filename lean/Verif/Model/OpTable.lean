import Verif.Model.ReadCore
/-! Generated by `tools/gen.py` from the Rust source; citations are to `/repo`. -/

namespace Magma

/-- src/spv/raw/reader.rs:138-425: the literal arms of the `match` on the opcode, in order -/
def opTable (X : Type) : List (Nat × OpEntry X) :=
  [(0, .read (liftOp OpNop.read .OpNop)),
   (1, .read (liftOp OpUndef.read .OpUndef)),
   (2, .read (liftOp OpSourceContinued.read .OpSourceContinued)),
   (3, .read (liftOp OpSource.read .OpSource)),
   (4, .read (liftOp OpSourceExtension.read .OpSourceExtension)),
   (5, .read (liftOp OpName.read .OpName)),
   (6, .read (liftOp OpMemberName.read .OpMemberName)),
   (7, .read (liftOp OpString.read .OpString)),
   (8, .unimplemented "OpLine"),
   (10, .read (liftOp OpExtension.read .OpExtension)),
   (11, .read OpExtInstImport.readCore),
   (12, .read OpExtInst.readCore),
   (14, .read (liftOp OpMemoryModel.read .OpMemoryModel)),
   (15, .read (liftOp OpEntryPoint.read .OpEntryPoint)),
   (16, .read (liftOp OpExecutionMode.read .OpExecutionMode)),
   (17, .read (liftOp OpCapability.read .OpCapability)),
   (19, .read (liftOp OpTypeVoid.read .OpTypeVoid)),
   (20, .read (liftOp OpTypeBool.read .OpTypeBool)),
   (21, .read (liftOp OpTypeInt.read .OpTypeInt)),
   (22, .read (liftOp OpTypeFloat.read .OpTypeFloat)),
   (23, .read (liftOp OpTypeVector.read .OpTypeVector)),
   (24, .read (liftOp OpTypeMatrix.read .OpTypeMatrix)),
   (25, .read (liftOp OpTypeImage.read .OpTypeImage)),
   (26, .read (liftOp OpTypeSampler.read .OpTypeSampler)),
   (27, .read (liftOp OpTypeSampledImage.read .OpTypeSampledImage)),
   (28, .read (liftOp OpTypeArray.read .OpTypeArray)),
   (29, .read (liftOp OpTypeRuntimeArray.read .OpTypeRuntimeArray)),
   (30, .read (liftOp OpTypeStruct.read .OpTypeStruct)),
   (31, .read (liftOp OpTypeOpaque.read .OpTypeOpaque)),
   (32, .read (liftOp OpTypePointer.read .OpTypePointer)),
   (33, .read (liftOp OpTypeFunction.read .OpTypeFunction)),
   (41, .unimplemented "OpConstantTrue"),
   (42, .unimplemented "OpConstantFalse"),
   (43, .read (liftOp OpConstant.read .OpConstant)),
   (44, .read (liftOp OpConstantComposite.read .OpConstantComposite)),
   (45, .unimplemented "OpConstantSampler"),
   (46, .unimplemented "OpConstantNull"),
   (48, .unimplemented "OpSpecConstantTrue"),
   (49, .unimplemented "OpSpecConstantFalse"),
   (50, .unimplemented "OpSpecConstant"),
   (51, .unimplemented "OpSpecConstantComposite"),
   (52, .unimplemented "OpSpecConstantOp"),
   (54, .read (liftOp OpFunction.read .OpFunction)),
   (55, .read (liftOp OpFunctionParameter.read .OpFunctionParameter)),
   (56, .read (liftOp OpFunctionEnd.read .OpFunctionEnd)),
   (57, .unimplemented "OpFunctionCall"),
   (59, .read (liftOp OpVariable.read .OpVariable)),
   (60, .unimplemented "OpImageTexelPointer"),
   (61, .read (liftOp OpLoad.read .OpLoad)),
   (62, .read (liftOp OpStore.read .OpStore)),
   (63, .unimplemented "OpCopyMemory"),
   (64, .unimplemented "OpCopyMemorySized"),
   (65, .read (liftOp OpAccessChain.read .OpAccessChain)),
   (66, .unimplemented "OpInBoundsAccessChain"),
   (67, .unimplemented "OpPtrAccessChain"),
   (68, .unimplemented "OpArrayLength"),
   (69, .unimplemented "OpGenericPtrMemSemantics"),
   (70, .unimplemented "OpInBoundsPtrAccessChain"),
   (71, .read (liftOp OpDecorate.read .OpDecorate)),
   (72, .read (liftOp OpMemberDecorate.read .OpMemberDecorate)),
   (77, .unimplemented "OpVectorExtractDynamic"),
   (78, .unimplemented "OpVectorInsertDynamic"),
   (79, .unimplemented "OpVectorShuffle"),
   (80, .unimplemented "OpCompositeConstruct"),
   (81, .unimplemented "OpCompositeExtract"),
   (82, .unimplemented "OpCompositeInsert"),
   (83, .unimplemented "OpCopyObject"),
   (84, .unimplemented "OpTranspose"),
   (86, .unimplemented "OpSampledImage"),
   (87, .unimplemented "OpImageSampleImplicitLod"),
   (88, .unimplemented "OpImageSampleExplicitLod"),
   (89, .unimplemented "OpImageSampleDrefImplicitLod"),
   (90, .unimplemented "OpImageSampleDrefExplicitLod"),
   (91, .unimplemented "OpImageSampleProjImplicitLod"),
   (92, .unimplemented "OpImageSampleProjExplicitLod"),
   (93, .unimplemented "OpImageSampleProjDrefImplicitLod"),
   (94, .unimplemented "OpImageSampleProjDrefExplicitLod"),
   (95, .unimplemented "OpImageFetch"),
   (96, .unimplemented "OpImageGather"),
   (97, .unimplemented "OpImageDrefGather"),
   (98, .unimplemented "OpImageRead"),
   (99, .unimplemented "OpImageWrite"),
   (100, .unimplemented "OpImage"),
   (101, .unimplemented "OpImageQueryFormat"),
   (102, .unimplemented "OpImageQueryOrder"),
   (103, .unimplemented "OpImageQuerySizeLod"),
   (104, .unimplemented "OpImageQuerySize"),
   (105, .unimplemented "OpImageQueryLod"),
   (106, .unimplemented "OpImageQueryLevels"),
   (107, .unimplemented "OpImageQuerySamples"),
   (109, .unimplemented "OpConvertFToU"),
   (110, .unimplemented "OpConvertFToS"),
   (111, .unimplemented "OpConvertSToF"),
   (112, .read (liftOp OpConvertUToF.read .OpConvertUToF)),
   (113, .unimplemented "OpUConvert"),
   (114, .unimplemented "OpSConvert"),
   (115, .unimplemented "OpFConvert"),
   (116, .unimplemented "OpQuantizeToF16"),
   (117, .unimplemented "OpConvertPtrToU"),
   (118, .unimplemented "OpSatConvertSToU"),
   (119, .unimplemented "OpSatConvertUToS"),
   (120, .unimplemented "OpConvertUToPtr"),
   (121, .unimplemented "OpPtrCastToGeneric"),
   (122, .unimplemented "OpGenericCastToPtr"),
   (123, .unimplemented "OpGenericCastToPtrExplicit"),
   (124, .read (liftOp OpBitcast.read .OpBitcast)),
   (126, .unimplemented "OpSNegate"),
   (127, .unimplemented "OpFNegate"),
   (128, .read (liftOp OpIAdd.read .OpIAdd)),
   (129, .read (liftOp OpFAdd.read .OpFAdd)),
   (130, .read (liftOp OpISub.read .OpISub)),
   (131, .read (liftOp OpFSub.read .OpFSub)),
   (132, .read (liftOp OpIMul.read .OpIMul)),
   (133, .read (liftOp OpFMul.read .OpFMul)),
   (134, .read (liftOp OpUDiv.read .OpUDiv)),
   (135, .read (liftOp OpSDiv.read .OpSDiv)),
   (136, .read (liftOp OpFDiv.read .OpFDiv)),
   (137, .read (liftOp OpUMod.read .OpUMod)),
   (138, .read (liftOp OpSRem.read .OpSRem)),
   (139, .read (liftOp OpSMod.read .OpSMod)),
   (140, .read (liftOp OpFRem.read .OpFRem)),
   (141, .read (liftOp OpFMod.read .OpFMod)),
   (142, .unimplemented "OpVectorTimesScalar"),
   (143, .unimplemented "OpMatrixTimesScalar"),
   (144, .unimplemented "OpVectorTimesMatrix"),
   (145, .unimplemented "OpMatrixTimesVector"),
   (146, .unimplemented "OpMatrixTimesMatrix"),
   (147, .unimplemented "OpOuterProduct"),
   (148, .unimplemented "OpDot"),
   (149, .read (liftOp OpIAddCarry.read .OpIAddCarry)),
   (150, .read (liftOp OpISubBorrow.read .OpISubBorrow)),
   (151, .read (liftOp OpUMulExtended.read .OpUMulExtended)),
   (152, .read (liftOp OpSMulExtended.read .OpSMulExtended)),
   (154, .unimplemented "OpAny"),
   (155, .unimplemented "OpAll"),
   (156, .unimplemented "OpIsNan"),
   (157, .unimplemented "OpIsInf"),
   (158, .unimplemented "OpIsFinite"),
   (159, .unimplemented "OpIsNormal"),
   (160, .unimplemented "OpSignBitSet"),
   (161, .unimplemented "OpLessOrGreater"),
   (162, .unimplemented "OpOrdered"),
   (163, .unimplemented "OpUnordered"),
   (164, .unimplemented "OpLogicalEqual"),
   (165, .unimplemented "OpLogicalNotEqual"),
   (166, .unimplemented "OpLogicalOr"),
   (167, .unimplemented "OpLogicalAnd"),
   (168, .unimplemented "OpLogicalNot"),
   (169, .unimplemented "OpSelect"),
   (170, .read (liftOp OpIEqual.read .OpIEqual)),
   (171, .read (liftOp OpINotEqual.read .OpINotEqual)),
   (172, .read (liftOp OpUGreaterThan.read .OpUGreaterThan)),
   (173, .read (liftOp OpSGreaterThan.read .OpSGreaterThan)),
   (174, .read (liftOp OpUGreaterThanEqual.read .OpUGreaterThanEqual)),
   (175, .read (liftOp OpSGreaterThanEqual.read .OpSGreaterThanEqual)),
   (176, .read (liftOp OpULessThan.read .OpULessThan)),
   (177, .read (liftOp OpSLessThan.read .OpSLessThan)),
   (178, .read (liftOp OpULessThanEqual.read .OpULessThanEqual)),
   (179, .read (liftOp OpSLessThanEqual.read .OpSLessThanEqual)),
   (180, .read (liftOp OpFOrdEqual.read .OpFOrdEqual)),
   (181, .read (liftOp OpFUnordEqual.read .OpFUnordEqual)),
   (182, .read (liftOp OpFOrdNotEqual.read .OpFOrdNotEqual)),
   (183, .read (liftOp OpFUnordNotEqual.read .OpFUnordNotEqual)),
   (184, .read (liftOp OpFOrdLessThan.read .OpFOrdLessThan)),
   (185, .read (liftOp OpFUnordLessThan.read .OpFUnordLessThan)),
   (186, .read (liftOp OpFOrdGreaterThan.read .OpFOrdGreaterThan)),
   (187, .read (liftOp OpFUnordGreaterThan.read .OpFUnordGreaterThan)),
   (188, .read (liftOp OpFOrdLessThanEqual.read .OpFOrdLessThanEqual)),
   (189, .read (liftOp OpFUnordLessThanEqual.read .OpFUnordLessThanEqual)),
   (190, .read (liftOp OpFOrdGreaterThanEqual.read .OpFOrdGreaterThanEqual)),
   (191, .read (liftOp OpFUnordGreaterThanEqual.read .OpFUnordGreaterThanEqual)),
   (194, .unimplemented "OpShiftRightLogical"),
   (195, .unimplemented "OpShiftRightArithmetic"),
   (196, .unimplemented "OpShiftLeftLogical"),
   (197, .read (liftOp OpBitwiseOr.read .OpBitwiseOr)),
   (198, .read (liftOp OpBitwiseXor.read .OpBitwiseXor)),
   (199, .read (liftOp OpBitwiseAnd.read .OpBitwiseAnd)),
   (200, .unimplemented "OpNot"),
   (201, .unimplemented "OpBitFieldInsert"),
   (202, .unimplemented "OpBitFieldSExtract"),
   (203, .unimplemented "OpBitFieldUExtract"),
   (204, .unimplemented "OpBitReverse"),
   (205, .unimplemented "OpBitCount"),
   (207, .unimplemented "OpDPdx"),
   (208, .unimplemented "OpDPdy"),
   (209, .unimplemented "OpFwidth"),
   (210, .unimplemented "OpDPdxFine"),
   (211, .unimplemented "OpDPdyFine"),
   (212, .unimplemented "OpFwidthFine"),
   (213, .unimplemented "OpDPdxCoarse"),
   (214, .unimplemented "OpDPdyCoarse"),
   (215, .unimplemented "OpFwidthCoarse"),
   (218, .unimplemented "OpEmitVertex"),
   (219, .unimplemented "OpEndPrimitive"),
   (220, .unimplemented "OpEmitStreamVertex"),
   (221, .unimplemented "OpEndStreamPrimitive"),
   (224, .unimplemented "OpControlBarrier"),
   (225, .unimplemented "OpMemoryBarrier"),
   (227, .unimplemented "OpAtomicLoad"),
   (228, .unimplemented "OpAtomicStore"),
   (229, .unimplemented "OpAtomicExchange"),
   (230, .unimplemented "OpAtomicCompareExchange"),
   (231, .unimplemented "OpAtomicCompareExchangeWeak"),
   (232, .unimplemented "OpAtomicIIncrement"),
   (233, .unimplemented "OpAtomicIDecrement"),
   (234, .unimplemented "OpAtomicIAdd"),
   (235, .unimplemented "OpAtomicISub"),
   (236, .unimplemented "OpAtomicSMin"),
   (237, .unimplemented "OpAtomicUMin"),
   (238, .unimplemented "OpAtomicSMax"),
   (239, .unimplemented "OpAtomicUMax"),
   (240, .unimplemented "OpAtomicAnd"),
   (241, .unimplemented "OpAtomicOr"),
   (242, .unimplemented "OpAtomicXor"),
   (245, .read (liftOp OpPhi.read .OpPhi)),
   (246, .read (liftOp OpLoopMerge.read .OpLoopMerge)),
   (247, .read (liftOp OpSelectionMerge.read .OpSelectionMerge)),
   (248, .read (liftOp OpLabel.read .OpLabel)),
   (249, .read (liftOp OpBranch.read .OpBranch)),
   (250, .read (liftOp OpBranchConditional.read .OpBranchConditional)),
   (251, .unimplemented "OpSwitch"),
   (252, .unimplemented "OpKill"),
   (253, .read (liftOp OpReturn.read .OpReturn)),
   (254, .unimplemented "OpReturnValue"),
   (255, .unimplemented "OpUnreachable"),
   (256, .unimplemented "OpLifetimeStart"),
   (257, .unimplemented "OpLifetimeStop"),
   (259, .unimplemented "OpGroupAsyncCopy"),
   (260, .unimplemented "OpGroupWaitEvents"),
   (261, .unimplemented "OpGroupAll"),
   (262, .unimplemented "OpGroupAny"),
   (263, .unimplemented "OpGroupBroadcast"),
   (264, .unimplemented "OpGroupIAdd"),
   (265, .unimplemented "OpGroupFAdd"),
   (266, .unimplemented "OpGroupFMin"),
   (267, .unimplemented "OpGroupUMin"),
   (268, .unimplemented "OpGroupSMin"),
   (269, .unimplemented "OpGroupFMax"),
   (270, .unimplemented "OpGroupUMax"),
   (271, .unimplemented "OpGroupSMax"),
   (274, .unimplemented "OpReadPipe"),
   (275, .unimplemented "OpWritePipe"),
   (276, .unimplemented "OpReservedReadPipe"),
   (277, .unimplemented "OpReservedWritePipe"),
   (278, .unimplemented "OpReserveReadPipePackets"),
   (279, .unimplemented "OpReserveWritePipePackets"),
   (280, .unimplemented "OpCommitReadPipe"),
   (281, .unimplemented "OpCommitWritePipe"),
   (282, .unimplemented "OpIsValidReserveId"),
   (283, .unimplemented "OpGetNumPipePackets"),
   (284, .unimplemented "OpGetMaxPipePackets"),
   (285, .unimplemented "OpGroupReserveReadPipePackets"),
   (286, .unimplemented "OpGroupReserveWritePipePackets"),
   (287, .unimplemented "OpGroupCommitReadPipe"),
   (288, .unimplemented "OpGroupCommitWritePipe"),
   (291, .unimplemented "OpEnqueueMarker"),
   (292, .unimplemented "OpEnqueueKernel"),
   (293, .unimplemented "OpGetKernelNDrangeSubGroupCount"),
   (294, .unimplemented "OpGetKernelNDrangeMaxSubGroupSize"),
   (295, .unimplemented "OpGetKernelWorkGroupSize"),
   (296, .unimplemented "OpGetKernelPreferredWorkGroupSizeMultiple"),
   (297, .unimplemented "OpRetainEvent"),
   (298, .unimplemented "OpReleaseEvent"),
   (299, .unimplemented "OpCreateUserEvent"),
   (300, .unimplemented "OpIsValidEvent"),
   (301, .unimplemented "OpSetUserEventStatus"),
   (302, .unimplemented "OpCaptureEventProfilingInfo"),
   (303, .unimplemented "OpGetDefaultQueue"),
   (304, .unimplemented "OpBuildNDRange"),
   (305, .unimplemented "OpImageSparseSampleImplicitLod"),
   (306, .unimplemented "OpImageSparseSampleExplicitLod"),
   (307, .unimplemented "OpImageSparseSampleDrefImplicitLod"),
   (308, .unimplemented "OpImageSparseSampleDrefExplicitLod"),
   (309, .unimplemented "OpImageSparseSampleProjImplicitLod"),
   (310, .unimplemented "OpImageSparseSampleProjExplicitLod"),
   (311, .unimplemented "OpImageSparseSampleProjDrefImplicitLod"),
   (312, .unimplemented "OpImageSparseSampleProjDrefExplicitLod"),
   (313, .unimplemented "OpImageSparseFetch"),
   (314, .unimplemented "OpImageSparseGather"),
   (315, .unimplemented "OpImageSparseDrefGather"),
   (316, .unimplemented "OpImageSparseTexelsResident"),
   (317, .unimplemented "OpNoLine"),
   (318, .unimplemented "OpAtomicFlagTestAndSet"),
   (319, .unimplemented "OpAtomicFlagClear"),
   (320, .unimplemented "OpImageSparseRead")]

end Magma
