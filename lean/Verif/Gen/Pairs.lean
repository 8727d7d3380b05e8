import Verif.Model.Bst
import Verif.Lemmas.Check
/-! Generated by `tools/gen_pairs.py`: the pairs of reader and writer methods. -/
namespace Verif.Gen
open Verif Verif.Lemmas

def pairTable00 : Bst (List Pair) :=
 (.node (.node (.node (.node (.node .nil
     k!"load" [⟨k!"load", k!"save", k!"AUTOSAR", []⟩]
     .nil)
    k!"readSd_Sd" [⟨k!"readSd_Sd", k!"setSdg_Sdg_L717", k!"SD", []⟩]
    .nil)
   k!"getSdg_Sdg" [⟨k!"getSdg_Sdg", k!"setSdg_Sdg", k!"SDG", []⟩]
   (.node .nil
    k!"readSdf_Sdf" [⟨k!"readSdf_Sdf", k!"setSdg_Sdg_L731", k!"SDF", []⟩]
    .nil))
  k!"getNote_Note" [⟨k!"getNote_Note", k!"setNote_Note", k!"NOTE", []⟩]
  (.node (.node (.node .nil
     k!"getCompu_Compu" [⟨k!"getCompu_Compu", k!"setCompu_COMPU_INTERNAL_TO_PHYS_Compu", k!"COMPU-INTERNAL-TO-PHYS", []⟩,
    ⟨k!"getCompu_Compu", k!"setCompu_COMPU_PHYS_TO_INTERNAL_Compu", k!"COMPU-PHYS-TO-INTERNAL", []⟩]
     .nil)
    k!"getTpPort_TpPort" [⟨k!"getTpPort_TpPort", k!"setTpPort_TCP_TP_PORT_TpPort", k!"TCP-TP-PORT", []⟩,
    ⟨k!"getTpPort_TpPort", k!"setTpPort_UDP_TP_PORT_TpPort", k!"UDP-TP-PORT", []⟩]
    .nil)
   k!"readLinker_Linker" [⟨k!"readLinker_Linker", k!"writeLinker_Linker", k!"LINKER", []⟩]
   (.node .nil
    k!"readTopic1_Topic1" [⟨k!"readTopic1_Topic1", k!"writeTopic1_Topic1", k!"TOPIC-1", []⟩]
    .nil)))
 k!"getCaption_Caption" [⟨k!"getCaption_Caption", k!"setCaption_FORMULA_CAPTION_Caption", k!"FORMULA-CAPTION", []⟩]
 (.node (.node (.node (.node .nil
     k!"getDefItem_DefItem" [⟨k!"getDefItem_DefItem", k!"setDefItem_DefItem", k!"DEF-ITEM", []⟩]
     .nil)
    k!"getDefList_DefList" [⟨k!"getDefList_DefList", k!"setDefList_DefList", k!"DEF-LIST", []⟩]
    .nil)
   k!"getGraphic_Graphic" [⟨k!"getGraphic_Graphic", k!"setGraphic_GRAPHIC_Graphic", k!"GRAPHIC", []⟩]
   (.node .nil
    k!"readChapter_Chapter" [⟨k!"readChapter_Chapter", k!"writeChapter_Chapter_CHAPTER", k!"CHAPTER", []⟩,
    ⟨k!"readChapter_Chapter", k!"writeChapter_Chapter_SW_CALIBRATION_NOTES", k!"SW-CALIBRATION-NOTES", []⟩,
    ⟨k!"readChapter_Chapter", k!"writeChapter_Chapter_SW_CARB_DOC", k!"SW-CARB-DOC", []⟩,
    ⟨k!"readChapter_Chapter", k!"writeChapter_Chapter_SW_DIAGNOSTICS_NOTES", k!"SW-DIAGNOSTICS-NOTES", []⟩,
    ⟨k!"readChapter_Chapter", k!"writeChapter_Chapter_SW_FEATURE_DEF", k!"SW-FEATURE-DEF", []⟩,
    ⟨k!"readChapter_Chapter", k!"writeChapter_Chapter_SW_FEATURE_DESC", k!"SW-FEATURE-DESC", []⟩,
    ⟨k!"readChapter_Chapter", k!"writeChapter_Chapter_SW_MAINTENANCE_NOTES", k!"SW-MAINTENANCE-NOTES", []⟩,
    ⟨k!"readChapter_Chapter", k!"writeChapter_Chapter_SW_TEST_DESC", k!"SW-TEST-DESC", []⟩]
    .nil))
  k!"getSwValues_SwValues" [⟨k!"getSwValues_SwValues", k!"setSwValues_SW_VALUES_PHYS_SwValues", k!"SW-VALUES-PHYS", []⟩]
  (.node (.node (.node .nil
     k!"getMlFigures_MlFigure" [⟨k!"getMlFigures_MlFigure", k!"writeDocumentationBlock_DEF_DocumentationBlock_L1853", k!"FIGURE", []⟩]
     .nil)
    k!"getMlFormula_LGraphic" [⟨k!"getMlFormula_LGraphic", k!"setMlFormula_FORMULA_MlFormula_L1893", k!"L-GRAPHIC", []⟩]
    .nil)
   k!"readCompiler_Compiler" [⟨k!"readCompiler_Compiler", k!"writeCompiler_Compiler", k!"COMPILER", []⟩]
   (.node .nil
    k!"getAdminData_AdminData" [⟨k!"getAdminData_AdminData", k!"setAdminData_AdminData", k!"ADMIN-DATA", []⟩]
    .nil))))

def pairTable01 : Bst (List Pair) :=
 (.node (.node (.node (.node (.node .nil
     k!"getMlFormula_MlFormula" [⟨k!"getMlFormula_MlFormula", k!"setMlFormula_FORMULA_MlFormula", k!"FORMULA", []⟩,
    ⟨k!"getMlFormula_MlFormula", k!"setMlFormula_INFORMAL_FORMULA_MlFormula", k!"INFORMAL-FORMULA", []⟩]
     .nil)
    k!"getValueList_ValueList" [⟨k!"getValueList_ValueList", k!"setValueList_SW_ARRAYSIZE_ValueList", k!"SW-ARRAYSIZE", []⟩]
    .nil)
   k!"readCodeDescriptor_Code" [⟨k!"readCodeDescriptor_Code", k!"writeCode_Code", k!"CODE", []⟩]
   (.node .nil
    k!"readLLongName_LLongName" [⟨k!"readLLongName_LLongName", k!"setLLongName_LLongName", k!"L-4", []⟩]
    .nil))
  k!"readPortGroup_PortGroup" [⟨k!"readPortGroup_PortGroup", k!"writePortGroup_PortGroup", k!"PORT-GROUP", []⟩]
  (.node (.node (.node .nil
     k!"getCompuConst_CompuConst" [⟨k!"getCompuConst_CompuConst", k!"setCompuConst_COMPU_DEFAULT_VALUE_CompuConst", k!"COMPU-DEFAULT-VALUE", []⟩]
     .nil)
    k!"getDataFilter_DataFilter" [⟨k!"getDataFilter_DataFilter", k!"setDataFilter_DATA_FILTER_DataFilter", k!"DATA-FILTER", []⟩,
    ⟨k!"getDataFilter_DataFilter", k!"setDataFilter_FILTER_DataFilter", k!"FILTER", []⟩]
    .nil)
   k!"getDoIpEntity_DoIpEntity" [⟨k!"getDoIpEntity_DoIpEntity", k!"setDoIpEntity_DO_IP_ENTITY_DoIpEntity", k!"DO-IP-ENTITY", []⟩]
   (.node .nil
    k!"getMsrQueryP2_MsrQueryP2" [⟨k!"getMsrQueryP2_MsrQueryP2", k!"setMsrQueryP2_MsrQueryP2", k!"MSR-QUERY-P2", []⟩]
    .nil)))
 k!"getSoAdConfig_SoAdConfig" [⟨k!"getSoAdConfig_SoAdConfig", k!"writeSoAdConfig_SO_AD_CONFIG_SoAdConfig", k!"SO-AD-CONFIG", []⟩]
 (.node (.node (.node (.node .nil
     k!"readARPackages_ARPackage" [⟨k!"readARPackages_ARPackage", k!"writeARPackage_ARPackage", k!"AR-PACKAGE", []⟩]
     .nil)
    k!"getAnnotations_Annotation" [⟨k!"getAnnotations_Annotation", k!"writeIdentifiable_ARPackage_L2019", k!"ANNOTATION", []⟩]
    .nil)
   k!"getCompuScales_CompuScale" [⟨k!"getCompuScales_CompuScale", k!"writeCompuScale_COMPU_SCALE_CompuScale", k!"COMPU-SCALE", []⟩]
   (.node .nil
    k!"getLParagraphs_LParagraph" [⟨k!"getLParagraphs_LParagraph", k!"setLPlainText_LPlainText", k!"L-10", []⟩,
    ⟨k!"getLParagraphs_LParagraph", k!"writeLParagraphs_MultiLanguageParagraph_L1805", k!"L-1", [.along k!"value" k!"l"]⟩]
    .nil))
  k!"readMsrQueryP1_MsrQueryP1" [⟨k!"readMsrQueryP1_MsrQueryP1", k!"writeMsrQueryP1_MsrQueryP1", k!"MSR-QUERY-P1", []⟩]
  (.node (.node (.node .nil
     k!"readSdgCaption_SdgCaption" [⟨k!"readSdgCaption_SdgCaption", k!"writeSdgCaption_Sdg_L743", k!"SDG-CAPTION", []⟩]
     .nil)
    k!"getCompuScales_CompuScales" [⟨k!"getCompuScales_CompuScales", k!"setCompuScales_CompuScales", k!"COMPU-SCALES", []⟩]
    .nil)
   k!"getLabeledItem_LabeledItem" [⟨k!"getLabeledItem_LabeledItem", k!"setLabeledItem_LabeledItem", k!"LABELED-ITEM", []⟩]
   (.node .nil
    k!"getLabeledList_LabeledList" [⟨k!"getLabeledList_LabeledList", k!"setLabeledList_LabeledList", k!"LABELED-LIST", []⟩]
    .nil))))

def pairTable02 : Bst (List Pair) :=
 .node pairTable00 k!"getListElements_ARList" [⟨k!"getListElements_ARList", k!"setListElement_LIST_ARList", k!"LIST", []⟩] pairTable01

def pairTable03 : Bst (List Pair) :=
 (.node (.node (.node (.node (.node .nil
     k!"getSwTextProps_SwTextProps" [⟨k!"getSwTextProps_SwTextProps", k!"setSwTextProps_SwTextProps", k!"SW-TEXT-PROPS", []⟩]
     .nil)
    k!"getSwValueCont_SwValueCont" [⟨k!"getSwValueCont_SwValueCont", k!"writeSwValueCont_SwValueCont", k!"SW-VALUE-CONT", []⟩]
    .nil)
   k!"readARPackageElements_NPdu" [⟨k!"readARPackageElements_NPdu", k!"writeNPdu_NPdu", k!"N-PDU", []⟩]
   (.node .nil
    k!"readARPackageElements_Unit" [⟨k!"readARPackageElements_Unit", k!"writeUnit_Unit", k!"UNIT", []⟩]
    .nil))
  k!"readNmConfigNmIfEcus_NmEcu" [⟨k!"readNmConfigNmIfEcus_NmEcu", k!"writeNmEcu_NmEcu", k!"NM-ECU", []⟩]
  (.node (.node (.node .nil
     k!"getIPduMappings_IPduMapping" [⟨k!"getIPduMappings_IPduMapping", k!"writeGateway_Gateway_L8199", k!"I-PDU-MAPPING", []⟩]
     .nil)
    k!"readARPackageElements_NmPdu" [⟨k!"readARPackageElements_NmPdu", k!"writeNmPdu_NmPdu", k!"NM-PDU", []⟩]
    .nil)
   k!"readPhysConstrs_PhysConstrs" [⟨k!"readPhysConstrs_PhysConstrs", k!"setPhysConstrs_PhysConstrs", k!"PHYS-CONSTRS", []⟩]
   (.node .nil
    k!"readScaleConstr_ScaleConstr" [⟨k!"readScaleConstr_ScaleConstr", k!"setScaleConstr_SCALE_CONSTR_ScaleConstr", k!"SCALE-CONSTR", []⟩]
    .nil)))
 k!"getCyclicTiming_CyclicTiming" [⟨k!"getCyclicTiming_CyclicTiming", k!"setCyclicTiming_CYCLIC_TIMING_CyclicTiming", k!"CYCLIC-TIMING", []⟩]
 (.node (.node (.node (.node .nil
     k!"getIndentSample_IndentSample" [⟨k!"getIndentSample_IndentSample", k!"setIndentSample_IndentSample", k!"INDENT-SAMPLE", []⟩]
     .nil)
    k!"getSwCalprmAxis_SwCalprmAxis" [⟨k!"getSwCalprmAxis_SwCalprmAxis", k!"setSwCalprmAxis_SwCalprmAxis", k!"SW-CALPRM-AXIS", []⟩]
    .nil)
   k!"readARPackageElements_HwType" [⟨k!"readARPackageElements_HwType", k!"writeHwType_HwType", k!"HW-TYPE", []⟩]
   (.node .nil
    k!"readARPackageElements_System" [⟨k!"readARPackageElements_System", k!"writeSystem_System", k!"SYSTEM", []⟩]
    .nil))
  k!"readDataTypeMaps_DataTypeMap" [⟨k!"readDataTypeMaps_DataTypeMap", k!"writeDataTypeMaps_DataTypeMappingSet_L5622", k!"DATA-TYPE-MAP", []⟩]
  (.node (.node (.node .nil
     k!"readARPackageElements_DcmIPdu" [⟨k!"readARPackageElements_DcmIPdu", k!"writeDcmIPdu_DcmIPdu", k!"DCM-I-PDU", []⟩]
     .nil)
    k!"readARPackageElements_FlatMap" [⟨k!"readARPackageElements_FlatMap", k!"writeFlatMap_FlatMap", k!"FLAT-MAP", []⟩]
    .nil)
   k!"readARPackageElements_Gateway" [⟨k!"readARPackageElements_Gateway", k!"writeGateway_Gateway", k!"GATEWAY", []⟩]
   (.node .nil
    k!"readARPackageElements_ISignal" [⟨k!"readARPackageElements_ISignal", k!"writeISignal_ISignal", k!"I-SIGNAL", []⟩]
    .nil))))

def pairTable04 : Bst (List Pair) :=
 (.node (.node (.node (.node (.node .nil
     k!"readChapterModel_ChapterModel" [⟨k!"readChapterModel_ChapterModel", k!"writeChapterModel_ChapterModel", k!"CHAPTER-MODEL", []⟩]
     .nil)
    k!"readHeapUsage_SoftwareContext" [⟨k!"readHeapUsage_SoftwareContext", k!"setSoftwareContext_SoftwareContext", k!"SOFTWARE-CONTEXT", []⟩]
    .nil)
   k!"readISignalProps_ISignalProps" [⟨k!"readISignalProps_ISignalProps", k!"writeISignalProps_ISignal_L8229", k!"I-SIGNAL-PROPS", []⟩]
   (.node .nil
    k!"readMcGroup_McGroupDataRefSet" [⟨k!"readMcGroup_McGroupDataRefSet", k!"writeMcGroup_McGroup_L9569", k!"REF-CALPRM-SET", []⟩,
    ⟨k!"readMcGroup_McGroupDataRefSet", k!"writeMcGroup_McGroup_L9572", k!"REF-MEASUREMENT-SET", []⟩]
    .nil))
  k!"readTopicContent_TopicContent" [⟨k!"readTopicContent_TopicContent", k!"writeTopicContent_TopicContent", k!"TOPIC-CONTENT", []⟩]
  (.node (.node (.node .nil
     k!"getClientComSpec_ClientComSpec" [⟨k!"getClientComSpec_ClientComSpec", k!"writeClientComSpec_ClientComSpec", k!"CLIENT-COM-SPEC", []⟩]
     .nil)
    k!"getMsrQueryProps_MsrQueryProps" [⟨k!"getMsrQueryProps_MsrQueryProps", k!"setMsrQueryProps_MsrQueryProps", k!"MSR-QUERY-PROPS", []⟩]
    .nil)
   k!"getRuleArguments_RuleArguments" [⟨k!"getRuleArguments_RuleArguments", k!"writeRuleArguments_RuleArguments", k!"RULE-ARGUMENTS", []⟩]
   (.node .nil
    k!"getServerComSpec_ServerComSpec" [⟨k!"getServerComSpec_ServerComSpec", k!"writeServerComSpec_ServerComSpec", k!"SERVER-COM-SPEC", []⟩]
    .nil)))
 k!"getStructuredReq_StructuredReq" [⟨k!"getStructuredReq_StructuredReq", k!"setStructuredReq_StructuredReq", k!"STRUCTURED-REQ", []⟩]
 (.node (.node (.node (.node .nil
     k!"getSwAxisGeneric_SwAxisGeneric" [⟨k!"getSwAxisGeneric_SwAxisGeneric", k!"setSwAxisGeneric_SwAxisGeneric", k!"SW-AXIS-GENERIC", []⟩]
     .nil)
    k!"getSwAxisGrouped_SwAxisGrouped" [⟨k!"getSwAxisGrouped_SwAxisGrouped", k!"setSwAxisGrouped_SwAxisGrouped", k!"SW-AXIS-GROUPED", []⟩]
    .nil)
   k!"getTargetIPduRef_TargetIPduRef" [⟨k!"getTargetIPduRef_TargetIPduRef", k!"setTargetIPduRef_TARGET_I_PDU_TargetIPduRef", k!"TARGET-I-PDU", []⟩]
   (.node .nil
    k!"getTimeRangeType_TimeRangeType" [⟨k!"getTimeRangeType_TimeRangeType", k!"setTimeRangeType_REPETITION_PERIOD_TimeRangeType", k!"REPETITION-PERIOD", []⟩,
    ⟨k!"getTimeRangeType_TimeRangeType", k!"setTimeRangeType_TIME_OFFSET_TimeRangeType", k!"TIME-OFFSET", []⟩,
    ⟨k!"getTimeRangeType_TimeRangeType", k!"setTimeRangeType_TIME_PERIOD_TimeRangeType", k!"TIME-PERIOD", []⟩]
    .nil))
  k!"getTraceableText_TraceableText" [⟨k!"getTraceableText_TraceableText", k!"setTraceableText_TRACE_TraceableText", k!"TRACE", []⟩]
  (.node (.node .nil
    k!"readARPackageElements_CanFrame" [⟨k!"readARPackageElements_CanFrame", k!"writeCanFrame_CanFrame", k!"CAN-FRAME", []⟩]
    .nil)
   k!"readARPackageElements_NmConfig" [⟨k!"readARPackageElements_NmConfig", k!"writeNmConfig_NmConfig", k!"NM-CONFIG", []⟩]
   (.node .nil
    k!"readCanTpConfigTpEcus_CanTpEcu" [⟨k!"readCanTpConfigTpEcus_CanTpEcu", k!"writeCanTpEcu_CanTpEcu", k!"CAN-TP-ECU", []⟩]
    .nil))))

def pairTable05 : Bst (List Pair) :=
 .node pairTable03 k!"readARPackageElements_McGroup" [⟨k!"readARPackageElements_McGroup", k!"writeMcGroup_McGroup", k!"MC-GROUP", []⟩] pairTable04

def pairTable06 : Bst (List Pair) :=
 .node pairTable02 k!"getMsrQueryArg_MsrQueryArg" [⟨k!"getMsrQueryArg_MsrQueryArg", k!"setMsrQueryArg_MsrQueryArg", k!"MSR-QUERY-ARG", []⟩] pairTable05

def pairTable07 : Bst (List Pair) :=
 (.node (.node (.node (.node (.node .nil
     k!"readNmClusterNmNodes_CanNmNode" [⟨k!"readNmClusterNmNodes_CanNmNode", k!"writeCanNmNode_CanNmNode", k!"CAN-NM-NODE", []⟩]
     .nil)
    k!"readNmClusterNmNodes_UdpNmNode" [⟨k!"readNmClusterNmNodes_UdpNmNode", k!"writeUdpNmNode_UdpNmNode", k!"UDP-NM-NODE", []⟩]
    .nil)
   k!"readRptComponent_RptImplPolicy" [⟨k!"readRptComponent_RptImplPolicy", k!"writeMcDataInstance_McDataInstance_L4361", k!"RPT-IMPL-POLICY", []⟩,
    ⟨k!"readRptComponent_RptImplPolicy", k!"writeRptComponent_RptComponent_L4457", k!"RP-IMPL-POLICY", []⟩]
   (.node .nil
    k!"readARPackageElements_HwElement" [⟨k!"readARPackageElements_HwElement", k!"writeHwElement_HwElement", k!"HW-ELEMENT", []⟩]
    .nil))
  k!"readARPackageElements_SwcTiming" [⟨k!"readARPackageElements_SwcTiming", k!"writeSwcTiming_SwcTiming", k!"SWC-TIMING", []⟩]
  (.node (.node (.node .nil
     k!"readAccessCountSets_AccessCount" [⟨k!"readAccessCountSets_AccessCount", k!"setResourceConsumption_ResourceConsumption_L4198", k!"ACCESS-COUNT", []⟩]
     .nil)
    k!"readBusDependentNmEcus_UdpNmEcu" [⟨k!"readBusDependentNmEcus_UdpNmEcu", k!"writeUdpNmEcu_UdpNmEcu", k!"UDP-NM-ECU", []⟩]
    .nil)
   k!"readIdentifiable_VariationPoint" [⟨k!"readIdentifiable_VariationPoint", k!"writeVariationPoint_VariationPoint", k!"VARIATION-POINT", []⟩]
   (.node .nil
    k!"readRptSupportData_RptComponent" [⟨k!"readRptSupportData_RptComponent", k!"writeRptSupportData_RptSupportData_L4475", k!"RPT-COMPONENT", []⟩]
    .nil)))
 k!"getAnyInstanceRef_AnyInstanceRef" [⟨k!"getAnyInstanceRef_AnyInstanceRef", k!"setAnyInstanceRef_ECU_EXTRACT_REFERENCE_IREF_AnyInstanceRef", k!"ECU-EXTRACT-REFERENCE-IREF", []⟩,
    ⟨k!"getAnyInstanceRef_AnyInstanceRef", k!"setAnyInstanceRef_FEATURE_IREF_AnyInstanceRef", k!"FEATURE-IREF", []⟩,
    ⟨k!"getAnyInstanceRef_AnyInstanceRef", k!"setAnyInstanceRef_UPSTREAM_REFERENCE_IREF_AnyInstanceRef", k!"UPSTREAM-REFERENCE-IREF", []⟩,
    ⟨k!"getAnyInstanceRef_AnyInstanceRef", k!"setAnyInstanceRef_VALUE_IREF_AnyInstanceRef", k!"VALUE-IREF", []⟩]
 (.node (.node (.node (.node .nil
     k!"getSdClientConfig_SdClientConfig" [⟨k!"getSdClientConfig_SdClientConfig", k!"setSdClientConfig_SD_CLIENT_CONFIG_SdClientConfig", k!"SD-CLIENT-CONFIG", []⟩]
     .nil)
    k!"getSdServerConfig_SdServerConfig" [⟨k!"getSdServerConfig_SdServerConfig", k!"setSdServerConfig_SD_SERVER_CONFIG_SdServerConfig", k!"SD-SERVER-CONFIG", []⟩]
    .nil)
   k!"getSwDataDefProps_SwDataDefProps" [⟨k!"getSwDataDefProps_SwDataDefProps", k!"setSwDataDefProps_NETWORK_REPRESENTATION_PROPS_SwDataDefProps", k!"NETWORK-REPRESENTATION-PROPS", []⟩,
    ⟨k!"getSwDataDefProps_SwDataDefProps", k!"setSwDataDefProps_NETWORK_REPRESENTATION_SwDataDefProps", k!"NETWORK-REPRESENTATION", []⟩,
    ⟨k!"getSwDataDefProps_SwDataDefProps", k!"setSwDataDefProps_PHYSICAL_PROPS_SwDataDefProps", k!"PHYSICAL-PROPS", []⟩,
    ⟨k!"getSwDataDefProps_SwDataDefProps", k!"setSwDataDefProps_SW_DATA_DEF_PROPS_SwDataDefProps", k!"SW-DATA-DEF-PROPS", []⟩]
   (.node .nil
    k!"readARPackageElements_CanCluster" [⟨k!"readARPackageElements_CanCluster", k!"writeCanCluster_CanCluster", k!"CAN-CLUSTER", []⟩]
    .nil))
  k!"readARPackageElements_Collection" [⟨k!"readARPackageElements_Collection", k!"writeCollection_Collection", k!"COLLECTION", []⟩]
  (.node (.node (.node .nil
     k!"readARPackageElements_DataConstr" [⟨k!"readARPackageElements_DataConstr", k!"writeDataConstr_DataConstr", k!"DATA-CONSTR", []⟩]
     .nil)
    k!"readARPackageElements_HwCategory" [⟨k!"readARPackageElements_HwCategory", k!"writeHwCategory_HwCategory", k!"HW-CATEGORY", []⟩]
    .nil)
   k!"readARPackageElements_KeywordSet" [⟨k!"readARPackageElements_KeywordSet", k!"writeKeywordSet_KeywordSet", k!"KEYWORD-SET", []⟩]
   (.node .nil
    k!"readARPackageElements_LinCluster" [⟨k!"readARPackageElements_LinCluster", k!"writeLinCluster_LinCluster", k!"LIN-CLUSTER", []⟩]
    .nil))))

def pairTable08 : Bst (List Pair) :=
 (.node (.node (.node (.node (.node .nil
     k!"readARPackageElements_SwBaseType" [⟨k!"readARPackageElements_SwBaseType", k!"writeSwBaseType_SwBaseType", k!"SW-BASE-TYPE", []⟩]
     .nil)
    k!"readCanTpConfigTpNodes_CanTpNode" [⟨k!"readCanTpConfigTpNodes_CanTpNode", k!"writeCanTpNode_CanTpNode", k!"CAN-TP-NODE", []⟩]
    .nil)
   k!"readHeapUsages_MeasuredHeapUsage" [⟨k!"readHeapUsages_MeasuredHeapUsage", k!"writeMeasuredHeapUsage_MeasuredHeapUsage", k!"MEASURED-HEAP-USAGE", []⟩]
   (.node .nil
    k!"readImplementation_McSupportData" [⟨k!"readImplementation_McSupportData", k!"writeMcSupportData_McSupportData", k!"MC-SUPPORT", []⟩]
    .nil))
  k!"readLinTpConfigTpNodes_LinTpNode" [⟨k!"readLinTpConfigTpNodes_LinTpNode", k!"writeLinTpNode_LinTpNode", k!"LIN-TP-NODE", []⟩]
  (.node (.node (.node .nil
     k!"readMcSupportData_McDataInstance" [⟨k!"readMcSupportData_McDataInstance", k!"writeMcSupportData_McSupportData_L4285", k!"MC-DATA-INSTANCE", []⟩]
     .nil)
    k!"readMcSupportData_RptSupportData" [⟨k!"readMcSupportData_RptSupportData", k!"writeRptSupportData_RptSupportData", k!"RPT-SUPPORT-DATA", []⟩]
    .nil)
   k!"readMemorySections_MemorySection" [⟨k!"readMemorySections_MemorySection", k!"writeMemorySections_ResourceConsumption_L4051", k!"MEMORY-SECTION", []⟩]
   (.node .nil
    k!"readNmClusterNmNodes_J1939NmNode" [⟨k!"readNmClusterNmNodes_J1939NmNode", k!"writeJ1939NmNode_J1939NmNode", k!"J-1939-NM-NODE", []⟩]
    .nil)))
 k!"readReferenceBases_ReferenceBase" [⟨k!"readReferenceBases_ReferenceBase", k!"writeARPackage_ARPackage_L9513", k!"REFERENCE-BASE", []⟩]
 (.node (.node (.node (.node .nil
     k!"readReferrable_ShortNameFragment" [⟨k!"readReferrable_ShortNameFragment", k!"setShortNameFragment_ShortNameFragment", k!"SHORT-NAME-FRAGMENT", []⟩]
     .nil)
    k!"readSystemMappings_SystemMapping" [⟨k!"readSystemMappings_SystemMapping", k!"writeSystemMapping_SystemMapping", k!"SYSTEM-MAPPING", []⟩]
    .nil)
   k!"getISignalMappings_ISignalMapping" [⟨k!"getISignalMappings_ISignalMapping", k!"writeGateway_Gateway_L8186", k!"I-SIGNAL-MAPPING", []⟩]
   (.node .nil
    k!"readARPackageElements_CanTpConfig" [⟨k!"readARPackageElements_CanTpConfig", k!"writeCanTpConfig_CanTpConfig", k!"CAN-TP-CONFIG", []⟩]
    .nil))
  k!"readARPackageElements_CompuMethod" [⟨k!"readARPackageElements_CompuMethod", k!"writeCompuMethod_CompuMethod", k!"COMPU-METHOD", []⟩]
  (.node (.node .nil
    k!"readARPackageElements_EcuInstance" [⟨k!"readARPackageElements_EcuInstance", k!"writeEcuInstance_EcuInstance", k!"ECU-INSTANCE", []⟩]
    .nil)
   k!"readARPackageElements_ISignalIPdu" [⟨k!"readARPackageElements_ISignalIPdu", k!"writeISignalIPdu_ISignalIPdu", k!"I-SIGNAL-I-PDU", []⟩]
   (.node .nil
    k!"readARPackageElements_LinTpConfig" [⟨k!"readARPackageElements_LinTpConfig", k!"writeLinTpConfig_LinTpConfig", k!"LIN-TP-CONFIG", []⟩]
    .nil))))

def pairTable09 : Bst (List Pair) :=
 .node pairTable07 k!"readARPackageElements_McFunction" [⟨k!"readARPackageElements_McFunction", k!"writeMcFunction_McFunction", k!"MC-FUNCTION", []⟩] pairTable08

def pairTable10 : Bst (List Pair) :=
 (.node (.node (.node (.node (.node .nil
     k!"readChapterContent_ChapterContent" [⟨k!"readChapterContent_ChapterContent", k!"writeChapterContent_ChapterContent", k!"CHAPTER-CONTENT", []⟩]
     .nil)
    k!"readDataConstrRule_DataConstrRule" [⟨k!"readDataConstrRule_DataConstrRule", k!"writeDataConstrRules_DataConstr_L2519", k!"DATA-CONSTR-RULE", []⟩]
    .nil)
   k!"readEcucQuery_EcucQueryExpression" [⟨k!"readEcucQuery_EcucQueryExpression", k!"writeEcucQuery_EcucQuery_L7115", k!"ECUC-QUERY-EXPRESSION", []⟩]
   (.node .nil
    k!"readErrorTracerNeeds_RuntimeError" [⟨k!"readErrorTracerNeeds_RuntimeError", k!"setRuntimeError_RuntimeError", k!"RUNTIME-ERROR", []⟩]
    .nil))
  k!"readHeapUsages_WorstCaseHeapUsage" [⟨k!"readHeapUsages_WorstCaseHeapUsage", k!"writeWorstCaseHeapUsage_WorstCaseHeapUsage", k!"WORST-CASE-HEAP-USAGE", []⟩]
  (.node (.node (.node .nil
     k!"readHwPinConnector_HwPinConnector" [⟨k!"readHwPinConnector_HwPinConnector", k!"writeHwPinConnector_HwPinConnector", k!"HW-PIN-CONNECTION", []⟩]
     .nil)
    k!"readMcDataInstance_SwDataDefProps" [⟨k!"readMcDataInstance_SwDataDefProps", k!"writeMcDataInstance_McDataInstance_L4356", k!"RESULTING-PROPERTIES", []⟩]
    .nil)
   k!"readMsrQueryTopic1_MsrQueryTopic1" [⟨k!"readMsrQueryTopic1_MsrQueryTopic1", k!"writeMsrQueryTopic1_MsrQueryTopic1", k!"MSR-QUERY-TOPIC-1", []⟩]
   (.node .nil
    k!"getLifeCyclePeriod_LifeCyclePeriod" [⟨k!"getLifeCyclePeriod_LifeCyclePeriod", k!"setLifeCyclePeriod_PERIOD_BEGIN_LifeCyclePeriod", k!"PERIOD-BEGIN", []⟩]
    .nil)))
 k!"getMultiLanguageVerbatim_LVerbatim" [⟨k!"getMultiLanguageVerbatim_LVerbatim", k!"setLVerbatim_LVerbatim", k!"L-5", []⟩]
 (.node (.node (.node (.node .nil
     k!"getNumericalOrText_NumericalOrText" [⟨k!"getNumericalOrText_NumericalOrText", k!"writeNumericalOrText_VTF_NumericalOrText", k!"VTF", []⟩]
     .nil)
    k!"getSwRecordLayoutV_SwRecordLayoutV" [⟨k!"getSwRecordLayoutV_SwRecordLayoutV", k!"setSwRecordLayoutV_SW_RECORD_LAYOUT_V_SwRecordLayoutV", k!"SW-RECORD-LAYOUT-V", []⟩]
    .nil)
   k!"readARPackageElements_DoIpTpConfig" [⟨k!"readARPackageElements_DoIpTpConfig", k!"writeDoIpTpConfig_DoIpTpConfig", k!"DO-IP-TP-CONFIG", []⟩]
   (.node .nil
    k!"readARPackageElements_FlexrayFrame" [⟨k!"readARPackageElements_FlexrayFrame", k!"writeFlexrayFrame_FlexrayFrame", k!"FLEXRAY-FRAME", []⟩]
    .nil))
  k!"readARPackageElements_ISignalGroup" [⟨k!"readARPackageElements_ISignalGroup", k!"writeISignalGroup_ISignalGroup", k!"I-SIGNAL-GROUP", []⟩]
  (.node (.node (.node .nil
     k!"readARPackageElements_SwAddrMethod" [⟨k!"readARPackageElements_SwAddrMethod", k!"writeSwAddrMethod_SwAddrMethod", k!"SW-ADDR-METHOD", []⟩]
     .nil)
    k!"readARPackageElements_SystemSignal" [⟨k!"readARPackageElements_SystemSignal", k!"writeSystemSignal_SystemSignal", k!"SYSTEM-SIGNAL", []⟩]
    .nil)
   k!"readAccessCountSets_AccessCountSet" [⟨k!"readAccessCountSets_AccessCountSet", k!"setResourceConsumption_ResourceConsumption_L4192", k!"ACCESS-COUNT-SET", []⟩]
   (.node .nil
    k!"readInternalBehavior_ExclusiveArea" [⟨k!"readInternalBehavior_ExclusiveArea", k!"writeExclusiveAreas_InternalBehavior_L2671", k!"EXCLUSIVE-AREA", []⟩]
    .nil))))

def pairTable11 : Bst (List Pair) :=
 (.node (.node (.node (.node (.node .nil
     k!"readReceiverComSpec_VariableAccess" [⟨k!"readReceiverComSpec_VariableAccess", k!"writeReceiverReplaceWith_REPLACE_WITH_VariableAccess", k!"REPLACE-WITH", []⟩]
     .nil)
    k!"readRptSupportData_RptServicePoint" [⟨k!"readRptSupportData_RptServicePoint", k!"writeRptSupportData_RptSupportData_L4480", k!"RPT-SERVICE-POINT", []⟩]
    .nil)
   k!"readStackUsages_MeasuredStackUsage" [⟨k!"readStackUsages_MeasuredStackUsage", k!"setMeasuredStackUsage_MeasuredStackUsage", k!"MEASURED-STACK-USAGE", []⟩]
   (.node .nil
    k!"readTpConnection_TpConnectionIdent" [⟨k!"readTpConnection_TpConnectionIdent", k!"writeTpConnection_TpConnection_L6067", k!"IDENT", []⟩]
    .nil))
  k!"getClientComSpec_ClientComSpec_port" [⟨k!"getClientComSpec_ClientComSpec_port", k!"writeClientComSpec_ClientComSpec", k!"CLIENT-COM-SPEC", []⟩]
  (.node (.node (.node .nil
     k!"readARPackageElements_Documentation" [⟨k!"readARPackageElements_Documentation", k!"writeDocumentation_Documentation", k!"DOCUMENTATION", []⟩]
     .nil)
    k!"readARPackageElements_EcucModuleDef" [⟨k!"readARPackageElements_EcucModuleDef", k!"writeEcucModuleDef_EcucModuleDef", k!"ECUC-MODULE-DEF", []⟩]
    .nil)
   k!"readARPackageElements_SwSystemconst" [⟨k!"readARPackageElements_SwSystemconst", k!"writeSwSystemconst_SwSystemconst", k!"SW-SYSTEMCONST", []⟩]
   (.node .nil
    k!"readARPackageElements_SwcBswMapping" [⟨k!"readARPackageElements_SwcBswMapping", k!"writeSwcBswMapping_SwcBswMapping", k!"SWC-BSW-MAPPING", []⟩]
    .nil)))
 k!"readErrorTracerNeeds_TransientFault" [⟨k!"readErrorTracerNeeds_TransientFault", k!"setTransientFault_TransientFault", k!"TRANSIENT-FAULT", []⟩]
 (.node (.node (.node (.node .nil
     k!"readHeapUsage_HardwareConfiguration" [⟨k!"readHeapUsage_HardwareConfiguration", k!"setHardwareConfiguration_HardwareConfiguration", k!"HARDWARE-CONFIGURATION", []⟩]
     .nil)
    k!"readHwElementHwPinGroups_HwPinGroup" [⟨k!"readHwElementHwPinGroups_HwPinGroup", k!"writeHwPinGroup_HwPinGroup", k!"HW-PIN-GROUP", []⟩]
    .nil)
   k!"readInternalConstrs_InternalConstrs" [⟨k!"readInternalConstrs_InternalConstrs", k!"setInternalConstrs_InternalConstrs", k!"INTERNAL-CONSTRS", []⟩]
   (.node .nil
    k!"readMcFunction_McFunctionDataRefSet" [⟨k!"readMcFunction_McFunctionDataRefSet", k!"writeMcFunction_McFunction_L9525", k!"DEF-CALPRM-SET", []⟩,
    ⟨k!"readMcFunction_McFunctionDataRefSet", k!"writeMcFunction_McFunction_L9528", k!"REF-CALPRM-SET", []⟩,
    ⟨k!"readMcFunction_McFunctionDataRefSet", k!"writeMcFunction_McFunction_L9531", k!"IN-MEASUREMENT-SET", []⟩,
    ⟨k!"readMcFunction_McFunctionDataRefSet", k!"writeMcFunction_McFunction_L9534", k!"LOC-MEASUREMENT-SET", []⟩,
    ⟨k!"readMcFunction_McFunctionDataRefSet", k!"writeMcFunction_McFunction_L9537", k!"OUT-MEASUREMENT-SET", []⟩]
    .nil))
  k!"readMsrQueryChapter_MsrQueryChapter" [⟨k!"readMsrQueryChapter_MsrQueryChapter", k!"writeMsrQueryChapter_MsrQueryChapter", k!"MSR-QUERY-CHAPTER", []⟩]
  (.node (.node .nil
    k!"readNmConfigNmClusters_CanNmCluster" [⟨k!"readNmConfigNmClusters_CanNmCluster", k!"writeCanNmCluster_CanNmCluster", k!"CAN-NM-CLUSTER", []⟩]
    .nil)
   k!"readNmConfigNmClusters_UdpNmCluster" [⟨k!"readNmConfigNmClusters_UdpNmCluster", k!"writeUdpNmCluster_UdpNmCluster", k!"UDP-NM-CLUSTER", []⟩]
   (.node .nil
    k!"readPossibleErrors_ApplicationError" [⟨k!"readPossibleErrors_ApplicationError", k!"writeApplicationError_ApplicationError", k!"APPLICATION-ERROR", []⟩]
    .nil))))

def pairTable12 : Bst (List Pair) :=
 .node pairTable10 k!"readNvBlockDescriptor_NvBlockNeeds" [⟨k!"readNvBlockDescriptor_NvBlockNeeds", k!"writeNvBlockNeeds_NvBlockNeeds", k!"NV-BLOCK-NEEDS", []⟩] pairTable11

def pairTable13 : Bst (List Pair) :=
 .node pairTable09 k!"readARPackageElements_SecuredIPdu" [⟨k!"readARPackageElements_SecuredIPdu", k!"writeSecuredIPdu_SecuredIPdu", k!"SECURED-I-PDU", []⟩] pairTable12

def pairTable14 : Bst (List Pair) :=
 .node pairTable06 k!"readKeywordSetKeywords_Keyword" [⟨k!"readKeywordSetKeywords_Keyword", k!"writeKeyword_Keyword", k!"KEYWORD", []⟩] pairTable13

def pairTable15 : Bst (List Pair) :=
 (.node (.node (.node (.node (.node .nil
     k!"_readVariableAccesses_VariableAccess" [⟨k!"_readVariableAccesses_VariableAccess", k!"writeVariableAccess_VariableAccess", k!"VARIABLE-ACCESS", []⟩]
     .nil)
    k!"getApplicationEntry_ApplicationEntry" [⟨k!"getApplicationEntry_ApplicationEntry", k!"setApplicationEntry_APPLICATION_ENTRY_ApplicationEntry", k!"APPLICATION-ENTRY", []⟩]
    .nil)
   k!"getBufferProperties_BufferProperties" [⟨k!"getBufferProperties_BufferProperties", k!"setBufferProperties_BUFFER_PROPERTIES_BufferProperties", k!"BUFFER-PROPERTIES", []⟩]
   (.node .nil
    k!"getNvProvideComSpec_NvProvideComSpec" [⟨k!"getNvProvideComSpec_NvProvideComSpec", k!"writeNvProvideComSpec_NvProvideComSpec", k!"NV-PROVIDE-COM-SPEC", []⟩]
    .nil))
  k!"getNvRequireComSpec_NvRequireComSpec" [⟨k!"getNvRequireComSpec_NvRequireComSpec", k!"writeNvRequireComSpec_NvRequireComSpec", k!"NV-REQUIRE-COM-SPEC", []⟩]
  (.node (.node (.node .nil
     k!"getSocketConnection_SocketConnection" [⟨k!"getSocketConnection_SocketConnection", k!"setSocketConnection_SocketConnection", k!"SOCKET-CONNECTION", []⟩]
     .nil)
    k!"getSwAxisIndividual_SwAxisIndividual" [⟨k!"getSwAxisIndividual_SwAxisIndividual", k!"setSwAxisIndividual_SwAxisIndividual", k!"SW-AXIS-INDIVIDUAL", []⟩]
    .nil)
   k!"getTextTableMapping_TextTableMapping" [⟨k!"getTextTableMapping_TextTableMapping", k!"setTextTableMapping_TextTableMapping", k!"TEXT-TABLE-MAPPING", []⟩]
   (.node .nil
    k!"readARPackageElements_BswModuleEntry" [⟨k!"readARPackageElements_BswModuleEntry", k!"writeBswModuleEntry_BswModuleEntry", k!"BSW-MODULE-ENTRY", []⟩]
    .nil)))
 k!"readARPackageElements_FlexrayCluster" [⟨k!"readARPackageElements_FlexrayCluster", k!"writeFlexrayCluster_FlexrayCluster", k!"FLEXRAY-CLUSTER", []⟩]
 (.node (.node (.node (.node .nil
     k!"readARPackageElements_SwRecordLayout" [⟨k!"readARPackageElements_SwRecordLayout", k!"writeSwRecordLayout_SwRecordLayout", k!"SW-RECORD-LAYOUT", []⟩]
     .nil)
    k!"readARPackageElements_UserDefinedPdu" [⟨k!"readARPackageElements_UserDefinedPdu", k!"writeUserDefinedPdu_UserDefinedPdu", k!"USER-DEFINED-PDU", []⟩]
    .nil)
   k!"readLinTpConfigTpAddresses_TpAddress" [⟨k!"readLinTpConfigTpAddresses_TpAddress", k!"writeTpAddress_TpAddress", k!"TP-ADDRESS", []⟩]
   (.node .nil
    k!"readPortPrototype_ModePortAnnotation" [⟨k!"readPortPrototype_ModePortAnnotation", k!"writeModePortAnnotation_ModePortAnnotation", k!"MODE-PORT-ANNOTATION", []⟩]
    .nil))
  k!"readRptComponent_RptExecutableEntity" [⟨k!"readRptComponent_RptExecutableEntity", k!"writeRptComponent_RptComponent_L4462", k!"RPT-EXECUTABLE-ENTITY", []⟩]
  (.node (.node (.node .nil
     k!"readSwRefTiming_MultidimensionalTime" [⟨k!"readSwRefTiming_MultidimensionalTime", k!"setMultidimensionalTime_BEST_CASE_EXECUTION_TIME_MultidimensionalTime", k!"BEST-CASE-EXECUTION-TIME", []⟩,
    ⟨k!"readSwRefTiming_MultidimensionalTime", k!"setMultidimensionalTime_ESTIMATED_EXECUTION_TIME_MultidimensionalTime", k!"ESTIMATED-EXECUTION-TIME", []⟩,
    ⟨k!"readSwRefTiming_MultidimensionalTime", k!"setMultidimensionalTime_MAXIMUM_EXECUTION_TIME_MultidimensionalTime", k!"MAXIMUM-EXECUTION-TIME", []⟩,
    ⟨k!"readSwRefTiming_MultidimensionalTime", k!"setMultidimensionalTime_MINIMUM_EXECUTION_TIME_MultidimensionalTime", k!"MINIMUM-EXECUTION-TIME", []⟩,
    ⟨k!"readSwRefTiming_MultidimensionalTime", k!"setMultidimensionalTime_NOMINAL_EXECUTION_TIME_MultidimensionalTime", k!"NOMINAL-EXECUTION-TIME", []⟩,
    ⟨k!"readSwRefTiming_MultidimensionalTime", k!"setMultidimensionalTime_SW_REFRESH_TIMING_MultidimensionalTime", k!"SW-REFRESH-TIMING", []⟩,
    ⟨k!"readSwRefTiming_MultidimensionalTime", k!"setMultidimensionalTime_WORST_CASE_EXECUTION_TIME_MultidimensionalTime", k!"WORST-CASE-EXECUTION-TIME", []⟩]
     .nil)
    k!"readARPackageElements_EthernetCluster" [⟨k!"readARPackageElements_EthernetCluster", k!"writeEthernetCluster_EthernetCluster", k!"ETHERNET-CLUSTER", []⟩]
    .nil)
   k!"readARPackageElements_MultiplexedIPdu" [⟨k!"readARPackageElements_MultiplexedIPdu", k!"writeMultiplexedIPdu_MultiplexedIPdu", k!"MULTIPLEXED-I-PDU", []⟩]
   (.node .nil
    k!"readARPackageElements_NvDataInterface" [⟨k!"readARPackageElements_NvDataInterface", k!"writeNvDataInterface_NvDataInterface", k!"NV-DATA-INTERFACE", []⟩]
    .nil))))

def pairTable16 : Bst (List Pair) :=
 (.node (.node (.node (.node (.node .nil
     k!"readAdminDataDocRevisions_DocRevision" [⟨k!"readAdminDataDocRevisions_DocRevision", k!"writeDocRevision_DocRevision", k!"DOC-REVISION", []⟩]
     .nil)
    k!"readEcucValidationCondition_EcucQuery" [⟨k!"readEcucValidationCondition_EcucQuery", k!"writeEcucValidationCondition_EcucValidationCondition_L7100", k!"ECUC-QUERY", []⟩]
    .nil)
   k!"readErrorTracerNeeds_DevelopmentError" [⟨k!"readErrorTracerNeeds_DevelopmentError", k!"setDevelopmentError_DevelopmentError", k!"DEVELOPMENT-ERROR", []⟩]
   (.node .nil
    k!"readHeapUsages_RoughEstimateHeapUsage" [⟨k!"readHeapUsages_RoughEstimateHeapUsage", k!"writeRoughEstimateHeapUsage_RoughEstimateHeapUsage", k!"ROUGH-ESTIMATE-HEAP-USAGE", []⟩]
    .nil))
  k!"readSwCalprmRefProxy_SwCalprmRefProxy" [⟨k!"readSwCalprmRefProxy_SwCalprmRefProxy", k!"setSwCalprmRefProxy_SW_CALPRM_REF_PROXY_SwCalprmRefProxy", k!"SW-CALPRM-REF-PROXY", []⟩]
  (.node (.node (.node .nil
     k!"readSwDataDependency_CompuGenericMath" [⟨k!"readSwDataDependency_CompuGenericMath", k!"setSwDataDependency_SwDataDependency_L2169", k!"SW-DATA-DEPENDENCY-FORMULA", []⟩]
     .nil)
    k!"readSwDataDependency_SwDataDependency" [⟨k!"readSwDataDependency_SwDataDependency", k!"setSwDataDependency_SwDataDependency", k!"SW-DATA-DEPENDENCY", []⟩]
    .nil)
   k!"readVariationPoint_BlueprintGenerator" [⟨k!"readVariationPoint_BlueprintGenerator", k!"writeBlueprintGenerator_BlueprintGenerator", k!"FORMAL-BLUEPRINT-GENERATOR", []⟩]
   (.node .nil
    k!"readVariationPoint_ConditionByFormula" [⟨k!"readVariationPoint_ConditionByFormula", k!"writeConditionByFormula_ConditionByFormula", k!"SW-SYSCOND", []⟩,
    ⟨k!"readVariationPoint_ConditionByFormula", k!"writeConditionByFormula_ConditionByFormula_CONDITION_ACCESS", k!"CONDITION-ACCESS", []⟩]
    .nil)))
 k!"getConstantReference_ConstantReference" [⟨k!"getConstantReference_ConstantReference", k!"setConstantReference_ConstantReference", k!"CONSTANT-REFERENCE", []⟩]
 (.node (.node (.node (.node .nil
     k!"getIpv6Configuration_Ipv6Configuration" [⟨k!"getIpv6Configuration_Ipv6Configuration", k!"setIpv6Configuration_Ipv6Configuration", k!"IPV-6-CONFIGURATION", []⟩]
     .nil)
    k!"getRuleBasedAxisCont_RuleBasedAxisCont" [⟨k!"getRuleBasedAxisCont_RuleBasedAxisCont", k!"writeRuleBasedAxisCont_RuleBasedAxisCont", k!"RULE-BASED-AXIS-CONT", []⟩]
    .nil)
   k!"getSubElementMapping_SubElementMapping" [⟨k!"getSubElementMapping_SubElementMapping", k!"setSubElementMapping_SubElementMapping", k!"SUB-ELEMENT-MAPPING", []⟩]
   (.node .nil
    k!"readARPackageElements_ConsistencyNeeds" [⟨k!"readARPackageElements_ConsistencyNeeds", k!"writeConsistencyNeeds_ConsistencyNeeds", k!"CONSISTENCY-NEEDS", []⟩]
    .nil))
  k!"readARPackageElements_ISignalIPduGroup" [⟨k!"readARPackageElements_ISignalIPduGroup", k!"writeISignalIPduGroup_ISignalIPduGroup", k!"I-SIGNAL-I-PDU-GROUP", []⟩]
  (.node (.node .nil
    k!"readARPackageElements_LifeCycleInfoSet" [⟨k!"readARPackageElements_LifeCycleInfoSet", k!"writeLifeCycleInfoSet_LifeCycleInfoSet", k!"LIFE-CYCLE-INFO-SET", []⟩]
    .nil)
   k!"readARPackageElements_SoAdRoutingGroup" [⟨k!"readARPackageElements_SoAdRoutingGroup", k!"writeSoAdRoutingGroup_SoAdRoutingGroup", k!"SO-AD-ROUTING-GROUP", []⟩]
   (.node .nil
    k!"readCanTpConfigTpChannels_CanTpChannel" [⟨k!"readCanTpConfigTpChannels_CanTpChannel", k!"writeCanTpChannel_CanTpChannel", k!"CAN-TP-CHANNEL", []⟩]
    .nil))))

def pairTable17 : Bst (List Pair) :=
 .node pairTable15 k!"readARPackageElements_UserDefinedIPdu" [⟨k!"readARPackageElements_UserDefinedIPdu", k!"writeUserDefinedIPdu_UserDefinedIPdu", k!"USER-DEFINED-I-PDU", []⟩] pairTable16

def pairTable18 : Bst (List Pair) :=
 (.node (.node (.node (.node (.node .nil
     k!"readPortPrototype_NvDataPortAnnotation" [⟨k!"readPortPrototype_NvDataPortAnnotation", k!"writeNvDataPortAnnotation_NvDataPortAnnotation", k!"NV-DATA-PORT-ANNOTATION", []⟩]
     .nil)
    k!"readRptSupportData_RptExecutionContext" [⟨k!"readRptSupportData_RptExecutionContext", k!"writeRptSupportData_RptSupportData_L4470", k!"RPT-EXECUTION-CONTEXT", []⟩]
    .nil)
   k!"readRunnableEntityWaitPoints_WaitPoint" [⟨k!"readRunnableEntityWaitPoints_WaitPoint", k!"writeRunnableEntityWaitPoints_RunnableEntity_L3160", k!"WAIT-POINT", []⟩]
   (.node .nil
    k!"getTransportProtocolConfiguration_TcpTp" [⟨k!"getTransportProtocolConfiguration_TcpTp", k!"writeTcpTp_TcpTp", k!"TCP-TP", []⟩]
    .nil))
  k!"getTransportProtocolConfiguration_UdpTp" [⟨k!"getTransportProtocolConfiguration_UdpTp", k!"writeUdpTp_UdpTp", k!"UDP-TP", []⟩]
  (.node (.node (.node .nil
     k!"readARPackageElements_BswImplementation" [⟨k!"readARPackageElements_BswImplementation", k!"writeBswImplementation_BswImplementation", k!"BSW-IMPLEMENTATION", []⟩]
     .nil)
    k!"readARPackageElements_GeneralPurposePdu" [⟨k!"readARPackageElements_GeneralPurposePdu", k!"writeGeneralPurposePdu_GeneralPurposePdu", k!"GENERAL-PURPOSE-PDU", []⟩]
    .nil)
   k!"readARPackageElements_PhysicalDimension" [⟨k!"readARPackageElements_PhysicalDimension", k!"writePhysicalDimension_PhysicalDimension", k!"PHYSICAL-DIMENSION", []⟩]
   (.node .nil
    k!"readARPackageElements_PredefinedVariant" [⟨k!"readARPackageElements_PredefinedVariant", k!"writePredefinedVariant_PredefinedVariant", k!"PREDEFINED-VARIANT", []⟩]
    .nil)))
 k!"readARPackageElements_SwcImplementation" [⟨k!"readARPackageElements_SwcImplementation", k!"writeSwcImplementation_SwcImplementation", k!"SWC-IMPLEMENTATION", []⟩]
 (.node (.node (.node (.node .nil
     k!"readARPackageElements_SystemSignalGroup" [⟨k!"readARPackageElements_SystemSignalGroup", k!"writeSystemSignalGroup_SystemSignalGroup", k!"SYSTEM-SIGNAL-GROUP", []⟩]
     .nil)
    k!"readCanTpConfigTpAddresses_CanTpAddress" [⟨k!"readCanTpConfigTpAddresses_CanTpAddress", k!"writeCanTpAddress_CanTpAddress", k!"CAN-TP-ADDRESS", []⟩]
    .nil)
   k!"readExecutionTime_MemorySectionLocation" [⟨k!"readExecutionTime_MemorySectionLocation", k!"writeExecutionTime_AnalyzedExecutionTime_L4097", k!"MEMORY-SECTION-LOCATION", []⟩]
   (.node .nil
    k!"readModeErrorBehavior_ModeErrorBehavior" [⟨k!"readModeErrorBehavior_ModeErrorBehavior", k!"writeModeErrorBehavior_MODE_MANAGER_ERROR_BEHAVIOR_ModeErrorBehavior", k!"MODE-MANAGER-ERROR-BEHAVIOR", []⟩,
    ⟨k!"readModeErrorBehavior_ModeErrorBehavior", k!"writeModeErrorBehavior_MODE_USER_ERROR_BEHAVIOR_ModeErrorBehavior", k!"MODE-USER-ERROR-BEHAVIOR", []⟩]
    .nil))
  k!"readPortPrototype_TriggerPortAnnotation" [⟨k!"readPortPrototype_TriggerPortAnnotation", k!"writeTriggerPortAnnotation_TriggerPortAnnotation", k!"TRIGGER-PORT-ANNOTATION", []⟩]
  (.node (.node (.node .nil
     k!"readPredefinedChapter_PredefinedChapter" [⟨k!"readPredefinedChapter_PredefinedChapter", k!"writeDocumentation_Documentation_L1602", k!"DOCUMENTATION-CONTENT", []⟩]
     .nil)
    k!"readStackUsages_RoughEstimateStackUsage" [⟨k!"readStackUsages_RoughEstimateStackUsage", k!"setRoughEstimateStackUsage_RoughEstimateStackUsage", k!"ROUGH-ESTIMATE-STACK-USAGE", []⟩]
    .nil)
   k!"readSwComponentTypePorts_PPortPrototype" [⟨k!"readSwComponentTypePorts_PPortPrototype", k!"writePPortPrototype_PPortPrototype", k!"P-PORT-PROTOTYPE", []⟩]
   (.node .nil
    k!"readSwComponentTypePorts_RPortPrototype" [⟨k!"readSwComponentTypePorts_RPortPrototype", k!"writeRPortPrototype_RPortPrototype", k!"R-PORT-PROTOTYPE", []⟩]
    .nil))))

def pairTable19 : Bst (List Pair) :=
 (.node (.node (.node (.node (.node .nil
     k!"readSymbolicNameProps_SymbolicNameProps" [⟨k!"readSymbolicNameProps_SymbolicNameProps", k!"writeSymbolicNameProps_ServiceDependency_L3354", k!"SYMBOLIC-NAME-PROPS", []⟩]
     .nil)
    k!"getAutosarVariableRef_AutosarVariableRef" [⟨k!"getAutosarVariableRef_AutosarVariableRef", k!"setAutosarVariableRef_ACCESSED_VARIABLE_AutosarVariableRef", k!"ACCESSED-VARIABLE", []⟩,
    ⟨k!"getAutosarVariableRef_AutosarVariableRef", k!"setAutosarVariableRef_AUTOSAR_VARIABLE_AutosarVariableRef", k!"AUTOSAR-VARIABLE", []⟩,
    ⟨k!"getAutosarVariableRef_AutosarVariableRef", k!"setAutosarVariableRef_NV_RAM_BLOCK_ELEMENT_AutosarVariableRef", k!"NV-RAM-BLOCK-ELEMENT", []⟩,
    ⟨k!"getAutosarVariableRef_AutosarVariableRef", k!"setAutosarVariableRef_READ_NV_DATA_AutosarVariableRef", k!"READ-NV-DATA", []⟩,
    ⟨k!"getAutosarVariableRef_AutosarVariableRef", k!"setAutosarVariableRef_USED_DATA_ELEMENT_AutosarVariableRef", k!"USED-DATA-ELEMENT", []⟩,
    ⟨k!"getAutosarVariableRef_AutosarVariableRef", k!"setAutosarVariableRef_VARIABLE_INSTANCE_AutosarVariableRef", k!"VARIABLE-INSTANCE", []⟩,
    ⟨k!"getAutosarVariableRef_AutosarVariableRef", k!"setAutosarVariableRef_WRITTEN_NV_DATA_AutosarVariableRef", k!"WRITTEN-NV-DATA", []⟩,
    ⟨k!"getAutosarVariableRef_AutosarVariableRef", k!"setAutosarVariableRef_WRITTEN_READ_NV_DATA_AutosarVariableRef", k!"WRITTEN-READ-NV-DATA", []⟩]
    .nil)
   k!"getDocumentationBlock_DocumentationBlock" [⟨k!"getDocumentationBlock_DocumentationBlock", k!"writeDocumentationBlock_ANNOTATION_TEXT_DocumentationBlock", k!"ANNOTATION-TEXT", []⟩,
    ⟨k!"getDocumentationBlock_DocumentationBlock", k!"writeDocumentationBlock_BLUEPRINT_CONDITION_DocumentationBlock", k!"BLUEPRINT-CONDITION", []⟩,
    ⟨k!"getDocumentationBlock_DocumentationBlock", k!"writeDocumentationBlock_CONFLICTS_DocumentationBlock", k!"CONFLICTS", []⟩,
    ⟨k!"getDocumentationBlock_DocumentationBlock", k!"writeDocumentationBlock_DEF_DocumentationBlock", k!"DEF", []⟩,
    ⟨k!"getDocumentationBlock_DocumentationBlock", k!"writeDocumentationBlock_DEPENDENCIES_DocumentationBlock", k!"DEPENDENCIES", []⟩,
    ⟨k!"getDocumentationBlock_DocumentationBlock", k!"writeDocumentationBlock_DESCRIPTION_DocumentationBlock", k!"DESCRIPTION", []⟩,
    ⟨k!"getDocumentationBlock_DocumentationBlock", k!"writeDocumentationBlock_DOCUMENTATION_BLOCK_DocumentationBlock", k!"DOCUMENTATION-BLOCK", []⟩,
    ⟨k!"getDocumentationBlock_DocumentationBlock", k!"writeDocumentationBlock_INTRODUCTION_DocumentationBlock", k!"INTRODUCTION", []⟩,
    ⟨k!"getDocumentationBlock_DocumentationBlock", k!"writeDocumentationBlock_ITEM_CONTENTS_DocumentationBlock", k!"ITEM-CONTENTS", []⟩,
    ⟨k!"getDocumentationBlock_DocumentationBlock", k!"writeDocumentationBlock_ITEM_DocumentationBlock", k!"ITEM", []⟩,
    ⟨k!"getDocumentationBlock_DocumentationBlock", k!"writeDocumentationBlock_MSR_QUERY_RESULT_P2_DocumentationBlock", k!"MSR-QUERY-RESULT-P2", []⟩,
    ⟨k!"getDocumentationBlock_DocumentationBlock", k!"writeDocumentationBlock_NOTE_TEXT_DocumentationBlock", k!"NOTE-TEXT", []⟩,
    ⟨k!"getDocumentationBlock_DocumentationBlock", k!"writeDocumentationBlock_RATIONALE_DocumentationBlock", k!"RATIONALE", []⟩,
    ⟨k!"getDocumentationBlock_DocumentationBlock", k!"writeDocumentationBlock_REMARK_DocumentationBlock", k!"REMARK", []⟩,
    ⟨k!"getDocumentationBlock_DocumentationBlock", k!"writeDocumentationBlock_SUPPORTING_MATERIAL_DocumentationBlock", k!"SUPPORTING-MATERIAL", []⟩,
    ⟨k!"getDocumentationBlock_DocumentationBlock", k!"writeDocumentationBlock_TEXT_DocumentationBlock", k!"TEXT", []⟩,
    ⟨k!"getDocumentationBlock_DocumentationBlock", k!"writeDocumentationBlock_USE_CASE_DocumentationBlock", k!"USE-CASE", []⟩]
   (.node .nil
    k!"getEcucReferenceValue_EcucReferenceValue" [⟨k!"getEcucReferenceValue_EcucReferenceValue", k!"setEcucReferenceValue_EcucReferenceValue", k!"ECUC-REFERENCE-VALUE", []⟩]
    .nil))
  k!"getRuleBasedValueCont_RuleBasedValueCont" [⟨k!"getRuleBasedValueCont_RuleBasedValueCont", k!"writeRuleBasedValueCont_RuleBasedValueCont", k!"SW-VALUE-CONT", []⟩]
  (.node (.node (.node .nil
     k!"getSwGenericAxisParam_SwGenericAxisParam" [⟨k!"getSwGenericAxisParam_SwGenericAxisParam", k!"setSwGenericAxisParam_SwGenericAxisParam", k!"SW-GENERIC-AXIS-PARAM", []⟩]
     .nil)
    k!"readARPackageElements_DataPrototypeGroup" [⟨k!"readARPackageElements_DataPrototypeGroup", k!"writeDataPrototypeGroup_DataPrototypeGroup", k!"DATA-PROTOTYPE-GROUP", []⟩]
    .nil)
   k!"readARPackageElements_DataTypeMappingSet" [⟨k!"readARPackageElements_DataTypeMappingSet", k!"writeDataTypeMappingSet_DataTypeMappingSet", k!"DATA-TYPE-MAPPING-SET", []⟩]
   (.node .nil
    k!"readARPackageElements_GeneralPurposeIPdu" [⟨k!"readARPackageElements_GeneralPurposeIPdu", k!"writeGeneralPurposeIPdu_GeneralPurposeIPdu", k!"GENERAL-PURPOSE-I-PDU", []⟩]
    .nil)))
 k!"readARPackageElements_ParameterInterface" [⟨k!"readARPackageElements_ParameterInterface", k!"writeParameterInterface_ParameterInterface", k!"PARAMETER-INTERFACE", []⟩]
 (.node (.node (.node (.node .nil
     k!"readBswModuleEntryArguments_SwServiceArg" [⟨k!"readBswModuleEntryArguments_SwServiceArg", k!"setSwServiceArg_RETURN_TYPE_SwServiceArg", k!"RETURN-TYPE", []⟩,
    ⟨k!"readBswModuleEntryArguments_SwServiceArg", k!"setSwServiceArg_SW_SERVICE_ARG_SwServiceArg", k!"SW-SERVICE-ARG", []⟩]
     .nil)
    k!"readEcuInstanceCommControllers_LinMaster" [⟨k!"readEcuInstanceCommControllers_LinMaster", k!"writeLinMaster_LinMaster", k!"LIN-MASTER", []⟩]
    .nil)
   k!"readExecutionTimes_AnalyzedExecutionTime" [⟨k!"readExecutionTimes_AnalyzedExecutionTime", k!"writeAnalyzedExecutionTime_AnalyzedExecutionTime", k!"ANALYZED-EXECUTION-TIME", []⟩]
   (.node .nil
    k!"readExecutionTimes_MeasuredExecutionTime" [⟨k!"readExecutionTimes_MeasuredExecutionTime", k!"writeMeasuredExecutionTime_MeasuredExecutionTime", k!"MEASURED-EXECUTION-TIME", []⟩]
    .nil))
  k!"readHwAttributeDef_HwAttributeLiteralDef" [⟨k!"readHwAttributeDef_HwAttributeLiteralDef", k!"writeHwAttributeLiteralDef_HwAttributeLiteralDef", k!"HW-ATTRIBUTE-LITERAL-DEF", []⟩]
  (.node (.node .nil
    k!"readNvBlockDescriptor_NvBlockDataMapping" [⟨k!"readNvBlockDescriptor_NvBlockDataMapping", k!"writeNvBlockDataMapping_NvBlockDataMapping", k!"NV-BLOCK-DATA-MAPPING", []⟩]
    .nil)
   k!"readPduToFrameMappings_PduToFrameMapping" [⟨k!"readPduToFrameMappings_PduToFrameMapping", k!"writePduToFrameMappings_Frame_L5750", k!"PDU-TO-FRAME-MAPPING", []⟩]
   (.node .nil
    k!"readPortPrototype_ClientServerAnnotation" [⟨k!"readPortPrototype_ClientServerAnnotation", k!"writeClientServerAnnotation_ClientServerAnnotation", k!"CLIENT-SERVER-ANNOTATION", []⟩]
    .nil))))

def pairTable20 : Bst (List Pair) :=
 .node pairTable18 k!"readSwcInternalBehaviorEvents_InitEvent" [⟨k!"readSwcInternalBehaviorEvents_InitEvent", k!"writeInitEvent_InitEvent", k!"INIT-EVENT", []⟩] pairTable19

def pairTable21 : Bst (List Pair) :=
 .node pairTable17 k!"readMcDataInstance_McDataAccessDetails" [⟨k!"readMcDataInstance_McDataAccessDetails", k!"writeMcDataInstance_McDataInstance_L4349", k!"MC-DATA-ACCESS-DETAILS", []⟩] pairTable20

def pairTable22 : Bst (List Pair) :=
 (.node (.node (.node (.node (.node .nil
     k!"readTransientFault_PossibleErrorReaction" [⟨k!"readTransientFault_PossibleErrorReaction", k!"setPossibleErrorReaction_PossibleErrorReaction", k!"POSSIBLE-ERROR-REACTION", []⟩]
     .nil)
    k!"getLOverviewParagraphs_LOverviewParagraph" [⟨k!"getLOverviewParagraphs_LOverviewParagraph", k!"setLOverviewParagraph_LOverviewParagraph", k!"L-2", []⟩]
    .nil)
   k!"getNvRequireComSpec_NvRequireComSpec_port" [⟨k!"getNvRequireComSpec_NvRequireComSpec_port", k!"writeNvRequireComSpec_NvRequireComSpec", k!"NV-REQUIRE-COM-SPEC", []⟩]
   (.node .nil
    k!"readARPackageElements_ModeSwitchInterface" [⟨k!"readARPackageElements_ModeSwitchInterface", k!"writeModeSwitchInterface_ModeSwitchInterface", k!"MODE-SWITCH-INTERFACE", []⟩]
    .nil))
  k!"readARPackageElements_RunnableEntityGroup" [⟨k!"readARPackageElements_RunnableEntityGroup", k!"writeRunnableEntityGroup_RunnableEntityGroup", k!"RUNNABLE-ENTITY-GROUP", []⟩]
  (.node (.node (.node .nil
     k!"readCompuRationCoeffs_CompuRationalCoeffs" [⟨k!"readCompuRationCoeffs_CompuRationalCoeffs", k!"writeCompuScaleContents_CompuScale_L2265", k!"COMPU-RATIONAL-COEFFS", []⟩]
     .nil)
    k!"readContainedIPduProps_ContainedIPduProps" [⟨k!"readContainedIPduProps_ContainedIPduProps", k!"writeContainedIPduProps_ContainedIPduProps", k!"CONTAINED-I-PDU-PROPS", []⟩]
    .nil)
   k!"readDocRevisionModifications_Modification" [⟨k!"readDocRevisionModifications_Modification", k!"writeModification_Modification", k!"MODIFICATION", []⟩]
   (.node .nil
    k!"readEndToEndProtection_EndToEndProtection" [⟨k!"readEndToEndProtection_EndToEndProtection", k!"writeEndToEndProtection_EndToEndProtection", k!"END-TO-END-PROTECTION", []⟩]
    .nil)))
 k!"readExecutionTimes_SimulatedExecutionTime" [⟨k!"readExecutionTimes_SimulatedExecutionTime", k!"writeSimulatedExecutionTime_SimulatedExecutionTime", k!"SIMULATED-EXECUTION-TIME", []⟩]
 (.node (.node (.node (.node .nil
     k!"readLOverviewParagraph_LOverviewParagraph" [⟨k!"readLOverviewParagraph_LOverviewParagraph", k!"setLOverviewParagraph_LOverviewParagraph", k!"L-2", []⟩]
     .nil)
    k!"readMcDataInstance_RptSwPrototypingAccess" [⟨k!"readMcDataInstance_RptSwPrototypingAccess", k!"writeMcDataInstance_McDataInstance_L4358", k!"RESULTING-RPT-SW-PROTOTYPING-ACCESS", []⟩]
    .nil)
   k!"readMultiplexedIPduStaticParts_StaticPart" [⟨k!"readMultiplexedIPduStaticParts_StaticPart", k!"writeStaticPart_StaticPart", k!"STATIC-PART", []⟩]
   (.node .nil
    k!"readPortPrototype_DelegatedPortAnnotation" [⟨k!"readPortPrototype_DelegatedPortAnnotation", k!"writeDelegatedPortAnnotation_DelegatedPortAnnotation", k!"DELEGATED-PORT-ANNOTATION", []⟩]
    .nil))
  k!"readPortPrototype_ParameterPortAnnotation" [⟨k!"readPortPrototype_ParameterPortAnnotation", k!"writeParameterPortAnnotation_ParameterPortAnnotation", k!"PARAMETER-PORT-ANNOTATION", []⟩]
  (.node (.node (.node .nil
     k!"readSectionNamePrefixes_SectionNamePrefix" [⟨k!"readSectionNamePrefixes_SectionNamePrefix", k!"setResourceConsumption_ResourceConsumption_L4184", k!"SECTION-NAME-PREFIX", []⟩]
     .nil)
    k!"readSwDataDependency_SwDataDependencyArgs" [⟨k!"readSwDataDependency_SwDataDependencyArgs", k!"setSwDataDependency_SwDataDependency_L2175", k!"SW-DATA-DEPENDENCY-ARGS", []⟩]
    .nil)
   k!"readSwVariableRefProxy_SwVariableRefProxy" [⟨k!"readSwVariableRefProxy_SwVariableRefProxy", k!"setSwHostVariable_SwVariableRefProxy", k!"SW-HOST-VARIABLE", []⟩,
    ⟨k!"readSwVariableRefProxy_SwVariableRefProxy", k!"setSwVariableRefProxy_SW_VARIABLE_REF_PROXY_SwVariableRefProxy", k!"SW-VARIABLE-REF-PROXY", []⟩]
   (.node .nil
    k!"readSwcInternalBehaviorEvents_TimingEvent" [⟨k!"readSwcInternalBehaviorEvents_TimingEvent", k!"writeTimingEvent_TimingEvent", k!"TIMING-EVENT", []⟩]
    .nil))))

def pairTable23 : Bst (List Pair) :=
 (.node (.node (.node (.node (.node .nil
     k!"getBswModeSenderPolicy_BswModeSenderPolicy" [⟨k!"getBswModeSenderPolicy_BswModeSenderPolicy", k!"setBswModeSenderPolicy_BswModeSenderPolicy", k!"BSW-MODE-SENDER-POLICY", []⟩]
     .nil)
    k!"getChildElementJ1939NodeName_J1939NodeName" [⟨k!"getChildElementJ1939NodeName_J1939NodeName", k!"setChildElementJ1939NodeName_NODE_NAME_J1939NodeName", k!"NODE-NAME", []⟩]
    .nil)
   k!"getCompuConstContent_CompuConstTextContent" [⟨k!"getCompuConstContent_CompuConstTextContent", k!"setCompuConst_COMPU_DEFAULT_VALUE_CompuConst_L2286", k!"VT", []⟩]
   (.node .nil
    k!"getCouplingPortDetails_CouplingPortDetails" [⟨k!"getCouplingPortDetails_CouplingPortDetails", k!"setCouplingPortDetails_COUPLING_PORT_DETAILS_CouplingPortDetails", k!"COUPLING-PORT-DETAILS", []⟩]
    .nil))
  k!"getEndToEndDescription_EndToEndDescription" [⟨k!"getEndToEndDescription_EndToEndDescription", k!"setEndToEndDescription_END_TO_END_PROFILE_EndToEndDescription", k!"END-TO-END-PROFILE", []⟩]
  (.node (.node (.node .nil
     k!"getQueuedSenderComSpec_QueuedSenderComSpec" [⟨k!"getQueuedSenderComSpec_QueuedSenderComSpec", k!"writeQueuedSenderComSpec_QueuedSenderComSpec", k!"QUEUED-SENDER-COM-SPEC", []⟩]
     .nil)
    k!"getSwRecordLayoutGroup_SwRecordLayoutGroup" [⟨k!"getSwRecordLayoutGroup_SwRecordLayoutGroup", k!"setSwRecordLayoutGroup_SW_RECORD_LAYOUT_GROUP_SwRecordLayoutGroup", k!"SW-RECORD-LAYOUT-GROUP", []⟩]
    .nil)
   k!"readARPackageElements_BswModuleDescription" [⟨k!"readARPackageElements_BswModuleDescription", k!"writeBswModuleDescription_BswModuleDescription", k!"BSW-MODULE-DESCRIPTION", []⟩]
   (.node .nil
    k!"readARPackageElements_DiagnosticConnection" [⟨k!"readARPackageElements_DiagnosticConnection", k!"writeDiagnosticConnection_DiagnosticConnection", k!"DIAGNOSTIC-CONNECTION", []⟩]
    .nil)))
 k!"readARPackageElements_GenericEthernetFrame" [⟨k!"readARPackageElements_GenericEthernetFrame", k!"writeGenericEthernetFrame_GenericEthernetFrame", k!"ETHERNET-FRAME", []⟩]
 (.node (.node (.node (.node .nil
     k!"readARPackageElements_ModeDeclarationGroup" [⟨k!"readARPackageElements_ModeDeclarationGroup", k!"writeModeDeclarationGroup_ModeDeclarationGroup", k!"MODE-DECLARATION-GROUP", []⟩]
     .nil)
    k!"readEthernetPhysicalChannelVlan_VlanConfig" [⟨k!"readEthernetPhysicalChannelVlan_VlanConfig", k!"writeEthernetPhysicalChannelVlan_EthernetPhysicalChannel_L6776", k!"VLAN", []⟩]
    .nil)
   k!"readModeRequestTypeMaps_ModeRequestTypeMap" [⟨k!"readModeRequestTypeMaps_ModeRequestTypeMap", k!"writeModeRequestTypeMaps_DataTypeMappingSet_L5632", k!"MODE-REQUEST-TYPE-MAP", []⟩]
   (.node .nil
    k!"readPortPrototype_SenderReceiverAnnotation" [⟨k!"readPortPrototype_SenderReceiverAnnotation", k!"writeSenderReceiverAnnotation_SenderReceiverAnnotation", k!"SENDER-RECEIVER-ANNOTATION", []⟩]
    .nil))
  k!"readRptComponent_RoleBasedMcDataAssignment" [⟨k!"readRptComponent_RoleBasedMcDataAssignment", k!"writeRptComponent_RptComponent_L4455", k!"ROLE-BASED-MC-DATA-ASSIGNMENT", []⟩]
  (.node (.node .nil
    k!"readSwDataDefPropsBits_SwBitRepresentation" [⟨k!"readSwDataDefPropsBits_SwBitRepresentation", k!"setSwBitRepresentation_SwBitRepresentation", k!"SW-BIT-REPRESENTATION", []⟩]
    .nil)
   k!"getTransportProtocolConfiguration_GenericTp" [⟨k!"getTransportProtocolConfiguration_GenericTp", k!"writeGenericTp_GenericTp", k!"GENERIC-TP", []⟩]
   (.node .nil
    k!"readARPackageElements_ClientServerInterface" [⟨k!"readARPackageElements_ClientServerInterface", k!"writeClientServerInterface_ClientServerInterface", k!"CLIENT-SERVER-INTERFACE", []⟩]
    .nil))))

def pairTable24 : Bst (List Pair) :=
 .node pairTable22 k!"getAutosarParameterRef_AutosarParameterRef" [⟨k!"getAutosarParameterRef_AutosarParameterRef", k!"setAutosarParameterRef_ACCESSED_PARAMETER_AutosarParameterRef", k!"ACCESSED-PARAMETER", []⟩,
    ⟨k!"getAutosarParameterRef_AutosarParameterRef", k!"setAutosarParameterRef_AR_PARAMETER_AutosarParameterRef", k!"AR-PARAMETER", []⟩,
    ⟨k!"getAutosarParameterRef_AutosarParameterRef", k!"setAutosarParameterRef_PARAMETER_INSTANCE_AutosarParameterRef", k!"PARAMETER-INSTANCE", []⟩,
    ⟨k!"getAutosarParameterRef_AutosarParameterRef", k!"setAutosarParameterRef_USED_PARAMETER_ELEMENT_AutosarParameterRef", k!"USED-PARAMETER-ELEMENT", []⟩] pairTable23

def pairTable25 : Bst (List Pair) :=
 (.node (.node (.node (.node (.node .nil
     k!"readARPackageElements_DataTransformationSet" [⟨k!"readARPackageElements_DataTransformationSet", k!"writeDataTransformationSet_DataTransformationSet", k!"DATA-TRANSFORMATION-SET", []⟩]
     .nil)
    k!"readARPackageElements_EndToEndProtectionSet" [⟨k!"readARPackageElements_EndToEndProtectionSet", k!"writeEndToEndProtectionSet_EndToEndProtectionSet", k!"END-TO-END-PROTECTION-SET", []⟩]
    .nil)
   k!"readARPackageElements_LinUnconditionalFrame" [⟨k!"readARPackageElements_LinUnconditionalFrame", k!"writeLinUnconditionalFrame_LinUnconditionalFrame", k!"LIN-UNCONDITIONAL-FRAME", []⟩]
   (.node .nil
    k!"readFlatMapInstances_FlatInstanceDescriptor" [⟨k!"readFlatMapInstances_FlatInstanceDescriptor", k!"setFlatInstanceDescriptor_FlatInstanceDescriptor", k!"FLAT-INSTANCE-DESCRIPTOR", []⟩]
    .nil))
  k!"readHwCategoryHwAttributeDef_HwAttributeDef" [⟨k!"readHwCategoryHwAttributeDef_HwAttributeDef", k!"writeHwAttributeDef_HwAttributeDef", k!"HW-ATTRIBUTE-DEF", []⟩]
  (.node (.node (.node .nil
     k!"readHwPinGroupConnector_HwPinGroupConnector" [⟨k!"readHwPinGroupConnector_HwPinGroupConnector", k!"writeHwPinGroupConnector_HwPinGroupConnector", k!"HW-PIN-GROUP-CONNECTION", []⟩]
     .nil)
    k!"readMultiplexedIPduDynamicParts_DynamicPart" [⟨k!"readMultiplexedIPduDynamicParts_DynamicPart", k!"writeDynamicPart_DynamicPart", k!"DYNAMIC-PART", []⟩]
    .nil)
   k!"readNvBlockDescriptor_VariableDataPrototype" [⟨k!"readNvBlockDescriptor_VariableDataPrototype", k!"writeNvBlockDescriptor_NvBlockDescriptor_L2797", k!"RAM-BLOCK", [.empty k!"initValue"]⟩,
    ⟨k!"readNvBlockDescriptor_VariableDataPrototype", k!"writeVariableDataPrototype_VariableDataPrototype", k!"VARIABLE-DATA-PROTOTYPE", []⟩]
   (.node .nil
    k!"readResourceConsumption_ResourceConsumption" [⟨k!"readResourceConsumption_ResourceConsumption", k!"setResourceConsumption_ResourceConsumption", k!"RESOURCE-CONSUMPTION", []⟩]
    .nil)))
 k!"readSoAdConfigSocketAddresses_SocketAddress" [⟨k!"readSoAdConfigSocketAddresses_SocketAddress", k!"writeSocketAddress_SocketAddress", k!"SOCKET-ADDRESS", []⟩]
 (.node (.node (.node (.node .nil
     k!"readSystemMappingSwMappings_SwcToEcuMapping" [⟨k!"readSystemMappingSwMappings_SwcToEcuMapping", k!"setSwcToEcuMapping_SwcToEcuMapping", k!"SWC-TO-ECU-MAPPING", []⟩]
     .nil)
    k!"getCanNmClusterCoupling_CanNmClusterCoupling" [⟨k!"getCanNmClusterCoupling_CanNmClusterCoupling", k!"writeCanNmClusterCoupling_CanNmClusterCoupling", k!"CAN-NM-CLUSTER-COUPLING", []⟩]
    .nil)
   k!"getInitialSdDelayConfig_InitialSdDelayConfig" [⟨k!"getInitialSdDelayConfig_InitialSdDelayConfig", k!"setInitialSdDelayConfig_INITIAL_FIND_BEHAVIOR_InitialSdDelayConfig", k!"INITIAL-FIND-BEHAVIOR", []⟩,
    ⟨k!"getInitialSdDelayConfig_InitialSdDelayConfig", k!"setInitialSdDelayConfig_INITIAL_OFFER_BEHAVIOR_InitialSdDelayConfig", k!"INITIAL-OFFER-BEHAVIOR", []⟩]
   (.node .nil
    k!"getRequestResponseDelay_RequestResponseDelay" [⟨k!"getRequestResponseDelay_RequestResponseDelay", k!"setRequestResponseDelay_REQUEST_RESPONSE_DELAY_RequestResponseDelay", k!"REQUEST-RESPONSE-DELAY", []⟩]
    .nil))
  k!"getSwPointerTargetProps_SwPointerTargetProps" [⟨k!"getSwPointerTargetProps_SwPointerTargetProps", k!"setSwPointerTargetProps_SW_POINTER_TARGET_PROPS_SwPointerTargetProps", k!"SW-POINTER-TARGET-PROPS", []⟩]
  (.node (.node (.node .nil
     k!"getUdpNmClusterCoupling_UdpNmClusterCoupling" [⟨k!"getUdpNmClusterCoupling_UdpNmClusterCoupling", k!"writeUdpNmClusterCoupling_UdpNmClusterCoupling", k!"UDP-NM-CLUSTER-COUPLING", []⟩]
     .nil)
    k!"readARPackageElements_DiagnosticServiceTable" [⟨k!"readARPackageElements_DiagnosticServiceTable", k!"writeDiagnosticServiceTable_DiagnosticServiceTable", k!"DIAGNOSTIC-SERVICE-TABLE", []⟩]
    .nil)
   k!"readARPackageElements_ImplementationDataType" [⟨k!"readARPackageElements_ImplementationDataType", k!"writeImplementationDataType_ImplementationDataType", k!"IMPLEMENTATION-DATA-TYPE", []⟩]
   (.node .nil
    k!"readARPackageElements_NvBlockSwComponentType" [⟨k!"readARPackageElements_NvBlockSwComponentType", k!"writeNvBlockSwComponentType_NvBlockSwComponentType", k!"NV-BLOCK-SW-COMPONENT-TYPE", []⟩]
    .nil))))

def pairTable26 : Bst (List Pair) :=
 (.node (.node (.node (.node (.node .nil
     k!"readARPackageElements_ServiceSwComponentType" [⟨k!"readARPackageElements_ServiceSwComponentType", k!"writeServiceSwComponentType_ServiceSwComponentType", k!"SERVICE-SW-COMPONENT-TYPE", []⟩]
     .nil)
    k!"readBswInternalBehaviorEvents_BswTimingEvent" [⟨k!"readBswInternalBehaviorEvents_BswTimingEvent", k!"writeBswTimingEvent_BswTimingEvent", k!"BSW-TIMING-EVENT", []⟩]
    .nil)
   k!"readCanTpConfigTpConnections_CanTpConnection" [⟨k!"readCanTpConfigTpConnections_CanTpConnection", k!"writeCanTpConnection_CanTpConnection", k!"CAN-TP-CONNECTION", []⟩]
   (.node .nil
    k!"readLinTpConfigTpConnections_LinTpConnection" [⟨k!"readLinTpConfigTpConnections_LinTpConnection", k!"writeLinTpConnection_LinTpConnection", k!"LIN-TP-CONNECTION", []⟩]
    .nil))
  k!"readMcSupportData_McSwEmulationMethodSupport" [⟨k!"readMcSupportData_McSwEmulationMethodSupport", k!"writeMcSupportData_McSupportData_L4280", k!"MC-SW-EMULATION-METHOD-SUPPORT", []⟩]
  (.node (.node (.node .nil
     k!"readNvBlockDescriptor_ParameterDataPrototype" [⟨k!"readNvBlockDescriptor_ParameterDataPrototype", k!"writeNvBlockDescriptor_NvBlockDescriptor_L2801", k!"ROM-BLOCK", [.empty k!"initValue"]⟩,
    ⟨k!"readNvBlockDescriptor_ParameterDataPrototype", k!"writeParameterDataPrototype_ParameterDataPrototype", k!"PARAMETER-DATA-PROTOTYPE", []⟩]
     .nil)
    k!"readNvBlockSwComponentType_NvBlockDescriptor" [⟨k!"readNvBlockSwComponentType_NvBlockDescriptor", k!"writeNvBlockDescriptor_NvBlockDescriptor", k!"NV-BLOCK-DESCRIPTOR", []⟩]
    .nil)
   k!"readVariationPoint_PostBuildVariantCondition" [⟨k!"readVariationPoint_PostBuildVariantCondition", k!"writePostBuildVariantCondition_PostBuildVariantCondition", k!"POST-BUILD-VARIANT-CONDITION", []⟩]
   (.node .nil
    k!"getCompuConstContent_CompuConstFormulaContent" [⟨k!"getCompuConstContent_CompuConstFormulaContent", k!"setCompuConst_COMPU_DEFAULT_VALUE_CompuConst_L2282", k!"VF", []⟩]
    .nil)))
 k!"getCompuConstContent_CompuConstNumericContent" [⟨k!"getCompuConstContent_CompuConstNumericContent", k!"setCompuConst_COMPU_DEFAULT_VALUE_CompuConst_L2284", k!"V", []⟩]
 (.node (.node (.node (.node .nil
     k!"getDataPrototypeMappings_DataPrototypeMapping" [⟨k!"getDataPrototypeMappings_DataPrototypeMapping", k!"setDataPrototypeMapping_DataPrototypeMapping", k!"DATA-PROTOTYPE-MAPPING", []⟩]
     .nil)
    k!"readARPackageElements_PortInterfaceMappingSet" [⟨k!"readARPackageElements_PortInterfaceMappingSet", k!"writePortInterfaceMappingSet_PortInterfaceMappingSet", k!"PORT-INTERFACE-MAPPING-SET", []⟩]
    .nil)
   k!"readARPackageElements_SenderReceiverInterface" [⟨k!"readARPackageElements_SenderReceiverInterface", k!"writeSenderReceiverInterface_SenderReceiverInterface", k!"SENDER-RECEIVER-INTERFACE", []⟩]
   (.node .nil
    k!"readDependencyOnArtifact_DependencyOnArtifact" [⟨k!"readDependencyOnArtifact_DependencyOnArtifact", k!"writeDependencyOnArtifact_DependencyOnArtifact", k!"DEPENDENCY-ON-ARTIFACT", []⟩]
    .nil))
  k!"readDocumentationContext_DocumentationContext" [⟨k!"readDocumentationContext_DocumentationContext", k!"writeDocumentation_Documentation_L1598", k!"DOCUMENTATION-CONTEXT", []⟩]
  (.node (.node .nil
    k!"readEcucConditionFormula_EcucConditionFormula" [⟨k!"readEcucConditionFormula_EcucConditionFormula", k!"writeEcucConditionFormula_CONDITION_FORMULA_EcucConditionFormula", k!"CONDITION-FORMULA", []⟩,
    ⟨k!"readEcucConditionFormula_EcucConditionFormula", k!"writeEcucConditionFormula_VALIDATION_FORMULA_EcucConditionFormula", k!"VALIDATION-FORMULA", []⟩]
    .nil)
   k!"readISignalToPduMappings_ISignalToIPduMapping" [⟨k!"readISignalToPduMappings_ISignalToIPduMapping", k!"writeISignalToPduMappings_ISignalIPdu_L9078", k!"I-SIGNAL-TO-I-PDU-MAPPING", []⟩]
   (.node .nil
    k!"readSwcInternalBehaviorEvents_BackgroundEvent" [⟨k!"readSwcInternalBehaviorEvents_BackgroundEvent", k!"writeBackgroundEvent_BackgroundEvent", k!"BACKGROUND-EVENT", []⟩]
    .nil))))

def pairTable27 : Bst (List Pair) :=
 .node pairTable25 k!"readARPackageElements_PortPrototypeBlueprint" [⟨k!"readARPackageElements_PortPrototypeBlueprint", k!"writePortPrototypeBlueprint_PortPrototypeBlueprint", k!"PORT-PROTOTYPE-BLUEPRINT", []⟩] pairTable26

def pairTable28 : Bst (List Pair) :=
 .node pairTable24 k!"readARPackageElements_ConstantSpecification" [⟨k!"readARPackageElements_ConstantSpecification", k!"writeConstantSpecification_ConstantSpecification", k!"CONSTANT-SPECIFICATION", []⟩] pairTable27

def pairTable29 : Bst (List Pair) :=
 .node pairTable21 k!"readSwComponentTypePorts_PRPortPrototype" [⟨k!"readSwComponentTypePorts_PRPortPrototype", k!"writePRPortPrototype_PRPortPrototype", k!"PR-PORT-PROTOTYPE", []⟩] pairTable28

def pairTable30 : Bst (List Pair) :=
 .node pairTable14 k!"readStackUsages_WorstCaseStackUsage" [⟨k!"readStackUsages_WorstCaseStackUsage", k!"setWorstCaseStackUsage_WorstCaseStackUsage", k!"WORST-CASE-STACK-USAGE", []⟩] pairTable29

def pairTable31 : Bst (List Pair) :=
 (.node (.node (.node (.node (.node .nil
     k!"getEcucTextualParamValue_EcucTextualParamValue" [⟨k!"getEcucTextualParamValue_EcucTextualParamValue", k!"setEcucTextualParamValue_EcucTextualParamValue", k!"ECUC-TEXTUAL-PARAM-VALUE", []⟩]
     .nil)
    k!"getEventControlledTiming_EventControlledTiming" [⟨k!"getEventControlledTiming_EventControlledTiming", k!"setEventControlledTiming_EVENT_CONTROLLED_TIMING_EventControlledTiming", k!"EVENT-CONTROLLED-TIMING", []⟩]
    .nil)
   k!"getMultiLanguageVerbatim_MultiLanguageVerbatim" [⟨k!"getMultiLanguageVerbatim_MultiLanguageVerbatim", k!"setMultiLanguageVerbatim_VERBATIM_MultiLanguageVerbatim", k!"VERBATIM", []⟩]
   (.node .nil
    k!"getMultilanguageLongName_MultilanguageLongName" [⟨k!"getMultilanguageLongName_MultilanguageLongName", k!"setMultiLongName_LABEL_MultilanguageLongName", k!"LABEL", []⟩,
    ⟨k!"getMultilanguageLongName_MultilanguageLongName", k!"setMultiLongName_LONG_NAME_MultilanguageLongName", k!"LONG-NAME", []⟩]
    .nil))
  k!"getQueuedReceiverComSpec_QueuedReceiverComSpec" [⟨k!"getQueuedReceiverComSpec_QueuedReceiverComSpec", k!"writeQueuedReceiverComSpec_QueuedReceiverComSpec", k!"QUEUED-RECEIVER-COM-SPEC", []⟩]
  (.node (.node (.node .nil
     k!"getReceptionComSpecProps_ReceptionComSpecProps" [⟨k!"getReceptionComSpecProps_ReceptionComSpecProps", k!"writeReceptionComSpecProps_RECEPTION_PROPS_ReceptionComSpecProps", k!"RECEPTION-PROPS", []⟩]
     .nil)
    k!"readARPackageElements_ApplicationArrayDataType" [⟨k!"readARPackageElements_ApplicationArrayDataType", k!"writeApplicationArrayDataType_ApplicationArrayDataType", k!"APPLICATION-ARRAY-DATA-TYPE", []⟩]
    .nil)
   k!"readARPackageElements_EcucDefinitionCollection" [⟨k!"readARPackageElements_EcucDefinitionCollection", k!"writeEcucDefinitionCollection_EcucDefinitionCollection", k!"ECUC-DEFINITION-COLLECTION", []⟩]
   (.node .nil
    k!"readARPackageElements_EcucDestinationUriDefSet" [⟨k!"readARPackageElements_EcucDestinationUriDefSet", k!"writeEcucDestinationUriDefSet_EcucDestinationUriDefSet", k!"ECUC-DESTINATION-URI-DEF-SET", []⟩]
    .nil)))
 k!"readARPackageElements_SwSystemconstantValueSet" [⟨k!"readARPackageElements_SwSystemconstantValueSet", k!"writeSwSystemconstantValueSet_SwSystemconstantValueSet", k!"SW-SYSTEMCONSTANT-VALUE-SET", []⟩]
 (.node (.node (.node (.node .nil
     k!"readCouplingPortVlanMemberships_VlanMembership" [⟨k!"readCouplingPortVlanMemberships_VlanMembership", k!"writeVlanMembership_VlanMembership", k!"VLAN-MEMBERSHIP", []⟩]
     .nil)
    k!"readDoIpTpConfigTpConnections_DoIpTpConnection" [⟨k!"readDoIpTpConfigTpConnections_DoIpTpConnection", k!"writeDoIpTpConnection_DoIpTpConnection", k!"DO-IP-TP-CONNECTION", []⟩]
    .nil)
   k!"readPortInterfaceMappings_ModeInterfaceMapping" [⟨k!"readPortInterfaceMappings_ModeInterfaceMapping", k!"writeModeInterfaceMapping_ModeInterfaceMapping", k!"MODE-INTERFACE-MAPPING", []⟩]
   (.node .nil
    k!"readARPackageElements_ApplicationRecordDataType" [⟨k!"readARPackageElements_ApplicationRecordDataType", k!"writeApplicationRecordDataType_ApplicationRecordDataType", k!"APPLICATION-RECORD-DATA-TYPE", []⟩]
    .nil))
  k!"readARPackageElements_ModeDeclarationMappingSet" [⟨k!"readARPackageElements_ModeDeclarationMappingSet", k!"writeModeDeclarationMappingSet_ModeDeclarationMappingSet", k!"MODE-DECLARATION-MAPPING-SET", []⟩]
  (.node (.node (.node .nil
     k!"readARPackageElements_PostBuildVariantCriterion" [⟨k!"readARPackageElements_PostBuildVariantCriterion", k!"writePostBuildVariantCriterion_PostBuildVariantCriterion", k!"POST-BUILD-VARIANT-CRITERION", []⟩]
     .nil)
    k!"readBswInternalBehaviorEntities_BswCalledEntity" [⟨k!"readBswInternalBehaviorEntities_BswCalledEntity", k!"writeBswCalledEntity_BswCalledEntity", k!"BSW-CALLED-ENTITY", []⟩]
    .nil)
   k!"readEcucContainerDefReferences_EcucReferenceDef" [⟨k!"readEcucContainerDefReferences_EcucReferenceDef", k!"writeEcucReferenceDef_EcucReferenceDef", k!"ECUC-REFERENCE-DEF", []⟩]
   (.node .nil
    k!"readExecutionTimes_RoughEstimateOfExecutionTime" [⟨k!"readExecutionTimes_RoughEstimateOfExecutionTime", k!"writeRoughEstimateOfExecutionTime_RoughEstimateOfExecutionTime", k!"ROUGH-ESTIMATE-OF-EXECUTION-TIME", []⟩]
    .nil))))

def pairTable32 : Bst (List Pair) :=
 (.node (.node (.node (.node (.node .nil
     k!"readNvBlockSwComponentType_BulkNvDataDescriptor" [⟨k!"readNvBlockSwComponentType_BulkNvDataDescriptor", k!"writeBulkNvDataDescriptor_BulkNvDataDescriptor", k!"BULK-NV-DATA-DESCRIPTOR", []⟩]
     .nil)
    k!"readPhysicalChannelPduTriggerings_PduTriggering" [⟨k!"readPhysicalChannelPduTriggerings_PduTriggering", k!"writePduTriggering_PduTriggering", k!"PDU-TRIGGERING", []⟩]
    .nil)
   k!"readSwcInternalBehaviorEvents_DataReceivedEvent" [⟨k!"readSwcInternalBehaviorEvents_DataReceivedEvent", k!"writeDataReceivedEvent_DataReceivedEvent", k!"DATA-RECEIVED-EVENT", []⟩]
   (.node .nil
    k!"readSwcInternalBehaviorRunnables_RunnableEntity" [⟨k!"readSwcInternalBehaviorRunnables_RunnableEntity", k!"writeRunnableEntity_RunnableEntity", k!"RUNNABLE-ENTITY", []⟩]
    .nil))
  k!"readSystemMappingEcuResourceMappings_ECUMapping" [⟨k!"readSystemMappingEcuResourceMappings_ECUMapping", k!"writeEcuMapping_ECUMapping", k!"ECU-MAPPING", []⟩]
  (.node (.node (.node .nil
     k!"getISignalIPduIPduTimingSpecification_IPduTiming" [⟨k!"getISignalIPduIPduTimingSpecification_IPduTiming", k!"writeISignalIPdu_ISignalIPdu_L9135", k!"I-PDU-TIMING", []⟩]
     .nil)
    k!"getInfrastructureServices_InfrastructureServices" [⟨k!"getInfrastructureServices_InfrastructureServices", k!"setInfrastructureServices_INFRASTRUCTURE_SERVICES_InfrastructureServices", k!"INFRASTRUCTURE-SERVICES", []⟩]
    .nil)
   k!"getModeSwitchedAckRequest_ModeSwitchedAckRequest" [⟨k!"getModeSwitchedAckRequest_ModeSwitchedAckRequest", k!"setModeSwitchedAckRequest_MODE_SWITCHED_ACK_ModeSwitchedAckRequest", k!"MODE-SWITCHED-ACK", []⟩]
   (.node .nil
    k!"getMultiLanguagePlainText_MultiLanguagePlainText" [⟨k!"getMultiLanguagePlainText_MultiLanguagePlainText", k!"setMultiLanguagePlainText_GENERIC_MATH_MultiLanguagePlainText", k!"GENERIC-MATH", []⟩,
    ⟨k!"getMultiLanguagePlainText_MultiLanguagePlainText", k!"setMultiLanguagePlainText_TEX_MATH_MultiLanguagePlainText", k!"TEX-MATH", []⟩,
    ⟨k!"getMultiLanguagePlainText_MultiLanguagePlainText", k!"setMultiLanguagePlainText_USED_LANGUAGES_MultiLanguagePlainText", k!"USED-LANGUAGES", []⟩]
    .nil)))
 k!"getNonqueuedSenderComSpec_NonqueuedSenderComSpec" [⟨k!"getNonqueuedSenderComSpec_NonqueuedSenderComSpec", k!"writeNonqueuedSenderComSpec_NonqueuedSenderComSpec", k!"NONQUEUED-SENDER-COM-SPEC", []⟩]
 (.node (.node (.node (.node .nil
     k!"getRunnableEntityArgument_RunnableEntityArgument" [⟨k!"getRunnableEntityArgument_RunnableEntityArgument", k!"setRunnableEntityArgument_RunnableEntityArgument", k!"RUNNABLE-ENTITY-ARGUMENT", []⟩]
     .nil)
    k!"getTextValueSpecification_TextValueSpecification" [⟨k!"getTextValueSpecification_TextValueSpecification", k!"writeTextValueSpecification_TextValueSpecification", k!"TEXT-VALUE-SPECIFICATION", []⟩]
    .nil)
   k!"getTransmissionModeTiming_TransmissionModeTiming" [⟨k!"getTransmissionModeTiming_TransmissionModeTiming", k!"setTransmissionModeTiming_TRANSMISSION_MODE_FALSE_TIMING_TransmissionModeTiming", k!"TRANSMISSION-MODE-FALSE-TIMING", []⟩,
    ⟨k!"getTransmissionModeTiming_TransmissionModeTiming", k!"setTransmissionModeTiming_TRANSMISSION_MODE_TRUE_TIMING_TransmissionModeTiming", k!"TRANSMISSION-MODE-TRUE-TIMING", []⟩]
   (.node .nil
    k!"readARPackageElements_ApplicationSwComponentType" [⟨k!"readARPackageElements_ApplicationSwComponentType", k!"writeApplicationSwComponentType_ApplicationSwComponentType", k!"APPLICATION-SW-COMPONENT-TYPE", []⟩]
    .nil))
  k!"readARPackageElements_CompositionSwComponentType" [⟨k!"readARPackageElements_CompositionSwComponentType", k!"writeCompositionSwComponentType_CompositionSwComponentType", k!"COMPOSITION-SW-COMPONENT-TYPE", []⟩]
  (.node (.node (.node .nil
     k!"readAtomicSwComponentTypeSymbolProps_SymbolProps" [⟨k!"readAtomicSwComponentTypeSymbolProps_SymbolProps", k!"writeSymbolProps_SymbolProps", k!"SYMBOL-PROPS", []⟩]
     .nil)
    k!"readBswInternalBehaviorEvents_BswBackgroundEvent" [⟨k!"readBswInternalBehaviorEvents_BswBackgroundEvent", k!"writeBswBackgroundEvent_BswBackgroundEvent", k!"BSW-BACKGROUND-EVENT", []⟩]
    .nil)
   k!"readBswInternalBehaviorEvents_BswModeSwitchEvent" [⟨k!"readBswInternalBehaviorEvents_BswModeSwitchEvent", k!"writeBswModeSwitchEvent_BswModeSwitchEvent", k!"BSW-MODE-SWITCH-EVENT", []⟩]
   (.node .nil
    k!"readBswServiceDependencyServiceNeeds_BswMgrNeeds" [⟨k!"readBswServiceDependencyServiceNeeds_BswMgrNeeds", k!"writeBswMgrNeeds_BswMgrNeeds", k!"BSW-MGR-NEEDS", []⟩]
    .nil))))

def pairTable33 : Bst (List Pair) :=
 .node pairTable31 k!"readNvBlockDescriptor_InstantiationDataDefProps" [⟨k!"readNvBlockDescriptor_InstantiationDataDefProps", k!"writeNvBlockDescriptor_NvBlockDescriptor_L2773", k!"INSTANTIATION-DATA-DEF-PROPS", []⟩] pairTable32

def pairTable34 : Bst (List Pair) :=
 (.node (.node (.node (.node (.node .nil
     k!"readEcucContainerDefParameters_EcucFloatParamDef" [⟨k!"readEcucContainerDefParameters_EcucFloatParamDef", k!"writeEcucFloatParamDef_EcucFloatParamDef", k!"ECUC-FLOAT-PARAM-DEF", []⟩]
     .nil)
    k!"readLifeCycleInfoSetLifeCycleInfos_LifeCycleInfo" [⟨k!"readLifeCycleInfoSetLifeCycleInfos_LifeCycleInfo", k!"writeLifeCycleInfo_LifeCycleInfo", k!"LIFE-CYCLE-INFO", []⟩]
    .nil)
   k!"readMcDataAccessDetails_RteEventInEcuInstanceRef" [⟨k!"readMcDataAccessDetails_RteEventInEcuInstanceRef", k!"writeMcDataAccessDetails_McDataAccessDetails_L4331", k!"RTE-EVENT-IREF", []⟩]
   (.node .nil
    k!"readRptExecutableEntity_RptExecutableEntityEvent" [⟨k!"readRptExecutableEntity_RptExecutableEntityEvent", k!"writeRptExecutableEntity_RptExecutableEntity_L4436", k!"RPT-EXECUTABLE-ENTITY-EVENT", []⟩]
    .nil))
  k!"readSwcInternalBehaviorEvents_SwcModeSwitchEvent" [⟨k!"readSwcInternalBehaviorEvents_SwcModeSwitchEvent", k!"writeSwcModeSwitchEvent_SwcModeSwitchEvent", k!"SWC-MODE-SWITCH-EVENT", []⟩]
  (.node (.node (.node .nil
     k!"readSystemMappingSwImplMappings_SwcToImplMapping" [⟨k!"readSystemMappingSwImplMappings_SwcToImplMapping", k!"writeSwcToImplMapping_SwcToImplMapping", k!"SWC-TO-IMPL-MAPPING", []⟩]
     .nil)
    k!"readVariationPointProxy_FloatValueVariationPoint" [⟨k!"readVariationPointProxy_FloatValueVariationPoint", k!"writeVariationPointProxy_VariationPointProxy_L3267_4", k!"FLOAT-VALUE-VARIATION-POINT", []⟩]
    .nil)
   k!"readVariationPointProxy_LimitValueVariationPoint" [⟨k!"readVariationPointProxy_LimitValueVariationPoint", k!"writeVariationPointProxy_VariationPointProxy_L3267", k!"LIMIT", []⟩]
   (.node .nil
    k!"getModeGroupIRef_PModeGroupInAtomicSwcInstanceRef" [⟨k!"getModeGroupIRef_PModeGroupInAtomicSwcInstanceRef", k!"setPModeGroupInAtomicSwcInstanceRef_SWC_MODE_GROUP_IREF_PModeGroupInAtomicSwcInstanceRef", k!"SWC-MODE-GROUP-IREF", []⟩,
    ⟨k!"getModeGroupIRef_PModeGroupInAtomicSwcInstanceRef", k!"writeModeSwitchPointModeGroupIRef_ModeSwitchPoint_L3119", k!"MODE-GROUP-IREF", [.empty k!"baseRef", .empty k!"contextPortRef"]⟩,
    ⟨k!"getModeGroupIRef_PModeGroupInAtomicSwcInstanceRef", k!"writePModeGroupInAtomicSWCInstanceRef_PModeGroupInAtomicSwcInstanceRef", k!"P-MODE-GROUP-IN-ATOMIC-SWC-INSTANCE-REF", []⟩]
    .nil)))
 k!"getModeGroupIRef_RModeGroupInAtomicSWCInstanceRef" [⟨k!"getModeGroupIRef_RModeGroupInAtomicSWCInstanceRef", k!"writeRModeGroupInAtomicSWCInstanceRef_RModeGroupInAtomicSWCInstanceRef", k!"R-MODE-GROUP-IN-ATOMIC-SWC-INSTANCE-REF", []⟩]
 (.node (.node (.node (.node .nil
     k!"getMultiLanguageParagraphs_MultiLanguageParagraph" [⟨k!"getMultiLanguageParagraphs_MultiLanguageParagraph", k!"writeDocumentationBlock_DEF_DocumentationBlock_L1813", k!"P", []⟩]
     .nil)
    k!"readARPackageElements_SecureCommunicationPropsSet" [⟨k!"readARPackageElements_SecureCommunicationPropsSet", k!"writeSecureCommunicationPropsSet_SecureCommunicationPropsSet", k!"SECURE-COMMUNICATION-PROPS-SET", []⟩]
    .nil)
   k!"readARPackageElements_ServiceProxySwComponentType" [⟨k!"readARPackageElements_ServiceProxySwComponentType", k!"writeServiceProxySwComponentType_ServiceProxySwComponentType", k!"SERVICE-PROXY-SW-COMPONENT-TYPE", []⟩]
   (.node .nil
    k!"readBswServiceDependencyServiceNeeds_DltUserNeeds" [⟨k!"readBswServiceDependencyServiceNeeds_DltUserNeeds", k!"writeDltUserNeeds_DltUserNeeds", k!"DLT-USER-NEEDS", []⟩]
    .nil))
  k!"readEOCExecutableEntityRef_EOCExecutableEntityRef" [⟨k!"readEOCExecutableEntityRef_EOCExecutableEntityRef", k!"writeEOCExecutableEntityRef_EOCExecutableEntityRef", k!"EOC-EXECUTABLE-ENTITY-REF", []⟩]
  (.node (.node (.node .nil
     k!"readEcucContainerDefParameters_EcucStringParamDef" [⟨k!"readEcucContainerDefParameters_EcucStringParamDef", k!"writeEcucStringParamDef_EcucStringParamDef", k!"ECUC-STRING-PARAM-DEF", []⟩]
     .nil)
    k!"readPortPrototype_IoHwAbstractionServerAnnotation" [⟨k!"readPortPrototype_IoHwAbstractionServerAnnotation", k!"writeIoHwAbstractionServerAnnotation_IoHwAbstractionServerAnnotation", k!"IO-HW-ABSTRACTION-SERVER-ANNOTATION", []⟩]
    .nil)
   k!"getArrayValueSpecification_ArrayValueSpecification" [⟨k!"getArrayValueSpecification_ArrayValueSpecification", k!"writeArrayValueSpecification_ArrayValueSpecification", k!"ARRAY-VALUE-SPECIFICATION", []⟩]
   (.node .nil
    k!"getBswModeSwitchAckRequest_BswModeSwitchAckRequest" [⟨k!"getBswModeSwitchAckRequest_BswModeSwitchAckRequest", k!"setBswModeSwitchAckRequest_ACK_REQUEST_BswModeSwitchAckRequest", k!"ACK-REQUEST", []⟩]
    .nil))))

def pairTable35 : Bst (List Pair) :=
 (.node (.node (.node (.node (.node .nil
     k!"getEcucNumericalParamValue_EcucNumericalParamValue" [⟨k!"getEcucNumericalParamValue_EcucNumericalParamValue", k!"setEcucNumericalParamValue_EcucNumericalParamValue", k!"ECUC-NUMERICAL-PARAM-VALUE", []⟩]
     .nil)
    k!"getModeSwitchSenderComSpec_ModeSwitchSenderComSpec" [⟨k!"getModeSwitchSenderComSpec_ModeSwitchSenderComSpec", k!"writeModeSwitchSenderComSpec_ModeSwitchSenderComSpec", k!"MODE-SWITCH-SENDER-COM-SPEC", []⟩]
    .nil)
   k!"getParameterProvideComSpec_ParameterProvideComSpec" [⟨k!"getParameterProvideComSpec_ParameterProvideComSpec", k!"writeParameterProvideComSpec_ParameterProvideComSpec", k!"PARAMETER-PROVIDE-COM-SPEC", []⟩]
   (.node .nil
    k!"getParameterRequireComSpec_ParameterRequireComSpec" [⟨k!"getParameterRequireComSpec_ParameterRequireComSpec", k!"writeParameterRequireComSpec_ParameterRequireComSpec", k!"PARAMETER-REQUIRE-COM-SPEC", []⟩]
    .nil))
  k!"getRoleBasedDataAssignment_RoleBasedDataAssignment" [⟨k!"getRoleBasedDataAssignment_RoleBasedDataAssignment", k!"writeRoleBasedDataAssignment_RoleBasedDataAssignment", k!"ROLE-BASED-DATA-ASSIGNMENT", []⟩]
  (.node (.node (.node .nil
     k!"getRoleBasedPortAssignment_RoleBasedPortAssignment" [⟨k!"getRoleBasedPortAssignment_RoleBasedPortAssignment", k!"writeRoleBasedPortAssignment_RoleBasedPortAssignment", k!"ROLE-BASED-PORT-ASSIGNMENT", []⟩]
     .nil)
    k!"readARPackageElements_ApplicationPrimitiveDataType" [⟨k!"readARPackageElements_ApplicationPrimitiveDataType", k!"writeApplicationPrimitiveDataType_ApplicationPrimitiveDataType", k!"APPLICATION-PRIMITIVE-DATA-TYPE", []⟩]
    .nil)
   k!"readARPackageElements_E2EProfileCompatibilityProps" [⟨k!"readARPackageElements_E2EProfileCompatibilityProps", k!"writeE2EProfileCompatibilityProps_E2EProfileCompatibilityProps", k!"E-2-E-PROFILE-COMPATIBILITY-PROPS", []⟩]
   (.node .nil
    k!"readBswInternalBehaviorEntities_BswInterruptEntity" [⟨k!"readBswInternalBehaviorEntities_BswInterruptEntity", k!"setBswInterruptEntity_BswInterruptEntity", k!"BSW-INTERRUPT-ENTITY", []⟩]
    .nil)))
 k!"readBswInternalBehaviorEvents_BswDataReceivedEvent" [⟨k!"readBswInternalBehaviorEvents_BswDataReceivedEvent", k!"writeBswDataReceivedEvent_BswDataReceivedEvent", k!"BSW-DATA-RECEIVED-EVENT", []⟩]
 (.node (.node (.node (.node .nil
     k!"readEcucContainerDefParameters_EcucBooleanParamDef" [⟨k!"readEcucContainerDefParameters_EcucBooleanParamDef", k!"writeEcucBooleanParamDef_EcucBooleanParamDef", k!"ECUC-BOOLEAN-PARAM-DEF", []⟩]
     .nil)
    k!"readEcucContainerDefParameters_EcucFunctionNameDef" [⟨k!"readEcucContainerDefParameters_EcucFunctionNameDef", k!"writeEcucFunctionNameDef_EcucFunctionNameDef", k!"ECUC-FUNCTION-NAME-DEF", []⟩]
    .nil)
   k!"readEcucContainerDefParameters_EcucIntegerParamDef" [⟨k!"readEcucContainerDefParameters_EcucIntegerParamDef", k!"writeEcucIntegerParamDef_EcucIntegerParamDef", k!"ECUC-INTEGER-PARAM-DEF", []⟩]
   (.node .nil
    k!"readEcucDestinationUriDefSet_EcucDestinationUriDef" [⟨k!"readEcucDestinationUriDefSet_EcucDestinationUriDef", k!"writeEcucDestinationUriDef_EcucDestinationUriDef", k!"ECUC-DESTINATION-URI-DEF", []⟩]
    .nil))
  k!"readEcucDestinationUriDef_EcucDestinationUriPolicy" [⟨k!"readEcucDestinationUriDef_EcucDestinationUriPolicy", k!"writeEcucDestinationUriPolicy_EcucDestinationUriPolicy", k!"DESTINATION-URI-POLICY", []⟩]
  (.node (.node .nil
    k!"readEcucModuleDefContainers_EcucChoiceContainerDef" [⟨k!"readEcucModuleDefContainers_EcucChoiceContainerDef", k!"writeEcucChoiceContainerDef_EcucChoiceContainerDef", k!"ECUC-CHOICE-CONTAINER-DEF", []⟩]
    .nil)
   k!"readRunnableEntityModeAccessPoints_ModeAccessPoint" [⟨k!"readRunnableEntityModeAccessPoints_ModeAccessPoint", k!"writeModeAccessPoint_ModeAccessPoint", k!"MODE-ACCESS-POINT", []⟩]
   (.node .nil
    k!"readRunnableEntityModeSwitchPoints_ModeSwitchPoint" [⟨k!"readRunnableEntityModeSwitchPoints_ModeSwitchPoint", k!"writeModeSwitchPoint_ModeSwitchPoint", k!"MODE-SWITCH-POINT", []⟩]
    .nil))))

def pairTable36 : Bst (List Pair) :=
 .node pairTable34 k!"getChildElementRxIdentifierRange_RxIdentifierRange" [⟨k!"getChildElementRxIdentifierRange_RxIdentifierRange", k!"setChildElementRxIdentifierRange_NM_RANGE_CONFIG_RxIdentifierRange", k!"NM-RANGE-CONFIG", []⟩,
    ⟨k!"getChildElementRxIdentifierRange_RxIdentifierRange", k!"setChildElementRxIdentifierRange_RX_IDENTIFIER_RANGE_RxIdentifierRange", k!"RX-IDENTIFIER-RANGE", []⟩] pairTable35

def pairTable37 : Bst (List Pair) :=
 .node pairTable33 k!"readBswServiceDependencyServiceNeeds_IdsMgrNeeds" [⟨k!"readBswServiceDependencyServiceNeeds_IdsMgrNeeds", k!"writeIdsMgrNeeds_IdsMgrNeeds", k!"IDS-MGR-NEEDS", []⟩] pairTable36

def pairTable38 : Bst (List Pair) :=
 (.node (.node (.node (.node (.node .nil
     k!"readVariationPointProxy_BooleanValueVariationPoint" [⟨k!"readVariationPointProxy_BooleanValueVariationPoint", k!"writeVariationPointProxy_VariationPointProxy_L3267_3", k!"BOOLEAN-VALUE-VARIATION-POINT", []⟩]
     .nil)
    k!"readVariationPointProxy_IntegerValueVariationPoint" [⟨k!"readVariationPointProxy_IntegerValueVariationPoint", k!"writeVariationPointProxy_VariationPointProxy_L3267_5", k!"INTEGER-VALUE-VARIATION-POINT", []⟩]
    .nil)
   k!"readARPackageElements_EcuAbstractionSwComponentType" [⟨k!"readARPackageElements_EcuAbstractionSwComponentType", k!"writeEcuAbstractionSwComponentType_EcuAbstractionSwComponentType", k!"ECU-ABSTRACTION-SW-COMPONENT-TYPE", []⟩]
   (.node .nil
    k!"readARPackageElements_EcucModuleConfigurationValues" [⟨k!"readARPackageElements_EcucModuleConfigurationValues", k!"writeEcucModuleConfigurationValues_EcucModuleConfigurationValues", k!"ECUC-MODULE-CONFIGURATION-VALUES", []⟩]
    .nil))
  k!"readARPackageElements_SensorActuatorSwComponentType" [⟨k!"readARPackageElements_SensorActuatorSwComponentType", k!"writeSensorActuatorSwComponentType_SensorActuatorSwComponentType", k!"SENSOR-ACTUATOR-SW-COMPONENT-TYPE", []⟩]
  (.node (.node (.node .nil
     k!"readApplicationArrayElement_ApplicationArrayElement" [⟨k!"readApplicationArrayElement_ApplicationArrayElement", k!"setApplicationArrayElement_ApplicationArrayElement", k!"ELEMENT", []⟩]
     .nil)
    k!"readBswModuleEntityDataSendPoints_BswVariableAccess" [⟨k!"readBswModuleEntityDataSendPoints_BswVariableAccess", k!"writeBswVariableAccess_BswVariableAccess", k!"BSW-VARIABLE-ACCESS", []⟩]
    .nil)
   k!"readDoIpTpConfigDoIpLogicAddresses_DoIpLogicAddress" [⟨k!"readDoIpTpConfigDoIpLogicAddresses_DoIpLogicAddress", k!"writeDoIpLogicAddress_DoIpLogicAddress", k!"DO-IP-LOGIC-ADDRESS", []⟩]
   (.node .nil
    k!"readEcuInstanceConnectors_CanCommunicationConnector" [⟨k!"readEcuInstanceConnectors_CanCommunicationConnector", k!"writeEcuInstanceConnectors_EcuInstance_L7778", k!"CAN-COMMUNICATION-CONNECTOR", []⟩]
    .nil)))
 k!"readEcuInstanceConnectors_LinCommunicationConnector" [⟨k!"readEcuInstanceConnectors_LinCommunicationConnector", k!"writeEcuInstanceConnectors_EcuInstance_L7784", k!"LIN-COMMUNICATION-CONNECTOR", []⟩]
 (.node (.node (.node (.node .nil
     k!"readEcucValidationCondition_EcucValidationCondition" [⟨k!"readEcucValidationCondition_EcucValidationCondition", k!"writeEcucDefinitionElement_EcucDefinitionElement_L7108", k!"ECUC-VALIDATION-CONDITION", []⟩]
     .nil)
    k!"readFlexrayCommunicationController_FlexrayFifoRange" [⟨k!"readFlexrayCommunicationController_FlexrayFifoRange", k!"setFlexrayFifoRange_FLEXRAY_FIFO_RANGE_FlexrayFifoRange", k!"FLEXRAY-FIFO-RANGE", []⟩]
    .nil)
   k!"readMultiplexedPartSegmentPositions_SegmentPosition" [⟨k!"readMultiplexedPartSegmentPositions_SegmentPosition", k!"writeSegmentPosition_SegmentPosition", k!"SEGMENT-POSITION", []⟩]
   (.node .nil
    k!"readNmPduISignalToIPduMappings_ISignalToIPduMapping" [⟨k!"readNmPduISignalToIPduMappings_ISignalToIPduMapping", k!"writeISignalToPduMappings_ISignalIPdu_L9078", k!"I-SIGNAL-TO-I-PDU-MAPPING", []⟩]
    .nil))
  k!"readPOperationIRef_POperationInAtomicSwcInstanceRef" [⟨k!"readPOperationIRef_POperationInAtomicSwcInstanceRef", k!"setPOperationInAtomicSwcInstanceRef_OPERATION_IREF_POperationInAtomicSwcInstanceRef", k!"OPERATION-IREF", []⟩]
  (.node (.node (.node .nil
     k!"readROperationIRef_ROperationInAtomicSwcInstanceRef" [⟨k!"readROperationIRef_ROperationInAtomicSwcInstanceRef", k!"setROperationInAtomicSwcInstanceRef_OPERATION_IREF_ROperationInAtomicSwcInstanceRef", k!"OPERATION-IREF", []⟩]
     .nil)
    k!"readRunnableEntityParameterAccesses_ParameterAccess" [⟨k!"readRunnableEntityParameterAccesses_ParameterAccess", k!"writeParameterAccess_ParameterAccess", k!"PARAMETER-ACCESS", []⟩]
    .nil)
   k!"readSwcInternalBehaviorEvents_OperationInvokedEvent" [⟨k!"readSwcInternalBehaviorEvents_OperationInvokedEvent", k!"writeOperationInvokedEvent_OperationInvokedEvent", k!"OPERATION-INVOKED-EVENT", []⟩]
   (.node .nil
    k!"readSwcInternalBehaviorPortAPIOptions_PortAPIOption" [⟨k!"readSwcInternalBehaviorPortAPIOptions_PortAPIOption", k!"writeSwcInternalBehaviorPortAPIOptions_SwcInternalBehavior_L3323", k!"PORT-API-OPTION", []⟩]
    .nil))))

def pairTable39 : Bst (List Pair) :=
 (.node (.node (.node (.node (.node .nil
     k!"getCanClusterBusOffRecovery_CanClusterBusOffRecovery" [⟨k!"getCanClusterBusOffRecovery_CanClusterBusOffRecovery", k!"setCanClusterBusOffRecovery_BUS_OFF_RECOVERY_CanClusterBusOffRecovery", k!"BUS-OFF-RECOVERY", []⟩]
     .nil)
    k!"getNonqueuedReceiverComSpec_NonqueuedReceiverComSpec" [⟨k!"getNonqueuedReceiverComSpec_NonqueuedReceiverComSpec", k!"writeNonqueuedReceiverComSpec_NonqueuedReceiverComSpec", k!"NONQUEUED-RECEIVER-COM-SPEC", []⟩]
    .nil)
   k!"getRecordValueSpecification_RecordValueSpecification" [⟨k!"getRecordValueSpecification_RecordValueSpecification", k!"writeRecordValueSpecification_RecordValueSpecification", k!"RECORD-VALUE-SPECIFICATION", []⟩]
   (.node .nil
    k!"getSecureCommunicationProps_SecureCommunicationProps" [⟨k!"getSecureCommunicationProps_SecureCommunicationProps", k!"setSecureCommunicationProps_SECURE_COMMUNICATION_PROPS_SecureCommunicationProps", k!"SECURE-COMMUNICATION-PROPS", []⟩]
    .nil))
  k!"getTransmissionComSpecProps_TransmissionComSpecProps" [⟨k!"getTransmissionComSpecProps_TransmissionComSpecProps", k!"writeTransmissionComSpecProps_TransmissionComSpecProps", k!"TRANSMISSION-PROPS", []⟩]
  (.node (.node (.node .nil
     k!"readBswInternalBehaviorEntities_BswSchedulableEntity" [⟨k!"readBswInternalBehaviorEntities_BswSchedulableEntity", k!"writeBswSchedulableEntity_BswSchedulableEntity", k!"BSW-SCHEDULABLE-ENTITY", []⟩]
     .nil)
    k!"readBswServiceDependencyServiceNeeds_ComMgrUserNeeds" [⟨k!"readBswServiceDependencyServiceNeeds_ComMgrUserNeeds", k!"writeComMgrUserNeeds_ComMgrUserNeeds", k!"COM-MGR-USER-NEEDS", []⟩]
    .nil)
   k!"readHwElementHwElementConnections_HwElementConnector" [⟨k!"readHwElementHwElementConnections_HwElementConnector", k!"writeHwElementConnector_HwElementConnector", k!"HW-ELEMENT-CONNECTOR", []⟩]
   (.node .nil
    k!"readSwcInternalBehaviorEvents_DataSendCompletedEvent" [⟨k!"readSwcInternalBehaviorEvents_DataSendCompletedEvent", k!"writeDataSendCompletedEvent_DataSendCompletedEvent", k!"DATA-SEND-COMPLETED-EVENT", []⟩]
    .nil)))
 k!"readVariationPointProxy_NumericalValueVariationPoint" [⟨k!"readVariationPointProxy_NumericalValueVariationPoint", k!"writeVariationPointProxy_VariationPointProxy_L3267_2", k!"NUMERICAL-VALUE-VARIATION-POINT", []⟩]
 (.node (.node (.node (.node .nil
     k!"readVariationPointProxy_TimeValueValueVariationPoint" [⟨k!"readVariationPointProxy_TimeValueValueVariationPoint", k!"writeVariationPointProxy_VariationPointProxy_L3267_7", k!"TIME-VALUE-VARIATION-POINT", []⟩]
     .nil)
    k!"getNonqueuedSenderComSpec_NonqueuedSenderComSpec_port" [⟨k!"getNonqueuedSenderComSpec_NonqueuedSenderComSpec_port", k!"writeNonqueuedSenderComSpec_NonqueuedSenderComSpec", k!"NONQUEUED-SENDER-COM-SPEC", []⟩]
    .nil)
   k!"readBswInternalBehaviorEvents_BswModeSwitchedAckEvent" [⟨k!"readBswInternalBehaviorEvents_BswModeSwitchedAckEvent", k!"writeBswModeSwitchedAckEvent_BswModeSwitchedAckEvent", k!"BSW-MODE-SWITCHED-ACK-EVENT", []⟩]
   (.node .nil
    k!"readBswServiceDependencyServiceNeeds_ErrorTracerNeeds" [⟨k!"readBswServiceDependencyServiceNeeds_ErrorTracerNeeds", k!"writeErrorTracerNeeds_ErrorTracerNeeds", k!"ERROR-TRACER-NEEDS", []⟩]
    .nil))
  k!"readEcucContainerDefReferences_EcucChoiceReferenceDef" [⟨k!"readEcucContainerDefReferences_EcucChoiceReferenceDef", k!"writeEcucChoiceReferenceDef_EcucChoiceReferenceDef", k!"ECUC-CHOICE-REFERENCE-DEF", []⟩]
  (.node (.node .nil
    k!"readEcucModuleDefContainers_EcucParamConfContainerDef" [⟨k!"readEcucModuleDefContainers_EcucParamConfContainerDef", k!"writeEcucParamConfContainerDef_EcucParamConfContainerDef", k!"ECUC-PARAM-CONF-CONTAINER-DEF", []⟩]
    .nil)
   k!"readExecutionOrderConstraint_ExecutionOrderConstraint" [⟨k!"readExecutionOrderConstraint_ExecutionOrderConstraint", k!"writeExecutionOrderConstraint_ExecutionOrderConstraint", k!"EXECUTION-ORDER-CONSTRAINT", []⟩]
   (.node .nil
    k!"readLinPhysicalChannelScheduleTables_LinScheduleTable" [⟨k!"readLinPhysicalChannelScheduleTables_LinScheduleTable", k!"writeLinScheduleTable_LinScheduleTable", k!"LIN-SCHEDULE-TABLE", []⟩]
    .nil))))

def pairTable40 : Bst (List Pair) :=
 .node pairTable38 k!"getAutosarEngineeringObject_AutosarEngineeringObject" [⟨k!"getAutosarEngineeringObject_AutosarEngineeringObject", k!"writeAutosarEngineeringObject_AutosarEngineeringObject", k!"AUTOSAR-ENGINEERING-OBJECT", []⟩,
    ⟨k!"getAutosarEngineeringObject_AutosarEngineeringObject", k!"writeDependencyOnArtifact_DependencyOnArtifact_L4539", k!"ARTIFACT-DESCRIPTOR", [.empty k!"timestamp", .empty k!"uuid", .empty k!"shortLabel", .empty k!"category", .empty k!"revisionLabels", .empty k!"domain"]⟩] pairTable39

def pairTable41 : Bst (List Pair) :=
 (.node (.node (.node (.node (.node .nil
     k!"readPortDefinedArgumentValue_PortDefinedArgumentValue" [⟨k!"readPortDefinedArgumentValue_PortDefinedArgumentValue", k!"writeSwcInternalBehaviorPortAPIOptions_SwcInternalBehavior_L3313", k!"PORT-DEFINED-ARGUMENT-VALUE", []⟩]
     .nil)
    k!"readProvidedServiceInstanceEventHandlers_EventHandler" [⟨k!"readProvidedServiceInstanceEventHandlers_EventHandler", k!"writeEventHandler_EventHandler", k!"EVENT-HANDLER", []⟩]
    .nil)
   k!"getBswServiceDependencyIdent_BswServiceDependencyIdent" [⟨k!"getBswServiceDependencyIdent_BswServiceDependencyIdent", k!"writeBswServiceDependencyIdent_BswServiceDependencyIdent", k!"IDENT", []⟩]
   (.node .nil
    k!"getEcucDestinationUriRefs_EcucDestinationUriDefRefType" [⟨k!"getEcucDestinationUriRefs_EcucDestinationUriDefRefType", k!"writeEcucContainerDef_EcucContainerDef_L7230", k!"DESTINATION-URI-REF", []⟩]
    .nil))
  k!"getModeSwitchReceiverComSpec_ModeSwitchReceiverComSpec" [⟨k!"getModeSwitchReceiverComSpec_ModeSwitchReceiverComSpec", k!"setModeSwitchReceiverComSpec_ModeSwitchReceiverComSpec", k!"MODE-SWITCH-RECEIVER-COM-SPEC", []⟩]
  (.node (.node (.node .nil
     k!"readARPackageElements_SignalServiceTranslationPropsSet" [⟨k!"readARPackageElements_SignalServiceTranslationPropsSet", k!"writeSignalServiceTranslationPropsSet_SignalServiceTranslationPropsSet", k!"SIGNAL-SERVICE-TRANSLATION-PROPS-SET", []⟩]
     .nil)
    k!"readActivationReasons_ExecutableEntityActivationReason" [⟨k!"readActivationReasons_ExecutableEntityActivationReason", k!"writeActivationReasons_ExecutableEntity_L4725", k!"EXECUTABLE-ENTITY-ACTIVATION-REASON", []⟩]
    .nil)
   k!"readBswInternalBehaviorEvents_BswModeManagerErrorEvent" [⟨k!"readBswInternalBehaviorEvents_BswModeManagerErrorEvent", k!"writeBswModeManagerErrorEvent_BswModeManagerErrorEvent", k!"BSW-MODE-MANAGER-ERROR-EVENT", []⟩]
   (.node .nil
    k!"readBswInternalBehaviorEvents_BswOperationInvokedEvent" [⟨k!"readBswInternalBehaviorEvents_BswOperationInvokedEvent", k!"writeBswOperationInvokedEvent_BswOperationInvokedEvent", k!"BSW-OPERATION-INVOKED-EVENT", []⟩]
    .nil)))
 k!"readEcucContainerDefParameters_EcucEnumerationParamDef" [⟨k!"readEcucContainerDefParameters_EcucEnumerationParamDef", k!"writeEcucEnumerationParamDef_EcucEnumerationParamDef", k!"ECUC-ENUMERATION-PARAM-DEF", []⟩]
 (.node (.node (.node (.node .nil
     k!"readMcDataAccessDetails_VariableAccessInEcuInstanceRef" [⟨k!"readMcDataAccessDetails_VariableAccessInEcuInstanceRef", k!"writeMcDataAccessDetails_McDataAccessDetails_L4336", k!"VARIABLE-ACCESS-IREF", []⟩]
     .nil)
    k!"readMcSwEmulationMethodSupport_McParameterElementGroup" [⟨k!"readMcSwEmulationMethodSupport_McParameterElementGroup", k!"writeMcSwEmulationMethodSupport_McSwEmulationMethodSupport_L4308", k!"MC-PARAMETER-ELEMENT-GROUP", []⟩]
    .nil)
   k!"readPhysicalChannelFrameTriggerings_CanFrameTriggering" [⟨k!"readPhysicalChannelFrameTriggerings_CanFrameTriggering", k!"writeCanFrameTriggering_CanFrameTriggering", k!"CAN-FRAME-TRIGGERING", []⟩]
   (.node .nil
    k!"readPhysicalChannelFrameTriggerings_LinFrameTriggering" [⟨k!"readPhysicalChannelFrameTriggerings_LinFrameTriggering", k!"writeLinFrameTriggering_LinFrameTriggering", k!"LIN-FRAME-TRIGGERING", []⟩]
    .nil))
  k!"readPortInterfaceMappings_ClientServerInterfaceMapping" [⟨k!"readPortInterfaceMappings_ClientServerInterfaceMapping", k!"writeClientServerInterfaceMapping_ClientServerInterfaceMapping", k!"CLIENT-SERVER-INTERFACE-MAPPING", []⟩]
  (.node (.node (.node .nil
     k!"readSoAdConfigConnectionBundles_SocketConnectionBundle" [⟨k!"readSoAdConfigConnectionBundles_SocketConnectionBundle", k!"writeSocketConnectionBundle_SocketConnectionBundle", k!"SOCKET-CONNECTION-BUNDLE", []⟩]
     .nil)
    k!"getParameterRequireComSpec_ParameterRequireComSpec_port" [⟨k!"getParameterRequireComSpec_ParameterRequireComSpec_port", k!"writeParameterRequireComSpec_ParameterRequireComSpec", k!"PARAMETER-REQUIRE-COM-SPEC", []⟩]
    .nil)
   k!"getTransmissionModeConditions_TransmissionModeCondition" [⟨k!"getTransmissionModeConditions_TransmissionModeCondition", k!"setTransmissionModeDeclaration_TRANSMISSION_MODE_DECLARATION_TransmissionModeDeclaration_L9098", k!"TRANSMISSION-MODE-CONDITION", []⟩]
   (.node .nil
    k!"readBswServiceDependencyServiceNeeds_CryptoServiceNeeds" [⟨k!"readBswServiceDependencyServiceNeeds_CryptoServiceNeeds", k!"writeCryptoServiceNeeds_CryptoServiceNeeds", k!"CRYPTO-SERVICE-NEEDS", []⟩]
    .nil))))

def pairTable42 : Bst (List Pair) :=
 (.node (.node (.node (.node (.node .nil
     k!"readCommunicationConnectorEcuCommPortInstances_IPduPort" [⟨k!"readCommunicationConnectorEcuCommPortInstances_IPduPort", k!"writeIPduPort_IPduPort", k!"I-PDU-PORT", []⟩]
     .nil)
    k!"readEcuInstanceConnectors_FlexrayCommunicationConnector" [⟨k!"readEcuInstanceConnectors_FlexrayCommunicationConnector", k!"writeEcuInstanceConnectors_EcuInstance_L7787", k!"FLEXRAY-COMMUNICATION-CONNECTOR", []⟩]
    .nil)
   k!"readEcucContainerDefReferences_EcucInstanceReferenceDef" [⟨k!"readEcucContainerDefReferences_EcucInstanceReferenceDef", k!"writeEcucInstanceReferenceDef_EcucInstanceReferenceDef", k!"ECUC-INSTANCE-REFERENCE-DEF", []⟩]
   (.node .nil
    k!"readEthernetClusterMacMulticastGroups_MacMulticastGroup" [⟨k!"readEthernetClusterMacMulticastGroups_MacMulticastGroup", k!"writeMacMulticastGroup_MacMulticastGroup", k!"MAC-MULTICAST-GROUP", []⟩]
    .nil))
  k!"readModeDeclarationGroupModeDeclaration_ModeDeclaration" [⟨k!"readModeDeclarationGroupModeDeclaration_ModeDeclaration", k!"setModeDeclaration_ModeDeclaration", k!"MODE-DECLARATION", []⟩]
  (.node (.node (.node .nil
     k!"readPhysicalChannelISignalTriggerings_ISignalTriggering" [⟨k!"readPhysicalChannelISignalTriggerings_ISignalTriggering", k!"writeISignalTriggering_ISignalTriggering", k!"I-SIGNAL-TRIGGERING", []⟩]
     .nil)
    k!"readSwcBswSynchronizedTrigger_SwcBswSynchronizedTrigger" [⟨k!"readSwcBswSynchronizedTrigger_SwcBswSynchronizedTrigger", k!"writeSwcBswSynchronizedTrigger_SwcBswSynchronizedTrigger", k!"SWC-BSW-SYNCHRONIZED-TRIGGER", []⟩]
    .nil)
   k!"getEcucInstanceReferenceValue_EcucInstanceReferenceValue" [⟨k!"getEcucInstanceReferenceValue_EcucInstanceReferenceValue", k!"setEcucInstanceReferenceValue_EcucInstanceReferenceValue", k!"ECUC-INSTANCE-REFERENCE-VALUE", []⟩]
   (.node .nil
    k!"readARPackageElements_ComplexDeviceDriverSwComponentType" [⟨k!"readARPackageElements_ComplexDeviceDriverSwComponentType", k!"writeComplexDeviceDriverSwComponentType_ComplexDeviceDriverSwComponentType", k!"COMPLEX-DEVICE-DRIVER-SW-COMPONENT-TYPE", []⟩]
    .nil)))
 k!"readBswServiceDependencyServiceNeeds_ObdInfoServiceNeeds" [⟨k!"readBswServiceDependencyServiceNeeds_ObdInfoServiceNeeds", k!"writeObdInfoServiceNeeds_ObdInfoServiceNeeds", k!"OBD-INFO-SERVICE-NEEDS", []⟩]
 (.node (.node (.node (.node .nil
     k!"readClientServerOperationArguments_ArgumentDataPrototype" [⟨k!"readClientServerOperationArguments_ArgumentDataPrototype", k!"writeArgumentDataPrototype_ArgumentDataPrototype", k!"ARGUMENT-DATA-PROTOTYPE", []⟩]
     .nil)
    k!"readCommunicationConnectorEcuCommPortInstances_FramePort" [⟨k!"readCommunicationConnectorEcuCommPortInstances_FramePort", k!"writeFramePort_FramePort", k!"FRAME-PORT", []⟩]
    .nil)
   k!"readEcuInstanceConnectors_EthernetCommunicationConnector" [⟨k!"readEcuInstanceConnectors_EthernetCommunicationConnector", k!"writeEcuInstanceConnectors_EcuInstance_L7781", k!"ETHERNET-COMMUNICATION-CONNECTOR", []⟩]
   (.node .nil
    k!"readExclusiveAreaNestingOrders_ExclusiveAreaNestingOrder" [⟨k!"readExclusiveAreaNestingOrders_ExclusiveAreaNestingOrder", k!"writeExclusiveAreaNestingOrders_InternalBehavior_L2679", k!"EXCLUSIVE-AREA-NESTING-ORDER", []⟩]
    .nil))
  k!"readSocketAddressApplicationEndpoint_ApplicationEndpoint" [⟨k!"readSocketAddressApplicationEndpoint_ApplicationEndpoint", k!"writeSocketAddressApplicationEndpoint_SocketAddress_L6734", k!"APPLICATION-ENDPOINT", []⟩]
  (.node (.node .nil
    k!"getNonqueuedReceiverComSpec_NonqueuedReceiverComSpec_port" [⟨k!"getNonqueuedReceiverComSpec_NonqueuedReceiverComSpec_port", k!"writeNonqueuedReceiverComSpec_NonqueuedReceiverComSpec", k!"NONQUEUED-RECEIVER-COM-SPEC", []⟩]
    .nil)
   k!"readBswServiceDependencyServiceNeeds_DiagnosticEventNeeds" [⟨k!"readBswServiceDependencyServiceNeeds_DiagnosticEventNeeds", k!"writeDiagnosticEventNeeds_DiagnosticEventNeeds", k!"DIAGNOSTIC-EVENT-NEEDS", []⟩]
   (.node .nil
    k!"readBswServiceDependencyServiceNeeds_DiagnosticValueNeeds" [⟨k!"readBswServiceDependencyServiceNeeds_DiagnosticValueNeeds", k!"writeDiagnosticValueNeeds_DiagnosticValueNeeds", k!"DIAGNOSTIC-VALUE-NEEDS", []⟩]
    .nil))))

def pairTable43 : Bst (List Pair) :=
 .node pairTable41 k!"readBswServiceDependencyServiceNeeds_ObdPidServiceNeeds" [⟨k!"readBswServiceDependencyServiceNeeds_ObdPidServiceNeeds", k!"writeObdPidServiceNeeds_ObdPidServiceNeeds", k!"OBD-PID-SERVICE-NEEDS", []⟩] pairTable42

def pairTable44 : Bst (List Pair) :=
 .node pairTable40 k!"readModeDeclarationGroupModeTransition_ModeTransition" [⟨k!"readModeDeclarationGroupModeTransition_ModeTransition", k!"writeModeDeclarationGroupModeTransition_ModeDeclarationGroup_L5669", k!"MODE-TRANSITION", []⟩] pairTable43

def pairTable45 : Bst (List Pair) :=
 .node pairTable37 k!"readSwcInternalBehaviorEvents_ModeSwitchedAckEvent" [⟨k!"readSwcInternalBehaviorEvents_ModeSwitchedAckEvent", k!"writeModeSwitchedAckEvent_ModeSwitchedAckEvent", k!"MODE-SWITCHED-ACK-EVENT", []⟩] pairTable44

def pairTable46 : Bst (List Pair) :=
 (.node (.node (.node (.node (.node .nil
     k!"readBswServiceDependencyServiceNeeds_IndicatorStatusNeeds" [⟨k!"readBswServiceDependencyServiceNeeds_IndicatorStatusNeeds", k!"writeIndicatorStatusNeeds_IndicatorStatusNeeds", k!"INDICATOR-STATUS-NEEDS", []⟩]
     .nil)
    k!"readBswServiceDependencyServiceNeeds_ObdRatioServiceNeeds" [⟨k!"readBswServiceDependencyServiceNeeds_ObdRatioServiceNeeds", k!"writeObdRatioServiceNeeds_ObdRatioServiceNeeds", k!"OBD-RATIO-SERVICE-NEEDS", []⟩]
    .nil)
   k!"readClientServerInterfaceOperations_ClientServerOperation" [⟨k!"readClientServerInterfaceOperations_ClientServerOperation", k!"writeClientServerOperation_ClientServerOperation", k!"CLIENT-SERVER-OPERATION", []⟩]
   (.node .nil
    k!"readDiagEventDebounceAlgorithm_DiagEventDebounceTimeBased" [⟨k!"readDiagEventDebounceAlgorithm_DiagEventDebounceTimeBased", k!"setDiagEventDebounceTimeBased_DiagEventDebounceTimeBased", k!"DIAG-EVENT-DEBOUNCE-TIME-BASED", []⟩]
    .nil))
  k!"readEcuInstanceCommControllers_CanCommunicationController" [⟨k!"readEcuInstanceCommControllers_CanCommunicationController", k!"writeCanCommunicationController_CanCommunicationController", k!"CAN-COMMUNICATION-CONTROLLER", []⟩]
  (.node (.node (.node .nil
     k!"readEcucConditionSpecification_EcucConditionSpecification" [⟨k!"readEcucConditionSpecification_EcucConditionSpecification", k!"writeEcucConditionSpecification_EcucConditionSpecification", k!"ECUC-COND", []⟩]
     .nil)
    k!"readHwDescriptionEntityHwAttributeValues_HwAttributeValue" [⟨k!"readHwDescriptionEntityHwAttributeValues_HwAttributeValue", k!"writeHwAttributeValue_HwAttributeValue", k!"HW-ATTRIBUTE-VALUE", []⟩]
    .nil)
   k!"readRootSwCompositionPrototype_RootSwCompositionPrototype" [⟨k!"readRootSwCompositionPrototype_RootSwCompositionPrototype", k!"writeRootSwCompositionPrototype_System_L8007", k!"ROOT-SW-COMPOSITION-PROTOTYPE", []⟩]
   (.node .nil
    k!"readSynchronousServerCallPoint_SynchronousServerCallPoint" [⟨k!"readSynchronousServerCallPoint_SynchronousServerCallPoint", k!"setSynchronousServerCallPoint_SynchronousServerCallPoint", k!"SYNCHRONOUS-SERVER-CALL-POINT", []⟩]
    .nil)))
 k!"getNumericalValueSpecification_NumericalValueSpecification" [⟨k!"getNumericalValueSpecification_NumericalValueSpecification", k!"writeNumericalValueSpecification_NumericalValueSpecification", k!"NUMERICAL-VALUE-SPECIFICATION", []⟩]
 (.node (.node (.node (.node .nil
     k!"getRModeInAtomicSwcInstanceRef_RModeInAtomicSwcInstanceRef" [⟨k!"getRModeInAtomicSwcInstanceRef_RModeInAtomicSwcInstanceRef", k!"setRModeInAtomicSwcInstanceRef_DISABLED_MODE_IREF_RModeInAtomicSwcInstanceRef", k!"DISABLED-MODE-IREF", []⟩]
     .nil)
    k!"getRoleBasedDataTypeAssignment_RoleBasedDataTypeAssignment" [⟨k!"getRoleBasedDataTypeAssignment_RoleBasedDataTypeAssignment", k!"writeRoleBasedDataTypeAssignment_RoleBasedDataTypeAssignment", k!"ROLE-BASED-DATA-TYPE-ASSIGNMENT", []⟩]
    .nil)
   k!"getRuleBasedValueSpecification_RuleBasedValueSpecification" [⟨k!"getRuleBasedValueSpecification_RuleBasedValueSpecification", k!"writeRuleBasedValueSpecification_RULE_BASED_VALUES_RuleBasedValueSpecification", k!"RULE-BASED-VALUES", []⟩]
   (.node .nil
    k!"getTransmissionModeDeclaration_TransmissionModeDeclaration" [⟨k!"getTransmissionModeDeclaration_TransmissionModeDeclaration", k!"setTransmissionModeDeclaration_TRANSMISSION_MODE_DECLARATION_TransmissionModeDeclaration", k!"TRANSMISSION-MODE-DECLARATION", []⟩]
    .nil))
  k!"readBswServiceDependencyServiceNeeds_SupervisedEntityNeeds" [⟨k!"readBswServiceDependencyServiceNeeds_SupervisedEntityNeeds", k!"writeSupervisedEntityNeeds_SupervisedEntityNeeds", k!"SUPERVISED-ENTITY-NEEDS", []⟩]
  (.node (.node (.node .nil
     k!"readCommunicationConnectorEcuCommPortInstances_ISignalPort" [⟨k!"readCommunicationConnectorEcuCommPortInstances_ISignalPort", k!"writeISignalPort_ISignalPort", k!"I-SIGNAL-PORT", []⟩]
     .nil)
    k!"readEcucContainerDefParameters_EcucMultilineStringParamDef" [⟨k!"readEcucContainerDefParameters_EcucMultilineStringParamDef", k!"writeEcucMultilineStringParamDef_EcucMultilineStringParamDef", k!"ECUC-MULTILINE-STRING-PARAM-DEF", []⟩]
    .nil)
   k!"readPhysicalChannelFrameTriggerings_FlexrayFrameTriggering" [⟨k!"readPhysicalChannelFrameTriggerings_FlexrayFrameTriggering", k!"writeFlexrayFrameTriggering_FlexrayFrameTriggering", k!"FLEXRAY-FRAME-TRIGGERING", []⟩]
   (.node .nil
    k!"readRptExecutableEntityEvent_RptExecutableEntityProperties" [⟨k!"readRptExecutableEntityEvent_RptExecutableEntityProperties", k!"writeRptExecutableEntityEvent_RptExecutableEntityEvent_L4416", k!"RPT-EXECUTABLE-ENTITY-PROPERTIES", []⟩]
    .nil))))

def pairTable47 : Bst (List Pair) :=
 (.node (.node (.node (.node (.node .nil
     k!"readAsynchronousServerCallPoint_AsynchronousServerCallPoint" [⟨k!"readAsynchronousServerCallPoint_AsynchronousServerCallPoint", k!"setAsynchronousServerCallPoint_AsynchronousServerCallPoint", k!"ASYNCHRONOUS-SERVER-CALL-POINT", []⟩]
     .nil)
    k!"readBswModuleEntityCallPoints_BswSynchronousServerCallPoint" [⟨k!"readBswModuleEntityCallPoints_BswSynchronousServerCallPoint", k!"writeBswSynchronousServerCallPoint_BswSynchronousServerCallPoint", k!"BSW-SYNCHRONOUS-SERVER-CALL-POINT", []⟩]
    .nil)
   k!"readBswServiceDependencyServiceNeeds_DiagnosticRoutineNeeds" [⟨k!"readBswServiceDependencyServiceNeeds_DiagnosticRoutineNeeds", k!"writeDiagnosticRoutineNeeds_DiagnosticRoutineNeeds", k!"DIAGNOSTIC-ROUTINE-NEEDS", []⟩]
   (.node .nil
    k!"readBswServiceDependencyServiceNeeds_ObdControlServiceNeeds" [⟨k!"readBswServiceDependencyServiceNeeds_ObdControlServiceNeeds", k!"writeObdControlServiceNeeds_ObdControlServiceNeeds", k!"OBD-CONTROL-SERVICE-NEEDS", []⟩]
    .nil))
  k!"readBswServiceDependencyServiceNeeds_ObdMonitorServiceNeeds" [⟨k!"readBswServiceDependencyServiceNeeds_ObdMonitorServiceNeeds", k!"writeObdMonitorServiceNeeds_ObdMonitorServiceNeeds", k!"OBD-MONITOR-SERVICE-NEEDS", []⟩]
  (.node (.node (.node .nil
     k!"readCommunicationClusterPhysicalChannels_CanPhysicalChannel" [⟨k!"readCommunicationClusterPhysicalChannels_CanPhysicalChannel", k!"writeCanPhysicalChannel_CanPhysicalChannel", k!"CAN-PHYSICAL-CHANNEL", []⟩]
     .nil)
    k!"readCommunicationClusterPhysicalChannels_LinPhysicalChannel" [⟨k!"readCommunicationClusterPhysicalChannels_LinPhysicalChannel", k!"writeLinPhysicalChannel_LinPhysicalChannel", k!"LIN-PHYSICAL-CHANNEL", []⟩]
    .nil)
   k!"readEcucContainerDefReferences_EcucSymbolicNameReferenceDef" [⟨k!"readEcucContainerDefReferences_EcucSymbolicNameReferenceDef", k!"writeEcucSymbolicNameReferenceDef_EcucSymbolicNameReferenceDef", k!"ECUC-SYMBOLIC-NAME-REFERENCE-DEF", []⟩]
   (.node .nil
    k!"readEcucContainerValueEcucContainerValue_EcucContainerValue" [⟨k!"readEcucContainerValueEcucContainerValue_EcucContainerValue", k!"writeEcucContainValue_EcucContainerValue", k!"ECUC-CONTAINER-VALUE", []⟩]
    .nil)))
 k!"readEcucDerivationSpecification_EcucDerivationSpecification" [⟨k!"readEcucDerivationSpecification_EcucDerivationSpecification", k!"writeEcucDerivationSpecification_EcucDerivationSpecification", k!"DERIVATION", []⟩]
 (.node (.node (.node (.node .nil
     k!"readEthernetPhysicalChannelNetworkEndPoints_NetworkEndpoint" [⟨k!"readEthernetPhysicalChannelNetworkEndPoints_NetworkEndpoint", k!"writeNetworkEndPoint_NetworkEndpoint", k!"NETWORK-ENDPOINT", []⟩]
     .nil)
    k!"readFlexrayCommunicationController_FlexrayFifoConfiguration" [⟨k!"readFlexrayCommunicationController_FlexrayFifoConfiguration", k!"setFlexrayFifoConfiguration_FLEXRAY_FIFO_CONFIGURATION_FlexrayFifoConfiguration", k!"FLEXRAY-FIFO-CONFIGURATION", []⟩]
    .nil)
   k!"readRModeInAtomicSwcInstanceRef_RModeInAtomicSwcInstanceRef" [⟨k!"readRModeInAtomicSwcInstanceRef_RModeInAtomicSwcInstanceRef", k!"setRModeInAtomicSwcInstanceRef_MODE_IREF_RModeInAtomicSwcInstanceRef", k!"MODE-IREF", []⟩]
   (.node .nil
    k!"readSystemMappingDataMappings_SenderReceiverToSignalMapping" [⟨k!"readSystemMappingDataMappings_SenderReceiverToSignalMapping", k!"writeSenderReceiverToSignalMapping_SenderReceiverToSignalMapping", k!"SENDER-RECEIVER-TO-SIGNAL-MAPPING", []⟩]
    .nil))
  k!"readVariationPointProxy_UnlimitedIntegerValueVariationPoint" [⟨k!"readVariationPointProxy_UnlimitedIntegerValueVariationPoint", k!"writeVariationPointProxy_VariationPointProxy_L3267_8", k!"UNLIMITED-INTEGER-VALUE-VARIATION-POINT", []⟩]
  (.node (.node .nil
    k!"getCanControllerFdConfiguration_CanControllerFdConfiguration" [⟨k!"getCanControllerFdConfiguration_CanControllerFdConfiguration", k!"setCanControllerFdConfiguration_CAN_CONTROLLER_FD_CONFIGURATION_CanControllerFdConfiguration", k!"CAN-CONTROLLER-FD-CONFIGURATION", []⟩]
    .nil)
   k!"getCanControllerXlConfiguration_CanControllerXlConfiguration" [⟨k!"getCanControllerXlConfiguration_CanControllerXlConfiguration", k!"setCanControllerXlConfiguration_CAN_CONTROLLER_XL_CONFIGURATION_CanControllerXlConfiguration", k!"CAN-CONTROLLER-XL-CONFIGURATION", []⟩]
   (.node .nil
    k!"getComponentInSystemInstanceRef_ComponentInSystemInstanceRef" [⟨k!"getComponentInSystemInstanceRef_ComponentInSystemInstanceRef", k!"setComponentInSystemInstanceRef_COMPONENT_IREF_ComponentInSystemInstanceRef", k!"COMPONENT-IREF", []⟩]
    .nil))))

def pairTable48 : Bst (List Pair) :=
 .node pairTable46 k!"readVariationPointProxy_PositiveIntegerValueVariationPoint" [⟨k!"readVariationPointProxy_PositiveIntegerValueVariationPoint", k!"writeVariationPointProxy_VariationPointProxy_L3267_6", k!"POSITIVE-INTEGER-VALUE-VARIATION-POINT", []⟩] pairTable47

def pairTable49 : Bst (List Pair) :=
 (.node (.node (.node (.node (.node .nil
     k!"readBswModuleEntityCallPoints_BswAsynchronousServerCallPoint" [⟨k!"readBswModuleEntityCallPoints_BswAsynchronousServerCallPoint", k!"writeBswAsynchronousServerCallPoint_BswAsynchronousServerCallPoint", k!"BSW-ASYNCHRONOUS-SERVER-CALL-POINT", []⟩]
     .nil)
    k!"readDiagEventDebounceAlgorithm_DiagEventDebounceCounterBased" [⟨k!"readDiagEventDebounceAlgorithm_DiagEventDebounceCounterBased", k!"setDiagEventDebounceCounterBased_DiagEventDebounceCounterBased", k!"DIAG-EVENT-DEBOUNCE-COUNTER-BASED", []⟩]
    .nil)
   k!"readSwComponentDocumentationElement_SwComponentDocumentation" [⟨k!"readSwComponentDocumentationElement_SwComponentDocumentation", k!"writeSwComponentTypeSwComponentDocumentation_SwComponentType_L1547", k!"SW-COMPONENT-DOCUMENTATION", []⟩]
   (.node .nil
    k!"readSwcInternalBehaviorPerInstanceMemories_PerInstanceMemory" [⟨k!"readSwcInternalBehaviorPerInstanceMemories_PerInstanceMemory", k!"writeSwcInternalBehaviorPerInstanceMemories_SwcInternalBehavior_L3233", k!"PER-INSTANCE-MEMORY", []⟩]
    .nil))
  k!"readBswInternalBehaviorEvents_BswExternalTriggerOccurredEvent" [⟨k!"readBswInternalBehaviorEvents_BswExternalTriggerOccurredEvent", k!"writeBswExternalTriggerOccurredEvent_BswExternalTriggerOccurredEvent", k!"BSW-EXTERNAL-TRIGGER-OCCURRED-EVENT", []⟩]
  (.node (.node (.node .nil
     k!"readBswInternalBehaviorEvents_BswInternalTriggerOccurredEvent" [⟨k!"readBswInternalBehaviorEvents_BswInternalTriggerOccurredEvent", k!"writeBswInternalTriggerOccurredEvent_BswInternalTriggerOccurredEvent", k!"BSW-INTERNAL-TRIGGER-OCCURRED-EVENT", []⟩]
     .nil)
    k!"readBswServiceDependencyServiceNeeds_DiagnosticEventInfoNeeds" [⟨k!"readBswServiceDependencyServiceNeeds_DiagnosticEventInfoNeeds", k!"writeDiagnosticEventInfoNeeds_DiagnosticEventInfoNeeds", k!"DIAGNOSTIC-EVENT-INFO-NEEDS", []⟩]
    .nil)
   k!"readBswServiceDependencyServiceNeeds_DiagnosticIoControlNeeds" [⟨k!"readBswServiceDependencyServiceNeeds_DiagnosticIoControlNeeds", k!"writeDiagnosticIoControlNeeds_DiagnosticIoControlNeeds", k!"DIAGNOSTIC-IO-CONTROL-NEEDS", []⟩]
   (.node .nil
    k!"readBswServiceDependencyServiceNeeds_ObdRatioDenominatorNeeds" [⟨k!"readBswServiceDependencyServiceNeeds_ObdRatioDenominatorNeeds", k!"writeObdRatioDenominatorNeeds_ObdRatioDenominatorNeeds", k!"OBD-RATIO-DENOMINATOR-NEEDS", []⟩]
    .nil)))
 k!"readCompositionSwComponentTypeComponents_SwComponentPrototype" [⟨k!"readCompositionSwComponentTypeComponents_SwComponentPrototype", k!"writeSwComponentPrototype_SwComponentPrototype", k!"SW-COMPONENT-PROTOTYPE", []⟩]
 (.node (.node (.node (.node .nil
     k!"readDynamicPartDynamicPartAlternatives_DynamicPartAlternative" [⟨k!"readDynamicPartDynamicPartAlternatives_DynamicPartAlternative", k!"writeDynamicPartAlternative_DynamicPartAlternative", k!"DYNAMIC-PART-ALTERNATIVE", []⟩]
     .nil)
    k!"readEcuInstanceCommControllers_FlexrayCommunicationController" [⟨k!"readEcuInstanceCommControllers_FlexrayCommunicationController", k!"writeFlexrayCommunicationController_FlexrayCommunicationController", k!"FLEXRAY-COMMUNICATION-CONTROLLER", []⟩]
    .nil)
   k!"readEcucEnumerationParamDefLiterals_EcucEnumerationLiteralDef" [⟨k!"readEcucEnumerationParamDefLiterals_EcucEnumerationLiteralDef", k!"writeEcucEnumerationLiteralDef_EcucEnumerationLiteralDef", k!"ECUC-ENUMERATION-LITERAL-DEF", []⟩]
   (.node .nil
    k!"readEthernetCommunicationControllerCouplingPorts_CouplingPort" [⟨k!"readEthernetCommunicationControllerCouplingPorts_CouplingPort", k!"writeCouplingPort_CouplingPort", k!"COUPLING-PORT", []⟩]
    .nil))
  k!"readSwcBswMappingSwcBswRunnableMappings_SwcBswRunnableMapping" [⟨k!"readSwcBswMappingSwcBswRunnableMappings_SwcBswRunnableMapping", k!"setSwcBswRunnableMapping_SwcBswRunnableMapping", k!"SWC-BSW-RUNNABLE-MAPPING", []⟩]
  (.node (.node (.node .nil
     k!"getApplicationValueSpecification_ApplicationValueSpecification" [⟨k!"getApplicationValueSpecification_ApplicationValueSpecification", k!"writeApplicationValueSpecification_ApplicationValueSpecification", k!"APPLICATION-VALUE-SPECIFICATION", []⟩]
     .nil)
    k!"readApplicationRecordDataTypeElements_ApplicationRecordElement" [⟨k!"readApplicationRecordDataTypeElements_ApplicationRecordElement", k!"writeApplicationRecordElement_ApplicationRecordElement", k!"APPLICATION-RECORD-ELEMENT", []⟩]
    .nil)
   k!"readCompositionSwComponentTypeSwConnectors_AssemblySwConnector" [⟨k!"readCompositionSwComponentTypeSwConnectors_AssemblySwConnector", k!"writeAssemblySwConnector_AssemblySwConnector", k!"ASSEMBLY-SW-CONNECTOR", []⟩]
   (.node .nil
    k!"readEcuInstanceCommControllers_EthernetCommunicationController" [⟨k!"readEcuInstanceCommControllers_EthernetCommunicationController", k!"writeEthernetCommunicationController_EthernetCommunicationController", k!"ETHERNET-COMMUNICATION-CONTROLLER", []⟩]
    .nil))))

def pairTable50 : Bst (List Pair) :=
 (.node (.node (.node (.node (.node .nil
     k!"readModeSwitchInterfaceModeGroup_ModeDeclarationGroupPrototype" [⟨k!"readModeSwitchInterfaceModeGroup_ModeDeclarationGroupPrototype", k!"writeModeDeclarationGroupPrototype_ModeDeclarationGroupPrototype", k!"MODE-DECLARATION-GROUP-PROTOTYPE", []⟩,
    ⟨k!"readModeSwitchInterfaceModeGroup_ModeDeclarationGroupPrototype", k!"writeModeSwitchInterfaceModeGroup_ModeSwitchInterface_L5688", k!"MODE-GROUP", []⟩]
     .nil)
    k!"readPortInterfaceMappings_VariableAndParameterInterfaceMapping" [⟨k!"readPortInterfaceMappings_VariableAndParameterInterfaceMapping", k!"writeVariableAndParameterInterfaceMapping_VariableAndParameterInterfaceMapping", k!"VARIABLE-AND-PARAMETER-INTERFACE-MAPPING", []⟩]
    .nil)
   k!"readBswInternalBehaviorServiceDependencies_BswServiceDependency" [⟨k!"readBswInternalBehaviorServiceDependencies_BswServiceDependency", k!"writeBswServiceDependency_BswServiceDependency", k!"BSW-SERVICE-DEPENDENCY", []⟩]
   (.node .nil
    k!"readCommunicationClusterPhysicalChannels_FlexrayPhysicalChannel" [⟨k!"readCommunicationClusterPhysicalChannels_FlexrayPhysicalChannel", k!"writeFlexrayPhysicalChannel_FlexrayPhysicalChannel", k!"FLEXRAY-PHYSICAL-CHANNEL", []⟩]
    .nil))
  k!"readDataTransformationSetDataTransformations_DataTransformation" [⟨k!"readDataTransformationSetDataTransformations_DataTransformation", k!"writeDataTransformation_DataTransformation", k!"DATA-TRANSFORMATION", []⟩]
  (.node (.node (.node .nil
     k!"readDiagEventDebounceAlgorithm_DiagEventDebounceMonitorInternal" [⟨k!"readDiagEventDebounceAlgorithm_DiagEventDebounceMonitorInternal", k!"setDiagEventDebounceMonitorInternal_DiagEventDebounceMonitorInternal", k!"DIAG-EVENT-DEBOUNCE-MONITOR-INTERNAL", []⟩]
     .nil)
    k!"readTransformationISignalProps_DataPrototypeTransformationProps" [⟨k!"readTransformationISignalProps_DataPrototypeTransformationProps", k!"writeDataPrototypeTransformationProps_DataPrototypeTransformationProps", k!"DATA-PROTOTYPE-TRANSFORMATION-PROPS", []⟩]
    .nil)
   k!"getCompositeNetworkRepresentation_CompositeNetworkRepresentation" [⟨k!"getCompositeNetworkRepresentation_CompositeNetworkRepresentation", k!"writeCompositeNetworkRepresentation_CompositeNetworkRepresentation", k!"COMPOSITE-NETWORK-REPRESENTATION", []⟩]
   (.node .nil
    k!"getMultiLanguageOverviewParagraph_MultiLanguageOverviewParagraph" [⟨k!"getMultiLanguageOverviewParagraph_MultiLanguageOverviewParagraph", k!"setMultiLanguageOverviewParagraph_CHANGE_MultiLanguageOverviewParagraph", k!"CHANGE", []⟩,
    ⟨k!"getMultiLanguageOverviewParagraph_MultiLanguageOverviewParagraph", k!"setMultiLanguageOverviewParagraph_DESC_MultiLanguageOverviewParagraph", k!"DESC", []⟩,
    ⟨k!"getMultiLanguageOverviewParagraph_MultiLanguageOverviewParagraph", k!"setMultiLanguageOverviewParagraph_ITEM_LABEL_MultiLanguageOverviewParagraph", k!"ITEM-LABEL", []⟩,
    ⟨k!"getMultiLanguageOverviewParagraph_MultiLanguageOverviewParagraph", k!"setMultiLanguageOverviewParagraph_REASON_MultiLanguageOverviewParagraph", k!"REASON", []⟩]
    .nil)))
 k!"getSocketConnectionIpduIdentifier_SocketConnectionIpduIdentifier" [⟨k!"getSocketConnectionIpduIdentifier_SocketConnectionIpduIdentifier", k!"setSocketConnectionIpduIdentifier_SocketConnectionIpduIdentifier", k!"SOCKET-CONNECTION-IPDU-IDENTIFIER", []⟩]
 (.node (.node (.node (.node .nil
     k!"readAtomicSwComponentTypeSwcInternalBehavior_SwcInternalBehavior" [⟨k!"readAtomicSwComponentTypeSwcInternalBehavior_SwcInternalBehavior", k!"writeSwcInternalBehavior_SwcInternalBehavior", k!"SWC-INTERNAL-BEHAVIOR", []⟩]
     .nil)
    k!"readBswModuleDescriptionBswInternalBehaviors_BswInternalBehavior" [⟨k!"readBswModuleDescriptionBswInternalBehaviors_BswInternalBehavior", k!"writeBswInternalBehavior_BswInternalBehavior", k!"BSW-INTERNAL-BEHAVIOR", []⟩]
    .nil)
   k!"readCommunicationClusterPhysicalChannels_EthernetPhysicalChannel" [⟨k!"readCommunicationClusterPhysicalChannels_EthernetPhysicalChannel", k!"writeEthernetPhysicalChannel_EthernetPhysicalChannel", k!"ETHERNET-PHYSICAL-CHANNEL", []⟩]
   (.node .nil
    k!"readCompositionSwComponentTypeSwConnectors_DelegationSwConnector" [⟨k!"readCompositionSwComponentTypeSwConnectors_DelegationSwConnector", k!"writeDelegationSwConnector_DelegationSwConnector", k!"DELEGATION-SW-CONNECTOR", []⟩]
    .nil))
  k!"readSwcBswSynchronizedTrigger_PTriggerInAtomicSwcTypeInstanceRef" [⟨k!"readSwcBswSynchronizedTrigger_PTriggerInAtomicSwcTypeInstanceRef", k!"writePTriggerInAtomicSwcTypeInstanceRef_SWC_TRIGGER_IREF_PTriggerInAtomicSwcTypeInstanceRef", k!"SWC-TRIGGER-IREF", []⟩,
    ⟨k!"readSwcBswSynchronizedTrigger_PTriggerInAtomicSwcTypeInstanceRef", k!"writePTriggerInAtomicSwcTypeInstanceRef_TRIGGER_IREF_PTriggerInAtomicSwcTypeInstanceRef", k!"TRIGGER-IREF", []⟩]
  (.node (.node .nil
    k!"readSwcInternalBehaviorEvents_AsynchronousServerCallReturnsEvent" [⟨k!"readSwcInternalBehaviorEvents_AsynchronousServerCallReturnsEvent", k!"writeAsynchronousServerCallReturnsEvent_AsynchronousServerCallReturnsEvent", k!"ASYNCHRONOUS-SERVER-CALL-RETURNS-EVENT", []⟩]
    .nil)
   k!"readSwcInternalBehaviorVariationPointProxies_VariationPointProxy" [⟨k!"readSwcInternalBehaviorVariationPointProxies_VariationPointProxy", k!"writeVariationPointProxy_VariationPointProxy", k!"VARIATION-POINT-PROXY", []⟩]
   (.node .nil
    k!"readSystemMappingDataMappings_SenderReceiverToSignalGroupMapping" [⟨k!"readSystemMappingDataMappings_SenderReceiverToSignalGroupMapping", k!"writeSenderReceiverToSignalGroupMapping_SenderReceiverToSignalGroupMapping", k!"SENDER-RECEIVER-TO-SIGNAL-GROUP-MAPPING", []⟩]
    .nil))))

def pairTable51 : Bst (List Pair) :=
 .node pairTable49 k!"readMcDataInstance_ImplementationElementInParameterInstanceRef" [⟨k!"readMcDataInstance_ImplementationElementInParameterInstanceRef", k!"writeMcDataInstance_McDataInstance_L4345", k!"INSTANCE-IN-MEMORY", []⟩] pairTable50

def pairTable52 : Bst (List Pair) :=
 .node pairTable48 k!"getEcucValueConfigurationClasses_EcucValueConfigurationClass" [⟨k!"getEcucValueConfigurationClasses_EcucValueConfigurationClass", k!"writeEcucValueConfigurationClass_EcucValueConfigurationClass", k!"ECUC-VALUE-CONFIGURATION-CLASS", []⟩] pairTable51

def pairTable53 : Bst (List Pair) :=
 (.node (.node (.node (.node (.node .nil
     k!"readBswModuleDescriptionBswModuleDependencies_BswModuleDependency" [⟨k!"readBswModuleDescriptionBswModuleDependencies_BswModuleDependency", k!"writeBswModuleDescriptionBswModuleDependencies_BswModuleDescription_L5193", k!"BSW-MODULE-DEPENDENCY", []⟩]
     .nil)
    k!"readCompositionSwComponentTypeSwConnectors_PassThroughSwConnector" [⟨k!"readCompositionSwComponentTypeSwConnectors_PassThroughSwConnector", k!"writePassThroughSwConnector_PassThroughSwConnector", k!"PASS-THROUGH-SW-CONNECTOR", []⟩]
    .nil)
   k!"readConsumedServiceInstanceConsumedEventGroups_ConsumedEventGroup" [⟨k!"readConsumedServiceInstanceConsumedEventGroups_ConsumedEventGroup", k!"writeConsumedEventGroup_ConsumedEventGroup", k!"CONSUMED-EVENT-GROUP", []⟩]
   (.node .nil
    k!"readEcucParameterDerivationFormula_EcucParameterDerivationFormula" [⟨k!"readEcucParameterDerivationFormula_EcucParameterDerivationFormula", k!"writeEcucParameterDerivationFormula_EcucParameterDerivationFormula", k!"CALCULATION-FORMULA", []⟩]
    .nil))
  k!"readAssemblySwConnectorRequesterIRef_RPortInCompositionInstanceRef" [⟨k!"readAssemblySwConnectorRequesterIRef_RPortInCompositionInstanceRef", k!"writeAssemblySwConnector_AssemblySwConnector_L1696", k!"REQUESTER-IREF", []⟩]
  (.node (.node (.node .nil
     k!"readBswServiceDependencyServiceNeeds_DiagnosticOperationCycleNeeds" [⟨k!"readBswServiceDependencyServiceNeeds_DiagnosticOperationCycleNeeds", k!"writeDiagnosticOperationCycleNeeds_DiagnosticOperationCycleNeeds", k!"DIAGNOSTIC-OPERATION-CYCLE-NEEDS", []⟩]
     .nil)
    k!"readRunnableEntityExternalTriggeringPoints_ExternalTriggeringPoint" [⟨k!"readRunnableEntityExternalTriggeringPoints_ExternalTriggeringPoint", k!"writeRunnableEntityExternalTriggeringPoints_RunnableEntity_L3098", k!"EXTERNAL-TRIGGERING-POINT", []⟩]
    .nil)
   k!"readSenderReceiverInterfaceInvalidationPolicies_InvalidationPolicy" [⟨k!"readSenderReceiverInterfaceInvalidationPolicies_InvalidationPolicy", k!"writeSenderReceiverInterfaceInvalidationPolicies_SenderReceiverInterface_L4673", k!"INVALIDATION-POLICY", []⟩]
   (.node .nil
    k!"readSignalServiceTranslationPropsSet_SignalServiceTranslationProps" [⟨k!"readSignalServiceTranslationPropsSet_SignalServiceTranslationProps", k!"writeSignalServiceTranslationProps_SignalServiceTranslationProps", k!"SIGNAL-SERVICE-TRANSLATION-PROPS", []⟩]
    .nil)))
 k!"readTransformationComSpecPropss_EndToEndTransformationComSpecProps" [⟨k!"readTransformationComSpecPropss_EndToEndTransformationComSpecProps", k!"writeEndToEndTransformationComSpecProps_EndToEndTransformationComSpecProps", k!"END-TO-END-TRANSFORMATION-COM-SPEC-PROPS", []⟩]
 (.node (.node (.node (.node .nil
     k!"getIncludedModeDeclarationGroupSets_IncludedModeDeclarationGroupSet" [⟨k!"getIncludedModeDeclarationGroupSets_IncludedModeDeclarationGroupSet", k!"writeIncludedModeDeclarationGroupSet_IncludedModeDeclarationGroupSet", k!"INCLUDED-MODE-DECLARATION-GROUP-SET", []⟩]
     .nil)
    k!"getTransformationComSpecProps_UserDefinedTransformationComSpecProps" [⟨k!"getTransformationComSpecProps_UserDefinedTransformationComSpecProps", k!"writeUserDefinedTransformationComSpecProps_UserDefinedTransformationComSpecProps", k!"USER-DEFINED-TRANSFORMATION-COM-SPEC-PROPS", []⟩]
    .nil)
   k!"readBswInternalBehaviorEvents_BswAsynchronousServerCallReturnsEvent" [⟨k!"readBswInternalBehaviorEvents_BswAsynchronousServerCallReturnsEvent", k!"writeBswAsynchronousServerCallReturnsEvent_BswAsynchronousServerCallReturnsEvent", k!"BSW-ASYNCHRONOUS-SERVER-CALL-RETURNS-EVENT", []⟩]
   (.node .nil
    k!"readBswServiceDependencyServiceNeeds_DiagnosticEnableConditionNeeds" [⟨k!"readBswServiceDependencyServiceNeeds_DiagnosticEnableConditionNeeds", k!"writeDiagnosticEnableConditionNeeds_DiagnosticEnableConditionNeeds", k!"DIAGNOSTIC-ENABLE-CONDITION-NEEDS", []⟩]
    .nil))
  k!"readImplementationDataTypeSubElements_ImplementationDataTypeElement" [⟨k!"readImplementationDataTypeSubElements_ImplementationDataTypeElement", k!"writeImplementationDataTypeElement_ImplementationDataTypeElement", k!"IMPLEMENTATION-DATA-TYPE-ELEMENT", []⟩]
  (.node (.node (.node .nil
     k!"readPortGroupInnerGroupIRefs_InnerPortGroupInCompositionInstanceRef" [⟨k!"readPortGroupInnerGroupIRefs_InnerPortGroupInCompositionInstanceRef", k!"writeInnerGroupIRef_InnerPortGroupInCompositionInstanceRef", k!"INNER-GROUP-IREF", []⟩]
     .nil)
    k!"readRVariableInAtomicSwcInstanceRef_RVariableInAtomicSwcInstanceRef" [⟨k!"readRVariableInAtomicSwcInstanceRef_RVariableInAtomicSwcInstanceRef", k!"setRVariableInAtomicSwcInstanceRef_RVariableInAtomicSwcInstanceRef", k!"DATA-IREF", []⟩]
    .nil)
   k!"readSwcInternalBehaviorExclusiveAreaPolicies_SwcExclusiveAreaPolicy" [⟨k!"readSwcInternalBehaviorExclusiveAreaPolicies_SwcExclusiveAreaPolicy", k!"writeSwcInternalBehaviorExclusiveAreaPolicies_SwcInternalBehavior_L3934", k!"SWC-EXCLUSIVE-AREA-POLICY", []⟩]
   (.node .nil
    k!"getModeSwitchEventTriggeredActivity_ModeSwitchEventTriggeredActivity" [⟨k!"getModeSwitchEventTriggeredActivity_ModeSwitchEventTriggeredActivity", k!"writeModeSwitchEventTriggeredActivity_ModeSwitchEventTriggeredActivity", k!"MODE-SWITCH-EVENT-TRIGGERED-ACTIVITY", []⟩]
    .nil))))

def pairTable54 : Bst (List Pair) :=
 (.node (.node (.node (.node (.node .nil
     k!"readBswServiceDependencyServiceNeeds_SecureOnBoardCommunicationNeeds" [⟨k!"readBswServiceDependencyServiceNeeds_SecureOnBoardCommunicationNeeds", k!"writeSecureOnBoardCommunicationNeeds_SecureOnBoardCommunicationNeeds", k!"SECURE-ON-BOARD-COMMUNICATION-NEEDS", []⟩]
     .nil)
    k!"readDataPrototypeTransformationProps_DataPrototypeInPortInterfaceRef" [⟨k!"readDataPrototypeTransformationProps_DataPrototypeInPortInterfaceRef", k!"writeDataPrototypeInPortInterfaceRef_DataPrototypeInPortInterfaceRef", k!"DATA-PROTOTYPE-IN-PORT-INTERFACE-REF", []⟩]
    .nil)
   k!"readDelegationSwConnectorInnerPortIRef_PPortInCompositionInstanceRef" [⟨k!"readDelegationSwConnectorInnerPortIRef_PPortInCompositionInstanceRef", k!"writeDelegationSwConnector_DelegationSwConnector_L1710", k!"P-PORT-IN-COMPOSITION-INSTANCE-REF", []⟩]
   (.node .nil
    k!"readDelegationSwConnectorInnerPortIRef_RPortInCompositionInstanceRef" [⟨k!"readDelegationSwConnectorInnerPortIRef_RPortInCompositionInstanceRef", k!"writeDelegationSwConnector_DelegationSwConnector_L1714", k!"R-PORT-IN-COMPOSITION-INSTANCE-REF", []⟩]
    .nil))
  k!"readInstantiationRTEEventProps_InstanceEventInCompositionInstanceRef" [⟨k!"readInstantiationRTEEventProps_InstanceEventInCompositionInstanceRef", k!"writeInstantiationRTEEventProps_InstantiationTimingEventProps_L1772", k!"REFINED-EVENT-IREF", []⟩]
  (.node (.node (.node .nil
     k!"readSignalServiceTranslationProps_SignalServiceTranslationEventProps" [⟨k!"readSignalServiceTranslationProps_SignalServiceTranslationEventProps", k!"writeSignalServiceTranslationEventProps_SignalServiceTranslationEventProps", k!"SIGNAL-SERVICE-TRANSLATION-EVENT-PROPS", []⟩]
     .nil)
    k!"readBswInternalBehaviorReceptionPolicies_BswQueuedDataReceptionPolicy" [⟨k!"readBswInternalBehaviorReceptionPolicies_BswQueuedDataReceptionPolicy", k!"writeBswQueuedDataReceptionPolicy_BswQueuedDataReceptionPolicy", k!"BSW-QUEUED-DATA-RECEPTION-POLICY", []⟩]
    .nil)
   k!"readBswServiceDependencyServiceNeeds_DtcStatusChangeNotificationNeeds" [⟨k!"readBswServiceDependencyServiceNeeds_DtcStatusChangeNotificationNeeds", k!"writeDtcStatusChangeNotificationNeeds_DtcStatusChangeNotificationNeeds", k!"DTC-STATUS-CHANGE-NOTIFICATION-NEEDS", []⟩]
   (.node .nil
    k!"readSwSystemconstantValueSetSwSystemconstantValues_SwSystemconstValue" [⟨k!"readSwSystemconstantValueSetSwSystemconstantValues_SwSystemconstValue", k!"writeSwSystemconstValue_SwSystemconstValue", k!"SW-SYSTEMCONST-VALUE", []⟩]
    .nil)))
 k!"getRoleBasedBswModuleEntryAssignment_RoleBasedBswModuleEntryAssignment" [⟨k!"getRoleBasedBswModuleEntryAssignment_RoleBasedBswModuleEntryAssignment", k!"writeRoleBasedBswModuleEntryAssignment_RoleBasedBswModuleEntryAssignment", k!"ROLE-BASED-BSW-MODULE-ENTRY-ASSIGNMENT", []⟩]
 (.node (.node (.node (.node .nil
     k!"readCouplingPortDetailsCouplingPortStructuralElements_CouplingPortFifo" [⟨k!"readCouplingPortDetailsCouplingPortStructuralElements_CouplingPortFifo", k!"writeCouplingPortFifo_CouplingPortFifo", k!"COUPLING-PORT-FIFO", []⟩]
     .nil)
    k!"readFlexrayAbsolutelyScheduledTimingCommunicationCycle_CycleRepetition" [⟨k!"readFlexrayAbsolutelyScheduledTimingCommunicationCycle_CycleRepetition", k!"writeCycleRepetition_CycleRepetition", k!"CYCLE-REPETITION", []⟩]
    .nil)
   k!"readRunnableEntityExternalTriggeringPoints_ExternalTriggeringPointIdent" [⟨k!"readRunnableEntityExternalTriggeringPoints_ExternalTriggeringPointIdent", k!"writeBswServiceDependencyIdent_BswServiceDependencyIdent", k!"IDENT", []⟩]
   (.node .nil
    k!"getVariableInAtomicSWCTypeInstanceRef_VariableInAtomicSWCTypeInstanceRef" [⟨k!"getVariableInAtomicSWCTypeInstanceRef_VariableInAtomicSWCTypeInstanceRef", k!"setVariableInAtomicSWCTypeInstanceRef_AUTOSAR_VARIABLE_IREF_VariableInAtomicSWCTypeInstanceRef", k!"AUTOSAR-VARIABLE-IREF", []⟩]
    .nil))
  k!"readBswServiceDependencyServiceNeeds_DiagnosticCommunicationManagerNeeds" [⟨k!"readBswServiceDependencyServiceNeeds_DiagnosticCommunicationManagerNeeds", k!"writeDiagnosticCommunicationManagerNeeds_DiagnosticCommunicationManagerNeeds", k!"DIAGNOSTIC-COMMUNICATION-MANAGER-NEEDS", []⟩]
  (.node (.node .nil
    k!"readBswServiceDependencyServiceNeeds_FunctionInhibitionAvailabilityNeeds" [⟨k!"readBswServiceDependencyServiceNeeds_FunctionInhibitionAvailabilityNeeds", k!"writeFunctionInhibitionAvailabilityNeeds_FunctionInhibitionAvailabilityNeeds", k!"FUNCTION-INHIBITION-AVAILABILITY-NEEDS", []⟩]
    .nil)
   k!"readISignalTransformationISignalProps_EndToEndTransformationISignalProps" [⟨k!"readISignalTransformationISignalProps_EndToEndTransformationISignalProps", k!"writeEndToEndTransformationISignalProps_EndToEndTransformationISignalProps", k!"END-TO-END-TRANSFORMATION-I-SIGNAL-PROPS", []⟩]
   (.node .nil
    k!"readModeInterfaceMappingModeMapping_ModeDeclarationGroupPrototypeMapping" [⟨k!"readModeInterfaceMappingModeMapping_ModeDeclarationGroupPrototypeMapping", k!"writeModeInterfaceMappingModeMapping_ModeInterfaceMapping_L8150", k!"MODE-MAPPING", []⟩]
    .nil))))

def pairTable55 : Bst (List Pair) :=
 .node pairTable53 k!"readBswServiceDependencyServiceNeeds_DiagnosticStorageConditionNeeds" [⟨k!"readBswServiceDependencyServiceNeeds_DiagnosticStorageConditionNeeds", k!"writeDiagnosticStorageConditionNeeds_DiagnosticStorageConditionNeeds", k!"DIAGNOSTIC-STORAGE-CONDITION-NEEDS", []⟩] pairTable54

def pairTable56 : Bst (List Pair) :=
 (.node (.node (.node (.node (.node .nil
     k!"getEcucMultiplicityConfigurationClasses_EcucMultiplicityConfigurationClass" [⟨k!"getEcucMultiplicityConfigurationClasses_EcucMultiplicityConfigurationClass", k!"writeEcucMultiplicityConfigurationClass_EcucMultiplicityConfigurationClass", k!"ECUC-MULTIPLICITY-CONFIGURATION-CLASS", []⟩]
     .nil)
    k!"getParameterInAtomicSWCTypeInstanceRef_ParameterInAtomicSWCTypeInstanceRef" [⟨k!"getParameterInAtomicSWCTypeInstanceRef_ParameterInAtomicSWCTypeInstanceRef", k!"setParameterInAtomicSWCTypeInstanceRef_AUTOSAR_PARAMETER_IREF_ParameterInAtomicSWCTypeInstanceRef", k!"AUTOSAR-PARAMETER-IREF", []⟩]
    .nil)
   k!"readBswInternalBehaviorInternalTriggeringPoints_BswInternalTriggeringPoint" [⟨k!"readBswInternalBehaviorInternalTriggeringPoints_BswInternalTriggeringPoint", k!"writeBswInternalTriggeringPoint_BswInternalTriggeringPoint", k!"BSW-INTERNAL-TRIGGERING-POINT", []⟩]
   (.node .nil
    k!"readBswServiceDependencyServiceNeeds_DoIpRoutingActivationConfirmationNeeds" [⟨k!"readBswServiceDependencyServiceNeeds_DoIpRoutingActivationConfirmationNeeds", k!"writeDoIpRoutingActivationConfirmationNeeds_DoIpRoutingActivationConfirmationNeeds", k!"DO-IP-ROUTING-ACTIVATION-CONFIRMATION-NEEDS", []⟩]
    .nil))
  k!"readCouplingPortDetailsCouplingPortStructuralElements_CouplingPortScheduler" [⟨k!"readCouplingPortDetailsCouplingPortStructuralElements_CouplingPortScheduler", k!"writeCouplingPortScheduler_CouplingPortScheduler", k!"COUPLING-PORT-SCHEDULER", []⟩]
  (.node (.node (.node .nil
     k!"readSignalServiceTranslationEventProps_SignalServiceTranslationElementProps" [⟨k!"readSignalServiceTranslationEventProps_SignalServiceTranslationElementProps", k!"writeSignalServiceTranslationElementProps_SignalServiceTranslationElementProps", k!"SIGNAL-SERVICE-TRANSLATION-ELEMENT-PROPS", []⟩]
     .nil)
    k!"getCompositeRuleBasedValueSpecification_CompositeRuleBasedValueSpecification" [⟨k!"getCompositeRuleBasedValueSpecification_CompositeRuleBasedValueSpecification", k!"writeCompositeRuleBasedValueSpecification_CompositeRuleBasedValueSpecification", k!"COMPOSITE-RULE-BASED-VALUE-SPECIFICATION", []⟩]
    .nil)
   k!"readDataTransformationSetTransformationTechnologies_TransformationTechnology" [⟨k!"readDataTransformationSetTransformationTechnologies_TransformationTechnology", k!"writeTransformationTechnology_TransformationTechnology", k!"TRANSFORMATION-TECHNOLOGY", []⟩]
   (.node .nil
    k!"readSenderReceiverToSignalGroupMappingTypeMapping_SenderRecRecordTypeMapping" [⟨k!"readSenderReceiverToSignalGroupMappingTypeMapping_SenderRecRecordTypeMapping", k!"writeSenderRecRecordTypeMapping_SenderRecRecordTypeMapping", k!"SENDER-REC-RECORD-TYPE-MAPPING", []⟩]
    .nil)))
 k!"readBswServiceDependencyServiceNeeds_DoIpRoutingActivationAuthenticationNeeds" [⟨k!"readBswServiceDependencyServiceNeeds_DoIpRoutingActivationAuthenticationNeeds", k!"writeDoIpRoutingActivationAuthenticationNeeds_DoIpRoutingActivationAuthenticationNeeds", k!"DO-IP-ROUTING-ACTIVATION-AUTHENTICATION-NEEDS", []⟩]
 (.node (.node (.node (.node .nil
     k!"readSwcBswSynchronizedModeGroupPrototype_SwcBswSynchronizedModeGroupPrototype" [⟨k!"readSwcBswSynchronizedModeGroupPrototype_SwcBswSynchronizedModeGroupPrototype", k!"writeSwcBswSynchronizedModeGroupPrototype_SwcBswSynchronizedModeGroupPrototype", k!"SWC-BSW-SYNCHRONIZED-MODE-GROUP-PROTOTYPE", []⟩]
     .nil)
    k!"getModeInBswModuleDescriptionInstanceRef_ModeInBswModuleDescriptionInstanceRef" [⟨k!"getModeInBswModuleDescriptionInstanceRef_ModeInBswModuleDescriptionInstanceRef", k!"setModeInBswModuleDescriptionInstanceRef_DISABLED_IN_MODE_IREF_ModeInBswModuleDescriptionInstanceRef", k!"DISABLED-IN-MODE-IREF", []⟩,
    ⟨k!"getModeInBswModuleDescriptionInstanceRef_ModeInBswModuleDescriptionInstanceRef", k!"setModeInBswModuleDescriptionInstanceRef_MODE_IREF_ModeInBswModuleDescriptionInstanceRef", k!"MODE-IREF", []⟩]
    .nil)
   k!"readBswModuleDescriptionProvidedClientServerEntries_BswModuleClientServerEntry" [⟨k!"readBswModuleDescriptionProvidedClientServerEntries_BswModuleClientServerEntry", k!"writeBswModuleClientServerEntry_BswModuleClientServerEntry", k!"BSW-MODULE-CLIENT-SERVER-ENTRY", []⟩]
   (.node .nil
    k!"readClientServerInterfaceMappingOperationMappings_ClientServerOperationMapping" [⟨k!"readClientServerInterfaceMappingOperationMappings_ClientServerOperationMapping", k!"writeClientServerOperationMapping_ClientServerOperationMapping", k!"CLIENT-SERVER-OPERATION-MAPPING", []⟩]
    .nil))
  k!"readSecureCommunicationPropsSetFreshnessProps_SecureCommunicationFreshnessProps" [⟨k!"readSecureCommunicationPropsSetFreshnessProps_SecureCommunicationFreshnessProps", k!"writeSecureCommunicationFreshnessProps_SecureCommunicationFreshnessProps", k!"SECURE-COMMUNICATION-FRESHNESS-PROPS", []⟩]
  (.node (.node (.node .nil
     k!"readSenderRecArrayTypeMappingRecordElementMapping_SenderRecRecordElementMapping" [⟨k!"readSenderRecArrayTypeMappingRecordElementMapping_SenderRecRecordElementMapping", k!"writeSenderRecRecordElementMapping_SenderRecRecordElementMapping", k!"SENDER-REC-RECORD-ELEMENT-MAPPING", []⟩]
     .nil)
    k!"getApplicationRuleBasedValueSpecification_ApplicationRuleBasedValueSpecification" [⟨k!"getApplicationRuleBasedValueSpecification_ApplicationRuleBasedValueSpecification", k!"writeApplicationRuleBasedValueSpecification_ApplicationRuleBasedValueSpecification", k!"APPLICATION-RULE-BASED-VALUE-SPECIFICATION", []⟩]
    .nil)
   k!"readCouplingPortDetailsEthernetPriorityRegenerations_EthernetPriorityRegeneration" [⟨k!"readCouplingPortDetailsEthernetPriorityRegenerations_EthernetPriorityRegeneration", k!"writeEthernetPriorityRegeneration_EthernetPriorityRegeneration", k!"ETHERNET-PRIORITY-REGENERATION", []⟩]
   (.node .nil
    k!"readRunnableEntityGroupRunnableEntityIRefs_RunnableEntityInCompositionInstanceRef" [⟨k!"readRunnableEntityGroupRunnableEntityIRefs_RunnableEntityInCompositionInstanceRef", k!"writeRunnableEntityInCompositionInstanceRef_RUNNABLE_ENTITY_IREF_RunnableEntityInCompositionInstanceRef", k!"RUNNABLE-ENTITY-IREF", []⟩]
    .nil))))

def pairTable57 : Bst (List Pair) :=
 (.node (.node (.node (.node (.node .nil
     k!"readDataPrototypeInPortInterfaceRef_DataPrototypeInClientServerInterfaceInstanceRef" [⟨k!"readDataPrototypeInPortInterfaceRef_DataPrototypeInClientServerInterfaceInstanceRef", k!"writeDataPrototypeInClientServerInterfaceInstanceRef_DataPrototypeInClientServerInterfaceInstanceRef", k!"DATA-PROTOTYPE-IN-CLIENT-SERVER-INTERFACE-REF", []⟩]
     .nil)
    k!"readSocketAddressApplicationEndpointProvidedServiceInstance_ProvidedServiceInstance" [⟨k!"readSocketAddressApplicationEndpointProvidedServiceInstance_ProvidedServiceInstance", k!"writeProvidedServiceInstance_ProvidedServiceInstance", k!"PROVIDED-SERVICE-INSTANCE", []⟩]
    .nil)
   k!"getCanControllerFdConfigurationRequirements_CanControllerFdConfigurationRequirements" [⟨k!"getCanControllerFdConfigurationRequirements_CanControllerFdConfigurationRequirements", k!"setCanControllerFdConfigurationRequirements_CAN_CONTROLLER_FD_REQUIREMENTS_CanControllerFdConfigurationRequirements", k!"CAN-CONTROLLER-FD-REQUIREMENTS", []⟩]
   (.node .nil
    k!"getCanControllerXlConfigurationRequirements_CanControllerXlConfigurationRequirements" [⟨k!"getCanControllerXlConfigurationRequirements_CanControllerXlConfigurationRequirements", k!"setCanControllerXlConfigurationRequirements_CAN_CONTROLLER_XL_REQUIREMENTS_CanControllerXlConfigurationRequirements", k!"CAN-CONTROLLER-XL-REQUIREMENTS", []⟩]
    .nil))
  k!"getVariableDataPrototypeInSystemInstanceRef_VariableDataPrototypeInSystemInstanceRef" [⟨k!"getVariableDataPrototypeInSystemInstanceRef_VariableDataPrototypeInSystemInstanceRef", k!"setVariableDataPrototypeInSystemInstanceRef_DATA_ELEMENT_IREF_VariableDataPrototypeInSystemInstanceRef", k!"DATA-ELEMENT-IREF", []⟩,
    ⟨k!"getVariableDataPrototypeInSystemInstanceRef_VariableDataPrototypeInSystemInstanceRef", k!"setVariableDataPrototypeInSystemInstanceRef_RECEIVER_IREF_VariableDataPrototypeInSystemInstanceRef", k!"RECEIVER-IREF", []⟩,
    ⟨k!"getVariableDataPrototypeInSystemInstanceRef_VariableDataPrototypeInSystemInstanceRef", k!"setVariableDataPrototypeInSystemInstanceRef_SENDER_IREF_VariableDataPrototypeInSystemInstanceRef", k!"SENDER-IREF", []⟩,
    ⟨k!"getVariableDataPrototypeInSystemInstanceRef_VariableDataPrototypeInSystemInstanceRef", k!"setVariableDataPrototypeInSystemInstanceRef_TRANSLATION_TARGET_VariableDataPrototypeInSystemInstanceRef", k!"TRANSLATION-TARGET", []⟩]
  (.node (.node (.node .nil
     k!"readSocketAddressApplicationEndpointConsumedServiceInstances_ConsumedServiceInstance" [⟨k!"readSocketAddressApplicationEndpointConsumedServiceInstances_ConsumedServiceInstance", k!"writeConsumedServiceInstance_ConsumedServiceInstance", k!"CONSUMED-SERVICE-INSTANCE", []⟩]
     .nil)
    k!"readFlexrayFrameTriggeringAbsolutelyScheduledTimings_FlexrayAbsolutelyScheduledTiming" [⟨k!"readFlexrayFrameTriggeringAbsolutelyScheduledTimings_FlexrayAbsolutelyScheduledTiming", k!"writeFlexrayAbsolutelyScheduledTiming_FlexrayAbsolutelyScheduledTiming", k!"FLEXRAY-ABSOLUTELY-SCHEDULED-TIMING", []⟩]
    .nil)
   k!"readRunnableEntityAsynchronousServerCallResultPoint_AsynchronousServerCallResultPoint" [⟨k!"readRunnableEntityAsynchronousServerCallResultPoint_AsynchronousServerCallResultPoint", k!"writeRunnableEntityAsynchronousServerCallResultPoint_RunnableEntity_L3172", k!"ASYNCHRONOUS-SERVER-CALL-RESULT-POINT", []⟩]
   (.node .nil
    k!"readCompositionSwComponentTypeInstantiationRTEEventProps_InstantiationTimingEventProps" [⟨k!"readCompositionSwComponentTypeInstantiationRTEEventProps_InstantiationTimingEventProps", k!"writeInstantiationRTEEventProps_InstantiationTimingEventProps", k!"INSTANTIATION-TIMING-EVENT-PROPS", []⟩]
    .nil)))
 k!"readSwcInternalBehaviorIncludedModeDeclarationGroupSets_IncludedModeDeclarationGroupSet" [⟨k!"readSwcInternalBehaviorIncludedModeDeclarationGroupSets_IncludedModeDeclarationGroupSet", k!"writeIncludedModeDeclarationGroupSet_IncludedModeDeclarationGroupSet", k!"INCLUDED-MODE-DECLARATION-GROUP-SET", []⟩]
 (.node (.node (.node (.node .nil
     k!"readTransformationTechnologyTransformationDescriptions_EndToEndTransformationDescription" [⟨k!"readTransformationTechnologyTransformationDescriptions_EndToEndTransformationDescription", k!"writeEndToEndTransformationDescription_EndToEndTransformationDescription", k!"END-TO-END-TRANSFORMATION-DESCRIPTION", []⟩]
     .nil)
    k!"readSecureCommunicationPropsSetAuthenticationProps_SecureCommunicationAuthenticationProps" [⟨k!"readSecureCommunicationPropsSetAuthenticationProps_SecureCommunicationAuthenticationProps", k!"writeSecureCommunicationAuthenticationProps_SecureCommunicationAuthenticationProps", k!"SECURE-COMMUNICATION-AUTHENTICATION-PROPS", []⟩]
    .nil)
   k!"readDataPrototypeGroupImplicitDataAccessIRefs_VariableDataPrototypeInCompositionInstanceRef" [⟨k!"readDataPrototypeGroupImplicitDataAccessIRefs_VariableDataPrototypeInCompositionInstanceRef", k!"writeVariableDataPrototypeInCompositionInstanceRef_IMPLICIT_DATA_ACCESS_IREF_VariableDataPrototypeInCompositionInstanceRef", k!"IMPLICIT-DATA-ACCESS-IREF", []⟩]
   (.node .nil
    k!"readDataPrototypeGroupDataPrototypeGroupIRefs_InnerDataPrototypeGroupInCompositionInstanceRef" [⟨k!"readDataPrototypeGroupDataPrototypeGroupIRefs_InnerDataPrototypeGroupInCompositionInstanceRef", k!"writeInnerDataPrototypeGroupInCompositionInstanceRef_DATA_PROTOTYPE_GROUP_IREF_InnerDataPrototypeGroupInCompositionInstanceRef", k!"DATA-PROTOTYPE-GROUP-IREF", []⟩]
    .nil))
  k!"readEndToEndProtectionEndToEndProtectionVariablePrototypes_EndToEndProtectionVariablePrototype" [⟨k!"readEndToEndProtectionEndToEndProtectionVariablePrototypes_EndToEndProtectionVariablePrototype", k!"writeEndToEndProtectionVariablePrototype_EndToEndProtectionVariablePrototype", k!"END-TO-END-PROTECTION-VARIABLE-PROTOTYPE", []⟩]
  (.node (.node .nil
    k!"readRunnableEntityGroupRunnableEntityGroupIRefs_InnerRunnableEntityGroupInCompositionInstanceRef" [⟨k!"readRunnableEntityGroupRunnableEntityGroupIRefs_InnerRunnableEntityGroupInCompositionInstanceRef", k!"writeInnerRunnableEntityGroupInCompositionInstanceRef_RUNNABLE_ENTITY_GROUP_IREF_InnerRunnableEntityGroupInCompositionInstanceRef", k!"RUNNABLE-ENTITY-GROUP-IREF", []⟩]
    .nil)
   k!"readAbstractCanCommunicationControllerCanControllerAttributes_CanControllerConfigurationRequirements" [⟨k!"readAbstractCanCommunicationControllerCanControllerAttributes_CanControllerConfigurationRequirements", k!"writeCanControllerConfigurationRequirements_CanControllerConfigurationRequirements", k!"CAN-CONTROLLER-CONFIGURATION-REQUIREMENTS", []⟩]
   (.node .nil
    k!"getApplicationCompositeElementInPortInterfaceInstanceRef_ApplicationCompositeElementInPortInterfaceInstanceRef" [⟨k!"getApplicationCompositeElementInPortInterfaceInstanceRef_ApplicationCompositeElementInPortInterfaceInstanceRef", k!"setApplicationCompositeElementInPortInterfaceInstanceRef_LEAF_ELEMENT_IREF_ApplicationCompositeElementInPortInterfaceInstanceRef", k!"LEAF-ELEMENT-IREF", []⟩,
    ⟨k!"getApplicationCompositeElementInPortInterfaceInstanceRef_ApplicationCompositeElementInPortInterfaceInstanceRef", k!"setSubElementMapping_SubElementMapping_L8093", k!"APPLICATION-COMPOSITE-ELEMENT-IREF", []⟩]
    .nil))))

def pairTable58 : Bst (List Pair) :=
 .node pairTable56 k!"readEndToEndProtectionEndToEndProtectionISignalIPdus_EndToEndProtectionISignalIPdu" [⟨k!"readEndToEndProtectionEndToEndProtectionISignalIPdus_EndToEndProtectionISignalIPdu", k!"writeEndToEndProtectionISignalIPdu_EndToEndProtectionISignalIPdu", k!"END-TO-END-PROTECTION-I-SIGNAL-I-PDU", []⟩] pairTable57

def pairTable59 : Bst (List Pair) :=
 .node pairTable55 k!"readTransmissionAcknowledgementRequest_TransmissionAcknowledgementRequest" [⟨k!"readTransmissionAcknowledgementRequest_TransmissionAcknowledgementRequest", k!"writeTransmissionAcknowledgementRequest_TransmissionAcknowledgementRequest", k!"TRANSMISSION-ACKNOWLEDGE", []⟩] pairTable58

def pairTable60 : Bst (List Pair) :=
 .node pairTable52 k!"readAssemblySwConnectorProviderIRef_PPortInCompositionInstanceRef" [⟨k!"readAssemblySwConnectorProviderIRef_PPortInCompositionInstanceRef", k!"writeAssemblySwConnector_AssemblySwConnector_L1689", k!"PROVIDER-IREF", []⟩] pairTable59

def pairTable61 : Bst (List Pair) :=
 .node pairTable45 k!"readBswServiceDependencyServiceNeeds_EcuStateMgrUserNeeds" [⟨k!"readBswServiceDependencyServiceNeeds_EcuStateMgrUserNeeds", k!"writeEcuStateMgrUserNeeds_EcuStateMgrUserNeeds", k!"ECU-STATE-MGR-USER-NEEDS", []⟩] pairTable60

def pairTable62 : Bst (List Pair) :=
 .node pairTable30 k!"readSwcServiceDependency_SwcServiceDependency" [⟨k!"readSwcServiceDependency_SwcServiceDependency", k!"writeSwcServiceDependency_SwcServiceDependency", k!"SWC-SERVICE-DEPENDENCY", []⟩] pairTable61

/-- the pairs for a reader method -/
def pairTable : Bst (List Pair) := pairTable62

end Verif.Gen
